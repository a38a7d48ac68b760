import Mathlib.Data.Nat.ModEq
import Mathlib.Tactic.Linarith

/-! The end of a Montgomery reduction. -/
namespace Verif.X86.Sym

/-- The final conditional subtraction of a Montgomery reduction. -/
theorem mont_end {p r v m n z : Nat} (hv : r * v = n + p * m) (hz : z = if p ≤ v then v - p else v) (h2 : v < 2 * p) :
    z < p ∧ z * r % p = n % p := by
  have : v * r = n + p * m := by rw [Nat.mul_comm]; exact hv
  by_cases h : p ≤ v
  · rw [if_pos h] at hz
    refine ⟨by omega, ?_⟩
    have e : (z + p) * r = n + p * m := by rw [hz, Nat.sub_add_cancel h]; exact this
    have e2 : (z * r + p * r) % p = (n + p * m) % p := by rw [← Nat.add_mul, e]
    rwa [Nat.add_mul_mod_self_left, Nat.add_mul_mod_self_left] at e2
  · rw [if_neg h] at hz
    refine ⟨by omega, ?_⟩
    rw [hz, this, Nat.add_mul_mod_self_left]

theorem tomont_end {p r k x z : Nat} (hk : r * r % p = k % p) (hg : Nat.gcd p r = 1) (h1 : z < p)
    (h2 : z * r % p = x * k % p) : z = x * r % p := by
  have e : Nat.ModEq p (z * r) (x * r * r) := by
    show z * r % p = _ % p
    rw [h2, Nat.mul_assoc, Nat.mul_mod x k, Nat.mul_mod x (r * r), hk]
  have := Nat.ModEq.cancel_right_of_coprime hg e
  rw [← Nat.mod_eq_of_lt h1]
  exact this

end Verif.X86.Sym
