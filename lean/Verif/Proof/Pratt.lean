import Mathlib.NumberTheory.LucasPrimality
import Mathlib.Tactic.NormNum.Prime

/-! Primality by Lucas' test with the factors of `p - 1`, evaluated by the kernel. -/
namespace Verif.Pratt

/-- Modular exponentiation the kernel can evaluate. -/
def powMod (a n : Nat) : Nat → Nat → Nat
  | 0, _ => 1 % n
  | f + 1, e => powMod a n f (e / 2) ^ 2 * (if e % 2 = 1 then a else 1) % n

theorem powMod_eq (a n : Nat) : ∀ f e, e < 2 ^ f → powMod a n f e = a ^ e % n
  | 0, e, h => by
    have : e = 0 := by simpa using h
    subst this; rfl
  | f + 1, e, h => by
    rw [powMod, powMod_eq a n f (e / 2) (by rw [Nat.pow_succ] at h; omega), Nat.mul_mod, ← Nat.pow_mod, ← Nat.mul_mod, ← pow_mul]
    congr 1
    have : e = e / 2 * 2 + e % 2 := by omega
    conv => rhs; rw [this, pow_add]
    rcases Nat.mod_two_eq_zero_or_one e with h | h <;> simp [h]

theorem prime_of (p a f : Nat) (hf : p - 1 < 2 ^ f) (h1 : 1 < p) (qs : List Nat) (hqs : ∀ r : Nat, r.Prime → r ∣ p - 1 → r ∈ qs)
    (h : powMod a p f (p - 1) = 1) (hd : ∀ r ∈ qs, powMod a p f ((p - 1) / r) ≠ 1) : p.Prime := by
  have key : ∀ e, e < 2 ^ f → ((a : ZMod p) ^ e = 1 ↔ powMod a p f e = 1) := by
    intro e he
    rw [powMod_eq a p f e he]
    have := ZMod.natCast_eq_natCast_iff' (a ^ e) 1 p
    rw [Nat.cast_pow, Nat.cast_one, Nat.mod_eq_of_lt h1] at this
    exact this
  refine lucas_primality p (a : ZMod p) ((key _ hf).2 h) fun r hr hrd => ?_
  rw [Ne, key _ (Nat.lt_of_le_of_lt (Nat.div_le_self _ _) hf)]
  exact hd r (hqs r hr hrd)

/-- Lucas' test from a list of prime factors with exponents. -/
theorem pratt (p a f : Nat) (fs : List (Nat × Nat)) (hfs : ∀ x ∈ fs, x.1.Prime)
    (hp : (decide (p - 1 < 2 ^ f ∧ 1 < p ∧ p - 1 = (fs.map fun x => x.1 ^ x.2).prod ∧ powMod a p f (p - 1) = 1) &&
      fs.all fun x => decide (powMod a p f ((p - 1) / x.1) ≠ 1)) = true) : p.Prime := by
  rw [Bool.and_eq_true, decide_eq_true_eq, List.all_eq_true] at hp
  obtain ⟨⟨h1, h2, h3, h4⟩, h5⟩ := hp
  refine prime_of p a f h1 h2 (fs.map (·.1)) (fun r hr hd => ?_) h4 (fun r hr => ?_)
  · rw [h3, Prime.dvd_prod_iff hr.prime] at hd
    obtain ⟨y, hy, hd⟩ := hd
    obtain ⟨x, hx, rfl⟩ := List.mem_map.1 hy
    have := (Nat.prime_dvd_prime_iff_eq hr (hfs x hx)).1 (hr.dvd_of_dvd_pow hd)
    exact List.mem_map.2 ⟨x, hx, this.symm⟩
  · obtain ⟨x, hx, rfl⟩ := List.mem_map.1 hr
    simpa using h5 x hx

end Verif.Pratt
