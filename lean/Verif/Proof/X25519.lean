import Verif.Proof.Ladder
import Mathlib.FieldTheory.IsAlgClosed.AlgebraicClosure
import Mathlib.FieldTheory.Finite.Basic

/-!
X25519 is multiplication of points of curve25519, and commutes.
-/
namespace Verif.X25519
open Verif.Mg Verif.Ladder Verif.Spec.X25519 Verif.Spec.Ed25519

variable {K : Type} [Field K] [DecidableEq K]

theorem inv_eq (z : F) : z ^ (p - 2) = z⁻¹ := by
  have hp : 2 < p := by decide +kernel
  rcases eq_or_ne z 0 with rfl | h
  · rw [inv_zero, zero_pow (by omega)]
  · apply eq_inv_of_mul_eq_one_left
    rw [← pow_succ, show p - 2 + 1 = p - 1 by omega]
    exact ZMod.pow_card_sub_one_eq_one h

theorem scalarMult_zero (k : Nat) : scalarMult k 0 = 0 := by
  rw [scalarMult, inv_eq, ladder_zero, inv_zero, mul_zero]

theorem two_ne (f : F →+* K) : (2 : K) ≠ 0 := by
  have h : (2 : F) ≠ 0 := by decide +kernel
  intro h2
  exact h (f.injective (by rw [map_ofNat, h2, map_zero]))

theorem A_ne (f : F →+* K) : (486662 : K) ^ 2 ≠ 4 := by
  have h : (486662 : F) ^ 2 ≠ 4 := by decide +kernel
  intro h2
  exact h (f.injective (by rw [map_pow, map_ofNat, map_ofNat, h2]))

/-- The result is the x coordinate of `k P`, or 0 if that is the point at infinity. -/
theorem scalarMult_spec (f : F →+* K) {P : (M (486662 : K)).Point} {u : F} {v : K} (hP : IsPt P (f u) v) (hu : u ≠ 0) {k : Nat} (hk : k < 2 ^ 255) :
    (k • P = 0 ∧ scalarMult k u = 0) ∨ ∃ y, IsPt (k • P) (f (scalarMult k u)) y := by
  have h := ladder_rep hP (by rw [Ne, map_eq_zero_iff f f.injective]; exact hu) (two_ne f) (A_ne f) (by norm_num) hk
  rw [ladder_map] at h
  simp only [scalarMult, inv_eq]
  rcases h with ⟨h1, h2, -⟩ | ⟨x, y, h1, h2, h3⟩
  · left
    have : (ladder k u).z2 = 0 := (map_eq_zero_iff f f.injective).1 h2
    rw [this, inv_zero, mul_zero]
    exact ⟨h1, rfl⟩
  · right
    refine ⟨y, ?_⟩
    have hz : f (ladder k u).z2 ≠ 0 := h2
    have h3' : f (ladder k u).x2 = x * f (ladder k u).z2 := h3
    rw [map_mul, map_inv₀, h3', mul_assoc, mul_inv_cancel₀ hz, mul_one]
    exact h1

noncomputable instance : DecidableEq (AlgebraicClosure F) := Classical.decEq _

/-- Every `u` is the x coordinate of a point over the algebraic closure. -/
theorem exists_pt (u : F) : ∃ (P : (M (486662 : AlgebraicClosure F)).Point) (v : AlgebraicClosure F), IsPt P (algebraMap F _ u) v := by
  obtain ⟨v, hv⟩ := IsAlgClosed.exists_pow_nat_eq (k := AlgebraicClosure F)
    ((algebraMap F (AlgebraicClosure F) u) ^ 3 + 486662 * (algebraMap F (AlgebraicClosure F) u) ^ 2 + algebraMap F _ u) (n := 2) (by decide)
  obtain ⟨P, hP⟩ := exists_of_eqn (two_ne (algebraMap F (AlgebraicClosure F))) (A_ne (algebraMap F _)) hv
  exact ⟨P, v, hP⟩

/-- The point with x coordinate 0 has order 2. -/
theorem two_torsion (f : F →+* K) {P : (M (486662 : K)).Point} {v : K} (hP : IsPt P 0 v) : P + P = 0 := by
  refine (hP.add_self_zero (two_ne f)).2 ?_
  have := hP.eqn
  have h : v ^ 2 = 0 := by rw [this]; ring
  exact pow_eq_zero_iff (two_ne_zero) |>.1 h

theorem even_smul {G : Type} [AddCommGroup G] {P : G} (h : P + P = 0) {a : Nat} (ha : a % 2 = 0) : a • P = 0 := by
  obtain ⟨b, rfl⟩ : ∃ b, a = b * 2 := ⟨a / 2, by omega⟩
  rw [mul_nsmul', two_nsmul, h, nsmul_zero]

/-- If `X25519(b, u)` is zero, then so is `X25519(b, X25519(a, u))` for even `a`, `b`. -/
theorem zero_of_zero {a b : Nat} (ha : a < 2 ^ 255) (hb : b < 2 ^ 255) (ha2 : a % 2 = 0) {u : F} (h : scalarMult b u = 0) :
    scalarMult b (scalarMult a u) = 0 := by
  by_cases hu : u = 0
  · rw [hu, scalarMult_zero, scalarMult_zero]
  by_cases hw : scalarMult a u = 0
  · rw [hw, scalarMult_zero]
  obtain ⟨P, v, hP⟩ := exists_pt u
  have hab : a • b • P = 0 := by
    rcases scalarMult_spec _ hP hu hb with ⟨h1, -⟩ | ⟨y, h1⟩
    · rw [h1, nsmul_zero]
    · rw [h, map_zero] at h1
      exact even_smul (two_torsion (algebraMap F _) h1) ha2
  rcases scalarMult_spec _ hP hu ha with ⟨-, h1⟩ | ⟨y, h1⟩
  · exact absurd h1 hw
  · rcases scalarMult_spec _ h1 hw hb with ⟨-, h2⟩ | ⟨z, h2⟩
    · exact h2
    · rw [← mul_nsmul, mul_comm, mul_nsmul, hab] at h2
      exact absurd rfl h2.ne_zero

/-- `X25519(a, X25519(b, u)) = X25519(b, X25519(a, u))` for even scalars, every `u`. -/
theorem scalarMult_comm {a b : Nat} (ha : a < 2 ^ 255) (hb : b < 2 ^ 255) (ha2 : a % 2 = 0) (hb2 : b % 2 = 0) (u : F) :
    scalarMult a (scalarMult b u) = scalarMult b (scalarMult a u) := by
  by_cases hu : u = 0
  · rw [hu, scalarMult_zero, scalarMult_zero, scalarMult_zero]
  by_cases hwa : scalarMult a u = 0
  · rw [zero_of_zero hb ha hb2 hwa, hwa, scalarMult_zero]
  by_cases hwb : scalarMult b u = 0
  · rw [zero_of_zero ha hb ha2 hwb, hwb, scalarMult_zero]
  obtain ⟨P, v, hP⟩ := exists_pt u
  rcases scalarMult_spec _ hP hu ha with ⟨-, h1⟩ | ⟨y, h1⟩
  · exact absurd h1 hwa
  rcases scalarMult_spec _ hP hu hb with ⟨-, h2⟩ | ⟨z, h2⟩
  · exact absurd h2 hwb
  have hc : a • b • P = b • a • P := by rw [← mul_nsmul, ← mul_nsmul, mul_comm]
  rcases scalarMult_spec _ h1 hwa hb with ⟨h3, h4⟩ | ⟨y', h3⟩ <;> rcases scalarMult_spec _ h2 hwb ha with ⟨h5, h6⟩ | ⟨z', h5⟩
  · rw [h4, h6]
  · rw [hc, h3] at h5; exact absurd rfl h5.ne_zero
  · rw [← hc, h5] at h3; exact absurd rfl h3.ne_zero
  · rw [hc] at h5
    exact (algebraMap F (AlgebraicClosure F)).injective (h5.inj h3).1

end Verif.X25519
