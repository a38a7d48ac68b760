import Verif.Proof.Mg
import Verif.Spec.X25519

/-!
The Montgomery ladder computes multiples of a point.
-/
namespace Verif.Ladder
open Verif.Mg Verif.Spec.X25519

variable {K : Type} [Field K] [DecidableEq K] {A : K}

/-- `X : Z` is the x coordinate of `P`. -/
def Rep (P : (M A).Point) (X Z : K) : Prop := (P = 0 ∧ Z = 0 ∧ X ≠ 0) ∨ (∃ x y, IsPt P x y ∧ Z ≠ 0 ∧ X = x * Z)

theorem Rep.mk {P : (M A).Point} {X Z x y : K} (h : IsPt P x y) (hz : Z ≠ 0) (hx : X = x * Z) : Rep P X Z := Or.inr ⟨x, y, h, hz, hx⟩

theorem dbl_x {P : (M A).Point} {x y : K} (h : IsPt P x y) (h2 : (2 : K) ≠ 0) (hy : y ≠ 0) :
    ∃ x' y', IsPt (P + P) x' y' ∧ x' * (2 * y) ^ 2 = (x ^ 2 - 1) ^ 2 := by
  have e := h.eqn
  have hy2 : 2 * y ≠ 0 := mul_ne_zero h2 hy
  refine ⟨(x ^ 2 - 1) ^ 2 / (2 * y) ^ 2, (3 * x ^ 2 + 2 * A * x + 1) * (x - (x ^ 2 - 1) ^ 2 / (2 * y) ^ 2) / (2 * y) - y, h.dbl h2 hy ?_ ?_,
    div_mul_cancel₀ _ (pow_ne_zero 2 hy2)⟩
  · rw [add_assoc, add_mul, div_mul_cancel₀ _ (pow_ne_zero 2 hy2)]
    linear_combination (4 * (A + 2 * x)) * e
  · rw [sub_add_cancel, div_mul_cancel₀ _ hy2]

theorem Rep.dbl {P : (M A).Point} {X Z : K} (h : Rep P X Z) (h2 : (2 : K) ≠ 0) (hA : A ^ 2 ≠ 4) :
    Rep (P + P) ((X ^ 2 - Z ^ 2) ^ 2) (4 * X * Z * (X ^ 2 + A * X * Z + Z ^ 2)) := by
  have h4 : (4 : K) ≠ 0 := by
    rw [show (4 : K) = 2 * 2 by norm_num]; exact mul_ne_zero h2 h2
  rcases h with ⟨rfl, rfl, hX⟩ | ⟨x, y, hP, hZ, rfl⟩
  · refine Or.inl ⟨add_zero _, by ring, ?_⟩
    rw [show (X ^ 2 - 0 ^ 2) ^ 2 = X ^ 4 by ring]
    exact pow_ne_zero 4 hX
  · have e := hP.eqn
    have e1 : 4 * (x * Z) * Z * ((x * Z) ^ 2 + A * (x * Z) * Z + Z ^ 2) = (2 * y) ^ 2 * Z ^ 4 := by linear_combination (-4 * Z ^ 4) * e
    have e2 : ((x * Z) ^ 2 - Z ^ 2) ^ 2 = (x ^ 2 - 1) ^ 2 * Z ^ 4 := by ring
    rw [e1, e2]
    by_cases hy : y = 0
    · refine Or.inl ⟨(hP.add_self_zero h2).2 hy, by rw [hy]; ring, mul_ne_zero (pow_ne_zero 2 ?_) (pow_ne_zero 4 hZ)⟩
      intro hx
      subst hy
      have hx1 : x ≠ 0 := by rintro rfl; norm_num at hx
      have : x * (2 + A * x) = 0 := by linear_combination -e - x * hx
      rcases mul_eq_zero.1 this with h | h
      · exact hx1 h
      · exact hA (by linear_combination (-A ^ 2) * hx + (A * x - 2) * h)
    · obtain ⟨x', y', hd, hx⟩ := dbl_x hP h2 hy
      exact .mk hd (mul_ne_zero (pow_ne_zero 2 (mul_ne_zero h2 hy)) (pow_ne_zero 4 hZ)) (by rw [← hx]; ring)

theorem Rep.dadd {P Q D : (M A).Point} {X2 Z2 X3 Z3 u v : K} (hP : Rep P X2 Z2) (hQ : Rep Q X3 Z3) (hD : IsPt D u v) (hu : u ≠ 0)
    (hd : Q = P + D) (h2 : (2 : K) ≠ 0) :
    Rep (P + Q) (4 * (X2 * X3 - Z2 * Z3) ^ 2) (4 * u * (X3 * Z2 - X2 * Z3) ^ 2) := by
  have h4 : (4 : K) ≠ 0 := by
    rw [show (4 : K) = 2 * 2 by norm_num]; exact mul_ne_zero h2 h2
  rcases hP with ⟨rfl, rfl, hX⟩ | ⟨x1, y1, hP, hZ, rfl⟩
  · rw [zero_add] at hd
    subst hd
    rcases hQ with ⟨h, -, -⟩ | ⟨x, y, hQ, hZ3, rfl⟩
    · exact absurd h hD.ne_zero
    · obtain ⟨rfl, rfl⟩ := hQ.inj hD
      rw [zero_add]
      refine .mk hD (mul_ne_zero (mul_ne_zero h4 hu) (pow_ne_zero 2 ?_)) (by ring)
      rw [show x * Z3 * 0 - X2 * Z3 = -(X2 * Z3) by ring]
      exact neg_ne_zero.2 (mul_ne_zero hX hZ3)
  · rcases hQ with ⟨rfl, rfl, hX3⟩ | ⟨x2, y2, hQ, hZ3, rfl⟩
    · have hPD : P = -D := eq_neg_of_add_eq_zero_left hd.symm
      have hn := hD.neg
      rw [← hPD] at hn
      obtain ⟨rfl, rfl⟩ := hP.inj hn
      rw [add_zero]
      refine .mk hP (mul_ne_zero (mul_ne_zero h4 hu) (pow_ne_zero 2 ?_)) (by ring)
      rw [show X3 * Z2 - x1 * Z2 * 0 = X3 * Z2 by ring]
      exact mul_ne_zero hX3 hZ
    · have e1 := hP.eqn
      have e2 := hQ.eqn
      by_cases hx : x1 = x2
      · subst hx
        rcases hP.eq_or_neg hQ with h | h
        · exact absurd (by rw [h] at hd; exact left_eq_add.1 hd) hD.ne_zero
        · -- `Q = -P`, `D = 2Q`
          have hD2 : D = Q + Q := by
            have : P = -Q := by rw [h, neg_neg]
            rw [this] at hd
            rw [eq_neg_add_iff_add_eq] at hd
            exact hd.symm
          have hy : y2 ≠ 0 := fun hy => hD.ne_zero (by rw [hD2]; exact (hQ.add_self_zero h2).2 hy)
          obtain ⟨x', y', hd', hx'⟩ := dbl_x hQ h2 hy
          rw [← hD2] at hd'
          obtain ⟨rfl, -⟩ := hd'.inj hD
          refine Or.inl ⟨by rw [h, add_neg_cancel], by ring, ?_⟩
          rw [show x1 * Z2 * (x1 * Z3) - Z2 * Z3 = (x1 ^ 2 - 1) * (Z2 * Z3) by ring]
          refine mul_ne_zero h4 (pow_ne_zero 2 (mul_ne_zero ?_ (mul_ne_zero hZ hZ3)))
          intro h0
          rw [h0] at hx'
          have : x' * (2 * y2) ^ 2 = 0 := by rw [hx']; ring
          rcases mul_eq_zero.1 this with h | h
          · exact hu h
          · exact mul_ne_zero h2 hy (pow_eq_zero_iff (two_ne_zero) |>.1 h)
      · have hx12 : x2 - x1 ≠ 0 := sub_ne_zero.2 (Ne.symm hx)
        -- the difference
        have hD' : D = Q + -P := by rw [hd]; abel
        have hdiff : ∃ y', IsPt D (((-y1 - y2) / (x1 - x2)) ^ 2 - A - x2 - x1) y' := by
          rw [hD']
          have hx21 : x1 - x2 ≠ 0 := sub_ne_zero.2 hx
          refine ⟨(-y1 - y2) * (x2 - (((-y1 - y2) / (x1 - x2)) ^ 2 - A - x2 - x1)) / (x1 - x2) - y2, hQ.add hP.neg (Ne.symm hx) ?_ ?_⟩
          · rw [show ((-y1 - y2) / (x1 - x2)) ^ 2 - A - x2 - x1 + A + x2 + x1 = ((-y1 - y2) / (x1 - x2)) ^ 2 by ring, div_pow,
              div_mul_cancel₀ _ (pow_ne_zero 2 hx21)]
          · rw [sub_add_cancel, div_mul_cancel₀ _ hx21]
        have hsum : IsPt (P + Q) (((y2 - y1) / (x2 - x1)) ^ 2 - A - x1 - x2)
            ((y2 - y1) * (x1 - (((y2 - y1) / (x2 - x1)) ^ 2 - A - x1 - x2)) / (x2 - x1) - y1) := by
          refine hP.add hQ hx ?_ ?_
          · rw [show ((y2 - y1) / (x2 - x1)) ^ 2 - A - x1 - x2 + A + x1 + x2 = ((y2 - y1) / (x2 - x1)) ^ 2 by ring, div_pow,
              div_mul_cancel₀ _ (pow_ne_zero 2 hx12)]
          · rw [sub_add_cancel, div_mul_cancel₀ _ hx12]
        obtain ⟨y', hdiff⟩ := hdiff
        obtain ⟨hu', -⟩ := hD.inj hdiff
        have hu2 : u * (x2 - x1) ^ 2 = (y1 + y2) ^ 2 - (A + x1 + x2) * (x2 - x1) ^ 2 := by
          have hx21 : x1 - x2 ≠ 0 := sub_ne_zero.2 hx
          have := div_mul_cancel₀ ((-y1 - y2) ^ 2) (pow_ne_zero 2 hx21)
          rw [hu', div_pow]
          linear_combination this
        have hs2 : (((y2 - y1) / (x2 - x1)) ^ 2 - A - x1 - x2) * (x2 - x1) ^ 2 = (y2 - y1) ^ 2 - (A + x1 + x2) * (x2 - x1) ^ 2 := by
          have := div_mul_cancel₀ ((y2 - y1) ^ 2) (pow_ne_zero 2 hx12)
          rw [div_pow]
          linear_combination this
        generalize ((y2 - y1) / (x2 - x1)) ^ 2 - A - x1 - x2 = s at hsum hs2
        have key : s * u * (x2 - x1) ^ 2 = (x1 * x2 - 1) ^ 2 := by
          have : s * u * (x2 - x1) ^ 2 * (x2 - x1) ^ 2 = (x1 * x2 - 1) ^ 2 * (x2 - x1) ^ 2 := by
            linear_combination (u * (x2 - x1) ^ 2) * hs2 + ((y2 - y1) ^ 2 - (A + x1 + x2) * (x2 - x1) ^ 2) * hu2 +
              (-(y2 ^ 2 - y1 ^ 2 + (x2 ^ 3 + A * x2 ^ 2 + x2) - (x1 ^ 3 + A * x1 ^ 2 + x1)) - 2 * ((A + x1 + x2) * (x2 - x1) ^ 2)) * e1 +
              ((y2 ^ 2 - y1 ^ 2 + (x2 ^ 3 + A * x2 ^ 2 + x2) - (x1 ^ 3 + A * x1 ^ 2 + x1)) - 2 * ((A + x1 + x2) * (x2 - x1) ^ 2)) * e2
          exact mul_right_cancel₀ (pow_ne_zero 2 hx12) this
        refine .mk hsum ?_ ?_
        · rw [show x2 * Z3 * Z2 - x1 * Z2 * Z3 = (x2 - x1) * (Z2 * Z3) by ring]
          exact mul_ne_zero (mul_ne_zero h4 hu) (pow_ne_zero 2 (mul_ne_zero hx12 (mul_ne_zero hZ hZ3)))
        · linear_combination (-4 * Z2 ^ 2 * Z3 ^ 2) * key

/-- The loop keeps the two pairs at `n P` and `(n + 1) P`. -/
theorem loop_rep {P : (M A).Point} {u v : K} (hP : IsPt P u v) (hu : u ≠ 0) (h2 : (2 : K) ≠ 0) (hA : A ^ 2 ≠ 4)
    (ha : A = 4 * 121665 + 2) (k : Nat) : ∀ (n : Nat) (s : Bool) (w : Vars K),
    Rep ((k >>> n) • P) (w.swap s).x2 (w.swap s).z2 → Rep ((k >>> n + 1) • P) (w.swap s).x3 (w.swap s).z3 →
    Rep (k • P) (loop u k n s w).x2 (loop u k n s w).z2
  | 0, s, w, ha1, hb1 => by rw [Nat.shiftRight_zero] at ha1; exact ha1
  | n + 1, s, w, h1, h3 => by
    have hk : k >>> n = 2 * (k >>> (n + 1)) + (k.testBit n).toNat := by
      rw [Nat.shiftRight_succ, ← Nat.div_add_mod (k >>> n) 2]
      have : (k.testBit n).toNat = k >>> n % 2 := by rw [Nat.toNat_testBit, Nat.shiftRight_eq_div_pow]
      omega
    have hsw : (w.swap (s ^^ k.testBit n)) = (w.swap s).swap (k.testBit n) := by
      cases s <;> cases k.testBit n <;> rfl
    rw [loop]
    generalize hm : k >>> (n + 1) = m at h1 h3 hk
    generalize hw : w.swap s = w' at h1 h3 hsw
    rw [hsw]
    obtain ⟨x2, z2, x3, z3⟩ := w'
    have hadd := h1.dadd h3 hP hu (by rw [add_nsmul, one_nsmul]) h2
    cases hb : k.testBit n with
    | false =>
      rw [hb] at hk
      have hk' : k >>> n = m + m := by rw [hk]; simp; omega
      refine loop_rep hP hu h2 hA ha k n _ _ ?_ ?_
      · rw [hk', add_nsmul]
        have := h1.dbl h2 hA
        simp only [Vars.swap, Vars.step] at this ⊢
        convert this using 1
        · simp; ring
        · subst ha; simp; ring
      · rw [hk', show m + m + 1 = m + (m + 1) by omega, add_nsmul]
        simp only [Vars.swap, Vars.step] at hadd ⊢
        convert hadd using 1
        · simp; ring
        · simp; ring
    | true =>
      rw [hb] at hk
      have hk' : k >>> n = m + (m + 1) := by rw [hk]; simp; omega
      refine loop_rep hP hu h2 hA ha k n _ _ ?_ ?_
      · rw [hk', add_nsmul]
        simp only [Vars.swap, Vars.step] at hadd ⊢
        convert hadd using 1
        · simp; ring
        · simp; ring
      · rw [hk', show m + (m + 1) + 1 = (m + 1) + (m + 1) by omega, add_nsmul]
        have := h3.dbl h2 hA
        simp only [Vars.swap, Vars.step] at this ⊢
        convert this using 1
        · simp; ring
        · subst ha; simp; ring

theorem ladder_rep {P : (M A).Point} {u v : K} (hP : IsPt P u v) (hu : u ≠ 0) (h2 : (2 : K) ≠ 0) (hA : A ^ 2 ≠ 4)
    (ha : A = 4 * 121665 + 2) {k : Nat} (hk : k < 2 ^ 255) : Rep (k • P) (ladder k u).x2 (ladder k u).z2 := by
  have h0 : k >>> 255 = 0 := by rw [Nat.shiftRight_eq_div_pow]; exact Nat.div_eq_of_lt hk
  refine loop_rep hP hu h2 hA ha k 255 false _ ?_ ?_
  · rw [h0, zero_nsmul]; exact Or.inl ⟨rfl, rfl, one_ne_zero⟩
  · rw [h0, zero_add, one_nsmul]; exact .mk hP one_ne_zero (mul_one _).symm

/-- At `u = 0` every `z` is zero from the first iteration on. -/
theorem loop_zero {R : Type} [CommRing R] (k : Nat) : ∀ (n : Nat) (s : Bool) (w : Vars R), w.z2 = 0 → w.z3 = 0 → (loop 0 k n s w).z2 = 0
  | 0, s, w, h2, h3 => by cases s <;> simp [loop, Vars.swap, h2, h3]
  | n + 1, s, w, h2, h3 => by
    rw [loop]
    refine loop_zero k n _ _ ?_ ?_
    · cases s ^^ k.testBit n <;> simp [Vars.swap, Vars.step, h2, h3]
    · simp [Vars.step]

theorem ladder_zero {R : Type} [CommRing R] (k : Nat) : (ladder k (0 : R)).z2 = 0 := by
  rw [ladder, loop]
  refine loop_zero k _ _ _ ?_ ?_
  · cases false ^^ k.testBit 254 <;> simp [Vars.swap, Vars.step]
  · simp [Vars.step]

/-- The image of the variables under a map. -/
def mapVars {R S : Type} (f : R → S) (v : Vars R) : Vars S := ⟨f v.x2, f v.z2, f v.x3, f v.z3⟩

theorem loop_map {R S : Type} [CommRing R] [CommRing S] (f : R →+* S) (u : R) (k : Nat) : ∀ (n : Nat) (s : Bool) (w : Vars R),
    loop (f u) k n s (mapVars f w) = mapVars f (loop u k n s w)
  | 0, s, w => by cases s <;> rfl
  | n + 1, s, w => by
    rw [loop, loop, ← loop_map f u k n]
    congr 1
    have h : f 121665 = 121665 := map_ofNat f _
    cases s ^^ k.testBit n <;> simp [Vars.swap, Vars.step, mapVars, h]

theorem ladder_map {R S : Type} [CommRing R] [CommRing S] (f : R →+* S) (u : R) (k : Nat) :
    ladder k (f u) = mapVars f (ladder k u) := by
  rw [ladder, ladder, ← loop_map]
  simp [mapVars]

end Verif.Ladder
