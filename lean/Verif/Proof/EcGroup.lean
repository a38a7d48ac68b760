import Verif.Spec.NistCurves
import Mathlib.Tactic.LinearCombination
import Mathlib.Tactic.FieldSimp

/-!
The group of `y² = x³ - 3x + b` in terms of coordinates, without division: the chord and tangent rules, and the addition and
doubling formulas in Jacobian coordinates that the field-operation sequences of `p256_montjadd.rs`, `p256_montjdouble.rs`
and `p256_montjmixadd.rs` evaluate.
-/
namespace Verif.EcGroup

open WeierstrassCurve Verif.Spec.Nist

variable {F : Type} [Field F] [DecidableEq F]

variable {b : F}

/-- `P` is the finite point with the coordinates `x`, `y`. -/
def IsPt (P : (W b).Point) (x y : F) : Prop := ∃ h, P = .some x y h

theorem IsPt.eqn {P : (W b).Point} {x y : F} (h : IsPt P x y) : y ^ 2 = x ^ 3 - 3 * x + b := by
  obtain ⟨h, -⟩ := h
  have := (Affine.equation_iff _ _).1 h.1
  simp only [W] at this
  linear_combination this

/-- The curve is not singular when `b² ≠ 4`, so that every solution of the equation is a point. -/
theorem exists_of_eqn (h2 : (2 : F) ≠ 0) (h3 : (3 : F) ≠ 0) (hb : b ^ 2 ≠ 4) {x y : F} (h : y ^ 2 = x ^ 3 - 3 * x + b) :
    ∃ P : (W b).Point, IsPt P x y := by
  have hn : (W b).Nonsingular x y := by
    rw [Affine.nonsingular_iff, Affine.equation_iff]
    simp only [W]
    refine ⟨by linear_combination h, ?_⟩
    by_contra hc
    simp only [not_or, not_not] at hc
    obtain ⟨c1, c2⟩ := hc
    have hy : y = 0 := (mul_eq_zero.1 (by linear_combination c2 : (2 : F) * y = 0)).resolve_left h2
    have hx : x ^ 2 = 1 := by
      have := (mul_eq_zero.1 (by linear_combination -c1 : (3 : F) * (x ^ 2 - 1) = 0)).resolve_left h3
      linear_combination this
    apply hb
    have e : b = 2 * x := by
      rw [hy] at h
      linear_combination -h - x * hx
    rw [e]
    linear_combination 4 * hx
  exact ⟨.some x y hn, hn, rfl⟩

theorem IsPt.ne_zero {P : (W b).Point} {x y : F} (h : IsPt P x y) : P ≠ 0 := by
  obtain ⟨h, rfl⟩ := h
  exact Affine.Point.some_ne_zero h

theorem IsPt.inj {P : (W b).Point} {x y x' y' : F} (h : IsPt P x y) (h' : IsPt P x' y') : x = x' ∧ y = y' := by
  obtain ⟨h, rfl⟩ := h
  obtain ⟨h', e⟩ := h'
  injection e with e1 e2
  exact ⟨e1, e2⟩

theorem IsPt.ext {P Q : (W b).Point} {x y : F} (h : IsPt P x y) (h' : IsPt Q x y) : P = Q := by
  obtain ⟨h, rfl⟩ := h
  obtain ⟨h', rfl⟩ := h'
  rfl

theorem exists_isPt {P : (W b).Point} (h : P ≠ 0) : ∃ x y, IsPt P x y := by
  match P with
  | .zero => exact absurd rfl h
  | .some x y hh => exact ⟨x, y, hh, rfl⟩

theorem IsPt.neg {P : (W b).Point} {x y : F} (h : IsPt P x y) : IsPt (-P) x (-y) := by
  obtain ⟨h, rfl⟩ := h
  have e : (W b).negY x y = -y := by simp [Affine.negY, W]
  rw [Affine.Point.neg_some]
  refine ⟨?_, ?_⟩
  · rw [← e]; exact (Affine.nonsingular_neg _ _).2 h
  · congr 1

theorem IsPt.eq_or_neg {P Q : (W b).Point} {x y y' : F} (h : IsPt P x y) (h' : IsPt Q x y') : Q = P ∨ Q = -P := by
  have e := h.eqn
  have e' := h'.eqn
  have : (y' - y) * (y' + y) = 0 := by linear_combination e' - e
  rcases mul_eq_zero.1 this with hh | hh
  · left
    rw [sub_eq_zero.1 hh] at h'
    exact h'.ext h
  · right
    rw [eq_neg_of_add_eq_zero_left hh] at h'
    exact h'.ext h.neg

/-- The chord rule. -/
theorem IsPt.add {P Q : (W b).Point} {x1 y1 x2 y2 x3 y3 : F} (hP : IsPt P x1 y1) (hQ : IsPt Q x2 y2) (hx : x1 ≠ x2)
    (h3 : (x3 + x1 + x2) * (x2 - x1) ^ 2 = (y2 - y1) ^ 2) (h4 : (y3 + y1) * (x2 - x1) = (y2 - y1) * (x1 - x3)) :
    IsPt (P + Q) x3 y3 := by
  obtain ⟨h1, rfl⟩ := hP
  obtain ⟨h2, rfl⟩ := hQ
  rw [Affine.Point.add_of_X_ne hx]
  have hd : x1 - x2 ≠ 0 := sub_ne_zero.2 hx
  have hs := Affine.slope_of_X_ne (W := W b) (y₁ := y1) (y₂ := y2) hx
  have ex : (W b).addX x1 x2 ((W b).slope x1 x2 y1 y2) = x3 := by
    rw [hs]
    simp only [Affine.addX, W]
    field_simp
    linear_combination -h3
  have ey : (W b).addY x1 x2 y1 ((W b).slope x1 x2 y1 y2) = y3 := by
    rw [Affine.addY, Affine.negAddY, ex, hs]
    simp only [Affine.negY, W]
    field_simp
    linear_combination h4
  refine ⟨?_, ?_⟩
  · have := Affine.nonsingular_add h1 h2 (fun hxy => hx hxy.1)
    rwa [ex, ey] at this
  · congr 1

/-- The tangent rule. -/
theorem IsPt.dbl {P : (W b).Point} {x y x3 y3 : F} (hP : IsPt P x y) (h2 : (2 : F) ≠ 0) (hy : y ≠ 0)
    (h3 : (x3 + 2 * x) * (2 * y) ^ 2 = (3 * x ^ 2 - 3) ^ 2) (h4 : (y3 + y) * (2 * y) = (3 * x ^ 2 - 3) * (x - x3)) :
    IsPt (P + P) x3 y3 := by
  obtain ⟨h1, rfl⟩ := hP
  have hn : y ≠ (W b).negY x y := by
    simp only [Affine.negY, W]
    intro h
    have : 2 * y = 0 := by linear_combination h
    rcases mul_eq_zero.1 this with h | h
    · exact h2 h
    · exact hy h
  rw [Affine.Point.add_self_of_Y_ne hn]
  have hs := Affine.slope_of_Y_ne (W := W b) (x₁ := x) (x₂ := x) (y₁ := y) (y₂ := y) rfl hn
  have ex : (W b).addX x x ((W b).slope x x y y) = x3 := by
    rw [hs]
    have hd : y - (W b).negY x y = 2 * y := by simp only [Affine.negY, W]; ring
    rw [hd]
    simp only [Affine.addX, W]
    field_simp
    linear_combination -h3
  have ey : (W b).addY x x y ((W b).slope x x y y) = y3 := by
    rw [Affine.addY, Affine.negAddY, ex, hs]
    have hd : y - (W b).negY x y = 2 * y := by simp only [Affine.negY, W]; ring
    rw [hd]
    simp only [Affine.negY, W]
    field_simp
    linear_combination -h4
  refine ⟨?_, ?_⟩
  · have := Affine.nonsingular_add h1 h1 (fun hxy => hn hxy.2)
    rwa [ex, ey] at this
  · congr 1

/-! ### Jacobian coordinates -/

/-- `X`, `Y`, `Z` are Jacobian coordinates of `P`; every triple with `Z = 0` stands for the point at infinity. -/
def Rep (P : (W b).Point) (X Y Z : F) : Prop :=
  (Z = 0 ∧ P = 0) ∨ (Z ≠ 0 ∧ ∃ x y, IsPt P x y ∧ X = x * Z ^ 2 ∧ Y = y * Z ^ 3)

theorem Rep.zero_iff {P : (W b).Point} {X Y Z : F} (h : Rep P X Y Z) : Z = 0 ↔ P = 0 := by
  rcases h with ⟨h1, h2⟩ | ⟨h1, x, y, hp, -⟩
  · simp [h1, h2]
  · simp [h1, hp.ne_zero]

theorem Rep.of_affine {P : (W b).Point} {x y : F} (h : IsPt P x y) : Rep P x y 1 :=
  .inr ⟨one_ne_zero, x, y, h, by ring, by ring⟩

theorem Rep.of_zero (X Y : F) : Rep (0 : (W b).Point) X Y 0 := .inl ⟨rfl, rfl⟩

theorem Rep.neg {P : (W b).Point} {X Y Z : F} (h : Rep P X Y Z) : Rep (-P) X (-Y) Z := by
  rcases h with ⟨h1, rfl⟩ | ⟨h1, x, y, hp, hx, hy⟩
  · exact .inl ⟨h1, neg_zero⟩
  · exact .inr ⟨h1, x, -y, hp.neg, hx, by rw [hy]; ring⟩

/-- General addition, for two finite points that are not equal. -/
theorem Rep.add {P Q : (W b).Point} {X1 Y1 Z1 X2 Y2 Z2 : F} (hP : Rep P X1 Y1 Z1) (hQ : Rep Q X2 Y2 Z2)
    (h1 : Z1 ≠ 0) (h2 : Z2 ≠ 0) (hne : P ≠ Q) {u1 u2 s1 s2 xd yd X3 : F}
    (hu1 : u1 = X1 * Z2 ^ 2) (hu2 : u2 = X2 * Z1 ^ 2) (hs1 : s1 = Y1 * Z2 ^ 3) (hs2 : s2 = Y2 * Z1 ^ 3)
    (hxd : xd = u2 - u1) (hyd : yd = s2 - s1) (hX3 : X3 = yd ^ 2 - xd ^ 2 * u1 - xd ^ 2 * u2) :
    Rep (P + Q) X3 (yd * (xd ^ 2 * u1 - X3) - (xd ^ 2 * u2 - xd ^ 2 * u1) * s1) (xd * Z1 * Z2) := by
  rcases hP with ⟨h, -⟩ | ⟨-, x1, y1, hP, e1, e2⟩
  · exact absurd h h1
  rcases hQ with ⟨h, -⟩ | ⟨-, x2, y2, hQ, e3, e4⟩
  · exact absurd h h2
  subst e1 e2 e3 e4
  have hxd' : xd = (x2 - x1) * (Z1 * Z2) ^ 2 := by rw [hxd, hu2, hu1]; ring
  have hyd' : yd = (y2 - y1) * (Z1 * Z2) ^ 3 := by rw [hyd, hs2, hs1]; ring
  by_cases hx : x1 = x2
  · subst hx
    rcases hP.eq_or_neg hQ with h | h
    · exact absurd h.symm hne
    · left
      refine ⟨by rw [hxd']; ring, by rw [h]; exact add_neg_cancel P⟩
  · right
    have hd : x2 - x1 ≠ 0 := sub_ne_zero.2 (Ne.symm hx)
    refine ⟨?_, (y2 - y1) ^ 2 / (x2 - x1) ^ 2 - x1 - x2,
      (y2 - y1) / (x2 - x1) * (x1 - ((y2 - y1) ^ 2 / (x2 - x1) ^ 2 - x1 - x2)) - y1, hP.add hQ hx ?_ ?_, ?_, ?_⟩
    · rw [hxd']
      exact mul_ne_zero (mul_ne_zero (mul_ne_zero hd (pow_ne_zero _ (mul_ne_zero h1 h2))) h1) h2
    · field_simp; ring
    · field_simp; ring
    · rw [hX3, hyd', hxd', hu1, hu2]
      field_simp
    · rw [hX3, hyd', hxd', hu1, hu2, hs1]
      field_simp

/-- Doubling; `Z = 0` included. -/
theorem Rep.dbl {P : (W b).Point} {X Y Z : F} (hP : Rep P X Y Z) (h2 : (2 : F) ≠ 0) {x2p d X3 Y3 Z3 : F}
    (hx2p : x2p = X ^ 2 - Z ^ 4) (hd : d = 12 * (X * Y ^ 2) - 9 * x2p ^ 2) (hX3 : X3 = 4 * (X * Y ^ 2) - d)
    (hY3 : Y3 = 3 * (d * x2p) - 8 * Y ^ 4) (hZ3 : Z3 = 2 * Y * Z) :
    Rep (P + P) X3 Y3 Z3 := by
  rcases hP with ⟨h, rfl⟩ | ⟨h1, x, y, hP, e1, e2⟩
  · left; exact ⟨by rw [hZ3, h]; ring, add_zero 0⟩
  · subst e1 e2
    by_cases hy : y = 0
    · subst hy
      left
      refine ⟨by rw [hZ3]; ring, ?_⟩
      have := hP.neg
      rw [neg_zero] at this
      have e := this.ext hP
      nth_rw 2 [← e]
      exact add_neg_cancel P
    · right
      have hyy : 2 * y ≠ 0 := mul_ne_zero h2 hy
      refine ⟨?_, (3 * x ^ 2 - 3) ^ 2 / (2 * y) ^ 2 - 2 * x,
        (3 * x ^ 2 - 3) / (2 * y) * (x - ((3 * x ^ 2 - 3) ^ 2 / (2 * y) ^ 2 - 2 * x)) - y, hP.dbl h2 hy ?_ ?_, ?_, ?_⟩
      · rw [hZ3]
        exact mul_ne_zero (mul_ne_zero h2 (mul_ne_zero hy (pow_ne_zero _ h1))) h1
      · field_simp; ring
      · field_simp; ring
      · rw [hX3, hd, hx2p, hZ3]
        field_simp
        ring
      · rw [hY3, hd, hx2p, hZ3]
        field_simp
        ring

/-- Addition of an affine point. -/
theorem Rep.mixadd {P Q : (W b).Point} {X1 Y1 Z1 x2 y2 : F} (hP : Rep P X1 Y1 Z1) (hQ : IsPt Q x2 y2)
    (h1 : Z1 ≠ 0) (hne : P ≠ Q) {u2 s2 xd yd X3 : F}
    (hu2 : u2 = x2 * Z1 ^ 2) (hs2 : s2 = y2 * Z1 ^ 3)
    (hxd : xd = u2 - X1) (hyd : yd = s2 - Y1) (hX3 : X3 = yd ^ 2 - xd ^ 2 * X1 - xd ^ 2 * u2) :
    Rep (P + Q) X3 (yd * (xd ^ 2 * X1 - X3) - (xd ^ 2 * u2 - xd ^ 2 * X1) * Y1) (xd * Z1) := by
  have := hP.add (Rep.of_affine hQ) h1 one_ne_zero hne (u1 := X1) (s1 := Y1) (by ring) hu2 (by ring) hs2 hxd hyd hX3
  rwa [mul_one] at this

end Verif.EcGroup
