import Mathlib.AlgebraicGeometry.EllipticCurve.Affine.Point
import Mathlib.Tactic.LinearCombination
import Mathlib.Tactic.FieldSimp

/-!
The group of the Montgomery curve `y² = x³ + Ax² + x` in terms of coordinates.
-/
namespace Verif.Mg

open WeierstrassCurve

/-- The curve `y² = x³ + Ax² + x`. -/
def M {F : Type} [Field F] (A : F) : WeierstrassCurve.Affine F := { a₁ := 0, a₂ := A, a₃ := 0, a₄ := 1, a₆ := 0 }

variable {F : Type} [Field F] [DecidableEq F] {A : F}

/-- `P` is the finite point with the coordinates `x`, `y`. -/
def IsPt (P : (M A).Point) (x y : F) : Prop := ∃ h, P = .some x y h

theorem IsPt.eqn {P : (M A).Point} {x y : F} (h : IsPt P x y) : y ^ 2 = x ^ 3 + A * x ^ 2 + x := by
  obtain ⟨h, -⟩ := h
  have := (Affine.equation_iff _ _).1 h.1
  simp only [M] at this
  linear_combination this

/-- The curve is not singular when `A² ≠ 4`, so that every solution of the equation is a point. -/
theorem exists_of_eqn (h2 : (2 : F) ≠ 0) (hA : A ^ 2 ≠ 4) {x y : F} (h : y ^ 2 = x ^ 3 + A * x ^ 2 + x) :
    ∃ P : (M A).Point, IsPt P x y := by
  have hn : (M A).Nonsingular x y := by
    rw [Affine.nonsingular_iff, Affine.equation_iff]
    simp only [M]
    refine ⟨by linear_combination h, ?_⟩
    by_contra hc
    simp only [not_or, not_not] at hc
    obtain ⟨c1, c2⟩ := hc
    have hy : y = 0 := (mul_eq_zero.1 (by linear_combination c2 : (2 : F) * y = 0)).resolve_left h2
    rw [hy] at h c1
    have e1 : x * (x ^ 2 + A * x + 1) = 0 := by linear_combination -h
    have e2 : 3 * x ^ 2 + 2 * A * x + 1 = 0 := by linear_combination -c1
    rcases mul_eq_zero.1 e1 with e | e
    · rw [e] at e2
      exact one_ne_zero (by linear_combination e2)
    · apply hA
      -- the double root is 1 or -1
      have hx : x ^ 2 = 1 := by linear_combination e2 - 2 * e
      have : A * x = -2 := by linear_combination e - hx
      have h3 : A ^ 2 * x ^ 2 = 4 := by linear_combination (A * x - 2) * this
      linear_combination h3 - A ^ 2 * hx
  exact ⟨.some x y hn, hn, rfl⟩

theorem IsPt.ne_zero {P : (M A).Point} {x y : F} (h : IsPt P x y) : P ≠ 0 := by
  obtain ⟨h, rfl⟩ := h
  exact Affine.Point.some_ne_zero h

theorem IsPt.inj {P : (M A).Point} {x y x' y' : F} (h : IsPt P x y) (h' : IsPt P x' y') : x = x' ∧ y = y' := by
  obtain ⟨h, rfl⟩ := h
  obtain ⟨h', e⟩ := h'
  injection e with e1 e2
  exact ⟨e1, e2⟩

theorem IsPt.ext {P Q : (M A).Point} {x y : F} (h : IsPt P x y) (h' : IsPt Q x y) : P = Q := by
  obtain ⟨h, rfl⟩ := h
  obtain ⟨h', rfl⟩ := h'
  rfl

theorem exists_isPt {P : (M A).Point} (h : P ≠ 0) : ∃ x y, IsPt P x y := by
  match P with
  | .zero => exact absurd rfl h
  | .some x y hh => exact ⟨x, y, hh, rfl⟩

theorem IsPt.neg {P : (M A).Point} {x y : F} (h : IsPt P x y) : IsPt (-P) x (-y) := by
  obtain ⟨h, rfl⟩ := h
  have e : (M A).negY x y = -y := by simp [Affine.negY, M]
  rw [Affine.Point.neg_some]
  refine ⟨?_, ?_⟩
  · rw [← e]; exact (Affine.nonsingular_neg _ _).2 h
  · congr 1

theorem IsPt.eq_or_neg {P Q : (M A).Point} {x y y' : F} (h : IsPt P x y) (h' : IsPt Q x y') : Q = P ∨ Q = -P := by
  have e := h.eqn
  have e' := h'.eqn
  have : (y' - y) * (y' + y) = 0 := by linear_combination e' - e
  rcases mul_eq_zero.1 this with hh | hh
  · left
    rw [sub_eq_zero.1 hh] at h'
    exact h'.ext h
  · right
    rw [eq_neg_of_add_eq_zero_left hh] at h'
    exact h'.ext h.neg

/-- The chord rule. -/
theorem IsPt.add {P Q : (M A).Point} {x1 y1 x2 y2 x3 y3 : F} (hP : IsPt P x1 y1) (hQ : IsPt Q x2 y2) (hx : x1 ≠ x2)
    (h3 : (x3 + A + x1 + x2) * (x2 - x1) ^ 2 = (y2 - y1) ^ 2) (h4 : (y3 + y1) * (x2 - x1) = (y2 - y1) * (x1 - x3)) :
    IsPt (P + Q) x3 y3 := by
  obtain ⟨h1, rfl⟩ := hP
  obtain ⟨h2, rfl⟩ := hQ
  rw [Affine.Point.add_of_X_ne hx]
  have hd : x1 - x2 ≠ 0 := sub_ne_zero.2 hx
  have hs := Affine.slope_of_X_ne (W := M A) (y₁ := y1) (y₂ := y2) hx
  have ex : (M A).addX x1 x2 ((M A).slope x1 x2 y1 y2) = x3 := by
    rw [hs]
    simp only [Affine.addX, M]
    field_simp
    linear_combination -h3
  have ey : (M A).addY x1 x2 y1 ((M A).slope x1 x2 y1 y2) = y3 := by
    rw [Affine.addY, Affine.negAddY, ex, hs]
    simp only [Affine.negY, M]
    field_simp
    linear_combination h4
  refine ⟨?_, ?_⟩
  · have := Affine.nonsingular_add h1 h2 (fun hxy => hx hxy.1)
    rwa [ex, ey] at this
  · congr 1

/-- The tangent rule. -/
theorem IsPt.dbl {P : (M A).Point} {x y x3 y3 : F} (hP : IsPt P x y) (h2 : (2 : F) ≠ 0) (hy : y ≠ 0)
    (h3 : (x3 + A + 2 * x) * (2 * y) ^ 2 = (3 * x ^ 2 + 2 * A * x + 1) ^ 2)
    (h4 : (y3 + y) * (2 * y) = (3 * x ^ 2 + 2 * A * x + 1) * (x - x3)) :
    IsPt (P + P) x3 y3 := by
  obtain ⟨h1, rfl⟩ := hP
  have hn : y ≠ (M A).negY x y := by
    simp only [Affine.negY, M]
    intro h
    have : 2 * y = 0 := by linear_combination h
    rcases mul_eq_zero.1 this with h | h
    · exact h2 h
    · exact hy h
  rw [Affine.Point.add_self_of_Y_ne hn]
  have hs := Affine.slope_of_Y_ne (W := M A) (x₁ := x) (x₂ := x) (y₁ := y) (y₂ := y) rfl hn
  have hd : y - (M A).negY x y = 2 * y := by simp only [Affine.negY, M]; ring
  have ex : (M A).addX x x ((M A).slope x x y y) = x3 := by
    rw [hs, hd]
    simp only [Affine.addX, M]
    field_simp
    linear_combination -h3
  have ey : (M A).addY x x y ((M A).slope x x y y) = y3 := by
    rw [Affine.addY, Affine.negAddY, ex, hs, hd]
    simp only [Affine.negY, M]
    field_simp
    linear_combination -h4
  refine ⟨?_, ?_⟩
  · have := Affine.nonsingular_add h1 h1 (fun hxy => hn hxy.2)
    rwa [ex, ey] at this
  · congr 1

/-- `2P = 0` for a finite point exactly if its `y` is zero. -/
theorem IsPt.add_self_zero {P : (M A).Point} {x y : F} (hP : IsPt P x y) (h2 : (2 : F) ≠ 0) : P + P = 0 ↔ y = 0 := by
  constructor
  · intro h
    have e : P = -P := eq_neg_of_add_eq_zero_left h
    have hn := hP.neg
    rw [← e] at hn
    have := (hP.inj hn).2
    exact (mul_eq_zero.1 (by linear_combination this : (2 : F) * y = 0)).resolve_left h2
  · rintro rfl
    have hn := hP.neg
    rw [neg_zero] at hn
    have := hP.ext hn
    nth_rewrite 1 [this]
    exact neg_add_cancel P

end Verif.Mg
