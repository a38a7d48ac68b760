import Verif.Proof.Mg

/-!
The twisted Edwards curve `-x² + y² = 1 + d x² y²` with `d` not a square is the Montgomery curve in other coordinates, and its
addition formulas compute the sum of points.
-/
namespace Verif.Edwards

open Verif.Mg

variable {F : Type} [Field F] [DecidableEq F]

/-- The Edwards curve with `d` belongs to the Montgomery curve with `A`; `c` is the scale of the second coordinate. -/
structure Ok (A c d : F) : Prop where
  two : (2 : F) ≠ 0
  c2 : c ^ 2 = -(A + 2)
  hd : d * (A + 2) = -(A - 2)
  ne : A + 2 ≠ 0
  ns : ∀ t : F, t ^ 2 ≠ d
  i : ∃ i : F, i ^ 2 = -1

variable {A c d : F}

theorem Ok.c_ne (h : Ok A c d) : c ≠ 0 := by
  intro e
  have := h.c2
  rw [e] at this
  exact h.ne (by linear_combination this)

theorem Ok.dc (h : Ok A c d) : d * c ^ 2 = A - 2 := by linear_combination d * h.c2 - h.hd

theorem Ok.ns1 (h : Ok A c d) (t : F) : t ^ 2 ≠ A - 2 := by
  intro e
  have hc := h.c_ne
  apply h.ns (t / c)
  have := h.dc
  field_simp
  linear_combination e - this

theorem Ok.ns2 (h : Ok A c d) (t : F) : t ^ 2 ≠ A ^ 2 - 4 := by
  intro e
  obtain ⟨i, hi⟩ := h.i
  have hn := h.ne
  apply h.ns (i * t / (A + 2))
  have := h.hd
  field_simp
  linear_combination t ^ 2 * hi - e - (A + 2) * this

theorem Ok.A2 (h : Ok A c d) : A ^ 2 ≠ 4 := by
  intro e
  exact h.ns2 0 (by linear_combination -e)

theorem Ok.d_ne (h : Ok A c d) : d + 1 ≠ 0 := by
  intro e
  obtain ⟨i, hi⟩ := h.i
  exact h.ns i (by linear_combination hi - e)

/-- The denominators of the addition formulas do not vanish. -/
theorem Ok.den (h : Ok A c d) {x1 y1 x2 y2 : F} (h1 : -x1 ^ 2 + y1 ^ 2 = 1 + d * x1 ^ 2 * y1 ^ 2)
    (h2 : -x2 ^ 2 + y2 ^ 2 = 1 + d * x2 ^ 2 * y2 ^ 2) : (d * x1 * x2 * y1 * y2) ^ 2 ≠ 1 := by
  intro e
  obtain ⟨i, hi⟩ := h.i
  have hx1 : x1 ≠ 0 := by rintro rfl; simp at e
  have hy1 : y1 ≠ 0 := by rintro rfl; simp at e
  have key : ∀ s : F, s ^ 2 = 1 → i * x2 * s + y2 ≠ 0 → False := by
    intro s hs hne
    apply h.ns ((i * x1 + s * (d * x1 * x2 * y1 * y2) * y1) / (x1 * y1 * (i * x2 * s + y2)))
    have e0 : d * (x1 ^ 2 * y1 ^ 2) * (-x2 ^ 2 + y2 ^ 2) = -x1 ^ 2 + y1 ^ 2 := by
      linear_combination d * x1 ^ 2 * y1 ^ 2 * h2 - h1 + e
    have hne' : x1 * y1 * (i * x2 * s + y2) ≠ 0 := mul_ne_zero (mul_ne_zero hx1 hy1) hne
    rw [div_pow, div_eq_iff (pow_ne_zero 2 hne')]
    linear_combination x1 ^ 2 * hi + (d * x1 * x2 * y1 * y2) ^ 2 * y1 ^ 2 * hs + y1 ^ 2 * e - e0
      - d * x1 ^ 2 * y1 ^ 2 * (x2 ^ 2 * s ^ 2 * hi - x2 ^ 2 * hs)
  by_cases hp : i * x2 * 1 + y2 = 0
  · by_cases hm : i * x2 * (-1) + y2 = 0
    · have : y2 = 0 := (mul_eq_zero.1 (by linear_combination hp + hm : (2 : F) * y2 = 0)).resolve_left h.two
      rw [this] at e
      simp at e
    · exact key (-1) (by ring) hm
  · exact key 1 (by ring) hp

theorem Ok.den_add (h : Ok A c d) {x1 y1 x2 y2 : F} (h1 : -x1 ^ 2 + y1 ^ 2 = 1 + d * x1 ^ 2 * y1 ^ 2)
    (h2 : -x2 ^ 2 + y2 ^ 2 = 1 + d * x2 ^ 2 * y2 ^ 2) : 1 + d * x1 * x2 * y1 * y2 ≠ 0 := by
  intro e
  exact h.den h1 h2 (by linear_combination (d * x1 * x2 * y1 * y2 - 1) * e)

theorem Ok.den_sub (h : Ok A c d) {x1 y1 x2 y2 : F} (h1 : -x1 ^ 2 + y1 ^ 2 = 1 + d * x1 ^ 2 * y1 ^ 2)
    (h2 : -x2 ^ 2 + y2 ^ 2 = 1 + d * x2 ^ 2 * y2 ^ 2) : 1 - d * x1 * x2 * y1 * y2 ≠ 0 := by
  intro e
  exact h.den h1 h2 (by linear_combination -(d * x1 * x2 * y1 * y2 + 1) * e)

theorem Ok.w_ne (h : Ok A c d) {P : (M A).Point} {u w : F} (hP : IsPt P u w) (hu : u ≠ 0) : w ≠ 0 := by
  rintro rfl
  have e := hP.eqn
  have : u ^ 2 + A * u + 1 = 0 := (mul_eq_zero.1 (by linear_combination -e : u * (u ^ 2 + A * u + 1) = 0)).resolve_left hu
  exact h.ns2 (2 * u + A) (by linear_combination 4 * this)

theorem Ok.u_ne (h : Ok A c d) {P : (M A).Point} {u w : F} (hP : IsPt P u w) : u + 1 ≠ 0 := by
  intro e
  have e1 := hP.eqn
  have : u = -1 := by linear_combination e
  rw [this] at e1
  exact h.ns1 w (by linear_combination e1)

/-- `x`, `y` are the Edwards coordinates of `P`. -/
def IsEd (c : F) (P : (M A).Point) (x y : F) : Prop :=
  (P = 0 ∧ x = 0 ∧ y = 1) ∨ (IsPt P 0 0 ∧ x = 0 ∧ y = -1) ∨
    ∃ u w, IsPt P u w ∧ u ≠ 0 ∧ x * w = c * u ∧ y * (u + 1) = u - 1

theorem IsEd.on (h : Ok A c d) {P : (M A).Point} {x y : F} (hP : IsEd c P x y) : -x ^ 2 + y ^ 2 = 1 + d * x ^ 2 * y ^ 2 := by
  rcases hP with ⟨-, rfl, rfl⟩ | ⟨-, rfl, rfl⟩ | ⟨u, w, hp, hu, hx, hy⟩
  · ring
  · ring
  · have hw := h.w_ne hp hu
    have h1 := h.u_ne hp
    have e := hp.eqn
    have hc := h.c2
    have hd := h.dc
    apply mul_left_cancel₀ (mul_ne_zero (pow_ne_zero 2 hw) (pow_ne_zero 2 h1))
    have ex : x ^ 2 * w ^ 2 = c ^ 2 * u ^ 2 := by linear_combination (x * w + c * u) * hx
    have ey : y ^ 2 * (u + 1) ^ 2 = (u - 1) ^ 2 := by linear_combination (y * (u + 1) + u - 1) * hy
    linear_combination -(u + 1) ^ 2 * ex + w ^ 2 * ey - d * (y ^ 2 * (u + 1) ^ 2) * ex - d * c ^ 2 * u ^ 2 * ey
      - (u + 1) ^ 2 * u ^ 2 * hc - u ^ 2 * (u - 1) ^ 2 * hd - 4 * u * e

theorem IsEd.exists (h : Ok A c d) (P : (M A).Point) : ∃ x y, IsEd c P x y := by
  by_cases hP : P = 0
  · exact ⟨0, 1, .inl ⟨hP, rfl, rfl⟩⟩
  · obtain ⟨u, w, hp⟩ := exists_isPt hP
    by_cases hu : u = 0
    · subst hu
      have hw : w = 0 := by
        have e := hp.eqn
        exact pow_eq_zero_iff (two_ne_zero) |>.1 (by linear_combination e)
      subst hw
      exact ⟨0, -1, .inr (.inl ⟨hp, rfl, rfl⟩)⟩
    · have hw := h.w_ne hp hu
      have h1 := h.u_ne hp
      exact ⟨c * u / w, (u - 1) / (u + 1), .inr (.inr ⟨u, w, hp, hu, by field_simp, by field_simp⟩)⟩

theorem IsEd.of_on (h : Ok A c d) {x y : F} (hon : -x ^ 2 + y ^ 2 = 1 + d * x ^ 2 * y ^ 2) : ∃ P : (M A).Point, IsEd c P x y := by
  by_cases hx : x = 0
  · subst hx
    have : (y - 1) * (y + 1) = 0 := by linear_combination hon
    rcases mul_eq_zero.1 this with e | e
    · exact ⟨0, .inl ⟨rfl, rfl, by linear_combination e⟩⟩
    · obtain ⟨P, hP⟩ := exists_of_eqn (A := A) h.two h.A2 (x := 0) (y := 0) (by ring)
      exact ⟨P, .inr (.inl ⟨hP, rfl, by linear_combination e⟩)⟩
  · have hy : y ^ 2 ≠ 1 := by
      intro e
      have : x ^ 2 * (d + 1) = 0 := by linear_combination -hon + (1 - d * x ^ 2) * e
      exact (mul_ne_zero (pow_ne_zero 2 hx) h.d_ne) this
    have hy1 : 1 - y ≠ 0 := by intro e; exact hy (by linear_combination -(y + 1) * e)
    have hy2 : 1 + y ≠ 0 := by intro e; exact hy (by linear_combination (y - 1) * e)
    have hc := h.c_ne
    obtain ⟨P, hP⟩ := exists_of_eqn (A := A) h.two h.A2 (x := (1 + y) / (1 - y)) (y := c * ((1 + y) / (1 - y)) / x) (by
      have hcc := h.c2
      have hd := h.hd
      field_simp
      linear_combination (1 - y ^ 2) * hcc + (A + 2) * hon + x ^ 2 * y ^ 2 * hd)
    refine ⟨P, .inr (.inr ⟨_, _, hP, div_ne_zero hy2 hy1, by field_simp, ?_⟩)⟩
    field_simp
    ring

theorem IsEd.inj (h : Ok A c d) {P : (M A).Point} {x y x' y' : F} (h1 : IsEd c P x y) (h2 : IsEd c P x' y') : x = x' ∧ y = y' := by
  rcases h1 with ⟨e, rfl, rfl⟩ | ⟨e, rfl, rfl⟩ | ⟨u, w, hp, hu, hx, hy⟩ <;>
    rcases h2 with ⟨e', rfl, rfl⟩ | ⟨e', rfl, rfl⟩ | ⟨u', w', hp', hu', hx', hy'⟩
  · exact ⟨rfl, rfl⟩
  · exact absurd e e'.ne_zero
  · exact absurd e hp'.ne_zero
  · exact absurd e' e.ne_zero
  · exact ⟨rfl, rfl⟩
  · exact absurd (e.inj hp').1.symm hu'
  · exact absurd e' hp.ne_zero
  · exact absurd (hp.inj e').1 hu
  · obtain ⟨rfl, rfl⟩ := hp.inj hp'
    exact ⟨mul_right_cancel₀ (h.w_ne hp hu) (hx.trans hx'.symm), mul_right_cancel₀ (h.u_ne hp) (hy.trans hy'.symm)⟩

theorem IsEd.ext (h : Ok A c d) {P Q : (M A).Point} {x y : F} (h1 : IsEd c P x y) (h2 : IsEd c Q x y) : P = Q := by
  have h11 : (1 : F) ≠ -1 := fun e => h.two (by linear_combination e)
  have hcu : ∀ {u w : F}, u ≠ 0 → (0 : F) * w = c * u → False := by
    intro u w hu e
    rw [zero_mul] at e
    exact mul_ne_zero h.c_ne hu e.symm
  rcases h1 with ⟨rfl, rfl, rfl⟩ | ⟨e, rfl, rfl⟩ | ⟨u, w, hp, hu, hx, hy⟩ <;>
    rcases h2 with ⟨rfl, e1, e2⟩ | ⟨e', e1, e2⟩ | ⟨u', w', hp', hu', hx', hy'⟩
  · rfl
  · exact absurd e2 h11
  · exact (hcu hu' hx').elim
  · exact absurd e2.symm h11
  · exact e.ext e'
  · exact (hcu hu' hx').elim
  · rw [e1] at hx; exact (hcu hu hx).elim
  · rw [e1] at hx; exact (hcu hu hx).elim
  · have hy1 : 1 - y ≠ 0 := by
      intro e
      exact h.two (by linear_combination (u + 1) * e + hy)
    have huu : u = u' := mul_left_cancel₀ hy1 (by linear_combination -hy + hy')
    subst huu
    have hx0 : x ≠ 0 := by rintro rfl; exact hcu hu hx
    have : w = w' := mul_left_cancel₀ hx0 (hx.trans hx'.symm)
    subst this
    exact hp.ext hp'

theorem IsEd.neg {P : (M A).Point} {x y : F} (h1 : IsEd c P x y) : IsEd c (-P) (-x) y := by
  rcases h1 with ⟨rfl, rfl, rfl⟩ | ⟨e, rfl, rfl⟩ | ⟨u, w, hp, hu, hx, hy⟩
  · exact .inl ⟨neg_zero, neg_zero, rfl⟩
  · have := e.neg
    rw [neg_zero] at this
    exact .inr (.inl ⟨this, neg_zero, rfl⟩)
  · exact .inr (.inr ⟨u, -w, hp.neg, hu, by linear_combination hx, hy⟩)

/-- Adding the point of order two. -/
theorem IsEd.add_two (h : Ok A c d) {P T : (M A).Point} {x y : F} (h1 : IsEd c P x y) (hT : IsPt T 0 0) : IsEd c (P + T) (-x) (-y) := by
  rcases h1 with ⟨rfl, rfl, rfl⟩ | ⟨e, rfl, rfl⟩ | ⟨u, w, hp, hu, hx, hy⟩
  · rw [zero_add]; exact .inr (.inl ⟨hT, neg_zero, rfl⟩)
  · have := e.ext hT
    subst this
    exact .inl ⟨(e.add_self_zero h.two).2 rfl, neg_zero, neg_neg 1⟩
  · have hw := h.w_ne hp hu
    have h1 := h.u_ne hp
    have e := hp.eqn
    refine .inr (.inr ⟨1 / u, -w / u ^ 2, hp.add hT hu ?_ ?_, one_div_ne_zero hu, ?_, ?_⟩)
    · field_simp
      linear_combination -u * e
    · field_simp
      ring
    · field_simp
      linear_combination hx
    · field_simp
      linear_combination -hy

/-- The addition formulas, in the generic case. -/
theorem add_chord (h : Ok A c d) {P Q : (M A).Point} {u w v z x1 y1 x2 y2 : F} (hp : IsPt P u w) (hu : u ≠ 0)
    (hx1 : x1 * w = c * u) (hy1 : y1 * (u + 1) = u - 1) (hq : IsPt Q v z) (hv : v ≠ 0) (hx2 : x2 * z = c * v)
    (hy2 : y2 * (v + 1) = v - 1) (huv : u ≠ v) :
    ∃ a b, IsPt (P + Q) a b ∧ (x1 * y2 + x2 * y1) * b = c * a * (1 + d * x1 * x2 * y1 * y2) ∧
      (y1 * y2 + x1 * x2) * (a + 1) = (a - 1) * (1 - d * x1 * x2 * y1 * y2) := by
  have hw := h.w_ne hp hu
  have hz := h.w_ne hq hv
  have hs1 := h.u_ne hp
  have hs2 := h.u_ne hq
  have h1 := hp.eqn
  have h2 := hq.eqn
  have hU : v - u ≠ 0 := sub_ne_zero.2 (Ne.symm huv)
  have hc := h.c2
  have hd := h.dc
  obtain ⟨a, ha⟩ : ∃ a : F, a = (z - w) ^ 2 / (v - u) ^ 2 - A - u - v := ⟨_, rfl⟩
  obtain ⟨b, hb⟩ : ∃ b : F, b = (z - w) / (v - u) * (u - a) - w := ⟨_, rfl⟩
  have h3 : (a + A + u + v) * (v - u) ^ 2 = (z - w) ^ 2 := by
    rw [ha]; field_simp; ring
  have h4 : (b + w) * (v - u) = (z - w) * (u - a) := by
    rw [hb]; field_simp; ring
  refine ⟨a, b, hp.add hq huv h3 h4, ?_, ?_⟩
  · have k1 : w * z * (u + 1) * (v + 1) * (x1 * y2 + x2 * y1) =
        c * (u * z * (v - 1) * (u + 1) + v * w * (u - 1) * (v + 1)) := by
      linear_combination (y2 * (v + 1) * z * (u + 1)) * hx1 + (c * u * z * (u + 1)) * hy2 + (y1 * (u + 1) * w * (v + 1)) * hx2 +
        (c * v * w * (v + 1)) * hy1
    have k2 : w * z * (u + 1) * (v + 1) * (d * x1 * x2 * y1 * y2) = (A - 2) * u * v * (u - 1) * (v - 1) := by
      linear_combination d * (x2 * z) * (y1 * (u + 1)) * (y2 * (v + 1)) * hx1 + d * (c * u) * (y1 * (u + 1)) * (y2 * (v + 1)) * hx2 +
        d * c * u * c * v * (y2 * (v + 1)) * hy1 + d * c ^ 2 * u * v * (u - 1) * hy2 + u * v * (u - 1) * (v - 1) * hd
    have E : a * (v - u) ^ 3 * (w * z * (u + 1) * (v + 1) + (A - 2) * u * v * (u - 1) * (v - 1)) =
        (u * z * (v - 1) * (u + 1) + v * w * (u - 1) * (v + 1)) * (b * (v - u) ^ 3) := by
      linear_combination ((v - u) * (w * z * (u + 1) * (v + 1) + (A - 2) * u * v * (u - 1) * (v - 1)) +
          (u * z * (v - 1) * (u + 1) + v * w * (u - 1) * (v + 1)) * (z - w)) * h3 -
        (u * z * (v - 1) * (u + 1) + v * w * (u - 1) * (v + 1)) * (v - u) ^ 2 * h4 +
        (-A*u^3*v^2 + A*u^3*v - A*u^2*v^3 - 2*A*u^2*v^2 - A*u^2*v + A*u*v^4 + 2*A*u*v^3 + 3*A*u*v^2 - A*v^4 - A*v^3 + 2*u^3*v^2 - 2*u^3*v - 3*u^2*v^4 - 5*u^2*v^3 - u^2*v^2 - 2*u^2*v*w*z + 5*u^2*v*z^2 + u^2*v - u^2*z^2 + 2*u*v^5 + 5*u*v^4 + 5*u*v^3 - u*v^2*w^2 + 4*u*v^2*w*z - 5*u*v^2*z^2 - u*v^2 - u*v*w^2 + 2*u*v*w*z + u*v - u*z^2 - 2*v^5 - 2*v^4 + v^2*w^2 - 2*v^2*w*z + v^2*z^2 + v*w^2 - 2*v*w*z + v*z^2) * h1 + (4*A*u^4*v - 4*A*u^3*v^2 - 2*A*u^3*v + A*u^2*v^3 + 3*A*u^2*v^2 - 2*A*u^2*v - A*u*v^3 + A*u*v^2 + 3*u^5*v + u^5 - 2*u^4*v^2 - 5*u^4*v + u^4 + 6*u^3*v^2 + u^3*v - u^3 - 2*u^2*v^3 - 4*u^2*v^2 - 4*u^2*v*w*z + u^2*v*z^2 + u^2*v + 2*u^2*w*z - u^2*z^2 - u^2 + 2*u*v^3 + 2*u*v^2*w*z - 2*u*v*w*z + u*v*z^2 + 2*u*w*z - u*z^2) * h2
    apply mul_left_cancel₀ (mul_ne_zero (mul_ne_zero (mul_ne_zero (mul_ne_zero hw hz) hs1) hs2) (pow_ne_zero 3 hU))
    linear_combination b * (v - u) ^ 3 * k1 - c * a * (v - u) ^ 3 * k2 - c * E
  · have k1 : w * z * (u + 1) * (v + 1) * (y1 * y2 + x1 * x2) =
        (u - 1) * (v - 1) * w * z - (A + 2) * u * v * (u + 1) * (v + 1) := by
      linear_combination (w * z * (v + 1) * y2) * hy1 + (w * z * (u - 1)) * hy2 + (x2 * z * (u + 1) * (v + 1)) * hx1 +
        (c * u * (u + 1) * (v + 1)) * hx2 + u * v * (u + 1) * (v + 1) * hc
    have k2 : w * z * (u + 1) * (v + 1) * (d * x1 * x2 * y1 * y2) = (A - 2) * u * v * (u - 1) * (v - 1) := by
      linear_combination d * (x2 * z) * (y1 * (u + 1)) * (y2 * (v + 1)) * hx1 + d * (c * u) * (y1 * (u + 1)) * (y2 * (v + 1)) * hx2 +
        d * c * u * c * v * (y2 * (v + 1)) * hy1 + d * c ^ 2 * u * v * (u - 1) * hy2 + u * v * (u - 1) * (v - 1) * hd
    have E : (a - 1) * (v - u) ^ 2 * (w * z * (u + 1) * (v + 1) - (A - 2) * u * v * (u - 1) * (v - 1)) =
        ((u - 1) * (v - 1) * w * z - (A + 2) * u * v * (u + 1) * (v + 1)) * ((a + 1) * (v - u) ^ 2) := by
      linear_combination ((w * z * (u + 1) * (v + 1) - (A - 2) * u * v * (u - 1) * (v - 1)) -
        ((u - 1) * (v - 1) * w * z - (A + 2) * u * v * (u + 1) * (v + 1))) * h3 + (2*A*u^2*v + 2*A*u*v^2 + 4*u^2*v^2 + 4*u*v + 2*u*w*z - 4*u*z^2 + 2*v*w*z - 4*v*z^2) * h1 + (-4*A*u^3 - 2*A*u^2*v + 2*A*u*v^2 - 4*u^4 - 4*u^3*v + 4*u^2*v^2 - 4*u^2 + 2*u*w*z + 2*v*w*z) * h2
    apply mul_left_cancel₀ (mul_ne_zero (mul_ne_zero (mul_ne_zero (mul_ne_zero hw hz) hs1) hs2) (pow_ne_zero 2 hU))
    linear_combination (a + 1) * (v - u) ^ 2 * k1 + (a - 1) * (v - u) ^ 2 * k2 - E

/-- The addition formulas, for equal points. -/
theorem add_tangent (h : Ok A c d) {P : (M A).Point} {u w x1 y1 : F} (hp : IsPt P u w) (hu : u ≠ 0)
    (hx1 : x1 * w = c * u) (hy1 : y1 * (u + 1) = u - 1) :
    ∃ a b, IsPt (P + P) a b ∧ (x1 * y1 + x1 * y1) * b = c * a * (1 + d * x1 * x1 * y1 * y1) ∧
      (y1 * y1 + x1 * x1) * (a + 1) = (a - 1) * (1 - d * x1 * x1 * y1 * y1) := by
  have hw := h.w_ne hp hu
  have hs1 := h.u_ne hp
  have h1 := hp.eqn
  have hc := h.c2
  have hd := h.dc
  have h20 := h.two
  obtain ⟨a, ha⟩ : ∃ a : F, a = (3 * u ^ 2 + 2 * A * u + 1) ^ 2 / (2 * w) ^ 2 - A - 2 * u := ⟨_, rfl⟩
  obtain ⟨b, hb⟩ : ∃ b : F, b = (3 * u ^ 2 + 2 * A * u + 1) / (2 * w) * (u - a) - w := ⟨_, rfl⟩
  have h3 : (a + A + 2 * u) * (2 * w) ^ 2 = (3 * u ^ 2 + 2 * A * u + 1) ^ 2 := by
    rw [ha]; field_simp; ring
  have h4 : (b + w) * (2 * w) = (3 * u ^ 2 + 2 * A * u + 1) * (u - a) := by
    rw [hb]; field_simp; ring
  have k2 : w * w * (u + 1) * (u + 1) * (d * x1 * x1 * y1 * y1) = (A - 2) * u * u * (u - 1) * (u - 1) := by
    linear_combination d * (x1 * w) * (y1 * (u + 1)) * (y1 * (u + 1)) * hx1 + d * (c * u) * (y1 * (u + 1)) * (y1 * (u + 1)) * hx1 +
      d * c * u * c * u * (y1 * (u + 1)) * hy1 + d * c ^ 2 * u * u * (u - 1) * hy1 + u * u * (u - 1) * (u - 1) * hd
  refine ⟨a, b, hp.dbl h.two hw h3 h4, ?_, ?_⟩
  · have k1 : w * w * (u + 1) * (u + 1) * (x1 * y1 + x1 * y1) = c * (2 * u * w * (u - 1) * (u + 1)) := by
      linear_combination (2 * y1 * (u + 1) * w * (u + 1)) * hx1 + (2 * c * u * w * (u + 1)) * hy1
    have E : a * (8 * w ^ 3) * (w * w * (u + 1) * (u + 1) + (A - 2) * u * u * (u - 1) * (u - 1)) =
        (2 * u * w * (u - 1) * (u + 1)) * (b * (8 * w ^ 3)) := by
      linear_combination ((2 * w) * (w * w * (u + 1) * (u + 1) + (A - 2) * u * u * (u - 1) * (u - 1)) +
          (2 * u * w * (u - 1) * (u + 1)) * (3 * u ^ 2 + 2 * A * u + 1)) * h3 -
        (2 * u * w * (u - 1) * (u + 1)) * (4 * w ^ 2) * h4 + (-24*A^2*u^4*w + 16*A^2*u^3*w + 8*A^2*u^2*w - 72*A*u^5*w + 48*A*u^4*w - 8*A*u^2*w^3 + 16*A*u^2*w - 16*A*u*w^3 + 8*A*u*w - 8*A*w^3 - 54*u^6*w + 36*u^5*w - 18*u^4*w + 24*u^3*w - 32*u^2*w^3 + 6*u^2*w - 32*u*w^3 + 4*u*w + 2*w) * h1
    apply mul_left_cancel₀ (mul_ne_zero (mul_ne_zero (mul_ne_zero (mul_ne_zero hw hw) hs1) hs1)
      (pow_ne_zero 3 (mul_ne_zero h20 hw)))
    linear_combination b * (8 * w ^ 3) * k1 - c * a * (8 * w ^ 3) * k2 - c * E
  · have k1 : w * w * (u + 1) * (u + 1) * (y1 * y1 + x1 * x1) =
        (u - 1) * (u - 1) * w * w - (A + 2) * u * u * (u + 1) * (u + 1) := by
      linear_combination (w * w * (u + 1) * y1) * hy1 + (w * w * (u - 1)) * hy1 + (x1 * w * (u + 1) * (u + 1)) * hx1 +
        (c * u * (u + 1) * (u + 1)) * hx1 + u * u * (u + 1) * (u + 1) * hc
    have E : (a - 1) * (4 * w ^ 2) * (w * w * (u + 1) * (u + 1) - (A - 2) * u * u * (u - 1) * (u - 1)) =
        ((u - 1) * (u - 1) * w * w - (A + 2) * u * u * (u + 1) * (u + 1)) * ((a + 1) * (4 * w ^ 2)) := by
      linear_combination ((w * w * (u + 1) * (u + 1) - (A - 2) * u * u * (u - 1) * (u - 1)) -
        ((u - 1) * (u - 1) * w * w - (A + 2) * u * u * (u + 1) * (u + 1))) * h3 + (-16*A^2*u^3 - 48*A*u^4 - 16*A*u^2 - 16*A*u*w^2 - 36*u^5 - 24*u^3 - 40*u^2*w^2 - 4*u - 8*w^2) * h1
    apply mul_left_cancel₀ (mul_ne_zero (mul_ne_zero (mul_ne_zero (mul_ne_zero hw hw) hs1) hs1)
      (pow_ne_zero 2 (mul_ne_zero h20 hw)))
    linear_combination (a + 1) * (4 * w ^ 2) * k1 + (a - 1) * (4 * w ^ 2) * k2 - E

/-- The Edwards addition formulas compute the sum. -/
theorem IsEd.add (h : Ok A c d) {P Q : (M A).Point} {x1 y1 x2 y2 : F} (h1 : IsEd c P x1 y1) (h2 : IsEd c Q x2 y2) :
    IsEd c (P + Q) ((x1 * y2 + x2 * y1) / (1 + d * x1 * x2 * y1 * y2)) ((y1 * y2 + x1 * x2) / (1 - d * x1 * x2 * y1 * y2)) := by
  have o1 := h1.on h
  have o2 := h2.on h
  have hda := h.den_add o1 o2
  have hds := h.den_sub o1 o2
  -- the sum is zero
  by_cases hz : P + Q = 0
  · have e : Q = -P := eq_neg_of_add_eq_zero_right hz
    subst e
    obtain ⟨e1, e2⟩ := h2.inj h h1.neg
    subst e1 e2
    refine .inl ⟨hz, ?_, ?_⟩
    · rw [div_eq_zero_iff]; left; ring
    · rw [div_eq_one_iff_eq hds]; linear_combination o1
  obtain ⟨T, hT⟩ := exists_of_eqn (A := A) h.two h.A2 (x := 0) (y := 0) (by ring)
  have hTT : T + T = 0 := (hT.add_self_zero h.two).2 rfl
  -- the sum has order two
  by_cases ht : P + Q = T
  · have e : Q = -P + T := by rw [← ht]; abel
    have hq := IsEd.add_two h h1.neg hT
    rw [← e] at hq
    obtain ⟨e1, e2⟩ := h2.inj h hq
    rw [ht]
    refine .inr (.inl ⟨hT, ?_, ?_⟩)
    · rw [div_eq_zero_iff]; left; rw [e1, e2]; ring
    · rw [div_eq_iff hds, e1, e2]; linear_combination -o1
  have fin : ∀ {a b : F}, IsPt (P + Q) a b → (x1 * y2 + x2 * y1) * b = c * a * (1 + d * x1 * x2 * y1 * y2) →
      (y1 * y2 + x1 * x2) * (a + 1) = (a - 1) * (1 - d * x1 * x2 * y1 * y2) →
      IsEd c (P + Q) ((x1 * y2 + x2 * y1) / (1 + d * x1 * x2 * y1 * y2)) ((y1 * y2 + x1 * x2) / (1 - d * x1 * x2 * y1 * y2)) := by
    intro a b hab e1 e2
    have ha : a ≠ 0 := by
      rintro rfl
      have hb : b = 0 := pow_eq_zero_iff (two_ne_zero) |>.1 (by linear_combination hab.eqn)
      subst hb
      exact ht (hab.ext hT)
    refine .inr (.inr ⟨a, b, hab, ha, ?_, ?_⟩)
    · rw [div_mul_eq_mul_div, div_eq_iff hda]; exact e1
    · rw [div_mul_eq_mul_div, div_eq_iff hds]; exact e2
  rcases h1 with ⟨rfl, rfl, rfl⟩ | ⟨e, rfl, rfl⟩ | ⟨u, w, hp, hu, hx, hy⟩
  · rw [zero_add]
    convert h2 using 1 <;> simp
  · have := IsEd.add_two h h2 e
    rw [add_comm] at this
    convert this using 1 <;> simp
  rcases h2 with ⟨rfl, rfl, rfl⟩ | ⟨e, rfl, rfl⟩ | ⟨v, z, hq, hv, hx', hy'⟩
  · rw [add_zero]
    have h1 : IsEd c P x1 y1 := .inr (.inr ⟨u, w, hp, hu, hx, hy⟩)
    convert h1 using 1 <;> simp
  · have h1 : IsEd c P x1 y1 := .inr (.inr ⟨u, w, hp, hu, hx, hy⟩)
    have := IsEd.add_two h h1 e
    convert this using 1 <;> simp
  by_cases huv : u = v
  · subst huv
    rcases hp.eq_or_neg hq with e | e
    · subst e
      obtain ⟨-, rfl⟩ := hp.inj hq
      have e1 : x1 = x2 := mul_right_cancel₀ (h.w_ne hp hu) (hx.trans hx'.symm)
      have e2 : y1 = y2 := mul_right_cancel₀ (h.u_ne hp) (hy.trans hy'.symm)
      subst e1 e2
      obtain ⟨a, b, hab, e1, e2⟩ := add_tangent h hp hu hx hy
      exact fin hab e1 e2
    · exact absurd (by rw [e]; exact add_neg_cancel P) hz
  · obtain ⟨a, b, hab, e1, e2⟩ := add_chord h hp hu hx hy hq hv hx' hy' huv
    exact fin hab e1 e2

end Verif.Edwards
