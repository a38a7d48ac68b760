import Verif.Proof.X25519
import Verif.Proof.Ed25519Group
import Verif.Proof.PrimesTwist
import Mathlib.NumberTheory.LegendreSymbol.QuadraticReciprocity

/-!
The points of curve25519 and of its twist, as subgroups of the points over the algebraic closure.
-/
namespace Verif.X25519
open Verif.Mg Verif.Ladder Verif.Spec.Ed25519

variable {K : Type} [Field K] [DecidableEq K]

/-- The right-hand side of the equation of the curve. -/
def rhs (x : F) : F := x ^ 3 + 486662 * x ^ 2 + x

/-- The points with `x` and `y / δ` in the prime field. -/
def Sub (f : F →+* K) (δ : K) {c : F} (hδ : δ ^ 2 = f c) (hc : c ≠ 0) : AddSubgroup (M (486662 : K)).Point where
  carrier := {P | P = 0 ∨ ∃ x w : F, IsPt P (f x) (δ * f w)}
  zero_mem' := Or.inl rfl
  neg_mem' := by
    rintro P (rfl | ⟨x, w, h⟩)
    · exact Or.inl neg_zero
    · exact Or.inr ⟨x, -w, by have := h.neg; rwa [map_neg, mul_neg]⟩
  add_mem' := by
    rintro P Q (rfl | ⟨x1, w1, h1⟩) hQ
    · rwa [zero_add]
    rcases hQ with rfl | ⟨x2, w2, h2⟩
    · rw [add_zero]; exact Or.inr ⟨x1, w1, h1⟩
    have h20 : (2 : F) ≠ 0 := by decide +kernel
    by_cases hx : x1 = x2
    · subst hx
      rcases h1.eq_or_neg h2 with rfl | rfl
      · by_cases hw : δ * f w1 = 0
        · exact Or.inl ((h1.add_self_zero (two_ne f)).2 hw)
        · have hw1 : w1 ≠ 0 := by rintro rfl; exact hw (by rw [map_zero, mul_zero])
          have hd : 2 * c * w1 ≠ 0 := mul_ne_zero (mul_ne_zero h20 hc) hw1
          obtain ⟨l, hl⟩ : ∃ l : F, l * (2 * c * w1) = 3 * x1 ^ 2 + 2 * 486662 * x1 + 1 := ⟨_, div_mul_cancel₀ _ hd⟩
          have hl' := congrArg f hl
          simp only [map_mul, map_add, map_pow, map_ofNat, map_one] at hl'
          refine Or.inr ⟨c * l ^ 2 - 486662 - 2 * x1, l * (x1 - (c * l ^ 2 - 486662 - 2 * x1)) - w1, h1.dbl (two_ne f) hw ?_ ?_⟩
          · simp only [map_mul, map_sub, map_pow, map_ofNat]
            rw [← hl']
            linear_combination (4 * f c * f l ^ 2 * f w1 ^ 2) * hδ
          · simp only [map_mul, map_sub, map_pow, map_ofNat]
            rw [← hl']
            linear_combination (2 * f w1 * f l * (f x1 - (f c * f l ^ 2 - 486662 - 2 * f x1))) * hδ
      · exact Or.inl (add_neg_cancel _)
    · have hd : x2 - x1 ≠ 0 := sub_ne_zero.2 (Ne.symm hx)
      obtain ⟨l, hl⟩ : ∃ l : F, l * (x2 - x1) = w2 - w1 := ⟨_, div_mul_cancel₀ _ hd⟩
      have hl' := congrArg f hl
      simp only [map_mul, map_sub] at hl'
      refine Or.inr ⟨c * l ^ 2 - 486662 - x1 - x2, l * (x1 - (c * l ^ 2 - 486662 - x1 - x2)) - w1, h1.add h2 (fun h => hx (f.injective h)) ?_ ?_⟩
      · simp only [map_mul, map_sub, map_pow, map_ofNat]
        rw [← mul_sub, ← hl']
        linear_combination (-f l ^ 2 * (f x2 - f x1) ^ 2) * hδ
      · simp only [map_mul, map_sub, map_pow, map_ofNat]
        rw [← mul_sub, ← hl']
        ring

theorem mem_sub {f : F →+* K} {δ : K} {c : F} {hδ : δ ^ 2 = f c} {hc : c ≠ 0} {P : (M (486662 : K)).Point} :
    P ∈ Sub f δ hδ hc ↔ P = 0 ∨ ∃ x w : F, IsPt P (f x) (δ * f w) := Iff.rfl

/-- The affine points of `c w² = x³ + A x² + x` over the prime field. -/
abbrev Sols (c : F) : Type := {q : F × F // c * q.2 ^ 2 = rhs q.1}

theorem sols_pt (f : F →+* K) {δ : K} {c : F} (hδ : δ ^ 2 = f c) (q : Sols c) : ∃ P : (M (486662 : K)).Point, IsPt P (f q.1.1) (δ * f q.1.2) := by
  refine exists_of_eqn (two_ne f) (A_ne f) ?_
  have := congrArg f q.2
  simp only [rhs, map_mul, map_add, map_pow, map_ofNat] at this
  rw [mul_pow, hδ, this]

theorem card_sub (f : F →+* K) (δ : K) {c : F} (hδ : δ ^ 2 = f c) (hc : c ≠ 0) : Nat.card (Sub f δ hδ hc) = Nat.card (Sols c) + 1 := by
  have hδ0 : δ ≠ 0 := by
    rintro rfl
    refine hc (f.injective ?_)
    rw [← hδ, map_zero]; ring
  rw [← Finite.card_option]
  symm
  let φ : Option (Sols c) → Sub f δ hδ hc := fun o => match o with
    | none => 0
    | some q => ⟨(sols_pt f hδ q).choose, Or.inr ⟨_, _, (sols_pt f hδ q).choose_spec⟩⟩
  refine Nat.card_eq_of_bijective φ ⟨?_, ?_⟩
  · intro a b hab
    match a, b with
    | none, none => rfl
    | none, some q => exact absurd (Subtype.ext_iff.1 hab).symm (sols_pt f hδ q).choose_spec.ne_zero
    | some q, none => exact absurd (Subtype.ext_iff.1 hab) (sols_pt f hδ q).choose_spec.ne_zero
    | some q, some r =>
      have h : (sols_pt f hδ q).choose = (sols_pt f hδ r).choose := Subtype.ext_iff.1 hab
      have h1 := (sols_pt f hδ q).choose_spec
      rw [h] at h1
      obtain ⟨e1, e2⟩ := h1.inj (sols_pt f hδ r).choose_spec
      have e3 := mul_left_cancel₀ hδ0 e2
      rw [Subtype.ext (Prod.ext (f.injective e1) (f.injective e3))]
  · rintro ⟨P, hP⟩
    rcases hP with rfl | ⟨x, w, h⟩
    · exact ⟨none, rfl⟩
    · have e := h.eqn
      rw [mul_pow, hδ] at e
      have e' : c * w ^ 2 = rhs x := f.injective (by simp only [rhs, map_mul, map_add, map_pow, map_ofNat]; exact e)
      refine ⟨some ⟨(x, w), e'⟩, Subtype.ext ?_⟩
      exact (sols_pt f hδ ⟨(x, w), e'⟩).choose_spec.ext h

theorem card_sols_one : Nat.card (Sols 1) + 1 = 8 * L := by
  rw [← card_sub (RingHom.id F) 1 (by rw [map_one, one_pow]) one_ne_zero, ← Ed25519Group.card_eq]
  have : Sub (RingHom.id F) 1 (c := 1) (by rw [map_one, one_pow]) one_ne_zero = ⊤ := by
    rw [eq_top_iff]
    intro P _
    by_cases h : P = 0
    · exact Or.inl h
    · obtain ⟨x, y, hxy⟩ := exists_isPt h
      exact Or.inr ⟨x, y, by rw [one_mul]; exact hxy⟩
  rw [this]
  exact AddSubgroup.card_top

theorem two_not_square : quadraticChar F 2 = -1 := by
  rw [quadraticChar_neg_one_iff_not_isSquare, ZMod.exists_sq_eq_two_iff (by decide +kernel)]
  decide +kernel

theorem card_sqrt (a c : F) (hc : c ≠ 0) : (Fintype.card {w : F // c * w ^ 2 = a} : ℤ) = quadraticChar F c * quadraticChar F a + 1 := by
  have hr : ringChar F ≠ 2 := by rw [ZMod.ringChar_zmod_n]; decide +kernel
  have := quadraticChar_card_sqrts hr (c * a)
  have hcc : quadraticChar F (c * a) = quadraticChar F c * quadraticChar F a := map_mul _ _ _
  rw [← hcc, ← this, Set.toFinset_card]
  refine congrArg (Nat.cast : Nat → ℤ) (Fintype.card_congr ⟨fun w => ⟨c * w.1, ?_⟩, fun w => ⟨c⁻¹ * w.1, ?_⟩, fun w => ?_, fun w => ?_⟩)
  · have := w.2
    show (c * w.1) ^ 2 = c * a
    linear_combination c * w.2
  · have : w.1 ^ 2 = c * a := w.2
    rw [mul_pow, this]
    field_simp
  · exact Subtype.ext (inv_mul_cancel_left₀ hc _)
  · exact Subtype.ext (mul_inv_cancel_left₀ hc _)

theorem card_sols (c : F) (hc : c ≠ 0) : (Nat.card (Sols c) : ℤ) = ∑ x : F, (quadraticChar F c * quadraticChar F (rhs x) + 1) := by
  rw [Nat.card_congr (Equiv.subtypeProdEquivSigmaSubtype fun x w : F => c * w ^ 2 = rhs x), Nat.card_eq_fintype_card, Fintype.card_sigma, Nat.cast_sum]
  exact Finset.sum_congr rfl fun x _ => card_sqrt _ _ hc

theorem card_sols_two : Nat.card (Sols 1) + Nat.card (Sols 2) = 2 * p := by
  have h1 := card_sols 1 one_ne_zero
  have h2 := card_sols 2 (by decide +kernel)
  rw [two_not_square] at h2
  have h3 : (∑ x : F, (quadraticChar F 1 * quadraticChar F (rhs x) + 1)) + ∑ x : F, (-1 * quadraticChar F (rhs x) + 1) = 2 * (p : ℤ) := by
    rw [← Finset.sum_add_distrib, Finset.sum_congr rfl (g := fun _ => (2 : ℤ)) (fun x _ => by rw [map_one]; ring), Finset.sum_const,
      Finset.card_univ, ZMod.card, nsmul_eq_mul, mul_comm]
  rw [← h1, ← h2] at h3
  exact_mod_cast h3

/-- The order of the twist is `4 T`. -/
def T : Nat := 14474011154664524427946373126085988481603263447650325797860494125407373907997

theorem card_twist : Nat.card (Sols 2) + 1 = 4 * T := by
  have h1 := card_sols_one
  have h2 := card_sols_two
  have h3 : 8 * L + 4 * T = 2 * p + 2 := by decide +kernel
  generalize 8 * L = a at *
  generalize 4 * T = b at *
  generalize 2 * p = d at *
  omega

theorem T_prime : T.Prime := Pratt25519.prime_14474011154664524427946373126085988481603263447650325797860494125407373907997

theorem smul_of_card {G : Type} [AddCommGroup G] (S : AddSubgroup G) {P : G} (hm : P ∈ S) {n : Nat} (h : Nat.card S = n) : n • P = 0 := by
  have := card_nsmul_eq_zero' (x := (⟨P, hm⟩ : S))
  rw [h] at this
  exact Subtype.ext_iff.1 this

/-- Every point over the closure with its x coordinate in the prime field is on the curve or on the twist. -/
theorem order_dvd {P : (M (486662 : AlgebraicClosure F)).Point} {u : F} {v : AlgebraicClosure F} (hP : IsPt P (algebraMap F _ u) v) :
    (8 * L) • P = 0 ∨ (4 * T) • P = 0 := by
  have hc2 : (2 : F) ≠ 0 := by decide +kernel
  have e := hP.eqn
  have main : ∀ (c : F) (hc : c ≠ 0) (w : F), rhs u = c * w ^ 2 → ∃ (δ : AlgebraicClosure F) (hδ : δ ^ 2 = algebraMap F _ c),
      P ∈ Sub (algebraMap F (AlgebraicClosure F)) δ hδ hc := by
    intro c hc w hw
    obtain ⟨δ, hδ⟩ := IsAlgClosed.exists_pow_nat_eq (k := AlgebraicClosure F) (algebraMap F _ c) (n := 2) (by decide)
    have hr := congrArg (algebraMap F (AlgebraicClosure F)) hw
    simp only [rhs, map_mul, map_add, map_pow, map_ofNat] at hr
    have hv : (v - δ * algebraMap F _ w) * (v + δ * algebraMap F _ w) = 0 := by
      linear_combination e + hr - (algebraMap F _ w) ^ 2 * hδ
    refine ⟨δ, hδ, Or.inr ?_⟩
    rcases mul_eq_zero.1 hv with h | h
    · exact ⟨u, w, by rw [← sub_eq_zero.1 h]; exact hP⟩
    · exact ⟨u, -w, by rw [map_neg, mul_neg, ← eq_neg_of_add_eq_zero_left h]; exact hP⟩
  have hcases : (∃ w, rhs u = 1 * w ^ 2) ∨ ∃ w, rhs u = 2 * w ^ 2 := by
    by_cases h0 : rhs u = 0
    · exact Or.inl ⟨0, by rw [h0]; ring⟩
    · rcases quadraticChar_dichotomy h0 with h | h
      · rw [quadraticChar_one_iff_isSquare h0] at h
        obtain ⟨w, hw⟩ := h
        exact Or.inl ⟨w, by rw [hw]; ring⟩
      · have h2 : quadraticChar F (2 * rhs u) = 1 := by rw [map_mul, h, two_not_square]; rfl
        rw [quadraticChar_one_iff_isSquare (mul_ne_zero hc2 h0)] at h2
        obtain ⟨w, hw⟩ := h2
        refine Or.inr ⟨w / 2, mul_left_cancel₀ hc2 ?_⟩
        rw [hw]; field_simp
  rcases hcases with ⟨w, hw⟩ | ⟨w, hw⟩
  · obtain ⟨δ, hδ, hm⟩ := main 1 one_ne_zero w hw
    left
    exact smul_of_card _ hm ((card_sub _ δ hδ one_ne_zero).trans card_sols_one)
  · obtain ⟨δ, hδ, hm⟩ := main 2 hc2 w hw
    right
    exact smul_of_card _ hm ((card_sub _ δ hδ hc2).trans card_twist)

theorem coprime_of_lt {q m : Nat} (hq : q.Prime) (h : 0 < m) (h' : m < q) : Nat.Coprime m q :=
  ((Nat.Prime.coprime_iff_not_dvd hq).2 fun hd => absurd (Nat.le_of_dvd h hd) (by omega)).symm

/-- Multiplication by a power of 2 times a small number kills only what multiplication by 8 kills. -/
theorem eight_of {P : (M (486662 : AlgebraicClosure F)).Point} {u : F} {v : AlgebraicClosure F} (hP : IsPt P (algebraMap F _ u) v)
    {m n j : Nat} (h0 : 0 < m) (hm : m < 2 ^ 252) (h0' : 0 < n) (hn : n < 2 ^ 252) (h : (2 ^ j * (m * n)) • P = 0) : 8 • P = 0 := by
  have hL : 2 ^ 252 < L := by decide +kernel
  have hT : 2 ^ 252 < T := by decide +kernel
  rw [← addOrderOf_dvd_iff_nsmul_eq_zero] at h ⊢
  rcases order_dvd hP with h1 | h1
  · rw [← addOrderOf_dvd_iff_nsmul_eq_zero] at h1
    have hc : Nat.Coprime (2 ^ j * (m * n)) L := Nat.Coprime.mul_left (Nat.Coprime.pow_left j (by decide +kernel))
      (Nat.Coprime.mul_left (coprime_of_lt Pratt25519.prime_n25519 h0 (hm.trans hL)) (coprime_of_lt Pratt25519.prime_n25519 h0' (hn.trans hL)))
    exact (Nat.Coprime.coprime_dvd_left h hc).dvd_of_dvd_mul_right h1
  · rw [← addOrderOf_dvd_iff_nsmul_eq_zero] at h1
    have hc : Nat.Coprime (2 ^ j * (m * n)) T := Nat.Coprime.mul_left (Nat.Coprime.pow_left j (by decide +kernel))
      (Nat.Coprime.mul_left (coprime_of_lt T_prime h0 (hm.trans hT)) (coprime_of_lt T_prime h0' (hn.trans hT)))
    exact ((Nat.Coprime.coprime_dvd_left h hc).dvd_of_dvd_mul_right h1).trans (by decide)

/-! ### Points of small order -/

def c1 : F := 325606250916557431795983626356110631294008115727848805560023387167927233504
def c2 : F := 39382357235489614581723060781553021112529911719440698176882885853963445705823
/-- A root of `A + 2`. -/
def s : F := 48802004052532134862652268456126542835229456083994414501085850622543968879637

theorem s_sq : s ^ 2 = 486664 := by
  have : ((48802004052532134862652268456126542835229456083994414501085850622543968879637 ^ 2 : Nat) : F) = ((486664 : Nat) : F) :=
    Ed25519Group.cast_eq (by decide +kernel)
  exact_mod_cast this

theorem c_sum : c1 + c2 = 2 + 2 * s := by
  have : ((325606250916557431795983626356110631294008115727848805560023387167927233504 +
      39382357235489614581723060781553021112529911719440698176882885853963445705823 : Nat) : F) =
      ((2 + 2 * 48802004052532134862652268456126542835229456083994414501085850622543968879637 : Nat) : F) :=
    Ed25519Group.cast_eq (by decide +kernel)
  exact_mod_cast this

theorem c_prod : c1 * c2 = 1 := by
  have : ((325606250916557431795983626356110631294008115727848805560023387167927233504 *
      39382357235489614581723060781553021112529911719440698176882885853963445705823 : Nat) : F) = ((1 : Nat) : F) :=
    Ed25519Group.cast_eq (by decide +kernel)
  exact_mod_cast this

theorem ns1 (t : F) : t ^ 2 ≠ 486662 ^ 2 - 4 := by
  intro h
  have ok := Ed25519Group.ok
  obtain ⟨i, hi⟩ := ok.i
  have h1 := ok.hd
  have hne : (486662 : F) + 2 ≠ 0 := ok.ne
  refine d_ns' (i * t / (486662 + 2)) ?_
  rw [div_pow, div_eq_iff (pow_ne_zero 2 hne)]
  linear_combination i ^ 2 * h + (486662 ^ 2 - 4) * hi - (486662 + 2) * h1
where d_ns' := Ed25519Group.d_ns

theorem ns2 (t : F) : t ^ 2 ≠ 2 - 486662 := by
  intro h
  have ok := Ed25519Group.ok
  obtain ⟨i, hi⟩ := ok.i
  have h1 := ok.hd
  have h2 := ok.c2
  have hne : Ed25519Group.c ≠ 0 := ok.c_ne
  have hin : i ≠ 0 := by rintro rfl; norm_num at hi
  refine Ed25519Group.d_ns (t / (i * Ed25519Group.c)) ?_
  rw [div_pow, div_eq_iff (pow_ne_zero 2 (mul_ne_zero hin hne))]
  linear_combination h - h1 - d * i ^ 2 * h2 + d * (486662 + 2) * hi

theorem rhs_zero {u : F} (h : rhs u = 0) : u = 0 := by
  by_contra hu
  have h1 : u * (u ^ 2 + 486662 * u + 1) = 0 := by rw [← h, rhs]; ring
  rcases mul_eq_zero.1 h1 with h1 | h1
  · exact hu h1
  · exact ns1 (2 * u + 486662) (by linear_combination 4 * h1)

/-- The x coordinates of the points of the curve and the twist whose order divides 8. -/
def LowOrder (u : F) : Prop := u = 0 ∨ u = 1 ∨ u = -1 ∨ u = c1 ∨ u = c2

theorem pt_zero {P : (M (486662 : AlgebraicClosure F)).Point} {u : F} {v : AlgebraicClosure F} (hP : IsPt P (algebraMap F _ u) v) :
    P + P = 0 ↔ u = 0 := by
  have e := hP.eqn
  rw [hP.add_self_zero (two_ne (algebraMap F _))]
  have e' : v ^ 2 = algebraMap F _ (rhs u) := by rw [e]; simp only [rhs, map_add, map_mul, map_pow, map_ofNat]
  constructor
  · rintro rfl
    refine rhs_zero ((map_eq_zero_iff _ (algebraMap F (AlgebraicClosure F)).injective).1 ?_)
    rw [← e']; ring
  · rintro rfl
    rw [show rhs 0 = 0 by rw [rhs]; ring, map_zero] at e'
    exact pow_eq_zero_iff (two_ne_zero) |>.1 e'

/-- The double of a point whose double is finite. -/
theorem pt_dbl {P : (M (486662 : AlgebraicClosure F)).Point} {u : F} {v : AlgebraicClosure F} (hP : IsPt P (algebraMap F _ u) v) (hu : u ≠ 0) :
    ∃ (x : F) (y : _), IsPt (P + P) (algebraMap F _ x) y ∧ x * (4 * rhs u) = (u ^ 2 - 1) ^ 2 := by
  have e := hP.eqn
  have e' : v ^ 2 = algebraMap F _ (rhs u) := by rw [e]; simp only [rhs, map_add, map_mul, map_pow, map_ofNat]
  have hv : v ≠ 0 := fun hv => hu ((pt_zero hP).1 ((hP.add_self_zero (two_ne (algebraMap F _))).2 hv))
  obtain ⟨x', y', h1, h2⟩ := dbl_x hP (two_ne (algebraMap F _)) hv
  have hr : rhs u ≠ 0 := fun h => hu (rhs_zero h)
  have h4 : (4 : F) ≠ 0 := by decide +kernel
  have hr4 := mul_ne_zero h4 hr
  refine ⟨(u ^ 2 - 1) ^ 2 / (4 * rhs u), y', ?_, div_mul_cancel₀ _ hr4⟩
  have : x' = algebraMap F _ ((u ^ 2 - 1) ^ 2 / (4 * rhs u)) := by
    rw [map_div₀, eq_div_iff (by rw [Ne, map_eq_zero_iff _ (algebraMap F (AlgebraicClosure F)).injective]; exact hr4)]
    simp only [map_mul, map_sub, map_pow, map_ofNat, map_one]
    rw [← e', ← h2]; ring
  rw [← this]; exact h1

theorem pt_four {P : (M (486662 : AlgebraicClosure F)).Point} {u : F} {v : AlgebraicClosure F} (hP : IsPt P (algebraMap F _ u) v) (hu : u ≠ 0) :
    (P + P) + (P + P) = 0 ↔ u = 1 ∨ u = -1 := by
  obtain ⟨x, y, h1, h2⟩ := pt_dbl hP hu
  have hr : rhs u ≠ 0 := fun h => hu (rhs_zero h)
  have h4 : (4 : F) ≠ 0 := by decide +kernel
  rw [pt_zero h1]
  constructor
  · rintro rfl
    rw [zero_mul] at h2
    have : (u - 1) * (u + 1) = 0 := by
      have := pow_eq_zero_iff (two_ne_zero) |>.1 h2.symm
      linear_combination this
    rcases mul_eq_zero.1 this with h | h
    · exact Or.inl (sub_eq_zero.1 h)
    · exact Or.inr (eq_neg_of_add_eq_zero_left h)
  · intro h
    have h0 : (u ^ 2 - 1) ^ 2 = 0 := by rcases h with rfl | rfl <;> ring
    rw [h0] at h2
    rcases mul_eq_zero.1 h2 with h | h
    · exact h
    · exact absurd h (mul_ne_zero h4 hr)

theorem eight_iff {P : (M (486662 : AlgebraicClosure F)).Point} {u : F} {v : AlgebraicClosure F} (hP : IsPt P (algebraMap F _ u) v) :
    8 • P = 0 ↔ LowOrder u := by
  have h8 : 8 • P = ((P + P) + (P + P)) + ((P + P) + (P + P)) := by
    rw [show 8 = 2 * (2 * 2) by rfl, mul_nsmul', mul_nsmul', two_nsmul, two_nsmul, two_nsmul]
  rw [h8, LowOrder]
  by_cases hu : u = 0
  · rw [(pt_zero hP).2 hu]; simp [hu]
  obtain ⟨x, y, h1, h2⟩ := pt_dbl hP hu
  have hr : rhs u ≠ 0 := fun h => hu (rhs_zero h)
  have h4 : (4 : F) ≠ 0 := by decide +kernel
  have h20 : (2 : F) ≠ 0 := by decide +kernel
  by_cases h41 : u = 1 ∨ u = -1
  · rw [(pt_four hP hu).2 h41]
    constructor
    · intro _; rcases h41 with h | h <;> simp [h]
    · intro _; simp
  have hx : x ≠ 0 := by
    rintro rfl
    exact h41 ((pt_four hP hu).1 ((pt_zero h1).2 rfl))
  rw [pt_four h1 hx]
  constructor
  · rintro (rfl | rfl)
    · have e : ((u - c1) * (u - c2)) * (u ^ 2 - (2 - 2 * s) * u + 1) = 0 := by
        have e1 : (u - c1) * (u - c2) = u ^ 2 - (2 + 2 * s) * u + 1 := by linear_combination (-u) * c_sum + c_prod
        rw [e1]
        rw [rhs] at h2
        linear_combination -h2 - 4 * u ^ 2 * s_sq
      rcases mul_eq_zero.1 e with e | e
      · rcases mul_eq_zero.1 e with e | e
        · simp [sub_eq_zero.1 e]
        · simp [sub_eq_zero.1 e]
      · exfalso
        refine ns1 ((2 * u - (2 - 2 * s)) * (c1 - c2) / 4) ?_
        rw [div_pow, div_eq_iff (pow_ne_zero 2 h4), mul_pow]
        have e2 : (2 * u - (2 - 2 * s)) ^ 2 = (2 - 2 * s) ^ 2 - 4 := by linear_combination 4 * e
        have e3 : (c1 - c2) ^ 2 = (2 + 2 * s) ^ 2 - 4 := by linear_combination (c1 + c2 + 2 + 2 * s) * c_sum - 4 * c_prod
        rw [e2, e3]
        linear_combination (16 * s ^ 2 + 16 * 486660) * s_sq
    · exfalso
      refine ns2 ((u + 1) ^ 2 / (2 * u)) ?_
      rw [div_pow, div_eq_iff (pow_ne_zero 2 (mul_ne_zero h20 hu))]
      rw [rhs] at h2
      linear_combination -h2
  · intro h
    left
    have e : (u - c1) * (u - c2) = 0 := by
      rcases h with h | h | h | h | h
      · exact absurd h hu
      · exact absurd (Or.inl h) h41
      · exact absurd (Or.inr h) h41
      · rw [h]; ring
      · rw [h]; ring
    have e1 : u ^ 2 - (2 + 2 * s) * u + 1 = 0 := by rw [← e]; linear_combination u * c_sum - c_prod
    have h3 : (u ^ 2 - 1) ^ 2 = 4 * rhs u := by
      rw [rhs]
      linear_combination (u ^ 2 - (2 - 2 * s) * u + 1) * e1 + 4 * u ^ 2 * s_sq
    rw [h3] at h2
    exact mul_right_cancel₀ (mul_ne_zero h4 hr) (by rw [h2, one_mul])

/-- **Multiplication by a clamped scalar gives 0 exactly for the x coordinates of points of small order.** -/
theorem scalarMult_eq_zero {k : Nat} (hk : 2 ^ 254 ≤ k) (hk2 : k < 2 ^ 255) (h8 : k % 8 = 0) (u : F) :
    Spec.X25519.scalarMult k u = 0 ↔ LowOrder u := by
  obtain ⟨m, rfl⟩ : ∃ m, k = 8 * m := ⟨k / 8, by omega⟩
  by_cases hu : u = 0
  · rw [hu, scalarMult_zero]; simp [LowOrder]
  obtain ⟨P, v, hP⟩ := exists_pt u
  rw [← eight_iff hP]
  rcases scalarMult_spec _ hP hu hk2 with ⟨h1, h2⟩ | ⟨y, h1⟩
  · rw [h2]
    refine ⟨fun _ => eight_of hP (m := m) (n := 1) (j := 4) (by omega) (by omega) (by decide) (by decide) ?_, fun _ => rfl⟩
    rw [show 2 ^ 4 * (m * 1) = 2 * (8 * m) by ring, mul_nsmul', h1, nsmul_zero]
  · constructor
    · intro h
      rw [h, map_zero] at h1
      refine eight_of hP (m := m) (n := 1) (j := 4) (by omega) (by omega) (by decide) (by decide) ?_
      rw [show 2 ^ 4 * (m * 1) = 2 * (8 * m) by ring, mul_nsmul', two_nsmul]
      exact two_torsion (algebraMap F _) h1
    · intro h
      rw [mul_comm, mul_nsmul', h, nsmul_zero] at h1
      exact absurd rfl h1.ne_zero

/-- The result of a multiplication has small order only if the input has. -/
theorem lowOrder_scalarMult {k : Nat} (hk : 2 ^ 254 ≤ k) (hk2 : k < 2 ^ 255) (h8 : k % 8 = 0) {u : F} :
    LowOrder (Spec.X25519.scalarMult k u) ↔ LowOrder u := by
  constructor
  · intro h
    by_cases hu : u = 0
    · exact Or.inl hu
    obtain ⟨P, v, hP⟩ := exists_pt u
    rcases scalarMult_spec _ hP hu hk2 with ⟨h1, h2⟩ | ⟨y, h1⟩
    · exact (scalarMult_eq_zero hk hk2 h8 u).1 h2
    · obtain ⟨m, rfl⟩ : ∃ m, k = 8 * m := ⟨k / 8, by omega⟩
      rw [← eight_iff h1] at h
      rw [← eight_iff hP]
      refine eight_of hP (m := m) (n := 1) (j := 6) (by omega) (by omega) (by decide) (by decide) ?_
      rw [show 2 ^ 6 * (m * 1) = 8 * (8 * m) by ring, mul_nsmul', h]
  · intro h
    rw [(scalarMult_eq_zero hk hk2 h8 u).2 h]
    exact Or.inl rfl

end Verif.X25519
