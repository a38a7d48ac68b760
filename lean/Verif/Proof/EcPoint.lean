import Verif.Proof.EcCard
import Verif.Proof.EcField
import Verif.Proof.EcBytes
import Verif.Proof.EcScalar
import Mathlib.GroupTheory.OrderOfElement

/-!
The points: multiples in the group, table selection, negation, conversion to affine form, comparison.
-/
namespace Verif.Ec

open Bignum Spec.Nist EcGroup EcCard

variable {N : Nat} {D : Params} [Fact D.p.Prime] [Fact D.n.Prime]

/-! ### Multiples -/

theorem order_eq (hg : Good D) {P : D.Pt} (h : P ≠ 0) : addOrderOf P = D.n := by
  have hd : addOrderOf P ∣ D.n := hg.card ▸ addOrderOf_dvd_natCard P
  rcases (Nat.dvd_prime Fact.out).1 hd with h1 | h1
  · exact absurd (AddMonoid.addOrderOf_eq_one_iff.1 h1) h
  · exact h1

theorem zsmul_zero_iff (hg : Good D) {P : D.Pt} (h : P ≠ 0) (a : Int) : a • P = 0 ↔ (D.n : Int) ∣ a := by
  rw [← order_eq hg h, addOrderOf_dvd_iff_zsmul_eq_zero]

theorem zsmul_eq_iff (hg : Good D) {P : D.Pt} (h : P ≠ 0) (a c : Int) : a • P = c • P ↔ (D.n : Int) ∣ a - c := by
  rw [← zsmul_zero_iff hg h, sub_smul, sub_eq_zero]

theorem nsmul_mod (hg : Good D) (P : D.Pt) (a : Nat) : (a % D.n) • P = a • P := by
  by_cases h : P = 0
  · simp [h]
  · rw [← order_eq hg h, mod_addOrderOf_nsmul]

theorem G_ne (hg : Good D) : D.G ≠ 0 := hg.G_pt.ne_zero

theorem b_ne (hg : Good D) : (D.b : ZMod D.p) ≠ 0 := by
  have := hg.no_root 0
  simpa using this

/-- A finite point is not `(0, 0)`. -/
theorem IsPt.not_zero (hg : Good D) {P : D.Pt} (h : IsPt P (0 : ZMod D.p) 0) : False := by
  have := h.eqn
  apply b_ne hg
  linear_combination -this

/-! ### Table selection -/

theorem and_allOnes' (v : Elt N) : v &&& BitVec.allOnes (64 * N) = v := BitVec.and_allOnes

theorem selectAffLoop_eq (d : BitVec 32) (i : BitVec 32) (t : List (Aff N)) (acc : Aff N)
    (h : i.toNat + t.length < 2 ^ 32) :
    selectAffLoop d i t acc =
      ⟨acc.x ^^^ (if d.toNat < i.toNat then (⟨0, 0⟩ : Aff N) else t.getD (d.toNat - i.toNat) ⟨0, 0⟩).x,
        acc.y ^^^ (if d.toNat < i.toNat then (⟨0, 0⟩ : Aff N) else t.getD (d.toNat - i.toNat) ⟨0, 0⟩).y⟩ := by
  induction t generalizing i acc with
  | nil => simp [selectAffLoop]
  | cons e t ih =>
    rw [List.length_cons] at h
    have hi : (i + 1).toNat = i.toNat + 1 := by
      rw [BitVec.toNat_add, show BitVec.toNat (1 : BitVec 32) = 1 by decide]
      exact Nat.mod_eq_of_lt (by omega)
    rw [selectAffLoop]
    rw [ih (i + 1) _ (by omega), hi, eqMask]
    by_cases hd : i = d
    · subst hd
      rw [if_pos rfl, if_pos (by omega), if_neg (by omega)]
      simp
    · have hne : i.toNat ≠ d.toNat := fun e => hd (BitVec.eq_of_toNat_eq e)
      rw [if_neg hd]
      by_cases hlt : d.toNat < i.toNat
      · rw [if_pos hlt, if_pos (by omega)]
        simp
      · rw [if_neg hlt, if_neg (by omega), show d.toNat - i.toNat = (d.toNat - (i.toNat + 1)) + 1 by omega]
        simp

theorem selectAff_eq (t : List (Aff N)) (index : BitVec 8) (h : t.length < 2 ^ 16) :
    selectAff t index = if index.toNat < 1 then ⟨0, 0⟩ else t.getD (index.toNat - 1) ⟨0, 0⟩ := by
  rw [selectAff, selectAffLoop_eq _ _ _ _ (by rw [show BitVec.toNat (1 : BitVec 32) = 1 by decide]; omega)]
  rw [BitVec.toNat_setWidth, Nat.mod_eq_of_lt (by have := index.isLt; omega),
    show BitVec.toNat (1 : BitVec 32) = 1 by decide]
  simp

theorem selectJacLoop_eq (d : BitVec 32) (i : BitVec 32) (t : List (Jac N)) (acc : Jac N)
    (h : i.toNat + t.length < 2 ^ 32) :
    selectJacLoop d i t acc =
      ⟨acc.x ^^^ (if d.toNat < i.toNat then (⟨0, 0, 0⟩ : Jac N) else t.getD (d.toNat - i.toNat) ⟨0, 0, 0⟩).x,
        acc.y ^^^ (if d.toNat < i.toNat then (⟨0, 0, 0⟩ : Jac N) else t.getD (d.toNat - i.toNat) ⟨0, 0, 0⟩).y,
        acc.z ^^^ (if d.toNat < i.toNat then (⟨0, 0, 0⟩ : Jac N) else t.getD (d.toNat - i.toNat) ⟨0, 0, 0⟩).z⟩ := by
  induction t generalizing i acc with
  | nil => simp [selectJacLoop]
  | cons e t ih =>
    rw [List.length_cons] at h
    have hi : (i + 1).toNat = i.toNat + 1 := by
      rw [BitVec.toNat_add, show BitVec.toNat (1 : BitVec 32) = 1 by decide]
      exact Nat.mod_eq_of_lt (by omega)
    rw [selectJacLoop]
    rw [ih (i + 1) _ (by omega), hi, eqMask]
    by_cases hd : i = d
    · subst hd
      rw [if_pos rfl, if_pos (by omega), if_neg (by omega)]
      simp
    · have hne : i.toNat ≠ d.toNat := fun e => hd (BitVec.eq_of_toNat_eq e)
      rw [if_neg hd]
      by_cases hlt : d.toNat < i.toNat
      · rw [if_pos hlt, if_pos (by omega)]
        simp
      · rw [if_neg hlt, if_neg (by omega), show d.toNat - i.toNat = (d.toNat - (i.toNat + 1)) + 1 by omega]
        simp

theorem selectJac_eq (t : List (Jac N)) (index : BitVec 8) (h : t.length < 2 ^ 16) :
    selectJac t index = if index.toNat < 1 then ⟨0, 0, 0⟩ else t.getD (index.toNat - 1) ⟨0, 0, 0⟩ := by
  rw [selectJac, selectJacLoop_eq _ _ _ _ (by rw [show BitVec.toNat (1 : BitVec 32) = 1 by decide]; omega)]
  rw [BitVec.toNat_setWidth, Nat.mod_eq_of_lt (by have := index.isLt; omega),
    show BitVec.toNat (1 : BitVec 32) = 1 by decide]
  simp

/-! ### Negation and conversions -/

section

variable {A : Asm N} (hA : A.Ok D.p D.n) (hg : Good D)
include hA hg

theorem ARep.negateY {P : D.Pt} {K : Aff N} (h : ARep P K) : ARep (-P) (K.negateY A) := by
  obtain ⟨h1, h2, h3⟩ := h
  obtain ⟨a, b⟩ := fneg hA.f hg.two h2
  exact ⟨h1, a, by rw [Aff.negateY, b]; exact h3.neg⟩

theorem JRep.negateY {P : D.Pt} {K : Jac N} (h : JRep P K) : JRep (-P) (K.negateY A) := by
  obtain ⟨h1, h2, h3, h4⟩ := h
  obtain ⟨a, b⟩ := fneg hA.f hg.two h2
  exact ⟨h1, a, h3, by rw [Jac.negateY, b]; exact h4.neg⟩

theorem neg_zero_elt : A.f.neg 0 = 0 := by
  apply BitVec.eq_of_toNat_eq
  rw [hA.f.neg 0 (by simpa using (Fact.out : D.p.Prime).pos)]
  simp

omit hA in
theorem JRep.zero {J : Jac N} (hx : Red D.p J.x) (hy : Red D.p J.y) (hz : J.z = 0) : JRep (0 : D.Pt) J :=
  ⟨hx, hy, hz ▸ red_zero, by rw [hz, fe_zero]; exact Rep.of_zero _ _⟩

omit hA in
theorem red_one : Red D.p (1 : Elt N) := by
  have := (Fact.out : D.p.Prime).one_lt
  rw [Red]
  by_cases h : N = 0
  · subst h; simp; omega
  · rw [show (1 : Elt N) = BitVec.ofNat _ 1 by rfl, BitVec.toNat_ofNat]
    exact (Nat.mod_le _ _).trans_lt this

omit hA in
theorem JRep.infinity : JRep (0 : D.Pt) (Jac.infinity N) := JRep.zero hg (red_one hg) (red_one hg) rfl

omit hA in
theorem ARep.ne_default {P : D.Pt} {K : Aff N} (h : ARep P K) : K ≠ Aff.default N := by
  rintro rfl
  have := h.2.2
  rw [Aff.default, fe_zero] at this
  exact IsPt.not_zero hg this

/-- The inverse of `z²` and `z³` as `as_affine` computes them. -/
theorem montInv {z : Elt N} (hz : Red D.p z) :
    Red D.p (A.f.tomont (A.f.inv (A.f.demont z))) ∧ fe D.p (A.f.tomont (A.f.inv (A.f.demont z))) = (fe D.p z)⁻¹ := by
  obtain ⟨a1, a2⟩ := fdemont hA.f hg.two hz
  obtain ⟨b1, b2⟩ := finv hA.f (A.f.demont z)
  obtain ⟨c1, c2⟩ := ftomont hA.f hg.two (A.f.inv (A.f.demont z))
  exact ⟨c1, by rw [c2, b2, a2]⟩

theorem asAffine_fe {J : Jac N} (hx : Red D.p J.x) (hy : Red D.p J.y) (hz : Red D.p J.z) :
    Red D.p (J.asAffine A).x ∧ Red D.p (J.asAffine A).y ∧
      fe D.p (J.asAffine A).x = fe D.p J.x * (fe D.p J.z ^ 2)⁻¹ ∧
      fe D.p (J.asAffine A).y = fe D.p J.y * (fe D.p J.z ^ 3)⁻¹ := by
  obtain ⟨a1, a2⟩ := msq hA.f hg.two hz
  obtain ⟨b1, b2⟩ := mml hA.f hg.two (y := A.f.montsqr J.z) hz
  obtain ⟨c1, c2⟩ := montInv hA hg a1
  obtain ⟨d1, d2⟩ := montInv hA hg b1
  obtain ⟨e1, e2⟩ := mml hA.f hg.two (y := A.f.tomont (A.f.inv (A.f.demont (A.f.montsqr J.z)))) hx
  obtain ⟨f1, f2⟩ := mml hA.f hg.two (y := A.f.tomont (A.f.inv (A.f.demont (A.f.montmul J.z (A.f.montsqr J.z))))) hy
  refine ⟨e1, f1, ?_, ?_⟩
  · rw [Jac.asAffine, e2, c2, a2]
  · rw [Jac.asAffine, f2, d2, b2, a2]
    congr 2
    ring

theorem asAffine_zero {J : Jac N} (h : JRep (0 : D.Pt) J) : J.asAffine A = ⟨0, 0⟩ := by
  obtain ⟨h1, h2, h3, h4⟩ := h
  obtain ⟨a, b, c, d⟩ := asAffine_fe hA hg h1 h2 h3
  have hz : fe D.p J.z = 0 := h4.zero_iff.2 rfl
  rw [hz] at c d
  have hx : (J.asAffine A).x = 0 := (fe_eq_zero hg.two a).1 (by rw [c]; simp)
  have hy : (J.asAffine A).y = 0 := (fe_eq_zero hg.two b).1 (by rw [d]; simp)
  generalize J.asAffine A = K at *
  cases K
  simp_all

theorem asAffine_rep {P : D.Pt} {J : Jac N} (h : JRep P J) (hP : P ≠ 0) : ARep P (J.asAffine A) := by
  obtain ⟨h1, h2, h3, h4⟩ := h
  obtain ⟨a, b, c, d⟩ := asAffine_fe hA hg h1 h2 h3
  refine ⟨a, b, ?_⟩
  rcases h4 with ⟨_, rfl⟩ | ⟨hz, x, y, hp, ex, ey⟩
  · exact absurd rfl hP
  · rw [c, d, ex, ey, mul_inv_cancel_right₀ (pow_ne_zero _ hz), mul_inv_cancel_right₀ (pow_ne_zero _ hz)]
    exact hp

/-- `public_eq`, the second point being finite. -/
theorem publicEq_iff {P Q : D.Pt} {J K : Jac N} (hP : JRep P J) (hQ : JRep Q K) (h : Q ≠ 0) :
    J.publicEq A K = true ↔ P = Q := by
  obtain ⟨x2, y2, z2, r2⟩ := hQ
  obtain ⟨⟩ | ⟨hz, x, y, hp, ex, ey⟩ := r2
  · rename_i h0; exact absurd h0.2 h
  obtain ⟨a, b, -, -⟩ := asAffine_fe hA hg hP.1 hP.2.1 hP.2.2.1
  obtain ⟨a1, a2⟩ := msq hA.f hg.two z2
  obtain ⟨b1, b2⟩ := mml hA.f hg.two (y := A.f.montsqr K.z) z2
  obtain ⟨c1, c2⟩ := mml hA.f hg.two (y := A.f.montsqr K.z) a
  obtain ⟨d1, d2⟩ := mml hA.f hg.two (y := A.f.montmul K.z (A.f.montsqr K.z)) b
  have key : J.publicEq A K = true ↔ fe D.p (J.asAffine A).x = x ∧ fe D.p (J.asAffine A).y = y := by
    rw [Jac.publicEq, decide_eq_true_eq]
    constructor
    · rintro ⟨e1, e2⟩
      rw [e1, a2, ex] at c2
      rw [e2, b2, a2, ey] at d2
      constructor
      · exact (mul_right_cancel₀ (pow_ne_zero 2 hz) c2).symm
      · apply (mul_right_cancel₀ (pow_ne_zero 3 hz) (?_ : _ = _)).symm
        rw [d2]; ring
    · rintro ⟨e1, e2⟩
      constructor
      · exact fe_inj hg.two c1 x2 (by rw [c2, a2, ex, e1])
      · exact fe_inj hg.two d1 y2 (by rw [d2, b2, a2, ey, e2]; ring)
  rw [key]
  by_cases h0 : P = 0
  · subst h0
    rw [asAffine_zero hA hg hP, fe_zero]
    refine ⟨?_, fun e => absurd e.symm h⟩
    rintro ⟨rfl, rfl⟩
    exact absurd hp (IsPt.not_zero hg)
  · have hrep := (asAffine_rep hA hg hP h0).2.2
    constructor
    · rintro ⟨e1, e2⟩
      rw [e1, e2] at hrep
      exact hrep.ext hp
    · rintro rfl
      exact hrep.inj hp

end

/-! ### The constants of a curve -/

/-- The constants are those of the curve `D`. -/
structure ConstOk (D : Params) [Fact D.p.Prime] (C : Curve N) : Prop where
  a_red : Red D.p C.aMont
  a : fe D.p C.aMont = -3
  b_red : Red D.p C.bMont
  b : fe D.p C.bMont = D.b
  one_red : Red D.p C.oneMont
  one : fe D.p C.oneMont = 1
  ord : OrderOk C D.n
  p_lt : D.p < 2 ^ (64 * N)

section

variable {A : Asm N} (hA : A.Ok D.p D.n) (hg : Good D) {C : Curve N} (hC : ConstOk D C)
include hA hg hC

theorem onCurve_iff {K : Aff N} (hx : Red D.p K.x) (hy : Red D.p K.y) :
    K.onCurve C A = true ↔ fe D.p K.y ^ 2 = fe D.p K.x ^ 3 - 3 * fe D.p K.x + D.b := by
  rw [Aff.onCurve, decide_eq_true_eq]
  obtain ⟨a1, a2⟩ := msq hA.f hg.two hx
  obtain ⟨b1, b2⟩ := fadd hA.f hg.two a1 hC.a_red
  obtain ⟨c1, c2⟩ := mml hA.f hg.two (y := K.x) b1
  obtain ⟨d1, d2⟩ := fadd hA.f hg.two c1 hC.b_red
  obtain ⟨e1, e2⟩ := msq hA.f hg.two hy
  have hr : fe D.p (A.f.add (A.f.montmul (A.f.add (A.f.montsqr K.x) C.aMont) K.x) C.bMont) =
      fe D.p K.x ^ 3 - 3 * fe D.p K.x + D.b := by
    rw [d2, c2, b2, a2, hC.a, hC.b]; ring
  constructor
  · intro h
    rw [← e2, h, hr]
  · intro h
    exact fe_inj hg.two e1 d1 (by rw [e2, h, hr])

theorem onCurve_of_rep {P : D.Pt} {K : Aff N} (h : ARep P K) : K.onCurve C A = true :=
  (onCurve_iff hA hg hC h.1 h.2.1).2 h.2.2.eqn

theorem onCurve_exists {K : Aff N} (hx : Red D.p K.x) (hy : Red D.p K.y) (h : K.onCurve C A = true) :
    ∃ P : D.Pt, ARep P K := by
  obtain ⟨P, hp⟩ := exists_of_eqn hg.two hg.three hg.b_sq ((onCurve_iff hA hg hC hx hy).1 h)
  exact ⟨P, hx, hy, hp⟩

theorem onCurve_zero : (⟨0, 0⟩ : Aff N).onCurve C A = false := by
  rw [Bool.eq_false_iff, Ne, onCurve_iff hA hg hC red_zero red_zero]
  dsimp only
  rw [fe_zero]
  intro h
  apply b_ne hg
  linear_combination -h

omit hA in
theorem JRep.fromAffine {P : D.Pt} {K : Aff N} (h : ARep P K) : JRep P (Jac.fromAffine C K) :=
  ⟨h.1, h.2.1, hC.one_red, by rw [Jac.fromAffine, hC.one]; exact Rep.of_affine h.2.2⟩

theorem double_rep {P : D.Pt} {J : Jac N} (h : JRep P J) : JRep (P + P) (J.double A) :=
  montjdouble_rep hA.f hg.two h

theorem doubleN_rep {P : D.Pt} {J : Jac N} (h : JRep P J) (m : Nat) : JRep ((2 ^ m) • P) (J.doubleN A m) := by
  induction m generalizing P J with
  | zero => simpa [Jac.doubleN] using h
  | succ m ih =>
    rw [Jac.doubleN, show (2 ^ (m + 1)) • P = (2 ^ m) • (P + P) by rw [← two_nsmul, smul_smul, pow_succ]]
    exact ih (double_rep hA hg hC h)

theorem add_rep {P Q : D.Pt} {J K : Jac N} (hP : JRep P J) (hQ : JRep Q K) (hne : P ≠ Q ∨ P = 0) :
    JRep (P + Q) (J.add A K) := montjadd_rep hA.f hg.two hP hQ hne

/-- A pair which is either a finite point or the `(0, 0)` of the default value. -/
def OptRep (P : D.Pt) (K : Aff N) : Prop := (P = 0 ∧ K = ⟨0, 0⟩) ∨ ARep P K

theorem addAffine_rep {P Q : D.Pt} {J : Jac N} {K : Aff N} (hP : JRep P J) (hQ : OptRep Q K) (hne : P ≠ Q ∨ Q = 0) :
    JRep (P + Q) (J.addAffine C A K) := by
  rw [Jac.addAffine]
  rcases hQ with ⟨rfl, rfl⟩ | hQ
  · rw [if_pos (by simp [Aff.isInfinity, Aff.default]), add_zero]
    exact hP
  · rw [if_neg (by simpa [Aff.isInfinity] using hQ.ne_default hg)]
    exact montjmixadd_rep hA.f hg.two hC.one_red hC.one hP hQ (hne.resolve_right hQ.2.2.ne_zero)

/-- The value of a coordinate as the bytes give it. -/
theorem demont_val {v : Elt N} (hv : Red D.p v) : (A.f.demont v).toNat = (fe D.p v).val := by
  obtain ⟨a, b⟩ := fdemont hA.f hg.two hv
  rw [← b, ZMod.val_natCast, Nat.mod_eq_of_lt a]

theorem asBytesUncompressed_eq {K : Aff N} (hx : Red D.p K.x) (hy : Red D.p K.y) :
    K.asBytesUncompressed A =
      0x04#8 :: (toBE (N * 8) (fe D.p K.x).val ++ toBE (N * 8) (fe D.p K.y).val) := by
  rw [Aff.asBytesUncompressed, toBigEndian_eq, toBigEndian_eq, demont_val hA hg hC hx, demont_val hA hg hC hy]
  rfl

theorem fromBytesReduced_val (x : ZMod D.p) :
    Scalar.fromBytesReduced A (toBE (N * 8) x.val) = .ok (BitVec.ofNat (64 * N) (x.val % D.n)) := by
  have hx : x.val < 2 ^ (64 * N) := (ZMod.val_lt x).trans hC.p_lt
  have e : beNat (toBE (N * 8) x.val) = x.val := by rw [beNat_toBE, pow8, Nat.mod_eq_of_lt hx]
  rw [fromBytesReduced_eq hA _ (by rw [e]; exact hx), e]

theorem aff_xScalar {P : D.Pt} {K : Aff N} (h : ARep P K) {x y : ZMod D.p} (hp : IsPt P x y) :
    K.xScalar A = .ok (BitVec.ofNat (64 * N) (x.val % D.n)) := by
  rw [Aff.xScalar, asBytesUncompressed_eq hA hg hC h.1 h.2.1]
  obtain ⟨e1, e2⟩ := h.2.2.inj hp
  rw [e1, e2]
  have : List.extract (0x04#8 :: (toBE (N * 8) x.val ++ toBE (N * 8) y.val)) 1 (1 + N * 8) = toBE (N * 8) x.val := by
    rw [List.extract_eq_drop_take]
    simp [toBE_length]
  rw [this, fromBytesReduced_val hA hg hC]

theorem jac_xScalar {P : D.Pt} {J : Jac N} (h : JRep P J) {x y : ZMod D.p} (hp : IsPt P x y) :
    J.xScalar A = .ok (BitVec.ofNat (64 * N) (x.val % D.n)) := by
  have hr := asAffine_rep hA hg h hp.ne_zero
  obtain ⟨e1, e2⟩ := hr.2.2.inj hp
  have : J.xScalar A = (match Scalar.fromBytesReduced A (toBigEndian (A.f.demont (J.asAffine A).x)) with
      | .ok s => .ok s
      | .error _ => .error .panic) := rfl
  rw [this, toBigEndian_eq, demont_val hA hg hC hr.1, e1, fromBytesReduced_val hA hg hC]

end

end Verif.Ec
