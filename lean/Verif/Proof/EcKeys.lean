import Verif.Spec.Ecdsa
import Verif.Proof.EcTables
import Verif.Proof.EcScalar

/-!
Keys of P-256 and P-384 against the specification: encodings, Diffie-Hellman, raw ECDSA.
-/
namespace Verif.Ec

open Verif.Spec.Nist Verif.EcGroup Verif.EcCard

variable {N : Nat} {D : Params} [Fact D.p.Prime] [Fact D.n.Prime]

/-! ### Coordinates -/

omit [Fact D.n.Prime] in
theorem at_of_isPt {P : D.Pt} {x y : ZMod D.p} (h : IsPt P x y) : D.At P x.val y.val := by
  refine ⟨ZMod.val_lt x, ZMod.val_lt y, ?_⟩
  obtain ⟨h, e⟩ := h
  have ex : ((x.val : Nat) : ZMod D.p) = x := by rw [ZMod.natCast_val, ZMod.cast_id]
  have ey : ((y.val : Nat) : ZMod D.p) = y := by rw [ZMod.natCast_val, ZMod.cast_id]
  unfold Params.Coords
  rw [ex, ey]
  exact ⟨h, e⟩

omit [Fact D.n.Prime] in
theorem at_iff {P : D.Pt} {x y : Nat} : D.At P x y ↔ x < D.p ∧ y < D.p ∧ IsPt P (x : ZMod D.p) (y : ZMod D.p) := Iff.rfl

omit [Fact D.n.Prime] in
theorem at_val {P : D.Pt} {x y : Nat} (h : D.At P x y) {u v : ZMod D.p} (hp : IsPt P u v) : u.val = x ∧ v.val = y := by
  obtain ⟨e1, e2⟩ := hp.inj (at_iff.1 h).2.2
  rw [e1, e2, ZMod.val_natCast, ZMod.val_natCast, Nat.mod_eq_of_lt h.1, Nat.mod_eq_of_lt h.2.1]
  exact ⟨rfl, rfl⟩

omit [Fact D.n.Prime] in
theorem at_inj {P : D.Pt} {x y x' y' : Nat} (h : D.At P x y) (h' : D.At P x' y') : x = x' ∧ y = y' := by
  obtain ⟨e1, e2⟩ := at_val h (at_iff.1 h').2.2
  rw [ZMod.val_natCast, Nat.mod_eq_of_lt h'.1] at e1
  rw [ZMod.val_natCast, Nat.mod_eq_of_lt h'.2.1] at e2
  exact ⟨e1.symm, e2.symm⟩

omit [Fact D.n.Prime] in
theorem at_exists {P : D.Pt} (h : P ≠ 0) : ∃ x y, D.At P x y := by
  obtain ⟨x, y, hp⟩ := exists_isPt h
  exact ⟨_, _, at_of_isPt hp⟩

omit [Fact D.n.Prime] in
theorem at_ne {P : D.Pt} {x y : Nat} (h : D.At P x y) : P ≠ 0 := (at_iff.1 h).2.2.ne_zero

/-- A multiple below `n` of a finite point is finite. -/
theorem nsmul_ne (hg : Good D) {P : D.Pt} (hP : P ≠ 0) {k : Nat} (h0 : k ≠ 0) (hk : k < D.n) : k • P ≠ 0 := by
  intro h
  rw [← natCast_zsmul, zsmul_zero_iff hg hP, Int.natCast_dvd_natCast] at h
  exact absurd (Nat.le_of_dvd (Nat.pos_of_ne_zero h0) h) (by omega)

/-- What a public key stands for. -/
def PubRep (Q : D.Pt) (K : PublicKey N) : Prop := ARep Q K.point ∧ TableW5 Q K.precompW5

section

variable {A : Asm N} (hA : A.Ok D.p D.n) {C : Curve N} (hC : CurveOk D C)
include hA hC

theorem aff_bytes {P : D.Pt} {K : Aff N} (h : ARep P K) {x y : Nat} (hp : D.At P x y) :
    K.asBytesUncompressed A = encodePoint (N * 8) x y := by
  obtain ⟨e1, e2⟩ := at_val hp h.2.2
  rw [asBytesUncompressed_eq hA hC.good hC.const h.1 h.2.1, e1, e2]
  rfl

theorem fromAffine_rep {P : D.Pt} {K : Aff N} (h : ARep P K) : PubRep P (PublicKey.fromAffine C A K) :=
  ⟨h, publicPrecompW5_rep hA hC.good hC.const hC.n_big h⟩

theorem mulW5 (secret : Bool) {Q : D.Pt} (hQ : Q ≠ 0) {t : List (Jac N)} (ht : TableW5 Q t) (s : Scalar N)
    (hs : s.toNat < D.n) : JRep (s.toNat • Q) (multiplyW5 C A secret s t) := by
  obtain ⟨k, h1, h2⟩ := hC.n_top
  exact multiplyW5_rep hA hC.good hC.const secret hC.n_mod hC.n_big h1 h2 hQ ht s hs

theorem publicPoint_rep {d : Scalar N} (h0 : d.toNat ≠ 0) (hd : d.toNat < D.n) :
    ∃ K, publicPoint C A d = .ok K ∧ ARep (d.toNat • D.G) K := by
  have hr := asAffine_rep hA hC.good (hC.base A hA true d hd) (nsmul_ne hC.good (G_ne hC.good) h0 hd)
  exact ⟨_, by rw [publicPoint, if_pos (onCurve_of_rep hA hC.good hC.const hr)], hr⟩

theorem publicKeyUncompressed_eq {d : Scalar N} (h0 : d.toNat ≠ 0) (hd : d.toNat < D.n) {x y : Nat}
    (hp : D.At (d.toNat • D.G) x y) : publicKeyUncompressed C A d = .ok (encodePoint (N * 8) x y) := by
  obtain ⟨K, e, hr⟩ := publicPoint_rep hA hC h0 hd
  rw [publicKeyUncompressed, e]
  exact congrArg Except.ok (aff_bytes hA hC hr hp)

theorem publicKeyXScalar_eq {d : Scalar N} (h0 : d.toNat ≠ 0) (hd : d.toNat < D.n) {x y : Nat}
    (hp : D.At (d.toNat • D.G) x y) : publicKeyXScalar C A d = .ok (BitVec.ofNat _ (x % D.n)) := by
  obtain ⟨K, e, hr⟩ := publicPoint_rep hA hC h0 hd
  rw [publicKeyXScalar, e]
  obtain ⟨e1, e2⟩ := at_val hp hr.2.2
  have := aff_xScalar hA hC.good hC.const hr hr.2.2
  rw [e1] at this
  exact this

theorem diffieHellman_eq {d : Scalar N} (h0 : d.toNat ≠ 0) (hd : d.toNat < D.n) {Q : D.Pt} {K : PublicKey N}
    (hK : PubRep Q K) {x y : Nat} (hp : D.At (d.toNat • Q) x y) : diffieHellman C A d K = .ok (toBE (N * 8) x) := by
  have hQ : Q ≠ 0 := hK.1.2.2.ne_zero
  have hr := asAffine_rep hA hC.good (mulW5 hA hC true hQ hK.2 d hd) (nsmul_ne hC.good hQ h0 hd)
  rw [diffieHellman, if_pos (onCurve_of_rep hA hC.good hC.const hr), toBigEndian_eq, demont_val hA hC.good hC.const hr.1,
    (at_val hp hr.2.2).1]

omit hA in
theorem p_pos : 0 < D.p := (Fact.out : D.p.Prime).pos

/-- The curve equation on residues of integers. -/
theorem eqn_iff (x y : Nat) : (y : ZMod D.p) ^ 2 = (x : ZMod D.p) ^ 3 - 3 * (x : ZMod D.p) + D.b ↔ D.OnCurve x y := by
  unfold Params.OnCurve
  rw [← ZMod.natCast_eq_natCast_iff']
  push_cast
  constructor <;> intro h <;> linear_combination h

theorem fromX962_split (xb yb : Bytes) (hx : xb.length = N * 8) (hy : yb.length = N * 8) :
    (¬ D.OnCurve (beNat xb) (beNat yb) ∧
      Aff.fromX962Uncompressed C A (0x04#8 :: (xb ++ yb)) = .error (.err .NotOnCurve)) ∨
    (D.OnCurve (beNat xb) (beNat yb) ∧ ∃ K P, Aff.fromX962Uncompressed C A (0x04#8 :: (xb ++ yb)) = .ok K ∧ ARep P K ∧
      D.At P (beNat xb % D.p) (beNat yb % D.p)) := by
  have hl : (0x04#8 :: (xb ++ yb)).length = 1 + N * 8 + N * 8 := by simp [hx, hy]; omega
  have e1 : beSliceTo N ((xb ++ yb).take (N * 8)) = some (beArrayTo N xb) := by
    rw [List.take_left' hx, beSliceTo, if_pos hx]
  have e2 : beSliceTo N ((xb ++ yb).drop (N * 8)) = some (beArrayTo N yb) := by
    rw [List.drop_left' hx, beSliceTo, if_pos hy]
  obtain ⟨rx, fx⟩ := ftomont hA.f hC.good.two (beArrayTo N xb)
  obtain ⟨ry, fy⟩ := ftomont hA.f hC.good.two (beArrayTo N yb)
  rw [beArrayTo_toNat hx] at fx
  rw [beArrayTo_toNat hy] at fy
  have key := onCurve_iff hA hC.good hC.const (K := ⟨A.f.tomont (beArrayTo N xb), A.f.tomont (beArrayTo N yb)⟩) rx ry
  dsimp only at key
  rw [fx, fy, eqn_iff hA hC] at key
  have hdef : Aff.fromX962Uncompressed C A (0x04#8 :: (xb ++ yb)) =
      (if !(Aff.onCurve C A ⟨A.f.tomont (beArrayTo N xb), A.f.tomont (beArrayTo N yb)⟩) then
        Except.error (.err .NotOnCurve) else .ok ⟨A.f.tomont (beArrayTo N xb), A.f.tomont (beArrayTo N yb)⟩) := by
    unfold Aff.fromX962Uncompressed
    dsimp only
    rw [if_neg (by simp), if_neg (by rw [hl]; simp), e1, e2]
  by_cases h : D.OnCurve (beNat xb) (beNat yb)
  · obtain ⟨P, hp⟩ := onCurve_exists hA hC.good hC.const (K := ⟨A.f.tomont (beArrayTo N xb), A.f.tomont (beArrayTo N yb)⟩)
      rx ry (key.2 h)
    refine .inr ⟨h, _, P, ?_, hp, ?_⟩
    · rw [hdef, key.2 h]; rfl
    · have := at_of_isPt hp.2.2
      dsimp only at this
      rw [fx, fy, ZMod.val_natCast, ZMod.val_natCast] at this
      exact this
  · refine .inl ⟨h, ?_⟩
    rw [hdef, Bool.eq_false_iff.2 (mt key.1 h)]; rfl

/-! ### Raw ECDSA -/

omit hA in
/-- The inverse of a scalar as an integer. -/
theorem exists_inv {s : Nat} (h0 : s ≠ 0) (hs : s < D.n) : ∃ w, s * w % D.n = 1 ∧ (w : ZMod D.n) = (s : ZMod D.n)⁻¹ := by
  have hz : (s : ZMod D.n) ≠ 0 := by
    rw [Ne, ZMod.natCast_eq_zero_iff]
    exact Nat.not_dvd_of_pos_of_lt (Nat.pos_of_ne_zero h0) hs
  refine ⟨((s : ZMod D.n)⁻¹).val, ?_, by rw [ZMod.natCast_val, ZMod.cast_id]⟩
  have h1 : (1 : Nat) % D.n = 1 := Nat.mod_eq_of_lt (Fact.out : D.n.Prime).one_lt
  have : ((s * ((s : ZMod D.n)⁻¹).val : Nat) : ZMod D.n) = (1 : Nat) := by
    push_cast
    rw [ZMod.natCast_val, ZMod.cast_id, mul_inv_cancel₀ hz]
  rw [(ZMod.natCast_eq_natCast_iff' _ _ _).1 this, h1]

omit hA hC in
theorem inv_unique {s w : Nat} (h : s * w % D.n = 1) : (w : ZMod D.n) = (s : ZMod D.n)⁻¹ := by
  have h1 : (1 : Nat) % D.n = 1 := Nat.mod_eq_of_lt (Fact.out : D.n.Prime).one_lt
  have : ((s * w : Nat) : ZMod D.n) = (1 : Nat) := (ZMod.natCast_eq_natCast_iff' _ _ _).2 (by rw [h, h1])
  push_cast at this
  exact eq_inv_of_mul_eq_one_right this

omit hA hC in
theorem mod_of_cast {a b : Nat} (hb : b < D.n) (h : (a : ZMod D.n) = b) : a % D.n = b := by
  rw [(ZMod.natCast_eq_natCast_iff' _ _ _).1 h, Nat.mod_eq_of_lt hb]

theorem rawEcdsaVerify_eq {Q : D.Pt} {K : PublicKey N} (hK : PubRep Q K) {r s e : Scalar N} (hr0 : r.toNat ≠ 0)
    (hr : r.toNat < D.n) (hs0 : s.toNat ≠ 0) (hs : s.toNat < D.n) (he : e.toNat < D.n) :
    (D.Verifies Q e.toNat r.toNat s.toNat ∧ K.rawEcdsaVerify C A r s e = .ok ()) ∨
    (¬ D.Verifies Q e.toNat r.toNat s.toNat ∧ K.rawEcdsaVerify C A r s e = .error (.err .BadSignature)) := by
  have hQ : Q ≠ 0 := hK.1.2.2.ne_zero
  have hO := hC.const.ord
  obtain ⟨a1, a2⟩ := verify_u hA hO hs hs0 he
  obtain ⟨b1, b2⟩ := verify_u hA hO hs hs0 hr
  unfold PublicKey.rawEcdsaVerify
  dsimp only
  generalize (((s.inv C A).asMont C A).montMul C A (e.asMont C A)).demont C A = u1 at *
  generalize (((s.inv C A).asMont C A).montMul C A (r.asMont C A)).demont C A = u2 at *
  have hsz : (s.toNat : ZMod D.n) ≠ 0 := by
    rw [Ne, ZMod.natCast_eq_zero_iff]
    exact Nat.not_dvd_of_pos_of_lt (Nat.pos_of_ne_zero hs0) hs
  have hrz : (r.toNat : ZMod D.n) ≠ 0 := by
    rw [Ne, ZMod.natCast_eq_zero_iff]
    exact Nat.not_dvd_of_pos_of_lt (Nat.pos_of_ne_zero hr0) hr
  have hu2 : u2.toNat ≠ 0 := by
    intro h
    rw [h] at b2
    exact mul_ne_zero hrz (inv_ne_zero hsz) (by rw [← b2]; simp)
  have hl := hC.base A hA false u1 a1
  have hr' := mulW5 hA hC false hQ hK.2 u2 b1
  have hne := nsmul_ne hC.good hQ hu2 b1
  have hpt : JRep (u1.toNat • D.G + u2.toNat • Q)
      (if (baseMultiply C A false u1).publicEq A (multiplyW5 C A false u2 K.precompW5) then
        (baseMultiply C A false u1).double A else (baseMultiply C A false u1).add A (multiplyW5 C A false u2 K.precompW5)) := by
    by_cases h : (baseMultiply C A false u1).publicEq A (multiplyW5 C A false u2 K.precompW5) = true
    · rw [if_pos h, ← (publicEq_iff hA hC.good hl hr' hne).1 h]
      exact double_rep hA hC.good hC.const hl
    · rw [if_neg h]
      exact add_rep hA hC.good hC.const hl hr' (.inl (mt (publicEq_iff hA hC.good hl hr' hne).2 h))
  generalize (if (baseMultiply C A false u1).publicEq A (multiplyW5 C A false u2 K.precompW5) then
        (baseMultiply C A false u1).double A
        else (baseMultiply C A false u1).add A (multiplyW5 C A false u2 K.precompW5)) = pt at *
  have hver : D.Verifies Q e.toNat r.toNat s.toNat ↔
      ∃ x y, D.At (u1.toNat • D.G + u2.toNat • Q) x y ∧ x % D.n = r.toNat := by
    constructor
    · rintro ⟨-, -, -, -, w, x, y, hw, hat, hx⟩
      have hwz := inv_unique hw
      rw [mod_of_cast (b := u1.toNat) a1 (by push_cast; rw [hwz, a2]),
        mod_of_cast (b := u2.toNat) b1 (by push_cast; rw [hwz, b2])] at hat
      exact ⟨x, y, hat, hx⟩
    · rintro ⟨x, y, hat, hx⟩
      obtain ⟨w, hw, hwz⟩ := exists_inv hC hs0 hs
      refine ⟨by omega, hr, by omega, hs, w, x, y, hw, ?_, hx⟩
      rw [mod_of_cast (b := u1.toNat) a1 (by push_cast; rw [hwz, a2]),
        mod_of_cast (b := u2.toNat) b1 (by push_cast; rw [hwz, b2])]
      exact hat
  have hz : pt.z = 0 ↔ u1.toNat • D.G + u2.toNat • Q = 0 := by
    rw [← fe_eq_zero hC.good.two hpt.2.2.1]; exact hpt.2.2.2.zero_iff
  by_cases h0 : pt.z = 0
  · refine .inr ⟨?_, by rw [if_pos (by simp [Jac.publicIsInfinity, h0])]⟩
    rw [hver]
    rintro ⟨x, y, hat, -⟩
    exact at_ne hat (hz.1 h0)
  · rw [if_neg (by rw [Jac.publicIsInfinity, decide_eq_true_eq]; exact h0)]
    obtain ⟨x, y, hp⟩ := exists_isPt (mt hz.2 h0)
    rw [jac_xScalar hA hC.good hC.const hpt hp]
    have hat := at_of_isPt hp
    have hlt : x.val % D.n < 2 ^ (64 * N) := (Nat.mod_lt _ (Fact.out : D.n.Prime).pos).trans hO.lt
    have hv : BitVec.ofNat (64 * N) (x.val % D.n) = r ↔ x.val % D.n = r.toNat := by
      rw [← BitVec.toNat_inj, BitVec.toNat_ofNat, Nat.mod_eq_of_lt hlt]
    by_cases hx : x.val % D.n = r.toNat
    · exact .inl ⟨hver.2 ⟨_, _, hat, hx⟩, if_pos (hv.2 hx)⟩
    · refine .inr ⟨?_, if_neg (mt hv.1 hx)⟩
      rw [hver]
      rintro ⟨x', y', hat', hx'⟩
      rw [(at_inj hat hat').1] at hx
      exact hx hx'

theorem rawEcdsaSign_signs {d k e r : Scalar N} (hd : d.toNat < D.n) (hk0 : k.toNat ≠ 0) (hk : k.toNat < D.n)
    (he : e.toNat < D.n) {x y : Nat} (hat : D.At (k.toNat • D.G) x y) (hr : r.toNat = x % D.n) :
    D.Signs d.toNat e.toNat k.toNat r.toNat (rawEcdsaSign C A d k e r).toNat := by
  have hrn : r.toNat < D.n := hr ▸ Nat.mod_lt _ (Fact.out : D.n.Prime).pos
  obtain ⟨h1, h2⟩ := rawEcdsaSign_eq hA hC.const.ord hd hk hk0 he hrn
  refine ⟨⟨x, y, hat, hr⟩, h1, ?_⟩
  apply (ZMod.natCast_eq_natCast_iff' _ _ _).1
  have hkz : (k.toNat : ZMod D.n) ≠ 0 := by
    rw [Ne, ZMod.natCast_eq_zero_iff]
    exact Nat.not_dvd_of_pos_of_lt (Nat.pos_of_ne_zero hk0) hk
  push_cast
  rw [h2, mul_comm, mul_assoc, inv_mul_cancel₀ hkz]
  ring

omit hA in
/-- The algebra of ECDSA: what signing gives, verification accepts. -/
theorem signs_verifies {d e k r s : Nat} (h : D.Signs d e k r s) (hr : r ≠ 0) (hs : s ≠ 0) :
    D.Verifies (d • D.G) e r s := by
  obtain ⟨⟨x, y, hat, rfl⟩, hsn, hk⟩ := h
  obtain ⟨w, hw, hwz⟩ := exists_inv hC hs hsn
  refine ⟨by omega, Nat.mod_lt _ (Fact.out : D.n.Prime).pos, by omega, hsn, w, x, y, hw, ?_, rfl⟩
  have hsz : (s : ZMod D.n) ≠ 0 := by
    rw [Ne, ZMod.natCast_eq_zero_iff]
    exact Nat.not_dvd_of_pos_of_lt (Nat.pos_of_ne_zero hs) hsn
  have hk' := (ZMod.natCast_eq_natCast_iff' _ _ _).2 hk
  push_cast at hk'
  have key : (e * w + x % D.n * w * d) % D.n = k % D.n := by
    apply (ZMod.natCast_eq_natCast_iff' _ _ _).1
    push_cast
    rw [hwz]
    field_simp
    linear_combination -hk'
  rw [nsmul_mod hC.good, nsmul_mod hC.good, ← mul_nsmul', ← add_nsmul, ← nsmul_mod hC.good, key,
    nsmul_mod hC.good]
  exact hat

end

end Verif.Ec
