import Verif.Proof.EcKeys
import Verif.Proof.EcRef
import Verif.Proof.Booth

/-!
C31, C32, C33, C35, C36 and C58: scalars, Booth recoding, scalar multiplication, public keys, key generation and
Diffie-Hellman on P-256 and P-384.
-/
namespace Verif.Props

open Verif.Ec Verif.Spec.Nist Verif.EcCard

/-- The two supported curves: their parameters in the standard, and the constants of their source file. -/
inductive Nist : {N : Nat} → Params → Curve N → Prop
  | p256 : Nist p256 curveP256
  | p384 : Nist p384 curveP384

variable {N : Nat} {D : Params} [Fact D.p.Prime] [Fact D.n.Prime] {C : Curve N}

theorem Nist.ok (h : Nist D C) : CurveOk D C := by
  cases h
  · exact curveOk_p256
  · exact curveOk_p384

/-- The contracts of the assembly can be met, for both curves. -/
theorem refP256 : (refAsm 4 p256.p p256.n).Ok p256.p p256.n :=
  refAsm_ok good_p256.two (by decide) (by decide) (by decide)
theorem refP384 : (refAsm 6 p384.p p384.n).Ok p384.p p384.n :=
  refAsm_ok good_p384.two (by decide) (by decide) (by decide)

variable {A : Ec.Asm N}

/-! ### C31: private scalars -/

/-- Loading a private key, exactly: it works if and only if the bytes, whatever their number, denote one of `1 … n-1`; the key
is that number, and exporting it gives its fixed-width encoding.  Everything else is an error and not a panic. -/
theorem C31_import (h : Nist D C) (hA : A.Ok D.p D.n) (bytes : Bytes) :
    (1 ≤ beNat bytes ∧ beNat bytes < D.n →
      ∃ d, privateFromBytes A bytes = .ok d ∧ d.toNat = beNat bytes ∧ privateAsBytes d = toBE (N * 8) (beNat bytes)) ∧
    (beNat bytes = 0 ∨ D.n ≤ beNat bytes →
      privateFromBytes A bytes = .error (.err (if beNat bytes < 2 ^ (64 * N) then .OutOfRange else .WrongLength))) := by
  have hlt := h.ok.const.ord.lt
  have hpos : 0 < D.n := (Fact.out : D.n.Prime).pos
  rw [privateFromBytes, fromBytesChecked_eq hA hpos]
  constructor
  · rintro ⟨h1, h2⟩
    have hv : beNat bytes < 2 ^ (64 * N) := h2.trans hlt
    rw [if_neg (by omega), if_neg (by omega)]
    refine ⟨_, rfl, ?_, ?_⟩
    · rw [BitVec.toNat_ofNat, Nat.mod_eq_of_lt hv]
    · rw [privateAsBytes, Scalar.asBytes, toBigEndian_eq, BitVec.toNat_ofNat, Nat.mod_eq_of_lt hv]
  · intro h
    by_cases h1 : beNat bytes < 2 ^ (64 * N)
    · rw [if_neg (by omega), if_pos h, if_pos h1]
    · rw [if_pos (by omega), if_neg h1]

/-- Exporting a key and loading it, with any number of zero bytes put in front, gives the key back. -/
theorem C31_round_trip (h : Nist D C) (hA : A.Ok D.p D.n) (d : Scalar N) (h1 : 1 ≤ d.toNat) (h2 : d.toNat < D.n) (zeros : Nat) :
    privateFromBytes A (List.replicate zeros 0#8 ++ privateAsBytes d) = .ok d := by
  have hb : beNat (List.replicate zeros 0#8 ++ privateAsBytes d) = d.toNat := by
    rw [beNat_append, privateAsBytes, Scalar.asBytes, toBigEndian_eq, beNat_toBE, pow8, Nat.mod_eq_of_lt d.isLt]
    have : ∀ m, beNat (List.replicate m 0#8) = 0 := by
      intro m
      induction m with
      | zero => rfl
      | succ m ih => rw [List.replicate_succ', beNat_append, ih]; rfl
    rw [this]; simp
  obtain ⟨d', e, e', -⟩ := (C31_import h hA _).1 (by rw [hb]; exact ⟨h1, h2⟩)
  rw [e, BitVec.eq_of_toNat_eq (e'.trans hb)]

example : ∃ d, privateFromBytes (refAsm 4 p256.p p256.n) ([0#8, 0#8] ++ toBE 32 (p256.n - 1)) = .ok d ∧ d.toNat = p256.n - 1 := by
  have e : beNat ([0#8, 0#8] ++ toBE 32 (p256.n - 1)) = p256.n - 1 := by decide +kernel
  obtain ⟨d, h1, h2, -⟩ := (C31_import .p256 refP256 ([0#8, 0#8] ++ toBE 32 (p256.n - 1))).1 (by rw [e]; decide)
  exact ⟨d, h1, h2.trans e⟩

example : privateFromBytes (refAsm 6 p384.p p384.n) (toBE 48 p384.n) = .error (.err .OutOfRange) := by
  have e : beNat (toBE 48 p384.n) = p384.n := by decide +kernel
  rw [(C31_import .p384 refP384 _).2 (by rw [e]; exact .inr le_rfl), e, if_pos (by decide)]

/-! ### C32: Booth recoding -/

/-- A digit and its sign. -/
def signed (digit sign : BitVec 8) : Int := if sign = 1 then -(digit.toNat : Int) else digit.toNat

/-- The number with these digits, the least significant first. -/
def lowFirst (base : Int) : List Int → Int
  | [] => 0
  | d :: ds => d + base * lowFirst base ds

/-- The number with these digits, the most significant first. -/
def highFirst (base : Int) : List Int → Int := List.foldl (fun acc d => acc * base + d) 0

theorem signed_w7 (v : Nat) (hv : v < 256) :
    signed (recodeW7 (BitVec.ofNat 8 v)).1 (recodeW7 (BitVec.ofNat 8 v)).2 = sd 7 v := by
  revert v; decide +kernel

theorem signed_w5 (v : Nat) (hv : v < 64) :
    signed (recodeW5 (BitVec.ofNat 8 v)).1 (recodeW5 (BitVec.ofNat 8 v)).2 = sd 5 v := by
  revert v; decide +kernel

theorem lowFirst_w7 (k i m : Nat) :
    lowFirst (2 ^ 7) ((List.range' i m).map fun j => sd 7 (bw 7 k j)) = bq 7 k i - 128 ^ m * bq 7 k (i + m) := by
  induction m generalizing i with
  | zero => simp [lowFirst]
  | succ m ih =>
    rw [List.range'_succ, List.map_cons, lowFirst, ih, sd_eq, show i + 1 + m = i + (m + 1) by omega, pow_succ]
    ring

/-- The 7-bit recoding of every 256-bit scalar: 37 digits, each with a magnitude of at most 64, the number of points in a row
of the table, and with the scalar as their value. -/
theorem C32_w7 (s : Scalar 4) :
    (boothRecodedW7 s).length = 37 ∧ (∀ item ∈ boothRecodedW7 s, item.1.toNat ≤ 64) ∧
      lowFirst (2 ^ 7) ((boothRecodedW7 s).map fun item => signed item.1 item.2) = s.toNat := by
  rw [boothRecodedW7_eq]
  refine ⟨by simp, ?_, ?_⟩
  · intro item hi
    obtain ⟨j, -, rfl⟩ := List.mem_map.1 hi
    obtain ⟨e, hle⟩ := recodeW7_eq _ (bw_lt 7 s.toNat j)
    rw [e, BitVec.toNat_ofNat, Nat.mod_eq_of_lt (by omega)]
    exact hle
  · rw [List.map_map]
    have : ((fun item : BitVec 8 × BitVec 8 => signed item.1 item.2) ∘ fun j => recodeW7 (BitVec.ofNat 8 (bw 7 s.toNat j))) =
        fun j => sd 7 (bw 7 s.toNat j) := by
      funext j
      exact signed_w7 _ (bw_lt 7 _ j)
    rw [this, lowFirst_w7, bq_zero, show bq 7 s.toNat (0 + 37) = 0 by
      have : s.toNat < 2 ^ 256 := s.isLt
      rw [bq]; omega]
    simp

/-- The properties of the digits of one run of the 5-bit recoder. -/
theorem digitsW5_spec (k i : Nat) :
    (digitsW5 k i).length = i + 1 ∧ (∀ item ∈ digitsW5 k i, item.1.toNat ≤ 16) ∧
      (∀ acc : Int, ((digitsW5 k i).map fun item => signed item.1 item.2.1).foldl (fun acc d => acc * 2 ^ 5 + d) acc =
        acc * 32 ^ (i + 1) + k - 32 ^ (i + 1) * bq 5 k (i + 1)) ∧
      (digitsW5 k i).map (·.2.2) = List.replicate i false ++ [true] := by
  have hd : ∀ j, (recodeW5 (BitVec.ofNat 8 (bw 5 k j))).1.toNat ≤ 16 := by
    intro j
    obtain ⟨e, hle⟩ := recodeW5_eq _ (bw_lt 5 k j)
    rw [e, BitVec.toNat_ofNat, Nat.mod_eq_of_lt (by omega)]
    exact hle
  induction i with
  | zero =>
    refine ⟨rfl, ?_, ?_, rfl⟩
    · intro item hi
      rw [digitsW5, List.mem_singleton] at hi
      subst hi
      exact hd 0
    · intro acc
      simp only [digitsW5, List.map_cons, List.map_nil, List.foldl_cons, List.foldl_nil]
      rw [signed_w5 _ (bw_lt 5 k 0), sd_eq, bq_zero]
      ring
  | succ i ih =>
    obtain ⟨i1, i2, i3, i4⟩ := ih
    refine ⟨by rw [digitsW5, List.length_cons, i1], ?_, ?_, ?_⟩
    · intro item hi
      rw [digitsW5, List.mem_cons] at hi
      rcases hi with rfl | hi
      · exact hd _
      · exact i2 item hi
    · intro acc
      rw [digitsW5, List.map_cons, List.foldl_cons, i3]
      dsimp only
      rw [signed_w5 _ (bw_lt 5 k (i + 1)), sd_eq, pow_succ (32 : Int) (i + 1)]
      ring
    · rw [digitsW5, List.map_cons, i4]; rfl

/-- The 5-bit recoding of every scalar of either curve: each digit has a magnitude of at most 16, the number of points in the
table, the scalar is the value of the digits, the first one, whose sign the caller ignores, is not negative, and exactly the
last one is marked as last. -/
theorem C32_w5 (h : Nist D C) (s : Scalar N) :
    (∀ item ∈ reversedBoothRecodedW5 C s, item.1.toNat ≤ 16) ∧
      highFirst (2 ^ 5) ((reversedBoothRecodedW5 C s).map fun item => signed item.1 item.2.1) = s.toNat ∧
      ((reversedBoothRecodedW5 C s).head?.map (·.2.1)) = some 0 ∧
      ∃ m, (reversedBoothRecodedW5 C s).map (·.2.2) = List.replicate m false ++ [true] := by
  suffices main : ∃ t, C.w5Start = 5 * (t + 1) ∧ 2 * s.toNat / 2 ^ (5 * (t + 1)) < 32 ∧ bq 5 s.toNat (t + 2) = 0 by
    obtain ⟨t, h0, hw, hbq⟩ := main
    rw [reversedBoothRecodedW5_eq C s _ h0]
    obtain ⟨-, h2, h3, h4⟩ := digitsW5_spec s.toNat (t + 1)
    refine ⟨h2, ?_, ?_, _, h4⟩
    · rw [highFirst, h3, hbq]; simp
    · rw [digitsW5, List.head?_cons, Option.map_some]
      have : bw 5 s.toNat (t + 1) < 32 := by rw [bw, Nat.mod_eq_of_lt (by omega)]; exact hw
      generalize bw 5 s.toNat (t + 1) = v at *
      congr 1
      revert v
      decide +kernel
  cases h
  · have : s.toNat < 2 ^ 256 := s.isLt
    exact ⟨50, rfl, by omega, by rw [bq]; omega⟩
  · have : s.toNat < 2 ^ 384 := s.isLt
    exact ⟨75, rfl, by omega, by rw [bq]; omega⟩

/-! ### C33: scalar multiplication -/

/-- Multiplication of the base point, with the precomputed tables of the source, in both timing variants: the result is exactly
`s • G`, for every scalar below `n`. -/
theorem C33_base_multiply (h : Nist D C) (hA : A.Ok D.p D.n) (secret : Bool) (s : Scalar N) (hs : s.toNat < D.n) :
    (∀ x y, D.At (s.toNat • D.G) x y →
      ((baseMultiply C A secret s).asAffine A).asBytesUncompressed A = encodePoint (N * 8) x y) ∧
    ((baseMultiply C A secret s).publicIsInfinity = true ↔ s.toNat • D.G = 0) := by
  have hr := h.ok.base A hA secret s hs
  constructor
  · intro x y hp
    exact aff_bytes hA h.ok (asAffine_rep hA h.ok.good hr (at_ne hp)) hp
  · rw [Jac.publicIsInfinity, decide_eq_true_eq, ← fe_eq_zero h.ok.good.two hr.2.2.1]
    exact hr.2.2.2.zero_iff

/-- The public key `K` was made from the encoding of the point `Q`. -/
def IsPublicKey (C : Curve N) (A : Ec.Asm N) (Q : D.Pt) (K : PublicKey N) : Prop :=
  ∃ x y, D.At Q x y ∧ PublicKey.fromX962Uncompressed C A (encodePoint (N * 8) x y) = .ok K

theorem beNat_coord (h : Nist D C) {x : Nat} (hx : x < D.p) : beNat (toBE (N * 8) x) = x := by
  rw [beNat_toBE, pow8, Nat.mod_eq_of_lt (hx.trans h.ok.const.p_lt)]

theorem pub_bind {b : Bytes} {K : PublicKey N} :
    PublicKey.fromX962Uncompressed C A b = .ok K ↔
      ∃ P, Aff.fromX962Uncompressed C A b = .ok P ∧ K = PublicKey.fromAffine C A P := by
  unfold PublicKey.fromX962Uncompressed
  cases Aff.fromX962Uncompressed C A b with
  | error e => simp [bind, Except.bind]
  | ok P => simp [bind, Except.bind, eq_comm]

theorem IsPublicKey.rep (h : Nist D C) (hA : A.Ok D.p D.n) {Q : D.Pt} {K : PublicKey N} (hK : IsPublicKey C A Q K) :
    PubRep Q K := by
  obtain ⟨x, y, hat, e⟩ := hK
  obtain ⟨P, e', rfl⟩ := pub_bind.1 e
  rcases fromX962_split hA h.ok (toBE (N * 8) x) (toBE (N * 8) y) (by simp) (by simp) with ⟨-, e2⟩ | ⟨-, K', P', e2, hr, hat'⟩
  · rw [encodePoint, e2] at e'; cases e'
  · rw [encodePoint, e2] at e'
    cases e'
    rw [beNat_coord h hat.1, beNat_coord h hat.2.1, Nat.mod_eq_of_lt hat.1, Nat.mod_eq_of_lt hat.2.1] at hat'
    have : P' = Q := (at_iff.1 hat').2.2.ext (at_iff.1 hat).2.2
    subst this
    exact fromAffine_rep hA h.ok hr

/-- Multiplication of any other point, with the table computed when its public key was read. -/
theorem C33_point_multiply (h : Nist D C) (hA : A.Ok D.p D.n) (secret : Bool) (Q : D.Pt) (K : PublicKey N)
    (hK : IsPublicKey C A Q K) (s : Scalar N) (hs : s.toNat < D.n) :
    (∀ x y, D.At (s.toNat • Q) x y →
      ((multiplyW5 C A secret s K.precompW5).asAffine A).asBytesUncompressed A = encodePoint (N * 8) x y) ∧
    ((multiplyW5 C A secret s K.precompW5).publicIsInfinity = true ↔ s.toNat • Q = 0) := by
  have hk := hK.rep h hA
  have hr := mulW5 hA h.ok secret hk.1.2.2.ne_zero hk.2 s hs
  constructor
  · intro x y hp
    exact aff_bytes hA h.ok (asAffine_rep hA h.ok.good hr (at_ne hp)) hp
  · rw [Jac.publicIsInfinity, decide_eq_true_eq, ← fe_eq_zero h.ok.good.two hr.2.2.1]
    exact hr.2.2.2.zero_iff

/-- The public key of the private key `d` is the encoding of `d • G`, which is a finite point; there is no panic. -/
theorem C33_public_key (h : Nist D C) (hA : A.Ok D.p D.n) (d : Scalar N) (h1 : 1 ≤ d.toNat) (h2 : d.toNat < D.n) :
    ∃ x y, D.At (d.toNat • D.G) x y ∧ publicKeyUncompressed C A d = .ok (encodePoint (N * 8) x y) := by
  obtain ⟨x, y, hp⟩ := at_exists (nsmul_ne h.ok.good (G_ne h.ok.good) (by omega) h2)
  exact ⟨x, y, hp, publicKeyUncompressed_eq hA h.ok (by omega) h2 hp⟩

/-- The base point has the coordinates of the standard. -/
theorem at_G (h : Nist D C) : D.At D.G D.gx D.gy := by
  cases h
  · exact at_iff.2 ⟨by decide, by decide, good_p256.G_pt⟩
  · exact at_iff.2 ⟨by decide, by decide, good_p384.G_pt⟩

example : publicKeyUncompressed curveP256 (refAsm 4 p256.p p256.n) 1 = .ok (encodePoint 32 p256.gx p256.gy) := by
  obtain ⟨x, y, h1, h2⟩ := C33_public_key .p256 refP256 1 (by decide) (by decide)
  rw [show BitVec.toNat (1 : Scalar 4) = 1 by rfl, one_nsmul] at h1
  obtain ⟨rfl, rfl⟩ := at_inj h1 (at_G .p256)
  exact h2

/-! ### C35: public keys -/

/-- Reading an uncompressed point, exactly: it works if and only if the bytes are `04`, two coordinates of the length of the
field, and the coordinates satisfy the curve equation modulo `p`. -/
theorem C35_accepts (h : Nist D C) (hA : A.Ok D.p D.n) (bytes : Bytes) :
    (∃ K, PublicKey.fromX962Uncompressed C A bytes = .ok K) ↔
      ∃ xb yb, bytes = 0x04#8 :: (xb ++ yb) ∧ xb.length = N * 8 ∧ yb.length = N * 8 ∧ D.OnCurve (beNat xb) (beNat yb) := by
  constructor
  · rintro ⟨K, e⟩
    obtain ⟨P, e, -⟩ := pub_bind.1 e
    cases bytes with
    | nil => cases e
    | cons first xy =>
      by_cases hf : first = 0x04#8
      · subst hf
        by_cases hl : xy.length = N * 8 + N * 8
        · have hs : xy = xy.take (N * 8) ++ xy.drop (N * 8) := (List.take_append_drop _ _).symm
          refine ⟨xy.take (N * 8), xy.drop (N * 8), by rw [← hs], by simp [hl], by simp [hl], ?_⟩
          rcases fromX962_split hA h.ok (xy.take (N * 8)) (xy.drop (N * 8)) (by simp [hl]) (by simp [hl]) with ⟨-, e2⟩ | ⟨h2, -⟩
          · rw [← hs, e] at e2; cases e2
          · exact h2
        · exfalso
          unfold Aff.fromX962Uncompressed at e
          dsimp only at e
          rw [if_neg (by simp), if_pos (by rw [List.length_cons]; omega)] at e
          cases e
      · exfalso
        unfold Aff.fromX962Uncompressed at e
        dsimp only at e
        rw [if_pos hf] at e
        cases e
  · rintro ⟨xb, yb, rfl, hx, hy, hc⟩
    rcases fromX962_split hA h.ok xb yb hx hy with ⟨h2, -⟩ | ⟨-, K, P, e, -⟩
    · exact absurd hc h2
    · exact ⟨_, pub_bind.2 ⟨K, e, rfl⟩⟩

/-- The error for each rejected input; none is a panic. -/
theorem C35_errors (h : Nist D C) (hA : A.Ok D.p D.n) (bytes : Bytes) (e : GFault)
    (he : PublicKey.fromX962Uncompressed C A bytes = .error e) :
    e = .err (if bytes = [] then .WrongLength else if bytes.head? ≠ some 0x04#8 then .NotUncompressed
      else if bytes.length ≠ 1 + 2 * (N * 8) then .WrongLength else .NotOnCurve) := by
  have he' : Aff.fromX962Uncompressed C A bytes = .error e := by
    unfold PublicKey.fromX962Uncompressed at he
    cases e' : Aff.fromX962Uncompressed C A bytes with
    | error e2 => rw [e'] at he; simpa [bind, Except.bind] using he
    | ok P => rw [e'] at he; cases he
  cases bytes with
  | nil => cases he'; rfl
  | cons first xy =>
    rw [if_neg (by simp)]
    by_cases hf : first = 0x04#8
    · subst hf
      rw [if_neg (by simp)]
      by_cases hl : xy.length = N * 8 + N * 8
      · rw [if_neg (by rw [List.length_cons]; omega)]
        have hs : xy = xy.take (N * 8) ++ xy.drop (N * 8) := (List.take_append_drop _ _).symm
        rcases fromX962_split hA h.ok (xy.take (N * 8)) (xy.drop (N * 8)) (by simp [hl]) (by simp [hl]) with
          ⟨-, e2⟩ | ⟨-, K, P, e2, -⟩
        · rw [← hs, he'] at e2; cases e2; rfl
        · rw [← hs, he'] at e2; cases e2
      · rw [if_pos (by rw [List.length_cons]; omega)]
        unfold Aff.fromX962Uncompressed at he'
        dsimp only at he'
        rw [if_neg (by simp), if_pos (by rw [List.length_cons]; omega)] at he'
        cases he'; rfl
    · rw [if_pos (by simpa using hf)]
      unfold Aff.fromX962Uncompressed at he'
      dsimp only at he'
      rw [if_pos hf] at he'
      cases he'; rfl

/-- What a public key that was read means: it is the key of the finite point with the coordinates reduced modulo `p`, and
exporting it gives the encoding of that point. -/
theorem C35_meaning (h : Nist D C) (hA : A.Ok D.p D.n) (xb yb : Bytes) (hx : xb.length = N * 8) (hy : yb.length = N * 8)
    (K : PublicKey N) (e : PublicKey.fromX962Uncompressed C A (0x04#8 :: (xb ++ yb)) = .ok K) :
    ∃ Q : D.Pt, D.At Q (beNat xb % D.p) (beNat yb % D.p) ∧ IsPublicKey C A Q K ∧
      K.asBytesUncompressed A = encodePoint (N * 8) (beNat xb % D.p) (beNat yb % D.p) := by
  obtain ⟨P, e', rfl⟩ := pub_bind.1 e
  rcases fromX962_split hA h.ok xb yb hx hy with ⟨-, e2⟩ | ⟨hc, K', Q, e2, hr, hat⟩
  · rw [e2] at e'; cases e'
  · rw [e2] at e'
    have hPK : K' = P := by injection e'
    subst hPK
    refine ⟨Q, hat, ⟨_, _, hat, ?_⟩, aff_bytes hA h.ok hr hat⟩
    rcases fromX962_split hA h.ok (toBE (N * 8) (beNat xb % D.p)) (toBE (N * 8) (beNat yb % D.p)) (by simp) (by simp) with
      ⟨hn, -⟩ | ⟨-, K2, Q2, e3, hr2, hat2⟩
    · exfalso
      apply hn
      rw [beNat_coord h hat.1, beNat_coord h hat.2.1]
      unfold Params.OnCurve at hc ⊢
      rw [← ZMod.natCast_eq_natCast_iff'] at hc ⊢
      push_cast at hc ⊢
      simpa using hc
    · rw [encodePoint, pub_bind]
      refine ⟨K2, e3, ?_⟩
      rw [beNat_coord h hat.1, beNat_coord h hat.2.1, Nat.mod_mod, Nat.mod_mod] at hat2
      obtain rfl : Q2 = Q := (at_iff.1 hat2).2.2.ext (at_iff.1 hat).2.2
      obtain ⟨e4, e5⟩ := hr.2.2.inj hr2.2.2
      have hx' : K'.x = K2.x := fe_inj h.ok.good.two hr.1 hr2.1 e4
      have hy' : K'.y = K2.y := fe_inj h.ok.good.two hr.2.1 hr2.2.1 e5
      obtain ⟨x1, y1⟩ := K'
      obtain ⟨x2, y2⟩ := K2
      simp only at hx' hy'
      rw [hx', hy']

/-- Exporting a public key that was read gives the same bytes, if the coordinates are below `p`.  For all others the property
fails, see `C35_unreduced_p256`. -/
theorem C35_round_trip_partial (h : Nist D C) (hA : A.Ok D.p D.n) (xb yb : Bytes) (hx : xb.length = N * 8)
    (hy : yb.length = N * 8) (K : PublicKey N) (e : PublicKey.fromX962Uncompressed C A (0x04#8 :: (xb ++ yb)) = .ok K)
    (h1 : beNat xb < D.p) (h2 : beNat yb < D.p) : K.asBytesUncompressed A = 0x04#8 :: (xb ++ yb) := by
  obtain ⟨Q, -, -, e2⟩ := C35_meaning h hA xb yb hx hy K e
  rw [e2, Nat.mod_eq_of_lt h1, Nat.mod_eq_of_lt h2, encodePoint, ← hx, toBE_beNat, hx, ← hy, toBE_beNat]

/-- Every exported public key can be read, and is then the key of `d • G`. -/
theorem C35_own_key (h : Nist D C) (hA : A.Ok D.p D.n) (d : Scalar N) (h1 : 1 ≤ d.toNat) (h2 : d.toNat < D.n) :
    ∃ bytes K, publicKeyUncompressed C A d = .ok bytes ∧ PublicKey.fromX962Uncompressed C A bytes = .ok K ∧
      IsPublicKey C A (d.toNat • D.G) K ∧ K.asBytesUncompressed A = bytes := by
  obtain ⟨x, y, hat, e⟩ := C33_public_key h hA d h1 h2
  have hc : D.OnCurve x y := by
    rw [← eqn_iff hA h.ok]
    exact (at_iff.1 hat).2.2.eqn
  obtain ⟨K, eK⟩ := (C35_accepts h hA (encodePoint (N * 8) x y)).2
    ⟨toBE (N * 8) x, toBE (N * 8) y, rfl, by simp, by simp, by rw [beNat_coord h hat.1, beNat_coord h hat.2.1]; exact hc⟩
  refine ⟨_, K, e, eK, ⟨x, y, hat, eK⟩, ?_⟩
  exact C35_round_trip_partial h hA _ _ (by simp) (by simp) K eK (by rw [beNat_coord h hat.1]; exact hat.1)
    (by rw [beNat_coord h hat.2.1]; exact hat.2.1)

/-- A coordinate that is not reduced is accepted: `x = p` instead of `x = 0`.  The exported bytes differ from those read. -/
theorem C35_unreduced_p256 {A : Ec.Asm 4} (hA : A.Ok p256.p p256.n) :
    ∃ bytes K, PublicKey.fromX962Uncompressed curveP256 A bytes = .ok K ∧ K.asBytesUncompressed A ≠ bytes := by
  let y := 0x66485c780e2f83d72433bd5d84a06bb6541c2af31dae871728bf856a174f93f4
  have ex : beNat (toBE 32 p256.p) = p256.p := by decide +kernel
  have ey : beNat (toBE 32 y) = y := by decide +kernel
  obtain ⟨K, e⟩ := (C35_accepts .p256 hA (0x04#8 :: (toBE 32 p256.p ++ toBE 32 y))).2
    ⟨_, _, rfl, by simp, by simp, by rw [ex, ey]; unfold Params.OnCurve; decide +kernel⟩
  refine ⟨_, K, e, ?_⟩
  obtain ⟨Q, -, -, e2⟩ := C35_meaning .p256 hA _ _ (by simp) (by simp) K e
  rw [e2, ex, ey]
  decide +kernel

/-- The same for P-384. -/
theorem C35_unreduced_p384 {A : Ec.Asm 6} (hA : A.Ok p384.p p384.n) :
    ∃ bytes K, PublicKey.fromX962Uncompressed curveP384 A bytes = .ok K ∧ K.asBytesUncompressed A ≠ bytes := by
  let y := 0xc306610fb0ae5a159cf45c06069f22a6c5eb3641c602d42dea2c4b4f75550793406d80d2b91ad54f9048bd487af1ade1
  have ex : beNat (toBE 48 p384.p) = p384.p := by decide +kernel
  have ey : beNat (toBE 48 y) = y := by decide +kernel
  obtain ⟨K, e⟩ := (C35_accepts .p384 hA (0x04#8 :: (toBE 48 p384.p ++ toBE 48 y))).2
    ⟨_, _, rfl, by simp, by simp, by rw [ex, ey]; unfold Params.OnCurve; decide +kernel⟩
  refine ⟨_, K, e, ?_⟩
  obtain ⟨Q, -, -, e2⟩ := C35_meaning .p384 hA _ _ (by simp) (by simp) K e
  rw [e2, ex, ey]
  decide +kernel

/-! ### C36: key generation -/

/-- Candidate number `j` was drawn and does not denote one of `1 … n-1`. -/
def Unsuitable (n len : Nat) (rng : RandomSource) (i j : Nat) : Prop :=
  ∃ b, rng (i + j) len = .ok b ∧ ¬ (1 ≤ beNat b ∧ beNat b < n)

theorem generateLoop_skip (h : Nist D C) (hA : A.Ok D.p D.n) (rng : RandomSource) (i j m : Nat)
    (hu : ∀ j' < j, Unsuitable D.n (N * 8) rng i j') :
    generateLoop A rng (j + m) i = generateLoop A rng m (i + j) := by
  induction j generalizing i with
  | zero => rw [Nat.zero_add, Nat.add_zero]
  | succ j ih =>
    rw [show j + 1 + m = (j + m) + 1 by omega, generateLoop]
    obtain ⟨b, e, hb⟩ := hu 0 (by omega)
    rw [Nat.add_zero] at e
    rw [e]
    dsimp only
    rw [(C31_import h hA b).2 (by omega)]
    dsimp only
    rw [ih (i + 1) ?_, show i + 1 + j = i + (j + 1) by omega]
    intro j' hj'
    obtain ⟨b, e, hb⟩ := hu (j' + 1) (by omega)
    exact ⟨b, by rw [show i + 1 + j' = i + (j' + 1) by omega]; exact e, hb⟩

/-- The first suitable one of up to 64 candidates becomes the key, and no candidate after it is drawn. -/
theorem C36_first_suitable (h : Nist D C) (hA : A.Ok D.p D.n) (rng : RandomSource) (i j : Nat) (hj : j < 64)
    (hu : ∀ j' < j, Unsuitable D.n (N * 8) rng i j') (b : Bytes) (hb : rng (i + j) (N * 8) = .ok b) (h1 : 1 ≤ beNat b)
    (h2 : beNat b < D.n) : ∃ d, Ec.generate A rng i = .ok (d, i + j + 1) ∧ d.toNat = beNat b := by
  obtain ⟨d, e1, e2, -⟩ := (C31_import h hA b).1 ⟨h1, h2⟩
  refine ⟨d, ?_, e2⟩
  rw [Ec.generate, show 64 = j + ((63 - j) + 1) by omega, generateLoop_skip h hA rng i j _ hu, generateLoop, hb]
  dsimp only
  rw [e1]

/-- A failure of the random source is passed on. -/
theorem C36_source_fails (h : Nist D C) (hA : A.Ok D.p D.n) (rng : RandomSource) (i j : Nat) (hj : j < 64)
    (hu : ∀ j' < j, Unsuitable D.n (N * 8) rng i j') (err : GError) (hb : rng (i + j) (N * 8) = .error err) :
    Ec.generate A rng i = .error (.err err) := by
  rw [Ec.generate, show 64 = j + ((63 - j) + 1) by omega, generateLoop_skip h hA rng i j _ hu, generateLoop, hb]

/-- After 64 unsuitable candidates it gives up. -/
theorem C36_gives_up (h : Nist D C) (hA : A.Ok D.p D.n) (rng : RandomSource) (i : Nat)
    (hu : ∀ j < 64, Unsuitable D.n (N * 8) rng i j) : Ec.generate A rng i = .error (.err .RngFailed) := by
  rw [Ec.generate, show 64 = 64 + 0 by omega, generateLoop_skip h hA rng i 64 0 hu, generateLoop]

omit [Fact D.p.Prime] [Fact D.n.Prime] in
/-- One of the three cases applies to every source. -/
theorem C36_cases (rng : RandomSource) (i : Nat) :
    (∀ j < 64, Unsuitable D.n (N * 8) rng i j) ∨
    ∃ j < 64, (∀ j' < j, Unsuitable D.n (N * 8) rng i j') ∧
      ((∃ err, rng (i + j) (N * 8) = .error err) ∨ ∃ b, rng (i + j) (N * 8) = .ok b ∧ 1 ≤ beNat b ∧ beNat b < D.n) := by
  have gen : ∀ m, (∀ j < m, Unsuitable D.n (N * 8) rng i j) ∨
      ∃ j < m, (∀ j' < j, Unsuitable D.n (N * 8) rng i j') ∧
        ((∃ err, rng (i + j) (N * 8) = .error err) ∨ ∃ b, rng (i + j) (N * 8) = .ok b ∧ 1 ≤ beNat b ∧ beNat b < D.n) := by
    intro m
    induction m with
    | zero => exact .inl fun j hj => absurd hj (by omega)
    | succ m ih =>
      rcases ih with hall | ⟨j, hj, h⟩
      · by_cases hm : Unsuitable D.n (N * 8) rng i m
        · refine .inl fun j hj => ?_
          rcases Nat.lt_succ_iff_lt_or_eq.1 hj with h | rfl
          · exact hall j h
          · exact hm
        · refine .inr ⟨m, by omega, hall, ?_⟩
          cases e : rng (i + m) (N * 8) with
          | error err => exact .inl ⟨err, rfl⟩
          | ok b => exact .inr ⟨b, rfl, by
              by_contra hc
              exact hm ⟨b, e, hc⟩⟩
      · exact .inr ⟨j, by omega, h⟩
  exact gen 64

/-- Whatever the source does, a generated key is in range. -/
theorem C36_in_range (h : Nist D C) (hA : A.Ok D.p D.n) (rng : RandomSource) (i i' : Nat) (d : Scalar N)
    (e : Ec.generate A rng i = .ok (d, i')) : 1 ≤ d.toNat ∧ d.toNat < D.n ∧ i < i' ∧ i' ≤ i + 64 := by
  rcases C36_cases (N := N) (D := D) rng i with hu | ⟨j, hj, hu, ⟨err, hb⟩ | ⟨b, hb, h1, h2⟩⟩
  · rw [C36_gives_up h hA rng i hu] at e; cases e
  · rw [C36_source_fails h hA rng i j hj hu err hb] at e; cases e
  · obtain ⟨d', e1, e2⟩ := C36_first_suitable h hA rng i j hj hu b hb h1 h2
    rw [e1] at e
    cases e
    omega

example : ∃ d, Ec.generate (refAsm 4 p256.p p256.n) (fun i n => .ok (List.replicate (n - 1) 0#8 ++ [if i = 7 then 5 else 0])) 0 =
    .ok (d, 8) ∧ d.toNat = 5 := by
  have e : ∀ v : BitVec 8, beNat (List.replicate (32 - 1) 0#8 ++ [v]) = v.toNat := by
    intro v
    rw [beNat_append, show beNat (List.replicate (32 - 1) 0#8) = 0 by decide +kernel]
    simp [beNat]
  obtain ⟨d, h1, h2⟩ := C36_first_suitable .p256 refP256
    (fun i n => .ok (List.replicate (n - 1) 0#8 ++ [if i = 7 then 5 else 0])) 0 7 (by decide)
    (fun j hj => ⟨_, rfl, by rw [e, if_neg (by omega)]; decide⟩) _ rfl (by rw [e]; decide) (by rw [e]; decide)
  exact ⟨d, h1, by rw [h2, e]; rfl⟩

/-! ### C58: Diffie-Hellman -/

/-- The shared secret is the x-coordinate of `d • Q`, in fixed width, for every private key and every public key that was read;
there is no error and no panic. -/
theorem C58_shared_secret (h : Nist D C) (hA : A.Ok D.p D.n) (d : Scalar N) (h1 : 1 ≤ d.toNat) (h2 : d.toNat < D.n)
    (Q : D.Pt) (K : PublicKey N) (hK : IsPublicKey C A Q K) :
    ∃ x y, D.At (d.toNat • Q) x y ∧ diffieHellman C A d K = .ok (toBE (N * 8) x) := by
  have hk := hK.rep h hA
  obtain ⟨x, y, hat⟩ := at_exists (nsmul_ne h.ok.good hk.1.2.2.ne_zero (by omega) h2)
  exact ⟨x, y, hat, diffieHellman_eq hA h.ok (by omega) h2 hk hat⟩

/-- Two parties that exchange their encoded public keys get the same secret. -/
theorem C58_agreement (h : Nist D C) (hA : A.Ok D.p D.n) (a b : Scalar N) (ha : 1 ≤ a.toNat ∧ a.toNat < D.n)
    (hb : 1 ≤ b.toNat ∧ b.toNat < D.n) :
    ∃ abytes bbytes KA KB secret, publicKeyUncompressed C A a = .ok abytes ∧ publicKeyUncompressed C A b = .ok bbytes ∧
      PublicKey.fromX962Uncompressed C A abytes = .ok KA ∧ PublicKey.fromX962Uncompressed C A bbytes = .ok KB ∧
      diffieHellman C A a KB = .ok secret ∧ diffieHellman C A b KA = .ok secret := by
  obtain ⟨ab, KA, e1, e2, e3, -⟩ := C35_own_key h hA a ha.1 ha.2
  obtain ⟨bb, KB, e4, e5, e6, -⟩ := C35_own_key h hA b hb.1 hb.2
  obtain ⟨x, y, p1, p2⟩ := C58_shared_secret h hA a ha.1 ha.2 _ KB e6
  obtain ⟨x', y', q1, q2⟩ := C58_shared_secret h hA b hb.1 hb.2 _ KA e3
  have : a.toNat • b.toNat • D.G = b.toNat • a.toNat • D.G := nsmul_left_comm _ _ _
  rw [this] at p1
  obtain ⟨rfl, -⟩ := at_inj p1 q1
  exact ⟨ab, bb, KA, KB, _, e1, e4, e2, e5, p2, q2⟩

example : ∃ abytes bbytes KA KB secret, publicKeyUncompressed curveP384 (refAsm 6 p384.p p384.n) 5 = .ok abytes ∧
    publicKeyUncompressed curveP384 (refAsm 6 p384.p p384.n) 7 = .ok bbytes ∧
    PublicKey.fromX962Uncompressed curveP384 (refAsm 6 p384.p p384.n) abytes = .ok KA ∧
    PublicKey.fromX962Uncompressed curveP384 (refAsm 6 p384.p p384.n) bbytes = .ok KB ∧
    diffieHellman curveP384 (refAsm 6 p384.p p384.n) 5 KB = .ok secret ∧
    diffieHellman curveP384 (refAsm 6 p384.p p384.n) 7 KA = .ok secret :=
  C58_agreement .p384 refP384 5 7 (by decide) (by decide)

end Verif.Props
