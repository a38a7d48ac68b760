import Verif.Proof.Ecdsa
import Verif.Proof.EcdsaDer
import Verif.Props.EcKeys

/-!
C34, C07 and the ECDSA part of C39: signing, verifying, the two signature formats and the key containers.
-/
namespace Verif.Props

open Verif.Ec Verif.Ecdsa Verif.Asn1 Verif.Spec.Nist Verif.Spec.Der Verif.EcCard

variable {N : Nat} {D : Params} [Fact D.p.Prime] [Fact D.n.Prime] {C : Ec.Curve N} {A : Ec.Asm N}
variable {F : Hmac.HashFn} {H : Bytes → Bytes} {b o l : Nat}

theorem Nist.le (h : Nist D C) : N ≤ 6 := by cases h <;> omega

/-! ### C34 -/

/-- Verification, exactly: a signature of the wrong length is reported as such; one of the right length is accepted if and only
if FIPS 186-5 accepts its two halves as `(r, s)` for the hash of the concatenated message, and is a bad signature otherwise. -/
theorem C34_verify (h : Nist D C) (hA : A.Ok D.p D.n) (hF : IsHash F H b o l) (Q : D.Pt) (K : PublicKey N)
    (hK : IsPublicKey C A Q K) (msg : List Bytes) (hm : msg.flatten.length < l) (sig : Bytes) :
    (sig.length ≠ 2 * (N * 8) → verify C A F K msg sig = .error (.err .WrongLength)) ∧
    (∀ rb sb, sig = rb ++ sb → rb.length = N * 8 → sb.length = N * 8 →
      (verify C A F K msg sig = .ok () ↔ D.Verifies Q (hashInt (N * 8) (H msg.flatten)) (beNat rb) (beNat sb)) ∧
      (verify C A F K msg sig = .ok () ∨ verify C A F K msg sig = .error (.err .BadSignature))) := by
  obtain ⟨⟨CF⟩, -, -, -⟩ := isHash_correct hF
  constructor
  · intro hl
    unfold verify
    rw [if_pos (by omega)]
  · rintro rb sb rfl h1 h2
    have := verify_eq hA h.ok CF (hK.rep h hA) msg hm (rb ++ sb) (by rw [List.length_append]; omega)
    rw [← h1, List.take_left, List.drop_left, h1] at this
    rcases this with ⟨hv, e⟩ | ⟨hv, e⟩
    · exact ⟨⟨fun _ => hv, fun _ => e⟩, .inl e⟩
    · refine ⟨⟨fun e' => ?_, fun hv' => absurd hv' hv⟩, .inr e⟩
      rw [e] at e'; cases e'

/-- In particular `r` and `s` outside `1 … n-1` are rejected. -/
theorem C34_range (h : Nist D C) (hA : A.Ok D.p D.n) (hF : IsHash F H b o l) (Q : D.Pt) (K : PublicKey N)
    (hK : IsPublicKey C A Q K) (msg : List Bytes) (hm : msg.flatten.length < l) (rb sb : Bytes) (h1 : rb.length = N * 8)
    (h2 : sb.length = N * 8) (hr : beNat rb = 0 ∨ D.n ≤ beNat rb ∨ beNat sb = 0 ∨ D.n ≤ beNat sb) :
    verify C A F K msg (rb ++ sb) = .error (.err .BadSignature) := by
  obtain ⟨e1, e2⟩ := (C34_verify h hA hF Q K hK msg hm (rb ++ sb)).2 rb sb rfl h1 h2
  refine e2.resolve_left fun e => ?_
  obtain ⟨a1, a2, a3, a4, -⟩ := e1.1 e
  omega

/-- The candidates RFC 6979 gives for the per-message secret, with the given additional data. -/
abbrev candidates (D : Params) (H : Bytes → Bytes) (b o len : Nat) (d : Nat) (msg : List Bytes) (extra : Bytes) : Nat → Nat :=
  D.candidate (Spec.Hmac.hmac H b) o len d (hashInt len (H msg.flatten)) extra

/-- Signing, exactly.  With enough room and a working source, the 16 random bytes are additional data of RFC 6979; then one of
three things happens:
the first suitable candidate `k` makes the signature `(r, s)` of FIPS 186-5, or the generator is reported as failed, after 64
candidates in a row that are out of range, or none of the first `fuel` candidates is suitable. -/
theorem C34_sign (h : Nist D C) (hA : A.Ok D.p D.n) (hF : IsHash F H b o l) (d : Scalar N) (hd : d.toNat < D.n)
    (msg : List Bytes) (hm : msg.flatten.length < l) (rng : RandomSource) (random : Bytes) (hr : rng 0 16 = .ok random)
    (hr16 : random.length = 16) (sigLen : Nat) (hs : 2 * (N * 8) ≤ sigLen) (fuel : Nat) (hf : 64 * fuel < 2 ^ 48) :
    let k := candidates D H b o (N * 8) d.toNat msg random
    let e := hashInt (N * 8) (H msg.flatten)
    (∃ j r s, (∀ i < j, ¬ D.Suitable (k i)) ∧ D.Suitable (k j) ∧ D.Signs d.toNat e (k j) r s ∧
      sign C A F fuel rng d msg sigLen = some (.ok (toBE (N * 8) r ++ toBE (N * 8) s))) ∨
    (∃ j, (∀ i < j, ¬ D.Suitable (k i)) ∧ (∀ i, j ≤ i → i < j + 64 → ¬ (1 ≤ k i ∧ k i < D.n)) ∧
      sign C A F fuel rng d msg sigLen = some (.error (.err .RngFailed))) ∨
    ((∀ i < fuel, ¬ D.Suitable (k i)) ∧ sign C A F fuel rng d msg sigLen = none) := by
  obtain ⟨⟨CF⟩, rfl, rfl, hl⟩ := isHash_correct hF
  have hbo : F.blockLen + F.outLen + 1 + (96 + 16) < l := by cases hF <;> decide
  have hmac : Hmac.mac F H = Spec.Hmac.hmac H F.blockLen := by funext a c; rfl
  have := rfc6979_eq hA h.ok CF (by omega) h.le d hd msg hm random (by omega) fuel hf sigLen (by omega)
  rw [hmac] at this
  have e : sign C A F fuel rng d msg sigLen = rfc6979SignWithRandom C A F fuel d msg random sigLen := by
    rw [sign, hr]
  rw [e]
  rcases this with h1 | h1 | ⟨j, hj, h1, h2⟩
  · exact .inl h1
  · exact .inr (.inl h1)
  · exact .inr (.inr ⟨fun i hi => h1 i (by omega), h2⟩)

/-- If one of the first 64 candidates is suitable, signing succeeds, with the first such candidate. -/
theorem C34_sign_succeeds (h : Nist D C) (hA : A.Ok D.p D.n) (hF : IsHash F H b o l) (d : Scalar N) (hd : d.toNat < D.n)
    (msg : List Bytes) (hm : msg.flatten.length < l) (rng : RandomSource) (random : Bytes) (hr : rng 0 16 = .ok random)
    (hr16 : random.length = 16) (sigLen : Nat) (hs : 2 * (N * 8) ≤ sigLen) (j : Nat) (hj : j < 64)
    (hbefore : ∀ i < j, ¬ D.Suitable (candidates D H b o (N * 8) d.toNat msg random i))
    (hsuit : D.Suitable (candidates D H b o (N * 8) d.toNat msg random j)) (fuel : Nat) (hfj : j < fuel) (hf : 64 * fuel < 2 ^ 48) :
    ∃ r s, D.Signs d.toNat (hashInt (N * 8) (H msg.flatten)) (candidates D H b o (N * 8) d.toNat msg random j) r s ∧
      sign C A F fuel rng d msg sigLen = some (.ok (toBE (N * 8) r ++ toBE (N * 8) s)) := by
  rcases C34_sign h hA hF d hd msg hm rng random hr hr16 sigLen hs fuel hf with ⟨j', r, s, h1, h2, h3, h4⟩ | ⟨j', h1, h2, h3⟩ | ⟨h1, h2⟩
  · have : j' = j := by
      rcases Nat.lt_trichotomy j' j with hh | hh | hh
      · exact absurd h2 (hbefore _ hh)
      · exact hh
      · exact absurd hsuit (h1 _ hh)
    subst this
    exact ⟨r, s, h3, h4⟩
  · exfalso
    by_cases hjj : j < j'
    · exact h1 _ hjj hsuit
    · exact h2 j (by omega) (by omega) ⟨hsuit.1, hsuit.2.1⟩
  · exact absurd hsuit (h1 _ hfj)

/-- A failing source, then a buffer that is too short, are reported. -/
theorem C34_sign_errors (rng : RandomSource) (d : Scalar N) (msg : List Bytes) (sigLen fuel : Nat) :
    (∀ e, rng 0 16 = .error e → sign C A F fuel rng d msg sigLen = some (.error (.err e))) ∧
    (∀ random, rng 0 16 = .ok random → sigLen < 2 * (N * 8) →
      sign C A F fuel rng d msg sigLen = some (.error (.err .WrongLength))) := by
  constructor
  · intro e h
    rw [sign, h]
  · intro random h hl
    rw [sign, h]
    show rfc6979SignWithRandom C A F fuel d msg random sigLen = _
    rw [rfc6979SignWithRandom, if_pos (by omega)]

/-- **C34** Whenever signing returns a signature whose `s` is not 0, the public key of the signing key, exported and read back,
accepts it, however the message is divided. -/
theorem C34_sign_verifies (h : Nist D C) (hA : A.Ok D.p D.n) (hF : IsHash F H b o l) (d : Scalar N) (h1 : 1 ≤ d.toNat)
    (hd : d.toNat < D.n) (msg msg' : List Bytes) (hm : msg.flatten.length < l) (hmm : msg'.flatten = msg.flatten)
    (rng : RandomSource) (random : Bytes) (hr : rng 0 16 = .ok random) (hr16 : random.length = 16) (sigLen fuel : Nat)
    (hf : 64 * fuel < 2 ^ 48) (sig : Bytes) (hsig : sign C A F fuel rng d msg sigLen = some (.ok sig))
    (hs : beNat (sig.drop (N * 8)) ≠ 0) :
    ∃ pub K, publicKeyUncompressed C A d = .ok pub ∧ PublicKey.fromX962Uncompressed C A pub = .ok K ∧
      verify C A F K msg' sig = .ok () := by
  obtain ⟨pub, K, e1, e2, hK, -⟩ := C35_own_key h hA d h1 hd
  refine ⟨pub, K, e1, e2, ?_⟩
  have hlen : 2 * (N * 8) ≤ sigLen := by
    by_cases hc : 2 * (N * 8) ≤ sigLen
    · exact hc
    · rw [(C34_sign_errors rng d msg sigLen fuel).2 random hr (by omega)] at hsig
      cases hsig
  rcases C34_sign h hA hF d hd msg hm rng random hr hr16 sigLen hlen fuel hf with ⟨j, r, s, g1, g2, g3, g4⟩ | ⟨j, -, -, g⟩ | ⟨-, g⟩
  · rw [g4] at hsig
    have hsig : toBE (N * 8) r ++ toBE (N * 8) s = sig := by injection hsig with hsig; injection hsig
    have hlt := h.ok.const.ord.lt
    obtain ⟨⟨x, y, hat, hrx⟩, hsn, hk⟩ := g3
    have hrn : r < D.n := hrx ▸ Nat.mod_lt _ (Fact.out : D.n.Prime).pos
    have er : beNat (toBE (N * 8) r) = r := by rw [beNat_toBE, pow8, Nat.mod_eq_of_lt (by omega)]
    have es : beNat (toBE (N * 8) s) = s := by rw [beNat_toBE, pow8, Nat.mod_eq_of_lt (by omega)]
    have hl : (toBE (N * 8) r).length = N * 8 := toBE_length _ _
    rw [← hsig, List.drop_left' hl, es] at hs
    refine (((C34_verify h hA hF _ K hK msg' (by rw [hmm]; exact hm) sig).2 _ _ hsig.symm (by simp) (by simp)).1).2 ?_
    rw [hmm, er, es]
    refine signs_verifies h.ok ⟨⟨x, y, hat, hrx⟩, hsn, hk⟩ ?_ hs
    obtain ⟨-, -, x', y', hat', hne⟩ := g2
    obtain ⟨rfl, -⟩ := at_inj hat hat'
    omega
  · rw [g] at hsig; cases hsig
  · rw [g] at hsig; cases hsig

/-- Why `s ≠ 0` has to be assumed: unlike FIPS 186-5, step 11, the code does not look for `s = 0`.  For every key and every
usable secret there is a hash for which `s` is 0, and the signature is then not accepted. -/
theorem C34_zero_s (h : Nist D C) (hA : A.Ok D.p D.n) (d k : Scalar N) (hd : d.toNat < D.n) (hk0 : 1 ≤ k.toNat)
    (hk : k.toNat < D.n) : ∃ e r : Scalar N, e.toNat < D.n ∧ publicKeyXScalar C A k = .ok r ∧ (rawEcdsaSign C A d k e r).toNat = 0 := by
  have hpos : 0 < D.n := (Fact.out : D.n.Prime).pos
  have hlt := h.ok.const.ord.lt
  obtain ⟨x, y, hat⟩ := at_exists (nsmul_ne h.ok.good (G_ne h.ok.good) (k := k.toNat) (by omega) hk)
  have hxm := Nat.mod_lt x hpos
  let m := (x % D.n) * d.toNat % D.n
  have hm : m < D.n := Nat.mod_lt _ hpos
  have hem : (D.n - m) % D.n < D.n := Nat.mod_lt _ hpos
  have hx : (BitVec.ofNat (64 * N) (x % D.n)).toNat = x % D.n := by rw [BitVec.toNat_ofNat, Nat.mod_eq_of_lt (by omega)]
  have he : (BitVec.ofNat (64 * N) ((D.n - m) % D.n)).toNat = (D.n - m) % D.n := by
    rw [BitVec.toNat_ofNat, Nat.mod_eq_of_lt (by omega)]
  refine ⟨BitVec.ofNat _ ((D.n - m) % D.n), _, by rw [he]; exact hem, publicKeyXScalar_eq hA h.ok (by omega) hk hat, ?_⟩
  obtain ⟨-, hs, hks⟩ := rawEcdsaSign_signs hA h.ok hd (k := k) (e := BitVec.ofNat _ ((D.n - m) % D.n))
    (r := BitVec.ofNat _ (x % D.n)) (by omega) hk (by rw [he]; exact hem) hat hx
  rw [he, hx] at hks
  have hzero : ((D.n - m) % D.n + x % D.n * d.toNat) % D.n = 0 := by
    rw [Nat.mod_add_mod, ← Nat.add_mod_mod, show x % D.n * d.toNat % D.n = m from rfl, Nat.sub_add_cancel hm.le, Nat.mod_self]
  rw [hzero] at hks
  have hdvd := (Nat.Prime.dvd_mul (Fact.out : D.n.Prime)).1 (Nat.dvd_of_mod_eq_zero hks)
  rcases hdvd with hh | hh
  · exact absurd (Nat.le_of_dvd hk0 hh) (by omega)
  · by_contra hne
    exact absurd (Nat.le_of_dvd (Nat.pos_of_ne_zero hne) hh) (by omega)

/-! ### C07 -/

/-- The DER signature is that of exactly the numbers of the fixed-length one, for the same message and random bytes; a buffer
that is too short for it is an error. -/
theorem C07_sign_asn1 (h : Nist D C) (hA : A.Ok D.p D.n) (hF : IsHash F H b o l) (d : Scalar N) (hd : d.toNat < D.n)
    (msg : List Bytes) (hm : msg.flatten.length < l) (rng : RandomSource) (random : Bytes) (hr : rng 0 16 = .ok random)
    (hr16 : random.length = 16) (fuel : Nat) (hf : 64 * fuel < 2 ^ 48) (rb sb : Bytes) (h1 : rb.length = N * 8)
    (hs : sign C A F fuel rng d msg (2 * (N * 8)) = some (.ok (rb ++ sb))) (buf : Bytes) :
    signAsn1 C A F fuel rng d msg buf =
      some (if (seq [natInt (beNat rb), natInt (beNat sb)]).length ≤ buf.length then .ok (seq [natInt (beNat rb), natInt (beNat sb)])
        else .error (.err (.Asn1Error .UnexpectedEof))) := by
  have hN := h.le
  have e : sign C A F fuel rng d msg (MAX_SCALAR_LEN * 2) = sign C A F fuel rng d msg (2 * (N * 8)) := by
    rw [sign, sign, hr]
    simp only [rfc6979SignWithRandom]
    rw [if_neg (c := MAX_SCALAR_LEN * 2 < _) (by rw [MAX_SCALAR_LEN]; omega), if_neg (c := 2 * (N * 8) < _) (by omega)]
  have hlen : (rb ++ sb).length = N * 8 * 2 := by
    rcases C34_sign h hA hF d hd msg hm rng random hr hr16 _ (Nat.le_refl _) fuel hf with ⟨j, r, s, -, -, -, g⟩ | ⟨j, -, -, g⟩ | ⟨-, g⟩
    · rw [hs] at g
      have g : rb ++ sb = toBE (N * 8) r ++ toBE (N * 8) s := by injection g with g; injection g
      rw [g]; simp; omega
    · rw [hs] at g; cases g
    · rw [hs] at g; cases g
  rw [signAsn1, e, hs]
  show some (fixedToAsn1 N (rb ++ sb) buf) = _
  rw [fixedToAsn1_eq hN _ _ hlen, ← h1, List.take_left, List.drop_left]

/-- Failures of the fixed-length signature are passed on. -/
theorem C07_sign_asn1_errors (h : Nist D C) (rng : RandomSource) (d : Scalar N) (msg : List Bytes) (fuel : Nat) (buf : Bytes) :
    (sign C A F fuel rng d msg (2 * (N * 8)) = none → signAsn1 C A F fuel rng d msg buf = none) ∧
    (∀ e, sign C A F fuel rng d msg (2 * (N * 8)) = some (.error e) → signAsn1 C A F fuel rng d msg buf = some (.error e)) := by
  have hN := h.le
  have e : sign C A F fuel rng d msg (MAX_SCALAR_LEN * 2) = sign C A F fuel rng d msg (2 * (N * 8)) := by
    rw [sign, sign]
    cases rng 0 16 with
    | error e => rfl
    | ok random =>
      simp only [rfc6979SignWithRandom]
      rw [if_neg (c := MAX_SCALAR_LEN * 2 < _) (by rw [MAX_SCALAR_LEN]; omega), if_neg (c := 2 * (N * 8) < _) (by omega)]
  constructor
  · intro hs
    rw [signAsn1, e, hs]
  · intro f hs
    rw [signAsn1, e, hs]

/-- `verify_asn1` accepts a string if and only if it is the canonical DER of two non-negative integers of at most the width of
the curve and `verify` accepts their fixed-length form; everything else is a bad signature. -/
theorem C07_verify_asn1 (h : Nist D C) (hA : A.Ok D.p D.n) (hF : IsHash F H b o l) (Q : D.Pt) (K : PublicKey N)
    (hK : IsPublicKey C A Q K) (msg : List Bytes) (hm : msg.flatten.length < l) (sig : Bytes) :
    (verifyAsn1 C A F K msg sig = .ok () ↔
      ∃ r s, sig = seq [natInt r, natInt s] ∧ r < 256 ^ (N * 8) ∧ s < 256 ^ (N * 8) ∧
        verify C A F K msg (toBE (N * 8) r ++ toBE (N * 8) s) = .ok ()) ∧
    (verifyAsn1 C A F K msg sig = .ok () ∨ verifyAsn1 C A F K msg sig = .error (.err .BadSignature)) := by
  have hN := h.le
  have hp : 256 ^ (N * 8) ≤ 2 ^ 384 := by rw [pow256']; exact Nat.pow_le_pow_right (by omega) (by omega)
  -- the whole function, after parsing
  have step : ∀ v : EcdsaSigValue, Pkcs8.liftAsn1 (ecdsaSigValueCodec.fromBytes sig) = .ok v →
      verifyAsn1 C A F K msg sig = if v.r.isNegative || v.s.isNegative then .error (.err .BadSignature)
        else (do
          let r ← writeFixed (N * 8) v.r.twosComplement
          let s ← writeFixed (N * 8) v.s.twosComplement
          verify C A F K msg (r ++ s)) := by
    intro v e
    unfold verifyAsn1
    rw [e]
    rfl
  have hbad : verifyAsn1 C A F K msg sig = .error (.err .BadSignature) →
      (∀ r s, sig = seq [natInt r, natInt s] → r < 256 ^ (N * 8) → s < 256 ^ (N * 8) →
        verify C A F K msg (toBE (N * 8) r ++ toBE (N * 8) s) = .ok () → False) →
      (verifyAsn1 C A F K msg sig = .ok () ↔
      ∃ r s, sig = seq [natInt r, natInt s] ∧ r < 256 ^ (N * 8) ∧ s < 256 ^ (N * 8) ∧
        verify C A F K msg (toBE (N * 8) r ++ toBE (N * 8) s) = .ok ()) ∧
      (verifyAsn1 C A F K msg sig = .ok () ∨ verifyAsn1 C A F K msg sig = .error (.err .BadSignature)) := by
    intro e hn
    refine ⟨⟨fun e' => ?_, ?_⟩, .inr e⟩
    · rw [e] at e'; cases e'
    · rintro ⟨r, s, a1, a2, a3, a4⟩; exact (hn r s a1 a2 a3 a4).elim
  -- the parser takes a canonical signature apart
  have uniq : ∀ (v : EcdsaSigValue) r s, Pkcs8.liftAsn1 (ecdsaSigValueCodec.fromBytes sig) = .ok v →
      sig = seq [natInt r, natInt s] → r < 256 ^ (N * 8) → s < 256 ^ (N * 8) → v = ⟨⟨natOctets r⟩, ⟨natOctets s⟩⟩ := by
    intro v r s e hs a1 a2
    have hl := sigValue_length (Nat.lt_of_lt_of_le a1 hp) (Nat.lt_of_lt_of_le a2 hp)
    have := lift_der .ecdsaSigValue ⟨⟨natOctets r⟩, ⟨natOctets s⟩⟩ ⟨natOctets_minimal r, natOctets_minimal s⟩
      (by rw [sigValue_der]; omega)
    rw [sigValue_der, ← hs] at this
    have this : Pkcs8.liftAsn1 (ecdsaSigValueCodec.fromBytes sig) = .ok ⟨⟨natOctets r⟩, ⟨natOctets s⟩⟩ := this
    rw [e] at this
    injection this
  rcases lift_parse .ecdsaSigValue sig with ⟨v, hv, hder, hlen, e⟩ | ⟨hno, f, e⟩
  · have e : Pkcs8.liftAsn1 (ecdsaSigValueCodec.fromBytes sig) = .ok v := e
    have hst := step v e
    by_cases hneg : (v.r.isNegative || v.s.isNegative) = true
    · rw [if_pos hneg] at hst
      refine hbad hst fun r s a1 a2 a3 _ => ?_
      rw [uniq v r s e a1 a2 a3] at hneg
      simp only [natOctets_nonneg] at hneg
      simp at hneg
    · rw [if_neg hneg] at hst
      have hn : v.r.isNegative = false ∧ v.s.isNegative = false := by
        constructor <;> (by_contra hc; apply hneg; simp at hc; simp [hc])
      have hvr := natOctets_of_minimal hv.1 hn.1
      have hvs := natOctets_of_minimal hv.2 hn.2
      obtain ⟨r, hr⟩ : ∃ r, v.r = ⟨natOctets r⟩ := ⟨_, hvr⟩
      obtain ⟨s, hs⟩ : ∃ s, v.s = ⟨natOctets s⟩ := ⟨_, hvs⟩
      have hsig : sig = seq [natInt r, natInt s] := by
        rw [hder, ← sigValue_der, ← hr, ← hs]
      have hinj : ∀ r' s', sig = seq [natInt r', natInt s'] → r' < 256 ^ (N * 8) → s' < 256 ^ (N * 8) → r' = r ∧ s' = s := by
        intro r' s' a1 a2 a3
        have hv' := uniq v r' s' e a1 a2 a3
        have e1 : natOctets r' = natOctets r := by
          have : v.r = ⟨natOctets r'⟩ := by rw [hv']
          rw [hr] at this; injection this with this; exact this.symm
        have e2 : natOctets s' = natOctets s := by
          have : v.s = ⟨natOctets s'⟩ := by rw [hv']
          rw [hs] at this; injection this with this; exact this.symm
        exact ⟨by rw [← natOctets_beNat r', e1, natOctets_beNat], by rw [← natOctets_beNat s', e2, natOctets_beNat]⟩
      rw [hr, hs, writeFixed_eq, writeFixed_eq] at hst
      by_cases c1 : r < 256 ^ (N * 8)
      · by_cases c2 : s < 256 ^ (N * 8)
        · rw [if_pos c1, if_pos c2, bind_ok, bind_ok] at hst
          rw [hst]
          have := (C34_verify h hA hF Q K hK msg hm (toBE (N * 8) r ++ toBE (N * 8) s)).2 _ _ rfl (by simp) (by simp)
          refine ⟨⟨fun hok => ⟨r, s, hsig, c1, c2, hok⟩, ?_⟩, this.2⟩
          rintro ⟨r', s', a1, a2, a3, a4⟩
          obtain ⟨rfl, rfl⟩ := hinj r' s' a1 a2 a3
          exact a4
        · rw [if_pos c1, if_neg c2, bind_ok] at hst
          exact hbad hst fun r' s' a1 a2 a3 _ => c2 ((hinj r' s' a1 a2 a3).2 ▸ a3)
      · rw [if_neg c1] at hst
        exact hbad hst fun r' s' a1 a2 a3 _ => c1 ((hinj r' s' a1 a2 a3).1 ▸ a2)
  · have e : Pkcs8.liftAsn1 (ecdsaSigValueCodec.fromBytes sig) = .error (.err (.Asn1Error f)) := e
    refine hbad (by unfold verifyAsn1; rw [e]; rfl) fun r s a1 a2 a3 _ => ?_
    have hl := sigValue_length (Nat.lt_of_lt_of_le a2 hp) (Nat.lt_of_lt_of_le a3 hp)
    exact hno ⟨⟨natOctets r⟩, ⟨natOctets s⟩⟩ ⟨natOctets_minimal r, natOctets_minimal s⟩ (by rw [a1]; omega)
      (by rw [sigValue_der]; exact a1)

/-- A DER signature made by a key verifies under its public key. -/
theorem C07_sign_verifies (h : Nist D C) (hA : A.Ok D.p D.n) (hF : IsHash F H b o l) (d : Scalar N) (h1 : 1 ≤ d.toNat)
    (hd : d.toNat < D.n) (msg : List Bytes) (hm : msg.flatten.length < l)
    (rng : RandomSource) (random : Bytes) (hr : rng 0 16 = .ok random) (hr16 : random.length = 16) (fuel : Nat)
    (hf : 64 * fuel < 2 ^ 48) (rb sb : Bytes) (hrb : rb.length = N * 8)
    (hsig : sign C A F fuel rng d msg (2 * (N * 8)) = some (.ok (rb ++ sb))) (hs : beNat sb ≠ 0) (buf out : Bytes)
    (hout : signAsn1 C A F fuel rng d msg buf = some (.ok out)) :
    ∃ pub K, publicKeyUncompressed C A d = .ok pub ∧ PublicKey.fromX962Uncompressed C A pub = .ok K ∧
      verifyAsn1 C A F K msg out = .ok () := by
  obtain ⟨pub, K, e1, e2, hv⟩ := C34_sign_verifies h hA hF d h1 hd msg msg hm rfl rng random hr hr16 _ fuel hf _ hsig
    (by rw [← hrb, List.drop_left]; exact hs)
  refine ⟨pub, K, e1, e2, ?_⟩
  obtain ⟨pub', K', e1', e2', hK, -⟩ := C35_own_key h hA d h1 hd
  rw [e1] at e1'
  obtain rfl : pub = pub' := by injection e1'
  rw [e2] at e2'
  obtain rfl : K = K' := by injection e2'
  have hout' := C07_sign_asn1 h hA hF d hd msg hm rng random hr hr16 fuel hf rb sb hrb hsig buf
  rw [hout] at hout'
  have hsb : sb.length = N * 8 := by
    by_contra hc
    rw [(C34_verify h hA hF _ K hK msg hm (rb ++ sb)).1 (by rw [List.length_append]; omega)] at hv
    cases hv
  have b1 := beNat_lt rb
  have b2 := beNat_lt sb
  rw [hrb] at b1
  rw [hsb] at b2
  refine ((C07_verify_asn1 h hA hF _ K hK msg hm out).1).2 ⟨beNat rb, beNat sb, ?_, b1, b2, ?_⟩
  · by_cases hl : (seq [natInt (beNat rb), natInt (beNat sb)]).length ≤ buf.length
    · rw [if_pos hl] at hout'
      injection hout' with hout'; injection hout'
    · rw [if_neg hl] at hout'
      injection hout' with hout'; cases hout'
  · rw [← hrb, toBE_beNat, hrb, ← hsb, toBE_beNat]; exact hv

/-! ### C39: containers of ECDSA keys -/

/-- The two instances of the interface, with the contents of the OID of the curve (RFC 5480, section 2.1.1.1). -/
inductive IsSuite : {N : Nat} → Params → Suite N → Bytes → Prop
  | p256 : IsSuite p256 suiteP256 (oidBytes 1 2 [840, 10045, 3, 1, 7])
  | p384 : IsSuite p384 suiteP384 (oidBytes 1 3 [132, 0, 34])

variable {S : Suite N} {curve : Bytes}

theorem IsSuite.nist (h : IsSuite D S curve) : Nist D S.curve := by
  cases h
  · exact .p256
  · exact .p384

theorem IsSuite.oid (h : IsSuite D S curve) : S.oid.bytes = curve := by
  cases h <;> decide +kernel

/-- id-ecPublicKey, RFC 5480, section 2.1.1. -/
def ecAlgorithm : Bytes := oidBytes 1 2 [840, 10045, 2, 1]

theorem ecAlgorithm_eq : id_ecPublicKey.bytes = ecAlgorithm := by decide +kernel

/-- `ECPrivateKey` of RFC 5915, section 3. -/
def sec1Der (priv : Bytes) (params pub : Option Bytes) : Bytes :=
  seq [tlv 0x02#8 [1#8], tlv 0x04#8 priv, optional (fun o => tlv 0xa0#8 (tlv 0x06#8 o)) params,
    optional (fun p => tlv 0xa1#8 (tlv 0x03#8 (0#8 :: p))) pub]

theorem sec1Der_eq (priv : Bytes) (params : Option ObjectId) (pub : Option Bytes) :
    Kind.der .ecPrivateKey ⟨.ecPrivkeyVer1, ⟨priv⟩, params, pub.map fun p => ⟨p⟩⟩ = sec1Der priv (params.map (·.bytes)) pub := by
  cases params <;> cases pub <;> rfl

theorem encodePoint_length (len x y : Nat) : (encodePoint len x y).length = 1 + len + len := by
  simp [encodePoint]; omega

theorem optional_length {T : Type} {f : T → Bytes} {n : Nat} (o : Option T) (h : ∀ v, o = some v → (f v).length ≤ n) :
    (optional f o).length ≤ n := by
  cases o with
  | none => exact Nat.zero_le _
  | some v => exact h v rfl

theorem sec1Der_length {priv : Bytes} {params pub : Option Bytes} (h1 : priv.length ≤ 48)
    (h2 : ∀ o, params = some o → o.length ≤ 16) (h3 : ∀ p, pub = some p → p.length ≤ 97) :
    (sec1Der priv params pub).length ≤ 200 := by
  have a0 := tlv_length_le 0x02#8 [1#8] (by decide)
  have a1 := tlv_length_le 0x04#8 priv (by omega)
  have a2 : (optional (fun o => tlv 0xa0#8 (tlv 0x06#8 o)) params).length ≤ 24 := optional_length _ fun o ho => by
    have := h2 o ho
    have b1 := tlv_length_le 0x06#8 o (by omega)
    have b2 := tlv_length_le 0xa0#8 (tlv 0x06#8 o) (by omega)
    omega
  have a3 : (optional (fun p => tlv 0xa1#8 (tlv 0x03#8 (0#8 :: p))) pub).length ≤ 106 := optional_length _ fun p hp => by
    have := h3 p hp
    have b1 := tlv_length_le 0x03#8 (0#8 :: p) (by simp; omega)
    have b2 := tlv_length_le 0xa1#8 (tlv 0x03#8 (0#8 :: p)) (by simp at b1; omega)
    simp at b1
    omega
  simp only [List.length_cons, List.length_nil] at a0
  have e : [tlv 0x02#8 [1#8], tlv 0x04#8 priv, optional (fun o => tlv 0xa0#8 (tlv 0x06#8 o)) params,
    optional (fun p => tlv 0xa1#8 (tlv 0x03#8 (0#8 :: p))) pub].flatten.length ≤ 190 := by simp; omega
  have := tlv_length_le 0x30#8 _ (Nat.lt_of_le_of_lt e (by decide))
  rw [sec1Der, seq]; omega

theorem toSec1DerDetail_eq (h : IsSuite D S curve) (hA : A.Ok D.p D.n) (d : Scalar N) (h1 : 1 ≤ d.toNat) (h2 : d.toNat < D.n)
    (params : Option ObjectId) (buf : Bytes) {x y : Nat} (hat : D.At (d.toNat • D.G) x y) :
    toSec1DerDetail S A d params buf =
      let der := sec1Der (toBE (N * 8) d.toNat) (params.map (·.bytes)) (some (encodePoint (N * 8) x y))
      if der.length ≤ buf.length then .ok der else .error (.err (.Asn1Error .UnexpectedEof)) := by
  have hN := h.nist.le
  have hpub := publicKeyUncompressed_eq hA h.nist.ok (by omega) h2 hat
  have hl := sec1Der_length (priv := toBE (N * 8) d.toNat) (params := params.map (·.bytes)) (pub := some (encodePoint (N * 8) x y))
    (by rw [toBE_length]; omega)
    (by intro o ho; cases params with
        | none => cases ho
        | some p => cases ho; exact p.bound)
    (by intro p hp; cases hp; rw [encodePoint_length]; omega)
  unfold toSec1DerDetail
  rw [encode, if_pos (by rw [MAX_SCALAR_LEN]; omega), publicKeyEncodeUncompressed,
    if_pos (by rw [MAX_UNCOMPRESSED_PUBLIC_KEY_LEN]; omega), hpub, bind_ok, bind_ok]
  have hd := sec1Der_eq (privateAsBytes d) params (some (encodePoint (N * 8) x y))
  have hpb : privateAsBytes d = toBE (N * 8) d.toNat := by rw [privateAsBytes, Scalar.asBytes, toBigEndian_eq]
  rw [hpb] at hd
  have e := lift_encode .ecPrivateKey ⟨.ecPrivkeyVer1, ⟨toBE (N * 8) d.toNat⟩, params, (some (encodePoint (N * 8) x y)).map fun p => ⟨p⟩⟩
    (by rw [hd]; omega) buf
  rw [hd] at e
  rw [hpb]
  dsimp only
  rw [show Pkcs8.liftAsn1 (ecPrivateKeyCodec.encodeInto ⟨.ecPrivkeyVer1, ⟨toBE (N * 8) d.toNat⟩, params,
    some ⟨encodePoint (N * 8) x y⟩⟩ buf) = _ from e]
  generalize sec1Der _ _ _ = der
  by_cases hb : der.length ≤ buf.length
  · rw [if_pos hb, if_pos hb, bind_ok]
    dsimp only
    rw [if_pos (by rw [List.length_append]; omega), List.take_left]
  · rw [if_neg hb, if_neg hb]; rfl

/-- SEC 1 export: the `ECPrivateKey` of RFC 5915 with the key, the curve and the public key; an error if it does not fit. -/
theorem C39_sec1_export (h : IsSuite D S curve) (hA : A.Ok D.p D.n) (d : Scalar N) (h1 : 1 ≤ d.toNat) (h2 : d.toNat < D.n)
    (buf : Bytes) :
    ∃ x y, D.At (d.toNat • D.G) x y ∧ toSec1Der S A d buf =
      let der := sec1Der (toBE (N * 8) d.toNat) (some curve) (some (encodePoint (N * 8) x y))
      if der.length ≤ buf.length then .ok der else .error (.err (.Asn1Error .UnexpectedEof)) := by
  obtain ⟨x, y, hat⟩ := at_exists (nsmul_ne h.nist.ok.good (G_ne h.nist.ok.good) (k := d.toNat) (by omega) h2)
  refine ⟨x, y, hat, ?_⟩
  rw [toSec1Der, toSec1DerDetail_eq h hA d h1 h2 _ buf hat, Option.map_some, h.oid]

/-- The private key, then the comparison of the public key. -/
def sec1Rest (S : Suite N) (A : Ec.Asm N) (priv : Bytes) (pub : Option Bytes) : GR (Scalar N) :=
  match privateFromBytes A priv with
  | .error e => .error e
  | .ok d => match pub with
    | none => .ok d
    | some p => match publicKeyUncompressed S.curve A d with
      | .error e => .error e
      | .ok q => if q ≠ p then .error (.err (.KeyFormatError .MismatchedSec1PublicKey)) else .ok d

/-- What `from_sec1_der` does with a well-formed `ECPrivateKey`. -/
theorem fromSec1_of (h : IsSuite D S curve) (hA : A.Ok D.p D.n) (priv : Bytes) (params : Option ObjectId) (pub : Option Bytes)
    (hs : (sec1Der priv (params.map (·.bytes)) pub).length ≤ 65539) :
    fromSec1Der S A (sec1Der priv (params.map (·.bytes)) pub) =
      if params.map (·.bytes) ≠ none ∧ params.map (·.bytes) ≠ some curve then .error (.err (.KeyFormatError .MismatchedSec1Curve))
      else sec1Rest S A priv pub := by
  have hN := h.nist.le
  have e := lift_der .ecPrivateKey ⟨.ecPrivkeyVer1, ⟨priv⟩, params, pub.map fun p => ⟨p⟩⟩ trivial (by rw [sec1Der_eq]; exact hs)
  rw [sec1Der_eq] at e
  have e : Pkcs8.liftAsn1 (ecPrivateKeyCodec.fromBytes (sec1Der priv (params.map (·.bytes)) pub)) =
    .ok ⟨.ecPrivkeyVer1, ⟨priv⟩, params, pub.map fun p => ⟨p⟩⟩ := e
  unfold fromSec1Der
  rw [e, bind_ok]
  dsimp only
  have henc : ∀ d : Scalar N, publicKeyEncodeUncompressed S.curve A MAX_UNCOMPRESSED_PUBLIC_KEY_LEN d =
      publicKeyUncompressed S.curve A d := fun d => by
    rw [publicKeyEncodeUncompressed, if_pos (by rw [MAX_UNCOMPRESSED_PUBLIC_KEY_LEN]; omega)]
  have hrest : (do
      let privateKey ← privateFromBytes A priv
      checkSec1Public S A privateKey (pub.map fun p => ⟨p⟩)
      .ok privateKey : GR (Scalar N)) = sec1Rest S A priv pub := by
    rw [sec1Rest]
    cases privateFromBytes A priv with
    | error f => rfl
    | ok d =>
      rw [bind_ok]
      cases pub with
      | none => rfl
      | some p =>
        rw [Option.map_some, checkSec1Public, henc]
        dsimp only
        cases publicKeyUncompressed S.curve A d with
        | error f => rfl
        | ok q =>
          rw [bind_ok]
          dsimp only
          by_cases hq : q ≠ p
          · rw [if_pos hq, if_pos hq]; rfl
          · rw [if_neg hq, if_neg hq]; rfl
  cases params with
  | none =>
    rw [if_neg (by simp), checkSec1Curve, bind_ok]
    exact hrest
  | some x =>
    rw [checkSec1Curve]
    dsimp only [Option.map_some]
    have hx : (x = S.oid) ↔ x.bytes = curve := by
      rw [← h.oid]
      constructor
      · rintro rfl; rfl
      · intro hb
        obtain ⟨xb, hxb⟩ := x
        obtain ⟨c, o, ho⟩ := S
        cases hb; rfl
    by_cases hc : x = S.oid
    · rw [if_pos hc, if_neg (by simp [hx.1 hc]), bind_ok]
      exact hrest
    · rw [if_neg hc, if_pos ⟨by simp, fun hb => hc (hx.2 (by injection hb))⟩]
      rfl

/-- SEC 1 import, exactly. -/
theorem C39_sec1_import (h : IsSuite D S curve) (hA : A.Ok D.p D.n) (bytes : Bytes) (d : Scalar N) :
    fromSec1Der S A bytes = .ok d ↔
      ∃ priv params pub, bytes = sec1Der priv params pub ∧ bytes.length ≤ 65539 ∧ (params = none ∨ params = some curve) ∧
        1 ≤ beNat priv ∧ beNat priv < D.n ∧ d.toNat = beNat priv ∧
        (∀ p, pub = some p → ∃ x y, D.At (d.toNat • D.G) x y ∧ p = encodePoint (N * 8) x y) := by
  have hpub : ∀ d : Scalar N, 1 ≤ d.toNat → d.toNat < D.n → ∃ x y, D.At (d.toNat • D.G) x y ∧
      publicKeyUncompressed S.curve A d = .ok (encodePoint (N * 8) x y) := fun d h1 h2 => C33_public_key h.nist hA d h1 h2
  constructor
  · intro hok
    rcases lift_parse .ecPrivateKey bytes with ⟨v, -, hder, hlen, -⟩ | ⟨-, f, e⟩
    · obtain ⟨⟨⟩, ⟨priv⟩, params, pub⟩ := v
      have hpubmap : ∃ pub' : Option Bytes, pub = pub'.map fun p => ⟨p⟩ := by
        cases pub with
        | none => exact ⟨none, rfl⟩
        | some p => exact ⟨some p.octets, rfl⟩
      obtain ⟨pub, rfl⟩ := hpubmap
      rw [sec1Der_eq] at hder
      subst hder
      rw [fromSec1_of h hA priv params pub hlen] at hok
      by_cases hc : params.map (·.bytes) ≠ none ∧ params.map (·.bytes) ≠ some curve
      · rw [if_pos hc] at hok; cases hok
      rw [if_neg hc, sec1Rest] at hok
      by_cases hr : 1 ≤ beNat priv ∧ beNat priv < D.n
      · obtain ⟨d', e1, e2, -⟩ := (C31_import h.nist hA priv).1 hr
        rw [e1] at hok
        dsimp only at hok
        have hd : d' = d ∧ ∀ p, pub = some p → ∃ x y, D.At (d'.toNat • D.G) x y ∧ p = encodePoint (N * 8) x y := by
          cases pub with
          | none =>
            dsimp only at hok
            exact ⟨by injection hok, by rintro p hp; cases hp⟩
          | some p =>
            obtain ⟨x, y, hat, e⟩ := hpub d' (by omega) (by omega)
            dsimp only at hok
            rw [e] at hok
            dsimp only at hok
            by_cases hq : encodePoint (N * 8) x y ≠ p
            · rw [if_pos hq] at hok; cases hok
            · rw [if_neg hq] at hok
              refine ⟨by injection hok, ?_⟩
              rintro p' hp
              cases hp
              exact ⟨x, y, hat, (not_not.1 hq).symm⟩
        obtain ⟨rfl, hp⟩ := hd
        refine ⟨priv, _, pub, rfl, hlen, ?_, hr.1, hr.2, e2, hp⟩
        by_cases h0 : params.map (·.bytes) = none
        · exact .inl h0
        · exact .inr (not_not.1 fun h1 => hc ⟨h0, h1⟩)
      · rw [(C31_import h.nist hA priv).2 (by omega)] at hok
        cases hok
    · have e : Pkcs8.liftAsn1 (ecPrivateKeyCodec.fromBytes bytes) = .error (.err (.Asn1Error f)) := e
      unfold fromSec1Der at hok
      rw [e] at hok
      cases hok
  · rintro ⟨priv, params, pub, rfl, hlen, hpar, h1, h2, hd, hp⟩
    obtain ⟨params', rfl⟩ : ∃ q : Option ObjectId, params = q.map (·.bytes) := by
      rcases hpar with rfl | rfl
      · exact ⟨none, rfl⟩
      · exact ⟨some S.oid, by rw [Option.map_some, h.oid]⟩
    rw [fromSec1_of h hA priv params' pub hlen, if_neg (by rcases hpar with hh | hh <;> simp [hh]), sec1Rest]
    obtain ⟨d', e1, e2, -⟩ := (C31_import h.nist hA priv).1 ⟨h1, h2⟩
    have hdd : d' = d := BitVec.eq_of_toNat_eq (by omega)
    subst hdd
    rw [e1]
    cases pub with
    | none => rfl
    | some p =>
      obtain ⟨x, y, hat, e⟩ := hpub d' (by omega) (by omega)
      obtain ⟨x', y', hat', rfl⟩ := hp p rfl
      obtain ⟨rfl, rfl⟩ := at_inj hat hat'
      dsimp only
      rw [e]
      dsimp only
      rw [if_neg (by simp)]

/-- What is wrong with a rejected SEC 1 key: not DER; the parameters name another curve; the number is out of range; or the
public key is not that of the private key.  Never a panic. -/
theorem C39_sec1_errors (h : IsSuite D S curve) (hA : A.Ok D.p D.n) (bytes : Bytes) :
    ((∀ v : EcPrivateKey, bytes.length ≤ 65539 → bytes ≠ Kind.der .ecPrivateKey v) →
      ∃ e, fromSec1Der S A bytes = .error (.err (.Asn1Error e))) ∧
    (∀ priv (params : Option ObjectId) pub, bytes = sec1Der priv (params.map (·.bytes)) pub → bytes.length ≤ 65539 →
      (∀ o, params = some o → o.bytes ≠ curve → fromSec1Der S A bytes = .error (.err (.KeyFormatError .MismatchedSec1Curve))) ∧
      (params.map (·.bytes) = none ∨ params.map (·.bytes) = some curve →
        (beNat priv = 0 ∨ D.n ≤ beNat priv → fromSec1Der S A bytes =
          .error (.err (if beNat priv < 2 ^ (64 * N) then .OutOfRange else .WrongLength))) ∧
        (1 ≤ beNat priv → beNat priv < D.n → ∀ p, pub = some p →
          (∀ x y, D.At (beNat priv • D.G) x y → p ≠ encodePoint (N * 8) x y) →
            fromSec1Der S A bytes = .error (.err (.KeyFormatError .MismatchedSec1PublicKey))))) := by
  constructor
  · intro hno
    rcases lift_parse .ecPrivateKey bytes with ⟨v, -, hder, hlen, -⟩ | ⟨-, f, e⟩
    · exact absurd hder (hno v hlen)
    · have e : Pkcs8.liftAsn1 (ecPrivateKeyCodec.fromBytes bytes) = .error (.err (.Asn1Error f)) := e
      refine ⟨f, ?_⟩
      unfold fromSec1Der
      rw [e]; rfl
  · rintro priv params pub rfl hlen
    rw [fromSec1_of h hA priv params pub hlen]
    refine ⟨?_, fun hpar => ?_⟩
    · rintro o rfl ho
      rw [if_pos (by simp [ho])]
    · rw [if_neg (by rcases hpar with hh | hh <;> simp [hh]), sec1Rest]
      refine ⟨fun hr => ?_, fun h1 h2 => ?_⟩
      · rw [(C31_import h.nist hA priv).2 hr]
      · rintro p rfl hne
        obtain ⟨d, e1, e2, -⟩ := (C31_import h.nist hA priv).1 ⟨h1, h2⟩
        obtain ⟨x, y, hat, e⟩ := C33_public_key h.nist hA d (by omega) (by omega)
        rw [e1]
        dsimp only
        rw [e]
        dsimp only
        rw [e2] at hat
        rw [if_pos (hne x y hat).symm]

/-- **C39** Exporting to SEC 1 and importing gives the key back. -/
theorem C39_sec1_round_trip (h : IsSuite D S curve) (hA : A.Ok D.p D.n) (d : Scalar N) (h1 : 1 ≤ d.toNat) (h2 : d.toNat < D.n)
    (buf out : Bytes) (hout : toSec1Der S A d buf = .ok out) : fromSec1Der S A out = .ok d := by
  obtain ⟨x, y, hat, e⟩ := C39_sec1_export h hA d h1 h2 buf
  rw [hout] at e
  have hN := h.nist.le
  have hlt := h.nist.ok.const.ord.lt
  have hc : curve.length ≤ 16 := by rw [← h.oid]; exact S.oid.bound
  have hl := sec1Der_length (priv := toBE (N * 8) d.toNat) (params := some curve) (pub := some (encodePoint (N * 8) x y))
    (by rw [toBE_length]; omega) (by rintro o ho; cases ho; exact hc) (by rintro p hp; cases hp; rw [encodePoint_length]; omega)
  have hb : beNat (toBE (N * 8) d.toNat) = d.toNat := by rw [beNat_toBE, pow8, Nat.mod_eq_of_lt (by omega)]
  dsimp only at e
  by_cases hf : (sec1Der (toBE (N * 8) d.toNat) (some curve) (some (encodePoint (N * 8) x y))).length ≤ buf.length
  · rw [if_pos hf] at e
    injection e with e
    rw [e]
    exact (C39_sec1_import h hA _ d).2 ⟨_, _, _, rfl, by omega, .inr rfl, by omega, by omega, hb.symm,
      by rintro p hp; cases hp; exact ⟨x, y, hat, rfl⟩⟩
  · rw [if_neg hf] at e; cases e

/-- The PKCS#8 structure around an `ECPrivateKey`: RFC 5958 with the algorithm of RFC 5480 (and no public key outside). -/
def ecPkcs8Der (curve : Bytes) (sec1 : Bytes) (pub : Option Bytes) : Bytes :=
  seq [tlv 0x02#8 [if pub.isSome then 1#8 else 0#8], seq [tlv 0x06#8 ecAlgorithm, tlv 0x06#8 curve], tlv 0x04#8 sec1,
    optional (fun p => tlv 0x81#8 (0#8 :: p)) pub]

theorem ecPkcs8Der_eq (h : IsSuite D S curve) (sec1 : Bytes) (pub : Option Bytes) :
    pkcs8Der sec1 pub id_ecPublicKey (some (.ObjectId S.oid)) = ecPkcs8Der curve sec1 pub := by
  rw [pkcs8Der, ecPkcs8Der]
  rw [← h.oid, ← ecAlgorithm_eq]
  cases pub <;> rfl

/-- PKCS#8 export: the structure around the SEC 1 form without parameters. -/
theorem C39_pkcs8_export (h : IsSuite D S curve) (hA : A.Ok D.p D.n) (d : Scalar N) (h1 : 1 ≤ d.toNat) (h2 : d.toNat < D.n)
    (buf : Bytes) :
    ∃ x y, D.At (d.toNat • D.G) x y ∧ toPkcs8Der S A d buf =
      let der := ecPkcs8Der curve (sec1Der (toBE (N * 8) d.toNat) none (some (encodePoint (N * 8) x y))) none
      if der.length ≤ buf.length then .ok der else .error (.err (.Asn1Error .UnexpectedEof)) := by
  obtain ⟨x, y, hat⟩ := at_exists (nsmul_ne h.nist.ok.good (G_ne h.nist.ok.good) (k := d.toNat) (by omega) h2)
  refine ⟨x, y, hat, ?_⟩
  have hN := h.nist.le
  have hl := sec1Der_length (priv := toBE (N * 8) d.toNat) (params := none) (pub := some (encodePoint (N * 8) x y))
    (by rw [toBE_length]; omega) (by rintro o ho; cases ho) (by rintro p hp; cases hp; rw [encodePoint_length]; omega)
  unfold toPkcs8Der
  rw [toSec1DerDetail_eq h hA d h1 h2 none _ hat]
  dsimp only [Option.map_none]
  rw [if_pos (by rw [List.length_replicate, MAX_SCALAR_LEN, MAX_UNCOMPRESSED_PUBLIC_KEY_LEN]; omega), bind_ok]
  generalize sec1Der _ _ _ = sec1 at hl
  have hder := construct_der sec1 none id_ecPublicKey (some (.ObjectId S.oid))
  rw [ecPkcs8Der_eq h] at hder
  have hsmall : (ecPkcs8Der curve sec1 none).length < 2 ^ 32 := by
    have hc : curve.length ≤ 16 := by rw [← h.oid]; exact S.oid.bound
    have ha : ecAlgorithm.length ≤ 16 := by rw [← ecAlgorithm_eq]; exact id_ecPublicKey.bound
    have a1 := tlv_length_le 0x06#8 ecAlgorithm (by omega)
    have a2 := tlv_length_le 0x06#8 curve (by omega)
    have a3 := tlv_length_le 0x04#8 sec1 (by omega)
    have a4 := tlv_length_le 0x02#8 [if (none : Option Bytes).isSome then 1#8 else 0#8] (by decide)
    have b1 : [tlv 0x06#8 ecAlgorithm, tlv 0x06#8 curve].flatten.length ≤ 40 := by simp; omega
    have a5 := tlv_length_le 0x30#8 _ (Nat.lt_of_le_of_lt b1 (by decide))
    have b2 : [tlv 0x02#8 [if (none : Option Bytes).isSome then 1#8 else 0#8], seq [tlv 0x06#8 ecAlgorithm, tlv 0x06#8 curve],
        tlv 0x04#8 sec1, optional (fun p => tlv 0x81#8 (0#8 :: p)) (none : Option Bytes)].flatten.length ≤ 300 := by
      simp only [seq, Spec.Der.optional, List.flatten_cons, List.flatten_nil, List.length_append, List.length_nil]
      simp at a4 ⊢
      simp at b1 a5
      omega
    have a6 := tlv_length_le 0x30#8 _ (Nat.lt_of_le_of_lt b2 (by decide))
    rw [ecPkcs8Der, seq]
    omega
  have e := lift_encode .oneAsymmetricKey (Pkcs8.construct sec1 none id_ecPublicKey (some (.ObjectId S.oid)))
    (by rw [hder]; exact hsmall) buf
  rw [hder] at e
  have e : Pkcs8.liftAsn1 (oneAsymmetricKeyCodec.encodeInto (Pkcs8.construct sec1 none id_ecPublicKey (some (.ObjectId S.oid))) buf) = _ := e
  generalize ecPkcs8Der _ _ _ = der at e
  unfold Pkcs8.encode
  rw [e]
  by_cases hb : der.length ≤ buf.length
  · rw [if_pos hb, if_pos hb, bind_ok]
    dsimp only
    rw [if_pos (by rw [List.length_append]; omega), List.take_left]
  · rw [if_neg hb, if_neg hb]; rfl

/-- PKCS#8 import, exactly: the structure, for this curve, around what SEC 1 import takes.  Bytes after the structure and a
public key outside the `ECPrivateKey` are not looked at. -/
theorem C39_pkcs8_import (h : IsSuite D S curve) (bytes : Bytes) (d : Scalar N) :
    fromPkcs8Der S A bytes = .ok d ↔
      ∃ sec1 pub rest, bytes = ecPkcs8Der curve sec1 pub ++ rest ∧ (ecPkcs8Der curve sec1 pub).length ≤ 65539 ∧
        fromSec1Der S A sec1 = .ok d := by
  unfold fromPkcs8Der
  constructor
  · intro hok
    cases e : Pkcs8.decode bytes id_ecPublicKey (some (.ObjectId S.oid)) with
    | error f => rw [e] at hok; cases hok
    | ok k =>
      rw [e, bind_ok] at hok
      obtain ⟨rest, priv, pub, e1, e2, -, rfl⟩ := (C08_decode _ _ _ _).1 e
      rw [ecPkcs8Der_eq h] at e1 e2
      exact ⟨priv, pub, rest, e1, e2, hok⟩
  · rintro ⟨sec1, pub, rest, rfl, e2, e3⟩
    rw [← ecPkcs8Der_eq h] at e2 ⊢
    rw [(C08_decode _ id_ecPublicKey (some (.ObjectId S.oid)) _).2
      ⟨rest, sec1, pub, rfl, e2, by rintro p hp; cases hp; trivial, rfl⟩, bind_ok]
    exact e3

/-- **C39** Exporting to PKCS#8 and importing gives the key back. -/
theorem C39_pkcs8_round_trip (h : IsSuite D S curve) (hA : A.Ok D.p D.n) (d : Scalar N) (h1 : 1 ≤ d.toNat) (h2 : d.toNat < D.n)
    (buf out : Bytes) (hb : buf.length ≤ 65539) (hout : toPkcs8Der S A d buf = .ok out) : fromPkcs8Der S A out = .ok d := by
  obtain ⟨x, y, hat, e⟩ := C39_pkcs8_export h hA d h1 h2 buf
  rw [hout] at e
  have hN := h.nist.le
  have hlt := h.nist.ok.const.ord.lt
  have hl := sec1Der_length (priv := toBE (N * 8) d.toNat) (params := none) (pub := some (encodePoint (N * 8) x y))
    (by rw [toBE_length]; omega) (by rintro o ho; cases ho) (by rintro p hp; cases hp; rw [encodePoint_length]; omega)
  have hb' : beNat (toBE (N * 8) d.toNat) = d.toNat := by rw [beNat_toBE, pow8, Nat.mod_eq_of_lt (by omega)]
  dsimp only at e
  by_cases hf : (ecPkcs8Der curve (sec1Der (toBE (N * 8) d.toNat) none (some (encodePoint (N * 8) x y))) none).length ≤ buf.length
  · rw [if_pos hf] at e
    injection e with e
    refine (C39_pkcs8_import h _ d).2 ⟨_, _, [], by rw [List.append_nil]; exact e, by omega, ?_⟩
    exact (C39_sec1_import h hA _ d).2 ⟨_, _, _, rfl, by omega, .inl rfl, by omega, by omega, hb'.symm,
      by rintro p hp; cases hp; exact ⟨x, y, hat, rfl⟩⟩
  · rw [if_neg hf] at e; cases e

/-- The public key export: `SubjectPublicKeyInfo` of RFC 5280 with the algorithm, curve and point of RFC 5480. -/
theorem C39_spki_export (h : IsSuite D S curve) (hA : A.Ok D.p D.n) (d : Scalar N) (h1 : 1 ≤ d.toNat) (h2 : d.toNat < D.n)
    (buf : Bytes) :
    ∃ x y, D.At (d.toNat • D.G) x y ∧ toSpkiDer S A d buf =
      let der := seq [seq [tlv 0x06#8 ecAlgorithm, tlv 0x06#8 curve], tlv 0x03#8 (0#8 :: encodePoint (N * 8) x y)]
      if der.length ≤ buf.length then .ok der else .error (.err (.Asn1Error .UnexpectedEof)) := by
  obtain ⟨x, y, hat, hpub⟩ := C33_public_key h.nist hA d h1 h2
  refine ⟨x, y, hat, ?_⟩
  have hN := h.nist.le
  have hder : Kind.der .subjectPublicKeyInfo ⟨⟨id_ecPublicKey, some (.ObjectId S.oid)⟩, ⟨encodePoint (N * 8) x y⟩⟩ =
      seq [seq [tlv 0x06#8 ecAlgorithm, tlv 0x06#8 curve], tlv 0x03#8 (0#8 :: encodePoint (N * 8) x y)] := by
    rw [← h.oid, ← ecAlgorithm_eq]; rfl
  unfold toSpkiDer
  rw [publicKeyEncodeUncompressed, if_pos (by rw [MAX_UNCOMPRESSED_PUBLIC_KEY_LEN]; omega), hpub, bind_ok]
  have hpl := encodePoint_length (N * 8) x y
  generalize encodePoint (N * 8) x y = pt at hder hpl
  have hsmall : (seq [seq [tlv 0x06#8 ecAlgorithm, tlv 0x06#8 curve], tlv 0x03#8 (0#8 :: pt)]).length < 2 ^ 32 := by
    have hc : curve.length ≤ 16 := by rw [← h.oid]; exact S.oid.bound
    have ha : ecAlgorithm.length ≤ 16 := by rw [← ecAlgorithm_eq]; exact id_ecPublicKey.bound
    have a1 := tlv_length_le 0x06#8 ecAlgorithm (by omega)
    have a2 := tlv_length_le 0x06#8 curve (by omega)
    have a3 := tlv_length_le 0x03#8 (0#8 :: pt) (by simp; omega)
    have b1 : [tlv 0x06#8 ecAlgorithm, tlv 0x06#8 curve].flatten.length ≤ 40 := by simp; omega
    have a5 := tlv_length_le 0x30#8 _ (Nat.lt_of_le_of_lt b1 (by decide))
    have b2 : [seq [tlv 0x06#8 ecAlgorithm, tlv 0x06#8 curve], tlv 0x03#8 (0#8 :: pt)].flatten.length ≤ 300 := by
      simp only [seq, List.flatten_cons, List.flatten_nil, List.length_append, List.length_nil]
      simp at a3 ⊢
      simp at b1 a5
      omega
    have a6 := tlv_length_le 0x30#8 _ (Nat.lt_of_le_of_lt b2 (by decide))
    rw [seq]
    omega
  have e := lift_encode .subjectPublicKeyInfo ⟨⟨id_ecPublicKey, some (.ObjectId S.oid)⟩, ⟨pt⟩⟩ (by rw [hder]; exact hsmall) buf
  rw [hder] at e
  have e : Pkcs8.liftAsn1 (subjectPublicKeyInfoCodec.encodeInto ⟨⟨id_ecPublicKey, some (.ObjectId S.oid)⟩, ⟨pt⟩⟩ buf) = _ := e
  dsimp only
  rw [e]
  generalize seq _ = der
  by_cases hb : der.length ≤ buf.length
  · rw [if_pos hb, if_pos hb, bind_ok]
    dsimp only
    rw [if_pos (by rw [List.length_append]; omega), List.take_left]
  · rw [if_neg hb, if_neg hb]; rfl

end Verif.Props
