import Verif.Props.TlsSign

/-!
C54: what the signers return is accepted by the algorithm of the scheme.
-/
namespace Verif.Props
open Verif Verif.TlsSign Verif.Spec.TlsScheme Verif.Asn1

/-! ### ECDSA -/

section
open Verif.Spec.Nist Verif.Ecdsa Verif.Ec Verif.Spec.Der Verif.EcCard
variable {N : Nat} {D : Params} [Fact D.p.Prime] [Fact D.n.Prime] {C : Curve N} {A : Ec.Asm N}

theorem ecdsa_signed (h : Nist D C) (hA : A.Ok D.p D.n) {F : Hmac.HashFn} {hh : Hash} (hF : IsFn F hh) (d : Ec.Scalar N)
    (h1 : 1 ≤ d.toNat) (h2 : d.toNat < D.n) (msg : Bytes) (hm : 64 + msg.length < 2 ^ 61) (rng : RandomSource) (hr : rng.Fills)
    (fuel : Nat) (hf : 64 * fuel < 2 ^ 48) (out : Bytes)
    (ho : (signAsn1 C A F fuel rng d [msg] (List.replicate 128 0#8)).map TlsSign.mapErr = some (.ok out)) :
    ∃ r s, out = seq [natInt r, natInt s] ∧ (s ≠ 0 → ∃ Q : D.Pt, ∃ x y, D.At Q x y ∧ Q = d.toNat • D.G ∧
      TlsSign.mapErr (do
        let K ← Ec.PublicKey.fromX962Uncompressed C A (encodePoint (N * 8) x y)
        Ecdsa.verifyAsn1 C A F K [msg] out) = .ok ()) := by
  obtain ⟨b, l, hF1, hF2⟩ := hF.isHash
  have hml : [msg].flatten.length < l := by simp; omega
  have ho' : signAsn1 C A F fuel rng d [msg] (List.replicate 128 0#8) = some (.ok out) := by
    rcases hs : signAsn1 C A F fuel rng d [msg] (List.replicate 128 0#8) with _ | (e | _) | o
    · rw [hs] at ho; cases ho
    · rw [hs] at ho; cases ho
    · rw [hs] at ho; cases ho
    · rw [hs] at ho; cases ho; rfl
  cases hrr : rng 0 16 with
  | error e =>
    have e1 := (C34_sign_errors (C := C) (A := A) (F := F) rng d [msg] (MAX_SCALAR_LEN * 2) fuel).1 e hrr
    rw [signAsn1, e1] at ho'
    cases ho'
  | ok random =>
    have hr16 : random.length = 16 := hr 0 16 random hrr
    have hlt := h.ok.const.ord.lt
    rcases C34_sign h hA hF1 d h2 [msg] hml rng random hrr hr16 (2 * (N * 8)) (Nat.le_refl _) fuel hf with
      ⟨j, r, s, -, -, hS, e⟩ | ⟨j, -, -, e⟩ | ⟨-, e⟩
    · have ha := C07_sign_asn1 h hA hF1 d h2 [msg] hml rng random hrr hr16 fuel hf _ _ (toBE_length _ _) e (List.replicate 128 0#8)
      rw [ho'] at ha
      have hs : s < D.n := hS.2.1
      have hrn : r < D.n := by
        obtain ⟨x, y, -, rfl⟩ := hS.1
        exact Nat.mod_lt _ (Fact.out : D.n.Prime).pos
      have hp : ∀ v, v < D.n → beNat (toBE (N * 8) v) = v := fun v hv => by
        rw [beNat_toBE, pow256', Nat.mod_eq_of_lt]
        rw [show 8 * (N * 8) = 64 * N by omega]; omega
      rw [hp r hrn, hp s hs] at ha
      split at ha
      · cases ha
        refine ⟨r, s, rfl, fun hs0 => ?_⟩
        obtain ⟨pub, K, e1, e2, e3⟩ := C07_sign_verifies h hA hF1 d h1 h2 [msg] hml rng random hrr hr16 fuel hf _ _ (toBE_length _ _) e
          (by rw [hp s hs]; exact hs0) _ _ ho'
        obtain ⟨x, y, hat, e4⟩ := C33_public_key h hA d h1 h2
        rw [e1] at e4
        cases e4
        refine ⟨_, x, y, hat, rfl, ?_⟩
        rw [e2, bind_ok, e3]; rfl
      · cases ha
    · rw [((C07_sign_asn1_errors h rng d [msg] fuel (List.replicate 128 0#8)).2 _ e)] at ho'
      cases ho'
    · rw [((C07_sign_asn1_errors h rng d [msg] fuel (List.replicate 128 0#8)).1 e)] at ho'
      cases ho'
end

open Verif.Spec.Nist Verif.Spec.Der in
/-- **C54** A P-256 signer returns the DER of two numbers; unless the second is 0 it is a valid signature, in the sense of the
scheme the signer names, under the public key that belongs to the private key. -/
theorem C54_sign_p256 {E : Env} (hE : EnvOk E) (hf : 64 * E.fuel < 2 ^ 48) (rng : RandomSource) (hr : rng.Fills) (d : Ec.Scalar 4)
    (h1 : 1 ≤ d.toNat) (h2 : d.toNat < p256.n) (msg out : Bytes) (hm : 64 + msg.length < 2 ^ 61)
    (ho : Signer.sign E rng msg (.p256 d) = some (.ok out)) :
    ∃ r s x y, out = seq [natInt r, natInt s] ∧ p256.At (d.toNat • p256.G) x y ∧
      (s ≠ 0 → ∃ a, tls13 (Signer.scheme (.p256 d)) = some a ∧ a.Valid (encodePoint 32 x y) msg out) := by
  obtain ⟨r, s, e, hv⟩ := ecdsa_signed Nist.p256 hE.p256 .sha256 d h1 h2 msg hm rng hr E.fuel hf out ho
  obtain ⟨x, y, hat, -⟩ := C33_public_key Nist.p256 hE.p256 d h1 h2
  refine ⟨r, s, x, y, e, hat, fun hs => ⟨_, rfl, ?_⟩⟩
  obtain ⟨Q, x', y', hat', rfl, hok⟩ := hv hs
  obtain ⟨rfl, rfl⟩ := Ec.at_inj hat hat'
  exact ((p256_implements hE (id := .ECDSA_SHA256) .sha256 _ msg out trivial hm).1).1 hok

open Verif.Spec.Nist Verif.Spec.Der in
/-- **C54** The same for P-384. -/
theorem C54_sign_p384 {E : Env} (hE : EnvOk E) (hf : 64 * E.fuel < 2 ^ 48) (rng : RandomSource) (hr : rng.Fills) (d : Ec.Scalar 6)
    (h1 : 1 ≤ d.toNat) (h2 : d.toNat < p384.n) (msg out : Bytes) (hm : 64 + msg.length < 2 ^ 61)
    (ho : Signer.sign E rng msg (.p384 d) = some (.ok out)) :
    ∃ r s x y, out = seq [natInt r, natInt s] ∧ p384.At (d.toNat • p384.G) x y ∧
      (s ≠ 0 → ∃ a, tls13 (Signer.scheme (.p384 d)) = some a ∧ a.Valid (encodePoint 48 x y) msg out) := by
  obtain ⟨r, s, e, hv⟩ := ecdsa_signed Nist.p384 hE.p384 .sha384 d h1 h2 msg hm rng hr E.fuel hf out ho
  obtain ⟨x, y, hat, -⟩ := C33_public_key Nist.p384 hE.p384 d h1 h2
  refine ⟨r, s, x, y, e, hat, fun hs => ⟨_, rfl, ?_⟩⟩
  obtain ⟨Q, x', y', hat', rfl, hok⟩ := hv hs
  obtain ⟨rfl, rfl⟩ := Ec.at_inj hat hat'
  exact ((p384_implements hE (id := .ECDSA_SHA384) .sha384 _ msg out trivial hm).1).1 hok

/-- **C54** An Ed25519 signer returns a valid signature under the public key of its seed. -/
theorem C54_sign_ed25519 {E : Env} (hE : EnvOk E) (rng : RandomSource) (seed : Bytes) (key : Ed25519.SigningKey)
    (hk : Ed25519.SigningKey.fromBytes E.ed seed = .ok key) (msg out : Bytes) (hm : 64 + msg.length < 2 ^ 61)
    (ho : Signer.sign E rng msg (.ed25519 key) = some (.ok out)) :
    ∃ a, tls13 (Signer.scheme (.ed25519 key)) = some a ∧ a.Valid (Spec.Ed25519.publicKey seed) msg out := by
  refine ⟨_, rfl, ?_⟩
  have hs : Ed25519.sign E.ed key msg = .ok out := by
    rcases hs : Ed25519.sign E.ed key msg with (e | _) | o
    · rw [Signer.sign, hs] at ho; cases ho
    · rw [Signer.sign, hs] at ho; cases ho
    · rw [Signer.sign, hs] at ho; cases ho; rfl
  have hl : seed.length = 32 := by
    by_contra hl
    rw [(C38_signing_key hE.ed seed).1 hl] at hk
    cases hk
  obtain ⟨key', e1, -, -, e2⟩ := (C38_signing_key hE.ed seed).2 hl
  rw [hk] at e1
  cases e1
  exact ((C38_verify hE.ed _ _ e2 out msg (by omega)).1).1 (C38_sign_verifies hE.ed seed key hk msg out hs)

/-! ### RSA -/

section
open Verif.Rsa Verif.PosInt
variable {A : Bignum.Asm}

/-- **C11** The form of a signature: the big-endian number, in as many whole 64-bit words as it needs. -/
theorem C11_pkcs1_form (hA : A.Ok) {k : PrivateKey} (hk : k.Ok A) (F : Hmac.HashFn) (di : Bytes) (sigLen : Nat)
    (message sig : Bytes) (h : signPkcs1 A F di k sigLen message = .ok sig) :
    ∃ s w, s < k.pub.n.value ∧ sig = toBE (8 * w) s ∧ ∀ j, w ≤ j ↔ s < 2 ^ (64 * j) := by
  rw [signPkcs1] at h
  rcases hh : Rsa.hashOf F message with f | hash
  · rw [hh] at h; cases h
  rw [hh, ok_bind', signPkcs1Hash] at h
  split at h
  · cases h
  rcases he : orPanic (Pkcs1.encodePkcs1Sig k.pub.modulusLenBytes di hash) with f | em
  · rw [he] at h; cases h
  rw [he, ok_bind'] at h
  obtain ⟨s, s1, -, -, w, s4, s5, -⟩ := released hA hk h
  exact ⟨s, w, s1, s4, s5⟩

/-- **C11** The same for PSS. -/
theorem C11_pss_form (hA : A.Ok) {k : PrivateKey} (hk : k.Ok A) (F : Hmac.HashFn) (rng : RandomSource) (sigLen : Nat)
    (message sig : Bytes) (h : signPss A F rng k sigLen message = .ok sig) :
    ∃ s w, s < k.pub.n.value ∧ sig = toBE (8 * w) s ∧ ∀ j, w ≤ j ↔ s < 2 ^ (64 * j) := by
  rw [signPss] at h
  split at h
  · cases h
  rcases hh : Rsa.hashOf F message with f | hash
  · rw [hh] at h; cases h
  rw [hh, ok_bind'] at h
  rcases he : Pkcs1.encodePssSig F k.pub.modulusLenBytes rng 0 hash with f | em
  · rw [he] at h; cases h
  rw [he, ok_bind'] at h
  obtain ⟨s, s1, -, -, w, s4, s5, -⟩ := released hA hk h
  exact ⟨s, w, s1, s4, s5⟩

theorem pow256 (k : Nat) : 256 ^ k = 2 ^ (8 * k) := by rw [show (256 : Nat) = 2 ^ 8 from rfl, ← Nat.pow_mul]

/-- What becomes of the signature in the buffer. -/
theorem padded (hA : A.Ok) {k : PrivateKey} (hk : k.Ok A) (hc : Canon k.pub.n) (h8 : k.pub.modulusLenBytes % 8 = 0) {s w : Nat}
    (hs : s < k.pub.n.value) (hw : ∀ j, w ≤ j ↔ s < 2 ^ (64 * j)) {out : Bytes}
    (ho : wholeBuffer k.pub.modulusLenBytes (.ok (toBE (8 * w) s)) = .ok out) :
    ∃ j, 8 * j ≤ k.pub.modulusLenBytes ∧ out = toBE (k.pub.modulusLenBytes - 8 * j) s ++ List.replicate (8 * j) 0#8 ∧
      (j = 0 ↔ 2 ^ (8 * k.pub.modulusLenBytes - 64) ≤ s) ∧ s < 256 ^ (k.pub.modulusLenBytes - 8 * j) := by
  have hu := modulus_words hc h8
  have hmin : 256 ≤ k.pub.modulusLenBytes := hk.pub.min
  have hle : w ≤ k.pub.n.used := (hw _).2 (Nat.lt_trans hs (value_lt hc.inv))
  have hout : out = toBE (8 * w) s ++ List.replicate (k.pub.modulusLenBytes - (toBE (8 * w) s).length) 0#8 := (Except.ok.inj ho).symm
  rw [toBE_length] at hout
  have h1 := hw (k.pub.n.used - 1)
  have h2 := (hw w).1 (Nat.le_refl _)
  refine ⟨k.pub.n.used - w, by omega, ?_, ?_, ?_⟩
  · rw [hout, show k.pub.modulusLenBytes - 8 * (k.pub.n.used - w) = 8 * w by omega,
      show k.pub.modulusLenBytes - 8 * w = 8 * (k.pub.n.used - w) by omega]
  · rw [show 8 * k.pub.modulusLenBytes - 64 = 64 * (k.pub.n.used - 1) by omega, ← Nat.not_lt, ← h1]
    omega
  · rw [pow256, show 8 * (k.pub.modulusLenBytes - 8 * (k.pub.n.used - w)) = 64 * w by omega]
    exact h2

/-- The public key of an RSA private key, as in a certificate. -/
def rsaPublic (k : PrivateKey) : Bytes := Spec.Rsa.publicKeyDer k.pub.n.value k.pub.e.toNat

theorem wholeBuffer_ok {len : Nat} {r : GR Bytes} {out : Bytes} (h : wholeBuffer len r = .ok out) :
    ∃ sig, r = .ok sig ∧ wholeBuffer len (.ok sig) = .ok out := by
  rcases r with (e | _) | sig
  · cases h
  · cases h
  · exact ⟨sig, rfl, h⟩

theorem rsaPkcs1_signed (hA : A.Ok) {k : PrivateKey} (hk : k.Ok A) (hc : Canon k.pub.n) (h8 : k.pub.modulusLenBytes % 8 = 0)
    {F : Hmac.HashFn} {h : Hash} (hF : IsFn F h) {di : Bytes} (hd : IsDigestInfo h.len di h.arcs) (msg out : Bytes)
    (hm : 64 + msg.length < 2 ^ 61)
    (ho : wholeBuffer k.pub.modulusLenBytes (signPkcs1 A F di k k.pub.modulusLenBytes msg) = .ok out) :
    ∃ s j, s < k.pub.n.value ∧ 8 * j ≤ k.pub.modulusLenBytes ∧
      out = toBE (k.pub.modulusLenBytes - 8 * j) s ++ List.replicate (8 * j) 0#8 ∧
      (j = 0 ↔ 2 ^ (8 * k.pub.modulusLenBytes - 64) ≤ s) ∧ s < 256 ^ (k.pub.modulusLenBytes - 8 * j) ∧
      Spec.Pkcs1.emsaPkcs1 k.pub.modulusLenBytes (Spec.Pkcs1.digestInfo h.arcs (h.fn msg)) =
        some (toBE k.pub.modulusLenBytes (s ^ k.pub.e.toNat % k.pub.n.value)) := by
  obtain ⟨sig, hsig, ho⟩ := wholeBuffer_ok ho
  obtain ⟨s, w, s1, rfl, s3⟩ := C11_pkcs1_form hA hk F di _ msg sig hsig
  obtain ⟨j, j1, j2, j3, j4⟩ := padded hA hk hc h8 s1 s3 ho
  refine ⟨s, j, s1, j1, j2, j3, j4, ?_⟩
  have hv := (C11_pkcs1_partial hA hk hc h8 F di _ msg _ hsig).1
  obtain ⟨h1, h2⟩ := hF.hashOf msg hm
  rw [verifyPkcs1, h1, ok_bind'] at hv
  have := (((C09_verify_partial hA hk.pub hc h8 hd (h.fn msg) h2 _).1).1 hv).2
  rwa [beNat_toBE, pow256, show 8 * (8 * w) = 64 * w by omega, Nat.mod_eq_of_lt ((s3 w).1 (Nat.le_refl _))] at this

theorem rsaPss_signed (hA : A.Ok) {k : PrivateKey} (hk : k.Ok A) (hc : Canon k.pub.n) (h8 : k.pub.modulusLenBytes % 8 = 0)
    {F : Hmac.HashFn} {h : Hash} (hF : IsFn F h) (rng : RandomSource) (hr : rng.Fills) (msg out : Bytes)
    (hm : 64 + msg.length < 2 ^ 61)
    (ho : wholeBuffer k.pub.modulusLenBytes (signPss A F rng k k.pub.modulusLenBytes msg) = .ok out) :
    ∃ s j, s < k.pub.n.value ∧ 8 * j ≤ k.pub.modulusLenBytes ∧
      out = toBE (k.pub.modulusLenBytes - 8 * j) s ++ List.replicate (8 * j) 0#8 ∧
      (j = 0 ↔ 2 ^ (8 * k.pub.modulusLenBytes - 64) ≤ s) ∧ s < 256 ^ (k.pub.modulusLenBytes - 8 * j) ∧
      ∃ salt, salt.length = h.len ∧ toBE k.pub.modulusLenBytes (s ^ k.pub.e.toNat % k.pub.n.value) =
        Spec.Pkcs1.emsaPss h.fn h.len (8 * k.pub.modulusLenBytes - 1) (h.fn msg) salt := by
  obtain ⟨sig, hsig, ho⟩ := wholeBuffer_ok ho
  obtain ⟨s, w, s1, rfl, s3⟩ := C11_pss_form hA hk F rng _ msg sig hsig
  obtain ⟨j, j1, j2, j3, j4⟩ := padded hA hk hc h8 s1 s3 ho
  refine ⟨s, j, s1, j1, j2, j3, j4, ?_⟩
  obtain ⟨b, l, hF1, hF2⟩ := hF.isHash
  have hv := (C11_pss_partial hA hk hc h8 hF1 rng hr _ msg _ (by omega) hsig).1
  have := (((C10_verify_signature_partial hA hk.pub hc h8 hF1 _ msg (by omega)).1).1 hv).2.2
  rwa [beNat_toBE, pow256, show 8 * (8 * w) = 64 * w by omega, Nat.mod_eq_of_lt ((s3 w).1 (Nat.le_refl _))] at this

/-- **C54** RSA.  For every key of a whole number of 64-bit words and every scheme the signer can have: the buffer that is returned
has the length of the modulus; there is a number `s` whose encoding in that many octets is a valid signature; and that encoding is
what is returned, provided `s` is not so small that its first eight octets are zero.  Partial: `C54_rsa_short` is what happens
otherwise. -/
theorem C54_sign_rsa_partial {E : Env} (hE : EnvOk E) {k : PrivateKey} (hk : k.Ok E.rsa) (hc : Canon k.pub.n)
    (h8 : k.pub.modulusLenBytes % 8 = 0) (rng : RandomSource) (hr : rng.Fills) (scheme : Scheme)
    (hs : Compatible (.rsa k) scheme) (msg out : Bytes) (hm : 64 + msg.length < 2 ^ 61)
    (ho : Signer.sign E rng msg (.rsa k scheme) = some (.ok out)) :
    out.length = k.pub.modulusLenBytes ∧
    ∃ a s, tls13 scheme = some a ∧ a.Valid (rsaPublic k) msg (toBE k.pub.modulusLenBytes s) ∧
      (2 ^ (8 * k.pub.modulusLenBytes - 64) ≤ s → out = toBE k.pub.modulusLenBytes s) ∧
      (s < 2 ^ (8 * k.pub.modulusLenBytes - 64) → ∃ j, 0 < j ∧ 8 * j ≤ k.pub.modulusLenBytes ∧
        out = toBE (k.pub.modulusLenBytes - 8 * j) s ++ List.replicate (8 * j) 0#8) := by
  have hoct := octets_len hk.pub
  have hn : ∀ s, s < k.pub.n.value → beNat (toBE k.pub.modulusLenBytes s) = s := fun s hs => by
    rw [beNat_toBE, Nat.mod_eq_of_lt (Nat.lt_trans hs hoct.2)]
  suffices H : ∃ a s j, tls13 scheme = some a ∧ a.Valid (rsaPublic k) msg (toBE k.pub.modulusLenBytes s) ∧
      8 * j ≤ k.pub.modulusLenBytes ∧ out = toBE (k.pub.modulusLenBytes - 8 * j) s ++ List.replicate (8 * j) 0#8 ∧
      (j = 0 ↔ 2 ^ (8 * k.pub.modulusLenBytes - 64) ≤ s) by
    obtain ⟨a, s, j, ha, hv, h1, h2, h3⟩ := H
    refine ⟨by rw [h2, List.length_append, toBE_length, List.length_replicate]; omega, a, s, ha, hv, fun h4 => ?_, fun h4 => ?_⟩
    · obtain rfl := h3.2 h4
      simpa using h2
    · exact ⟨j, by omega, h1, h2⟩
  have pk1 : ∀ {F : Hmac.HashFn} {h : Hash} (_ : IsFn F h) {di : Bytes} (_ : IsDigestInfo h.len di h.arcs),
      wholeBuffer k.pub.modulusLenBytes (signPkcs1 E.rsa F di k k.pub.modulusLenBytes msg) = .ok out → tls13 scheme = some (.rsaPkcs1 h) →
      ∃ a s j, tls13 scheme = some a ∧ a.Valid (rsaPublic k) msg (toBE k.pub.modulusLenBytes s) ∧
      8 * j ≤ k.pub.modulusLenBytes ∧ out = toBE (k.pub.modulusLenBytes - 8 * j) s ++ List.replicate (8 * j) 0#8 ∧
      (j = 0 ↔ 2 ^ (8 * k.pub.modulusLenBytes - 64) ≤ s) :=
    fun {F h} hF {di} hd ho ha => by
      obtain ⟨s, j, s1, s2, s3, s4, -, s5⟩ := rsaPkcs1_signed hE.rsa hk hc h8 hF hd msg out hm ho
      exact ⟨_, s, j, ha, ⟨_, _, _, rfl, hoct, by rw [hn s s1]; exact s1, by rw [hn s s1]; exact s5⟩, s2, s3, s4⟩
  have pss : ∀ {F : Hmac.HashFn} {h : Hash} (_ : IsFn F h),
      wholeBuffer k.pub.modulusLenBytes (signPss E.rsa F rng k k.pub.modulusLenBytes msg) = .ok out → tls13 scheme = some (.rsaPss h) →
      ∃ a s j, tls13 scheme = some a ∧ a.Valid (rsaPublic k) msg (toBE k.pub.modulusLenBytes s) ∧
      8 * j ≤ k.pub.modulusLenBytes ∧ out = toBE (k.pub.modulusLenBytes - 8 * j) s ++ List.replicate (8 * j) 0#8 ∧
      (j = 0 ↔ 2 ^ (8 * k.pub.modulusLenBytes - 64) ≤ s) :=
    fun {F h} hF ho ha => by
      obtain ⟨s, j, s1, s2, s3, s4, -, s5⟩ := rsaPss_signed hE.rsa hk hc h8 hF rng hr msg out hm ho
      exact ⟨_, s, j, ha, ⟨_, _, _, rfl, hoct, by rw [toBE_length], by rw [hn s s1]; exact s1, by rw [hn s s1]; exact s5⟩, s2, s3, s4⟩
  have ho' : rsaSign E.rsa rng k scheme msg = .ok out := Option.some.inj ho
  obtain ⟨a, ha, hf⟩ := hs
  cases scheme <;> cases ha
  · exact pk1 .sha256 .sha256 ho' rfl
  · cases hf
  · exact pk1 .sha384 .sha384 ho' rfl
  · cases hf
  · exact pk1 .sha512 .sha512 ho' rfl
  · exact pss .sha256 ho' rfl
  · exact pss .sha384 ho' rfl
  · exact pss .sha512 ho' rfl
  · cases hf

/-- An RSA signature that is not the shortest is multiplied by a power of 256; this is another number with another `e`-th power. -/
theorem root_unique (hA : A.Ok) {k : PrivateKey} {n e d p q dp dq qInv : Nat} (hk : Conventional A k n e d p q dp dq qInv)
    {x y : Nat} (hx : x < n) (hy : y < n) (h : x ^ e % n = y ^ e % n) : x = y := by
  have hn : n < 2 ^ (64 * 128) := by rw [← hk.holds.pub.n]; exact value_lt_N hk.ok.pub.ctx.inv
  have hpos : 0 < n := by omega
  obtain ⟨em, hem⟩ : ∃ em : Bytes, beNat em = x ^ e % n := ⟨toBE 1024 (x ^ e % n), by
    rw [beNat_toBE, pow256, Nat.mod_eq_of_lt (Nat.lt_trans (Nat.mod_lt _ hpos) hn)]⟩
  rcases fromBytes_cases 128 em with ⟨_, m, m1, m2, m3⟩ | ⟨hb, _⟩
  · obtain ⟨c, -, -, -, -, c5⟩ := C12_private_op_partial hA hk.ok hk.holds hk.valid hk.larger hk.words m2
      (by rw [m3, hem]; exact Nat.mod_lt _ hpos)
    rw [c5 x hx (by rw [m3, hem]), c5 y hy (by rw [m3, hem, h])]
  · exact absurd (by rw [hem]; exact Nat.lt_trans (Nat.mod_lt _ hpos) hn) hb

/-- **C54** The signer does not use the length that the library returns, so a signature whose first eight octets are zero is
returned shifted to the start of the buffer.  With PKCS#1 padding and a conventional key this is never a valid signature: the claim
of C11 does not extend to the signer. -/
theorem C54_rsa_short {E : Env} (hE : EnvOk E) {k : PrivateKey} {n e d p q dp dq qInv : Nat}
    (hk : Conventional E.rsa k n e d p q dp dq qInv) (h8 : k.pub.modulusLenBytes % 8 = 0) (rng : RandomSource) (scheme : Scheme)
    (h : Hash) (hs : tls13 scheme = some (.rsaPkcs1 h)) (msg out : Bytes) (hm : 64 + msg.length < 2 ^ 61)
    (ho : Signer.sign E rng msg (.rsa k scheme) = some (.ok out)) :
    ∃ s, Alg.Valid (rsaPublic k) msg (toBE k.pub.modulusLenBytes s) (.rsaPkcs1 h) ∧
      (Alg.Valid (rsaPublic k) msg out (.rsaPkcs1 h) ↔ 2 ^ (8 * k.pub.modulusLenBytes - 64) ≤ s) := by
  have hoct := octets_len hk.ok.pub
  have hn : ∀ s, s < k.pub.n.value → beNat (toBE k.pub.modulusLenBytes s) = s := fun s hs => by
    rw [beNat_toBE, Nat.mod_eq_of_lt (Nat.lt_trans hs hoct.2)]
  have hval : k.pub.n.value = n := hk.holds.pub.n
  have hexp : k.pub.e.toNat = e := hk.holds.pub.e
  have key : ∀ {F : Hmac.HashFn} (_ : IsFn F h) {di : Bytes} (_ : IsDigestInfo h.len di h.arcs),
      wholeBuffer k.pub.modulusLenBytes (signPkcs1 E.rsa F di k k.pub.modulusLenBytes msg) = .ok out →
      ∃ s, Alg.Valid (rsaPublic k) msg (toBE k.pub.modulusLenBytes s) (.rsaPkcs1 h) ∧
      (Alg.Valid (rsaPublic k) msg out (.rsaPkcs1 h) ↔ 2 ^ (8 * k.pub.modulusLenBytes - 64) ≤ s) := by
    intro F hF di hd ho
    obtain ⟨s, j, s1, s2, s3, s4, s6, s5⟩ := rsaPkcs1_signed hE.rsa hk.ok hk.canonical h8 hF hd msg out hm ho
    have hv : Alg.Valid (rsaPublic k) msg (toBE k.pub.modulusLenBytes s) (.rsaPkcs1 h) :=
      ⟨_, _, _, rfl, hoct, by rw [hn s s1]; exact s1, by rw [hn s s1]; exact s5⟩
    refine ⟨s, hv, ?_⟩
    rw [← s4]
    constructor
    · rintro ⟨n', e', k', v1, v2, v3, v4⟩
      obtain ⟨rfl, rfl⟩ := publicKeyDer_inj v1 (publicLimits_of_ok hk.ok.pub ⟨rfl, rfl⟩)
      have hmin : 256 ≤ k.pub.modulusLenBytes := hk.ok.pub.min
      have hk' : 1 ≤ k' := by
        rcases Nat.eq_zero_or_pos k' with h0 | h0
        · subst h0
          have h4 : k.pub.n.value < 1 := v2.2
          omega
        · exact h0
      have := octets_unique hoct v2 (by omega) hk'
      subst this
      rw [s5] at v4
      have hpos : 0 < k.pub.n.value := by omega
      have v5 := congrArg beNat (Option.some.inj v4)
      rw [hn _ (Nat.mod_lt _ hpos), hn _ (Nat.mod_lt _ hpos), hval, hexp] at v5
      rw [hval] at v3 s1
      have hr := root_unique hE.rsa hk s1 v3 v5
      have hb : beNat out = s * 256 ^ (8 * j) := by
        rw [s3, beNat_append, beNat_toBE, Nat.mod_eq_of_lt s6, beNat_replicate_zero, List.length_replicate, Nat.add_zero]
      rw [hb] at hr
      rcases Nat.eq_zero_or_pos s with h0 | h0
      · exfalso
        subst h0
        have he0 : k.pub.e.toNat ≠ 0 := (publicLimits_of_ok hk.ok.pub ⟨rfl, rfl⟩).e_pos
        rw [Nat.zero_pow (by omega), Nat.zero_mod] at s5
        rw [Spec.Pkcs1.emsaPkcs1] at s5
        split at s5
        · cases s5
        · have h3 := congrArg beNat (Option.some.inj s5)
          rw [beNat_toBE, Nat.zero_mod] at h3
          simp only [List.cons_append, List.nil_append, beNat_cons] at h3
          generalize List.length _ = l at h3
          have hp : 0 < 256 ^ l := Nat.pow_pos (by omega)
          simp at h3
      · rcases Nat.eq_zero_or_pos j with hj | hj
        · exact hj
        · exfalso
          have : 1 < 256 ^ (8 * j) := Nat.one_lt_pow (by omega) (by omega)
          have h5 : s * 1 < s * 256 ^ (8 * j) := Nat.mul_lt_mul_of_pos_left this h0
          omega
    · intro hj
      subst hj
      rw [s3]
      simpa using hv
  have ho' : rsaSign E.rsa rng k scheme msg = .ok out := Option.some.inj ho
  cases scheme <;> cases hs
  · exact key .sha256 .sha256 ho'
  · exact key .sha384 .sha384 ho'
  · exact key .sha512 .sha512 ho'

end

end Verif.Props
