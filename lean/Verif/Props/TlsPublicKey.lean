import Verif.Props.TlsSignExamples

/-!
C54: the public key and the algorithm that a signing key reports to rustls.
-/
namespace Verif.Props
open Verif Verif.TlsSign Verif.Spec.TlsScheme Verif.Asn1 Verif.Spec.Der

/-- **C54** The algorithm that a key reports is that of every scheme it can sign with. -/
theorem C54_algorithm (key : Key) (s : Scheme) (a : Alg) (ha : tls13 s = some a) (hf : Fits key a) :
    key.algorithm = match a with
      | .rsaPkcs1 _ | .rsaPss _ => .RSA
      | .ecdsaP256 _ | .ecdsaP384 _ => .ECDSA
      | .ed25519 => .ED25519 := by
  cases key <;> cases a <;> first | rfl | exact absurd hf id

example : Key.algorithm (.p256 5) = .ECDSA ∧ Fits (.p256 5) (.ecdsaP256 .sha256) := ⟨rfl, trivial⟩

section
open Verif.Spec.Nist Verif.Ecdsa Verif.Ec Verif.EcCard

/-- SubjectPublicKeyInfo of a point (RFC 5480): id-ecPublicKey, the curve, the uncompressed point. -/
def ecSpki (curve : Bytes) (octets x y : Nat) : Bytes :=
  seq [seq [tlv 0x06#8 (oidBytes 1 2 [840, 10045, 2, 1]), tlv 0x06#8 curve], tlv 0x03#8 (0#8 :: encodePoint octets x y)]

theorem ecSpki_length {curve : Bytes} {octets x y l : Nat}
    (h : (seq [tlv 0x06#8 (oidBytes 1 2 [840, 10045, 2, 1]), tlv 0x06#8 curve]).length = l) (hl : l + 2 * octets + 10 ≤ 128) :
    (ecSpki curve octets x y).length ≤ 128 := by
  rw [ecSpki]
  generalize seq [tlv 0x06#8 (oidBytes 1 2 [840, 10045, 2, 1]), tlv 0x06#8 curve] = a at h
  have hp := encodePoint_length octets x y
  have h1 := tlv_length_le 0x03#8 (0#8 :: encodePoint octets x y) (by rw [List.length_cons]; omega)
  rw [List.length_cons] at h1
  generalize tlv 0x03#8 (0#8 :: encodePoint octets x y) = t at h1
  have hf : [a, t].flatten.length = a.length + t.length := by simp
  have := tlv_length_le 0x30#8 [a, t].flatten (by omega)
  rw [seq]
  omega

/-- **C54** The public key that a P-256 key reports is always there, and is the SubjectPublicKeyInfo of RFC 5480. -/
theorem C54_public_key_p256 {E : Env} (hE : EnvOk E) (d : Ec.Scalar 4) (h1 : 1 ≤ d.toNat) (h2 : d.toNat < p256.n) :
    ∃ x y, p256.At (d.toNat • p256.G) x y ∧
      Key.publicKey E (.p256 d) = some (some (ecSpki (oidBytes 1 2 [840, 10045, 3, 1, 7]) 32 x y)) := by
  obtain ⟨x, y, h, e⟩ := C39_spki_export .p256 hE.p256 d h1 h2 (List.replicate 128 0#8)
  refine ⟨x, y, h, ?_⟩
  have hl : (ecSpki (oidBytes 1 2 [840, 10045, 3, 1, 7]) 32 x y).length ≤ 128 := ecSpki_length (l := 21) (by decide +kernel) (by decide)
  have e' : toSpkiDer suiteP256 E.p256 d (List.replicate 128 0#8) = if (ecSpki (oidBytes 1 2 [840, 10045, 3, 1, 7]) 32 x y).length ≤
      (List.replicate 128 0#8).length then .ok (ecSpki (oidBytes 1 2 [840, 10045, 3, 1, 7]) 32 x y)
      else .error (.err (.Asn1Error .UnexpectedEof)) := e
  rw [Key.publicKey, e', List.length_replicate, if_pos hl, okOrNone]

/-- **C54** The same for P-384. -/
theorem C54_public_key_p384 {E : Env} (hE : EnvOk E) (d : Ec.Scalar 6) (h1 : 1 ≤ d.toNat) (h2 : d.toNat < p384.n) :
    ∃ x y, p384.At (d.toNat • p384.G) x y ∧
      Key.publicKey E (.p384 d) = some (some (ecSpki (oidBytes 1 3 [132, 0, 34]) 48 x y)) := by
  obtain ⟨x, y, h, e⟩ := C39_spki_export .p384 hE.p384 d h1 h2 (List.replicate 128 0#8)
  refine ⟨x, y, h, ?_⟩
  have hl : (ecSpki (oidBytes 1 3 [132, 0, 34]) 48 x y).length ≤ 128 := ecSpki_length (l := 18) (by decide +kernel) (by decide)
  have e' : toSpkiDer suiteP384 E.p384 d (List.replicate 128 0#8) = if (ecSpki (oidBytes 1 3 [132, 0, 34]) 48 x y).length ≤
      (List.replicate 128 0#8).length then .ok (ecSpki (oidBytes 1 3 [132, 0, 34]) 48 x y)
      else .error (.err (.Asn1Error .UnexpectedEof)) := e
  rw [Key.publicKey, e', List.length_replicate, if_pos hl, okOrNone]

example : ∃ x y, p256.At (5 • p256.G) x y ∧
    Key.publicKey tlsEnv (.p256 5) = some (some (ecSpki (oidBytes 1 2 [840, 10045, 3, 1, 7]) 32 x y)) :=
  C54_public_key_p256 tlsEnv_ok 5 (by decide) (by decide +kernel)

end

/-- **C54** An Ed25519 key reports the SubjectPublicKeyInfo of RFC 8410. -/
theorem C54_public_key_ed25519 {E : Env} (hE : EnvOk E) (seed : Bytes) (key : Ed25519.SigningKey)
    (hk : Ed25519.SigningKey.fromBytes E.ed seed = .ok key) :
    Key.publicKey E (.ed25519 key) = some (some (ed25519Spki (Spec.Ed25519.publicKey seed))) := by
  have hl : seed.length = 32 := by
    by_contra hl
    rw [(C38_signing_key hE.ed seed).1 hl] at hk
    cases hk
  obtain ⟨key', e1, -, -, e2⟩ := (C38_signing_key hE.ed seed).2 hl
  rw [hk] at e1
  cases e1
  rw [Key.publicKey, C39_ed25519_spki_export hE.ed _ _ e2, List.length_replicate, if_pos (by decide), okOrNone]

example : ∃ key, Key.publicKey tlsEnv (.ed25519 key) = some (some (ed25519Spki (Spec.Ed25519.publicKey (List.replicate 32 7#8)))) := by
  obtain ⟨key, e1, -⟩ := (C38_signing_key tlsEnv_ok.ed (List.replicate 32 7#8)).2 (by decide)
  exact ⟨key, C54_public_key_ed25519 tlsEnv_ok _ key e1⟩

/-- **C54** An RSA key reports the SubjectPublicKeyInfo of RFC 3279, when the exponent is below `2^31`: it always fits the buffer.
Partial: exponents from `2^31` on are encoded wrongly (C15). -/
theorem C54_public_key_rsa_partial {E : Env} {k : Rsa.PrivateKey} (hk : k.Ok E.rsa) (he : k.pub.e.toNat < 2 ^ 31) :
    Key.publicKey E (.rsa k) = some (some (Spec.Rsa.spkiDer k.pub.n.value k.pub.e.toNat)) := by
  have hp := publicLimits_of_ok hk.pub (n := k.pub.n.value) (e := k.pub.e.toNat) ⟨rfl, rfl⟩
  have hoct := octets_len hk.pub
  have hmax : k.pub.modulusLenBytes ≤ 1024 := hk.pub.max
  have hl : (Spec.Rsa.spkiDer k.pub.n.value k.pub.e.toNat).length ≤ k.pub.modulusLenBytes + 64 := by
    have h1 := Rsa.natInt_le (v := k.pub.n.value) (k := 8 * k.pub.modulusLenBytes) (l := k.pub.modulusLenBytes)
      (by rw [← pow256]; exact hoct.2) (by omega) (by omega)
    have h2 := Rsa.natInt_le hp.e_lt (l := 4) (by omega) (by omega)
    have hf : [natInt k.pub.n.value, natInt k.pub.e.toNat].flatten.length =
      (natInt k.pub.n.value).length + (natInt k.pub.e.toNat).length := by simp
    have h3 := Rsa.seq_length_le [natInt k.pub.n.value, natInt k.pub.e.toNat] (by omega)
    have h4 : (seq [tlv 0x06#8 (oidBytes 1 2 [840, 113549, 1, 1, 1]), null]).length = 15 := by decide +kernel
    rw [Spec.Rsa.spkiDer, Spec.Rsa.publicKeyDer]
    generalize seq [natInt k.pub.n.value, natInt k.pub.e.toNat] = body at *
    have h5 := tlv_length_le 0x03#8 (0#8 :: body) (by simp; omega)
    rw [List.length_cons] at h5
    generalize tlv 0x03#8 (0#8 :: body) = t at *
    generalize seq [tlv 0x06#8 (oidBytes 1 2 [840, 113549, 1, 1, 1]), null] = b at *
    have hf : [b, t].flatten.length = b.length + t.length := by simp
    have := Rsa.seq_length_le [b, t] (by omega)
    omega
  rw [Key.publicKey, C15_spki_partial hk.pub ⟨rfl, rfl⟩ he, List.length_replicate, if_pos hl, okOrNone]

open Verif.RsaExample Verif.Rsa in
example : ∃ k, loadPrivateKey tlsEnv (.Pkcs1 (Spec.Rsa.privateKeyDer n e d p q dp dq qInv)) = .ok (.rsa k) ∧
    Key.publicKey tlsEnv (.rsa k) = some (some (Spec.Rsa.spkiDer n e)) := by
  obtain ⟨k, k1, hk⟩ := conventional tlsEnv_ok.rsa
  refine ⟨k, ?_, ?_⟩
  · exact ((C54_load_pkcs1 tlsEnv_ok _ _).1).2 ⟨k, rfl, k1⟩
  · have := C54_public_key_rsa_partial (E := tlsEnv) hk.ok (by rw [hk.holds.pub.e]; decide +kernel)
    rwa [hk.holds.pub.n, hk.holds.pub.e] at this

end Verif.Props
