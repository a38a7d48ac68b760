import Verif.Props.Ed25519

/-!
C39 for Ed25519: `SubjectPublicKeyInfo` and PKCS#8, with reference routines and examples for C38 and C39.
-/
namespace Verif.Props
open Verif Verif.Ec Verif.Ed25519 Verif.Ed25519Group Verif.Asn1 Verif.Spec.Der
open Verif.Ecdsa (bind_ok lift_encode lift_parse lift_der)

variable {A : Ed25519.Asm}

/-- RFC 8410: the public key in a `SubjectPublicKeyInfo`. -/
def ed25519Spki (pk : Bytes) : Bytes :=
  [0x30#8, 0x2a#8, 0x30#8, 0x05#8, 0x06#8, 0x03#8, 0x2b#8, 0x65#8, 0x70#8, 0x03#8, 0x21#8, 0x00#8] ++ pk

/-- RFC 8410: the private key in PKCS#8, version 1. -/
def ed25519Pkcs8v1 (seed : Bytes) : Bytes :=
  [0x30#8, 0x2e#8, 0x02#8, 0x01#8, 0x00#8, 0x30#8, 0x05#8, 0x06#8, 0x03#8, 0x2b#8, 0x65#8, 0x70#8, 0x04#8, 0x22#8, 0x04#8, 0x20#8]
    ++ seed

/-- RFC 8410: the private and public key in PKCS#8, version 2. -/
def ed25519Pkcs8v2 (seed pk : Bytes) : Bytes :=
  [0x30#8, 0x51#8, 0x02#8, 0x01#8, 0x01#8, 0x30#8, 0x05#8, 0x06#8, 0x03#8, 0x2b#8, 0x65#8, 0x70#8, 0x04#8, 0x22#8, 0x04#8, 0x20#8]
    ++ seed ++ [0x81#8, 0x21#8, 0x00#8] ++ pk

theorem id_ed25519_bytes : id_ed25519.bytes = [0x2b#8, 0x65#8, 0x70#8] := by decide +kernel

theorem spki_der {pk : Bytes} (h : pk.length = 32) :
    Kind.der .subjectPublicKeyInfo ⟨⟨id_ed25519, none⟩, ⟨pk⟩⟩ = ed25519Spki pk := by
  have h1 : (0#8 :: pk).length = 33 := by rw [List.length_cons, h]
  have e1 : tlv 0x03#8 (0#8 :: pk) = [0x03#8, 0x21#8, 0x00#8] ++ pk := by rw [tlv, h1]; rfl
  have e2 : Kind.der .subjectPublicKeyInfo ⟨⟨id_ed25519, none⟩, ⟨pk⟩⟩ =
      seq [seq [tlv 0x06#8 id_ed25519.bytes, []], tlv 0x03#8 (0#8 :: pk)] := rfl
  rw [e2, e1, id_ed25519_bytes, seq]
  have e3 : [seq [tlv 0x06#8 [0x2b#8, 0x65#8, 0x70#8], []], [0x03#8, 0x21#8, 0x00#8] ++ pk].flatten =
      [0x30#8, 0x05#8, 0x06#8, 0x03#8, 0x2b#8, 0x65#8, 0x70#8, 0x03#8, 0x21#8, 0x00#8] ++ pk := by
    simp [seq, tlv, lenOctets]
  rw [e3, tlv, List.length_append, h]
  rfl

theorem octets_der {seed : Bytes} (h : seed.length = 32) : tlv 0x04#8 seed = [0x04#8, 0x20#8] ++ seed := by
  rw [tlv, h]; rfl

theorem v1_der {seed : Bytes} (h : seed.length = 32) :
    pkcs8Der (tlv 0x04#8 seed) none id_ed25519 none = ed25519Pkcs8v1 seed := by
  have h1 : ([0x04#8, 0x20#8] ++ seed).length = 34 := by rw [List.length_append, h]; rfl
  have e1 : tlv 0x04#8 ([0x04#8, 0x20#8] ++ seed) = [0x04#8, 0x22#8, 0x04#8, 0x20#8] ++ seed := by rw [tlv, h1]; rfl
  have e2 : pkcs8Der (tlv 0x04#8 seed) none id_ed25519 none =
      seq [tlv 0x02#8 [0#8], seq [tlv 0x06#8 id_ed25519.bytes, []], tlv 0x04#8 (tlv 0x04#8 seed), []] := rfl
  rw [e2, octets_der h, e1, id_ed25519_bytes, seq]
  have e3 : [tlv 0x02#8 [0#8], seq [tlv 0x06#8 [0x2b#8, 0x65#8, 0x70#8], []], [0x04#8, 0x22#8, 0x04#8, 0x20#8] ++ seed, []].flatten =
      [0x02#8, 0x01#8, 0x00#8, 0x30#8, 0x05#8, 0x06#8, 0x03#8, 0x2b#8, 0x65#8, 0x70#8, 0x04#8, 0x22#8, 0x04#8, 0x20#8] ++ seed := by
    simp [seq, tlv, lenOctets]
  rw [e3, tlv, List.length_append, h]
  rfl

theorem v2_der {seed pk : Bytes} (h : seed.length = 32) (hp : pk.length = 32) :
    pkcs8Der (tlv 0x04#8 seed) (some pk) id_ed25519 none = ed25519Pkcs8v2 seed pk := by
  have h1 : ([0x04#8, 0x20#8] ++ seed).length = 34 := by rw [List.length_append, h]; rfl
  have e1 : tlv 0x04#8 ([0x04#8, 0x20#8] ++ seed) = [0x04#8, 0x22#8, 0x04#8, 0x20#8] ++ seed := by rw [tlv, h1]; rfl
  have h2 : (0#8 :: pk).length = 33 := by rw [List.length_cons, hp]
  have e4 : tlv 0x81#8 (0#8 :: pk) = [0x81#8, 0x21#8, 0x00#8] ++ pk := by rw [tlv, h2]; rfl
  have e2 : pkcs8Der (tlv 0x04#8 seed) (some pk) id_ed25519 none =
      seq [tlv 0x02#8 [1#8], seq [tlv 0x06#8 id_ed25519.bytes, []], tlv 0x04#8 (tlv 0x04#8 seed), tlv 0x81#8 (0#8 :: pk)] := rfl
  rw [e2, octets_der h, e1, e4, id_ed25519_bytes, seq]
  have e3 : [tlv 0x02#8 [1#8], seq [tlv 0x06#8 [0x2b#8, 0x65#8, 0x70#8], []], [0x04#8, 0x22#8, 0x04#8, 0x20#8] ++ seed,
      [0x81#8, 0x21#8, 0x00#8] ++ pk].flatten =
      [0x02#8, 0x01#8, 0x01#8, 0x30#8, 0x05#8, 0x06#8, 0x03#8, 0x2b#8, 0x65#8, 0x70#8, 0x04#8, 0x22#8, 0x04#8, 0x20#8] ++ seed ++
        ([0x81#8, 0x21#8, 0x00#8] ++ pk) := by
    simp [seq, tlv, lenOctets]
  rw [e3, tlv, List.length_append, List.length_append, List.length_append, h, hp]
  simp [ed25519Pkcs8v2, lenOctets]

/-! ### C39: public keys -/

/-- Public key export: the 44 bytes of RFC 8410, or an error if they do not fit. -/
theorem C39_ed25519_spki_export (hA : A.Ok) (pk : Bytes) (key : VerifyingKey) (h : VerifyingKey.fromBytes A pk = .ok key)
    (buf : Bytes) :
    key.toSpkiDer buf = if 44 ≤ buf.length then .ok (ed25519Spki pk) else .error (.err .WrongLength) := by
  obtain ⟨hl, hb, -⟩ := key_of hA h
  have hder := spki_der hl
  have hlen : (ed25519Spki pk).length = 44 := by rw [ed25519Spki, List.length_append, hl]; rfl
  have h32 : (Kind.der .subjectPublicKeyInfo ⟨⟨id_ed25519, none⟩, ⟨pk⟩⟩).length < 2 ^ 32 := by rw [hder, hlen]; decide
  have hn := C03_encoded_len .subjectPublicKeyInfo ⟨⟨id_ed25519, none⟩, ⟨pk⟩⟩ h32
  rw [VerifyingKey.toSpkiDer, hb]
  by_cases hbuf : 44 ≤ buf.length
  · have e := C01_wire_format .subjectPublicKeyInfo ⟨⟨id_ed25519, none⟩, ⟨pk⟩⟩ h32 buf (by rw [hder, hlen]; exact hbuf)
    rw [hder, hlen] at e
    have e : subjectPublicKeyInfoCodec.encodeInto ⟨⟨id_ed25519, none⟩, ⟨pk⟩⟩ buf = _ := e
    rw [e, orWrongLength, bind_ok, if_pos hbuf]
    dsimp only
    rw [if_pos (by rw [List.length_append, hlen]; omega), List.take_left' hlen]
  · have e := C03_encode_exact .subjectPublicKeyInfo ⟨⟨id_ed25519, none⟩, ⟨pk⟩⟩ _ hn h32 buf
    rw [hder, hlen, if_neg hbuf] at e
    have e : subjectPublicKeyInfoCodec.encodeInto ⟨⟨id_ed25519, none⟩, ⟨pk⟩⟩ buf = _ := e
    rw [e, if_neg hbuf]
    rfl

/-- Public key import, exactly: any `SubjectPublicKeyInfo` with the Ed25519 algorithm, whatever its parameters, whose
bits are an importable key. -/
theorem C39_ed25519_spki_import (bytes : Bytes) (key : VerifyingKey) :
    VerifyingKey.fromSpkiDer A bytes = .ok key ↔
      ∃ params pk, bytes = seq [seq [tlv 0x06#8 [0x2b#8, 0x65#8, 0x70#8], Spec.Der.optional Spec.Der.any params], tlv 0x03#8 (0#8 :: pk)] ∧
        bytes.length ≤ 65539 ∧ (∀ p, params = some p → anyValid p) ∧ VerifyingKey.fromBytes A pk = .ok key := by
  have hder : ∀ params pk, Kind.der .subjectPublicKeyInfo ⟨⟨id_ed25519, params⟩, ⟨pk⟩⟩ =
      seq [seq [tlv 0x06#8 [0x2b#8, 0x65#8, 0x70#8], Spec.Der.optional Spec.Der.any params], tlv 0x03#8 (0#8 :: pk)] := by
    intro params pk; rw [← id_ed25519_bytes]; rfl
  rw [VerifyingKey.fromSpkiDer]
  constructor
  · intro h
    rcases lift_parse .subjectPublicKeyInfo bytes with ⟨v, hv, hd, hl, e⟩ | ⟨-, f, e⟩
    · have e : Pkcs8.liftAsn1 (subjectPublicKeyInfoCodec.fromBytes bytes) = .ok v := e
      rw [e, bind_ok] at h
      by_cases ha : v.algorithm.algorithm ≠ id_ed25519
      · rw [if_pos ha] at h; cases h
      · rw [if_neg ha] at h
        obtain ⟨⟨alg, params⟩, ⟨pk⟩⟩ := v
        simp only [ne_eq, Decidable.not_not] at ha
        subst ha
        exact ⟨params, pk, by rw [hd, hder], hl, hv, h⟩
    · have e : Pkcs8.liftAsn1 (subjectPublicKeyInfoCodec.fromBytes bytes) = _ := e
      rw [e] at h; cases h
  · rintro ⟨params, pk, rfl, hl, hv, h⟩
    rw [← hder] at hl ⊢
    have e := lift_der .subjectPublicKeyInfo ⟨⟨id_ed25519, params⟩, ⟨pk⟩⟩ hv hl
    have e : Pkcs8.liftAsn1 (subjectPublicKeyInfoCodec.fromBytes _) = _ := e
    rw [e, bind_ok, if_neg (by simp)]
    exact h

/-- **C39** Exporting a public key and importing it gives the same key. -/
theorem C39_ed25519_spki_round_trip (hA : A.Ok) (pk : Bytes) (key : VerifyingKey) (h : VerifyingKey.fromBytes A pk = .ok key)
    (buf out : Bytes) (ho : key.toSpkiDer buf = .ok out) : VerifyingKey.fromSpkiDer A out = .ok key := by
  have hl := (key_of hA h).1
  rw [C39_ed25519_spki_export hA pk key h] at ho
  by_cases hb : 44 ≤ buf.length
  · rw [if_pos hb] at ho
    injection ho with ho
    refine (C39_ed25519_spki_import out key).2 ⟨none, pk, ?_, ?_, (by intro p hp; cases hp), h⟩
    · rw [← ho, ← spki_der hl, ← id_ed25519_bytes]; rfl
    · rw [← ho, ed25519Spki, List.length_append, hl]; decide
  · rw [if_neg hb] at ho; cases ho

/-- **C39** Another algorithm is refused. -/
theorem C39_ed25519_spki_algorithm (v : SubjectPublicKeyInfo) (hv : Kind.valid .subjectPublicKeyInfo v)
    (hl : (Kind.der .subjectPublicKeyInfo v).length ≤ 65539) (ha : v.algorithm.algorithm ≠ id_ed25519) :
    VerifyingKey.fromSpkiDer A (Kind.der .subjectPublicKeyInfo v) = .error (.err (.KeyFormatError .MismatchedSpkiAlgorithm)) := by
  have e := lift_der .subjectPublicKeyInfo v hv hl
  have e : Pkcs8.liftAsn1 (subjectPublicKeyInfoCodec.fromBytes _) = _ := e
  rw [VerifyingKey.fromSpkiDer, e, bind_ok, if_pos ha]

/-- **C39** RFC 8410 says the parameters must be absent; a NULL there is accepted. -/
theorem C39_ed25519_spki_null_parameters (pk : Bytes) (hl : pk.length = 32) (key : VerifyingKey)
    (h : VerifyingKey.fromBytes A pk = .ok key) :
    VerifyingKey.fromSpkiDer A ([0x30#8, 0x2c#8, 0x30#8, 0x07#8, 0x06#8, 0x03#8, 0x2b#8, 0x65#8, 0x70#8, 0x05#8, 0x00#8,
      0x03#8, 0x21#8, 0x00#8] ++ pk) = .ok key := by
  have h1 : (0#8 :: pk).length = 33 := by rw [List.length_cons, hl]
  refine (C39_ed25519_spki_import _ key).2 ⟨some (.Null .null), pk, ?_, by rw [List.length_append, hl]; decide,
    by intro p hp; cases hp; trivial, h⟩
  have e1 : tlv 0x03#8 (0#8 :: pk) = [0x03#8, 0x21#8, 0x00#8] ++ pk := by rw [tlv, h1]; rfl
  have e3 : [seq [tlv 0x06#8 [0x2b#8, 0x65#8, 0x70#8], Spec.Der.optional Spec.Der.any (some (.Null .null))],
      [0x03#8, 0x21#8, 0x00#8] ++ pk].flatten =
      [0x30#8, 0x07#8, 0x06#8, 0x03#8, 0x2b#8, 0x65#8, 0x70#8, 0x05#8, 0x00#8, 0x03#8, 0x21#8, 0x00#8] ++ pk := by
    simp [seq, tlv, lenOctets, Spec.Der.optional, Spec.Der.any, Spec.Der.null]
  rw [e1, seq, e3, tlv, List.length_append, hl]
  rfl

/-! ### C39: private keys -/

theorem seedOctets_eq {seed : Bytes} (h : seed.length = 32) : seedOctets seed = .ok (tlv 0x04#8 seed) := by
  have hlen : (tlv 0x04#8 seed).length = 34 := by rw [octets_der h, List.length_append, h]; rfl
  have e := lift_encode .octetString ⟨seed⟩ (show (tlv 0x04#8 seed).length < 2 ^ 32 by rw [hlen]; decide) (List.replicate 34 0#8)
  have e : Pkcs8.liftAsn1 (octetStringCodec.encodeInto ⟨seed⟩ (List.replicate 34 0#8)) =
    if (tlv 0x04#8 seed).length ≤ (List.replicate 34 0#8).length then
      .ok ((tlv 0x04#8 seed).length, tlv 0x04#8 seed ++ (List.replicate 34 0#8).drop (tlv 0x04#8 seed).length)
    else .error (.err (.Asn1Error .UnexpectedEof)) := e
  rw [if_pos (by rw [hlen, List.length_replicate])] at e
  rw [seedOctets, e, bind_ok]
  dsimp only
  rw [hlen, show (List.replicate 34 (0#8 : Byte)).drop 34 = [] by simp, List.append_nil, if_pos hlen.symm]

/-- Private key export: the 83 bytes of RFC 8410 with the public key, or an error if they do not fit. -/
theorem C39_ed25519_pkcs8_export (hA : A.Ok) (seed : Bytes) (key : SigningKey) (h : SigningKey.fromBytes A seed = .ok key)
    (buf : Bytes) :
    key.toPkcs8Der buf = if 83 ≤ buf.length then .ok (ed25519Pkcs8v2 seed (Spec.Ed25519.publicKey seed))
      else .error (.err (.Asn1Error .UnexpectedEof)) := by
  obtain ⟨hl, hs, -, -, hk⟩ := sk_of hA h
  have hpl : (Spec.Ed25519.publicKey seed).length = 32 := encode_length _
  have hder := construct_der (tlv 0x04#8 seed) (some (Spec.Ed25519.publicKey seed)) id_ed25519 none
  rw [v2_der hl hpl] at hder
  have hlen : (ed25519Pkcs8v2 seed (Spec.Ed25519.publicKey seed)).length = 83 := by
    simp [ed25519Pkcs8v2, hl, hpl]
  rw [SigningKey.toPkcs8Der, hs, seedOctets_eq hl, bind_ok, SigningKey.publicKey, VerifyingKey.asBytes, hk]
  have e := lift_encode .oneAsymmetricKey (Pkcs8.construct (tlv 0x04#8 seed) (some (Spec.Ed25519.publicKey seed)) id_ed25519 none)
    (by rw [hder, hlen]; decide) buf
  rw [hder, hlen] at e
  have e : Pkcs8.liftAsn1 (oneAsymmetricKeyCodec.encodeInto _ buf) = _ := e
  rw [Pkcs8.encode, e]
  by_cases hb : 83 ≤ buf.length
  · rw [if_pos hb, if_pos hb, bind_ok]
    dsimp only
    rw [if_pos (by rw [List.length_append, hlen]; omega), List.take_left' hlen]
  · rw [if_neg hb, if_neg hb]; rfl

/-- The steps after the PKCS#8 container has been read. -/
theorem fromPkcs8_of (priv : Bytes) (pub : Option Bytes) (rest : Bytes)
    (hl : (pkcs8Der priv pub id_ed25519 none).length ≤ 65539) :
    SigningKey.fromPkcs8Der A (pkcs8Der priv pub id_ed25519 none ++ rest) =
      (Pkcs8.liftAsn1 (octetStringCodec.fromBytes priv) >>= fun pk => SigningKey.fromBytes A pk.octets >>= fun key =>
        checkPublic key pub) := by
  rw [SigningKey.fromPkcs8Der, (C08_decode _ id_ed25519 none _).2 ⟨rest, priv, pub, rfl, hl, (by rintro p hp; cases hp), rfl⟩, bind_ok]
  have e1 : Pkcs8.privateKey (Pkcs8.construct priv pub id_ed25519 none) = priv := rfl
  have e2 : Pkcs8.publicKey (Pkcs8.construct priv pub id_ed25519 none) = pub := by cases pub <;> rfl
  rw [e1, e2]

/-- Private key import, exactly: version 1, or version 2 with the public key that belongs to the seed.  Bytes after the
structure are not looked at. -/
theorem C39_ed25519_pkcs8_import (hA : A.Ok) (bytes : Bytes) (key : SigningKey) :
    SigningKey.fromPkcs8Der A bytes = .ok key ↔
      ∃ seed rest, SigningKey.fromBytes A seed = .ok key ∧
        (bytes = ed25519Pkcs8v1 seed ++ rest ∨ bytes = ed25519Pkcs8v2 seed (Spec.Ed25519.publicKey seed) ++ rest) := by
  constructor
  · intro hok
    cases e : Pkcs8.decode bytes id_ed25519 none with
    | error f => rw [SigningKey.fromPkcs8Der, e] at hok; cases hok
    | ok k =>
      obtain ⟨rest, priv, pub, e1, e2, -, -⟩ := (C08_decode _ _ _ _).1 e
      rw [e1, fromPkcs8_of priv pub rest e2] at hok
      rcases lift_parse .octetString priv with ⟨v, -, hd, -, hp⟩ | ⟨-, f, hp⟩
      · have hp : Pkcs8.liftAsn1 (octetStringCodec.fromBytes priv) = .ok v := hp
        have hd : priv = tlv 0x04#8 v.octets := hd
        rw [hp, bind_ok] at hok
        cases hk : SigningKey.fromBytes A v.octets with
        | error f => rw [hk] at hok; cases hok
        | ok key' =>
          rw [hk, bind_ok] at hok
          obtain ⟨hl, -, -, -, hb⟩ := sk_of hA hk
          cases pub with
          | none =>
            injection hok with hok
            subst hok
            exact ⟨v.octets, rest, hk, .inl (by rw [e1, hd, v1_der hl])⟩
          | some q =>
            rw [checkPublic, SigningKey.publicKey, VerifyingKey.asBytes, hb] at hok
            by_cases hq : q ≠ Spec.Ed25519.publicKey v.octets
            · rw [if_pos hq] at hok; cases hok
            · rw [if_neg hq] at hok
              injection hok with hok
              subst hok
              simp only [ne_eq, Decidable.not_not] at hq
              subst hq
              exact ⟨v.octets, rest, hk, .inr (by rw [e1, hd, v2_der hl (show (Spec.Ed25519.publicKey v.octets).length = 32 from encode_length _)])⟩
      · have hp : Pkcs8.liftAsn1 (octetStringCodec.fromBytes priv) = _ := hp
        rw [hp] at hok; cases hok
  · rintro ⟨seed, rest, hk, h⟩
    obtain ⟨hl, -, -, -, hb⟩ := sk_of hA hk
    have hoct : (tlv 0x04#8 seed).length ≤ 65539 := by rw [octets_der hl, List.length_append, hl]; decide
    have ho : Pkcs8.liftAsn1 (octetStringCodec.fromBytes (tlv 0x04#8 seed)) = .ok ⟨seed⟩ :=
      lift_der .octetString ⟨seed⟩ trivial hoct
    have hpl : (Spec.Ed25519.publicKey seed).length = 32 := encode_length _
    rcases h with rfl | rfl
    · rw [← v1_der hl, fromPkcs8_of _ _ _ (by rw [v1_der hl]; simp [ed25519Pkcs8v1, hl]), ho, bind_ok, hk, bind_ok, checkPublic]
    · rw [← v2_der hl hpl, fromPkcs8_of _ _ _ (by rw [v2_der hl hpl]; simp [ed25519Pkcs8v2, hl, hpl]), ho, bind_ok, hk, bind_ok,
        checkPublic, SigningKey.publicKey, VerifyingKey.asBytes, hb, if_neg (by simp)]

/-- **C39** Exporting a private key and importing it gives the same key. -/
theorem C39_ed25519_pkcs8_round_trip (hA : A.Ok) (seed : Bytes) (key : SigningKey) (h : SigningKey.fromBytes A seed = .ok key)
    (buf out : Bytes) (ho : key.toPkcs8Der buf = .ok out) : SigningKey.fromPkcs8Der A out = .ok key := by
  rw [C39_ed25519_pkcs8_export hA seed key h] at ho
  by_cases hb : 83 ≤ buf.length
  · rw [if_pos hb] at ho
    injection ho with ho
    exact (C39_ed25519_pkcs8_import hA out key).2 ⟨seed, [], h, .inr (by rw [List.append_nil, ho])⟩
  · rw [if_neg hb] at ho; cases ho

/-- **C39** An embedded public key other than the seed's is refused. -/
theorem C39_ed25519_pkcs8_mismatch (hA : A.Ok) (seed pk rest : Bytes) (hs : seed.length = 32) (hp : pk.length = 32)
    (hne : pk ≠ Spec.Ed25519.publicKey seed) :
    SigningKey.fromPkcs8Der A (ed25519Pkcs8v2 seed pk ++ rest) = .error (.err (.KeyFormatError .MismatchedPkcs8PublicKey)) := by
  obtain ⟨key, hk, -, -, -⟩ := (C38_signing_key hA seed).2 hs
  have hb := (sk_of hA hk).2.2.2.2
  have ho : Pkcs8.liftAsn1 (octetStringCodec.fromBytes (tlv 0x04#8 seed)) = .ok ⟨seed⟩ :=
    lift_der .octetString ⟨seed⟩ trivial (by
      show (tlv 0x04#8 seed).length ≤ 65539
      rw [octets_der hs, List.length_append, hs]; decide)
  rw [← v2_der hs hp, fromPkcs8_of _ _ _ (by rw [v2_der hs hp]; simp [ed25519Pkcs8v2, hs, hp]), ho, bind_ok, hk, bind_ok,
    checkPublic, SigningKey.publicKey, VerifyingKey.asBytes, hb, if_pos hne]

/-! ### The hypotheses can be met -/

/-- A point as stored. -/
def edRefPt (Q : Spec.Ed25519.Point) : Pt := ⟨BitVec.ofNat _ Q.1.val, BitVec.ofNat _ Q.2.val⟩

theorem edRefPt_is (Q : Spec.Ed25519.Point) : (edRefPt Q).Is Q := by
  have h1 : Q.1.val < Spec.Ed25519.p := ZMod.val_lt _
  have h2 : Q.2.val < Spec.Ed25519.p := ZMod.val_lt _
  have hp : Spec.Ed25519.p < 2 ^ (64 * 4) := by decide +kernel
  exact ⟨by rw [edRefPt, BitVec.toNat_ofNat, Nat.mod_eq_of_lt (by omega)], by rw [edRefPt, BitVec.toNat_ofNat, Nat.mod_eq_of_lt (by omega)]⟩

open Classical in
/-- Routines that do what the contracts say. -/
noncomputable def edAsm : Ed25519.Asm where
  scalarmulbase n := edRefPt (Spec.Ed25519.mul n.toNat Spec.Ed25519.B)
  scalarmuldouble n P m := edRefPt (Spec.Ed25519.add (Spec.Ed25519.mul n.toNat ((P.x.toNat : Spec.Ed25519.F), (P.y.toNat : Spec.Ed25519.F)))
    (Spec.Ed25519.mul m.toNat Spec.Ed25519.B))
  decode c := if h : ∃ Q, Spec.Ed25519.Decodes c Q then (edRefPt h.choose, true) else (edRefPt Spec.Ed25519.zero, false)
  negP x := BitVec.ofNat _ ((Spec.Ed25519.p - x.toNat) % Spec.Ed25519.p)
  modN x := BitVec.ofNat _ (x.toNat % Spec.Ed25519.L)
  maddN x y c := BitVec.ofNat _ ((x.toNat * y.toNat + c.toNat) % Spec.Ed25519.L)

theorem edAsm_ok : edAsm.Ok where
  scalarmulbase n := edRefPt_is _
  scalarmuldouble n P m Q _ h := by
    have : ((P.x.toNat : Spec.Ed25519.F), (P.y.toNat : Spec.Ed25519.F)) = Q := by
      rw [h.1, h.2, ZMod.natCast_zmod_val, ZMod.natCast_zmod_val]
    simp only [edAsm, this]
    exact edRefPt_is _
  decode_ok c Q h := by
    have hex : ∃ Q, Spec.Ed25519.Decodes c Q := ⟨Q, h⟩
    simp only [edAsm, dif_pos hex]
    refine ⟨trivial, ?_⟩
    rw [Decodes.unique h hex.choose_spec]
    exact edRefPt_is _
  decode_fail c _ h := by
    simp only [edAsm]
    rw [dif_neg (by simpa using h)]
  negP x _ := by
    have hp : Spec.Ed25519.p < 2 ^ (64 * 4) := by decide +kernel
    have := Nat.mod_lt (Spec.Ed25519.p - x.toNat) (show 0 < Spec.Ed25519.p by decide +kernel)
    rw [edAsm, BitVec.toNat_ofNat, Nat.mod_eq_of_lt (by omega)]
  modN x := by
    have hp : Spec.Ed25519.L < 2 ^ (64 * 4) := by decide +kernel
    have := Nat.mod_lt x.toNat (show 0 < Spec.Ed25519.L by decide +kernel)
    rw [edAsm, BitVec.toNat_ofNat, Nat.mod_eq_of_lt (by omega)]
  maddN x y c := by
    have hp : Spec.Ed25519.L < 2 ^ (64 * 4) := by decide +kernel
    have := Nat.mod_lt (x.toNat * y.toNat + c.toNat) (show 0 < Spec.Ed25519.L by decide +kernel)
    rw [edAsm, BitVec.toNat_ofNat, Nat.mod_eq_of_lt (by omega)]

/-- There are keys, they sign, and the signatures verify. -/
example : ∃ key sig, SigningKey.fromBytes edAsm (List.replicate 32 7#8) = .ok key ∧
    Verif.Ed25519.sign edAsm key [0x61#8, 0x62#8] = .ok sig ∧ key.publicKey.verify edAsm sig [0x61#8, 0x62#8] = .ok () := by
  obtain ⟨key, h, -⟩ := (C38_signing_key edAsm_ok (List.replicate 32 7#8)).2 rfl
  have hs := C38_sign edAsm_ok _ key h [0x61#8, 0x62#8]
  rw [if_pos (by decide)] at hs
  exact ⟨key, _, h, hs, C38_sign_verifies edAsm_ok _ key h _ _ hs⟩

/-- The base point is an importable public key, and with it a signature can be rejected. -/
example : ∃ key, VerifyingKey.fromBytes edAsm (Spec.Ed25519.encode Spec.Ed25519.B) = .ok key ∧
    key.verify edAsm (List.replicate 64 0xff#8) [] = .error (.err .BadSignature) := by
  obtain ⟨key, h, -⟩ := (C38_verifying_key edAsm_ok _).2.2 _ ⟨B_on, rfl⟩
  exact ⟨key, h, C38_s_range key _ _ (by decide +kernel)⟩

/-- There are 32-byte strings that no point encodes to: the curve has no point with y = 2^255 - 19 + 1. -/
example : VerifyingKey.fromBytes edAsm (toLE 32 (2 ^ 255 - 18)) = .error (.err .NotOnCurve) := by
  refine (C38_verifying_key edAsm_ok _).2.1 (by decide) ?_
  rintro Q ⟨-, h⟩
  have h1 := congrArg leNat h
  rw [encode_val, leNat_toLE] at h1
  have hy : Q.2.val < Spec.Ed25519.p := ZMod.val_lt _
  have hp : Spec.Ed25519.p = 2 ^ 255 - 19 := rfl
  omega

/-- Export of a key into 83 bytes works. -/
example : ∃ key out, SigningKey.fromBytes edAsm (List.replicate 32 7#8) = .ok key ∧
    key.toPkcs8Der (List.replicate 83 0#8) = .ok out ∧ SigningKey.fromPkcs8Der edAsm out = .ok key := by
  obtain ⟨key, h, -⟩ := (C38_signing_key edAsm_ok (List.replicate 32 7#8)).2 rfl
  have hs := C39_ed25519_pkcs8_export edAsm_ok _ key h (List.replicate 83 0#8)
  rw [if_pos (by decide)] at hs
  exact ⟨key, _, h, hs, C39_ed25519_pkcs8_round_trip edAsm_ok _ key h _ _ hs⟩

end Verif.Props
