import Verif.Model.EcCurves
import Verif.Model.Hmac
import Verif.Model.Pkcs1
import Verif.Model.Pkcs8

/-!
Model of `graviola/src/high/ecdsa.rs` and `graviola/src/high/curve.rs`.

A `SigningKey` is its scalar, a `VerifyingKey` is its `PublicKey`.  Output buffers are passed as their contents; the returned
slice is the result.  Simplified: zeroisation of the copies of the private key is left out.
-/
namespace Verif.Ecdsa

open Verif.Ec Verif.Asn1 Verif.Hmac

variable {N : Nat}

/-- An implementation of `Curve`, curve.rs:130-142, 220-232: the constants of the curve and `oid()`. -/
structure Suite (N : Nat) where
  curve : Ec.Curve N
  oid : ObjectId

/-- `P256`, curve.rs:130-142. -/
def suiteP256 : Suite 4 := ⟨curveP256, id_prime256v1⟩
/-- `P384`, curve.rs:220-232. -/
def suiteP384 : Suite 6 := ⟨curveP384, id_secp384r1⟩

/-- `MAX_SCALAR_LEN`, curve.rs:120. -/
def MAX_SCALAR_LEN : Nat := 48
/-- `MAX_UNCOMPRESSED_PUBLIC_KEY_LEN`, curve.rs:121. -/
def MAX_UNCOMPRESSED_PUBLIC_KEY_LEN : Nat := 97

/-- `PrivateKey::encode`, curve.rs:151-158, 241-248, into a buffer of `outLen` bytes. -/
def encode (outLen : Nat) (d : Scalar N) : GR Bytes :=
  if N * 8 ≤ outLen then .ok (privateAsBytes d) else .error (.err .OutOfRange)

/-- `PrivateKey::public_key_encode_uncompressed`, curve.rs:164-171, 254-261. -/
def publicKeyEncodeUncompressed (C : Ec.Curve N) (A : Ec.Asm N) (outLen : Nat) (d : Scalar N) : GR Bytes :=
  if 1 + N * 8 + N * 8 ≤ outLen then publicKeyUncompressed C A d else .error (.err .OutOfRange)

/-- `Scalar::from_bytes_reduced`, curve.rs:200-202, 290-292: an error is unwrapped. -/
def fromBytesReduced (A : Ec.Asm N) (bytes : Bytes) : GR (Scalar N) :=
  match Scalar.fromBytesReduced A bytes with
  | .ok s => .ok s
  | .error _ => .error .panic

/-- `hash_to_scalar`, ecdsa.rs:333-342. -/
def hashToScalar (A : Ec.Asm N) (hash : Bytes) : GR (Scalar N) :=
  let hash := if hash.length > N * 8 then hash.take (N * 8) else hash
  fromBytesReduced A hash

/-- `H::new()`, one `update` per slice of the message, `finish()`, ecdsa.rs:232-236, 300-304. -/
def hashMessage (F : HashFn) (message : List Bytes) : GR Bytes :=
  match Pkcs1.hashParts F message with
  | some h => .ok h
  | none => .error .panic

/-! ### Signing -/

/-- The attempts of `generate_random_key(&mut rng)` (p256.rs:132-138 / p384.rs:133-139) with an `HmacDrbg` as source, whose
`fill` returns `Ok` or panics. -/
def generateDrbg (A : Ec.Asm N) (F : HashFn) : (attempts : Nat) → Drbg → GR (Scalar N × Drbg)
  | 0, _ => .error (.err .RngFailed)
  | n + 1, s =>
    match fill F s (N * 8) with
    | none => .error .panic
    | some (s, r) =>
      match privateFromBytes A r with
      | .ok p => .ok (p, s)
      | .error _ => generateDrbg A F n s

/-- The loop of `rfc6979_sign_with_random`, ecdsa.rs:251-257: the nonce and `r`; `none` if it has not ended after `fuel`
rounds. -/
def nonceLoop (C : Ec.Curve N) (A : Ec.Asm N) (F : HashFn) : (fuel : Nat) → Drbg → Option (GR (Scalar N × Scalar N))
  | 0, _ => none
  | fuel + 1, s =>
    match generateDrbg A F 64 s with
    | .error e => some (.error e)
    | .ok (k, s) =>
      match publicKeyXScalar C A k with
      | .error e => some (.error e)
      | .ok x => if x.isZero then nonceLoop C A F fuel s else some (.ok (k, x))

/-- `rfc6979_sign_with_random`, ecdsa.rs:232-248: the hash as a scalar and the generator of the nonce. -/
def prepare (A : Ec.Asm N) (F : HashFn) (d : Scalar N) (message : List Bytes) (random : Bytes) : GR (Scalar N × Drbg) := do
  let hash ← hashMessage F message
  let encodedPrivateKey ← encode MAX_SCALAR_LEN d
  let e ← hashToScalar A hash
  match drbgNew F encodedPrivateKey e.asBytes random with
  | none => .error .panic
  | some rng => .ok (e, rng)

/-- `rfc6979_sign_with_random`, ecdsa.rs:222-263; `signatureLen` is the length of the output buffer. -/
def rfc6979SignWithRandom (C : Ec.Curve N) (A : Ec.Asm N) (F : HashFn) (fuel : Nat) (d : Scalar N) (message : List Bytes)
    (random : Bytes) (signatureLen : Nat) : Option (GR Bytes) :=
  if signatureLen < N * 8 * 2 then some (.error (.err .WrongLength))
  else
    match prepare A F d message random with
    | .error err => some (.error err)
    | .ok (e, rng) =>
      match nonceLoop C A F fuel rng with
      | none => none
      | some (.error err) => some (.error err)
      | some (.ok (k, r)) => some (.ok (r.asBytes ++ (rawEcdsaSign C A d k e r).asBytes))

/-- `SigningKey::sign`, ecdsa.rs:167-176; `rng` is `SystemRandom`, used once. -/
def sign (C : Ec.Curve N) (A : Ec.Asm N) (F : HashFn) (fuel : Nat) (rng : RandomSource) (d : Scalar N) (message : List Bytes)
    (signatureLen : Nat) : Option (GR Bytes) :=
  match rng 0 16 with
  | .error e => some (.error (.err e))
  | .ok random => rfc6979SignWithRandom C A F fuel d message random signatureLen

/-- `fixed_to_asn1`, ecdsa.rs:194-208; `LEN_BYTES` is `8 N`. -/
def fixedToAsn1 (N : Nat) (fixedSignature asn1Signature : Bytes) : GR Bytes := do
  if fixedSignature.length < N * 8 then .error .panic
  else
    let r ← Pkcs8.liftAsn1 (Integer.newPositive (MAX_SCALAR_LEN + 1) (fixedSignature.take (N * 8)))
    let s ← Pkcs8.liftAsn1 (Integer.newPositive (MAX_SCALAR_LEN + 1) (fixedSignature.drop (N * 8)))
    let (len, out) ← Pkcs8.liftAsn1 (ecdsaSigValueCodec.encodeInto ⟨r, s⟩ asn1Signature)
    if len ≤ out.length then .ok (out.take len) else .error .panic

/-- `SigningKey::sign_asn1`, ecdsa.rs:182-192. -/
def signAsn1 (C : Ec.Curve N) (A : Ec.Asm N) (F : HashFn) (fuel : Nat) (rng : RandomSource) (d : Scalar N)
    (message : List Bytes) (asn1Signature : Bytes) : Option (GR Bytes) :=
  match sign C A F fuel rng d message (MAX_SCALAR_LEN * 2) with
  | none => none
  | some (.error e) => some (.error e)
  | some (.ok fixedSig) => some (fixedToAsn1 N fixedSig asn1Signature)

/-! ### Verifying -/

/-- `.map_err(|_| Error::BadSignature)`. -/
def badSignature {α : Type} : GR α → GR α
  | .ok v => .ok v
  | .error .panic => .error .panic
  | .error (.err _) => .error (.err .BadSignature)

/-- `VerifyingKey::verify`, ecdsa.rs:288-312. -/
def verify (C : Ec.Curve N) (A : Ec.Asm N) (F : HashFn) (K : PublicKey N) (message : List Bytes) (signature : Bytes) :
    GR Unit := do
  if signature.length ≠ N * 8 * 2 then .error (.err .WrongLength)
  else
    let r ← badSignature (Scalar.fromBytesChecked A (signature.take (N * 8)))
    let s ← badSignature (Scalar.fromBytesChecked A (signature.drop (N * 8)))
    let hash ← hashMessage F message
    let e ← hashToScalar A hash
    K.rawEcdsaVerify C A r s e

/-- `write_fixed`, ecdsa.rs:344-360, into `outLen` bytes. -/
def writeFixed (outLen : Nat) (value : Bytes) : GR Bytes :=
  let value := match value with
    | [] => []
    | b :: rest => if b = 0x00#8 then rest else b :: rest
  if outLen < value.length then .error (.err .BadSignature)
  else .ok (List.replicate (outLen - value.length) 0#8 ++ value)

/-- `VerifyingKey::verify_asn1`, ecdsa.rs:318-330. -/
def verifyAsn1 (C : Ec.Curve N) (A : Ec.Asm N) (F : HashFn) (K : PublicKey N) (message : List Bytes) (signature : Bytes) :
    GR Unit := do
  let sig ← badSignature (Pkcs8.liftAsn1 (ecdsaSigValueCodec.fromBytes signature))
  if sig.r.isNegative || sig.s.isNegative then .error (.err .BadSignature)
  else
    let r ← writeFixed (N * 8) sig.r.twosComplement
    let s ← writeFixed (N * 8) sig.s.twosComplement
    verify C A F K message (r ++ s)

/-! ### Containers -/

/-- `SigningKey::generate`, ecdsa.rs:27-31. -/
def generate (A : Ec.Asm N) (rng : RandomSource) : GR (Scalar N) := do
  let (d, _) ← Ec.generate A rng 0
  .ok d

/-- The check of the parameters in `from_sec1_der`, ecdsa.rs:72-76. -/
def checkSec1Curve (S : Suite N) : Option ObjectId → GR Unit
  | some x => if x = S.oid then .ok () else .error (.err (.KeyFormatError .MismatchedSec1Curve))
  | none => .ok ()

/-- The check of the public key in `from_sec1_der`, ecdsa.rs:80-88. -/
def checkSec1Public (S : Suite N) (A : Ec.Asm N) (privateKey : Scalar N) : Option BitString → GR Unit
  | some expected => do
    let encoded ← publicKeyEncodeUncompressed S.curve A MAX_UNCOMPRESSED_PUBLIC_KEY_LEN privateKey
    if encoded ≠ expected.octets then .error (.err (.KeyFormatError .MismatchedSec1PublicKey)) else .ok ()
  | none => .ok ()

/-- `SigningKey::from_sec1_der`, ecdsa.rs:65-91. -/
def fromSec1Der (S : Suite N) (A : Ec.Asm N) (bytes : Bytes) : GR (Scalar N) := do
  let ecpk ← Pkcs8.liftAsn1 (ecPrivateKeyCodec.fromBytes bytes)
  checkSec1Curve S ecpk.parameters
  let privateKey ← privateFromBytes A ecpk.privateKey.octets
  checkSec1Public S A privateKey ecpk.publicKey
  .ok privateKey

/-- `to_sec1_der_detail`, ecdsa.rs:103-131. -/
def toSec1DerDetail (S : Suite N) (A : Ec.Asm N) (d : Scalar N) (parameters : Option ObjectId) (output : Bytes) : GR Bytes := do
  let encodedPrivateKey ← encode MAX_SCALAR_LEN d
  let encodedPublicKey ← publicKeyEncodeUncompressed S.curve A MAX_UNCOMPRESSED_PUBLIC_KEY_LEN d
  let ecpk : EcPrivateKey :=
    { version := .ecPrivkeyVer1, privateKey := ⟨encodedPrivateKey⟩, parameters := parameters,
      publicKey := some ⟨encodedPublicKey⟩ }
  let (used, out) ← Pkcs8.liftAsn1 (ecPrivateKeyCodec.encodeInto ecpk output)
  if used ≤ out.length then .ok (out.take used) else .error (.err .WrongLength)

/-- `SigningKey::to_sec1_der`, ecdsa.rs:98-101. -/
def toSec1Der (S : Suite N) (A : Ec.Asm N) (d : Scalar N) (output : Bytes) : GR Bytes :=
  toSec1DerDetail S A d (some S.oid) output

/-- `SigningKey::from_pkcs8_der`, ecdsa.rs:34-42. -/
def fromPkcs8Der (S : Suite N) (A : Ec.Asm N) (bytes : Bytes) : GR (Scalar N) := do
  let k ← Pkcs8.decode bytes id_ecPublicKey (some (.ObjectId S.oid))
  fromSec1Der S A (Pkcs8.privateKey k)

/-- `SigningKey::to_pkcs8_der`, ecdsa.rs:49-62. -/
def toPkcs8Der (S : Suite N) (A : Ec.Asm N) (d : Scalar N) (output : Bytes) : GR Bytes := do
  let sec1 ← toSec1DerDetail S A d none
    (List.replicate (MAX_SCALAR_LEN + MAX_UNCOMPRESSED_PUBLIC_KEY_LEN + 128) 0#8)
  Pkcs8.encode (Pkcs8.construct sec1 none id_ecPublicKey (some (.ObjectId S.oid))) output

/-- `SigningKey::to_spki_der`, ecdsa.rs:138-159. -/
def toSpkiDer (S : Suite N) (A : Ec.Asm N) (d : Scalar N) (output : Bytes) : GR Bytes := do
  let pubKey ← publicKeyEncodeUncompressed S.curve A MAX_UNCOMPRESSED_PUBLIC_KEY_LEN d
  let spki : SubjectPublicKeyInfo := ⟨⟨id_ecPublicKey, some (.ObjectId S.oid)⟩, ⟨pubKey⟩⟩
  let (len, out) ← Pkcs8.liftAsn1 (subjectPublicKeyInfoCodec.encodeInto spki output)
  if len ≤ out.length then .ok (out.take len) else .error .panic

end Verif.Ecdsa
