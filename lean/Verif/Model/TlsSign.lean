import Verif.Model.Rsa
import Verif.Model.Ecdsa
import Verif.Model.Ed25519

/-!
Model of `rustls-graviola/src/sign.rs` and `verify.rs`: loading of signing keys, choice of signature scheme, and the table of
verification algorithms.  Private keys are shared through `Arc` in the code; here they are values.
-/
namespace Verif.TlsSign
open Verif

/-- `rustls::SignatureScheme`, by the registry of TLS, section 4.2.3 of RFC 8446; `Unknown` holds the other code points. -/
inductive Scheme
  | RSA_PKCS1_SHA1 | ECDSA_SHA1_Legacy
  | RSA_PKCS1_SHA256 | ECDSA_NISTP256_SHA256 | RSA_PKCS1_SHA384 | ECDSA_NISTP384_SHA384 | RSA_PKCS1_SHA512 | ECDSA_NISTP521_SHA512
  | RSA_PSS_SHA256 | RSA_PSS_SHA384 | RSA_PSS_SHA512 | ED25519 | ED448 | ML_DSA_44 | ML_DSA_65 | ML_DSA_87
  | Unknown (code : BitVec 16)
deriving DecidableEq

/-- `err` is `rustls::Error::General` when signing (without its text) and `InvalidSignature` when verifying. -/
inductive Fault
  | err
  | panic
deriving DecidableEq
abbrev TR (α : Type) := Except Fault α

/-- `.map_err(|_| …)`. -/
def mapErr {α : Type} : GR α → TR α
  | .ok a => .ok a
  | .error (.err _) => .error .err
  | .error .panic => .error .panic

/-- The assembly routines of all algorithms, and a bound for the loop over nonces of ECDSA. -/
structure Env where
  rsa : Bignum.Asm
  p256 : Ec.Asm 4
  p384 : Ec.Asm 6
  ed : Ed25519.Asm
  fuel : Nat

/-! ### sign.rs -/

/-- `dyn SigningKey`: `Rsa`, `EcdsaP256`, `EcdsaP384`, `Ed25519`, sign.rs:75, 167, 217, 267. -/
inductive Key
  | rsa (k : Rsa.PrivateKey)
  | p256 (d : Ec.Scalar 4)
  | p384 (d : Ec.Scalar 6)
  | ed25519 (k : Ed25519.SigningKey)

/-- `if let Ok(key) = … { return … }`: the next attempt follows an error, but not a panic. -/
def tryOr {α β : Type} (r : GR α) (f : α → β) (next : TR β) : TR β :=
  match r with
  | .ok a => .ok (f a)
  | .error .panic => .error .panic
  | .error (.err _) => next

/-- `load_pkcs8`, sign.rs:26-48. -/
def loadPkcs8 (E : Env) (der : Bytes) : TR Key :=
  tryOr (Rsa.signingFromPkcs8 E.rsa der) .rsa <|
  tryOr (Ecdsa.fromPkcs8Der Ecdsa.suiteP256 E.p256 der) .p256 <|
  tryOr (Ecdsa.fromPkcs8Der Ecdsa.suiteP384 E.p384 der) .p384 <|
  tryOr (Ed25519.SigningKey.fromPkcs8Der E.ed der) .ed25519 <|
  .error .err

/-- `load_pkcs1`, sign.rs:50-57. -/
def loadPkcs1 (E : Env) (der : Bytes) : TR Key := do
  let rsa ← mapErr (Rsa.signingFromPkcs1 E.rsa der)
  return .rsa rsa

/-- `load_sec1`, sign.rs:59-73. -/
def loadSec1 (E : Env) (der : Bytes) : TR Key :=
  tryOr (Ecdsa.fromSec1Der Ecdsa.suiteP256 E.p256 der) .p256 <|
  tryOr (Ecdsa.fromSec1Der Ecdsa.suiteP384 E.p384 der) .p384 <|
  .error .err

/-- `pki_types::PrivateKeyDer`; the enumeration is not exhaustive. -/
inductive KeyDer
  | Pkcs8 (der : Bytes)
  | Pkcs1 (der : Bytes)
  | Sec1 (der : Bytes)
  | other

/-- `Provider::load_private_key`, sign.rs:13-23. -/
def loadPrivateKey (E : Env) : KeyDer → TR Key
  | .Pkcs8 p8 => loadPkcs8 E p8
  | .Pkcs1 p1 => loadPkcs1 E p1
  | .Sec1 sec1 => loadSec1 E sec1
  | .other => .error .err

/-- `dyn Signer`: `RsaSigner`, sign.rs:139-142, and the other keys themselves. -/
inductive Signer
  | rsa (k : Rsa.PrivateKey) (scheme : Scheme)
  | p256 (d : Ec.Scalar 4)
  | p384 (d : Ec.Scalar 6)
  | ed25519 (k : Ed25519.SigningKey)

/-- `choose_scheme`, sign.rs:78-115 for RSA, :170-179, :220-229, :270-279 for the others. -/
def Key.chooseScheme (schemes : List Scheme) : Key → Option Signer
  | .rsa k =>
    if schemes.contains .RSA_PSS_SHA512 then some (.rsa k .RSA_PSS_SHA512)
    else if schemes.contains .RSA_PSS_SHA384 then some (.rsa k .RSA_PSS_SHA384)
    else if schemes.contains .RSA_PSS_SHA256 then some (.rsa k .RSA_PSS_SHA256)
    else if schemes.contains .RSA_PKCS1_SHA512 then some (.rsa k .RSA_PKCS1_SHA512)
    else if schemes.contains .RSA_PKCS1_SHA384 then some (.rsa k .RSA_PKCS1_SHA384)
    else if schemes.contains .RSA_PKCS1_SHA256 then some (.rsa k .RSA_PKCS1_SHA256)
    else none
  | .p256 d => if schemes.contains .ECDSA_NISTP256_SHA256 then some (.p256 d) else none
  | .p384 d => if schemes.contains .ECDSA_NISTP384_SHA384 then some (.p384 d) else none
  | .ed25519 k => if schemes.contains .ED25519 then some (.ed25519 k) else none

/-- `scheme`, sign.rs:161-163, 211-213, 261-263, 300-302. -/
def Signer.scheme : Signer → Scheme
  | .rsa _ s => s
  | .p256 _ => .ECDSA_NISTP256_SHA256
  | .p384 _ => .ECDSA_NISTP384_SHA384
  | .ed25519 _ => .ED25519

/-- The result of `RsaSigner::sign`: the whole buffer of zeros, into the start of which the signature was written.  The slice that
the signing function returns is dropped. -/
def wholeBuffer (len : Nat) (r : GR Bytes) : TR Bytes := (mapErr r).map fun s => s ++ List.replicate (len - s.length) 0#8

/-- `RsaSigner::sign`, sign.rs:145-159. -/
def rsaSign (A : Bignum.Asm) (rng : RandomSource) (k : Rsa.PrivateKey) (scheme : Scheme) (message : Bytes) : TR Bytes :=
  let len := k.pub.modulusLenBytes
  match scheme with
  | .RSA_PKCS1_SHA256 => wholeBuffer len (Rsa.signPkcs1 A Hmac.sha256 Pkcs1.DIGESTINFO_SHA256 k len message)
  | .RSA_PKCS1_SHA384 => wholeBuffer len (Rsa.signPkcs1 A Hmac.sha384 Pkcs1.DIGESTINFO_SHA384 k len message)
  | .RSA_PKCS1_SHA512 => wholeBuffer len (Rsa.signPkcs1 A Hmac.sha512 Pkcs1.DIGESTINFO_SHA512 k len message)
  | .RSA_PSS_SHA256 => wholeBuffer len (Rsa.signPss A Hmac.sha256 rng k len message)
  | .RSA_PSS_SHA384 => wholeBuffer len (Rsa.signPss A Hmac.sha384 rng k len message)
  | .RSA_PSS_SHA512 => wholeBuffer len (Rsa.signPss A Hmac.sha512 rng k len message)
  | _ => .error .panic

/-- `sign`, sign.rs:145-159, 192-201 with a buffer of 128 bytes, 242-251 the same, 296-298.  `none`: no nonce within the bound. -/
def Signer.sign (E : Env) (rng : RandomSource) (message : Bytes) : Signer → Option (TR Bytes)
  | .rsa k scheme => some (rsaSign E.rsa rng k scheme message)
  | .p256 d => (Ecdsa.signAsn1 Ec.curveP256 E.p256 Hmac.sha256 E.fuel rng d [message] (List.replicate 128 0#8)).map mapErr
  | .p384 d => (Ecdsa.signAsn1 Ec.curveP384 E.p384 Hmac.sha384 E.fuel rng d [message] (List.replicate 128 0#8)).map mapErr
  | .ed25519 k => some (mapErr (Ed25519.sign E.ed k message))

/-- `rustls::SignatureAlgorithm`, those that occur. -/
inductive Algorithm
  | RSA | ECDSA | ED25519
deriving DecidableEq

/-- `algorithm`, sign.rs:117-119, 181-183, 231-233, 281-283. -/
def Key.algorithm : Key → Algorithm
  | .rsa _ => .RSA
  | .p256 _ | .p384 _ => .ECDSA
  | .ed25519 _ => .ED25519

/-- `.ok()?`: an error becomes `none`, a panic stays (the outer `none`). -/
def okOrNone {α : Type} : GR α → Option (Option α)
  | .ok a => some (some a)
  | .error .panic => none
  | .error (.err _) => some none

/-- `public_key`, sign.rs:121-130, 185-190, 235-240, 285-292; the outer `none` is a panic. -/
def Key.publicKey (E : Env) : Key → Option (Option Bytes)
  | .rsa k => okOrNone (Rsa.verifyingToSpki k.pub (List.replicate (k.pub.modulusLenBytes + 64) 0#8))
  | .p256 d => okOrNone (Ecdsa.toSpkiDer Ecdsa.suiteP256 E.p256 d (List.replicate 128 0#8))
  | .p384 d => okOrNone (Ecdsa.toSpkiDer Ecdsa.suiteP384 E.p384 d (List.replicate 128 0#8))
  | .ed25519 k => okOrNone (k.publicKey.toSpkiDer (List.replicate 64 0#8))

/-! ### verify.rs -/

/-- The constants of `pki_types::alg_id` that are used; each is a DER encoding of the algorithm it names. -/
inductive AlgId
  | RSA_ENCRYPTION | ECDSA_P256 | ECDSA_P384 | ED25519
  | RSA_PKCS1_SHA256 | RSA_PKCS1_SHA384 | RSA_PKCS1_SHA512
  | RSA_PSS_SHA256 | RSA_PSS_SHA384 | RSA_PSS_SHA512
  | ECDSA_SHA256 | ECDSA_SHA384 | ECDSA_SHA512
deriving DecidableEq

/-- `dyn SignatureVerificationAlgorithm`: `public_key_alg_id`, `signature_alg_id` and `verify_signature`, whose arguments are public
key, message, signature. -/
structure Verifier where
  publicKeyAlg : AlgId
  signatureAlg : AlgId
  verify : (publicKey message signature : Bytes) → TR Unit

/-- `RsaVerify`, verify.rs:106-132. -/
def rsaVerify (E : Env) (id : AlgId) (verify : Rsa.PublicKey → (signature message : Bytes) → GR Unit) : Verifier where
  publicKeyAlg := .RSA_ENCRYPTION
  signatureAlg := id
  verify publicKey message signature := mapErr do
    let pk ← Rsa.verifyingFromPkcs1 E.rsa publicKey
    verify pk signature message

/-- `EcdsaP256Verify` with its three functions, verify.rs:44-57, 134-162. -/
def p256Verify (E : Env) (id : AlgId) (F : Hmac.HashFn) : Verifier where
  publicKeyAlg := .ECDSA_P256
  signatureAlg := id
  verify publicKey message signature := mapErr do
    let pk ← Ec.PublicKey.fromX962Uncompressed Ec.curveP256 E.p256 publicKey
    Ecdsa.verifyAsn1 Ec.curveP256 E.p256 F pk [message] signature

/-- `EcdsaP384Verify` with its three functions, verify.rs:59-72, 164-192. -/
def p384Verify (E : Env) (id : AlgId) (F : Hmac.HashFn) : Verifier where
  publicKeyAlg := .ECDSA_P384
  signatureAlg := id
  verify publicKey message signature := mapErr do
    let pk ← Ec.PublicKey.fromX962Uncompressed Ec.curveP384 E.p384 publicKey
    Ecdsa.verifyAsn1 Ec.curveP384 E.p384 F pk [message] signature

/-- `Ed25519Verify`, verify.rs:194-216. -/
def ed25519Verify (E : Env) : Verifier where
  publicKeyAlg := .ED25519
  signatureAlg := .ED25519
  verify publicKey message signature := mapErr do
    let pk ← Ed25519.VerifyingKey.fromBytes E.ed publicKey
    pk.verify E.ed signature message

section
variable (E : Env)
/-- The statics, verify.rs:44-104. -/
def ECDSA_P256_SHA256 := p256Verify E .ECDSA_SHA256 Hmac.sha256
def ECDSA_P256_SHA384 := p256Verify E .ECDSA_SHA384 Hmac.sha384
def ECDSA_P256_SHA512 := p256Verify E .ECDSA_SHA512 Hmac.sha512
def ECDSA_P384_SHA256 := p384Verify E .ECDSA_SHA256 Hmac.sha256
def ECDSA_P384_SHA384 := p384Verify E .ECDSA_SHA384 Hmac.sha384
def ECDSA_P384_SHA512 := p384Verify E .ECDSA_SHA512 Hmac.sha512
def RSA_PSS_SHA256 := rsaVerify E .RSA_PSS_SHA256 (Rsa.verifyPss E.rsa Hmac.sha256)
def RSA_PSS_SHA384 := rsaVerify E .RSA_PSS_SHA384 (Rsa.verifyPss E.rsa Hmac.sha384)
def RSA_PSS_SHA512 := rsaVerify E .RSA_PSS_SHA512 (Rsa.verifyPss E.rsa Hmac.sha512)
def RSA_PKCS1_SHA256 := rsaVerify E .RSA_PKCS1_SHA256 (Rsa.verifyPkcs1 E.rsa Hmac.sha256 Pkcs1.DIGESTINFO_SHA256)
def RSA_PKCS1_SHA384 := rsaVerify E .RSA_PKCS1_SHA384 (Rsa.verifyPkcs1 E.rsa Hmac.sha384 Pkcs1.DIGESTINFO_SHA384)
def RSA_PKCS1_SHA512 := rsaVerify E .RSA_PKCS1_SHA512 (Rsa.verifyPkcs1 E.rsa Hmac.sha512 Pkcs1.DIGESTINFO_SHA512)

/-- `ALGORITHMS.all`, verify.rs:10-24. -/
def allAlgorithms : List Verifier :=
  [ECDSA_P256_SHA512 E, ECDSA_P256_SHA384 E, ECDSA_P256_SHA256 E, ECDSA_P384_SHA512 E, ECDSA_P384_SHA384 E, ECDSA_P384_SHA256 E,
    ed25519Verify E, RSA_PSS_SHA512 E, RSA_PSS_SHA384 E, RSA_PSS_SHA256 E, RSA_PKCS1_SHA512 E, RSA_PKCS1_SHA384 E, RSA_PKCS1_SHA256 E]

/-- `ALGORITHMS.mapping`, verify.rs:25-41. -/
def mapping : List (Scheme × List Verifier) :=
  [(.ECDSA_NISTP256_SHA256, [ECDSA_P256_SHA256 E, ECDSA_P384_SHA256 E]),
    (.ECDSA_NISTP384_SHA384, [ECDSA_P384_SHA384 E, ECDSA_P256_SHA384 E]),
    (.ED25519, [ed25519Verify E]),
    (.RSA_PSS_SHA512, [RSA_PSS_SHA512 E]),
    (.RSA_PSS_SHA384, [RSA_PSS_SHA384 E]),
    (.RSA_PSS_SHA256, [RSA_PSS_SHA256 E]),
    (.RSA_PKCS1_SHA512, [RSA_PKCS1_SHA512 E]),
    (.RSA_PKCS1_SHA384, [RSA_PKCS1_SHA384 E]),
    (.RSA_PKCS1_SHA256, [RSA_PKCS1_SHA256 E])]
end
end Verif.TlsSign
