import Verif.Model.Pkix
import Verif.Model.Error

/-!
Model of `graviola/src/high/pkcs8.rs`.
-/
namespace Verif.Pkcs8
open Verif Verif.Asn1

/-- `.map_err(Error::Asn1Error)`. -/
def liftAsn1 {α : Type} : Asn1.R α → GR α
  | .ok v => .ok v
  | .error (.err e) => .error (.err (.Asn1Error e))
  | .error .panic => .error .panic

/-- The match on version and public key, pkcs8.rs:32-36. -/
def versionOk (oak : OneAsymmetricKey) : Bool :=
  match oak.version, oak.publicKey with
  | .Pkcs8v1, none => true
  | .Pkcs8v2, some _ => true
  | _, _ => false

/-- `Key::decode`, pkcs8.rs:24-47.  It calls `parse`, not `from_bytes`. -/
def decode (slice : Bytes) (algorithm : ObjectId) (parameters : Option Any) : GR OneAsymmetricKey := do
  let (oak, _) ← liftAsn1 (oneAsymmetricKeyCodec.parse slice)
  if versionOk oak = false then .error (.err (.KeyFormatError .UnsupportedPkcs8Version))
  else if oak.privateKeyAlgorithm.algorithm ≠ algorithm then .error (.err (.KeyFormatError .MismatchedPkcs8Algorithm))
  else if oak.privateKeyAlgorithm.parameters ≠ parameters then .error (.err (.KeyFormatError .MismatchedPkcs8Parameters))
  else .ok oak

/-- `Key::construct`, pkcs8.rs:54-77. -/
def construct (privateKey : Bytes) (publicKey : Option Bytes) (algorithm : ObjectId) (parameters : Option Any) :
    OneAsymmetricKey where
  version := match publicKey with | some _ => .Pkcs8v2 | none => .Pkcs8v1
  privateKeyAlgorithm := ⟨algorithm, parameters⟩
  privateKey := ⟨privateKey⟩
  publicKey := publicKey.map fun p => ⟨p⟩

/-- `Key::encode`, pkcs8.rs:80-87: the used prefix of the buffer. -/
def encode (k : OneAsymmetricKey) (output : Bytes) : GR Bytes := do
  let (len, out) ← liftAsn1 (oneAsymmetricKeyCodec.encodeInto k output)
  if len ≤ out.length then .ok (out.take len) else .error (.err .WrongLength)

/-- `Key::private_key`, pkcs8.rs:92-94. -/
def privateKey (k : OneAsymmetricKey) : Bytes := k.privateKey.octets
/-- `Key::public_key`, pkcs8.rs:100-102. -/
def publicKey (k : OneAsymmetricKey) : Option Bytes := k.publicKey.map (·.octets)

end Verif.Pkcs8
