import Verif.Model.Asn1

/-!
Model of `graviola/src/high/asn1/pkix.rs` and `oid.rs`: the PKIX structures, as instances of the
`asn1_struct!` / `asn1_enum!` models.
-/
namespace Verif.Asn1

/-- `RSAPublicKey`, pkix.rs:4-9. -/
structure RSAPublicKey where
  modulus : Integer
  publicExponent : Integer
  deriving DecidableEq, Repr

def rsaPublicKeyCodec : Codec RSAPublicKey :=
  structCodec (.cons integerCodec (.last integerCodec))
    (fun (a, b) => ⟨a, b⟩) (fun s => (s.modulus, s.publicExponent))

/-- `Version`, pkix.rs:25-27. -/
inductive Version | two_prime | multi
  deriving DecidableEq, Repr

def versionCodec : Codec Version :=
  enumCodec (fun | .two_prime => 0 | .multi => 1)
    (fun | 0 => some .two_prime | 1 => some .multi | _ => none)

/-- `RSAPrivateKey`, pkix.rs:11-23. -/
structure RSAPrivateKey where
  version : Version
  modulus : Integer
  publicExponent : Integer
  privateExponent : Integer
  prime1 : Integer
  prime2 : Integer
  exponent1 : Integer
  exponent2 : Integer
  coefficient : Integer
  deriving DecidableEq, Repr

def rsaPrivateKeyCodec : Codec RSAPrivateKey :=
  structCodec
    (.cons versionCodec (.cons integerCodec (.cons integerCodec (.cons integerCodec
      (.cons integerCodec (.cons integerCodec (.cons integerCodec (.cons integerCodec
        (.last integerCodec)))))))))
    (fun (v, a, b, c, d, e, f, g, h) => ⟨v, a, b, c, d, e, f, g, h⟩)
    (fun s => (s.version, s.modulus, s.publicExponent, s.privateExponent, s.prime1, s.prime2,
      s.exponent1, s.exponent2, s.coefficient))

/-- `AlgorithmIdentifier`, pkix.rs:44-49. -/
structure AlgorithmIdentifier where
  algorithm : ObjectId
  parameters : Option Any
  deriving DecidableEq, Repr

def algorithmIdentifierCodec : Codec AlgorithmIdentifier :=
  structCodec (.cons objectIdCodec (.last (optionCodec anyCodec)))
    (fun (a, b) => ⟨a, b⟩) (fun s => (s.algorithm, s.parameters))

/-- `Pkcs8Version`, pkix.rs:40-42. -/
inductive Pkcs8Version | Pkcs8v1 | Pkcs8v2
  deriving DecidableEq, Repr

def pkcs8VersionCodec : Codec Pkcs8Version :=
  enumCodec (fun | .Pkcs8v1 => 0 | .Pkcs8v2 => 1)
    (fun | 0 => some .Pkcs8v1 | 1 => some .Pkcs8v2 | _ => none)

/-- `OneAsymmetricKey`, pkix.rs:30-38. -/
structure OneAsymmetricKey where
  version : Pkcs8Version
  privateKeyAlgorithm : AlgorithmIdentifier
  privateKey : OctetString
  publicKey : Option BitString
  deriving DecidableEq, Repr

def oneAsymmetricKeyCodec : Codec OneAsymmetricKey :=
  structCodec
    (.cons pkcs8VersionCodec (.cons algorithmIdentifierCodec (.cons octetStringCodec
      (.last (contextCodec 1#8 false bitStringCodec)))))
    (fun (a, b, c, d) => ⟨a, b, c, d⟩)
    (fun s => (s.version, s.privateKeyAlgorithm, s.privateKey, s.publicKey))

/-- `EcPrivateKeyVer`, pkix.rs:60-62. -/
inductive EcPrivateKeyVer | ecPrivkeyVer1
  deriving DecidableEq, Repr

def ecPrivateKeyVerCodec : Codec EcPrivateKeyVer :=
  enumCodec (fun | .ecPrivkeyVer1 => 1) (fun | 1 => some .ecPrivkeyVer1 | _ => none)

/-- `EcPrivateKey`, pkix.rs:51-58. -/
structure EcPrivateKey where
  version : EcPrivateKeyVer
  privateKey : OctetString
  parameters : Option ObjectId
  publicKey : Option BitString
  deriving DecidableEq, Repr

def ecPrivateKeyCodec : Codec EcPrivateKey :=
  structCodec
    (.cons ecPrivateKeyVerCodec (.cons octetStringCodec
      (.cons (contextCodec 0#8 true objectIdCodec)
        (.last (contextCodec 1#8 true bitStringCodec)))))
    (fun (a, b, c, d) => ⟨a, b, c, d⟩)
    (fun s => (s.version, s.privateKey, s.parameters, s.publicKey))

/-- `SubjectPublicKeyInfo`, pkix.rs:64-69. -/
structure SubjectPublicKeyInfo where
  algorithm : AlgorithmIdentifier
  subjectPublicKey : BitString
  deriving DecidableEq, Repr

def subjectPublicKeyInfoCodec : Codec SubjectPublicKeyInfo :=
  structCodec (.cons algorithmIdentifierCodec (.last bitStringCodec))
    (fun (a, b) => ⟨a, b⟩) (fun s => (s.algorithm, s.subjectPublicKey))

/-- `DigestInfo`, pkix.rs:71-76. -/
structure DigestInfo where
  digestAlgorithm : AlgorithmIdentifier
  digest : OctetString
  deriving DecidableEq, Repr

def digestInfoCodec : Codec DigestInfo :=
  structCodec (.cons algorithmIdentifierCodec (.last octetStringCodec))
    (fun (a, b) => ⟨a, b⟩) (fun s => (s.digestAlgorithm, s.digest))

/-- `EcdsaSigValue`, pkix.rs:78-83. -/
structure EcdsaSigValue where
  r : Integer
  s : Integer
  deriving DecidableEq, Repr

def ecdsaSigValueCodec : Codec EcdsaSigValue :=
  structCodec (.cons integerCodec (.last integerCodec))
    (fun (a, b) => ⟨a, b⟩) (fun s => (s.r, s.s))

/-! ### Object identifiers, oid.rs -/

def oidPath_ecPublicKey : List Nat := [1, 2, 840, 10045, 2, 1]       -- oid.rs:6-10
def oidPath_prime256v1 : List Nat := [1, 2, 840, 10045, 3, 1, 7]     -- oid.rs:12-16
def oidPath_secp384r1 : List Nat := [1, 3, 132, 0, 34]               -- oid.rs:18-22
def oidPath_rsaEncryption : List Nat := [1, 2, 840, 113549, 1, 1, 1] -- oid.rs:24-29
def oidPath_sha256 : List Nat := [2, 16, 840, 1, 101, 3, 4, 2, 1]    -- oid.rs:31-36
def oidPath_sha384 : List Nat := [2, 16, 840, 1, 101, 3, 4, 2, 2]    -- oid.rs:38-43
def oidPath_sha512 : List Nat := [2, 16, 840, 1, 101, 3, 4, 2, 3]    -- oid.rs:45-50
def oidPath_ed25519 : List Nat := [1, 3, 101, 112]                   -- oid.rs:52-56

/-- The static `ObjectId` made by `asn1_oid!` (asn1.rs:126-130) from a path; the paths above
are all short enough (checked by `decide` at each use). -/
def oidOf (path : List Nat) (h : (ObjectId.fromPath path).toOption.isSome := by decide) :
    ObjectId := (ObjectId.fromPath path).toOption.get h

def id_ecPublicKey : ObjectId := oidOf oidPath_ecPublicKey
def id_prime256v1 : ObjectId := oidOf oidPath_prime256v1
def id_secp384r1 : ObjectId := oidOf oidPath_secp384r1
def id_rsaEncryption : ObjectId := oidOf oidPath_rsaEncryption
def id_sha256 : ObjectId := oidOf oidPath_sha256
def id_sha384 : ObjectId := oidOf oidPath_sha384
def id_sha512 : ObjectId := oidOf oidPath_sha512
def id_ed25519 : ObjectId := oidOf oidPath_ed25519

end Verif.Asn1
