import Verif.Spec.Der
import Verif.Model.Pkix

/-!
The DER encodings of the supported types, written out from X.690, RFC 8017, RFC 5958, RFC 5915,
RFC 5280 and RFC 3279 with literal tags.  Only the data types of the model are used, none of its
functions.
-/
namespace Verif.Spec.Der
open Verif Verif.Asn1

def seq (items : List Bytes) : Bytes := tlv 0x30#8 items.flatten
def int (i : Integer) : Bytes := tlv 0x02#8 i.twosComplement
def smallInt (n : Nat) : Bytes := tlv 0x02#8 [BitVec.ofNat 8 n]
def octets (o : OctetString) : Bytes := tlv 0x04#8 o.octets
/-- A BIT STRING of whole octets: zero unused bits. -/
def bits (b : BitString) : Bytes := tlv 0x03#8 (0#8 :: b.octets)
def oid (o : ObjectId) : Bytes := tlv 0x06#8 o.bytes
def null : Bytes := tlv 0x05#8 []

def any : Any → Bytes
  | .Null _ => null
  | .Integer i => int i
  | .OctetString o => octets o
  | .BitString b => bits b
  | .ObjectId o => oid o

def optional {T : Type} (f : T → Bytes) : Option T → Bytes
  | none => []
  | some v => f v

def algorithmIdentifier (a : AlgorithmIdentifier) : Bytes :=
  seq [oid a.algorithm, optional any a.parameters]

def version : Version → Bytes
  | .two_prime => smallInt 0
  | .multi => smallInt 1

def pkcs8Version : Pkcs8Version → Bytes
  | .Pkcs8v1 => smallInt 0
  | .Pkcs8v2 => smallInt 1

def ecPrivateKeyVer : EcPrivateKeyVer → Bytes
  | .ecPrivkeyVer1 => smallInt 1

def rsaPublicKey (k : RSAPublicKey) : Bytes := seq [int k.modulus, int k.publicExponent]

def rsaPrivateKey (k : RSAPrivateKey) : Bytes :=
  seq [version k.version, int k.modulus, int k.publicExponent, int k.privateExponent,
    int k.prime1, int k.prime2, int k.exponent1, int k.exponent2, int k.coefficient]

def oneAsymmetricKey (k : OneAsymmetricKey) : Bytes :=
  seq [pkcs8Version k.version, algorithmIdentifier k.privateKeyAlgorithm, octets k.privateKey,
    optional (fun b => tlv 0x81#8 (0#8 :: b.octets)) k.publicKey]

def ecPrivateKey (k : EcPrivateKey) : Bytes :=
  seq [ecPrivateKeyVer k.version, octets k.privateKey,
    optional (fun o => tlv 0xa0#8 (oid o)) k.parameters,
    optional (fun b => tlv 0xa1#8 (bits b)) k.publicKey]

def subjectPublicKeyInfo (k : SubjectPublicKeyInfo) : Bytes :=
  seq [algorithmIdentifier k.algorithm, bits k.subjectPublicKey]

def digestInfo (k : DigestInfo) : Bytes :=
  seq [algorithmIdentifier k.digestAlgorithm, octets k.digest]

def ecdsaSigValue (k : EcdsaSigValue) : Bytes := seq [int k.r, int k.s]

/-- The supported ASN.1 types. -/
inductive Kind
  | null | integer | octetString | bitString | objectId | any
  | version | pkcs8Version | ecPrivateKeyVer
  | rsaPublicKey | rsaPrivateKey | algorithmIdentifier | oneAsymmetricKey | ecPrivateKey
  | subjectPublicKeyInfo | digestInfo | ecdsaSigValue

/-- The values of each type. -/
abbrev Kind.Val : Kind → Type
  | .null => Null
  | .integer => Integer
  | .octetString => OctetString
  | .bitString => BitString
  | .objectId => ObjectId
  | .any => Any
  | .version => Version
  | .pkcs8Version => Pkcs8Version
  | .ecPrivateKeyVer => EcPrivateKeyVer
  | .rsaPublicKey => RSAPublicKey
  | .rsaPrivateKey => RSAPrivateKey
  | .algorithmIdentifier => AlgorithmIdentifier
  | .oneAsymmetricKey => OneAsymmetricKey
  | .ecPrivateKey => EcPrivateKey
  | .subjectPublicKeyInfo => SubjectPublicKeyInfo
  | .digestInfo => DigestInfo
  | .ecdsaSigValue => EcdsaSigValue

/-- The code under test for each type. -/
def Kind.codec : (k : Kind) → Codec k.Val
  | .null => nullCodec
  | .integer => integerCodec
  | .octetString => octetStringCodec
  | .bitString => bitStringCodec
  | .objectId => objectIdCodec
  | .any => anyCodec
  | .version => versionCodec
  | .pkcs8Version => pkcs8VersionCodec
  | .ecPrivateKeyVer => ecPrivateKeyVerCodec
  | .rsaPublicKey => rsaPublicKeyCodec
  | .rsaPrivateKey => rsaPrivateKeyCodec
  | .algorithmIdentifier => algorithmIdentifierCodec
  | .oneAsymmetricKey => oneAsymmetricKeyCodec
  | .ecPrivateKey => ecPrivateKeyCodec
  | .subjectPublicKeyInfo => subjectPublicKeyInfoCodec
  | .digestInfo => digestInfoCodec
  | .ecdsaSigValue => ecdsaSigValueCodec

/-- The DER encoding of a value. -/
def Kind.der : (k : Kind) → k.Val → Bytes
  | .null => fun _ => Der.null
  | .integer => int
  | .octetString => octets
  | .bitString => bits
  | .objectId => oid
  | .any => Der.any
  | .version => Der.version
  | .pkcs8Version => Der.pkcs8Version
  | .ecPrivateKeyVer => Der.ecPrivateKeyVer
  | .rsaPublicKey => Der.rsaPublicKey
  | .rsaPrivateKey => Der.rsaPrivateKey
  | .algorithmIdentifier => Der.algorithmIdentifier
  | .oneAsymmetricKey => Der.oneAsymmetricKey
  | .ecPrivateKey => Der.ecPrivateKey
  | .subjectPublicKeyInfo => Der.subjectPublicKeyInfo
  | .digestInfo => Der.digestInfo
  | .ecdsaSigValue => Der.ecdsaSigValue

/-- An `Integer` as every constructor and the parser make it: shortest contents for its value. -/
def intValid (i : Integer) : Prop := MinimalInt i.twosComplement

def anyValid : Any → Prop
  | .Integer i => intValid i
  | _ => True

def algValid (a : AlgorithmIdentifier) : Prop := ∀ p, a.parameters = some p → anyValid p

/-- Every INTEGER inside the value has shortest contents. -/
def Kind.valid : (k : Kind) → k.Val → Prop
  | .integer => intValid
  | .any => anyValid
  | .rsaPublicKey => fun v => intValid v.modulus ∧ intValid v.publicExponent
  | .rsaPrivateKey => fun v => intValid v.modulus ∧ intValid v.publicExponent ∧
      intValid v.privateExponent ∧ intValid v.prime1 ∧ intValid v.prime2 ∧
      intValid v.exponent1 ∧ intValid v.exponent2 ∧ intValid v.coefficient
  | .algorithmIdentifier => algValid
  | .oneAsymmetricKey => fun v => algValid v.privateKeyAlgorithm
  | .subjectPublicKeyInfo => fun v => algValid v.algorithm
  | .digestInfo => fun v => algValid v.digestAlgorithm
  | .ecdsaSigValue => fun v => intValid v.r ∧ intValid v.s
  | _ => fun _ => True

end Verif.Spec.Der
