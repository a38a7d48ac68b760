import Verif.Model.Hmac
import Verif.Model.TlsAead
import Verif.Model.TlsSign

/-!
Model of `rustls-graviola/src/hash.rs`, `hmac.rs` and `suites.rs`: the hashes, HMACs and cipher suites that the provider hands to rustls, and of the
parts of `aead.rs` that make a record protector from a key.  `none` is a panic.
-/
namespace Verif.TlsSuites
open Verif Verif.TlsAead

/-! ### hash.rs -/

/-- `rustls::crypto::hash::HashAlgorithm`, the two of the provider. -/
inductive HashAlgorithm | SHA256 | SHA384
deriving DecidableEq

/-- `impl hash::Hash for Sha256` and `for Sha384`. -/
structure Hash where
  F : Hmac.HashFn
  algorithm : HashAlgorithm
  outputLen : Nat

/-- hash.rs:4-25. -/
def Sha256 : Hash := ⟨Hmac.sha256, .SHA256, 32⟩
/-- hash.rs:47-68. -/
def Sha384 : Hash := ⟨Hmac.sha384, .SHA384, 48⟩

/-- `start`, hash.rs:7-9, 50-52. -/
def Hash.start (h : Hash) : h.F.Ctx := h.F.new
/-- `hash`, hash.rs:11-16, 54-59. -/
def Hash.hash (h : Hash) (data : Bytes) : Option Bytes := (h.F.update h.F.new data).bind h.F.finish
/-- `fork_finish`, hash.rs:30-32, 73-75: a clone is finished, the context stays. -/
def Hash.forkFinish (h : Hash) (c : h.F.Ctx) : Option Bytes := h.F.finish c
/-- `fork`, hash.rs:34-36, 77-79. -/
def Hash.fork (h : Hash) (c : h.F.Ctx) : h.F.Ctx := c
/-- `finish`, hash.rs:38-40, 81-83. -/
def Hash.finish (h : Hash) (c : h.F.Ctx) : Option Bytes := h.F.finish c
/-- `update`, hash.rs:42-44, 85-87. -/
def Hash.update (h : Hash) (c : h.F.Ctx) (data : Bytes) : Option h.F.Ctx := h.F.update c data

/-! ### hmac.rs -/

/-- `impl crypto::hmac::Hmac for Sha256Hmac` and `for Sha384Hmac`. -/
structure HmacAlg where
  F : Hmac.HashFn
  hashOutputLen : Nat
  tagLen : Nat

/-- hmac.rs:5-33 with :69. -/
def Sha256Hmac : HmacAlg := ⟨Hmac.sha256, 32, 32⟩
/-- hmac.rs:36-65 with :70. -/
def Sha384Hmac : HmacAlg := ⟨Hmac.sha384, 48, 48⟩

/-- `with_key`, hmac.rs:8-10, 39-41. -/
def HmacAlg.withKey (h : HmacAlg) (key : Bytes) : Option (Hmac.Hmac h.F) := Hmac.new h.F key
/-- `sign_concat`, hmac.rs:20-28, 51-59. -/
def signConcat {F : Hmac.HashFn} (k : Hmac.Hmac F) (first : Bytes) (middle : List Bytes) (last : Bytes) : Option Bytes := do
  let ctx ← Hmac.update k first
  let ctx ← middle.foldlM Hmac.update ctx
  let ctx ← Hmac.update ctx last
  Hmac.finish ctx

/-! ### aead.rs, the algorithms -/

/-- `aead::Chacha20Poly1305`, aead.rs:10, and `aead::TlsAesGcm`, aead.rs:185. -/
inductive AeadAlg | Chacha20Poly1305 | TlsAesGcm (keyLen : Nat)

/-- `key_len`, aead.rs:27-29, 196-198. -/
def AeadAlg.keyLen : AeadAlg → Nat
  | .Chacha20Poly1305 => 32
  | .TlsAesGcm n => n

/-- `rustls::crypto::cipher::KeyBlockShape`. -/
structure KeyBlockShape where
  encKeyLen : Nat
  fixedIvLen : Nat
  explicitNonceLen : Nat
deriving DecidableEq

/-- `key_block_shape`, aead.rs:55-61, 231-237. -/
def AeadAlg.keyBlockShape : AeadAlg → KeyBlockShape
  | .Chacha20Poly1305 => ⟨32, 12, 0⟩
  | .TlsAesGcm n => ⟨n, 4, 8⟩

/-- `rustls::ConnectionTrafficSecrets`, with the key and the IV. -/
inductive Secrets
  | Aes128Gcm (key iv : Bytes)
  | Aes256Gcm (key iv : Bytes)
  | Chacha20Poly1305 (key iv : Bytes)

/-- `extract_keys` of `Tls13AeadAlgorithm`, aead.rs:31-37, 200-210. -/
def AeadAlg.extractKeys13 : AeadAlg → (key iv : Bytes) → Option Secrets
  | .Chacha20Poly1305, key, iv => some (.Chacha20Poly1305 key iv)
  | .TlsAesGcm n, key, iv => if n = 16 then some (.Aes128Gcm key iv) else if n = 32 then some (.Aes256Gcm key iv) else none

/-- A record protected by what `encrypter` of `Tls13AeadAlgorithm` gives, aead.rs:13-18, 188-190. -/
def AeadAlg.encrypt13 (S : ChaChaPoly.Stream) (w : Bool) : AeadAlg → (key iv : Bytes) → Message → BitVec 64 → Option Message
  | .Chacha20Poly1305, key, iv, m, seq => (chacha S key).bind fun A => chachaTls13Encrypt A iv m seq
  | .TlsAesGcm _, key, iv, m, seq => (gcm w key).bind fun A => gcmTls13Encrypt A iv m seq

/-- A record opened by what `decrypter` of `Tls13AeadAlgorithm` gives, aead.rs:20-25, 192-194. -/
def AeadAlg.decrypt13 (S : ChaChaPoly.Stream) (w : Bool) : AeadAlg → (key iv : Bytes) → Message → BitVec 64 → Option (Except TlsError Message)
  | .Chacha20Poly1305, key, iv, m, seq => (chacha S key).bind fun A => chachaTls13Decrypt A iv m seq
  | .TlsAesGcm _, key, iv, m, seq => (gcm w key).bind fun A => gcmTls13Decrypt A iv m seq

/-- A record protected by what `encrypter` of `Tls12AeadAlgorithm` gives, aead.rs:41-46, 214-222.  `Iv::copy` panics for other lengths. -/
def AeadAlg.encrypt12 (S : ChaChaPoly.Stream) (w : Bool) : AeadAlg → (key iv explicit : Bytes) → Message → BitVec 64 → Option Message
  | .Chacha20Poly1305, key, iv, _, m, seq =>
    if iv.length = 12 then (chacha S key).bind fun A => chachaTls12Encrypt A iv m seq else none
  | .TlsAesGcm _, key, iv, explicit, m, seq => (gcmIv iv explicit).bind fun iv => (gcm w key).bind fun A => gcmTls12Encrypt A iv m seq

/-- A record opened by what `decrypter` of `Tls12AeadAlgorithm` gives, aead.rs:48-53, 224-229. -/
def AeadAlg.decrypt12 (S : ChaChaPoly.Stream) (w : Bool) : AeadAlg → (key iv : Bytes) → Message → BitVec 64 → Option (Except TlsError Message)
  | .Chacha20Poly1305, key, iv, m, seq =>
    if iv.length = 12 then (chacha S key).bind fun A => chachaTls12Decrypt A iv m seq else none
  | .TlsAesGcm _, key, iv, m, seq => if iv.length = 4 then (gcm w key).bind fun A => gcmTls12Decrypt A iv m seq else none

/-! ### suites.rs -/

/-- The part of a suite that only `Tls12CipherSuite` has; its `kx` is `ECDHE` for all suites. -/
structure Tls12Part where
  sign : List TlsSign.Scheme

/-- `SupportedCipherSuite`: the variant of `CipherSuite` by name, the fields of `CipherSuiteCommon`, the HMAC under `hkdf_provider` or
`prf_provider`, the AEAD, and for TLS 1.2 the rest. -/
structure Suite where
  suite : String
  hashProvider : Hash
  confidentialityLimit : Nat
  hmac : HmacAlg
  aeadAlg : AeadAlg
  tls12 : Option Tls12Part

open TlsSign.Scheme

/-- suites.rs:146-150. -/
def TLS12_ECDSA_SCHEMES : List TlsSign.Scheme := [ECDSA_NISTP521_SHA512, ECDSA_NISTP384_SHA384, ECDSA_NISTP256_SHA256]
/-- suites.rs:152-159. -/
def TLS12_RSA_SCHEMES : List TlsSign.Scheme :=
  [RSA_PSS_SHA512, RSA_PSS_SHA384, RSA_PSS_SHA256, RSA_PKCS1_SHA512, RSA_PKCS1_SHA384, RSA_PKCS1_SHA256]

/-- suites.rs:24-34. -/
def TLS13_AES_256_GCM_SHA384 : Suite := ⟨"TLS13_AES_256_GCM_SHA384", Sha384, 2 ^ 24, Sha384Hmac, .TlsAesGcm 32, none⟩
/-- suites.rs:37-47. -/
def TLS13_AES_128_GCM_SHA256 : Suite := ⟨"TLS13_AES_128_GCM_SHA256", Sha256, 2 ^ 24, Sha256Hmac, .TlsAesGcm 16, none⟩
/-- suites.rs:50-60. -/
def TLS13_CHACHA20_POLY1305_SHA256 : Suite :=
  ⟨"TLS13_CHACHA20_POLY1305_SHA256", Sha256, 2 ^ 64 - 1, Sha256Hmac, .Chacha20Poly1305, none⟩
/-- suites.rs:63-74. -/
def TLS_ECDHE_RSA_WITH_CHACHA20_POLY1305_SHA256 : Suite :=
  ⟨"TLS_ECDHE_RSA_WITH_CHACHA20_POLY1305_SHA256", Sha256, 2 ^ 64 - 1, Sha256Hmac, .Chacha20Poly1305, some ⟨TLS12_RSA_SCHEMES⟩⟩
/-- suites.rs:77-88. -/
def TLS_ECDHE_ECDSA_WITH_CHACHA20_POLY1305_SHA256 : Suite :=
  ⟨"TLS_ECDHE_ECDSA_WITH_CHACHA20_POLY1305_SHA256", Sha256, 2 ^ 64 - 1, Sha256Hmac, .Chacha20Poly1305, some ⟨TLS12_ECDSA_SCHEMES⟩⟩
/-- suites.rs:91-102. -/
def TLS_ECDHE_RSA_WITH_AES_128_GCM_SHA256 : Suite :=
  ⟨"TLS_ECDHE_RSA_WITH_AES_128_GCM_SHA256", Sha256, 2 ^ 24, Sha256Hmac, .TlsAesGcm 16, some ⟨TLS12_RSA_SCHEMES⟩⟩
/-- suites.rs:105-116. -/
def TLS_ECDHE_RSA_WITH_AES_256_GCM_SHA384 : Suite :=
  ⟨"TLS_ECDHE_RSA_WITH_AES_256_GCM_SHA384", Sha384, 2 ^ 24, Sha384Hmac, .TlsAesGcm 32, some ⟨TLS12_RSA_SCHEMES⟩⟩
/-- suites.rs:119-130. -/
def TLS_ECDHE_ECDSA_WITH_AES_128_GCM_SHA256 : Suite :=
  ⟨"TLS_ECDHE_ECDSA_WITH_AES_128_GCM_SHA256", Sha256, 2 ^ 24, Sha256Hmac, .TlsAesGcm 16, some ⟨TLS12_ECDSA_SCHEMES⟩⟩
/-- suites.rs:133-144. -/
def TLS_ECDHE_ECDSA_WITH_AES_256_GCM_SHA384 : Suite :=
  ⟨"TLS_ECDHE_ECDSA_WITH_AES_256_GCM_SHA384", Sha384, 2 ^ 24, Sha384Hmac, .TlsAesGcm 32, some ⟨TLS12_ECDSA_SCHEMES⟩⟩

/-- suites.rs:11-21. -/
def ALL_CIPHER_SUITES : List Suite := [
  TLS13_AES_128_GCM_SHA256,
  TLS13_AES_256_GCM_SHA384,
  TLS13_CHACHA20_POLY1305_SHA256,
  TLS_ECDHE_ECDSA_WITH_AES_128_GCM_SHA256,
  TLS_ECDHE_ECDSA_WITH_AES_256_GCM_SHA384,
  TLS_ECDHE_ECDSA_WITH_CHACHA20_POLY1305_SHA256,
  TLS_ECDHE_RSA_WITH_AES_128_GCM_SHA256,
  TLS_ECDHE_RSA_WITH_AES_256_GCM_SHA384,
  TLS_ECDHE_RSA_WITH_CHACHA20_POLY1305_SHA256]

/-- rustls, `Tls12CipherSuite::resolve_sig_schemes`: the schemes of the suite that the peer offers, in the order of the suite. -/
def resolveSigSchemes (p : Tls12Part) (offered : List TlsSign.Scheme) : List TlsSign.Scheme := p.sign.filter offered.contains

end Verif.TlsSuites
