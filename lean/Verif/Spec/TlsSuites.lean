import Verif.Spec.Hmac
import Verif.Spec.Sha2
import Verif.Spec.Tls

/-!
What the names of cipher suites mean: RFC 8446, B.4; RFC 5289, 3.2; RFC 7905, 2.
-/
namespace Verif.Spec.TlsSuites
open Verif

/-- How the server proves who it is, in a suite of TLS 1.2. -/
inductive Auth | ecdsa | rsa
deriving DecidableEq

structure Meaning where
  /-- `none` for TLS 1.3, whose suites do not say. -/
  auth : Option Auth
  aead : Bytes → Tls.Aead
  /-- Length of the AEAD key. -/
  keyLen : Nat
  /-- Is the AEAD AES-GCM (for TLS 1.2 with a salt of four bytes and an explicit nonce of eight, RFC 5288, 3)? -/
  isGcm : Bool
  /-- The hash of the transcript and of the key schedule, its block and its output length. -/
  hash : Bytes → Bytes
  block : Nat
  out : Nat
  /-- Records that may be protected under one key.  RFC 8446, 5.5: for AES-GCM 2^24.5; for ChaCha20-Poly1305 the sequence number, of 64 bits, runs
  out first. -/
  records : Nat

def aes128gcmSha256 (a : Option Auth) : Meaning := ⟨a, Tls.aesGcm, 16, true, Sha2.sha256, 64, 32, 23726566⟩
def aes256gcmSha384 (a : Option Auth) : Meaning := ⟨a, Tls.aesGcm, 32, true, Sha2.sha384, 128, 48, 23726566⟩
def chachaSha256 (a : Option Auth) : Meaning := ⟨a, Tls.chachaPoly, 32, false, Sha2.sha256, 64, 32, 2 ^ 64⟩

/-- `23726566` is the integer part of `2^24.5`. -/
example : 23726566 ^ 2 ≤ 2 ^ 49 ∧ 2 ^ 49 < 23726567 ^ 2 := by decide

/-- The suites that RFC 8446, RFC 5289 and RFC 7905 define for ECDHE with SHA-256 or SHA-384. -/
def meaning (name : String) : Option Meaning :=
  if name = "TLS13_AES_128_GCM_SHA256" then some (aes128gcmSha256 none)
  else if name = "TLS13_AES_256_GCM_SHA384" then some (aes256gcmSha384 none)
  else if name = "TLS13_CHACHA20_POLY1305_SHA256" then some (chachaSha256 none)
  else if name = "TLS_ECDHE_ECDSA_WITH_AES_128_GCM_SHA256" then some (aes128gcmSha256 (some .ecdsa))
  else if name = "TLS_ECDHE_ECDSA_WITH_AES_256_GCM_SHA384" then some (aes256gcmSha384 (some .ecdsa))
  else if name = "TLS_ECDHE_ECDSA_WITH_CHACHA20_POLY1305_SHA256" then some (chachaSha256 (some .ecdsa))
  else if name = "TLS_ECDHE_RSA_WITH_AES_128_GCM_SHA256" then some (aes128gcmSha256 (some .rsa))
  else if name = "TLS_ECDHE_RSA_WITH_AES_256_GCM_SHA384" then some (aes256gcmSha384 (some .rsa))
  else if name = "TLS_ECDHE_RSA_WITH_CHACHA20_POLY1305_SHA256" then some (chachaSha256 (some .rsa))
  else none

end Verif.Spec.TlsSuites
