import Verif.Spec.ChaCha20
import Verif.Spec.Poly1305

/-!
ChaCha20-Poly1305 as in RFC 8439, 2.8, and XChaCha20-Poly1305 as in draft-irtf-cfrg-xchacha, 2.
-/
namespace Verif.Spec.ChaChaPoly
open Verif

/-- RFC 8439, 2.6: the one-time Poly1305 key. -/
def polyKey (key nonce : Bytes) : Bytes := (ChaCha20.block key 0#32 nonce).take 32

/-- RFC 8439, 2.8.1: zero bytes up to a multiple of 16. -/
def pad16 (x : Bytes) : Bytes := List.replicate ((16 - x.length % 16) % 16) 0#8

/-- The tag of a ciphertext. -/
def tag (key nonce aad ct : Bytes) : Bytes :=
  Poly1305.mac (polyKey key nonce)
    (aad ++ pad16 aad ++ ct ++ pad16 ct ++ toLE 8 aad.length ++ toLE 8 ct.length)

/-- RFC 8439, 2.8: ciphertext and tag. -/
def sealed (key nonce aad pt : Bytes) : Bytes × Bytes :=
  let ct := ChaCha20.encrypt key 1#32 nonce pt
  (ct, tag key nonce aad ct)

/-- The plaintext of a ciphertext (the cipher is its own inverse). -/
def opened (key nonce ct : Bytes) : Bytes := ChaCha20.encrypt key 1#32 nonce ct

/-- XChaCha20: the subkey and the 12-byte nonce. -/
def subkey (key nonce : Bytes) : Bytes := ChaCha20.hchacha key (nonce.take 16)
def subnonce (nonce : Bytes) : Bytes := List.replicate 4 0#8 ++ nonce.drop 16

end Verif.Spec.ChaChaPoly
