import Verif.Spec.ChaChaPoly
import Verif.Spec.Gcm
import Verif.Spec.Aes

/-!
Record protection as in RFC 8446, 5.2-5.4 (TLS 1.3), RFC 5246, 6.2.3.3 with RFC 5288 and RFC 7905 (TLS 1.2).
-/
namespace Verif.Spec.Tls
open Verif

/-- An AEAD under a fixed key: nonce, additional data and plaintext to ciphertext and tag. -/
abbrev Aead := Bytes → Bytes → Bytes → Bytes × Bytes

def chachaPoly (key : Bytes) : Aead := ChaChaPoly.sealed key
def aesGcm (key : Bytes) : Aead := Gcm.sealed (Aes.cipher key)

/-- RFC 8446, 5.3: the sequence number in network order, padded on the left with zeros to the length of the IV, xor the IV. -/
def nonce (iv : Bytes) (seq : BitVec 64) : Bytes :=
  List.zipWith (· ^^^ ·) iv (List.replicate 4 0#8 ++ toBE 8 seq.toNat)

/-- RFC 8446, 5.2: `opaque_type ‖ legacy_record_version ‖ length`, the length being that of the encrypted record. -/
def aad13 (length : Nat) : Bytes := [23#8, 3#8, 3#8] ++ toBE 2 length

/-- RFC 5246, 6.2.3.3: `seq_num ‖ type ‖ version ‖ length`, the length being that of the plaintext. -/
def aad12 (seq : BitVec 64) (typ : Byte) (version : BitVec 16) (length : Nat) : Bytes :=
  toBE 8 seq.toNat ++ [typ] ++ toBE 2 version.toNat ++ toBE 2 length

/-- RFC 8446, 5.2: `b` is the `TLSInnerPlaintext` of some content and its type, which is not zero, with any zero padding. -/
def Inner (b content : Bytes) (typ : Byte) : Prop :=
  typ ≠ 0#8 ∧ ∃ n, b = content ++ [typ] ++ List.replicate n 0#8

/-- The bytes `body` of a TLS 1.3 record carry `inner`. -/
def Record13 (A : Aead) (iv : Bytes) (seq : BitVec 64) (inner body : Bytes) : Prop :=
  body = (A (nonce iv seq) (aad13 (inner.length + 16)) inner).1 ++ (A (nonce iv seq) (aad13 (inner.length + 16)) inner).2

/-- RFC 7905: no explicit nonce, the nonce is made as in TLS 1.3. -/
def Record12Chacha (A : Aead) (iv : Bytes) (seq : BitVec 64) (typ : Byte) (version : BitVec 16) (content body : Bytes) :
    Prop :=
  let aad := aad12 seq typ version content.length
  body = (A (nonce iv seq) aad content).1 ++ (A (nonce iv seq) aad content).2

/-- RFC 5288, 3: a four-byte salt, and eight bytes chosen by the sender at the start of the record. -/
def Record12Gcm (A : Aead) (salt : Bytes) (seq : BitVec 64) (typ : Byte) (version : BitVec 16) (content body : Bytes) : Prop :=
  let aad := aad12 seq typ version content.length
  ∃ explicit : Bytes, explicit.length = 8 ∧
    body = explicit ++ (A (salt ++ explicit) aad content).1 ++ (A (salt ++ explicit) aad content).2

end Verif.Spec.Tls
