import Verif.Spec.Ghash
import Verif.Spec.Aes

/-!
GCM with 96-bit nonces and 128-bit tags, from NIST SP 800-38D, for any 16-byte block cipher.
-/
namespace Verif.Spec.Gcm
open Verif

/-- 6.2: increment the rightmost 32 bits modulo 2^32. -/
def inc32 (x : Bytes) : Bytes := x.take 12 ++ toBE 4 ((beNat (x.drop 12) + 1) % 2 ^ 32)

/-- 6.5: GCTR over the given blocks, the last possibly short. -/
def gctr (E : Bytes → Bytes) : Bytes → List Bytes → Bytes
  | _, [] => []
  | cb, x :: xs => List.zipWith (· ^^^ ·) x (E cb) ++ gctr E (inc32 cb) xs

/-- 7.1, step 1: the hash subkey. -/
def subkey (E : Bytes → Bytes) : BitVec 128 := BitVec.ofNat 128 (beNat (E (List.replicate 16 0#8)))

/-- 7.1, step 2: the pre-counter block of a 96-bit nonce. -/
def j0 (nonce : Bytes) : Bytes := nonce ++ [0#8, 0#8, 0#8, 1#8]

/-- 7.1, steps 3-5: the encryption of `x`, which is also its decryption. -/
def crypt (E : Bytes → Bytes) (nonce x : Bytes) : Bytes := gctr E (inc32 (j0 nonce)) (chunks 16 x)

/-- The block of bit lengths. -/
def lengths (aad ct : Bytes) : BitVec 128 :=
  BitVec.ofNat 128 (beNat (toBE 8 (8 * aad.length) ++ toBE 8 (8 * ct.length)))

/-- 7.1, steps 5 and 6: the tag of a ciphertext. -/
def tag (E : Bytes → Bytes) (nonce aad ct : Bytes) : Bytes :=
  let s := Ghash.ghash (subkey E) (Ghash.blocksOf aad ++ Ghash.blocksOf ct ++ [lengths aad ct])
  List.zipWith (· ^^^ ·) (toBE 16 s.toNat) (E (j0 nonce))

/-- 7.1: ciphertext and tag. -/
def sealed (E : Bytes → Bytes) (nonce aad pt : Bytes) : Bytes × Bytes :=
  let ct := crypt E nonce pt
  (ct, tag E nonce aad ct)

end Verif.Spec.Gcm
