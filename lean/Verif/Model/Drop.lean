import Verif.Model.Ct
import Verif.Model.Rsa
import Verif.Model.Ec
import Verif.Model.Ed25519
import Verif.Model.X25519
import Verif.Model.MlKem
import Verif.Model.AesGcm

/-!
Model of `graviola/src/low/generic/zeroise.rs` and of the `Drop` implementations of the crate.  A drop is a function from the value
to what its storage holds afterwards.  When the compiler runs a drop, and copies made by moving a value, are not modelled.
`stride` is 32 on x86_64 and 16 on aarch64, see `Ct.zeroBytes`.
-/
namespace Verif.Drop
open Bignum

/-- The bytes that hold a value of `w` bits; both architectures are little-endian. -/
def bytesOf {w : Nat} (v : BitVec w) : Bytes := toLE (w / 8) v.toNat
/-- The value held by these bytes. -/
def ofBytes (w : Nat) (m : Bytes) : BitVec w := BitVec.ofNat w (leNat m)

/-- `zeroise` of a slice of bytes, zeroise.rs:9-11. -/
def zeroiseBytes (stride : Nat) (v : Bytes) : Bytes := Ct.zeroBytes stride v.length v
/-- `zeroise_value`, zeroise.rs:14-16; also `zeroise` of an array whose words are held in one `BitVec`. -/
def zeroiseValue (stride : Nat) {w : Nat} (v : BitVec w) : BitVec w := ofBytes w (Ct.zeroBytes stride (w / 8) (bytesOf v))
/-- `zeroise` of a slice of words or vectors, zeroise.rs:9-11. -/
def zeroise (stride : Nat) {w : Nat} (v : List (BitVec w)) : List (BitVec w) :=
  let mem := Ct.zeroBytes stride (v.length * (w / 8)) (v.flatMap bytesOf)
  (List.range v.length).map fun i => ofBytes w ((mem.drop (i * (w / 8))).take (w / 8))

/-- `drop` of `SecretPosInt`, posint.rs:856-861.  Only the first `used` words are passed to `zeroise` (posint.rs:275-277). -/
def secretPosInt (stride : Nat) {N : Nat} (p : PosInt N) : PosInt N :=
  let words := zeroise stride (p.words.take p.used) ++ p.words.drop p.used
  ⟨words, (zeroiseValue stride (BitVec.ofNat 64 p.used)).toNat⟩

/-- `drop` of `RsaPrivateKey`, rsa_priv.rs:187-192, and then of its fields: all numbers are `SecretPosInt` (rsa_priv.rs:16-26). -/
def rsaPrivateKey (stride : Nat) (k : Rsa.PrivateKey) : Rsa.PrivateKey where
  pub := k.pub
  p := secretPosInt stride k.p
  q := secretPosInt stride k.q
  d := secretPosInt stride k.d
  dp := secretPosInt stride k.dp
  dq := secretPosInt stride k.dq
  iqmp := secretPosInt stride k.iqmp
  iqmpMont := secretPosInt stride k.iqmpMont
  pMontifier := secretPosInt stride k.pMontifier
  qMontifier := secretPosInt stride k.qMontifier
  p0 := zeroiseValue stride k.p0
  q0 := zeroiseValue stride k.q0

/-- `drop` of `Scalar`, p256.rs:911-915 / p384.rs:799-803; `PrivateKey` and `StaticPrivateKey` hold nothing else. -/
def scalar (stride : Nat) {N : Nat} (s : Ec.Scalar N) : Ec.Scalar N := zeroiseValue stride s

/-- `drop` of `SharedSecret`, p256.rs:235-239 / p384.rs:235-239, x25519.rs:177-181, mlkem768.rs:370-374, of `Message`,
mlkem768.rs:346-350, of `RsaComponentsBuffer`, rsa_priv.rs:217-221, and of `ChaCha20Poly1305` and `XChaCha20Poly1305`,
chacha20poly1305.rs:123-127 / xchacha20poly1305.rs:120-124: types with one array of bytes. -/
def byteArray (stride : Nat) (b : Bytes) : Bytes := zeroiseBytes stride b

/-- `drop` of `PrivateKey`, x25519.rs:62-66. -/
def x25519PrivateKey (stride : Nat) (k : X25519.PrivateKey) : X25519.PrivateKey := ⟨zeroiseValue stride k.words⟩

/-- `drop` of `SigningKey`, ed25519.rs:98-107; the point is an array of eight words. -/
def ed25519SigningKey (stride : Nat) (k : Ed25519.SigningKey) : Ed25519.SigningKey where
  seed := zeroiseBytes stride k.seed
  s := zeroiseValue stride k.s
  pfx := zeroiseBytes stride k.pfx
  verifyingKey := ⟨zeroiseBytes stride k.verifyingKey.bytes,
    zeroiseValue stride k.verifyingKey.point.x, zeroiseValue stride k.verifyingKey.point.y⟩

/-- `drop` of `DecapKey`, mlkem768.rs:201-206. -/
def decapKey (stride : Nat) (k : MlKem.DecapKey) : MlKem.DecapKey where
  ekPke := k.ekPke
  dkPke := zeroiseBytes stride k.dkPke
  hEk := k.hEk
  z := zeroiseBytes stride k.z

/-- `drop` of `AesKey`, x86_64/aes.rs:93-97 / aarch64/aes.rs:41-45.  The tag of the enumeration is not represented. -/
def aesKey (stride : Nat) (k : AesX86.AesKey) : AesX86.AesKey := ⟨zeroise stride k.roundKeys⟩

/-- The vectors of a `GhashTable`, x86_64/ghash.rs:50-58, 116-120, in order.  The tag of the enumeration is not represented. -/
def tableMem : GhashX86.Table → List (BitVec 128)
  | .avx t => t.powers ++ t.powersXor
  | .avx512 t => [t.q0, t.q1, t.q2, t.q3].flatMap (fun q => [q.l0, q.l1, q.l2, q.l3]) ++ t.avx.powers ++ t.avx.powersXor

/-- `drop` of `GhashTable`, x86_64/ghash.rs:41-45: the whole value is cleared, whichever variant it is. -/
def ghashTable (stride : Nat) (t : GhashX86.Table) : List (BitVec 128) := zeroise stride (tableMem t)

end Verif.Drop
