import Verif.Model.Simd
import Verif.Spec.Aes

/-!
The aarch64 vector instructions used by `low/aarch64/{aes,ghash,aes_gcm}.rs`, as documented by Arm for
little-endian execution.  A 128-bit register is `BitVec 128`, lane 0 lowest; `vreinterpretq_*` is the identity.
-/
namespace Verif.Neon
open Verif Verif.Simd

/-- `uint8x16_t`, `uint32x4_t`, `uint64x2_t`. -/
abbrev Q := BitVec 128

/-- `vld1q_u8`: sixteen bytes of memory, the first one in lane 0. -/
def vld1q (b : Bytes) : Q := load b
/-- `vst1q_u8`. -/
def vst1q (v : Q) : Bytes := store v

/-- `veorq_u8`, `veorq_u64`. -/
def veorq (a b : Q) : Q := a ^^^ b
/-- `vandq_u64`. -/
def vandq (a b : Q) : Q := a &&& b

/-- `vrev32q_u8`: reverses the bytes of each 32-bit element. -/
def vrev32q (v : Q) : Q :=
  let b := store v
  load ((b.take 4).reverse ++ ((b.drop 4).take 4).reverse ++ ((b.drop 8).take 4).reverse ++ (b.drop 12).reverse)

/-- `vrev64q_u8`: reverses the bytes of each 64-bit element. -/
def vrev64q (v : Q) : Q :=
  let b := store v
  load ((b.take 8).reverse ++ (b.drop 8).reverse)

/-- `vextq_u64(a, b, 1)`: the high element of `a`, then the low element of `b`. -/
def vext1 (a b : Q) : Q := lo64 b ++ hi64 a

/-- `vaddq_u32`. -/
def vaddq32 (a b : Q) : Q :=
  dwords (dword a 0 + dword b 0) (dword a 1 + dword b 1) (dword a 2 + dword b 2) (dword a 3 + dword b 3)

/-- `vaddq_u64`. -/
def vaddq64 (a b : Q) : Q := (hi64 a + hi64 b) ++ (lo64 a + lo64 b)

/-- `vshrq_n_s32(v, 31)`: arithmetic shift of each 32-bit element. -/
def vshrq31 (v : Q) : Q :=
  dwords ((dword v 0).sshiftRight 31) ((dword v 1).sshiftRight 31) ((dword v 2).sshiftRight 31)
    ((dword v 3).sshiftRight 31)

/-- `vdupq_n_u32`. -/
def vdupq32 (w : BitVec 32) : Q := dwords w w w w

/-- `vsetq_lane_s32(x, v, i)`, for `i < 4`. -/
def vsetq32 (x : BitVec 32) (v : Q) (i : Nat) : Q :=
  dwords (if i = 0 then x else dword v 0) (if i = 1 then x else dword v 1) (if i = 2 then x else dword v 2)
    (if i = 3 then x else dword v 3)

/-- `vsetq_lane_u8(x, v, i)`. -/
def vsetq8 (x : Byte) (v : Q) (i : Nat) : Q := load ((store v).set i x)

/-- `vmull_p64`: the polynomial product of two 64-bit elements. -/
def vmull (a b : BitVec 64) : Q := clmul a b

/-- `vaeseq_u8` (AESE): exclusive or with the key, ShiftRows, SubBytes. -/
def vaeseq (v key : Q) : Q := load (Spec.Aes.subBytes (Spec.Aes.shiftRows (store (v ^^^ key))))

/-- `vaesmcq_u8` (AESMC): MixColumns. -/
def vaesmcq (v : Q) : Q := load (Spec.Aes.mixColumns (store v))

end Verif.Neon
