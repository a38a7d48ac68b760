import Verif.Base.Bytes

/-!
The x86_64 vector instructions used by `low/x86_64/{aes,ghash,aes_gcm}.rs`, as documented by Intel.
A 128-bit register is `BitVec 128`, a 512-bit register is its four 128-bit lanes.
-/
namespace Verif.Simd
open Verif

/-- `__m128i`. -/
abbrev M128 := BitVec 128

/-- `_mm_loadu_si128`, `_mm_lddqu_si128`: sixteen bytes of memory, the first one lowest. -/
def load (b : Bytes) : M128 := BitVec.ofNat 128 (leNat b)
/-- `_mm_storeu_si128`. -/
def store (v : M128) : Bytes := toLE 16 v.toNat

/-- The low and the high 64-bit element. -/
def lo64 (v : M128) : BitVec 64 := v.extractLsb' 0 64
def hi64 (v : M128) : BitVec 64 := v.extractLsb' 64 64

/-- 32-bit element `i`. -/
def dword (v : M128) (i : Nat) : BitVec 32 := v.extractLsb' (32 * i) 32
/-- A register from its 32-bit elements, the lowest first. -/
def dwords (a b c d : BitVec 32) : M128 := d ++ c ++ b ++ a

/-- `_mm_shuffle_epi32`: two bits of the immediate select each element, the lowest first. -/
def shuffle32 (v : M128) (imm : Nat) : M128 :=
  dwords (dword v (imm % 4)) (dword v (imm / 4 % 4)) (dword v (imm / 16 % 4)) (dword v (imm / 64 % 4))

/-- `_mm_shuffle_epi8`: byte `i` of the result is the byte selected by the low four bits of byte `i`
of the mask, or zero if that byte's top bit is set. -/
def shuffle8 (v mask : M128) : M128 :=
  load ((store mask).map fun m => if m.msb then 0#8 else (store v).getD (m.toNat % 16) 0#8)

/-- `_mm_add_epi32`. -/
def add32 (a b : M128) : M128 :=
  dwords (dword a 0 + dword b 0) (dword a 1 + dword b 1) (dword a 2 + dword b 2) (dword a 3 + dword b 3)

/-- `_mm_add_epi64`. -/
def add64 (a b : M128) : M128 := (hi64 a + hi64 b) ++ (lo64 a + lo64 b)

/-- `_mm_srai_epi32(v, 31)`: each element becomes all copies of its sign bit. -/
def srai31 (v : M128) : M128 :=
  dwords ((dword v 0).sshiftRight 31) ((dword v 1).sshiftRight 31) ((dword v 2).sshiftRight 31)
    ((dword v 3).sshiftRight 31)

/-- `_mm_slli_si128(v, 4)`: shift left by four bytes. -/
def slli4 (v : M128) : M128 := v <<< 32

/-- Carry-less product of two 64-bit elements. -/
def clmul (a b : BitVec 64) : M128 :=
  (List.range 64).foldl (fun acc i => if a.getLsbD i then acc ^^^ ((b.setWidth 128) <<< i) else acc) 0#128

/-- `_mm_clmulepi64_si128`: bit 0 of the immediate selects the half of `a`, bit 4 that of `b`. -/
def clmulepi64 (a b : M128) (imm : Nat) : M128 :=
  clmul (if imm % 2 = 1 then hi64 a else lo64 a) (if imm / 16 % 2 = 1 then hi64 b else lo64 b)

/-- `__m512i` as its 128-bit lanes, the lowest first. -/
structure M512 where
  l0 : M128
  l1 : M128
  l2 : M128
  l3 : M128
  deriving DecidableEq

/-- An instruction that acts on the lanes independently. -/
def lanes1 (f : M128 → M128) (a : M512) : M512 := ⟨f a.l0, f a.l1, f a.l2, f a.l3⟩
def lanes2 (f : M128 → M128 → M128) (a b : M512) : M512 :=
  ⟨f a.l0 b.l0, f a.l1 b.l1, f a.l2 b.l2, f a.l3 b.l3⟩

/-- `_mm512_xor_epi32`, `_mm512_xor_epi64`. -/
def xor512 : M512 → M512 → M512 := lanes2 (· ^^^ ·)
/-- `_mm512_ternarylogic_epi32/64(a, b, c, 0x96)`: truth table 0x96 is three-way exclusive or. -/
def ternXor (a b c : M512) : M512 := xor512 (xor512 a b) c
/-- `_mm512_clmulepi64_epi128`. -/
def clmul512 (a b : M512) (imm : Nat) : M512 := lanes2 (fun x y => clmulepi64 x y imm) a b
/-- `_mm512_shuffle_epi32`. -/
def shuffle32_512 (a : M512) (imm : Nat) : M512 := lanes1 (fun x => shuffle32 x imm) a
/-- `_mm512_shuffle_epi8`: each lane by its own lane of the mask. -/
def shuffle8_512 : M512 → M512 → M512 := lanes2 shuffle8
/-- `_mm512_add_epi64`. -/
def add64_512 : M512 → M512 → M512 := lanes2 add64
/-- `_mm512_broadcast_i32x4`. -/
def broadcast (a : M128) : M512 := ⟨a, a, a, a⟩
/-- `_mm512_loadu_si512`, `_mm512_loadu_epi8`. -/
def load512 (b : Bytes) : M512 :=
  ⟨load (b.take 16), load ((b.drop 16).take 16), load ((b.drop 32).take 16), load ((b.drop 48).take 16)⟩
/-- `_mm512_storeu_si512`. -/
def store512 (v : M512) : Bytes := store v.l0 ++ store v.l1 ++ store v.l2 ++ store v.l3

end Verif.Simd
