import Verif.Model.Neon
import Verif.Model.Ghash

/-!
Model of `graviola/src/low/aarch64/ghash.rs`.  `from_u128`, `to_u128` (ghash.rs:324-333) are transmutations,
the identity on `BitVec 128`; `zero()` (ghash.rs:318-321) is `0#128`.
-/
namespace Verif.GhashArm
open Verif Verif.Simd Verif.Neon

/-- `GF128_POLY_HI`, ghash.rs:348-349. -/
def POLY_HI : Q := 0xc200000000000000c200000000000000#128
/-- `GF128_POLY_CARRY_MASK`, ghash.rs:352-353. -/
def POLY_CARRY_MASK : Q := 0xc2000000000000010000000000000001#128

/-- `vmull_p64_fix`, ghash.rs:299-305. -/
def vmullFix (a b : Q) : Q := vmull (lo64 a) (lo64 b)
/-- `vmull_high_p64_fix`, ghash.rs:309-315. -/
def vmullHighFix (a b : Q) : Q := vmull (hi64 a) (hi64 b)

/-- The accumulators of the `mul!` macro. -/
structure Acc where
  lo : Q
  mi : Q
  hi : Q

/-- `mul!`, ghash.rs:201-215. -/
def mulAcc (s : Acc) (x h hx : Q) : Acc :=
  let tlo := vmullFix x h
  let lo := veorq tlo s.lo
  let xx := vext1 x x
  let xx := veorq xx x
  let thi := vmullHighFix x h
  let hi := veorq thi s.hi
  let tmi := vmullFix xx hx
  let mi := veorq tmi s.mi
  ⟨lo, mi, hi⟩

/-- `reduce!`, ghash.rs:217-233. -/
def reduce (s : Acc) : Q :=
  let mi := veorq s.mi s.lo
  let mi := veorq mi s.hi
  let ls := vext1 s.lo s.lo
  let lo := vmullFix POLY_HI s.lo
  let mi := veorq mi ls
  let mi := veorq mi lo
  let ms := vext1 mi mi
  let mi := vmullFix POLY_HI mi
  let hi := veorq s.hi ms
  veorq hi mi

/-- `xor_halves`, ghash.rs:269-272. -/
def xorHalves (h : Q) : Q := veorq (vext1 h h) h

/-- `mul` and `_mul`, ghash.rs:180-183 and 236-241. -/
def mul (a b : Q) : Q := reduce (mulAcc ⟨0#128, 0#128, 0#128⟩ a b (xorHalves b))

/-- `gf128_big_endian`, ghash.rs:275-294. -/
def gf128BigEndian (h : Q) : Q :=
  let t := h
  let a := dword t 3
  let c := dword t 1
  let d := dword t 0
  let t := vsetq32 a t 3
  let t := vsetq32 c t 2
  let t := vsetq32 d t 1
  let t := vsetq32 a t 0
  let t := vshrq31 t
  let h := vaddq64 h h
  let t := vandq POLY_CARRY_MASK t
  veorq h t

/-- `GhashTable`, ghash.rs:13-16. -/
structure GhashTable where
  powers : List Q
  powersXor : List Q

/-- `GhashTable::new`, ghash.rs:19-46. -/
def GhashTable.new (h : BitVec 128) : GhashTable :=
  let h := gf128BigEndian h
  let h2 := mul h h
  let h3 := mul h2 h
  let h4 := mul h3 h
  let h5 := mul h4 h
  let h6 := mul h5 h
  let h7 := mul h6 h
  let h8 := mul h7 h
  ⟨[h, h2, h3, h4, h5, h6, h7, h8],
   [xorHalves h, xorHalves h2, xorHalves h3, xorHalves h4, xorHalves h5, xorHalves h6, xorHalves h7, xorHalves h8]⟩

/-- `table.powers[i]`, for `i` in range. -/
def GhashTable.p (t : GhashTable) (i : Nat) : Q := t.powers.getD i 0#128
/-- `table.powers_xor[i]`, for `i` in range. -/
def GhashTable.px (t : GhashTable) (i : Nat) : Q := t.powersXor.getD i 0#128

/-- `mul8` and `_mul8`, ghash.rs:186-199 and 245-266. -/
def mul8 (t : GhashTable) (a b c d e f g h : Q) : Q :=
  let s : Acc := ⟨0#128, 0#128, 0#128⟩
  let s := mulAcc s a (t.p 7) (t.px 7)
  let s := mulAcc s b (t.p 6) (t.px 6)
  let s := mulAcc s c (t.p 5) (t.px 5)
  let s := mulAcc s d (t.p 4) (t.px 4)
  let s := mulAcc s e (t.p 3) (t.px 3)
  let s := mulAcc s f (t.p 2) (t.px 2)
  let s := mulAcc s g (t.p 1) (t.px 1)
  let s := mulAcc s h (t.p 0) (t.px 0)
  reduce s

/-- `to_uint64x2_be`, ghash.rs:338-345. -/
def toBe (u : Q) : Q :=
  let u := vrev64q u
  vext1 u u

/-- `Ghash::one_block`, ghash.rs:109-113. -/
def oneBlock (t : GhashTable) (current block : Q) : Q := mul (veorq current block) (t.p 0)

/-- `Ghash::add_block`, ghash.rs:116-120. -/
def addBlock (t : GhashTable) (current block : Q) : Q := mul (veorq current (toBe block)) (t.p 0)

/-- `Ghash::eight_blocks`, ghash.rs:123-147. -/
def eightBlocks (t : GhashTable) (current b1 b2 b3 b4 b5 b6 b7 b8 : Q) : Q :=
  let b1 := veorq current b1
  mul8 t b1 b2 b3 b4 b5 b6 b7 b8

/-- `Ghash::add_eight_blocks`, ghash.rs:150-176. -/
def addEightBlocks (t : GhashTable) (current b1 b2 b3 b4 b5 b6 b7 b8 : Q) : Q :=
  let b1 := veorq current (toBe b1)
  mul8 t b1 (toBe b2) (toBe b3) (toBe b4) (toBe b5) (toBe b6) (toBe b7) (toBe b8)

/-- `u128::from_be_bytes(chunk8[i..i + 16])`. -/
def blockAt (chunk8 : Bytes) (i : Nat) : Q := Ghash.fromBE ((chunk8.drop i).take 16)

/-- `Ghash::add`, ghash.rs:72-103. -/
def add (t : GhashTable) (current : Q) (bytes : Bytes) : Q :=
  let current := (chunksExact 128 bytes).foldl (fun c chunk8 =>
    eightBlocks t c (blockAt chunk8 0) (blockAt chunk8 16) (blockAt chunk8 32) (blockAt chunk8 48)
      (blockAt chunk8 64) (blockAt chunk8 80) (blockAt chunk8 96) (blockAt chunk8 112)) current
  let bytes := chunksRem 128 bytes
  let current := (chunksExact 16 bytes).foldl (fun c chunk => oneBlock t c (Ghash.fromBE chunk)) current
  let bytes := chunksRem 16 bytes
  if bytes.isEmpty then current else oneBlock t current (Ghash.fromBE (Ghash.padBlock bytes))

/-- `Ghash::into_bytes`, ghash.rs:105-107. -/
def intoBytes (current : Q) : Bytes := toBE 16 current.toNat

end Verif.GhashArm
