import Verif.Model.Simd
import Verif.Model.Ghash

/-!
Model of `graviola/src/low/x86_64/ghash.rs`.  `u128_to_m128i` is the identity on `BitVec 128`.
Feature detection is the choice of constructor in `Table`.
-/
namespace Verif.GhashX86
open Verif Verif.Simd

/-- `BYTESWAP`, ghash.rs:419. -/
def BYTESWAP : M128 := 0x000102030405060708090a0b0c0d0e0f#128
/-- `GF128_POLY_HI`, ghash.rs:433. -/
def POLY_HI : M128 := 0xc200000000000000#128
/-- `GF128_POLY_LO`, ghash.rs:437-438. -/
def POLY_LO : M128 := 0xc2000000000000000000000000000000#128
/-- `GF128_POLY_CARRY_MASK`, ghash.rs:442-443. -/
def POLY_CARRY_MASK : M128 := 0xc2000000000000010000000000000001#128

/-- The accumulators of the `mul!` macro. -/
structure Acc where
  lo : M128
  mi : M128
  hi : M128

/-- `mul!`, ghash.rs:253-267. -/
def mulAcc (s : Acc) (x h hx : M128) : Acc :=
  let tlo := clmulepi64 x h 0x00
  let lo := tlo ^^^ s.lo
  let xx := shuffle32 x 0b01001110
  let xx := xx ^^^ x
  let thi := clmulepi64 x h 0x11
  let hi := thi ^^^ s.hi
  let tmi := clmulepi64 xx hx 0x00
  let mi := tmi ^^^ s.mi
  ⟨lo, mi, hi⟩

/-- `reduce!`, ghash.rs:269-285. -/
def reduce (s : Acc) : M128 :=
  let mi := s.mi ^^^ s.lo
  let mi := mi ^^^ s.hi
  let ls := shuffle32 s.lo 0b01001110
  let lo := clmulepi64 POLY_HI s.lo 0x00
  let mi := mi ^^^ ls
  let mi := mi ^^^ lo
  let ms := shuffle32 mi 0b01001110
  let mi := clmulepi64 POLY_HI mi 0x00
  let hi := s.hi ^^^ ms
  hi ^^^ mi

/-- `xor_halves`, ghash.rs:392-395. -/
def xorHalves (h : M128) : M128 := shuffle32 h 0b01001110 ^^^ h

/-- `_mul`, ghash.rs:289-295. -/
def mul (a b : M128) : M128 := reduce (mulAcc ⟨0#128, 0#128, 0#128⟩ a b (xorHalves b))

/-- `gf128_big_endian`, ghash.rs:380-389. -/
def gf128BigEndian (h : M128) : M128 :=
  let t := shuffle32 h 0b11010011
  let t := srai31 t
  let h := add64 h h
  let t := POLY_CARRY_MASK &&& t
  h ^^^ t

/-- `GhashTableAvx`, ghash.rs:50-58. -/
structure TableAvx where
  powers : List M128
  powersXor : List M128

/-- The loop `for i in 1..n { powers[i] = _mul(powers[i - 1], h) }`, ghash.rs:70-73: the powers from
`p` on. -/
def powersFrom (h p : M128) : Nat → List M128
  | 0 => []
  | n + 1 => mul p h :: powersFrom h (mul p h) n

/-- `GhashTableAvx::new`, ghash.rs:61-81. -/
def TableAvx.new (h : BitVec 128) : TableAvx :=
  let h := gf128BigEndian h
  let powers := h :: powersFrom h h 7
  ⟨powers, powers.map xorHalves⟩

/-- `table.powers[i]`, for `i` in range. -/
def TableAvx.p (t : TableAvx) (i : Nat) : M128 := t.powers.getD i 0#128
/-- `table.powers_xor[i]`, for `i` in range. -/
def TableAvx.px (t : TableAvx) (i : Nat) : M128 := t.powersXor.getD i 0#128

/-- `_mul8`, ghash.rs:299-320. -/
def mul8 (t : TableAvx) (x1 x2 x3 x4 x5 x6 x7 x8 : M128) : M128 :=
  let s : Acc := ⟨0#128, 0#128, 0#128⟩
  let s := mulAcc s x1 (t.p 7) (t.px 7)
  let s := mulAcc s x2 (t.p 6) (t.px 6)
  let s := mulAcc s x3 (t.p 5) (t.px 5)
  let s := mulAcc s x4 (t.p 4) (t.px 4)
  let s := mulAcc s x5 (t.p 3) (t.px 3)
  let s := mulAcc s x6 (t.p 2) (t.px 2)
  let s := mulAcc s x7 (t.p 1) (t.px 1)
  let s := mulAcc s x8 (t.p 0) (t.px 0)
  reduce s

/-- The block at offset `i` of a chunk, as `u128::from_be_bytes(chunk[i..i + 16])`. -/
def blockAt (chunk : Bytes) (i : Nat) : M128 := Ghash.fromBE ((chunk.drop i).take 16)

/-- One iteration of `GhashTableAvx::add_wide`, ghash.rs:86-110. -/
def wide8 (t : TableAvx) (current : M128) (c : Bytes) : M128 :=
  mul8 t (current ^^^ blockAt c 0) (blockAt c 16) (blockAt c 32) (blockAt c 48) (blockAt c 64)
    (blockAt c 80) (blockAt c 96) (blockAt c 112)

/-- `GhashTableAvx512`, ghash.rs:116-121; the feature token is left out. -/
structure TableAvx512 where
  q0 : M512
  q1 : M512
  q2 : M512
  q3 : M512
  avx : TableAvx

/-- `join512`, ghash.rs:405-410. -/
def join512 (a b c d : M128) : M512 := ⟨d, c, b, a⟩

/-- `GhashTableAvx512::new`, ghash.rs:124-149. -/
def TableAvx512.new (h : BitVec 128) : TableAvx512 :=
  let avx := TableAvx.new h
  let powers := avx.powers ++ powersFrom (avx.p 0) (avx.p 7) 8
  let p := fun i => powers.getD i 0#128
  ⟨join512 (p 0) (p 1) (p 2) (p 3), join512 (p 4) (p 5) (p 6) (p 7),
    join512 (p 8) (p 9) (p 10) (p 11), join512 (p 12) (p 13) (p 14) (p 15), avx⟩

/-- `_mul16`, ghash.rs:324-378. -/
def mul16 (t : TableAvx512) (x0123 x4567 x89ab xcdef : M512) : M128 :=
  let gfpoly := broadcast POLY_LO
  let lo0 := clmul512 x0123 t.q3 0x00
  let lo1 := clmul512 x4567 t.q2 0x00
  let lo2 := clmul512 x89ab t.q1 0x00
  let lo01 := xor512 lo0 lo1
  let lo3 := clmul512 xcdef t.q0 0x00
  let lo := ternXor lo2 lo3 lo01
  let mi0 := clmul512 x0123 t.q3 0x01
  let mi1 := clmul512 x4567 t.q2 0x01
  let mi2 := clmul512 x89ab t.q1 0x01
  let mi012 := ternXor mi0 mi1 mi2
  let mi3 := clmul512 xcdef t.q0 0x01
  let mi4 := clmul512 x0123 t.q3 0x10
  let mi01234 := ternXor mi012 mi3 mi4
  let mi5 := clmul512 x4567 t.q2 0x10
  let mi6 := clmul512 x89ab t.q1 0x10
  let mi := ternXor mi01234 mi5 mi6
  let lo_r := clmul512 gfpoly lo 0x01
  let mi7 := clmul512 xcdef t.q0 0x10
  let mi := xor512 mi7 mi
  let lo_s := shuffle32_512 lo 0b01001110
  let hi0 := clmul512 x0123 t.q3 0x11
  let hi1 := clmul512 x4567 t.q2 0x11
  let hi2 := clmul512 x89ab t.q1 0x11
  let mi := ternXor lo_r lo_s mi
  let hi3 := clmul512 xcdef t.q0 0x11
  let hi012 := ternXor hi0 hi1 hi2
  let mi_r := clmul512 gfpoly mi 0x01
  let hi := xor512 hi012 hi3
  let mi_s := shuffle32_512 mi 0b01001110
  let r := ternXor mi_r mi_s hi
  let ab := r.l0 ^^^ r.l1
  (ab ^^^ r.l2) ^^^ r.l3

/-- The common end of `add_wide` (ghash.rs:170-179) and of a by-16 step of `_cipher_avx512`
(aes_gcm.rs:303-312): byte-swap by the given mask, xor `current` into the first lane, multiply. -/
def absorb16 (mask : M512) (t : TableAvx512) (current : M128) (m0123 m4567 m89ab mcdef : M512) : M128 :=
  let m0123 := shuffle8_512 m0123 mask
  let m4567 := shuffle8_512 m4567 mask
  let m89ab := shuffle8_512 m89ab mask
  let mcdef := shuffle8_512 mcdef mask
  let c0___ : M512 := ⟨current, 0#128, 0#128, 0#128⟩
  let m0123 := xor512 m0123 c0___
  mul16 t m0123 m4567 m89ab mcdef

/-- One iteration of `GhashTableAvx512::add_wide`, ghash.rs:156-181. -/
def wide16 (t : TableAvx512) (current : M128) (c : Bytes) : M128 :=
  absorb16 (broadcast BYTESWAP) t current (load512 (c.take 64)) (load512 ((c.drop 64).take 64))
    (load512 ((c.drop 128).take 64)) (load512 ((c.drop 192).take 64))

/-- `GhashTable`, ghash.rs:19-22. -/
inductive Table
  | avx (t : TableAvx)
  | avx512 (t : TableAvx512)

/-- `GhashTable::new`, ghash.rs:25-31; `avx512` is the outcome of the CPU feature check. -/
def Table.new (avx512 : Bool) (h : BitVec 128) : Table :=
  if avx512 then .avx512 (TableAvx512.new h) else .avx (TableAvx.new h)

/-- `GhashTable::avx`, ghash.rs:33-38. -/
def Table.toAvx : Table → TableAvx
  | .avx t => t
  | .avx512 t => t.avx

/-- `Ghash::h`, ghash.rs:244-249. -/
def Table.h (t : Table) : M128 := t.toAvx.p 0

/-- `add_wide` of either table, ghash.rs:83-113 and 152-184: new `current` and the remainder. -/
def addWide (t : Table) (current : M128) (bytes : Bytes) : M128 × Bytes :=
  match t with
  | .avx t => ((chunksExact 128 bytes).foldl (wide8 t) current, chunksRem 128 bytes)
  | .avx512 t => ((chunksExact 256 bytes).foldl (wide16 t) current, chunksRem 256 bytes)

/-- `Ghash::one_block`, ghash.rs:236-242. -/
def oneBlock (t : Table) (current block : M128) : M128 := mul (current ^^^ block) t.h

/-- `Ghash::add`, ghash.rs:198-220. -/
def add (t : Table) (current : M128) (bytes : Bytes) : M128 :=
  let (current, bytes) := addWide t current bytes
  let current := (chunksExact 16 bytes).foldl (fun c chunk => oneBlock t c (Ghash.fromBE chunk)) current
  let rem := chunksRem 16 bytes
  if rem.isEmpty then current else oneBlock t current (Ghash.fromBE (Ghash.padBlock rem))

/-- `Ghash::into_bytes`, ghash.rs:222-234. -/
def intoBytes (current : M128) : Bytes := store (shuffle8 current BYTESWAP)

end Verif.GhashX86
