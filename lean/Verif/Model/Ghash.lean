import Verif.Base.Chunks

/-!
Model of `graviola/src/low/generic/ghash.rs`.
-/
namespace Verif.Ghash
open Verif

/-- `R`, ghash.rs:78. -/
def R : BitVec 128 := 0xe1000000000000000000000000000000#128

/-- `double`, ghash.rs:72-76. -/
def double (a : BitVec 128) : BitVec 128 :=
  let mask := -(a &&& 1#128)
  let b := a >>> 1
  b ^^^ (mask &&& R)

/-- `mul`, ghash.rs:57-70. -/
def mul (x y : BitVec 128) : BitVec 128 :=
  ((List.range 128).foldl (fun (zv : BitVec 128 × BitVec 128) i =>
    let (z, v) := zv
    let bit := 127 - i
    let mask := -((y >>> bit) &&& 1#128)
    let sum := z ^^^ v
    ((z &&& ~~~mask) ||| (sum &&& mask), double v)) (0#128, x)).1

/-- `u128::from_be_bytes` of a 16-byte block. -/
def fromBE (b : Bytes) : BitVec 128 := BitVec.ofNat 128 (beNat b)

/-- The block built from a partial one, ghash.rs:39-40: the bytes, then zeros. -/
def padBlock (b : Bytes) : Bytes := b ++ List.replicate (16 - b.length) 0#8

/-- `Ghash::one_block`, ghash.rs:51-54. -/
def oneBlock (h current block : BitVec 128) : BitVec 128 := mul (current ^^^ block) h

/-- `Ghash::add`, ghash.rs:29-45: the new `current`. -/
def add (h current : BitVec 128) (bytes : Bytes) : BitVec 128 :=
  let current := (chunksExact 16 bytes).foldl (fun c chunk => oneBlock h c (fromBE chunk)) current
  let rem := chunksRem 16 bytes
  if rem.isEmpty then current else oneBlock h current (fromBE (padBlock rem))

/-- `Ghash::into_bytes`, ghash.rs:47-49. -/
def intoBytes (current : BitVec 128) : Bytes := toBE 16 current.toNat

end Verif.Ghash
