import Verif.Model.Blockwise
import Verif.Spec.Keccak

/-!
Model of `graviola/src/mid/sha3.rs`.

The permutation is the assembly routine `sha3_keccak_f1600(a, rc)`; here it is the function `keccak rc`, the
rounds of Keccak-f[1600] with the round constants it is given.  The code around it is modelled over any
permutation `F`, and the four-way forms apply `F` to each state.  `none` is a panic.
-/
namespace Verif.Sha3
open Verif Verif.Blockwise

abbrev Lanes := List (BitVec 64)

/-- `RC`, sha3.rs:438-463. -/
def RC : List (BitVec 64) := [
  0x0000000000000001#64, 0x0000000000008082#64, 0x800000000000808A#64, 0x8000000080008000#64,
  0x000000000000808B#64, 0x0000000080000001#64, 0x8000000080008081#64, 0x8000000000008009#64,
  0x000000000000008A#64, 0x0000000000000088#64, 0x0000000080008009#64, 0x000000008000000A#64,
  0x000000008000808B#64, 0x800000000000008B#64, 0x8000000000008089#64, 0x8000000000008003#64,
  0x8000000000008002#64, 0x8000000000000080#64, 0x000000000000800A#64, 0x800000008000000A#64,
  0x8000000080008081#64, 0x8000000000008080#64, 0x0000000080000001#64, 0x8000000080008008#64]

/-- `sha3_keccak_f1600(a, rc)`, low/x86_64/sha3_keccak_f1600.rs and low/aarch64: the contract of the assembly. -/
def keccak (rc : List (BitVec 64)) (a : Lanes) : Lanes := Spec.Keccak.rounds rc a

/-- `SHAKE_128_R_BYTES`, `SHAKE_256_R_BYTES`, `SHA3_256_R_BYTES`, `SHA3_512_R_BYTES`, sha3.rs:467-471. -/
def SHAKE_128_R : Nat := (1600 - 256) / 8
def SHAKE_256_R : Nat := (1600 - 512) / 8
def SHA3_256_R : Nat := (1600 - 512) / 8
def SHA3_512_R : Nat := (1600 - 1024) / 8
/-- `SHA_PAD_BYTE`, sha3.rs:477. -/
def SHA_PAD : Byte := 0b00000110#8
/-- `SHAKE_PAD_BYTE`, sha3.rs:483. -/
def SHAKE_PAD : Byte := 0b00011111#8

/-! ### Squeezing -/

/-- `squeeze_current`, sha3.rs:232-236: `n` bytes of output, one lane per chunk of eight.  Also the two local
functions `squeeze` (sha3.rs:201-206) and `squeeze_rate` (325-335). -/
def squeezeCurrent : Lanes → Nat → Option Bytes
  | _, 0 => some []
  | [], _ + 1 => none
  | l :: ls, n + 1 =>
    let k := min 8 (n + 1)
    (squeezeCurrent ls (n + 1 - k)).map fun rest => (toLE 8 l.toNat).take k ++ rest

/-- `squeeze`, sha3.rs:219-224: the new state and `n` bytes of output. -/
def squeeze (F : Lanes → Lanes) (R : Nat) (s : Lanes) (n : Nat) : Option (Lanes × Bytes) :=
  if R = 0 then none
  else if n = 0 then some (s, [])
  else do
    let out ← squeezeCurrent s (min R n)
    let (s, rest) ← squeeze F R (F s) (n - min R n)
    pure (s, out ++ rest)
termination_by n

/-- `into_single_squeeze`, sha3.rs:227-230; the `debug_assert!` is kept. -/
def intoSingleSqueeze (R : Nat) (s : Lanes) (n : Nat) : Option Bytes :=
  if n < R then squeezeCurrent s n else none

/-- `Shake128` and `Shake256`, sha3.rs:75-79 and 108-112. -/
structure Shake where
  s : Lanes
  buffer : Bytes
  offset : Nat

/-- The first part of `shake_read`, sha3.rs:239-248: what the buffer supplies. -/
def fromBuffer (R : Nat) (k : Shake) (n : Nat) : Option (Shake × Bytes) :=
  if k.offset = k.buffer.length then some (k, [])
  else if R < k.offset then none
  else
    let chunk := min (R - k.offset) n
    if k.offset + chunk ≤ k.buffer.length then
      some ({ k with offset := k.offset + chunk }, (k.buffer.drop k.offset).take chunk)
    else none

/-- The last part of `shake_read`, sha3.rs:258-263: a partial block of `n` bytes through the buffer. -/
def throughBuffer (F : Lanes → Lanes) (R : Nat) (k : Shake) (n : Nat) : Option (Shake × Bytes) :=
  if n = 0 then some (k, [])
  else do
    let (s, buffer) ← squeeze F R k.s k.buffer.length
    let chunk := min R n
    pure ({ s := s, buffer := buffer, offset := chunk }, buffer.take chunk)

/-- `shake_read`, sha3.rs:238-264: `n` bytes of output. -/
def shakeRead (F : Lanes → Lanes) (R : Nat) (k : Shake) (n : Nat) : Option (Shake × Bytes) := do
  let (k, first) ← fromBuffer R k n
  let n := n - first.length
  if n = 0 then pure (k, first)
  else
    let whole := n / R * R
    let (s, mid) ← squeeze F R k.s whole
    let (k, last) ← throughBuffer F R { k with s := s } (n - whole)
    pure (k, first ++ mid ++ last)

/-! ### Absorbing -/

/-- `Sponge<R, PAD>`, sha3.rs:379-382. -/
structure Sponge where
  s : Lanes
  buffer : Blockwise

/-- `Sponge::new`, sha3.rs:385-390. -/
def Sponge.new (R : Nat) : Sponge := ⟨List.replicate 25 0#64, Blockwise.new R⟩

/-- `absorb_block`, sha3.rs:430-435: lane `i` of the block into lane `i` of the state. -/
def absorbBlock (F : Lanes → Lanes) (s : Lanes) (block : Bytes) : Lanes :=
  let lanes := (chunksExact 8 block).map fun b => BitVec.ofNat 64 (leNat b)
  F (List.zipWith (· ^^^ ·) s lanes ++ s.drop lanes.length)

/-- `absorb`, sha3.rs:395-408. -/
def absorb (F : Lanes → Lanes) (R : Nat) (c : Sponge) (bytes : Bytes) : Option Sponge := do
  let (buffer, bytes) ← addLeading R c.buffer bytes
  let (buffer, full) := take R buffer
  let s := match full with
    | some block => absorbBlock F c.s block
    | none => c.s
  let s := (chunksExact R bytes).foldl (absorbBlock F) s
  let buffer ← addTrailing buffer (chunksRem R bytes)
  pure ⟨s, buffer⟩

/-- The padding step of `absorb_final`, sha3.rs:412-424: the buffer afterwards. -/
def padBuffer (R : Nat) (PAD : Byte) (b : Blockwise) : Option Blockwise :=
  if R < b.used then none
  else match R - b.used with
    | 0 => none
    | 1 => (addLeading R b [PAD ||| 0x80#8]).map (·.1)
    | 2 => (addLeading R b [PAD, 0x80#8]).map (·.1)
    | n => do
      let b ← add R b [PAD]
      if SHAKE_128_R < n - 2 then none
      else
        let (b, _) ← addLeading R b (List.replicate (n - 2) 0#8)
        let (b, _) ← addLeading R b [0x80#8]
        pure b

/-- `absorb_final`, sha3.rs:411-428. -/
def absorbFinal (F : Lanes → Lanes) (R : Nat) (PAD : Byte) (c : Sponge) : Option Lanes := do
  let b ← padBuffer R PAD c.buffer
  let padded ← (take R b).2
  pure (absorbBlock F c.s padded)

/-- `new_for_message`, sha3.rs:392-398. -/
def newForMessage (F : Lanes → Lanes) (R : Nat) (PAD : Byte) (message : List Bytes) : Option Lanes := do
  let c ← message.foldlM (absorb F R) (Sponge.new R)
  absorbFinal F R PAD c

/-- `Sha3_256Context` and `Sha3_512Context`: `update`, sha3.rs:26-28 and 56-58. -/
def sha3Update (R : Nat) (c : Sponge) (bytes : Bytes) : Option Sponge := absorb (keccak RC) R c bytes
/-- `finish`, sha3.rs:31-36 and 61-66. -/
def sha3Finish (R outputSz : Nat) (c : Sponge) : Option Bytes := do
  let s ← absorbFinal (keccak RC) R SHA_PAD c
  intoSingleSqueeze R s outputSz

/-- `Shake128::new` and `Shake256::new`, sha3.rs:85-91 and 118-124. -/
def shakeNew (F : Lanes → Lanes) (R : Nat) (message : List Bytes) : Option Shake := do
  let s ← newForMessage F R SHAKE_PAD message
  pure ⟨s, List.replicate R 0#8, R⟩

/-! ### Batches -/

/-- `[[u64; 25]; 4]`. -/
structure Four where
  a : Lanes
  b : Lanes
  c : Lanes
  d : Lanes

/-- `sha3_keccak4_f1600`, the contract of low/x86_64/sha3_keccak4_f1600_shim.rs and
low/aarch64/sha3_keccak4_f1600_mux.rs. -/
def four (F : Lanes → Lanes) (q : Four) : Four := ⟨F q.a, F q.b, F q.c, F q.d⟩
/-- `sha3_keccak2of4_f1600`, low/x86_64/sha3_keccak2of4_f1600.rs and low/aarch64/sha3_keccak2of4_f1600.rs: the
first two states; what happens to the other two (`G`) depends on the platform. -/
def twoOfFour (F G : Lanes → Lanes) (q : Four) : Four := ⟨F q.a, F q.b, G q.c, G q.d⟩

/-- `for (i, inp) in input.chunks_exact(8).enumerate() { s[i] = u64::from_le_bytes(inp) }`, sha3.rs:151-153 and
seven other places. -/
def setLanes (s : Lanes) (input : Bytes) : Lanes :=
  let lanes := (chunksExact 8 input).map fun b => BitVec.ofNat 64 (leNat b)
  lanes ++ s.drop lanes.length

/-- `s[R / 8 - 1] = 0x8000_0000_0000_0000` on zeros, sha3.rs:144-145 and 285-287. -/
def endBit (R : Nat) : Lanes := (List.replicate 25 0#64).set (R / 8 - 1) 0x8000000000000000#64

/-- `Shake256::one_shot_sextet`, sha3.rs:141-208.  `s` is overwritten in place from one input to the next. -/
def oneShotSextet (F G : Lanes → Lanes) (i0 i1 i2 i3 i4 i5 : Bytes) : Option (List Bytes) := do
  let s := endBit SHAKE_256_R
  let s := setLanes s i0
  let q0 := s
  let s := setLanes s i1
  let q1 := s
  let s := setLanes s i2
  let q2 := s
  let s := setLanes s i3
  let q3 := s
  let q := four F ⟨q0, q1, q2, q3⟩
  let o0 ← squeezeCurrent q.a 128
  let o1 ← squeezeCurrent q.b 128
  let o2 ← squeezeCurrent q.c 128
  let o3 ← squeezeCurrent q.d 128
  let s := setLanes s i4
  let q := { q with a := s }
  let s := setLanes s i5
  let q := { q with b := s }
  let q := twoOfFour F G q
  let o4 ← squeezeCurrent q.a 128
  let o5 ← squeezeCurrent q.b 128
  pure [o0, o1, o2, o3, o4, o5]

/-- `SqueezingSponge4xShake128::new`, sha3.rs:276-315. -/
def new4x (F : Lanes → Lanes) (i0 i1 i2 i3 : Bytes) : Four :=
  let s := endBit SHAKE_128_R
  let s := setLanes s i0
  let q0 := s
  let s := setLanes s i1
  let q1 := s
  let s := setLanes s i2
  let q2 := s
  let s := setLanes s i3
  four F ⟨q0, q1, q2, s⟩

/-- `squeeze_rate` for all four states, sha3.rs:325-335. -/
def squeezeRate (q : Four) : Option (List Bytes) := do
  let a ← squeezeCurrent q.a SHAKE_128_R
  let b ← squeezeCurrent q.b SHAKE_128_R
  let c ← squeezeCurrent q.c SHAKE_128_R
  let d ← squeezeCurrent q.d SHAKE_128_R
  pure [a, b, c, d]

/-- `SqueezingSponge4xShake128::squeeze`, sha3.rs:317-360: the states to which a permutation is owed, and the four
outputs of three blocks. -/
def squeeze4x (F : Lanes → Lanes) (q : Four) : Option (Four × List Bytes) := do
  let x ← squeezeRate q
  let q := four F q
  let y ← squeezeRate q
  let q := four F q
  let z ← squeezeRate q
  pure (q, List.zipWith (· ++ ·) (List.zipWith (· ++ ·) x y) z)

/-- `SqueezingSpongeObligation::restitute`, sha3.rs:370-373. -/
def restitute (F : Lanes → Lanes) (s : Lanes) : Lanes := F s

end Verif.Sha3
