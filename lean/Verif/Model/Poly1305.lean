import Verif.Model.Blockwise

/-!
Model of `graviola/src/low/generic/poly1305.rs`.

Arithmetic is on `BitVec 32` and `BitVec 64`, so it wraps as in a release build; the plain `+` and
`*` of the source never overflow on reachable states (this follows from the bounds proved in
`Proof/Poly1305.lean`), so a debug build computes the same.  `none` is a panic.
-/
namespace Verif.Poly1305
open Verif Verif.Blockwise

/-- `[u32; 5]`. -/
structure L5 where
  x0 : BitVec 32
  x1 : BitVec 32
  x2 : BitVec 32
  x3 : BitVec 32
  x4 : BitVec 32
  deriving DecidableEq

/-- `[u32; 4]`. -/
structure L4 where
  x0 : BitVec 32
  x1 : BitVec 32
  x2 : BitVec 32
  x3 : BitVec 32
  deriving DecidableEq

/-- `Poly1305`, poly1305.rs:8-23. -/
structure Poly1305 where
  h : L5
  r : L5
  r5 : L4
  s : L4
  bw : Blockwise

/-- `read32(&bytes[i..i + 4])`, poly1305.rs:133-135. -/
def read32 (bytes : Bytes) (i : Nat) : BitVec 32 := BitVec.ofNat 32 (leNat ((bytes.drop i).take 4))

/-- `Poly1305::new`, poly1305.rs:26-49, for a 32-byte key. -/
def new (key : Bytes) : Poly1305 :=
  let r : L5 := ⟨read32 key 0 &&& 0x3ffffff#32, (read32 key 3 >>> 2) &&& 0x3ffff03#32,
    (read32 key 6 >>> 4) &&& 0x3ffc0ff#32, (read32 key 9 >>> 6) &&& 0x3f03fff#32,
    (read32 key 12 >>> 8) &&& 0x00fffff#32⟩
  { h := ⟨0#32, 0#32, 0#32, 0#32, 0#32⟩
    r := r
    r5 := ⟨r.x1 * 5#32, r.x2 * 5#32, r.x3 * 5#32, r.x4 * 5#32⟩
    s := ⟨read32 key 16, read32 key 20, read32 key 24, read32 key 28⟩
    bw := Blockwise.new 16 }

/-- `add`, poly1305.rs:137-143. -/
def add (h x : L5) : L5 := ⟨h.x0 + x.x0, h.x1 + x.x1, h.x2 + x.x2, h.x3 + x.x3, h.x4 + x.x4⟩

/-- `mul32`, poly1305.rs:146-148. -/
def mul32 (a b : BitVec 32) : BitVec 64 := a.setWidth 64 * b.setWidth 64

/-- `mul`, poly1305.rs:145-195. -/
def mul (h r : L5) (s : L4) : L5 :=
  let d0 := mul32 h.x0 r.x0 + mul32 h.x1 s.x3 + mul32 h.x2 s.x2 + mul32 h.x3 s.x1 + mul32 h.x4 s.x0
  let d1 := mul32 h.x0 r.x1 + mul32 h.x1 r.x0 + mul32 h.x2 s.x3 + mul32 h.x3 s.x2 + mul32 h.x4 s.x1
  let d2 := mul32 h.x0 r.x2 + mul32 h.x1 r.x1 + mul32 h.x2 r.x0 + mul32 h.x3 s.x3 + mul32 h.x4 s.x2
  let d3 := mul32 h.x0 r.x3 + mul32 h.x1 r.x2 + mul32 h.x2 r.x1 + mul32 h.x3 r.x0 + mul32 h.x4 s.x3
  let d4 := mul32 h.x0 r.x4 + mul32 h.x1 r.x3 + mul32 h.x2 r.x2 + mul32 h.x3 r.x1 + mul32 h.x4 r.x0
  let carry := d0 >>> 26
  let h0 := (d0 &&& 0x3ffffff#64).setWidth 32
  let d1 := d1 + carry
  let carry := d1 >>> 26
  let h1 := (d1 &&& 0x3ffffff#64).setWidth 32
  let d2 := d2 + carry
  let carry := d2 >>> 26
  let h2 := (d2 &&& 0x3ffffff#64).setWidth 32
  let d3 := d3 + carry
  let carry := d3 >>> 26
  let h3 := (d3 &&& 0x3ffffff#64).setWidth 32
  let d4 := d4 + carry
  let carry := (d4 >>> 26).setWidth 32
  let h4 := (d4 &&& 0x3ffffff#64).setWidth 32
  let h0 := h0 + carry * 5#32
  let carry := h0 >>> 26
  let h0 := h0 &&& 0x3ffffff#32
  let h1 := h1 + carry
  ⟨h0, h1, h2, h3, h4⟩

/-- Plain `+` of a build with overflow checks: panics when the sum does not fit. -/
def cadd {n : Nat} (a b : BitVec n) : Option (BitVec n) :=
  if a.toNat + b.toNat < 2 ^ n then some (a + b) else none

/-- Plain `*` of a build with overflow checks. -/
def cmul {n : Nat} (a b : BitVec n) : Option (BitVec n) :=
  if a.toNat * b.toNat < 2 ^ n then some (a * b) else none

/-- `a + b + c + d + e` with overflow checks. -/
def csum5 (a b c d e : BitVec 64) : Option (BitVec 64) :=
  ((((cadd a b).bind (cadd · c)).bind (cadd · d)).bind (cadd · e))

/-- `mul32` with overflow checks, poly1305.rs:146-148. -/
def cmul32 (a b : BitVec 32) : Option (BitVec 64) := cmul (a.setWidth 64) (b.setWidth 64)

/-- Five products and their sum with overflow checks, poly1305.rs:150-174. -/
def crow (a0 b0 a1 b1 a2 b2 a3 b3 a4 b4 : BitVec 32) : Option (BitVec 64) := do
  csum5 (← cmul32 a0 b0) (← cmul32 a1 b1) (← cmul32 a2 b2) (← cmul32 a3 b3) (← cmul32 a4 b4)

/-- `mul`, poly1305.rs:145-195, as built with overflow checks: `none` if any plain `+` or `*`
overflows. -/
def mulChecked (h r : L5) (s : L4) : Option L5 := do
  let d0 ← crow h.x0 r.x0 h.x1 s.x3 h.x2 s.x2 h.x3 s.x1 h.x4 s.x0
  let d1 ← crow h.x0 r.x1 h.x1 r.x0 h.x2 s.x3 h.x3 s.x2 h.x4 s.x1
  let d2 ← crow h.x0 r.x2 h.x1 r.x1 h.x2 r.x0 h.x3 s.x3 h.x4 s.x2
  let d3 ← crow h.x0 r.x3 h.x1 r.x2 h.x2 r.x1 h.x3 r.x0 h.x4 s.x3
  let d4 ← crow h.x0 r.x4 h.x1 r.x3 h.x2 r.x2 h.x3 r.x1 h.x4 r.x0
  let h0 := (d0 &&& 0x3ffffff#64).setWidth 32
  let d1 ← cadd d1 (d0 >>> 26)
  let h1 := (d1 &&& 0x3ffffff#64).setWidth 32
  let d2 ← cadd d2 (d1 >>> 26)
  let h2 := (d2 &&& 0x3ffffff#64).setWidth 32
  let d3 ← cadd d3 (d2 >>> 26)
  let h3 := (d3 &&& 0x3ffffff#64).setWidth 32
  let d4 ← cadd d4 (d3 >>> 26)
  let h4 := (d4 &&& 0x3ffffff#64).setWidth 32
  let c5 ← cmul ((d4 >>> 26).setWidth 32) 5#32
  let h0 ← cadd h0 c5
  let h1 ← cadd h1 (h0 >>> 26)
  pure ⟨h0 &&& 0x3ffffff#32, h1, h2, h3, h4⟩

/-- `process_block`, poly1305.rs:127-130. -/
def processBlock (p : Poly1305) (block : L5) : Poly1305 := { p with h := mul (add p.h block) p.r p.r5 }

/-- `process_whole_block`, poly1305.rs:101-110. -/
def processWholeBlock (p : Poly1305) (inp : Bytes) : Poly1305 :=
  processBlock p ⟨read32 inp 0 &&& 0x3ffffff#32, (read32 inp 3 >>> 2) &&& 0x3ffffff#32,
    (read32 inp 6 >>> 4) &&& 0x3ffffff#32, (read32 inp 9 >>> 6) &&& 0x3ffffff#32,
    (read32 inp 12 >>> 8) ||| (1#32 <<< 24)⟩

/-- `process_last_block`, poly1305.rs:112-125; panics if the input is not shorter than 16 bytes. -/
def processLastBlock (p : Poly1305) (inp : Bytes) : Option Poly1305 :=
  if inp.length < 16 then
    let bytes := inp ++ [0x01#8] ++ List.replicate (15 - inp.length) 0#8
    some (processBlock p ⟨read32 bytes 0 &&& 0x3ffffff#32, (read32 bytes 3 >>> 2) &&& 0x3ffffff#32,
      (read32 bytes 6 >>> 4) &&& 0x3ffffff#32, (read32 bytes 9 >>> 6) &&& 0x3ffffff#32,
      read32 bytes 12 >>> 8⟩)
  else none

/-- `add_bytes`, poly1305.rs:51-64. -/
def addBytes (p : Poly1305) (bytes : Bytes) : Option Poly1305 :=
  match addLeading 16 p.bw bytes with
  | none => none
  | some (bw, rest) =>
    let (bw, full) := Blockwise.take 16 bw
    let p := { p with bw := bw }
    let p := match full with
      | some block => processWholeBlock p block
      | none => p
    let p := (chunksExact 16 rest).foldl processWholeBlock p
    match addTrailing p.bw (chunksRem 16 rest) with
    | none => none
    | some bw => some { p with bw := bw }

/-- `min_reduce`, poly1305.rs:202-222. -/
def minReduce (h : L5) : L5 :=
  let carry := h.x1 >>> 26
  let h1 := h.x1 &&& 0x3ffffff#32
  let h2 := h.x2 + carry
  let carry := h2 >>> 26
  let h2 := h2 &&& 0x3ffffff#32
  let h3 := h.x3 + carry
  let carry := h3 >>> 26
  let h3 := h3 &&& 0x3ffffff#32
  let h4 := h.x4 + carry
  let carry := h4 >>> 26
  let h4 := h4 &&& 0x3ffffff#32
  let h0 := h.x0 + carry * 5#32
  let carry := h0 >>> 26
  let h0 := h0 &&& 0x3ffffff#32
  let h1 := h1 + carry
  ⟨h0, h1, h2, h3, h4⟩

/-- `equal_mask`, poly1305.rs:254-258. -/
def equalMask (x y : BitVec 32) : BitVec 32 :=
  let diff := x ^^^ y
  let diffIsZero := ~~~diff &&& (diff - 1#32)
  0#32 - (diffIsZero >>> 31)

/-- `maybe_sub_130_5`, poly1305.rs:224-251. -/
def maybeSub (h : L5) : L5 :=
  let g0 := h.x0 + 5#32
  let carry := g0 >>> 26
  let g0 := g0 &&& 0x3ffffff#32
  let g1 := h.x1 + carry
  let carry := g1 >>> 26
  let g1 := g1 &&& 0x3ffffff#32
  let g2 := h.x2 + carry
  let carry := g2 >>> 26
  let g2 := g2 &&& 0x3ffffff#32
  let g3 := h.x3 + carry
  let carry := g3 >>> 26
  let g3 := g3 &&& 0x3ffffff#32
  let g4 := h.x4 + carry - (1#32 <<< 26)
  let negativeMask := equalMask (g4 &&& 0x80000000#32) 0x80000000#32
  let positiveMask := ~~~negativeMask
  ⟨(h.x0 &&& negativeMask) ||| (g0 &&& positiveMask), (h.x1 &&& negativeMask) ||| (g1 &&& positiveMask),
   (h.x2 &&& negativeMask) ||| (g2 &&& positiveMask), (h.x3 &&& negativeMask) ||| (g3 &&& positiveMask),
   (h.x4 &&& negativeMask) ||| (g4 &&& positiveMask)⟩

/-- `full_reduce`, poly1305.rs:197-200. -/
def fullReduce (h : L5) : L5 := maybeSub (minReduce h)

/-- `u32::to_le_bytes`. -/
def le32 (x : BitVec 32) : Bytes := toLE 4 x.toNat

/-- `add32`, poly1305.rs:80-82. -/
def add32 (a b : BitVec 32) : BitVec 64 := a.setWidth 64 + b.setWidth 64

/-- The end of `finish`, poly1305.rs:73-98: the reduced accumulator plus `s`, as bytes. -/
def output (h : L5) (s : L4) : Bytes :=
  let h0 := h.x0 ||| (h.x1 <<< 26)
  let h1 := (h.x1 >>> 6) ||| (h.x2 <<< 20)
  let h2 := (h.x2 >>> 12) ||| (h.x3 <<< 14)
  let h3 := (h.x3 >>> 18) ||| (h.x4 <<< 8)
  let f := add32 h0 s.x0
  let h0 := f.setWidth 32
  let f := add32 h1 s.x1 + (f >>> 32)
  let h1 := f.setWidth 32
  let f := add32 h2 s.x2 + (f >>> 32)
  let h2 := f.setWidth 32
  let f := add32 h3 s.x3 + (f >>> 32)
  let h3 := f.setWidth 32
  le32 h0 ++ le32 h1 ++ le32 h2 ++ le32 h3

/-- `finish`, poly1305.rs:66-99. -/
def finish (p : Poly1305) : Option Bytes :=
  match (match peekRemaining p.bw with
    | some block => processLastBlock p block
    | none => some p) with
  | none => none
  | some p => some (output (fullReduce p.h) p.s)

end Verif.Poly1305
