import Verif.Model.Neon
import Verif.Base.Chunks
import Verif.Base.Words8

/-!
Model of `graviola/src/low/aarch64/sha256.rs`: SHA-256 with the Armv8 cryptographic extension.

The four instructions are transcribed from the Arm architecture manual (`SHA256hash`, SHA256SU0, SHA256SU1) and do not refer to
the specification of SHA-256.  The prefetch hint has no effect and is left out.
-/
namespace Verif.Sha256Arm
open Verif Verif.Simd Verif.Neon

/-! ### Instructions -/

/-- `SHAchoose`. -/
def shaChoose (x y z : BitVec 32) : BitVec 32 := ((y ^^^ z) &&& x) ^^^ z
/-- `SHAmajority`. -/
def shaMajority (x y z : BitVec 32) : BitVec 32 := (x &&& y) ||| ((x ||| y) &&& z)
/-- `SHAhashSIGMA0`. -/
def shaSIGMA0 (x : BitVec 32) : BitVec 32 := x.rotateRight 2 ^^^ x.rotateRight 13 ^^^ x.rotateRight 22
/-- `SHAhashSIGMA1`. -/
def shaSIGMA1 (x : BitVec 32) : BitVec 32 := x.rotateRight 6 ^^^ x.rotateRight 11 ^^^ x.rotateRight 25

/-- One iteration of `SHA256hash` on `X` and `Y`: update their top elements, then rotate `Y:X` left by one element. -/
def hashStep (xy : Q × Q) (w : BitVec 32) : Q × Q :=
  let (X, Y) := xy
  let chs := shaChoose (dword Y 0) (dword Y 1) (dword Y 2)
  let maj := shaMajority (dword X 0) (dword X 1) (dword X 2)
  let t := dword Y 3 + shaSIGMA1 (dword Y 0) + chs + w
  let x3 := t + dword X 3
  let y3 := t + shaSIGMA0 (dword X 0) + maj
  (dwords y3 (dword X 0) (dword X 1) (dword X 2), dwords x3 (dword Y 0) (dword Y 1) (dword Y 2))

/-- `SHA256hash(X, Y, W, _)`: both results. -/
def sha256hash (X Y W : Q) : Q × Q :=
  [dword W 0, dword W 1, dword W 2, dword W 3].foldl hashStep (X, Y)

/-- `vsha256hq_u32(hash_abcd, hash_efgh, wk)`, SHA256H. -/
def vsha256hq (abcd efgh wk : Q) : Q := (sha256hash abcd efgh wk).1
/-- `vsha256h2q_u32(hash_efgh, hash_abcd, wk)`, SHA256H2. -/
def vsha256h2q (efgh abcd wk : Q) : Q := (sha256hash abcd efgh wk).2

/-- The function of SHA256SU0. -/
def su0Elt (x : BitVec 32) : BitVec 32 := x.rotateRight 7 ^^^ x.rotateRight 18 ^^^ (x >>> 3)
/-- The function of SHA256SU1. -/
def su1Elt (x : BitVec 32) : BitVec 32 := x.rotateRight 17 ^^^ x.rotateRight 19 ^^^ (x >>> 10)

/-- `vsha256su0q_u32`, SHA256SU0: `T = operand2<31:0> : operand1<127:32>`. -/
def vsha256su0q (a b : Q) : Q :=
  dwords (su0Elt (dword a 1) + dword a 0) (su0Elt (dword a 2) + dword a 1) (su0Elt (dword a 3) + dword a 2)
    (su0Elt (dword b 0) + dword a 3)

/-- `vsha256su1q_u32`, SHA256SU1: `T0 = operand3<31:0> : operand2<127:32>`, `T1 = operand3<127:64>`, then the new low half. -/
def vsha256su1q (a b c : Q) : Q :=
  let r0 := su1Elt (dword c 2) + dword a 0 + dword b 1
  let r1 := su1Elt (dword c 3) + dword a 1 + dword b 2
  dwords r0 r1 (su1Elt r0 + dword a 2 + dword b 3) (su1Elt r1 + dword a 3 + dword c 0)

/-! ### sha256.rs -/

/-- `K`, sha256.rs:124-133. -/
def K : List (BitVec 32) := [
  0x428a2f98#32, 0x71374491#32, 0xb5c0fbcf#32, 0xe9b5dba5#32, 0x3956c25b#32, 0x59f111f1#32, 0x923f82a4#32, 0xab1c5ed5#32,
  0xd807aa98#32, 0x12835b01#32, 0x243185be#32, 0x550c7dc3#32, 0x72be5d74#32, 0x80deb1fe#32, 0x9bdc06a7#32, 0xc19bf174#32,
  0xe49b69c1#32, 0xefbe4786#32, 0x0fc19dc6#32, 0x240ca1cc#32, 0x2de92c6f#32, 0x4a7484aa#32, 0x5cb0a9dc#32, 0x76f988da#32,
  0x983e5152#32, 0xa831c66d#32, 0xb00327c8#32, 0xbf597fc7#32, 0xc6e00bf3#32, 0xd5a79147#32, 0x06ca6351#32, 0x14292967#32,
  0x27b70a85#32, 0x2e1b2138#32, 0x4d2c6dfc#32, 0x53380d13#32, 0x650a7354#32, 0x766a0abb#32, 0x81c2c92e#32, 0x92722c85#32,
  0xa2bfe8a1#32, 0xa81a664b#32, 0xc24b8b70#32, 0xc76c51a3#32, 0xd192e819#32, 0xd6990624#32, 0xf40e3585#32, 0x106aa070#32,
  0x19a4c116#32, 0x1e376c08#32, 0x2748774c#32, 0x34b0bcb5#32, 0x391c0cb3#32, 0x4ed8aa4a#32, 0x5b9cca4f#32, 0x682e6ff3#32,
  0x748f82ee#32, 0x78a5636f#32, 0x84c87814#32, 0x8cc70208#32, 0x90befffa#32, 0xa4506ceb#32, 0xbef9a3f7#32, 0xc67178f2#32]

/-- `k!(i)`, sha256.rs:14-19. -/
def k (i : Nat) : Q := dwords (K.getD (4 * i) 0#32) (K.getD (4 * i + 1) 0#32) (K.getD (4 * i + 2) 0#32) (K.getD (4 * i + 3) 0#32)

/-- The variables of the loop body. -/
structure Regs where
  msg0 : Q
  msg1 : Q
  msg2 : Q
  msg3 : Q
  state0 : Q
  state1 : Q

/-- The second form of `round!`, on the two state variables, sha256.rs:31-36. -/
def rounds (msg state0 state1 kk : Q) : Q × Q :=
  let t0 := vaddq32 msg kk
  let t1 := state0
  let state0 := vsha256hq state0 state1 t0
  let state1 := vsha256h2q state1 t1 t0
  (state0, state1)

/-- The update of `$msg0` in the first form of `round!`, sha256.rs:27-28. -/
def schedule (msg0 msg1 msg2 msg3 : Q) : Q := vsha256su1q (vsha256su0q msg0 msg1) msg2 msg3

/-- `round!(msg0, msg1, msg2, msg3, state0, state1, k)`, sha256.rs:22-29. -/
def round0 (r : Regs) (kk : Q) : Regs :=
  let s := rounds r.msg0 r.state0 r.state1 kk
  { r with msg0 := schedule r.msg0 r.msg1 r.msg2 r.msg3, state0 := s.1, state1 := s.2 }
/-- `round!(msg1, msg2, msg3, msg0, state0, state1, k)`. -/
def round1 (r : Regs) (kk : Q) : Regs :=
  let s := rounds r.msg1 r.state0 r.state1 kk
  { r with msg1 := schedule r.msg1 r.msg2 r.msg3 r.msg0, state0 := s.1, state1 := s.2 }
/-- `round!(msg2, msg3, msg0, msg1, state0, state1, k)`. -/
def round2 (r : Regs) (kk : Q) : Regs :=
  let s := rounds r.msg2 r.state0 r.state1 kk
  { r with msg2 := schedule r.msg2 r.msg3 r.msg0 r.msg1, state0 := s.1, state1 := s.2 }
/-- `round!(msg3, msg0, msg1, msg2, state0, state1, k)`. -/
def round3 (r : Regs) (kk : Q) : Regs :=
  let s := rounds r.msg3 r.state0 r.state1 kk
  { r with msg3 := schedule r.msg3 r.msg0 r.msg1 r.msg2, state0 := s.1, state1 := s.2 }

/-- `vrev32q_u8(vld1q_u32(block[i..]))`, sha256.rs:75-89. -/
def input (block : Bytes) (i : Nat) : Q := vrev32q (vld1q ((block.drop i).take 16))

/-- The loop body, sha256.rs:66-115, on `state0` and `state1`. -/
def block (s : Q × Q) (b : Bytes) : Q × Q :=
  let r : Regs := ⟨input b 0, input b 16, input b 32, input b 48, s.1, s.2⟩
  let r := round0 r (k 0)
  let r := round1 r (k 1)
  let r := round2 r (k 2)
  let r := round3 r (k 3)
  let r := round0 r (k 4)
  let r := round1 r (k 5)
  let r := round2 r (k 6)
  let r := round3 r (k 7)
  let r := round0 r (k 8)
  let r := round1 r (k 9)
  let r := round2 r (k 10)
  let r := round3 r (k 11)
  let t := rounds r.msg0 r.state0 r.state1 (k 12)
  let t := rounds r.msg1 t.1 t.2 (k 13)
  let t := rounds r.msg2 t.1 t.2 (k 14)
  let t := rounds r.msg3 t.1 t.2 (k 15)
  (vaddq32 t.1 s.1, vaddq32 t.2 s.2)

/-- `sha256_compress_blocks`, sha256.rs:8-12, 39-122: load the state, the loop, store the state. -/
def compressBlocks (state : St 32) (blocks : Bytes) : St 32 :=
  let s0 := dwords state.a state.b state.c state.d
  let s1 := dwords state.e state.f state.g state.h
  let s := (chunksExact 64 blocks).foldl block (s0, s1)
  ⟨dword s.1 0, dword s.1 1, dword s.1 2, dword s.1 3, dword s.2 0, dword s.2 1, dword s.2 2, dword s.2 3⟩

end Verif.Sha256Arm
