import Verif.Model.Simd
import Verif.Model.Sha2
import Verif.Base.Chunks
import Verif.Base.Words8

/-!
Model of `graviola/src/low/x86_64/sha256.rs`: SHA-256 with the SHA extensions.

The three SHA instructions are transcribed from Intel's manual and do not refer to the specification of SHA-256.
-/
namespace Verif.Sha256Ni
open Verif Verif.Simd

/-! ### Instructions -/

/-- `Ch`, `Maj` and the four functions of the manual's pseudocode. -/
def ch (e f g : BitVec 32) : BitVec 32 := (e &&& f) ^^^ (~~~e &&& g)
def maj (a b c : BitVec 32) : BitVec 32 := (a &&& b) ^^^ (a &&& c) ^^^ (b &&& c)
def Sig0 (x : BitVec 32) : BitVec 32 := x.rotateRight 2 ^^^ x.rotateRight 13 ^^^ x.rotateRight 22
def Sig1 (x : BitVec 32) : BitVec 32 := x.rotateRight 6 ^^^ x.rotateRight 11 ^^^ x.rotateRight 25
def sig0 (x : BitVec 32) : BitVec 32 := x.rotateRight 7 ^^^ x.rotateRight 18 ^^^ (x >>> 3)
def sig1 (x : BitVec 32) : BitVec 32 := x.rotateRight 17 ^^^ x.rotateRight 19 ^^^ (x >>> 10)

/-- One iteration of the loop of SHA256RNDS2. -/
def rnd (s : St 32) (wk : BitVec 32) : St 32 :=
  ⟨ch s.e s.f s.g + Sig1 s.e + wk + s.h + maj s.a s.b s.c + Sig0 s.a, s.a, s.b, s.c,
    ch s.e s.f s.g + Sig1 s.e + wk + s.h + s.d, s.e, s.f, s.g⟩

/-- `_mm_sha256rnds2_epu32(a, b, k)`: `a` holds H, G, D, C from the lowest element, `b` holds F, E, B, A. -/
def rnds2 (a b k : M128) : M128 :=
  let s : St 32 := ⟨dword b 3, dword b 2, dword a 3, dword a 2, dword b 1, dword b 0, dword a 1, dword a 0⟩
  let s := rnd (rnd s (dword k 0)) (dword k 1)
  dwords s.f s.e s.b s.a

/-- `_mm_sha256msg1_epu32`. -/
def msg1 (a b : M128) : M128 :=
  dwords (dword a 0 + sig0 (dword a 1)) (dword a 1 + sig0 (dword a 2)) (dword a 2 + sig0 (dword a 3))
    (dword a 3 + sig0 (dword b 0))

/-- `_mm_sha256msg2_epu32`. -/
def msg2 (a b : M128) : M128 :=
  let w16 := dword a 0 + sig1 (dword b 2)
  let w17 := dword a 1 + sig1 (dword b 3)
  dwords w16 w17 (dword a 2 + sig1 w16) (dword a 3 + sig1 w17)

/-- `_mm_alignr_epi8(a, b, n)` for `n = 4` and `n = 8`, in 32-bit elements: the elements from `n / 4` of `b` followed by `a`. -/
def alignr4 (a b : M128) : M128 := dwords (dword b 1) (dword b 2) (dword b 3) (dword a 0)
def alignr8 (a b : M128) : M128 := dwords (dword b 2) (dword b 3) (dword a 0) (dword a 1)
/-- `_mm_blend_epi16(a, b, 0xf0)`: the upper four 16-bit elements of `b`. -/
def blendF0 (a b : M128) : M128 := dwords (dword a 0) (dword a 1) (dword b 2) (dword b 3)

/-! ### sha256.rs -/

/-- `K`, sha256.rs:142-151. -/
def K : List (BitVec 32) := [
  0x428a2f98#32, 0x71374491#32, 0xb5c0fbcf#32, 0xe9b5dba5#32, 0x3956c25b#32, 0x59f111f1#32, 0x923f82a4#32, 0xab1c5ed5#32,
  0xd807aa98#32, 0x12835b01#32, 0x243185be#32, 0x550c7dc3#32, 0x72be5d74#32, 0x80deb1fe#32, 0x9bdc06a7#32, 0xc19bf174#32,
  0xe49b69c1#32, 0xefbe4786#32, 0x0fc19dc6#32, 0x240ca1cc#32, 0x2de92c6f#32, 0x4a7484aa#32, 0x5cb0a9dc#32, 0x76f988da#32,
  0x983e5152#32, 0xa831c66d#32, 0xb00327c8#32, 0xbf597fc7#32, 0xc6e00bf3#32, 0xd5a79147#32, 0x06ca6351#32, 0x14292967#32,
  0x27b70a85#32, 0x2e1b2138#32, 0x4d2c6dfc#32, 0x53380d13#32, 0x650a7354#32, 0x766a0abb#32, 0x81c2c92e#32, 0x92722c85#32,
  0xa2bfe8a1#32, 0xa81a664b#32, 0xc24b8b70#32, 0xc76c51a3#32, 0xd192e819#32, 0xd6990624#32, 0xf40e3585#32, 0x106aa070#32,
  0x19a4c116#32, 0x1e376c08#32, 0x2748774c#32, 0x34b0bcb5#32, 0x391c0cb3#32, 0x4ed8aa4a#32, 0x5b9cca4f#32, 0x682e6ff3#32,
  0x748f82ee#32, 0x78a5636f#32, 0x84c87814#32, 0x8cc70208#32, 0x90befffa#32, 0xa4506ceb#32, 0xbef9a3f7#32, 0xc67178f2#32]

/-- `k!(i)`, sha256.rs:17-24. -/
def k (i : Nat) : M128 := dwords (K.getD (4 * i) 0#32) (K.getD (4 * i + 1) 0#32) (K.getD (4 * i + 2) 0#32) (K.getD (4 * i + 3) 0#32)

/-- `little_endian_shuffle`, sha256.rs:53: `_mm_set_epi64x(0x0c0d0e0f08090a0b, 0x0405060700010203)`. -/
def SHUFFLE : M128 := 0x0c0d0e0f08090a0b#64 ++ 0x0405060700010203#64

/-- The variables of the loop body. -/
structure Regs where
  msg0 : M128
  msg1 : M128
  msg2 : M128
  msg3 : M128
  state0 : M128
  state1 : M128

/-- The first form of `round!`, on the two state variables, sha256.rs:27-32; the third form does the same to them, sha256.rs:40-41,
45-46. -/
def rounds (cur state0 state1 kk : M128) : M128 × M128 :=
  let msg := add32 cur kk
  let state1 := rnds2 state1 state0 msg
  let msg := shuffle32 msg 0b00001110
  let state0 := rnds2 state0 state1 msg
  (state0, state1)

/-- The new `$msg_next` of the third form, sha256.rs:42-44. -/
def next (cur prev nxt : M128) : M128 :=
  let tmp := alignr4 cur prev
  let nxt := add32 nxt tmp
  msg2 nxt cur

/-- The second form, for `k1` and `k2`, sha256.rs:34-37. -/
def round1of2 (r : Regs) (kk : M128) : Regs :=
  let s := rounds r.msg1 r.state0 r.state1 kk
  { r with msg0 := msg1 r.msg0 r.msg1, state0 := s.1, state1 := s.2 }
def round2of2 (r : Regs) (kk : M128) : Regs :=
  let s := rounds r.msg2 r.state0 r.state1 kk
  { r with msg1 := msg1 r.msg1 r.msg2, state0 := s.1, state1 := s.2 }

/-- `round!(msg3, msg2, msg0, state0, state1, k)`, the third form, sha256.rs:39-48. -/
def round3 (r : Regs) (kk : M128) : Regs :=
  let s := rounds r.msg3 r.state0 r.state1 kk
  { r with msg0 := next r.msg3 r.msg2 r.msg0, msg2 := msg1 r.msg2 r.msg3, state0 := s.1, state1 := s.2 }
/-- `round!(msg0, msg3, msg1, state0, state1, k)`. -/
def round0 (r : Regs) (kk : M128) : Regs :=
  let s := rounds r.msg0 r.state0 r.state1 kk
  { r with msg1 := next r.msg0 r.msg3 r.msg1, msg3 := msg1 r.msg3 r.msg0, state0 := s.1, state1 := s.2 }
/-- `round!(msg1, msg0, msg2, state0, state1, k)`. -/
def round1 (r : Regs) (kk : M128) : Regs :=
  let s := rounds r.msg1 r.state0 r.state1 kk
  { r with msg2 := next r.msg1 r.msg0 r.msg2, msg0 := msg1 r.msg0 r.msg1, state0 := s.1, state1 := s.2 }
/-- `round!(msg2, msg1, msg3, state0, state1, k)`. -/
def round2 (r : Regs) (kk : M128) : Regs :=
  let s := rounds r.msg2 r.state0 r.state1 kk
  { r with msg3 := next r.msg2 r.msg1 r.msg3, msg1 := msg1 r.msg1 r.msg2, state0 := s.1, state1 := s.2 }

/-- `_mm_shuffle_epi8(_mm_loadu_si128(block[i..]), little_endian_shuffle)`, sha256.rs:89-104. -/
def input (block : Bytes) (i : Nat) : M128 := shuffle8 (load ((block.drop i).take 16)) SHUFFLE

/-- The loop body, sha256.rs:85-125, on `state0` and `state1`. -/
def block (s : M128 × M128) (b : Bytes) : M128 × M128 :=
  let r : Regs := ⟨input b 0, input b 16, input b 32, input b 48, s.1, s.2⟩
  let t := rounds r.msg0 r.state0 r.state1 (k 0)
  let r := { r with state0 := t.1, state1 := t.2 }
  let r := round1of2 r (k 1)
  let r := round2of2 r (k 2)
  let r := round3 r (k 3)
  let r := round0 r (k 4)
  let r := round1 r (k 5)
  let r := round2 r (k 6)
  let r := round3 r (k 7)
  let r := round0 r (k 8)
  let r := round1 r (k 9)
  let r := round2 r (k 10)
  let r := round3 r (k 11)
  let r := round0 r (k 12)
  let r := round1 r (k 13)
  let r := round2 r (k 14)
  let t := rounds r.msg3 r.state0 r.state1 (k 15)
  (add32 t.1 s.1, add32 t.2 s.2)

/-- The state in the order of the instructions, sha256.rs:63-66. -/
def pack (state0 state1 : M128) : M128 × M128 :=
  let tmp := shuffle32 state0 0b10110001
  let state1 := shuffle32 state1 0b00011011
  let state0 := alignr8 tmp state1
  let state1 := blendF0 state1 tmp
  (state0, state1)

/-- And back, sha256.rs:127-130. -/
def unpack (s : M128 × M128) : M128 × M128 :=
  let tmp := shuffle32 s.1 0b00011011
  let state1 := shuffle32 s.2 0b10110001
  let state0 := blendF0 tmp state1
  let state1 := alignr8 state1 tmp
  (state0, state1)

/-- `sha256_compress_blocks_shaext`, sha256.rs:6-15, 52-137. -/
def compressBlocks (state : St 32) (blocks : Bytes) : St 32 :=
  let s := pack (dwords state.a state.b state.c state.d) (dwords state.e state.f state.g state.h)
  let s := unpack ((chunksExact 64 blocks).foldl block s)
  ⟨dword s.1 0, dword s.1 1, dword s.1 2, dword s.1 3, dword s.2 0, dword s.2 1, dword s.2 2, dword s.2 3⟩

/-- `sha256_compress_blocks` of low/x86_64/sha256_mux.rs:7-13: by whether the processor has the SHA extensions. -/
def mux (haveSha256 : Bool) (state : St 32) (blocks : Bytes) : St 32 :=
  if haveSha256 then compressBlocks state blocks else Sha2.compressBlocks Sha2.params256 64 state blocks

end Verif.Sha256Ni
