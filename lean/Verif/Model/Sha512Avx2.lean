import Verif.Model.Simd
import Verif.Model.Sha2
import Verif.Base.Chunks
import Verif.Base.Words8

/-!
Model of `graviola/src/low/x86_64/sha512.rs`: SHA-512 with AVX2, four blocks at a time and one block at a time.

A 256-bit register is its four 64-bit elements, the lowest first.  `rorx` of the inline assembly of `bsig0` and `bsig1` is
`rotateRight`.  `*const u64` pointers into the input are byte offsets into it.
-/
namespace Verif.Sha512Avx2
open Verif Verif.Simd

/-- `__m256i`. -/
structure M256 where
  q0 : BitVec 64
  q1 : BitVec 64
  q2 : BitVec 64
  q3 : BitVec 64
  deriving DecidableEq

def map1 (f : BitVec 64 → BitVec 64) (a : M256) : M256 := ⟨f a.q0, f a.q1, f a.q2, f a.q3⟩
def map2 (f : BitVec 64 → BitVec 64 → BitVec 64) (a b : M256) : M256 := ⟨f a.q0 b.q0, f a.q1 b.q1, f a.q2 b.q2, f a.q3 b.q3⟩

/-- `_mm256_add_epi64`, `_mm256_xor_si256`, `_mm256_srli_epi64`, `_mm256_slli_epi64`. -/
def add : M256 → M256 → M256 := map2 (· + ·)
def xor : M256 → M256 → M256 := map2 (· ^^^ ·)
def srli (a : M256) (n : Nat) : M256 := map1 (· >>> n) a
def slli (a : M256) (n : Nat) : M256 := map1 (· <<< n) a

/-- `_mm256_extract_epi64(v, i)`, for `i < 4`. -/
def extract (v : M256) (i : Nat) : BitVec 64 :=
  match i with
  | 0 => v.q0
  | 1 => v.q1
  | 2 => v.q2
  | _ => v.q3

/-- `_mm256_loadu_si256`: 32 bytes of memory. -/
def loadu (b : Bytes) : M256 :=
  ⟨BitVec.ofNat 64 (leNat (b.take 8)), BitVec.ofNat 64 (leNat ((b.drop 8).take 8)),
    BitVec.ofNat 64 (leNat ((b.drop 16).take 8)), BitVec.ofNat 64 (leNat ((b.drop 24).take 8))⟩

/-- `_mm256_shuffle_epi8`: each 128-bit half by its own half of the mask. -/
def shuffle8 (v mask : M256) : M256 :=
  let lo := Simd.shuffle8 (v.q1 ++ v.q0) (mask.q1 ++ mask.q0)
  let hi := Simd.shuffle8 (v.q3 ++ v.q2) (mask.q3 ++ mask.q2)
  ⟨lo64 lo, hi64 lo, lo64 hi, hi64 hi⟩

/-- `_mm256_permute4x64_epi64`: two bits of the immediate select each element, the lowest first. -/
def permute4x64 (v : M256) (imm : Nat) : M256 :=
  ⟨extract v (imm % 4), extract v (imm / 4 % 4), extract v (imm / 16 % 4), extract v (imm / 64 % 4)⟩

/-- `_mm256_permute2x128_si256(a, b, imm)`, with bits 3 and 7 of `imm` clear: two bits select each half among those of `a` and
`b`. -/
def permute2x128 (a b : M256) (imm : Nat) : M256 :=
  let half (i : Nat) : BitVec 64 × BitVec 64 :=
    match i with
    | 0 => (a.q0, a.q1)
    | 1 => (a.q2, a.q3)
    | 2 => (b.q0, b.q1)
    | _ => (b.q2, b.q3)
  ⟨(half (imm % 4)).1, (half (imm % 4)).2, (half (imm / 16 % 4)).1, (half (imm / 16 % 4)).2⟩

/-- `_mm256_alignr_epi8(a, b, 8)`: in each half, the upper element of `b` followed by the lower of `a`. -/
def alignr8 (a b : M256) : M256 := ⟨b.q1, a.q0, b.q3, a.q2⟩

/-- `_mm256_i64gather_epi64(base, index, 8)`: `base` is a byte offset into `m`. -/
def gather (m : Bytes) (base : Nat) (i0 i1 i2 i3 : Nat) : M256 :=
  let at' (i : Nat) : BitVec 64 := BitVec.ofNat 64 (leNat ((m.drop (base + 8 * i)).take 8))
  ⟨at' i0, at' i1, at' i2, at' i3⟩

/-! ### Functions -/

/-- `ch`, sha512.rs:11-14. -/
def ch (x y z : BitVec 64) : BitVec 64 := (x &&& y) ^^^ (~~~x &&& z)
/-- `maj`, sha512.rs:16-19. -/
def maj (x y z : BitVec 64) : BitVec 64 := (x &&& y) ^^^ (x &&& z) ^^^ (y &&& z)

/-- `bsig0`, sha512.rs:21-41. -/
def bsig0 (x : BitVec 64) : BitVec 64 :=
  let t := x.rotateRight 28
  let r := x.rotateRight 34
  let r := r ^^^ t
  let t := x.rotateRight 39
  r ^^^ t

/-- `bsig1`, sha512.rs:43-62. -/
def bsig1 (x : BitVec 64) : BitVec 64 :=
  let t := x.rotateRight 14
  let r := x.rotateRight 18
  let r := r ^^^ t
  let t := x.rotateRight 41
  r ^^^ t

/-- `sigma_0`, sha512.rs:64-74. -/
def sigma0 (w : M256) : M256 :=
  xor (xor (xor (srli w 7) (srli w 8)) (xor (srli w 1) (slli w 56))) (slli w 63)

/-- `sigma_1`, sha512.rs:76-86. -/
def sigma1 (w : M256) : M256 :=
  xor (xor (xor (srli w 6) (srli w 61)) (xor (srli w 19) (slli w 3))) (slli w 45)

/-- `BSWAP_SHUFFLE`, sha512.rs:483-489. -/
def BSWAP : M256 := loadu [7#8, 6#8, 5#8, 4#8, 3#8, 2#8, 1#8, 0#8, 15#8, 14#8, 13#8, 12#8, 11#8, 10#8, 9#8, 8#8,
  7#8, 6#8, 5#8, 4#8, 3#8, 2#8, 1#8, 0#8, 15#8, 14#8, 13#8, 12#8, 11#8, 10#8, 9#8, 8#8]

/-- `K`, sha512.rs:491-572. -/
def K : List (BitVec 64) := [
  0x428a2f98d728ae22#64, 0x7137449123ef65cd#64, 0xb5c0fbcfec4d3b2f#64, 0xe9b5dba58189dbbc#64, 0x3956c25bf348b538#64,
  0x59f111f1b605d019#64, 0x923f82a4af194f9b#64, 0xab1c5ed5da6d8118#64, 0xd807aa98a3030242#64, 0x12835b0145706fbe#64,
  0x243185be4ee4b28c#64, 0x550c7dc3d5ffb4e2#64, 0x72be5d74f27b896f#64, 0x80deb1fe3b1696b1#64, 0x9bdc06a725c71235#64,
  0xc19bf174cf692694#64, 0xe49b69c19ef14ad2#64, 0xefbe4786384f25e3#64, 0x0fc19dc68b8cd5b5#64, 0x240ca1cc77ac9c65#64,
  0x2de92c6f592b0275#64, 0x4a7484aa6ea6e483#64, 0x5cb0a9dcbd41fbd4#64, 0x76f988da831153b5#64, 0x983e5152ee66dfab#64,
  0xa831c66d2db43210#64, 0xb00327c898fb213f#64, 0xbf597fc7beef0ee4#64, 0xc6e00bf33da88fc2#64, 0xd5a79147930aa725#64,
  0x06ca6351e003826f#64, 0x142929670a0e6e70#64, 0x27b70a8546d22ffc#64, 0x2e1b21385c26c926#64, 0x4d2c6dfc5ac42aed#64,
  0x53380d139d95b3df#64, 0x650a73548baf63de#64, 0x766a0abb3c77b2a8#64, 0x81c2c92e47edaee6#64, 0x92722c851482353b#64,
  0xa2bfe8a14cf10364#64, 0xa81a664bbc423001#64, 0xc24b8b70d0f89791#64, 0xc76c51a30654be30#64, 0xd192e819d6ef5218#64,
  0xd69906245565a910#64, 0xf40e35855771202a#64, 0x106aa07032bbd1b8#64, 0x19a4c116b8d2d0c8#64, 0x1e376c085141ab53#64,
  0x2748774cdf8eeb99#64, 0x34b0bcb5e19b48a8#64, 0x391c0cb3c5c95a63#64, 0x4ed8aa4ae3418acb#64, 0x5b9cca4f7763e373#64,
  0x682e6ff3d6b2b8a3#64, 0x748f82ee5defb2fc#64, 0x78a5636f43172f60#64, 0x84c87814a1f0ab72#64, 0x8cc702081a6439ec#64,
  0x90befffa23631e28#64, 0xa4506cebde82bde9#64, 0xbef9a3f7b2c67915#64, 0xc67178f2e372532b#64, 0xca273eceea26619c#64,
  0xd186b8c721c0c207#64, 0xeada7dd6cde0eb1e#64, 0xf57d4f7fee6ed178#64, 0x06f067aa72176fba#64, 0x0a637dc5a2c898a6#64,
  0x113f9804bef90dae#64, 0x1b710b35131c471b#64, 0x28db77f523047d84#64, 0x32caab7b40c72493#64, 0x3c9ebe0a15c9bebc#64,
  0x431d67c49c100d4c#64, 0x4cc5d4becb3e42b6#64, 0x597f299cfc657e2a#64, 0x5fcb6fab3ad6faec#64, 0x6c44198c4a475817#64]

/-- `k!(i)`, sha512.rs:88-92: one constant in all elements. -/
def k (i : Nat) : M256 := ⟨K.getD i 0#64, K.getD i 0#64, K.getD i 0#64, K.getD i 0#64⟩

/-- `_mm256_loadu_si256(K.as_ptr().add(t))`: four constants. -/
def kload (t : Nat) : M256 := ⟨K.getD t 0#64, K.getD (t + 1) 0#64, K.getD (t + 2) 0#64, K.getD (t + 3) 0#64⟩

/-- `round!`, sha512.rs:183-193: the new `$d` and `$h`. -/
def round (a b c d e f g h wt : BitVec 64) : BitVec 64 × BitVec 64 :=
  let t1 := h + bsig1 e + ch e f g + wt
  let t2 := bsig0 a + maj a b c
  (d + t1, t1 + t2)

/-- The four rounds `round!(a, ..)`, `round!(h, ..)`, `round!(g, ..)`, `round!(f, ..)`, for instance sha512.rs:220-223. -/
def roundsA (s : St 64) (w0 w1 w2 w3 : BitVec 64) : St 64 :=
  let ⟨a, b, c, d, e, f, g, h⟩ := s
  let r := round a b c d e f g h w0
  let d := r.1
  let h := r.2
  let r := round h a b c d e f g w1
  let c := r.1
  let g := r.2
  let r := round g h a b c d e f w2
  let b := r.1
  let f := r.2
  let r := round f g h a b c d e w3
  let a := r.1
  let e := r.2
  ⟨a, b, c, d, e, f, g, h⟩

/-- The four rounds `round!(e, ..)`, `round!(d, ..)`, `round!(c, ..)`, `round!(b, ..)`, for instance sha512.rs:224-227. -/
def roundsB (s : St 64) (w0 w1 w2 w3 : BitVec 64) : St 64 :=
  let ⟨a, b, c, d, e, f, g, h⟩ := s
  let r := round e f g h a b c d w0
  let h := r.1
  let d := r.2
  let r := round d e f g h a b c w1
  let g := r.1
  let c := r.2
  let r := round c d e f g h a b w2
  let f := r.1
  let b := r.2
  let r := round b c d e f g h a w3
  let e := r.1
  let a := r.2
  ⟨a, b, c, d, e, f, g, h⟩

/-! ### Four blocks -/

/-- `schedule_round!`, sha512.rs:94-105, on the sixteen variables `w0..w15`, the schedule and `i`; the registers are numbers. -/
def scheduleRound (x : List M256 × List M256 × Nat) (r : Nat × Nat × Nat × Nat) : List M256 × List M256 × Nat :=
  let (w, schedule, i) := x
  let (w1, w2, w3, w4) := r
  let reg (j : Nat) : M256 := w.getD j (k 0)
  let s0 := sigma0 (reg w1)
  let s1 := sigma1 (reg w2)
  let schedule := schedule.set i (add (reg w3) (k i))
  (w.set w3 (add (add (reg w3) (reg w4)) (add s0 s1)), schedule, i + 1)

/-- The sixteen calls of `schedule_round!`, sha512.rs:147-162. -/
def REGS : List (Nat × Nat × Nat × Nat) := [
  (1, 14, 0, 9), (2, 15, 1, 10), (3, 0, 2, 11), (4, 1, 3, 12), (5, 2, 4, 13), (6, 3, 5, 14), (7, 4, 6, 15), (8, 5, 7, 0),
  (9, 6, 8, 1), (10, 7, 9, 2), (11, 8, 10, 3), (12, 9, 11, 4), (13, 10, 12, 5), (14, 11, 13, 6), (15, 12, 14, 7), (0, 13, 15, 8)]

/-- The `while` loop, sha512.rs:145-163; `n` bounds the number of iterations. -/
def scheduleLoop : Nat → List M256 × List M256 × Nat → List M256 × List M256 × Nat
  | 0, x => x
  | n + 1, x => if x.2.2 < 64 then scheduleLoop n (REGS.foldl scheduleRound x) else x

/-- `wj`, sha512.rs:111-143: word `j` of each of the four blocks. -/
def gathered (message : Bytes) (j : Nat) : M256 := shuffle8 (gather message (8 * j) 0 16 32 48) BSWAP

/-- `sha512_quad_message_schedule`, sha512.rs:107-181. -/
def quadSchedule (message : Bytes) : List M256 :=
  let w := (List.range 16).map (gathered message)
  let (w, schedule, _) := scheduleLoop 5 (w, List.replicate 80 ⟨0#64, 0#64, 0#64, 0#64⟩, 0)
  (List.range 16).foldl (fun schedule j => schedule.set (64 + j) (add (w.getD j (k 0)) (k (64 + j)))) schedule

/-- `for w_t in w.chunks_exact(8)`, for instance sha512.rs:219-228: element `l` of each entry. -/
def rounds8 (l : Nat) (s : St 64) (wt : List M256) : St 64 :=
  let x (j : Nat) : BitVec 64 := extract (wt.getD j (k 0)) l
  roundsB (roundsA s (x 0) (x 1) (x 2) (x 3)) (x 4) (x 5) (x 6) (x 7)

/-- One of the four sections of `sha512_compress_4_blocks`, for instance sha512.rs:210-237. -/
def laneBlock (w : List M256) (save : M256 × M256) (l : Nat) : M256 × M256 :=
  let (abcd, efgh) := save
  let s : St 64 := ⟨extract abcd 0, extract abcd 1, extract abcd 2, extract abcd 3, extract efgh 0, extract efgh 1,
    extract efgh 2, extract efgh 3⟩
  let s := (chunksExact 8 w).foldl (rounds8 l) s
  (add abcd ⟨s.a, s.b, s.c, s.d⟩, add efgh ⟨s.e, s.f, s.g, s.h⟩)

/-- `sha512_compress_4_blocks`, sha512.rs:195-334. -/
def compress4 (state : St 64) (block4 : Bytes) : St 64 :=
  let w := quadSchedule block4
  let save : M256 × M256 := (⟨state.a, state.b, state.c, state.d⟩, ⟨state.e, state.f, state.g, state.h⟩)
  let save := laneBlock w save 0
  let save := laneBlock w save 1
  let save := laneBlock w save 2
  let save := laneBlock w save 3
  ⟨save.1.q0, save.1.q1, save.1.q2, save.1.q3, save.2.q0, save.2.q1, save.2.q2, save.2.q3⟩

/-! ### One block -/

/-- `input!`, sha512.rs:343-353. -/
def input (block : Bytes) (i : Nat) : M256 × M256 :=
  let w := loadu (block.drop (i * 32))
  let w := shuffle8 w BSWAP
  let k := kload (i * 4)
  (w, add w k)

/-- `schedule!`, sha512.rs:358-394. -/
def schedule (wm16 wm12 wm8 wm4 k : M256) : M256 × M256 :=
  let wm14_11 := permute2x128 wm16 wm12 0b00100001
  let wm15_12 := alignr8 wm14_11 wm16
  let wm6_3 := permute2x128 wm8 wm4 0b00100001
  let wm7_4 := alignr8 wm6_3 wm8
  let s0 := sigma0 wm15_12
  let w01xx := permute4x64 wm4 0b11101110
  let s1 := sigma1 w01xx
  let tmp := add s0 wm16
  let tmp := add wm7_4 tmp
  let w01xx := add s1 tmp
  let w0101 := permute4x64 w01xx 0b01000100
  let s1 := sigma1 w0101
  let wxx23 := add s1 tmp
  let w := permute2x128 w01xx wxx23 0b00110000
  (w, add w k)

/-- The window of the loop: `wm4`, `wm3`, `wm2`, `wm1`. -/
structure Win where
  wm4 : M256
  wm3 : M256
  wm2 : M256
  wm1 : M256

/-- Four rounds with the elements of a register. -/
def roundsA4 (s : St 64) (wk : M256) : St 64 := roundsA s (extract wk 0) (extract wk 1) (extract wk 2) (extract wk 3)
def roundsB4 (s : St 64) (wk : M256) : St 64 := roundsB s (extract wk 0) (extract wk 1) (extract wk 2) (extract wk 3)

/-- The loop body, sha512.rs:431-452. -/
def loopBody (x : St 64 × Win) (t : Nat) : St 64 × Win :=
  let (s, v) := x
  let (w_t, wk_t) := schedule v.wm4 v.wm3 v.wm2 v.wm1 (kload t)
  let s := roundsA4 s wk_t
  let (w_t1, wk_t1) := schedule v.wm3 v.wm2 v.wm1 w_t (kload (t + 4))
  let s := roundsB4 s wk_t1
  (s, ⟨v.wm2, v.wm1, w_t, w_t1⟩)

/-- `sha512_compress_block`, sha512.rs:404-462. -/
def compress1 (state : St 64) (block : Bytes) : St 64 :=
  let (w0, wk0) := input block 0
  let s := roundsA4 state wk0
  let (w4, wk4) := input block 1
  let s := roundsB4 s wk4
  let (w8, wk8) := input block 2
  let s := roundsA4 s wk8
  let (w12, wk12) := input block 3
  let s := roundsB4 s wk12
  let (s, _) := ((List.range 8).map (16 + 8 * ·)).foldl loopBody (s, ⟨w0, w4, w8, w12⟩)
  ⟨state.a + s.a, state.b + s.b, state.c + s.c, state.d + s.d, state.e + s.e, state.f + s.f, state.g + s.g, state.h + s.h⟩

/-- `sha512_compress_blocks`, sha512.rs:464-481. -/
def compressBlocks (state : St 64) (blocks : Bytes) : St 64 :=
  let state := (chunksExact 512 blocks).foldl compress4 state
  (chunksExact 128 (chunksRem 512 blocks)).foldl compress1 state

/-- `sha512_compress_blocks` of low/x86_64/sha512_mux.rs:7-14: by whether the processor has BMI2. -/
def mux (haveBmi2 : Bool) (state : St 64) (blocks : Bytes) : St 64 :=
  if haveBmi2 then compressBlocks state blocks else Sha2.compressBlocks Sha2.params512 128 state blocks

end Verif.Sha512Avx2
