import Verif.Model.ChaCha20

/-!
Model of `graviola/src/low/x86_64/chacha20.rs`, the AVX2 ChaCha20.

A 128-bit register is four 32-bit lanes (`W4`, lane 0 the least significant), a 256-bit register two
128-bit halves.  The intrinsics used are given their documented meaning.
-/
namespace Verif.ChaCha20X86
open Verif Verif.ChaCha20

/-! ### 128-bit intrinsics -/

/-- `_mm_lddqu_si128`. -/
def load128 (b : Bytes) : W4 := four b
/-- The 16 bytes of a 128-bit register, least significant first. -/
def bytes128 (v : W4) : Bytes := le v.a ++ le v.b ++ le v.c ++ le v.d
/-- `_mm_add_epi32`. -/
def add128 (x y : W4) : W4 := ⟨x.a + y.a, x.b + y.b, x.c + y.c, x.d + y.d⟩
/-- `_mm_xor_si128`. -/
def xor128 (x y : W4) : W4 := ⟨x.a ^^^ y.a, x.b ^^^ y.b, x.c ^^^ y.c, x.d ^^^ y.d⟩
/-- `_mm_or_si128`. -/
def or128 (x y : W4) : W4 := ⟨x.a ||| y.a, x.b ||| y.b, x.c ||| y.c, x.d ||| y.d⟩
/-- `_mm_slli_epi32`. -/
def slli128 (x : W4) (n : Nat) : W4 := ⟨x.a <<< n, x.b <<< n, x.c <<< n, x.d <<< n⟩
/-- `_mm_srli_epi32`. -/
def srli128 (x : W4) (n : Nat) : W4 := ⟨x.a >>> n, x.b >>> n, x.c >>> n, x.d >>> n⟩
/-- Lane `i` of a register. -/
def lane (x : W4) (i : Nat) : Word := if i = 0 then x.a else if i = 1 then x.b else if i = 2 then x.c else x.d
/-- `_mm_shuffle_epi32`: lane `i` of the result is the lane selected by bits `2i+1..2i` of `imm`. -/
def shuffle32 (x : W4) (imm : Nat) : W4 :=
  ⟨lane x (imm % 4), lane x (imm / 4 % 4), lane x (imm / 16 % 4), lane x (imm / 64 % 4)⟩
/-- `_mm_shuffle_epi8` with the control `_mm_set_epi8(m)` (most significant byte first), for controls
below 16. -/
def shuffle8 (x : W4) (m : List Nat) : W4 :=
  four (m.reverse.map fun i => (bytes128 x).getD i 0#8)

/-- `rotate_left_128!`, x86_64/chacha20.rs:79-97. -/
def rotl128 (x : W4) : Nat → W4
  | 8 => shuffle8 x [14, 13, 12, 15, 10, 9, 8, 11, 6, 5, 4, 7, 2, 1, 0, 3]
  | 16 => shuffle8 x [13, 12, 15, 14, 9, 8, 11, 10, 5, 4, 7, 6, 1, 0, 3, 2]
  | rot => or128 (slli128 x rot) (srli128 x (32 - rot))

/-! ### 256-bit intrinsics: lane-wise ones act on both halves -/

/-- `__m256i`. -/
structure V256 where
  lo : W4
  hi : W4

/-- `_mm256_add_epi32`. -/
def add256 (x y : V256) : V256 := ⟨add128 x.lo y.lo, add128 x.hi y.hi⟩
/-- `_mm256_xor_si256`. -/
def xor256 (x y : V256) : V256 := ⟨xor128 x.lo y.lo, xor128 x.hi y.hi⟩
/-- `_mm256_or_si256`. -/
def or256 (x y : V256) : V256 := ⟨or128 x.lo y.lo, or128 x.hi y.hi⟩
/-- `_mm256_slli_epi32`. -/
def slli256 (x : V256) (n : Nat) : V256 := ⟨slli128 x.lo n, slli128 x.hi n⟩
/-- `_mm256_srli_epi32`. -/
def srli256 (x : V256) (n : Nat) : V256 := ⟨srli128 x.lo n, srli128 x.hi n⟩
/-- `_mm256_shuffle_epi32`. -/
def shuffle256 (x : V256) (imm : Nat) : V256 := ⟨shuffle32 x.lo imm, shuffle32 x.hi imm⟩
/-- `_mm256_shuffle_epi8` with the control `_mm256_set_epi8(m)`: the first 16 entries of `m` control
the high half. -/
def shuffle8_256 (x : V256) (m : List Nat) : V256 := ⟨shuffle8 x.lo (m.drop 16), shuffle8 x.hi (m.take 16)⟩
/-- `_mm256_set_epi32(e7, .., e0)`. -/
def set256 (e7 e6 e5 e4 e3 e2 e1 e0 : Word) : V256 := ⟨⟨e0, e1, e2, e3⟩, ⟨e4, e5, e6, e7⟩⟩
/-- `_mm256_set_m128i(hi, lo)`. -/
def setm128 (hi lo : W4) : V256 := ⟨lo, hi⟩
/-- `_mm256_broadcastsi128_si256`. -/
def broadcast (x : W4) : V256 := ⟨x, x⟩
/-- `_mm256_extracti128_si256`. -/
def extract (x : V256) (i : Nat) : W4 := if i = 0 then x.lo else x.hi
/-- The half of `a:b` selected by two bits of the control of `_mm256_permute2x128_si256`. -/
def sel2x128 (a b : V256) (c : Nat) : W4 :=
  if c = 0 then a.lo else if c = 1 then a.hi else if c = 2 then b.lo else b.hi
/-- `_mm256_permute2x128_si256`, for controls with bits 3 and 7 clear. -/
def permute2x128 (a b : V256) (imm : Nat) : V256 := ⟨sel2x128 a b (imm % 4), sel2x128 a b (imm / 16 % 4)⟩
/-- The 32 bytes stored by `_mm256_storeu_si256`. -/
def bytes256 (v : V256) : Bytes := bytes128 v.lo ++ bytes128 v.hi

/-- `rotate_left!`, x86_64/chacha20.rs:50-76. -/
def rotl256 (x : V256) : Nat → V256
  | 8 => shuffle8_256 x [14, 13, 12, 15, 10, 9, 8, 11, 6, 5, 4, 7, 2, 1, 0, 3, 14, 13, 12, 15, 10, 9, 8,
      11, 6, 5, 4, 7, 2, 1, 0, 3]
  | 16 => shuffle8_256 x [13, 12, 15, 14, 9, 8, 11, 10, 5, 4, 7, 6, 1, 0, 3, 2, 13, 12, 15, 14, 9, 8, 11,
      10, 5, 4, 7, 6, 1, 0, 3, 2]
  | rot => or256 (slli256 x rot) (srli256 x (32 - rot))

/-! ### The cipher -/

/-- `ChaCha20`, x86_64/chacha20.rs:7-10. -/
structure ChaCha where
  z07 : V256
  z8f : V256

/-- `SIGMA`, x86_64/chacha20.rs:536: the bytes of "expand 32-byte k". -/
def SIGMA : Bytes :=
  [0x65, 0x78, 0x70, 0x61, 0x6e, 0x64, 0x20, 0x33, 0x32, 0x2d, 0x62, 0x79, 0x74, 0x65, 0x20, 0x6b]

/-- `format_key`, x86_64/chacha20.rs:99-115 (`ChaCha20::new`, 13-16). -/
def new (key nonce : Bytes) : ChaCha :=
  { z07 := setm128 (load128 SIGMA) (load128 (key.take 16))
    z8f := setm128 (load128 ((key.drop 16).take 16)) (load128 nonce) }

/-- Four row registers. -/
structure Rows (V : Type) where
  z03 : V
  z47 : V
  z8b : V
  zcf : V

/-- The operations of one register width. -/
structure Ops (V : Type) where
  add : V → V → V
  xor : V → V → V
  rotl : V → Nat → V
  shuf : V → Nat → V

/-- Half a loop body: a quarter round on all columns, x86_64/chacha20.rs:380-395 and 401-414 in
`core_2x`, 143-181 and 193-231 in `core_8x`, 484-498 and 504-518 in `hchacha`. -/
def quarterRows {V : Type} (o : Ops V) : Rows V → Rows V := fun ⟨z03, z47, z8b, zcf⟩ =>
  let z03 := o.add z03 z47
  let zcf := o.xor zcf z03
  let zcf := o.rotl zcf 16
  let z8b := o.add z8b zcf
  let z47 := o.xor z47 z8b
  let z47 := o.rotl z47 12
  let z03 := o.add z03 z47
  let zcf := o.xor zcf z03
  let zcf := o.rotl zcf 8
  let z8b := o.add z8b zcf
  let z47 := o.xor z47 z8b
  let z47 := o.rotl z47 7
  ⟨z03, z47, z8b, zcf⟩

/-- The loop body common to `core_2x` (x86_64/chacha20.rs:379-419), `core_8x` (142-241) and `hchacha`
(483-521); the three differ in the width of the registers only. -/
def body {V : Type} (o : Ops V) (r : Rows V) : Rows V :=
  let ⟨z03, z47, z8b, zcf⟩ := quarterRows o r
  let z47 := o.shuf z47 0b00_11_10_01
  let z8b := o.shuf z8b 0b01_00_11_10
  let zcf := o.shuf zcf 0b10_01_00_11
  let ⟨z03, z47, z8b, zcf⟩ := quarterRows o ⟨z03, z47, z8b, zcf⟩
  let z47 := o.shuf z47 0b10_01_00_11
  let z8b := o.shuf z8b 0b01_00_11_10
  let zcf := o.shuf zcf 0b00_11_10_01
  ⟨z03, z47, z8b, zcf⟩

/-- `[__m256i; 4]`. -/
abbrev A4 := Fin 4 → V256

/-- `for i in 0..4 { x[i] = f(x[i], y[i]) }`. -/
def each2 (f : V256 → V256 → V256) (x y : A4) : A4 := fun i => f (x i) (y i)
/-- `for z in &mut x { *z = f(*z) }`. -/
def each1 (f : V256 → V256) (x : A4) : A4 := fun i => f (x i)

/-- 128-bit registers, in `hchacha`. -/
def ops128 : Ops W4 := ⟨add128, xor128, rotl128, shuffle32⟩
/-- 256-bit registers, in `core_2x`. -/
def ops256 : Ops V256 := ⟨add256, xor256, rotl256, shuffle256⟩
/-- Arrays of four 256-bit registers, in `core_8x`. -/
def ops4x256 : Ops A4 :=
  ⟨each2 add256, each2 xor256, fun x n => each1 (rotl256 · n) x, fun x n => each1 (shuffle256 · n) x⟩

/-- The counter adjustments, x86_64/chacha20.rs:137-140 and 249-252. -/
def adjust (zcf : A4) : A4 := fun i =>
  match i with
  | 0 => add256 (zcf 0) (set256 0 0 0 0 0 0 0 4)
  | 1 => add256 (zcf 1) (set256 0 0 0 1 0 0 0 5)
  | 2 => add256 (zcf 2) (set256 0 0 0 2 0 0 0 6)
  | 3 => add256 (zcf 3) (set256 0 0 0 3 0 0 0 7)

/-- `store(ptr.add(k), xor(load(ptr.add(k)), v))`: 32 bytes at offset `32 k`. -/
def xorSlot (buf : Bytes) (k : Nat) (v : V256) : Bytes :=
  buf.take (32 * k) ++ List.zipWith (· ^^^ ·) ((buf.drop (32 * k)).take 32) (bytes256 v) ++
    buf.drop (32 * k + 32)

/-- `core_8x`, x86_64/chacha20.rs:118-356, on a chunk of 512 bytes: the new `z8f` and the chunk
afterwards. -/
def core8x (t07 z8f : V256) (buf : Bytes) : V256 × Bytes :=
  let t8f := z8f
  let z8f := add256 z8f (set256 0 0 0 0 0 0 0 8)
  let save_z03 := broadcast (extract t07 1)
  let save_z47 := broadcast (extract t07 0)
  let save_z8b := broadcast (extract t8f 1)
  let save_zcf := broadcast (extract t8f 0)
  let z := repeatN 10 (body ops4x256)
    ⟨fun _ => save_z03, fun _ => save_z47, fun _ => save_z8b, adjust fun _ => save_zcf⟩
  let z03 := each1 (add256 · save_z03) z.z03
  let z47 := each1 (add256 · save_z47) z.z47
  let z8b := each1 (add256 · save_z8b) z.z8b
  let zcf := each1 (add256 · save_zcf) z.zcf
  let zcf := adjust zcf
  let a0 := permute2x128 (z03 0) (z47 0) 0b0011_0001
  let a1 := permute2x128 (z8b 0) (zcf 0) 0b0011_0001
  let b0 := permute2x128 (z03 1) (z47 1) 0b0011_0001
  let b1 := permute2x128 (z8b 1) (zcf 1) 0b0011_0001
  let c0 := permute2x128 (z03 2) (z47 2) 0b0011_0001
  let c1 := permute2x128 (z8b 2) (zcf 2) 0b0011_0001
  let d0 := permute2x128 (z03 3) (z47 3) 0b0011_0001
  let d1 := permute2x128 (z8b 3) (zcf 3) 0b0011_0001
  let e0 := permute2x128 (z03 0) (z47 0) 0b0010_0000
  let e1 := permute2x128 (z8b 0) (zcf 0) 0b0010_0000
  let f0 := permute2x128 (z03 1) (z47 1) 0b0010_0000
  let f1 := permute2x128 (z8b 1) (zcf 1) 0b0010_0000
  let g0 := permute2x128 (z03 2) (z47 2) 0b0010_0000
  let g1 := permute2x128 (z8b 2) (zcf 2) 0b0010_0000
  let h0 := permute2x128 (z03 3) (z47 3) 0b0010_0000
  let h1 := permute2x128 (z8b 3) (zcf 3) 0b0010_0000
  let buf := xorSlot buf 0 a0
  let buf := xorSlot buf 1 a1
  let buf := xorSlot buf 2 b0
  let buf := xorSlot buf 3 b1
  let buf := xorSlot buf 4 c0
  let buf := xorSlot buf 5 c1
  let buf := xorSlot buf 6 d0
  let buf := xorSlot buf 7 d1
  let buf := xorSlot buf 8 e0
  let buf := xorSlot buf 9 e1
  let buf := xorSlot buf 10 f0
  let buf := xorSlot buf 11 f1
  let buf := xorSlot buf 12 g0
  let buf := xorSlot buf 13 g1
  let buf := xorSlot buf 14 h0
  let buf := xorSlot buf 15 h1
  (z8f, buf)

/-- `core_2x`, x86_64/chacha20.rs:361-467, on a chunk of at most 128 bytes. -/
def core2x (t07 z8f : V256) (buf : Bytes) : V256 × Bytes :=
  let t8f := z8f
  let blocks_used := if buf.length > 32 then 2#32 else 1#32
  let z8f := add256 z8f (set256 0 0 0 0 0 0 0 blocks_used)
  let z03 := broadcast (extract t07 1)
  let z47 := broadcast (extract t07 0)
  let z8b := broadcast (extract t8f 1)
  let zcf := broadcast (extract t8f 0)
  let zcf := add256 zcf (set256 0 0 0 0 0 0 0 1)
  let z := repeatN 10 (body ops256) ⟨z03, z47, z8b, zcf⟩
  let z03 := add256 z.z03 z03
  let z47 := add256 z.z47 z47
  let z8b := add256 z.z8b z8b
  let zcf := add256 z.zcf zcf
  let a0 := permute2x128 z03 z47 0b0011_0001
  let a1 := permute2x128 z8b zcf 0b0011_0001
  let b0 := permute2x128 z03 z47 0b0010_0000
  let b1 := permute2x128 z8b zcf 0b0010_0000
  (z8f,
    if buf.length = 128 then
      let buf := xorSlot buf 0 a0
      let buf := xorSlot buf 1 a1
      let buf := xorSlot buf 2 b0
      xorSlot buf 3 b1
    else if buf.length = 32 then
      xorSlot buf 0 a0
    else
      List.zipWith (· ^^^ ·) buf (bytes256 a0 ++ bytes256 a1 ++ bytes256 b0 ++ bytes256 b1))

/-- One of the loops of `cipher`: the chunks in order, each through `core`, which updates `z8f`. -/
def overChunks (core : V256 → V256 → Bytes → V256 × Bytes) (z07 : V256) :
    V256 → List Bytes → V256 × Bytes
  | z8f, [] => (z8f, [])
  | z8f, c :: rest =>
    let r := core z07 z8f c
    let s := overChunks core z07 r.1 rest
    (s.1, r.2 ++ s.2)

/-- `ChaCha20::cipher`, x86_64/chacha20.rs:18-34. -/
def cipher (c : ChaCha) (buffer : Bytes) : ChaCha × Bytes :=
  let r := overChunks core8x c.z07 c.z8f (chunksExact 512 buffer)
  let s := overChunks core2x c.z07 r.1 (chunks 128 (chunksRem 512 buffer))
  (⟨c.z07, s.1⟩, r.2 ++ s.2)

/-- `hchacha`, x86_64/chacha20.rs:470-534 (`XChaCha20::new`, 40-43; the newtype is dropped). -/
def xnew (key nonce : Bytes) : ChaCha :=
  let z := repeatN 10 (body ops128) ⟨load128 SIGMA, load128 (key.take 16), load128 ((key.drop 16).take 16),
    load128 (nonce.take 16)⟩
  let chacha_nonce := List.replicate 8 0#8 ++ (nonce.drop 16).take 8
  { z07 := setm128 (load128 SIGMA) z.z03, z8f := setm128 z.zcf (load128 chacha_nonce) }

end Verif.ChaCha20X86
