import Verif.Model.Blockwise
import Verif.Base.Words8

/-!
Model of `graviola/src/mid/sha2.rs` and of the portable compression functions
`graviola/src/low/generic/sha256.rs` and `sha512.rs`.

* The two compression functions have the same text up to word size, constants and rotation amounts,
  so they are one definition `compressBlock` over a record `Params` of those differences.
  The same holds for `Sha256Context` and `Sha512Context` (`update`, `update_blocks`).
* `usize` is 64 bits, as on both supported architectures.
* `none` is a panic.
* An array index within the constant bounds of the loops is modelled with `getD`.
-/
namespace Verif.Sha2
open Verif.Blockwise

/-- What differs between the two compression functions. -/
structure Params (w : Nat) where
  bsig0 : BitVec w → BitVec w
  bsig1 : BitVec w → BitVec w
  ssig0 : BitVec w → BitVec w
  ssig1 : BitVec w → BitVec w
  rounds : Nat
  k : List (BitVec w)

/-- `CH!`, sha256.rs:4-8, sha512.rs:4-8. -/
def ch {w} (x y z : BitVec w) : BitVec w := (x &&& y) ^^^ (~~~x &&& z)
/-- `MAJ!`, sha256.rs:10-14, sha512.rs:10-14. -/
def maj {w} (x y z : BitVec w) : BitVec w := (x &&& y) ^^^ (x &&& z) ^^^ (y &&& z)

/-- `u32::from_be_bytes` / `u64::from_be_bytes`. -/
def fromBE {w} (bs : Bytes) : BitVec w := BitVec.ofNat w (beNat bs)

/-- The loop body's update of `a..h`, sha256.rs:75-89, sha512.rs:75-89. -/
def round {w} (P : Params w) (s : St w) (t : Nat) (wt : BitVec w) : St w :=
  let t1 := s.h + P.bsig1 s.e + ch s.e s.f s.g + P.k.getD t 0#w + wt
  let t2 := P.bsig0 s.a + maj s.a s.b s.c
  { h := s.g, g := s.f, f := s.e, e := s.d + t1, d := s.c, c := s.b, b := s.a, a := t1 + t2 }

/-- The loop body's computation of `w_t` and update of the window `w`, sha256.rs:60-73. -/
def window {w} (P : Params w) (block : Bytes) (win : List (BitVec w)) (t : Nat) :
    BitVec w × List (BitVec w) :=
  if t < 16 then
    let wt : BitVec w := fromBE ((block.drop (t * (w / 8))).take (w / 8))
    (wt, win.set t wt)
  else
    let wt := P.ssig1 (win.getD ((t - 2) % 16) 0#w) + win.getD ((t - 7) % 16) 0#w
      + P.ssig0 (win.getD ((t - 15) % 16) 0#w) + win.getD ((t - 16) % 16) 0#w
    (wt, win.set (t % 16) wt)

/-- One loop iteration, sha256.rs:53-90. -/
def step {w} (P : Params w) (block : Bytes) (acc : St w × List (BitVec w)) (t : Nat) :
    St w × List (BitVec w) :=
  let (wt, win) := window P block acc.2 t
  (round P acc.1 t wt, win)

/-- Final additions, sha256.rs:92-99. -/
def addSt {w} (x y : St w) : St w :=
  ⟨x.a + y.a, x.b + y.b, x.c + y.c, x.d + y.d, x.e + y.e, x.f + y.f, x.g + y.g, x.h + y.h⟩

/-- `sha256_compress_block`, sha256.rs:40-100; `sha512_compress_block`, sha512.rs:40-100. -/
def compressBlock {w} (P : Params w) (state : St w) (block : Bytes) : St w :=
  addSt state ((List.range P.rounds).foldl (step P block) (state, List.replicate 16 0#w)).1

/-- `sha256_compress_blocks`, sha256.rs:102-108; `sha512_compress_blocks`, sha512.rs:102-108. -/
def compressBlocks {w} (P : Params w) (blockSz : Nat) (state : St w) (blocks : Bytes) : St w :=
  (chunksExact blockSz blocks).foldl (compressBlock P) state

/-- `generic::sha256::K`, sha256.rs:110-119. -/
def K256 : List (BitVec 32) := [
  0x428a2f98#32, 0x71374491#32, 0xb5c0fbcf#32, 0xe9b5dba5#32,
  0x3956c25b#32, 0x59f111f1#32, 0x923f82a4#32, 0xab1c5ed5#32,
  0xd807aa98#32, 0x12835b01#32, 0x243185be#32, 0x550c7dc3#32,
  0x72be5d74#32, 0x80deb1fe#32, 0x9bdc06a7#32, 0xc19bf174#32,
  0xe49b69c1#32, 0xefbe4786#32, 0x0fc19dc6#32, 0x240ca1cc#32,
  0x2de92c6f#32, 0x4a7484aa#32, 0x5cb0a9dc#32, 0x76f988da#32,
  0x983e5152#32, 0xa831c66d#32, 0xb00327c8#32, 0xbf597fc7#32,
  0xc6e00bf3#32, 0xd5a79147#32, 0x06ca6351#32, 0x14292967#32,
  0x27b70a85#32, 0x2e1b2138#32, 0x4d2c6dfc#32, 0x53380d13#32,
  0x650a7354#32, 0x766a0abb#32, 0x81c2c92e#32, 0x92722c85#32,
  0xa2bfe8a1#32, 0xa81a664b#32, 0xc24b8b70#32, 0xc76c51a3#32,
  0xd192e819#32, 0xd6990624#32, 0xf40e3585#32, 0x106aa070#32,
  0x19a4c116#32, 0x1e376c08#32, 0x2748774c#32, 0x34b0bcb5#32,
  0x391c0cb3#32, 0x4ed8aa4a#32, 0x5b9cca4f#32, 0x682e6ff3#32,
  0x748f82ee#32, 0x78a5636f#32, 0x84c87814#32, 0x8cc70208#32,
  0x90befffa#32, 0xa4506ceb#32, 0xbef9a3f7#32, 0xc67178f2#32]

/-- `generic::sha512::K`, sha512.rs:110-191. -/
def K512 : List (BitVec 64) := [
  0x428a2f98d728ae22#64, 0x7137449123ef65cd#64, 0xb5c0fbcfec4d3b2f#64,
  0xe9b5dba58189dbbc#64, 0x3956c25bf348b538#64, 0x59f111f1b605d019#64,
  0x923f82a4af194f9b#64, 0xab1c5ed5da6d8118#64, 0xd807aa98a3030242#64,
  0x12835b0145706fbe#64, 0x243185be4ee4b28c#64, 0x550c7dc3d5ffb4e2#64,
  0x72be5d74f27b896f#64, 0x80deb1fe3b1696b1#64, 0x9bdc06a725c71235#64,
  0xc19bf174cf692694#64, 0xe49b69c19ef14ad2#64, 0xefbe4786384f25e3#64,
  0x0fc19dc68b8cd5b5#64, 0x240ca1cc77ac9c65#64, 0x2de92c6f592b0275#64,
  0x4a7484aa6ea6e483#64, 0x5cb0a9dcbd41fbd4#64, 0x76f988da831153b5#64,
  0x983e5152ee66dfab#64, 0xa831c66d2db43210#64, 0xb00327c898fb213f#64,
  0xbf597fc7beef0ee4#64, 0xc6e00bf33da88fc2#64, 0xd5a79147930aa725#64,
  0x06ca6351e003826f#64, 0x142929670a0e6e70#64, 0x27b70a8546d22ffc#64,
  0x2e1b21385c26c926#64, 0x4d2c6dfc5ac42aed#64, 0x53380d139d95b3df#64,
  0x650a73548baf63de#64, 0x766a0abb3c77b2a8#64, 0x81c2c92e47edaee6#64,
  0x92722c851482353b#64, 0xa2bfe8a14cf10364#64, 0xa81a664bbc423001#64,
  0xc24b8b70d0f89791#64, 0xc76c51a30654be30#64, 0xd192e819d6ef5218#64,
  0xd69906245565a910#64, 0xf40e35855771202a#64, 0x106aa07032bbd1b8#64,
  0x19a4c116b8d2d0c8#64, 0x1e376c085141ab53#64, 0x2748774cdf8eeb99#64,
  0x34b0bcb5e19b48a8#64, 0x391c0cb3c5c95a63#64, 0x4ed8aa4ae3418acb#64,
  0x5b9cca4f7763e373#64, 0x682e6ff3d6b2b8a3#64, 0x748f82ee5defb2fc#64,
  0x78a5636f43172f60#64, 0x84c87814a1f0ab72#64, 0x8cc702081a6439ec#64,
  0x90befffa23631e28#64, 0xa4506cebde82bde9#64, 0xbef9a3f7b2c67915#64,
  0xc67178f2e372532b#64, 0xca273eceea26619c#64, 0xd186b8c721c0c207#64,
  0xeada7dd6cde0eb1e#64, 0xf57d4f7fee6ed178#64, 0x06f067aa72176fba#64,
  0x0a637dc5a2c898a6#64, 0x113f9804bef90dae#64, 0x1b710b35131c471b#64,
  0x28db77f523047d84#64, 0x32caab7b40c72493#64, 0x3c9ebe0a15c9bebc#64,
  0x431d67c49c100d4c#64, 0x4cc5d4becb3e42b6#64, 0x597f299cfc657e2a#64,
  0x5fcb6fab3ad6faec#64, 0x6c44198c4a475817#64]

/-- `rotate_right`. -/
abbrev rotr {w} (x : BitVec w) (n : Nat) : BitVec w := x.rotateRight n

/-- The macros of sha256.rs:16-38. -/
def params256 : Params 32 where
  bsig0 x := rotr x 2 ^^^ rotr x 13 ^^^ rotr x 22
  bsig1 x := rotr x 6 ^^^ rotr x 11 ^^^ rotr x 25
  ssig0 x := rotr x 7 ^^^ rotr x 18 ^^^ (x >>> 3)
  ssig1 x := rotr x 17 ^^^ rotr x 19 ^^^ (x >>> 10)
  rounds := 64
  k := K256

/-- The macros of sha512.rs:16-38. -/
def params512 : Params 64 where
  bsig0 x := rotr x 28 ^^^ rotr x 34 ^^^ rotr x 39
  bsig1 x := rotr x 14 ^^^ rotr x 18 ^^^ rotr x 41
  ssig0 x := rotr x 1 ^^^ rotr x 8 ^^^ (x >>> 7)
  ssig1 x := rotr x 19 ^^^ rotr x 61 ^^^ (x >>> 6)
  rounds := 80
  k := K512

/-! ### mid/sha2.rs -/

/-- One past `usize::MAX`. -/
def usizeLimit : Nat := 2 ^ 64

/-- `Sha256Context` (sha2.rs:13-17) / `Sha512Context` (sha2.rs:133-137). -/
structure Ctx (w : Nat) where
  h : St w
  blockwise : Blockwise
  nblocks : Nat

/-- What `update`/`update_blocks` need from the algorithm: the block size and the compression
function of one block. -/
structure Alg (w : Nat) where
  blockSz : Nat
  compress : St w → Bytes → St w

/-- `update_blocks`, sha2.rs:79-85, 209-215. -/
def updateBlocks {w} (A : Alg w) (c : Ctx w) (blocks : Bytes) : Ctx w :=
  if blocks = [] then c
  else { c with
    h := (chunksExact A.blockSz blocks).foldl A.compress c.h
    nblocks := min (c.nblocks + blocks.length / A.blockSz) (usizeLimit - 1) }

/-- `update`, sha2.rs:33-53, 165-185.  `bytes.len() & (BLOCK_SZ - 1)` with `BLOCK_SZ` a power of two
is `bytes.len() % BLOCK_SZ`. -/
def update {w} (A : Alg w) (c : Ctx w) (bytes : Bytes) : Option (Ctx w) :=
  if c.blockwise.used = 0 ∧ bytes.length % A.blockSz = 0 then some (updateBlocks A c bytes)
  else
    match addLeading A.blockSz c.blockwise bytes with
    | none => none
    | some (bw, rest) =>
      let (bw, full) := Blockwise.take A.blockSz bw
      let c := { c with blockwise := bw }
      let c := match full with
        | some block => updateBlocks A c block
        | none => c
      let wholeLen := rest.length - rest.length % A.blockSz
      let c := updateBlocks A c (rest.take wholeLen)
      match addTrailing c.blockwise (rest.drop wholeLen) with
      | none => none
      | some bw => some { c with blockwise := bw }

/-- `checked_mul` then `checked_add` on `usize`, sha2.rs:57-61. -/
def totalBytes {w} (A : Alg w) (c : Ctx w) : Option Nat :=
  if c.nblocks * A.blockSz < usizeLimit then
    if c.nblocks * A.blockSz + c.blockwise.used < usizeLimit then
      some (c.nblocks * A.blockSz + c.blockwise.used)
    else none
  else none

/-- The output conversion, sha2.rs:72-76, 202-206. -/
def toBytes {w} (s : St w) : Bytes :=
  [s.a, s.b, s.c, s.d, s.e, s.f, s.g, s.h].flatMap (fun x => toBE (w / 8) x.toNat)

/-- The SHA-256 block functions of the portable back end. -/
def alg256 : Alg 32 := ⟨64, compressBlock params256⟩
/-- The SHA-512 block functions of the portable back end. -/
def alg512 : Alg 64 := ⟨128, compressBlock params512⟩

/-- `Sha256Context::new`, sha2.rs:21-30. -/
def new256 : Ctx 32 :=
  ⟨⟨0x6a09e667#32, 0xbb67ae85#32, 0x3c6ef372#32, 0xa54ff53a#32, 0x510e527f#32, 0x9b05688c#32,
    0x1f83d9ab#32, 0x5be0cd19#32⟩, Blockwise.new 64, 0⟩

/-- `Sha256Context::finish`, sha2.rs:56-77. -/
def finish256 (A : Alg 32) (c : Ctx 32) : Option Bytes :=
  match totalBytes A c with
  | none => none
  | some bytes =>
    if bytes * 8 < usizeLimit then
      match mdPadWithLength A.blockSz c.blockwise (toBE 8 (bytes * 8)) with
      | none => none
      | some last => some (toBytes (updateBlocks A c last).h)
    else none

/-- `Sha512Context::new`, sha2.rs:147-162. -/
def new512 : Ctx 64 :=
  ⟨⟨0x6a09e667f3bcc908#64, 0xbb67ae8584caa73b#64, 0x3c6ef372fe94f82b#64, 0xa54ff53a5f1d36f1#64,
    0x510e527fade682d1#64, 0x9b05688c2b3e6c1f#64, 0x1f83d9abfb41bd6b#64, 0x5be0cd19137e2179#64⟩,
    Blockwise.new 128, 0⟩

/-- `Sha512Context::finish`, sha2.rs:188-207. -/
def finish512 (A : Alg 64) (c : Ctx 64) : Option Bytes :=
  match totalBytes A c with
  | none => none
  | some bytes =>
    if bytes * 8 < 2 ^ 128 then
      match mdPadWithLength A.blockSz c.blockwise (toBE 16 (bytes * 8)) with
      | none => none
      | some last => some (toBytes (updateBlocks A c last).h)
    else none

/-- `Sha384Context::new`, sha2.rs:102-119. -/
def new384 : Ctx 64 :=
  ⟨⟨0xcbbb9d5dc1059ed8#64, 0x629a292a367cd507#64, 0x9159015a3070dd17#64, 0x152fecd8f70e5939#64,
    0x67332667ffc00b31#64, 0x8eb44a8768581511#64, 0xdb0c2e0d64f98fa7#64, 0x47b5481dbefa4fa4#64⟩,
    Blockwise.new 128, 0⟩

/-- `Sha384Context::finish`, sha2.rs:127-131 (`update`, 122-124, is that of SHA-512). -/
def finish384 (A : Alg 64) (c : Ctx 64) : Option Bytes :=
  (finish512 A c).map (·.take 48)

end Verif.Sha2
