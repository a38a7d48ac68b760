import Verif.Model.Sha3
import Verif.Model.Ct

/-!
Model of `graviola/src/mid/mlkem768.rs` and `graviola/src/low/generic/mlkem.rs`.

`i16` coefficients are `Int`s; an addition or subtraction that leaves the range of `i16` is a panic (`none`).
`Coeffs<C, D>` is the list of its polynomials of `N = 256` coefficients (the code views the flat array through
`as_chunks` everywhere).  The s2n-bignum assembly is a parameter (`Asm`); its contract is in `Proof/MlKemContract`.
The rejection loop can in principle run for ever; the model bounds it by a number of extra output blocks (`fuel`)
and gives `none` when they run out.  `Option` is `none` for panics and for running out of blocks.
-/
namespace Verif.MlKem
open Verif Verif.Sha3

abbrev Coeffs := List Int

/-- mlkem768.rs:1022-1030. -/
def K : Nat := 3
def Q : Int := 3329
def Q_HALF : Nat := 1665
def N : Nat := 256

/-- The assembly the module calls: low/x86_64/mlkem_*.rs and low/aarch64/mlkem_*.rs. -/
structure Asm where
  /-- `mlkem_ntt`, `mlkem_intt`, `mlkem_reduce`, `mlkem_tomont`, `mlkem_unpack`: in place, 256 coefficients. -/
  ntt : Coeffs → Coeffs
  intt : Coeffs → Coeffs
  reduce : Coeffs → Coeffs
  tomont : Coeffs → Coeffs
  unpack : Coeffs → Coeffs
  /-- `mlkem_mulcache_compute`: 256 coefficients to 128. -/
  mulcache : Coeffs → Coeffs
  /-- `mlkem_basemul_k3` of three polynomials, three polynomials and their caches. -/
  basemul : List Coeffs → List Coeffs → List Coeffs → Coeffs
  /-- `mlkem_tobytes`, `mlkem_frombytes`: 256 coefficients, 384 bytes. -/
  tobytes : Coeffs → Bytes
  frombytes : Bytes → Coeffs
  /-- `mlkem_rej_uniform_vartime`: the coefficients written (their number is what it returns). -/
  rej : Bytes → Coeffs

/-- `mlkem_frombytes`, low/generic/mlkem.rs:10-15 (used on aarch64). -/
def frombytesGeneric (a : Bytes) : Coeffs :=
  (chunksExact 3 a).flatMap fun a =>
    let b i := (a.getD i 0#8).setWidth 16
    [((b 0) ||| ((b 1 &&& 0x0f#16) <<< 8)).toInt, ((b 1 >>> 4) ||| (b 2 <<< 4)).toInt]

/-- `mlkem_unpack`, low/generic/mlkem.rs:26 (used on aarch64). -/
def unpackGeneric (a : Coeffs) : Coeffs := a

/-- An `i16` result, or overflow. -/
def i16 (x : Int) : Option Int := if -32768 ≤ x ∧ x ≤ 32767 then some x else none

/-- `for (r, t) in rr.iter_mut().zip(term.0) { *r += t; }`, mlkem768.rs:549-551 and 585-587. -/
def addInto (rr term : Coeffs) : Option Coeffs := (rr.zip term).mapM fun (r, t) => i16 (r + t)
/-- mlkem768.rs:905-907. -/
def subFrom (rr term : Coeffs) : Option Coeffs := (rr.zip term).mapM fun (r, t) => i16 (r - t)

/-! ### Compression -/

/-- `compress_4`, mlkem768.rs:680-689; the `debug_assert` is a panic. -/
def compress4 (x : Int) : Option Nat :=
  if 0 ≤ x ∧ x < Q then some (((((x.toNat <<< 4) + Q_HALF) * 80635) >>> 28) &&& 0xf) else none
/-- `decompress_4`, mlkem768.rs:692-699. -/
def decompress4 (y : Nat) : Int := ((y * 3329 + 8) >>> 4 : Nat)
/-- `compress_10`, mlkem768.rs:702-711. -/
def compress10 (x : Int) : Option Nat :=
  if 0 ≤ x ∧ x < Q then some (((((x.toNat <<< 10) + Q_HALF) * 1290167) >>> 32) &&& 0x3ff) else none
/-- `decompress_10`, mlkem768.rs:714-721. -/
def decompress10 (y : Nat) : Int := ((y * 3329 + 512) >>> 10 : Nat)

/-- The loop of `compress_1_x8`, mlkem768.rs:727-734, from bit `i` on. -/
def compress1Loop (r : Byte) (i : Nat) : Coeffs → Option Byte
  | [] => some r
  | x :: xs =>
    if 0 ≤ x ∧ x < Q then
      let y := (((x.toNat <<< 1) + Q_HALF) * 80635) >>> 28
      compress1Loop (r ||| (BitVec.ofNat 8 (y &&& 1) <<< i)) (i + 1) xs
    else none
/-- `compress_1_x8`, mlkem768.rs:724-737. -/
def compress1x8 (cs : Coeffs) : Option Byte := compress1Loop 0#8 0 cs

/-! ### Packing -/

/-- `compress_into_bytes_du_10`, the body of the loop, mlkem768.rs:800-811: four coefficients to five bytes. -/
def pack10 (quad : Coeffs) : Option Bytes := do
  let t0 ← compress10 (quad.getD 0 0)
  let t1 ← compress10 (quad.getD 1 0)
  let t2 ← compress10 (quad.getD 2 0)
  let t3 ← compress10 (quad.getD 3 0)
  pure [BitVec.ofNat 8 t0, BitVec.ofNat 8 ((t0 >>> 8) ||| (t1 <<< 2)), BitVec.ofNat 8 ((t1 >>> 6) ||| (t2 <<< 4)),
    BitVec.ofNat 8 ((t2 >>> 4) ||| (t3 <<< 6)), BitVec.ofNat 8 (t3 >>> 2)]
/-- `compress_into_bytes_du_10`, mlkem768.rs:795-813, for one polynomial. -/
def compressDu10 (f : Coeffs) : Option Bytes := ((chunksExact 4 f).mapM pack10).map List.flatten

/-- `decompress_from_bytes_du_10`, the body of the loop, mlkem768.rs:824-833: five bytes to four coefficients. -/
def unpack10 (inp : Bytes) : Coeffs :=
  let b i := (inp.getD i 0#8).toNat
  let t0 := b 0 ||| ((b 1 &&& 0x3) <<< 8)
  let t1 := (b 1 >>> 2) ||| ((b 2 &&& 0xf) <<< 6)
  let t2 := (b 2 >>> 4) ||| ((b 3 &&& 0x3f) <<< 4)
  let t3 := (b 3 >>> 6) ||| (b 4 <<< 2)
  [decompress10 t0, decompress10 t1, decompress10 t2, decompress10 t3]
/-- `decompress_from_bytes_du_10`, mlkem768.rs:818-836, for one polynomial. -/
def decompressDu10 (c : Bytes) : Coeffs := (chunksExact 5 c).flatMap unpack10

/-- `compress_into_bytes_dv_4`, the body of the loop, mlkem768.rs:872-874. -/
def pack4 (pair : Coeffs) : Option Byte := do
  let a ← compress4 (pair.getD 0 0)
  let b ← compress4 (pair.getD 1 0)
  pure (BitVec.ofNat 8 a ||| (BitVec.ofNat 8 b <<< 4))
/-- `compress_into_bytes_dv_4`, mlkem768.rs:870-875. -/
def compressDv4 (f : Coeffs) : Option Bytes := (chunksExact 2 f).mapM pack4
/-- `decompress_from_bytes_dv_4`, mlkem768.rs:881-890. -/
def decompressDv4 (c : Bytes) : Coeffs :=
  c.flatMap fun b => [decompress4 (b &&& 0xf#8).toNat, decompress4 (b >>> 4).toNat]

/-- `from_message_bits`, mlkem768.rs:844-854. -/
def fromMessageBits (m : Bytes) : Coeffs :=
  m.flatMap fun b => (List.range 8).map fun bit =>
    (Ct.ctSelectI16 ((b >>> bit) &&& 1#8) (BitVec.ofNat 16 Q_HALF) 0#16).toInt
/-- `to_message_bits`, mlkem768.rs:857-865. -/
def toMessageBits (f : Coeffs) : Option Bytes := (chunksExact 8 f).mapM compress1x8

/-! ### Noise -/

/-- `sample_cbd2`, the body of the loop, mlkem768.rs:915-924: four bytes to eight coefficients. -/
def cbdWord (inBytes : Bytes) : Coeffs :=
  let t := leNat inBytes
  let d := (t &&& 0x55555555) + ((t >>> 1) &&& 0x55555555)
  (List.range 8).map fun j => (((d >>> (4 * j)) &&& 3 : Nat) : Int) - (((d >>> (4 * j + 2)) &&& 3 : Nat) : Int)
/-- `sample_cbd2`, mlkem768.rs:914-925. -/
def sampleCbd2 (buf : Bytes) : Coeffs := (chunksExact 4 buf).flatMap cbdWord

/-- The 40-byte inputs of the batched hashing: `buf[..32] = seed; buf[32..] = index; then the pad byte`,
mlkem768.rs:750-768 and 470-482. -/
def batchBuf (seed index : Bytes) : Bytes :=
  seed ++ index ++ SHAKE_PAD :: List.replicate (39 - seed.length - index.length) 0#8

/-- `sample_poly_cbd_dual`, mlkem768.rs:744-786.  `G` is what the two-of-four permutation does to unused lanes. -/
def samplePolyCbdDual (Gu : Lanes → Lanes) (sigma : Bytes) : Option (List Coeffs × List Coeffs) := do
  let samples ← oneShotSextet (keccak RC) Gu (batchBuf sigma [0#8]) (batchBuf sigma [1#8]) (batchBuf sigma [2#8])
    (batchBuf sigma [3#8]) (batchBuf sigma [4#8]) (batchBuf sigma [5#8])
  let polys := samples.map sampleCbd2
  pure (polys.take K, polys.drop K)

/-! ### The matrix -/

/-- `Shake128TwelveBitIterator::next`, mlkem768.rs:1004-1012: a block of output as twelve-bit samples. -/
def twelveBit (bytes : Bytes) : Coeffs :=
  (chunksExact 3 bytes).flatMap fun buf =>
    let u16 i j : BitVec 16 := ((buf.getD j 0#8) ++ (buf.getD i 0#8) : BitVec 16)
    [(u16 0 1 &&& 0xfff#16).toInt, (u16 1 2 >>> 4).toInt]

/-- `tail_case`, mlkem768.rs:970-976, with the iterator of mlkem768.rs:980-1019: `need` more coefficients, drawing one
block at a time; `fuel` blocks are available. -/
def tailCase (F : Lanes → Lanes) : Nat → Lanes → Nat → Option Coeffs
  | _, _, 0 => some []
  | 0, _, _ + 1 => none
  | fuel + 1, s, need + 1 => do
    let (s, bytes) ← squeeze F SHAKE_128_R s SHAKE_128_R
    let got := ((twelveBit bytes).filter fun f => f < Q).take (need + 1)
    let rest ← tailCase F fuel s (need + 1 - got.length)
    pure (got ++ rest)

/-- `Shake128ForMlKem::sample_into`, mlkem768.rs:943-957. -/
def sampleInto (A : Asm) (fuel : Nat) (s : Lanes) : Option Coeffs := do
  let (s, initial) ← squeeze (keccak RC) SHAKE_128_R s (SHAKE_128_R * 3)
  let used := A.rej initial
  let tail ← tailCase (keccak RC) fuel s (N - used.length)
  pure (used ++ tail)

/-- One of the four parts of `_sample_poly_ntt_quad`, mlkem768.rs:491-521: the first three blocks are already
squeezed, and the state `s` is owed a permutation.  (`restitute` is only called when there is a tail; otherwise the
state is not used.) -/
def sampleLane (A : Asm) (fuel : Nat) (samples : Bytes) (s : Lanes) : Option Coeffs := do
  let used := A.rej samples
  let tail ← tailCase (keccak RC) fuel (restitute (keccak RC) s) (N - used.length)
  pure (used ++ tail)

/-- `_sample_poly_ntt_quad`, mlkem768.rs:466-521. -/
def samplePolyQuad (A : Asm) (fuel : Nat) (rho : Bytes) (i0 i1 i2 i3 : Bytes) : Option (List Coeffs) := do
  let sponge := new4x (keccak RC) (batchBuf rho i0) (batchBuf rho i1) (batchBuf rho i2) (batchBuf rho i3)
  let (q, samples) ← squeeze4x (keccak RC) sponge
  let o0 ← sampleLane A fuel (samples.getD 0 []) q.a
  let o1 ← sampleLane A fuel (samples.getD 1 []) q.b
  let o2 ← sampleLane A fuel (samples.getD 2 []) q.c
  let o3 ← sampleLane A fuel (samples.getD 3 []) q.d
  pure [o0, o1, o2, o3]

/-- `SAMPLE_POLY_WORK`, mlkem768.rs:599-609; the offset is in polynomials. -/
def SAMPLE_POLY_WORK : List (Byte × Byte × Nat) :=
  [(0#8, 0#8, 0), (0#8, 1#8, 1), (0#8, 2#8, 2), (1#8, 0#8, 3), (1#8, 1#8, 4), (1#8, 2#8, 5), (2#8, 0#8, 6),
    (2#8, 1#8, 7), (2#8, 2#8, 8)]

/-- The index bytes: `[j, i]`, or `[i, j]` when transposed, mlkem768.rs:429-442 and 452-455. -/
def indexBytes (transposed : Bool) (w : Byte × Byte × Nat) : Bytes :=
  match transposed with
  | false => [w.2.1, w.1]
  | true => [w.1, w.2.1]

/-- Write `data` at an offset. -/
def splice {α : Type} (r : List α) (offs : Nat) (data : List α) : List α :=
  r.take offs ++ data ++ r.drop (offs + data.length)

/-- The loop over fours, mlkem768.rs:428-449. -/
def sampleFours (A : Asm) (fuel : Nat) (transposed : Bool) (rho : Bytes) (r : List Coeffs) :
    List (List (Byte × Byte × Nat)) → Option (List Coeffs)
  | [] => some r
  | c4 :: rest => do
    let w i := c4.getD i (0#8, 0#8, 0)
    let o ← samplePolyQuad A fuel rho (indexBytes transposed (w 0)) (indexBytes transposed (w 1))
      (indexBytes transposed (w 2)) (indexBytes transposed (w 3))
    sampleFours A fuel transposed rho (splice r (w 0).2.2 o) rest

/-- The loop over the remainder, mlkem768.rs:451-459. -/
def sampleRest (A : Asm) (fuel : Nat) (transposed : Bool) (rho : Bytes) (r : List Coeffs) :
    List (Byte × Byte × Nat) → Option (List Coeffs)
  | [] => some r
  | w :: rest => do
    let s ← newForMessage (keccak RC) SHAKE_128_R SHAKE_PAD [rho, indexBytes transposed w]
    let o ← sampleInto A fuel s
    sampleRest A fuel transposed rho (splice r w.2.2 [o]) rest

/-- `_sample_poly_ntt`, mlkem768.rs:420-464. -/
def samplePoly (A : Asm) (fuel : Nat) (transposed : Bool) (rho : Bytes) : Option (List Coeffs) := do
  let r := List.replicate (K * K) (List.replicate N (0 : Int))
  let r ← sampleFours A fuel transposed rho r (chunksExact 4 SAMPLE_POLY_WORK)
  let r ← sampleRest A fuel transposed rho r (chunksRem 4 SAMPLE_POLY_WORK)
  pure (r.map A.unpack)

/-- `transpose`, mlkem768.rs:559-569: the three swaps. -/
def swap (r : List Coeffs) (i j : Nat) : List Coeffs := (r.set i (r.getD j [])).set j (r.getD i [])
def transposeCoeffs (r : List Coeffs) : List Coeffs := swap (swap (swap r (0 * K + 1) (1 * K + 0)) (0 * K + 2) (2 * K + 0)) (1 * K + 2) (2 * K + 1)

/-! ### Arithmetic on vectors -/

/-- `Coeffs::<K * N, Ntt>::from_bytes`, mlkem768.rs:613-625. -/
def fromBytes12 (A : Asm) (bytes : Bytes) : List Coeffs := (chunksExact 384 bytes).map fun b => A.reduce (A.frombytes b)
/-- `to_bytes`, mlkem768.rs:628-639. -/
def toBytes12 (A : Asm) (cs : List Coeffs) : Bytes := cs.flatMap A.tobytes
/-- `mul_cache`, mlkem768.rs:653-664. -/
def mulCache (A : Asm) (cs : List Coeffs) : List Coeffs :=
  [A.mulcache (cs.getD 0 []), A.mulcache (cs.getD 1 []), A.mulcache (cs.getD 2 [])]

/-- The loop of `mul_add`, mlkem768.rs:538-552. -/
def mulAddRow (A : Asm) (s : List Coeffs) (aa : List Coeffs) (rr : Coeffs) : Option Coeffs :=
  addInto rr (A.tomont (A.basemul aa s (mulCache A s)))
/-- `mul_add`, mlkem768.rs:524-556: `a * s + e`. -/
def mulAdd (A : Asm) (a s e : List Coeffs) : Option (List Coeffs) :=
  Option.map (List.map A.reduce) (((chunksExact K a).zip e).mapM fun (aa, rr) => mulAddRow A s aa rr)

/-- `mul_and_inverse_ntt` of a matrix, mlkem768.rs:571-593. -/
def matMulIntt (A : Asm) (a y : List Coeffs) : Option (List Coeffs) :=
  Option.map (fun r => (r.map A.reduce).map A.intt)
    ((chunksExact K a).mapM fun aa => addInto (List.replicate N 0) (A.basemul aa y (mulCache A y)))
/-- `mul_and_inverse_ntt` of a vector, mlkem768.rs:642-651. -/
def vecMulIntt (A : Asm) (a s : List Coeffs) : Coeffs := A.intt (A.basemul a s (mulCache A s))

/-- `add`, mlkem768.rs:896-902. -/
def add (A : Asm) (a b : Coeffs) : Option Coeffs := (addInto a b).map A.reduce
/-- `sub`, mlkem768.rs:905-911. -/
def sub (A : Asm) (a b : Coeffs) : Option Coeffs := (subFrom a b).map A.reduce
/-- `add` for `K` polynomials. -/
def addVec (A : Asm) (a b : List Coeffs) : Option (List Coeffs) := (a.zip b).mapM fun (x, y) => add A x y

/-! ### Keys -/

/-- `EncapKey`, mlkem768.rs:209-213. -/
structure EncapKey where
  tHat : Bytes
  rho : Bytes
  transposeAHat : List Coeffs

/-- `DecapKey`, mlkem768.rs:42-47. -/
structure DecapKey where
  ekPke : EncapKey
  dkPke : Bytes
  hEk : Bytes
  z : Bytes

/-- `Sha3_512Context::new`, updates and `finish` (the pattern at mlkem768.rs:120-123). -/
def sha3 (R outputSz : Nat) (parts : List Bytes) : Option Bytes := do
  let c ← parts.foldlM (sha3Update R) (Sponge.new R)
  sha3Finish R outputSz c

/-- `Shake256::new(parts).read(n)`. -/
def shake256 (parts : List Bytes) (n : Nat) : Option Bytes := do
  let k ← shakeNew (keccak RC) SHAKE_256_R parts
  let (_, o) ← shakeRead (keccak RC) SHAKE_256_R k n
  pure o

/-- `kpke_keygen`, mlkem768.rs:142-177. -/
def kpkeKeygen (A : Asm) (Gu : Lanes → Lanes) (fuel : Nat) (d : Bytes) : Option (EncapKey × Bytes) := do
  let g ← sha3 SHA3_512_R 64 [d, [3#8]]
  let rho := g.take 32
  let sigma := g.drop 32
  let aHat ← samplePoly A fuel false rho
  let (s, e) ← samplePolyCbdDual Gu sigma
  let sHat := s.map A.ntt
  let eHat := e.map A.ntt
  let tHat ← mulAdd A aHat sHat eHat
  pure (⟨toBytes12 A tHat, rho, transposeCoeffs aHat⟩, toBytes12 A (sHat.map A.reduce))

/-- `keygen_internal`, mlkem768.rs:88-112. -/
def keygenInternal (A : Asm) (Gu : Lanes → Lanes) (fuel : Nat) (seed : Bytes) : Option DecapKey := do
  let d := seed.take 32
  let z := seed.drop 32
  let (ek, dk) ← kpkeKeygen A Gu fuel d
  let hEk ← sha3 SHA3_256_R 32 [ek.tHat, ek.rho]
  pure ⟨ek, dk, hEk, z⟩

/-- `kpke_encrypt`, mlkem768.rs:283-323. -/
def kpkeEncrypt (A : Asm) (Gu : Lanes → Lanes) (ek : EncapKey) (m r : Bytes) : Option Bytes := do
  let tHat := fromBytes12 A ek.tHat
  let (y, e1) ← samplePolyCbdDual Gu r
  let buf ← shake256 [r, [6#8]] 128
  let e2 := sampleCbd2 buf
  let yHat := y.map A.ntt
  let u ← matMulIntt A ek.transposeAHat yHat
  let u ← addVec A u e1
  let mu := fromMessageBits m
  let v ← add A (vecMulIntt A tHat yHat) e2
  let v ← add A v mu
  let c1 ← u.mapM compressDu10
  let c2 ← compressDv4 v
  pure (c1.flatten ++ c2)

/-- `encaps_internal`, mlkem768.rs:263-281. -/
def encapsInternal (A : Asm) (Gu : Lanes → Lanes) (ek : EncapKey) (m : Bytes) : Option (Bytes × Bytes) := do
  let hEk ← sha3 SHA3_256_R 32 [ek.tHat, ek.rho]
  let kr ← sha3 SHA3_512_R 64 [m, hEk]
  let c ← kpkeEncrypt A Gu ek m (kr.drop 32)
  pure (kr.take 32, c)

/-- `kpke_decrypt`, mlkem768.rs:180-199. -/
def kpkeDecrypt (A : Asm) (dkPke c : Bytes) : Option Bytes := do
  let c1 := c.take 960
  let c2 := c.drop 960
  let u := (chunksExact 320 c1).map decompressDu10
  let v := decompressDv4 c2
  let sHat := fromBytes12 A dkPke
  let w ← sub A v (vecMulIntt A sHat (u.map A.ntt))
  toMessageBits w

/-- `decaps_internal`, mlkem768.rs:115-139. -/
def decapsInternal (A : Asm) (Gu : Lanes → Lanes) (dk : DecapKey) (c : Bytes) : Option Bytes := do
  let m ← kpkeDecrypt A dk.dkPke c
  let kr ← sha3 SHA3_512_R 64 [m, dk.hEk]
  let kBar ← shake256 [dk.z, c] 32
  let c' ← kpkeEncrypt A Gu dk.ekPke m (kr.drop 32)
  pure (Ct.ctCopy (Ct.ctEqual c c') (kr.take 32) kBar)

/-- `EncapKey::from_bytes`, mlkem768.rs:218-240: `Some (Err OutOfRange)` is `some none`. -/
def encapFromBytes (A : Asm) (fuel : Nat) (input : Bytes) : Option (Option EncapKey) :=
  let tHat := input.take (K * 384)
  let rho := input.drop (K * 384)
  if tHat ≠ toBytes12 A (fromBytes12 A tHat) then some none
  else (samplePoly A fuel true rho).map fun t => some ⟨tHat, rho, t⟩

/-- `EncapKey::as_bytes`, mlkem768.rs:254-260. -/
def encapAsBytes (ek : EncapKey) : Bytes := ek.tHat ++ ek.rho
/-- `DecapKey::as_bytes`, mlkem768.rs:76-85. -/
def decapAsBytes (dk : DecapKey) : Bytes := dk.dkPke ++ dk.ekPke.tHat ++ dk.ekPke.rho ++ dk.hEk ++ dk.z

end Verif.MlKem
