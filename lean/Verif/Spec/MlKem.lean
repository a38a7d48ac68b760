import Mathlib.Data.ZMod.Basic
import Mathlib.Algebra.Order.Round
import Mathlib.Data.Rat.Floor
import Mathlib.Algebra.BigOperators.Fin
import Verif.Spec.Keccak

/-!
ML-KEM-768, FIPS 203.  Written from the standard; independent of the code.
-/
namespace Verif.Spec.MlKem
open Verif

/-- The ring of coefficients, `q = 3329` (2.3). -/
abbrev Fq := ZMod 3329
/-- Polynomials of degree below 256, and their transforms (2.4.4). -/
abbrev Poly := Fin 256 → Fq
/-- Vectors and matrices with `k = 3` (8, table 2). -/
abbrev Vec := Fin 3 → Poly
abbrev Mat := Fin 3 → Fin 3 → Poly

/-! ### 4.1: hash functions -/

def H (s : Bytes) : Bytes := Keccak.sha3_256 s
def J (s : Bytes) : Bytes := Keccak.shake256 s 32
def G (c : Bytes) : Bytes × Bytes := ((Keccak.sha3_512 c).take 32, (Keccak.sha3_512 c).drop 32)
/-- `PRF_eta(s, b)` for `eta = 2`. -/
def PRF (s : Bytes) (b : Byte) : Bytes := Keccak.shake256 (s ++ [b]) 128

/-! ### 4.2.1: bits, bytes, compression -/

/-- The number with these bits, least significant first. -/
def bitsNat : List Bool → Nat
  | [] => 0
  | b :: bs => b.toNat + 2 * bitsNat bs

/-- Algorithm 3. -/
def bitsToBytes (b : List Bool) : Bytes := (chunksExact 8 b).map fun c => BitVec.ofNat 8 (bitsNat c)
/-- Algorithm 4. -/
def bytesToBits (B : Bytes) : List Bool := B.flatMap fun b => (List.range 8).map fun j => b.getLsbD j

/-- The `d` low bits of a number, least significant first. -/
def natBits (d x : Nat) : List Bool := (List.range d).map fun j => x.testBit j

/-- Algorithm 5. -/
def byteEncode (d : Nat) (F : List Nat) : Bytes := bitsToBytes (F.flatMap (natBits d))
/-- Algorithm 6. -/
def byteDecode (d : Nat) (B : Bytes) : List Nat :=
  (chunksExact d (bytesToBits B)).map fun c => bitsNat c % (if d = 12 then 3329 else 2 ^ d)

/-- (4.7): `Compress_d(x) = ⌈(2^d / q) · x⌋ mod 2^d`. -/
def compress (d x : Nat) : Nat := (round ((2 ^ d / 3329 : ℚ) * x)).toNat % 2 ^ d
/-- (4.8): `Decompress_d(y) = ⌈(q / 2^d) · y⌋`. -/
def decompress (d y : Nat) : Nat := (round ((3329 / 2 ^ d : ℚ) * y)).toNat

/-- The coefficients of a polynomial as numbers below `q`. -/
def coeffs (f : Poly) : List Nat := List.ofFn fun i => (f i).val
/-- The polynomial with these coefficients. -/
def ofCoeffs (l : List Nat) : Poly := fun i => (l.getD i.val 0 : Fq)

/-- `ByteEncode_d(Compress_d(f))`. -/
def compressEncode (d : Nat) (f : Poly) : Bytes := byteEncode d ((coeffs f).map (compress d))
/-- `Decompress_d(ByteDecode_d(B))`. -/
def decodeDecompress (d : Nat) (B : Bytes) : Poly := ofCoeffs ((byteDecode d B).map (decompress d))

/-! ### 4.2.2: sampling -/

/-- Algorithm 7, lines 5 to 7: the two candidates of three bytes. -/
def candidates (C : Bytes) : List Nat :=
  [(C.getD 0 0#8).toNat + 256 * ((C.getD 1 0#8).toNat % 16), (C.getD 1 0#8).toNat / 16 + 16 * (C.getD 2 0#8).toNat]

/-- Algorithm 7, lines 8 to 14, over a given amount of output: the accepted candidates in order. -/
def accepted (stream : Bytes) : List Nat := ((chunksExact 3 stream).flatMap candidates).filter (· < 3329)

/-- Algorithm 7 with the loop limited (appendix B) to the first `limit` bytes of output. -/
def sampleNTT (limit : Nat) (B : Bytes) : Option Poly :=
  let a := accepted (Keccak.shake128 B limit)
  if 256 ≤ a.length then some (ofCoeffs (a.take 256)) else none

/-- Algorithm 8 for `eta = 2`. -/
def samplePolyCBD (B : Bytes) : Poly := fun i =>
  let b (j : Nat) : Fq := ((bytesToBits B).getD j false).toNat
  (b (4 * i.val) + b (4 * i.val + 1)) - (b (4 * i.val + 2) + b (4 * i.val + 3))

/-! ### 2.4.4: the ring -/

/-- The product of polynomials modulo `X^256 + 1`: a term that wraps around changes sign.  (`n - a` is modulo 256.) -/
def polyMul (f g : Poly) : Poly := fun n => ∑ a : Fin 256, (if a ≤ n then 1 else -1) * f a * g (n - a)

/-! ### 4.3: the transform -/

/-- `BitRev_7`. -/
def bitRev7 (i : Nat) : Nat := bitsNat (natBits 7 i).reverse

/-- `ζ = 17`. -/
def zeta : Fq := 17

def idx (i : Nat) : Fin 256 := ⟨i % 256, Nat.mod_lt _ (by decide)⟩

/-- One pass of the outer loop of algorithm 9: all butterflies of span `len`.  Block `b` (`start = 2·len·b`) uses
`i = 128/len + b`. -/
def nttLayer (len : Nat) (f : Poly) : Poly := fun j =>
  let z := zeta ^ bitRev7 (128 / len + j.val / (2 * len))
  if j.val % (2 * len) < len then f j + z * f (idx (j.val + len)) else f (idx (j.val - len)) - z * f j

/-- Algorithm 9. -/
def ntt (f : Poly) : Poly := [128, 64, 32, 16, 8, 4, 2].foldl (fun f len => nttLayer len f) f

/-- One pass of the outer loop of algorithm 10.  Block `b` uses `i = 256/len - 1 - b`. -/
def inttLayer (len : Nat) (f : Poly) : Poly := fun j =>
  let z := zeta ^ bitRev7 (256 / len - 1 - j.val / (2 * len))
  if j.val % (2 * len) < len then f j + f (idx (j.val + len)) else z * (f j - f (idx (j.val - len)))

/-- Algorithm 10. -/
def intt (f : Poly) : Poly := fun j => 3303 * ([2, 4, 8, 16, 32, 64, 128].foldl (fun f len => inttLayer len f) f) j

/-- Algorithms 11 and 12. -/
def mulNTT (f g : Poly) : Poly := fun j =>
  let i := j.val / 2
  let a0 := f (idx (2 * i)); let a1 := f (idx (2 * i + 1))
  let b0 := g (idx (2 * i)); let b1 := g (idx (2 * i + 1))
  if j.val % 2 = 0 then a0 * b0 + a1 * b1 * zeta ^ (2 * bitRev7 i + 1) else a0 * b1 + a1 * b0

/-- 2.4.7: products of vectors and matrices in the transformed domain. -/
def dot (a b : Vec) : Poly := fun j => mulNTT (a 0) (b 0) j + mulNTT (a 1) (b 1) j + mulNTT (a 2) (b 2) j
def mulVec (A : Mat) (s : Vec) : Vec := fun i => dot (A i) s
def transpose (A : Mat) : Mat := fun i j => A j i

/-! ### 5: K-PKE -/

def byte (i : Nat) : Byte := BitVec.ofNat 8 i

/-- Lines 3 to 7 of algorithm 13 and 4 to 8 of algorithm 14: `Â[i, j] = SampleNTT(ρ ‖ j ‖ i)`. -/
def sampleMat (limit : Nat) (rho : Bytes) : Option Mat :=
  let m (i j : Fin 3) : Option Poly := sampleNTT limit (rho ++ [byte j.val, byte i.val])
  if ∀ i j, (m i j).isSome then some fun i j => (m i j).getD 0 else none

/-- `ByteEncode_12` of a vector, joined. -/
def encodeVec12 (v : Vec) : Bytes := byteEncode 12 (coeffs (v 0)) ++ byteEncode 12 (coeffs (v 1)) ++ byteEncode 12 (coeffs (v 2))
def decodeVec12 (B : Bytes) : Vec := fun i => ofCoeffs (byteDecode 12 ((B.drop (384 * i.val)).take 384))

/-- Algorithm 13: the encryption and decryption keys. -/
def kpkeKeyGen (limit : Nat) (d : Bytes) : Option (Bytes × Bytes) :=
  let (rho, sigma) := G (d ++ [3#8])
  (sampleMat limit rho).map fun A =>
    let s : Vec := fun i => samplePolyCBD (PRF sigma (byte i.val))
    let e : Vec := fun i => samplePolyCBD (PRF sigma (byte (3 + i.val)))
    let sHat : Vec := fun i => ntt (s i)
    let eHat : Vec := fun i => ntt (e i)
    let tHat : Vec := fun i => mulVec A sHat i + eHat i
    (encodeVec12 tHat ++ rho, encodeVec12 sHat)

/-- Algorithm 14. -/
def kpkeEncrypt (limit : Nat) (ek m r : Bytes) : Option Bytes :=
  let tHat := decodeVec12 (ek.take 1152)
  let rho := (ek.drop 1152).take 32
  (sampleMat limit rho).map fun A =>
    let y : Vec := fun i => samplePolyCBD (PRF r (byte i.val))
    let e1 : Vec := fun i => samplePolyCBD (PRF r (byte (3 + i.val)))
    let e2 := samplePolyCBD (PRF r (byte 6))
    let yHat : Vec := fun i => ntt (y i)
    let u : Vec := fun i => intt (mulVec (transpose A) yHat i) + e1 i
    let mu := decodeDecompress 1 m
    let v := intt (dot tHat yHat) + e2 + mu
    compressEncode 10 (u 0) ++ compressEncode 10 (u 1) ++ compressEncode 10 (u 2) ++ compressEncode 4 v

/-- Algorithm 15. -/
def kpkeDecrypt (dk c : Bytes) : Bytes :=
  let u : Vec := fun i => decodeDecompress 10 ((c.drop (320 * i.val)).take 320)
  let v := decodeDecompress 4 ((c.drop 960).take 128)
  let sHat := decodeVec12 dk
  let w := v - intt (dot sHat fun i => ntt (u i))
  compressEncode 1 w

/-! ### 6: ML-KEM -/

/-- Algorithm 16: the encapsulation and decapsulation keys. -/
def keyGenInternal (limit : Nat) (d z : Bytes) : Option (Bytes × Bytes) :=
  (kpkeKeyGen limit d).map fun (ek, dkPKE) => (ek, dkPKE ++ ek ++ H ek ++ z)

/-- Algorithm 17: the shared secret and the ciphertext. -/
def encapsInternal (limit : Nat) (ek m : Bytes) : Option (Bytes × Bytes) :=
  let (K, r) := G (m ++ H ek)
  (kpkeEncrypt limit ek m r).map fun c => (K, c)

/-- Algorithm 18. -/
def decapsInternal (limit : Nat) (dk c : Bytes) : Option Bytes :=
  let dkPKE := dk.take 1152
  let ekPKE := (dk.drop 1152).take 1184
  let h := (dk.drop 2336).take 32
  let z := (dk.drop 2368).take 32
  let m' := kpkeDecrypt dkPKE c
  let (K', r') := G (m' ++ h)
  let Kbar := J (z ++ c)
  (kpkeEncrypt limit ekPKE m' r').map fun c' => if c = c' then K' else Kbar

end Verif.Spec.MlKem
