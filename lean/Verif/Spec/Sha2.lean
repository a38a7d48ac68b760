import Verif.Base.Chunks
import Verif.Base.Words8

/-!
SHA-256, SHA-384 and SHA-512 as in FIPS 180-4, written without reference to the implementation:
the message schedule is the recursive equation for `W_t`, the constants are computed from roots of
primes, padding and parsing act on the whole message.
-/
namespace Verif.Spec.Sha2
open Verif

/-! ### Constants: fractional parts of roots of primes (FIPS 180-4, 4.2.2, 4.2.3, 5.3.3-5.3.5) -/

/-- `irootAux n x k r` is the largest `s` with `s^n ≤ x`, if it is in `[r, r + 2^k)`. -/
def irootAux (n x : Nat) : Nat → Nat → Nat
  | 0, r => r
  | k + 1, r => irootAux n x k (if (r + 2 ^ k) ^ n ≤ x then r + 2 ^ k else r)

/-- The integer part of the `n`-th root of `x`, for `x < 2^(80 n)`. -/
def iroot (n x : Nat) : Nat := irootAux n x 80 0

/-- The first `bits` bits of the fractional part of the `n`-th root of `p`. -/
def rootFrac (n bits p : Nat) : Nat := iroot n (p * 2 ^ (n * bits)) % 2 ^ bits

/-- `p` is prime. -/
def isPrime (p : Nat) : Bool := 2 ≤ p && (List.range p).all (fun d => d < 2 || p % d != 0)

/-- The first eighty primes. -/
def primes : List Nat := (List.range 410).filter isPrime

/-- FIPS 180-4, 4.2.2: first 32 bits of the fractional parts of the cube roots of 64 primes. -/
def K256 (t : Nat) : BitVec 32 := BitVec.ofNat 32 (rootFrac 3 32 (primes.getD t 0))
/-- FIPS 180-4, 4.2.3: first 64 bits of the fractional parts of the cube roots of 80 primes. -/
def K512 (t : Nat) : BitVec 64 := BitVec.ofNat 64 (rootFrac 3 64 (primes.getD t 0))

/-- First `w` bits of the fractional parts of the square roots of eight primes, from the `i`-th. -/
def sqrtIV (w i : Nat) : St w :=
  let f j := BitVec.ofNat w (rootFrac 2 w (primes.getD (i + j) 0))
  ⟨f 0, f 1, f 2, f 3, f 4, f 5, f 6, f 7⟩

/-! ### Functions (FIPS 180-4, 4.1.2, 4.1.3) -/

def Ch {w} (x y z : BitVec w) : BitVec w := (x &&& y) ^^^ (~~~x &&& z)
def Maj {w} (x y z : BitVec w) : BitVec w := (x &&& y) ^^^ (x &&& z) ^^^ (y &&& z)

/-- The functions and constants of one variant. -/
structure Variant (w : Nat) where
  Sigma0 : BitVec w → BitVec w
  Sigma1 : BitVec w → BitVec w
  sigma0 : BitVec w → BitVec w
  sigma1 : BitVec w → BitVec w
  rounds : Nat
  K : Nat → BitVec w

def v256 : Variant 32 where
  Sigma0 x := x.rotateRight 2 ^^^ x.rotateRight 13 ^^^ x.rotateRight 22
  Sigma1 x := x.rotateRight 6 ^^^ x.rotateRight 11 ^^^ x.rotateRight 25
  sigma0 x := x.rotateRight 7 ^^^ x.rotateRight 18 ^^^ (x >>> 3)
  sigma1 x := x.rotateRight 17 ^^^ x.rotateRight 19 ^^^ (x >>> 10)
  rounds := 64
  K := K256

def v512 : Variant 64 where
  Sigma0 x := x.rotateRight 28 ^^^ x.rotateRight 34 ^^^ x.rotateRight 39
  Sigma1 x := x.rotateRight 14 ^^^ x.rotateRight 18 ^^^ x.rotateRight 41
  sigma0 x := x.rotateRight 1 ^^^ x.rotateRight 8 ^^^ (x >>> 7)
  sigma1 x := x.rotateRight 19 ^^^ x.rotateRight 61 ^^^ (x >>> 6)
  rounds := 80
  K := K512

/-! ### Schedule and compression (FIPS 180-4, 6.2.2, 6.4.2) -/

/-- The `t`-th big-endian word of a block. -/
def word (w : Nat) (block : Bytes) (t : Nat) : BitVec w :=
  BitVec.ofNat w (beNat ((block.drop (t * (w / 8))).take (w / 8)))

/-- The message schedule: `W_t = M_t` for `t < 16`, and
`W_t = σ1(W_{t-2}) + W_{t-7} + σ0(W_{t-15}) + W_{t-16}` afterwards. -/
def W {w} (V : Variant w) (block : Bytes) (t : Nat) : BitVec w :=
  if h : t < 16 then word w block t
  else V.sigma1 (W V block (t - 2)) + W V block (t - 7)
    + V.sigma0 (W V block (t - 15)) + W V block (t - 16)
termination_by t
decreasing_by all_goals omega

/-- One round. -/
def round {w} (V : Variant w) (block : Bytes) (s : St w) (t : Nat) : St w :=
  let T1 := s.h + V.Sigma1 s.e + Ch s.e s.f s.g + V.K t + W V block t
  let T2 := V.Sigma0 s.a + Maj s.a s.b s.c
  ⟨T1 + T2, s.a, s.b, s.c, s.d + T1, s.e, s.f, s.g⟩

/-- `H^(i)` from `H^(i-1)` and the block. -/
def compress {w} (V : Variant w) (H : St w) (block : Bytes) : St w :=
  let s := (List.range V.rounds).foldl (round V block) H
  ⟨s.a + H.a, s.b + H.b, s.c + H.c, s.d + H.d, s.e + H.e, s.f + H.f, s.g + H.g, s.h + H.h⟩

/-! ### Padding and the hash functions (FIPS 180-4, 5.1, 6.2, 6.4, 6.5) -/

/-- Append `0x80`, the least number of zero bytes that makes the total a multiple of `block`, and the
length in bits as a `lenBytes`-byte big-endian number. -/
def pad (block lenBytes : Nat) (m : Bytes) : Bytes :=
  m ++ [0x80#8]
    ++ List.replicate ((block - (m.length + 1 + lenBytes) % block) % block) 0#8
    ++ toBE lenBytes (8 * m.length)

/-- Eight words as big-endian bytes. -/
def output {w} (s : St w) : Bytes :=
  [s.a, s.b, s.c, s.d, s.e, s.f, s.g, s.h].flatMap (fun x => toBE (w / 8) x.toNat)

def sha256 (m : Bytes) : Bytes :=
  output ((chunksExact 64 (pad 64 8 m)).foldl (compress v256) (sqrtIV 32 0))

def sha512 (m : Bytes) : Bytes :=
  output ((chunksExact 128 (pad 128 16 m)).foldl (compress v512) (sqrtIV 64 0))

/-- SHA-384: initial value from the ninth to sixteenth primes, output truncated to 384 bits. -/
def sha384 (m : Bytes) : Bytes :=
  (output ((chunksExact 128 (pad 128 16 m)).foldl (compress v512) (sqrtIV 64 8))).take 48

end Verif.Spec.Sha2
