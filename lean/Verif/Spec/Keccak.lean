import Verif.Base.Chunks

/-!
SHA-3 and SHAKE, from FIPS 202.  A state is its 25 lanes of 64 bits, lane `(x, y)` at index `x + 5y`; as a
string it is 200 bytes, each lane least significant byte first (FIPS 202, 3.1.2 and B.1).  Padding is done
on bits, as in the standard.
-/
namespace Verif.Spec.Keccak
open Verif

abbrev Lane := BitVec 64
abbrev Lanes := List Lane

/-- Lane `(x, y)`, coordinates modulo 5. -/
def at' (a : Lanes) (x y : Nat) : Lane := a.getD (x % 5 + 5 * (y % 5)) 0#64
/-- The state whose lane `(x, y)` is `f x y`. -/
def mk (f : Nat → Nat → Lane) : Lanes := (List.range 25).map fun i => f (i % 5) (i / 5)

/-- 3.2.1. -/
def theta (a : Lanes) : Lanes :=
  let c := fun x => at' a x 0 ^^^ at' a x 1 ^^^ at' a x 2 ^^^ at' a x 3 ^^^ at' a x 4
  mk fun x y => at' a x y ^^^ (c (x + 4) ^^^ (c (x + 1)).rotateLeft 1)

/-- 3.2.2: the walk `(x, y) ← (y, (2x + 3y) mod 5)` and the offsets `(t + 1)(t + 2)/2`. -/
def rhoOffset (x y : Nat) : Nat :=
  ((List.range 24).foldl (fun (s : (Nat × Nat) × Nat) t =>
    ((s.1.2, (2 * s.1.1 + 3 * s.1.2) % 5), if s.1 = (x, y) then (t + 1) * (t + 2) / 2 else s.2)) ((1, 0), 0)).2 % 64
def rho (a : Lanes) : Lanes := mk fun x y => (at' a x y).rotateLeft (rhoOffset x y)

/-- 3.2.3. -/
def pi (a : Lanes) : Lanes := mk fun x y => at' a (x + 3 * y) x

/-- 3.2.4. -/
def chi (a : Lanes) : Lanes := mk fun x y => at' a x y ^^^ (~~~ at' a (x + 1) y &&& at' a (x + 2) y)

/-- 3.2.5, algorithm 5: the bit `rc(t)`, from the register `R = R0 … R7`. -/
def rc (t : Nat) : Bool :=
  (repeatStep (t % 255) [true, false, false, false, false, false, false, false]).headD false
where
  step (r : List Bool) : List Bool :=
    let r := false :: r
    let b := r.getD 8 false
    let r := (r.set 0 (r.getD 0 false ^^ b)).set 4 (r.getD 4 false ^^ b)
    let r := (r.set 5 (r.getD 5 false ^^ b)).set 6 (r.getD 6 false ^^ b)
    r.take 8
  repeatStep : Nat → List Bool → List Bool
    | 0, r => r
    | n + 1, r => repeatStep n (step r)

/-- 3.2.5, algorithm 6: `RC[2^j - 1] = rc(j + 7 i)` for `j` up to 6. -/
def roundConstant (i : Nat) : Lane :=
  (List.range 7).foldl (fun (v : Lane) j => if rc (j + 7 * i) then v ||| 1#64 <<< (2 ^ j - 1) else v) 0#64

/-- 3.2.5: iota with round constant `k`. -/
def iota (k : Lane) (a : Lanes) : Lanes := a.set 0 (a.getD 0 0#64 ^^^ k)

/-- 3.3: rounds with the given round constants. -/
def rounds (ks : List Lane) (a : Lanes) : Lanes := ks.foldl (fun a k => iota k (chi (pi (rho (theta a))))) a

/-- 3.4: KECCAK-f[1600]. -/
def keccakF (a : Lanes) : Lanes := rounds ((List.range 24).map roundConstant) a

/-! ### States as strings -/

def bytesOf (a : Lanes) : Bytes := a.flatMap fun l => toLE 8 l.toNat
def lanesOf (b : Bytes) : Lanes := (chunksExact 8 b).map fun c => BitVec.ofNat 64 (leNat c)
/-- A permutation of lanes as a permutation of 200-byte strings. -/
def onBytes (f : Lanes → Lanes) (b : Bytes) : Bytes := bytesOf (f (lanesOf b))

/-! ### Padding (5.1), on bits -/

/-- B.1: the bits of a byte, least significant first, and back. -/
def bitsOf (b : Byte) : List Bool := (List.range 8).map fun i => b.getLsbD i
def byteOf (bits : List Bool) : Byte := BitVec.ofNat 8 (bits.foldr (fun b n => b.toNat + 2 * n) 0)
def ofBits (bits : List Bool) : Bytes := (chunks 8 bits).map byteOf

/-- 5.1: `pad10*1(x, m)`. -/
def pad101 (x m : Nat) : List Bool :=
  let j := (x - (m + 2) % x) % x
  [true] ++ List.replicate j false ++ [true]

/-- `N ‖ pad(r, len(N))` for `N = M ‖ suffix`, with a rate of `r` bytes. -/
def padded (r : Nat) (suffix : List Bool) (M : Bytes) : Bytes :=
  let N := M.flatMap bitsOf ++ suffix
  ofBits (N ++ pad101 (8 * r) N.length)

/-! ### The sponge (4) -/

/-- Algorithm 8, steps 1 to 6: the state after absorbing. -/
def absorb (f : Bytes → Bytes) (r : Nat) (P : Bytes) : Bytes :=
  (chunksExact r P).foldl (fun S p => f (List.zipWith (· ^^^ ·) S (p ++ List.replicate (200 - r) 0#8)))
    (List.replicate 200 0#8)

/-- `f` applied `n` times. -/
def iter (f : Bytes → Bytes) : Nat → Bytes → Bytes
  | 0, s => s
  | n + 1, s => iter f n (f s)

/-- Byte `i` of the infinite output: the `r`-byte prefixes of `S, f(S), f(f(S)), …` joined. -/
def streamByte (f : Bytes → Bytes) (r : Nat) (S : Bytes) (i : Nat) : Byte := (iter f (i / r) S).getD (i % r) 0#8

/-- Algorithm 8, steps 7 to 10: the first `d` bytes of output. -/
def squeeze (f : Bytes → Bytes) (r : Nat) (S : Bytes) (d : Nat) : Bytes := (List.range d).map (streamByte f r S)

/-- SPONGE[f, pad10*1, r](M ‖ suffix, d), for bytes. -/
def sponge (f : Lanes → Lanes) (r : Nat) (suffix : List Bool) (M : Bytes) (d : Nat) : Bytes :=
  squeeze (onBytes f) r (absorb (onBytes f) r (padded r suffix M)) d

/-- 6.1: the suffix of SHA-3. -/
def sha3Suffix : List Bool := [false, true]
/-- 6.2: the suffix of SHAKE. -/
def shakeSuffix : List Bool := [true, true, true, true]

def sha3_256 (M : Bytes) : Bytes := sponge keccakF 136 sha3Suffix M 32
def sha3_512 (M : Bytes) : Bytes := sponge keccakF 72 sha3Suffix M 64
def shake128 (M : Bytes) (d : Nat) : Bytes := sponge keccakF 168 shakeSuffix M d
def shake256 (M : Bytes) (d : Nat) : Bytes := sponge keccakF 136 shakeSuffix M d

end Verif.Spec.Keccak
