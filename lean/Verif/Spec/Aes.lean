import Verif.Base.Bytes

/-!
The AES block cipher, from FIPS 197.  A state is its sixteen bytes in input order, so byte `r + 4c` is
row `r` of column `c`.
-/
namespace Verif.Spec.Aes
open Verif

/-- 4.2: multiplication by `x` in GF(2^8) modulo `x^8 + x^4 + x^3 + x + 1`. -/
def xtime (b : Byte) : Byte := if b.msb then (b <<< 1) ^^^ 0x1b#8 else b <<< 1

/-- 4.2: multiplication in GF(2^8). -/
def gmul (a b : Byte) : Byte :=
  ((List.range 8).foldl (fun (s : Byte × Byte) i =>
    (if b.getLsbD i then s.1 ^^^ s.2 else s.1, xtime s.2)) (0#8, a)).1

/-- `b ^ n` in GF(2^8). -/
def gpow (b : Byte) : Nat → Byte
  | 0 => 1#8
  | n + 1 => gmul b (gpow b n)

/-- The multiplicative inverse, with zero mapped to itself: `b ^ 254`, as the product of `b^2, b^4, …, b^128`.
(`C30_spec_inverse` shows that it is the inverse.) -/
def ginv (b : Byte) : Byte :=
  ((List.range 7).foldl (fun (s : Byte × Byte) _ => let q := gmul s.2 s.2; (gmul s.1 q, q)) (1#8, b)).1

/-- 5.1.1: the S-box, inverse followed by the affine map. -/
def sbox (b : Byte) : Byte :=
  let s := ginv b
  s ^^^ s.rotateLeft 1 ^^^ s.rotateLeft 2 ^^^ s.rotateLeft 3 ^^^ s.rotateLeft 4 ^^^ 0x63#8

def subBytes (s : Bytes) : Bytes := s.map sbox

/-- 5.1.2: row `r` moves left by `r` columns. -/
def shiftRows (s : Bytes) : Bytes :=
  (List.range 16).map fun i => s.getD (i % 4 + 4 * ((i / 4 + i % 4) % 4)) 0#8

/-- 5.1.3: one column. -/
def mixColumn (a b c d : Byte) : Bytes :=
  [gmul a 2 ^^^ gmul b 3 ^^^ c ^^^ d, a ^^^ gmul b 2 ^^^ gmul c 3 ^^^ d,
   a ^^^ b ^^^ gmul c 2 ^^^ gmul d 3, gmul a 3 ^^^ b ^^^ c ^^^ gmul d 2]

def mixColumns (s : Bytes) : Bytes :=
  (List.range 4).flatMap fun c =>
    mixColumn (s.getD (4 * c) 0#8) (s.getD (4 * c + 1) 0#8) (s.getD (4 * c + 2) 0#8) (s.getD (4 * c + 3) 0#8)

def xorBytes (a b : Bytes) : Bytes := List.zipWith (· ^^^ ·) a b

/-- 5.2: words are four bytes. -/
def subWord (w : Bytes) : Bytes := w.map sbox
def rotWord (w : Bytes) : Bytes := w.drop 1 ++ w.take 1
/-- `Rcon[i] = [x^(i-1), 0, 0, 0]`. -/
def rcon (i : Nat) : Bytes := [gpow 2#8 (i - 1), 0#8, 0#8, 0#8]

/-- 5.2: word `i` of the expanded key. -/
def word (key : Bytes) (i : Nat) : Bytes :=
  let nk := key.length / 4
  if h : i < nk ∨ nk = 0 then (key.drop (4 * i)).take 4
  else
    let temp := word key (i - 1)
    let temp :=
      if i % nk = 0 then xorBytes (subWord (rotWord temp)) (rcon (i / nk))
      else if 6 < nk ∧ i % nk = 4 then subWord temp
      else temp
    xorBytes (word key (i - nk)) temp
termination_by i

/-- Round key `r`: words `4r` to `4r + 3`. -/
def roundKey (key : Bytes) (r : Nat) : Bytes :=
  word key (4 * r) ++ word key (4 * r + 1) ++ word key (4 * r + 2) ++ word key (4 * r + 3)

/-- The number of rounds: 10, 12, 14 for 16, 24, 32 bytes of key. -/
def rounds (key : Bytes) : Nat := key.length / 4 + 6

/-- 5.1: the cipher. -/
def cipher (key input : Bytes) : Bytes :=
  let s := xorBytes input (roundKey key 0)
  let s := (List.range (rounds key - 1)).foldl
    (fun s r => xorBytes (mixColumns (shiftRows (subBytes s))) (roundKey key (r + 1))) s
  xorBytes (shiftRows (subBytes s)) (roundKey key (rounds key))

end Verif.Spec.Aes
