import Verif.Base.Chunks

/-!
ChaCha20 as in RFC 8439, 2.1-2.4, and HChaCha20 as in draft-irtf-cfrg-xchacha, 2.2.
-/
namespace Verif.Spec.ChaCha20
open Verif

/-- A 32-bit word. -/
abbrev Word := BitVec 32

/-- RFC 8439, 2.1: the quarter round on four words. -/
def qr (a b c d : Word) : Word × Word × Word × Word :=
  let a := a + b; let d := (d ^^^ a).rotateLeft 16
  let c := c + d; let b := (b ^^^ c).rotateLeft 12
  let a := a + b; let d := (d ^^^ a).rotateLeft 8
  let c := c + d; let b := (b ^^^ c).rotateLeft 7
  (a, b, c, d)

/-- RFC 8439, 2.2: the quarter round on positions `x y z w` of the state. -/
def quarterRound (s : List Word) (x y z w : Nat) : List Word :=
  let r := qr (s.getD x 0) (s.getD y 0) (s.getD z 0) (s.getD w 0)
  (((s.set x r.1).set y r.2.1).set z r.2.2.1).set w r.2.2.2

/-- RFC 8439, 2.3: the positions of one column round followed by one diagonal round. -/
def positions : List (Nat × Nat × Nat × Nat) :=
  [(0, 4, 8, 12), (1, 5, 9, 13), (2, 6, 10, 14), (3, 7, 11, 15),
   (0, 5, 10, 15), (1, 6, 11, 12), (2, 7, 8, 13), (3, 4, 9, 14)]

def doubleRound (s : List Word) : List Word :=
  positions.foldl (fun s p => quarterRound s p.1 p.2.1 p.2.2.1 p.2.2.2) s

/-- Twenty rounds. -/
def rounds (s : List Word) : List Word := (List.range 10).foldl (fun s _ => doubleRound s) s

/-- Little-endian words of a byte string. -/
def words (b : Bytes) : List Word := (chunksExact 4 b).map fun c => BitVec.ofNat 32 (leNat c)

/-- Little-endian bytes of words. -/
def serialize (s : List Word) : Bytes := (s.map fun w => toLE 4 w.toNat).flatten

/-- "expand 32-byte k". -/
def constant : Bytes :=
  [0x65, 0x78, 0x70, 0x61, 0x6e, 0x64, 0x20, 0x33, 0x32, 0x2d, 0x62, 0x79, 0x74, 0x65, 0x20, 0x6b]

/-- RFC 8439, 2.3: the block function, for a 32-byte key and a 12-byte nonce. -/
def block (key : Bytes) (counter : Word) (nonce : Bytes) : Bytes :=
  let s := words constant ++ words key ++ [counter] ++ words nonce
  serialize (List.zipWith (· + ·) s (rounds s))

/-- Byte `i` of the key stream that starts at block `counter`. -/
def keystream (key : Bytes) (counter : Word) (nonce : Bytes) (i : Nat) : Byte :=
  (block key (counter + BitVec.ofNat 32 (i / 64)) nonce).getD (i % 64) 0#8

/-- RFC 8439, 2.4: encryption, byte `i` of the output being byte `i` of the input xor byte `i` of the
key stream. -/
def encrypt (key : Bytes) (counter : Word) (nonce : Bytes) (data : Bytes) : Bytes :=
  data.mapIdx fun i b => b ^^^ keystream key counter nonce i

/-- HChaCha20: the first and last four words of the state after twenty rounds, for a 32-byte key and
16-byte input. -/
def hchacha (key input : Bytes) : Bytes :=
  let s := rounds (words constant ++ words key ++ words input)
  serialize (s.take 4 ++ s.drop 12)

end Verif.Spec.ChaCha20
