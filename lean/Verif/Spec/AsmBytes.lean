import Verif.Model.X86Byte

/-! How arrays stand in memory made of bytes. -/
namespace Verif.X86
open Verif

/-- Memory holds the bytes `B` at `p`. -/
def HoldsB (m : Word → Option Byte) (p : Word) (B : Bytes) : Prop := ∀ (i : Nat) (h : i < B.length), m (badr p i) = some B[i]
/-- The bytes of an array of 16-bit numbers, the lower byte first. -/
def bytes16 (l : List Nat) : Bytes := (List.range (2 * l.length)).map fun i => BitVec.ofNat 8 (l.getD (i / 2) 0 / 256 ^ (i % 2))
/-- Address `a` is one of the `n` from `p`. -/
def InB (p : Word) (n : Nat) (a : Word) : Prop := ∃ i < n, a = badr p i
/-- No byte belongs to both of two arrays. -/
def ApartB (p : Word) (m : Nat) (q : Word) (n : Nat) : Prop := ∀ i < m, ∀ j < n, badr p i ≠ badr q j

end Verif.X86
