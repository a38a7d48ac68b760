import Verif.Model.X86

/-! What a routine in machine code may assume about memory when it is entered, and what it may change. -/
namespace Verif.X86
open Verif

/-- A block of memory: its address and length in words, whether the routine may write it, and, if the routine may read it, the
words it holds on entry. -/
structure Block where
  at' : Word
  len : Nat
  wr : Bool
  holds : Option Words

/-- The block is as described. -/
structure Block.Ok (s : St) (b : Block) : Prop where
  owns : b.wr = true → s.Owns b.at' b.len
  len : ∀ ws, b.holds = some ws → ws.length = b.len
  holds : ∀ ws, b.holds = some ws → Holds s.mem b.at' ws

/-- The blocks are as described, and one that may be written has no word in common with another. -/
structure Ready (s : St) (bs : List Block) : Prop where
  ok : ∀ b ∈ bs, b.Ok s
  apart : bs.Pairwise fun a b => (a.wr = true ∨ b.wr = true) → Apart a.at' a.len b.at' b.len

/-- Outside the blocks that may be written memory is unchanged. -/
def Untouched (bs : List Block) (s s' : St) : Prop :=
  ∀ a, (∀ b ∈ bs, b.wr = true → ∀ i < b.len, a ≠ word b.at' i) → s'.mem a = s.mem a

/-- The `n` words below the stack pointer. -/
def stackBlock (s : St) (n : Nat) : Block := ⟨s.rsp - BitVec.ofNat 64 (8 * n), n, true, none⟩
/-- An array to be read. -/
def inBlock (p : Word) (ws : Words) : Block := ⟨p, ws.length, false, some ws⟩
/-- An array of `n` words to be written. -/
def outBlock (p : Word) (n : Nat) : Block := ⟨p, n, true, none⟩

end Verif.X86
