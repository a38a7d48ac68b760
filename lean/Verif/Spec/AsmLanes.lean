import Verif.Spec.AsmCall
import Verif.Model.X86Vec
import Verif.Model.MlKem

/-! How arrays of bytes and of `i16` stand in memory that is made of words. -/
namespace Verif.X86
open Verif

/-- `n` words of four lanes each. -/
def laneWords (n : Nat) (f : Nat → BitVec 16) : Words := (List.range n).map fun i => ofLanes4 fun k => f (4 * i + k)
/-- An array of `i16`, a multiple of four. -/
def words16 (a : MlKem.Coeffs) : Words := laneWords (a.length / 4) fun i => BitVec.ofInt 16 (a.getD i 0)
/-- An array of bytes, a multiple of eight. -/
def words8 (B : Bytes) : Words := (List.range (B.length / 8)).map fun i => ofBytes8 fun k => B.getD (8 * i + k) 0#8
/-- An array to be read and written. -/
def ioBlock (p : Word) (ws : Words) : Block := ⟨p, ws.length, true, some ws⟩
/-- The address is a multiple of 32. -/
def Aligned32 (p : Word) : Prop := p.toNat % 32 = 0
/-- What a routine leaves: the result at `p`, memory outside the blocks it may write unchanged, and of the general registers and the flags
only `rax` changed. -/
def Ends (t : VSt) (bs : List Block) (p : Word) (ws : Words) (t' : VSt) : Prop :=
  Holds t'.s.mem p ws ∧ Untouched bs t.s t'.s ∧ t'.s = { t.s with mem := t'.s.mem, rax := t'.s.rax }

end Verif.X86
