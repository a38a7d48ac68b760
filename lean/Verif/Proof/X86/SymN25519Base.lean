import Verif.Proof.X86.SymReg
import Verif.Model.AsmX86.N25519

/-! The part of `bignum_madd_n25519` before the reduction. -/
namespace Verif.X86.Sym
open Verif Verif.X86

/-- The product, added to the number in four registers. -/
def maddProd : Prog := (Asm.bignumMaddN25519.drop 12).take 60

end Verif.X86.Sym
