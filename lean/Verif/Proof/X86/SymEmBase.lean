import Verif.Proof.X86.SymReg
import Verif.Model.AsmX86.Rsa

/-! The parts of `bignum_emontredc_8n` without jumps. -/
namespace Verif.X86.Sym
open Verif Verif.X86

/-- Eight rows of the reduction. -/
def emA : Prog := (Asm.bignumEmontredc8n.drop 17).take 240
/-- Eight rows of multiplication and addition. -/
def emB : Prog := (Asm.bignumEmontredc8n.drop 264).take 240
/-- The end of a pass over the number, with its addresses relative to `rbp`. -/
def emC : Prog := [
  .neg (.reg .rbx),
  .adc (.mem ⟨some .rbp, none, 64#64⟩) (.reg .r8),
  .adc (.mem ⟨some .rbp, none, 72#64⟩) (.reg .r9),
  .adc (.mem ⟨some .rbp, none, 80#64⟩) (.reg .r10),
  .adc (.mem ⟨some .rbp, none, 88#64⟩) (.reg .r11),
  .adc (.mem ⟨some .rbp, none, 96#64⟩) (.reg .r12),
  .adc (.mem ⟨some .rbp, none, 104#64⟩) (.reg .r13),
  .adc (.mem ⟨some .rbp, none, 112#64⟩) (.reg .r14),
  .adc (.mem ⟨some .rbp, none, 120#64⟩) (.reg .r15),
  .mov (.reg .rax) (.imm 0#64),
  .adc (.reg .rax) (.imm 0#64)]

/-- The words of a row of the reduction: the number before (`A`) and after (`B`, its lowest word again as `b`), the factor
`q`, its product with the lowest word of the modulus, the word that vanishes, and the carries. -/
structure Row where
  A : List Nat
  q0 : Nat
  q : Nat
  h : Nat
  lo : Nat
  hi : Nat
  L : Nat
  c : Nat
  v1 : Nat
  v2 : Nat
  B : List Nat
  b : Nat

def Row.claims (M : List Nat) (w : Nat) (r : Row) : List Claim := [
  .eq r.q r.q0,
  .eq r.b (r.B.headD 0),
  .rel [.lin 1 [r.q0], .lin 18446744073709551616 [r.h], .mul (-1) [r.A.headD 0] [w]],
  .rel [.lin 1 [r.lo], .lin 18446744073709551616 [r.hi], .mul (-1) [r.q] [M.headD 0]],
  .rel [.lin 1 [r.L], .lin 18446744073709551616 [r.c], .lin (-1) [r.A.headD 0], .lin (-1) [r.lo]],
  .rel [.lin 1 r.A, .mul 1 [r.q] M, .lin (2 ^ 512 - 1) [r.L], .lin (-18446744073709551616) r.B, .lin (-(2 ^ 576)) [r.v1],
    .lin (-(2 ^ 576)) [r.v2]]]

end Verif.X86.Sym
