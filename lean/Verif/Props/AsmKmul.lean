import Verif.Proof.X86.Kmul
import Verif.Proof.X86.ReadyOf

/-!
C60, continued: the products of sixteen words, which RSA keys of 2048 bits use for each prime.  They have no loops.
-/
namespace Verif.Props
open Verif X86 X86.Sym

/-- `bignum_kmul_16_32`: the exact product of two numbers of sixteen words. -/
theorem C60_kmul_16 (s : St) (x y : Words) (hx : x.length = 16) (hy : y.length = 16)
    (h : Ready s [stackBlock s 6, outBlock s.rdi 32, inBlock s.rsi x, inBlock s.rdx y]) :
    Runs Asm.bignumKmul1632 s fun s' => Holds s'.mem s.rdi (toWords 32 (val x * val y)) ∧
      Untouched [stackBlock s 6, outBlock s.rdi 32, inBlock s.rsi x, inBlock s.rdx y] s s' :=
  kmul16_ok s x y hx hy h

/-- `bignum_ksqr_16_32`: the exact square of a number of sixteen words. -/
theorem C60_ksqr_16 (s : St) (x : Words) (hx : x.length = 16)
    (h : Ready s [stackBlock s 6, outBlock s.rdi 32, inBlock s.rsi x]) :
    Runs Asm.bignumKsqr1632 s fun s' => Holds s'.mem s.rdi (toWords 32 (val x * val x)) ∧
      Untouched [stackBlock s 6, outBlock s.rdi 32, inBlock s.rsi x] s s' :=
  ksqr16_ok s x hx h

/-! A state in which the hypotheses hold, for each pair of numbers of that length. -/

example (x y : Words) (hx : x.length = 16) (hy : y.length = 16) := C60_kmul_16 (callSt x y) x y hx hy
  (callSt_two _ _ (by omega) (by omega) (by decide) (by decide)).1
example (x : Words) (hx : x.length = 16) := C60_ksqr_16 (callSt x []) x hx (callSt_one _ _ (by omega) (by decide) (by decide)).1

end Verif.Props
