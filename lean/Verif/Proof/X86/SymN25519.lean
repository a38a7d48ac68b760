import Verif.Proof.X86.SymUse
import Verif.Proof.X86.SymN25519Base

/-! Generated by tools/gen_sym.py: advice and claims for the symbolic executor, checked by the kernel. -/
namespace Verif.X86.Sym
open Verif Verif.X86 Verif.X86.Asm

namespace Madd
def X : List Nat := [0, 1, 2, 3]
def Y : List Nat := [4, 5, 6, 7]
def C : List Nat := [8, 9, 10, 11]
def R : List Nat := [14, 40, 66, 92, 98, 104, 110, 114]
def hints : List (Nat × Hint) := [(13, ⟨18446744073709551616, [(3, 1)], false⟩),
  (14, ⟨115792089237316195423570985008687907853269984665640564039457584007913129639936, [(21, 1), (15, 18446744073709551616), (9, 340282366920938463463374607431768211456), (3, 6277101735386680763835789423207666416102355444464034512896)], false⟩),
  (28, ⟨18446744073709551616, [(3, 1)], false⟩),
  (29, ⟨115792089237316195423570985008687907853269984665640564039457584007913129639936, [(41, (-1)), (35, (-18446744073709551616)), (29, (-340282366920938463463374607431768211456)), (25, (-6277101735386680763835789423207666416102355444464034512896)), (21, 1), (15, 18446744073709551616), (9, 340282366920938463463374607431768211456), (3, 6277101735386680763835789423207666416102355444464034512896)], false⟩),
  (43, ⟨18446744073709551616, [(3, 1)], false⟩),
  (44, ⟨115792089237316195423570985008687907853269984665640564039457584007913129639936, [(41, (-1)), (35, (-18446744073709551616)), (29, (-340282366920938463463374607431768211456)), (25, (-6277101735386680763835789423207666416102355444464034512896)), (21, 1), (15, 18446744073709551616), (9, 340282366920938463463374607431768211456), (3, 6277101735386680763835789423207666416102355444464034512896)], false⟩),
  (58, ⟨18446744073709551616, [(3, 1)], false⟩),
  (59, ⟨115792089237316195423570985008687907853269984665640564039457584007913129639936, [(41, (-1)), (35, (-18446744073709551616)), (29, (-340282366920938463463374607431768211456)), (25, (-6277101735386680763835789423207666416102355444464034512896)), (21, 1), (15, 18446744073709551616), (9, 340282366920938463463374607431768211456), (3, 6277101735386680763835789423207666416102355444464034512896)], false⟩)]
def claims : List Claim := [
  .rel [.lin 0x1 C, .mul 0x1 X Y, .lin (-0x1) R],
  .reg [.r8, .r9, .r10, .r11, .r12, .r13, .r14, .r15] R]
set_option maxRecDepth 100000 in
theorem verified : verifyR [⟨.rsi, 4, 0, false⟩, ⟨.rcx, 4, 0, false⟩] [0, 1] [.r8, .r9, .r10, .r11] hints maddProd claims = true := by decide +kernel
end Madd

end Verif.X86.Sym
