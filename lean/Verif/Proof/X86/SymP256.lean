import Verif.Proof.X86.SymUse
import Verif.Model.AsmX86.P256

/-! Generated by tools/gen_sym.py: advice and claims for the symbolic executor, checked by the kernel. -/
namespace Verif.X86.Sym
open Verif Verif.X86 Verif.X86.Asm

namespace AddP256
def X : List Nat := [0, 1, 2, 3]
def Y : List Nat := [4, 5, 6, 7]
def U : List Nat := [18, 20, 22, 24]
def D : Nat := 26
def b : Nat := 27
def A1 : Nat := 28
def A2 : Nat := 29
def Z : List Nat := [30, 32, 34, 36]
def c : Nat := 37
def hints : List (Nat × Hint) := []
def claims : List Claim := [
  .rel [.lin 0x1 U, .lin 0x10000000000000000000000000000000000000000000000000000000000000000 [D], .lin (-0x100000000000000000000000000000000000000000000000000000000000000000000000000000000) [b], .lin (-0x1) X, .lin (-0x1) Y, .one 0xffffffff00000001000000000000000000000000ffffffffffffffffffffffff],
  .rel [.lin 0x1 Z, .lin 0x10000000000000000000000000000000000000000000000000000000000000000 [c], .lin (-0x1) U, .lin (-0x1) [D], .lin (-0x10000000000000000) [A1], .lin (-0x1000000000000000000000000000000000000000000000000) [A2]],
  .andc A1 D 0xffffffff,
  .andc A2 D 0xffffffff00000001,
  .out 1 Z,
  .le b 0x1,
  .le c 0x1]
set_option maxRecDepth 100000 in
theorem verified : verify [⟨.rsp, 0, 0, true⟩, ⟨.rdi, 4, 0, true⟩, ⟨.rsi, 4, 0, false⟩, ⟨.rdx, 4, 0, false⟩] [2, 3] hints bignumAddP256 claims = true := by decide +kernel
end AddP256

namespace NegP256
def X : List Nat := [0, 1, 2, 3]
def O : Nat := 6
def b : Nat := 8
def N : Nat := 7
def Z : List Nat := [11, 13, 15, 17]
def c : Nat := 18
def hints : List (Nat × Hint) := []
def claims : List Claim := [
  .or 4 0 1,
  .or 5 2 3,
  .or O 5 4,
  .rel [.lin 0x1 [N], .lin 0x1 [O], .lin (-0x10000000000000000) [b]],
  .rel [.lin 0x1 Z, .lin (-0x10000000000000000000000000000000000000000000000000000000000000000) [c], .lin (-0xffffffff00000001000000000000000000000000ffffffffffffffffffffffff) [b], .lin 0x1 X],
  .out 1 Z,
  .le b 0x1,
  .le c 0x1]
set_option maxRecDepth 100000 in
theorem verified : verify [⟨.rsp, 0, 0, true⟩, ⟨.rdi, 4, 0, true⟩, ⟨.rsi, 4, 0, false⟩] [2] hints bignumNegP256 claims = true := by decide +kernel
end NegP256

namespace ModN256
def X : List Nat := [0, 1, 2, 3]
def U : List Nat := [4, 6, 8, 10]
def c : Nat := 11
def Z : List Nat := [14, 16, 18, 20]
def b : Nat := 21
def hints : List (Nat × Hint) := []
def claims : List Claim := [
  .rel [.lin 0x1 U, .lin 0x10000000000000000000000000000000000000000000000000000000000000000 [c], .lin (-0x1) X, .one (-0xffffffff00000000000000004319055258e8617b0c46353d039cdaaf)],
  .rel [.lin 0x1 Z, .lin (-0x10000000000000000000000000000000000000000000000000000000000000000) [b], .lin (-0x1) U, .one 0xffffffff00000000000000004319055258e8617b0c46353d039cdaaf, .lin (-0xffffffff00000000000000004319055258e8617b0c46353d039cdaaf) [c]],
  .out 1 Z,
  .le c 0x1,
  .le b 0x1]
set_option maxRecDepth 100000 in
theorem verified : verify [⟨.rsp, 0, 0, true⟩, ⟨.rdi, 4, 0, true⟩, ⟨.rsi, 4, 0, false⟩] [2] hints bignumModN256 claims = true := by decide +kernel
end ModN256

namespace DemontP256
def X : List Nat := [0, 1, 2, 3]
def M : List Nat := [0, 6, 12, 32]
def Z : List Nat := [38, 44, 50, 54]
def hints : List (Nat × Hint) := [(18, ⟨18446744073709551616, [(3, 1)], false⟩),
  (23, ⟨18446744073709551616, [(21, (-18446744069414584321)), (7, (-1)), (3, 1)], false⟩),
  (35, ⟨18446744073709551616, [(33, (-18446744069414584321)), (3, 1)], false⟩),
  (40, ⟨18446744073709551616, [(21, (-18446744069414584321)), (7, (-1)), (3, 1)], false⟩)]
def claims : List Claim := [
  .rel [.lin 0x10000000000000000000000000000000000000000000000000000000000000000 Z, .lin (-0xffffffff00000001000000000000000000000000ffffffffffffffffffffffff) M, .lin (-0x1) X],
  .out 1 Z]
set_option maxRecDepth 100000 in
theorem verified : verify [⟨.rsp, 1, 1, true⟩, ⟨.rdi, 4, 0, true⟩, ⟨.rsi, 4, 0, false⟩] [2] hints bignumDemontP256 claims = true := by decide +kernel
end DemontP256

namespace TomontP256
def X : List Nat := [0, 1, 2, 3]
def M : List Nat := [4, 48, 78, 138]
def V : List Nat := [144, 150, 156, 160]
def t : Nat := 164
def U : List Nat := [166, 168, 170, 172]
def D : Nat := 174
def b : Nat := 175
def A1 : Nat := 176
def A2 : Nat := 177
def Z : List Nat := [178, 180, 182, 184]
def c : Nat := 185
def hints : List (Nat × Hint) := [(14, ⟨18446744073709551616, [(1, 1)], false⟩),
  (25, ⟨18446744073709551616, [(5, 1), (3, 1)], false⟩),
  (29, ⟨18446744073709551616, [(7, (-1)), (3, 1)], false⟩),
  (61, ⟨340282366920938463463374607431768211456, [(53, (-18446744073709551616)), (49, (-18446744069414584321)), (35, (-1)), (11, 1), (9, 1), (5, 18446744073709551616), (3, 18446744073709551616)], false⟩),
  (62, ⟨340282366920938463463374607431768211456, [(55, (-18446744073709551616)), (51, (-18446744069414584321)), (37, (-1)), (9, 1), (3, 18446744073709551616)], false⟩),
  (78, ⟨18446744073709551616, [(3, 1)], false⟩),
  (79, ⟨18446744073709551616, [(7, (-1)), (3, 1)], false⟩)]
def claims : List Claim := [
  .rel [.lin 0x10000000000000000000000000000000000000000000000000000000000000000 V, .lin 0x100000000000000000000000000000000000000000000000000000000000000000000000000000000000000000000000000000000000000000000000000000000 [t], .lin (-0xffffffff00000001000000000000000000000000ffffffffffffffffffffffff) M, .lin (-0x4fffffffdfffffffffffffffefffffffbffffffff0000000000000003) X],
  .rel [.lin 0x1 U, .lin 0x10000000000000000000000000000000000000000000000000000000000000000 [D], .lin (-0x100000000000000000000000000000000000000000000000000000000000000000000000000000000) [b], .one (-0xffffffff00000001000000000000000000000000fffffffffffffffffffffffe), .lin 0x1 V, .lin 0x10000000000000000000000000000000000000000000000000000000000000000 [t]],
  .rel [.lin 0x1 Z, .lin (-0x10000000000000000000000000000000000000000000000000000000000000000) [c], .lin (-0x1) V, .lin 0x1 [D], .lin 0x10000000000000000 [A1], .lin 0x1000000000000000000000000000000000000000000000000 [A2]],
  .andc A1 D 0xffffffff,
  .andc A2 D 0xffffffff00000001,
  .out 1 Z,
  .le b 0x1,
  .le c 0x1]
set_option maxRecDepth 100000 in
theorem verified : verify [⟨.rsp, 4, 4, true⟩, ⟨.rdi, 4, 0, true⟩, ⟨.rsi, 4, 0, false⟩] [2] hints bignumTomontP256 claims = true := by decide +kernel
end TomontP256

namespace MontmulP256
def X : List Nat := [0, 1, 2, 3]
def Y : List Nat := [4, 5, 6, 7]
def M : List Nat := [8, 52, 82, 138]
def V : List Nat := [144, 150, 156, 160]
def t : Nat := 164
def U : List Nat := [166, 170, 174, 176]
def D : Nat := 178
def c : Nat := 179
def Z : List Nat := [180, 181, 182, 183]
def hints : List (Nat × Hint) := [(16, ⟨18446744073709551616, [(1, 1)], false⟩),
  (30, ⟨18446744073709551616, [(3, 1)], false⟩),
  (31, ⟨340282366920938463463374607431768211456, [(9, 1), (3, 18446744073709551616)], false⟩)]
def claims : List Claim := [
  .rel [.lin 0x10000000000000000000000000000000000000000000000000000000000000000 V, .lin 0x100000000000000000000000000000000000000000000000000000000000000000000000000000000000000000000000000000000000000000000000000000000 [t], .lin (-0xffffffff00000001000000000000000000000000ffffffffffffffffffffffff) M, .mul (-0x1) X Y],
  .rel [.lin 0x1 U, .lin 0x10000000000000000000000000000000000000000000000000000000000000000 [D], .lin 0x100000000000000000000000000000000000000000000000000000000000000000000000000000000 [c], .one (-0xffffffffffffffff00000000fffffffeffffffffffffffffffffffff000000000000000000000001), .lin (-0x1) V, .lin (-0x10000000000000000000000000000000000000000000000000000000000000000) [t]],
  .sel Z c U V,
  .out 1 Z,
  .le c 0x1]
set_option maxRecDepth 100000 in
theorem verified : verify [⟨.rsp, 5, 5, true⟩, ⟨.rdi, 4, 0, true⟩, ⟨.rsi, 4, 0, false⟩, ⟨.rdx, 4, 0, false⟩] [2, 3] hints bignumMontmulP256 claims = true := by decide +kernel
end MontmulP256

namespace MontsqrP256
def X : List Nat := [0, 1, 2, 3]
def M : List Nat := [4, 72, 78, 108]
def V : List Nat := [114, 120, 126, 130]
def t : Nat := 134
def U : List Nat := [136, 138, 140, 142]
def D : Nat := 144
def c : Nat := 145
def Z : List Nat := [146, 147, 148, 149]
def hints : List (Nat × Hint) := [(25, ⟨18446744073709551616, [(3, 1)], false⟩),
  (26, ⟨18446744073709551616, [(3, 1)], false⟩),
  (46, ⟨340282366920938463463374607431768211456, [(9, 1), (5, 18446744073709551616), (3, 18446744073709551616)], false⟩),
  (47, ⟨115792089237316195423570985008687907853269984665640564039457584007913129639936, [(19, 1), (13, 18446744073709551616), (9, 340282366920938463463374607431768211456), (3, 6277101735386680763835789423207666416102355444464034512896)], false⟩)]
def claims : List Claim := [
  .rel [.lin 0x10000000000000000000000000000000000000000000000000000000000000000 V, .lin 0x100000000000000000000000000000000000000000000000000000000000000000000000000000000000000000000000000000000000000000000000000000000 [t], .lin (-0xffffffff00000001000000000000000000000000ffffffffffffffffffffffff) M, .mul (-0x1) X X],
  .rel [.lin 0x1 U, .lin 0x10000000000000000000000000000000000000000000000000000000000000000 [D], .lin 0x100000000000000000000000000000000000000000000000000000000000000000000000000000000 [c], .one (-0xffffffffffffffff00000000fffffffeffffffffffffffffffffffff000000000000000000000001), .lin (-0x1) V, .lin (-0x10000000000000000000000000000000000000000000000000000000000000000) [t]],
  .sel Z c U V,
  .out 1 Z,
  .le c 0x1]
set_option maxRecDepth 100000 in
theorem verified : verify [⟨.rsp, 6, 6, true⟩, ⟨.rdi, 4, 0, true⟩, ⟨.rsi, 4, 0, false⟩] [2] hints bignumMontsqrP256 claims = true := by decide +kernel
end MontsqrP256

end Verif.X86.Sym
