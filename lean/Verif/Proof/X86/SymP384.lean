import Verif.Proof.X86.SymUse
import Verif.Model.AsmX86.P384

/-! Generated by tools/gen_sym.py: advice and claims for the symbolic executor, checked by the kernel. -/
namespace Verif.X86.Sym
open Verif Verif.X86 Verif.X86.Asm

namespace AddP384
def X : List Nat := [0, 1, 2, 3, 4, 5]
def Y : List Nat := [6, 7, 8, 9, 10, 11]
def U : List Nat := [26, 28, 30, 32, 34, 36]
def D : Nat := 38
def k : Nat := 39
def A : Nat := 40
def S : Nat := 41
def b1 : Nat := 42
def A2 : Nat := 49
def b2 : Nat := 46
def N : Nat := 50
def b3 : Nat := 51
def Z : List Nat := [43, 45, 52, 54, 56, 58]
def c : Nat := 59
def hints : List (Nat × Hint) := []
def claims : List Claim := [
  .rel [.lin 0x1 U, .lin 0x1000000000000000000000000000000000000000000000000000000000000000000000000000000000000000000000000 [D], .lin 0x10000000000000000000000000000000000000000000000000000000000000000000000000000000000000000000000000000000000000000 [k], .lin (-0x1) X, .lin (-0x1) Y, .one (-0xffffffffffffffff000000000000000000000000000000000000000000000000000000000000000100000000ffffffffffffffff00000001)],
  .rel [.lin 0x1 [S], .lin 0x1 [A], .lin (-0x10000000000000000) [b1]],
  .rel [.lin 0x1 [N], .lin 0xffffffffffffffff [b2], .lin (-0x10000000000000000) [b3]],
  .rel [.lin 0x1 Z, .lin (-0x1000000000000000000000000000000000000000000000000000000000000000000000000000000000000000000000000) [c], .lin (-0x1) U, .lin 0x1 [S], .lin 0x10000000000000000 [A], .lin 0x100000000000000000000000000000000 [A2], .lin (-0x100000000000000000000000000000000) [b2], .lin 0x100000000000000000000000000000000 [b3]],
  .andc A D 0xffffffff,
  .and A2 A S,
  .out 1 Z,
  .le k 0x1,
  .le b1 0x1,
  .le b2 0x1,
  .le b3 0x1,
  .le c 0x1]
set_option maxRecDepth 100000 in
theorem verified : verify [⟨.rsp, 0, 0, true⟩, ⟨.rdi, 6, 0, true⟩, ⟨.rsi, 6, 0, false⟩, ⟨.rdx, 6, 0, false⟩] [2, 3] hints bignumAddP384 claims = true := by decide +kernel
end AddP384

namespace NegP384
def X : List Nat := [0, 1, 2, 3, 4, 5]
def O : Nat := 10
def N : Nat := 11
def b : Nat := 12
def Z : List Nat := [15, 17, 19, 21, 23, 25]
def c : Nat := 26
def hints : List (Nat × Hint) := []
def claims : List Claim := [
  .or 6 0 1,
  .or 7 2 3,
  .or 8 4 5,
  .or 9 6 7,
  .or O 9 8,
  .rel [.lin 0x1 [N], .lin 0x1 [O], .lin (-0x10000000000000000) [b]],
  .rel [.lin 0x1 Z, .lin (-0x1000000000000000000000000000000000000000000000000000000000000000000000000000000000000000000000000) [c], .lin (-0xfffffffffffffffffffffffffffffffffffffffffffffffffffffffffffffffeffffffff0000000000000000ffffffff) [b], .lin 0x1 X],
  .out 1 Z,
  .le b 0x1,
  .le c 0x1]
set_option maxRecDepth 100000 in
theorem verified : verify [⟨.rsp, 0, 0, true⟩, ⟨.rdi, 6, 0, true⟩, ⟨.rsi, 6, 0, false⟩] [2] hints bignumNegP384 claims = true := by decide +kernel
end NegP384

namespace ModN384
def X : List Nat := [0, 1, 2, 3, 4, 5]
def U : List Nat := [6, 8, 10, 12, 14, 16]
def c : Nat := 17
def Z : List Nat := [20, 26, 32, 34, 36, 38]
def b1 : Nat := 21
def N1 : Nat := 24
def b2 : Nat := 25
def b3 : Nat := 27
def N2 : Nat := 30
def b4 : Nat := 31
def b : Nat := 39
def hints : List (Nat × Hint) := []
def claims : List Claim := [
  .rel [.lin 0x1 U, .lin 0x1000000000000000000000000000000000000000000000000000000000000000000000000000000000000000000000000 [c], .lin (-0x1) X, .one (-0x389cb27e0bc8d220a7e5f24db74f58851313e695333ad68d)],
  .rel [.lin 0x1 [N1], .lin 0xffffffffffffffff [b1], .lin (-0x10000000000000000) [b2]],
  .rel [.lin 0x1 [N2], .lin 0xffffffffffffffff [b3], .lin (-0x10000000000000000) [b4]],
  .rel [.lin 0x1 Z, .lin (-0x1000000000000000000000000000000000000000000000000000000000000000000000000000000000000000000000000) [b], .lin (-0x1) U, .one 0x389cb27e0bc8d220a7e5f24db74f58851313e695333ad68d, .lin (-0x389cb27e0bc8d220a7e5f24db74f58851313e695333ad68d) [c], .lin (-0x10000000000000000) [b1], .lin 0x10000000000000000 [b2], .lin (-0x100000000000000000000000000000000) [b3], .lin 0x100000000000000000000000000000000 [b4]],
  .out 1 Z,
  .le c 0x1,
  .le b1 0x1,
  .le b2 0x1,
  .le b3 0x1,
  .le b4 0x1,
  .le b 0x1]
set_option maxRecDepth 100000 in
theorem verified : verify [⟨.rsp, 0, 0, true⟩, ⟨.rdi, 6, 0, true⟩, ⟨.rsi, 6, 0, false⟩] [2] hints bignumModN384 claims = true := by decide +kernel
end ModN384

namespace DemontP384
def X : List Nat := [0, 1, 2, 3, 4, 5]
def M : List Nat := [9, 36, 63, 90, 117, 144]
def E : List Nat := [0, 21, 48, 75, 102, 129]
def L : List Nat := [11, 38, 65, 92, 119, 146]
def Z : List Nat := [156, 158, 160, 162, 164, 166]
def hints : List (Nat × Hint) := [(26, ⟨39402006196394479212279040100143613805079739270465446667948293404245721771497210611414266254884915640806627990306816, [(29, 18446744073709551616), (28, 340282366920938463463374607431768211456), (27, 6277101735386680763835789423207666416102355444464034512896), (26, 115792089237316195423570985008687907853269984665640564039457584007913129639936), (25, 2135987035920910082395021706169552114602704522356652769947041607822219725780640550022962086936576), (21, 39402006196394479212279040100143613805079739270465446667948293404245721771496870329047266088258938001861606973112319), (19, 1), (9, (-18446744073709551616)), (7, (-340282366920938463463374607431768211456)), (5, (-6277101735386680763835789423207666416102355444464034512896)), (3, (-115792089237316195423570985008687907853269984665640564039457584007913129639936)), (1, (-2135987035920910082395021706169552114602704522356652769947041607822219725780640550022962086936576))], false⟩),
  (44, ⟨39402006196394479212279040100143613805079739270465446667948293404245721771497210611414266254884915640806627990306816, [(34, 18446744073709551616), (32, 340282366920938463463374607431768211456), (30, 6277101735386680763835789423207666416102355444464034512896), (28, 115792089237316195423570985008687907853269984665640564039457584007913129639936), (26, 2135987035920910082395021706169552114602704522356652769947041607822219725780640550022962086936576), (21, 39402006196394479212279040100143613805079739270465446667948293404245721771496870329047266088258938001861606973112319), (19, 1), (9, (-18446744073709551616)), (7, (-340282366920938463463374607431768211456)), (5, (-6277101735386680763835789423207666416102355444464034512896)), (3, (-115792089237316195423570985008687907853269984665640564039457584007913129639936)), (1, (-2135987035920910082395021706169552114602704522356652769947041607822219725780640550022962086936576))], false⟩),
  (62, ⟨39402006196394479212279040100143613805079739270465446667948293404245721771497210611414266254884915640806627990306816, [(34, 18446744073709551616), (32, 340282366920938463463374607431768211456), (30, 6277101735386680763835789423207666416102355444464034512896), (28, 115792089237316195423570985008687907853269984665640564039457584007913129639936), (26, 2135987035920910082395021706169552114602704522356652769947041607822219725780640550022962086936576), (21, 39402006196394479212279040100143613805079739270465446667948293404245721771496870329047266088258938001861606973112319), (19, 1), (9, (-18446744073709551616)), (7, (-340282366920938463463374607431768211456)), (5, (-6277101735386680763835789423207666416102355444464034512896)), (3, (-115792089237316195423570985008687907853269984665640564039457584007913129639936)), (1, (-2135987035920910082395021706169552114602704522356652769947041607822219725780640550022962086936576))], false⟩),
  (80, ⟨39402006196394479212279040100143613805079739270465446667948293404245721771497210611414266254884915640806627990306816, [(34, 18446744073709551616), (32, 340282366920938463463374607431768211456), (30, 6277101735386680763835789423207666416102355444464034512896), (28, 115792089237316195423570985008687907853269984665640564039457584007913129639936), (26, 2135987035920910082395021706169552114602704522356652769947041607822219725780640550022962086936576), (21, 39402006196394479212279040100143613805079739270465446667948293404245721771496870329047266088258938001861606973112319), (19, 1), (9, (-18446744073709551616)), (7, (-340282366920938463463374607431768211456)), (5, (-6277101735386680763835789423207666416102355444464034512896)), (3, (-115792089237316195423570985008687907853269984665640564039457584007913129639936)), (1, (-2135987035920910082395021706169552114602704522356652769947041607822219725780640550022962086936576))], false⟩),
  (98, ⟨39402006196394479212279040100143613805079739270465446667948293404245721771497210611414266254884915640806627990306816, [(34, 18446744073709551616), (32, 340282366920938463463374607431768211456), (30, 6277101735386680763835789423207666416102355444464034512896), (28, 115792089237316195423570985008687907853269984665640564039457584007913129639936), (26, 2135987035920910082395021706169552114602704522356652769947041607822219725780640550022962086936576), (21, 39402006196394479212279040100143613805079739270465446667948293404245721771496870329047266088258938001861606973112319), (19, 1), (9, (-18446744073709551616)), (7, (-340282366920938463463374607431768211456)), (5, (-6277101735386680763835789423207666416102355444464034512896)), (3, (-115792089237316195423570985008687907853269984665640564039457584007913129639936)), (1, (-2135987035920910082395021706169552114602704522356652769947041607822219725780640550022962086936576))], false⟩),
  (116, ⟨39402006196394479212279040100143613805079739270465446667948293404245721771497210611414266254884915640806627990306816, [(34, 18446744073709551616), (32, 340282366920938463463374607431768211456), (30, 6277101735386680763835789423207666416102355444464034512896), (28, 115792089237316195423570985008687907853269984665640564039457584007913129639936), (26, 2135987035920910082395021706169552114602704522356652769947041607822219725780640550022962086936576), (21, 39402006196394479212279040100143613805079739270465446667948293404245721771496870329047266088258938001861606973112319), (19, 1), (9, (-18446744073709551616)), (7, (-340282366920938463463374607431768211456)), (5, (-6277101735386680763835789423207666416102355444464034512896)), (3, (-115792089237316195423570985008687907853269984665640564039457584007913129639936)), (1, (-2135987035920910082395021706169552114602704522356652769947041607822219725780640550022962086936576))], false⟩)]
def steps : List Step := [
  ⟨9, 0, 6, 10, 12, 11⟩,
  ⟨36, 21, 33, 37, 39, 38⟩,
  ⟨63, 48, 60, 64, 66, 65⟩,
  ⟨90, 75, 87, 91, 93, 92⟩,
  ⟨117, 102, 114, 118, 120, 119⟩,
  ⟨144, 129, 141, 145, 147, 146⟩]
def claims : List Claim := steps.flatMap Step.claims ++ [
  .rel [.lin 0x1000000000000000000000000000000000000000000000000000000000000000000000000000000000000000000000000 Z, .lin (-0xfffffffffffffffffffffffffffffffffffffffffffffffffffffffffffffffeffffffff0000000000000000ffffffff) M, .lin (-0x1) L, .lin 0x1 E, .lin (-0x1) X],
  .out 1 Z]
set_option maxRecDepth 100000 in
theorem verified : verify [⟨.rsp, 2, 2, true⟩, ⟨.rdi, 6, 0, true⟩, ⟨.rsi, 6, 0, false⟩] [2] hints bignumDemontP384 claims = true := by decide +kernel
end DemontP384

namespace TomontP384
def X : List Nat := [0, 1, 2, 3, 4, 5]
def M : List Nat := [33, 104, 175, 246, 291, 320]
def E : List Nat := [6, 61, 132, 203, 272, 301]
def L : List Nat := [35, 106, 177, 248, 293, 322]
def V : List Nat := [330, 332, 334, 336, 338, 342]
def t : Nat := 343
def U : List Nat := [346, 348, 350, 352, 354, 356]
def D : Nat := 358
def c : Nat := 359
def N : Nat := 360
def b : Nat := 361
def A1 : Nat := 362
def A2 : Nat := 363
def A3 : Nat := 364
def Z : List Nat := [365, 367, 369, 371, 373, 375]
def e : Nat := 376
def hints : List (Nat × Hint) := [(18, ⟨18446744073709551616, [(1, 1)], false⟩),
  (36, ⟨39402006196394479212279040100143613805079739270465446667948293404245721771497210611414266254884915640806627990306816, [(42, 18446744073709551616), (38, 340282366920938463463374607431768211456), (34, 6277101735386680763835789423207666416102355444464034512896), (30, 115792089237316195423570985008687907853269984665640564039457584007913129639936), (26, 2135987035920910082395021706169552114602704522356652769947041607822219725780640550022962086936576), (19, 39402006196394479212279040100143613805079739270465446667948293404245721771496870329047266088258938001861606973112319), (17, 1), (9, (-18446744073709551616)), (7, (-340282366920938463463374607431768211456)), (5, (-6277101735386680763835789423207666416102355444464034512896)), (3, (-115792089237316195423570985008687907853269984665640564039457584007913129639936)), (1, (-2135987035920910082395021706169552114602704522356652769947041607822219725780640550022962086936576))], false⟩),
  (59, ⟨18446744073709551616, [(3, 1)], false⟩),
  (60, ⟨18446744073709551616, [(7, (-1)), (3, 1)], false⟩),
  (79, ⟨39402006196394479212279040100143613805079739270465446667948293404245721771497210611414266254884915640806627990306816, [(56, 18446744073709551616), (50, 340282366920938463463374607431768211456), (44, 6277101735386680763835789423207666416102355444464034512896), (38, 115792089237316195423570985008687907853269984665640564039457584007913129639936), (32, 2135987035920910082395021706169552114602704522356652769947041607822219725780640550022962086936576), (19, 39402006196394479212279040100143613805079739270465446667948293404245721771496870329047266088258938001861606973112319), (17, 1), (9, (-18446744073709551616)), (7, (-340282366920938463463374607431768211456)), (5, (-6277101735386680763835789423207666416102355444464034512896)), (3, (-115792089237316195423570985008687907853269984665640564039457584007913129639936)), (1, (-2135987035920910082395021706169552114602704522356652769947041607822219725780640550022962086936576))], false⟩),
  (102, ⟨18446744073709551616, [(3, 1)], false⟩),
  (103, ⟨18446744073709551616, [(7, (-1)), (3, 1)], false⟩),
  (122, ⟨39402006196394479212279040100143613805079739270465446667948293404245721771497210611414266254884915640806627990306816, [(56, 18446744073709551616), (50, 340282366920938463463374607431768211456), (44, 6277101735386680763835789423207666416102355444464034512896), (38, 115792089237316195423570985008687907853269984665640564039457584007913129639936), (32, 2135987035920910082395021706169552114602704522356652769947041607822219725780640550022962086936576), (19, 39402006196394479212279040100143613805079739270465446667948293404245721771496870329047266088258938001861606973112319), (17, 1), (9, (-18446744073709551616)), (7, (-340282366920938463463374607431768211456)), (5, (-6277101735386680763835789423207666416102355444464034512896)), (3, (-115792089237316195423570985008687907853269984665640564039457584007913129639936)), (1, (-2135987035920910082395021706169552114602704522356652769947041607822219725780640550022962086936576))], false⟩),
  (145, ⟨18446744073709551616, [(3, 1)], false⟩),
  (146, ⟨18446744073709551616, [(7, (-1)), (3, 1)], false⟩),
  (165, ⟨39402006196394479212279040100143613805079739270465446667948293404245721771497210611414266254884915640806627990306816, [(56, 18446744073709551616), (50, 340282366920938463463374607431768211456), (44, 6277101735386680763835789423207666416102355444464034512896), (38, 115792089237316195423570985008687907853269984665640564039457584007913129639936), (32, 2135987035920910082395021706169552114602704522356652769947041607822219725780640550022962086936576), (19, 39402006196394479212279040100143613805079739270465446667948293404245721771496870329047266088258938001861606973112319), (17, 1), (9, (-18446744073709551616)), (7, (-340282366920938463463374607431768211456)), (5, (-6277101735386680763835789423207666416102355444464034512896)), (3, (-115792089237316195423570985008687907853269984665640564039457584007913129639936)), (1, (-2135987035920910082395021706169552114602704522356652769947041607822219725780640550022962086936576))], false⟩),
  (193, ⟨39402006196394479212279040100143613805079739270465446667948293404245721771497210611414266254884915640806627990306816, [(36, 18446744073709551616), (34, 340282366920938463463374607431768211456), (32, 6277101735386680763835789423207666416102355444464034512896), (30, 115792089237316195423570985008687907853269984665640564039457584007913129639936), (28, 2135987035920910082395021706169552114602704522356652769947041607822219725780640550022962086936576), (19, 39402006196394479212279040100143613805079739270465446667948293404245721771496870329047266088258938001861606973112319), (17, 1), (9, (-18446744073709551616)), (7, (-340282366920938463463374607431768211456)), (5, (-6277101735386680763835789423207666416102355444464034512896)), (3, (-115792089237316195423570985008687907853269984665640564039457584007913129639936)), (1, (-2135987035920910082395021706169552114602704522356652769947041607822219725780640550022962086936576))], false⟩),
  (213, ⟨39402006196394479212279040100143613805079739270465446667948293404245721771497210611414266254884915640806627990306816, [(36, 18446744073709551616), (34, 340282366920938463463374607431768211456), (32, 6277101735386680763835789423207666416102355444464034512896), (30, 115792089237316195423570985008687907853269984665640564039457584007913129639936), (26, 2135987035920910082395021706169552114602704522356652769947041607822219725780640550022962086936576), (19, 39402006196394479212279040100143613805079739270465446667948293404245721771496870329047266088258938001861606973112319), (17, 1), (9, (-18446744073709551616)), (7, (-340282366920938463463374607431768211456)), (5, (-6277101735386680763835789423207666416102355444464034512896)), (3, (-115792089237316195423570985008687907853269984665640564039457584007913129639936)), (1, (-2135987035920910082395021706169552114602704522356652769947041607822219725780640550022962086936576))], false⟩)]
def steps : List Step := [
  ⟨33, 6, 30, 34, 36, 35⟩,
  ⟨104, 61, 101, 105, 107, 106⟩,
  ⟨175, 132, 172, 176, 178, 177⟩,
  ⟨246, 203, 243, 247, 249, 248⟩,
  ⟨291, 272, 288, 292, 294, 293⟩,
  ⟨320, 301, 317, 321, 323, 322⟩]
def claims : List Claim := steps.flatMap Step.claims ++ [
  .rel [.lin 0x1000000000000000000000000000000000000000000000000000000000000000000000000000000000000000000000000 V, .lin 0x1000000000000000000000000000000000000000000000000000000000000000000000000000000000000000000000000000000000000000000000000000000000000000000000000000000000000000000000000000000000000000000000000 [t], .lin (-0xfffffffffffffffffffffffffffffffffffffffffffffffffffffffffffffffeffffffff0000000000000000ffffffff) M, .lin (-0x1) L, .lin 0x1 E, .lin (-0x10000000200000000fffffffe000000000000000200000000fffffffe00000001) X],
  .rel [.lin 0x1 U, .lin 0x1000000000000000000000000000000000000000000000000000000000000000000000000000000000000000000000000 [D], .lin 0x10000000000000000000000000000000000000000000000000000000000000000000000000000000000000000000000000000000000000000 [c], .one (-0x100000000ffffffffffffffff00000001), .lin (-0x1) V, .lin (-0x1000000000000000000000000000000000000000000000000000000000000000000000000000000000000000000000000) [t]],
  .rel [.lin 0x1 [N], .lin 0x1 [D], .lin (-0x10000000000000000) [b]],
  .rel [.lin 0x1 Z, .lin 0x1000000000000000000000000000000000000000000000000000000000000000000000000000000000000000000000000 [e], .lin (-0x1) V, .lin (-0x1) [A1], .lin (-0x10000000000000000) [A2], .lin (-0x100000000000000000000000000000000) [A3]],
  .andc A1 N 0xffffffff00000001,
  .andc A2 N 0xffffffff,
  .andc A3 N 0x1,
  .out 1 Z,
  .le c 0x1,
  .le b 0x1,
  .le e 0x1]
set_option maxRecDepth 100000 in
theorem verified : verify [⟨.rsp, 5, 5, true⟩, ⟨.rdi, 6, 0, true⟩, ⟨.rsi, 6, 0, false⟩] [2] hints bignumTomontP384 claims = true := by decide +kernel
end TomontP384

namespace MontmulP384
def X : List Nat := [0, 1, 2, 3, 4, 5]
def Y : List Nat := [6, 7, 8, 9, 10, 11]
def M : List Nat := [39, 108, 177, 246, 315, 384]
def E : List Nat := [12, 67, 136, 205, 274, 343]
def L : List Nat := [41, 110, 179, 248, 317, 386]
def V : List Nat := [394, 396, 398, 400, 402, 406]
def t : Nat := 408
def U : List Nat := [410, 412, 414, 416, 418, 420]
def D : Nat := 422
def c : Nat := 423
def Z : List Nat := [424, 425, 426, 427, 428, 429]
def hints : List (Nat × Hint) := [(21, ⟨18446744073709551616, [(1, 1)], false⟩),
  (38, ⟨39402006196394479212279040100143613805079739270465446667948293404245721771497210611414266254884915640806627990306816, [(42, 18446744073709551616), (38, 340282366920938463463374607431768211456), (34, 6277101735386680763835789423207666416102355444464034512896), (30, 115792089237316195423570985008687907853269984665640564039457584007913129639936), (26, 2135987035920910082395021706169552114602704522356652769947041607822219725780640550022962086936576), (19, 39402006196394479212279040100143613805079739270465446667948293404245721771496870329047266088258938001861606973112319), (17, 1), (9, (-18446744073709551616)), (7, (-340282366920938463463374607431768211456)), (5, (-6277101735386680763835789423207666416102355444464034512896)), (3, (-115792089237316195423570985008687907853269984665640564039457584007913129639936)), (1, (-2135987035920910082395021706169552114602704522356652769947041607822219725780640550022962086936576))], false⟩),
  (79, ⟨39402006196394479212279040100143613805079739270465446667948293404245721771497210611414266254884915640806627990306816, [(54, 18446744073709551616), (48, 340282366920938463463374607431768211456), (42, 6277101735386680763835789423207666416102355444464034512896), (36, 115792089237316195423570985008687907853269984665640564039457584007913129639936), (28, 2135987035920910082395021706169552114602704522356652769947041607822219725780640550022962086936576), (19, 39402006196394479212279040100143613805079739270465446667948293404245721771496870329047266088258938001861606973112319), (17, 1), (9, (-18446744073709551616)), (7, (-340282366920938463463374607431768211456)), (5, (-6277101735386680763835789423207666416102355444464034512896)), (3, (-115792089237316195423570985008687907853269984665640564039457584007913129639936)), (1, (-2135987035920910082395021706169552114602704522356652769947041607822219725780640550022962086936576))], false⟩),
  (120, ⟨39402006196394479212279040100143613805079739270465446667948293404245721771497210611414266254884915640806627990306816, [(54, 18446744073709551616), (48, 340282366920938463463374607431768211456), (42, 6277101735386680763835789423207666416102355444464034512896), (36, 115792089237316195423570985008687907853269984665640564039457584007913129639936), (28, 2135987035920910082395021706169552114602704522356652769947041607822219725780640550022962086936576), (19, 39402006196394479212279040100143613805079739270465446667948293404245721771496870329047266088258938001861606973112319), (17, 1), (9, (-18446744073709551616)), (7, (-340282366920938463463374607431768211456)), (5, (-6277101735386680763835789423207666416102355444464034512896)), (3, (-115792089237316195423570985008687907853269984665640564039457584007913129639936)), (1, (-2135987035920910082395021706169552114602704522356652769947041607822219725780640550022962086936576))], false⟩),
  (161, ⟨39402006196394479212279040100143613805079739270465446667948293404245721771497210611414266254884915640806627990306816, [(54, 18446744073709551616), (48, 340282366920938463463374607431768211456), (42, 6277101735386680763835789423207666416102355444464034512896), (36, 115792089237316195423570985008687907853269984665640564039457584007913129639936), (28, 2135987035920910082395021706169552114602704522356652769947041607822219725780640550022962086936576), (19, 39402006196394479212279040100143613805079739270465446667948293404245721771496870329047266088258938001861606973112319), (17, 1), (9, (-18446744073709551616)), (7, (-340282366920938463463374607431768211456)), (5, (-6277101735386680763835789423207666416102355444464034512896)), (3, (-115792089237316195423570985008687907853269984665640564039457584007913129639936)), (1, (-2135987035920910082395021706169552114602704522356652769947041607822219725780640550022962086936576))], false⟩),
  (202, ⟨39402006196394479212279040100143613805079739270465446667948293404245721771497210611414266254884915640806627990306816, [(54, 18446744073709551616), (48, 340282366920938463463374607431768211456), (42, 6277101735386680763835789423207666416102355444464034512896), (36, 115792089237316195423570985008687907853269984665640564039457584007913129639936), (28, 2135987035920910082395021706169552114602704522356652769947041607822219725780640550022962086936576), (19, 39402006196394479212279040100143613805079739270465446667948293404245721771496870329047266088258938001861606973112319), (17, 1), (9, (-18446744073709551616)), (7, (-340282366920938463463374607431768211456)), (5, (-6277101735386680763835789423207666416102355444464034512896)), (3, (-115792089237316195423570985008687907853269984665640564039457584007913129639936)), (1, (-2135987035920910082395021706169552114602704522356652769947041607822219725780640550022962086936576))], false⟩),
  (243, ⟨39402006196394479212279040100143613805079739270465446667948293404245721771497210611414266254884915640806627990306816, [(54, 18446744073709551616), (48, 340282366920938463463374607431768211456), (42, 6277101735386680763835789423207666416102355444464034512896), (36, 115792089237316195423570985008687907853269984665640564039457584007913129639936), (28, 2135987035920910082395021706169552114602704522356652769947041607822219725780640550022962086936576), (19, 39402006196394479212279040100143613805079739270465446667948293404245721771496870329047266088258938001861606973112319), (17, 1), (9, (-18446744073709551616)), (7, (-340282366920938463463374607431768211456)), (5, (-6277101735386680763835789423207666416102355444464034512896)), (3, (-115792089237316195423570985008687907853269984665640564039457584007913129639936)), (1, (-2135987035920910082395021706169552114602704522356652769947041607822219725780640550022962086936576))], false⟩)]
def steps : List Step := [
  ⟨39, 12, 36, 40, 42, 41⟩,
  ⟨108, 67, 105, 109, 111, 110⟩,
  ⟨177, 136, 174, 178, 180, 179⟩,
  ⟨246, 205, 243, 247, 249, 248⟩,
  ⟨315, 274, 312, 316, 318, 317⟩,
  ⟨384, 343, 381, 385, 387, 386⟩]
def claims : List Claim := steps.flatMap Step.claims ++ [
  .rel [.lin 0x1000000000000000000000000000000000000000000000000000000000000000000000000000000000000000000000000 V, .lin 0x1000000000000000000000000000000000000000000000000000000000000000000000000000000000000000000000000000000000000000000000000000000000000000000000000000000000000000000000000000000000000000000000000 [t], .lin (-0xfffffffffffffffffffffffffffffffffffffffffffffffffffffffffffffffeffffffff0000000000000000ffffffff) M, .lin (-0x1) L, .lin 0x1 E, .mul (-0x1) X Y],
  .rel [.lin 0x1 U, .lin 0x1000000000000000000000000000000000000000000000000000000000000000000000000000000000000000000000000 [D], .lin 0x10000000000000000000000000000000000000000000000000000000000000000000000000000000000000000000000000000000000000000 [c], .one (-0x100000000ffffffffffffffff00000001), .lin (-0x1) V, .lin (-0x1000000000000000000000000000000000000000000000000000000000000000000000000000000000000000000000000) [t]],
  .selz Z D V U,
  .out 1 Z,
  .le c 0x1]
set_option maxRecDepth 100000 in
theorem verified : verify [⟨.rsp, 6, 6, true⟩, ⟨.rdi, 6, 0, true⟩, ⟨.rsi, 6, 0, false⟩, ⟨.rdx, 6, 0, false⟩] [2, 3] hints bignumMontmulP384 claims = true := by decide +kernel
end MontmulP384

namespace MontsqrP384
def X : List Nat := [0, 1, 2, 3, 4, 5]
def M : List Nat := [147, 174, 201, 228, 255, 282]
def E : List Nat := [88, 159, 186, 213, 240, 267]
def L : List Nat := [149, 176, 203, 230, 257, 284]
def V : List Nat := [306, 308, 310, 312, 314, 316]
def t : Nat := 317
def U : List Nat := [320, 322, 324, 326, 328, 330]
def D : Nat := 332
def c : Nat := 333
def Z : List Nat := [334, 335, 336, 337, 338, 339]
def hints : List (Nat × Hint) := [(32, ⟨18446744073709551616, [(3, 1)], false⟩),
  (33, ⟨18446744073709551616, [(3, 1)], false⟩),
  (56, ⟨18446744073709551616, [(3, 1)], false⟩),
  (57, ⟨18446744073709551616, [(3, 1)], false⟩),
  (92, ⟨340282366920938463463374607431768211456, [(9, 1), (5, 18446744073709551616), (3, 18446744073709551616)], false⟩),
  (93, ⟨39402006196394479212279040100143613805079739270465446667948293404245721771497210611414266254884915640806627990306816, [(29, 1), (23, 18446744073709551616), (19, 340282366920938463463374607431768211456), (13, 6277101735386680763835789423207666416102355444464034512896), (9, 115792089237316195423570985008687907853269984665640564039457584007913129639936), (3, 2135987035920910082395021706169552114602704522356652769947041607822219725780640550022962086936576)], false⟩),
  (112, ⟨39402006196394479212279040100143613805079739270465446667948293404245721771497210611414266254884915640806627990306816, [(76, 18446744073709551616), (70, 340282366920938463463374607431768211456), (66, 6277101735386680763835789423207666416102355444464034512896), (60, 115792089237316195423570985008687907853269984665640564039457584007913129639936), (56, 2135987035920910082395021706169552114602704522356652769947041607822219725780640550022962086936576), (21, 39402006196394479212279040100143613805079739270465446667948293404245721771496870329047266088258938001861606973112319), (19, 1), (9, (-18446744073709551616)), (7, (-340282366920938463463374607431768211456)), (5, (-6277101735386680763835789423207666416102355444464034512896)), (3, (-115792089237316195423570985008687907853269984665640564039457584007913129639936)), (1, (-2135987035920910082395021706169552114602704522356652769947041607822219725780640550022962086936576))], false⟩),
  (130, ⟨39402006196394479212279040100143613805079739270465446667948293404245721771497210611414266254884915640806627990306816, [(34, 18446744073709551616), (32, 340282366920938463463374607431768211456), (30, 6277101735386680763835789423207666416102355444464034512896), (28, 115792089237316195423570985008687907853269984665640564039457584007913129639936), (26, 2135987035920910082395021706169552114602704522356652769947041607822219725780640550022962086936576), (21, 39402006196394479212279040100143613805079739270465446667948293404245721771496870329047266088258938001861606973112319), (19, 1), (9, (-18446744073709551616)), (7, (-340282366920938463463374607431768211456)), (5, (-6277101735386680763835789423207666416102355444464034512896)), (3, (-115792089237316195423570985008687907853269984665640564039457584007913129639936)), (1, (-2135987035920910082395021706169552114602704522356652769947041607822219725780640550022962086936576))], false⟩),
  (148, ⟨39402006196394479212279040100143613805079739270465446667948293404245721771497210611414266254884915640806627990306816, [(34, 18446744073709551616), (32, 340282366920938463463374607431768211456), (30, 6277101735386680763835789423207666416102355444464034512896), (28, 115792089237316195423570985008687907853269984665640564039457584007913129639936), (26, 2135987035920910082395021706169552114602704522356652769947041607822219725780640550022962086936576), (21, 39402006196394479212279040100143613805079739270465446667948293404245721771496870329047266088258938001861606973112319), (19, 1), (9, (-18446744073709551616)), (7, (-340282366920938463463374607431768211456)), (5, (-6277101735386680763835789423207666416102355444464034512896)), (3, (-115792089237316195423570985008687907853269984665640564039457584007913129639936)), (1, (-2135987035920910082395021706169552114602704522356652769947041607822219725780640550022962086936576))], false⟩),
  (166, ⟨39402006196394479212279040100143613805079739270465446667948293404245721771497210611414266254884915640806627990306816, [(34, 18446744073709551616), (32, 340282366920938463463374607431768211456), (30, 6277101735386680763835789423207666416102355444464034512896), (28, 115792089237316195423570985008687907853269984665640564039457584007913129639936), (26, 2135987035920910082395021706169552114602704522356652769947041607822219725780640550022962086936576), (21, 39402006196394479212279040100143613805079739270465446667948293404245721771496870329047266088258938001861606973112319), (19, 1), (9, (-18446744073709551616)), (7, (-340282366920938463463374607431768211456)), (5, (-6277101735386680763835789423207666416102355444464034512896)), (3, (-115792089237316195423570985008687907853269984665640564039457584007913129639936)), (1, (-2135987035920910082395021706169552114602704522356652769947041607822219725780640550022962086936576))], false⟩),
  (184, ⟨39402006196394479212279040100143613805079739270465446667948293404245721771497210611414266254884915640806627990306816, [(34, 18446744073709551616), (32, 340282366920938463463374607431768211456), (30, 6277101735386680763835789423207666416102355444464034512896), (28, 115792089237316195423570985008687907853269984665640564039457584007913129639936), (26, 2135987035920910082395021706169552114602704522356652769947041607822219725780640550022962086936576), (21, 39402006196394479212279040100143613805079739270465446667948293404245721771496870329047266088258938001861606973112319), (19, 1), (9, (-18446744073709551616)), (7, (-340282366920938463463374607431768211456)), (5, (-6277101735386680763835789423207666416102355444464034512896)), (3, (-115792089237316195423570985008687907853269984665640564039457584007913129639936)), (1, (-2135987035920910082395021706169552114602704522356652769947041607822219725780640550022962086936576))], false⟩),
  (202, ⟨39402006196394479212279040100143613805079739270465446667948293404245721771497210611414266254884915640806627990306816, [(34, 18446744073709551616), (32, 340282366920938463463374607431768211456), (30, 6277101735386680763835789423207666416102355444464034512896), (28, 115792089237316195423570985008687907853269984665640564039457584007913129639936), (26, 2135987035920910082395021706169552114602704522356652769947041607822219725780640550022962086936576), (21, 39402006196394479212279040100143613805079739270465446667948293404245721771496870329047266088258938001861606973112319), (19, 1), (9, (-18446744073709551616)), (7, (-340282366920938463463374607431768211456)), (5, (-6277101735386680763835789423207666416102355444464034512896)), (3, (-115792089237316195423570985008687907853269984665640564039457584007913129639936)), (1, (-2135987035920910082395021706169552114602704522356652769947041607822219725780640550022962086936576))], false⟩)]
def steps : List Step := [
  ⟨147, 88, 144, 148, 150, 149⟩,
  ⟨174, 159, 171, 175, 177, 176⟩,
  ⟨201, 186, 198, 202, 204, 203⟩,
  ⟨228, 213, 225, 229, 231, 230⟩,
  ⟨255, 240, 252, 256, 258, 257⟩,
  ⟨282, 267, 279, 283, 285, 284⟩]
def claims : List Claim := steps.flatMap Step.claims ++ [
  .rel [.lin 0x1000000000000000000000000000000000000000000000000000000000000000000000000000000000000000000000000 V, .lin 0x1000000000000000000000000000000000000000000000000000000000000000000000000000000000000000000000000000000000000000000000000000000000000000000000000000000000000000000000000000000000000000000000000 [t], .lin (-0xfffffffffffffffffffffffffffffffffffffffffffffffffffffffffffffffeffffffff0000000000000000ffffffff) M, .lin (-0x1) L, .lin 0x1 E, .mul (-0x1) X X],
  .rel [.lin 0x1 U, .lin 0x1000000000000000000000000000000000000000000000000000000000000000000000000000000000000000000000000 [D], .lin 0x10000000000000000000000000000000000000000000000000000000000000000000000000000000000000000000000000000000000000000 [c], .one (-0x100000000ffffffffffffffff00000001), .lin (-0x1) V, .lin (-0x1000000000000000000000000000000000000000000000000000000000000000000000000000000000000000000000000) [t]],
  .selz Z D V U,
  .out 1 Z,
  .le c 0x1]
set_option maxRecDepth 100000 in
theorem verified : verify [⟨.rsp, 6, 6, true⟩, ⟨.rdi, 6, 0, true⟩, ⟨.rsi, 6, 0, false⟩] [2] hints bignumMontsqrP384 claims = true := by decide +kernel
end MontsqrP384

end Verif.X86.Sym
