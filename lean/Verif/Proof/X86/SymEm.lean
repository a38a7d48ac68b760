import Verif.Proof.X86.SymUse
import Verif.Proof.X86.SymEmBase

/-! Generated by tools/gen_sym.py: advice and claims for the symbolic executor, checked by the kernel. -/
namespace Verif.X86.Sym
open Verif Verif.X86 Verif.X86.Asm

namespace EmA
def Z : List Nat := [0, 1, 2, 3, 4, 5, 6, 7]
def M : List Nat := [8, 9, 10, 11, 12, 13, 14, 15]
def w : Nat := 16
def Q : List Nat := [19, 73, 127, 181, 235, 289, 343, 397]
def R : List Nat := [408, 413, 419, 425, 431, 437, 443, 447]
def hints : List (Nat × Hint) := [(3, ⟨0, [], true⟩),
  (11, ⟨0, [], true⟩),
  (39, ⟨0, [], true⟩),
  (45, ⟨0, [], true⟩),
  (68, ⟨0, [], true⟩),
  (74, ⟨0, [], true⟩),
  (97, ⟨0, [], true⟩),
  (103, ⟨0, [], true⟩),
  (126, ⟨0, [], true⟩),
  (132, ⟨0, [], true⟩),
  (155, ⟨0, [], true⟩),
  (161, ⟨0, [], true⟩),
  (184, ⟨0, [], true⟩),
  (190, ⟨0, [], true⟩),
  (213, ⟨0, [], true⟩),
  (219, ⟨0, [], true⟩)]
def rows : List Row := [
  ⟨[0, 1, 2, 3, 4, 5, 6, 7], 17, 19, 18, 20, 21, 22, 23, 68, 70, [28, 35, 41, 47, 53, 59, 65, 69], 30⟩,
  ⟨[30, 35, 41, 47, 53, 59, 65, 69], 71, 73, 72, 74, 75, 76, 77, 122, 124, [82, 89, 95, 101, 107, 113, 119, 123], 84⟩,
  ⟨[84, 89, 95, 101, 107, 113, 119, 123], 125, 127, 126, 128, 129, 130, 131, 176, 178, [136, 143, 149, 155, 161, 167, 173, 177], 138⟩,
  ⟨[138, 143, 149, 155, 161, 167, 173, 177], 179, 181, 180, 182, 183, 184, 185, 230, 232, [190, 197, 203, 209, 215, 221, 227, 231], 192⟩,
  ⟨[192, 197, 203, 209, 215, 221, 227, 231], 233, 235, 234, 236, 237, 238, 239, 284, 286, [244, 251, 257, 263, 269, 275, 281, 285], 246⟩,
  ⟨[246, 251, 257, 263, 269, 275, 281, 285], 287, 289, 288, 290, 291, 292, 293, 338, 340, [298, 305, 311, 317, 323, 329, 335, 339], 300⟩,
  ⟨[300, 305, 311, 317, 323, 329, 335, 339], 341, 343, 342, 344, 345, 346, 347, 392, 394, [352, 359, 365, 371, 377, 383, 389, 393], 354⟩,
  ⟨[354, 359, 365, 371, 377, 383, 389, 393], 395, 397, 396, 398, 399, 400, 401, 446, 448, [406, 413, 419, 425, 431, 437, 443, 447], 408⟩]
def claims : List Claim := rows.flatMap (Row.claims M w) ++ [
  .out 0 Q,
  .reg [.r8, .r9, .r10, .r11, .r12, .r13, .r14, .r15] R]
set_option maxRecDepth 100000 in
theorem verified : verifyR [⟨.rsi, 8, 0, true⟩, ⟨.rdi, 8, 0, false⟩] [0, 1] [.rcx] hints emA claims = true := by decide +kernel
end EmA

namespace EmB
def Z : List Nat := [0, 1, 2, 3, 4, 5, 6, 7]
def M : List Nat := [8, 9, 10, 11, 12, 13, 14, 15]
def Q : List Nat := [16, 17, 18, 19, 20, 21, 22, 23]
def R : List Nat := [24, 25, 26, 27, 28, 29, 30, 31]
def Z1 : List Nat := [36, 88, 140, 192, 244, 296, 348, 400]
def R1 : List Nat := [406, 412, 418, 424, 430, 436, 442, 446]
def hints : List (Nat × Hint) := [(28, ⟨18446744073709551616, [(3, 1)], false⟩),
  (29, ⟨13407807929942597099574024998205846127479365820592393377723561443721764030073546976801874298166903427690031858186486050853753882811946569946433649006084096, [(45, 1), (39, 18446744073709551616), (33, 340282366920938463463374607431768211456), (27, 6277101735386680763835789423207666416102355444464034512896), (21, 115792089237316195423570985008687907853269984665640564039457584007913129639936), (15, 2135987035920910082395021706169552114602704522356652769947041607822219725780640550022962086936576), (9, 39402006196394479212279040100143613805079739270465446667948293404245721771497210611414266254884915640806627990306816), (3, 726838724295606890549323807888004534353641360687318060281490199180639288113397923326191050713763565560762521606266177933534601628614656)], false⟩),
  (58, ⟨18446744073709551616, [(3, 1)], false⟩),
  (59, ⟨13407807929942597099574024998205846127479365820592393377723561443721764030073546976801874298166903427690031858186486050853753882811946569946433649006084096, [(91, (-1)), (85, (-18446744073709551616)), (79, (-340282366920938463463374607431768211456)), (73, (-6277101735386680763835789423207666416102355444464034512896)), (67, (-115792089237316195423570985008687907853269984665640564039457584007913129639936)), (61, (-2135987035920910082395021706169552114602704522356652769947041607822219725780640550022962086936576)), (55, (-39402006196394479212279040100143613805079739270465446667948293404245721771497210611414266254884915640806627990306816)), (51, (-726838724295606890549323807888004534353641360687318060281490199180639288113397923326191050713763565560762521606266177933534601628614656)), (45, 1), (39, 18446744073709551616), (33, 340282366920938463463374607431768211456), (27, 6277101735386680763835789423207666416102355444464034512896), (21, 115792089237316195423570985008687907853269984665640564039457584007913129639936), (15, 2135987035920910082395021706169552114602704522356652769947041607822219725780640550022962086936576), (9, 39402006196394479212279040100143613805079739270465446667948293404245721771497210611414266254884915640806627990306816), (3, 726838724295606890549323807888004534353641360687318060281490199180639288113397923326191050713763565560762521606266177933534601628614656)], false⟩),
  (88, ⟨18446744073709551616, [(3, 1)], false⟩),
  (89, ⟨13407807929942597099574024998205846127479365820592393377723561443721764030073546976801874298166903427690031858186486050853753882811946569946433649006084096, [(91, (-1)), (85, (-18446744073709551616)), (79, (-340282366920938463463374607431768211456)), (73, (-6277101735386680763835789423207666416102355444464034512896)), (67, (-115792089237316195423570985008687907853269984665640564039457584007913129639936)), (61, (-2135987035920910082395021706169552114602704522356652769947041607822219725780640550022962086936576)), (55, (-39402006196394479212279040100143613805079739270465446667948293404245721771497210611414266254884915640806627990306816)), (51, (-726838724295606890549323807888004534353641360687318060281490199180639288113397923326191050713763565560762521606266177933534601628614656)), (45, 1), (39, 18446744073709551616), (33, 340282366920938463463374607431768211456), (27, 6277101735386680763835789423207666416102355444464034512896), (21, 115792089237316195423570985008687907853269984665640564039457584007913129639936), (15, 2135987035920910082395021706169552114602704522356652769947041607822219725780640550022962086936576), (9, 39402006196394479212279040100143613805079739270465446667948293404245721771497210611414266254884915640806627990306816), (3, 726838724295606890549323807888004534353641360687318060281490199180639288113397923326191050713763565560762521606266177933534601628614656)], false⟩),
  (118, ⟨18446744073709551616, [(3, 1)], false⟩),
  (119, ⟨13407807929942597099574024998205846127479365820592393377723561443721764030073546976801874298166903427690031858186486050853753882811946569946433649006084096, [(91, (-1)), (85, (-18446744073709551616)), (79, (-340282366920938463463374607431768211456)), (73, (-6277101735386680763835789423207666416102355444464034512896)), (67, (-115792089237316195423570985008687907853269984665640564039457584007913129639936)), (61, (-2135987035920910082395021706169552114602704522356652769947041607822219725780640550022962086936576)), (55, (-39402006196394479212279040100143613805079739270465446667948293404245721771497210611414266254884915640806627990306816)), (51, (-726838724295606890549323807888004534353641360687318060281490199180639288113397923326191050713763565560762521606266177933534601628614656)), (45, 1), (39, 18446744073709551616), (33, 340282366920938463463374607431768211456), (27, 6277101735386680763835789423207666416102355444464034512896), (21, 115792089237316195423570985008687907853269984665640564039457584007913129639936), (15, 2135987035920910082395021706169552114602704522356652769947041607822219725780640550022962086936576), (9, 39402006196394479212279040100143613805079739270465446667948293404245721771497210611414266254884915640806627990306816), (3, 726838724295606890549323807888004534353641360687318060281490199180639288113397923326191050713763565560762521606266177933534601628614656)], false⟩),
  (148, ⟨18446744073709551616, [(3, 1)], false⟩),
  (149, ⟨13407807929942597099574024998205846127479365820592393377723561443721764030073546976801874298166903427690031858186486050853753882811946569946433649006084096, [(91, (-1)), (85, (-18446744073709551616)), (79, (-340282366920938463463374607431768211456)), (73, (-6277101735386680763835789423207666416102355444464034512896)), (67, (-115792089237316195423570985008687907853269984665640564039457584007913129639936)), (61, (-2135987035920910082395021706169552114602704522356652769947041607822219725780640550022962086936576)), (55, (-39402006196394479212279040100143613805079739270465446667948293404245721771497210611414266254884915640806627990306816)), (51, (-726838724295606890549323807888004534353641360687318060281490199180639288113397923326191050713763565560762521606266177933534601628614656)), (45, 1), (39, 18446744073709551616), (33, 340282366920938463463374607431768211456), (27, 6277101735386680763835789423207666416102355444464034512896), (21, 115792089237316195423570985008687907853269984665640564039457584007913129639936), (15, 2135987035920910082395021706169552114602704522356652769947041607822219725780640550022962086936576), (9, 39402006196394479212279040100143613805079739270465446667948293404245721771497210611414266254884915640806627990306816), (3, 726838724295606890549323807888004534353641360687318060281490199180639288113397923326191050713763565560762521606266177933534601628614656)], false⟩),
  (178, ⟨18446744073709551616, [(3, 1)], false⟩),
  (179, ⟨13407807929942597099574024998205846127479365820592393377723561443721764030073546976801874298166903427690031858186486050853753882811946569946433649006084096, [(91, (-1)), (85, (-18446744073709551616)), (79, (-340282366920938463463374607431768211456)), (73, (-6277101735386680763835789423207666416102355444464034512896)), (67, (-115792089237316195423570985008687907853269984665640564039457584007913129639936)), (61, (-2135987035920910082395021706169552114602704522356652769947041607822219725780640550022962086936576)), (55, (-39402006196394479212279040100143613805079739270465446667948293404245721771497210611414266254884915640806627990306816)), (51, (-726838724295606890549323807888004534353641360687318060281490199180639288113397923326191050713763565560762521606266177933534601628614656)), (45, 1), (39, 18446744073709551616), (33, 340282366920938463463374607431768211456), (27, 6277101735386680763835789423207666416102355444464034512896), (21, 115792089237316195423570985008687907853269984665640564039457584007913129639936), (15, 2135987035920910082395021706169552114602704522356652769947041607822219725780640550022962086936576), (9, 39402006196394479212279040100143613805079739270465446667948293404245721771497210611414266254884915640806627990306816), (3, 726838724295606890549323807888004534353641360687318060281490199180639288113397923326191050713763565560762521606266177933534601628614656)], false⟩),
  (208, ⟨18446744073709551616, [(3, 1)], false⟩),
  (209, ⟨13407807929942597099574024998205846127479365820592393377723561443721764030073546976801874298166903427690031858186486050853753882811946569946433649006084096, [(91, (-1)), (85, (-18446744073709551616)), (79, (-340282366920938463463374607431768211456)), (73, (-6277101735386680763835789423207666416102355444464034512896)), (67, (-115792089237316195423570985008687907853269984665640564039457584007913129639936)), (61, (-2135987035920910082395021706169552114602704522356652769947041607822219725780640550022962086936576)), (55, (-39402006196394479212279040100143613805079739270465446667948293404245721771497210611414266254884915640806627990306816)), (51, (-726838724295606890549323807888004534353641360687318060281490199180639288113397923326191050713763565560762521606266177933534601628614656)), (45, 1), (39, 18446744073709551616), (33, 340282366920938463463374607431768211456), (27, 6277101735386680763835789423207666416102355444464034512896), (21, 115792089237316195423570985008687907853269984665640564039457584007913129639936), (15, 2135987035920910082395021706169552114602704522356652769947041607822219725780640550022962086936576), (9, 39402006196394479212279040100143613805079739270465446667948293404245721771497210611414266254884915640806627990306816), (3, 726838724295606890549323807888004534353641360687318060281490199180639288113397923326191050713763565560762521606266177933534601628614656)], false⟩),
  (238, ⟨18446744073709551616, [(3, 1)], false⟩),
  (239, ⟨13407807929942597099574024998205846127479365820592393377723561443721764030073546976801874298166903427690031858186486050853753882811946569946433649006084096, [(91, (-1)), (85, (-18446744073709551616)), (79, (-340282366920938463463374607431768211456)), (73, (-6277101735386680763835789423207666416102355444464034512896)), (67, (-115792089237316195423570985008687907853269984665640564039457584007913129639936)), (61, (-2135987035920910082395021706169552114602704522356652769947041607822219725780640550022962086936576)), (55, (-39402006196394479212279040100143613805079739270465446667948293404245721771497210611414266254884915640806627990306816)), (51, (-726838724295606890549323807888004534353641360687318060281490199180639288113397923326191050713763565560762521606266177933534601628614656)), (45, 1), (39, 18446744073709551616), (33, 340282366920938463463374607431768211456), (27, 6277101735386680763835789423207666416102355444464034512896), (21, 115792089237316195423570985008687907853269984665640564039457584007913129639936), (15, 2135987035920910082395021706169552114602704522356652769947041607822219725780640550022962086936576), (9, 39402006196394479212279040100143613805079739270465446667948293404245721771497210611414266254884915640806627990306816), (3, 726838724295606890549323807888004534353641360687318060281490199180639288113397923326191050713763565560762521606266177933534601628614656)], false⟩)]
def claims : List Claim := [
  .rel [.lin 0x1 R, .lin 0x1 Z, .mul 0x1 Q M, .lin (-0x1) Z1, .lin (-0x100000000000000000000000000000000000000000000000000000000000000000000000000000000000000000000000000000000000000000000000000000000) R1],
  .out 0 Z1,
  .reg [.r8, .r9, .r10, .r11, .r12, .r13, .r14, .r15] R1]
set_option maxRecDepth 100000 in
theorem verified : verifyR [⟨.rbp, 8, 0, true⟩, ⟨.rdi, 8, 0, false⟩, ⟨.rsi, 8, 0, false⟩] [0, 1, 2] [.r8, .r9, .r10, .r11, .r12, .r13, .r14, .r15] hints emB claims = true := by decide +kernel
end EmB

namespace EmC
def Z : List Nat := [0, 1, 2, 3, 4, 5, 6, 7]
def c : Nat := 8
def R : List Nat := [9, 10, 11, 12, 13, 14, 15, 16]
def N : Nat := 17
def b : Nat := 18
def Z1 : List Nat := [19, 21, 23, 25, 27, 29, 31, 33]
def d : Nat := 34
def hints : List (Nat × Hint) := []
def claims : List Claim := [
  .rel [.lin 0x1 [N], .lin 0x1 [c], .lin (-0x10000000000000000) [b]],
  .rel [.lin 0x1 Z1, .lin 0x100000000000000000000000000000000000000000000000000000000000000000000000000000000000000000000000000000000000000000000000000000000 [d], .lin (-0x1) Z, .lin (-0x1) R, .lin (-0x1) [b]],
  .out 0 Z1,
  .reg [.rax] [d]]
set_option maxRecDepth 100000 in
theorem verified : verifyR [⟨.rbp, 8, 2305843009213693944, true⟩] [0] [.rbx, .r8, .r9, .r10, .r11, .r12, .r13, .r14, .r15] hints emC claims = true := by decide +kernel
end EmC

end Verif.X86.Sym
