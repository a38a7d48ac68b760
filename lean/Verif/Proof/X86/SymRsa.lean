import Verif.Proof.X86.SymUse
import Verif.Model.AsmX86.Rsa

/-! Generated by tools/gen_sym.py: advice and claims for the symbolic executor, checked by the kernel. -/
namespace Verif.X86.Sym
open Verif Verif.X86 Verif.X86.Asm

namespace Kmul1632
def X : List Nat := [0, 1, 2, 3, 4, 5, 6, 7, 8, 9, 10, 11, 12, 13, 14, 15]
def Y : List Nat := [16, 17, 18, 19, 20, 21, 22, 23, 24, 25, 26, 27, 28, 29, 30, 31]
def Z : List Nat := [32, 66, 116, 166, 216, 266, 316, 366, 816, 866, 916, 966, 1016, 1066, 1116, 1166, 1218, 1270, 1322, 1374, 1426, 1478, 1530, 1582, 1588, 1594, 1600, 1606, 1612, 1618, 1624, 1628]
def hints : List (Nat × Hint) := [(26, ⟨18446744073709551616, [(1, 1)], false⟩),
  (53, ⟨18446744073709551616, [(3, 1)], false⟩),
  (54, ⟨340282366920938463463374607431768211456, [(9, 1), (3, 18446744073709551616)], false⟩),
  (81, ⟨18446744073709551616, [(3, 1)], false⟩),
  (82, ⟨6277101735386680763835789423207666416102355444464034512896, [(15, 1), (9, 18446744073709551616), (3, 340282366920938463463374607431768211456)], false⟩),
  (109, ⟨18446744073709551616, [(3, 1)], false⟩),
  (110, ⟨115792089237316195423570985008687907853269984665640564039457584007913129639936, [(21, 1), (15, 18446744073709551616), (9, 340282366920938463463374607431768211456), (3, 6277101735386680763835789423207666416102355444464034512896)], false⟩),
  (137, ⟨18446744073709551616, [(3, 1)], false⟩),
  (138, ⟨2135987035920910082395021706169552114602704522356652769947041607822219725780640550022962086936576, [(27, 1), (21, 18446744073709551616), (15, 340282366920938463463374607431768211456), (9, 6277101735386680763835789423207666416102355444464034512896), (3, 115792089237316195423570985008687907853269984665640564039457584007913129639936)], false⟩),
  (165, ⟨18446744073709551616, [(3, 1)], false⟩),
  (166, ⟨39402006196394479212279040100143613805079739270465446667948293404245721771497210611414266254884915640806627990306816, [(33, 1), (27, 18446744073709551616), (21, 340282366920938463463374607431768211456), (15, 6277101735386680763835789423207666416102355444464034512896), (9, 115792089237316195423570985008687907853269984665640564039457584007913129639936), (3, 2135987035920910082395021706169552114602704522356652769947041607822219725780640550022962086936576)], false⟩),
  (193, ⟨18446744073709551616, [(3, 1)], false⟩),
  (194, ⟨726838724295606890549323807888004534353641360687318060281490199180639288113397923326191050713763565560762521606266177933534601628614656, [(39, 1), (33, 18446744073709551616), (27, 340282366920938463463374607431768211456), (21, 6277101735386680763835789423207666416102355444464034512896), (15, 115792089237316195423570985008687907853269984665640564039457584007913129639936), (9, 2135987035920910082395021706169552114602704522356652769947041607822219725780640550022962086936576), (3, 39402006196394479212279040100143613805079739270465446667948293404245721771497210611414266254884915640806627990306816)], false⟩),
  (221, ⟨18446744073709551616, [(3, 1)], false⟩),
  (222, ⟨13407807929942597099574024998205846127479365820592393377723561443721764030073546976801874298166903427690031858186486050853753882811946569946433649006084096, [(89, (-1)), (83, (-18446744073709551616)), (77, (-340282366920938463463374607431768211456)), (71, (-6277101735386680763835789423207666416102355444464034512896)), (65, (-115792089237316195423570985008687907853269984665640564039457584007913129639936)), (59, (-2135987035920910082395021706169552114602704522356652769947041607822219725780640550022962086936576)), (53, (-39402006196394479212279040100143613805079739270465446667948293404245721771497210611414266254884915640806627990306816)), (49, (-726838724295606890549323807888004534353641360687318060281490199180639288113397923326191050713763565560762521606266177933534601628614656)), (45, 1), (39, 18446744073709551616), (33, 340282366920938463463374607431768211456), (27, 6277101735386680763835789423207666416102355444464034512896), (21, 115792089237316195423570985008687907853269984665640564039457584007913129639936), (15, 2135987035920910082395021706169552114602704522356652769947041607822219725780640550022962086936576), (9, 39402006196394479212279040100143613805079739270465446667948293404245721771497210611414266254884915640806627990306816), (3, 726838724295606890549323807888004534353641360687318060281490199180639288113397923326191050713763565560762521606266177933534601628614656)], false⟩),
  (249, ⟨18446744073709551616, [(3, 1)], false⟩),
  (250, ⟨13407807929942597099574024998205846127479365820592393377723561443721764030073546976801874298166903427690031858186486050853753882811946569946433649006084096, [(89, (-1)), (83, (-18446744073709551616)), (77, (-340282366920938463463374607431768211456)), (71, (-6277101735386680763835789423207666416102355444464034512896)), (65, (-115792089237316195423570985008687907853269984665640564039457584007913129639936)), (59, (-2135987035920910082395021706169552114602704522356652769947041607822219725780640550022962086936576)), (53, (-39402006196394479212279040100143613805079739270465446667948293404245721771497210611414266254884915640806627990306816)), (49, (-726838724295606890549323807888004534353641360687318060281490199180639288113397923326191050713763565560762521606266177933534601628614656)), (45, 1), (39, 18446744073709551616), (33, 340282366920938463463374607431768211456), (27, 6277101735386680763835789423207666416102355444464034512896), (21, 115792089237316195423570985008687907853269984665640564039457584007913129639936), (15, 2135987035920910082395021706169552114602704522356652769947041607822219725780640550022962086936576), (9, 39402006196394479212279040100143613805079739270465446667948293404245721771497210611414266254884915640806627990306816), (3, 726838724295606890549323807888004534353641360687318060281490199180639288113397923326191050713763565560762521606266177933534601628614656)], false⟩),
  (277, ⟨18446744073709551616, [(3, 1)], false⟩),
  (278, ⟨13407807929942597099574024998205846127479365820592393377723561443721764030073546976801874298166903427690031858186486050853753882811946569946433649006084096, [(89, (-1)), (83, (-18446744073709551616)), (77, (-340282366920938463463374607431768211456)), (71, (-6277101735386680763835789423207666416102355444464034512896)), (65, (-115792089237316195423570985008687907853269984665640564039457584007913129639936)), (59, (-2135987035920910082395021706169552114602704522356652769947041607822219725780640550022962086936576)), (53, (-39402006196394479212279040100143613805079739270465446667948293404245721771497210611414266254884915640806627990306816)), (49, (-726838724295606890549323807888004534353641360687318060281490199180639288113397923326191050713763565560762521606266177933534601628614656)), (45, 1), (39, 18446744073709551616), (33, 340282366920938463463374607431768211456), (27, 6277101735386680763835789423207666416102355444464034512896), (21, 115792089237316195423570985008687907853269984665640564039457584007913129639936), (15, 2135987035920910082395021706169552114602704522356652769947041607822219725780640550022962086936576), (9, 39402006196394479212279040100143613805079739270465446667948293404245721771497210611414266254884915640806627990306816), (3, 726838724295606890549323807888004534353641360687318060281490199180639288113397923326191050713763565560762521606266177933534601628614656)], false⟩),
  (305, ⟨18446744073709551616, [(3, 1)], false⟩),
  (306, ⟨13407807929942597099574024998205846127479365820592393377723561443721764030073546976801874298166903427690031858186486050853753882811946569946433649006084096, [(89, (-1)), (83, (-18446744073709551616)), (77, (-340282366920938463463374607431768211456)), (71, (-6277101735386680763835789423207666416102355444464034512896)), (65, (-115792089237316195423570985008687907853269984665640564039457584007913129639936)), (59, (-2135987035920910082395021706169552114602704522356652769947041607822219725780640550022962086936576)), (53, (-39402006196394479212279040100143613805079739270465446667948293404245721771497210611414266254884915640806627990306816)), (49, (-726838724295606890549323807888004534353641360687318060281490199180639288113397923326191050713763565560762521606266177933534601628614656)), (45, 1), (39, 18446744073709551616), (33, 340282366920938463463374607431768211456), (27, 6277101735386680763835789423207666416102355444464034512896), (21, 115792089237316195423570985008687907853269984665640564039457584007913129639936), (15, 2135987035920910082395021706169552114602704522356652769947041607822219725780640550022962086936576), (9, 39402006196394479212279040100143613805079739270465446667948293404245721771497210611414266254884915640806627990306816), (3, 726838724295606890549323807888004534353641360687318060281490199180639288113397923326191050713763565560762521606266177933534601628614656)], false⟩),
  (333, ⟨18446744073709551616, [(3, 1)], false⟩),
  (334, ⟨13407807929942597099574024998205846127479365820592393377723561443721764030073546976801874298166903427690031858186486050853753882811946569946433649006084096, [(89, (-1)), (83, (-18446744073709551616)), (77, (-340282366920938463463374607431768211456)), (71, (-6277101735386680763835789423207666416102355444464034512896)), (65, (-115792089237316195423570985008687907853269984665640564039457584007913129639936)), (59, (-2135987035920910082395021706169552114602704522356652769947041607822219725780640550022962086936576)), (53, (-39402006196394479212279040100143613805079739270465446667948293404245721771497210611414266254884915640806627990306816)), (49, (-726838724295606890549323807888004534353641360687318060281490199180639288113397923326191050713763565560762521606266177933534601628614656)), (45, 1), (39, 18446744073709551616), (33, 340282366920938463463374607431768211456), (27, 6277101735386680763835789423207666416102355444464034512896), (21, 115792089237316195423570985008687907853269984665640564039457584007913129639936), (15, 2135987035920910082395021706169552114602704522356652769947041607822219725780640550022962086936576), (9, 39402006196394479212279040100143613805079739270465446667948293404245721771497210611414266254884915640806627990306816), (3, 726838724295606890549323807888004534353641360687318060281490199180639288113397923326191050713763565560762521606266177933534601628614656)], false⟩),
  (361, ⟨18446744073709551616, [(3, 1)], false⟩),
  (362, ⟨13407807929942597099574024998205846127479365820592393377723561443721764030073546976801874298166903427690031858186486050853753882811946569946433649006084096, [(89, (-1)), (83, (-18446744073709551616)), (77, (-340282366920938463463374607431768211456)), (71, (-6277101735386680763835789423207666416102355444464034512896)), (65, (-115792089237316195423570985008687907853269984665640564039457584007913129639936)), (59, (-2135987035920910082395021706169552114602704522356652769947041607822219725780640550022962086936576)), (53, (-39402006196394479212279040100143613805079739270465446667948293404245721771497210611414266254884915640806627990306816)), (49, (-726838724295606890549323807888004534353641360687318060281490199180639288113397923326191050713763565560762521606266177933534601628614656)), (45, 1), (39, 18446744073709551616), (33, 340282366920938463463374607431768211456), (27, 6277101735386680763835789423207666416102355444464034512896), (21, 115792089237316195423570985008687907853269984665640564039457584007913129639936), (15, 2135987035920910082395021706169552114602704522356652769947041607822219725780640550022962086936576), (9, 39402006196394479212279040100143613805079739270465446667948293404245721771497210611414266254884915640806627990306816), (3, 726838724295606890549323807888004534353641360687318060281490199180639288113397923326191050713763565560762521606266177933534601628614656)], false⟩),
  (389, ⟨18446744073709551616, [(3, 1)], false⟩),
  (390, ⟨13407807929942597099574024998205846127479365820592393377723561443721764030073546976801874298166903427690031858186486050853753882811946569946433649006084096, [(89, (-1)), (83, (-18446744073709551616)), (77, (-340282366920938463463374607431768211456)), (71, (-6277101735386680763835789423207666416102355444464034512896)), (65, (-115792089237316195423570985008687907853269984665640564039457584007913129639936)), (59, (-2135987035920910082395021706169552114602704522356652769947041607822219725780640550022962086936576)), (53, (-39402006196394479212279040100143613805079739270465446667948293404245721771497210611414266254884915640806627990306816)), (49, (-726838724295606890549323807888004534353641360687318060281490199180639288113397923326191050713763565560762521606266177933534601628614656)), (45, 1), (39, 18446744073709551616), (33, 340282366920938463463374607431768211456), (27, 6277101735386680763835789423207666416102355444464034512896), (21, 115792089237316195423570985008687907853269984665640564039457584007913129639936), (15, 2135987035920910082395021706169552114602704522356652769947041607822219725780640550022962086936576), (9, 39402006196394479212279040100143613805079739270465446667948293404245721771497210611414266254884915640806627990306816), (3, 726838724295606890549323807888004534353641360687318060281490199180639288113397923326191050713763565560762521606266177933534601628614656)], false⟩),
  (417, ⟨18446744073709551616, [(3, 1)], false⟩),
  (418, ⟨13407807929942597099574024998205846127479365820592393377723561443721764030073546976801874298166903427690031858186486050853753882811946569946433649006084096, [(89, (-1)), (83, (-18446744073709551616)), (77, (-340282366920938463463374607431768211456)), (71, (-6277101735386680763835789423207666416102355444464034512896)), (65, (-115792089237316195423570985008687907853269984665640564039457584007913129639936)), (59, (-2135987035920910082395021706169552114602704522356652769947041607822219725780640550022962086936576)), (53, (-39402006196394479212279040100143613805079739270465446667948293404245721771497210611414266254884915640806627990306816)), (49, (-726838724295606890549323807888004534353641360687318060281490199180639288113397923326191050713763565560762521606266177933534601628614656)), (45, 1), (39, 18446744073709551616), (33, 340282366920938463463374607431768211456), (27, 6277101735386680763835789423207666416102355444464034512896), (21, 115792089237316195423570985008687907853269984665640564039457584007913129639936), (15, 2135987035920910082395021706169552114602704522356652769947041607822219725780640550022962086936576), (9, 39402006196394479212279040100143613805079739270465446667948293404245721771497210611414266254884915640806627990306816), (3, 726838724295606890549323807888004534353641360687318060281490199180639288113397923326191050713763565560762521606266177933534601628614656)], false⟩),
  (445, ⟨18446744073709551616, [(3, 1)], false⟩),
  (446, ⟨13407807929942597099574024998205846127479365820592393377723561443721764030073546976801874298166903427690031858186486050853753882811946569946433649006084096, [(89, (-1)), (83, (-18446744073709551616)), (77, (-340282366920938463463374607431768211456)), (71, (-6277101735386680763835789423207666416102355444464034512896)), (65, (-115792089237316195423570985008687907853269984665640564039457584007913129639936)), (59, (-2135987035920910082395021706169552114602704522356652769947041607822219725780640550022962086936576)), (53, (-39402006196394479212279040100143613805079739270465446667948293404245721771497210611414266254884915640806627990306816)), (49, (-726838724295606890549323807888004534353641360687318060281490199180639288113397923326191050713763565560762521606266177933534601628614656)), (45, 1), (39, 18446744073709551616), (33, 340282366920938463463374607431768211456), (27, 6277101735386680763835789423207666416102355444464034512896), (21, 115792089237316195423570985008687907853269984665640564039457584007913129639936), (15, 2135987035920910082395021706169552114602704522356652769947041607822219725780640550022962086936576), (9, 39402006196394479212279040100143613805079739270465446667948293404245721771497210611414266254884915640806627990306816), (3, 726838724295606890549323807888004534353641360687318060281490199180639288113397923326191050713763565560762521606266177933534601628614656)], false⟩),
  (491, ⟨18446744073709551616, [(3, 1)], false⟩),
  (492, ⟨13407807929942597099574024998205846127479365820592393377723561443721764030073546976801874298166903427690031858186486050853753882811946569946433649006084096, [(445, (-1)), (395, (-18446744073709551616)), (345, (-340282366920938463463374607431768211456)), (295, (-6277101735386680763835789423207666416102355444464034512896)), (245, (-115792089237316195423570985008687907853269984665640564039457584007913129639936)), (195, (-2135987035920910082395021706169552114602704522356652769947041607822219725780640550022962086936576)), (145, (-39402006196394479212279040100143613805079739270465446667948293404245721771497210611414266254884915640806627990306816)), (95, (-726838724295606890549323807888004534353641360687318060281490199180639288113397923326191050713763565560762521606266177933534601628614656)), (45, 1), (39, 18446744073709551616), (33, 340282366920938463463374607431768211456), (27, 6277101735386680763835789423207666416102355444464034512896), (21, 115792089237316195423570985008687907853269984665640564039457584007913129639936), (15, 2135987035920910082395021706169552114602704522356652769947041607822219725780640550022962086936576), (9, 39402006196394479212279040100143613805079739270465446667948293404245721771497210611414266254884915640806627990306816), (3, 726838724295606890549323807888004534353641360687318060281490199180639288113397923326191050713763565560762521606266177933534601628614656)], false⟩),
  (519, ⟨18446744073709551616, [(3, 1)], false⟩),
  (520, ⟨13407807929942597099574024998205846127479365820592393377723561443721764030073546976801874298166903427690031858186486050853753882811946569946433649006084096, [(89, (-1)), (83, (-18446744073709551616)), (77, (-340282366920938463463374607431768211456)), (71, (-6277101735386680763835789423207666416102355444464034512896)), (65, (-115792089237316195423570985008687907853269984665640564039457584007913129639936)), (59, (-2135987035920910082395021706169552114602704522356652769947041607822219725780640550022962086936576)), (53, (-39402006196394479212279040100143613805079739270465446667948293404245721771497210611414266254884915640806627990306816)), (49, (-726838724295606890549323807888004534353641360687318060281490199180639288113397923326191050713763565560762521606266177933534601628614656)), (45, 1), (39, 18446744073709551616), (33, 340282366920938463463374607431768211456), (27, 6277101735386680763835789423207666416102355444464034512896), (21, 115792089237316195423570985008687907853269984665640564039457584007913129639936), (15, 2135987035920910082395021706169552114602704522356652769947041607822219725780640550022962086936576), (9, 39402006196394479212279040100143613805079739270465446667948293404245721771497210611414266254884915640806627990306816), (3, 726838724295606890549323807888004534353641360687318060281490199180639288113397923326191050713763565560762521606266177933534601628614656)], false⟩),
  (547, ⟨18446744073709551616, [(3, 1)], false⟩),
  (548, ⟨13407807929942597099574024998205846127479365820592393377723561443721764030073546976801874298166903427690031858186486050853753882811946569946433649006084096, [(89, (-1)), (83, (-18446744073709551616)), (77, (-340282366920938463463374607431768211456)), (71, (-6277101735386680763835789423207666416102355444464034512896)), (65, (-115792089237316195423570985008687907853269984665640564039457584007913129639936)), (59, (-2135987035920910082395021706169552114602704522356652769947041607822219725780640550022962086936576)), (53, (-39402006196394479212279040100143613805079739270465446667948293404245721771497210611414266254884915640806627990306816)), (49, (-726838724295606890549323807888004534353641360687318060281490199180639288113397923326191050713763565560762521606266177933534601628614656)), (45, 1), (39, 18446744073709551616), (33, 340282366920938463463374607431768211456), (27, 6277101735386680763835789423207666416102355444464034512896), (21, 115792089237316195423570985008687907853269984665640564039457584007913129639936), (15, 2135987035920910082395021706169552114602704522356652769947041607822219725780640550022962086936576), (9, 39402006196394479212279040100143613805079739270465446667948293404245721771497210611414266254884915640806627990306816), (3, 726838724295606890549323807888004534353641360687318060281490199180639288113397923326191050713763565560762521606266177933534601628614656)], false⟩),
  (575, ⟨18446744073709551616, [(3, 1)], false⟩),
  (576, ⟨13407807929942597099574024998205846127479365820592393377723561443721764030073546976801874298166903427690031858186486050853753882811946569946433649006084096, [(89, (-1)), (83, (-18446744073709551616)), (77, (-340282366920938463463374607431768211456)), (71, (-6277101735386680763835789423207666416102355444464034512896)), (65, (-115792089237316195423570985008687907853269984665640564039457584007913129639936)), (59, (-2135987035920910082395021706169552114602704522356652769947041607822219725780640550022962086936576)), (53, (-39402006196394479212279040100143613805079739270465446667948293404245721771497210611414266254884915640806627990306816)), (49, (-726838724295606890549323807888004534353641360687318060281490199180639288113397923326191050713763565560762521606266177933534601628614656)), (45, 1), (39, 18446744073709551616), (33, 340282366920938463463374607431768211456), (27, 6277101735386680763835789423207666416102355444464034512896), (21, 115792089237316195423570985008687907853269984665640564039457584007913129639936), (15, 2135987035920910082395021706169552114602704522356652769947041607822219725780640550022962086936576), (9, 39402006196394479212279040100143613805079739270465446667948293404245721771497210611414266254884915640806627990306816), (3, 726838724295606890549323807888004534353641360687318060281490199180639288113397923326191050713763565560762521606266177933534601628614656)], false⟩),
  (603, ⟨18446744073709551616, [(3, 1)], false⟩),
  (604, ⟨13407807929942597099574024998205846127479365820592393377723561443721764030073546976801874298166903427690031858186486050853753882811946569946433649006084096, [(89, (-1)), (83, (-18446744073709551616)), (77, (-340282366920938463463374607431768211456)), (71, (-6277101735386680763835789423207666416102355444464034512896)), (65, (-115792089237316195423570985008687907853269984665640564039457584007913129639936)), (59, (-2135987035920910082395021706169552114602704522356652769947041607822219725780640550022962086936576)), (53, (-39402006196394479212279040100143613805079739270465446667948293404245721771497210611414266254884915640806627990306816)), (49, (-726838724295606890549323807888004534353641360687318060281490199180639288113397923326191050713763565560762521606266177933534601628614656)), (45, 1), (39, 18446744073709551616), (33, 340282366920938463463374607431768211456), (27, 6277101735386680763835789423207666416102355444464034512896), (21, 115792089237316195423570985008687907853269984665640564039457584007913129639936), (15, 2135987035920910082395021706169552114602704522356652769947041607822219725780640550022962086936576), (9, 39402006196394479212279040100143613805079739270465446667948293404245721771497210611414266254884915640806627990306816), (3, 726838724295606890549323807888004534353641360687318060281490199180639288113397923326191050713763565560762521606266177933534601628614656)], false⟩),
  (631, ⟨18446744073709551616, [(3, 1)], false⟩),
  (632, ⟨13407807929942597099574024998205846127479365820592393377723561443721764030073546976801874298166903427690031858186486050853753882811946569946433649006084096, [(89, (-1)), (83, (-18446744073709551616)), (77, (-340282366920938463463374607431768211456)), (71, (-6277101735386680763835789423207666416102355444464034512896)), (65, (-115792089237316195423570985008687907853269984665640564039457584007913129639936)), (59, (-2135987035920910082395021706169552114602704522356652769947041607822219725780640550022962086936576)), (53, (-39402006196394479212279040100143613805079739270465446667948293404245721771497210611414266254884915640806627990306816)), (49, (-726838724295606890549323807888004534353641360687318060281490199180639288113397923326191050713763565560762521606266177933534601628614656)), (45, 1), (39, 18446744073709551616), (33, 340282366920938463463374607431768211456), (27, 6277101735386680763835789423207666416102355444464034512896), (21, 115792089237316195423570985008687907853269984665640564039457584007913129639936), (15, 2135987035920910082395021706169552114602704522356652769947041607822219725780640550022962086936576), (9, 39402006196394479212279040100143613805079739270465446667948293404245721771497210611414266254884915640806627990306816), (3, 726838724295606890549323807888004534353641360687318060281490199180639288113397923326191050713763565560762521606266177933534601628614656)], false⟩),
  (659, ⟨18446744073709551616, [(3, 1)], false⟩),
  (660, ⟨13407807929942597099574024998205846127479365820592393377723561443721764030073546976801874298166903427690031858186486050853753882811946569946433649006084096, [(89, (-1)), (83, (-18446744073709551616)), (77, (-340282366920938463463374607431768211456)), (71, (-6277101735386680763835789423207666416102355444464034512896)), (65, (-115792089237316195423570985008687907853269984665640564039457584007913129639936)), (59, (-2135987035920910082395021706169552114602704522356652769947041607822219725780640550022962086936576)), (53, (-39402006196394479212279040100143613805079739270465446667948293404245721771497210611414266254884915640806627990306816)), (49, (-726838724295606890549323807888004534353641360687318060281490199180639288113397923326191050713763565560762521606266177933534601628614656)), (45, 1), (39, 18446744073709551616), (33, 340282366920938463463374607431768211456), (27, 6277101735386680763835789423207666416102355444464034512896), (21, 115792089237316195423570985008687907853269984665640564039457584007913129639936), (15, 2135987035920910082395021706169552114602704522356652769947041607822219725780640550022962086936576), (9, 39402006196394479212279040100143613805079739270465446667948293404245721771497210611414266254884915640806627990306816), (3, 726838724295606890549323807888004534353641360687318060281490199180639288113397923326191050713763565560762521606266177933534601628614656)], false⟩),
  (687, ⟨18446744073709551616, [(3, 1)], false⟩),
  (688, ⟨13407807929942597099574024998205846127479365820592393377723561443721764030073546976801874298166903427690031858186486050853753882811946569946433649006084096, [(89, (-1)), (83, (-18446744073709551616)), (77, (-340282366920938463463374607431768211456)), (71, (-6277101735386680763835789423207666416102355444464034512896)), (65, (-115792089237316195423570985008687907853269984665640564039457584007913129639936)), (59, (-2135987035920910082395021706169552114602704522356652769947041607822219725780640550022962086936576)), (53, (-39402006196394479212279040100143613805079739270465446667948293404245721771497210611414266254884915640806627990306816)), (49, (-726838724295606890549323807888004534353641360687318060281490199180639288113397923326191050713763565560762521606266177933534601628614656)), (45, 1), (39, 18446744073709551616), (33, 340282366920938463463374607431768211456), (27, 6277101735386680763835789423207666416102355444464034512896), (21, 115792089237316195423570985008687907853269984665640564039457584007913129639936), (15, 2135987035920910082395021706169552114602704522356652769947041607822219725780640550022962086936576), (9, 39402006196394479212279040100143613805079739270465446667948293404245721771497210611414266254884915640806627990306816), (3, 726838724295606890549323807888004534353641360687318060281490199180639288113397923326191050713763565560762521606266177933534601628614656)], false⟩),
  (716, ⟨18446744073709551616, [(3, 1)], false⟩),
  (717, ⟨13407807929942597099574024998205846127479365820592393377723561443721764030073546976801874298166903427690031858186486050853753882811946569946433649006084096, [(491, (-1)), (91, (-1)), (85, (-18446744073709551616)), (79, (-340282366920938463463374607431768211456)), (73, (-6277101735386680763835789423207666416102355444464034512896)), (67, (-115792089237316195423570985008687907853269984665640564039457584007913129639936)), (61, (-2135987035920910082395021706169552114602704522356652769947041607822219725780640550022962086936576)), (55, (-39402006196394479212279040100143613805079739270465446667948293404245721771497210611414266254884915640806627990306816)), (51, (-726838724295606890549323807888004534353641360687318060281490199180639288113397923326191050713763565560762521606266177933534601628614656)), (45, 1), (39, 18446744073709551616), (33, 340282366920938463463374607431768211456), (27, 6277101735386680763835789423207666416102355444464034512896), (21, 115792089237316195423570985008687907853269984665640564039457584007913129639936), (15, 2135987035920910082395021706169552114602704522356652769947041607822219725780640550022962086936576), (9, 39402006196394479212279040100143613805079739270465446667948293404245721771497210611414266254884915640806627990306816), (3, 726838724295606890549323807888004534353641360687318060281490199180639288113397923326191050713763565560762521606266177933534601628614656)], false⟩),
  (745, ⟨18446744073709551616, [(3, 1)], false⟩),
  (746, ⟨13407807929942597099574024998205846127479365820592393377723561443721764030073546976801874298166903427690031858186486050853753882811946569946433649006084096, [(537, (-1)), (91, (-1)), (85, (-18446744073709551616)), (79, (-340282366920938463463374607431768211456)), (73, (-6277101735386680763835789423207666416102355444464034512896)), (67, (-115792089237316195423570985008687907853269984665640564039457584007913129639936)), (61, (-2135987035920910082395021706169552114602704522356652769947041607822219725780640550022962086936576)), (55, (-39402006196394479212279040100143613805079739270465446667948293404245721771497210611414266254884915640806627990306816)), (51, (-726838724295606890549323807888004534353641360687318060281490199180639288113397923326191050713763565560762521606266177933534601628614656)), (45, 1), (39, 18446744073709551616), (33, 340282366920938463463374607431768211456), (27, 6277101735386680763835789423207666416102355444464034512896), (21, 115792089237316195423570985008687907853269984665640564039457584007913129639936), (15, 2135987035920910082395021706169552114602704522356652769947041607822219725780640550022962086936576), (9, 39402006196394479212279040100143613805079739270465446667948293404245721771497210611414266254884915640806627990306816), (3, 726838724295606890549323807888004534353641360687318060281490199180639288113397923326191050713763565560762521606266177933534601628614656)], false⟩),
  (774, ⟨18446744073709551616, [(3, 1)], false⟩),
  (775, ⟨13407807929942597099574024998205846127479365820592393377723561443721764030073546976801874298166903427690031858186486050853753882811946569946433649006084096, [(583, (-1)), (91, (-1)), (85, (-18446744073709551616)), (79, (-340282366920938463463374607431768211456)), (73, (-6277101735386680763835789423207666416102355444464034512896)), (67, (-115792089237316195423570985008687907853269984665640564039457584007913129639936)), (61, (-2135987035920910082395021706169552114602704522356652769947041607822219725780640550022962086936576)), (55, (-39402006196394479212279040100143613805079739270465446667948293404245721771497210611414266254884915640806627990306816)), (51, (-726838724295606890549323807888004534353641360687318060281490199180639288113397923326191050713763565560762521606266177933534601628614656)), (45, 1), (39, 18446744073709551616), (33, 340282366920938463463374607431768211456), (27, 6277101735386680763835789423207666416102355444464034512896), (21, 115792089237316195423570985008687907853269984665640564039457584007913129639936), (15, 2135987035920910082395021706169552114602704522356652769947041607822219725780640550022962086936576), (9, 39402006196394479212279040100143613805079739270465446667948293404245721771497210611414266254884915640806627990306816), (3, 726838724295606890549323807888004534353641360687318060281490199180639288113397923326191050713763565560762521606266177933534601628614656)], false⟩),
  (803, ⟨18446744073709551616, [(3, 1)], false⟩),
  (804, ⟨13407807929942597099574024998205846127479365820592393377723561443721764030073546976801874298166903427690031858186486050853753882811946569946433649006084096, [(629, (-1)), (91, (-1)), (85, (-18446744073709551616)), (79, (-340282366920938463463374607431768211456)), (73, (-6277101735386680763835789423207666416102355444464034512896)), (67, (-115792089237316195423570985008687907853269984665640564039457584007913129639936)), (61, (-2135987035920910082395021706169552114602704522356652769947041607822219725780640550022962086936576)), (55, (-39402006196394479212279040100143613805079739270465446667948293404245721771497210611414266254884915640806627990306816)), (51, (-726838724295606890549323807888004534353641360687318060281490199180639288113397923326191050713763565560762521606266177933534601628614656)), (45, 1), (39, 18446744073709551616), (33, 340282366920938463463374607431768211456), (27, 6277101735386680763835789423207666416102355444464034512896), (21, 115792089237316195423570985008687907853269984665640564039457584007913129639936), (15, 2135987035920910082395021706169552114602704522356652769947041607822219725780640550022962086936576), (9, 39402006196394479212279040100143613805079739270465446667948293404245721771497210611414266254884915640806627990306816), (3, 726838724295606890549323807888004534353641360687318060281490199180639288113397923326191050713763565560762521606266177933534601628614656)], false⟩),
  (832, ⟨18446744073709551616, [(3, 1)], false⟩),
  (833, ⟨13407807929942597099574024998205846127479365820592393377723561443721764030073546976801874298166903427690031858186486050853753882811946569946433649006084096, [(675, (-1)), (91, (-1)), (85, (-18446744073709551616)), (79, (-340282366920938463463374607431768211456)), (73, (-6277101735386680763835789423207666416102355444464034512896)), (67, (-115792089237316195423570985008687907853269984665640564039457584007913129639936)), (61, (-2135987035920910082395021706169552114602704522356652769947041607822219725780640550022962086936576)), (55, (-39402006196394479212279040100143613805079739270465446667948293404245721771497210611414266254884915640806627990306816)), (51, (-726838724295606890549323807888004534353641360687318060281490199180639288113397923326191050713763565560762521606266177933534601628614656)), (45, 1), (39, 18446744073709551616), (33, 340282366920938463463374607431768211456), (27, 6277101735386680763835789423207666416102355444464034512896), (21, 115792089237316195423570985008687907853269984665640564039457584007913129639936), (15, 2135987035920910082395021706169552114602704522356652769947041607822219725780640550022962086936576), (9, 39402006196394479212279040100143613805079739270465446667948293404245721771497210611414266254884915640806627990306816), (3, 726838724295606890549323807888004534353641360687318060281490199180639288113397923326191050713763565560762521606266177933534601628614656)], false⟩),
  (861, ⟨18446744073709551616, [(3, 1)], false⟩),
  (862, ⟨13407807929942597099574024998205846127479365820592393377723561443721764030073546976801874298166903427690031858186486050853753882811946569946433649006084096, [(721, (-1)), (91, (-1)), (85, (-18446744073709551616)), (79, (-340282366920938463463374607431768211456)), (73, (-6277101735386680763835789423207666416102355444464034512896)), (67, (-115792089237316195423570985008687907853269984665640564039457584007913129639936)), (61, (-2135987035920910082395021706169552114602704522356652769947041607822219725780640550022962086936576)), (55, (-39402006196394479212279040100143613805079739270465446667948293404245721771497210611414266254884915640806627990306816)), (51, (-726838724295606890549323807888004534353641360687318060281490199180639288113397923326191050713763565560762521606266177933534601628614656)), (45, 1), (39, 18446744073709551616), (33, 340282366920938463463374607431768211456), (27, 6277101735386680763835789423207666416102355444464034512896), (21, 115792089237316195423570985008687907853269984665640564039457584007913129639936), (15, 2135987035920910082395021706169552114602704522356652769947041607822219725780640550022962086936576), (9, 39402006196394479212279040100143613805079739270465446667948293404245721771497210611414266254884915640806627990306816), (3, 726838724295606890549323807888004534353641360687318060281490199180639288113397923326191050713763565560762521606266177933534601628614656)], false⟩),
  (890, ⟨18446744073709551616, [(3, 1)], false⟩),
  (891, ⟨13407807929942597099574024998205846127479365820592393377723561443721764030073546976801874298166903427690031858186486050853753882811946569946433649006084096, [(767, (-1)), (91, (-1)), (85, (-18446744073709551616)), (79, (-340282366920938463463374607431768211456)), (73, (-6277101735386680763835789423207666416102355444464034512896)), (67, (-115792089237316195423570985008687907853269984665640564039457584007913129639936)), (61, (-2135987035920910082395021706169552114602704522356652769947041607822219725780640550022962086936576)), (55, (-39402006196394479212279040100143613805079739270465446667948293404245721771497210611414266254884915640806627990306816)), (51, (-726838724295606890549323807888004534353641360687318060281490199180639288113397923326191050713763565560762521606266177933534601628614656)), (45, 1), (39, 18446744073709551616), (33, 340282366920938463463374607431768211456), (27, 6277101735386680763835789423207666416102355444464034512896), (21, 115792089237316195423570985008687907853269984665640564039457584007913129639936), (15, 2135987035920910082395021706169552114602704522356652769947041607822219725780640550022962086936576), (9, 39402006196394479212279040100143613805079739270465446667948293404245721771497210611414266254884915640806627990306816), (3, 726838724295606890549323807888004534353641360687318060281490199180639288113397923326191050713763565560762521606266177933534601628614656)], false⟩),
  (919, ⟨18446744073709551616, [(3, 1)], false⟩),
  (920, ⟨13407807929942597099574024998205846127479365820592393377723561443721764030073546976801874298166903427690031858186486050853753882811946569946433649006084096, [(815, (-1)), (91, (-1)), (85, (-18446744073709551616)), (79, (-340282366920938463463374607431768211456)), (73, (-6277101735386680763835789423207666416102355444464034512896)), (67, (-115792089237316195423570985008687907853269984665640564039457584007913129639936)), (61, (-2135987035920910082395021706169552114602704522356652769947041607822219725780640550022962086936576)), (55, (-39402006196394479212279040100143613805079739270465446667948293404245721771497210611414266254884915640806627990306816)), (51, (-726838724295606890549323807888004534353641360687318060281490199180639288113397923326191050713763565560762521606266177933534601628614656)), (45, 1), (39, 18446744073709551616), (33, 340282366920938463463374607431768211456), (27, 6277101735386680763835789423207666416102355444464034512896), (21, 115792089237316195423570985008687907853269984665640564039457584007913129639936), (15, 2135987035920910082395021706169552114602704522356652769947041607822219725780640550022962086936576), (9, 39402006196394479212279040100143613805079739270465446667948293404245721771497210611414266254884915640806627990306816), (3, 726838724295606890549323807888004534353641360687318060281490199180639288113397923326191050713763565560762521606266177933534601628614656)], false⟩)]
def claims : List Claim := [
  .rel [.lin 0x1 Z, .mul (-0x1) X Y],
  .out 1 Z]
set_option maxRecDepth 100000 in
theorem verified : verify [⟨.rsp, 6, 6, true⟩, ⟨.rdi, 32, 0, true⟩, ⟨.rsi, 16, 0, false⟩, ⟨.rdx, 16, 0, false⟩] [2, 3] hints bignumKmul1632 claims = true := by decide +kernel
end Kmul1632

namespace Ksqr1632
def X : List Nat := [0, 1, 2, 3, 4, 5, 6, 7, 8, 9, 10, 11, 12, 13, 14, 15]
def Z : List Nat := [752, 756, 762, 766, 772, 776, 782, 786, 792, 796, 802, 806, 812, 816, 822, 826, 832, 836, 842, 846, 852, 856, 862, 866, 872, 876, 882, 886, 892, 896, 902, 906]
def c : Nat := 907
def hints : List (Nat × Hint) := [(23, ⟨18446744073709551616, [(1, 1)], false⟩),
  (45, ⟨18446744073709551616, [(3, 1)], false⟩),
  (50, ⟨18446744073709551616, [(7, (-1)), (3, 1)], false⟩),
  (73, ⟨18446744073709551616, [(3, 1)], false⟩),
  (77, ⟨18446744073709551616, [(7, (-1)), (3, 1)], false⟩),
  (99, ⟨18446744073709551616, [(3, 1)], false⟩),
  (103, ⟨18446744073709551616, [(7, (-1)), (3, 1)], false⟩),
  (127, ⟨18446744073709551616, [(3, 1)], false⟩),
  (131, ⟨18446744073709551616, [(7, (-1)), (3, 1)], false⟩),
  (158, ⟨18446744073709551616, [(3, 1)], false⟩),
  (159, ⟨340282366920938463463374607431768211456, [(57, (-1)), (9, 1), (3, 18446744073709551616)], false⟩),
  (186, ⟨18446744073709551616, [(3, 1)], false⟩),
  (187, ⟨6277101735386680763835789423207666416102355444464034512896, [(107, (-1)), (15, 1), (9, 18446744073709551616), (3, 340282366920938463463374607431768211456)], false⟩),
  (214, ⟨18446744073709551616, [(3, 1)], false⟩),
  (215, ⟨115792089237316195423570985008687907853269984665640564039457584007913129639936, [(157, (-1)), (21, 1), (15, 18446744073709551616), (9, 340282366920938463463374607431768211456), (3, 6277101735386680763835789423207666416102355444464034512896)], false⟩),
  (242, ⟨18446744073709551616, [(3, 1)], false⟩),
  (243, ⟨2135987035920910082395021706169552114602704522356652769947041607822219725780640550022962086936576, [(207, (-1)), (27, 1), (21, 18446744073709551616), (15, 340282366920938463463374607431768211456), (9, 6277101735386680763835789423207666416102355444464034512896), (3, 115792089237316195423570985008687907853269984665640564039457584007913129639936)], false⟩),
  (270, ⟨18446744073709551616, [(3, 1)], false⟩),
  (271, ⟨39402006196394479212279040100143613805079739270465446667948293404245721771497210611414266254884915640806627990306816, [(257, (-1)), (33, 1), (27, 18446744073709551616), (21, 340282366920938463463374607431768211456), (15, 6277101735386680763835789423207666416102355444464034512896), (9, 115792089237316195423570985008687907853269984665640564039457584007913129639936), (3, 2135987035920910082395021706169552114602704522356652769947041607822219725780640550022962086936576)], false⟩),
  (298, ⟨18446744073709551616, [(3, 1)], false⟩),
  (299, ⟨726838724295606890549323807888004534353641360687318060281490199180639288113397923326191050713763565560762521606266177933534601628614656, [(307, (-1)), (39, 1), (33, 18446744073709551616), (27, 340282366920938463463374607431768211456), (21, 6277101735386680763835789423207666416102355444464034512896), (15, 115792089237316195423570985008687907853269984665640564039457584007913129639936), (9, 2135987035920910082395021706169552114602704522356652769947041607822219725780640550022962086936576), (3, 39402006196394479212279040100143613805079739270465446667948293404245721771497210611414266254884915640806627990306816)], false⟩),
  (326, ⟨18446744073709551616, [(3, 1)], false⟩),
  (327, ⟨13407807929942597099574024998205846127479365820592393377723561443721764030073546976801874298166903427690031858186486050853753882811946569946433649006084096, [(89, (-1)), (83, (-18446744073709551616)), (77, (-340282366920938463463374607431768211456)), (71, (-6277101735386680763835789423207666416102355444464034512896)), (65, (-115792089237316195423570985008687907853269984665640564039457584007913129639936)), (59, (-2135987035920910082395021706169552114602704522356652769947041607822219725780640550022962086936576)), (53, (-39402006196394479212279040100143613805079739270465446667948293404245721771497210611414266254884915640806627990306816)), (49, (-726838724295606890549323807888004534353641360687318060281490199180639288113397923326191050713763565560762521606266177933534601628614656)), (45, 1), (39, 18446744073709551616), (33, 340282366920938463463374607431768211456), (27, 6277101735386680763835789423207666416102355444464034512896), (21, 115792089237316195423570985008687907853269984665640564039457584007913129639936), (15, 2135987035920910082395021706169552114602704522356652769947041607822219725780640550022962086936576), (9, 39402006196394479212279040100143613805079739270465446667948293404245721771497210611414266254884915640806627990306816), (3, 726838724295606890549323807888004534353641360687318060281490199180639288113397923326191050713763565560762521606266177933534601628614656)], false⟩),
  (367, ⟨18446744073709551616, [(3, 1)], false⟩),
  (368, ⟨726838724295606890549323807888004534353641360687318060281490199180639288113397923326191050713763565560762521606266177933534601628614656, [(77, (-1)), (71, (-18446744073709551616)), (65, (-340282366920938463463374607431768211456)), (59, (-6277101735386680763835789423207666416102355444464034512896)), (53, (-115792089237316195423570985008687907853269984665640564039457584007913129639936)), (47, (-2135987035920910082395021706169552114602704522356652769947041607822219725780640550022962086936576)), (43, (-39402006196394479212279040100143613805079739270465446667948293404245721771497210611414266254884915640806627990306816)), (39, 1), (33, 18446744073709551616), (27, 340282366920938463463374607431768211456), (21, 6277101735386680763835789423207666416102355444464034512896), (15, 115792089237316195423570985008687907853269984665640564039457584007913129639936), (9, 2135987035920910082395021706169552114602704522356652769947041607822219725780640550022962086936576), (3, 39402006196394479212279040100143613805079739270465446667948293404245721771497210611414266254884915640806627990306816)], false⟩),
  (390, ⟨18446744073709551616, [(3, 1)], false⟩),
  (395, ⟨18446744073709551616, [(7, (-1)), (3, 1)], false⟩),
  (418, ⟨18446744073709551616, [(3, 1)], false⟩),
  (422, ⟨18446744073709551616, [(7, (-1)), (3, 1)], false⟩),
  (444, ⟨18446744073709551616, [(3, 1)], false⟩),
  (448, ⟨18446744073709551616, [(7, (-1)), (3, 1)], false⟩),
  (610, ⟨340282366920938463463374607431768211456, [(161, (-2)), (9, 1), (5, 18446744073709551616), (3, 18446744073709551616)], false⟩)]
def claims : List Claim := [
  .rel [.lin 0x1 Z, .lin 0x100000000000000000000000000000000000000000000000000000000000000000000000000000000000000000000000000000000000000000000000000000000000000000000000000000000000000000000000000000000000000000000000000000000000000000000000000000000000000000000000000000000000000000000000000000000000000000000000000000000000000000000000000000000000000000000000000000000000000000000000000000000000000000000000000000000000000000000000000000000000000000000000000000000000000000000000000000000000000000000000000000000000000000000000000000000 [c], .mul (-0x1) X X],
  .out 1 Z,
  .le c 0x1]
set_option maxRecDepth 100000 in
theorem verified : verify [⟨.rsp, 6, 6, true⟩, ⟨.rdi, 32, 0, true⟩, ⟨.rsi, 16, 0, false⟩] [2] hints bignumKsqr1632 claims = true := by decide +kernel
end Ksqr1632

end Verif.X86.Sym
