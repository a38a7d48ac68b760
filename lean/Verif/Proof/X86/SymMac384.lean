import Verif.Proof.X86.SymMac
import Verif.Proof.X86.SymUse

/-! Generated by tools/gen_mac.py: the field operations of the point routines, with advice and claims checked by the kernel. -/
namespace Verif.X86.Sym
open Verif Verif.X86

namespace Mul384
def body : Prog := [
  .mov (.reg .rdx) (.mem ⟨some .rsp, none, 0x30#64⟩),
  .xor (.reg .r15) (.reg .r15),
  .mulx .r9 .r8 (.mem ⟨some .rsp, none, 0#64⟩),
  .mulx .r10 .rbx (.mem ⟨some .rsp, none, 8#64⟩),
  .add (.reg .r9) (.reg .rbx),
  .mulx .r11 .rbx (.mem ⟨some .rsp, none, 0x10#64⟩),
  .adc (.reg .r10) (.reg .rbx),
  .mulx .r12 .rbx (.mem ⟨some .rsp, none, 0x18#64⟩),
  .adc (.reg .r11) (.reg .rbx),
  .mulx .r13 .rbx (.mem ⟨some .rsp, none, 0x20#64⟩),
  .adc (.reg .r12) (.reg .rbx),
  .mulx .r14 .rbx (.mem ⟨some .rsp, none, 0x28#64⟩),
  .adc (.reg .r13) (.reg .rbx),
  .adc (.reg .r14) (.reg .r15),
  .mov (.reg .rdx) (.reg .r8),
  .shl (.reg .rdx) (.imm 0x20#64),
  .add (.reg .rdx) (.reg .r8),
  .xor (.reg .rbp) (.reg .rbp),
  .mov (.reg .rax) (.imm 0xffffffff00000001#64),
  .mulx .rax .rbx (.reg .rax),
  .mov (.reg .rbx) (.imm 0xffffffff#64),
  .mulx .rbx .r8 (.reg .rbx),
  .adc (.reg .rax) (.reg .r8),
  .adc (.reg .rbx) (.reg .rdx),
  .adc32 .rbp .rbp,
  .sub (.reg .r9) (.reg .rax),
  .sbb (.reg .r10) (.reg .rbx),
  .sbb (.reg .r11) (.reg .rbp),
  .sbb (.reg .r12) (.imm 0#64),
  .sbb (.reg .r13) (.imm 0#64),
  .sbb (.reg .rdx) (.imm 0#64),
  .add (.reg .r14) (.reg .rdx),
  .adc (.reg .r15) (.imm 0#64),
  .mov (.reg .rdx) (.mem ⟨some .rsp, none, 0x38#64⟩),
  .xor (.reg .r8) (.reg .r8),
  .mulx .rbx .rax (.mem ⟨some .rsp, none, 0#64⟩),
  .adcx .r9 (.reg .rax),
  .adox .r10 (.reg .rbx),
  .mulx .rbx .rax (.mem ⟨some .rsp, none, 8#64⟩),
  .adcx .r10 (.reg .rax),
  .adox .r11 (.reg .rbx),
  .mulx .rbx .rax (.mem ⟨some .rsp, none, 0x10#64⟩),
  .adcx .r11 (.reg .rax),
  .adox .r12 (.reg .rbx),
  .mulx .rbx .rax (.mem ⟨some .rsp, none, 0x18#64⟩),
  .adcx .r12 (.reg .rax),
  .adox .r13 (.reg .rbx),
  .mulx .rbx .rax (.mem ⟨some .rsp, none, 0x20#64⟩),
  .adcx .r13 (.reg .rax),
  .adox .r14 (.reg .rbx),
  .adox .r15 (.reg .r8),
  .mulx .rbx .rax (.mem ⟨some .rsp, none, 0x28#64⟩),
  .adc (.reg .r14) (.reg .rax),
  .adc (.reg .r15) (.reg .rbx),
  .adc (.reg .r8) (.reg .r8),
  .mov (.reg .rdx) (.reg .r9),
  .shl (.reg .rdx) (.imm 0x20#64),
  .add (.reg .rdx) (.reg .r9),
  .xor (.reg .rbp) (.reg .rbp),
  .mov (.reg .rax) (.imm 0xffffffff00000001#64),
  .mulx .rax .rbx (.reg .rax),
  .mov (.reg .rbx) (.imm 0xffffffff#64),
  .mulx .rbx .r9 (.reg .rbx),
  .adc (.reg .rax) (.reg .r9),
  .adc (.reg .rbx) (.reg .rdx),
  .adc32 .rbp .rbp,
  .sub (.reg .r10) (.reg .rax),
  .sbb (.reg .r11) (.reg .rbx),
  .sbb (.reg .r12) (.reg .rbp),
  .sbb (.reg .r13) (.imm 0#64),
  .sbb (.reg .r14) (.imm 0#64),
  .sbb (.reg .rdx) (.imm 0#64),
  .add (.reg .r15) (.reg .rdx),
  .adc (.reg .r8) (.imm 0#64),
  .mov (.reg .rdx) (.mem ⟨some .rsp, none, 0x40#64⟩),
  .xor (.reg .r9) (.reg .r9),
  .mulx .rbx .rax (.mem ⟨some .rsp, none, 0#64⟩),
  .adcx .r10 (.reg .rax),
  .adox .r11 (.reg .rbx),
  .mulx .rbx .rax (.mem ⟨some .rsp, none, 8#64⟩),
  .adcx .r11 (.reg .rax),
  .adox .r12 (.reg .rbx),
  .mulx .rbx .rax (.mem ⟨some .rsp, none, 0x10#64⟩),
  .adcx .r12 (.reg .rax),
  .adox .r13 (.reg .rbx),
  .mulx .rbx .rax (.mem ⟨some .rsp, none, 0x18#64⟩),
  .adcx .r13 (.reg .rax),
  .adox .r14 (.reg .rbx),
  .mulx .rbx .rax (.mem ⟨some .rsp, none, 0x20#64⟩),
  .adcx .r14 (.reg .rax),
  .adox .r15 (.reg .rbx),
  .adox .r8 (.reg .r9),
  .mulx .rbx .rax (.mem ⟨some .rsp, none, 0x28#64⟩),
  .adc (.reg .r15) (.reg .rax),
  .adc (.reg .r8) (.reg .rbx),
  .adc (.reg .r9) (.reg .r9),
  .mov (.reg .rdx) (.reg .r10),
  .shl (.reg .rdx) (.imm 0x20#64),
  .add (.reg .rdx) (.reg .r10),
  .xor (.reg .rbp) (.reg .rbp),
  .mov (.reg .rax) (.imm 0xffffffff00000001#64),
  .mulx .rax .rbx (.reg .rax),
  .mov (.reg .rbx) (.imm 0xffffffff#64),
  .mulx .rbx .r10 (.reg .rbx),
  .adc (.reg .rax) (.reg .r10),
  .adc (.reg .rbx) (.reg .rdx),
  .adc32 .rbp .rbp,
  .sub (.reg .r11) (.reg .rax),
  .sbb (.reg .r12) (.reg .rbx),
  .sbb (.reg .r13) (.reg .rbp),
  .sbb (.reg .r14) (.imm 0#64),
  .sbb (.reg .r15) (.imm 0#64),
  .sbb (.reg .rdx) (.imm 0#64),
  .add (.reg .r8) (.reg .rdx),
  .adc (.reg .r9) (.imm 0#64),
  .mov (.reg .rdx) (.mem ⟨some .rsp, none, 0x48#64⟩),
  .xor (.reg .r10) (.reg .r10),
  .mulx .rbx .rax (.mem ⟨some .rsp, none, 0#64⟩),
  .adcx .r11 (.reg .rax),
  .adox .r12 (.reg .rbx),
  .mulx .rbx .rax (.mem ⟨some .rsp, none, 8#64⟩),
  .adcx .r12 (.reg .rax),
  .adox .r13 (.reg .rbx),
  .mulx .rbx .rax (.mem ⟨some .rsp, none, 0x10#64⟩),
  .adcx .r13 (.reg .rax),
  .adox .r14 (.reg .rbx),
  .mulx .rbx .rax (.mem ⟨some .rsp, none, 0x18#64⟩),
  .adcx .r14 (.reg .rax),
  .adox .r15 (.reg .rbx),
  .mulx .rbx .rax (.mem ⟨some .rsp, none, 0x20#64⟩),
  .adcx .r15 (.reg .rax),
  .adox .r8 (.reg .rbx),
  .adox .r9 (.reg .r10),
  .mulx .rbx .rax (.mem ⟨some .rsp, none, 0x28#64⟩),
  .adc (.reg .r8) (.reg .rax),
  .adc (.reg .r9) (.reg .rbx),
  .adc (.reg .r10) (.reg .r10),
  .mov (.reg .rdx) (.reg .r11),
  .shl (.reg .rdx) (.imm 0x20#64),
  .add (.reg .rdx) (.reg .r11),
  .xor (.reg .rbp) (.reg .rbp),
  .mov (.reg .rax) (.imm 0xffffffff00000001#64),
  .mulx .rax .rbx (.reg .rax),
  .mov (.reg .rbx) (.imm 0xffffffff#64),
  .mulx .rbx .r11 (.reg .rbx),
  .adc (.reg .rax) (.reg .r11),
  .adc (.reg .rbx) (.reg .rdx),
  .adc32 .rbp .rbp,
  .sub (.reg .r12) (.reg .rax),
  .sbb (.reg .r13) (.reg .rbx),
  .sbb (.reg .r14) (.reg .rbp),
  .sbb (.reg .r15) (.imm 0#64),
  .sbb (.reg .r8) (.imm 0#64),
  .sbb (.reg .rdx) (.imm 0#64),
  .add (.reg .r9) (.reg .rdx),
  .adc (.reg .r10) (.imm 0#64),
  .mov (.reg .rdx) (.mem ⟨some .rsp, none, 0x50#64⟩),
  .xor (.reg .r11) (.reg .r11),
  .mulx .rbx .rax (.mem ⟨some .rsp, none, 0#64⟩),
  .adcx .r12 (.reg .rax),
  .adox .r13 (.reg .rbx),
  .mulx .rbx .rax (.mem ⟨some .rsp, none, 8#64⟩),
  .adcx .r13 (.reg .rax),
  .adox .r14 (.reg .rbx),
  .mulx .rbx .rax (.mem ⟨some .rsp, none, 0x10#64⟩),
  .adcx .r14 (.reg .rax),
  .adox .r15 (.reg .rbx),
  .mulx .rbx .rax (.mem ⟨some .rsp, none, 0x18#64⟩),
  .adcx .r15 (.reg .rax),
  .adox .r8 (.reg .rbx),
  .mulx .rbx .rax (.mem ⟨some .rsp, none, 0x20#64⟩),
  .adcx .r8 (.reg .rax),
  .adox .r9 (.reg .rbx),
  .adox .r10 (.reg .r11),
  .mulx .rbx .rax (.mem ⟨some .rsp, none, 0x28#64⟩),
  .adc (.reg .r9) (.reg .rax),
  .adc (.reg .r10) (.reg .rbx),
  .adc (.reg .r11) (.reg .r11),
  .mov (.reg .rdx) (.reg .r12),
  .shl (.reg .rdx) (.imm 0x20#64),
  .add (.reg .rdx) (.reg .r12),
  .xor (.reg .rbp) (.reg .rbp),
  .mov (.reg .rax) (.imm 0xffffffff00000001#64),
  .mulx .rax .rbx (.reg .rax),
  .mov (.reg .rbx) (.imm 0xffffffff#64),
  .mulx .rbx .r12 (.reg .rbx),
  .adc (.reg .rax) (.reg .r12),
  .adc (.reg .rbx) (.reg .rdx),
  .adc32 .rbp .rbp,
  .sub (.reg .r13) (.reg .rax),
  .sbb (.reg .r14) (.reg .rbx),
  .sbb (.reg .r15) (.reg .rbp),
  .sbb (.reg .r8) (.imm 0#64),
  .sbb (.reg .r9) (.imm 0#64),
  .sbb (.reg .rdx) (.imm 0#64),
  .add (.reg .r10) (.reg .rdx),
  .adc (.reg .r11) (.imm 0#64),
  .mov (.reg .rdx) (.mem ⟨some .rsp, none, 0x58#64⟩),
  .xor (.reg .r12) (.reg .r12),
  .mulx .rbx .rax (.mem ⟨some .rsp, none, 0#64⟩),
  .adcx .r13 (.reg .rax),
  .adox .r14 (.reg .rbx),
  .mulx .rbx .rax (.mem ⟨some .rsp, none, 8#64⟩),
  .adcx .r14 (.reg .rax),
  .adox .r15 (.reg .rbx),
  .mulx .rbx .rax (.mem ⟨some .rsp, none, 0x10#64⟩),
  .adcx .r15 (.reg .rax),
  .adox .r8 (.reg .rbx),
  .mulx .rbx .rax (.mem ⟨some .rsp, none, 0x18#64⟩),
  .adcx .r8 (.reg .rax),
  .adox .r9 (.reg .rbx),
  .mulx .rbx .rax (.mem ⟨some .rsp, none, 0x20#64⟩),
  .adcx .r9 (.reg .rax),
  .adox .r10 (.reg .rbx),
  .adox .r11 (.reg .r12),
  .mulx .rbx .rax (.mem ⟨some .rsp, none, 0x28#64⟩),
  .adc (.reg .r10) (.reg .rax),
  .adc (.reg .r11) (.reg .rbx),
  .adc (.reg .r12) (.reg .r12),
  .mov (.reg .rdx) (.reg .r13),
  .shl (.reg .rdx) (.imm 0x20#64),
  .add (.reg .rdx) (.reg .r13),
  .xor (.reg .rbp) (.reg .rbp),
  .mov (.reg .rax) (.imm 0xffffffff00000001#64),
  .mulx .rax .rbx (.reg .rax),
  .mov (.reg .rbx) (.imm 0xffffffff#64),
  .mulx .rbx .r13 (.reg .rbx),
  .adc (.reg .rax) (.reg .r13),
  .adc (.reg .rbx) (.reg .rdx),
  .adc32 .rbp .rbp,
  .sub (.reg .r14) (.reg .rax),
  .sbb (.reg .r15) (.reg .rbx),
  .sbb (.reg .r8) (.reg .rbp),
  .sbb (.reg .r9) (.imm 0#64),
  .sbb (.reg .r10) (.imm 0#64),
  .sbb (.reg .rdx) (.imm 0#64),
  .add (.reg .r11) (.reg .rdx),
  .adc (.reg .r12) (.imm 0#64),
  .xor (.reg .rdx) (.reg .rdx),
  .xor (.reg .rbp) (.reg .rbp),
  .xor (.reg .r13) (.reg .r13),
  .mov (.reg .rax) (.imm 0xffffffff00000001#64),
  .add (.reg .rax) (.reg .r14),
  .mov (.reg .rbx) (.imm 0xffffffff#64),
  .adc (.reg .rbx) (.reg .r15),
  .mov (.reg .rcx) (.imm 1#64),
  .adc (.reg .rcx) (.reg .r8),
  .adc (.reg .rdx) (.reg .r9),
  .adc (.reg .rbp) (.reg .r10),
  .adc (.reg .r13) (.reg .r11),
  .adc (.reg .r12) (.imm 0#64),
  .cmov .nz .r14 (.reg .rax),
  .cmov .nz .r15 (.reg .rbx),
  .cmov .nz .r8 (.reg .rcx),
  .cmov .nz .r9 (.reg .rdx),
  .cmov .nz .r10 (.reg .rbp),
  .cmov .nz .r11 (.reg .r13)]
def outs : List Reg := [.r14, .r15, .r8, .r9, .r10, .r11]
def X : List Nat := [0, 1, 2, 3, 4, 5]
def Y : List Nat := [6, 7, 8, 9, 10, 11]
def M : List Nat := [40, 109, 178, 247, 316, 385]
def E : List Nat := [13, 68, 137, 206, 275, 344]
def L : List Nat := [42, 111, 180, 249, 318, 387]
def V : List Nat := [395, 397, 399, 401, 403, 407]
def t : Nat := 409
def U : List Nat := [411, 413, 415, 417, 419, 421]
def D : Nat := 423
def c : Nat := 424
def Z : List Nat := [425, 426, 427, 428, 429, 430]
def hints : List (Nat × Hint) := [(13, ⟨18446744073709551616, [(1, 1)], false⟩),
  (30, ⟨39402006196394479212279040100143613805079739270465446667948293404245721771497210611414266254884915640806627990306816, [(42, 18446744073709551616), (38, 340282366920938463463374607431768211456), (34, 6277101735386680763835789423207666416102355444464034512896), (30, 115792089237316195423570985008687907853269984665640564039457584007913129639936), (26, 2135987035920910082395021706169552114602704522356652769947041607822219725780640550022962086936576), (19, 39402006196394479212279040100143613805079739270465446667948293404245721771496870329047266088258938001861606973112319), (17, 1), (9, (-18446744073709551616)), (7, (-340282366920938463463374607431768211456)), (5, (-6277101735386680763835789423207666416102355444464034512896)), (3, (-115792089237316195423570985008687907853269984665640564039457584007913129639936)), (1, (-2135987035920910082395021706169552114602704522356652769947041607822219725780640550022962086936576))], false⟩),
  (71, ⟨39402006196394479212279040100143613805079739270465446667948293404245721771497210611414266254884915640806627990306816, [(54, 18446744073709551616), (48, 340282366920938463463374607431768211456), (42, 6277101735386680763835789423207666416102355444464034512896), (36, 115792089237316195423570985008687907853269984665640564039457584007913129639936), (28, 2135987035920910082395021706169552114602704522356652769947041607822219725780640550022962086936576), (19, 39402006196394479212279040100143613805079739270465446667948293404245721771496870329047266088258938001861606973112319), (17, 1), (9, (-18446744073709551616)), (7, (-340282366920938463463374607431768211456)), (5, (-6277101735386680763835789423207666416102355444464034512896)), (3, (-115792089237316195423570985008687907853269984665640564039457584007913129639936)), (1, (-2135987035920910082395021706169552114602704522356652769947041607822219725780640550022962086936576))], false⟩),
  (112, ⟨39402006196394479212279040100143613805079739270465446667948293404245721771497210611414266254884915640806627990306816, [(54, 18446744073709551616), (48, 340282366920938463463374607431768211456), (42, 6277101735386680763835789423207666416102355444464034512896), (36, 115792089237316195423570985008687907853269984665640564039457584007913129639936), (28, 2135987035920910082395021706169552114602704522356652769947041607822219725780640550022962086936576), (19, 39402006196394479212279040100143613805079739270465446667948293404245721771496870329047266088258938001861606973112319), (17, 1), (9, (-18446744073709551616)), (7, (-340282366920938463463374607431768211456)), (5, (-6277101735386680763835789423207666416102355444464034512896)), (3, (-115792089237316195423570985008687907853269984665640564039457584007913129639936)), (1, (-2135987035920910082395021706169552114602704522356652769947041607822219725780640550022962086936576))], false⟩),
  (153, ⟨39402006196394479212279040100143613805079739270465446667948293404245721771497210611414266254884915640806627990306816, [(54, 18446744073709551616), (48, 340282366920938463463374607431768211456), (42, 6277101735386680763835789423207666416102355444464034512896), (36, 115792089237316195423570985008687907853269984665640564039457584007913129639936), (28, 2135987035920910082395021706169552114602704522356652769947041607822219725780640550022962086936576), (19, 39402006196394479212279040100143613805079739270465446667948293404245721771496870329047266088258938001861606973112319), (17, 1), (9, (-18446744073709551616)), (7, (-340282366920938463463374607431768211456)), (5, (-6277101735386680763835789423207666416102355444464034512896)), (3, (-115792089237316195423570985008687907853269984665640564039457584007913129639936)), (1, (-2135987035920910082395021706169552114602704522356652769947041607822219725780640550022962086936576))], false⟩),
  (194, ⟨39402006196394479212279040100143613805079739270465446667948293404245721771497210611414266254884915640806627990306816, [(54, 18446744073709551616), (48, 340282366920938463463374607431768211456), (42, 6277101735386680763835789423207666416102355444464034512896), (36, 115792089237316195423570985008687907853269984665640564039457584007913129639936), (28, 2135987035920910082395021706169552114602704522356652769947041607822219725780640550022962086936576), (19, 39402006196394479212279040100143613805079739270465446667948293404245721771496870329047266088258938001861606973112319), (17, 1), (9, (-18446744073709551616)), (7, (-340282366920938463463374607431768211456)), (5, (-6277101735386680763835789423207666416102355444464034512896)), (3, (-115792089237316195423570985008687907853269984665640564039457584007913129639936)), (1, (-2135987035920910082395021706169552114602704522356652769947041607822219725780640550022962086936576))], false⟩),
  (235, ⟨39402006196394479212279040100143613805079739270465446667948293404245721771497210611414266254884915640806627990306816, [(54, 18446744073709551616), (48, 340282366920938463463374607431768211456), (42, 6277101735386680763835789423207666416102355444464034512896), (36, 115792089237316195423570985008687907853269984665640564039457584007913129639936), (28, 2135987035920910082395021706169552114602704522356652769947041607822219725780640550022962086936576), (19, 39402006196394479212279040100143613805079739270465446667948293404245721771496870329047266088258938001861606973112319), (17, 1), (9, (-18446744073709551616)), (7, (-340282366920938463463374607431768211456)), (5, (-6277101735386680763835789423207666416102355444464034512896)), (3, (-115792089237316195423570985008687907853269984665640564039457584007913129639936)), (1, (-2135987035920910082395021706169552114602704522356652769947041607822219725780640550022962086936576))], false⟩)]
def steps : List Step := [
  ⟨40, 13, 37, 41, 43, 42⟩,
  ⟨109, 68, 106, 110, 112, 111⟩,
  ⟨178, 137, 175, 179, 181, 180⟩,
  ⟨247, 206, 244, 248, 250, 249⟩,
  ⟨316, 275, 313, 317, 319, 318⟩,
  ⟨385, 344, 382, 386, 388, 387⟩]
def claims : List Claim := steps.flatMap Step.claims ++ [
  .rel [.lin 0x1000000000000000000000000000000000000000000000000000000000000000000000000000000000000000000000000 V, .lin 0x1000000000000000000000000000000000000000000000000000000000000000000000000000000000000000000000000000000000000000000000000000000000000000000000000000000000000000000000000000000000000000000000000 [t], .lin (-0xfffffffffffffffffffffffffffffffffffffffffffffffffffffffffffffffeffffffff0000000000000000ffffffff) M, .lin (-0x1) L, .lin 0x1 E, .mul (-0x1) X Y],
  .rel [.lin 0x1 U, .lin 0x1000000000000000000000000000000000000000000000000000000000000000000000000000000000000000000000000 [D], .lin 0x10000000000000000000000000000000000000000000000000000000000000000000000000000000000000000000000000000000000000000 [c], .one (-0x100000000ffffffffffffffff00000001), .lin (-0x1) V, .lin (-0x1000000000000000000000000000000000000000000000000000000000000000000000000000000000000000000000000) [t]],
  .selz Z D V U,
  .reg outs Z,
  .le c 0x1]
set_option maxRecDepth 100000 in
theorem verified : verify [⟨.rsp, 13, 0, true⟩] [0] hints body claims = true := by decide +kernel
def mac : Mac := ⟨16, 6, 6, body, outs, [.rax, .rbx, .rcx, .rdx, .rbp, .r8, .r9, .r10, .r11, .r12, .r13, .r14, .r15]⟩
end Mul384

namespace Sqr384
def body : Prog := [
  .mov (.reg .rdx) (.mem ⟨some .rsp, none, 0#64⟩),
  .mulx .r10 .r9 (.mem ⟨some .rsp, none, 8#64⟩),
  .mulx .r12 .r11 (.mem ⟨some .rsp, none, 0x18#64⟩),
  .mulx .r14 .r13 (.mem ⟨some .rsp, none, 0x28#64⟩),
  .mov (.reg .rdx) (.mem ⟨some .rsp, none, 0x18#64⟩),
  .mulx .rcx .r15 (.mem ⟨some .rsp, none, 0x20#64⟩),
  .xor (.reg .rbp) (.reg .rbp),
  .mov (.reg .rdx) (.mem ⟨some .rsp, none, 0x10#64⟩),
  .mulx .rbx .rax (.mem ⟨some .rsp, none, 0#64⟩),
  .adcx .r10 (.reg .rax),
  .adox .r11 (.reg .rbx),
  .mulx .rbx .rax (.mem ⟨some .rsp, none, 8#64⟩),
  .adcx .r11 (.reg .rax),
  .adox .r12 (.reg .rbx),
  .mov (.reg .rdx) (.mem ⟨some .rsp, none, 8#64⟩),
  .mulx .rbx .rax (.mem ⟨some .rsp, none, 0x18#64⟩),
  .adcx .r12 (.reg .rax),
  .adox .r13 (.reg .rbx),
  .mulx .rbx .rax (.mem ⟨some .rsp, none, 0x20#64⟩),
  .adcx .r13 (.reg .rax),
  .adox .r14 (.reg .rbx),
  .mulx .rbx .rax (.mem ⟨some .rsp, none, 0x28#64⟩),
  .adcx .r14 (.reg .rax),
  .adox .r15 (.reg .rbx),
  .adcx .r15 (.reg .rbp),
  .adox .rcx (.reg .rbp),
  .adc (.reg .rcx) (.reg .rbp),
  .xor (.reg .rbp) (.reg .rbp),
  .mov (.reg .rdx) (.mem ⟨some .rsp, none, 0x20#64⟩),
  .mulx .rbx .rax (.mem ⟨some .rsp, none, 0#64⟩),
  .adcx .r12 (.reg .rax),
  .adox .r13 (.reg .rbx),
  .mov (.reg .rdx) (.mem ⟨some .rsp, none, 0x10#64⟩),
  .mulx .rbx .rax (.mem ⟨some .rsp, none, 0x18#64⟩),
  .adcx .r13 (.reg .rax),
  .adox .r14 (.reg .rbx),
  .mulx .rbx .rax (.mem ⟨some .rsp, none, 0x20#64⟩),
  .adcx .r14 (.reg .rax),
  .adox .r15 (.reg .rbx),
  .mulx .rdx .rax (.mem ⟨some .rsp, none, 0x28#64⟩),
  .adcx .r15 (.reg .rax),
  .adox .rcx (.reg .rdx),
  .mov (.reg .rdx) (.mem ⟨some .rsp, none, 0x28#64⟩),
  .mulx .rbp .rbx (.mem ⟨some .rsp, none, 0x20#64⟩),
  .mulx .rdx .rax (.mem ⟨some .rsp, none, 0x18#64⟩),
  .adcx .rcx (.reg .rax),
  .adox .rbx (.reg .rdx),
  .mov (.reg .rax) (.imm 0#64),
  .adcx .rbx (.reg .rax),
  .adox .rbp (.reg .rax),
  .adc (.reg .rbp) (.reg .rax),
  .xor (.reg .rax) (.reg .rax),
  .mov (.reg .rdx) (.mem ⟨some .rsp, none, 0#64⟩),
  .mulx .rax .r8 (.mem ⟨some .rsp, none, 0#64⟩),
  .adcx .r9 (.reg .r9),
  .adox .r9 (.reg .rax),
  .mov (.reg .rdx) (.mem ⟨some .rsp, none, 8#64⟩),
  .mulx .rdx .rax (.reg .rdx),
  .adcx .r10 (.reg .r10),
  .adox .r10 (.reg .rax),
  .adcx .r11 (.reg .r11),
  .adox .r11 (.reg .rdx),
  .mov (.reg .rdx) (.mem ⟨some .rsp, none, 0x10#64⟩),
  .mulx .rdx .rax (.reg .rdx),
  .adcx .r12 (.reg .r12),
  .adox .r12 (.reg .rax),
  .adcx .r13 (.reg .r13),
  .adox .r13 (.reg .rdx),
  .mov (.reg .rdx) (.mem ⟨some .rsp, none, 0x18#64⟩),
  .mulx .rdx .rax (.reg .rdx),
  .adcx .r14 (.reg .r14),
  .adox .r14 (.reg .rax),
  .adcx .r15 (.reg .r15),
  .adox .r15 (.reg .rdx),
  .mov (.reg .rdx) (.mem ⟨some .rsp, none, 0x20#64⟩),
  .mulx .rdx .rax (.reg .rdx),
  .adcx .rcx (.reg .rcx),
  .adox .rcx (.reg .rax),
  .adcx .rbx (.reg .rbx),
  .adox .rbx (.reg .rdx),
  .mov (.reg .rdx) (.mem ⟨some .rsp, none, 0x28#64⟩),
  .mulx .rsi .rax (.reg .rdx),
  .adcx .rbp (.reg .rbp),
  .adox .rbp (.reg .rax),
  .mov (.reg .rax) (.imm 0#64),
  .adcx .rsi (.reg .rax),
  .adox .rsi (.reg .rax),
  .mov (.mem ⟨some .rsp, none, 0x30#64⟩) (.reg .rbx),
  .mov (.reg .rdx) (.reg .r8),
  .shl (.reg .rdx) (.imm 0x20#64),
  .add (.reg .rdx) (.reg .r8),
  .mov (.reg .rax) (.imm 0xffffffff00000001#64),
  .mulx .rax .r8 (.reg .rax),
  .mov (.reg .rbx) (.imm 0xffffffff#64),
  .mulx .r8 .rbx (.reg .rbx),
  .add (.reg .rax) (.reg .rbx),
  .adc (.reg .r8) (.reg .rdx),
  .mov (.reg .rbx) (.imm 0#64),
  .adc (.reg .rbx) (.reg .rbx),
  .sub (.reg .r9) (.reg .rax),
  .sbb (.reg .r10) (.reg .r8),
  .sbb (.reg .r11) (.reg .rbx),
  .sbb (.reg .r12) (.imm 0#64),
  .sbb (.reg .r13) (.imm 0#64),
  .mov (.reg .r8) (.reg .rdx),
  .sbb (.reg .r8) (.imm 0#64),
  .mov (.reg .rdx) (.reg .r9),
  .shl (.reg .rdx) (.imm 0x20#64),
  .add (.reg .rdx) (.reg .r9),
  .mov (.reg .rax) (.imm 0xffffffff00000001#64),
  .mulx .rax .r9 (.reg .rax),
  .mov (.reg .rbx) (.imm 0xffffffff#64),
  .mulx .r9 .rbx (.reg .rbx),
  .add (.reg .rax) (.reg .rbx),
  .adc (.reg .r9) (.reg .rdx),
  .mov (.reg .rbx) (.imm 0#64),
  .adc (.reg .rbx) (.reg .rbx),
  .sub (.reg .r10) (.reg .rax),
  .sbb (.reg .r11) (.reg .r9),
  .sbb (.reg .r12) (.reg .rbx),
  .sbb (.reg .r13) (.imm 0#64),
  .sbb (.reg .r8) (.imm 0#64),
  .mov (.reg .r9) (.reg .rdx),
  .sbb (.reg .r9) (.imm 0#64),
  .mov (.reg .rdx) (.reg .r10),
  .shl (.reg .rdx) (.imm 0x20#64),
  .add (.reg .rdx) (.reg .r10),
  .mov (.reg .rax) (.imm 0xffffffff00000001#64),
  .mulx .rax .r10 (.reg .rax),
  .mov (.reg .rbx) (.imm 0xffffffff#64),
  .mulx .r10 .rbx (.reg .rbx),
  .add (.reg .rax) (.reg .rbx),
  .adc (.reg .r10) (.reg .rdx),
  .mov (.reg .rbx) (.imm 0#64),
  .adc (.reg .rbx) (.reg .rbx),
  .sub (.reg .r11) (.reg .rax),
  .sbb (.reg .r12) (.reg .r10),
  .sbb (.reg .r13) (.reg .rbx),
  .sbb (.reg .r8) (.imm 0#64),
  .sbb (.reg .r9) (.imm 0#64),
  .mov (.reg .r10) (.reg .rdx),
  .sbb (.reg .r10) (.imm 0#64),
  .mov (.reg .rdx) (.reg .r11),
  .shl (.reg .rdx) (.imm 0x20#64),
  .add (.reg .rdx) (.reg .r11),
  .mov (.reg .rax) (.imm 0xffffffff00000001#64),
  .mulx .rax .r11 (.reg .rax),
  .mov (.reg .rbx) (.imm 0xffffffff#64),
  .mulx .r11 .rbx (.reg .rbx),
  .add (.reg .rax) (.reg .rbx),
  .adc (.reg .r11) (.reg .rdx),
  .mov (.reg .rbx) (.imm 0#64),
  .adc (.reg .rbx) (.reg .rbx),
  .sub (.reg .r12) (.reg .rax),
  .sbb (.reg .r13) (.reg .r11),
  .sbb (.reg .r8) (.reg .rbx),
  .sbb (.reg .r9) (.imm 0#64),
  .sbb (.reg .r10) (.imm 0#64),
  .mov (.reg .r11) (.reg .rdx),
  .sbb (.reg .r11) (.imm 0#64),
  .mov (.reg .rdx) (.reg .r12),
  .shl (.reg .rdx) (.imm 0x20#64),
  .add (.reg .rdx) (.reg .r12),
  .mov (.reg .rax) (.imm 0xffffffff00000001#64),
  .mulx .rax .r12 (.reg .rax),
  .mov (.reg .rbx) (.imm 0xffffffff#64),
  .mulx .r12 .rbx (.reg .rbx),
  .add (.reg .rax) (.reg .rbx),
  .adc (.reg .r12) (.reg .rdx),
  .mov (.reg .rbx) (.imm 0#64),
  .adc (.reg .rbx) (.reg .rbx),
  .sub (.reg .r13) (.reg .rax),
  .sbb (.reg .r8) (.reg .r12),
  .sbb (.reg .r9) (.reg .rbx),
  .sbb (.reg .r10) (.imm 0#64),
  .sbb (.reg .r11) (.imm 0#64),
  .mov (.reg .r12) (.reg .rdx),
  .sbb (.reg .r12) (.imm 0#64),
  .mov (.reg .rdx) (.reg .r13),
  .shl (.reg .rdx) (.imm 0x20#64),
  .add (.reg .rdx) (.reg .r13),
  .mov (.reg .rax) (.imm 0xffffffff00000001#64),
  .mulx .rax .r13 (.reg .rax),
  .mov (.reg .rbx) (.imm 0xffffffff#64),
  .mulx .r13 .rbx (.reg .rbx),
  .add (.reg .rax) (.reg .rbx),
  .adc (.reg .r13) (.reg .rdx),
  .mov (.reg .rbx) (.imm 0#64),
  .adc (.reg .rbx) (.reg .rbx),
  .sub (.reg .r8) (.reg .rax),
  .sbb (.reg .r9) (.reg .r13),
  .sbb (.reg .r10) (.reg .rbx),
  .sbb (.reg .r11) (.imm 0#64),
  .sbb (.reg .r12) (.imm 0#64),
  .mov (.reg .r13) (.reg .rdx),
  .sbb (.reg .r13) (.imm 0#64),
  .mov (.reg .rbx) (.mem ⟨some .rsp, none, 0x30#64⟩),
  .add (.reg .r14) (.reg .r8),
  .adc (.reg .r15) (.reg .r9),
  .adc (.reg .rcx) (.reg .r10),
  .adc (.reg .rbx) (.reg .r11),
  .adc (.reg .rbp) (.reg .r12),
  .adc (.reg .rsi) (.reg .r13),
  .mov (.reg .r8) (.imm 0#64),
  .adc (.reg .r8) (.reg .r8),
  .xor (.reg .r11) (.reg .r11),
  .xor (.reg .r12) (.reg .r12),
  .xor (.reg .r13) (.reg .r13),
  .mov (.reg .rax) (.imm 0xffffffff00000001#64),
  .add (.reg .rax) (.reg .r14),
  .mov (.reg .r9) (.imm 0xffffffff#64),
  .adc (.reg .r9) (.reg .r15),
  .mov (.reg .r10) (.imm 1#64),
  .adc (.reg .r10) (.reg .rcx),
  .adc (.reg .r11) (.reg .rbx),
  .adc (.reg .r12) (.reg .rbp),
  .adc (.reg .r13) (.reg .rsi),
  .adc (.reg .r8) (.imm 0#64),
  .cmov .nz .r14 (.reg .rax),
  .cmov .nz .r15 (.reg .r9),
  .cmov .nz .rcx (.reg .r10),
  .cmov .nz .rbx (.reg .r11),
  .cmov .nz .rbp (.reg .r12),
  .cmov .nz .rsi (.reg .r13)]
def outs : List Reg := [.r14, .r15, .rcx, .rbx, .rbp, .rsi]
def X : List Nat := [0, 1, 2, 3, 4, 5]
def M : List Nat := [148, 175, 202, 229, 256, 283]
def E : List Nat := [89, 160, 187, 214, 241, 268]
def L : List Nat := [150, 177, 204, 231, 258, 285]
def V : List Nat := [307, 309, 311, 313, 315, 317]
def t : Nat := 318
def U : List Nat := [321, 323, 325, 327, 329, 331]
def D : Nat := 333
def c : Nat := 334
def Z : List Nat := [335, 336, 337, 338, 339, 340]
def hints : List (Nat × Hint) := [(25, ⟨18446744073709551616, [(3, 1)], false⟩),
  (26, ⟨18446744073709551616, [(3, 1)], false⟩),
  (49, ⟨18446744073709551616, [(3, 1)], false⟩),
  (50, ⟨18446744073709551616, [(3, 1)], false⟩),
  (85, ⟨340282366920938463463374607431768211456, [(9, 1), (5, 18446744073709551616), (3, 18446744073709551616)], false⟩),
  (86, ⟨39402006196394479212279040100143613805079739270465446667948293404245721771497210611414266254884915640806627990306816, [(29, 1), (23, 18446744073709551616), (19, 340282366920938463463374607431768211456), (13, 6277101735386680763835789423207666416102355444464034512896), (9, 115792089237316195423570985008687907853269984665640564039457584007913129639936), (3, 2135987035920910082395021706169552114602704522356652769947041607822219725780640550022962086936576)], false⟩),
  (105, ⟨39402006196394479212279040100143613805079739270465446667948293404245721771497210611414266254884915640806627990306816, [(76, 18446744073709551616), (70, 340282366920938463463374607431768211456), (66, 6277101735386680763835789423207666416102355444464034512896), (60, 115792089237316195423570985008687907853269984665640564039457584007913129639936), (56, 2135987035920910082395021706169552114602704522356652769947041607822219725780640550022962086936576), (21, 39402006196394479212279040100143613805079739270465446667948293404245721771496870329047266088258938001861606973112319), (19, 1), (9, (-18446744073709551616)), (7, (-340282366920938463463374607431768211456)), (5, (-6277101735386680763835789423207666416102355444464034512896)), (3, (-115792089237316195423570985008687907853269984665640564039457584007913129639936)), (1, (-2135987035920910082395021706169552114602704522356652769947041607822219725780640550022962086936576))], false⟩),
  (123, ⟨39402006196394479212279040100143613805079739270465446667948293404245721771497210611414266254884915640806627990306816, [(34, 18446744073709551616), (32, 340282366920938463463374607431768211456), (30, 6277101735386680763835789423207666416102355444464034512896), (28, 115792089237316195423570985008687907853269984665640564039457584007913129639936), (26, 2135987035920910082395021706169552114602704522356652769947041607822219725780640550022962086936576), (21, 39402006196394479212279040100143613805079739270465446667948293404245721771496870329047266088258938001861606973112319), (19, 1), (9, (-18446744073709551616)), (7, (-340282366920938463463374607431768211456)), (5, (-6277101735386680763835789423207666416102355444464034512896)), (3, (-115792089237316195423570985008687907853269984665640564039457584007913129639936)), (1, (-2135987035920910082395021706169552114602704522356652769947041607822219725780640550022962086936576))], false⟩),
  (141, ⟨39402006196394479212279040100143613805079739270465446667948293404245721771497210611414266254884915640806627990306816, [(34, 18446744073709551616), (32, 340282366920938463463374607431768211456), (30, 6277101735386680763835789423207666416102355444464034512896), (28, 115792089237316195423570985008687907853269984665640564039457584007913129639936), (26, 2135987035920910082395021706169552114602704522356652769947041607822219725780640550022962086936576), (21, 39402006196394479212279040100143613805079739270465446667948293404245721771496870329047266088258938001861606973112319), (19, 1), (9, (-18446744073709551616)), (7, (-340282366920938463463374607431768211456)), (5, (-6277101735386680763835789423207666416102355444464034512896)), (3, (-115792089237316195423570985008687907853269984665640564039457584007913129639936)), (1, (-2135987035920910082395021706169552114602704522356652769947041607822219725780640550022962086936576))], false⟩),
  (159, ⟨39402006196394479212279040100143613805079739270465446667948293404245721771497210611414266254884915640806627990306816, [(34, 18446744073709551616), (32, 340282366920938463463374607431768211456), (30, 6277101735386680763835789423207666416102355444464034512896), (28, 115792089237316195423570985008687907853269984665640564039457584007913129639936), (26, 2135987035920910082395021706169552114602704522356652769947041607822219725780640550022962086936576), (21, 39402006196394479212279040100143613805079739270465446667948293404245721771496870329047266088258938001861606973112319), (19, 1), (9, (-18446744073709551616)), (7, (-340282366920938463463374607431768211456)), (5, (-6277101735386680763835789423207666416102355444464034512896)), (3, (-115792089237316195423570985008687907853269984665640564039457584007913129639936)), (1, (-2135987035920910082395021706169552114602704522356652769947041607822219725780640550022962086936576))], false⟩),
  (177, ⟨39402006196394479212279040100143613805079739270465446667948293404245721771497210611414266254884915640806627990306816, [(34, 18446744073709551616), (32, 340282366920938463463374607431768211456), (30, 6277101735386680763835789423207666416102355444464034512896), (28, 115792089237316195423570985008687907853269984665640564039457584007913129639936), (26, 2135987035920910082395021706169552114602704522356652769947041607822219725780640550022962086936576), (21, 39402006196394479212279040100143613805079739270465446667948293404245721771496870329047266088258938001861606973112319), (19, 1), (9, (-18446744073709551616)), (7, (-340282366920938463463374607431768211456)), (5, (-6277101735386680763835789423207666416102355444464034512896)), (3, (-115792089237316195423570985008687907853269984665640564039457584007913129639936)), (1, (-2135987035920910082395021706169552114602704522356652769947041607822219725780640550022962086936576))], false⟩),
  (195, ⟨39402006196394479212279040100143613805079739270465446667948293404245721771497210611414266254884915640806627990306816, [(34, 18446744073709551616), (32, 340282366920938463463374607431768211456), (30, 6277101735386680763835789423207666416102355444464034512896), (28, 115792089237316195423570985008687907853269984665640564039457584007913129639936), (26, 2135987035920910082395021706169552114602704522356652769947041607822219725780640550022962086936576), (21, 39402006196394479212279040100143613805079739270465446667948293404245721771496870329047266088258938001861606973112319), (19, 1), (9, (-18446744073709551616)), (7, (-340282366920938463463374607431768211456)), (5, (-6277101735386680763835789423207666416102355444464034512896)), (3, (-115792089237316195423570985008687907853269984665640564039457584007913129639936)), (1, (-2135987035920910082395021706169552114602704522356652769947041607822219725780640550022962086936576))], false⟩)]
def steps : List Step := [
  ⟨148, 89, 145, 149, 151, 150⟩,
  ⟨175, 160, 172, 176, 178, 177⟩,
  ⟨202, 187, 199, 203, 205, 204⟩,
  ⟨229, 214, 226, 230, 232, 231⟩,
  ⟨256, 241, 253, 257, 259, 258⟩,
  ⟨283, 268, 280, 284, 286, 285⟩]
def claims : List Claim := steps.flatMap Step.claims ++ [
  .rel [.lin 0x1000000000000000000000000000000000000000000000000000000000000000000000000000000000000000000000000 V, .lin 0x1000000000000000000000000000000000000000000000000000000000000000000000000000000000000000000000000000000000000000000000000000000000000000000000000000000000000000000000000000000000000000000000000 [t], .lin (-0xfffffffffffffffffffffffffffffffffffffffffffffffffffffffffffffffeffffffff0000000000000000ffffffff) M, .lin (-0x1) L, .lin 0x1 E, .mul (-0x1) X X],
  .rel [.lin 0x1 U, .lin 0x1000000000000000000000000000000000000000000000000000000000000000000000000000000000000000000000000 [D], .lin 0x10000000000000000000000000000000000000000000000000000000000000000000000000000000000000000000000000000000000000000 [c], .one (-0x100000000ffffffffffffffff00000001), .lin (-0x1) V, .lin (-0x1000000000000000000000000000000000000000000000000000000000000000000000000000000000000000000000000) [t]],
  .selz Z D V U,
  .reg outs Z,
  .le c 0x1]
set_option maxRecDepth 100000 in
theorem verified : verify [⟨.rsp, 7, 0, true⟩] [0] hints body claims = true := by decide +kernel
def mac : Mac := ⟨17, 6, 0, body, outs, [.rax, .rbx, .rcx, .rdx, .rsi, .rbp, .r8, .r9, .r10, .r11, .r12, .r13, .r14, .r15]⟩
end Sqr384

namespace Sqs384
def body : Prog := [
  .mov (.reg .rdx) (.mem ⟨some .rsp, none, 0#64⟩),
  .mulx .r10 .r9 (.mem ⟨some .rsp, none, 8#64⟩),
  .mulx .r12 .r11 (.mem ⟨some .rsp, none, 0x18#64⟩),
  .mulx .r14 .r13 (.mem ⟨some .rsp, none, 0x28#64⟩),
  .mov (.reg .rdx) (.mem ⟨some .rsp, none, 0x18#64⟩),
  .mulx .rcx .r15 (.mem ⟨some .rsp, none, 0x20#64⟩),
  .xor (.reg .rbp) (.reg .rbp),
  .mov (.reg .rdx) (.mem ⟨some .rsp, none, 0x10#64⟩),
  .mulx .rbx .rax (.mem ⟨some .rsp, none, 0#64⟩),
  .adcx .r10 (.reg .rax),
  .adox .r11 (.reg .rbx),
  .mulx .rbx .rax (.mem ⟨some .rsp, none, 8#64⟩),
  .adcx .r11 (.reg .rax),
  .adox .r12 (.reg .rbx),
  .mov (.reg .rdx) (.mem ⟨some .rsp, none, 8#64⟩),
  .mulx .rbx .rax (.mem ⟨some .rsp, none, 0x18#64⟩),
  .adcx .r12 (.reg .rax),
  .adox .r13 (.reg .rbx),
  .mulx .rbx .rax (.mem ⟨some .rsp, none, 0x20#64⟩),
  .adcx .r13 (.reg .rax),
  .adox .r14 (.reg .rbx),
  .mulx .rbx .rax (.mem ⟨some .rsp, none, 0x28#64⟩),
  .adcx .r14 (.reg .rax),
  .adox .r15 (.reg .rbx),
  .adcx .r15 (.reg .rbp),
  .adox .rcx (.reg .rbp),
  .adc (.reg .rcx) (.reg .rbp),
  .xor (.reg .rbp) (.reg .rbp),
  .mov (.reg .rdx) (.mem ⟨some .rsp, none, 0x20#64⟩),
  .mulx .rbx .rax (.mem ⟨some .rsp, none, 0#64⟩),
  .adcx .r12 (.reg .rax),
  .adox .r13 (.reg .rbx),
  .mov (.reg .rdx) (.mem ⟨some .rsp, none, 0x10#64⟩),
  .mulx .rbx .rax (.mem ⟨some .rsp, none, 0x18#64⟩),
  .adcx .r13 (.reg .rax),
  .adox .r14 (.reg .rbx),
  .mulx .rbx .rax (.mem ⟨some .rsp, none, 0x20#64⟩),
  .adcx .r14 (.reg .rax),
  .adox .r15 (.reg .rbx),
  .mulx .rdx .rax (.mem ⟨some .rsp, none, 0x28#64⟩),
  .adcx .r15 (.reg .rax),
  .adox .rcx (.reg .rdx),
  .mov (.reg .rdx) (.mem ⟨some .rsp, none, 0x28#64⟩),
  .mulx .rbp .rbx (.mem ⟨some .rsp, none, 0x20#64⟩),
  .mulx .rdx .rax (.mem ⟨some .rsp, none, 0x18#64⟩),
  .adcx .rcx (.reg .rax),
  .adox .rbx (.reg .rdx),
  .mov (.reg .rax) (.imm 0#64),
  .adcx .rbx (.reg .rax),
  .adox .rbp (.reg .rax),
  .adc (.reg .rbp) (.reg .rax),
  .xor (.reg .rax) (.reg .rax),
  .mov (.reg .rdx) (.mem ⟨some .rsp, none, 0#64⟩),
  .mulx .rax .r8 (.mem ⟨some .rsp, none, 0#64⟩),
  .adcx .r9 (.reg .r9),
  .adox .r9 (.reg .rax),
  .mov (.reg .rdx) (.mem ⟨some .rsp, none, 8#64⟩),
  .mulx .rdx .rax (.reg .rdx),
  .adcx .r10 (.reg .r10),
  .adox .r10 (.reg .rax),
  .adcx .r11 (.reg .r11),
  .adox .r11 (.reg .rdx),
  .mov (.reg .rdx) (.mem ⟨some .rsp, none, 0x10#64⟩),
  .mulx .rdx .rax (.reg .rdx),
  .adcx .r12 (.reg .r12),
  .adox .r12 (.reg .rax),
  .adcx .r13 (.reg .r13),
  .adox .r13 (.reg .rdx),
  .mov (.reg .rdx) (.mem ⟨some .rsp, none, 0x18#64⟩),
  .mulx .rdx .rax (.reg .rdx),
  .adcx .r14 (.reg .r14),
  .adox .r14 (.reg .rax),
  .adcx .r15 (.reg .r15),
  .adox .r15 (.reg .rdx),
  .mov (.reg .rdx) (.mem ⟨some .rsp, none, 0x20#64⟩),
  .mulx .rdx .rax (.reg .rdx),
  .adcx .rcx (.reg .rcx),
  .adox .rcx (.reg .rax),
  .adcx .rbx (.reg .rbx),
  .adox .rbx (.reg .rdx),
  .mov (.reg .rdx) (.mem ⟨some .rsp, none, 0x28#64⟩),
  .mulx .rdi .rax (.reg .rdx),
  .adcx .rbp (.reg .rbp),
  .adox .rbp (.reg .rax),
  .mov (.reg .rax) (.imm 0#64),
  .adcx .rdi (.reg .rax),
  .adox .rdi (.reg .rax),
  .mov (.mem ⟨some .rsp, none, 0x30#64⟩) (.reg .rbx),
  .mov (.reg .rdx) (.reg .r8),
  .shl (.reg .rdx) (.imm 0x20#64),
  .add (.reg .rdx) (.reg .r8),
  .mov (.reg .rax) (.imm 0xffffffff00000001#64),
  .mulx .rax .r8 (.reg .rax),
  .mov (.reg .rbx) (.imm 0xffffffff#64),
  .mulx .r8 .rbx (.reg .rbx),
  .add (.reg .rax) (.reg .rbx),
  .adc (.reg .r8) (.reg .rdx),
  .mov (.reg .rbx) (.imm 0#64),
  .adc (.reg .rbx) (.reg .rbx),
  .sub (.reg .r9) (.reg .rax),
  .sbb (.reg .r10) (.reg .r8),
  .sbb (.reg .r11) (.reg .rbx),
  .sbb (.reg .r12) (.imm 0#64),
  .sbb (.reg .r13) (.imm 0#64),
  .mov (.reg .r8) (.reg .rdx),
  .sbb (.reg .r8) (.imm 0#64),
  .mov (.reg .rdx) (.reg .r9),
  .shl (.reg .rdx) (.imm 0x20#64),
  .add (.reg .rdx) (.reg .r9),
  .mov (.reg .rax) (.imm 0xffffffff00000001#64),
  .mulx .rax .r9 (.reg .rax),
  .mov (.reg .rbx) (.imm 0xffffffff#64),
  .mulx .r9 .rbx (.reg .rbx),
  .add (.reg .rax) (.reg .rbx),
  .adc (.reg .r9) (.reg .rdx),
  .mov (.reg .rbx) (.imm 0#64),
  .adc (.reg .rbx) (.reg .rbx),
  .sub (.reg .r10) (.reg .rax),
  .sbb (.reg .r11) (.reg .r9),
  .sbb (.reg .r12) (.reg .rbx),
  .sbb (.reg .r13) (.imm 0#64),
  .sbb (.reg .r8) (.imm 0#64),
  .mov (.reg .r9) (.reg .rdx),
  .sbb (.reg .r9) (.imm 0#64),
  .mov (.reg .rdx) (.reg .r10),
  .shl (.reg .rdx) (.imm 0x20#64),
  .add (.reg .rdx) (.reg .r10),
  .mov (.reg .rax) (.imm 0xffffffff00000001#64),
  .mulx .rax .r10 (.reg .rax),
  .mov (.reg .rbx) (.imm 0xffffffff#64),
  .mulx .r10 .rbx (.reg .rbx),
  .add (.reg .rax) (.reg .rbx),
  .adc (.reg .r10) (.reg .rdx),
  .mov (.reg .rbx) (.imm 0#64),
  .adc (.reg .rbx) (.reg .rbx),
  .sub (.reg .r11) (.reg .rax),
  .sbb (.reg .r12) (.reg .r10),
  .sbb (.reg .r13) (.reg .rbx),
  .sbb (.reg .r8) (.imm 0#64),
  .sbb (.reg .r9) (.imm 0#64),
  .mov (.reg .r10) (.reg .rdx),
  .sbb (.reg .r10) (.imm 0#64),
  .mov (.reg .rdx) (.reg .r11),
  .shl (.reg .rdx) (.imm 0x20#64),
  .add (.reg .rdx) (.reg .r11),
  .mov (.reg .rax) (.imm 0xffffffff00000001#64),
  .mulx .rax .r11 (.reg .rax),
  .mov (.reg .rbx) (.imm 0xffffffff#64),
  .mulx .r11 .rbx (.reg .rbx),
  .add (.reg .rax) (.reg .rbx),
  .adc (.reg .r11) (.reg .rdx),
  .mov (.reg .rbx) (.imm 0#64),
  .adc (.reg .rbx) (.reg .rbx),
  .sub (.reg .r12) (.reg .rax),
  .sbb (.reg .r13) (.reg .r11),
  .sbb (.reg .r8) (.reg .rbx),
  .sbb (.reg .r9) (.imm 0#64),
  .sbb (.reg .r10) (.imm 0#64),
  .mov (.reg .r11) (.reg .rdx),
  .sbb (.reg .r11) (.imm 0#64),
  .mov (.reg .rdx) (.reg .r12),
  .shl (.reg .rdx) (.imm 0x20#64),
  .add (.reg .rdx) (.reg .r12),
  .mov (.reg .rax) (.imm 0xffffffff00000001#64),
  .mulx .rax .r12 (.reg .rax),
  .mov (.reg .rbx) (.imm 0xffffffff#64),
  .mulx .r12 .rbx (.reg .rbx),
  .add (.reg .rax) (.reg .rbx),
  .adc (.reg .r12) (.reg .rdx),
  .mov (.reg .rbx) (.imm 0#64),
  .adc (.reg .rbx) (.reg .rbx),
  .sub (.reg .r13) (.reg .rax),
  .sbb (.reg .r8) (.reg .r12),
  .sbb (.reg .r9) (.reg .rbx),
  .sbb (.reg .r10) (.imm 0#64),
  .sbb (.reg .r11) (.imm 0#64),
  .mov (.reg .r12) (.reg .rdx),
  .sbb (.reg .r12) (.imm 0#64),
  .mov (.reg .rdx) (.reg .r13),
  .shl (.reg .rdx) (.imm 0x20#64),
  .add (.reg .rdx) (.reg .r13),
  .mov (.reg .rax) (.imm 0xffffffff00000001#64),
  .mulx .rax .r13 (.reg .rax),
  .mov (.reg .rbx) (.imm 0xffffffff#64),
  .mulx .r13 .rbx (.reg .rbx),
  .add (.reg .rax) (.reg .rbx),
  .adc (.reg .r13) (.reg .rdx),
  .mov (.reg .rbx) (.imm 0#64),
  .adc (.reg .rbx) (.reg .rbx),
  .sub (.reg .r8) (.reg .rax),
  .sbb (.reg .r9) (.reg .r13),
  .sbb (.reg .r10) (.reg .rbx),
  .sbb (.reg .r11) (.imm 0#64),
  .sbb (.reg .r12) (.imm 0#64),
  .mov (.reg .r13) (.reg .rdx),
  .sbb (.reg .r13) (.imm 0#64),
  .mov (.reg .rbx) (.mem ⟨some .rsp, none, 0x30#64⟩),
  .add (.reg .r14) (.reg .r8),
  .adc (.reg .r15) (.reg .r9),
  .adc (.reg .rcx) (.reg .r10),
  .adc (.reg .rbx) (.reg .r11),
  .adc (.reg .rbp) (.reg .r12),
  .adc (.reg .rdi) (.reg .r13),
  .mov (.reg .r8) (.imm 0#64),
  .adc (.reg .r8) (.reg .r8),
  .xor (.reg .r11) (.reg .r11),
  .xor (.reg .r12) (.reg .r12),
  .xor (.reg .r13) (.reg .r13),
  .mov (.reg .rax) (.imm 0xffffffff00000001#64),
  .add (.reg .rax) (.reg .r14),
  .mov (.reg .r9) (.imm 0xffffffff#64),
  .adc (.reg .r9) (.reg .r15),
  .mov (.reg .r10) (.imm 1#64),
  .adc (.reg .r10) (.reg .rcx),
  .adc (.reg .r11) (.reg .rbx),
  .adc (.reg .r12) (.reg .rbp),
  .adc (.reg .r13) (.reg .rdi),
  .adc (.reg .r8) (.imm 0#64),
  .cmov .nz .r14 (.reg .rax),
  .cmov .nz .r15 (.reg .r9),
  .cmov .nz .rcx (.reg .r10),
  .cmov .nz .rbx (.reg .r11),
  .cmov .nz .rbp (.reg .r12),
  .cmov .nz .rdi (.reg .r13)]
def outs : List Reg := [.r14, .r15, .rcx, .rbx, .rbp, .rdi]
def X : List Nat := [0, 1, 2, 3, 4, 5]
def M : List Nat := [148, 175, 202, 229, 256, 283]
def E : List Nat := [89, 160, 187, 214, 241, 268]
def L : List Nat := [150, 177, 204, 231, 258, 285]
def V : List Nat := [307, 309, 311, 313, 315, 317]
def t : Nat := 318
def U : List Nat := [321, 323, 325, 327, 329, 331]
def D : Nat := 333
def c : Nat := 334
def Z : List Nat := [335, 336, 337, 338, 339, 340]
def hints : List (Nat × Hint) := [(25, ⟨18446744073709551616, [(3, 1)], false⟩),
  (26, ⟨18446744073709551616, [(3, 1)], false⟩),
  (49, ⟨18446744073709551616, [(3, 1)], false⟩),
  (50, ⟨18446744073709551616, [(3, 1)], false⟩),
  (85, ⟨340282366920938463463374607431768211456, [(9, 1), (5, 18446744073709551616), (3, 18446744073709551616)], false⟩),
  (86, ⟨39402006196394479212279040100143613805079739270465446667948293404245721771497210611414266254884915640806627990306816, [(29, 1), (23, 18446744073709551616), (19, 340282366920938463463374607431768211456), (13, 6277101735386680763835789423207666416102355444464034512896), (9, 115792089237316195423570985008687907853269984665640564039457584007913129639936), (3, 2135987035920910082395021706169552114602704522356652769947041607822219725780640550022962086936576)], false⟩),
  (105, ⟨39402006196394479212279040100143613805079739270465446667948293404245721771497210611414266254884915640806627990306816, [(76, 18446744073709551616), (70, 340282366920938463463374607431768211456), (66, 6277101735386680763835789423207666416102355444464034512896), (60, 115792089237316195423570985008687907853269984665640564039457584007913129639936), (56, 2135987035920910082395021706169552114602704522356652769947041607822219725780640550022962086936576), (21, 39402006196394479212279040100143613805079739270465446667948293404245721771496870329047266088258938001861606973112319), (19, 1), (9, (-18446744073709551616)), (7, (-340282366920938463463374607431768211456)), (5, (-6277101735386680763835789423207666416102355444464034512896)), (3, (-115792089237316195423570985008687907853269984665640564039457584007913129639936)), (1, (-2135987035920910082395021706169552114602704522356652769947041607822219725780640550022962086936576))], false⟩),
  (123, ⟨39402006196394479212279040100143613805079739270465446667948293404245721771497210611414266254884915640806627990306816, [(34, 18446744073709551616), (32, 340282366920938463463374607431768211456), (30, 6277101735386680763835789423207666416102355444464034512896), (28, 115792089237316195423570985008687907853269984665640564039457584007913129639936), (26, 2135987035920910082395021706169552114602704522356652769947041607822219725780640550022962086936576), (21, 39402006196394479212279040100143613805079739270465446667948293404245721771496870329047266088258938001861606973112319), (19, 1), (9, (-18446744073709551616)), (7, (-340282366920938463463374607431768211456)), (5, (-6277101735386680763835789423207666416102355444464034512896)), (3, (-115792089237316195423570985008687907853269984665640564039457584007913129639936)), (1, (-2135987035920910082395021706169552114602704522356652769947041607822219725780640550022962086936576))], false⟩),
  (141, ⟨39402006196394479212279040100143613805079739270465446667948293404245721771497210611414266254884915640806627990306816, [(34, 18446744073709551616), (32, 340282366920938463463374607431768211456), (30, 6277101735386680763835789423207666416102355444464034512896), (28, 115792089237316195423570985008687907853269984665640564039457584007913129639936), (26, 2135987035920910082395021706169552114602704522356652769947041607822219725780640550022962086936576), (21, 39402006196394479212279040100143613805079739270465446667948293404245721771496870329047266088258938001861606973112319), (19, 1), (9, (-18446744073709551616)), (7, (-340282366920938463463374607431768211456)), (5, (-6277101735386680763835789423207666416102355444464034512896)), (3, (-115792089237316195423570985008687907853269984665640564039457584007913129639936)), (1, (-2135987035920910082395021706169552114602704522356652769947041607822219725780640550022962086936576))], false⟩),
  (159, ⟨39402006196394479212279040100143613805079739270465446667948293404245721771497210611414266254884915640806627990306816, [(34, 18446744073709551616), (32, 340282366920938463463374607431768211456), (30, 6277101735386680763835789423207666416102355444464034512896), (28, 115792089237316195423570985008687907853269984665640564039457584007913129639936), (26, 2135987035920910082395021706169552114602704522356652769947041607822219725780640550022962086936576), (21, 39402006196394479212279040100143613805079739270465446667948293404245721771496870329047266088258938001861606973112319), (19, 1), (9, (-18446744073709551616)), (7, (-340282366920938463463374607431768211456)), (5, (-6277101735386680763835789423207666416102355444464034512896)), (3, (-115792089237316195423570985008687907853269984665640564039457584007913129639936)), (1, (-2135987035920910082395021706169552114602704522356652769947041607822219725780640550022962086936576))], false⟩),
  (177, ⟨39402006196394479212279040100143613805079739270465446667948293404245721771497210611414266254884915640806627990306816, [(34, 18446744073709551616), (32, 340282366920938463463374607431768211456), (30, 6277101735386680763835789423207666416102355444464034512896), (28, 115792089237316195423570985008687907853269984665640564039457584007913129639936), (26, 2135987035920910082395021706169552114602704522356652769947041607822219725780640550022962086936576), (21, 39402006196394479212279040100143613805079739270465446667948293404245721771496870329047266088258938001861606973112319), (19, 1), (9, (-18446744073709551616)), (7, (-340282366920938463463374607431768211456)), (5, (-6277101735386680763835789423207666416102355444464034512896)), (3, (-115792089237316195423570985008687907853269984665640564039457584007913129639936)), (1, (-2135987035920910082395021706169552114602704522356652769947041607822219725780640550022962086936576))], false⟩),
  (195, ⟨39402006196394479212279040100143613805079739270465446667948293404245721771497210611414266254884915640806627990306816, [(34, 18446744073709551616), (32, 340282366920938463463374607431768211456), (30, 6277101735386680763835789423207666416102355444464034512896), (28, 115792089237316195423570985008687907853269984665640564039457584007913129639936), (26, 2135987035920910082395021706169552114602704522356652769947041607822219725780640550022962086936576), (21, 39402006196394479212279040100143613805079739270465446667948293404245721771496870329047266088258938001861606973112319), (19, 1), (9, (-18446744073709551616)), (7, (-340282366920938463463374607431768211456)), (5, (-6277101735386680763835789423207666416102355444464034512896)), (3, (-115792089237316195423570985008687907853269984665640564039457584007913129639936)), (1, (-2135987035920910082395021706169552114602704522356652769947041607822219725780640550022962086936576))], false⟩)]
def steps : List Step := [
  ⟨148, 89, 145, 149, 151, 150⟩,
  ⟨175, 160, 172, 176, 178, 177⟩,
  ⟨202, 187, 199, 203, 205, 204⟩,
  ⟨229, 214, 226, 230, 232, 231⟩,
  ⟨256, 241, 253, 257, 259, 258⟩,
  ⟨283, 268, 280, 284, 286, 285⟩]
def claims : List Claim := steps.flatMap Step.claims ++ [
  .rel [.lin 0x1000000000000000000000000000000000000000000000000000000000000000000000000000000000000000000000000 V, .lin 0x1000000000000000000000000000000000000000000000000000000000000000000000000000000000000000000000000000000000000000000000000000000000000000000000000000000000000000000000000000000000000000000000000 [t], .lin (-0xfffffffffffffffffffffffffffffffffffffffffffffffffffffffffffffffeffffffff0000000000000000ffffffff) M, .lin (-0x1) L, .lin 0x1 E, .mul (-0x1) X X],
  .rel [.lin 0x1 U, .lin 0x1000000000000000000000000000000000000000000000000000000000000000000000000000000000000000000000000 [D], .lin 0x10000000000000000000000000000000000000000000000000000000000000000000000000000000000000000000000000000000000000000 [c], .one (-0x100000000ffffffffffffffff00000001), .lin (-0x1) V, .lin (-0x1000000000000000000000000000000000000000000000000000000000000000000000000000000000000000000000000) [t]],
  .selz Z D V U,
  .reg outs Z,
  .le c 0x1]
set_option maxRecDepth 100000 in
theorem verified : verify [⟨.rsp, 7, 0, true⟩] [0] hints body claims = true := by decide +kernel
def mac : Mac := ⟨17, 6, 0, body, outs, [.rax, .rbx, .rcx, .rdx, .rdi, .rbp, .r8, .r9, .r10, .r11, .r12, .r13, .r14, .r15]⟩
end Sqs384

namespace Ams384
def body : Prog := [
  .mov (.reg .rdx) (.mem ⟨some .rsp, none, 0#64⟩),
  .mulx .r10 .r9 (.mem ⟨some .rsp, none, 8#64⟩),
  .mulx .r12 .r11 (.mem ⟨some .rsp, none, 0x18#64⟩),
  .mulx .r14 .r13 (.mem ⟨some .rsp, none, 0x28#64⟩),
  .mov (.reg .rdx) (.mem ⟨some .rsp, none, 0x18#64⟩),
  .mulx .rcx .r15 (.mem ⟨some .rsp, none, 0x20#64⟩),
  .xor (.reg .rbp) (.reg .rbp),
  .mov (.reg .rdx) (.mem ⟨some .rsp, none, 0x10#64⟩),
  .mulx .rbx .rax (.mem ⟨some .rsp, none, 0#64⟩),
  .adcx .r10 (.reg .rax),
  .adox .r11 (.reg .rbx),
  .mulx .rbx .rax (.mem ⟨some .rsp, none, 8#64⟩),
  .adcx .r11 (.reg .rax),
  .adox .r12 (.reg .rbx),
  .mov (.reg .rdx) (.mem ⟨some .rsp, none, 8#64⟩),
  .mulx .rbx .rax (.mem ⟨some .rsp, none, 0x18#64⟩),
  .adcx .r12 (.reg .rax),
  .adox .r13 (.reg .rbx),
  .mulx .rbx .rax (.mem ⟨some .rsp, none, 0x20#64⟩),
  .adcx .r13 (.reg .rax),
  .adox .r14 (.reg .rbx),
  .mulx .rbx .rax (.mem ⟨some .rsp, none, 0x28#64⟩),
  .adcx .r14 (.reg .rax),
  .adox .r15 (.reg .rbx),
  .adcx .r15 (.reg .rbp),
  .adox .rcx (.reg .rbp),
  .adc (.reg .rcx) (.reg .rbp),
  .xor (.reg .rbp) (.reg .rbp),
  .mov (.reg .rdx) (.mem ⟨some .rsp, none, 0x20#64⟩),
  .mulx .rbx .rax (.mem ⟨some .rsp, none, 0#64⟩),
  .adcx .r12 (.reg .rax),
  .adox .r13 (.reg .rbx),
  .mov (.reg .rdx) (.mem ⟨some .rsp, none, 0x10#64⟩),
  .mulx .rbx .rax (.mem ⟨some .rsp, none, 0x18#64⟩),
  .adcx .r13 (.reg .rax),
  .adox .r14 (.reg .rbx),
  .mulx .rbx .rax (.mem ⟨some .rsp, none, 0x20#64⟩),
  .adcx .r14 (.reg .rax),
  .adox .r15 (.reg .rbx),
  .mulx .rdx .rax (.mem ⟨some .rsp, none, 0x28#64⟩),
  .adcx .r15 (.reg .rax),
  .adox .rcx (.reg .rdx),
  .mov (.reg .rdx) (.mem ⟨some .rsp, none, 0x28#64⟩),
  .mulx .rbp .rbx (.mem ⟨some .rsp, none, 0x20#64⟩),
  .mulx .rdx .rax (.mem ⟨some .rsp, none, 0x18#64⟩),
  .adcx .rcx (.reg .rax),
  .adox .rbx (.reg .rdx),
  .mov (.reg .rax) (.imm 0#64),
  .adcx .rbx (.reg .rax),
  .adox .rbp (.reg .rax),
  .adc (.reg .rbp) (.reg .rax),
  .xor (.reg .rax) (.reg .rax),
  .mov (.reg .rdx) (.mem ⟨some .rsp, none, 0#64⟩),
  .mulx .rax .r8 (.mem ⟨some .rsp, none, 0#64⟩),
  .adcx .r9 (.reg .r9),
  .adox .r9 (.reg .rax),
  .mov (.reg .rdx) (.mem ⟨some .rsp, none, 8#64⟩),
  .mulx .rdx .rax (.reg .rdx),
  .adcx .r10 (.reg .r10),
  .adox .r10 (.reg .rax),
  .adcx .r11 (.reg .r11),
  .adox .r11 (.reg .rdx),
  .mov (.reg .rdx) (.mem ⟨some .rsp, none, 0x10#64⟩),
  .mulx .rdx .rax (.reg .rdx),
  .adcx .r12 (.reg .r12),
  .adox .r12 (.reg .rax),
  .adcx .r13 (.reg .r13),
  .adox .r13 (.reg .rdx),
  .mov (.reg .rdx) (.mem ⟨some .rsp, none, 0x18#64⟩),
  .mulx .rdx .rax (.reg .rdx),
  .adcx .r14 (.reg .r14),
  .adox .r14 (.reg .rax),
  .adcx .r15 (.reg .r15),
  .adox .r15 (.reg .rdx),
  .mov (.reg .rdx) (.mem ⟨some .rsp, none, 0x20#64⟩),
  .mulx .rdx .rax (.reg .rdx),
  .adcx .rcx (.reg .rcx),
  .adox .rcx (.reg .rax),
  .adcx .rbx (.reg .rbx),
  .adox .rbx (.reg .rdx),
  .mov (.reg .rdx) (.mem ⟨some .rsp, none, 0x28#64⟩),
  .mulx .rsi .rax (.reg .rdx),
  .adcx .rbp (.reg .rbp),
  .adox .rbp (.reg .rax),
  .mov (.reg .rax) (.imm 0#64),
  .adcx .rsi (.reg .rax),
  .adox .rsi (.reg .rax),
  .mov (.mem ⟨some .rsp, none, 0x30#64⟩) (.reg .rbx),
  .mov (.reg .rdx) (.reg .r8),
  .shl (.reg .rdx) (.imm 0x20#64),
  .add (.reg .rdx) (.reg .r8),
  .mov (.reg .rax) (.imm 0xffffffff00000001#64),
  .mulx .rax .r8 (.reg .rax),
  .mov (.reg .rbx) (.imm 0xffffffff#64),
  .mulx .r8 .rbx (.reg .rbx),
  .add (.reg .rax) (.reg .rbx),
  .adc (.reg .r8) (.reg .rdx),
  .mov (.reg .rbx) (.imm 0#64),
  .adc (.reg .rbx) (.reg .rbx),
  .sub (.reg .r9) (.reg .rax),
  .sbb (.reg .r10) (.reg .r8),
  .sbb (.reg .r11) (.reg .rbx),
  .sbb (.reg .r12) (.imm 0#64),
  .sbb (.reg .r13) (.imm 0#64),
  .mov (.reg .r8) (.reg .rdx),
  .sbb (.reg .r8) (.imm 0#64),
  .mov (.reg .rdx) (.reg .r9),
  .shl (.reg .rdx) (.imm 0x20#64),
  .add (.reg .rdx) (.reg .r9),
  .mov (.reg .rax) (.imm 0xffffffff00000001#64),
  .mulx .rax .r9 (.reg .rax),
  .mov (.reg .rbx) (.imm 0xffffffff#64),
  .mulx .r9 .rbx (.reg .rbx),
  .add (.reg .rax) (.reg .rbx),
  .adc (.reg .r9) (.reg .rdx),
  .mov (.reg .rbx) (.imm 0#64),
  .adc (.reg .rbx) (.reg .rbx),
  .sub (.reg .r10) (.reg .rax),
  .sbb (.reg .r11) (.reg .r9),
  .sbb (.reg .r12) (.reg .rbx),
  .sbb (.reg .r13) (.imm 0#64),
  .sbb (.reg .r8) (.imm 0#64),
  .mov (.reg .r9) (.reg .rdx),
  .sbb (.reg .r9) (.imm 0#64),
  .mov (.reg .rdx) (.reg .r10),
  .shl (.reg .rdx) (.imm 0x20#64),
  .add (.reg .rdx) (.reg .r10),
  .mov (.reg .rax) (.imm 0xffffffff00000001#64),
  .mulx .rax .r10 (.reg .rax),
  .mov (.reg .rbx) (.imm 0xffffffff#64),
  .mulx .r10 .rbx (.reg .rbx),
  .add (.reg .rax) (.reg .rbx),
  .adc (.reg .r10) (.reg .rdx),
  .mov (.reg .rbx) (.imm 0#64),
  .adc (.reg .rbx) (.reg .rbx),
  .sub (.reg .r11) (.reg .rax),
  .sbb (.reg .r12) (.reg .r10),
  .sbb (.reg .r13) (.reg .rbx),
  .sbb (.reg .r8) (.imm 0#64),
  .sbb (.reg .r9) (.imm 0#64),
  .mov (.reg .r10) (.reg .rdx),
  .sbb (.reg .r10) (.imm 0#64),
  .mov (.reg .rdx) (.reg .r11),
  .shl (.reg .rdx) (.imm 0x20#64),
  .add (.reg .rdx) (.reg .r11),
  .mov (.reg .rax) (.imm 0xffffffff00000001#64),
  .mulx .rax .r11 (.reg .rax),
  .mov (.reg .rbx) (.imm 0xffffffff#64),
  .mulx .r11 .rbx (.reg .rbx),
  .add (.reg .rax) (.reg .rbx),
  .adc (.reg .r11) (.reg .rdx),
  .mov (.reg .rbx) (.imm 0#64),
  .adc (.reg .rbx) (.reg .rbx),
  .sub (.reg .r12) (.reg .rax),
  .sbb (.reg .r13) (.reg .r11),
  .sbb (.reg .r8) (.reg .rbx),
  .sbb (.reg .r9) (.imm 0#64),
  .sbb (.reg .r10) (.imm 0#64),
  .mov (.reg .r11) (.reg .rdx),
  .sbb (.reg .r11) (.imm 0#64),
  .mov (.reg .rdx) (.reg .r12),
  .shl (.reg .rdx) (.imm 0x20#64),
  .add (.reg .rdx) (.reg .r12),
  .mov (.reg .rax) (.imm 0xffffffff00000001#64),
  .mulx .rax .r12 (.reg .rax),
  .mov (.reg .rbx) (.imm 0xffffffff#64),
  .mulx .r12 .rbx (.reg .rbx),
  .add (.reg .rax) (.reg .rbx),
  .adc (.reg .r12) (.reg .rdx),
  .mov (.reg .rbx) (.imm 0#64),
  .adc (.reg .rbx) (.reg .rbx),
  .sub (.reg .r13) (.reg .rax),
  .sbb (.reg .r8) (.reg .r12),
  .sbb (.reg .r9) (.reg .rbx),
  .sbb (.reg .r10) (.imm 0#64),
  .sbb (.reg .r11) (.imm 0#64),
  .mov (.reg .r12) (.reg .rdx),
  .sbb (.reg .r12) (.imm 0#64),
  .mov (.reg .rdx) (.reg .r13),
  .shl (.reg .rdx) (.imm 0x20#64),
  .add (.reg .rdx) (.reg .r13),
  .mov (.reg .rax) (.imm 0xffffffff00000001#64),
  .mulx .rax .r13 (.reg .rax),
  .mov (.reg .rbx) (.imm 0xffffffff#64),
  .mulx .r13 .rbx (.reg .rbx),
  .add (.reg .rax) (.reg .rbx),
  .adc (.reg .r13) (.reg .rdx),
  .mov (.reg .rbx) (.imm 0#64),
  .adc (.reg .rbx) (.reg .rbx),
  .sub (.reg .r8) (.reg .rax),
  .sbb (.reg .r9) (.reg .r13),
  .sbb (.reg .r10) (.reg .rbx),
  .sbb (.reg .r11) (.imm 0#64),
  .sbb (.reg .r12) (.imm 0#64),
  .mov (.reg .r13) (.reg .rdx),
  .sbb (.reg .r13) (.imm 0#64),
  .mov (.reg .rbx) (.mem ⟨some .rsp, none, 0x30#64⟩),
  .add (.reg .r14) (.reg .r8),
  .adc (.reg .r15) (.reg .r9),
  .adc (.reg .rcx) (.reg .r10),
  .adc (.reg .rbx) (.reg .r11),
  .adc (.reg .rbp) (.reg .r12),
  .adc (.reg .rsi) (.reg .r13),
  .mov (.reg .r8) (.imm 0#64),
  .mov (.reg .rax) (.imm 0xffffffff00000001#64),
  .mov (.reg .r9) (.imm 0xffffffff#64),
  .mov (.reg .r10) (.imm 1#64),
  .cmov .nc .rax (.reg .r8),
  .cmov .nc .r9 (.reg .r8),
  .cmov .nc .r10 (.reg .r8),
  .add (.reg .r14) (.reg .rax),
  .adc (.reg .r15) (.reg .r9),
  .adc (.reg .rcx) (.reg .r10),
  .adc (.reg .rbx) (.reg .r8),
  .adc (.reg .rbp) (.reg .r8),
  .adc (.reg .rsi) (.reg .r8)]
def outs : List Reg := [.r14, .r15, .rcx, .rbx, .rbp, .rsi]
def X : List Nat := [0, 1, 2, 3, 4, 5]
def M : List Nat := [148, 175, 202, 229, 256, 283]
def E : List Nat := [89, 160, 187, 214, 241, 268]
def L : List Nat := [150, 177, 204, 231, 258, 285]
def V : List Nat := [307, 309, 311, 313, 315, 317]
def t : Nat := 318
def K : List Nat := [319, 320, 321]
def Z : List Nat := [322, 324, 326, 328, 330, 332]
def c : Nat := 333
def hints : List (Nat × Hint) := [(25, ⟨18446744073709551616, [(3, 1)], false⟩),
  (26, ⟨18446744073709551616, [(3, 1)], false⟩),
  (49, ⟨18446744073709551616, [(3, 1)], false⟩),
  (50, ⟨18446744073709551616, [(3, 1)], false⟩),
  (85, ⟨340282366920938463463374607431768211456, [(9, 1), (5, 18446744073709551616), (3, 18446744073709551616)], false⟩),
  (86, ⟨39402006196394479212279040100143613805079739270465446667948293404245721771497210611414266254884915640806627990306816, [(29, 1), (23, 18446744073709551616), (19, 340282366920938463463374607431768211456), (13, 6277101735386680763835789423207666416102355444464034512896), (9, 115792089237316195423570985008687907853269984665640564039457584007913129639936), (3, 2135987035920910082395021706169552114602704522356652769947041607822219725780640550022962086936576)], false⟩),
  (105, ⟨39402006196394479212279040100143613805079739270465446667948293404245721771497210611414266254884915640806627990306816, [(76, 18446744073709551616), (70, 340282366920938463463374607431768211456), (66, 6277101735386680763835789423207666416102355444464034512896), (60, 115792089237316195423570985008687907853269984665640564039457584007913129639936), (56, 2135987035920910082395021706169552114602704522356652769947041607822219725780640550022962086936576), (21, 39402006196394479212279040100143613805079739270465446667948293404245721771496870329047266088258938001861606973112319), (19, 1), (9, (-18446744073709551616)), (7, (-340282366920938463463374607431768211456)), (5, (-6277101735386680763835789423207666416102355444464034512896)), (3, (-115792089237316195423570985008687907853269984665640564039457584007913129639936)), (1, (-2135987035920910082395021706169552114602704522356652769947041607822219725780640550022962086936576))], false⟩),
  (123, ⟨39402006196394479212279040100143613805079739270465446667948293404245721771497210611414266254884915640806627990306816, [(34, 18446744073709551616), (32, 340282366920938463463374607431768211456), (30, 6277101735386680763835789423207666416102355444464034512896), (28, 115792089237316195423570985008687907853269984665640564039457584007913129639936), (26, 2135987035920910082395021706169552114602704522356652769947041607822219725780640550022962086936576), (21, 39402006196394479212279040100143613805079739270465446667948293404245721771496870329047266088258938001861606973112319), (19, 1), (9, (-18446744073709551616)), (7, (-340282366920938463463374607431768211456)), (5, (-6277101735386680763835789423207666416102355444464034512896)), (3, (-115792089237316195423570985008687907853269984665640564039457584007913129639936)), (1, (-2135987035920910082395021706169552114602704522356652769947041607822219725780640550022962086936576))], false⟩),
  (141, ⟨39402006196394479212279040100143613805079739270465446667948293404245721771497210611414266254884915640806627990306816, [(34, 18446744073709551616), (32, 340282366920938463463374607431768211456), (30, 6277101735386680763835789423207666416102355444464034512896), (28, 115792089237316195423570985008687907853269984665640564039457584007913129639936), (26, 2135987035920910082395021706169552114602704522356652769947041607822219725780640550022962086936576), (21, 39402006196394479212279040100143613805079739270465446667948293404245721771496870329047266088258938001861606973112319), (19, 1), (9, (-18446744073709551616)), (7, (-340282366920938463463374607431768211456)), (5, (-6277101735386680763835789423207666416102355444464034512896)), (3, (-115792089237316195423570985008687907853269984665640564039457584007913129639936)), (1, (-2135987035920910082395021706169552114602704522356652769947041607822219725780640550022962086936576))], false⟩),
  (159, ⟨39402006196394479212279040100143613805079739270465446667948293404245721771497210611414266254884915640806627990306816, [(34, 18446744073709551616), (32, 340282366920938463463374607431768211456), (30, 6277101735386680763835789423207666416102355444464034512896), (28, 115792089237316195423570985008687907853269984665640564039457584007913129639936), (26, 2135987035920910082395021706169552114602704522356652769947041607822219725780640550022962086936576), (21, 39402006196394479212279040100143613805079739270465446667948293404245721771496870329047266088258938001861606973112319), (19, 1), (9, (-18446744073709551616)), (7, (-340282366920938463463374607431768211456)), (5, (-6277101735386680763835789423207666416102355444464034512896)), (3, (-115792089237316195423570985008687907853269984665640564039457584007913129639936)), (1, (-2135987035920910082395021706169552114602704522356652769947041607822219725780640550022962086936576))], false⟩),
  (177, ⟨39402006196394479212279040100143613805079739270465446667948293404245721771497210611414266254884915640806627990306816, [(34, 18446744073709551616), (32, 340282366920938463463374607431768211456), (30, 6277101735386680763835789423207666416102355444464034512896), (28, 115792089237316195423570985008687907853269984665640564039457584007913129639936), (26, 2135987035920910082395021706169552114602704522356652769947041607822219725780640550022962086936576), (21, 39402006196394479212279040100143613805079739270465446667948293404245721771496870329047266088258938001861606973112319), (19, 1), (9, (-18446744073709551616)), (7, (-340282366920938463463374607431768211456)), (5, (-6277101735386680763835789423207666416102355444464034512896)), (3, (-115792089237316195423570985008687907853269984665640564039457584007913129639936)), (1, (-2135987035920910082395021706169552114602704522356652769947041607822219725780640550022962086936576))], false⟩),
  (195, ⟨39402006196394479212279040100143613805079739270465446667948293404245721771497210611414266254884915640806627990306816, [(34, 18446744073709551616), (32, 340282366920938463463374607431768211456), (30, 6277101735386680763835789423207666416102355444464034512896), (28, 115792089237316195423570985008687907853269984665640564039457584007913129639936), (26, 2135987035920910082395021706169552114602704522356652769947041607822219725780640550022962086936576), (21, 39402006196394479212279040100143613805079739270465446667948293404245721771496870329047266088258938001861606973112319), (19, 1), (9, (-18446744073709551616)), (7, (-340282366920938463463374607431768211456)), (5, (-6277101735386680763835789423207666416102355444464034512896)), (3, (-115792089237316195423570985008687907853269984665640564039457584007913129639936)), (1, (-2135987035920910082395021706169552114602704522356652769947041607822219725780640550022962086936576))], false⟩)]
def steps : List Step := [
  ⟨148, 89, 145, 149, 151, 150⟩,
  ⟨175, 160, 172, 176, 178, 177⟩,
  ⟨202, 187, 199, 203, 205, 204⟩,
  ⟨229, 214, 226, 230, 232, 231⟩,
  ⟨256, 241, 253, 257, 259, 258⟩,
  ⟨283, 268, 280, 284, 286, 285⟩]
def claims : List Claim := steps.flatMap Step.claims ++ [
  .rel [.lin 0x1000000000000000000000000000000000000000000000000000000000000000000000000000000000000000000000000 V, .lin 0x1000000000000000000000000000000000000000000000000000000000000000000000000000000000000000000000000000000000000000000000000000000000000000000000000000000000000000000000000000000000000000000000000 [t], .lin (-0xfffffffffffffffffffffffffffffffffffffffffffffffffffffffffffffffeffffffff0000000000000000ffffffff) M, .lin (-0x1) L, .lin 0x1 E, .mul (-0x1) X X],
  .rel [.lin 0x1 Z, .lin 0x1000000000000000000000000000000000000000000000000000000000000000000000000000000000000000000000000 [c], .lin (-0x1) V, .lin (-0x1) K],
  .selc 319 t 0xffffffff00000001 0,
  .selc 320 t 0xffffffff 0,
  .selc 321 t 0x1 0,
  .reg outs Z,
  .le t 0x1,
  .le c 0x1]
set_option maxRecDepth 100000 in
theorem verified : verify [⟨.rsp, 7, 0, true⟩] [0] hints body claims = true := by decide +kernel
def mac : Mac := ⟨18, 6, 0, body, outs, [.rax, .rbx, .rcx, .rdx, .rsi, .rbp, .r8, .r9, .r10, .r11, .r12, .r13, .r14, .r15]⟩
end Ams384

namespace Wad384
def body : Prog := [
  .mov (.reg .rax) (.mem ⟨some .rsp, none, 0#64⟩),
  .add (.reg .rax) (.mem ⟨some .rsp, none, 0x30#64⟩),
  .mov (.reg .rcx) (.mem ⟨some .rsp, none, 8#64⟩),
  .adc (.reg .rcx) (.mem ⟨some .rsp, none, 0x38#64⟩),
  .mov (.reg .r8) (.mem ⟨some .rsp, none, 0x10#64⟩),
  .adc (.reg .r8) (.mem ⟨some .rsp, none, 0x40#64⟩),
  .mov (.reg .r9) (.mem ⟨some .rsp, none, 0x18#64⟩),
  .adc (.reg .r9) (.mem ⟨some .rsp, none, 0x48#64⟩),
  .mov (.reg .r10) (.mem ⟨some .rsp, none, 0x20#64⟩),
  .adc (.reg .r10) (.mem ⟨some .rsp, none, 0x50#64⟩),
  .mov (.reg .r11) (.mem ⟨some .rsp, none, 0x28#64⟩),
  .adc (.reg .r11) (.mem ⟨some .rsp, none, 0x58#64⟩),
  .sbb (.reg .rdx) (.reg .rdx),
  .mov (.reg .rbx) (.imm 1#64),
  .and (.reg .rbx) (.reg .rdx),
  .mov (.reg .rbp) (.imm 0xffffffff#64),
  .and (.reg .rdx) (.reg .rbp),
  .xor (.reg .rbp) (.reg .rbp),
  .sub (.reg .rbp) (.reg .rdx),
  .add (.reg .rax) (.reg .rbp),
  .adc (.reg .rcx) (.reg .rdx),
  .adc (.reg .r8) (.reg .rbx),
  .adc (.reg .r9) (.imm 0#64),
  .adc (.reg .r10) (.imm 0#64),
  .adc (.reg .r11) (.imm 0#64)]
def outs : List Reg := [.rax, .rcx, .r8, .r9, .r10, .r11]
def X : List Nat := [0, 1, 2, 3, 4, 5]
def Y : List Nat := [6, 7, 8, 9, 10, 11]
def U : List Nat := [13, 15, 17, 19, 21, 23]
def b : Nat := 24
def S : Nat := 27
def d : Nat := 28
def Z : List Nat := [29, 31, 33, 35, 37, 39]
def c : Nat := 40
def hints : List (Nat × Hint) := []
def claims : List Claim := [
  .rel [.lin 0x1 U, .lin 0x1000000000000000000000000000000000000000000000000000000000000000000000000000000000000000000000000 [b], .lin (-0x1) X, .lin (-0x1) Y],
  .rel [.lin 0x1 [S], .lin 0xffffffff [b], .lin (-0x10000000000000000) [d]],
  .rel [.lin 0x1 Z, .lin 0x1000000000000000000000000000000000000000000000000000000000000000000000000000000000000000000000000 [c], .lin (-0x1) U, .lin (-0x1) [S], .lin (-0xffffffff0000000000000000) [b], .lin (-0x100000000000000000000000000000000) [b]],
  .reg outs Z,
  .le b 0x1,
  .le d 0x1,
  .le c 0x1]
set_option maxRecDepth 100000 in
theorem verified : verify [⟨.rsp, 13, 0, true⟩] [0] hints body claims = true := by decide +kernel
def mac : Mac := ⟨21, 6, 6, body, outs, [.rax, .rbx, .rcx, .rdx, .rbp, .r8, .r9, .r10, .r11]⟩
end Wad384

namespace Add384
def body : Prog := [
  .mov (.reg .rax) (.mem ⟨some .rsp, none, 0#64⟩),
  .add (.reg .rax) (.mem ⟨some .rsp, none, 0x30#64⟩),
  .mov (.reg .rcx) (.mem ⟨some .rsp, none, 8#64⟩),
  .adc (.reg .rcx) (.mem ⟨some .rsp, none, 0x38#64⟩),
  .mov (.reg .r8) (.mem ⟨some .rsp, none, 0x10#64⟩),
  .adc (.reg .r8) (.mem ⟨some .rsp, none, 0x40#64⟩),
  .mov (.reg .r9) (.mem ⟨some .rsp, none, 0x18#64⟩),
  .adc (.reg .r9) (.mem ⟨some .rsp, none, 0x48#64⟩),
  .mov (.reg .r10) (.mem ⟨some .rsp, none, 0x20#64⟩),
  .adc (.reg .r10) (.mem ⟨some .rsp, none, 0x50#64⟩),
  .mov (.reg .r11) (.mem ⟨some .rsp, none, 0x28#64⟩),
  .adc (.reg .r11) (.mem ⟨some .rsp, none, 0x58#64⟩),
  .mov (.reg .rdx) (.imm 0#64),
  .adc (.reg .rdx) (.reg .rdx),
  .mov (.reg .rbp) (.imm 0xffffffff00000001#64),
  .add (.reg .rax) (.reg .rbp),
  .mov (.reg .rbp) (.imm 0xffffffff#64),
  .adc (.reg .rcx) (.reg .rbp),
  .adc (.reg .r8) (.imm 1#64),
  .adc (.reg .r9) (.imm 0#64),
  .adc (.reg .r10) (.imm 0#64),
  .adc (.reg .r11) (.imm 0#64),
  .adc (.reg .rdx) (.imm 0xffffffffffffffff#64),
  .mov (.reg .rbx) (.imm 1#64),
  .and (.reg .rbx) (.reg .rdx),
  .and (.reg .rdx) (.reg .rbp),
  .xor (.reg .rbp) (.reg .rbp),
  .sub (.reg .rbp) (.reg .rdx),
  .sub (.reg .rax) (.reg .rbp),
  .sbb (.reg .rcx) (.reg .rdx),
  .sbb (.reg .r8) (.reg .rbx),
  .sbb (.reg .r9) (.imm 0#64),
  .sbb (.reg .r10) (.imm 0#64),
  .sbb (.reg .r11) (.imm 0#64)]
def outs : List Reg := [.rax, .rcx, .r8, .r9, .r10, .r11]
def X : List Nat := [0, 1, 2, 3, 4, 5]
def Y : List Nat := [6, 7, 8, 9, 10, 11]
def U : List Nat := [27, 29, 31, 33, 35, 37]
def D : Nat := 39
def k : Nat := 40
def A2 : Nat := 41
def A : Nat := 42
def S : Nat := 43
def b1 : Nat := 44
def Z : List Nat := [45, 47, 49, 51, 53, 55]
def c : Nat := 56
def hints : List (Nat × Hint) := []
def claims : List Claim := [
  .rel [.lin 0x1 U, .lin 0x1000000000000000000000000000000000000000000000000000000000000000000000000000000000000000000000000 [D], .lin 0x10000000000000000000000000000000000000000000000000000000000000000000000000000000000000000000000000000000000000000 [k], .lin (-0x1) X, .lin (-0x1) Y, .one (-0xffffffffffffffff000000000000000000000000000000000000000000000000000000000000000100000000ffffffffffffffff00000001)],
  .rel [.lin 0x1 [S], .lin 0x1 [A], .lin (-0x10000000000000000) [b1]],
  .rel [.lin 0x1 Z, .lin (-0x1000000000000000000000000000000000000000000000000000000000000000000000000000000000000000000000000) [c], .lin (-0x1) U, .lin 0x1 [S], .lin 0x10000000000000000 [A], .lin 0x100000000000000000000000000000000 [A2]],
  .andc A D 0xffffffff,
  .andc A2 D 0x1,
  .reg outs Z,
  .le k 0x1,
  .le b1 0x1,
  .le c 0x1]
set_option maxRecDepth 100000 in
theorem verified : verify [⟨.rsp, 13, 0, true⟩] [0] hints body claims = true := by decide +kernel
def mac : Mac := ⟨20, 6, 6, body, outs, [.rax, .rbx, .rcx, .rdx, .rbp, .r8, .r9, .r10, .r11]⟩
end Add384

namespace Cms384
def body : Prog := [
  .mov (.reg .r8) (.imm 0xffffffff#64),
  .sub (.reg .r8) (.mem ⟨some .rsp, none, 0x30#64⟩),
  .mov (.reg .r9) (.imm 0xffffffff00000000#64),
  .sbb (.reg .r9) (.mem ⟨some .rsp, none, 0x38#64⟩),
  .mov (.reg .r10) (.imm 0xfffffffffffffffe#64),
  .sbb (.reg .r10) (.mem ⟨some .rsp, none, 0x40#64⟩),
  .mov (.reg .r11) (.imm 0xffffffffffffffff#64),
  .sbb (.reg .r11) (.mem ⟨some .rsp, none, 0x48#64⟩),
  .mov (.reg .r12) (.imm 0xffffffffffffffff#64),
  .sbb (.reg .r12) (.mem ⟨some .rsp, none, 0x50#64⟩),
  .mov (.reg .r13) (.imm 0xffffffffffffffff#64),
  .sbb (.reg .r13) (.mem ⟨some .rsp, none, 0x58#64⟩),
  .mov (.reg .rdx) (.imm 9#64),
  .mulx .rax .r8 (.reg .r8),
  .mulx .rcx .r9 (.reg .r9),
  .add (.reg .r9) (.reg .rax),
  .mulx .rax .r10 (.reg .r10),
  .adc (.reg .r10) (.reg .rcx),
  .mulx .rcx .r11 (.reg .r11),
  .adc (.reg .r11) (.reg .rax),
  .mulx .rax .r12 (.reg .r12),
  .adc (.reg .r12) (.reg .rcx),
  .mulx .r14 .r13 (.reg .r13),
  .adc (.reg .r13) (.reg .rax),
  .adc (.reg .r14) (.imm 1#64),
  .xor (.reg .rcx) (.reg .rcx),
  .mov (.reg .rdx) (.imm 0xc#64),
  .mulx .rbx .rax (.mem ⟨some .rsp, none, 0#64⟩),
  .adcx .r8 (.reg .rax),
  .adox .r9 (.reg .rbx),
  .mulx .rbx .rax (.mem ⟨some .rsp, none, 8#64⟩),
  .adcx .r9 (.reg .rax),
  .adox .r10 (.reg .rbx),
  .mulx .rbx .rax (.mem ⟨some .rsp, none, 0x10#64⟩),
  .adcx .r10 (.reg .rax),
  .adox .r11 (.reg .rbx),
  .mulx .rbx .rax (.mem ⟨some .rsp, none, 0x18#64⟩),
  .adcx .r11 (.reg .rax),
  .adox .r12 (.reg .rbx),
  .mulx .rbx .rax (.mem ⟨some .rsp, none, 0x20#64⟩),
  .adcx .r12 (.reg .rax),
  .adox .r13 (.reg .rbx),
  .mulx .rdx .rax (.mem ⟨some .rsp, none, 0x28#64⟩),
  .adcx .r13 (.reg .rax),
  .adox .rdx (.reg .r14),
  .adcx .rdx (.reg .rcx),
  .xor (.reg .rcx) (.reg .rcx),
  .mov (.reg .rax) (.imm 0xffffffff00000001#64),
  .mulx .rcx .rax (.reg .rax),
  .adcx .r8 (.reg .rax),
  .adox .r9 (.reg .rcx),
  .mov (.reg .rax) (.imm 0xffffffff#64),
  .mulx .rcx .rax (.reg .rax),
  .adcx .r9 (.reg .rax),
  .adox .r10 (.reg .rcx),
  .adcx .r10 (.reg .rdx),
  .mov (.reg .rax) (.imm 0#64),
  .mov (.reg .rcx) (.imm 0#64),
  .adox .rax (.reg .rax),
  .adc (.reg .r11) (.reg .rax),
  .adc (.reg .r12) (.reg .rcx),
  .adc (.reg .r13) (.reg .rcx),
  .adc (.reg .rcx) (.reg .rcx),
  .sub (.reg .rcx) (.imm 1#64),
  .mov (.reg .rdx) (.imm 0xffffffff#64),
  .xor (.reg .rax) (.reg .rax),
  .and (.reg .rdx) (.reg .rcx),
  .sub (.reg .rax) (.reg .rdx),
  .and (.reg .rcx) (.imm 1#64),
  .sub (.reg .r8) (.reg .rax),
  .sbb (.reg .r9) (.reg .rdx),
  .sbb (.reg .r10) (.reg .rcx),
  .sbb (.reg .r11) (.imm 0#64),
  .sbb (.reg .r12) (.imm 0#64),
  .sbb (.reg .r13) (.imm 0#64)]
def outs : List Reg := [.r8, .r9, .r10, .r11, .r12, .r13]
def X : List Nat := [0, 1, 2, 3, 4, 5]
def Y : List Nat := [6, 7, 8, 9, 10, 11]
def N : List Nat := [13, 15, 17, 19, 21, 23]
def n : Nat := 24
def E : List Nat := [51, 57, 63, 69, 75, 81]
def q : Nat := 85
def U : List Nat := [89, 95, 99, 103, 105, 107]
def D : Nat := 111
def b1 : Nat := 112
def Z : List Nat := [117, 119, 121, 123, 125, 127]
def A : Nat := 113
def S : Nat := 114
def d : Nat := 115
def A2 : Nat := 116
def c : Nat := 128
def hints : List (Nat × Hint) := [(24, ⟨18446744073709551616, [(23, (-9)), (1, 1)], false⟩),
  (44, ⟨18446744073709551616, [(59, (-9)), (5, 1), (3, 1)], false⟩),
  (45, ⟨18446744073709551616, [(61, (-9)), (3, 1)], false⟩)]
def claims : List Claim := [
  .rel [.lin 0x1 N, .lin (-0x1000000000000000000000000000000000000000000000000000000000000000000000000000000000000000000000000) [n], .lin 0x1 Y, .one (-0xfffffffffffffffffffffffffffffffffffffffffffffffffffffffffffffffeffffffff0000000000000000ffffffff)],
  .rel [.lin 0x1 E, .lin 0x1000000000000000000000000000000000000000000000000000000000000000000000000000000000000000000000000 [q], .lin (-0xc) X, .one (-0x1000000000000000000000000000000000000000000000000000000000000000000000000000000000000000000000000), .lin (-0x9) N],
  .rel [.lin 0x1 U, .lin 0x1000000000000000000000000000000000000000000000000000000000000000000000000000000000000000000000000 [D], .lin (-0x1) E, .one 0x1000000000000000000000000000000000000000000000000000000000000000000000000000000000000000000000000, .lin (-0x100000000ffffffffffffffff00000001) [q], .lin (-0x10000000000000000000000000000000000000000000000000000000000000000000000000000000000000000000000000000000000000000) [b1]],
  .rel [.lin 0x1 [S], .lin 0x1 [A], .lin (-0x10000000000000000) [d]],
  .rel [.lin 0x1 Z, .lin (-0x1000000000000000000000000000000000000000000000000000000000000000000000000000000000000000000000000) [c], .lin (-0x1) U, .lin 0x1 [S], .lin 0x10000000000000000 [A], .lin 0x100000000000000000000000000000000 [A2]],
  .andc A D 0xffffffff,
  .andc A2 D 0x1,
  .reg outs Z,
  .le n 0x1,
  .le b1 0x1,
  .le d 0x1,
  .le c 0x1]
set_option maxRecDepth 100000 in
theorem verified : verify [⟨.rsp, 13, 0, true⟩] [0] hints body claims = true := by decide +kernel
def mac : Mac := ⟨22, 6, 6, body, outs, [.rax, .rbx, .rcx, .rdx, .r8, .r9, .r10, .r11, .r12, .r13, .r14]⟩
end Cms384

namespace Cmf384
def body : Prog := [
  .mov (.reg .rdx) (.mem ⟨some .rsp, none, 0x28#64⟩),
  .mov (.reg .r13) (.reg .rdx),
  .shr (.reg .rdx) (.imm 0x3e#64),
  .mov (.reg .r12) (.mem ⟨some .rsp, none, 0x20#64⟩),
  .shld (.reg .r13) .r12 (.imm 2#64),
  .mov (.reg .r11) (.mem ⟨some .rsp, none, 0x18#64⟩),
  .shld (.reg .r12) .r11 (.imm 2#64),
  .mov (.reg .r10) (.mem ⟨some .rsp, none, 0x10#64⟩),
  .shld (.reg .r11) .r10 (.imm 2#64),
  .mov (.reg .r9) (.mem ⟨some .rsp, none, 8#64⟩),
  .shld (.reg .r10) .r9 (.imm 2#64),
  .mov (.reg .r8) (.mem ⟨some .rsp, none, 0#64⟩),
  .shld (.reg .r9) .r8 (.imm 2#64),
  .shl (.reg .r8) (.imm 2#64),
  .add (.reg .rdx) (.imm 1#64),
  .sub (.reg .r8) (.mem ⟨some .rsp, none, 0x30#64⟩),
  .sbb (.reg .r9) (.mem ⟨some .rsp, none, 0x38#64⟩),
  .sbb (.reg .r10) (.mem ⟨some .rsp, none, 0x40#64⟩),
  .sbb (.reg .r11) (.mem ⟨some .rsp, none, 0x48#64⟩),
  .sbb (.reg .r12) (.mem ⟨some .rsp, none, 0x50#64⟩),
  .sbb (.reg .r13) (.mem ⟨some .rsp, none, 0x58#64⟩),
  .sbb (.reg .rdx) (.imm 0#64),
  .xor (.reg .rcx) (.reg .rcx),
  .mov (.reg .rax) (.imm 0xffffffff00000001#64),
  .mulx .rcx .rax (.reg .rax),
  .adcx .r8 (.reg .rax),
  .adox .r9 (.reg .rcx),
  .mov (.reg .rax) (.imm 0xffffffff#64),
  .mulx .rcx .rax (.reg .rax),
  .adcx .r9 (.reg .rax),
  .adox .r10 (.reg .rcx),
  .adcx .r10 (.reg .rdx),
  .mov (.reg .rax) (.imm 0#64),
  .mov (.reg .rcx) (.imm 0#64),
  .adox .rax (.reg .rax),
  .adc (.reg .r11) (.reg .rax),
  .adc (.reg .r12) (.reg .rcx),
  .adc (.reg .r13) (.reg .rcx),
  .adc (.reg .rcx) (.reg .rcx),
  .sub (.reg .rcx) (.imm 1#64),
  .mov (.reg .rdx) (.imm 0xffffffff#64),
  .xor (.reg .rax) (.reg .rax),
  .and (.reg .rdx) (.reg .rcx),
  .sub (.reg .rax) (.reg .rdx),
  .and (.reg .rcx) (.imm 1#64),
  .sub (.reg .r8) (.reg .rax),
  .sbb (.reg .r9) (.reg .rdx),
  .sbb (.reg .r10) (.reg .rcx),
  .sbb (.reg .r11) (.imm 0#64),
  .sbb (.reg .r12) (.imm 0#64),
  .sbb (.reg .r13) (.imm 0#64)]
def outs : List Reg := [.r8, .r9, .r10, .r11, .r12, .r13]
def X : List Nat := [0, 1, 2, 3, 4, 5]
def Y : List Nat := [6, 7, 8, 9, 10, 11]
def E : List Nat := [33, 35, 37, 39, 41, 43]
def q : Nat := 45
def k1 : Nat := 32
def k2 : Nat := 46
def U : List Nat := [49, 55, 59, 63, 65, 67]
def D : Nat := 71
def b1 : Nat := 72
def Z : List Nat := [77, 79, 81, 83, 85, 87]
def A : Nat := 73
def S : Nat := 74
def d : Nat := 75
def A2 : Nat := 76
def c : Nat := 88
def hints : List (Nat × Hint) := []
def claims : List Claim := [
  .rel [.lin 0x1 E, .lin 0x1000000000000000000000000000000000000000000000000000000000000000000000000000000000000000000000000 [q], .lin (-0x4) X, .one (-0x1000000000000000000000000000000000000000000000000000000000000000000000000000000000000000000000000), .lin 0x1 Y, .lin 0x10000000000000000000000000000000000000000000000000000000000000000000000000000000000000000000000000000000000000000 [k1], .lin (-0x10000000000000000000000000000000000000000000000000000000000000000000000000000000000000000000000000000000000000000) [k2]],
  .rel [.lin 0x1 U, .lin 0x1000000000000000000000000000000000000000000000000000000000000000000000000000000000000000000000000 [D], .lin (-0x1) E, .one 0x1000000000000000000000000000000000000000000000000000000000000000000000000000000000000000000000000, .lin (-0x100000000ffffffffffffffff00000001) [q], .lin (-0x10000000000000000000000000000000000000000000000000000000000000000000000000000000000000000000000000000000000000000) [b1]],
  .rel [.lin 0x1 [S], .lin 0x1 [A], .lin (-0x10000000000000000) [d]],
  .rel [.lin 0x1 Z, .lin (-0x1000000000000000000000000000000000000000000000000000000000000000000000000000000000000000000000000) [c], .lin (-0x1) U, .lin 0x1 [S], .lin 0x10000000000000000 [A], .lin 0x100000000000000000000000000000000 [A2]],
  .andc A D 0xffffffff,
  .andc A2 D 0x1,
  .reg outs Z,
  .le k1 0x1,
  .le k2 0x1,
  .le b1 0x1,
  .le d 0x1,
  .le c 0x1]
set_option maxRecDepth 100000 in
theorem verified : verify [⟨.rsp, 13, 0, true⟩] [0] hints body claims = true := by decide +kernel
def mac : Mac := ⟨23, 6, 6, body, outs, [.rax, .rcx, .rdx, .r8, .r9, .r10, .r11, .r12, .r13]⟩
end Cmf384

namespace Cmt384
def body : Prog := [
  .mov (.reg .r8) (.imm 0xffffffff#64),
  .sub (.reg .r8) (.mem ⟨some .rsp, none, 0x30#64⟩),
  .mov (.reg .r9) (.imm 0xffffffff00000000#64),
  .sbb (.reg .r9) (.mem ⟨some .rsp, none, 0x38#64⟩),
  .mov (.reg .r10) (.imm 0xfffffffffffffffe#64),
  .sbb (.reg .r10) (.mem ⟨some .rsp, none, 0x40#64⟩),
  .mov (.reg .r11) (.imm 0xffffffffffffffff#64),
  .sbb (.reg .r11) (.mem ⟨some .rsp, none, 0x48#64⟩),
  .mov (.reg .r12) (.imm 0xffffffffffffffff#64),
  .sbb (.reg .r12) (.mem ⟨some .rsp, none, 0x50#64⟩),
  .mov (.reg .r13) (.imm 0xffffffffffffffff#64),
  .sbb (.reg .r13) (.mem ⟨some .rsp, none, 0x58#64⟩),
  .mov (.reg .r14) (.reg .r13),
  .shr (.reg .r14) (.imm 0x3d#64),
  .shld (.reg .r13) .r12 (.imm 3#64),
  .shld (.reg .r12) .r11 (.imm 3#64),
  .shld (.reg .r11) .r10 (.imm 3#64),
  .shld (.reg .r10) .r9 (.imm 3#64),
  .shld (.reg .r9) .r8 (.imm 3#64),
  .shl (.reg .r8) (.imm 3#64),
  .add (.reg .r14) (.imm 1#64),
  .xor (.reg .rcx) (.reg .rcx),
  .mov (.reg .rdx) (.imm 3#64),
  .mulx .rbx .rax (.mem ⟨some .rsp, none, 0#64⟩),
  .adcx .r8 (.reg .rax),
  .adox .r9 (.reg .rbx),
  .mulx .rbx .rax (.mem ⟨some .rsp, none, 8#64⟩),
  .adcx .r9 (.reg .rax),
  .adox .r10 (.reg .rbx),
  .mulx .rbx .rax (.mem ⟨some .rsp, none, 0x10#64⟩),
  .adcx .r10 (.reg .rax),
  .adox .r11 (.reg .rbx),
  .mulx .rbx .rax (.mem ⟨some .rsp, none, 0x18#64⟩),
  .adcx .r11 (.reg .rax),
  .adox .r12 (.reg .rbx),
  .mulx .rbx .rax (.mem ⟨some .rsp, none, 0x20#64⟩),
  .adcx .r12 (.reg .rax),
  .adox .r13 (.reg .rbx),
  .mulx .rdx .rax (.mem ⟨some .rsp, none, 0x28#64⟩),
  .adcx .r13 (.reg .rax),
  .adox .rdx (.reg .r14),
  .adcx .rdx (.reg .rcx),
  .xor (.reg .rcx) (.reg .rcx),
  .mov (.reg .rax) (.imm 0xffffffff00000001#64),
  .mulx .rcx .rax (.reg .rax),
  .adcx .r8 (.reg .rax),
  .adox .r9 (.reg .rcx),
  .mov (.reg .rax) (.imm 0xffffffff#64),
  .mulx .rcx .rax (.reg .rax),
  .adcx .r9 (.reg .rax),
  .adox .r10 (.reg .rcx),
  .adcx .r10 (.reg .rdx),
  .mov (.reg .rax) (.imm 0#64),
  .mov (.reg .rcx) (.imm 0#64),
  .adox .rax (.reg .rax),
  .adc (.reg .r11) (.reg .rax),
  .adc (.reg .r12) (.reg .rcx),
  .adc (.reg .r13) (.reg .rcx),
  .adc (.reg .rcx) (.reg .rcx),
  .sub (.reg .rcx) (.imm 1#64),
  .mov (.reg .rdx) (.imm 0xffffffff#64),
  .xor (.reg .rax) (.reg .rax),
  .and (.reg .rdx) (.reg .rcx),
  .sub (.reg .rax) (.reg .rdx),
  .and (.reg .rcx) (.imm 1#64),
  .sub (.reg .r8) (.reg .rax),
  .sbb (.reg .r9) (.reg .rdx),
  .sbb (.reg .r10) (.reg .rcx),
  .sbb (.reg .r11) (.imm 0#64),
  .sbb (.reg .r12) (.imm 0#64),
  .sbb (.reg .r13) (.imm 0#64)]
def outs : List Reg := [.r8, .r9, .r10, .r11, .r12, .r13]
def X : List Nat := [0, 1, 2, 3, 4, 5]
def Y : List Nat := [6, 7, 8, 9, 10, 11]
def N : List Nat := [13, 15, 17, 19, 21, 23]
def n : Nat := 24
def E : List Nat := [47, 53, 59, 65, 71, 77]
def q : Nat := 81
def k0 : Nat := 44
def k1 : Nat := 80
def k2 : Nat := 82
def U : List Nat := [85, 91, 95, 99, 101, 103]
def D : Nat := 107
def b1 : Nat := 108
def Z : List Nat := [113, 115, 117, 119, 121, 123]
def A : Nat := 109
def S : Nat := 110
def d : Nat := 111
def A2 : Nat := 112
def c : Nat := 124
def hints : List (Nat × Hint) := []
def claims : List Claim := [
  .rel [.lin 0x1 N, .lin (-0x1000000000000000000000000000000000000000000000000000000000000000000000000000000000000000000000000) [n], .lin 0x1 Y, .one (-0xfffffffffffffffffffffffffffffffffffffffffffffffffffffffffffffffeffffffff0000000000000000ffffffff)],
  .rel [.lin 0x1 E, .lin 0x1000000000000000000000000000000000000000000000000000000000000000000000000000000000000000000000000 [q], .lin (-0x3) X, .one (-0x1000000000000000000000000000000000000000000000000000000000000000000000000000000000000000000000000), .lin (-0x8) N, .lin 0x10000000000000000000000000000000000000000000000000000000000000000000000000000000000000000000000000000000000000000 [k0], .lin 0x10000000000000000000000000000000000000000000000000000000000000000000000000000000000000000000000000000000000000000 [k1], .lin 0x10000000000000000000000000000000000000000000000000000000000000000000000000000000000000000000000000000000000000000 [k2]],
  .rel [.lin 0x1 U, .lin 0x1000000000000000000000000000000000000000000000000000000000000000000000000000000000000000000000000 [D], .lin (-0x1) E, .one 0x1000000000000000000000000000000000000000000000000000000000000000000000000000000000000000000000000, .lin (-0x100000000ffffffffffffffff00000001) [q], .lin (-0x10000000000000000000000000000000000000000000000000000000000000000000000000000000000000000000000000000000000000000) [b1]],
  .rel [.lin 0x1 [S], .lin 0x1 [A], .lin (-0x10000000000000000) [d]],
  .rel [.lin 0x1 Z, .lin (-0x1000000000000000000000000000000000000000000000000000000000000000000000000000000000000000000000000) [c], .lin (-0x1) U, .lin 0x1 [S], .lin 0x10000000000000000 [A], .lin 0x100000000000000000000000000000000 [A2]],
  .andc A D 0xffffffff,
  .andc A2 D 0x1,
  .reg outs Z,
  .le n 0x1,
  .le k0 0x1,
  .le k1 0x1,
  .le k2 0x1,
  .le b1 0x1,
  .le d 0x1,
  .le c 0x1]
set_option maxRecDepth 100000 in
theorem verified : verify [⟨.rsp, 13, 0, true⟩] [0] hints body claims = true := by decide +kernel
def mac : Mac := ⟨24, 6, 6, body, outs, [.rax, .rbx, .rcx, .rdx, .r8, .r9, .r10, .r11, .r12, .r13, .r14]⟩
end Cmt384

end Verif.X86.Sym
