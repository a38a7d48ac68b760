import Verif.Proof.X86.SymMac
import Verif.Proof.X86.SymUse

/-! Generated by tools/gen_mac.py: the field operations of the point routines, with advice and claims checked by the kernel. -/
namespace Verif.X86.Sym
open Verif Verif.X86

namespace Mul256
def body : Prog := [
  .xor (.reg .r13) (.reg .r13),
  .mov (.reg .rdx) (.mem ⟨some .rsp, none, 0x20#64⟩),
  .mulx .r9 .r8 (.mem ⟨some .rsp, none, 0#64⟩),
  .mulx .r10 .rbx (.mem ⟨some .rsp, none, 8#64⟩),
  .adc (.reg .r9) (.reg .rbx),
  .mulx .r11 .rbx (.mem ⟨some .rsp, none, 0x10#64⟩),
  .adc (.reg .r10) (.reg .rbx),
  .mulx .r12 .rbx (.mem ⟨some .rsp, none, 0x18#64⟩),
  .adc (.reg .r11) (.reg .rbx),
  .adc (.reg .r12) (.reg .r13),
  .mov (.reg .rdx) (.mem ⟨some .rsp, none, 0x28#64⟩),
  .xor (.reg .r14) (.reg .r14),
  .mulx .rbx .rax (.mem ⟨some .rsp, none, 0#64⟩),
  .adcx .r9 (.reg .rax),
  .adox .r10 (.reg .rbx),
  .mulx .rbx .rax (.mem ⟨some .rsp, none, 8#64⟩),
  .adcx .r10 (.reg .rax),
  .adox .r11 (.reg .rbx),
  .mulx .rbx .rax (.mem ⟨some .rsp, none, 0x10#64⟩),
  .adcx .r11 (.reg .rax),
  .adox .r12 (.reg .rbx),
  .mulx .rbx .rax (.mem ⟨some .rsp, none, 0x18#64⟩),
  .adcx .r12 (.reg .rax),
  .adox .r13 (.reg .rbx),
  .adc (.reg .r13) (.reg .r14),
  .xor (.reg .r15) (.reg .r15),
  .mov (.reg .rdx) (.imm 0x100000000#64),
  .mulx .rbx .rax (.reg .r8),
  .adcx .r9 (.reg .rax),
  .adox .r10 (.reg .rbx),
  .mulx .rbx .rax (.reg .r9),
  .adcx .r10 (.reg .rax),
  .adox .r11 (.reg .rbx),
  .not (.reg .rdx),
  .lea .rdx ⟨some .rdx, none, 2#64⟩,
  .mulx .rbx .rax (.reg .r8),
  .adcx .r11 (.reg .rax),
  .adox .r12 (.reg .rbx),
  .mulx .rbx .rax (.reg .r9),
  .adcx .r12 (.reg .rax),
  .adox .r13 (.reg .rbx),
  .adcx .r13 (.reg .r15),
  .adox .r14 (.reg .r15),
  .adc (.reg .r14) (.reg .r15),
  .mov (.reg .rdx) (.mem ⟨some .rsp, none, 0x30#64⟩),
  .xor (.reg .r8) (.reg .r8),
  .mulx .rbx .rax (.mem ⟨some .rsp, none, 0#64⟩),
  .adcx .r10 (.reg .rax),
  .adox .r11 (.reg .rbx),
  .mulx .rbx .rax (.mem ⟨some .rsp, none, 8#64⟩),
  .adcx .r11 (.reg .rax),
  .adox .r12 (.reg .rbx),
  .mulx .rbx .rax (.mem ⟨some .rsp, none, 0x10#64⟩),
  .adcx .r12 (.reg .rax),
  .adox .r13 (.reg .rbx),
  .adox .r14 (.reg .r8),
  .mulx .rbx .rax (.mem ⟨some .rsp, none, 0x18#64⟩),
  .adc (.reg .r13) (.reg .rax),
  .adc (.reg .r14) (.reg .rbx),
  .adc (.reg .r15) (.reg .r8),
  .mov (.reg .rdx) (.mem ⟨some .rsp, none, 0x38#64⟩),
  .xor (.reg .r9) (.reg .r9),
  .mulx .rbx .rax (.mem ⟨some .rsp, none, 0#64⟩),
  .adcx .r11 (.reg .rax),
  .adox .r12 (.reg .rbx),
  .mulx .rbx .rax (.mem ⟨some .rsp, none, 8#64⟩),
  .adcx .r12 (.reg .rax),
  .adox .r13 (.reg .rbx),
  .mulx .rbx .rax (.mem ⟨some .rsp, none, 0x10#64⟩),
  .adcx .r13 (.reg .rax),
  .adox .r14 (.reg .rbx),
  .adox .r15 (.reg .r9),
  .mulx .rbx .rax (.mem ⟨some .rsp, none, 0x18#64⟩),
  .adc (.reg .r14) (.reg .rax),
  .adc (.reg .r15) (.reg .rbx),
  .adc (.reg .r8) (.reg .r9),
  .xor (.reg .r9) (.reg .r9),
  .mov (.reg .rdx) (.imm 0x100000000#64),
  .mulx .rbx .rax (.reg .r10),
  .adcx .r11 (.reg .rax),
  .adox .r12 (.reg .rbx),
  .mulx .rbx .rax (.reg .r11),
  .adcx .r12 (.reg .rax),
  .adox .r13 (.reg .rbx),
  .not (.reg .rdx),
  .lea .rdx ⟨some .rdx, none, 2#64⟩,
  .mulx .rbx .rax (.reg .r10),
  .adcx .r13 (.reg .rax),
  .adox .r14 (.reg .rbx),
  .mulx .rbx .rax (.reg .r11),
  .adcx .r14 (.reg .rax),
  .adox .r15 (.reg .rbx),
  .adcx .r15 (.reg .r9),
  .adox .r8 (.reg .r9),
  .adc (.reg .r8) (.reg .r9),
  .mov (.reg .rcx) (.imm 1#64),
  .add (.reg .rcx) (.reg .r12),
  .dec (.reg .rdx),
  .adc (.reg .rdx) (.reg .r13),
  .dec (.reg .r9),
  .mov (.reg .rax) (.reg .r9),
  .adc (.reg .r9) (.reg .r14),
  .mov (.reg .r11) (.imm 0xfffffffe#64),
  .adc (.reg .r11) (.reg .r15),
  .adc (.reg .rax) (.reg .r8),
  .cmov .cy .r12 (.reg .rcx),
  .cmov .cy .r13 (.reg .rdx),
  .cmov .cy .r14 (.reg .r9),
  .cmov .cy .r15 (.reg .r11)]
def outs : List Reg := [.r12, .r13, .r14, .r15]
def X : List Nat := [0, 1, 2, 3]
def Y : List Nat := [4, 5, 6, 7]
def M : List Nat := [9, 53, 83, 139]
def V : List Nat := [145, 151, 157, 161]
def t : Nat := 165
def U : List Nat := [167, 171, 175, 177]
def D : Nat := 179
def c : Nat := 180
def Z : List Nat := [181, 182, 183, 184]
def hints : List (Nat × Hint) := [(9, ⟨18446744073709551616, [(1, 1)], false⟩),
  (23, ⟨18446744073709551616, [(3, 1)], false⟩),
  (24, ⟨340282366920938463463374607431768211456, [(9, 1), (3, 18446744073709551616)], false⟩)]
def claims : List Claim := [
  .rel [.lin 0x10000000000000000000000000000000000000000000000000000000000000000 V, .lin 0x100000000000000000000000000000000000000000000000000000000000000000000000000000000000000000000000000000000000000000000000000000000 [t], .lin (-0xffffffff00000001000000000000000000000000ffffffffffffffffffffffff) M, .mul (-0x1) X Y],
  .rel [.lin 0x1 U, .lin 0x10000000000000000000000000000000000000000000000000000000000000000 [D], .lin 0x100000000000000000000000000000000000000000000000000000000000000000000000000000000 [c], .one (-0xffffffffffffffff00000000fffffffeffffffffffffffffffffffff000000000000000000000001), .lin (-0x1) V, .lin (-0x10000000000000000000000000000000000000000000000000000000000000000) [t]],
  .sel Z c U V,
  .reg outs Z,
  .le c 0x1]
set_option maxRecDepth 100000 in
theorem verified : verify [⟨.rsp, 9, 0, true⟩] [0] hints body claims = true := by decide +kernel
def mac : Mac := ⟨0, 4, 4, body, outs, [.rax, .rbx, .rcx, .rdx, .r8, .r9, .r10, .r11, .r12, .r13, .r14, .r15]⟩
end Mul256

namespace Sqr256
def body : Prog := [
  .mov (.reg .rdx) (.mem ⟨some .rsp, none, 0#64⟩),
  .mulx .r15 .r8 (.reg .rdx),
  .mulx .r10 .r9 (.mem ⟨some .rsp, none, 8#64⟩),
  .mulx .r12 .r11 (.mem ⟨some .rsp, none, 0x18#64⟩),
  .mov (.reg .rdx) (.mem ⟨some .rsp, none, 0x10#64⟩),
  .mulx .r14 .r13 (.mem ⟨some .rsp, none, 0x18#64⟩),
  .xor (.reg .rcx) (.reg .rcx),
  .mulx .rbx .rax (.mem ⟨some .rsp, none, 0#64⟩),
  .adcx .r10 (.reg .rax),
  .adox .r11 (.reg .rbx),
  .mulx .rbx .rax (.mem ⟨some .rsp, none, 8#64⟩),
  .adcx .r11 (.reg .rax),
  .adox .r12 (.reg .rbx),
  .mov (.reg .rdx) (.mem ⟨some .rsp, none, 0x18#64⟩),
  .mulx .rbx .rax (.mem ⟨some .rsp, none, 8#64⟩),
  .adcx .r12 (.reg .rax),
  .adox .r13 (.reg .rbx),
  .adcx .r13 (.reg .rcx),
  .adox .r14 (.reg .rcx),
  .adc (.reg .r14) (.reg .rcx),
  .xor (.reg .rcx) (.reg .rcx),
  .adcx .r9 (.reg .r9),
  .adox .r9 (.reg .r15),
  .mov (.reg .rdx) (.mem ⟨some .rsp, none, 8#64⟩),
  .mulx .rdx .rax (.reg .rdx),
  .adcx .r10 (.reg .r10),
  .adox .r10 (.reg .rax),
  .adcx .r11 (.reg .r11),
  .adox .r11 (.reg .rdx),
  .mov (.reg .rdx) (.mem ⟨some .rsp, none, 0x10#64⟩),
  .mulx .rdx .rax (.reg .rdx),
  .adcx .r12 (.reg .r12),
  .adox .r12 (.reg .rax),
  .adcx .r13 (.reg .r13),
  .adox .r13 (.reg .rdx),
  .mov (.reg .rdx) (.mem ⟨some .rsp, none, 0x18#64⟩),
  .mulx .r15 .rax (.reg .rdx),
  .adcx .r14 (.reg .r14),
  .adox .r14 (.reg .rax),
  .adcx .r15 (.reg .rcx),
  .adox .r15 (.reg .rcx),
  .xor (.reg .rcx) (.reg .rcx),
  .mov (.reg .rdx) (.imm 0x100000000#64),
  .mulx .rbx .rax (.reg .r8),
  .adcx .r9 (.reg .rax),
  .adox .r10 (.reg .rbx),
  .mulx .rbx .rax (.reg .r9),
  .adcx .r10 (.reg .rax),
  .adox .r11 (.reg .rbx),
  .mov (.reg .rdx) (.imm 0xffffffff00000001#64),
  .mulx .rbx .rax (.reg .r8),
  .adcx .r11 (.reg .rax),
  .adox .r12 (.reg .rbx),
  .mulx .rbx .rax (.reg .r9),
  .adcx .r12 (.reg .rax),
  .adox .r13 (.reg .rbx),
  .adcx .r13 (.reg .rcx),
  .mov32 .r9 .rcx,
  .adox .r9 (.reg .rcx),
  .adcx .r9 (.reg .rcx),
  .add (.reg .r14) (.reg .r9),
  .adc (.reg .r15) (.reg .rcx),
  .mov32 .r8 .rcx,
  .adc (.reg .r8) (.reg .rcx),
  .xor (.reg .rcx) (.reg .rcx),
  .mov (.reg .rdx) (.imm 0x100000000#64),
  .mulx .rbx .rax (.reg .r10),
  .adcx .r11 (.reg .rax),
  .adox .r12 (.reg .rbx),
  .mulx .rbx .rax (.reg .r11),
  .adcx .r12 (.reg .rax),
  .adox .r13 (.reg .rbx),
  .mov (.reg .rdx) (.imm 0xffffffff00000001#64),
  .mulx .rbx .rax (.reg .r10),
  .adcx .r13 (.reg .rax),
  .adox .r14 (.reg .rbx),
  .mulx .rbx .rax (.reg .r11),
  .adcx .r14 (.reg .rax),
  .adox .r15 (.reg .rbx),
  .adcx .r15 (.reg .rcx),
  .adox .r8 (.reg .rcx),
  .adc (.reg .r8) (.reg .rcx),
  .mov (.reg .rbx) (.imm 1#64),
  .add (.reg .rbx) (.reg .r12),
  .lea .rdx ⟨some .rdx, none, 0xffffffffffffffff#64⟩,
  .adc (.reg .rdx) (.reg .r13),
  .lea .rcx ⟨some .rcx, none, 0xffffffffffffffff#64⟩,
  .mov (.reg .rax) (.reg .rcx),
  .adc (.reg .rcx) (.reg .r14),
  .mov (.reg .r11) (.imm 0xfffffffe#64),
  .adc (.reg .r11) (.reg .r15),
  .adc (.reg .rax) (.reg .r8),
  .cmov .cy .r12 (.reg .rbx),
  .cmov .cy .r13 (.reg .rdx),
  .cmov .cy .r14 (.reg .rcx),
  .cmov .cy .r15 (.reg .r11)]
def outs : List Reg := [.r12, .r13, .r14, .r15]
def X : List Nat := [0, 1, 2, 3]
def M : List Nat := [5, 73, 79, 109]
def V : List Nat := [115, 121, 127, 131]
def t : Nat := 135
def U : List Nat := [137, 139, 141, 143]
def D : Nat := 145
def c : Nat := 146
def Z : List Nat := [147, 148, 149, 150]
def hints : List (Nat × Hint) := [(18, ⟨18446744073709551616, [(3, 1)], false⟩),
  (19, ⟨18446744073709551616, [(3, 1)], false⟩),
  (39, ⟨340282366920938463463374607431768211456, [(9, 1), (5, 18446744073709551616), (3, 18446744073709551616)], false⟩),
  (40, ⟨115792089237316195423570985008687907853269984665640564039457584007913129639936, [(19, 1), (13, 18446744073709551616), (9, 340282366920938463463374607431768211456), (3, 6277101735386680763835789423207666416102355444464034512896)], false⟩)]
def claims : List Claim := [
  .rel [.lin 0x10000000000000000000000000000000000000000000000000000000000000000 V, .lin 0x100000000000000000000000000000000000000000000000000000000000000000000000000000000000000000000000000000000000000000000000000000000 [t], .lin (-0xffffffff00000001000000000000000000000000ffffffffffffffffffffffff) M, .mul (-0x1) X X],
  .rel [.lin 0x1 U, .lin 0x10000000000000000000000000000000000000000000000000000000000000000 [D], .lin 0x100000000000000000000000000000000000000000000000000000000000000000000000000000000 [c], .one (-0xffffffffffffffff00000000fffffffeffffffffffffffffffffffff000000000000000000000001), .lin (-0x1) V, .lin (-0x10000000000000000000000000000000000000000000000000000000000000000) [t]],
  .sel Z c U V,
  .reg outs Z,
  .le c 0x1]
set_option maxRecDepth 100000 in
theorem verified : verify [⟨.rsp, 5, 0, true⟩] [0] hints body claims = true := by decide +kernel
def mac : Mac := ⟨1, 4, 0, body, outs, [.rax, .rbx, .rcx, .rdx, .r8, .r9, .r10, .r11, .r12, .r13, .r14, .r15]⟩
end Sqr256

namespace Sqs256
def body : Prog := [
  .mov (.reg .rdx) (.mem ⟨some .rsp, none, 0#64⟩),
  .mulx .r15 .r8 (.reg .rdx),
  .mulx .r10 .r9 (.mem ⟨some .rsp, none, 8#64⟩),
  .mulx .r12 .r11 (.mem ⟨some .rsp, none, 0x18#64⟩),
  .mov (.reg .rdx) (.mem ⟨some .rsp, none, 0x10#64⟩),
  .mulx .r14 .r13 (.mem ⟨some .rsp, none, 0x18#64⟩),
  .xor (.reg .rbp) (.reg .rbp),
  .mulx .rbx .rax (.mem ⟨some .rsp, none, 0#64⟩),
  .adcx .r10 (.reg .rax),
  .adox .r11 (.reg .rbx),
  .mulx .rbx .rax (.mem ⟨some .rsp, none, 8#64⟩),
  .adcx .r11 (.reg .rax),
  .adox .r12 (.reg .rbx),
  .mov (.reg .rdx) (.mem ⟨some .rsp, none, 0x18#64⟩),
  .mulx .rbx .rax (.mem ⟨some .rsp, none, 8#64⟩),
  .adcx .r12 (.reg .rax),
  .adox .r13 (.reg .rbx),
  .adcx .r13 (.reg .rbp),
  .adox .r14 (.reg .rbp),
  .adc (.reg .r14) (.reg .rbp),
  .xor (.reg .rbp) (.reg .rbp),
  .adcx .r9 (.reg .r9),
  .adox .r9 (.reg .r15),
  .mov (.reg .rdx) (.mem ⟨some .rsp, none, 8#64⟩),
  .mulx .rdx .rax (.reg .rdx),
  .adcx .r10 (.reg .r10),
  .adox .r10 (.reg .rax),
  .adcx .r11 (.reg .r11),
  .adox .r11 (.reg .rdx),
  .mov (.reg .rdx) (.mem ⟨some .rsp, none, 0x10#64⟩),
  .mulx .rdx .rax (.reg .rdx),
  .adcx .r12 (.reg .r12),
  .adox .r12 (.reg .rax),
  .adcx .r13 (.reg .r13),
  .adox .r13 (.reg .rdx),
  .mov (.reg .rdx) (.mem ⟨some .rsp, none, 0x18#64⟩),
  .mulx .r15 .rax (.reg .rdx),
  .adcx .r14 (.reg .r14),
  .adox .r14 (.reg .rax),
  .adcx .r15 (.reg .rbp),
  .adox .r15 (.reg .rbp),
  .xor (.reg .rbp) (.reg .rbp),
  .mov (.reg .rdx) (.imm 0x100000000#64),
  .mulx .rbx .rax (.reg .r8),
  .adcx .r9 (.reg .rax),
  .adox .r10 (.reg .rbx),
  .mulx .rbx .rax (.reg .r9),
  .adcx .r10 (.reg .rax),
  .adox .r11 (.reg .rbx),
  .mov (.reg .rdx) (.imm 0xffffffff00000001#64),
  .mulx .rbx .rax (.reg .r8),
  .adcx .r11 (.reg .rax),
  .adox .r12 (.reg .rbx),
  .mulx .rbx .rax (.reg .r9),
  .adcx .r12 (.reg .rax),
  .adox .r13 (.reg .rbx),
  .adcx .r13 (.reg .rbp),
  .mov32 .r9 .rbp,
  .adox .r9 (.reg .rbp),
  .adcx .r9 (.reg .rbp),
  .add (.reg .r14) (.reg .r9),
  .adc (.reg .r15) (.reg .rbp),
  .mov32 .r8 .rbp,
  .adc (.reg .r8) (.reg .rbp),
  .xor (.reg .rbp) (.reg .rbp),
  .mov (.reg .rdx) (.imm 0x100000000#64),
  .mulx .rbx .rax (.reg .r10),
  .adcx .r11 (.reg .rax),
  .adox .r12 (.reg .rbx),
  .mulx .rbx .rax (.reg .r11),
  .adcx .r12 (.reg .rax),
  .adox .r13 (.reg .rbx),
  .mov (.reg .rdx) (.imm 0xffffffff00000001#64),
  .mulx .rbx .rax (.reg .r10),
  .adcx .r13 (.reg .rax),
  .adox .r14 (.reg .rbx),
  .mulx .rbx .rax (.reg .r11),
  .adcx .r14 (.reg .rax),
  .adox .r15 (.reg .rbx),
  .adcx .r15 (.reg .rbp),
  .adox .r8 (.reg .rbp),
  .adc (.reg .r8) (.reg .rbp),
  .mov (.reg .rcx) (.imm 1#64),
  .add (.reg .rcx) (.reg .r12),
  .lea .rdx ⟨some .rdx, none, 0xffffffffffffffff#64⟩,
  .adc (.reg .rdx) (.reg .r13),
  .lea .rbp ⟨some .rbp, none, 0xffffffffffffffff#64⟩,
  .mov (.reg .rax) (.reg .rbp),
  .adc (.reg .rbp) (.reg .r14),
  .mov (.reg .r11) (.imm 0xfffffffe#64),
  .adc (.reg .r11) (.reg .r15),
  .adc (.reg .rax) (.reg .r8),
  .cmov .cy .r12 (.reg .rcx),
  .cmov .cy .r13 (.reg .rdx),
  .cmov .cy .r14 (.reg .rbp),
  .cmov .cy .r15 (.reg .r11)]
def outs : List Reg := [.r12, .r13, .r14, .r15]
def X : List Nat := [0, 1, 2, 3]
def M : List Nat := [5, 73, 79, 109]
def V : List Nat := [115, 121, 127, 131]
def t : Nat := 135
def U : List Nat := [137, 139, 141, 143]
def D : Nat := 145
def c : Nat := 146
def Z : List Nat := [147, 148, 149, 150]
def hints : List (Nat × Hint) := [(18, ⟨18446744073709551616, [(3, 1)], false⟩),
  (19, ⟨18446744073709551616, [(3, 1)], false⟩),
  (39, ⟨340282366920938463463374607431768211456, [(9, 1), (5, 18446744073709551616), (3, 18446744073709551616)], false⟩),
  (40, ⟨115792089237316195423570985008687907853269984665640564039457584007913129639936, [(19, 1), (13, 18446744073709551616), (9, 340282366920938463463374607431768211456), (3, 6277101735386680763835789423207666416102355444464034512896)], false⟩)]
def claims : List Claim := [
  .rel [.lin 0x10000000000000000000000000000000000000000000000000000000000000000 V, .lin 0x100000000000000000000000000000000000000000000000000000000000000000000000000000000000000000000000000000000000000000000000000000000 [t], .lin (-0xffffffff00000001000000000000000000000000ffffffffffffffffffffffff) M, .mul (-0x1) X X],
  .rel [.lin 0x1 U, .lin 0x10000000000000000000000000000000000000000000000000000000000000000 [D], .lin 0x100000000000000000000000000000000000000000000000000000000000000000000000000000000 [c], .one (-0xffffffffffffffff00000000fffffffeffffffffffffffffffffffff000000000000000000000001), .lin (-0x1) V, .lin (-0x10000000000000000000000000000000000000000000000000000000000000000) [t]],
  .sel Z c U V,
  .reg outs Z,
  .le c 0x1]
set_option maxRecDepth 100000 in
theorem verified : verify [⟨.rsp, 5, 0, true⟩] [0] hints body claims = true := by decide +kernel
def mac : Mac := ⟨1, 4, 0, body, outs, [.rax, .rbx, .rcx, .rdx, .rbp, .r8, .r9, .r10, .r11, .r12, .r13, .r14, .r15]⟩
end Sqs256

namespace Ams256
def body : Prog := [
  .mov (.reg .rdx) (.mem ⟨some .rsp, none, 0#64⟩),
  .mulx .r15 .r8 (.reg .rdx),
  .mulx .r10 .r9 (.mem ⟨some .rsp, none, 8#64⟩),
  .mulx .r12 .r11 (.mem ⟨some .rsp, none, 0x18#64⟩),
  .mov (.reg .rdx) (.mem ⟨some .rsp, none, 0x10#64⟩),
  .mulx .r14 .r13 (.mem ⟨some .rsp, none, 0x18#64⟩),
  .xor (.reg .rcx) (.reg .rcx),
  .mulx .rbx .rax (.mem ⟨some .rsp, none, 0#64⟩),
  .adcx .r10 (.reg .rax),
  .adox .r11 (.reg .rbx),
  .mulx .rbx .rax (.mem ⟨some .rsp, none, 8#64⟩),
  .adcx .r11 (.reg .rax),
  .adox .r12 (.reg .rbx),
  .mov (.reg .rdx) (.mem ⟨some .rsp, none, 0x18#64⟩),
  .mulx .rbx .rax (.mem ⟨some .rsp, none, 8#64⟩),
  .adcx .r12 (.reg .rax),
  .adox .r13 (.reg .rbx),
  .adcx .r13 (.reg .rcx),
  .adox .r14 (.reg .rcx),
  .adc (.reg .r14) (.reg .rcx),
  .xor (.reg .rcx) (.reg .rcx),
  .adcx .r9 (.reg .r9),
  .adox .r9 (.reg .r15),
  .mov (.reg .rdx) (.mem ⟨some .rsp, none, 8#64⟩),
  .mulx .rdx .rax (.reg .rdx),
  .adcx .r10 (.reg .r10),
  .adox .r10 (.reg .rax),
  .adcx .r11 (.reg .r11),
  .adox .r11 (.reg .rdx),
  .mov (.reg .rdx) (.mem ⟨some .rsp, none, 0x10#64⟩),
  .mulx .rdx .rax (.reg .rdx),
  .adcx .r12 (.reg .r12),
  .adox .r12 (.reg .rax),
  .adcx .r13 (.reg .r13),
  .adox .r13 (.reg .rdx),
  .mov (.reg .rdx) (.mem ⟨some .rsp, none, 0x18#64⟩),
  .mulx .r15 .rax (.reg .rdx),
  .adcx .r14 (.reg .r14),
  .adox .r14 (.reg .rax),
  .adcx .r15 (.reg .rcx),
  .adox .r15 (.reg .rcx),
  .xor (.reg .rcx) (.reg .rcx),
  .mov (.reg .rdx) (.imm 0x100000000#64),
  .mulx .rbx .rax (.reg .r8),
  .adcx .r9 (.reg .rax),
  .adox .r10 (.reg .rbx),
  .mulx .rbx .rax (.reg .r9),
  .adcx .r10 (.reg .rax),
  .adox .r11 (.reg .rbx),
  .mov (.reg .rdx) (.imm 0xffffffff00000001#64),
  .mulx .rbx .rax (.reg .r8),
  .adcx .r11 (.reg .rax),
  .adox .r12 (.reg .rbx),
  .mulx .rbx .rax (.reg .r9),
  .adcx .r12 (.reg .rax),
  .adox .r13 (.reg .rbx),
  .adcx .r13 (.reg .rcx),
  .mov32 .r9 .rcx,
  .adox .r9 (.reg .rcx),
  .adcx .r9 (.reg .rcx),
  .add (.reg .r14) (.reg .r9),
  .adc (.reg .r15) (.reg .rcx),
  .mov32 .r8 .rcx,
  .adc (.reg .r8) (.reg .rcx),
  .xor (.reg .rcx) (.reg .rcx),
  .mov (.reg .rdx) (.imm 0x100000000#64),
  .mulx .rbx .rax (.reg .r10),
  .adcx .r11 (.reg .rax),
  .adox .r12 (.reg .rbx),
  .mulx .rbx .rax (.reg .r11),
  .adcx .r12 (.reg .rax),
  .adox .r13 (.reg .rbx),
  .mov (.reg .rdx) (.imm 0xffffffff00000001#64),
  .mulx .rbx .rax (.reg .r10),
  .adcx .r13 (.reg .rax),
  .adox .r14 (.reg .rbx),
  .mulx .rbx .rax (.reg .r11),
  .adcx .r14 (.reg .rax),
  .adox .r15 (.reg .rbx),
  .adcx .r15 (.reg .rcx),
  .adox .r8 (.reg .rcx),
  .adc (.reg .r8) (.reg .rcx),
  .mov (.reg .r8) (.imm 1#64),
  .lea .rdx ⟨some .rdx, none, 0xffffffffffffffff#64⟩,
  .lea .rax ⟨some .rcx, none, 0xffffffffffffffff#64⟩,
  .mov (.reg .r11) (.imm 0xfffffffe#64),
  .cmov .zr .r8 (.reg .rcx),
  .cmov .zr .rdx (.reg .rcx),
  .cmov .zr .rax (.reg .rcx),
  .cmov .zr .r11 (.reg .rcx),
  .add (.reg .r12) (.reg .r8),
  .adc (.reg .r13) (.reg .rdx),
  .adc (.reg .r14) (.reg .rax),
  .adc (.reg .r15) (.reg .r11)]
def outs : List Reg := [.r12, .r13, .r14, .r15]
def X : List Nat := [0, 1, 2, 3]
def M : List Nat := [5, 73, 79, 109]
def V : List Nat := [115, 121, 127, 131]
def t : Nat := 135
def K : List Nat := [137, 138, 139, 140]
def Z : List Nat := [141, 143, 145, 147]
def c : Nat := 148
def hints : List (Nat × Hint) := [(18, ⟨18446744073709551616, [(3, 1)], false⟩),
  (19, ⟨18446744073709551616, [(3, 1)], false⟩),
  (39, ⟨340282366920938463463374607431768211456, [(9, 1), (5, 18446744073709551616), (3, 18446744073709551616)], false⟩),
  (40, ⟨115792089237316195423570985008687907853269984665640564039457584007913129639936, [(19, 1), (13, 18446744073709551616), (9, 340282366920938463463374607431768211456), (3, 6277101735386680763835789423207666416102355444464034512896)], false⟩)]
def claims : List Claim := [
  .rel [.lin 0x10000000000000000000000000000000000000000000000000000000000000000 V, .lin 0x100000000000000000000000000000000000000000000000000000000000000000000000000000000000000000000000000000000000000000000000000000000 [t], .lin (-0xffffffff00000001000000000000000000000000ffffffffffffffffffffffff) M, .mul (-0x1) X X],
  .rel [.lin 0x1 Z, .lin 0x10000000000000000000000000000000000000000000000000000000000000000 [c], .lin (-0x1) V, .lin (-0x1) K],
  .selzc 137 t 0 0x1,
  .selzc 138 t 0 0xffffffff00000000,
  .selzc 139 t 0 0xffffffffffffffff,
  .selzc 140 t 0 0xfffffffe,
  .reg outs Z,
  .le c 0x1]
set_option maxRecDepth 100000 in
theorem verified : verify [⟨.rsp, 5, 0, true⟩] [0] hints body claims = true := by decide +kernel
def mac : Mac := ⟨2, 4, 0, body, outs, [.rax, .rbx, .rcx, .rdx, .r8, .r9, .r10, .r11, .r12, .r13, .r14, .r15]⟩
end Ams256

namespace Sub256
def body : Prog := [
  .mov (.reg .rax) (.mem ⟨some .rsp, none, 0#64⟩),
  .sub (.reg .rax) (.mem ⟨some .rsp, none, 0x20#64⟩),
  .mov (.reg .rcx) (.mem ⟨some .rsp, none, 8#64⟩),
  .sbb (.reg .rcx) (.mem ⟨some .rsp, none, 0x28#64⟩),
  .mov (.reg .r8) (.mem ⟨some .rsp, none, 0x10#64⟩),
  .sbb (.reg .r8) (.mem ⟨some .rsp, none, 0x30#64⟩),
  .mov (.reg .r9) (.mem ⟨some .rsp, none, 0x18#64⟩),
  .sbb (.reg .r9) (.mem ⟨some .rsp, none, 0x38#64⟩),
  .mov (.reg .r10) (.imm 0xffffffff#64),
  .sbb (.reg .r11) (.reg .r11),
  .xor (.reg .rdx) (.reg .rdx),
  .and (.reg .r10) (.reg .r11),
  .sub (.reg .rdx) (.reg .r10),
  .add (.reg .rax) (.reg .r11),
  .adc (.reg .rcx) (.reg .r10),
  .adc (.reg .r8) (.imm 0#64),
  .adc (.reg .r9) (.reg .rdx)]
def outs : List Reg := [.rax, .rcx, .r8, .r9]
def X : List Nat := [0, 1, 2, 3]
def Y : List Nat := [4, 5, 6, 7]
def U : List Nat := [9, 11, 13, 15]
def b : Nat := 16
def S : Nat := 19
def d : Nat := 20
def Z : List Nat := [21, 23, 25, 27]
def c : Nat := 28
def hints : List (Nat × Hint) := []
def claims : List Claim := [
  .rel [.lin 0x1 U, .lin (-0x10000000000000000000000000000000000000000000000000000000000000000) [b], .lin (-0x1) X, .lin 0x1 Y],
  .rel [.lin 0x1 [S], .lin 0xffffffff [b], .lin (-0x10000000000000000) [d]],
  .rel [.lin 0x1 Z, .lin 0x10000000000000000000000000000000000000000000000000000000000000000 [c], .lin (-0x1) U, .lin (-0xffffffffffffffff) [b], .lin (-0xffffffff0000000000000000) [b], .lin (-0x1000000000000000000000000000000000000000000000000) [S]],
  .reg outs Z,
  .le b 0x1,
  .le d 0x1,
  .le c 0x1]
set_option maxRecDepth 100000 in
theorem verified : verify [⟨.rsp, 9, 0, true⟩] [0] hints body claims = true := by decide +kernel
def mac : Mac := ⟨3, 4, 4, body, outs, [.rax, .rcx, .rdx, .r8, .r9, .r10, .r11]⟩
end Sub256

namespace Wad256
def body : Prog := [
  .mov (.reg .rax) (.mem ⟨some .rsp, none, 0#64⟩),
  .add (.reg .rax) (.mem ⟨some .rsp, none, 0x20#64⟩),
  .mov (.reg .rcx) (.mem ⟨some .rsp, none, 8#64⟩),
  .adc (.reg .rcx) (.mem ⟨some .rsp, none, 0x28#64⟩),
  .mov (.reg .r8) (.mem ⟨some .rsp, none, 0x10#64⟩),
  .adc (.reg .r8) (.mem ⟨some .rsp, none, 0x30#64⟩),
  .mov (.reg .r9) (.mem ⟨some .rsp, none, 0x18#64⟩),
  .adc (.reg .r9) (.mem ⟨some .rsp, none, 0x38#64⟩),
  .mov (.reg .r10) (.imm 0xffffffff#64),
  .sbb (.reg .r11) (.reg .r11),
  .xor (.reg .rdx) (.reg .rdx),
  .and (.reg .r10) (.reg .r11),
  .sub (.reg .rdx) (.reg .r10),
  .sub (.reg .rax) (.reg .r11),
  .sbb (.reg .rcx) (.reg .r10),
  .sbb (.reg .r8) (.imm 0#64),
  .sbb (.reg .r9) (.reg .rdx)]
def outs : List Reg := [.rax, .rcx, .r8, .r9]
def X : List Nat := [0, 1, 2, 3]
def Y : List Nat := [4, 5, 6, 7]
def U : List Nat := [9, 11, 13, 15]
def b : Nat := 16
def S : Nat := 19
def d : Nat := 20
def Z : List Nat := [21, 23, 25, 27]
def c : Nat := 28
def hints : List (Nat × Hint) := []
def claims : List Claim := [
  .rel [.lin 0x1 U, .lin 0x10000000000000000000000000000000000000000000000000000000000000000 [b], .lin (-0x1) X, .lin (-0x1) Y],
  .rel [.lin 0x1 [S], .lin 0xffffffff [b], .lin (-0x10000000000000000) [d]],
  .rel [.lin 0x1 Z, .lin (-0x10000000000000000000000000000000000000000000000000000000000000000) [c], .lin (-0x1) U, .lin 0xffffffffffffffff [b], .lin 0xffffffff0000000000000000 [b], .lin 0x1000000000000000000000000000000000000000000000000 [S]],
  .reg outs Z,
  .le b 0x1,
  .le d 0x1,
  .le c 0x1]
set_option maxRecDepth 100000 in
theorem verified : verify [⟨.rsp, 9, 0, true⟩] [0] hints body claims = true := by decide +kernel
def mac : Mac := ⟨5, 4, 4, body, outs, [.rax, .rcx, .rdx, .r8, .r9, .r10, .r11]⟩
end Wad256

namespace Add256
def body : Prog := [
  .xor (.reg .r11) (.reg .r11),
  .mov (.reg .rax) (.mem ⟨some .rsp, none, 0#64⟩),
  .add (.reg .rax) (.mem ⟨some .rsp, none, 0x20#64⟩),
  .mov (.reg .rcx) (.mem ⟨some .rsp, none, 8#64⟩),
  .adc (.reg .rcx) (.mem ⟨some .rsp, none, 0x28#64⟩),
  .mov (.reg .r8) (.mem ⟨some .rsp, none, 0x10#64⟩),
  .adc (.reg .r8) (.mem ⟨some .rsp, none, 0x30#64⟩),
  .mov (.reg .r9) (.mem ⟨some .rsp, none, 0x18#64⟩),
  .adc (.reg .r9) (.mem ⟨some .rsp, none, 0x38#64⟩),
  .adc (.reg .r11) (.reg .r11),
  .sub (.reg .rax) (.imm 0xffffffffffffffff#64),
  .mov (.reg .r10) (.imm 0xffffffff#64),
  .sbb (.reg .rcx) (.reg .r10),
  .sbb (.reg .r8) (.imm 0#64),
  .mov (.reg .rdx) (.imm 0xffffffff00000001#64),
  .sbb (.reg .r9) (.reg .rdx),
  .sbb (.reg .r11) (.imm 0#64),
  .and (.reg .r10) (.reg .r11),
  .and (.reg .rdx) (.reg .r11),
  .add (.reg .rax) (.reg .r11),
  .adc (.reg .rcx) (.reg .r10),
  .adc (.reg .r8) (.imm 0#64),
  .adc (.reg .r9) (.reg .rdx)]
def outs : List Reg := [.rax, .rcx, .r8, .r9]
def X : List Nat := [0, 1, 2, 3]
def Y : List Nat := [4, 5, 6, 7]
def U : List Nat := [19, 21, 23, 25]
def D : Nat := 27
def b : Nat := 28
def A1 : Nat := 29
def A2 : Nat := 30
def Z : List Nat := [31, 33, 35, 37]
def c : Nat := 38
def hints : List (Nat × Hint) := []
def claims : List Claim := [
  .rel [.lin 0x1 U, .lin 0x10000000000000000000000000000000000000000000000000000000000000000 [D], .lin (-0x100000000000000000000000000000000000000000000000000000000000000000000000000000000) [b], .lin (-0x1) X, .lin (-0x1) Y, .one 0xffffffff00000001000000000000000000000000ffffffffffffffffffffffff],
  .rel [.lin 0x1 Z, .lin 0x10000000000000000000000000000000000000000000000000000000000000000 [c], .lin (-0x1) U, .lin (-0x1) [D], .lin (-0x10000000000000000) [A1], .lin (-0x1000000000000000000000000000000000000000000000000) [A2]],
  .andc A1 D 0xffffffff,
  .andc A2 D 0xffffffff00000001,
  .reg outs Z,
  .le b 0x1,
  .le c 0x1]
set_option maxRecDepth 100000 in
theorem verified : verify [⟨.rsp, 9, 0, true⟩] [0] hints body claims = true := by decide +kernel
def mac : Mac := ⟨4, 4, 4, body, outs, [.rax, .rcx, .rdx, .r8, .r9, .r10, .r11]⟩
end Add256

namespace Cms256
def body : Prog := [
  .mov (.reg .r8) (.imm 0xffffffffffffffff#64),
  .xor (.reg .r10) (.reg .r10),
  .sub (.reg .r8) (.mem ⟨some .rsp, none, 0x20#64⟩),
  .mov (.reg .r9) (.imm 0xffffffff#64),
  .sbb (.reg .r9) (.mem ⟨some .rsp, none, 0x28#64⟩),
  .sbb (.reg .r10) (.mem ⟨some .rsp, none, 0x30#64⟩),
  .mov (.reg .r11) (.imm 0xffffffff00000001#64),
  .sbb (.reg .r11) (.mem ⟨some .rsp, none, 0x38#64⟩),
  .xor (.reg .r12) (.reg .r12),
  .mov (.reg .rdx) (.imm 9#64),
  .mulx .rax .r8 (.reg .r8),
  .mulx .rcx .r9 (.reg .r9),
  .add (.reg .r9) (.reg .rax),
  .mulx .rax .r10 (.reg .r10),
  .adc (.reg .r10) (.reg .rcx),
  .mulx .rcx .r11 (.reg .r11),
  .adc (.reg .r11) (.reg .rax),
  .adc (.reg .r12) (.reg .rcx),
  .mov (.reg .rdx) (.imm 0xc#64),
  .xor (.reg .rax) (.reg .rax),
  .mulx .rcx .rax (.mem ⟨some .rsp, none, 0#64⟩),
  .adcx .r8 (.reg .rax),
  .adox .r9 (.reg .rcx),
  .mulx .rcx .rax (.mem ⟨some .rsp, none, 8#64⟩),
  .adcx .r9 (.reg .rax),
  .adox .r10 (.reg .rcx),
  .mulx .rcx .rax (.mem ⟨some .rsp, none, 0x10#64⟩),
  .adcx .r10 (.reg .rax),
  .adox .r11 (.reg .rcx),
  .mulx .rdx .rax (.mem ⟨some .rsp, none, 0x18#64⟩),
  .adcx .r11 (.reg .rax),
  .adox .rdx (.reg .r12),
  .adc (.reg .rdx) (.imm 1#64),
  .add (.reg .r8) (.reg .rdx),
  .mov (.reg .rax) (.imm 0x100000000#64),
  .mulx .rcx .rax (.reg .rax),
  .sbb (.reg .rax) (.imm 0#64),
  .sbb (.reg .rcx) (.imm 0#64),
  .sub (.reg .r9) (.reg .rax),
  .sbb (.reg .r10) (.reg .rcx),
  .mov (.reg .rax) (.imm 0xffffffff00000001#64),
  .mulx .rcx .rax (.reg .rax),
  .sbb (.reg .r11) (.reg .rax),
  .sbb (.reg .rdx) (.reg .rcx),
  .dec (.reg .rdx),
  .mov (.reg .rax) (.imm 0xffffffff#64),
  .and (.reg .rax) (.reg .rdx),
  .xor (.reg .rcx) (.reg .rcx),
  .sub (.reg .rcx) (.reg .rax),
  .add (.reg .r8) (.reg .rdx),
  .adc (.reg .r9) (.reg .rax),
  .adc (.reg .r10) (.imm 0#64),
  .adc (.reg .r11) (.reg .rcx)]
def outs : List Reg := [.r8, .r9, .r10, .r11]
def X : List Nat := [0, 1, 2, 3]
def Y : List Nat := [4, 5, 6, 7]
def N : List Nat := [9, 11, 13, 15]
def n : Nat := 16
def E : List Nat := [35, 41, 47, 53]
def q : Nat := 57
def U : List Nat := [59, 67, 69, 73]
def D : Nat := 77
def b1 : Nat := 76
def b2 : Nat := 78
def Z : List Nat := [82, 84, 86, 88]
def A : Nat := 79
def S : Nat := 80
def d : Nat := 81
def c : Nat := 89
def hints : List (Nat × Hint) := [(17, ⟨18446744073709551616, [(15, (-9)), (1, 1)], false⟩),
  (31, ⟨18446744073709551616, [(39, (-9)), (5, 1), (3, 1)], false⟩),
  (32, ⟨18446744073709551616, [(41, (-9)), (3, 1)], false⟩),
  (37, ⟨340282366920938463463374607431768211456, [(29, (-1)), (7, 79228162514264337593543950335), (5, 1), (1, (-18446744073709551616))], false⟩)]
def claims : List Claim := [
  .rel [.lin 0x1 N, .lin (-0x10000000000000000000000000000000000000000000000000000000000000000) [n], .lin 0x1 Y, .one (-0xffffffff00000001000000000000000000000000ffffffffffffffffffffffff)],
  .rel [.lin 0x1 E, .lin 0x10000000000000000000000000000000000000000000000000000000000000000 [q], .lin (-0xc) X, .one (-0x10000000000000000000000000000000000000000000000000000000000000000), .lin (-0x9) N],
  .rel [.lin 0x1 U, .lin 0x10000000000000000000000000000000000000000000000000000000000000000 [D], .lin (-0x1) E, .lin (-0x10000000000000000000000000000000000000000000000000000000000000000) [q], .one 0x10000000000000000000000000000000000000000000000000000000000000000, .lin 0xffffffff00000001000000000000000000000000ffffffffffffffffffffffff [q], .lin (-0x100000000000000000000000000000000000000000000000000000000000000000000000000000000) [b1], .lin (-0x100000000000000000000000000000000000000000000000000000000000000000000000000000000) [b2]],
  .rel [.lin 0x1 [S], .lin 0x1 [A], .lin (-0x10000000000000000) [d]],
  .rel [.lin 0x1 Z, .lin (-0x1) U, .lin (-0x1) [D], .lin (-0x10000000000000000) [A], .lin (-0x1000000000000000000000000000000000000000000000000) [S], .lin 0x10000000000000000000000000000000000000000000000000000000000000000 [c]],
  .andc A D 0xffffffff,
  .reg outs Z,
  .le n 0x1,
  .le b1 0x1,
  .le b2 0x1,
  .le d 0x1,
  .le c 0x1]
set_option maxRecDepth 100000 in
theorem verified : verify [⟨.rsp, 9, 0, true⟩] [0] hints body claims = true := by decide +kernel
def mac : Mac := ⟨6, 4, 4, body, outs, [.rax, .rcx, .rdx, .r8, .r9, .r10, .r11, .r12]⟩
end Cms256

namespace Cmf256
def body : Prog := [
  .mov (.reg .r11) (.mem ⟨some .rsp, none, 0x18#64⟩),
  .mov (.reg .rdx) (.reg .r11),
  .mov (.reg .r10) (.mem ⟨some .rsp, none, 0x10#64⟩),
  .shld (.reg .r11) .r10 (.imm 2#64),
  .mov (.reg .r9) (.mem ⟨some .rsp, none, 8#64⟩),
  .shld (.reg .r10) .r9 (.imm 2#64),
  .mov (.reg .r8) (.mem ⟨some .rsp, none, 0#64⟩),
  .shld (.reg .r9) .r8 (.imm 2#64),
  .shl (.reg .r8) (.imm 2#64),
  .shr (.reg .rdx) (.imm 0x3e#64),
  .add (.reg .rdx) (.imm 1#64),
  .sub (.reg .r8) (.mem ⟨some .rsp, none, 0x20#64⟩),
  .sbb (.reg .r9) (.mem ⟨some .rsp, none, 0x28#64⟩),
  .sbb (.reg .r10) (.mem ⟨some .rsp, none, 0x30#64⟩),
  .sbb (.reg .r11) (.mem ⟨some .rsp, none, 0x38#64⟩),
  .sbb (.reg .rdx) (.imm 0#64),
  .add (.reg .r8) (.reg .rdx),
  .mov (.reg .rax) (.imm 0x100000000#64),
  .mulx .rcx .rax (.reg .rax),
  .sbb (.reg .rax) (.imm 0#64),
  .sbb (.reg .rcx) (.imm 0#64),
  .sub (.reg .r9) (.reg .rax),
  .sbb (.reg .r10) (.reg .rcx),
  .mov (.reg .rax) (.imm 0xffffffff00000001#64),
  .mulx .rcx .rax (.reg .rax),
  .sbb (.reg .r11) (.reg .rax),
  .sbb (.reg .rdx) (.reg .rcx),
  .dec (.reg .rdx),
  .mov (.reg .rax) (.imm 0xffffffff#64),
  .and (.reg .rax) (.reg .rdx),
  .xor (.reg .rcx) (.reg .rcx),
  .sub (.reg .rcx) (.reg .rax),
  .add (.reg .r8) (.reg .rdx),
  .adc (.reg .r9) (.reg .rax),
  .adc (.reg .r10) (.imm 0#64),
  .adc (.reg .r11) (.reg .rcx)]
def outs : List Reg := [.r8, .r9, .r10, .r11]
def X : List Nat := [0, 1, 2, 3]
def Y : List Nat := [4, 5, 6, 7]
def E : List Nat := [23, 25, 27, 29]
def q : Nat := 31
def k1 : Nat := 22
def k2 : Nat := 32
def U : List Nat := [33, 41, 43, 47]
def D : Nat := 51
def b1 : Nat := 50
def b2 : Nat := 52
def Z : List Nat := [56, 58, 60, 62]
def A : Nat := 53
def S : Nat := 54
def d : Nat := 55
def c : Nat := 63
def hints : List (Nat × Hint) := [(20, ⟨340282366920938463463374607431768211456, [(15, (-1)), (7, 79228162514264337593543950335), (5, 1), (1, (-18446744073709551616))], false⟩)]
def claims : List Claim := [
  .rel [.lin 0x1 E, .lin 0x10000000000000000000000000000000000000000000000000000000000000000 [q], .lin (-0x4) X, .one (-0x10000000000000000000000000000000000000000000000000000000000000000), .lin 0x1 Y, .lin 0x100000000000000000000000000000000000000000000000000000000000000000000000000000000 [k1], .lin (-0x100000000000000000000000000000000000000000000000000000000000000000000000000000000) [k2]],
  .rel [.lin 0x1 U, .lin 0x10000000000000000000000000000000000000000000000000000000000000000 [D], .lin (-0x1) E, .lin (-0x10000000000000000000000000000000000000000000000000000000000000000) [q], .one 0x10000000000000000000000000000000000000000000000000000000000000000, .lin 0xffffffff00000001000000000000000000000000ffffffffffffffffffffffff [q], .lin (-0x100000000000000000000000000000000000000000000000000000000000000000000000000000000) [b1], .lin (-0x100000000000000000000000000000000000000000000000000000000000000000000000000000000) [b2]],
  .rel [.lin 0x1 [S], .lin 0x1 [A], .lin (-0x10000000000000000) [d]],
  .rel [.lin 0x1 Z, .lin (-0x1) U, .lin (-0x1) [D], .lin (-0x10000000000000000) [A], .lin (-0x1000000000000000000000000000000000000000000000000) [S], .lin 0x10000000000000000000000000000000000000000000000000000000000000000 [c]],
  .andc A D 0xffffffff,
  .reg outs Z,
  .le k1 0x1,
  .le k2 0x1,
  .le b1 0x1,
  .le b2 0x1,
  .le d 0x1,
  .le c 0x1]
set_option maxRecDepth 100000 in
theorem verified : verify [⟨.rsp, 9, 0, true⟩] [0] hints body claims = true := by decide +kernel
def mac : Mac := ⟨7, 4, 4, body, outs, [.rax, .rcx, .rdx, .r8, .r9, .r10, .r11]⟩
end Cmf256

namespace Cmt256
def body : Prog := [
  .mov (.reg .r8) (.imm 0xffffffffffffffff#64),
  .xor (.reg .r10) (.reg .r10),
  .sub (.reg .r8) (.mem ⟨some .rsp, none, 0x20#64⟩),
  .mov (.reg .r9) (.imm 0xffffffff#64),
  .sbb (.reg .r9) (.mem ⟨some .rsp, none, 0x28#64⟩),
  .sbb (.reg .r10) (.mem ⟨some .rsp, none, 0x30#64⟩),
  .mov (.reg .r11) (.imm 0xffffffff00000001#64),
  .sbb (.reg .r11) (.mem ⟨some .rsp, none, 0x38#64⟩),
  .mov (.reg .r12) (.reg .r11),
  .shld (.reg .r11) .r10 (.imm 3#64),
  .shld (.reg .r10) .r9 (.imm 3#64),
  .shld (.reg .r9) .r8 (.imm 3#64),
  .shl (.reg .r8) (.imm 3#64),
  .shr (.reg .r12) (.imm 0x3d#64),
  .mov (.reg .rdx) (.imm 3#64),
  .xor (.reg .rax) (.reg .rax),
  .mulx .rcx .rax (.mem ⟨some .rsp, none, 0#64⟩),
  .adcx .r8 (.reg .rax),
  .adox .r9 (.reg .rcx),
  .mulx .rcx .rax (.mem ⟨some .rsp, none, 8#64⟩),
  .adcx .r9 (.reg .rax),
  .adox .r10 (.reg .rcx),
  .mulx .rcx .rax (.mem ⟨some .rsp, none, 0x10#64⟩),
  .adcx .r10 (.reg .rax),
  .adox .r11 (.reg .rcx),
  .mulx .rdx .rax (.mem ⟨some .rsp, none, 0x18#64⟩),
  .adcx .r11 (.reg .rax),
  .adox .rdx (.reg .r12),
  .adc (.reg .rdx) (.imm 1#64),
  .add (.reg .r8) (.reg .rdx),
  .mov (.reg .rax) (.imm 0x100000000#64),
  .mulx .rcx .rax (.reg .rax),
  .sbb (.reg .rax) (.imm 0#64),
  .sbb (.reg .rcx) (.imm 0#64),
  .sub (.reg .r9) (.reg .rax),
  .sbb (.reg .r10) (.reg .rcx),
  .mov (.reg .rax) (.imm 0xffffffff00000001#64),
  .mulx .rcx .rax (.reg .rax),
  .sbb (.reg .r11) (.reg .rax),
  .sbb (.reg .rdx) (.reg .rcx),
  .dec (.reg .rdx),
  .mov (.reg .rax) (.imm 0xffffffff#64),
  .and (.reg .rax) (.reg .rdx),
  .xor (.reg .rcx) (.reg .rcx),
  .sub (.reg .rcx) (.reg .rax),
  .add (.reg .r8) (.reg .rdx),
  .adc (.reg .r9) (.reg .rax),
  .adc (.reg .r10) (.imm 0#64),
  .adc (.reg .r11) (.reg .rcx)]
def outs : List Reg := [.r8, .r9, .r10, .r11]
def X : List Nat := [0, 1, 2, 3]
def Y : List Nat := [4, 5, 6, 7]
def N : List Nat := [9, 11, 13, 15]
def n : Nat := 16
def E : List Nat := [31, 37, 43, 49]
def q : Nat := 53
def k1 : Nat := 52
def k2 : Nat := 54
def U : List Nat := [55, 63, 65, 69]
def D : Nat := 73
def b1 : Nat := 72
def b2 : Nat := 74
def Z : List Nat := [78, 80, 82, 84]
def A : Nat := 75
def S : Nat := 76
def d : Nat := 77
def c : Nat := 85
def hints : List (Nat × Hint) := [(33, ⟨340282366920938463463374607431768211456, [(29, (-1)), (7, 79228162514264337593543950335), (5, 1), (1, (-18446744073709551616))], false⟩)]
def claims : List Claim := [
  .rel [.lin 0x1 N, .lin (-0x10000000000000000000000000000000000000000000000000000000000000000) [n], .lin 0x1 Y, .one (-0xffffffff00000001000000000000000000000000ffffffffffffffffffffffff)],
  .rel [.lin 0x1 E, .lin 0x10000000000000000000000000000000000000000000000000000000000000000 [q], .lin (-0x3) X, .one (-0x10000000000000000000000000000000000000000000000000000000000000000), .lin (-0x8) N, .lin 0x100000000000000000000000000000000000000000000000000000000000000000000000000000000 [k1], .lin 0x100000000000000000000000000000000000000000000000000000000000000000000000000000000 [k2]],
  .rel [.lin 0x1 U, .lin 0x10000000000000000000000000000000000000000000000000000000000000000 [D], .lin (-0x1) E, .lin (-0x10000000000000000000000000000000000000000000000000000000000000000) [q], .one 0x10000000000000000000000000000000000000000000000000000000000000000, .lin 0xffffffff00000001000000000000000000000000ffffffffffffffffffffffff [q], .lin (-0x100000000000000000000000000000000000000000000000000000000000000000000000000000000) [b1], .lin (-0x100000000000000000000000000000000000000000000000000000000000000000000000000000000) [b2]],
  .rel [.lin 0x1 [S], .lin 0x1 [A], .lin (-0x10000000000000000) [d]],
  .rel [.lin 0x1 Z, .lin (-0x1) U, .lin (-0x1) [D], .lin (-0x10000000000000000) [A], .lin (-0x1000000000000000000000000000000000000000000000000) [S], .lin 0x10000000000000000000000000000000000000000000000000000000000000000 [c]],
  .andc A D 0xffffffff,
  .reg outs Z,
  .le n 0x1,
  .le k1 0x1,
  .le k2 0x1,
  .le b1 0x1,
  .le b2 0x1,
  .le d 0x1,
  .le c 0x1]
set_option maxRecDepth 100000 in
theorem verified : verify [⟨.rsp, 9, 0, true⟩] [0] hints body claims = true := by decide +kernel
def mac : Mac := ⟨8, 4, 4, body, outs, [.rax, .rcx, .rdx, .r8, .r9, .r10, .r11, .r12]⟩
end Cmt256

end Verif.X86.Sym
