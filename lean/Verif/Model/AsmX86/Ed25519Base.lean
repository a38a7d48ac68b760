import Verif.Model.X86

/-!
Generated by tools/gen_asm.py from `graviola/src/low/x86_64`: the `asm!` blocks as lists of instructions.
The comment at the end of a line gives its position; jump targets are positions.
-/
namespace Verif.X86.Asm
open Verif.X86

/-- low/x86_64/edwards25519_scalarmulbase.rs:372-2338.  Operands: inout("rdi") res.as_mut_ptr() => _; inout("rsi") scalar.as_ptr() => _; Ledwards25519_scalarmulbase_0g = sym Ledwards25519_scalarmulbase_0g; Ledwards25519_scalarmulbase_251g = sym Ledwards25519_scalarmulbase_251g; Ledwards25519_scalarmulbase_gtable = sym Ledwards25519_scalarmulbase_gtable; out("r10") _; out("r11") _; out("r12") _; out("r13") _; out("r14") _; out("r15") _; out("r8") _; out("r9") _; out("rax") _; out("rcx") _; out("rdx") _. -/
def edwards25519Scalarmulbase : Prog := [
  .nop, -- 0: endbr64
  .push .rbx, -- 1: push rbx
  .push .rbp, -- 2: push rbp
  .push .r12, -- 3: push r12
  .push .r13, -- 4: push r13
  .push .r14, -- 5: push r14
  .push .r15, -- 6: push r15
  .sub (.reg .rsp) (.imm 488#64), -- 7: sub rsp, 488
  .mov (.mem ⟨some .rsp, none, 448#64⟩) (.reg .rdi), -- 8: mov QWORD PTR [rsp + 14 * 32], rdi
  .mov (.reg .r8) (.mem ⟨some .rsi, none, 0#64⟩), -- 9: mov r8, [rsi]
  .mov (.reg .r9) (.mem ⟨some .rsi, none, 8#64⟩), -- 10: mov r9, [rsi + 8]
  .mov (.reg .r10) (.mem ⟨some .rsi, none, 16#64⟩), -- 11: mov r10, [rsi + 16]
  .mov (.reg .r11) (.mem ⟨some .rsi, none, 24#64⟩), -- 12: mov r11, [rsi + 24]
  .mov (.reg .rcx) (.reg .r11), -- 13: mov rcx, r11
  .shr (.reg .rcx) (.imm 60#64), -- 14: shr rcx, 60
  .mov (.reg .rax) (.imm 0x5812631a5cf5d3ed#64), -- 15: mov rax, 0x5812631a5cf5d3ed
  .mul (.reg .rcx), -- 16: mul rcx
  .mov (.reg .r12) (.reg .rax), -- 17: mov r12, rax
  .mov (.reg .r13) (.reg .rdx), -- 18: mov r13, rdx
  .mov (.reg .rax) (.imm 0x14def9dea2f79cd6#64), -- 19: mov rax, 0x14def9dea2f79cd6
  .mul (.reg .rcx), -- 20: mul rcx
  .add (.reg .r13) (.reg .rax), -- 21: add r13, rax
  .adc (.reg .rdx) (.imm 0#64), -- 22: adc rdx, 0
  .shl (.reg .rcx) (.imm 60#64), -- 23: shl rcx, 60
  .sub (.reg .r8) (.reg .r12), -- 24: sub r8, r12
  .sbb (.reg .r9) (.reg .r13), -- 25: sbb r9, r13
  .sbb (.reg .r10) (.reg .rdx), -- 26: sbb r10, rdx
  .sbb (.reg .r11) (.reg .rcx), -- 27: sbb r11, rcx
  .sbb (.reg .rax) (.reg .rax), -- 28: sbb rax, rax
  .xor (.reg .r8) (.reg .rax), -- 29: xor r8, rax
  .xor (.reg .r9) (.reg .rax), -- 30: xor r9, rax
  .xor (.reg .r10) (.reg .rax), -- 31: xor r10, rax
  .xor (.reg .r11) (.reg .rax), -- 32: xor r11, rax
  .neg (.reg .rax), -- 33: neg rax
  .adc (.reg .r8) (.imm 0#64), -- 34: adc r8, 0
  .adc (.reg .r9) (.imm 0#64), -- 35: adc r9, 0
  .adc (.reg .r10) (.imm 0#64), -- 36: adc r10, 0
  .adc (.reg .r11) (.imm 0#64), -- 37: adc r11, 0
  .shl (.reg .rax) (.imm 63#64), -- 38: shl rax, 63
  .or (.reg .r11) (.reg .rax), -- 39: or r11, rax
  .mov (.mem ⟨some .rsp, none, 0#64⟩) (.reg .r8), -- 40: mov [rsp + 0], r8
  .mov (.mem ⟨some .rsp, none, 8#64⟩) (.reg .r9), -- 41: mov [rsp + 0+ 8], r9
  .mov (.mem ⟨some .rsp, none, 16#64⟩) (.reg .r10), -- 42: mov [rsp + 0+ 16], r10
  .btr .r11 59#64, -- 43: btr r11, 59
  .mov (.mem ⟨some .rsp, none, 24#64⟩) (.reg .r11), -- 44: mov [rsp + 0+ 24], r11
  .leaSym .r10 0, -- 45: lea r10, [rip + {Ledwards25519_scalarmulbase_0g}]
  .leaSym .r11 1, -- 46: lea r11, [rip + {Ledwards25519_scalarmulbase_251g}]
  .mov (.reg .rax) (.mem ⟨some .r10, none, 0#64⟩), -- 47: mov rax, [r10]
  .mov (.reg .rcx) (.mem ⟨some .r11, none, 0#64⟩), -- 48: mov rcx, [r11]
  .cmov .cy .rax (.reg .rcx), -- 49: cmovc rax, rcx
  .mov (.mem ⟨some .rsp, none, 320#64⟩) (.reg .rax), -- 50: mov [rsp + (10 * 32)], rax
  .mov (.reg .rax) (.mem ⟨some .r10, none, 8#64⟩), -- 51: mov rax, [r10 + 8 * 1]
  .mov (.reg .rcx) (.mem ⟨some .r11, none, 8#64⟩), -- 52: mov rcx, [r11 + 8 * 1]
  .cmov .cy .rax (.reg .rcx), -- 53: cmovc rax, rcx
  .mov (.mem ⟨some .rsp, none, 328#64⟩) (.reg .rax), -- 54: mov [rsp + (10 * 32)+ 8], rax
  .mov (.reg .rax) (.mem ⟨some .r10, none, 16#64⟩), -- 55: mov rax, [r10 + 8 * 2]
  .mov (.reg .rcx) (.mem ⟨some .r11, none, 16#64⟩), -- 56: mov rcx, [r11 + 8 * 2]
  .cmov .cy .rax (.reg .rcx), -- 57: cmovc rax, rcx
  .mov (.mem ⟨some .rsp, none, 336#64⟩) (.reg .rax), -- 58: mov [rsp + (10 * 32)+ 16], rax
  .mov (.reg .rax) (.mem ⟨some .r10, none, 24#64⟩), -- 59: mov rax, [r10 + 8 * 3]
  .mov (.reg .rcx) (.mem ⟨some .r11, none, 24#64⟩), -- 60: mov rcx, [r11 + 8 * 3]
  .cmov .cy .rax (.reg .rcx), -- 61: cmovc rax, rcx
  .mov (.mem ⟨some .rsp, none, 344#64⟩) (.reg .rax), -- 62: mov [rsp + (10 * 32)+ 24], rax
  .mov (.reg .rax) (.mem ⟨some .r10, none, 32#64⟩), -- 63: mov rax, [r10 + 8 * 4]
  .mov (.reg .rcx) (.mem ⟨some .r11, none, 32#64⟩), -- 64: mov rcx, [r11 + 8 * 4]
  .cmov .cy .rax (.reg .rcx), -- 65: cmovc rax, rcx
  .mov (.mem ⟨some .rsp, none, 352#64⟩) (.reg .rax), -- 66: mov [rsp + (10 * 32)+ 32], rax
  .mov (.reg .rax) (.mem ⟨some .r10, none, 40#64⟩), -- 67: mov rax, [r10 + 8 * 5]
  .mov (.reg .rcx) (.mem ⟨some .r11, none, 40#64⟩), -- 68: mov rcx, [r11 + 8 * 5]
  .cmov .cy .rax (.reg .rcx), -- 69: cmovc rax, rcx
  .mov (.mem ⟨some .rsp, none, 360#64⟩) (.reg .rax), -- 70: mov [rsp + (10 * 32)+ 40], rax
  .mov (.reg .rax) (.mem ⟨some .r10, none, 48#64⟩), -- 71: mov rax, [r10 + 8 * 6]
  .mov (.reg .rcx) (.mem ⟨some .r11, none, 48#64⟩), -- 72: mov rcx, [r11 + 8 * 6]
  .cmov .cy .rax (.reg .rcx), -- 73: cmovc rax, rcx
  .mov (.mem ⟨some .rsp, none, 368#64⟩) (.reg .rax), -- 74: mov [rsp + (10 * 32)+ 48], rax
  .mov (.reg .rax) (.mem ⟨some .r10, none, 56#64⟩), -- 75: mov rax, [r10 + 8 * 7]
  .mov (.reg .rcx) (.mem ⟨some .r11, none, 56#64⟩), -- 76: mov rcx, [r11 + 8 * 7]
  .cmov .cy .rax (.reg .rcx), -- 77: cmovc rax, rcx
  .mov (.mem ⟨some .rsp, none, 376#64⟩) (.reg .rax), -- 78: mov [rsp + (10 * 32)+ 56], rax
  .mov (.reg .rax) (.imm 1#64), -- 79: mov eax, 1
  .mov (.mem ⟨some .rsp, none, 384#64⟩) (.reg .rax), -- 80: mov [rsp + (10 * 32)+ 64], rax
  .mov (.reg .rax) (.imm 0#64), -- 81: mov eax, 0
  .mov (.mem ⟨some .rsp, none, 392#64⟩) (.reg .rax), -- 82: mov [rsp + (10 * 32)+ 72], rax
  .mov (.mem ⟨some .rsp, none, 400#64⟩) (.reg .rax), -- 83: mov [rsp + (10 * 32)+ 80], rax
  .mov (.mem ⟨some .rsp, none, 408#64⟩) (.reg .rax), -- 84: mov [rsp + (10 * 32)+ 88], rax
  .mov (.reg .rax) (.mem ⟨some .r10, none, 64#64⟩), -- 85: mov rax, [r10 + 8 * 8]
  .mov (.reg .rcx) (.mem ⟨some .r11, none, 64#64⟩), -- 86: mov rcx, [r11 + 8 * 8]
  .cmov .cy .rax (.reg .rcx), -- 87: cmovc rax, rcx
  .mov (.mem ⟨some .rsp, none, 416#64⟩) (.reg .rax), -- 88: mov [rsp + (10 * 32)+ 96], rax
  .mov (.reg .rax) (.mem ⟨some .r10, none, 72#64⟩), -- 89: mov rax, [r10 + 8 * 9]
  .mov (.reg .rcx) (.mem ⟨some .r11, none, 72#64⟩), -- 90: mov rcx, [r11 + 8 * 9]
  .cmov .cy .rax (.reg .rcx), -- 91: cmovc rax, rcx
  .mov (.mem ⟨some .rsp, none, 424#64⟩) (.reg .rax), -- 92: mov [rsp + (10 * 32)+ 104], rax
  .mov (.reg .rax) (.mem ⟨some .r10, none, 80#64⟩), -- 93: mov rax, [r10 + 8 * 10]
  .mov (.reg .rcx) (.mem ⟨some .r11, none, 80#64⟩), -- 94: mov rcx, [r11 + 8 * 10]
  .cmov .cy .rax (.reg .rcx), -- 95: cmovc rax, rcx
  .mov (.mem ⟨some .rsp, none, 432#64⟩) (.reg .rax), -- 96: mov [rsp + (10 * 32)+ 112], rax
  .mov (.reg .rax) (.mem ⟨some .r10, none, 88#64⟩), -- 97: mov rax, [r10 + 8 * 11]
  .mov (.reg .rcx) (.mem ⟨some .r11, none, 88#64⟩), -- 98: mov rcx, [r11 + 8 * 11]
  .cmov .cy .rax (.reg .rcx), -- 99: cmovc rax, rcx
  .mov (.mem ⟨some .rsp, none, 440#64⟩) (.reg .rax), -- 100: mov [rsp + (10 * 32)+ 120], rax
  .mov (.mem ⟨some .rsp, none, 456#64⟩) (.imm 0#64), -- 101: mov QWORD PTR [rsp + 14 * 32+ 8], 0
  .leaSym .rax 2, -- 102: lea rax, [rip + {Ledwards25519_scalarmulbase_gtable}]
  .mov (.mem ⟨some .rsp, none, 480#64⟩) (.reg .rax), -- 103: mov QWORD PTR [rsp + 15 * 32], rax
  .mov (.mem ⟨some .rsp, none, 464#64⟩) (.imm 0#64), -- 104: mov QWORD PTR [rsp + 14 * 32+ 16], 0
  .mov (.reg .rax) (.mem ⟨some .rsp, none, 456#64⟩), -- 105: mov rax, QWORD PTR [rsp + 14 * 32+ 8]
  .mov (.reg .rcx) (.reg .rax), -- 106: mov rcx, rax
  .shr (.reg .rax) (.imm 6#64), -- 107: shr rax, 6
  .mov (.reg .rax) (.mem ⟨some .rsp, some (.rax, 8#64), 0#64⟩), -- 108: mov rax, [rsp + 8 * rax]
  .shr (.reg .rax) (.reg .rcx), -- 109: shr rax, cl
  .and (.reg .rax) (.imm 15#64), -- 110: and rax, 15
  .add (.reg .rax) (.mem ⟨some .rsp, none, 464#64⟩), -- 111: add rax, QWORD PTR [rsp + 14 * 32+ 16]
  .mov (.mem ⟨some .rsp, none, 472#64⟩) (.reg .rax), -- 112: mov QWORD PTR [rsp + 14 * 32+ 24], rax
  .cmp (.mem ⟨some .rsp, none, 472#64⟩) (.imm 9#64), -- 113: cmp QWORD PTR [rsp + 14 * 32+ 24], 9
  .sbb (.reg .rax) (.reg .rax), -- 114: sbb rax, rax
  .inc (.reg .rax), -- 115: inc rax
  .mov (.mem ⟨some .rsp, none, 464#64⟩) (.reg .rax), -- 116: mov QWORD PTR [rsp + 14 * 32+ 16], rax
  .mov (.reg .rdi) (.imm 16#64), -- 117: mov rdi, 16
  .sub (.reg .rdi) (.mem ⟨some .rsp, none, 472#64⟩), -- 118: sub rdi, QWORD PTR [rsp + 14 * 32+ 24]
  .cmp (.mem ⟨some .rsp, none, 464#64⟩) (.imm 0#64), -- 119: cmp QWORD PTR [rsp + 14 * 32+ 16], 0
  .cmov .zr .rdi (.mem ⟨some .rsp, none, 472#64⟩), -- 120: cmovz rdi, QWORD PTR [rsp + 14 * 32+ 24]
  .mov (.mem ⟨some .rsp, none, 472#64⟩) (.reg .rdi), -- 121: mov QWORD PTR [rsp + 14 * 32+ 24], rdi
  .mov (.reg .rax) (.imm 1#64), -- 122: mov eax, 1
  .xor (.reg .rbx) (.reg .rbx), -- 123: xor ebx, ebx
  .xor (.reg .rcx) (.reg .rcx), -- 124: xor ecx, ecx
  .xor (.reg .rdx) (.reg .rdx), -- 125: xor edx, edx
  .mov (.reg .r8) (.imm 1#64), -- 126: mov r8d, 1
  .xor (.reg .r9) (.reg .r9), -- 127: xor r9d, r9d
  .xor (.reg .r10) (.reg .r10), -- 128: xor r10d, r10d
  .xor (.reg .r11) (.reg .r11), -- 129: xor r11d, r11d
  .xor (.reg .r12) (.reg .r12), -- 130: xor r12d, r12d
  .xor (.reg .r13) (.reg .r13), -- 131: xor r13d, r13d
  .xor (.reg .r14) (.reg .r14), -- 132: xor r14d, r14d
  .xor (.reg .r15) (.reg .r15), -- 133: xor r15d, r15d
  .mov (.reg .rbp) (.mem ⟨some .rsp, none, 480#64⟩), -- 134: mov rbp, QWORD PTR [rsp + 15 * 32]
  .cmp (.mem ⟨some .rsp, none, 472#64⟩) (.imm 1#64), -- 135: cmp QWORD PTR [rsp + 14 * 32+ 24], 1
  .mov (.reg .rsi) (.mem ⟨some .rbp, none, 0#64⟩), -- 136: mov rsi, [rbp]
  .cmov .zr .rax (.reg .rsi), -- 137: cmovz rax, rsi
  .mov (.reg .rsi) (.mem ⟨some .rbp, none, 8#64⟩), -- 138: mov rsi, [rbp + 8]
  .cmov .zr .rbx (.reg .rsi), -- 139: cmovz rbx, rsi
  .mov (.reg .rsi) (.mem ⟨some .rbp, none, 16#64⟩), -- 140: mov rsi, [rbp + 16]
  .cmov .zr .rcx (.reg .rsi), -- 141: cmovz rcx, rsi
  .mov (.reg .rsi) (.mem ⟨some .rbp, none, 24#64⟩), -- 142: mov rsi, [rbp + 24]
  .cmov .zr .rdx (.reg .rsi), -- 143: cmovz rdx, rsi
  .mov (.reg .rsi) (.mem ⟨some .rbp, none, 32#64⟩), -- 144: mov rsi, [rbp + 32]
  .cmov .zr .r8 (.reg .rsi), -- 145: cmovz r8, rsi
  .mov (.reg .rsi) (.mem ⟨some .rbp, none, 40#64⟩), -- 146: mov rsi, [rbp + 40]
  .cmov .zr .r9 (.reg .rsi), -- 147: cmovz r9, rsi
  .mov (.reg .rsi) (.mem ⟨some .rbp, none, 48#64⟩), -- 148: mov rsi, [rbp + 48]
  .cmov .zr .r10 (.reg .rsi), -- 149: cmovz r10, rsi
  .mov (.reg .rsi) (.mem ⟨some .rbp, none, 56#64⟩), -- 150: mov rsi, [rbp + 56]
  .cmov .zr .r11 (.reg .rsi), -- 151: cmovz r11, rsi
  .mov (.reg .rsi) (.mem ⟨some .rbp, none, 64#64⟩), -- 152: mov rsi, [rbp + 64]
  .cmov .zr .r12 (.reg .rsi), -- 153: cmovz r12, rsi
  .mov (.reg .rsi) (.mem ⟨some .rbp, none, 72#64⟩), -- 154: mov rsi, [rbp + 72]
  .cmov .zr .r13 (.reg .rsi), -- 155: cmovz r13, rsi
  .mov (.reg .rsi) (.mem ⟨some .rbp, none, 80#64⟩), -- 156: mov rsi, [rbp + 80]
  .cmov .zr .r14 (.reg .rsi), -- 157: cmovz r14, rsi
  .mov (.reg .rsi) (.mem ⟨some .rbp, none, 88#64⟩), -- 158: mov rsi, [rbp + 88]
  .cmov .zr .r15 (.reg .rsi), -- 159: cmovz r15, rsi
  .add (.reg .rbp) (.imm 96#64), -- 160: add rbp, 96
  .cmp (.mem ⟨some .rsp, none, 472#64⟩) (.imm 2#64), -- 161: cmp QWORD PTR [rsp + 14 * 32+ 24], 2
  .mov (.reg .rsi) (.mem ⟨some .rbp, none, 0#64⟩), -- 162: mov rsi, [rbp]
  .cmov .zr .rax (.reg .rsi), -- 163: cmovz rax, rsi
  .mov (.reg .rsi) (.mem ⟨some .rbp, none, 8#64⟩), -- 164: mov rsi, [rbp + 8]
  .cmov .zr .rbx (.reg .rsi), -- 165: cmovz rbx, rsi
  .mov (.reg .rsi) (.mem ⟨some .rbp, none, 16#64⟩), -- 166: mov rsi, [rbp + 16]
  .cmov .zr .rcx (.reg .rsi), -- 167: cmovz rcx, rsi
  .mov (.reg .rsi) (.mem ⟨some .rbp, none, 24#64⟩), -- 168: mov rsi, [rbp + 24]
  .cmov .zr .rdx (.reg .rsi), -- 169: cmovz rdx, rsi
  .mov (.reg .rsi) (.mem ⟨some .rbp, none, 32#64⟩), -- 170: mov rsi, [rbp + 32]
  .cmov .zr .r8 (.reg .rsi), -- 171: cmovz r8, rsi
  .mov (.reg .rsi) (.mem ⟨some .rbp, none, 40#64⟩), -- 172: mov rsi, [rbp + 40]
  .cmov .zr .r9 (.reg .rsi), -- 173: cmovz r9, rsi
  .mov (.reg .rsi) (.mem ⟨some .rbp, none, 48#64⟩), -- 174: mov rsi, [rbp + 48]
  .cmov .zr .r10 (.reg .rsi), -- 175: cmovz r10, rsi
  .mov (.reg .rsi) (.mem ⟨some .rbp, none, 56#64⟩), -- 176: mov rsi, [rbp + 56]
  .cmov .zr .r11 (.reg .rsi), -- 177: cmovz r11, rsi
  .mov (.reg .rsi) (.mem ⟨some .rbp, none, 64#64⟩), -- 178: mov rsi, [rbp + 64]
  .cmov .zr .r12 (.reg .rsi), -- 179: cmovz r12, rsi
  .mov (.reg .rsi) (.mem ⟨some .rbp, none, 72#64⟩), -- 180: mov rsi, [rbp + 72]
  .cmov .zr .r13 (.reg .rsi), -- 181: cmovz r13, rsi
  .mov (.reg .rsi) (.mem ⟨some .rbp, none, 80#64⟩), -- 182: mov rsi, [rbp + 80]
  .cmov .zr .r14 (.reg .rsi), -- 183: cmovz r14, rsi
  .mov (.reg .rsi) (.mem ⟨some .rbp, none, 88#64⟩), -- 184: mov rsi, [rbp + 88]
  .cmov .zr .r15 (.reg .rsi), -- 185: cmovz r15, rsi
  .add (.reg .rbp) (.imm 96#64), -- 186: add rbp, 96
  .cmp (.mem ⟨some .rsp, none, 472#64⟩) (.imm 3#64), -- 187: cmp QWORD PTR [rsp + 14 * 32+ 24], 3
  .mov (.reg .rsi) (.mem ⟨some .rbp, none, 0#64⟩), -- 188: mov rsi, [rbp]
  .cmov .zr .rax (.reg .rsi), -- 189: cmovz rax, rsi
  .mov (.reg .rsi) (.mem ⟨some .rbp, none, 8#64⟩), -- 190: mov rsi, [rbp + 8]
  .cmov .zr .rbx (.reg .rsi), -- 191: cmovz rbx, rsi
  .mov (.reg .rsi) (.mem ⟨some .rbp, none, 16#64⟩), -- 192: mov rsi, [rbp + 16]
  .cmov .zr .rcx (.reg .rsi), -- 193: cmovz rcx, rsi
  .mov (.reg .rsi) (.mem ⟨some .rbp, none, 24#64⟩), -- 194: mov rsi, [rbp + 24]
  .cmov .zr .rdx (.reg .rsi), -- 195: cmovz rdx, rsi
  .mov (.reg .rsi) (.mem ⟨some .rbp, none, 32#64⟩), -- 196: mov rsi, [rbp + 32]
  .cmov .zr .r8 (.reg .rsi), -- 197: cmovz r8, rsi
  .mov (.reg .rsi) (.mem ⟨some .rbp, none, 40#64⟩), -- 198: mov rsi, [rbp + 40]
  .cmov .zr .r9 (.reg .rsi), -- 199: cmovz r9, rsi
  .mov (.reg .rsi) (.mem ⟨some .rbp, none, 48#64⟩), -- 200: mov rsi, [rbp + 48]
  .cmov .zr .r10 (.reg .rsi), -- 201: cmovz r10, rsi
  .mov (.reg .rsi) (.mem ⟨some .rbp, none, 56#64⟩), -- 202: mov rsi, [rbp + 56]
  .cmov .zr .r11 (.reg .rsi), -- 203: cmovz r11, rsi
  .mov (.reg .rsi) (.mem ⟨some .rbp, none, 64#64⟩), -- 204: mov rsi, [rbp + 64]
  .cmov .zr .r12 (.reg .rsi), -- 205: cmovz r12, rsi
  .mov (.reg .rsi) (.mem ⟨some .rbp, none, 72#64⟩), -- 206: mov rsi, [rbp + 72]
  .cmov .zr .r13 (.reg .rsi), -- 207: cmovz r13, rsi
  .mov (.reg .rsi) (.mem ⟨some .rbp, none, 80#64⟩), -- 208: mov rsi, [rbp + 80]
  .cmov .zr .r14 (.reg .rsi), -- 209: cmovz r14, rsi
  .mov (.reg .rsi) (.mem ⟨some .rbp, none, 88#64⟩), -- 210: mov rsi, [rbp + 88]
  .cmov .zr .r15 (.reg .rsi), -- 211: cmovz r15, rsi
  .add (.reg .rbp) (.imm 96#64), -- 212: add rbp, 96
  .cmp (.mem ⟨some .rsp, none, 472#64⟩) (.imm 4#64), -- 213: cmp QWORD PTR [rsp + 14 * 32+ 24], 4
  .mov (.reg .rsi) (.mem ⟨some .rbp, none, 0#64⟩), -- 214: mov rsi, [rbp]
  .cmov .zr .rax (.reg .rsi), -- 215: cmovz rax, rsi
  .mov (.reg .rsi) (.mem ⟨some .rbp, none, 8#64⟩), -- 216: mov rsi, [rbp + 8]
  .cmov .zr .rbx (.reg .rsi), -- 217: cmovz rbx, rsi
  .mov (.reg .rsi) (.mem ⟨some .rbp, none, 16#64⟩), -- 218: mov rsi, [rbp + 16]
  .cmov .zr .rcx (.reg .rsi), -- 219: cmovz rcx, rsi
  .mov (.reg .rsi) (.mem ⟨some .rbp, none, 24#64⟩), -- 220: mov rsi, [rbp + 24]
  .cmov .zr .rdx (.reg .rsi), -- 221: cmovz rdx, rsi
  .mov (.reg .rsi) (.mem ⟨some .rbp, none, 32#64⟩), -- 222: mov rsi, [rbp + 32]
  .cmov .zr .r8 (.reg .rsi), -- 223: cmovz r8, rsi
  .mov (.reg .rsi) (.mem ⟨some .rbp, none, 40#64⟩), -- 224: mov rsi, [rbp + 40]
  .cmov .zr .r9 (.reg .rsi), -- 225: cmovz r9, rsi
  .mov (.reg .rsi) (.mem ⟨some .rbp, none, 48#64⟩), -- 226: mov rsi, [rbp + 48]
  .cmov .zr .r10 (.reg .rsi), -- 227: cmovz r10, rsi
  .mov (.reg .rsi) (.mem ⟨some .rbp, none, 56#64⟩), -- 228: mov rsi, [rbp + 56]
  .cmov .zr .r11 (.reg .rsi), -- 229: cmovz r11, rsi
  .mov (.reg .rsi) (.mem ⟨some .rbp, none, 64#64⟩), -- 230: mov rsi, [rbp + 64]
  .cmov .zr .r12 (.reg .rsi), -- 231: cmovz r12, rsi
  .mov (.reg .rsi) (.mem ⟨some .rbp, none, 72#64⟩), -- 232: mov rsi, [rbp + 72]
  .cmov .zr .r13 (.reg .rsi), -- 233: cmovz r13, rsi
  .mov (.reg .rsi) (.mem ⟨some .rbp, none, 80#64⟩), -- 234: mov rsi, [rbp + 80]
  .cmov .zr .r14 (.reg .rsi), -- 235: cmovz r14, rsi
  .mov (.reg .rsi) (.mem ⟨some .rbp, none, 88#64⟩), -- 236: mov rsi, [rbp + 88]
  .cmov .zr .r15 (.reg .rsi), -- 237: cmovz r15, rsi
  .add (.reg .rbp) (.imm 96#64), -- 238: add rbp, 96
  .cmp (.mem ⟨some .rsp, none, 472#64⟩) (.imm 5#64), -- 239: cmp QWORD PTR [rsp + 14 * 32+ 24], 5
  .mov (.reg .rsi) (.mem ⟨some .rbp, none, 0#64⟩), -- 240: mov rsi, [rbp]
  .cmov .zr .rax (.reg .rsi), -- 241: cmovz rax, rsi
  .mov (.reg .rsi) (.mem ⟨some .rbp, none, 8#64⟩), -- 242: mov rsi, [rbp + 8]
  .cmov .zr .rbx (.reg .rsi), -- 243: cmovz rbx, rsi
  .mov (.reg .rsi) (.mem ⟨some .rbp, none, 16#64⟩), -- 244: mov rsi, [rbp + 16]
  .cmov .zr .rcx (.reg .rsi), -- 245: cmovz rcx, rsi
  .mov (.reg .rsi) (.mem ⟨some .rbp, none, 24#64⟩), -- 246: mov rsi, [rbp + 24]
  .cmov .zr .rdx (.reg .rsi), -- 247: cmovz rdx, rsi
  .mov (.reg .rsi) (.mem ⟨some .rbp, none, 32#64⟩), -- 248: mov rsi, [rbp + 32]
  .cmov .zr .r8 (.reg .rsi), -- 249: cmovz r8, rsi
  .mov (.reg .rsi) (.mem ⟨some .rbp, none, 40#64⟩), -- 250: mov rsi, [rbp + 40]
  .cmov .zr .r9 (.reg .rsi), -- 251: cmovz r9, rsi
  .mov (.reg .rsi) (.mem ⟨some .rbp, none, 48#64⟩), -- 252: mov rsi, [rbp + 48]
  .cmov .zr .r10 (.reg .rsi), -- 253: cmovz r10, rsi
  .mov (.reg .rsi) (.mem ⟨some .rbp, none, 56#64⟩), -- 254: mov rsi, [rbp + 56]
  .cmov .zr .r11 (.reg .rsi), -- 255: cmovz r11, rsi
  .mov (.reg .rsi) (.mem ⟨some .rbp, none, 64#64⟩), -- 256: mov rsi, [rbp + 64]
  .cmov .zr .r12 (.reg .rsi), -- 257: cmovz r12, rsi
  .mov (.reg .rsi) (.mem ⟨some .rbp, none, 72#64⟩), -- 258: mov rsi, [rbp + 72]
  .cmov .zr .r13 (.reg .rsi), -- 259: cmovz r13, rsi
  .mov (.reg .rsi) (.mem ⟨some .rbp, none, 80#64⟩), -- 260: mov rsi, [rbp + 80]
  .cmov .zr .r14 (.reg .rsi), -- 261: cmovz r14, rsi
  .mov (.reg .rsi) (.mem ⟨some .rbp, none, 88#64⟩), -- 262: mov rsi, [rbp + 88]
  .cmov .zr .r15 (.reg .rsi), -- 263: cmovz r15, rsi
  .add (.reg .rbp) (.imm 96#64), -- 264: add rbp, 96
  .cmp (.mem ⟨some .rsp, none, 472#64⟩) (.imm 6#64), -- 265: cmp QWORD PTR [rsp + 14 * 32+ 24], 6
  .mov (.reg .rsi) (.mem ⟨some .rbp, none, 0#64⟩), -- 266: mov rsi, [rbp]
  .cmov .zr .rax (.reg .rsi), -- 267: cmovz rax, rsi
  .mov (.reg .rsi) (.mem ⟨some .rbp, none, 8#64⟩), -- 268: mov rsi, [rbp + 8]
  .cmov .zr .rbx (.reg .rsi), -- 269: cmovz rbx, rsi
  .mov (.reg .rsi) (.mem ⟨some .rbp, none, 16#64⟩), -- 270: mov rsi, [rbp + 16]
  .cmov .zr .rcx (.reg .rsi), -- 271: cmovz rcx, rsi
  .mov (.reg .rsi) (.mem ⟨some .rbp, none, 24#64⟩), -- 272: mov rsi, [rbp + 24]
  .cmov .zr .rdx (.reg .rsi), -- 273: cmovz rdx, rsi
  .mov (.reg .rsi) (.mem ⟨some .rbp, none, 32#64⟩), -- 274: mov rsi, [rbp + 32]
  .cmov .zr .r8 (.reg .rsi), -- 275: cmovz r8, rsi
  .mov (.reg .rsi) (.mem ⟨some .rbp, none, 40#64⟩), -- 276: mov rsi, [rbp + 40]
  .cmov .zr .r9 (.reg .rsi), -- 277: cmovz r9, rsi
  .mov (.reg .rsi) (.mem ⟨some .rbp, none, 48#64⟩), -- 278: mov rsi, [rbp + 48]
  .cmov .zr .r10 (.reg .rsi), -- 279: cmovz r10, rsi
  .mov (.reg .rsi) (.mem ⟨some .rbp, none, 56#64⟩), -- 280: mov rsi, [rbp + 56]
  .cmov .zr .r11 (.reg .rsi), -- 281: cmovz r11, rsi
  .mov (.reg .rsi) (.mem ⟨some .rbp, none, 64#64⟩), -- 282: mov rsi, [rbp + 64]
  .cmov .zr .r12 (.reg .rsi), -- 283: cmovz r12, rsi
  .mov (.reg .rsi) (.mem ⟨some .rbp, none, 72#64⟩), -- 284: mov rsi, [rbp + 72]
  .cmov .zr .r13 (.reg .rsi), -- 285: cmovz r13, rsi
  .mov (.reg .rsi) (.mem ⟨some .rbp, none, 80#64⟩), -- 286: mov rsi, [rbp + 80]
  .cmov .zr .r14 (.reg .rsi), -- 287: cmovz r14, rsi
  .mov (.reg .rsi) (.mem ⟨some .rbp, none, 88#64⟩), -- 288: mov rsi, [rbp + 88]
  .cmov .zr .r15 (.reg .rsi), -- 289: cmovz r15, rsi
  .add (.reg .rbp) (.imm 96#64), -- 290: add rbp, 96
  .cmp (.mem ⟨some .rsp, none, 472#64⟩) (.imm 7#64), -- 291: cmp QWORD PTR [rsp + 14 * 32+ 24], 7
  .mov (.reg .rsi) (.mem ⟨some .rbp, none, 0#64⟩), -- 292: mov rsi, [rbp]
  .cmov .zr .rax (.reg .rsi), -- 293: cmovz rax, rsi
  .mov (.reg .rsi) (.mem ⟨some .rbp, none, 8#64⟩), -- 294: mov rsi, [rbp + 8]
  .cmov .zr .rbx (.reg .rsi), -- 295: cmovz rbx, rsi
  .mov (.reg .rsi) (.mem ⟨some .rbp, none, 16#64⟩), -- 296: mov rsi, [rbp + 16]
  .cmov .zr .rcx (.reg .rsi), -- 297: cmovz rcx, rsi
  .mov (.reg .rsi) (.mem ⟨some .rbp, none, 24#64⟩), -- 298: mov rsi, [rbp + 24]
  .cmov .zr .rdx (.reg .rsi), -- 299: cmovz rdx, rsi
  .mov (.reg .rsi) (.mem ⟨some .rbp, none, 32#64⟩), -- 300: mov rsi, [rbp + 32]
  .cmov .zr .r8 (.reg .rsi), -- 301: cmovz r8, rsi
  .mov (.reg .rsi) (.mem ⟨some .rbp, none, 40#64⟩), -- 302: mov rsi, [rbp + 40]
  .cmov .zr .r9 (.reg .rsi), -- 303: cmovz r9, rsi
  .mov (.reg .rsi) (.mem ⟨some .rbp, none, 48#64⟩), -- 304: mov rsi, [rbp + 48]
  .cmov .zr .r10 (.reg .rsi), -- 305: cmovz r10, rsi
  .mov (.reg .rsi) (.mem ⟨some .rbp, none, 56#64⟩), -- 306: mov rsi, [rbp + 56]
  .cmov .zr .r11 (.reg .rsi), -- 307: cmovz r11, rsi
  .mov (.reg .rsi) (.mem ⟨some .rbp, none, 64#64⟩), -- 308: mov rsi, [rbp + 64]
  .cmov .zr .r12 (.reg .rsi), -- 309: cmovz r12, rsi
  .mov (.reg .rsi) (.mem ⟨some .rbp, none, 72#64⟩), -- 310: mov rsi, [rbp + 72]
  .cmov .zr .r13 (.reg .rsi), -- 311: cmovz r13, rsi
  .mov (.reg .rsi) (.mem ⟨some .rbp, none, 80#64⟩), -- 312: mov rsi, [rbp + 80]
  .cmov .zr .r14 (.reg .rsi), -- 313: cmovz r14, rsi
  .mov (.reg .rsi) (.mem ⟨some .rbp, none, 88#64⟩), -- 314: mov rsi, [rbp + 88]
  .cmov .zr .r15 (.reg .rsi), -- 315: cmovz r15, rsi
  .add (.reg .rbp) (.imm 96#64), -- 316: add rbp, 96
  .cmp (.mem ⟨some .rsp, none, 472#64⟩) (.imm 8#64), -- 317: cmp QWORD PTR [rsp + 14 * 32+ 24], 8
  .mov (.reg .rsi) (.mem ⟨some .rbp, none, 0#64⟩), -- 318: mov rsi, [rbp]
  .cmov .zr .rax (.reg .rsi), -- 319: cmovz rax, rsi
  .mov (.reg .rsi) (.mem ⟨some .rbp, none, 8#64⟩), -- 320: mov rsi, [rbp + 8]
  .cmov .zr .rbx (.reg .rsi), -- 321: cmovz rbx, rsi
  .mov (.reg .rsi) (.mem ⟨some .rbp, none, 16#64⟩), -- 322: mov rsi, [rbp + 16]
  .cmov .zr .rcx (.reg .rsi), -- 323: cmovz rcx, rsi
  .mov (.reg .rsi) (.mem ⟨some .rbp, none, 24#64⟩), -- 324: mov rsi, [rbp + 24]
  .cmov .zr .rdx (.reg .rsi), -- 325: cmovz rdx, rsi
  .mov (.reg .rsi) (.mem ⟨some .rbp, none, 32#64⟩), -- 326: mov rsi, [rbp + 32]
  .cmov .zr .r8 (.reg .rsi), -- 327: cmovz r8, rsi
  .mov (.reg .rsi) (.mem ⟨some .rbp, none, 40#64⟩), -- 328: mov rsi, [rbp + 40]
  .cmov .zr .r9 (.reg .rsi), -- 329: cmovz r9, rsi
  .mov (.reg .rsi) (.mem ⟨some .rbp, none, 48#64⟩), -- 330: mov rsi, [rbp + 48]
  .cmov .zr .r10 (.reg .rsi), -- 331: cmovz r10, rsi
  .mov (.reg .rsi) (.mem ⟨some .rbp, none, 56#64⟩), -- 332: mov rsi, [rbp + 56]
  .cmov .zr .r11 (.reg .rsi), -- 333: cmovz r11, rsi
  .mov (.reg .rsi) (.mem ⟨some .rbp, none, 64#64⟩), -- 334: mov rsi, [rbp + 64]
  .cmov .zr .r12 (.reg .rsi), -- 335: cmovz r12, rsi
  .mov (.reg .rsi) (.mem ⟨some .rbp, none, 72#64⟩), -- 336: mov rsi, [rbp + 72]
  .cmov .zr .r13 (.reg .rsi), -- 337: cmovz r13, rsi
  .mov (.reg .rsi) (.mem ⟨some .rbp, none, 80#64⟩), -- 338: mov rsi, [rbp + 80]
  .cmov .zr .r14 (.reg .rsi), -- 339: cmovz r14, rsi
  .mov (.reg .rsi) (.mem ⟨some .rbp, none, 88#64⟩), -- 340: mov rsi, [rbp + 88]
  .cmov .zr .r15 (.reg .rsi), -- 341: cmovz r15, rsi
  .add (.reg .rbp) (.imm 96#64), -- 342: add rbp, 96
  .mov (.mem ⟨some .rsp, none, 480#64⟩) (.reg .rbp), -- 343: mov QWORD PTR [rsp + 15 * 32], rbp
  .cmp (.mem ⟨some .rsp, none, 464#64⟩) (.imm 0#64), -- 344: cmp QWORD PTR [rsp + 14 * 32+ 16], 0
  .mov (.reg .rsi) (.reg .rax), -- 345: mov rsi, rax
  .cmov .nz .rsi (.reg .r8), -- 346: cmovnz rsi, r8
  .cmov .nz .r8 (.reg .rax), -- 347: cmovnz r8, rax
  .mov (.mem ⟨some .rsp, none, 32#64⟩) (.reg .rsi), -- 348: mov [rsp + (1 * 32)], rsi
  .mov (.mem ⟨some .rsp, none, 64#64⟩) (.reg .r8), -- 349: mov [rsp + (1 * 32)+ 32], r8
  .mov (.reg .rsi) (.reg .rbx), -- 350: mov rsi, rbx
  .cmov .nz .rsi (.reg .r9), -- 351: cmovnz rsi, r9
  .cmov .nz .r9 (.reg .rbx), -- 352: cmovnz r9, rbx
  .mov (.mem ⟨some .rsp, none, 40#64⟩) (.reg .rsi), -- 353: mov [rsp + (1 * 32)+ 8], rsi
  .mov (.mem ⟨some .rsp, none, 72#64⟩) (.reg .r9), -- 354: mov [rsp + (1 * 32)+ 40], r9
  .mov (.reg .rsi) (.reg .rcx), -- 355: mov rsi, rcx
  .cmov .nz .rsi (.reg .r10), -- 356: cmovnz rsi, r10
  .cmov .nz .r10 (.reg .rcx), -- 357: cmovnz r10, rcx
  .mov (.mem ⟨some .rsp, none, 48#64⟩) (.reg .rsi), -- 358: mov [rsp + (1 * 32)+ 16], rsi
  .mov (.mem ⟨some .rsp, none, 80#64⟩) (.reg .r10), -- 359: mov [rsp + (1 * 32)+ 48], r10
  .mov (.reg .rsi) (.reg .rdx), -- 360: mov rsi, rdx
  .cmov .nz .rsi (.reg .r11), -- 361: cmovnz rsi, r11
  .cmov .nz .r11 (.reg .rdx), -- 362: cmovnz r11, rdx
  .mov (.mem ⟨some .rsp, none, 56#64⟩) (.reg .rsi), -- 363: mov [rsp + (1 * 32)+ 24], rsi
  .mov (.mem ⟨some .rsp, none, 88#64⟩) (.reg .r11), -- 364: mov [rsp + (1 * 32)+ 56], r11
  .mov (.reg .rax) (.imm 0xffffffffffffffed#64), -- 365: mov rax, -19
  .mov (.reg .rbx) (.imm 0xffffffffffffffff#64), -- 366: mov rbx, -1
  .mov (.reg .rcx) (.imm 0xffffffffffffffff#64), -- 367: mov rcx, -1
  .mov (.reg .rdx) (.imm 0x7fffffffffffffff#64), -- 368: mov rdx, 0x7fffffffffffffff
  .sub (.reg .rax) (.reg .r12), -- 369: sub rax, r12
  .sbb (.reg .rbx) (.reg .r13), -- 370: sbb rbx, r13
  .sbb (.reg .rcx) (.reg .r14), -- 371: sbb rcx, r14
  .sbb (.reg .rdx) (.reg .r15), -- 372: sbb rdx, r15
  .mov (.reg .r8) (.mem ⟨some .rsp, none, 472#64⟩), -- 373: mov r8, QWORD PTR [rsp + 14 * 32+ 24]
  .mov (.reg .r9) (.mem ⟨some .rsp, none, 464#64⟩), -- 374: mov r9, QWORD PTR [rsp + 14 * 32+ 16]
  .test (.reg .r8) (.reg .r8), -- 375: test r8, r8
  .cmov .zr .r9 (.reg .r8), -- 376: cmovz r9, r8
  .test (.reg .r9) (.reg .r9), -- 377: test r9, r9
  .cmov .zr .rax (.reg .r12), -- 378: cmovz rax, r12
  .cmov .zr .rbx (.reg .r13), -- 379: cmovz rbx, r13
  .cmov .zr .rcx (.reg .r14), -- 380: cmovz rcx, r14
  .cmov .zr .rdx (.reg .r15), -- 381: cmovz rdx, r15
  .mov (.mem ⟨some .rsp, none, 96#64⟩) (.reg .rax), -- 382: mov [rsp + (1 * 32)+ 64], rax
  .mov (.mem ⟨some .rsp, none, 104#64⟩) (.reg .rbx), -- 383: mov [rsp + (1 * 32)+ 72], rbx
  .mov (.mem ⟨some .rsp, none, 112#64⟩) (.reg .rcx), -- 384: mov [rsp + (1 * 32)+ 80], rcx
  .mov (.mem ⟨some .rsp, none, 120#64⟩) (.reg .rdx), -- 385: mov [rsp + (1 * 32)+ 88], rdx
  .mov (.reg .r8) (.mem ⟨some .rsp, none, 384#64⟩), -- 386: mov r8, [rsp + (12 * 32)]
  .xor (.reg .rcx) (.reg .rcx), -- 387: xor ecx, ecx
  .add (.reg .r8) (.reg .r8), -- 388: add r8, r8
  .mov (.reg .r9) (.mem ⟨some .rsp, none, 392#64⟩), -- 389: mov r9, [rsp + (12 * 32)+ 0x8]
  .adc (.reg .r9) (.reg .r9), -- 390: adc r9, r9
  .mov (.reg .r10) (.mem ⟨some .rsp, none, 400#64⟩), -- 391: mov r10, [rsp + (12 * 32)+ 0x10]
  .adc (.reg .r10) (.reg .r10), -- 392: adc r10, r10
  .mov (.reg .r11) (.mem ⟨some .rsp, none, 408#64⟩), -- 393: mov r11, [rsp + (12 * 32)+ 0x18]
  .adc (.reg .r11) (.reg .r11), -- 394: adc r11, r11
  .mov (.reg .rax) (.imm 38#64), -- 395: mov eax, 38
  .cmov .nc .rax (.reg .rcx), -- 396: cmovnc rax, rcx
  .add (.reg .r8) (.reg .rax), -- 397: add r8, rax
  .adc (.reg .r9) (.reg .rcx), -- 398: adc r9, rcx
  .adc (.reg .r10) (.reg .rcx), -- 399: adc r10, rcx
  .adc (.reg .r11) (.reg .rcx), -- 400: adc r11, rcx
  .mov (.mem ⟨some .rsp, none, 128#64⟩) (.reg .r8), -- 401: mov [rsp + (4 * 32)], r8
  .mov (.mem ⟨some .rsp, none, 136#64⟩) (.reg .r9), -- 402: mov [rsp + (4 * 32)+ 0x8], r9
  .mov (.mem ⟨some .rsp, none, 144#64⟩) (.reg .r10), -- 403: mov [rsp + (4 * 32)+ 0x10], r10
  .mov (.mem ⟨some .rsp, none, 152#64⟩) (.reg .r11), -- 404: mov [rsp + (4 * 32)+ 0x18], r11
  .mov (.reg .r8) (.mem ⟨some .rsp, none, 352#64⟩), -- 405: mov r8, [rsp + (11 * 32)]
  .xor (.reg .rbx) (.reg .rbx), -- 406: xor ebx, ebx
  .sub (.reg .r8) (.mem ⟨some .rsp, none, 320#64⟩), -- 407: sub r8, [rsp + (10 * 32)]
  .mov (.reg .r9) (.mem ⟨some .rsp, none, 360#64⟩), -- 408: mov r9, [rsp + (11 * 32)+ 8]
  .sbb (.reg .r9) (.mem ⟨some .rsp, none, 328#64⟩), -- 409: sbb r9, [rsp + (10 * 32)+ 8]
  .mov (.reg .rcx) (.imm 38#64), -- 410: mov ecx, 38
  .mov (.reg .r10) (.mem ⟨some .rsp, none, 368#64⟩), -- 411: mov r10, [rsp + (11 * 32)+ 16]
  .sbb (.reg .r10) (.mem ⟨some .rsp, none, 336#64⟩), -- 412: sbb r10, [rsp + (10 * 32)+ 16]
  .mov (.reg .rax) (.mem ⟨some .rsp, none, 376#64⟩), -- 413: mov rax, [rsp + (11 * 32)+ 24]
  .sbb (.reg .rax) (.mem ⟨some .rsp, none, 344#64⟩), -- 414: sbb rax, [rsp + (10 * 32)+ 24]
  .cmov .nc .rcx (.reg .rbx), -- 415: cmovnc rcx, rbx
  .sub (.reg .r8) (.reg .rcx), -- 416: sub r8, rcx
  .sbb (.reg .r9) (.reg .rbx), -- 417: sbb r9, rbx
  .sbb (.reg .r10) (.reg .rbx), -- 418: sbb r10, rbx
  .sbb (.reg .rax) (.reg .rbx), -- 419: sbb rax, rbx
  .mov (.mem ⟨some .rsp, none, 160#64⟩) (.reg .r8), -- 420: mov [rsp + (5 * 32)], r8
  .mov (.mem ⟨some .rsp, none, 168#64⟩) (.reg .r9), -- 421: mov [rsp + (5 * 32)+ 8], r9
  .mov (.mem ⟨some .rsp, none, 176#64⟩) (.reg .r10), -- 422: mov [rsp + (5 * 32)+ 16], r10
  .mov (.mem ⟨some .rsp, none, 184#64⟩) (.reg .rax), -- 423: mov [rsp + (5 * 32)+ 24], rax
  .mov (.reg .r8) (.mem ⟨some .rsp, none, 352#64⟩), -- 424: mov r8, [rsp + (11 * 32)]
  .xor (.reg .rcx) (.reg .rcx), -- 425: xor ecx, ecx
  .add (.reg .r8) (.mem ⟨some .rsp, none, 320#64⟩), -- 426: add r8, [rsp + (10 * 32)]
  .mov (.reg .r9) (.mem ⟨some .rsp, none, 360#64⟩), -- 427: mov r9, [rsp + (11 * 32)+ 0x8]
  .adc (.reg .r9) (.mem ⟨some .rsp, none, 328#64⟩), -- 428: adc r9, [rsp + (10 * 32)+ 0x8]
  .mov (.reg .r10) (.mem ⟨some .rsp, none, 368#64⟩), -- 429: mov r10, [rsp + (11 * 32)+ 0x10]
  .adc (.reg .r10) (.mem ⟨some .rsp, none, 336#64⟩), -- 430: adc r10, [rsp + (10 * 32)+ 0x10]
  .mov (.reg .r11) (.mem ⟨some .rsp, none, 376#64⟩), -- 431: mov r11, [rsp + (11 * 32)+ 0x18]
  .adc (.reg .r11) (.mem ⟨some .rsp, none, 344#64⟩), -- 432: adc r11, [rsp + (10 * 32)+ 0x18]
  .mov (.reg .rax) (.imm 38#64), -- 433: mov eax, 38
  .cmov .nc .rax (.reg .rcx), -- 434: cmovnc rax, rcx
  .add (.reg .r8) (.reg .rax), -- 435: add r8, rax
  .adc (.reg .r9) (.reg .rcx), -- 436: adc r9, rcx
  .adc (.reg .r10) (.reg .rcx), -- 437: adc r10, rcx
  .adc (.reg .r11) (.reg .rcx), -- 438: adc r11, rcx
  .mov (.mem ⟨some .rsp, none, 192#64⟩) (.reg .r8), -- 439: mov [rsp + (6 * 32)], r8
  .mov (.mem ⟨some .rsp, none, 200#64⟩) (.reg .r9), -- 440: mov [rsp + (6 * 32)+ 0x8], r9
  .mov (.mem ⟨some .rsp, none, 208#64⟩) (.reg .r10), -- 441: mov [rsp + (6 * 32)+ 0x10], r10
  .mov (.mem ⟨some .rsp, none, 216#64⟩) (.reg .r11), -- 442: mov [rsp + (6 * 32)+ 0x18], r11
  .xor (.reg .rcx) (.reg .rcx), -- 443: xor ecx, ecx
  .mov (.reg .rdx) (.mem ⟨some .rsp, none, 96#64⟩), -- 444: mov rdx, [rsp + (3 * 32)]
  .mulx .r9 .r8 (.mem ⟨some .rsp, none, 416#64⟩), -- 445: mulx r9, r8, [rsp + (13 * 32)]
  .mulx .r10 .rax (.mem ⟨some .rsp, none, 424#64⟩), -- 446: mulx r10, rax, [rsp + (13 * 32)+ 0x8]
  .add (.reg .r9) (.reg .rax), -- 447: add r9, rax
  .mulx .r11 .rax (.mem ⟨some .rsp, none, 432#64⟩), -- 448: mulx r11, rax, [rsp + (13 * 32)+ 0x10]
  .adc (.reg .r10) (.reg .rax), -- 449: adc r10, rax
  .mulx .r12 .rax (.mem ⟨some .rsp, none, 440#64⟩), -- 450: mulx r12, rax, [rsp + (13 * 32)+ 0x18]
  .adc (.reg .r11) (.reg .rax), -- 451: adc r11, rax
  .adc (.reg .r12) (.reg .rcx), -- 452: adc r12, rcx
  .xor (.reg .rcx) (.reg .rcx), -- 453: xor ecx, ecx
  .mov (.reg .rdx) (.mem ⟨some .rsp, none, 104#64⟩), -- 454: mov rdx, [rsp + (3 * 32)+ 0x8]
  .mulx .rbx .rax (.mem ⟨some .rsp, none, 416#64⟩), -- 455: mulx rbx, rax, [rsp + (13 * 32)]
  .adcx .r9 (.reg .rax), -- 456: adcx r9, rax
  .adox .r10 (.reg .rbx), -- 457: adox r10, rbx
  .mulx .rbx .rax (.mem ⟨some .rsp, none, 424#64⟩), -- 458: mulx rbx, rax, [rsp + (13 * 32)+ 0x8]
  .adcx .r10 (.reg .rax), -- 459: adcx r10, rax
  .adox .r11 (.reg .rbx), -- 460: adox r11, rbx
  .mulx .rbx .rax (.mem ⟨some .rsp, none, 432#64⟩), -- 461: mulx rbx, rax, [rsp + (13 * 32)+ 0x10]
  .adcx .r11 (.reg .rax), -- 462: adcx r11, rax
  .adox .r12 (.reg .rbx), -- 463: adox r12, rbx
  .mulx .r13 .rax (.mem ⟨some .rsp, none, 440#64⟩), -- 464: mulx r13, rax, [rsp + (13 * 32)+ 0x18]
  .adcx .r12 (.reg .rax), -- 465: adcx r12, rax
  .adox .r13 (.reg .rcx), -- 466: adox r13, rcx
  .adcx .r13 (.reg .rcx), -- 467: adcx r13, rcx
  .xor (.reg .rcx) (.reg .rcx), -- 468: xor ecx, ecx
  .mov (.reg .rdx) (.mem ⟨some .rsp, none, 112#64⟩), -- 469: mov rdx, [rsp + (3 * 32)+ 0x10]
  .mulx .rbx .rax (.mem ⟨some .rsp, none, 416#64⟩), -- 470: mulx rbx, rax, [rsp + (13 * 32)]
  .adcx .r10 (.reg .rax), -- 471: adcx r10, rax
  .adox .r11 (.reg .rbx), -- 472: adox r11, rbx
  .mulx .rbx .rax (.mem ⟨some .rsp, none, 424#64⟩), -- 473: mulx rbx, rax, [rsp + (13 * 32)+ 0x8]
  .adcx .r11 (.reg .rax), -- 474: adcx r11, rax
  .adox .r12 (.reg .rbx), -- 475: adox r12, rbx
  .mulx .rbx .rax (.mem ⟨some .rsp, none, 432#64⟩), -- 476: mulx rbx, rax, [rsp + (13 * 32)+ 0x10]
  .adcx .r12 (.reg .rax), -- 477: adcx r12, rax
  .adox .r13 (.reg .rbx), -- 478: adox r13, rbx
  .mulx .r14 .rax (.mem ⟨some .rsp, none, 440#64⟩), -- 479: mulx r14, rax, [rsp + (13 * 32)+ 0x18]
  .adcx .r13 (.reg .rax), -- 480: adcx r13, rax
  .adox .r14 (.reg .rcx), -- 481: adox r14, rcx
  .adcx .r14 (.reg .rcx), -- 482: adcx r14, rcx
  .xor (.reg .rcx) (.reg .rcx), -- 483: xor ecx, ecx
  .mov (.reg .rdx) (.mem ⟨some .rsp, none, 120#64⟩), -- 484: mov rdx, [rsp + (3 * 32)+ 0x18]
  .mulx .rbx .rax (.mem ⟨some .rsp, none, 416#64⟩), -- 485: mulx rbx, rax, [rsp + (13 * 32)]
  .adcx .r11 (.reg .rax), -- 486: adcx r11, rax
  .adox .r12 (.reg .rbx), -- 487: adox r12, rbx
  .mulx .rbx .rax (.mem ⟨some .rsp, none, 424#64⟩), -- 488: mulx rbx, rax, [rsp + (13 * 32)+ 0x8]
  .adcx .r12 (.reg .rax), -- 489: adcx r12, rax
  .adox .r13 (.reg .rbx), -- 490: adox r13, rbx
  .mulx .rbx .rax (.mem ⟨some .rsp, none, 432#64⟩), -- 491: mulx rbx, rax, [rsp + (13 * 32)+ 0x10]
  .adcx .r13 (.reg .rax), -- 492: adcx r13, rax
  .adox .r14 (.reg .rbx), -- 493: adox r14, rbx
  .mulx .r15 .rax (.mem ⟨some .rsp, none, 440#64⟩), -- 494: mulx r15, rax, [rsp + (13 * 32)+ 0x18]
  .adcx .r14 (.reg .rax), -- 495: adcx r14, rax
  .adox .r15 (.reg .rcx), -- 496: adox r15, rcx
  .adcx .r15 (.reg .rcx), -- 497: adcx r15, rcx
  .mov (.reg .rdx) (.imm 38#64), -- 498: mov edx, 0x26
  .xor (.reg .rcx) (.reg .rcx), -- 499: xor ecx, ecx
  .mulx .rbx .rax (.reg .r12), -- 500: mulx rbx, rax, r12
  .adcx .r8 (.reg .rax), -- 501: adcx r8, rax
  .adox .r9 (.reg .rbx), -- 502: adox r9, rbx
  .mulx .rbx .rax (.reg .r13), -- 503: mulx rbx, rax, r13
  .adcx .r9 (.reg .rax), -- 504: adcx r9, rax
  .adox .r10 (.reg .rbx), -- 505: adox r10, rbx
  .mulx .rbx .rax (.reg .r14), -- 506: mulx rbx, rax, r14
  .adcx .r10 (.reg .rax), -- 507: adcx r10, rax
  .adox .r11 (.reg .rbx), -- 508: adox r11, rbx
  .mulx .r12 .rax (.reg .r15), -- 509: mulx r12, rax, r15
  .adcx .r11 (.reg .rax), -- 510: adcx r11, rax
  .adox .r12 (.reg .rcx), -- 511: adox r12, rcx
  .adcx .r12 (.reg .rcx), -- 512: adcx r12, rcx
  .shld (.reg .r12) .r11 (.imm 1#64), -- 513: shld r12, r11, 0x1
  .btr .r11 63#64, -- 514: btr r11, 0x3f
  .mov (.reg .rdx) (.imm 19#64), -- 515: mov edx, 0x13
  .imul .rdx (.reg .r12), -- 516: imul rdx, r12
  .add (.reg .r8) (.reg .rdx), -- 517: add r8, rdx
  .adc (.reg .r9) (.reg .rcx), -- 518: adc r9, rcx
  .adc (.reg .r10) (.reg .rcx), -- 519: adc r10, rcx
  .adc (.reg .r11) (.reg .rcx), -- 520: adc r11, rcx
  .mov (.mem ⟨some .rsp, none, 224#64⟩) (.reg .r8), -- 521: mov [rsp + (7 * 32)], r8
  .mov (.mem ⟨some .rsp, none, 232#64⟩) (.reg .r9), -- 522: mov [rsp + (7 * 32)+ 0x8], r9
  .mov (.mem ⟨some .rsp, none, 240#64⟩) (.reg .r10), -- 523: mov [rsp + (7 * 32)+ 0x10], r10
  .mov (.mem ⟨some .rsp, none, 248#64⟩) (.reg .r11), -- 524: mov [rsp + (7 * 32)+ 0x18], r11
  .xor (.reg .rcx) (.reg .rcx), -- 525: xor ecx, ecx
  .mov (.reg .rdx) (.mem ⟨some .rsp, none, 32#64⟩), -- 526: mov rdx, [rsp + (1 * 32)]
  .mulx .r9 .r8 (.mem ⟨some .rsp, none, 160#64⟩), -- 527: mulx r9, r8, [rsp + (5 * 32)]
  .mulx .r10 .rax (.mem ⟨some .rsp, none, 168#64⟩), -- 528: mulx r10, rax, [rsp + (5 * 32)+ 0x8]
  .add (.reg .r9) (.reg .rax), -- 529: add r9, rax
  .mulx .r11 .rax (.mem ⟨some .rsp, none, 176#64⟩), -- 530: mulx r11, rax, [rsp + (5 * 32)+ 0x10]
  .adc (.reg .r10) (.reg .rax), -- 531: adc r10, rax
  .mulx .r12 .rax (.mem ⟨some .rsp, none, 184#64⟩), -- 532: mulx r12, rax, [rsp + (5 * 32)+ 0x18]
  .adc (.reg .r11) (.reg .rax), -- 533: adc r11, rax
  .adc (.reg .r12) (.reg .rcx), -- 534: adc r12, rcx
  .xor (.reg .rcx) (.reg .rcx), -- 535: xor ecx, ecx
  .mov (.reg .rdx) (.mem ⟨some .rsp, none, 40#64⟩), -- 536: mov rdx, [rsp + (1 * 32)+ 0x8]
  .mulx .rbx .rax (.mem ⟨some .rsp, none, 160#64⟩), -- 537: mulx rbx, rax, [rsp + (5 * 32)]
  .adcx .r9 (.reg .rax), -- 538: adcx r9, rax
  .adox .r10 (.reg .rbx), -- 539: adox r10, rbx
  .mulx .rbx .rax (.mem ⟨some .rsp, none, 168#64⟩), -- 540: mulx rbx, rax, [rsp + (5 * 32)+ 0x8]
  .adcx .r10 (.reg .rax), -- 541: adcx r10, rax
  .adox .r11 (.reg .rbx), -- 542: adox r11, rbx
  .mulx .rbx .rax (.mem ⟨some .rsp, none, 176#64⟩), -- 543: mulx rbx, rax, [rsp + (5 * 32)+ 0x10]
  .adcx .r11 (.reg .rax), -- 544: adcx r11, rax
  .adox .r12 (.reg .rbx), -- 545: adox r12, rbx
  .mulx .r13 .rax (.mem ⟨some .rsp, none, 184#64⟩), -- 546: mulx r13, rax, [rsp + (5 * 32)+ 0x18]
  .adcx .r12 (.reg .rax), -- 547: adcx r12, rax
  .adox .r13 (.reg .rcx), -- 548: adox r13, rcx
  .adcx .r13 (.reg .rcx), -- 549: adcx r13, rcx
  .xor (.reg .rcx) (.reg .rcx), -- 550: xor ecx, ecx
  .mov (.reg .rdx) (.mem ⟨some .rsp, none, 48#64⟩), -- 551: mov rdx, [rsp + (1 * 32)+ 0x10]
  .mulx .rbx .rax (.mem ⟨some .rsp, none, 160#64⟩), -- 552: mulx rbx, rax, [rsp + (5 * 32)]
  .adcx .r10 (.reg .rax), -- 553: adcx r10, rax
  .adox .r11 (.reg .rbx), -- 554: adox r11, rbx
  .mulx .rbx .rax (.mem ⟨some .rsp, none, 168#64⟩), -- 555: mulx rbx, rax, [rsp + (5 * 32)+ 0x8]
  .adcx .r11 (.reg .rax), -- 556: adcx r11, rax
  .adox .r12 (.reg .rbx), -- 557: adox r12, rbx
  .mulx .rbx .rax (.mem ⟨some .rsp, none, 176#64⟩), -- 558: mulx rbx, rax, [rsp + (5 * 32)+ 0x10]
  .adcx .r12 (.reg .rax), -- 559: adcx r12, rax
  .adox .r13 (.reg .rbx), -- 560: adox r13, rbx
  .mulx .r14 .rax (.mem ⟨some .rsp, none, 184#64⟩), -- 561: mulx r14, rax, [rsp + (5 * 32)+ 0x18]
  .adcx .r13 (.reg .rax), -- 562: adcx r13, rax
  .adox .r14 (.reg .rcx), -- 563: adox r14, rcx
  .adcx .r14 (.reg .rcx), -- 564: adcx r14, rcx
  .xor (.reg .rcx) (.reg .rcx), -- 565: xor ecx, ecx
  .mov (.reg .rdx) (.mem ⟨some .rsp, none, 56#64⟩), -- 566: mov rdx, [rsp + (1 * 32)+ 0x18]
  .mulx .rbx .rax (.mem ⟨some .rsp, none, 160#64⟩), -- 567: mulx rbx, rax, [rsp + (5 * 32)]
  .adcx .r11 (.reg .rax), -- 568: adcx r11, rax
  .adox .r12 (.reg .rbx), -- 569: adox r12, rbx
  .mulx .rbx .rax (.mem ⟨some .rsp, none, 168#64⟩), -- 570: mulx rbx, rax, [rsp + (5 * 32)+ 0x8]
  .adcx .r12 (.reg .rax), -- 571: adcx r12, rax
  .adox .r13 (.reg .rbx), -- 572: adox r13, rbx
  .mulx .rbx .rax (.mem ⟨some .rsp, none, 176#64⟩), -- 573: mulx rbx, rax, [rsp + (5 * 32)+ 0x10]
  .adcx .r13 (.reg .rax), -- 574: adcx r13, rax
  .adox .r14 (.reg .rbx), -- 575: adox r14, rbx
  .mulx .r15 .rax (.mem ⟨some .rsp, none, 184#64⟩), -- 576: mulx r15, rax, [rsp + (5 * 32)+ 0x18]
  .adcx .r14 (.reg .rax), -- 577: adcx r14, rax
  .adox .r15 (.reg .rcx), -- 578: adox r15, rcx
  .adcx .r15 (.reg .rcx), -- 579: adcx r15, rcx
  .mov (.reg .rdx) (.imm 38#64), -- 580: mov edx, 0x26
  .xor (.reg .rcx) (.reg .rcx), -- 581: xor ecx, ecx
  .mulx .rbx .rax (.reg .r12), -- 582: mulx rbx, rax, r12
  .adcx .r8 (.reg .rax), -- 583: adcx r8, rax
  .adox .r9 (.reg .rbx), -- 584: adox r9, rbx
  .mulx .rbx .rax (.reg .r13), -- 585: mulx rbx, rax, r13
  .adcx .r9 (.reg .rax), -- 586: adcx r9, rax
  .adox .r10 (.reg .rbx), -- 587: adox r10, rbx
  .mulx .rbx .rax (.reg .r14), -- 588: mulx rbx, rax, r14
  .adcx .r10 (.reg .rax), -- 589: adcx r10, rax
  .adox .r11 (.reg .rbx), -- 590: adox r11, rbx
  .mulx .r12 .rax (.reg .r15), -- 591: mulx r12, rax, r15
  .adcx .r11 (.reg .rax), -- 592: adcx r11, rax
  .adox .r12 (.reg .rcx), -- 593: adox r12, rcx
  .adcx .r12 (.reg .rcx), -- 594: adcx r12, rcx
  .shld (.reg .r12) .r11 (.imm 1#64), -- 595: shld r12, r11, 0x1
  .btr .r11 63#64, -- 596: btr r11, 0x3f
  .mov (.reg .rdx) (.imm 19#64), -- 597: mov edx, 0x13
  .imul .rdx (.reg .r12), -- 598: imul rdx, r12
  .add (.reg .r8) (.reg .rdx), -- 599: add r8, rdx
  .adc (.reg .r9) (.reg .rcx), -- 600: adc r9, rcx
  .adc (.reg .r10) (.reg .rcx), -- 601: adc r10, rcx
  .adc (.reg .r11) (.reg .rcx), -- 602: adc r11, rcx
  .mov (.mem ⟨some .rsp, none, 160#64⟩) (.reg .r8), -- 603: mov [rsp + (5 * 32)], r8
  .mov (.mem ⟨some .rsp, none, 168#64⟩) (.reg .r9), -- 604: mov [rsp + (5 * 32)+ 0x8], r9
  .mov (.mem ⟨some .rsp, none, 176#64⟩) (.reg .r10), -- 605: mov [rsp + (5 * 32)+ 0x10], r10
  .mov (.mem ⟨some .rsp, none, 184#64⟩) (.reg .r11), -- 606: mov [rsp + (5 * 32)+ 0x18], r11
  .xor (.reg .rcx) (.reg .rcx), -- 607: xor ecx, ecx
  .mov (.reg .rdx) (.mem ⟨some .rsp, none, 64#64⟩), -- 608: mov rdx, [rsp + (2 * 32)]
  .mulx .r9 .r8 (.mem ⟨some .rsp, none, 192#64⟩), -- 609: mulx r9, r8, [rsp + (6 * 32)]
  .mulx .r10 .rax (.mem ⟨some .rsp, none, 200#64⟩), -- 610: mulx r10, rax, [rsp + (6 * 32)+ 0x8]
  .add (.reg .r9) (.reg .rax), -- 611: add r9, rax
  .mulx .r11 .rax (.mem ⟨some .rsp, none, 208#64⟩), -- 612: mulx r11, rax, [rsp + (6 * 32)+ 0x10]
  .adc (.reg .r10) (.reg .rax), -- 613: adc r10, rax
  .mulx .r12 .rax (.mem ⟨some .rsp, none, 216#64⟩), -- 614: mulx r12, rax, [rsp + (6 * 32)+ 0x18]
  .adc (.reg .r11) (.reg .rax), -- 615: adc r11, rax
  .adc (.reg .r12) (.reg .rcx), -- 616: adc r12, rcx
  .xor (.reg .rcx) (.reg .rcx), -- 617: xor ecx, ecx
  .mov (.reg .rdx) (.mem ⟨some .rsp, none, 72#64⟩), -- 618: mov rdx, [rsp + (2 * 32)+ 0x8]
  .mulx .rbx .rax (.mem ⟨some .rsp, none, 192#64⟩), -- 619: mulx rbx, rax, [rsp + (6 * 32)]
  .adcx .r9 (.reg .rax), -- 620: adcx r9, rax
  .adox .r10 (.reg .rbx), -- 621: adox r10, rbx
  .mulx .rbx .rax (.mem ⟨some .rsp, none, 200#64⟩), -- 622: mulx rbx, rax, [rsp + (6 * 32)+ 0x8]
  .adcx .r10 (.reg .rax), -- 623: adcx r10, rax
  .adox .r11 (.reg .rbx), -- 624: adox r11, rbx
  .mulx .rbx .rax (.mem ⟨some .rsp, none, 208#64⟩), -- 625: mulx rbx, rax, [rsp + (6 * 32)+ 0x10]
  .adcx .r11 (.reg .rax), -- 626: adcx r11, rax
  .adox .r12 (.reg .rbx), -- 627: adox r12, rbx
  .mulx .r13 .rax (.mem ⟨some .rsp, none, 216#64⟩), -- 628: mulx r13, rax, [rsp + (6 * 32)+ 0x18]
  .adcx .r12 (.reg .rax), -- 629: adcx r12, rax
  .adox .r13 (.reg .rcx), -- 630: adox r13, rcx
  .adcx .r13 (.reg .rcx), -- 631: adcx r13, rcx
  .xor (.reg .rcx) (.reg .rcx), -- 632: xor ecx, ecx
  .mov (.reg .rdx) (.mem ⟨some .rsp, none, 80#64⟩), -- 633: mov rdx, [rsp + (2 * 32)+ 0x10]
  .mulx .rbx .rax (.mem ⟨some .rsp, none, 192#64⟩), -- 634: mulx rbx, rax, [rsp + (6 * 32)]
  .adcx .r10 (.reg .rax), -- 635: adcx r10, rax
  .adox .r11 (.reg .rbx), -- 636: adox r11, rbx
  .mulx .rbx .rax (.mem ⟨some .rsp, none, 200#64⟩), -- 637: mulx rbx, rax, [rsp + (6 * 32)+ 0x8]
  .adcx .r11 (.reg .rax), -- 638: adcx r11, rax
  .adox .r12 (.reg .rbx), -- 639: adox r12, rbx
  .mulx .rbx .rax (.mem ⟨some .rsp, none, 208#64⟩), -- 640: mulx rbx, rax, [rsp + (6 * 32)+ 0x10]
  .adcx .r12 (.reg .rax), -- 641: adcx r12, rax
  .adox .r13 (.reg .rbx), -- 642: adox r13, rbx
  .mulx .r14 .rax (.mem ⟨some .rsp, none, 216#64⟩), -- 643: mulx r14, rax, [rsp + (6 * 32)+ 0x18]
  .adcx .r13 (.reg .rax), -- 644: adcx r13, rax
  .adox .r14 (.reg .rcx), -- 645: adox r14, rcx
  .adcx .r14 (.reg .rcx), -- 646: adcx r14, rcx
  .xor (.reg .rcx) (.reg .rcx), -- 647: xor ecx, ecx
  .mov (.reg .rdx) (.mem ⟨some .rsp, none, 88#64⟩), -- 648: mov rdx, [rsp + (2 * 32)+ 0x18]
  .mulx .rbx .rax (.mem ⟨some .rsp, none, 192#64⟩), -- 649: mulx rbx, rax, [rsp + (6 * 32)]
  .adcx .r11 (.reg .rax), -- 650: adcx r11, rax
  .adox .r12 (.reg .rbx), -- 651: adox r12, rbx
  .mulx .rbx .rax (.mem ⟨some .rsp, none, 200#64⟩), -- 652: mulx rbx, rax, [rsp + (6 * 32)+ 0x8]
  .adcx .r12 (.reg .rax), -- 653: adcx r12, rax
  .adox .r13 (.reg .rbx), -- 654: adox r13, rbx
  .mulx .rbx .rax (.mem ⟨some .rsp, none, 208#64⟩), -- 655: mulx rbx, rax, [rsp + (6 * 32)+ 0x10]
  .adcx .r13 (.reg .rax), -- 656: adcx r13, rax
  .adox .r14 (.reg .rbx), -- 657: adox r14, rbx
  .mulx .r15 .rax (.mem ⟨some .rsp, none, 216#64⟩), -- 658: mulx r15, rax, [rsp + (6 * 32)+ 0x18]
  .adcx .r14 (.reg .rax), -- 659: adcx r14, rax
  .adox .r15 (.reg .rcx), -- 660: adox r15, rcx
  .adcx .r15 (.reg .rcx), -- 661: adcx r15, rcx
  .mov (.reg .rdx) (.imm 38#64), -- 662: mov edx, 0x26
  .xor (.reg .rcx) (.reg .rcx), -- 663: xor ecx, ecx
  .mulx .rbx .rax (.reg .r12), -- 664: mulx rbx, rax, r12
  .adcx .r8 (.reg .rax), -- 665: adcx r8, rax
  .adox .r9 (.reg .rbx), -- 666: adox r9, rbx
  .mulx .rbx .rax (.reg .r13), -- 667: mulx rbx, rax, r13
  .adcx .r9 (.reg .rax), -- 668: adcx r9, rax
  .adox .r10 (.reg .rbx), -- 669: adox r10, rbx
  .mulx .rbx .rax (.reg .r14), -- 670: mulx rbx, rax, r14
  .adcx .r10 (.reg .rax), -- 671: adcx r10, rax
  .adox .r11 (.reg .rbx), -- 672: adox r11, rbx
  .mulx .r12 .rax (.reg .r15), -- 673: mulx r12, rax, r15
  .adcx .r11 (.reg .rax), -- 674: adcx r11, rax
  .adox .r12 (.reg .rcx), -- 675: adox r12, rcx
  .adcx .r12 (.reg .rcx), -- 676: adcx r12, rcx
  .shld (.reg .r12) .r11 (.imm 1#64), -- 677: shld r12, r11, 0x1
  .btr .r11 63#64, -- 678: btr r11, 0x3f
  .mov (.reg .rdx) (.imm 19#64), -- 679: mov edx, 0x13
  .imul .rdx (.reg .r12), -- 680: imul rdx, r12
  .add (.reg .r8) (.reg .rdx), -- 681: add r8, rdx
  .adc (.reg .r9) (.reg .rcx), -- 682: adc r9, rcx
  .adc (.reg .r10) (.reg .rcx), -- 683: adc r10, rcx
  .adc (.reg .r11) (.reg .rcx), -- 684: adc r11, rcx
  .mov (.mem ⟨some .rsp, none, 192#64⟩) (.reg .r8), -- 685: mov [rsp + (6 * 32)], r8
  .mov (.mem ⟨some .rsp, none, 200#64⟩) (.reg .r9), -- 686: mov [rsp + (6 * 32)+ 0x8], r9
  .mov (.mem ⟨some .rsp, none, 208#64⟩) (.reg .r10), -- 687: mov [rsp + (6 * 32)+ 0x10], r10
  .mov (.mem ⟨some .rsp, none, 216#64⟩) (.reg .r11), -- 688: mov [rsp + (6 * 32)+ 0x18], r11
  .mov (.reg .r8) (.mem ⟨some .rsp, none, 128#64⟩), -- 689: mov r8, [rsp + (4 * 32)]
  .xor (.reg .rbx) (.reg .rbx), -- 690: xor ebx, ebx
  .sub (.reg .r8) (.mem ⟨some .rsp, none, 224#64⟩), -- 691: sub r8, [rsp + (7 * 32)]
  .mov (.reg .r9) (.mem ⟨some .rsp, none, 136#64⟩), -- 692: mov r9, [rsp + (4 * 32)+ 8]
  .sbb (.reg .r9) (.mem ⟨some .rsp, none, 232#64⟩), -- 693: sbb r9, [rsp + (7 * 32)+ 8]
  .mov (.reg .rcx) (.imm 38#64), -- 694: mov ecx, 38
  .mov (.reg .r10) (.mem ⟨some .rsp, none, 144#64⟩), -- 695: mov r10, [rsp + (4 * 32)+ 16]
  .sbb (.reg .r10) (.mem ⟨some .rsp, none, 240#64⟩), -- 696: sbb r10, [rsp + (7 * 32)+ 16]
  .mov (.reg .rax) (.mem ⟨some .rsp, none, 152#64⟩), -- 697: mov rax, [rsp + (4 * 32)+ 24]
  .sbb (.reg .rax) (.mem ⟨some .rsp, none, 248#64⟩), -- 698: sbb rax, [rsp + (7 * 32)+ 24]
  .cmov .nc .rcx (.reg .rbx), -- 699: cmovnc rcx, rbx
  .sub (.reg .r8) (.reg .rcx), -- 700: sub r8, rcx
  .sbb (.reg .r9) (.reg .rbx), -- 701: sbb r9, rbx
  .sbb (.reg .r10) (.reg .rbx), -- 702: sbb r10, rbx
  .sbb (.reg .rax) (.reg .rbx), -- 703: sbb rax, rbx
  .mov (.mem ⟨some .rsp, none, 256#64⟩) (.reg .r8), -- 704: mov [rsp + (8 * 32)], r8
  .mov (.mem ⟨some .rsp, none, 264#64⟩) (.reg .r9), -- 705: mov [rsp + (8 * 32)+ 8], r9
  .mov (.mem ⟨some .rsp, none, 272#64⟩) (.reg .r10), -- 706: mov [rsp + (8 * 32)+ 16], r10
  .mov (.mem ⟨some .rsp, none, 280#64⟩) (.reg .rax), -- 707: mov [rsp + (8 * 32)+ 24], rax
  .mov (.reg .r8) (.mem ⟨some .rsp, none, 128#64⟩), -- 708: mov r8, [rsp + (4 * 32)]
  .xor (.reg .rcx) (.reg .rcx), -- 709: xor ecx, ecx
  .add (.reg .r8) (.mem ⟨some .rsp, none, 224#64⟩), -- 710: add r8, [rsp + (7 * 32)]
  .mov (.reg .r9) (.mem ⟨some .rsp, none, 136#64⟩), -- 711: mov r9, [rsp + (4 * 32)+ 0x8]
  .adc (.reg .r9) (.mem ⟨some .rsp, none, 232#64⟩), -- 712: adc r9, [rsp + (7 * 32)+ 0x8]
  .mov (.reg .r10) (.mem ⟨some .rsp, none, 144#64⟩), -- 713: mov r10, [rsp + (4 * 32)+ 0x10]
  .adc (.reg .r10) (.mem ⟨some .rsp, none, 240#64⟩), -- 714: adc r10, [rsp + (7 * 32)+ 0x10]
  .mov (.reg .r11) (.mem ⟨some .rsp, none, 152#64⟩), -- 715: mov r11, [rsp + (4 * 32)+ 0x18]
  .adc (.reg .r11) (.mem ⟨some .rsp, none, 248#64⟩), -- 716: adc r11, [rsp + (7 * 32)+ 0x18]
  .mov (.reg .rax) (.imm 38#64), -- 717: mov eax, 38
  .cmov .nc .rax (.reg .rcx), -- 718: cmovnc rax, rcx
  .add (.reg .r8) (.reg .rax), -- 719: add r8, rax
  .adc (.reg .r9) (.reg .rcx), -- 720: adc r9, rcx
  .adc (.reg .r10) (.reg .rcx), -- 721: adc r10, rcx
  .adc (.reg .r11) (.reg .rcx), -- 722: adc r11, rcx
  .mov (.mem ⟨some .rsp, none, 128#64⟩) (.reg .r8), -- 723: mov [rsp + (4 * 32)], r8
  .mov (.mem ⟨some .rsp, none, 136#64⟩) (.reg .r9), -- 724: mov [rsp + (4 * 32)+ 0x8], r9
  .mov (.mem ⟨some .rsp, none, 144#64⟩) (.reg .r10), -- 725: mov [rsp + (4 * 32)+ 0x10], r10
  .mov (.mem ⟨some .rsp, none, 152#64⟩) (.reg .r11), -- 726: mov [rsp + (4 * 32)+ 0x18], r11
  .mov (.reg .r8) (.mem ⟨some .rsp, none, 192#64⟩), -- 727: mov r8, [rsp + (6 * 32)]
  .xor (.reg .rbx) (.reg .rbx), -- 728: xor ebx, ebx
  .sub (.reg .r8) (.mem ⟨some .rsp, none, 160#64⟩), -- 729: sub r8, [rsp + (5 * 32)]
  .mov (.reg .r9) (.mem ⟨some .rsp, none, 200#64⟩), -- 730: mov r9, [rsp + (6 * 32)+ 8]
  .sbb (.reg .r9) (.mem ⟨some .rsp, none, 168#64⟩), -- 731: sbb r9, [rsp + (5 * 32)+ 8]
  .mov (.reg .rcx) (.imm 38#64), -- 732: mov ecx, 38
  .mov (.reg .r10) (.mem ⟨some .rsp, none, 208#64⟩), -- 733: mov r10, [rsp + (6 * 32)+ 16]
  .sbb (.reg .r10) (.mem ⟨some .rsp, none, 176#64⟩), -- 734: sbb r10, [rsp + (5 * 32)+ 16]
  .mov (.reg .rax) (.mem ⟨some .rsp, none, 216#64⟩), -- 735: mov rax, [rsp + (6 * 32)+ 24]
  .sbb (.reg .rax) (.mem ⟨some .rsp, none, 184#64⟩), -- 736: sbb rax, [rsp + (5 * 32)+ 24]
  .cmov .nc .rcx (.reg .rbx), -- 737: cmovnc rcx, rbx
  .sub (.reg .r8) (.reg .rcx), -- 738: sub r8, rcx
  .sbb (.reg .r9) (.reg .rbx), -- 739: sbb r9, rbx
  .sbb (.reg .r10) (.reg .rbx), -- 740: sbb r10, rbx
  .sbb (.reg .rax) (.reg .rbx), -- 741: sbb rax, rbx
  .mov (.mem ⟨some .rsp, none, 288#64⟩) (.reg .r8), -- 742: mov [rsp + (9 * 32)], r8
  .mov (.mem ⟨some .rsp, none, 296#64⟩) (.reg .r9), -- 743: mov [rsp + (9 * 32)+ 8], r9
  .mov (.mem ⟨some .rsp, none, 304#64⟩) (.reg .r10), -- 744: mov [rsp + (9 * 32)+ 16], r10
  .mov (.mem ⟨some .rsp, none, 312#64⟩) (.reg .rax), -- 745: mov [rsp + (9 * 32)+ 24], rax
  .mov (.reg .r8) (.mem ⟨some .rsp, none, 192#64⟩), -- 746: mov r8, [rsp + (6 * 32)]
  .xor (.reg .rcx) (.reg .rcx), -- 747: xor ecx, ecx
  .add (.reg .r8) (.mem ⟨some .rsp, none, 160#64⟩), -- 748: add r8, [rsp + (5 * 32)]
  .mov (.reg .r9) (.mem ⟨some .rsp, none, 200#64⟩), -- 749: mov r9, [rsp + (6 * 32)+ 0x8]
  .adc (.reg .r9) (.mem ⟨some .rsp, none, 168#64⟩), -- 750: adc r9, [rsp + (5 * 32)+ 0x8]
  .mov (.reg .r10) (.mem ⟨some .rsp, none, 208#64⟩), -- 751: mov r10, [rsp + (6 * 32)+ 0x10]
  .adc (.reg .r10) (.mem ⟨some .rsp, none, 176#64⟩), -- 752: adc r10, [rsp + (5 * 32)+ 0x10]
  .mov (.reg .r11) (.mem ⟨some .rsp, none, 216#64⟩), -- 753: mov r11, [rsp + (6 * 32)+ 0x18]
  .adc (.reg .r11) (.mem ⟨some .rsp, none, 184#64⟩), -- 754: adc r11, [rsp + (5 * 32)+ 0x18]
  .mov (.reg .rax) (.imm 38#64), -- 755: mov eax, 38
  .cmov .nc .rax (.reg .rcx), -- 756: cmovnc rax, rcx
  .add (.reg .r8) (.reg .rax), -- 757: add r8, rax
  .adc (.reg .r9) (.reg .rcx), -- 758: adc r9, rcx
  .adc (.reg .r10) (.reg .rcx), -- 759: adc r10, rcx
  .adc (.reg .r11) (.reg .rcx), -- 760: adc r11, rcx
  .mov (.mem ⟨some .rsp, none, 160#64⟩) (.reg .r8), -- 761: mov [rsp + (5 * 32)], r8
  .mov (.mem ⟨some .rsp, none, 168#64⟩) (.reg .r9), -- 762: mov [rsp + (5 * 32)+ 0x8], r9
  .mov (.mem ⟨some .rsp, none, 176#64⟩) (.reg .r10), -- 763: mov [rsp + (5 * 32)+ 0x10], r10
  .mov (.mem ⟨some .rsp, none, 184#64⟩) (.reg .r11), -- 764: mov [rsp + (5 * 32)+ 0x18], r11
  .xor (.reg .rcx) (.reg .rcx), -- 765: xor ecx, ecx
  .mov (.reg .rdx) (.mem ⟨some .rsp, none, 128#64⟩), -- 766: mov rdx, [rsp + (4 * 32)]
  .mulx .r9 .r8 (.mem ⟨some .rsp, none, 256#64⟩), -- 767: mulx r9, r8, [rsp + (8 * 32)]
  .mulx .r10 .rax (.mem ⟨some .rsp, none, 264#64⟩), -- 768: mulx r10, rax, [rsp + (8 * 32)+ 0x8]
  .add (.reg .r9) (.reg .rax), -- 769: add r9, rax
  .mulx .r11 .rax (.mem ⟨some .rsp, none, 272#64⟩), -- 770: mulx r11, rax, [rsp + (8 * 32)+ 0x10]
  .adc (.reg .r10) (.reg .rax), -- 771: adc r10, rax
  .mulx .r12 .rax (.mem ⟨some .rsp, none, 280#64⟩), -- 772: mulx r12, rax, [rsp + (8 * 32)+ 0x18]
  .adc (.reg .r11) (.reg .rax), -- 773: adc r11, rax
  .adc (.reg .r12) (.reg .rcx), -- 774: adc r12, rcx
  .xor (.reg .rcx) (.reg .rcx), -- 775: xor ecx, ecx
  .mov (.reg .rdx) (.mem ⟨some .rsp, none, 136#64⟩), -- 776: mov rdx, [rsp + (4 * 32)+ 0x8]
  .mulx .rbx .rax (.mem ⟨some .rsp, none, 256#64⟩), -- 777: mulx rbx, rax, [rsp + (8 * 32)]
  .adcx .r9 (.reg .rax), -- 778: adcx r9, rax
  .adox .r10 (.reg .rbx), -- 779: adox r10, rbx
  .mulx .rbx .rax (.mem ⟨some .rsp, none, 264#64⟩), -- 780: mulx rbx, rax, [rsp + (8 * 32)+ 0x8]
  .adcx .r10 (.reg .rax), -- 781: adcx r10, rax
  .adox .r11 (.reg .rbx), -- 782: adox r11, rbx
  .mulx .rbx .rax (.mem ⟨some .rsp, none, 272#64⟩), -- 783: mulx rbx, rax, [rsp + (8 * 32)+ 0x10]
  .adcx .r11 (.reg .rax), -- 784: adcx r11, rax
  .adox .r12 (.reg .rbx), -- 785: adox r12, rbx
  .mulx .r13 .rax (.mem ⟨some .rsp, none, 280#64⟩), -- 786: mulx r13, rax, [rsp + (8 * 32)+ 0x18]
  .adcx .r12 (.reg .rax), -- 787: adcx r12, rax
  .adox .r13 (.reg .rcx), -- 788: adox r13, rcx
  .adcx .r13 (.reg .rcx), -- 789: adcx r13, rcx
  .xor (.reg .rcx) (.reg .rcx), -- 790: xor ecx, ecx
  .mov (.reg .rdx) (.mem ⟨some .rsp, none, 144#64⟩), -- 791: mov rdx, [rsp + (4 * 32)+ 0x10]
  .mulx .rbx .rax (.mem ⟨some .rsp, none, 256#64⟩), -- 792: mulx rbx, rax, [rsp + (8 * 32)]
  .adcx .r10 (.reg .rax), -- 793: adcx r10, rax
  .adox .r11 (.reg .rbx), -- 794: adox r11, rbx
  .mulx .rbx .rax (.mem ⟨some .rsp, none, 264#64⟩), -- 795: mulx rbx, rax, [rsp + (8 * 32)+ 0x8]
  .adcx .r11 (.reg .rax), -- 796: adcx r11, rax
  .adox .r12 (.reg .rbx), -- 797: adox r12, rbx
  .mulx .rbx .rax (.mem ⟨some .rsp, none, 272#64⟩), -- 798: mulx rbx, rax, [rsp + (8 * 32)+ 0x10]
  .adcx .r12 (.reg .rax), -- 799: adcx r12, rax
  .adox .r13 (.reg .rbx), -- 800: adox r13, rbx
  .mulx .r14 .rax (.mem ⟨some .rsp, none, 280#64⟩), -- 801: mulx r14, rax, [rsp + (8 * 32)+ 0x18]
  .adcx .r13 (.reg .rax), -- 802: adcx r13, rax
  .adox .r14 (.reg .rcx), -- 803: adox r14, rcx
  .adcx .r14 (.reg .rcx), -- 804: adcx r14, rcx
  .xor (.reg .rcx) (.reg .rcx), -- 805: xor ecx, ecx
  .mov (.reg .rdx) (.mem ⟨some .rsp, none, 152#64⟩), -- 806: mov rdx, [rsp + (4 * 32)+ 0x18]
  .mulx .rbx .rax (.mem ⟨some .rsp, none, 256#64⟩), -- 807: mulx rbx, rax, [rsp + (8 * 32)]
  .adcx .r11 (.reg .rax), -- 808: adcx r11, rax
  .adox .r12 (.reg .rbx), -- 809: adox r12, rbx
  .mulx .rbx .rax (.mem ⟨some .rsp, none, 264#64⟩), -- 810: mulx rbx, rax, [rsp + (8 * 32)+ 0x8]
  .adcx .r12 (.reg .rax), -- 811: adcx r12, rax
  .adox .r13 (.reg .rbx), -- 812: adox r13, rbx
  .mulx .rbx .rax (.mem ⟨some .rsp, none, 272#64⟩), -- 813: mulx rbx, rax, [rsp + (8 * 32)+ 0x10]
  .adcx .r13 (.reg .rax), -- 814: adcx r13, rax
  .adox .r14 (.reg .rbx), -- 815: adox r14, rbx
  .mulx .r15 .rax (.mem ⟨some .rsp, none, 280#64⟩), -- 816: mulx r15, rax, [rsp + (8 * 32)+ 0x18]
  .adcx .r14 (.reg .rax), -- 817: adcx r14, rax
  .adox .r15 (.reg .rcx), -- 818: adox r15, rcx
  .adcx .r15 (.reg .rcx), -- 819: adcx r15, rcx
  .mov (.reg .rdx) (.imm 38#64), -- 820: mov edx, 0x26
  .xor (.reg .rcx) (.reg .rcx), -- 821: xor ecx, ecx
  .mulx .rbx .rax (.reg .r12), -- 822: mulx rbx, rax, r12
  .adcx .r8 (.reg .rax), -- 823: adcx r8, rax
  .adox .r9 (.reg .rbx), -- 824: adox r9, rbx
  .mulx .rbx .rax (.reg .r13), -- 825: mulx rbx, rax, r13
  .adcx .r9 (.reg .rax), -- 826: adcx r9, rax
  .adox .r10 (.reg .rbx), -- 827: adox r10, rbx
  .mulx .rbx .rax (.reg .r14), -- 828: mulx rbx, rax, r14
  .adcx .r10 (.reg .rax), -- 829: adcx r10, rax
  .adox .r11 (.reg .rbx), -- 830: adox r11, rbx
  .mulx .r12 .rax (.reg .r15), -- 831: mulx r12, rax, r15
  .adcx .r11 (.reg .rax), -- 832: adcx r11, rax
  .adox .r12 (.reg .rcx), -- 833: adox r12, rcx
  .adcx .r12 (.reg .rcx), -- 834: adcx r12, rcx
  .shld (.reg .r12) .r11 (.imm 1#64), -- 835: shld r12, r11, 0x1
  .btr .r11 63#64, -- 836: btr r11, 0x3f
  .mov (.reg .rdx) (.imm 19#64), -- 837: mov edx, 0x13
  .imul .rdx (.reg .r12), -- 838: imul rdx, r12
  .add (.reg .r8) (.reg .rdx), -- 839: add r8, rdx
  .adc (.reg .r9) (.reg .rcx), -- 840: adc r9, rcx
  .adc (.reg .r10) (.reg .rcx), -- 841: adc r10, rcx
  .adc (.reg .r11) (.reg .rcx), -- 842: adc r11, rcx
  .mov (.mem ⟨some .rsp, none, 384#64⟩) (.reg .r8), -- 843: mov [rsp + (12 * 32)], r8
  .mov (.mem ⟨some .rsp, none, 392#64⟩) (.reg .r9), -- 844: mov [rsp + (12 * 32)+ 0x8], r9
  .mov (.mem ⟨some .rsp, none, 400#64⟩) (.reg .r10), -- 845: mov [rsp + (12 * 32)+ 0x10], r10
  .mov (.mem ⟨some .rsp, none, 408#64⟩) (.reg .r11), -- 846: mov [rsp + (12 * 32)+ 0x18], r11
  .xor (.reg .rcx) (.reg .rcx), -- 847: xor ecx, ecx
  .mov (.reg .rdx) (.mem ⟨some .rsp, none, 256#64⟩), -- 848: mov rdx, [rsp + (8 * 32)]
  .mulx .r9 .r8 (.mem ⟨some .rsp, none, 288#64⟩), -- 849: mulx r9, r8, [rsp + (9 * 32)]
  .mulx .r10 .rax (.mem ⟨some .rsp, none, 296#64⟩), -- 850: mulx r10, rax, [rsp + (9 * 32)+ 0x8]
  .add (.reg .r9) (.reg .rax), -- 851: add r9, rax
  .mulx .r11 .rax (.mem ⟨some .rsp, none, 304#64⟩), -- 852: mulx r11, rax, [rsp + (9 * 32)+ 0x10]
  .adc (.reg .r10) (.reg .rax), -- 853: adc r10, rax
  .mulx .r12 .rax (.mem ⟨some .rsp, none, 312#64⟩), -- 854: mulx r12, rax, [rsp + (9 * 32)+ 0x18]
  .adc (.reg .r11) (.reg .rax), -- 855: adc r11, rax
  .adc (.reg .r12) (.reg .rcx), -- 856: adc r12, rcx
  .xor (.reg .rcx) (.reg .rcx), -- 857: xor ecx, ecx
  .mov (.reg .rdx) (.mem ⟨some .rsp, none, 264#64⟩), -- 858: mov rdx, [rsp + (8 * 32)+ 0x8]
  .mulx .rbx .rax (.mem ⟨some .rsp, none, 288#64⟩), -- 859: mulx rbx, rax, [rsp + (9 * 32)]
  .adcx .r9 (.reg .rax), -- 860: adcx r9, rax
  .adox .r10 (.reg .rbx), -- 861: adox r10, rbx
  .mulx .rbx .rax (.mem ⟨some .rsp, none, 296#64⟩), -- 862: mulx rbx, rax, [rsp + (9 * 32)+ 0x8]
  .adcx .r10 (.reg .rax), -- 863: adcx r10, rax
  .adox .r11 (.reg .rbx), -- 864: adox r11, rbx
  .mulx .rbx .rax (.mem ⟨some .rsp, none, 304#64⟩), -- 865: mulx rbx, rax, [rsp + (9 * 32)+ 0x10]
  .adcx .r11 (.reg .rax), -- 866: adcx r11, rax
  .adox .r12 (.reg .rbx), -- 867: adox r12, rbx
  .mulx .r13 .rax (.mem ⟨some .rsp, none, 312#64⟩), -- 868: mulx r13, rax, [rsp + (9 * 32)+ 0x18]
  .adcx .r12 (.reg .rax), -- 869: adcx r12, rax
  .adox .r13 (.reg .rcx), -- 870: adox r13, rcx
  .adcx .r13 (.reg .rcx), -- 871: adcx r13, rcx
  .xor (.reg .rcx) (.reg .rcx), -- 872: xor ecx, ecx
  .mov (.reg .rdx) (.mem ⟨some .rsp, none, 272#64⟩), -- 873: mov rdx, [rsp + (8 * 32)+ 0x10]
  .mulx .rbx .rax (.mem ⟨some .rsp, none, 288#64⟩), -- 874: mulx rbx, rax, [rsp + (9 * 32)]
  .adcx .r10 (.reg .rax), -- 875: adcx r10, rax
  .adox .r11 (.reg .rbx), -- 876: adox r11, rbx
  .mulx .rbx .rax (.mem ⟨some .rsp, none, 296#64⟩), -- 877: mulx rbx, rax, [rsp + (9 * 32)+ 0x8]
  .adcx .r11 (.reg .rax), -- 878: adcx r11, rax
  .adox .r12 (.reg .rbx), -- 879: adox r12, rbx
  .mulx .rbx .rax (.mem ⟨some .rsp, none, 304#64⟩), -- 880: mulx rbx, rax, [rsp + (9 * 32)+ 0x10]
  .adcx .r12 (.reg .rax), -- 881: adcx r12, rax
  .adox .r13 (.reg .rbx), -- 882: adox r13, rbx
  .mulx .r14 .rax (.mem ⟨some .rsp, none, 312#64⟩), -- 883: mulx r14, rax, [rsp + (9 * 32)+ 0x18]
  .adcx .r13 (.reg .rax), -- 884: adcx r13, rax
  .adox .r14 (.reg .rcx), -- 885: adox r14, rcx
  .adcx .r14 (.reg .rcx), -- 886: adcx r14, rcx
  .xor (.reg .rcx) (.reg .rcx), -- 887: xor ecx, ecx
  .mov (.reg .rdx) (.mem ⟨some .rsp, none, 280#64⟩), -- 888: mov rdx, [rsp + (8 * 32)+ 0x18]
  .mulx .rbx .rax (.mem ⟨some .rsp, none, 288#64⟩), -- 889: mulx rbx, rax, [rsp + (9 * 32)]
  .adcx .r11 (.reg .rax), -- 890: adcx r11, rax
  .adox .r12 (.reg .rbx), -- 891: adox r12, rbx
  .mulx .rbx .rax (.mem ⟨some .rsp, none, 296#64⟩), -- 892: mulx rbx, rax, [rsp + (9 * 32)+ 0x8]
  .adcx .r12 (.reg .rax), -- 893: adcx r12, rax
  .adox .r13 (.reg .rbx), -- 894: adox r13, rbx
  .mulx .rbx .rax (.mem ⟨some .rsp, none, 304#64⟩), -- 895: mulx rbx, rax, [rsp + (9 * 32)+ 0x10]
  .adcx .r13 (.reg .rax), -- 896: adcx r13, rax
  .adox .r14 (.reg .rbx), -- 897: adox r14, rbx
  .mulx .r15 .rax (.mem ⟨some .rsp, none, 312#64⟩), -- 898: mulx r15, rax, [rsp + (9 * 32)+ 0x18]
  .adcx .r14 (.reg .rax), -- 899: adcx r14, rax
  .adox .r15 (.reg .rcx), -- 900: adox r15, rcx
  .adcx .r15 (.reg .rcx), -- 901: adcx r15, rcx
  .mov (.reg .rdx) (.imm 38#64), -- 902: mov edx, 0x26
  .xor (.reg .rcx) (.reg .rcx), -- 903: xor ecx, ecx
  .mulx .rbx .rax (.reg .r12), -- 904: mulx rbx, rax, r12
  .adcx .r8 (.reg .rax), -- 905: adcx r8, rax
  .adox .r9 (.reg .rbx), -- 906: adox r9, rbx
  .mulx .rbx .rax (.reg .r13), -- 907: mulx rbx, rax, r13
  .adcx .r9 (.reg .rax), -- 908: adcx r9, rax
  .adox .r10 (.reg .rbx), -- 909: adox r10, rbx
  .mulx .rbx .rax (.reg .r14), -- 910: mulx rbx, rax, r14
  .adcx .r10 (.reg .rax), -- 911: adcx r10, rax
  .adox .r11 (.reg .rbx), -- 912: adox r11, rbx
  .mulx .r12 .rax (.reg .r15), -- 913: mulx r12, rax, r15
  .adcx .r11 (.reg .rax), -- 914: adcx r11, rax
  .adox .r12 (.reg .rcx), -- 915: adox r12, rcx
  .adcx .r12 (.reg .rcx), -- 916: adcx r12, rcx
  .shld (.reg .r12) .r11 (.imm 1#64), -- 917: shld r12, r11, 0x1
  .btr .r11 63#64, -- 918: btr r11, 0x3f
  .mov (.reg .rdx) (.imm 19#64), -- 919: mov edx, 0x13
  .imul .rdx (.reg .r12), -- 920: imul rdx, r12
  .add (.reg .r8) (.reg .rdx), -- 921: add r8, rdx
  .adc (.reg .r9) (.reg .rcx), -- 922: adc r9, rcx
  .adc (.reg .r10) (.reg .rcx), -- 923: adc r10, rcx
  .adc (.reg .r11) (.reg .rcx), -- 924: adc r11, rcx
  .mov (.mem ⟨some .rsp, none, 320#64⟩) (.reg .r8), -- 925: mov [rsp + (10 * 32)], r8
  .mov (.mem ⟨some .rsp, none, 328#64⟩) (.reg .r9), -- 926: mov [rsp + (10 * 32)+ 0x8], r9
  .mov (.mem ⟨some .rsp, none, 336#64⟩) (.reg .r10), -- 927: mov [rsp + (10 * 32)+ 0x10], r10
  .mov (.mem ⟨some .rsp, none, 344#64⟩) (.reg .r11), -- 928: mov [rsp + (10 * 32)+ 0x18], r11
  .xor (.reg .rcx) (.reg .rcx), -- 929: xor ecx, ecx
  .mov (.reg .rdx) (.mem ⟨some .rsp, none, 160#64⟩), -- 930: mov rdx, [rsp + (5 * 32)]
  .mulx .r9 .r8 (.mem ⟨some .rsp, none, 128#64⟩), -- 931: mulx r9, r8, [rsp + (4 * 32)]
  .mulx .r10 .rax (.mem ⟨some .rsp, none, 136#64⟩), -- 932: mulx r10, rax, [rsp + (4 * 32)+ 0x8]
  .add (.reg .r9) (.reg .rax), -- 933: add r9, rax
  .mulx .r11 .rax (.mem ⟨some .rsp, none, 144#64⟩), -- 934: mulx r11, rax, [rsp + (4 * 32)+ 0x10]
  .adc (.reg .r10) (.reg .rax), -- 935: adc r10, rax
  .mulx .r12 .rax (.mem ⟨some .rsp, none, 152#64⟩), -- 936: mulx r12, rax, [rsp + (4 * 32)+ 0x18]
  .adc (.reg .r11) (.reg .rax), -- 937: adc r11, rax
  .adc (.reg .r12) (.reg .rcx), -- 938: adc r12, rcx
  .xor (.reg .rcx) (.reg .rcx), -- 939: xor ecx, ecx
  .mov (.reg .rdx) (.mem ⟨some .rsp, none, 168#64⟩), -- 940: mov rdx, [rsp + (5 * 32)+ 0x8]
  .mulx .rbx .rax (.mem ⟨some .rsp, none, 128#64⟩), -- 941: mulx rbx, rax, [rsp + (4 * 32)]
  .adcx .r9 (.reg .rax), -- 942: adcx r9, rax
  .adox .r10 (.reg .rbx), -- 943: adox r10, rbx
  .mulx .rbx .rax (.mem ⟨some .rsp, none, 136#64⟩), -- 944: mulx rbx, rax, [rsp + (4 * 32)+ 0x8]
  .adcx .r10 (.reg .rax), -- 945: adcx r10, rax
  .adox .r11 (.reg .rbx), -- 946: adox r11, rbx
  .mulx .rbx .rax (.mem ⟨some .rsp, none, 144#64⟩), -- 947: mulx rbx, rax, [rsp + (4 * 32)+ 0x10]
  .adcx .r11 (.reg .rax), -- 948: adcx r11, rax
  .adox .r12 (.reg .rbx), -- 949: adox r12, rbx
  .mulx .r13 .rax (.mem ⟨some .rsp, none, 152#64⟩), -- 950: mulx r13, rax, [rsp + (4 * 32)+ 0x18]
  .adcx .r12 (.reg .rax), -- 951: adcx r12, rax
  .adox .r13 (.reg .rcx), -- 952: adox r13, rcx
  .adcx .r13 (.reg .rcx), -- 953: adcx r13, rcx
  .xor (.reg .rcx) (.reg .rcx), -- 954: xor ecx, ecx
  .mov (.reg .rdx) (.mem ⟨some .rsp, none, 176#64⟩), -- 955: mov rdx, [rsp + (5 * 32)+ 0x10]
  .mulx .rbx .rax (.mem ⟨some .rsp, none, 128#64⟩), -- 956: mulx rbx, rax, [rsp + (4 * 32)]
  .adcx .r10 (.reg .rax), -- 957: adcx r10, rax
  .adox .r11 (.reg .rbx), -- 958: adox r11, rbx
  .mulx .rbx .rax (.mem ⟨some .rsp, none, 136#64⟩), -- 959: mulx rbx, rax, [rsp + (4 * 32)+ 0x8]
  .adcx .r11 (.reg .rax), -- 960: adcx r11, rax
  .adox .r12 (.reg .rbx), -- 961: adox r12, rbx
  .mulx .rbx .rax (.mem ⟨some .rsp, none, 144#64⟩), -- 962: mulx rbx, rax, [rsp + (4 * 32)+ 0x10]
  .adcx .r12 (.reg .rax), -- 963: adcx r12, rax
  .adox .r13 (.reg .rbx), -- 964: adox r13, rbx
  .mulx .r14 .rax (.mem ⟨some .rsp, none, 152#64⟩), -- 965: mulx r14, rax, [rsp + (4 * 32)+ 0x18]
  .adcx .r13 (.reg .rax), -- 966: adcx r13, rax
  .adox .r14 (.reg .rcx), -- 967: adox r14, rcx
  .adcx .r14 (.reg .rcx), -- 968: adcx r14, rcx
  .xor (.reg .rcx) (.reg .rcx), -- 969: xor ecx, ecx
  .mov (.reg .rdx) (.mem ⟨some .rsp, none, 184#64⟩), -- 970: mov rdx, [rsp + (5 * 32)+ 0x18]
  .mulx .rbx .rax (.mem ⟨some .rsp, none, 128#64⟩), -- 971: mulx rbx, rax, [rsp + (4 * 32)]
  .adcx .r11 (.reg .rax), -- 972: adcx r11, rax
  .adox .r12 (.reg .rbx), -- 973: adox r12, rbx
  .mulx .rbx .rax (.mem ⟨some .rsp, none, 136#64⟩), -- 974: mulx rbx, rax, [rsp + (4 * 32)+ 0x8]
  .adcx .r12 (.reg .rax), -- 975: adcx r12, rax
  .adox .r13 (.reg .rbx), -- 976: adox r13, rbx
  .mulx .rbx .rax (.mem ⟨some .rsp, none, 144#64⟩), -- 977: mulx rbx, rax, [rsp + (4 * 32)+ 0x10]
  .adcx .r13 (.reg .rax), -- 978: adcx r13, rax
  .adox .r14 (.reg .rbx), -- 979: adox r14, rbx
  .mulx .r15 .rax (.mem ⟨some .rsp, none, 152#64⟩), -- 980: mulx r15, rax, [rsp + (4 * 32)+ 0x18]
  .adcx .r14 (.reg .rax), -- 981: adcx r14, rax
  .adox .r15 (.reg .rcx), -- 982: adox r15, rcx
  .adcx .r15 (.reg .rcx), -- 983: adcx r15, rcx
  .mov (.reg .rdx) (.imm 38#64), -- 984: mov edx, 0x26
  .xor (.reg .rcx) (.reg .rcx), -- 985: xor ecx, ecx
  .mulx .rbx .rax (.reg .r12), -- 986: mulx rbx, rax, r12
  .adcx .r8 (.reg .rax), -- 987: adcx r8, rax
  .adox .r9 (.reg .rbx), -- 988: adox r9, rbx
  .mulx .rbx .rax (.reg .r13), -- 989: mulx rbx, rax, r13
  .adcx .r9 (.reg .rax), -- 990: adcx r9, rax
  .adox .r10 (.reg .rbx), -- 991: adox r10, rbx
  .mulx .rbx .rax (.reg .r14), -- 992: mulx rbx, rax, r14
  .adcx .r10 (.reg .rax), -- 993: adcx r10, rax
  .adox .r11 (.reg .rbx), -- 994: adox r11, rbx
  .mulx .r12 .rax (.reg .r15), -- 995: mulx r12, rax, r15
  .adcx .r11 (.reg .rax), -- 996: adcx r11, rax
  .adox .r12 (.reg .rcx), -- 997: adox r12, rcx
  .adcx .r12 (.reg .rcx), -- 998: adcx r12, rcx
  .shld (.reg .r12) .r11 (.imm 1#64), -- 999: shld r12, r11, 0x1
  .btr .r11 63#64, -- 1000: btr r11, 0x3f
  .mov (.reg .rdx) (.imm 19#64), -- 1001: mov edx, 0x13
  .imul .rdx (.reg .r12), -- 1002: imul rdx, r12
  .add (.reg .r8) (.reg .rdx), -- 1003: add r8, rdx
  .adc (.reg .r9) (.reg .rcx), -- 1004: adc r9, rcx
  .adc (.reg .r10) (.reg .rcx), -- 1005: adc r10, rcx
  .adc (.reg .r11) (.reg .rcx), -- 1006: adc r11, rcx
  .mov (.mem ⟨some .rsp, none, 352#64⟩) (.reg .r8), -- 1007: mov [rsp + (11 * 32)], r8
  .mov (.mem ⟨some .rsp, none, 360#64⟩) (.reg .r9), -- 1008: mov [rsp + (11 * 32)+ 0x8], r9
  .mov (.mem ⟨some .rsp, none, 368#64⟩) (.reg .r10), -- 1009: mov [rsp + (11 * 32)+ 0x10], r10
  .mov (.mem ⟨some .rsp, none, 376#64⟩) (.reg .r11), -- 1010: mov [rsp + (11 * 32)+ 0x18], r11
  .xor (.reg .rcx) (.reg .rcx), -- 1011: xor ecx, ecx
  .mov (.reg .rdx) (.mem ⟨some .rsp, none, 160#64⟩), -- 1012: mov rdx, [rsp + (5 * 32)]
  .mulx .r9 .r8 (.mem ⟨some .rsp, none, 288#64⟩), -- 1013: mulx r9, r8, [rsp + (9 * 32)]
  .mulx .r10 .rax (.mem ⟨some .rsp, none, 296#64⟩), -- 1014: mulx r10, rax, [rsp + (9 * 32)+ 0x8]
  .add (.reg .r9) (.reg .rax), -- 1015: add r9, rax
  .mulx .r11 .rax (.mem ⟨some .rsp, none, 304#64⟩), -- 1016: mulx r11, rax, [rsp + (9 * 32)+ 0x10]
  .adc (.reg .r10) (.reg .rax), -- 1017: adc r10, rax
  .mulx .r12 .rax (.mem ⟨some .rsp, none, 312#64⟩), -- 1018: mulx r12, rax, [rsp + (9 * 32)+ 0x18]
  .adc (.reg .r11) (.reg .rax), -- 1019: adc r11, rax
  .adc (.reg .r12) (.reg .rcx), -- 1020: adc r12, rcx
  .xor (.reg .rcx) (.reg .rcx), -- 1021: xor ecx, ecx
  .mov (.reg .rdx) (.mem ⟨some .rsp, none, 168#64⟩), -- 1022: mov rdx, [rsp + (5 * 32)+ 0x8]
  .mulx .rbx .rax (.mem ⟨some .rsp, none, 288#64⟩), -- 1023: mulx rbx, rax, [rsp + (9 * 32)]
  .adcx .r9 (.reg .rax), -- 1024: adcx r9, rax
  .adox .r10 (.reg .rbx), -- 1025: adox r10, rbx
  .mulx .rbx .rax (.mem ⟨some .rsp, none, 296#64⟩), -- 1026: mulx rbx, rax, [rsp + (9 * 32)+ 0x8]
  .adcx .r10 (.reg .rax), -- 1027: adcx r10, rax
  .adox .r11 (.reg .rbx), -- 1028: adox r11, rbx
  .mulx .rbx .rax (.mem ⟨some .rsp, none, 304#64⟩), -- 1029: mulx rbx, rax, [rsp + (9 * 32)+ 0x10]
  .adcx .r11 (.reg .rax), -- 1030: adcx r11, rax
  .adox .r12 (.reg .rbx), -- 1031: adox r12, rbx
  .mulx .r13 .rax (.mem ⟨some .rsp, none, 312#64⟩), -- 1032: mulx r13, rax, [rsp + (9 * 32)+ 0x18]
  .adcx .r12 (.reg .rax), -- 1033: adcx r12, rax
  .adox .r13 (.reg .rcx), -- 1034: adox r13, rcx
  .adcx .r13 (.reg .rcx), -- 1035: adcx r13, rcx
  .xor (.reg .rcx) (.reg .rcx), -- 1036: xor ecx, ecx
  .mov (.reg .rdx) (.mem ⟨some .rsp, none, 176#64⟩), -- 1037: mov rdx, [rsp + (5 * 32)+ 0x10]
  .mulx .rbx .rax (.mem ⟨some .rsp, none, 288#64⟩), -- 1038: mulx rbx, rax, [rsp + (9 * 32)]
  .adcx .r10 (.reg .rax), -- 1039: adcx r10, rax
  .adox .r11 (.reg .rbx), -- 1040: adox r11, rbx
  .mulx .rbx .rax (.mem ⟨some .rsp, none, 296#64⟩), -- 1041: mulx rbx, rax, [rsp + (9 * 32)+ 0x8]
  .adcx .r11 (.reg .rax), -- 1042: adcx r11, rax
  .adox .r12 (.reg .rbx), -- 1043: adox r12, rbx
  .mulx .rbx .rax (.mem ⟨some .rsp, none, 304#64⟩), -- 1044: mulx rbx, rax, [rsp + (9 * 32)+ 0x10]
  .adcx .r12 (.reg .rax), -- 1045: adcx r12, rax
  .adox .r13 (.reg .rbx), -- 1046: adox r13, rbx
  .mulx .r14 .rax (.mem ⟨some .rsp, none, 312#64⟩), -- 1047: mulx r14, rax, [rsp + (9 * 32)+ 0x18]
  .adcx .r13 (.reg .rax), -- 1048: adcx r13, rax
  .adox .r14 (.reg .rcx), -- 1049: adox r14, rcx
  .adcx .r14 (.reg .rcx), -- 1050: adcx r14, rcx
  .xor (.reg .rcx) (.reg .rcx), -- 1051: xor ecx, ecx
  .mov (.reg .rdx) (.mem ⟨some .rsp, none, 184#64⟩), -- 1052: mov rdx, [rsp + (5 * 32)+ 0x18]
  .mulx .rbx .rax (.mem ⟨some .rsp, none, 288#64⟩), -- 1053: mulx rbx, rax, [rsp + (9 * 32)]
  .adcx .r11 (.reg .rax), -- 1054: adcx r11, rax
  .adox .r12 (.reg .rbx), -- 1055: adox r12, rbx
  .mulx .rbx .rax (.mem ⟨some .rsp, none, 296#64⟩), -- 1056: mulx rbx, rax, [rsp + (9 * 32)+ 0x8]
  .adcx .r12 (.reg .rax), -- 1057: adcx r12, rax
  .adox .r13 (.reg .rbx), -- 1058: adox r13, rbx
  .mulx .rbx .rax (.mem ⟨some .rsp, none, 304#64⟩), -- 1059: mulx rbx, rax, [rsp + (9 * 32)+ 0x10]
  .adcx .r13 (.reg .rax), -- 1060: adcx r13, rax
  .adox .r14 (.reg .rbx), -- 1061: adox r14, rbx
  .mulx .r15 .rax (.mem ⟨some .rsp, none, 312#64⟩), -- 1062: mulx r15, rax, [rsp + (9 * 32)+ 0x18]
  .adcx .r14 (.reg .rax), -- 1063: adcx r14, rax
  .adox .r15 (.reg .rcx), -- 1064: adox r15, rcx
  .adcx .r15 (.reg .rcx), -- 1065: adcx r15, rcx
  .mov (.reg .rdx) (.imm 38#64), -- 1066: mov edx, 0x26
  .xor (.reg .rcx) (.reg .rcx), -- 1067: xor ecx, ecx
  .mulx .rbx .rax (.reg .r12), -- 1068: mulx rbx, rax, r12
  .adcx .r8 (.reg .rax), -- 1069: adcx r8, rax
  .adox .r9 (.reg .rbx), -- 1070: adox r9, rbx
  .mulx .rbx .rax (.reg .r13), -- 1071: mulx rbx, rax, r13
  .adcx .r9 (.reg .rax), -- 1072: adcx r9, rax
  .adox .r10 (.reg .rbx), -- 1073: adox r10, rbx
  .mulx .rbx .rax (.reg .r14), -- 1074: mulx rbx, rax, r14
  .adcx .r10 (.reg .rax), -- 1075: adcx r10, rax
  .adox .r11 (.reg .rbx), -- 1076: adox r11, rbx
  .mulx .r12 .rax (.reg .r15), -- 1077: mulx r12, rax, r15
  .adcx .r11 (.reg .rax), -- 1078: adcx r11, rax
  .adox .r12 (.reg .rcx), -- 1079: adox r12, rcx
  .adcx .r12 (.reg .rcx), -- 1080: adcx r12, rcx
  .shld (.reg .r12) .r11 (.imm 1#64), -- 1081: shld r12, r11, 0x1
  .btr .r11 63#64, -- 1082: btr r11, 0x3f
  .mov (.reg .rdx) (.imm 19#64), -- 1083: mov edx, 0x13
  .imul .rdx (.reg .r12), -- 1084: imul rdx, r12
  .add (.reg .r8) (.reg .rdx), -- 1085: add r8, rdx
  .adc (.reg .r9) (.reg .rcx), -- 1086: adc r9, rcx
  .adc (.reg .r10) (.reg .rcx), -- 1087: adc r10, rcx
  .adc (.reg .r11) (.reg .rcx), -- 1088: adc r11, rcx
  .mov (.mem ⟨some .rsp, none, 416#64⟩) (.reg .r8), -- 1089: mov [rsp + (13 * 32)], r8
  .mov (.mem ⟨some .rsp, none, 424#64⟩) (.reg .r9), -- 1090: mov [rsp + (13 * 32)+ 0x8], r9
  .mov (.mem ⟨some .rsp, none, 432#64⟩) (.reg .r10), -- 1091: mov [rsp + (13 * 32)+ 0x10], r10
  .mov (.mem ⟨some .rsp, none, 440#64⟩) (.reg .r11), -- 1092: mov [rsp + (13 * 32)+ 0x18], r11
  .add (.mem ⟨some .rsp, none, 456#64⟩) (.imm 4#64), -- 1093: add QWORD PTR [rsp + 14 * 32+ 8], 4
  .cmp (.mem ⟨some .rsp, none, 456#64⟩) (.imm 252#64), -- 1094: cmp QWORD PTR [rsp + 14 * 32+ 8], 252
  .jcc .cy 105, -- 1095: jc @2b
  .mov (.reg .r8) (.mem ⟨some .rsp, none, 320#64⟩), -- 1096: mov r8, [rsp + (10 * 32)]
  .mov (.reg .r9) (.mem ⟨some .rsp, none, 328#64⟩), -- 1097: mov r9, [rsp + (10 * 32)+ 8]
  .mov (.reg .r10) (.mem ⟨some .rsp, none, 336#64⟩), -- 1098: mov r10, [rsp + (10 * 32)+ 16]
  .mov (.reg .r11) (.mem ⟨some .rsp, none, 344#64⟩), -- 1099: mov r11, [rsp + (10 * 32)+ 24]
  .mov (.reg .r12) (.imm 0xffffffffffffffda#64), -- 1100: mov r12, 0xffffffffffffffda
  .sub (.reg .r12) (.reg .r8), -- 1101: sub r12, r8
  .mov (.reg .r13) (.imm 0xffffffffffffffff#64), -- 1102: mov r13, 0xffffffffffffffff
  .sbb (.reg .r13) (.reg .r9), -- 1103: sbb r13, r9
  .mov (.reg .r14) (.imm 0xffffffffffffffff#64), -- 1104: mov r14, 0xffffffffffffffff
  .sbb (.reg .r14) (.reg .r10), -- 1105: sbb r14, r10
  .mov (.reg .r15) (.imm 0xffffffffffffffff#64), -- 1106: mov r15, 0xffffffffffffffff
  .sbb (.reg .r15) (.reg .r11), -- 1107: sbb r15, r11
  .mov (.reg .rax) (.mem ⟨some .rsp, none, 24#64⟩), -- 1108: mov rax, [rsp + 0+ 24]
  .bt (.reg .rax) 63#64, -- 1109: bt rax, 63
  .cmov .cy .r8 (.reg .r12), -- 1110: cmovc r8, r12
  .cmov .cy .r9 (.reg .r13), -- 1111: cmovc r9, r13
  .cmov .cy .r10 (.reg .r14), -- 1112: cmovc r10, r14
  .cmov .cy .r11 (.reg .r15), -- 1113: cmovc r11, r15
  .mov (.mem ⟨some .rsp, none, 320#64⟩) (.reg .r8), -- 1114: mov [rsp + (10 * 32)], r8
  .mov (.mem ⟨some .rsp, none, 328#64⟩) (.reg .r9), -- 1115: mov [rsp + (10 * 32)+ 8], r9
  .mov (.mem ⟨some .rsp, none, 336#64⟩) (.reg .r10), -- 1116: mov [rsp + (10 * 32)+ 16], r10
  .mov (.mem ⟨some .rsp, none, 344#64⟩) (.reg .r11), -- 1117: mov [rsp + (10 * 32)+ 24], r11
  .lea .rdi ⟨some .rsp, none, 416#64⟩, -- 1118: lea rdi, [rsp + (13 * 32)]
  .lea .rsi ⟨some .rsp, none, 384#64⟩, -- 1119: lea rsi, [rsp + (12 * 32)]
  .mov (.mem ⟨some .rsp, none, 192#64⟩) (.reg .rdi), -- 1120: mov [rsp + 0xc0], rdi
  .xor (.reg .rax) (.reg .rax), -- 1121: xor eax, eax
  .lea .rcx ⟨some .rax, none, 0xffffffffffffffed#64⟩, -- 1122: lea rcx, [rax -0x13]
  .not (.reg .rax), -- 1123: not rax
  .mov (.mem ⟨some .rsp, none, 0#64⟩) (.reg .rcx), -- 1124: mov [rsp], rcx
  .mov (.mem ⟨some .rsp, none, 8#64⟩) (.reg .rax), -- 1125: mov [rsp + 0x8], rax
  .mov (.mem ⟨some .rsp, none, 16#64⟩) (.reg .rax), -- 1126: mov [rsp + 0x10], rax
  .btr .rax 63#64, -- 1127: btr rax, 0x3f
  .mov (.mem ⟨some .rsp, none, 24#64⟩) (.reg .rax), -- 1128: mov [rsp + 0x18], rax
  .mov (.reg .rdx) (.mem ⟨some .rsi, none, 0#64⟩), -- 1129: mov rdx, [rsi]
  .mov (.reg .rcx) (.mem ⟨some .rsi, none, 8#64⟩), -- 1130: mov rcx, [rsi + 0x8]
  .mov (.reg .r8) (.mem ⟨some .rsi, none, 16#64⟩), -- 1131: mov r8, [rsi + 0x10]
  .mov (.reg .r9) (.mem ⟨some .rsi, none, 24#64⟩), -- 1132: mov r9, [rsi + 0x18]
  .mov (.reg .rax) (.imm 1#64), -- 1133: mov eax, 0x1
  .xor (.reg .r10) (.reg .r10), -- 1134: xor r10d, r10d
  .bts .r9 63#64, -- 1135: bts r9, 0x3f
  .adc (.reg .rax) (.reg .r10), -- 1136: adc rax, r10
  .imul3 .rax (.reg .rax) 19#64, -- 1137: imul rax, rax, 0x13
  .add (.reg .rdx) (.reg .rax), -- 1138: add rdx, rax
  .adc (.reg .rcx) (.reg .r10), -- 1139: adc rcx, r10
  .adc (.reg .r8) (.reg .r10), -- 1140: adc r8, r10
  .adc (.reg .r9) (.reg .r10), -- 1141: adc r9, r10
  .mov (.reg .rax) (.imm 19#64), -- 1142: mov eax, 0x13
  .cmov .cy .rax (.reg .r10), -- 1143: cmovb rax, r10
  .sub (.reg .rdx) (.reg .rax), -- 1144: sub rdx, rax
  .sbb (.reg .rcx) (.reg .r10), -- 1145: sbb rcx, r10
  .sbb (.reg .r8) (.reg .r10), -- 1146: sbb r8, r10
  .sbb (.reg .r9) (.reg .r10), -- 1147: sbb r9, r10
  .btr .r9 63#64, -- 1148: btr r9, 0x3f
  .mov (.mem ⟨some .rsp, none, 32#64⟩) (.reg .rdx), -- 1149: mov [rsp + 0x20], rdx
  .mov (.mem ⟨some .rsp, none, 40#64⟩) (.reg .rcx), -- 1150: mov [rsp + 0x28], rcx
  .mov (.mem ⟨some .rsp, none, 48#64⟩) (.reg .r8), -- 1151: mov [rsp + 0x30], r8
  .mov (.mem ⟨some .rsp, none, 56#64⟩) (.reg .r9), -- 1152: mov [rsp + 0x38], r9
  .xor (.reg .rax) (.reg .rax), -- 1153: xor eax, eax
  .mov (.mem ⟨some .rsp, none, 64#64⟩) (.reg .rax), -- 1154: mov [rsp + 0x40], rax
  .mov (.mem ⟨some .rsp, none, 72#64⟩) (.reg .rax), -- 1155: mov [rsp + 0x48], rax
  .mov (.mem ⟨some .rsp, none, 80#64⟩) (.reg .rax), -- 1156: mov [rsp + 0x50], rax
  .mov (.mem ⟨some .rsp, none, 88#64⟩) (.reg .rax), -- 1157: mov [rsp + 0x58], rax
  .mov (.reg .rax) (.imm 0xa0f99e2375022099#64), -- 1158: movabs rax, 0xa0f99e2375022099
  .mov (.mem ⟨some .rsp, none, 96#64⟩) (.reg .rax), -- 1159: mov [rsp + 0x60], rax
  .mov (.reg .rax) (.imm 0xa8c68f3f1d132595#64), -- 1160: movabs rax, 0xa8c68f3f1d132595
  .mov (.mem ⟨some .rsp, none, 104#64⟩) (.reg .rax), -- 1161: mov [rsp + 0x68], rax
  .mov (.reg .rax) (.imm 0x6c6c893805ac5242#64), -- 1162: movabs rax, 0x6c6c893805ac5242
  .mov (.mem ⟨some .rsp, none, 112#64⟩) (.reg .rax), -- 1163: mov [rsp + 0x70], rax
  .mov (.reg .rax) (.imm 0x276508b241770615#64), -- 1164: movabs rax, 0x276508b241770615
  .mov (.mem ⟨some .rsp, none, 120#64⟩) (.reg .rax), -- 1165: mov [rsp + 0x78], rax
  .mov (.mem ⟨some .rsp, none, 144#64⟩) (.imm 10#64), -- 1166: mov QWORD PTR [rsp + 0x90], 0xa
  .mov (.mem ⟨some .rsp, none, 152#64⟩) (.imm 1#64), -- 1167: mov QWORD PTR [rsp + 0x98], 0x1
  .jmp 1459, -- 1168: jmp @3f
  .mov (.reg .r9) (.reg .r8), -- 1169: mov r9, r8
  .sar (.reg .r9) (.imm 63#64), -- 1170: sar r9, 0x3f
  .xor (.reg .r8) (.reg .r9), -- 1171: xor r8, r9
  .sub (.reg .r8) (.reg .r9), -- 1172: sub r8, r9
  .mov (.reg .r11) (.reg .r10), -- 1173: mov r11, r10
  .sar (.reg .r11) (.imm 63#64), -- 1174: sar r11, 0x3f
  .xor (.reg .r10) (.reg .r11), -- 1175: xor r10, r11
  .sub (.reg .r10) (.reg .r11), -- 1176: sub r10, r11
  .mov (.reg .r13) (.reg .r12), -- 1177: mov r13, r12
  .sar (.reg .r13) (.imm 63#64), -- 1178: sar r13, 0x3f
  .xor (.reg .r12) (.reg .r13), -- 1179: xor r12, r13
  .sub (.reg .r12) (.reg .r13), -- 1180: sub r12, r13
  .mov (.reg .r15) (.reg .r14), -- 1181: mov r15, r14
  .sar (.reg .r15) (.imm 63#64), -- 1182: sar r15, 0x3f
  .xor (.reg .r14) (.reg .r15), -- 1183: xor r14, r15
  .sub (.reg .r14) (.reg .r15), -- 1184: sub r14, r15
  .mov (.reg .rax) (.reg .r8), -- 1185: mov rax, r8
  .and (.reg .rax) (.reg .r9), -- 1186: and rax, r9
  .mov (.reg .rdi) (.reg .r10), -- 1187: mov rdi, r10
  .and (.reg .rdi) (.reg .r11), -- 1188: and rdi, r11
  .add (.reg .rdi) (.reg .rax), -- 1189: add rdi, rax
  .mov (.mem ⟨some .rsp, none, 128#64⟩) (.reg .rdi), -- 1190: mov [rsp + 0x80], rdi
  .mov (.reg .rax) (.reg .r12), -- 1191: mov rax, r12
  .and (.reg .rax) (.reg .r13), -- 1192: and rax, r13
  .mov (.reg .rsi) (.reg .r14), -- 1193: mov rsi, r14
  .and (.reg .rsi) (.reg .r15), -- 1194: and rsi, r15
  .add (.reg .rsi) (.reg .rax), -- 1195: add rsi, rax
  .mov (.mem ⟨some .rsp, none, 136#64⟩) (.reg .rsi), -- 1196: mov [rsp + 0x88], rsi
  .xor (.reg .rbx) (.reg .rbx), -- 1197: xor ebx, ebx
  .mov (.reg .rax) (.mem ⟨some .rsp, none, 0#64⟩), -- 1198: mov rax, [rsp]
  .xor (.reg .rax) (.reg .r9), -- 1199: xor rax, r9
  .mul (.reg .r8), -- 1200: mul r8
  .add (.reg .rdi) (.reg .rax), -- 1201: add rdi, rax
  .adc (.reg .rbx) (.reg .rdx), -- 1202: adc rbx, rdx
  .mov (.reg .rax) (.mem ⟨some .rsp, none, 32#64⟩), -- 1203: mov rax, [rsp + 0x20]
  .xor (.reg .rax) (.reg .r11), -- 1204: xor rax, r11
  .mul (.reg .r10), -- 1205: mul r10
  .add (.reg .rdi) (.reg .rax), -- 1206: add rdi, rax
  .adc (.reg .rbx) (.reg .rdx), -- 1207: adc rbx, rdx
  .xor (.reg .rbp) (.reg .rbp), -- 1208: xor ebp, ebp
  .mov (.reg .rax) (.mem ⟨some .rsp, none, 0#64⟩), -- 1209: mov rax, [rsp]
  .xor (.reg .rax) (.reg .r13), -- 1210: xor rax, r13
  .mul (.reg .r12), -- 1211: mul r12
  .add (.reg .rsi) (.reg .rax), -- 1212: add rsi, rax
  .adc (.reg .rbp) (.reg .rdx), -- 1213: adc rbp, rdx
  .mov (.reg .rax) (.mem ⟨some .rsp, none, 32#64⟩), -- 1214: mov rax, [rsp + 0x20]
  .xor (.reg .rax) (.reg .r15), -- 1215: xor rax, r15
  .mul (.reg .r14), -- 1216: mul r14
  .add (.reg .rsi) (.reg .rax), -- 1217: add rsi, rax
  .adc (.reg .rbp) (.reg .rdx), -- 1218: adc rbp, rdx
  .xor (.reg .rcx) (.reg .rcx), -- 1219: xor ecx, ecx
  .mov (.reg .rax) (.mem ⟨some .rsp, none, 8#64⟩), -- 1220: mov rax, [rsp + 0x8]
  .xor (.reg .rax) (.reg .r9), -- 1221: xor rax, r9
  .mul (.reg .r8), -- 1222: mul r8
  .add (.reg .rbx) (.reg .rax), -- 1223: add rbx, rax
  .adc (.reg .rcx) (.reg .rdx), -- 1224: adc rcx, rdx
  .mov (.reg .rax) (.mem ⟨some .rsp, none, 40#64⟩), -- 1225: mov rax, [rsp + 0x28]
  .xor (.reg .rax) (.reg .r11), -- 1226: xor rax, r11
  .mul (.reg .r10), -- 1227: mul r10
  .add (.reg .rbx) (.reg .rax), -- 1228: add rbx, rax
  .adc (.reg .rcx) (.reg .rdx), -- 1229: adc rcx, rdx
  .shrd (.reg .rdi) .rbx (.imm 59#64), -- 1230: shrd rdi, rbx, 0x3b
  .mov (.mem ⟨some .rsp, none, 0#64⟩) (.reg .rdi), -- 1231: mov [rsp], rdi
  .xor (.reg .rdi) (.reg .rdi), -- 1232: xor edi, edi
  .mov (.reg .rax) (.mem ⟨some .rsp, none, 8#64⟩), -- 1233: mov rax, [rsp + 0x8]
  .xor (.reg .rax) (.reg .r13), -- 1234: xor rax, r13
  .mul (.reg .r12), -- 1235: mul r12
  .add (.reg .rbp) (.reg .rax), -- 1236: add rbp, rax
  .adc (.reg .rdi) (.reg .rdx), -- 1237: adc rdi, rdx
  .mov (.reg .rax) (.mem ⟨some .rsp, none, 40#64⟩), -- 1238: mov rax, [rsp + 0x28]
  .xor (.reg .rax) (.reg .r15), -- 1239: xor rax, r15
  .mul (.reg .r14), -- 1240: mul r14
  .add (.reg .rbp) (.reg .rax), -- 1241: add rbp, rax
  .adc (.reg .rdi) (.reg .rdx), -- 1242: adc rdi, rdx
  .shrd (.reg .rsi) .rbp (.imm 59#64), -- 1243: shrd rsi, rbp, 0x3b
  .mov (.mem ⟨some .rsp, none, 32#64⟩) (.reg .rsi), -- 1244: mov [rsp + 0x20], rsi
  .xor (.reg .rsi) (.reg .rsi), -- 1245: xor esi, esi
  .mov (.reg .rax) (.mem ⟨some .rsp, none, 16#64⟩), -- 1246: mov rax, [rsp + 0x10]
  .xor (.reg .rax) (.reg .r9), -- 1247: xor rax, r9
  .mul (.reg .r8), -- 1248: mul r8
  .add (.reg .rcx) (.reg .rax), -- 1249: add rcx, rax
  .adc (.reg .rsi) (.reg .rdx), -- 1250: adc rsi, rdx
  .mov (.reg .rax) (.mem ⟨some .rsp, none, 48#64⟩), -- 1251: mov rax, [rsp + 0x30]
  .xor (.reg .rax) (.reg .r11), -- 1252: xor rax, r11
  .mul (.reg .r10), -- 1253: mul r10
  .add (.reg .rcx) (.reg .rax), -- 1254: add rcx, rax
  .adc (.reg .rsi) (.reg .rdx), -- 1255: adc rsi, rdx
  .shrd (.reg .rbx) .rcx (.imm 59#64), -- 1256: shrd rbx, rcx, 0x3b
  .mov (.mem ⟨some .rsp, none, 8#64⟩) (.reg .rbx), -- 1257: mov [rsp + 0x8], rbx
  .xor (.reg .rbx) (.reg .rbx), -- 1258: xor ebx, ebx
  .mov (.reg .rax) (.mem ⟨some .rsp, none, 16#64⟩), -- 1259: mov rax, [rsp + 0x10]
  .xor (.reg .rax) (.reg .r13), -- 1260: xor rax, r13
  .mul (.reg .r12), -- 1261: mul r12
  .add (.reg .rdi) (.reg .rax), -- 1262: add rdi, rax
  .adc (.reg .rbx) (.reg .rdx), -- 1263: adc rbx, rdx
  .mov (.reg .rax) (.mem ⟨some .rsp, none, 48#64⟩), -- 1264: mov rax, [rsp + 0x30]
  .xor (.reg .rax) (.reg .r15), -- 1265: xor rax, r15
  .mul (.reg .r14), -- 1266: mul r14
  .add (.reg .rdi) (.reg .rax), -- 1267: add rdi, rax
  .adc (.reg .rbx) (.reg .rdx), -- 1268: adc rbx, rdx
  .shrd (.reg .rbp) .rdi (.imm 59#64), -- 1269: shrd rbp, rdi, 0x3b
  .mov (.mem ⟨some .rsp, none, 40#64⟩) (.reg .rbp), -- 1270: mov [rsp + 0x28], rbp
  .mov (.reg .rax) (.mem ⟨some .rsp, none, 24#64⟩), -- 1271: mov rax, [rsp + 0x18]
  .xor (.reg .rax) (.reg .r9), -- 1272: xor rax, r9
  .mov (.reg .rbp) (.reg .rax), -- 1273: mov rbp, rax
  .sar (.reg .rbp) (.imm 63#64), -- 1274: sar rbp, 0x3f
  .and (.reg .rbp) (.reg .r8), -- 1275: and rbp, r8
  .neg (.reg .rbp), -- 1276: neg rbp
  .mul (.reg .r8), -- 1277: mul r8
  .add (.reg .rsi) (.reg .rax), -- 1278: add rsi, rax
  .adc (.reg .rbp) (.reg .rdx), -- 1279: adc rbp, rdx
  .mov (.reg .rax) (.mem ⟨some .rsp, none, 56#64⟩), -- 1280: mov rax, [rsp + 0x38]
  .xor (.reg .rax) (.reg .r11), -- 1281: xor rax, r11
  .mov (.reg .rdx) (.reg .rax), -- 1282: mov rdx, rax
  .sar (.reg .rdx) (.imm 63#64), -- 1283: sar rdx, 0x3f
  .and (.reg .rdx) (.reg .r10), -- 1284: and rdx, r10
  .sub (.reg .rbp) (.reg .rdx), -- 1285: sub rbp, rdx
  .mul (.reg .r10), -- 1286: mul r10
  .add (.reg .rsi) (.reg .rax), -- 1287: add rsi, rax
  .adc (.reg .rbp) (.reg .rdx), -- 1288: adc rbp, rdx
  .shrd (.reg .rcx) .rsi (.imm 59#64), -- 1289: shrd rcx, rsi, 0x3b
  .mov (.mem ⟨some .rsp, none, 16#64⟩) (.reg .rcx), -- 1290: mov [rsp + 0x10], rcx
  .shrd (.reg .rsi) .rbp (.imm 59#64), -- 1291: shrd rsi, rbp, 0x3b
  .mov (.reg .rax) (.mem ⟨some .rsp, none, 24#64⟩), -- 1292: mov rax, [rsp + 0x18]
  .mov (.mem ⟨some .rsp, none, 24#64⟩) (.reg .rsi), -- 1293: mov [rsp + 0x18], rsi
  .xor (.reg .rax) (.reg .r13), -- 1294: xor rax, r13
  .mov (.reg .rsi) (.reg .rax), -- 1295: mov rsi, rax
  .sar (.reg .rsi) (.imm 63#64), -- 1296: sar rsi, 0x3f
  .and (.reg .rsi) (.reg .r12), -- 1297: and rsi, r12
  .neg (.reg .rsi), -- 1298: neg rsi
  .mul (.reg .r12), -- 1299: mul r12
  .add (.reg .rbx) (.reg .rax), -- 1300: add rbx, rax
  .adc (.reg .rsi) (.reg .rdx), -- 1301: adc rsi, rdx
  .mov (.reg .rax) (.mem ⟨some .rsp, none, 56#64⟩), -- 1302: mov rax, [rsp + 0x38]
  .xor (.reg .rax) (.reg .r15), -- 1303: xor rax, r15
  .mov (.reg .rdx) (.reg .rax), -- 1304: mov rdx, rax
  .sar (.reg .rdx) (.imm 63#64), -- 1305: sar rdx, 0x3f
  .and (.reg .rdx) (.reg .r14), -- 1306: and rdx, r14
  .sub (.reg .rsi) (.reg .rdx), -- 1307: sub rsi, rdx
  .mul (.reg .r14), -- 1308: mul r14
  .add (.reg .rbx) (.reg .rax), -- 1309: add rbx, rax
  .adc (.reg .rsi) (.reg .rdx), -- 1310: adc rsi, rdx
  .shrd (.reg .rdi) .rbx (.imm 59#64), -- 1311: shrd rdi, rbx, 0x3b
  .mov (.mem ⟨some .rsp, none, 48#64⟩) (.reg .rdi), -- 1312: mov [rsp + 0x30], rdi
  .shrd (.reg .rbx) .rsi (.imm 59#64), -- 1313: shrd rbx, rsi, 0x3b
  .mov (.mem ⟨some .rsp, none, 56#64⟩) (.reg .rbx), -- 1314: mov [rsp + 0x38], rbx
  .mov (.reg .rbx) (.mem ⟨some .rsp, none, 128#64⟩), -- 1315: mov rbx, [rsp + 0x80]
  .mov (.reg .rbp) (.mem ⟨some .rsp, none, 136#64⟩), -- 1316: mov rbp, [rsp + 0x88]
  .xor (.reg .rcx) (.reg .rcx), -- 1317: xor ecx, ecx
  .mov (.reg .rax) (.mem ⟨some .rsp, none, 64#64⟩), -- 1318: mov rax, [rsp + 0x40]
  .xor (.reg .rax) (.reg .r9), -- 1319: xor rax, r9
  .mul (.reg .r8), -- 1320: mul r8
  .add (.reg .rbx) (.reg .rax), -- 1321: add rbx, rax
  .adc (.reg .rcx) (.reg .rdx), -- 1322: adc rcx, rdx
  .mov (.reg .rax) (.mem ⟨some .rsp, none, 96#64⟩), -- 1323: mov rax, [rsp + 0x60]
  .xor (.reg .rax) (.reg .r11), -- 1324: xor rax, r11
  .mul (.reg .r10), -- 1325: mul r10
  .add (.reg .rbx) (.reg .rax), -- 1326: add rbx, rax
  .adc (.reg .rcx) (.reg .rdx), -- 1327: adc rcx, rdx
  .xor (.reg .rsi) (.reg .rsi), -- 1328: xor esi, esi
  .mov (.reg .rax) (.mem ⟨some .rsp, none, 64#64⟩), -- 1329: mov rax, [rsp + 0x40]
  .xor (.reg .rax) (.reg .r13), -- 1330: xor rax, r13
  .mul (.reg .r12), -- 1331: mul r12
  .mov (.mem ⟨some .rsp, none, 64#64⟩) (.reg .rbx), -- 1332: mov [rsp + 0x40], rbx
  .add (.reg .rbp) (.reg .rax), -- 1333: add rbp, rax
  .adc (.reg .rsi) (.reg .rdx), -- 1334: adc rsi, rdx
  .mov (.reg .rax) (.mem ⟨some .rsp, none, 96#64⟩), -- 1335: mov rax, [rsp + 0x60]
  .xor (.reg .rax) (.reg .r15), -- 1336: xor rax, r15
  .mul (.reg .r14), -- 1337: mul r14
  .add (.reg .rbp) (.reg .rax), -- 1338: add rbp, rax
  .adc (.reg .rsi) (.reg .rdx), -- 1339: adc rsi, rdx
  .mov (.mem ⟨some .rsp, none, 96#64⟩) (.reg .rbp), -- 1340: mov [rsp + 0x60], rbp
  .xor (.reg .rbx) (.reg .rbx), -- 1341: xor ebx, ebx
  .mov (.reg .rax) (.mem ⟨some .rsp, none, 72#64⟩), -- 1342: mov rax, [rsp + 0x48]
  .xor (.reg .rax) (.reg .r9), -- 1343: xor rax, r9
  .mul (.reg .r8), -- 1344: mul r8
  .add (.reg .rcx) (.reg .rax), -- 1345: add rcx, rax
  .adc (.reg .rbx) (.reg .rdx), -- 1346: adc rbx, rdx
  .mov (.reg .rax) (.mem ⟨some .rsp, none, 104#64⟩), -- 1347: mov rax, [rsp + 0x68]
  .xor (.reg .rax) (.reg .r11), -- 1348: xor rax, r11
  .mul (.reg .r10), -- 1349: mul r10
  .add (.reg .rcx) (.reg .rax), -- 1350: add rcx, rax
  .adc (.reg .rbx) (.reg .rdx), -- 1351: adc rbx, rdx
  .xor (.reg .rbp) (.reg .rbp), -- 1352: xor ebp, ebp
  .mov (.reg .rax) (.mem ⟨some .rsp, none, 72#64⟩), -- 1353: mov rax, [rsp + 0x48]
  .xor (.reg .rax) (.reg .r13), -- 1354: xor rax, r13
  .mul (.reg .r12), -- 1355: mul r12
  .mov (.mem ⟨some .rsp, none, 72#64⟩) (.reg .rcx), -- 1356: mov [rsp + 0x48], rcx
  .add (.reg .rsi) (.reg .rax), -- 1357: add rsi, rax
  .adc (.reg .rbp) (.reg .rdx), -- 1358: adc rbp, rdx
  .mov (.reg .rax) (.mem ⟨some .rsp, none, 104#64⟩), -- 1359: mov rax, [rsp + 0x68]
  .xor (.reg .rax) (.reg .r15), -- 1360: xor rax, r15
  .mul (.reg .r14), -- 1361: mul r14
  .add (.reg .rsi) (.reg .rax), -- 1362: add rsi, rax
  .adc (.reg .rbp) (.reg .rdx), -- 1363: adc rbp, rdx
  .mov (.mem ⟨some .rsp, none, 104#64⟩) (.reg .rsi), -- 1364: mov [rsp + 0x68], rsi
  .xor (.reg .rcx) (.reg .rcx), -- 1365: xor ecx, ecx
  .mov (.reg .rax) (.mem ⟨some .rsp, none, 80#64⟩), -- 1366: mov rax, [rsp + 0x50]
  .xor (.reg .rax) (.reg .r9), -- 1367: xor rax, r9
  .mul (.reg .r8), -- 1368: mul r8
  .add (.reg .rbx) (.reg .rax), -- 1369: add rbx, rax
  .adc (.reg .rcx) (.reg .rdx), -- 1370: adc rcx, rdx
  .mov (.reg .rax) (.mem ⟨some .rsp, none, 112#64⟩), -- 1371: mov rax, [rsp + 0x70]
  .xor (.reg .rax) (.reg .r11), -- 1372: xor rax, r11
  .mul (.reg .r10), -- 1373: mul r10
  .add (.reg .rbx) (.reg .rax), -- 1374: add rbx, rax
  .adc (.reg .rcx) (.reg .rdx), -- 1375: adc rcx, rdx
  .xor (.reg .rsi) (.reg .rsi), -- 1376: xor esi, esi
  .mov (.reg .rax) (.mem ⟨some .rsp, none, 80#64⟩), -- 1377: mov rax, [rsp + 0x50]
  .xor (.reg .rax) (.reg .r13), -- 1378: xor rax, r13
  .mul (.reg .r12), -- 1379: mul r12
  .mov (.mem ⟨some .rsp, none, 80#64⟩) (.reg .rbx), -- 1380: mov [rsp + 0x50], rbx
  .add (.reg .rbp) (.reg .rax), -- 1381: add rbp, rax
  .adc (.reg .rsi) (.reg .rdx), -- 1382: adc rsi, rdx
  .mov (.reg .rax) (.mem ⟨some .rsp, none, 112#64⟩), -- 1383: mov rax, [rsp + 0x70]
  .xor (.reg .rax) (.reg .r15), -- 1384: xor rax, r15
  .mul (.reg .r14), -- 1385: mul r14
  .add (.reg .rbp) (.reg .rax), -- 1386: add rbp, rax
  .adc (.reg .rsi) (.reg .rdx), -- 1387: adc rsi, rdx
  .mov (.mem ⟨some .rsp, none, 112#64⟩) (.reg .rbp), -- 1388: mov [rsp + 0x70], rbp
  .mov (.reg .rax) (.mem ⟨some .rsp, none, 88#64⟩), -- 1389: mov rax, [rsp + 0x58]
  .xor (.reg .rax) (.reg .r9), -- 1390: xor rax, r9
  .mov (.reg .rbx) (.reg .r9), -- 1391: mov rbx, r9
  .and (.reg .rbx) (.reg .r8), -- 1392: and rbx, r8
  .neg (.reg .rbx), -- 1393: neg rbx
  .mul (.reg .r8), -- 1394: mul r8
  .add (.reg .rcx) (.reg .rax), -- 1395: add rcx, rax
  .adc (.reg .rbx) (.reg .rdx), -- 1396: adc rbx, rdx
  .mov (.reg .rax) (.mem ⟨some .rsp, none, 120#64⟩), -- 1397: mov rax, [rsp + 0x78]
  .xor (.reg .rax) (.reg .r11), -- 1398: xor rax, r11
  .mov (.reg .rdx) (.reg .r11), -- 1399: mov rdx, r11
  .and (.reg .rdx) (.reg .r10), -- 1400: and rdx, r10
  .sub (.reg .rbx) (.reg .rdx), -- 1401: sub rbx, rdx
  .mul (.reg .r10), -- 1402: mul r10
  .add (.reg .rcx) (.reg .rax), -- 1403: add rcx, rax
  .adc (.reg .rdx) (.reg .rbx), -- 1404: adc rdx, rbx
  .mov (.reg .rbx) (.reg .rdx), -- 1405: mov rbx, rdx
  .shld (.reg .rdx) .rcx (.imm 1#64), -- 1406: shld rdx, rcx, 0x1
  .sar (.reg .rbx) (.imm 63#64), -- 1407: sar rbx, 0x3f
  .add (.reg .rdx) (.reg .rbx), -- 1408: add rdx, rbx
  .mov (.reg .rax) (.imm 19#64), -- 1409: mov eax, 0x13
  .imul1 (.reg .rdx), -- 1410: imul rdx
  .mov (.reg .r8) (.mem ⟨some .rsp, none, 64#64⟩), -- 1411: mov r8, [rsp + 0x40]
  .add (.reg .r8) (.reg .rax), -- 1412: add r8, rax
  .mov (.mem ⟨some .rsp, none, 64#64⟩) (.reg .r8), -- 1413: mov [rsp + 0x40], r8
  .mov (.reg .r8) (.mem ⟨some .rsp, none, 72#64⟩), -- 1414: mov r8, [rsp + 0x48]
  .adc (.reg .r8) (.reg .rdx), -- 1415: adc r8, rdx
  .mov (.mem ⟨some .rsp, none, 72#64⟩) (.reg .r8), -- 1416: mov [rsp + 0x48], r8
  .mov (.reg .r8) (.mem ⟨some .rsp, none, 80#64⟩), -- 1417: mov r8, [rsp + 0x50]
  .adc (.reg .r8) (.reg .rbx), -- 1418: adc r8, rbx
  .mov (.mem ⟨some .rsp, none, 80#64⟩) (.reg .r8), -- 1419: mov [rsp + 0x50], r8
  .adc (.reg .rcx) (.reg .rbx), -- 1420: adc rcx, rbx
  .shl (.reg .rax) (.imm 63#64), -- 1421: shl rax, 0x3f
  .add (.reg .rcx) (.reg .rax), -- 1422: add rcx, rax
  .mov (.reg .rax) (.mem ⟨some .rsp, none, 88#64⟩), -- 1423: mov rax, [rsp + 0x58]
  .mov (.mem ⟨some .rsp, none, 88#64⟩) (.reg .rcx), -- 1424: mov [rsp + 0x58], rcx
  .xor (.reg .rax) (.reg .r13), -- 1425: xor rax, r13
  .mov (.reg .rcx) (.reg .r13), -- 1426: mov rcx, r13
  .and (.reg .rcx) (.reg .r12), -- 1427: and rcx, r12
  .neg (.reg .rcx), -- 1428: neg rcx
  .mul (.reg .r12), -- 1429: mul r12
  .add (.reg .rsi) (.reg .rax), -- 1430: add rsi, rax
  .adc (.reg .rcx) (.reg .rdx), -- 1431: adc rcx, rdx
  .mov (.reg .rax) (.mem ⟨some .rsp, none, 120#64⟩), -- 1432: mov rax, [rsp + 0x78]
  .xor (.reg .rax) (.reg .r15), -- 1433: xor rax, r15
  .mov (.reg .rdx) (.reg .r15), -- 1434: mov rdx, r15
  .and (.reg .rdx) (.reg .r14), -- 1435: and rdx, r14
  .sub (.reg .rcx) (.reg .rdx), -- 1436: sub rcx, rdx
  .mul (.reg .r14), -- 1437: mul r14
  .add (.reg .rsi) (.reg .rax), -- 1438: add rsi, rax
  .adc (.reg .rdx) (.reg .rcx), -- 1439: adc rdx, rcx
  .mov (.reg .rcx) (.reg .rdx), -- 1440: mov rcx, rdx
  .shld (.reg .rdx) .rsi (.imm 1#64), -- 1441: shld rdx, rsi, 0x1
  .sar (.reg .rcx) (.imm 63#64), -- 1442: sar rcx, 0x3f
  .mov (.reg .rax) (.imm 19#64), -- 1443: mov eax, 0x13
  .add (.reg .rdx) (.reg .rcx), -- 1444: add rdx, rcx
  .imul1 (.reg .rdx), -- 1445: imul rdx
  .mov (.reg .r8) (.mem ⟨some .rsp, none, 96#64⟩), -- 1446: mov r8, [rsp + 0x60]
  .add (.reg .r8) (.reg .rax), -- 1447: add r8, rax
  .mov (.mem ⟨some .rsp, none, 96#64⟩) (.reg .r8), -- 1448: mov [rsp + 0x60], r8
  .mov (.reg .r8) (.mem ⟨some .rsp, none, 104#64⟩), -- 1449: mov r8, [rsp + 0x68]
  .adc (.reg .r8) (.reg .rdx), -- 1450: adc r8, rdx
  .mov (.mem ⟨some .rsp, none, 104#64⟩) (.reg .r8), -- 1451: mov [rsp + 0x68], r8
  .mov (.reg .r8) (.mem ⟨some .rsp, none, 112#64⟩), -- 1452: mov r8, [rsp + 0x70]
  .adc (.reg .r8) (.reg .rcx), -- 1453: adc r8, rcx
  .mov (.mem ⟨some .rsp, none, 112#64⟩) (.reg .r8), -- 1454: mov [rsp + 0x70], r8
  .adc (.reg .rsi) (.reg .rcx), -- 1455: adc rsi, rcx
  .shl (.reg .rax) (.imm 63#64), -- 1456: shl rax, 0x3f
  .add (.reg .rsi) (.reg .rax), -- 1457: add rsi, rax
  .mov (.mem ⟨some .rsp, none, 120#64⟩) (.reg .rsi), -- 1458: mov [rsp + 0x78], rsi
  .mov (.reg .rsi) (.mem ⟨some .rsp, none, 152#64⟩), -- 1459: mov rsi, [rsp + 0x98]
  .mov (.reg .rdx) (.mem ⟨some .rsp, none, 0#64⟩), -- 1460: mov rdx, [rsp]
  .mov (.reg .rcx) (.mem ⟨some .rsp, none, 32#64⟩), -- 1461: mov rcx, [rsp + 0x20]
  .mov (.reg .rbx) (.reg .rdx), -- 1462: mov rbx, rdx
  .and (.reg .rbx) (.imm 0xfffff#64), -- 1463: and rbx, 0xfffff
  .mov (.reg .rax) (.imm 0xfffffe0000000000#64), -- 1464: movabs rax, 0xfffffe0000000000
  .or (.reg .rbx) (.reg .rax), -- 1465: or rbx, rax
  .and (.reg .rcx) (.imm 0xfffff#64), -- 1466: and rcx, 0xfffff
  .mov (.reg .rax) (.imm 0xc000000000000000#64), -- 1467: movabs rax, 0xc000000000000000
  .or (.reg .rcx) (.reg .rax), -- 1468: or rcx, rax
  .mov (.reg .rax) (.imm 0xfffffffffffffffe#64), -- 1469: mov rax, 0xfffffffffffffffe
  .xor (.reg .rbp) (.reg .rbp), -- 1470: xor ebp, ebp
  .mov (.reg .rdx) (.imm 2#64), -- 1471: mov edx, 0x2
  .mov (.reg .rdi) (.reg .rbx), -- 1472: mov rdi, rbx
  .mov (.reg .r8) (.reg .rax), -- 1473: mov r8, rax
  .test (.reg .rsi) (.reg .rsi), -- 1474: test rsi, rsi
  .cmov .sg .r8 (.reg .rbp), -- 1475: cmovs r8, rbp
  .test (.reg .rcx) (.imm 1#64), -- 1476: test rcx, 0x1
  .cmov .zr .r8 (.reg .rbp), -- 1477: cmove r8, rbp
  .cmov .zr .rdi (.reg .rbp), -- 1478: cmove rdi, rbp
  .xor (.reg .rdi) (.reg .r8), -- 1479: xor rdi, r8
  .xor (.reg .rsi) (.reg .r8), -- 1480: xor rsi, r8
  .bt (.reg .r8) 63#64, -- 1481: bt r8, 0x3f
  .cmov .cy .rbx (.reg .rcx), -- 1482: cmovb rbx, rcx
  .mov (.reg .r8) (.reg .rax), -- 1483: mov r8, rax
  .sub (.reg .rsi) (.reg .rax), -- 1484: sub rsi, rax
  .lea .rcx ⟨some .rcx, some (.rdi, 1#64), 0#64⟩, -- 1485: lea rcx, [rcx + rdi]
  .cmov .sg .r8 (.reg .rbp), -- 1486: cmovs r8, rbp
  .mov (.reg .rdi) (.reg .rbx), -- 1487: mov rdi, rbx
  .test (.reg .rcx) (.reg .rdx), -- 1488: test rcx, rdx
  .cmov .zr .r8 (.reg .rbp), -- 1489: cmove r8, rbp
  .cmov .zr .rdi (.reg .rbp), -- 1490: cmove rdi, rbp
  .sar (.reg .rcx) (.imm 1#64), -- 1491: sar rcx, 1
  .xor (.reg .rdi) (.reg .r8), -- 1492: xor rdi, r8
  .xor (.reg .rsi) (.reg .r8), -- 1493: xor rsi, r8
  .bt (.reg .r8) 63#64, -- 1494: bt r8, 0x3f
  .cmov .cy .rbx (.reg .rcx), -- 1495: cmovb rbx, rcx
  .mov (.reg .r8) (.reg .rax), -- 1496: mov r8, rax
  .sub (.reg .rsi) (.reg .rax), -- 1497: sub rsi, rax
  .lea .rcx ⟨some .rcx, some (.rdi, 1#64), 0#64⟩, -- 1498: lea rcx, [rcx + rdi]
  .cmov .sg .r8 (.reg .rbp), -- 1499: cmovs r8, rbp
  .mov (.reg .rdi) (.reg .rbx), -- 1500: mov rdi, rbx
  .test (.reg .rcx) (.reg .rdx), -- 1501: test rcx, rdx
  .cmov .zr .r8 (.reg .rbp), -- 1502: cmove r8, rbp
  .cmov .zr .rdi (.reg .rbp), -- 1503: cmove rdi, rbp
  .sar (.reg .rcx) (.imm 1#64), -- 1504: sar rcx, 1
  .xor (.reg .rdi) (.reg .r8), -- 1505: xor rdi, r8
  .xor (.reg .rsi) (.reg .r8), -- 1506: xor rsi, r8
  .bt (.reg .r8) 63#64, -- 1507: bt r8, 0x3f
  .cmov .cy .rbx (.reg .rcx), -- 1508: cmovb rbx, rcx
  .mov (.reg .r8) (.reg .rax), -- 1509: mov r8, rax
  .sub (.reg .rsi) (.reg .rax), -- 1510: sub rsi, rax
  .lea .rcx ⟨some .rcx, some (.rdi, 1#64), 0#64⟩, -- 1511: lea rcx, [rcx + rdi]
  .cmov .sg .r8 (.reg .rbp), -- 1512: cmovs r8, rbp
  .mov (.reg .rdi) (.reg .rbx), -- 1513: mov rdi, rbx
  .test (.reg .rcx) (.reg .rdx), -- 1514: test rcx, rdx
  .cmov .zr .r8 (.reg .rbp), -- 1515: cmove r8, rbp
  .cmov .zr .rdi (.reg .rbp), -- 1516: cmove rdi, rbp
  .sar (.reg .rcx) (.imm 1#64), -- 1517: sar rcx, 1
  .xor (.reg .rdi) (.reg .r8), -- 1518: xor rdi, r8
  .xor (.reg .rsi) (.reg .r8), -- 1519: xor rsi, r8
  .bt (.reg .r8) 63#64, -- 1520: bt r8, 0x3f
  .cmov .cy .rbx (.reg .rcx), -- 1521: cmovb rbx, rcx
  .mov (.reg .r8) (.reg .rax), -- 1522: mov r8, rax
  .sub (.reg .rsi) (.reg .rax), -- 1523: sub rsi, rax
  .lea .rcx ⟨some .rcx, some (.rdi, 1#64), 0#64⟩, -- 1524: lea rcx, [rcx + rdi]
  .cmov .sg .r8 (.reg .rbp), -- 1525: cmovs r8, rbp
  .mov (.reg .rdi) (.reg .rbx), -- 1526: mov rdi, rbx
  .test (.reg .rcx) (.reg .rdx), -- 1527: test rcx, rdx
  .cmov .zr .r8 (.reg .rbp), -- 1528: cmove r8, rbp
  .cmov .zr .rdi (.reg .rbp), -- 1529: cmove rdi, rbp
  .sar (.reg .rcx) (.imm 1#64), -- 1530: sar rcx, 1
  .xor (.reg .rdi) (.reg .r8), -- 1531: xor rdi, r8
  .xor (.reg .rsi) (.reg .r8), -- 1532: xor rsi, r8
  .bt (.reg .r8) 63#64, -- 1533: bt r8, 0x3f
  .cmov .cy .rbx (.reg .rcx), -- 1534: cmovb rbx, rcx
  .mov (.reg .r8) (.reg .rax), -- 1535: mov r8, rax
  .sub (.reg .rsi) (.reg .rax), -- 1536: sub rsi, rax
  .lea .rcx ⟨some .rcx, some (.rdi, 1#64), 0#64⟩, -- 1537: lea rcx, [rcx + rdi]
  .cmov .sg .r8 (.reg .rbp), -- 1538: cmovs r8, rbp
  .mov (.reg .rdi) (.reg .rbx), -- 1539: mov rdi, rbx
  .test (.reg .rcx) (.reg .rdx), -- 1540: test rcx, rdx
  .cmov .zr .r8 (.reg .rbp), -- 1541: cmove r8, rbp
  .cmov .zr .rdi (.reg .rbp), -- 1542: cmove rdi, rbp
  .sar (.reg .rcx) (.imm 1#64), -- 1543: sar rcx, 1
  .xor (.reg .rdi) (.reg .r8), -- 1544: xor rdi, r8
  .xor (.reg .rsi) (.reg .r8), -- 1545: xor rsi, r8
  .bt (.reg .r8) 63#64, -- 1546: bt r8, 0x3f
  .cmov .cy .rbx (.reg .rcx), -- 1547: cmovb rbx, rcx
  .mov (.reg .r8) (.reg .rax), -- 1548: mov r8, rax
  .sub (.reg .rsi) (.reg .rax), -- 1549: sub rsi, rax
  .lea .rcx ⟨some .rcx, some (.rdi, 1#64), 0#64⟩, -- 1550: lea rcx, [rcx + rdi]
  .cmov .sg .r8 (.reg .rbp), -- 1551: cmovs r8, rbp
  .mov (.reg .rdi) (.reg .rbx), -- 1552: mov rdi, rbx
  .test (.reg .rcx) (.reg .rdx), -- 1553: test rcx, rdx
  .cmov .zr .r8 (.reg .rbp), -- 1554: cmove r8, rbp
  .cmov .zr .rdi (.reg .rbp), -- 1555: cmove rdi, rbp
  .sar (.reg .rcx) (.imm 1#64), -- 1556: sar rcx, 1
  .xor (.reg .rdi) (.reg .r8), -- 1557: xor rdi, r8
  .xor (.reg .rsi) (.reg .r8), -- 1558: xor rsi, r8
  .bt (.reg .r8) 63#64, -- 1559: bt r8, 0x3f
  .cmov .cy .rbx (.reg .rcx), -- 1560: cmovb rbx, rcx
  .mov (.reg .r8) (.reg .rax), -- 1561: mov r8, rax
  .sub (.reg .rsi) (.reg .rax), -- 1562: sub rsi, rax
  .lea .rcx ⟨some .rcx, some (.rdi, 1#64), 0#64⟩, -- 1563: lea rcx, [rcx + rdi]
  .cmov .sg .r8 (.reg .rbp), -- 1564: cmovs r8, rbp
  .mov (.reg .rdi) (.reg .rbx), -- 1565: mov rdi, rbx
  .test (.reg .rcx) (.reg .rdx), -- 1566: test rcx, rdx
  .cmov .zr .r8 (.reg .rbp), -- 1567: cmove r8, rbp
  .cmov .zr .rdi (.reg .rbp), -- 1568: cmove rdi, rbp
  .sar (.reg .rcx) (.imm 1#64), -- 1569: sar rcx, 1
  .xor (.reg .rdi) (.reg .r8), -- 1570: xor rdi, r8
  .xor (.reg .rsi) (.reg .r8), -- 1571: xor rsi, r8
  .bt (.reg .r8) 63#64, -- 1572: bt r8, 0x3f
  .cmov .cy .rbx (.reg .rcx), -- 1573: cmovb rbx, rcx
  .mov (.reg .r8) (.reg .rax), -- 1574: mov r8, rax
  .sub (.reg .rsi) (.reg .rax), -- 1575: sub rsi, rax
  .lea .rcx ⟨some .rcx, some (.rdi, 1#64), 0#64⟩, -- 1576: lea rcx, [rcx + rdi]
  .cmov .sg .r8 (.reg .rbp), -- 1577: cmovs r8, rbp
  .mov (.reg .rdi) (.reg .rbx), -- 1578: mov rdi, rbx
  .test (.reg .rcx) (.reg .rdx), -- 1579: test rcx, rdx
  .cmov .zr .r8 (.reg .rbp), -- 1580: cmove r8, rbp
  .cmov .zr .rdi (.reg .rbp), -- 1581: cmove rdi, rbp
  .sar (.reg .rcx) (.imm 1#64), -- 1582: sar rcx, 1
  .xor (.reg .rdi) (.reg .r8), -- 1583: xor rdi, r8
  .xor (.reg .rsi) (.reg .r8), -- 1584: xor rsi, r8
  .bt (.reg .r8) 63#64, -- 1585: bt r8, 0x3f
  .cmov .cy .rbx (.reg .rcx), -- 1586: cmovb rbx, rcx
  .mov (.reg .r8) (.reg .rax), -- 1587: mov r8, rax
  .sub (.reg .rsi) (.reg .rax), -- 1588: sub rsi, rax
  .lea .rcx ⟨some .rcx, some (.rdi, 1#64), 0#64⟩, -- 1589: lea rcx, [rcx + rdi]
  .cmov .sg .r8 (.reg .rbp), -- 1590: cmovs r8, rbp
  .mov (.reg .rdi) (.reg .rbx), -- 1591: mov rdi, rbx
  .test (.reg .rcx) (.reg .rdx), -- 1592: test rcx, rdx
  .cmov .zr .r8 (.reg .rbp), -- 1593: cmove r8, rbp
  .cmov .zr .rdi (.reg .rbp), -- 1594: cmove rdi, rbp
  .sar (.reg .rcx) (.imm 1#64), -- 1595: sar rcx, 1
  .xor (.reg .rdi) (.reg .r8), -- 1596: xor rdi, r8
  .xor (.reg .rsi) (.reg .r8), -- 1597: xor rsi, r8
  .bt (.reg .r8) 63#64, -- 1598: bt r8, 0x3f
  .cmov .cy .rbx (.reg .rcx), -- 1599: cmovb rbx, rcx
  .mov (.reg .r8) (.reg .rax), -- 1600: mov r8, rax
  .sub (.reg .rsi) (.reg .rax), -- 1601: sub rsi, rax
  .lea .rcx ⟨some .rcx, some (.rdi, 1#64), 0#64⟩, -- 1602: lea rcx, [rcx + rdi]
  .cmov .sg .r8 (.reg .rbp), -- 1603: cmovs r8, rbp
  .mov (.reg .rdi) (.reg .rbx), -- 1604: mov rdi, rbx
  .test (.reg .rcx) (.reg .rdx), -- 1605: test rcx, rdx
  .cmov .zr .r8 (.reg .rbp), -- 1606: cmove r8, rbp
  .cmov .zr .rdi (.reg .rbp), -- 1607: cmove rdi, rbp
  .sar (.reg .rcx) (.imm 1#64), -- 1608: sar rcx, 1
  .xor (.reg .rdi) (.reg .r8), -- 1609: xor rdi, r8
  .xor (.reg .rsi) (.reg .r8), -- 1610: xor rsi, r8
  .bt (.reg .r8) 63#64, -- 1611: bt r8, 0x3f
  .cmov .cy .rbx (.reg .rcx), -- 1612: cmovb rbx, rcx
  .mov (.reg .r8) (.reg .rax), -- 1613: mov r8, rax
  .sub (.reg .rsi) (.reg .rax), -- 1614: sub rsi, rax
  .lea .rcx ⟨some .rcx, some (.rdi, 1#64), 0#64⟩, -- 1615: lea rcx, [rcx + rdi]
  .cmov .sg .r8 (.reg .rbp), -- 1616: cmovs r8, rbp
  .mov (.reg .rdi) (.reg .rbx), -- 1617: mov rdi, rbx
  .test (.reg .rcx) (.reg .rdx), -- 1618: test rcx, rdx
  .cmov .zr .r8 (.reg .rbp), -- 1619: cmove r8, rbp
  .cmov .zr .rdi (.reg .rbp), -- 1620: cmove rdi, rbp
  .sar (.reg .rcx) (.imm 1#64), -- 1621: sar rcx, 1
  .xor (.reg .rdi) (.reg .r8), -- 1622: xor rdi, r8
  .xor (.reg .rsi) (.reg .r8), -- 1623: xor rsi, r8
  .bt (.reg .r8) 63#64, -- 1624: bt r8, 0x3f
  .cmov .cy .rbx (.reg .rcx), -- 1625: cmovb rbx, rcx
  .mov (.reg .r8) (.reg .rax), -- 1626: mov r8, rax
  .sub (.reg .rsi) (.reg .rax), -- 1627: sub rsi, rax
  .lea .rcx ⟨some .rcx, some (.rdi, 1#64), 0#64⟩, -- 1628: lea rcx, [rcx + rdi]
  .cmov .sg .r8 (.reg .rbp), -- 1629: cmovs r8, rbp
  .mov (.reg .rdi) (.reg .rbx), -- 1630: mov rdi, rbx
  .test (.reg .rcx) (.reg .rdx), -- 1631: test rcx, rdx
  .cmov .zr .r8 (.reg .rbp), -- 1632: cmove r8, rbp
  .cmov .zr .rdi (.reg .rbp), -- 1633: cmove rdi, rbp
  .sar (.reg .rcx) (.imm 1#64), -- 1634: sar rcx, 1
  .xor (.reg .rdi) (.reg .r8), -- 1635: xor rdi, r8
  .xor (.reg .rsi) (.reg .r8), -- 1636: xor rsi, r8
  .bt (.reg .r8) 63#64, -- 1637: bt r8, 0x3f
  .cmov .cy .rbx (.reg .rcx), -- 1638: cmovb rbx, rcx
  .mov (.reg .r8) (.reg .rax), -- 1639: mov r8, rax
  .sub (.reg .rsi) (.reg .rax), -- 1640: sub rsi, rax
  .lea .rcx ⟨some .rcx, some (.rdi, 1#64), 0#64⟩, -- 1641: lea rcx, [rcx + rdi]
  .cmov .sg .r8 (.reg .rbp), -- 1642: cmovs r8, rbp
  .mov (.reg .rdi) (.reg .rbx), -- 1643: mov rdi, rbx
  .test (.reg .rcx) (.reg .rdx), -- 1644: test rcx, rdx
  .cmov .zr .r8 (.reg .rbp), -- 1645: cmove r8, rbp
  .cmov .zr .rdi (.reg .rbp), -- 1646: cmove rdi, rbp
  .sar (.reg .rcx) (.imm 1#64), -- 1647: sar rcx, 1
  .xor (.reg .rdi) (.reg .r8), -- 1648: xor rdi, r8
  .xor (.reg .rsi) (.reg .r8), -- 1649: xor rsi, r8
  .bt (.reg .r8) 63#64, -- 1650: bt r8, 0x3f
  .cmov .cy .rbx (.reg .rcx), -- 1651: cmovb rbx, rcx
  .mov (.reg .r8) (.reg .rax), -- 1652: mov r8, rax
  .sub (.reg .rsi) (.reg .rax), -- 1653: sub rsi, rax
  .lea .rcx ⟨some .rcx, some (.rdi, 1#64), 0#64⟩, -- 1654: lea rcx, [rcx + rdi]
  .cmov .sg .r8 (.reg .rbp), -- 1655: cmovs r8, rbp
  .mov (.reg .rdi) (.reg .rbx), -- 1656: mov rdi, rbx
  .test (.reg .rcx) (.reg .rdx), -- 1657: test rcx, rdx
  .cmov .zr .r8 (.reg .rbp), -- 1658: cmove r8, rbp
  .cmov .zr .rdi (.reg .rbp), -- 1659: cmove rdi, rbp
  .sar (.reg .rcx) (.imm 1#64), -- 1660: sar rcx, 1
  .xor (.reg .rdi) (.reg .r8), -- 1661: xor rdi, r8
  .xor (.reg .rsi) (.reg .r8), -- 1662: xor rsi, r8
  .bt (.reg .r8) 63#64, -- 1663: bt r8, 0x3f
  .cmov .cy .rbx (.reg .rcx), -- 1664: cmovb rbx, rcx
  .mov (.reg .r8) (.reg .rax), -- 1665: mov r8, rax
  .sub (.reg .rsi) (.reg .rax), -- 1666: sub rsi, rax
  .lea .rcx ⟨some .rcx, some (.rdi, 1#64), 0#64⟩, -- 1667: lea rcx, [rcx + rdi]
  .cmov .sg .r8 (.reg .rbp), -- 1668: cmovs r8, rbp
  .mov (.reg .rdi) (.reg .rbx), -- 1669: mov rdi, rbx
  .test (.reg .rcx) (.reg .rdx), -- 1670: test rcx, rdx
  .cmov .zr .r8 (.reg .rbp), -- 1671: cmove r8, rbp
  .cmov .zr .rdi (.reg .rbp), -- 1672: cmove rdi, rbp
  .sar (.reg .rcx) (.imm 1#64), -- 1673: sar rcx, 1
  .xor (.reg .rdi) (.reg .r8), -- 1674: xor rdi, r8
  .xor (.reg .rsi) (.reg .r8), -- 1675: xor rsi, r8
  .bt (.reg .r8) 63#64, -- 1676: bt r8, 0x3f
  .cmov .cy .rbx (.reg .rcx), -- 1677: cmovb rbx, rcx
  .mov (.reg .r8) (.reg .rax), -- 1678: mov r8, rax
  .sub (.reg .rsi) (.reg .rax), -- 1679: sub rsi, rax
  .lea .rcx ⟨some .rcx, some (.rdi, 1#64), 0#64⟩, -- 1680: lea rcx, [rcx + rdi]
  .cmov .sg .r8 (.reg .rbp), -- 1681: cmovs r8, rbp
  .mov (.reg .rdi) (.reg .rbx), -- 1682: mov rdi, rbx
  .test (.reg .rcx) (.reg .rdx), -- 1683: test rcx, rdx
  .cmov .zr .r8 (.reg .rbp), -- 1684: cmove r8, rbp
  .cmov .zr .rdi (.reg .rbp), -- 1685: cmove rdi, rbp
  .sar (.reg .rcx) (.imm 1#64), -- 1686: sar rcx, 1
  .xor (.reg .rdi) (.reg .r8), -- 1687: xor rdi, r8
  .xor (.reg .rsi) (.reg .r8), -- 1688: xor rsi, r8
  .bt (.reg .r8) 63#64, -- 1689: bt r8, 0x3f
  .cmov .cy .rbx (.reg .rcx), -- 1690: cmovb rbx, rcx
  .mov (.reg .r8) (.reg .rax), -- 1691: mov r8, rax
  .sub (.reg .rsi) (.reg .rax), -- 1692: sub rsi, rax
  .lea .rcx ⟨some .rcx, some (.rdi, 1#64), 0#64⟩, -- 1693: lea rcx, [rcx + rdi]
  .cmov .sg .r8 (.reg .rbp), -- 1694: cmovs r8, rbp
  .mov (.reg .rdi) (.reg .rbx), -- 1695: mov rdi, rbx
  .test (.reg .rcx) (.reg .rdx), -- 1696: test rcx, rdx
  .cmov .zr .r8 (.reg .rbp), -- 1697: cmove r8, rbp
  .cmov .zr .rdi (.reg .rbp), -- 1698: cmove rdi, rbp
  .sar (.reg .rcx) (.imm 1#64), -- 1699: sar rcx, 1
  .xor (.reg .rdi) (.reg .r8), -- 1700: xor rdi, r8
  .xor (.reg .rsi) (.reg .r8), -- 1701: xor rsi, r8
  .bt (.reg .r8) 63#64, -- 1702: bt r8, 0x3f
  .cmov .cy .rbx (.reg .rcx), -- 1703: cmovb rbx, rcx
  .mov (.reg .r8) (.reg .rax), -- 1704: mov r8, rax
  .sub (.reg .rsi) (.reg .rax), -- 1705: sub rsi, rax
  .lea .rcx ⟨some .rcx, some (.rdi, 1#64), 0#64⟩, -- 1706: lea rcx, [rcx + rdi]
  .cmov .sg .r8 (.reg .rbp), -- 1707: cmovs r8, rbp
  .mov (.reg .rdi) (.reg .rbx), -- 1708: mov rdi, rbx
  .test (.reg .rcx) (.reg .rdx), -- 1709: test rcx, rdx
  .cmov .zr .r8 (.reg .rbp), -- 1710: cmove r8, rbp
  .cmov .zr .rdi (.reg .rbp), -- 1711: cmove rdi, rbp
  .sar (.reg .rcx) (.imm 1#64), -- 1712: sar rcx, 1
  .xor (.reg .rdi) (.reg .r8), -- 1713: xor rdi, r8
  .xor (.reg .rsi) (.reg .r8), -- 1714: xor rsi, r8
  .bt (.reg .r8) 63#64, -- 1715: bt r8, 0x3f
  .cmov .cy .rbx (.reg .rcx), -- 1716: cmovb rbx, rcx
  .mov (.reg .r8) (.reg .rax), -- 1717: mov r8, rax
  .sub (.reg .rsi) (.reg .rax), -- 1718: sub rsi, rax
  .lea .rcx ⟨some .rcx, some (.rdi, 1#64), 0#64⟩, -- 1719: lea rcx, [rcx + rdi]
  .cmov .sg .r8 (.reg .rbp), -- 1720: cmovs r8, rbp
  .mov (.reg .rdi) (.reg .rbx), -- 1721: mov rdi, rbx
  .test (.reg .rcx) (.reg .rdx), -- 1722: test rcx, rdx
  .cmov .zr .r8 (.reg .rbp), -- 1723: cmove r8, rbp
  .cmov .zr .rdi (.reg .rbp), -- 1724: cmove rdi, rbp
  .sar (.reg .rcx) (.imm 1#64), -- 1725: sar rcx, 1
  .xor (.reg .rdi) (.reg .r8), -- 1726: xor rdi, r8
  .xor (.reg .rsi) (.reg .r8), -- 1727: xor rsi, r8
  .bt (.reg .r8) 63#64, -- 1728: bt r8, 0x3f
  .cmov .cy .rbx (.reg .rcx), -- 1729: cmovb rbx, rcx
  .mov (.reg .r8) (.reg .rax), -- 1730: mov r8, rax
  .sub (.reg .rsi) (.reg .rax), -- 1731: sub rsi, rax
  .lea .rcx ⟨some .rcx, some (.rdi, 1#64), 0#64⟩, -- 1732: lea rcx, [rcx + rdi]
  .sar (.reg .rcx) (.imm 1#64), -- 1733: sar rcx, 1
  .mov (.reg .rax) (.imm 0x100000#64), -- 1734: mov eax, 0x100000
  .lea .rdx ⟨some .rbx, some (.rax, 1#64), 0#64⟩, -- 1735: lea rdx, [rbx + rax]
  .lea .rdi ⟨some .rcx, some (.rax, 1#64), 0#64⟩, -- 1736: lea rdi, [rcx + rax]
  .shl (.reg .rdx) (.imm 22#64), -- 1737: shl rdx, 0x16
  .shl (.reg .rdi) (.imm 22#64), -- 1738: shl rdi, 0x16
  .sar (.reg .rdx) (.imm 43#64), -- 1739: sar rdx, 0x2b
  .sar (.reg .rdi) (.imm 43#64), -- 1740: sar rdi, 0x2b
  .mov (.reg .rax) (.imm 0x20000100000#64), -- 1741: movabs rax, 0x20000100000
  .lea .rbx ⟨some .rbx, some (.rax, 1#64), 0#64⟩, -- 1742: lea rbx, [rbx + rax]
  .lea .rcx ⟨some .rcx, some (.rax, 1#64), 0#64⟩, -- 1743: lea rcx, [rcx + rax]
  .sar (.reg .rbx) (.imm 42#64), -- 1744: sar rbx, 0x2a
  .sar (.reg .rcx) (.imm 42#64), -- 1745: sar rcx, 0x2a
  .mov (.mem ⟨some .rsp, none, 160#64⟩) (.reg .rdx), -- 1746: mov [rsp + 0xa0], rdx
  .mov (.mem ⟨some .rsp, none, 168#64⟩) (.reg .rbx), -- 1747: mov [rsp + 0xa8], rbx
  .mov (.mem ⟨some .rsp, none, 176#64⟩) (.reg .rdi), -- 1748: mov [rsp + 0xb0], rdi
  .mov (.mem ⟨some .rsp, none, 184#64⟩) (.reg .rcx), -- 1749: mov [rsp + 0xb8], rcx
  .mov (.reg .r12) (.mem ⟨some .rsp, none, 0#64⟩), -- 1750: mov r12, [rsp]
  .imul .rdi (.reg .r12), -- 1751: imul rdi, r12
  .imul .r12 (.reg .rdx), -- 1752: imul r12, rdx
  .mov (.reg .r13) (.mem ⟨some .rsp, none, 32#64⟩), -- 1753: mov r13, [rsp + 0x20]
  .imul .rbx (.reg .r13), -- 1754: imul rbx, r13
  .imul .r13 (.reg .rcx), -- 1755: imul r13, rcx
  .add (.reg .r12) (.reg .rbx), -- 1756: add r12, rbx
  .add (.reg .r13) (.reg .rdi), -- 1757: add r13, rdi
  .sar (.reg .r12) (.imm 20#64), -- 1758: sar r12, 0x14
  .sar (.reg .r13) (.imm 20#64), -- 1759: sar r13, 0x14
  .mov (.reg .rbx) (.reg .r12), -- 1760: mov rbx, r12
  .and (.reg .rbx) (.imm 0xfffff#64), -- 1761: and rbx, 0xfffff
  .mov (.reg .rax) (.imm 0xfffffe0000000000#64), -- 1762: movabs rax, 0xfffffe0000000000
  .or (.reg .rbx) (.reg .rax), -- 1763: or rbx, rax
  .mov (.reg .rcx) (.reg .r13), -- 1764: mov rcx, r13
  .and (.reg .rcx) (.imm 0xfffff#64), -- 1765: and rcx, 0xfffff
  .mov (.reg .rax) (.imm 0xc000000000000000#64), -- 1766: movabs rax, 0xc000000000000000
  .or (.reg .rcx) (.reg .rax), -- 1767: or rcx, rax
  .mov (.reg .rax) (.imm 0xfffffffffffffffe#64), -- 1768: mov rax, 0xfffffffffffffffe
  .mov (.reg .rdx) (.imm 2#64), -- 1769: mov edx, 0x2
  .mov (.reg .rdi) (.reg .rbx), -- 1770: mov rdi, rbx
  .mov (.reg .r8) (.reg .rax), -- 1771: mov r8, rax
  .test (.reg .rsi) (.reg .rsi), -- 1772: test rsi, rsi
  .cmov .sg .r8 (.reg .rbp), -- 1773: cmovs r8, rbp
  .test (.reg .rcx) (.imm 1#64), -- 1774: test rcx, 0x1
  .cmov .zr .r8 (.reg .rbp), -- 1775: cmove r8, rbp
  .cmov .zr .rdi (.reg .rbp), -- 1776: cmove rdi, rbp
  .xor (.reg .rdi) (.reg .r8), -- 1777: xor rdi, r8
  .xor (.reg .rsi) (.reg .r8), -- 1778: xor rsi, r8
  .bt (.reg .r8) 63#64, -- 1779: bt r8, 0x3f
  .cmov .cy .rbx (.reg .rcx), -- 1780: cmovb rbx, rcx
  .mov (.reg .r8) (.reg .rax), -- 1781: mov r8, rax
  .sub (.reg .rsi) (.reg .rax), -- 1782: sub rsi, rax
  .lea .rcx ⟨some .rcx, some (.rdi, 1#64), 0#64⟩, -- 1783: lea rcx, [rcx + rdi]
  .cmov .sg .r8 (.reg .rbp), -- 1784: cmovs r8, rbp
  .mov (.reg .rdi) (.reg .rbx), -- 1785: mov rdi, rbx
  .test (.reg .rcx) (.reg .rdx), -- 1786: test rcx, rdx
  .cmov .zr .r8 (.reg .rbp), -- 1787: cmove r8, rbp
  .cmov .zr .rdi (.reg .rbp), -- 1788: cmove rdi, rbp
  .sar (.reg .rcx) (.imm 1#64), -- 1789: sar rcx, 1
  .xor (.reg .rdi) (.reg .r8), -- 1790: xor rdi, r8
  .xor (.reg .rsi) (.reg .r8), -- 1791: xor rsi, r8
  .bt (.reg .r8) 63#64, -- 1792: bt r8, 0x3f
  .cmov .cy .rbx (.reg .rcx), -- 1793: cmovb rbx, rcx
  .mov (.reg .r8) (.reg .rax), -- 1794: mov r8, rax
  .sub (.reg .rsi) (.reg .rax), -- 1795: sub rsi, rax
  .lea .rcx ⟨some .rcx, some (.rdi, 1#64), 0#64⟩, -- 1796: lea rcx, [rcx + rdi]
  .cmov .sg .r8 (.reg .rbp), -- 1797: cmovs r8, rbp
  .mov (.reg .rdi) (.reg .rbx), -- 1798: mov rdi, rbx
  .test (.reg .rcx) (.reg .rdx), -- 1799: test rcx, rdx
  .cmov .zr .r8 (.reg .rbp), -- 1800: cmove r8, rbp
  .cmov .zr .rdi (.reg .rbp), -- 1801: cmove rdi, rbp
  .sar (.reg .rcx) (.imm 1#64), -- 1802: sar rcx, 1
  .xor (.reg .rdi) (.reg .r8), -- 1803: xor rdi, r8
  .xor (.reg .rsi) (.reg .r8), -- 1804: xor rsi, r8
  .bt (.reg .r8) 63#64, -- 1805: bt r8, 0x3f
  .cmov .cy .rbx (.reg .rcx), -- 1806: cmovb rbx, rcx
  .mov (.reg .r8) (.reg .rax), -- 1807: mov r8, rax
  .sub (.reg .rsi) (.reg .rax), -- 1808: sub rsi, rax
  .lea .rcx ⟨some .rcx, some (.rdi, 1#64), 0#64⟩, -- 1809: lea rcx, [rcx + rdi]
  .cmov .sg .r8 (.reg .rbp), -- 1810: cmovs r8, rbp
  .mov (.reg .rdi) (.reg .rbx), -- 1811: mov rdi, rbx
  .test (.reg .rcx) (.reg .rdx), -- 1812: test rcx, rdx
  .cmov .zr .r8 (.reg .rbp), -- 1813: cmove r8, rbp
  .cmov .zr .rdi (.reg .rbp), -- 1814: cmove rdi, rbp
  .sar (.reg .rcx) (.imm 1#64), -- 1815: sar rcx, 1
  .xor (.reg .rdi) (.reg .r8), -- 1816: xor rdi, r8
  .xor (.reg .rsi) (.reg .r8), -- 1817: xor rsi, r8
  .bt (.reg .r8) 63#64, -- 1818: bt r8, 0x3f
  .cmov .cy .rbx (.reg .rcx), -- 1819: cmovb rbx, rcx
  .mov (.reg .r8) (.reg .rax), -- 1820: mov r8, rax
  .sub (.reg .rsi) (.reg .rax), -- 1821: sub rsi, rax
  .lea .rcx ⟨some .rcx, some (.rdi, 1#64), 0#64⟩, -- 1822: lea rcx, [rcx + rdi]
  .cmov .sg .r8 (.reg .rbp), -- 1823: cmovs r8, rbp
  .mov (.reg .rdi) (.reg .rbx), -- 1824: mov rdi, rbx
  .test (.reg .rcx) (.reg .rdx), -- 1825: test rcx, rdx
  .cmov .zr .r8 (.reg .rbp), -- 1826: cmove r8, rbp
  .cmov .zr .rdi (.reg .rbp), -- 1827: cmove rdi, rbp
  .sar (.reg .rcx) (.imm 1#64), -- 1828: sar rcx, 1
  .xor (.reg .rdi) (.reg .r8), -- 1829: xor rdi, r8
  .xor (.reg .rsi) (.reg .r8), -- 1830: xor rsi, r8
  .bt (.reg .r8) 63#64, -- 1831: bt r8, 0x3f
  .cmov .cy .rbx (.reg .rcx), -- 1832: cmovb rbx, rcx
  .mov (.reg .r8) (.reg .rax), -- 1833: mov r8, rax
  .sub (.reg .rsi) (.reg .rax), -- 1834: sub rsi, rax
  .lea .rcx ⟨some .rcx, some (.rdi, 1#64), 0#64⟩, -- 1835: lea rcx, [rcx + rdi]
  .cmov .sg .r8 (.reg .rbp), -- 1836: cmovs r8, rbp
  .mov (.reg .rdi) (.reg .rbx), -- 1837: mov rdi, rbx
  .test (.reg .rcx) (.reg .rdx), -- 1838: test rcx, rdx
  .cmov .zr .r8 (.reg .rbp), -- 1839: cmove r8, rbp
  .cmov .zr .rdi (.reg .rbp), -- 1840: cmove rdi, rbp
  .sar (.reg .rcx) (.imm 1#64), -- 1841: sar rcx, 1
  .xor (.reg .rdi) (.reg .r8), -- 1842: xor rdi, r8
  .xor (.reg .rsi) (.reg .r8), -- 1843: xor rsi, r8
  .bt (.reg .r8) 63#64, -- 1844: bt r8, 0x3f
  .cmov .cy .rbx (.reg .rcx), -- 1845: cmovb rbx, rcx
  .mov (.reg .r8) (.reg .rax), -- 1846: mov r8, rax
  .sub (.reg .rsi) (.reg .rax), -- 1847: sub rsi, rax
  .lea .rcx ⟨some .rcx, some (.rdi, 1#64), 0#64⟩, -- 1848: lea rcx, [rcx + rdi]
  .cmov .sg .r8 (.reg .rbp), -- 1849: cmovs r8, rbp
  .mov (.reg .rdi) (.reg .rbx), -- 1850: mov rdi, rbx
  .test (.reg .rcx) (.reg .rdx), -- 1851: test rcx, rdx
  .cmov .zr .r8 (.reg .rbp), -- 1852: cmove r8, rbp
  .cmov .zr .rdi (.reg .rbp), -- 1853: cmove rdi, rbp
  .sar (.reg .rcx) (.imm 1#64), -- 1854: sar rcx, 1
  .xor (.reg .rdi) (.reg .r8), -- 1855: xor rdi, r8
  .xor (.reg .rsi) (.reg .r8), -- 1856: xor rsi, r8
  .bt (.reg .r8) 63#64, -- 1857: bt r8, 0x3f
  .cmov .cy .rbx (.reg .rcx), -- 1858: cmovb rbx, rcx
  .mov (.reg .r8) (.reg .rax), -- 1859: mov r8, rax
  .sub (.reg .rsi) (.reg .rax), -- 1860: sub rsi, rax
  .lea .rcx ⟨some .rcx, some (.rdi, 1#64), 0#64⟩, -- 1861: lea rcx, [rcx + rdi]
  .cmov .sg .r8 (.reg .rbp), -- 1862: cmovs r8, rbp
  .mov (.reg .rdi) (.reg .rbx), -- 1863: mov rdi, rbx
  .test (.reg .rcx) (.reg .rdx), -- 1864: test rcx, rdx
  .cmov .zr .r8 (.reg .rbp), -- 1865: cmove r8, rbp
  .cmov .zr .rdi (.reg .rbp), -- 1866: cmove rdi, rbp
  .sar (.reg .rcx) (.imm 1#64), -- 1867: sar rcx, 1
  .xor (.reg .rdi) (.reg .r8), -- 1868: xor rdi, r8
  .xor (.reg .rsi) (.reg .r8), -- 1869: xor rsi, r8
  .bt (.reg .r8) 63#64, -- 1870: bt r8, 0x3f
  .cmov .cy .rbx (.reg .rcx), -- 1871: cmovb rbx, rcx
  .mov (.reg .r8) (.reg .rax), -- 1872: mov r8, rax
  .sub (.reg .rsi) (.reg .rax), -- 1873: sub rsi, rax
  .lea .rcx ⟨some .rcx, some (.rdi, 1#64), 0#64⟩, -- 1874: lea rcx, [rcx + rdi]
  .cmov .sg .r8 (.reg .rbp), -- 1875: cmovs r8, rbp
  .mov (.reg .rdi) (.reg .rbx), -- 1876: mov rdi, rbx
  .test (.reg .rcx) (.reg .rdx), -- 1877: test rcx, rdx
  .cmov .zr .r8 (.reg .rbp), -- 1878: cmove r8, rbp
  .cmov .zr .rdi (.reg .rbp), -- 1879: cmove rdi, rbp
  .sar (.reg .rcx) (.imm 1#64), -- 1880: sar rcx, 1
  .xor (.reg .rdi) (.reg .r8), -- 1881: xor rdi, r8
  .xor (.reg .rsi) (.reg .r8), -- 1882: xor rsi, r8
  .bt (.reg .r8) 63#64, -- 1883: bt r8, 0x3f
  .cmov .cy .rbx (.reg .rcx), -- 1884: cmovb rbx, rcx
  .mov (.reg .r8) (.reg .rax), -- 1885: mov r8, rax
  .sub (.reg .rsi) (.reg .rax), -- 1886: sub rsi, rax
  .lea .rcx ⟨some .rcx, some (.rdi, 1#64), 0#64⟩, -- 1887: lea rcx, [rcx + rdi]
  .cmov .sg .r8 (.reg .rbp), -- 1888: cmovs r8, rbp
  .mov (.reg .rdi) (.reg .rbx), -- 1889: mov rdi, rbx
  .test (.reg .rcx) (.reg .rdx), -- 1890: test rcx, rdx
  .cmov .zr .r8 (.reg .rbp), -- 1891: cmove r8, rbp
  .cmov .zr .rdi (.reg .rbp), -- 1892: cmove rdi, rbp
  .sar (.reg .rcx) (.imm 1#64), -- 1893: sar rcx, 1
  .xor (.reg .rdi) (.reg .r8), -- 1894: xor rdi, r8
  .xor (.reg .rsi) (.reg .r8), -- 1895: xor rsi, r8
  .bt (.reg .r8) 63#64, -- 1896: bt r8, 0x3f
  .cmov .cy .rbx (.reg .rcx), -- 1897: cmovb rbx, rcx
  .mov (.reg .r8) (.reg .rax), -- 1898: mov r8, rax
  .sub (.reg .rsi) (.reg .rax), -- 1899: sub rsi, rax
  .lea .rcx ⟨some .rcx, some (.rdi, 1#64), 0#64⟩, -- 1900: lea rcx, [rcx + rdi]
  .cmov .sg .r8 (.reg .rbp), -- 1901: cmovs r8, rbp
  .mov (.reg .rdi) (.reg .rbx), -- 1902: mov rdi, rbx
  .test (.reg .rcx) (.reg .rdx), -- 1903: test rcx, rdx
  .cmov .zr .r8 (.reg .rbp), -- 1904: cmove r8, rbp
  .cmov .zr .rdi (.reg .rbp), -- 1905: cmove rdi, rbp
  .sar (.reg .rcx) (.imm 1#64), -- 1906: sar rcx, 1
  .xor (.reg .rdi) (.reg .r8), -- 1907: xor rdi, r8
  .xor (.reg .rsi) (.reg .r8), -- 1908: xor rsi, r8
  .bt (.reg .r8) 63#64, -- 1909: bt r8, 0x3f
  .cmov .cy .rbx (.reg .rcx), -- 1910: cmovb rbx, rcx
  .mov (.reg .r8) (.reg .rax), -- 1911: mov r8, rax
  .sub (.reg .rsi) (.reg .rax), -- 1912: sub rsi, rax
  .lea .rcx ⟨some .rcx, some (.rdi, 1#64), 0#64⟩, -- 1913: lea rcx, [rcx + rdi]
  .cmov .sg .r8 (.reg .rbp), -- 1914: cmovs r8, rbp
  .mov (.reg .rdi) (.reg .rbx), -- 1915: mov rdi, rbx
  .test (.reg .rcx) (.reg .rdx), -- 1916: test rcx, rdx
  .cmov .zr .r8 (.reg .rbp), -- 1917: cmove r8, rbp
  .cmov .zr .rdi (.reg .rbp), -- 1918: cmove rdi, rbp
  .sar (.reg .rcx) (.imm 1#64), -- 1919: sar rcx, 1
  .xor (.reg .rdi) (.reg .r8), -- 1920: xor rdi, r8
  .xor (.reg .rsi) (.reg .r8), -- 1921: xor rsi, r8
  .bt (.reg .r8) 63#64, -- 1922: bt r8, 0x3f
  .cmov .cy .rbx (.reg .rcx), -- 1923: cmovb rbx, rcx
  .mov (.reg .r8) (.reg .rax), -- 1924: mov r8, rax
  .sub (.reg .rsi) (.reg .rax), -- 1925: sub rsi, rax
  .lea .rcx ⟨some .rcx, some (.rdi, 1#64), 0#64⟩, -- 1926: lea rcx, [rcx + rdi]
  .cmov .sg .r8 (.reg .rbp), -- 1927: cmovs r8, rbp
  .mov (.reg .rdi) (.reg .rbx), -- 1928: mov rdi, rbx
  .test (.reg .rcx) (.reg .rdx), -- 1929: test rcx, rdx
  .cmov .zr .r8 (.reg .rbp), -- 1930: cmove r8, rbp
  .cmov .zr .rdi (.reg .rbp), -- 1931: cmove rdi, rbp
  .sar (.reg .rcx) (.imm 1#64), -- 1932: sar rcx, 1
  .xor (.reg .rdi) (.reg .r8), -- 1933: xor rdi, r8
  .xor (.reg .rsi) (.reg .r8), -- 1934: xor rsi, r8
  .bt (.reg .r8) 63#64, -- 1935: bt r8, 0x3f
  .cmov .cy .rbx (.reg .rcx), -- 1936: cmovb rbx, rcx
  .mov (.reg .r8) (.reg .rax), -- 1937: mov r8, rax
  .sub (.reg .rsi) (.reg .rax), -- 1938: sub rsi, rax
  .lea .rcx ⟨some .rcx, some (.rdi, 1#64), 0#64⟩, -- 1939: lea rcx, [rcx + rdi]
  .cmov .sg .r8 (.reg .rbp), -- 1940: cmovs r8, rbp
  .mov (.reg .rdi) (.reg .rbx), -- 1941: mov rdi, rbx
  .test (.reg .rcx) (.reg .rdx), -- 1942: test rcx, rdx
  .cmov .zr .r8 (.reg .rbp), -- 1943: cmove r8, rbp
  .cmov .zr .rdi (.reg .rbp), -- 1944: cmove rdi, rbp
  .sar (.reg .rcx) (.imm 1#64), -- 1945: sar rcx, 1
  .xor (.reg .rdi) (.reg .r8), -- 1946: xor rdi, r8
  .xor (.reg .rsi) (.reg .r8), -- 1947: xor rsi, r8
  .bt (.reg .r8) 63#64, -- 1948: bt r8, 0x3f
  .cmov .cy .rbx (.reg .rcx), -- 1949: cmovb rbx, rcx
  .mov (.reg .r8) (.reg .rax), -- 1950: mov r8, rax
  .sub (.reg .rsi) (.reg .rax), -- 1951: sub rsi, rax
  .lea .rcx ⟨some .rcx, some (.rdi, 1#64), 0#64⟩, -- 1952: lea rcx, [rcx + rdi]
  .cmov .sg .r8 (.reg .rbp), -- 1953: cmovs r8, rbp
  .mov (.reg .rdi) (.reg .rbx), -- 1954: mov rdi, rbx
  .test (.reg .rcx) (.reg .rdx), -- 1955: test rcx, rdx
  .cmov .zr .r8 (.reg .rbp), -- 1956: cmove r8, rbp
  .cmov .zr .rdi (.reg .rbp), -- 1957: cmove rdi, rbp
  .sar (.reg .rcx) (.imm 1#64), -- 1958: sar rcx, 1
  .xor (.reg .rdi) (.reg .r8), -- 1959: xor rdi, r8
  .xor (.reg .rsi) (.reg .r8), -- 1960: xor rsi, r8
  .bt (.reg .r8) 63#64, -- 1961: bt r8, 0x3f
  .cmov .cy .rbx (.reg .rcx), -- 1962: cmovb rbx, rcx
  .mov (.reg .r8) (.reg .rax), -- 1963: mov r8, rax
  .sub (.reg .rsi) (.reg .rax), -- 1964: sub rsi, rax
  .lea .rcx ⟨some .rcx, some (.rdi, 1#64), 0#64⟩, -- 1965: lea rcx, [rcx + rdi]
  .cmov .sg .r8 (.reg .rbp), -- 1966: cmovs r8, rbp
  .mov (.reg .rdi) (.reg .rbx), -- 1967: mov rdi, rbx
  .test (.reg .rcx) (.reg .rdx), -- 1968: test rcx, rdx
  .cmov .zr .r8 (.reg .rbp), -- 1969: cmove r8, rbp
  .cmov .zr .rdi (.reg .rbp), -- 1970: cmove rdi, rbp
  .sar (.reg .rcx) (.imm 1#64), -- 1971: sar rcx, 1
  .xor (.reg .rdi) (.reg .r8), -- 1972: xor rdi, r8
  .xor (.reg .rsi) (.reg .r8), -- 1973: xor rsi, r8
  .bt (.reg .r8) 63#64, -- 1974: bt r8, 0x3f
  .cmov .cy .rbx (.reg .rcx), -- 1975: cmovb rbx, rcx
  .mov (.reg .r8) (.reg .rax), -- 1976: mov r8, rax
  .sub (.reg .rsi) (.reg .rax), -- 1977: sub rsi, rax
  .lea .rcx ⟨some .rcx, some (.rdi, 1#64), 0#64⟩, -- 1978: lea rcx, [rcx + rdi]
  .cmov .sg .r8 (.reg .rbp), -- 1979: cmovs r8, rbp
  .mov (.reg .rdi) (.reg .rbx), -- 1980: mov rdi, rbx
  .test (.reg .rcx) (.reg .rdx), -- 1981: test rcx, rdx
  .cmov .zr .r8 (.reg .rbp), -- 1982: cmove r8, rbp
  .cmov .zr .rdi (.reg .rbp), -- 1983: cmove rdi, rbp
  .sar (.reg .rcx) (.imm 1#64), -- 1984: sar rcx, 1
  .xor (.reg .rdi) (.reg .r8), -- 1985: xor rdi, r8
  .xor (.reg .rsi) (.reg .r8), -- 1986: xor rsi, r8
  .bt (.reg .r8) 63#64, -- 1987: bt r8, 0x3f
  .cmov .cy .rbx (.reg .rcx), -- 1988: cmovb rbx, rcx
  .mov (.reg .r8) (.reg .rax), -- 1989: mov r8, rax
  .sub (.reg .rsi) (.reg .rax), -- 1990: sub rsi, rax
  .lea .rcx ⟨some .rcx, some (.rdi, 1#64), 0#64⟩, -- 1991: lea rcx, [rcx + rdi]
  .cmov .sg .r8 (.reg .rbp), -- 1992: cmovs r8, rbp
  .mov (.reg .rdi) (.reg .rbx), -- 1993: mov rdi, rbx
  .test (.reg .rcx) (.reg .rdx), -- 1994: test rcx, rdx
  .cmov .zr .r8 (.reg .rbp), -- 1995: cmove r8, rbp
  .cmov .zr .rdi (.reg .rbp), -- 1996: cmove rdi, rbp
  .sar (.reg .rcx) (.imm 1#64), -- 1997: sar rcx, 1
  .xor (.reg .rdi) (.reg .r8), -- 1998: xor rdi, r8
  .xor (.reg .rsi) (.reg .r8), -- 1999: xor rsi, r8
  .bt (.reg .r8) 63#64, -- 2000: bt r8, 0x3f
  .cmov .cy .rbx (.reg .rcx), -- 2001: cmovb rbx, rcx
  .mov (.reg .r8) (.reg .rax), -- 2002: mov r8, rax
  .sub (.reg .rsi) (.reg .rax), -- 2003: sub rsi, rax
  .lea .rcx ⟨some .rcx, some (.rdi, 1#64), 0#64⟩, -- 2004: lea rcx, [rcx + rdi]
  .cmov .sg .r8 (.reg .rbp), -- 2005: cmovs r8, rbp
  .mov (.reg .rdi) (.reg .rbx), -- 2006: mov rdi, rbx
  .test (.reg .rcx) (.reg .rdx), -- 2007: test rcx, rdx
  .cmov .zr .r8 (.reg .rbp), -- 2008: cmove r8, rbp
  .cmov .zr .rdi (.reg .rbp), -- 2009: cmove rdi, rbp
  .sar (.reg .rcx) (.imm 1#64), -- 2010: sar rcx, 1
  .xor (.reg .rdi) (.reg .r8), -- 2011: xor rdi, r8
  .xor (.reg .rsi) (.reg .r8), -- 2012: xor rsi, r8
  .bt (.reg .r8) 63#64, -- 2013: bt r8, 0x3f
  .cmov .cy .rbx (.reg .rcx), -- 2014: cmovb rbx, rcx
  .mov (.reg .r8) (.reg .rax), -- 2015: mov r8, rax
  .sub (.reg .rsi) (.reg .rax), -- 2016: sub rsi, rax
  .lea .rcx ⟨some .rcx, some (.rdi, 1#64), 0#64⟩, -- 2017: lea rcx, [rcx + rdi]
  .cmov .sg .r8 (.reg .rbp), -- 2018: cmovs r8, rbp
  .mov (.reg .rdi) (.reg .rbx), -- 2019: mov rdi, rbx
  .test (.reg .rcx) (.reg .rdx), -- 2020: test rcx, rdx
  .cmov .zr .r8 (.reg .rbp), -- 2021: cmove r8, rbp
  .cmov .zr .rdi (.reg .rbp), -- 2022: cmove rdi, rbp
  .sar (.reg .rcx) (.imm 1#64), -- 2023: sar rcx, 1
  .xor (.reg .rdi) (.reg .r8), -- 2024: xor rdi, r8
  .xor (.reg .rsi) (.reg .r8), -- 2025: xor rsi, r8
  .bt (.reg .r8) 63#64, -- 2026: bt r8, 0x3f
  .cmov .cy .rbx (.reg .rcx), -- 2027: cmovb rbx, rcx
  .mov (.reg .r8) (.reg .rax), -- 2028: mov r8, rax
  .sub (.reg .rsi) (.reg .rax), -- 2029: sub rsi, rax
  .lea .rcx ⟨some .rcx, some (.rdi, 1#64), 0#64⟩, -- 2030: lea rcx, [rcx + rdi]
  .sar (.reg .rcx) (.imm 1#64), -- 2031: sar rcx, 1
  .mov (.reg .rax) (.imm 0x100000#64), -- 2032: mov eax, 0x100000
  .lea .r8 ⟨some .rbx, some (.rax, 1#64), 0#64⟩, -- 2033: lea r8, [rbx + rax]
  .lea .r10 ⟨some .rcx, some (.rax, 1#64), 0#64⟩, -- 2034: lea r10, [rcx + rax]
  .shl (.reg .r8) (.imm 22#64), -- 2035: shl r8, 0x16
  .shl (.reg .r10) (.imm 22#64), -- 2036: shl r10, 0x16
  .sar (.reg .r8) (.imm 43#64), -- 2037: sar r8, 0x2b
  .sar (.reg .r10) (.imm 43#64), -- 2038: sar r10, 0x2b
  .mov (.reg .rax) (.imm 0x20000100000#64), -- 2039: movabs rax, 0x20000100000
  .lea .r15 ⟨some .rbx, some (.rax, 1#64), 0#64⟩, -- 2040: lea r15, [rbx + rax]
  .lea .r11 ⟨some .rcx, some (.rax, 1#64), 0#64⟩, -- 2041: lea r11, [rcx + rax]
  .sar (.reg .r15) (.imm 42#64), -- 2042: sar r15, 0x2a
  .sar (.reg .r11) (.imm 42#64), -- 2043: sar r11, 0x2a
  .mov (.reg .rbx) (.reg .r13), -- 2044: mov rbx, r13
  .mov (.reg .rcx) (.reg .r12), -- 2045: mov rcx, r12
  .imul .r12 (.reg .r8), -- 2046: imul r12, r8
  .imul .rbx (.reg .r15), -- 2047: imul rbx, r15
  .add (.reg .r12) (.reg .rbx), -- 2048: add r12, rbx
  .imul .r13 (.reg .r11), -- 2049: imul r13, r11
  .imul .rcx (.reg .r10), -- 2050: imul rcx, r10
  .add (.reg .r13) (.reg .rcx), -- 2051: add r13, rcx
  .sar (.reg .r12) (.imm 20#64), -- 2052: sar r12, 0x14
  .sar (.reg .r13) (.imm 20#64), -- 2053: sar r13, 0x14
  .mov (.reg .rbx) (.reg .r12), -- 2054: mov rbx, r12
  .and (.reg .rbx) (.imm 0xfffff#64), -- 2055: and rbx, 0xfffff
  .mov (.reg .rax) (.imm 0xfffffe0000000000#64), -- 2056: movabs rax, 0xfffffe0000000000
  .or (.reg .rbx) (.reg .rax), -- 2057: or rbx, rax
  .mov (.reg .rcx) (.reg .r13), -- 2058: mov rcx, r13
  .and (.reg .rcx) (.imm 0xfffff#64), -- 2059: and rcx, 0xfffff
  .mov (.reg .rax) (.imm 0xc000000000000000#64), -- 2060: movabs rax, 0xc000000000000000
  .or (.reg .rcx) (.reg .rax), -- 2061: or rcx, rax
  .mov (.reg .rax) (.mem ⟨some .rsp, none, 160#64⟩), -- 2062: mov rax, [rsp + 0xa0]
  .imul .rax (.reg .r8), -- 2063: imul rax, r8
  .mov (.reg .rdx) (.mem ⟨some .rsp, none, 176#64⟩), -- 2064: mov rdx, [rsp + 0xb0]
  .imul .rdx (.reg .r15), -- 2065: imul rdx, r15
  .imul .r8 (.mem ⟨some .rsp, none, 168#64⟩), -- 2066: imul r8, [rsp + 0xa8]
  .imul .r15 (.mem ⟨some .rsp, none, 184#64⟩), -- 2067: imul r15, [rsp + 0xb8]
  .add (.reg .r15) (.reg .r8), -- 2068: add r15, r8
  .lea .r9 ⟨some .rax, some (.rdx, 1#64), 0#64⟩, -- 2069: lea r9, [rax + rdx]
  .mov (.reg .rax) (.mem ⟨some .rsp, none, 160#64⟩), -- 2070: mov rax, [rsp + 0xa0]
  .imul .rax (.reg .r10), -- 2071: imul rax, r10
  .mov (.reg .rdx) (.mem ⟨some .rsp, none, 176#64⟩), -- 2072: mov rdx, [rsp + 0xb0]
  .imul .rdx (.reg .r11), -- 2073: imul rdx, r11
  .imul .r10 (.mem ⟨some .rsp, none, 168#64⟩), -- 2074: imul r10, [rsp + 0xa8]
  .imul .r11 (.mem ⟨some .rsp, none, 184#64⟩), -- 2075: imul r11, [rsp + 0xb8]
  .add (.reg .r11) (.reg .r10), -- 2076: add r11, r10
  .lea .r13 ⟨some .rax, some (.rdx, 1#64), 0#64⟩, -- 2077: lea r13, [rax + rdx]
  .mov (.reg .rax) (.imm 0xfffffffffffffffe#64), -- 2078: mov rax, 0xfffffffffffffffe
  .mov (.reg .rdx) (.imm 2#64), -- 2079: mov edx, 0x2
  .mov (.reg .rdi) (.reg .rbx), -- 2080: mov rdi, rbx
  .mov (.reg .r8) (.reg .rax), -- 2081: mov r8, rax
  .test (.reg .rsi) (.reg .rsi), -- 2082: test rsi, rsi
  .cmov .sg .r8 (.reg .rbp), -- 2083: cmovs r8, rbp
  .test (.reg .rcx) (.imm 1#64), -- 2084: test rcx, 0x1
  .cmov .zr .r8 (.reg .rbp), -- 2085: cmove r8, rbp
  .cmov .zr .rdi (.reg .rbp), -- 2086: cmove rdi, rbp
  .xor (.reg .rdi) (.reg .r8), -- 2087: xor rdi, r8
  .xor (.reg .rsi) (.reg .r8), -- 2088: xor rsi, r8
  .bt (.reg .r8) 63#64, -- 2089: bt r8, 0x3f
  .cmov .cy .rbx (.reg .rcx), -- 2090: cmovb rbx, rcx
  .mov (.reg .r8) (.reg .rax), -- 2091: mov r8, rax
  .sub (.reg .rsi) (.reg .rax), -- 2092: sub rsi, rax
  .lea .rcx ⟨some .rcx, some (.rdi, 1#64), 0#64⟩, -- 2093: lea rcx, [rcx + rdi]
  .cmov .sg .r8 (.reg .rbp), -- 2094: cmovs r8, rbp
  .mov (.reg .rdi) (.reg .rbx), -- 2095: mov rdi, rbx
  .test (.reg .rcx) (.reg .rdx), -- 2096: test rcx, rdx
  .cmov .zr .r8 (.reg .rbp), -- 2097: cmove r8, rbp
  .cmov .zr .rdi (.reg .rbp), -- 2098: cmove rdi, rbp
  .sar (.reg .rcx) (.imm 1#64), -- 2099: sar rcx, 1
  .xor (.reg .rdi) (.reg .r8), -- 2100: xor rdi, r8
  .xor (.reg .rsi) (.reg .r8), -- 2101: xor rsi, r8
  .bt (.reg .r8) 63#64, -- 2102: bt r8, 0x3f
  .cmov .cy .rbx (.reg .rcx), -- 2103: cmovb rbx, rcx
  .mov (.reg .r8) (.reg .rax), -- 2104: mov r8, rax
  .sub (.reg .rsi) (.reg .rax), -- 2105: sub rsi, rax
  .lea .rcx ⟨some .rcx, some (.rdi, 1#64), 0#64⟩, -- 2106: lea rcx, [rcx + rdi]
  .cmov .sg .r8 (.reg .rbp), -- 2107: cmovs r8, rbp
  .mov (.reg .rdi) (.reg .rbx), -- 2108: mov rdi, rbx
  .test (.reg .rcx) (.reg .rdx), -- 2109: test rcx, rdx
  .cmov .zr .r8 (.reg .rbp), -- 2110: cmove r8, rbp
  .cmov .zr .rdi (.reg .rbp), -- 2111: cmove rdi, rbp
  .sar (.reg .rcx) (.imm 1#64), -- 2112: sar rcx, 1
  .xor (.reg .rdi) (.reg .r8), -- 2113: xor rdi, r8
  .xor (.reg .rsi) (.reg .r8), -- 2114: xor rsi, r8
  .bt (.reg .r8) 63#64, -- 2115: bt r8, 0x3f
  .cmov .cy .rbx (.reg .rcx), -- 2116: cmovb rbx, rcx
  .mov (.reg .r8) (.reg .rax), -- 2117: mov r8, rax
  .sub (.reg .rsi) (.reg .rax), -- 2118: sub rsi, rax
  .lea .rcx ⟨some .rcx, some (.rdi, 1#64), 0#64⟩, -- 2119: lea rcx, [rcx + rdi]
  .cmov .sg .r8 (.reg .rbp), -- 2120: cmovs r8, rbp
  .mov (.reg .rdi) (.reg .rbx), -- 2121: mov rdi, rbx
  .test (.reg .rcx) (.reg .rdx), -- 2122: test rcx, rdx
  .cmov .zr .r8 (.reg .rbp), -- 2123: cmove r8, rbp
  .cmov .zr .rdi (.reg .rbp), -- 2124: cmove rdi, rbp
  .sar (.reg .rcx) (.imm 1#64), -- 2125: sar rcx, 1
  .xor (.reg .rdi) (.reg .r8), -- 2126: xor rdi, r8
  .xor (.reg .rsi) (.reg .r8), -- 2127: xor rsi, r8
  .bt (.reg .r8) 63#64, -- 2128: bt r8, 0x3f
  .cmov .cy .rbx (.reg .rcx), -- 2129: cmovb rbx, rcx
  .mov (.reg .r8) (.reg .rax), -- 2130: mov r8, rax
  .sub (.reg .rsi) (.reg .rax), -- 2131: sub rsi, rax
  .lea .rcx ⟨some .rcx, some (.rdi, 1#64), 0#64⟩, -- 2132: lea rcx, [rcx + rdi]
  .cmov .sg .r8 (.reg .rbp), -- 2133: cmovs r8, rbp
  .mov (.reg .rdi) (.reg .rbx), -- 2134: mov rdi, rbx
  .test (.reg .rcx) (.reg .rdx), -- 2135: test rcx, rdx
  .cmov .zr .r8 (.reg .rbp), -- 2136: cmove r8, rbp
  .cmov .zr .rdi (.reg .rbp), -- 2137: cmove rdi, rbp
  .sar (.reg .rcx) (.imm 1#64), -- 2138: sar rcx, 1
  .xor (.reg .rdi) (.reg .r8), -- 2139: xor rdi, r8
  .xor (.reg .rsi) (.reg .r8), -- 2140: xor rsi, r8
  .bt (.reg .r8) 63#64, -- 2141: bt r8, 0x3f
  .cmov .cy .rbx (.reg .rcx), -- 2142: cmovb rbx, rcx
  .mov (.reg .r8) (.reg .rax), -- 2143: mov r8, rax
  .sub (.reg .rsi) (.reg .rax), -- 2144: sub rsi, rax
  .lea .rcx ⟨some .rcx, some (.rdi, 1#64), 0#64⟩, -- 2145: lea rcx, [rcx + rdi]
  .cmov .sg .r8 (.reg .rbp), -- 2146: cmovs r8, rbp
  .mov (.reg .rdi) (.reg .rbx), -- 2147: mov rdi, rbx
  .test (.reg .rcx) (.reg .rdx), -- 2148: test rcx, rdx
  .cmov .zr .r8 (.reg .rbp), -- 2149: cmove r8, rbp
  .cmov .zr .rdi (.reg .rbp), -- 2150: cmove rdi, rbp
  .sar (.reg .rcx) (.imm 1#64), -- 2151: sar rcx, 1
  .xor (.reg .rdi) (.reg .r8), -- 2152: xor rdi, r8
  .xor (.reg .rsi) (.reg .r8), -- 2153: xor rsi, r8
  .bt (.reg .r8) 63#64, -- 2154: bt r8, 0x3f
  .cmov .cy .rbx (.reg .rcx), -- 2155: cmovb rbx, rcx
  .mov (.reg .r8) (.reg .rax), -- 2156: mov r8, rax
  .sub (.reg .rsi) (.reg .rax), -- 2157: sub rsi, rax
  .lea .rcx ⟨some .rcx, some (.rdi, 1#64), 0#64⟩, -- 2158: lea rcx, [rcx + rdi]
  .cmov .sg .r8 (.reg .rbp), -- 2159: cmovs r8, rbp
  .mov (.reg .rdi) (.reg .rbx), -- 2160: mov rdi, rbx
  .test (.reg .rcx) (.reg .rdx), -- 2161: test rcx, rdx
  .cmov .zr .r8 (.reg .rbp), -- 2162: cmove r8, rbp
  .cmov .zr .rdi (.reg .rbp), -- 2163: cmove rdi, rbp
  .sar (.reg .rcx) (.imm 1#64), -- 2164: sar rcx, 1
  .xor (.reg .rdi) (.reg .r8), -- 2165: xor rdi, r8
  .xor (.reg .rsi) (.reg .r8), -- 2166: xor rsi, r8
  .bt (.reg .r8) 63#64, -- 2167: bt r8, 0x3f
  .cmov .cy .rbx (.reg .rcx), -- 2168: cmovb rbx, rcx
  .mov (.reg .r8) (.reg .rax), -- 2169: mov r8, rax
  .sub (.reg .rsi) (.reg .rax), -- 2170: sub rsi, rax
  .lea .rcx ⟨some .rcx, some (.rdi, 1#64), 0#64⟩, -- 2171: lea rcx, [rcx + rdi]
  .cmov .sg .r8 (.reg .rbp), -- 2172: cmovs r8, rbp
  .mov (.reg .rdi) (.reg .rbx), -- 2173: mov rdi, rbx
  .test (.reg .rcx) (.reg .rdx), -- 2174: test rcx, rdx
  .cmov .zr .r8 (.reg .rbp), -- 2175: cmove r8, rbp
  .cmov .zr .rdi (.reg .rbp), -- 2176: cmove rdi, rbp
  .sar (.reg .rcx) (.imm 1#64), -- 2177: sar rcx, 1
  .xor (.reg .rdi) (.reg .r8), -- 2178: xor rdi, r8
  .xor (.reg .rsi) (.reg .r8), -- 2179: xor rsi, r8
  .bt (.reg .r8) 63#64, -- 2180: bt r8, 0x3f
  .cmov .cy .rbx (.reg .rcx), -- 2181: cmovb rbx, rcx
  .mov (.reg .r8) (.reg .rax), -- 2182: mov r8, rax
  .sub (.reg .rsi) (.reg .rax), -- 2183: sub rsi, rax
  .lea .rcx ⟨some .rcx, some (.rdi, 1#64), 0#64⟩, -- 2184: lea rcx, [rcx + rdi]
  .cmov .sg .r8 (.reg .rbp), -- 2185: cmovs r8, rbp
  .mov (.reg .rdi) (.reg .rbx), -- 2186: mov rdi, rbx
  .test (.reg .rcx) (.reg .rdx), -- 2187: test rcx, rdx
  .cmov .zr .r8 (.reg .rbp), -- 2188: cmove r8, rbp
  .cmov .zr .rdi (.reg .rbp), -- 2189: cmove rdi, rbp
  .sar (.reg .rcx) (.imm 1#64), -- 2190: sar rcx, 1
  .xor (.reg .rdi) (.reg .r8), -- 2191: xor rdi, r8
  .xor (.reg .rsi) (.reg .r8), -- 2192: xor rsi, r8
  .bt (.reg .r8) 63#64, -- 2193: bt r8, 0x3f
  .cmov .cy .rbx (.reg .rcx), -- 2194: cmovb rbx, rcx
  .mov (.reg .r8) (.reg .rax), -- 2195: mov r8, rax
  .sub (.reg .rsi) (.reg .rax), -- 2196: sub rsi, rax
  .lea .rcx ⟨some .rcx, some (.rdi, 1#64), 0#64⟩, -- 2197: lea rcx, [rcx + rdi]
  .cmov .sg .r8 (.reg .rbp), -- 2198: cmovs r8, rbp
  .mov (.reg .rdi) (.reg .rbx), -- 2199: mov rdi, rbx
  .test (.reg .rcx) (.reg .rdx), -- 2200: test rcx, rdx
  .cmov .zr .r8 (.reg .rbp), -- 2201: cmove r8, rbp
  .cmov .zr .rdi (.reg .rbp), -- 2202: cmove rdi, rbp
  .sar (.reg .rcx) (.imm 1#64), -- 2203: sar rcx, 1
  .xor (.reg .rdi) (.reg .r8), -- 2204: xor rdi, r8
  .xor (.reg .rsi) (.reg .r8), -- 2205: xor rsi, r8
  .bt (.reg .r8) 63#64, -- 2206: bt r8, 0x3f
  .cmov .cy .rbx (.reg .rcx), -- 2207: cmovb rbx, rcx
  .mov (.reg .r8) (.reg .rax), -- 2208: mov r8, rax
  .sub (.reg .rsi) (.reg .rax), -- 2209: sub rsi, rax
  .lea .rcx ⟨some .rcx, some (.rdi, 1#64), 0#64⟩, -- 2210: lea rcx, [rcx + rdi]
  .cmov .sg .r8 (.reg .rbp), -- 2211: cmovs r8, rbp
  .mov (.reg .rdi) (.reg .rbx), -- 2212: mov rdi, rbx
  .test (.reg .rcx) (.reg .rdx), -- 2213: test rcx, rdx
  .cmov .zr .r8 (.reg .rbp), -- 2214: cmove r8, rbp
  .cmov .zr .rdi (.reg .rbp), -- 2215: cmove rdi, rbp
  .sar (.reg .rcx) (.imm 1#64), -- 2216: sar rcx, 1
  .xor (.reg .rdi) (.reg .r8), -- 2217: xor rdi, r8
  .xor (.reg .rsi) (.reg .r8), -- 2218: xor rsi, r8
  .bt (.reg .r8) 63#64, -- 2219: bt r8, 0x3f
  .cmov .cy .rbx (.reg .rcx), -- 2220: cmovb rbx, rcx
  .mov (.reg .r8) (.reg .rax), -- 2221: mov r8, rax
  .sub (.reg .rsi) (.reg .rax), -- 2222: sub rsi, rax
  .lea .rcx ⟨some .rcx, some (.rdi, 1#64), 0#64⟩, -- 2223: lea rcx, [rcx + rdi]
  .cmov .sg .r8 (.reg .rbp), -- 2224: cmovs r8, rbp
  .mov (.reg .rdi) (.reg .rbx), -- 2225: mov rdi, rbx
  .test (.reg .rcx) (.reg .rdx), -- 2226: test rcx, rdx
  .cmov .zr .r8 (.reg .rbp), -- 2227: cmove r8, rbp
  .cmov .zr .rdi (.reg .rbp), -- 2228: cmove rdi, rbp
  .sar (.reg .rcx) (.imm 1#64), -- 2229: sar rcx, 1
  .xor (.reg .rdi) (.reg .r8), -- 2230: xor rdi, r8
  .xor (.reg .rsi) (.reg .r8), -- 2231: xor rsi, r8
  .bt (.reg .r8) 63#64, -- 2232: bt r8, 0x3f
  .cmov .cy .rbx (.reg .rcx), -- 2233: cmovb rbx, rcx
  .mov (.reg .r8) (.reg .rax), -- 2234: mov r8, rax
  .sub (.reg .rsi) (.reg .rax), -- 2235: sub rsi, rax
  .lea .rcx ⟨some .rcx, some (.rdi, 1#64), 0#64⟩, -- 2236: lea rcx, [rcx + rdi]
  .cmov .sg .r8 (.reg .rbp), -- 2237: cmovs r8, rbp
  .mov (.reg .rdi) (.reg .rbx), -- 2238: mov rdi, rbx
  .test (.reg .rcx) (.reg .rdx), -- 2239: test rcx, rdx
  .cmov .zr .r8 (.reg .rbp), -- 2240: cmove r8, rbp
  .cmov .zr .rdi (.reg .rbp), -- 2241: cmove rdi, rbp
  .sar (.reg .rcx) (.imm 1#64), -- 2242: sar rcx, 1
  .xor (.reg .rdi) (.reg .r8), -- 2243: xor rdi, r8
  .xor (.reg .rsi) (.reg .r8), -- 2244: xor rsi, r8
  .bt (.reg .r8) 63#64, -- 2245: bt r8, 0x3f
  .cmov .cy .rbx (.reg .rcx), -- 2246: cmovb rbx, rcx
  .mov (.reg .r8) (.reg .rax), -- 2247: mov r8, rax
  .sub (.reg .rsi) (.reg .rax), -- 2248: sub rsi, rax
  .lea .rcx ⟨some .rcx, some (.rdi, 1#64), 0#64⟩, -- 2249: lea rcx, [rcx + rdi]
  .cmov .sg .r8 (.reg .rbp), -- 2250: cmovs r8, rbp
  .mov (.reg .rdi) (.reg .rbx), -- 2251: mov rdi, rbx
  .test (.reg .rcx) (.reg .rdx), -- 2252: test rcx, rdx
  .cmov .zr .r8 (.reg .rbp), -- 2253: cmove r8, rbp
  .cmov .zr .rdi (.reg .rbp), -- 2254: cmove rdi, rbp
  .sar (.reg .rcx) (.imm 1#64), -- 2255: sar rcx, 1
  .xor (.reg .rdi) (.reg .r8), -- 2256: xor rdi, r8
  .xor (.reg .rsi) (.reg .r8), -- 2257: xor rsi, r8
  .bt (.reg .r8) 63#64, -- 2258: bt r8, 0x3f
  .cmov .cy .rbx (.reg .rcx), -- 2259: cmovb rbx, rcx
  .mov (.reg .r8) (.reg .rax), -- 2260: mov r8, rax
  .sub (.reg .rsi) (.reg .rax), -- 2261: sub rsi, rax
  .lea .rcx ⟨some .rcx, some (.rdi, 1#64), 0#64⟩, -- 2262: lea rcx, [rcx + rdi]
  .cmov .sg .r8 (.reg .rbp), -- 2263: cmovs r8, rbp
  .mov (.reg .rdi) (.reg .rbx), -- 2264: mov rdi, rbx
  .test (.reg .rcx) (.reg .rdx), -- 2265: test rcx, rdx
  .cmov .zr .r8 (.reg .rbp), -- 2266: cmove r8, rbp
  .cmov .zr .rdi (.reg .rbp), -- 2267: cmove rdi, rbp
  .sar (.reg .rcx) (.imm 1#64), -- 2268: sar rcx, 1
  .xor (.reg .rdi) (.reg .r8), -- 2269: xor rdi, r8
  .xor (.reg .rsi) (.reg .r8), -- 2270: xor rsi, r8
  .bt (.reg .r8) 63#64, -- 2271: bt r8, 0x3f
  .cmov .cy .rbx (.reg .rcx), -- 2272: cmovb rbx, rcx
  .mov (.reg .r8) (.reg .rax), -- 2273: mov r8, rax
  .sub (.reg .rsi) (.reg .rax), -- 2274: sub rsi, rax
  .lea .rcx ⟨some .rcx, some (.rdi, 1#64), 0#64⟩, -- 2275: lea rcx, [rcx + rdi]
  .cmov .sg .r8 (.reg .rbp), -- 2276: cmovs r8, rbp
  .mov (.reg .rdi) (.reg .rbx), -- 2277: mov rdi, rbx
  .test (.reg .rcx) (.reg .rdx), -- 2278: test rcx, rdx
  .cmov .zr .r8 (.reg .rbp), -- 2279: cmove r8, rbp
  .cmov .zr .rdi (.reg .rbp), -- 2280: cmove rdi, rbp
  .sar (.reg .rcx) (.imm 1#64), -- 2281: sar rcx, 1
  .xor (.reg .rdi) (.reg .r8), -- 2282: xor rdi, r8
  .xor (.reg .rsi) (.reg .r8), -- 2283: xor rsi, r8
  .bt (.reg .r8) 63#64, -- 2284: bt r8, 0x3f
  .cmov .cy .rbx (.reg .rcx), -- 2285: cmovb rbx, rcx
  .mov (.reg .r8) (.reg .rax), -- 2286: mov r8, rax
  .sub (.reg .rsi) (.reg .rax), -- 2287: sub rsi, rax
  .lea .rcx ⟨some .rcx, some (.rdi, 1#64), 0#64⟩, -- 2288: lea rcx, [rcx + rdi]
  .cmov .sg .r8 (.reg .rbp), -- 2289: cmovs r8, rbp
  .mov (.reg .rdi) (.reg .rbx), -- 2290: mov rdi, rbx
  .test (.reg .rcx) (.reg .rdx), -- 2291: test rcx, rdx
  .cmov .zr .r8 (.reg .rbp), -- 2292: cmove r8, rbp
  .cmov .zr .rdi (.reg .rbp), -- 2293: cmove rdi, rbp
  .sar (.reg .rcx) (.imm 1#64), -- 2294: sar rcx, 1
  .xor (.reg .rdi) (.reg .r8), -- 2295: xor rdi, r8
  .xor (.reg .rsi) (.reg .r8), -- 2296: xor rsi, r8
  .bt (.reg .r8) 63#64, -- 2297: bt r8, 0x3f
  .cmov .cy .rbx (.reg .rcx), -- 2298: cmovb rbx, rcx
  .mov (.reg .r8) (.reg .rax), -- 2299: mov r8, rax
  .sub (.reg .rsi) (.reg .rax), -- 2300: sub rsi, rax
  .lea .rcx ⟨some .rcx, some (.rdi, 1#64), 0#64⟩, -- 2301: lea rcx, [rcx + rdi]
  .cmov .sg .r8 (.reg .rbp), -- 2302: cmovs r8, rbp
  .mov (.reg .rdi) (.reg .rbx), -- 2303: mov rdi, rbx
  .test (.reg .rcx) (.reg .rdx), -- 2304: test rcx, rdx
  .cmov .zr .r8 (.reg .rbp), -- 2305: cmove r8, rbp
  .cmov .zr .rdi (.reg .rbp), -- 2306: cmove rdi, rbp
  .sar (.reg .rcx) (.imm 1#64), -- 2307: sar rcx, 1
  .xor (.reg .rdi) (.reg .r8), -- 2308: xor rdi, r8
  .xor (.reg .rsi) (.reg .r8), -- 2309: xor rsi, r8
  .bt (.reg .r8) 63#64, -- 2310: bt r8, 0x3f
  .cmov .cy .rbx (.reg .rcx), -- 2311: cmovb rbx, rcx
  .mov (.reg .r8) (.reg .rax), -- 2312: mov r8, rax
  .sub (.reg .rsi) (.reg .rax), -- 2313: sub rsi, rax
  .lea .rcx ⟨some .rcx, some (.rdi, 1#64), 0#64⟩, -- 2314: lea rcx, [rcx + rdi]
  .cmov .sg .r8 (.reg .rbp), -- 2315: cmovs r8, rbp
  .mov (.reg .rdi) (.reg .rbx), -- 2316: mov rdi, rbx
  .test (.reg .rcx) (.reg .rdx), -- 2317: test rcx, rdx
  .cmov .zr .r8 (.reg .rbp), -- 2318: cmove r8, rbp
  .cmov .zr .rdi (.reg .rbp), -- 2319: cmove rdi, rbp
  .sar (.reg .rcx) (.imm 1#64), -- 2320: sar rcx, 1
  .xor (.reg .rdi) (.reg .r8), -- 2321: xor rdi, r8
  .xor (.reg .rsi) (.reg .r8), -- 2322: xor rsi, r8
  .bt (.reg .r8) 63#64, -- 2323: bt r8, 0x3f
  .cmov .cy .rbx (.reg .rcx), -- 2324: cmovb rbx, rcx
  .mov (.reg .r8) (.reg .rax), -- 2325: mov r8, rax
  .sub (.reg .rsi) (.reg .rax), -- 2326: sub rsi, rax
  .lea .rcx ⟨some .rcx, some (.rdi, 1#64), 0#64⟩, -- 2327: lea rcx, [rcx + rdi]
  .sar (.reg .rcx) (.imm 1#64), -- 2328: sar rcx, 1
  .mov (.reg .rax) (.imm 0x100000#64), -- 2329: mov eax, 0x100000
  .lea .r8 ⟨some .rbx, some (.rax, 1#64), 0#64⟩, -- 2330: lea r8, [rbx + rax]
  .lea .r12 ⟨some .rcx, some (.rax, 1#64), 0#64⟩, -- 2331: lea r12, [rcx + rax]
  .shl (.reg .r8) (.imm 21#64), -- 2332: shl r8, 0x15
  .shl (.reg .r12) (.imm 21#64), -- 2333: shl r12, 0x15
  .sar (.reg .r8) (.imm 43#64), -- 2334: sar r8, 0x2b
  .sar (.reg .r12) (.imm 43#64), -- 2335: sar r12, 0x2b
  .mov (.reg .rax) (.imm 0x20000100000#64), -- 2336: movabs rax, 0x20000100000
  .lea .r10 ⟨some .rbx, some (.rax, 1#64), 0#64⟩, -- 2337: lea r10, [rbx + rax]
  .lea .r14 ⟨some .rcx, some (.rax, 1#64), 0#64⟩, -- 2338: lea r14, [rcx + rax]
  .sar (.reg .r10) (.imm 43#64), -- 2339: sar r10, 0x2b
  .sar (.reg .r14) (.imm 43#64), -- 2340: sar r14, 0x2b
  .mov (.reg .rax) (.reg .r9), -- 2341: mov rax, r9
  .imul .rax (.reg .r8), -- 2342: imul rax, r8
  .mov (.reg .rdx) (.reg .r13), -- 2343: mov rdx, r13
  .imul .rdx (.reg .r10), -- 2344: imul rdx, r10
  .imul .r8 (.reg .r15), -- 2345: imul r8, r15
  .imul .r10 (.reg .r11), -- 2346: imul r10, r11
  .add (.reg .r10) (.reg .r8), -- 2347: add r10, r8
  .lea .r8 ⟨some .rax, some (.rdx, 1#64), 0#64⟩, -- 2348: lea r8, [rax + rdx]
  .mov (.reg .rax) (.reg .r9), -- 2349: mov rax, r9
  .imul .rax (.reg .r12), -- 2350: imul rax, r12
  .mov (.reg .rdx) (.reg .r13), -- 2351: mov rdx, r13
  .imul .rdx (.reg .r14), -- 2352: imul rdx, r14
  .imul .r12 (.reg .r15), -- 2353: imul r12, r15
  .imul .r14 (.reg .r11), -- 2354: imul r14, r11
  .add (.reg .r14) (.reg .r12), -- 2355: add r14, r12
  .lea .r12 ⟨some .rax, some (.rdx, 1#64), 0#64⟩, -- 2356: lea r12, [rax + rdx]
  .mov (.mem ⟨some .rsp, none, 152#64⟩) (.reg .rsi), -- 2357: mov [rsp + 0x98], rsi
  .dec (.mem ⟨some .rsp, none, 144#64⟩), -- 2358: dec QWORD PTR [rsp + 0x90]
  .jcc .nz 1169, -- 2359: jne @4b
  .mov (.reg .rax) (.mem ⟨some .rsp, none, 0#64⟩), -- 2360: mov rax, [rsp]
  .mov (.reg .rcx) (.mem ⟨some .rsp, none, 32#64⟩), -- 2361: mov rcx, [rsp + 0x20]
  .imul .rax (.reg .r8), -- 2362: imul rax, r8
  .imul .rcx (.reg .r10), -- 2363: imul rcx, r10
  .add (.reg .rax) (.reg .rcx), -- 2364: add rax, rcx
  .sar (.reg .rax) (.imm 63#64), -- 2365: sar rax, 0x3f
  .mov (.reg .r9) (.reg .r8), -- 2366: mov r9, r8
  .sar (.reg .r9) (.imm 63#64), -- 2367: sar r9, 0x3f
  .xor (.reg .r8) (.reg .r9), -- 2368: xor r8, r9
  .sub (.reg .r8) (.reg .r9), -- 2369: sub r8, r9
  .xor (.reg .r9) (.reg .rax), -- 2370: xor r9, rax
  .mov (.reg .r11) (.reg .r10), -- 2371: mov r11, r10
  .sar (.reg .r11) (.imm 63#64), -- 2372: sar r11, 0x3f
  .xor (.reg .r10) (.reg .r11), -- 2373: xor r10, r11
  .sub (.reg .r10) (.reg .r11), -- 2374: sub r10, r11
  .xor (.reg .r11) (.reg .rax), -- 2375: xor r11, rax
  .mov (.reg .r13) (.reg .r12), -- 2376: mov r13, r12
  .sar (.reg .r13) (.imm 63#64), -- 2377: sar r13, 0x3f
  .xor (.reg .r12) (.reg .r13), -- 2378: xor r12, r13
  .sub (.reg .r12) (.reg .r13), -- 2379: sub r12, r13
  .xor (.reg .r13) (.reg .rax), -- 2380: xor r13, rax
  .mov (.reg .r15) (.reg .r14), -- 2381: mov r15, r14
  .sar (.reg .r15) (.imm 63#64), -- 2382: sar r15, 0x3f
  .xor (.reg .r14) (.reg .r15), -- 2383: xor r14, r15
  .sub (.reg .r14) (.reg .r15), -- 2384: sub r14, r15
  .xor (.reg .r15) (.reg .rax), -- 2385: xor r15, rax
  .mov (.reg .rax) (.reg .r8), -- 2386: mov rax, r8
  .and (.reg .rax) (.reg .r9), -- 2387: and rax, r9
  .mov (.reg .r12) (.reg .r10), -- 2388: mov r12, r10
  .and (.reg .r12) (.reg .r11), -- 2389: and r12, r11
  .add (.reg .r12) (.reg .rax), -- 2390: add r12, rax
  .xor (.reg .r13) (.reg .r13), -- 2391: xor r13d, r13d
  .mov (.reg .rax) (.mem ⟨some .rsp, none, 64#64⟩), -- 2392: mov rax, [rsp + 0x40]
  .xor (.reg .rax) (.reg .r9), -- 2393: xor rax, r9
  .mul (.reg .r8), -- 2394: mul r8
  .add (.reg .r12) (.reg .rax), -- 2395: add r12, rax
  .adc (.reg .r13) (.reg .rdx), -- 2396: adc r13, rdx
  .mov (.reg .rax) (.mem ⟨some .rsp, none, 96#64⟩), -- 2397: mov rax, [rsp + 0x60]
  .xor (.reg .rax) (.reg .r11), -- 2398: xor rax, r11
  .mul (.reg .r10), -- 2399: mul r10
  .add (.reg .r12) (.reg .rax), -- 2400: add r12, rax
  .adc (.reg .r13) (.reg .rdx), -- 2401: adc r13, rdx
  .xor (.reg .r14) (.reg .r14), -- 2402: xor r14d, r14d
  .mov (.reg .rax) (.mem ⟨some .rsp, none, 72#64⟩), -- 2403: mov rax, [rsp + 0x48]
  .xor (.reg .rax) (.reg .r9), -- 2404: xor rax, r9
  .mul (.reg .r8), -- 2405: mul r8
  .add (.reg .r13) (.reg .rax), -- 2406: add r13, rax
  .adc (.reg .r14) (.reg .rdx), -- 2407: adc r14, rdx
  .mov (.reg .rax) (.mem ⟨some .rsp, none, 104#64⟩), -- 2408: mov rax, [rsp + 0x68]
  .xor (.reg .rax) (.reg .r11), -- 2409: xor rax, r11
  .mul (.reg .r10), -- 2410: mul r10
  .add (.reg .r13) (.reg .rax), -- 2411: add r13, rax
  .adc (.reg .r14) (.reg .rdx), -- 2412: adc r14, rdx
  .xor (.reg .r15) (.reg .r15), -- 2413: xor r15d, r15d
  .mov (.reg .rax) (.mem ⟨some .rsp, none, 80#64⟩), -- 2414: mov rax, [rsp + 0x50]
  .xor (.reg .rax) (.reg .r9), -- 2415: xor rax, r9
  .mul (.reg .r8), -- 2416: mul r8
  .add (.reg .r14) (.reg .rax), -- 2417: add r14, rax
  .adc (.reg .r15) (.reg .rdx), -- 2418: adc r15, rdx
  .mov (.reg .rax) (.mem ⟨some .rsp, none, 112#64⟩), -- 2419: mov rax, [rsp + 0x70]
  .xor (.reg .rax) (.reg .r11), -- 2420: xor rax, r11
  .mul (.reg .r10), -- 2421: mul r10
  .add (.reg .r14) (.reg .rax), -- 2422: add r14, rax
  .adc (.reg .r15) (.reg .rdx), -- 2423: adc r15, rdx
  .mov (.reg .rax) (.mem ⟨some .rsp, none, 88#64⟩), -- 2424: mov rax, [rsp + 0x58]
  .xor (.reg .rax) (.reg .r9), -- 2425: xor rax, r9
  .and (.reg .r9) (.reg .r8), -- 2426: and r9, r8
  .neg (.reg .r9), -- 2427: neg r9
  .mul (.reg .r8), -- 2428: mul r8
  .add (.reg .r15) (.reg .rax), -- 2429: add r15, rax
  .adc (.reg .r9) (.reg .rdx), -- 2430: adc r9, rdx
  .mov (.reg .rax) (.mem ⟨some .rsp, none, 120#64⟩), -- 2431: mov rax, [rsp + 0x78]
  .xor (.reg .rax) (.reg .r11), -- 2432: xor rax, r11
  .mov (.reg .rdx) (.reg .r11), -- 2433: mov rdx, r11
  .and (.reg .rdx) (.reg .r10), -- 2434: and rdx, r10
  .sub (.reg .r9) (.reg .rdx), -- 2435: sub r9, rdx
  .mul (.reg .r10), -- 2436: mul r10
  .add (.reg .r15) (.reg .rax), -- 2437: add r15, rax
  .adc (.reg .r9) (.reg .rdx), -- 2438: adc r9, rdx
  .mov (.reg .rax) (.reg .r9), -- 2439: mov rax, r9
  .shld (.reg .rax) .r15 (.imm 1#64), -- 2440: shld rax, r15, 0x1
  .sar (.reg .r9) (.imm 63#64), -- 2441: sar r9, 0x3f
  .mov (.reg .rbx) (.imm 19#64), -- 2442: mov ebx, 0x13
  .lea .rax ⟨some .rax, some (.r9, 1#64), 1#64⟩, -- 2443: lea rax, [rax + r9 + 0x1]
  .imul1 (.reg .rbx), -- 2444: imul rbx
  .xor (.reg .rbp) (.reg .rbp), -- 2445: xor ebp, ebp
  .add (.reg .r12) (.reg .rax), -- 2446: add r12, rax
  .adc (.reg .r13) (.reg .rdx), -- 2447: adc r13, rdx
  .adc (.reg .r14) (.reg .r9), -- 2448: adc r14, r9
  .adc (.reg .r15) (.reg .r9), -- 2449: adc r15, r9
  .shl (.reg .rax) (.imm 63#64), -- 2450: shl rax, 0x3f
  .add (.reg .r15) (.reg .rax), -- 2451: add r15, rax
  .cmov .ns .rbx (.reg .rbp), -- 2452: cmovns rbx, rbp
  .sub (.reg .r12) (.reg .rbx), -- 2453: sub r12, rbx
  .sbb (.reg .r13) (.reg .rbp), -- 2454: sbb r13, rbp
  .sbb (.reg .r14) (.reg .rbp), -- 2455: sbb r14, rbp
  .sbb (.reg .r15) (.reg .rbp), -- 2456: sbb r15, rbp
  .btr .r15 63#64, -- 2457: btr r15, 0x3f
  .mov (.reg .rdi) (.mem ⟨some .rsp, none, 192#64⟩), -- 2458: mov rdi, [rsp + 0xc0]
  .mov (.mem ⟨some .rdi, none, 0#64⟩) (.reg .r12), -- 2459: mov [rdi], r12
  .mov (.mem ⟨some .rdi, none, 8#64⟩) (.reg .r13), -- 2460: mov [rdi + 0x8], r13
  .mov (.mem ⟨some .rdi, none, 16#64⟩) (.reg .r14), -- 2461: mov [rdi + 0x10], r14
  .mov (.mem ⟨some .rdi, none, 24#64⟩) (.reg .r15), -- 2462: mov [rdi + 0x18], r15
  .mov (.reg .rbp) (.mem ⟨some .rsp, none, 448#64⟩), -- 2463: mov rbp, QWORD PTR [rsp + 14 * 32]
  .xor (.reg .rsi) (.reg .rsi), -- 2464: xor esi, esi
  .mov (.reg .rdx) (.mem ⟨some .rsp, none, 416#64⟩), -- 2465: mov rdx, [rsp + (13 * 32)]
  .mulx .r9 .r8 (.mem ⟨some .rsp, none, 320#64⟩), -- 2466: mulx r9, r8, [rsp + (10 * 32)]
  .mulx .r10 .rax (.mem ⟨some .rsp, none, 328#64⟩), -- 2467: mulx r10, rax, [rsp + (10 * 32)+ 0x8]
  .add (.reg .r9) (.reg .rax), -- 2468: add r9, rax
  .mulx .r11 .rax (.mem ⟨some .rsp, none, 336#64⟩), -- 2469: mulx r11, rax, [rsp + (10 * 32)+ 0x10]
  .adc (.reg .r10) (.reg .rax), -- 2470: adc r10, rax
  .mulx .r12 .rax (.mem ⟨some .rsp, none, 344#64⟩), -- 2471: mulx r12, rax, [rsp + (10 * 32)+ 0x18]
  .adc (.reg .r11) (.reg .rax), -- 2472: adc r11, rax
  .adc (.reg .r12) (.reg .rsi), -- 2473: adc r12, rsi
  .xor (.reg .rsi) (.reg .rsi), -- 2474: xor esi, esi
  .mov (.reg .rdx) (.mem ⟨some .rsp, none, 424#64⟩), -- 2475: mov rdx, [rsp + (13 * 32)+ 0x8]
  .mulx .rbx .rax (.mem ⟨some .rsp, none, 320#64⟩), -- 2476: mulx rbx, rax, [rsp + (10 * 32)]
  .adcx .r9 (.reg .rax), -- 2477: adcx r9, rax
  .adox .r10 (.reg .rbx), -- 2478: adox r10, rbx
  .mulx .rbx .rax (.mem ⟨some .rsp, none, 328#64⟩), -- 2479: mulx rbx, rax, [rsp + (10 * 32)+ 0x8]
  .adcx .r10 (.reg .rax), -- 2480: adcx r10, rax
  .adox .r11 (.reg .rbx), -- 2481: adox r11, rbx
  .mulx .rbx .rax (.mem ⟨some .rsp, none, 336#64⟩), -- 2482: mulx rbx, rax, [rsp + (10 * 32)+ 0x10]
  .adcx .r11 (.reg .rax), -- 2483: adcx r11, rax
  .adox .r12 (.reg .rbx), -- 2484: adox r12, rbx
  .mulx .r13 .rax (.mem ⟨some .rsp, none, 344#64⟩), -- 2485: mulx r13, rax, [rsp + (10 * 32)+ 0x18]
  .adcx .r12 (.reg .rax), -- 2486: adcx r12, rax
  .adox .r13 (.reg .rsi), -- 2487: adox r13, rsi
  .adcx .r13 (.reg .rsi), -- 2488: adcx r13, rsi
  .xor (.reg .rsi) (.reg .rsi), -- 2489: xor esi, esi
  .mov (.reg .rdx) (.mem ⟨some .rsp, none, 432#64⟩), -- 2490: mov rdx, [rsp + (13 * 32)+ 0x10]
  .mulx .rbx .rax (.mem ⟨some .rsp, none, 320#64⟩), -- 2491: mulx rbx, rax, [rsp + (10 * 32)]
  .adcx .r10 (.reg .rax), -- 2492: adcx r10, rax
  .adox .r11 (.reg .rbx), -- 2493: adox r11, rbx
  .mulx .rbx .rax (.mem ⟨some .rsp, none, 328#64⟩), -- 2494: mulx rbx, rax, [rsp + (10 * 32)+ 0x8]
  .adcx .r11 (.reg .rax), -- 2495: adcx r11, rax
  .adox .r12 (.reg .rbx), -- 2496: adox r12, rbx
  .mulx .rbx .rax (.mem ⟨some .rsp, none, 336#64⟩), -- 2497: mulx rbx, rax, [rsp + (10 * 32)+ 0x10]
  .adcx .r12 (.reg .rax), -- 2498: adcx r12, rax
  .adox .r13 (.reg .rbx), -- 2499: adox r13, rbx
  .mulx .r14 .rax (.mem ⟨some .rsp, none, 344#64⟩), -- 2500: mulx r14, rax, [rsp + (10 * 32)+ 0x18]
  .adcx .r13 (.reg .rax), -- 2501: adcx r13, rax
  .adox .r14 (.reg .rsi), -- 2502: adox r14, rsi
  .adcx .r14 (.reg .rsi), -- 2503: adcx r14, rsi
  .xor (.reg .rsi) (.reg .rsi), -- 2504: xor esi, esi
  .mov (.reg .rdx) (.mem ⟨some .rsp, none, 440#64⟩), -- 2505: mov rdx, [rsp + (13 * 32)+ 0x18]
  .mulx .rbx .rax (.mem ⟨some .rsp, none, 320#64⟩), -- 2506: mulx rbx, rax, [rsp + (10 * 32)]
  .adcx .r11 (.reg .rax), -- 2507: adcx r11, rax
  .adox .r12 (.reg .rbx), -- 2508: adox r12, rbx
  .mulx .rbx .rax (.mem ⟨some .rsp, none, 328#64⟩), -- 2509: mulx rbx, rax, [rsp + (10 * 32)+ 0x8]
  .adcx .r12 (.reg .rax), -- 2510: adcx r12, rax
  .adox .r13 (.reg .rbx), -- 2511: adox r13, rbx
  .mulx .rbx .rax (.mem ⟨some .rsp, none, 336#64⟩), -- 2512: mulx rbx, rax, [rsp + (10 * 32)+ 0x10]
  .adcx .r13 (.reg .rax), -- 2513: adcx r13, rax
  .adox .r14 (.reg .rbx), -- 2514: adox r14, rbx
  .mulx .r15 .rax (.mem ⟨some .rsp, none, 344#64⟩), -- 2515: mulx r15, rax, [rsp + (10 * 32)+ 0x18]
  .adcx .r14 (.reg .rax), -- 2516: adcx r14, rax
  .adox .r15 (.reg .rsi), -- 2517: adox r15, rsi
  .adcx .r15 (.reg .rsi), -- 2518: adcx r15, rsi
  .mov (.reg .rdx) (.imm 38#64), -- 2519: mov edx, 0x26
  .xor (.reg .rsi) (.reg .rsi), -- 2520: xor esi, esi
  .mulx .rbx .rax (.reg .r12), -- 2521: mulx rbx, rax, r12
  .adcx .r8 (.reg .rax), -- 2522: adcx r8, rax
  .adox .r9 (.reg .rbx), -- 2523: adox r9, rbx
  .mulx .rbx .rax (.reg .r13), -- 2524: mulx rbx, rax, r13
  .adcx .r9 (.reg .rax), -- 2525: adcx r9, rax
  .adox .r10 (.reg .rbx), -- 2526: adox r10, rbx
  .mulx .rbx .rax (.reg .r14), -- 2527: mulx rbx, rax, r14
  .adcx .r10 (.reg .rax), -- 2528: adcx r10, rax
  .adox .r11 (.reg .rbx), -- 2529: adox r11, rbx
  .mulx .r12 .rax (.reg .r15), -- 2530: mulx r12, rax, r15
  .adcx .r11 (.reg .rax), -- 2531: adcx r11, rax
  .adox .r12 (.reg .rsi), -- 2532: adox r12, rsi
  .adcx .r12 (.reg .rsi), -- 2533: adcx r12, rsi
  .shld (.reg .r12) .r11 (.imm 1#64), -- 2534: shld r12, r11, 0x1
  .mov (.reg .rdx) (.imm 19#64), -- 2535: mov edx, 0x13
  .inc (.reg .r12), -- 2536: inc r12
  .bts .r11 63#64, -- 2537: bts r11, 63
  .mulx .rbx .rax (.reg .r12), -- 2538: mulx rbx, rax, r12
  .add (.reg .r8) (.reg .rax), -- 2539: add r8, rax
  .adc (.reg .r9) (.reg .rbx), -- 2540: adc r9, rbx
  .adc (.reg .r10) (.reg .rsi), -- 2541: adc r10, rsi
  .adc (.reg .r11) (.reg .rsi), -- 2542: adc r11, rsi
  .sbb (.reg .rax) (.reg .rax), -- 2543: sbb rax, rax
  .not (.reg .rax), -- 2544: not rax
  .and (.reg .rax) (.reg .rdx), -- 2545: and rax, rdx
  .sub (.reg .r8) (.reg .rax), -- 2546: sub r8, rax
  .sbb (.reg .r9) (.reg .rsi), -- 2547: sbb r9, rsi
  .sbb (.reg .r10) (.reg .rsi), -- 2548: sbb r10, rsi
  .sbb (.reg .r11) (.reg .rsi), -- 2549: sbb r11, rsi
  .btr .r11 63#64, -- 2550: btr r11, 63
  .mov (.mem ⟨some .rbp, none, 0#64⟩) (.reg .r8), -- 2551: mov [rbp + (0 * 32)], r8
  .mov (.mem ⟨some .rbp, none, 8#64⟩) (.reg .r9), -- 2552: mov [rbp + (0 * 32)+ 0x8], r9
  .mov (.mem ⟨some .rbp, none, 16#64⟩) (.reg .r10), -- 2553: mov [rbp + (0 * 32)+ 0x10], r10
  .mov (.mem ⟨some .rbp, none, 24#64⟩) (.reg .r11), -- 2554: mov [rbp + (0 * 32)+ 0x18], r11
  .xor (.reg .rsi) (.reg .rsi), -- 2555: xor esi, esi
  .mov (.reg .rdx) (.mem ⟨some .rsp, none, 416#64⟩), -- 2556: mov rdx, [rsp + (13 * 32)]
  .mulx .r9 .r8 (.mem ⟨some .rsp, none, 352#64⟩), -- 2557: mulx r9, r8, [rsp + (11 * 32)]
  .mulx .r10 .rax (.mem ⟨some .rsp, none, 360#64⟩), -- 2558: mulx r10, rax, [rsp + (11 * 32)+ 0x8]
  .add (.reg .r9) (.reg .rax), -- 2559: add r9, rax
  .mulx .r11 .rax (.mem ⟨some .rsp, none, 368#64⟩), -- 2560: mulx r11, rax, [rsp + (11 * 32)+ 0x10]
  .adc (.reg .r10) (.reg .rax), -- 2561: adc r10, rax
  .mulx .r12 .rax (.mem ⟨some .rsp, none, 376#64⟩), -- 2562: mulx r12, rax, [rsp + (11 * 32)+ 0x18]
  .adc (.reg .r11) (.reg .rax), -- 2563: adc r11, rax
  .adc (.reg .r12) (.reg .rsi), -- 2564: adc r12, rsi
  .xor (.reg .rsi) (.reg .rsi), -- 2565: xor esi, esi
  .mov (.reg .rdx) (.mem ⟨some .rsp, none, 424#64⟩), -- 2566: mov rdx, [rsp + (13 * 32)+ 0x8]
  .mulx .rbx .rax (.mem ⟨some .rsp, none, 352#64⟩), -- 2567: mulx rbx, rax, [rsp + (11 * 32)]
  .adcx .r9 (.reg .rax), -- 2568: adcx r9, rax
  .adox .r10 (.reg .rbx), -- 2569: adox r10, rbx
  .mulx .rbx .rax (.mem ⟨some .rsp, none, 360#64⟩), -- 2570: mulx rbx, rax, [rsp + (11 * 32)+ 0x8]
  .adcx .r10 (.reg .rax), -- 2571: adcx r10, rax
  .adox .r11 (.reg .rbx), -- 2572: adox r11, rbx
  .mulx .rbx .rax (.mem ⟨some .rsp, none, 368#64⟩), -- 2573: mulx rbx, rax, [rsp + (11 * 32)+ 0x10]
  .adcx .r11 (.reg .rax), -- 2574: adcx r11, rax
  .adox .r12 (.reg .rbx), -- 2575: adox r12, rbx
  .mulx .r13 .rax (.mem ⟨some .rsp, none, 376#64⟩), -- 2576: mulx r13, rax, [rsp + (11 * 32)+ 0x18]
  .adcx .r12 (.reg .rax), -- 2577: adcx r12, rax
  .adox .r13 (.reg .rsi), -- 2578: adox r13, rsi
  .adcx .r13 (.reg .rsi), -- 2579: adcx r13, rsi
  .xor (.reg .rsi) (.reg .rsi), -- 2580: xor esi, esi
  .mov (.reg .rdx) (.mem ⟨some .rsp, none, 432#64⟩), -- 2581: mov rdx, [rsp + (13 * 32)+ 0x10]
  .mulx .rbx .rax (.mem ⟨some .rsp, none, 352#64⟩), -- 2582: mulx rbx, rax, [rsp + (11 * 32)]
  .adcx .r10 (.reg .rax), -- 2583: adcx r10, rax
  .adox .r11 (.reg .rbx), -- 2584: adox r11, rbx
  .mulx .rbx .rax (.mem ⟨some .rsp, none, 360#64⟩), -- 2585: mulx rbx, rax, [rsp + (11 * 32)+ 0x8]
  .adcx .r11 (.reg .rax), -- 2586: adcx r11, rax
  .adox .r12 (.reg .rbx), -- 2587: adox r12, rbx
  .mulx .rbx .rax (.mem ⟨some .rsp, none, 368#64⟩), -- 2588: mulx rbx, rax, [rsp + (11 * 32)+ 0x10]
  .adcx .r12 (.reg .rax), -- 2589: adcx r12, rax
  .adox .r13 (.reg .rbx), -- 2590: adox r13, rbx
  .mulx .r14 .rax (.mem ⟨some .rsp, none, 376#64⟩), -- 2591: mulx r14, rax, [rsp + (11 * 32)+ 0x18]
  .adcx .r13 (.reg .rax), -- 2592: adcx r13, rax
  .adox .r14 (.reg .rsi), -- 2593: adox r14, rsi
  .adcx .r14 (.reg .rsi), -- 2594: adcx r14, rsi
  .xor (.reg .rsi) (.reg .rsi), -- 2595: xor esi, esi
  .mov (.reg .rdx) (.mem ⟨some .rsp, none, 440#64⟩), -- 2596: mov rdx, [rsp + (13 * 32)+ 0x18]
  .mulx .rbx .rax (.mem ⟨some .rsp, none, 352#64⟩), -- 2597: mulx rbx, rax, [rsp + (11 * 32)]
  .adcx .r11 (.reg .rax), -- 2598: adcx r11, rax
  .adox .r12 (.reg .rbx), -- 2599: adox r12, rbx
  .mulx .rbx .rax (.mem ⟨some .rsp, none, 360#64⟩), -- 2600: mulx rbx, rax, [rsp + (11 * 32)+ 0x8]
  .adcx .r12 (.reg .rax), -- 2601: adcx r12, rax
  .adox .r13 (.reg .rbx), -- 2602: adox r13, rbx
  .mulx .rbx .rax (.mem ⟨some .rsp, none, 368#64⟩), -- 2603: mulx rbx, rax, [rsp + (11 * 32)+ 0x10]
  .adcx .r13 (.reg .rax), -- 2604: adcx r13, rax
  .adox .r14 (.reg .rbx), -- 2605: adox r14, rbx
  .mulx .r15 .rax (.mem ⟨some .rsp, none, 376#64⟩), -- 2606: mulx r15, rax, [rsp + (11 * 32)+ 0x18]
  .adcx .r14 (.reg .rax), -- 2607: adcx r14, rax
  .adox .r15 (.reg .rsi), -- 2608: adox r15, rsi
  .adcx .r15 (.reg .rsi), -- 2609: adcx r15, rsi
  .mov (.reg .rdx) (.imm 38#64), -- 2610: mov edx, 0x26
  .xor (.reg .rsi) (.reg .rsi), -- 2611: xor esi, esi
  .mulx .rbx .rax (.reg .r12), -- 2612: mulx rbx, rax, r12
  .adcx .r8 (.reg .rax), -- 2613: adcx r8, rax
  .adox .r9 (.reg .rbx), -- 2614: adox r9, rbx
  .mulx .rbx .rax (.reg .r13), -- 2615: mulx rbx, rax, r13
  .adcx .r9 (.reg .rax), -- 2616: adcx r9, rax
  .adox .r10 (.reg .rbx), -- 2617: adox r10, rbx
  .mulx .rbx .rax (.reg .r14), -- 2618: mulx rbx, rax, r14
  .adcx .r10 (.reg .rax), -- 2619: adcx r10, rax
  .adox .r11 (.reg .rbx), -- 2620: adox r11, rbx
  .mulx .r12 .rax (.reg .r15), -- 2621: mulx r12, rax, r15
  .adcx .r11 (.reg .rax), -- 2622: adcx r11, rax
  .adox .r12 (.reg .rsi), -- 2623: adox r12, rsi
  .adcx .r12 (.reg .rsi), -- 2624: adcx r12, rsi
  .shld (.reg .r12) .r11 (.imm 1#64), -- 2625: shld r12, r11, 0x1
  .mov (.reg .rdx) (.imm 19#64), -- 2626: mov edx, 0x13
  .inc (.reg .r12), -- 2627: inc r12
  .bts .r11 63#64, -- 2628: bts r11, 63
  .mulx .rbx .rax (.reg .r12), -- 2629: mulx rbx, rax, r12
  .add (.reg .r8) (.reg .rax), -- 2630: add r8, rax
  .adc (.reg .r9) (.reg .rbx), -- 2631: adc r9, rbx
  .adc (.reg .r10) (.reg .rsi), -- 2632: adc r10, rsi
  .adc (.reg .r11) (.reg .rsi), -- 2633: adc r11, rsi
  .sbb (.reg .rax) (.reg .rax), -- 2634: sbb rax, rax
  .not (.reg .rax), -- 2635: not rax
  .and (.reg .rax) (.reg .rdx), -- 2636: and rax, rdx
  .sub (.reg .r8) (.reg .rax), -- 2637: sub r8, rax
  .sbb (.reg .r9) (.reg .rsi), -- 2638: sbb r9, rsi
  .sbb (.reg .r10) (.reg .rsi), -- 2639: sbb r10, rsi
  .sbb (.reg .r11) (.reg .rsi), -- 2640: sbb r11, rsi
  .btr .r11 63#64, -- 2641: btr r11, 63
  .mov (.mem ⟨some .rbp, none, 32#64⟩) (.reg .r8), -- 2642: mov [rbp + (1 * 32)], r8
  .mov (.mem ⟨some .rbp, none, 40#64⟩) (.reg .r9), -- 2643: mov [rbp + (1 * 32)+ 0x8], r9
  .mov (.mem ⟨some .rbp, none, 48#64⟩) (.reg .r10), -- 2644: mov [rbp + (1 * 32)+ 0x10], r10
  .mov (.mem ⟨some .rbp, none, 56#64⟩) (.reg .r11), -- 2645: mov [rbp + (1 * 32)+ 0x18], r11
  .add (.reg .rsp) (.imm 488#64), -- 2646: add rsp, 488
  .pop .r15, -- 2647: pop r15
  .pop .r14, -- 2648: pop r14
  .pop .r13, -- 2649: pop r13
  .pop .r12, -- 2650: pop r12
  .pop .rbp, -- 2651: pop rbp
  .pop .rbx] -- 2652: pop rbx

/-- The registers that the operands of edwards25519_scalarmulbase.rs:372-2338 say may change. -/
def edwards25519ScalarmulbaseRegs : List Reg := [.rdi, .rsi, .r10, .r11, .r12, .r13, .r14, .r15, .r8, .r9, .rax, .rcx, .rdx]

end Verif.X86.Asm
