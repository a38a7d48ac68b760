import Verif.Model.X86

/-!
Generated by tools/gen_asm.py from `graviola/src/low/x86_64`: the `asm!` blocks as lists of instructions.
The comment at the end of a line gives its position; jump targets are positions.
-/
namespace Verif.X86.Asm
open Verif.X86

/-- low/x86_64/curve25519_x25519base.rs:372-2297.  Operands: inout("rdi") res.as_mut_ptr() => _; inout("rsi") scalar.as_ptr() => _; Lcurve25519_x25519base_edwards25519_0g = sym Lcurve25519_x25519base_edwards25519_0g; Lcurve25519_x25519base_edwards25519_8g = sym Lcurve25519_x25519base_edwards25519_8g; Lcurve25519_x25519base_edwards25519_gtable = sym Lcurve25519_x25519base_edwards25519_gtable; out("r10") _; out("r11") _; out("r12") _; out("r13") _; out("r14") _; out("r15") _; out("r8") _; out("r9") _; out("rax") _; out("rcx") _; out("rdx") _. -/
def curve25519X25519base : Prog := [
  .nop, -- 0: endbr64
  .push .rbx, -- 1: push rbx
  .push .rbp, -- 2: push rbp
  .push .r12, -- 3: push r12
  .push .r13, -- 4: push r13
  .push .r14, -- 5: push r14
  .push .r15, -- 6: push r15
  .sub (.reg .rsp) (.imm 488#64), -- 7: sub rsp, 488
  .mov (.mem ⟨some .rsp, none, 448#64⟩) (.reg .rdi), -- 8: mov QWORD PTR [rsp + 14 * 32], rdi
  .mov (.reg .rax) (.mem ⟨some .rsi, none, 0#64⟩), -- 9: mov rax, [rsi]
  .mov (.mem ⟨some .rsp, none, 0#64⟩) (.reg .rax), -- 10: mov [rsp], rax
  .mov (.reg .rax) (.mem ⟨some .rsi, none, 8#64⟩), -- 11: mov rax, [rsi + 8]
  .mov (.mem ⟨some .rsp, none, 8#64⟩) (.reg .rax), -- 12: mov [rsp + 8], rax
  .mov (.reg .rax) (.mem ⟨some .rsi, none, 16#64⟩), -- 13: mov rax, [rsi + 16]
  .mov (.mem ⟨some .rsp, none, 16#64⟩) (.reg .rax), -- 14: mov [rsp + 16], rax
  .mov (.reg .rax) (.imm 0x3fffffffffffffff#64), -- 15: mov rax, 0x3fffffffffffffff
  .and (.reg .rax) (.mem ⟨some .rsi, none, 24#64⟩), -- 16: and rax, [rsi + 24]
  .mov (.mem ⟨some .rsp, none, 24#64⟩) (.reg .rax), -- 17: mov [rsp + 24], rax
  .mov (.reg .rax) (.mem ⟨some .rsp, none, 0#64⟩), -- 18: mov rax, [rsp]
  .and (.reg .rax) (.imm 8#64), -- 19: and rax, 8
  .leaSym .r10 0, -- 20: lea r10, [rip + {Lcurve25519_x25519base_edwards25519_0g}]
  .leaSym .r11 1, -- 21: lea r11, [rip + {Lcurve25519_x25519base_edwards25519_8g}]
  .mov (.reg .rax) (.mem ⟨some .r10, none, 0#64⟩), -- 22: mov rax, [r10]
  .mov (.reg .rcx) (.mem ⟨some .r11, none, 0#64⟩), -- 23: mov rcx, [r11]
  .cmov .nz .rax (.reg .rcx), -- 24: cmovnz rax, rcx
  .mov (.mem ⟨some .rsp, none, 128#64⟩) (.reg .rax), -- 25: mov [rsp + 8 * 16], rax
  .mov (.reg .rax) (.mem ⟨some .r10, none, 8#64⟩), -- 26: mov rax, [r10 + 8 * 1]
  .mov (.reg .rcx) (.mem ⟨some .r11, none, 8#64⟩), -- 27: mov rcx, [r11 + 8 * 1]
  .cmov .nz .rax (.reg .rcx), -- 28: cmovnz rax, rcx
  .mov (.mem ⟨some .rsp, none, 136#64⟩) (.reg .rax), -- 29: mov [rsp + 8 * 17], rax
  .mov (.reg .rax) (.mem ⟨some .r10, none, 16#64⟩), -- 30: mov rax, [r10 + 8 * 2]
  .mov (.reg .rcx) (.mem ⟨some .r11, none, 16#64⟩), -- 31: mov rcx, [r11 + 8 * 2]
  .cmov .nz .rax (.reg .rcx), -- 32: cmovnz rax, rcx
  .mov (.mem ⟨some .rsp, none, 144#64⟩) (.reg .rax), -- 33: mov [rsp + 8 * 18], rax
  .mov (.reg .rax) (.mem ⟨some .r10, none, 24#64⟩), -- 34: mov rax, [r10 + 8 * 3]
  .mov (.reg .rcx) (.mem ⟨some .r11, none, 24#64⟩), -- 35: mov rcx, [r11 + 8 * 3]
  .cmov .nz .rax (.reg .rcx), -- 36: cmovnz rax, rcx
  .mov (.mem ⟨some .rsp, none, 152#64⟩) (.reg .rax), -- 37: mov [rsp + 8 * 19], rax
  .mov (.reg .rax) (.mem ⟨some .r10, none, 32#64⟩), -- 38: mov rax, [r10 + 8 * 4]
  .mov (.reg .rcx) (.mem ⟨some .r11, none, 32#64⟩), -- 39: mov rcx, [r11 + 8 * 4]
  .cmov .nz .rax (.reg .rcx), -- 40: cmovnz rax, rcx
  .mov (.mem ⟨some .rsp, none, 160#64⟩) (.reg .rax), -- 41: mov [rsp + 8 * 20], rax
  .mov (.reg .rax) (.mem ⟨some .r10, none, 40#64⟩), -- 42: mov rax, [r10 + 8 * 5]
  .mov (.reg .rcx) (.mem ⟨some .r11, none, 40#64⟩), -- 43: mov rcx, [r11 + 8 * 5]
  .cmov .nz .rax (.reg .rcx), -- 44: cmovnz rax, rcx
  .mov (.mem ⟨some .rsp, none, 168#64⟩) (.reg .rax), -- 45: mov [rsp + 8 * 21], rax
  .mov (.reg .rax) (.mem ⟨some .r10, none, 48#64⟩), -- 46: mov rax, [r10 + 8 * 6]
  .mov (.reg .rcx) (.mem ⟨some .r11, none, 48#64⟩), -- 47: mov rcx, [r11 + 8 * 6]
  .cmov .nz .rax (.reg .rcx), -- 48: cmovnz rax, rcx
  .mov (.mem ⟨some .rsp, none, 176#64⟩) (.reg .rax), -- 49: mov [rsp + 8 * 22], rax
  .mov (.reg .rax) (.mem ⟨some .r10, none, 56#64⟩), -- 50: mov rax, [r10 + 8 * 7]
  .mov (.reg .rcx) (.mem ⟨some .r11, none, 56#64⟩), -- 51: mov rcx, [r11 + 8 * 7]
  .cmov .nz .rax (.reg .rcx), -- 52: cmovnz rax, rcx
  .mov (.mem ⟨some .rsp, none, 184#64⟩) (.reg .rax), -- 53: mov [rsp + 8 * 23], rax
  .mov (.reg .rax) (.imm 1#64), -- 54: mov eax, 1
  .mov (.mem ⟨some .rsp, none, 192#64⟩) (.reg .rax), -- 55: mov [rsp + 8 * 24], rax
  .mov (.reg .rax) (.imm 0#64), -- 56: mov eax, 0
  .mov (.mem ⟨some .rsp, none, 200#64⟩) (.reg .rax), -- 57: mov [rsp + 8 * 25], rax
  .mov (.mem ⟨some .rsp, none, 208#64⟩) (.reg .rax), -- 58: mov [rsp + 8 * 26], rax
  .mov (.mem ⟨some .rsp, none, 216#64⟩) (.reg .rax), -- 59: mov [rsp + 8 * 27], rax
  .mov (.reg .rax) (.mem ⟨some .r10, none, 64#64⟩), -- 60: mov rax, [r10 + 8 * 8]
  .mov (.reg .rcx) (.mem ⟨some .r11, none, 64#64⟩), -- 61: mov rcx, [r11 + 8 * 8]
  .cmov .nz .rax (.reg .rcx), -- 62: cmovnz rax, rcx
  .mov (.mem ⟨some .rsp, none, 224#64⟩) (.reg .rax), -- 63: mov [rsp + 8 * 28], rax
  .mov (.reg .rax) (.mem ⟨some .r10, none, 72#64⟩), -- 64: mov rax, [r10 + 8 * 9]
  .mov (.reg .rcx) (.mem ⟨some .r11, none, 72#64⟩), -- 65: mov rcx, [r11 + 8 * 9]
  .cmov .nz .rax (.reg .rcx), -- 66: cmovnz rax, rcx
  .mov (.mem ⟨some .rsp, none, 232#64⟩) (.reg .rax), -- 67: mov [rsp + 8 * 29], rax
  .mov (.reg .rax) (.mem ⟨some .r10, none, 80#64⟩), -- 68: mov rax, [r10 + 8 * 10]
  .mov (.reg .rcx) (.mem ⟨some .r11, none, 80#64⟩), -- 69: mov rcx, [r11 + 8 * 10]
  .cmov .nz .rax (.reg .rcx), -- 70: cmovnz rax, rcx
  .mov (.mem ⟨some .rsp, none, 240#64⟩) (.reg .rax), -- 71: mov [rsp + 8 * 30], rax
  .mov (.reg .rax) (.mem ⟨some .r10, none, 88#64⟩), -- 72: mov rax, [r10 + 8 * 11]
  .mov (.reg .rcx) (.mem ⟨some .r11, none, 88#64⟩), -- 73: mov rcx, [r11 + 8 * 11]
  .cmov .nz .rax (.reg .rcx), -- 74: cmovnz rax, rcx
  .mov (.mem ⟨some .rsp, none, 248#64⟩) (.reg .rax), -- 75: mov [rsp + 8 * 31], rax
  .mov (.mem ⟨some .rsp, none, 456#64⟩) (.imm 4#64), -- 76: mov QWORD PTR [rsp + 14 * 32+ 8], 4
  .leaSym .rax 2, -- 77: lea rax, [rip + {Lcurve25519_x25519base_edwards25519_gtable}]
  .mov (.mem ⟨some .rsp, none, 480#64⟩) (.reg .rax), -- 78: mov QWORD PTR [rsp + 15 * 32], rax
  .mov (.mem ⟨some .rsp, none, 464#64⟩) (.imm 0#64), -- 79: mov QWORD PTR [rsp + 14 * 32+ 16], 0
  .mov (.reg .rax) (.mem ⟨some .rsp, none, 456#64⟩), -- 80: mov rax, QWORD PTR [rsp + 14 * 32+ 8]
  .mov (.reg .rcx) (.reg .rax), -- 81: mov rcx, rax
  .shr (.reg .rax) (.imm 6#64), -- 82: shr rax, 6
  .mov (.reg .rax) (.mem ⟨some .rsp, some (.rax, 8#64), 0#64⟩), -- 83: mov rax, [rsp + 8 * rax]
  .shr (.reg .rax) (.reg .rcx), -- 84: shr rax, cl
  .and (.reg .rax) (.imm 15#64), -- 85: and rax, 15
  .add (.reg .rax) (.mem ⟨some .rsp, none, 464#64⟩), -- 86: add rax, QWORD PTR [rsp + 14 * 32+ 16]
  .mov (.mem ⟨some .rsp, none, 472#64⟩) (.reg .rax), -- 87: mov QWORD PTR [rsp + 14 * 32+ 24], rax
  .cmp (.mem ⟨some .rsp, none, 472#64⟩) (.imm 9#64), -- 88: cmp QWORD PTR [rsp + 14 * 32+ 24], 9
  .sbb (.reg .rax) (.reg .rax), -- 89: sbb rax, rax
  .inc (.reg .rax), -- 90: inc rax
  .mov (.mem ⟨some .rsp, none, 464#64⟩) (.reg .rax), -- 91: mov QWORD PTR [rsp + 14 * 32+ 16], rax
  .mov (.reg .rdi) (.imm 16#64), -- 92: mov rdi, 16
  .sub (.reg .rdi) (.mem ⟨some .rsp, none, 472#64⟩), -- 93: sub rdi, QWORD PTR [rsp + 14 * 32+ 24]
  .cmp (.mem ⟨some .rsp, none, 464#64⟩) (.imm 0#64), -- 94: cmp QWORD PTR [rsp + 14 * 32+ 16], 0
  .cmov .zr .rdi (.mem ⟨some .rsp, none, 472#64⟩), -- 95: cmovz rdi, QWORD PTR [rsp + 14 * 32+ 24]
  .mov (.mem ⟨some .rsp, none, 472#64⟩) (.reg .rdi), -- 96: mov QWORD PTR [rsp + 14 * 32+ 24], rdi
  .mov (.reg .rax) (.imm 1#64), -- 97: mov eax, 1
  .xor (.reg .rbx) (.reg .rbx), -- 98: xor ebx, ebx
  .xor (.reg .rcx) (.reg .rcx), -- 99: xor ecx, ecx
  .xor (.reg .rdx) (.reg .rdx), -- 100: xor edx, edx
  .mov (.reg .r8) (.imm 1#64), -- 101: mov r8d, 1
  .xor (.reg .r9) (.reg .r9), -- 102: xor r9d, r9d
  .xor (.reg .r10) (.reg .r10), -- 103: xor r10d, r10d
  .xor (.reg .r11) (.reg .r11), -- 104: xor r11d, r11d
  .xor (.reg .r12) (.reg .r12), -- 105: xor r12d, r12d
  .xor (.reg .r13) (.reg .r13), -- 106: xor r13d, r13d
  .xor (.reg .r14) (.reg .r14), -- 107: xor r14d, r14d
  .xor (.reg .r15) (.reg .r15), -- 108: xor r15d, r15d
  .mov (.reg .rbp) (.mem ⟨some .rsp, none, 480#64⟩), -- 109: mov rbp, QWORD PTR [rsp + 15 * 32]
  .cmp (.mem ⟨some .rsp, none, 472#64⟩) (.imm 1#64), -- 110: cmp QWORD PTR [rsp + 14 * 32+ 24], 1
  .mov (.reg .rsi) (.mem ⟨some .rbp, none, 0#64⟩), -- 111: mov rsi, [rbp]
  .cmov .zr .rax (.reg .rsi), -- 112: cmovz rax, rsi
  .mov (.reg .rsi) (.mem ⟨some .rbp, none, 8#64⟩), -- 113: mov rsi, [rbp + 8]
  .cmov .zr .rbx (.reg .rsi), -- 114: cmovz rbx, rsi
  .mov (.reg .rsi) (.mem ⟨some .rbp, none, 16#64⟩), -- 115: mov rsi, [rbp + 16]
  .cmov .zr .rcx (.reg .rsi), -- 116: cmovz rcx, rsi
  .mov (.reg .rsi) (.mem ⟨some .rbp, none, 24#64⟩), -- 117: mov rsi, [rbp + 24]
  .cmov .zr .rdx (.reg .rsi), -- 118: cmovz rdx, rsi
  .mov (.reg .rsi) (.mem ⟨some .rbp, none, 32#64⟩), -- 119: mov rsi, [rbp + 32]
  .cmov .zr .r8 (.reg .rsi), -- 120: cmovz r8, rsi
  .mov (.reg .rsi) (.mem ⟨some .rbp, none, 40#64⟩), -- 121: mov rsi, [rbp + 40]
  .cmov .zr .r9 (.reg .rsi), -- 122: cmovz r9, rsi
  .mov (.reg .rsi) (.mem ⟨some .rbp, none, 48#64⟩), -- 123: mov rsi, [rbp + 48]
  .cmov .zr .r10 (.reg .rsi), -- 124: cmovz r10, rsi
  .mov (.reg .rsi) (.mem ⟨some .rbp, none, 56#64⟩), -- 125: mov rsi, [rbp + 56]
  .cmov .zr .r11 (.reg .rsi), -- 126: cmovz r11, rsi
  .mov (.reg .rsi) (.mem ⟨some .rbp, none, 64#64⟩), -- 127: mov rsi, [rbp + 64]
  .cmov .zr .r12 (.reg .rsi), -- 128: cmovz r12, rsi
  .mov (.reg .rsi) (.mem ⟨some .rbp, none, 72#64⟩), -- 129: mov rsi, [rbp + 72]
  .cmov .zr .r13 (.reg .rsi), -- 130: cmovz r13, rsi
  .mov (.reg .rsi) (.mem ⟨some .rbp, none, 80#64⟩), -- 131: mov rsi, [rbp + 80]
  .cmov .zr .r14 (.reg .rsi), -- 132: cmovz r14, rsi
  .mov (.reg .rsi) (.mem ⟨some .rbp, none, 88#64⟩), -- 133: mov rsi, [rbp + 88]
  .cmov .zr .r15 (.reg .rsi), -- 134: cmovz r15, rsi
  .add (.reg .rbp) (.imm 96#64), -- 135: add rbp, 96
  .cmp (.mem ⟨some .rsp, none, 472#64⟩) (.imm 2#64), -- 136: cmp QWORD PTR [rsp + 14 * 32+ 24], 2
  .mov (.reg .rsi) (.mem ⟨some .rbp, none, 0#64⟩), -- 137: mov rsi, [rbp]
  .cmov .zr .rax (.reg .rsi), -- 138: cmovz rax, rsi
  .mov (.reg .rsi) (.mem ⟨some .rbp, none, 8#64⟩), -- 139: mov rsi, [rbp + 8]
  .cmov .zr .rbx (.reg .rsi), -- 140: cmovz rbx, rsi
  .mov (.reg .rsi) (.mem ⟨some .rbp, none, 16#64⟩), -- 141: mov rsi, [rbp + 16]
  .cmov .zr .rcx (.reg .rsi), -- 142: cmovz rcx, rsi
  .mov (.reg .rsi) (.mem ⟨some .rbp, none, 24#64⟩), -- 143: mov rsi, [rbp + 24]
  .cmov .zr .rdx (.reg .rsi), -- 144: cmovz rdx, rsi
  .mov (.reg .rsi) (.mem ⟨some .rbp, none, 32#64⟩), -- 145: mov rsi, [rbp + 32]
  .cmov .zr .r8 (.reg .rsi), -- 146: cmovz r8, rsi
  .mov (.reg .rsi) (.mem ⟨some .rbp, none, 40#64⟩), -- 147: mov rsi, [rbp + 40]
  .cmov .zr .r9 (.reg .rsi), -- 148: cmovz r9, rsi
  .mov (.reg .rsi) (.mem ⟨some .rbp, none, 48#64⟩), -- 149: mov rsi, [rbp + 48]
  .cmov .zr .r10 (.reg .rsi), -- 150: cmovz r10, rsi
  .mov (.reg .rsi) (.mem ⟨some .rbp, none, 56#64⟩), -- 151: mov rsi, [rbp + 56]
  .cmov .zr .r11 (.reg .rsi), -- 152: cmovz r11, rsi
  .mov (.reg .rsi) (.mem ⟨some .rbp, none, 64#64⟩), -- 153: mov rsi, [rbp + 64]
  .cmov .zr .r12 (.reg .rsi), -- 154: cmovz r12, rsi
  .mov (.reg .rsi) (.mem ⟨some .rbp, none, 72#64⟩), -- 155: mov rsi, [rbp + 72]
  .cmov .zr .r13 (.reg .rsi), -- 156: cmovz r13, rsi
  .mov (.reg .rsi) (.mem ⟨some .rbp, none, 80#64⟩), -- 157: mov rsi, [rbp + 80]
  .cmov .zr .r14 (.reg .rsi), -- 158: cmovz r14, rsi
  .mov (.reg .rsi) (.mem ⟨some .rbp, none, 88#64⟩), -- 159: mov rsi, [rbp + 88]
  .cmov .zr .r15 (.reg .rsi), -- 160: cmovz r15, rsi
  .add (.reg .rbp) (.imm 96#64), -- 161: add rbp, 96
  .cmp (.mem ⟨some .rsp, none, 472#64⟩) (.imm 3#64), -- 162: cmp QWORD PTR [rsp + 14 * 32+ 24], 3
  .mov (.reg .rsi) (.mem ⟨some .rbp, none, 0#64⟩), -- 163: mov rsi, [rbp]
  .cmov .zr .rax (.reg .rsi), -- 164: cmovz rax, rsi
  .mov (.reg .rsi) (.mem ⟨some .rbp, none, 8#64⟩), -- 165: mov rsi, [rbp + 8]
  .cmov .zr .rbx (.reg .rsi), -- 166: cmovz rbx, rsi
  .mov (.reg .rsi) (.mem ⟨some .rbp, none, 16#64⟩), -- 167: mov rsi, [rbp + 16]
  .cmov .zr .rcx (.reg .rsi), -- 168: cmovz rcx, rsi
  .mov (.reg .rsi) (.mem ⟨some .rbp, none, 24#64⟩), -- 169: mov rsi, [rbp + 24]
  .cmov .zr .rdx (.reg .rsi), -- 170: cmovz rdx, rsi
  .mov (.reg .rsi) (.mem ⟨some .rbp, none, 32#64⟩), -- 171: mov rsi, [rbp + 32]
  .cmov .zr .r8 (.reg .rsi), -- 172: cmovz r8, rsi
  .mov (.reg .rsi) (.mem ⟨some .rbp, none, 40#64⟩), -- 173: mov rsi, [rbp + 40]
  .cmov .zr .r9 (.reg .rsi), -- 174: cmovz r9, rsi
  .mov (.reg .rsi) (.mem ⟨some .rbp, none, 48#64⟩), -- 175: mov rsi, [rbp + 48]
  .cmov .zr .r10 (.reg .rsi), -- 176: cmovz r10, rsi
  .mov (.reg .rsi) (.mem ⟨some .rbp, none, 56#64⟩), -- 177: mov rsi, [rbp + 56]
  .cmov .zr .r11 (.reg .rsi), -- 178: cmovz r11, rsi
  .mov (.reg .rsi) (.mem ⟨some .rbp, none, 64#64⟩), -- 179: mov rsi, [rbp + 64]
  .cmov .zr .r12 (.reg .rsi), -- 180: cmovz r12, rsi
  .mov (.reg .rsi) (.mem ⟨some .rbp, none, 72#64⟩), -- 181: mov rsi, [rbp + 72]
  .cmov .zr .r13 (.reg .rsi), -- 182: cmovz r13, rsi
  .mov (.reg .rsi) (.mem ⟨some .rbp, none, 80#64⟩), -- 183: mov rsi, [rbp + 80]
  .cmov .zr .r14 (.reg .rsi), -- 184: cmovz r14, rsi
  .mov (.reg .rsi) (.mem ⟨some .rbp, none, 88#64⟩), -- 185: mov rsi, [rbp + 88]
  .cmov .zr .r15 (.reg .rsi), -- 186: cmovz r15, rsi
  .add (.reg .rbp) (.imm 96#64), -- 187: add rbp, 96
  .cmp (.mem ⟨some .rsp, none, 472#64⟩) (.imm 4#64), -- 188: cmp QWORD PTR [rsp + 14 * 32+ 24], 4
  .mov (.reg .rsi) (.mem ⟨some .rbp, none, 0#64⟩), -- 189: mov rsi, [rbp]
  .cmov .zr .rax (.reg .rsi), -- 190: cmovz rax, rsi
  .mov (.reg .rsi) (.mem ⟨some .rbp, none, 8#64⟩), -- 191: mov rsi, [rbp + 8]
  .cmov .zr .rbx (.reg .rsi), -- 192: cmovz rbx, rsi
  .mov (.reg .rsi) (.mem ⟨some .rbp, none, 16#64⟩), -- 193: mov rsi, [rbp + 16]
  .cmov .zr .rcx (.reg .rsi), -- 194: cmovz rcx, rsi
  .mov (.reg .rsi) (.mem ⟨some .rbp, none, 24#64⟩), -- 195: mov rsi, [rbp + 24]
  .cmov .zr .rdx (.reg .rsi), -- 196: cmovz rdx, rsi
  .mov (.reg .rsi) (.mem ⟨some .rbp, none, 32#64⟩), -- 197: mov rsi, [rbp + 32]
  .cmov .zr .r8 (.reg .rsi), -- 198: cmovz r8, rsi
  .mov (.reg .rsi) (.mem ⟨some .rbp, none, 40#64⟩), -- 199: mov rsi, [rbp + 40]
  .cmov .zr .r9 (.reg .rsi), -- 200: cmovz r9, rsi
  .mov (.reg .rsi) (.mem ⟨some .rbp, none, 48#64⟩), -- 201: mov rsi, [rbp + 48]
  .cmov .zr .r10 (.reg .rsi), -- 202: cmovz r10, rsi
  .mov (.reg .rsi) (.mem ⟨some .rbp, none, 56#64⟩), -- 203: mov rsi, [rbp + 56]
  .cmov .zr .r11 (.reg .rsi), -- 204: cmovz r11, rsi
  .mov (.reg .rsi) (.mem ⟨some .rbp, none, 64#64⟩), -- 205: mov rsi, [rbp + 64]
  .cmov .zr .r12 (.reg .rsi), -- 206: cmovz r12, rsi
  .mov (.reg .rsi) (.mem ⟨some .rbp, none, 72#64⟩), -- 207: mov rsi, [rbp + 72]
  .cmov .zr .r13 (.reg .rsi), -- 208: cmovz r13, rsi
  .mov (.reg .rsi) (.mem ⟨some .rbp, none, 80#64⟩), -- 209: mov rsi, [rbp + 80]
  .cmov .zr .r14 (.reg .rsi), -- 210: cmovz r14, rsi
  .mov (.reg .rsi) (.mem ⟨some .rbp, none, 88#64⟩), -- 211: mov rsi, [rbp + 88]
  .cmov .zr .r15 (.reg .rsi), -- 212: cmovz r15, rsi
  .add (.reg .rbp) (.imm 96#64), -- 213: add rbp, 96
  .cmp (.mem ⟨some .rsp, none, 472#64⟩) (.imm 5#64), -- 214: cmp QWORD PTR [rsp + 14 * 32+ 24], 5
  .mov (.reg .rsi) (.mem ⟨some .rbp, none, 0#64⟩), -- 215: mov rsi, [rbp]
  .cmov .zr .rax (.reg .rsi), -- 216: cmovz rax, rsi
  .mov (.reg .rsi) (.mem ⟨some .rbp, none, 8#64⟩), -- 217: mov rsi, [rbp + 8]
  .cmov .zr .rbx (.reg .rsi), -- 218: cmovz rbx, rsi
  .mov (.reg .rsi) (.mem ⟨some .rbp, none, 16#64⟩), -- 219: mov rsi, [rbp + 16]
  .cmov .zr .rcx (.reg .rsi), -- 220: cmovz rcx, rsi
  .mov (.reg .rsi) (.mem ⟨some .rbp, none, 24#64⟩), -- 221: mov rsi, [rbp + 24]
  .cmov .zr .rdx (.reg .rsi), -- 222: cmovz rdx, rsi
  .mov (.reg .rsi) (.mem ⟨some .rbp, none, 32#64⟩), -- 223: mov rsi, [rbp + 32]
  .cmov .zr .r8 (.reg .rsi), -- 224: cmovz r8, rsi
  .mov (.reg .rsi) (.mem ⟨some .rbp, none, 40#64⟩), -- 225: mov rsi, [rbp + 40]
  .cmov .zr .r9 (.reg .rsi), -- 226: cmovz r9, rsi
  .mov (.reg .rsi) (.mem ⟨some .rbp, none, 48#64⟩), -- 227: mov rsi, [rbp + 48]
  .cmov .zr .r10 (.reg .rsi), -- 228: cmovz r10, rsi
  .mov (.reg .rsi) (.mem ⟨some .rbp, none, 56#64⟩), -- 229: mov rsi, [rbp + 56]
  .cmov .zr .r11 (.reg .rsi), -- 230: cmovz r11, rsi
  .mov (.reg .rsi) (.mem ⟨some .rbp, none, 64#64⟩), -- 231: mov rsi, [rbp + 64]
  .cmov .zr .r12 (.reg .rsi), -- 232: cmovz r12, rsi
  .mov (.reg .rsi) (.mem ⟨some .rbp, none, 72#64⟩), -- 233: mov rsi, [rbp + 72]
  .cmov .zr .r13 (.reg .rsi), -- 234: cmovz r13, rsi
  .mov (.reg .rsi) (.mem ⟨some .rbp, none, 80#64⟩), -- 235: mov rsi, [rbp + 80]
  .cmov .zr .r14 (.reg .rsi), -- 236: cmovz r14, rsi
  .mov (.reg .rsi) (.mem ⟨some .rbp, none, 88#64⟩), -- 237: mov rsi, [rbp + 88]
  .cmov .zr .r15 (.reg .rsi), -- 238: cmovz r15, rsi
  .add (.reg .rbp) (.imm 96#64), -- 239: add rbp, 96
  .cmp (.mem ⟨some .rsp, none, 472#64⟩) (.imm 6#64), -- 240: cmp QWORD PTR [rsp + 14 * 32+ 24], 6
  .mov (.reg .rsi) (.mem ⟨some .rbp, none, 0#64⟩), -- 241: mov rsi, [rbp]
  .cmov .zr .rax (.reg .rsi), -- 242: cmovz rax, rsi
  .mov (.reg .rsi) (.mem ⟨some .rbp, none, 8#64⟩), -- 243: mov rsi, [rbp + 8]
  .cmov .zr .rbx (.reg .rsi), -- 244: cmovz rbx, rsi
  .mov (.reg .rsi) (.mem ⟨some .rbp, none, 16#64⟩), -- 245: mov rsi, [rbp + 16]
  .cmov .zr .rcx (.reg .rsi), -- 246: cmovz rcx, rsi
  .mov (.reg .rsi) (.mem ⟨some .rbp, none, 24#64⟩), -- 247: mov rsi, [rbp + 24]
  .cmov .zr .rdx (.reg .rsi), -- 248: cmovz rdx, rsi
  .mov (.reg .rsi) (.mem ⟨some .rbp, none, 32#64⟩), -- 249: mov rsi, [rbp + 32]
  .cmov .zr .r8 (.reg .rsi), -- 250: cmovz r8, rsi
  .mov (.reg .rsi) (.mem ⟨some .rbp, none, 40#64⟩), -- 251: mov rsi, [rbp + 40]
  .cmov .zr .r9 (.reg .rsi), -- 252: cmovz r9, rsi
  .mov (.reg .rsi) (.mem ⟨some .rbp, none, 48#64⟩), -- 253: mov rsi, [rbp + 48]
  .cmov .zr .r10 (.reg .rsi), -- 254: cmovz r10, rsi
  .mov (.reg .rsi) (.mem ⟨some .rbp, none, 56#64⟩), -- 255: mov rsi, [rbp + 56]
  .cmov .zr .r11 (.reg .rsi), -- 256: cmovz r11, rsi
  .mov (.reg .rsi) (.mem ⟨some .rbp, none, 64#64⟩), -- 257: mov rsi, [rbp + 64]
  .cmov .zr .r12 (.reg .rsi), -- 258: cmovz r12, rsi
  .mov (.reg .rsi) (.mem ⟨some .rbp, none, 72#64⟩), -- 259: mov rsi, [rbp + 72]
  .cmov .zr .r13 (.reg .rsi), -- 260: cmovz r13, rsi
  .mov (.reg .rsi) (.mem ⟨some .rbp, none, 80#64⟩), -- 261: mov rsi, [rbp + 80]
  .cmov .zr .r14 (.reg .rsi), -- 262: cmovz r14, rsi
  .mov (.reg .rsi) (.mem ⟨some .rbp, none, 88#64⟩), -- 263: mov rsi, [rbp + 88]
  .cmov .zr .r15 (.reg .rsi), -- 264: cmovz r15, rsi
  .add (.reg .rbp) (.imm 96#64), -- 265: add rbp, 96
  .cmp (.mem ⟨some .rsp, none, 472#64⟩) (.imm 7#64), -- 266: cmp QWORD PTR [rsp + 14 * 32+ 24], 7
  .mov (.reg .rsi) (.mem ⟨some .rbp, none, 0#64⟩), -- 267: mov rsi, [rbp]
  .cmov .zr .rax (.reg .rsi), -- 268: cmovz rax, rsi
  .mov (.reg .rsi) (.mem ⟨some .rbp, none, 8#64⟩), -- 269: mov rsi, [rbp + 8]
  .cmov .zr .rbx (.reg .rsi), -- 270: cmovz rbx, rsi
  .mov (.reg .rsi) (.mem ⟨some .rbp, none, 16#64⟩), -- 271: mov rsi, [rbp + 16]
  .cmov .zr .rcx (.reg .rsi), -- 272: cmovz rcx, rsi
  .mov (.reg .rsi) (.mem ⟨some .rbp, none, 24#64⟩), -- 273: mov rsi, [rbp + 24]
  .cmov .zr .rdx (.reg .rsi), -- 274: cmovz rdx, rsi
  .mov (.reg .rsi) (.mem ⟨some .rbp, none, 32#64⟩), -- 275: mov rsi, [rbp + 32]
  .cmov .zr .r8 (.reg .rsi), -- 276: cmovz r8, rsi
  .mov (.reg .rsi) (.mem ⟨some .rbp, none, 40#64⟩), -- 277: mov rsi, [rbp + 40]
  .cmov .zr .r9 (.reg .rsi), -- 278: cmovz r9, rsi
  .mov (.reg .rsi) (.mem ⟨some .rbp, none, 48#64⟩), -- 279: mov rsi, [rbp + 48]
  .cmov .zr .r10 (.reg .rsi), -- 280: cmovz r10, rsi
  .mov (.reg .rsi) (.mem ⟨some .rbp, none, 56#64⟩), -- 281: mov rsi, [rbp + 56]
  .cmov .zr .r11 (.reg .rsi), -- 282: cmovz r11, rsi
  .mov (.reg .rsi) (.mem ⟨some .rbp, none, 64#64⟩), -- 283: mov rsi, [rbp + 64]
  .cmov .zr .r12 (.reg .rsi), -- 284: cmovz r12, rsi
  .mov (.reg .rsi) (.mem ⟨some .rbp, none, 72#64⟩), -- 285: mov rsi, [rbp + 72]
  .cmov .zr .r13 (.reg .rsi), -- 286: cmovz r13, rsi
  .mov (.reg .rsi) (.mem ⟨some .rbp, none, 80#64⟩), -- 287: mov rsi, [rbp + 80]
  .cmov .zr .r14 (.reg .rsi), -- 288: cmovz r14, rsi
  .mov (.reg .rsi) (.mem ⟨some .rbp, none, 88#64⟩), -- 289: mov rsi, [rbp + 88]
  .cmov .zr .r15 (.reg .rsi), -- 290: cmovz r15, rsi
  .add (.reg .rbp) (.imm 96#64), -- 291: add rbp, 96
  .cmp (.mem ⟨some .rsp, none, 472#64⟩) (.imm 8#64), -- 292: cmp QWORD PTR [rsp + 14 * 32+ 24], 8
  .mov (.reg .rsi) (.mem ⟨some .rbp, none, 0#64⟩), -- 293: mov rsi, [rbp]
  .cmov .zr .rax (.reg .rsi), -- 294: cmovz rax, rsi
  .mov (.reg .rsi) (.mem ⟨some .rbp, none, 8#64⟩), -- 295: mov rsi, [rbp + 8]
  .cmov .zr .rbx (.reg .rsi), -- 296: cmovz rbx, rsi
  .mov (.reg .rsi) (.mem ⟨some .rbp, none, 16#64⟩), -- 297: mov rsi, [rbp + 16]
  .cmov .zr .rcx (.reg .rsi), -- 298: cmovz rcx, rsi
  .mov (.reg .rsi) (.mem ⟨some .rbp, none, 24#64⟩), -- 299: mov rsi, [rbp + 24]
  .cmov .zr .rdx (.reg .rsi), -- 300: cmovz rdx, rsi
  .mov (.reg .rsi) (.mem ⟨some .rbp, none, 32#64⟩), -- 301: mov rsi, [rbp + 32]
  .cmov .zr .r8 (.reg .rsi), -- 302: cmovz r8, rsi
  .mov (.reg .rsi) (.mem ⟨some .rbp, none, 40#64⟩), -- 303: mov rsi, [rbp + 40]
  .cmov .zr .r9 (.reg .rsi), -- 304: cmovz r9, rsi
  .mov (.reg .rsi) (.mem ⟨some .rbp, none, 48#64⟩), -- 305: mov rsi, [rbp + 48]
  .cmov .zr .r10 (.reg .rsi), -- 306: cmovz r10, rsi
  .mov (.reg .rsi) (.mem ⟨some .rbp, none, 56#64⟩), -- 307: mov rsi, [rbp + 56]
  .cmov .zr .r11 (.reg .rsi), -- 308: cmovz r11, rsi
  .mov (.reg .rsi) (.mem ⟨some .rbp, none, 64#64⟩), -- 309: mov rsi, [rbp + 64]
  .cmov .zr .r12 (.reg .rsi), -- 310: cmovz r12, rsi
  .mov (.reg .rsi) (.mem ⟨some .rbp, none, 72#64⟩), -- 311: mov rsi, [rbp + 72]
  .cmov .zr .r13 (.reg .rsi), -- 312: cmovz r13, rsi
  .mov (.reg .rsi) (.mem ⟨some .rbp, none, 80#64⟩), -- 313: mov rsi, [rbp + 80]
  .cmov .zr .r14 (.reg .rsi), -- 314: cmovz r14, rsi
  .mov (.reg .rsi) (.mem ⟨some .rbp, none, 88#64⟩), -- 315: mov rsi, [rbp + 88]
  .cmov .zr .r15 (.reg .rsi), -- 316: cmovz r15, rsi
  .add (.reg .rbp) (.imm 96#64), -- 317: add rbp, 96
  .mov (.mem ⟨some .rsp, none, 480#64⟩) (.reg .rbp), -- 318: mov QWORD PTR [rsp + 15 * 32], rbp
  .cmp (.mem ⟨some .rsp, none, 464#64⟩) (.imm 0#64), -- 319: cmp QWORD PTR [rsp + 14 * 32+ 16], 0
  .mov (.reg .rsi) (.reg .rax), -- 320: mov rsi, rax
  .cmov .nz .rsi (.reg .r8), -- 321: cmovnz rsi, r8
  .cmov .nz .r8 (.reg .rax), -- 322: cmovnz r8, rax
  .mov (.mem ⟨some .rsp, none, 32#64⟩) (.reg .rsi), -- 323: mov [rsp + 32], rsi
  .mov (.mem ⟨some .rsp, none, 64#64⟩) (.reg .r8), -- 324: mov [rsp + 64], r8
  .mov (.reg .rsi) (.reg .rbx), -- 325: mov rsi, rbx
  .cmov .nz .rsi (.reg .r9), -- 326: cmovnz rsi, r9
  .cmov .nz .r9 (.reg .rbx), -- 327: cmovnz r9, rbx
  .mov (.mem ⟨some .rsp, none, 40#64⟩) (.reg .rsi), -- 328: mov [rsp + 40], rsi
  .mov (.mem ⟨some .rsp, none, 72#64⟩) (.reg .r9), -- 329: mov [rsp + 72], r9
  .mov (.reg .rsi) (.reg .rcx), -- 330: mov rsi, rcx
  .cmov .nz .rsi (.reg .r10), -- 331: cmovnz rsi, r10
  .cmov .nz .r10 (.reg .rcx), -- 332: cmovnz r10, rcx
  .mov (.mem ⟨some .rsp, none, 48#64⟩) (.reg .rsi), -- 333: mov [rsp + 48], rsi
  .mov (.mem ⟨some .rsp, none, 80#64⟩) (.reg .r10), -- 334: mov [rsp + 80], r10
  .mov (.reg .rsi) (.reg .rdx), -- 335: mov rsi, rdx
  .cmov .nz .rsi (.reg .r11), -- 336: cmovnz rsi, r11
  .cmov .nz .r11 (.reg .rdx), -- 337: cmovnz r11, rdx
  .mov (.mem ⟨some .rsp, none, 56#64⟩) (.reg .rsi), -- 338: mov [rsp + 56], rsi
  .mov (.mem ⟨some .rsp, none, 88#64⟩) (.reg .r11), -- 339: mov [rsp + 88], r11
  .mov (.reg .rax) (.imm 0xffffffffffffffed#64), -- 340: mov rax, -19
  .mov (.reg .rbx) (.imm 0xffffffffffffffff#64), -- 341: mov rbx, -1
  .mov (.reg .rcx) (.imm 0xffffffffffffffff#64), -- 342: mov rcx, -1
  .mov (.reg .rdx) (.imm 0x7fffffffffffffff#64), -- 343: mov rdx, 0x7fffffffffffffff
  .sub (.reg .rax) (.reg .r12), -- 344: sub rax, r12
  .sbb (.reg .rbx) (.reg .r13), -- 345: sbb rbx, r13
  .sbb (.reg .rcx) (.reg .r14), -- 346: sbb rcx, r14
  .sbb (.reg .rdx) (.reg .r15), -- 347: sbb rdx, r15
  .mov (.reg .r8) (.mem ⟨some .rsp, none, 472#64⟩), -- 348: mov r8, QWORD PTR [rsp + 14 * 32+ 24]
  .mov (.reg .r9) (.mem ⟨some .rsp, none, 464#64⟩), -- 349: mov r9, QWORD PTR [rsp + 14 * 32+ 16]
  .test (.reg .r8) (.reg .r8), -- 350: test r8, r8
  .cmov .zr .r9 (.reg .r8), -- 351: cmovz r9, r8
  .test (.reg .r9) (.reg .r9), -- 352: test r9, r9
  .cmov .zr .rax (.reg .r12), -- 353: cmovz rax, r12
  .cmov .zr .rbx (.reg .r13), -- 354: cmovz rbx, r13
  .cmov .zr .rcx (.reg .r14), -- 355: cmovz rcx, r14
  .cmov .zr .rdx (.reg .r15), -- 356: cmovz rdx, r15
  .mov (.mem ⟨some .rsp, none, 96#64⟩) (.reg .rax), -- 357: mov [rsp + 96], rax
  .mov (.mem ⟨some .rsp, none, 104#64⟩) (.reg .rbx), -- 358: mov [rsp + 104], rbx
  .mov (.mem ⟨some .rsp, none, 112#64⟩) (.reg .rcx), -- 359: mov [rsp + 112], rcx
  .mov (.mem ⟨some .rsp, none, 120#64⟩) (.reg .rdx), -- 360: mov [rsp + 120], rdx
  .mov (.reg .r8) (.mem ⟨some .rsp, none, 192#64⟩), -- 361: mov r8, [rsp + (6 * 32)]
  .xor (.reg .rcx) (.reg .rcx), -- 362: xor ecx, ecx
  .add (.reg .r8) (.reg .r8), -- 363: add r8, r8
  .mov (.reg .r9) (.mem ⟨some .rsp, none, 200#64⟩), -- 364: mov r9, [rsp + (6 * 32)+ 0x8]
  .adc (.reg .r9) (.reg .r9), -- 365: adc r9, r9
  .mov (.reg .r10) (.mem ⟨some .rsp, none, 208#64⟩), -- 366: mov r10, [rsp + (6 * 32)+ 0x10]
  .adc (.reg .r10) (.reg .r10), -- 367: adc r10, r10
  .mov (.reg .r11) (.mem ⟨some .rsp, none, 216#64⟩), -- 368: mov r11, [rsp + (6 * 32)+ 0x18]
  .adc (.reg .r11) (.reg .r11), -- 369: adc r11, r11
  .mov (.reg .rax) (.imm 38#64), -- 370: mov eax, 38
  .cmov .nc .rax (.reg .rcx), -- 371: cmovnc rax, rcx
  .add (.reg .r8) (.reg .rax), -- 372: add r8, rax
  .adc (.reg .r9) (.reg .rcx), -- 373: adc r9, rcx
  .adc (.reg .r10) (.reg .rcx), -- 374: adc r10, rcx
  .adc (.reg .r11) (.reg .rcx), -- 375: adc r11, rcx
  .mov (.mem ⟨some .rsp, none, 256#64⟩) (.reg .r8), -- 376: mov [rsp + (8 * 32)], r8
  .mov (.mem ⟨some .rsp, none, 264#64⟩) (.reg .r9), -- 377: mov [rsp + (8 * 32)+ 0x8], r9
  .mov (.mem ⟨some .rsp, none, 272#64⟩) (.reg .r10), -- 378: mov [rsp + (8 * 32)+ 0x10], r10
  .mov (.mem ⟨some .rsp, none, 280#64⟩) (.reg .r11), -- 379: mov [rsp + (8 * 32)+ 0x18], r11
  .mov (.reg .r8) (.mem ⟨some .rsp, none, 160#64⟩), -- 380: mov r8, [rsp + (5 * 32)]
  .xor (.reg .rbx) (.reg .rbx), -- 381: xor ebx, ebx
  .sub (.reg .r8) (.mem ⟨some .rsp, none, 128#64⟩), -- 382: sub r8, [rsp + (4 * 32)]
  .mov (.reg .r9) (.mem ⟨some .rsp, none, 168#64⟩), -- 383: mov r9, [rsp + (5 * 32)+ 8]
  .sbb (.reg .r9) (.mem ⟨some .rsp, none, 136#64⟩), -- 384: sbb r9, [rsp + (4 * 32)+ 8]
  .mov (.reg .rcx) (.imm 38#64), -- 385: mov ecx, 38
  .mov (.reg .r10) (.mem ⟨some .rsp, none, 176#64⟩), -- 386: mov r10, [rsp + (5 * 32)+ 16]
  .sbb (.reg .r10) (.mem ⟨some .rsp, none, 144#64⟩), -- 387: sbb r10, [rsp + (4 * 32)+ 16]
  .mov (.reg .rax) (.mem ⟨some .rsp, none, 184#64⟩), -- 388: mov rax, [rsp + (5 * 32)+ 24]
  .sbb (.reg .rax) (.mem ⟨some .rsp, none, 152#64⟩), -- 389: sbb rax, [rsp + (4 * 32)+ 24]
  .cmov .nc .rcx (.reg .rbx), -- 390: cmovnc rcx, rbx
  .sub (.reg .r8) (.reg .rcx), -- 391: sub r8, rcx
  .sbb (.reg .r9) (.reg .rbx), -- 392: sbb r9, rbx
  .sbb (.reg .r10) (.reg .rbx), -- 393: sbb r10, rbx
  .sbb (.reg .rax) (.reg .rbx), -- 394: sbb rax, rbx
  .mov (.mem ⟨some .rsp, none, 288#64⟩) (.reg .r8), -- 395: mov [rsp + (9 * 32)], r8
  .mov (.mem ⟨some .rsp, none, 296#64⟩) (.reg .r9), -- 396: mov [rsp + (9 * 32)+ 8], r9
  .mov (.mem ⟨some .rsp, none, 304#64⟩) (.reg .r10), -- 397: mov [rsp + (9 * 32)+ 16], r10
  .mov (.mem ⟨some .rsp, none, 312#64⟩) (.reg .rax), -- 398: mov [rsp + (9 * 32)+ 24], rax
  .mov (.reg .r8) (.mem ⟨some .rsp, none, 160#64⟩), -- 399: mov r8, [rsp + (5 * 32)]
  .xor (.reg .rcx) (.reg .rcx), -- 400: xor ecx, ecx
  .add (.reg .r8) (.mem ⟨some .rsp, none, 128#64⟩), -- 401: add r8, [rsp + (4 * 32)]
  .mov (.reg .r9) (.mem ⟨some .rsp, none, 168#64⟩), -- 402: mov r9, [rsp + (5 * 32)+ 0x8]
  .adc (.reg .r9) (.mem ⟨some .rsp, none, 136#64⟩), -- 403: adc r9, [rsp + (4 * 32)+ 0x8]
  .mov (.reg .r10) (.mem ⟨some .rsp, none, 176#64⟩), -- 404: mov r10, [rsp + (5 * 32)+ 0x10]
  .adc (.reg .r10) (.mem ⟨some .rsp, none, 144#64⟩), -- 405: adc r10, [rsp + (4 * 32)+ 0x10]
  .mov (.reg .r11) (.mem ⟨some .rsp, none, 184#64⟩), -- 406: mov r11, [rsp + (5 * 32)+ 0x18]
  .adc (.reg .r11) (.mem ⟨some .rsp, none, 152#64⟩), -- 407: adc r11, [rsp + (4 * 32)+ 0x18]
  .mov (.reg .rax) (.imm 38#64), -- 408: mov eax, 38
  .cmov .nc .rax (.reg .rcx), -- 409: cmovnc rax, rcx
  .add (.reg .r8) (.reg .rax), -- 410: add r8, rax
  .adc (.reg .r9) (.reg .rcx), -- 411: adc r9, rcx
  .adc (.reg .r10) (.reg .rcx), -- 412: adc r10, rcx
  .adc (.reg .r11) (.reg .rcx), -- 413: adc r11, rcx
  .mov (.mem ⟨some .rsp, none, 320#64⟩) (.reg .r8), -- 414: mov [rsp + (10 * 32)], r8
  .mov (.mem ⟨some .rsp, none, 328#64⟩) (.reg .r9), -- 415: mov [rsp + (10 * 32)+ 0x8], r9
  .mov (.mem ⟨some .rsp, none, 336#64⟩) (.reg .r10), -- 416: mov [rsp + (10 * 32)+ 0x10], r10
  .mov (.mem ⟨some .rsp, none, 344#64⟩) (.reg .r11), -- 417: mov [rsp + (10 * 32)+ 0x18], r11
  .xor (.reg .rcx) (.reg .rcx), -- 418: xor ecx, ecx
  .mov (.reg .rdx) (.mem ⟨some .rsp, none, 96#64⟩), -- 419: mov rdx, [rsp + (3 * 32)]
  .mulx .r9 .r8 (.mem ⟨some .rsp, none, 224#64⟩), -- 420: mulx r9, r8, [rsp + (7 * 32)]
  .mulx .r10 .rax (.mem ⟨some .rsp, none, 232#64⟩), -- 421: mulx r10, rax, [rsp + (7 * 32)+ 0x8]
  .add (.reg .r9) (.reg .rax), -- 422: add r9, rax
  .mulx .r11 .rax (.mem ⟨some .rsp, none, 240#64⟩), -- 423: mulx r11, rax, [rsp + (7 * 32)+ 0x10]
  .adc (.reg .r10) (.reg .rax), -- 424: adc r10, rax
  .mulx .r12 .rax (.mem ⟨some .rsp, none, 248#64⟩), -- 425: mulx r12, rax, [rsp + (7 * 32)+ 0x18]
  .adc (.reg .r11) (.reg .rax), -- 426: adc r11, rax
  .adc (.reg .r12) (.reg .rcx), -- 427: adc r12, rcx
  .xor (.reg .rcx) (.reg .rcx), -- 428: xor ecx, ecx
  .mov (.reg .rdx) (.mem ⟨some .rsp, none, 104#64⟩), -- 429: mov rdx, [rsp + (3 * 32)+ 0x8]
  .mulx .rbx .rax (.mem ⟨some .rsp, none, 224#64⟩), -- 430: mulx rbx, rax, [rsp + (7 * 32)]
  .adcx .r9 (.reg .rax), -- 431: adcx r9, rax
  .adox .r10 (.reg .rbx), -- 432: adox r10, rbx
  .mulx .rbx .rax (.mem ⟨some .rsp, none, 232#64⟩), -- 433: mulx rbx, rax, [rsp + (7 * 32)+ 0x8]
  .adcx .r10 (.reg .rax), -- 434: adcx r10, rax
  .adox .r11 (.reg .rbx), -- 435: adox r11, rbx
  .mulx .rbx .rax (.mem ⟨some .rsp, none, 240#64⟩), -- 436: mulx rbx, rax, [rsp + (7 * 32)+ 0x10]
  .adcx .r11 (.reg .rax), -- 437: adcx r11, rax
  .adox .r12 (.reg .rbx), -- 438: adox r12, rbx
  .mulx .r13 .rax (.mem ⟨some .rsp, none, 248#64⟩), -- 439: mulx r13, rax, [rsp + (7 * 32)+ 0x18]
  .adcx .r12 (.reg .rax), -- 440: adcx r12, rax
  .adox .r13 (.reg .rcx), -- 441: adox r13, rcx
  .adcx .r13 (.reg .rcx), -- 442: adcx r13, rcx
  .xor (.reg .rcx) (.reg .rcx), -- 443: xor ecx, ecx
  .mov (.reg .rdx) (.mem ⟨some .rsp, none, 112#64⟩), -- 444: mov rdx, [rsp + (3 * 32)+ 0x10]
  .mulx .rbx .rax (.mem ⟨some .rsp, none, 224#64⟩), -- 445: mulx rbx, rax, [rsp + (7 * 32)]
  .adcx .r10 (.reg .rax), -- 446: adcx r10, rax
  .adox .r11 (.reg .rbx), -- 447: adox r11, rbx
  .mulx .rbx .rax (.mem ⟨some .rsp, none, 232#64⟩), -- 448: mulx rbx, rax, [rsp + (7 * 32)+ 0x8]
  .adcx .r11 (.reg .rax), -- 449: adcx r11, rax
  .adox .r12 (.reg .rbx), -- 450: adox r12, rbx
  .mulx .rbx .rax (.mem ⟨some .rsp, none, 240#64⟩), -- 451: mulx rbx, rax, [rsp + (7 * 32)+ 0x10]
  .adcx .r12 (.reg .rax), -- 452: adcx r12, rax
  .adox .r13 (.reg .rbx), -- 453: adox r13, rbx
  .mulx .r14 .rax (.mem ⟨some .rsp, none, 248#64⟩), -- 454: mulx r14, rax, [rsp + (7 * 32)+ 0x18]
  .adcx .r13 (.reg .rax), -- 455: adcx r13, rax
  .adox .r14 (.reg .rcx), -- 456: adox r14, rcx
  .adcx .r14 (.reg .rcx), -- 457: adcx r14, rcx
  .xor (.reg .rcx) (.reg .rcx), -- 458: xor ecx, ecx
  .mov (.reg .rdx) (.mem ⟨some .rsp, none, 120#64⟩), -- 459: mov rdx, [rsp + (3 * 32)+ 0x18]
  .mulx .rbx .rax (.mem ⟨some .rsp, none, 224#64⟩), -- 460: mulx rbx, rax, [rsp + (7 * 32)]
  .adcx .r11 (.reg .rax), -- 461: adcx r11, rax
  .adox .r12 (.reg .rbx), -- 462: adox r12, rbx
  .mulx .rbx .rax (.mem ⟨some .rsp, none, 232#64⟩), -- 463: mulx rbx, rax, [rsp + (7 * 32)+ 0x8]
  .adcx .r12 (.reg .rax), -- 464: adcx r12, rax
  .adox .r13 (.reg .rbx), -- 465: adox r13, rbx
  .mulx .rbx .rax (.mem ⟨some .rsp, none, 240#64⟩), -- 466: mulx rbx, rax, [rsp + (7 * 32)+ 0x10]
  .adcx .r13 (.reg .rax), -- 467: adcx r13, rax
  .adox .r14 (.reg .rbx), -- 468: adox r14, rbx
  .mulx .r15 .rax (.mem ⟨some .rsp, none, 248#64⟩), -- 469: mulx r15, rax, [rsp + (7 * 32)+ 0x18]
  .adcx .r14 (.reg .rax), -- 470: adcx r14, rax
  .adox .r15 (.reg .rcx), -- 471: adox r15, rcx
  .adcx .r15 (.reg .rcx), -- 472: adcx r15, rcx
  .mov (.reg .rdx) (.imm 38#64), -- 473: mov edx, 0x26
  .xor (.reg .rcx) (.reg .rcx), -- 474: xor ecx, ecx
  .mulx .rbx .rax (.reg .r12), -- 475: mulx rbx, rax, r12
  .adcx .r8 (.reg .rax), -- 476: adcx r8, rax
  .adox .r9 (.reg .rbx), -- 477: adox r9, rbx
  .mulx .rbx .rax (.reg .r13), -- 478: mulx rbx, rax, r13
  .adcx .r9 (.reg .rax), -- 479: adcx r9, rax
  .adox .r10 (.reg .rbx), -- 480: adox r10, rbx
  .mulx .rbx .rax (.reg .r14), -- 481: mulx rbx, rax, r14
  .adcx .r10 (.reg .rax), -- 482: adcx r10, rax
  .adox .r11 (.reg .rbx), -- 483: adox r11, rbx
  .mulx .r12 .rax (.reg .r15), -- 484: mulx r12, rax, r15
  .adcx .r11 (.reg .rax), -- 485: adcx r11, rax
  .adox .r12 (.reg .rcx), -- 486: adox r12, rcx
  .adcx .r12 (.reg .rcx), -- 487: adcx r12, rcx
  .shld (.reg .r12) .r11 (.imm 1#64), -- 488: shld r12, r11, 0x1
  .btr .r11 63#64, -- 489: btr r11, 0x3f
  .mov (.reg .rdx) (.imm 19#64), -- 490: mov edx, 0x13
  .imul .rdx (.reg .r12), -- 491: imul rdx, r12
  .add (.reg .r8) (.reg .rdx), -- 492: add r8, rdx
  .adc (.reg .r9) (.reg .rcx), -- 493: adc r9, rcx
  .adc (.reg .r10) (.reg .rcx), -- 494: adc r10, rcx
  .adc (.reg .r11) (.reg .rcx), -- 495: adc r11, rcx
  .mov (.mem ⟨some .rsp, none, 352#64⟩) (.reg .r8), -- 496: mov [rsp + (11 * 32)], r8
  .mov (.mem ⟨some .rsp, none, 360#64⟩) (.reg .r9), -- 497: mov [rsp + (11 * 32)+ 0x8], r9
  .mov (.mem ⟨some .rsp, none, 368#64⟩) (.reg .r10), -- 498: mov [rsp + (11 * 32)+ 0x10], r10
  .mov (.mem ⟨some .rsp, none, 376#64⟩) (.reg .r11), -- 499: mov [rsp + (11 * 32)+ 0x18], r11
  .xor (.reg .rcx) (.reg .rcx), -- 500: xor ecx, ecx
  .mov (.reg .rdx) (.mem ⟨some .rsp, none, 32#64⟩), -- 501: mov rdx, [rsp + (1 * 32)]
  .mulx .r9 .r8 (.mem ⟨some .rsp, none, 288#64⟩), -- 502: mulx r9, r8, [rsp + (9 * 32)]
  .mulx .r10 .rax (.mem ⟨some .rsp, none, 296#64⟩), -- 503: mulx r10, rax, [rsp + (9 * 32)+ 0x8]
  .add (.reg .r9) (.reg .rax), -- 504: add r9, rax
  .mulx .r11 .rax (.mem ⟨some .rsp, none, 304#64⟩), -- 505: mulx r11, rax, [rsp + (9 * 32)+ 0x10]
  .adc (.reg .r10) (.reg .rax), -- 506: adc r10, rax
  .mulx .r12 .rax (.mem ⟨some .rsp, none, 312#64⟩), -- 507: mulx r12, rax, [rsp + (9 * 32)+ 0x18]
  .adc (.reg .r11) (.reg .rax), -- 508: adc r11, rax
  .adc (.reg .r12) (.reg .rcx), -- 509: adc r12, rcx
  .xor (.reg .rcx) (.reg .rcx), -- 510: xor ecx, ecx
  .mov (.reg .rdx) (.mem ⟨some .rsp, none, 40#64⟩), -- 511: mov rdx, [rsp + (1 * 32)+ 0x8]
  .mulx .rbx .rax (.mem ⟨some .rsp, none, 288#64⟩), -- 512: mulx rbx, rax, [rsp + (9 * 32)]
  .adcx .r9 (.reg .rax), -- 513: adcx r9, rax
  .adox .r10 (.reg .rbx), -- 514: adox r10, rbx
  .mulx .rbx .rax (.mem ⟨some .rsp, none, 296#64⟩), -- 515: mulx rbx, rax, [rsp + (9 * 32)+ 0x8]
  .adcx .r10 (.reg .rax), -- 516: adcx r10, rax
  .adox .r11 (.reg .rbx), -- 517: adox r11, rbx
  .mulx .rbx .rax (.mem ⟨some .rsp, none, 304#64⟩), -- 518: mulx rbx, rax, [rsp + (9 * 32)+ 0x10]
  .adcx .r11 (.reg .rax), -- 519: adcx r11, rax
  .adox .r12 (.reg .rbx), -- 520: adox r12, rbx
  .mulx .r13 .rax (.mem ⟨some .rsp, none, 312#64⟩), -- 521: mulx r13, rax, [rsp + (9 * 32)+ 0x18]
  .adcx .r12 (.reg .rax), -- 522: adcx r12, rax
  .adox .r13 (.reg .rcx), -- 523: adox r13, rcx
  .adcx .r13 (.reg .rcx), -- 524: adcx r13, rcx
  .xor (.reg .rcx) (.reg .rcx), -- 525: xor ecx, ecx
  .mov (.reg .rdx) (.mem ⟨some .rsp, none, 48#64⟩), -- 526: mov rdx, [rsp + (1 * 32)+ 0x10]
  .mulx .rbx .rax (.mem ⟨some .rsp, none, 288#64⟩), -- 527: mulx rbx, rax, [rsp + (9 * 32)]
  .adcx .r10 (.reg .rax), -- 528: adcx r10, rax
  .adox .r11 (.reg .rbx), -- 529: adox r11, rbx
  .mulx .rbx .rax (.mem ⟨some .rsp, none, 296#64⟩), -- 530: mulx rbx, rax, [rsp + (9 * 32)+ 0x8]
  .adcx .r11 (.reg .rax), -- 531: adcx r11, rax
  .adox .r12 (.reg .rbx), -- 532: adox r12, rbx
  .mulx .rbx .rax (.mem ⟨some .rsp, none, 304#64⟩), -- 533: mulx rbx, rax, [rsp + (9 * 32)+ 0x10]
  .adcx .r12 (.reg .rax), -- 534: adcx r12, rax
  .adox .r13 (.reg .rbx), -- 535: adox r13, rbx
  .mulx .r14 .rax (.mem ⟨some .rsp, none, 312#64⟩), -- 536: mulx r14, rax, [rsp + (9 * 32)+ 0x18]
  .adcx .r13 (.reg .rax), -- 537: adcx r13, rax
  .adox .r14 (.reg .rcx), -- 538: adox r14, rcx
  .adcx .r14 (.reg .rcx), -- 539: adcx r14, rcx
  .xor (.reg .rcx) (.reg .rcx), -- 540: xor ecx, ecx
  .mov (.reg .rdx) (.mem ⟨some .rsp, none, 56#64⟩), -- 541: mov rdx, [rsp + (1 * 32)+ 0x18]
  .mulx .rbx .rax (.mem ⟨some .rsp, none, 288#64⟩), -- 542: mulx rbx, rax, [rsp + (9 * 32)]
  .adcx .r11 (.reg .rax), -- 543: adcx r11, rax
  .adox .r12 (.reg .rbx), -- 544: adox r12, rbx
  .mulx .rbx .rax (.mem ⟨some .rsp, none, 296#64⟩), -- 545: mulx rbx, rax, [rsp + (9 * 32)+ 0x8]
  .adcx .r12 (.reg .rax), -- 546: adcx r12, rax
  .adox .r13 (.reg .rbx), -- 547: adox r13, rbx
  .mulx .rbx .rax (.mem ⟨some .rsp, none, 304#64⟩), -- 548: mulx rbx, rax, [rsp + (9 * 32)+ 0x10]
  .adcx .r13 (.reg .rax), -- 549: adcx r13, rax
  .adox .r14 (.reg .rbx), -- 550: adox r14, rbx
  .mulx .r15 .rax (.mem ⟨some .rsp, none, 312#64⟩), -- 551: mulx r15, rax, [rsp + (9 * 32)+ 0x18]
  .adcx .r14 (.reg .rax), -- 552: adcx r14, rax
  .adox .r15 (.reg .rcx), -- 553: adox r15, rcx
  .adcx .r15 (.reg .rcx), -- 554: adcx r15, rcx
  .mov (.reg .rdx) (.imm 38#64), -- 555: mov edx, 0x26
  .xor (.reg .rcx) (.reg .rcx), -- 556: xor ecx, ecx
  .mulx .rbx .rax (.reg .r12), -- 557: mulx rbx, rax, r12
  .adcx .r8 (.reg .rax), -- 558: adcx r8, rax
  .adox .r9 (.reg .rbx), -- 559: adox r9, rbx
  .mulx .rbx .rax (.reg .r13), -- 560: mulx rbx, rax, r13
  .adcx .r9 (.reg .rax), -- 561: adcx r9, rax
  .adox .r10 (.reg .rbx), -- 562: adox r10, rbx
  .mulx .rbx .rax (.reg .r14), -- 563: mulx rbx, rax, r14
  .adcx .r10 (.reg .rax), -- 564: adcx r10, rax
  .adox .r11 (.reg .rbx), -- 565: adox r11, rbx
  .mulx .r12 .rax (.reg .r15), -- 566: mulx r12, rax, r15
  .adcx .r11 (.reg .rax), -- 567: adcx r11, rax
  .adox .r12 (.reg .rcx), -- 568: adox r12, rcx
  .adcx .r12 (.reg .rcx), -- 569: adcx r12, rcx
  .shld (.reg .r12) .r11 (.imm 1#64), -- 570: shld r12, r11, 0x1
  .btr .r11 63#64, -- 571: btr r11, 0x3f
  .mov (.reg .rdx) (.imm 19#64), -- 572: mov edx, 0x13
  .imul .rdx (.reg .r12), -- 573: imul rdx, r12
  .add (.reg .r8) (.reg .rdx), -- 574: add r8, rdx
  .adc (.reg .r9) (.reg .rcx), -- 575: adc r9, rcx
  .adc (.reg .r10) (.reg .rcx), -- 576: adc r10, rcx
  .adc (.reg .r11) (.reg .rcx), -- 577: adc r11, rcx
  .mov (.mem ⟨some .rsp, none, 288#64⟩) (.reg .r8), -- 578: mov [rsp + (9 * 32)], r8
  .mov (.mem ⟨some .rsp, none, 296#64⟩) (.reg .r9), -- 579: mov [rsp + (9 * 32)+ 0x8], r9
  .mov (.mem ⟨some .rsp, none, 304#64⟩) (.reg .r10), -- 580: mov [rsp + (9 * 32)+ 0x10], r10
  .mov (.mem ⟨some .rsp, none, 312#64⟩) (.reg .r11), -- 581: mov [rsp + (9 * 32)+ 0x18], r11
  .xor (.reg .rcx) (.reg .rcx), -- 582: xor ecx, ecx
  .mov (.reg .rdx) (.mem ⟨some .rsp, none, 64#64⟩), -- 583: mov rdx, [rsp + (2 * 32)]
  .mulx .r9 .r8 (.mem ⟨some .rsp, none, 320#64⟩), -- 584: mulx r9, r8, [rsp + (10 * 32)]
  .mulx .r10 .rax (.mem ⟨some .rsp, none, 328#64⟩), -- 585: mulx r10, rax, [rsp + (10 * 32)+ 0x8]
  .add (.reg .r9) (.reg .rax), -- 586: add r9, rax
  .mulx .r11 .rax (.mem ⟨some .rsp, none, 336#64⟩), -- 587: mulx r11, rax, [rsp + (10 * 32)+ 0x10]
  .adc (.reg .r10) (.reg .rax), -- 588: adc r10, rax
  .mulx .r12 .rax (.mem ⟨some .rsp, none, 344#64⟩), -- 589: mulx r12, rax, [rsp + (10 * 32)+ 0x18]
  .adc (.reg .r11) (.reg .rax), -- 590: adc r11, rax
  .adc (.reg .r12) (.reg .rcx), -- 591: adc r12, rcx
  .xor (.reg .rcx) (.reg .rcx), -- 592: xor ecx, ecx
  .mov (.reg .rdx) (.mem ⟨some .rsp, none, 72#64⟩), -- 593: mov rdx, [rsp + (2 * 32)+ 0x8]
  .mulx .rbx .rax (.mem ⟨some .rsp, none, 320#64⟩), -- 594: mulx rbx, rax, [rsp + (10 * 32)]
  .adcx .r9 (.reg .rax), -- 595: adcx r9, rax
  .adox .r10 (.reg .rbx), -- 596: adox r10, rbx
  .mulx .rbx .rax (.mem ⟨some .rsp, none, 328#64⟩), -- 597: mulx rbx, rax, [rsp + (10 * 32)+ 0x8]
  .adcx .r10 (.reg .rax), -- 598: adcx r10, rax
  .adox .r11 (.reg .rbx), -- 599: adox r11, rbx
  .mulx .rbx .rax (.mem ⟨some .rsp, none, 336#64⟩), -- 600: mulx rbx, rax, [rsp + (10 * 32)+ 0x10]
  .adcx .r11 (.reg .rax), -- 601: adcx r11, rax
  .adox .r12 (.reg .rbx), -- 602: adox r12, rbx
  .mulx .r13 .rax (.mem ⟨some .rsp, none, 344#64⟩), -- 603: mulx r13, rax, [rsp + (10 * 32)+ 0x18]
  .adcx .r12 (.reg .rax), -- 604: adcx r12, rax
  .adox .r13 (.reg .rcx), -- 605: adox r13, rcx
  .adcx .r13 (.reg .rcx), -- 606: adcx r13, rcx
  .xor (.reg .rcx) (.reg .rcx), -- 607: xor ecx, ecx
  .mov (.reg .rdx) (.mem ⟨some .rsp, none, 80#64⟩), -- 608: mov rdx, [rsp + (2 * 32)+ 0x10]
  .mulx .rbx .rax (.mem ⟨some .rsp, none, 320#64⟩), -- 609: mulx rbx, rax, [rsp + (10 * 32)]
  .adcx .r10 (.reg .rax), -- 610: adcx r10, rax
  .adox .r11 (.reg .rbx), -- 611: adox r11, rbx
  .mulx .rbx .rax (.mem ⟨some .rsp, none, 328#64⟩), -- 612: mulx rbx, rax, [rsp + (10 * 32)+ 0x8]
  .adcx .r11 (.reg .rax), -- 613: adcx r11, rax
  .adox .r12 (.reg .rbx), -- 614: adox r12, rbx
  .mulx .rbx .rax (.mem ⟨some .rsp, none, 336#64⟩), -- 615: mulx rbx, rax, [rsp + (10 * 32)+ 0x10]
  .adcx .r12 (.reg .rax), -- 616: adcx r12, rax
  .adox .r13 (.reg .rbx), -- 617: adox r13, rbx
  .mulx .r14 .rax (.mem ⟨some .rsp, none, 344#64⟩), -- 618: mulx r14, rax, [rsp + (10 * 32)+ 0x18]
  .adcx .r13 (.reg .rax), -- 619: adcx r13, rax
  .adox .r14 (.reg .rcx), -- 620: adox r14, rcx
  .adcx .r14 (.reg .rcx), -- 621: adcx r14, rcx
  .xor (.reg .rcx) (.reg .rcx), -- 622: xor ecx, ecx
  .mov (.reg .rdx) (.mem ⟨some .rsp, none, 88#64⟩), -- 623: mov rdx, [rsp + (2 * 32)+ 0x18]
  .mulx .rbx .rax (.mem ⟨some .rsp, none, 320#64⟩), -- 624: mulx rbx, rax, [rsp + (10 * 32)]
  .adcx .r11 (.reg .rax), -- 625: adcx r11, rax
  .adox .r12 (.reg .rbx), -- 626: adox r12, rbx
  .mulx .rbx .rax (.mem ⟨some .rsp, none, 328#64⟩), -- 627: mulx rbx, rax, [rsp + (10 * 32)+ 0x8]
  .adcx .r12 (.reg .rax), -- 628: adcx r12, rax
  .adox .r13 (.reg .rbx), -- 629: adox r13, rbx
  .mulx .rbx .rax (.mem ⟨some .rsp, none, 336#64⟩), -- 630: mulx rbx, rax, [rsp + (10 * 32)+ 0x10]
  .adcx .r13 (.reg .rax), -- 631: adcx r13, rax
  .adox .r14 (.reg .rbx), -- 632: adox r14, rbx
  .mulx .r15 .rax (.mem ⟨some .rsp, none, 344#64⟩), -- 633: mulx r15, rax, [rsp + (10 * 32)+ 0x18]
  .adcx .r14 (.reg .rax), -- 634: adcx r14, rax
  .adox .r15 (.reg .rcx), -- 635: adox r15, rcx
  .adcx .r15 (.reg .rcx), -- 636: adcx r15, rcx
  .mov (.reg .rdx) (.imm 38#64), -- 637: mov edx, 0x26
  .xor (.reg .rcx) (.reg .rcx), -- 638: xor ecx, ecx
  .mulx .rbx .rax (.reg .r12), -- 639: mulx rbx, rax, r12
  .adcx .r8 (.reg .rax), -- 640: adcx r8, rax
  .adox .r9 (.reg .rbx), -- 641: adox r9, rbx
  .mulx .rbx .rax (.reg .r13), -- 642: mulx rbx, rax, r13
  .adcx .r9 (.reg .rax), -- 643: adcx r9, rax
  .adox .r10 (.reg .rbx), -- 644: adox r10, rbx
  .mulx .rbx .rax (.reg .r14), -- 645: mulx rbx, rax, r14
  .adcx .r10 (.reg .rax), -- 646: adcx r10, rax
  .adox .r11 (.reg .rbx), -- 647: adox r11, rbx
  .mulx .r12 .rax (.reg .r15), -- 648: mulx r12, rax, r15
  .adcx .r11 (.reg .rax), -- 649: adcx r11, rax
  .adox .r12 (.reg .rcx), -- 650: adox r12, rcx
  .adcx .r12 (.reg .rcx), -- 651: adcx r12, rcx
  .shld (.reg .r12) .r11 (.imm 1#64), -- 652: shld r12, r11, 0x1
  .btr .r11 63#64, -- 653: btr r11, 0x3f
  .mov (.reg .rdx) (.imm 19#64), -- 654: mov edx, 0x13
  .imul .rdx (.reg .r12), -- 655: imul rdx, r12
  .add (.reg .r8) (.reg .rdx), -- 656: add r8, rdx
  .adc (.reg .r9) (.reg .rcx), -- 657: adc r9, rcx
  .adc (.reg .r10) (.reg .rcx), -- 658: adc r10, rcx
  .adc (.reg .r11) (.reg .rcx), -- 659: adc r11, rcx
  .mov (.mem ⟨some .rsp, none, 320#64⟩) (.reg .r8), -- 660: mov [rsp + (10 * 32)], r8
  .mov (.mem ⟨some .rsp, none, 328#64⟩) (.reg .r9), -- 661: mov [rsp + (10 * 32)+ 0x8], r9
  .mov (.mem ⟨some .rsp, none, 336#64⟩) (.reg .r10), -- 662: mov [rsp + (10 * 32)+ 0x10], r10
  .mov (.mem ⟨some .rsp, none, 344#64⟩) (.reg .r11), -- 663: mov [rsp + (10 * 32)+ 0x18], r11
  .mov (.reg .r8) (.mem ⟨some .rsp, none, 256#64⟩), -- 664: mov r8, [rsp + (8 * 32)]
  .xor (.reg .rbx) (.reg .rbx), -- 665: xor ebx, ebx
  .sub (.reg .r8) (.mem ⟨some .rsp, none, 352#64⟩), -- 666: sub r8, [rsp + (11 * 32)]
  .mov (.reg .r9) (.mem ⟨some .rsp, none, 264#64⟩), -- 667: mov r9, [rsp + (8 * 32)+ 8]
  .sbb (.reg .r9) (.mem ⟨some .rsp, none, 360#64⟩), -- 668: sbb r9, [rsp + (11 * 32)+ 8]
  .mov (.reg .rcx) (.imm 38#64), -- 669: mov ecx, 38
  .mov (.reg .r10) (.mem ⟨some .rsp, none, 272#64⟩), -- 670: mov r10, [rsp + (8 * 32)+ 16]
  .sbb (.reg .r10) (.mem ⟨some .rsp, none, 368#64⟩), -- 671: sbb r10, [rsp + (11 * 32)+ 16]
  .mov (.reg .rax) (.mem ⟨some .rsp, none, 280#64⟩), -- 672: mov rax, [rsp + (8 * 32)+ 24]
  .sbb (.reg .rax) (.mem ⟨some .rsp, none, 376#64⟩), -- 673: sbb rax, [rsp + (11 * 32)+ 24]
  .cmov .nc .rcx (.reg .rbx), -- 674: cmovnc rcx, rbx
  .sub (.reg .r8) (.reg .rcx), -- 675: sub r8, rcx
  .sbb (.reg .r9) (.reg .rbx), -- 676: sbb r9, rbx
  .sbb (.reg .r10) (.reg .rbx), -- 677: sbb r10, rbx
  .sbb (.reg .rax) (.reg .rbx), -- 678: sbb rax, rbx
  .mov (.mem ⟨some .rsp, none, 384#64⟩) (.reg .r8), -- 679: mov [rsp + (12 * 32)], r8
  .mov (.mem ⟨some .rsp, none, 392#64⟩) (.reg .r9), -- 680: mov [rsp + (12 * 32)+ 8], r9
  .mov (.mem ⟨some .rsp, none, 400#64⟩) (.reg .r10), -- 681: mov [rsp + (12 * 32)+ 16], r10
  .mov (.mem ⟨some .rsp, none, 408#64⟩) (.reg .rax), -- 682: mov [rsp + (12 * 32)+ 24], rax
  .mov (.reg .r8) (.mem ⟨some .rsp, none, 256#64⟩), -- 683: mov r8, [rsp + (8 * 32)]
  .xor (.reg .rcx) (.reg .rcx), -- 684: xor ecx, ecx
  .add (.reg .r8) (.mem ⟨some .rsp, none, 352#64⟩), -- 685: add r8, [rsp + (11 * 32)]
  .mov (.reg .r9) (.mem ⟨some .rsp, none, 264#64⟩), -- 686: mov r9, [rsp + (8 * 32)+ 0x8]
  .adc (.reg .r9) (.mem ⟨some .rsp, none, 360#64⟩), -- 687: adc r9, [rsp + (11 * 32)+ 0x8]
  .mov (.reg .r10) (.mem ⟨some .rsp, none, 272#64⟩), -- 688: mov r10, [rsp + (8 * 32)+ 0x10]
  .adc (.reg .r10) (.mem ⟨some .rsp, none, 368#64⟩), -- 689: adc r10, [rsp + (11 * 32)+ 0x10]
  .mov (.reg .r11) (.mem ⟨some .rsp, none, 280#64⟩), -- 690: mov r11, [rsp + (8 * 32)+ 0x18]
  .adc (.reg .r11) (.mem ⟨some .rsp, none, 376#64⟩), -- 691: adc r11, [rsp + (11 * 32)+ 0x18]
  .mov (.reg .rax) (.imm 38#64), -- 692: mov eax, 38
  .cmov .nc .rax (.reg .rcx), -- 693: cmovnc rax, rcx
  .add (.reg .r8) (.reg .rax), -- 694: add r8, rax
  .adc (.reg .r9) (.reg .rcx), -- 695: adc r9, rcx
  .adc (.reg .r10) (.reg .rcx), -- 696: adc r10, rcx
  .adc (.reg .r11) (.reg .rcx), -- 697: adc r11, rcx
  .mov (.mem ⟨some .rsp, none, 256#64⟩) (.reg .r8), -- 698: mov [rsp + (8 * 32)], r8
  .mov (.mem ⟨some .rsp, none, 264#64⟩) (.reg .r9), -- 699: mov [rsp + (8 * 32)+ 0x8], r9
  .mov (.mem ⟨some .rsp, none, 272#64⟩) (.reg .r10), -- 700: mov [rsp + (8 * 32)+ 0x10], r10
  .mov (.mem ⟨some .rsp, none, 280#64⟩) (.reg .r11), -- 701: mov [rsp + (8 * 32)+ 0x18], r11
  .mov (.reg .r8) (.mem ⟨some .rsp, none, 320#64⟩), -- 702: mov r8, [rsp + (10 * 32)]
  .xor (.reg .rbx) (.reg .rbx), -- 703: xor ebx, ebx
  .sub (.reg .r8) (.mem ⟨some .rsp, none, 288#64⟩), -- 704: sub r8, [rsp + (9 * 32)]
  .mov (.reg .r9) (.mem ⟨some .rsp, none, 328#64⟩), -- 705: mov r9, [rsp + (10 * 32)+ 8]
  .sbb (.reg .r9) (.mem ⟨some .rsp, none, 296#64⟩), -- 706: sbb r9, [rsp + (9 * 32)+ 8]
  .mov (.reg .rcx) (.imm 38#64), -- 707: mov ecx, 38
  .mov (.reg .r10) (.mem ⟨some .rsp, none, 336#64⟩), -- 708: mov r10, [rsp + (10 * 32)+ 16]
  .sbb (.reg .r10) (.mem ⟨some .rsp, none, 304#64⟩), -- 709: sbb r10, [rsp + (9 * 32)+ 16]
  .mov (.reg .rax) (.mem ⟨some .rsp, none, 344#64⟩), -- 710: mov rax, [rsp + (10 * 32)+ 24]
  .sbb (.reg .rax) (.mem ⟨some .rsp, none, 312#64⟩), -- 711: sbb rax, [rsp + (9 * 32)+ 24]
  .cmov .nc .rcx (.reg .rbx), -- 712: cmovnc rcx, rbx
  .sub (.reg .r8) (.reg .rcx), -- 713: sub r8, rcx
  .sbb (.reg .r9) (.reg .rbx), -- 714: sbb r9, rbx
  .sbb (.reg .r10) (.reg .rbx), -- 715: sbb r10, rbx
  .sbb (.reg .rax) (.reg .rbx), -- 716: sbb rax, rbx
  .mov (.mem ⟨some .rsp, none, 416#64⟩) (.reg .r8), -- 717: mov [rsp + (13 * 32)], r8
  .mov (.mem ⟨some .rsp, none, 424#64⟩) (.reg .r9), -- 718: mov [rsp + (13 * 32)+ 8], r9
  .mov (.mem ⟨some .rsp, none, 432#64⟩) (.reg .r10), -- 719: mov [rsp + (13 * 32)+ 16], r10
  .mov (.mem ⟨some .rsp, none, 440#64⟩) (.reg .rax), -- 720: mov [rsp + (13 * 32)+ 24], rax
  .mov (.reg .r8) (.mem ⟨some .rsp, none, 320#64⟩), -- 721: mov r8, [rsp + (10 * 32)]
  .xor (.reg .rcx) (.reg .rcx), -- 722: xor ecx, ecx
  .add (.reg .r8) (.mem ⟨some .rsp, none, 288#64⟩), -- 723: add r8, [rsp + (9 * 32)]
  .mov (.reg .r9) (.mem ⟨some .rsp, none, 328#64⟩), -- 724: mov r9, [rsp + (10 * 32)+ 0x8]
  .adc (.reg .r9) (.mem ⟨some .rsp, none, 296#64⟩), -- 725: adc r9, [rsp + (9 * 32)+ 0x8]
  .mov (.reg .r10) (.mem ⟨some .rsp, none, 336#64⟩), -- 726: mov r10, [rsp + (10 * 32)+ 0x10]
  .adc (.reg .r10) (.mem ⟨some .rsp, none, 304#64⟩), -- 727: adc r10, [rsp + (9 * 32)+ 0x10]
  .mov (.reg .r11) (.mem ⟨some .rsp, none, 344#64⟩), -- 728: mov r11, [rsp + (10 * 32)+ 0x18]
  .adc (.reg .r11) (.mem ⟨some .rsp, none, 312#64⟩), -- 729: adc r11, [rsp + (9 * 32)+ 0x18]
  .mov (.reg .rax) (.imm 38#64), -- 730: mov eax, 38
  .cmov .nc .rax (.reg .rcx), -- 731: cmovnc rax, rcx
  .add (.reg .r8) (.reg .rax), -- 732: add r8, rax
  .adc (.reg .r9) (.reg .rcx), -- 733: adc r9, rcx
  .adc (.reg .r10) (.reg .rcx), -- 734: adc r10, rcx
  .adc (.reg .r11) (.reg .rcx), -- 735: adc r11, rcx
  .mov (.mem ⟨some .rsp, none, 288#64⟩) (.reg .r8), -- 736: mov [rsp + (9 * 32)], r8
  .mov (.mem ⟨some .rsp, none, 296#64⟩) (.reg .r9), -- 737: mov [rsp + (9 * 32)+ 0x8], r9
  .mov (.mem ⟨some .rsp, none, 304#64⟩) (.reg .r10), -- 738: mov [rsp + (9 * 32)+ 0x10], r10
  .mov (.mem ⟨some .rsp, none, 312#64⟩) (.reg .r11), -- 739: mov [rsp + (9 * 32)+ 0x18], r11
  .xor (.reg .rcx) (.reg .rcx), -- 740: xor ecx, ecx
  .mov (.reg .rdx) (.mem ⟨some .rsp, none, 256#64⟩), -- 741: mov rdx, [rsp + (8 * 32)]
  .mulx .r9 .r8 (.mem ⟨some .rsp, none, 384#64⟩), -- 742: mulx r9, r8, [rsp + (12 * 32)]
  .mulx .r10 .rax (.mem ⟨some .rsp, none, 392#64⟩), -- 743: mulx r10, rax, [rsp + (12 * 32)+ 0x8]
  .add (.reg .r9) (.reg .rax), -- 744: add r9, rax
  .mulx .r11 .rax (.mem ⟨some .rsp, none, 400#64⟩), -- 745: mulx r11, rax, [rsp + (12 * 32)+ 0x10]
  .adc (.reg .r10) (.reg .rax), -- 746: adc r10, rax
  .mulx .r12 .rax (.mem ⟨some .rsp, none, 408#64⟩), -- 747: mulx r12, rax, [rsp + (12 * 32)+ 0x18]
  .adc (.reg .r11) (.reg .rax), -- 748: adc r11, rax
  .adc (.reg .r12) (.reg .rcx), -- 749: adc r12, rcx
  .xor (.reg .rcx) (.reg .rcx), -- 750: xor ecx, ecx
  .mov (.reg .rdx) (.mem ⟨some .rsp, none, 264#64⟩), -- 751: mov rdx, [rsp + (8 * 32)+ 0x8]
  .mulx .rbx .rax (.mem ⟨some .rsp, none, 384#64⟩), -- 752: mulx rbx, rax, [rsp + (12 * 32)]
  .adcx .r9 (.reg .rax), -- 753: adcx r9, rax
  .adox .r10 (.reg .rbx), -- 754: adox r10, rbx
  .mulx .rbx .rax (.mem ⟨some .rsp, none, 392#64⟩), -- 755: mulx rbx, rax, [rsp + (12 * 32)+ 0x8]
  .adcx .r10 (.reg .rax), -- 756: adcx r10, rax
  .adox .r11 (.reg .rbx), -- 757: adox r11, rbx
  .mulx .rbx .rax (.mem ⟨some .rsp, none, 400#64⟩), -- 758: mulx rbx, rax, [rsp + (12 * 32)+ 0x10]
  .adcx .r11 (.reg .rax), -- 759: adcx r11, rax
  .adox .r12 (.reg .rbx), -- 760: adox r12, rbx
  .mulx .r13 .rax (.mem ⟨some .rsp, none, 408#64⟩), -- 761: mulx r13, rax, [rsp + (12 * 32)+ 0x18]
  .adcx .r12 (.reg .rax), -- 762: adcx r12, rax
  .adox .r13 (.reg .rcx), -- 763: adox r13, rcx
  .adcx .r13 (.reg .rcx), -- 764: adcx r13, rcx
  .xor (.reg .rcx) (.reg .rcx), -- 765: xor ecx, ecx
  .mov (.reg .rdx) (.mem ⟨some .rsp, none, 272#64⟩), -- 766: mov rdx, [rsp + (8 * 32)+ 0x10]
  .mulx .rbx .rax (.mem ⟨some .rsp, none, 384#64⟩), -- 767: mulx rbx, rax, [rsp + (12 * 32)]
  .adcx .r10 (.reg .rax), -- 768: adcx r10, rax
  .adox .r11 (.reg .rbx), -- 769: adox r11, rbx
  .mulx .rbx .rax (.mem ⟨some .rsp, none, 392#64⟩), -- 770: mulx rbx, rax, [rsp + (12 * 32)+ 0x8]
  .adcx .r11 (.reg .rax), -- 771: adcx r11, rax
  .adox .r12 (.reg .rbx), -- 772: adox r12, rbx
  .mulx .rbx .rax (.mem ⟨some .rsp, none, 400#64⟩), -- 773: mulx rbx, rax, [rsp + (12 * 32)+ 0x10]
  .adcx .r12 (.reg .rax), -- 774: adcx r12, rax
  .adox .r13 (.reg .rbx), -- 775: adox r13, rbx
  .mulx .r14 .rax (.mem ⟨some .rsp, none, 408#64⟩), -- 776: mulx r14, rax, [rsp + (12 * 32)+ 0x18]
  .adcx .r13 (.reg .rax), -- 777: adcx r13, rax
  .adox .r14 (.reg .rcx), -- 778: adox r14, rcx
  .adcx .r14 (.reg .rcx), -- 779: adcx r14, rcx
  .xor (.reg .rcx) (.reg .rcx), -- 780: xor ecx, ecx
  .mov (.reg .rdx) (.mem ⟨some .rsp, none, 280#64⟩), -- 781: mov rdx, [rsp + (8 * 32)+ 0x18]
  .mulx .rbx .rax (.mem ⟨some .rsp, none, 384#64⟩), -- 782: mulx rbx, rax, [rsp + (12 * 32)]
  .adcx .r11 (.reg .rax), -- 783: adcx r11, rax
  .adox .r12 (.reg .rbx), -- 784: adox r12, rbx
  .mulx .rbx .rax (.mem ⟨some .rsp, none, 392#64⟩), -- 785: mulx rbx, rax, [rsp + (12 * 32)+ 0x8]
  .adcx .r12 (.reg .rax), -- 786: adcx r12, rax
  .adox .r13 (.reg .rbx), -- 787: adox r13, rbx
  .mulx .rbx .rax (.mem ⟨some .rsp, none, 400#64⟩), -- 788: mulx rbx, rax, [rsp + (12 * 32)+ 0x10]
  .adcx .r13 (.reg .rax), -- 789: adcx r13, rax
  .adox .r14 (.reg .rbx), -- 790: adox r14, rbx
  .mulx .r15 .rax (.mem ⟨some .rsp, none, 408#64⟩), -- 791: mulx r15, rax, [rsp + (12 * 32)+ 0x18]
  .adcx .r14 (.reg .rax), -- 792: adcx r14, rax
  .adox .r15 (.reg .rcx), -- 793: adox r15, rcx
  .adcx .r15 (.reg .rcx), -- 794: adcx r15, rcx
  .mov (.reg .rdx) (.imm 38#64), -- 795: mov edx, 0x26
  .xor (.reg .rcx) (.reg .rcx), -- 796: xor ecx, ecx
  .mulx .rbx .rax (.reg .r12), -- 797: mulx rbx, rax, r12
  .adcx .r8 (.reg .rax), -- 798: adcx r8, rax
  .adox .r9 (.reg .rbx), -- 799: adox r9, rbx
  .mulx .rbx .rax (.reg .r13), -- 800: mulx rbx, rax, r13
  .adcx .r9 (.reg .rax), -- 801: adcx r9, rax
  .adox .r10 (.reg .rbx), -- 802: adox r10, rbx
  .mulx .rbx .rax (.reg .r14), -- 803: mulx rbx, rax, r14
  .adcx .r10 (.reg .rax), -- 804: adcx r10, rax
  .adox .r11 (.reg .rbx), -- 805: adox r11, rbx
  .mulx .r12 .rax (.reg .r15), -- 806: mulx r12, rax, r15
  .adcx .r11 (.reg .rax), -- 807: adcx r11, rax
  .adox .r12 (.reg .rcx), -- 808: adox r12, rcx
  .adcx .r12 (.reg .rcx), -- 809: adcx r12, rcx
  .shld (.reg .r12) .r11 (.imm 1#64), -- 810: shld r12, r11, 0x1
  .btr .r11 63#64, -- 811: btr r11, 0x3f
  .mov (.reg .rdx) (.imm 19#64), -- 812: mov edx, 0x13
  .imul .rdx (.reg .r12), -- 813: imul rdx, r12
  .add (.reg .r8) (.reg .rdx), -- 814: add r8, rdx
  .adc (.reg .r9) (.reg .rcx), -- 815: adc r9, rcx
  .adc (.reg .r10) (.reg .rcx), -- 816: adc r10, rcx
  .adc (.reg .r11) (.reg .rcx), -- 817: adc r11, rcx
  .mov (.mem ⟨some .rsp, none, 192#64⟩) (.reg .r8), -- 818: mov [rsp + (6 * 32)], r8
  .mov (.mem ⟨some .rsp, none, 200#64⟩) (.reg .r9), -- 819: mov [rsp + (6 * 32)+ 0x8], r9
  .mov (.mem ⟨some .rsp, none, 208#64⟩) (.reg .r10), -- 820: mov [rsp + (6 * 32)+ 0x10], r10
  .mov (.mem ⟨some .rsp, none, 216#64⟩) (.reg .r11), -- 821: mov [rsp + (6 * 32)+ 0x18], r11
  .xor (.reg .rcx) (.reg .rcx), -- 822: xor ecx, ecx
  .mov (.reg .rdx) (.mem ⟨some .rsp, none, 384#64⟩), -- 823: mov rdx, [rsp + (12 * 32)]
  .mulx .r9 .r8 (.mem ⟨some .rsp, none, 416#64⟩), -- 824: mulx r9, r8, [rsp + (13 * 32)]
  .mulx .r10 .rax (.mem ⟨some .rsp, none, 424#64⟩), -- 825: mulx r10, rax, [rsp + (13 * 32)+ 0x8]
  .add (.reg .r9) (.reg .rax), -- 826: add r9, rax
  .mulx .r11 .rax (.mem ⟨some .rsp, none, 432#64⟩), -- 827: mulx r11, rax, [rsp + (13 * 32)+ 0x10]
  .adc (.reg .r10) (.reg .rax), -- 828: adc r10, rax
  .mulx .r12 .rax (.mem ⟨some .rsp, none, 440#64⟩), -- 829: mulx r12, rax, [rsp + (13 * 32)+ 0x18]
  .adc (.reg .r11) (.reg .rax), -- 830: adc r11, rax
  .adc (.reg .r12) (.reg .rcx), -- 831: adc r12, rcx
  .xor (.reg .rcx) (.reg .rcx), -- 832: xor ecx, ecx
  .mov (.reg .rdx) (.mem ⟨some .rsp, none, 392#64⟩), -- 833: mov rdx, [rsp + (12 * 32)+ 0x8]
  .mulx .rbx .rax (.mem ⟨some .rsp, none, 416#64⟩), -- 834: mulx rbx, rax, [rsp + (13 * 32)]
  .adcx .r9 (.reg .rax), -- 835: adcx r9, rax
  .adox .r10 (.reg .rbx), -- 836: adox r10, rbx
  .mulx .rbx .rax (.mem ⟨some .rsp, none, 424#64⟩), -- 837: mulx rbx, rax, [rsp + (13 * 32)+ 0x8]
  .adcx .r10 (.reg .rax), -- 838: adcx r10, rax
  .adox .r11 (.reg .rbx), -- 839: adox r11, rbx
  .mulx .rbx .rax (.mem ⟨some .rsp, none, 432#64⟩), -- 840: mulx rbx, rax, [rsp + (13 * 32)+ 0x10]
  .adcx .r11 (.reg .rax), -- 841: adcx r11, rax
  .adox .r12 (.reg .rbx), -- 842: adox r12, rbx
  .mulx .r13 .rax (.mem ⟨some .rsp, none, 440#64⟩), -- 843: mulx r13, rax, [rsp + (13 * 32)+ 0x18]
  .adcx .r12 (.reg .rax), -- 844: adcx r12, rax
  .adox .r13 (.reg .rcx), -- 845: adox r13, rcx
  .adcx .r13 (.reg .rcx), -- 846: adcx r13, rcx
  .xor (.reg .rcx) (.reg .rcx), -- 847: xor ecx, ecx
  .mov (.reg .rdx) (.mem ⟨some .rsp, none, 400#64⟩), -- 848: mov rdx, [rsp + (12 * 32)+ 0x10]
  .mulx .rbx .rax (.mem ⟨some .rsp, none, 416#64⟩), -- 849: mulx rbx, rax, [rsp + (13 * 32)]
  .adcx .r10 (.reg .rax), -- 850: adcx r10, rax
  .adox .r11 (.reg .rbx), -- 851: adox r11, rbx
  .mulx .rbx .rax (.mem ⟨some .rsp, none, 424#64⟩), -- 852: mulx rbx, rax, [rsp + (13 * 32)+ 0x8]
  .adcx .r11 (.reg .rax), -- 853: adcx r11, rax
  .adox .r12 (.reg .rbx), -- 854: adox r12, rbx
  .mulx .rbx .rax (.mem ⟨some .rsp, none, 432#64⟩), -- 855: mulx rbx, rax, [rsp + (13 * 32)+ 0x10]
  .adcx .r12 (.reg .rax), -- 856: adcx r12, rax
  .adox .r13 (.reg .rbx), -- 857: adox r13, rbx
  .mulx .r14 .rax (.mem ⟨some .rsp, none, 440#64⟩), -- 858: mulx r14, rax, [rsp + (13 * 32)+ 0x18]
  .adcx .r13 (.reg .rax), -- 859: adcx r13, rax
  .adox .r14 (.reg .rcx), -- 860: adox r14, rcx
  .adcx .r14 (.reg .rcx), -- 861: adcx r14, rcx
  .xor (.reg .rcx) (.reg .rcx), -- 862: xor ecx, ecx
  .mov (.reg .rdx) (.mem ⟨some .rsp, none, 408#64⟩), -- 863: mov rdx, [rsp + (12 * 32)+ 0x18]
  .mulx .rbx .rax (.mem ⟨some .rsp, none, 416#64⟩), -- 864: mulx rbx, rax, [rsp + (13 * 32)]
  .adcx .r11 (.reg .rax), -- 865: adcx r11, rax
  .adox .r12 (.reg .rbx), -- 866: adox r12, rbx
  .mulx .rbx .rax (.mem ⟨some .rsp, none, 424#64⟩), -- 867: mulx rbx, rax, [rsp + (13 * 32)+ 0x8]
  .adcx .r12 (.reg .rax), -- 868: adcx r12, rax
  .adox .r13 (.reg .rbx), -- 869: adox r13, rbx
  .mulx .rbx .rax (.mem ⟨some .rsp, none, 432#64⟩), -- 870: mulx rbx, rax, [rsp + (13 * 32)+ 0x10]
  .adcx .r13 (.reg .rax), -- 871: adcx r13, rax
  .adox .r14 (.reg .rbx), -- 872: adox r14, rbx
  .mulx .r15 .rax (.mem ⟨some .rsp, none, 440#64⟩), -- 873: mulx r15, rax, [rsp + (13 * 32)+ 0x18]
  .adcx .r14 (.reg .rax), -- 874: adcx r14, rax
  .adox .r15 (.reg .rcx), -- 875: adox r15, rcx
  .adcx .r15 (.reg .rcx), -- 876: adcx r15, rcx
  .mov (.reg .rdx) (.imm 38#64), -- 877: mov edx, 0x26
  .xor (.reg .rcx) (.reg .rcx), -- 878: xor ecx, ecx
  .mulx .rbx .rax (.reg .r12), -- 879: mulx rbx, rax, r12
  .adcx .r8 (.reg .rax), -- 880: adcx r8, rax
  .adox .r9 (.reg .rbx), -- 881: adox r9, rbx
  .mulx .rbx .rax (.reg .r13), -- 882: mulx rbx, rax, r13
  .adcx .r9 (.reg .rax), -- 883: adcx r9, rax
  .adox .r10 (.reg .rbx), -- 884: adox r10, rbx
  .mulx .rbx .rax (.reg .r14), -- 885: mulx rbx, rax, r14
  .adcx .r10 (.reg .rax), -- 886: adcx r10, rax
  .adox .r11 (.reg .rbx), -- 887: adox r11, rbx
  .mulx .r12 .rax (.reg .r15), -- 888: mulx r12, rax, r15
  .adcx .r11 (.reg .rax), -- 889: adcx r11, rax
  .adox .r12 (.reg .rcx), -- 890: adox r12, rcx
  .adcx .r12 (.reg .rcx), -- 891: adcx r12, rcx
  .shld (.reg .r12) .r11 (.imm 1#64), -- 892: shld r12, r11, 0x1
  .btr .r11 63#64, -- 893: btr r11, 0x3f
  .mov (.reg .rdx) (.imm 19#64), -- 894: mov edx, 0x13
  .imul .rdx (.reg .r12), -- 895: imul rdx, r12
  .add (.reg .r8) (.reg .rdx), -- 896: add r8, rdx
  .adc (.reg .r9) (.reg .rcx), -- 897: adc r9, rcx
  .adc (.reg .r10) (.reg .rcx), -- 898: adc r10, rcx
  .adc (.reg .r11) (.reg .rcx), -- 899: adc r11, rcx
  .mov (.mem ⟨some .rsp, none, 128#64⟩) (.reg .r8), -- 900: mov [rsp + (4 * 32)], r8
  .mov (.mem ⟨some .rsp, none, 136#64⟩) (.reg .r9), -- 901: mov [rsp + (4 * 32)+ 0x8], r9
  .mov (.mem ⟨some .rsp, none, 144#64⟩) (.reg .r10), -- 902: mov [rsp + (4 * 32)+ 0x10], r10
  .mov (.mem ⟨some .rsp, none, 152#64⟩) (.reg .r11), -- 903: mov [rsp + (4 * 32)+ 0x18], r11
  .xor (.reg .rcx) (.reg .rcx), -- 904: xor ecx, ecx
  .mov (.reg .rdx) (.mem ⟨some .rsp, none, 288#64⟩), -- 905: mov rdx, [rsp + (9 * 32)]
  .mulx .r9 .r8 (.mem ⟨some .rsp, none, 256#64⟩), -- 906: mulx r9, r8, [rsp + (8 * 32)]
  .mulx .r10 .rax (.mem ⟨some .rsp, none, 264#64⟩), -- 907: mulx r10, rax, [rsp + (8 * 32)+ 0x8]
  .add (.reg .r9) (.reg .rax), -- 908: add r9, rax
  .mulx .r11 .rax (.mem ⟨some .rsp, none, 272#64⟩), -- 909: mulx r11, rax, [rsp + (8 * 32)+ 0x10]
  .adc (.reg .r10) (.reg .rax), -- 910: adc r10, rax
  .mulx .r12 .rax (.mem ⟨some .rsp, none, 280#64⟩), -- 911: mulx r12, rax, [rsp + (8 * 32)+ 0x18]
  .adc (.reg .r11) (.reg .rax), -- 912: adc r11, rax
  .adc (.reg .r12) (.reg .rcx), -- 913: adc r12, rcx
  .xor (.reg .rcx) (.reg .rcx), -- 914: xor ecx, ecx
  .mov (.reg .rdx) (.mem ⟨some .rsp, none, 296#64⟩), -- 915: mov rdx, [rsp + (9 * 32)+ 0x8]
  .mulx .rbx .rax (.mem ⟨some .rsp, none, 256#64⟩), -- 916: mulx rbx, rax, [rsp + (8 * 32)]
  .adcx .r9 (.reg .rax), -- 917: adcx r9, rax
  .adox .r10 (.reg .rbx), -- 918: adox r10, rbx
  .mulx .rbx .rax (.mem ⟨some .rsp, none, 264#64⟩), -- 919: mulx rbx, rax, [rsp + (8 * 32)+ 0x8]
  .adcx .r10 (.reg .rax), -- 920: adcx r10, rax
  .adox .r11 (.reg .rbx), -- 921: adox r11, rbx
  .mulx .rbx .rax (.mem ⟨some .rsp, none, 272#64⟩), -- 922: mulx rbx, rax, [rsp + (8 * 32)+ 0x10]
  .adcx .r11 (.reg .rax), -- 923: adcx r11, rax
  .adox .r12 (.reg .rbx), -- 924: adox r12, rbx
  .mulx .r13 .rax (.mem ⟨some .rsp, none, 280#64⟩), -- 925: mulx r13, rax, [rsp + (8 * 32)+ 0x18]
  .adcx .r12 (.reg .rax), -- 926: adcx r12, rax
  .adox .r13 (.reg .rcx), -- 927: adox r13, rcx
  .adcx .r13 (.reg .rcx), -- 928: adcx r13, rcx
  .xor (.reg .rcx) (.reg .rcx), -- 929: xor ecx, ecx
  .mov (.reg .rdx) (.mem ⟨some .rsp, none, 304#64⟩), -- 930: mov rdx, [rsp + (9 * 32)+ 0x10]
  .mulx .rbx .rax (.mem ⟨some .rsp, none, 256#64⟩), -- 931: mulx rbx, rax, [rsp + (8 * 32)]
  .adcx .r10 (.reg .rax), -- 932: adcx r10, rax
  .adox .r11 (.reg .rbx), -- 933: adox r11, rbx
  .mulx .rbx .rax (.mem ⟨some .rsp, none, 264#64⟩), -- 934: mulx rbx, rax, [rsp + (8 * 32)+ 0x8]
  .adcx .r11 (.reg .rax), -- 935: adcx r11, rax
  .adox .r12 (.reg .rbx), -- 936: adox r12, rbx
  .mulx .rbx .rax (.mem ⟨some .rsp, none, 272#64⟩), -- 937: mulx rbx, rax, [rsp + (8 * 32)+ 0x10]
  .adcx .r12 (.reg .rax), -- 938: adcx r12, rax
  .adox .r13 (.reg .rbx), -- 939: adox r13, rbx
  .mulx .r14 .rax (.mem ⟨some .rsp, none, 280#64⟩), -- 940: mulx r14, rax, [rsp + (8 * 32)+ 0x18]
  .adcx .r13 (.reg .rax), -- 941: adcx r13, rax
  .adox .r14 (.reg .rcx), -- 942: adox r14, rcx
  .adcx .r14 (.reg .rcx), -- 943: adcx r14, rcx
  .xor (.reg .rcx) (.reg .rcx), -- 944: xor ecx, ecx
  .mov (.reg .rdx) (.mem ⟨some .rsp, none, 312#64⟩), -- 945: mov rdx, [rsp + (9 * 32)+ 0x18]
  .mulx .rbx .rax (.mem ⟨some .rsp, none, 256#64⟩), -- 946: mulx rbx, rax, [rsp + (8 * 32)]
  .adcx .r11 (.reg .rax), -- 947: adcx r11, rax
  .adox .r12 (.reg .rbx), -- 948: adox r12, rbx
  .mulx .rbx .rax (.mem ⟨some .rsp, none, 264#64⟩), -- 949: mulx rbx, rax, [rsp + (8 * 32)+ 0x8]
  .adcx .r12 (.reg .rax), -- 950: adcx r12, rax
  .adox .r13 (.reg .rbx), -- 951: adox r13, rbx
  .mulx .rbx .rax (.mem ⟨some .rsp, none, 272#64⟩), -- 952: mulx rbx, rax, [rsp + (8 * 32)+ 0x10]
  .adcx .r13 (.reg .rax), -- 953: adcx r13, rax
  .adox .r14 (.reg .rbx), -- 954: adox r14, rbx
  .mulx .r15 .rax (.mem ⟨some .rsp, none, 280#64⟩), -- 955: mulx r15, rax, [rsp + (8 * 32)+ 0x18]
  .adcx .r14 (.reg .rax), -- 956: adcx r14, rax
  .adox .r15 (.reg .rcx), -- 957: adox r15, rcx
  .adcx .r15 (.reg .rcx), -- 958: adcx r15, rcx
  .mov (.reg .rdx) (.imm 38#64), -- 959: mov edx, 0x26
  .xor (.reg .rcx) (.reg .rcx), -- 960: xor ecx, ecx
  .mulx .rbx .rax (.reg .r12), -- 961: mulx rbx, rax, r12
  .adcx .r8 (.reg .rax), -- 962: adcx r8, rax
  .adox .r9 (.reg .rbx), -- 963: adox r9, rbx
  .mulx .rbx .rax (.reg .r13), -- 964: mulx rbx, rax, r13
  .adcx .r9 (.reg .rax), -- 965: adcx r9, rax
  .adox .r10 (.reg .rbx), -- 966: adox r10, rbx
  .mulx .rbx .rax (.reg .r14), -- 967: mulx rbx, rax, r14
  .adcx .r10 (.reg .rax), -- 968: adcx r10, rax
  .adox .r11 (.reg .rbx), -- 969: adox r11, rbx
  .mulx .r12 .rax (.reg .r15), -- 970: mulx r12, rax, r15
  .adcx .r11 (.reg .rax), -- 971: adcx r11, rax
  .adox .r12 (.reg .rcx), -- 972: adox r12, rcx
  .adcx .r12 (.reg .rcx), -- 973: adcx r12, rcx
  .shld (.reg .r12) .r11 (.imm 1#64), -- 974: shld r12, r11, 0x1
  .btr .r11 63#64, -- 975: btr r11, 0x3f
  .mov (.reg .rdx) (.imm 19#64), -- 976: mov edx, 0x13
  .imul .rdx (.reg .r12), -- 977: imul rdx, r12
  .add (.reg .r8) (.reg .rdx), -- 978: add r8, rdx
  .adc (.reg .r9) (.reg .rcx), -- 979: adc r9, rcx
  .adc (.reg .r10) (.reg .rcx), -- 980: adc r10, rcx
  .adc (.reg .r11) (.reg .rcx), -- 981: adc r11, rcx
  .mov (.mem ⟨some .rsp, none, 160#64⟩) (.reg .r8), -- 982: mov [rsp + (5 * 32)], r8
  .mov (.mem ⟨some .rsp, none, 168#64⟩) (.reg .r9), -- 983: mov [rsp + (5 * 32)+ 0x8], r9
  .mov (.mem ⟨some .rsp, none, 176#64⟩) (.reg .r10), -- 984: mov [rsp + (5 * 32)+ 0x10], r10
  .mov (.mem ⟨some .rsp, none, 184#64⟩) (.reg .r11), -- 985: mov [rsp + (5 * 32)+ 0x18], r11
  .xor (.reg .rcx) (.reg .rcx), -- 986: xor ecx, ecx
  .mov (.reg .rdx) (.mem ⟨some .rsp, none, 288#64⟩), -- 987: mov rdx, [rsp + (9 * 32)]
  .mulx .r9 .r8 (.mem ⟨some .rsp, none, 416#64⟩), -- 988: mulx r9, r8, [rsp + (13 * 32)]
  .mulx .r10 .rax (.mem ⟨some .rsp, none, 424#64⟩), -- 989: mulx r10, rax, [rsp + (13 * 32)+ 0x8]
  .add (.reg .r9) (.reg .rax), -- 990: add r9, rax
  .mulx .r11 .rax (.mem ⟨some .rsp, none, 432#64⟩), -- 991: mulx r11, rax, [rsp + (13 * 32)+ 0x10]
  .adc (.reg .r10) (.reg .rax), -- 992: adc r10, rax
  .mulx .r12 .rax (.mem ⟨some .rsp, none, 440#64⟩), -- 993: mulx r12, rax, [rsp + (13 * 32)+ 0x18]
  .adc (.reg .r11) (.reg .rax), -- 994: adc r11, rax
  .adc (.reg .r12) (.reg .rcx), -- 995: adc r12, rcx
  .xor (.reg .rcx) (.reg .rcx), -- 996: xor ecx, ecx
  .mov (.reg .rdx) (.mem ⟨some .rsp, none, 296#64⟩), -- 997: mov rdx, [rsp + (9 * 32)+ 0x8]
  .mulx .rbx .rax (.mem ⟨some .rsp, none, 416#64⟩), -- 998: mulx rbx, rax, [rsp + (13 * 32)]
  .adcx .r9 (.reg .rax), -- 999: adcx r9, rax
  .adox .r10 (.reg .rbx), -- 1000: adox r10, rbx
  .mulx .rbx .rax (.mem ⟨some .rsp, none, 424#64⟩), -- 1001: mulx rbx, rax, [rsp + (13 * 32)+ 0x8]
  .adcx .r10 (.reg .rax), -- 1002: adcx r10, rax
  .adox .r11 (.reg .rbx), -- 1003: adox r11, rbx
  .mulx .rbx .rax (.mem ⟨some .rsp, none, 432#64⟩), -- 1004: mulx rbx, rax, [rsp + (13 * 32)+ 0x10]
  .adcx .r11 (.reg .rax), -- 1005: adcx r11, rax
  .adox .r12 (.reg .rbx), -- 1006: adox r12, rbx
  .mulx .r13 .rax (.mem ⟨some .rsp, none, 440#64⟩), -- 1007: mulx r13, rax, [rsp + (13 * 32)+ 0x18]
  .adcx .r12 (.reg .rax), -- 1008: adcx r12, rax
  .adox .r13 (.reg .rcx), -- 1009: adox r13, rcx
  .adcx .r13 (.reg .rcx), -- 1010: adcx r13, rcx
  .xor (.reg .rcx) (.reg .rcx), -- 1011: xor ecx, ecx
  .mov (.reg .rdx) (.mem ⟨some .rsp, none, 304#64⟩), -- 1012: mov rdx, [rsp + (9 * 32)+ 0x10]
  .mulx .rbx .rax (.mem ⟨some .rsp, none, 416#64⟩), -- 1013: mulx rbx, rax, [rsp + (13 * 32)]
  .adcx .r10 (.reg .rax), -- 1014: adcx r10, rax
  .adox .r11 (.reg .rbx), -- 1015: adox r11, rbx
  .mulx .rbx .rax (.mem ⟨some .rsp, none, 424#64⟩), -- 1016: mulx rbx, rax, [rsp + (13 * 32)+ 0x8]
  .adcx .r11 (.reg .rax), -- 1017: adcx r11, rax
  .adox .r12 (.reg .rbx), -- 1018: adox r12, rbx
  .mulx .rbx .rax (.mem ⟨some .rsp, none, 432#64⟩), -- 1019: mulx rbx, rax, [rsp + (13 * 32)+ 0x10]
  .adcx .r12 (.reg .rax), -- 1020: adcx r12, rax
  .adox .r13 (.reg .rbx), -- 1021: adox r13, rbx
  .mulx .r14 .rax (.mem ⟨some .rsp, none, 440#64⟩), -- 1022: mulx r14, rax, [rsp + (13 * 32)+ 0x18]
  .adcx .r13 (.reg .rax), -- 1023: adcx r13, rax
  .adox .r14 (.reg .rcx), -- 1024: adox r14, rcx
  .adcx .r14 (.reg .rcx), -- 1025: adcx r14, rcx
  .xor (.reg .rcx) (.reg .rcx), -- 1026: xor ecx, ecx
  .mov (.reg .rdx) (.mem ⟨some .rsp, none, 312#64⟩), -- 1027: mov rdx, [rsp + (9 * 32)+ 0x18]
  .mulx .rbx .rax (.mem ⟨some .rsp, none, 416#64⟩), -- 1028: mulx rbx, rax, [rsp + (13 * 32)]
  .adcx .r11 (.reg .rax), -- 1029: adcx r11, rax
  .adox .r12 (.reg .rbx), -- 1030: adox r12, rbx
  .mulx .rbx .rax (.mem ⟨some .rsp, none, 424#64⟩), -- 1031: mulx rbx, rax, [rsp + (13 * 32)+ 0x8]
  .adcx .r12 (.reg .rax), -- 1032: adcx r12, rax
  .adox .r13 (.reg .rbx), -- 1033: adox r13, rbx
  .mulx .rbx .rax (.mem ⟨some .rsp, none, 432#64⟩), -- 1034: mulx rbx, rax, [rsp + (13 * 32)+ 0x10]
  .adcx .r13 (.reg .rax), -- 1035: adcx r13, rax
  .adox .r14 (.reg .rbx), -- 1036: adox r14, rbx
  .mulx .r15 .rax (.mem ⟨some .rsp, none, 440#64⟩), -- 1037: mulx r15, rax, [rsp + (13 * 32)+ 0x18]
  .adcx .r14 (.reg .rax), -- 1038: adcx r14, rax
  .adox .r15 (.reg .rcx), -- 1039: adox r15, rcx
  .adcx .r15 (.reg .rcx), -- 1040: adcx r15, rcx
  .mov (.reg .rdx) (.imm 38#64), -- 1041: mov edx, 0x26
  .xor (.reg .rcx) (.reg .rcx), -- 1042: xor ecx, ecx
  .mulx .rbx .rax (.reg .r12), -- 1043: mulx rbx, rax, r12
  .adcx .r8 (.reg .rax), -- 1044: adcx r8, rax
  .adox .r9 (.reg .rbx), -- 1045: adox r9, rbx
  .mulx .rbx .rax (.reg .r13), -- 1046: mulx rbx, rax, r13
  .adcx .r9 (.reg .rax), -- 1047: adcx r9, rax
  .adox .r10 (.reg .rbx), -- 1048: adox r10, rbx
  .mulx .rbx .rax (.reg .r14), -- 1049: mulx rbx, rax, r14
  .adcx .r10 (.reg .rax), -- 1050: adcx r10, rax
  .adox .r11 (.reg .rbx), -- 1051: adox r11, rbx
  .mulx .r12 .rax (.reg .r15), -- 1052: mulx r12, rax, r15
  .adcx .r11 (.reg .rax), -- 1053: adcx r11, rax
  .adox .r12 (.reg .rcx), -- 1054: adox r12, rcx
  .adcx .r12 (.reg .rcx), -- 1055: adcx r12, rcx
  .shld (.reg .r12) .r11 (.imm 1#64), -- 1056: shld r12, r11, 0x1
  .btr .r11 63#64, -- 1057: btr r11, 0x3f
  .mov (.reg .rdx) (.imm 19#64), -- 1058: mov edx, 0x13
  .imul .rdx (.reg .r12), -- 1059: imul rdx, r12
  .add (.reg .r8) (.reg .rdx), -- 1060: add r8, rdx
  .adc (.reg .r9) (.reg .rcx), -- 1061: adc r9, rcx
  .adc (.reg .r10) (.reg .rcx), -- 1062: adc r10, rcx
  .adc (.reg .r11) (.reg .rcx), -- 1063: adc r11, rcx
  .mov (.mem ⟨some .rsp, none, 224#64⟩) (.reg .r8), -- 1064: mov [rsp + (7 * 32)], r8
  .mov (.mem ⟨some .rsp, none, 232#64⟩) (.reg .r9), -- 1065: mov [rsp + (7 * 32)+ 0x8], r9
  .mov (.mem ⟨some .rsp, none, 240#64⟩) (.reg .r10), -- 1066: mov [rsp + (7 * 32)+ 0x10], r10
  .mov (.mem ⟨some .rsp, none, 248#64⟩) (.reg .r11), -- 1067: mov [rsp + (7 * 32)+ 0x18], r11
  .add (.mem ⟨some .rsp, none, 456#64⟩) (.imm 4#64), -- 1068: add QWORD PTR [rsp + 14 * 32+ 8], 4
  .cmp (.mem ⟨some .rsp, none, 456#64⟩) (.imm 256#64), -- 1069: cmp QWORD PTR [rsp + 14 * 32+ 8], 256
  .jcc .cy 80, -- 1070: jc @3b
  .mov (.reg .r8) (.mem ⟨some .rsp, none, 128#64⟩), -- 1071: mov r8, [rsp + (4 * 32)]
  .xor (.reg .rcx) (.reg .rcx), -- 1072: xor ecx, ecx
  .add (.reg .r8) (.mem ⟨some .rsp, none, 224#64⟩), -- 1073: add r8, [rsp + (7 * 32)]
  .mov (.reg .r9) (.mem ⟨some .rsp, none, 136#64⟩), -- 1074: mov r9, [rsp + (4 * 32)+ 0x8]
  .adc (.reg .r9) (.mem ⟨some .rsp, none, 232#64⟩), -- 1075: adc r9, [rsp + (7 * 32)+ 0x8]
  .mov (.reg .r10) (.mem ⟨some .rsp, none, 144#64⟩), -- 1076: mov r10, [rsp + (4 * 32)+ 0x10]
  .adc (.reg .r10) (.mem ⟨some .rsp, none, 240#64⟩), -- 1077: adc r10, [rsp + (7 * 32)+ 0x10]
  .mov (.reg .r11) (.mem ⟨some .rsp, none, 152#64⟩), -- 1078: mov r11, [rsp + (4 * 32)+ 0x18]
  .adc (.reg .r11) (.mem ⟨some .rsp, none, 248#64⟩), -- 1079: adc r11, [rsp + (7 * 32)+ 0x18]
  .mov (.reg .rax) (.imm 38#64), -- 1080: mov eax, 38
  .cmov .nc .rax (.reg .rcx), -- 1081: cmovnc rax, rcx
  .add (.reg .r8) (.reg .rax), -- 1082: add r8, rax
  .adc (.reg .r9) (.reg .rcx), -- 1083: adc r9, rcx
  .adc (.reg .r10) (.reg .rcx), -- 1084: adc r10, rcx
  .adc (.reg .r11) (.reg .rcx), -- 1085: adc r11, rcx
  .mov (.mem ⟨some .rsp, none, 288#64⟩) (.reg .r8), -- 1086: mov [rsp + (9 * 32)], r8
  .mov (.mem ⟨some .rsp, none, 296#64⟩) (.reg .r9), -- 1087: mov [rsp + (9 * 32)+ 0x8], r9
  .mov (.mem ⟨some .rsp, none, 304#64⟩) (.reg .r10), -- 1088: mov [rsp + (9 * 32)+ 0x10], r10
  .mov (.mem ⟨some .rsp, none, 312#64⟩) (.reg .r11), -- 1089: mov [rsp + (9 * 32)+ 0x18], r11
  .mov (.reg .r8) (.mem ⟨some .rsp, none, 128#64⟩), -- 1090: mov r8, [rsp + (4 * 32)]
  .xor (.reg .rbx) (.reg .rbx), -- 1091: xor ebx, ebx
  .sub (.reg .r8) (.mem ⟨some .rsp, none, 224#64⟩), -- 1092: sub r8, [rsp + (7 * 32)]
  .mov (.reg .r9) (.mem ⟨some .rsp, none, 136#64⟩), -- 1093: mov r9, [rsp + (4 * 32)+ 8]
  .sbb (.reg .r9) (.mem ⟨some .rsp, none, 232#64⟩), -- 1094: sbb r9, [rsp + (7 * 32)+ 8]
  .mov (.reg .rcx) (.imm 38#64), -- 1095: mov ecx, 38
  .mov (.reg .r10) (.mem ⟨some .rsp, none, 144#64⟩), -- 1096: mov r10, [rsp + (4 * 32)+ 16]
  .sbb (.reg .r10) (.mem ⟨some .rsp, none, 240#64⟩), -- 1097: sbb r10, [rsp + (7 * 32)+ 16]
  .mov (.reg .rax) (.mem ⟨some .rsp, none, 152#64⟩), -- 1098: mov rax, [rsp + (4 * 32)+ 24]
  .sbb (.reg .rax) (.mem ⟨some .rsp, none, 248#64⟩), -- 1099: sbb rax, [rsp + (7 * 32)+ 24]
  .cmov .nc .rcx (.reg .rbx), -- 1100: cmovnc rcx, rbx
  .sub (.reg .r8) (.reg .rcx), -- 1101: sub r8, rcx
  .sbb (.reg .r9) (.reg .rbx), -- 1102: sbb r9, rbx
  .sbb (.reg .r10) (.reg .rbx), -- 1103: sbb r10, rbx
  .sbb (.reg .rax) (.reg .rbx), -- 1104: sbb rax, rbx
  .mov (.mem ⟨some .rsp, none, 320#64⟩) (.reg .r8), -- 1105: mov [rsp + (10 * 32)], r8
  .mov (.mem ⟨some .rsp, none, 328#64⟩) (.reg .r9), -- 1106: mov [rsp + (10 * 32)+ 8], r9
  .mov (.mem ⟨some .rsp, none, 336#64⟩) (.reg .r10), -- 1107: mov [rsp + (10 * 32)+ 16], r10
  .mov (.mem ⟨some .rsp, none, 344#64⟩) (.reg .rax), -- 1108: mov [rsp + (10 * 32)+ 24], rax
  .lea .rdi ⟨some .rsp, none, 256#64⟩, -- 1109: lea rdi, [rsp + 256]
  .lea .rsi ⟨some .rsp, none, 320#64⟩, -- 1110: lea rsi, [rsp + 320]
  .mov (.mem ⟨some .rsp, none, 192#64⟩) (.reg .rdi), -- 1111: mov [rsp + 0xc0], rdi
  .xor (.reg .rax) (.reg .rax), -- 1112: xor eax, eax
  .lea .rcx ⟨some .rax, none, 0xffffffffffffffed#64⟩, -- 1113: lea rcx, [rax -0x13]
  .not (.reg .rax), -- 1114: not rax
  .mov (.mem ⟨some .rsp, none, 0#64⟩) (.reg .rcx), -- 1115: mov [rsp], rcx
  .mov (.mem ⟨some .rsp, none, 8#64⟩) (.reg .rax), -- 1116: mov [rsp + 0x8], rax
  .mov (.mem ⟨some .rsp, none, 16#64⟩) (.reg .rax), -- 1117: mov [rsp + 0x10], rax
  .btr .rax 63#64, -- 1118: btr rax, 0x3f
  .mov (.mem ⟨some .rsp, none, 24#64⟩) (.reg .rax), -- 1119: mov [rsp + 0x18], rax
  .mov (.reg .rdx) (.mem ⟨some .rsi, none, 0#64⟩), -- 1120: mov rdx, [rsi]
  .mov (.reg .rcx) (.mem ⟨some .rsi, none, 8#64⟩), -- 1121: mov rcx, [rsi + 0x8]
  .mov (.reg .r8) (.mem ⟨some .rsi, none, 16#64⟩), -- 1122: mov r8, [rsi + 0x10]
  .mov (.reg .r9) (.mem ⟨some .rsi, none, 24#64⟩), -- 1123: mov r9, [rsi + 0x18]
  .mov (.reg .rax) (.imm 1#64), -- 1124: mov eax, 0x1
  .xor (.reg .r10) (.reg .r10), -- 1125: xor r10d, r10d
  .bts .r9 63#64, -- 1126: bts r9, 0x3f
  .adc (.reg .rax) (.reg .r10), -- 1127: adc rax, r10
  .imul3 .rax (.reg .rax) 19#64, -- 1128: imul rax, rax, 0x13
  .add (.reg .rdx) (.reg .rax), -- 1129: add rdx, rax
  .adc (.reg .rcx) (.reg .r10), -- 1130: adc rcx, r10
  .adc (.reg .r8) (.reg .r10), -- 1131: adc r8, r10
  .adc (.reg .r9) (.reg .r10), -- 1132: adc r9, r10
  .mov (.reg .rax) (.imm 19#64), -- 1133: mov eax, 0x13
  .cmov .cy .rax (.reg .r10), -- 1134: cmovb rax, r10
  .sub (.reg .rdx) (.reg .rax), -- 1135: sub rdx, rax
  .sbb (.reg .rcx) (.reg .r10), -- 1136: sbb rcx, r10
  .sbb (.reg .r8) (.reg .r10), -- 1137: sbb r8, r10
  .sbb (.reg .r9) (.reg .r10), -- 1138: sbb r9, r10
  .btr .r9 63#64, -- 1139: btr r9, 0x3f
  .mov (.mem ⟨some .rsp, none, 32#64⟩) (.reg .rdx), -- 1140: mov [rsp + 0x20], rdx
  .mov (.mem ⟨some .rsp, none, 40#64⟩) (.reg .rcx), -- 1141: mov [rsp + 0x28], rcx
  .mov (.mem ⟨some .rsp, none, 48#64⟩) (.reg .r8), -- 1142: mov [rsp + 0x30], r8
  .mov (.mem ⟨some .rsp, none, 56#64⟩) (.reg .r9), -- 1143: mov [rsp + 0x38], r9
  .xor (.reg .rax) (.reg .rax), -- 1144: xor eax, eax
  .mov (.mem ⟨some .rsp, none, 64#64⟩) (.reg .rax), -- 1145: mov [rsp + 0x40], rax
  .mov (.mem ⟨some .rsp, none, 72#64⟩) (.reg .rax), -- 1146: mov [rsp + 0x48], rax
  .mov (.mem ⟨some .rsp, none, 80#64⟩) (.reg .rax), -- 1147: mov [rsp + 0x50], rax
  .mov (.mem ⟨some .rsp, none, 88#64⟩) (.reg .rax), -- 1148: mov [rsp + 0x58], rax
  .mov (.reg .rax) (.imm 0xa0f99e2375022099#64), -- 1149: movabs rax, 0xa0f99e2375022099
  .mov (.mem ⟨some .rsp, none, 96#64⟩) (.reg .rax), -- 1150: mov [rsp + 0x60], rax
  .mov (.reg .rax) (.imm 0xa8c68f3f1d132595#64), -- 1151: movabs rax, 0xa8c68f3f1d132595
  .mov (.mem ⟨some .rsp, none, 104#64⟩) (.reg .rax), -- 1152: mov [rsp + 0x68], rax
  .mov (.reg .rax) (.imm 0x6c6c893805ac5242#64), -- 1153: movabs rax, 0x6c6c893805ac5242
  .mov (.mem ⟨some .rsp, none, 112#64⟩) (.reg .rax), -- 1154: mov [rsp + 0x70], rax
  .mov (.reg .rax) (.imm 0x276508b241770615#64), -- 1155: movabs rax, 0x276508b241770615
  .mov (.mem ⟨some .rsp, none, 120#64⟩) (.reg .rax), -- 1156: mov [rsp + 0x78], rax
  .mov (.mem ⟨some .rsp, none, 144#64⟩) (.imm 10#64), -- 1157: mov QWORD PTR [rsp + 0x90], 0xa
  .mov (.mem ⟨some .rsp, none, 152#64⟩) (.imm 1#64), -- 1158: mov QWORD PTR [rsp + 0x98], 0x1
  .jmp 1450, -- 1159: jmp @4f
  .mov (.reg .r9) (.reg .r8), -- 1160: mov r9, r8
  .sar (.reg .r9) (.imm 63#64), -- 1161: sar r9, 0x3f
  .xor (.reg .r8) (.reg .r9), -- 1162: xor r8, r9
  .sub (.reg .r8) (.reg .r9), -- 1163: sub r8, r9
  .mov (.reg .r11) (.reg .r10), -- 1164: mov r11, r10
  .sar (.reg .r11) (.imm 63#64), -- 1165: sar r11, 0x3f
  .xor (.reg .r10) (.reg .r11), -- 1166: xor r10, r11
  .sub (.reg .r10) (.reg .r11), -- 1167: sub r10, r11
  .mov (.reg .r13) (.reg .r12), -- 1168: mov r13, r12
  .sar (.reg .r13) (.imm 63#64), -- 1169: sar r13, 0x3f
  .xor (.reg .r12) (.reg .r13), -- 1170: xor r12, r13
  .sub (.reg .r12) (.reg .r13), -- 1171: sub r12, r13
  .mov (.reg .r15) (.reg .r14), -- 1172: mov r15, r14
  .sar (.reg .r15) (.imm 63#64), -- 1173: sar r15, 0x3f
  .xor (.reg .r14) (.reg .r15), -- 1174: xor r14, r15
  .sub (.reg .r14) (.reg .r15), -- 1175: sub r14, r15
  .mov (.reg .rax) (.reg .r8), -- 1176: mov rax, r8
  .and (.reg .rax) (.reg .r9), -- 1177: and rax, r9
  .mov (.reg .rdi) (.reg .r10), -- 1178: mov rdi, r10
  .and (.reg .rdi) (.reg .r11), -- 1179: and rdi, r11
  .add (.reg .rdi) (.reg .rax), -- 1180: add rdi, rax
  .mov (.mem ⟨some .rsp, none, 128#64⟩) (.reg .rdi), -- 1181: mov [rsp + 0x80], rdi
  .mov (.reg .rax) (.reg .r12), -- 1182: mov rax, r12
  .and (.reg .rax) (.reg .r13), -- 1183: and rax, r13
  .mov (.reg .rsi) (.reg .r14), -- 1184: mov rsi, r14
  .and (.reg .rsi) (.reg .r15), -- 1185: and rsi, r15
  .add (.reg .rsi) (.reg .rax), -- 1186: add rsi, rax
  .mov (.mem ⟨some .rsp, none, 136#64⟩) (.reg .rsi), -- 1187: mov [rsp + 0x88], rsi
  .xor (.reg .rbx) (.reg .rbx), -- 1188: xor ebx, ebx
  .mov (.reg .rax) (.mem ⟨some .rsp, none, 0#64⟩), -- 1189: mov rax, [rsp]
  .xor (.reg .rax) (.reg .r9), -- 1190: xor rax, r9
  .mul (.reg .r8), -- 1191: mul r8
  .add (.reg .rdi) (.reg .rax), -- 1192: add rdi, rax
  .adc (.reg .rbx) (.reg .rdx), -- 1193: adc rbx, rdx
  .mov (.reg .rax) (.mem ⟨some .rsp, none, 32#64⟩), -- 1194: mov rax, [rsp + 0x20]
  .xor (.reg .rax) (.reg .r11), -- 1195: xor rax, r11
  .mul (.reg .r10), -- 1196: mul r10
  .add (.reg .rdi) (.reg .rax), -- 1197: add rdi, rax
  .adc (.reg .rbx) (.reg .rdx), -- 1198: adc rbx, rdx
  .xor (.reg .rbp) (.reg .rbp), -- 1199: xor ebp, ebp
  .mov (.reg .rax) (.mem ⟨some .rsp, none, 0#64⟩), -- 1200: mov rax, [rsp]
  .xor (.reg .rax) (.reg .r13), -- 1201: xor rax, r13
  .mul (.reg .r12), -- 1202: mul r12
  .add (.reg .rsi) (.reg .rax), -- 1203: add rsi, rax
  .adc (.reg .rbp) (.reg .rdx), -- 1204: adc rbp, rdx
  .mov (.reg .rax) (.mem ⟨some .rsp, none, 32#64⟩), -- 1205: mov rax, [rsp + 0x20]
  .xor (.reg .rax) (.reg .r15), -- 1206: xor rax, r15
  .mul (.reg .r14), -- 1207: mul r14
  .add (.reg .rsi) (.reg .rax), -- 1208: add rsi, rax
  .adc (.reg .rbp) (.reg .rdx), -- 1209: adc rbp, rdx
  .xor (.reg .rcx) (.reg .rcx), -- 1210: xor ecx, ecx
  .mov (.reg .rax) (.mem ⟨some .rsp, none, 8#64⟩), -- 1211: mov rax, [rsp + 0x8]
  .xor (.reg .rax) (.reg .r9), -- 1212: xor rax, r9
  .mul (.reg .r8), -- 1213: mul r8
  .add (.reg .rbx) (.reg .rax), -- 1214: add rbx, rax
  .adc (.reg .rcx) (.reg .rdx), -- 1215: adc rcx, rdx
  .mov (.reg .rax) (.mem ⟨some .rsp, none, 40#64⟩), -- 1216: mov rax, [rsp + 0x28]
  .xor (.reg .rax) (.reg .r11), -- 1217: xor rax, r11
  .mul (.reg .r10), -- 1218: mul r10
  .add (.reg .rbx) (.reg .rax), -- 1219: add rbx, rax
  .adc (.reg .rcx) (.reg .rdx), -- 1220: adc rcx, rdx
  .shrd (.reg .rdi) .rbx (.imm 59#64), -- 1221: shrd rdi, rbx, 0x3b
  .mov (.mem ⟨some .rsp, none, 0#64⟩) (.reg .rdi), -- 1222: mov [rsp], rdi
  .xor (.reg .rdi) (.reg .rdi), -- 1223: xor edi, edi
  .mov (.reg .rax) (.mem ⟨some .rsp, none, 8#64⟩), -- 1224: mov rax, [rsp + 0x8]
  .xor (.reg .rax) (.reg .r13), -- 1225: xor rax, r13
  .mul (.reg .r12), -- 1226: mul r12
  .add (.reg .rbp) (.reg .rax), -- 1227: add rbp, rax
  .adc (.reg .rdi) (.reg .rdx), -- 1228: adc rdi, rdx
  .mov (.reg .rax) (.mem ⟨some .rsp, none, 40#64⟩), -- 1229: mov rax, [rsp + 0x28]
  .xor (.reg .rax) (.reg .r15), -- 1230: xor rax, r15
  .mul (.reg .r14), -- 1231: mul r14
  .add (.reg .rbp) (.reg .rax), -- 1232: add rbp, rax
  .adc (.reg .rdi) (.reg .rdx), -- 1233: adc rdi, rdx
  .shrd (.reg .rsi) .rbp (.imm 59#64), -- 1234: shrd rsi, rbp, 0x3b
  .mov (.mem ⟨some .rsp, none, 32#64⟩) (.reg .rsi), -- 1235: mov [rsp + 0x20], rsi
  .xor (.reg .rsi) (.reg .rsi), -- 1236: xor esi, esi
  .mov (.reg .rax) (.mem ⟨some .rsp, none, 16#64⟩), -- 1237: mov rax, [rsp + 0x10]
  .xor (.reg .rax) (.reg .r9), -- 1238: xor rax, r9
  .mul (.reg .r8), -- 1239: mul r8
  .add (.reg .rcx) (.reg .rax), -- 1240: add rcx, rax
  .adc (.reg .rsi) (.reg .rdx), -- 1241: adc rsi, rdx
  .mov (.reg .rax) (.mem ⟨some .rsp, none, 48#64⟩), -- 1242: mov rax, [rsp + 0x30]
  .xor (.reg .rax) (.reg .r11), -- 1243: xor rax, r11
  .mul (.reg .r10), -- 1244: mul r10
  .add (.reg .rcx) (.reg .rax), -- 1245: add rcx, rax
  .adc (.reg .rsi) (.reg .rdx), -- 1246: adc rsi, rdx
  .shrd (.reg .rbx) .rcx (.imm 59#64), -- 1247: shrd rbx, rcx, 0x3b
  .mov (.mem ⟨some .rsp, none, 8#64⟩) (.reg .rbx), -- 1248: mov [rsp + 0x8], rbx
  .xor (.reg .rbx) (.reg .rbx), -- 1249: xor ebx, ebx
  .mov (.reg .rax) (.mem ⟨some .rsp, none, 16#64⟩), -- 1250: mov rax, [rsp + 0x10]
  .xor (.reg .rax) (.reg .r13), -- 1251: xor rax, r13
  .mul (.reg .r12), -- 1252: mul r12
  .add (.reg .rdi) (.reg .rax), -- 1253: add rdi, rax
  .adc (.reg .rbx) (.reg .rdx), -- 1254: adc rbx, rdx
  .mov (.reg .rax) (.mem ⟨some .rsp, none, 48#64⟩), -- 1255: mov rax, [rsp + 0x30]
  .xor (.reg .rax) (.reg .r15), -- 1256: xor rax, r15
  .mul (.reg .r14), -- 1257: mul r14
  .add (.reg .rdi) (.reg .rax), -- 1258: add rdi, rax
  .adc (.reg .rbx) (.reg .rdx), -- 1259: adc rbx, rdx
  .shrd (.reg .rbp) .rdi (.imm 59#64), -- 1260: shrd rbp, rdi, 0x3b
  .mov (.mem ⟨some .rsp, none, 40#64⟩) (.reg .rbp), -- 1261: mov [rsp + 0x28], rbp
  .mov (.reg .rax) (.mem ⟨some .rsp, none, 24#64⟩), -- 1262: mov rax, [rsp + 0x18]
  .xor (.reg .rax) (.reg .r9), -- 1263: xor rax, r9
  .mov (.reg .rbp) (.reg .rax), -- 1264: mov rbp, rax
  .sar (.reg .rbp) (.imm 63#64), -- 1265: sar rbp, 0x3f
  .and (.reg .rbp) (.reg .r8), -- 1266: and rbp, r8
  .neg (.reg .rbp), -- 1267: neg rbp
  .mul (.reg .r8), -- 1268: mul r8
  .add (.reg .rsi) (.reg .rax), -- 1269: add rsi, rax
  .adc (.reg .rbp) (.reg .rdx), -- 1270: adc rbp, rdx
  .mov (.reg .rax) (.mem ⟨some .rsp, none, 56#64⟩), -- 1271: mov rax, [rsp + 0x38]
  .xor (.reg .rax) (.reg .r11), -- 1272: xor rax, r11
  .mov (.reg .rdx) (.reg .rax), -- 1273: mov rdx, rax
  .sar (.reg .rdx) (.imm 63#64), -- 1274: sar rdx, 0x3f
  .and (.reg .rdx) (.reg .r10), -- 1275: and rdx, r10
  .sub (.reg .rbp) (.reg .rdx), -- 1276: sub rbp, rdx
  .mul (.reg .r10), -- 1277: mul r10
  .add (.reg .rsi) (.reg .rax), -- 1278: add rsi, rax
  .adc (.reg .rbp) (.reg .rdx), -- 1279: adc rbp, rdx
  .shrd (.reg .rcx) .rsi (.imm 59#64), -- 1280: shrd rcx, rsi, 0x3b
  .mov (.mem ⟨some .rsp, none, 16#64⟩) (.reg .rcx), -- 1281: mov [rsp + 0x10], rcx
  .shrd (.reg .rsi) .rbp (.imm 59#64), -- 1282: shrd rsi, rbp, 0x3b
  .mov (.reg .rax) (.mem ⟨some .rsp, none, 24#64⟩), -- 1283: mov rax, [rsp + 0x18]
  .mov (.mem ⟨some .rsp, none, 24#64⟩) (.reg .rsi), -- 1284: mov [rsp + 0x18], rsi
  .xor (.reg .rax) (.reg .r13), -- 1285: xor rax, r13
  .mov (.reg .rsi) (.reg .rax), -- 1286: mov rsi, rax
  .sar (.reg .rsi) (.imm 63#64), -- 1287: sar rsi, 0x3f
  .and (.reg .rsi) (.reg .r12), -- 1288: and rsi, r12
  .neg (.reg .rsi), -- 1289: neg rsi
  .mul (.reg .r12), -- 1290: mul r12
  .add (.reg .rbx) (.reg .rax), -- 1291: add rbx, rax
  .adc (.reg .rsi) (.reg .rdx), -- 1292: adc rsi, rdx
  .mov (.reg .rax) (.mem ⟨some .rsp, none, 56#64⟩), -- 1293: mov rax, [rsp + 0x38]
  .xor (.reg .rax) (.reg .r15), -- 1294: xor rax, r15
  .mov (.reg .rdx) (.reg .rax), -- 1295: mov rdx, rax
  .sar (.reg .rdx) (.imm 63#64), -- 1296: sar rdx, 0x3f
  .and (.reg .rdx) (.reg .r14), -- 1297: and rdx, r14
  .sub (.reg .rsi) (.reg .rdx), -- 1298: sub rsi, rdx
  .mul (.reg .r14), -- 1299: mul r14
  .add (.reg .rbx) (.reg .rax), -- 1300: add rbx, rax
  .adc (.reg .rsi) (.reg .rdx), -- 1301: adc rsi, rdx
  .shrd (.reg .rdi) .rbx (.imm 59#64), -- 1302: shrd rdi, rbx, 0x3b
  .mov (.mem ⟨some .rsp, none, 48#64⟩) (.reg .rdi), -- 1303: mov [rsp + 0x30], rdi
  .shrd (.reg .rbx) .rsi (.imm 59#64), -- 1304: shrd rbx, rsi, 0x3b
  .mov (.mem ⟨some .rsp, none, 56#64⟩) (.reg .rbx), -- 1305: mov [rsp + 0x38], rbx
  .mov (.reg .rbx) (.mem ⟨some .rsp, none, 128#64⟩), -- 1306: mov rbx, [rsp + 0x80]
  .mov (.reg .rbp) (.mem ⟨some .rsp, none, 136#64⟩), -- 1307: mov rbp, [rsp + 0x88]
  .xor (.reg .rcx) (.reg .rcx), -- 1308: xor ecx, ecx
  .mov (.reg .rax) (.mem ⟨some .rsp, none, 64#64⟩), -- 1309: mov rax, [rsp + 0x40]
  .xor (.reg .rax) (.reg .r9), -- 1310: xor rax, r9
  .mul (.reg .r8), -- 1311: mul r8
  .add (.reg .rbx) (.reg .rax), -- 1312: add rbx, rax
  .adc (.reg .rcx) (.reg .rdx), -- 1313: adc rcx, rdx
  .mov (.reg .rax) (.mem ⟨some .rsp, none, 96#64⟩), -- 1314: mov rax, [rsp + 0x60]
  .xor (.reg .rax) (.reg .r11), -- 1315: xor rax, r11
  .mul (.reg .r10), -- 1316: mul r10
  .add (.reg .rbx) (.reg .rax), -- 1317: add rbx, rax
  .adc (.reg .rcx) (.reg .rdx), -- 1318: adc rcx, rdx
  .xor (.reg .rsi) (.reg .rsi), -- 1319: xor esi, esi
  .mov (.reg .rax) (.mem ⟨some .rsp, none, 64#64⟩), -- 1320: mov rax, [rsp + 0x40]
  .xor (.reg .rax) (.reg .r13), -- 1321: xor rax, r13
  .mul (.reg .r12), -- 1322: mul r12
  .mov (.mem ⟨some .rsp, none, 64#64⟩) (.reg .rbx), -- 1323: mov [rsp + 0x40], rbx
  .add (.reg .rbp) (.reg .rax), -- 1324: add rbp, rax
  .adc (.reg .rsi) (.reg .rdx), -- 1325: adc rsi, rdx
  .mov (.reg .rax) (.mem ⟨some .rsp, none, 96#64⟩), -- 1326: mov rax, [rsp + 0x60]
  .xor (.reg .rax) (.reg .r15), -- 1327: xor rax, r15
  .mul (.reg .r14), -- 1328: mul r14
  .add (.reg .rbp) (.reg .rax), -- 1329: add rbp, rax
  .adc (.reg .rsi) (.reg .rdx), -- 1330: adc rsi, rdx
  .mov (.mem ⟨some .rsp, none, 96#64⟩) (.reg .rbp), -- 1331: mov [rsp + 0x60], rbp
  .xor (.reg .rbx) (.reg .rbx), -- 1332: xor ebx, ebx
  .mov (.reg .rax) (.mem ⟨some .rsp, none, 72#64⟩), -- 1333: mov rax, [rsp + 0x48]
  .xor (.reg .rax) (.reg .r9), -- 1334: xor rax, r9
  .mul (.reg .r8), -- 1335: mul r8
  .add (.reg .rcx) (.reg .rax), -- 1336: add rcx, rax
  .adc (.reg .rbx) (.reg .rdx), -- 1337: adc rbx, rdx
  .mov (.reg .rax) (.mem ⟨some .rsp, none, 104#64⟩), -- 1338: mov rax, [rsp + 0x68]
  .xor (.reg .rax) (.reg .r11), -- 1339: xor rax, r11
  .mul (.reg .r10), -- 1340: mul r10
  .add (.reg .rcx) (.reg .rax), -- 1341: add rcx, rax
  .adc (.reg .rbx) (.reg .rdx), -- 1342: adc rbx, rdx
  .xor (.reg .rbp) (.reg .rbp), -- 1343: xor ebp, ebp
  .mov (.reg .rax) (.mem ⟨some .rsp, none, 72#64⟩), -- 1344: mov rax, [rsp + 0x48]
  .xor (.reg .rax) (.reg .r13), -- 1345: xor rax, r13
  .mul (.reg .r12), -- 1346: mul r12
  .mov (.mem ⟨some .rsp, none, 72#64⟩) (.reg .rcx), -- 1347: mov [rsp + 0x48], rcx
  .add (.reg .rsi) (.reg .rax), -- 1348: add rsi, rax
  .adc (.reg .rbp) (.reg .rdx), -- 1349: adc rbp, rdx
  .mov (.reg .rax) (.mem ⟨some .rsp, none, 104#64⟩), -- 1350: mov rax, [rsp + 0x68]
  .xor (.reg .rax) (.reg .r15), -- 1351: xor rax, r15
  .mul (.reg .r14), -- 1352: mul r14
  .add (.reg .rsi) (.reg .rax), -- 1353: add rsi, rax
  .adc (.reg .rbp) (.reg .rdx), -- 1354: adc rbp, rdx
  .mov (.mem ⟨some .rsp, none, 104#64⟩) (.reg .rsi), -- 1355: mov [rsp + 0x68], rsi
  .xor (.reg .rcx) (.reg .rcx), -- 1356: xor ecx, ecx
  .mov (.reg .rax) (.mem ⟨some .rsp, none, 80#64⟩), -- 1357: mov rax, [rsp + 0x50]
  .xor (.reg .rax) (.reg .r9), -- 1358: xor rax, r9
  .mul (.reg .r8), -- 1359: mul r8
  .add (.reg .rbx) (.reg .rax), -- 1360: add rbx, rax
  .adc (.reg .rcx) (.reg .rdx), -- 1361: adc rcx, rdx
  .mov (.reg .rax) (.mem ⟨some .rsp, none, 112#64⟩), -- 1362: mov rax, [rsp + 0x70]
  .xor (.reg .rax) (.reg .r11), -- 1363: xor rax, r11
  .mul (.reg .r10), -- 1364: mul r10
  .add (.reg .rbx) (.reg .rax), -- 1365: add rbx, rax
  .adc (.reg .rcx) (.reg .rdx), -- 1366: adc rcx, rdx
  .xor (.reg .rsi) (.reg .rsi), -- 1367: xor esi, esi
  .mov (.reg .rax) (.mem ⟨some .rsp, none, 80#64⟩), -- 1368: mov rax, [rsp + 0x50]
  .xor (.reg .rax) (.reg .r13), -- 1369: xor rax, r13
  .mul (.reg .r12), -- 1370: mul r12
  .mov (.mem ⟨some .rsp, none, 80#64⟩) (.reg .rbx), -- 1371: mov [rsp + 0x50], rbx
  .add (.reg .rbp) (.reg .rax), -- 1372: add rbp, rax
  .adc (.reg .rsi) (.reg .rdx), -- 1373: adc rsi, rdx
  .mov (.reg .rax) (.mem ⟨some .rsp, none, 112#64⟩), -- 1374: mov rax, [rsp + 0x70]
  .xor (.reg .rax) (.reg .r15), -- 1375: xor rax, r15
  .mul (.reg .r14), -- 1376: mul r14
  .add (.reg .rbp) (.reg .rax), -- 1377: add rbp, rax
  .adc (.reg .rsi) (.reg .rdx), -- 1378: adc rsi, rdx
  .mov (.mem ⟨some .rsp, none, 112#64⟩) (.reg .rbp), -- 1379: mov [rsp + 0x70], rbp
  .mov (.reg .rax) (.mem ⟨some .rsp, none, 88#64⟩), -- 1380: mov rax, [rsp + 0x58]
  .xor (.reg .rax) (.reg .r9), -- 1381: xor rax, r9
  .mov (.reg .rbx) (.reg .r9), -- 1382: mov rbx, r9
  .and (.reg .rbx) (.reg .r8), -- 1383: and rbx, r8
  .neg (.reg .rbx), -- 1384: neg rbx
  .mul (.reg .r8), -- 1385: mul r8
  .add (.reg .rcx) (.reg .rax), -- 1386: add rcx, rax
  .adc (.reg .rbx) (.reg .rdx), -- 1387: adc rbx, rdx
  .mov (.reg .rax) (.mem ⟨some .rsp, none, 120#64⟩), -- 1388: mov rax, [rsp + 0x78]
  .xor (.reg .rax) (.reg .r11), -- 1389: xor rax, r11
  .mov (.reg .rdx) (.reg .r11), -- 1390: mov rdx, r11
  .and (.reg .rdx) (.reg .r10), -- 1391: and rdx, r10
  .sub (.reg .rbx) (.reg .rdx), -- 1392: sub rbx, rdx
  .mul (.reg .r10), -- 1393: mul r10
  .add (.reg .rcx) (.reg .rax), -- 1394: add rcx, rax
  .adc (.reg .rdx) (.reg .rbx), -- 1395: adc rdx, rbx
  .mov (.reg .rbx) (.reg .rdx), -- 1396: mov rbx, rdx
  .shld (.reg .rdx) .rcx (.imm 1#64), -- 1397: shld rdx, rcx, 0x1
  .sar (.reg .rbx) (.imm 63#64), -- 1398: sar rbx, 0x3f
  .add (.reg .rdx) (.reg .rbx), -- 1399: add rdx, rbx
  .mov (.reg .rax) (.imm 19#64), -- 1400: mov eax, 0x13
  .imul1 (.reg .rdx), -- 1401: imul rdx
  .mov (.reg .r8) (.mem ⟨some .rsp, none, 64#64⟩), -- 1402: mov r8, [rsp + 0x40]
  .add (.reg .r8) (.reg .rax), -- 1403: add r8, rax
  .mov (.mem ⟨some .rsp, none, 64#64⟩) (.reg .r8), -- 1404: mov [rsp + 0x40], r8
  .mov (.reg .r8) (.mem ⟨some .rsp, none, 72#64⟩), -- 1405: mov r8, [rsp + 0x48]
  .adc (.reg .r8) (.reg .rdx), -- 1406: adc r8, rdx
  .mov (.mem ⟨some .rsp, none, 72#64⟩) (.reg .r8), -- 1407: mov [rsp + 0x48], r8
  .mov (.reg .r8) (.mem ⟨some .rsp, none, 80#64⟩), -- 1408: mov r8, [rsp + 0x50]
  .adc (.reg .r8) (.reg .rbx), -- 1409: adc r8, rbx
  .mov (.mem ⟨some .rsp, none, 80#64⟩) (.reg .r8), -- 1410: mov [rsp + 0x50], r8
  .adc (.reg .rcx) (.reg .rbx), -- 1411: adc rcx, rbx
  .shl (.reg .rax) (.imm 63#64), -- 1412: shl rax, 0x3f
  .add (.reg .rcx) (.reg .rax), -- 1413: add rcx, rax
  .mov (.reg .rax) (.mem ⟨some .rsp, none, 88#64⟩), -- 1414: mov rax, [rsp + 0x58]
  .mov (.mem ⟨some .rsp, none, 88#64⟩) (.reg .rcx), -- 1415: mov [rsp + 0x58], rcx
  .xor (.reg .rax) (.reg .r13), -- 1416: xor rax, r13
  .mov (.reg .rcx) (.reg .r13), -- 1417: mov rcx, r13
  .and (.reg .rcx) (.reg .r12), -- 1418: and rcx, r12
  .neg (.reg .rcx), -- 1419: neg rcx
  .mul (.reg .r12), -- 1420: mul r12
  .add (.reg .rsi) (.reg .rax), -- 1421: add rsi, rax
  .adc (.reg .rcx) (.reg .rdx), -- 1422: adc rcx, rdx
  .mov (.reg .rax) (.mem ⟨some .rsp, none, 120#64⟩), -- 1423: mov rax, [rsp + 0x78]
  .xor (.reg .rax) (.reg .r15), -- 1424: xor rax, r15
  .mov (.reg .rdx) (.reg .r15), -- 1425: mov rdx, r15
  .and (.reg .rdx) (.reg .r14), -- 1426: and rdx, r14
  .sub (.reg .rcx) (.reg .rdx), -- 1427: sub rcx, rdx
  .mul (.reg .r14), -- 1428: mul r14
  .add (.reg .rsi) (.reg .rax), -- 1429: add rsi, rax
  .adc (.reg .rdx) (.reg .rcx), -- 1430: adc rdx, rcx
  .mov (.reg .rcx) (.reg .rdx), -- 1431: mov rcx, rdx
  .shld (.reg .rdx) .rsi (.imm 1#64), -- 1432: shld rdx, rsi, 0x1
  .sar (.reg .rcx) (.imm 63#64), -- 1433: sar rcx, 0x3f
  .mov (.reg .rax) (.imm 19#64), -- 1434: mov eax, 0x13
  .add (.reg .rdx) (.reg .rcx), -- 1435: add rdx, rcx
  .imul1 (.reg .rdx), -- 1436: imul rdx
  .mov (.reg .r8) (.mem ⟨some .rsp, none, 96#64⟩), -- 1437: mov r8, [rsp + 0x60]
  .add (.reg .r8) (.reg .rax), -- 1438: add r8, rax
  .mov (.mem ⟨some .rsp, none, 96#64⟩) (.reg .r8), -- 1439: mov [rsp + 0x60], r8
  .mov (.reg .r8) (.mem ⟨some .rsp, none, 104#64⟩), -- 1440: mov r8, [rsp + 0x68]
  .adc (.reg .r8) (.reg .rdx), -- 1441: adc r8, rdx
  .mov (.mem ⟨some .rsp, none, 104#64⟩) (.reg .r8), -- 1442: mov [rsp + 0x68], r8
  .mov (.reg .r8) (.mem ⟨some .rsp, none, 112#64⟩), -- 1443: mov r8, [rsp + 0x70]
  .adc (.reg .r8) (.reg .rcx), -- 1444: adc r8, rcx
  .mov (.mem ⟨some .rsp, none, 112#64⟩) (.reg .r8), -- 1445: mov [rsp + 0x70], r8
  .adc (.reg .rsi) (.reg .rcx), -- 1446: adc rsi, rcx
  .shl (.reg .rax) (.imm 63#64), -- 1447: shl rax, 0x3f
  .add (.reg .rsi) (.reg .rax), -- 1448: add rsi, rax
  .mov (.mem ⟨some .rsp, none, 120#64⟩) (.reg .rsi), -- 1449: mov [rsp + 0x78], rsi
  .mov (.reg .rsi) (.mem ⟨some .rsp, none, 152#64⟩), -- 1450: mov rsi, [rsp + 0x98]
  .mov (.reg .rdx) (.mem ⟨some .rsp, none, 0#64⟩), -- 1451: mov rdx, [rsp]
  .mov (.reg .rcx) (.mem ⟨some .rsp, none, 32#64⟩), -- 1452: mov rcx, [rsp + 0x20]
  .mov (.reg .rbx) (.reg .rdx), -- 1453: mov rbx, rdx
  .and (.reg .rbx) (.imm 0xfffff#64), -- 1454: and rbx, 0xfffff
  .mov (.reg .rax) (.imm 0xfffffe0000000000#64), -- 1455: movabs rax, 0xfffffe0000000000
  .or (.reg .rbx) (.reg .rax), -- 1456: or rbx, rax
  .and (.reg .rcx) (.imm 0xfffff#64), -- 1457: and rcx, 0xfffff
  .mov (.reg .rax) (.imm 0xc000000000000000#64), -- 1458: movabs rax, 0xc000000000000000
  .or (.reg .rcx) (.reg .rax), -- 1459: or rcx, rax
  .mov (.reg .rax) (.imm 0xfffffffffffffffe#64), -- 1460: mov rax, 0xfffffffffffffffe
  .xor (.reg .rbp) (.reg .rbp), -- 1461: xor ebp, ebp
  .mov (.reg .rdx) (.imm 2#64), -- 1462: mov edx, 0x2
  .mov (.reg .rdi) (.reg .rbx), -- 1463: mov rdi, rbx
  .mov (.reg .r8) (.reg .rax), -- 1464: mov r8, rax
  .test (.reg .rsi) (.reg .rsi), -- 1465: test rsi, rsi
  .cmov .sg .r8 (.reg .rbp), -- 1466: cmovs r8, rbp
  .test (.reg .rcx) (.imm 1#64), -- 1467: test rcx, 0x1
  .cmov .zr .r8 (.reg .rbp), -- 1468: cmove r8, rbp
  .cmov .zr .rdi (.reg .rbp), -- 1469: cmove rdi, rbp
  .xor (.reg .rdi) (.reg .r8), -- 1470: xor rdi, r8
  .xor (.reg .rsi) (.reg .r8), -- 1471: xor rsi, r8
  .bt (.reg .r8) 63#64, -- 1472: bt r8, 0x3f
  .cmov .cy .rbx (.reg .rcx), -- 1473: cmovb rbx, rcx
  .mov (.reg .r8) (.reg .rax), -- 1474: mov r8, rax
  .sub (.reg .rsi) (.reg .rax), -- 1475: sub rsi, rax
  .lea .rcx ⟨some .rcx, some (.rdi, 1#64), 0#64⟩, -- 1476: lea rcx, [rcx + rdi]
  .cmov .sg .r8 (.reg .rbp), -- 1477: cmovs r8, rbp
  .mov (.reg .rdi) (.reg .rbx), -- 1478: mov rdi, rbx
  .test (.reg .rcx) (.reg .rdx), -- 1479: test rcx, rdx
  .cmov .zr .r8 (.reg .rbp), -- 1480: cmove r8, rbp
  .cmov .zr .rdi (.reg .rbp), -- 1481: cmove rdi, rbp
  .sar (.reg .rcx) (.imm 1#64), -- 1482: sar rcx, 1
  .xor (.reg .rdi) (.reg .r8), -- 1483: xor rdi, r8
  .xor (.reg .rsi) (.reg .r8), -- 1484: xor rsi, r8
  .bt (.reg .r8) 63#64, -- 1485: bt r8, 0x3f
  .cmov .cy .rbx (.reg .rcx), -- 1486: cmovb rbx, rcx
  .mov (.reg .r8) (.reg .rax), -- 1487: mov r8, rax
  .sub (.reg .rsi) (.reg .rax), -- 1488: sub rsi, rax
  .lea .rcx ⟨some .rcx, some (.rdi, 1#64), 0#64⟩, -- 1489: lea rcx, [rcx + rdi]
  .cmov .sg .r8 (.reg .rbp), -- 1490: cmovs r8, rbp
  .mov (.reg .rdi) (.reg .rbx), -- 1491: mov rdi, rbx
  .test (.reg .rcx) (.reg .rdx), -- 1492: test rcx, rdx
  .cmov .zr .r8 (.reg .rbp), -- 1493: cmove r8, rbp
  .cmov .zr .rdi (.reg .rbp), -- 1494: cmove rdi, rbp
  .sar (.reg .rcx) (.imm 1#64), -- 1495: sar rcx, 1
  .xor (.reg .rdi) (.reg .r8), -- 1496: xor rdi, r8
  .xor (.reg .rsi) (.reg .r8), -- 1497: xor rsi, r8
  .bt (.reg .r8) 63#64, -- 1498: bt r8, 0x3f
  .cmov .cy .rbx (.reg .rcx), -- 1499: cmovb rbx, rcx
  .mov (.reg .r8) (.reg .rax), -- 1500: mov r8, rax
  .sub (.reg .rsi) (.reg .rax), -- 1501: sub rsi, rax
  .lea .rcx ⟨some .rcx, some (.rdi, 1#64), 0#64⟩, -- 1502: lea rcx, [rcx + rdi]
  .cmov .sg .r8 (.reg .rbp), -- 1503: cmovs r8, rbp
  .mov (.reg .rdi) (.reg .rbx), -- 1504: mov rdi, rbx
  .test (.reg .rcx) (.reg .rdx), -- 1505: test rcx, rdx
  .cmov .zr .r8 (.reg .rbp), -- 1506: cmove r8, rbp
  .cmov .zr .rdi (.reg .rbp), -- 1507: cmove rdi, rbp
  .sar (.reg .rcx) (.imm 1#64), -- 1508: sar rcx, 1
  .xor (.reg .rdi) (.reg .r8), -- 1509: xor rdi, r8
  .xor (.reg .rsi) (.reg .r8), -- 1510: xor rsi, r8
  .bt (.reg .r8) 63#64, -- 1511: bt r8, 0x3f
  .cmov .cy .rbx (.reg .rcx), -- 1512: cmovb rbx, rcx
  .mov (.reg .r8) (.reg .rax), -- 1513: mov r8, rax
  .sub (.reg .rsi) (.reg .rax), -- 1514: sub rsi, rax
  .lea .rcx ⟨some .rcx, some (.rdi, 1#64), 0#64⟩, -- 1515: lea rcx, [rcx + rdi]
  .cmov .sg .r8 (.reg .rbp), -- 1516: cmovs r8, rbp
  .mov (.reg .rdi) (.reg .rbx), -- 1517: mov rdi, rbx
  .test (.reg .rcx) (.reg .rdx), -- 1518: test rcx, rdx
  .cmov .zr .r8 (.reg .rbp), -- 1519: cmove r8, rbp
  .cmov .zr .rdi (.reg .rbp), -- 1520: cmove rdi, rbp
  .sar (.reg .rcx) (.imm 1#64), -- 1521: sar rcx, 1
  .xor (.reg .rdi) (.reg .r8), -- 1522: xor rdi, r8
  .xor (.reg .rsi) (.reg .r8), -- 1523: xor rsi, r8
  .bt (.reg .r8) 63#64, -- 1524: bt r8, 0x3f
  .cmov .cy .rbx (.reg .rcx), -- 1525: cmovb rbx, rcx
  .mov (.reg .r8) (.reg .rax), -- 1526: mov r8, rax
  .sub (.reg .rsi) (.reg .rax), -- 1527: sub rsi, rax
  .lea .rcx ⟨some .rcx, some (.rdi, 1#64), 0#64⟩, -- 1528: lea rcx, [rcx + rdi]
  .cmov .sg .r8 (.reg .rbp), -- 1529: cmovs r8, rbp
  .mov (.reg .rdi) (.reg .rbx), -- 1530: mov rdi, rbx
  .test (.reg .rcx) (.reg .rdx), -- 1531: test rcx, rdx
  .cmov .zr .r8 (.reg .rbp), -- 1532: cmove r8, rbp
  .cmov .zr .rdi (.reg .rbp), -- 1533: cmove rdi, rbp
  .sar (.reg .rcx) (.imm 1#64), -- 1534: sar rcx, 1
  .xor (.reg .rdi) (.reg .r8), -- 1535: xor rdi, r8
  .xor (.reg .rsi) (.reg .r8), -- 1536: xor rsi, r8
  .bt (.reg .r8) 63#64, -- 1537: bt r8, 0x3f
  .cmov .cy .rbx (.reg .rcx), -- 1538: cmovb rbx, rcx
  .mov (.reg .r8) (.reg .rax), -- 1539: mov r8, rax
  .sub (.reg .rsi) (.reg .rax), -- 1540: sub rsi, rax
  .lea .rcx ⟨some .rcx, some (.rdi, 1#64), 0#64⟩, -- 1541: lea rcx, [rcx + rdi]
  .cmov .sg .r8 (.reg .rbp), -- 1542: cmovs r8, rbp
  .mov (.reg .rdi) (.reg .rbx), -- 1543: mov rdi, rbx
  .test (.reg .rcx) (.reg .rdx), -- 1544: test rcx, rdx
  .cmov .zr .r8 (.reg .rbp), -- 1545: cmove r8, rbp
  .cmov .zr .rdi (.reg .rbp), -- 1546: cmove rdi, rbp
  .sar (.reg .rcx) (.imm 1#64), -- 1547: sar rcx, 1
  .xor (.reg .rdi) (.reg .r8), -- 1548: xor rdi, r8
  .xor (.reg .rsi) (.reg .r8), -- 1549: xor rsi, r8
  .bt (.reg .r8) 63#64, -- 1550: bt r8, 0x3f
  .cmov .cy .rbx (.reg .rcx), -- 1551: cmovb rbx, rcx
  .mov (.reg .r8) (.reg .rax), -- 1552: mov r8, rax
  .sub (.reg .rsi) (.reg .rax), -- 1553: sub rsi, rax
  .lea .rcx ⟨some .rcx, some (.rdi, 1#64), 0#64⟩, -- 1554: lea rcx, [rcx + rdi]
  .cmov .sg .r8 (.reg .rbp), -- 1555: cmovs r8, rbp
  .mov (.reg .rdi) (.reg .rbx), -- 1556: mov rdi, rbx
  .test (.reg .rcx) (.reg .rdx), -- 1557: test rcx, rdx
  .cmov .zr .r8 (.reg .rbp), -- 1558: cmove r8, rbp
  .cmov .zr .rdi (.reg .rbp), -- 1559: cmove rdi, rbp
  .sar (.reg .rcx) (.imm 1#64), -- 1560: sar rcx, 1
  .xor (.reg .rdi) (.reg .r8), -- 1561: xor rdi, r8
  .xor (.reg .rsi) (.reg .r8), -- 1562: xor rsi, r8
  .bt (.reg .r8) 63#64, -- 1563: bt r8, 0x3f
  .cmov .cy .rbx (.reg .rcx), -- 1564: cmovb rbx, rcx
  .mov (.reg .r8) (.reg .rax), -- 1565: mov r8, rax
  .sub (.reg .rsi) (.reg .rax), -- 1566: sub rsi, rax
  .lea .rcx ⟨some .rcx, some (.rdi, 1#64), 0#64⟩, -- 1567: lea rcx, [rcx + rdi]
  .cmov .sg .r8 (.reg .rbp), -- 1568: cmovs r8, rbp
  .mov (.reg .rdi) (.reg .rbx), -- 1569: mov rdi, rbx
  .test (.reg .rcx) (.reg .rdx), -- 1570: test rcx, rdx
  .cmov .zr .r8 (.reg .rbp), -- 1571: cmove r8, rbp
  .cmov .zr .rdi (.reg .rbp), -- 1572: cmove rdi, rbp
  .sar (.reg .rcx) (.imm 1#64), -- 1573: sar rcx, 1
  .xor (.reg .rdi) (.reg .r8), -- 1574: xor rdi, r8
  .xor (.reg .rsi) (.reg .r8), -- 1575: xor rsi, r8
  .bt (.reg .r8) 63#64, -- 1576: bt r8, 0x3f
  .cmov .cy .rbx (.reg .rcx), -- 1577: cmovb rbx, rcx
  .mov (.reg .r8) (.reg .rax), -- 1578: mov r8, rax
  .sub (.reg .rsi) (.reg .rax), -- 1579: sub rsi, rax
  .lea .rcx ⟨some .rcx, some (.rdi, 1#64), 0#64⟩, -- 1580: lea rcx, [rcx + rdi]
  .cmov .sg .r8 (.reg .rbp), -- 1581: cmovs r8, rbp
  .mov (.reg .rdi) (.reg .rbx), -- 1582: mov rdi, rbx
  .test (.reg .rcx) (.reg .rdx), -- 1583: test rcx, rdx
  .cmov .zr .r8 (.reg .rbp), -- 1584: cmove r8, rbp
  .cmov .zr .rdi (.reg .rbp), -- 1585: cmove rdi, rbp
  .sar (.reg .rcx) (.imm 1#64), -- 1586: sar rcx, 1
  .xor (.reg .rdi) (.reg .r8), -- 1587: xor rdi, r8
  .xor (.reg .rsi) (.reg .r8), -- 1588: xor rsi, r8
  .bt (.reg .r8) 63#64, -- 1589: bt r8, 0x3f
  .cmov .cy .rbx (.reg .rcx), -- 1590: cmovb rbx, rcx
  .mov (.reg .r8) (.reg .rax), -- 1591: mov r8, rax
  .sub (.reg .rsi) (.reg .rax), -- 1592: sub rsi, rax
  .lea .rcx ⟨some .rcx, some (.rdi, 1#64), 0#64⟩, -- 1593: lea rcx, [rcx + rdi]
  .cmov .sg .r8 (.reg .rbp), -- 1594: cmovs r8, rbp
  .mov (.reg .rdi) (.reg .rbx), -- 1595: mov rdi, rbx
  .test (.reg .rcx) (.reg .rdx), -- 1596: test rcx, rdx
  .cmov .zr .r8 (.reg .rbp), -- 1597: cmove r8, rbp
  .cmov .zr .rdi (.reg .rbp), -- 1598: cmove rdi, rbp
  .sar (.reg .rcx) (.imm 1#64), -- 1599: sar rcx, 1
  .xor (.reg .rdi) (.reg .r8), -- 1600: xor rdi, r8
  .xor (.reg .rsi) (.reg .r8), -- 1601: xor rsi, r8
  .bt (.reg .r8) 63#64, -- 1602: bt r8, 0x3f
  .cmov .cy .rbx (.reg .rcx), -- 1603: cmovb rbx, rcx
  .mov (.reg .r8) (.reg .rax), -- 1604: mov r8, rax
  .sub (.reg .rsi) (.reg .rax), -- 1605: sub rsi, rax
  .lea .rcx ⟨some .rcx, some (.rdi, 1#64), 0#64⟩, -- 1606: lea rcx, [rcx + rdi]
  .cmov .sg .r8 (.reg .rbp), -- 1607: cmovs r8, rbp
  .mov (.reg .rdi) (.reg .rbx), -- 1608: mov rdi, rbx
  .test (.reg .rcx) (.reg .rdx), -- 1609: test rcx, rdx
  .cmov .zr .r8 (.reg .rbp), -- 1610: cmove r8, rbp
  .cmov .zr .rdi (.reg .rbp), -- 1611: cmove rdi, rbp
  .sar (.reg .rcx) (.imm 1#64), -- 1612: sar rcx, 1
  .xor (.reg .rdi) (.reg .r8), -- 1613: xor rdi, r8
  .xor (.reg .rsi) (.reg .r8), -- 1614: xor rsi, r8
  .bt (.reg .r8) 63#64, -- 1615: bt r8, 0x3f
  .cmov .cy .rbx (.reg .rcx), -- 1616: cmovb rbx, rcx
  .mov (.reg .r8) (.reg .rax), -- 1617: mov r8, rax
  .sub (.reg .rsi) (.reg .rax), -- 1618: sub rsi, rax
  .lea .rcx ⟨some .rcx, some (.rdi, 1#64), 0#64⟩, -- 1619: lea rcx, [rcx + rdi]
  .cmov .sg .r8 (.reg .rbp), -- 1620: cmovs r8, rbp
  .mov (.reg .rdi) (.reg .rbx), -- 1621: mov rdi, rbx
  .test (.reg .rcx) (.reg .rdx), -- 1622: test rcx, rdx
  .cmov .zr .r8 (.reg .rbp), -- 1623: cmove r8, rbp
  .cmov .zr .rdi (.reg .rbp), -- 1624: cmove rdi, rbp
  .sar (.reg .rcx) (.imm 1#64), -- 1625: sar rcx, 1
  .xor (.reg .rdi) (.reg .r8), -- 1626: xor rdi, r8
  .xor (.reg .rsi) (.reg .r8), -- 1627: xor rsi, r8
  .bt (.reg .r8) 63#64, -- 1628: bt r8, 0x3f
  .cmov .cy .rbx (.reg .rcx), -- 1629: cmovb rbx, rcx
  .mov (.reg .r8) (.reg .rax), -- 1630: mov r8, rax
  .sub (.reg .rsi) (.reg .rax), -- 1631: sub rsi, rax
  .lea .rcx ⟨some .rcx, some (.rdi, 1#64), 0#64⟩, -- 1632: lea rcx, [rcx + rdi]
  .cmov .sg .r8 (.reg .rbp), -- 1633: cmovs r8, rbp
  .mov (.reg .rdi) (.reg .rbx), -- 1634: mov rdi, rbx
  .test (.reg .rcx) (.reg .rdx), -- 1635: test rcx, rdx
  .cmov .zr .r8 (.reg .rbp), -- 1636: cmove r8, rbp
  .cmov .zr .rdi (.reg .rbp), -- 1637: cmove rdi, rbp
  .sar (.reg .rcx) (.imm 1#64), -- 1638: sar rcx, 1
  .xor (.reg .rdi) (.reg .r8), -- 1639: xor rdi, r8
  .xor (.reg .rsi) (.reg .r8), -- 1640: xor rsi, r8
  .bt (.reg .r8) 63#64, -- 1641: bt r8, 0x3f
  .cmov .cy .rbx (.reg .rcx), -- 1642: cmovb rbx, rcx
  .mov (.reg .r8) (.reg .rax), -- 1643: mov r8, rax
  .sub (.reg .rsi) (.reg .rax), -- 1644: sub rsi, rax
  .lea .rcx ⟨some .rcx, some (.rdi, 1#64), 0#64⟩, -- 1645: lea rcx, [rcx + rdi]
  .cmov .sg .r8 (.reg .rbp), -- 1646: cmovs r8, rbp
  .mov (.reg .rdi) (.reg .rbx), -- 1647: mov rdi, rbx
  .test (.reg .rcx) (.reg .rdx), -- 1648: test rcx, rdx
  .cmov .zr .r8 (.reg .rbp), -- 1649: cmove r8, rbp
  .cmov .zr .rdi (.reg .rbp), -- 1650: cmove rdi, rbp
  .sar (.reg .rcx) (.imm 1#64), -- 1651: sar rcx, 1
  .xor (.reg .rdi) (.reg .r8), -- 1652: xor rdi, r8
  .xor (.reg .rsi) (.reg .r8), -- 1653: xor rsi, r8
  .bt (.reg .r8) 63#64, -- 1654: bt r8, 0x3f
  .cmov .cy .rbx (.reg .rcx), -- 1655: cmovb rbx, rcx
  .mov (.reg .r8) (.reg .rax), -- 1656: mov r8, rax
  .sub (.reg .rsi) (.reg .rax), -- 1657: sub rsi, rax
  .lea .rcx ⟨some .rcx, some (.rdi, 1#64), 0#64⟩, -- 1658: lea rcx, [rcx + rdi]
  .cmov .sg .r8 (.reg .rbp), -- 1659: cmovs r8, rbp
  .mov (.reg .rdi) (.reg .rbx), -- 1660: mov rdi, rbx
  .test (.reg .rcx) (.reg .rdx), -- 1661: test rcx, rdx
  .cmov .zr .r8 (.reg .rbp), -- 1662: cmove r8, rbp
  .cmov .zr .rdi (.reg .rbp), -- 1663: cmove rdi, rbp
  .sar (.reg .rcx) (.imm 1#64), -- 1664: sar rcx, 1
  .xor (.reg .rdi) (.reg .r8), -- 1665: xor rdi, r8
  .xor (.reg .rsi) (.reg .r8), -- 1666: xor rsi, r8
  .bt (.reg .r8) 63#64, -- 1667: bt r8, 0x3f
  .cmov .cy .rbx (.reg .rcx), -- 1668: cmovb rbx, rcx
  .mov (.reg .r8) (.reg .rax), -- 1669: mov r8, rax
  .sub (.reg .rsi) (.reg .rax), -- 1670: sub rsi, rax
  .lea .rcx ⟨some .rcx, some (.rdi, 1#64), 0#64⟩, -- 1671: lea rcx, [rcx + rdi]
  .cmov .sg .r8 (.reg .rbp), -- 1672: cmovs r8, rbp
  .mov (.reg .rdi) (.reg .rbx), -- 1673: mov rdi, rbx
  .test (.reg .rcx) (.reg .rdx), -- 1674: test rcx, rdx
  .cmov .zr .r8 (.reg .rbp), -- 1675: cmove r8, rbp
  .cmov .zr .rdi (.reg .rbp), -- 1676: cmove rdi, rbp
  .sar (.reg .rcx) (.imm 1#64), -- 1677: sar rcx, 1
  .xor (.reg .rdi) (.reg .r8), -- 1678: xor rdi, r8
  .xor (.reg .rsi) (.reg .r8), -- 1679: xor rsi, r8
  .bt (.reg .r8) 63#64, -- 1680: bt r8, 0x3f
  .cmov .cy .rbx (.reg .rcx), -- 1681: cmovb rbx, rcx
  .mov (.reg .r8) (.reg .rax), -- 1682: mov r8, rax
  .sub (.reg .rsi) (.reg .rax), -- 1683: sub rsi, rax
  .lea .rcx ⟨some .rcx, some (.rdi, 1#64), 0#64⟩, -- 1684: lea rcx, [rcx + rdi]
  .cmov .sg .r8 (.reg .rbp), -- 1685: cmovs r8, rbp
  .mov (.reg .rdi) (.reg .rbx), -- 1686: mov rdi, rbx
  .test (.reg .rcx) (.reg .rdx), -- 1687: test rcx, rdx
  .cmov .zr .r8 (.reg .rbp), -- 1688: cmove r8, rbp
  .cmov .zr .rdi (.reg .rbp), -- 1689: cmove rdi, rbp
  .sar (.reg .rcx) (.imm 1#64), -- 1690: sar rcx, 1
  .xor (.reg .rdi) (.reg .r8), -- 1691: xor rdi, r8
  .xor (.reg .rsi) (.reg .r8), -- 1692: xor rsi, r8
  .bt (.reg .r8) 63#64, -- 1693: bt r8, 0x3f
  .cmov .cy .rbx (.reg .rcx), -- 1694: cmovb rbx, rcx
  .mov (.reg .r8) (.reg .rax), -- 1695: mov r8, rax
  .sub (.reg .rsi) (.reg .rax), -- 1696: sub rsi, rax
  .lea .rcx ⟨some .rcx, some (.rdi, 1#64), 0#64⟩, -- 1697: lea rcx, [rcx + rdi]
  .cmov .sg .r8 (.reg .rbp), -- 1698: cmovs r8, rbp
  .mov (.reg .rdi) (.reg .rbx), -- 1699: mov rdi, rbx
  .test (.reg .rcx) (.reg .rdx), -- 1700: test rcx, rdx
  .cmov .zr .r8 (.reg .rbp), -- 1701: cmove r8, rbp
  .cmov .zr .rdi (.reg .rbp), -- 1702: cmove rdi, rbp
  .sar (.reg .rcx) (.imm 1#64), -- 1703: sar rcx, 1
  .xor (.reg .rdi) (.reg .r8), -- 1704: xor rdi, r8
  .xor (.reg .rsi) (.reg .r8), -- 1705: xor rsi, r8
  .bt (.reg .r8) 63#64, -- 1706: bt r8, 0x3f
  .cmov .cy .rbx (.reg .rcx), -- 1707: cmovb rbx, rcx
  .mov (.reg .r8) (.reg .rax), -- 1708: mov r8, rax
  .sub (.reg .rsi) (.reg .rax), -- 1709: sub rsi, rax
  .lea .rcx ⟨some .rcx, some (.rdi, 1#64), 0#64⟩, -- 1710: lea rcx, [rcx + rdi]
  .cmov .sg .r8 (.reg .rbp), -- 1711: cmovs r8, rbp
  .mov (.reg .rdi) (.reg .rbx), -- 1712: mov rdi, rbx
  .test (.reg .rcx) (.reg .rdx), -- 1713: test rcx, rdx
  .cmov .zr .r8 (.reg .rbp), -- 1714: cmove r8, rbp
  .cmov .zr .rdi (.reg .rbp), -- 1715: cmove rdi, rbp
  .sar (.reg .rcx) (.imm 1#64), -- 1716: sar rcx, 1
  .xor (.reg .rdi) (.reg .r8), -- 1717: xor rdi, r8
  .xor (.reg .rsi) (.reg .r8), -- 1718: xor rsi, r8
  .bt (.reg .r8) 63#64, -- 1719: bt r8, 0x3f
  .cmov .cy .rbx (.reg .rcx), -- 1720: cmovb rbx, rcx
  .mov (.reg .r8) (.reg .rax), -- 1721: mov r8, rax
  .sub (.reg .rsi) (.reg .rax), -- 1722: sub rsi, rax
  .lea .rcx ⟨some .rcx, some (.rdi, 1#64), 0#64⟩, -- 1723: lea rcx, [rcx + rdi]
  .sar (.reg .rcx) (.imm 1#64), -- 1724: sar rcx, 1
  .mov (.reg .rax) (.imm 0x100000#64), -- 1725: mov eax, 0x100000
  .lea .rdx ⟨some .rbx, some (.rax, 1#64), 0#64⟩, -- 1726: lea rdx, [rbx + rax]
  .lea .rdi ⟨some .rcx, some (.rax, 1#64), 0#64⟩, -- 1727: lea rdi, [rcx + rax]
  .shl (.reg .rdx) (.imm 22#64), -- 1728: shl rdx, 0x16
  .shl (.reg .rdi) (.imm 22#64), -- 1729: shl rdi, 0x16
  .sar (.reg .rdx) (.imm 43#64), -- 1730: sar rdx, 0x2b
  .sar (.reg .rdi) (.imm 43#64), -- 1731: sar rdi, 0x2b
  .mov (.reg .rax) (.imm 0x20000100000#64), -- 1732: movabs rax, 0x20000100000
  .lea .rbx ⟨some .rbx, some (.rax, 1#64), 0#64⟩, -- 1733: lea rbx, [rbx + rax]
  .lea .rcx ⟨some .rcx, some (.rax, 1#64), 0#64⟩, -- 1734: lea rcx, [rcx + rax]
  .sar (.reg .rbx) (.imm 42#64), -- 1735: sar rbx, 0x2a
  .sar (.reg .rcx) (.imm 42#64), -- 1736: sar rcx, 0x2a
  .mov (.mem ⟨some .rsp, none, 160#64⟩) (.reg .rdx), -- 1737: mov [rsp + 0xa0], rdx
  .mov (.mem ⟨some .rsp, none, 168#64⟩) (.reg .rbx), -- 1738: mov [rsp + 0xa8], rbx
  .mov (.mem ⟨some .rsp, none, 176#64⟩) (.reg .rdi), -- 1739: mov [rsp + 0xb0], rdi
  .mov (.mem ⟨some .rsp, none, 184#64⟩) (.reg .rcx), -- 1740: mov [rsp + 0xb8], rcx
  .mov (.reg .r12) (.mem ⟨some .rsp, none, 0#64⟩), -- 1741: mov r12, [rsp]
  .imul .rdi (.reg .r12), -- 1742: imul rdi, r12
  .imul .r12 (.reg .rdx), -- 1743: imul r12, rdx
  .mov (.reg .r13) (.mem ⟨some .rsp, none, 32#64⟩), -- 1744: mov r13, [rsp + 0x20]
  .imul .rbx (.reg .r13), -- 1745: imul rbx, r13
  .imul .r13 (.reg .rcx), -- 1746: imul r13, rcx
  .add (.reg .r12) (.reg .rbx), -- 1747: add r12, rbx
  .add (.reg .r13) (.reg .rdi), -- 1748: add r13, rdi
  .sar (.reg .r12) (.imm 20#64), -- 1749: sar r12, 0x14
  .sar (.reg .r13) (.imm 20#64), -- 1750: sar r13, 0x14
  .mov (.reg .rbx) (.reg .r12), -- 1751: mov rbx, r12
  .and (.reg .rbx) (.imm 0xfffff#64), -- 1752: and rbx, 0xfffff
  .mov (.reg .rax) (.imm 0xfffffe0000000000#64), -- 1753: movabs rax, 0xfffffe0000000000
  .or (.reg .rbx) (.reg .rax), -- 1754: or rbx, rax
  .mov (.reg .rcx) (.reg .r13), -- 1755: mov rcx, r13
  .and (.reg .rcx) (.imm 0xfffff#64), -- 1756: and rcx, 0xfffff
  .mov (.reg .rax) (.imm 0xc000000000000000#64), -- 1757: movabs rax, 0xc000000000000000
  .or (.reg .rcx) (.reg .rax), -- 1758: or rcx, rax
  .mov (.reg .rax) (.imm 0xfffffffffffffffe#64), -- 1759: mov rax, 0xfffffffffffffffe
  .mov (.reg .rdx) (.imm 2#64), -- 1760: mov edx, 0x2
  .mov (.reg .rdi) (.reg .rbx), -- 1761: mov rdi, rbx
  .mov (.reg .r8) (.reg .rax), -- 1762: mov r8, rax
  .test (.reg .rsi) (.reg .rsi), -- 1763: test rsi, rsi
  .cmov .sg .r8 (.reg .rbp), -- 1764: cmovs r8, rbp
  .test (.reg .rcx) (.imm 1#64), -- 1765: test rcx, 0x1
  .cmov .zr .r8 (.reg .rbp), -- 1766: cmove r8, rbp
  .cmov .zr .rdi (.reg .rbp), -- 1767: cmove rdi, rbp
  .xor (.reg .rdi) (.reg .r8), -- 1768: xor rdi, r8
  .xor (.reg .rsi) (.reg .r8), -- 1769: xor rsi, r8
  .bt (.reg .r8) 63#64, -- 1770: bt r8, 0x3f
  .cmov .cy .rbx (.reg .rcx), -- 1771: cmovb rbx, rcx
  .mov (.reg .r8) (.reg .rax), -- 1772: mov r8, rax
  .sub (.reg .rsi) (.reg .rax), -- 1773: sub rsi, rax
  .lea .rcx ⟨some .rcx, some (.rdi, 1#64), 0#64⟩, -- 1774: lea rcx, [rcx + rdi]
  .cmov .sg .r8 (.reg .rbp), -- 1775: cmovs r8, rbp
  .mov (.reg .rdi) (.reg .rbx), -- 1776: mov rdi, rbx
  .test (.reg .rcx) (.reg .rdx), -- 1777: test rcx, rdx
  .cmov .zr .r8 (.reg .rbp), -- 1778: cmove r8, rbp
  .cmov .zr .rdi (.reg .rbp), -- 1779: cmove rdi, rbp
  .sar (.reg .rcx) (.imm 1#64), -- 1780: sar rcx, 1
  .xor (.reg .rdi) (.reg .r8), -- 1781: xor rdi, r8
  .xor (.reg .rsi) (.reg .r8), -- 1782: xor rsi, r8
  .bt (.reg .r8) 63#64, -- 1783: bt r8, 0x3f
  .cmov .cy .rbx (.reg .rcx), -- 1784: cmovb rbx, rcx
  .mov (.reg .r8) (.reg .rax), -- 1785: mov r8, rax
  .sub (.reg .rsi) (.reg .rax), -- 1786: sub rsi, rax
  .lea .rcx ⟨some .rcx, some (.rdi, 1#64), 0#64⟩, -- 1787: lea rcx, [rcx + rdi]
  .cmov .sg .r8 (.reg .rbp), -- 1788: cmovs r8, rbp
  .mov (.reg .rdi) (.reg .rbx), -- 1789: mov rdi, rbx
  .test (.reg .rcx) (.reg .rdx), -- 1790: test rcx, rdx
  .cmov .zr .r8 (.reg .rbp), -- 1791: cmove r8, rbp
  .cmov .zr .rdi (.reg .rbp), -- 1792: cmove rdi, rbp
  .sar (.reg .rcx) (.imm 1#64), -- 1793: sar rcx, 1
  .xor (.reg .rdi) (.reg .r8), -- 1794: xor rdi, r8
  .xor (.reg .rsi) (.reg .r8), -- 1795: xor rsi, r8
  .bt (.reg .r8) 63#64, -- 1796: bt r8, 0x3f
  .cmov .cy .rbx (.reg .rcx), -- 1797: cmovb rbx, rcx
  .mov (.reg .r8) (.reg .rax), -- 1798: mov r8, rax
  .sub (.reg .rsi) (.reg .rax), -- 1799: sub rsi, rax
  .lea .rcx ⟨some .rcx, some (.rdi, 1#64), 0#64⟩, -- 1800: lea rcx, [rcx + rdi]
  .cmov .sg .r8 (.reg .rbp), -- 1801: cmovs r8, rbp
  .mov (.reg .rdi) (.reg .rbx), -- 1802: mov rdi, rbx
  .test (.reg .rcx) (.reg .rdx), -- 1803: test rcx, rdx
  .cmov .zr .r8 (.reg .rbp), -- 1804: cmove r8, rbp
  .cmov .zr .rdi (.reg .rbp), -- 1805: cmove rdi, rbp
  .sar (.reg .rcx) (.imm 1#64), -- 1806: sar rcx, 1
  .xor (.reg .rdi) (.reg .r8), -- 1807: xor rdi, r8
  .xor (.reg .rsi) (.reg .r8), -- 1808: xor rsi, r8
  .bt (.reg .r8) 63#64, -- 1809: bt r8, 0x3f
  .cmov .cy .rbx (.reg .rcx), -- 1810: cmovb rbx, rcx
  .mov (.reg .r8) (.reg .rax), -- 1811: mov r8, rax
  .sub (.reg .rsi) (.reg .rax), -- 1812: sub rsi, rax
  .lea .rcx ⟨some .rcx, some (.rdi, 1#64), 0#64⟩, -- 1813: lea rcx, [rcx + rdi]
  .cmov .sg .r8 (.reg .rbp), -- 1814: cmovs r8, rbp
  .mov (.reg .rdi) (.reg .rbx), -- 1815: mov rdi, rbx
  .test (.reg .rcx) (.reg .rdx), -- 1816: test rcx, rdx
  .cmov .zr .r8 (.reg .rbp), -- 1817: cmove r8, rbp
  .cmov .zr .rdi (.reg .rbp), -- 1818: cmove rdi, rbp
  .sar (.reg .rcx) (.imm 1#64), -- 1819: sar rcx, 1
  .xor (.reg .rdi) (.reg .r8), -- 1820: xor rdi, r8
  .xor (.reg .rsi) (.reg .r8), -- 1821: xor rsi, r8
  .bt (.reg .r8) 63#64, -- 1822: bt r8, 0x3f
  .cmov .cy .rbx (.reg .rcx), -- 1823: cmovb rbx, rcx
  .mov (.reg .r8) (.reg .rax), -- 1824: mov r8, rax
  .sub (.reg .rsi) (.reg .rax), -- 1825: sub rsi, rax
  .lea .rcx ⟨some .rcx, some (.rdi, 1#64), 0#64⟩, -- 1826: lea rcx, [rcx + rdi]
  .cmov .sg .r8 (.reg .rbp), -- 1827: cmovs r8, rbp
  .mov (.reg .rdi) (.reg .rbx), -- 1828: mov rdi, rbx
  .test (.reg .rcx) (.reg .rdx), -- 1829: test rcx, rdx
  .cmov .zr .r8 (.reg .rbp), -- 1830: cmove r8, rbp
  .cmov .zr .rdi (.reg .rbp), -- 1831: cmove rdi, rbp
  .sar (.reg .rcx) (.imm 1#64), -- 1832: sar rcx, 1
  .xor (.reg .rdi) (.reg .r8), -- 1833: xor rdi, r8
  .xor (.reg .rsi) (.reg .r8), -- 1834: xor rsi, r8
  .bt (.reg .r8) 63#64, -- 1835: bt r8, 0x3f
  .cmov .cy .rbx (.reg .rcx), -- 1836: cmovb rbx, rcx
  .mov (.reg .r8) (.reg .rax), -- 1837: mov r8, rax
  .sub (.reg .rsi) (.reg .rax), -- 1838: sub rsi, rax
  .lea .rcx ⟨some .rcx, some (.rdi, 1#64), 0#64⟩, -- 1839: lea rcx, [rcx + rdi]
  .cmov .sg .r8 (.reg .rbp), -- 1840: cmovs r8, rbp
  .mov (.reg .rdi) (.reg .rbx), -- 1841: mov rdi, rbx
  .test (.reg .rcx) (.reg .rdx), -- 1842: test rcx, rdx
  .cmov .zr .r8 (.reg .rbp), -- 1843: cmove r8, rbp
  .cmov .zr .rdi (.reg .rbp), -- 1844: cmove rdi, rbp
  .sar (.reg .rcx) (.imm 1#64), -- 1845: sar rcx, 1
  .xor (.reg .rdi) (.reg .r8), -- 1846: xor rdi, r8
  .xor (.reg .rsi) (.reg .r8), -- 1847: xor rsi, r8
  .bt (.reg .r8) 63#64, -- 1848: bt r8, 0x3f
  .cmov .cy .rbx (.reg .rcx), -- 1849: cmovb rbx, rcx
  .mov (.reg .r8) (.reg .rax), -- 1850: mov r8, rax
  .sub (.reg .rsi) (.reg .rax), -- 1851: sub rsi, rax
  .lea .rcx ⟨some .rcx, some (.rdi, 1#64), 0#64⟩, -- 1852: lea rcx, [rcx + rdi]
  .cmov .sg .r8 (.reg .rbp), -- 1853: cmovs r8, rbp
  .mov (.reg .rdi) (.reg .rbx), -- 1854: mov rdi, rbx
  .test (.reg .rcx) (.reg .rdx), -- 1855: test rcx, rdx
  .cmov .zr .r8 (.reg .rbp), -- 1856: cmove r8, rbp
  .cmov .zr .rdi (.reg .rbp), -- 1857: cmove rdi, rbp
  .sar (.reg .rcx) (.imm 1#64), -- 1858: sar rcx, 1
  .xor (.reg .rdi) (.reg .r8), -- 1859: xor rdi, r8
  .xor (.reg .rsi) (.reg .r8), -- 1860: xor rsi, r8
  .bt (.reg .r8) 63#64, -- 1861: bt r8, 0x3f
  .cmov .cy .rbx (.reg .rcx), -- 1862: cmovb rbx, rcx
  .mov (.reg .r8) (.reg .rax), -- 1863: mov r8, rax
  .sub (.reg .rsi) (.reg .rax), -- 1864: sub rsi, rax
  .lea .rcx ⟨some .rcx, some (.rdi, 1#64), 0#64⟩, -- 1865: lea rcx, [rcx + rdi]
  .cmov .sg .r8 (.reg .rbp), -- 1866: cmovs r8, rbp
  .mov (.reg .rdi) (.reg .rbx), -- 1867: mov rdi, rbx
  .test (.reg .rcx) (.reg .rdx), -- 1868: test rcx, rdx
  .cmov .zr .r8 (.reg .rbp), -- 1869: cmove r8, rbp
  .cmov .zr .rdi (.reg .rbp), -- 1870: cmove rdi, rbp
  .sar (.reg .rcx) (.imm 1#64), -- 1871: sar rcx, 1
  .xor (.reg .rdi) (.reg .r8), -- 1872: xor rdi, r8
  .xor (.reg .rsi) (.reg .r8), -- 1873: xor rsi, r8
  .bt (.reg .r8) 63#64, -- 1874: bt r8, 0x3f
  .cmov .cy .rbx (.reg .rcx), -- 1875: cmovb rbx, rcx
  .mov (.reg .r8) (.reg .rax), -- 1876: mov r8, rax
  .sub (.reg .rsi) (.reg .rax), -- 1877: sub rsi, rax
  .lea .rcx ⟨some .rcx, some (.rdi, 1#64), 0#64⟩, -- 1878: lea rcx, [rcx + rdi]
  .cmov .sg .r8 (.reg .rbp), -- 1879: cmovs r8, rbp
  .mov (.reg .rdi) (.reg .rbx), -- 1880: mov rdi, rbx
  .test (.reg .rcx) (.reg .rdx), -- 1881: test rcx, rdx
  .cmov .zr .r8 (.reg .rbp), -- 1882: cmove r8, rbp
  .cmov .zr .rdi (.reg .rbp), -- 1883: cmove rdi, rbp
  .sar (.reg .rcx) (.imm 1#64), -- 1884: sar rcx, 1
  .xor (.reg .rdi) (.reg .r8), -- 1885: xor rdi, r8
  .xor (.reg .rsi) (.reg .r8), -- 1886: xor rsi, r8
  .bt (.reg .r8) 63#64, -- 1887: bt r8, 0x3f
  .cmov .cy .rbx (.reg .rcx), -- 1888: cmovb rbx, rcx
  .mov (.reg .r8) (.reg .rax), -- 1889: mov r8, rax
  .sub (.reg .rsi) (.reg .rax), -- 1890: sub rsi, rax
  .lea .rcx ⟨some .rcx, some (.rdi, 1#64), 0#64⟩, -- 1891: lea rcx, [rcx + rdi]
  .cmov .sg .r8 (.reg .rbp), -- 1892: cmovs r8, rbp
  .mov (.reg .rdi) (.reg .rbx), -- 1893: mov rdi, rbx
  .test (.reg .rcx) (.reg .rdx), -- 1894: test rcx, rdx
  .cmov .zr .r8 (.reg .rbp), -- 1895: cmove r8, rbp
  .cmov .zr .rdi (.reg .rbp), -- 1896: cmove rdi, rbp
  .sar (.reg .rcx) (.imm 1#64), -- 1897: sar rcx, 1
  .xor (.reg .rdi) (.reg .r8), -- 1898: xor rdi, r8
  .xor (.reg .rsi) (.reg .r8), -- 1899: xor rsi, r8
  .bt (.reg .r8) 63#64, -- 1900: bt r8, 0x3f
  .cmov .cy .rbx (.reg .rcx), -- 1901: cmovb rbx, rcx
  .mov (.reg .r8) (.reg .rax), -- 1902: mov r8, rax
  .sub (.reg .rsi) (.reg .rax), -- 1903: sub rsi, rax
  .lea .rcx ⟨some .rcx, some (.rdi, 1#64), 0#64⟩, -- 1904: lea rcx, [rcx + rdi]
  .cmov .sg .r8 (.reg .rbp), -- 1905: cmovs r8, rbp
  .mov (.reg .rdi) (.reg .rbx), -- 1906: mov rdi, rbx
  .test (.reg .rcx) (.reg .rdx), -- 1907: test rcx, rdx
  .cmov .zr .r8 (.reg .rbp), -- 1908: cmove r8, rbp
  .cmov .zr .rdi (.reg .rbp), -- 1909: cmove rdi, rbp
  .sar (.reg .rcx) (.imm 1#64), -- 1910: sar rcx, 1
  .xor (.reg .rdi) (.reg .r8), -- 1911: xor rdi, r8
  .xor (.reg .rsi) (.reg .r8), -- 1912: xor rsi, r8
  .bt (.reg .r8) 63#64, -- 1913: bt r8, 0x3f
  .cmov .cy .rbx (.reg .rcx), -- 1914: cmovb rbx, rcx
  .mov (.reg .r8) (.reg .rax), -- 1915: mov r8, rax
  .sub (.reg .rsi) (.reg .rax), -- 1916: sub rsi, rax
  .lea .rcx ⟨some .rcx, some (.rdi, 1#64), 0#64⟩, -- 1917: lea rcx, [rcx + rdi]
  .cmov .sg .r8 (.reg .rbp), -- 1918: cmovs r8, rbp
  .mov (.reg .rdi) (.reg .rbx), -- 1919: mov rdi, rbx
  .test (.reg .rcx) (.reg .rdx), -- 1920: test rcx, rdx
  .cmov .zr .r8 (.reg .rbp), -- 1921: cmove r8, rbp
  .cmov .zr .rdi (.reg .rbp), -- 1922: cmove rdi, rbp
  .sar (.reg .rcx) (.imm 1#64), -- 1923: sar rcx, 1
  .xor (.reg .rdi) (.reg .r8), -- 1924: xor rdi, r8
  .xor (.reg .rsi) (.reg .r8), -- 1925: xor rsi, r8
  .bt (.reg .r8) 63#64, -- 1926: bt r8, 0x3f
  .cmov .cy .rbx (.reg .rcx), -- 1927: cmovb rbx, rcx
  .mov (.reg .r8) (.reg .rax), -- 1928: mov r8, rax
  .sub (.reg .rsi) (.reg .rax), -- 1929: sub rsi, rax
  .lea .rcx ⟨some .rcx, some (.rdi, 1#64), 0#64⟩, -- 1930: lea rcx, [rcx + rdi]
  .cmov .sg .r8 (.reg .rbp), -- 1931: cmovs r8, rbp
  .mov (.reg .rdi) (.reg .rbx), -- 1932: mov rdi, rbx
  .test (.reg .rcx) (.reg .rdx), -- 1933: test rcx, rdx
  .cmov .zr .r8 (.reg .rbp), -- 1934: cmove r8, rbp
  .cmov .zr .rdi (.reg .rbp), -- 1935: cmove rdi, rbp
  .sar (.reg .rcx) (.imm 1#64), -- 1936: sar rcx, 1
  .xor (.reg .rdi) (.reg .r8), -- 1937: xor rdi, r8
  .xor (.reg .rsi) (.reg .r8), -- 1938: xor rsi, r8
  .bt (.reg .r8) 63#64, -- 1939: bt r8, 0x3f
  .cmov .cy .rbx (.reg .rcx), -- 1940: cmovb rbx, rcx
  .mov (.reg .r8) (.reg .rax), -- 1941: mov r8, rax
  .sub (.reg .rsi) (.reg .rax), -- 1942: sub rsi, rax
  .lea .rcx ⟨some .rcx, some (.rdi, 1#64), 0#64⟩, -- 1943: lea rcx, [rcx + rdi]
  .cmov .sg .r8 (.reg .rbp), -- 1944: cmovs r8, rbp
  .mov (.reg .rdi) (.reg .rbx), -- 1945: mov rdi, rbx
  .test (.reg .rcx) (.reg .rdx), -- 1946: test rcx, rdx
  .cmov .zr .r8 (.reg .rbp), -- 1947: cmove r8, rbp
  .cmov .zr .rdi (.reg .rbp), -- 1948: cmove rdi, rbp
  .sar (.reg .rcx) (.imm 1#64), -- 1949: sar rcx, 1
  .xor (.reg .rdi) (.reg .r8), -- 1950: xor rdi, r8
  .xor (.reg .rsi) (.reg .r8), -- 1951: xor rsi, r8
  .bt (.reg .r8) 63#64, -- 1952: bt r8, 0x3f
  .cmov .cy .rbx (.reg .rcx), -- 1953: cmovb rbx, rcx
  .mov (.reg .r8) (.reg .rax), -- 1954: mov r8, rax
  .sub (.reg .rsi) (.reg .rax), -- 1955: sub rsi, rax
  .lea .rcx ⟨some .rcx, some (.rdi, 1#64), 0#64⟩, -- 1956: lea rcx, [rcx + rdi]
  .cmov .sg .r8 (.reg .rbp), -- 1957: cmovs r8, rbp
  .mov (.reg .rdi) (.reg .rbx), -- 1958: mov rdi, rbx
  .test (.reg .rcx) (.reg .rdx), -- 1959: test rcx, rdx
  .cmov .zr .r8 (.reg .rbp), -- 1960: cmove r8, rbp
  .cmov .zr .rdi (.reg .rbp), -- 1961: cmove rdi, rbp
  .sar (.reg .rcx) (.imm 1#64), -- 1962: sar rcx, 1
  .xor (.reg .rdi) (.reg .r8), -- 1963: xor rdi, r8
  .xor (.reg .rsi) (.reg .r8), -- 1964: xor rsi, r8
  .bt (.reg .r8) 63#64, -- 1965: bt r8, 0x3f
  .cmov .cy .rbx (.reg .rcx), -- 1966: cmovb rbx, rcx
  .mov (.reg .r8) (.reg .rax), -- 1967: mov r8, rax
  .sub (.reg .rsi) (.reg .rax), -- 1968: sub rsi, rax
  .lea .rcx ⟨some .rcx, some (.rdi, 1#64), 0#64⟩, -- 1969: lea rcx, [rcx + rdi]
  .cmov .sg .r8 (.reg .rbp), -- 1970: cmovs r8, rbp
  .mov (.reg .rdi) (.reg .rbx), -- 1971: mov rdi, rbx
  .test (.reg .rcx) (.reg .rdx), -- 1972: test rcx, rdx
  .cmov .zr .r8 (.reg .rbp), -- 1973: cmove r8, rbp
  .cmov .zr .rdi (.reg .rbp), -- 1974: cmove rdi, rbp
  .sar (.reg .rcx) (.imm 1#64), -- 1975: sar rcx, 1
  .xor (.reg .rdi) (.reg .r8), -- 1976: xor rdi, r8
  .xor (.reg .rsi) (.reg .r8), -- 1977: xor rsi, r8
  .bt (.reg .r8) 63#64, -- 1978: bt r8, 0x3f
  .cmov .cy .rbx (.reg .rcx), -- 1979: cmovb rbx, rcx
  .mov (.reg .r8) (.reg .rax), -- 1980: mov r8, rax
  .sub (.reg .rsi) (.reg .rax), -- 1981: sub rsi, rax
  .lea .rcx ⟨some .rcx, some (.rdi, 1#64), 0#64⟩, -- 1982: lea rcx, [rcx + rdi]
  .cmov .sg .r8 (.reg .rbp), -- 1983: cmovs r8, rbp
  .mov (.reg .rdi) (.reg .rbx), -- 1984: mov rdi, rbx
  .test (.reg .rcx) (.reg .rdx), -- 1985: test rcx, rdx
  .cmov .zr .r8 (.reg .rbp), -- 1986: cmove r8, rbp
  .cmov .zr .rdi (.reg .rbp), -- 1987: cmove rdi, rbp
  .sar (.reg .rcx) (.imm 1#64), -- 1988: sar rcx, 1
  .xor (.reg .rdi) (.reg .r8), -- 1989: xor rdi, r8
  .xor (.reg .rsi) (.reg .r8), -- 1990: xor rsi, r8
  .bt (.reg .r8) 63#64, -- 1991: bt r8, 0x3f
  .cmov .cy .rbx (.reg .rcx), -- 1992: cmovb rbx, rcx
  .mov (.reg .r8) (.reg .rax), -- 1993: mov r8, rax
  .sub (.reg .rsi) (.reg .rax), -- 1994: sub rsi, rax
  .lea .rcx ⟨some .rcx, some (.rdi, 1#64), 0#64⟩, -- 1995: lea rcx, [rcx + rdi]
  .cmov .sg .r8 (.reg .rbp), -- 1996: cmovs r8, rbp
  .mov (.reg .rdi) (.reg .rbx), -- 1997: mov rdi, rbx
  .test (.reg .rcx) (.reg .rdx), -- 1998: test rcx, rdx
  .cmov .zr .r8 (.reg .rbp), -- 1999: cmove r8, rbp
  .cmov .zr .rdi (.reg .rbp), -- 2000: cmove rdi, rbp
  .sar (.reg .rcx) (.imm 1#64), -- 2001: sar rcx, 1
  .xor (.reg .rdi) (.reg .r8), -- 2002: xor rdi, r8
  .xor (.reg .rsi) (.reg .r8), -- 2003: xor rsi, r8
  .bt (.reg .r8) 63#64, -- 2004: bt r8, 0x3f
  .cmov .cy .rbx (.reg .rcx), -- 2005: cmovb rbx, rcx
  .mov (.reg .r8) (.reg .rax), -- 2006: mov r8, rax
  .sub (.reg .rsi) (.reg .rax), -- 2007: sub rsi, rax
  .lea .rcx ⟨some .rcx, some (.rdi, 1#64), 0#64⟩, -- 2008: lea rcx, [rcx + rdi]
  .cmov .sg .r8 (.reg .rbp), -- 2009: cmovs r8, rbp
  .mov (.reg .rdi) (.reg .rbx), -- 2010: mov rdi, rbx
  .test (.reg .rcx) (.reg .rdx), -- 2011: test rcx, rdx
  .cmov .zr .r8 (.reg .rbp), -- 2012: cmove r8, rbp
  .cmov .zr .rdi (.reg .rbp), -- 2013: cmove rdi, rbp
  .sar (.reg .rcx) (.imm 1#64), -- 2014: sar rcx, 1
  .xor (.reg .rdi) (.reg .r8), -- 2015: xor rdi, r8
  .xor (.reg .rsi) (.reg .r8), -- 2016: xor rsi, r8
  .bt (.reg .r8) 63#64, -- 2017: bt r8, 0x3f
  .cmov .cy .rbx (.reg .rcx), -- 2018: cmovb rbx, rcx
  .mov (.reg .r8) (.reg .rax), -- 2019: mov r8, rax
  .sub (.reg .rsi) (.reg .rax), -- 2020: sub rsi, rax
  .lea .rcx ⟨some .rcx, some (.rdi, 1#64), 0#64⟩, -- 2021: lea rcx, [rcx + rdi]
  .sar (.reg .rcx) (.imm 1#64), -- 2022: sar rcx, 1
  .mov (.reg .rax) (.imm 0x100000#64), -- 2023: mov eax, 0x100000
  .lea .r8 ⟨some .rbx, some (.rax, 1#64), 0#64⟩, -- 2024: lea r8, [rbx + rax]
  .lea .r10 ⟨some .rcx, some (.rax, 1#64), 0#64⟩, -- 2025: lea r10, [rcx + rax]
  .shl (.reg .r8) (.imm 22#64), -- 2026: shl r8, 0x16
  .shl (.reg .r10) (.imm 22#64), -- 2027: shl r10, 0x16
  .sar (.reg .r8) (.imm 43#64), -- 2028: sar r8, 0x2b
  .sar (.reg .r10) (.imm 43#64), -- 2029: sar r10, 0x2b
  .mov (.reg .rax) (.imm 0x20000100000#64), -- 2030: movabs rax, 0x20000100000
  .lea .r15 ⟨some .rbx, some (.rax, 1#64), 0#64⟩, -- 2031: lea r15, [rbx + rax]
  .lea .r11 ⟨some .rcx, some (.rax, 1#64), 0#64⟩, -- 2032: lea r11, [rcx + rax]
  .sar (.reg .r15) (.imm 42#64), -- 2033: sar r15, 0x2a
  .sar (.reg .r11) (.imm 42#64), -- 2034: sar r11, 0x2a
  .mov (.reg .rbx) (.reg .r13), -- 2035: mov rbx, r13
  .mov (.reg .rcx) (.reg .r12), -- 2036: mov rcx, r12
  .imul .r12 (.reg .r8), -- 2037: imul r12, r8
  .imul .rbx (.reg .r15), -- 2038: imul rbx, r15
  .add (.reg .r12) (.reg .rbx), -- 2039: add r12, rbx
  .imul .r13 (.reg .r11), -- 2040: imul r13, r11
  .imul .rcx (.reg .r10), -- 2041: imul rcx, r10
  .add (.reg .r13) (.reg .rcx), -- 2042: add r13, rcx
  .sar (.reg .r12) (.imm 20#64), -- 2043: sar r12, 0x14
  .sar (.reg .r13) (.imm 20#64), -- 2044: sar r13, 0x14
  .mov (.reg .rbx) (.reg .r12), -- 2045: mov rbx, r12
  .and (.reg .rbx) (.imm 0xfffff#64), -- 2046: and rbx, 0xfffff
  .mov (.reg .rax) (.imm 0xfffffe0000000000#64), -- 2047: movabs rax, 0xfffffe0000000000
  .or (.reg .rbx) (.reg .rax), -- 2048: or rbx, rax
  .mov (.reg .rcx) (.reg .r13), -- 2049: mov rcx, r13
  .and (.reg .rcx) (.imm 0xfffff#64), -- 2050: and rcx, 0xfffff
  .mov (.reg .rax) (.imm 0xc000000000000000#64), -- 2051: movabs rax, 0xc000000000000000
  .or (.reg .rcx) (.reg .rax), -- 2052: or rcx, rax
  .mov (.reg .rax) (.mem ⟨some .rsp, none, 160#64⟩), -- 2053: mov rax, [rsp + 0xa0]
  .imul .rax (.reg .r8), -- 2054: imul rax, r8
  .mov (.reg .rdx) (.mem ⟨some .rsp, none, 176#64⟩), -- 2055: mov rdx, [rsp + 0xb0]
  .imul .rdx (.reg .r15), -- 2056: imul rdx, r15
  .imul .r8 (.mem ⟨some .rsp, none, 168#64⟩), -- 2057: imul r8, [rsp + 0xa8]
  .imul .r15 (.mem ⟨some .rsp, none, 184#64⟩), -- 2058: imul r15, [rsp + 0xb8]
  .add (.reg .r15) (.reg .r8), -- 2059: add r15, r8
  .lea .r9 ⟨some .rax, some (.rdx, 1#64), 0#64⟩, -- 2060: lea r9, [rax + rdx]
  .mov (.reg .rax) (.mem ⟨some .rsp, none, 160#64⟩), -- 2061: mov rax, [rsp + 0xa0]
  .imul .rax (.reg .r10), -- 2062: imul rax, r10
  .mov (.reg .rdx) (.mem ⟨some .rsp, none, 176#64⟩), -- 2063: mov rdx, [rsp + 0xb0]
  .imul .rdx (.reg .r11), -- 2064: imul rdx, r11
  .imul .r10 (.mem ⟨some .rsp, none, 168#64⟩), -- 2065: imul r10, [rsp + 0xa8]
  .imul .r11 (.mem ⟨some .rsp, none, 184#64⟩), -- 2066: imul r11, [rsp + 0xb8]
  .add (.reg .r11) (.reg .r10), -- 2067: add r11, r10
  .lea .r13 ⟨some .rax, some (.rdx, 1#64), 0#64⟩, -- 2068: lea r13, [rax + rdx]
  .mov (.reg .rax) (.imm 0xfffffffffffffffe#64), -- 2069: mov rax, 0xfffffffffffffffe
  .mov (.reg .rdx) (.imm 2#64), -- 2070: mov edx, 0x2
  .mov (.reg .rdi) (.reg .rbx), -- 2071: mov rdi, rbx
  .mov (.reg .r8) (.reg .rax), -- 2072: mov r8, rax
  .test (.reg .rsi) (.reg .rsi), -- 2073: test rsi, rsi
  .cmov .sg .r8 (.reg .rbp), -- 2074: cmovs r8, rbp
  .test (.reg .rcx) (.imm 1#64), -- 2075: test rcx, 0x1
  .cmov .zr .r8 (.reg .rbp), -- 2076: cmove r8, rbp
  .cmov .zr .rdi (.reg .rbp), -- 2077: cmove rdi, rbp
  .xor (.reg .rdi) (.reg .r8), -- 2078: xor rdi, r8
  .xor (.reg .rsi) (.reg .r8), -- 2079: xor rsi, r8
  .bt (.reg .r8) 63#64, -- 2080: bt r8, 0x3f
  .cmov .cy .rbx (.reg .rcx), -- 2081: cmovb rbx, rcx
  .mov (.reg .r8) (.reg .rax), -- 2082: mov r8, rax
  .sub (.reg .rsi) (.reg .rax), -- 2083: sub rsi, rax
  .lea .rcx ⟨some .rcx, some (.rdi, 1#64), 0#64⟩, -- 2084: lea rcx, [rcx + rdi]
  .cmov .sg .r8 (.reg .rbp), -- 2085: cmovs r8, rbp
  .mov (.reg .rdi) (.reg .rbx), -- 2086: mov rdi, rbx
  .test (.reg .rcx) (.reg .rdx), -- 2087: test rcx, rdx
  .cmov .zr .r8 (.reg .rbp), -- 2088: cmove r8, rbp
  .cmov .zr .rdi (.reg .rbp), -- 2089: cmove rdi, rbp
  .sar (.reg .rcx) (.imm 1#64), -- 2090: sar rcx, 1
  .xor (.reg .rdi) (.reg .r8), -- 2091: xor rdi, r8
  .xor (.reg .rsi) (.reg .r8), -- 2092: xor rsi, r8
  .bt (.reg .r8) 63#64, -- 2093: bt r8, 0x3f
  .cmov .cy .rbx (.reg .rcx), -- 2094: cmovb rbx, rcx
  .mov (.reg .r8) (.reg .rax), -- 2095: mov r8, rax
  .sub (.reg .rsi) (.reg .rax), -- 2096: sub rsi, rax
  .lea .rcx ⟨some .rcx, some (.rdi, 1#64), 0#64⟩, -- 2097: lea rcx, [rcx + rdi]
  .cmov .sg .r8 (.reg .rbp), -- 2098: cmovs r8, rbp
  .mov (.reg .rdi) (.reg .rbx), -- 2099: mov rdi, rbx
  .test (.reg .rcx) (.reg .rdx), -- 2100: test rcx, rdx
  .cmov .zr .r8 (.reg .rbp), -- 2101: cmove r8, rbp
  .cmov .zr .rdi (.reg .rbp), -- 2102: cmove rdi, rbp
  .sar (.reg .rcx) (.imm 1#64), -- 2103: sar rcx, 1
  .xor (.reg .rdi) (.reg .r8), -- 2104: xor rdi, r8
  .xor (.reg .rsi) (.reg .r8), -- 2105: xor rsi, r8
  .bt (.reg .r8) 63#64, -- 2106: bt r8, 0x3f
  .cmov .cy .rbx (.reg .rcx), -- 2107: cmovb rbx, rcx
  .mov (.reg .r8) (.reg .rax), -- 2108: mov r8, rax
  .sub (.reg .rsi) (.reg .rax), -- 2109: sub rsi, rax
  .lea .rcx ⟨some .rcx, some (.rdi, 1#64), 0#64⟩, -- 2110: lea rcx, [rcx + rdi]
  .cmov .sg .r8 (.reg .rbp), -- 2111: cmovs r8, rbp
  .mov (.reg .rdi) (.reg .rbx), -- 2112: mov rdi, rbx
  .test (.reg .rcx) (.reg .rdx), -- 2113: test rcx, rdx
  .cmov .zr .r8 (.reg .rbp), -- 2114: cmove r8, rbp
  .cmov .zr .rdi (.reg .rbp), -- 2115: cmove rdi, rbp
  .sar (.reg .rcx) (.imm 1#64), -- 2116: sar rcx, 1
  .xor (.reg .rdi) (.reg .r8), -- 2117: xor rdi, r8
  .xor (.reg .rsi) (.reg .r8), -- 2118: xor rsi, r8
  .bt (.reg .r8) 63#64, -- 2119: bt r8, 0x3f
  .cmov .cy .rbx (.reg .rcx), -- 2120: cmovb rbx, rcx
  .mov (.reg .r8) (.reg .rax), -- 2121: mov r8, rax
  .sub (.reg .rsi) (.reg .rax), -- 2122: sub rsi, rax
  .lea .rcx ⟨some .rcx, some (.rdi, 1#64), 0#64⟩, -- 2123: lea rcx, [rcx + rdi]
  .cmov .sg .r8 (.reg .rbp), -- 2124: cmovs r8, rbp
  .mov (.reg .rdi) (.reg .rbx), -- 2125: mov rdi, rbx
  .test (.reg .rcx) (.reg .rdx), -- 2126: test rcx, rdx
  .cmov .zr .r8 (.reg .rbp), -- 2127: cmove r8, rbp
  .cmov .zr .rdi (.reg .rbp), -- 2128: cmove rdi, rbp
  .sar (.reg .rcx) (.imm 1#64), -- 2129: sar rcx, 1
  .xor (.reg .rdi) (.reg .r8), -- 2130: xor rdi, r8
  .xor (.reg .rsi) (.reg .r8), -- 2131: xor rsi, r8
  .bt (.reg .r8) 63#64, -- 2132: bt r8, 0x3f
  .cmov .cy .rbx (.reg .rcx), -- 2133: cmovb rbx, rcx
  .mov (.reg .r8) (.reg .rax), -- 2134: mov r8, rax
  .sub (.reg .rsi) (.reg .rax), -- 2135: sub rsi, rax
  .lea .rcx ⟨some .rcx, some (.rdi, 1#64), 0#64⟩, -- 2136: lea rcx, [rcx + rdi]
  .cmov .sg .r8 (.reg .rbp), -- 2137: cmovs r8, rbp
  .mov (.reg .rdi) (.reg .rbx), -- 2138: mov rdi, rbx
  .test (.reg .rcx) (.reg .rdx), -- 2139: test rcx, rdx
  .cmov .zr .r8 (.reg .rbp), -- 2140: cmove r8, rbp
  .cmov .zr .rdi (.reg .rbp), -- 2141: cmove rdi, rbp
  .sar (.reg .rcx) (.imm 1#64), -- 2142: sar rcx, 1
  .xor (.reg .rdi) (.reg .r8), -- 2143: xor rdi, r8
  .xor (.reg .rsi) (.reg .r8), -- 2144: xor rsi, r8
  .bt (.reg .r8) 63#64, -- 2145: bt r8, 0x3f
  .cmov .cy .rbx (.reg .rcx), -- 2146: cmovb rbx, rcx
  .mov (.reg .r8) (.reg .rax), -- 2147: mov r8, rax
  .sub (.reg .rsi) (.reg .rax), -- 2148: sub rsi, rax
  .lea .rcx ⟨some .rcx, some (.rdi, 1#64), 0#64⟩, -- 2149: lea rcx, [rcx + rdi]
  .cmov .sg .r8 (.reg .rbp), -- 2150: cmovs r8, rbp
  .mov (.reg .rdi) (.reg .rbx), -- 2151: mov rdi, rbx
  .test (.reg .rcx) (.reg .rdx), -- 2152: test rcx, rdx
  .cmov .zr .r8 (.reg .rbp), -- 2153: cmove r8, rbp
  .cmov .zr .rdi (.reg .rbp), -- 2154: cmove rdi, rbp
  .sar (.reg .rcx) (.imm 1#64), -- 2155: sar rcx, 1
  .xor (.reg .rdi) (.reg .r8), -- 2156: xor rdi, r8
  .xor (.reg .rsi) (.reg .r8), -- 2157: xor rsi, r8
  .bt (.reg .r8) 63#64, -- 2158: bt r8, 0x3f
  .cmov .cy .rbx (.reg .rcx), -- 2159: cmovb rbx, rcx
  .mov (.reg .r8) (.reg .rax), -- 2160: mov r8, rax
  .sub (.reg .rsi) (.reg .rax), -- 2161: sub rsi, rax
  .lea .rcx ⟨some .rcx, some (.rdi, 1#64), 0#64⟩, -- 2162: lea rcx, [rcx + rdi]
  .cmov .sg .r8 (.reg .rbp), -- 2163: cmovs r8, rbp
  .mov (.reg .rdi) (.reg .rbx), -- 2164: mov rdi, rbx
  .test (.reg .rcx) (.reg .rdx), -- 2165: test rcx, rdx
  .cmov .zr .r8 (.reg .rbp), -- 2166: cmove r8, rbp
  .cmov .zr .rdi (.reg .rbp), -- 2167: cmove rdi, rbp
  .sar (.reg .rcx) (.imm 1#64), -- 2168: sar rcx, 1
  .xor (.reg .rdi) (.reg .r8), -- 2169: xor rdi, r8
  .xor (.reg .rsi) (.reg .r8), -- 2170: xor rsi, r8
  .bt (.reg .r8) 63#64, -- 2171: bt r8, 0x3f
  .cmov .cy .rbx (.reg .rcx), -- 2172: cmovb rbx, rcx
  .mov (.reg .r8) (.reg .rax), -- 2173: mov r8, rax
  .sub (.reg .rsi) (.reg .rax), -- 2174: sub rsi, rax
  .lea .rcx ⟨some .rcx, some (.rdi, 1#64), 0#64⟩, -- 2175: lea rcx, [rcx + rdi]
  .cmov .sg .r8 (.reg .rbp), -- 2176: cmovs r8, rbp
  .mov (.reg .rdi) (.reg .rbx), -- 2177: mov rdi, rbx
  .test (.reg .rcx) (.reg .rdx), -- 2178: test rcx, rdx
  .cmov .zr .r8 (.reg .rbp), -- 2179: cmove r8, rbp
  .cmov .zr .rdi (.reg .rbp), -- 2180: cmove rdi, rbp
  .sar (.reg .rcx) (.imm 1#64), -- 2181: sar rcx, 1
  .xor (.reg .rdi) (.reg .r8), -- 2182: xor rdi, r8
  .xor (.reg .rsi) (.reg .r8), -- 2183: xor rsi, r8
  .bt (.reg .r8) 63#64, -- 2184: bt r8, 0x3f
  .cmov .cy .rbx (.reg .rcx), -- 2185: cmovb rbx, rcx
  .mov (.reg .r8) (.reg .rax), -- 2186: mov r8, rax
  .sub (.reg .rsi) (.reg .rax), -- 2187: sub rsi, rax
  .lea .rcx ⟨some .rcx, some (.rdi, 1#64), 0#64⟩, -- 2188: lea rcx, [rcx + rdi]
  .cmov .sg .r8 (.reg .rbp), -- 2189: cmovs r8, rbp
  .mov (.reg .rdi) (.reg .rbx), -- 2190: mov rdi, rbx
  .test (.reg .rcx) (.reg .rdx), -- 2191: test rcx, rdx
  .cmov .zr .r8 (.reg .rbp), -- 2192: cmove r8, rbp
  .cmov .zr .rdi (.reg .rbp), -- 2193: cmove rdi, rbp
  .sar (.reg .rcx) (.imm 1#64), -- 2194: sar rcx, 1
  .xor (.reg .rdi) (.reg .r8), -- 2195: xor rdi, r8
  .xor (.reg .rsi) (.reg .r8), -- 2196: xor rsi, r8
  .bt (.reg .r8) 63#64, -- 2197: bt r8, 0x3f
  .cmov .cy .rbx (.reg .rcx), -- 2198: cmovb rbx, rcx
  .mov (.reg .r8) (.reg .rax), -- 2199: mov r8, rax
  .sub (.reg .rsi) (.reg .rax), -- 2200: sub rsi, rax
  .lea .rcx ⟨some .rcx, some (.rdi, 1#64), 0#64⟩, -- 2201: lea rcx, [rcx + rdi]
  .cmov .sg .r8 (.reg .rbp), -- 2202: cmovs r8, rbp
  .mov (.reg .rdi) (.reg .rbx), -- 2203: mov rdi, rbx
  .test (.reg .rcx) (.reg .rdx), -- 2204: test rcx, rdx
  .cmov .zr .r8 (.reg .rbp), -- 2205: cmove r8, rbp
  .cmov .zr .rdi (.reg .rbp), -- 2206: cmove rdi, rbp
  .sar (.reg .rcx) (.imm 1#64), -- 2207: sar rcx, 1
  .xor (.reg .rdi) (.reg .r8), -- 2208: xor rdi, r8
  .xor (.reg .rsi) (.reg .r8), -- 2209: xor rsi, r8
  .bt (.reg .r8) 63#64, -- 2210: bt r8, 0x3f
  .cmov .cy .rbx (.reg .rcx), -- 2211: cmovb rbx, rcx
  .mov (.reg .r8) (.reg .rax), -- 2212: mov r8, rax
  .sub (.reg .rsi) (.reg .rax), -- 2213: sub rsi, rax
  .lea .rcx ⟨some .rcx, some (.rdi, 1#64), 0#64⟩, -- 2214: lea rcx, [rcx + rdi]
  .cmov .sg .r8 (.reg .rbp), -- 2215: cmovs r8, rbp
  .mov (.reg .rdi) (.reg .rbx), -- 2216: mov rdi, rbx
  .test (.reg .rcx) (.reg .rdx), -- 2217: test rcx, rdx
  .cmov .zr .r8 (.reg .rbp), -- 2218: cmove r8, rbp
  .cmov .zr .rdi (.reg .rbp), -- 2219: cmove rdi, rbp
  .sar (.reg .rcx) (.imm 1#64), -- 2220: sar rcx, 1
  .xor (.reg .rdi) (.reg .r8), -- 2221: xor rdi, r8
  .xor (.reg .rsi) (.reg .r8), -- 2222: xor rsi, r8
  .bt (.reg .r8) 63#64, -- 2223: bt r8, 0x3f
  .cmov .cy .rbx (.reg .rcx), -- 2224: cmovb rbx, rcx
  .mov (.reg .r8) (.reg .rax), -- 2225: mov r8, rax
  .sub (.reg .rsi) (.reg .rax), -- 2226: sub rsi, rax
  .lea .rcx ⟨some .rcx, some (.rdi, 1#64), 0#64⟩, -- 2227: lea rcx, [rcx + rdi]
  .cmov .sg .r8 (.reg .rbp), -- 2228: cmovs r8, rbp
  .mov (.reg .rdi) (.reg .rbx), -- 2229: mov rdi, rbx
  .test (.reg .rcx) (.reg .rdx), -- 2230: test rcx, rdx
  .cmov .zr .r8 (.reg .rbp), -- 2231: cmove r8, rbp
  .cmov .zr .rdi (.reg .rbp), -- 2232: cmove rdi, rbp
  .sar (.reg .rcx) (.imm 1#64), -- 2233: sar rcx, 1
  .xor (.reg .rdi) (.reg .r8), -- 2234: xor rdi, r8
  .xor (.reg .rsi) (.reg .r8), -- 2235: xor rsi, r8
  .bt (.reg .r8) 63#64, -- 2236: bt r8, 0x3f
  .cmov .cy .rbx (.reg .rcx), -- 2237: cmovb rbx, rcx
  .mov (.reg .r8) (.reg .rax), -- 2238: mov r8, rax
  .sub (.reg .rsi) (.reg .rax), -- 2239: sub rsi, rax
  .lea .rcx ⟨some .rcx, some (.rdi, 1#64), 0#64⟩, -- 2240: lea rcx, [rcx + rdi]
  .cmov .sg .r8 (.reg .rbp), -- 2241: cmovs r8, rbp
  .mov (.reg .rdi) (.reg .rbx), -- 2242: mov rdi, rbx
  .test (.reg .rcx) (.reg .rdx), -- 2243: test rcx, rdx
  .cmov .zr .r8 (.reg .rbp), -- 2244: cmove r8, rbp
  .cmov .zr .rdi (.reg .rbp), -- 2245: cmove rdi, rbp
  .sar (.reg .rcx) (.imm 1#64), -- 2246: sar rcx, 1
  .xor (.reg .rdi) (.reg .r8), -- 2247: xor rdi, r8
  .xor (.reg .rsi) (.reg .r8), -- 2248: xor rsi, r8
  .bt (.reg .r8) 63#64, -- 2249: bt r8, 0x3f
  .cmov .cy .rbx (.reg .rcx), -- 2250: cmovb rbx, rcx
  .mov (.reg .r8) (.reg .rax), -- 2251: mov r8, rax
  .sub (.reg .rsi) (.reg .rax), -- 2252: sub rsi, rax
  .lea .rcx ⟨some .rcx, some (.rdi, 1#64), 0#64⟩, -- 2253: lea rcx, [rcx + rdi]
  .cmov .sg .r8 (.reg .rbp), -- 2254: cmovs r8, rbp
  .mov (.reg .rdi) (.reg .rbx), -- 2255: mov rdi, rbx
  .test (.reg .rcx) (.reg .rdx), -- 2256: test rcx, rdx
  .cmov .zr .r8 (.reg .rbp), -- 2257: cmove r8, rbp
  .cmov .zr .rdi (.reg .rbp), -- 2258: cmove rdi, rbp
  .sar (.reg .rcx) (.imm 1#64), -- 2259: sar rcx, 1
  .xor (.reg .rdi) (.reg .r8), -- 2260: xor rdi, r8
  .xor (.reg .rsi) (.reg .r8), -- 2261: xor rsi, r8
  .bt (.reg .r8) 63#64, -- 2262: bt r8, 0x3f
  .cmov .cy .rbx (.reg .rcx), -- 2263: cmovb rbx, rcx
  .mov (.reg .r8) (.reg .rax), -- 2264: mov r8, rax
  .sub (.reg .rsi) (.reg .rax), -- 2265: sub rsi, rax
  .lea .rcx ⟨some .rcx, some (.rdi, 1#64), 0#64⟩, -- 2266: lea rcx, [rcx + rdi]
  .cmov .sg .r8 (.reg .rbp), -- 2267: cmovs r8, rbp
  .mov (.reg .rdi) (.reg .rbx), -- 2268: mov rdi, rbx
  .test (.reg .rcx) (.reg .rdx), -- 2269: test rcx, rdx
  .cmov .zr .r8 (.reg .rbp), -- 2270: cmove r8, rbp
  .cmov .zr .rdi (.reg .rbp), -- 2271: cmove rdi, rbp
  .sar (.reg .rcx) (.imm 1#64), -- 2272: sar rcx, 1
  .xor (.reg .rdi) (.reg .r8), -- 2273: xor rdi, r8
  .xor (.reg .rsi) (.reg .r8), -- 2274: xor rsi, r8
  .bt (.reg .r8) 63#64, -- 2275: bt r8, 0x3f
  .cmov .cy .rbx (.reg .rcx), -- 2276: cmovb rbx, rcx
  .mov (.reg .r8) (.reg .rax), -- 2277: mov r8, rax
  .sub (.reg .rsi) (.reg .rax), -- 2278: sub rsi, rax
  .lea .rcx ⟨some .rcx, some (.rdi, 1#64), 0#64⟩, -- 2279: lea rcx, [rcx + rdi]
  .cmov .sg .r8 (.reg .rbp), -- 2280: cmovs r8, rbp
  .mov (.reg .rdi) (.reg .rbx), -- 2281: mov rdi, rbx
  .test (.reg .rcx) (.reg .rdx), -- 2282: test rcx, rdx
  .cmov .zr .r8 (.reg .rbp), -- 2283: cmove r8, rbp
  .cmov .zr .rdi (.reg .rbp), -- 2284: cmove rdi, rbp
  .sar (.reg .rcx) (.imm 1#64), -- 2285: sar rcx, 1
  .xor (.reg .rdi) (.reg .r8), -- 2286: xor rdi, r8
  .xor (.reg .rsi) (.reg .r8), -- 2287: xor rsi, r8
  .bt (.reg .r8) 63#64, -- 2288: bt r8, 0x3f
  .cmov .cy .rbx (.reg .rcx), -- 2289: cmovb rbx, rcx
  .mov (.reg .r8) (.reg .rax), -- 2290: mov r8, rax
  .sub (.reg .rsi) (.reg .rax), -- 2291: sub rsi, rax
  .lea .rcx ⟨some .rcx, some (.rdi, 1#64), 0#64⟩, -- 2292: lea rcx, [rcx + rdi]
  .cmov .sg .r8 (.reg .rbp), -- 2293: cmovs r8, rbp
  .mov (.reg .rdi) (.reg .rbx), -- 2294: mov rdi, rbx
  .test (.reg .rcx) (.reg .rdx), -- 2295: test rcx, rdx
  .cmov .zr .r8 (.reg .rbp), -- 2296: cmove r8, rbp
  .cmov .zr .rdi (.reg .rbp), -- 2297: cmove rdi, rbp
  .sar (.reg .rcx) (.imm 1#64), -- 2298: sar rcx, 1
  .xor (.reg .rdi) (.reg .r8), -- 2299: xor rdi, r8
  .xor (.reg .rsi) (.reg .r8), -- 2300: xor rsi, r8
  .bt (.reg .r8) 63#64, -- 2301: bt r8, 0x3f
  .cmov .cy .rbx (.reg .rcx), -- 2302: cmovb rbx, rcx
  .mov (.reg .r8) (.reg .rax), -- 2303: mov r8, rax
  .sub (.reg .rsi) (.reg .rax), -- 2304: sub rsi, rax
  .lea .rcx ⟨some .rcx, some (.rdi, 1#64), 0#64⟩, -- 2305: lea rcx, [rcx + rdi]
  .cmov .sg .r8 (.reg .rbp), -- 2306: cmovs r8, rbp
  .mov (.reg .rdi) (.reg .rbx), -- 2307: mov rdi, rbx
  .test (.reg .rcx) (.reg .rdx), -- 2308: test rcx, rdx
  .cmov .zr .r8 (.reg .rbp), -- 2309: cmove r8, rbp
  .cmov .zr .rdi (.reg .rbp), -- 2310: cmove rdi, rbp
  .sar (.reg .rcx) (.imm 1#64), -- 2311: sar rcx, 1
  .xor (.reg .rdi) (.reg .r8), -- 2312: xor rdi, r8
  .xor (.reg .rsi) (.reg .r8), -- 2313: xor rsi, r8
  .bt (.reg .r8) 63#64, -- 2314: bt r8, 0x3f
  .cmov .cy .rbx (.reg .rcx), -- 2315: cmovb rbx, rcx
  .mov (.reg .r8) (.reg .rax), -- 2316: mov r8, rax
  .sub (.reg .rsi) (.reg .rax), -- 2317: sub rsi, rax
  .lea .rcx ⟨some .rcx, some (.rdi, 1#64), 0#64⟩, -- 2318: lea rcx, [rcx + rdi]
  .sar (.reg .rcx) (.imm 1#64), -- 2319: sar rcx, 1
  .mov (.reg .rax) (.imm 0x100000#64), -- 2320: mov eax, 0x100000
  .lea .r8 ⟨some .rbx, some (.rax, 1#64), 0#64⟩, -- 2321: lea r8, [rbx + rax]
  .lea .r12 ⟨some .rcx, some (.rax, 1#64), 0#64⟩, -- 2322: lea r12, [rcx + rax]
  .shl (.reg .r8) (.imm 21#64), -- 2323: shl r8, 0x15
  .shl (.reg .r12) (.imm 21#64), -- 2324: shl r12, 0x15
  .sar (.reg .r8) (.imm 43#64), -- 2325: sar r8, 0x2b
  .sar (.reg .r12) (.imm 43#64), -- 2326: sar r12, 0x2b
  .mov (.reg .rax) (.imm 0x20000100000#64), -- 2327: movabs rax, 0x20000100000
  .lea .r10 ⟨some .rbx, some (.rax, 1#64), 0#64⟩, -- 2328: lea r10, [rbx + rax]
  .lea .r14 ⟨some .rcx, some (.rax, 1#64), 0#64⟩, -- 2329: lea r14, [rcx + rax]
  .sar (.reg .r10) (.imm 43#64), -- 2330: sar r10, 0x2b
  .sar (.reg .r14) (.imm 43#64), -- 2331: sar r14, 0x2b
  .mov (.reg .rax) (.reg .r9), -- 2332: mov rax, r9
  .imul .rax (.reg .r8), -- 2333: imul rax, r8
  .mov (.reg .rdx) (.reg .r13), -- 2334: mov rdx, r13
  .imul .rdx (.reg .r10), -- 2335: imul rdx, r10
  .imul .r8 (.reg .r15), -- 2336: imul r8, r15
  .imul .r10 (.reg .r11), -- 2337: imul r10, r11
  .add (.reg .r10) (.reg .r8), -- 2338: add r10, r8
  .lea .r8 ⟨some .rax, some (.rdx, 1#64), 0#64⟩, -- 2339: lea r8, [rax + rdx]
  .mov (.reg .rax) (.reg .r9), -- 2340: mov rax, r9
  .imul .rax (.reg .r12), -- 2341: imul rax, r12
  .mov (.reg .rdx) (.reg .r13), -- 2342: mov rdx, r13
  .imul .rdx (.reg .r14), -- 2343: imul rdx, r14
  .imul .r12 (.reg .r15), -- 2344: imul r12, r15
  .imul .r14 (.reg .r11), -- 2345: imul r14, r11
  .add (.reg .r14) (.reg .r12), -- 2346: add r14, r12
  .lea .r12 ⟨some .rax, some (.rdx, 1#64), 0#64⟩, -- 2347: lea r12, [rax + rdx]
  .mov (.mem ⟨some .rsp, none, 152#64⟩) (.reg .rsi), -- 2348: mov [rsp + 0x98], rsi
  .dec (.mem ⟨some .rsp, none, 144#64⟩), -- 2349: dec QWORD PTR [rsp + 0x90]
  .jcc .nz 1160, -- 2350: jne @5b
  .mov (.reg .rax) (.mem ⟨some .rsp, none, 0#64⟩), -- 2351: mov rax, [rsp]
  .mov (.reg .rcx) (.mem ⟨some .rsp, none, 32#64⟩), -- 2352: mov rcx, [rsp + 0x20]
  .imul .rax (.reg .r8), -- 2353: imul rax, r8
  .imul .rcx (.reg .r10), -- 2354: imul rcx, r10
  .add (.reg .rax) (.reg .rcx), -- 2355: add rax, rcx
  .sar (.reg .rax) (.imm 63#64), -- 2356: sar rax, 0x3f
  .mov (.reg .r9) (.reg .r8), -- 2357: mov r9, r8
  .sar (.reg .r9) (.imm 63#64), -- 2358: sar r9, 0x3f
  .xor (.reg .r8) (.reg .r9), -- 2359: xor r8, r9
  .sub (.reg .r8) (.reg .r9), -- 2360: sub r8, r9
  .xor (.reg .r9) (.reg .rax), -- 2361: xor r9, rax
  .mov (.reg .r11) (.reg .r10), -- 2362: mov r11, r10
  .sar (.reg .r11) (.imm 63#64), -- 2363: sar r11, 0x3f
  .xor (.reg .r10) (.reg .r11), -- 2364: xor r10, r11
  .sub (.reg .r10) (.reg .r11), -- 2365: sub r10, r11
  .xor (.reg .r11) (.reg .rax), -- 2366: xor r11, rax
  .mov (.reg .r13) (.reg .r12), -- 2367: mov r13, r12
  .sar (.reg .r13) (.imm 63#64), -- 2368: sar r13, 0x3f
  .xor (.reg .r12) (.reg .r13), -- 2369: xor r12, r13
  .sub (.reg .r12) (.reg .r13), -- 2370: sub r12, r13
  .xor (.reg .r13) (.reg .rax), -- 2371: xor r13, rax
  .mov (.reg .r15) (.reg .r14), -- 2372: mov r15, r14
  .sar (.reg .r15) (.imm 63#64), -- 2373: sar r15, 0x3f
  .xor (.reg .r14) (.reg .r15), -- 2374: xor r14, r15
  .sub (.reg .r14) (.reg .r15), -- 2375: sub r14, r15
  .xor (.reg .r15) (.reg .rax), -- 2376: xor r15, rax
  .mov (.reg .rax) (.reg .r8), -- 2377: mov rax, r8
  .and (.reg .rax) (.reg .r9), -- 2378: and rax, r9
  .mov (.reg .r12) (.reg .r10), -- 2379: mov r12, r10
  .and (.reg .r12) (.reg .r11), -- 2380: and r12, r11
  .add (.reg .r12) (.reg .rax), -- 2381: add r12, rax
  .xor (.reg .r13) (.reg .r13), -- 2382: xor r13d, r13d
  .mov (.reg .rax) (.mem ⟨some .rsp, none, 64#64⟩), -- 2383: mov rax, [rsp + 0x40]
  .xor (.reg .rax) (.reg .r9), -- 2384: xor rax, r9
  .mul (.reg .r8), -- 2385: mul r8
  .add (.reg .r12) (.reg .rax), -- 2386: add r12, rax
  .adc (.reg .r13) (.reg .rdx), -- 2387: adc r13, rdx
  .mov (.reg .rax) (.mem ⟨some .rsp, none, 96#64⟩), -- 2388: mov rax, [rsp + 0x60]
  .xor (.reg .rax) (.reg .r11), -- 2389: xor rax, r11
  .mul (.reg .r10), -- 2390: mul r10
  .add (.reg .r12) (.reg .rax), -- 2391: add r12, rax
  .adc (.reg .r13) (.reg .rdx), -- 2392: adc r13, rdx
  .xor (.reg .r14) (.reg .r14), -- 2393: xor r14d, r14d
  .mov (.reg .rax) (.mem ⟨some .rsp, none, 72#64⟩), -- 2394: mov rax, [rsp + 0x48]
  .xor (.reg .rax) (.reg .r9), -- 2395: xor rax, r9
  .mul (.reg .r8), -- 2396: mul r8
  .add (.reg .r13) (.reg .rax), -- 2397: add r13, rax
  .adc (.reg .r14) (.reg .rdx), -- 2398: adc r14, rdx
  .mov (.reg .rax) (.mem ⟨some .rsp, none, 104#64⟩), -- 2399: mov rax, [rsp + 0x68]
  .xor (.reg .rax) (.reg .r11), -- 2400: xor rax, r11
  .mul (.reg .r10), -- 2401: mul r10
  .add (.reg .r13) (.reg .rax), -- 2402: add r13, rax
  .adc (.reg .r14) (.reg .rdx), -- 2403: adc r14, rdx
  .xor (.reg .r15) (.reg .r15), -- 2404: xor r15d, r15d
  .mov (.reg .rax) (.mem ⟨some .rsp, none, 80#64⟩), -- 2405: mov rax, [rsp + 0x50]
  .xor (.reg .rax) (.reg .r9), -- 2406: xor rax, r9
  .mul (.reg .r8), -- 2407: mul r8
  .add (.reg .r14) (.reg .rax), -- 2408: add r14, rax
  .adc (.reg .r15) (.reg .rdx), -- 2409: adc r15, rdx
  .mov (.reg .rax) (.mem ⟨some .rsp, none, 112#64⟩), -- 2410: mov rax, [rsp + 0x70]
  .xor (.reg .rax) (.reg .r11), -- 2411: xor rax, r11
  .mul (.reg .r10), -- 2412: mul r10
  .add (.reg .r14) (.reg .rax), -- 2413: add r14, rax
  .adc (.reg .r15) (.reg .rdx), -- 2414: adc r15, rdx
  .mov (.reg .rax) (.mem ⟨some .rsp, none, 88#64⟩), -- 2415: mov rax, [rsp + 0x58]
  .xor (.reg .rax) (.reg .r9), -- 2416: xor rax, r9
  .and (.reg .r9) (.reg .r8), -- 2417: and r9, r8
  .neg (.reg .r9), -- 2418: neg r9
  .mul (.reg .r8), -- 2419: mul r8
  .add (.reg .r15) (.reg .rax), -- 2420: add r15, rax
  .adc (.reg .r9) (.reg .rdx), -- 2421: adc r9, rdx
  .mov (.reg .rax) (.mem ⟨some .rsp, none, 120#64⟩), -- 2422: mov rax, [rsp + 0x78]
  .xor (.reg .rax) (.reg .r11), -- 2423: xor rax, r11
  .mov (.reg .rdx) (.reg .r11), -- 2424: mov rdx, r11
  .and (.reg .rdx) (.reg .r10), -- 2425: and rdx, r10
  .sub (.reg .r9) (.reg .rdx), -- 2426: sub r9, rdx
  .mul (.reg .r10), -- 2427: mul r10
  .add (.reg .r15) (.reg .rax), -- 2428: add r15, rax
  .adc (.reg .r9) (.reg .rdx), -- 2429: adc r9, rdx
  .mov (.reg .rax) (.reg .r9), -- 2430: mov rax, r9
  .shld (.reg .rax) .r15 (.imm 1#64), -- 2431: shld rax, r15, 0x1
  .sar (.reg .r9) (.imm 63#64), -- 2432: sar r9, 0x3f
  .mov (.reg .rbx) (.imm 19#64), -- 2433: mov ebx, 0x13
  .lea .rax ⟨some .rax, some (.r9, 1#64), 1#64⟩, -- 2434: lea rax, [rax + r9 + 0x1]
  .imul1 (.reg .rbx), -- 2435: imul rbx
  .xor (.reg .rbp) (.reg .rbp), -- 2436: xor ebp, ebp
  .add (.reg .r12) (.reg .rax), -- 2437: add r12, rax
  .adc (.reg .r13) (.reg .rdx), -- 2438: adc r13, rdx
  .adc (.reg .r14) (.reg .r9), -- 2439: adc r14, r9
  .adc (.reg .r15) (.reg .r9), -- 2440: adc r15, r9
  .shl (.reg .rax) (.imm 63#64), -- 2441: shl rax, 0x3f
  .add (.reg .r15) (.reg .rax), -- 2442: add r15, rax
  .cmov .ns .rbx (.reg .rbp), -- 2443: cmovns rbx, rbp
  .sub (.reg .r12) (.reg .rbx), -- 2444: sub r12, rbx
  .sbb (.reg .r13) (.reg .rbp), -- 2445: sbb r13, rbp
  .sbb (.reg .r14) (.reg .rbp), -- 2446: sbb r14, rbp
  .sbb (.reg .r15) (.reg .rbp), -- 2447: sbb r15, rbp
  .btr .r15 63#64, -- 2448: btr r15, 0x3f
  .mov (.reg .rdi) (.mem ⟨some .rsp, none, 192#64⟩), -- 2449: mov rdi, [rsp + 0xc0]
  .mov (.mem ⟨some .rdi, none, 0#64⟩) (.reg .r12), -- 2450: mov [rdi], r12
  .mov (.mem ⟨some .rdi, none, 8#64⟩) (.reg .r13), -- 2451: mov [rdi + 0x8], r13
  .mov (.mem ⟨some .rdi, none, 16#64⟩) (.reg .r14), -- 2452: mov [rdi + 0x10], r14
  .mov (.mem ⟨some .rdi, none, 24#64⟩) (.reg .r15), -- 2453: mov [rdi + 0x18], r15
  .mov (.reg .rbp) (.mem ⟨some .rsp, none, 448#64⟩), -- 2454: mov rbp, QWORD PTR [rsp + 14 * 32]
  .xor (.reg .rsi) (.reg .rsi), -- 2455: xor esi, esi
  .mov (.reg .rdx) (.mem ⟨some .rsp, none, 256#64⟩), -- 2456: mov rdx, [rsp + (8 * 32)]
  .mulx .r9 .r8 (.mem ⟨some .rsp, none, 288#64⟩), -- 2457: mulx r9, r8, [rsp + (9 * 32)]
  .mulx .r10 .rax (.mem ⟨some .rsp, none, 296#64⟩), -- 2458: mulx r10, rax, [rsp + (9 * 32)+ 0x8]
  .add (.reg .r9) (.reg .rax), -- 2459: add r9, rax
  .mulx .r11 .rax (.mem ⟨some .rsp, none, 304#64⟩), -- 2460: mulx r11, rax, [rsp + (9 * 32)+ 0x10]
  .adc (.reg .r10) (.reg .rax), -- 2461: adc r10, rax
  .mulx .r12 .rax (.mem ⟨some .rsp, none, 312#64⟩), -- 2462: mulx r12, rax, [rsp + (9 * 32)+ 0x18]
  .adc (.reg .r11) (.reg .rax), -- 2463: adc r11, rax
  .adc (.reg .r12) (.reg .rsi), -- 2464: adc r12, rsi
  .xor (.reg .rsi) (.reg .rsi), -- 2465: xor esi, esi
  .mov (.reg .rdx) (.mem ⟨some .rsp, none, 264#64⟩), -- 2466: mov rdx, [rsp + (8 * 32)+ 0x8]
  .mulx .rbx .rax (.mem ⟨some .rsp, none, 288#64⟩), -- 2467: mulx rbx, rax, [rsp + (9 * 32)]
  .adcx .r9 (.reg .rax), -- 2468: adcx r9, rax
  .adox .r10 (.reg .rbx), -- 2469: adox r10, rbx
  .mulx .rbx .rax (.mem ⟨some .rsp, none, 296#64⟩), -- 2470: mulx rbx, rax, [rsp + (9 * 32)+ 0x8]
  .adcx .r10 (.reg .rax), -- 2471: adcx r10, rax
  .adox .r11 (.reg .rbx), -- 2472: adox r11, rbx
  .mulx .rbx .rax (.mem ⟨some .rsp, none, 304#64⟩), -- 2473: mulx rbx, rax, [rsp + (9 * 32)+ 0x10]
  .adcx .r11 (.reg .rax), -- 2474: adcx r11, rax
  .adox .r12 (.reg .rbx), -- 2475: adox r12, rbx
  .mulx .r13 .rax (.mem ⟨some .rsp, none, 312#64⟩), -- 2476: mulx r13, rax, [rsp + (9 * 32)+ 0x18]
  .adcx .r12 (.reg .rax), -- 2477: adcx r12, rax
  .adox .r13 (.reg .rsi), -- 2478: adox r13, rsi
  .adcx .r13 (.reg .rsi), -- 2479: adcx r13, rsi
  .xor (.reg .rsi) (.reg .rsi), -- 2480: xor esi, esi
  .mov (.reg .rdx) (.mem ⟨some .rsp, none, 272#64⟩), -- 2481: mov rdx, [rsp + (8 * 32)+ 0x10]
  .mulx .rbx .rax (.mem ⟨some .rsp, none, 288#64⟩), -- 2482: mulx rbx, rax, [rsp + (9 * 32)]
  .adcx .r10 (.reg .rax), -- 2483: adcx r10, rax
  .adox .r11 (.reg .rbx), -- 2484: adox r11, rbx
  .mulx .rbx .rax (.mem ⟨some .rsp, none, 296#64⟩), -- 2485: mulx rbx, rax, [rsp + (9 * 32)+ 0x8]
  .adcx .r11 (.reg .rax), -- 2486: adcx r11, rax
  .adox .r12 (.reg .rbx), -- 2487: adox r12, rbx
  .mulx .rbx .rax (.mem ⟨some .rsp, none, 304#64⟩), -- 2488: mulx rbx, rax, [rsp + (9 * 32)+ 0x10]
  .adcx .r12 (.reg .rax), -- 2489: adcx r12, rax
  .adox .r13 (.reg .rbx), -- 2490: adox r13, rbx
  .mulx .r14 .rax (.mem ⟨some .rsp, none, 312#64⟩), -- 2491: mulx r14, rax, [rsp + (9 * 32)+ 0x18]
  .adcx .r13 (.reg .rax), -- 2492: adcx r13, rax
  .adox .r14 (.reg .rsi), -- 2493: adox r14, rsi
  .adcx .r14 (.reg .rsi), -- 2494: adcx r14, rsi
  .xor (.reg .rsi) (.reg .rsi), -- 2495: xor esi, esi
  .mov (.reg .rdx) (.mem ⟨some .rsp, none, 280#64⟩), -- 2496: mov rdx, [rsp + (8 * 32)+ 0x18]
  .mulx .rbx .rax (.mem ⟨some .rsp, none, 288#64⟩), -- 2497: mulx rbx, rax, [rsp + (9 * 32)]
  .adcx .r11 (.reg .rax), -- 2498: adcx r11, rax
  .adox .r12 (.reg .rbx), -- 2499: adox r12, rbx
  .mulx .rbx .rax (.mem ⟨some .rsp, none, 296#64⟩), -- 2500: mulx rbx, rax, [rsp + (9 * 32)+ 0x8]
  .adcx .r12 (.reg .rax), -- 2501: adcx r12, rax
  .adox .r13 (.reg .rbx), -- 2502: adox r13, rbx
  .mulx .rbx .rax (.mem ⟨some .rsp, none, 304#64⟩), -- 2503: mulx rbx, rax, [rsp + (9 * 32)+ 0x10]
  .adcx .r13 (.reg .rax), -- 2504: adcx r13, rax
  .adox .r14 (.reg .rbx), -- 2505: adox r14, rbx
  .mulx .r15 .rax (.mem ⟨some .rsp, none, 312#64⟩), -- 2506: mulx r15, rax, [rsp + (9 * 32)+ 0x18]
  .adcx .r14 (.reg .rax), -- 2507: adcx r14, rax
  .adox .r15 (.reg .rsi), -- 2508: adox r15, rsi
  .adcx .r15 (.reg .rsi), -- 2509: adcx r15, rsi
  .mov (.reg .rdx) (.imm 38#64), -- 2510: mov edx, 0x26
  .xor (.reg .rsi) (.reg .rsi), -- 2511: xor esi, esi
  .mulx .rbx .rax (.reg .r12), -- 2512: mulx rbx, rax, r12
  .adcx .r8 (.reg .rax), -- 2513: adcx r8, rax
  .adox .r9 (.reg .rbx), -- 2514: adox r9, rbx
  .mulx .rbx .rax (.reg .r13), -- 2515: mulx rbx, rax, r13
  .adcx .r9 (.reg .rax), -- 2516: adcx r9, rax
  .adox .r10 (.reg .rbx), -- 2517: adox r10, rbx
  .mulx .rbx .rax (.reg .r14), -- 2518: mulx rbx, rax, r14
  .adcx .r10 (.reg .rax), -- 2519: adcx r10, rax
  .adox .r11 (.reg .rbx), -- 2520: adox r11, rbx
  .mulx .r12 .rax (.reg .r15), -- 2521: mulx r12, rax, r15
  .adcx .r11 (.reg .rax), -- 2522: adcx r11, rax
  .adox .r12 (.reg .rsi), -- 2523: adox r12, rsi
  .adcx .r12 (.reg .rsi), -- 2524: adcx r12, rsi
  .shld (.reg .r12) .r11 (.imm 1#64), -- 2525: shld r12, r11, 0x1
  .mov (.reg .rdx) (.imm 19#64), -- 2526: mov edx, 0x13
  .inc (.reg .r12), -- 2527: inc r12
  .bts .r11 63#64, -- 2528: bts r11, 63
  .mulx .rbx .rax (.reg .r12), -- 2529: mulx rbx, rax, r12
  .add (.reg .r8) (.reg .rax), -- 2530: add r8, rax
  .adc (.reg .r9) (.reg .rbx), -- 2531: adc r9, rbx
  .adc (.reg .r10) (.reg .rsi), -- 2532: adc r10, rsi
  .adc (.reg .r11) (.reg .rsi), -- 2533: adc r11, rsi
  .sbb (.reg .rax) (.reg .rax), -- 2534: sbb rax, rax
  .not (.reg .rax), -- 2535: not rax
  .and (.reg .rax) (.reg .rdx), -- 2536: and rax, rdx
  .sub (.reg .r8) (.reg .rax), -- 2537: sub r8, rax
  .sbb (.reg .r9) (.reg .rsi), -- 2538: sbb r9, rsi
  .sbb (.reg .r10) (.reg .rsi), -- 2539: sbb r10, rsi
  .sbb (.reg .r11) (.reg .rsi), -- 2540: sbb r11, rsi
  .btr .r11 63#64, -- 2541: btr r11, 63
  .mov (.mem ⟨some .rbp, none, 0#64⟩) (.reg .r8), -- 2542: mov [rbp + (0 * 32)], r8
  .mov (.mem ⟨some .rbp, none, 8#64⟩) (.reg .r9), -- 2543: mov [rbp + (0 * 32)+ 0x8], r9
  .mov (.mem ⟨some .rbp, none, 16#64⟩) (.reg .r10), -- 2544: mov [rbp + (0 * 32)+ 0x10], r10
  .mov (.mem ⟨some .rbp, none, 24#64⟩) (.reg .r11), -- 2545: mov [rbp + (0 * 32)+ 0x18], r11
  .add (.reg .rsp) (.imm 488#64), -- 2546: add rsp, 488
  .pop .r15, -- 2547: pop r15
  .pop .r14, -- 2548: pop r14
  .pop .r13, -- 2549: pop r13
  .pop .r12, -- 2550: pop r12
  .pop .rbp, -- 2551: pop rbp
  .pop .rbx] -- 2552: pop rbx

/-- The registers that the operands of curve25519_x25519base.rs:372-2297 say may change. -/
def curve25519X25519baseRegs : List Reg := [.rdi, .rsi, .r10, .r11, .r12, .r13, .r14, .r15, .r8, .r9, .rax, .rcx, .rdx]

end Verif.X86.Asm
