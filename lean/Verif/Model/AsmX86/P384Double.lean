import Verif.Model.X86

/-!
Generated by tools/gen_asm.py from `graviola/src/low/x86_64`: the `asm!` blocks as lists of instructions.
The comment at the end of a line gives its position; jump targets are positions.
-/
namespace Verif.X86.Asm
open Verif.X86

/-- low/x86_64/p384_montjdouble.rs:952-1049.  Operands: inout("rdi") p3.as_mut_ptr() => _; inout("rsi") p1.as_ptr() => _; out("r10") _; out("r11") _; out("r12") _; out("r13") _; out("r14") _; out("r15") _; out("r8") _; out("r9") _; out("rax") _; out("rcx") _; out("rdx") _. -/
def p384Montjdouble : Prog := [
  .nop, -- 0: endbr64
  .push .rbx, -- 1: push rbx
  .push .rbp, -- 2: push rbp
  .push .r12, -- 3: push r12
  .push .r13, -- 4: push r13
  .push .r14, -- 5: push r14
  .push .r15, -- 6: push r15
  .sub (.reg .rsp) (.imm 344#64), -- 7: sub rsp, 344
  .mov (.mem ⟨some .rsp, none, 336#64⟩) (.reg .rdi), -- 8: mov [rsp + (48* 7)], rdi
  .mov (.reg .rdx) (.mem ⟨some .rsi, none, 96#64⟩), -- 9: mov rdx, [rsi + (2 * 48)]
  .mulx .r10 .r9 (.mem ⟨some .rsi, none, 104#64⟩), -- 10: mulx r10, r9, [rsi + (2 * 48)+ 0x8]
  .mulx .r12 .r11 (.mem ⟨some .rsi, none, 120#64⟩), -- 11: mulx r12, r11, [rsi + (2 * 48)+ 0x18]
  .mulx .r14 .r13 (.mem ⟨some .rsi, none, 136#64⟩), -- 12: mulx r14, r13, [rsi + (2 * 48)+ 0x28]
  .mov (.reg .rdx) (.mem ⟨some .rsi, none, 120#64⟩), -- 13: mov rdx, [rsi + (2 * 48)+ 0x18]
  .mulx .rcx .r15 (.mem ⟨some .rsi, none, 128#64⟩), -- 14: mulx rcx, r15, [rsi + (2 * 48)+ 0x20]
  .xor (.reg .rbp) (.reg .rbp), -- 15: xor ebp, ebp
  .mov (.reg .rdx) (.mem ⟨some .rsi, none, 112#64⟩), -- 16: mov rdx, [rsi + (2 * 48)+ 0x10]
  .mulx .rbx .rax (.mem ⟨some .rsi, none, 96#64⟩), -- 17: mulx rbx, rax, [rsi + (2 * 48)]
  .adcx .r10 (.reg .rax), -- 18: adcx r10, rax
  .adox .r11 (.reg .rbx), -- 19: adox r11, rbx
  .mulx .rbx .rax (.mem ⟨some .rsi, none, 104#64⟩), -- 20: mulx rbx, rax, [rsi + (2 * 48)+ 0x8]
  .adcx .r11 (.reg .rax), -- 21: adcx r11, rax
  .adox .r12 (.reg .rbx), -- 22: adox r12, rbx
  .mov (.reg .rdx) (.mem ⟨some .rsi, none, 104#64⟩), -- 23: mov rdx, [rsi + (2 * 48)+ 0x8]
  .mulx .rbx .rax (.mem ⟨some .rsi, none, 120#64⟩), -- 24: mulx rbx, rax, [rsi + (2 * 48)+ 0x18]
  .adcx .r12 (.reg .rax), -- 25: adcx r12, rax
  .adox .r13 (.reg .rbx), -- 26: adox r13, rbx
  .mulx .rbx .rax (.mem ⟨some .rsi, none, 128#64⟩), -- 27: mulx rbx, rax, [rsi + (2 * 48)+ 0x20]
  .adcx .r13 (.reg .rax), -- 28: adcx r13, rax
  .adox .r14 (.reg .rbx), -- 29: adox r14, rbx
  .mulx .rbx .rax (.mem ⟨some .rsi, none, 136#64⟩), -- 30: mulx rbx, rax, [rsi + (2 * 48)+ 0x28]
  .adcx .r14 (.reg .rax), -- 31: adcx r14, rax
  .adox .r15 (.reg .rbx), -- 32: adox r15, rbx
  .adcx .r15 (.reg .rbp), -- 33: adcx r15, rbp
  .adox .rcx (.reg .rbp), -- 34: adox rcx, rbp
  .adc (.reg .rcx) (.reg .rbp), -- 35: adc rcx, rbp
  .xor (.reg .rbp) (.reg .rbp), -- 36: xor ebp, ebp
  .mov (.reg .rdx) (.mem ⟨some .rsi, none, 128#64⟩), -- 37: mov rdx, [rsi + (2 * 48)+ 0x20]
  .mulx .rbx .rax (.mem ⟨some .rsi, none, 96#64⟩), -- 38: mulx rbx, rax, [rsi + (2 * 48)]
  .adcx .r12 (.reg .rax), -- 39: adcx r12, rax
  .adox .r13 (.reg .rbx), -- 40: adox r13, rbx
  .mov (.reg .rdx) (.mem ⟨some .rsi, none, 112#64⟩), -- 41: mov rdx, [rsi + (2 * 48)+ 0x10]
  .mulx .rbx .rax (.mem ⟨some .rsi, none, 120#64⟩), -- 42: mulx rbx, rax, [rsi + (2 * 48)+ 0x18]
  .adcx .r13 (.reg .rax), -- 43: adcx r13, rax
  .adox .r14 (.reg .rbx), -- 44: adox r14, rbx
  .mulx .rbx .rax (.mem ⟨some .rsi, none, 128#64⟩), -- 45: mulx rbx, rax, [rsi + (2 * 48)+ 0x20]
  .adcx .r14 (.reg .rax), -- 46: adcx r14, rax
  .adox .r15 (.reg .rbx), -- 47: adox r15, rbx
  .mulx .rdx .rax (.mem ⟨some .rsi, none, 136#64⟩), -- 48: mulx rdx, rax, [rsi + (2 * 48)+ 0x28]
  .adcx .r15 (.reg .rax), -- 49: adcx r15, rax
  .adox .rcx (.reg .rdx), -- 50: adox rcx, rdx
  .mov (.reg .rdx) (.mem ⟨some .rsi, none, 136#64⟩), -- 51: mov rdx, [rsi + (2 * 48)+ 0x28]
  .mulx .rbp .rbx (.mem ⟨some .rsi, none, 128#64⟩), -- 52: mulx rbp, rbx, [rsi + (2 * 48)+ 0x20]
  .mulx .rdx .rax (.mem ⟨some .rsi, none, 120#64⟩), -- 53: mulx rdx, rax, [rsi + (2 * 48)+ 0x18]
  .adcx .rcx (.reg .rax), -- 54: adcx rcx, rax
  .adox .rbx (.reg .rdx), -- 55: adox rbx, rdx
  .mov (.reg .rax) (.imm 0#64), -- 56: mov eax, 0x0
  .adcx .rbx (.reg .rax), -- 57: adcx rbx, rax
  .adox .rbp (.reg .rax), -- 58: adox rbp, rax
  .adc (.reg .rbp) (.reg .rax), -- 59: adc rbp, rax
  .xor (.reg .rax) (.reg .rax), -- 60: xor rax, rax
  .mov (.reg .rdx) (.mem ⟨some .rsi, none, 96#64⟩), -- 61: mov rdx, [rsi + (2 * 48)]
  .mulx .rax .r8 (.mem ⟨some .rsi, none, 96#64⟩), -- 62: mulx rax, r8, [rsi + (2 * 48)]
  .adcx .r9 (.reg .r9), -- 63: adcx r9, r9
  .adox .r9 (.reg .rax), -- 64: adox r9, rax
  .mov (.reg .rdx) (.mem ⟨some .rsi, none, 104#64⟩), -- 65: mov rdx, [rsi + (2 * 48)+ 0x8]
  .mulx .rdx .rax (.reg .rdx), -- 66: mulx rdx, rax, rdx
  .adcx .r10 (.reg .r10), -- 67: adcx r10, r10
  .adox .r10 (.reg .rax), -- 68: adox r10, rax
  .adcx .r11 (.reg .r11), -- 69: adcx r11, r11
  .adox .r11 (.reg .rdx), -- 70: adox r11, rdx
  .mov (.reg .rdx) (.mem ⟨some .rsi, none, 112#64⟩), -- 71: mov rdx, [rsi + (2 * 48)+ 0x10]
  .mulx .rdx .rax (.reg .rdx), -- 72: mulx rdx, rax, rdx
  .adcx .r12 (.reg .r12), -- 73: adcx r12, r12
  .adox .r12 (.reg .rax), -- 74: adox r12, rax
  .adcx .r13 (.reg .r13), -- 75: adcx r13, r13
  .adox .r13 (.reg .rdx), -- 76: adox r13, rdx
  .mov (.reg .rdx) (.mem ⟨some .rsi, none, 120#64⟩), -- 77: mov rdx, [rsi + (2 * 48)+ 0x18]
  .mulx .rdx .rax (.reg .rdx), -- 78: mulx rdx, rax, rdx
  .adcx .r14 (.reg .r14), -- 79: adcx r14, r14
  .adox .r14 (.reg .rax), -- 80: adox r14, rax
  .adcx .r15 (.reg .r15), -- 81: adcx r15, r15
  .adox .r15 (.reg .rdx), -- 82: adox r15, rdx
  .mov (.reg .rdx) (.mem ⟨some .rsi, none, 128#64⟩), -- 83: mov rdx, [rsi + (2 * 48)+ 0x20]
  .mulx .rdx .rax (.reg .rdx), -- 84: mulx rdx, rax, rdx
  .adcx .rcx (.reg .rcx), -- 85: adcx rcx, rcx
  .adox .rcx (.reg .rax), -- 86: adox rcx, rax
  .adcx .rbx (.reg .rbx), -- 87: adcx rbx, rbx
  .adox .rbx (.reg .rdx), -- 88: adox rbx, rdx
  .mov (.reg .rdx) (.mem ⟨some .rsi, none, 136#64⟩), -- 89: mov rdx, [rsi + (2 * 48)+ 0x28]
  .mulx .rdi .rax (.reg .rdx), -- 90: mulx rdi, rax, rdx
  .adcx .rbp (.reg .rbp), -- 91: adcx rbp, rbp
  .adox .rbp (.reg .rax), -- 92: adox rbp, rax
  .mov (.reg .rax) (.imm 0#64), -- 93: mov eax, 0x0
  .adcx .rdi (.reg .rax), -- 94: adcx rdi, rax
  .adox .rdi (.reg .rax), -- 95: adox rdi, rax
  .mov (.mem ⟨some .rsp, none, 0#64⟩) (.reg .rbx), -- 96: mov [rsp + (48* 0)], rbx
  .mov (.reg .rdx) (.reg .r8), -- 97: mov rdx, r8
  .shl (.reg .rdx) (.imm 32#64), -- 98: shl rdx, 0x20
  .add (.reg .rdx) (.reg .r8), -- 99: add rdx, r8
  .mov (.reg .rax) (.imm 0xffffffff00000001#64), -- 100: mov rax, 0xffffffff00000001
  .mulx .rax .r8 (.reg .rax), -- 101: mulx rax, r8, rax
  .mov (.reg .rbx) (.imm 0xffffffff#64), -- 102: mov ebx, 0xffffffff
  .mulx .r8 .rbx (.reg .rbx), -- 103: mulx r8, rbx, rbx
  .add (.reg .rax) (.reg .rbx), -- 104: add rax, rbx
  .adc (.reg .r8) (.reg .rdx), -- 105: adc r8, rdx
  .mov (.reg .rbx) (.imm 0#64), -- 106: mov ebx, 0x0
  .adc (.reg .rbx) (.reg .rbx), -- 107: adc rbx, rbx
  .sub (.reg .r9) (.reg .rax), -- 108: sub r9, rax
  .sbb (.reg .r10) (.reg .r8), -- 109: sbb r10, r8
  .sbb (.reg .r11) (.reg .rbx), -- 110: sbb r11, rbx
  .sbb (.reg .r12) (.imm 0#64), -- 111: sbb r12, 0x0
  .sbb (.reg .r13) (.imm 0#64), -- 112: sbb r13, 0x0
  .mov (.reg .r8) (.reg .rdx), -- 113: mov r8, rdx
  .sbb (.reg .r8) (.imm 0#64), -- 114: sbb r8, 0x0
  .mov (.reg .rdx) (.reg .r9), -- 115: mov rdx, r9
  .shl (.reg .rdx) (.imm 32#64), -- 116: shl rdx, 0x20
  .add (.reg .rdx) (.reg .r9), -- 117: add rdx, r9
  .mov (.reg .rax) (.imm 0xffffffff00000001#64), -- 118: mov rax, 0xffffffff00000001
  .mulx .rax .r9 (.reg .rax), -- 119: mulx rax, r9, rax
  .mov (.reg .rbx) (.imm 0xffffffff#64), -- 120: mov ebx, 0xffffffff
  .mulx .r9 .rbx (.reg .rbx), -- 121: mulx r9, rbx, rbx
  .add (.reg .rax) (.reg .rbx), -- 122: add rax, rbx
  .adc (.reg .r9) (.reg .rdx), -- 123: adc r9, rdx
  .mov (.reg .rbx) (.imm 0#64), -- 124: mov ebx, 0x0
  .adc (.reg .rbx) (.reg .rbx), -- 125: adc rbx, rbx
  .sub (.reg .r10) (.reg .rax), -- 126: sub r10, rax
  .sbb (.reg .r11) (.reg .r9), -- 127: sbb r11, r9
  .sbb (.reg .r12) (.reg .rbx), -- 128: sbb r12, rbx
  .sbb (.reg .r13) (.imm 0#64), -- 129: sbb r13, 0x0
  .sbb (.reg .r8) (.imm 0#64), -- 130: sbb r8, 0x0
  .mov (.reg .r9) (.reg .rdx), -- 131: mov r9, rdx
  .sbb (.reg .r9) (.imm 0#64), -- 132: sbb r9, 0x0
  .mov (.reg .rdx) (.reg .r10), -- 133: mov rdx, r10
  .shl (.reg .rdx) (.imm 32#64), -- 134: shl rdx, 0x20
  .add (.reg .rdx) (.reg .r10), -- 135: add rdx, r10
  .mov (.reg .rax) (.imm 0xffffffff00000001#64), -- 136: mov rax, 0xffffffff00000001
  .mulx .rax .r10 (.reg .rax), -- 137: mulx rax, r10, rax
  .mov (.reg .rbx) (.imm 0xffffffff#64), -- 138: mov ebx, 0xffffffff
  .mulx .r10 .rbx (.reg .rbx), -- 139: mulx r10, rbx, rbx
  .add (.reg .rax) (.reg .rbx), -- 140: add rax, rbx
  .adc (.reg .r10) (.reg .rdx), -- 141: adc r10, rdx
  .mov (.reg .rbx) (.imm 0#64), -- 142: mov ebx, 0x0
  .adc (.reg .rbx) (.reg .rbx), -- 143: adc rbx, rbx
  .sub (.reg .r11) (.reg .rax), -- 144: sub r11, rax
  .sbb (.reg .r12) (.reg .r10), -- 145: sbb r12, r10
  .sbb (.reg .r13) (.reg .rbx), -- 146: sbb r13, rbx
  .sbb (.reg .r8) (.imm 0#64), -- 147: sbb r8, 0x0
  .sbb (.reg .r9) (.imm 0#64), -- 148: sbb r9, 0x0
  .mov (.reg .r10) (.reg .rdx), -- 149: mov r10, rdx
  .sbb (.reg .r10) (.imm 0#64), -- 150: sbb r10, 0x0
  .mov (.reg .rdx) (.reg .r11), -- 151: mov rdx, r11
  .shl (.reg .rdx) (.imm 32#64), -- 152: shl rdx, 0x20
  .add (.reg .rdx) (.reg .r11), -- 153: add rdx, r11
  .mov (.reg .rax) (.imm 0xffffffff00000001#64), -- 154: mov rax, 0xffffffff00000001
  .mulx .rax .r11 (.reg .rax), -- 155: mulx rax, r11, rax
  .mov (.reg .rbx) (.imm 0xffffffff#64), -- 156: mov ebx, 0xffffffff
  .mulx .r11 .rbx (.reg .rbx), -- 157: mulx r11, rbx, rbx
  .add (.reg .rax) (.reg .rbx), -- 158: add rax, rbx
  .adc (.reg .r11) (.reg .rdx), -- 159: adc r11, rdx
  .mov (.reg .rbx) (.imm 0#64), -- 160: mov ebx, 0x0
  .adc (.reg .rbx) (.reg .rbx), -- 161: adc rbx, rbx
  .sub (.reg .r12) (.reg .rax), -- 162: sub r12, rax
  .sbb (.reg .r13) (.reg .r11), -- 163: sbb r13, r11
  .sbb (.reg .r8) (.reg .rbx), -- 164: sbb r8, rbx
  .sbb (.reg .r9) (.imm 0#64), -- 165: sbb r9, 0x0
  .sbb (.reg .r10) (.imm 0#64), -- 166: sbb r10, 0x0
  .mov (.reg .r11) (.reg .rdx), -- 167: mov r11, rdx
  .sbb (.reg .r11) (.imm 0#64), -- 168: sbb r11, 0x0
  .mov (.reg .rdx) (.reg .r12), -- 169: mov rdx, r12
  .shl (.reg .rdx) (.imm 32#64), -- 170: shl rdx, 0x20
  .add (.reg .rdx) (.reg .r12), -- 171: add rdx, r12
  .mov (.reg .rax) (.imm 0xffffffff00000001#64), -- 172: mov rax, 0xffffffff00000001
  .mulx .rax .r12 (.reg .rax), -- 173: mulx rax, r12, rax
  .mov (.reg .rbx) (.imm 0xffffffff#64), -- 174: mov ebx, 0xffffffff
  .mulx .r12 .rbx (.reg .rbx), -- 175: mulx r12, rbx, rbx
  .add (.reg .rax) (.reg .rbx), -- 176: add rax, rbx
  .adc (.reg .r12) (.reg .rdx), -- 177: adc r12, rdx
  .mov (.reg .rbx) (.imm 0#64), -- 178: mov ebx, 0x0
  .adc (.reg .rbx) (.reg .rbx), -- 179: adc rbx, rbx
  .sub (.reg .r13) (.reg .rax), -- 180: sub r13, rax
  .sbb (.reg .r8) (.reg .r12), -- 181: sbb r8, r12
  .sbb (.reg .r9) (.reg .rbx), -- 182: sbb r9, rbx
  .sbb (.reg .r10) (.imm 0#64), -- 183: sbb r10, 0x0
  .sbb (.reg .r11) (.imm 0#64), -- 184: sbb r11, 0x0
  .mov (.reg .r12) (.reg .rdx), -- 185: mov r12, rdx
  .sbb (.reg .r12) (.imm 0#64), -- 186: sbb r12, 0x0
  .mov (.reg .rdx) (.reg .r13), -- 187: mov rdx, r13
  .shl (.reg .rdx) (.imm 32#64), -- 188: shl rdx, 0x20
  .add (.reg .rdx) (.reg .r13), -- 189: add rdx, r13
  .mov (.reg .rax) (.imm 0xffffffff00000001#64), -- 190: mov rax, 0xffffffff00000001
  .mulx .rax .r13 (.reg .rax), -- 191: mulx rax, r13, rax
  .mov (.reg .rbx) (.imm 0xffffffff#64), -- 192: mov ebx, 0xffffffff
  .mulx .r13 .rbx (.reg .rbx), -- 193: mulx r13, rbx, rbx
  .add (.reg .rax) (.reg .rbx), -- 194: add rax, rbx
  .adc (.reg .r13) (.reg .rdx), -- 195: adc r13, rdx
  .mov (.reg .rbx) (.imm 0#64), -- 196: mov ebx, 0x0
  .adc (.reg .rbx) (.reg .rbx), -- 197: adc rbx, rbx
  .sub (.reg .r8) (.reg .rax), -- 198: sub r8, rax
  .sbb (.reg .r9) (.reg .r13), -- 199: sbb r9, r13
  .sbb (.reg .r10) (.reg .rbx), -- 200: sbb r10, rbx
  .sbb (.reg .r11) (.imm 0#64), -- 201: sbb r11, 0x0
  .sbb (.reg .r12) (.imm 0#64), -- 202: sbb r12, 0x0
  .mov (.reg .r13) (.reg .rdx), -- 203: mov r13, rdx
  .sbb (.reg .r13) (.imm 0#64), -- 204: sbb r13, 0x0
  .mov (.reg .rbx) (.mem ⟨some .rsp, none, 0#64⟩), -- 205: mov rbx, [rsp + (48* 0)]
  .add (.reg .r14) (.reg .r8), -- 206: add r14, r8
  .adc (.reg .r15) (.reg .r9), -- 207: adc r15, r9
  .adc (.reg .rcx) (.reg .r10), -- 208: adc rcx, r10
  .adc (.reg .rbx) (.reg .r11), -- 209: adc rbx, r11
  .adc (.reg .rbp) (.reg .r12), -- 210: adc rbp, r12
  .adc (.reg .rdi) (.reg .r13), -- 211: adc rdi, r13
  .mov (.reg .r8) (.imm 0#64), -- 212: mov r8d, 0x0
  .adc (.reg .r8) (.reg .r8), -- 213: adc r8, r8
  .xor (.reg .r11) (.reg .r11), -- 214: xor r11, r11
  .xor (.reg .r12) (.reg .r12), -- 215: xor r12, r12
  .xor (.reg .r13) (.reg .r13), -- 216: xor r13, r13
  .mov (.reg .rax) (.imm 0xffffffff00000001#64), -- 217: mov rax, 0xffffffff00000001
  .add (.reg .rax) (.reg .r14), -- 218: add rax, r14
  .mov (.reg .r9) (.imm 0xffffffff#64), -- 219: mov r9d, 0xffffffff
  .adc (.reg .r9) (.reg .r15), -- 220: adc r9, r15
  .mov (.reg .r10) (.imm 1#64), -- 221: mov r10d, 0x1
  .adc (.reg .r10) (.reg .rcx), -- 222: adc r10, rcx
  .adc (.reg .r11) (.reg .rbx), -- 223: adc r11, rbx
  .adc (.reg .r12) (.reg .rbp), -- 224: adc r12, rbp
  .adc (.reg .r13) (.reg .rdi), -- 225: adc r13, rdi
  .adc (.reg .r8) (.imm 0#64), -- 226: adc r8, 0x0
  .cmov .nz .r14 (.reg .rax), -- 227: cmovne r14, rax
  .cmov .nz .r15 (.reg .r9), -- 228: cmovne r15, r9
  .cmov .nz .rcx (.reg .r10), -- 229: cmovne rcx, r10
  .cmov .nz .rbx (.reg .r11), -- 230: cmovne rbx, r11
  .cmov .nz .rbp (.reg .r12), -- 231: cmovne rbp, r12
  .cmov .nz .rdi (.reg .r13), -- 232: cmovne rdi, r13
  .mov (.mem ⟨some .rsp, none, 0#64⟩) (.reg .r14), -- 233: mov [rsp + (48* 0)], r14
  .mov (.mem ⟨some .rsp, none, 8#64⟩) (.reg .r15), -- 234: mov [rsp + (48* 0)+ 0x8], r15
  .mov (.mem ⟨some .rsp, none, 16#64⟩) (.reg .rcx), -- 235: mov [rsp + (48* 0)+ 0x10], rcx
  .mov (.mem ⟨some .rsp, none, 24#64⟩) (.reg .rbx), -- 236: mov [rsp + (48* 0)+ 0x18], rbx
  .mov (.mem ⟨some .rsp, none, 32#64⟩) (.reg .rbp), -- 237: mov [rsp + (48* 0)+ 0x20], rbp
  .mov (.mem ⟨some .rsp, none, 40#64⟩) (.reg .rdi), -- 238: mov [rsp + (48* 0)+ 0x28], rdi
  .mov (.reg .rdx) (.mem ⟨some .rsi, none, 48#64⟩), -- 239: mov rdx, [rsi + 48]
  .mulx .r10 .r9 (.mem ⟨some .rsi, none, 56#64⟩), -- 240: mulx r10, r9, [rsi + 48+ 0x8]
  .mulx .r12 .r11 (.mem ⟨some .rsi, none, 72#64⟩), -- 241: mulx r12, r11, [rsi + 48+ 0x18]
  .mulx .r14 .r13 (.mem ⟨some .rsi, none, 88#64⟩), -- 242: mulx r14, r13, [rsi + 48+ 0x28]
  .mov (.reg .rdx) (.mem ⟨some .rsi, none, 72#64⟩), -- 243: mov rdx, [rsi + 48+ 0x18]
  .mulx .rcx .r15 (.mem ⟨some .rsi, none, 80#64⟩), -- 244: mulx rcx, r15, [rsi + 48+ 0x20]
  .xor (.reg .rbp) (.reg .rbp), -- 245: xor ebp, ebp
  .mov (.reg .rdx) (.mem ⟨some .rsi, none, 64#64⟩), -- 246: mov rdx, [rsi + 48+ 0x10]
  .mulx .rbx .rax (.mem ⟨some .rsi, none, 48#64⟩), -- 247: mulx rbx, rax, [rsi + 48]
  .adcx .r10 (.reg .rax), -- 248: adcx r10, rax
  .adox .r11 (.reg .rbx), -- 249: adox r11, rbx
  .mulx .rbx .rax (.mem ⟨some .rsi, none, 56#64⟩), -- 250: mulx rbx, rax, [rsi + 48+ 0x8]
  .adcx .r11 (.reg .rax), -- 251: adcx r11, rax
  .adox .r12 (.reg .rbx), -- 252: adox r12, rbx
  .mov (.reg .rdx) (.mem ⟨some .rsi, none, 56#64⟩), -- 253: mov rdx, [rsi + 48+ 0x8]
  .mulx .rbx .rax (.mem ⟨some .rsi, none, 72#64⟩), -- 254: mulx rbx, rax, [rsi + 48+ 0x18]
  .adcx .r12 (.reg .rax), -- 255: adcx r12, rax
  .adox .r13 (.reg .rbx), -- 256: adox r13, rbx
  .mulx .rbx .rax (.mem ⟨some .rsi, none, 80#64⟩), -- 257: mulx rbx, rax, [rsi + 48+ 0x20]
  .adcx .r13 (.reg .rax), -- 258: adcx r13, rax
  .adox .r14 (.reg .rbx), -- 259: adox r14, rbx
  .mulx .rbx .rax (.mem ⟨some .rsi, none, 88#64⟩), -- 260: mulx rbx, rax, [rsi + 48+ 0x28]
  .adcx .r14 (.reg .rax), -- 261: adcx r14, rax
  .adox .r15 (.reg .rbx), -- 262: adox r15, rbx
  .adcx .r15 (.reg .rbp), -- 263: adcx r15, rbp
  .adox .rcx (.reg .rbp), -- 264: adox rcx, rbp
  .adc (.reg .rcx) (.reg .rbp), -- 265: adc rcx, rbp
  .xor (.reg .rbp) (.reg .rbp), -- 266: xor ebp, ebp
  .mov (.reg .rdx) (.mem ⟨some .rsi, none, 80#64⟩), -- 267: mov rdx, [rsi + 48+ 0x20]
  .mulx .rbx .rax (.mem ⟨some .rsi, none, 48#64⟩), -- 268: mulx rbx, rax, [rsi + 48]
  .adcx .r12 (.reg .rax), -- 269: adcx r12, rax
  .adox .r13 (.reg .rbx), -- 270: adox r13, rbx
  .mov (.reg .rdx) (.mem ⟨some .rsi, none, 64#64⟩), -- 271: mov rdx, [rsi + 48+ 0x10]
  .mulx .rbx .rax (.mem ⟨some .rsi, none, 72#64⟩), -- 272: mulx rbx, rax, [rsi + 48+ 0x18]
  .adcx .r13 (.reg .rax), -- 273: adcx r13, rax
  .adox .r14 (.reg .rbx), -- 274: adox r14, rbx
  .mulx .rbx .rax (.mem ⟨some .rsi, none, 80#64⟩), -- 275: mulx rbx, rax, [rsi + 48+ 0x20]
  .adcx .r14 (.reg .rax), -- 276: adcx r14, rax
  .adox .r15 (.reg .rbx), -- 277: adox r15, rbx
  .mulx .rdx .rax (.mem ⟨some .rsi, none, 88#64⟩), -- 278: mulx rdx, rax, [rsi + 48+ 0x28]
  .adcx .r15 (.reg .rax), -- 279: adcx r15, rax
  .adox .rcx (.reg .rdx), -- 280: adox rcx, rdx
  .mov (.reg .rdx) (.mem ⟨some .rsi, none, 88#64⟩), -- 281: mov rdx, [rsi + 48+ 0x28]
  .mulx .rbp .rbx (.mem ⟨some .rsi, none, 80#64⟩), -- 282: mulx rbp, rbx, [rsi + 48+ 0x20]
  .mulx .rdx .rax (.mem ⟨some .rsi, none, 72#64⟩), -- 283: mulx rdx, rax, [rsi + 48+ 0x18]
  .adcx .rcx (.reg .rax), -- 284: adcx rcx, rax
  .adox .rbx (.reg .rdx), -- 285: adox rbx, rdx
  .mov (.reg .rax) (.imm 0#64), -- 286: mov eax, 0x0
  .adcx .rbx (.reg .rax), -- 287: adcx rbx, rax
  .adox .rbp (.reg .rax), -- 288: adox rbp, rax
  .adc (.reg .rbp) (.reg .rax), -- 289: adc rbp, rax
  .xor (.reg .rax) (.reg .rax), -- 290: xor rax, rax
  .mov (.reg .rdx) (.mem ⟨some .rsi, none, 48#64⟩), -- 291: mov rdx, [rsi + 48]
  .mulx .rax .r8 (.mem ⟨some .rsi, none, 48#64⟩), -- 292: mulx rax, r8, [rsi + 48]
  .adcx .r9 (.reg .r9), -- 293: adcx r9, r9
  .adox .r9 (.reg .rax), -- 294: adox r9, rax
  .mov (.reg .rdx) (.mem ⟨some .rsi, none, 56#64⟩), -- 295: mov rdx, [rsi + 48+ 0x8]
  .mulx .rdx .rax (.reg .rdx), -- 296: mulx rdx, rax, rdx
  .adcx .r10 (.reg .r10), -- 297: adcx r10, r10
  .adox .r10 (.reg .rax), -- 298: adox r10, rax
  .adcx .r11 (.reg .r11), -- 299: adcx r11, r11
  .adox .r11 (.reg .rdx), -- 300: adox r11, rdx
  .mov (.reg .rdx) (.mem ⟨some .rsi, none, 64#64⟩), -- 301: mov rdx, [rsi + 48+ 0x10]
  .mulx .rdx .rax (.reg .rdx), -- 302: mulx rdx, rax, rdx
  .adcx .r12 (.reg .r12), -- 303: adcx r12, r12
  .adox .r12 (.reg .rax), -- 304: adox r12, rax
  .adcx .r13 (.reg .r13), -- 305: adcx r13, r13
  .adox .r13 (.reg .rdx), -- 306: adox r13, rdx
  .mov (.reg .rdx) (.mem ⟨some .rsi, none, 72#64⟩), -- 307: mov rdx, [rsi + 48+ 0x18]
  .mulx .rdx .rax (.reg .rdx), -- 308: mulx rdx, rax, rdx
  .adcx .r14 (.reg .r14), -- 309: adcx r14, r14
  .adox .r14 (.reg .rax), -- 310: adox r14, rax
  .adcx .r15 (.reg .r15), -- 311: adcx r15, r15
  .adox .r15 (.reg .rdx), -- 312: adox r15, rdx
  .mov (.reg .rdx) (.mem ⟨some .rsi, none, 80#64⟩), -- 313: mov rdx, [rsi + 48+ 0x20]
  .mulx .rdx .rax (.reg .rdx), -- 314: mulx rdx, rax, rdx
  .adcx .rcx (.reg .rcx), -- 315: adcx rcx, rcx
  .adox .rcx (.reg .rax), -- 316: adox rcx, rax
  .adcx .rbx (.reg .rbx), -- 317: adcx rbx, rbx
  .adox .rbx (.reg .rdx), -- 318: adox rbx, rdx
  .mov (.reg .rdx) (.mem ⟨some .rsi, none, 88#64⟩), -- 319: mov rdx, [rsi + 48+ 0x28]
  .mulx .rdi .rax (.reg .rdx), -- 320: mulx rdi, rax, rdx
  .adcx .rbp (.reg .rbp), -- 321: adcx rbp, rbp
  .adox .rbp (.reg .rax), -- 322: adox rbp, rax
  .mov (.reg .rax) (.imm 0#64), -- 323: mov eax, 0x0
  .adcx .rdi (.reg .rax), -- 324: adcx rdi, rax
  .adox .rdi (.reg .rax), -- 325: adox rdi, rax
  .mov (.mem ⟨some .rsp, none, 48#64⟩) (.reg .rbx), -- 326: mov [rsp + (48* 1)], rbx
  .mov (.reg .rdx) (.reg .r8), -- 327: mov rdx, r8
  .shl (.reg .rdx) (.imm 32#64), -- 328: shl rdx, 0x20
  .add (.reg .rdx) (.reg .r8), -- 329: add rdx, r8
  .mov (.reg .rax) (.imm 0xffffffff00000001#64), -- 330: mov rax, 0xffffffff00000001
  .mulx .rax .r8 (.reg .rax), -- 331: mulx rax, r8, rax
  .mov (.reg .rbx) (.imm 0xffffffff#64), -- 332: mov ebx, 0xffffffff
  .mulx .r8 .rbx (.reg .rbx), -- 333: mulx r8, rbx, rbx
  .add (.reg .rax) (.reg .rbx), -- 334: add rax, rbx
  .adc (.reg .r8) (.reg .rdx), -- 335: adc r8, rdx
  .mov (.reg .rbx) (.imm 0#64), -- 336: mov ebx, 0x0
  .adc (.reg .rbx) (.reg .rbx), -- 337: adc rbx, rbx
  .sub (.reg .r9) (.reg .rax), -- 338: sub r9, rax
  .sbb (.reg .r10) (.reg .r8), -- 339: sbb r10, r8
  .sbb (.reg .r11) (.reg .rbx), -- 340: sbb r11, rbx
  .sbb (.reg .r12) (.imm 0#64), -- 341: sbb r12, 0x0
  .sbb (.reg .r13) (.imm 0#64), -- 342: sbb r13, 0x0
  .mov (.reg .r8) (.reg .rdx), -- 343: mov r8, rdx
  .sbb (.reg .r8) (.imm 0#64), -- 344: sbb r8, 0x0
  .mov (.reg .rdx) (.reg .r9), -- 345: mov rdx, r9
  .shl (.reg .rdx) (.imm 32#64), -- 346: shl rdx, 0x20
  .add (.reg .rdx) (.reg .r9), -- 347: add rdx, r9
  .mov (.reg .rax) (.imm 0xffffffff00000001#64), -- 348: mov rax, 0xffffffff00000001
  .mulx .rax .r9 (.reg .rax), -- 349: mulx rax, r9, rax
  .mov (.reg .rbx) (.imm 0xffffffff#64), -- 350: mov ebx, 0xffffffff
  .mulx .r9 .rbx (.reg .rbx), -- 351: mulx r9, rbx, rbx
  .add (.reg .rax) (.reg .rbx), -- 352: add rax, rbx
  .adc (.reg .r9) (.reg .rdx), -- 353: adc r9, rdx
  .mov (.reg .rbx) (.imm 0#64), -- 354: mov ebx, 0x0
  .adc (.reg .rbx) (.reg .rbx), -- 355: adc rbx, rbx
  .sub (.reg .r10) (.reg .rax), -- 356: sub r10, rax
  .sbb (.reg .r11) (.reg .r9), -- 357: sbb r11, r9
  .sbb (.reg .r12) (.reg .rbx), -- 358: sbb r12, rbx
  .sbb (.reg .r13) (.imm 0#64), -- 359: sbb r13, 0x0
  .sbb (.reg .r8) (.imm 0#64), -- 360: sbb r8, 0x0
  .mov (.reg .r9) (.reg .rdx), -- 361: mov r9, rdx
  .sbb (.reg .r9) (.imm 0#64), -- 362: sbb r9, 0x0
  .mov (.reg .rdx) (.reg .r10), -- 363: mov rdx, r10
  .shl (.reg .rdx) (.imm 32#64), -- 364: shl rdx, 0x20
  .add (.reg .rdx) (.reg .r10), -- 365: add rdx, r10
  .mov (.reg .rax) (.imm 0xffffffff00000001#64), -- 366: mov rax, 0xffffffff00000001
  .mulx .rax .r10 (.reg .rax), -- 367: mulx rax, r10, rax
  .mov (.reg .rbx) (.imm 0xffffffff#64), -- 368: mov ebx, 0xffffffff
  .mulx .r10 .rbx (.reg .rbx), -- 369: mulx r10, rbx, rbx
  .add (.reg .rax) (.reg .rbx), -- 370: add rax, rbx
  .adc (.reg .r10) (.reg .rdx), -- 371: adc r10, rdx
  .mov (.reg .rbx) (.imm 0#64), -- 372: mov ebx, 0x0
  .adc (.reg .rbx) (.reg .rbx), -- 373: adc rbx, rbx
  .sub (.reg .r11) (.reg .rax), -- 374: sub r11, rax
  .sbb (.reg .r12) (.reg .r10), -- 375: sbb r12, r10
  .sbb (.reg .r13) (.reg .rbx), -- 376: sbb r13, rbx
  .sbb (.reg .r8) (.imm 0#64), -- 377: sbb r8, 0x0
  .sbb (.reg .r9) (.imm 0#64), -- 378: sbb r9, 0x0
  .mov (.reg .r10) (.reg .rdx), -- 379: mov r10, rdx
  .sbb (.reg .r10) (.imm 0#64), -- 380: sbb r10, 0x0
  .mov (.reg .rdx) (.reg .r11), -- 381: mov rdx, r11
  .shl (.reg .rdx) (.imm 32#64), -- 382: shl rdx, 0x20
  .add (.reg .rdx) (.reg .r11), -- 383: add rdx, r11
  .mov (.reg .rax) (.imm 0xffffffff00000001#64), -- 384: mov rax, 0xffffffff00000001
  .mulx .rax .r11 (.reg .rax), -- 385: mulx rax, r11, rax
  .mov (.reg .rbx) (.imm 0xffffffff#64), -- 386: mov ebx, 0xffffffff
  .mulx .r11 .rbx (.reg .rbx), -- 387: mulx r11, rbx, rbx
  .add (.reg .rax) (.reg .rbx), -- 388: add rax, rbx
  .adc (.reg .r11) (.reg .rdx), -- 389: adc r11, rdx
  .mov (.reg .rbx) (.imm 0#64), -- 390: mov ebx, 0x0
  .adc (.reg .rbx) (.reg .rbx), -- 391: adc rbx, rbx
  .sub (.reg .r12) (.reg .rax), -- 392: sub r12, rax
  .sbb (.reg .r13) (.reg .r11), -- 393: sbb r13, r11
  .sbb (.reg .r8) (.reg .rbx), -- 394: sbb r8, rbx
  .sbb (.reg .r9) (.imm 0#64), -- 395: sbb r9, 0x0
  .sbb (.reg .r10) (.imm 0#64), -- 396: sbb r10, 0x0
  .mov (.reg .r11) (.reg .rdx), -- 397: mov r11, rdx
  .sbb (.reg .r11) (.imm 0#64), -- 398: sbb r11, 0x0
  .mov (.reg .rdx) (.reg .r12), -- 399: mov rdx, r12
  .shl (.reg .rdx) (.imm 32#64), -- 400: shl rdx, 0x20
  .add (.reg .rdx) (.reg .r12), -- 401: add rdx, r12
  .mov (.reg .rax) (.imm 0xffffffff00000001#64), -- 402: mov rax, 0xffffffff00000001
  .mulx .rax .r12 (.reg .rax), -- 403: mulx rax, r12, rax
  .mov (.reg .rbx) (.imm 0xffffffff#64), -- 404: mov ebx, 0xffffffff
  .mulx .r12 .rbx (.reg .rbx), -- 405: mulx r12, rbx, rbx
  .add (.reg .rax) (.reg .rbx), -- 406: add rax, rbx
  .adc (.reg .r12) (.reg .rdx), -- 407: adc r12, rdx
  .mov (.reg .rbx) (.imm 0#64), -- 408: mov ebx, 0x0
  .adc (.reg .rbx) (.reg .rbx), -- 409: adc rbx, rbx
  .sub (.reg .r13) (.reg .rax), -- 410: sub r13, rax
  .sbb (.reg .r8) (.reg .r12), -- 411: sbb r8, r12
  .sbb (.reg .r9) (.reg .rbx), -- 412: sbb r9, rbx
  .sbb (.reg .r10) (.imm 0#64), -- 413: sbb r10, 0x0
  .sbb (.reg .r11) (.imm 0#64), -- 414: sbb r11, 0x0
  .mov (.reg .r12) (.reg .rdx), -- 415: mov r12, rdx
  .sbb (.reg .r12) (.imm 0#64), -- 416: sbb r12, 0x0
  .mov (.reg .rdx) (.reg .r13), -- 417: mov rdx, r13
  .shl (.reg .rdx) (.imm 32#64), -- 418: shl rdx, 0x20
  .add (.reg .rdx) (.reg .r13), -- 419: add rdx, r13
  .mov (.reg .rax) (.imm 0xffffffff00000001#64), -- 420: mov rax, 0xffffffff00000001
  .mulx .rax .r13 (.reg .rax), -- 421: mulx rax, r13, rax
  .mov (.reg .rbx) (.imm 0xffffffff#64), -- 422: mov ebx, 0xffffffff
  .mulx .r13 .rbx (.reg .rbx), -- 423: mulx r13, rbx, rbx
  .add (.reg .rax) (.reg .rbx), -- 424: add rax, rbx
  .adc (.reg .r13) (.reg .rdx), -- 425: adc r13, rdx
  .mov (.reg .rbx) (.imm 0#64), -- 426: mov ebx, 0x0
  .adc (.reg .rbx) (.reg .rbx), -- 427: adc rbx, rbx
  .sub (.reg .r8) (.reg .rax), -- 428: sub r8, rax
  .sbb (.reg .r9) (.reg .r13), -- 429: sbb r9, r13
  .sbb (.reg .r10) (.reg .rbx), -- 430: sbb r10, rbx
  .sbb (.reg .r11) (.imm 0#64), -- 431: sbb r11, 0x0
  .sbb (.reg .r12) (.imm 0#64), -- 432: sbb r12, 0x0
  .mov (.reg .r13) (.reg .rdx), -- 433: mov r13, rdx
  .sbb (.reg .r13) (.imm 0#64), -- 434: sbb r13, 0x0
  .mov (.reg .rbx) (.mem ⟨some .rsp, none, 48#64⟩), -- 435: mov rbx, [rsp + (48* 1)]
  .add (.reg .r14) (.reg .r8), -- 436: add r14, r8
  .adc (.reg .r15) (.reg .r9), -- 437: adc r15, r9
  .adc (.reg .rcx) (.reg .r10), -- 438: adc rcx, r10
  .adc (.reg .rbx) (.reg .r11), -- 439: adc rbx, r11
  .adc (.reg .rbp) (.reg .r12), -- 440: adc rbp, r12
  .adc (.reg .rdi) (.reg .r13), -- 441: adc rdi, r13
  .mov (.reg .r8) (.imm 0#64), -- 442: mov r8d, 0x0
  .adc (.reg .r8) (.reg .r8), -- 443: adc r8, r8
  .xor (.reg .r11) (.reg .r11), -- 444: xor r11, r11
  .xor (.reg .r12) (.reg .r12), -- 445: xor r12, r12
  .xor (.reg .r13) (.reg .r13), -- 446: xor r13, r13
  .mov (.reg .rax) (.imm 0xffffffff00000001#64), -- 447: mov rax, 0xffffffff00000001
  .add (.reg .rax) (.reg .r14), -- 448: add rax, r14
  .mov (.reg .r9) (.imm 0xffffffff#64), -- 449: mov r9d, 0xffffffff
  .adc (.reg .r9) (.reg .r15), -- 450: adc r9, r15
  .mov (.reg .r10) (.imm 1#64), -- 451: mov r10d, 0x1
  .adc (.reg .r10) (.reg .rcx), -- 452: adc r10, rcx
  .adc (.reg .r11) (.reg .rbx), -- 453: adc r11, rbx
  .adc (.reg .r12) (.reg .rbp), -- 454: adc r12, rbp
  .adc (.reg .r13) (.reg .rdi), -- 455: adc r13, rdi
  .adc (.reg .r8) (.imm 0#64), -- 456: adc r8, 0x0
  .cmov .nz .r14 (.reg .rax), -- 457: cmovne r14, rax
  .cmov .nz .r15 (.reg .r9), -- 458: cmovne r15, r9
  .cmov .nz .rcx (.reg .r10), -- 459: cmovne rcx, r10
  .cmov .nz .rbx (.reg .r11), -- 460: cmovne rbx, r11
  .cmov .nz .rbp (.reg .r12), -- 461: cmovne rbp, r12
  .cmov .nz .rdi (.reg .r13), -- 462: cmovne rdi, r13
  .mov (.mem ⟨some .rsp, none, 48#64⟩) (.reg .r14), -- 463: mov [rsp + (48* 1)], r14
  .mov (.mem ⟨some .rsp, none, 56#64⟩) (.reg .r15), -- 464: mov [rsp + (48* 1)+ 0x8], r15
  .mov (.mem ⟨some .rsp, none, 64#64⟩) (.reg .rcx), -- 465: mov [rsp + (48* 1)+ 0x10], rcx
  .mov (.mem ⟨some .rsp, none, 72#64⟩) (.reg .rbx), -- 466: mov [rsp + (48* 1)+ 0x18], rbx
  .mov (.mem ⟨some .rsp, none, 80#64⟩) (.reg .rbp), -- 467: mov [rsp + (48* 1)+ 0x20], rbp
  .mov (.mem ⟨some .rsp, none, 88#64⟩) (.reg .rdi), -- 468: mov [rsp + (48* 1)+ 0x28], rdi
  .mov (.reg .rax) (.mem ⟨some .rsi, none, 0#64⟩), -- 469: mov rax, [rsi + 0]
  .add (.reg .rax) (.mem ⟨some .rsp, none, 0#64⟩), -- 470: add rax, [rsp + (48* 0)]
  .mov (.reg .rcx) (.mem ⟨some .rsi, none, 8#64⟩), -- 471: mov rcx, [rsi + 0+ 0x8]
  .adc (.reg .rcx) (.mem ⟨some .rsp, none, 8#64⟩), -- 472: adc rcx, [rsp + (48* 0)+ 0x8]
  .mov (.reg .r8) (.mem ⟨some .rsi, none, 16#64⟩), -- 473: mov r8, [rsi + 0+ 0x10]
  .adc (.reg .r8) (.mem ⟨some .rsp, none, 16#64⟩), -- 474: adc r8, [rsp + (48* 0)+ 0x10]
  .mov (.reg .r9) (.mem ⟨some .rsi, none, 24#64⟩), -- 475: mov r9, [rsi + 0+ 0x18]
  .adc (.reg .r9) (.mem ⟨some .rsp, none, 24#64⟩), -- 476: adc r9, [rsp + (48* 0)+ 0x18]
  .mov (.reg .r10) (.mem ⟨some .rsi, none, 32#64⟩), -- 477: mov r10, [rsi + 0+ 0x20]
  .adc (.reg .r10) (.mem ⟨some .rsp, none, 32#64⟩), -- 478: adc r10, [rsp + (48* 0)+ 0x20]
  .mov (.reg .r11) (.mem ⟨some .rsi, none, 40#64⟩), -- 479: mov r11, [rsi + 0+ 0x28]
  .adc (.reg .r11) (.mem ⟨some .rsp, none, 40#64⟩), -- 480: adc r11, [rsp + (48* 0)+ 0x28]
  .sbb (.reg .rdx) (.reg .rdx), -- 481: sbb rdx, rdx
  .mov (.reg .rbx) (.imm 1#64), -- 482: mov ebx, 1
  .and (.reg .rbx) (.reg .rdx), -- 483: and rbx, rdx
  .mov (.reg .rbp) (.imm 0xffffffff#64), -- 484: mov ebp, 0xffffffff
  .and (.reg .rdx) (.reg .rbp), -- 485: and rdx, rbp
  .xor (.reg .rbp) (.reg .rbp), -- 486: xor rbp, rbp
  .sub (.reg .rbp) (.reg .rdx), -- 487: sub rbp, rdx
  .add (.reg .rax) (.reg .rbp), -- 488: add rax, rbp
  .mov (.mem ⟨some .rsp, none, 240#64⟩) (.reg .rax), -- 489: mov [rsp + (48* 5)], rax
  .adc (.reg .rcx) (.reg .rdx), -- 490: adc rcx, rdx
  .mov (.mem ⟨some .rsp, none, 248#64⟩) (.reg .rcx), -- 491: mov [rsp + (48* 5)+ 0x8], rcx
  .adc (.reg .r8) (.reg .rbx), -- 492: adc r8, rbx
  .mov (.mem ⟨some .rsp, none, 256#64⟩) (.reg .r8), -- 493: mov [rsp + (48* 5)+ 0x10], r8
  .adc (.reg .r9) (.imm 0#64), -- 494: adc r9, 0x0
  .mov (.mem ⟨some .rsp, none, 264#64⟩) (.reg .r9), -- 495: mov [rsp + (48* 5)+ 0x18], r9
  .adc (.reg .r10) (.imm 0#64), -- 496: adc r10, 0x0
  .mov (.mem ⟨some .rsp, none, 272#64⟩) (.reg .r10), -- 497: mov [rsp + (48* 5)+ 0x20], r10
  .adc (.reg .r11) (.imm 0#64), -- 498: adc r11, 0x0
  .mov (.mem ⟨some .rsp, none, 280#64⟩) (.reg .r11), -- 499: mov [rsp + (48* 5)+ 0x28], r11
  .mov (.reg .rax) (.mem ⟨some .rsi, none, 0#64⟩), -- 500: mov rax, [rsi + 0]
  .sub (.reg .rax) (.mem ⟨some .rsp, none, 0#64⟩), -- 501: sub rax, [rsp + (48* 0)]
  .mov (.reg .rdx) (.mem ⟨some .rsi, none, 8#64⟩), -- 502: mov rdx, [rsi + 0+ 0x8]
  .sbb (.reg .rdx) (.mem ⟨some .rsp, none, 8#64⟩), -- 503: sbb rdx, [rsp + (48* 0)+ 0x8]
  .mov (.reg .r8) (.mem ⟨some .rsi, none, 16#64⟩), -- 504: mov r8, [rsi + 0+ 0x10]
  .sbb (.reg .r8) (.mem ⟨some .rsp, none, 16#64⟩), -- 505: sbb r8, [rsp + (48* 0)+ 0x10]
  .mov (.reg .r9) (.mem ⟨some .rsi, none, 24#64⟩), -- 506: mov r9, [rsi + 0+ 0x18]
  .sbb (.reg .r9) (.mem ⟨some .rsp, none, 24#64⟩), -- 507: sbb r9, [rsp + (48* 0)+ 0x18]
  .mov (.reg .r10) (.mem ⟨some .rsi, none, 32#64⟩), -- 508: mov r10, [rsi + 0+ 0x20]
  .sbb (.reg .r10) (.mem ⟨some .rsp, none, 32#64⟩), -- 509: sbb r10, [rsp + (48* 0)+ 0x20]
  .mov (.reg .r11) (.mem ⟨some .rsi, none, 40#64⟩), -- 510: mov r11, [rsi + 0+ 0x28]
  .sbb (.reg .r11) (.mem ⟨some .rsp, none, 40#64⟩), -- 511: sbb r11, [rsp + (48* 0)+ 0x28]
  .sbb (.reg .rcx) (.reg .rcx), -- 512: sbb rcx, rcx
  .mov (.reg .rbx) (.imm 0xffffffff#64), -- 513: mov ebx, 0xffffffff
  .and (.reg .rcx) (.reg .rbx), -- 514: and rcx, rbx
  .xor (.reg .rbx) (.reg .rbx), -- 515: xor rbx, rbx
  .sub (.reg .rbx) (.reg .rcx), -- 516: sub rbx, rcx
  .sub (.reg .rax) (.reg .rbx), -- 517: sub rax, rbx
  .mov (.mem ⟨some .rsp, none, 192#64⟩) (.reg .rax), -- 518: mov [rsp + (48* 4)], rax
  .sbb (.reg .rdx) (.reg .rcx), -- 519: sbb rdx, rcx
  .mov (.mem ⟨some .rsp, none, 200#64⟩) (.reg .rdx), -- 520: mov [rsp + (48* 4)+ 0x8], rdx
  .sbb (.reg .rax) (.reg .rax), -- 521: sbb rax, rax
  .and (.reg .rcx) (.reg .rbx), -- 522: and rcx, rbx
  .neg (.reg .rax), -- 523: neg rax
  .sbb (.reg .r8) (.reg .rcx), -- 524: sbb r8, rcx
  .mov (.mem ⟨some .rsp, none, 208#64⟩) (.reg .r8), -- 525: mov [rsp + (48* 4)+ 0x10], r8
  .sbb (.reg .r9) (.imm 0#64), -- 526: sbb r9, 0x0
  .mov (.mem ⟨some .rsp, none, 216#64⟩) (.reg .r9), -- 527: mov [rsp + (48* 4)+ 0x18], r9
  .sbb (.reg .r10) (.imm 0#64), -- 528: sbb r10, 0x0
  .mov (.mem ⟨some .rsp, none, 224#64⟩) (.reg .r10), -- 529: mov [rsp + (48* 4)+ 0x20], r10
  .sbb (.reg .r11) (.imm 0#64), -- 530: sbb r11, 0x0
  .mov (.mem ⟨some .rsp, none, 232#64⟩) (.reg .r11), -- 531: mov [rsp + (48* 4)+ 0x28], r11
  .mov (.reg .rdx) (.mem ⟨some .rsp, none, 192#64⟩), -- 532: mov rdx, [rsp + (48* 4)]
  .xor (.reg .r15) (.reg .r15), -- 533: xor r15d, r15d
  .mulx .r9 .r8 (.mem ⟨some .rsp, none, 240#64⟩), -- 534: mulx r9, r8, [rsp + (48* 5)]
  .mulx .r10 .rbx (.mem ⟨some .rsp, none, 248#64⟩), -- 535: mulx r10, rbx, [rsp + (48* 5)+ 0x8]
  .add (.reg .r9) (.reg .rbx), -- 536: add r9, rbx
  .mulx .r11 .rbx (.mem ⟨some .rsp, none, 256#64⟩), -- 537: mulx r11, rbx, [rsp + (48* 5)+ 0x10]
  .adc (.reg .r10) (.reg .rbx), -- 538: adc r10, rbx
  .mulx .r12 .rbx (.mem ⟨some .rsp, none, 264#64⟩), -- 539: mulx r12, rbx, [rsp + (48* 5)+ 0x18]
  .adc (.reg .r11) (.reg .rbx), -- 540: adc r11, rbx
  .mulx .r13 .rbx (.mem ⟨some .rsp, none, 272#64⟩), -- 541: mulx r13, rbx, [rsp + (48* 5)+ 0x20]
  .adc (.reg .r12) (.reg .rbx), -- 542: adc r12, rbx
  .mulx .r14 .rbx (.mem ⟨some .rsp, none, 280#64⟩), -- 543: mulx r14, rbx, [rsp + (48* 5)+ 0x28]
  .adc (.reg .r13) (.reg .rbx), -- 544: adc r13, rbx
  .adc (.reg .r14) (.reg .r15), -- 545: adc r14, r15
  .mov (.reg .rdx) (.reg .r8), -- 546: mov rdx, r8
  .shl (.reg .rdx) (.imm 32#64), -- 547: shl rdx, 0x20
  .add (.reg .rdx) (.reg .r8), -- 548: add rdx, r8
  .xor (.reg .rbp) (.reg .rbp), -- 549: xor ebp, ebp
  .mov (.reg .rax) (.imm 0xffffffff00000001#64), -- 550: mov rax, 0xffffffff00000001
  .mulx .rax .rbx (.reg .rax), -- 551: mulx rax, rbx, rax
  .mov (.reg .rbx) (.imm 0xffffffff#64), -- 552: mov ebx, 0xffffffff
  .mulx .rbx .r8 (.reg .rbx), -- 553: mulx rbx, r8, rbx
  .adc (.reg .rax) (.reg .r8), -- 554: adc rax, r8
  .adc (.reg .rbx) (.reg .rdx), -- 555: adc rbx, rdx
  .adc32 .rbp .rbp, -- 556: adc ebp, ebp
  .sub (.reg .r9) (.reg .rax), -- 557: sub r9, rax
  .sbb (.reg .r10) (.reg .rbx), -- 558: sbb r10, rbx
  .sbb (.reg .r11) (.reg .rbp), -- 559: sbb r11, rbp
  .sbb (.reg .r12) (.imm 0#64), -- 560: sbb r12, 0x0
  .sbb (.reg .r13) (.imm 0#64), -- 561: sbb r13, 0x0
  .sbb (.reg .rdx) (.imm 0#64), -- 562: sbb rdx, 0x0
  .add (.reg .r14) (.reg .rdx), -- 563: add r14, rdx
  .adc (.reg .r15) (.imm 0#64), -- 564: adc r15, 0x0
  .mov (.reg .rdx) (.mem ⟨some .rsp, none, 200#64⟩), -- 565: mov rdx, [rsp + (48* 4)+ 0x8]
  .xor (.reg .r8) (.reg .r8), -- 566: xor r8d, r8d
  .mulx .rbx .rax (.mem ⟨some .rsp, none, 240#64⟩), -- 567: mulx rbx, rax, [rsp + (48* 5)]
  .adcx .r9 (.reg .rax), -- 568: adcx r9, rax
  .adox .r10 (.reg .rbx), -- 569: adox r10, rbx
  .mulx .rbx .rax (.mem ⟨some .rsp, none, 248#64⟩), -- 570: mulx rbx, rax, [rsp + (48* 5)+ 0x8]
  .adcx .r10 (.reg .rax), -- 571: adcx r10, rax
  .adox .r11 (.reg .rbx), -- 572: adox r11, rbx
  .mulx .rbx .rax (.mem ⟨some .rsp, none, 256#64⟩), -- 573: mulx rbx, rax, [rsp + (48* 5)+ 0x10]
  .adcx .r11 (.reg .rax), -- 574: adcx r11, rax
  .adox .r12 (.reg .rbx), -- 575: adox r12, rbx
  .mulx .rbx .rax (.mem ⟨some .rsp, none, 264#64⟩), -- 576: mulx rbx, rax, [rsp + (48* 5)+ 0x18]
  .adcx .r12 (.reg .rax), -- 577: adcx r12, rax
  .adox .r13 (.reg .rbx), -- 578: adox r13, rbx
  .mulx .rbx .rax (.mem ⟨some .rsp, none, 272#64⟩), -- 579: mulx rbx, rax, [rsp + (48* 5)+ 0x20]
  .adcx .r13 (.reg .rax), -- 580: adcx r13, rax
  .adox .r14 (.reg .rbx), -- 581: adox r14, rbx
  .adox .r15 (.reg .r8), -- 582: adox r15, r8
  .mulx .rbx .rax (.mem ⟨some .rsp, none, 280#64⟩), -- 583: mulx rbx, rax, [rsp + (48* 5)+ 0x28]
  .adc (.reg .r14) (.reg .rax), -- 584: adc r14, rax
  .adc (.reg .r15) (.reg .rbx), -- 585: adc r15, rbx
  .adc (.reg .r8) (.reg .r8), -- 586: adc r8, r8
  .mov (.reg .rdx) (.reg .r9), -- 587: mov rdx, r9
  .shl (.reg .rdx) (.imm 32#64), -- 588: shl rdx, 0x20
  .add (.reg .rdx) (.reg .r9), -- 589: add rdx, r9
  .xor (.reg .rbp) (.reg .rbp), -- 590: xor ebp, ebp
  .mov (.reg .rax) (.imm 0xffffffff00000001#64), -- 591: mov rax, 0xffffffff00000001
  .mulx .rax .rbx (.reg .rax), -- 592: mulx rax, rbx, rax
  .mov (.reg .rbx) (.imm 0xffffffff#64), -- 593: mov ebx, 0xffffffff
  .mulx .rbx .r9 (.reg .rbx), -- 594: mulx rbx, r9, rbx
  .adc (.reg .rax) (.reg .r9), -- 595: adc rax, r9
  .adc (.reg .rbx) (.reg .rdx), -- 596: adc rbx, rdx
  .adc32 .rbp .rbp, -- 597: adc ebp, ebp
  .sub (.reg .r10) (.reg .rax), -- 598: sub r10, rax
  .sbb (.reg .r11) (.reg .rbx), -- 599: sbb r11, rbx
  .sbb (.reg .r12) (.reg .rbp), -- 600: sbb r12, rbp
  .sbb (.reg .r13) (.imm 0#64), -- 601: sbb r13, 0x0
  .sbb (.reg .r14) (.imm 0#64), -- 602: sbb r14, 0x0
  .sbb (.reg .rdx) (.imm 0#64), -- 603: sbb rdx, 0x0
  .add (.reg .r15) (.reg .rdx), -- 604: add r15, rdx
  .adc (.reg .r8) (.imm 0#64), -- 605: adc r8, 0x0
  .mov (.reg .rdx) (.mem ⟨some .rsp, none, 208#64⟩), -- 606: mov rdx, [rsp + (48* 4)+ 0x10]
  .xor (.reg .r9) (.reg .r9), -- 607: xor r9d, r9d
  .mulx .rbx .rax (.mem ⟨some .rsp, none, 240#64⟩), -- 608: mulx rbx, rax, [rsp + (48* 5)]
  .adcx .r10 (.reg .rax), -- 609: adcx r10, rax
  .adox .r11 (.reg .rbx), -- 610: adox r11, rbx
  .mulx .rbx .rax (.mem ⟨some .rsp, none, 248#64⟩), -- 611: mulx rbx, rax, [rsp + (48* 5)+ 0x8]
  .adcx .r11 (.reg .rax), -- 612: adcx r11, rax
  .adox .r12 (.reg .rbx), -- 613: adox r12, rbx
  .mulx .rbx .rax (.mem ⟨some .rsp, none, 256#64⟩), -- 614: mulx rbx, rax, [rsp + (48* 5)+ 0x10]
  .adcx .r12 (.reg .rax), -- 615: adcx r12, rax
  .adox .r13 (.reg .rbx), -- 616: adox r13, rbx
  .mulx .rbx .rax (.mem ⟨some .rsp, none, 264#64⟩), -- 617: mulx rbx, rax, [rsp + (48* 5)+ 0x18]
  .adcx .r13 (.reg .rax), -- 618: adcx r13, rax
  .adox .r14 (.reg .rbx), -- 619: adox r14, rbx
  .mulx .rbx .rax (.mem ⟨some .rsp, none, 272#64⟩), -- 620: mulx rbx, rax, [rsp + (48* 5)+ 0x20]
  .adcx .r14 (.reg .rax), -- 621: adcx r14, rax
  .adox .r15 (.reg .rbx), -- 622: adox r15, rbx
  .adox .r8 (.reg .r9), -- 623: adox r8, r9
  .mulx .rbx .rax (.mem ⟨some .rsp, none, 280#64⟩), -- 624: mulx rbx, rax, [rsp + (48* 5)+ 0x28]
  .adc (.reg .r15) (.reg .rax), -- 625: adc r15, rax
  .adc (.reg .r8) (.reg .rbx), -- 626: adc r8, rbx
  .adc (.reg .r9) (.reg .r9), -- 627: adc r9, r9
  .mov (.reg .rdx) (.reg .r10), -- 628: mov rdx, r10
  .shl (.reg .rdx) (.imm 32#64), -- 629: shl rdx, 0x20
  .add (.reg .rdx) (.reg .r10), -- 630: add rdx, r10
  .xor (.reg .rbp) (.reg .rbp), -- 631: xor ebp, ebp
  .mov (.reg .rax) (.imm 0xffffffff00000001#64), -- 632: mov rax, 0xffffffff00000001
  .mulx .rax .rbx (.reg .rax), -- 633: mulx rax, rbx, rax
  .mov (.reg .rbx) (.imm 0xffffffff#64), -- 634: mov ebx, 0xffffffff
  .mulx .rbx .r10 (.reg .rbx), -- 635: mulx rbx, r10, rbx
  .adc (.reg .rax) (.reg .r10), -- 636: adc rax, r10
  .adc (.reg .rbx) (.reg .rdx), -- 637: adc rbx, rdx
  .adc32 .rbp .rbp, -- 638: adc ebp, ebp
  .sub (.reg .r11) (.reg .rax), -- 639: sub r11, rax
  .sbb (.reg .r12) (.reg .rbx), -- 640: sbb r12, rbx
  .sbb (.reg .r13) (.reg .rbp), -- 641: sbb r13, rbp
  .sbb (.reg .r14) (.imm 0#64), -- 642: sbb r14, 0x0
  .sbb (.reg .r15) (.imm 0#64), -- 643: sbb r15, 0x0
  .sbb (.reg .rdx) (.imm 0#64), -- 644: sbb rdx, 0x0
  .add (.reg .r8) (.reg .rdx), -- 645: add r8, rdx
  .adc (.reg .r9) (.imm 0#64), -- 646: adc r9, 0x0
  .mov (.reg .rdx) (.mem ⟨some .rsp, none, 216#64⟩), -- 647: mov rdx, [rsp + (48* 4)+ 0x18]
  .xor (.reg .r10) (.reg .r10), -- 648: xor r10d, r10d
  .mulx .rbx .rax (.mem ⟨some .rsp, none, 240#64⟩), -- 649: mulx rbx, rax, [rsp + (48* 5)]
  .adcx .r11 (.reg .rax), -- 650: adcx r11, rax
  .adox .r12 (.reg .rbx), -- 651: adox r12, rbx
  .mulx .rbx .rax (.mem ⟨some .rsp, none, 248#64⟩), -- 652: mulx rbx, rax, [rsp + (48* 5)+ 0x8]
  .adcx .r12 (.reg .rax), -- 653: adcx r12, rax
  .adox .r13 (.reg .rbx), -- 654: adox r13, rbx
  .mulx .rbx .rax (.mem ⟨some .rsp, none, 256#64⟩), -- 655: mulx rbx, rax, [rsp + (48* 5)+ 0x10]
  .adcx .r13 (.reg .rax), -- 656: adcx r13, rax
  .adox .r14 (.reg .rbx), -- 657: adox r14, rbx
  .mulx .rbx .rax (.mem ⟨some .rsp, none, 264#64⟩), -- 658: mulx rbx, rax, [rsp + (48* 5)+ 0x18]
  .adcx .r14 (.reg .rax), -- 659: adcx r14, rax
  .adox .r15 (.reg .rbx), -- 660: adox r15, rbx
  .mulx .rbx .rax (.mem ⟨some .rsp, none, 272#64⟩), -- 661: mulx rbx, rax, [rsp + (48* 5)+ 0x20]
  .adcx .r15 (.reg .rax), -- 662: adcx r15, rax
  .adox .r8 (.reg .rbx), -- 663: adox r8, rbx
  .adox .r9 (.reg .r10), -- 664: adox r9, r10
  .mulx .rbx .rax (.mem ⟨some .rsp, none, 280#64⟩), -- 665: mulx rbx, rax, [rsp + (48* 5)+ 0x28]
  .adc (.reg .r8) (.reg .rax), -- 666: adc r8, rax
  .adc (.reg .r9) (.reg .rbx), -- 667: adc r9, rbx
  .adc (.reg .r10) (.reg .r10), -- 668: adc r10, r10
  .mov (.reg .rdx) (.reg .r11), -- 669: mov rdx, r11
  .shl (.reg .rdx) (.imm 32#64), -- 670: shl rdx, 0x20
  .add (.reg .rdx) (.reg .r11), -- 671: add rdx, r11
  .xor (.reg .rbp) (.reg .rbp), -- 672: xor ebp, ebp
  .mov (.reg .rax) (.imm 0xffffffff00000001#64), -- 673: mov rax, 0xffffffff00000001
  .mulx .rax .rbx (.reg .rax), -- 674: mulx rax, rbx, rax
  .mov (.reg .rbx) (.imm 0xffffffff#64), -- 675: mov ebx, 0xffffffff
  .mulx .rbx .r11 (.reg .rbx), -- 676: mulx rbx, r11, rbx
  .adc (.reg .rax) (.reg .r11), -- 677: adc rax, r11
  .adc (.reg .rbx) (.reg .rdx), -- 678: adc rbx, rdx
  .adc32 .rbp .rbp, -- 679: adc ebp, ebp
  .sub (.reg .r12) (.reg .rax), -- 680: sub r12, rax
  .sbb (.reg .r13) (.reg .rbx), -- 681: sbb r13, rbx
  .sbb (.reg .r14) (.reg .rbp), -- 682: sbb r14, rbp
  .sbb (.reg .r15) (.imm 0#64), -- 683: sbb r15, 0x0
  .sbb (.reg .r8) (.imm 0#64), -- 684: sbb r8, 0x0
  .sbb (.reg .rdx) (.imm 0#64), -- 685: sbb rdx, 0x0
  .add (.reg .r9) (.reg .rdx), -- 686: add r9, rdx
  .adc (.reg .r10) (.imm 0#64), -- 687: adc r10, 0x0
  .mov (.reg .rdx) (.mem ⟨some .rsp, none, 224#64⟩), -- 688: mov rdx, [rsp + (48* 4)+ 0x20]
  .xor (.reg .r11) (.reg .r11), -- 689: xor r11d, r11d
  .mulx .rbx .rax (.mem ⟨some .rsp, none, 240#64⟩), -- 690: mulx rbx, rax, [rsp + (48* 5)]
  .adcx .r12 (.reg .rax), -- 691: adcx r12, rax
  .adox .r13 (.reg .rbx), -- 692: adox r13, rbx
  .mulx .rbx .rax (.mem ⟨some .rsp, none, 248#64⟩), -- 693: mulx rbx, rax, [rsp + (48* 5)+ 0x8]
  .adcx .r13 (.reg .rax), -- 694: adcx r13, rax
  .adox .r14 (.reg .rbx), -- 695: adox r14, rbx
  .mulx .rbx .rax (.mem ⟨some .rsp, none, 256#64⟩), -- 696: mulx rbx, rax, [rsp + (48* 5)+ 0x10]
  .adcx .r14 (.reg .rax), -- 697: adcx r14, rax
  .adox .r15 (.reg .rbx), -- 698: adox r15, rbx
  .mulx .rbx .rax (.mem ⟨some .rsp, none, 264#64⟩), -- 699: mulx rbx, rax, [rsp + (48* 5)+ 0x18]
  .adcx .r15 (.reg .rax), -- 700: adcx r15, rax
  .adox .r8 (.reg .rbx), -- 701: adox r8, rbx
  .mulx .rbx .rax (.mem ⟨some .rsp, none, 272#64⟩), -- 702: mulx rbx, rax, [rsp + (48* 5)+ 0x20]
  .adcx .r8 (.reg .rax), -- 703: adcx r8, rax
  .adox .r9 (.reg .rbx), -- 704: adox r9, rbx
  .adox .r10 (.reg .r11), -- 705: adox r10, r11
  .mulx .rbx .rax (.mem ⟨some .rsp, none, 280#64⟩), -- 706: mulx rbx, rax, [rsp + (48* 5)+ 0x28]
  .adc (.reg .r9) (.reg .rax), -- 707: adc r9, rax
  .adc (.reg .r10) (.reg .rbx), -- 708: adc r10, rbx
  .adc (.reg .r11) (.reg .r11), -- 709: adc r11, r11
  .mov (.reg .rdx) (.reg .r12), -- 710: mov rdx, r12
  .shl (.reg .rdx) (.imm 32#64), -- 711: shl rdx, 0x20
  .add (.reg .rdx) (.reg .r12), -- 712: add rdx, r12
  .xor (.reg .rbp) (.reg .rbp), -- 713: xor ebp, ebp
  .mov (.reg .rax) (.imm 0xffffffff00000001#64), -- 714: mov rax, 0xffffffff00000001
  .mulx .rax .rbx (.reg .rax), -- 715: mulx rax, rbx, rax
  .mov (.reg .rbx) (.imm 0xffffffff#64), -- 716: mov ebx, 0xffffffff
  .mulx .rbx .r12 (.reg .rbx), -- 717: mulx rbx, r12, rbx
  .adc (.reg .rax) (.reg .r12), -- 718: adc rax, r12
  .adc (.reg .rbx) (.reg .rdx), -- 719: adc rbx, rdx
  .adc32 .rbp .rbp, -- 720: adc ebp, ebp
  .sub (.reg .r13) (.reg .rax), -- 721: sub r13, rax
  .sbb (.reg .r14) (.reg .rbx), -- 722: sbb r14, rbx
  .sbb (.reg .r15) (.reg .rbp), -- 723: sbb r15, rbp
  .sbb (.reg .r8) (.imm 0#64), -- 724: sbb r8, 0x0
  .sbb (.reg .r9) (.imm 0#64), -- 725: sbb r9, 0x0
  .sbb (.reg .rdx) (.imm 0#64), -- 726: sbb rdx, 0x0
  .add (.reg .r10) (.reg .rdx), -- 727: add r10, rdx
  .adc (.reg .r11) (.imm 0#64), -- 728: adc r11, 0x0
  .mov (.reg .rdx) (.mem ⟨some .rsp, none, 232#64⟩), -- 729: mov rdx, [rsp + (48* 4)+ 0x28]
  .xor (.reg .r12) (.reg .r12), -- 730: xor r12d, r12d
  .mulx .rbx .rax (.mem ⟨some .rsp, none, 240#64⟩), -- 731: mulx rbx, rax, [rsp + (48* 5)]
  .adcx .r13 (.reg .rax), -- 732: adcx r13, rax
  .adox .r14 (.reg .rbx), -- 733: adox r14, rbx
  .mulx .rbx .rax (.mem ⟨some .rsp, none, 248#64⟩), -- 734: mulx rbx, rax, [rsp + (48* 5)+ 0x8]
  .adcx .r14 (.reg .rax), -- 735: adcx r14, rax
  .adox .r15 (.reg .rbx), -- 736: adox r15, rbx
  .mulx .rbx .rax (.mem ⟨some .rsp, none, 256#64⟩), -- 737: mulx rbx, rax, [rsp + (48* 5)+ 0x10]
  .adcx .r15 (.reg .rax), -- 738: adcx r15, rax
  .adox .r8 (.reg .rbx), -- 739: adox r8, rbx
  .mulx .rbx .rax (.mem ⟨some .rsp, none, 264#64⟩), -- 740: mulx rbx, rax, [rsp + (48* 5)+ 0x18]
  .adcx .r8 (.reg .rax), -- 741: adcx r8, rax
  .adox .r9 (.reg .rbx), -- 742: adox r9, rbx
  .mulx .rbx .rax (.mem ⟨some .rsp, none, 272#64⟩), -- 743: mulx rbx, rax, [rsp + (48* 5)+ 0x20]
  .adcx .r9 (.reg .rax), -- 744: adcx r9, rax
  .adox .r10 (.reg .rbx), -- 745: adox r10, rbx
  .adox .r11 (.reg .r12), -- 746: adox r11, r12
  .mulx .rbx .rax (.mem ⟨some .rsp, none, 280#64⟩), -- 747: mulx rbx, rax, [rsp + (48* 5)+ 0x28]
  .adc (.reg .r10) (.reg .rax), -- 748: adc r10, rax
  .adc (.reg .r11) (.reg .rbx), -- 749: adc r11, rbx
  .adc (.reg .r12) (.reg .r12), -- 750: adc r12, r12
  .mov (.reg .rdx) (.reg .r13), -- 751: mov rdx, r13
  .shl (.reg .rdx) (.imm 32#64), -- 752: shl rdx, 0x20
  .add (.reg .rdx) (.reg .r13), -- 753: add rdx, r13
  .xor (.reg .rbp) (.reg .rbp), -- 754: xor ebp, ebp
  .mov (.reg .rax) (.imm 0xffffffff00000001#64), -- 755: mov rax, 0xffffffff00000001
  .mulx .rax .rbx (.reg .rax), -- 756: mulx rax, rbx, rax
  .mov (.reg .rbx) (.imm 0xffffffff#64), -- 757: mov ebx, 0xffffffff
  .mulx .rbx .r13 (.reg .rbx), -- 758: mulx rbx, r13, rbx
  .adc (.reg .rax) (.reg .r13), -- 759: adc rax, r13
  .adc (.reg .rbx) (.reg .rdx), -- 760: adc rbx, rdx
  .adc32 .rbp .rbp, -- 761: adc ebp, ebp
  .sub (.reg .r14) (.reg .rax), -- 762: sub r14, rax
  .sbb (.reg .r15) (.reg .rbx), -- 763: sbb r15, rbx
  .sbb (.reg .r8) (.reg .rbp), -- 764: sbb r8, rbp
  .sbb (.reg .r9) (.imm 0#64), -- 765: sbb r9, 0x0
  .sbb (.reg .r10) (.imm 0#64), -- 766: sbb r10, 0x0
  .sbb (.reg .rdx) (.imm 0#64), -- 767: sbb rdx, 0x0
  .add (.reg .r11) (.reg .rdx), -- 768: add r11, rdx
  .adc (.reg .r12) (.imm 0#64), -- 769: adc r12, 0x0
  .xor (.reg .rdx) (.reg .rdx), -- 770: xor edx, edx
  .xor (.reg .rbp) (.reg .rbp), -- 771: xor ebp, ebp
  .xor (.reg .r13) (.reg .r13), -- 772: xor r13d, r13d
  .mov (.reg .rax) (.imm 0xffffffff00000001#64), -- 773: mov rax, 0xffffffff00000001
  .add (.reg .rax) (.reg .r14), -- 774: add rax, r14
  .mov (.reg .rbx) (.imm 0xffffffff#64), -- 775: mov ebx, 0xffffffff
  .adc (.reg .rbx) (.reg .r15), -- 776: adc rbx, r15
  .mov (.reg .rcx) (.imm 1#64), -- 777: mov ecx, 0x1
  .adc (.reg .rcx) (.reg .r8), -- 778: adc rcx, r8
  .adc (.reg .rdx) (.reg .r9), -- 779: adc rdx, r9
  .adc (.reg .rbp) (.reg .r10), -- 780: adc rbp, r10
  .adc (.reg .r13) (.reg .r11), -- 781: adc r13, r11
  .adc (.reg .r12) (.imm 0#64), -- 782: adc r12, 0x0
  .cmov .nz .r14 (.reg .rax), -- 783: cmovne r14, rax
  .cmov .nz .r15 (.reg .rbx), -- 784: cmovne r15, rbx
  .cmov .nz .r8 (.reg .rcx), -- 785: cmovne r8, rcx
  .cmov .nz .r9 (.reg .rdx), -- 786: cmovne r9, rdx
  .cmov .nz .r10 (.reg .rbp), -- 787: cmovne r10, rbp
  .cmov .nz .r11 (.reg .r13), -- 788: cmovne r11, r13
  .mov (.mem ⟨some .rsp, none, 96#64⟩) (.reg .r14), -- 789: mov [rsp + (48* 2)], r14
  .mov (.mem ⟨some .rsp, none, 104#64⟩) (.reg .r15), -- 790: mov [rsp + (48* 2)+ 0x8], r15
  .mov (.mem ⟨some .rsp, none, 112#64⟩) (.reg .r8), -- 791: mov [rsp + (48* 2)+ 0x10], r8
  .mov (.mem ⟨some .rsp, none, 120#64⟩) (.reg .r9), -- 792: mov [rsp + (48* 2)+ 0x18], r9
  .mov (.mem ⟨some .rsp, none, 128#64⟩) (.reg .r10), -- 793: mov [rsp + (48* 2)+ 0x20], r10
  .mov (.mem ⟨some .rsp, none, 136#64⟩) (.reg .r11), -- 794: mov [rsp + (48* 2)+ 0x28], r11
  .mov (.reg .rax) (.mem ⟨some .rsi, none, 48#64⟩), -- 795: mov rax, [rsi + 48]
  .add (.reg .rax) (.mem ⟨some .rsi, none, 96#64⟩), -- 796: add rax, [rsi + (2 * 48)]
  .mov (.reg .rcx) (.mem ⟨some .rsi, none, 56#64⟩), -- 797: mov rcx, [rsi + 48+ 0x8]
  .adc (.reg .rcx) (.mem ⟨some .rsi, none, 104#64⟩), -- 798: adc rcx, [rsi + (2 * 48)+ 0x8]
  .mov (.reg .r8) (.mem ⟨some .rsi, none, 64#64⟩), -- 799: mov r8, [rsi + 48+ 0x10]
  .adc (.reg .r8) (.mem ⟨some .rsi, none, 112#64⟩), -- 800: adc r8, [rsi + (2 * 48)+ 0x10]
  .mov (.reg .r9) (.mem ⟨some .rsi, none, 72#64⟩), -- 801: mov r9, [rsi + 48+ 0x18]
  .adc (.reg .r9) (.mem ⟨some .rsi, none, 120#64⟩), -- 802: adc r9, [rsi + (2 * 48)+ 0x18]
  .mov (.reg .r10) (.mem ⟨some .rsi, none, 80#64⟩), -- 803: mov r10, [rsi + 48+ 0x20]
  .adc (.reg .r10) (.mem ⟨some .rsi, none, 128#64⟩), -- 804: adc r10, [rsi + (2 * 48)+ 0x20]
  .mov (.reg .r11) (.mem ⟨some .rsi, none, 88#64⟩), -- 805: mov r11, [rsi + 48+ 0x28]
  .adc (.reg .r11) (.mem ⟨some .rsi, none, 136#64⟩), -- 806: adc r11, [rsi + (2 * 48)+ 0x28]
  .mov (.reg .rdx) (.imm 0#64), -- 807: mov edx, 0x0
  .adc (.reg .rdx) (.reg .rdx), -- 808: adc rdx, rdx
  .mov (.reg .rbp) (.imm 0xffffffff00000001#64), -- 809: mov rbp, 0xffffffff00000001
  .add (.reg .rax) (.reg .rbp), -- 810: add rax, rbp
  .mov (.reg .rbp) (.imm 0xffffffff#64), -- 811: mov ebp, 0xffffffff
  .adc (.reg .rcx) (.reg .rbp), -- 812: adc rcx, rbp
  .adc (.reg .r8) (.imm 1#64), -- 813: adc r8, 0x1
  .adc (.reg .r9) (.imm 0#64), -- 814: adc r9, 0x0
  .adc (.reg .r10) (.imm 0#64), -- 815: adc r10, 0x0
  .adc (.reg .r11) (.imm 0#64), -- 816: adc r11, 0x0
  .adc (.reg .rdx) (.imm 0xffffffffffffffff#64), -- 817: adc rdx, 0xffffffffffffffff
  .mov (.reg .rbx) (.imm 1#64), -- 818: mov ebx, 1
  .and (.reg .rbx) (.reg .rdx), -- 819: and rbx, rdx
  .and (.reg .rdx) (.reg .rbp), -- 820: and rdx, rbp
  .xor (.reg .rbp) (.reg .rbp), -- 821: xor rbp, rbp
  .sub (.reg .rbp) (.reg .rdx), -- 822: sub rbp, rdx
  .sub (.reg .rax) (.reg .rbp), -- 823: sub rax, rbp
  .mov (.mem ⟨some .rsp, none, 240#64⟩) (.reg .rax), -- 824: mov [rsp + (48* 5)], rax
  .sbb (.reg .rcx) (.reg .rdx), -- 825: sbb rcx, rdx
  .mov (.mem ⟨some .rsp, none, 248#64⟩) (.reg .rcx), -- 826: mov [rsp + (48* 5)+ 0x8], rcx
  .sbb (.reg .r8) (.reg .rbx), -- 827: sbb r8, rbx
  .mov (.mem ⟨some .rsp, none, 256#64⟩) (.reg .r8), -- 828: mov [rsp + (48* 5)+ 0x10], r8
  .sbb (.reg .r9) (.imm 0#64), -- 829: sbb r9, 0x0
  .mov (.mem ⟨some .rsp, none, 264#64⟩) (.reg .r9), -- 830: mov [rsp + (48* 5)+ 0x18], r9
  .sbb (.reg .r10) (.imm 0#64), -- 831: sbb r10, 0x0
  .mov (.mem ⟨some .rsp, none, 272#64⟩) (.reg .r10), -- 832: mov [rsp + (48* 5)+ 0x20], r10
  .sbb (.reg .r11) (.imm 0#64), -- 833: sbb r11, 0x0
  .mov (.mem ⟨some .rsp, none, 280#64⟩) (.reg .r11), -- 834: mov [rsp + (48* 5)+ 0x28], r11
  .mov (.reg .rdx) (.mem ⟨some .rsp, none, 96#64⟩), -- 835: mov rdx, [rsp + (48* 2)]
  .mulx .r10 .r9 (.mem ⟨some .rsp, none, 104#64⟩), -- 836: mulx r10, r9, [rsp + (48* 2)+ 0x8]
  .mulx .r12 .r11 (.mem ⟨some .rsp, none, 120#64⟩), -- 837: mulx r12, r11, [rsp + (48* 2)+ 0x18]
  .mulx .r14 .r13 (.mem ⟨some .rsp, none, 136#64⟩), -- 838: mulx r14, r13, [rsp + (48* 2)+ 0x28]
  .mov (.reg .rdx) (.mem ⟨some .rsp, none, 120#64⟩), -- 839: mov rdx, [rsp + (48* 2)+ 0x18]
  .mulx .rcx .r15 (.mem ⟨some .rsp, none, 128#64⟩), -- 840: mulx rcx, r15, [rsp + (48* 2)+ 0x20]
  .xor (.reg .rbp) (.reg .rbp), -- 841: xor ebp, ebp
  .mov (.reg .rdx) (.mem ⟨some .rsp, none, 112#64⟩), -- 842: mov rdx, [rsp + (48* 2)+ 0x10]
  .mulx .rbx .rax (.mem ⟨some .rsp, none, 96#64⟩), -- 843: mulx rbx, rax, [rsp + (48* 2)]
  .adcx .r10 (.reg .rax), -- 844: adcx r10, rax
  .adox .r11 (.reg .rbx), -- 845: adox r11, rbx
  .mulx .rbx .rax (.mem ⟨some .rsp, none, 104#64⟩), -- 846: mulx rbx, rax, [rsp + (48* 2)+ 0x8]
  .adcx .r11 (.reg .rax), -- 847: adcx r11, rax
  .adox .r12 (.reg .rbx), -- 848: adox r12, rbx
  .mov (.reg .rdx) (.mem ⟨some .rsp, none, 104#64⟩), -- 849: mov rdx, [rsp + (48* 2)+ 0x8]
  .mulx .rbx .rax (.mem ⟨some .rsp, none, 120#64⟩), -- 850: mulx rbx, rax, [rsp + (48* 2)+ 0x18]
  .adcx .r12 (.reg .rax), -- 851: adcx r12, rax
  .adox .r13 (.reg .rbx), -- 852: adox r13, rbx
  .mulx .rbx .rax (.mem ⟨some .rsp, none, 128#64⟩), -- 853: mulx rbx, rax, [rsp + (48* 2)+ 0x20]
  .adcx .r13 (.reg .rax), -- 854: adcx r13, rax
  .adox .r14 (.reg .rbx), -- 855: adox r14, rbx
  .mulx .rbx .rax (.mem ⟨some .rsp, none, 136#64⟩), -- 856: mulx rbx, rax, [rsp + (48* 2)+ 0x28]
  .adcx .r14 (.reg .rax), -- 857: adcx r14, rax
  .adox .r15 (.reg .rbx), -- 858: adox r15, rbx
  .adcx .r15 (.reg .rbp), -- 859: adcx r15, rbp
  .adox .rcx (.reg .rbp), -- 860: adox rcx, rbp
  .adc (.reg .rcx) (.reg .rbp), -- 861: adc rcx, rbp
  .xor (.reg .rbp) (.reg .rbp), -- 862: xor ebp, ebp
  .mov (.reg .rdx) (.mem ⟨some .rsp, none, 128#64⟩), -- 863: mov rdx, [rsp + (48* 2)+ 0x20]
  .mulx .rbx .rax (.mem ⟨some .rsp, none, 96#64⟩), -- 864: mulx rbx, rax, [rsp + (48* 2)]
  .adcx .r12 (.reg .rax), -- 865: adcx r12, rax
  .adox .r13 (.reg .rbx), -- 866: adox r13, rbx
  .mov (.reg .rdx) (.mem ⟨some .rsp, none, 112#64⟩), -- 867: mov rdx, [rsp + (48* 2)+ 0x10]
  .mulx .rbx .rax (.mem ⟨some .rsp, none, 120#64⟩), -- 868: mulx rbx, rax, [rsp + (48* 2)+ 0x18]
  .adcx .r13 (.reg .rax), -- 869: adcx r13, rax
  .adox .r14 (.reg .rbx), -- 870: adox r14, rbx
  .mulx .rbx .rax (.mem ⟨some .rsp, none, 128#64⟩), -- 871: mulx rbx, rax, [rsp + (48* 2)+ 0x20]
  .adcx .r14 (.reg .rax), -- 872: adcx r14, rax
  .adox .r15 (.reg .rbx), -- 873: adox r15, rbx
  .mulx .rdx .rax (.mem ⟨some .rsp, none, 136#64⟩), -- 874: mulx rdx, rax, [rsp + (48* 2)+ 0x28]
  .adcx .r15 (.reg .rax), -- 875: adcx r15, rax
  .adox .rcx (.reg .rdx), -- 876: adox rcx, rdx
  .mov (.reg .rdx) (.mem ⟨some .rsp, none, 136#64⟩), -- 877: mov rdx, [rsp + (48* 2)+ 0x28]
  .mulx .rbp .rbx (.mem ⟨some .rsp, none, 128#64⟩), -- 878: mulx rbp, rbx, [rsp + (48* 2)+ 0x20]
  .mulx .rdx .rax (.mem ⟨some .rsp, none, 120#64⟩), -- 879: mulx rdx, rax, [rsp + (48* 2)+ 0x18]
  .adcx .rcx (.reg .rax), -- 880: adcx rcx, rax
  .adox .rbx (.reg .rdx), -- 881: adox rbx, rdx
  .mov (.reg .rax) (.imm 0#64), -- 882: mov eax, 0x0
  .adcx .rbx (.reg .rax), -- 883: adcx rbx, rax
  .adox .rbp (.reg .rax), -- 884: adox rbp, rax
  .adc (.reg .rbp) (.reg .rax), -- 885: adc rbp, rax
  .xor (.reg .rax) (.reg .rax), -- 886: xor rax, rax
  .mov (.reg .rdx) (.mem ⟨some .rsp, none, 96#64⟩), -- 887: mov rdx, [rsp + (48* 2)]
  .mulx .rax .r8 (.mem ⟨some .rsp, none, 96#64⟩), -- 888: mulx rax, r8, [rsp + (48* 2)]
  .adcx .r9 (.reg .r9), -- 889: adcx r9, r9
  .adox .r9 (.reg .rax), -- 890: adox r9, rax
  .mov (.reg .rdx) (.mem ⟨some .rsp, none, 104#64⟩), -- 891: mov rdx, [rsp + (48* 2)+ 0x8]
  .mulx .rdx .rax (.reg .rdx), -- 892: mulx rdx, rax, rdx
  .adcx .r10 (.reg .r10), -- 893: adcx r10, r10
  .adox .r10 (.reg .rax), -- 894: adox r10, rax
  .adcx .r11 (.reg .r11), -- 895: adcx r11, r11
  .adox .r11 (.reg .rdx), -- 896: adox r11, rdx
  .mov (.reg .rdx) (.mem ⟨some .rsp, none, 112#64⟩), -- 897: mov rdx, [rsp + (48* 2)+ 0x10]
  .mulx .rdx .rax (.reg .rdx), -- 898: mulx rdx, rax, rdx
  .adcx .r12 (.reg .r12), -- 899: adcx r12, r12
  .adox .r12 (.reg .rax), -- 900: adox r12, rax
  .adcx .r13 (.reg .r13), -- 901: adcx r13, r13
  .adox .r13 (.reg .rdx), -- 902: adox r13, rdx
  .mov (.reg .rdx) (.mem ⟨some .rsp, none, 120#64⟩), -- 903: mov rdx, [rsp + (48* 2)+ 0x18]
  .mulx .rdx .rax (.reg .rdx), -- 904: mulx rdx, rax, rdx
  .adcx .r14 (.reg .r14), -- 905: adcx r14, r14
  .adox .r14 (.reg .rax), -- 906: adox r14, rax
  .adcx .r15 (.reg .r15), -- 907: adcx r15, r15
  .adox .r15 (.reg .rdx), -- 908: adox r15, rdx
  .mov (.reg .rdx) (.mem ⟨some .rsp, none, 128#64⟩), -- 909: mov rdx, [rsp + (48* 2)+ 0x20]
  .mulx .rdx .rax (.reg .rdx), -- 910: mulx rdx, rax, rdx
  .adcx .rcx (.reg .rcx), -- 911: adcx rcx, rcx
  .adox .rcx (.reg .rax), -- 912: adox rcx, rax
  .adcx .rbx (.reg .rbx), -- 913: adcx rbx, rbx
  .adox .rbx (.reg .rdx), -- 914: adox rbx, rdx
  .mov (.reg .rdx) (.mem ⟨some .rsp, none, 136#64⟩), -- 915: mov rdx, [rsp + (48* 2)+ 0x28]
  .mulx .rdi .rax (.reg .rdx), -- 916: mulx rdi, rax, rdx
  .adcx .rbp (.reg .rbp), -- 917: adcx rbp, rbp
  .adox .rbp (.reg .rax), -- 918: adox rbp, rax
  .mov (.reg .rax) (.imm 0#64), -- 919: mov eax, 0x0
  .adcx .rdi (.reg .rax), -- 920: adcx rdi, rax
  .adox .rdi (.reg .rax), -- 921: adox rdi, rax
  .mov (.mem ⟨some .rsp, none, 288#64⟩) (.reg .rbx), -- 922: mov [rsp + (48* 6)], rbx
  .mov (.reg .rdx) (.reg .r8), -- 923: mov rdx, r8
  .shl (.reg .rdx) (.imm 32#64), -- 924: shl rdx, 0x20
  .add (.reg .rdx) (.reg .r8), -- 925: add rdx, r8
  .mov (.reg .rax) (.imm 0xffffffff00000001#64), -- 926: mov rax, 0xffffffff00000001
  .mulx .rax .r8 (.reg .rax), -- 927: mulx rax, r8, rax
  .mov (.reg .rbx) (.imm 0xffffffff#64), -- 928: mov ebx, 0xffffffff
  .mulx .r8 .rbx (.reg .rbx), -- 929: mulx r8, rbx, rbx
  .add (.reg .rax) (.reg .rbx), -- 930: add rax, rbx
  .adc (.reg .r8) (.reg .rdx), -- 931: adc r8, rdx
  .mov (.reg .rbx) (.imm 0#64), -- 932: mov ebx, 0x0
  .adc (.reg .rbx) (.reg .rbx), -- 933: adc rbx, rbx
  .sub (.reg .r9) (.reg .rax), -- 934: sub r9, rax
  .sbb (.reg .r10) (.reg .r8), -- 935: sbb r10, r8
  .sbb (.reg .r11) (.reg .rbx), -- 936: sbb r11, rbx
  .sbb (.reg .r12) (.imm 0#64), -- 937: sbb r12, 0x0
  .sbb (.reg .r13) (.imm 0#64), -- 938: sbb r13, 0x0
  .mov (.reg .r8) (.reg .rdx), -- 939: mov r8, rdx
  .sbb (.reg .r8) (.imm 0#64), -- 940: sbb r8, 0x0
  .mov (.reg .rdx) (.reg .r9), -- 941: mov rdx, r9
  .shl (.reg .rdx) (.imm 32#64), -- 942: shl rdx, 0x20
  .add (.reg .rdx) (.reg .r9), -- 943: add rdx, r9
  .mov (.reg .rax) (.imm 0xffffffff00000001#64), -- 944: mov rax, 0xffffffff00000001
  .mulx .rax .r9 (.reg .rax), -- 945: mulx rax, r9, rax
  .mov (.reg .rbx) (.imm 0xffffffff#64), -- 946: mov ebx, 0xffffffff
  .mulx .r9 .rbx (.reg .rbx), -- 947: mulx r9, rbx, rbx
  .add (.reg .rax) (.reg .rbx), -- 948: add rax, rbx
  .adc (.reg .r9) (.reg .rdx), -- 949: adc r9, rdx
  .mov (.reg .rbx) (.imm 0#64), -- 950: mov ebx, 0x0
  .adc (.reg .rbx) (.reg .rbx), -- 951: adc rbx, rbx
  .sub (.reg .r10) (.reg .rax), -- 952: sub r10, rax
  .sbb (.reg .r11) (.reg .r9), -- 953: sbb r11, r9
  .sbb (.reg .r12) (.reg .rbx), -- 954: sbb r12, rbx
  .sbb (.reg .r13) (.imm 0#64), -- 955: sbb r13, 0x0
  .sbb (.reg .r8) (.imm 0#64), -- 956: sbb r8, 0x0
  .mov (.reg .r9) (.reg .rdx), -- 957: mov r9, rdx
  .sbb (.reg .r9) (.imm 0#64), -- 958: sbb r9, 0x0
  .mov (.reg .rdx) (.reg .r10), -- 959: mov rdx, r10
  .shl (.reg .rdx) (.imm 32#64), -- 960: shl rdx, 0x20
  .add (.reg .rdx) (.reg .r10), -- 961: add rdx, r10
  .mov (.reg .rax) (.imm 0xffffffff00000001#64), -- 962: mov rax, 0xffffffff00000001
  .mulx .rax .r10 (.reg .rax), -- 963: mulx rax, r10, rax
  .mov (.reg .rbx) (.imm 0xffffffff#64), -- 964: mov ebx, 0xffffffff
  .mulx .r10 .rbx (.reg .rbx), -- 965: mulx r10, rbx, rbx
  .add (.reg .rax) (.reg .rbx), -- 966: add rax, rbx
  .adc (.reg .r10) (.reg .rdx), -- 967: adc r10, rdx
  .mov (.reg .rbx) (.imm 0#64), -- 968: mov ebx, 0x0
  .adc (.reg .rbx) (.reg .rbx), -- 969: adc rbx, rbx
  .sub (.reg .r11) (.reg .rax), -- 970: sub r11, rax
  .sbb (.reg .r12) (.reg .r10), -- 971: sbb r12, r10
  .sbb (.reg .r13) (.reg .rbx), -- 972: sbb r13, rbx
  .sbb (.reg .r8) (.imm 0#64), -- 973: sbb r8, 0x0
  .sbb (.reg .r9) (.imm 0#64), -- 974: sbb r9, 0x0
  .mov (.reg .r10) (.reg .rdx), -- 975: mov r10, rdx
  .sbb (.reg .r10) (.imm 0#64), -- 976: sbb r10, 0x0
  .mov (.reg .rdx) (.reg .r11), -- 977: mov rdx, r11
  .shl (.reg .rdx) (.imm 32#64), -- 978: shl rdx, 0x20
  .add (.reg .rdx) (.reg .r11), -- 979: add rdx, r11
  .mov (.reg .rax) (.imm 0xffffffff00000001#64), -- 980: mov rax, 0xffffffff00000001
  .mulx .rax .r11 (.reg .rax), -- 981: mulx rax, r11, rax
  .mov (.reg .rbx) (.imm 0xffffffff#64), -- 982: mov ebx, 0xffffffff
  .mulx .r11 .rbx (.reg .rbx), -- 983: mulx r11, rbx, rbx
  .add (.reg .rax) (.reg .rbx), -- 984: add rax, rbx
  .adc (.reg .r11) (.reg .rdx), -- 985: adc r11, rdx
  .mov (.reg .rbx) (.imm 0#64), -- 986: mov ebx, 0x0
  .adc (.reg .rbx) (.reg .rbx), -- 987: adc rbx, rbx
  .sub (.reg .r12) (.reg .rax), -- 988: sub r12, rax
  .sbb (.reg .r13) (.reg .r11), -- 989: sbb r13, r11
  .sbb (.reg .r8) (.reg .rbx), -- 990: sbb r8, rbx
  .sbb (.reg .r9) (.imm 0#64), -- 991: sbb r9, 0x0
  .sbb (.reg .r10) (.imm 0#64), -- 992: sbb r10, 0x0
  .mov (.reg .r11) (.reg .rdx), -- 993: mov r11, rdx
  .sbb (.reg .r11) (.imm 0#64), -- 994: sbb r11, 0x0
  .mov (.reg .rdx) (.reg .r12), -- 995: mov rdx, r12
  .shl (.reg .rdx) (.imm 32#64), -- 996: shl rdx, 0x20
  .add (.reg .rdx) (.reg .r12), -- 997: add rdx, r12
  .mov (.reg .rax) (.imm 0xffffffff00000001#64), -- 998: mov rax, 0xffffffff00000001
  .mulx .rax .r12 (.reg .rax), -- 999: mulx rax, r12, rax
  .mov (.reg .rbx) (.imm 0xffffffff#64), -- 1000: mov ebx, 0xffffffff
  .mulx .r12 .rbx (.reg .rbx), -- 1001: mulx r12, rbx, rbx
  .add (.reg .rax) (.reg .rbx), -- 1002: add rax, rbx
  .adc (.reg .r12) (.reg .rdx), -- 1003: adc r12, rdx
  .mov (.reg .rbx) (.imm 0#64), -- 1004: mov ebx, 0x0
  .adc (.reg .rbx) (.reg .rbx), -- 1005: adc rbx, rbx
  .sub (.reg .r13) (.reg .rax), -- 1006: sub r13, rax
  .sbb (.reg .r8) (.reg .r12), -- 1007: sbb r8, r12
  .sbb (.reg .r9) (.reg .rbx), -- 1008: sbb r9, rbx
  .sbb (.reg .r10) (.imm 0#64), -- 1009: sbb r10, 0x0
  .sbb (.reg .r11) (.imm 0#64), -- 1010: sbb r11, 0x0
  .mov (.reg .r12) (.reg .rdx), -- 1011: mov r12, rdx
  .sbb (.reg .r12) (.imm 0#64), -- 1012: sbb r12, 0x0
  .mov (.reg .rdx) (.reg .r13), -- 1013: mov rdx, r13
  .shl (.reg .rdx) (.imm 32#64), -- 1014: shl rdx, 0x20
  .add (.reg .rdx) (.reg .r13), -- 1015: add rdx, r13
  .mov (.reg .rax) (.imm 0xffffffff00000001#64), -- 1016: mov rax, 0xffffffff00000001
  .mulx .rax .r13 (.reg .rax), -- 1017: mulx rax, r13, rax
  .mov (.reg .rbx) (.imm 0xffffffff#64), -- 1018: mov ebx, 0xffffffff
  .mulx .r13 .rbx (.reg .rbx), -- 1019: mulx r13, rbx, rbx
  .add (.reg .rax) (.reg .rbx), -- 1020: add rax, rbx
  .adc (.reg .r13) (.reg .rdx), -- 1021: adc r13, rdx
  .mov (.reg .rbx) (.imm 0#64), -- 1022: mov ebx, 0x0
  .adc (.reg .rbx) (.reg .rbx), -- 1023: adc rbx, rbx
  .sub (.reg .r8) (.reg .rax), -- 1024: sub r8, rax
  .sbb (.reg .r9) (.reg .r13), -- 1025: sbb r9, r13
  .sbb (.reg .r10) (.reg .rbx), -- 1026: sbb r10, rbx
  .sbb (.reg .r11) (.imm 0#64), -- 1027: sbb r11, 0x0
  .sbb (.reg .r12) (.imm 0#64), -- 1028: sbb r12, 0x0
  .mov (.reg .r13) (.reg .rdx), -- 1029: mov r13, rdx
  .sbb (.reg .r13) (.imm 0#64), -- 1030: sbb r13, 0x0
  .mov (.reg .rbx) (.mem ⟨some .rsp, none, 288#64⟩), -- 1031: mov rbx, [rsp + (48* 6)]
  .add (.reg .r14) (.reg .r8), -- 1032: add r14, r8
  .adc (.reg .r15) (.reg .r9), -- 1033: adc r15, r9
  .adc (.reg .rcx) (.reg .r10), -- 1034: adc rcx, r10
  .adc (.reg .rbx) (.reg .r11), -- 1035: adc rbx, r11
  .adc (.reg .rbp) (.reg .r12), -- 1036: adc rbp, r12
  .adc (.reg .rdi) (.reg .r13), -- 1037: adc rdi, r13
  .mov (.reg .r8) (.imm 0#64), -- 1038: mov r8d, 0x0
  .adc (.reg .r8) (.reg .r8), -- 1039: adc r8, r8
  .xor (.reg .r11) (.reg .r11), -- 1040: xor r11, r11
  .xor (.reg .r12) (.reg .r12), -- 1041: xor r12, r12
  .xor (.reg .r13) (.reg .r13), -- 1042: xor r13, r13
  .mov (.reg .rax) (.imm 0xffffffff00000001#64), -- 1043: mov rax, 0xffffffff00000001
  .add (.reg .rax) (.reg .r14), -- 1044: add rax, r14
  .mov (.reg .r9) (.imm 0xffffffff#64), -- 1045: mov r9d, 0xffffffff
  .adc (.reg .r9) (.reg .r15), -- 1046: adc r9, r15
  .mov (.reg .r10) (.imm 1#64), -- 1047: mov r10d, 0x1
  .adc (.reg .r10) (.reg .rcx), -- 1048: adc r10, rcx
  .adc (.reg .r11) (.reg .rbx), -- 1049: adc r11, rbx
  .adc (.reg .r12) (.reg .rbp), -- 1050: adc r12, rbp
  .adc (.reg .r13) (.reg .rdi), -- 1051: adc r13, rdi
  .adc (.reg .r8) (.imm 0#64), -- 1052: adc r8, 0x0
  .cmov .nz .r14 (.reg .rax), -- 1053: cmovne r14, rax
  .cmov .nz .r15 (.reg .r9), -- 1054: cmovne r15, r9
  .cmov .nz .rcx (.reg .r10), -- 1055: cmovne rcx, r10
  .cmov .nz .rbx (.reg .r11), -- 1056: cmovne rbx, r11
  .cmov .nz .rbp (.reg .r12), -- 1057: cmovne rbp, r12
  .cmov .nz .rdi (.reg .r13), -- 1058: cmovne rdi, r13
  .mov (.mem ⟨some .rsp, none, 288#64⟩) (.reg .r14), -- 1059: mov [rsp + (48* 6)], r14
  .mov (.mem ⟨some .rsp, none, 296#64⟩) (.reg .r15), -- 1060: mov [rsp + (48* 6)+ 0x8], r15
  .mov (.mem ⟨some .rsp, none, 304#64⟩) (.reg .rcx), -- 1061: mov [rsp + (48* 6)+ 0x10], rcx
  .mov (.mem ⟨some .rsp, none, 312#64⟩) (.reg .rbx), -- 1062: mov [rsp + (48* 6)+ 0x18], rbx
  .mov (.mem ⟨some .rsp, none, 320#64⟩) (.reg .rbp), -- 1063: mov [rsp + (48* 6)+ 0x20], rbp
  .mov (.mem ⟨some .rsp, none, 328#64⟩) (.reg .rdi), -- 1064: mov [rsp + (48* 6)+ 0x28], rdi
  .mov (.reg .rdx) (.mem ⟨some .rsp, none, 48#64⟩), -- 1065: mov rdx, [rsp + (48* 1)]
  .xor (.reg .r15) (.reg .r15), -- 1066: xor r15d, r15d
  .mulx .r9 .r8 (.mem ⟨some .rsi, none, 0#64⟩), -- 1067: mulx r9, r8, [rsi + 0]
  .mulx .r10 .rbx (.mem ⟨some .rsi, none, 8#64⟩), -- 1068: mulx r10, rbx, [rsi + 0+ 0x8]
  .add (.reg .r9) (.reg .rbx), -- 1069: add r9, rbx
  .mulx .r11 .rbx (.mem ⟨some .rsi, none, 16#64⟩), -- 1070: mulx r11, rbx, [rsi + 0+ 0x10]
  .adc (.reg .r10) (.reg .rbx), -- 1071: adc r10, rbx
  .mulx .r12 .rbx (.mem ⟨some .rsi, none, 24#64⟩), -- 1072: mulx r12, rbx, [rsi + 0+ 0x18]
  .adc (.reg .r11) (.reg .rbx), -- 1073: adc r11, rbx
  .mulx .r13 .rbx (.mem ⟨some .rsi, none, 32#64⟩), -- 1074: mulx r13, rbx, [rsi + 0+ 0x20]
  .adc (.reg .r12) (.reg .rbx), -- 1075: adc r12, rbx
  .mulx .r14 .rbx (.mem ⟨some .rsi, none, 40#64⟩), -- 1076: mulx r14, rbx, [rsi + 0+ 0x28]
  .adc (.reg .r13) (.reg .rbx), -- 1077: adc r13, rbx
  .adc (.reg .r14) (.reg .r15), -- 1078: adc r14, r15
  .mov (.reg .rdx) (.reg .r8), -- 1079: mov rdx, r8
  .shl (.reg .rdx) (.imm 32#64), -- 1080: shl rdx, 0x20
  .add (.reg .rdx) (.reg .r8), -- 1081: add rdx, r8
  .xor (.reg .rbp) (.reg .rbp), -- 1082: xor ebp, ebp
  .mov (.reg .rax) (.imm 0xffffffff00000001#64), -- 1083: mov rax, 0xffffffff00000001
  .mulx .rax .rbx (.reg .rax), -- 1084: mulx rax, rbx, rax
  .mov (.reg .rbx) (.imm 0xffffffff#64), -- 1085: mov ebx, 0xffffffff
  .mulx .rbx .r8 (.reg .rbx), -- 1086: mulx rbx, r8, rbx
  .adc (.reg .rax) (.reg .r8), -- 1087: adc rax, r8
  .adc (.reg .rbx) (.reg .rdx), -- 1088: adc rbx, rdx
  .adc32 .rbp .rbp, -- 1089: adc ebp, ebp
  .sub (.reg .r9) (.reg .rax), -- 1090: sub r9, rax
  .sbb (.reg .r10) (.reg .rbx), -- 1091: sbb r10, rbx
  .sbb (.reg .r11) (.reg .rbp), -- 1092: sbb r11, rbp
  .sbb (.reg .r12) (.imm 0#64), -- 1093: sbb r12, 0x0
  .sbb (.reg .r13) (.imm 0#64), -- 1094: sbb r13, 0x0
  .sbb (.reg .rdx) (.imm 0#64), -- 1095: sbb rdx, 0x0
  .add (.reg .r14) (.reg .rdx), -- 1096: add r14, rdx
  .adc (.reg .r15) (.imm 0#64), -- 1097: adc r15, 0x0
  .mov (.reg .rdx) (.mem ⟨some .rsp, none, 56#64⟩), -- 1098: mov rdx, [rsp + (48* 1)+ 0x8]
  .xor (.reg .r8) (.reg .r8), -- 1099: xor r8d, r8d
  .mulx .rbx .rax (.mem ⟨some .rsi, none, 0#64⟩), -- 1100: mulx rbx, rax, [rsi + 0]
  .adcx .r9 (.reg .rax), -- 1101: adcx r9, rax
  .adox .r10 (.reg .rbx), -- 1102: adox r10, rbx
  .mulx .rbx .rax (.mem ⟨some .rsi, none, 8#64⟩), -- 1103: mulx rbx, rax, [rsi + 0+ 0x8]
  .adcx .r10 (.reg .rax), -- 1104: adcx r10, rax
  .adox .r11 (.reg .rbx), -- 1105: adox r11, rbx
  .mulx .rbx .rax (.mem ⟨some .rsi, none, 16#64⟩), -- 1106: mulx rbx, rax, [rsi + 0+ 0x10]
  .adcx .r11 (.reg .rax), -- 1107: adcx r11, rax
  .adox .r12 (.reg .rbx), -- 1108: adox r12, rbx
  .mulx .rbx .rax (.mem ⟨some .rsi, none, 24#64⟩), -- 1109: mulx rbx, rax, [rsi + 0+ 0x18]
  .adcx .r12 (.reg .rax), -- 1110: adcx r12, rax
  .adox .r13 (.reg .rbx), -- 1111: adox r13, rbx
  .mulx .rbx .rax (.mem ⟨some .rsi, none, 32#64⟩), -- 1112: mulx rbx, rax, [rsi + 0+ 0x20]
  .adcx .r13 (.reg .rax), -- 1113: adcx r13, rax
  .adox .r14 (.reg .rbx), -- 1114: adox r14, rbx
  .adox .r15 (.reg .r8), -- 1115: adox r15, r8
  .mulx .rbx .rax (.mem ⟨some .rsi, none, 40#64⟩), -- 1116: mulx rbx, rax, [rsi + 0+ 0x28]
  .adc (.reg .r14) (.reg .rax), -- 1117: adc r14, rax
  .adc (.reg .r15) (.reg .rbx), -- 1118: adc r15, rbx
  .adc (.reg .r8) (.reg .r8), -- 1119: adc r8, r8
  .mov (.reg .rdx) (.reg .r9), -- 1120: mov rdx, r9
  .shl (.reg .rdx) (.imm 32#64), -- 1121: shl rdx, 0x20
  .add (.reg .rdx) (.reg .r9), -- 1122: add rdx, r9
  .xor (.reg .rbp) (.reg .rbp), -- 1123: xor ebp, ebp
  .mov (.reg .rax) (.imm 0xffffffff00000001#64), -- 1124: mov rax, 0xffffffff00000001
  .mulx .rax .rbx (.reg .rax), -- 1125: mulx rax, rbx, rax
  .mov (.reg .rbx) (.imm 0xffffffff#64), -- 1126: mov ebx, 0xffffffff
  .mulx .rbx .r9 (.reg .rbx), -- 1127: mulx rbx, r9, rbx
  .adc (.reg .rax) (.reg .r9), -- 1128: adc rax, r9
  .adc (.reg .rbx) (.reg .rdx), -- 1129: adc rbx, rdx
  .adc32 .rbp .rbp, -- 1130: adc ebp, ebp
  .sub (.reg .r10) (.reg .rax), -- 1131: sub r10, rax
  .sbb (.reg .r11) (.reg .rbx), -- 1132: sbb r11, rbx
  .sbb (.reg .r12) (.reg .rbp), -- 1133: sbb r12, rbp
  .sbb (.reg .r13) (.imm 0#64), -- 1134: sbb r13, 0x0
  .sbb (.reg .r14) (.imm 0#64), -- 1135: sbb r14, 0x0
  .sbb (.reg .rdx) (.imm 0#64), -- 1136: sbb rdx, 0x0
  .add (.reg .r15) (.reg .rdx), -- 1137: add r15, rdx
  .adc (.reg .r8) (.imm 0#64), -- 1138: adc r8, 0x0
  .mov (.reg .rdx) (.mem ⟨some .rsp, none, 64#64⟩), -- 1139: mov rdx, [rsp + (48* 1)+ 0x10]
  .xor (.reg .r9) (.reg .r9), -- 1140: xor r9d, r9d
  .mulx .rbx .rax (.mem ⟨some .rsi, none, 0#64⟩), -- 1141: mulx rbx, rax, [rsi + 0]
  .adcx .r10 (.reg .rax), -- 1142: adcx r10, rax
  .adox .r11 (.reg .rbx), -- 1143: adox r11, rbx
  .mulx .rbx .rax (.mem ⟨some .rsi, none, 8#64⟩), -- 1144: mulx rbx, rax, [rsi + 0+ 0x8]
  .adcx .r11 (.reg .rax), -- 1145: adcx r11, rax
  .adox .r12 (.reg .rbx), -- 1146: adox r12, rbx
  .mulx .rbx .rax (.mem ⟨some .rsi, none, 16#64⟩), -- 1147: mulx rbx, rax, [rsi + 0+ 0x10]
  .adcx .r12 (.reg .rax), -- 1148: adcx r12, rax
  .adox .r13 (.reg .rbx), -- 1149: adox r13, rbx
  .mulx .rbx .rax (.mem ⟨some .rsi, none, 24#64⟩), -- 1150: mulx rbx, rax, [rsi + 0+ 0x18]
  .adcx .r13 (.reg .rax), -- 1151: adcx r13, rax
  .adox .r14 (.reg .rbx), -- 1152: adox r14, rbx
  .mulx .rbx .rax (.mem ⟨some .rsi, none, 32#64⟩), -- 1153: mulx rbx, rax, [rsi + 0+ 0x20]
  .adcx .r14 (.reg .rax), -- 1154: adcx r14, rax
  .adox .r15 (.reg .rbx), -- 1155: adox r15, rbx
  .adox .r8 (.reg .r9), -- 1156: adox r8, r9
  .mulx .rbx .rax (.mem ⟨some .rsi, none, 40#64⟩), -- 1157: mulx rbx, rax, [rsi + 0+ 0x28]
  .adc (.reg .r15) (.reg .rax), -- 1158: adc r15, rax
  .adc (.reg .r8) (.reg .rbx), -- 1159: adc r8, rbx
  .adc (.reg .r9) (.reg .r9), -- 1160: adc r9, r9
  .mov (.reg .rdx) (.reg .r10), -- 1161: mov rdx, r10
  .shl (.reg .rdx) (.imm 32#64), -- 1162: shl rdx, 0x20
  .add (.reg .rdx) (.reg .r10), -- 1163: add rdx, r10
  .xor (.reg .rbp) (.reg .rbp), -- 1164: xor ebp, ebp
  .mov (.reg .rax) (.imm 0xffffffff00000001#64), -- 1165: mov rax, 0xffffffff00000001
  .mulx .rax .rbx (.reg .rax), -- 1166: mulx rax, rbx, rax
  .mov (.reg .rbx) (.imm 0xffffffff#64), -- 1167: mov ebx, 0xffffffff
  .mulx .rbx .r10 (.reg .rbx), -- 1168: mulx rbx, r10, rbx
  .adc (.reg .rax) (.reg .r10), -- 1169: adc rax, r10
  .adc (.reg .rbx) (.reg .rdx), -- 1170: adc rbx, rdx
  .adc32 .rbp .rbp, -- 1171: adc ebp, ebp
  .sub (.reg .r11) (.reg .rax), -- 1172: sub r11, rax
  .sbb (.reg .r12) (.reg .rbx), -- 1173: sbb r12, rbx
  .sbb (.reg .r13) (.reg .rbp), -- 1174: sbb r13, rbp
  .sbb (.reg .r14) (.imm 0#64), -- 1175: sbb r14, 0x0
  .sbb (.reg .r15) (.imm 0#64), -- 1176: sbb r15, 0x0
  .sbb (.reg .rdx) (.imm 0#64), -- 1177: sbb rdx, 0x0
  .add (.reg .r8) (.reg .rdx), -- 1178: add r8, rdx
  .adc (.reg .r9) (.imm 0#64), -- 1179: adc r9, 0x0
  .mov (.reg .rdx) (.mem ⟨some .rsp, none, 72#64⟩), -- 1180: mov rdx, [rsp + (48* 1)+ 0x18]
  .xor (.reg .r10) (.reg .r10), -- 1181: xor r10d, r10d
  .mulx .rbx .rax (.mem ⟨some .rsi, none, 0#64⟩), -- 1182: mulx rbx, rax, [rsi + 0]
  .adcx .r11 (.reg .rax), -- 1183: adcx r11, rax
  .adox .r12 (.reg .rbx), -- 1184: adox r12, rbx
  .mulx .rbx .rax (.mem ⟨some .rsi, none, 8#64⟩), -- 1185: mulx rbx, rax, [rsi + 0+ 0x8]
  .adcx .r12 (.reg .rax), -- 1186: adcx r12, rax
  .adox .r13 (.reg .rbx), -- 1187: adox r13, rbx
  .mulx .rbx .rax (.mem ⟨some .rsi, none, 16#64⟩), -- 1188: mulx rbx, rax, [rsi + 0+ 0x10]
  .adcx .r13 (.reg .rax), -- 1189: adcx r13, rax
  .adox .r14 (.reg .rbx), -- 1190: adox r14, rbx
  .mulx .rbx .rax (.mem ⟨some .rsi, none, 24#64⟩), -- 1191: mulx rbx, rax, [rsi + 0+ 0x18]
  .adcx .r14 (.reg .rax), -- 1192: adcx r14, rax
  .adox .r15 (.reg .rbx), -- 1193: adox r15, rbx
  .mulx .rbx .rax (.mem ⟨some .rsi, none, 32#64⟩), -- 1194: mulx rbx, rax, [rsi + 0+ 0x20]
  .adcx .r15 (.reg .rax), -- 1195: adcx r15, rax
  .adox .r8 (.reg .rbx), -- 1196: adox r8, rbx
  .adox .r9 (.reg .r10), -- 1197: adox r9, r10
  .mulx .rbx .rax (.mem ⟨some .rsi, none, 40#64⟩), -- 1198: mulx rbx, rax, [rsi + 0+ 0x28]
  .adc (.reg .r8) (.reg .rax), -- 1199: adc r8, rax
  .adc (.reg .r9) (.reg .rbx), -- 1200: adc r9, rbx
  .adc (.reg .r10) (.reg .r10), -- 1201: adc r10, r10
  .mov (.reg .rdx) (.reg .r11), -- 1202: mov rdx, r11
  .shl (.reg .rdx) (.imm 32#64), -- 1203: shl rdx, 0x20
  .add (.reg .rdx) (.reg .r11), -- 1204: add rdx, r11
  .xor (.reg .rbp) (.reg .rbp), -- 1205: xor ebp, ebp
  .mov (.reg .rax) (.imm 0xffffffff00000001#64), -- 1206: mov rax, 0xffffffff00000001
  .mulx .rax .rbx (.reg .rax), -- 1207: mulx rax, rbx, rax
  .mov (.reg .rbx) (.imm 0xffffffff#64), -- 1208: mov ebx, 0xffffffff
  .mulx .rbx .r11 (.reg .rbx), -- 1209: mulx rbx, r11, rbx
  .adc (.reg .rax) (.reg .r11), -- 1210: adc rax, r11
  .adc (.reg .rbx) (.reg .rdx), -- 1211: adc rbx, rdx
  .adc32 .rbp .rbp, -- 1212: adc ebp, ebp
  .sub (.reg .r12) (.reg .rax), -- 1213: sub r12, rax
  .sbb (.reg .r13) (.reg .rbx), -- 1214: sbb r13, rbx
  .sbb (.reg .r14) (.reg .rbp), -- 1215: sbb r14, rbp
  .sbb (.reg .r15) (.imm 0#64), -- 1216: sbb r15, 0x0
  .sbb (.reg .r8) (.imm 0#64), -- 1217: sbb r8, 0x0
  .sbb (.reg .rdx) (.imm 0#64), -- 1218: sbb rdx, 0x0
  .add (.reg .r9) (.reg .rdx), -- 1219: add r9, rdx
  .adc (.reg .r10) (.imm 0#64), -- 1220: adc r10, 0x0
  .mov (.reg .rdx) (.mem ⟨some .rsp, none, 80#64⟩), -- 1221: mov rdx, [rsp + (48* 1)+ 0x20]
  .xor (.reg .r11) (.reg .r11), -- 1222: xor r11d, r11d
  .mulx .rbx .rax (.mem ⟨some .rsi, none, 0#64⟩), -- 1223: mulx rbx, rax, [rsi + 0]
  .adcx .r12 (.reg .rax), -- 1224: adcx r12, rax
  .adox .r13 (.reg .rbx), -- 1225: adox r13, rbx
  .mulx .rbx .rax (.mem ⟨some .rsi, none, 8#64⟩), -- 1226: mulx rbx, rax, [rsi + 0+ 0x8]
  .adcx .r13 (.reg .rax), -- 1227: adcx r13, rax
  .adox .r14 (.reg .rbx), -- 1228: adox r14, rbx
  .mulx .rbx .rax (.mem ⟨some .rsi, none, 16#64⟩), -- 1229: mulx rbx, rax, [rsi + 0+ 0x10]
  .adcx .r14 (.reg .rax), -- 1230: adcx r14, rax
  .adox .r15 (.reg .rbx), -- 1231: adox r15, rbx
  .mulx .rbx .rax (.mem ⟨some .rsi, none, 24#64⟩), -- 1232: mulx rbx, rax, [rsi + 0+ 0x18]
  .adcx .r15 (.reg .rax), -- 1233: adcx r15, rax
  .adox .r8 (.reg .rbx), -- 1234: adox r8, rbx
  .mulx .rbx .rax (.mem ⟨some .rsi, none, 32#64⟩), -- 1235: mulx rbx, rax, [rsi + 0+ 0x20]
  .adcx .r8 (.reg .rax), -- 1236: adcx r8, rax
  .adox .r9 (.reg .rbx), -- 1237: adox r9, rbx
  .adox .r10 (.reg .r11), -- 1238: adox r10, r11
  .mulx .rbx .rax (.mem ⟨some .rsi, none, 40#64⟩), -- 1239: mulx rbx, rax, [rsi + 0+ 0x28]
  .adc (.reg .r9) (.reg .rax), -- 1240: adc r9, rax
  .adc (.reg .r10) (.reg .rbx), -- 1241: adc r10, rbx
  .adc (.reg .r11) (.reg .r11), -- 1242: adc r11, r11
  .mov (.reg .rdx) (.reg .r12), -- 1243: mov rdx, r12
  .shl (.reg .rdx) (.imm 32#64), -- 1244: shl rdx, 0x20
  .add (.reg .rdx) (.reg .r12), -- 1245: add rdx, r12
  .xor (.reg .rbp) (.reg .rbp), -- 1246: xor ebp, ebp
  .mov (.reg .rax) (.imm 0xffffffff00000001#64), -- 1247: mov rax, 0xffffffff00000001
  .mulx .rax .rbx (.reg .rax), -- 1248: mulx rax, rbx, rax
  .mov (.reg .rbx) (.imm 0xffffffff#64), -- 1249: mov ebx, 0xffffffff
  .mulx .rbx .r12 (.reg .rbx), -- 1250: mulx rbx, r12, rbx
  .adc (.reg .rax) (.reg .r12), -- 1251: adc rax, r12
  .adc (.reg .rbx) (.reg .rdx), -- 1252: adc rbx, rdx
  .adc32 .rbp .rbp, -- 1253: adc ebp, ebp
  .sub (.reg .r13) (.reg .rax), -- 1254: sub r13, rax
  .sbb (.reg .r14) (.reg .rbx), -- 1255: sbb r14, rbx
  .sbb (.reg .r15) (.reg .rbp), -- 1256: sbb r15, rbp
  .sbb (.reg .r8) (.imm 0#64), -- 1257: sbb r8, 0x0
  .sbb (.reg .r9) (.imm 0#64), -- 1258: sbb r9, 0x0
  .sbb (.reg .rdx) (.imm 0#64), -- 1259: sbb rdx, 0x0
  .add (.reg .r10) (.reg .rdx), -- 1260: add r10, rdx
  .adc (.reg .r11) (.imm 0#64), -- 1261: adc r11, 0x0
  .mov (.reg .rdx) (.mem ⟨some .rsp, none, 88#64⟩), -- 1262: mov rdx, [rsp + (48* 1)+ 0x28]
  .xor (.reg .r12) (.reg .r12), -- 1263: xor r12d, r12d
  .mulx .rbx .rax (.mem ⟨some .rsi, none, 0#64⟩), -- 1264: mulx rbx, rax, [rsi + 0]
  .adcx .r13 (.reg .rax), -- 1265: adcx r13, rax
  .adox .r14 (.reg .rbx), -- 1266: adox r14, rbx
  .mulx .rbx .rax (.mem ⟨some .rsi, none, 8#64⟩), -- 1267: mulx rbx, rax, [rsi + 0+ 0x8]
  .adcx .r14 (.reg .rax), -- 1268: adcx r14, rax
  .adox .r15 (.reg .rbx), -- 1269: adox r15, rbx
  .mulx .rbx .rax (.mem ⟨some .rsi, none, 16#64⟩), -- 1270: mulx rbx, rax, [rsi + 0+ 0x10]
  .adcx .r15 (.reg .rax), -- 1271: adcx r15, rax
  .adox .r8 (.reg .rbx), -- 1272: adox r8, rbx
  .mulx .rbx .rax (.mem ⟨some .rsi, none, 24#64⟩), -- 1273: mulx rbx, rax, [rsi + 0+ 0x18]
  .adcx .r8 (.reg .rax), -- 1274: adcx r8, rax
  .adox .r9 (.reg .rbx), -- 1275: adox r9, rbx
  .mulx .rbx .rax (.mem ⟨some .rsi, none, 32#64⟩), -- 1276: mulx rbx, rax, [rsi + 0+ 0x20]
  .adcx .r9 (.reg .rax), -- 1277: adcx r9, rax
  .adox .r10 (.reg .rbx), -- 1278: adox r10, rbx
  .adox .r11 (.reg .r12), -- 1279: adox r11, r12
  .mulx .rbx .rax (.mem ⟨some .rsi, none, 40#64⟩), -- 1280: mulx rbx, rax, [rsi + 0+ 0x28]
  .adc (.reg .r10) (.reg .rax), -- 1281: adc r10, rax
  .adc (.reg .r11) (.reg .rbx), -- 1282: adc r11, rbx
  .adc (.reg .r12) (.reg .r12), -- 1283: adc r12, r12
  .mov (.reg .rdx) (.reg .r13), -- 1284: mov rdx, r13
  .shl (.reg .rdx) (.imm 32#64), -- 1285: shl rdx, 0x20
  .add (.reg .rdx) (.reg .r13), -- 1286: add rdx, r13
  .xor (.reg .rbp) (.reg .rbp), -- 1287: xor ebp, ebp
  .mov (.reg .rax) (.imm 0xffffffff00000001#64), -- 1288: mov rax, 0xffffffff00000001
  .mulx .rax .rbx (.reg .rax), -- 1289: mulx rax, rbx, rax
  .mov (.reg .rbx) (.imm 0xffffffff#64), -- 1290: mov ebx, 0xffffffff
  .mulx .rbx .r13 (.reg .rbx), -- 1291: mulx rbx, r13, rbx
  .adc (.reg .rax) (.reg .r13), -- 1292: adc rax, r13
  .adc (.reg .rbx) (.reg .rdx), -- 1293: adc rbx, rdx
  .adc32 .rbp .rbp, -- 1294: adc ebp, ebp
  .sub (.reg .r14) (.reg .rax), -- 1295: sub r14, rax
  .sbb (.reg .r15) (.reg .rbx), -- 1296: sbb r15, rbx
  .sbb (.reg .r8) (.reg .rbp), -- 1297: sbb r8, rbp
  .sbb (.reg .r9) (.imm 0#64), -- 1298: sbb r9, 0x0
  .sbb (.reg .r10) (.imm 0#64), -- 1299: sbb r10, 0x0
  .sbb (.reg .rdx) (.imm 0#64), -- 1300: sbb rdx, 0x0
  .add (.reg .r11) (.reg .rdx), -- 1301: add r11, rdx
  .adc (.reg .r12) (.imm 0#64), -- 1302: adc r12, 0x0
  .xor (.reg .rdx) (.reg .rdx), -- 1303: xor edx, edx
  .xor (.reg .rbp) (.reg .rbp), -- 1304: xor ebp, ebp
  .xor (.reg .r13) (.reg .r13), -- 1305: xor r13d, r13d
  .mov (.reg .rax) (.imm 0xffffffff00000001#64), -- 1306: mov rax, 0xffffffff00000001
  .add (.reg .rax) (.reg .r14), -- 1307: add rax, r14
  .mov (.reg .rbx) (.imm 0xffffffff#64), -- 1308: mov ebx, 0xffffffff
  .adc (.reg .rbx) (.reg .r15), -- 1309: adc rbx, r15
  .mov (.reg .rcx) (.imm 1#64), -- 1310: mov ecx, 0x1
  .adc (.reg .rcx) (.reg .r8), -- 1311: adc rcx, r8
  .adc (.reg .rdx) (.reg .r9), -- 1312: adc rdx, r9
  .adc (.reg .rbp) (.reg .r10), -- 1313: adc rbp, r10
  .adc (.reg .r13) (.reg .r11), -- 1314: adc r13, r11
  .adc (.reg .r12) (.imm 0#64), -- 1315: adc r12, 0x0
  .cmov .nz .r14 (.reg .rax), -- 1316: cmovne r14, rax
  .cmov .nz .r15 (.reg .rbx), -- 1317: cmovne r15, rbx
  .cmov .nz .r8 (.reg .rcx), -- 1318: cmovne r8, rcx
  .cmov .nz .r9 (.reg .rdx), -- 1319: cmovne r9, rdx
  .cmov .nz .r10 (.reg .rbp), -- 1320: cmovne r10, rbp
  .cmov .nz .r11 (.reg .r13), -- 1321: cmovne r11, r13
  .mov (.mem ⟨some .rsp, none, 144#64⟩) (.reg .r14), -- 1322: mov [rsp + (48* 3)], r14
  .mov (.mem ⟨some .rsp, none, 152#64⟩) (.reg .r15), -- 1323: mov [rsp + (48* 3)+ 0x8], r15
  .mov (.mem ⟨some .rsp, none, 160#64⟩) (.reg .r8), -- 1324: mov [rsp + (48* 3)+ 0x10], r8
  .mov (.mem ⟨some .rsp, none, 168#64⟩) (.reg .r9), -- 1325: mov [rsp + (48* 3)+ 0x18], r9
  .mov (.mem ⟨some .rsp, none, 176#64⟩) (.reg .r10), -- 1326: mov [rsp + (48* 3)+ 0x20], r10
  .mov (.mem ⟨some .rsp, none, 184#64⟩) (.reg .r11), -- 1327: mov [rsp + (48* 3)+ 0x28], r11
  .mov (.reg .rdx) (.mem ⟨some .rsp, none, 240#64⟩), -- 1328: mov rdx, [rsp + (48* 5)]
  .mulx .r10 .r9 (.mem ⟨some .rsp, none, 248#64⟩), -- 1329: mulx r10, r9, [rsp + (48* 5)+ 0x8]
  .mulx .r12 .r11 (.mem ⟨some .rsp, none, 264#64⟩), -- 1330: mulx r12, r11, [rsp + (48* 5)+ 0x18]
  .mulx .r14 .r13 (.mem ⟨some .rsp, none, 280#64⟩), -- 1331: mulx r14, r13, [rsp + (48* 5)+ 0x28]
  .mov (.reg .rdx) (.mem ⟨some .rsp, none, 264#64⟩), -- 1332: mov rdx, [rsp + (48* 5)+ 0x18]
  .mulx .rcx .r15 (.mem ⟨some .rsp, none, 272#64⟩), -- 1333: mulx rcx, r15, [rsp + (48* 5)+ 0x20]
  .xor (.reg .rbp) (.reg .rbp), -- 1334: xor ebp, ebp
  .mov (.reg .rdx) (.mem ⟨some .rsp, none, 256#64⟩), -- 1335: mov rdx, [rsp + (48* 5)+ 0x10]
  .mulx .rbx .rax (.mem ⟨some .rsp, none, 240#64⟩), -- 1336: mulx rbx, rax, [rsp + (48* 5)]
  .adcx .r10 (.reg .rax), -- 1337: adcx r10, rax
  .adox .r11 (.reg .rbx), -- 1338: adox r11, rbx
  .mulx .rbx .rax (.mem ⟨some .rsp, none, 248#64⟩), -- 1339: mulx rbx, rax, [rsp + (48* 5)+ 0x8]
  .adcx .r11 (.reg .rax), -- 1340: adcx r11, rax
  .adox .r12 (.reg .rbx), -- 1341: adox r12, rbx
  .mov (.reg .rdx) (.mem ⟨some .rsp, none, 248#64⟩), -- 1342: mov rdx, [rsp + (48* 5)+ 0x8]
  .mulx .rbx .rax (.mem ⟨some .rsp, none, 264#64⟩), -- 1343: mulx rbx, rax, [rsp + (48* 5)+ 0x18]
  .adcx .r12 (.reg .rax), -- 1344: adcx r12, rax
  .adox .r13 (.reg .rbx), -- 1345: adox r13, rbx
  .mulx .rbx .rax (.mem ⟨some .rsp, none, 272#64⟩), -- 1346: mulx rbx, rax, [rsp + (48* 5)+ 0x20]
  .adcx .r13 (.reg .rax), -- 1347: adcx r13, rax
  .adox .r14 (.reg .rbx), -- 1348: adox r14, rbx
  .mulx .rbx .rax (.mem ⟨some .rsp, none, 280#64⟩), -- 1349: mulx rbx, rax, [rsp + (48* 5)+ 0x28]
  .adcx .r14 (.reg .rax), -- 1350: adcx r14, rax
  .adox .r15 (.reg .rbx), -- 1351: adox r15, rbx
  .adcx .r15 (.reg .rbp), -- 1352: adcx r15, rbp
  .adox .rcx (.reg .rbp), -- 1353: adox rcx, rbp
  .adc (.reg .rcx) (.reg .rbp), -- 1354: adc rcx, rbp
  .xor (.reg .rbp) (.reg .rbp), -- 1355: xor ebp, ebp
  .mov (.reg .rdx) (.mem ⟨some .rsp, none, 272#64⟩), -- 1356: mov rdx, [rsp + (48* 5)+ 0x20]
  .mulx .rbx .rax (.mem ⟨some .rsp, none, 240#64⟩), -- 1357: mulx rbx, rax, [rsp + (48* 5)]
  .adcx .r12 (.reg .rax), -- 1358: adcx r12, rax
  .adox .r13 (.reg .rbx), -- 1359: adox r13, rbx
  .mov (.reg .rdx) (.mem ⟨some .rsp, none, 256#64⟩), -- 1360: mov rdx, [rsp + (48* 5)+ 0x10]
  .mulx .rbx .rax (.mem ⟨some .rsp, none, 264#64⟩), -- 1361: mulx rbx, rax, [rsp + (48* 5)+ 0x18]
  .adcx .r13 (.reg .rax), -- 1362: adcx r13, rax
  .adox .r14 (.reg .rbx), -- 1363: adox r14, rbx
  .mulx .rbx .rax (.mem ⟨some .rsp, none, 272#64⟩), -- 1364: mulx rbx, rax, [rsp + (48* 5)+ 0x20]
  .adcx .r14 (.reg .rax), -- 1365: adcx r14, rax
  .adox .r15 (.reg .rbx), -- 1366: adox r15, rbx
  .mulx .rdx .rax (.mem ⟨some .rsp, none, 280#64⟩), -- 1367: mulx rdx, rax, [rsp + (48* 5)+ 0x28]
  .adcx .r15 (.reg .rax), -- 1368: adcx r15, rax
  .adox .rcx (.reg .rdx), -- 1369: adox rcx, rdx
  .mov (.reg .rdx) (.mem ⟨some .rsp, none, 280#64⟩), -- 1370: mov rdx, [rsp + (48* 5)+ 0x28]
  .mulx .rbp .rbx (.mem ⟨some .rsp, none, 272#64⟩), -- 1371: mulx rbp, rbx, [rsp + (48* 5)+ 0x20]
  .mulx .rdx .rax (.mem ⟨some .rsp, none, 264#64⟩), -- 1372: mulx rdx, rax, [rsp + (48* 5)+ 0x18]
  .adcx .rcx (.reg .rax), -- 1373: adcx rcx, rax
  .adox .rbx (.reg .rdx), -- 1374: adox rbx, rdx
  .mov (.reg .rax) (.imm 0#64), -- 1375: mov eax, 0x0
  .adcx .rbx (.reg .rax), -- 1376: adcx rbx, rax
  .adox .rbp (.reg .rax), -- 1377: adox rbp, rax
  .adc (.reg .rbp) (.reg .rax), -- 1378: adc rbp, rax
  .xor (.reg .rax) (.reg .rax), -- 1379: xor rax, rax
  .mov (.reg .rdx) (.mem ⟨some .rsp, none, 240#64⟩), -- 1380: mov rdx, [rsp + (48* 5)]
  .mulx .rax .r8 (.mem ⟨some .rsp, none, 240#64⟩), -- 1381: mulx rax, r8, [rsp + (48* 5)]
  .adcx .r9 (.reg .r9), -- 1382: adcx r9, r9
  .adox .r9 (.reg .rax), -- 1383: adox r9, rax
  .mov (.reg .rdx) (.mem ⟨some .rsp, none, 248#64⟩), -- 1384: mov rdx, [rsp + (48* 5)+ 0x8]
  .mulx .rdx .rax (.reg .rdx), -- 1385: mulx rdx, rax, rdx
  .adcx .r10 (.reg .r10), -- 1386: adcx r10, r10
  .adox .r10 (.reg .rax), -- 1387: adox r10, rax
  .adcx .r11 (.reg .r11), -- 1388: adcx r11, r11
  .adox .r11 (.reg .rdx), -- 1389: adox r11, rdx
  .mov (.reg .rdx) (.mem ⟨some .rsp, none, 256#64⟩), -- 1390: mov rdx, [rsp + (48* 5)+ 0x10]
  .mulx .rdx .rax (.reg .rdx), -- 1391: mulx rdx, rax, rdx
  .adcx .r12 (.reg .r12), -- 1392: adcx r12, r12
  .adox .r12 (.reg .rax), -- 1393: adox r12, rax
  .adcx .r13 (.reg .r13), -- 1394: adcx r13, r13
  .adox .r13 (.reg .rdx), -- 1395: adox r13, rdx
  .mov (.reg .rdx) (.mem ⟨some .rsp, none, 264#64⟩), -- 1396: mov rdx, [rsp + (48* 5)+ 0x18]
  .mulx .rdx .rax (.reg .rdx), -- 1397: mulx rdx, rax, rdx
  .adcx .r14 (.reg .r14), -- 1398: adcx r14, r14
  .adox .r14 (.reg .rax), -- 1399: adox r14, rax
  .adcx .r15 (.reg .r15), -- 1400: adcx r15, r15
  .adox .r15 (.reg .rdx), -- 1401: adox r15, rdx
  .mov (.reg .rdx) (.mem ⟨some .rsp, none, 272#64⟩), -- 1402: mov rdx, [rsp + (48* 5)+ 0x20]
  .mulx .rdx .rax (.reg .rdx), -- 1403: mulx rdx, rax, rdx
  .adcx .rcx (.reg .rcx), -- 1404: adcx rcx, rcx
  .adox .rcx (.reg .rax), -- 1405: adox rcx, rax
  .adcx .rbx (.reg .rbx), -- 1406: adcx rbx, rbx
  .adox .rbx (.reg .rdx), -- 1407: adox rbx, rdx
  .mov (.reg .rdx) (.mem ⟨some .rsp, none, 280#64⟩), -- 1408: mov rdx, [rsp + (48* 5)+ 0x28]
  .mulx .rdi .rax (.reg .rdx), -- 1409: mulx rdi, rax, rdx
  .adcx .rbp (.reg .rbp), -- 1410: adcx rbp, rbp
  .adox .rbp (.reg .rax), -- 1411: adox rbp, rax
  .mov (.reg .rax) (.imm 0#64), -- 1412: mov eax, 0x0
  .adcx .rdi (.reg .rax), -- 1413: adcx rdi, rax
  .adox .rdi (.reg .rax), -- 1414: adox rdi, rax
  .mov (.mem ⟨some .rsp, none, 192#64⟩) (.reg .rbx), -- 1415: mov [rsp + (48* 4)], rbx
  .mov (.reg .rdx) (.reg .r8), -- 1416: mov rdx, r8
  .shl (.reg .rdx) (.imm 32#64), -- 1417: shl rdx, 0x20
  .add (.reg .rdx) (.reg .r8), -- 1418: add rdx, r8
  .mov (.reg .rax) (.imm 0xffffffff00000001#64), -- 1419: mov rax, 0xffffffff00000001
  .mulx .rax .r8 (.reg .rax), -- 1420: mulx rax, r8, rax
  .mov (.reg .rbx) (.imm 0xffffffff#64), -- 1421: mov ebx, 0xffffffff
  .mulx .r8 .rbx (.reg .rbx), -- 1422: mulx r8, rbx, rbx
  .add (.reg .rax) (.reg .rbx), -- 1423: add rax, rbx
  .adc (.reg .r8) (.reg .rdx), -- 1424: adc r8, rdx
  .mov (.reg .rbx) (.imm 0#64), -- 1425: mov ebx, 0x0
  .adc (.reg .rbx) (.reg .rbx), -- 1426: adc rbx, rbx
  .sub (.reg .r9) (.reg .rax), -- 1427: sub r9, rax
  .sbb (.reg .r10) (.reg .r8), -- 1428: sbb r10, r8
  .sbb (.reg .r11) (.reg .rbx), -- 1429: sbb r11, rbx
  .sbb (.reg .r12) (.imm 0#64), -- 1430: sbb r12, 0x0
  .sbb (.reg .r13) (.imm 0#64), -- 1431: sbb r13, 0x0
  .mov (.reg .r8) (.reg .rdx), -- 1432: mov r8, rdx
  .sbb (.reg .r8) (.imm 0#64), -- 1433: sbb r8, 0x0
  .mov (.reg .rdx) (.reg .r9), -- 1434: mov rdx, r9
  .shl (.reg .rdx) (.imm 32#64), -- 1435: shl rdx, 0x20
  .add (.reg .rdx) (.reg .r9), -- 1436: add rdx, r9
  .mov (.reg .rax) (.imm 0xffffffff00000001#64), -- 1437: mov rax, 0xffffffff00000001
  .mulx .rax .r9 (.reg .rax), -- 1438: mulx rax, r9, rax
  .mov (.reg .rbx) (.imm 0xffffffff#64), -- 1439: mov ebx, 0xffffffff
  .mulx .r9 .rbx (.reg .rbx), -- 1440: mulx r9, rbx, rbx
  .add (.reg .rax) (.reg .rbx), -- 1441: add rax, rbx
  .adc (.reg .r9) (.reg .rdx), -- 1442: adc r9, rdx
  .mov (.reg .rbx) (.imm 0#64), -- 1443: mov ebx, 0x0
  .adc (.reg .rbx) (.reg .rbx), -- 1444: adc rbx, rbx
  .sub (.reg .r10) (.reg .rax), -- 1445: sub r10, rax
  .sbb (.reg .r11) (.reg .r9), -- 1446: sbb r11, r9
  .sbb (.reg .r12) (.reg .rbx), -- 1447: sbb r12, rbx
  .sbb (.reg .r13) (.imm 0#64), -- 1448: sbb r13, 0x0
  .sbb (.reg .r8) (.imm 0#64), -- 1449: sbb r8, 0x0
  .mov (.reg .r9) (.reg .rdx), -- 1450: mov r9, rdx
  .sbb (.reg .r9) (.imm 0#64), -- 1451: sbb r9, 0x0
  .mov (.reg .rdx) (.reg .r10), -- 1452: mov rdx, r10
  .shl (.reg .rdx) (.imm 32#64), -- 1453: shl rdx, 0x20
  .add (.reg .rdx) (.reg .r10), -- 1454: add rdx, r10
  .mov (.reg .rax) (.imm 0xffffffff00000001#64), -- 1455: mov rax, 0xffffffff00000001
  .mulx .rax .r10 (.reg .rax), -- 1456: mulx rax, r10, rax
  .mov (.reg .rbx) (.imm 0xffffffff#64), -- 1457: mov ebx, 0xffffffff
  .mulx .r10 .rbx (.reg .rbx), -- 1458: mulx r10, rbx, rbx
  .add (.reg .rax) (.reg .rbx), -- 1459: add rax, rbx
  .adc (.reg .r10) (.reg .rdx), -- 1460: adc r10, rdx
  .mov (.reg .rbx) (.imm 0#64), -- 1461: mov ebx, 0x0
  .adc (.reg .rbx) (.reg .rbx), -- 1462: adc rbx, rbx
  .sub (.reg .r11) (.reg .rax), -- 1463: sub r11, rax
  .sbb (.reg .r12) (.reg .r10), -- 1464: sbb r12, r10
  .sbb (.reg .r13) (.reg .rbx), -- 1465: sbb r13, rbx
  .sbb (.reg .r8) (.imm 0#64), -- 1466: sbb r8, 0x0
  .sbb (.reg .r9) (.imm 0#64), -- 1467: sbb r9, 0x0
  .mov (.reg .r10) (.reg .rdx), -- 1468: mov r10, rdx
  .sbb (.reg .r10) (.imm 0#64), -- 1469: sbb r10, 0x0
  .mov (.reg .rdx) (.reg .r11), -- 1470: mov rdx, r11
  .shl (.reg .rdx) (.imm 32#64), -- 1471: shl rdx, 0x20
  .add (.reg .rdx) (.reg .r11), -- 1472: add rdx, r11
  .mov (.reg .rax) (.imm 0xffffffff00000001#64), -- 1473: mov rax, 0xffffffff00000001
  .mulx .rax .r11 (.reg .rax), -- 1474: mulx rax, r11, rax
  .mov (.reg .rbx) (.imm 0xffffffff#64), -- 1475: mov ebx, 0xffffffff
  .mulx .r11 .rbx (.reg .rbx), -- 1476: mulx r11, rbx, rbx
  .add (.reg .rax) (.reg .rbx), -- 1477: add rax, rbx
  .adc (.reg .r11) (.reg .rdx), -- 1478: adc r11, rdx
  .mov (.reg .rbx) (.imm 0#64), -- 1479: mov ebx, 0x0
  .adc (.reg .rbx) (.reg .rbx), -- 1480: adc rbx, rbx
  .sub (.reg .r12) (.reg .rax), -- 1481: sub r12, rax
  .sbb (.reg .r13) (.reg .r11), -- 1482: sbb r13, r11
  .sbb (.reg .r8) (.reg .rbx), -- 1483: sbb r8, rbx
  .sbb (.reg .r9) (.imm 0#64), -- 1484: sbb r9, 0x0
  .sbb (.reg .r10) (.imm 0#64), -- 1485: sbb r10, 0x0
  .mov (.reg .r11) (.reg .rdx), -- 1486: mov r11, rdx
  .sbb (.reg .r11) (.imm 0#64), -- 1487: sbb r11, 0x0
  .mov (.reg .rdx) (.reg .r12), -- 1488: mov rdx, r12
  .shl (.reg .rdx) (.imm 32#64), -- 1489: shl rdx, 0x20
  .add (.reg .rdx) (.reg .r12), -- 1490: add rdx, r12
  .mov (.reg .rax) (.imm 0xffffffff00000001#64), -- 1491: mov rax, 0xffffffff00000001
  .mulx .rax .r12 (.reg .rax), -- 1492: mulx rax, r12, rax
  .mov (.reg .rbx) (.imm 0xffffffff#64), -- 1493: mov ebx, 0xffffffff
  .mulx .r12 .rbx (.reg .rbx), -- 1494: mulx r12, rbx, rbx
  .add (.reg .rax) (.reg .rbx), -- 1495: add rax, rbx
  .adc (.reg .r12) (.reg .rdx), -- 1496: adc r12, rdx
  .mov (.reg .rbx) (.imm 0#64), -- 1497: mov ebx, 0x0
  .adc (.reg .rbx) (.reg .rbx), -- 1498: adc rbx, rbx
  .sub (.reg .r13) (.reg .rax), -- 1499: sub r13, rax
  .sbb (.reg .r8) (.reg .r12), -- 1500: sbb r8, r12
  .sbb (.reg .r9) (.reg .rbx), -- 1501: sbb r9, rbx
  .sbb (.reg .r10) (.imm 0#64), -- 1502: sbb r10, 0x0
  .sbb (.reg .r11) (.imm 0#64), -- 1503: sbb r11, 0x0
  .mov (.reg .r12) (.reg .rdx), -- 1504: mov r12, rdx
  .sbb (.reg .r12) (.imm 0#64), -- 1505: sbb r12, 0x0
  .mov (.reg .rdx) (.reg .r13), -- 1506: mov rdx, r13
  .shl (.reg .rdx) (.imm 32#64), -- 1507: shl rdx, 0x20
  .add (.reg .rdx) (.reg .r13), -- 1508: add rdx, r13
  .mov (.reg .rax) (.imm 0xffffffff00000001#64), -- 1509: mov rax, 0xffffffff00000001
  .mulx .rax .r13 (.reg .rax), -- 1510: mulx rax, r13, rax
  .mov (.reg .rbx) (.imm 0xffffffff#64), -- 1511: mov ebx, 0xffffffff
  .mulx .r13 .rbx (.reg .rbx), -- 1512: mulx r13, rbx, rbx
  .add (.reg .rax) (.reg .rbx), -- 1513: add rax, rbx
  .adc (.reg .r13) (.reg .rdx), -- 1514: adc r13, rdx
  .mov (.reg .rbx) (.imm 0#64), -- 1515: mov ebx, 0x0
  .adc (.reg .rbx) (.reg .rbx), -- 1516: adc rbx, rbx
  .sub (.reg .r8) (.reg .rax), -- 1517: sub r8, rax
  .sbb (.reg .r9) (.reg .r13), -- 1518: sbb r9, r13
  .sbb (.reg .r10) (.reg .rbx), -- 1519: sbb r10, rbx
  .sbb (.reg .r11) (.imm 0#64), -- 1520: sbb r11, 0x0
  .sbb (.reg .r12) (.imm 0#64), -- 1521: sbb r12, 0x0
  .mov (.reg .r13) (.reg .rdx), -- 1522: mov r13, rdx
  .sbb (.reg .r13) (.imm 0#64), -- 1523: sbb r13, 0x0
  .mov (.reg .rbx) (.mem ⟨some .rsp, none, 192#64⟩), -- 1524: mov rbx, [rsp + (48* 4)]
  .add (.reg .r14) (.reg .r8), -- 1525: add r14, r8
  .adc (.reg .r15) (.reg .r9), -- 1526: adc r15, r9
  .adc (.reg .rcx) (.reg .r10), -- 1527: adc rcx, r10
  .adc (.reg .rbx) (.reg .r11), -- 1528: adc rbx, r11
  .adc (.reg .rbp) (.reg .r12), -- 1529: adc rbp, r12
  .adc (.reg .rdi) (.reg .r13), -- 1530: adc rdi, r13
  .mov (.reg .r8) (.imm 0#64), -- 1531: mov r8d, 0x0
  .adc (.reg .r8) (.reg .r8), -- 1532: adc r8, r8
  .xor (.reg .r11) (.reg .r11), -- 1533: xor r11, r11
  .xor (.reg .r12) (.reg .r12), -- 1534: xor r12, r12
  .xor (.reg .r13) (.reg .r13), -- 1535: xor r13, r13
  .mov (.reg .rax) (.imm 0xffffffff00000001#64), -- 1536: mov rax, 0xffffffff00000001
  .add (.reg .rax) (.reg .r14), -- 1537: add rax, r14
  .mov (.reg .r9) (.imm 0xffffffff#64), -- 1538: mov r9d, 0xffffffff
  .adc (.reg .r9) (.reg .r15), -- 1539: adc r9, r15
  .mov (.reg .r10) (.imm 1#64), -- 1540: mov r10d, 0x1
  .adc (.reg .r10) (.reg .rcx), -- 1541: adc r10, rcx
  .adc (.reg .r11) (.reg .rbx), -- 1542: adc r11, rbx
  .adc (.reg .r12) (.reg .rbp), -- 1543: adc r12, rbp
  .adc (.reg .r13) (.reg .rdi), -- 1544: adc r13, rdi
  .adc (.reg .r8) (.imm 0#64), -- 1545: adc r8, 0x0
  .cmov .nz .r14 (.reg .rax), -- 1546: cmovne r14, rax
  .cmov .nz .r15 (.reg .r9), -- 1547: cmovne r15, r9
  .cmov .nz .rcx (.reg .r10), -- 1548: cmovne rcx, r10
  .cmov .nz .rbx (.reg .r11), -- 1549: cmovne rbx, r11
  .cmov .nz .rbp (.reg .r12), -- 1550: cmovne rbp, r12
  .cmov .nz .rdi (.reg .r13), -- 1551: cmovne rdi, r13
  .mov (.mem ⟨some .rsp, none, 192#64⟩) (.reg .r14), -- 1552: mov [rsp + (48* 4)], r14
  .mov (.mem ⟨some .rsp, none, 200#64⟩) (.reg .r15), -- 1553: mov [rsp + (48* 4)+ 0x8], r15
  .mov (.mem ⟨some .rsp, none, 208#64⟩) (.reg .rcx), -- 1554: mov [rsp + (48* 4)+ 0x10], rcx
  .mov (.mem ⟨some .rsp, none, 216#64⟩) (.reg .rbx), -- 1555: mov [rsp + (48* 4)+ 0x18], rbx
  .mov (.mem ⟨some .rsp, none, 224#64⟩) (.reg .rbp), -- 1556: mov [rsp + (48* 4)+ 0x20], rbp
  .mov (.mem ⟨some .rsp, none, 232#64⟩) (.reg .rdi), -- 1557: mov [rsp + (48* 4)+ 0x28], rdi
  .mov (.reg .r8) (.imm 0xffffffff#64), -- 1558: mov r8, 0x00000000ffffffff
  .sub (.reg .r8) (.mem ⟨some .rsp, none, 288#64⟩), -- 1559: sub r8, [rsp + (48* 6)]
  .mov (.reg .r9) (.imm 0xffffffff00000000#64), -- 1560: mov r9, 0xffffffff00000000
  .sbb (.reg .r9) (.mem ⟨some .rsp, none, 296#64⟩), -- 1561: sbb r9, [rsp + (48* 6)+ 8]
  .mov (.reg .r10) (.imm 0xfffffffffffffffe#64), -- 1562: mov r10, 0xfffffffffffffffe
  .sbb (.reg .r10) (.mem ⟨some .rsp, none, 304#64⟩), -- 1563: sbb r10, [rsp + (48* 6)+ 16]
  .mov (.reg .r11) (.imm 0xffffffffffffffff#64), -- 1564: mov r11, 0xffffffffffffffff
  .sbb (.reg .r11) (.mem ⟨some .rsp, none, 312#64⟩), -- 1565: sbb r11, [rsp + (48* 6)+ 24]
  .mov (.reg .r12) (.imm 0xffffffffffffffff#64), -- 1566: mov r12, 0xffffffffffffffff
  .sbb (.reg .r12) (.mem ⟨some .rsp, none, 320#64⟩), -- 1567: sbb r12, [rsp + (48* 6)+ 32]
  .mov (.reg .r13) (.imm 0xffffffffffffffff#64), -- 1568: mov r13, 0xffffffffffffffff
  .sbb (.reg .r13) (.mem ⟨some .rsp, none, 328#64⟩), -- 1569: sbb r13, [rsp + (48* 6)+ 40]
  .mov (.reg .rdx) (.imm 9#64), -- 1570: mov rdx, 9
  .mulx .rax .r8 (.reg .r8), -- 1571: mulx rax, r8, r8
  .mulx .rcx .r9 (.reg .r9), -- 1572: mulx rcx, r9, r9
  .add (.reg .r9) (.reg .rax), -- 1573: add r9, rax
  .mulx .rax .r10 (.reg .r10), -- 1574: mulx rax, r10, r10
  .adc (.reg .r10) (.reg .rcx), -- 1575: adc r10, rcx
  .mulx .rcx .r11 (.reg .r11), -- 1576: mulx rcx, r11, r11
  .adc (.reg .r11) (.reg .rax), -- 1577: adc r11, rax
  .mulx .rax .r12 (.reg .r12), -- 1578: mulx rax, r12, r12
  .adc (.reg .r12) (.reg .rcx), -- 1579: adc r12, rcx
  .mulx .r14 .r13 (.reg .r13), -- 1580: mulx r14, r13, r13
  .adc (.reg .r13) (.reg .rax), -- 1581: adc r13, rax
  .adc (.reg .r14) (.imm 1#64), -- 1582: adc r14, 1
  .xor (.reg .rcx) (.reg .rcx), -- 1583: xor ecx, ecx
  .mov (.reg .rdx) (.imm 12#64), -- 1584: mov rdx, 12
  .mulx .rbx .rax (.mem ⟨some .rsp, none, 144#64⟩), -- 1585: mulx rbx, rax, [rsp + (48* 3)]
  .adcx .r8 (.reg .rax), -- 1586: adcx r8, rax
  .adox .r9 (.reg .rbx), -- 1587: adox r9, rbx
  .mulx .rbx .rax (.mem ⟨some .rsp, none, 152#64⟩), -- 1588: mulx rbx, rax, [rsp + (48* 3)+ 8]
  .adcx .r9 (.reg .rax), -- 1589: adcx r9, rax
  .adox .r10 (.reg .rbx), -- 1590: adox r10, rbx
  .mulx .rbx .rax (.mem ⟨some .rsp, none, 160#64⟩), -- 1591: mulx rbx, rax, [rsp + (48* 3)+ 16]
  .adcx .r10 (.reg .rax), -- 1592: adcx r10, rax
  .adox .r11 (.reg .rbx), -- 1593: adox r11, rbx
  .mulx .rbx .rax (.mem ⟨some .rsp, none, 168#64⟩), -- 1594: mulx rbx, rax, [rsp + (48* 3)+ 24]
  .adcx .r11 (.reg .rax), -- 1595: adcx r11, rax
  .adox .r12 (.reg .rbx), -- 1596: adox r12, rbx
  .mulx .rbx .rax (.mem ⟨some .rsp, none, 176#64⟩), -- 1597: mulx rbx, rax, [rsp + (48* 3)+ 32]
  .adcx .r12 (.reg .rax), -- 1598: adcx r12, rax
  .adox .r13 (.reg .rbx), -- 1599: adox r13, rbx
  .mulx .rdx .rax (.mem ⟨some .rsp, none, 184#64⟩), -- 1600: mulx rdx, rax, [rsp + (48* 3)+ 40]
  .adcx .r13 (.reg .rax), -- 1601: adcx r13, rax
  .adox .rdx (.reg .r14), -- 1602: adox rdx, r14
  .adcx .rdx (.reg .rcx), -- 1603: adcx rdx, rcx
  .xor (.reg .rcx) (.reg .rcx), -- 1604: xor rcx, rcx
  .mov (.reg .rax) (.imm 0xffffffff00000001#64), -- 1605: mov rax, 0xffffffff00000001
  .mulx .rcx .rax (.reg .rax), -- 1606: mulx rcx, rax, rax
  .adcx .r8 (.reg .rax), -- 1607: adcx r8, rax
  .adox .r9 (.reg .rcx), -- 1608: adox r9, rcx
  .mov (.reg .rax) (.imm 0xffffffff#64), -- 1609: mov eax, 0xffffffff
  .mulx .rcx .rax (.reg .rax), -- 1610: mulx rcx, rax, rax
  .adcx .r9 (.reg .rax), -- 1611: adcx r9, rax
  .adox .r10 (.reg .rcx), -- 1612: adox r10, rcx
  .adcx .r10 (.reg .rdx), -- 1613: adcx r10, rdx
  .mov (.reg .rax) (.imm 0#64), -- 1614: mov eax, 0x0
  .mov (.reg .rcx) (.imm 0#64), -- 1615: mov ecx, 0x0
  .adox .rax (.reg .rax), -- 1616: adox rax, rax
  .adc (.reg .r11) (.reg .rax), -- 1617: adc r11, rax
  .adc (.reg .r12) (.reg .rcx), -- 1618: adc r12, rcx
  .adc (.reg .r13) (.reg .rcx), -- 1619: adc r13, rcx
  .adc (.reg .rcx) (.reg .rcx), -- 1620: adc rcx, rcx
  .sub (.reg .rcx) (.imm 1#64), -- 1621: sub rcx, 0x1
  .mov (.reg .rdx) (.imm 0xffffffff#64), -- 1622: mov edx, 0xffffffff
  .xor (.reg .rax) (.reg .rax), -- 1623: xor rax, rax
  .and (.reg .rdx) (.reg .rcx), -- 1624: and rdx, rcx
  .sub (.reg .rax) (.reg .rdx), -- 1625: sub rax, rdx
  .and (.reg .rcx) (.imm 1#64), -- 1626: and rcx, 0x1
  .sub (.reg .r8) (.reg .rax), -- 1627: sub r8, rax
  .mov (.mem ⟨some .rsp, none, 288#64⟩) (.reg .r8), -- 1628: mov [rsp + (48* 6)], r8
  .sbb (.reg .r9) (.reg .rdx), -- 1629: sbb r9, rdx
  .mov (.mem ⟨some .rsp, none, 296#64⟩) (.reg .r9), -- 1630: mov [rsp + (48* 6)+ 0x8], r9
  .sbb (.reg .r10) (.reg .rcx), -- 1631: sbb r10, rcx
  .mov (.mem ⟨some .rsp, none, 304#64⟩) (.reg .r10), -- 1632: mov [rsp + (48* 6)+ 0x10], r10
  .sbb (.reg .r11) (.imm 0#64), -- 1633: sbb r11, 0x0
  .mov (.mem ⟨some .rsp, none, 312#64⟩) (.reg .r11), -- 1634: mov [rsp + (48* 6)+ 0x18], r11
  .sbb (.reg .r12) (.imm 0#64), -- 1635: sbb r12, 0x0
  .mov (.mem ⟨some .rsp, none, 320#64⟩) (.reg .r12), -- 1636: mov [rsp + (48* 6)+ 0x20], r12
  .sbb (.reg .r13) (.imm 0#64), -- 1637: sbb r13, 0x0
  .mov (.mem ⟨some .rsp, none, 328#64⟩) (.reg .r13), -- 1638: mov [rsp + (48* 6)+ 0x28], r13
  .mov (.reg .rax) (.mem ⟨some .rsp, none, 192#64⟩), -- 1639: mov rax, [rsp + (48* 4)]
  .sub (.reg .rax) (.mem ⟨some .rsp, none, 0#64⟩), -- 1640: sub rax, [rsp + (48* 0)]
  .mov (.reg .rdx) (.mem ⟨some .rsp, none, 200#64⟩), -- 1641: mov rdx, [rsp + (48* 4)+ 0x8]
  .sbb (.reg .rdx) (.mem ⟨some .rsp, none, 8#64⟩), -- 1642: sbb rdx, [rsp + (48* 0)+ 0x8]
  .mov (.reg .r8) (.mem ⟨some .rsp, none, 208#64⟩), -- 1643: mov r8, [rsp + (48* 4)+ 0x10]
  .sbb (.reg .r8) (.mem ⟨some .rsp, none, 16#64⟩), -- 1644: sbb r8, [rsp + (48* 0)+ 0x10]
  .mov (.reg .r9) (.mem ⟨some .rsp, none, 216#64⟩), -- 1645: mov r9, [rsp + (48* 4)+ 0x18]
  .sbb (.reg .r9) (.mem ⟨some .rsp, none, 24#64⟩), -- 1646: sbb r9, [rsp + (48* 0)+ 0x18]
  .mov (.reg .r10) (.mem ⟨some .rsp, none, 224#64⟩), -- 1647: mov r10, [rsp + (48* 4)+ 0x20]
  .sbb (.reg .r10) (.mem ⟨some .rsp, none, 32#64⟩), -- 1648: sbb r10, [rsp + (48* 0)+ 0x20]
  .mov (.reg .r11) (.mem ⟨some .rsp, none, 232#64⟩), -- 1649: mov r11, [rsp + (48* 4)+ 0x28]
  .sbb (.reg .r11) (.mem ⟨some .rsp, none, 40#64⟩), -- 1650: sbb r11, [rsp + (48* 0)+ 0x28]
  .sbb (.reg .rcx) (.reg .rcx), -- 1651: sbb rcx, rcx
  .mov (.reg .rbx) (.imm 0xffffffff#64), -- 1652: mov ebx, 0xffffffff
  .and (.reg .rcx) (.reg .rbx), -- 1653: and rcx, rbx
  .xor (.reg .rbx) (.reg .rbx), -- 1654: xor rbx, rbx
  .sub (.reg .rbx) (.reg .rcx), -- 1655: sub rbx, rcx
  .sub (.reg .rax) (.reg .rbx), -- 1656: sub rax, rbx
  .mov (.mem ⟨some .rsp, none, 240#64⟩) (.reg .rax), -- 1657: mov [rsp + (48* 5)], rax
  .sbb (.reg .rdx) (.reg .rcx), -- 1658: sbb rdx, rcx
  .mov (.mem ⟨some .rsp, none, 248#64⟩) (.reg .rdx), -- 1659: mov [rsp + (48* 5)+ 0x8], rdx
  .sbb (.reg .rax) (.reg .rax), -- 1660: sbb rax, rax
  .and (.reg .rcx) (.reg .rbx), -- 1661: and rcx, rbx
  .neg (.reg .rax), -- 1662: neg rax
  .sbb (.reg .r8) (.reg .rcx), -- 1663: sbb r8, rcx
  .mov (.mem ⟨some .rsp, none, 256#64⟩) (.reg .r8), -- 1664: mov [rsp + (48* 5)+ 0x10], r8
  .sbb (.reg .r9) (.imm 0#64), -- 1665: sbb r9, 0x0
  .mov (.mem ⟨some .rsp, none, 264#64⟩) (.reg .r9), -- 1666: mov [rsp + (48* 5)+ 0x18], r9
  .sbb (.reg .r10) (.imm 0#64), -- 1667: sbb r10, 0x0
  .mov (.mem ⟨some .rsp, none, 272#64⟩) (.reg .r10), -- 1668: mov [rsp + (48* 5)+ 0x20], r10
  .sbb (.reg .r11) (.imm 0#64), -- 1669: sbb r11, 0x0
  .mov (.mem ⟨some .rsp, none, 280#64⟩) (.reg .r11), -- 1670: mov [rsp + (48* 5)+ 0x28], r11
  .mov (.reg .rdx) (.mem ⟨some .rsp, none, 48#64⟩), -- 1671: mov rdx, [rsp + (48* 1)]
  .mulx .r10 .r9 (.mem ⟨some .rsp, none, 56#64⟩), -- 1672: mulx r10, r9, [rsp + (48* 1)+ 0x8]
  .mulx .r12 .r11 (.mem ⟨some .rsp, none, 72#64⟩), -- 1673: mulx r12, r11, [rsp + (48* 1)+ 0x18]
  .mulx .r14 .r13 (.mem ⟨some .rsp, none, 88#64⟩), -- 1674: mulx r14, r13, [rsp + (48* 1)+ 0x28]
  .mov (.reg .rdx) (.mem ⟨some .rsp, none, 72#64⟩), -- 1675: mov rdx, [rsp + (48* 1)+ 0x18]
  .mulx .rcx .r15 (.mem ⟨some .rsp, none, 80#64⟩), -- 1676: mulx rcx, r15, [rsp + (48* 1)+ 0x20]
  .xor (.reg .rbp) (.reg .rbp), -- 1677: xor ebp, ebp
  .mov (.reg .rdx) (.mem ⟨some .rsp, none, 64#64⟩), -- 1678: mov rdx, [rsp + (48* 1)+ 0x10]
  .mulx .rbx .rax (.mem ⟨some .rsp, none, 48#64⟩), -- 1679: mulx rbx, rax, [rsp + (48* 1)]
  .adcx .r10 (.reg .rax), -- 1680: adcx r10, rax
  .adox .r11 (.reg .rbx), -- 1681: adox r11, rbx
  .mulx .rbx .rax (.mem ⟨some .rsp, none, 56#64⟩), -- 1682: mulx rbx, rax, [rsp + (48* 1)+ 0x8]
  .adcx .r11 (.reg .rax), -- 1683: adcx r11, rax
  .adox .r12 (.reg .rbx), -- 1684: adox r12, rbx
  .mov (.reg .rdx) (.mem ⟨some .rsp, none, 56#64⟩), -- 1685: mov rdx, [rsp + (48* 1)+ 0x8]
  .mulx .rbx .rax (.mem ⟨some .rsp, none, 72#64⟩), -- 1686: mulx rbx, rax, [rsp + (48* 1)+ 0x18]
  .adcx .r12 (.reg .rax), -- 1687: adcx r12, rax
  .adox .r13 (.reg .rbx), -- 1688: adox r13, rbx
  .mulx .rbx .rax (.mem ⟨some .rsp, none, 80#64⟩), -- 1689: mulx rbx, rax, [rsp + (48* 1)+ 0x20]
  .adcx .r13 (.reg .rax), -- 1690: adcx r13, rax
  .adox .r14 (.reg .rbx), -- 1691: adox r14, rbx
  .mulx .rbx .rax (.mem ⟨some .rsp, none, 88#64⟩), -- 1692: mulx rbx, rax, [rsp + (48* 1)+ 0x28]
  .adcx .r14 (.reg .rax), -- 1693: adcx r14, rax
  .adox .r15 (.reg .rbx), -- 1694: adox r15, rbx
  .adcx .r15 (.reg .rbp), -- 1695: adcx r15, rbp
  .adox .rcx (.reg .rbp), -- 1696: adox rcx, rbp
  .adc (.reg .rcx) (.reg .rbp), -- 1697: adc rcx, rbp
  .xor (.reg .rbp) (.reg .rbp), -- 1698: xor ebp, ebp
  .mov (.reg .rdx) (.mem ⟨some .rsp, none, 80#64⟩), -- 1699: mov rdx, [rsp + (48* 1)+ 0x20]
  .mulx .rbx .rax (.mem ⟨some .rsp, none, 48#64⟩), -- 1700: mulx rbx, rax, [rsp + (48* 1)]
  .adcx .r12 (.reg .rax), -- 1701: adcx r12, rax
  .adox .r13 (.reg .rbx), -- 1702: adox r13, rbx
  .mov (.reg .rdx) (.mem ⟨some .rsp, none, 64#64⟩), -- 1703: mov rdx, [rsp + (48* 1)+ 0x10]
  .mulx .rbx .rax (.mem ⟨some .rsp, none, 72#64⟩), -- 1704: mulx rbx, rax, [rsp + (48* 1)+ 0x18]
  .adcx .r13 (.reg .rax), -- 1705: adcx r13, rax
  .adox .r14 (.reg .rbx), -- 1706: adox r14, rbx
  .mulx .rbx .rax (.mem ⟨some .rsp, none, 80#64⟩), -- 1707: mulx rbx, rax, [rsp + (48* 1)+ 0x20]
  .adcx .r14 (.reg .rax), -- 1708: adcx r14, rax
  .adox .r15 (.reg .rbx), -- 1709: adox r15, rbx
  .mulx .rdx .rax (.mem ⟨some .rsp, none, 88#64⟩), -- 1710: mulx rdx, rax, [rsp + (48* 1)+ 0x28]
  .adcx .r15 (.reg .rax), -- 1711: adcx r15, rax
  .adox .rcx (.reg .rdx), -- 1712: adox rcx, rdx
  .mov (.reg .rdx) (.mem ⟨some .rsp, none, 88#64⟩), -- 1713: mov rdx, [rsp + (48* 1)+ 0x28]
  .mulx .rbp .rbx (.mem ⟨some .rsp, none, 80#64⟩), -- 1714: mulx rbp, rbx, [rsp + (48* 1)+ 0x20]
  .mulx .rdx .rax (.mem ⟨some .rsp, none, 72#64⟩), -- 1715: mulx rdx, rax, [rsp + (48* 1)+ 0x18]
  .adcx .rcx (.reg .rax), -- 1716: adcx rcx, rax
  .adox .rbx (.reg .rdx), -- 1717: adox rbx, rdx
  .mov (.reg .rax) (.imm 0#64), -- 1718: mov eax, 0x0
  .adcx .rbx (.reg .rax), -- 1719: adcx rbx, rax
  .adox .rbp (.reg .rax), -- 1720: adox rbp, rax
  .adc (.reg .rbp) (.reg .rax), -- 1721: adc rbp, rax
  .xor (.reg .rax) (.reg .rax), -- 1722: xor rax, rax
  .mov (.reg .rdx) (.mem ⟨some .rsp, none, 48#64⟩), -- 1723: mov rdx, [rsp + (48* 1)]
  .mulx .rax .r8 (.mem ⟨some .rsp, none, 48#64⟩), -- 1724: mulx rax, r8, [rsp + (48* 1)]
  .adcx .r9 (.reg .r9), -- 1725: adcx r9, r9
  .adox .r9 (.reg .rax), -- 1726: adox r9, rax
  .mov (.reg .rdx) (.mem ⟨some .rsp, none, 56#64⟩), -- 1727: mov rdx, [rsp + (48* 1)+ 0x8]
  .mulx .rdx .rax (.reg .rdx), -- 1728: mulx rdx, rax, rdx
  .adcx .r10 (.reg .r10), -- 1729: adcx r10, r10
  .adox .r10 (.reg .rax), -- 1730: adox r10, rax
  .adcx .r11 (.reg .r11), -- 1731: adcx r11, r11
  .adox .r11 (.reg .rdx), -- 1732: adox r11, rdx
  .mov (.reg .rdx) (.mem ⟨some .rsp, none, 64#64⟩), -- 1733: mov rdx, [rsp + (48* 1)+ 0x10]
  .mulx .rdx .rax (.reg .rdx), -- 1734: mulx rdx, rax, rdx
  .adcx .r12 (.reg .r12), -- 1735: adcx r12, r12
  .adox .r12 (.reg .rax), -- 1736: adox r12, rax
  .adcx .r13 (.reg .r13), -- 1737: adcx r13, r13
  .adox .r13 (.reg .rdx), -- 1738: adox r13, rdx
  .mov (.reg .rdx) (.mem ⟨some .rsp, none, 72#64⟩), -- 1739: mov rdx, [rsp + (48* 1)+ 0x18]
  .mulx .rdx .rax (.reg .rdx), -- 1740: mulx rdx, rax, rdx
  .adcx .r14 (.reg .r14), -- 1741: adcx r14, r14
  .adox .r14 (.reg .rax), -- 1742: adox r14, rax
  .adcx .r15 (.reg .r15), -- 1743: adcx r15, r15
  .adox .r15 (.reg .rdx), -- 1744: adox r15, rdx
  .mov (.reg .rdx) (.mem ⟨some .rsp, none, 80#64⟩), -- 1745: mov rdx, [rsp + (48* 1)+ 0x20]
  .mulx .rdx .rax (.reg .rdx), -- 1746: mulx rdx, rax, rdx
  .adcx .rcx (.reg .rcx), -- 1747: adcx rcx, rcx
  .adox .rcx (.reg .rax), -- 1748: adox rcx, rax
  .adcx .rbx (.reg .rbx), -- 1749: adcx rbx, rbx
  .adox .rbx (.reg .rdx), -- 1750: adox rbx, rdx
  .mov (.reg .rdx) (.mem ⟨some .rsp, none, 88#64⟩), -- 1751: mov rdx, [rsp + (48* 1)+ 0x28]
  .mulx .rdi .rax (.reg .rdx), -- 1752: mulx rdi, rax, rdx
  .adcx .rbp (.reg .rbp), -- 1753: adcx rbp, rbp
  .adox .rbp (.reg .rax), -- 1754: adox rbp, rax
  .mov (.reg .rax) (.imm 0#64), -- 1755: mov eax, 0x0
  .adcx .rdi (.reg .rax), -- 1756: adcx rdi, rax
  .adox .rdi (.reg .rax), -- 1757: adox rdi, rax
  .mov (.mem ⟨some .rsp, none, 192#64⟩) (.reg .rbx), -- 1758: mov [rsp + (48* 4)], rbx
  .mov (.reg .rdx) (.reg .r8), -- 1759: mov rdx, r8
  .shl (.reg .rdx) (.imm 32#64), -- 1760: shl rdx, 0x20
  .add (.reg .rdx) (.reg .r8), -- 1761: add rdx, r8
  .mov (.reg .rax) (.imm 0xffffffff00000001#64), -- 1762: mov rax, 0xffffffff00000001
  .mulx .rax .r8 (.reg .rax), -- 1763: mulx rax, r8, rax
  .mov (.reg .rbx) (.imm 0xffffffff#64), -- 1764: mov ebx, 0xffffffff
  .mulx .r8 .rbx (.reg .rbx), -- 1765: mulx r8, rbx, rbx
  .add (.reg .rax) (.reg .rbx), -- 1766: add rax, rbx
  .adc (.reg .r8) (.reg .rdx), -- 1767: adc r8, rdx
  .mov (.reg .rbx) (.imm 0#64), -- 1768: mov ebx, 0x0
  .adc (.reg .rbx) (.reg .rbx), -- 1769: adc rbx, rbx
  .sub (.reg .r9) (.reg .rax), -- 1770: sub r9, rax
  .sbb (.reg .r10) (.reg .r8), -- 1771: sbb r10, r8
  .sbb (.reg .r11) (.reg .rbx), -- 1772: sbb r11, rbx
  .sbb (.reg .r12) (.imm 0#64), -- 1773: sbb r12, 0x0
  .sbb (.reg .r13) (.imm 0#64), -- 1774: sbb r13, 0x0
  .mov (.reg .r8) (.reg .rdx), -- 1775: mov r8, rdx
  .sbb (.reg .r8) (.imm 0#64), -- 1776: sbb r8, 0x0
  .mov (.reg .rdx) (.reg .r9), -- 1777: mov rdx, r9
  .shl (.reg .rdx) (.imm 32#64), -- 1778: shl rdx, 0x20
  .add (.reg .rdx) (.reg .r9), -- 1779: add rdx, r9
  .mov (.reg .rax) (.imm 0xffffffff00000001#64), -- 1780: mov rax, 0xffffffff00000001
  .mulx .rax .r9 (.reg .rax), -- 1781: mulx rax, r9, rax
  .mov (.reg .rbx) (.imm 0xffffffff#64), -- 1782: mov ebx, 0xffffffff
  .mulx .r9 .rbx (.reg .rbx), -- 1783: mulx r9, rbx, rbx
  .add (.reg .rax) (.reg .rbx), -- 1784: add rax, rbx
  .adc (.reg .r9) (.reg .rdx), -- 1785: adc r9, rdx
  .mov (.reg .rbx) (.imm 0#64), -- 1786: mov ebx, 0x0
  .adc (.reg .rbx) (.reg .rbx), -- 1787: adc rbx, rbx
  .sub (.reg .r10) (.reg .rax), -- 1788: sub r10, rax
  .sbb (.reg .r11) (.reg .r9), -- 1789: sbb r11, r9
  .sbb (.reg .r12) (.reg .rbx), -- 1790: sbb r12, rbx
  .sbb (.reg .r13) (.imm 0#64), -- 1791: sbb r13, 0x0
  .sbb (.reg .r8) (.imm 0#64), -- 1792: sbb r8, 0x0
  .mov (.reg .r9) (.reg .rdx), -- 1793: mov r9, rdx
  .sbb (.reg .r9) (.imm 0#64), -- 1794: sbb r9, 0x0
  .mov (.reg .rdx) (.reg .r10), -- 1795: mov rdx, r10
  .shl (.reg .rdx) (.imm 32#64), -- 1796: shl rdx, 0x20
  .add (.reg .rdx) (.reg .r10), -- 1797: add rdx, r10
  .mov (.reg .rax) (.imm 0xffffffff00000001#64), -- 1798: mov rax, 0xffffffff00000001
  .mulx .rax .r10 (.reg .rax), -- 1799: mulx rax, r10, rax
  .mov (.reg .rbx) (.imm 0xffffffff#64), -- 1800: mov ebx, 0xffffffff
  .mulx .r10 .rbx (.reg .rbx), -- 1801: mulx r10, rbx, rbx
  .add (.reg .rax) (.reg .rbx), -- 1802: add rax, rbx
  .adc (.reg .r10) (.reg .rdx), -- 1803: adc r10, rdx
  .mov (.reg .rbx) (.imm 0#64), -- 1804: mov ebx, 0x0
  .adc (.reg .rbx) (.reg .rbx), -- 1805: adc rbx, rbx
  .sub (.reg .r11) (.reg .rax), -- 1806: sub r11, rax
  .sbb (.reg .r12) (.reg .r10), -- 1807: sbb r12, r10
  .sbb (.reg .r13) (.reg .rbx), -- 1808: sbb r13, rbx
  .sbb (.reg .r8) (.imm 0#64), -- 1809: sbb r8, 0x0
  .sbb (.reg .r9) (.imm 0#64), -- 1810: sbb r9, 0x0
  .mov (.reg .r10) (.reg .rdx), -- 1811: mov r10, rdx
  .sbb (.reg .r10) (.imm 0#64), -- 1812: sbb r10, 0x0
  .mov (.reg .rdx) (.reg .r11), -- 1813: mov rdx, r11
  .shl (.reg .rdx) (.imm 32#64), -- 1814: shl rdx, 0x20
  .add (.reg .rdx) (.reg .r11), -- 1815: add rdx, r11
  .mov (.reg .rax) (.imm 0xffffffff00000001#64), -- 1816: mov rax, 0xffffffff00000001
  .mulx .rax .r11 (.reg .rax), -- 1817: mulx rax, r11, rax
  .mov (.reg .rbx) (.imm 0xffffffff#64), -- 1818: mov ebx, 0xffffffff
  .mulx .r11 .rbx (.reg .rbx), -- 1819: mulx r11, rbx, rbx
  .add (.reg .rax) (.reg .rbx), -- 1820: add rax, rbx
  .adc (.reg .r11) (.reg .rdx), -- 1821: adc r11, rdx
  .mov (.reg .rbx) (.imm 0#64), -- 1822: mov ebx, 0x0
  .adc (.reg .rbx) (.reg .rbx), -- 1823: adc rbx, rbx
  .sub (.reg .r12) (.reg .rax), -- 1824: sub r12, rax
  .sbb (.reg .r13) (.reg .r11), -- 1825: sbb r13, r11
  .sbb (.reg .r8) (.reg .rbx), -- 1826: sbb r8, rbx
  .sbb (.reg .r9) (.imm 0#64), -- 1827: sbb r9, 0x0
  .sbb (.reg .r10) (.imm 0#64), -- 1828: sbb r10, 0x0
  .mov (.reg .r11) (.reg .rdx), -- 1829: mov r11, rdx
  .sbb (.reg .r11) (.imm 0#64), -- 1830: sbb r11, 0x0
  .mov (.reg .rdx) (.reg .r12), -- 1831: mov rdx, r12
  .shl (.reg .rdx) (.imm 32#64), -- 1832: shl rdx, 0x20
  .add (.reg .rdx) (.reg .r12), -- 1833: add rdx, r12
  .mov (.reg .rax) (.imm 0xffffffff00000001#64), -- 1834: mov rax, 0xffffffff00000001
  .mulx .rax .r12 (.reg .rax), -- 1835: mulx rax, r12, rax
  .mov (.reg .rbx) (.imm 0xffffffff#64), -- 1836: mov ebx, 0xffffffff
  .mulx .r12 .rbx (.reg .rbx), -- 1837: mulx r12, rbx, rbx
  .add (.reg .rax) (.reg .rbx), -- 1838: add rax, rbx
  .adc (.reg .r12) (.reg .rdx), -- 1839: adc r12, rdx
  .mov (.reg .rbx) (.imm 0#64), -- 1840: mov ebx, 0x0
  .adc (.reg .rbx) (.reg .rbx), -- 1841: adc rbx, rbx
  .sub (.reg .r13) (.reg .rax), -- 1842: sub r13, rax
  .sbb (.reg .r8) (.reg .r12), -- 1843: sbb r8, r12
  .sbb (.reg .r9) (.reg .rbx), -- 1844: sbb r9, rbx
  .sbb (.reg .r10) (.imm 0#64), -- 1845: sbb r10, 0x0
  .sbb (.reg .r11) (.imm 0#64), -- 1846: sbb r11, 0x0
  .mov (.reg .r12) (.reg .rdx), -- 1847: mov r12, rdx
  .sbb (.reg .r12) (.imm 0#64), -- 1848: sbb r12, 0x0
  .mov (.reg .rdx) (.reg .r13), -- 1849: mov rdx, r13
  .shl (.reg .rdx) (.imm 32#64), -- 1850: shl rdx, 0x20
  .add (.reg .rdx) (.reg .r13), -- 1851: add rdx, r13
  .mov (.reg .rax) (.imm 0xffffffff00000001#64), -- 1852: mov rax, 0xffffffff00000001
  .mulx .rax .r13 (.reg .rax), -- 1853: mulx rax, r13, rax
  .mov (.reg .rbx) (.imm 0xffffffff#64), -- 1854: mov ebx, 0xffffffff
  .mulx .r13 .rbx (.reg .rbx), -- 1855: mulx r13, rbx, rbx
  .add (.reg .rax) (.reg .rbx), -- 1856: add rax, rbx
  .adc (.reg .r13) (.reg .rdx), -- 1857: adc r13, rdx
  .mov (.reg .rbx) (.imm 0#64), -- 1858: mov ebx, 0x0
  .adc (.reg .rbx) (.reg .rbx), -- 1859: adc rbx, rbx
  .sub (.reg .r8) (.reg .rax), -- 1860: sub r8, rax
  .sbb (.reg .r9) (.reg .r13), -- 1861: sbb r9, r13
  .sbb (.reg .r10) (.reg .rbx), -- 1862: sbb r10, rbx
  .sbb (.reg .r11) (.imm 0#64), -- 1863: sbb r11, 0x0
  .sbb (.reg .r12) (.imm 0#64), -- 1864: sbb r12, 0x0
  .mov (.reg .r13) (.reg .rdx), -- 1865: mov r13, rdx
  .sbb (.reg .r13) (.imm 0#64), -- 1866: sbb r13, 0x0
  .mov (.reg .rbx) (.mem ⟨some .rsp, none, 192#64⟩), -- 1867: mov rbx, [rsp + (48* 4)]
  .add (.reg .r14) (.reg .r8), -- 1868: add r14, r8
  .adc (.reg .r15) (.reg .r9), -- 1869: adc r15, r9
  .adc (.reg .rcx) (.reg .r10), -- 1870: adc rcx, r10
  .adc (.reg .rbx) (.reg .r11), -- 1871: adc rbx, r11
  .adc (.reg .rbp) (.reg .r12), -- 1872: adc rbp, r12
  .adc (.reg .rdi) (.reg .r13), -- 1873: adc rdi, r13
  .mov (.reg .r8) (.imm 0#64), -- 1874: mov r8d, 0x0
  .adc (.reg .r8) (.reg .r8), -- 1875: adc r8, r8
  .xor (.reg .r11) (.reg .r11), -- 1876: xor r11, r11
  .xor (.reg .r12) (.reg .r12), -- 1877: xor r12, r12
  .xor (.reg .r13) (.reg .r13), -- 1878: xor r13, r13
  .mov (.reg .rax) (.imm 0xffffffff00000001#64), -- 1879: mov rax, 0xffffffff00000001
  .add (.reg .rax) (.reg .r14), -- 1880: add rax, r14
  .mov (.reg .r9) (.imm 0xffffffff#64), -- 1881: mov r9d, 0xffffffff
  .adc (.reg .r9) (.reg .r15), -- 1882: adc r9, r15
  .mov (.reg .r10) (.imm 1#64), -- 1883: mov r10d, 0x1
  .adc (.reg .r10) (.reg .rcx), -- 1884: adc r10, rcx
  .adc (.reg .r11) (.reg .rbx), -- 1885: adc r11, rbx
  .adc (.reg .r12) (.reg .rbp), -- 1886: adc r12, rbp
  .adc (.reg .r13) (.reg .rdi), -- 1887: adc r13, rdi
  .adc (.reg .r8) (.imm 0#64), -- 1888: adc r8, 0x0
  .cmov .nz .r14 (.reg .rax), -- 1889: cmovne r14, rax
  .cmov .nz .r15 (.reg .r9), -- 1890: cmovne r15, r9
  .cmov .nz .rcx (.reg .r10), -- 1891: cmovne rcx, r10
  .cmov .nz .rbx (.reg .r11), -- 1892: cmovne rbx, r11
  .cmov .nz .rbp (.reg .r12), -- 1893: cmovne rbp, r12
  .cmov .nz .rdi (.reg .r13), -- 1894: cmovne rdi, r13
  .mov (.mem ⟨some .rsp, none, 192#64⟩) (.reg .r14), -- 1895: mov [rsp + (48* 4)], r14
  .mov (.mem ⟨some .rsp, none, 200#64⟩) (.reg .r15), -- 1896: mov [rsp + (48* 4)+ 0x8], r15
  .mov (.mem ⟨some .rsp, none, 208#64⟩) (.reg .rcx), -- 1897: mov [rsp + (48* 4)+ 0x10], rcx
  .mov (.mem ⟨some .rsp, none, 216#64⟩) (.reg .rbx), -- 1898: mov [rsp + (48* 4)+ 0x18], rbx
  .mov (.mem ⟨some .rsp, none, 224#64⟩) (.reg .rbp), -- 1899: mov [rsp + (48* 4)+ 0x20], rbp
  .mov (.mem ⟨some .rsp, none, 232#64⟩) (.reg .rdi), -- 1900: mov [rsp + (48* 4)+ 0x28], rdi
  .mov (.reg .rdi) (.mem ⟨some .rsp, none, 336#64⟩), -- 1901: mov rdi, [rsp + (48* 7)]
  .mov (.reg .rax) (.mem ⟨some .rsp, none, 240#64⟩), -- 1902: mov rax, [rsp + (48* 5)]
  .sub (.reg .rax) (.mem ⟨some .rsp, none, 48#64⟩), -- 1903: sub rax, [rsp + (48* 1)]
  .mov (.reg .rdx) (.mem ⟨some .rsp, none, 248#64⟩), -- 1904: mov rdx, [rsp + (48* 5)+ 0x8]
  .sbb (.reg .rdx) (.mem ⟨some .rsp, none, 56#64⟩), -- 1905: sbb rdx, [rsp + (48* 1)+ 0x8]
  .mov (.reg .r8) (.mem ⟨some .rsp, none, 256#64⟩), -- 1906: mov r8, [rsp + (48* 5)+ 0x10]
  .sbb (.reg .r8) (.mem ⟨some .rsp, none, 64#64⟩), -- 1907: sbb r8, [rsp + (48* 1)+ 0x10]
  .mov (.reg .r9) (.mem ⟨some .rsp, none, 264#64⟩), -- 1908: mov r9, [rsp + (48* 5)+ 0x18]
  .sbb (.reg .r9) (.mem ⟨some .rsp, none, 72#64⟩), -- 1909: sbb r9, [rsp + (48* 1)+ 0x18]
  .mov (.reg .r10) (.mem ⟨some .rsp, none, 272#64⟩), -- 1910: mov r10, [rsp + (48* 5)+ 0x20]
  .sbb (.reg .r10) (.mem ⟨some .rsp, none, 80#64⟩), -- 1911: sbb r10, [rsp + (48* 1)+ 0x20]
  .mov (.reg .r11) (.mem ⟨some .rsp, none, 280#64⟩), -- 1912: mov r11, [rsp + (48* 5)+ 0x28]
  .sbb (.reg .r11) (.mem ⟨some .rsp, none, 88#64⟩), -- 1913: sbb r11, [rsp + (48* 1)+ 0x28]
  .sbb (.reg .rcx) (.reg .rcx), -- 1914: sbb rcx, rcx
  .mov (.reg .rbx) (.imm 0xffffffff#64), -- 1915: mov ebx, 0xffffffff
  .and (.reg .rcx) (.reg .rbx), -- 1916: and rcx, rbx
  .xor (.reg .rbx) (.reg .rbx), -- 1917: xor rbx, rbx
  .sub (.reg .rbx) (.reg .rcx), -- 1918: sub rbx, rcx
  .sub (.reg .rax) (.reg .rbx), -- 1919: sub rax, rbx
  .mov (.mem ⟨some .rdi, none, 96#64⟩) (.reg .rax), -- 1920: mov [rdi + (2 * 48)], rax
  .sbb (.reg .rdx) (.reg .rcx), -- 1921: sbb rdx, rcx
  .mov (.mem ⟨some .rdi, none, 104#64⟩) (.reg .rdx), -- 1922: mov [rdi + (2 * 48)+ 0x8], rdx
  .sbb (.reg .rax) (.reg .rax), -- 1923: sbb rax, rax
  .and (.reg .rcx) (.reg .rbx), -- 1924: and rcx, rbx
  .neg (.reg .rax), -- 1925: neg rax
  .sbb (.reg .r8) (.reg .rcx), -- 1926: sbb r8, rcx
  .mov (.mem ⟨some .rdi, none, 112#64⟩) (.reg .r8), -- 1927: mov [rdi + (2 * 48)+ 0x10], r8
  .sbb (.reg .r9) (.imm 0#64), -- 1928: sbb r9, 0x0
  .mov (.mem ⟨some .rdi, none, 120#64⟩) (.reg .r9), -- 1929: mov [rdi + (2 * 48)+ 0x18], r9
  .sbb (.reg .r10) (.imm 0#64), -- 1930: sbb r10, 0x0
  .mov (.mem ⟨some .rdi, none, 128#64⟩) (.reg .r10), -- 1931: mov [rdi + (2 * 48)+ 0x20], r10
  .sbb (.reg .r11) (.imm 0#64), -- 1932: sbb r11, 0x0
  .mov (.mem ⟨some .rdi, none, 136#64⟩) (.reg .r11), -- 1933: mov [rdi + (2 * 48)+ 0x28], r11
  .mov (.reg .rdx) (.mem ⟨some .rsp, none, 96#64⟩), -- 1934: mov rdx, [rsp + (48* 2)]
  .xor (.reg .r15) (.reg .r15), -- 1935: xor r15d, r15d
  .mulx .r9 .r8 (.mem ⟨some .rsp, none, 288#64⟩), -- 1936: mulx r9, r8, [rsp + (48* 6)]
  .mulx .r10 .rbx (.mem ⟨some .rsp, none, 296#64⟩), -- 1937: mulx r10, rbx, [rsp + (48* 6)+ 0x8]
  .add (.reg .r9) (.reg .rbx), -- 1938: add r9, rbx
  .mulx .r11 .rbx (.mem ⟨some .rsp, none, 304#64⟩), -- 1939: mulx r11, rbx, [rsp + (48* 6)+ 0x10]
  .adc (.reg .r10) (.reg .rbx), -- 1940: adc r10, rbx
  .mulx .r12 .rbx (.mem ⟨some .rsp, none, 312#64⟩), -- 1941: mulx r12, rbx, [rsp + (48* 6)+ 0x18]
  .adc (.reg .r11) (.reg .rbx), -- 1942: adc r11, rbx
  .mulx .r13 .rbx (.mem ⟨some .rsp, none, 320#64⟩), -- 1943: mulx r13, rbx, [rsp + (48* 6)+ 0x20]
  .adc (.reg .r12) (.reg .rbx), -- 1944: adc r12, rbx
  .mulx .r14 .rbx (.mem ⟨some .rsp, none, 328#64⟩), -- 1945: mulx r14, rbx, [rsp + (48* 6)+ 0x28]
  .adc (.reg .r13) (.reg .rbx), -- 1946: adc r13, rbx
  .adc (.reg .r14) (.reg .r15), -- 1947: adc r14, r15
  .mov (.reg .rdx) (.reg .r8), -- 1948: mov rdx, r8
  .shl (.reg .rdx) (.imm 32#64), -- 1949: shl rdx, 0x20
  .add (.reg .rdx) (.reg .r8), -- 1950: add rdx, r8
  .xor (.reg .rbp) (.reg .rbp), -- 1951: xor ebp, ebp
  .mov (.reg .rax) (.imm 0xffffffff00000001#64), -- 1952: mov rax, 0xffffffff00000001
  .mulx .rax .rbx (.reg .rax), -- 1953: mulx rax, rbx, rax
  .mov (.reg .rbx) (.imm 0xffffffff#64), -- 1954: mov ebx, 0xffffffff
  .mulx .rbx .r8 (.reg .rbx), -- 1955: mulx rbx, r8, rbx
  .adc (.reg .rax) (.reg .r8), -- 1956: adc rax, r8
  .adc (.reg .rbx) (.reg .rdx), -- 1957: adc rbx, rdx
  .adc32 .rbp .rbp, -- 1958: adc ebp, ebp
  .sub (.reg .r9) (.reg .rax), -- 1959: sub r9, rax
  .sbb (.reg .r10) (.reg .rbx), -- 1960: sbb r10, rbx
  .sbb (.reg .r11) (.reg .rbp), -- 1961: sbb r11, rbp
  .sbb (.reg .r12) (.imm 0#64), -- 1962: sbb r12, 0x0
  .sbb (.reg .r13) (.imm 0#64), -- 1963: sbb r13, 0x0
  .sbb (.reg .rdx) (.imm 0#64), -- 1964: sbb rdx, 0x0
  .add (.reg .r14) (.reg .rdx), -- 1965: add r14, rdx
  .adc (.reg .r15) (.imm 0#64), -- 1966: adc r15, 0x0
  .mov (.reg .rdx) (.mem ⟨some .rsp, none, 104#64⟩), -- 1967: mov rdx, [rsp + (48* 2)+ 0x8]
  .xor (.reg .r8) (.reg .r8), -- 1968: xor r8d, r8d
  .mulx .rbx .rax (.mem ⟨some .rsp, none, 288#64⟩), -- 1969: mulx rbx, rax, [rsp + (48* 6)]
  .adcx .r9 (.reg .rax), -- 1970: adcx r9, rax
  .adox .r10 (.reg .rbx), -- 1971: adox r10, rbx
  .mulx .rbx .rax (.mem ⟨some .rsp, none, 296#64⟩), -- 1972: mulx rbx, rax, [rsp + (48* 6)+ 0x8]
  .adcx .r10 (.reg .rax), -- 1973: adcx r10, rax
  .adox .r11 (.reg .rbx), -- 1974: adox r11, rbx
  .mulx .rbx .rax (.mem ⟨some .rsp, none, 304#64⟩), -- 1975: mulx rbx, rax, [rsp + (48* 6)+ 0x10]
  .adcx .r11 (.reg .rax), -- 1976: adcx r11, rax
  .adox .r12 (.reg .rbx), -- 1977: adox r12, rbx
  .mulx .rbx .rax (.mem ⟨some .rsp, none, 312#64⟩), -- 1978: mulx rbx, rax, [rsp + (48* 6)+ 0x18]
  .adcx .r12 (.reg .rax), -- 1979: adcx r12, rax
  .adox .r13 (.reg .rbx), -- 1980: adox r13, rbx
  .mulx .rbx .rax (.mem ⟨some .rsp, none, 320#64⟩), -- 1981: mulx rbx, rax, [rsp + (48* 6)+ 0x20]
  .adcx .r13 (.reg .rax), -- 1982: adcx r13, rax
  .adox .r14 (.reg .rbx), -- 1983: adox r14, rbx
  .adox .r15 (.reg .r8), -- 1984: adox r15, r8
  .mulx .rbx .rax (.mem ⟨some .rsp, none, 328#64⟩), -- 1985: mulx rbx, rax, [rsp + (48* 6)+ 0x28]
  .adc (.reg .r14) (.reg .rax), -- 1986: adc r14, rax
  .adc (.reg .r15) (.reg .rbx), -- 1987: adc r15, rbx
  .adc (.reg .r8) (.reg .r8), -- 1988: adc r8, r8
  .mov (.reg .rdx) (.reg .r9), -- 1989: mov rdx, r9
  .shl (.reg .rdx) (.imm 32#64), -- 1990: shl rdx, 0x20
  .add (.reg .rdx) (.reg .r9), -- 1991: add rdx, r9
  .xor (.reg .rbp) (.reg .rbp), -- 1992: xor ebp, ebp
  .mov (.reg .rax) (.imm 0xffffffff00000001#64), -- 1993: mov rax, 0xffffffff00000001
  .mulx .rax .rbx (.reg .rax), -- 1994: mulx rax, rbx, rax
  .mov (.reg .rbx) (.imm 0xffffffff#64), -- 1995: mov ebx, 0xffffffff
  .mulx .rbx .r9 (.reg .rbx), -- 1996: mulx rbx, r9, rbx
  .adc (.reg .rax) (.reg .r9), -- 1997: adc rax, r9
  .adc (.reg .rbx) (.reg .rdx), -- 1998: adc rbx, rdx
  .adc32 .rbp .rbp, -- 1999: adc ebp, ebp
  .sub (.reg .r10) (.reg .rax), -- 2000: sub r10, rax
  .sbb (.reg .r11) (.reg .rbx), -- 2001: sbb r11, rbx
  .sbb (.reg .r12) (.reg .rbp), -- 2002: sbb r12, rbp
  .sbb (.reg .r13) (.imm 0#64), -- 2003: sbb r13, 0x0
  .sbb (.reg .r14) (.imm 0#64), -- 2004: sbb r14, 0x0
  .sbb (.reg .rdx) (.imm 0#64), -- 2005: sbb rdx, 0x0
  .add (.reg .r15) (.reg .rdx), -- 2006: add r15, rdx
  .adc (.reg .r8) (.imm 0#64), -- 2007: adc r8, 0x0
  .mov (.reg .rdx) (.mem ⟨some .rsp, none, 112#64⟩), -- 2008: mov rdx, [rsp + (48* 2)+ 0x10]
  .xor (.reg .r9) (.reg .r9), -- 2009: xor r9d, r9d
  .mulx .rbx .rax (.mem ⟨some .rsp, none, 288#64⟩), -- 2010: mulx rbx, rax, [rsp + (48* 6)]
  .adcx .r10 (.reg .rax), -- 2011: adcx r10, rax
  .adox .r11 (.reg .rbx), -- 2012: adox r11, rbx
  .mulx .rbx .rax (.mem ⟨some .rsp, none, 296#64⟩), -- 2013: mulx rbx, rax, [rsp + (48* 6)+ 0x8]
  .adcx .r11 (.reg .rax), -- 2014: adcx r11, rax
  .adox .r12 (.reg .rbx), -- 2015: adox r12, rbx
  .mulx .rbx .rax (.mem ⟨some .rsp, none, 304#64⟩), -- 2016: mulx rbx, rax, [rsp + (48* 6)+ 0x10]
  .adcx .r12 (.reg .rax), -- 2017: adcx r12, rax
  .adox .r13 (.reg .rbx), -- 2018: adox r13, rbx
  .mulx .rbx .rax (.mem ⟨some .rsp, none, 312#64⟩), -- 2019: mulx rbx, rax, [rsp + (48* 6)+ 0x18]
  .adcx .r13 (.reg .rax), -- 2020: adcx r13, rax
  .adox .r14 (.reg .rbx), -- 2021: adox r14, rbx
  .mulx .rbx .rax (.mem ⟨some .rsp, none, 320#64⟩), -- 2022: mulx rbx, rax, [rsp + (48* 6)+ 0x20]
  .adcx .r14 (.reg .rax), -- 2023: adcx r14, rax
  .adox .r15 (.reg .rbx), -- 2024: adox r15, rbx
  .adox .r8 (.reg .r9), -- 2025: adox r8, r9
  .mulx .rbx .rax (.mem ⟨some .rsp, none, 328#64⟩), -- 2026: mulx rbx, rax, [rsp + (48* 6)+ 0x28]
  .adc (.reg .r15) (.reg .rax), -- 2027: adc r15, rax
  .adc (.reg .r8) (.reg .rbx), -- 2028: adc r8, rbx
  .adc (.reg .r9) (.reg .r9), -- 2029: adc r9, r9
  .mov (.reg .rdx) (.reg .r10), -- 2030: mov rdx, r10
  .shl (.reg .rdx) (.imm 32#64), -- 2031: shl rdx, 0x20
  .add (.reg .rdx) (.reg .r10), -- 2032: add rdx, r10
  .xor (.reg .rbp) (.reg .rbp), -- 2033: xor ebp, ebp
  .mov (.reg .rax) (.imm 0xffffffff00000001#64), -- 2034: mov rax, 0xffffffff00000001
  .mulx .rax .rbx (.reg .rax), -- 2035: mulx rax, rbx, rax
  .mov (.reg .rbx) (.imm 0xffffffff#64), -- 2036: mov ebx, 0xffffffff
  .mulx .rbx .r10 (.reg .rbx), -- 2037: mulx rbx, r10, rbx
  .adc (.reg .rax) (.reg .r10), -- 2038: adc rax, r10
  .adc (.reg .rbx) (.reg .rdx), -- 2039: adc rbx, rdx
  .adc32 .rbp .rbp, -- 2040: adc ebp, ebp
  .sub (.reg .r11) (.reg .rax), -- 2041: sub r11, rax
  .sbb (.reg .r12) (.reg .rbx), -- 2042: sbb r12, rbx
  .sbb (.reg .r13) (.reg .rbp), -- 2043: sbb r13, rbp
  .sbb (.reg .r14) (.imm 0#64), -- 2044: sbb r14, 0x0
  .sbb (.reg .r15) (.imm 0#64), -- 2045: sbb r15, 0x0
  .sbb (.reg .rdx) (.imm 0#64), -- 2046: sbb rdx, 0x0
  .add (.reg .r8) (.reg .rdx), -- 2047: add r8, rdx
  .adc (.reg .r9) (.imm 0#64), -- 2048: adc r9, 0x0
  .mov (.reg .rdx) (.mem ⟨some .rsp, none, 120#64⟩), -- 2049: mov rdx, [rsp + (48* 2)+ 0x18]
  .xor (.reg .r10) (.reg .r10), -- 2050: xor r10d, r10d
  .mulx .rbx .rax (.mem ⟨some .rsp, none, 288#64⟩), -- 2051: mulx rbx, rax, [rsp + (48* 6)]
  .adcx .r11 (.reg .rax), -- 2052: adcx r11, rax
  .adox .r12 (.reg .rbx), -- 2053: adox r12, rbx
  .mulx .rbx .rax (.mem ⟨some .rsp, none, 296#64⟩), -- 2054: mulx rbx, rax, [rsp + (48* 6)+ 0x8]
  .adcx .r12 (.reg .rax), -- 2055: adcx r12, rax
  .adox .r13 (.reg .rbx), -- 2056: adox r13, rbx
  .mulx .rbx .rax (.mem ⟨some .rsp, none, 304#64⟩), -- 2057: mulx rbx, rax, [rsp + (48* 6)+ 0x10]
  .adcx .r13 (.reg .rax), -- 2058: adcx r13, rax
  .adox .r14 (.reg .rbx), -- 2059: adox r14, rbx
  .mulx .rbx .rax (.mem ⟨some .rsp, none, 312#64⟩), -- 2060: mulx rbx, rax, [rsp + (48* 6)+ 0x18]
  .adcx .r14 (.reg .rax), -- 2061: adcx r14, rax
  .adox .r15 (.reg .rbx), -- 2062: adox r15, rbx
  .mulx .rbx .rax (.mem ⟨some .rsp, none, 320#64⟩), -- 2063: mulx rbx, rax, [rsp + (48* 6)+ 0x20]
  .adcx .r15 (.reg .rax), -- 2064: adcx r15, rax
  .adox .r8 (.reg .rbx), -- 2065: adox r8, rbx
  .adox .r9 (.reg .r10), -- 2066: adox r9, r10
  .mulx .rbx .rax (.mem ⟨some .rsp, none, 328#64⟩), -- 2067: mulx rbx, rax, [rsp + (48* 6)+ 0x28]
  .adc (.reg .r8) (.reg .rax), -- 2068: adc r8, rax
  .adc (.reg .r9) (.reg .rbx), -- 2069: adc r9, rbx
  .adc (.reg .r10) (.reg .r10), -- 2070: adc r10, r10
  .mov (.reg .rdx) (.reg .r11), -- 2071: mov rdx, r11
  .shl (.reg .rdx) (.imm 32#64), -- 2072: shl rdx, 0x20
  .add (.reg .rdx) (.reg .r11), -- 2073: add rdx, r11
  .xor (.reg .rbp) (.reg .rbp), -- 2074: xor ebp, ebp
  .mov (.reg .rax) (.imm 0xffffffff00000001#64), -- 2075: mov rax, 0xffffffff00000001
  .mulx .rax .rbx (.reg .rax), -- 2076: mulx rax, rbx, rax
  .mov (.reg .rbx) (.imm 0xffffffff#64), -- 2077: mov ebx, 0xffffffff
  .mulx .rbx .r11 (.reg .rbx), -- 2078: mulx rbx, r11, rbx
  .adc (.reg .rax) (.reg .r11), -- 2079: adc rax, r11
  .adc (.reg .rbx) (.reg .rdx), -- 2080: adc rbx, rdx
  .adc32 .rbp .rbp, -- 2081: adc ebp, ebp
  .sub (.reg .r12) (.reg .rax), -- 2082: sub r12, rax
  .sbb (.reg .r13) (.reg .rbx), -- 2083: sbb r13, rbx
  .sbb (.reg .r14) (.reg .rbp), -- 2084: sbb r14, rbp
  .sbb (.reg .r15) (.imm 0#64), -- 2085: sbb r15, 0x0
  .sbb (.reg .r8) (.imm 0#64), -- 2086: sbb r8, 0x0
  .sbb (.reg .rdx) (.imm 0#64), -- 2087: sbb rdx, 0x0
  .add (.reg .r9) (.reg .rdx), -- 2088: add r9, rdx
  .adc (.reg .r10) (.imm 0#64), -- 2089: adc r10, 0x0
  .mov (.reg .rdx) (.mem ⟨some .rsp, none, 128#64⟩), -- 2090: mov rdx, [rsp + (48* 2)+ 0x20]
  .xor (.reg .r11) (.reg .r11), -- 2091: xor r11d, r11d
  .mulx .rbx .rax (.mem ⟨some .rsp, none, 288#64⟩), -- 2092: mulx rbx, rax, [rsp + (48* 6)]
  .adcx .r12 (.reg .rax), -- 2093: adcx r12, rax
  .adox .r13 (.reg .rbx), -- 2094: adox r13, rbx
  .mulx .rbx .rax (.mem ⟨some .rsp, none, 296#64⟩), -- 2095: mulx rbx, rax, [rsp + (48* 6)+ 0x8]
  .adcx .r13 (.reg .rax), -- 2096: adcx r13, rax
  .adox .r14 (.reg .rbx), -- 2097: adox r14, rbx
  .mulx .rbx .rax (.mem ⟨some .rsp, none, 304#64⟩), -- 2098: mulx rbx, rax, [rsp + (48* 6)+ 0x10]
  .adcx .r14 (.reg .rax), -- 2099: adcx r14, rax
  .adox .r15 (.reg .rbx), -- 2100: adox r15, rbx
  .mulx .rbx .rax (.mem ⟨some .rsp, none, 312#64⟩), -- 2101: mulx rbx, rax, [rsp + (48* 6)+ 0x18]
  .adcx .r15 (.reg .rax), -- 2102: adcx r15, rax
  .adox .r8 (.reg .rbx), -- 2103: adox r8, rbx
  .mulx .rbx .rax (.mem ⟨some .rsp, none, 320#64⟩), -- 2104: mulx rbx, rax, [rsp + (48* 6)+ 0x20]
  .adcx .r8 (.reg .rax), -- 2105: adcx r8, rax
  .adox .r9 (.reg .rbx), -- 2106: adox r9, rbx
  .adox .r10 (.reg .r11), -- 2107: adox r10, r11
  .mulx .rbx .rax (.mem ⟨some .rsp, none, 328#64⟩), -- 2108: mulx rbx, rax, [rsp + (48* 6)+ 0x28]
  .adc (.reg .r9) (.reg .rax), -- 2109: adc r9, rax
  .adc (.reg .r10) (.reg .rbx), -- 2110: adc r10, rbx
  .adc (.reg .r11) (.reg .r11), -- 2111: adc r11, r11
  .mov (.reg .rdx) (.reg .r12), -- 2112: mov rdx, r12
  .shl (.reg .rdx) (.imm 32#64), -- 2113: shl rdx, 0x20
  .add (.reg .rdx) (.reg .r12), -- 2114: add rdx, r12
  .xor (.reg .rbp) (.reg .rbp), -- 2115: xor ebp, ebp
  .mov (.reg .rax) (.imm 0xffffffff00000001#64), -- 2116: mov rax, 0xffffffff00000001
  .mulx .rax .rbx (.reg .rax), -- 2117: mulx rax, rbx, rax
  .mov (.reg .rbx) (.imm 0xffffffff#64), -- 2118: mov ebx, 0xffffffff
  .mulx .rbx .r12 (.reg .rbx), -- 2119: mulx rbx, r12, rbx
  .adc (.reg .rax) (.reg .r12), -- 2120: adc rax, r12
  .adc (.reg .rbx) (.reg .rdx), -- 2121: adc rbx, rdx
  .adc32 .rbp .rbp, -- 2122: adc ebp, ebp
  .sub (.reg .r13) (.reg .rax), -- 2123: sub r13, rax
  .sbb (.reg .r14) (.reg .rbx), -- 2124: sbb r14, rbx
  .sbb (.reg .r15) (.reg .rbp), -- 2125: sbb r15, rbp
  .sbb (.reg .r8) (.imm 0#64), -- 2126: sbb r8, 0x0
  .sbb (.reg .r9) (.imm 0#64), -- 2127: sbb r9, 0x0
  .sbb (.reg .rdx) (.imm 0#64), -- 2128: sbb rdx, 0x0
  .add (.reg .r10) (.reg .rdx), -- 2129: add r10, rdx
  .adc (.reg .r11) (.imm 0#64), -- 2130: adc r11, 0x0
  .mov (.reg .rdx) (.mem ⟨some .rsp, none, 136#64⟩), -- 2131: mov rdx, [rsp + (48* 2)+ 0x28]
  .xor (.reg .r12) (.reg .r12), -- 2132: xor r12d, r12d
  .mulx .rbx .rax (.mem ⟨some .rsp, none, 288#64⟩), -- 2133: mulx rbx, rax, [rsp + (48* 6)]
  .adcx .r13 (.reg .rax), -- 2134: adcx r13, rax
  .adox .r14 (.reg .rbx), -- 2135: adox r14, rbx
  .mulx .rbx .rax (.mem ⟨some .rsp, none, 296#64⟩), -- 2136: mulx rbx, rax, [rsp + (48* 6)+ 0x8]
  .adcx .r14 (.reg .rax), -- 2137: adcx r14, rax
  .adox .r15 (.reg .rbx), -- 2138: adox r15, rbx
  .mulx .rbx .rax (.mem ⟨some .rsp, none, 304#64⟩), -- 2139: mulx rbx, rax, [rsp + (48* 6)+ 0x10]
  .adcx .r15 (.reg .rax), -- 2140: adcx r15, rax
  .adox .r8 (.reg .rbx), -- 2141: adox r8, rbx
  .mulx .rbx .rax (.mem ⟨some .rsp, none, 312#64⟩), -- 2142: mulx rbx, rax, [rsp + (48* 6)+ 0x18]
  .adcx .r8 (.reg .rax), -- 2143: adcx r8, rax
  .adox .r9 (.reg .rbx), -- 2144: adox r9, rbx
  .mulx .rbx .rax (.mem ⟨some .rsp, none, 320#64⟩), -- 2145: mulx rbx, rax, [rsp + (48* 6)+ 0x20]
  .adcx .r9 (.reg .rax), -- 2146: adcx r9, rax
  .adox .r10 (.reg .rbx), -- 2147: adox r10, rbx
  .adox .r11 (.reg .r12), -- 2148: adox r11, r12
  .mulx .rbx .rax (.mem ⟨some .rsp, none, 328#64⟩), -- 2149: mulx rbx, rax, [rsp + (48* 6)+ 0x28]
  .adc (.reg .r10) (.reg .rax), -- 2150: adc r10, rax
  .adc (.reg .r11) (.reg .rbx), -- 2151: adc r11, rbx
  .adc (.reg .r12) (.reg .r12), -- 2152: adc r12, r12
  .mov (.reg .rdx) (.reg .r13), -- 2153: mov rdx, r13
  .shl (.reg .rdx) (.imm 32#64), -- 2154: shl rdx, 0x20
  .add (.reg .rdx) (.reg .r13), -- 2155: add rdx, r13
  .xor (.reg .rbp) (.reg .rbp), -- 2156: xor ebp, ebp
  .mov (.reg .rax) (.imm 0xffffffff00000001#64), -- 2157: mov rax, 0xffffffff00000001
  .mulx .rax .rbx (.reg .rax), -- 2158: mulx rax, rbx, rax
  .mov (.reg .rbx) (.imm 0xffffffff#64), -- 2159: mov ebx, 0xffffffff
  .mulx .rbx .r13 (.reg .rbx), -- 2160: mulx rbx, r13, rbx
  .adc (.reg .rax) (.reg .r13), -- 2161: adc rax, r13
  .adc (.reg .rbx) (.reg .rdx), -- 2162: adc rbx, rdx
  .adc32 .rbp .rbp, -- 2163: adc ebp, ebp
  .sub (.reg .r14) (.reg .rax), -- 2164: sub r14, rax
  .sbb (.reg .r15) (.reg .rbx), -- 2165: sbb r15, rbx
  .sbb (.reg .r8) (.reg .rbp), -- 2166: sbb r8, rbp
  .sbb (.reg .r9) (.imm 0#64), -- 2167: sbb r9, 0x0
  .sbb (.reg .r10) (.imm 0#64), -- 2168: sbb r10, 0x0
  .sbb (.reg .rdx) (.imm 0#64), -- 2169: sbb rdx, 0x0
  .add (.reg .r11) (.reg .rdx), -- 2170: add r11, rdx
  .adc (.reg .r12) (.imm 0#64), -- 2171: adc r12, 0x0
  .xor (.reg .rdx) (.reg .rdx), -- 2172: xor edx, edx
  .xor (.reg .rbp) (.reg .rbp), -- 2173: xor ebp, ebp
  .xor (.reg .r13) (.reg .r13), -- 2174: xor r13d, r13d
  .mov (.reg .rax) (.imm 0xffffffff00000001#64), -- 2175: mov rax, 0xffffffff00000001
  .add (.reg .rax) (.reg .r14), -- 2176: add rax, r14
  .mov (.reg .rbx) (.imm 0xffffffff#64), -- 2177: mov ebx, 0xffffffff
  .adc (.reg .rbx) (.reg .r15), -- 2178: adc rbx, r15
  .mov (.reg .rcx) (.imm 1#64), -- 2179: mov ecx, 0x1
  .adc (.reg .rcx) (.reg .r8), -- 2180: adc rcx, r8
  .adc (.reg .rdx) (.reg .r9), -- 2181: adc rdx, r9
  .adc (.reg .rbp) (.reg .r10), -- 2182: adc rbp, r10
  .adc (.reg .r13) (.reg .r11), -- 2183: adc r13, r11
  .adc (.reg .r12) (.imm 0#64), -- 2184: adc r12, 0x0
  .cmov .nz .r14 (.reg .rax), -- 2185: cmovne r14, rax
  .cmov .nz .r15 (.reg .rbx), -- 2186: cmovne r15, rbx
  .cmov .nz .r8 (.reg .rcx), -- 2187: cmovne r8, rcx
  .cmov .nz .r9 (.reg .rdx), -- 2188: cmovne r9, rdx
  .cmov .nz .r10 (.reg .rbp), -- 2189: cmovne r10, rbp
  .cmov .nz .r11 (.reg .r13), -- 2190: cmovne r11, r13
  .mov (.mem ⟨some .rsp, none, 240#64⟩) (.reg .r14), -- 2191: mov [rsp + (48* 5)], r14
  .mov (.mem ⟨some .rsp, none, 248#64⟩) (.reg .r15), -- 2192: mov [rsp + (48* 5)+ 0x8], r15
  .mov (.mem ⟨some .rsp, none, 256#64⟩) (.reg .r8), -- 2193: mov [rsp + (48* 5)+ 0x10], r8
  .mov (.mem ⟨some .rsp, none, 264#64⟩) (.reg .r9), -- 2194: mov [rsp + (48* 5)+ 0x18], r9
  .mov (.mem ⟨some .rsp, none, 272#64⟩) (.reg .r10), -- 2195: mov [rsp + (48* 5)+ 0x20], r10
  .mov (.mem ⟨some .rsp, none, 280#64⟩) (.reg .r11), -- 2196: mov [rsp + (48* 5)+ 0x28], r11
  .mov (.reg .rdx) (.mem ⟨some .rsp, none, 184#64⟩), -- 2197: mov rdx, [rsp + (48* 3)+ 40]
  .mov (.reg .r13) (.reg .rdx), -- 2198: mov r13, rdx
  .shr (.reg .rdx) (.imm 62#64), -- 2199: shr rdx, 62
  .mov (.reg .r12) (.mem ⟨some .rsp, none, 176#64⟩), -- 2200: mov r12, [rsp + (48* 3)+ 32]
  .shld (.reg .r13) .r12 (.imm 2#64), -- 2201: shld r13, r12, 2
  .mov (.reg .r11) (.mem ⟨some .rsp, none, 168#64⟩), -- 2202: mov r11, [rsp + (48* 3)+ 24]
  .shld (.reg .r12) .r11 (.imm 2#64), -- 2203: shld r12, r11, 2
  .mov (.reg .r10) (.mem ⟨some .rsp, none, 160#64⟩), -- 2204: mov r10, [rsp + (48* 3)+ 16]
  .shld (.reg .r11) .r10 (.imm 2#64), -- 2205: shld r11, r10, 2
  .mov (.reg .r9) (.mem ⟨some .rsp, none, 152#64⟩), -- 2206: mov r9, [rsp + (48* 3)+ 8]
  .shld (.reg .r10) .r9 (.imm 2#64), -- 2207: shld r10, r9, 2
  .mov (.reg .r8) (.mem ⟨some .rsp, none, 144#64⟩), -- 2208: mov r8, [rsp + (48* 3)]
  .shld (.reg .r9) .r8 (.imm 2#64), -- 2209: shld r9, r8, 2
  .shl (.reg .r8) (.imm 2#64), -- 2210: shl r8, 2
  .add (.reg .rdx) (.imm 1#64), -- 2211: add rdx, 1
  .sub (.reg .r8) (.mem ⟨some .rsp, none, 288#64⟩), -- 2212: sub r8, [rsp + (48* 6)]
  .sbb (.reg .r9) (.mem ⟨some .rsp, none, 296#64⟩), -- 2213: sbb r9, [rsp + (48* 6)+ 0x8]
  .sbb (.reg .r10) (.mem ⟨some .rsp, none, 304#64⟩), -- 2214: sbb r10, [rsp + (48* 6)+ 0x10]
  .sbb (.reg .r11) (.mem ⟨some .rsp, none, 312#64⟩), -- 2215: sbb r11, [rsp + (48* 6)+ 0x18]
  .sbb (.reg .r12) (.mem ⟨some .rsp, none, 320#64⟩), -- 2216: sbb r12, [rsp + (48* 6)+ 0x20]
  .sbb (.reg .r13) (.mem ⟨some .rsp, none, 328#64⟩), -- 2217: sbb r13, [rsp + (48* 6)+ 0x28]
  .sbb (.reg .rdx) (.imm 0#64), -- 2218: sbb rdx, 0
  .xor (.reg .rcx) (.reg .rcx), -- 2219: xor rcx, rcx
  .mov (.reg .rax) (.imm 0xffffffff00000001#64), -- 2220: mov rax, 0xffffffff00000001
  .mulx .rcx .rax (.reg .rax), -- 2221: mulx rcx, rax, rax
  .adcx .r8 (.reg .rax), -- 2222: adcx r8, rax
  .adox .r9 (.reg .rcx), -- 2223: adox r9, rcx
  .mov (.reg .rax) (.imm 0xffffffff#64), -- 2224: mov eax, 0xffffffff
  .mulx .rcx .rax (.reg .rax), -- 2225: mulx rcx, rax, rax
  .adcx .r9 (.reg .rax), -- 2226: adcx r9, rax
  .adox .r10 (.reg .rcx), -- 2227: adox r10, rcx
  .adcx .r10 (.reg .rdx), -- 2228: adcx r10, rdx
  .mov (.reg .rax) (.imm 0#64), -- 2229: mov eax, 0x0
  .mov (.reg .rcx) (.imm 0#64), -- 2230: mov ecx, 0x0
  .adox .rax (.reg .rax), -- 2231: adox rax, rax
  .adc (.reg .r11) (.reg .rax), -- 2232: adc r11, rax
  .adc (.reg .r12) (.reg .rcx), -- 2233: adc r12, rcx
  .adc (.reg .r13) (.reg .rcx), -- 2234: adc r13, rcx
  .adc (.reg .rcx) (.reg .rcx), -- 2235: adc rcx, rcx
  .sub (.reg .rcx) (.imm 1#64), -- 2236: sub rcx, 0x1
  .mov (.reg .rdx) (.imm 0xffffffff#64), -- 2237: mov edx, 0xffffffff
  .xor (.reg .rax) (.reg .rax), -- 2238: xor rax, rax
  .and (.reg .rdx) (.reg .rcx), -- 2239: and rdx, rcx
  .sub (.reg .rax) (.reg .rdx), -- 2240: sub rax, rdx
  .and (.reg .rcx) (.imm 1#64), -- 2241: and rcx, 0x1
  .sub (.reg .r8) (.reg .rax), -- 2242: sub r8, rax
  .mov (.mem ⟨some .rdi, none, 0#64⟩) (.reg .r8), -- 2243: mov [rdi + 0], r8
  .sbb (.reg .r9) (.reg .rdx), -- 2244: sbb r9, rdx
  .mov (.mem ⟨some .rdi, none, 8#64⟩) (.reg .r9), -- 2245: mov [rdi + 0+ 0x8], r9
  .sbb (.reg .r10) (.reg .rcx), -- 2246: sbb r10, rcx
  .mov (.mem ⟨some .rdi, none, 16#64⟩) (.reg .r10), -- 2247: mov [rdi + 0+ 0x10], r10
  .sbb (.reg .r11) (.imm 0#64), -- 2248: sbb r11, 0x0
  .mov (.mem ⟨some .rdi, none, 24#64⟩) (.reg .r11), -- 2249: mov [rdi + 0+ 0x18], r11
  .sbb (.reg .r12) (.imm 0#64), -- 2250: sbb r12, 0x0
  .mov (.mem ⟨some .rdi, none, 32#64⟩) (.reg .r12), -- 2251: mov [rdi + 0+ 0x20], r12
  .sbb (.reg .r13) (.imm 0#64), -- 2252: sbb r13, 0x0
  .mov (.mem ⟨some .rdi, none, 40#64⟩) (.reg .r13), -- 2253: mov [rdi + 0+ 0x28], r13
  .mov (.reg .r8) (.imm 0xffffffff#64), -- 2254: mov r8, 0x00000000ffffffff
  .sub (.reg .r8) (.mem ⟨some .rsp, none, 192#64⟩), -- 2255: sub r8, [rsp + (48* 4)]
  .mov (.reg .r9) (.imm 0xffffffff00000000#64), -- 2256: mov r9, 0xffffffff00000000
  .sbb (.reg .r9) (.mem ⟨some .rsp, none, 200#64⟩), -- 2257: sbb r9, [rsp + (48* 4)+ 8]
  .mov (.reg .r10) (.imm 0xfffffffffffffffe#64), -- 2258: mov r10, 0xfffffffffffffffe
  .sbb (.reg .r10) (.mem ⟨some .rsp, none, 208#64⟩), -- 2259: sbb r10, [rsp + (48* 4)+ 16]
  .mov (.reg .r11) (.imm 0xffffffffffffffff#64), -- 2260: mov r11, 0xffffffffffffffff
  .sbb (.reg .r11) (.mem ⟨some .rsp, none, 216#64⟩), -- 2261: sbb r11, [rsp + (48* 4)+ 24]
  .mov (.reg .r12) (.imm 0xffffffffffffffff#64), -- 2262: mov r12, 0xffffffffffffffff
  .sbb (.reg .r12) (.mem ⟨some .rsp, none, 224#64⟩), -- 2263: sbb r12, [rsp + (48* 4)+ 32]
  .mov (.reg .r13) (.imm 0xffffffffffffffff#64), -- 2264: mov r13, 0xffffffffffffffff
  .sbb (.reg .r13) (.mem ⟨some .rsp, none, 232#64⟩), -- 2265: sbb r13, [rsp + (48* 4)+ 40]
  .mov (.reg .r14) (.reg .r13), -- 2266: mov r14, r13
  .shr (.reg .r14) (.imm 61#64), -- 2267: shr r14, 61
  .shld (.reg .r13) .r12 (.imm 3#64), -- 2268: shld r13, r12, 3
  .shld (.reg .r12) .r11 (.imm 3#64), -- 2269: shld r12, r11, 3
  .shld (.reg .r11) .r10 (.imm 3#64), -- 2270: shld r11, r10, 3
  .shld (.reg .r10) .r9 (.imm 3#64), -- 2271: shld r10, r9, 3
  .shld (.reg .r9) .r8 (.imm 3#64), -- 2272: shld r9, r8, 3
  .shl (.reg .r8) (.imm 3#64), -- 2273: shl r8, 3
  .add (.reg .r14) (.imm 1#64), -- 2274: add r14, 1
  .xor (.reg .rcx) (.reg .rcx), -- 2275: xor ecx, ecx
  .mov (.reg .rdx) (.imm 3#64), -- 2276: mov rdx, 3
  .mulx .rbx .rax (.mem ⟨some .rsp, none, 240#64⟩), -- 2277: mulx rbx, rax, [rsp + (48* 5)]
  .adcx .r8 (.reg .rax), -- 2278: adcx r8, rax
  .adox .r9 (.reg .rbx), -- 2279: adox r9, rbx
  .mulx .rbx .rax (.mem ⟨some .rsp, none, 248#64⟩), -- 2280: mulx rbx, rax, [rsp + (48* 5)+ 8]
  .adcx .r9 (.reg .rax), -- 2281: adcx r9, rax
  .adox .r10 (.reg .rbx), -- 2282: adox r10, rbx
  .mulx .rbx .rax (.mem ⟨some .rsp, none, 256#64⟩), -- 2283: mulx rbx, rax, [rsp + (48* 5)+ 16]
  .adcx .r10 (.reg .rax), -- 2284: adcx r10, rax
  .adox .r11 (.reg .rbx), -- 2285: adox r11, rbx
  .mulx .rbx .rax (.mem ⟨some .rsp, none, 264#64⟩), -- 2286: mulx rbx, rax, [rsp + (48* 5)+ 24]
  .adcx .r11 (.reg .rax), -- 2287: adcx r11, rax
  .adox .r12 (.reg .rbx), -- 2288: adox r12, rbx
  .mulx .rbx .rax (.mem ⟨some .rsp, none, 272#64⟩), -- 2289: mulx rbx, rax, [rsp + (48* 5)+ 32]
  .adcx .r12 (.reg .rax), -- 2290: adcx r12, rax
  .adox .r13 (.reg .rbx), -- 2291: adox r13, rbx
  .mulx .rdx .rax (.mem ⟨some .rsp, none, 280#64⟩), -- 2292: mulx rdx, rax, [rsp + (48* 5)+ 40]
  .adcx .r13 (.reg .rax), -- 2293: adcx r13, rax
  .adox .rdx (.reg .r14), -- 2294: adox rdx, r14
  .adcx .rdx (.reg .rcx), -- 2295: adcx rdx, rcx
  .xor (.reg .rcx) (.reg .rcx), -- 2296: xor rcx, rcx
  .mov (.reg .rax) (.imm 0xffffffff00000001#64), -- 2297: mov rax, 0xffffffff00000001
  .mulx .rcx .rax (.reg .rax), -- 2298: mulx rcx, rax, rax
  .adcx .r8 (.reg .rax), -- 2299: adcx r8, rax
  .adox .r9 (.reg .rcx), -- 2300: adox r9, rcx
  .mov (.reg .rax) (.imm 0xffffffff#64), -- 2301: mov eax, 0xffffffff
  .mulx .rcx .rax (.reg .rax), -- 2302: mulx rcx, rax, rax
  .adcx .r9 (.reg .rax), -- 2303: adcx r9, rax
  .adox .r10 (.reg .rcx), -- 2304: adox r10, rcx
  .adcx .r10 (.reg .rdx), -- 2305: adcx r10, rdx
  .mov (.reg .rax) (.imm 0#64), -- 2306: mov eax, 0x0
  .mov (.reg .rcx) (.imm 0#64), -- 2307: mov ecx, 0x0
  .adox .rax (.reg .rax), -- 2308: adox rax, rax
  .adc (.reg .r11) (.reg .rax), -- 2309: adc r11, rax
  .adc (.reg .r12) (.reg .rcx), -- 2310: adc r12, rcx
  .adc (.reg .r13) (.reg .rcx), -- 2311: adc r13, rcx
  .adc (.reg .rcx) (.reg .rcx), -- 2312: adc rcx, rcx
  .sub (.reg .rcx) (.imm 1#64), -- 2313: sub rcx, 0x1
  .mov (.reg .rdx) (.imm 0xffffffff#64), -- 2314: mov edx, 0xffffffff
  .xor (.reg .rax) (.reg .rax), -- 2315: xor rax, rax
  .and (.reg .rdx) (.reg .rcx), -- 2316: and rdx, rcx
  .sub (.reg .rax) (.reg .rdx), -- 2317: sub rax, rdx
  .and (.reg .rcx) (.imm 1#64), -- 2318: and rcx, 0x1
  .sub (.reg .r8) (.reg .rax), -- 2319: sub r8, rax
  .mov (.mem ⟨some .rdi, none, 48#64⟩) (.reg .r8), -- 2320: mov [rdi + 48], r8
  .sbb (.reg .r9) (.reg .rdx), -- 2321: sbb r9, rdx
  .mov (.mem ⟨some .rdi, none, 56#64⟩) (.reg .r9), -- 2322: mov [rdi + 48+ 0x8], r9
  .sbb (.reg .r10) (.reg .rcx), -- 2323: sbb r10, rcx
  .mov (.mem ⟨some .rdi, none, 64#64⟩) (.reg .r10), -- 2324: mov [rdi + 48+ 0x10], r10
  .sbb (.reg .r11) (.imm 0#64), -- 2325: sbb r11, 0x0
  .mov (.mem ⟨some .rdi, none, 72#64⟩) (.reg .r11), -- 2326: mov [rdi + 48+ 0x18], r11
  .sbb (.reg .r12) (.imm 0#64), -- 2327: sbb r12, 0x0
  .mov (.mem ⟨some .rdi, none, 80#64⟩) (.reg .r12), -- 2328: mov [rdi + 48+ 0x20], r12
  .sbb (.reg .r13) (.imm 0#64), -- 2329: sbb r13, 0x0
  .mov (.mem ⟨some .rdi, none, 88#64⟩) (.reg .r13), -- 2330: mov [rdi + 48+ 0x28], r13
  .add (.reg .rsp) (.imm 344#64), -- 2331: add rsp, 344
  .pop .r15, -- 2332: pop r15
  .pop .r14, -- 2333: pop r14
  .pop .r13, -- 2334: pop r13
  .pop .r12, -- 2335: pop r12
  .pop .rbp, -- 2336: pop rbp
  .pop .rbx] -- 2337: pop rbx

/-- The registers that the operands of p384_montjdouble.rs:952-1049 say may change. -/
def p384MontjdoubleRegs : List Reg := [.rdi, .rsi, .r10, .r11, .r12, .r13, .r14, .r15, .r8, .r9, .rax, .rcx, .rdx]

end Verif.X86.Asm
