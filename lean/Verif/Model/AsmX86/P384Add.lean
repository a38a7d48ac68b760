import Verif.Model.X86

/-!
Generated by tools/gen_asm.py from `graviola/src/low/x86_64`: the `asm!` blocks as lists of instructions.
The comment at the end of a line gives its position; jump targets are positions.
-/
namespace Verif.X86.Asm
open Verif.X86

/-- low/x86_64/p384_montjadd.rs:944-1089.  Operands: inout("rdi") p3.as_mut_ptr() => _; inout("rsi") p1.as_ptr() => _; inout("rdx") p2.as_ptr() => _; out("r10") _; out("r11") _; out("r12") _; out("r13") _; out("r14") _; out("r15") _; out("r8") _; out("r9") _; out("rax") _; out("rcx") _. -/
def p384Montjadd : Prog := [
  .nop, -- 0: endbr64
  .push .rbx, -- 1: push rbx
  .push .rbp, -- 2: push rbp
  .push .r12, -- 3: push r12
  .push .r13, -- 4: push r13
  .push .r14, -- 5: push r14
  .push .r15, -- 6: push r15
  .sub (.reg .rsp) (.imm 352#64), -- 7: sub rsp, 352
  .mov (.mem ⟨some .rsp, none, 336#64⟩) (.reg .rsi), -- 8: mov [rsp + (48* 7)], rsi
  .mov (.mem ⟨some .rsp, none, 344#64⟩) (.reg .rdx), -- 9: mov [rsp + (48* 7 + 8)], rdx
  .mov (.reg .rdx) (.mem ⟨some .rsi, none, 96#64⟩), -- 10: mov rdx, [rsi + (2 * 48)]
  .mulx .r10 .r9 (.mem ⟨some .rsi, none, 104#64⟩), -- 11: mulx r10, r9, [rsi + (2 * 48)+ 0x8]
  .mulx .r12 .r11 (.mem ⟨some .rsi, none, 120#64⟩), -- 12: mulx r12, r11, [rsi + (2 * 48)+ 0x18]
  .mulx .r14 .r13 (.mem ⟨some .rsi, none, 136#64⟩), -- 13: mulx r14, r13, [rsi + (2 * 48)+ 0x28]
  .mov (.reg .rdx) (.mem ⟨some .rsi, none, 120#64⟩), -- 14: mov rdx, [rsi + (2 * 48)+ 0x18]
  .mulx .rcx .r15 (.mem ⟨some .rsi, none, 128#64⟩), -- 15: mulx rcx, r15, [rsi + (2 * 48)+ 0x20]
  .xor (.reg .rbp) (.reg .rbp), -- 16: xor ebp, ebp
  .mov (.reg .rdx) (.mem ⟨some .rsi, none, 112#64⟩), -- 17: mov rdx, [rsi + (2 * 48)+ 0x10]
  .mulx .rbx .rax (.mem ⟨some .rsi, none, 96#64⟩), -- 18: mulx rbx, rax, [rsi + (2 * 48)]
  .adcx .r10 (.reg .rax), -- 19: adcx r10, rax
  .adox .r11 (.reg .rbx), -- 20: adox r11, rbx
  .mulx .rbx .rax (.mem ⟨some .rsi, none, 104#64⟩), -- 21: mulx rbx, rax, [rsi + (2 * 48)+ 0x8]
  .adcx .r11 (.reg .rax), -- 22: adcx r11, rax
  .adox .r12 (.reg .rbx), -- 23: adox r12, rbx
  .mov (.reg .rdx) (.mem ⟨some .rsi, none, 104#64⟩), -- 24: mov rdx, [rsi + (2 * 48)+ 0x8]
  .mulx .rbx .rax (.mem ⟨some .rsi, none, 120#64⟩), -- 25: mulx rbx, rax, [rsi + (2 * 48)+ 0x18]
  .adcx .r12 (.reg .rax), -- 26: adcx r12, rax
  .adox .r13 (.reg .rbx), -- 27: adox r13, rbx
  .mulx .rbx .rax (.mem ⟨some .rsi, none, 128#64⟩), -- 28: mulx rbx, rax, [rsi + (2 * 48)+ 0x20]
  .adcx .r13 (.reg .rax), -- 29: adcx r13, rax
  .adox .r14 (.reg .rbx), -- 30: adox r14, rbx
  .mulx .rbx .rax (.mem ⟨some .rsi, none, 136#64⟩), -- 31: mulx rbx, rax, [rsi + (2 * 48)+ 0x28]
  .adcx .r14 (.reg .rax), -- 32: adcx r14, rax
  .adox .r15 (.reg .rbx), -- 33: adox r15, rbx
  .adcx .r15 (.reg .rbp), -- 34: adcx r15, rbp
  .adox .rcx (.reg .rbp), -- 35: adox rcx, rbp
  .adc (.reg .rcx) (.reg .rbp), -- 36: adc rcx, rbp
  .xor (.reg .rbp) (.reg .rbp), -- 37: xor ebp, ebp
  .mov (.reg .rdx) (.mem ⟨some .rsi, none, 128#64⟩), -- 38: mov rdx, [rsi + (2 * 48)+ 0x20]
  .mulx .rbx .rax (.mem ⟨some .rsi, none, 96#64⟩), -- 39: mulx rbx, rax, [rsi + (2 * 48)]
  .adcx .r12 (.reg .rax), -- 40: adcx r12, rax
  .adox .r13 (.reg .rbx), -- 41: adox r13, rbx
  .mov (.reg .rdx) (.mem ⟨some .rsi, none, 112#64⟩), -- 42: mov rdx, [rsi + (2 * 48)+ 0x10]
  .mulx .rbx .rax (.mem ⟨some .rsi, none, 120#64⟩), -- 43: mulx rbx, rax, [rsi + (2 * 48)+ 0x18]
  .adcx .r13 (.reg .rax), -- 44: adcx r13, rax
  .adox .r14 (.reg .rbx), -- 45: adox r14, rbx
  .mulx .rbx .rax (.mem ⟨some .rsi, none, 128#64⟩), -- 46: mulx rbx, rax, [rsi + (2 * 48)+ 0x20]
  .adcx .r14 (.reg .rax), -- 47: adcx r14, rax
  .adox .r15 (.reg .rbx), -- 48: adox r15, rbx
  .mulx .rdx .rax (.mem ⟨some .rsi, none, 136#64⟩), -- 49: mulx rdx, rax, [rsi + (2 * 48)+ 0x28]
  .adcx .r15 (.reg .rax), -- 50: adcx r15, rax
  .adox .rcx (.reg .rdx), -- 51: adox rcx, rdx
  .mov (.reg .rdx) (.mem ⟨some .rsi, none, 136#64⟩), -- 52: mov rdx, [rsi + (2 * 48)+ 0x28]
  .mulx .rbp .rbx (.mem ⟨some .rsi, none, 128#64⟩), -- 53: mulx rbp, rbx, [rsi + (2 * 48)+ 0x20]
  .mulx .rdx .rax (.mem ⟨some .rsi, none, 120#64⟩), -- 54: mulx rdx, rax, [rsi + (2 * 48)+ 0x18]
  .adcx .rcx (.reg .rax), -- 55: adcx rcx, rax
  .adox .rbx (.reg .rdx), -- 56: adox rbx, rdx
  .mov (.reg .rax) (.imm 0#64), -- 57: mov eax, 0x0
  .adcx .rbx (.reg .rax), -- 58: adcx rbx, rax
  .adox .rbp (.reg .rax), -- 59: adox rbp, rax
  .adc (.reg .rbp) (.reg .rax), -- 60: adc rbp, rax
  .xor (.reg .rax) (.reg .rax), -- 61: xor rax, rax
  .mov (.reg .rdx) (.mem ⟨some .rsi, none, 96#64⟩), -- 62: mov rdx, [rsi + (2 * 48)]
  .mulx .rax .r8 (.mem ⟨some .rsi, none, 96#64⟩), -- 63: mulx rax, r8, [rsi + (2 * 48)]
  .adcx .r9 (.reg .r9), -- 64: adcx r9, r9
  .adox .r9 (.reg .rax), -- 65: adox r9, rax
  .mov (.reg .rdx) (.mem ⟨some .rsi, none, 104#64⟩), -- 66: mov rdx, [rsi + (2 * 48)+ 0x8]
  .mulx .rdx .rax (.reg .rdx), -- 67: mulx rdx, rax, rdx
  .adcx .r10 (.reg .r10), -- 68: adcx r10, r10
  .adox .r10 (.reg .rax), -- 69: adox r10, rax
  .adcx .r11 (.reg .r11), -- 70: adcx r11, r11
  .adox .r11 (.reg .rdx), -- 71: adox r11, rdx
  .mov (.reg .rdx) (.mem ⟨some .rsi, none, 112#64⟩), -- 72: mov rdx, [rsi + (2 * 48)+ 0x10]
  .mulx .rdx .rax (.reg .rdx), -- 73: mulx rdx, rax, rdx
  .adcx .r12 (.reg .r12), -- 74: adcx r12, r12
  .adox .r12 (.reg .rax), -- 75: adox r12, rax
  .adcx .r13 (.reg .r13), -- 76: adcx r13, r13
  .adox .r13 (.reg .rdx), -- 77: adox r13, rdx
  .mov (.reg .rdx) (.mem ⟨some .rsi, none, 120#64⟩), -- 78: mov rdx, [rsi + (2 * 48)+ 0x18]
  .mulx .rdx .rax (.reg .rdx), -- 79: mulx rdx, rax, rdx
  .adcx .r14 (.reg .r14), -- 80: adcx r14, r14
  .adox .r14 (.reg .rax), -- 81: adox r14, rax
  .adcx .r15 (.reg .r15), -- 82: adcx r15, r15
  .adox .r15 (.reg .rdx), -- 83: adox r15, rdx
  .mov (.reg .rdx) (.mem ⟨some .rsi, none, 128#64⟩), -- 84: mov rdx, [rsi + (2 * 48)+ 0x20]
  .mulx .rdx .rax (.reg .rdx), -- 85: mulx rdx, rax, rdx
  .adcx .rcx (.reg .rcx), -- 86: adcx rcx, rcx
  .adox .rcx (.reg .rax), -- 87: adox rcx, rax
  .adcx .rbx (.reg .rbx), -- 88: adcx rbx, rbx
  .adox .rbx (.reg .rdx), -- 89: adox rbx, rdx
  .mov (.reg .rdx) (.mem ⟨some .rsi, none, 136#64⟩), -- 90: mov rdx, [rsi + (2 * 48)+ 0x28]
  .mulx .rsi .rax (.reg .rdx), -- 91: mulx rsi, rax, rdx
  .adcx .rbp (.reg .rbp), -- 92: adcx rbp, rbp
  .adox .rbp (.reg .rax), -- 93: adox rbp, rax
  .mov (.reg .rax) (.imm 0#64), -- 94: mov eax, 0x0
  .adcx .rsi (.reg .rax), -- 95: adcx rsi, rax
  .adox .rsi (.reg .rax), -- 96: adox rsi, rax
  .mov (.mem ⟨some .rsp, none, 0#64⟩) (.reg .rbx), -- 97: mov [rsp + (48* 0)], rbx
  .mov (.reg .rdx) (.reg .r8), -- 98: mov rdx, r8
  .shl (.reg .rdx) (.imm 32#64), -- 99: shl rdx, 0x20
  .add (.reg .rdx) (.reg .r8), -- 100: add rdx, r8
  .mov (.reg .rax) (.imm 0xffffffff00000001#64), -- 101: mov rax, 0xffffffff00000001
  .mulx .rax .r8 (.reg .rax), -- 102: mulx rax, r8, rax
  .mov (.reg .rbx) (.imm 0xffffffff#64), -- 103: mov ebx, 0xffffffff
  .mulx .r8 .rbx (.reg .rbx), -- 104: mulx r8, rbx, rbx
  .add (.reg .rax) (.reg .rbx), -- 105: add rax, rbx
  .adc (.reg .r8) (.reg .rdx), -- 106: adc r8, rdx
  .mov (.reg .rbx) (.imm 0#64), -- 107: mov ebx, 0x0
  .adc (.reg .rbx) (.reg .rbx), -- 108: adc rbx, rbx
  .sub (.reg .r9) (.reg .rax), -- 109: sub r9, rax
  .sbb (.reg .r10) (.reg .r8), -- 110: sbb r10, r8
  .sbb (.reg .r11) (.reg .rbx), -- 111: sbb r11, rbx
  .sbb (.reg .r12) (.imm 0#64), -- 112: sbb r12, 0x0
  .sbb (.reg .r13) (.imm 0#64), -- 113: sbb r13, 0x0
  .mov (.reg .r8) (.reg .rdx), -- 114: mov r8, rdx
  .sbb (.reg .r8) (.imm 0#64), -- 115: sbb r8, 0x0
  .mov (.reg .rdx) (.reg .r9), -- 116: mov rdx, r9
  .shl (.reg .rdx) (.imm 32#64), -- 117: shl rdx, 0x20
  .add (.reg .rdx) (.reg .r9), -- 118: add rdx, r9
  .mov (.reg .rax) (.imm 0xffffffff00000001#64), -- 119: mov rax, 0xffffffff00000001
  .mulx .rax .r9 (.reg .rax), -- 120: mulx rax, r9, rax
  .mov (.reg .rbx) (.imm 0xffffffff#64), -- 121: mov ebx, 0xffffffff
  .mulx .r9 .rbx (.reg .rbx), -- 122: mulx r9, rbx, rbx
  .add (.reg .rax) (.reg .rbx), -- 123: add rax, rbx
  .adc (.reg .r9) (.reg .rdx), -- 124: adc r9, rdx
  .mov (.reg .rbx) (.imm 0#64), -- 125: mov ebx, 0x0
  .adc (.reg .rbx) (.reg .rbx), -- 126: adc rbx, rbx
  .sub (.reg .r10) (.reg .rax), -- 127: sub r10, rax
  .sbb (.reg .r11) (.reg .r9), -- 128: sbb r11, r9
  .sbb (.reg .r12) (.reg .rbx), -- 129: sbb r12, rbx
  .sbb (.reg .r13) (.imm 0#64), -- 130: sbb r13, 0x0
  .sbb (.reg .r8) (.imm 0#64), -- 131: sbb r8, 0x0
  .mov (.reg .r9) (.reg .rdx), -- 132: mov r9, rdx
  .sbb (.reg .r9) (.imm 0#64), -- 133: sbb r9, 0x0
  .mov (.reg .rdx) (.reg .r10), -- 134: mov rdx, r10
  .shl (.reg .rdx) (.imm 32#64), -- 135: shl rdx, 0x20
  .add (.reg .rdx) (.reg .r10), -- 136: add rdx, r10
  .mov (.reg .rax) (.imm 0xffffffff00000001#64), -- 137: mov rax, 0xffffffff00000001
  .mulx .rax .r10 (.reg .rax), -- 138: mulx rax, r10, rax
  .mov (.reg .rbx) (.imm 0xffffffff#64), -- 139: mov ebx, 0xffffffff
  .mulx .r10 .rbx (.reg .rbx), -- 140: mulx r10, rbx, rbx
  .add (.reg .rax) (.reg .rbx), -- 141: add rax, rbx
  .adc (.reg .r10) (.reg .rdx), -- 142: adc r10, rdx
  .mov (.reg .rbx) (.imm 0#64), -- 143: mov ebx, 0x0
  .adc (.reg .rbx) (.reg .rbx), -- 144: adc rbx, rbx
  .sub (.reg .r11) (.reg .rax), -- 145: sub r11, rax
  .sbb (.reg .r12) (.reg .r10), -- 146: sbb r12, r10
  .sbb (.reg .r13) (.reg .rbx), -- 147: sbb r13, rbx
  .sbb (.reg .r8) (.imm 0#64), -- 148: sbb r8, 0x0
  .sbb (.reg .r9) (.imm 0#64), -- 149: sbb r9, 0x0
  .mov (.reg .r10) (.reg .rdx), -- 150: mov r10, rdx
  .sbb (.reg .r10) (.imm 0#64), -- 151: sbb r10, 0x0
  .mov (.reg .rdx) (.reg .r11), -- 152: mov rdx, r11
  .shl (.reg .rdx) (.imm 32#64), -- 153: shl rdx, 0x20
  .add (.reg .rdx) (.reg .r11), -- 154: add rdx, r11
  .mov (.reg .rax) (.imm 0xffffffff00000001#64), -- 155: mov rax, 0xffffffff00000001
  .mulx .rax .r11 (.reg .rax), -- 156: mulx rax, r11, rax
  .mov (.reg .rbx) (.imm 0xffffffff#64), -- 157: mov ebx, 0xffffffff
  .mulx .r11 .rbx (.reg .rbx), -- 158: mulx r11, rbx, rbx
  .add (.reg .rax) (.reg .rbx), -- 159: add rax, rbx
  .adc (.reg .r11) (.reg .rdx), -- 160: adc r11, rdx
  .mov (.reg .rbx) (.imm 0#64), -- 161: mov ebx, 0x0
  .adc (.reg .rbx) (.reg .rbx), -- 162: adc rbx, rbx
  .sub (.reg .r12) (.reg .rax), -- 163: sub r12, rax
  .sbb (.reg .r13) (.reg .r11), -- 164: sbb r13, r11
  .sbb (.reg .r8) (.reg .rbx), -- 165: sbb r8, rbx
  .sbb (.reg .r9) (.imm 0#64), -- 166: sbb r9, 0x0
  .sbb (.reg .r10) (.imm 0#64), -- 167: sbb r10, 0x0
  .mov (.reg .r11) (.reg .rdx), -- 168: mov r11, rdx
  .sbb (.reg .r11) (.imm 0#64), -- 169: sbb r11, 0x0
  .mov (.reg .rdx) (.reg .r12), -- 170: mov rdx, r12
  .shl (.reg .rdx) (.imm 32#64), -- 171: shl rdx, 0x20
  .add (.reg .rdx) (.reg .r12), -- 172: add rdx, r12
  .mov (.reg .rax) (.imm 0xffffffff00000001#64), -- 173: mov rax, 0xffffffff00000001
  .mulx .rax .r12 (.reg .rax), -- 174: mulx rax, r12, rax
  .mov (.reg .rbx) (.imm 0xffffffff#64), -- 175: mov ebx, 0xffffffff
  .mulx .r12 .rbx (.reg .rbx), -- 176: mulx r12, rbx, rbx
  .add (.reg .rax) (.reg .rbx), -- 177: add rax, rbx
  .adc (.reg .r12) (.reg .rdx), -- 178: adc r12, rdx
  .mov (.reg .rbx) (.imm 0#64), -- 179: mov ebx, 0x0
  .adc (.reg .rbx) (.reg .rbx), -- 180: adc rbx, rbx
  .sub (.reg .r13) (.reg .rax), -- 181: sub r13, rax
  .sbb (.reg .r8) (.reg .r12), -- 182: sbb r8, r12
  .sbb (.reg .r9) (.reg .rbx), -- 183: sbb r9, rbx
  .sbb (.reg .r10) (.imm 0#64), -- 184: sbb r10, 0x0
  .sbb (.reg .r11) (.imm 0#64), -- 185: sbb r11, 0x0
  .mov (.reg .r12) (.reg .rdx), -- 186: mov r12, rdx
  .sbb (.reg .r12) (.imm 0#64), -- 187: sbb r12, 0x0
  .mov (.reg .rdx) (.reg .r13), -- 188: mov rdx, r13
  .shl (.reg .rdx) (.imm 32#64), -- 189: shl rdx, 0x20
  .add (.reg .rdx) (.reg .r13), -- 190: add rdx, r13
  .mov (.reg .rax) (.imm 0xffffffff00000001#64), -- 191: mov rax, 0xffffffff00000001
  .mulx .rax .r13 (.reg .rax), -- 192: mulx rax, r13, rax
  .mov (.reg .rbx) (.imm 0xffffffff#64), -- 193: mov ebx, 0xffffffff
  .mulx .r13 .rbx (.reg .rbx), -- 194: mulx r13, rbx, rbx
  .add (.reg .rax) (.reg .rbx), -- 195: add rax, rbx
  .adc (.reg .r13) (.reg .rdx), -- 196: adc r13, rdx
  .mov (.reg .rbx) (.imm 0#64), -- 197: mov ebx, 0x0
  .adc (.reg .rbx) (.reg .rbx), -- 198: adc rbx, rbx
  .sub (.reg .r8) (.reg .rax), -- 199: sub r8, rax
  .sbb (.reg .r9) (.reg .r13), -- 200: sbb r9, r13
  .sbb (.reg .r10) (.reg .rbx), -- 201: sbb r10, rbx
  .sbb (.reg .r11) (.imm 0#64), -- 202: sbb r11, 0x0
  .sbb (.reg .r12) (.imm 0#64), -- 203: sbb r12, 0x0
  .mov (.reg .r13) (.reg .rdx), -- 204: mov r13, rdx
  .sbb (.reg .r13) (.imm 0#64), -- 205: sbb r13, 0x0
  .mov (.reg .rbx) (.mem ⟨some .rsp, none, 0#64⟩), -- 206: mov rbx, [rsp + (48* 0)]
  .add (.reg .r14) (.reg .r8), -- 207: add r14, r8
  .adc (.reg .r15) (.reg .r9), -- 208: adc r15, r9
  .adc (.reg .rcx) (.reg .r10), -- 209: adc rcx, r10
  .adc (.reg .rbx) (.reg .r11), -- 210: adc rbx, r11
  .adc (.reg .rbp) (.reg .r12), -- 211: adc rbp, r12
  .adc (.reg .rsi) (.reg .r13), -- 212: adc rsi, r13
  .mov (.reg .r8) (.imm 0#64), -- 213: mov r8d, 0x0
  .mov (.reg .rax) (.imm 0xffffffff00000001#64), -- 214: mov rax, 0xffffffff00000001
  .mov (.reg .r9) (.imm 0xffffffff#64), -- 215: mov r9d, 0xffffffff
  .mov (.reg .r10) (.imm 1#64), -- 216: mov r10d, 0x1
  .cmov .nc .rax (.reg .r8), -- 217: cmovnc rax, r8
  .cmov .nc .r9 (.reg .r8), -- 218: cmovnc r9, r8
  .cmov .nc .r10 (.reg .r8), -- 219: cmovnc r10, r8
  .add (.reg .r14) (.reg .rax), -- 220: add r14, rax
  .adc (.reg .r15) (.reg .r9), -- 221: adc r15, r9
  .adc (.reg .rcx) (.reg .r10), -- 222: adc rcx, r10
  .adc (.reg .rbx) (.reg .r8), -- 223: adc rbx, r8
  .adc (.reg .rbp) (.reg .r8), -- 224: adc rbp, r8
  .adc (.reg .rsi) (.reg .r8), -- 225: adc rsi, r8
  .mov (.mem ⟨some .rsp, none, 0#64⟩) (.reg .r14), -- 226: mov [rsp + (48* 0)], r14
  .mov (.mem ⟨some .rsp, none, 8#64⟩) (.reg .r15), -- 227: mov [rsp + (48* 0)+ 0x8], r15
  .mov (.mem ⟨some .rsp, none, 16#64⟩) (.reg .rcx), -- 228: mov [rsp + (48* 0)+ 0x10], rcx
  .mov (.mem ⟨some .rsp, none, 24#64⟩) (.reg .rbx), -- 229: mov [rsp + (48* 0)+ 0x18], rbx
  .mov (.mem ⟨some .rsp, none, 32#64⟩) (.reg .rbp), -- 230: mov [rsp + (48* 0)+ 0x20], rbp
  .mov (.mem ⟨some .rsp, none, 40#64⟩) (.reg .rsi), -- 231: mov [rsp + (48* 0)+ 0x28], rsi
  .mov (.reg .rsi) (.mem ⟨some .rsp, none, 344#64⟩), -- 232: mov rsi, [rsp + (48* 7 + 8)]
  .mov (.reg .rdx) (.mem ⟨some .rsi, none, 96#64⟩), -- 233: mov rdx, [rsi + (2 * 48)]
  .mulx .r10 .r9 (.mem ⟨some .rsi, none, 104#64⟩), -- 234: mulx r10, r9, [rsi + (2 * 48)+ 0x8]
  .mulx .r12 .r11 (.mem ⟨some .rsi, none, 120#64⟩), -- 235: mulx r12, r11, [rsi + (2 * 48)+ 0x18]
  .mulx .r14 .r13 (.mem ⟨some .rsi, none, 136#64⟩), -- 236: mulx r14, r13, [rsi + (2 * 48)+ 0x28]
  .mov (.reg .rdx) (.mem ⟨some .rsi, none, 120#64⟩), -- 237: mov rdx, [rsi + (2 * 48)+ 0x18]
  .mulx .rcx .r15 (.mem ⟨some .rsi, none, 128#64⟩), -- 238: mulx rcx, r15, [rsi + (2 * 48)+ 0x20]
  .xor (.reg .rbp) (.reg .rbp), -- 239: xor ebp, ebp
  .mov (.reg .rdx) (.mem ⟨some .rsi, none, 112#64⟩), -- 240: mov rdx, [rsi + (2 * 48)+ 0x10]
  .mulx .rbx .rax (.mem ⟨some .rsi, none, 96#64⟩), -- 241: mulx rbx, rax, [rsi + (2 * 48)]
  .adcx .r10 (.reg .rax), -- 242: adcx r10, rax
  .adox .r11 (.reg .rbx), -- 243: adox r11, rbx
  .mulx .rbx .rax (.mem ⟨some .rsi, none, 104#64⟩), -- 244: mulx rbx, rax, [rsi + (2 * 48)+ 0x8]
  .adcx .r11 (.reg .rax), -- 245: adcx r11, rax
  .adox .r12 (.reg .rbx), -- 246: adox r12, rbx
  .mov (.reg .rdx) (.mem ⟨some .rsi, none, 104#64⟩), -- 247: mov rdx, [rsi + (2 * 48)+ 0x8]
  .mulx .rbx .rax (.mem ⟨some .rsi, none, 120#64⟩), -- 248: mulx rbx, rax, [rsi + (2 * 48)+ 0x18]
  .adcx .r12 (.reg .rax), -- 249: adcx r12, rax
  .adox .r13 (.reg .rbx), -- 250: adox r13, rbx
  .mulx .rbx .rax (.mem ⟨some .rsi, none, 128#64⟩), -- 251: mulx rbx, rax, [rsi + (2 * 48)+ 0x20]
  .adcx .r13 (.reg .rax), -- 252: adcx r13, rax
  .adox .r14 (.reg .rbx), -- 253: adox r14, rbx
  .mulx .rbx .rax (.mem ⟨some .rsi, none, 136#64⟩), -- 254: mulx rbx, rax, [rsi + (2 * 48)+ 0x28]
  .adcx .r14 (.reg .rax), -- 255: adcx r14, rax
  .adox .r15 (.reg .rbx), -- 256: adox r15, rbx
  .adcx .r15 (.reg .rbp), -- 257: adcx r15, rbp
  .adox .rcx (.reg .rbp), -- 258: adox rcx, rbp
  .adc (.reg .rcx) (.reg .rbp), -- 259: adc rcx, rbp
  .xor (.reg .rbp) (.reg .rbp), -- 260: xor ebp, ebp
  .mov (.reg .rdx) (.mem ⟨some .rsi, none, 128#64⟩), -- 261: mov rdx, [rsi + (2 * 48)+ 0x20]
  .mulx .rbx .rax (.mem ⟨some .rsi, none, 96#64⟩), -- 262: mulx rbx, rax, [rsi + (2 * 48)]
  .adcx .r12 (.reg .rax), -- 263: adcx r12, rax
  .adox .r13 (.reg .rbx), -- 264: adox r13, rbx
  .mov (.reg .rdx) (.mem ⟨some .rsi, none, 112#64⟩), -- 265: mov rdx, [rsi + (2 * 48)+ 0x10]
  .mulx .rbx .rax (.mem ⟨some .rsi, none, 120#64⟩), -- 266: mulx rbx, rax, [rsi + (2 * 48)+ 0x18]
  .adcx .r13 (.reg .rax), -- 267: adcx r13, rax
  .adox .r14 (.reg .rbx), -- 268: adox r14, rbx
  .mulx .rbx .rax (.mem ⟨some .rsi, none, 128#64⟩), -- 269: mulx rbx, rax, [rsi + (2 * 48)+ 0x20]
  .adcx .r14 (.reg .rax), -- 270: adcx r14, rax
  .adox .r15 (.reg .rbx), -- 271: adox r15, rbx
  .mulx .rdx .rax (.mem ⟨some .rsi, none, 136#64⟩), -- 272: mulx rdx, rax, [rsi + (2 * 48)+ 0x28]
  .adcx .r15 (.reg .rax), -- 273: adcx r15, rax
  .adox .rcx (.reg .rdx), -- 274: adox rcx, rdx
  .mov (.reg .rdx) (.mem ⟨some .rsi, none, 136#64⟩), -- 275: mov rdx, [rsi + (2 * 48)+ 0x28]
  .mulx .rbp .rbx (.mem ⟨some .rsi, none, 128#64⟩), -- 276: mulx rbp, rbx, [rsi + (2 * 48)+ 0x20]
  .mulx .rdx .rax (.mem ⟨some .rsi, none, 120#64⟩), -- 277: mulx rdx, rax, [rsi + (2 * 48)+ 0x18]
  .adcx .rcx (.reg .rax), -- 278: adcx rcx, rax
  .adox .rbx (.reg .rdx), -- 279: adox rbx, rdx
  .mov (.reg .rax) (.imm 0#64), -- 280: mov eax, 0x0
  .adcx .rbx (.reg .rax), -- 281: adcx rbx, rax
  .adox .rbp (.reg .rax), -- 282: adox rbp, rax
  .adc (.reg .rbp) (.reg .rax), -- 283: adc rbp, rax
  .xor (.reg .rax) (.reg .rax), -- 284: xor rax, rax
  .mov (.reg .rdx) (.mem ⟨some .rsi, none, 96#64⟩), -- 285: mov rdx, [rsi + (2 * 48)]
  .mulx .rax .r8 (.mem ⟨some .rsi, none, 96#64⟩), -- 286: mulx rax, r8, [rsi + (2 * 48)]
  .adcx .r9 (.reg .r9), -- 287: adcx r9, r9
  .adox .r9 (.reg .rax), -- 288: adox r9, rax
  .mov (.reg .rdx) (.mem ⟨some .rsi, none, 104#64⟩), -- 289: mov rdx, [rsi + (2 * 48)+ 0x8]
  .mulx .rdx .rax (.reg .rdx), -- 290: mulx rdx, rax, rdx
  .adcx .r10 (.reg .r10), -- 291: adcx r10, r10
  .adox .r10 (.reg .rax), -- 292: adox r10, rax
  .adcx .r11 (.reg .r11), -- 293: adcx r11, r11
  .adox .r11 (.reg .rdx), -- 294: adox r11, rdx
  .mov (.reg .rdx) (.mem ⟨some .rsi, none, 112#64⟩), -- 295: mov rdx, [rsi + (2 * 48)+ 0x10]
  .mulx .rdx .rax (.reg .rdx), -- 296: mulx rdx, rax, rdx
  .adcx .r12 (.reg .r12), -- 297: adcx r12, r12
  .adox .r12 (.reg .rax), -- 298: adox r12, rax
  .adcx .r13 (.reg .r13), -- 299: adcx r13, r13
  .adox .r13 (.reg .rdx), -- 300: adox r13, rdx
  .mov (.reg .rdx) (.mem ⟨some .rsi, none, 120#64⟩), -- 301: mov rdx, [rsi + (2 * 48)+ 0x18]
  .mulx .rdx .rax (.reg .rdx), -- 302: mulx rdx, rax, rdx
  .adcx .r14 (.reg .r14), -- 303: adcx r14, r14
  .adox .r14 (.reg .rax), -- 304: adox r14, rax
  .adcx .r15 (.reg .r15), -- 305: adcx r15, r15
  .adox .r15 (.reg .rdx), -- 306: adox r15, rdx
  .mov (.reg .rdx) (.mem ⟨some .rsi, none, 128#64⟩), -- 307: mov rdx, [rsi + (2 * 48)+ 0x20]
  .mulx .rdx .rax (.reg .rdx), -- 308: mulx rdx, rax, rdx
  .adcx .rcx (.reg .rcx), -- 309: adcx rcx, rcx
  .adox .rcx (.reg .rax), -- 310: adox rcx, rax
  .adcx .rbx (.reg .rbx), -- 311: adcx rbx, rbx
  .adox .rbx (.reg .rdx), -- 312: adox rbx, rdx
  .mov (.reg .rdx) (.mem ⟨some .rsi, none, 136#64⟩), -- 313: mov rdx, [rsi + (2 * 48)+ 0x28]
  .mulx .rsi .rax (.reg .rdx), -- 314: mulx rsi, rax, rdx
  .adcx .rbp (.reg .rbp), -- 315: adcx rbp, rbp
  .adox .rbp (.reg .rax), -- 316: adox rbp, rax
  .mov (.reg .rax) (.imm 0#64), -- 317: mov eax, 0x0
  .adcx .rsi (.reg .rax), -- 318: adcx rsi, rax
  .adox .rsi (.reg .rax), -- 319: adox rsi, rax
  .mov (.mem ⟨some .rsp, none, 240#64⟩) (.reg .rbx), -- 320: mov [rsp + (48* 5)], rbx
  .mov (.reg .rdx) (.reg .r8), -- 321: mov rdx, r8
  .shl (.reg .rdx) (.imm 32#64), -- 322: shl rdx, 0x20
  .add (.reg .rdx) (.reg .r8), -- 323: add rdx, r8
  .mov (.reg .rax) (.imm 0xffffffff00000001#64), -- 324: mov rax, 0xffffffff00000001
  .mulx .rax .r8 (.reg .rax), -- 325: mulx rax, r8, rax
  .mov (.reg .rbx) (.imm 0xffffffff#64), -- 326: mov ebx, 0xffffffff
  .mulx .r8 .rbx (.reg .rbx), -- 327: mulx r8, rbx, rbx
  .add (.reg .rax) (.reg .rbx), -- 328: add rax, rbx
  .adc (.reg .r8) (.reg .rdx), -- 329: adc r8, rdx
  .mov (.reg .rbx) (.imm 0#64), -- 330: mov ebx, 0x0
  .adc (.reg .rbx) (.reg .rbx), -- 331: adc rbx, rbx
  .sub (.reg .r9) (.reg .rax), -- 332: sub r9, rax
  .sbb (.reg .r10) (.reg .r8), -- 333: sbb r10, r8
  .sbb (.reg .r11) (.reg .rbx), -- 334: sbb r11, rbx
  .sbb (.reg .r12) (.imm 0#64), -- 335: sbb r12, 0x0
  .sbb (.reg .r13) (.imm 0#64), -- 336: sbb r13, 0x0
  .mov (.reg .r8) (.reg .rdx), -- 337: mov r8, rdx
  .sbb (.reg .r8) (.imm 0#64), -- 338: sbb r8, 0x0
  .mov (.reg .rdx) (.reg .r9), -- 339: mov rdx, r9
  .shl (.reg .rdx) (.imm 32#64), -- 340: shl rdx, 0x20
  .add (.reg .rdx) (.reg .r9), -- 341: add rdx, r9
  .mov (.reg .rax) (.imm 0xffffffff00000001#64), -- 342: mov rax, 0xffffffff00000001
  .mulx .rax .r9 (.reg .rax), -- 343: mulx rax, r9, rax
  .mov (.reg .rbx) (.imm 0xffffffff#64), -- 344: mov ebx, 0xffffffff
  .mulx .r9 .rbx (.reg .rbx), -- 345: mulx r9, rbx, rbx
  .add (.reg .rax) (.reg .rbx), -- 346: add rax, rbx
  .adc (.reg .r9) (.reg .rdx), -- 347: adc r9, rdx
  .mov (.reg .rbx) (.imm 0#64), -- 348: mov ebx, 0x0
  .adc (.reg .rbx) (.reg .rbx), -- 349: adc rbx, rbx
  .sub (.reg .r10) (.reg .rax), -- 350: sub r10, rax
  .sbb (.reg .r11) (.reg .r9), -- 351: sbb r11, r9
  .sbb (.reg .r12) (.reg .rbx), -- 352: sbb r12, rbx
  .sbb (.reg .r13) (.imm 0#64), -- 353: sbb r13, 0x0
  .sbb (.reg .r8) (.imm 0#64), -- 354: sbb r8, 0x0
  .mov (.reg .r9) (.reg .rdx), -- 355: mov r9, rdx
  .sbb (.reg .r9) (.imm 0#64), -- 356: sbb r9, 0x0
  .mov (.reg .rdx) (.reg .r10), -- 357: mov rdx, r10
  .shl (.reg .rdx) (.imm 32#64), -- 358: shl rdx, 0x20
  .add (.reg .rdx) (.reg .r10), -- 359: add rdx, r10
  .mov (.reg .rax) (.imm 0xffffffff00000001#64), -- 360: mov rax, 0xffffffff00000001
  .mulx .rax .r10 (.reg .rax), -- 361: mulx rax, r10, rax
  .mov (.reg .rbx) (.imm 0xffffffff#64), -- 362: mov ebx, 0xffffffff
  .mulx .r10 .rbx (.reg .rbx), -- 363: mulx r10, rbx, rbx
  .add (.reg .rax) (.reg .rbx), -- 364: add rax, rbx
  .adc (.reg .r10) (.reg .rdx), -- 365: adc r10, rdx
  .mov (.reg .rbx) (.imm 0#64), -- 366: mov ebx, 0x0
  .adc (.reg .rbx) (.reg .rbx), -- 367: adc rbx, rbx
  .sub (.reg .r11) (.reg .rax), -- 368: sub r11, rax
  .sbb (.reg .r12) (.reg .r10), -- 369: sbb r12, r10
  .sbb (.reg .r13) (.reg .rbx), -- 370: sbb r13, rbx
  .sbb (.reg .r8) (.imm 0#64), -- 371: sbb r8, 0x0
  .sbb (.reg .r9) (.imm 0#64), -- 372: sbb r9, 0x0
  .mov (.reg .r10) (.reg .rdx), -- 373: mov r10, rdx
  .sbb (.reg .r10) (.imm 0#64), -- 374: sbb r10, 0x0
  .mov (.reg .rdx) (.reg .r11), -- 375: mov rdx, r11
  .shl (.reg .rdx) (.imm 32#64), -- 376: shl rdx, 0x20
  .add (.reg .rdx) (.reg .r11), -- 377: add rdx, r11
  .mov (.reg .rax) (.imm 0xffffffff00000001#64), -- 378: mov rax, 0xffffffff00000001
  .mulx .rax .r11 (.reg .rax), -- 379: mulx rax, r11, rax
  .mov (.reg .rbx) (.imm 0xffffffff#64), -- 380: mov ebx, 0xffffffff
  .mulx .r11 .rbx (.reg .rbx), -- 381: mulx r11, rbx, rbx
  .add (.reg .rax) (.reg .rbx), -- 382: add rax, rbx
  .adc (.reg .r11) (.reg .rdx), -- 383: adc r11, rdx
  .mov (.reg .rbx) (.imm 0#64), -- 384: mov ebx, 0x0
  .adc (.reg .rbx) (.reg .rbx), -- 385: adc rbx, rbx
  .sub (.reg .r12) (.reg .rax), -- 386: sub r12, rax
  .sbb (.reg .r13) (.reg .r11), -- 387: sbb r13, r11
  .sbb (.reg .r8) (.reg .rbx), -- 388: sbb r8, rbx
  .sbb (.reg .r9) (.imm 0#64), -- 389: sbb r9, 0x0
  .sbb (.reg .r10) (.imm 0#64), -- 390: sbb r10, 0x0
  .mov (.reg .r11) (.reg .rdx), -- 391: mov r11, rdx
  .sbb (.reg .r11) (.imm 0#64), -- 392: sbb r11, 0x0
  .mov (.reg .rdx) (.reg .r12), -- 393: mov rdx, r12
  .shl (.reg .rdx) (.imm 32#64), -- 394: shl rdx, 0x20
  .add (.reg .rdx) (.reg .r12), -- 395: add rdx, r12
  .mov (.reg .rax) (.imm 0xffffffff00000001#64), -- 396: mov rax, 0xffffffff00000001
  .mulx .rax .r12 (.reg .rax), -- 397: mulx rax, r12, rax
  .mov (.reg .rbx) (.imm 0xffffffff#64), -- 398: mov ebx, 0xffffffff
  .mulx .r12 .rbx (.reg .rbx), -- 399: mulx r12, rbx, rbx
  .add (.reg .rax) (.reg .rbx), -- 400: add rax, rbx
  .adc (.reg .r12) (.reg .rdx), -- 401: adc r12, rdx
  .mov (.reg .rbx) (.imm 0#64), -- 402: mov ebx, 0x0
  .adc (.reg .rbx) (.reg .rbx), -- 403: adc rbx, rbx
  .sub (.reg .r13) (.reg .rax), -- 404: sub r13, rax
  .sbb (.reg .r8) (.reg .r12), -- 405: sbb r8, r12
  .sbb (.reg .r9) (.reg .rbx), -- 406: sbb r9, rbx
  .sbb (.reg .r10) (.imm 0#64), -- 407: sbb r10, 0x0
  .sbb (.reg .r11) (.imm 0#64), -- 408: sbb r11, 0x0
  .mov (.reg .r12) (.reg .rdx), -- 409: mov r12, rdx
  .sbb (.reg .r12) (.imm 0#64), -- 410: sbb r12, 0x0
  .mov (.reg .rdx) (.reg .r13), -- 411: mov rdx, r13
  .shl (.reg .rdx) (.imm 32#64), -- 412: shl rdx, 0x20
  .add (.reg .rdx) (.reg .r13), -- 413: add rdx, r13
  .mov (.reg .rax) (.imm 0xffffffff00000001#64), -- 414: mov rax, 0xffffffff00000001
  .mulx .rax .r13 (.reg .rax), -- 415: mulx rax, r13, rax
  .mov (.reg .rbx) (.imm 0xffffffff#64), -- 416: mov ebx, 0xffffffff
  .mulx .r13 .rbx (.reg .rbx), -- 417: mulx r13, rbx, rbx
  .add (.reg .rax) (.reg .rbx), -- 418: add rax, rbx
  .adc (.reg .r13) (.reg .rdx), -- 419: adc r13, rdx
  .mov (.reg .rbx) (.imm 0#64), -- 420: mov ebx, 0x0
  .adc (.reg .rbx) (.reg .rbx), -- 421: adc rbx, rbx
  .sub (.reg .r8) (.reg .rax), -- 422: sub r8, rax
  .sbb (.reg .r9) (.reg .r13), -- 423: sbb r9, r13
  .sbb (.reg .r10) (.reg .rbx), -- 424: sbb r10, rbx
  .sbb (.reg .r11) (.imm 0#64), -- 425: sbb r11, 0x0
  .sbb (.reg .r12) (.imm 0#64), -- 426: sbb r12, 0x0
  .mov (.reg .r13) (.reg .rdx), -- 427: mov r13, rdx
  .sbb (.reg .r13) (.imm 0#64), -- 428: sbb r13, 0x0
  .mov (.reg .rbx) (.mem ⟨some .rsp, none, 240#64⟩), -- 429: mov rbx, [rsp + (48* 5)]
  .add (.reg .r14) (.reg .r8), -- 430: add r14, r8
  .adc (.reg .r15) (.reg .r9), -- 431: adc r15, r9
  .adc (.reg .rcx) (.reg .r10), -- 432: adc rcx, r10
  .adc (.reg .rbx) (.reg .r11), -- 433: adc rbx, r11
  .adc (.reg .rbp) (.reg .r12), -- 434: adc rbp, r12
  .adc (.reg .rsi) (.reg .r13), -- 435: adc rsi, r13
  .mov (.reg .r8) (.imm 0#64), -- 436: mov r8d, 0x0
  .mov (.reg .rax) (.imm 0xffffffff00000001#64), -- 437: mov rax, 0xffffffff00000001
  .mov (.reg .r9) (.imm 0xffffffff#64), -- 438: mov r9d, 0xffffffff
  .mov (.reg .r10) (.imm 1#64), -- 439: mov r10d, 0x1
  .cmov .nc .rax (.reg .r8), -- 440: cmovnc rax, r8
  .cmov .nc .r9 (.reg .r8), -- 441: cmovnc r9, r8
  .cmov .nc .r10 (.reg .r8), -- 442: cmovnc r10, r8
  .add (.reg .r14) (.reg .rax), -- 443: add r14, rax
  .adc (.reg .r15) (.reg .r9), -- 444: adc r15, r9
  .adc (.reg .rcx) (.reg .r10), -- 445: adc rcx, r10
  .adc (.reg .rbx) (.reg .r8), -- 446: adc rbx, r8
  .adc (.reg .rbp) (.reg .r8), -- 447: adc rbp, r8
  .adc (.reg .rsi) (.reg .r8), -- 448: adc rsi, r8
  .mov (.mem ⟨some .rsp, none, 240#64⟩) (.reg .r14), -- 449: mov [rsp + (48* 5)], r14
  .mov (.mem ⟨some .rsp, none, 248#64⟩) (.reg .r15), -- 450: mov [rsp + (48* 5)+ 0x8], r15
  .mov (.mem ⟨some .rsp, none, 256#64⟩) (.reg .rcx), -- 451: mov [rsp + (48* 5)+ 0x10], rcx
  .mov (.mem ⟨some .rsp, none, 264#64⟩) (.reg .rbx), -- 452: mov [rsp + (48* 5)+ 0x18], rbx
  .mov (.mem ⟨some .rsp, none, 272#64⟩) (.reg .rbp), -- 453: mov [rsp + (48* 5)+ 0x20], rbp
  .mov (.mem ⟨some .rsp, none, 280#64⟩) (.reg .rsi), -- 454: mov [rsp + (48* 5)+ 0x28], rsi
  .mov (.reg .rsi) (.mem ⟨some .rsp, none, 336#64⟩), -- 455: mov rsi, [rsp + (48* 7)]
  .mov (.reg .rcx) (.mem ⟨some .rsp, none, 344#64⟩), -- 456: mov rcx, [rsp + (48* 7 + 8)]
  .mov (.reg .rdx) (.mem ⟨some .rsi, none, 48#64⟩), -- 457: mov rdx, [rsi + 48]
  .xor (.reg .r15) (.reg .r15), -- 458: xor r15d, r15d
  .mulx .r9 .r8 (.mem ⟨some .rcx, none, 96#64⟩), -- 459: mulx r9, r8, [rcx + (2 * 48)]
  .mulx .r10 .rbx (.mem ⟨some .rcx, none, 104#64⟩), -- 460: mulx r10, rbx, [rcx + (2 * 48)+ 0x8]
  .add (.reg .r9) (.reg .rbx), -- 461: add r9, rbx
  .mulx .r11 .rbx (.mem ⟨some .rcx, none, 112#64⟩), -- 462: mulx r11, rbx, [rcx + (2 * 48)+ 0x10]
  .adc (.reg .r10) (.reg .rbx), -- 463: adc r10, rbx
  .mulx .r12 .rbx (.mem ⟨some .rcx, none, 120#64⟩), -- 464: mulx r12, rbx, [rcx + (2 * 48)+ 0x18]
  .adc (.reg .r11) (.reg .rbx), -- 465: adc r11, rbx
  .mulx .r13 .rbx (.mem ⟨some .rcx, none, 128#64⟩), -- 466: mulx r13, rbx, [rcx + (2 * 48)+ 0x20]
  .adc (.reg .r12) (.reg .rbx), -- 467: adc r12, rbx
  .mulx .r14 .rbx (.mem ⟨some .rcx, none, 136#64⟩), -- 468: mulx r14, rbx, [rcx + (2 * 48)+ 0x28]
  .adc (.reg .r13) (.reg .rbx), -- 469: adc r13, rbx
  .adc (.reg .r14) (.reg .r15), -- 470: adc r14, r15
  .mov (.reg .rdx) (.reg .r8), -- 471: mov rdx, r8
  .shl (.reg .rdx) (.imm 32#64), -- 472: shl rdx, 0x20
  .add (.reg .rdx) (.reg .r8), -- 473: add rdx, r8
  .xor (.reg .rbp) (.reg .rbp), -- 474: xor ebp, ebp
  .mov (.reg .rax) (.imm 0xffffffff00000001#64), -- 475: mov rax, 0xffffffff00000001
  .mulx .rax .rbx (.reg .rax), -- 476: mulx rax, rbx, rax
  .mov (.reg .rbx) (.imm 0xffffffff#64), -- 477: mov ebx, 0xffffffff
  .mulx .rbx .r8 (.reg .rbx), -- 478: mulx rbx, r8, rbx
  .adc (.reg .rax) (.reg .r8), -- 479: adc rax, r8
  .adc (.reg .rbx) (.reg .rdx), -- 480: adc rbx, rdx
  .adc32 .rbp .rbp, -- 481: adc ebp, ebp
  .sub (.reg .r9) (.reg .rax), -- 482: sub r9, rax
  .sbb (.reg .r10) (.reg .rbx), -- 483: sbb r10, rbx
  .sbb (.reg .r11) (.reg .rbp), -- 484: sbb r11, rbp
  .sbb (.reg .r12) (.imm 0#64), -- 485: sbb r12, 0x0
  .sbb (.reg .r13) (.imm 0#64), -- 486: sbb r13, 0x0
  .sbb (.reg .rdx) (.imm 0#64), -- 487: sbb rdx, 0x0
  .add (.reg .r14) (.reg .rdx), -- 488: add r14, rdx
  .adc (.reg .r15) (.imm 0#64), -- 489: adc r15, 0x0
  .mov (.reg .rdx) (.mem ⟨some .rsi, none, 56#64⟩), -- 490: mov rdx, [rsi + 48+ 0x8]
  .xor (.reg .r8) (.reg .r8), -- 491: xor r8d, r8d
  .mulx .rbx .rax (.mem ⟨some .rcx, none, 96#64⟩), -- 492: mulx rbx, rax, [rcx + (2 * 48)]
  .adcx .r9 (.reg .rax), -- 493: adcx r9, rax
  .adox .r10 (.reg .rbx), -- 494: adox r10, rbx
  .mulx .rbx .rax (.mem ⟨some .rcx, none, 104#64⟩), -- 495: mulx rbx, rax, [rcx + (2 * 48)+ 0x8]
  .adcx .r10 (.reg .rax), -- 496: adcx r10, rax
  .adox .r11 (.reg .rbx), -- 497: adox r11, rbx
  .mulx .rbx .rax (.mem ⟨some .rcx, none, 112#64⟩), -- 498: mulx rbx, rax, [rcx + (2 * 48)+ 0x10]
  .adcx .r11 (.reg .rax), -- 499: adcx r11, rax
  .adox .r12 (.reg .rbx), -- 500: adox r12, rbx
  .mulx .rbx .rax (.mem ⟨some .rcx, none, 120#64⟩), -- 501: mulx rbx, rax, [rcx + (2 * 48)+ 0x18]
  .adcx .r12 (.reg .rax), -- 502: adcx r12, rax
  .adox .r13 (.reg .rbx), -- 503: adox r13, rbx
  .mulx .rbx .rax (.mem ⟨some .rcx, none, 128#64⟩), -- 504: mulx rbx, rax, [rcx + (2 * 48)+ 0x20]
  .adcx .r13 (.reg .rax), -- 505: adcx r13, rax
  .adox .r14 (.reg .rbx), -- 506: adox r14, rbx
  .adox .r15 (.reg .r8), -- 507: adox r15, r8
  .mulx .rbx .rax (.mem ⟨some .rcx, none, 136#64⟩), -- 508: mulx rbx, rax, [rcx + (2 * 48)+ 0x28]
  .adc (.reg .r14) (.reg .rax), -- 509: adc r14, rax
  .adc (.reg .r15) (.reg .rbx), -- 510: adc r15, rbx
  .adc (.reg .r8) (.reg .r8), -- 511: adc r8, r8
  .mov (.reg .rdx) (.reg .r9), -- 512: mov rdx, r9
  .shl (.reg .rdx) (.imm 32#64), -- 513: shl rdx, 0x20
  .add (.reg .rdx) (.reg .r9), -- 514: add rdx, r9
  .xor (.reg .rbp) (.reg .rbp), -- 515: xor ebp, ebp
  .mov (.reg .rax) (.imm 0xffffffff00000001#64), -- 516: mov rax, 0xffffffff00000001
  .mulx .rax .rbx (.reg .rax), -- 517: mulx rax, rbx, rax
  .mov (.reg .rbx) (.imm 0xffffffff#64), -- 518: mov ebx, 0xffffffff
  .mulx .rbx .r9 (.reg .rbx), -- 519: mulx rbx, r9, rbx
  .adc (.reg .rax) (.reg .r9), -- 520: adc rax, r9
  .adc (.reg .rbx) (.reg .rdx), -- 521: adc rbx, rdx
  .adc32 .rbp .rbp, -- 522: adc ebp, ebp
  .sub (.reg .r10) (.reg .rax), -- 523: sub r10, rax
  .sbb (.reg .r11) (.reg .rbx), -- 524: sbb r11, rbx
  .sbb (.reg .r12) (.reg .rbp), -- 525: sbb r12, rbp
  .sbb (.reg .r13) (.imm 0#64), -- 526: sbb r13, 0x0
  .sbb (.reg .r14) (.imm 0#64), -- 527: sbb r14, 0x0
  .sbb (.reg .rdx) (.imm 0#64), -- 528: sbb rdx, 0x0
  .add (.reg .r15) (.reg .rdx), -- 529: add r15, rdx
  .adc (.reg .r8) (.imm 0#64), -- 530: adc r8, 0x0
  .mov (.reg .rdx) (.mem ⟨some .rsi, none, 64#64⟩), -- 531: mov rdx, [rsi + 48+ 0x10]
  .xor (.reg .r9) (.reg .r9), -- 532: xor r9d, r9d
  .mulx .rbx .rax (.mem ⟨some .rcx, none, 96#64⟩), -- 533: mulx rbx, rax, [rcx + (2 * 48)]
  .adcx .r10 (.reg .rax), -- 534: adcx r10, rax
  .adox .r11 (.reg .rbx), -- 535: adox r11, rbx
  .mulx .rbx .rax (.mem ⟨some .rcx, none, 104#64⟩), -- 536: mulx rbx, rax, [rcx + (2 * 48)+ 0x8]
  .adcx .r11 (.reg .rax), -- 537: adcx r11, rax
  .adox .r12 (.reg .rbx), -- 538: adox r12, rbx
  .mulx .rbx .rax (.mem ⟨some .rcx, none, 112#64⟩), -- 539: mulx rbx, rax, [rcx + (2 * 48)+ 0x10]
  .adcx .r12 (.reg .rax), -- 540: adcx r12, rax
  .adox .r13 (.reg .rbx), -- 541: adox r13, rbx
  .mulx .rbx .rax (.mem ⟨some .rcx, none, 120#64⟩), -- 542: mulx rbx, rax, [rcx + (2 * 48)+ 0x18]
  .adcx .r13 (.reg .rax), -- 543: adcx r13, rax
  .adox .r14 (.reg .rbx), -- 544: adox r14, rbx
  .mulx .rbx .rax (.mem ⟨some .rcx, none, 128#64⟩), -- 545: mulx rbx, rax, [rcx + (2 * 48)+ 0x20]
  .adcx .r14 (.reg .rax), -- 546: adcx r14, rax
  .adox .r15 (.reg .rbx), -- 547: adox r15, rbx
  .adox .r8 (.reg .r9), -- 548: adox r8, r9
  .mulx .rbx .rax (.mem ⟨some .rcx, none, 136#64⟩), -- 549: mulx rbx, rax, [rcx + (2 * 48)+ 0x28]
  .adc (.reg .r15) (.reg .rax), -- 550: adc r15, rax
  .adc (.reg .r8) (.reg .rbx), -- 551: adc r8, rbx
  .adc (.reg .r9) (.reg .r9), -- 552: adc r9, r9
  .mov (.reg .rdx) (.reg .r10), -- 553: mov rdx, r10
  .shl (.reg .rdx) (.imm 32#64), -- 554: shl rdx, 0x20
  .add (.reg .rdx) (.reg .r10), -- 555: add rdx, r10
  .xor (.reg .rbp) (.reg .rbp), -- 556: xor ebp, ebp
  .mov (.reg .rax) (.imm 0xffffffff00000001#64), -- 557: mov rax, 0xffffffff00000001
  .mulx .rax .rbx (.reg .rax), -- 558: mulx rax, rbx, rax
  .mov (.reg .rbx) (.imm 0xffffffff#64), -- 559: mov ebx, 0xffffffff
  .mulx .rbx .r10 (.reg .rbx), -- 560: mulx rbx, r10, rbx
  .adc (.reg .rax) (.reg .r10), -- 561: adc rax, r10
  .adc (.reg .rbx) (.reg .rdx), -- 562: adc rbx, rdx
  .adc32 .rbp .rbp, -- 563: adc ebp, ebp
  .sub (.reg .r11) (.reg .rax), -- 564: sub r11, rax
  .sbb (.reg .r12) (.reg .rbx), -- 565: sbb r12, rbx
  .sbb (.reg .r13) (.reg .rbp), -- 566: sbb r13, rbp
  .sbb (.reg .r14) (.imm 0#64), -- 567: sbb r14, 0x0
  .sbb (.reg .r15) (.imm 0#64), -- 568: sbb r15, 0x0
  .sbb (.reg .rdx) (.imm 0#64), -- 569: sbb rdx, 0x0
  .add (.reg .r8) (.reg .rdx), -- 570: add r8, rdx
  .adc (.reg .r9) (.imm 0#64), -- 571: adc r9, 0x0
  .mov (.reg .rdx) (.mem ⟨some .rsi, none, 72#64⟩), -- 572: mov rdx, [rsi + 48+ 0x18]
  .xor (.reg .r10) (.reg .r10), -- 573: xor r10d, r10d
  .mulx .rbx .rax (.mem ⟨some .rcx, none, 96#64⟩), -- 574: mulx rbx, rax, [rcx + (2 * 48)]
  .adcx .r11 (.reg .rax), -- 575: adcx r11, rax
  .adox .r12 (.reg .rbx), -- 576: adox r12, rbx
  .mulx .rbx .rax (.mem ⟨some .rcx, none, 104#64⟩), -- 577: mulx rbx, rax, [rcx + (2 * 48)+ 0x8]
  .adcx .r12 (.reg .rax), -- 578: adcx r12, rax
  .adox .r13 (.reg .rbx), -- 579: adox r13, rbx
  .mulx .rbx .rax (.mem ⟨some .rcx, none, 112#64⟩), -- 580: mulx rbx, rax, [rcx + (2 * 48)+ 0x10]
  .adcx .r13 (.reg .rax), -- 581: adcx r13, rax
  .adox .r14 (.reg .rbx), -- 582: adox r14, rbx
  .mulx .rbx .rax (.mem ⟨some .rcx, none, 120#64⟩), -- 583: mulx rbx, rax, [rcx + (2 * 48)+ 0x18]
  .adcx .r14 (.reg .rax), -- 584: adcx r14, rax
  .adox .r15 (.reg .rbx), -- 585: adox r15, rbx
  .mulx .rbx .rax (.mem ⟨some .rcx, none, 128#64⟩), -- 586: mulx rbx, rax, [rcx + (2 * 48)+ 0x20]
  .adcx .r15 (.reg .rax), -- 587: adcx r15, rax
  .adox .r8 (.reg .rbx), -- 588: adox r8, rbx
  .adox .r9 (.reg .r10), -- 589: adox r9, r10
  .mulx .rbx .rax (.mem ⟨some .rcx, none, 136#64⟩), -- 590: mulx rbx, rax, [rcx + (2 * 48)+ 0x28]
  .adc (.reg .r8) (.reg .rax), -- 591: adc r8, rax
  .adc (.reg .r9) (.reg .rbx), -- 592: adc r9, rbx
  .adc (.reg .r10) (.reg .r10), -- 593: adc r10, r10
  .mov (.reg .rdx) (.reg .r11), -- 594: mov rdx, r11
  .shl (.reg .rdx) (.imm 32#64), -- 595: shl rdx, 0x20
  .add (.reg .rdx) (.reg .r11), -- 596: add rdx, r11
  .xor (.reg .rbp) (.reg .rbp), -- 597: xor ebp, ebp
  .mov (.reg .rax) (.imm 0xffffffff00000001#64), -- 598: mov rax, 0xffffffff00000001
  .mulx .rax .rbx (.reg .rax), -- 599: mulx rax, rbx, rax
  .mov (.reg .rbx) (.imm 0xffffffff#64), -- 600: mov ebx, 0xffffffff
  .mulx .rbx .r11 (.reg .rbx), -- 601: mulx rbx, r11, rbx
  .adc (.reg .rax) (.reg .r11), -- 602: adc rax, r11
  .adc (.reg .rbx) (.reg .rdx), -- 603: adc rbx, rdx
  .adc32 .rbp .rbp, -- 604: adc ebp, ebp
  .sub (.reg .r12) (.reg .rax), -- 605: sub r12, rax
  .sbb (.reg .r13) (.reg .rbx), -- 606: sbb r13, rbx
  .sbb (.reg .r14) (.reg .rbp), -- 607: sbb r14, rbp
  .sbb (.reg .r15) (.imm 0#64), -- 608: sbb r15, 0x0
  .sbb (.reg .r8) (.imm 0#64), -- 609: sbb r8, 0x0
  .sbb (.reg .rdx) (.imm 0#64), -- 610: sbb rdx, 0x0
  .add (.reg .r9) (.reg .rdx), -- 611: add r9, rdx
  .adc (.reg .r10) (.imm 0#64), -- 612: adc r10, 0x0
  .mov (.reg .rdx) (.mem ⟨some .rsi, none, 80#64⟩), -- 613: mov rdx, [rsi + 48+ 0x20]
  .xor (.reg .r11) (.reg .r11), -- 614: xor r11d, r11d
  .mulx .rbx .rax (.mem ⟨some .rcx, none, 96#64⟩), -- 615: mulx rbx, rax, [rcx + (2 * 48)]
  .adcx .r12 (.reg .rax), -- 616: adcx r12, rax
  .adox .r13 (.reg .rbx), -- 617: adox r13, rbx
  .mulx .rbx .rax (.mem ⟨some .rcx, none, 104#64⟩), -- 618: mulx rbx, rax, [rcx + (2 * 48)+ 0x8]
  .adcx .r13 (.reg .rax), -- 619: adcx r13, rax
  .adox .r14 (.reg .rbx), -- 620: adox r14, rbx
  .mulx .rbx .rax (.mem ⟨some .rcx, none, 112#64⟩), -- 621: mulx rbx, rax, [rcx + (2 * 48)+ 0x10]
  .adcx .r14 (.reg .rax), -- 622: adcx r14, rax
  .adox .r15 (.reg .rbx), -- 623: adox r15, rbx
  .mulx .rbx .rax (.mem ⟨some .rcx, none, 120#64⟩), -- 624: mulx rbx, rax, [rcx + (2 * 48)+ 0x18]
  .adcx .r15 (.reg .rax), -- 625: adcx r15, rax
  .adox .r8 (.reg .rbx), -- 626: adox r8, rbx
  .mulx .rbx .rax (.mem ⟨some .rcx, none, 128#64⟩), -- 627: mulx rbx, rax, [rcx + (2 * 48)+ 0x20]
  .adcx .r8 (.reg .rax), -- 628: adcx r8, rax
  .adox .r9 (.reg .rbx), -- 629: adox r9, rbx
  .adox .r10 (.reg .r11), -- 630: adox r10, r11
  .mulx .rbx .rax (.mem ⟨some .rcx, none, 136#64⟩), -- 631: mulx rbx, rax, [rcx + (2 * 48)+ 0x28]
  .adc (.reg .r9) (.reg .rax), -- 632: adc r9, rax
  .adc (.reg .r10) (.reg .rbx), -- 633: adc r10, rbx
  .adc (.reg .r11) (.reg .r11), -- 634: adc r11, r11
  .mov (.reg .rdx) (.reg .r12), -- 635: mov rdx, r12
  .shl (.reg .rdx) (.imm 32#64), -- 636: shl rdx, 0x20
  .add (.reg .rdx) (.reg .r12), -- 637: add rdx, r12
  .xor (.reg .rbp) (.reg .rbp), -- 638: xor ebp, ebp
  .mov (.reg .rax) (.imm 0xffffffff00000001#64), -- 639: mov rax, 0xffffffff00000001
  .mulx .rax .rbx (.reg .rax), -- 640: mulx rax, rbx, rax
  .mov (.reg .rbx) (.imm 0xffffffff#64), -- 641: mov ebx, 0xffffffff
  .mulx .rbx .r12 (.reg .rbx), -- 642: mulx rbx, r12, rbx
  .adc (.reg .rax) (.reg .r12), -- 643: adc rax, r12
  .adc (.reg .rbx) (.reg .rdx), -- 644: adc rbx, rdx
  .adc32 .rbp .rbp, -- 645: adc ebp, ebp
  .sub (.reg .r13) (.reg .rax), -- 646: sub r13, rax
  .sbb (.reg .r14) (.reg .rbx), -- 647: sbb r14, rbx
  .sbb (.reg .r15) (.reg .rbp), -- 648: sbb r15, rbp
  .sbb (.reg .r8) (.imm 0#64), -- 649: sbb r8, 0x0
  .sbb (.reg .r9) (.imm 0#64), -- 650: sbb r9, 0x0
  .sbb (.reg .rdx) (.imm 0#64), -- 651: sbb rdx, 0x0
  .add (.reg .r10) (.reg .rdx), -- 652: add r10, rdx
  .adc (.reg .r11) (.imm 0#64), -- 653: adc r11, 0x0
  .mov (.reg .rdx) (.mem ⟨some .rsi, none, 88#64⟩), -- 654: mov rdx, [rsi + 48+ 0x28]
  .xor (.reg .r12) (.reg .r12), -- 655: xor r12d, r12d
  .mulx .rbx .rax (.mem ⟨some .rcx, none, 96#64⟩), -- 656: mulx rbx, rax, [rcx + (2 * 48)]
  .adcx .r13 (.reg .rax), -- 657: adcx r13, rax
  .adox .r14 (.reg .rbx), -- 658: adox r14, rbx
  .mulx .rbx .rax (.mem ⟨some .rcx, none, 104#64⟩), -- 659: mulx rbx, rax, [rcx + (2 * 48)+ 0x8]
  .adcx .r14 (.reg .rax), -- 660: adcx r14, rax
  .adox .r15 (.reg .rbx), -- 661: adox r15, rbx
  .mulx .rbx .rax (.mem ⟨some .rcx, none, 112#64⟩), -- 662: mulx rbx, rax, [rcx + (2 * 48)+ 0x10]
  .adcx .r15 (.reg .rax), -- 663: adcx r15, rax
  .adox .r8 (.reg .rbx), -- 664: adox r8, rbx
  .mulx .rbx .rax (.mem ⟨some .rcx, none, 120#64⟩), -- 665: mulx rbx, rax, [rcx + (2 * 48)+ 0x18]
  .adcx .r8 (.reg .rax), -- 666: adcx r8, rax
  .adox .r9 (.reg .rbx), -- 667: adox r9, rbx
  .mulx .rbx .rax (.mem ⟨some .rcx, none, 128#64⟩), -- 668: mulx rbx, rax, [rcx + (2 * 48)+ 0x20]
  .adcx .r9 (.reg .rax), -- 669: adcx r9, rax
  .adox .r10 (.reg .rbx), -- 670: adox r10, rbx
  .adox .r11 (.reg .r12), -- 671: adox r11, r12
  .mulx .rbx .rax (.mem ⟨some .rcx, none, 136#64⟩), -- 672: mulx rbx, rax, [rcx + (2 * 48)+ 0x28]
  .adc (.reg .r10) (.reg .rax), -- 673: adc r10, rax
  .adc (.reg .r11) (.reg .rbx), -- 674: adc r11, rbx
  .adc (.reg .r12) (.reg .r12), -- 675: adc r12, r12
  .mov (.reg .rdx) (.reg .r13), -- 676: mov rdx, r13
  .shl (.reg .rdx) (.imm 32#64), -- 677: shl rdx, 0x20
  .add (.reg .rdx) (.reg .r13), -- 678: add rdx, r13
  .xor (.reg .rbp) (.reg .rbp), -- 679: xor ebp, ebp
  .mov (.reg .rax) (.imm 0xffffffff00000001#64), -- 680: mov rax, 0xffffffff00000001
  .mulx .rax .rbx (.reg .rax), -- 681: mulx rax, rbx, rax
  .mov (.reg .rbx) (.imm 0xffffffff#64), -- 682: mov ebx, 0xffffffff
  .mulx .rbx .r13 (.reg .rbx), -- 683: mulx rbx, r13, rbx
  .adc (.reg .rax) (.reg .r13), -- 684: adc rax, r13
  .adc (.reg .rbx) (.reg .rdx), -- 685: adc rbx, rdx
  .adc32 .rbp .rbp, -- 686: adc ebp, ebp
  .sub (.reg .r14) (.reg .rax), -- 687: sub r14, rax
  .sbb (.reg .r15) (.reg .rbx), -- 688: sbb r15, rbx
  .sbb (.reg .r8) (.reg .rbp), -- 689: sbb r8, rbp
  .sbb (.reg .r9) (.imm 0#64), -- 690: sbb r9, 0x0
  .sbb (.reg .r10) (.imm 0#64), -- 691: sbb r10, 0x0
  .sbb (.reg .rdx) (.imm 0#64), -- 692: sbb rdx, 0x0
  .add (.reg .r11) (.reg .rdx), -- 693: add r11, rdx
  .adc (.reg .r12) (.imm 0#64), -- 694: adc r12, 0x0
  .xor (.reg .rdx) (.reg .rdx), -- 695: xor edx, edx
  .xor (.reg .rbp) (.reg .rbp), -- 696: xor ebp, ebp
  .xor (.reg .r13) (.reg .r13), -- 697: xor r13d, r13d
  .mov (.reg .rax) (.imm 0xffffffff00000001#64), -- 698: mov rax, 0xffffffff00000001
  .add (.reg .rax) (.reg .r14), -- 699: add rax, r14
  .mov (.reg .rbx) (.imm 0xffffffff#64), -- 700: mov ebx, 0xffffffff
  .adc (.reg .rbx) (.reg .r15), -- 701: adc rbx, r15
  .mov (.reg .rcx) (.imm 1#64), -- 702: mov ecx, 0x1
  .adc (.reg .rcx) (.reg .r8), -- 703: adc rcx, r8
  .adc (.reg .rdx) (.reg .r9), -- 704: adc rdx, r9
  .adc (.reg .rbp) (.reg .r10), -- 705: adc rbp, r10
  .adc (.reg .r13) (.reg .r11), -- 706: adc r13, r11
  .adc (.reg .r12) (.imm 0#64), -- 707: adc r12, 0x0
  .cmov .nz .r14 (.reg .rax), -- 708: cmovne r14, rax
  .cmov .nz .r15 (.reg .rbx), -- 709: cmovne r15, rbx
  .cmov .nz .r8 (.reg .rcx), -- 710: cmovne r8, rcx
  .cmov .nz .r9 (.reg .rdx), -- 711: cmovne r9, rdx
  .cmov .nz .r10 (.reg .rbp), -- 712: cmovne r10, rbp
  .cmov .nz .r11 (.reg .r13), -- 713: cmovne r11, r13
  .mov (.mem ⟨some .rsp, none, 288#64⟩) (.reg .r14), -- 714: mov [rsp + (48* 6)], r14
  .mov (.mem ⟨some .rsp, none, 296#64⟩) (.reg .r15), -- 715: mov [rsp + (48* 6)+ 0x8], r15
  .mov (.mem ⟨some .rsp, none, 304#64⟩) (.reg .r8), -- 716: mov [rsp + (48* 6)+ 0x10], r8
  .mov (.mem ⟨some .rsp, none, 312#64⟩) (.reg .r9), -- 717: mov [rsp + (48* 6)+ 0x18], r9
  .mov (.mem ⟨some .rsp, none, 320#64⟩) (.reg .r10), -- 718: mov [rsp + (48* 6)+ 0x20], r10
  .mov (.mem ⟨some .rsp, none, 328#64⟩) (.reg .r11), -- 719: mov [rsp + (48* 6)+ 0x28], r11
  .mov (.reg .rsi) (.mem ⟨some .rsp, none, 336#64⟩), -- 720: mov rsi, [rsp + (48* 7)]
  .mov (.reg .rcx) (.mem ⟨some .rsp, none, 344#64⟩), -- 721: mov rcx, [rsp + (48* 7 + 8)]
  .mov (.reg .rdx) (.mem ⟨some .rcx, none, 48#64⟩), -- 722: mov rdx, [rcx + 48]
  .xor (.reg .r15) (.reg .r15), -- 723: xor r15d, r15d
  .mulx .r9 .r8 (.mem ⟨some .rsi, none, 96#64⟩), -- 724: mulx r9, r8, [rsi + (2 * 48)]
  .mulx .r10 .rbx (.mem ⟨some .rsi, none, 104#64⟩), -- 725: mulx r10, rbx, [rsi + (2 * 48)+ 0x8]
  .add (.reg .r9) (.reg .rbx), -- 726: add r9, rbx
  .mulx .r11 .rbx (.mem ⟨some .rsi, none, 112#64⟩), -- 727: mulx r11, rbx, [rsi + (2 * 48)+ 0x10]
  .adc (.reg .r10) (.reg .rbx), -- 728: adc r10, rbx
  .mulx .r12 .rbx (.mem ⟨some .rsi, none, 120#64⟩), -- 729: mulx r12, rbx, [rsi + (2 * 48)+ 0x18]
  .adc (.reg .r11) (.reg .rbx), -- 730: adc r11, rbx
  .mulx .r13 .rbx (.mem ⟨some .rsi, none, 128#64⟩), -- 731: mulx r13, rbx, [rsi + (2 * 48)+ 0x20]
  .adc (.reg .r12) (.reg .rbx), -- 732: adc r12, rbx
  .mulx .r14 .rbx (.mem ⟨some .rsi, none, 136#64⟩), -- 733: mulx r14, rbx, [rsi + (2 * 48)+ 0x28]
  .adc (.reg .r13) (.reg .rbx), -- 734: adc r13, rbx
  .adc (.reg .r14) (.reg .r15), -- 735: adc r14, r15
  .mov (.reg .rdx) (.reg .r8), -- 736: mov rdx, r8
  .shl (.reg .rdx) (.imm 32#64), -- 737: shl rdx, 0x20
  .add (.reg .rdx) (.reg .r8), -- 738: add rdx, r8
  .xor (.reg .rbp) (.reg .rbp), -- 739: xor ebp, ebp
  .mov (.reg .rax) (.imm 0xffffffff00000001#64), -- 740: mov rax, 0xffffffff00000001
  .mulx .rax .rbx (.reg .rax), -- 741: mulx rax, rbx, rax
  .mov (.reg .rbx) (.imm 0xffffffff#64), -- 742: mov ebx, 0xffffffff
  .mulx .rbx .r8 (.reg .rbx), -- 743: mulx rbx, r8, rbx
  .adc (.reg .rax) (.reg .r8), -- 744: adc rax, r8
  .adc (.reg .rbx) (.reg .rdx), -- 745: adc rbx, rdx
  .adc32 .rbp .rbp, -- 746: adc ebp, ebp
  .sub (.reg .r9) (.reg .rax), -- 747: sub r9, rax
  .sbb (.reg .r10) (.reg .rbx), -- 748: sbb r10, rbx
  .sbb (.reg .r11) (.reg .rbp), -- 749: sbb r11, rbp
  .sbb (.reg .r12) (.imm 0#64), -- 750: sbb r12, 0x0
  .sbb (.reg .r13) (.imm 0#64), -- 751: sbb r13, 0x0
  .sbb (.reg .rdx) (.imm 0#64), -- 752: sbb rdx, 0x0
  .add (.reg .r14) (.reg .rdx), -- 753: add r14, rdx
  .adc (.reg .r15) (.imm 0#64), -- 754: adc r15, 0x0
  .mov (.reg .rdx) (.mem ⟨some .rcx, none, 56#64⟩), -- 755: mov rdx, [rcx + 48+ 0x8]
  .xor (.reg .r8) (.reg .r8), -- 756: xor r8d, r8d
  .mulx .rbx .rax (.mem ⟨some .rsi, none, 96#64⟩), -- 757: mulx rbx, rax, [rsi + (2 * 48)]
  .adcx .r9 (.reg .rax), -- 758: adcx r9, rax
  .adox .r10 (.reg .rbx), -- 759: adox r10, rbx
  .mulx .rbx .rax (.mem ⟨some .rsi, none, 104#64⟩), -- 760: mulx rbx, rax, [rsi + (2 * 48)+ 0x8]
  .adcx .r10 (.reg .rax), -- 761: adcx r10, rax
  .adox .r11 (.reg .rbx), -- 762: adox r11, rbx
  .mulx .rbx .rax (.mem ⟨some .rsi, none, 112#64⟩), -- 763: mulx rbx, rax, [rsi + (2 * 48)+ 0x10]
  .adcx .r11 (.reg .rax), -- 764: adcx r11, rax
  .adox .r12 (.reg .rbx), -- 765: adox r12, rbx
  .mulx .rbx .rax (.mem ⟨some .rsi, none, 120#64⟩), -- 766: mulx rbx, rax, [rsi + (2 * 48)+ 0x18]
  .adcx .r12 (.reg .rax), -- 767: adcx r12, rax
  .adox .r13 (.reg .rbx), -- 768: adox r13, rbx
  .mulx .rbx .rax (.mem ⟨some .rsi, none, 128#64⟩), -- 769: mulx rbx, rax, [rsi + (2 * 48)+ 0x20]
  .adcx .r13 (.reg .rax), -- 770: adcx r13, rax
  .adox .r14 (.reg .rbx), -- 771: adox r14, rbx
  .adox .r15 (.reg .r8), -- 772: adox r15, r8
  .mulx .rbx .rax (.mem ⟨some .rsi, none, 136#64⟩), -- 773: mulx rbx, rax, [rsi + (2 * 48)+ 0x28]
  .adc (.reg .r14) (.reg .rax), -- 774: adc r14, rax
  .adc (.reg .r15) (.reg .rbx), -- 775: adc r15, rbx
  .adc (.reg .r8) (.reg .r8), -- 776: adc r8, r8
  .mov (.reg .rdx) (.reg .r9), -- 777: mov rdx, r9
  .shl (.reg .rdx) (.imm 32#64), -- 778: shl rdx, 0x20
  .add (.reg .rdx) (.reg .r9), -- 779: add rdx, r9
  .xor (.reg .rbp) (.reg .rbp), -- 780: xor ebp, ebp
  .mov (.reg .rax) (.imm 0xffffffff00000001#64), -- 781: mov rax, 0xffffffff00000001
  .mulx .rax .rbx (.reg .rax), -- 782: mulx rax, rbx, rax
  .mov (.reg .rbx) (.imm 0xffffffff#64), -- 783: mov ebx, 0xffffffff
  .mulx .rbx .r9 (.reg .rbx), -- 784: mulx rbx, r9, rbx
  .adc (.reg .rax) (.reg .r9), -- 785: adc rax, r9
  .adc (.reg .rbx) (.reg .rdx), -- 786: adc rbx, rdx
  .adc32 .rbp .rbp, -- 787: adc ebp, ebp
  .sub (.reg .r10) (.reg .rax), -- 788: sub r10, rax
  .sbb (.reg .r11) (.reg .rbx), -- 789: sbb r11, rbx
  .sbb (.reg .r12) (.reg .rbp), -- 790: sbb r12, rbp
  .sbb (.reg .r13) (.imm 0#64), -- 791: sbb r13, 0x0
  .sbb (.reg .r14) (.imm 0#64), -- 792: sbb r14, 0x0
  .sbb (.reg .rdx) (.imm 0#64), -- 793: sbb rdx, 0x0
  .add (.reg .r15) (.reg .rdx), -- 794: add r15, rdx
  .adc (.reg .r8) (.imm 0#64), -- 795: adc r8, 0x0
  .mov (.reg .rdx) (.mem ⟨some .rcx, none, 64#64⟩), -- 796: mov rdx, [rcx + 48+ 0x10]
  .xor (.reg .r9) (.reg .r9), -- 797: xor r9d, r9d
  .mulx .rbx .rax (.mem ⟨some .rsi, none, 96#64⟩), -- 798: mulx rbx, rax, [rsi + (2 * 48)]
  .adcx .r10 (.reg .rax), -- 799: adcx r10, rax
  .adox .r11 (.reg .rbx), -- 800: adox r11, rbx
  .mulx .rbx .rax (.mem ⟨some .rsi, none, 104#64⟩), -- 801: mulx rbx, rax, [rsi + (2 * 48)+ 0x8]
  .adcx .r11 (.reg .rax), -- 802: adcx r11, rax
  .adox .r12 (.reg .rbx), -- 803: adox r12, rbx
  .mulx .rbx .rax (.mem ⟨some .rsi, none, 112#64⟩), -- 804: mulx rbx, rax, [rsi + (2 * 48)+ 0x10]
  .adcx .r12 (.reg .rax), -- 805: adcx r12, rax
  .adox .r13 (.reg .rbx), -- 806: adox r13, rbx
  .mulx .rbx .rax (.mem ⟨some .rsi, none, 120#64⟩), -- 807: mulx rbx, rax, [rsi + (2 * 48)+ 0x18]
  .adcx .r13 (.reg .rax), -- 808: adcx r13, rax
  .adox .r14 (.reg .rbx), -- 809: adox r14, rbx
  .mulx .rbx .rax (.mem ⟨some .rsi, none, 128#64⟩), -- 810: mulx rbx, rax, [rsi + (2 * 48)+ 0x20]
  .adcx .r14 (.reg .rax), -- 811: adcx r14, rax
  .adox .r15 (.reg .rbx), -- 812: adox r15, rbx
  .adox .r8 (.reg .r9), -- 813: adox r8, r9
  .mulx .rbx .rax (.mem ⟨some .rsi, none, 136#64⟩), -- 814: mulx rbx, rax, [rsi + (2 * 48)+ 0x28]
  .adc (.reg .r15) (.reg .rax), -- 815: adc r15, rax
  .adc (.reg .r8) (.reg .rbx), -- 816: adc r8, rbx
  .adc (.reg .r9) (.reg .r9), -- 817: adc r9, r9
  .mov (.reg .rdx) (.reg .r10), -- 818: mov rdx, r10
  .shl (.reg .rdx) (.imm 32#64), -- 819: shl rdx, 0x20
  .add (.reg .rdx) (.reg .r10), -- 820: add rdx, r10
  .xor (.reg .rbp) (.reg .rbp), -- 821: xor ebp, ebp
  .mov (.reg .rax) (.imm 0xffffffff00000001#64), -- 822: mov rax, 0xffffffff00000001
  .mulx .rax .rbx (.reg .rax), -- 823: mulx rax, rbx, rax
  .mov (.reg .rbx) (.imm 0xffffffff#64), -- 824: mov ebx, 0xffffffff
  .mulx .rbx .r10 (.reg .rbx), -- 825: mulx rbx, r10, rbx
  .adc (.reg .rax) (.reg .r10), -- 826: adc rax, r10
  .adc (.reg .rbx) (.reg .rdx), -- 827: adc rbx, rdx
  .adc32 .rbp .rbp, -- 828: adc ebp, ebp
  .sub (.reg .r11) (.reg .rax), -- 829: sub r11, rax
  .sbb (.reg .r12) (.reg .rbx), -- 830: sbb r12, rbx
  .sbb (.reg .r13) (.reg .rbp), -- 831: sbb r13, rbp
  .sbb (.reg .r14) (.imm 0#64), -- 832: sbb r14, 0x0
  .sbb (.reg .r15) (.imm 0#64), -- 833: sbb r15, 0x0
  .sbb (.reg .rdx) (.imm 0#64), -- 834: sbb rdx, 0x0
  .add (.reg .r8) (.reg .rdx), -- 835: add r8, rdx
  .adc (.reg .r9) (.imm 0#64), -- 836: adc r9, 0x0
  .mov (.reg .rdx) (.mem ⟨some .rcx, none, 72#64⟩), -- 837: mov rdx, [rcx + 48+ 0x18]
  .xor (.reg .r10) (.reg .r10), -- 838: xor r10d, r10d
  .mulx .rbx .rax (.mem ⟨some .rsi, none, 96#64⟩), -- 839: mulx rbx, rax, [rsi + (2 * 48)]
  .adcx .r11 (.reg .rax), -- 840: adcx r11, rax
  .adox .r12 (.reg .rbx), -- 841: adox r12, rbx
  .mulx .rbx .rax (.mem ⟨some .rsi, none, 104#64⟩), -- 842: mulx rbx, rax, [rsi + (2 * 48)+ 0x8]
  .adcx .r12 (.reg .rax), -- 843: adcx r12, rax
  .adox .r13 (.reg .rbx), -- 844: adox r13, rbx
  .mulx .rbx .rax (.mem ⟨some .rsi, none, 112#64⟩), -- 845: mulx rbx, rax, [rsi + (2 * 48)+ 0x10]
  .adcx .r13 (.reg .rax), -- 846: adcx r13, rax
  .adox .r14 (.reg .rbx), -- 847: adox r14, rbx
  .mulx .rbx .rax (.mem ⟨some .rsi, none, 120#64⟩), -- 848: mulx rbx, rax, [rsi + (2 * 48)+ 0x18]
  .adcx .r14 (.reg .rax), -- 849: adcx r14, rax
  .adox .r15 (.reg .rbx), -- 850: adox r15, rbx
  .mulx .rbx .rax (.mem ⟨some .rsi, none, 128#64⟩), -- 851: mulx rbx, rax, [rsi + (2 * 48)+ 0x20]
  .adcx .r15 (.reg .rax), -- 852: adcx r15, rax
  .adox .r8 (.reg .rbx), -- 853: adox r8, rbx
  .adox .r9 (.reg .r10), -- 854: adox r9, r10
  .mulx .rbx .rax (.mem ⟨some .rsi, none, 136#64⟩), -- 855: mulx rbx, rax, [rsi + (2 * 48)+ 0x28]
  .adc (.reg .r8) (.reg .rax), -- 856: adc r8, rax
  .adc (.reg .r9) (.reg .rbx), -- 857: adc r9, rbx
  .adc (.reg .r10) (.reg .r10), -- 858: adc r10, r10
  .mov (.reg .rdx) (.reg .r11), -- 859: mov rdx, r11
  .shl (.reg .rdx) (.imm 32#64), -- 860: shl rdx, 0x20
  .add (.reg .rdx) (.reg .r11), -- 861: add rdx, r11
  .xor (.reg .rbp) (.reg .rbp), -- 862: xor ebp, ebp
  .mov (.reg .rax) (.imm 0xffffffff00000001#64), -- 863: mov rax, 0xffffffff00000001
  .mulx .rax .rbx (.reg .rax), -- 864: mulx rax, rbx, rax
  .mov (.reg .rbx) (.imm 0xffffffff#64), -- 865: mov ebx, 0xffffffff
  .mulx .rbx .r11 (.reg .rbx), -- 866: mulx rbx, r11, rbx
  .adc (.reg .rax) (.reg .r11), -- 867: adc rax, r11
  .adc (.reg .rbx) (.reg .rdx), -- 868: adc rbx, rdx
  .adc32 .rbp .rbp, -- 869: adc ebp, ebp
  .sub (.reg .r12) (.reg .rax), -- 870: sub r12, rax
  .sbb (.reg .r13) (.reg .rbx), -- 871: sbb r13, rbx
  .sbb (.reg .r14) (.reg .rbp), -- 872: sbb r14, rbp
  .sbb (.reg .r15) (.imm 0#64), -- 873: sbb r15, 0x0
  .sbb (.reg .r8) (.imm 0#64), -- 874: sbb r8, 0x0
  .sbb (.reg .rdx) (.imm 0#64), -- 875: sbb rdx, 0x0
  .add (.reg .r9) (.reg .rdx), -- 876: add r9, rdx
  .adc (.reg .r10) (.imm 0#64), -- 877: adc r10, 0x0
  .mov (.reg .rdx) (.mem ⟨some .rcx, none, 80#64⟩), -- 878: mov rdx, [rcx + 48+ 0x20]
  .xor (.reg .r11) (.reg .r11), -- 879: xor r11d, r11d
  .mulx .rbx .rax (.mem ⟨some .rsi, none, 96#64⟩), -- 880: mulx rbx, rax, [rsi + (2 * 48)]
  .adcx .r12 (.reg .rax), -- 881: adcx r12, rax
  .adox .r13 (.reg .rbx), -- 882: adox r13, rbx
  .mulx .rbx .rax (.mem ⟨some .rsi, none, 104#64⟩), -- 883: mulx rbx, rax, [rsi + (2 * 48)+ 0x8]
  .adcx .r13 (.reg .rax), -- 884: adcx r13, rax
  .adox .r14 (.reg .rbx), -- 885: adox r14, rbx
  .mulx .rbx .rax (.mem ⟨some .rsi, none, 112#64⟩), -- 886: mulx rbx, rax, [rsi + (2 * 48)+ 0x10]
  .adcx .r14 (.reg .rax), -- 887: adcx r14, rax
  .adox .r15 (.reg .rbx), -- 888: adox r15, rbx
  .mulx .rbx .rax (.mem ⟨some .rsi, none, 120#64⟩), -- 889: mulx rbx, rax, [rsi + (2 * 48)+ 0x18]
  .adcx .r15 (.reg .rax), -- 890: adcx r15, rax
  .adox .r8 (.reg .rbx), -- 891: adox r8, rbx
  .mulx .rbx .rax (.mem ⟨some .rsi, none, 128#64⟩), -- 892: mulx rbx, rax, [rsi + (2 * 48)+ 0x20]
  .adcx .r8 (.reg .rax), -- 893: adcx r8, rax
  .adox .r9 (.reg .rbx), -- 894: adox r9, rbx
  .adox .r10 (.reg .r11), -- 895: adox r10, r11
  .mulx .rbx .rax (.mem ⟨some .rsi, none, 136#64⟩), -- 896: mulx rbx, rax, [rsi + (2 * 48)+ 0x28]
  .adc (.reg .r9) (.reg .rax), -- 897: adc r9, rax
  .adc (.reg .r10) (.reg .rbx), -- 898: adc r10, rbx
  .adc (.reg .r11) (.reg .r11), -- 899: adc r11, r11
  .mov (.reg .rdx) (.reg .r12), -- 900: mov rdx, r12
  .shl (.reg .rdx) (.imm 32#64), -- 901: shl rdx, 0x20
  .add (.reg .rdx) (.reg .r12), -- 902: add rdx, r12
  .xor (.reg .rbp) (.reg .rbp), -- 903: xor ebp, ebp
  .mov (.reg .rax) (.imm 0xffffffff00000001#64), -- 904: mov rax, 0xffffffff00000001
  .mulx .rax .rbx (.reg .rax), -- 905: mulx rax, rbx, rax
  .mov (.reg .rbx) (.imm 0xffffffff#64), -- 906: mov ebx, 0xffffffff
  .mulx .rbx .r12 (.reg .rbx), -- 907: mulx rbx, r12, rbx
  .adc (.reg .rax) (.reg .r12), -- 908: adc rax, r12
  .adc (.reg .rbx) (.reg .rdx), -- 909: adc rbx, rdx
  .adc32 .rbp .rbp, -- 910: adc ebp, ebp
  .sub (.reg .r13) (.reg .rax), -- 911: sub r13, rax
  .sbb (.reg .r14) (.reg .rbx), -- 912: sbb r14, rbx
  .sbb (.reg .r15) (.reg .rbp), -- 913: sbb r15, rbp
  .sbb (.reg .r8) (.imm 0#64), -- 914: sbb r8, 0x0
  .sbb (.reg .r9) (.imm 0#64), -- 915: sbb r9, 0x0
  .sbb (.reg .rdx) (.imm 0#64), -- 916: sbb rdx, 0x0
  .add (.reg .r10) (.reg .rdx), -- 917: add r10, rdx
  .adc (.reg .r11) (.imm 0#64), -- 918: adc r11, 0x0
  .mov (.reg .rdx) (.mem ⟨some .rcx, none, 88#64⟩), -- 919: mov rdx, [rcx + 48+ 0x28]
  .xor (.reg .r12) (.reg .r12), -- 920: xor r12d, r12d
  .mulx .rbx .rax (.mem ⟨some .rsi, none, 96#64⟩), -- 921: mulx rbx, rax, [rsi + (2 * 48)]
  .adcx .r13 (.reg .rax), -- 922: adcx r13, rax
  .adox .r14 (.reg .rbx), -- 923: adox r14, rbx
  .mulx .rbx .rax (.mem ⟨some .rsi, none, 104#64⟩), -- 924: mulx rbx, rax, [rsi + (2 * 48)+ 0x8]
  .adcx .r14 (.reg .rax), -- 925: adcx r14, rax
  .adox .r15 (.reg .rbx), -- 926: adox r15, rbx
  .mulx .rbx .rax (.mem ⟨some .rsi, none, 112#64⟩), -- 927: mulx rbx, rax, [rsi + (2 * 48)+ 0x10]
  .adcx .r15 (.reg .rax), -- 928: adcx r15, rax
  .adox .r8 (.reg .rbx), -- 929: adox r8, rbx
  .mulx .rbx .rax (.mem ⟨some .rsi, none, 120#64⟩), -- 930: mulx rbx, rax, [rsi + (2 * 48)+ 0x18]
  .adcx .r8 (.reg .rax), -- 931: adcx r8, rax
  .adox .r9 (.reg .rbx), -- 932: adox r9, rbx
  .mulx .rbx .rax (.mem ⟨some .rsi, none, 128#64⟩), -- 933: mulx rbx, rax, [rsi + (2 * 48)+ 0x20]
  .adcx .r9 (.reg .rax), -- 934: adcx r9, rax
  .adox .r10 (.reg .rbx), -- 935: adox r10, rbx
  .adox .r11 (.reg .r12), -- 936: adox r11, r12
  .mulx .rbx .rax (.mem ⟨some .rsi, none, 136#64⟩), -- 937: mulx rbx, rax, [rsi + (2 * 48)+ 0x28]
  .adc (.reg .r10) (.reg .rax), -- 938: adc r10, rax
  .adc (.reg .r11) (.reg .rbx), -- 939: adc r11, rbx
  .adc (.reg .r12) (.reg .r12), -- 940: adc r12, r12
  .mov (.reg .rdx) (.reg .r13), -- 941: mov rdx, r13
  .shl (.reg .rdx) (.imm 32#64), -- 942: shl rdx, 0x20
  .add (.reg .rdx) (.reg .r13), -- 943: add rdx, r13
  .xor (.reg .rbp) (.reg .rbp), -- 944: xor ebp, ebp
  .mov (.reg .rax) (.imm 0xffffffff00000001#64), -- 945: mov rax, 0xffffffff00000001
  .mulx .rax .rbx (.reg .rax), -- 946: mulx rax, rbx, rax
  .mov (.reg .rbx) (.imm 0xffffffff#64), -- 947: mov ebx, 0xffffffff
  .mulx .rbx .r13 (.reg .rbx), -- 948: mulx rbx, r13, rbx
  .adc (.reg .rax) (.reg .r13), -- 949: adc rax, r13
  .adc (.reg .rbx) (.reg .rdx), -- 950: adc rbx, rdx
  .adc32 .rbp .rbp, -- 951: adc ebp, ebp
  .sub (.reg .r14) (.reg .rax), -- 952: sub r14, rax
  .sbb (.reg .r15) (.reg .rbx), -- 953: sbb r15, rbx
  .sbb (.reg .r8) (.reg .rbp), -- 954: sbb r8, rbp
  .sbb (.reg .r9) (.imm 0#64), -- 955: sbb r9, 0x0
  .sbb (.reg .r10) (.imm 0#64), -- 956: sbb r10, 0x0
  .sbb (.reg .rdx) (.imm 0#64), -- 957: sbb rdx, 0x0
  .add (.reg .r11) (.reg .rdx), -- 958: add r11, rdx
  .adc (.reg .r12) (.imm 0#64), -- 959: adc r12, 0x0
  .xor (.reg .rdx) (.reg .rdx), -- 960: xor edx, edx
  .xor (.reg .rbp) (.reg .rbp), -- 961: xor ebp, ebp
  .xor (.reg .r13) (.reg .r13), -- 962: xor r13d, r13d
  .mov (.reg .rax) (.imm 0xffffffff00000001#64), -- 963: mov rax, 0xffffffff00000001
  .add (.reg .rax) (.reg .r14), -- 964: add rax, r14
  .mov (.reg .rbx) (.imm 0xffffffff#64), -- 965: mov ebx, 0xffffffff
  .adc (.reg .rbx) (.reg .r15), -- 966: adc rbx, r15
  .mov (.reg .rcx) (.imm 1#64), -- 967: mov ecx, 0x1
  .adc (.reg .rcx) (.reg .r8), -- 968: adc rcx, r8
  .adc (.reg .rdx) (.reg .r9), -- 969: adc rdx, r9
  .adc (.reg .rbp) (.reg .r10), -- 970: adc rbp, r10
  .adc (.reg .r13) (.reg .r11), -- 971: adc r13, r11
  .adc (.reg .r12) (.imm 0#64), -- 972: adc r12, 0x0
  .cmov .nz .r14 (.reg .rax), -- 973: cmovne r14, rax
  .cmov .nz .r15 (.reg .rbx), -- 974: cmovne r15, rbx
  .cmov .nz .r8 (.reg .rcx), -- 975: cmovne r8, rcx
  .cmov .nz .r9 (.reg .rdx), -- 976: cmovne r9, rdx
  .cmov .nz .r10 (.reg .rbp), -- 977: cmovne r10, rbp
  .cmov .nz .r11 (.reg .r13), -- 978: cmovne r11, r13
  .mov (.mem ⟨some .rsp, none, 48#64⟩) (.reg .r14), -- 979: mov [rsp + (48* 1)], r14
  .mov (.mem ⟨some .rsp, none, 56#64⟩) (.reg .r15), -- 980: mov [rsp + (48* 1)+ 0x8], r15
  .mov (.mem ⟨some .rsp, none, 64#64⟩) (.reg .r8), -- 981: mov [rsp + (48* 1)+ 0x10], r8
  .mov (.mem ⟨some .rsp, none, 72#64⟩) (.reg .r9), -- 982: mov [rsp + (48* 1)+ 0x18], r9
  .mov (.mem ⟨some .rsp, none, 80#64⟩) (.reg .r10), -- 983: mov [rsp + (48* 1)+ 0x20], r10
  .mov (.mem ⟨some .rsp, none, 88#64⟩) (.reg .r11), -- 984: mov [rsp + (48* 1)+ 0x28], r11
  .mov (.reg .rcx) (.mem ⟨some .rsp, none, 344#64⟩), -- 985: mov rcx, [rsp + (48* 7 + 8)]
  .mov (.reg .rdx) (.mem ⟨some .rcx, none, 0#64⟩), -- 986: mov rdx, [rcx + 0]
  .xor (.reg .r15) (.reg .r15), -- 987: xor r15d, r15d
  .mulx .r9 .r8 (.mem ⟨some .rsp, none, 0#64⟩), -- 988: mulx r9, r8, [rsp + (48* 0)]
  .mulx .r10 .rbx (.mem ⟨some .rsp, none, 8#64⟩), -- 989: mulx r10, rbx, [rsp + (48* 0)+ 0x8]
  .add (.reg .r9) (.reg .rbx), -- 990: add r9, rbx
  .mulx .r11 .rbx (.mem ⟨some .rsp, none, 16#64⟩), -- 991: mulx r11, rbx, [rsp + (48* 0)+ 0x10]
  .adc (.reg .r10) (.reg .rbx), -- 992: adc r10, rbx
  .mulx .r12 .rbx (.mem ⟨some .rsp, none, 24#64⟩), -- 993: mulx r12, rbx, [rsp + (48* 0)+ 0x18]
  .adc (.reg .r11) (.reg .rbx), -- 994: adc r11, rbx
  .mulx .r13 .rbx (.mem ⟨some .rsp, none, 32#64⟩), -- 995: mulx r13, rbx, [rsp + (48* 0)+ 0x20]
  .adc (.reg .r12) (.reg .rbx), -- 996: adc r12, rbx
  .mulx .r14 .rbx (.mem ⟨some .rsp, none, 40#64⟩), -- 997: mulx r14, rbx, [rsp + (48* 0)+ 0x28]
  .adc (.reg .r13) (.reg .rbx), -- 998: adc r13, rbx
  .adc (.reg .r14) (.reg .r15), -- 999: adc r14, r15
  .mov (.reg .rdx) (.reg .r8), -- 1000: mov rdx, r8
  .shl (.reg .rdx) (.imm 32#64), -- 1001: shl rdx, 0x20
  .add (.reg .rdx) (.reg .r8), -- 1002: add rdx, r8
  .xor (.reg .rbp) (.reg .rbp), -- 1003: xor ebp, ebp
  .mov (.reg .rax) (.imm 0xffffffff00000001#64), -- 1004: mov rax, 0xffffffff00000001
  .mulx .rax .rbx (.reg .rax), -- 1005: mulx rax, rbx, rax
  .mov (.reg .rbx) (.imm 0xffffffff#64), -- 1006: mov ebx, 0xffffffff
  .mulx .rbx .r8 (.reg .rbx), -- 1007: mulx rbx, r8, rbx
  .adc (.reg .rax) (.reg .r8), -- 1008: adc rax, r8
  .adc (.reg .rbx) (.reg .rdx), -- 1009: adc rbx, rdx
  .adc32 .rbp .rbp, -- 1010: adc ebp, ebp
  .sub (.reg .r9) (.reg .rax), -- 1011: sub r9, rax
  .sbb (.reg .r10) (.reg .rbx), -- 1012: sbb r10, rbx
  .sbb (.reg .r11) (.reg .rbp), -- 1013: sbb r11, rbp
  .sbb (.reg .r12) (.imm 0#64), -- 1014: sbb r12, 0x0
  .sbb (.reg .r13) (.imm 0#64), -- 1015: sbb r13, 0x0
  .sbb (.reg .rdx) (.imm 0#64), -- 1016: sbb rdx, 0x0
  .add (.reg .r14) (.reg .rdx), -- 1017: add r14, rdx
  .adc (.reg .r15) (.imm 0#64), -- 1018: adc r15, 0x0
  .mov (.reg .rdx) (.mem ⟨some .rcx, none, 8#64⟩), -- 1019: mov rdx, [rcx + 0+ 0x8]
  .xor (.reg .r8) (.reg .r8), -- 1020: xor r8d, r8d
  .mulx .rbx .rax (.mem ⟨some .rsp, none, 0#64⟩), -- 1021: mulx rbx, rax, [rsp + (48* 0)]
  .adcx .r9 (.reg .rax), -- 1022: adcx r9, rax
  .adox .r10 (.reg .rbx), -- 1023: adox r10, rbx
  .mulx .rbx .rax (.mem ⟨some .rsp, none, 8#64⟩), -- 1024: mulx rbx, rax, [rsp + (48* 0)+ 0x8]
  .adcx .r10 (.reg .rax), -- 1025: adcx r10, rax
  .adox .r11 (.reg .rbx), -- 1026: adox r11, rbx
  .mulx .rbx .rax (.mem ⟨some .rsp, none, 16#64⟩), -- 1027: mulx rbx, rax, [rsp + (48* 0)+ 0x10]
  .adcx .r11 (.reg .rax), -- 1028: adcx r11, rax
  .adox .r12 (.reg .rbx), -- 1029: adox r12, rbx
  .mulx .rbx .rax (.mem ⟨some .rsp, none, 24#64⟩), -- 1030: mulx rbx, rax, [rsp + (48* 0)+ 0x18]
  .adcx .r12 (.reg .rax), -- 1031: adcx r12, rax
  .adox .r13 (.reg .rbx), -- 1032: adox r13, rbx
  .mulx .rbx .rax (.mem ⟨some .rsp, none, 32#64⟩), -- 1033: mulx rbx, rax, [rsp + (48* 0)+ 0x20]
  .adcx .r13 (.reg .rax), -- 1034: adcx r13, rax
  .adox .r14 (.reg .rbx), -- 1035: adox r14, rbx
  .adox .r15 (.reg .r8), -- 1036: adox r15, r8
  .mulx .rbx .rax (.mem ⟨some .rsp, none, 40#64⟩), -- 1037: mulx rbx, rax, [rsp + (48* 0)+ 0x28]
  .adc (.reg .r14) (.reg .rax), -- 1038: adc r14, rax
  .adc (.reg .r15) (.reg .rbx), -- 1039: adc r15, rbx
  .adc (.reg .r8) (.reg .r8), -- 1040: adc r8, r8
  .mov (.reg .rdx) (.reg .r9), -- 1041: mov rdx, r9
  .shl (.reg .rdx) (.imm 32#64), -- 1042: shl rdx, 0x20
  .add (.reg .rdx) (.reg .r9), -- 1043: add rdx, r9
  .xor (.reg .rbp) (.reg .rbp), -- 1044: xor ebp, ebp
  .mov (.reg .rax) (.imm 0xffffffff00000001#64), -- 1045: mov rax, 0xffffffff00000001
  .mulx .rax .rbx (.reg .rax), -- 1046: mulx rax, rbx, rax
  .mov (.reg .rbx) (.imm 0xffffffff#64), -- 1047: mov ebx, 0xffffffff
  .mulx .rbx .r9 (.reg .rbx), -- 1048: mulx rbx, r9, rbx
  .adc (.reg .rax) (.reg .r9), -- 1049: adc rax, r9
  .adc (.reg .rbx) (.reg .rdx), -- 1050: adc rbx, rdx
  .adc32 .rbp .rbp, -- 1051: adc ebp, ebp
  .sub (.reg .r10) (.reg .rax), -- 1052: sub r10, rax
  .sbb (.reg .r11) (.reg .rbx), -- 1053: sbb r11, rbx
  .sbb (.reg .r12) (.reg .rbp), -- 1054: sbb r12, rbp
  .sbb (.reg .r13) (.imm 0#64), -- 1055: sbb r13, 0x0
  .sbb (.reg .r14) (.imm 0#64), -- 1056: sbb r14, 0x0
  .sbb (.reg .rdx) (.imm 0#64), -- 1057: sbb rdx, 0x0
  .add (.reg .r15) (.reg .rdx), -- 1058: add r15, rdx
  .adc (.reg .r8) (.imm 0#64), -- 1059: adc r8, 0x0
  .mov (.reg .rdx) (.mem ⟨some .rcx, none, 16#64⟩), -- 1060: mov rdx, [rcx + 0+ 0x10]
  .xor (.reg .r9) (.reg .r9), -- 1061: xor r9d, r9d
  .mulx .rbx .rax (.mem ⟨some .rsp, none, 0#64⟩), -- 1062: mulx rbx, rax, [rsp + (48* 0)]
  .adcx .r10 (.reg .rax), -- 1063: adcx r10, rax
  .adox .r11 (.reg .rbx), -- 1064: adox r11, rbx
  .mulx .rbx .rax (.mem ⟨some .rsp, none, 8#64⟩), -- 1065: mulx rbx, rax, [rsp + (48* 0)+ 0x8]
  .adcx .r11 (.reg .rax), -- 1066: adcx r11, rax
  .adox .r12 (.reg .rbx), -- 1067: adox r12, rbx
  .mulx .rbx .rax (.mem ⟨some .rsp, none, 16#64⟩), -- 1068: mulx rbx, rax, [rsp + (48* 0)+ 0x10]
  .adcx .r12 (.reg .rax), -- 1069: adcx r12, rax
  .adox .r13 (.reg .rbx), -- 1070: adox r13, rbx
  .mulx .rbx .rax (.mem ⟨some .rsp, none, 24#64⟩), -- 1071: mulx rbx, rax, [rsp + (48* 0)+ 0x18]
  .adcx .r13 (.reg .rax), -- 1072: adcx r13, rax
  .adox .r14 (.reg .rbx), -- 1073: adox r14, rbx
  .mulx .rbx .rax (.mem ⟨some .rsp, none, 32#64⟩), -- 1074: mulx rbx, rax, [rsp + (48* 0)+ 0x20]
  .adcx .r14 (.reg .rax), -- 1075: adcx r14, rax
  .adox .r15 (.reg .rbx), -- 1076: adox r15, rbx
  .adox .r8 (.reg .r9), -- 1077: adox r8, r9
  .mulx .rbx .rax (.mem ⟨some .rsp, none, 40#64⟩), -- 1078: mulx rbx, rax, [rsp + (48* 0)+ 0x28]
  .adc (.reg .r15) (.reg .rax), -- 1079: adc r15, rax
  .adc (.reg .r8) (.reg .rbx), -- 1080: adc r8, rbx
  .adc (.reg .r9) (.reg .r9), -- 1081: adc r9, r9
  .mov (.reg .rdx) (.reg .r10), -- 1082: mov rdx, r10
  .shl (.reg .rdx) (.imm 32#64), -- 1083: shl rdx, 0x20
  .add (.reg .rdx) (.reg .r10), -- 1084: add rdx, r10
  .xor (.reg .rbp) (.reg .rbp), -- 1085: xor ebp, ebp
  .mov (.reg .rax) (.imm 0xffffffff00000001#64), -- 1086: mov rax, 0xffffffff00000001
  .mulx .rax .rbx (.reg .rax), -- 1087: mulx rax, rbx, rax
  .mov (.reg .rbx) (.imm 0xffffffff#64), -- 1088: mov ebx, 0xffffffff
  .mulx .rbx .r10 (.reg .rbx), -- 1089: mulx rbx, r10, rbx
  .adc (.reg .rax) (.reg .r10), -- 1090: adc rax, r10
  .adc (.reg .rbx) (.reg .rdx), -- 1091: adc rbx, rdx
  .adc32 .rbp .rbp, -- 1092: adc ebp, ebp
  .sub (.reg .r11) (.reg .rax), -- 1093: sub r11, rax
  .sbb (.reg .r12) (.reg .rbx), -- 1094: sbb r12, rbx
  .sbb (.reg .r13) (.reg .rbp), -- 1095: sbb r13, rbp
  .sbb (.reg .r14) (.imm 0#64), -- 1096: sbb r14, 0x0
  .sbb (.reg .r15) (.imm 0#64), -- 1097: sbb r15, 0x0
  .sbb (.reg .rdx) (.imm 0#64), -- 1098: sbb rdx, 0x0
  .add (.reg .r8) (.reg .rdx), -- 1099: add r8, rdx
  .adc (.reg .r9) (.imm 0#64), -- 1100: adc r9, 0x0
  .mov (.reg .rdx) (.mem ⟨some .rcx, none, 24#64⟩), -- 1101: mov rdx, [rcx + 0+ 0x18]
  .xor (.reg .r10) (.reg .r10), -- 1102: xor r10d, r10d
  .mulx .rbx .rax (.mem ⟨some .rsp, none, 0#64⟩), -- 1103: mulx rbx, rax, [rsp + (48* 0)]
  .adcx .r11 (.reg .rax), -- 1104: adcx r11, rax
  .adox .r12 (.reg .rbx), -- 1105: adox r12, rbx
  .mulx .rbx .rax (.mem ⟨some .rsp, none, 8#64⟩), -- 1106: mulx rbx, rax, [rsp + (48* 0)+ 0x8]
  .adcx .r12 (.reg .rax), -- 1107: adcx r12, rax
  .adox .r13 (.reg .rbx), -- 1108: adox r13, rbx
  .mulx .rbx .rax (.mem ⟨some .rsp, none, 16#64⟩), -- 1109: mulx rbx, rax, [rsp + (48* 0)+ 0x10]
  .adcx .r13 (.reg .rax), -- 1110: adcx r13, rax
  .adox .r14 (.reg .rbx), -- 1111: adox r14, rbx
  .mulx .rbx .rax (.mem ⟨some .rsp, none, 24#64⟩), -- 1112: mulx rbx, rax, [rsp + (48* 0)+ 0x18]
  .adcx .r14 (.reg .rax), -- 1113: adcx r14, rax
  .adox .r15 (.reg .rbx), -- 1114: adox r15, rbx
  .mulx .rbx .rax (.mem ⟨some .rsp, none, 32#64⟩), -- 1115: mulx rbx, rax, [rsp + (48* 0)+ 0x20]
  .adcx .r15 (.reg .rax), -- 1116: adcx r15, rax
  .adox .r8 (.reg .rbx), -- 1117: adox r8, rbx
  .adox .r9 (.reg .r10), -- 1118: adox r9, r10
  .mulx .rbx .rax (.mem ⟨some .rsp, none, 40#64⟩), -- 1119: mulx rbx, rax, [rsp + (48* 0)+ 0x28]
  .adc (.reg .r8) (.reg .rax), -- 1120: adc r8, rax
  .adc (.reg .r9) (.reg .rbx), -- 1121: adc r9, rbx
  .adc (.reg .r10) (.reg .r10), -- 1122: adc r10, r10
  .mov (.reg .rdx) (.reg .r11), -- 1123: mov rdx, r11
  .shl (.reg .rdx) (.imm 32#64), -- 1124: shl rdx, 0x20
  .add (.reg .rdx) (.reg .r11), -- 1125: add rdx, r11
  .xor (.reg .rbp) (.reg .rbp), -- 1126: xor ebp, ebp
  .mov (.reg .rax) (.imm 0xffffffff00000001#64), -- 1127: mov rax, 0xffffffff00000001
  .mulx .rax .rbx (.reg .rax), -- 1128: mulx rax, rbx, rax
  .mov (.reg .rbx) (.imm 0xffffffff#64), -- 1129: mov ebx, 0xffffffff
  .mulx .rbx .r11 (.reg .rbx), -- 1130: mulx rbx, r11, rbx
  .adc (.reg .rax) (.reg .r11), -- 1131: adc rax, r11
  .adc (.reg .rbx) (.reg .rdx), -- 1132: adc rbx, rdx
  .adc32 .rbp .rbp, -- 1133: adc ebp, ebp
  .sub (.reg .r12) (.reg .rax), -- 1134: sub r12, rax
  .sbb (.reg .r13) (.reg .rbx), -- 1135: sbb r13, rbx
  .sbb (.reg .r14) (.reg .rbp), -- 1136: sbb r14, rbp
  .sbb (.reg .r15) (.imm 0#64), -- 1137: sbb r15, 0x0
  .sbb (.reg .r8) (.imm 0#64), -- 1138: sbb r8, 0x0
  .sbb (.reg .rdx) (.imm 0#64), -- 1139: sbb rdx, 0x0
  .add (.reg .r9) (.reg .rdx), -- 1140: add r9, rdx
  .adc (.reg .r10) (.imm 0#64), -- 1141: adc r10, 0x0
  .mov (.reg .rdx) (.mem ⟨some .rcx, none, 32#64⟩), -- 1142: mov rdx, [rcx + 0+ 0x20]
  .xor (.reg .r11) (.reg .r11), -- 1143: xor r11d, r11d
  .mulx .rbx .rax (.mem ⟨some .rsp, none, 0#64⟩), -- 1144: mulx rbx, rax, [rsp + (48* 0)]
  .adcx .r12 (.reg .rax), -- 1145: adcx r12, rax
  .adox .r13 (.reg .rbx), -- 1146: adox r13, rbx
  .mulx .rbx .rax (.mem ⟨some .rsp, none, 8#64⟩), -- 1147: mulx rbx, rax, [rsp + (48* 0)+ 0x8]
  .adcx .r13 (.reg .rax), -- 1148: adcx r13, rax
  .adox .r14 (.reg .rbx), -- 1149: adox r14, rbx
  .mulx .rbx .rax (.mem ⟨some .rsp, none, 16#64⟩), -- 1150: mulx rbx, rax, [rsp + (48* 0)+ 0x10]
  .adcx .r14 (.reg .rax), -- 1151: adcx r14, rax
  .adox .r15 (.reg .rbx), -- 1152: adox r15, rbx
  .mulx .rbx .rax (.mem ⟨some .rsp, none, 24#64⟩), -- 1153: mulx rbx, rax, [rsp + (48* 0)+ 0x18]
  .adcx .r15 (.reg .rax), -- 1154: adcx r15, rax
  .adox .r8 (.reg .rbx), -- 1155: adox r8, rbx
  .mulx .rbx .rax (.mem ⟨some .rsp, none, 32#64⟩), -- 1156: mulx rbx, rax, [rsp + (48* 0)+ 0x20]
  .adcx .r8 (.reg .rax), -- 1157: adcx r8, rax
  .adox .r9 (.reg .rbx), -- 1158: adox r9, rbx
  .adox .r10 (.reg .r11), -- 1159: adox r10, r11
  .mulx .rbx .rax (.mem ⟨some .rsp, none, 40#64⟩), -- 1160: mulx rbx, rax, [rsp + (48* 0)+ 0x28]
  .adc (.reg .r9) (.reg .rax), -- 1161: adc r9, rax
  .adc (.reg .r10) (.reg .rbx), -- 1162: adc r10, rbx
  .adc (.reg .r11) (.reg .r11), -- 1163: adc r11, r11
  .mov (.reg .rdx) (.reg .r12), -- 1164: mov rdx, r12
  .shl (.reg .rdx) (.imm 32#64), -- 1165: shl rdx, 0x20
  .add (.reg .rdx) (.reg .r12), -- 1166: add rdx, r12
  .xor (.reg .rbp) (.reg .rbp), -- 1167: xor ebp, ebp
  .mov (.reg .rax) (.imm 0xffffffff00000001#64), -- 1168: mov rax, 0xffffffff00000001
  .mulx .rax .rbx (.reg .rax), -- 1169: mulx rax, rbx, rax
  .mov (.reg .rbx) (.imm 0xffffffff#64), -- 1170: mov ebx, 0xffffffff
  .mulx .rbx .r12 (.reg .rbx), -- 1171: mulx rbx, r12, rbx
  .adc (.reg .rax) (.reg .r12), -- 1172: adc rax, r12
  .adc (.reg .rbx) (.reg .rdx), -- 1173: adc rbx, rdx
  .adc32 .rbp .rbp, -- 1174: adc ebp, ebp
  .sub (.reg .r13) (.reg .rax), -- 1175: sub r13, rax
  .sbb (.reg .r14) (.reg .rbx), -- 1176: sbb r14, rbx
  .sbb (.reg .r15) (.reg .rbp), -- 1177: sbb r15, rbp
  .sbb (.reg .r8) (.imm 0#64), -- 1178: sbb r8, 0x0
  .sbb (.reg .r9) (.imm 0#64), -- 1179: sbb r9, 0x0
  .sbb (.reg .rdx) (.imm 0#64), -- 1180: sbb rdx, 0x0
  .add (.reg .r10) (.reg .rdx), -- 1181: add r10, rdx
  .adc (.reg .r11) (.imm 0#64), -- 1182: adc r11, 0x0
  .mov (.reg .rdx) (.mem ⟨some .rcx, none, 40#64⟩), -- 1183: mov rdx, [rcx + 0+ 0x28]
  .xor (.reg .r12) (.reg .r12), -- 1184: xor r12d, r12d
  .mulx .rbx .rax (.mem ⟨some .rsp, none, 0#64⟩), -- 1185: mulx rbx, rax, [rsp + (48* 0)]
  .adcx .r13 (.reg .rax), -- 1186: adcx r13, rax
  .adox .r14 (.reg .rbx), -- 1187: adox r14, rbx
  .mulx .rbx .rax (.mem ⟨some .rsp, none, 8#64⟩), -- 1188: mulx rbx, rax, [rsp + (48* 0)+ 0x8]
  .adcx .r14 (.reg .rax), -- 1189: adcx r14, rax
  .adox .r15 (.reg .rbx), -- 1190: adox r15, rbx
  .mulx .rbx .rax (.mem ⟨some .rsp, none, 16#64⟩), -- 1191: mulx rbx, rax, [rsp + (48* 0)+ 0x10]
  .adcx .r15 (.reg .rax), -- 1192: adcx r15, rax
  .adox .r8 (.reg .rbx), -- 1193: adox r8, rbx
  .mulx .rbx .rax (.mem ⟨some .rsp, none, 24#64⟩), -- 1194: mulx rbx, rax, [rsp + (48* 0)+ 0x18]
  .adcx .r8 (.reg .rax), -- 1195: adcx r8, rax
  .adox .r9 (.reg .rbx), -- 1196: adox r9, rbx
  .mulx .rbx .rax (.mem ⟨some .rsp, none, 32#64⟩), -- 1197: mulx rbx, rax, [rsp + (48* 0)+ 0x20]
  .adcx .r9 (.reg .rax), -- 1198: adcx r9, rax
  .adox .r10 (.reg .rbx), -- 1199: adox r10, rbx
  .adox .r11 (.reg .r12), -- 1200: adox r11, r12
  .mulx .rbx .rax (.mem ⟨some .rsp, none, 40#64⟩), -- 1201: mulx rbx, rax, [rsp + (48* 0)+ 0x28]
  .adc (.reg .r10) (.reg .rax), -- 1202: adc r10, rax
  .adc (.reg .r11) (.reg .rbx), -- 1203: adc r11, rbx
  .adc (.reg .r12) (.reg .r12), -- 1204: adc r12, r12
  .mov (.reg .rdx) (.reg .r13), -- 1205: mov rdx, r13
  .shl (.reg .rdx) (.imm 32#64), -- 1206: shl rdx, 0x20
  .add (.reg .rdx) (.reg .r13), -- 1207: add rdx, r13
  .xor (.reg .rbp) (.reg .rbp), -- 1208: xor ebp, ebp
  .mov (.reg .rax) (.imm 0xffffffff00000001#64), -- 1209: mov rax, 0xffffffff00000001
  .mulx .rax .rbx (.reg .rax), -- 1210: mulx rax, rbx, rax
  .mov (.reg .rbx) (.imm 0xffffffff#64), -- 1211: mov ebx, 0xffffffff
  .mulx .rbx .r13 (.reg .rbx), -- 1212: mulx rbx, r13, rbx
  .adc (.reg .rax) (.reg .r13), -- 1213: adc rax, r13
  .adc (.reg .rbx) (.reg .rdx), -- 1214: adc rbx, rdx
  .adc32 .rbp .rbp, -- 1215: adc ebp, ebp
  .sub (.reg .r14) (.reg .rax), -- 1216: sub r14, rax
  .sbb (.reg .r15) (.reg .rbx), -- 1217: sbb r15, rbx
  .sbb (.reg .r8) (.reg .rbp), -- 1218: sbb r8, rbp
  .sbb (.reg .r9) (.imm 0#64), -- 1219: sbb r9, 0x0
  .sbb (.reg .r10) (.imm 0#64), -- 1220: sbb r10, 0x0
  .sbb (.reg .rdx) (.imm 0#64), -- 1221: sbb rdx, 0x0
  .add (.reg .r11) (.reg .rdx), -- 1222: add r11, rdx
  .adc (.reg .r12) (.imm 0#64), -- 1223: adc r12, 0x0
  .xor (.reg .rdx) (.reg .rdx), -- 1224: xor edx, edx
  .xor (.reg .rbp) (.reg .rbp), -- 1225: xor ebp, ebp
  .xor (.reg .r13) (.reg .r13), -- 1226: xor r13d, r13d
  .mov (.reg .rax) (.imm 0xffffffff00000001#64), -- 1227: mov rax, 0xffffffff00000001
  .add (.reg .rax) (.reg .r14), -- 1228: add rax, r14
  .mov (.reg .rbx) (.imm 0xffffffff#64), -- 1229: mov ebx, 0xffffffff
  .adc (.reg .rbx) (.reg .r15), -- 1230: adc rbx, r15
  .mov (.reg .rcx) (.imm 1#64), -- 1231: mov ecx, 0x1
  .adc (.reg .rcx) (.reg .r8), -- 1232: adc rcx, r8
  .adc (.reg .rdx) (.reg .r9), -- 1233: adc rdx, r9
  .adc (.reg .rbp) (.reg .r10), -- 1234: adc rbp, r10
  .adc (.reg .r13) (.reg .r11), -- 1235: adc r13, r11
  .adc (.reg .r12) (.imm 0#64), -- 1236: adc r12, 0x0
  .cmov .nz .r14 (.reg .rax), -- 1237: cmovne r14, rax
  .cmov .nz .r15 (.reg .rbx), -- 1238: cmovne r15, rbx
  .cmov .nz .r8 (.reg .rcx), -- 1239: cmovne r8, rcx
  .cmov .nz .r9 (.reg .rdx), -- 1240: cmovne r9, rdx
  .cmov .nz .r10 (.reg .rbp), -- 1241: cmovne r10, rbp
  .cmov .nz .r11 (.reg .r13), -- 1242: cmovne r11, r13
  .mov (.mem ⟨some .rsp, none, 96#64⟩) (.reg .r14), -- 1243: mov [rsp + (48* 2)], r14
  .mov (.mem ⟨some .rsp, none, 104#64⟩) (.reg .r15), -- 1244: mov [rsp + (48* 2)+ 0x8], r15
  .mov (.mem ⟨some .rsp, none, 112#64⟩) (.reg .r8), -- 1245: mov [rsp + (48* 2)+ 0x10], r8
  .mov (.mem ⟨some .rsp, none, 120#64⟩) (.reg .r9), -- 1246: mov [rsp + (48* 2)+ 0x18], r9
  .mov (.mem ⟨some .rsp, none, 128#64⟩) (.reg .r10), -- 1247: mov [rsp + (48* 2)+ 0x20], r10
  .mov (.mem ⟨some .rsp, none, 136#64⟩) (.reg .r11), -- 1248: mov [rsp + (48* 2)+ 0x28], r11
  .mov (.reg .rsi) (.mem ⟨some .rsp, none, 336#64⟩), -- 1249: mov rsi, [rsp + (48* 7)]
  .mov (.reg .rdx) (.mem ⟨some .rsi, none, 0#64⟩), -- 1250: mov rdx, [rsi + 0]
  .xor (.reg .r15) (.reg .r15), -- 1251: xor r15d, r15d
  .mulx .r9 .r8 (.mem ⟨some .rsp, none, 240#64⟩), -- 1252: mulx r9, r8, [rsp + (48* 5)]
  .mulx .r10 .rbx (.mem ⟨some .rsp, none, 248#64⟩), -- 1253: mulx r10, rbx, [rsp + (48* 5)+ 0x8]
  .add (.reg .r9) (.reg .rbx), -- 1254: add r9, rbx
  .mulx .r11 .rbx (.mem ⟨some .rsp, none, 256#64⟩), -- 1255: mulx r11, rbx, [rsp + (48* 5)+ 0x10]
  .adc (.reg .r10) (.reg .rbx), -- 1256: adc r10, rbx
  .mulx .r12 .rbx (.mem ⟨some .rsp, none, 264#64⟩), -- 1257: mulx r12, rbx, [rsp + (48* 5)+ 0x18]
  .adc (.reg .r11) (.reg .rbx), -- 1258: adc r11, rbx
  .mulx .r13 .rbx (.mem ⟨some .rsp, none, 272#64⟩), -- 1259: mulx r13, rbx, [rsp + (48* 5)+ 0x20]
  .adc (.reg .r12) (.reg .rbx), -- 1260: adc r12, rbx
  .mulx .r14 .rbx (.mem ⟨some .rsp, none, 280#64⟩), -- 1261: mulx r14, rbx, [rsp + (48* 5)+ 0x28]
  .adc (.reg .r13) (.reg .rbx), -- 1262: adc r13, rbx
  .adc (.reg .r14) (.reg .r15), -- 1263: adc r14, r15
  .mov (.reg .rdx) (.reg .r8), -- 1264: mov rdx, r8
  .shl (.reg .rdx) (.imm 32#64), -- 1265: shl rdx, 0x20
  .add (.reg .rdx) (.reg .r8), -- 1266: add rdx, r8
  .xor (.reg .rbp) (.reg .rbp), -- 1267: xor ebp, ebp
  .mov (.reg .rax) (.imm 0xffffffff00000001#64), -- 1268: mov rax, 0xffffffff00000001
  .mulx .rax .rbx (.reg .rax), -- 1269: mulx rax, rbx, rax
  .mov (.reg .rbx) (.imm 0xffffffff#64), -- 1270: mov ebx, 0xffffffff
  .mulx .rbx .r8 (.reg .rbx), -- 1271: mulx rbx, r8, rbx
  .adc (.reg .rax) (.reg .r8), -- 1272: adc rax, r8
  .adc (.reg .rbx) (.reg .rdx), -- 1273: adc rbx, rdx
  .adc32 .rbp .rbp, -- 1274: adc ebp, ebp
  .sub (.reg .r9) (.reg .rax), -- 1275: sub r9, rax
  .sbb (.reg .r10) (.reg .rbx), -- 1276: sbb r10, rbx
  .sbb (.reg .r11) (.reg .rbp), -- 1277: sbb r11, rbp
  .sbb (.reg .r12) (.imm 0#64), -- 1278: sbb r12, 0x0
  .sbb (.reg .r13) (.imm 0#64), -- 1279: sbb r13, 0x0
  .sbb (.reg .rdx) (.imm 0#64), -- 1280: sbb rdx, 0x0
  .add (.reg .r14) (.reg .rdx), -- 1281: add r14, rdx
  .adc (.reg .r15) (.imm 0#64), -- 1282: adc r15, 0x0
  .mov (.reg .rdx) (.mem ⟨some .rsi, none, 8#64⟩), -- 1283: mov rdx, [rsi + 0+ 0x8]
  .xor (.reg .r8) (.reg .r8), -- 1284: xor r8d, r8d
  .mulx .rbx .rax (.mem ⟨some .rsp, none, 240#64⟩), -- 1285: mulx rbx, rax, [rsp + (48* 5)]
  .adcx .r9 (.reg .rax), -- 1286: adcx r9, rax
  .adox .r10 (.reg .rbx), -- 1287: adox r10, rbx
  .mulx .rbx .rax (.mem ⟨some .rsp, none, 248#64⟩), -- 1288: mulx rbx, rax, [rsp + (48* 5)+ 0x8]
  .adcx .r10 (.reg .rax), -- 1289: adcx r10, rax
  .adox .r11 (.reg .rbx), -- 1290: adox r11, rbx
  .mulx .rbx .rax (.mem ⟨some .rsp, none, 256#64⟩), -- 1291: mulx rbx, rax, [rsp + (48* 5)+ 0x10]
  .adcx .r11 (.reg .rax), -- 1292: adcx r11, rax
  .adox .r12 (.reg .rbx), -- 1293: adox r12, rbx
  .mulx .rbx .rax (.mem ⟨some .rsp, none, 264#64⟩), -- 1294: mulx rbx, rax, [rsp + (48* 5)+ 0x18]
  .adcx .r12 (.reg .rax), -- 1295: adcx r12, rax
  .adox .r13 (.reg .rbx), -- 1296: adox r13, rbx
  .mulx .rbx .rax (.mem ⟨some .rsp, none, 272#64⟩), -- 1297: mulx rbx, rax, [rsp + (48* 5)+ 0x20]
  .adcx .r13 (.reg .rax), -- 1298: adcx r13, rax
  .adox .r14 (.reg .rbx), -- 1299: adox r14, rbx
  .adox .r15 (.reg .r8), -- 1300: adox r15, r8
  .mulx .rbx .rax (.mem ⟨some .rsp, none, 280#64⟩), -- 1301: mulx rbx, rax, [rsp + (48* 5)+ 0x28]
  .adc (.reg .r14) (.reg .rax), -- 1302: adc r14, rax
  .adc (.reg .r15) (.reg .rbx), -- 1303: adc r15, rbx
  .adc (.reg .r8) (.reg .r8), -- 1304: adc r8, r8
  .mov (.reg .rdx) (.reg .r9), -- 1305: mov rdx, r9
  .shl (.reg .rdx) (.imm 32#64), -- 1306: shl rdx, 0x20
  .add (.reg .rdx) (.reg .r9), -- 1307: add rdx, r9
  .xor (.reg .rbp) (.reg .rbp), -- 1308: xor ebp, ebp
  .mov (.reg .rax) (.imm 0xffffffff00000001#64), -- 1309: mov rax, 0xffffffff00000001
  .mulx .rax .rbx (.reg .rax), -- 1310: mulx rax, rbx, rax
  .mov (.reg .rbx) (.imm 0xffffffff#64), -- 1311: mov ebx, 0xffffffff
  .mulx .rbx .r9 (.reg .rbx), -- 1312: mulx rbx, r9, rbx
  .adc (.reg .rax) (.reg .r9), -- 1313: adc rax, r9
  .adc (.reg .rbx) (.reg .rdx), -- 1314: adc rbx, rdx
  .adc32 .rbp .rbp, -- 1315: adc ebp, ebp
  .sub (.reg .r10) (.reg .rax), -- 1316: sub r10, rax
  .sbb (.reg .r11) (.reg .rbx), -- 1317: sbb r11, rbx
  .sbb (.reg .r12) (.reg .rbp), -- 1318: sbb r12, rbp
  .sbb (.reg .r13) (.imm 0#64), -- 1319: sbb r13, 0x0
  .sbb (.reg .r14) (.imm 0#64), -- 1320: sbb r14, 0x0
  .sbb (.reg .rdx) (.imm 0#64), -- 1321: sbb rdx, 0x0
  .add (.reg .r15) (.reg .rdx), -- 1322: add r15, rdx
  .adc (.reg .r8) (.imm 0#64), -- 1323: adc r8, 0x0
  .mov (.reg .rdx) (.mem ⟨some .rsi, none, 16#64⟩), -- 1324: mov rdx, [rsi + 0+ 0x10]
  .xor (.reg .r9) (.reg .r9), -- 1325: xor r9d, r9d
  .mulx .rbx .rax (.mem ⟨some .rsp, none, 240#64⟩), -- 1326: mulx rbx, rax, [rsp + (48* 5)]
  .adcx .r10 (.reg .rax), -- 1327: adcx r10, rax
  .adox .r11 (.reg .rbx), -- 1328: adox r11, rbx
  .mulx .rbx .rax (.mem ⟨some .rsp, none, 248#64⟩), -- 1329: mulx rbx, rax, [rsp + (48* 5)+ 0x8]
  .adcx .r11 (.reg .rax), -- 1330: adcx r11, rax
  .adox .r12 (.reg .rbx), -- 1331: adox r12, rbx
  .mulx .rbx .rax (.mem ⟨some .rsp, none, 256#64⟩), -- 1332: mulx rbx, rax, [rsp + (48* 5)+ 0x10]
  .adcx .r12 (.reg .rax), -- 1333: adcx r12, rax
  .adox .r13 (.reg .rbx), -- 1334: adox r13, rbx
  .mulx .rbx .rax (.mem ⟨some .rsp, none, 264#64⟩), -- 1335: mulx rbx, rax, [rsp + (48* 5)+ 0x18]
  .adcx .r13 (.reg .rax), -- 1336: adcx r13, rax
  .adox .r14 (.reg .rbx), -- 1337: adox r14, rbx
  .mulx .rbx .rax (.mem ⟨some .rsp, none, 272#64⟩), -- 1338: mulx rbx, rax, [rsp + (48* 5)+ 0x20]
  .adcx .r14 (.reg .rax), -- 1339: adcx r14, rax
  .adox .r15 (.reg .rbx), -- 1340: adox r15, rbx
  .adox .r8 (.reg .r9), -- 1341: adox r8, r9
  .mulx .rbx .rax (.mem ⟨some .rsp, none, 280#64⟩), -- 1342: mulx rbx, rax, [rsp + (48* 5)+ 0x28]
  .adc (.reg .r15) (.reg .rax), -- 1343: adc r15, rax
  .adc (.reg .r8) (.reg .rbx), -- 1344: adc r8, rbx
  .adc (.reg .r9) (.reg .r9), -- 1345: adc r9, r9
  .mov (.reg .rdx) (.reg .r10), -- 1346: mov rdx, r10
  .shl (.reg .rdx) (.imm 32#64), -- 1347: shl rdx, 0x20
  .add (.reg .rdx) (.reg .r10), -- 1348: add rdx, r10
  .xor (.reg .rbp) (.reg .rbp), -- 1349: xor ebp, ebp
  .mov (.reg .rax) (.imm 0xffffffff00000001#64), -- 1350: mov rax, 0xffffffff00000001
  .mulx .rax .rbx (.reg .rax), -- 1351: mulx rax, rbx, rax
  .mov (.reg .rbx) (.imm 0xffffffff#64), -- 1352: mov ebx, 0xffffffff
  .mulx .rbx .r10 (.reg .rbx), -- 1353: mulx rbx, r10, rbx
  .adc (.reg .rax) (.reg .r10), -- 1354: adc rax, r10
  .adc (.reg .rbx) (.reg .rdx), -- 1355: adc rbx, rdx
  .adc32 .rbp .rbp, -- 1356: adc ebp, ebp
  .sub (.reg .r11) (.reg .rax), -- 1357: sub r11, rax
  .sbb (.reg .r12) (.reg .rbx), -- 1358: sbb r12, rbx
  .sbb (.reg .r13) (.reg .rbp), -- 1359: sbb r13, rbp
  .sbb (.reg .r14) (.imm 0#64), -- 1360: sbb r14, 0x0
  .sbb (.reg .r15) (.imm 0#64), -- 1361: sbb r15, 0x0
  .sbb (.reg .rdx) (.imm 0#64), -- 1362: sbb rdx, 0x0
  .add (.reg .r8) (.reg .rdx), -- 1363: add r8, rdx
  .adc (.reg .r9) (.imm 0#64), -- 1364: adc r9, 0x0
  .mov (.reg .rdx) (.mem ⟨some .rsi, none, 24#64⟩), -- 1365: mov rdx, [rsi + 0+ 0x18]
  .xor (.reg .r10) (.reg .r10), -- 1366: xor r10d, r10d
  .mulx .rbx .rax (.mem ⟨some .rsp, none, 240#64⟩), -- 1367: mulx rbx, rax, [rsp + (48* 5)]
  .adcx .r11 (.reg .rax), -- 1368: adcx r11, rax
  .adox .r12 (.reg .rbx), -- 1369: adox r12, rbx
  .mulx .rbx .rax (.mem ⟨some .rsp, none, 248#64⟩), -- 1370: mulx rbx, rax, [rsp + (48* 5)+ 0x8]
  .adcx .r12 (.reg .rax), -- 1371: adcx r12, rax
  .adox .r13 (.reg .rbx), -- 1372: adox r13, rbx
  .mulx .rbx .rax (.mem ⟨some .rsp, none, 256#64⟩), -- 1373: mulx rbx, rax, [rsp + (48* 5)+ 0x10]
  .adcx .r13 (.reg .rax), -- 1374: adcx r13, rax
  .adox .r14 (.reg .rbx), -- 1375: adox r14, rbx
  .mulx .rbx .rax (.mem ⟨some .rsp, none, 264#64⟩), -- 1376: mulx rbx, rax, [rsp + (48* 5)+ 0x18]
  .adcx .r14 (.reg .rax), -- 1377: adcx r14, rax
  .adox .r15 (.reg .rbx), -- 1378: adox r15, rbx
  .mulx .rbx .rax (.mem ⟨some .rsp, none, 272#64⟩), -- 1379: mulx rbx, rax, [rsp + (48* 5)+ 0x20]
  .adcx .r15 (.reg .rax), -- 1380: adcx r15, rax
  .adox .r8 (.reg .rbx), -- 1381: adox r8, rbx
  .adox .r9 (.reg .r10), -- 1382: adox r9, r10
  .mulx .rbx .rax (.mem ⟨some .rsp, none, 280#64⟩), -- 1383: mulx rbx, rax, [rsp + (48* 5)+ 0x28]
  .adc (.reg .r8) (.reg .rax), -- 1384: adc r8, rax
  .adc (.reg .r9) (.reg .rbx), -- 1385: adc r9, rbx
  .adc (.reg .r10) (.reg .r10), -- 1386: adc r10, r10
  .mov (.reg .rdx) (.reg .r11), -- 1387: mov rdx, r11
  .shl (.reg .rdx) (.imm 32#64), -- 1388: shl rdx, 0x20
  .add (.reg .rdx) (.reg .r11), -- 1389: add rdx, r11
  .xor (.reg .rbp) (.reg .rbp), -- 1390: xor ebp, ebp
  .mov (.reg .rax) (.imm 0xffffffff00000001#64), -- 1391: mov rax, 0xffffffff00000001
  .mulx .rax .rbx (.reg .rax), -- 1392: mulx rax, rbx, rax
  .mov (.reg .rbx) (.imm 0xffffffff#64), -- 1393: mov ebx, 0xffffffff
  .mulx .rbx .r11 (.reg .rbx), -- 1394: mulx rbx, r11, rbx
  .adc (.reg .rax) (.reg .r11), -- 1395: adc rax, r11
  .adc (.reg .rbx) (.reg .rdx), -- 1396: adc rbx, rdx
  .adc32 .rbp .rbp, -- 1397: adc ebp, ebp
  .sub (.reg .r12) (.reg .rax), -- 1398: sub r12, rax
  .sbb (.reg .r13) (.reg .rbx), -- 1399: sbb r13, rbx
  .sbb (.reg .r14) (.reg .rbp), -- 1400: sbb r14, rbp
  .sbb (.reg .r15) (.imm 0#64), -- 1401: sbb r15, 0x0
  .sbb (.reg .r8) (.imm 0#64), -- 1402: sbb r8, 0x0
  .sbb (.reg .rdx) (.imm 0#64), -- 1403: sbb rdx, 0x0
  .add (.reg .r9) (.reg .rdx), -- 1404: add r9, rdx
  .adc (.reg .r10) (.imm 0#64), -- 1405: adc r10, 0x0
  .mov (.reg .rdx) (.mem ⟨some .rsi, none, 32#64⟩), -- 1406: mov rdx, [rsi + 0+ 0x20]
  .xor (.reg .r11) (.reg .r11), -- 1407: xor r11d, r11d
  .mulx .rbx .rax (.mem ⟨some .rsp, none, 240#64⟩), -- 1408: mulx rbx, rax, [rsp + (48* 5)]
  .adcx .r12 (.reg .rax), -- 1409: adcx r12, rax
  .adox .r13 (.reg .rbx), -- 1410: adox r13, rbx
  .mulx .rbx .rax (.mem ⟨some .rsp, none, 248#64⟩), -- 1411: mulx rbx, rax, [rsp + (48* 5)+ 0x8]
  .adcx .r13 (.reg .rax), -- 1412: adcx r13, rax
  .adox .r14 (.reg .rbx), -- 1413: adox r14, rbx
  .mulx .rbx .rax (.mem ⟨some .rsp, none, 256#64⟩), -- 1414: mulx rbx, rax, [rsp + (48* 5)+ 0x10]
  .adcx .r14 (.reg .rax), -- 1415: adcx r14, rax
  .adox .r15 (.reg .rbx), -- 1416: adox r15, rbx
  .mulx .rbx .rax (.mem ⟨some .rsp, none, 264#64⟩), -- 1417: mulx rbx, rax, [rsp + (48* 5)+ 0x18]
  .adcx .r15 (.reg .rax), -- 1418: adcx r15, rax
  .adox .r8 (.reg .rbx), -- 1419: adox r8, rbx
  .mulx .rbx .rax (.mem ⟨some .rsp, none, 272#64⟩), -- 1420: mulx rbx, rax, [rsp + (48* 5)+ 0x20]
  .adcx .r8 (.reg .rax), -- 1421: adcx r8, rax
  .adox .r9 (.reg .rbx), -- 1422: adox r9, rbx
  .adox .r10 (.reg .r11), -- 1423: adox r10, r11
  .mulx .rbx .rax (.mem ⟨some .rsp, none, 280#64⟩), -- 1424: mulx rbx, rax, [rsp + (48* 5)+ 0x28]
  .adc (.reg .r9) (.reg .rax), -- 1425: adc r9, rax
  .adc (.reg .r10) (.reg .rbx), -- 1426: adc r10, rbx
  .adc (.reg .r11) (.reg .r11), -- 1427: adc r11, r11
  .mov (.reg .rdx) (.reg .r12), -- 1428: mov rdx, r12
  .shl (.reg .rdx) (.imm 32#64), -- 1429: shl rdx, 0x20
  .add (.reg .rdx) (.reg .r12), -- 1430: add rdx, r12
  .xor (.reg .rbp) (.reg .rbp), -- 1431: xor ebp, ebp
  .mov (.reg .rax) (.imm 0xffffffff00000001#64), -- 1432: mov rax, 0xffffffff00000001
  .mulx .rax .rbx (.reg .rax), -- 1433: mulx rax, rbx, rax
  .mov (.reg .rbx) (.imm 0xffffffff#64), -- 1434: mov ebx, 0xffffffff
  .mulx .rbx .r12 (.reg .rbx), -- 1435: mulx rbx, r12, rbx
  .adc (.reg .rax) (.reg .r12), -- 1436: adc rax, r12
  .adc (.reg .rbx) (.reg .rdx), -- 1437: adc rbx, rdx
  .adc32 .rbp .rbp, -- 1438: adc ebp, ebp
  .sub (.reg .r13) (.reg .rax), -- 1439: sub r13, rax
  .sbb (.reg .r14) (.reg .rbx), -- 1440: sbb r14, rbx
  .sbb (.reg .r15) (.reg .rbp), -- 1441: sbb r15, rbp
  .sbb (.reg .r8) (.imm 0#64), -- 1442: sbb r8, 0x0
  .sbb (.reg .r9) (.imm 0#64), -- 1443: sbb r9, 0x0
  .sbb (.reg .rdx) (.imm 0#64), -- 1444: sbb rdx, 0x0
  .add (.reg .r10) (.reg .rdx), -- 1445: add r10, rdx
  .adc (.reg .r11) (.imm 0#64), -- 1446: adc r11, 0x0
  .mov (.reg .rdx) (.mem ⟨some .rsi, none, 40#64⟩), -- 1447: mov rdx, [rsi + 0+ 0x28]
  .xor (.reg .r12) (.reg .r12), -- 1448: xor r12d, r12d
  .mulx .rbx .rax (.mem ⟨some .rsp, none, 240#64⟩), -- 1449: mulx rbx, rax, [rsp + (48* 5)]
  .adcx .r13 (.reg .rax), -- 1450: adcx r13, rax
  .adox .r14 (.reg .rbx), -- 1451: adox r14, rbx
  .mulx .rbx .rax (.mem ⟨some .rsp, none, 248#64⟩), -- 1452: mulx rbx, rax, [rsp + (48* 5)+ 0x8]
  .adcx .r14 (.reg .rax), -- 1453: adcx r14, rax
  .adox .r15 (.reg .rbx), -- 1454: adox r15, rbx
  .mulx .rbx .rax (.mem ⟨some .rsp, none, 256#64⟩), -- 1455: mulx rbx, rax, [rsp + (48* 5)+ 0x10]
  .adcx .r15 (.reg .rax), -- 1456: adcx r15, rax
  .adox .r8 (.reg .rbx), -- 1457: adox r8, rbx
  .mulx .rbx .rax (.mem ⟨some .rsp, none, 264#64⟩), -- 1458: mulx rbx, rax, [rsp + (48* 5)+ 0x18]
  .adcx .r8 (.reg .rax), -- 1459: adcx r8, rax
  .adox .r9 (.reg .rbx), -- 1460: adox r9, rbx
  .mulx .rbx .rax (.mem ⟨some .rsp, none, 272#64⟩), -- 1461: mulx rbx, rax, [rsp + (48* 5)+ 0x20]
  .adcx .r9 (.reg .rax), -- 1462: adcx r9, rax
  .adox .r10 (.reg .rbx), -- 1463: adox r10, rbx
  .adox .r11 (.reg .r12), -- 1464: adox r11, r12
  .mulx .rbx .rax (.mem ⟨some .rsp, none, 280#64⟩), -- 1465: mulx rbx, rax, [rsp + (48* 5)+ 0x28]
  .adc (.reg .r10) (.reg .rax), -- 1466: adc r10, rax
  .adc (.reg .r11) (.reg .rbx), -- 1467: adc r11, rbx
  .adc (.reg .r12) (.reg .r12), -- 1468: adc r12, r12
  .mov (.reg .rdx) (.reg .r13), -- 1469: mov rdx, r13
  .shl (.reg .rdx) (.imm 32#64), -- 1470: shl rdx, 0x20
  .add (.reg .rdx) (.reg .r13), -- 1471: add rdx, r13
  .xor (.reg .rbp) (.reg .rbp), -- 1472: xor ebp, ebp
  .mov (.reg .rax) (.imm 0xffffffff00000001#64), -- 1473: mov rax, 0xffffffff00000001
  .mulx .rax .rbx (.reg .rax), -- 1474: mulx rax, rbx, rax
  .mov (.reg .rbx) (.imm 0xffffffff#64), -- 1475: mov ebx, 0xffffffff
  .mulx .rbx .r13 (.reg .rbx), -- 1476: mulx rbx, r13, rbx
  .adc (.reg .rax) (.reg .r13), -- 1477: adc rax, r13
  .adc (.reg .rbx) (.reg .rdx), -- 1478: adc rbx, rdx
  .adc32 .rbp .rbp, -- 1479: adc ebp, ebp
  .sub (.reg .r14) (.reg .rax), -- 1480: sub r14, rax
  .sbb (.reg .r15) (.reg .rbx), -- 1481: sbb r15, rbx
  .sbb (.reg .r8) (.reg .rbp), -- 1482: sbb r8, rbp
  .sbb (.reg .r9) (.imm 0#64), -- 1483: sbb r9, 0x0
  .sbb (.reg .r10) (.imm 0#64), -- 1484: sbb r10, 0x0
  .sbb (.reg .rdx) (.imm 0#64), -- 1485: sbb rdx, 0x0
  .add (.reg .r11) (.reg .rdx), -- 1486: add r11, rdx
  .adc (.reg .r12) (.imm 0#64), -- 1487: adc r12, 0x0
  .xor (.reg .rdx) (.reg .rdx), -- 1488: xor edx, edx
  .xor (.reg .rbp) (.reg .rbp), -- 1489: xor ebp, ebp
  .xor (.reg .r13) (.reg .r13), -- 1490: xor r13d, r13d
  .mov (.reg .rax) (.imm 0xffffffff00000001#64), -- 1491: mov rax, 0xffffffff00000001
  .add (.reg .rax) (.reg .r14), -- 1492: add rax, r14
  .mov (.reg .rbx) (.imm 0xffffffff#64), -- 1493: mov ebx, 0xffffffff
  .adc (.reg .rbx) (.reg .r15), -- 1494: adc rbx, r15
  .mov (.reg .rcx) (.imm 1#64), -- 1495: mov ecx, 0x1
  .adc (.reg .rcx) (.reg .r8), -- 1496: adc rcx, r8
  .adc (.reg .rdx) (.reg .r9), -- 1497: adc rdx, r9
  .adc (.reg .rbp) (.reg .r10), -- 1498: adc rbp, r10
  .adc (.reg .r13) (.reg .r11), -- 1499: adc r13, r11
  .adc (.reg .r12) (.imm 0#64), -- 1500: adc r12, 0x0
  .cmov .nz .r14 (.reg .rax), -- 1501: cmovne r14, rax
  .cmov .nz .r15 (.reg .rbx), -- 1502: cmovne r15, rbx
  .cmov .nz .r8 (.reg .rcx), -- 1503: cmovne r8, rcx
  .cmov .nz .r9 (.reg .rdx), -- 1504: cmovne r9, rdx
  .cmov .nz .r10 (.reg .rbp), -- 1505: cmovne r10, rbp
  .cmov .nz .r11 (.reg .r13), -- 1506: cmovne r11, r13
  .mov (.mem ⟨some .rsp, none, 192#64⟩) (.reg .r14), -- 1507: mov [rsp + (48* 4)], r14
  .mov (.mem ⟨some .rsp, none, 200#64⟩) (.reg .r15), -- 1508: mov [rsp + (48* 4)+ 0x8], r15
  .mov (.mem ⟨some .rsp, none, 208#64⟩) (.reg .r8), -- 1509: mov [rsp + (48* 4)+ 0x10], r8
  .mov (.mem ⟨some .rsp, none, 216#64⟩) (.reg .r9), -- 1510: mov [rsp + (48* 4)+ 0x18], r9
  .mov (.mem ⟨some .rsp, none, 224#64⟩) (.reg .r10), -- 1511: mov [rsp + (48* 4)+ 0x20], r10
  .mov (.mem ⟨some .rsp, none, 232#64⟩) (.reg .r11), -- 1512: mov [rsp + (48* 4)+ 0x28], r11
  .mov (.reg .rdx) (.mem ⟨some .rsp, none, 48#64⟩), -- 1513: mov rdx, [rsp + (48* 1)]
  .xor (.reg .r15) (.reg .r15), -- 1514: xor r15d, r15d
  .mulx .r9 .r8 (.mem ⟨some .rsp, none, 0#64⟩), -- 1515: mulx r9, r8, [rsp + (48* 0)]
  .mulx .r10 .rbx (.mem ⟨some .rsp, none, 8#64⟩), -- 1516: mulx r10, rbx, [rsp + (48* 0)+ 0x8]
  .add (.reg .r9) (.reg .rbx), -- 1517: add r9, rbx
  .mulx .r11 .rbx (.mem ⟨some .rsp, none, 16#64⟩), -- 1518: mulx r11, rbx, [rsp + (48* 0)+ 0x10]
  .adc (.reg .r10) (.reg .rbx), -- 1519: adc r10, rbx
  .mulx .r12 .rbx (.mem ⟨some .rsp, none, 24#64⟩), -- 1520: mulx r12, rbx, [rsp + (48* 0)+ 0x18]
  .adc (.reg .r11) (.reg .rbx), -- 1521: adc r11, rbx
  .mulx .r13 .rbx (.mem ⟨some .rsp, none, 32#64⟩), -- 1522: mulx r13, rbx, [rsp + (48* 0)+ 0x20]
  .adc (.reg .r12) (.reg .rbx), -- 1523: adc r12, rbx
  .mulx .r14 .rbx (.mem ⟨some .rsp, none, 40#64⟩), -- 1524: mulx r14, rbx, [rsp + (48* 0)+ 0x28]
  .adc (.reg .r13) (.reg .rbx), -- 1525: adc r13, rbx
  .adc (.reg .r14) (.reg .r15), -- 1526: adc r14, r15
  .mov (.reg .rdx) (.reg .r8), -- 1527: mov rdx, r8
  .shl (.reg .rdx) (.imm 32#64), -- 1528: shl rdx, 0x20
  .add (.reg .rdx) (.reg .r8), -- 1529: add rdx, r8
  .xor (.reg .rbp) (.reg .rbp), -- 1530: xor ebp, ebp
  .mov (.reg .rax) (.imm 0xffffffff00000001#64), -- 1531: mov rax, 0xffffffff00000001
  .mulx .rax .rbx (.reg .rax), -- 1532: mulx rax, rbx, rax
  .mov (.reg .rbx) (.imm 0xffffffff#64), -- 1533: mov ebx, 0xffffffff
  .mulx .rbx .r8 (.reg .rbx), -- 1534: mulx rbx, r8, rbx
  .adc (.reg .rax) (.reg .r8), -- 1535: adc rax, r8
  .adc (.reg .rbx) (.reg .rdx), -- 1536: adc rbx, rdx
  .adc32 .rbp .rbp, -- 1537: adc ebp, ebp
  .sub (.reg .r9) (.reg .rax), -- 1538: sub r9, rax
  .sbb (.reg .r10) (.reg .rbx), -- 1539: sbb r10, rbx
  .sbb (.reg .r11) (.reg .rbp), -- 1540: sbb r11, rbp
  .sbb (.reg .r12) (.imm 0#64), -- 1541: sbb r12, 0x0
  .sbb (.reg .r13) (.imm 0#64), -- 1542: sbb r13, 0x0
  .sbb (.reg .rdx) (.imm 0#64), -- 1543: sbb rdx, 0x0
  .add (.reg .r14) (.reg .rdx), -- 1544: add r14, rdx
  .adc (.reg .r15) (.imm 0#64), -- 1545: adc r15, 0x0
  .mov (.reg .rdx) (.mem ⟨some .rsp, none, 56#64⟩), -- 1546: mov rdx, [rsp + (48* 1)+ 0x8]
  .xor (.reg .r8) (.reg .r8), -- 1547: xor r8d, r8d
  .mulx .rbx .rax (.mem ⟨some .rsp, none, 0#64⟩), -- 1548: mulx rbx, rax, [rsp + (48* 0)]
  .adcx .r9 (.reg .rax), -- 1549: adcx r9, rax
  .adox .r10 (.reg .rbx), -- 1550: adox r10, rbx
  .mulx .rbx .rax (.mem ⟨some .rsp, none, 8#64⟩), -- 1551: mulx rbx, rax, [rsp + (48* 0)+ 0x8]
  .adcx .r10 (.reg .rax), -- 1552: adcx r10, rax
  .adox .r11 (.reg .rbx), -- 1553: adox r11, rbx
  .mulx .rbx .rax (.mem ⟨some .rsp, none, 16#64⟩), -- 1554: mulx rbx, rax, [rsp + (48* 0)+ 0x10]
  .adcx .r11 (.reg .rax), -- 1555: adcx r11, rax
  .adox .r12 (.reg .rbx), -- 1556: adox r12, rbx
  .mulx .rbx .rax (.mem ⟨some .rsp, none, 24#64⟩), -- 1557: mulx rbx, rax, [rsp + (48* 0)+ 0x18]
  .adcx .r12 (.reg .rax), -- 1558: adcx r12, rax
  .adox .r13 (.reg .rbx), -- 1559: adox r13, rbx
  .mulx .rbx .rax (.mem ⟨some .rsp, none, 32#64⟩), -- 1560: mulx rbx, rax, [rsp + (48* 0)+ 0x20]
  .adcx .r13 (.reg .rax), -- 1561: adcx r13, rax
  .adox .r14 (.reg .rbx), -- 1562: adox r14, rbx
  .adox .r15 (.reg .r8), -- 1563: adox r15, r8
  .mulx .rbx .rax (.mem ⟨some .rsp, none, 40#64⟩), -- 1564: mulx rbx, rax, [rsp + (48* 0)+ 0x28]
  .adc (.reg .r14) (.reg .rax), -- 1565: adc r14, rax
  .adc (.reg .r15) (.reg .rbx), -- 1566: adc r15, rbx
  .adc (.reg .r8) (.reg .r8), -- 1567: adc r8, r8
  .mov (.reg .rdx) (.reg .r9), -- 1568: mov rdx, r9
  .shl (.reg .rdx) (.imm 32#64), -- 1569: shl rdx, 0x20
  .add (.reg .rdx) (.reg .r9), -- 1570: add rdx, r9
  .xor (.reg .rbp) (.reg .rbp), -- 1571: xor ebp, ebp
  .mov (.reg .rax) (.imm 0xffffffff00000001#64), -- 1572: mov rax, 0xffffffff00000001
  .mulx .rax .rbx (.reg .rax), -- 1573: mulx rax, rbx, rax
  .mov (.reg .rbx) (.imm 0xffffffff#64), -- 1574: mov ebx, 0xffffffff
  .mulx .rbx .r9 (.reg .rbx), -- 1575: mulx rbx, r9, rbx
  .adc (.reg .rax) (.reg .r9), -- 1576: adc rax, r9
  .adc (.reg .rbx) (.reg .rdx), -- 1577: adc rbx, rdx
  .adc32 .rbp .rbp, -- 1578: adc ebp, ebp
  .sub (.reg .r10) (.reg .rax), -- 1579: sub r10, rax
  .sbb (.reg .r11) (.reg .rbx), -- 1580: sbb r11, rbx
  .sbb (.reg .r12) (.reg .rbp), -- 1581: sbb r12, rbp
  .sbb (.reg .r13) (.imm 0#64), -- 1582: sbb r13, 0x0
  .sbb (.reg .r14) (.imm 0#64), -- 1583: sbb r14, 0x0
  .sbb (.reg .rdx) (.imm 0#64), -- 1584: sbb rdx, 0x0
  .add (.reg .r15) (.reg .rdx), -- 1585: add r15, rdx
  .adc (.reg .r8) (.imm 0#64), -- 1586: adc r8, 0x0
  .mov (.reg .rdx) (.mem ⟨some .rsp, none, 64#64⟩), -- 1587: mov rdx, [rsp + (48* 1)+ 0x10]
  .xor (.reg .r9) (.reg .r9), -- 1588: xor r9d, r9d
  .mulx .rbx .rax (.mem ⟨some .rsp, none, 0#64⟩), -- 1589: mulx rbx, rax, [rsp + (48* 0)]
  .adcx .r10 (.reg .rax), -- 1590: adcx r10, rax
  .adox .r11 (.reg .rbx), -- 1591: adox r11, rbx
  .mulx .rbx .rax (.mem ⟨some .rsp, none, 8#64⟩), -- 1592: mulx rbx, rax, [rsp + (48* 0)+ 0x8]
  .adcx .r11 (.reg .rax), -- 1593: adcx r11, rax
  .adox .r12 (.reg .rbx), -- 1594: adox r12, rbx
  .mulx .rbx .rax (.mem ⟨some .rsp, none, 16#64⟩), -- 1595: mulx rbx, rax, [rsp + (48* 0)+ 0x10]
  .adcx .r12 (.reg .rax), -- 1596: adcx r12, rax
  .adox .r13 (.reg .rbx), -- 1597: adox r13, rbx
  .mulx .rbx .rax (.mem ⟨some .rsp, none, 24#64⟩), -- 1598: mulx rbx, rax, [rsp + (48* 0)+ 0x18]
  .adcx .r13 (.reg .rax), -- 1599: adcx r13, rax
  .adox .r14 (.reg .rbx), -- 1600: adox r14, rbx
  .mulx .rbx .rax (.mem ⟨some .rsp, none, 32#64⟩), -- 1601: mulx rbx, rax, [rsp + (48* 0)+ 0x20]
  .adcx .r14 (.reg .rax), -- 1602: adcx r14, rax
  .adox .r15 (.reg .rbx), -- 1603: adox r15, rbx
  .adox .r8 (.reg .r9), -- 1604: adox r8, r9
  .mulx .rbx .rax (.mem ⟨some .rsp, none, 40#64⟩), -- 1605: mulx rbx, rax, [rsp + (48* 0)+ 0x28]
  .adc (.reg .r15) (.reg .rax), -- 1606: adc r15, rax
  .adc (.reg .r8) (.reg .rbx), -- 1607: adc r8, rbx
  .adc (.reg .r9) (.reg .r9), -- 1608: adc r9, r9
  .mov (.reg .rdx) (.reg .r10), -- 1609: mov rdx, r10
  .shl (.reg .rdx) (.imm 32#64), -- 1610: shl rdx, 0x20
  .add (.reg .rdx) (.reg .r10), -- 1611: add rdx, r10
  .xor (.reg .rbp) (.reg .rbp), -- 1612: xor ebp, ebp
  .mov (.reg .rax) (.imm 0xffffffff00000001#64), -- 1613: mov rax, 0xffffffff00000001
  .mulx .rax .rbx (.reg .rax), -- 1614: mulx rax, rbx, rax
  .mov (.reg .rbx) (.imm 0xffffffff#64), -- 1615: mov ebx, 0xffffffff
  .mulx .rbx .r10 (.reg .rbx), -- 1616: mulx rbx, r10, rbx
  .adc (.reg .rax) (.reg .r10), -- 1617: adc rax, r10
  .adc (.reg .rbx) (.reg .rdx), -- 1618: adc rbx, rdx
  .adc32 .rbp .rbp, -- 1619: adc ebp, ebp
  .sub (.reg .r11) (.reg .rax), -- 1620: sub r11, rax
  .sbb (.reg .r12) (.reg .rbx), -- 1621: sbb r12, rbx
  .sbb (.reg .r13) (.reg .rbp), -- 1622: sbb r13, rbp
  .sbb (.reg .r14) (.imm 0#64), -- 1623: sbb r14, 0x0
  .sbb (.reg .r15) (.imm 0#64), -- 1624: sbb r15, 0x0
  .sbb (.reg .rdx) (.imm 0#64), -- 1625: sbb rdx, 0x0
  .add (.reg .r8) (.reg .rdx), -- 1626: add r8, rdx
  .adc (.reg .r9) (.imm 0#64), -- 1627: adc r9, 0x0
  .mov (.reg .rdx) (.mem ⟨some .rsp, none, 72#64⟩), -- 1628: mov rdx, [rsp + (48* 1)+ 0x18]
  .xor (.reg .r10) (.reg .r10), -- 1629: xor r10d, r10d
  .mulx .rbx .rax (.mem ⟨some .rsp, none, 0#64⟩), -- 1630: mulx rbx, rax, [rsp + (48* 0)]
  .adcx .r11 (.reg .rax), -- 1631: adcx r11, rax
  .adox .r12 (.reg .rbx), -- 1632: adox r12, rbx
  .mulx .rbx .rax (.mem ⟨some .rsp, none, 8#64⟩), -- 1633: mulx rbx, rax, [rsp + (48* 0)+ 0x8]
  .adcx .r12 (.reg .rax), -- 1634: adcx r12, rax
  .adox .r13 (.reg .rbx), -- 1635: adox r13, rbx
  .mulx .rbx .rax (.mem ⟨some .rsp, none, 16#64⟩), -- 1636: mulx rbx, rax, [rsp + (48* 0)+ 0x10]
  .adcx .r13 (.reg .rax), -- 1637: adcx r13, rax
  .adox .r14 (.reg .rbx), -- 1638: adox r14, rbx
  .mulx .rbx .rax (.mem ⟨some .rsp, none, 24#64⟩), -- 1639: mulx rbx, rax, [rsp + (48* 0)+ 0x18]
  .adcx .r14 (.reg .rax), -- 1640: adcx r14, rax
  .adox .r15 (.reg .rbx), -- 1641: adox r15, rbx
  .mulx .rbx .rax (.mem ⟨some .rsp, none, 32#64⟩), -- 1642: mulx rbx, rax, [rsp + (48* 0)+ 0x20]
  .adcx .r15 (.reg .rax), -- 1643: adcx r15, rax
  .adox .r8 (.reg .rbx), -- 1644: adox r8, rbx
  .adox .r9 (.reg .r10), -- 1645: adox r9, r10
  .mulx .rbx .rax (.mem ⟨some .rsp, none, 40#64⟩), -- 1646: mulx rbx, rax, [rsp + (48* 0)+ 0x28]
  .adc (.reg .r8) (.reg .rax), -- 1647: adc r8, rax
  .adc (.reg .r9) (.reg .rbx), -- 1648: adc r9, rbx
  .adc (.reg .r10) (.reg .r10), -- 1649: adc r10, r10
  .mov (.reg .rdx) (.reg .r11), -- 1650: mov rdx, r11
  .shl (.reg .rdx) (.imm 32#64), -- 1651: shl rdx, 0x20
  .add (.reg .rdx) (.reg .r11), -- 1652: add rdx, r11
  .xor (.reg .rbp) (.reg .rbp), -- 1653: xor ebp, ebp
  .mov (.reg .rax) (.imm 0xffffffff00000001#64), -- 1654: mov rax, 0xffffffff00000001
  .mulx .rax .rbx (.reg .rax), -- 1655: mulx rax, rbx, rax
  .mov (.reg .rbx) (.imm 0xffffffff#64), -- 1656: mov ebx, 0xffffffff
  .mulx .rbx .r11 (.reg .rbx), -- 1657: mulx rbx, r11, rbx
  .adc (.reg .rax) (.reg .r11), -- 1658: adc rax, r11
  .adc (.reg .rbx) (.reg .rdx), -- 1659: adc rbx, rdx
  .adc32 .rbp .rbp, -- 1660: adc ebp, ebp
  .sub (.reg .r12) (.reg .rax), -- 1661: sub r12, rax
  .sbb (.reg .r13) (.reg .rbx), -- 1662: sbb r13, rbx
  .sbb (.reg .r14) (.reg .rbp), -- 1663: sbb r14, rbp
  .sbb (.reg .r15) (.imm 0#64), -- 1664: sbb r15, 0x0
  .sbb (.reg .r8) (.imm 0#64), -- 1665: sbb r8, 0x0
  .sbb (.reg .rdx) (.imm 0#64), -- 1666: sbb rdx, 0x0
  .add (.reg .r9) (.reg .rdx), -- 1667: add r9, rdx
  .adc (.reg .r10) (.imm 0#64), -- 1668: adc r10, 0x0
  .mov (.reg .rdx) (.mem ⟨some .rsp, none, 80#64⟩), -- 1669: mov rdx, [rsp + (48* 1)+ 0x20]
  .xor (.reg .r11) (.reg .r11), -- 1670: xor r11d, r11d
  .mulx .rbx .rax (.mem ⟨some .rsp, none, 0#64⟩), -- 1671: mulx rbx, rax, [rsp + (48* 0)]
  .adcx .r12 (.reg .rax), -- 1672: adcx r12, rax
  .adox .r13 (.reg .rbx), -- 1673: adox r13, rbx
  .mulx .rbx .rax (.mem ⟨some .rsp, none, 8#64⟩), -- 1674: mulx rbx, rax, [rsp + (48* 0)+ 0x8]
  .adcx .r13 (.reg .rax), -- 1675: adcx r13, rax
  .adox .r14 (.reg .rbx), -- 1676: adox r14, rbx
  .mulx .rbx .rax (.mem ⟨some .rsp, none, 16#64⟩), -- 1677: mulx rbx, rax, [rsp + (48* 0)+ 0x10]
  .adcx .r14 (.reg .rax), -- 1678: adcx r14, rax
  .adox .r15 (.reg .rbx), -- 1679: adox r15, rbx
  .mulx .rbx .rax (.mem ⟨some .rsp, none, 24#64⟩), -- 1680: mulx rbx, rax, [rsp + (48* 0)+ 0x18]
  .adcx .r15 (.reg .rax), -- 1681: adcx r15, rax
  .adox .r8 (.reg .rbx), -- 1682: adox r8, rbx
  .mulx .rbx .rax (.mem ⟨some .rsp, none, 32#64⟩), -- 1683: mulx rbx, rax, [rsp + (48* 0)+ 0x20]
  .adcx .r8 (.reg .rax), -- 1684: adcx r8, rax
  .adox .r9 (.reg .rbx), -- 1685: adox r9, rbx
  .adox .r10 (.reg .r11), -- 1686: adox r10, r11
  .mulx .rbx .rax (.mem ⟨some .rsp, none, 40#64⟩), -- 1687: mulx rbx, rax, [rsp + (48* 0)+ 0x28]
  .adc (.reg .r9) (.reg .rax), -- 1688: adc r9, rax
  .adc (.reg .r10) (.reg .rbx), -- 1689: adc r10, rbx
  .adc (.reg .r11) (.reg .r11), -- 1690: adc r11, r11
  .mov (.reg .rdx) (.reg .r12), -- 1691: mov rdx, r12
  .shl (.reg .rdx) (.imm 32#64), -- 1692: shl rdx, 0x20
  .add (.reg .rdx) (.reg .r12), -- 1693: add rdx, r12
  .xor (.reg .rbp) (.reg .rbp), -- 1694: xor ebp, ebp
  .mov (.reg .rax) (.imm 0xffffffff00000001#64), -- 1695: mov rax, 0xffffffff00000001
  .mulx .rax .rbx (.reg .rax), -- 1696: mulx rax, rbx, rax
  .mov (.reg .rbx) (.imm 0xffffffff#64), -- 1697: mov ebx, 0xffffffff
  .mulx .rbx .r12 (.reg .rbx), -- 1698: mulx rbx, r12, rbx
  .adc (.reg .rax) (.reg .r12), -- 1699: adc rax, r12
  .adc (.reg .rbx) (.reg .rdx), -- 1700: adc rbx, rdx
  .adc32 .rbp .rbp, -- 1701: adc ebp, ebp
  .sub (.reg .r13) (.reg .rax), -- 1702: sub r13, rax
  .sbb (.reg .r14) (.reg .rbx), -- 1703: sbb r14, rbx
  .sbb (.reg .r15) (.reg .rbp), -- 1704: sbb r15, rbp
  .sbb (.reg .r8) (.imm 0#64), -- 1705: sbb r8, 0x0
  .sbb (.reg .r9) (.imm 0#64), -- 1706: sbb r9, 0x0
  .sbb (.reg .rdx) (.imm 0#64), -- 1707: sbb rdx, 0x0
  .add (.reg .r10) (.reg .rdx), -- 1708: add r10, rdx
  .adc (.reg .r11) (.imm 0#64), -- 1709: adc r11, 0x0
  .mov (.reg .rdx) (.mem ⟨some .rsp, none, 88#64⟩), -- 1710: mov rdx, [rsp + (48* 1)+ 0x28]
  .xor (.reg .r12) (.reg .r12), -- 1711: xor r12d, r12d
  .mulx .rbx .rax (.mem ⟨some .rsp, none, 0#64⟩), -- 1712: mulx rbx, rax, [rsp + (48* 0)]
  .adcx .r13 (.reg .rax), -- 1713: adcx r13, rax
  .adox .r14 (.reg .rbx), -- 1714: adox r14, rbx
  .mulx .rbx .rax (.mem ⟨some .rsp, none, 8#64⟩), -- 1715: mulx rbx, rax, [rsp + (48* 0)+ 0x8]
  .adcx .r14 (.reg .rax), -- 1716: adcx r14, rax
  .adox .r15 (.reg .rbx), -- 1717: adox r15, rbx
  .mulx .rbx .rax (.mem ⟨some .rsp, none, 16#64⟩), -- 1718: mulx rbx, rax, [rsp + (48* 0)+ 0x10]
  .adcx .r15 (.reg .rax), -- 1719: adcx r15, rax
  .adox .r8 (.reg .rbx), -- 1720: adox r8, rbx
  .mulx .rbx .rax (.mem ⟨some .rsp, none, 24#64⟩), -- 1721: mulx rbx, rax, [rsp + (48* 0)+ 0x18]
  .adcx .r8 (.reg .rax), -- 1722: adcx r8, rax
  .adox .r9 (.reg .rbx), -- 1723: adox r9, rbx
  .mulx .rbx .rax (.mem ⟨some .rsp, none, 32#64⟩), -- 1724: mulx rbx, rax, [rsp + (48* 0)+ 0x20]
  .adcx .r9 (.reg .rax), -- 1725: adcx r9, rax
  .adox .r10 (.reg .rbx), -- 1726: adox r10, rbx
  .adox .r11 (.reg .r12), -- 1727: adox r11, r12
  .mulx .rbx .rax (.mem ⟨some .rsp, none, 40#64⟩), -- 1728: mulx rbx, rax, [rsp + (48* 0)+ 0x28]
  .adc (.reg .r10) (.reg .rax), -- 1729: adc r10, rax
  .adc (.reg .r11) (.reg .rbx), -- 1730: adc r11, rbx
  .adc (.reg .r12) (.reg .r12), -- 1731: adc r12, r12
  .mov (.reg .rdx) (.reg .r13), -- 1732: mov rdx, r13
  .shl (.reg .rdx) (.imm 32#64), -- 1733: shl rdx, 0x20
  .add (.reg .rdx) (.reg .r13), -- 1734: add rdx, r13
  .xor (.reg .rbp) (.reg .rbp), -- 1735: xor ebp, ebp
  .mov (.reg .rax) (.imm 0xffffffff00000001#64), -- 1736: mov rax, 0xffffffff00000001
  .mulx .rax .rbx (.reg .rax), -- 1737: mulx rax, rbx, rax
  .mov (.reg .rbx) (.imm 0xffffffff#64), -- 1738: mov ebx, 0xffffffff
  .mulx .rbx .r13 (.reg .rbx), -- 1739: mulx rbx, r13, rbx
  .adc (.reg .rax) (.reg .r13), -- 1740: adc rax, r13
  .adc (.reg .rbx) (.reg .rdx), -- 1741: adc rbx, rdx
  .adc32 .rbp .rbp, -- 1742: adc ebp, ebp
  .sub (.reg .r14) (.reg .rax), -- 1743: sub r14, rax
  .sbb (.reg .r15) (.reg .rbx), -- 1744: sbb r15, rbx
  .sbb (.reg .r8) (.reg .rbp), -- 1745: sbb r8, rbp
  .sbb (.reg .r9) (.imm 0#64), -- 1746: sbb r9, 0x0
  .sbb (.reg .r10) (.imm 0#64), -- 1747: sbb r10, 0x0
  .sbb (.reg .rdx) (.imm 0#64), -- 1748: sbb rdx, 0x0
  .add (.reg .r11) (.reg .rdx), -- 1749: add r11, rdx
  .adc (.reg .r12) (.imm 0#64), -- 1750: adc r12, 0x0
  .xor (.reg .rdx) (.reg .rdx), -- 1751: xor edx, edx
  .xor (.reg .rbp) (.reg .rbp), -- 1752: xor ebp, ebp
  .xor (.reg .r13) (.reg .r13), -- 1753: xor r13d, r13d
  .mov (.reg .rax) (.imm 0xffffffff00000001#64), -- 1754: mov rax, 0xffffffff00000001
  .add (.reg .rax) (.reg .r14), -- 1755: add rax, r14
  .mov (.reg .rbx) (.imm 0xffffffff#64), -- 1756: mov ebx, 0xffffffff
  .adc (.reg .rbx) (.reg .r15), -- 1757: adc rbx, r15
  .mov (.reg .rcx) (.imm 1#64), -- 1758: mov ecx, 0x1
  .adc (.reg .rcx) (.reg .r8), -- 1759: adc rcx, r8
  .adc (.reg .rdx) (.reg .r9), -- 1760: adc rdx, r9
  .adc (.reg .rbp) (.reg .r10), -- 1761: adc rbp, r10
  .adc (.reg .r13) (.reg .r11), -- 1762: adc r13, r11
  .adc (.reg .r12) (.imm 0#64), -- 1763: adc r12, 0x0
  .cmov .nz .r14 (.reg .rax), -- 1764: cmovne r14, rax
  .cmov .nz .r15 (.reg .rbx), -- 1765: cmovne r15, rbx
  .cmov .nz .r8 (.reg .rcx), -- 1766: cmovne r8, rcx
  .cmov .nz .r9 (.reg .rdx), -- 1767: cmovne r9, rdx
  .cmov .nz .r10 (.reg .rbp), -- 1768: cmovne r10, rbp
  .cmov .nz .r11 (.reg .r13), -- 1769: cmovne r11, r13
  .mov (.mem ⟨some .rsp, none, 48#64⟩) (.reg .r14), -- 1770: mov [rsp + (48* 1)], r14
  .mov (.mem ⟨some .rsp, none, 56#64⟩) (.reg .r15), -- 1771: mov [rsp + (48* 1)+ 0x8], r15
  .mov (.mem ⟨some .rsp, none, 64#64⟩) (.reg .r8), -- 1772: mov [rsp + (48* 1)+ 0x10], r8
  .mov (.mem ⟨some .rsp, none, 72#64⟩) (.reg .r9), -- 1773: mov [rsp + (48* 1)+ 0x18], r9
  .mov (.mem ⟨some .rsp, none, 80#64⟩) (.reg .r10), -- 1774: mov [rsp + (48* 1)+ 0x20], r10
  .mov (.mem ⟨some .rsp, none, 88#64⟩) (.reg .r11), -- 1775: mov [rsp + (48* 1)+ 0x28], r11
  .mov (.reg .rdx) (.mem ⟨some .rsp, none, 288#64⟩), -- 1776: mov rdx, [rsp + (48* 6)]
  .xor (.reg .r15) (.reg .r15), -- 1777: xor r15d, r15d
  .mulx .r9 .r8 (.mem ⟨some .rsp, none, 240#64⟩), -- 1778: mulx r9, r8, [rsp + (48* 5)]
  .mulx .r10 .rbx (.mem ⟨some .rsp, none, 248#64⟩), -- 1779: mulx r10, rbx, [rsp + (48* 5)+ 0x8]
  .add (.reg .r9) (.reg .rbx), -- 1780: add r9, rbx
  .mulx .r11 .rbx (.mem ⟨some .rsp, none, 256#64⟩), -- 1781: mulx r11, rbx, [rsp + (48* 5)+ 0x10]
  .adc (.reg .r10) (.reg .rbx), -- 1782: adc r10, rbx
  .mulx .r12 .rbx (.mem ⟨some .rsp, none, 264#64⟩), -- 1783: mulx r12, rbx, [rsp + (48* 5)+ 0x18]
  .adc (.reg .r11) (.reg .rbx), -- 1784: adc r11, rbx
  .mulx .r13 .rbx (.mem ⟨some .rsp, none, 272#64⟩), -- 1785: mulx r13, rbx, [rsp + (48* 5)+ 0x20]
  .adc (.reg .r12) (.reg .rbx), -- 1786: adc r12, rbx
  .mulx .r14 .rbx (.mem ⟨some .rsp, none, 280#64⟩), -- 1787: mulx r14, rbx, [rsp + (48* 5)+ 0x28]
  .adc (.reg .r13) (.reg .rbx), -- 1788: adc r13, rbx
  .adc (.reg .r14) (.reg .r15), -- 1789: adc r14, r15
  .mov (.reg .rdx) (.reg .r8), -- 1790: mov rdx, r8
  .shl (.reg .rdx) (.imm 32#64), -- 1791: shl rdx, 0x20
  .add (.reg .rdx) (.reg .r8), -- 1792: add rdx, r8
  .xor (.reg .rbp) (.reg .rbp), -- 1793: xor ebp, ebp
  .mov (.reg .rax) (.imm 0xffffffff00000001#64), -- 1794: mov rax, 0xffffffff00000001
  .mulx .rax .rbx (.reg .rax), -- 1795: mulx rax, rbx, rax
  .mov (.reg .rbx) (.imm 0xffffffff#64), -- 1796: mov ebx, 0xffffffff
  .mulx .rbx .r8 (.reg .rbx), -- 1797: mulx rbx, r8, rbx
  .adc (.reg .rax) (.reg .r8), -- 1798: adc rax, r8
  .adc (.reg .rbx) (.reg .rdx), -- 1799: adc rbx, rdx
  .adc32 .rbp .rbp, -- 1800: adc ebp, ebp
  .sub (.reg .r9) (.reg .rax), -- 1801: sub r9, rax
  .sbb (.reg .r10) (.reg .rbx), -- 1802: sbb r10, rbx
  .sbb (.reg .r11) (.reg .rbp), -- 1803: sbb r11, rbp
  .sbb (.reg .r12) (.imm 0#64), -- 1804: sbb r12, 0x0
  .sbb (.reg .r13) (.imm 0#64), -- 1805: sbb r13, 0x0
  .sbb (.reg .rdx) (.imm 0#64), -- 1806: sbb rdx, 0x0
  .add (.reg .r14) (.reg .rdx), -- 1807: add r14, rdx
  .adc (.reg .r15) (.imm 0#64), -- 1808: adc r15, 0x0
  .mov (.reg .rdx) (.mem ⟨some .rsp, none, 296#64⟩), -- 1809: mov rdx, [rsp + (48* 6)+ 0x8]
  .xor (.reg .r8) (.reg .r8), -- 1810: xor r8d, r8d
  .mulx .rbx .rax (.mem ⟨some .rsp, none, 240#64⟩), -- 1811: mulx rbx, rax, [rsp + (48* 5)]
  .adcx .r9 (.reg .rax), -- 1812: adcx r9, rax
  .adox .r10 (.reg .rbx), -- 1813: adox r10, rbx
  .mulx .rbx .rax (.mem ⟨some .rsp, none, 248#64⟩), -- 1814: mulx rbx, rax, [rsp + (48* 5)+ 0x8]
  .adcx .r10 (.reg .rax), -- 1815: adcx r10, rax
  .adox .r11 (.reg .rbx), -- 1816: adox r11, rbx
  .mulx .rbx .rax (.mem ⟨some .rsp, none, 256#64⟩), -- 1817: mulx rbx, rax, [rsp + (48* 5)+ 0x10]
  .adcx .r11 (.reg .rax), -- 1818: adcx r11, rax
  .adox .r12 (.reg .rbx), -- 1819: adox r12, rbx
  .mulx .rbx .rax (.mem ⟨some .rsp, none, 264#64⟩), -- 1820: mulx rbx, rax, [rsp + (48* 5)+ 0x18]
  .adcx .r12 (.reg .rax), -- 1821: adcx r12, rax
  .adox .r13 (.reg .rbx), -- 1822: adox r13, rbx
  .mulx .rbx .rax (.mem ⟨some .rsp, none, 272#64⟩), -- 1823: mulx rbx, rax, [rsp + (48* 5)+ 0x20]
  .adcx .r13 (.reg .rax), -- 1824: adcx r13, rax
  .adox .r14 (.reg .rbx), -- 1825: adox r14, rbx
  .adox .r15 (.reg .r8), -- 1826: adox r15, r8
  .mulx .rbx .rax (.mem ⟨some .rsp, none, 280#64⟩), -- 1827: mulx rbx, rax, [rsp + (48* 5)+ 0x28]
  .adc (.reg .r14) (.reg .rax), -- 1828: adc r14, rax
  .adc (.reg .r15) (.reg .rbx), -- 1829: adc r15, rbx
  .adc (.reg .r8) (.reg .r8), -- 1830: adc r8, r8
  .mov (.reg .rdx) (.reg .r9), -- 1831: mov rdx, r9
  .shl (.reg .rdx) (.imm 32#64), -- 1832: shl rdx, 0x20
  .add (.reg .rdx) (.reg .r9), -- 1833: add rdx, r9
  .xor (.reg .rbp) (.reg .rbp), -- 1834: xor ebp, ebp
  .mov (.reg .rax) (.imm 0xffffffff00000001#64), -- 1835: mov rax, 0xffffffff00000001
  .mulx .rax .rbx (.reg .rax), -- 1836: mulx rax, rbx, rax
  .mov (.reg .rbx) (.imm 0xffffffff#64), -- 1837: mov ebx, 0xffffffff
  .mulx .rbx .r9 (.reg .rbx), -- 1838: mulx rbx, r9, rbx
  .adc (.reg .rax) (.reg .r9), -- 1839: adc rax, r9
  .adc (.reg .rbx) (.reg .rdx), -- 1840: adc rbx, rdx
  .adc32 .rbp .rbp, -- 1841: adc ebp, ebp
  .sub (.reg .r10) (.reg .rax), -- 1842: sub r10, rax
  .sbb (.reg .r11) (.reg .rbx), -- 1843: sbb r11, rbx
  .sbb (.reg .r12) (.reg .rbp), -- 1844: sbb r12, rbp
  .sbb (.reg .r13) (.imm 0#64), -- 1845: sbb r13, 0x0
  .sbb (.reg .r14) (.imm 0#64), -- 1846: sbb r14, 0x0
  .sbb (.reg .rdx) (.imm 0#64), -- 1847: sbb rdx, 0x0
  .add (.reg .r15) (.reg .rdx), -- 1848: add r15, rdx
  .adc (.reg .r8) (.imm 0#64), -- 1849: adc r8, 0x0
  .mov (.reg .rdx) (.mem ⟨some .rsp, none, 304#64⟩), -- 1850: mov rdx, [rsp + (48* 6)+ 0x10]
  .xor (.reg .r9) (.reg .r9), -- 1851: xor r9d, r9d
  .mulx .rbx .rax (.mem ⟨some .rsp, none, 240#64⟩), -- 1852: mulx rbx, rax, [rsp + (48* 5)]
  .adcx .r10 (.reg .rax), -- 1853: adcx r10, rax
  .adox .r11 (.reg .rbx), -- 1854: adox r11, rbx
  .mulx .rbx .rax (.mem ⟨some .rsp, none, 248#64⟩), -- 1855: mulx rbx, rax, [rsp + (48* 5)+ 0x8]
  .adcx .r11 (.reg .rax), -- 1856: adcx r11, rax
  .adox .r12 (.reg .rbx), -- 1857: adox r12, rbx
  .mulx .rbx .rax (.mem ⟨some .rsp, none, 256#64⟩), -- 1858: mulx rbx, rax, [rsp + (48* 5)+ 0x10]
  .adcx .r12 (.reg .rax), -- 1859: adcx r12, rax
  .adox .r13 (.reg .rbx), -- 1860: adox r13, rbx
  .mulx .rbx .rax (.mem ⟨some .rsp, none, 264#64⟩), -- 1861: mulx rbx, rax, [rsp + (48* 5)+ 0x18]
  .adcx .r13 (.reg .rax), -- 1862: adcx r13, rax
  .adox .r14 (.reg .rbx), -- 1863: adox r14, rbx
  .mulx .rbx .rax (.mem ⟨some .rsp, none, 272#64⟩), -- 1864: mulx rbx, rax, [rsp + (48* 5)+ 0x20]
  .adcx .r14 (.reg .rax), -- 1865: adcx r14, rax
  .adox .r15 (.reg .rbx), -- 1866: adox r15, rbx
  .adox .r8 (.reg .r9), -- 1867: adox r8, r9
  .mulx .rbx .rax (.mem ⟨some .rsp, none, 280#64⟩), -- 1868: mulx rbx, rax, [rsp + (48* 5)+ 0x28]
  .adc (.reg .r15) (.reg .rax), -- 1869: adc r15, rax
  .adc (.reg .r8) (.reg .rbx), -- 1870: adc r8, rbx
  .adc (.reg .r9) (.reg .r9), -- 1871: adc r9, r9
  .mov (.reg .rdx) (.reg .r10), -- 1872: mov rdx, r10
  .shl (.reg .rdx) (.imm 32#64), -- 1873: shl rdx, 0x20
  .add (.reg .rdx) (.reg .r10), -- 1874: add rdx, r10
  .xor (.reg .rbp) (.reg .rbp), -- 1875: xor ebp, ebp
  .mov (.reg .rax) (.imm 0xffffffff00000001#64), -- 1876: mov rax, 0xffffffff00000001
  .mulx .rax .rbx (.reg .rax), -- 1877: mulx rax, rbx, rax
  .mov (.reg .rbx) (.imm 0xffffffff#64), -- 1878: mov ebx, 0xffffffff
  .mulx .rbx .r10 (.reg .rbx), -- 1879: mulx rbx, r10, rbx
  .adc (.reg .rax) (.reg .r10), -- 1880: adc rax, r10
  .adc (.reg .rbx) (.reg .rdx), -- 1881: adc rbx, rdx
  .adc32 .rbp .rbp, -- 1882: adc ebp, ebp
  .sub (.reg .r11) (.reg .rax), -- 1883: sub r11, rax
  .sbb (.reg .r12) (.reg .rbx), -- 1884: sbb r12, rbx
  .sbb (.reg .r13) (.reg .rbp), -- 1885: sbb r13, rbp
  .sbb (.reg .r14) (.imm 0#64), -- 1886: sbb r14, 0x0
  .sbb (.reg .r15) (.imm 0#64), -- 1887: sbb r15, 0x0
  .sbb (.reg .rdx) (.imm 0#64), -- 1888: sbb rdx, 0x0
  .add (.reg .r8) (.reg .rdx), -- 1889: add r8, rdx
  .adc (.reg .r9) (.imm 0#64), -- 1890: adc r9, 0x0
  .mov (.reg .rdx) (.mem ⟨some .rsp, none, 312#64⟩), -- 1891: mov rdx, [rsp + (48* 6)+ 0x18]
  .xor (.reg .r10) (.reg .r10), -- 1892: xor r10d, r10d
  .mulx .rbx .rax (.mem ⟨some .rsp, none, 240#64⟩), -- 1893: mulx rbx, rax, [rsp + (48* 5)]
  .adcx .r11 (.reg .rax), -- 1894: adcx r11, rax
  .adox .r12 (.reg .rbx), -- 1895: adox r12, rbx
  .mulx .rbx .rax (.mem ⟨some .rsp, none, 248#64⟩), -- 1896: mulx rbx, rax, [rsp + (48* 5)+ 0x8]
  .adcx .r12 (.reg .rax), -- 1897: adcx r12, rax
  .adox .r13 (.reg .rbx), -- 1898: adox r13, rbx
  .mulx .rbx .rax (.mem ⟨some .rsp, none, 256#64⟩), -- 1899: mulx rbx, rax, [rsp + (48* 5)+ 0x10]
  .adcx .r13 (.reg .rax), -- 1900: adcx r13, rax
  .adox .r14 (.reg .rbx), -- 1901: adox r14, rbx
  .mulx .rbx .rax (.mem ⟨some .rsp, none, 264#64⟩), -- 1902: mulx rbx, rax, [rsp + (48* 5)+ 0x18]
  .adcx .r14 (.reg .rax), -- 1903: adcx r14, rax
  .adox .r15 (.reg .rbx), -- 1904: adox r15, rbx
  .mulx .rbx .rax (.mem ⟨some .rsp, none, 272#64⟩), -- 1905: mulx rbx, rax, [rsp + (48* 5)+ 0x20]
  .adcx .r15 (.reg .rax), -- 1906: adcx r15, rax
  .adox .r8 (.reg .rbx), -- 1907: adox r8, rbx
  .adox .r9 (.reg .r10), -- 1908: adox r9, r10
  .mulx .rbx .rax (.mem ⟨some .rsp, none, 280#64⟩), -- 1909: mulx rbx, rax, [rsp + (48* 5)+ 0x28]
  .adc (.reg .r8) (.reg .rax), -- 1910: adc r8, rax
  .adc (.reg .r9) (.reg .rbx), -- 1911: adc r9, rbx
  .adc (.reg .r10) (.reg .r10), -- 1912: adc r10, r10
  .mov (.reg .rdx) (.reg .r11), -- 1913: mov rdx, r11
  .shl (.reg .rdx) (.imm 32#64), -- 1914: shl rdx, 0x20
  .add (.reg .rdx) (.reg .r11), -- 1915: add rdx, r11
  .xor (.reg .rbp) (.reg .rbp), -- 1916: xor ebp, ebp
  .mov (.reg .rax) (.imm 0xffffffff00000001#64), -- 1917: mov rax, 0xffffffff00000001
  .mulx .rax .rbx (.reg .rax), -- 1918: mulx rax, rbx, rax
  .mov (.reg .rbx) (.imm 0xffffffff#64), -- 1919: mov ebx, 0xffffffff
  .mulx .rbx .r11 (.reg .rbx), -- 1920: mulx rbx, r11, rbx
  .adc (.reg .rax) (.reg .r11), -- 1921: adc rax, r11
  .adc (.reg .rbx) (.reg .rdx), -- 1922: adc rbx, rdx
  .adc32 .rbp .rbp, -- 1923: adc ebp, ebp
  .sub (.reg .r12) (.reg .rax), -- 1924: sub r12, rax
  .sbb (.reg .r13) (.reg .rbx), -- 1925: sbb r13, rbx
  .sbb (.reg .r14) (.reg .rbp), -- 1926: sbb r14, rbp
  .sbb (.reg .r15) (.imm 0#64), -- 1927: sbb r15, 0x0
  .sbb (.reg .r8) (.imm 0#64), -- 1928: sbb r8, 0x0
  .sbb (.reg .rdx) (.imm 0#64), -- 1929: sbb rdx, 0x0
  .add (.reg .r9) (.reg .rdx), -- 1930: add r9, rdx
  .adc (.reg .r10) (.imm 0#64), -- 1931: adc r10, 0x0
  .mov (.reg .rdx) (.mem ⟨some .rsp, none, 320#64⟩), -- 1932: mov rdx, [rsp + (48* 6)+ 0x20]
  .xor (.reg .r11) (.reg .r11), -- 1933: xor r11d, r11d
  .mulx .rbx .rax (.mem ⟨some .rsp, none, 240#64⟩), -- 1934: mulx rbx, rax, [rsp + (48* 5)]
  .adcx .r12 (.reg .rax), -- 1935: adcx r12, rax
  .adox .r13 (.reg .rbx), -- 1936: adox r13, rbx
  .mulx .rbx .rax (.mem ⟨some .rsp, none, 248#64⟩), -- 1937: mulx rbx, rax, [rsp + (48* 5)+ 0x8]
  .adcx .r13 (.reg .rax), -- 1938: adcx r13, rax
  .adox .r14 (.reg .rbx), -- 1939: adox r14, rbx
  .mulx .rbx .rax (.mem ⟨some .rsp, none, 256#64⟩), -- 1940: mulx rbx, rax, [rsp + (48* 5)+ 0x10]
  .adcx .r14 (.reg .rax), -- 1941: adcx r14, rax
  .adox .r15 (.reg .rbx), -- 1942: adox r15, rbx
  .mulx .rbx .rax (.mem ⟨some .rsp, none, 264#64⟩), -- 1943: mulx rbx, rax, [rsp + (48* 5)+ 0x18]
  .adcx .r15 (.reg .rax), -- 1944: adcx r15, rax
  .adox .r8 (.reg .rbx), -- 1945: adox r8, rbx
  .mulx .rbx .rax (.mem ⟨some .rsp, none, 272#64⟩), -- 1946: mulx rbx, rax, [rsp + (48* 5)+ 0x20]
  .adcx .r8 (.reg .rax), -- 1947: adcx r8, rax
  .adox .r9 (.reg .rbx), -- 1948: adox r9, rbx
  .adox .r10 (.reg .r11), -- 1949: adox r10, r11
  .mulx .rbx .rax (.mem ⟨some .rsp, none, 280#64⟩), -- 1950: mulx rbx, rax, [rsp + (48* 5)+ 0x28]
  .adc (.reg .r9) (.reg .rax), -- 1951: adc r9, rax
  .adc (.reg .r10) (.reg .rbx), -- 1952: adc r10, rbx
  .adc (.reg .r11) (.reg .r11), -- 1953: adc r11, r11
  .mov (.reg .rdx) (.reg .r12), -- 1954: mov rdx, r12
  .shl (.reg .rdx) (.imm 32#64), -- 1955: shl rdx, 0x20
  .add (.reg .rdx) (.reg .r12), -- 1956: add rdx, r12
  .xor (.reg .rbp) (.reg .rbp), -- 1957: xor ebp, ebp
  .mov (.reg .rax) (.imm 0xffffffff00000001#64), -- 1958: mov rax, 0xffffffff00000001
  .mulx .rax .rbx (.reg .rax), -- 1959: mulx rax, rbx, rax
  .mov (.reg .rbx) (.imm 0xffffffff#64), -- 1960: mov ebx, 0xffffffff
  .mulx .rbx .r12 (.reg .rbx), -- 1961: mulx rbx, r12, rbx
  .adc (.reg .rax) (.reg .r12), -- 1962: adc rax, r12
  .adc (.reg .rbx) (.reg .rdx), -- 1963: adc rbx, rdx
  .adc32 .rbp .rbp, -- 1964: adc ebp, ebp
  .sub (.reg .r13) (.reg .rax), -- 1965: sub r13, rax
  .sbb (.reg .r14) (.reg .rbx), -- 1966: sbb r14, rbx
  .sbb (.reg .r15) (.reg .rbp), -- 1967: sbb r15, rbp
  .sbb (.reg .r8) (.imm 0#64), -- 1968: sbb r8, 0x0
  .sbb (.reg .r9) (.imm 0#64), -- 1969: sbb r9, 0x0
  .sbb (.reg .rdx) (.imm 0#64), -- 1970: sbb rdx, 0x0
  .add (.reg .r10) (.reg .rdx), -- 1971: add r10, rdx
  .adc (.reg .r11) (.imm 0#64), -- 1972: adc r11, 0x0
  .mov (.reg .rdx) (.mem ⟨some .rsp, none, 328#64⟩), -- 1973: mov rdx, [rsp + (48* 6)+ 0x28]
  .xor (.reg .r12) (.reg .r12), -- 1974: xor r12d, r12d
  .mulx .rbx .rax (.mem ⟨some .rsp, none, 240#64⟩), -- 1975: mulx rbx, rax, [rsp + (48* 5)]
  .adcx .r13 (.reg .rax), -- 1976: adcx r13, rax
  .adox .r14 (.reg .rbx), -- 1977: adox r14, rbx
  .mulx .rbx .rax (.mem ⟨some .rsp, none, 248#64⟩), -- 1978: mulx rbx, rax, [rsp + (48* 5)+ 0x8]
  .adcx .r14 (.reg .rax), -- 1979: adcx r14, rax
  .adox .r15 (.reg .rbx), -- 1980: adox r15, rbx
  .mulx .rbx .rax (.mem ⟨some .rsp, none, 256#64⟩), -- 1981: mulx rbx, rax, [rsp + (48* 5)+ 0x10]
  .adcx .r15 (.reg .rax), -- 1982: adcx r15, rax
  .adox .r8 (.reg .rbx), -- 1983: adox r8, rbx
  .mulx .rbx .rax (.mem ⟨some .rsp, none, 264#64⟩), -- 1984: mulx rbx, rax, [rsp + (48* 5)+ 0x18]
  .adcx .r8 (.reg .rax), -- 1985: adcx r8, rax
  .adox .r9 (.reg .rbx), -- 1986: adox r9, rbx
  .mulx .rbx .rax (.mem ⟨some .rsp, none, 272#64⟩), -- 1987: mulx rbx, rax, [rsp + (48* 5)+ 0x20]
  .adcx .r9 (.reg .rax), -- 1988: adcx r9, rax
  .adox .r10 (.reg .rbx), -- 1989: adox r10, rbx
  .adox .r11 (.reg .r12), -- 1990: adox r11, r12
  .mulx .rbx .rax (.mem ⟨some .rsp, none, 280#64⟩), -- 1991: mulx rbx, rax, [rsp + (48* 5)+ 0x28]
  .adc (.reg .r10) (.reg .rax), -- 1992: adc r10, rax
  .adc (.reg .r11) (.reg .rbx), -- 1993: adc r11, rbx
  .adc (.reg .r12) (.reg .r12), -- 1994: adc r12, r12
  .mov (.reg .rdx) (.reg .r13), -- 1995: mov rdx, r13
  .shl (.reg .rdx) (.imm 32#64), -- 1996: shl rdx, 0x20
  .add (.reg .rdx) (.reg .r13), -- 1997: add rdx, r13
  .xor (.reg .rbp) (.reg .rbp), -- 1998: xor ebp, ebp
  .mov (.reg .rax) (.imm 0xffffffff00000001#64), -- 1999: mov rax, 0xffffffff00000001
  .mulx .rax .rbx (.reg .rax), -- 2000: mulx rax, rbx, rax
  .mov (.reg .rbx) (.imm 0xffffffff#64), -- 2001: mov ebx, 0xffffffff
  .mulx .rbx .r13 (.reg .rbx), -- 2002: mulx rbx, r13, rbx
  .adc (.reg .rax) (.reg .r13), -- 2003: adc rax, r13
  .adc (.reg .rbx) (.reg .rdx), -- 2004: adc rbx, rdx
  .adc32 .rbp .rbp, -- 2005: adc ebp, ebp
  .sub (.reg .r14) (.reg .rax), -- 2006: sub r14, rax
  .sbb (.reg .r15) (.reg .rbx), -- 2007: sbb r15, rbx
  .sbb (.reg .r8) (.reg .rbp), -- 2008: sbb r8, rbp
  .sbb (.reg .r9) (.imm 0#64), -- 2009: sbb r9, 0x0
  .sbb (.reg .r10) (.imm 0#64), -- 2010: sbb r10, 0x0
  .sbb (.reg .rdx) (.imm 0#64), -- 2011: sbb rdx, 0x0
  .add (.reg .r11) (.reg .rdx), -- 2012: add r11, rdx
  .adc (.reg .r12) (.imm 0#64), -- 2013: adc r12, 0x0
  .xor (.reg .rdx) (.reg .rdx), -- 2014: xor edx, edx
  .xor (.reg .rbp) (.reg .rbp), -- 2015: xor ebp, ebp
  .xor (.reg .r13) (.reg .r13), -- 2016: xor r13d, r13d
  .mov (.reg .rax) (.imm 0xffffffff00000001#64), -- 2017: mov rax, 0xffffffff00000001
  .add (.reg .rax) (.reg .r14), -- 2018: add rax, r14
  .mov (.reg .rbx) (.imm 0xffffffff#64), -- 2019: mov ebx, 0xffffffff
  .adc (.reg .rbx) (.reg .r15), -- 2020: adc rbx, r15
  .mov (.reg .rcx) (.imm 1#64), -- 2021: mov ecx, 0x1
  .adc (.reg .rcx) (.reg .r8), -- 2022: adc rcx, r8
  .adc (.reg .rdx) (.reg .r9), -- 2023: adc rdx, r9
  .adc (.reg .rbp) (.reg .r10), -- 2024: adc rbp, r10
  .adc (.reg .r13) (.reg .r11), -- 2025: adc r13, r11
  .adc (.reg .r12) (.imm 0#64), -- 2026: adc r12, 0x0
  .cmov .nz .r14 (.reg .rax), -- 2027: cmovne r14, rax
  .cmov .nz .r15 (.reg .rbx), -- 2028: cmovne r15, rbx
  .cmov .nz .r8 (.reg .rcx), -- 2029: cmovne r8, rcx
  .cmov .nz .r9 (.reg .rdx), -- 2030: cmovne r9, rdx
  .cmov .nz .r10 (.reg .rbp), -- 2031: cmovne r10, rbp
  .cmov .nz .r11 (.reg .r13), -- 2032: cmovne r11, r13
  .mov (.mem ⟨some .rsp, none, 288#64⟩) (.reg .r14), -- 2033: mov [rsp + (48* 6)], r14
  .mov (.mem ⟨some .rsp, none, 296#64⟩) (.reg .r15), -- 2034: mov [rsp + (48* 6)+ 0x8], r15
  .mov (.mem ⟨some .rsp, none, 304#64⟩) (.reg .r8), -- 2035: mov [rsp + (48* 6)+ 0x10], r8
  .mov (.mem ⟨some .rsp, none, 312#64⟩) (.reg .r9), -- 2036: mov [rsp + (48* 6)+ 0x18], r9
  .mov (.mem ⟨some .rsp, none, 320#64⟩) (.reg .r10), -- 2037: mov [rsp + (48* 6)+ 0x20], r10
  .mov (.mem ⟨some .rsp, none, 328#64⟩) (.reg .r11), -- 2038: mov [rsp + (48* 6)+ 0x28], r11
  .mov (.reg .rax) (.mem ⟨some .rsp, none, 96#64⟩), -- 2039: mov rax, [rsp + (48* 2)]
  .sub (.reg .rax) (.mem ⟨some .rsp, none, 192#64⟩), -- 2040: sub rax, [rsp + (48* 4)]
  .mov (.reg .rdx) (.mem ⟨some .rsp, none, 104#64⟩), -- 2041: mov rdx, [rsp + (48* 2)+ 0x8]
  .sbb (.reg .rdx) (.mem ⟨some .rsp, none, 200#64⟩), -- 2042: sbb rdx, [rsp + (48* 4)+ 0x8]
  .mov (.reg .r8) (.mem ⟨some .rsp, none, 112#64⟩), -- 2043: mov r8, [rsp + (48* 2)+ 0x10]
  .sbb (.reg .r8) (.mem ⟨some .rsp, none, 208#64⟩), -- 2044: sbb r8, [rsp + (48* 4)+ 0x10]
  .mov (.reg .r9) (.mem ⟨some .rsp, none, 120#64⟩), -- 2045: mov r9, [rsp + (48* 2)+ 0x18]
  .sbb (.reg .r9) (.mem ⟨some .rsp, none, 216#64⟩), -- 2046: sbb r9, [rsp + (48* 4)+ 0x18]
  .mov (.reg .r10) (.mem ⟨some .rsp, none, 128#64⟩), -- 2047: mov r10, [rsp + (48* 2)+ 0x20]
  .sbb (.reg .r10) (.mem ⟨some .rsp, none, 224#64⟩), -- 2048: sbb r10, [rsp + (48* 4)+ 0x20]
  .mov (.reg .r11) (.mem ⟨some .rsp, none, 136#64⟩), -- 2049: mov r11, [rsp + (48* 2)+ 0x28]
  .sbb (.reg .r11) (.mem ⟨some .rsp, none, 232#64⟩), -- 2050: sbb r11, [rsp + (48* 4)+ 0x28]
  .sbb (.reg .rcx) (.reg .rcx), -- 2051: sbb rcx, rcx
  .mov (.reg .rsi) (.imm 0xffffffff#64), -- 2052: mov esi, 0xffffffff
  .and (.reg .rcx) (.reg .rsi), -- 2053: and rcx, rsi
  .xor (.reg .rsi) (.reg .rsi), -- 2054: xor rsi, rsi
  .sub (.reg .rsi) (.reg .rcx), -- 2055: sub rsi, rcx
  .sub (.reg .rax) (.reg .rsi), -- 2056: sub rax, rsi
  .mov (.mem ⟨some .rsp, none, 240#64⟩) (.reg .rax), -- 2057: mov [rsp + (48* 5)], rax
  .sbb (.reg .rdx) (.reg .rcx), -- 2058: sbb rdx, rcx
  .mov (.mem ⟨some .rsp, none, 248#64⟩) (.reg .rdx), -- 2059: mov [rsp + (48* 5)+ 0x8], rdx
  .sbb (.reg .rax) (.reg .rax), -- 2060: sbb rax, rax
  .and (.reg .rcx) (.reg .rsi), -- 2061: and rcx, rsi
  .neg (.reg .rax), -- 2062: neg rax
  .sbb (.reg .r8) (.reg .rcx), -- 2063: sbb r8, rcx
  .mov (.mem ⟨some .rsp, none, 256#64⟩) (.reg .r8), -- 2064: mov [rsp + (48* 5)+ 0x10], r8
  .sbb (.reg .r9) (.imm 0#64), -- 2065: sbb r9, 0x0
  .mov (.mem ⟨some .rsp, none, 264#64⟩) (.reg .r9), -- 2066: mov [rsp + (48* 5)+ 0x18], r9
  .sbb (.reg .r10) (.imm 0#64), -- 2067: sbb r10, 0x0
  .mov (.mem ⟨some .rsp, none, 272#64⟩) (.reg .r10), -- 2068: mov [rsp + (48* 5)+ 0x20], r10
  .sbb (.reg .r11) (.imm 0#64), -- 2069: sbb r11, 0x0
  .mov (.mem ⟨some .rsp, none, 280#64⟩) (.reg .r11), -- 2070: mov [rsp + (48* 5)+ 0x28], r11
  .mov (.reg .rax) (.mem ⟨some .rsp, none, 48#64⟩), -- 2071: mov rax, [rsp + (48* 1)]
  .sub (.reg .rax) (.mem ⟨some .rsp, none, 288#64⟩), -- 2072: sub rax, [rsp + (48* 6)]
  .mov (.reg .rdx) (.mem ⟨some .rsp, none, 56#64⟩), -- 2073: mov rdx, [rsp + (48* 1)+ 0x8]
  .sbb (.reg .rdx) (.mem ⟨some .rsp, none, 296#64⟩), -- 2074: sbb rdx, [rsp + (48* 6)+ 0x8]
  .mov (.reg .r8) (.mem ⟨some .rsp, none, 64#64⟩), -- 2075: mov r8, [rsp + (48* 1)+ 0x10]
  .sbb (.reg .r8) (.mem ⟨some .rsp, none, 304#64⟩), -- 2076: sbb r8, [rsp + (48* 6)+ 0x10]
  .mov (.reg .r9) (.mem ⟨some .rsp, none, 72#64⟩), -- 2077: mov r9, [rsp + (48* 1)+ 0x18]
  .sbb (.reg .r9) (.mem ⟨some .rsp, none, 312#64⟩), -- 2078: sbb r9, [rsp + (48* 6)+ 0x18]
  .mov (.reg .r10) (.mem ⟨some .rsp, none, 80#64⟩), -- 2079: mov r10, [rsp + (48* 1)+ 0x20]
  .sbb (.reg .r10) (.mem ⟨some .rsp, none, 320#64⟩), -- 2080: sbb r10, [rsp + (48* 6)+ 0x20]
  .mov (.reg .r11) (.mem ⟨some .rsp, none, 88#64⟩), -- 2081: mov r11, [rsp + (48* 1)+ 0x28]
  .sbb (.reg .r11) (.mem ⟨some .rsp, none, 328#64⟩), -- 2082: sbb r11, [rsp + (48* 6)+ 0x28]
  .sbb (.reg .rcx) (.reg .rcx), -- 2083: sbb rcx, rcx
  .mov (.reg .rsi) (.imm 0xffffffff#64), -- 2084: mov esi, 0xffffffff
  .and (.reg .rcx) (.reg .rsi), -- 2085: and rcx, rsi
  .xor (.reg .rsi) (.reg .rsi), -- 2086: xor rsi, rsi
  .sub (.reg .rsi) (.reg .rcx), -- 2087: sub rsi, rcx
  .sub (.reg .rax) (.reg .rsi), -- 2088: sub rax, rsi
  .mov (.mem ⟨some .rsp, none, 48#64⟩) (.reg .rax), -- 2089: mov [rsp + (48* 1)], rax
  .sbb (.reg .rdx) (.reg .rcx), -- 2090: sbb rdx, rcx
  .mov (.mem ⟨some .rsp, none, 56#64⟩) (.reg .rdx), -- 2091: mov [rsp + (48* 1)+ 0x8], rdx
  .sbb (.reg .rax) (.reg .rax), -- 2092: sbb rax, rax
  .and (.reg .rcx) (.reg .rsi), -- 2093: and rcx, rsi
  .neg (.reg .rax), -- 2094: neg rax
  .sbb (.reg .r8) (.reg .rcx), -- 2095: sbb r8, rcx
  .mov (.mem ⟨some .rsp, none, 64#64⟩) (.reg .r8), -- 2096: mov [rsp + (48* 1)+ 0x10], r8
  .sbb (.reg .r9) (.imm 0#64), -- 2097: sbb r9, 0x0
  .mov (.mem ⟨some .rsp, none, 72#64⟩) (.reg .r9), -- 2098: mov [rsp + (48* 1)+ 0x18], r9
  .sbb (.reg .r10) (.imm 0#64), -- 2099: sbb r10, 0x0
  .mov (.mem ⟨some .rsp, none, 80#64⟩) (.reg .r10), -- 2100: mov [rsp + (48* 1)+ 0x20], r10
  .sbb (.reg .r11) (.imm 0#64), -- 2101: sbb r11, 0x0
  .mov (.mem ⟨some .rsp, none, 88#64⟩) (.reg .r11), -- 2102: mov [rsp + (48* 1)+ 0x28], r11
  .mov (.reg .rdx) (.mem ⟨some .rsp, none, 240#64⟩), -- 2103: mov rdx, [rsp + (48* 5)]
  .mulx .r10 .r9 (.mem ⟨some .rsp, none, 248#64⟩), -- 2104: mulx r10, r9, [rsp + (48* 5)+ 0x8]
  .mulx .r12 .r11 (.mem ⟨some .rsp, none, 264#64⟩), -- 2105: mulx r12, r11, [rsp + (48* 5)+ 0x18]
  .mulx .r14 .r13 (.mem ⟨some .rsp, none, 280#64⟩), -- 2106: mulx r14, r13, [rsp + (48* 5)+ 0x28]
  .mov (.reg .rdx) (.mem ⟨some .rsp, none, 264#64⟩), -- 2107: mov rdx, [rsp + (48* 5)+ 0x18]
  .mulx .rcx .r15 (.mem ⟨some .rsp, none, 272#64⟩), -- 2108: mulx rcx, r15, [rsp + (48* 5)+ 0x20]
  .xor (.reg .rbp) (.reg .rbp), -- 2109: xor ebp, ebp
  .mov (.reg .rdx) (.mem ⟨some .rsp, none, 256#64⟩), -- 2110: mov rdx, [rsp + (48* 5)+ 0x10]
  .mulx .rbx .rax (.mem ⟨some .rsp, none, 240#64⟩), -- 2111: mulx rbx, rax, [rsp + (48* 5)]
  .adcx .r10 (.reg .rax), -- 2112: adcx r10, rax
  .adox .r11 (.reg .rbx), -- 2113: adox r11, rbx
  .mulx .rbx .rax (.mem ⟨some .rsp, none, 248#64⟩), -- 2114: mulx rbx, rax, [rsp + (48* 5)+ 0x8]
  .adcx .r11 (.reg .rax), -- 2115: adcx r11, rax
  .adox .r12 (.reg .rbx), -- 2116: adox r12, rbx
  .mov (.reg .rdx) (.mem ⟨some .rsp, none, 248#64⟩), -- 2117: mov rdx, [rsp + (48* 5)+ 0x8]
  .mulx .rbx .rax (.mem ⟨some .rsp, none, 264#64⟩), -- 2118: mulx rbx, rax, [rsp + (48* 5)+ 0x18]
  .adcx .r12 (.reg .rax), -- 2119: adcx r12, rax
  .adox .r13 (.reg .rbx), -- 2120: adox r13, rbx
  .mulx .rbx .rax (.mem ⟨some .rsp, none, 272#64⟩), -- 2121: mulx rbx, rax, [rsp + (48* 5)+ 0x20]
  .adcx .r13 (.reg .rax), -- 2122: adcx r13, rax
  .adox .r14 (.reg .rbx), -- 2123: adox r14, rbx
  .mulx .rbx .rax (.mem ⟨some .rsp, none, 280#64⟩), -- 2124: mulx rbx, rax, [rsp + (48* 5)+ 0x28]
  .adcx .r14 (.reg .rax), -- 2125: adcx r14, rax
  .adox .r15 (.reg .rbx), -- 2126: adox r15, rbx
  .adcx .r15 (.reg .rbp), -- 2127: adcx r15, rbp
  .adox .rcx (.reg .rbp), -- 2128: adox rcx, rbp
  .adc (.reg .rcx) (.reg .rbp), -- 2129: adc rcx, rbp
  .xor (.reg .rbp) (.reg .rbp), -- 2130: xor ebp, ebp
  .mov (.reg .rdx) (.mem ⟨some .rsp, none, 272#64⟩), -- 2131: mov rdx, [rsp + (48* 5)+ 0x20]
  .mulx .rbx .rax (.mem ⟨some .rsp, none, 240#64⟩), -- 2132: mulx rbx, rax, [rsp + (48* 5)]
  .adcx .r12 (.reg .rax), -- 2133: adcx r12, rax
  .adox .r13 (.reg .rbx), -- 2134: adox r13, rbx
  .mov (.reg .rdx) (.mem ⟨some .rsp, none, 256#64⟩), -- 2135: mov rdx, [rsp + (48* 5)+ 0x10]
  .mulx .rbx .rax (.mem ⟨some .rsp, none, 264#64⟩), -- 2136: mulx rbx, rax, [rsp + (48* 5)+ 0x18]
  .adcx .r13 (.reg .rax), -- 2137: adcx r13, rax
  .adox .r14 (.reg .rbx), -- 2138: adox r14, rbx
  .mulx .rbx .rax (.mem ⟨some .rsp, none, 272#64⟩), -- 2139: mulx rbx, rax, [rsp + (48* 5)+ 0x20]
  .adcx .r14 (.reg .rax), -- 2140: adcx r14, rax
  .adox .r15 (.reg .rbx), -- 2141: adox r15, rbx
  .mulx .rdx .rax (.mem ⟨some .rsp, none, 280#64⟩), -- 2142: mulx rdx, rax, [rsp + (48* 5)+ 0x28]
  .adcx .r15 (.reg .rax), -- 2143: adcx r15, rax
  .adox .rcx (.reg .rdx), -- 2144: adox rcx, rdx
  .mov (.reg .rdx) (.mem ⟨some .rsp, none, 280#64⟩), -- 2145: mov rdx, [rsp + (48* 5)+ 0x28]
  .mulx .rbp .rbx (.mem ⟨some .rsp, none, 272#64⟩), -- 2146: mulx rbp, rbx, [rsp + (48* 5)+ 0x20]
  .mulx .rdx .rax (.mem ⟨some .rsp, none, 264#64⟩), -- 2147: mulx rdx, rax, [rsp + (48* 5)+ 0x18]
  .adcx .rcx (.reg .rax), -- 2148: adcx rcx, rax
  .adox .rbx (.reg .rdx), -- 2149: adox rbx, rdx
  .mov (.reg .rax) (.imm 0#64), -- 2150: mov eax, 0x0
  .adcx .rbx (.reg .rax), -- 2151: adcx rbx, rax
  .adox .rbp (.reg .rax), -- 2152: adox rbp, rax
  .adc (.reg .rbp) (.reg .rax), -- 2153: adc rbp, rax
  .xor (.reg .rax) (.reg .rax), -- 2154: xor rax, rax
  .mov (.reg .rdx) (.mem ⟨some .rsp, none, 240#64⟩), -- 2155: mov rdx, [rsp + (48* 5)]
  .mulx .rax .r8 (.mem ⟨some .rsp, none, 240#64⟩), -- 2156: mulx rax, r8, [rsp + (48* 5)]
  .adcx .r9 (.reg .r9), -- 2157: adcx r9, r9
  .adox .r9 (.reg .rax), -- 2158: adox r9, rax
  .mov (.reg .rdx) (.mem ⟨some .rsp, none, 248#64⟩), -- 2159: mov rdx, [rsp + (48* 5)+ 0x8]
  .mulx .rdx .rax (.reg .rdx), -- 2160: mulx rdx, rax, rdx
  .adcx .r10 (.reg .r10), -- 2161: adcx r10, r10
  .adox .r10 (.reg .rax), -- 2162: adox r10, rax
  .adcx .r11 (.reg .r11), -- 2163: adcx r11, r11
  .adox .r11 (.reg .rdx), -- 2164: adox r11, rdx
  .mov (.reg .rdx) (.mem ⟨some .rsp, none, 256#64⟩), -- 2165: mov rdx, [rsp + (48* 5)+ 0x10]
  .mulx .rdx .rax (.reg .rdx), -- 2166: mulx rdx, rax, rdx
  .adcx .r12 (.reg .r12), -- 2167: adcx r12, r12
  .adox .r12 (.reg .rax), -- 2168: adox r12, rax
  .adcx .r13 (.reg .r13), -- 2169: adcx r13, r13
  .adox .r13 (.reg .rdx), -- 2170: adox r13, rdx
  .mov (.reg .rdx) (.mem ⟨some .rsp, none, 264#64⟩), -- 2171: mov rdx, [rsp + (48* 5)+ 0x18]
  .mulx .rdx .rax (.reg .rdx), -- 2172: mulx rdx, rax, rdx
  .adcx .r14 (.reg .r14), -- 2173: adcx r14, r14
  .adox .r14 (.reg .rax), -- 2174: adox r14, rax
  .adcx .r15 (.reg .r15), -- 2175: adcx r15, r15
  .adox .r15 (.reg .rdx), -- 2176: adox r15, rdx
  .mov (.reg .rdx) (.mem ⟨some .rsp, none, 272#64⟩), -- 2177: mov rdx, [rsp + (48* 5)+ 0x20]
  .mulx .rdx .rax (.reg .rdx), -- 2178: mulx rdx, rax, rdx
  .adcx .rcx (.reg .rcx), -- 2179: adcx rcx, rcx
  .adox .rcx (.reg .rax), -- 2180: adox rcx, rax
  .adcx .rbx (.reg .rbx), -- 2181: adcx rbx, rbx
  .adox .rbx (.reg .rdx), -- 2182: adox rbx, rdx
  .mov (.reg .rdx) (.mem ⟨some .rsp, none, 280#64⟩), -- 2183: mov rdx, [rsp + (48* 5)+ 0x28]
  .mulx .rsi .rax (.reg .rdx), -- 2184: mulx rsi, rax, rdx
  .adcx .rbp (.reg .rbp), -- 2185: adcx rbp, rbp
  .adox .rbp (.reg .rax), -- 2186: adox rbp, rax
  .mov (.reg .rax) (.imm 0#64), -- 2187: mov eax, 0x0
  .adcx .rsi (.reg .rax), -- 2188: adcx rsi, rax
  .adox .rsi (.reg .rax), -- 2189: adox rsi, rax
  .mov (.mem ⟨some .rsp, none, 144#64⟩) (.reg .rbx), -- 2190: mov [rsp + (48* 3)], rbx
  .mov (.reg .rdx) (.reg .r8), -- 2191: mov rdx, r8
  .shl (.reg .rdx) (.imm 32#64), -- 2192: shl rdx, 0x20
  .add (.reg .rdx) (.reg .r8), -- 2193: add rdx, r8
  .mov (.reg .rax) (.imm 0xffffffff00000001#64), -- 2194: mov rax, 0xffffffff00000001
  .mulx .rax .r8 (.reg .rax), -- 2195: mulx rax, r8, rax
  .mov (.reg .rbx) (.imm 0xffffffff#64), -- 2196: mov ebx, 0xffffffff
  .mulx .r8 .rbx (.reg .rbx), -- 2197: mulx r8, rbx, rbx
  .add (.reg .rax) (.reg .rbx), -- 2198: add rax, rbx
  .adc (.reg .r8) (.reg .rdx), -- 2199: adc r8, rdx
  .mov (.reg .rbx) (.imm 0#64), -- 2200: mov ebx, 0x0
  .adc (.reg .rbx) (.reg .rbx), -- 2201: adc rbx, rbx
  .sub (.reg .r9) (.reg .rax), -- 2202: sub r9, rax
  .sbb (.reg .r10) (.reg .r8), -- 2203: sbb r10, r8
  .sbb (.reg .r11) (.reg .rbx), -- 2204: sbb r11, rbx
  .sbb (.reg .r12) (.imm 0#64), -- 2205: sbb r12, 0x0
  .sbb (.reg .r13) (.imm 0#64), -- 2206: sbb r13, 0x0
  .mov (.reg .r8) (.reg .rdx), -- 2207: mov r8, rdx
  .sbb (.reg .r8) (.imm 0#64), -- 2208: sbb r8, 0x0
  .mov (.reg .rdx) (.reg .r9), -- 2209: mov rdx, r9
  .shl (.reg .rdx) (.imm 32#64), -- 2210: shl rdx, 0x20
  .add (.reg .rdx) (.reg .r9), -- 2211: add rdx, r9
  .mov (.reg .rax) (.imm 0xffffffff00000001#64), -- 2212: mov rax, 0xffffffff00000001
  .mulx .rax .r9 (.reg .rax), -- 2213: mulx rax, r9, rax
  .mov (.reg .rbx) (.imm 0xffffffff#64), -- 2214: mov ebx, 0xffffffff
  .mulx .r9 .rbx (.reg .rbx), -- 2215: mulx r9, rbx, rbx
  .add (.reg .rax) (.reg .rbx), -- 2216: add rax, rbx
  .adc (.reg .r9) (.reg .rdx), -- 2217: adc r9, rdx
  .mov (.reg .rbx) (.imm 0#64), -- 2218: mov ebx, 0x0
  .adc (.reg .rbx) (.reg .rbx), -- 2219: adc rbx, rbx
  .sub (.reg .r10) (.reg .rax), -- 2220: sub r10, rax
  .sbb (.reg .r11) (.reg .r9), -- 2221: sbb r11, r9
  .sbb (.reg .r12) (.reg .rbx), -- 2222: sbb r12, rbx
  .sbb (.reg .r13) (.imm 0#64), -- 2223: sbb r13, 0x0
  .sbb (.reg .r8) (.imm 0#64), -- 2224: sbb r8, 0x0
  .mov (.reg .r9) (.reg .rdx), -- 2225: mov r9, rdx
  .sbb (.reg .r9) (.imm 0#64), -- 2226: sbb r9, 0x0
  .mov (.reg .rdx) (.reg .r10), -- 2227: mov rdx, r10
  .shl (.reg .rdx) (.imm 32#64), -- 2228: shl rdx, 0x20
  .add (.reg .rdx) (.reg .r10), -- 2229: add rdx, r10
  .mov (.reg .rax) (.imm 0xffffffff00000001#64), -- 2230: mov rax, 0xffffffff00000001
  .mulx .rax .r10 (.reg .rax), -- 2231: mulx rax, r10, rax
  .mov (.reg .rbx) (.imm 0xffffffff#64), -- 2232: mov ebx, 0xffffffff
  .mulx .r10 .rbx (.reg .rbx), -- 2233: mulx r10, rbx, rbx
  .add (.reg .rax) (.reg .rbx), -- 2234: add rax, rbx
  .adc (.reg .r10) (.reg .rdx), -- 2235: adc r10, rdx
  .mov (.reg .rbx) (.imm 0#64), -- 2236: mov ebx, 0x0
  .adc (.reg .rbx) (.reg .rbx), -- 2237: adc rbx, rbx
  .sub (.reg .r11) (.reg .rax), -- 2238: sub r11, rax
  .sbb (.reg .r12) (.reg .r10), -- 2239: sbb r12, r10
  .sbb (.reg .r13) (.reg .rbx), -- 2240: sbb r13, rbx
  .sbb (.reg .r8) (.imm 0#64), -- 2241: sbb r8, 0x0
  .sbb (.reg .r9) (.imm 0#64), -- 2242: sbb r9, 0x0
  .mov (.reg .r10) (.reg .rdx), -- 2243: mov r10, rdx
  .sbb (.reg .r10) (.imm 0#64), -- 2244: sbb r10, 0x0
  .mov (.reg .rdx) (.reg .r11), -- 2245: mov rdx, r11
  .shl (.reg .rdx) (.imm 32#64), -- 2246: shl rdx, 0x20
  .add (.reg .rdx) (.reg .r11), -- 2247: add rdx, r11
  .mov (.reg .rax) (.imm 0xffffffff00000001#64), -- 2248: mov rax, 0xffffffff00000001
  .mulx .rax .r11 (.reg .rax), -- 2249: mulx rax, r11, rax
  .mov (.reg .rbx) (.imm 0xffffffff#64), -- 2250: mov ebx, 0xffffffff
  .mulx .r11 .rbx (.reg .rbx), -- 2251: mulx r11, rbx, rbx
  .add (.reg .rax) (.reg .rbx), -- 2252: add rax, rbx
  .adc (.reg .r11) (.reg .rdx), -- 2253: adc r11, rdx
  .mov (.reg .rbx) (.imm 0#64), -- 2254: mov ebx, 0x0
  .adc (.reg .rbx) (.reg .rbx), -- 2255: adc rbx, rbx
  .sub (.reg .r12) (.reg .rax), -- 2256: sub r12, rax
  .sbb (.reg .r13) (.reg .r11), -- 2257: sbb r13, r11
  .sbb (.reg .r8) (.reg .rbx), -- 2258: sbb r8, rbx
  .sbb (.reg .r9) (.imm 0#64), -- 2259: sbb r9, 0x0
  .sbb (.reg .r10) (.imm 0#64), -- 2260: sbb r10, 0x0
  .mov (.reg .r11) (.reg .rdx), -- 2261: mov r11, rdx
  .sbb (.reg .r11) (.imm 0#64), -- 2262: sbb r11, 0x0
  .mov (.reg .rdx) (.reg .r12), -- 2263: mov rdx, r12
  .shl (.reg .rdx) (.imm 32#64), -- 2264: shl rdx, 0x20
  .add (.reg .rdx) (.reg .r12), -- 2265: add rdx, r12
  .mov (.reg .rax) (.imm 0xffffffff00000001#64), -- 2266: mov rax, 0xffffffff00000001
  .mulx .rax .r12 (.reg .rax), -- 2267: mulx rax, r12, rax
  .mov (.reg .rbx) (.imm 0xffffffff#64), -- 2268: mov ebx, 0xffffffff
  .mulx .r12 .rbx (.reg .rbx), -- 2269: mulx r12, rbx, rbx
  .add (.reg .rax) (.reg .rbx), -- 2270: add rax, rbx
  .adc (.reg .r12) (.reg .rdx), -- 2271: adc r12, rdx
  .mov (.reg .rbx) (.imm 0#64), -- 2272: mov ebx, 0x0
  .adc (.reg .rbx) (.reg .rbx), -- 2273: adc rbx, rbx
  .sub (.reg .r13) (.reg .rax), -- 2274: sub r13, rax
  .sbb (.reg .r8) (.reg .r12), -- 2275: sbb r8, r12
  .sbb (.reg .r9) (.reg .rbx), -- 2276: sbb r9, rbx
  .sbb (.reg .r10) (.imm 0#64), -- 2277: sbb r10, 0x0
  .sbb (.reg .r11) (.imm 0#64), -- 2278: sbb r11, 0x0
  .mov (.reg .r12) (.reg .rdx), -- 2279: mov r12, rdx
  .sbb (.reg .r12) (.imm 0#64), -- 2280: sbb r12, 0x0
  .mov (.reg .rdx) (.reg .r13), -- 2281: mov rdx, r13
  .shl (.reg .rdx) (.imm 32#64), -- 2282: shl rdx, 0x20
  .add (.reg .rdx) (.reg .r13), -- 2283: add rdx, r13
  .mov (.reg .rax) (.imm 0xffffffff00000001#64), -- 2284: mov rax, 0xffffffff00000001
  .mulx .rax .r13 (.reg .rax), -- 2285: mulx rax, r13, rax
  .mov (.reg .rbx) (.imm 0xffffffff#64), -- 2286: mov ebx, 0xffffffff
  .mulx .r13 .rbx (.reg .rbx), -- 2287: mulx r13, rbx, rbx
  .add (.reg .rax) (.reg .rbx), -- 2288: add rax, rbx
  .adc (.reg .r13) (.reg .rdx), -- 2289: adc r13, rdx
  .mov (.reg .rbx) (.imm 0#64), -- 2290: mov ebx, 0x0
  .adc (.reg .rbx) (.reg .rbx), -- 2291: adc rbx, rbx
  .sub (.reg .r8) (.reg .rax), -- 2292: sub r8, rax
  .sbb (.reg .r9) (.reg .r13), -- 2293: sbb r9, r13
  .sbb (.reg .r10) (.reg .rbx), -- 2294: sbb r10, rbx
  .sbb (.reg .r11) (.imm 0#64), -- 2295: sbb r11, 0x0
  .sbb (.reg .r12) (.imm 0#64), -- 2296: sbb r12, 0x0
  .mov (.reg .r13) (.reg .rdx), -- 2297: mov r13, rdx
  .sbb (.reg .r13) (.imm 0#64), -- 2298: sbb r13, 0x0
  .mov (.reg .rbx) (.mem ⟨some .rsp, none, 144#64⟩), -- 2299: mov rbx, [rsp + (48* 3)]
  .add (.reg .r14) (.reg .r8), -- 2300: add r14, r8
  .adc (.reg .r15) (.reg .r9), -- 2301: adc r15, r9
  .adc (.reg .rcx) (.reg .r10), -- 2302: adc rcx, r10
  .adc (.reg .rbx) (.reg .r11), -- 2303: adc rbx, r11
  .adc (.reg .rbp) (.reg .r12), -- 2304: adc rbp, r12
  .adc (.reg .rsi) (.reg .r13), -- 2305: adc rsi, r13
  .mov (.reg .r8) (.imm 0#64), -- 2306: mov r8d, 0x0
  .mov (.reg .rax) (.imm 0xffffffff00000001#64), -- 2307: mov rax, 0xffffffff00000001
  .mov (.reg .r9) (.imm 0xffffffff#64), -- 2308: mov r9d, 0xffffffff
  .mov (.reg .r10) (.imm 1#64), -- 2309: mov r10d, 0x1
  .cmov .nc .rax (.reg .r8), -- 2310: cmovnc rax, r8
  .cmov .nc .r9 (.reg .r8), -- 2311: cmovnc r9, r8
  .cmov .nc .r10 (.reg .r8), -- 2312: cmovnc r10, r8
  .add (.reg .r14) (.reg .rax), -- 2313: add r14, rax
  .adc (.reg .r15) (.reg .r9), -- 2314: adc r15, r9
  .adc (.reg .rcx) (.reg .r10), -- 2315: adc rcx, r10
  .adc (.reg .rbx) (.reg .r8), -- 2316: adc rbx, r8
  .adc (.reg .rbp) (.reg .r8), -- 2317: adc rbp, r8
  .adc (.reg .rsi) (.reg .r8), -- 2318: adc rsi, r8
  .mov (.mem ⟨some .rsp, none, 144#64⟩) (.reg .r14), -- 2319: mov [rsp + (48* 3)], r14
  .mov (.mem ⟨some .rsp, none, 152#64⟩) (.reg .r15), -- 2320: mov [rsp + (48* 3)+ 0x8], r15
  .mov (.mem ⟨some .rsp, none, 160#64⟩) (.reg .rcx), -- 2321: mov [rsp + (48* 3)+ 0x10], rcx
  .mov (.mem ⟨some .rsp, none, 168#64⟩) (.reg .rbx), -- 2322: mov [rsp + (48* 3)+ 0x18], rbx
  .mov (.mem ⟨some .rsp, none, 176#64⟩) (.reg .rbp), -- 2323: mov [rsp + (48* 3)+ 0x20], rbp
  .mov (.mem ⟨some .rsp, none, 184#64⟩) (.reg .rsi), -- 2324: mov [rsp + (48* 3)+ 0x28], rsi
  .mov (.reg .rdx) (.mem ⟨some .rsp, none, 48#64⟩), -- 2325: mov rdx, [rsp + (48* 1)]
  .mulx .r10 .r9 (.mem ⟨some .rsp, none, 56#64⟩), -- 2326: mulx r10, r9, [rsp + (48* 1)+ 0x8]
  .mulx .r12 .r11 (.mem ⟨some .rsp, none, 72#64⟩), -- 2327: mulx r12, r11, [rsp + (48* 1)+ 0x18]
  .mulx .r14 .r13 (.mem ⟨some .rsp, none, 88#64⟩), -- 2328: mulx r14, r13, [rsp + (48* 1)+ 0x28]
  .mov (.reg .rdx) (.mem ⟨some .rsp, none, 72#64⟩), -- 2329: mov rdx, [rsp + (48* 1)+ 0x18]
  .mulx .rcx .r15 (.mem ⟨some .rsp, none, 80#64⟩), -- 2330: mulx rcx, r15, [rsp + (48* 1)+ 0x20]
  .xor (.reg .rbp) (.reg .rbp), -- 2331: xor ebp, ebp
  .mov (.reg .rdx) (.mem ⟨some .rsp, none, 64#64⟩), -- 2332: mov rdx, [rsp + (48* 1)+ 0x10]
  .mulx .rbx .rax (.mem ⟨some .rsp, none, 48#64⟩), -- 2333: mulx rbx, rax, [rsp + (48* 1)]
  .adcx .r10 (.reg .rax), -- 2334: adcx r10, rax
  .adox .r11 (.reg .rbx), -- 2335: adox r11, rbx
  .mulx .rbx .rax (.mem ⟨some .rsp, none, 56#64⟩), -- 2336: mulx rbx, rax, [rsp + (48* 1)+ 0x8]
  .adcx .r11 (.reg .rax), -- 2337: adcx r11, rax
  .adox .r12 (.reg .rbx), -- 2338: adox r12, rbx
  .mov (.reg .rdx) (.mem ⟨some .rsp, none, 56#64⟩), -- 2339: mov rdx, [rsp + (48* 1)+ 0x8]
  .mulx .rbx .rax (.mem ⟨some .rsp, none, 72#64⟩), -- 2340: mulx rbx, rax, [rsp + (48* 1)+ 0x18]
  .adcx .r12 (.reg .rax), -- 2341: adcx r12, rax
  .adox .r13 (.reg .rbx), -- 2342: adox r13, rbx
  .mulx .rbx .rax (.mem ⟨some .rsp, none, 80#64⟩), -- 2343: mulx rbx, rax, [rsp + (48* 1)+ 0x20]
  .adcx .r13 (.reg .rax), -- 2344: adcx r13, rax
  .adox .r14 (.reg .rbx), -- 2345: adox r14, rbx
  .mulx .rbx .rax (.mem ⟨some .rsp, none, 88#64⟩), -- 2346: mulx rbx, rax, [rsp + (48* 1)+ 0x28]
  .adcx .r14 (.reg .rax), -- 2347: adcx r14, rax
  .adox .r15 (.reg .rbx), -- 2348: adox r15, rbx
  .adcx .r15 (.reg .rbp), -- 2349: adcx r15, rbp
  .adox .rcx (.reg .rbp), -- 2350: adox rcx, rbp
  .adc (.reg .rcx) (.reg .rbp), -- 2351: adc rcx, rbp
  .xor (.reg .rbp) (.reg .rbp), -- 2352: xor ebp, ebp
  .mov (.reg .rdx) (.mem ⟨some .rsp, none, 80#64⟩), -- 2353: mov rdx, [rsp + (48* 1)+ 0x20]
  .mulx .rbx .rax (.mem ⟨some .rsp, none, 48#64⟩), -- 2354: mulx rbx, rax, [rsp + (48* 1)]
  .adcx .r12 (.reg .rax), -- 2355: adcx r12, rax
  .adox .r13 (.reg .rbx), -- 2356: adox r13, rbx
  .mov (.reg .rdx) (.mem ⟨some .rsp, none, 64#64⟩), -- 2357: mov rdx, [rsp + (48* 1)+ 0x10]
  .mulx .rbx .rax (.mem ⟨some .rsp, none, 72#64⟩), -- 2358: mulx rbx, rax, [rsp + (48* 1)+ 0x18]
  .adcx .r13 (.reg .rax), -- 2359: adcx r13, rax
  .adox .r14 (.reg .rbx), -- 2360: adox r14, rbx
  .mulx .rbx .rax (.mem ⟨some .rsp, none, 80#64⟩), -- 2361: mulx rbx, rax, [rsp + (48* 1)+ 0x20]
  .adcx .r14 (.reg .rax), -- 2362: adcx r14, rax
  .adox .r15 (.reg .rbx), -- 2363: adox r15, rbx
  .mulx .rdx .rax (.mem ⟨some .rsp, none, 88#64⟩), -- 2364: mulx rdx, rax, [rsp + (48* 1)+ 0x28]
  .adcx .r15 (.reg .rax), -- 2365: adcx r15, rax
  .adox .rcx (.reg .rdx), -- 2366: adox rcx, rdx
  .mov (.reg .rdx) (.mem ⟨some .rsp, none, 88#64⟩), -- 2367: mov rdx, [rsp + (48* 1)+ 0x28]
  .mulx .rbp .rbx (.mem ⟨some .rsp, none, 80#64⟩), -- 2368: mulx rbp, rbx, [rsp + (48* 1)+ 0x20]
  .mulx .rdx .rax (.mem ⟨some .rsp, none, 72#64⟩), -- 2369: mulx rdx, rax, [rsp + (48* 1)+ 0x18]
  .adcx .rcx (.reg .rax), -- 2370: adcx rcx, rax
  .adox .rbx (.reg .rdx), -- 2371: adox rbx, rdx
  .mov (.reg .rax) (.imm 0#64), -- 2372: mov eax, 0x0
  .adcx .rbx (.reg .rax), -- 2373: adcx rbx, rax
  .adox .rbp (.reg .rax), -- 2374: adox rbp, rax
  .adc (.reg .rbp) (.reg .rax), -- 2375: adc rbp, rax
  .xor (.reg .rax) (.reg .rax), -- 2376: xor rax, rax
  .mov (.reg .rdx) (.mem ⟨some .rsp, none, 48#64⟩), -- 2377: mov rdx, [rsp + (48* 1)]
  .mulx .rax .r8 (.mem ⟨some .rsp, none, 48#64⟩), -- 2378: mulx rax, r8, [rsp + (48* 1)]
  .adcx .r9 (.reg .r9), -- 2379: adcx r9, r9
  .adox .r9 (.reg .rax), -- 2380: adox r9, rax
  .mov (.reg .rdx) (.mem ⟨some .rsp, none, 56#64⟩), -- 2381: mov rdx, [rsp + (48* 1)+ 0x8]
  .mulx .rdx .rax (.reg .rdx), -- 2382: mulx rdx, rax, rdx
  .adcx .r10 (.reg .r10), -- 2383: adcx r10, r10
  .adox .r10 (.reg .rax), -- 2384: adox r10, rax
  .adcx .r11 (.reg .r11), -- 2385: adcx r11, r11
  .adox .r11 (.reg .rdx), -- 2386: adox r11, rdx
  .mov (.reg .rdx) (.mem ⟨some .rsp, none, 64#64⟩), -- 2387: mov rdx, [rsp + (48* 1)+ 0x10]
  .mulx .rdx .rax (.reg .rdx), -- 2388: mulx rdx, rax, rdx
  .adcx .r12 (.reg .r12), -- 2389: adcx r12, r12
  .adox .r12 (.reg .rax), -- 2390: adox r12, rax
  .adcx .r13 (.reg .r13), -- 2391: adcx r13, r13
  .adox .r13 (.reg .rdx), -- 2392: adox r13, rdx
  .mov (.reg .rdx) (.mem ⟨some .rsp, none, 72#64⟩), -- 2393: mov rdx, [rsp + (48* 1)+ 0x18]
  .mulx .rdx .rax (.reg .rdx), -- 2394: mulx rdx, rax, rdx
  .adcx .r14 (.reg .r14), -- 2395: adcx r14, r14
  .adox .r14 (.reg .rax), -- 2396: adox r14, rax
  .adcx .r15 (.reg .r15), -- 2397: adcx r15, r15
  .adox .r15 (.reg .rdx), -- 2398: adox r15, rdx
  .mov (.reg .rdx) (.mem ⟨some .rsp, none, 80#64⟩), -- 2399: mov rdx, [rsp + (48* 1)+ 0x20]
  .mulx .rdx .rax (.reg .rdx), -- 2400: mulx rdx, rax, rdx
  .adcx .rcx (.reg .rcx), -- 2401: adcx rcx, rcx
  .adox .rcx (.reg .rax), -- 2402: adox rcx, rax
  .adcx .rbx (.reg .rbx), -- 2403: adcx rbx, rbx
  .adox .rbx (.reg .rdx), -- 2404: adox rbx, rdx
  .mov (.reg .rdx) (.mem ⟨some .rsp, none, 88#64⟩), -- 2405: mov rdx, [rsp + (48* 1)+ 0x28]
  .mulx .rsi .rax (.reg .rdx), -- 2406: mulx rsi, rax, rdx
  .adcx .rbp (.reg .rbp), -- 2407: adcx rbp, rbp
  .adox .rbp (.reg .rax), -- 2408: adox rbp, rax
  .mov (.reg .rax) (.imm 0#64), -- 2409: mov eax, 0x0
  .adcx .rsi (.reg .rax), -- 2410: adcx rsi, rax
  .adox .rsi (.reg .rax), -- 2411: adox rsi, rax
  .mov (.mem ⟨some .rsp, none, 0#64⟩) (.reg .rbx), -- 2412: mov [rsp + (48* 0)], rbx
  .mov (.reg .rdx) (.reg .r8), -- 2413: mov rdx, r8
  .shl (.reg .rdx) (.imm 32#64), -- 2414: shl rdx, 0x20
  .add (.reg .rdx) (.reg .r8), -- 2415: add rdx, r8
  .mov (.reg .rax) (.imm 0xffffffff00000001#64), -- 2416: mov rax, 0xffffffff00000001
  .mulx .rax .r8 (.reg .rax), -- 2417: mulx rax, r8, rax
  .mov (.reg .rbx) (.imm 0xffffffff#64), -- 2418: mov ebx, 0xffffffff
  .mulx .r8 .rbx (.reg .rbx), -- 2419: mulx r8, rbx, rbx
  .add (.reg .rax) (.reg .rbx), -- 2420: add rax, rbx
  .adc (.reg .r8) (.reg .rdx), -- 2421: adc r8, rdx
  .mov (.reg .rbx) (.imm 0#64), -- 2422: mov ebx, 0x0
  .adc (.reg .rbx) (.reg .rbx), -- 2423: adc rbx, rbx
  .sub (.reg .r9) (.reg .rax), -- 2424: sub r9, rax
  .sbb (.reg .r10) (.reg .r8), -- 2425: sbb r10, r8
  .sbb (.reg .r11) (.reg .rbx), -- 2426: sbb r11, rbx
  .sbb (.reg .r12) (.imm 0#64), -- 2427: sbb r12, 0x0
  .sbb (.reg .r13) (.imm 0#64), -- 2428: sbb r13, 0x0
  .mov (.reg .r8) (.reg .rdx), -- 2429: mov r8, rdx
  .sbb (.reg .r8) (.imm 0#64), -- 2430: sbb r8, 0x0
  .mov (.reg .rdx) (.reg .r9), -- 2431: mov rdx, r9
  .shl (.reg .rdx) (.imm 32#64), -- 2432: shl rdx, 0x20
  .add (.reg .rdx) (.reg .r9), -- 2433: add rdx, r9
  .mov (.reg .rax) (.imm 0xffffffff00000001#64), -- 2434: mov rax, 0xffffffff00000001
  .mulx .rax .r9 (.reg .rax), -- 2435: mulx rax, r9, rax
  .mov (.reg .rbx) (.imm 0xffffffff#64), -- 2436: mov ebx, 0xffffffff
  .mulx .r9 .rbx (.reg .rbx), -- 2437: mulx r9, rbx, rbx
  .add (.reg .rax) (.reg .rbx), -- 2438: add rax, rbx
  .adc (.reg .r9) (.reg .rdx), -- 2439: adc r9, rdx
  .mov (.reg .rbx) (.imm 0#64), -- 2440: mov ebx, 0x0
  .adc (.reg .rbx) (.reg .rbx), -- 2441: adc rbx, rbx
  .sub (.reg .r10) (.reg .rax), -- 2442: sub r10, rax
  .sbb (.reg .r11) (.reg .r9), -- 2443: sbb r11, r9
  .sbb (.reg .r12) (.reg .rbx), -- 2444: sbb r12, rbx
  .sbb (.reg .r13) (.imm 0#64), -- 2445: sbb r13, 0x0
  .sbb (.reg .r8) (.imm 0#64), -- 2446: sbb r8, 0x0
  .mov (.reg .r9) (.reg .rdx), -- 2447: mov r9, rdx
  .sbb (.reg .r9) (.imm 0#64), -- 2448: sbb r9, 0x0
  .mov (.reg .rdx) (.reg .r10), -- 2449: mov rdx, r10
  .shl (.reg .rdx) (.imm 32#64), -- 2450: shl rdx, 0x20
  .add (.reg .rdx) (.reg .r10), -- 2451: add rdx, r10
  .mov (.reg .rax) (.imm 0xffffffff00000001#64), -- 2452: mov rax, 0xffffffff00000001
  .mulx .rax .r10 (.reg .rax), -- 2453: mulx rax, r10, rax
  .mov (.reg .rbx) (.imm 0xffffffff#64), -- 2454: mov ebx, 0xffffffff
  .mulx .r10 .rbx (.reg .rbx), -- 2455: mulx r10, rbx, rbx
  .add (.reg .rax) (.reg .rbx), -- 2456: add rax, rbx
  .adc (.reg .r10) (.reg .rdx), -- 2457: adc r10, rdx
  .mov (.reg .rbx) (.imm 0#64), -- 2458: mov ebx, 0x0
  .adc (.reg .rbx) (.reg .rbx), -- 2459: adc rbx, rbx
  .sub (.reg .r11) (.reg .rax), -- 2460: sub r11, rax
  .sbb (.reg .r12) (.reg .r10), -- 2461: sbb r12, r10
  .sbb (.reg .r13) (.reg .rbx), -- 2462: sbb r13, rbx
  .sbb (.reg .r8) (.imm 0#64), -- 2463: sbb r8, 0x0
  .sbb (.reg .r9) (.imm 0#64), -- 2464: sbb r9, 0x0
  .mov (.reg .r10) (.reg .rdx), -- 2465: mov r10, rdx
  .sbb (.reg .r10) (.imm 0#64), -- 2466: sbb r10, 0x0
  .mov (.reg .rdx) (.reg .r11), -- 2467: mov rdx, r11
  .shl (.reg .rdx) (.imm 32#64), -- 2468: shl rdx, 0x20
  .add (.reg .rdx) (.reg .r11), -- 2469: add rdx, r11
  .mov (.reg .rax) (.imm 0xffffffff00000001#64), -- 2470: mov rax, 0xffffffff00000001
  .mulx .rax .r11 (.reg .rax), -- 2471: mulx rax, r11, rax
  .mov (.reg .rbx) (.imm 0xffffffff#64), -- 2472: mov ebx, 0xffffffff
  .mulx .r11 .rbx (.reg .rbx), -- 2473: mulx r11, rbx, rbx
  .add (.reg .rax) (.reg .rbx), -- 2474: add rax, rbx
  .adc (.reg .r11) (.reg .rdx), -- 2475: adc r11, rdx
  .mov (.reg .rbx) (.imm 0#64), -- 2476: mov ebx, 0x0
  .adc (.reg .rbx) (.reg .rbx), -- 2477: adc rbx, rbx
  .sub (.reg .r12) (.reg .rax), -- 2478: sub r12, rax
  .sbb (.reg .r13) (.reg .r11), -- 2479: sbb r13, r11
  .sbb (.reg .r8) (.reg .rbx), -- 2480: sbb r8, rbx
  .sbb (.reg .r9) (.imm 0#64), -- 2481: sbb r9, 0x0
  .sbb (.reg .r10) (.imm 0#64), -- 2482: sbb r10, 0x0
  .mov (.reg .r11) (.reg .rdx), -- 2483: mov r11, rdx
  .sbb (.reg .r11) (.imm 0#64), -- 2484: sbb r11, 0x0
  .mov (.reg .rdx) (.reg .r12), -- 2485: mov rdx, r12
  .shl (.reg .rdx) (.imm 32#64), -- 2486: shl rdx, 0x20
  .add (.reg .rdx) (.reg .r12), -- 2487: add rdx, r12
  .mov (.reg .rax) (.imm 0xffffffff00000001#64), -- 2488: mov rax, 0xffffffff00000001
  .mulx .rax .r12 (.reg .rax), -- 2489: mulx rax, r12, rax
  .mov (.reg .rbx) (.imm 0xffffffff#64), -- 2490: mov ebx, 0xffffffff
  .mulx .r12 .rbx (.reg .rbx), -- 2491: mulx r12, rbx, rbx
  .add (.reg .rax) (.reg .rbx), -- 2492: add rax, rbx
  .adc (.reg .r12) (.reg .rdx), -- 2493: adc r12, rdx
  .mov (.reg .rbx) (.imm 0#64), -- 2494: mov ebx, 0x0
  .adc (.reg .rbx) (.reg .rbx), -- 2495: adc rbx, rbx
  .sub (.reg .r13) (.reg .rax), -- 2496: sub r13, rax
  .sbb (.reg .r8) (.reg .r12), -- 2497: sbb r8, r12
  .sbb (.reg .r9) (.reg .rbx), -- 2498: sbb r9, rbx
  .sbb (.reg .r10) (.imm 0#64), -- 2499: sbb r10, 0x0
  .sbb (.reg .r11) (.imm 0#64), -- 2500: sbb r11, 0x0
  .mov (.reg .r12) (.reg .rdx), -- 2501: mov r12, rdx
  .sbb (.reg .r12) (.imm 0#64), -- 2502: sbb r12, 0x0
  .mov (.reg .rdx) (.reg .r13), -- 2503: mov rdx, r13
  .shl (.reg .rdx) (.imm 32#64), -- 2504: shl rdx, 0x20
  .add (.reg .rdx) (.reg .r13), -- 2505: add rdx, r13
  .mov (.reg .rax) (.imm 0xffffffff00000001#64), -- 2506: mov rax, 0xffffffff00000001
  .mulx .rax .r13 (.reg .rax), -- 2507: mulx rax, r13, rax
  .mov (.reg .rbx) (.imm 0xffffffff#64), -- 2508: mov ebx, 0xffffffff
  .mulx .r13 .rbx (.reg .rbx), -- 2509: mulx r13, rbx, rbx
  .add (.reg .rax) (.reg .rbx), -- 2510: add rax, rbx
  .adc (.reg .r13) (.reg .rdx), -- 2511: adc r13, rdx
  .mov (.reg .rbx) (.imm 0#64), -- 2512: mov ebx, 0x0
  .adc (.reg .rbx) (.reg .rbx), -- 2513: adc rbx, rbx
  .sub (.reg .r8) (.reg .rax), -- 2514: sub r8, rax
  .sbb (.reg .r9) (.reg .r13), -- 2515: sbb r9, r13
  .sbb (.reg .r10) (.reg .rbx), -- 2516: sbb r10, rbx
  .sbb (.reg .r11) (.imm 0#64), -- 2517: sbb r11, 0x0
  .sbb (.reg .r12) (.imm 0#64), -- 2518: sbb r12, 0x0
  .mov (.reg .r13) (.reg .rdx), -- 2519: mov r13, rdx
  .sbb (.reg .r13) (.imm 0#64), -- 2520: sbb r13, 0x0
  .mov (.reg .rbx) (.mem ⟨some .rsp, none, 0#64⟩), -- 2521: mov rbx, [rsp + (48* 0)]
  .add (.reg .r14) (.reg .r8), -- 2522: add r14, r8
  .adc (.reg .r15) (.reg .r9), -- 2523: adc r15, r9
  .adc (.reg .rcx) (.reg .r10), -- 2524: adc rcx, r10
  .adc (.reg .rbx) (.reg .r11), -- 2525: adc rbx, r11
  .adc (.reg .rbp) (.reg .r12), -- 2526: adc rbp, r12
  .adc (.reg .rsi) (.reg .r13), -- 2527: adc rsi, r13
  .mov (.reg .r8) (.imm 0#64), -- 2528: mov r8d, 0x0
  .adc (.reg .r8) (.reg .r8), -- 2529: adc r8, r8
  .xor (.reg .r11) (.reg .r11), -- 2530: xor r11, r11
  .xor (.reg .r12) (.reg .r12), -- 2531: xor r12, r12
  .xor (.reg .r13) (.reg .r13), -- 2532: xor r13, r13
  .mov (.reg .rax) (.imm 0xffffffff00000001#64), -- 2533: mov rax, 0xffffffff00000001
  .add (.reg .rax) (.reg .r14), -- 2534: add rax, r14
  .mov (.reg .r9) (.imm 0xffffffff#64), -- 2535: mov r9d, 0xffffffff
  .adc (.reg .r9) (.reg .r15), -- 2536: adc r9, r15
  .mov (.reg .r10) (.imm 1#64), -- 2537: mov r10d, 0x1
  .adc (.reg .r10) (.reg .rcx), -- 2538: adc r10, rcx
  .adc (.reg .r11) (.reg .rbx), -- 2539: adc r11, rbx
  .adc (.reg .r12) (.reg .rbp), -- 2540: adc r12, rbp
  .adc (.reg .r13) (.reg .rsi), -- 2541: adc r13, rsi
  .adc (.reg .r8) (.imm 0#64), -- 2542: adc r8, 0x0
  .cmov .nz .r14 (.reg .rax), -- 2543: cmovne r14, rax
  .cmov .nz .r15 (.reg .r9), -- 2544: cmovne r15, r9
  .cmov .nz .rcx (.reg .r10), -- 2545: cmovne rcx, r10
  .cmov .nz .rbx (.reg .r11), -- 2546: cmovne rbx, r11
  .cmov .nz .rbp (.reg .r12), -- 2547: cmovne rbp, r12
  .cmov .nz .rsi (.reg .r13), -- 2548: cmovne rsi, r13
  .mov (.mem ⟨some .rsp, none, 0#64⟩) (.reg .r14), -- 2549: mov [rsp + (48* 0)], r14
  .mov (.mem ⟨some .rsp, none, 8#64⟩) (.reg .r15), -- 2550: mov [rsp + (48* 0)+ 0x8], r15
  .mov (.mem ⟨some .rsp, none, 16#64⟩) (.reg .rcx), -- 2551: mov [rsp + (48* 0)+ 0x10], rcx
  .mov (.mem ⟨some .rsp, none, 24#64⟩) (.reg .rbx), -- 2552: mov [rsp + (48* 0)+ 0x18], rbx
  .mov (.mem ⟨some .rsp, none, 32#64⟩) (.reg .rbp), -- 2553: mov [rsp + (48* 0)+ 0x20], rbp
  .mov (.mem ⟨some .rsp, none, 40#64⟩) (.reg .rsi), -- 2554: mov [rsp + (48* 0)+ 0x28], rsi
  .mov (.reg .rdx) (.mem ⟨some .rsp, none, 192#64⟩), -- 2555: mov rdx, [rsp + (48* 4)]
  .xor (.reg .r15) (.reg .r15), -- 2556: xor r15d, r15d
  .mulx .r9 .r8 (.mem ⟨some .rsp, none, 144#64⟩), -- 2557: mulx r9, r8, [rsp + (48* 3)]
  .mulx .r10 .rbx (.mem ⟨some .rsp, none, 152#64⟩), -- 2558: mulx r10, rbx, [rsp + (48* 3)+ 0x8]
  .add (.reg .r9) (.reg .rbx), -- 2559: add r9, rbx
  .mulx .r11 .rbx (.mem ⟨some .rsp, none, 160#64⟩), -- 2560: mulx r11, rbx, [rsp + (48* 3)+ 0x10]
  .adc (.reg .r10) (.reg .rbx), -- 2561: adc r10, rbx
  .mulx .r12 .rbx (.mem ⟨some .rsp, none, 168#64⟩), -- 2562: mulx r12, rbx, [rsp + (48* 3)+ 0x18]
  .adc (.reg .r11) (.reg .rbx), -- 2563: adc r11, rbx
  .mulx .r13 .rbx (.mem ⟨some .rsp, none, 176#64⟩), -- 2564: mulx r13, rbx, [rsp + (48* 3)+ 0x20]
  .adc (.reg .r12) (.reg .rbx), -- 2565: adc r12, rbx
  .mulx .r14 .rbx (.mem ⟨some .rsp, none, 184#64⟩), -- 2566: mulx r14, rbx, [rsp + (48* 3)+ 0x28]
  .adc (.reg .r13) (.reg .rbx), -- 2567: adc r13, rbx
  .adc (.reg .r14) (.reg .r15), -- 2568: adc r14, r15
  .mov (.reg .rdx) (.reg .r8), -- 2569: mov rdx, r8
  .shl (.reg .rdx) (.imm 32#64), -- 2570: shl rdx, 0x20
  .add (.reg .rdx) (.reg .r8), -- 2571: add rdx, r8
  .xor (.reg .rbp) (.reg .rbp), -- 2572: xor ebp, ebp
  .mov (.reg .rax) (.imm 0xffffffff00000001#64), -- 2573: mov rax, 0xffffffff00000001
  .mulx .rax .rbx (.reg .rax), -- 2574: mulx rax, rbx, rax
  .mov (.reg .rbx) (.imm 0xffffffff#64), -- 2575: mov ebx, 0xffffffff
  .mulx .rbx .r8 (.reg .rbx), -- 2576: mulx rbx, r8, rbx
  .adc (.reg .rax) (.reg .r8), -- 2577: adc rax, r8
  .adc (.reg .rbx) (.reg .rdx), -- 2578: adc rbx, rdx
  .adc32 .rbp .rbp, -- 2579: adc ebp, ebp
  .sub (.reg .r9) (.reg .rax), -- 2580: sub r9, rax
  .sbb (.reg .r10) (.reg .rbx), -- 2581: sbb r10, rbx
  .sbb (.reg .r11) (.reg .rbp), -- 2582: sbb r11, rbp
  .sbb (.reg .r12) (.imm 0#64), -- 2583: sbb r12, 0x0
  .sbb (.reg .r13) (.imm 0#64), -- 2584: sbb r13, 0x0
  .sbb (.reg .rdx) (.imm 0#64), -- 2585: sbb rdx, 0x0
  .add (.reg .r14) (.reg .rdx), -- 2586: add r14, rdx
  .adc (.reg .r15) (.imm 0#64), -- 2587: adc r15, 0x0
  .mov (.reg .rdx) (.mem ⟨some .rsp, none, 200#64⟩), -- 2588: mov rdx, [rsp + (48* 4)+ 0x8]
  .xor (.reg .r8) (.reg .r8), -- 2589: xor r8d, r8d
  .mulx .rbx .rax (.mem ⟨some .rsp, none, 144#64⟩), -- 2590: mulx rbx, rax, [rsp + (48* 3)]
  .adcx .r9 (.reg .rax), -- 2591: adcx r9, rax
  .adox .r10 (.reg .rbx), -- 2592: adox r10, rbx
  .mulx .rbx .rax (.mem ⟨some .rsp, none, 152#64⟩), -- 2593: mulx rbx, rax, [rsp + (48* 3)+ 0x8]
  .adcx .r10 (.reg .rax), -- 2594: adcx r10, rax
  .adox .r11 (.reg .rbx), -- 2595: adox r11, rbx
  .mulx .rbx .rax (.mem ⟨some .rsp, none, 160#64⟩), -- 2596: mulx rbx, rax, [rsp + (48* 3)+ 0x10]
  .adcx .r11 (.reg .rax), -- 2597: adcx r11, rax
  .adox .r12 (.reg .rbx), -- 2598: adox r12, rbx
  .mulx .rbx .rax (.mem ⟨some .rsp, none, 168#64⟩), -- 2599: mulx rbx, rax, [rsp + (48* 3)+ 0x18]
  .adcx .r12 (.reg .rax), -- 2600: adcx r12, rax
  .adox .r13 (.reg .rbx), -- 2601: adox r13, rbx
  .mulx .rbx .rax (.mem ⟨some .rsp, none, 176#64⟩), -- 2602: mulx rbx, rax, [rsp + (48* 3)+ 0x20]
  .adcx .r13 (.reg .rax), -- 2603: adcx r13, rax
  .adox .r14 (.reg .rbx), -- 2604: adox r14, rbx
  .adox .r15 (.reg .r8), -- 2605: adox r15, r8
  .mulx .rbx .rax (.mem ⟨some .rsp, none, 184#64⟩), -- 2606: mulx rbx, rax, [rsp + (48* 3)+ 0x28]
  .adc (.reg .r14) (.reg .rax), -- 2607: adc r14, rax
  .adc (.reg .r15) (.reg .rbx), -- 2608: adc r15, rbx
  .adc (.reg .r8) (.reg .r8), -- 2609: adc r8, r8
  .mov (.reg .rdx) (.reg .r9), -- 2610: mov rdx, r9
  .shl (.reg .rdx) (.imm 32#64), -- 2611: shl rdx, 0x20
  .add (.reg .rdx) (.reg .r9), -- 2612: add rdx, r9
  .xor (.reg .rbp) (.reg .rbp), -- 2613: xor ebp, ebp
  .mov (.reg .rax) (.imm 0xffffffff00000001#64), -- 2614: mov rax, 0xffffffff00000001
  .mulx .rax .rbx (.reg .rax), -- 2615: mulx rax, rbx, rax
  .mov (.reg .rbx) (.imm 0xffffffff#64), -- 2616: mov ebx, 0xffffffff
  .mulx .rbx .r9 (.reg .rbx), -- 2617: mulx rbx, r9, rbx
  .adc (.reg .rax) (.reg .r9), -- 2618: adc rax, r9
  .adc (.reg .rbx) (.reg .rdx), -- 2619: adc rbx, rdx
  .adc32 .rbp .rbp, -- 2620: adc ebp, ebp
  .sub (.reg .r10) (.reg .rax), -- 2621: sub r10, rax
  .sbb (.reg .r11) (.reg .rbx), -- 2622: sbb r11, rbx
  .sbb (.reg .r12) (.reg .rbp), -- 2623: sbb r12, rbp
  .sbb (.reg .r13) (.imm 0#64), -- 2624: sbb r13, 0x0
  .sbb (.reg .r14) (.imm 0#64), -- 2625: sbb r14, 0x0
  .sbb (.reg .rdx) (.imm 0#64), -- 2626: sbb rdx, 0x0
  .add (.reg .r15) (.reg .rdx), -- 2627: add r15, rdx
  .adc (.reg .r8) (.imm 0#64), -- 2628: adc r8, 0x0
  .mov (.reg .rdx) (.mem ⟨some .rsp, none, 208#64⟩), -- 2629: mov rdx, [rsp + (48* 4)+ 0x10]
  .xor (.reg .r9) (.reg .r9), -- 2630: xor r9d, r9d
  .mulx .rbx .rax (.mem ⟨some .rsp, none, 144#64⟩), -- 2631: mulx rbx, rax, [rsp + (48* 3)]
  .adcx .r10 (.reg .rax), -- 2632: adcx r10, rax
  .adox .r11 (.reg .rbx), -- 2633: adox r11, rbx
  .mulx .rbx .rax (.mem ⟨some .rsp, none, 152#64⟩), -- 2634: mulx rbx, rax, [rsp + (48* 3)+ 0x8]
  .adcx .r11 (.reg .rax), -- 2635: adcx r11, rax
  .adox .r12 (.reg .rbx), -- 2636: adox r12, rbx
  .mulx .rbx .rax (.mem ⟨some .rsp, none, 160#64⟩), -- 2637: mulx rbx, rax, [rsp + (48* 3)+ 0x10]
  .adcx .r12 (.reg .rax), -- 2638: adcx r12, rax
  .adox .r13 (.reg .rbx), -- 2639: adox r13, rbx
  .mulx .rbx .rax (.mem ⟨some .rsp, none, 168#64⟩), -- 2640: mulx rbx, rax, [rsp + (48* 3)+ 0x18]
  .adcx .r13 (.reg .rax), -- 2641: adcx r13, rax
  .adox .r14 (.reg .rbx), -- 2642: adox r14, rbx
  .mulx .rbx .rax (.mem ⟨some .rsp, none, 176#64⟩), -- 2643: mulx rbx, rax, [rsp + (48* 3)+ 0x20]
  .adcx .r14 (.reg .rax), -- 2644: adcx r14, rax
  .adox .r15 (.reg .rbx), -- 2645: adox r15, rbx
  .adox .r8 (.reg .r9), -- 2646: adox r8, r9
  .mulx .rbx .rax (.mem ⟨some .rsp, none, 184#64⟩), -- 2647: mulx rbx, rax, [rsp + (48* 3)+ 0x28]
  .adc (.reg .r15) (.reg .rax), -- 2648: adc r15, rax
  .adc (.reg .r8) (.reg .rbx), -- 2649: adc r8, rbx
  .adc (.reg .r9) (.reg .r9), -- 2650: adc r9, r9
  .mov (.reg .rdx) (.reg .r10), -- 2651: mov rdx, r10
  .shl (.reg .rdx) (.imm 32#64), -- 2652: shl rdx, 0x20
  .add (.reg .rdx) (.reg .r10), -- 2653: add rdx, r10
  .xor (.reg .rbp) (.reg .rbp), -- 2654: xor ebp, ebp
  .mov (.reg .rax) (.imm 0xffffffff00000001#64), -- 2655: mov rax, 0xffffffff00000001
  .mulx .rax .rbx (.reg .rax), -- 2656: mulx rax, rbx, rax
  .mov (.reg .rbx) (.imm 0xffffffff#64), -- 2657: mov ebx, 0xffffffff
  .mulx .rbx .r10 (.reg .rbx), -- 2658: mulx rbx, r10, rbx
  .adc (.reg .rax) (.reg .r10), -- 2659: adc rax, r10
  .adc (.reg .rbx) (.reg .rdx), -- 2660: adc rbx, rdx
  .adc32 .rbp .rbp, -- 2661: adc ebp, ebp
  .sub (.reg .r11) (.reg .rax), -- 2662: sub r11, rax
  .sbb (.reg .r12) (.reg .rbx), -- 2663: sbb r12, rbx
  .sbb (.reg .r13) (.reg .rbp), -- 2664: sbb r13, rbp
  .sbb (.reg .r14) (.imm 0#64), -- 2665: sbb r14, 0x0
  .sbb (.reg .r15) (.imm 0#64), -- 2666: sbb r15, 0x0
  .sbb (.reg .rdx) (.imm 0#64), -- 2667: sbb rdx, 0x0
  .add (.reg .r8) (.reg .rdx), -- 2668: add r8, rdx
  .adc (.reg .r9) (.imm 0#64), -- 2669: adc r9, 0x0
  .mov (.reg .rdx) (.mem ⟨some .rsp, none, 216#64⟩), -- 2670: mov rdx, [rsp + (48* 4)+ 0x18]
  .xor (.reg .r10) (.reg .r10), -- 2671: xor r10d, r10d
  .mulx .rbx .rax (.mem ⟨some .rsp, none, 144#64⟩), -- 2672: mulx rbx, rax, [rsp + (48* 3)]
  .adcx .r11 (.reg .rax), -- 2673: adcx r11, rax
  .adox .r12 (.reg .rbx), -- 2674: adox r12, rbx
  .mulx .rbx .rax (.mem ⟨some .rsp, none, 152#64⟩), -- 2675: mulx rbx, rax, [rsp + (48* 3)+ 0x8]
  .adcx .r12 (.reg .rax), -- 2676: adcx r12, rax
  .adox .r13 (.reg .rbx), -- 2677: adox r13, rbx
  .mulx .rbx .rax (.mem ⟨some .rsp, none, 160#64⟩), -- 2678: mulx rbx, rax, [rsp + (48* 3)+ 0x10]
  .adcx .r13 (.reg .rax), -- 2679: adcx r13, rax
  .adox .r14 (.reg .rbx), -- 2680: adox r14, rbx
  .mulx .rbx .rax (.mem ⟨some .rsp, none, 168#64⟩), -- 2681: mulx rbx, rax, [rsp + (48* 3)+ 0x18]
  .adcx .r14 (.reg .rax), -- 2682: adcx r14, rax
  .adox .r15 (.reg .rbx), -- 2683: adox r15, rbx
  .mulx .rbx .rax (.mem ⟨some .rsp, none, 176#64⟩), -- 2684: mulx rbx, rax, [rsp + (48* 3)+ 0x20]
  .adcx .r15 (.reg .rax), -- 2685: adcx r15, rax
  .adox .r8 (.reg .rbx), -- 2686: adox r8, rbx
  .adox .r9 (.reg .r10), -- 2687: adox r9, r10
  .mulx .rbx .rax (.mem ⟨some .rsp, none, 184#64⟩), -- 2688: mulx rbx, rax, [rsp + (48* 3)+ 0x28]
  .adc (.reg .r8) (.reg .rax), -- 2689: adc r8, rax
  .adc (.reg .r9) (.reg .rbx), -- 2690: adc r9, rbx
  .adc (.reg .r10) (.reg .r10), -- 2691: adc r10, r10
  .mov (.reg .rdx) (.reg .r11), -- 2692: mov rdx, r11
  .shl (.reg .rdx) (.imm 32#64), -- 2693: shl rdx, 0x20
  .add (.reg .rdx) (.reg .r11), -- 2694: add rdx, r11
  .xor (.reg .rbp) (.reg .rbp), -- 2695: xor ebp, ebp
  .mov (.reg .rax) (.imm 0xffffffff00000001#64), -- 2696: mov rax, 0xffffffff00000001
  .mulx .rax .rbx (.reg .rax), -- 2697: mulx rax, rbx, rax
  .mov (.reg .rbx) (.imm 0xffffffff#64), -- 2698: mov ebx, 0xffffffff
  .mulx .rbx .r11 (.reg .rbx), -- 2699: mulx rbx, r11, rbx
  .adc (.reg .rax) (.reg .r11), -- 2700: adc rax, r11
  .adc (.reg .rbx) (.reg .rdx), -- 2701: adc rbx, rdx
  .adc32 .rbp .rbp, -- 2702: adc ebp, ebp
  .sub (.reg .r12) (.reg .rax), -- 2703: sub r12, rax
  .sbb (.reg .r13) (.reg .rbx), -- 2704: sbb r13, rbx
  .sbb (.reg .r14) (.reg .rbp), -- 2705: sbb r14, rbp
  .sbb (.reg .r15) (.imm 0#64), -- 2706: sbb r15, 0x0
  .sbb (.reg .r8) (.imm 0#64), -- 2707: sbb r8, 0x0
  .sbb (.reg .rdx) (.imm 0#64), -- 2708: sbb rdx, 0x0
  .add (.reg .r9) (.reg .rdx), -- 2709: add r9, rdx
  .adc (.reg .r10) (.imm 0#64), -- 2710: adc r10, 0x0
  .mov (.reg .rdx) (.mem ⟨some .rsp, none, 224#64⟩), -- 2711: mov rdx, [rsp + (48* 4)+ 0x20]
  .xor (.reg .r11) (.reg .r11), -- 2712: xor r11d, r11d
  .mulx .rbx .rax (.mem ⟨some .rsp, none, 144#64⟩), -- 2713: mulx rbx, rax, [rsp + (48* 3)]
  .adcx .r12 (.reg .rax), -- 2714: adcx r12, rax
  .adox .r13 (.reg .rbx), -- 2715: adox r13, rbx
  .mulx .rbx .rax (.mem ⟨some .rsp, none, 152#64⟩), -- 2716: mulx rbx, rax, [rsp + (48* 3)+ 0x8]
  .adcx .r13 (.reg .rax), -- 2717: adcx r13, rax
  .adox .r14 (.reg .rbx), -- 2718: adox r14, rbx
  .mulx .rbx .rax (.mem ⟨some .rsp, none, 160#64⟩), -- 2719: mulx rbx, rax, [rsp + (48* 3)+ 0x10]
  .adcx .r14 (.reg .rax), -- 2720: adcx r14, rax
  .adox .r15 (.reg .rbx), -- 2721: adox r15, rbx
  .mulx .rbx .rax (.mem ⟨some .rsp, none, 168#64⟩), -- 2722: mulx rbx, rax, [rsp + (48* 3)+ 0x18]
  .adcx .r15 (.reg .rax), -- 2723: adcx r15, rax
  .adox .r8 (.reg .rbx), -- 2724: adox r8, rbx
  .mulx .rbx .rax (.mem ⟨some .rsp, none, 176#64⟩), -- 2725: mulx rbx, rax, [rsp + (48* 3)+ 0x20]
  .adcx .r8 (.reg .rax), -- 2726: adcx r8, rax
  .adox .r9 (.reg .rbx), -- 2727: adox r9, rbx
  .adox .r10 (.reg .r11), -- 2728: adox r10, r11
  .mulx .rbx .rax (.mem ⟨some .rsp, none, 184#64⟩), -- 2729: mulx rbx, rax, [rsp + (48* 3)+ 0x28]
  .adc (.reg .r9) (.reg .rax), -- 2730: adc r9, rax
  .adc (.reg .r10) (.reg .rbx), -- 2731: adc r10, rbx
  .adc (.reg .r11) (.reg .r11), -- 2732: adc r11, r11
  .mov (.reg .rdx) (.reg .r12), -- 2733: mov rdx, r12
  .shl (.reg .rdx) (.imm 32#64), -- 2734: shl rdx, 0x20
  .add (.reg .rdx) (.reg .r12), -- 2735: add rdx, r12
  .xor (.reg .rbp) (.reg .rbp), -- 2736: xor ebp, ebp
  .mov (.reg .rax) (.imm 0xffffffff00000001#64), -- 2737: mov rax, 0xffffffff00000001
  .mulx .rax .rbx (.reg .rax), -- 2738: mulx rax, rbx, rax
  .mov (.reg .rbx) (.imm 0xffffffff#64), -- 2739: mov ebx, 0xffffffff
  .mulx .rbx .r12 (.reg .rbx), -- 2740: mulx rbx, r12, rbx
  .adc (.reg .rax) (.reg .r12), -- 2741: adc rax, r12
  .adc (.reg .rbx) (.reg .rdx), -- 2742: adc rbx, rdx
  .adc32 .rbp .rbp, -- 2743: adc ebp, ebp
  .sub (.reg .r13) (.reg .rax), -- 2744: sub r13, rax
  .sbb (.reg .r14) (.reg .rbx), -- 2745: sbb r14, rbx
  .sbb (.reg .r15) (.reg .rbp), -- 2746: sbb r15, rbp
  .sbb (.reg .r8) (.imm 0#64), -- 2747: sbb r8, 0x0
  .sbb (.reg .r9) (.imm 0#64), -- 2748: sbb r9, 0x0
  .sbb (.reg .rdx) (.imm 0#64), -- 2749: sbb rdx, 0x0
  .add (.reg .r10) (.reg .rdx), -- 2750: add r10, rdx
  .adc (.reg .r11) (.imm 0#64), -- 2751: adc r11, 0x0
  .mov (.reg .rdx) (.mem ⟨some .rsp, none, 232#64⟩), -- 2752: mov rdx, [rsp + (48* 4)+ 0x28]
  .xor (.reg .r12) (.reg .r12), -- 2753: xor r12d, r12d
  .mulx .rbx .rax (.mem ⟨some .rsp, none, 144#64⟩), -- 2754: mulx rbx, rax, [rsp + (48* 3)]
  .adcx .r13 (.reg .rax), -- 2755: adcx r13, rax
  .adox .r14 (.reg .rbx), -- 2756: adox r14, rbx
  .mulx .rbx .rax (.mem ⟨some .rsp, none, 152#64⟩), -- 2757: mulx rbx, rax, [rsp + (48* 3)+ 0x8]
  .adcx .r14 (.reg .rax), -- 2758: adcx r14, rax
  .adox .r15 (.reg .rbx), -- 2759: adox r15, rbx
  .mulx .rbx .rax (.mem ⟨some .rsp, none, 160#64⟩), -- 2760: mulx rbx, rax, [rsp + (48* 3)+ 0x10]
  .adcx .r15 (.reg .rax), -- 2761: adcx r15, rax
  .adox .r8 (.reg .rbx), -- 2762: adox r8, rbx
  .mulx .rbx .rax (.mem ⟨some .rsp, none, 168#64⟩), -- 2763: mulx rbx, rax, [rsp + (48* 3)+ 0x18]
  .adcx .r8 (.reg .rax), -- 2764: adcx r8, rax
  .adox .r9 (.reg .rbx), -- 2765: adox r9, rbx
  .mulx .rbx .rax (.mem ⟨some .rsp, none, 176#64⟩), -- 2766: mulx rbx, rax, [rsp + (48* 3)+ 0x20]
  .adcx .r9 (.reg .rax), -- 2767: adcx r9, rax
  .adox .r10 (.reg .rbx), -- 2768: adox r10, rbx
  .adox .r11 (.reg .r12), -- 2769: adox r11, r12
  .mulx .rbx .rax (.mem ⟨some .rsp, none, 184#64⟩), -- 2770: mulx rbx, rax, [rsp + (48* 3)+ 0x28]
  .adc (.reg .r10) (.reg .rax), -- 2771: adc r10, rax
  .adc (.reg .r11) (.reg .rbx), -- 2772: adc r11, rbx
  .adc (.reg .r12) (.reg .r12), -- 2773: adc r12, r12
  .mov (.reg .rdx) (.reg .r13), -- 2774: mov rdx, r13
  .shl (.reg .rdx) (.imm 32#64), -- 2775: shl rdx, 0x20
  .add (.reg .rdx) (.reg .r13), -- 2776: add rdx, r13
  .xor (.reg .rbp) (.reg .rbp), -- 2777: xor ebp, ebp
  .mov (.reg .rax) (.imm 0xffffffff00000001#64), -- 2778: mov rax, 0xffffffff00000001
  .mulx .rax .rbx (.reg .rax), -- 2779: mulx rax, rbx, rax
  .mov (.reg .rbx) (.imm 0xffffffff#64), -- 2780: mov ebx, 0xffffffff
  .mulx .rbx .r13 (.reg .rbx), -- 2781: mulx rbx, r13, rbx
  .adc (.reg .rax) (.reg .r13), -- 2782: adc rax, r13
  .adc (.reg .rbx) (.reg .rdx), -- 2783: adc rbx, rdx
  .adc32 .rbp .rbp, -- 2784: adc ebp, ebp
  .sub (.reg .r14) (.reg .rax), -- 2785: sub r14, rax
  .sbb (.reg .r15) (.reg .rbx), -- 2786: sbb r15, rbx
  .sbb (.reg .r8) (.reg .rbp), -- 2787: sbb r8, rbp
  .sbb (.reg .r9) (.imm 0#64), -- 2788: sbb r9, 0x0
  .sbb (.reg .r10) (.imm 0#64), -- 2789: sbb r10, 0x0
  .sbb (.reg .rdx) (.imm 0#64), -- 2790: sbb rdx, 0x0
  .add (.reg .r11) (.reg .rdx), -- 2791: add r11, rdx
  .adc (.reg .r12) (.imm 0#64), -- 2792: adc r12, 0x0
  .xor (.reg .rdx) (.reg .rdx), -- 2793: xor edx, edx
  .xor (.reg .rbp) (.reg .rbp), -- 2794: xor ebp, ebp
  .xor (.reg .r13) (.reg .r13), -- 2795: xor r13d, r13d
  .mov (.reg .rax) (.imm 0xffffffff00000001#64), -- 2796: mov rax, 0xffffffff00000001
  .add (.reg .rax) (.reg .r14), -- 2797: add rax, r14
  .mov (.reg .rbx) (.imm 0xffffffff#64), -- 2798: mov ebx, 0xffffffff
  .adc (.reg .rbx) (.reg .r15), -- 2799: adc rbx, r15
  .mov (.reg .rcx) (.imm 1#64), -- 2800: mov ecx, 0x1
  .adc (.reg .rcx) (.reg .r8), -- 2801: adc rcx, r8
  .adc (.reg .rdx) (.reg .r9), -- 2802: adc rdx, r9
  .adc (.reg .rbp) (.reg .r10), -- 2803: adc rbp, r10
  .adc (.reg .r13) (.reg .r11), -- 2804: adc r13, r11
  .adc (.reg .r12) (.imm 0#64), -- 2805: adc r12, 0x0
  .cmov .nz .r14 (.reg .rax), -- 2806: cmovne r14, rax
  .cmov .nz .r15 (.reg .rbx), -- 2807: cmovne r15, rbx
  .cmov .nz .r8 (.reg .rcx), -- 2808: cmovne r8, rcx
  .cmov .nz .r9 (.reg .rdx), -- 2809: cmovne r9, rdx
  .cmov .nz .r10 (.reg .rbp), -- 2810: cmovne r10, rbp
  .cmov .nz .r11 (.reg .r13), -- 2811: cmovne r11, r13
  .mov (.mem ⟨some .rsp, none, 192#64⟩) (.reg .r14), -- 2812: mov [rsp + (48* 4)], r14
  .mov (.mem ⟨some .rsp, none, 200#64⟩) (.reg .r15), -- 2813: mov [rsp + (48* 4)+ 0x8], r15
  .mov (.mem ⟨some .rsp, none, 208#64⟩) (.reg .r8), -- 2814: mov [rsp + (48* 4)+ 0x10], r8
  .mov (.mem ⟨some .rsp, none, 216#64⟩) (.reg .r9), -- 2815: mov [rsp + (48* 4)+ 0x18], r9
  .mov (.mem ⟨some .rsp, none, 224#64⟩) (.reg .r10), -- 2816: mov [rsp + (48* 4)+ 0x20], r10
  .mov (.mem ⟨some .rsp, none, 232#64⟩) (.reg .r11), -- 2817: mov [rsp + (48* 4)+ 0x28], r11
  .mov (.reg .rdx) (.mem ⟨some .rsp, none, 96#64⟩), -- 2818: mov rdx, [rsp + (48* 2)]
  .xor (.reg .r15) (.reg .r15), -- 2819: xor r15d, r15d
  .mulx .r9 .r8 (.mem ⟨some .rsp, none, 144#64⟩), -- 2820: mulx r9, r8, [rsp + (48* 3)]
  .mulx .r10 .rbx (.mem ⟨some .rsp, none, 152#64⟩), -- 2821: mulx r10, rbx, [rsp + (48* 3)+ 0x8]
  .add (.reg .r9) (.reg .rbx), -- 2822: add r9, rbx
  .mulx .r11 .rbx (.mem ⟨some .rsp, none, 160#64⟩), -- 2823: mulx r11, rbx, [rsp + (48* 3)+ 0x10]
  .adc (.reg .r10) (.reg .rbx), -- 2824: adc r10, rbx
  .mulx .r12 .rbx (.mem ⟨some .rsp, none, 168#64⟩), -- 2825: mulx r12, rbx, [rsp + (48* 3)+ 0x18]
  .adc (.reg .r11) (.reg .rbx), -- 2826: adc r11, rbx
  .mulx .r13 .rbx (.mem ⟨some .rsp, none, 176#64⟩), -- 2827: mulx r13, rbx, [rsp + (48* 3)+ 0x20]
  .adc (.reg .r12) (.reg .rbx), -- 2828: adc r12, rbx
  .mulx .r14 .rbx (.mem ⟨some .rsp, none, 184#64⟩), -- 2829: mulx r14, rbx, [rsp + (48* 3)+ 0x28]
  .adc (.reg .r13) (.reg .rbx), -- 2830: adc r13, rbx
  .adc (.reg .r14) (.reg .r15), -- 2831: adc r14, r15
  .mov (.reg .rdx) (.reg .r8), -- 2832: mov rdx, r8
  .shl (.reg .rdx) (.imm 32#64), -- 2833: shl rdx, 0x20
  .add (.reg .rdx) (.reg .r8), -- 2834: add rdx, r8
  .xor (.reg .rbp) (.reg .rbp), -- 2835: xor ebp, ebp
  .mov (.reg .rax) (.imm 0xffffffff00000001#64), -- 2836: mov rax, 0xffffffff00000001
  .mulx .rax .rbx (.reg .rax), -- 2837: mulx rax, rbx, rax
  .mov (.reg .rbx) (.imm 0xffffffff#64), -- 2838: mov ebx, 0xffffffff
  .mulx .rbx .r8 (.reg .rbx), -- 2839: mulx rbx, r8, rbx
  .adc (.reg .rax) (.reg .r8), -- 2840: adc rax, r8
  .adc (.reg .rbx) (.reg .rdx), -- 2841: adc rbx, rdx
  .adc32 .rbp .rbp, -- 2842: adc ebp, ebp
  .sub (.reg .r9) (.reg .rax), -- 2843: sub r9, rax
  .sbb (.reg .r10) (.reg .rbx), -- 2844: sbb r10, rbx
  .sbb (.reg .r11) (.reg .rbp), -- 2845: sbb r11, rbp
  .sbb (.reg .r12) (.imm 0#64), -- 2846: sbb r12, 0x0
  .sbb (.reg .r13) (.imm 0#64), -- 2847: sbb r13, 0x0
  .sbb (.reg .rdx) (.imm 0#64), -- 2848: sbb rdx, 0x0
  .add (.reg .r14) (.reg .rdx), -- 2849: add r14, rdx
  .adc (.reg .r15) (.imm 0#64), -- 2850: adc r15, 0x0
  .mov (.reg .rdx) (.mem ⟨some .rsp, none, 104#64⟩), -- 2851: mov rdx, [rsp + (48* 2)+ 0x8]
  .xor (.reg .r8) (.reg .r8), -- 2852: xor r8d, r8d
  .mulx .rbx .rax (.mem ⟨some .rsp, none, 144#64⟩), -- 2853: mulx rbx, rax, [rsp + (48* 3)]
  .adcx .r9 (.reg .rax), -- 2854: adcx r9, rax
  .adox .r10 (.reg .rbx), -- 2855: adox r10, rbx
  .mulx .rbx .rax (.mem ⟨some .rsp, none, 152#64⟩), -- 2856: mulx rbx, rax, [rsp + (48* 3)+ 0x8]
  .adcx .r10 (.reg .rax), -- 2857: adcx r10, rax
  .adox .r11 (.reg .rbx), -- 2858: adox r11, rbx
  .mulx .rbx .rax (.mem ⟨some .rsp, none, 160#64⟩), -- 2859: mulx rbx, rax, [rsp + (48* 3)+ 0x10]
  .adcx .r11 (.reg .rax), -- 2860: adcx r11, rax
  .adox .r12 (.reg .rbx), -- 2861: adox r12, rbx
  .mulx .rbx .rax (.mem ⟨some .rsp, none, 168#64⟩), -- 2862: mulx rbx, rax, [rsp + (48* 3)+ 0x18]
  .adcx .r12 (.reg .rax), -- 2863: adcx r12, rax
  .adox .r13 (.reg .rbx), -- 2864: adox r13, rbx
  .mulx .rbx .rax (.mem ⟨some .rsp, none, 176#64⟩), -- 2865: mulx rbx, rax, [rsp + (48* 3)+ 0x20]
  .adcx .r13 (.reg .rax), -- 2866: adcx r13, rax
  .adox .r14 (.reg .rbx), -- 2867: adox r14, rbx
  .adox .r15 (.reg .r8), -- 2868: adox r15, r8
  .mulx .rbx .rax (.mem ⟨some .rsp, none, 184#64⟩), -- 2869: mulx rbx, rax, [rsp + (48* 3)+ 0x28]
  .adc (.reg .r14) (.reg .rax), -- 2870: adc r14, rax
  .adc (.reg .r15) (.reg .rbx), -- 2871: adc r15, rbx
  .adc (.reg .r8) (.reg .r8), -- 2872: adc r8, r8
  .mov (.reg .rdx) (.reg .r9), -- 2873: mov rdx, r9
  .shl (.reg .rdx) (.imm 32#64), -- 2874: shl rdx, 0x20
  .add (.reg .rdx) (.reg .r9), -- 2875: add rdx, r9
  .xor (.reg .rbp) (.reg .rbp), -- 2876: xor ebp, ebp
  .mov (.reg .rax) (.imm 0xffffffff00000001#64), -- 2877: mov rax, 0xffffffff00000001
  .mulx .rax .rbx (.reg .rax), -- 2878: mulx rax, rbx, rax
  .mov (.reg .rbx) (.imm 0xffffffff#64), -- 2879: mov ebx, 0xffffffff
  .mulx .rbx .r9 (.reg .rbx), -- 2880: mulx rbx, r9, rbx
  .adc (.reg .rax) (.reg .r9), -- 2881: adc rax, r9
  .adc (.reg .rbx) (.reg .rdx), -- 2882: adc rbx, rdx
  .adc32 .rbp .rbp, -- 2883: adc ebp, ebp
  .sub (.reg .r10) (.reg .rax), -- 2884: sub r10, rax
  .sbb (.reg .r11) (.reg .rbx), -- 2885: sbb r11, rbx
  .sbb (.reg .r12) (.reg .rbp), -- 2886: sbb r12, rbp
  .sbb (.reg .r13) (.imm 0#64), -- 2887: sbb r13, 0x0
  .sbb (.reg .r14) (.imm 0#64), -- 2888: sbb r14, 0x0
  .sbb (.reg .rdx) (.imm 0#64), -- 2889: sbb rdx, 0x0
  .add (.reg .r15) (.reg .rdx), -- 2890: add r15, rdx
  .adc (.reg .r8) (.imm 0#64), -- 2891: adc r8, 0x0
  .mov (.reg .rdx) (.mem ⟨some .rsp, none, 112#64⟩), -- 2892: mov rdx, [rsp + (48* 2)+ 0x10]
  .xor (.reg .r9) (.reg .r9), -- 2893: xor r9d, r9d
  .mulx .rbx .rax (.mem ⟨some .rsp, none, 144#64⟩), -- 2894: mulx rbx, rax, [rsp + (48* 3)]
  .adcx .r10 (.reg .rax), -- 2895: adcx r10, rax
  .adox .r11 (.reg .rbx), -- 2896: adox r11, rbx
  .mulx .rbx .rax (.mem ⟨some .rsp, none, 152#64⟩), -- 2897: mulx rbx, rax, [rsp + (48* 3)+ 0x8]
  .adcx .r11 (.reg .rax), -- 2898: adcx r11, rax
  .adox .r12 (.reg .rbx), -- 2899: adox r12, rbx
  .mulx .rbx .rax (.mem ⟨some .rsp, none, 160#64⟩), -- 2900: mulx rbx, rax, [rsp + (48* 3)+ 0x10]
  .adcx .r12 (.reg .rax), -- 2901: adcx r12, rax
  .adox .r13 (.reg .rbx), -- 2902: adox r13, rbx
  .mulx .rbx .rax (.mem ⟨some .rsp, none, 168#64⟩), -- 2903: mulx rbx, rax, [rsp + (48* 3)+ 0x18]
  .adcx .r13 (.reg .rax), -- 2904: adcx r13, rax
  .adox .r14 (.reg .rbx), -- 2905: adox r14, rbx
  .mulx .rbx .rax (.mem ⟨some .rsp, none, 176#64⟩), -- 2906: mulx rbx, rax, [rsp + (48* 3)+ 0x20]
  .adcx .r14 (.reg .rax), -- 2907: adcx r14, rax
  .adox .r15 (.reg .rbx), -- 2908: adox r15, rbx
  .adox .r8 (.reg .r9), -- 2909: adox r8, r9
  .mulx .rbx .rax (.mem ⟨some .rsp, none, 184#64⟩), -- 2910: mulx rbx, rax, [rsp + (48* 3)+ 0x28]
  .adc (.reg .r15) (.reg .rax), -- 2911: adc r15, rax
  .adc (.reg .r8) (.reg .rbx), -- 2912: adc r8, rbx
  .adc (.reg .r9) (.reg .r9), -- 2913: adc r9, r9
  .mov (.reg .rdx) (.reg .r10), -- 2914: mov rdx, r10
  .shl (.reg .rdx) (.imm 32#64), -- 2915: shl rdx, 0x20
  .add (.reg .rdx) (.reg .r10), -- 2916: add rdx, r10
  .xor (.reg .rbp) (.reg .rbp), -- 2917: xor ebp, ebp
  .mov (.reg .rax) (.imm 0xffffffff00000001#64), -- 2918: mov rax, 0xffffffff00000001
  .mulx .rax .rbx (.reg .rax), -- 2919: mulx rax, rbx, rax
  .mov (.reg .rbx) (.imm 0xffffffff#64), -- 2920: mov ebx, 0xffffffff
  .mulx .rbx .r10 (.reg .rbx), -- 2921: mulx rbx, r10, rbx
  .adc (.reg .rax) (.reg .r10), -- 2922: adc rax, r10
  .adc (.reg .rbx) (.reg .rdx), -- 2923: adc rbx, rdx
  .adc32 .rbp .rbp, -- 2924: adc ebp, ebp
  .sub (.reg .r11) (.reg .rax), -- 2925: sub r11, rax
  .sbb (.reg .r12) (.reg .rbx), -- 2926: sbb r12, rbx
  .sbb (.reg .r13) (.reg .rbp), -- 2927: sbb r13, rbp
  .sbb (.reg .r14) (.imm 0#64), -- 2928: sbb r14, 0x0
  .sbb (.reg .r15) (.imm 0#64), -- 2929: sbb r15, 0x0
  .sbb (.reg .rdx) (.imm 0#64), -- 2930: sbb rdx, 0x0
  .add (.reg .r8) (.reg .rdx), -- 2931: add r8, rdx
  .adc (.reg .r9) (.imm 0#64), -- 2932: adc r9, 0x0
  .mov (.reg .rdx) (.mem ⟨some .rsp, none, 120#64⟩), -- 2933: mov rdx, [rsp + (48* 2)+ 0x18]
  .xor (.reg .r10) (.reg .r10), -- 2934: xor r10d, r10d
  .mulx .rbx .rax (.mem ⟨some .rsp, none, 144#64⟩), -- 2935: mulx rbx, rax, [rsp + (48* 3)]
  .adcx .r11 (.reg .rax), -- 2936: adcx r11, rax
  .adox .r12 (.reg .rbx), -- 2937: adox r12, rbx
  .mulx .rbx .rax (.mem ⟨some .rsp, none, 152#64⟩), -- 2938: mulx rbx, rax, [rsp + (48* 3)+ 0x8]
  .adcx .r12 (.reg .rax), -- 2939: adcx r12, rax
  .adox .r13 (.reg .rbx), -- 2940: adox r13, rbx
  .mulx .rbx .rax (.mem ⟨some .rsp, none, 160#64⟩), -- 2941: mulx rbx, rax, [rsp + (48* 3)+ 0x10]
  .adcx .r13 (.reg .rax), -- 2942: adcx r13, rax
  .adox .r14 (.reg .rbx), -- 2943: adox r14, rbx
  .mulx .rbx .rax (.mem ⟨some .rsp, none, 168#64⟩), -- 2944: mulx rbx, rax, [rsp + (48* 3)+ 0x18]
  .adcx .r14 (.reg .rax), -- 2945: adcx r14, rax
  .adox .r15 (.reg .rbx), -- 2946: adox r15, rbx
  .mulx .rbx .rax (.mem ⟨some .rsp, none, 176#64⟩), -- 2947: mulx rbx, rax, [rsp + (48* 3)+ 0x20]
  .adcx .r15 (.reg .rax), -- 2948: adcx r15, rax
  .adox .r8 (.reg .rbx), -- 2949: adox r8, rbx
  .adox .r9 (.reg .r10), -- 2950: adox r9, r10
  .mulx .rbx .rax (.mem ⟨some .rsp, none, 184#64⟩), -- 2951: mulx rbx, rax, [rsp + (48* 3)+ 0x28]
  .adc (.reg .r8) (.reg .rax), -- 2952: adc r8, rax
  .adc (.reg .r9) (.reg .rbx), -- 2953: adc r9, rbx
  .adc (.reg .r10) (.reg .r10), -- 2954: adc r10, r10
  .mov (.reg .rdx) (.reg .r11), -- 2955: mov rdx, r11
  .shl (.reg .rdx) (.imm 32#64), -- 2956: shl rdx, 0x20
  .add (.reg .rdx) (.reg .r11), -- 2957: add rdx, r11
  .xor (.reg .rbp) (.reg .rbp), -- 2958: xor ebp, ebp
  .mov (.reg .rax) (.imm 0xffffffff00000001#64), -- 2959: mov rax, 0xffffffff00000001
  .mulx .rax .rbx (.reg .rax), -- 2960: mulx rax, rbx, rax
  .mov (.reg .rbx) (.imm 0xffffffff#64), -- 2961: mov ebx, 0xffffffff
  .mulx .rbx .r11 (.reg .rbx), -- 2962: mulx rbx, r11, rbx
  .adc (.reg .rax) (.reg .r11), -- 2963: adc rax, r11
  .adc (.reg .rbx) (.reg .rdx), -- 2964: adc rbx, rdx
  .adc32 .rbp .rbp, -- 2965: adc ebp, ebp
  .sub (.reg .r12) (.reg .rax), -- 2966: sub r12, rax
  .sbb (.reg .r13) (.reg .rbx), -- 2967: sbb r13, rbx
  .sbb (.reg .r14) (.reg .rbp), -- 2968: sbb r14, rbp
  .sbb (.reg .r15) (.imm 0#64), -- 2969: sbb r15, 0x0
  .sbb (.reg .r8) (.imm 0#64), -- 2970: sbb r8, 0x0
  .sbb (.reg .rdx) (.imm 0#64), -- 2971: sbb rdx, 0x0
  .add (.reg .r9) (.reg .rdx), -- 2972: add r9, rdx
  .adc (.reg .r10) (.imm 0#64), -- 2973: adc r10, 0x0
  .mov (.reg .rdx) (.mem ⟨some .rsp, none, 128#64⟩), -- 2974: mov rdx, [rsp + (48* 2)+ 0x20]
  .xor (.reg .r11) (.reg .r11), -- 2975: xor r11d, r11d
  .mulx .rbx .rax (.mem ⟨some .rsp, none, 144#64⟩), -- 2976: mulx rbx, rax, [rsp + (48* 3)]
  .adcx .r12 (.reg .rax), -- 2977: adcx r12, rax
  .adox .r13 (.reg .rbx), -- 2978: adox r13, rbx
  .mulx .rbx .rax (.mem ⟨some .rsp, none, 152#64⟩), -- 2979: mulx rbx, rax, [rsp + (48* 3)+ 0x8]
  .adcx .r13 (.reg .rax), -- 2980: adcx r13, rax
  .adox .r14 (.reg .rbx), -- 2981: adox r14, rbx
  .mulx .rbx .rax (.mem ⟨some .rsp, none, 160#64⟩), -- 2982: mulx rbx, rax, [rsp + (48* 3)+ 0x10]
  .adcx .r14 (.reg .rax), -- 2983: adcx r14, rax
  .adox .r15 (.reg .rbx), -- 2984: adox r15, rbx
  .mulx .rbx .rax (.mem ⟨some .rsp, none, 168#64⟩), -- 2985: mulx rbx, rax, [rsp + (48* 3)+ 0x18]
  .adcx .r15 (.reg .rax), -- 2986: adcx r15, rax
  .adox .r8 (.reg .rbx), -- 2987: adox r8, rbx
  .mulx .rbx .rax (.mem ⟨some .rsp, none, 176#64⟩), -- 2988: mulx rbx, rax, [rsp + (48* 3)+ 0x20]
  .adcx .r8 (.reg .rax), -- 2989: adcx r8, rax
  .adox .r9 (.reg .rbx), -- 2990: adox r9, rbx
  .adox .r10 (.reg .r11), -- 2991: adox r10, r11
  .mulx .rbx .rax (.mem ⟨some .rsp, none, 184#64⟩), -- 2992: mulx rbx, rax, [rsp + (48* 3)+ 0x28]
  .adc (.reg .r9) (.reg .rax), -- 2993: adc r9, rax
  .adc (.reg .r10) (.reg .rbx), -- 2994: adc r10, rbx
  .adc (.reg .r11) (.reg .r11), -- 2995: adc r11, r11
  .mov (.reg .rdx) (.reg .r12), -- 2996: mov rdx, r12
  .shl (.reg .rdx) (.imm 32#64), -- 2997: shl rdx, 0x20
  .add (.reg .rdx) (.reg .r12), -- 2998: add rdx, r12
  .xor (.reg .rbp) (.reg .rbp), -- 2999: xor ebp, ebp
  .mov (.reg .rax) (.imm 0xffffffff00000001#64), -- 3000: mov rax, 0xffffffff00000001
  .mulx .rax .rbx (.reg .rax), -- 3001: mulx rax, rbx, rax
  .mov (.reg .rbx) (.imm 0xffffffff#64), -- 3002: mov ebx, 0xffffffff
  .mulx .rbx .r12 (.reg .rbx), -- 3003: mulx rbx, r12, rbx
  .adc (.reg .rax) (.reg .r12), -- 3004: adc rax, r12
  .adc (.reg .rbx) (.reg .rdx), -- 3005: adc rbx, rdx
  .adc32 .rbp .rbp, -- 3006: adc ebp, ebp
  .sub (.reg .r13) (.reg .rax), -- 3007: sub r13, rax
  .sbb (.reg .r14) (.reg .rbx), -- 3008: sbb r14, rbx
  .sbb (.reg .r15) (.reg .rbp), -- 3009: sbb r15, rbp
  .sbb (.reg .r8) (.imm 0#64), -- 3010: sbb r8, 0x0
  .sbb (.reg .r9) (.imm 0#64), -- 3011: sbb r9, 0x0
  .sbb (.reg .rdx) (.imm 0#64), -- 3012: sbb rdx, 0x0
  .add (.reg .r10) (.reg .rdx), -- 3013: add r10, rdx
  .adc (.reg .r11) (.imm 0#64), -- 3014: adc r11, 0x0
  .mov (.reg .rdx) (.mem ⟨some .rsp, none, 136#64⟩), -- 3015: mov rdx, [rsp + (48* 2)+ 0x28]
  .xor (.reg .r12) (.reg .r12), -- 3016: xor r12d, r12d
  .mulx .rbx .rax (.mem ⟨some .rsp, none, 144#64⟩), -- 3017: mulx rbx, rax, [rsp + (48* 3)]
  .adcx .r13 (.reg .rax), -- 3018: adcx r13, rax
  .adox .r14 (.reg .rbx), -- 3019: adox r14, rbx
  .mulx .rbx .rax (.mem ⟨some .rsp, none, 152#64⟩), -- 3020: mulx rbx, rax, [rsp + (48* 3)+ 0x8]
  .adcx .r14 (.reg .rax), -- 3021: adcx r14, rax
  .adox .r15 (.reg .rbx), -- 3022: adox r15, rbx
  .mulx .rbx .rax (.mem ⟨some .rsp, none, 160#64⟩), -- 3023: mulx rbx, rax, [rsp + (48* 3)+ 0x10]
  .adcx .r15 (.reg .rax), -- 3024: adcx r15, rax
  .adox .r8 (.reg .rbx), -- 3025: adox r8, rbx
  .mulx .rbx .rax (.mem ⟨some .rsp, none, 168#64⟩), -- 3026: mulx rbx, rax, [rsp + (48* 3)+ 0x18]
  .adcx .r8 (.reg .rax), -- 3027: adcx r8, rax
  .adox .r9 (.reg .rbx), -- 3028: adox r9, rbx
  .mulx .rbx .rax (.mem ⟨some .rsp, none, 176#64⟩), -- 3029: mulx rbx, rax, [rsp + (48* 3)+ 0x20]
  .adcx .r9 (.reg .rax), -- 3030: adcx r9, rax
  .adox .r10 (.reg .rbx), -- 3031: adox r10, rbx
  .adox .r11 (.reg .r12), -- 3032: adox r11, r12
  .mulx .rbx .rax (.mem ⟨some .rsp, none, 184#64⟩), -- 3033: mulx rbx, rax, [rsp + (48* 3)+ 0x28]
  .adc (.reg .r10) (.reg .rax), -- 3034: adc r10, rax
  .adc (.reg .r11) (.reg .rbx), -- 3035: adc r11, rbx
  .adc (.reg .r12) (.reg .r12), -- 3036: adc r12, r12
  .mov (.reg .rdx) (.reg .r13), -- 3037: mov rdx, r13
  .shl (.reg .rdx) (.imm 32#64), -- 3038: shl rdx, 0x20
  .add (.reg .rdx) (.reg .r13), -- 3039: add rdx, r13
  .xor (.reg .rbp) (.reg .rbp), -- 3040: xor ebp, ebp
  .mov (.reg .rax) (.imm 0xffffffff00000001#64), -- 3041: mov rax, 0xffffffff00000001
  .mulx .rax .rbx (.reg .rax), -- 3042: mulx rax, rbx, rax
  .mov (.reg .rbx) (.imm 0xffffffff#64), -- 3043: mov ebx, 0xffffffff
  .mulx .rbx .r13 (.reg .rbx), -- 3044: mulx rbx, r13, rbx
  .adc (.reg .rax) (.reg .r13), -- 3045: adc rax, r13
  .adc (.reg .rbx) (.reg .rdx), -- 3046: adc rbx, rdx
  .adc32 .rbp .rbp, -- 3047: adc ebp, ebp
  .sub (.reg .r14) (.reg .rax), -- 3048: sub r14, rax
  .sbb (.reg .r15) (.reg .rbx), -- 3049: sbb r15, rbx
  .sbb (.reg .r8) (.reg .rbp), -- 3050: sbb r8, rbp
  .sbb (.reg .r9) (.imm 0#64), -- 3051: sbb r9, 0x0
  .sbb (.reg .r10) (.imm 0#64), -- 3052: sbb r10, 0x0
  .sbb (.reg .rdx) (.imm 0#64), -- 3053: sbb rdx, 0x0
  .add (.reg .r11) (.reg .rdx), -- 3054: add r11, rdx
  .adc (.reg .r12) (.imm 0#64), -- 3055: adc r12, 0x0
  .xor (.reg .rdx) (.reg .rdx), -- 3056: xor edx, edx
  .xor (.reg .rbp) (.reg .rbp), -- 3057: xor ebp, ebp
  .xor (.reg .r13) (.reg .r13), -- 3058: xor r13d, r13d
  .mov (.reg .rax) (.imm 0xffffffff00000001#64), -- 3059: mov rax, 0xffffffff00000001
  .add (.reg .rax) (.reg .r14), -- 3060: add rax, r14
  .mov (.reg .rbx) (.imm 0xffffffff#64), -- 3061: mov ebx, 0xffffffff
  .adc (.reg .rbx) (.reg .r15), -- 3062: adc rbx, r15
  .mov (.reg .rcx) (.imm 1#64), -- 3063: mov ecx, 0x1
  .adc (.reg .rcx) (.reg .r8), -- 3064: adc rcx, r8
  .adc (.reg .rdx) (.reg .r9), -- 3065: adc rdx, r9
  .adc (.reg .rbp) (.reg .r10), -- 3066: adc rbp, r10
  .adc (.reg .r13) (.reg .r11), -- 3067: adc r13, r11
  .adc (.reg .r12) (.imm 0#64), -- 3068: adc r12, 0x0
  .cmov .nz .r14 (.reg .rax), -- 3069: cmovne r14, rax
  .cmov .nz .r15 (.reg .rbx), -- 3070: cmovne r15, rbx
  .cmov .nz .r8 (.reg .rcx), -- 3071: cmovne r8, rcx
  .cmov .nz .r9 (.reg .rdx), -- 3072: cmovne r9, rdx
  .cmov .nz .r10 (.reg .rbp), -- 3073: cmovne r10, rbp
  .cmov .nz .r11 (.reg .r13), -- 3074: cmovne r11, r13
  .mov (.mem ⟨some .rsp, none, 96#64⟩) (.reg .r14), -- 3075: mov [rsp + (48* 2)], r14
  .mov (.mem ⟨some .rsp, none, 104#64⟩) (.reg .r15), -- 3076: mov [rsp + (48* 2)+ 0x8], r15
  .mov (.mem ⟨some .rsp, none, 112#64⟩) (.reg .r8), -- 3077: mov [rsp + (48* 2)+ 0x10], r8
  .mov (.mem ⟨some .rsp, none, 120#64⟩) (.reg .r9), -- 3078: mov [rsp + (48* 2)+ 0x18], r9
  .mov (.mem ⟨some .rsp, none, 128#64⟩) (.reg .r10), -- 3079: mov [rsp + (48* 2)+ 0x20], r10
  .mov (.mem ⟨some .rsp, none, 136#64⟩) (.reg .r11), -- 3080: mov [rsp + (48* 2)+ 0x28], r11
  .mov (.reg .rax) (.mem ⟨some .rsp, none, 0#64⟩), -- 3081: mov rax, [rsp + (48* 0)]
  .sub (.reg .rax) (.mem ⟨some .rsp, none, 192#64⟩), -- 3082: sub rax, [rsp + (48* 4)]
  .mov (.reg .rdx) (.mem ⟨some .rsp, none, 8#64⟩), -- 3083: mov rdx, [rsp + (48* 0)+ 0x8]
  .sbb (.reg .rdx) (.mem ⟨some .rsp, none, 200#64⟩), -- 3084: sbb rdx, [rsp + (48* 4)+ 0x8]
  .mov (.reg .r8) (.mem ⟨some .rsp, none, 16#64⟩), -- 3085: mov r8, [rsp + (48* 0)+ 0x10]
  .sbb (.reg .r8) (.mem ⟨some .rsp, none, 208#64⟩), -- 3086: sbb r8, [rsp + (48* 4)+ 0x10]
  .mov (.reg .r9) (.mem ⟨some .rsp, none, 24#64⟩), -- 3087: mov r9, [rsp + (48* 0)+ 0x18]
  .sbb (.reg .r9) (.mem ⟨some .rsp, none, 216#64⟩), -- 3088: sbb r9, [rsp + (48* 4)+ 0x18]
  .mov (.reg .r10) (.mem ⟨some .rsp, none, 32#64⟩), -- 3089: mov r10, [rsp + (48* 0)+ 0x20]
  .sbb (.reg .r10) (.mem ⟨some .rsp, none, 224#64⟩), -- 3090: sbb r10, [rsp + (48* 4)+ 0x20]
  .mov (.reg .r11) (.mem ⟨some .rsp, none, 40#64⟩), -- 3091: mov r11, [rsp + (48* 0)+ 0x28]
  .sbb (.reg .r11) (.mem ⟨some .rsp, none, 232#64⟩), -- 3092: sbb r11, [rsp + (48* 4)+ 0x28]
  .sbb (.reg .rcx) (.reg .rcx), -- 3093: sbb rcx, rcx
  .mov (.reg .rsi) (.imm 0xffffffff#64), -- 3094: mov esi, 0xffffffff
  .and (.reg .rcx) (.reg .rsi), -- 3095: and rcx, rsi
  .xor (.reg .rsi) (.reg .rsi), -- 3096: xor rsi, rsi
  .sub (.reg .rsi) (.reg .rcx), -- 3097: sub rsi, rcx
  .sub (.reg .rax) (.reg .rsi), -- 3098: sub rax, rsi
  .mov (.mem ⟨some .rsp, none, 0#64⟩) (.reg .rax), -- 3099: mov [rsp + (48* 0)], rax
  .sbb (.reg .rdx) (.reg .rcx), -- 3100: sbb rdx, rcx
  .mov (.mem ⟨some .rsp, none, 8#64⟩) (.reg .rdx), -- 3101: mov [rsp + (48* 0)+ 0x8], rdx
  .sbb (.reg .rax) (.reg .rax), -- 3102: sbb rax, rax
  .and (.reg .rcx) (.reg .rsi), -- 3103: and rcx, rsi
  .neg (.reg .rax), -- 3104: neg rax
  .sbb (.reg .r8) (.reg .rcx), -- 3105: sbb r8, rcx
  .mov (.mem ⟨some .rsp, none, 16#64⟩) (.reg .r8), -- 3106: mov [rsp + (48* 0)+ 0x10], r8
  .sbb (.reg .r9) (.imm 0#64), -- 3107: sbb r9, 0x0
  .mov (.mem ⟨some .rsp, none, 24#64⟩) (.reg .r9), -- 3108: mov [rsp + (48* 0)+ 0x18], r9
  .sbb (.reg .r10) (.imm 0#64), -- 3109: sbb r10, 0x0
  .mov (.mem ⟨some .rsp, none, 32#64⟩) (.reg .r10), -- 3110: mov [rsp + (48* 0)+ 0x20], r10
  .sbb (.reg .r11) (.imm 0#64), -- 3111: sbb r11, 0x0
  .mov (.mem ⟨some .rsp, none, 40#64⟩) (.reg .r11), -- 3112: mov [rsp + (48* 0)+ 0x28], r11
  .mov (.reg .rax) (.mem ⟨some .rsp, none, 96#64⟩), -- 3113: mov rax, [rsp + (48* 2)]
  .sub (.reg .rax) (.mem ⟨some .rsp, none, 192#64⟩), -- 3114: sub rax, [rsp + (48* 4)]
  .mov (.reg .rdx) (.mem ⟨some .rsp, none, 104#64⟩), -- 3115: mov rdx, [rsp + (48* 2)+ 0x8]
  .sbb (.reg .rdx) (.mem ⟨some .rsp, none, 200#64⟩), -- 3116: sbb rdx, [rsp + (48* 4)+ 0x8]
  .mov (.reg .r8) (.mem ⟨some .rsp, none, 112#64⟩), -- 3117: mov r8, [rsp + (48* 2)+ 0x10]
  .sbb (.reg .r8) (.mem ⟨some .rsp, none, 208#64⟩), -- 3118: sbb r8, [rsp + (48* 4)+ 0x10]
  .mov (.reg .r9) (.mem ⟨some .rsp, none, 120#64⟩), -- 3119: mov r9, [rsp + (48* 2)+ 0x18]
  .sbb (.reg .r9) (.mem ⟨some .rsp, none, 216#64⟩), -- 3120: sbb r9, [rsp + (48* 4)+ 0x18]
  .mov (.reg .r10) (.mem ⟨some .rsp, none, 128#64⟩), -- 3121: mov r10, [rsp + (48* 2)+ 0x20]
  .sbb (.reg .r10) (.mem ⟨some .rsp, none, 224#64⟩), -- 3122: sbb r10, [rsp + (48* 4)+ 0x20]
  .mov (.reg .r11) (.mem ⟨some .rsp, none, 136#64⟩), -- 3123: mov r11, [rsp + (48* 2)+ 0x28]
  .sbb (.reg .r11) (.mem ⟨some .rsp, none, 232#64⟩), -- 3124: sbb r11, [rsp + (48* 4)+ 0x28]
  .sbb (.reg .rcx) (.reg .rcx), -- 3125: sbb rcx, rcx
  .mov (.reg .rsi) (.imm 0xffffffff#64), -- 3126: mov esi, 0xffffffff
  .and (.reg .rcx) (.reg .rsi), -- 3127: and rcx, rsi
  .xor (.reg .rsi) (.reg .rsi), -- 3128: xor rsi, rsi
  .sub (.reg .rsi) (.reg .rcx), -- 3129: sub rsi, rcx
  .sub (.reg .rax) (.reg .rsi), -- 3130: sub rax, rsi
  .mov (.mem ⟨some .rsp, none, 144#64⟩) (.reg .rax), -- 3131: mov [rsp + (48* 3)], rax
  .sbb (.reg .rdx) (.reg .rcx), -- 3132: sbb rdx, rcx
  .mov (.mem ⟨some .rsp, none, 152#64⟩) (.reg .rdx), -- 3133: mov [rsp + (48* 3)+ 0x8], rdx
  .sbb (.reg .rax) (.reg .rax), -- 3134: sbb rax, rax
  .and (.reg .rcx) (.reg .rsi), -- 3135: and rcx, rsi
  .neg (.reg .rax), -- 3136: neg rax
  .sbb (.reg .r8) (.reg .rcx), -- 3137: sbb r8, rcx
  .mov (.mem ⟨some .rsp, none, 160#64⟩) (.reg .r8), -- 3138: mov [rsp + (48* 3)+ 0x10], r8
  .sbb (.reg .r9) (.imm 0#64), -- 3139: sbb r9, 0x0
  .mov (.mem ⟨some .rsp, none, 168#64⟩) (.reg .r9), -- 3140: mov [rsp + (48* 3)+ 0x18], r9
  .sbb (.reg .r10) (.imm 0#64), -- 3141: sbb r10, 0x0
  .mov (.mem ⟨some .rsp, none, 176#64⟩) (.reg .r10), -- 3142: mov [rsp + (48* 3)+ 0x20], r10
  .sbb (.reg .r11) (.imm 0#64), -- 3143: sbb r11, 0x0
  .mov (.mem ⟨some .rsp, none, 184#64⟩) (.reg .r11), -- 3144: mov [rsp + (48* 3)+ 0x28], r11
  .mov (.reg .rsi) (.mem ⟨some .rsp, none, 336#64⟩), -- 3145: mov rsi, [rsp + (48* 7)]
  .mov (.reg .rdx) (.mem ⟨some .rsi, none, 96#64⟩), -- 3146: mov rdx, [rsi + (2 * 48)]
  .xor (.reg .r15) (.reg .r15), -- 3147: xor r15d, r15d
  .mulx .r9 .r8 (.mem ⟨some .rsp, none, 240#64⟩), -- 3148: mulx r9, r8, [rsp + (48* 5)]
  .mulx .r10 .rbx (.mem ⟨some .rsp, none, 248#64⟩), -- 3149: mulx r10, rbx, [rsp + (48* 5)+ 0x8]
  .add (.reg .r9) (.reg .rbx), -- 3150: add r9, rbx
  .mulx .r11 .rbx (.mem ⟨some .rsp, none, 256#64⟩), -- 3151: mulx r11, rbx, [rsp + (48* 5)+ 0x10]
  .adc (.reg .r10) (.reg .rbx), -- 3152: adc r10, rbx
  .mulx .r12 .rbx (.mem ⟨some .rsp, none, 264#64⟩), -- 3153: mulx r12, rbx, [rsp + (48* 5)+ 0x18]
  .adc (.reg .r11) (.reg .rbx), -- 3154: adc r11, rbx
  .mulx .r13 .rbx (.mem ⟨some .rsp, none, 272#64⟩), -- 3155: mulx r13, rbx, [rsp + (48* 5)+ 0x20]
  .adc (.reg .r12) (.reg .rbx), -- 3156: adc r12, rbx
  .mulx .r14 .rbx (.mem ⟨some .rsp, none, 280#64⟩), -- 3157: mulx r14, rbx, [rsp + (48* 5)+ 0x28]
  .adc (.reg .r13) (.reg .rbx), -- 3158: adc r13, rbx
  .adc (.reg .r14) (.reg .r15), -- 3159: adc r14, r15
  .mov (.reg .rdx) (.reg .r8), -- 3160: mov rdx, r8
  .shl (.reg .rdx) (.imm 32#64), -- 3161: shl rdx, 0x20
  .add (.reg .rdx) (.reg .r8), -- 3162: add rdx, r8
  .xor (.reg .rbp) (.reg .rbp), -- 3163: xor ebp, ebp
  .mov (.reg .rax) (.imm 0xffffffff00000001#64), -- 3164: mov rax, 0xffffffff00000001
  .mulx .rax .rbx (.reg .rax), -- 3165: mulx rax, rbx, rax
  .mov (.reg .rbx) (.imm 0xffffffff#64), -- 3166: mov ebx, 0xffffffff
  .mulx .rbx .r8 (.reg .rbx), -- 3167: mulx rbx, r8, rbx
  .adc (.reg .rax) (.reg .r8), -- 3168: adc rax, r8
  .adc (.reg .rbx) (.reg .rdx), -- 3169: adc rbx, rdx
  .adc32 .rbp .rbp, -- 3170: adc ebp, ebp
  .sub (.reg .r9) (.reg .rax), -- 3171: sub r9, rax
  .sbb (.reg .r10) (.reg .rbx), -- 3172: sbb r10, rbx
  .sbb (.reg .r11) (.reg .rbp), -- 3173: sbb r11, rbp
  .sbb (.reg .r12) (.imm 0#64), -- 3174: sbb r12, 0x0
  .sbb (.reg .r13) (.imm 0#64), -- 3175: sbb r13, 0x0
  .sbb (.reg .rdx) (.imm 0#64), -- 3176: sbb rdx, 0x0
  .add (.reg .r14) (.reg .rdx), -- 3177: add r14, rdx
  .adc (.reg .r15) (.imm 0#64), -- 3178: adc r15, 0x0
  .mov (.reg .rdx) (.mem ⟨some .rsi, none, 104#64⟩), -- 3179: mov rdx, [rsi + (2 * 48)+ 0x8]
  .xor (.reg .r8) (.reg .r8), -- 3180: xor r8d, r8d
  .mulx .rbx .rax (.mem ⟨some .rsp, none, 240#64⟩), -- 3181: mulx rbx, rax, [rsp + (48* 5)]
  .adcx .r9 (.reg .rax), -- 3182: adcx r9, rax
  .adox .r10 (.reg .rbx), -- 3183: adox r10, rbx
  .mulx .rbx .rax (.mem ⟨some .rsp, none, 248#64⟩), -- 3184: mulx rbx, rax, [rsp + (48* 5)+ 0x8]
  .adcx .r10 (.reg .rax), -- 3185: adcx r10, rax
  .adox .r11 (.reg .rbx), -- 3186: adox r11, rbx
  .mulx .rbx .rax (.mem ⟨some .rsp, none, 256#64⟩), -- 3187: mulx rbx, rax, [rsp + (48* 5)+ 0x10]
  .adcx .r11 (.reg .rax), -- 3188: adcx r11, rax
  .adox .r12 (.reg .rbx), -- 3189: adox r12, rbx
  .mulx .rbx .rax (.mem ⟨some .rsp, none, 264#64⟩), -- 3190: mulx rbx, rax, [rsp + (48* 5)+ 0x18]
  .adcx .r12 (.reg .rax), -- 3191: adcx r12, rax
  .adox .r13 (.reg .rbx), -- 3192: adox r13, rbx
  .mulx .rbx .rax (.mem ⟨some .rsp, none, 272#64⟩), -- 3193: mulx rbx, rax, [rsp + (48* 5)+ 0x20]
  .adcx .r13 (.reg .rax), -- 3194: adcx r13, rax
  .adox .r14 (.reg .rbx), -- 3195: adox r14, rbx
  .adox .r15 (.reg .r8), -- 3196: adox r15, r8
  .mulx .rbx .rax (.mem ⟨some .rsp, none, 280#64⟩), -- 3197: mulx rbx, rax, [rsp + (48* 5)+ 0x28]
  .adc (.reg .r14) (.reg .rax), -- 3198: adc r14, rax
  .adc (.reg .r15) (.reg .rbx), -- 3199: adc r15, rbx
  .adc (.reg .r8) (.reg .r8), -- 3200: adc r8, r8
  .mov (.reg .rdx) (.reg .r9), -- 3201: mov rdx, r9
  .shl (.reg .rdx) (.imm 32#64), -- 3202: shl rdx, 0x20
  .add (.reg .rdx) (.reg .r9), -- 3203: add rdx, r9
  .xor (.reg .rbp) (.reg .rbp), -- 3204: xor ebp, ebp
  .mov (.reg .rax) (.imm 0xffffffff00000001#64), -- 3205: mov rax, 0xffffffff00000001
  .mulx .rax .rbx (.reg .rax), -- 3206: mulx rax, rbx, rax
  .mov (.reg .rbx) (.imm 0xffffffff#64), -- 3207: mov ebx, 0xffffffff
  .mulx .rbx .r9 (.reg .rbx), -- 3208: mulx rbx, r9, rbx
  .adc (.reg .rax) (.reg .r9), -- 3209: adc rax, r9
  .adc (.reg .rbx) (.reg .rdx), -- 3210: adc rbx, rdx
  .adc32 .rbp .rbp, -- 3211: adc ebp, ebp
  .sub (.reg .r10) (.reg .rax), -- 3212: sub r10, rax
  .sbb (.reg .r11) (.reg .rbx), -- 3213: sbb r11, rbx
  .sbb (.reg .r12) (.reg .rbp), -- 3214: sbb r12, rbp
  .sbb (.reg .r13) (.imm 0#64), -- 3215: sbb r13, 0x0
  .sbb (.reg .r14) (.imm 0#64), -- 3216: sbb r14, 0x0
  .sbb (.reg .rdx) (.imm 0#64), -- 3217: sbb rdx, 0x0
  .add (.reg .r15) (.reg .rdx), -- 3218: add r15, rdx
  .adc (.reg .r8) (.imm 0#64), -- 3219: adc r8, 0x0
  .mov (.reg .rdx) (.mem ⟨some .rsi, none, 112#64⟩), -- 3220: mov rdx, [rsi + (2 * 48)+ 0x10]
  .xor (.reg .r9) (.reg .r9), -- 3221: xor r9d, r9d
  .mulx .rbx .rax (.mem ⟨some .rsp, none, 240#64⟩), -- 3222: mulx rbx, rax, [rsp + (48* 5)]
  .adcx .r10 (.reg .rax), -- 3223: adcx r10, rax
  .adox .r11 (.reg .rbx), -- 3224: adox r11, rbx
  .mulx .rbx .rax (.mem ⟨some .rsp, none, 248#64⟩), -- 3225: mulx rbx, rax, [rsp + (48* 5)+ 0x8]
  .adcx .r11 (.reg .rax), -- 3226: adcx r11, rax
  .adox .r12 (.reg .rbx), -- 3227: adox r12, rbx
  .mulx .rbx .rax (.mem ⟨some .rsp, none, 256#64⟩), -- 3228: mulx rbx, rax, [rsp + (48* 5)+ 0x10]
  .adcx .r12 (.reg .rax), -- 3229: adcx r12, rax
  .adox .r13 (.reg .rbx), -- 3230: adox r13, rbx
  .mulx .rbx .rax (.mem ⟨some .rsp, none, 264#64⟩), -- 3231: mulx rbx, rax, [rsp + (48* 5)+ 0x18]
  .adcx .r13 (.reg .rax), -- 3232: adcx r13, rax
  .adox .r14 (.reg .rbx), -- 3233: adox r14, rbx
  .mulx .rbx .rax (.mem ⟨some .rsp, none, 272#64⟩), -- 3234: mulx rbx, rax, [rsp + (48* 5)+ 0x20]
  .adcx .r14 (.reg .rax), -- 3235: adcx r14, rax
  .adox .r15 (.reg .rbx), -- 3236: adox r15, rbx
  .adox .r8 (.reg .r9), -- 3237: adox r8, r9
  .mulx .rbx .rax (.mem ⟨some .rsp, none, 280#64⟩), -- 3238: mulx rbx, rax, [rsp + (48* 5)+ 0x28]
  .adc (.reg .r15) (.reg .rax), -- 3239: adc r15, rax
  .adc (.reg .r8) (.reg .rbx), -- 3240: adc r8, rbx
  .adc (.reg .r9) (.reg .r9), -- 3241: adc r9, r9
  .mov (.reg .rdx) (.reg .r10), -- 3242: mov rdx, r10
  .shl (.reg .rdx) (.imm 32#64), -- 3243: shl rdx, 0x20
  .add (.reg .rdx) (.reg .r10), -- 3244: add rdx, r10
  .xor (.reg .rbp) (.reg .rbp), -- 3245: xor ebp, ebp
  .mov (.reg .rax) (.imm 0xffffffff00000001#64), -- 3246: mov rax, 0xffffffff00000001
  .mulx .rax .rbx (.reg .rax), -- 3247: mulx rax, rbx, rax
  .mov (.reg .rbx) (.imm 0xffffffff#64), -- 3248: mov ebx, 0xffffffff
  .mulx .rbx .r10 (.reg .rbx), -- 3249: mulx rbx, r10, rbx
  .adc (.reg .rax) (.reg .r10), -- 3250: adc rax, r10
  .adc (.reg .rbx) (.reg .rdx), -- 3251: adc rbx, rdx
  .adc32 .rbp .rbp, -- 3252: adc ebp, ebp
  .sub (.reg .r11) (.reg .rax), -- 3253: sub r11, rax
  .sbb (.reg .r12) (.reg .rbx), -- 3254: sbb r12, rbx
  .sbb (.reg .r13) (.reg .rbp), -- 3255: sbb r13, rbp
  .sbb (.reg .r14) (.imm 0#64), -- 3256: sbb r14, 0x0
  .sbb (.reg .r15) (.imm 0#64), -- 3257: sbb r15, 0x0
  .sbb (.reg .rdx) (.imm 0#64), -- 3258: sbb rdx, 0x0
  .add (.reg .r8) (.reg .rdx), -- 3259: add r8, rdx
  .adc (.reg .r9) (.imm 0#64), -- 3260: adc r9, 0x0
  .mov (.reg .rdx) (.mem ⟨some .rsi, none, 120#64⟩), -- 3261: mov rdx, [rsi + (2 * 48)+ 0x18]
  .xor (.reg .r10) (.reg .r10), -- 3262: xor r10d, r10d
  .mulx .rbx .rax (.mem ⟨some .rsp, none, 240#64⟩), -- 3263: mulx rbx, rax, [rsp + (48* 5)]
  .adcx .r11 (.reg .rax), -- 3264: adcx r11, rax
  .adox .r12 (.reg .rbx), -- 3265: adox r12, rbx
  .mulx .rbx .rax (.mem ⟨some .rsp, none, 248#64⟩), -- 3266: mulx rbx, rax, [rsp + (48* 5)+ 0x8]
  .adcx .r12 (.reg .rax), -- 3267: adcx r12, rax
  .adox .r13 (.reg .rbx), -- 3268: adox r13, rbx
  .mulx .rbx .rax (.mem ⟨some .rsp, none, 256#64⟩), -- 3269: mulx rbx, rax, [rsp + (48* 5)+ 0x10]
  .adcx .r13 (.reg .rax), -- 3270: adcx r13, rax
  .adox .r14 (.reg .rbx), -- 3271: adox r14, rbx
  .mulx .rbx .rax (.mem ⟨some .rsp, none, 264#64⟩), -- 3272: mulx rbx, rax, [rsp + (48* 5)+ 0x18]
  .adcx .r14 (.reg .rax), -- 3273: adcx r14, rax
  .adox .r15 (.reg .rbx), -- 3274: adox r15, rbx
  .mulx .rbx .rax (.mem ⟨some .rsp, none, 272#64⟩), -- 3275: mulx rbx, rax, [rsp + (48* 5)+ 0x20]
  .adcx .r15 (.reg .rax), -- 3276: adcx r15, rax
  .adox .r8 (.reg .rbx), -- 3277: adox r8, rbx
  .adox .r9 (.reg .r10), -- 3278: adox r9, r10
  .mulx .rbx .rax (.mem ⟨some .rsp, none, 280#64⟩), -- 3279: mulx rbx, rax, [rsp + (48* 5)+ 0x28]
  .adc (.reg .r8) (.reg .rax), -- 3280: adc r8, rax
  .adc (.reg .r9) (.reg .rbx), -- 3281: adc r9, rbx
  .adc (.reg .r10) (.reg .r10), -- 3282: adc r10, r10
  .mov (.reg .rdx) (.reg .r11), -- 3283: mov rdx, r11
  .shl (.reg .rdx) (.imm 32#64), -- 3284: shl rdx, 0x20
  .add (.reg .rdx) (.reg .r11), -- 3285: add rdx, r11
  .xor (.reg .rbp) (.reg .rbp), -- 3286: xor ebp, ebp
  .mov (.reg .rax) (.imm 0xffffffff00000001#64), -- 3287: mov rax, 0xffffffff00000001
  .mulx .rax .rbx (.reg .rax), -- 3288: mulx rax, rbx, rax
  .mov (.reg .rbx) (.imm 0xffffffff#64), -- 3289: mov ebx, 0xffffffff
  .mulx .rbx .r11 (.reg .rbx), -- 3290: mulx rbx, r11, rbx
  .adc (.reg .rax) (.reg .r11), -- 3291: adc rax, r11
  .adc (.reg .rbx) (.reg .rdx), -- 3292: adc rbx, rdx
  .adc32 .rbp .rbp, -- 3293: adc ebp, ebp
  .sub (.reg .r12) (.reg .rax), -- 3294: sub r12, rax
  .sbb (.reg .r13) (.reg .rbx), -- 3295: sbb r13, rbx
  .sbb (.reg .r14) (.reg .rbp), -- 3296: sbb r14, rbp
  .sbb (.reg .r15) (.imm 0#64), -- 3297: sbb r15, 0x0
  .sbb (.reg .r8) (.imm 0#64), -- 3298: sbb r8, 0x0
  .sbb (.reg .rdx) (.imm 0#64), -- 3299: sbb rdx, 0x0
  .add (.reg .r9) (.reg .rdx), -- 3300: add r9, rdx
  .adc (.reg .r10) (.imm 0#64), -- 3301: adc r10, 0x0
  .mov (.reg .rdx) (.mem ⟨some .rsi, none, 128#64⟩), -- 3302: mov rdx, [rsi + (2 * 48)+ 0x20]
  .xor (.reg .r11) (.reg .r11), -- 3303: xor r11d, r11d
  .mulx .rbx .rax (.mem ⟨some .rsp, none, 240#64⟩), -- 3304: mulx rbx, rax, [rsp + (48* 5)]
  .adcx .r12 (.reg .rax), -- 3305: adcx r12, rax
  .adox .r13 (.reg .rbx), -- 3306: adox r13, rbx
  .mulx .rbx .rax (.mem ⟨some .rsp, none, 248#64⟩), -- 3307: mulx rbx, rax, [rsp + (48* 5)+ 0x8]
  .adcx .r13 (.reg .rax), -- 3308: adcx r13, rax
  .adox .r14 (.reg .rbx), -- 3309: adox r14, rbx
  .mulx .rbx .rax (.mem ⟨some .rsp, none, 256#64⟩), -- 3310: mulx rbx, rax, [rsp + (48* 5)+ 0x10]
  .adcx .r14 (.reg .rax), -- 3311: adcx r14, rax
  .adox .r15 (.reg .rbx), -- 3312: adox r15, rbx
  .mulx .rbx .rax (.mem ⟨some .rsp, none, 264#64⟩), -- 3313: mulx rbx, rax, [rsp + (48* 5)+ 0x18]
  .adcx .r15 (.reg .rax), -- 3314: adcx r15, rax
  .adox .r8 (.reg .rbx), -- 3315: adox r8, rbx
  .mulx .rbx .rax (.mem ⟨some .rsp, none, 272#64⟩), -- 3316: mulx rbx, rax, [rsp + (48* 5)+ 0x20]
  .adcx .r8 (.reg .rax), -- 3317: adcx r8, rax
  .adox .r9 (.reg .rbx), -- 3318: adox r9, rbx
  .adox .r10 (.reg .r11), -- 3319: adox r10, r11
  .mulx .rbx .rax (.mem ⟨some .rsp, none, 280#64⟩), -- 3320: mulx rbx, rax, [rsp + (48* 5)+ 0x28]
  .adc (.reg .r9) (.reg .rax), -- 3321: adc r9, rax
  .adc (.reg .r10) (.reg .rbx), -- 3322: adc r10, rbx
  .adc (.reg .r11) (.reg .r11), -- 3323: adc r11, r11
  .mov (.reg .rdx) (.reg .r12), -- 3324: mov rdx, r12
  .shl (.reg .rdx) (.imm 32#64), -- 3325: shl rdx, 0x20
  .add (.reg .rdx) (.reg .r12), -- 3326: add rdx, r12
  .xor (.reg .rbp) (.reg .rbp), -- 3327: xor ebp, ebp
  .mov (.reg .rax) (.imm 0xffffffff00000001#64), -- 3328: mov rax, 0xffffffff00000001
  .mulx .rax .rbx (.reg .rax), -- 3329: mulx rax, rbx, rax
  .mov (.reg .rbx) (.imm 0xffffffff#64), -- 3330: mov ebx, 0xffffffff
  .mulx .rbx .r12 (.reg .rbx), -- 3331: mulx rbx, r12, rbx
  .adc (.reg .rax) (.reg .r12), -- 3332: adc rax, r12
  .adc (.reg .rbx) (.reg .rdx), -- 3333: adc rbx, rdx
  .adc32 .rbp .rbp, -- 3334: adc ebp, ebp
  .sub (.reg .r13) (.reg .rax), -- 3335: sub r13, rax
  .sbb (.reg .r14) (.reg .rbx), -- 3336: sbb r14, rbx
  .sbb (.reg .r15) (.reg .rbp), -- 3337: sbb r15, rbp
  .sbb (.reg .r8) (.imm 0#64), -- 3338: sbb r8, 0x0
  .sbb (.reg .r9) (.imm 0#64), -- 3339: sbb r9, 0x0
  .sbb (.reg .rdx) (.imm 0#64), -- 3340: sbb rdx, 0x0
  .add (.reg .r10) (.reg .rdx), -- 3341: add r10, rdx
  .adc (.reg .r11) (.imm 0#64), -- 3342: adc r11, 0x0
  .mov (.reg .rdx) (.mem ⟨some .rsi, none, 136#64⟩), -- 3343: mov rdx, [rsi + (2 * 48)+ 0x28]
  .xor (.reg .r12) (.reg .r12), -- 3344: xor r12d, r12d
  .mulx .rbx .rax (.mem ⟨some .rsp, none, 240#64⟩), -- 3345: mulx rbx, rax, [rsp + (48* 5)]
  .adcx .r13 (.reg .rax), -- 3346: adcx r13, rax
  .adox .r14 (.reg .rbx), -- 3347: adox r14, rbx
  .mulx .rbx .rax (.mem ⟨some .rsp, none, 248#64⟩), -- 3348: mulx rbx, rax, [rsp + (48* 5)+ 0x8]
  .adcx .r14 (.reg .rax), -- 3349: adcx r14, rax
  .adox .r15 (.reg .rbx), -- 3350: adox r15, rbx
  .mulx .rbx .rax (.mem ⟨some .rsp, none, 256#64⟩), -- 3351: mulx rbx, rax, [rsp + (48* 5)+ 0x10]
  .adcx .r15 (.reg .rax), -- 3352: adcx r15, rax
  .adox .r8 (.reg .rbx), -- 3353: adox r8, rbx
  .mulx .rbx .rax (.mem ⟨some .rsp, none, 264#64⟩), -- 3354: mulx rbx, rax, [rsp + (48* 5)+ 0x18]
  .adcx .r8 (.reg .rax), -- 3355: adcx r8, rax
  .adox .r9 (.reg .rbx), -- 3356: adox r9, rbx
  .mulx .rbx .rax (.mem ⟨some .rsp, none, 272#64⟩), -- 3357: mulx rbx, rax, [rsp + (48* 5)+ 0x20]
  .adcx .r9 (.reg .rax), -- 3358: adcx r9, rax
  .adox .r10 (.reg .rbx), -- 3359: adox r10, rbx
  .adox .r11 (.reg .r12), -- 3360: adox r11, r12
  .mulx .rbx .rax (.mem ⟨some .rsp, none, 280#64⟩), -- 3361: mulx rbx, rax, [rsp + (48* 5)+ 0x28]
  .adc (.reg .r10) (.reg .rax), -- 3362: adc r10, rax
  .adc (.reg .r11) (.reg .rbx), -- 3363: adc r11, rbx
  .adc (.reg .r12) (.reg .r12), -- 3364: adc r12, r12
  .mov (.reg .rdx) (.reg .r13), -- 3365: mov rdx, r13
  .shl (.reg .rdx) (.imm 32#64), -- 3366: shl rdx, 0x20
  .add (.reg .rdx) (.reg .r13), -- 3367: add rdx, r13
  .xor (.reg .rbp) (.reg .rbp), -- 3368: xor ebp, ebp
  .mov (.reg .rax) (.imm 0xffffffff00000001#64), -- 3369: mov rax, 0xffffffff00000001
  .mulx .rax .rbx (.reg .rax), -- 3370: mulx rax, rbx, rax
  .mov (.reg .rbx) (.imm 0xffffffff#64), -- 3371: mov ebx, 0xffffffff
  .mulx .rbx .r13 (.reg .rbx), -- 3372: mulx rbx, r13, rbx
  .adc (.reg .rax) (.reg .r13), -- 3373: adc rax, r13
  .adc (.reg .rbx) (.reg .rdx), -- 3374: adc rbx, rdx
  .adc32 .rbp .rbp, -- 3375: adc ebp, ebp
  .sub (.reg .r14) (.reg .rax), -- 3376: sub r14, rax
  .sbb (.reg .r15) (.reg .rbx), -- 3377: sbb r15, rbx
  .sbb (.reg .r8) (.reg .rbp), -- 3378: sbb r8, rbp
  .sbb (.reg .r9) (.imm 0#64), -- 3379: sbb r9, 0x0
  .sbb (.reg .r10) (.imm 0#64), -- 3380: sbb r10, 0x0
  .sbb (.reg .rdx) (.imm 0#64), -- 3381: sbb rdx, 0x0
  .add (.reg .r11) (.reg .rdx), -- 3382: add r11, rdx
  .adc (.reg .r12) (.imm 0#64), -- 3383: adc r12, 0x0
  .xor (.reg .rdx) (.reg .rdx), -- 3384: xor edx, edx
  .xor (.reg .rbp) (.reg .rbp), -- 3385: xor ebp, ebp
  .xor (.reg .r13) (.reg .r13), -- 3386: xor r13d, r13d
  .mov (.reg .rax) (.imm 0xffffffff00000001#64), -- 3387: mov rax, 0xffffffff00000001
  .add (.reg .rax) (.reg .r14), -- 3388: add rax, r14
  .mov (.reg .rbx) (.imm 0xffffffff#64), -- 3389: mov ebx, 0xffffffff
  .adc (.reg .rbx) (.reg .r15), -- 3390: adc rbx, r15
  .mov (.reg .rcx) (.imm 1#64), -- 3391: mov ecx, 0x1
  .adc (.reg .rcx) (.reg .r8), -- 3392: adc rcx, r8
  .adc (.reg .rdx) (.reg .r9), -- 3393: adc rdx, r9
  .adc (.reg .rbp) (.reg .r10), -- 3394: adc rbp, r10
  .adc (.reg .r13) (.reg .r11), -- 3395: adc r13, r11
  .adc (.reg .r12) (.imm 0#64), -- 3396: adc r12, 0x0
  .cmov .nz .r14 (.reg .rax), -- 3397: cmovne r14, rax
  .cmov .nz .r15 (.reg .rbx), -- 3398: cmovne r15, rbx
  .cmov .nz .r8 (.reg .rcx), -- 3399: cmovne r8, rcx
  .cmov .nz .r9 (.reg .rdx), -- 3400: cmovne r9, rdx
  .cmov .nz .r10 (.reg .rbp), -- 3401: cmovne r10, rbp
  .cmov .nz .r11 (.reg .r13), -- 3402: cmovne r11, r13
  .mov (.mem ⟨some .rsp, none, 240#64⟩) (.reg .r14), -- 3403: mov [rsp + (48* 5)], r14
  .mov (.mem ⟨some .rsp, none, 248#64⟩) (.reg .r15), -- 3404: mov [rsp + (48* 5)+ 0x8], r15
  .mov (.mem ⟨some .rsp, none, 256#64⟩) (.reg .r8), -- 3405: mov [rsp + (48* 5)+ 0x10], r8
  .mov (.mem ⟨some .rsp, none, 264#64⟩) (.reg .r9), -- 3406: mov [rsp + (48* 5)+ 0x18], r9
  .mov (.mem ⟨some .rsp, none, 272#64⟩) (.reg .r10), -- 3407: mov [rsp + (48* 5)+ 0x20], r10
  .mov (.mem ⟨some .rsp, none, 280#64⟩) (.reg .r11), -- 3408: mov [rsp + (48* 5)+ 0x28], r11
  .mov (.reg .rax) (.mem ⟨some .rsp, none, 0#64⟩), -- 3409: mov rax, [rsp + (48* 0)]
  .sub (.reg .rax) (.mem ⟨some .rsp, none, 96#64⟩), -- 3410: sub rax, [rsp + (48* 2)]
  .mov (.reg .rdx) (.mem ⟨some .rsp, none, 8#64⟩), -- 3411: mov rdx, [rsp + (48* 0)+ 0x8]
  .sbb (.reg .rdx) (.mem ⟨some .rsp, none, 104#64⟩), -- 3412: sbb rdx, [rsp + (48* 2)+ 0x8]
  .mov (.reg .r8) (.mem ⟨some .rsp, none, 16#64⟩), -- 3413: mov r8, [rsp + (48* 0)+ 0x10]
  .sbb (.reg .r8) (.mem ⟨some .rsp, none, 112#64⟩), -- 3414: sbb r8, [rsp + (48* 2)+ 0x10]
  .mov (.reg .r9) (.mem ⟨some .rsp, none, 24#64⟩), -- 3415: mov r9, [rsp + (48* 0)+ 0x18]
  .sbb (.reg .r9) (.mem ⟨some .rsp, none, 120#64⟩), -- 3416: sbb r9, [rsp + (48* 2)+ 0x18]
  .mov (.reg .r10) (.mem ⟨some .rsp, none, 32#64⟩), -- 3417: mov r10, [rsp + (48* 0)+ 0x20]
  .sbb (.reg .r10) (.mem ⟨some .rsp, none, 128#64⟩), -- 3418: sbb r10, [rsp + (48* 2)+ 0x20]
  .mov (.reg .r11) (.mem ⟨some .rsp, none, 40#64⟩), -- 3419: mov r11, [rsp + (48* 0)+ 0x28]
  .sbb (.reg .r11) (.mem ⟨some .rsp, none, 136#64⟩), -- 3420: sbb r11, [rsp + (48* 2)+ 0x28]
  .sbb (.reg .rcx) (.reg .rcx), -- 3421: sbb rcx, rcx
  .mov (.reg .rsi) (.imm 0xffffffff#64), -- 3422: mov esi, 0xffffffff
  .and (.reg .rcx) (.reg .rsi), -- 3423: and rcx, rsi
  .xor (.reg .rsi) (.reg .rsi), -- 3424: xor rsi, rsi
  .sub (.reg .rsi) (.reg .rcx), -- 3425: sub rsi, rcx
  .sub (.reg .rax) (.reg .rsi), -- 3426: sub rax, rsi
  .mov (.mem ⟨some .rsp, none, 0#64⟩) (.reg .rax), -- 3427: mov [rsp + (48* 0)], rax
  .sbb (.reg .rdx) (.reg .rcx), -- 3428: sbb rdx, rcx
  .mov (.mem ⟨some .rsp, none, 8#64⟩) (.reg .rdx), -- 3429: mov [rsp + (48* 0)+ 0x8], rdx
  .sbb (.reg .rax) (.reg .rax), -- 3430: sbb rax, rax
  .and (.reg .rcx) (.reg .rsi), -- 3431: and rcx, rsi
  .neg (.reg .rax), -- 3432: neg rax
  .sbb (.reg .r8) (.reg .rcx), -- 3433: sbb r8, rcx
  .mov (.mem ⟨some .rsp, none, 16#64⟩) (.reg .r8), -- 3434: mov [rsp + (48* 0)+ 0x10], r8
  .sbb (.reg .r9) (.imm 0#64), -- 3435: sbb r9, 0x0
  .mov (.mem ⟨some .rsp, none, 24#64⟩) (.reg .r9), -- 3436: mov [rsp + (48* 0)+ 0x18], r9
  .sbb (.reg .r10) (.imm 0#64), -- 3437: sbb r10, 0x0
  .mov (.mem ⟨some .rsp, none, 32#64⟩) (.reg .r10), -- 3438: mov [rsp + (48* 0)+ 0x20], r10
  .sbb (.reg .r11) (.imm 0#64), -- 3439: sbb r11, 0x0
  .mov (.mem ⟨some .rsp, none, 40#64⟩) (.reg .r11), -- 3440: mov [rsp + (48* 0)+ 0x28], r11
  .mov (.reg .rax) (.mem ⟨some .rsp, none, 192#64⟩), -- 3441: mov rax, [rsp + (48* 4)]
  .sub (.reg .rax) (.mem ⟨some .rsp, none, 0#64⟩), -- 3442: sub rax, [rsp + (48* 0)]
  .mov (.reg .rdx) (.mem ⟨some .rsp, none, 200#64⟩), -- 3443: mov rdx, [rsp + (48* 4)+ 0x8]
  .sbb (.reg .rdx) (.mem ⟨some .rsp, none, 8#64⟩), -- 3444: sbb rdx, [rsp + (48* 0)+ 0x8]
  .mov (.reg .r8) (.mem ⟨some .rsp, none, 208#64⟩), -- 3445: mov r8, [rsp + (48* 4)+ 0x10]
  .sbb (.reg .r8) (.mem ⟨some .rsp, none, 16#64⟩), -- 3446: sbb r8, [rsp + (48* 0)+ 0x10]
  .mov (.reg .r9) (.mem ⟨some .rsp, none, 216#64⟩), -- 3447: mov r9, [rsp + (48* 4)+ 0x18]
  .sbb (.reg .r9) (.mem ⟨some .rsp, none, 24#64⟩), -- 3448: sbb r9, [rsp + (48* 0)+ 0x18]
  .mov (.reg .r10) (.mem ⟨some .rsp, none, 224#64⟩), -- 3449: mov r10, [rsp + (48* 4)+ 0x20]
  .sbb (.reg .r10) (.mem ⟨some .rsp, none, 32#64⟩), -- 3450: sbb r10, [rsp + (48* 0)+ 0x20]
  .mov (.reg .r11) (.mem ⟨some .rsp, none, 232#64⟩), -- 3451: mov r11, [rsp + (48* 4)+ 0x28]
  .sbb (.reg .r11) (.mem ⟨some .rsp, none, 40#64⟩), -- 3452: sbb r11, [rsp + (48* 0)+ 0x28]
  .sbb (.reg .rcx) (.reg .rcx), -- 3453: sbb rcx, rcx
  .mov (.reg .rsi) (.imm 0xffffffff#64), -- 3454: mov esi, 0xffffffff
  .and (.reg .rcx) (.reg .rsi), -- 3455: and rcx, rsi
  .xor (.reg .rsi) (.reg .rsi), -- 3456: xor rsi, rsi
  .sub (.reg .rsi) (.reg .rcx), -- 3457: sub rsi, rcx
  .sub (.reg .rax) (.reg .rsi), -- 3458: sub rax, rsi
  .mov (.mem ⟨some .rsp, none, 192#64⟩) (.reg .rax), -- 3459: mov [rsp + (48* 4)], rax
  .sbb (.reg .rdx) (.reg .rcx), -- 3460: sbb rdx, rcx
  .mov (.mem ⟨some .rsp, none, 200#64⟩) (.reg .rdx), -- 3461: mov [rsp + (48* 4)+ 0x8], rdx
  .sbb (.reg .rax) (.reg .rax), -- 3462: sbb rax, rax
  .and (.reg .rcx) (.reg .rsi), -- 3463: and rcx, rsi
  .neg (.reg .rax), -- 3464: neg rax
  .sbb (.reg .r8) (.reg .rcx), -- 3465: sbb r8, rcx
  .mov (.mem ⟨some .rsp, none, 208#64⟩) (.reg .r8), -- 3466: mov [rsp + (48* 4)+ 0x10], r8
  .sbb (.reg .r9) (.imm 0#64), -- 3467: sbb r9, 0x0
  .mov (.mem ⟨some .rsp, none, 216#64⟩) (.reg .r9), -- 3468: mov [rsp + (48* 4)+ 0x18], r9
  .sbb (.reg .r10) (.imm 0#64), -- 3469: sbb r10, 0x0
  .mov (.mem ⟨some .rsp, none, 224#64⟩) (.reg .r10), -- 3470: mov [rsp + (48* 4)+ 0x20], r10
  .sbb (.reg .r11) (.imm 0#64), -- 3471: sbb r11, 0x0
  .mov (.mem ⟨some .rsp, none, 232#64⟩) (.reg .r11), -- 3472: mov [rsp + (48* 4)+ 0x28], r11
  .mov (.reg .rdx) (.mem ⟨some .rsp, none, 288#64⟩), -- 3473: mov rdx, [rsp + (48* 6)]
  .xor (.reg .r15) (.reg .r15), -- 3474: xor r15d, r15d
  .mulx .r9 .r8 (.mem ⟨some .rsp, none, 144#64⟩), -- 3475: mulx r9, r8, [rsp + (48* 3)]
  .mulx .r10 .rbx (.mem ⟨some .rsp, none, 152#64⟩), -- 3476: mulx r10, rbx, [rsp + (48* 3)+ 0x8]
  .add (.reg .r9) (.reg .rbx), -- 3477: add r9, rbx
  .mulx .r11 .rbx (.mem ⟨some .rsp, none, 160#64⟩), -- 3478: mulx r11, rbx, [rsp + (48* 3)+ 0x10]
  .adc (.reg .r10) (.reg .rbx), -- 3479: adc r10, rbx
  .mulx .r12 .rbx (.mem ⟨some .rsp, none, 168#64⟩), -- 3480: mulx r12, rbx, [rsp + (48* 3)+ 0x18]
  .adc (.reg .r11) (.reg .rbx), -- 3481: adc r11, rbx
  .mulx .r13 .rbx (.mem ⟨some .rsp, none, 176#64⟩), -- 3482: mulx r13, rbx, [rsp + (48* 3)+ 0x20]
  .adc (.reg .r12) (.reg .rbx), -- 3483: adc r12, rbx
  .mulx .r14 .rbx (.mem ⟨some .rsp, none, 184#64⟩), -- 3484: mulx r14, rbx, [rsp + (48* 3)+ 0x28]
  .adc (.reg .r13) (.reg .rbx), -- 3485: adc r13, rbx
  .adc (.reg .r14) (.reg .r15), -- 3486: adc r14, r15
  .mov (.reg .rdx) (.reg .r8), -- 3487: mov rdx, r8
  .shl (.reg .rdx) (.imm 32#64), -- 3488: shl rdx, 0x20
  .add (.reg .rdx) (.reg .r8), -- 3489: add rdx, r8
  .xor (.reg .rbp) (.reg .rbp), -- 3490: xor ebp, ebp
  .mov (.reg .rax) (.imm 0xffffffff00000001#64), -- 3491: mov rax, 0xffffffff00000001
  .mulx .rax .rbx (.reg .rax), -- 3492: mulx rax, rbx, rax
  .mov (.reg .rbx) (.imm 0xffffffff#64), -- 3493: mov ebx, 0xffffffff
  .mulx .rbx .r8 (.reg .rbx), -- 3494: mulx rbx, r8, rbx
  .adc (.reg .rax) (.reg .r8), -- 3495: adc rax, r8
  .adc (.reg .rbx) (.reg .rdx), -- 3496: adc rbx, rdx
  .adc32 .rbp .rbp, -- 3497: adc ebp, ebp
  .sub (.reg .r9) (.reg .rax), -- 3498: sub r9, rax
  .sbb (.reg .r10) (.reg .rbx), -- 3499: sbb r10, rbx
  .sbb (.reg .r11) (.reg .rbp), -- 3500: sbb r11, rbp
  .sbb (.reg .r12) (.imm 0#64), -- 3501: sbb r12, 0x0
  .sbb (.reg .r13) (.imm 0#64), -- 3502: sbb r13, 0x0
  .sbb (.reg .rdx) (.imm 0#64), -- 3503: sbb rdx, 0x0
  .add (.reg .r14) (.reg .rdx), -- 3504: add r14, rdx
  .adc (.reg .r15) (.imm 0#64), -- 3505: adc r15, 0x0
  .mov (.reg .rdx) (.mem ⟨some .rsp, none, 296#64⟩), -- 3506: mov rdx, [rsp + (48* 6)+ 0x8]
  .xor (.reg .r8) (.reg .r8), -- 3507: xor r8d, r8d
  .mulx .rbx .rax (.mem ⟨some .rsp, none, 144#64⟩), -- 3508: mulx rbx, rax, [rsp + (48* 3)]
  .adcx .r9 (.reg .rax), -- 3509: adcx r9, rax
  .adox .r10 (.reg .rbx), -- 3510: adox r10, rbx
  .mulx .rbx .rax (.mem ⟨some .rsp, none, 152#64⟩), -- 3511: mulx rbx, rax, [rsp + (48* 3)+ 0x8]
  .adcx .r10 (.reg .rax), -- 3512: adcx r10, rax
  .adox .r11 (.reg .rbx), -- 3513: adox r11, rbx
  .mulx .rbx .rax (.mem ⟨some .rsp, none, 160#64⟩), -- 3514: mulx rbx, rax, [rsp + (48* 3)+ 0x10]
  .adcx .r11 (.reg .rax), -- 3515: adcx r11, rax
  .adox .r12 (.reg .rbx), -- 3516: adox r12, rbx
  .mulx .rbx .rax (.mem ⟨some .rsp, none, 168#64⟩), -- 3517: mulx rbx, rax, [rsp + (48* 3)+ 0x18]
  .adcx .r12 (.reg .rax), -- 3518: adcx r12, rax
  .adox .r13 (.reg .rbx), -- 3519: adox r13, rbx
  .mulx .rbx .rax (.mem ⟨some .rsp, none, 176#64⟩), -- 3520: mulx rbx, rax, [rsp + (48* 3)+ 0x20]
  .adcx .r13 (.reg .rax), -- 3521: adcx r13, rax
  .adox .r14 (.reg .rbx), -- 3522: adox r14, rbx
  .adox .r15 (.reg .r8), -- 3523: adox r15, r8
  .mulx .rbx .rax (.mem ⟨some .rsp, none, 184#64⟩), -- 3524: mulx rbx, rax, [rsp + (48* 3)+ 0x28]
  .adc (.reg .r14) (.reg .rax), -- 3525: adc r14, rax
  .adc (.reg .r15) (.reg .rbx), -- 3526: adc r15, rbx
  .adc (.reg .r8) (.reg .r8), -- 3527: adc r8, r8
  .mov (.reg .rdx) (.reg .r9), -- 3528: mov rdx, r9
  .shl (.reg .rdx) (.imm 32#64), -- 3529: shl rdx, 0x20
  .add (.reg .rdx) (.reg .r9), -- 3530: add rdx, r9
  .xor (.reg .rbp) (.reg .rbp), -- 3531: xor ebp, ebp
  .mov (.reg .rax) (.imm 0xffffffff00000001#64), -- 3532: mov rax, 0xffffffff00000001
  .mulx .rax .rbx (.reg .rax), -- 3533: mulx rax, rbx, rax
  .mov (.reg .rbx) (.imm 0xffffffff#64), -- 3534: mov ebx, 0xffffffff
  .mulx .rbx .r9 (.reg .rbx), -- 3535: mulx rbx, r9, rbx
  .adc (.reg .rax) (.reg .r9), -- 3536: adc rax, r9
  .adc (.reg .rbx) (.reg .rdx), -- 3537: adc rbx, rdx
  .adc32 .rbp .rbp, -- 3538: adc ebp, ebp
  .sub (.reg .r10) (.reg .rax), -- 3539: sub r10, rax
  .sbb (.reg .r11) (.reg .rbx), -- 3540: sbb r11, rbx
  .sbb (.reg .r12) (.reg .rbp), -- 3541: sbb r12, rbp
  .sbb (.reg .r13) (.imm 0#64), -- 3542: sbb r13, 0x0
  .sbb (.reg .r14) (.imm 0#64), -- 3543: sbb r14, 0x0
  .sbb (.reg .rdx) (.imm 0#64), -- 3544: sbb rdx, 0x0
  .add (.reg .r15) (.reg .rdx), -- 3545: add r15, rdx
  .adc (.reg .r8) (.imm 0#64), -- 3546: adc r8, 0x0
  .mov (.reg .rdx) (.mem ⟨some .rsp, none, 304#64⟩), -- 3547: mov rdx, [rsp + (48* 6)+ 0x10]
  .xor (.reg .r9) (.reg .r9), -- 3548: xor r9d, r9d
  .mulx .rbx .rax (.mem ⟨some .rsp, none, 144#64⟩), -- 3549: mulx rbx, rax, [rsp + (48* 3)]
  .adcx .r10 (.reg .rax), -- 3550: adcx r10, rax
  .adox .r11 (.reg .rbx), -- 3551: adox r11, rbx
  .mulx .rbx .rax (.mem ⟨some .rsp, none, 152#64⟩), -- 3552: mulx rbx, rax, [rsp + (48* 3)+ 0x8]
  .adcx .r11 (.reg .rax), -- 3553: adcx r11, rax
  .adox .r12 (.reg .rbx), -- 3554: adox r12, rbx
  .mulx .rbx .rax (.mem ⟨some .rsp, none, 160#64⟩), -- 3555: mulx rbx, rax, [rsp + (48* 3)+ 0x10]
  .adcx .r12 (.reg .rax), -- 3556: adcx r12, rax
  .adox .r13 (.reg .rbx), -- 3557: adox r13, rbx
  .mulx .rbx .rax (.mem ⟨some .rsp, none, 168#64⟩), -- 3558: mulx rbx, rax, [rsp + (48* 3)+ 0x18]
  .adcx .r13 (.reg .rax), -- 3559: adcx r13, rax
  .adox .r14 (.reg .rbx), -- 3560: adox r14, rbx
  .mulx .rbx .rax (.mem ⟨some .rsp, none, 176#64⟩), -- 3561: mulx rbx, rax, [rsp + (48* 3)+ 0x20]
  .adcx .r14 (.reg .rax), -- 3562: adcx r14, rax
  .adox .r15 (.reg .rbx), -- 3563: adox r15, rbx
  .adox .r8 (.reg .r9), -- 3564: adox r8, r9
  .mulx .rbx .rax (.mem ⟨some .rsp, none, 184#64⟩), -- 3565: mulx rbx, rax, [rsp + (48* 3)+ 0x28]
  .adc (.reg .r15) (.reg .rax), -- 3566: adc r15, rax
  .adc (.reg .r8) (.reg .rbx), -- 3567: adc r8, rbx
  .adc (.reg .r9) (.reg .r9), -- 3568: adc r9, r9
  .mov (.reg .rdx) (.reg .r10), -- 3569: mov rdx, r10
  .shl (.reg .rdx) (.imm 32#64), -- 3570: shl rdx, 0x20
  .add (.reg .rdx) (.reg .r10), -- 3571: add rdx, r10
  .xor (.reg .rbp) (.reg .rbp), -- 3572: xor ebp, ebp
  .mov (.reg .rax) (.imm 0xffffffff00000001#64), -- 3573: mov rax, 0xffffffff00000001
  .mulx .rax .rbx (.reg .rax), -- 3574: mulx rax, rbx, rax
  .mov (.reg .rbx) (.imm 0xffffffff#64), -- 3575: mov ebx, 0xffffffff
  .mulx .rbx .r10 (.reg .rbx), -- 3576: mulx rbx, r10, rbx
  .adc (.reg .rax) (.reg .r10), -- 3577: adc rax, r10
  .adc (.reg .rbx) (.reg .rdx), -- 3578: adc rbx, rdx
  .adc32 .rbp .rbp, -- 3579: adc ebp, ebp
  .sub (.reg .r11) (.reg .rax), -- 3580: sub r11, rax
  .sbb (.reg .r12) (.reg .rbx), -- 3581: sbb r12, rbx
  .sbb (.reg .r13) (.reg .rbp), -- 3582: sbb r13, rbp
  .sbb (.reg .r14) (.imm 0#64), -- 3583: sbb r14, 0x0
  .sbb (.reg .r15) (.imm 0#64), -- 3584: sbb r15, 0x0
  .sbb (.reg .rdx) (.imm 0#64), -- 3585: sbb rdx, 0x0
  .add (.reg .r8) (.reg .rdx), -- 3586: add r8, rdx
  .adc (.reg .r9) (.imm 0#64), -- 3587: adc r9, 0x0
  .mov (.reg .rdx) (.mem ⟨some .rsp, none, 312#64⟩), -- 3588: mov rdx, [rsp + (48* 6)+ 0x18]
  .xor (.reg .r10) (.reg .r10), -- 3589: xor r10d, r10d
  .mulx .rbx .rax (.mem ⟨some .rsp, none, 144#64⟩), -- 3590: mulx rbx, rax, [rsp + (48* 3)]
  .adcx .r11 (.reg .rax), -- 3591: adcx r11, rax
  .adox .r12 (.reg .rbx), -- 3592: adox r12, rbx
  .mulx .rbx .rax (.mem ⟨some .rsp, none, 152#64⟩), -- 3593: mulx rbx, rax, [rsp + (48* 3)+ 0x8]
  .adcx .r12 (.reg .rax), -- 3594: adcx r12, rax
  .adox .r13 (.reg .rbx), -- 3595: adox r13, rbx
  .mulx .rbx .rax (.mem ⟨some .rsp, none, 160#64⟩), -- 3596: mulx rbx, rax, [rsp + (48* 3)+ 0x10]
  .adcx .r13 (.reg .rax), -- 3597: adcx r13, rax
  .adox .r14 (.reg .rbx), -- 3598: adox r14, rbx
  .mulx .rbx .rax (.mem ⟨some .rsp, none, 168#64⟩), -- 3599: mulx rbx, rax, [rsp + (48* 3)+ 0x18]
  .adcx .r14 (.reg .rax), -- 3600: adcx r14, rax
  .adox .r15 (.reg .rbx), -- 3601: adox r15, rbx
  .mulx .rbx .rax (.mem ⟨some .rsp, none, 176#64⟩), -- 3602: mulx rbx, rax, [rsp + (48* 3)+ 0x20]
  .adcx .r15 (.reg .rax), -- 3603: adcx r15, rax
  .adox .r8 (.reg .rbx), -- 3604: adox r8, rbx
  .adox .r9 (.reg .r10), -- 3605: adox r9, r10
  .mulx .rbx .rax (.mem ⟨some .rsp, none, 184#64⟩), -- 3606: mulx rbx, rax, [rsp + (48* 3)+ 0x28]
  .adc (.reg .r8) (.reg .rax), -- 3607: adc r8, rax
  .adc (.reg .r9) (.reg .rbx), -- 3608: adc r9, rbx
  .adc (.reg .r10) (.reg .r10), -- 3609: adc r10, r10
  .mov (.reg .rdx) (.reg .r11), -- 3610: mov rdx, r11
  .shl (.reg .rdx) (.imm 32#64), -- 3611: shl rdx, 0x20
  .add (.reg .rdx) (.reg .r11), -- 3612: add rdx, r11
  .xor (.reg .rbp) (.reg .rbp), -- 3613: xor ebp, ebp
  .mov (.reg .rax) (.imm 0xffffffff00000001#64), -- 3614: mov rax, 0xffffffff00000001
  .mulx .rax .rbx (.reg .rax), -- 3615: mulx rax, rbx, rax
  .mov (.reg .rbx) (.imm 0xffffffff#64), -- 3616: mov ebx, 0xffffffff
  .mulx .rbx .r11 (.reg .rbx), -- 3617: mulx rbx, r11, rbx
  .adc (.reg .rax) (.reg .r11), -- 3618: adc rax, r11
  .adc (.reg .rbx) (.reg .rdx), -- 3619: adc rbx, rdx
  .adc32 .rbp .rbp, -- 3620: adc ebp, ebp
  .sub (.reg .r12) (.reg .rax), -- 3621: sub r12, rax
  .sbb (.reg .r13) (.reg .rbx), -- 3622: sbb r13, rbx
  .sbb (.reg .r14) (.reg .rbp), -- 3623: sbb r14, rbp
  .sbb (.reg .r15) (.imm 0#64), -- 3624: sbb r15, 0x0
  .sbb (.reg .r8) (.imm 0#64), -- 3625: sbb r8, 0x0
  .sbb (.reg .rdx) (.imm 0#64), -- 3626: sbb rdx, 0x0
  .add (.reg .r9) (.reg .rdx), -- 3627: add r9, rdx
  .adc (.reg .r10) (.imm 0#64), -- 3628: adc r10, 0x0
  .mov (.reg .rdx) (.mem ⟨some .rsp, none, 320#64⟩), -- 3629: mov rdx, [rsp + (48* 6)+ 0x20]
  .xor (.reg .r11) (.reg .r11), -- 3630: xor r11d, r11d
  .mulx .rbx .rax (.mem ⟨some .rsp, none, 144#64⟩), -- 3631: mulx rbx, rax, [rsp + (48* 3)]
  .adcx .r12 (.reg .rax), -- 3632: adcx r12, rax
  .adox .r13 (.reg .rbx), -- 3633: adox r13, rbx
  .mulx .rbx .rax (.mem ⟨some .rsp, none, 152#64⟩), -- 3634: mulx rbx, rax, [rsp + (48* 3)+ 0x8]
  .adcx .r13 (.reg .rax), -- 3635: adcx r13, rax
  .adox .r14 (.reg .rbx), -- 3636: adox r14, rbx
  .mulx .rbx .rax (.mem ⟨some .rsp, none, 160#64⟩), -- 3637: mulx rbx, rax, [rsp + (48* 3)+ 0x10]
  .adcx .r14 (.reg .rax), -- 3638: adcx r14, rax
  .adox .r15 (.reg .rbx), -- 3639: adox r15, rbx
  .mulx .rbx .rax (.mem ⟨some .rsp, none, 168#64⟩), -- 3640: mulx rbx, rax, [rsp + (48* 3)+ 0x18]
  .adcx .r15 (.reg .rax), -- 3641: adcx r15, rax
  .adox .r8 (.reg .rbx), -- 3642: adox r8, rbx
  .mulx .rbx .rax (.mem ⟨some .rsp, none, 176#64⟩), -- 3643: mulx rbx, rax, [rsp + (48* 3)+ 0x20]
  .adcx .r8 (.reg .rax), -- 3644: adcx r8, rax
  .adox .r9 (.reg .rbx), -- 3645: adox r9, rbx
  .adox .r10 (.reg .r11), -- 3646: adox r10, r11
  .mulx .rbx .rax (.mem ⟨some .rsp, none, 184#64⟩), -- 3647: mulx rbx, rax, [rsp + (48* 3)+ 0x28]
  .adc (.reg .r9) (.reg .rax), -- 3648: adc r9, rax
  .adc (.reg .r10) (.reg .rbx), -- 3649: adc r10, rbx
  .adc (.reg .r11) (.reg .r11), -- 3650: adc r11, r11
  .mov (.reg .rdx) (.reg .r12), -- 3651: mov rdx, r12
  .shl (.reg .rdx) (.imm 32#64), -- 3652: shl rdx, 0x20
  .add (.reg .rdx) (.reg .r12), -- 3653: add rdx, r12
  .xor (.reg .rbp) (.reg .rbp), -- 3654: xor ebp, ebp
  .mov (.reg .rax) (.imm 0xffffffff00000001#64), -- 3655: mov rax, 0xffffffff00000001
  .mulx .rax .rbx (.reg .rax), -- 3656: mulx rax, rbx, rax
  .mov (.reg .rbx) (.imm 0xffffffff#64), -- 3657: mov ebx, 0xffffffff
  .mulx .rbx .r12 (.reg .rbx), -- 3658: mulx rbx, r12, rbx
  .adc (.reg .rax) (.reg .r12), -- 3659: adc rax, r12
  .adc (.reg .rbx) (.reg .rdx), -- 3660: adc rbx, rdx
  .adc32 .rbp .rbp, -- 3661: adc ebp, ebp
  .sub (.reg .r13) (.reg .rax), -- 3662: sub r13, rax
  .sbb (.reg .r14) (.reg .rbx), -- 3663: sbb r14, rbx
  .sbb (.reg .r15) (.reg .rbp), -- 3664: sbb r15, rbp
  .sbb (.reg .r8) (.imm 0#64), -- 3665: sbb r8, 0x0
  .sbb (.reg .r9) (.imm 0#64), -- 3666: sbb r9, 0x0
  .sbb (.reg .rdx) (.imm 0#64), -- 3667: sbb rdx, 0x0
  .add (.reg .r10) (.reg .rdx), -- 3668: add r10, rdx
  .adc (.reg .r11) (.imm 0#64), -- 3669: adc r11, 0x0
  .mov (.reg .rdx) (.mem ⟨some .rsp, none, 328#64⟩), -- 3670: mov rdx, [rsp + (48* 6)+ 0x28]
  .xor (.reg .r12) (.reg .r12), -- 3671: xor r12d, r12d
  .mulx .rbx .rax (.mem ⟨some .rsp, none, 144#64⟩), -- 3672: mulx rbx, rax, [rsp + (48* 3)]
  .adcx .r13 (.reg .rax), -- 3673: adcx r13, rax
  .adox .r14 (.reg .rbx), -- 3674: adox r14, rbx
  .mulx .rbx .rax (.mem ⟨some .rsp, none, 152#64⟩), -- 3675: mulx rbx, rax, [rsp + (48* 3)+ 0x8]
  .adcx .r14 (.reg .rax), -- 3676: adcx r14, rax
  .adox .r15 (.reg .rbx), -- 3677: adox r15, rbx
  .mulx .rbx .rax (.mem ⟨some .rsp, none, 160#64⟩), -- 3678: mulx rbx, rax, [rsp + (48* 3)+ 0x10]
  .adcx .r15 (.reg .rax), -- 3679: adcx r15, rax
  .adox .r8 (.reg .rbx), -- 3680: adox r8, rbx
  .mulx .rbx .rax (.mem ⟨some .rsp, none, 168#64⟩), -- 3681: mulx rbx, rax, [rsp + (48* 3)+ 0x18]
  .adcx .r8 (.reg .rax), -- 3682: adcx r8, rax
  .adox .r9 (.reg .rbx), -- 3683: adox r9, rbx
  .mulx .rbx .rax (.mem ⟨some .rsp, none, 176#64⟩), -- 3684: mulx rbx, rax, [rsp + (48* 3)+ 0x20]
  .adcx .r9 (.reg .rax), -- 3685: adcx r9, rax
  .adox .r10 (.reg .rbx), -- 3686: adox r10, rbx
  .adox .r11 (.reg .r12), -- 3687: adox r11, r12
  .mulx .rbx .rax (.mem ⟨some .rsp, none, 184#64⟩), -- 3688: mulx rbx, rax, [rsp + (48* 3)+ 0x28]
  .adc (.reg .r10) (.reg .rax), -- 3689: adc r10, rax
  .adc (.reg .r11) (.reg .rbx), -- 3690: adc r11, rbx
  .adc (.reg .r12) (.reg .r12), -- 3691: adc r12, r12
  .mov (.reg .rdx) (.reg .r13), -- 3692: mov rdx, r13
  .shl (.reg .rdx) (.imm 32#64), -- 3693: shl rdx, 0x20
  .add (.reg .rdx) (.reg .r13), -- 3694: add rdx, r13
  .xor (.reg .rbp) (.reg .rbp), -- 3695: xor ebp, ebp
  .mov (.reg .rax) (.imm 0xffffffff00000001#64), -- 3696: mov rax, 0xffffffff00000001
  .mulx .rax .rbx (.reg .rax), -- 3697: mulx rax, rbx, rax
  .mov (.reg .rbx) (.imm 0xffffffff#64), -- 3698: mov ebx, 0xffffffff
  .mulx .rbx .r13 (.reg .rbx), -- 3699: mulx rbx, r13, rbx
  .adc (.reg .rax) (.reg .r13), -- 3700: adc rax, r13
  .adc (.reg .rbx) (.reg .rdx), -- 3701: adc rbx, rdx
  .adc32 .rbp .rbp, -- 3702: adc ebp, ebp
  .sub (.reg .r14) (.reg .rax), -- 3703: sub r14, rax
  .sbb (.reg .r15) (.reg .rbx), -- 3704: sbb r15, rbx
  .sbb (.reg .r8) (.reg .rbp), -- 3705: sbb r8, rbp
  .sbb (.reg .r9) (.imm 0#64), -- 3706: sbb r9, 0x0
  .sbb (.reg .r10) (.imm 0#64), -- 3707: sbb r10, 0x0
  .sbb (.reg .rdx) (.imm 0#64), -- 3708: sbb rdx, 0x0
  .add (.reg .r11) (.reg .rdx), -- 3709: add r11, rdx
  .adc (.reg .r12) (.imm 0#64), -- 3710: adc r12, 0x0
  .xor (.reg .rdx) (.reg .rdx), -- 3711: xor edx, edx
  .xor (.reg .rbp) (.reg .rbp), -- 3712: xor ebp, ebp
  .xor (.reg .r13) (.reg .r13), -- 3713: xor r13d, r13d
  .mov (.reg .rax) (.imm 0xffffffff00000001#64), -- 3714: mov rax, 0xffffffff00000001
  .add (.reg .rax) (.reg .r14), -- 3715: add rax, r14
  .mov (.reg .rbx) (.imm 0xffffffff#64), -- 3716: mov ebx, 0xffffffff
  .adc (.reg .rbx) (.reg .r15), -- 3717: adc rbx, r15
  .mov (.reg .rcx) (.imm 1#64), -- 3718: mov ecx, 0x1
  .adc (.reg .rcx) (.reg .r8), -- 3719: adc rcx, r8
  .adc (.reg .rdx) (.reg .r9), -- 3720: adc rdx, r9
  .adc (.reg .rbp) (.reg .r10), -- 3721: adc rbp, r10
  .adc (.reg .r13) (.reg .r11), -- 3722: adc r13, r11
  .adc (.reg .r12) (.imm 0#64), -- 3723: adc r12, 0x0
  .cmov .nz .r14 (.reg .rax), -- 3724: cmovne r14, rax
  .cmov .nz .r15 (.reg .rbx), -- 3725: cmovne r15, rbx
  .cmov .nz .r8 (.reg .rcx), -- 3726: cmovne r8, rcx
  .cmov .nz .r9 (.reg .rdx), -- 3727: cmovne r9, rdx
  .cmov .nz .r10 (.reg .rbp), -- 3728: cmovne r10, rbp
  .cmov .nz .r11 (.reg .r13), -- 3729: cmovne r11, r13
  .mov (.mem ⟨some .rsp, none, 144#64⟩) (.reg .r14), -- 3730: mov [rsp + (48* 3)], r14
  .mov (.mem ⟨some .rsp, none, 152#64⟩) (.reg .r15), -- 3731: mov [rsp + (48* 3)+ 0x8], r15
  .mov (.mem ⟨some .rsp, none, 160#64⟩) (.reg .r8), -- 3732: mov [rsp + (48* 3)+ 0x10], r8
  .mov (.mem ⟨some .rsp, none, 168#64⟩) (.reg .r9), -- 3733: mov [rsp + (48* 3)+ 0x18], r9
  .mov (.mem ⟨some .rsp, none, 176#64⟩) (.reg .r10), -- 3734: mov [rsp + (48* 3)+ 0x20], r10
  .mov (.mem ⟨some .rsp, none, 184#64⟩) (.reg .r11), -- 3735: mov [rsp + (48* 3)+ 0x28], r11
  .mov (.reg .rcx) (.mem ⟨some .rsp, none, 344#64⟩), -- 3736: mov rcx, [rsp + (48* 7 + 8)]
  .mov (.reg .rdx) (.mem ⟨some .rcx, none, 96#64⟩), -- 3737: mov rdx, [rcx + (2 * 48)]
  .xor (.reg .r15) (.reg .r15), -- 3738: xor r15d, r15d
  .mulx .r9 .r8 (.mem ⟨some .rsp, none, 240#64⟩), -- 3739: mulx r9, r8, [rsp + (48* 5)]
  .mulx .r10 .rbx (.mem ⟨some .rsp, none, 248#64⟩), -- 3740: mulx r10, rbx, [rsp + (48* 5)+ 0x8]
  .add (.reg .r9) (.reg .rbx), -- 3741: add r9, rbx
  .mulx .r11 .rbx (.mem ⟨some .rsp, none, 256#64⟩), -- 3742: mulx r11, rbx, [rsp + (48* 5)+ 0x10]
  .adc (.reg .r10) (.reg .rbx), -- 3743: adc r10, rbx
  .mulx .r12 .rbx (.mem ⟨some .rsp, none, 264#64⟩), -- 3744: mulx r12, rbx, [rsp + (48* 5)+ 0x18]
  .adc (.reg .r11) (.reg .rbx), -- 3745: adc r11, rbx
  .mulx .r13 .rbx (.mem ⟨some .rsp, none, 272#64⟩), -- 3746: mulx r13, rbx, [rsp + (48* 5)+ 0x20]
  .adc (.reg .r12) (.reg .rbx), -- 3747: adc r12, rbx
  .mulx .r14 .rbx (.mem ⟨some .rsp, none, 280#64⟩), -- 3748: mulx r14, rbx, [rsp + (48* 5)+ 0x28]
  .adc (.reg .r13) (.reg .rbx), -- 3749: adc r13, rbx
  .adc (.reg .r14) (.reg .r15), -- 3750: adc r14, r15
  .mov (.reg .rdx) (.reg .r8), -- 3751: mov rdx, r8
  .shl (.reg .rdx) (.imm 32#64), -- 3752: shl rdx, 0x20
  .add (.reg .rdx) (.reg .r8), -- 3753: add rdx, r8
  .xor (.reg .rbp) (.reg .rbp), -- 3754: xor ebp, ebp
  .mov (.reg .rax) (.imm 0xffffffff00000001#64), -- 3755: mov rax, 0xffffffff00000001
  .mulx .rax .rbx (.reg .rax), -- 3756: mulx rax, rbx, rax
  .mov (.reg .rbx) (.imm 0xffffffff#64), -- 3757: mov ebx, 0xffffffff
  .mulx .rbx .r8 (.reg .rbx), -- 3758: mulx rbx, r8, rbx
  .adc (.reg .rax) (.reg .r8), -- 3759: adc rax, r8
  .adc (.reg .rbx) (.reg .rdx), -- 3760: adc rbx, rdx
  .adc32 .rbp .rbp, -- 3761: adc ebp, ebp
  .sub (.reg .r9) (.reg .rax), -- 3762: sub r9, rax
  .sbb (.reg .r10) (.reg .rbx), -- 3763: sbb r10, rbx
  .sbb (.reg .r11) (.reg .rbp), -- 3764: sbb r11, rbp
  .sbb (.reg .r12) (.imm 0#64), -- 3765: sbb r12, 0x0
  .sbb (.reg .r13) (.imm 0#64), -- 3766: sbb r13, 0x0
  .sbb (.reg .rdx) (.imm 0#64), -- 3767: sbb rdx, 0x0
  .add (.reg .r14) (.reg .rdx), -- 3768: add r14, rdx
  .adc (.reg .r15) (.imm 0#64), -- 3769: adc r15, 0x0
  .mov (.reg .rdx) (.mem ⟨some .rcx, none, 104#64⟩), -- 3770: mov rdx, [rcx + (2 * 48)+ 0x8]
  .xor (.reg .r8) (.reg .r8), -- 3771: xor r8d, r8d
  .mulx .rbx .rax (.mem ⟨some .rsp, none, 240#64⟩), -- 3772: mulx rbx, rax, [rsp + (48* 5)]
  .adcx .r9 (.reg .rax), -- 3773: adcx r9, rax
  .adox .r10 (.reg .rbx), -- 3774: adox r10, rbx
  .mulx .rbx .rax (.mem ⟨some .rsp, none, 248#64⟩), -- 3775: mulx rbx, rax, [rsp + (48* 5)+ 0x8]
  .adcx .r10 (.reg .rax), -- 3776: adcx r10, rax
  .adox .r11 (.reg .rbx), -- 3777: adox r11, rbx
  .mulx .rbx .rax (.mem ⟨some .rsp, none, 256#64⟩), -- 3778: mulx rbx, rax, [rsp + (48* 5)+ 0x10]
  .adcx .r11 (.reg .rax), -- 3779: adcx r11, rax
  .adox .r12 (.reg .rbx), -- 3780: adox r12, rbx
  .mulx .rbx .rax (.mem ⟨some .rsp, none, 264#64⟩), -- 3781: mulx rbx, rax, [rsp + (48* 5)+ 0x18]
  .adcx .r12 (.reg .rax), -- 3782: adcx r12, rax
  .adox .r13 (.reg .rbx), -- 3783: adox r13, rbx
  .mulx .rbx .rax (.mem ⟨some .rsp, none, 272#64⟩), -- 3784: mulx rbx, rax, [rsp + (48* 5)+ 0x20]
  .adcx .r13 (.reg .rax), -- 3785: adcx r13, rax
  .adox .r14 (.reg .rbx), -- 3786: adox r14, rbx
  .adox .r15 (.reg .r8), -- 3787: adox r15, r8
  .mulx .rbx .rax (.mem ⟨some .rsp, none, 280#64⟩), -- 3788: mulx rbx, rax, [rsp + (48* 5)+ 0x28]
  .adc (.reg .r14) (.reg .rax), -- 3789: adc r14, rax
  .adc (.reg .r15) (.reg .rbx), -- 3790: adc r15, rbx
  .adc (.reg .r8) (.reg .r8), -- 3791: adc r8, r8
  .mov (.reg .rdx) (.reg .r9), -- 3792: mov rdx, r9
  .shl (.reg .rdx) (.imm 32#64), -- 3793: shl rdx, 0x20
  .add (.reg .rdx) (.reg .r9), -- 3794: add rdx, r9
  .xor (.reg .rbp) (.reg .rbp), -- 3795: xor ebp, ebp
  .mov (.reg .rax) (.imm 0xffffffff00000001#64), -- 3796: mov rax, 0xffffffff00000001
  .mulx .rax .rbx (.reg .rax), -- 3797: mulx rax, rbx, rax
  .mov (.reg .rbx) (.imm 0xffffffff#64), -- 3798: mov ebx, 0xffffffff
  .mulx .rbx .r9 (.reg .rbx), -- 3799: mulx rbx, r9, rbx
  .adc (.reg .rax) (.reg .r9), -- 3800: adc rax, r9
  .adc (.reg .rbx) (.reg .rdx), -- 3801: adc rbx, rdx
  .adc32 .rbp .rbp, -- 3802: adc ebp, ebp
  .sub (.reg .r10) (.reg .rax), -- 3803: sub r10, rax
  .sbb (.reg .r11) (.reg .rbx), -- 3804: sbb r11, rbx
  .sbb (.reg .r12) (.reg .rbp), -- 3805: sbb r12, rbp
  .sbb (.reg .r13) (.imm 0#64), -- 3806: sbb r13, 0x0
  .sbb (.reg .r14) (.imm 0#64), -- 3807: sbb r14, 0x0
  .sbb (.reg .rdx) (.imm 0#64), -- 3808: sbb rdx, 0x0
  .add (.reg .r15) (.reg .rdx), -- 3809: add r15, rdx
  .adc (.reg .r8) (.imm 0#64), -- 3810: adc r8, 0x0
  .mov (.reg .rdx) (.mem ⟨some .rcx, none, 112#64⟩), -- 3811: mov rdx, [rcx + (2 * 48)+ 0x10]
  .xor (.reg .r9) (.reg .r9), -- 3812: xor r9d, r9d
  .mulx .rbx .rax (.mem ⟨some .rsp, none, 240#64⟩), -- 3813: mulx rbx, rax, [rsp + (48* 5)]
  .adcx .r10 (.reg .rax), -- 3814: adcx r10, rax
  .adox .r11 (.reg .rbx), -- 3815: adox r11, rbx
  .mulx .rbx .rax (.mem ⟨some .rsp, none, 248#64⟩), -- 3816: mulx rbx, rax, [rsp + (48* 5)+ 0x8]
  .adcx .r11 (.reg .rax), -- 3817: adcx r11, rax
  .adox .r12 (.reg .rbx), -- 3818: adox r12, rbx
  .mulx .rbx .rax (.mem ⟨some .rsp, none, 256#64⟩), -- 3819: mulx rbx, rax, [rsp + (48* 5)+ 0x10]
  .adcx .r12 (.reg .rax), -- 3820: adcx r12, rax
  .adox .r13 (.reg .rbx), -- 3821: adox r13, rbx
  .mulx .rbx .rax (.mem ⟨some .rsp, none, 264#64⟩), -- 3822: mulx rbx, rax, [rsp + (48* 5)+ 0x18]
  .adcx .r13 (.reg .rax), -- 3823: adcx r13, rax
  .adox .r14 (.reg .rbx), -- 3824: adox r14, rbx
  .mulx .rbx .rax (.mem ⟨some .rsp, none, 272#64⟩), -- 3825: mulx rbx, rax, [rsp + (48* 5)+ 0x20]
  .adcx .r14 (.reg .rax), -- 3826: adcx r14, rax
  .adox .r15 (.reg .rbx), -- 3827: adox r15, rbx
  .adox .r8 (.reg .r9), -- 3828: adox r8, r9
  .mulx .rbx .rax (.mem ⟨some .rsp, none, 280#64⟩), -- 3829: mulx rbx, rax, [rsp + (48* 5)+ 0x28]
  .adc (.reg .r15) (.reg .rax), -- 3830: adc r15, rax
  .adc (.reg .r8) (.reg .rbx), -- 3831: adc r8, rbx
  .adc (.reg .r9) (.reg .r9), -- 3832: adc r9, r9
  .mov (.reg .rdx) (.reg .r10), -- 3833: mov rdx, r10
  .shl (.reg .rdx) (.imm 32#64), -- 3834: shl rdx, 0x20
  .add (.reg .rdx) (.reg .r10), -- 3835: add rdx, r10
  .xor (.reg .rbp) (.reg .rbp), -- 3836: xor ebp, ebp
  .mov (.reg .rax) (.imm 0xffffffff00000001#64), -- 3837: mov rax, 0xffffffff00000001
  .mulx .rax .rbx (.reg .rax), -- 3838: mulx rax, rbx, rax
  .mov (.reg .rbx) (.imm 0xffffffff#64), -- 3839: mov ebx, 0xffffffff
  .mulx .rbx .r10 (.reg .rbx), -- 3840: mulx rbx, r10, rbx
  .adc (.reg .rax) (.reg .r10), -- 3841: adc rax, r10
  .adc (.reg .rbx) (.reg .rdx), -- 3842: adc rbx, rdx
  .adc32 .rbp .rbp, -- 3843: adc ebp, ebp
  .sub (.reg .r11) (.reg .rax), -- 3844: sub r11, rax
  .sbb (.reg .r12) (.reg .rbx), -- 3845: sbb r12, rbx
  .sbb (.reg .r13) (.reg .rbp), -- 3846: sbb r13, rbp
  .sbb (.reg .r14) (.imm 0#64), -- 3847: sbb r14, 0x0
  .sbb (.reg .r15) (.imm 0#64), -- 3848: sbb r15, 0x0
  .sbb (.reg .rdx) (.imm 0#64), -- 3849: sbb rdx, 0x0
  .add (.reg .r8) (.reg .rdx), -- 3850: add r8, rdx
  .adc (.reg .r9) (.imm 0#64), -- 3851: adc r9, 0x0
  .mov (.reg .rdx) (.mem ⟨some .rcx, none, 120#64⟩), -- 3852: mov rdx, [rcx + (2 * 48)+ 0x18]
  .xor (.reg .r10) (.reg .r10), -- 3853: xor r10d, r10d
  .mulx .rbx .rax (.mem ⟨some .rsp, none, 240#64⟩), -- 3854: mulx rbx, rax, [rsp + (48* 5)]
  .adcx .r11 (.reg .rax), -- 3855: adcx r11, rax
  .adox .r12 (.reg .rbx), -- 3856: adox r12, rbx
  .mulx .rbx .rax (.mem ⟨some .rsp, none, 248#64⟩), -- 3857: mulx rbx, rax, [rsp + (48* 5)+ 0x8]
  .adcx .r12 (.reg .rax), -- 3858: adcx r12, rax
  .adox .r13 (.reg .rbx), -- 3859: adox r13, rbx
  .mulx .rbx .rax (.mem ⟨some .rsp, none, 256#64⟩), -- 3860: mulx rbx, rax, [rsp + (48* 5)+ 0x10]
  .adcx .r13 (.reg .rax), -- 3861: adcx r13, rax
  .adox .r14 (.reg .rbx), -- 3862: adox r14, rbx
  .mulx .rbx .rax (.mem ⟨some .rsp, none, 264#64⟩), -- 3863: mulx rbx, rax, [rsp + (48* 5)+ 0x18]
  .adcx .r14 (.reg .rax), -- 3864: adcx r14, rax
  .adox .r15 (.reg .rbx), -- 3865: adox r15, rbx
  .mulx .rbx .rax (.mem ⟨some .rsp, none, 272#64⟩), -- 3866: mulx rbx, rax, [rsp + (48* 5)+ 0x20]
  .adcx .r15 (.reg .rax), -- 3867: adcx r15, rax
  .adox .r8 (.reg .rbx), -- 3868: adox r8, rbx
  .adox .r9 (.reg .r10), -- 3869: adox r9, r10
  .mulx .rbx .rax (.mem ⟨some .rsp, none, 280#64⟩), -- 3870: mulx rbx, rax, [rsp + (48* 5)+ 0x28]
  .adc (.reg .r8) (.reg .rax), -- 3871: adc r8, rax
  .adc (.reg .r9) (.reg .rbx), -- 3872: adc r9, rbx
  .adc (.reg .r10) (.reg .r10), -- 3873: adc r10, r10
  .mov (.reg .rdx) (.reg .r11), -- 3874: mov rdx, r11
  .shl (.reg .rdx) (.imm 32#64), -- 3875: shl rdx, 0x20
  .add (.reg .rdx) (.reg .r11), -- 3876: add rdx, r11
  .xor (.reg .rbp) (.reg .rbp), -- 3877: xor ebp, ebp
  .mov (.reg .rax) (.imm 0xffffffff00000001#64), -- 3878: mov rax, 0xffffffff00000001
  .mulx .rax .rbx (.reg .rax), -- 3879: mulx rax, rbx, rax
  .mov (.reg .rbx) (.imm 0xffffffff#64), -- 3880: mov ebx, 0xffffffff
  .mulx .rbx .r11 (.reg .rbx), -- 3881: mulx rbx, r11, rbx
  .adc (.reg .rax) (.reg .r11), -- 3882: adc rax, r11
  .adc (.reg .rbx) (.reg .rdx), -- 3883: adc rbx, rdx
  .adc32 .rbp .rbp, -- 3884: adc ebp, ebp
  .sub (.reg .r12) (.reg .rax), -- 3885: sub r12, rax
  .sbb (.reg .r13) (.reg .rbx), -- 3886: sbb r13, rbx
  .sbb (.reg .r14) (.reg .rbp), -- 3887: sbb r14, rbp
  .sbb (.reg .r15) (.imm 0#64), -- 3888: sbb r15, 0x0
  .sbb (.reg .r8) (.imm 0#64), -- 3889: sbb r8, 0x0
  .sbb (.reg .rdx) (.imm 0#64), -- 3890: sbb rdx, 0x0
  .add (.reg .r9) (.reg .rdx), -- 3891: add r9, rdx
  .adc (.reg .r10) (.imm 0#64), -- 3892: adc r10, 0x0
  .mov (.reg .rdx) (.mem ⟨some .rcx, none, 128#64⟩), -- 3893: mov rdx, [rcx + (2 * 48)+ 0x20]
  .xor (.reg .r11) (.reg .r11), -- 3894: xor r11d, r11d
  .mulx .rbx .rax (.mem ⟨some .rsp, none, 240#64⟩), -- 3895: mulx rbx, rax, [rsp + (48* 5)]
  .adcx .r12 (.reg .rax), -- 3896: adcx r12, rax
  .adox .r13 (.reg .rbx), -- 3897: adox r13, rbx
  .mulx .rbx .rax (.mem ⟨some .rsp, none, 248#64⟩), -- 3898: mulx rbx, rax, [rsp + (48* 5)+ 0x8]
  .adcx .r13 (.reg .rax), -- 3899: adcx r13, rax
  .adox .r14 (.reg .rbx), -- 3900: adox r14, rbx
  .mulx .rbx .rax (.mem ⟨some .rsp, none, 256#64⟩), -- 3901: mulx rbx, rax, [rsp + (48* 5)+ 0x10]
  .adcx .r14 (.reg .rax), -- 3902: adcx r14, rax
  .adox .r15 (.reg .rbx), -- 3903: adox r15, rbx
  .mulx .rbx .rax (.mem ⟨some .rsp, none, 264#64⟩), -- 3904: mulx rbx, rax, [rsp + (48* 5)+ 0x18]
  .adcx .r15 (.reg .rax), -- 3905: adcx r15, rax
  .adox .r8 (.reg .rbx), -- 3906: adox r8, rbx
  .mulx .rbx .rax (.mem ⟨some .rsp, none, 272#64⟩), -- 3907: mulx rbx, rax, [rsp + (48* 5)+ 0x20]
  .adcx .r8 (.reg .rax), -- 3908: adcx r8, rax
  .adox .r9 (.reg .rbx), -- 3909: adox r9, rbx
  .adox .r10 (.reg .r11), -- 3910: adox r10, r11
  .mulx .rbx .rax (.mem ⟨some .rsp, none, 280#64⟩), -- 3911: mulx rbx, rax, [rsp + (48* 5)+ 0x28]
  .adc (.reg .r9) (.reg .rax), -- 3912: adc r9, rax
  .adc (.reg .r10) (.reg .rbx), -- 3913: adc r10, rbx
  .adc (.reg .r11) (.reg .r11), -- 3914: adc r11, r11
  .mov (.reg .rdx) (.reg .r12), -- 3915: mov rdx, r12
  .shl (.reg .rdx) (.imm 32#64), -- 3916: shl rdx, 0x20
  .add (.reg .rdx) (.reg .r12), -- 3917: add rdx, r12
  .xor (.reg .rbp) (.reg .rbp), -- 3918: xor ebp, ebp
  .mov (.reg .rax) (.imm 0xffffffff00000001#64), -- 3919: mov rax, 0xffffffff00000001
  .mulx .rax .rbx (.reg .rax), -- 3920: mulx rax, rbx, rax
  .mov (.reg .rbx) (.imm 0xffffffff#64), -- 3921: mov ebx, 0xffffffff
  .mulx .rbx .r12 (.reg .rbx), -- 3922: mulx rbx, r12, rbx
  .adc (.reg .rax) (.reg .r12), -- 3923: adc rax, r12
  .adc (.reg .rbx) (.reg .rdx), -- 3924: adc rbx, rdx
  .adc32 .rbp .rbp, -- 3925: adc ebp, ebp
  .sub (.reg .r13) (.reg .rax), -- 3926: sub r13, rax
  .sbb (.reg .r14) (.reg .rbx), -- 3927: sbb r14, rbx
  .sbb (.reg .r15) (.reg .rbp), -- 3928: sbb r15, rbp
  .sbb (.reg .r8) (.imm 0#64), -- 3929: sbb r8, 0x0
  .sbb (.reg .r9) (.imm 0#64), -- 3930: sbb r9, 0x0
  .sbb (.reg .rdx) (.imm 0#64), -- 3931: sbb rdx, 0x0
  .add (.reg .r10) (.reg .rdx), -- 3932: add r10, rdx
  .adc (.reg .r11) (.imm 0#64), -- 3933: adc r11, 0x0
  .mov (.reg .rdx) (.mem ⟨some .rcx, none, 136#64⟩), -- 3934: mov rdx, [rcx + (2 * 48)+ 0x28]
  .xor (.reg .r12) (.reg .r12), -- 3935: xor r12d, r12d
  .mulx .rbx .rax (.mem ⟨some .rsp, none, 240#64⟩), -- 3936: mulx rbx, rax, [rsp + (48* 5)]
  .adcx .r13 (.reg .rax), -- 3937: adcx r13, rax
  .adox .r14 (.reg .rbx), -- 3938: adox r14, rbx
  .mulx .rbx .rax (.mem ⟨some .rsp, none, 248#64⟩), -- 3939: mulx rbx, rax, [rsp + (48* 5)+ 0x8]
  .adcx .r14 (.reg .rax), -- 3940: adcx r14, rax
  .adox .r15 (.reg .rbx), -- 3941: adox r15, rbx
  .mulx .rbx .rax (.mem ⟨some .rsp, none, 256#64⟩), -- 3942: mulx rbx, rax, [rsp + (48* 5)+ 0x10]
  .adcx .r15 (.reg .rax), -- 3943: adcx r15, rax
  .adox .r8 (.reg .rbx), -- 3944: adox r8, rbx
  .mulx .rbx .rax (.mem ⟨some .rsp, none, 264#64⟩), -- 3945: mulx rbx, rax, [rsp + (48* 5)+ 0x18]
  .adcx .r8 (.reg .rax), -- 3946: adcx r8, rax
  .adox .r9 (.reg .rbx), -- 3947: adox r9, rbx
  .mulx .rbx .rax (.mem ⟨some .rsp, none, 272#64⟩), -- 3948: mulx rbx, rax, [rsp + (48* 5)+ 0x20]
  .adcx .r9 (.reg .rax), -- 3949: adcx r9, rax
  .adox .r10 (.reg .rbx), -- 3950: adox r10, rbx
  .adox .r11 (.reg .r12), -- 3951: adox r11, r12
  .mulx .rbx .rax (.mem ⟨some .rsp, none, 280#64⟩), -- 3952: mulx rbx, rax, [rsp + (48* 5)+ 0x28]
  .adc (.reg .r10) (.reg .rax), -- 3953: adc r10, rax
  .adc (.reg .r11) (.reg .rbx), -- 3954: adc r11, rbx
  .adc (.reg .r12) (.reg .r12), -- 3955: adc r12, r12
  .mov (.reg .rdx) (.reg .r13), -- 3956: mov rdx, r13
  .shl (.reg .rdx) (.imm 32#64), -- 3957: shl rdx, 0x20
  .add (.reg .rdx) (.reg .r13), -- 3958: add rdx, r13
  .xor (.reg .rbp) (.reg .rbp), -- 3959: xor ebp, ebp
  .mov (.reg .rax) (.imm 0xffffffff00000001#64), -- 3960: mov rax, 0xffffffff00000001
  .mulx .rax .rbx (.reg .rax), -- 3961: mulx rax, rbx, rax
  .mov (.reg .rbx) (.imm 0xffffffff#64), -- 3962: mov ebx, 0xffffffff
  .mulx .rbx .r13 (.reg .rbx), -- 3963: mulx rbx, r13, rbx
  .adc (.reg .rax) (.reg .r13), -- 3964: adc rax, r13
  .adc (.reg .rbx) (.reg .rdx), -- 3965: adc rbx, rdx
  .adc32 .rbp .rbp, -- 3966: adc ebp, ebp
  .sub (.reg .r14) (.reg .rax), -- 3967: sub r14, rax
  .sbb (.reg .r15) (.reg .rbx), -- 3968: sbb r15, rbx
  .sbb (.reg .r8) (.reg .rbp), -- 3969: sbb r8, rbp
  .sbb (.reg .r9) (.imm 0#64), -- 3970: sbb r9, 0x0
  .sbb (.reg .r10) (.imm 0#64), -- 3971: sbb r10, 0x0
  .sbb (.reg .rdx) (.imm 0#64), -- 3972: sbb rdx, 0x0
  .add (.reg .r11) (.reg .rdx), -- 3973: add r11, rdx
  .adc (.reg .r12) (.imm 0#64), -- 3974: adc r12, 0x0
  .xor (.reg .rdx) (.reg .rdx), -- 3975: xor edx, edx
  .xor (.reg .rbp) (.reg .rbp), -- 3976: xor ebp, ebp
  .xor (.reg .r13) (.reg .r13), -- 3977: xor r13d, r13d
  .mov (.reg .rax) (.imm 0xffffffff00000001#64), -- 3978: mov rax, 0xffffffff00000001
  .add (.reg .rax) (.reg .r14), -- 3979: add rax, r14
  .mov (.reg .rbx) (.imm 0xffffffff#64), -- 3980: mov ebx, 0xffffffff
  .adc (.reg .rbx) (.reg .r15), -- 3981: adc rbx, r15
  .mov (.reg .rcx) (.imm 1#64), -- 3982: mov ecx, 0x1
  .adc (.reg .rcx) (.reg .r8), -- 3983: adc rcx, r8
  .adc (.reg .rdx) (.reg .r9), -- 3984: adc rdx, r9
  .adc (.reg .rbp) (.reg .r10), -- 3985: adc rbp, r10
  .adc (.reg .r13) (.reg .r11), -- 3986: adc r13, r11
  .adc (.reg .r12) (.imm 0#64), -- 3987: adc r12, 0x0
  .cmov .nz .r14 (.reg .rax), -- 3988: cmovne r14, rax
  .cmov .nz .r15 (.reg .rbx), -- 3989: cmovne r15, rbx
  .cmov .nz .r8 (.reg .rcx), -- 3990: cmovne r8, rcx
  .cmov .nz .r9 (.reg .rdx), -- 3991: cmovne r9, rdx
  .cmov .nz .r10 (.reg .rbp), -- 3992: cmovne r10, rbp
  .cmov .nz .r11 (.reg .r13), -- 3993: cmovne r11, r13
  .mov (.mem ⟨some .rsp, none, 240#64⟩) (.reg .r14), -- 3994: mov [rsp + (48* 5)], r14
  .mov (.mem ⟨some .rsp, none, 248#64⟩) (.reg .r15), -- 3995: mov [rsp + (48* 5)+ 0x8], r15
  .mov (.mem ⟨some .rsp, none, 256#64⟩) (.reg .r8), -- 3996: mov [rsp + (48* 5)+ 0x10], r8
  .mov (.mem ⟨some .rsp, none, 264#64⟩) (.reg .r9), -- 3997: mov [rsp + (48* 5)+ 0x18], r9
  .mov (.mem ⟨some .rsp, none, 272#64⟩) (.reg .r10), -- 3998: mov [rsp + (48* 5)+ 0x20], r10
  .mov (.mem ⟨some .rsp, none, 280#64⟩) (.reg .r11), -- 3999: mov [rsp + (48* 5)+ 0x28], r11
  .mov (.reg .rdx) (.mem ⟨some .rsp, none, 192#64⟩), -- 4000: mov rdx, [rsp + (48* 4)]
  .xor (.reg .r15) (.reg .r15), -- 4001: xor r15d, r15d
  .mulx .r9 .r8 (.mem ⟨some .rsp, none, 48#64⟩), -- 4002: mulx r9, r8, [rsp + (48* 1)]
  .mulx .r10 .rbx (.mem ⟨some .rsp, none, 56#64⟩), -- 4003: mulx r10, rbx, [rsp + (48* 1)+ 0x8]
  .add (.reg .r9) (.reg .rbx), -- 4004: add r9, rbx
  .mulx .r11 .rbx (.mem ⟨some .rsp, none, 64#64⟩), -- 4005: mulx r11, rbx, [rsp + (48* 1)+ 0x10]
  .adc (.reg .r10) (.reg .rbx), -- 4006: adc r10, rbx
  .mulx .r12 .rbx (.mem ⟨some .rsp, none, 72#64⟩), -- 4007: mulx r12, rbx, [rsp + (48* 1)+ 0x18]
  .adc (.reg .r11) (.reg .rbx), -- 4008: adc r11, rbx
  .mulx .r13 .rbx (.mem ⟨some .rsp, none, 80#64⟩), -- 4009: mulx r13, rbx, [rsp + (48* 1)+ 0x20]
  .adc (.reg .r12) (.reg .rbx), -- 4010: adc r12, rbx
  .mulx .r14 .rbx (.mem ⟨some .rsp, none, 88#64⟩), -- 4011: mulx r14, rbx, [rsp + (48* 1)+ 0x28]
  .adc (.reg .r13) (.reg .rbx), -- 4012: adc r13, rbx
  .adc (.reg .r14) (.reg .r15), -- 4013: adc r14, r15
  .mov (.reg .rdx) (.reg .r8), -- 4014: mov rdx, r8
  .shl (.reg .rdx) (.imm 32#64), -- 4015: shl rdx, 0x20
  .add (.reg .rdx) (.reg .r8), -- 4016: add rdx, r8
  .xor (.reg .rbp) (.reg .rbp), -- 4017: xor ebp, ebp
  .mov (.reg .rax) (.imm 0xffffffff00000001#64), -- 4018: mov rax, 0xffffffff00000001
  .mulx .rax .rbx (.reg .rax), -- 4019: mulx rax, rbx, rax
  .mov (.reg .rbx) (.imm 0xffffffff#64), -- 4020: mov ebx, 0xffffffff
  .mulx .rbx .r8 (.reg .rbx), -- 4021: mulx rbx, r8, rbx
  .adc (.reg .rax) (.reg .r8), -- 4022: adc rax, r8
  .adc (.reg .rbx) (.reg .rdx), -- 4023: adc rbx, rdx
  .adc32 .rbp .rbp, -- 4024: adc ebp, ebp
  .sub (.reg .r9) (.reg .rax), -- 4025: sub r9, rax
  .sbb (.reg .r10) (.reg .rbx), -- 4026: sbb r10, rbx
  .sbb (.reg .r11) (.reg .rbp), -- 4027: sbb r11, rbp
  .sbb (.reg .r12) (.imm 0#64), -- 4028: sbb r12, 0x0
  .sbb (.reg .r13) (.imm 0#64), -- 4029: sbb r13, 0x0
  .sbb (.reg .rdx) (.imm 0#64), -- 4030: sbb rdx, 0x0
  .add (.reg .r14) (.reg .rdx), -- 4031: add r14, rdx
  .adc (.reg .r15) (.imm 0#64), -- 4032: adc r15, 0x0
  .mov (.reg .rdx) (.mem ⟨some .rsp, none, 200#64⟩), -- 4033: mov rdx, [rsp + (48* 4)+ 0x8]
  .xor (.reg .r8) (.reg .r8), -- 4034: xor r8d, r8d
  .mulx .rbx .rax (.mem ⟨some .rsp, none, 48#64⟩), -- 4035: mulx rbx, rax, [rsp + (48* 1)]
  .adcx .r9 (.reg .rax), -- 4036: adcx r9, rax
  .adox .r10 (.reg .rbx), -- 4037: adox r10, rbx
  .mulx .rbx .rax (.mem ⟨some .rsp, none, 56#64⟩), -- 4038: mulx rbx, rax, [rsp + (48* 1)+ 0x8]
  .adcx .r10 (.reg .rax), -- 4039: adcx r10, rax
  .adox .r11 (.reg .rbx), -- 4040: adox r11, rbx
  .mulx .rbx .rax (.mem ⟨some .rsp, none, 64#64⟩), -- 4041: mulx rbx, rax, [rsp + (48* 1)+ 0x10]
  .adcx .r11 (.reg .rax), -- 4042: adcx r11, rax
  .adox .r12 (.reg .rbx), -- 4043: adox r12, rbx
  .mulx .rbx .rax (.mem ⟨some .rsp, none, 72#64⟩), -- 4044: mulx rbx, rax, [rsp + (48* 1)+ 0x18]
  .adcx .r12 (.reg .rax), -- 4045: adcx r12, rax
  .adox .r13 (.reg .rbx), -- 4046: adox r13, rbx
  .mulx .rbx .rax (.mem ⟨some .rsp, none, 80#64⟩), -- 4047: mulx rbx, rax, [rsp + (48* 1)+ 0x20]
  .adcx .r13 (.reg .rax), -- 4048: adcx r13, rax
  .adox .r14 (.reg .rbx), -- 4049: adox r14, rbx
  .adox .r15 (.reg .r8), -- 4050: adox r15, r8
  .mulx .rbx .rax (.mem ⟨some .rsp, none, 88#64⟩), -- 4051: mulx rbx, rax, [rsp + (48* 1)+ 0x28]
  .adc (.reg .r14) (.reg .rax), -- 4052: adc r14, rax
  .adc (.reg .r15) (.reg .rbx), -- 4053: adc r15, rbx
  .adc (.reg .r8) (.reg .r8), -- 4054: adc r8, r8
  .mov (.reg .rdx) (.reg .r9), -- 4055: mov rdx, r9
  .shl (.reg .rdx) (.imm 32#64), -- 4056: shl rdx, 0x20
  .add (.reg .rdx) (.reg .r9), -- 4057: add rdx, r9
  .xor (.reg .rbp) (.reg .rbp), -- 4058: xor ebp, ebp
  .mov (.reg .rax) (.imm 0xffffffff00000001#64), -- 4059: mov rax, 0xffffffff00000001
  .mulx .rax .rbx (.reg .rax), -- 4060: mulx rax, rbx, rax
  .mov (.reg .rbx) (.imm 0xffffffff#64), -- 4061: mov ebx, 0xffffffff
  .mulx .rbx .r9 (.reg .rbx), -- 4062: mulx rbx, r9, rbx
  .adc (.reg .rax) (.reg .r9), -- 4063: adc rax, r9
  .adc (.reg .rbx) (.reg .rdx), -- 4064: adc rbx, rdx
  .adc32 .rbp .rbp, -- 4065: adc ebp, ebp
  .sub (.reg .r10) (.reg .rax), -- 4066: sub r10, rax
  .sbb (.reg .r11) (.reg .rbx), -- 4067: sbb r11, rbx
  .sbb (.reg .r12) (.reg .rbp), -- 4068: sbb r12, rbp
  .sbb (.reg .r13) (.imm 0#64), -- 4069: sbb r13, 0x0
  .sbb (.reg .r14) (.imm 0#64), -- 4070: sbb r14, 0x0
  .sbb (.reg .rdx) (.imm 0#64), -- 4071: sbb rdx, 0x0
  .add (.reg .r15) (.reg .rdx), -- 4072: add r15, rdx
  .adc (.reg .r8) (.imm 0#64), -- 4073: adc r8, 0x0
  .mov (.reg .rdx) (.mem ⟨some .rsp, none, 208#64⟩), -- 4074: mov rdx, [rsp + (48* 4)+ 0x10]
  .xor (.reg .r9) (.reg .r9), -- 4075: xor r9d, r9d
  .mulx .rbx .rax (.mem ⟨some .rsp, none, 48#64⟩), -- 4076: mulx rbx, rax, [rsp + (48* 1)]
  .adcx .r10 (.reg .rax), -- 4077: adcx r10, rax
  .adox .r11 (.reg .rbx), -- 4078: adox r11, rbx
  .mulx .rbx .rax (.mem ⟨some .rsp, none, 56#64⟩), -- 4079: mulx rbx, rax, [rsp + (48* 1)+ 0x8]
  .adcx .r11 (.reg .rax), -- 4080: adcx r11, rax
  .adox .r12 (.reg .rbx), -- 4081: adox r12, rbx
  .mulx .rbx .rax (.mem ⟨some .rsp, none, 64#64⟩), -- 4082: mulx rbx, rax, [rsp + (48* 1)+ 0x10]
  .adcx .r12 (.reg .rax), -- 4083: adcx r12, rax
  .adox .r13 (.reg .rbx), -- 4084: adox r13, rbx
  .mulx .rbx .rax (.mem ⟨some .rsp, none, 72#64⟩), -- 4085: mulx rbx, rax, [rsp + (48* 1)+ 0x18]
  .adcx .r13 (.reg .rax), -- 4086: adcx r13, rax
  .adox .r14 (.reg .rbx), -- 4087: adox r14, rbx
  .mulx .rbx .rax (.mem ⟨some .rsp, none, 80#64⟩), -- 4088: mulx rbx, rax, [rsp + (48* 1)+ 0x20]
  .adcx .r14 (.reg .rax), -- 4089: adcx r14, rax
  .adox .r15 (.reg .rbx), -- 4090: adox r15, rbx
  .adox .r8 (.reg .r9), -- 4091: adox r8, r9
  .mulx .rbx .rax (.mem ⟨some .rsp, none, 88#64⟩), -- 4092: mulx rbx, rax, [rsp + (48* 1)+ 0x28]
  .adc (.reg .r15) (.reg .rax), -- 4093: adc r15, rax
  .adc (.reg .r8) (.reg .rbx), -- 4094: adc r8, rbx
  .adc (.reg .r9) (.reg .r9), -- 4095: adc r9, r9
  .mov (.reg .rdx) (.reg .r10), -- 4096: mov rdx, r10
  .shl (.reg .rdx) (.imm 32#64), -- 4097: shl rdx, 0x20
  .add (.reg .rdx) (.reg .r10), -- 4098: add rdx, r10
  .xor (.reg .rbp) (.reg .rbp), -- 4099: xor ebp, ebp
  .mov (.reg .rax) (.imm 0xffffffff00000001#64), -- 4100: mov rax, 0xffffffff00000001
  .mulx .rax .rbx (.reg .rax), -- 4101: mulx rax, rbx, rax
  .mov (.reg .rbx) (.imm 0xffffffff#64), -- 4102: mov ebx, 0xffffffff
  .mulx .rbx .r10 (.reg .rbx), -- 4103: mulx rbx, r10, rbx
  .adc (.reg .rax) (.reg .r10), -- 4104: adc rax, r10
  .adc (.reg .rbx) (.reg .rdx), -- 4105: adc rbx, rdx
  .adc32 .rbp .rbp, -- 4106: adc ebp, ebp
  .sub (.reg .r11) (.reg .rax), -- 4107: sub r11, rax
  .sbb (.reg .r12) (.reg .rbx), -- 4108: sbb r12, rbx
  .sbb (.reg .r13) (.reg .rbp), -- 4109: sbb r13, rbp
  .sbb (.reg .r14) (.imm 0#64), -- 4110: sbb r14, 0x0
  .sbb (.reg .r15) (.imm 0#64), -- 4111: sbb r15, 0x0
  .sbb (.reg .rdx) (.imm 0#64), -- 4112: sbb rdx, 0x0
  .add (.reg .r8) (.reg .rdx), -- 4113: add r8, rdx
  .adc (.reg .r9) (.imm 0#64), -- 4114: adc r9, 0x0
  .mov (.reg .rdx) (.mem ⟨some .rsp, none, 216#64⟩), -- 4115: mov rdx, [rsp + (48* 4)+ 0x18]
  .xor (.reg .r10) (.reg .r10), -- 4116: xor r10d, r10d
  .mulx .rbx .rax (.mem ⟨some .rsp, none, 48#64⟩), -- 4117: mulx rbx, rax, [rsp + (48* 1)]
  .adcx .r11 (.reg .rax), -- 4118: adcx r11, rax
  .adox .r12 (.reg .rbx), -- 4119: adox r12, rbx
  .mulx .rbx .rax (.mem ⟨some .rsp, none, 56#64⟩), -- 4120: mulx rbx, rax, [rsp + (48* 1)+ 0x8]
  .adcx .r12 (.reg .rax), -- 4121: adcx r12, rax
  .adox .r13 (.reg .rbx), -- 4122: adox r13, rbx
  .mulx .rbx .rax (.mem ⟨some .rsp, none, 64#64⟩), -- 4123: mulx rbx, rax, [rsp + (48* 1)+ 0x10]
  .adcx .r13 (.reg .rax), -- 4124: adcx r13, rax
  .adox .r14 (.reg .rbx), -- 4125: adox r14, rbx
  .mulx .rbx .rax (.mem ⟨some .rsp, none, 72#64⟩), -- 4126: mulx rbx, rax, [rsp + (48* 1)+ 0x18]
  .adcx .r14 (.reg .rax), -- 4127: adcx r14, rax
  .adox .r15 (.reg .rbx), -- 4128: adox r15, rbx
  .mulx .rbx .rax (.mem ⟨some .rsp, none, 80#64⟩), -- 4129: mulx rbx, rax, [rsp + (48* 1)+ 0x20]
  .adcx .r15 (.reg .rax), -- 4130: adcx r15, rax
  .adox .r8 (.reg .rbx), -- 4131: adox r8, rbx
  .adox .r9 (.reg .r10), -- 4132: adox r9, r10
  .mulx .rbx .rax (.mem ⟨some .rsp, none, 88#64⟩), -- 4133: mulx rbx, rax, [rsp + (48* 1)+ 0x28]
  .adc (.reg .r8) (.reg .rax), -- 4134: adc r8, rax
  .adc (.reg .r9) (.reg .rbx), -- 4135: adc r9, rbx
  .adc (.reg .r10) (.reg .r10), -- 4136: adc r10, r10
  .mov (.reg .rdx) (.reg .r11), -- 4137: mov rdx, r11
  .shl (.reg .rdx) (.imm 32#64), -- 4138: shl rdx, 0x20
  .add (.reg .rdx) (.reg .r11), -- 4139: add rdx, r11
  .xor (.reg .rbp) (.reg .rbp), -- 4140: xor ebp, ebp
  .mov (.reg .rax) (.imm 0xffffffff00000001#64), -- 4141: mov rax, 0xffffffff00000001
  .mulx .rax .rbx (.reg .rax), -- 4142: mulx rax, rbx, rax
  .mov (.reg .rbx) (.imm 0xffffffff#64), -- 4143: mov ebx, 0xffffffff
  .mulx .rbx .r11 (.reg .rbx), -- 4144: mulx rbx, r11, rbx
  .adc (.reg .rax) (.reg .r11), -- 4145: adc rax, r11
  .adc (.reg .rbx) (.reg .rdx), -- 4146: adc rbx, rdx
  .adc32 .rbp .rbp, -- 4147: adc ebp, ebp
  .sub (.reg .r12) (.reg .rax), -- 4148: sub r12, rax
  .sbb (.reg .r13) (.reg .rbx), -- 4149: sbb r13, rbx
  .sbb (.reg .r14) (.reg .rbp), -- 4150: sbb r14, rbp
  .sbb (.reg .r15) (.imm 0#64), -- 4151: sbb r15, 0x0
  .sbb (.reg .r8) (.imm 0#64), -- 4152: sbb r8, 0x0
  .sbb (.reg .rdx) (.imm 0#64), -- 4153: sbb rdx, 0x0
  .add (.reg .r9) (.reg .rdx), -- 4154: add r9, rdx
  .adc (.reg .r10) (.imm 0#64), -- 4155: adc r10, 0x0
  .mov (.reg .rdx) (.mem ⟨some .rsp, none, 224#64⟩), -- 4156: mov rdx, [rsp + (48* 4)+ 0x20]
  .xor (.reg .r11) (.reg .r11), -- 4157: xor r11d, r11d
  .mulx .rbx .rax (.mem ⟨some .rsp, none, 48#64⟩), -- 4158: mulx rbx, rax, [rsp + (48* 1)]
  .adcx .r12 (.reg .rax), -- 4159: adcx r12, rax
  .adox .r13 (.reg .rbx), -- 4160: adox r13, rbx
  .mulx .rbx .rax (.mem ⟨some .rsp, none, 56#64⟩), -- 4161: mulx rbx, rax, [rsp + (48* 1)+ 0x8]
  .adcx .r13 (.reg .rax), -- 4162: adcx r13, rax
  .adox .r14 (.reg .rbx), -- 4163: adox r14, rbx
  .mulx .rbx .rax (.mem ⟨some .rsp, none, 64#64⟩), -- 4164: mulx rbx, rax, [rsp + (48* 1)+ 0x10]
  .adcx .r14 (.reg .rax), -- 4165: adcx r14, rax
  .adox .r15 (.reg .rbx), -- 4166: adox r15, rbx
  .mulx .rbx .rax (.mem ⟨some .rsp, none, 72#64⟩), -- 4167: mulx rbx, rax, [rsp + (48* 1)+ 0x18]
  .adcx .r15 (.reg .rax), -- 4168: adcx r15, rax
  .adox .r8 (.reg .rbx), -- 4169: adox r8, rbx
  .mulx .rbx .rax (.mem ⟨some .rsp, none, 80#64⟩), -- 4170: mulx rbx, rax, [rsp + (48* 1)+ 0x20]
  .adcx .r8 (.reg .rax), -- 4171: adcx r8, rax
  .adox .r9 (.reg .rbx), -- 4172: adox r9, rbx
  .adox .r10 (.reg .r11), -- 4173: adox r10, r11
  .mulx .rbx .rax (.mem ⟨some .rsp, none, 88#64⟩), -- 4174: mulx rbx, rax, [rsp + (48* 1)+ 0x28]
  .adc (.reg .r9) (.reg .rax), -- 4175: adc r9, rax
  .adc (.reg .r10) (.reg .rbx), -- 4176: adc r10, rbx
  .adc (.reg .r11) (.reg .r11), -- 4177: adc r11, r11
  .mov (.reg .rdx) (.reg .r12), -- 4178: mov rdx, r12
  .shl (.reg .rdx) (.imm 32#64), -- 4179: shl rdx, 0x20
  .add (.reg .rdx) (.reg .r12), -- 4180: add rdx, r12
  .xor (.reg .rbp) (.reg .rbp), -- 4181: xor ebp, ebp
  .mov (.reg .rax) (.imm 0xffffffff00000001#64), -- 4182: mov rax, 0xffffffff00000001
  .mulx .rax .rbx (.reg .rax), -- 4183: mulx rax, rbx, rax
  .mov (.reg .rbx) (.imm 0xffffffff#64), -- 4184: mov ebx, 0xffffffff
  .mulx .rbx .r12 (.reg .rbx), -- 4185: mulx rbx, r12, rbx
  .adc (.reg .rax) (.reg .r12), -- 4186: adc rax, r12
  .adc (.reg .rbx) (.reg .rdx), -- 4187: adc rbx, rdx
  .adc32 .rbp .rbp, -- 4188: adc ebp, ebp
  .sub (.reg .r13) (.reg .rax), -- 4189: sub r13, rax
  .sbb (.reg .r14) (.reg .rbx), -- 4190: sbb r14, rbx
  .sbb (.reg .r15) (.reg .rbp), -- 4191: sbb r15, rbp
  .sbb (.reg .r8) (.imm 0#64), -- 4192: sbb r8, 0x0
  .sbb (.reg .r9) (.imm 0#64), -- 4193: sbb r9, 0x0
  .sbb (.reg .rdx) (.imm 0#64), -- 4194: sbb rdx, 0x0
  .add (.reg .r10) (.reg .rdx), -- 4195: add r10, rdx
  .adc (.reg .r11) (.imm 0#64), -- 4196: adc r11, 0x0
  .mov (.reg .rdx) (.mem ⟨some .rsp, none, 232#64⟩), -- 4197: mov rdx, [rsp + (48* 4)+ 0x28]
  .xor (.reg .r12) (.reg .r12), -- 4198: xor r12d, r12d
  .mulx .rbx .rax (.mem ⟨some .rsp, none, 48#64⟩), -- 4199: mulx rbx, rax, [rsp + (48* 1)]
  .adcx .r13 (.reg .rax), -- 4200: adcx r13, rax
  .adox .r14 (.reg .rbx), -- 4201: adox r14, rbx
  .mulx .rbx .rax (.mem ⟨some .rsp, none, 56#64⟩), -- 4202: mulx rbx, rax, [rsp + (48* 1)+ 0x8]
  .adcx .r14 (.reg .rax), -- 4203: adcx r14, rax
  .adox .r15 (.reg .rbx), -- 4204: adox r15, rbx
  .mulx .rbx .rax (.mem ⟨some .rsp, none, 64#64⟩), -- 4205: mulx rbx, rax, [rsp + (48* 1)+ 0x10]
  .adcx .r15 (.reg .rax), -- 4206: adcx r15, rax
  .adox .r8 (.reg .rbx), -- 4207: adox r8, rbx
  .mulx .rbx .rax (.mem ⟨some .rsp, none, 72#64⟩), -- 4208: mulx rbx, rax, [rsp + (48* 1)+ 0x18]
  .adcx .r8 (.reg .rax), -- 4209: adcx r8, rax
  .adox .r9 (.reg .rbx), -- 4210: adox r9, rbx
  .mulx .rbx .rax (.mem ⟨some .rsp, none, 80#64⟩), -- 4211: mulx rbx, rax, [rsp + (48* 1)+ 0x20]
  .adcx .r9 (.reg .rax), -- 4212: adcx r9, rax
  .adox .r10 (.reg .rbx), -- 4213: adox r10, rbx
  .adox .r11 (.reg .r12), -- 4214: adox r11, r12
  .mulx .rbx .rax (.mem ⟨some .rsp, none, 88#64⟩), -- 4215: mulx rbx, rax, [rsp + (48* 1)+ 0x28]
  .adc (.reg .r10) (.reg .rax), -- 4216: adc r10, rax
  .adc (.reg .r11) (.reg .rbx), -- 4217: adc r11, rbx
  .adc (.reg .r12) (.reg .r12), -- 4218: adc r12, r12
  .mov (.reg .rdx) (.reg .r13), -- 4219: mov rdx, r13
  .shl (.reg .rdx) (.imm 32#64), -- 4220: shl rdx, 0x20
  .add (.reg .rdx) (.reg .r13), -- 4221: add rdx, r13
  .xor (.reg .rbp) (.reg .rbp), -- 4222: xor ebp, ebp
  .mov (.reg .rax) (.imm 0xffffffff00000001#64), -- 4223: mov rax, 0xffffffff00000001
  .mulx .rax .rbx (.reg .rax), -- 4224: mulx rax, rbx, rax
  .mov (.reg .rbx) (.imm 0xffffffff#64), -- 4225: mov ebx, 0xffffffff
  .mulx .rbx .r13 (.reg .rbx), -- 4226: mulx rbx, r13, rbx
  .adc (.reg .rax) (.reg .r13), -- 4227: adc rax, r13
  .adc (.reg .rbx) (.reg .rdx), -- 4228: adc rbx, rdx
  .adc32 .rbp .rbp, -- 4229: adc ebp, ebp
  .sub (.reg .r14) (.reg .rax), -- 4230: sub r14, rax
  .sbb (.reg .r15) (.reg .rbx), -- 4231: sbb r15, rbx
  .sbb (.reg .r8) (.reg .rbp), -- 4232: sbb r8, rbp
  .sbb (.reg .r9) (.imm 0#64), -- 4233: sbb r9, 0x0
  .sbb (.reg .r10) (.imm 0#64), -- 4234: sbb r10, 0x0
  .sbb (.reg .rdx) (.imm 0#64), -- 4235: sbb rdx, 0x0
  .add (.reg .r11) (.reg .rdx), -- 4236: add r11, rdx
  .adc (.reg .r12) (.imm 0#64), -- 4237: adc r12, 0x0
  .xor (.reg .rdx) (.reg .rdx), -- 4238: xor edx, edx
  .xor (.reg .rbp) (.reg .rbp), -- 4239: xor ebp, ebp
  .xor (.reg .r13) (.reg .r13), -- 4240: xor r13d, r13d
  .mov (.reg .rax) (.imm 0xffffffff00000001#64), -- 4241: mov rax, 0xffffffff00000001
  .add (.reg .rax) (.reg .r14), -- 4242: add rax, r14
  .mov (.reg .rbx) (.imm 0xffffffff#64), -- 4243: mov ebx, 0xffffffff
  .adc (.reg .rbx) (.reg .r15), -- 4244: adc rbx, r15
  .mov (.reg .rcx) (.imm 1#64), -- 4245: mov ecx, 0x1
  .adc (.reg .rcx) (.reg .r8), -- 4246: adc rcx, r8
  .adc (.reg .rdx) (.reg .r9), -- 4247: adc rdx, r9
  .adc (.reg .rbp) (.reg .r10), -- 4248: adc rbp, r10
  .adc (.reg .r13) (.reg .r11), -- 4249: adc r13, r11
  .adc (.reg .r12) (.imm 0#64), -- 4250: adc r12, 0x0
  .cmov .nz .r14 (.reg .rax), -- 4251: cmovne r14, rax
  .cmov .nz .r15 (.reg .rbx), -- 4252: cmovne r15, rbx
  .cmov .nz .r8 (.reg .rcx), -- 4253: cmovne r8, rcx
  .cmov .nz .r9 (.reg .rdx), -- 4254: cmovne r9, rdx
  .cmov .nz .r10 (.reg .rbp), -- 4255: cmovne r10, rbp
  .cmov .nz .r11 (.reg .r13), -- 4256: cmovne r11, r13
  .mov (.mem ⟨some .rsp, none, 192#64⟩) (.reg .r14), -- 4257: mov [rsp + (48* 4)], r14
  .mov (.mem ⟨some .rsp, none, 200#64⟩) (.reg .r15), -- 4258: mov [rsp + (48* 4)+ 0x8], r15
  .mov (.mem ⟨some .rsp, none, 208#64⟩) (.reg .r8), -- 4259: mov [rsp + (48* 4)+ 0x10], r8
  .mov (.mem ⟨some .rsp, none, 216#64⟩) (.reg .r9), -- 4260: mov [rsp + (48* 4)+ 0x18], r9
  .mov (.mem ⟨some .rsp, none, 224#64⟩) (.reg .r10), -- 4261: mov [rsp + (48* 4)+ 0x20], r10
  .mov (.mem ⟨some .rsp, none, 232#64⟩) (.reg .r11), -- 4262: mov [rsp + (48* 4)+ 0x28], r11
  .mov (.reg .rax) (.mem ⟨some .rsp, none, 192#64⟩), -- 4263: mov rax, [rsp + (48* 4)]
  .sub (.reg .rax) (.mem ⟨some .rsp, none, 144#64⟩), -- 4264: sub rax, [rsp + (48* 3)]
  .mov (.reg .rdx) (.mem ⟨some .rsp, none, 200#64⟩), -- 4265: mov rdx, [rsp + (48* 4)+ 0x8]
  .sbb (.reg .rdx) (.mem ⟨some .rsp, none, 152#64⟩), -- 4266: sbb rdx, [rsp + (48* 3)+ 0x8]
  .mov (.reg .r8) (.mem ⟨some .rsp, none, 208#64⟩), -- 4267: mov r8, [rsp + (48* 4)+ 0x10]
  .sbb (.reg .r8) (.mem ⟨some .rsp, none, 160#64⟩), -- 4268: sbb r8, [rsp + (48* 3)+ 0x10]
  .mov (.reg .r9) (.mem ⟨some .rsp, none, 216#64⟩), -- 4269: mov r9, [rsp + (48* 4)+ 0x18]
  .sbb (.reg .r9) (.mem ⟨some .rsp, none, 168#64⟩), -- 4270: sbb r9, [rsp + (48* 3)+ 0x18]
  .mov (.reg .r10) (.mem ⟨some .rsp, none, 224#64⟩), -- 4271: mov r10, [rsp + (48* 4)+ 0x20]
  .sbb (.reg .r10) (.mem ⟨some .rsp, none, 176#64⟩), -- 4272: sbb r10, [rsp + (48* 3)+ 0x20]
  .mov (.reg .r11) (.mem ⟨some .rsp, none, 232#64⟩), -- 4273: mov r11, [rsp + (48* 4)+ 0x28]
  .sbb (.reg .r11) (.mem ⟨some .rsp, none, 184#64⟩), -- 4274: sbb r11, [rsp + (48* 3)+ 0x28]
  .sbb (.reg .rcx) (.reg .rcx), -- 4275: sbb rcx, rcx
  .mov (.reg .rsi) (.imm 0xffffffff#64), -- 4276: mov esi, 0xffffffff
  .and (.reg .rcx) (.reg .rsi), -- 4277: and rcx, rsi
  .xor (.reg .rsi) (.reg .rsi), -- 4278: xor rsi, rsi
  .sub (.reg .rsi) (.reg .rcx), -- 4279: sub rsi, rcx
  .sub (.reg .rax) (.reg .rsi), -- 4280: sub rax, rsi
  .mov (.mem ⟨some .rsp, none, 192#64⟩) (.reg .rax), -- 4281: mov [rsp + (48* 4)], rax
  .sbb (.reg .rdx) (.reg .rcx), -- 4282: sbb rdx, rcx
  .mov (.mem ⟨some .rsp, none, 200#64⟩) (.reg .rdx), -- 4283: mov [rsp + (48* 4)+ 0x8], rdx
  .sbb (.reg .rax) (.reg .rax), -- 4284: sbb rax, rax
  .and (.reg .rcx) (.reg .rsi), -- 4285: and rcx, rsi
  .neg (.reg .rax), -- 4286: neg rax
  .sbb (.reg .r8) (.reg .rcx), -- 4287: sbb r8, rcx
  .mov (.mem ⟨some .rsp, none, 208#64⟩) (.reg .r8), -- 4288: mov [rsp + (48* 4)+ 0x10], r8
  .sbb (.reg .r9) (.imm 0#64), -- 4289: sbb r9, 0x0
  .mov (.mem ⟨some .rsp, none, 216#64⟩) (.reg .r9), -- 4290: mov [rsp + (48* 4)+ 0x18], r9
  .sbb (.reg .r10) (.imm 0#64), -- 4291: sbb r10, 0x0
  .mov (.mem ⟨some .rsp, none, 224#64⟩) (.reg .r10), -- 4292: mov [rsp + (48* 4)+ 0x20], r10
  .sbb (.reg .r11) (.imm 0#64), -- 4293: sbb r11, 0x0
  .mov (.mem ⟨some .rsp, none, 232#64⟩) (.reg .r11), -- 4294: mov [rsp + (48* 4)+ 0x28], r11
  .mov (.reg .rcx) (.mem ⟨some .rsp, none, 344#64⟩), -- 4295: mov rcx, [rsp + (48* 7 + 8)]
  .mov (.reg .r8) (.mem ⟨some .rcx, none, 96#64⟩), -- 4296: mov r8, [rcx + (2 * 48)]
  .mov (.reg .r9) (.mem ⟨some .rcx, none, 104#64⟩), -- 4297: mov r9, [rcx + (2 * 48)+ 8]
  .mov (.reg .r10) (.mem ⟨some .rcx, none, 112#64⟩), -- 4298: mov r10, [rcx + (2 * 48)+ 16]
  .mov (.reg .r11) (.mem ⟨some .rcx, none, 120#64⟩), -- 4299: mov r11, [rcx + (2 * 48)+ 24]
  .mov (.reg .rbx) (.mem ⟨some .rcx, none, 128#64⟩), -- 4300: mov rbx, [rcx + (2 * 48)+ 32]
  .mov (.reg .rbp) (.mem ⟨some .rcx, none, 136#64⟩), -- 4301: mov rbp, [rcx + (2 * 48)+ 40]
  .mov (.reg .rax) (.reg .r8), -- 4302: mov rax, r8
  .mov (.reg .rdx) (.reg .r9), -- 4303: mov rdx, r9
  .or (.reg .rax) (.reg .r10), -- 4304: or rax, r10
  .or (.reg .rdx) (.reg .r11), -- 4305: or rdx, r11
  .or (.reg .rax) (.reg .rbx), -- 4306: or rax, rbx
  .or (.reg .rdx) (.reg .rbp), -- 4307: or rdx, rbp
  .or (.reg .rax) (.reg .rdx), -- 4308: or rax, rdx
  .neg (.reg .rax), -- 4309: neg rax
  .sbb (.reg .rax) (.reg .rax), -- 4310: sbb rax, rax
  .mov (.reg .rsi) (.mem ⟨some .rsp, none, 336#64⟩), -- 4311: mov rsi, [rsp + (48* 7)]
  .mov (.reg .r12) (.mem ⟨some .rsi, none, 96#64⟩), -- 4312: mov r12, [rsi + (2 * 48)]
  .mov (.reg .r13) (.mem ⟨some .rsi, none, 104#64⟩), -- 4313: mov r13, [rsi + (2 * 48)+ 8]
  .mov (.reg .r14) (.mem ⟨some .rsi, none, 112#64⟩), -- 4314: mov r14, [rsi + (2 * 48)+ 16]
  .mov (.reg .r15) (.mem ⟨some .rsi, none, 120#64⟩), -- 4315: mov r15, [rsi + (2 * 48)+ 24]
  .mov (.reg .rdx) (.mem ⟨some .rsi, none, 128#64⟩), -- 4316: mov rdx, [rsi + (2 * 48)+ 32]
  .mov (.reg .rcx) (.mem ⟨some .rsi, none, 136#64⟩), -- 4317: mov rcx, [rsi + (2 * 48)+ 40]
  .cmov .zr .r8 (.reg .r12), -- 4318: cmovz r8, r12
  .cmov .zr .r9 (.reg .r13), -- 4319: cmovz r9, r13
  .cmov .zr .r10 (.reg .r14), -- 4320: cmovz r10, r14
  .cmov .zr .r11 (.reg .r15), -- 4321: cmovz r11, r15
  .cmov .zr .rbx (.reg .rdx), -- 4322: cmovz rbx, rdx
  .cmov .zr .rbp (.reg .rcx), -- 4323: cmovz rbp, rcx
  .or (.reg .r12) (.reg .r13), -- 4324: or r12, r13
  .or (.reg .r14) (.reg .r15), -- 4325: or r14, r15
  .or (.reg .rdx) (.reg .rcx), -- 4326: or rdx, rcx
  .or (.reg .r12) (.reg .r14), -- 4327: or r12, r14
  .or (.reg .rdx) (.reg .r12), -- 4328: or rdx, r12
  .neg (.reg .rdx), -- 4329: neg rdx
  .sbb (.reg .rdx) (.reg .rdx), -- 4330: sbb rdx, rdx
  .cmp (.reg .rax) (.reg .rdx), -- 4331: cmp rax, rdx
  .cmov .zr .r8 (.mem ⟨some .rsp, none, 240#64⟩), -- 4332: cmovz r8, [rsp + (48* 5)]
  .cmov .zr .r9 (.mem ⟨some .rsp, none, 248#64⟩), -- 4333: cmovz r9, [rsp + (48* 5)+ 8]
  .cmov .zr .r10 (.mem ⟨some .rsp, none, 256#64⟩), -- 4334: cmovz r10, [rsp + (48* 5)+ 16]
  .cmov .zr .r11 (.mem ⟨some .rsp, none, 264#64⟩), -- 4335: cmovz r11, [rsp + (48* 5)+ 24]
  .cmov .zr .rbx (.mem ⟨some .rsp, none, 272#64⟩), -- 4336: cmovz rbx, [rsp + (48* 5)+ 32]
  .cmov .zr .rbp (.mem ⟨some .rsp, none, 280#64⟩), -- 4337: cmovz rbp, [rsp + (48* 5)+ 40]
  .mov (.mem ⟨some .rsp, none, 240#64⟩) (.reg .r8), -- 4338: mov [rsp + (48* 5)], r8
  .mov (.mem ⟨some .rsp, none, 248#64⟩) (.reg .r9), -- 4339: mov [rsp + (48* 5)+ 8], r9
  .mov (.mem ⟨some .rsp, none, 256#64⟩) (.reg .r10), -- 4340: mov [rsp + (48* 5)+ 16], r10
  .mov (.mem ⟨some .rsp, none, 264#64⟩) (.reg .r11), -- 4341: mov [rsp + (48* 5)+ 24], r11
  .mov (.mem ⟨some .rsp, none, 272#64⟩) (.reg .rbx), -- 4342: mov [rsp + (48* 5)+ 32], rbx
  .mov (.mem ⟨some .rsp, none, 280#64⟩) (.reg .rbp), -- 4343: mov [rsp + (48* 5)+ 40], rbp
  .mov (.reg .rcx) (.mem ⟨some .rsp, none, 344#64⟩), -- 4344: mov rcx, [rsp + (48* 7 + 8)]
  .mov (.reg .rsi) (.mem ⟨some .rsp, none, 336#64⟩), -- 4345: mov rsi, [rsp + (48* 7)]
  .mov (.reg .r8) (.mem ⟨some .rsp, none, 0#64⟩), -- 4346: mov r8, [rsp + (48* 0)]
  .cmov .cy .r8 (.mem ⟨some .rsi, none, 0#64⟩), -- 4347: cmovb r8, [rsi + 0]
  .cmov .ab .r8 (.mem ⟨some .rcx, none, 0#64⟩), -- 4348: cmovnbe r8, [rcx + 0]
  .mov (.reg .r9) (.mem ⟨some .rsp, none, 8#64⟩), -- 4349: mov r9, [rsp + (48* 0)+ 8]
  .cmov .cy .r9 (.mem ⟨some .rsi, none, 8#64⟩), -- 4350: cmovb r9, [rsi + 0+ 8]
  .cmov .ab .r9 (.mem ⟨some .rcx, none, 8#64⟩), -- 4351: cmovnbe r9, [rcx + 0+ 8]
  .mov (.reg .r10) (.mem ⟨some .rsp, none, 16#64⟩), -- 4352: mov r10, [rsp + (48* 0)+ 16]
  .cmov .cy .r10 (.mem ⟨some .rsi, none, 16#64⟩), -- 4353: cmovb r10, [rsi + 0+ 16]
  .cmov .ab .r10 (.mem ⟨some .rcx, none, 16#64⟩), -- 4354: cmovnbe r10, [rcx + 0+ 16]
  .mov (.reg .r11) (.mem ⟨some .rsp, none, 24#64⟩), -- 4355: mov r11, [rsp + (48* 0)+ 24]
  .cmov .cy .r11 (.mem ⟨some .rsi, none, 24#64⟩), -- 4356: cmovb r11, [rsi + 0+ 24]
  .cmov .ab .r11 (.mem ⟨some .rcx, none, 24#64⟩), -- 4357: cmovnbe r11, [rcx + 0+ 24]
  .mov (.reg .rbx) (.mem ⟨some .rsp, none, 32#64⟩), -- 4358: mov rbx, [rsp + (48* 0)+ 32]
  .cmov .cy .rbx (.mem ⟨some .rsi, none, 32#64⟩), -- 4359: cmovb rbx, [rsi + 0+ 32]
  .cmov .ab .rbx (.mem ⟨some .rcx, none, 32#64⟩), -- 4360: cmovnbe rbx, [rcx + 0+ 32]
  .mov (.reg .rbp) (.mem ⟨some .rsp, none, 40#64⟩), -- 4361: mov rbp, [rsp + (48* 0)+ 40]
  .cmov .cy .rbp (.mem ⟨some .rsi, none, 40#64⟩), -- 4362: cmovb rbp, [rsi + 0+ 40]
  .cmov .ab .rbp (.mem ⟨some .rcx, none, 40#64⟩), -- 4363: cmovnbe rbp, [rcx + 0+ 40]
  .mov (.reg .r12) (.mem ⟨some .rsp, none, 192#64⟩), -- 4364: mov r12, [rsp + (48* 4)]
  .cmov .cy .r12 (.mem ⟨some .rsi, none, 48#64⟩), -- 4365: cmovb r12, [rsi + 48]
  .cmov .ab .r12 (.mem ⟨some .rcx, none, 48#64⟩), -- 4366: cmovnbe r12, [rcx + 48]
  .mov (.reg .r13) (.mem ⟨some .rsp, none, 200#64⟩), -- 4367: mov r13, [rsp + (48* 4)+ 8]
  .cmov .cy .r13 (.mem ⟨some .rsi, none, 56#64⟩), -- 4368: cmovb r13, [rsi + 48+ 8]
  .cmov .ab .r13 (.mem ⟨some .rcx, none, 56#64⟩), -- 4369: cmovnbe r13, [rcx + 48+ 8]
  .mov (.reg .r14) (.mem ⟨some .rsp, none, 208#64⟩), -- 4370: mov r14, [rsp + (48* 4)+ 16]
  .cmov .cy .r14 (.mem ⟨some .rsi, none, 64#64⟩), -- 4371: cmovb r14, [rsi + 48+ 16]
  .cmov .ab .r14 (.mem ⟨some .rcx, none, 64#64⟩), -- 4372: cmovnbe r14, [rcx + 48+ 16]
  .mov (.reg .r15) (.mem ⟨some .rsp, none, 216#64⟩), -- 4373: mov r15, [rsp + (48* 4)+ 24]
  .cmov .cy .r15 (.mem ⟨some .rsi, none, 72#64⟩), -- 4374: cmovb r15, [rsi + 48+ 24]
  .cmov .ab .r15 (.mem ⟨some .rcx, none, 72#64⟩), -- 4375: cmovnbe r15, [rcx + 48+ 24]
  .mov (.reg .rdx) (.mem ⟨some .rsp, none, 224#64⟩), -- 4376: mov rdx, [rsp + (48* 4)+ 32]
  .cmov .cy .rdx (.mem ⟨some .rsi, none, 80#64⟩), -- 4377: cmovb rdx, [rsi + 48+ 32]
  .cmov .ab .rdx (.mem ⟨some .rcx, none, 80#64⟩), -- 4378: cmovnbe rdx, [rcx + 48+ 32]
  .mov (.reg .rax) (.mem ⟨some .rsp, none, 232#64⟩), -- 4379: mov rax, [rsp + (48* 4)+ 40]
  .cmov .cy .rax (.mem ⟨some .rsi, none, 88#64⟩), -- 4380: cmovb rax, [rsi + 48+ 40]
  .cmov .ab .rax (.mem ⟨some .rcx, none, 88#64⟩), -- 4381: cmovnbe rax, [rcx + 48+ 40]
  .mov (.mem ⟨some .rdi, none, 0#64⟩) (.reg .r8), -- 4382: mov [rdi + 0], r8
  .mov (.mem ⟨some .rdi, none, 8#64⟩) (.reg .r9), -- 4383: mov [rdi + 0+ 8], r9
  .mov (.mem ⟨some .rdi, none, 16#64⟩) (.reg .r10), -- 4384: mov [rdi + 0+ 16], r10
  .mov (.mem ⟨some .rdi, none, 24#64⟩) (.reg .r11), -- 4385: mov [rdi + 0+ 24], r11
  .mov (.mem ⟨some .rdi, none, 32#64⟩) (.reg .rbx), -- 4386: mov [rdi + 0+ 32], rbx
  .mov (.mem ⟨some .rdi, none, 40#64⟩) (.reg .rbp), -- 4387: mov [rdi + 0+ 40], rbp
  .mov (.reg .r8) (.mem ⟨some .rsp, none, 240#64⟩), -- 4388: mov r8, [rsp + (48* 5)]
  .mov (.reg .r9) (.mem ⟨some .rsp, none, 248#64⟩), -- 4389: mov r9, [rsp + (48* 5)+ 8]
  .mov (.reg .r10) (.mem ⟨some .rsp, none, 256#64⟩), -- 4390: mov r10, [rsp + (48* 5)+ 16]
  .mov (.reg .r11) (.mem ⟨some .rsp, none, 264#64⟩), -- 4391: mov r11, [rsp + (48* 5)+ 24]
  .mov (.reg .rbx) (.mem ⟨some .rsp, none, 272#64⟩), -- 4392: mov rbx, [rsp + (48* 5)+ 32]
  .mov (.reg .rbp) (.mem ⟨some .rsp, none, 280#64⟩), -- 4393: mov rbp, [rsp + (48* 5)+ 40]
  .mov (.mem ⟨some .rdi, none, 48#64⟩) (.reg .r12), -- 4394: mov [rdi + 48], r12
  .mov (.mem ⟨some .rdi, none, 56#64⟩) (.reg .r13), -- 4395: mov [rdi + 48+ 8], r13
  .mov (.mem ⟨some .rdi, none, 64#64⟩) (.reg .r14), -- 4396: mov [rdi + 48+ 16], r14
  .mov (.mem ⟨some .rdi, none, 72#64⟩) (.reg .r15), -- 4397: mov [rdi + 48+ 24], r15
  .mov (.mem ⟨some .rdi, none, 80#64⟩) (.reg .rdx), -- 4398: mov [rdi + 48+ 32], rdx
  .mov (.mem ⟨some .rdi, none, 88#64⟩) (.reg .rax), -- 4399: mov [rdi + 48+ 40], rax
  .mov (.mem ⟨some .rdi, none, 96#64⟩) (.reg .r8), -- 4400: mov [rdi + (2 * 48)], r8
  .mov (.mem ⟨some .rdi, none, 104#64⟩) (.reg .r9), -- 4401: mov [rdi + (2 * 48)+ 8], r9
  .mov (.mem ⟨some .rdi, none, 112#64⟩) (.reg .r10), -- 4402: mov [rdi + (2 * 48)+ 16], r10
  .mov (.mem ⟨some .rdi, none, 120#64⟩) (.reg .r11), -- 4403: mov [rdi + (2 * 48)+ 24], r11
  .mov (.mem ⟨some .rdi, none, 128#64⟩) (.reg .rbx), -- 4404: mov [rdi + (2 * 48)+ 32], rbx
  .mov (.mem ⟨some .rdi, none, 136#64⟩) (.reg .rbp), -- 4405: mov [rdi + (2 * 48)+ 40], rbp
  .add (.reg .rsp) (.imm 352#64), -- 4406: add rsp, 352
  .pop .r15, -- 4407: pop r15
  .pop .r14, -- 4408: pop r14
  .pop .r13, -- 4409: pop r13
  .pop .r12, -- 4410: pop r12
  .pop .rbp, -- 4411: pop rbp
  .pop .rbx] -- 4412: pop rbx

/-- The registers that the operands of p384_montjadd.rs:944-1089 say may change. -/
def p384MontjaddRegs : List Reg := [.rdi, .rsi, .rdx, .r10, .r11, .r12, .r13, .r14, .r15, .r8, .r9, .rax, .rcx]

end Verif.X86.Asm
