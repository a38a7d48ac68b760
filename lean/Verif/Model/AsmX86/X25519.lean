import Verif.Model.X86

/-!
Generated by tools/gen_asm.py from `graviola/src/low/x86_64`: the `asm!` blocks as lists of instructions.
The comment at the end of a line gives its position; jump targets are positions.
-/
namespace Verif.X86.Asm
open Verif.X86

/-- low/x86_64/curve25519_x25519.rs:650-2233.  Operands: inout("rdi") res.as_mut_ptr() => _; inout("rsi") scalar.as_ptr() => _; inout("rdx") point.as_ptr() => _; out("r10") _; out("r11") _; out("r12") _; out("r13") _; out("r14") _; out("r15") _; out("r8") _; out("r9") _; out("rax") _; out("rcx") _. -/
def curve25519X25519 : Prog := [
  .nop, -- 0: endbr64
  .push .rbx, -- 1: push rbx
  .push .rbp, -- 2: push rbp
  .push .r12, -- 3: push r12
  .push .r13, -- 4: push r13
  .push .r14, -- 5: push r14
  .push .r15, -- 6: push r15
  .sub (.reg .rsp) (.imm 416#64), -- 7: sub rsp, 13 * 32
  .mov (.mem ⟨some .rsp, none, 384#64⟩) (.reg .rdi), -- 8: mov QWORD PTR [rsp + 12 * 32], rdi
  .mov (.reg .rax) (.mem ⟨some .rsi, none, 0#64⟩), -- 9: mov rax, [rsi]
  .mov (.mem ⟨some .rsp, none, 0#64⟩) (.reg .rax), -- 10: mov [rsp], rax
  .mov (.reg .rax) (.mem ⟨some .rsi, none, 8#64⟩), -- 11: mov rax, [rsi + 8]
  .mov (.mem ⟨some .rsp, none, 8#64⟩) (.reg .rax), -- 12: mov [rsp + 8], rax
  .mov (.reg .rax) (.mem ⟨some .rsi, none, 16#64⟩), -- 13: mov rax, [rsi + 16]
  .mov (.mem ⟨some .rsp, none, 16#64⟩) (.reg .rax), -- 14: mov [rsp + 16], rax
  .mov (.reg .rax) (.mem ⟨some .rsi, none, 24#64⟩), -- 15: mov rax, [rsi + 24]
  .mov (.mem ⟨some .rsp, none, 24#64⟩) (.reg .rax), -- 16: mov [rsp + 24], rax
  .mov (.reg .r8) (.mem ⟨some .rdx, none, 0#64⟩), -- 17: mov r8, [rdx]
  .mov (.reg .r9) (.mem ⟨some .rdx, none, 8#64⟩), -- 18: mov r9, [rdx + 8]
  .mov (.reg .r10) (.mem ⟨some .rdx, none, 16#64⟩), -- 19: mov r10, [rdx + 16]
  .mov (.reg .r11) (.mem ⟨some .rdx, none, 24#64⟩), -- 20: mov r11, [rdx + 24]
  .btr .r11 63#64, -- 21: btr r11, 63
  .mov (.mem ⟨some .rsp, none, 32#64⟩) (.reg .r8), -- 22: mov [rsp + 32], r8
  .mov (.mem ⟨some .rsp, none, 40#64⟩) (.reg .r9), -- 23: mov [rsp + 40], r9
  .mov (.mem ⟨some .rsp, none, 48#64⟩) (.reg .r10), -- 24: mov [rsp + 48], r10
  .mov (.mem ⟨some .rsp, none, 56#64⟩) (.reg .r11), -- 25: mov [rsp + 56], r11
  .mov (.reg .rax) (.imm 1#64), -- 26: mov eax, 1
  .mov (.mem ⟨some .rsp, none, 400#64⟩) (.reg .rax), -- 27: mov QWORD PTR [rsp + 12 * 32+ 16], rax
  .mov (.mem ⟨some .rsp, none, 256#64⟩) (.reg .r8), -- 28: mov [rsp + 256], r8
  .mov (.mem ⟨some .rsp, none, 96#64⟩) (.reg .rax), -- 29: mov [rsp + 96], rax
  .xor (.reg .rax) (.reg .rax), -- 30: xor eax, eax
  .mov (.mem ⟨some .rsp, none, 264#64⟩) (.reg .r9), -- 31: mov [rsp + 264], r9
  .mov (.mem ⟨some .rsp, none, 104#64⟩) (.reg .rax), -- 32: mov [rsp + 104], rax
  .mov (.mem ⟨some .rsp, none, 272#64⟩) (.reg .r10), -- 33: mov [rsp + 272], r10
  .mov (.mem ⟨some .rsp, none, 112#64⟩) (.reg .rax), -- 34: mov [rsp + 112], rax
  .mov (.mem ⟨some .rsp, none, 280#64⟩) (.reg .r11), -- 35: mov [rsp + 280], r11
  .mov (.mem ⟨some .rsp, none, 120#64⟩) (.reg .rax), -- 36: mov [rsp + 120], rax
  .mov (.reg .r8) (.mem ⟨some .rsp, none, 256#64⟩), -- 37: mov r8, [rsp + (8 * 32)]
  .xor (.reg .rbx) (.reg .rbx), -- 38: xor ebx, ebx
  .sub (.reg .r8) (.mem ⟨some .rsp, none, 96#64⟩), -- 39: sub r8, [rsp + (3 * 32)]
  .mov (.reg .r9) (.mem ⟨some .rsp, none, 264#64⟩), -- 40: mov r9, [rsp + (8 * 32)+ 8]
  .sbb (.reg .r9) (.mem ⟨some .rsp, none, 104#64⟩), -- 41: sbb r9, [rsp + (3 * 32)+ 8]
  .mov (.reg .rcx) (.imm 38#64), -- 42: mov ecx, 38
  .mov (.reg .r10) (.mem ⟨some .rsp, none, 272#64⟩), -- 43: mov r10, [rsp + (8 * 32)+ 16]
  .sbb (.reg .r10) (.mem ⟨some .rsp, none, 112#64⟩), -- 44: sbb r10, [rsp + (3 * 32)+ 16]
  .mov (.reg .rax) (.mem ⟨some .rsp, none, 280#64⟩), -- 45: mov rax, [rsp + (8 * 32)+ 24]
  .sbb (.reg .rax) (.mem ⟨some .rsp, none, 120#64⟩), -- 46: sbb rax, [rsp + (3 * 32)+ 24]
  .cmov .nc .rcx (.reg .rbx), -- 47: cmovnc rcx, rbx
  .sub (.reg .r8) (.reg .rcx), -- 48: sub r8, rcx
  .sbb (.reg .r9) (.reg .rbx), -- 49: sbb r9, rbx
  .sbb (.reg .r10) (.reg .rbx), -- 50: sbb r10, rbx
  .sbb (.reg .rax) (.reg .rbx), -- 51: sbb rax, rbx
  .mov (.mem ⟨some .rsp, none, 352#64⟩) (.reg .r8), -- 52: mov [rsp + (11 * 32)], r8
  .mov (.mem ⟨some .rsp, none, 360#64⟩) (.reg .r9), -- 53: mov [rsp + (11 * 32)+ 8], r9
  .mov (.mem ⟨some .rsp, none, 368#64⟩) (.reg .r10), -- 54: mov [rsp + (11 * 32)+ 16], r10
  .mov (.mem ⟨some .rsp, none, 376#64⟩) (.reg .rax), -- 55: mov [rsp + (11 * 32)+ 24], rax
  .mov (.reg .r8) (.mem ⟨some .rsp, none, 256#64⟩), -- 56: mov r8, [rsp + (8 * 32)]
  .xor (.reg .rcx) (.reg .rcx), -- 57: xor ecx, ecx
  .add (.reg .r8) (.mem ⟨some .rsp, none, 96#64⟩), -- 58: add r8, [rsp + (3 * 32)]
  .mov (.reg .r9) (.mem ⟨some .rsp, none, 264#64⟩), -- 59: mov r9, [rsp + (8 * 32)+ 0x8]
  .adc (.reg .r9) (.mem ⟨some .rsp, none, 104#64⟩), -- 60: adc r9, [rsp + (3 * 32)+ 0x8]
  .mov (.reg .r10) (.mem ⟨some .rsp, none, 272#64⟩), -- 61: mov r10, [rsp + (8 * 32)+ 0x10]
  .adc (.reg .r10) (.mem ⟨some .rsp, none, 112#64⟩), -- 62: adc r10, [rsp + (3 * 32)+ 0x10]
  .mov (.reg .r11) (.mem ⟨some .rsp, none, 280#64⟩), -- 63: mov r11, [rsp + (8 * 32)+ 0x18]
  .adc (.reg .r11) (.mem ⟨some .rsp, none, 120#64⟩), -- 64: adc r11, [rsp + (3 * 32)+ 0x18]
  .mov (.reg .rax) (.imm 38#64), -- 65: mov eax, 38
  .cmov .nc .rax (.reg .rcx), -- 66: cmovnc rax, rcx
  .add (.reg .r8) (.reg .rax), -- 67: add r8, rax
  .adc (.reg .r9) (.reg .rcx), -- 68: adc r9, rcx
  .adc (.reg .r10) (.reg .rcx), -- 69: adc r10, rcx
  .adc (.reg .r11) (.reg .rcx), -- 70: adc r11, rcx
  .mov (.mem ⟨some .rsp, none, 320#64⟩) (.reg .r8), -- 71: mov [rsp + (10 * 32)], r8
  .mov (.mem ⟨some .rsp, none, 328#64⟩) (.reg .r9), -- 72: mov [rsp + (10 * 32)+ 0x8], r9
  .mov (.mem ⟨some .rsp, none, 336#64⟩) (.reg .r10), -- 73: mov [rsp + (10 * 32)+ 0x10], r10
  .mov (.mem ⟨some .rsp, none, 344#64⟩) (.reg .r11), -- 74: mov [rsp + (10 * 32)+ 0x18], r11
  .mov (.reg .rdx) (.mem ⟨some .rsp, none, 352#64⟩), -- 75: mov rdx, [rsp + (11 * 32)]
  .mulx .r15 .r8 (.reg .rdx), -- 76: mulx r15, r8, rdx
  .mulx .r10 .r9 (.mem ⟨some .rsp, none, 360#64⟩), -- 77: mulx r10, r9, [rsp + (11 * 32)+ 0x8]
  .mulx .r12 .r11 (.mem ⟨some .rsp, none, 376#64⟩), -- 78: mulx r12, r11, [rsp + (11 * 32)+ 0x18]
  .mov (.reg .rdx) (.mem ⟨some .rsp, none, 368#64⟩), -- 79: mov rdx, [rsp + (11 * 32)+ 0x10]
  .mulx .r14 .r13 (.mem ⟨some .rsp, none, 376#64⟩), -- 80: mulx r14, r13, [rsp + (11 * 32)+ 0x18]
  .xor (.reg .rbx) (.reg .rbx), -- 81: xor ebx, ebx
  .mulx .rcx .rax (.mem ⟨some .rsp, none, 352#64⟩), -- 82: mulx rcx, rax, [rsp + (11 * 32)]
  .adcx .r10 (.reg .rax), -- 83: adcx r10, rax
  .adox .r11 (.reg .rcx), -- 84: adox r11, rcx
  .mulx .rcx .rax (.mem ⟨some .rsp, none, 360#64⟩), -- 85: mulx rcx, rax, [rsp + (11 * 32)+ 0x8]
  .adcx .r11 (.reg .rax), -- 86: adcx r11, rax
  .adox .r12 (.reg .rcx), -- 87: adox r12, rcx
  .mov (.reg .rdx) (.mem ⟨some .rsp, none, 376#64⟩), -- 88: mov rdx, [rsp + (11 * 32)+ 0x18]
  .mulx .rcx .rax (.mem ⟨some .rsp, none, 360#64⟩), -- 89: mulx rcx, rax, [rsp + (11 * 32)+ 0x8]
  .adcx .r12 (.reg .rax), -- 90: adcx r12, rax
  .adox .r13 (.reg .rcx), -- 91: adox r13, rcx
  .adcx .r13 (.reg .rbx), -- 92: adcx r13, rbx
  .adox .r14 (.reg .rbx), -- 93: adox r14, rbx
  .adc (.reg .r14) (.reg .rbx), -- 94: adc r14, rbx
  .xor (.reg .rbx) (.reg .rbx), -- 95: xor ebx, ebx
  .adcx .r9 (.reg .r9), -- 96: adcx r9, r9
  .adox .r9 (.reg .r15), -- 97: adox r9, r15
  .mov (.reg .rdx) (.mem ⟨some .rsp, none, 360#64⟩), -- 98: mov rdx, [rsp + (11 * 32)+ 0x8]
  .mulx .rdx .rax (.reg .rdx), -- 99: mulx rdx, rax, rdx
  .adcx .r10 (.reg .r10), -- 100: adcx r10, r10
  .adox .r10 (.reg .rax), -- 101: adox r10, rax
  .adcx .r11 (.reg .r11), -- 102: adcx r11, r11
  .adox .r11 (.reg .rdx), -- 103: adox r11, rdx
  .mov (.reg .rdx) (.mem ⟨some .rsp, none, 368#64⟩), -- 104: mov rdx, [rsp + (11 * 32)+ 0x10]
  .mulx .rdx .rax (.reg .rdx), -- 105: mulx rdx, rax, rdx
  .adcx .r12 (.reg .r12), -- 106: adcx r12, r12
  .adox .r12 (.reg .rax), -- 107: adox r12, rax
  .adcx .r13 (.reg .r13), -- 108: adcx r13, r13
  .adox .r13 (.reg .rdx), -- 109: adox r13, rdx
  .mov (.reg .rdx) (.mem ⟨some .rsp, none, 376#64⟩), -- 110: mov rdx, [rsp + (11 * 32)+ 0x18]
  .mulx .r15 .rax (.reg .rdx), -- 111: mulx r15, rax, rdx
  .adcx .r14 (.reg .r14), -- 112: adcx r14, r14
  .adox .r14 (.reg .rax), -- 113: adox r14, rax
  .adcx .r15 (.reg .rbx), -- 114: adcx r15, rbx
  .adox .r15 (.reg .rbx), -- 115: adox r15, rbx
  .mov (.reg .rdx) (.imm 38#64), -- 116: mov edx, 0x26
  .xor (.reg .rbx) (.reg .rbx), -- 117: xor ebx, ebx
  .mulx .rcx .rax (.reg .r12), -- 118: mulx rcx, rax, r12
  .adcx .r8 (.reg .rax), -- 119: adcx r8, rax
  .adox .r9 (.reg .rcx), -- 120: adox r9, rcx
  .mulx .rcx .rax (.reg .r13), -- 121: mulx rcx, rax, r13
  .adcx .r9 (.reg .rax), -- 122: adcx r9, rax
  .adox .r10 (.reg .rcx), -- 123: adox r10, rcx
  .mulx .rcx .rax (.reg .r14), -- 124: mulx rcx, rax, r14
  .adcx .r10 (.reg .rax), -- 125: adcx r10, rax
  .adox .r11 (.reg .rcx), -- 126: adox r11, rcx
  .mulx .r12 .rax (.reg .r15), -- 127: mulx r12, rax, r15
  .adcx .r11 (.reg .rax), -- 128: adcx r11, rax
  .adox .r12 (.reg .rbx), -- 129: adox r12, rbx
  .adcx .r12 (.reg .rbx), -- 130: adcx r12, rbx
  .shld (.reg .r12) .r11 (.imm 1#64), -- 131: shld r12, r11, 0x1
  .btr .r11 63#64, -- 132: btr r11, 0x3f
  .mov (.reg .rdx) (.imm 19#64), -- 133: mov edx, 0x13
  .imul .rdx (.reg .r12), -- 134: imul rdx, r12
  .add (.reg .r8) (.reg .rdx), -- 135: add r8, rdx
  .adc (.reg .r9) (.reg .rbx), -- 136: adc r9, rbx
  .adc (.reg .r10) (.reg .rbx), -- 137: adc r10, rbx
  .adc (.reg .r11) (.reg .rbx), -- 138: adc r11, rbx
  .mov (.mem ⟨some .rsp, none, 352#64⟩) (.reg .r8), -- 139: mov [rsp + (11 * 32)], r8
  .mov (.mem ⟨some .rsp, none, 360#64⟩) (.reg .r9), -- 140: mov [rsp + (11 * 32)+ 0x8], r9
  .mov (.mem ⟨some .rsp, none, 368#64⟩) (.reg .r10), -- 141: mov [rsp + (11 * 32)+ 0x10], r10
  .mov (.mem ⟨some .rsp, none, 376#64⟩) (.reg .r11), -- 142: mov [rsp + (11 * 32)+ 0x18], r11
  .mov (.reg .rdx) (.mem ⟨some .rsp, none, 320#64⟩), -- 143: mov rdx, [rsp + (10 * 32)]
  .mulx .r15 .r8 (.reg .rdx), -- 144: mulx r15, r8, rdx
  .mulx .r10 .r9 (.mem ⟨some .rsp, none, 328#64⟩), -- 145: mulx r10, r9, [rsp + (10 * 32)+ 0x8]
  .mulx .r12 .r11 (.mem ⟨some .rsp, none, 344#64⟩), -- 146: mulx r12, r11, [rsp + (10 * 32)+ 0x18]
  .mov (.reg .rdx) (.mem ⟨some .rsp, none, 336#64⟩), -- 147: mov rdx, [rsp + (10 * 32)+ 0x10]
  .mulx .r14 .r13 (.mem ⟨some .rsp, none, 344#64⟩), -- 148: mulx r14, r13, [rsp + (10 * 32)+ 0x18]
  .xor (.reg .rbx) (.reg .rbx), -- 149: xor ebx, ebx
  .mulx .rcx .rax (.mem ⟨some .rsp, none, 320#64⟩), -- 150: mulx rcx, rax, [rsp + (10 * 32)]
  .adcx .r10 (.reg .rax), -- 151: adcx r10, rax
  .adox .r11 (.reg .rcx), -- 152: adox r11, rcx
  .mulx .rcx .rax (.mem ⟨some .rsp, none, 328#64⟩), -- 153: mulx rcx, rax, [rsp + (10 * 32)+ 0x8]
  .adcx .r11 (.reg .rax), -- 154: adcx r11, rax
  .adox .r12 (.reg .rcx), -- 155: adox r12, rcx
  .mov (.reg .rdx) (.mem ⟨some .rsp, none, 344#64⟩), -- 156: mov rdx, [rsp + (10 * 32)+ 0x18]
  .mulx .rcx .rax (.mem ⟨some .rsp, none, 328#64⟩), -- 157: mulx rcx, rax, [rsp + (10 * 32)+ 0x8]
  .adcx .r12 (.reg .rax), -- 158: adcx r12, rax
  .adox .r13 (.reg .rcx), -- 159: adox r13, rcx
  .adcx .r13 (.reg .rbx), -- 160: adcx r13, rbx
  .adox .r14 (.reg .rbx), -- 161: adox r14, rbx
  .adc (.reg .r14) (.reg .rbx), -- 162: adc r14, rbx
  .xor (.reg .rbx) (.reg .rbx), -- 163: xor ebx, ebx
  .adcx .r9 (.reg .r9), -- 164: adcx r9, r9
  .adox .r9 (.reg .r15), -- 165: adox r9, r15
  .mov (.reg .rdx) (.mem ⟨some .rsp, none, 328#64⟩), -- 166: mov rdx, [rsp + (10 * 32)+ 0x8]
  .mulx .rdx .rax (.reg .rdx), -- 167: mulx rdx, rax, rdx
  .adcx .r10 (.reg .r10), -- 168: adcx r10, r10
  .adox .r10 (.reg .rax), -- 169: adox r10, rax
  .adcx .r11 (.reg .r11), -- 170: adcx r11, r11
  .adox .r11 (.reg .rdx), -- 171: adox r11, rdx
  .mov (.reg .rdx) (.mem ⟨some .rsp, none, 336#64⟩), -- 172: mov rdx, [rsp + (10 * 32)+ 0x10]
  .mulx .rdx .rax (.reg .rdx), -- 173: mulx rdx, rax, rdx
  .adcx .r12 (.reg .r12), -- 174: adcx r12, r12
  .adox .r12 (.reg .rax), -- 175: adox r12, rax
  .adcx .r13 (.reg .r13), -- 176: adcx r13, r13
  .adox .r13 (.reg .rdx), -- 177: adox r13, rdx
  .mov (.reg .rdx) (.mem ⟨some .rsp, none, 344#64⟩), -- 178: mov rdx, [rsp + (10 * 32)+ 0x18]
  .mulx .r15 .rax (.reg .rdx), -- 179: mulx r15, rax, rdx
  .adcx .r14 (.reg .r14), -- 180: adcx r14, r14
  .adox .r14 (.reg .rax), -- 181: adox r14, rax
  .adcx .r15 (.reg .rbx), -- 182: adcx r15, rbx
  .adox .r15 (.reg .rbx), -- 183: adox r15, rbx
  .mov (.reg .rdx) (.imm 38#64), -- 184: mov edx, 0x26
  .xor (.reg .rbx) (.reg .rbx), -- 185: xor ebx, ebx
  .mulx .rcx .rax (.reg .r12), -- 186: mulx rcx, rax, r12
  .adcx .r8 (.reg .rax), -- 187: adcx r8, rax
  .adox .r9 (.reg .rcx), -- 188: adox r9, rcx
  .mulx .rcx .rax (.reg .r13), -- 189: mulx rcx, rax, r13
  .adcx .r9 (.reg .rax), -- 190: adcx r9, rax
  .adox .r10 (.reg .rcx), -- 191: adox r10, rcx
  .mulx .rcx .rax (.reg .r14), -- 192: mulx rcx, rax, r14
  .adcx .r10 (.reg .rax), -- 193: adcx r10, rax
  .adox .r11 (.reg .rcx), -- 194: adox r11, rcx
  .mulx .r12 .rax (.reg .r15), -- 195: mulx r12, rax, r15
  .adcx .r11 (.reg .rax), -- 196: adcx r11, rax
  .adox .r12 (.reg .rbx), -- 197: adox r12, rbx
  .adcx .r12 (.reg .rbx), -- 198: adcx r12, rbx
  .shld (.reg .r12) .r11 (.imm 1#64), -- 199: shld r12, r11, 0x1
  .btr .r11 63#64, -- 200: btr r11, 0x3f
  .mov (.reg .rdx) (.imm 19#64), -- 201: mov edx, 0x13
  .imul .rdx (.reg .r12), -- 202: imul rdx, r12
  .add (.reg .r8) (.reg .rdx), -- 203: add r8, rdx
  .adc (.reg .r9) (.reg .rbx), -- 204: adc r9, rbx
  .adc (.reg .r10) (.reg .rbx), -- 205: adc r10, rbx
  .adc (.reg .r11) (.reg .rbx), -- 206: adc r11, rbx
  .mov (.mem ⟨some .rsp, none, 320#64⟩) (.reg .r8), -- 207: mov [rsp + (10 * 32)], r8
  .mov (.mem ⟨some .rsp, none, 328#64⟩) (.reg .r9), -- 208: mov [rsp + (10 * 32)+ 0x8], r9
  .mov (.mem ⟨some .rsp, none, 336#64⟩) (.reg .r10), -- 209: mov [rsp + (10 * 32)+ 0x10], r10
  .mov (.mem ⟨some .rsp, none, 344#64⟩) (.reg .r11), -- 210: mov [rsp + (10 * 32)+ 0x18], r11
  .mov (.reg .r8) (.mem ⟨some .rsp, none, 320#64⟩), -- 211: mov r8, [rsp + (10 * 32)]
  .xor (.reg .rbx) (.reg .rbx), -- 212: xor ebx, ebx
  .sub (.reg .r8) (.mem ⟨some .rsp, none, 352#64⟩), -- 213: sub r8, [rsp + (11 * 32)]
  .mov (.reg .r9) (.mem ⟨some .rsp, none, 328#64⟩), -- 214: mov r9, [rsp + (10 * 32)+ 8]
  .sbb (.reg .r9) (.mem ⟨some .rsp, none, 360#64⟩), -- 215: sbb r9, [rsp + (11 * 32)+ 8]
  .mov (.reg .rcx) (.imm 38#64), -- 216: mov ecx, 38
  .mov (.reg .r10) (.mem ⟨some .rsp, none, 336#64⟩), -- 217: mov r10, [rsp + (10 * 32)+ 16]
  .sbb (.reg .r10) (.mem ⟨some .rsp, none, 368#64⟩), -- 218: sbb r10, [rsp + (11 * 32)+ 16]
  .mov (.reg .rax) (.mem ⟨some .rsp, none, 344#64⟩), -- 219: mov rax, [rsp + (10 * 32)+ 24]
  .sbb (.reg .rax) (.mem ⟨some .rsp, none, 376#64⟩), -- 220: sbb rax, [rsp + (11 * 32)+ 24]
  .cmov .nc .rcx (.reg .rbx), -- 221: cmovnc rcx, rbx
  .sub (.reg .r8) (.reg .rcx), -- 222: sub r8, rcx
  .sbb (.reg .r9) (.reg .rbx), -- 223: sbb r9, rbx
  .sbb (.reg .r10) (.reg .rbx), -- 224: sbb r10, rbx
  .sbb (.reg .rax) (.reg .rbx), -- 225: sbb rax, rbx
  .mov (.mem ⟨some .rsp, none, 192#64⟩) (.reg .r8), -- 226: mov [rsp + (6 * 32)], r8
  .mov (.mem ⟨some .rsp, none, 200#64⟩) (.reg .r9), -- 227: mov [rsp + (6 * 32)+ 8], r9
  .mov (.mem ⟨some .rsp, none, 208#64⟩) (.reg .r10), -- 228: mov [rsp + (6 * 32)+ 16], r10
  .mov (.mem ⟨some .rsp, none, 216#64⟩) (.reg .rax), -- 229: mov [rsp + (6 * 32)+ 24], rax
  .mov (.reg .r8) (.mem ⟨some .rsp, none, 352#64⟩), -- 230: mov r8, [rsp + (11 * 32)]
  .mov (.reg .r9) (.mem ⟨some .rsp, none, 360#64⟩), -- 231: mov r9, [rsp + (11 * 32)+ 8]
  .mov (.reg .r10) (.mem ⟨some .rsp, none, 368#64⟩), -- 232: mov r10, [rsp + (11 * 32)+ 16]
  .mov (.reg .r11) (.mem ⟨some .rsp, none, 376#64⟩), -- 233: mov r11, [rsp + (11 * 32)+ 24]
  .xor (.reg .rdi) (.reg .rdi), -- 234: xor edi, edi
  .mov (.reg .rdx) (.imm 0x1db42#64), -- 235: mov rdx, 0x1db42
  .mulx .rbx .rax (.mem ⟨some .rsp, none, 192#64⟩), -- 236: mulx rbx, rax, [rsp + (6 * 32)]
  .adcx .r8 (.reg .rax), -- 237: adcx r8, rax
  .adox .r9 (.reg .rbx), -- 238: adox r9, rbx
  .mulx .rbx .rax (.mem ⟨some .rsp, none, 200#64⟩), -- 239: mulx rbx, rax, [rsp + (6 * 32)+ 8]
  .adcx .r9 (.reg .rax), -- 240: adcx r9, rax
  .adox .r10 (.reg .rbx), -- 241: adox r10, rbx
  .mulx .rbx .rax (.mem ⟨some .rsp, none, 208#64⟩), -- 242: mulx rbx, rax, [rsp + (6 * 32)+ 16]
  .adcx .r10 (.reg .rax), -- 243: adcx r10, rax
  .adox .r11 (.reg .rbx), -- 244: adox r11, rbx
  .mulx .rbx .rax (.mem ⟨some .rsp, none, 216#64⟩), -- 245: mulx rbx, rax, [rsp + (6 * 32)+ 24]
  .adcx .r11 (.reg .rax), -- 246: adcx r11, rax
  .adox .rbx (.reg .rdi), -- 247: adox rbx, rdi
  .adcx .rbx (.reg .rdi), -- 248: adcx rbx, rdi
  .shld (.reg .rbx) .r11 (.imm 1#64), -- 249: shld rbx, r11, 0x1
  .btr .r11 63#64, -- 250: btr r11, 63
  .mov (.reg .rdx) (.imm 19#64), -- 251: mov edx, 0x13
  .imul .rbx (.reg .rdx), -- 252: imul rbx, rdx
  .add (.reg .r8) (.reg .rbx), -- 253: add r8, rbx
  .adc (.reg .r9) (.reg .rdi), -- 254: adc r9, rdi
  .adc (.reg .r10) (.reg .rdi), -- 255: adc r10, rdi
  .adc (.reg .r11) (.reg .rdi), -- 256: adc r11, rdi
  .mov (.mem ⟨some .rsp, none, 160#64⟩) (.reg .r8), -- 257: mov [rsp + (5 * 32)], r8
  .mov (.mem ⟨some .rsp, none, 168#64⟩) (.reg .r9), -- 258: mov [rsp + (5 * 32)+ 0x8], r9
  .mov (.mem ⟨some .rsp, none, 176#64⟩) (.reg .r10), -- 259: mov [rsp + (5 * 32)+ 0x10], r10
  .mov (.mem ⟨some .rsp, none, 184#64⟩) (.reg .r11), -- 260: mov [rsp + (5 * 32)+ 0x18], r11
  .xor (.reg .rcx) (.reg .rcx), -- 261: xor ecx, ecx
  .mov (.reg .rdx) (.mem ⟨some .rsp, none, 352#64⟩), -- 262: mov rdx, [rsp + (11 * 32)]
  .mulx .r9 .r8 (.mem ⟨some .rsp, none, 320#64⟩), -- 263: mulx r9, r8, [rsp + (10 * 32)]
  .mulx .r10 .rax (.mem ⟨some .rsp, none, 328#64⟩), -- 264: mulx r10, rax, [rsp + (10 * 32)+ 0x8]
  .add (.reg .r9) (.reg .rax), -- 265: add r9, rax
  .mulx .r11 .rax (.mem ⟨some .rsp, none, 336#64⟩), -- 266: mulx r11, rax, [rsp + (10 * 32)+ 0x10]
  .adc (.reg .r10) (.reg .rax), -- 267: adc r10, rax
  .mulx .r12 .rax (.mem ⟨some .rsp, none, 344#64⟩), -- 268: mulx r12, rax, [rsp + (10 * 32)+ 0x18]
  .adc (.reg .r11) (.reg .rax), -- 269: adc r11, rax
  .adc (.reg .r12) (.reg .rcx), -- 270: adc r12, rcx
  .xor (.reg .rcx) (.reg .rcx), -- 271: xor ecx, ecx
  .mov (.reg .rdx) (.mem ⟨some .rsp, none, 360#64⟩), -- 272: mov rdx, [rsp + (11 * 32)+ 0x8]
  .mulx .rbx .rax (.mem ⟨some .rsp, none, 320#64⟩), -- 273: mulx rbx, rax, [rsp + (10 * 32)]
  .adcx .r9 (.reg .rax), -- 274: adcx r9, rax
  .adox .r10 (.reg .rbx), -- 275: adox r10, rbx
  .mulx .rbx .rax (.mem ⟨some .rsp, none, 328#64⟩), -- 276: mulx rbx, rax, [rsp + (10 * 32)+ 0x8]
  .adcx .r10 (.reg .rax), -- 277: adcx r10, rax
  .adox .r11 (.reg .rbx), -- 278: adox r11, rbx
  .mulx .rbx .rax (.mem ⟨some .rsp, none, 336#64⟩), -- 279: mulx rbx, rax, [rsp + (10 * 32)+ 0x10]
  .adcx .r11 (.reg .rax), -- 280: adcx r11, rax
  .adox .r12 (.reg .rbx), -- 281: adox r12, rbx
  .mulx .r13 .rax (.mem ⟨some .rsp, none, 344#64⟩), -- 282: mulx r13, rax, [rsp + (10 * 32)+ 0x18]
  .adcx .r12 (.reg .rax), -- 283: adcx r12, rax
  .adox .r13 (.reg .rcx), -- 284: adox r13, rcx
  .adcx .r13 (.reg .rcx), -- 285: adcx r13, rcx
  .xor (.reg .rcx) (.reg .rcx), -- 286: xor ecx, ecx
  .mov (.reg .rdx) (.mem ⟨some .rsp, none, 368#64⟩), -- 287: mov rdx, [rsp + (11 * 32)+ 0x10]
  .mulx .rbx .rax (.mem ⟨some .rsp, none, 320#64⟩), -- 288: mulx rbx, rax, [rsp + (10 * 32)]
  .adcx .r10 (.reg .rax), -- 289: adcx r10, rax
  .adox .r11 (.reg .rbx), -- 290: adox r11, rbx
  .mulx .rbx .rax (.mem ⟨some .rsp, none, 328#64⟩), -- 291: mulx rbx, rax, [rsp + (10 * 32)+ 0x8]
  .adcx .r11 (.reg .rax), -- 292: adcx r11, rax
  .adox .r12 (.reg .rbx), -- 293: adox r12, rbx
  .mulx .rbx .rax (.mem ⟨some .rsp, none, 336#64⟩), -- 294: mulx rbx, rax, [rsp + (10 * 32)+ 0x10]
  .adcx .r12 (.reg .rax), -- 295: adcx r12, rax
  .adox .r13 (.reg .rbx), -- 296: adox r13, rbx
  .mulx .r14 .rax (.mem ⟨some .rsp, none, 344#64⟩), -- 297: mulx r14, rax, [rsp + (10 * 32)+ 0x18]
  .adcx .r13 (.reg .rax), -- 298: adcx r13, rax
  .adox .r14 (.reg .rcx), -- 299: adox r14, rcx
  .adcx .r14 (.reg .rcx), -- 300: adcx r14, rcx
  .xor (.reg .rcx) (.reg .rcx), -- 301: xor ecx, ecx
  .mov (.reg .rdx) (.mem ⟨some .rsp, none, 376#64⟩), -- 302: mov rdx, [rsp + (11 * 32)+ 0x18]
  .mulx .rbx .rax (.mem ⟨some .rsp, none, 320#64⟩), -- 303: mulx rbx, rax, [rsp + (10 * 32)]
  .adcx .r11 (.reg .rax), -- 304: adcx r11, rax
  .adox .r12 (.reg .rbx), -- 305: adox r12, rbx
  .mulx .rbx .rax (.mem ⟨some .rsp, none, 328#64⟩), -- 306: mulx rbx, rax, [rsp + (10 * 32)+ 0x8]
  .adcx .r12 (.reg .rax), -- 307: adcx r12, rax
  .adox .r13 (.reg .rbx), -- 308: adox r13, rbx
  .mulx .rbx .rax (.mem ⟨some .rsp, none, 336#64⟩), -- 309: mulx rbx, rax, [rsp + (10 * 32)+ 0x10]
  .adcx .r13 (.reg .rax), -- 310: adcx r13, rax
  .adox .r14 (.reg .rbx), -- 311: adox r14, rbx
  .mulx .r15 .rax (.mem ⟨some .rsp, none, 344#64⟩), -- 312: mulx r15, rax, [rsp + (10 * 32)+ 0x18]
  .adcx .r14 (.reg .rax), -- 313: adcx r14, rax
  .adox .r15 (.reg .rcx), -- 314: adox r15, rcx
  .adcx .r15 (.reg .rcx), -- 315: adcx r15, rcx
  .mov (.reg .rdx) (.imm 38#64), -- 316: mov edx, 0x26
  .xor (.reg .rcx) (.reg .rcx), -- 317: xor ecx, ecx
  .mulx .rbx .rax (.reg .r12), -- 318: mulx rbx, rax, r12
  .adcx .r8 (.reg .rax), -- 319: adcx r8, rax
  .adox .r9 (.reg .rbx), -- 320: adox r9, rbx
  .mulx .rbx .rax (.reg .r13), -- 321: mulx rbx, rax, r13
  .adcx .r9 (.reg .rax), -- 322: adcx r9, rax
  .adox .r10 (.reg .rbx), -- 323: adox r10, rbx
  .mulx .rbx .rax (.reg .r14), -- 324: mulx rbx, rax, r14
  .adcx .r10 (.reg .rax), -- 325: adcx r10, rax
  .adox .r11 (.reg .rbx), -- 326: adox r11, rbx
  .mulx .r12 .rax (.reg .r15), -- 327: mulx r12, rax, r15
  .adcx .r11 (.reg .rax), -- 328: adcx r11, rax
  .adox .r12 (.reg .rcx), -- 329: adox r12, rcx
  .adcx .r12 (.reg .rcx), -- 330: adcx r12, rcx
  .shld (.reg .r12) .r11 (.imm 1#64), -- 331: shld r12, r11, 0x1
  .btr .r11 63#64, -- 332: btr r11, 0x3f
  .mov (.reg .rdx) (.imm 19#64), -- 333: mov edx, 0x13
  .imul .rdx (.reg .r12), -- 334: imul rdx, r12
  .add (.reg .r8) (.reg .rdx), -- 335: add r8, rdx
  .adc (.reg .r9) (.reg .rcx), -- 336: adc r9, rcx
  .adc (.reg .r10) (.reg .rcx), -- 337: adc r10, rcx
  .adc (.reg .r11) (.reg .rcx), -- 338: adc r11, rcx
  .mov (.mem ⟨some .rsp, none, 320#64⟩) (.reg .r8), -- 339: mov [rsp + (10 * 32)], r8
  .mov (.mem ⟨some .rsp, none, 328#64⟩) (.reg .r9), -- 340: mov [rsp + (10 * 32)+ 0x8], r9
  .mov (.mem ⟨some .rsp, none, 336#64⟩) (.reg .r10), -- 341: mov [rsp + (10 * 32)+ 0x10], r10
  .mov (.mem ⟨some .rsp, none, 344#64⟩) (.reg .r11), -- 342: mov [rsp + (10 * 32)+ 0x18], r11
  .xor (.reg .rcx) (.reg .rcx), -- 343: xor ecx, ecx
  .mov (.reg .rdx) (.mem ⟨some .rsp, none, 160#64⟩), -- 344: mov rdx, [rsp + (5 * 32)]
  .mulx .r9 .r8 (.mem ⟨some .rsp, none, 192#64⟩), -- 345: mulx r9, r8, [rsp + (6 * 32)]
  .mulx .r10 .rax (.mem ⟨some .rsp, none, 200#64⟩), -- 346: mulx r10, rax, [rsp + (6 * 32)+ 0x8]
  .add (.reg .r9) (.reg .rax), -- 347: add r9, rax
  .mulx .r11 .rax (.mem ⟨some .rsp, none, 208#64⟩), -- 348: mulx r11, rax, [rsp + (6 * 32)+ 0x10]
  .adc (.reg .r10) (.reg .rax), -- 349: adc r10, rax
  .mulx .r12 .rax (.mem ⟨some .rsp, none, 216#64⟩), -- 350: mulx r12, rax, [rsp + (6 * 32)+ 0x18]
  .adc (.reg .r11) (.reg .rax), -- 351: adc r11, rax
  .adc (.reg .r12) (.reg .rcx), -- 352: adc r12, rcx
  .xor (.reg .rcx) (.reg .rcx), -- 353: xor ecx, ecx
  .mov (.reg .rdx) (.mem ⟨some .rsp, none, 168#64⟩), -- 354: mov rdx, [rsp + (5 * 32)+ 0x8]
  .mulx .rbx .rax (.mem ⟨some .rsp, none, 192#64⟩), -- 355: mulx rbx, rax, [rsp + (6 * 32)]
  .adcx .r9 (.reg .rax), -- 356: adcx r9, rax
  .adox .r10 (.reg .rbx), -- 357: adox r10, rbx
  .mulx .rbx .rax (.mem ⟨some .rsp, none, 200#64⟩), -- 358: mulx rbx, rax, [rsp + (6 * 32)+ 0x8]
  .adcx .r10 (.reg .rax), -- 359: adcx r10, rax
  .adox .r11 (.reg .rbx), -- 360: adox r11, rbx
  .mulx .rbx .rax (.mem ⟨some .rsp, none, 208#64⟩), -- 361: mulx rbx, rax, [rsp + (6 * 32)+ 0x10]
  .adcx .r11 (.reg .rax), -- 362: adcx r11, rax
  .adox .r12 (.reg .rbx), -- 363: adox r12, rbx
  .mulx .r13 .rax (.mem ⟨some .rsp, none, 216#64⟩), -- 364: mulx r13, rax, [rsp + (6 * 32)+ 0x18]
  .adcx .r12 (.reg .rax), -- 365: adcx r12, rax
  .adox .r13 (.reg .rcx), -- 366: adox r13, rcx
  .adcx .r13 (.reg .rcx), -- 367: adcx r13, rcx
  .xor (.reg .rcx) (.reg .rcx), -- 368: xor ecx, ecx
  .mov (.reg .rdx) (.mem ⟨some .rsp, none, 176#64⟩), -- 369: mov rdx, [rsp + (5 * 32)+ 0x10]
  .mulx .rbx .rax (.mem ⟨some .rsp, none, 192#64⟩), -- 370: mulx rbx, rax, [rsp + (6 * 32)]
  .adcx .r10 (.reg .rax), -- 371: adcx r10, rax
  .adox .r11 (.reg .rbx), -- 372: adox r11, rbx
  .mulx .rbx .rax (.mem ⟨some .rsp, none, 200#64⟩), -- 373: mulx rbx, rax, [rsp + (6 * 32)+ 0x8]
  .adcx .r11 (.reg .rax), -- 374: adcx r11, rax
  .adox .r12 (.reg .rbx), -- 375: adox r12, rbx
  .mulx .rbx .rax (.mem ⟨some .rsp, none, 208#64⟩), -- 376: mulx rbx, rax, [rsp + (6 * 32)+ 0x10]
  .adcx .r12 (.reg .rax), -- 377: adcx r12, rax
  .adox .r13 (.reg .rbx), -- 378: adox r13, rbx
  .mulx .r14 .rax (.mem ⟨some .rsp, none, 216#64⟩), -- 379: mulx r14, rax, [rsp + (6 * 32)+ 0x18]
  .adcx .r13 (.reg .rax), -- 380: adcx r13, rax
  .adox .r14 (.reg .rcx), -- 381: adox r14, rcx
  .adcx .r14 (.reg .rcx), -- 382: adcx r14, rcx
  .xor (.reg .rcx) (.reg .rcx), -- 383: xor ecx, ecx
  .mov (.reg .rdx) (.mem ⟨some .rsp, none, 184#64⟩), -- 384: mov rdx, [rsp + (5 * 32)+ 0x18]
  .mulx .rbx .rax (.mem ⟨some .rsp, none, 192#64⟩), -- 385: mulx rbx, rax, [rsp + (6 * 32)]
  .adcx .r11 (.reg .rax), -- 386: adcx r11, rax
  .adox .r12 (.reg .rbx), -- 387: adox r12, rbx
  .mulx .rbx .rax (.mem ⟨some .rsp, none, 200#64⟩), -- 388: mulx rbx, rax, [rsp + (6 * 32)+ 0x8]
  .adcx .r12 (.reg .rax), -- 389: adcx r12, rax
  .adox .r13 (.reg .rbx), -- 390: adox r13, rbx
  .mulx .rbx .rax (.mem ⟨some .rsp, none, 208#64⟩), -- 391: mulx rbx, rax, [rsp + (6 * 32)+ 0x10]
  .adcx .r13 (.reg .rax), -- 392: adcx r13, rax
  .adox .r14 (.reg .rbx), -- 393: adox r14, rbx
  .mulx .r15 .rax (.mem ⟨some .rsp, none, 216#64⟩), -- 394: mulx r15, rax, [rsp + (6 * 32)+ 0x18]
  .adcx .r14 (.reg .rax), -- 395: adcx r14, rax
  .adox .r15 (.reg .rcx), -- 396: adox r15, rcx
  .adcx .r15 (.reg .rcx), -- 397: adcx r15, rcx
  .mov (.reg .rdx) (.imm 38#64), -- 398: mov edx, 0x26
  .xor (.reg .rcx) (.reg .rcx), -- 399: xor ecx, ecx
  .mulx .rbx .rax (.reg .r12), -- 400: mulx rbx, rax, r12
  .adcx .r8 (.reg .rax), -- 401: adcx r8, rax
  .adox .r9 (.reg .rbx), -- 402: adox r9, rbx
  .mulx .rbx .rax (.reg .r13), -- 403: mulx rbx, rax, r13
  .adcx .r9 (.reg .rax), -- 404: adcx r9, rax
  .adox .r10 (.reg .rbx), -- 405: adox r10, rbx
  .mulx .rbx .rax (.reg .r14), -- 406: mulx rbx, rax, r14
  .adcx .r10 (.reg .rax), -- 407: adcx r10, rax
  .adox .r11 (.reg .rbx), -- 408: adox r11, rbx
  .mulx .r12 .rax (.reg .r15), -- 409: mulx r12, rax, r15
  .adcx .r11 (.reg .rax), -- 410: adcx r11, rax
  .adox .r12 (.reg .rcx), -- 411: adox r12, rcx
  .adcx .r12 (.reg .rcx), -- 412: adcx r12, rcx
  .shld (.reg .r12) .r11 (.imm 1#64), -- 413: shld r12, r11, 0x1
  .btr .r11 63#64, -- 414: btr r11, 0x3f
  .mov (.reg .rdx) (.imm 19#64), -- 415: mov edx, 0x13
  .imul .rdx (.reg .r12), -- 416: imul rdx, r12
  .add (.reg .r8) (.reg .rdx), -- 417: add r8, rdx
  .adc (.reg .r9) (.reg .rcx), -- 418: adc r9, rcx
  .adc (.reg .r10) (.reg .rcx), -- 419: adc r10, rcx
  .adc (.reg .r11) (.reg .rcx), -- 420: adc r11, rcx
  .mov (.mem ⟨some .rsp, none, 224#64⟩) (.reg .r8), -- 421: mov [rsp + (7 * 32)], r8
  .mov (.mem ⟨some .rsp, none, 232#64⟩) (.reg .r9), -- 422: mov [rsp + (7 * 32)+ 0x8], r9
  .mov (.mem ⟨some .rsp, none, 240#64⟩) (.reg .r10), -- 423: mov [rsp + (7 * 32)+ 0x10], r10
  .mov (.mem ⟨some .rsp, none, 248#64⟩) (.reg .r11), -- 424: mov [rsp + (7 * 32)+ 0x18], r11
  .mov (.reg .rax) (.imm 253#64), -- 425: mov eax, 253
  .mov (.mem ⟨some .rsp, none, 392#64⟩) (.reg .rax), -- 426: mov QWORD PTR [rsp + 12 * 32+ 8], rax
  .mov (.reg .r8) (.mem ⟨some .rsp, none, 256#64⟩), -- 427: mov r8, [rsp + (8 * 32)]
  .xor (.reg .rbx) (.reg .rbx), -- 428: xor ebx, ebx
  .sub (.reg .r8) (.mem ⟨some .rsp, none, 96#64⟩), -- 429: sub r8, [rsp + (3 * 32)]
  .mov (.reg .r9) (.mem ⟨some .rsp, none, 264#64⟩), -- 430: mov r9, [rsp + (8 * 32)+ 8]
  .sbb (.reg .r9) (.mem ⟨some .rsp, none, 104#64⟩), -- 431: sbb r9, [rsp + (3 * 32)+ 8]
  .mov (.reg .rcx) (.imm 38#64), -- 432: mov ecx, 38
  .mov (.reg .r10) (.mem ⟨some .rsp, none, 272#64⟩), -- 433: mov r10, [rsp + (8 * 32)+ 16]
  .sbb (.reg .r10) (.mem ⟨some .rsp, none, 112#64⟩), -- 434: sbb r10, [rsp + (3 * 32)+ 16]
  .mov (.reg .rax) (.mem ⟨some .rsp, none, 280#64⟩), -- 435: mov rax, [rsp + (8 * 32)+ 24]
  .sbb (.reg .rax) (.mem ⟨some .rsp, none, 120#64⟩), -- 436: sbb rax, [rsp + (3 * 32)+ 24]
  .cmov .nc .rcx (.reg .rbx), -- 437: cmovnc rcx, rbx
  .sub (.reg .r8) (.reg .rcx), -- 438: sub r8, rcx
  .sbb (.reg .r9) (.reg .rbx), -- 439: sbb r9, rbx
  .sbb (.reg .r10) (.reg .rbx), -- 440: sbb r10, rbx
  .sbb (.reg .rax) (.reg .rbx), -- 441: sbb rax, rbx
  .mov (.mem ⟨some .rsp, none, 64#64⟩) (.reg .r8), -- 442: mov [rsp + (2 * 32)], r8
  .mov (.mem ⟨some .rsp, none, 72#64⟩) (.reg .r9), -- 443: mov [rsp + (2 * 32)+ 8], r9
  .mov (.mem ⟨some .rsp, none, 80#64⟩) (.reg .r10), -- 444: mov [rsp + (2 * 32)+ 16], r10
  .mov (.mem ⟨some .rsp, none, 88#64⟩) (.reg .rax), -- 445: mov [rsp + (2 * 32)+ 24], rax
  .mov (.reg .r8) (.mem ⟨some .rsp, none, 320#64⟩), -- 446: mov r8, [rsp + (10 * 32)]
  .xor (.reg .rcx) (.reg .rcx), -- 447: xor ecx, ecx
  .add (.reg .r8) (.mem ⟨some .rsp, none, 224#64⟩), -- 448: add r8, [rsp + (7 * 32)]
  .mov (.reg .r9) (.mem ⟨some .rsp, none, 328#64⟩), -- 449: mov r9, [rsp + (10 * 32)+ 0x8]
  .adc (.reg .r9) (.mem ⟨some .rsp, none, 232#64⟩), -- 450: adc r9, [rsp + (7 * 32)+ 0x8]
  .mov (.reg .r10) (.mem ⟨some .rsp, none, 336#64⟩), -- 451: mov r10, [rsp + (10 * 32)+ 0x10]
  .adc (.reg .r10) (.mem ⟨some .rsp, none, 240#64⟩), -- 452: adc r10, [rsp + (7 * 32)+ 0x10]
  .mov (.reg .r11) (.mem ⟨some .rsp, none, 344#64⟩), -- 453: mov r11, [rsp + (10 * 32)+ 0x18]
  .adc (.reg .r11) (.mem ⟨some .rsp, none, 248#64⟩), -- 454: adc r11, [rsp + (7 * 32)+ 0x18]
  .mov (.reg .rax) (.imm 38#64), -- 455: mov eax, 38
  .cmov .nc .rax (.reg .rcx), -- 456: cmovnc rax, rcx
  .add (.reg .r8) (.reg .rax), -- 457: add r8, rax
  .adc (.reg .r9) (.reg .rcx), -- 458: adc r9, rcx
  .adc (.reg .r10) (.reg .rcx), -- 459: adc r10, rcx
  .adc (.reg .r11) (.reg .rcx), -- 460: adc r11, rcx
  .mov (.mem ⟨some .rsp, none, 128#64⟩) (.reg .r8), -- 461: mov [rsp + (4 * 32)], r8
  .mov (.mem ⟨some .rsp, none, 136#64⟩) (.reg .r9), -- 462: mov [rsp + (4 * 32)+ 0x8], r9
  .mov (.mem ⟨some .rsp, none, 144#64⟩) (.reg .r10), -- 463: mov [rsp + (4 * 32)+ 0x10], r10
  .mov (.mem ⟨some .rsp, none, 152#64⟩) (.reg .r11), -- 464: mov [rsp + (4 * 32)+ 0x18], r11
  .mov (.reg .r8) (.mem ⟨some .rsp, none, 320#64⟩), -- 465: mov r8, [rsp + (10 * 32)]
  .xor (.reg .rbx) (.reg .rbx), -- 466: xor ebx, ebx
  .sub (.reg .r8) (.mem ⟨some .rsp, none, 224#64⟩), -- 467: sub r8, [rsp + (7 * 32)]
  .mov (.reg .r9) (.mem ⟨some .rsp, none, 328#64⟩), -- 468: mov r9, [rsp + (10 * 32)+ 8]
  .sbb (.reg .r9) (.mem ⟨some .rsp, none, 232#64⟩), -- 469: sbb r9, [rsp + (7 * 32)+ 8]
  .mov (.reg .rcx) (.imm 38#64), -- 470: mov ecx, 38
  .mov (.reg .r10) (.mem ⟨some .rsp, none, 336#64⟩), -- 471: mov r10, [rsp + (10 * 32)+ 16]
  .sbb (.reg .r10) (.mem ⟨some .rsp, none, 240#64⟩), -- 472: sbb r10, [rsp + (7 * 32)+ 16]
  .mov (.reg .rax) (.mem ⟨some .rsp, none, 344#64⟩), -- 473: mov rax, [rsp + (10 * 32)+ 24]
  .sbb (.reg .rax) (.mem ⟨some .rsp, none, 248#64⟩), -- 474: sbb rax, [rsp + (7 * 32)+ 24]
  .cmov .nc .rcx (.reg .rbx), -- 475: cmovnc rcx, rbx
  .sub (.reg .r8) (.reg .rcx), -- 476: sub r8, rcx
  .sbb (.reg .r9) (.reg .rbx), -- 477: sbb r9, rbx
  .sbb (.reg .r10) (.reg .rbx), -- 478: sbb r10, rbx
  .sbb (.reg .rax) (.reg .rbx), -- 479: sbb rax, rbx
  .mov (.mem ⟨some .rsp, none, 160#64⟩) (.reg .r8), -- 480: mov [rsp + (5 * 32)], r8
  .mov (.mem ⟨some .rsp, none, 168#64⟩) (.reg .r9), -- 481: mov [rsp + (5 * 32)+ 8], r9
  .mov (.mem ⟨some .rsp, none, 176#64⟩) (.reg .r10), -- 482: mov [rsp + (5 * 32)+ 16], r10
  .mov (.mem ⟨some .rsp, none, 184#64⟩) (.reg .rax), -- 483: mov [rsp + (5 * 32)+ 24], rax
  .mov (.reg .r8) (.mem ⟨some .rsp, none, 256#64⟩), -- 484: mov r8, [rsp + (8 * 32)]
  .xor (.reg .rcx) (.reg .rcx), -- 485: xor ecx, ecx
  .add (.reg .r8) (.mem ⟨some .rsp, none, 96#64⟩), -- 486: add r8, [rsp + (3 * 32)]
  .mov (.reg .r9) (.mem ⟨some .rsp, none, 264#64⟩), -- 487: mov r9, [rsp + (8 * 32)+ 0x8]
  .adc (.reg .r9) (.mem ⟨some .rsp, none, 104#64⟩), -- 488: adc r9, [rsp + (3 * 32)+ 0x8]
  .mov (.reg .r10) (.mem ⟨some .rsp, none, 272#64⟩), -- 489: mov r10, [rsp + (8 * 32)+ 0x10]
  .adc (.reg .r10) (.mem ⟨some .rsp, none, 112#64⟩), -- 490: adc r10, [rsp + (3 * 32)+ 0x10]
  .mov (.reg .r11) (.mem ⟨some .rsp, none, 280#64⟩), -- 491: mov r11, [rsp + (8 * 32)+ 0x18]
  .adc (.reg .r11) (.mem ⟨some .rsp, none, 120#64⟩), -- 492: adc r11, [rsp + (3 * 32)+ 0x18]
  .mov (.reg .rax) (.imm 38#64), -- 493: mov eax, 38
  .cmov .nc .rax (.reg .rcx), -- 494: cmovnc rax, rcx
  .add (.reg .r8) (.reg .rax), -- 495: add r8, rax
  .adc (.reg .r9) (.reg .rcx), -- 496: adc r9, rcx
  .adc (.reg .r10) (.reg .rcx), -- 497: adc r10, rcx
  .adc (.reg .r11) (.reg .rcx), -- 498: adc r11, rcx
  .mov (.mem ⟨some .rsp, none, 96#64⟩) (.reg .r8), -- 499: mov [rsp + (3 * 32)], r8
  .mov (.mem ⟨some .rsp, none, 104#64⟩) (.reg .r9), -- 500: mov [rsp + (3 * 32)+ 0x8], r9
  .mov (.mem ⟨some .rsp, none, 112#64⟩) (.reg .r10), -- 501: mov [rsp + (3 * 32)+ 0x10], r10
  .mov (.mem ⟨some .rsp, none, 120#64⟩) (.reg .r11), -- 502: mov [rsp + (3 * 32)+ 0x18], r11
  .mov (.reg .rdx) (.mem ⟨some .rsp, none, 392#64⟩), -- 503: mov rdx, QWORD PTR [rsp + 12 * 32+ 8]
  .mov (.reg .rcx) (.reg .rdx), -- 504: mov rcx, rdx
  .shr (.reg .rdx) (.imm 6#64), -- 505: shr rdx, 6
  .mov (.reg .rdx) (.mem ⟨some .rsp, some (.rdx, 8#64), 0#64⟩), -- 506: mov rdx, [rsp + 8 * rdx]
  .shr (.reg .rdx) (.reg .rcx), -- 507: shr rdx, cl
  .and (.reg .rdx) (.imm 1#64), -- 508: and rdx, 1
  .cmp (.reg .rdx) (.mem ⟨some .rsp, none, 400#64⟩), -- 509: cmp rdx, QWORD PTR [rsp + 12 * 32+ 16]
  .mov (.mem ⟨some .rsp, none, 400#64⟩) (.reg .rdx), -- 510: mov QWORD PTR [rsp + 12 * 32+ 16], rdx
  .mov (.reg .rax) (.mem ⟨some .rsp, none, 64#64⟩), -- 511: mov rax, [rsp + (2 * 32)]
  .mov (.reg .rcx) (.mem ⟨some .rsp, none, 160#64⟩), -- 512: mov rcx, [rsp + (5 * 32)]
  .cmov .zr .rax (.reg .rcx), -- 513: cmovz rax, rcx
  .mov (.mem ⟨some .rsp, none, 352#64⟩) (.reg .rax), -- 514: mov [rsp + (11 * 32)], rax
  .mov (.reg .rax) (.mem ⟨some .rsp, none, 72#64⟩), -- 515: mov rax, [rsp + (2 * 32)+ 8]
  .mov (.reg .rcx) (.mem ⟨some .rsp, none, 168#64⟩), -- 516: mov rcx, [rsp + (5 * 32)+ 8]
  .cmov .zr .rax (.reg .rcx), -- 517: cmovz rax, rcx
  .mov (.mem ⟨some .rsp, none, 360#64⟩) (.reg .rax), -- 518: mov [rsp + (11 * 32)+ 8], rax
  .mov (.reg .rax) (.mem ⟨some .rsp, none, 80#64⟩), -- 519: mov rax, [rsp + (2 * 32)+ 16]
  .mov (.reg .rcx) (.mem ⟨some .rsp, none, 176#64⟩), -- 520: mov rcx, [rsp + (5 * 32)+ 16]
  .cmov .zr .rax (.reg .rcx), -- 521: cmovz rax, rcx
  .mov (.mem ⟨some .rsp, none, 368#64⟩) (.reg .rax), -- 522: mov [rsp + (11 * 32)+ 16], rax
  .mov (.reg .rax) (.mem ⟨some .rsp, none, 88#64⟩), -- 523: mov rax, [rsp + (2 * 32)+ 24]
  .mov (.reg .rcx) (.mem ⟨some .rsp, none, 184#64⟩), -- 524: mov rcx, [rsp + (5 * 32)+ 24]
  .cmov .zr .rax (.reg .rcx), -- 525: cmovz rax, rcx
  .mov (.mem ⟨some .rsp, none, 376#64⟩) (.reg .rax), -- 526: mov [rsp + (11 * 32)+ 24], rax
  .mov (.reg .rax) (.mem ⟨some .rsp, none, 96#64⟩), -- 527: mov rax, [rsp + (3 * 32)]
  .mov (.reg .rcx) (.mem ⟨some .rsp, none, 128#64⟩), -- 528: mov rcx, [rsp + (4 * 32)]
  .cmov .zr .rax (.reg .rcx), -- 529: cmovz rax, rcx
  .mov (.mem ⟨some .rsp, none, 320#64⟩) (.reg .rax), -- 530: mov [rsp + (10 * 32)], rax
  .mov (.reg .rax) (.mem ⟨some .rsp, none, 104#64⟩), -- 531: mov rax, [rsp + (3 * 32)+ 8]
  .mov (.reg .rcx) (.mem ⟨some .rsp, none, 136#64⟩), -- 532: mov rcx, [rsp + (4 * 32)+ 8]
  .cmov .zr .rax (.reg .rcx), -- 533: cmovz rax, rcx
  .mov (.mem ⟨some .rsp, none, 328#64⟩) (.reg .rax), -- 534: mov [rsp + (10 * 32)+ 8], rax
  .mov (.reg .rax) (.mem ⟨some .rsp, none, 112#64⟩), -- 535: mov rax, [rsp + (3 * 32)+ 16]
  .mov (.reg .rcx) (.mem ⟨some .rsp, none, 144#64⟩), -- 536: mov rcx, [rsp + (4 * 32)+ 16]
  .cmov .zr .rax (.reg .rcx), -- 537: cmovz rax, rcx
  .mov (.mem ⟨some .rsp, none, 336#64⟩) (.reg .rax), -- 538: mov [rsp + (10 * 32)+ 16], rax
  .mov (.reg .rax) (.mem ⟨some .rsp, none, 120#64⟩), -- 539: mov rax, [rsp + (3 * 32)+ 24]
  .mov (.reg .rcx) (.mem ⟨some .rsp, none, 152#64⟩), -- 540: mov rcx, [rsp + (4 * 32)+ 24]
  .cmov .zr .rax (.reg .rcx), -- 541: cmovz rax, rcx
  .mov (.mem ⟨some .rsp, none, 344#64⟩) (.reg .rax), -- 542: mov [rsp + (10 * 32)+ 24], rax
  .xor (.reg .rdi) (.reg .rdi), -- 543: xor edi, edi
  .mov (.reg .rdx) (.mem ⟨some .rsp, none, 160#64⟩), -- 544: mov rdx, [rsp + (5 * 32)]
  .mulx .r9 .r8 (.mem ⟨some .rsp, none, 96#64⟩), -- 545: mulx r9, r8, [rsp + (3 * 32)]
  .mulx .r10 .rax (.mem ⟨some .rsp, none, 104#64⟩), -- 546: mulx r10, rax, [rsp + (3 * 32)+ 0x8]
  .add (.reg .r9) (.reg .rax), -- 547: add r9, rax
  .mulx .r11 .rax (.mem ⟨some .rsp, none, 112#64⟩), -- 548: mulx r11, rax, [rsp + (3 * 32)+ 0x10]
  .adc (.reg .r10) (.reg .rax), -- 549: adc r10, rax
  .mulx .r12 .rax (.mem ⟨some .rsp, none, 120#64⟩), -- 550: mulx r12, rax, [rsp + (3 * 32)+ 0x18]
  .adc (.reg .r11) (.reg .rax), -- 551: adc r11, rax
  .adc (.reg .r12) (.reg .rdi), -- 552: adc r12, rdi
  .xor (.reg .rdi) (.reg .rdi), -- 553: xor edi, edi
  .mov (.reg .rdx) (.mem ⟨some .rsp, none, 168#64⟩), -- 554: mov rdx, [rsp + (5 * 32)+ 0x8]
  .mulx .rbx .rax (.mem ⟨some .rsp, none, 96#64⟩), -- 555: mulx rbx, rax, [rsp + (3 * 32)]
  .adcx .r9 (.reg .rax), -- 556: adcx r9, rax
  .adox .r10 (.reg .rbx), -- 557: adox r10, rbx
  .mulx .rbx .rax (.mem ⟨some .rsp, none, 104#64⟩), -- 558: mulx rbx, rax, [rsp + (3 * 32)+ 0x8]
  .adcx .r10 (.reg .rax), -- 559: adcx r10, rax
  .adox .r11 (.reg .rbx), -- 560: adox r11, rbx
  .mulx .rbx .rax (.mem ⟨some .rsp, none, 112#64⟩), -- 561: mulx rbx, rax, [rsp + (3 * 32)+ 0x10]
  .adcx .r11 (.reg .rax), -- 562: adcx r11, rax
  .adox .r12 (.reg .rbx), -- 563: adox r12, rbx
  .mulx .r13 .rax (.mem ⟨some .rsp, none, 120#64⟩), -- 564: mulx r13, rax, [rsp + (3 * 32)+ 0x18]
  .adcx .r12 (.reg .rax), -- 565: adcx r12, rax
  .adox .r13 (.reg .rdi), -- 566: adox r13, rdi
  .adcx .r13 (.reg .rdi), -- 567: adcx r13, rdi
  .xor (.reg .rdi) (.reg .rdi), -- 568: xor edi, edi
  .mov (.reg .rdx) (.mem ⟨some .rsp, none, 176#64⟩), -- 569: mov rdx, [rsp + (5 * 32)+ 0x10]
  .mulx .rbx .rax (.mem ⟨some .rsp, none, 96#64⟩), -- 570: mulx rbx, rax, [rsp + (3 * 32)]
  .adcx .r10 (.reg .rax), -- 571: adcx r10, rax
  .adox .r11 (.reg .rbx), -- 572: adox r11, rbx
  .mulx .rbx .rax (.mem ⟨some .rsp, none, 104#64⟩), -- 573: mulx rbx, rax, [rsp + (3 * 32)+ 0x8]
  .adcx .r11 (.reg .rax), -- 574: adcx r11, rax
  .adox .r12 (.reg .rbx), -- 575: adox r12, rbx
  .mulx .rbx .rax (.mem ⟨some .rsp, none, 112#64⟩), -- 576: mulx rbx, rax, [rsp + (3 * 32)+ 0x10]
  .adcx .r12 (.reg .rax), -- 577: adcx r12, rax
  .adox .r13 (.reg .rbx), -- 578: adox r13, rbx
  .mulx .r14 .rax (.mem ⟨some .rsp, none, 120#64⟩), -- 579: mulx r14, rax, [rsp + (3 * 32)+ 0x18]
  .adcx .r13 (.reg .rax), -- 580: adcx r13, rax
  .adox .r14 (.reg .rdi), -- 581: adox r14, rdi
  .adcx .r14 (.reg .rdi), -- 582: adcx r14, rdi
  .xor (.reg .rdi) (.reg .rdi), -- 583: xor edi, edi
  .mov (.reg .rdx) (.mem ⟨some .rsp, none, 184#64⟩), -- 584: mov rdx, [rsp + (5 * 32)+ 0x18]
  .mulx .rbx .rax (.mem ⟨some .rsp, none, 96#64⟩), -- 585: mulx rbx, rax, [rsp + (3 * 32)]
  .adcx .r11 (.reg .rax), -- 586: adcx r11, rax
  .adox .r12 (.reg .rbx), -- 587: adox r12, rbx
  .mulx .rbx .rax (.mem ⟨some .rsp, none, 104#64⟩), -- 588: mulx rbx, rax, [rsp + (3 * 32)+ 0x8]
  .adcx .r12 (.reg .rax), -- 589: adcx r12, rax
  .adox .r13 (.reg .rbx), -- 590: adox r13, rbx
  .mulx .rbx .rax (.mem ⟨some .rsp, none, 112#64⟩), -- 591: mulx rbx, rax, [rsp + (3 * 32)+ 0x10]
  .adcx .r13 (.reg .rax), -- 592: adcx r13, rax
  .adox .r14 (.reg .rbx), -- 593: adox r14, rbx
  .mulx .r15 .rax (.mem ⟨some .rsp, none, 120#64⟩), -- 594: mulx r15, rax, [rsp + (3 * 32)+ 0x18]
  .adcx .r14 (.reg .rax), -- 595: adcx r14, rax
  .adox .r15 (.reg .rdi), -- 596: adox r15, rdi
  .adcx .r15 (.reg .rdi), -- 597: adcx r15, rdi
  .mov (.reg .rdx) (.imm 38#64), -- 598: mov edx, 0x26
  .xor (.reg .rdi) (.reg .rdi), -- 599: xor edi, edi
  .mulx .rbx .rax (.reg .r12), -- 600: mulx rbx, rax, r12
  .adcx .r8 (.reg .rax), -- 601: adcx r8, rax
  .adox .r9 (.reg .rbx), -- 602: adox r9, rbx
  .mulx .rbx .rax (.reg .r13), -- 603: mulx rbx, rax, r13
  .adcx .r9 (.reg .rax), -- 604: adcx r9, rax
  .adox .r10 (.reg .rbx), -- 605: adox r10, rbx
  .mulx .rbx .rax (.reg .r14), -- 606: mulx rbx, rax, r14
  .adcx .r10 (.reg .rax), -- 607: adcx r10, rax
  .adox .r11 (.reg .rbx), -- 608: adox r11, rbx
  .mulx .r12 .rax (.reg .r15), -- 609: mulx r12, rax, r15
  .adcx .r11 (.reg .rax), -- 610: adcx r11, rax
  .adox .r12 (.reg .rdi), -- 611: adox r12, rdi
  .adcx .r12 (.reg .rdi), -- 612: adcx r12, rdi
  .mov (.mem ⟨some .rsp, none, 256#64⟩) (.reg .r8), -- 613: mov [rsp + (8 * 32)], r8
  .mov (.mem ⟨some .rsp, none, 264#64⟩) (.reg .r9), -- 614: mov [rsp + (8 * 32)+ 0x8], r9
  .mov (.mem ⟨some .rsp, none, 272#64⟩) (.reg .r10), -- 615: mov [rsp + (8 * 32)+ 0x10], r10
  .mov (.mem ⟨some .rsp, none, 280#64⟩) (.reg .r11), -- 616: mov [rsp + (8 * 32)+ 0x18], r11
  .mov (.mem ⟨some .rsp, none, 288#64⟩) (.reg .r12), -- 617: mov [rsp + (8 * 32)+ 0x20], r12
  .xor (.reg .rdi) (.reg .rdi), -- 618: xor edi, edi
  .mov (.reg .rdx) (.mem ⟨some .rsp, none, 64#64⟩), -- 619: mov rdx, [rsp + (2 * 32)]
  .mulx .r9 .r8 (.mem ⟨some .rsp, none, 128#64⟩), -- 620: mulx r9, r8, [rsp + (4 * 32)]
  .mulx .r10 .rax (.mem ⟨some .rsp, none, 136#64⟩), -- 621: mulx r10, rax, [rsp + (4 * 32)+ 0x8]
  .add (.reg .r9) (.reg .rax), -- 622: add r9, rax
  .mulx .r11 .rax (.mem ⟨some .rsp, none, 144#64⟩), -- 623: mulx r11, rax, [rsp + (4 * 32)+ 0x10]
  .adc (.reg .r10) (.reg .rax), -- 624: adc r10, rax
  .mulx .r12 .rax (.mem ⟨some .rsp, none, 152#64⟩), -- 625: mulx r12, rax, [rsp + (4 * 32)+ 0x18]
  .adc (.reg .r11) (.reg .rax), -- 626: adc r11, rax
  .adc (.reg .r12) (.reg .rdi), -- 627: adc r12, rdi
  .xor (.reg .rdi) (.reg .rdi), -- 628: xor edi, edi
  .mov (.reg .rdx) (.mem ⟨some .rsp, none, 72#64⟩), -- 629: mov rdx, [rsp + (2 * 32)+ 0x8]
  .mulx .rbx .rax (.mem ⟨some .rsp, none, 128#64⟩), -- 630: mulx rbx, rax, [rsp + (4 * 32)]
  .adcx .r9 (.reg .rax), -- 631: adcx r9, rax
  .adox .r10 (.reg .rbx), -- 632: adox r10, rbx
  .mulx .rbx .rax (.mem ⟨some .rsp, none, 136#64⟩), -- 633: mulx rbx, rax, [rsp + (4 * 32)+ 0x8]
  .adcx .r10 (.reg .rax), -- 634: adcx r10, rax
  .adox .r11 (.reg .rbx), -- 635: adox r11, rbx
  .mulx .rbx .rax (.mem ⟨some .rsp, none, 144#64⟩), -- 636: mulx rbx, rax, [rsp + (4 * 32)+ 0x10]
  .adcx .r11 (.reg .rax), -- 637: adcx r11, rax
  .adox .r12 (.reg .rbx), -- 638: adox r12, rbx
  .mulx .r13 .rax (.mem ⟨some .rsp, none, 152#64⟩), -- 639: mulx r13, rax, [rsp + (4 * 32)+ 0x18]
  .adcx .r12 (.reg .rax), -- 640: adcx r12, rax
  .adox .r13 (.reg .rdi), -- 641: adox r13, rdi
  .adcx .r13 (.reg .rdi), -- 642: adcx r13, rdi
  .xor (.reg .rdi) (.reg .rdi), -- 643: xor edi, edi
  .mov (.reg .rdx) (.mem ⟨some .rsp, none, 80#64⟩), -- 644: mov rdx, [rsp + (2 * 32)+ 0x10]
  .mulx .rbx .rax (.mem ⟨some .rsp, none, 128#64⟩), -- 645: mulx rbx, rax, [rsp + (4 * 32)]
  .adcx .r10 (.reg .rax), -- 646: adcx r10, rax
  .adox .r11 (.reg .rbx), -- 647: adox r11, rbx
  .mulx .rbx .rax (.mem ⟨some .rsp, none, 136#64⟩), -- 648: mulx rbx, rax, [rsp + (4 * 32)+ 0x8]
  .adcx .r11 (.reg .rax), -- 649: adcx r11, rax
  .adox .r12 (.reg .rbx), -- 650: adox r12, rbx
  .mulx .rbx .rax (.mem ⟨some .rsp, none, 144#64⟩), -- 651: mulx rbx, rax, [rsp + (4 * 32)+ 0x10]
  .adcx .r12 (.reg .rax), -- 652: adcx r12, rax
  .adox .r13 (.reg .rbx), -- 653: adox r13, rbx
  .mulx .r14 .rax (.mem ⟨some .rsp, none, 152#64⟩), -- 654: mulx r14, rax, [rsp + (4 * 32)+ 0x18]
  .adcx .r13 (.reg .rax), -- 655: adcx r13, rax
  .adox .r14 (.reg .rdi), -- 656: adox r14, rdi
  .adcx .r14 (.reg .rdi), -- 657: adcx r14, rdi
  .xor (.reg .rdi) (.reg .rdi), -- 658: xor edi, edi
  .mov (.reg .rdx) (.mem ⟨some .rsp, none, 88#64⟩), -- 659: mov rdx, [rsp + (2 * 32)+ 0x18]
  .mulx .rbx .rax (.mem ⟨some .rsp, none, 128#64⟩), -- 660: mulx rbx, rax, [rsp + (4 * 32)]
  .adcx .r11 (.reg .rax), -- 661: adcx r11, rax
  .adox .r12 (.reg .rbx), -- 662: adox r12, rbx
  .mulx .rbx .rax (.mem ⟨some .rsp, none, 136#64⟩), -- 663: mulx rbx, rax, [rsp + (4 * 32)+ 0x8]
  .adcx .r12 (.reg .rax), -- 664: adcx r12, rax
  .adox .r13 (.reg .rbx), -- 665: adox r13, rbx
  .mulx .rbx .rax (.mem ⟨some .rsp, none, 144#64⟩), -- 666: mulx rbx, rax, [rsp + (4 * 32)+ 0x10]
  .adcx .r13 (.reg .rax), -- 667: adcx r13, rax
  .adox .r14 (.reg .rbx), -- 668: adox r14, rbx
  .mulx .r15 .rax (.mem ⟨some .rsp, none, 152#64⟩), -- 669: mulx r15, rax, [rsp + (4 * 32)+ 0x18]
  .adcx .r14 (.reg .rax), -- 670: adcx r14, rax
  .adox .r15 (.reg .rdi), -- 671: adox r15, rdi
  .adcx .r15 (.reg .rdi), -- 672: adcx r15, rdi
  .mov (.reg .rdx) (.imm 38#64), -- 673: mov edx, 0x26
  .xor (.reg .rdi) (.reg .rdi), -- 674: xor edi, edi
  .mulx .rbx .rax (.reg .r12), -- 675: mulx rbx, rax, r12
  .adcx .r8 (.reg .rax), -- 676: adcx r8, rax
  .adox .r9 (.reg .rbx), -- 677: adox r9, rbx
  .mulx .rbx .rax (.reg .r13), -- 678: mulx rbx, rax, r13
  .adcx .r9 (.reg .rax), -- 679: adcx r9, rax
  .adox .r10 (.reg .rbx), -- 680: adox r10, rbx
  .mulx .rbx .rax (.reg .r14), -- 681: mulx rbx, rax, r14
  .adcx .r10 (.reg .rax), -- 682: adcx r10, rax
  .adox .r11 (.reg .rbx), -- 683: adox r11, rbx
  .mulx .r12 .rax (.reg .r15), -- 684: mulx r12, rax, r15
  .adcx .r11 (.reg .rax), -- 685: adcx r11, rax
  .adox .r12 (.reg .rdi), -- 686: adox r12, rdi
  .adcx .r12 (.reg .rdi), -- 687: adcx r12, rdi
  .mov (.mem ⟨some .rsp, none, 192#64⟩) (.reg .r8), -- 688: mov [rsp + (6 * 32)], r8
  .mov (.mem ⟨some .rsp, none, 200#64⟩) (.reg .r9), -- 689: mov [rsp + (6 * 32)+ 0x8], r9
  .mov (.mem ⟨some .rsp, none, 208#64⟩) (.reg .r10), -- 690: mov [rsp + (6 * 32)+ 0x10], r10
  .mov (.mem ⟨some .rsp, none, 216#64⟩) (.reg .r11), -- 691: mov [rsp + (6 * 32)+ 0x18], r11
  .mov (.mem ⟨some .rsp, none, 224#64⟩) (.reg .r12), -- 692: mov [rsp + (6 * 32)+ 0x20], r12
  .mov (.reg .rdx) (.mem ⟨some .rsp, none, 352#64⟩), -- 693: mov rdx, [rsp + (11 * 32)]
  .mulx .r15 .r8 (.reg .rdx), -- 694: mulx r15, r8, rdx
  .mulx .r10 .r9 (.mem ⟨some .rsp, none, 360#64⟩), -- 695: mulx r10, r9, [rsp + (11 * 32)+ 0x8]
  .mulx .r12 .r11 (.mem ⟨some .rsp, none, 376#64⟩), -- 696: mulx r12, r11, [rsp + (11 * 32)+ 0x18]
  .mov (.reg .rdx) (.mem ⟨some .rsp, none, 368#64⟩), -- 697: mov rdx, [rsp + (11 * 32)+ 0x10]
  .mulx .r14 .r13 (.mem ⟨some .rsp, none, 376#64⟩), -- 698: mulx r14, r13, [rsp + (11 * 32)+ 0x18]
  .xor (.reg .rbx) (.reg .rbx), -- 699: xor ebx, ebx
  .mulx .rcx .rax (.mem ⟨some .rsp, none, 352#64⟩), -- 700: mulx rcx, rax, [rsp + (11 * 32)]
  .adcx .r10 (.reg .rax), -- 701: adcx r10, rax
  .adox .r11 (.reg .rcx), -- 702: adox r11, rcx
  .mulx .rcx .rax (.mem ⟨some .rsp, none, 360#64⟩), -- 703: mulx rcx, rax, [rsp + (11 * 32)+ 0x8]
  .adcx .r11 (.reg .rax), -- 704: adcx r11, rax
  .adox .r12 (.reg .rcx), -- 705: adox r12, rcx
  .mov (.reg .rdx) (.mem ⟨some .rsp, none, 376#64⟩), -- 706: mov rdx, [rsp + (11 * 32)+ 0x18]
  .mulx .rcx .rax (.mem ⟨some .rsp, none, 360#64⟩), -- 707: mulx rcx, rax, [rsp + (11 * 32)+ 0x8]
  .adcx .r12 (.reg .rax), -- 708: adcx r12, rax
  .adox .r13 (.reg .rcx), -- 709: adox r13, rcx
  .adcx .r13 (.reg .rbx), -- 710: adcx r13, rbx
  .adox .r14 (.reg .rbx), -- 711: adox r14, rbx
  .adc (.reg .r14) (.reg .rbx), -- 712: adc r14, rbx
  .xor (.reg .rbx) (.reg .rbx), -- 713: xor ebx, ebx
  .adcx .r9 (.reg .r9), -- 714: adcx r9, r9
  .adox .r9 (.reg .r15), -- 715: adox r9, r15
  .mov (.reg .rdx) (.mem ⟨some .rsp, none, 360#64⟩), -- 716: mov rdx, [rsp + (11 * 32)+ 0x8]
  .mulx .rdx .rax (.reg .rdx), -- 717: mulx rdx, rax, rdx
  .adcx .r10 (.reg .r10), -- 718: adcx r10, r10
  .adox .r10 (.reg .rax), -- 719: adox r10, rax
  .adcx .r11 (.reg .r11), -- 720: adcx r11, r11
  .adox .r11 (.reg .rdx), -- 721: adox r11, rdx
  .mov (.reg .rdx) (.mem ⟨some .rsp, none, 368#64⟩), -- 722: mov rdx, [rsp + (11 * 32)+ 0x10]
  .mulx .rdx .rax (.reg .rdx), -- 723: mulx rdx, rax, rdx
  .adcx .r12 (.reg .r12), -- 724: adcx r12, r12
  .adox .r12 (.reg .rax), -- 725: adox r12, rax
  .adcx .r13 (.reg .r13), -- 726: adcx r13, r13
  .adox .r13 (.reg .rdx), -- 727: adox r13, rdx
  .mov (.reg .rdx) (.mem ⟨some .rsp, none, 376#64⟩), -- 728: mov rdx, [rsp + (11 * 32)+ 0x18]
  .mulx .r15 .rax (.reg .rdx), -- 729: mulx r15, rax, rdx
  .adcx .r14 (.reg .r14), -- 730: adcx r14, r14
  .adox .r14 (.reg .rax), -- 731: adox r14, rax
  .adcx .r15 (.reg .rbx), -- 732: adcx r15, rbx
  .adox .r15 (.reg .rbx), -- 733: adox r15, rbx
  .mov (.reg .rdx) (.imm 38#64), -- 734: mov edx, 0x26
  .xor (.reg .rbx) (.reg .rbx), -- 735: xor ebx, ebx
  .mulx .rcx .rax (.reg .r12), -- 736: mulx rcx, rax, r12
  .adcx .r8 (.reg .rax), -- 737: adcx r8, rax
  .adox .r9 (.reg .rcx), -- 738: adox r9, rcx
  .mulx .rcx .rax (.reg .r13), -- 739: mulx rcx, rax, r13
  .adcx .r9 (.reg .rax), -- 740: adcx r9, rax
  .adox .r10 (.reg .rcx), -- 741: adox r10, rcx
  .mulx .rcx .rax (.reg .r14), -- 742: mulx rcx, rax, r14
  .adcx .r10 (.reg .rax), -- 743: adcx r10, rax
  .adox .r11 (.reg .rcx), -- 744: adox r11, rcx
  .mulx .r12 .rax (.reg .r15), -- 745: mulx r12, rax, r15
  .adcx .r11 (.reg .rax), -- 746: adcx r11, rax
  .adox .r12 (.reg .rbx), -- 747: adox r12, rbx
  .adcx .r12 (.reg .rbx), -- 748: adcx r12, rbx
  .shld (.reg .r12) .r11 (.imm 1#64), -- 749: shld r12, r11, 0x1
  .btr .r11 63#64, -- 750: btr r11, 0x3f
  .mov (.reg .rdx) (.imm 19#64), -- 751: mov edx, 0x13
  .imul .rdx (.reg .r12), -- 752: imul rdx, r12
  .add (.reg .r8) (.reg .rdx), -- 753: add r8, rdx
  .adc (.reg .r9) (.reg .rbx), -- 754: adc r9, rbx
  .adc (.reg .r10) (.reg .rbx), -- 755: adc r10, rbx
  .adc (.reg .r11) (.reg .rbx), -- 756: adc r11, rbx
  .mov (.mem ⟨some .rsp, none, 352#64⟩) (.reg .r8), -- 757: mov [rsp + (11 * 32)], r8
  .mov (.mem ⟨some .rsp, none, 360#64⟩) (.reg .r9), -- 758: mov [rsp + (11 * 32)+ 0x8], r9
  .mov (.mem ⟨some .rsp, none, 368#64⟩) (.reg .r10), -- 759: mov [rsp + (11 * 32)+ 0x10], r10
  .mov (.mem ⟨some .rsp, none, 376#64⟩) (.reg .r11), -- 760: mov [rsp + (11 * 32)+ 0x18], r11
  .mov (.reg .r8) (.mem ⟨some .rsp, none, 192#64⟩), -- 761: mov r8, [rsp + (6 * 32)]
  .sub (.reg .r8) (.mem ⟨some .rsp, none, 256#64⟩), -- 762: sub r8, [rsp + (8 * 32)]
  .mov (.reg .r9) (.mem ⟨some .rsp, none, 200#64⟩), -- 763: mov r9, [rsp + (6 * 32)+ 8]
  .sbb (.reg .r9) (.mem ⟨some .rsp, none, 264#64⟩), -- 764: sbb r9, [rsp + (8 * 32)+ 8]
  .mov (.reg .r10) (.mem ⟨some .rsp, none, 208#64⟩), -- 765: mov r10, [rsp + (6 * 32)+ 16]
  .sbb (.reg .r10) (.mem ⟨some .rsp, none, 272#64⟩), -- 766: sbb r10, [rsp + (8 * 32)+ 16]
  .mov (.reg .r11) (.mem ⟨some .rsp, none, 216#64⟩), -- 767: mov r11, [rsp + (6 * 32)+ 24]
  .sbb (.reg .r11) (.mem ⟨some .rsp, none, 280#64⟩), -- 768: sbb r11, [rsp + (8 * 32)+ 24]
  .mov (.reg .r12) (.mem ⟨some .rsp, none, 224#64⟩), -- 769: mov r12, [rsp + (6 * 32)+ 32]
  .sbb (.reg .r12) (.mem ⟨some .rsp, none, 288#64⟩), -- 770: sbb r12, [rsp + (8 * 32)+ 32]
  .xor (.reg .rbx) (.reg .rbx), -- 771: xor ebx, ebx
  .sub (.reg .r8) (.imm 0x4a38#64), -- 772: sub r8, 19000
  .sbb (.reg .r9) (.reg .rbx), -- 773: sbb r9, rbx
  .sbb (.reg .r10) (.reg .rbx), -- 774: sbb r10, rbx
  .sbb (.reg .r11) (.reg .rbx), -- 775: sbb r11, rbx
  .sbb (.reg .r12) (.reg .rbx), -- 776: sbb r12, rbx
  .add (.reg .r12) (.imm 500#64), -- 777: add r12, 500
  .shld (.reg .r12) .r11 (.imm 1#64), -- 778: shld r12, r11, 0x1
  .btr .r11 63#64, -- 779: btr r11, 0x3f
  .mov (.reg .rdx) (.imm 19#64), -- 780: mov edx, 0x13
  .imul .rdx (.reg .r12), -- 781: imul rdx, r12
  .add (.reg .r8) (.reg .rdx), -- 782: add r8, rdx
  .adc (.reg .r9) (.reg .rbx), -- 783: adc r9, rbx
  .adc (.reg .r10) (.reg .rbx), -- 784: adc r10, rbx
  .adc (.reg .r11) (.reg .rbx), -- 785: adc r11, rbx
  .mov (.mem ⟨some .rsp, none, 96#64⟩) (.reg .r8), -- 786: mov [rsp + (3 * 32)], r8
  .mov (.mem ⟨some .rsp, none, 104#64⟩) (.reg .r9), -- 787: mov [rsp + (3 * 32)+ 0x8], r9
  .mov (.mem ⟨some .rsp, none, 112#64⟩) (.reg .r10), -- 788: mov [rsp + (3 * 32)+ 0x10], r10
  .mov (.mem ⟨some .rsp, none, 120#64⟩) (.reg .r11), -- 789: mov [rsp + (3 * 32)+ 0x18], r11
  .mov (.reg .r8) (.mem ⟨some .rsp, none, 192#64⟩), -- 790: mov r8, [rsp + (6 * 32)]
  .add (.reg .r8) (.mem ⟨some .rsp, none, 256#64⟩), -- 791: add r8, [rsp + (8 * 32)]
  .mov (.reg .r9) (.mem ⟨some .rsp, none, 200#64⟩), -- 792: mov r9, [rsp + (6 * 32)+ 8]
  .adc (.reg .r9) (.mem ⟨some .rsp, none, 264#64⟩), -- 793: adc r9, [rsp + (8 * 32)+ 8]
  .mov (.reg .r10) (.mem ⟨some .rsp, none, 208#64⟩), -- 794: mov r10, [rsp + (6 * 32)+ 16]
  .adc (.reg .r10) (.mem ⟨some .rsp, none, 272#64⟩), -- 795: adc r10, [rsp + (8 * 32)+ 16]
  .mov (.reg .r11) (.mem ⟨some .rsp, none, 216#64⟩), -- 796: mov r11, [rsp + (6 * 32)+ 24]
  .adc (.reg .r11) (.mem ⟨some .rsp, none, 280#64⟩), -- 797: adc r11, [rsp + (8 * 32)+ 24]
  .mov (.reg .r12) (.mem ⟨some .rsp, none, 224#64⟩), -- 798: mov r12, [rsp + (6 * 32)+ 32]
  .adc (.reg .r12) (.mem ⟨some .rsp, none, 288#64⟩), -- 799: adc r12, [rsp + (8 * 32)+ 32]
  .xor (.reg .rbx) (.reg .rbx), -- 800: xor ebx, ebx
  .shld (.reg .r12) .r11 (.imm 1#64), -- 801: shld r12, r11, 0x1
  .btr .r11 63#64, -- 802: btr r11, 0x3f
  .mov (.reg .rdx) (.imm 19#64), -- 803: mov edx, 0x13
  .imul .rdx (.reg .r12), -- 804: imul rdx, r12
  .add (.reg .r8) (.reg .rdx), -- 805: add r8, rdx
  .adc (.reg .r9) (.reg .rbx), -- 806: adc r9, rbx
  .adc (.reg .r10) (.reg .rbx), -- 807: adc r10, rbx
  .adc (.reg .r11) (.reg .rbx), -- 808: adc r11, rbx
  .mov (.mem ⟨some .rsp, none, 256#64⟩) (.reg .r8), -- 809: mov [rsp + (8 * 32)], r8
  .mov (.mem ⟨some .rsp, none, 264#64⟩) (.reg .r9), -- 810: mov [rsp + (8 * 32)+ 0x8], r9
  .mov (.mem ⟨some .rsp, none, 272#64⟩) (.reg .r10), -- 811: mov [rsp + (8 * 32)+ 0x10], r10
  .mov (.mem ⟨some .rsp, none, 280#64⟩) (.reg .r11), -- 812: mov [rsp + (8 * 32)+ 0x18], r11
  .mov (.reg .rdx) (.mem ⟨some .rsp, none, 320#64⟩), -- 813: mov rdx, [rsp + (10 * 32)]
  .mulx .r15 .r8 (.reg .rdx), -- 814: mulx r15, r8, rdx
  .mulx .r10 .r9 (.mem ⟨some .rsp, none, 328#64⟩), -- 815: mulx r10, r9, [rsp + (10 * 32)+ 0x8]
  .mulx .r12 .r11 (.mem ⟨some .rsp, none, 344#64⟩), -- 816: mulx r12, r11, [rsp + (10 * 32)+ 0x18]
  .mov (.reg .rdx) (.mem ⟨some .rsp, none, 336#64⟩), -- 817: mov rdx, [rsp + (10 * 32)+ 0x10]
  .mulx .r14 .r13 (.mem ⟨some .rsp, none, 344#64⟩), -- 818: mulx r14, r13, [rsp + (10 * 32)+ 0x18]
  .xor (.reg .rbx) (.reg .rbx), -- 819: xor ebx, ebx
  .mulx .rcx .rax (.mem ⟨some .rsp, none, 320#64⟩), -- 820: mulx rcx, rax, [rsp + (10 * 32)]
  .adcx .r10 (.reg .rax), -- 821: adcx r10, rax
  .adox .r11 (.reg .rcx), -- 822: adox r11, rcx
  .mulx .rcx .rax (.mem ⟨some .rsp, none, 328#64⟩), -- 823: mulx rcx, rax, [rsp + (10 * 32)+ 0x8]
  .adcx .r11 (.reg .rax), -- 824: adcx r11, rax
  .adox .r12 (.reg .rcx), -- 825: adox r12, rcx
  .mov (.reg .rdx) (.mem ⟨some .rsp, none, 344#64⟩), -- 826: mov rdx, [rsp + (10 * 32)+ 0x18]
  .mulx .rcx .rax (.mem ⟨some .rsp, none, 328#64⟩), -- 827: mulx rcx, rax, [rsp + (10 * 32)+ 0x8]
  .adcx .r12 (.reg .rax), -- 828: adcx r12, rax
  .adox .r13 (.reg .rcx), -- 829: adox r13, rcx
  .adcx .r13 (.reg .rbx), -- 830: adcx r13, rbx
  .adox .r14 (.reg .rbx), -- 831: adox r14, rbx
  .adc (.reg .r14) (.reg .rbx), -- 832: adc r14, rbx
  .xor (.reg .rbx) (.reg .rbx), -- 833: xor ebx, ebx
  .adcx .r9 (.reg .r9), -- 834: adcx r9, r9
  .adox .r9 (.reg .r15), -- 835: adox r9, r15
  .mov (.reg .rdx) (.mem ⟨some .rsp, none, 328#64⟩), -- 836: mov rdx, [rsp + (10 * 32)+ 0x8]
  .mulx .rdx .rax (.reg .rdx), -- 837: mulx rdx, rax, rdx
  .adcx .r10 (.reg .r10), -- 838: adcx r10, r10
  .adox .r10 (.reg .rax), -- 839: adox r10, rax
  .adcx .r11 (.reg .r11), -- 840: adcx r11, r11
  .adox .r11 (.reg .rdx), -- 841: adox r11, rdx
  .mov (.reg .rdx) (.mem ⟨some .rsp, none, 336#64⟩), -- 842: mov rdx, [rsp + (10 * 32)+ 0x10]
  .mulx .rdx .rax (.reg .rdx), -- 843: mulx rdx, rax, rdx
  .adcx .r12 (.reg .r12), -- 844: adcx r12, r12
  .adox .r12 (.reg .rax), -- 845: adox r12, rax
  .adcx .r13 (.reg .r13), -- 846: adcx r13, r13
  .adox .r13 (.reg .rdx), -- 847: adox r13, rdx
  .mov (.reg .rdx) (.mem ⟨some .rsp, none, 344#64⟩), -- 848: mov rdx, [rsp + (10 * 32)+ 0x18]
  .mulx .r15 .rax (.reg .rdx), -- 849: mulx r15, rax, rdx
  .adcx .r14 (.reg .r14), -- 850: adcx r14, r14
  .adox .r14 (.reg .rax), -- 851: adox r14, rax
  .adcx .r15 (.reg .rbx), -- 852: adcx r15, rbx
  .adox .r15 (.reg .rbx), -- 853: adox r15, rbx
  .mov (.reg .rdx) (.imm 38#64), -- 854: mov edx, 0x26
  .xor (.reg .rbx) (.reg .rbx), -- 855: xor ebx, ebx
  .mulx .rcx .rax (.reg .r12), -- 856: mulx rcx, rax, r12
  .adcx .r8 (.reg .rax), -- 857: adcx r8, rax
  .adox .r9 (.reg .rcx), -- 858: adox r9, rcx
  .mulx .rcx .rax (.reg .r13), -- 859: mulx rcx, rax, r13
  .adcx .r9 (.reg .rax), -- 860: adcx r9, rax
  .adox .r10 (.reg .rcx), -- 861: adox r10, rcx
  .mulx .rcx .rax (.reg .r14), -- 862: mulx rcx, rax, r14
  .adcx .r10 (.reg .rax), -- 863: adcx r10, rax
  .adox .r11 (.reg .rcx), -- 864: adox r11, rcx
  .mulx .r12 .rax (.reg .r15), -- 865: mulx r12, rax, r15
  .adcx .r11 (.reg .rax), -- 866: adcx r11, rax
  .adox .r12 (.reg .rbx), -- 867: adox r12, rbx
  .adcx .r12 (.reg .rbx), -- 868: adcx r12, rbx
  .shld (.reg .r12) .r11 (.imm 1#64), -- 869: shld r12, r11, 0x1
  .btr .r11 63#64, -- 870: btr r11, 0x3f
  .mov (.reg .rdx) (.imm 19#64), -- 871: mov edx, 0x13
  .imul .rdx (.reg .r12), -- 872: imul rdx, r12
  .add (.reg .r8) (.reg .rdx), -- 873: add r8, rdx
  .adc (.reg .r9) (.reg .rbx), -- 874: adc r9, rbx
  .adc (.reg .r10) (.reg .rbx), -- 875: adc r10, rbx
  .adc (.reg .r11) (.reg .rbx), -- 876: adc r11, rbx
  .mov (.mem ⟨some .rsp, none, 320#64⟩) (.reg .r8), -- 877: mov [rsp + (10 * 32)], r8
  .mov (.mem ⟨some .rsp, none, 328#64⟩) (.reg .r9), -- 878: mov [rsp + (10 * 32)+ 0x8], r9
  .mov (.mem ⟨some .rsp, none, 336#64⟩) (.reg .r10), -- 879: mov [rsp + (10 * 32)+ 0x10], r10
  .mov (.mem ⟨some .rsp, none, 344#64⟩) (.reg .r11), -- 880: mov [rsp + (10 * 32)+ 0x18], r11
  .mov (.reg .rdx) (.mem ⟨some .rsp, none, 96#64⟩), -- 881: mov rdx, [rsp + (3 * 32)]
  .mulx .r15 .r8 (.reg .rdx), -- 882: mulx r15, r8, rdx
  .mulx .r10 .r9 (.mem ⟨some .rsp, none, 104#64⟩), -- 883: mulx r10, r9, [rsp + (3 * 32)+ 0x8]
  .mulx .r12 .r11 (.mem ⟨some .rsp, none, 120#64⟩), -- 884: mulx r12, r11, [rsp + (3 * 32)+ 0x18]
  .mov (.reg .rdx) (.mem ⟨some .rsp, none, 112#64⟩), -- 885: mov rdx, [rsp + (3 * 32)+ 0x10]
  .mulx .r14 .r13 (.mem ⟨some .rsp, none, 120#64⟩), -- 886: mulx r14, r13, [rsp + (3 * 32)+ 0x18]
  .xor (.reg .rbx) (.reg .rbx), -- 887: xor ebx, ebx
  .mulx .rcx .rax (.mem ⟨some .rsp, none, 96#64⟩), -- 888: mulx rcx, rax, [rsp + (3 * 32)]
  .adcx .r10 (.reg .rax), -- 889: adcx r10, rax
  .adox .r11 (.reg .rcx), -- 890: adox r11, rcx
  .mulx .rcx .rax (.mem ⟨some .rsp, none, 104#64⟩), -- 891: mulx rcx, rax, [rsp + (3 * 32)+ 0x8]
  .adcx .r11 (.reg .rax), -- 892: adcx r11, rax
  .adox .r12 (.reg .rcx), -- 893: adox r12, rcx
  .mov (.reg .rdx) (.mem ⟨some .rsp, none, 120#64⟩), -- 894: mov rdx, [rsp + (3 * 32)+ 0x18]
  .mulx .rcx .rax (.mem ⟨some .rsp, none, 104#64⟩), -- 895: mulx rcx, rax, [rsp + (3 * 32)+ 0x8]
  .adcx .r12 (.reg .rax), -- 896: adcx r12, rax
  .adox .r13 (.reg .rcx), -- 897: adox r13, rcx
  .adcx .r13 (.reg .rbx), -- 898: adcx r13, rbx
  .adox .r14 (.reg .rbx), -- 899: adox r14, rbx
  .adc (.reg .r14) (.reg .rbx), -- 900: adc r14, rbx
  .xor (.reg .rbx) (.reg .rbx), -- 901: xor ebx, ebx
  .adcx .r9 (.reg .r9), -- 902: adcx r9, r9
  .adox .r9 (.reg .r15), -- 903: adox r9, r15
  .mov (.reg .rdx) (.mem ⟨some .rsp, none, 104#64⟩), -- 904: mov rdx, [rsp + (3 * 32)+ 0x8]
  .mulx .rdx .rax (.reg .rdx), -- 905: mulx rdx, rax, rdx
  .adcx .r10 (.reg .r10), -- 906: adcx r10, r10
  .adox .r10 (.reg .rax), -- 907: adox r10, rax
  .adcx .r11 (.reg .r11), -- 908: adcx r11, r11
  .adox .r11 (.reg .rdx), -- 909: adox r11, rdx
  .mov (.reg .rdx) (.mem ⟨some .rsp, none, 112#64⟩), -- 910: mov rdx, [rsp + (3 * 32)+ 0x10]
  .mulx .rdx .rax (.reg .rdx), -- 911: mulx rdx, rax, rdx
  .adcx .r12 (.reg .r12), -- 912: adcx r12, r12
  .adox .r12 (.reg .rax), -- 913: adox r12, rax
  .adcx .r13 (.reg .r13), -- 914: adcx r13, r13
  .adox .r13 (.reg .rdx), -- 915: adox r13, rdx
  .mov (.reg .rdx) (.mem ⟨some .rsp, none, 120#64⟩), -- 916: mov rdx, [rsp + (3 * 32)+ 0x18]
  .mulx .r15 .rax (.reg .rdx), -- 917: mulx r15, rax, rdx
  .adcx .r14 (.reg .r14), -- 918: adcx r14, r14
  .adox .r14 (.reg .rax), -- 919: adox r14, rax
  .adcx .r15 (.reg .rbx), -- 920: adcx r15, rbx
  .adox .r15 (.reg .rbx), -- 921: adox r15, rbx
  .mov (.reg .rdx) (.imm 38#64), -- 922: mov edx, 0x26
  .xor (.reg .rbx) (.reg .rbx), -- 923: xor ebx, ebx
  .mulx .rcx .rax (.reg .r12), -- 924: mulx rcx, rax, r12
  .adcx .r8 (.reg .rax), -- 925: adcx r8, rax
  .adox .r9 (.reg .rcx), -- 926: adox r9, rcx
  .mulx .rcx .rax (.reg .r13), -- 927: mulx rcx, rax, r13
  .adcx .r9 (.reg .rax), -- 928: adcx r9, rax
  .adox .r10 (.reg .rcx), -- 929: adox r10, rcx
  .mulx .rcx .rax (.reg .r14), -- 930: mulx rcx, rax, r14
  .adcx .r10 (.reg .rax), -- 931: adcx r10, rax
  .adox .r11 (.reg .rcx), -- 932: adox r11, rcx
  .mulx .r12 .rax (.reg .r15), -- 933: mulx r12, rax, r15
  .adcx .r11 (.reg .rax), -- 934: adcx r11, rax
  .adox .r12 (.reg .rbx), -- 935: adox r12, rbx
  .adcx .r12 (.reg .rbx), -- 936: adcx r12, rbx
  .shld (.reg .r12) .r11 (.imm 1#64), -- 937: shld r12, r11, 0x1
  .btr .r11 63#64, -- 938: btr r11, 0x3f
  .mov (.reg .rdx) (.imm 19#64), -- 939: mov edx, 0x13
  .imul .rdx (.reg .r12), -- 940: imul rdx, r12
  .add (.reg .r8) (.reg .rdx), -- 941: add r8, rdx
  .adc (.reg .r9) (.reg .rbx), -- 942: adc r9, rbx
  .adc (.reg .r10) (.reg .rbx), -- 943: adc r10, rbx
  .adc (.reg .r11) (.reg .rbx), -- 944: adc r11, rbx
  .mov (.mem ⟨some .rsp, none, 96#64⟩) (.reg .r8), -- 945: mov [rsp + (3 * 32)], r8
  .mov (.mem ⟨some .rsp, none, 104#64⟩) (.reg .r9), -- 946: mov [rsp + (3 * 32)+ 0x8], r9
  .mov (.mem ⟨some .rsp, none, 112#64⟩) (.reg .r10), -- 947: mov [rsp + (3 * 32)+ 0x10], r10
  .mov (.mem ⟨some .rsp, none, 120#64⟩) (.reg .r11), -- 948: mov [rsp + (3 * 32)+ 0x18], r11
  .mov (.reg .r8) (.mem ⟨some .rsp, none, 320#64⟩), -- 949: mov r8, [rsp + (10 * 32)]
  .xor (.reg .rbx) (.reg .rbx), -- 950: xor ebx, ebx
  .sub (.reg .r8) (.mem ⟨some .rsp, none, 352#64⟩), -- 951: sub r8, [rsp + (11 * 32)]
  .mov (.reg .r9) (.mem ⟨some .rsp, none, 328#64⟩), -- 952: mov r9, [rsp + (10 * 32)+ 8]
  .sbb (.reg .r9) (.mem ⟨some .rsp, none, 360#64⟩), -- 953: sbb r9, [rsp + (11 * 32)+ 8]
  .mov (.reg .rcx) (.imm 38#64), -- 954: mov ecx, 38
  .mov (.reg .r10) (.mem ⟨some .rsp, none, 336#64⟩), -- 955: mov r10, [rsp + (10 * 32)+ 16]
  .sbb (.reg .r10) (.mem ⟨some .rsp, none, 368#64⟩), -- 956: sbb r10, [rsp + (11 * 32)+ 16]
  .mov (.reg .rax) (.mem ⟨some .rsp, none, 344#64⟩), -- 957: mov rax, [rsp + (10 * 32)+ 24]
  .sbb (.reg .rax) (.mem ⟨some .rsp, none, 376#64⟩), -- 958: sbb rax, [rsp + (11 * 32)+ 24]
  .cmov .nc .rcx (.reg .rbx), -- 959: cmovnc rcx, rbx
  .sub (.reg .r8) (.reg .rcx), -- 960: sub r8, rcx
  .sbb (.reg .r9) (.reg .rbx), -- 961: sbb r9, rbx
  .sbb (.reg .r10) (.reg .rbx), -- 962: sbb r10, rbx
  .sbb (.reg .rax) (.reg .rbx), -- 963: sbb rax, rbx
  .mov (.mem ⟨some .rsp, none, 192#64⟩) (.reg .r8), -- 964: mov [rsp + (6 * 32)], r8
  .mov (.mem ⟨some .rsp, none, 200#64⟩) (.reg .r9), -- 965: mov [rsp + (6 * 32)+ 8], r9
  .mov (.mem ⟨some .rsp, none, 208#64⟩) (.reg .r10), -- 966: mov [rsp + (6 * 32)+ 16], r10
  .mov (.mem ⟨some .rsp, none, 216#64⟩) (.reg .rax), -- 967: mov [rsp + (6 * 32)+ 24], rax
  .mov (.reg .rdx) (.mem ⟨some .rsp, none, 256#64⟩), -- 968: mov rdx, [rsp + (8 * 32)]
  .mulx .r15 .r8 (.reg .rdx), -- 969: mulx r15, r8, rdx
  .mulx .r10 .r9 (.mem ⟨some .rsp, none, 264#64⟩), -- 970: mulx r10, r9, [rsp + (8 * 32)+ 0x8]
  .mulx .r12 .r11 (.mem ⟨some .rsp, none, 280#64⟩), -- 971: mulx r12, r11, [rsp + (8 * 32)+ 0x18]
  .mov (.reg .rdx) (.mem ⟨some .rsp, none, 272#64⟩), -- 972: mov rdx, [rsp + (8 * 32)+ 0x10]
  .mulx .r14 .r13 (.mem ⟨some .rsp, none, 280#64⟩), -- 973: mulx r14, r13, [rsp + (8 * 32)+ 0x18]
  .xor (.reg .rbx) (.reg .rbx), -- 974: xor ebx, ebx
  .mulx .rcx .rax (.mem ⟨some .rsp, none, 256#64⟩), -- 975: mulx rcx, rax, [rsp + (8 * 32)]
  .adcx .r10 (.reg .rax), -- 976: adcx r10, rax
  .adox .r11 (.reg .rcx), -- 977: adox r11, rcx
  .mulx .rcx .rax (.mem ⟨some .rsp, none, 264#64⟩), -- 978: mulx rcx, rax, [rsp + (8 * 32)+ 0x8]
  .adcx .r11 (.reg .rax), -- 979: adcx r11, rax
  .adox .r12 (.reg .rcx), -- 980: adox r12, rcx
  .mov (.reg .rdx) (.mem ⟨some .rsp, none, 280#64⟩), -- 981: mov rdx, [rsp + (8 * 32)+ 0x18]
  .mulx .rcx .rax (.mem ⟨some .rsp, none, 264#64⟩), -- 982: mulx rcx, rax, [rsp + (8 * 32)+ 0x8]
  .adcx .r12 (.reg .rax), -- 983: adcx r12, rax
  .adox .r13 (.reg .rcx), -- 984: adox r13, rcx
  .adcx .r13 (.reg .rbx), -- 985: adcx r13, rbx
  .adox .r14 (.reg .rbx), -- 986: adox r14, rbx
  .adc (.reg .r14) (.reg .rbx), -- 987: adc r14, rbx
  .xor (.reg .rbx) (.reg .rbx), -- 988: xor ebx, ebx
  .adcx .r9 (.reg .r9), -- 989: adcx r9, r9
  .adox .r9 (.reg .r15), -- 990: adox r9, r15
  .mov (.reg .rdx) (.mem ⟨some .rsp, none, 264#64⟩), -- 991: mov rdx, [rsp + (8 * 32)+ 0x8]
  .mulx .rdx .rax (.reg .rdx), -- 992: mulx rdx, rax, rdx
  .adcx .r10 (.reg .r10), -- 993: adcx r10, r10
  .adox .r10 (.reg .rax), -- 994: adox r10, rax
  .adcx .r11 (.reg .r11), -- 995: adcx r11, r11
  .adox .r11 (.reg .rdx), -- 996: adox r11, rdx
  .mov (.reg .rdx) (.mem ⟨some .rsp, none, 272#64⟩), -- 997: mov rdx, [rsp + (8 * 32)+ 0x10]
  .mulx .rdx .rax (.reg .rdx), -- 998: mulx rdx, rax, rdx
  .adcx .r12 (.reg .r12), -- 999: adcx r12, r12
  .adox .r12 (.reg .rax), -- 1000: adox r12, rax
  .adcx .r13 (.reg .r13), -- 1001: adcx r13, r13
  .adox .r13 (.reg .rdx), -- 1002: adox r13, rdx
  .mov (.reg .rdx) (.mem ⟨some .rsp, none, 280#64⟩), -- 1003: mov rdx, [rsp + (8 * 32)+ 0x18]
  .mulx .r15 .rax (.reg .rdx), -- 1004: mulx r15, rax, rdx
  .adcx .r14 (.reg .r14), -- 1005: adcx r14, r14
  .adox .r14 (.reg .rax), -- 1006: adox r14, rax
  .adcx .r15 (.reg .rbx), -- 1007: adcx r15, rbx
  .adox .r15 (.reg .rbx), -- 1008: adox r15, rbx
  .mov (.reg .rdx) (.imm 38#64), -- 1009: mov edx, 0x26
  .xor (.reg .rbx) (.reg .rbx), -- 1010: xor ebx, ebx
  .mulx .rcx .rax (.reg .r12), -- 1011: mulx rcx, rax, r12
  .adcx .r8 (.reg .rax), -- 1012: adcx r8, rax
  .adox .r9 (.reg .rcx), -- 1013: adox r9, rcx
  .mulx .rcx .rax (.reg .r13), -- 1014: mulx rcx, rax, r13
  .adcx .r9 (.reg .rax), -- 1015: adcx r9, rax
  .adox .r10 (.reg .rcx), -- 1016: adox r10, rcx
  .mulx .rcx .rax (.reg .r14), -- 1017: mulx rcx, rax, r14
  .adcx .r10 (.reg .rax), -- 1018: adcx r10, rax
  .adox .r11 (.reg .rcx), -- 1019: adox r11, rcx
  .mulx .r12 .rax (.reg .r15), -- 1020: mulx r12, rax, r15
  .adcx .r11 (.reg .rax), -- 1021: adcx r11, rax
  .adox .r12 (.reg .rbx), -- 1022: adox r12, rbx
  .adcx .r12 (.reg .rbx), -- 1023: adcx r12, rbx
  .shld (.reg .r12) .r11 (.imm 1#64), -- 1024: shld r12, r11, 0x1
  .btr .r11 63#64, -- 1025: btr r11, 0x3f
  .mov (.reg .rdx) (.imm 19#64), -- 1026: mov edx, 0x13
  .imul .rdx (.reg .r12), -- 1027: imul rdx, r12
  .add (.reg .r8) (.reg .rdx), -- 1028: add r8, rdx
  .adc (.reg .r9) (.reg .rbx), -- 1029: adc r9, rbx
  .adc (.reg .r10) (.reg .rbx), -- 1030: adc r10, rbx
  .adc (.reg .r11) (.reg .rbx), -- 1031: adc r11, rbx
  .mov (.mem ⟨some .rsp, none, 256#64⟩) (.reg .r8), -- 1032: mov [rsp + (8 * 32)], r8
  .mov (.mem ⟨some .rsp, none, 264#64⟩) (.reg .r9), -- 1033: mov [rsp + (8 * 32)+ 0x8], r9
  .mov (.mem ⟨some .rsp, none, 272#64⟩) (.reg .r10), -- 1034: mov [rsp + (8 * 32)+ 0x10], r10
  .mov (.mem ⟨some .rsp, none, 280#64⟩) (.reg .r11), -- 1035: mov [rsp + (8 * 32)+ 0x18], r11
  .mov (.reg .r8) (.mem ⟨some .rsp, none, 352#64⟩), -- 1036: mov r8, [rsp + (11 * 32)]
  .mov (.reg .r9) (.mem ⟨some .rsp, none, 360#64⟩), -- 1037: mov r9, [rsp + (11 * 32)+ 8]
  .mov (.reg .r10) (.mem ⟨some .rsp, none, 368#64⟩), -- 1038: mov r10, [rsp + (11 * 32)+ 16]
  .mov (.reg .r11) (.mem ⟨some .rsp, none, 376#64⟩), -- 1039: mov r11, [rsp + (11 * 32)+ 24]
  .xor (.reg .rdi) (.reg .rdi), -- 1040: xor edi, edi
  .mov (.reg .rdx) (.imm 0x1db42#64), -- 1041: mov rdx, 0x1db42
  .mulx .rbx .rax (.mem ⟨some .rsp, none, 192#64⟩), -- 1042: mulx rbx, rax, [rsp + (6 * 32)]
  .adcx .r8 (.reg .rax), -- 1043: adcx r8, rax
  .adox .r9 (.reg .rbx), -- 1044: adox r9, rbx
  .mulx .rbx .rax (.mem ⟨some .rsp, none, 200#64⟩), -- 1045: mulx rbx, rax, [rsp + (6 * 32)+ 8]
  .adcx .r9 (.reg .rax), -- 1046: adcx r9, rax
  .adox .r10 (.reg .rbx), -- 1047: adox r10, rbx
  .mulx .rbx .rax (.mem ⟨some .rsp, none, 208#64⟩), -- 1048: mulx rbx, rax, [rsp + (6 * 32)+ 16]
  .adcx .r10 (.reg .rax), -- 1049: adcx r10, rax
  .adox .r11 (.reg .rbx), -- 1050: adox r11, rbx
  .mulx .rbx .rax (.mem ⟨some .rsp, none, 216#64⟩), -- 1051: mulx rbx, rax, [rsp + (6 * 32)+ 24]
  .adcx .r11 (.reg .rax), -- 1052: adcx r11, rax
  .adox .rbx (.reg .rdi), -- 1053: adox rbx, rdi
  .adcx .rbx (.reg .rdi), -- 1054: adcx rbx, rdi
  .shld (.reg .rbx) .r11 (.imm 1#64), -- 1055: shld rbx, r11, 0x1
  .btr .r11 63#64, -- 1056: btr r11, 63
  .mov (.reg .rdx) (.imm 19#64), -- 1057: mov edx, 0x13
  .imul .rbx (.reg .rdx), -- 1058: imul rbx, rdx
  .add (.reg .r8) (.reg .rbx), -- 1059: add r8, rbx
  .adc (.reg .r9) (.reg .rdi), -- 1060: adc r9, rdi
  .adc (.reg .r10) (.reg .rdi), -- 1061: adc r10, rdi
  .adc (.reg .r11) (.reg .rdi), -- 1062: adc r11, rdi
  .mov (.mem ⟨some .rsp, none, 160#64⟩) (.reg .r8), -- 1063: mov [rsp + (5 * 32)], r8
  .mov (.mem ⟨some .rsp, none, 168#64⟩) (.reg .r9), -- 1064: mov [rsp + (5 * 32)+ 0x8], r9
  .mov (.mem ⟨some .rsp, none, 176#64⟩) (.reg .r10), -- 1065: mov [rsp + (5 * 32)+ 0x10], r10
  .mov (.mem ⟨some .rsp, none, 184#64⟩) (.reg .r11), -- 1066: mov [rsp + (5 * 32)+ 0x18], r11
  .xor (.reg .rcx) (.reg .rcx), -- 1067: xor ecx, ecx
  .mov (.reg .rdx) (.mem ⟨some .rsp, none, 352#64⟩), -- 1068: mov rdx, [rsp + (11 * 32)]
  .mulx .r9 .r8 (.mem ⟨some .rsp, none, 320#64⟩), -- 1069: mulx r9, r8, [rsp + (10 * 32)]
  .mulx .r10 .rax (.mem ⟨some .rsp, none, 328#64⟩), -- 1070: mulx r10, rax, [rsp + (10 * 32)+ 0x8]
  .add (.reg .r9) (.reg .rax), -- 1071: add r9, rax
  .mulx .r11 .rax (.mem ⟨some .rsp, none, 336#64⟩), -- 1072: mulx r11, rax, [rsp + (10 * 32)+ 0x10]
  .adc (.reg .r10) (.reg .rax), -- 1073: adc r10, rax
  .mulx .r12 .rax (.mem ⟨some .rsp, none, 344#64⟩), -- 1074: mulx r12, rax, [rsp + (10 * 32)+ 0x18]
  .adc (.reg .r11) (.reg .rax), -- 1075: adc r11, rax
  .adc (.reg .r12) (.reg .rcx), -- 1076: adc r12, rcx
  .xor (.reg .rcx) (.reg .rcx), -- 1077: xor ecx, ecx
  .mov (.reg .rdx) (.mem ⟨some .rsp, none, 360#64⟩), -- 1078: mov rdx, [rsp + (11 * 32)+ 0x8]
  .mulx .rbx .rax (.mem ⟨some .rsp, none, 320#64⟩), -- 1079: mulx rbx, rax, [rsp + (10 * 32)]
  .adcx .r9 (.reg .rax), -- 1080: adcx r9, rax
  .adox .r10 (.reg .rbx), -- 1081: adox r10, rbx
  .mulx .rbx .rax (.mem ⟨some .rsp, none, 328#64⟩), -- 1082: mulx rbx, rax, [rsp + (10 * 32)+ 0x8]
  .adcx .r10 (.reg .rax), -- 1083: adcx r10, rax
  .adox .r11 (.reg .rbx), -- 1084: adox r11, rbx
  .mulx .rbx .rax (.mem ⟨some .rsp, none, 336#64⟩), -- 1085: mulx rbx, rax, [rsp + (10 * 32)+ 0x10]
  .adcx .r11 (.reg .rax), -- 1086: adcx r11, rax
  .adox .r12 (.reg .rbx), -- 1087: adox r12, rbx
  .mulx .r13 .rax (.mem ⟨some .rsp, none, 344#64⟩), -- 1088: mulx r13, rax, [rsp + (10 * 32)+ 0x18]
  .adcx .r12 (.reg .rax), -- 1089: adcx r12, rax
  .adox .r13 (.reg .rcx), -- 1090: adox r13, rcx
  .adcx .r13 (.reg .rcx), -- 1091: adcx r13, rcx
  .xor (.reg .rcx) (.reg .rcx), -- 1092: xor ecx, ecx
  .mov (.reg .rdx) (.mem ⟨some .rsp, none, 368#64⟩), -- 1093: mov rdx, [rsp + (11 * 32)+ 0x10]
  .mulx .rbx .rax (.mem ⟨some .rsp, none, 320#64⟩), -- 1094: mulx rbx, rax, [rsp + (10 * 32)]
  .adcx .r10 (.reg .rax), -- 1095: adcx r10, rax
  .adox .r11 (.reg .rbx), -- 1096: adox r11, rbx
  .mulx .rbx .rax (.mem ⟨some .rsp, none, 328#64⟩), -- 1097: mulx rbx, rax, [rsp + (10 * 32)+ 0x8]
  .adcx .r11 (.reg .rax), -- 1098: adcx r11, rax
  .adox .r12 (.reg .rbx), -- 1099: adox r12, rbx
  .mulx .rbx .rax (.mem ⟨some .rsp, none, 336#64⟩), -- 1100: mulx rbx, rax, [rsp + (10 * 32)+ 0x10]
  .adcx .r12 (.reg .rax), -- 1101: adcx r12, rax
  .adox .r13 (.reg .rbx), -- 1102: adox r13, rbx
  .mulx .r14 .rax (.mem ⟨some .rsp, none, 344#64⟩), -- 1103: mulx r14, rax, [rsp + (10 * 32)+ 0x18]
  .adcx .r13 (.reg .rax), -- 1104: adcx r13, rax
  .adox .r14 (.reg .rcx), -- 1105: adox r14, rcx
  .adcx .r14 (.reg .rcx), -- 1106: adcx r14, rcx
  .xor (.reg .rcx) (.reg .rcx), -- 1107: xor ecx, ecx
  .mov (.reg .rdx) (.mem ⟨some .rsp, none, 376#64⟩), -- 1108: mov rdx, [rsp + (11 * 32)+ 0x18]
  .mulx .rbx .rax (.mem ⟨some .rsp, none, 320#64⟩), -- 1109: mulx rbx, rax, [rsp + (10 * 32)]
  .adcx .r11 (.reg .rax), -- 1110: adcx r11, rax
  .adox .r12 (.reg .rbx), -- 1111: adox r12, rbx
  .mulx .rbx .rax (.mem ⟨some .rsp, none, 328#64⟩), -- 1112: mulx rbx, rax, [rsp + (10 * 32)+ 0x8]
  .adcx .r12 (.reg .rax), -- 1113: adcx r12, rax
  .adox .r13 (.reg .rbx), -- 1114: adox r13, rbx
  .mulx .rbx .rax (.mem ⟨some .rsp, none, 336#64⟩), -- 1115: mulx rbx, rax, [rsp + (10 * 32)+ 0x10]
  .adcx .r13 (.reg .rax), -- 1116: adcx r13, rax
  .adox .r14 (.reg .rbx), -- 1117: adox r14, rbx
  .mulx .r15 .rax (.mem ⟨some .rsp, none, 344#64⟩), -- 1118: mulx r15, rax, [rsp + (10 * 32)+ 0x18]
  .adcx .r14 (.reg .rax), -- 1119: adcx r14, rax
  .adox .r15 (.reg .rcx), -- 1120: adox r15, rcx
  .adcx .r15 (.reg .rcx), -- 1121: adcx r15, rcx
  .mov (.reg .rdx) (.imm 38#64), -- 1122: mov edx, 0x26
  .xor (.reg .rcx) (.reg .rcx), -- 1123: xor ecx, ecx
  .mulx .rbx .rax (.reg .r12), -- 1124: mulx rbx, rax, r12
  .adcx .r8 (.reg .rax), -- 1125: adcx r8, rax
  .adox .r9 (.reg .rbx), -- 1126: adox r9, rbx
  .mulx .rbx .rax (.reg .r13), -- 1127: mulx rbx, rax, r13
  .adcx .r9 (.reg .rax), -- 1128: adcx r9, rax
  .adox .r10 (.reg .rbx), -- 1129: adox r10, rbx
  .mulx .rbx .rax (.reg .r14), -- 1130: mulx rbx, rax, r14
  .adcx .r10 (.reg .rax), -- 1131: adcx r10, rax
  .adox .r11 (.reg .rbx), -- 1132: adox r11, rbx
  .mulx .r12 .rax (.reg .r15), -- 1133: mulx r12, rax, r15
  .adcx .r11 (.reg .rax), -- 1134: adcx r11, rax
  .adox .r12 (.reg .rcx), -- 1135: adox r12, rcx
  .adcx .r12 (.reg .rcx), -- 1136: adcx r12, rcx
  .shld (.reg .r12) .r11 (.imm 1#64), -- 1137: shld r12, r11, 0x1
  .btr .r11 63#64, -- 1138: btr r11, 0x3f
  .mov (.reg .rdx) (.imm 19#64), -- 1139: mov edx, 0x13
  .imul .rdx (.reg .r12), -- 1140: imul rdx, r12
  .add (.reg .r8) (.reg .rdx), -- 1141: add r8, rdx
  .adc (.reg .r9) (.reg .rcx), -- 1142: adc r9, rcx
  .adc (.reg .r10) (.reg .rcx), -- 1143: adc r10, rcx
  .adc (.reg .r11) (.reg .rcx), -- 1144: adc r11, rcx
  .mov (.mem ⟨some .rsp, none, 320#64⟩) (.reg .r8), -- 1145: mov [rsp + (10 * 32)], r8
  .mov (.mem ⟨some .rsp, none, 328#64⟩) (.reg .r9), -- 1146: mov [rsp + (10 * 32)+ 0x8], r9
  .mov (.mem ⟨some .rsp, none, 336#64⟩) (.reg .r10), -- 1147: mov [rsp + (10 * 32)+ 0x10], r10
  .mov (.mem ⟨some .rsp, none, 344#64⟩) (.reg .r11), -- 1148: mov [rsp + (10 * 32)+ 0x18], r11
  .xor (.reg .rcx) (.reg .rcx), -- 1149: xor ecx, ecx
  .mov (.reg .rdx) (.mem ⟨some .rsp, none, 160#64⟩), -- 1150: mov rdx, [rsp + (5 * 32)]
  .mulx .r9 .r8 (.mem ⟨some .rsp, none, 192#64⟩), -- 1151: mulx r9, r8, [rsp + (6 * 32)]
  .mulx .r10 .rax (.mem ⟨some .rsp, none, 200#64⟩), -- 1152: mulx r10, rax, [rsp + (6 * 32)+ 0x8]
  .add (.reg .r9) (.reg .rax), -- 1153: add r9, rax
  .mulx .r11 .rax (.mem ⟨some .rsp, none, 208#64⟩), -- 1154: mulx r11, rax, [rsp + (6 * 32)+ 0x10]
  .adc (.reg .r10) (.reg .rax), -- 1155: adc r10, rax
  .mulx .r12 .rax (.mem ⟨some .rsp, none, 216#64⟩), -- 1156: mulx r12, rax, [rsp + (6 * 32)+ 0x18]
  .adc (.reg .r11) (.reg .rax), -- 1157: adc r11, rax
  .adc (.reg .r12) (.reg .rcx), -- 1158: adc r12, rcx
  .xor (.reg .rcx) (.reg .rcx), -- 1159: xor ecx, ecx
  .mov (.reg .rdx) (.mem ⟨some .rsp, none, 168#64⟩), -- 1160: mov rdx, [rsp + (5 * 32)+ 0x8]
  .mulx .rbx .rax (.mem ⟨some .rsp, none, 192#64⟩), -- 1161: mulx rbx, rax, [rsp + (6 * 32)]
  .adcx .r9 (.reg .rax), -- 1162: adcx r9, rax
  .adox .r10 (.reg .rbx), -- 1163: adox r10, rbx
  .mulx .rbx .rax (.mem ⟨some .rsp, none, 200#64⟩), -- 1164: mulx rbx, rax, [rsp + (6 * 32)+ 0x8]
  .adcx .r10 (.reg .rax), -- 1165: adcx r10, rax
  .adox .r11 (.reg .rbx), -- 1166: adox r11, rbx
  .mulx .rbx .rax (.mem ⟨some .rsp, none, 208#64⟩), -- 1167: mulx rbx, rax, [rsp + (6 * 32)+ 0x10]
  .adcx .r11 (.reg .rax), -- 1168: adcx r11, rax
  .adox .r12 (.reg .rbx), -- 1169: adox r12, rbx
  .mulx .r13 .rax (.mem ⟨some .rsp, none, 216#64⟩), -- 1170: mulx r13, rax, [rsp + (6 * 32)+ 0x18]
  .adcx .r12 (.reg .rax), -- 1171: adcx r12, rax
  .adox .r13 (.reg .rcx), -- 1172: adox r13, rcx
  .adcx .r13 (.reg .rcx), -- 1173: adcx r13, rcx
  .xor (.reg .rcx) (.reg .rcx), -- 1174: xor ecx, ecx
  .mov (.reg .rdx) (.mem ⟨some .rsp, none, 176#64⟩), -- 1175: mov rdx, [rsp + (5 * 32)+ 0x10]
  .mulx .rbx .rax (.mem ⟨some .rsp, none, 192#64⟩), -- 1176: mulx rbx, rax, [rsp + (6 * 32)]
  .adcx .r10 (.reg .rax), -- 1177: adcx r10, rax
  .adox .r11 (.reg .rbx), -- 1178: adox r11, rbx
  .mulx .rbx .rax (.mem ⟨some .rsp, none, 200#64⟩), -- 1179: mulx rbx, rax, [rsp + (6 * 32)+ 0x8]
  .adcx .r11 (.reg .rax), -- 1180: adcx r11, rax
  .adox .r12 (.reg .rbx), -- 1181: adox r12, rbx
  .mulx .rbx .rax (.mem ⟨some .rsp, none, 208#64⟩), -- 1182: mulx rbx, rax, [rsp + (6 * 32)+ 0x10]
  .adcx .r12 (.reg .rax), -- 1183: adcx r12, rax
  .adox .r13 (.reg .rbx), -- 1184: adox r13, rbx
  .mulx .r14 .rax (.mem ⟨some .rsp, none, 216#64⟩), -- 1185: mulx r14, rax, [rsp + (6 * 32)+ 0x18]
  .adcx .r13 (.reg .rax), -- 1186: adcx r13, rax
  .adox .r14 (.reg .rcx), -- 1187: adox r14, rcx
  .adcx .r14 (.reg .rcx), -- 1188: adcx r14, rcx
  .xor (.reg .rcx) (.reg .rcx), -- 1189: xor ecx, ecx
  .mov (.reg .rdx) (.mem ⟨some .rsp, none, 184#64⟩), -- 1190: mov rdx, [rsp + (5 * 32)+ 0x18]
  .mulx .rbx .rax (.mem ⟨some .rsp, none, 192#64⟩), -- 1191: mulx rbx, rax, [rsp + (6 * 32)]
  .adcx .r11 (.reg .rax), -- 1192: adcx r11, rax
  .adox .r12 (.reg .rbx), -- 1193: adox r12, rbx
  .mulx .rbx .rax (.mem ⟨some .rsp, none, 200#64⟩), -- 1194: mulx rbx, rax, [rsp + (6 * 32)+ 0x8]
  .adcx .r12 (.reg .rax), -- 1195: adcx r12, rax
  .adox .r13 (.reg .rbx), -- 1196: adox r13, rbx
  .mulx .rbx .rax (.mem ⟨some .rsp, none, 208#64⟩), -- 1197: mulx rbx, rax, [rsp + (6 * 32)+ 0x10]
  .adcx .r13 (.reg .rax), -- 1198: adcx r13, rax
  .adox .r14 (.reg .rbx), -- 1199: adox r14, rbx
  .mulx .r15 .rax (.mem ⟨some .rsp, none, 216#64⟩), -- 1200: mulx r15, rax, [rsp + (6 * 32)+ 0x18]
  .adcx .r14 (.reg .rax), -- 1201: adcx r14, rax
  .adox .r15 (.reg .rcx), -- 1202: adox r15, rcx
  .adcx .r15 (.reg .rcx), -- 1203: adcx r15, rcx
  .mov (.reg .rdx) (.imm 38#64), -- 1204: mov edx, 0x26
  .xor (.reg .rcx) (.reg .rcx), -- 1205: xor ecx, ecx
  .mulx .rbx .rax (.reg .r12), -- 1206: mulx rbx, rax, r12
  .adcx .r8 (.reg .rax), -- 1207: adcx r8, rax
  .adox .r9 (.reg .rbx), -- 1208: adox r9, rbx
  .mulx .rbx .rax (.reg .r13), -- 1209: mulx rbx, rax, r13
  .adcx .r9 (.reg .rax), -- 1210: adcx r9, rax
  .adox .r10 (.reg .rbx), -- 1211: adox r10, rbx
  .mulx .rbx .rax (.reg .r14), -- 1212: mulx rbx, rax, r14
  .adcx .r10 (.reg .rax), -- 1213: adcx r10, rax
  .adox .r11 (.reg .rbx), -- 1214: adox r11, rbx
  .mulx .r12 .rax (.reg .r15), -- 1215: mulx r12, rax, r15
  .adcx .r11 (.reg .rax), -- 1216: adcx r11, rax
  .adox .r12 (.reg .rcx), -- 1217: adox r12, rcx
  .adcx .r12 (.reg .rcx), -- 1218: adcx r12, rcx
  .shld (.reg .r12) .r11 (.imm 1#64), -- 1219: shld r12, r11, 0x1
  .btr .r11 63#64, -- 1220: btr r11, 0x3f
  .mov (.reg .rdx) (.imm 19#64), -- 1221: mov edx, 0x13
  .imul .rdx (.reg .r12), -- 1222: imul rdx, r12
  .add (.reg .r8) (.reg .rdx), -- 1223: add r8, rdx
  .adc (.reg .r9) (.reg .rcx), -- 1224: adc r9, rcx
  .adc (.reg .r10) (.reg .rcx), -- 1225: adc r10, rcx
  .adc (.reg .r11) (.reg .rcx), -- 1226: adc r11, rcx
  .mov (.mem ⟨some .rsp, none, 224#64⟩) (.reg .r8), -- 1227: mov [rsp + (7 * 32)], r8
  .mov (.mem ⟨some .rsp, none, 232#64⟩) (.reg .r9), -- 1228: mov [rsp + (7 * 32)+ 0x8], r9
  .mov (.mem ⟨some .rsp, none, 240#64⟩) (.reg .r10), -- 1229: mov [rsp + (7 * 32)+ 0x10], r10
  .mov (.mem ⟨some .rsp, none, 248#64⟩) (.reg .r11), -- 1230: mov [rsp + (7 * 32)+ 0x18], r11
  .xor (.reg .rcx) (.reg .rcx), -- 1231: xor ecx, ecx
  .mov (.reg .rdx) (.mem ⟨some .rsp, none, 32#64⟩), -- 1232: mov rdx, [rsp + (1 * 32)]
  .mulx .r9 .r8 (.mem ⟨some .rsp, none, 96#64⟩), -- 1233: mulx r9, r8, [rsp + (3 * 32)]
  .mulx .r10 .rax (.mem ⟨some .rsp, none, 104#64⟩), -- 1234: mulx r10, rax, [rsp + (3 * 32)+ 0x8]
  .add (.reg .r9) (.reg .rax), -- 1235: add r9, rax
  .mulx .r11 .rax (.mem ⟨some .rsp, none, 112#64⟩), -- 1236: mulx r11, rax, [rsp + (3 * 32)+ 0x10]
  .adc (.reg .r10) (.reg .rax), -- 1237: adc r10, rax
  .mulx .r12 .rax (.mem ⟨some .rsp, none, 120#64⟩), -- 1238: mulx r12, rax, [rsp + (3 * 32)+ 0x18]
  .adc (.reg .r11) (.reg .rax), -- 1239: adc r11, rax
  .adc (.reg .r12) (.reg .rcx), -- 1240: adc r12, rcx
  .xor (.reg .rcx) (.reg .rcx), -- 1241: xor ecx, ecx
  .mov (.reg .rdx) (.mem ⟨some .rsp, none, 40#64⟩), -- 1242: mov rdx, [rsp + (1 * 32)+ 0x8]
  .mulx .rbx .rax (.mem ⟨some .rsp, none, 96#64⟩), -- 1243: mulx rbx, rax, [rsp + (3 * 32)]
  .adcx .r9 (.reg .rax), -- 1244: adcx r9, rax
  .adox .r10 (.reg .rbx), -- 1245: adox r10, rbx
  .mulx .rbx .rax (.mem ⟨some .rsp, none, 104#64⟩), -- 1246: mulx rbx, rax, [rsp + (3 * 32)+ 0x8]
  .adcx .r10 (.reg .rax), -- 1247: adcx r10, rax
  .adox .r11 (.reg .rbx), -- 1248: adox r11, rbx
  .mulx .rbx .rax (.mem ⟨some .rsp, none, 112#64⟩), -- 1249: mulx rbx, rax, [rsp + (3 * 32)+ 0x10]
  .adcx .r11 (.reg .rax), -- 1250: adcx r11, rax
  .adox .r12 (.reg .rbx), -- 1251: adox r12, rbx
  .mulx .r13 .rax (.mem ⟨some .rsp, none, 120#64⟩), -- 1252: mulx r13, rax, [rsp + (3 * 32)+ 0x18]
  .adcx .r12 (.reg .rax), -- 1253: adcx r12, rax
  .adox .r13 (.reg .rcx), -- 1254: adox r13, rcx
  .adcx .r13 (.reg .rcx), -- 1255: adcx r13, rcx
  .xor (.reg .rcx) (.reg .rcx), -- 1256: xor ecx, ecx
  .mov (.reg .rdx) (.mem ⟨some .rsp, none, 48#64⟩), -- 1257: mov rdx, [rsp + (1 * 32)+ 0x10]
  .mulx .rbx .rax (.mem ⟨some .rsp, none, 96#64⟩), -- 1258: mulx rbx, rax, [rsp + (3 * 32)]
  .adcx .r10 (.reg .rax), -- 1259: adcx r10, rax
  .adox .r11 (.reg .rbx), -- 1260: adox r11, rbx
  .mulx .rbx .rax (.mem ⟨some .rsp, none, 104#64⟩), -- 1261: mulx rbx, rax, [rsp + (3 * 32)+ 0x8]
  .adcx .r11 (.reg .rax), -- 1262: adcx r11, rax
  .adox .r12 (.reg .rbx), -- 1263: adox r12, rbx
  .mulx .rbx .rax (.mem ⟨some .rsp, none, 112#64⟩), -- 1264: mulx rbx, rax, [rsp + (3 * 32)+ 0x10]
  .adcx .r12 (.reg .rax), -- 1265: adcx r12, rax
  .adox .r13 (.reg .rbx), -- 1266: adox r13, rbx
  .mulx .r14 .rax (.mem ⟨some .rsp, none, 120#64⟩), -- 1267: mulx r14, rax, [rsp + (3 * 32)+ 0x18]
  .adcx .r13 (.reg .rax), -- 1268: adcx r13, rax
  .adox .r14 (.reg .rcx), -- 1269: adox r14, rcx
  .adcx .r14 (.reg .rcx), -- 1270: adcx r14, rcx
  .xor (.reg .rcx) (.reg .rcx), -- 1271: xor ecx, ecx
  .mov (.reg .rdx) (.mem ⟨some .rsp, none, 56#64⟩), -- 1272: mov rdx, [rsp + (1 * 32)+ 0x18]
  .mulx .rbx .rax (.mem ⟨some .rsp, none, 96#64⟩), -- 1273: mulx rbx, rax, [rsp + (3 * 32)]
  .adcx .r11 (.reg .rax), -- 1274: adcx r11, rax
  .adox .r12 (.reg .rbx), -- 1275: adox r12, rbx
  .mulx .rbx .rax (.mem ⟨some .rsp, none, 104#64⟩), -- 1276: mulx rbx, rax, [rsp + (3 * 32)+ 0x8]
  .adcx .r12 (.reg .rax), -- 1277: adcx r12, rax
  .adox .r13 (.reg .rbx), -- 1278: adox r13, rbx
  .mulx .rbx .rax (.mem ⟨some .rsp, none, 112#64⟩), -- 1279: mulx rbx, rax, [rsp + (3 * 32)+ 0x10]
  .adcx .r13 (.reg .rax), -- 1280: adcx r13, rax
  .adox .r14 (.reg .rbx), -- 1281: adox r14, rbx
  .mulx .r15 .rax (.mem ⟨some .rsp, none, 120#64⟩), -- 1282: mulx r15, rax, [rsp + (3 * 32)+ 0x18]
  .adcx .r14 (.reg .rax), -- 1283: adcx r14, rax
  .adox .r15 (.reg .rcx), -- 1284: adox r15, rcx
  .adcx .r15 (.reg .rcx), -- 1285: adcx r15, rcx
  .mov (.reg .rdx) (.imm 38#64), -- 1286: mov edx, 0x26
  .xor (.reg .rcx) (.reg .rcx), -- 1287: xor ecx, ecx
  .mulx .rbx .rax (.reg .r12), -- 1288: mulx rbx, rax, r12
  .adcx .r8 (.reg .rax), -- 1289: adcx r8, rax
  .adox .r9 (.reg .rbx), -- 1290: adox r9, rbx
  .mulx .rbx .rax (.reg .r13), -- 1291: mulx rbx, rax, r13
  .adcx .r9 (.reg .rax), -- 1292: adcx r9, rax
  .adox .r10 (.reg .rbx), -- 1293: adox r10, rbx
  .mulx .rbx .rax (.reg .r14), -- 1294: mulx rbx, rax, r14
  .adcx .r10 (.reg .rax), -- 1295: adcx r10, rax
  .adox .r11 (.reg .rbx), -- 1296: adox r11, rbx
  .mulx .r12 .rax (.reg .r15), -- 1297: mulx r12, rax, r15
  .adcx .r11 (.reg .rax), -- 1298: adcx r11, rax
  .adox .r12 (.reg .rcx), -- 1299: adox r12, rcx
  .adcx .r12 (.reg .rcx), -- 1300: adcx r12, rcx
  .shld (.reg .r12) .r11 (.imm 1#64), -- 1301: shld r12, r11, 0x1
  .btr .r11 63#64, -- 1302: btr r11, 0x3f
  .mov (.reg .rdx) (.imm 19#64), -- 1303: mov edx, 0x13
  .imul .rdx (.reg .r12), -- 1304: imul rdx, r12
  .add (.reg .r8) (.reg .rdx), -- 1305: add r8, rdx
  .adc (.reg .r9) (.reg .rcx), -- 1306: adc r9, rcx
  .adc (.reg .r10) (.reg .rcx), -- 1307: adc r10, rcx
  .adc (.reg .r11) (.reg .rcx), -- 1308: adc r11, rcx
  .mov (.mem ⟨some .rsp, none, 96#64⟩) (.reg .r8), -- 1309: mov [rsp + (3 * 32)], r8
  .mov (.mem ⟨some .rsp, none, 104#64⟩) (.reg .r9), -- 1310: mov [rsp + (3 * 32)+ 0x8], r9
  .mov (.mem ⟨some .rsp, none, 112#64⟩) (.reg .r10), -- 1311: mov [rsp + (3 * 32)+ 0x10], r10
  .mov (.mem ⟨some .rsp, none, 120#64⟩) (.reg .r11), -- 1312: mov [rsp + (3 * 32)+ 0x18], r11
  .mov (.reg .rax) (.mem ⟨some .rsp, none, 392#64⟩), -- 1313: mov rax, QWORD PTR [rsp + 12 * 32+ 8]
  .sub (.reg .rax) (.imm 1#64), -- 1314: sub rax, 1
  .mov (.mem ⟨some .rsp, none, 392#64⟩) (.reg .rax), -- 1315: mov QWORD PTR [rsp + 12 * 32+ 8], rax
  .cmp (.reg .rax) (.imm 3#64), -- 1316: cmp rax, 3
  .jcc .nc 427, -- 1317: jnc @3b
  .mov (.reg .rdx) (.mem ⟨some .rsp, none, 400#64⟩), -- 1318: mov rdx, QWORD PTR [rsp + 12 * 32+ 16]
  .test (.reg .rdx) (.reg .rdx), -- 1319: test rdx, rdx
  .mov (.reg .rax) (.mem ⟨some .rsp, none, 256#64⟩), -- 1320: mov rax, [rsp + (8 * 32)]
  .mov (.reg .rcx) (.mem ⟨some .rsp, none, 320#64⟩), -- 1321: mov rcx, [rsp + (10 * 32)]
  .cmov .zr .rax (.reg .rcx), -- 1322: cmovz rax, rcx
  .mov (.mem ⟨some .rsp, none, 320#64⟩) (.reg .rax), -- 1323: mov [rsp + (10 * 32)], rax
  .mov (.reg .rax) (.mem ⟨some .rsp, none, 264#64⟩), -- 1324: mov rax, [rsp + (8 * 32)+ 8]
  .mov (.reg .rcx) (.mem ⟨some .rsp, none, 328#64⟩), -- 1325: mov rcx, [rsp + (10 * 32)+ 8]
  .cmov .zr .rax (.reg .rcx), -- 1326: cmovz rax, rcx
  .mov (.mem ⟨some .rsp, none, 328#64⟩) (.reg .rax), -- 1327: mov [rsp + (10 * 32)+ 8], rax
  .mov (.reg .rax) (.mem ⟨some .rsp, none, 272#64⟩), -- 1328: mov rax, [rsp + (8 * 32)+ 16]
  .mov (.reg .rcx) (.mem ⟨some .rsp, none, 336#64⟩), -- 1329: mov rcx, [rsp + (10 * 32)+ 16]
  .cmov .zr .rax (.reg .rcx), -- 1330: cmovz rax, rcx
  .mov (.mem ⟨some .rsp, none, 336#64⟩) (.reg .rax), -- 1331: mov [rsp + (10 * 32)+ 16], rax
  .mov (.reg .rax) (.mem ⟨some .rsp, none, 280#64⟩), -- 1332: mov rax, [rsp + (8 * 32)+ 24]
  .mov (.reg .rcx) (.mem ⟨some .rsp, none, 344#64⟩), -- 1333: mov rcx, [rsp + (10 * 32)+ 24]
  .cmov .zr .rax (.reg .rcx), -- 1334: cmovz rax, rcx
  .mov (.mem ⟨some .rsp, none, 344#64⟩) (.reg .rax), -- 1335: mov [rsp + (10 * 32)+ 24], rax
  .mov (.reg .rax) (.mem ⟨some .rsp, none, 96#64⟩), -- 1336: mov rax, [rsp + (3 * 32)]
  .mov (.reg .rcx) (.mem ⟨some .rsp, none, 224#64⟩), -- 1337: mov rcx, [rsp + (7 * 32)]
  .cmov .zr .rax (.reg .rcx), -- 1338: cmovz rax, rcx
  .mov (.mem ⟨some .rsp, none, 224#64⟩) (.reg .rax), -- 1339: mov [rsp + (7 * 32)], rax
  .mov (.reg .rax) (.mem ⟨some .rsp, none, 104#64⟩), -- 1340: mov rax, [rsp + (3 * 32)+ 8]
  .mov (.reg .rcx) (.mem ⟨some .rsp, none, 232#64⟩), -- 1341: mov rcx, [rsp + (7 * 32)+ 8]
  .cmov .zr .rax (.reg .rcx), -- 1342: cmovz rax, rcx
  .mov (.mem ⟨some .rsp, none, 232#64⟩) (.reg .rax), -- 1343: mov [rsp + (7 * 32)+ 8], rax
  .mov (.reg .rax) (.mem ⟨some .rsp, none, 112#64⟩), -- 1344: mov rax, [rsp + (3 * 32)+ 16]
  .mov (.reg .rcx) (.mem ⟨some .rsp, none, 240#64⟩), -- 1345: mov rcx, [rsp + (7 * 32)+ 16]
  .cmov .zr .rax (.reg .rcx), -- 1346: cmovz rax, rcx
  .mov (.mem ⟨some .rsp, none, 240#64⟩) (.reg .rax), -- 1347: mov [rsp + (7 * 32)+ 16], rax
  .mov (.reg .rax) (.mem ⟨some .rsp, none, 120#64⟩), -- 1348: mov rax, [rsp + (3 * 32)+ 24]
  .mov (.reg .rcx) (.mem ⟨some .rsp, none, 248#64⟩), -- 1349: mov rcx, [rsp + (7 * 32)+ 24]
  .cmov .zr .rax (.reg .rcx), -- 1350: cmovz rax, rcx
  .mov (.mem ⟨some .rsp, none, 248#64⟩) (.reg .rax), -- 1351: mov [rsp + (7 * 32)+ 24], rax
  .mov (.reg .r8) (.mem ⟨some .rsp, none, 320#64⟩), -- 1352: mov r8, [rsp + (10 * 32)]
  .xor (.reg .rbx) (.reg .rbx), -- 1353: xor ebx, ebx
  .sub (.reg .r8) (.mem ⟨some .rsp, none, 224#64⟩), -- 1354: sub r8, [rsp + (7 * 32)]
  .mov (.reg .r9) (.mem ⟨some .rsp, none, 328#64⟩), -- 1355: mov r9, [rsp + (10 * 32)+ 8]
  .sbb (.reg .r9) (.mem ⟨some .rsp, none, 232#64⟩), -- 1356: sbb r9, [rsp + (7 * 32)+ 8]
  .mov (.reg .rcx) (.imm 38#64), -- 1357: mov ecx, 38
  .mov (.reg .r10) (.mem ⟨some .rsp, none, 336#64⟩), -- 1358: mov r10, [rsp + (10 * 32)+ 16]
  .sbb (.reg .r10) (.mem ⟨some .rsp, none, 240#64⟩), -- 1359: sbb r10, [rsp + (7 * 32)+ 16]
  .mov (.reg .rax) (.mem ⟨some .rsp, none, 344#64⟩), -- 1360: mov rax, [rsp + (10 * 32)+ 24]
  .sbb (.reg .rax) (.mem ⟨some .rsp, none, 248#64⟩), -- 1361: sbb rax, [rsp + (7 * 32)+ 24]
  .cmov .nc .rcx (.reg .rbx), -- 1362: cmovnc rcx, rbx
  .sub (.reg .r8) (.reg .rcx), -- 1363: sub r8, rcx
  .sbb (.reg .r9) (.reg .rbx), -- 1364: sbb r9, rbx
  .sbb (.reg .r10) (.reg .rbx), -- 1365: sbb r10, rbx
  .sbb (.reg .rax) (.reg .rbx), -- 1366: sbb rax, rbx
  .mov (.mem ⟨some .rsp, none, 352#64⟩) (.reg .r8), -- 1367: mov [rsp + (11 * 32)], r8
  .mov (.mem ⟨some .rsp, none, 360#64⟩) (.reg .r9), -- 1368: mov [rsp + (11 * 32)+ 8], r9
  .mov (.mem ⟨some .rsp, none, 368#64⟩) (.reg .r10), -- 1369: mov [rsp + (11 * 32)+ 16], r10
  .mov (.mem ⟨some .rsp, none, 376#64⟩) (.reg .rax), -- 1370: mov [rsp + (11 * 32)+ 24], rax
  .mov (.reg .r8) (.mem ⟨some .rsp, none, 320#64⟩), -- 1371: mov r8, [rsp + (10 * 32)]
  .xor (.reg .rcx) (.reg .rcx), -- 1372: xor ecx, ecx
  .add (.reg .r8) (.mem ⟨some .rsp, none, 224#64⟩), -- 1373: add r8, [rsp + (7 * 32)]
  .mov (.reg .r9) (.mem ⟨some .rsp, none, 328#64⟩), -- 1374: mov r9, [rsp + (10 * 32)+ 0x8]
  .adc (.reg .r9) (.mem ⟨some .rsp, none, 232#64⟩), -- 1375: adc r9, [rsp + (7 * 32)+ 0x8]
  .mov (.reg .r10) (.mem ⟨some .rsp, none, 336#64⟩), -- 1376: mov r10, [rsp + (10 * 32)+ 0x10]
  .adc (.reg .r10) (.mem ⟨some .rsp, none, 240#64⟩), -- 1377: adc r10, [rsp + (7 * 32)+ 0x10]
  .mov (.reg .r11) (.mem ⟨some .rsp, none, 344#64⟩), -- 1378: mov r11, [rsp + (10 * 32)+ 0x18]
  .adc (.reg .r11) (.mem ⟨some .rsp, none, 248#64⟩), -- 1379: adc r11, [rsp + (7 * 32)+ 0x18]
  .mov (.reg .rax) (.imm 38#64), -- 1380: mov eax, 38
  .cmov .nc .rax (.reg .rcx), -- 1381: cmovnc rax, rcx
  .add (.reg .r8) (.reg .rax), -- 1382: add r8, rax
  .adc (.reg .r9) (.reg .rcx), -- 1383: adc r9, rcx
  .adc (.reg .r10) (.reg .rcx), -- 1384: adc r10, rcx
  .adc (.reg .r11) (.reg .rcx), -- 1385: adc r11, rcx
  .mov (.mem ⟨some .rsp, none, 320#64⟩) (.reg .r8), -- 1386: mov [rsp + (10 * 32)], r8
  .mov (.mem ⟨some .rsp, none, 328#64⟩) (.reg .r9), -- 1387: mov [rsp + (10 * 32)+ 0x8], r9
  .mov (.mem ⟨some .rsp, none, 336#64⟩) (.reg .r10), -- 1388: mov [rsp + (10 * 32)+ 0x10], r10
  .mov (.mem ⟨some .rsp, none, 344#64⟩) (.reg .r11), -- 1389: mov [rsp + (10 * 32)+ 0x18], r11
  .mov (.reg .rdx) (.mem ⟨some .rsp, none, 352#64⟩), -- 1390: mov rdx, [rsp + (11 * 32)]
  .mulx .r15 .r8 (.reg .rdx), -- 1391: mulx r15, r8, rdx
  .mulx .r10 .r9 (.mem ⟨some .rsp, none, 360#64⟩), -- 1392: mulx r10, r9, [rsp + (11 * 32)+ 0x8]
  .mulx .r12 .r11 (.mem ⟨some .rsp, none, 376#64⟩), -- 1393: mulx r12, r11, [rsp + (11 * 32)+ 0x18]
  .mov (.reg .rdx) (.mem ⟨some .rsp, none, 368#64⟩), -- 1394: mov rdx, [rsp + (11 * 32)+ 0x10]
  .mulx .r14 .r13 (.mem ⟨some .rsp, none, 376#64⟩), -- 1395: mulx r14, r13, [rsp + (11 * 32)+ 0x18]
  .xor (.reg .rbx) (.reg .rbx), -- 1396: xor ebx, ebx
  .mulx .rcx .rax (.mem ⟨some .rsp, none, 352#64⟩), -- 1397: mulx rcx, rax, [rsp + (11 * 32)]
  .adcx .r10 (.reg .rax), -- 1398: adcx r10, rax
  .adox .r11 (.reg .rcx), -- 1399: adox r11, rcx
  .mulx .rcx .rax (.mem ⟨some .rsp, none, 360#64⟩), -- 1400: mulx rcx, rax, [rsp + (11 * 32)+ 0x8]
  .adcx .r11 (.reg .rax), -- 1401: adcx r11, rax
  .adox .r12 (.reg .rcx), -- 1402: adox r12, rcx
  .mov (.reg .rdx) (.mem ⟨some .rsp, none, 376#64⟩), -- 1403: mov rdx, [rsp + (11 * 32)+ 0x18]
  .mulx .rcx .rax (.mem ⟨some .rsp, none, 360#64⟩), -- 1404: mulx rcx, rax, [rsp + (11 * 32)+ 0x8]
  .adcx .r12 (.reg .rax), -- 1405: adcx r12, rax
  .adox .r13 (.reg .rcx), -- 1406: adox r13, rcx
  .adcx .r13 (.reg .rbx), -- 1407: adcx r13, rbx
  .adox .r14 (.reg .rbx), -- 1408: adox r14, rbx
  .adc (.reg .r14) (.reg .rbx), -- 1409: adc r14, rbx
  .xor (.reg .rbx) (.reg .rbx), -- 1410: xor ebx, ebx
  .adcx .r9 (.reg .r9), -- 1411: adcx r9, r9
  .adox .r9 (.reg .r15), -- 1412: adox r9, r15
  .mov (.reg .rdx) (.mem ⟨some .rsp, none, 360#64⟩), -- 1413: mov rdx, [rsp + (11 * 32)+ 0x8]
  .mulx .rdx .rax (.reg .rdx), -- 1414: mulx rdx, rax, rdx
  .adcx .r10 (.reg .r10), -- 1415: adcx r10, r10
  .adox .r10 (.reg .rax), -- 1416: adox r10, rax
  .adcx .r11 (.reg .r11), -- 1417: adcx r11, r11
  .adox .r11 (.reg .rdx), -- 1418: adox r11, rdx
  .mov (.reg .rdx) (.mem ⟨some .rsp, none, 368#64⟩), -- 1419: mov rdx, [rsp + (11 * 32)+ 0x10]
  .mulx .rdx .rax (.reg .rdx), -- 1420: mulx rdx, rax, rdx
  .adcx .r12 (.reg .r12), -- 1421: adcx r12, r12
  .adox .r12 (.reg .rax), -- 1422: adox r12, rax
  .adcx .r13 (.reg .r13), -- 1423: adcx r13, r13
  .adox .r13 (.reg .rdx), -- 1424: adox r13, rdx
  .mov (.reg .rdx) (.mem ⟨some .rsp, none, 376#64⟩), -- 1425: mov rdx, [rsp + (11 * 32)+ 0x18]
  .mulx .r15 .rax (.reg .rdx), -- 1426: mulx r15, rax, rdx
  .adcx .r14 (.reg .r14), -- 1427: adcx r14, r14
  .adox .r14 (.reg .rax), -- 1428: adox r14, rax
  .adcx .r15 (.reg .rbx), -- 1429: adcx r15, rbx
  .adox .r15 (.reg .rbx), -- 1430: adox r15, rbx
  .mov (.reg .rdx) (.imm 38#64), -- 1431: mov edx, 0x26
  .xor (.reg .rbx) (.reg .rbx), -- 1432: xor ebx, ebx
  .mulx .rcx .rax (.reg .r12), -- 1433: mulx rcx, rax, r12
  .adcx .r8 (.reg .rax), -- 1434: adcx r8, rax
  .adox .r9 (.reg .rcx), -- 1435: adox r9, rcx
  .mulx .rcx .rax (.reg .r13), -- 1436: mulx rcx, rax, r13
  .adcx .r9 (.reg .rax), -- 1437: adcx r9, rax
  .adox .r10 (.reg .rcx), -- 1438: adox r10, rcx
  .mulx .rcx .rax (.reg .r14), -- 1439: mulx rcx, rax, r14
  .adcx .r10 (.reg .rax), -- 1440: adcx r10, rax
  .adox .r11 (.reg .rcx), -- 1441: adox r11, rcx
  .mulx .r12 .rax (.reg .r15), -- 1442: mulx r12, rax, r15
  .adcx .r11 (.reg .rax), -- 1443: adcx r11, rax
  .adox .r12 (.reg .rbx), -- 1444: adox r12, rbx
  .adcx .r12 (.reg .rbx), -- 1445: adcx r12, rbx
  .shld (.reg .r12) .r11 (.imm 1#64), -- 1446: shld r12, r11, 0x1
  .btr .r11 63#64, -- 1447: btr r11, 0x3f
  .mov (.reg .rdx) (.imm 19#64), -- 1448: mov edx, 0x13
  .imul .rdx (.reg .r12), -- 1449: imul rdx, r12
  .add (.reg .r8) (.reg .rdx), -- 1450: add r8, rdx
  .adc (.reg .r9) (.reg .rbx), -- 1451: adc r9, rbx
  .adc (.reg .r10) (.reg .rbx), -- 1452: adc r10, rbx
  .adc (.reg .r11) (.reg .rbx), -- 1453: adc r11, rbx
  .mov (.mem ⟨some .rsp, none, 352#64⟩) (.reg .r8), -- 1454: mov [rsp + (11 * 32)], r8
  .mov (.mem ⟨some .rsp, none, 360#64⟩) (.reg .r9), -- 1455: mov [rsp + (11 * 32)+ 0x8], r9
  .mov (.mem ⟨some .rsp, none, 368#64⟩) (.reg .r10), -- 1456: mov [rsp + (11 * 32)+ 0x10], r10
  .mov (.mem ⟨some .rsp, none, 376#64⟩) (.reg .r11), -- 1457: mov [rsp + (11 * 32)+ 0x18], r11
  .mov (.reg .rdx) (.mem ⟨some .rsp, none, 320#64⟩), -- 1458: mov rdx, [rsp + (10 * 32)]
  .mulx .r15 .r8 (.reg .rdx), -- 1459: mulx r15, r8, rdx
  .mulx .r10 .r9 (.mem ⟨some .rsp, none, 328#64⟩), -- 1460: mulx r10, r9, [rsp + (10 * 32)+ 0x8]
  .mulx .r12 .r11 (.mem ⟨some .rsp, none, 344#64⟩), -- 1461: mulx r12, r11, [rsp + (10 * 32)+ 0x18]
  .mov (.reg .rdx) (.mem ⟨some .rsp, none, 336#64⟩), -- 1462: mov rdx, [rsp + (10 * 32)+ 0x10]
  .mulx .r14 .r13 (.mem ⟨some .rsp, none, 344#64⟩), -- 1463: mulx r14, r13, [rsp + (10 * 32)+ 0x18]
  .xor (.reg .rbx) (.reg .rbx), -- 1464: xor ebx, ebx
  .mulx .rcx .rax (.mem ⟨some .rsp, none, 320#64⟩), -- 1465: mulx rcx, rax, [rsp + (10 * 32)]
  .adcx .r10 (.reg .rax), -- 1466: adcx r10, rax
  .adox .r11 (.reg .rcx), -- 1467: adox r11, rcx
  .mulx .rcx .rax (.mem ⟨some .rsp, none, 328#64⟩), -- 1468: mulx rcx, rax, [rsp + (10 * 32)+ 0x8]
  .adcx .r11 (.reg .rax), -- 1469: adcx r11, rax
  .adox .r12 (.reg .rcx), -- 1470: adox r12, rcx
  .mov (.reg .rdx) (.mem ⟨some .rsp, none, 344#64⟩), -- 1471: mov rdx, [rsp + (10 * 32)+ 0x18]
  .mulx .rcx .rax (.mem ⟨some .rsp, none, 328#64⟩), -- 1472: mulx rcx, rax, [rsp + (10 * 32)+ 0x8]
  .adcx .r12 (.reg .rax), -- 1473: adcx r12, rax
  .adox .r13 (.reg .rcx), -- 1474: adox r13, rcx
  .adcx .r13 (.reg .rbx), -- 1475: adcx r13, rbx
  .adox .r14 (.reg .rbx), -- 1476: adox r14, rbx
  .adc (.reg .r14) (.reg .rbx), -- 1477: adc r14, rbx
  .xor (.reg .rbx) (.reg .rbx), -- 1478: xor ebx, ebx
  .adcx .r9 (.reg .r9), -- 1479: adcx r9, r9
  .adox .r9 (.reg .r15), -- 1480: adox r9, r15
  .mov (.reg .rdx) (.mem ⟨some .rsp, none, 328#64⟩), -- 1481: mov rdx, [rsp + (10 * 32)+ 0x8]
  .mulx .rdx .rax (.reg .rdx), -- 1482: mulx rdx, rax, rdx
  .adcx .r10 (.reg .r10), -- 1483: adcx r10, r10
  .adox .r10 (.reg .rax), -- 1484: adox r10, rax
  .adcx .r11 (.reg .r11), -- 1485: adcx r11, r11
  .adox .r11 (.reg .rdx), -- 1486: adox r11, rdx
  .mov (.reg .rdx) (.mem ⟨some .rsp, none, 336#64⟩), -- 1487: mov rdx, [rsp + (10 * 32)+ 0x10]
  .mulx .rdx .rax (.reg .rdx), -- 1488: mulx rdx, rax, rdx
  .adcx .r12 (.reg .r12), -- 1489: adcx r12, r12
  .adox .r12 (.reg .rax), -- 1490: adox r12, rax
  .adcx .r13 (.reg .r13), -- 1491: adcx r13, r13
  .adox .r13 (.reg .rdx), -- 1492: adox r13, rdx
  .mov (.reg .rdx) (.mem ⟨some .rsp, none, 344#64⟩), -- 1493: mov rdx, [rsp + (10 * 32)+ 0x18]
  .mulx .r15 .rax (.reg .rdx), -- 1494: mulx r15, rax, rdx
  .adcx .r14 (.reg .r14), -- 1495: adcx r14, r14
  .adox .r14 (.reg .rax), -- 1496: adox r14, rax
  .adcx .r15 (.reg .rbx), -- 1497: adcx r15, rbx
  .adox .r15 (.reg .rbx), -- 1498: adox r15, rbx
  .mov (.reg .rdx) (.imm 38#64), -- 1499: mov edx, 0x26
  .xor (.reg .rbx) (.reg .rbx), -- 1500: xor ebx, ebx
  .mulx .rcx .rax (.reg .r12), -- 1501: mulx rcx, rax, r12
  .adcx .r8 (.reg .rax), -- 1502: adcx r8, rax
  .adox .r9 (.reg .rcx), -- 1503: adox r9, rcx
  .mulx .rcx .rax (.reg .r13), -- 1504: mulx rcx, rax, r13
  .adcx .r9 (.reg .rax), -- 1505: adcx r9, rax
  .adox .r10 (.reg .rcx), -- 1506: adox r10, rcx
  .mulx .rcx .rax (.reg .r14), -- 1507: mulx rcx, rax, r14
  .adcx .r10 (.reg .rax), -- 1508: adcx r10, rax
  .adox .r11 (.reg .rcx), -- 1509: adox r11, rcx
  .mulx .r12 .rax (.reg .r15), -- 1510: mulx r12, rax, r15
  .adcx .r11 (.reg .rax), -- 1511: adcx r11, rax
  .adox .r12 (.reg .rbx), -- 1512: adox r12, rbx
  .adcx .r12 (.reg .rbx), -- 1513: adcx r12, rbx
  .shld (.reg .r12) .r11 (.imm 1#64), -- 1514: shld r12, r11, 0x1
  .btr .r11 63#64, -- 1515: btr r11, 0x3f
  .mov (.reg .rdx) (.imm 19#64), -- 1516: mov edx, 0x13
  .imul .rdx (.reg .r12), -- 1517: imul rdx, r12
  .add (.reg .r8) (.reg .rdx), -- 1518: add r8, rdx
  .adc (.reg .r9) (.reg .rbx), -- 1519: adc r9, rbx
  .adc (.reg .r10) (.reg .rbx), -- 1520: adc r10, rbx
  .adc (.reg .r11) (.reg .rbx), -- 1521: adc r11, rbx
  .mov (.mem ⟨some .rsp, none, 320#64⟩) (.reg .r8), -- 1522: mov [rsp + (10 * 32)], r8
  .mov (.mem ⟨some .rsp, none, 328#64⟩) (.reg .r9), -- 1523: mov [rsp + (10 * 32)+ 0x8], r9
  .mov (.mem ⟨some .rsp, none, 336#64⟩) (.reg .r10), -- 1524: mov [rsp + (10 * 32)+ 0x10], r10
  .mov (.mem ⟨some .rsp, none, 344#64⟩) (.reg .r11), -- 1525: mov [rsp + (10 * 32)+ 0x18], r11
  .mov (.reg .r8) (.mem ⟨some .rsp, none, 320#64⟩), -- 1526: mov r8, [rsp + (10 * 32)]
  .xor (.reg .rbx) (.reg .rbx), -- 1527: xor ebx, ebx
  .sub (.reg .r8) (.mem ⟨some .rsp, none, 352#64⟩), -- 1528: sub r8, [rsp + (11 * 32)]
  .mov (.reg .r9) (.mem ⟨some .rsp, none, 328#64⟩), -- 1529: mov r9, [rsp + (10 * 32)+ 8]
  .sbb (.reg .r9) (.mem ⟨some .rsp, none, 360#64⟩), -- 1530: sbb r9, [rsp + (11 * 32)+ 8]
  .mov (.reg .rcx) (.imm 38#64), -- 1531: mov ecx, 38
  .mov (.reg .r10) (.mem ⟨some .rsp, none, 336#64⟩), -- 1532: mov r10, [rsp + (10 * 32)+ 16]
  .sbb (.reg .r10) (.mem ⟨some .rsp, none, 368#64⟩), -- 1533: sbb r10, [rsp + (11 * 32)+ 16]
  .mov (.reg .rax) (.mem ⟨some .rsp, none, 344#64⟩), -- 1534: mov rax, [rsp + (10 * 32)+ 24]
  .sbb (.reg .rax) (.mem ⟨some .rsp, none, 376#64⟩), -- 1535: sbb rax, [rsp + (11 * 32)+ 24]
  .cmov .nc .rcx (.reg .rbx), -- 1536: cmovnc rcx, rbx
  .sub (.reg .r8) (.reg .rcx), -- 1537: sub r8, rcx
  .sbb (.reg .r9) (.reg .rbx), -- 1538: sbb r9, rbx
  .sbb (.reg .r10) (.reg .rbx), -- 1539: sbb r10, rbx
  .sbb (.reg .rax) (.reg .rbx), -- 1540: sbb rax, rbx
  .mov (.mem ⟨some .rsp, none, 192#64⟩) (.reg .r8), -- 1541: mov [rsp + (6 * 32)], r8
  .mov (.mem ⟨some .rsp, none, 200#64⟩) (.reg .r9), -- 1542: mov [rsp + (6 * 32)+ 8], r9
  .mov (.mem ⟨some .rsp, none, 208#64⟩) (.reg .r10), -- 1543: mov [rsp + (6 * 32)+ 16], r10
  .mov (.mem ⟨some .rsp, none, 216#64⟩) (.reg .rax), -- 1544: mov [rsp + (6 * 32)+ 24], rax
  .mov (.reg .r8) (.mem ⟨some .rsp, none, 352#64⟩), -- 1545: mov r8, [rsp + (11 * 32)]
  .mov (.reg .r9) (.mem ⟨some .rsp, none, 360#64⟩), -- 1546: mov r9, [rsp + (11 * 32)+ 8]
  .mov (.reg .r10) (.mem ⟨some .rsp, none, 368#64⟩), -- 1547: mov r10, [rsp + (11 * 32)+ 16]
  .mov (.reg .r11) (.mem ⟨some .rsp, none, 376#64⟩), -- 1548: mov r11, [rsp + (11 * 32)+ 24]
  .xor (.reg .rdi) (.reg .rdi), -- 1549: xor edi, edi
  .mov (.reg .rdx) (.imm 0x1db42#64), -- 1550: mov rdx, 0x1db42
  .mulx .rbx .rax (.mem ⟨some .rsp, none, 192#64⟩), -- 1551: mulx rbx, rax, [rsp + (6 * 32)]
  .adcx .r8 (.reg .rax), -- 1552: adcx r8, rax
  .adox .r9 (.reg .rbx), -- 1553: adox r9, rbx
  .mulx .rbx .rax (.mem ⟨some .rsp, none, 200#64⟩), -- 1554: mulx rbx, rax, [rsp + (6 * 32)+ 8]
  .adcx .r9 (.reg .rax), -- 1555: adcx r9, rax
  .adox .r10 (.reg .rbx), -- 1556: adox r10, rbx
  .mulx .rbx .rax (.mem ⟨some .rsp, none, 208#64⟩), -- 1557: mulx rbx, rax, [rsp + (6 * 32)+ 16]
  .adcx .r10 (.reg .rax), -- 1558: adcx r10, rax
  .adox .r11 (.reg .rbx), -- 1559: adox r11, rbx
  .mulx .rbx .rax (.mem ⟨some .rsp, none, 216#64⟩), -- 1560: mulx rbx, rax, [rsp + (6 * 32)+ 24]
  .adcx .r11 (.reg .rax), -- 1561: adcx r11, rax
  .adox .rbx (.reg .rdi), -- 1562: adox rbx, rdi
  .adcx .rbx (.reg .rdi), -- 1563: adcx rbx, rdi
  .shld (.reg .rbx) .r11 (.imm 1#64), -- 1564: shld rbx, r11, 0x1
  .btr .r11 63#64, -- 1565: btr r11, 63
  .mov (.reg .rdx) (.imm 19#64), -- 1566: mov edx, 0x13
  .imul .rbx (.reg .rdx), -- 1567: imul rbx, rdx
  .add (.reg .r8) (.reg .rbx), -- 1568: add r8, rbx
  .adc (.reg .r9) (.reg .rdi), -- 1569: adc r9, rdi
  .adc (.reg .r10) (.reg .rdi), -- 1570: adc r10, rdi
  .adc (.reg .r11) (.reg .rdi), -- 1571: adc r11, rdi
  .mov (.mem ⟨some .rsp, none, 160#64⟩) (.reg .r8), -- 1572: mov [rsp + (5 * 32)], r8
  .mov (.mem ⟨some .rsp, none, 168#64⟩) (.reg .r9), -- 1573: mov [rsp + (5 * 32)+ 0x8], r9
  .mov (.mem ⟨some .rsp, none, 176#64⟩) (.reg .r10), -- 1574: mov [rsp + (5 * 32)+ 0x10], r10
  .mov (.mem ⟨some .rsp, none, 184#64⟩) (.reg .r11), -- 1575: mov [rsp + (5 * 32)+ 0x18], r11
  .xor (.reg .rcx) (.reg .rcx), -- 1576: xor ecx, ecx
  .mov (.reg .rdx) (.mem ⟨some .rsp, none, 352#64⟩), -- 1577: mov rdx, [rsp + (11 * 32)]
  .mulx .r9 .r8 (.mem ⟨some .rsp, none, 320#64⟩), -- 1578: mulx r9, r8, [rsp + (10 * 32)]
  .mulx .r10 .rax (.mem ⟨some .rsp, none, 328#64⟩), -- 1579: mulx r10, rax, [rsp + (10 * 32)+ 0x8]
  .add (.reg .r9) (.reg .rax), -- 1580: add r9, rax
  .mulx .r11 .rax (.mem ⟨some .rsp, none, 336#64⟩), -- 1581: mulx r11, rax, [rsp + (10 * 32)+ 0x10]
  .adc (.reg .r10) (.reg .rax), -- 1582: adc r10, rax
  .mulx .r12 .rax (.mem ⟨some .rsp, none, 344#64⟩), -- 1583: mulx r12, rax, [rsp + (10 * 32)+ 0x18]
  .adc (.reg .r11) (.reg .rax), -- 1584: adc r11, rax
  .adc (.reg .r12) (.reg .rcx), -- 1585: adc r12, rcx
  .xor (.reg .rcx) (.reg .rcx), -- 1586: xor ecx, ecx
  .mov (.reg .rdx) (.mem ⟨some .rsp, none, 360#64⟩), -- 1587: mov rdx, [rsp + (11 * 32)+ 0x8]
  .mulx .rbx .rax (.mem ⟨some .rsp, none, 320#64⟩), -- 1588: mulx rbx, rax, [rsp + (10 * 32)]
  .adcx .r9 (.reg .rax), -- 1589: adcx r9, rax
  .adox .r10 (.reg .rbx), -- 1590: adox r10, rbx
  .mulx .rbx .rax (.mem ⟨some .rsp, none, 328#64⟩), -- 1591: mulx rbx, rax, [rsp + (10 * 32)+ 0x8]
  .adcx .r10 (.reg .rax), -- 1592: adcx r10, rax
  .adox .r11 (.reg .rbx), -- 1593: adox r11, rbx
  .mulx .rbx .rax (.mem ⟨some .rsp, none, 336#64⟩), -- 1594: mulx rbx, rax, [rsp + (10 * 32)+ 0x10]
  .adcx .r11 (.reg .rax), -- 1595: adcx r11, rax
  .adox .r12 (.reg .rbx), -- 1596: adox r12, rbx
  .mulx .r13 .rax (.mem ⟨some .rsp, none, 344#64⟩), -- 1597: mulx r13, rax, [rsp + (10 * 32)+ 0x18]
  .adcx .r12 (.reg .rax), -- 1598: adcx r12, rax
  .adox .r13 (.reg .rcx), -- 1599: adox r13, rcx
  .adcx .r13 (.reg .rcx), -- 1600: adcx r13, rcx
  .xor (.reg .rcx) (.reg .rcx), -- 1601: xor ecx, ecx
  .mov (.reg .rdx) (.mem ⟨some .rsp, none, 368#64⟩), -- 1602: mov rdx, [rsp + (11 * 32)+ 0x10]
  .mulx .rbx .rax (.mem ⟨some .rsp, none, 320#64⟩), -- 1603: mulx rbx, rax, [rsp + (10 * 32)]
  .adcx .r10 (.reg .rax), -- 1604: adcx r10, rax
  .adox .r11 (.reg .rbx), -- 1605: adox r11, rbx
  .mulx .rbx .rax (.mem ⟨some .rsp, none, 328#64⟩), -- 1606: mulx rbx, rax, [rsp + (10 * 32)+ 0x8]
  .adcx .r11 (.reg .rax), -- 1607: adcx r11, rax
  .adox .r12 (.reg .rbx), -- 1608: adox r12, rbx
  .mulx .rbx .rax (.mem ⟨some .rsp, none, 336#64⟩), -- 1609: mulx rbx, rax, [rsp + (10 * 32)+ 0x10]
  .adcx .r12 (.reg .rax), -- 1610: adcx r12, rax
  .adox .r13 (.reg .rbx), -- 1611: adox r13, rbx
  .mulx .r14 .rax (.mem ⟨some .rsp, none, 344#64⟩), -- 1612: mulx r14, rax, [rsp + (10 * 32)+ 0x18]
  .adcx .r13 (.reg .rax), -- 1613: adcx r13, rax
  .adox .r14 (.reg .rcx), -- 1614: adox r14, rcx
  .adcx .r14 (.reg .rcx), -- 1615: adcx r14, rcx
  .xor (.reg .rcx) (.reg .rcx), -- 1616: xor ecx, ecx
  .mov (.reg .rdx) (.mem ⟨some .rsp, none, 376#64⟩), -- 1617: mov rdx, [rsp + (11 * 32)+ 0x18]
  .mulx .rbx .rax (.mem ⟨some .rsp, none, 320#64⟩), -- 1618: mulx rbx, rax, [rsp + (10 * 32)]
  .adcx .r11 (.reg .rax), -- 1619: adcx r11, rax
  .adox .r12 (.reg .rbx), -- 1620: adox r12, rbx
  .mulx .rbx .rax (.mem ⟨some .rsp, none, 328#64⟩), -- 1621: mulx rbx, rax, [rsp + (10 * 32)+ 0x8]
  .adcx .r12 (.reg .rax), -- 1622: adcx r12, rax
  .adox .r13 (.reg .rbx), -- 1623: adox r13, rbx
  .mulx .rbx .rax (.mem ⟨some .rsp, none, 336#64⟩), -- 1624: mulx rbx, rax, [rsp + (10 * 32)+ 0x10]
  .adcx .r13 (.reg .rax), -- 1625: adcx r13, rax
  .adox .r14 (.reg .rbx), -- 1626: adox r14, rbx
  .mulx .r15 .rax (.mem ⟨some .rsp, none, 344#64⟩), -- 1627: mulx r15, rax, [rsp + (10 * 32)+ 0x18]
  .adcx .r14 (.reg .rax), -- 1628: adcx r14, rax
  .adox .r15 (.reg .rcx), -- 1629: adox r15, rcx
  .adcx .r15 (.reg .rcx), -- 1630: adcx r15, rcx
  .mov (.reg .rdx) (.imm 38#64), -- 1631: mov edx, 0x26
  .xor (.reg .rcx) (.reg .rcx), -- 1632: xor ecx, ecx
  .mulx .rbx .rax (.reg .r12), -- 1633: mulx rbx, rax, r12
  .adcx .r8 (.reg .rax), -- 1634: adcx r8, rax
  .adox .r9 (.reg .rbx), -- 1635: adox r9, rbx
  .mulx .rbx .rax (.reg .r13), -- 1636: mulx rbx, rax, r13
  .adcx .r9 (.reg .rax), -- 1637: adcx r9, rax
  .adox .r10 (.reg .rbx), -- 1638: adox r10, rbx
  .mulx .rbx .rax (.reg .r14), -- 1639: mulx rbx, rax, r14
  .adcx .r10 (.reg .rax), -- 1640: adcx r10, rax
  .adox .r11 (.reg .rbx), -- 1641: adox r11, rbx
  .mulx .r12 .rax (.reg .r15), -- 1642: mulx r12, rax, r15
  .adcx .r11 (.reg .rax), -- 1643: adcx r11, rax
  .adox .r12 (.reg .rcx), -- 1644: adox r12, rcx
  .adcx .r12 (.reg .rcx), -- 1645: adcx r12, rcx
  .shld (.reg .r12) .r11 (.imm 1#64), -- 1646: shld r12, r11, 0x1
  .btr .r11 63#64, -- 1647: btr r11, 0x3f
  .mov (.reg .rdx) (.imm 19#64), -- 1648: mov edx, 0x13
  .imul .rdx (.reg .r12), -- 1649: imul rdx, r12
  .add (.reg .r8) (.reg .rdx), -- 1650: add r8, rdx
  .adc (.reg .r9) (.reg .rcx), -- 1651: adc r9, rcx
  .adc (.reg .r10) (.reg .rcx), -- 1652: adc r10, rcx
  .adc (.reg .r11) (.reg .rcx), -- 1653: adc r11, rcx
  .mov (.mem ⟨some .rsp, none, 320#64⟩) (.reg .r8), -- 1654: mov [rsp + (10 * 32)], r8
  .mov (.mem ⟨some .rsp, none, 328#64⟩) (.reg .r9), -- 1655: mov [rsp + (10 * 32)+ 0x8], r9
  .mov (.mem ⟨some .rsp, none, 336#64⟩) (.reg .r10), -- 1656: mov [rsp + (10 * 32)+ 0x10], r10
  .mov (.mem ⟨some .rsp, none, 344#64⟩) (.reg .r11), -- 1657: mov [rsp + (10 * 32)+ 0x18], r11
  .xor (.reg .rcx) (.reg .rcx), -- 1658: xor ecx, ecx
  .mov (.reg .rdx) (.mem ⟨some .rsp, none, 160#64⟩), -- 1659: mov rdx, [rsp + (5 * 32)]
  .mulx .r9 .r8 (.mem ⟨some .rsp, none, 192#64⟩), -- 1660: mulx r9, r8, [rsp + (6 * 32)]
  .mulx .r10 .rax (.mem ⟨some .rsp, none, 200#64⟩), -- 1661: mulx r10, rax, [rsp + (6 * 32)+ 0x8]
  .add (.reg .r9) (.reg .rax), -- 1662: add r9, rax
  .mulx .r11 .rax (.mem ⟨some .rsp, none, 208#64⟩), -- 1663: mulx r11, rax, [rsp + (6 * 32)+ 0x10]
  .adc (.reg .r10) (.reg .rax), -- 1664: adc r10, rax
  .mulx .r12 .rax (.mem ⟨some .rsp, none, 216#64⟩), -- 1665: mulx r12, rax, [rsp + (6 * 32)+ 0x18]
  .adc (.reg .r11) (.reg .rax), -- 1666: adc r11, rax
  .adc (.reg .r12) (.reg .rcx), -- 1667: adc r12, rcx
  .xor (.reg .rcx) (.reg .rcx), -- 1668: xor ecx, ecx
  .mov (.reg .rdx) (.mem ⟨some .rsp, none, 168#64⟩), -- 1669: mov rdx, [rsp + (5 * 32)+ 0x8]
  .mulx .rbx .rax (.mem ⟨some .rsp, none, 192#64⟩), -- 1670: mulx rbx, rax, [rsp + (6 * 32)]
  .adcx .r9 (.reg .rax), -- 1671: adcx r9, rax
  .adox .r10 (.reg .rbx), -- 1672: adox r10, rbx
  .mulx .rbx .rax (.mem ⟨some .rsp, none, 200#64⟩), -- 1673: mulx rbx, rax, [rsp + (6 * 32)+ 0x8]
  .adcx .r10 (.reg .rax), -- 1674: adcx r10, rax
  .adox .r11 (.reg .rbx), -- 1675: adox r11, rbx
  .mulx .rbx .rax (.mem ⟨some .rsp, none, 208#64⟩), -- 1676: mulx rbx, rax, [rsp + (6 * 32)+ 0x10]
  .adcx .r11 (.reg .rax), -- 1677: adcx r11, rax
  .adox .r12 (.reg .rbx), -- 1678: adox r12, rbx
  .mulx .r13 .rax (.mem ⟨some .rsp, none, 216#64⟩), -- 1679: mulx r13, rax, [rsp + (6 * 32)+ 0x18]
  .adcx .r12 (.reg .rax), -- 1680: adcx r12, rax
  .adox .r13 (.reg .rcx), -- 1681: adox r13, rcx
  .adcx .r13 (.reg .rcx), -- 1682: adcx r13, rcx
  .xor (.reg .rcx) (.reg .rcx), -- 1683: xor ecx, ecx
  .mov (.reg .rdx) (.mem ⟨some .rsp, none, 176#64⟩), -- 1684: mov rdx, [rsp + (5 * 32)+ 0x10]
  .mulx .rbx .rax (.mem ⟨some .rsp, none, 192#64⟩), -- 1685: mulx rbx, rax, [rsp + (6 * 32)]
  .adcx .r10 (.reg .rax), -- 1686: adcx r10, rax
  .adox .r11 (.reg .rbx), -- 1687: adox r11, rbx
  .mulx .rbx .rax (.mem ⟨some .rsp, none, 200#64⟩), -- 1688: mulx rbx, rax, [rsp + (6 * 32)+ 0x8]
  .adcx .r11 (.reg .rax), -- 1689: adcx r11, rax
  .adox .r12 (.reg .rbx), -- 1690: adox r12, rbx
  .mulx .rbx .rax (.mem ⟨some .rsp, none, 208#64⟩), -- 1691: mulx rbx, rax, [rsp + (6 * 32)+ 0x10]
  .adcx .r12 (.reg .rax), -- 1692: adcx r12, rax
  .adox .r13 (.reg .rbx), -- 1693: adox r13, rbx
  .mulx .r14 .rax (.mem ⟨some .rsp, none, 216#64⟩), -- 1694: mulx r14, rax, [rsp + (6 * 32)+ 0x18]
  .adcx .r13 (.reg .rax), -- 1695: adcx r13, rax
  .adox .r14 (.reg .rcx), -- 1696: adox r14, rcx
  .adcx .r14 (.reg .rcx), -- 1697: adcx r14, rcx
  .xor (.reg .rcx) (.reg .rcx), -- 1698: xor ecx, ecx
  .mov (.reg .rdx) (.mem ⟨some .rsp, none, 184#64⟩), -- 1699: mov rdx, [rsp + (5 * 32)+ 0x18]
  .mulx .rbx .rax (.mem ⟨some .rsp, none, 192#64⟩), -- 1700: mulx rbx, rax, [rsp + (6 * 32)]
  .adcx .r11 (.reg .rax), -- 1701: adcx r11, rax
  .adox .r12 (.reg .rbx), -- 1702: adox r12, rbx
  .mulx .rbx .rax (.mem ⟨some .rsp, none, 200#64⟩), -- 1703: mulx rbx, rax, [rsp + (6 * 32)+ 0x8]
  .adcx .r12 (.reg .rax), -- 1704: adcx r12, rax
  .adox .r13 (.reg .rbx), -- 1705: adox r13, rbx
  .mulx .rbx .rax (.mem ⟨some .rsp, none, 208#64⟩), -- 1706: mulx rbx, rax, [rsp + (6 * 32)+ 0x10]
  .adcx .r13 (.reg .rax), -- 1707: adcx r13, rax
  .adox .r14 (.reg .rbx), -- 1708: adox r14, rbx
  .mulx .r15 .rax (.mem ⟨some .rsp, none, 216#64⟩), -- 1709: mulx r15, rax, [rsp + (6 * 32)+ 0x18]
  .adcx .r14 (.reg .rax), -- 1710: adcx r14, rax
  .adox .r15 (.reg .rcx), -- 1711: adox r15, rcx
  .adcx .r15 (.reg .rcx), -- 1712: adcx r15, rcx
  .mov (.reg .rdx) (.imm 38#64), -- 1713: mov edx, 0x26
  .xor (.reg .rcx) (.reg .rcx), -- 1714: xor ecx, ecx
  .mulx .rbx .rax (.reg .r12), -- 1715: mulx rbx, rax, r12
  .adcx .r8 (.reg .rax), -- 1716: adcx r8, rax
  .adox .r9 (.reg .rbx), -- 1717: adox r9, rbx
  .mulx .rbx .rax (.reg .r13), -- 1718: mulx rbx, rax, r13
  .adcx .r9 (.reg .rax), -- 1719: adcx r9, rax
  .adox .r10 (.reg .rbx), -- 1720: adox r10, rbx
  .mulx .rbx .rax (.reg .r14), -- 1721: mulx rbx, rax, r14
  .adcx .r10 (.reg .rax), -- 1722: adcx r10, rax
  .adox .r11 (.reg .rbx), -- 1723: adox r11, rbx
  .mulx .r12 .rax (.reg .r15), -- 1724: mulx r12, rax, r15
  .adcx .r11 (.reg .rax), -- 1725: adcx r11, rax
  .adox .r12 (.reg .rcx), -- 1726: adox r12, rcx
  .adcx .r12 (.reg .rcx), -- 1727: adcx r12, rcx
  .shld (.reg .r12) .r11 (.imm 1#64), -- 1728: shld r12, r11, 0x1
  .btr .r11 63#64, -- 1729: btr r11, 0x3f
  .mov (.reg .rdx) (.imm 19#64), -- 1730: mov edx, 0x13
  .imul .rdx (.reg .r12), -- 1731: imul rdx, r12
  .add (.reg .r8) (.reg .rdx), -- 1732: add r8, rdx
  .adc (.reg .r9) (.reg .rcx), -- 1733: adc r9, rcx
  .adc (.reg .r10) (.reg .rcx), -- 1734: adc r10, rcx
  .adc (.reg .r11) (.reg .rcx), -- 1735: adc r11, rcx
  .mov (.mem ⟨some .rsp, none, 224#64⟩) (.reg .r8), -- 1736: mov [rsp + (7 * 32)], r8
  .mov (.mem ⟨some .rsp, none, 232#64⟩) (.reg .r9), -- 1737: mov [rsp + (7 * 32)+ 0x8], r9
  .mov (.mem ⟨some .rsp, none, 240#64⟩) (.reg .r10), -- 1738: mov [rsp + (7 * 32)+ 0x10], r10
  .mov (.mem ⟨some .rsp, none, 248#64⟩) (.reg .r11), -- 1739: mov [rsp + (7 * 32)+ 0x18], r11
  .mov (.reg .r8) (.mem ⟨some .rsp, none, 320#64⟩), -- 1740: mov r8, [rsp + (10 * 32)]
  .xor (.reg .rbx) (.reg .rbx), -- 1741: xor ebx, ebx
  .sub (.reg .r8) (.mem ⟨some .rsp, none, 224#64⟩), -- 1742: sub r8, [rsp + (7 * 32)]
  .mov (.reg .r9) (.mem ⟨some .rsp, none, 328#64⟩), -- 1743: mov r9, [rsp + (10 * 32)+ 8]
  .sbb (.reg .r9) (.mem ⟨some .rsp, none, 232#64⟩), -- 1744: sbb r9, [rsp + (7 * 32)+ 8]
  .mov (.reg .rcx) (.imm 38#64), -- 1745: mov ecx, 38
  .mov (.reg .r10) (.mem ⟨some .rsp, none, 336#64⟩), -- 1746: mov r10, [rsp + (10 * 32)+ 16]
  .sbb (.reg .r10) (.mem ⟨some .rsp, none, 240#64⟩), -- 1747: sbb r10, [rsp + (7 * 32)+ 16]
  .mov (.reg .rax) (.mem ⟨some .rsp, none, 344#64⟩), -- 1748: mov rax, [rsp + (10 * 32)+ 24]
  .sbb (.reg .rax) (.mem ⟨some .rsp, none, 248#64⟩), -- 1749: sbb rax, [rsp + (7 * 32)+ 24]
  .cmov .nc .rcx (.reg .rbx), -- 1750: cmovnc rcx, rbx
  .sub (.reg .r8) (.reg .rcx), -- 1751: sub r8, rcx
  .sbb (.reg .r9) (.reg .rbx), -- 1752: sbb r9, rbx
  .sbb (.reg .r10) (.reg .rbx), -- 1753: sbb r10, rbx
  .sbb (.reg .rax) (.reg .rbx), -- 1754: sbb rax, rbx
  .mov (.mem ⟨some .rsp, none, 352#64⟩) (.reg .r8), -- 1755: mov [rsp + (11 * 32)], r8
  .mov (.mem ⟨some .rsp, none, 360#64⟩) (.reg .r9), -- 1756: mov [rsp + (11 * 32)+ 8], r9
  .mov (.mem ⟨some .rsp, none, 368#64⟩) (.reg .r10), -- 1757: mov [rsp + (11 * 32)+ 16], r10
  .mov (.mem ⟨some .rsp, none, 376#64⟩) (.reg .rax), -- 1758: mov [rsp + (11 * 32)+ 24], rax
  .mov (.reg .r8) (.mem ⟨some .rsp, none, 320#64⟩), -- 1759: mov r8, [rsp + (10 * 32)]
  .xor (.reg .rcx) (.reg .rcx), -- 1760: xor ecx, ecx
  .add (.reg .r8) (.mem ⟨some .rsp, none, 224#64⟩), -- 1761: add r8, [rsp + (7 * 32)]
  .mov (.reg .r9) (.mem ⟨some .rsp, none, 328#64⟩), -- 1762: mov r9, [rsp + (10 * 32)+ 0x8]
  .adc (.reg .r9) (.mem ⟨some .rsp, none, 232#64⟩), -- 1763: adc r9, [rsp + (7 * 32)+ 0x8]
  .mov (.reg .r10) (.mem ⟨some .rsp, none, 336#64⟩), -- 1764: mov r10, [rsp + (10 * 32)+ 0x10]
  .adc (.reg .r10) (.mem ⟨some .rsp, none, 240#64⟩), -- 1765: adc r10, [rsp + (7 * 32)+ 0x10]
  .mov (.reg .r11) (.mem ⟨some .rsp, none, 344#64⟩), -- 1766: mov r11, [rsp + (10 * 32)+ 0x18]
  .adc (.reg .r11) (.mem ⟨some .rsp, none, 248#64⟩), -- 1767: adc r11, [rsp + (7 * 32)+ 0x18]
  .mov (.reg .rax) (.imm 38#64), -- 1768: mov eax, 38
  .cmov .nc .rax (.reg .rcx), -- 1769: cmovnc rax, rcx
  .add (.reg .r8) (.reg .rax), -- 1770: add r8, rax
  .adc (.reg .r9) (.reg .rcx), -- 1771: adc r9, rcx
  .adc (.reg .r10) (.reg .rcx), -- 1772: adc r10, rcx
  .adc (.reg .r11) (.reg .rcx), -- 1773: adc r11, rcx
  .mov (.mem ⟨some .rsp, none, 320#64⟩) (.reg .r8), -- 1774: mov [rsp + (10 * 32)], r8
  .mov (.mem ⟨some .rsp, none, 328#64⟩) (.reg .r9), -- 1775: mov [rsp + (10 * 32)+ 0x8], r9
  .mov (.mem ⟨some .rsp, none, 336#64⟩) (.reg .r10), -- 1776: mov [rsp + (10 * 32)+ 0x10], r10
  .mov (.mem ⟨some .rsp, none, 344#64⟩) (.reg .r11), -- 1777: mov [rsp + (10 * 32)+ 0x18], r11
  .mov (.reg .rdx) (.mem ⟨some .rsp, none, 352#64⟩), -- 1778: mov rdx, [rsp + (11 * 32)]
  .mulx .r15 .r8 (.reg .rdx), -- 1779: mulx r15, r8, rdx
  .mulx .r10 .r9 (.mem ⟨some .rsp, none, 360#64⟩), -- 1780: mulx r10, r9, [rsp + (11 * 32)+ 0x8]
  .mulx .r12 .r11 (.mem ⟨some .rsp, none, 376#64⟩), -- 1781: mulx r12, r11, [rsp + (11 * 32)+ 0x18]
  .mov (.reg .rdx) (.mem ⟨some .rsp, none, 368#64⟩), -- 1782: mov rdx, [rsp + (11 * 32)+ 0x10]
  .mulx .r14 .r13 (.mem ⟨some .rsp, none, 376#64⟩), -- 1783: mulx r14, r13, [rsp + (11 * 32)+ 0x18]
  .xor (.reg .rbx) (.reg .rbx), -- 1784: xor ebx, ebx
  .mulx .rcx .rax (.mem ⟨some .rsp, none, 352#64⟩), -- 1785: mulx rcx, rax, [rsp + (11 * 32)]
  .adcx .r10 (.reg .rax), -- 1786: adcx r10, rax
  .adox .r11 (.reg .rcx), -- 1787: adox r11, rcx
  .mulx .rcx .rax (.mem ⟨some .rsp, none, 360#64⟩), -- 1788: mulx rcx, rax, [rsp + (11 * 32)+ 0x8]
  .adcx .r11 (.reg .rax), -- 1789: adcx r11, rax
  .adox .r12 (.reg .rcx), -- 1790: adox r12, rcx
  .mov (.reg .rdx) (.mem ⟨some .rsp, none, 376#64⟩), -- 1791: mov rdx, [rsp + (11 * 32)+ 0x18]
  .mulx .rcx .rax (.mem ⟨some .rsp, none, 360#64⟩), -- 1792: mulx rcx, rax, [rsp + (11 * 32)+ 0x8]
  .adcx .r12 (.reg .rax), -- 1793: adcx r12, rax
  .adox .r13 (.reg .rcx), -- 1794: adox r13, rcx
  .adcx .r13 (.reg .rbx), -- 1795: adcx r13, rbx
  .adox .r14 (.reg .rbx), -- 1796: adox r14, rbx
  .adc (.reg .r14) (.reg .rbx), -- 1797: adc r14, rbx
  .xor (.reg .rbx) (.reg .rbx), -- 1798: xor ebx, ebx
  .adcx .r9 (.reg .r9), -- 1799: adcx r9, r9
  .adox .r9 (.reg .r15), -- 1800: adox r9, r15
  .mov (.reg .rdx) (.mem ⟨some .rsp, none, 360#64⟩), -- 1801: mov rdx, [rsp + (11 * 32)+ 0x8]
  .mulx .rdx .rax (.reg .rdx), -- 1802: mulx rdx, rax, rdx
  .adcx .r10 (.reg .r10), -- 1803: adcx r10, r10
  .adox .r10 (.reg .rax), -- 1804: adox r10, rax
  .adcx .r11 (.reg .r11), -- 1805: adcx r11, r11
  .adox .r11 (.reg .rdx), -- 1806: adox r11, rdx
  .mov (.reg .rdx) (.mem ⟨some .rsp, none, 368#64⟩), -- 1807: mov rdx, [rsp + (11 * 32)+ 0x10]
  .mulx .rdx .rax (.reg .rdx), -- 1808: mulx rdx, rax, rdx
  .adcx .r12 (.reg .r12), -- 1809: adcx r12, r12
  .adox .r12 (.reg .rax), -- 1810: adox r12, rax
  .adcx .r13 (.reg .r13), -- 1811: adcx r13, r13
  .adox .r13 (.reg .rdx), -- 1812: adox r13, rdx
  .mov (.reg .rdx) (.mem ⟨some .rsp, none, 376#64⟩), -- 1813: mov rdx, [rsp + (11 * 32)+ 0x18]
  .mulx .r15 .rax (.reg .rdx), -- 1814: mulx r15, rax, rdx
  .adcx .r14 (.reg .r14), -- 1815: adcx r14, r14
  .adox .r14 (.reg .rax), -- 1816: adox r14, rax
  .adcx .r15 (.reg .rbx), -- 1817: adcx r15, rbx
  .adox .r15 (.reg .rbx), -- 1818: adox r15, rbx
  .mov (.reg .rdx) (.imm 38#64), -- 1819: mov edx, 0x26
  .xor (.reg .rbx) (.reg .rbx), -- 1820: xor ebx, ebx
  .mulx .rcx .rax (.reg .r12), -- 1821: mulx rcx, rax, r12
  .adcx .r8 (.reg .rax), -- 1822: adcx r8, rax
  .adox .r9 (.reg .rcx), -- 1823: adox r9, rcx
  .mulx .rcx .rax (.reg .r13), -- 1824: mulx rcx, rax, r13
  .adcx .r9 (.reg .rax), -- 1825: adcx r9, rax
  .adox .r10 (.reg .rcx), -- 1826: adox r10, rcx
  .mulx .rcx .rax (.reg .r14), -- 1827: mulx rcx, rax, r14
  .adcx .r10 (.reg .rax), -- 1828: adcx r10, rax
  .adox .r11 (.reg .rcx), -- 1829: adox r11, rcx
  .mulx .r12 .rax (.reg .r15), -- 1830: mulx r12, rax, r15
  .adcx .r11 (.reg .rax), -- 1831: adcx r11, rax
  .adox .r12 (.reg .rbx), -- 1832: adox r12, rbx
  .adcx .r12 (.reg .rbx), -- 1833: adcx r12, rbx
  .shld (.reg .r12) .r11 (.imm 1#64), -- 1834: shld r12, r11, 0x1
  .btr .r11 63#64, -- 1835: btr r11, 0x3f
  .mov (.reg .rdx) (.imm 19#64), -- 1836: mov edx, 0x13
  .imul .rdx (.reg .r12), -- 1837: imul rdx, r12
  .add (.reg .r8) (.reg .rdx), -- 1838: add r8, rdx
  .adc (.reg .r9) (.reg .rbx), -- 1839: adc r9, rbx
  .adc (.reg .r10) (.reg .rbx), -- 1840: adc r10, rbx
  .adc (.reg .r11) (.reg .rbx), -- 1841: adc r11, rbx
  .mov (.mem ⟨some .rsp, none, 352#64⟩) (.reg .r8), -- 1842: mov [rsp + (11 * 32)], r8
  .mov (.mem ⟨some .rsp, none, 360#64⟩) (.reg .r9), -- 1843: mov [rsp + (11 * 32)+ 0x8], r9
  .mov (.mem ⟨some .rsp, none, 368#64⟩) (.reg .r10), -- 1844: mov [rsp + (11 * 32)+ 0x10], r10
  .mov (.mem ⟨some .rsp, none, 376#64⟩) (.reg .r11), -- 1845: mov [rsp + (11 * 32)+ 0x18], r11
  .mov (.reg .rdx) (.mem ⟨some .rsp, none, 320#64⟩), -- 1846: mov rdx, [rsp + (10 * 32)]
  .mulx .r15 .r8 (.reg .rdx), -- 1847: mulx r15, r8, rdx
  .mulx .r10 .r9 (.mem ⟨some .rsp, none, 328#64⟩), -- 1848: mulx r10, r9, [rsp + (10 * 32)+ 0x8]
  .mulx .r12 .r11 (.mem ⟨some .rsp, none, 344#64⟩), -- 1849: mulx r12, r11, [rsp + (10 * 32)+ 0x18]
  .mov (.reg .rdx) (.mem ⟨some .rsp, none, 336#64⟩), -- 1850: mov rdx, [rsp + (10 * 32)+ 0x10]
  .mulx .r14 .r13 (.mem ⟨some .rsp, none, 344#64⟩), -- 1851: mulx r14, r13, [rsp + (10 * 32)+ 0x18]
  .xor (.reg .rbx) (.reg .rbx), -- 1852: xor ebx, ebx
  .mulx .rcx .rax (.mem ⟨some .rsp, none, 320#64⟩), -- 1853: mulx rcx, rax, [rsp + (10 * 32)]
  .adcx .r10 (.reg .rax), -- 1854: adcx r10, rax
  .adox .r11 (.reg .rcx), -- 1855: adox r11, rcx
  .mulx .rcx .rax (.mem ⟨some .rsp, none, 328#64⟩), -- 1856: mulx rcx, rax, [rsp + (10 * 32)+ 0x8]
  .adcx .r11 (.reg .rax), -- 1857: adcx r11, rax
  .adox .r12 (.reg .rcx), -- 1858: adox r12, rcx
  .mov (.reg .rdx) (.mem ⟨some .rsp, none, 344#64⟩), -- 1859: mov rdx, [rsp + (10 * 32)+ 0x18]
  .mulx .rcx .rax (.mem ⟨some .rsp, none, 328#64⟩), -- 1860: mulx rcx, rax, [rsp + (10 * 32)+ 0x8]
  .adcx .r12 (.reg .rax), -- 1861: adcx r12, rax
  .adox .r13 (.reg .rcx), -- 1862: adox r13, rcx
  .adcx .r13 (.reg .rbx), -- 1863: adcx r13, rbx
  .adox .r14 (.reg .rbx), -- 1864: adox r14, rbx
  .adc (.reg .r14) (.reg .rbx), -- 1865: adc r14, rbx
  .xor (.reg .rbx) (.reg .rbx), -- 1866: xor ebx, ebx
  .adcx .r9 (.reg .r9), -- 1867: adcx r9, r9
  .adox .r9 (.reg .r15), -- 1868: adox r9, r15
  .mov (.reg .rdx) (.mem ⟨some .rsp, none, 328#64⟩), -- 1869: mov rdx, [rsp + (10 * 32)+ 0x8]
  .mulx .rdx .rax (.reg .rdx), -- 1870: mulx rdx, rax, rdx
  .adcx .r10 (.reg .r10), -- 1871: adcx r10, r10
  .adox .r10 (.reg .rax), -- 1872: adox r10, rax
  .adcx .r11 (.reg .r11), -- 1873: adcx r11, r11
  .adox .r11 (.reg .rdx), -- 1874: adox r11, rdx
  .mov (.reg .rdx) (.mem ⟨some .rsp, none, 336#64⟩), -- 1875: mov rdx, [rsp + (10 * 32)+ 0x10]
  .mulx .rdx .rax (.reg .rdx), -- 1876: mulx rdx, rax, rdx
  .adcx .r12 (.reg .r12), -- 1877: adcx r12, r12
  .adox .r12 (.reg .rax), -- 1878: adox r12, rax
  .adcx .r13 (.reg .r13), -- 1879: adcx r13, r13
  .adox .r13 (.reg .rdx), -- 1880: adox r13, rdx
  .mov (.reg .rdx) (.mem ⟨some .rsp, none, 344#64⟩), -- 1881: mov rdx, [rsp + (10 * 32)+ 0x18]
  .mulx .r15 .rax (.reg .rdx), -- 1882: mulx r15, rax, rdx
  .adcx .r14 (.reg .r14), -- 1883: adcx r14, r14
  .adox .r14 (.reg .rax), -- 1884: adox r14, rax
  .adcx .r15 (.reg .rbx), -- 1885: adcx r15, rbx
  .adox .r15 (.reg .rbx), -- 1886: adox r15, rbx
  .mov (.reg .rdx) (.imm 38#64), -- 1887: mov edx, 0x26
  .xor (.reg .rbx) (.reg .rbx), -- 1888: xor ebx, ebx
  .mulx .rcx .rax (.reg .r12), -- 1889: mulx rcx, rax, r12
  .adcx .r8 (.reg .rax), -- 1890: adcx r8, rax
  .adox .r9 (.reg .rcx), -- 1891: adox r9, rcx
  .mulx .rcx .rax (.reg .r13), -- 1892: mulx rcx, rax, r13
  .adcx .r9 (.reg .rax), -- 1893: adcx r9, rax
  .adox .r10 (.reg .rcx), -- 1894: adox r10, rcx
  .mulx .rcx .rax (.reg .r14), -- 1895: mulx rcx, rax, r14
  .adcx .r10 (.reg .rax), -- 1896: adcx r10, rax
  .adox .r11 (.reg .rcx), -- 1897: adox r11, rcx
  .mulx .r12 .rax (.reg .r15), -- 1898: mulx r12, rax, r15
  .adcx .r11 (.reg .rax), -- 1899: adcx r11, rax
  .adox .r12 (.reg .rbx), -- 1900: adox r12, rbx
  .adcx .r12 (.reg .rbx), -- 1901: adcx r12, rbx
  .shld (.reg .r12) .r11 (.imm 1#64), -- 1902: shld r12, r11, 0x1
  .btr .r11 63#64, -- 1903: btr r11, 0x3f
  .mov (.reg .rdx) (.imm 19#64), -- 1904: mov edx, 0x13
  .imul .rdx (.reg .r12), -- 1905: imul rdx, r12
  .add (.reg .r8) (.reg .rdx), -- 1906: add r8, rdx
  .adc (.reg .r9) (.reg .rbx), -- 1907: adc r9, rbx
  .adc (.reg .r10) (.reg .rbx), -- 1908: adc r10, rbx
  .adc (.reg .r11) (.reg .rbx), -- 1909: adc r11, rbx
  .mov (.mem ⟨some .rsp, none, 320#64⟩) (.reg .r8), -- 1910: mov [rsp + (10 * 32)], r8
  .mov (.mem ⟨some .rsp, none, 328#64⟩) (.reg .r9), -- 1911: mov [rsp + (10 * 32)+ 0x8], r9
  .mov (.mem ⟨some .rsp, none, 336#64⟩) (.reg .r10), -- 1912: mov [rsp + (10 * 32)+ 0x10], r10
  .mov (.mem ⟨some .rsp, none, 344#64⟩) (.reg .r11), -- 1913: mov [rsp + (10 * 32)+ 0x18], r11
  .mov (.reg .r8) (.mem ⟨some .rsp, none, 320#64⟩), -- 1914: mov r8, [rsp + (10 * 32)]
  .xor (.reg .rbx) (.reg .rbx), -- 1915: xor ebx, ebx
  .sub (.reg .r8) (.mem ⟨some .rsp, none, 352#64⟩), -- 1916: sub r8, [rsp + (11 * 32)]
  .mov (.reg .r9) (.mem ⟨some .rsp, none, 328#64⟩), -- 1917: mov r9, [rsp + (10 * 32)+ 8]
  .sbb (.reg .r9) (.mem ⟨some .rsp, none, 360#64⟩), -- 1918: sbb r9, [rsp + (11 * 32)+ 8]
  .mov (.reg .rcx) (.imm 38#64), -- 1919: mov ecx, 38
  .mov (.reg .r10) (.mem ⟨some .rsp, none, 336#64⟩), -- 1920: mov r10, [rsp + (10 * 32)+ 16]
  .sbb (.reg .r10) (.mem ⟨some .rsp, none, 368#64⟩), -- 1921: sbb r10, [rsp + (11 * 32)+ 16]
  .mov (.reg .rax) (.mem ⟨some .rsp, none, 344#64⟩), -- 1922: mov rax, [rsp + (10 * 32)+ 24]
  .sbb (.reg .rax) (.mem ⟨some .rsp, none, 376#64⟩), -- 1923: sbb rax, [rsp + (11 * 32)+ 24]
  .cmov .nc .rcx (.reg .rbx), -- 1924: cmovnc rcx, rbx
  .sub (.reg .r8) (.reg .rcx), -- 1925: sub r8, rcx
  .sbb (.reg .r9) (.reg .rbx), -- 1926: sbb r9, rbx
  .sbb (.reg .r10) (.reg .rbx), -- 1927: sbb r10, rbx
  .sbb (.reg .rax) (.reg .rbx), -- 1928: sbb rax, rbx
  .mov (.mem ⟨some .rsp, none, 192#64⟩) (.reg .r8), -- 1929: mov [rsp + (6 * 32)], r8
  .mov (.mem ⟨some .rsp, none, 200#64⟩) (.reg .r9), -- 1930: mov [rsp + (6 * 32)+ 8], r9
  .mov (.mem ⟨some .rsp, none, 208#64⟩) (.reg .r10), -- 1931: mov [rsp + (6 * 32)+ 16], r10
  .mov (.mem ⟨some .rsp, none, 216#64⟩) (.reg .rax), -- 1932: mov [rsp + (6 * 32)+ 24], rax
  .mov (.reg .r8) (.mem ⟨some .rsp, none, 352#64⟩), -- 1933: mov r8, [rsp + (11 * 32)]
  .mov (.reg .r9) (.mem ⟨some .rsp, none, 360#64⟩), -- 1934: mov r9, [rsp + (11 * 32)+ 8]
  .mov (.reg .r10) (.mem ⟨some .rsp, none, 368#64⟩), -- 1935: mov r10, [rsp + (11 * 32)+ 16]
  .mov (.reg .r11) (.mem ⟨some .rsp, none, 376#64⟩), -- 1936: mov r11, [rsp + (11 * 32)+ 24]
  .xor (.reg .rdi) (.reg .rdi), -- 1937: xor edi, edi
  .mov (.reg .rdx) (.imm 0x1db42#64), -- 1938: mov rdx, 0x1db42
  .mulx .rbx .rax (.mem ⟨some .rsp, none, 192#64⟩), -- 1939: mulx rbx, rax, [rsp + (6 * 32)]
  .adcx .r8 (.reg .rax), -- 1940: adcx r8, rax
  .adox .r9 (.reg .rbx), -- 1941: adox r9, rbx
  .mulx .rbx .rax (.mem ⟨some .rsp, none, 200#64⟩), -- 1942: mulx rbx, rax, [rsp + (6 * 32)+ 8]
  .adcx .r9 (.reg .rax), -- 1943: adcx r9, rax
  .adox .r10 (.reg .rbx), -- 1944: adox r10, rbx
  .mulx .rbx .rax (.mem ⟨some .rsp, none, 208#64⟩), -- 1945: mulx rbx, rax, [rsp + (6 * 32)+ 16]
  .adcx .r10 (.reg .rax), -- 1946: adcx r10, rax
  .adox .r11 (.reg .rbx), -- 1947: adox r11, rbx
  .mulx .rbx .rax (.mem ⟨some .rsp, none, 216#64⟩), -- 1948: mulx rbx, rax, [rsp + (6 * 32)+ 24]
  .adcx .r11 (.reg .rax), -- 1949: adcx r11, rax
  .adox .rbx (.reg .rdi), -- 1950: adox rbx, rdi
  .adcx .rbx (.reg .rdi), -- 1951: adcx rbx, rdi
  .shld (.reg .rbx) .r11 (.imm 1#64), -- 1952: shld rbx, r11, 0x1
  .btr .r11 63#64, -- 1953: btr r11, 63
  .mov (.reg .rdx) (.imm 19#64), -- 1954: mov edx, 0x13
  .imul .rbx (.reg .rdx), -- 1955: imul rbx, rdx
  .add (.reg .r8) (.reg .rbx), -- 1956: add r8, rbx
  .adc (.reg .r9) (.reg .rdi), -- 1957: adc r9, rdi
  .adc (.reg .r10) (.reg .rdi), -- 1958: adc r10, rdi
  .adc (.reg .r11) (.reg .rdi), -- 1959: adc r11, rdi
  .mov (.mem ⟨some .rsp, none, 160#64⟩) (.reg .r8), -- 1960: mov [rsp + (5 * 32)], r8
  .mov (.mem ⟨some .rsp, none, 168#64⟩) (.reg .r9), -- 1961: mov [rsp + (5 * 32)+ 0x8], r9
  .mov (.mem ⟨some .rsp, none, 176#64⟩) (.reg .r10), -- 1962: mov [rsp + (5 * 32)+ 0x10], r10
  .mov (.mem ⟨some .rsp, none, 184#64⟩) (.reg .r11), -- 1963: mov [rsp + (5 * 32)+ 0x18], r11
  .xor (.reg .rcx) (.reg .rcx), -- 1964: xor ecx, ecx
  .mov (.reg .rdx) (.mem ⟨some .rsp, none, 352#64⟩), -- 1965: mov rdx, [rsp + (11 * 32)]
  .mulx .r9 .r8 (.mem ⟨some .rsp, none, 320#64⟩), -- 1966: mulx r9, r8, [rsp + (10 * 32)]
  .mulx .r10 .rax (.mem ⟨some .rsp, none, 328#64⟩), -- 1967: mulx r10, rax, [rsp + (10 * 32)+ 0x8]
  .add (.reg .r9) (.reg .rax), -- 1968: add r9, rax
  .mulx .r11 .rax (.mem ⟨some .rsp, none, 336#64⟩), -- 1969: mulx r11, rax, [rsp + (10 * 32)+ 0x10]
  .adc (.reg .r10) (.reg .rax), -- 1970: adc r10, rax
  .mulx .r12 .rax (.mem ⟨some .rsp, none, 344#64⟩), -- 1971: mulx r12, rax, [rsp + (10 * 32)+ 0x18]
  .adc (.reg .r11) (.reg .rax), -- 1972: adc r11, rax
  .adc (.reg .r12) (.reg .rcx), -- 1973: adc r12, rcx
  .xor (.reg .rcx) (.reg .rcx), -- 1974: xor ecx, ecx
  .mov (.reg .rdx) (.mem ⟨some .rsp, none, 360#64⟩), -- 1975: mov rdx, [rsp + (11 * 32)+ 0x8]
  .mulx .rbx .rax (.mem ⟨some .rsp, none, 320#64⟩), -- 1976: mulx rbx, rax, [rsp + (10 * 32)]
  .adcx .r9 (.reg .rax), -- 1977: adcx r9, rax
  .adox .r10 (.reg .rbx), -- 1978: adox r10, rbx
  .mulx .rbx .rax (.mem ⟨some .rsp, none, 328#64⟩), -- 1979: mulx rbx, rax, [rsp + (10 * 32)+ 0x8]
  .adcx .r10 (.reg .rax), -- 1980: adcx r10, rax
  .adox .r11 (.reg .rbx), -- 1981: adox r11, rbx
  .mulx .rbx .rax (.mem ⟨some .rsp, none, 336#64⟩), -- 1982: mulx rbx, rax, [rsp + (10 * 32)+ 0x10]
  .adcx .r11 (.reg .rax), -- 1983: adcx r11, rax
  .adox .r12 (.reg .rbx), -- 1984: adox r12, rbx
  .mulx .r13 .rax (.mem ⟨some .rsp, none, 344#64⟩), -- 1985: mulx r13, rax, [rsp + (10 * 32)+ 0x18]
  .adcx .r12 (.reg .rax), -- 1986: adcx r12, rax
  .adox .r13 (.reg .rcx), -- 1987: adox r13, rcx
  .adcx .r13 (.reg .rcx), -- 1988: adcx r13, rcx
  .xor (.reg .rcx) (.reg .rcx), -- 1989: xor ecx, ecx
  .mov (.reg .rdx) (.mem ⟨some .rsp, none, 368#64⟩), -- 1990: mov rdx, [rsp + (11 * 32)+ 0x10]
  .mulx .rbx .rax (.mem ⟨some .rsp, none, 320#64⟩), -- 1991: mulx rbx, rax, [rsp + (10 * 32)]
  .adcx .r10 (.reg .rax), -- 1992: adcx r10, rax
  .adox .r11 (.reg .rbx), -- 1993: adox r11, rbx
  .mulx .rbx .rax (.mem ⟨some .rsp, none, 328#64⟩), -- 1994: mulx rbx, rax, [rsp + (10 * 32)+ 0x8]
  .adcx .r11 (.reg .rax), -- 1995: adcx r11, rax
  .adox .r12 (.reg .rbx), -- 1996: adox r12, rbx
  .mulx .rbx .rax (.mem ⟨some .rsp, none, 336#64⟩), -- 1997: mulx rbx, rax, [rsp + (10 * 32)+ 0x10]
  .adcx .r12 (.reg .rax), -- 1998: adcx r12, rax
  .adox .r13 (.reg .rbx), -- 1999: adox r13, rbx
  .mulx .r14 .rax (.mem ⟨some .rsp, none, 344#64⟩), -- 2000: mulx r14, rax, [rsp + (10 * 32)+ 0x18]
  .adcx .r13 (.reg .rax), -- 2001: adcx r13, rax
  .adox .r14 (.reg .rcx), -- 2002: adox r14, rcx
  .adcx .r14 (.reg .rcx), -- 2003: adcx r14, rcx
  .xor (.reg .rcx) (.reg .rcx), -- 2004: xor ecx, ecx
  .mov (.reg .rdx) (.mem ⟨some .rsp, none, 376#64⟩), -- 2005: mov rdx, [rsp + (11 * 32)+ 0x18]
  .mulx .rbx .rax (.mem ⟨some .rsp, none, 320#64⟩), -- 2006: mulx rbx, rax, [rsp + (10 * 32)]
  .adcx .r11 (.reg .rax), -- 2007: adcx r11, rax
  .adox .r12 (.reg .rbx), -- 2008: adox r12, rbx
  .mulx .rbx .rax (.mem ⟨some .rsp, none, 328#64⟩), -- 2009: mulx rbx, rax, [rsp + (10 * 32)+ 0x8]
  .adcx .r12 (.reg .rax), -- 2010: adcx r12, rax
  .adox .r13 (.reg .rbx), -- 2011: adox r13, rbx
  .mulx .rbx .rax (.mem ⟨some .rsp, none, 336#64⟩), -- 2012: mulx rbx, rax, [rsp + (10 * 32)+ 0x10]
  .adcx .r13 (.reg .rax), -- 2013: adcx r13, rax
  .adox .r14 (.reg .rbx), -- 2014: adox r14, rbx
  .mulx .r15 .rax (.mem ⟨some .rsp, none, 344#64⟩), -- 2015: mulx r15, rax, [rsp + (10 * 32)+ 0x18]
  .adcx .r14 (.reg .rax), -- 2016: adcx r14, rax
  .adox .r15 (.reg .rcx), -- 2017: adox r15, rcx
  .adcx .r15 (.reg .rcx), -- 2018: adcx r15, rcx
  .mov (.reg .rdx) (.imm 38#64), -- 2019: mov edx, 0x26
  .xor (.reg .rcx) (.reg .rcx), -- 2020: xor ecx, ecx
  .mulx .rbx .rax (.reg .r12), -- 2021: mulx rbx, rax, r12
  .adcx .r8 (.reg .rax), -- 2022: adcx r8, rax
  .adox .r9 (.reg .rbx), -- 2023: adox r9, rbx
  .mulx .rbx .rax (.reg .r13), -- 2024: mulx rbx, rax, r13
  .adcx .r9 (.reg .rax), -- 2025: adcx r9, rax
  .adox .r10 (.reg .rbx), -- 2026: adox r10, rbx
  .mulx .rbx .rax (.reg .r14), -- 2027: mulx rbx, rax, r14
  .adcx .r10 (.reg .rax), -- 2028: adcx r10, rax
  .adox .r11 (.reg .rbx), -- 2029: adox r11, rbx
  .mulx .r12 .rax (.reg .r15), -- 2030: mulx r12, rax, r15
  .adcx .r11 (.reg .rax), -- 2031: adcx r11, rax
  .adox .r12 (.reg .rcx), -- 2032: adox r12, rcx
  .adcx .r12 (.reg .rcx), -- 2033: adcx r12, rcx
  .shld (.reg .r12) .r11 (.imm 1#64), -- 2034: shld r12, r11, 0x1
  .btr .r11 63#64, -- 2035: btr r11, 0x3f
  .mov (.reg .rdx) (.imm 19#64), -- 2036: mov edx, 0x13
  .imul .rdx (.reg .r12), -- 2037: imul rdx, r12
  .add (.reg .r8) (.reg .rdx), -- 2038: add r8, rdx
  .adc (.reg .r9) (.reg .rcx), -- 2039: adc r9, rcx
  .adc (.reg .r10) (.reg .rcx), -- 2040: adc r10, rcx
  .adc (.reg .r11) (.reg .rcx), -- 2041: adc r11, rcx
  .mov (.mem ⟨some .rsp, none, 320#64⟩) (.reg .r8), -- 2042: mov [rsp + (10 * 32)], r8
  .mov (.mem ⟨some .rsp, none, 328#64⟩) (.reg .r9), -- 2043: mov [rsp + (10 * 32)+ 0x8], r9
  .mov (.mem ⟨some .rsp, none, 336#64⟩) (.reg .r10), -- 2044: mov [rsp + (10 * 32)+ 0x10], r10
  .mov (.mem ⟨some .rsp, none, 344#64⟩) (.reg .r11), -- 2045: mov [rsp + (10 * 32)+ 0x18], r11
  .xor (.reg .rcx) (.reg .rcx), -- 2046: xor ecx, ecx
  .mov (.reg .rdx) (.mem ⟨some .rsp, none, 160#64⟩), -- 2047: mov rdx, [rsp + (5 * 32)]
  .mulx .r9 .r8 (.mem ⟨some .rsp, none, 192#64⟩), -- 2048: mulx r9, r8, [rsp + (6 * 32)]
  .mulx .r10 .rax (.mem ⟨some .rsp, none, 200#64⟩), -- 2049: mulx r10, rax, [rsp + (6 * 32)+ 0x8]
  .add (.reg .r9) (.reg .rax), -- 2050: add r9, rax
  .mulx .r11 .rax (.mem ⟨some .rsp, none, 208#64⟩), -- 2051: mulx r11, rax, [rsp + (6 * 32)+ 0x10]
  .adc (.reg .r10) (.reg .rax), -- 2052: adc r10, rax
  .mulx .r12 .rax (.mem ⟨some .rsp, none, 216#64⟩), -- 2053: mulx r12, rax, [rsp + (6 * 32)+ 0x18]
  .adc (.reg .r11) (.reg .rax), -- 2054: adc r11, rax
  .adc (.reg .r12) (.reg .rcx), -- 2055: adc r12, rcx
  .xor (.reg .rcx) (.reg .rcx), -- 2056: xor ecx, ecx
  .mov (.reg .rdx) (.mem ⟨some .rsp, none, 168#64⟩), -- 2057: mov rdx, [rsp + (5 * 32)+ 0x8]
  .mulx .rbx .rax (.mem ⟨some .rsp, none, 192#64⟩), -- 2058: mulx rbx, rax, [rsp + (6 * 32)]
  .adcx .r9 (.reg .rax), -- 2059: adcx r9, rax
  .adox .r10 (.reg .rbx), -- 2060: adox r10, rbx
  .mulx .rbx .rax (.mem ⟨some .rsp, none, 200#64⟩), -- 2061: mulx rbx, rax, [rsp + (6 * 32)+ 0x8]
  .adcx .r10 (.reg .rax), -- 2062: adcx r10, rax
  .adox .r11 (.reg .rbx), -- 2063: adox r11, rbx
  .mulx .rbx .rax (.mem ⟨some .rsp, none, 208#64⟩), -- 2064: mulx rbx, rax, [rsp + (6 * 32)+ 0x10]
  .adcx .r11 (.reg .rax), -- 2065: adcx r11, rax
  .adox .r12 (.reg .rbx), -- 2066: adox r12, rbx
  .mulx .r13 .rax (.mem ⟨some .rsp, none, 216#64⟩), -- 2067: mulx r13, rax, [rsp + (6 * 32)+ 0x18]
  .adcx .r12 (.reg .rax), -- 2068: adcx r12, rax
  .adox .r13 (.reg .rcx), -- 2069: adox r13, rcx
  .adcx .r13 (.reg .rcx), -- 2070: adcx r13, rcx
  .xor (.reg .rcx) (.reg .rcx), -- 2071: xor ecx, ecx
  .mov (.reg .rdx) (.mem ⟨some .rsp, none, 176#64⟩), -- 2072: mov rdx, [rsp + (5 * 32)+ 0x10]
  .mulx .rbx .rax (.mem ⟨some .rsp, none, 192#64⟩), -- 2073: mulx rbx, rax, [rsp + (6 * 32)]
  .adcx .r10 (.reg .rax), -- 2074: adcx r10, rax
  .adox .r11 (.reg .rbx), -- 2075: adox r11, rbx
  .mulx .rbx .rax (.mem ⟨some .rsp, none, 200#64⟩), -- 2076: mulx rbx, rax, [rsp + (6 * 32)+ 0x8]
  .adcx .r11 (.reg .rax), -- 2077: adcx r11, rax
  .adox .r12 (.reg .rbx), -- 2078: adox r12, rbx
  .mulx .rbx .rax (.mem ⟨some .rsp, none, 208#64⟩), -- 2079: mulx rbx, rax, [rsp + (6 * 32)+ 0x10]
  .adcx .r12 (.reg .rax), -- 2080: adcx r12, rax
  .adox .r13 (.reg .rbx), -- 2081: adox r13, rbx
  .mulx .r14 .rax (.mem ⟨some .rsp, none, 216#64⟩), -- 2082: mulx r14, rax, [rsp + (6 * 32)+ 0x18]
  .adcx .r13 (.reg .rax), -- 2083: adcx r13, rax
  .adox .r14 (.reg .rcx), -- 2084: adox r14, rcx
  .adcx .r14 (.reg .rcx), -- 2085: adcx r14, rcx
  .xor (.reg .rcx) (.reg .rcx), -- 2086: xor ecx, ecx
  .mov (.reg .rdx) (.mem ⟨some .rsp, none, 184#64⟩), -- 2087: mov rdx, [rsp + (5 * 32)+ 0x18]
  .mulx .rbx .rax (.mem ⟨some .rsp, none, 192#64⟩), -- 2088: mulx rbx, rax, [rsp + (6 * 32)]
  .adcx .r11 (.reg .rax), -- 2089: adcx r11, rax
  .adox .r12 (.reg .rbx), -- 2090: adox r12, rbx
  .mulx .rbx .rax (.mem ⟨some .rsp, none, 200#64⟩), -- 2091: mulx rbx, rax, [rsp + (6 * 32)+ 0x8]
  .adcx .r12 (.reg .rax), -- 2092: adcx r12, rax
  .adox .r13 (.reg .rbx), -- 2093: adox r13, rbx
  .mulx .rbx .rax (.mem ⟨some .rsp, none, 208#64⟩), -- 2094: mulx rbx, rax, [rsp + (6 * 32)+ 0x10]
  .adcx .r13 (.reg .rax), -- 2095: adcx r13, rax
  .adox .r14 (.reg .rbx), -- 2096: adox r14, rbx
  .mulx .r15 .rax (.mem ⟨some .rsp, none, 216#64⟩), -- 2097: mulx r15, rax, [rsp + (6 * 32)+ 0x18]
  .adcx .r14 (.reg .rax), -- 2098: adcx r14, rax
  .adox .r15 (.reg .rcx), -- 2099: adox r15, rcx
  .adcx .r15 (.reg .rcx), -- 2100: adcx r15, rcx
  .mov (.reg .rdx) (.imm 38#64), -- 2101: mov edx, 0x26
  .xor (.reg .rcx) (.reg .rcx), -- 2102: xor ecx, ecx
  .mulx .rbx .rax (.reg .r12), -- 2103: mulx rbx, rax, r12
  .adcx .r8 (.reg .rax), -- 2104: adcx r8, rax
  .adox .r9 (.reg .rbx), -- 2105: adox r9, rbx
  .mulx .rbx .rax (.reg .r13), -- 2106: mulx rbx, rax, r13
  .adcx .r9 (.reg .rax), -- 2107: adcx r9, rax
  .adox .r10 (.reg .rbx), -- 2108: adox r10, rbx
  .mulx .rbx .rax (.reg .r14), -- 2109: mulx rbx, rax, r14
  .adcx .r10 (.reg .rax), -- 2110: adcx r10, rax
  .adox .r11 (.reg .rbx), -- 2111: adox r11, rbx
  .mulx .r12 .rax (.reg .r15), -- 2112: mulx r12, rax, r15
  .adcx .r11 (.reg .rax), -- 2113: adcx r11, rax
  .adox .r12 (.reg .rcx), -- 2114: adox r12, rcx
  .adcx .r12 (.reg .rcx), -- 2115: adcx r12, rcx
  .shld (.reg .r12) .r11 (.imm 1#64), -- 2116: shld r12, r11, 0x1
  .btr .r11 63#64, -- 2117: btr r11, 0x3f
  .mov (.reg .rdx) (.imm 19#64), -- 2118: mov edx, 0x13
  .imul .rdx (.reg .r12), -- 2119: imul rdx, r12
  .add (.reg .r8) (.reg .rdx), -- 2120: add r8, rdx
  .adc (.reg .r9) (.reg .rcx), -- 2121: adc r9, rcx
  .adc (.reg .r10) (.reg .rcx), -- 2122: adc r10, rcx
  .adc (.reg .r11) (.reg .rcx), -- 2123: adc r11, rcx
  .mov (.mem ⟨some .rsp, none, 224#64⟩) (.reg .r8), -- 2124: mov [rsp + (7 * 32)], r8
  .mov (.mem ⟨some .rsp, none, 232#64⟩) (.reg .r9), -- 2125: mov [rsp + (7 * 32)+ 0x8], r9
  .mov (.mem ⟨some .rsp, none, 240#64⟩) (.reg .r10), -- 2126: mov [rsp + (7 * 32)+ 0x10], r10
  .mov (.mem ⟨some .rsp, none, 248#64⟩) (.reg .r11), -- 2127: mov [rsp + (7 * 32)+ 0x18], r11
  .mov (.reg .r8) (.mem ⟨some .rsp, none, 320#64⟩), -- 2128: mov r8, [rsp + (10 * 32)]
  .xor (.reg .rbx) (.reg .rbx), -- 2129: xor ebx, ebx
  .sub (.reg .r8) (.mem ⟨some .rsp, none, 224#64⟩), -- 2130: sub r8, [rsp + (7 * 32)]
  .mov (.reg .r9) (.mem ⟨some .rsp, none, 328#64⟩), -- 2131: mov r9, [rsp + (10 * 32)+ 8]
  .sbb (.reg .r9) (.mem ⟨some .rsp, none, 232#64⟩), -- 2132: sbb r9, [rsp + (7 * 32)+ 8]
  .mov (.reg .rcx) (.imm 38#64), -- 2133: mov ecx, 38
  .mov (.reg .r10) (.mem ⟨some .rsp, none, 336#64⟩), -- 2134: mov r10, [rsp + (10 * 32)+ 16]
  .sbb (.reg .r10) (.mem ⟨some .rsp, none, 240#64⟩), -- 2135: sbb r10, [rsp + (7 * 32)+ 16]
  .mov (.reg .rax) (.mem ⟨some .rsp, none, 344#64⟩), -- 2136: mov rax, [rsp + (10 * 32)+ 24]
  .sbb (.reg .rax) (.mem ⟨some .rsp, none, 248#64⟩), -- 2137: sbb rax, [rsp + (7 * 32)+ 24]
  .cmov .nc .rcx (.reg .rbx), -- 2138: cmovnc rcx, rbx
  .sub (.reg .r8) (.reg .rcx), -- 2139: sub r8, rcx
  .sbb (.reg .r9) (.reg .rbx), -- 2140: sbb r9, rbx
  .sbb (.reg .r10) (.reg .rbx), -- 2141: sbb r10, rbx
  .sbb (.reg .rax) (.reg .rbx), -- 2142: sbb rax, rbx
  .mov (.mem ⟨some .rsp, none, 352#64⟩) (.reg .r8), -- 2143: mov [rsp + (11 * 32)], r8
  .mov (.mem ⟨some .rsp, none, 360#64⟩) (.reg .r9), -- 2144: mov [rsp + (11 * 32)+ 8], r9
  .mov (.mem ⟨some .rsp, none, 368#64⟩) (.reg .r10), -- 2145: mov [rsp + (11 * 32)+ 16], r10
  .mov (.mem ⟨some .rsp, none, 376#64⟩) (.reg .rax), -- 2146: mov [rsp + (11 * 32)+ 24], rax
  .mov (.reg .r8) (.mem ⟨some .rsp, none, 320#64⟩), -- 2147: mov r8, [rsp + (10 * 32)]
  .xor (.reg .rcx) (.reg .rcx), -- 2148: xor ecx, ecx
  .add (.reg .r8) (.mem ⟨some .rsp, none, 224#64⟩), -- 2149: add r8, [rsp + (7 * 32)]
  .mov (.reg .r9) (.mem ⟨some .rsp, none, 328#64⟩), -- 2150: mov r9, [rsp + (10 * 32)+ 0x8]
  .adc (.reg .r9) (.mem ⟨some .rsp, none, 232#64⟩), -- 2151: adc r9, [rsp + (7 * 32)+ 0x8]
  .mov (.reg .r10) (.mem ⟨some .rsp, none, 336#64⟩), -- 2152: mov r10, [rsp + (10 * 32)+ 0x10]
  .adc (.reg .r10) (.mem ⟨some .rsp, none, 240#64⟩), -- 2153: adc r10, [rsp + (7 * 32)+ 0x10]
  .mov (.reg .r11) (.mem ⟨some .rsp, none, 344#64⟩), -- 2154: mov r11, [rsp + (10 * 32)+ 0x18]
  .adc (.reg .r11) (.mem ⟨some .rsp, none, 248#64⟩), -- 2155: adc r11, [rsp + (7 * 32)+ 0x18]
  .mov (.reg .rax) (.imm 38#64), -- 2156: mov eax, 38
  .cmov .nc .rax (.reg .rcx), -- 2157: cmovnc rax, rcx
  .add (.reg .r8) (.reg .rax), -- 2158: add r8, rax
  .adc (.reg .r9) (.reg .rcx), -- 2159: adc r9, rcx
  .adc (.reg .r10) (.reg .rcx), -- 2160: adc r10, rcx
  .adc (.reg .r11) (.reg .rcx), -- 2161: adc r11, rcx
  .mov (.mem ⟨some .rsp, none, 320#64⟩) (.reg .r8), -- 2162: mov [rsp + (10 * 32)], r8
  .mov (.mem ⟨some .rsp, none, 328#64⟩) (.reg .r9), -- 2163: mov [rsp + (10 * 32)+ 0x8], r9
  .mov (.mem ⟨some .rsp, none, 336#64⟩) (.reg .r10), -- 2164: mov [rsp + (10 * 32)+ 0x10], r10
  .mov (.mem ⟨some .rsp, none, 344#64⟩) (.reg .r11), -- 2165: mov [rsp + (10 * 32)+ 0x18], r11
  .mov (.reg .rdx) (.mem ⟨some .rsp, none, 352#64⟩), -- 2166: mov rdx, [rsp + (11 * 32)]
  .mulx .r15 .r8 (.reg .rdx), -- 2167: mulx r15, r8, rdx
  .mulx .r10 .r9 (.mem ⟨some .rsp, none, 360#64⟩), -- 2168: mulx r10, r9, [rsp + (11 * 32)+ 0x8]
  .mulx .r12 .r11 (.mem ⟨some .rsp, none, 376#64⟩), -- 2169: mulx r12, r11, [rsp + (11 * 32)+ 0x18]
  .mov (.reg .rdx) (.mem ⟨some .rsp, none, 368#64⟩), -- 2170: mov rdx, [rsp + (11 * 32)+ 0x10]
  .mulx .r14 .r13 (.mem ⟨some .rsp, none, 376#64⟩), -- 2171: mulx r14, r13, [rsp + (11 * 32)+ 0x18]
  .xor (.reg .rbx) (.reg .rbx), -- 2172: xor ebx, ebx
  .mulx .rcx .rax (.mem ⟨some .rsp, none, 352#64⟩), -- 2173: mulx rcx, rax, [rsp + (11 * 32)]
  .adcx .r10 (.reg .rax), -- 2174: adcx r10, rax
  .adox .r11 (.reg .rcx), -- 2175: adox r11, rcx
  .mulx .rcx .rax (.mem ⟨some .rsp, none, 360#64⟩), -- 2176: mulx rcx, rax, [rsp + (11 * 32)+ 0x8]
  .adcx .r11 (.reg .rax), -- 2177: adcx r11, rax
  .adox .r12 (.reg .rcx), -- 2178: adox r12, rcx
  .mov (.reg .rdx) (.mem ⟨some .rsp, none, 376#64⟩), -- 2179: mov rdx, [rsp + (11 * 32)+ 0x18]
  .mulx .rcx .rax (.mem ⟨some .rsp, none, 360#64⟩), -- 2180: mulx rcx, rax, [rsp + (11 * 32)+ 0x8]
  .adcx .r12 (.reg .rax), -- 2181: adcx r12, rax
  .adox .r13 (.reg .rcx), -- 2182: adox r13, rcx
  .adcx .r13 (.reg .rbx), -- 2183: adcx r13, rbx
  .adox .r14 (.reg .rbx), -- 2184: adox r14, rbx
  .adc (.reg .r14) (.reg .rbx), -- 2185: adc r14, rbx
  .xor (.reg .rbx) (.reg .rbx), -- 2186: xor ebx, ebx
  .adcx .r9 (.reg .r9), -- 2187: adcx r9, r9
  .adox .r9 (.reg .r15), -- 2188: adox r9, r15
  .mov (.reg .rdx) (.mem ⟨some .rsp, none, 360#64⟩), -- 2189: mov rdx, [rsp + (11 * 32)+ 0x8]
  .mulx .rdx .rax (.reg .rdx), -- 2190: mulx rdx, rax, rdx
  .adcx .r10 (.reg .r10), -- 2191: adcx r10, r10
  .adox .r10 (.reg .rax), -- 2192: adox r10, rax
  .adcx .r11 (.reg .r11), -- 2193: adcx r11, r11
  .adox .r11 (.reg .rdx), -- 2194: adox r11, rdx
  .mov (.reg .rdx) (.mem ⟨some .rsp, none, 368#64⟩), -- 2195: mov rdx, [rsp + (11 * 32)+ 0x10]
  .mulx .rdx .rax (.reg .rdx), -- 2196: mulx rdx, rax, rdx
  .adcx .r12 (.reg .r12), -- 2197: adcx r12, r12
  .adox .r12 (.reg .rax), -- 2198: adox r12, rax
  .adcx .r13 (.reg .r13), -- 2199: adcx r13, r13
  .adox .r13 (.reg .rdx), -- 2200: adox r13, rdx
  .mov (.reg .rdx) (.mem ⟨some .rsp, none, 376#64⟩), -- 2201: mov rdx, [rsp + (11 * 32)+ 0x18]
  .mulx .r15 .rax (.reg .rdx), -- 2202: mulx r15, rax, rdx
  .adcx .r14 (.reg .r14), -- 2203: adcx r14, r14
  .adox .r14 (.reg .rax), -- 2204: adox r14, rax
  .adcx .r15 (.reg .rbx), -- 2205: adcx r15, rbx
  .adox .r15 (.reg .rbx), -- 2206: adox r15, rbx
  .mov (.reg .rdx) (.imm 38#64), -- 2207: mov edx, 0x26
  .xor (.reg .rbx) (.reg .rbx), -- 2208: xor ebx, ebx
  .mulx .rcx .rax (.reg .r12), -- 2209: mulx rcx, rax, r12
  .adcx .r8 (.reg .rax), -- 2210: adcx r8, rax
  .adox .r9 (.reg .rcx), -- 2211: adox r9, rcx
  .mulx .rcx .rax (.reg .r13), -- 2212: mulx rcx, rax, r13
  .adcx .r9 (.reg .rax), -- 2213: adcx r9, rax
  .adox .r10 (.reg .rcx), -- 2214: adox r10, rcx
  .mulx .rcx .rax (.reg .r14), -- 2215: mulx rcx, rax, r14
  .adcx .r10 (.reg .rax), -- 2216: adcx r10, rax
  .adox .r11 (.reg .rcx), -- 2217: adox r11, rcx
  .mulx .r12 .rax (.reg .r15), -- 2218: mulx r12, rax, r15
  .adcx .r11 (.reg .rax), -- 2219: adcx r11, rax
  .adox .r12 (.reg .rbx), -- 2220: adox r12, rbx
  .adcx .r12 (.reg .rbx), -- 2221: adcx r12, rbx
  .shld (.reg .r12) .r11 (.imm 1#64), -- 2222: shld r12, r11, 0x1
  .btr .r11 63#64, -- 2223: btr r11, 0x3f
  .mov (.reg .rdx) (.imm 19#64), -- 2224: mov edx, 0x13
  .imul .rdx (.reg .r12), -- 2225: imul rdx, r12
  .add (.reg .r8) (.reg .rdx), -- 2226: add r8, rdx
  .adc (.reg .r9) (.reg .rbx), -- 2227: adc r9, rbx
  .adc (.reg .r10) (.reg .rbx), -- 2228: adc r10, rbx
  .adc (.reg .r11) (.reg .rbx), -- 2229: adc r11, rbx
  .mov (.mem ⟨some .rsp, none, 352#64⟩) (.reg .r8), -- 2230: mov [rsp + (11 * 32)], r8
  .mov (.mem ⟨some .rsp, none, 360#64⟩) (.reg .r9), -- 2231: mov [rsp + (11 * 32)+ 0x8], r9
  .mov (.mem ⟨some .rsp, none, 368#64⟩) (.reg .r10), -- 2232: mov [rsp + (11 * 32)+ 0x10], r10
  .mov (.mem ⟨some .rsp, none, 376#64⟩) (.reg .r11), -- 2233: mov [rsp + (11 * 32)+ 0x18], r11
  .mov (.reg .rdx) (.mem ⟨some .rsp, none, 320#64⟩), -- 2234: mov rdx, [rsp + (10 * 32)]
  .mulx .r15 .r8 (.reg .rdx), -- 2235: mulx r15, r8, rdx
  .mulx .r10 .r9 (.mem ⟨some .rsp, none, 328#64⟩), -- 2236: mulx r10, r9, [rsp + (10 * 32)+ 0x8]
  .mulx .r12 .r11 (.mem ⟨some .rsp, none, 344#64⟩), -- 2237: mulx r12, r11, [rsp + (10 * 32)+ 0x18]
  .mov (.reg .rdx) (.mem ⟨some .rsp, none, 336#64⟩), -- 2238: mov rdx, [rsp + (10 * 32)+ 0x10]
  .mulx .r14 .r13 (.mem ⟨some .rsp, none, 344#64⟩), -- 2239: mulx r14, r13, [rsp + (10 * 32)+ 0x18]
  .xor (.reg .rbx) (.reg .rbx), -- 2240: xor ebx, ebx
  .mulx .rcx .rax (.mem ⟨some .rsp, none, 320#64⟩), -- 2241: mulx rcx, rax, [rsp + (10 * 32)]
  .adcx .r10 (.reg .rax), -- 2242: adcx r10, rax
  .adox .r11 (.reg .rcx), -- 2243: adox r11, rcx
  .mulx .rcx .rax (.mem ⟨some .rsp, none, 328#64⟩), -- 2244: mulx rcx, rax, [rsp + (10 * 32)+ 0x8]
  .adcx .r11 (.reg .rax), -- 2245: adcx r11, rax
  .adox .r12 (.reg .rcx), -- 2246: adox r12, rcx
  .mov (.reg .rdx) (.mem ⟨some .rsp, none, 344#64⟩), -- 2247: mov rdx, [rsp + (10 * 32)+ 0x18]
  .mulx .rcx .rax (.mem ⟨some .rsp, none, 328#64⟩), -- 2248: mulx rcx, rax, [rsp + (10 * 32)+ 0x8]
  .adcx .r12 (.reg .rax), -- 2249: adcx r12, rax
  .adox .r13 (.reg .rcx), -- 2250: adox r13, rcx
  .adcx .r13 (.reg .rbx), -- 2251: adcx r13, rbx
  .adox .r14 (.reg .rbx), -- 2252: adox r14, rbx
  .adc (.reg .r14) (.reg .rbx), -- 2253: adc r14, rbx
  .xor (.reg .rbx) (.reg .rbx), -- 2254: xor ebx, ebx
  .adcx .r9 (.reg .r9), -- 2255: adcx r9, r9
  .adox .r9 (.reg .r15), -- 2256: adox r9, r15
  .mov (.reg .rdx) (.mem ⟨some .rsp, none, 328#64⟩), -- 2257: mov rdx, [rsp + (10 * 32)+ 0x8]
  .mulx .rdx .rax (.reg .rdx), -- 2258: mulx rdx, rax, rdx
  .adcx .r10 (.reg .r10), -- 2259: adcx r10, r10
  .adox .r10 (.reg .rax), -- 2260: adox r10, rax
  .adcx .r11 (.reg .r11), -- 2261: adcx r11, r11
  .adox .r11 (.reg .rdx), -- 2262: adox r11, rdx
  .mov (.reg .rdx) (.mem ⟨some .rsp, none, 336#64⟩), -- 2263: mov rdx, [rsp + (10 * 32)+ 0x10]
  .mulx .rdx .rax (.reg .rdx), -- 2264: mulx rdx, rax, rdx
  .adcx .r12 (.reg .r12), -- 2265: adcx r12, r12
  .adox .r12 (.reg .rax), -- 2266: adox r12, rax
  .adcx .r13 (.reg .r13), -- 2267: adcx r13, r13
  .adox .r13 (.reg .rdx), -- 2268: adox r13, rdx
  .mov (.reg .rdx) (.mem ⟨some .rsp, none, 344#64⟩), -- 2269: mov rdx, [rsp + (10 * 32)+ 0x18]
  .mulx .r15 .rax (.reg .rdx), -- 2270: mulx r15, rax, rdx
  .adcx .r14 (.reg .r14), -- 2271: adcx r14, r14
  .adox .r14 (.reg .rax), -- 2272: adox r14, rax
  .adcx .r15 (.reg .rbx), -- 2273: adcx r15, rbx
  .adox .r15 (.reg .rbx), -- 2274: adox r15, rbx
  .mov (.reg .rdx) (.imm 38#64), -- 2275: mov edx, 0x26
  .xor (.reg .rbx) (.reg .rbx), -- 2276: xor ebx, ebx
  .mulx .rcx .rax (.reg .r12), -- 2277: mulx rcx, rax, r12
  .adcx .r8 (.reg .rax), -- 2278: adcx r8, rax
  .adox .r9 (.reg .rcx), -- 2279: adox r9, rcx
  .mulx .rcx .rax (.reg .r13), -- 2280: mulx rcx, rax, r13
  .adcx .r9 (.reg .rax), -- 2281: adcx r9, rax
  .adox .r10 (.reg .rcx), -- 2282: adox r10, rcx
  .mulx .rcx .rax (.reg .r14), -- 2283: mulx rcx, rax, r14
  .adcx .r10 (.reg .rax), -- 2284: adcx r10, rax
  .adox .r11 (.reg .rcx), -- 2285: adox r11, rcx
  .mulx .r12 .rax (.reg .r15), -- 2286: mulx r12, rax, r15
  .adcx .r11 (.reg .rax), -- 2287: adcx r11, rax
  .adox .r12 (.reg .rbx), -- 2288: adox r12, rbx
  .adcx .r12 (.reg .rbx), -- 2289: adcx r12, rbx
  .shld (.reg .r12) .r11 (.imm 1#64), -- 2290: shld r12, r11, 0x1
  .btr .r11 63#64, -- 2291: btr r11, 0x3f
  .mov (.reg .rdx) (.imm 19#64), -- 2292: mov edx, 0x13
  .imul .rdx (.reg .r12), -- 2293: imul rdx, r12
  .add (.reg .r8) (.reg .rdx), -- 2294: add r8, rdx
  .adc (.reg .r9) (.reg .rbx), -- 2295: adc r9, rbx
  .adc (.reg .r10) (.reg .rbx), -- 2296: adc r10, rbx
  .adc (.reg .r11) (.reg .rbx), -- 2297: adc r11, rbx
  .mov (.mem ⟨some .rsp, none, 320#64⟩) (.reg .r8), -- 2298: mov [rsp + (10 * 32)], r8
  .mov (.mem ⟨some .rsp, none, 328#64⟩) (.reg .r9), -- 2299: mov [rsp + (10 * 32)+ 0x8], r9
  .mov (.mem ⟨some .rsp, none, 336#64⟩) (.reg .r10), -- 2300: mov [rsp + (10 * 32)+ 0x10], r10
  .mov (.mem ⟨some .rsp, none, 344#64⟩) (.reg .r11), -- 2301: mov [rsp + (10 * 32)+ 0x18], r11
  .mov (.reg .r8) (.mem ⟨some .rsp, none, 320#64⟩), -- 2302: mov r8, [rsp + (10 * 32)]
  .xor (.reg .rbx) (.reg .rbx), -- 2303: xor ebx, ebx
  .sub (.reg .r8) (.mem ⟨some .rsp, none, 352#64⟩), -- 2304: sub r8, [rsp + (11 * 32)]
  .mov (.reg .r9) (.mem ⟨some .rsp, none, 328#64⟩), -- 2305: mov r9, [rsp + (10 * 32)+ 8]
  .sbb (.reg .r9) (.mem ⟨some .rsp, none, 360#64⟩), -- 2306: sbb r9, [rsp + (11 * 32)+ 8]
  .mov (.reg .rcx) (.imm 38#64), -- 2307: mov ecx, 38
  .mov (.reg .r10) (.mem ⟨some .rsp, none, 336#64⟩), -- 2308: mov r10, [rsp + (10 * 32)+ 16]
  .sbb (.reg .r10) (.mem ⟨some .rsp, none, 368#64⟩), -- 2309: sbb r10, [rsp + (11 * 32)+ 16]
  .mov (.reg .rax) (.mem ⟨some .rsp, none, 344#64⟩), -- 2310: mov rax, [rsp + (10 * 32)+ 24]
  .sbb (.reg .rax) (.mem ⟨some .rsp, none, 376#64⟩), -- 2311: sbb rax, [rsp + (11 * 32)+ 24]
  .cmov .nc .rcx (.reg .rbx), -- 2312: cmovnc rcx, rbx
  .sub (.reg .r8) (.reg .rcx), -- 2313: sub r8, rcx
  .sbb (.reg .r9) (.reg .rbx), -- 2314: sbb r9, rbx
  .sbb (.reg .r10) (.reg .rbx), -- 2315: sbb r10, rbx
  .sbb (.reg .rax) (.reg .rbx), -- 2316: sbb rax, rbx
  .mov (.mem ⟨some .rsp, none, 192#64⟩) (.reg .r8), -- 2317: mov [rsp + (6 * 32)], r8
  .mov (.mem ⟨some .rsp, none, 200#64⟩) (.reg .r9), -- 2318: mov [rsp + (6 * 32)+ 8], r9
  .mov (.mem ⟨some .rsp, none, 208#64⟩) (.reg .r10), -- 2319: mov [rsp + (6 * 32)+ 16], r10
  .mov (.mem ⟨some .rsp, none, 216#64⟩) (.reg .rax), -- 2320: mov [rsp + (6 * 32)+ 24], rax
  .mov (.reg .r8) (.mem ⟨some .rsp, none, 352#64⟩), -- 2321: mov r8, [rsp + (11 * 32)]
  .mov (.reg .r9) (.mem ⟨some .rsp, none, 360#64⟩), -- 2322: mov r9, [rsp + (11 * 32)+ 8]
  .mov (.reg .r10) (.mem ⟨some .rsp, none, 368#64⟩), -- 2323: mov r10, [rsp + (11 * 32)+ 16]
  .mov (.reg .r11) (.mem ⟨some .rsp, none, 376#64⟩), -- 2324: mov r11, [rsp + (11 * 32)+ 24]
  .xor (.reg .rdi) (.reg .rdi), -- 2325: xor edi, edi
  .mov (.reg .rdx) (.imm 0x1db42#64), -- 2326: mov rdx, 0x1db42
  .mulx .rbx .rax (.mem ⟨some .rsp, none, 192#64⟩), -- 2327: mulx rbx, rax, [rsp + (6 * 32)]
  .adcx .r8 (.reg .rax), -- 2328: adcx r8, rax
  .adox .r9 (.reg .rbx), -- 2329: adox r9, rbx
  .mulx .rbx .rax (.mem ⟨some .rsp, none, 200#64⟩), -- 2330: mulx rbx, rax, [rsp + (6 * 32)+ 8]
  .adcx .r9 (.reg .rax), -- 2331: adcx r9, rax
  .adox .r10 (.reg .rbx), -- 2332: adox r10, rbx
  .mulx .rbx .rax (.mem ⟨some .rsp, none, 208#64⟩), -- 2333: mulx rbx, rax, [rsp + (6 * 32)+ 16]
  .adcx .r10 (.reg .rax), -- 2334: adcx r10, rax
  .adox .r11 (.reg .rbx), -- 2335: adox r11, rbx
  .mulx .rbx .rax (.mem ⟨some .rsp, none, 216#64⟩), -- 2336: mulx rbx, rax, [rsp + (6 * 32)+ 24]
  .adcx .r11 (.reg .rax), -- 2337: adcx r11, rax
  .adox .rbx (.reg .rdi), -- 2338: adox rbx, rdi
  .adcx .rbx (.reg .rdi), -- 2339: adcx rbx, rdi
  .shld (.reg .rbx) .r11 (.imm 1#64), -- 2340: shld rbx, r11, 0x1
  .btr .r11 63#64, -- 2341: btr r11, 63
  .mov (.reg .rdx) (.imm 19#64), -- 2342: mov edx, 0x13
  .imul .rbx (.reg .rdx), -- 2343: imul rbx, rdx
  .add (.reg .r8) (.reg .rbx), -- 2344: add r8, rbx
  .adc (.reg .r9) (.reg .rdi), -- 2345: adc r9, rdi
  .adc (.reg .r10) (.reg .rdi), -- 2346: adc r10, rdi
  .adc (.reg .r11) (.reg .rdi), -- 2347: adc r11, rdi
  .mov (.mem ⟨some .rsp, none, 160#64⟩) (.reg .r8), -- 2348: mov [rsp + (5 * 32)], r8
  .mov (.mem ⟨some .rsp, none, 168#64⟩) (.reg .r9), -- 2349: mov [rsp + (5 * 32)+ 0x8], r9
  .mov (.mem ⟨some .rsp, none, 176#64⟩) (.reg .r10), -- 2350: mov [rsp + (5 * 32)+ 0x10], r10
  .mov (.mem ⟨some .rsp, none, 184#64⟩) (.reg .r11), -- 2351: mov [rsp + (5 * 32)+ 0x18], r11
  .xor (.reg .rcx) (.reg .rcx), -- 2352: xor ecx, ecx
  .mov (.reg .rdx) (.mem ⟨some .rsp, none, 352#64⟩), -- 2353: mov rdx, [rsp + (11 * 32)]
  .mulx .r9 .r8 (.mem ⟨some .rsp, none, 320#64⟩), -- 2354: mulx r9, r8, [rsp + (10 * 32)]
  .mulx .r10 .rax (.mem ⟨some .rsp, none, 328#64⟩), -- 2355: mulx r10, rax, [rsp + (10 * 32)+ 0x8]
  .add (.reg .r9) (.reg .rax), -- 2356: add r9, rax
  .mulx .r11 .rax (.mem ⟨some .rsp, none, 336#64⟩), -- 2357: mulx r11, rax, [rsp + (10 * 32)+ 0x10]
  .adc (.reg .r10) (.reg .rax), -- 2358: adc r10, rax
  .mulx .r12 .rax (.mem ⟨some .rsp, none, 344#64⟩), -- 2359: mulx r12, rax, [rsp + (10 * 32)+ 0x18]
  .adc (.reg .r11) (.reg .rax), -- 2360: adc r11, rax
  .adc (.reg .r12) (.reg .rcx), -- 2361: adc r12, rcx
  .xor (.reg .rcx) (.reg .rcx), -- 2362: xor ecx, ecx
  .mov (.reg .rdx) (.mem ⟨some .rsp, none, 360#64⟩), -- 2363: mov rdx, [rsp + (11 * 32)+ 0x8]
  .mulx .rbx .rax (.mem ⟨some .rsp, none, 320#64⟩), -- 2364: mulx rbx, rax, [rsp + (10 * 32)]
  .adcx .r9 (.reg .rax), -- 2365: adcx r9, rax
  .adox .r10 (.reg .rbx), -- 2366: adox r10, rbx
  .mulx .rbx .rax (.mem ⟨some .rsp, none, 328#64⟩), -- 2367: mulx rbx, rax, [rsp + (10 * 32)+ 0x8]
  .adcx .r10 (.reg .rax), -- 2368: adcx r10, rax
  .adox .r11 (.reg .rbx), -- 2369: adox r11, rbx
  .mulx .rbx .rax (.mem ⟨some .rsp, none, 336#64⟩), -- 2370: mulx rbx, rax, [rsp + (10 * 32)+ 0x10]
  .adcx .r11 (.reg .rax), -- 2371: adcx r11, rax
  .adox .r12 (.reg .rbx), -- 2372: adox r12, rbx
  .mulx .r13 .rax (.mem ⟨some .rsp, none, 344#64⟩), -- 2373: mulx r13, rax, [rsp + (10 * 32)+ 0x18]
  .adcx .r12 (.reg .rax), -- 2374: adcx r12, rax
  .adox .r13 (.reg .rcx), -- 2375: adox r13, rcx
  .adcx .r13 (.reg .rcx), -- 2376: adcx r13, rcx
  .xor (.reg .rcx) (.reg .rcx), -- 2377: xor ecx, ecx
  .mov (.reg .rdx) (.mem ⟨some .rsp, none, 368#64⟩), -- 2378: mov rdx, [rsp + (11 * 32)+ 0x10]
  .mulx .rbx .rax (.mem ⟨some .rsp, none, 320#64⟩), -- 2379: mulx rbx, rax, [rsp + (10 * 32)]
  .adcx .r10 (.reg .rax), -- 2380: adcx r10, rax
  .adox .r11 (.reg .rbx), -- 2381: adox r11, rbx
  .mulx .rbx .rax (.mem ⟨some .rsp, none, 328#64⟩), -- 2382: mulx rbx, rax, [rsp + (10 * 32)+ 0x8]
  .adcx .r11 (.reg .rax), -- 2383: adcx r11, rax
  .adox .r12 (.reg .rbx), -- 2384: adox r12, rbx
  .mulx .rbx .rax (.mem ⟨some .rsp, none, 336#64⟩), -- 2385: mulx rbx, rax, [rsp + (10 * 32)+ 0x10]
  .adcx .r12 (.reg .rax), -- 2386: adcx r12, rax
  .adox .r13 (.reg .rbx), -- 2387: adox r13, rbx
  .mulx .r14 .rax (.mem ⟨some .rsp, none, 344#64⟩), -- 2388: mulx r14, rax, [rsp + (10 * 32)+ 0x18]
  .adcx .r13 (.reg .rax), -- 2389: adcx r13, rax
  .adox .r14 (.reg .rcx), -- 2390: adox r14, rcx
  .adcx .r14 (.reg .rcx), -- 2391: adcx r14, rcx
  .xor (.reg .rcx) (.reg .rcx), -- 2392: xor ecx, ecx
  .mov (.reg .rdx) (.mem ⟨some .rsp, none, 376#64⟩), -- 2393: mov rdx, [rsp + (11 * 32)+ 0x18]
  .mulx .rbx .rax (.mem ⟨some .rsp, none, 320#64⟩), -- 2394: mulx rbx, rax, [rsp + (10 * 32)]
  .adcx .r11 (.reg .rax), -- 2395: adcx r11, rax
  .adox .r12 (.reg .rbx), -- 2396: adox r12, rbx
  .mulx .rbx .rax (.mem ⟨some .rsp, none, 328#64⟩), -- 2397: mulx rbx, rax, [rsp + (10 * 32)+ 0x8]
  .adcx .r12 (.reg .rax), -- 2398: adcx r12, rax
  .adox .r13 (.reg .rbx), -- 2399: adox r13, rbx
  .mulx .rbx .rax (.mem ⟨some .rsp, none, 336#64⟩), -- 2400: mulx rbx, rax, [rsp + (10 * 32)+ 0x10]
  .adcx .r13 (.reg .rax), -- 2401: adcx r13, rax
  .adox .r14 (.reg .rbx), -- 2402: adox r14, rbx
  .mulx .r15 .rax (.mem ⟨some .rsp, none, 344#64⟩), -- 2403: mulx r15, rax, [rsp + (10 * 32)+ 0x18]
  .adcx .r14 (.reg .rax), -- 2404: adcx r14, rax
  .adox .r15 (.reg .rcx), -- 2405: adox r15, rcx
  .adcx .r15 (.reg .rcx), -- 2406: adcx r15, rcx
  .mov (.reg .rdx) (.imm 38#64), -- 2407: mov edx, 0x26
  .xor (.reg .rcx) (.reg .rcx), -- 2408: xor ecx, ecx
  .mulx .rbx .rax (.reg .r12), -- 2409: mulx rbx, rax, r12
  .adcx .r8 (.reg .rax), -- 2410: adcx r8, rax
  .adox .r9 (.reg .rbx), -- 2411: adox r9, rbx
  .mulx .rbx .rax (.reg .r13), -- 2412: mulx rbx, rax, r13
  .adcx .r9 (.reg .rax), -- 2413: adcx r9, rax
  .adox .r10 (.reg .rbx), -- 2414: adox r10, rbx
  .mulx .rbx .rax (.reg .r14), -- 2415: mulx rbx, rax, r14
  .adcx .r10 (.reg .rax), -- 2416: adcx r10, rax
  .adox .r11 (.reg .rbx), -- 2417: adox r11, rbx
  .mulx .r12 .rax (.reg .r15), -- 2418: mulx r12, rax, r15
  .adcx .r11 (.reg .rax), -- 2419: adcx r11, rax
  .adox .r12 (.reg .rcx), -- 2420: adox r12, rcx
  .adcx .r12 (.reg .rcx), -- 2421: adcx r12, rcx
  .shld (.reg .r12) .r11 (.imm 1#64), -- 2422: shld r12, r11, 0x1
  .btr .r11 63#64, -- 2423: btr r11, 0x3f
  .mov (.reg .rdx) (.imm 19#64), -- 2424: mov edx, 0x13
  .imul .rdx (.reg .r12), -- 2425: imul rdx, r12
  .add (.reg .r8) (.reg .rdx), -- 2426: add r8, rdx
  .adc (.reg .r9) (.reg .rcx), -- 2427: adc r9, rcx
  .adc (.reg .r10) (.reg .rcx), -- 2428: adc r10, rcx
  .adc (.reg .r11) (.reg .rcx), -- 2429: adc r11, rcx
  .mov (.mem ⟨some .rsp, none, 320#64⟩) (.reg .r8), -- 2430: mov [rsp + (10 * 32)], r8
  .mov (.mem ⟨some .rsp, none, 328#64⟩) (.reg .r9), -- 2431: mov [rsp + (10 * 32)+ 0x8], r9
  .mov (.mem ⟨some .rsp, none, 336#64⟩) (.reg .r10), -- 2432: mov [rsp + (10 * 32)+ 0x10], r10
  .mov (.mem ⟨some .rsp, none, 344#64⟩) (.reg .r11), -- 2433: mov [rsp + (10 * 32)+ 0x18], r11
  .xor (.reg .rcx) (.reg .rcx), -- 2434: xor ecx, ecx
  .mov (.reg .rdx) (.mem ⟨some .rsp, none, 160#64⟩), -- 2435: mov rdx, [rsp + (5 * 32)]
  .mulx .r9 .r8 (.mem ⟨some .rsp, none, 192#64⟩), -- 2436: mulx r9, r8, [rsp + (6 * 32)]
  .mulx .r10 .rax (.mem ⟨some .rsp, none, 200#64⟩), -- 2437: mulx r10, rax, [rsp + (6 * 32)+ 0x8]
  .add (.reg .r9) (.reg .rax), -- 2438: add r9, rax
  .mulx .r11 .rax (.mem ⟨some .rsp, none, 208#64⟩), -- 2439: mulx r11, rax, [rsp + (6 * 32)+ 0x10]
  .adc (.reg .r10) (.reg .rax), -- 2440: adc r10, rax
  .mulx .r12 .rax (.mem ⟨some .rsp, none, 216#64⟩), -- 2441: mulx r12, rax, [rsp + (6 * 32)+ 0x18]
  .adc (.reg .r11) (.reg .rax), -- 2442: adc r11, rax
  .adc (.reg .r12) (.reg .rcx), -- 2443: adc r12, rcx
  .xor (.reg .rcx) (.reg .rcx), -- 2444: xor ecx, ecx
  .mov (.reg .rdx) (.mem ⟨some .rsp, none, 168#64⟩), -- 2445: mov rdx, [rsp + (5 * 32)+ 0x8]
  .mulx .rbx .rax (.mem ⟨some .rsp, none, 192#64⟩), -- 2446: mulx rbx, rax, [rsp + (6 * 32)]
  .adcx .r9 (.reg .rax), -- 2447: adcx r9, rax
  .adox .r10 (.reg .rbx), -- 2448: adox r10, rbx
  .mulx .rbx .rax (.mem ⟨some .rsp, none, 200#64⟩), -- 2449: mulx rbx, rax, [rsp + (6 * 32)+ 0x8]
  .adcx .r10 (.reg .rax), -- 2450: adcx r10, rax
  .adox .r11 (.reg .rbx), -- 2451: adox r11, rbx
  .mulx .rbx .rax (.mem ⟨some .rsp, none, 208#64⟩), -- 2452: mulx rbx, rax, [rsp + (6 * 32)+ 0x10]
  .adcx .r11 (.reg .rax), -- 2453: adcx r11, rax
  .adox .r12 (.reg .rbx), -- 2454: adox r12, rbx
  .mulx .r13 .rax (.mem ⟨some .rsp, none, 216#64⟩), -- 2455: mulx r13, rax, [rsp + (6 * 32)+ 0x18]
  .adcx .r12 (.reg .rax), -- 2456: adcx r12, rax
  .adox .r13 (.reg .rcx), -- 2457: adox r13, rcx
  .adcx .r13 (.reg .rcx), -- 2458: adcx r13, rcx
  .xor (.reg .rcx) (.reg .rcx), -- 2459: xor ecx, ecx
  .mov (.reg .rdx) (.mem ⟨some .rsp, none, 176#64⟩), -- 2460: mov rdx, [rsp + (5 * 32)+ 0x10]
  .mulx .rbx .rax (.mem ⟨some .rsp, none, 192#64⟩), -- 2461: mulx rbx, rax, [rsp + (6 * 32)]
  .adcx .r10 (.reg .rax), -- 2462: adcx r10, rax
  .adox .r11 (.reg .rbx), -- 2463: adox r11, rbx
  .mulx .rbx .rax (.mem ⟨some .rsp, none, 200#64⟩), -- 2464: mulx rbx, rax, [rsp + (6 * 32)+ 0x8]
  .adcx .r11 (.reg .rax), -- 2465: adcx r11, rax
  .adox .r12 (.reg .rbx), -- 2466: adox r12, rbx
  .mulx .rbx .rax (.mem ⟨some .rsp, none, 208#64⟩), -- 2467: mulx rbx, rax, [rsp + (6 * 32)+ 0x10]
  .adcx .r12 (.reg .rax), -- 2468: adcx r12, rax
  .adox .r13 (.reg .rbx), -- 2469: adox r13, rbx
  .mulx .r14 .rax (.mem ⟨some .rsp, none, 216#64⟩), -- 2470: mulx r14, rax, [rsp + (6 * 32)+ 0x18]
  .adcx .r13 (.reg .rax), -- 2471: adcx r13, rax
  .adox .r14 (.reg .rcx), -- 2472: adox r14, rcx
  .adcx .r14 (.reg .rcx), -- 2473: adcx r14, rcx
  .xor (.reg .rcx) (.reg .rcx), -- 2474: xor ecx, ecx
  .mov (.reg .rdx) (.mem ⟨some .rsp, none, 184#64⟩), -- 2475: mov rdx, [rsp + (5 * 32)+ 0x18]
  .mulx .rbx .rax (.mem ⟨some .rsp, none, 192#64⟩), -- 2476: mulx rbx, rax, [rsp + (6 * 32)]
  .adcx .r11 (.reg .rax), -- 2477: adcx r11, rax
  .adox .r12 (.reg .rbx), -- 2478: adox r12, rbx
  .mulx .rbx .rax (.mem ⟨some .rsp, none, 200#64⟩), -- 2479: mulx rbx, rax, [rsp + (6 * 32)+ 0x8]
  .adcx .r12 (.reg .rax), -- 2480: adcx r12, rax
  .adox .r13 (.reg .rbx), -- 2481: adox r13, rbx
  .mulx .rbx .rax (.mem ⟨some .rsp, none, 208#64⟩), -- 2482: mulx rbx, rax, [rsp + (6 * 32)+ 0x10]
  .adcx .r13 (.reg .rax), -- 2483: adcx r13, rax
  .adox .r14 (.reg .rbx), -- 2484: adox r14, rbx
  .mulx .r15 .rax (.mem ⟨some .rsp, none, 216#64⟩), -- 2485: mulx r15, rax, [rsp + (6 * 32)+ 0x18]
  .adcx .r14 (.reg .rax), -- 2486: adcx r14, rax
  .adox .r15 (.reg .rcx), -- 2487: adox r15, rcx
  .adcx .r15 (.reg .rcx), -- 2488: adcx r15, rcx
  .mov (.reg .rdx) (.imm 38#64), -- 2489: mov edx, 0x26
  .xor (.reg .rcx) (.reg .rcx), -- 2490: xor ecx, ecx
  .mulx .rbx .rax (.reg .r12), -- 2491: mulx rbx, rax, r12
  .adcx .r8 (.reg .rax), -- 2492: adcx r8, rax
  .adox .r9 (.reg .rbx), -- 2493: adox r9, rbx
  .mulx .rbx .rax (.reg .r13), -- 2494: mulx rbx, rax, r13
  .adcx .r9 (.reg .rax), -- 2495: adcx r9, rax
  .adox .r10 (.reg .rbx), -- 2496: adox r10, rbx
  .mulx .rbx .rax (.reg .r14), -- 2497: mulx rbx, rax, r14
  .adcx .r10 (.reg .rax), -- 2498: adcx r10, rax
  .adox .r11 (.reg .rbx), -- 2499: adox r11, rbx
  .mulx .r12 .rax (.reg .r15), -- 2500: mulx r12, rax, r15
  .adcx .r11 (.reg .rax), -- 2501: adcx r11, rax
  .adox .r12 (.reg .rcx), -- 2502: adox r12, rcx
  .adcx .r12 (.reg .rcx), -- 2503: adcx r12, rcx
  .shld (.reg .r12) .r11 (.imm 1#64), -- 2504: shld r12, r11, 0x1
  .btr .r11 63#64, -- 2505: btr r11, 0x3f
  .mov (.reg .rdx) (.imm 19#64), -- 2506: mov edx, 0x13
  .imul .rdx (.reg .r12), -- 2507: imul rdx, r12
  .add (.reg .r8) (.reg .rdx), -- 2508: add r8, rdx
  .adc (.reg .r9) (.reg .rcx), -- 2509: adc r9, rcx
  .adc (.reg .r10) (.reg .rcx), -- 2510: adc r10, rcx
  .adc (.reg .r11) (.reg .rcx), -- 2511: adc r11, rcx
  .mov (.mem ⟨some .rsp, none, 224#64⟩) (.reg .r8), -- 2512: mov [rsp + (7 * 32)], r8
  .mov (.mem ⟨some .rsp, none, 232#64⟩) (.reg .r9), -- 2513: mov [rsp + (7 * 32)+ 0x8], r9
  .mov (.mem ⟨some .rsp, none, 240#64⟩) (.reg .r10), -- 2514: mov [rsp + (7 * 32)+ 0x10], r10
  .mov (.mem ⟨some .rsp, none, 248#64⟩) (.reg .r11), -- 2515: mov [rsp + (7 * 32)+ 0x18], r11
  .lea .rdi ⟨some .rsp, none, 224#64⟩, -- 2516: lea rdi, [rsp + 224]
  .lea .rsi ⟨some .rsp, none, 224#64⟩, -- 2517: lea rsi, [rsp + 224]
  .mov (.mem ⟨some .rsp, none, 192#64⟩) (.reg .rdi), -- 2518: mov [rsp + 0xc0], rdi
  .xor (.reg .rax) (.reg .rax), -- 2519: xor eax, eax
  .lea .rcx ⟨some .rax, none, 0xffffffffffffffed#64⟩, -- 2520: lea rcx, [rax -0x13]
  .not (.reg .rax), -- 2521: not rax
  .mov (.mem ⟨some .rsp, none, 0#64⟩) (.reg .rcx), -- 2522: mov [rsp], rcx
  .mov (.mem ⟨some .rsp, none, 8#64⟩) (.reg .rax), -- 2523: mov [rsp + 0x8], rax
  .mov (.mem ⟨some .rsp, none, 16#64⟩) (.reg .rax), -- 2524: mov [rsp + 0x10], rax
  .btr .rax 63#64, -- 2525: btr rax, 0x3f
  .mov (.mem ⟨some .rsp, none, 24#64⟩) (.reg .rax), -- 2526: mov [rsp + 0x18], rax
  .mov (.reg .rdx) (.mem ⟨some .rsi, none, 0#64⟩), -- 2527: mov rdx, [rsi]
  .mov (.reg .rcx) (.mem ⟨some .rsi, none, 8#64⟩), -- 2528: mov rcx, [rsi + 0x8]
  .mov (.reg .r8) (.mem ⟨some .rsi, none, 16#64⟩), -- 2529: mov r8, [rsi + 0x10]
  .mov (.reg .r9) (.mem ⟨some .rsi, none, 24#64⟩), -- 2530: mov r9, [rsi + 0x18]
  .mov (.reg .rax) (.imm 1#64), -- 2531: mov eax, 0x1
  .xor (.reg .r10) (.reg .r10), -- 2532: xor r10d, r10d
  .bts .r9 63#64, -- 2533: bts r9, 0x3f
  .adc (.reg .rax) (.reg .r10), -- 2534: adc rax, r10
  .imul3 .rax (.reg .rax) 19#64, -- 2535: imul rax, rax, 0x13
  .add (.reg .rdx) (.reg .rax), -- 2536: add rdx, rax
  .adc (.reg .rcx) (.reg .r10), -- 2537: adc rcx, r10
  .adc (.reg .r8) (.reg .r10), -- 2538: adc r8, r10
  .adc (.reg .r9) (.reg .r10), -- 2539: adc r9, r10
  .mov (.reg .rax) (.imm 19#64), -- 2540: mov eax, 0x13
  .cmov .cy .rax (.reg .r10), -- 2541: cmovb rax, r10
  .sub (.reg .rdx) (.reg .rax), -- 2542: sub rdx, rax
  .sbb (.reg .rcx) (.reg .r10), -- 2543: sbb rcx, r10
  .sbb (.reg .r8) (.reg .r10), -- 2544: sbb r8, r10
  .sbb (.reg .r9) (.reg .r10), -- 2545: sbb r9, r10
  .btr .r9 63#64, -- 2546: btr r9, 0x3f
  .mov (.mem ⟨some .rsp, none, 32#64⟩) (.reg .rdx), -- 2547: mov [rsp + 0x20], rdx
  .mov (.mem ⟨some .rsp, none, 40#64⟩) (.reg .rcx), -- 2548: mov [rsp + 0x28], rcx
  .mov (.mem ⟨some .rsp, none, 48#64⟩) (.reg .r8), -- 2549: mov [rsp + 0x30], r8
  .mov (.mem ⟨some .rsp, none, 56#64⟩) (.reg .r9), -- 2550: mov [rsp + 0x38], r9
  .xor (.reg .rax) (.reg .rax), -- 2551: xor eax, eax
  .mov (.mem ⟨some .rsp, none, 64#64⟩) (.reg .rax), -- 2552: mov [rsp + 0x40], rax
  .mov (.mem ⟨some .rsp, none, 72#64⟩) (.reg .rax), -- 2553: mov [rsp + 0x48], rax
  .mov (.mem ⟨some .rsp, none, 80#64⟩) (.reg .rax), -- 2554: mov [rsp + 0x50], rax
  .mov (.mem ⟨some .rsp, none, 88#64⟩) (.reg .rax), -- 2555: mov [rsp + 0x58], rax
  .mov (.reg .rax) (.imm 0xa0f99e2375022099#64), -- 2556: movabs rax, 0xa0f99e2375022099
  .mov (.mem ⟨some .rsp, none, 96#64⟩) (.reg .rax), -- 2557: mov [rsp + 0x60], rax
  .mov (.reg .rax) (.imm 0xa8c68f3f1d132595#64), -- 2558: movabs rax, 0xa8c68f3f1d132595
  .mov (.mem ⟨some .rsp, none, 104#64⟩) (.reg .rax), -- 2559: mov [rsp + 0x68], rax
  .mov (.reg .rax) (.imm 0x6c6c893805ac5242#64), -- 2560: movabs rax, 0x6c6c893805ac5242
  .mov (.mem ⟨some .rsp, none, 112#64⟩) (.reg .rax), -- 2561: mov [rsp + 0x70], rax
  .mov (.reg .rax) (.imm 0x276508b241770615#64), -- 2562: movabs rax, 0x276508b241770615
  .mov (.mem ⟨some .rsp, none, 120#64⟩) (.reg .rax), -- 2563: mov [rsp + 0x78], rax
  .mov (.mem ⟨some .rsp, none, 144#64⟩) (.imm 10#64), -- 2564: mov QWORD PTR [rsp + 0x90], 0xa
  .mov (.mem ⟨some .rsp, none, 152#64⟩) (.imm 1#64), -- 2565: mov QWORD PTR [rsp + 0x98], 0x1
  .jmp 2857, -- 2566: jmp @4f
  .mov (.reg .r9) (.reg .r8), -- 2567: mov r9, r8
  .sar (.reg .r9) (.imm 63#64), -- 2568: sar r9, 0x3f
  .xor (.reg .r8) (.reg .r9), -- 2569: xor r8, r9
  .sub (.reg .r8) (.reg .r9), -- 2570: sub r8, r9
  .mov (.reg .r11) (.reg .r10), -- 2571: mov r11, r10
  .sar (.reg .r11) (.imm 63#64), -- 2572: sar r11, 0x3f
  .xor (.reg .r10) (.reg .r11), -- 2573: xor r10, r11
  .sub (.reg .r10) (.reg .r11), -- 2574: sub r10, r11
  .mov (.reg .r13) (.reg .r12), -- 2575: mov r13, r12
  .sar (.reg .r13) (.imm 63#64), -- 2576: sar r13, 0x3f
  .xor (.reg .r12) (.reg .r13), -- 2577: xor r12, r13
  .sub (.reg .r12) (.reg .r13), -- 2578: sub r12, r13
  .mov (.reg .r15) (.reg .r14), -- 2579: mov r15, r14
  .sar (.reg .r15) (.imm 63#64), -- 2580: sar r15, 0x3f
  .xor (.reg .r14) (.reg .r15), -- 2581: xor r14, r15
  .sub (.reg .r14) (.reg .r15), -- 2582: sub r14, r15
  .mov (.reg .rax) (.reg .r8), -- 2583: mov rax, r8
  .and (.reg .rax) (.reg .r9), -- 2584: and rax, r9
  .mov (.reg .rdi) (.reg .r10), -- 2585: mov rdi, r10
  .and (.reg .rdi) (.reg .r11), -- 2586: and rdi, r11
  .add (.reg .rdi) (.reg .rax), -- 2587: add rdi, rax
  .mov (.mem ⟨some .rsp, none, 128#64⟩) (.reg .rdi), -- 2588: mov [rsp + 0x80], rdi
  .mov (.reg .rax) (.reg .r12), -- 2589: mov rax, r12
  .and (.reg .rax) (.reg .r13), -- 2590: and rax, r13
  .mov (.reg .rsi) (.reg .r14), -- 2591: mov rsi, r14
  .and (.reg .rsi) (.reg .r15), -- 2592: and rsi, r15
  .add (.reg .rsi) (.reg .rax), -- 2593: add rsi, rax
  .mov (.mem ⟨some .rsp, none, 136#64⟩) (.reg .rsi), -- 2594: mov [rsp + 0x88], rsi
  .xor (.reg .rbx) (.reg .rbx), -- 2595: xor ebx, ebx
  .mov (.reg .rax) (.mem ⟨some .rsp, none, 0#64⟩), -- 2596: mov rax, [rsp]
  .xor (.reg .rax) (.reg .r9), -- 2597: xor rax, r9
  .mul (.reg .r8), -- 2598: mul r8
  .add (.reg .rdi) (.reg .rax), -- 2599: add rdi, rax
  .adc (.reg .rbx) (.reg .rdx), -- 2600: adc rbx, rdx
  .mov (.reg .rax) (.mem ⟨some .rsp, none, 32#64⟩), -- 2601: mov rax, [rsp + 0x20]
  .xor (.reg .rax) (.reg .r11), -- 2602: xor rax, r11
  .mul (.reg .r10), -- 2603: mul r10
  .add (.reg .rdi) (.reg .rax), -- 2604: add rdi, rax
  .adc (.reg .rbx) (.reg .rdx), -- 2605: adc rbx, rdx
  .xor (.reg .rbp) (.reg .rbp), -- 2606: xor ebp, ebp
  .mov (.reg .rax) (.mem ⟨some .rsp, none, 0#64⟩), -- 2607: mov rax, [rsp]
  .xor (.reg .rax) (.reg .r13), -- 2608: xor rax, r13
  .mul (.reg .r12), -- 2609: mul r12
  .add (.reg .rsi) (.reg .rax), -- 2610: add rsi, rax
  .adc (.reg .rbp) (.reg .rdx), -- 2611: adc rbp, rdx
  .mov (.reg .rax) (.mem ⟨some .rsp, none, 32#64⟩), -- 2612: mov rax, [rsp + 0x20]
  .xor (.reg .rax) (.reg .r15), -- 2613: xor rax, r15
  .mul (.reg .r14), -- 2614: mul r14
  .add (.reg .rsi) (.reg .rax), -- 2615: add rsi, rax
  .adc (.reg .rbp) (.reg .rdx), -- 2616: adc rbp, rdx
  .xor (.reg .rcx) (.reg .rcx), -- 2617: xor ecx, ecx
  .mov (.reg .rax) (.mem ⟨some .rsp, none, 8#64⟩), -- 2618: mov rax, [rsp + 0x8]
  .xor (.reg .rax) (.reg .r9), -- 2619: xor rax, r9
  .mul (.reg .r8), -- 2620: mul r8
  .add (.reg .rbx) (.reg .rax), -- 2621: add rbx, rax
  .adc (.reg .rcx) (.reg .rdx), -- 2622: adc rcx, rdx
  .mov (.reg .rax) (.mem ⟨some .rsp, none, 40#64⟩), -- 2623: mov rax, [rsp + 0x28]
  .xor (.reg .rax) (.reg .r11), -- 2624: xor rax, r11
  .mul (.reg .r10), -- 2625: mul r10
  .add (.reg .rbx) (.reg .rax), -- 2626: add rbx, rax
  .adc (.reg .rcx) (.reg .rdx), -- 2627: adc rcx, rdx
  .shrd (.reg .rdi) .rbx (.imm 59#64), -- 2628: shrd rdi, rbx, 0x3b
  .mov (.mem ⟨some .rsp, none, 0#64⟩) (.reg .rdi), -- 2629: mov [rsp], rdi
  .xor (.reg .rdi) (.reg .rdi), -- 2630: xor edi, edi
  .mov (.reg .rax) (.mem ⟨some .rsp, none, 8#64⟩), -- 2631: mov rax, [rsp + 0x8]
  .xor (.reg .rax) (.reg .r13), -- 2632: xor rax, r13
  .mul (.reg .r12), -- 2633: mul r12
  .add (.reg .rbp) (.reg .rax), -- 2634: add rbp, rax
  .adc (.reg .rdi) (.reg .rdx), -- 2635: adc rdi, rdx
  .mov (.reg .rax) (.mem ⟨some .rsp, none, 40#64⟩), -- 2636: mov rax, [rsp + 0x28]
  .xor (.reg .rax) (.reg .r15), -- 2637: xor rax, r15
  .mul (.reg .r14), -- 2638: mul r14
  .add (.reg .rbp) (.reg .rax), -- 2639: add rbp, rax
  .adc (.reg .rdi) (.reg .rdx), -- 2640: adc rdi, rdx
  .shrd (.reg .rsi) .rbp (.imm 59#64), -- 2641: shrd rsi, rbp, 0x3b
  .mov (.mem ⟨some .rsp, none, 32#64⟩) (.reg .rsi), -- 2642: mov [rsp + 0x20], rsi
  .xor (.reg .rsi) (.reg .rsi), -- 2643: xor esi, esi
  .mov (.reg .rax) (.mem ⟨some .rsp, none, 16#64⟩), -- 2644: mov rax, [rsp + 0x10]
  .xor (.reg .rax) (.reg .r9), -- 2645: xor rax, r9
  .mul (.reg .r8), -- 2646: mul r8
  .add (.reg .rcx) (.reg .rax), -- 2647: add rcx, rax
  .adc (.reg .rsi) (.reg .rdx), -- 2648: adc rsi, rdx
  .mov (.reg .rax) (.mem ⟨some .rsp, none, 48#64⟩), -- 2649: mov rax, [rsp + 0x30]
  .xor (.reg .rax) (.reg .r11), -- 2650: xor rax, r11
  .mul (.reg .r10), -- 2651: mul r10
  .add (.reg .rcx) (.reg .rax), -- 2652: add rcx, rax
  .adc (.reg .rsi) (.reg .rdx), -- 2653: adc rsi, rdx
  .shrd (.reg .rbx) .rcx (.imm 59#64), -- 2654: shrd rbx, rcx, 0x3b
  .mov (.mem ⟨some .rsp, none, 8#64⟩) (.reg .rbx), -- 2655: mov [rsp + 0x8], rbx
  .xor (.reg .rbx) (.reg .rbx), -- 2656: xor ebx, ebx
  .mov (.reg .rax) (.mem ⟨some .rsp, none, 16#64⟩), -- 2657: mov rax, [rsp + 0x10]
  .xor (.reg .rax) (.reg .r13), -- 2658: xor rax, r13
  .mul (.reg .r12), -- 2659: mul r12
  .add (.reg .rdi) (.reg .rax), -- 2660: add rdi, rax
  .adc (.reg .rbx) (.reg .rdx), -- 2661: adc rbx, rdx
  .mov (.reg .rax) (.mem ⟨some .rsp, none, 48#64⟩), -- 2662: mov rax, [rsp + 0x30]
  .xor (.reg .rax) (.reg .r15), -- 2663: xor rax, r15
  .mul (.reg .r14), -- 2664: mul r14
  .add (.reg .rdi) (.reg .rax), -- 2665: add rdi, rax
  .adc (.reg .rbx) (.reg .rdx), -- 2666: adc rbx, rdx
  .shrd (.reg .rbp) .rdi (.imm 59#64), -- 2667: shrd rbp, rdi, 0x3b
  .mov (.mem ⟨some .rsp, none, 40#64⟩) (.reg .rbp), -- 2668: mov [rsp + 0x28], rbp
  .mov (.reg .rax) (.mem ⟨some .rsp, none, 24#64⟩), -- 2669: mov rax, [rsp + 0x18]
  .xor (.reg .rax) (.reg .r9), -- 2670: xor rax, r9
  .mov (.reg .rbp) (.reg .rax), -- 2671: mov rbp, rax
  .sar (.reg .rbp) (.imm 63#64), -- 2672: sar rbp, 0x3f
  .and (.reg .rbp) (.reg .r8), -- 2673: and rbp, r8
  .neg (.reg .rbp), -- 2674: neg rbp
  .mul (.reg .r8), -- 2675: mul r8
  .add (.reg .rsi) (.reg .rax), -- 2676: add rsi, rax
  .adc (.reg .rbp) (.reg .rdx), -- 2677: adc rbp, rdx
  .mov (.reg .rax) (.mem ⟨some .rsp, none, 56#64⟩), -- 2678: mov rax, [rsp + 0x38]
  .xor (.reg .rax) (.reg .r11), -- 2679: xor rax, r11
  .mov (.reg .rdx) (.reg .rax), -- 2680: mov rdx, rax
  .sar (.reg .rdx) (.imm 63#64), -- 2681: sar rdx, 0x3f
  .and (.reg .rdx) (.reg .r10), -- 2682: and rdx, r10
  .sub (.reg .rbp) (.reg .rdx), -- 2683: sub rbp, rdx
  .mul (.reg .r10), -- 2684: mul r10
  .add (.reg .rsi) (.reg .rax), -- 2685: add rsi, rax
  .adc (.reg .rbp) (.reg .rdx), -- 2686: adc rbp, rdx
  .shrd (.reg .rcx) .rsi (.imm 59#64), -- 2687: shrd rcx, rsi, 0x3b
  .mov (.mem ⟨some .rsp, none, 16#64⟩) (.reg .rcx), -- 2688: mov [rsp + 0x10], rcx
  .shrd (.reg .rsi) .rbp (.imm 59#64), -- 2689: shrd rsi, rbp, 0x3b
  .mov (.reg .rax) (.mem ⟨some .rsp, none, 24#64⟩), -- 2690: mov rax, [rsp + 0x18]
  .mov (.mem ⟨some .rsp, none, 24#64⟩) (.reg .rsi), -- 2691: mov [rsp + 0x18], rsi
  .xor (.reg .rax) (.reg .r13), -- 2692: xor rax, r13
  .mov (.reg .rsi) (.reg .rax), -- 2693: mov rsi, rax
  .sar (.reg .rsi) (.imm 63#64), -- 2694: sar rsi, 0x3f
  .and (.reg .rsi) (.reg .r12), -- 2695: and rsi, r12
  .neg (.reg .rsi), -- 2696: neg rsi
  .mul (.reg .r12), -- 2697: mul r12
  .add (.reg .rbx) (.reg .rax), -- 2698: add rbx, rax
  .adc (.reg .rsi) (.reg .rdx), -- 2699: adc rsi, rdx
  .mov (.reg .rax) (.mem ⟨some .rsp, none, 56#64⟩), -- 2700: mov rax, [rsp + 0x38]
  .xor (.reg .rax) (.reg .r15), -- 2701: xor rax, r15
  .mov (.reg .rdx) (.reg .rax), -- 2702: mov rdx, rax
  .sar (.reg .rdx) (.imm 63#64), -- 2703: sar rdx, 0x3f
  .and (.reg .rdx) (.reg .r14), -- 2704: and rdx, r14
  .sub (.reg .rsi) (.reg .rdx), -- 2705: sub rsi, rdx
  .mul (.reg .r14), -- 2706: mul r14
  .add (.reg .rbx) (.reg .rax), -- 2707: add rbx, rax
  .adc (.reg .rsi) (.reg .rdx), -- 2708: adc rsi, rdx
  .shrd (.reg .rdi) .rbx (.imm 59#64), -- 2709: shrd rdi, rbx, 0x3b
  .mov (.mem ⟨some .rsp, none, 48#64⟩) (.reg .rdi), -- 2710: mov [rsp + 0x30], rdi
  .shrd (.reg .rbx) .rsi (.imm 59#64), -- 2711: shrd rbx, rsi, 0x3b
  .mov (.mem ⟨some .rsp, none, 56#64⟩) (.reg .rbx), -- 2712: mov [rsp + 0x38], rbx
  .mov (.reg .rbx) (.mem ⟨some .rsp, none, 128#64⟩), -- 2713: mov rbx, [rsp + 0x80]
  .mov (.reg .rbp) (.mem ⟨some .rsp, none, 136#64⟩), -- 2714: mov rbp, [rsp + 0x88]
  .xor (.reg .rcx) (.reg .rcx), -- 2715: xor ecx, ecx
  .mov (.reg .rax) (.mem ⟨some .rsp, none, 64#64⟩), -- 2716: mov rax, [rsp + 0x40]
  .xor (.reg .rax) (.reg .r9), -- 2717: xor rax, r9
  .mul (.reg .r8), -- 2718: mul r8
  .add (.reg .rbx) (.reg .rax), -- 2719: add rbx, rax
  .adc (.reg .rcx) (.reg .rdx), -- 2720: adc rcx, rdx
  .mov (.reg .rax) (.mem ⟨some .rsp, none, 96#64⟩), -- 2721: mov rax, [rsp + 0x60]
  .xor (.reg .rax) (.reg .r11), -- 2722: xor rax, r11
  .mul (.reg .r10), -- 2723: mul r10
  .add (.reg .rbx) (.reg .rax), -- 2724: add rbx, rax
  .adc (.reg .rcx) (.reg .rdx), -- 2725: adc rcx, rdx
  .xor (.reg .rsi) (.reg .rsi), -- 2726: xor esi, esi
  .mov (.reg .rax) (.mem ⟨some .rsp, none, 64#64⟩), -- 2727: mov rax, [rsp + 0x40]
  .xor (.reg .rax) (.reg .r13), -- 2728: xor rax, r13
  .mul (.reg .r12), -- 2729: mul r12
  .mov (.mem ⟨some .rsp, none, 64#64⟩) (.reg .rbx), -- 2730: mov [rsp + 0x40], rbx
  .add (.reg .rbp) (.reg .rax), -- 2731: add rbp, rax
  .adc (.reg .rsi) (.reg .rdx), -- 2732: adc rsi, rdx
  .mov (.reg .rax) (.mem ⟨some .rsp, none, 96#64⟩), -- 2733: mov rax, [rsp + 0x60]
  .xor (.reg .rax) (.reg .r15), -- 2734: xor rax, r15
  .mul (.reg .r14), -- 2735: mul r14
  .add (.reg .rbp) (.reg .rax), -- 2736: add rbp, rax
  .adc (.reg .rsi) (.reg .rdx), -- 2737: adc rsi, rdx
  .mov (.mem ⟨some .rsp, none, 96#64⟩) (.reg .rbp), -- 2738: mov [rsp + 0x60], rbp
  .xor (.reg .rbx) (.reg .rbx), -- 2739: xor ebx, ebx
  .mov (.reg .rax) (.mem ⟨some .rsp, none, 72#64⟩), -- 2740: mov rax, [rsp + 0x48]
  .xor (.reg .rax) (.reg .r9), -- 2741: xor rax, r9
  .mul (.reg .r8), -- 2742: mul r8
  .add (.reg .rcx) (.reg .rax), -- 2743: add rcx, rax
  .adc (.reg .rbx) (.reg .rdx), -- 2744: adc rbx, rdx
  .mov (.reg .rax) (.mem ⟨some .rsp, none, 104#64⟩), -- 2745: mov rax, [rsp + 0x68]
  .xor (.reg .rax) (.reg .r11), -- 2746: xor rax, r11
  .mul (.reg .r10), -- 2747: mul r10
  .add (.reg .rcx) (.reg .rax), -- 2748: add rcx, rax
  .adc (.reg .rbx) (.reg .rdx), -- 2749: adc rbx, rdx
  .xor (.reg .rbp) (.reg .rbp), -- 2750: xor ebp, ebp
  .mov (.reg .rax) (.mem ⟨some .rsp, none, 72#64⟩), -- 2751: mov rax, [rsp + 0x48]
  .xor (.reg .rax) (.reg .r13), -- 2752: xor rax, r13
  .mul (.reg .r12), -- 2753: mul r12
  .mov (.mem ⟨some .rsp, none, 72#64⟩) (.reg .rcx), -- 2754: mov [rsp + 0x48], rcx
  .add (.reg .rsi) (.reg .rax), -- 2755: add rsi, rax
  .adc (.reg .rbp) (.reg .rdx), -- 2756: adc rbp, rdx
  .mov (.reg .rax) (.mem ⟨some .rsp, none, 104#64⟩), -- 2757: mov rax, [rsp + 0x68]
  .xor (.reg .rax) (.reg .r15), -- 2758: xor rax, r15
  .mul (.reg .r14), -- 2759: mul r14
  .add (.reg .rsi) (.reg .rax), -- 2760: add rsi, rax
  .adc (.reg .rbp) (.reg .rdx), -- 2761: adc rbp, rdx
  .mov (.mem ⟨some .rsp, none, 104#64⟩) (.reg .rsi), -- 2762: mov [rsp + 0x68], rsi
  .xor (.reg .rcx) (.reg .rcx), -- 2763: xor ecx, ecx
  .mov (.reg .rax) (.mem ⟨some .rsp, none, 80#64⟩), -- 2764: mov rax, [rsp + 0x50]
  .xor (.reg .rax) (.reg .r9), -- 2765: xor rax, r9
  .mul (.reg .r8), -- 2766: mul r8
  .add (.reg .rbx) (.reg .rax), -- 2767: add rbx, rax
  .adc (.reg .rcx) (.reg .rdx), -- 2768: adc rcx, rdx
  .mov (.reg .rax) (.mem ⟨some .rsp, none, 112#64⟩), -- 2769: mov rax, [rsp + 0x70]
  .xor (.reg .rax) (.reg .r11), -- 2770: xor rax, r11
  .mul (.reg .r10), -- 2771: mul r10
  .add (.reg .rbx) (.reg .rax), -- 2772: add rbx, rax
  .adc (.reg .rcx) (.reg .rdx), -- 2773: adc rcx, rdx
  .xor (.reg .rsi) (.reg .rsi), -- 2774: xor esi, esi
  .mov (.reg .rax) (.mem ⟨some .rsp, none, 80#64⟩), -- 2775: mov rax, [rsp + 0x50]
  .xor (.reg .rax) (.reg .r13), -- 2776: xor rax, r13
  .mul (.reg .r12), -- 2777: mul r12
  .mov (.mem ⟨some .rsp, none, 80#64⟩) (.reg .rbx), -- 2778: mov [rsp + 0x50], rbx
  .add (.reg .rbp) (.reg .rax), -- 2779: add rbp, rax
  .adc (.reg .rsi) (.reg .rdx), -- 2780: adc rsi, rdx
  .mov (.reg .rax) (.mem ⟨some .rsp, none, 112#64⟩), -- 2781: mov rax, [rsp + 0x70]
  .xor (.reg .rax) (.reg .r15), -- 2782: xor rax, r15
  .mul (.reg .r14), -- 2783: mul r14
  .add (.reg .rbp) (.reg .rax), -- 2784: add rbp, rax
  .adc (.reg .rsi) (.reg .rdx), -- 2785: adc rsi, rdx
  .mov (.mem ⟨some .rsp, none, 112#64⟩) (.reg .rbp), -- 2786: mov [rsp + 0x70], rbp
  .mov (.reg .rax) (.mem ⟨some .rsp, none, 88#64⟩), -- 2787: mov rax, [rsp + 0x58]
  .xor (.reg .rax) (.reg .r9), -- 2788: xor rax, r9
  .mov (.reg .rbx) (.reg .r9), -- 2789: mov rbx, r9
  .and (.reg .rbx) (.reg .r8), -- 2790: and rbx, r8
  .neg (.reg .rbx), -- 2791: neg rbx
  .mul (.reg .r8), -- 2792: mul r8
  .add (.reg .rcx) (.reg .rax), -- 2793: add rcx, rax
  .adc (.reg .rbx) (.reg .rdx), -- 2794: adc rbx, rdx
  .mov (.reg .rax) (.mem ⟨some .rsp, none, 120#64⟩), -- 2795: mov rax, [rsp + 0x78]
  .xor (.reg .rax) (.reg .r11), -- 2796: xor rax, r11
  .mov (.reg .rdx) (.reg .r11), -- 2797: mov rdx, r11
  .and (.reg .rdx) (.reg .r10), -- 2798: and rdx, r10
  .sub (.reg .rbx) (.reg .rdx), -- 2799: sub rbx, rdx
  .mul (.reg .r10), -- 2800: mul r10
  .add (.reg .rcx) (.reg .rax), -- 2801: add rcx, rax
  .adc (.reg .rdx) (.reg .rbx), -- 2802: adc rdx, rbx
  .mov (.reg .rbx) (.reg .rdx), -- 2803: mov rbx, rdx
  .shld (.reg .rdx) .rcx (.imm 1#64), -- 2804: shld rdx, rcx, 0x1
  .sar (.reg .rbx) (.imm 63#64), -- 2805: sar rbx, 0x3f
  .add (.reg .rdx) (.reg .rbx), -- 2806: add rdx, rbx
  .mov (.reg .rax) (.imm 19#64), -- 2807: mov eax, 0x13
  .imul1 (.reg .rdx), -- 2808: imul rdx
  .mov (.reg .r8) (.mem ⟨some .rsp, none, 64#64⟩), -- 2809: mov r8, [rsp + 0x40]
  .add (.reg .r8) (.reg .rax), -- 2810: add r8, rax
  .mov (.mem ⟨some .rsp, none, 64#64⟩) (.reg .r8), -- 2811: mov [rsp + 0x40], r8
  .mov (.reg .r8) (.mem ⟨some .rsp, none, 72#64⟩), -- 2812: mov r8, [rsp + 0x48]
  .adc (.reg .r8) (.reg .rdx), -- 2813: adc r8, rdx
  .mov (.mem ⟨some .rsp, none, 72#64⟩) (.reg .r8), -- 2814: mov [rsp + 0x48], r8
  .mov (.reg .r8) (.mem ⟨some .rsp, none, 80#64⟩), -- 2815: mov r8, [rsp + 0x50]
  .adc (.reg .r8) (.reg .rbx), -- 2816: adc r8, rbx
  .mov (.mem ⟨some .rsp, none, 80#64⟩) (.reg .r8), -- 2817: mov [rsp + 0x50], r8
  .adc (.reg .rcx) (.reg .rbx), -- 2818: adc rcx, rbx
  .shl (.reg .rax) (.imm 63#64), -- 2819: shl rax, 0x3f
  .add (.reg .rcx) (.reg .rax), -- 2820: add rcx, rax
  .mov (.reg .rax) (.mem ⟨some .rsp, none, 88#64⟩), -- 2821: mov rax, [rsp + 0x58]
  .mov (.mem ⟨some .rsp, none, 88#64⟩) (.reg .rcx), -- 2822: mov [rsp + 0x58], rcx
  .xor (.reg .rax) (.reg .r13), -- 2823: xor rax, r13
  .mov (.reg .rcx) (.reg .r13), -- 2824: mov rcx, r13
  .and (.reg .rcx) (.reg .r12), -- 2825: and rcx, r12
  .neg (.reg .rcx), -- 2826: neg rcx
  .mul (.reg .r12), -- 2827: mul r12
  .add (.reg .rsi) (.reg .rax), -- 2828: add rsi, rax
  .adc (.reg .rcx) (.reg .rdx), -- 2829: adc rcx, rdx
  .mov (.reg .rax) (.mem ⟨some .rsp, none, 120#64⟩), -- 2830: mov rax, [rsp + 0x78]
  .xor (.reg .rax) (.reg .r15), -- 2831: xor rax, r15
  .mov (.reg .rdx) (.reg .r15), -- 2832: mov rdx, r15
  .and (.reg .rdx) (.reg .r14), -- 2833: and rdx, r14
  .sub (.reg .rcx) (.reg .rdx), -- 2834: sub rcx, rdx
  .mul (.reg .r14), -- 2835: mul r14
  .add (.reg .rsi) (.reg .rax), -- 2836: add rsi, rax
  .adc (.reg .rdx) (.reg .rcx), -- 2837: adc rdx, rcx
  .mov (.reg .rcx) (.reg .rdx), -- 2838: mov rcx, rdx
  .shld (.reg .rdx) .rsi (.imm 1#64), -- 2839: shld rdx, rsi, 0x1
  .sar (.reg .rcx) (.imm 63#64), -- 2840: sar rcx, 0x3f
  .mov (.reg .rax) (.imm 19#64), -- 2841: mov eax, 0x13
  .add (.reg .rdx) (.reg .rcx), -- 2842: add rdx, rcx
  .imul1 (.reg .rdx), -- 2843: imul rdx
  .mov (.reg .r8) (.mem ⟨some .rsp, none, 96#64⟩), -- 2844: mov r8, [rsp + 0x60]
  .add (.reg .r8) (.reg .rax), -- 2845: add r8, rax
  .mov (.mem ⟨some .rsp, none, 96#64⟩) (.reg .r8), -- 2846: mov [rsp + 0x60], r8
  .mov (.reg .r8) (.mem ⟨some .rsp, none, 104#64⟩), -- 2847: mov r8, [rsp + 0x68]
  .adc (.reg .r8) (.reg .rdx), -- 2848: adc r8, rdx
  .mov (.mem ⟨some .rsp, none, 104#64⟩) (.reg .r8), -- 2849: mov [rsp + 0x68], r8
  .mov (.reg .r8) (.mem ⟨some .rsp, none, 112#64⟩), -- 2850: mov r8, [rsp + 0x70]
  .adc (.reg .r8) (.reg .rcx), -- 2851: adc r8, rcx
  .mov (.mem ⟨some .rsp, none, 112#64⟩) (.reg .r8), -- 2852: mov [rsp + 0x70], r8
  .adc (.reg .rsi) (.reg .rcx), -- 2853: adc rsi, rcx
  .shl (.reg .rax) (.imm 63#64), -- 2854: shl rax, 0x3f
  .add (.reg .rsi) (.reg .rax), -- 2855: add rsi, rax
  .mov (.mem ⟨some .rsp, none, 120#64⟩) (.reg .rsi), -- 2856: mov [rsp + 0x78], rsi
  .mov (.reg .rsi) (.mem ⟨some .rsp, none, 152#64⟩), -- 2857: mov rsi, [rsp + 0x98]
  .mov (.reg .rdx) (.mem ⟨some .rsp, none, 0#64⟩), -- 2858: mov rdx, [rsp]
  .mov (.reg .rcx) (.mem ⟨some .rsp, none, 32#64⟩), -- 2859: mov rcx, [rsp + 0x20]
  .mov (.reg .rbx) (.reg .rdx), -- 2860: mov rbx, rdx
  .and (.reg .rbx) (.imm 0xfffff#64), -- 2861: and rbx, 0xfffff
  .mov (.reg .rax) (.imm 0xfffffe0000000000#64), -- 2862: movabs rax, 0xfffffe0000000000
  .or (.reg .rbx) (.reg .rax), -- 2863: or rbx, rax
  .and (.reg .rcx) (.imm 0xfffff#64), -- 2864: and rcx, 0xfffff
  .mov (.reg .rax) (.imm 0xc000000000000000#64), -- 2865: movabs rax, 0xc000000000000000
  .or (.reg .rcx) (.reg .rax), -- 2866: or rcx, rax
  .mov (.reg .rax) (.imm 0xfffffffffffffffe#64), -- 2867: mov rax, 0xfffffffffffffffe
  .xor (.reg .rbp) (.reg .rbp), -- 2868: xor ebp, ebp
  .mov (.reg .rdx) (.imm 2#64), -- 2869: mov edx, 0x2
  .mov (.reg .rdi) (.reg .rbx), -- 2870: mov rdi, rbx
  .mov (.reg .r8) (.reg .rax), -- 2871: mov r8, rax
  .test (.reg .rsi) (.reg .rsi), -- 2872: test rsi, rsi
  .cmov .sg .r8 (.reg .rbp), -- 2873: cmovs r8, rbp
  .test (.reg .rcx) (.imm 1#64), -- 2874: test rcx, 0x1
  .cmov .zr .r8 (.reg .rbp), -- 2875: cmove r8, rbp
  .cmov .zr .rdi (.reg .rbp), -- 2876: cmove rdi, rbp
  .xor (.reg .rdi) (.reg .r8), -- 2877: xor rdi, r8
  .xor (.reg .rsi) (.reg .r8), -- 2878: xor rsi, r8
  .bt (.reg .r8) 63#64, -- 2879: bt r8, 0x3f
  .cmov .cy .rbx (.reg .rcx), -- 2880: cmovb rbx, rcx
  .mov (.reg .r8) (.reg .rax), -- 2881: mov r8, rax
  .sub (.reg .rsi) (.reg .rax), -- 2882: sub rsi, rax
  .lea .rcx ⟨some .rcx, some (.rdi, 1#64), 0#64⟩, -- 2883: lea rcx, [rcx + rdi]
  .cmov .sg .r8 (.reg .rbp), -- 2884: cmovs r8, rbp
  .mov (.reg .rdi) (.reg .rbx), -- 2885: mov rdi, rbx
  .test (.reg .rcx) (.reg .rdx), -- 2886: test rcx, rdx
  .cmov .zr .r8 (.reg .rbp), -- 2887: cmove r8, rbp
  .cmov .zr .rdi (.reg .rbp), -- 2888: cmove rdi, rbp
  .sar (.reg .rcx) (.imm 1#64), -- 2889: sar rcx, 1
  .xor (.reg .rdi) (.reg .r8), -- 2890: xor rdi, r8
  .xor (.reg .rsi) (.reg .r8), -- 2891: xor rsi, r8
  .bt (.reg .r8) 63#64, -- 2892: bt r8, 0x3f
  .cmov .cy .rbx (.reg .rcx), -- 2893: cmovb rbx, rcx
  .mov (.reg .r8) (.reg .rax), -- 2894: mov r8, rax
  .sub (.reg .rsi) (.reg .rax), -- 2895: sub rsi, rax
  .lea .rcx ⟨some .rcx, some (.rdi, 1#64), 0#64⟩, -- 2896: lea rcx, [rcx + rdi]
  .cmov .sg .r8 (.reg .rbp), -- 2897: cmovs r8, rbp
  .mov (.reg .rdi) (.reg .rbx), -- 2898: mov rdi, rbx
  .test (.reg .rcx) (.reg .rdx), -- 2899: test rcx, rdx
  .cmov .zr .r8 (.reg .rbp), -- 2900: cmove r8, rbp
  .cmov .zr .rdi (.reg .rbp), -- 2901: cmove rdi, rbp
  .sar (.reg .rcx) (.imm 1#64), -- 2902: sar rcx, 1
  .xor (.reg .rdi) (.reg .r8), -- 2903: xor rdi, r8
  .xor (.reg .rsi) (.reg .r8), -- 2904: xor rsi, r8
  .bt (.reg .r8) 63#64, -- 2905: bt r8, 0x3f
  .cmov .cy .rbx (.reg .rcx), -- 2906: cmovb rbx, rcx
  .mov (.reg .r8) (.reg .rax), -- 2907: mov r8, rax
  .sub (.reg .rsi) (.reg .rax), -- 2908: sub rsi, rax
  .lea .rcx ⟨some .rcx, some (.rdi, 1#64), 0#64⟩, -- 2909: lea rcx, [rcx + rdi]
  .cmov .sg .r8 (.reg .rbp), -- 2910: cmovs r8, rbp
  .mov (.reg .rdi) (.reg .rbx), -- 2911: mov rdi, rbx
  .test (.reg .rcx) (.reg .rdx), -- 2912: test rcx, rdx
  .cmov .zr .r8 (.reg .rbp), -- 2913: cmove r8, rbp
  .cmov .zr .rdi (.reg .rbp), -- 2914: cmove rdi, rbp
  .sar (.reg .rcx) (.imm 1#64), -- 2915: sar rcx, 1
  .xor (.reg .rdi) (.reg .r8), -- 2916: xor rdi, r8
  .xor (.reg .rsi) (.reg .r8), -- 2917: xor rsi, r8
  .bt (.reg .r8) 63#64, -- 2918: bt r8, 0x3f
  .cmov .cy .rbx (.reg .rcx), -- 2919: cmovb rbx, rcx
  .mov (.reg .r8) (.reg .rax), -- 2920: mov r8, rax
  .sub (.reg .rsi) (.reg .rax), -- 2921: sub rsi, rax
  .lea .rcx ⟨some .rcx, some (.rdi, 1#64), 0#64⟩, -- 2922: lea rcx, [rcx + rdi]
  .cmov .sg .r8 (.reg .rbp), -- 2923: cmovs r8, rbp
  .mov (.reg .rdi) (.reg .rbx), -- 2924: mov rdi, rbx
  .test (.reg .rcx) (.reg .rdx), -- 2925: test rcx, rdx
  .cmov .zr .r8 (.reg .rbp), -- 2926: cmove r8, rbp
  .cmov .zr .rdi (.reg .rbp), -- 2927: cmove rdi, rbp
  .sar (.reg .rcx) (.imm 1#64), -- 2928: sar rcx, 1
  .xor (.reg .rdi) (.reg .r8), -- 2929: xor rdi, r8
  .xor (.reg .rsi) (.reg .r8), -- 2930: xor rsi, r8
  .bt (.reg .r8) 63#64, -- 2931: bt r8, 0x3f
  .cmov .cy .rbx (.reg .rcx), -- 2932: cmovb rbx, rcx
  .mov (.reg .r8) (.reg .rax), -- 2933: mov r8, rax
  .sub (.reg .rsi) (.reg .rax), -- 2934: sub rsi, rax
  .lea .rcx ⟨some .rcx, some (.rdi, 1#64), 0#64⟩, -- 2935: lea rcx, [rcx + rdi]
  .cmov .sg .r8 (.reg .rbp), -- 2936: cmovs r8, rbp
  .mov (.reg .rdi) (.reg .rbx), -- 2937: mov rdi, rbx
  .test (.reg .rcx) (.reg .rdx), -- 2938: test rcx, rdx
  .cmov .zr .r8 (.reg .rbp), -- 2939: cmove r8, rbp
  .cmov .zr .rdi (.reg .rbp), -- 2940: cmove rdi, rbp
  .sar (.reg .rcx) (.imm 1#64), -- 2941: sar rcx, 1
  .xor (.reg .rdi) (.reg .r8), -- 2942: xor rdi, r8
  .xor (.reg .rsi) (.reg .r8), -- 2943: xor rsi, r8
  .bt (.reg .r8) 63#64, -- 2944: bt r8, 0x3f
  .cmov .cy .rbx (.reg .rcx), -- 2945: cmovb rbx, rcx
  .mov (.reg .r8) (.reg .rax), -- 2946: mov r8, rax
  .sub (.reg .rsi) (.reg .rax), -- 2947: sub rsi, rax
  .lea .rcx ⟨some .rcx, some (.rdi, 1#64), 0#64⟩, -- 2948: lea rcx, [rcx + rdi]
  .cmov .sg .r8 (.reg .rbp), -- 2949: cmovs r8, rbp
  .mov (.reg .rdi) (.reg .rbx), -- 2950: mov rdi, rbx
  .test (.reg .rcx) (.reg .rdx), -- 2951: test rcx, rdx
  .cmov .zr .r8 (.reg .rbp), -- 2952: cmove r8, rbp
  .cmov .zr .rdi (.reg .rbp), -- 2953: cmove rdi, rbp
  .sar (.reg .rcx) (.imm 1#64), -- 2954: sar rcx, 1
  .xor (.reg .rdi) (.reg .r8), -- 2955: xor rdi, r8
  .xor (.reg .rsi) (.reg .r8), -- 2956: xor rsi, r8
  .bt (.reg .r8) 63#64, -- 2957: bt r8, 0x3f
  .cmov .cy .rbx (.reg .rcx), -- 2958: cmovb rbx, rcx
  .mov (.reg .r8) (.reg .rax), -- 2959: mov r8, rax
  .sub (.reg .rsi) (.reg .rax), -- 2960: sub rsi, rax
  .lea .rcx ⟨some .rcx, some (.rdi, 1#64), 0#64⟩, -- 2961: lea rcx, [rcx + rdi]
  .cmov .sg .r8 (.reg .rbp), -- 2962: cmovs r8, rbp
  .mov (.reg .rdi) (.reg .rbx), -- 2963: mov rdi, rbx
  .test (.reg .rcx) (.reg .rdx), -- 2964: test rcx, rdx
  .cmov .zr .r8 (.reg .rbp), -- 2965: cmove r8, rbp
  .cmov .zr .rdi (.reg .rbp), -- 2966: cmove rdi, rbp
  .sar (.reg .rcx) (.imm 1#64), -- 2967: sar rcx, 1
  .xor (.reg .rdi) (.reg .r8), -- 2968: xor rdi, r8
  .xor (.reg .rsi) (.reg .r8), -- 2969: xor rsi, r8
  .bt (.reg .r8) 63#64, -- 2970: bt r8, 0x3f
  .cmov .cy .rbx (.reg .rcx), -- 2971: cmovb rbx, rcx
  .mov (.reg .r8) (.reg .rax), -- 2972: mov r8, rax
  .sub (.reg .rsi) (.reg .rax), -- 2973: sub rsi, rax
  .lea .rcx ⟨some .rcx, some (.rdi, 1#64), 0#64⟩, -- 2974: lea rcx, [rcx + rdi]
  .cmov .sg .r8 (.reg .rbp), -- 2975: cmovs r8, rbp
  .mov (.reg .rdi) (.reg .rbx), -- 2976: mov rdi, rbx
  .test (.reg .rcx) (.reg .rdx), -- 2977: test rcx, rdx
  .cmov .zr .r8 (.reg .rbp), -- 2978: cmove r8, rbp
  .cmov .zr .rdi (.reg .rbp), -- 2979: cmove rdi, rbp
  .sar (.reg .rcx) (.imm 1#64), -- 2980: sar rcx, 1
  .xor (.reg .rdi) (.reg .r8), -- 2981: xor rdi, r8
  .xor (.reg .rsi) (.reg .r8), -- 2982: xor rsi, r8
  .bt (.reg .r8) 63#64, -- 2983: bt r8, 0x3f
  .cmov .cy .rbx (.reg .rcx), -- 2984: cmovb rbx, rcx
  .mov (.reg .r8) (.reg .rax), -- 2985: mov r8, rax
  .sub (.reg .rsi) (.reg .rax), -- 2986: sub rsi, rax
  .lea .rcx ⟨some .rcx, some (.rdi, 1#64), 0#64⟩, -- 2987: lea rcx, [rcx + rdi]
  .cmov .sg .r8 (.reg .rbp), -- 2988: cmovs r8, rbp
  .mov (.reg .rdi) (.reg .rbx), -- 2989: mov rdi, rbx
  .test (.reg .rcx) (.reg .rdx), -- 2990: test rcx, rdx
  .cmov .zr .r8 (.reg .rbp), -- 2991: cmove r8, rbp
  .cmov .zr .rdi (.reg .rbp), -- 2992: cmove rdi, rbp
  .sar (.reg .rcx) (.imm 1#64), -- 2993: sar rcx, 1
  .xor (.reg .rdi) (.reg .r8), -- 2994: xor rdi, r8
  .xor (.reg .rsi) (.reg .r8), -- 2995: xor rsi, r8
  .bt (.reg .r8) 63#64, -- 2996: bt r8, 0x3f
  .cmov .cy .rbx (.reg .rcx), -- 2997: cmovb rbx, rcx
  .mov (.reg .r8) (.reg .rax), -- 2998: mov r8, rax
  .sub (.reg .rsi) (.reg .rax), -- 2999: sub rsi, rax
  .lea .rcx ⟨some .rcx, some (.rdi, 1#64), 0#64⟩, -- 3000: lea rcx, [rcx + rdi]
  .cmov .sg .r8 (.reg .rbp), -- 3001: cmovs r8, rbp
  .mov (.reg .rdi) (.reg .rbx), -- 3002: mov rdi, rbx
  .test (.reg .rcx) (.reg .rdx), -- 3003: test rcx, rdx
  .cmov .zr .r8 (.reg .rbp), -- 3004: cmove r8, rbp
  .cmov .zr .rdi (.reg .rbp), -- 3005: cmove rdi, rbp
  .sar (.reg .rcx) (.imm 1#64), -- 3006: sar rcx, 1
  .xor (.reg .rdi) (.reg .r8), -- 3007: xor rdi, r8
  .xor (.reg .rsi) (.reg .r8), -- 3008: xor rsi, r8
  .bt (.reg .r8) 63#64, -- 3009: bt r8, 0x3f
  .cmov .cy .rbx (.reg .rcx), -- 3010: cmovb rbx, rcx
  .mov (.reg .r8) (.reg .rax), -- 3011: mov r8, rax
  .sub (.reg .rsi) (.reg .rax), -- 3012: sub rsi, rax
  .lea .rcx ⟨some .rcx, some (.rdi, 1#64), 0#64⟩, -- 3013: lea rcx, [rcx + rdi]
  .cmov .sg .r8 (.reg .rbp), -- 3014: cmovs r8, rbp
  .mov (.reg .rdi) (.reg .rbx), -- 3015: mov rdi, rbx
  .test (.reg .rcx) (.reg .rdx), -- 3016: test rcx, rdx
  .cmov .zr .r8 (.reg .rbp), -- 3017: cmove r8, rbp
  .cmov .zr .rdi (.reg .rbp), -- 3018: cmove rdi, rbp
  .sar (.reg .rcx) (.imm 1#64), -- 3019: sar rcx, 1
  .xor (.reg .rdi) (.reg .r8), -- 3020: xor rdi, r8
  .xor (.reg .rsi) (.reg .r8), -- 3021: xor rsi, r8
  .bt (.reg .r8) 63#64, -- 3022: bt r8, 0x3f
  .cmov .cy .rbx (.reg .rcx), -- 3023: cmovb rbx, rcx
  .mov (.reg .r8) (.reg .rax), -- 3024: mov r8, rax
  .sub (.reg .rsi) (.reg .rax), -- 3025: sub rsi, rax
  .lea .rcx ⟨some .rcx, some (.rdi, 1#64), 0#64⟩, -- 3026: lea rcx, [rcx + rdi]
  .cmov .sg .r8 (.reg .rbp), -- 3027: cmovs r8, rbp
  .mov (.reg .rdi) (.reg .rbx), -- 3028: mov rdi, rbx
  .test (.reg .rcx) (.reg .rdx), -- 3029: test rcx, rdx
  .cmov .zr .r8 (.reg .rbp), -- 3030: cmove r8, rbp
  .cmov .zr .rdi (.reg .rbp), -- 3031: cmove rdi, rbp
  .sar (.reg .rcx) (.imm 1#64), -- 3032: sar rcx, 1
  .xor (.reg .rdi) (.reg .r8), -- 3033: xor rdi, r8
  .xor (.reg .rsi) (.reg .r8), -- 3034: xor rsi, r8
  .bt (.reg .r8) 63#64, -- 3035: bt r8, 0x3f
  .cmov .cy .rbx (.reg .rcx), -- 3036: cmovb rbx, rcx
  .mov (.reg .r8) (.reg .rax), -- 3037: mov r8, rax
  .sub (.reg .rsi) (.reg .rax), -- 3038: sub rsi, rax
  .lea .rcx ⟨some .rcx, some (.rdi, 1#64), 0#64⟩, -- 3039: lea rcx, [rcx + rdi]
  .cmov .sg .r8 (.reg .rbp), -- 3040: cmovs r8, rbp
  .mov (.reg .rdi) (.reg .rbx), -- 3041: mov rdi, rbx
  .test (.reg .rcx) (.reg .rdx), -- 3042: test rcx, rdx
  .cmov .zr .r8 (.reg .rbp), -- 3043: cmove r8, rbp
  .cmov .zr .rdi (.reg .rbp), -- 3044: cmove rdi, rbp
  .sar (.reg .rcx) (.imm 1#64), -- 3045: sar rcx, 1
  .xor (.reg .rdi) (.reg .r8), -- 3046: xor rdi, r8
  .xor (.reg .rsi) (.reg .r8), -- 3047: xor rsi, r8
  .bt (.reg .r8) 63#64, -- 3048: bt r8, 0x3f
  .cmov .cy .rbx (.reg .rcx), -- 3049: cmovb rbx, rcx
  .mov (.reg .r8) (.reg .rax), -- 3050: mov r8, rax
  .sub (.reg .rsi) (.reg .rax), -- 3051: sub rsi, rax
  .lea .rcx ⟨some .rcx, some (.rdi, 1#64), 0#64⟩, -- 3052: lea rcx, [rcx + rdi]
  .cmov .sg .r8 (.reg .rbp), -- 3053: cmovs r8, rbp
  .mov (.reg .rdi) (.reg .rbx), -- 3054: mov rdi, rbx
  .test (.reg .rcx) (.reg .rdx), -- 3055: test rcx, rdx
  .cmov .zr .r8 (.reg .rbp), -- 3056: cmove r8, rbp
  .cmov .zr .rdi (.reg .rbp), -- 3057: cmove rdi, rbp
  .sar (.reg .rcx) (.imm 1#64), -- 3058: sar rcx, 1
  .xor (.reg .rdi) (.reg .r8), -- 3059: xor rdi, r8
  .xor (.reg .rsi) (.reg .r8), -- 3060: xor rsi, r8
  .bt (.reg .r8) 63#64, -- 3061: bt r8, 0x3f
  .cmov .cy .rbx (.reg .rcx), -- 3062: cmovb rbx, rcx
  .mov (.reg .r8) (.reg .rax), -- 3063: mov r8, rax
  .sub (.reg .rsi) (.reg .rax), -- 3064: sub rsi, rax
  .lea .rcx ⟨some .rcx, some (.rdi, 1#64), 0#64⟩, -- 3065: lea rcx, [rcx + rdi]
  .cmov .sg .r8 (.reg .rbp), -- 3066: cmovs r8, rbp
  .mov (.reg .rdi) (.reg .rbx), -- 3067: mov rdi, rbx
  .test (.reg .rcx) (.reg .rdx), -- 3068: test rcx, rdx
  .cmov .zr .r8 (.reg .rbp), -- 3069: cmove r8, rbp
  .cmov .zr .rdi (.reg .rbp), -- 3070: cmove rdi, rbp
  .sar (.reg .rcx) (.imm 1#64), -- 3071: sar rcx, 1
  .xor (.reg .rdi) (.reg .r8), -- 3072: xor rdi, r8
  .xor (.reg .rsi) (.reg .r8), -- 3073: xor rsi, r8
  .bt (.reg .r8) 63#64, -- 3074: bt r8, 0x3f
  .cmov .cy .rbx (.reg .rcx), -- 3075: cmovb rbx, rcx
  .mov (.reg .r8) (.reg .rax), -- 3076: mov r8, rax
  .sub (.reg .rsi) (.reg .rax), -- 3077: sub rsi, rax
  .lea .rcx ⟨some .rcx, some (.rdi, 1#64), 0#64⟩, -- 3078: lea rcx, [rcx + rdi]
  .cmov .sg .r8 (.reg .rbp), -- 3079: cmovs r8, rbp
  .mov (.reg .rdi) (.reg .rbx), -- 3080: mov rdi, rbx
  .test (.reg .rcx) (.reg .rdx), -- 3081: test rcx, rdx
  .cmov .zr .r8 (.reg .rbp), -- 3082: cmove r8, rbp
  .cmov .zr .rdi (.reg .rbp), -- 3083: cmove rdi, rbp
  .sar (.reg .rcx) (.imm 1#64), -- 3084: sar rcx, 1
  .xor (.reg .rdi) (.reg .r8), -- 3085: xor rdi, r8
  .xor (.reg .rsi) (.reg .r8), -- 3086: xor rsi, r8
  .bt (.reg .r8) 63#64, -- 3087: bt r8, 0x3f
  .cmov .cy .rbx (.reg .rcx), -- 3088: cmovb rbx, rcx
  .mov (.reg .r8) (.reg .rax), -- 3089: mov r8, rax
  .sub (.reg .rsi) (.reg .rax), -- 3090: sub rsi, rax
  .lea .rcx ⟨some .rcx, some (.rdi, 1#64), 0#64⟩, -- 3091: lea rcx, [rcx + rdi]
  .cmov .sg .r8 (.reg .rbp), -- 3092: cmovs r8, rbp
  .mov (.reg .rdi) (.reg .rbx), -- 3093: mov rdi, rbx
  .test (.reg .rcx) (.reg .rdx), -- 3094: test rcx, rdx
  .cmov .zr .r8 (.reg .rbp), -- 3095: cmove r8, rbp
  .cmov .zr .rdi (.reg .rbp), -- 3096: cmove rdi, rbp
  .sar (.reg .rcx) (.imm 1#64), -- 3097: sar rcx, 1
  .xor (.reg .rdi) (.reg .r8), -- 3098: xor rdi, r8
  .xor (.reg .rsi) (.reg .r8), -- 3099: xor rsi, r8
  .bt (.reg .r8) 63#64, -- 3100: bt r8, 0x3f
  .cmov .cy .rbx (.reg .rcx), -- 3101: cmovb rbx, rcx
  .mov (.reg .r8) (.reg .rax), -- 3102: mov r8, rax
  .sub (.reg .rsi) (.reg .rax), -- 3103: sub rsi, rax
  .lea .rcx ⟨some .rcx, some (.rdi, 1#64), 0#64⟩, -- 3104: lea rcx, [rcx + rdi]
  .cmov .sg .r8 (.reg .rbp), -- 3105: cmovs r8, rbp
  .mov (.reg .rdi) (.reg .rbx), -- 3106: mov rdi, rbx
  .test (.reg .rcx) (.reg .rdx), -- 3107: test rcx, rdx
  .cmov .zr .r8 (.reg .rbp), -- 3108: cmove r8, rbp
  .cmov .zr .rdi (.reg .rbp), -- 3109: cmove rdi, rbp
  .sar (.reg .rcx) (.imm 1#64), -- 3110: sar rcx, 1
  .xor (.reg .rdi) (.reg .r8), -- 3111: xor rdi, r8
  .xor (.reg .rsi) (.reg .r8), -- 3112: xor rsi, r8
  .bt (.reg .r8) 63#64, -- 3113: bt r8, 0x3f
  .cmov .cy .rbx (.reg .rcx), -- 3114: cmovb rbx, rcx
  .mov (.reg .r8) (.reg .rax), -- 3115: mov r8, rax
  .sub (.reg .rsi) (.reg .rax), -- 3116: sub rsi, rax
  .lea .rcx ⟨some .rcx, some (.rdi, 1#64), 0#64⟩, -- 3117: lea rcx, [rcx + rdi]
  .cmov .sg .r8 (.reg .rbp), -- 3118: cmovs r8, rbp
  .mov (.reg .rdi) (.reg .rbx), -- 3119: mov rdi, rbx
  .test (.reg .rcx) (.reg .rdx), -- 3120: test rcx, rdx
  .cmov .zr .r8 (.reg .rbp), -- 3121: cmove r8, rbp
  .cmov .zr .rdi (.reg .rbp), -- 3122: cmove rdi, rbp
  .sar (.reg .rcx) (.imm 1#64), -- 3123: sar rcx, 1
  .xor (.reg .rdi) (.reg .r8), -- 3124: xor rdi, r8
  .xor (.reg .rsi) (.reg .r8), -- 3125: xor rsi, r8
  .bt (.reg .r8) 63#64, -- 3126: bt r8, 0x3f
  .cmov .cy .rbx (.reg .rcx), -- 3127: cmovb rbx, rcx
  .mov (.reg .r8) (.reg .rax), -- 3128: mov r8, rax
  .sub (.reg .rsi) (.reg .rax), -- 3129: sub rsi, rax
  .lea .rcx ⟨some .rcx, some (.rdi, 1#64), 0#64⟩, -- 3130: lea rcx, [rcx + rdi]
  .sar (.reg .rcx) (.imm 1#64), -- 3131: sar rcx, 1
  .mov (.reg .rax) (.imm 0x100000#64), -- 3132: mov eax, 0x100000
  .lea .rdx ⟨some .rbx, some (.rax, 1#64), 0#64⟩, -- 3133: lea rdx, [rbx + rax]
  .lea .rdi ⟨some .rcx, some (.rax, 1#64), 0#64⟩, -- 3134: lea rdi, [rcx + rax]
  .shl (.reg .rdx) (.imm 22#64), -- 3135: shl rdx, 0x16
  .shl (.reg .rdi) (.imm 22#64), -- 3136: shl rdi, 0x16
  .sar (.reg .rdx) (.imm 43#64), -- 3137: sar rdx, 0x2b
  .sar (.reg .rdi) (.imm 43#64), -- 3138: sar rdi, 0x2b
  .mov (.reg .rax) (.imm 0x20000100000#64), -- 3139: movabs rax, 0x20000100000
  .lea .rbx ⟨some .rbx, some (.rax, 1#64), 0#64⟩, -- 3140: lea rbx, [rbx + rax]
  .lea .rcx ⟨some .rcx, some (.rax, 1#64), 0#64⟩, -- 3141: lea rcx, [rcx + rax]
  .sar (.reg .rbx) (.imm 42#64), -- 3142: sar rbx, 0x2a
  .sar (.reg .rcx) (.imm 42#64), -- 3143: sar rcx, 0x2a
  .mov (.mem ⟨some .rsp, none, 160#64⟩) (.reg .rdx), -- 3144: mov [rsp + 0xa0], rdx
  .mov (.mem ⟨some .rsp, none, 168#64⟩) (.reg .rbx), -- 3145: mov [rsp + 0xa8], rbx
  .mov (.mem ⟨some .rsp, none, 176#64⟩) (.reg .rdi), -- 3146: mov [rsp + 0xb0], rdi
  .mov (.mem ⟨some .rsp, none, 184#64⟩) (.reg .rcx), -- 3147: mov [rsp + 0xb8], rcx
  .mov (.reg .r12) (.mem ⟨some .rsp, none, 0#64⟩), -- 3148: mov r12, [rsp]
  .imul .rdi (.reg .r12), -- 3149: imul rdi, r12
  .imul .r12 (.reg .rdx), -- 3150: imul r12, rdx
  .mov (.reg .r13) (.mem ⟨some .rsp, none, 32#64⟩), -- 3151: mov r13, [rsp + 0x20]
  .imul .rbx (.reg .r13), -- 3152: imul rbx, r13
  .imul .r13 (.reg .rcx), -- 3153: imul r13, rcx
  .add (.reg .r12) (.reg .rbx), -- 3154: add r12, rbx
  .add (.reg .r13) (.reg .rdi), -- 3155: add r13, rdi
  .sar (.reg .r12) (.imm 20#64), -- 3156: sar r12, 0x14
  .sar (.reg .r13) (.imm 20#64), -- 3157: sar r13, 0x14
  .mov (.reg .rbx) (.reg .r12), -- 3158: mov rbx, r12
  .and (.reg .rbx) (.imm 0xfffff#64), -- 3159: and rbx, 0xfffff
  .mov (.reg .rax) (.imm 0xfffffe0000000000#64), -- 3160: movabs rax, 0xfffffe0000000000
  .or (.reg .rbx) (.reg .rax), -- 3161: or rbx, rax
  .mov (.reg .rcx) (.reg .r13), -- 3162: mov rcx, r13
  .and (.reg .rcx) (.imm 0xfffff#64), -- 3163: and rcx, 0xfffff
  .mov (.reg .rax) (.imm 0xc000000000000000#64), -- 3164: movabs rax, 0xc000000000000000
  .or (.reg .rcx) (.reg .rax), -- 3165: or rcx, rax
  .mov (.reg .rax) (.imm 0xfffffffffffffffe#64), -- 3166: mov rax, 0xfffffffffffffffe
  .mov (.reg .rdx) (.imm 2#64), -- 3167: mov edx, 0x2
  .mov (.reg .rdi) (.reg .rbx), -- 3168: mov rdi, rbx
  .mov (.reg .r8) (.reg .rax), -- 3169: mov r8, rax
  .test (.reg .rsi) (.reg .rsi), -- 3170: test rsi, rsi
  .cmov .sg .r8 (.reg .rbp), -- 3171: cmovs r8, rbp
  .test (.reg .rcx) (.imm 1#64), -- 3172: test rcx, 0x1
  .cmov .zr .r8 (.reg .rbp), -- 3173: cmove r8, rbp
  .cmov .zr .rdi (.reg .rbp), -- 3174: cmove rdi, rbp
  .xor (.reg .rdi) (.reg .r8), -- 3175: xor rdi, r8
  .xor (.reg .rsi) (.reg .r8), -- 3176: xor rsi, r8
  .bt (.reg .r8) 63#64, -- 3177: bt r8, 0x3f
  .cmov .cy .rbx (.reg .rcx), -- 3178: cmovb rbx, rcx
  .mov (.reg .r8) (.reg .rax), -- 3179: mov r8, rax
  .sub (.reg .rsi) (.reg .rax), -- 3180: sub rsi, rax
  .lea .rcx ⟨some .rcx, some (.rdi, 1#64), 0#64⟩, -- 3181: lea rcx, [rcx + rdi]
  .cmov .sg .r8 (.reg .rbp), -- 3182: cmovs r8, rbp
  .mov (.reg .rdi) (.reg .rbx), -- 3183: mov rdi, rbx
  .test (.reg .rcx) (.reg .rdx), -- 3184: test rcx, rdx
  .cmov .zr .r8 (.reg .rbp), -- 3185: cmove r8, rbp
  .cmov .zr .rdi (.reg .rbp), -- 3186: cmove rdi, rbp
  .sar (.reg .rcx) (.imm 1#64), -- 3187: sar rcx, 1
  .xor (.reg .rdi) (.reg .r8), -- 3188: xor rdi, r8
  .xor (.reg .rsi) (.reg .r8), -- 3189: xor rsi, r8
  .bt (.reg .r8) 63#64, -- 3190: bt r8, 0x3f
  .cmov .cy .rbx (.reg .rcx), -- 3191: cmovb rbx, rcx
  .mov (.reg .r8) (.reg .rax), -- 3192: mov r8, rax
  .sub (.reg .rsi) (.reg .rax), -- 3193: sub rsi, rax
  .lea .rcx ⟨some .rcx, some (.rdi, 1#64), 0#64⟩, -- 3194: lea rcx, [rcx + rdi]
  .cmov .sg .r8 (.reg .rbp), -- 3195: cmovs r8, rbp
  .mov (.reg .rdi) (.reg .rbx), -- 3196: mov rdi, rbx
  .test (.reg .rcx) (.reg .rdx), -- 3197: test rcx, rdx
  .cmov .zr .r8 (.reg .rbp), -- 3198: cmove r8, rbp
  .cmov .zr .rdi (.reg .rbp), -- 3199: cmove rdi, rbp
  .sar (.reg .rcx) (.imm 1#64), -- 3200: sar rcx, 1
  .xor (.reg .rdi) (.reg .r8), -- 3201: xor rdi, r8
  .xor (.reg .rsi) (.reg .r8), -- 3202: xor rsi, r8
  .bt (.reg .r8) 63#64, -- 3203: bt r8, 0x3f
  .cmov .cy .rbx (.reg .rcx), -- 3204: cmovb rbx, rcx
  .mov (.reg .r8) (.reg .rax), -- 3205: mov r8, rax
  .sub (.reg .rsi) (.reg .rax), -- 3206: sub rsi, rax
  .lea .rcx ⟨some .rcx, some (.rdi, 1#64), 0#64⟩, -- 3207: lea rcx, [rcx + rdi]
  .cmov .sg .r8 (.reg .rbp), -- 3208: cmovs r8, rbp
  .mov (.reg .rdi) (.reg .rbx), -- 3209: mov rdi, rbx
  .test (.reg .rcx) (.reg .rdx), -- 3210: test rcx, rdx
  .cmov .zr .r8 (.reg .rbp), -- 3211: cmove r8, rbp
  .cmov .zr .rdi (.reg .rbp), -- 3212: cmove rdi, rbp
  .sar (.reg .rcx) (.imm 1#64), -- 3213: sar rcx, 1
  .xor (.reg .rdi) (.reg .r8), -- 3214: xor rdi, r8
  .xor (.reg .rsi) (.reg .r8), -- 3215: xor rsi, r8
  .bt (.reg .r8) 63#64, -- 3216: bt r8, 0x3f
  .cmov .cy .rbx (.reg .rcx), -- 3217: cmovb rbx, rcx
  .mov (.reg .r8) (.reg .rax), -- 3218: mov r8, rax
  .sub (.reg .rsi) (.reg .rax), -- 3219: sub rsi, rax
  .lea .rcx ⟨some .rcx, some (.rdi, 1#64), 0#64⟩, -- 3220: lea rcx, [rcx + rdi]
  .cmov .sg .r8 (.reg .rbp), -- 3221: cmovs r8, rbp
  .mov (.reg .rdi) (.reg .rbx), -- 3222: mov rdi, rbx
  .test (.reg .rcx) (.reg .rdx), -- 3223: test rcx, rdx
  .cmov .zr .r8 (.reg .rbp), -- 3224: cmove r8, rbp
  .cmov .zr .rdi (.reg .rbp), -- 3225: cmove rdi, rbp
  .sar (.reg .rcx) (.imm 1#64), -- 3226: sar rcx, 1
  .xor (.reg .rdi) (.reg .r8), -- 3227: xor rdi, r8
  .xor (.reg .rsi) (.reg .r8), -- 3228: xor rsi, r8
  .bt (.reg .r8) 63#64, -- 3229: bt r8, 0x3f
  .cmov .cy .rbx (.reg .rcx), -- 3230: cmovb rbx, rcx
  .mov (.reg .r8) (.reg .rax), -- 3231: mov r8, rax
  .sub (.reg .rsi) (.reg .rax), -- 3232: sub rsi, rax
  .lea .rcx ⟨some .rcx, some (.rdi, 1#64), 0#64⟩, -- 3233: lea rcx, [rcx + rdi]
  .cmov .sg .r8 (.reg .rbp), -- 3234: cmovs r8, rbp
  .mov (.reg .rdi) (.reg .rbx), -- 3235: mov rdi, rbx
  .test (.reg .rcx) (.reg .rdx), -- 3236: test rcx, rdx
  .cmov .zr .r8 (.reg .rbp), -- 3237: cmove r8, rbp
  .cmov .zr .rdi (.reg .rbp), -- 3238: cmove rdi, rbp
  .sar (.reg .rcx) (.imm 1#64), -- 3239: sar rcx, 1
  .xor (.reg .rdi) (.reg .r8), -- 3240: xor rdi, r8
  .xor (.reg .rsi) (.reg .r8), -- 3241: xor rsi, r8
  .bt (.reg .r8) 63#64, -- 3242: bt r8, 0x3f
  .cmov .cy .rbx (.reg .rcx), -- 3243: cmovb rbx, rcx
  .mov (.reg .r8) (.reg .rax), -- 3244: mov r8, rax
  .sub (.reg .rsi) (.reg .rax), -- 3245: sub rsi, rax
  .lea .rcx ⟨some .rcx, some (.rdi, 1#64), 0#64⟩, -- 3246: lea rcx, [rcx + rdi]
  .cmov .sg .r8 (.reg .rbp), -- 3247: cmovs r8, rbp
  .mov (.reg .rdi) (.reg .rbx), -- 3248: mov rdi, rbx
  .test (.reg .rcx) (.reg .rdx), -- 3249: test rcx, rdx
  .cmov .zr .r8 (.reg .rbp), -- 3250: cmove r8, rbp
  .cmov .zr .rdi (.reg .rbp), -- 3251: cmove rdi, rbp
  .sar (.reg .rcx) (.imm 1#64), -- 3252: sar rcx, 1
  .xor (.reg .rdi) (.reg .r8), -- 3253: xor rdi, r8
  .xor (.reg .rsi) (.reg .r8), -- 3254: xor rsi, r8
  .bt (.reg .r8) 63#64, -- 3255: bt r8, 0x3f
  .cmov .cy .rbx (.reg .rcx), -- 3256: cmovb rbx, rcx
  .mov (.reg .r8) (.reg .rax), -- 3257: mov r8, rax
  .sub (.reg .rsi) (.reg .rax), -- 3258: sub rsi, rax
  .lea .rcx ⟨some .rcx, some (.rdi, 1#64), 0#64⟩, -- 3259: lea rcx, [rcx + rdi]
  .cmov .sg .r8 (.reg .rbp), -- 3260: cmovs r8, rbp
  .mov (.reg .rdi) (.reg .rbx), -- 3261: mov rdi, rbx
  .test (.reg .rcx) (.reg .rdx), -- 3262: test rcx, rdx
  .cmov .zr .r8 (.reg .rbp), -- 3263: cmove r8, rbp
  .cmov .zr .rdi (.reg .rbp), -- 3264: cmove rdi, rbp
  .sar (.reg .rcx) (.imm 1#64), -- 3265: sar rcx, 1
  .xor (.reg .rdi) (.reg .r8), -- 3266: xor rdi, r8
  .xor (.reg .rsi) (.reg .r8), -- 3267: xor rsi, r8
  .bt (.reg .r8) 63#64, -- 3268: bt r8, 0x3f
  .cmov .cy .rbx (.reg .rcx), -- 3269: cmovb rbx, rcx
  .mov (.reg .r8) (.reg .rax), -- 3270: mov r8, rax
  .sub (.reg .rsi) (.reg .rax), -- 3271: sub rsi, rax
  .lea .rcx ⟨some .rcx, some (.rdi, 1#64), 0#64⟩, -- 3272: lea rcx, [rcx + rdi]
  .cmov .sg .r8 (.reg .rbp), -- 3273: cmovs r8, rbp
  .mov (.reg .rdi) (.reg .rbx), -- 3274: mov rdi, rbx
  .test (.reg .rcx) (.reg .rdx), -- 3275: test rcx, rdx
  .cmov .zr .r8 (.reg .rbp), -- 3276: cmove r8, rbp
  .cmov .zr .rdi (.reg .rbp), -- 3277: cmove rdi, rbp
  .sar (.reg .rcx) (.imm 1#64), -- 3278: sar rcx, 1
  .xor (.reg .rdi) (.reg .r8), -- 3279: xor rdi, r8
  .xor (.reg .rsi) (.reg .r8), -- 3280: xor rsi, r8
  .bt (.reg .r8) 63#64, -- 3281: bt r8, 0x3f
  .cmov .cy .rbx (.reg .rcx), -- 3282: cmovb rbx, rcx
  .mov (.reg .r8) (.reg .rax), -- 3283: mov r8, rax
  .sub (.reg .rsi) (.reg .rax), -- 3284: sub rsi, rax
  .lea .rcx ⟨some .rcx, some (.rdi, 1#64), 0#64⟩, -- 3285: lea rcx, [rcx + rdi]
  .cmov .sg .r8 (.reg .rbp), -- 3286: cmovs r8, rbp
  .mov (.reg .rdi) (.reg .rbx), -- 3287: mov rdi, rbx
  .test (.reg .rcx) (.reg .rdx), -- 3288: test rcx, rdx
  .cmov .zr .r8 (.reg .rbp), -- 3289: cmove r8, rbp
  .cmov .zr .rdi (.reg .rbp), -- 3290: cmove rdi, rbp
  .sar (.reg .rcx) (.imm 1#64), -- 3291: sar rcx, 1
  .xor (.reg .rdi) (.reg .r8), -- 3292: xor rdi, r8
  .xor (.reg .rsi) (.reg .r8), -- 3293: xor rsi, r8
  .bt (.reg .r8) 63#64, -- 3294: bt r8, 0x3f
  .cmov .cy .rbx (.reg .rcx), -- 3295: cmovb rbx, rcx
  .mov (.reg .r8) (.reg .rax), -- 3296: mov r8, rax
  .sub (.reg .rsi) (.reg .rax), -- 3297: sub rsi, rax
  .lea .rcx ⟨some .rcx, some (.rdi, 1#64), 0#64⟩, -- 3298: lea rcx, [rcx + rdi]
  .cmov .sg .r8 (.reg .rbp), -- 3299: cmovs r8, rbp
  .mov (.reg .rdi) (.reg .rbx), -- 3300: mov rdi, rbx
  .test (.reg .rcx) (.reg .rdx), -- 3301: test rcx, rdx
  .cmov .zr .r8 (.reg .rbp), -- 3302: cmove r8, rbp
  .cmov .zr .rdi (.reg .rbp), -- 3303: cmove rdi, rbp
  .sar (.reg .rcx) (.imm 1#64), -- 3304: sar rcx, 1
  .xor (.reg .rdi) (.reg .r8), -- 3305: xor rdi, r8
  .xor (.reg .rsi) (.reg .r8), -- 3306: xor rsi, r8
  .bt (.reg .r8) 63#64, -- 3307: bt r8, 0x3f
  .cmov .cy .rbx (.reg .rcx), -- 3308: cmovb rbx, rcx
  .mov (.reg .r8) (.reg .rax), -- 3309: mov r8, rax
  .sub (.reg .rsi) (.reg .rax), -- 3310: sub rsi, rax
  .lea .rcx ⟨some .rcx, some (.rdi, 1#64), 0#64⟩, -- 3311: lea rcx, [rcx + rdi]
  .cmov .sg .r8 (.reg .rbp), -- 3312: cmovs r8, rbp
  .mov (.reg .rdi) (.reg .rbx), -- 3313: mov rdi, rbx
  .test (.reg .rcx) (.reg .rdx), -- 3314: test rcx, rdx
  .cmov .zr .r8 (.reg .rbp), -- 3315: cmove r8, rbp
  .cmov .zr .rdi (.reg .rbp), -- 3316: cmove rdi, rbp
  .sar (.reg .rcx) (.imm 1#64), -- 3317: sar rcx, 1
  .xor (.reg .rdi) (.reg .r8), -- 3318: xor rdi, r8
  .xor (.reg .rsi) (.reg .r8), -- 3319: xor rsi, r8
  .bt (.reg .r8) 63#64, -- 3320: bt r8, 0x3f
  .cmov .cy .rbx (.reg .rcx), -- 3321: cmovb rbx, rcx
  .mov (.reg .r8) (.reg .rax), -- 3322: mov r8, rax
  .sub (.reg .rsi) (.reg .rax), -- 3323: sub rsi, rax
  .lea .rcx ⟨some .rcx, some (.rdi, 1#64), 0#64⟩, -- 3324: lea rcx, [rcx + rdi]
  .cmov .sg .r8 (.reg .rbp), -- 3325: cmovs r8, rbp
  .mov (.reg .rdi) (.reg .rbx), -- 3326: mov rdi, rbx
  .test (.reg .rcx) (.reg .rdx), -- 3327: test rcx, rdx
  .cmov .zr .r8 (.reg .rbp), -- 3328: cmove r8, rbp
  .cmov .zr .rdi (.reg .rbp), -- 3329: cmove rdi, rbp
  .sar (.reg .rcx) (.imm 1#64), -- 3330: sar rcx, 1
  .xor (.reg .rdi) (.reg .r8), -- 3331: xor rdi, r8
  .xor (.reg .rsi) (.reg .r8), -- 3332: xor rsi, r8
  .bt (.reg .r8) 63#64, -- 3333: bt r8, 0x3f
  .cmov .cy .rbx (.reg .rcx), -- 3334: cmovb rbx, rcx
  .mov (.reg .r8) (.reg .rax), -- 3335: mov r8, rax
  .sub (.reg .rsi) (.reg .rax), -- 3336: sub rsi, rax
  .lea .rcx ⟨some .rcx, some (.rdi, 1#64), 0#64⟩, -- 3337: lea rcx, [rcx + rdi]
  .cmov .sg .r8 (.reg .rbp), -- 3338: cmovs r8, rbp
  .mov (.reg .rdi) (.reg .rbx), -- 3339: mov rdi, rbx
  .test (.reg .rcx) (.reg .rdx), -- 3340: test rcx, rdx
  .cmov .zr .r8 (.reg .rbp), -- 3341: cmove r8, rbp
  .cmov .zr .rdi (.reg .rbp), -- 3342: cmove rdi, rbp
  .sar (.reg .rcx) (.imm 1#64), -- 3343: sar rcx, 1
  .xor (.reg .rdi) (.reg .r8), -- 3344: xor rdi, r8
  .xor (.reg .rsi) (.reg .r8), -- 3345: xor rsi, r8
  .bt (.reg .r8) 63#64, -- 3346: bt r8, 0x3f
  .cmov .cy .rbx (.reg .rcx), -- 3347: cmovb rbx, rcx
  .mov (.reg .r8) (.reg .rax), -- 3348: mov r8, rax
  .sub (.reg .rsi) (.reg .rax), -- 3349: sub rsi, rax
  .lea .rcx ⟨some .rcx, some (.rdi, 1#64), 0#64⟩, -- 3350: lea rcx, [rcx + rdi]
  .cmov .sg .r8 (.reg .rbp), -- 3351: cmovs r8, rbp
  .mov (.reg .rdi) (.reg .rbx), -- 3352: mov rdi, rbx
  .test (.reg .rcx) (.reg .rdx), -- 3353: test rcx, rdx
  .cmov .zr .r8 (.reg .rbp), -- 3354: cmove r8, rbp
  .cmov .zr .rdi (.reg .rbp), -- 3355: cmove rdi, rbp
  .sar (.reg .rcx) (.imm 1#64), -- 3356: sar rcx, 1
  .xor (.reg .rdi) (.reg .r8), -- 3357: xor rdi, r8
  .xor (.reg .rsi) (.reg .r8), -- 3358: xor rsi, r8
  .bt (.reg .r8) 63#64, -- 3359: bt r8, 0x3f
  .cmov .cy .rbx (.reg .rcx), -- 3360: cmovb rbx, rcx
  .mov (.reg .r8) (.reg .rax), -- 3361: mov r8, rax
  .sub (.reg .rsi) (.reg .rax), -- 3362: sub rsi, rax
  .lea .rcx ⟨some .rcx, some (.rdi, 1#64), 0#64⟩, -- 3363: lea rcx, [rcx + rdi]
  .cmov .sg .r8 (.reg .rbp), -- 3364: cmovs r8, rbp
  .mov (.reg .rdi) (.reg .rbx), -- 3365: mov rdi, rbx
  .test (.reg .rcx) (.reg .rdx), -- 3366: test rcx, rdx
  .cmov .zr .r8 (.reg .rbp), -- 3367: cmove r8, rbp
  .cmov .zr .rdi (.reg .rbp), -- 3368: cmove rdi, rbp
  .sar (.reg .rcx) (.imm 1#64), -- 3369: sar rcx, 1
  .xor (.reg .rdi) (.reg .r8), -- 3370: xor rdi, r8
  .xor (.reg .rsi) (.reg .r8), -- 3371: xor rsi, r8
  .bt (.reg .r8) 63#64, -- 3372: bt r8, 0x3f
  .cmov .cy .rbx (.reg .rcx), -- 3373: cmovb rbx, rcx
  .mov (.reg .r8) (.reg .rax), -- 3374: mov r8, rax
  .sub (.reg .rsi) (.reg .rax), -- 3375: sub rsi, rax
  .lea .rcx ⟨some .rcx, some (.rdi, 1#64), 0#64⟩, -- 3376: lea rcx, [rcx + rdi]
  .cmov .sg .r8 (.reg .rbp), -- 3377: cmovs r8, rbp
  .mov (.reg .rdi) (.reg .rbx), -- 3378: mov rdi, rbx
  .test (.reg .rcx) (.reg .rdx), -- 3379: test rcx, rdx
  .cmov .zr .r8 (.reg .rbp), -- 3380: cmove r8, rbp
  .cmov .zr .rdi (.reg .rbp), -- 3381: cmove rdi, rbp
  .sar (.reg .rcx) (.imm 1#64), -- 3382: sar rcx, 1
  .xor (.reg .rdi) (.reg .r8), -- 3383: xor rdi, r8
  .xor (.reg .rsi) (.reg .r8), -- 3384: xor rsi, r8
  .bt (.reg .r8) 63#64, -- 3385: bt r8, 0x3f
  .cmov .cy .rbx (.reg .rcx), -- 3386: cmovb rbx, rcx
  .mov (.reg .r8) (.reg .rax), -- 3387: mov r8, rax
  .sub (.reg .rsi) (.reg .rax), -- 3388: sub rsi, rax
  .lea .rcx ⟨some .rcx, some (.rdi, 1#64), 0#64⟩, -- 3389: lea rcx, [rcx + rdi]
  .cmov .sg .r8 (.reg .rbp), -- 3390: cmovs r8, rbp
  .mov (.reg .rdi) (.reg .rbx), -- 3391: mov rdi, rbx
  .test (.reg .rcx) (.reg .rdx), -- 3392: test rcx, rdx
  .cmov .zr .r8 (.reg .rbp), -- 3393: cmove r8, rbp
  .cmov .zr .rdi (.reg .rbp), -- 3394: cmove rdi, rbp
  .sar (.reg .rcx) (.imm 1#64), -- 3395: sar rcx, 1
  .xor (.reg .rdi) (.reg .r8), -- 3396: xor rdi, r8
  .xor (.reg .rsi) (.reg .r8), -- 3397: xor rsi, r8
  .bt (.reg .r8) 63#64, -- 3398: bt r8, 0x3f
  .cmov .cy .rbx (.reg .rcx), -- 3399: cmovb rbx, rcx
  .mov (.reg .r8) (.reg .rax), -- 3400: mov r8, rax
  .sub (.reg .rsi) (.reg .rax), -- 3401: sub rsi, rax
  .lea .rcx ⟨some .rcx, some (.rdi, 1#64), 0#64⟩, -- 3402: lea rcx, [rcx + rdi]
  .cmov .sg .r8 (.reg .rbp), -- 3403: cmovs r8, rbp
  .mov (.reg .rdi) (.reg .rbx), -- 3404: mov rdi, rbx
  .test (.reg .rcx) (.reg .rdx), -- 3405: test rcx, rdx
  .cmov .zr .r8 (.reg .rbp), -- 3406: cmove r8, rbp
  .cmov .zr .rdi (.reg .rbp), -- 3407: cmove rdi, rbp
  .sar (.reg .rcx) (.imm 1#64), -- 3408: sar rcx, 1
  .xor (.reg .rdi) (.reg .r8), -- 3409: xor rdi, r8
  .xor (.reg .rsi) (.reg .r8), -- 3410: xor rsi, r8
  .bt (.reg .r8) 63#64, -- 3411: bt r8, 0x3f
  .cmov .cy .rbx (.reg .rcx), -- 3412: cmovb rbx, rcx
  .mov (.reg .r8) (.reg .rax), -- 3413: mov r8, rax
  .sub (.reg .rsi) (.reg .rax), -- 3414: sub rsi, rax
  .lea .rcx ⟨some .rcx, some (.rdi, 1#64), 0#64⟩, -- 3415: lea rcx, [rcx + rdi]
  .cmov .sg .r8 (.reg .rbp), -- 3416: cmovs r8, rbp
  .mov (.reg .rdi) (.reg .rbx), -- 3417: mov rdi, rbx
  .test (.reg .rcx) (.reg .rdx), -- 3418: test rcx, rdx
  .cmov .zr .r8 (.reg .rbp), -- 3419: cmove r8, rbp
  .cmov .zr .rdi (.reg .rbp), -- 3420: cmove rdi, rbp
  .sar (.reg .rcx) (.imm 1#64), -- 3421: sar rcx, 1
  .xor (.reg .rdi) (.reg .r8), -- 3422: xor rdi, r8
  .xor (.reg .rsi) (.reg .r8), -- 3423: xor rsi, r8
  .bt (.reg .r8) 63#64, -- 3424: bt r8, 0x3f
  .cmov .cy .rbx (.reg .rcx), -- 3425: cmovb rbx, rcx
  .mov (.reg .r8) (.reg .rax), -- 3426: mov r8, rax
  .sub (.reg .rsi) (.reg .rax), -- 3427: sub rsi, rax
  .lea .rcx ⟨some .rcx, some (.rdi, 1#64), 0#64⟩, -- 3428: lea rcx, [rcx + rdi]
  .sar (.reg .rcx) (.imm 1#64), -- 3429: sar rcx, 1
  .mov (.reg .rax) (.imm 0x100000#64), -- 3430: mov eax, 0x100000
  .lea .r8 ⟨some .rbx, some (.rax, 1#64), 0#64⟩, -- 3431: lea r8, [rbx + rax]
  .lea .r10 ⟨some .rcx, some (.rax, 1#64), 0#64⟩, -- 3432: lea r10, [rcx + rax]
  .shl (.reg .r8) (.imm 22#64), -- 3433: shl r8, 0x16
  .shl (.reg .r10) (.imm 22#64), -- 3434: shl r10, 0x16
  .sar (.reg .r8) (.imm 43#64), -- 3435: sar r8, 0x2b
  .sar (.reg .r10) (.imm 43#64), -- 3436: sar r10, 0x2b
  .mov (.reg .rax) (.imm 0x20000100000#64), -- 3437: movabs rax, 0x20000100000
  .lea .r15 ⟨some .rbx, some (.rax, 1#64), 0#64⟩, -- 3438: lea r15, [rbx + rax]
  .lea .r11 ⟨some .rcx, some (.rax, 1#64), 0#64⟩, -- 3439: lea r11, [rcx + rax]
  .sar (.reg .r15) (.imm 42#64), -- 3440: sar r15, 0x2a
  .sar (.reg .r11) (.imm 42#64), -- 3441: sar r11, 0x2a
  .mov (.reg .rbx) (.reg .r13), -- 3442: mov rbx, r13
  .mov (.reg .rcx) (.reg .r12), -- 3443: mov rcx, r12
  .imul .r12 (.reg .r8), -- 3444: imul r12, r8
  .imul .rbx (.reg .r15), -- 3445: imul rbx, r15
  .add (.reg .r12) (.reg .rbx), -- 3446: add r12, rbx
  .imul .r13 (.reg .r11), -- 3447: imul r13, r11
  .imul .rcx (.reg .r10), -- 3448: imul rcx, r10
  .add (.reg .r13) (.reg .rcx), -- 3449: add r13, rcx
  .sar (.reg .r12) (.imm 20#64), -- 3450: sar r12, 0x14
  .sar (.reg .r13) (.imm 20#64), -- 3451: sar r13, 0x14
  .mov (.reg .rbx) (.reg .r12), -- 3452: mov rbx, r12
  .and (.reg .rbx) (.imm 0xfffff#64), -- 3453: and rbx, 0xfffff
  .mov (.reg .rax) (.imm 0xfffffe0000000000#64), -- 3454: movabs rax, 0xfffffe0000000000
  .or (.reg .rbx) (.reg .rax), -- 3455: or rbx, rax
  .mov (.reg .rcx) (.reg .r13), -- 3456: mov rcx, r13
  .and (.reg .rcx) (.imm 0xfffff#64), -- 3457: and rcx, 0xfffff
  .mov (.reg .rax) (.imm 0xc000000000000000#64), -- 3458: movabs rax, 0xc000000000000000
  .or (.reg .rcx) (.reg .rax), -- 3459: or rcx, rax
  .mov (.reg .rax) (.mem ⟨some .rsp, none, 160#64⟩), -- 3460: mov rax, [rsp + 0xa0]
  .imul .rax (.reg .r8), -- 3461: imul rax, r8
  .mov (.reg .rdx) (.mem ⟨some .rsp, none, 176#64⟩), -- 3462: mov rdx, [rsp + 0xb0]
  .imul .rdx (.reg .r15), -- 3463: imul rdx, r15
  .imul .r8 (.mem ⟨some .rsp, none, 168#64⟩), -- 3464: imul r8, [rsp + 0xa8]
  .imul .r15 (.mem ⟨some .rsp, none, 184#64⟩), -- 3465: imul r15, [rsp + 0xb8]
  .add (.reg .r15) (.reg .r8), -- 3466: add r15, r8
  .lea .r9 ⟨some .rax, some (.rdx, 1#64), 0#64⟩, -- 3467: lea r9, [rax + rdx]
  .mov (.reg .rax) (.mem ⟨some .rsp, none, 160#64⟩), -- 3468: mov rax, [rsp + 0xa0]
  .imul .rax (.reg .r10), -- 3469: imul rax, r10
  .mov (.reg .rdx) (.mem ⟨some .rsp, none, 176#64⟩), -- 3470: mov rdx, [rsp + 0xb0]
  .imul .rdx (.reg .r11), -- 3471: imul rdx, r11
  .imul .r10 (.mem ⟨some .rsp, none, 168#64⟩), -- 3472: imul r10, [rsp + 0xa8]
  .imul .r11 (.mem ⟨some .rsp, none, 184#64⟩), -- 3473: imul r11, [rsp + 0xb8]
  .add (.reg .r11) (.reg .r10), -- 3474: add r11, r10
  .lea .r13 ⟨some .rax, some (.rdx, 1#64), 0#64⟩, -- 3475: lea r13, [rax + rdx]
  .mov (.reg .rax) (.imm 0xfffffffffffffffe#64), -- 3476: mov rax, 0xfffffffffffffffe
  .mov (.reg .rdx) (.imm 2#64), -- 3477: mov edx, 0x2
  .mov (.reg .rdi) (.reg .rbx), -- 3478: mov rdi, rbx
  .mov (.reg .r8) (.reg .rax), -- 3479: mov r8, rax
  .test (.reg .rsi) (.reg .rsi), -- 3480: test rsi, rsi
  .cmov .sg .r8 (.reg .rbp), -- 3481: cmovs r8, rbp
  .test (.reg .rcx) (.imm 1#64), -- 3482: test rcx, 0x1
  .cmov .zr .r8 (.reg .rbp), -- 3483: cmove r8, rbp
  .cmov .zr .rdi (.reg .rbp), -- 3484: cmove rdi, rbp
  .xor (.reg .rdi) (.reg .r8), -- 3485: xor rdi, r8
  .xor (.reg .rsi) (.reg .r8), -- 3486: xor rsi, r8
  .bt (.reg .r8) 63#64, -- 3487: bt r8, 0x3f
  .cmov .cy .rbx (.reg .rcx), -- 3488: cmovb rbx, rcx
  .mov (.reg .r8) (.reg .rax), -- 3489: mov r8, rax
  .sub (.reg .rsi) (.reg .rax), -- 3490: sub rsi, rax
  .lea .rcx ⟨some .rcx, some (.rdi, 1#64), 0#64⟩, -- 3491: lea rcx, [rcx + rdi]
  .cmov .sg .r8 (.reg .rbp), -- 3492: cmovs r8, rbp
  .mov (.reg .rdi) (.reg .rbx), -- 3493: mov rdi, rbx
  .test (.reg .rcx) (.reg .rdx), -- 3494: test rcx, rdx
  .cmov .zr .r8 (.reg .rbp), -- 3495: cmove r8, rbp
  .cmov .zr .rdi (.reg .rbp), -- 3496: cmove rdi, rbp
  .sar (.reg .rcx) (.imm 1#64), -- 3497: sar rcx, 1
  .xor (.reg .rdi) (.reg .r8), -- 3498: xor rdi, r8
  .xor (.reg .rsi) (.reg .r8), -- 3499: xor rsi, r8
  .bt (.reg .r8) 63#64, -- 3500: bt r8, 0x3f
  .cmov .cy .rbx (.reg .rcx), -- 3501: cmovb rbx, rcx
  .mov (.reg .r8) (.reg .rax), -- 3502: mov r8, rax
  .sub (.reg .rsi) (.reg .rax), -- 3503: sub rsi, rax
  .lea .rcx ⟨some .rcx, some (.rdi, 1#64), 0#64⟩, -- 3504: lea rcx, [rcx + rdi]
  .cmov .sg .r8 (.reg .rbp), -- 3505: cmovs r8, rbp
  .mov (.reg .rdi) (.reg .rbx), -- 3506: mov rdi, rbx
  .test (.reg .rcx) (.reg .rdx), -- 3507: test rcx, rdx
  .cmov .zr .r8 (.reg .rbp), -- 3508: cmove r8, rbp
  .cmov .zr .rdi (.reg .rbp), -- 3509: cmove rdi, rbp
  .sar (.reg .rcx) (.imm 1#64), -- 3510: sar rcx, 1
  .xor (.reg .rdi) (.reg .r8), -- 3511: xor rdi, r8
  .xor (.reg .rsi) (.reg .r8), -- 3512: xor rsi, r8
  .bt (.reg .r8) 63#64, -- 3513: bt r8, 0x3f
  .cmov .cy .rbx (.reg .rcx), -- 3514: cmovb rbx, rcx
  .mov (.reg .r8) (.reg .rax), -- 3515: mov r8, rax
  .sub (.reg .rsi) (.reg .rax), -- 3516: sub rsi, rax
  .lea .rcx ⟨some .rcx, some (.rdi, 1#64), 0#64⟩, -- 3517: lea rcx, [rcx + rdi]
  .cmov .sg .r8 (.reg .rbp), -- 3518: cmovs r8, rbp
  .mov (.reg .rdi) (.reg .rbx), -- 3519: mov rdi, rbx
  .test (.reg .rcx) (.reg .rdx), -- 3520: test rcx, rdx
  .cmov .zr .r8 (.reg .rbp), -- 3521: cmove r8, rbp
  .cmov .zr .rdi (.reg .rbp), -- 3522: cmove rdi, rbp
  .sar (.reg .rcx) (.imm 1#64), -- 3523: sar rcx, 1
  .xor (.reg .rdi) (.reg .r8), -- 3524: xor rdi, r8
  .xor (.reg .rsi) (.reg .r8), -- 3525: xor rsi, r8
  .bt (.reg .r8) 63#64, -- 3526: bt r8, 0x3f
  .cmov .cy .rbx (.reg .rcx), -- 3527: cmovb rbx, rcx
  .mov (.reg .r8) (.reg .rax), -- 3528: mov r8, rax
  .sub (.reg .rsi) (.reg .rax), -- 3529: sub rsi, rax
  .lea .rcx ⟨some .rcx, some (.rdi, 1#64), 0#64⟩, -- 3530: lea rcx, [rcx + rdi]
  .cmov .sg .r8 (.reg .rbp), -- 3531: cmovs r8, rbp
  .mov (.reg .rdi) (.reg .rbx), -- 3532: mov rdi, rbx
  .test (.reg .rcx) (.reg .rdx), -- 3533: test rcx, rdx
  .cmov .zr .r8 (.reg .rbp), -- 3534: cmove r8, rbp
  .cmov .zr .rdi (.reg .rbp), -- 3535: cmove rdi, rbp
  .sar (.reg .rcx) (.imm 1#64), -- 3536: sar rcx, 1
  .xor (.reg .rdi) (.reg .r8), -- 3537: xor rdi, r8
  .xor (.reg .rsi) (.reg .r8), -- 3538: xor rsi, r8
  .bt (.reg .r8) 63#64, -- 3539: bt r8, 0x3f
  .cmov .cy .rbx (.reg .rcx), -- 3540: cmovb rbx, rcx
  .mov (.reg .r8) (.reg .rax), -- 3541: mov r8, rax
  .sub (.reg .rsi) (.reg .rax), -- 3542: sub rsi, rax
  .lea .rcx ⟨some .rcx, some (.rdi, 1#64), 0#64⟩, -- 3543: lea rcx, [rcx + rdi]
  .cmov .sg .r8 (.reg .rbp), -- 3544: cmovs r8, rbp
  .mov (.reg .rdi) (.reg .rbx), -- 3545: mov rdi, rbx
  .test (.reg .rcx) (.reg .rdx), -- 3546: test rcx, rdx
  .cmov .zr .r8 (.reg .rbp), -- 3547: cmove r8, rbp
  .cmov .zr .rdi (.reg .rbp), -- 3548: cmove rdi, rbp
  .sar (.reg .rcx) (.imm 1#64), -- 3549: sar rcx, 1
  .xor (.reg .rdi) (.reg .r8), -- 3550: xor rdi, r8
  .xor (.reg .rsi) (.reg .r8), -- 3551: xor rsi, r8
  .bt (.reg .r8) 63#64, -- 3552: bt r8, 0x3f
  .cmov .cy .rbx (.reg .rcx), -- 3553: cmovb rbx, rcx
  .mov (.reg .r8) (.reg .rax), -- 3554: mov r8, rax
  .sub (.reg .rsi) (.reg .rax), -- 3555: sub rsi, rax
  .lea .rcx ⟨some .rcx, some (.rdi, 1#64), 0#64⟩, -- 3556: lea rcx, [rcx + rdi]
  .cmov .sg .r8 (.reg .rbp), -- 3557: cmovs r8, rbp
  .mov (.reg .rdi) (.reg .rbx), -- 3558: mov rdi, rbx
  .test (.reg .rcx) (.reg .rdx), -- 3559: test rcx, rdx
  .cmov .zr .r8 (.reg .rbp), -- 3560: cmove r8, rbp
  .cmov .zr .rdi (.reg .rbp), -- 3561: cmove rdi, rbp
  .sar (.reg .rcx) (.imm 1#64), -- 3562: sar rcx, 1
  .xor (.reg .rdi) (.reg .r8), -- 3563: xor rdi, r8
  .xor (.reg .rsi) (.reg .r8), -- 3564: xor rsi, r8
  .bt (.reg .r8) 63#64, -- 3565: bt r8, 0x3f
  .cmov .cy .rbx (.reg .rcx), -- 3566: cmovb rbx, rcx
  .mov (.reg .r8) (.reg .rax), -- 3567: mov r8, rax
  .sub (.reg .rsi) (.reg .rax), -- 3568: sub rsi, rax
  .lea .rcx ⟨some .rcx, some (.rdi, 1#64), 0#64⟩, -- 3569: lea rcx, [rcx + rdi]
  .cmov .sg .r8 (.reg .rbp), -- 3570: cmovs r8, rbp
  .mov (.reg .rdi) (.reg .rbx), -- 3571: mov rdi, rbx
  .test (.reg .rcx) (.reg .rdx), -- 3572: test rcx, rdx
  .cmov .zr .r8 (.reg .rbp), -- 3573: cmove r8, rbp
  .cmov .zr .rdi (.reg .rbp), -- 3574: cmove rdi, rbp
  .sar (.reg .rcx) (.imm 1#64), -- 3575: sar rcx, 1
  .xor (.reg .rdi) (.reg .r8), -- 3576: xor rdi, r8
  .xor (.reg .rsi) (.reg .r8), -- 3577: xor rsi, r8
  .bt (.reg .r8) 63#64, -- 3578: bt r8, 0x3f
  .cmov .cy .rbx (.reg .rcx), -- 3579: cmovb rbx, rcx
  .mov (.reg .r8) (.reg .rax), -- 3580: mov r8, rax
  .sub (.reg .rsi) (.reg .rax), -- 3581: sub rsi, rax
  .lea .rcx ⟨some .rcx, some (.rdi, 1#64), 0#64⟩, -- 3582: lea rcx, [rcx + rdi]
  .cmov .sg .r8 (.reg .rbp), -- 3583: cmovs r8, rbp
  .mov (.reg .rdi) (.reg .rbx), -- 3584: mov rdi, rbx
  .test (.reg .rcx) (.reg .rdx), -- 3585: test rcx, rdx
  .cmov .zr .r8 (.reg .rbp), -- 3586: cmove r8, rbp
  .cmov .zr .rdi (.reg .rbp), -- 3587: cmove rdi, rbp
  .sar (.reg .rcx) (.imm 1#64), -- 3588: sar rcx, 1
  .xor (.reg .rdi) (.reg .r8), -- 3589: xor rdi, r8
  .xor (.reg .rsi) (.reg .r8), -- 3590: xor rsi, r8
  .bt (.reg .r8) 63#64, -- 3591: bt r8, 0x3f
  .cmov .cy .rbx (.reg .rcx), -- 3592: cmovb rbx, rcx
  .mov (.reg .r8) (.reg .rax), -- 3593: mov r8, rax
  .sub (.reg .rsi) (.reg .rax), -- 3594: sub rsi, rax
  .lea .rcx ⟨some .rcx, some (.rdi, 1#64), 0#64⟩, -- 3595: lea rcx, [rcx + rdi]
  .cmov .sg .r8 (.reg .rbp), -- 3596: cmovs r8, rbp
  .mov (.reg .rdi) (.reg .rbx), -- 3597: mov rdi, rbx
  .test (.reg .rcx) (.reg .rdx), -- 3598: test rcx, rdx
  .cmov .zr .r8 (.reg .rbp), -- 3599: cmove r8, rbp
  .cmov .zr .rdi (.reg .rbp), -- 3600: cmove rdi, rbp
  .sar (.reg .rcx) (.imm 1#64), -- 3601: sar rcx, 1
  .xor (.reg .rdi) (.reg .r8), -- 3602: xor rdi, r8
  .xor (.reg .rsi) (.reg .r8), -- 3603: xor rsi, r8
  .bt (.reg .r8) 63#64, -- 3604: bt r8, 0x3f
  .cmov .cy .rbx (.reg .rcx), -- 3605: cmovb rbx, rcx
  .mov (.reg .r8) (.reg .rax), -- 3606: mov r8, rax
  .sub (.reg .rsi) (.reg .rax), -- 3607: sub rsi, rax
  .lea .rcx ⟨some .rcx, some (.rdi, 1#64), 0#64⟩, -- 3608: lea rcx, [rcx + rdi]
  .cmov .sg .r8 (.reg .rbp), -- 3609: cmovs r8, rbp
  .mov (.reg .rdi) (.reg .rbx), -- 3610: mov rdi, rbx
  .test (.reg .rcx) (.reg .rdx), -- 3611: test rcx, rdx
  .cmov .zr .r8 (.reg .rbp), -- 3612: cmove r8, rbp
  .cmov .zr .rdi (.reg .rbp), -- 3613: cmove rdi, rbp
  .sar (.reg .rcx) (.imm 1#64), -- 3614: sar rcx, 1
  .xor (.reg .rdi) (.reg .r8), -- 3615: xor rdi, r8
  .xor (.reg .rsi) (.reg .r8), -- 3616: xor rsi, r8
  .bt (.reg .r8) 63#64, -- 3617: bt r8, 0x3f
  .cmov .cy .rbx (.reg .rcx), -- 3618: cmovb rbx, rcx
  .mov (.reg .r8) (.reg .rax), -- 3619: mov r8, rax
  .sub (.reg .rsi) (.reg .rax), -- 3620: sub rsi, rax
  .lea .rcx ⟨some .rcx, some (.rdi, 1#64), 0#64⟩, -- 3621: lea rcx, [rcx + rdi]
  .cmov .sg .r8 (.reg .rbp), -- 3622: cmovs r8, rbp
  .mov (.reg .rdi) (.reg .rbx), -- 3623: mov rdi, rbx
  .test (.reg .rcx) (.reg .rdx), -- 3624: test rcx, rdx
  .cmov .zr .r8 (.reg .rbp), -- 3625: cmove r8, rbp
  .cmov .zr .rdi (.reg .rbp), -- 3626: cmove rdi, rbp
  .sar (.reg .rcx) (.imm 1#64), -- 3627: sar rcx, 1
  .xor (.reg .rdi) (.reg .r8), -- 3628: xor rdi, r8
  .xor (.reg .rsi) (.reg .r8), -- 3629: xor rsi, r8
  .bt (.reg .r8) 63#64, -- 3630: bt r8, 0x3f
  .cmov .cy .rbx (.reg .rcx), -- 3631: cmovb rbx, rcx
  .mov (.reg .r8) (.reg .rax), -- 3632: mov r8, rax
  .sub (.reg .rsi) (.reg .rax), -- 3633: sub rsi, rax
  .lea .rcx ⟨some .rcx, some (.rdi, 1#64), 0#64⟩, -- 3634: lea rcx, [rcx + rdi]
  .cmov .sg .r8 (.reg .rbp), -- 3635: cmovs r8, rbp
  .mov (.reg .rdi) (.reg .rbx), -- 3636: mov rdi, rbx
  .test (.reg .rcx) (.reg .rdx), -- 3637: test rcx, rdx
  .cmov .zr .r8 (.reg .rbp), -- 3638: cmove r8, rbp
  .cmov .zr .rdi (.reg .rbp), -- 3639: cmove rdi, rbp
  .sar (.reg .rcx) (.imm 1#64), -- 3640: sar rcx, 1
  .xor (.reg .rdi) (.reg .r8), -- 3641: xor rdi, r8
  .xor (.reg .rsi) (.reg .r8), -- 3642: xor rsi, r8
  .bt (.reg .r8) 63#64, -- 3643: bt r8, 0x3f
  .cmov .cy .rbx (.reg .rcx), -- 3644: cmovb rbx, rcx
  .mov (.reg .r8) (.reg .rax), -- 3645: mov r8, rax
  .sub (.reg .rsi) (.reg .rax), -- 3646: sub rsi, rax
  .lea .rcx ⟨some .rcx, some (.rdi, 1#64), 0#64⟩, -- 3647: lea rcx, [rcx + rdi]
  .cmov .sg .r8 (.reg .rbp), -- 3648: cmovs r8, rbp
  .mov (.reg .rdi) (.reg .rbx), -- 3649: mov rdi, rbx
  .test (.reg .rcx) (.reg .rdx), -- 3650: test rcx, rdx
  .cmov .zr .r8 (.reg .rbp), -- 3651: cmove r8, rbp
  .cmov .zr .rdi (.reg .rbp), -- 3652: cmove rdi, rbp
  .sar (.reg .rcx) (.imm 1#64), -- 3653: sar rcx, 1
  .xor (.reg .rdi) (.reg .r8), -- 3654: xor rdi, r8
  .xor (.reg .rsi) (.reg .r8), -- 3655: xor rsi, r8
  .bt (.reg .r8) 63#64, -- 3656: bt r8, 0x3f
  .cmov .cy .rbx (.reg .rcx), -- 3657: cmovb rbx, rcx
  .mov (.reg .r8) (.reg .rax), -- 3658: mov r8, rax
  .sub (.reg .rsi) (.reg .rax), -- 3659: sub rsi, rax
  .lea .rcx ⟨some .rcx, some (.rdi, 1#64), 0#64⟩, -- 3660: lea rcx, [rcx + rdi]
  .cmov .sg .r8 (.reg .rbp), -- 3661: cmovs r8, rbp
  .mov (.reg .rdi) (.reg .rbx), -- 3662: mov rdi, rbx
  .test (.reg .rcx) (.reg .rdx), -- 3663: test rcx, rdx
  .cmov .zr .r8 (.reg .rbp), -- 3664: cmove r8, rbp
  .cmov .zr .rdi (.reg .rbp), -- 3665: cmove rdi, rbp
  .sar (.reg .rcx) (.imm 1#64), -- 3666: sar rcx, 1
  .xor (.reg .rdi) (.reg .r8), -- 3667: xor rdi, r8
  .xor (.reg .rsi) (.reg .r8), -- 3668: xor rsi, r8
  .bt (.reg .r8) 63#64, -- 3669: bt r8, 0x3f
  .cmov .cy .rbx (.reg .rcx), -- 3670: cmovb rbx, rcx
  .mov (.reg .r8) (.reg .rax), -- 3671: mov r8, rax
  .sub (.reg .rsi) (.reg .rax), -- 3672: sub rsi, rax
  .lea .rcx ⟨some .rcx, some (.rdi, 1#64), 0#64⟩, -- 3673: lea rcx, [rcx + rdi]
  .cmov .sg .r8 (.reg .rbp), -- 3674: cmovs r8, rbp
  .mov (.reg .rdi) (.reg .rbx), -- 3675: mov rdi, rbx
  .test (.reg .rcx) (.reg .rdx), -- 3676: test rcx, rdx
  .cmov .zr .r8 (.reg .rbp), -- 3677: cmove r8, rbp
  .cmov .zr .rdi (.reg .rbp), -- 3678: cmove rdi, rbp
  .sar (.reg .rcx) (.imm 1#64), -- 3679: sar rcx, 1
  .xor (.reg .rdi) (.reg .r8), -- 3680: xor rdi, r8
  .xor (.reg .rsi) (.reg .r8), -- 3681: xor rsi, r8
  .bt (.reg .r8) 63#64, -- 3682: bt r8, 0x3f
  .cmov .cy .rbx (.reg .rcx), -- 3683: cmovb rbx, rcx
  .mov (.reg .r8) (.reg .rax), -- 3684: mov r8, rax
  .sub (.reg .rsi) (.reg .rax), -- 3685: sub rsi, rax
  .lea .rcx ⟨some .rcx, some (.rdi, 1#64), 0#64⟩, -- 3686: lea rcx, [rcx + rdi]
  .cmov .sg .r8 (.reg .rbp), -- 3687: cmovs r8, rbp
  .mov (.reg .rdi) (.reg .rbx), -- 3688: mov rdi, rbx
  .test (.reg .rcx) (.reg .rdx), -- 3689: test rcx, rdx
  .cmov .zr .r8 (.reg .rbp), -- 3690: cmove r8, rbp
  .cmov .zr .rdi (.reg .rbp), -- 3691: cmove rdi, rbp
  .sar (.reg .rcx) (.imm 1#64), -- 3692: sar rcx, 1
  .xor (.reg .rdi) (.reg .r8), -- 3693: xor rdi, r8
  .xor (.reg .rsi) (.reg .r8), -- 3694: xor rsi, r8
  .bt (.reg .r8) 63#64, -- 3695: bt r8, 0x3f
  .cmov .cy .rbx (.reg .rcx), -- 3696: cmovb rbx, rcx
  .mov (.reg .r8) (.reg .rax), -- 3697: mov r8, rax
  .sub (.reg .rsi) (.reg .rax), -- 3698: sub rsi, rax
  .lea .rcx ⟨some .rcx, some (.rdi, 1#64), 0#64⟩, -- 3699: lea rcx, [rcx + rdi]
  .cmov .sg .r8 (.reg .rbp), -- 3700: cmovs r8, rbp
  .mov (.reg .rdi) (.reg .rbx), -- 3701: mov rdi, rbx
  .test (.reg .rcx) (.reg .rdx), -- 3702: test rcx, rdx
  .cmov .zr .r8 (.reg .rbp), -- 3703: cmove r8, rbp
  .cmov .zr .rdi (.reg .rbp), -- 3704: cmove rdi, rbp
  .sar (.reg .rcx) (.imm 1#64), -- 3705: sar rcx, 1
  .xor (.reg .rdi) (.reg .r8), -- 3706: xor rdi, r8
  .xor (.reg .rsi) (.reg .r8), -- 3707: xor rsi, r8
  .bt (.reg .r8) 63#64, -- 3708: bt r8, 0x3f
  .cmov .cy .rbx (.reg .rcx), -- 3709: cmovb rbx, rcx
  .mov (.reg .r8) (.reg .rax), -- 3710: mov r8, rax
  .sub (.reg .rsi) (.reg .rax), -- 3711: sub rsi, rax
  .lea .rcx ⟨some .rcx, some (.rdi, 1#64), 0#64⟩, -- 3712: lea rcx, [rcx + rdi]
  .cmov .sg .r8 (.reg .rbp), -- 3713: cmovs r8, rbp
  .mov (.reg .rdi) (.reg .rbx), -- 3714: mov rdi, rbx
  .test (.reg .rcx) (.reg .rdx), -- 3715: test rcx, rdx
  .cmov .zr .r8 (.reg .rbp), -- 3716: cmove r8, rbp
  .cmov .zr .rdi (.reg .rbp), -- 3717: cmove rdi, rbp
  .sar (.reg .rcx) (.imm 1#64), -- 3718: sar rcx, 1
  .xor (.reg .rdi) (.reg .r8), -- 3719: xor rdi, r8
  .xor (.reg .rsi) (.reg .r8), -- 3720: xor rsi, r8
  .bt (.reg .r8) 63#64, -- 3721: bt r8, 0x3f
  .cmov .cy .rbx (.reg .rcx), -- 3722: cmovb rbx, rcx
  .mov (.reg .r8) (.reg .rax), -- 3723: mov r8, rax
  .sub (.reg .rsi) (.reg .rax), -- 3724: sub rsi, rax
  .lea .rcx ⟨some .rcx, some (.rdi, 1#64), 0#64⟩, -- 3725: lea rcx, [rcx + rdi]
  .sar (.reg .rcx) (.imm 1#64), -- 3726: sar rcx, 1
  .mov (.reg .rax) (.imm 0x100000#64), -- 3727: mov eax, 0x100000
  .lea .r8 ⟨some .rbx, some (.rax, 1#64), 0#64⟩, -- 3728: lea r8, [rbx + rax]
  .lea .r12 ⟨some .rcx, some (.rax, 1#64), 0#64⟩, -- 3729: lea r12, [rcx + rax]
  .shl (.reg .r8) (.imm 21#64), -- 3730: shl r8, 0x15
  .shl (.reg .r12) (.imm 21#64), -- 3731: shl r12, 0x15
  .sar (.reg .r8) (.imm 43#64), -- 3732: sar r8, 0x2b
  .sar (.reg .r12) (.imm 43#64), -- 3733: sar r12, 0x2b
  .mov (.reg .rax) (.imm 0x20000100000#64), -- 3734: movabs rax, 0x20000100000
  .lea .r10 ⟨some .rbx, some (.rax, 1#64), 0#64⟩, -- 3735: lea r10, [rbx + rax]
  .lea .r14 ⟨some .rcx, some (.rax, 1#64), 0#64⟩, -- 3736: lea r14, [rcx + rax]
  .sar (.reg .r10) (.imm 43#64), -- 3737: sar r10, 0x2b
  .sar (.reg .r14) (.imm 43#64), -- 3738: sar r14, 0x2b
  .mov (.reg .rax) (.reg .r9), -- 3739: mov rax, r9
  .imul .rax (.reg .r8), -- 3740: imul rax, r8
  .mov (.reg .rdx) (.reg .r13), -- 3741: mov rdx, r13
  .imul .rdx (.reg .r10), -- 3742: imul rdx, r10
  .imul .r8 (.reg .r15), -- 3743: imul r8, r15
  .imul .r10 (.reg .r11), -- 3744: imul r10, r11
  .add (.reg .r10) (.reg .r8), -- 3745: add r10, r8
  .lea .r8 ⟨some .rax, some (.rdx, 1#64), 0#64⟩, -- 3746: lea r8, [rax + rdx]
  .mov (.reg .rax) (.reg .r9), -- 3747: mov rax, r9
  .imul .rax (.reg .r12), -- 3748: imul rax, r12
  .mov (.reg .rdx) (.reg .r13), -- 3749: mov rdx, r13
  .imul .rdx (.reg .r14), -- 3750: imul rdx, r14
  .imul .r12 (.reg .r15), -- 3751: imul r12, r15
  .imul .r14 (.reg .r11), -- 3752: imul r14, r11
  .add (.reg .r14) (.reg .r12), -- 3753: add r14, r12
  .lea .r12 ⟨some .rax, some (.rdx, 1#64), 0#64⟩, -- 3754: lea r12, [rax + rdx]
  .mov (.mem ⟨some .rsp, none, 152#64⟩) (.reg .rsi), -- 3755: mov [rsp + 0x98], rsi
  .dec (.mem ⟨some .rsp, none, 144#64⟩), -- 3756: dec QWORD PTR [rsp + 0x90]
  .jcc .nz 2567, -- 3757: jne @5b
  .mov (.reg .rax) (.mem ⟨some .rsp, none, 0#64⟩), -- 3758: mov rax, [rsp]
  .mov (.reg .rcx) (.mem ⟨some .rsp, none, 32#64⟩), -- 3759: mov rcx, [rsp + 0x20]
  .imul .rax (.reg .r8), -- 3760: imul rax, r8
  .imul .rcx (.reg .r10), -- 3761: imul rcx, r10
  .add (.reg .rax) (.reg .rcx), -- 3762: add rax, rcx
  .sar (.reg .rax) (.imm 63#64), -- 3763: sar rax, 0x3f
  .mov (.reg .r9) (.reg .r8), -- 3764: mov r9, r8
  .sar (.reg .r9) (.imm 63#64), -- 3765: sar r9, 0x3f
  .xor (.reg .r8) (.reg .r9), -- 3766: xor r8, r9
  .sub (.reg .r8) (.reg .r9), -- 3767: sub r8, r9
  .xor (.reg .r9) (.reg .rax), -- 3768: xor r9, rax
  .mov (.reg .r11) (.reg .r10), -- 3769: mov r11, r10
  .sar (.reg .r11) (.imm 63#64), -- 3770: sar r11, 0x3f
  .xor (.reg .r10) (.reg .r11), -- 3771: xor r10, r11
  .sub (.reg .r10) (.reg .r11), -- 3772: sub r10, r11
  .xor (.reg .r11) (.reg .rax), -- 3773: xor r11, rax
  .mov (.reg .r13) (.reg .r12), -- 3774: mov r13, r12
  .sar (.reg .r13) (.imm 63#64), -- 3775: sar r13, 0x3f
  .xor (.reg .r12) (.reg .r13), -- 3776: xor r12, r13
  .sub (.reg .r12) (.reg .r13), -- 3777: sub r12, r13
  .xor (.reg .r13) (.reg .rax), -- 3778: xor r13, rax
  .mov (.reg .r15) (.reg .r14), -- 3779: mov r15, r14
  .sar (.reg .r15) (.imm 63#64), -- 3780: sar r15, 0x3f
  .xor (.reg .r14) (.reg .r15), -- 3781: xor r14, r15
  .sub (.reg .r14) (.reg .r15), -- 3782: sub r14, r15
  .xor (.reg .r15) (.reg .rax), -- 3783: xor r15, rax
  .mov (.reg .rax) (.reg .r8), -- 3784: mov rax, r8
  .and (.reg .rax) (.reg .r9), -- 3785: and rax, r9
  .mov (.reg .r12) (.reg .r10), -- 3786: mov r12, r10
  .and (.reg .r12) (.reg .r11), -- 3787: and r12, r11
  .add (.reg .r12) (.reg .rax), -- 3788: add r12, rax
  .xor (.reg .r13) (.reg .r13), -- 3789: xor r13d, r13d
  .mov (.reg .rax) (.mem ⟨some .rsp, none, 64#64⟩), -- 3790: mov rax, [rsp + 0x40]
  .xor (.reg .rax) (.reg .r9), -- 3791: xor rax, r9
  .mul (.reg .r8), -- 3792: mul r8
  .add (.reg .r12) (.reg .rax), -- 3793: add r12, rax
  .adc (.reg .r13) (.reg .rdx), -- 3794: adc r13, rdx
  .mov (.reg .rax) (.mem ⟨some .rsp, none, 96#64⟩), -- 3795: mov rax, [rsp + 0x60]
  .xor (.reg .rax) (.reg .r11), -- 3796: xor rax, r11
  .mul (.reg .r10), -- 3797: mul r10
  .add (.reg .r12) (.reg .rax), -- 3798: add r12, rax
  .adc (.reg .r13) (.reg .rdx), -- 3799: adc r13, rdx
  .xor (.reg .r14) (.reg .r14), -- 3800: xor r14d, r14d
  .mov (.reg .rax) (.mem ⟨some .rsp, none, 72#64⟩), -- 3801: mov rax, [rsp + 0x48]
  .xor (.reg .rax) (.reg .r9), -- 3802: xor rax, r9
  .mul (.reg .r8), -- 3803: mul r8
  .add (.reg .r13) (.reg .rax), -- 3804: add r13, rax
  .adc (.reg .r14) (.reg .rdx), -- 3805: adc r14, rdx
  .mov (.reg .rax) (.mem ⟨some .rsp, none, 104#64⟩), -- 3806: mov rax, [rsp + 0x68]
  .xor (.reg .rax) (.reg .r11), -- 3807: xor rax, r11
  .mul (.reg .r10), -- 3808: mul r10
  .add (.reg .r13) (.reg .rax), -- 3809: add r13, rax
  .adc (.reg .r14) (.reg .rdx), -- 3810: adc r14, rdx
  .xor (.reg .r15) (.reg .r15), -- 3811: xor r15d, r15d
  .mov (.reg .rax) (.mem ⟨some .rsp, none, 80#64⟩), -- 3812: mov rax, [rsp + 0x50]
  .xor (.reg .rax) (.reg .r9), -- 3813: xor rax, r9
  .mul (.reg .r8), -- 3814: mul r8
  .add (.reg .r14) (.reg .rax), -- 3815: add r14, rax
  .adc (.reg .r15) (.reg .rdx), -- 3816: adc r15, rdx
  .mov (.reg .rax) (.mem ⟨some .rsp, none, 112#64⟩), -- 3817: mov rax, [rsp + 0x70]
  .xor (.reg .rax) (.reg .r11), -- 3818: xor rax, r11
  .mul (.reg .r10), -- 3819: mul r10
  .add (.reg .r14) (.reg .rax), -- 3820: add r14, rax
  .adc (.reg .r15) (.reg .rdx), -- 3821: adc r15, rdx
  .mov (.reg .rax) (.mem ⟨some .rsp, none, 88#64⟩), -- 3822: mov rax, [rsp + 0x58]
  .xor (.reg .rax) (.reg .r9), -- 3823: xor rax, r9
  .and (.reg .r9) (.reg .r8), -- 3824: and r9, r8
  .neg (.reg .r9), -- 3825: neg r9
  .mul (.reg .r8), -- 3826: mul r8
  .add (.reg .r15) (.reg .rax), -- 3827: add r15, rax
  .adc (.reg .r9) (.reg .rdx), -- 3828: adc r9, rdx
  .mov (.reg .rax) (.mem ⟨some .rsp, none, 120#64⟩), -- 3829: mov rax, [rsp + 0x78]
  .xor (.reg .rax) (.reg .r11), -- 3830: xor rax, r11
  .mov (.reg .rdx) (.reg .r11), -- 3831: mov rdx, r11
  .and (.reg .rdx) (.reg .r10), -- 3832: and rdx, r10
  .sub (.reg .r9) (.reg .rdx), -- 3833: sub r9, rdx
  .mul (.reg .r10), -- 3834: mul r10
  .add (.reg .r15) (.reg .rax), -- 3835: add r15, rax
  .adc (.reg .r9) (.reg .rdx), -- 3836: adc r9, rdx
  .mov (.reg .rax) (.reg .r9), -- 3837: mov rax, r9
  .shld (.reg .rax) .r15 (.imm 1#64), -- 3838: shld rax, r15, 0x1
  .sar (.reg .r9) (.imm 63#64), -- 3839: sar r9, 0x3f
  .mov (.reg .rbx) (.imm 19#64), -- 3840: mov ebx, 0x13
  .lea .rax ⟨some .rax, some (.r9, 1#64), 1#64⟩, -- 3841: lea rax, [rax + r9 + 0x1]
  .imul1 (.reg .rbx), -- 3842: imul rbx
  .xor (.reg .rbp) (.reg .rbp), -- 3843: xor ebp, ebp
  .add (.reg .r12) (.reg .rax), -- 3844: add r12, rax
  .adc (.reg .r13) (.reg .rdx), -- 3845: adc r13, rdx
  .adc (.reg .r14) (.reg .r9), -- 3846: adc r14, r9
  .adc (.reg .r15) (.reg .r9), -- 3847: adc r15, r9
  .shl (.reg .rax) (.imm 63#64), -- 3848: shl rax, 0x3f
  .add (.reg .r15) (.reg .rax), -- 3849: add r15, rax
  .cmov .ns .rbx (.reg .rbp), -- 3850: cmovns rbx, rbp
  .sub (.reg .r12) (.reg .rbx), -- 3851: sub r12, rbx
  .sbb (.reg .r13) (.reg .rbp), -- 3852: sbb r13, rbp
  .sbb (.reg .r14) (.reg .rbp), -- 3853: sbb r14, rbp
  .sbb (.reg .r15) (.reg .rbp), -- 3854: sbb r15, rbp
  .btr .r15 63#64, -- 3855: btr r15, 0x3f
  .mov (.reg .rdi) (.mem ⟨some .rsp, none, 192#64⟩), -- 3856: mov rdi, [rsp + 0xc0]
  .mov (.mem ⟨some .rdi, none, 0#64⟩) (.reg .r12), -- 3857: mov [rdi], r12
  .mov (.mem ⟨some .rdi, none, 8#64⟩) (.reg .r13), -- 3858: mov [rdi + 0x8], r13
  .mov (.mem ⟨some .rdi, none, 16#64⟩) (.reg .r14), -- 3859: mov [rdi + 0x10], r14
  .mov (.mem ⟨some .rdi, none, 24#64⟩) (.reg .r15), -- 3860: mov [rdi + 0x18], r15
  .mov (.reg .rbp) (.mem ⟨some .rsp, none, 384#64⟩), -- 3861: mov rbp, QWORD PTR [rsp + 12 * 32]
  .xor (.reg .rdi) (.reg .rdi), -- 3862: xor edi, edi
  .mov (.reg .rdx) (.mem ⟨some .rsp, none, 224#64⟩), -- 3863: mov rdx, [rsp + (7 * 32)]
  .mulx .r9 .r8 (.mem ⟨some .rsp, none, 320#64⟩), -- 3864: mulx r9, r8, [rsp + (10 * 32)]
  .mulx .r10 .rax (.mem ⟨some .rsp, none, 328#64⟩), -- 3865: mulx r10, rax, [rsp + (10 * 32)+ 0x8]
  .add (.reg .r9) (.reg .rax), -- 3866: add r9, rax
  .mulx .r11 .rax (.mem ⟨some .rsp, none, 336#64⟩), -- 3867: mulx r11, rax, [rsp + (10 * 32)+ 0x10]
  .adc (.reg .r10) (.reg .rax), -- 3868: adc r10, rax
  .mulx .r12 .rax (.mem ⟨some .rsp, none, 344#64⟩), -- 3869: mulx r12, rax, [rsp + (10 * 32)+ 0x18]
  .adc (.reg .r11) (.reg .rax), -- 3870: adc r11, rax
  .adc (.reg .r12) (.reg .rdi), -- 3871: adc r12, rdi
  .xor (.reg .rdi) (.reg .rdi), -- 3872: xor edi, edi
  .mov (.reg .rdx) (.mem ⟨some .rsp, none, 232#64⟩), -- 3873: mov rdx, [rsp + (7 * 32)+ 0x8]
  .mulx .rbx .rax (.mem ⟨some .rsp, none, 320#64⟩), -- 3874: mulx rbx, rax, [rsp + (10 * 32)]
  .adcx .r9 (.reg .rax), -- 3875: adcx r9, rax
  .adox .r10 (.reg .rbx), -- 3876: adox r10, rbx
  .mulx .rbx .rax (.mem ⟨some .rsp, none, 328#64⟩), -- 3877: mulx rbx, rax, [rsp + (10 * 32)+ 0x8]
  .adcx .r10 (.reg .rax), -- 3878: adcx r10, rax
  .adox .r11 (.reg .rbx), -- 3879: adox r11, rbx
  .mulx .rbx .rax (.mem ⟨some .rsp, none, 336#64⟩), -- 3880: mulx rbx, rax, [rsp + (10 * 32)+ 0x10]
  .adcx .r11 (.reg .rax), -- 3881: adcx r11, rax
  .adox .r12 (.reg .rbx), -- 3882: adox r12, rbx
  .mulx .r13 .rax (.mem ⟨some .rsp, none, 344#64⟩), -- 3883: mulx r13, rax, [rsp + (10 * 32)+ 0x18]
  .adcx .r12 (.reg .rax), -- 3884: adcx r12, rax
  .adox .r13 (.reg .rdi), -- 3885: adox r13, rdi
  .adcx .r13 (.reg .rdi), -- 3886: adcx r13, rdi
  .xor (.reg .rdi) (.reg .rdi), -- 3887: xor edi, edi
  .mov (.reg .rdx) (.mem ⟨some .rsp, none, 240#64⟩), -- 3888: mov rdx, [rsp + (7 * 32)+ 0x10]
  .mulx .rbx .rax (.mem ⟨some .rsp, none, 320#64⟩), -- 3889: mulx rbx, rax, [rsp + (10 * 32)]
  .adcx .r10 (.reg .rax), -- 3890: adcx r10, rax
  .adox .r11 (.reg .rbx), -- 3891: adox r11, rbx
  .mulx .rbx .rax (.mem ⟨some .rsp, none, 328#64⟩), -- 3892: mulx rbx, rax, [rsp + (10 * 32)+ 0x8]
  .adcx .r11 (.reg .rax), -- 3893: adcx r11, rax
  .adox .r12 (.reg .rbx), -- 3894: adox r12, rbx
  .mulx .rbx .rax (.mem ⟨some .rsp, none, 336#64⟩), -- 3895: mulx rbx, rax, [rsp + (10 * 32)+ 0x10]
  .adcx .r12 (.reg .rax), -- 3896: adcx r12, rax
  .adox .r13 (.reg .rbx), -- 3897: adox r13, rbx
  .mulx .r14 .rax (.mem ⟨some .rsp, none, 344#64⟩), -- 3898: mulx r14, rax, [rsp + (10 * 32)+ 0x18]
  .adcx .r13 (.reg .rax), -- 3899: adcx r13, rax
  .adox .r14 (.reg .rdi), -- 3900: adox r14, rdi
  .adcx .r14 (.reg .rdi), -- 3901: adcx r14, rdi
  .xor (.reg .rdi) (.reg .rdi), -- 3902: xor edi, edi
  .mov (.reg .rdx) (.mem ⟨some .rsp, none, 248#64⟩), -- 3903: mov rdx, [rsp + (7 * 32)+ 0x18]
  .mulx .rbx .rax (.mem ⟨some .rsp, none, 320#64⟩), -- 3904: mulx rbx, rax, [rsp + (10 * 32)]
  .adcx .r11 (.reg .rax), -- 3905: adcx r11, rax
  .adox .r12 (.reg .rbx), -- 3906: adox r12, rbx
  .mulx .rbx .rax (.mem ⟨some .rsp, none, 328#64⟩), -- 3907: mulx rbx, rax, [rsp + (10 * 32)+ 0x8]
  .adcx .r12 (.reg .rax), -- 3908: adcx r12, rax
  .adox .r13 (.reg .rbx), -- 3909: adox r13, rbx
  .mulx .rbx .rax (.mem ⟨some .rsp, none, 336#64⟩), -- 3910: mulx rbx, rax, [rsp + (10 * 32)+ 0x10]
  .adcx .r13 (.reg .rax), -- 3911: adcx r13, rax
  .adox .r14 (.reg .rbx), -- 3912: adox r14, rbx
  .mulx .r15 .rax (.mem ⟨some .rsp, none, 344#64⟩), -- 3913: mulx r15, rax, [rsp + (10 * 32)+ 0x18]
  .adcx .r14 (.reg .rax), -- 3914: adcx r14, rax
  .adox .r15 (.reg .rdi), -- 3915: adox r15, rdi
  .adcx .r15 (.reg .rdi), -- 3916: adcx r15, rdi
  .mov (.reg .rdx) (.imm 38#64), -- 3917: mov edx, 0x26
  .xor (.reg .rdi) (.reg .rdi), -- 3918: xor edi, edi
  .mulx .rbx .rax (.reg .r12), -- 3919: mulx rbx, rax, r12
  .adcx .r8 (.reg .rax), -- 3920: adcx r8, rax
  .adox .r9 (.reg .rbx), -- 3921: adox r9, rbx
  .mulx .rbx .rax (.reg .r13), -- 3922: mulx rbx, rax, r13
  .adcx .r9 (.reg .rax), -- 3923: adcx r9, rax
  .adox .r10 (.reg .rbx), -- 3924: adox r10, rbx
  .mulx .rbx .rax (.reg .r14), -- 3925: mulx rbx, rax, r14
  .adcx .r10 (.reg .rax), -- 3926: adcx r10, rax
  .adox .r11 (.reg .rbx), -- 3927: adox r11, rbx
  .mulx .r12 .rax (.reg .r15), -- 3928: mulx r12, rax, r15
  .adcx .r11 (.reg .rax), -- 3929: adcx r11, rax
  .adox .r12 (.reg .rdi), -- 3930: adox r12, rdi
  .adcx .r12 (.reg .rdi), -- 3931: adcx r12, rdi
  .shld (.reg .r12) .r11 (.imm 1#64), -- 3932: shld r12, r11, 0x1
  .mov (.reg .rdx) (.imm 19#64), -- 3933: mov edx, 0x13
  .inc (.reg .r12), -- 3934: inc r12
  .bts .r11 63#64, -- 3935: bts r11, 63
  .mulx .rbx .rax (.reg .r12), -- 3936: mulx rbx, rax, r12
  .add (.reg .r8) (.reg .rax), -- 3937: add r8, rax
  .adc (.reg .r9) (.reg .rbx), -- 3938: adc r9, rbx
  .adc (.reg .r10) (.reg .rdi), -- 3939: adc r10, rdi
  .adc (.reg .r11) (.reg .rdi), -- 3940: adc r11, rdi
  .sbb (.reg .rax) (.reg .rax), -- 3941: sbb rax, rax
  .not (.reg .rax), -- 3942: not rax
  .and (.reg .rax) (.reg .rdx), -- 3943: and rax, rdx
  .sub (.reg .r8) (.reg .rax), -- 3944: sub r8, rax
  .sbb (.reg .r9) (.reg .rdi), -- 3945: sbb r9, rdi
  .sbb (.reg .r10) (.reg .rdi), -- 3946: sbb r10, rdi
  .sbb (.reg .r11) (.reg .rdi), -- 3947: sbb r11, rdi
  .btr .r11 63#64, -- 3948: btr r11, 63
  .mov (.mem ⟨some .rbp, none, 0#64⟩) (.reg .r8), -- 3949: mov [rbp + 0], r8
  .mov (.mem ⟨some .rbp, none, 8#64⟩) (.reg .r9), -- 3950: mov [rbp + 0+ 0x8], r9
  .mov (.mem ⟨some .rbp, none, 16#64⟩) (.reg .r10), -- 3951: mov [rbp + 0+ 0x10], r10
  .mov (.mem ⟨some .rbp, none, 24#64⟩) (.reg .r11), -- 3952: mov [rbp + 0+ 0x18], r11
  .add (.reg .rsp) (.imm 416#64), -- 3953: add rsp, 13 * 32
  .pop .r15, -- 3954: pop r15
  .pop .r14, -- 3955: pop r14
  .pop .r13, -- 3956: pop r13
  .pop .r12, -- 3957: pop r12
  .pop .rbp, -- 3958: pop rbp
  .pop .rbx] -- 3959: pop rbx

/-- The registers that the operands of curve25519_x25519.rs:650-2233 say may change. -/
def curve25519X25519Regs : List Reg := [.rdi, .rsi, .rdx, .r10, .r11, .r12, .r13, .r14, .r15, .r8, .r9, .rax, .rcx]

end Verif.X86.Asm
