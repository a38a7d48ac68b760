import Verif.Model.X86

/-!
Generated by tools/gen_asm.py from `graviola/src/low/x86_64`: the `asm!` blocks as lists of instructions.
The comment at the end of a line gives its position; jump targets are positions.
-/
namespace Verif.X86.Asm
open Verif.X86

/-- low/x86_64/p256_montjadd.rs:508-635.  Operands: inout("rdi") p3.as_mut_ptr() => _; inout("rsi") p1.as_ptr() => _; inout("rdx") p2.as_ptr() => _; out("r10") _; out("r11") _; out("r12") _; out("r13") _; out("r14") _; out("r15") _; out("r8") _; out("r9") _; out("rax") _; out("rcx") _. -/
def p256Montjadd : Prog := [
  .nop, -- 0: endbr64
  .push .rbx, -- 1: push rbx
  .push .rbp, -- 2: push rbp
  .push .r12, -- 3: push r12
  .push .r13, -- 4: push r13
  .push .r14, -- 5: push r14
  .push .r15, -- 6: push r15
  .sub (.reg .rsp) (.imm 224#64), -- 7: sub rsp, 32* 7
  .mov (.reg .rbp) (.reg .rdx), -- 8: mov rbp, rdx
  .mov (.reg .rdx) (.mem ⟨some .rsi, none, 64#64⟩), -- 9: mov rdx, [rsi + (2 * 32)]
  .mulx .r15 .r8 (.reg .rdx), -- 10: mulx r15, r8, rdx
  .mulx .r10 .r9 (.mem ⟨some .rsi, none, 72#64⟩), -- 11: mulx r10, r9, [rsi + (2 * 32)+ 0x8]
  .mulx .r12 .r11 (.mem ⟨some .rsi, none, 88#64⟩), -- 12: mulx r12, r11, [rsi + (2 * 32)+ 0x18]
  .mov (.reg .rdx) (.mem ⟨some .rsi, none, 80#64⟩), -- 13: mov rdx, [rsi + (2 * 32)+ 0x10]
  .mulx .r14 .r13 (.mem ⟨some .rsi, none, 88#64⟩), -- 14: mulx r14, r13, [rsi + (2 * 32)+ 0x18]
  .xor (.reg .rcx) (.reg .rcx), -- 15: xor ecx, ecx
  .mulx .rbx .rax (.mem ⟨some .rsi, none, 64#64⟩), -- 16: mulx rbx, rax, [rsi + (2 * 32)]
  .adcx .r10 (.reg .rax), -- 17: adcx r10, rax
  .adox .r11 (.reg .rbx), -- 18: adox r11, rbx
  .mulx .rbx .rax (.mem ⟨some .rsi, none, 72#64⟩), -- 19: mulx rbx, rax, [rsi + (2 * 32)+ 0x8]
  .adcx .r11 (.reg .rax), -- 20: adcx r11, rax
  .adox .r12 (.reg .rbx), -- 21: adox r12, rbx
  .mov (.reg .rdx) (.mem ⟨some .rsi, none, 88#64⟩), -- 22: mov rdx, [rsi + (2 * 32)+ 0x18]
  .mulx .rbx .rax (.mem ⟨some .rsi, none, 72#64⟩), -- 23: mulx rbx, rax, [rsi + (2 * 32)+ 0x8]
  .adcx .r12 (.reg .rax), -- 24: adcx r12, rax
  .adox .r13 (.reg .rbx), -- 25: adox r13, rbx
  .adcx .r13 (.reg .rcx), -- 26: adcx r13, rcx
  .adox .r14 (.reg .rcx), -- 27: adox r14, rcx
  .adc (.reg .r14) (.reg .rcx), -- 28: adc r14, rcx
  .xor (.reg .rcx) (.reg .rcx), -- 29: xor ecx, ecx
  .adcx .r9 (.reg .r9), -- 30: adcx r9, r9
  .adox .r9 (.reg .r15), -- 31: adox r9, r15
  .mov (.reg .rdx) (.mem ⟨some .rsi, none, 72#64⟩), -- 32: mov rdx, [rsi + (2 * 32)+ 0x8]
  .mulx .rdx .rax (.reg .rdx), -- 33: mulx rdx, rax, rdx
  .adcx .r10 (.reg .r10), -- 34: adcx r10, r10
  .adox .r10 (.reg .rax), -- 35: adox r10, rax
  .adcx .r11 (.reg .r11), -- 36: adcx r11, r11
  .adox .r11 (.reg .rdx), -- 37: adox r11, rdx
  .mov (.reg .rdx) (.mem ⟨some .rsi, none, 80#64⟩), -- 38: mov rdx, [rsi + (2 * 32)+ 0x10]
  .mulx .rdx .rax (.reg .rdx), -- 39: mulx rdx, rax, rdx
  .adcx .r12 (.reg .r12), -- 40: adcx r12, r12
  .adox .r12 (.reg .rax), -- 41: adox r12, rax
  .adcx .r13 (.reg .r13), -- 42: adcx r13, r13
  .adox .r13 (.reg .rdx), -- 43: adox r13, rdx
  .mov (.reg .rdx) (.mem ⟨some .rsi, none, 88#64⟩), -- 44: mov rdx, [rsi + (2 * 32)+ 0x18]
  .mulx .r15 .rax (.reg .rdx), -- 45: mulx r15, rax, rdx
  .adcx .r14 (.reg .r14), -- 46: adcx r14, r14
  .adox .r14 (.reg .rax), -- 47: adox r14, rax
  .adcx .r15 (.reg .rcx), -- 48: adcx r15, rcx
  .adox .r15 (.reg .rcx), -- 49: adox r15, rcx
  .xor (.reg .rcx) (.reg .rcx), -- 50: xor ecx, ecx
  .mov (.reg .rdx) (.imm 0x100000000#64), -- 51: movabs rdx, 0x100000000
  .mulx .rbx .rax (.reg .r8), -- 52: mulx rbx, rax, r8
  .adcx .r9 (.reg .rax), -- 53: adcx r9, rax
  .adox .r10 (.reg .rbx), -- 54: adox r10, rbx
  .mulx .rbx .rax (.reg .r9), -- 55: mulx rbx, rax, r9
  .adcx .r10 (.reg .rax), -- 56: adcx r10, rax
  .adox .r11 (.reg .rbx), -- 57: adox r11, rbx
  .mov (.reg .rdx) (.imm 0xffffffff00000001#64), -- 58: movabs rdx, 0xffffffff00000001
  .mulx .rbx .rax (.reg .r8), -- 59: mulx rbx, rax, r8
  .adcx .r11 (.reg .rax), -- 60: adcx r11, rax
  .adox .r12 (.reg .rbx), -- 61: adox r12, rbx
  .mulx .rbx .rax (.reg .r9), -- 62: mulx rbx, rax, r9
  .adcx .r12 (.reg .rax), -- 63: adcx r12, rax
  .adox .r13 (.reg .rbx), -- 64: adox r13, rbx
  .adcx .r13 (.reg .rcx), -- 65: adcx r13, rcx
  .mov32 .r9 .rcx, -- 66: mov r9d, ecx
  .adox .r9 (.reg .rcx), -- 67: adox r9, rcx
  .adcx .r9 (.reg .rcx), -- 68: adcx r9, rcx
  .add (.reg .r14) (.reg .r9), -- 69: add r14, r9
  .adc (.reg .r15) (.reg .rcx), -- 70: adc r15, rcx
  .mov32 .r8 .rcx, -- 71: mov r8d, ecx
  .adc (.reg .r8) (.reg .rcx), -- 72: adc r8, rcx
  .xor (.reg .rcx) (.reg .rcx), -- 73: xor ecx, ecx
  .mov (.reg .rdx) (.imm 0x100000000#64), -- 74: movabs rdx, 0x100000000
  .mulx .rbx .rax (.reg .r10), -- 75: mulx rbx, rax, r10
  .adcx .r11 (.reg .rax), -- 76: adcx r11, rax
  .adox .r12 (.reg .rbx), -- 77: adox r12, rbx
  .mulx .rbx .rax (.reg .r11), -- 78: mulx rbx, rax, r11
  .adcx .r12 (.reg .rax), -- 79: adcx r12, rax
  .adox .r13 (.reg .rbx), -- 80: adox r13, rbx
  .mov (.reg .rdx) (.imm 0xffffffff00000001#64), -- 81: movabs rdx, 0xffffffff00000001
  .mulx .rbx .rax (.reg .r10), -- 82: mulx rbx, rax, r10
  .adcx .r13 (.reg .rax), -- 83: adcx r13, rax
  .adox .r14 (.reg .rbx), -- 84: adox r14, rbx
  .mulx .rbx .rax (.reg .r11), -- 85: mulx rbx, rax, r11
  .adcx .r14 (.reg .rax), -- 86: adcx r14, rax
  .adox .r15 (.reg .rbx), -- 87: adox r15, rbx
  .adcx .r15 (.reg .rcx), -- 88: adcx r15, rcx
  .adox .r8 (.reg .rcx), -- 89: adox r8, rcx
  .adc (.reg .r8) (.reg .rcx), -- 90: adc r8, rcx
  .mov (.reg .r8) (.imm 1#64), -- 91: mov r8d, 0x1
  .lea .rdx ⟨some .rdx, none, 0xffffffffffffffff#64⟩, -- 92: lea rdx, [rdx -0x1]
  .lea .rax ⟨some .rcx, none, 0xffffffffffffffff#64⟩, -- 93: lea rax, [rcx -0x1]
  .mov (.reg .r11) (.imm 0xfffffffe#64), -- 94: mov r11d, 0xfffffffe
  .cmov .zr .r8 (.reg .rcx), -- 95: cmovz r8, rcx
  .cmov .zr .rdx (.reg .rcx), -- 96: cmovz rdx, rcx
  .cmov .zr .rax (.reg .rcx), -- 97: cmovz rax, rcx
  .cmov .zr .r11 (.reg .rcx), -- 98: cmovz r11, rcx
  .add (.reg .r12) (.reg .r8), -- 99: add r12, r8
  .adc (.reg .r13) (.reg .rdx), -- 100: adc r13, rdx
  .adc (.reg .r14) (.reg .rax), -- 101: adc r14, rax
  .adc (.reg .r15) (.reg .r11), -- 102: adc r15, r11
  .mov (.mem ⟨some .rsp, none, 0#64⟩) (.reg .r12), -- 103: mov [rsp + (32* 0)], r12
  .mov (.mem ⟨some .rsp, none, 8#64⟩) (.reg .r13), -- 104: mov [rsp + (32* 0)+ 0x8], r13
  .mov (.mem ⟨some .rsp, none, 16#64⟩) (.reg .r14), -- 105: mov [rsp + (32* 0)+ 0x10], r14
  .mov (.mem ⟨some .rsp, none, 24#64⟩) (.reg .r15), -- 106: mov [rsp + (32* 0)+ 0x18], r15
  .mov (.reg .rdx) (.mem ⟨some .rbp, none, 64#64⟩), -- 107: mov rdx, [rbp + (2 * 32)]
  .mulx .r15 .r8 (.reg .rdx), -- 108: mulx r15, r8, rdx
  .mulx .r10 .r9 (.mem ⟨some .rbp, none, 72#64⟩), -- 109: mulx r10, r9, [rbp + (2 * 32)+ 0x8]
  .mulx .r12 .r11 (.mem ⟨some .rbp, none, 88#64⟩), -- 110: mulx r12, r11, [rbp + (2 * 32)+ 0x18]
  .mov (.reg .rdx) (.mem ⟨some .rbp, none, 80#64⟩), -- 111: mov rdx, [rbp + (2 * 32)+ 0x10]
  .mulx .r14 .r13 (.mem ⟨some .rbp, none, 88#64⟩), -- 112: mulx r14, r13, [rbp + (2 * 32)+ 0x18]
  .xor (.reg .rcx) (.reg .rcx), -- 113: xor ecx, ecx
  .mulx .rbx .rax (.mem ⟨some .rbp, none, 64#64⟩), -- 114: mulx rbx, rax, [rbp + (2 * 32)]
  .adcx .r10 (.reg .rax), -- 115: adcx r10, rax
  .adox .r11 (.reg .rbx), -- 116: adox r11, rbx
  .mulx .rbx .rax (.mem ⟨some .rbp, none, 72#64⟩), -- 117: mulx rbx, rax, [rbp + (2 * 32)+ 0x8]
  .adcx .r11 (.reg .rax), -- 118: adcx r11, rax
  .adox .r12 (.reg .rbx), -- 119: adox r12, rbx
  .mov (.reg .rdx) (.mem ⟨some .rbp, none, 88#64⟩), -- 120: mov rdx, [rbp + (2 * 32)+ 0x18]
  .mulx .rbx .rax (.mem ⟨some .rbp, none, 72#64⟩), -- 121: mulx rbx, rax, [rbp + (2 * 32)+ 0x8]
  .adcx .r12 (.reg .rax), -- 122: adcx r12, rax
  .adox .r13 (.reg .rbx), -- 123: adox r13, rbx
  .adcx .r13 (.reg .rcx), -- 124: adcx r13, rcx
  .adox .r14 (.reg .rcx), -- 125: adox r14, rcx
  .adc (.reg .r14) (.reg .rcx), -- 126: adc r14, rcx
  .xor (.reg .rcx) (.reg .rcx), -- 127: xor ecx, ecx
  .adcx .r9 (.reg .r9), -- 128: adcx r9, r9
  .adox .r9 (.reg .r15), -- 129: adox r9, r15
  .mov (.reg .rdx) (.mem ⟨some .rbp, none, 72#64⟩), -- 130: mov rdx, [rbp + (2 * 32)+ 0x8]
  .mulx .rdx .rax (.reg .rdx), -- 131: mulx rdx, rax, rdx
  .adcx .r10 (.reg .r10), -- 132: adcx r10, r10
  .adox .r10 (.reg .rax), -- 133: adox r10, rax
  .adcx .r11 (.reg .r11), -- 134: adcx r11, r11
  .adox .r11 (.reg .rdx), -- 135: adox r11, rdx
  .mov (.reg .rdx) (.mem ⟨some .rbp, none, 80#64⟩), -- 136: mov rdx, [rbp + (2 * 32)+ 0x10]
  .mulx .rdx .rax (.reg .rdx), -- 137: mulx rdx, rax, rdx
  .adcx .r12 (.reg .r12), -- 138: adcx r12, r12
  .adox .r12 (.reg .rax), -- 139: adox r12, rax
  .adcx .r13 (.reg .r13), -- 140: adcx r13, r13
  .adox .r13 (.reg .rdx), -- 141: adox r13, rdx
  .mov (.reg .rdx) (.mem ⟨some .rbp, none, 88#64⟩), -- 142: mov rdx, [rbp + (2 * 32)+ 0x18]
  .mulx .r15 .rax (.reg .rdx), -- 143: mulx r15, rax, rdx
  .adcx .r14 (.reg .r14), -- 144: adcx r14, r14
  .adox .r14 (.reg .rax), -- 145: adox r14, rax
  .adcx .r15 (.reg .rcx), -- 146: adcx r15, rcx
  .adox .r15 (.reg .rcx), -- 147: adox r15, rcx
  .xor (.reg .rcx) (.reg .rcx), -- 148: xor ecx, ecx
  .mov (.reg .rdx) (.imm 0x100000000#64), -- 149: movabs rdx, 0x100000000
  .mulx .rbx .rax (.reg .r8), -- 150: mulx rbx, rax, r8
  .adcx .r9 (.reg .rax), -- 151: adcx r9, rax
  .adox .r10 (.reg .rbx), -- 152: adox r10, rbx
  .mulx .rbx .rax (.reg .r9), -- 153: mulx rbx, rax, r9
  .adcx .r10 (.reg .rax), -- 154: adcx r10, rax
  .adox .r11 (.reg .rbx), -- 155: adox r11, rbx
  .mov (.reg .rdx) (.imm 0xffffffff00000001#64), -- 156: movabs rdx, 0xffffffff00000001
  .mulx .rbx .rax (.reg .r8), -- 157: mulx rbx, rax, r8
  .adcx .r11 (.reg .rax), -- 158: adcx r11, rax
  .adox .r12 (.reg .rbx), -- 159: adox r12, rbx
  .mulx .rbx .rax (.reg .r9), -- 160: mulx rbx, rax, r9
  .adcx .r12 (.reg .rax), -- 161: adcx r12, rax
  .adox .r13 (.reg .rbx), -- 162: adox r13, rbx
  .adcx .r13 (.reg .rcx), -- 163: adcx r13, rcx
  .mov32 .r9 .rcx, -- 164: mov r9d, ecx
  .adox .r9 (.reg .rcx), -- 165: adox r9, rcx
  .adcx .r9 (.reg .rcx), -- 166: adcx r9, rcx
  .add (.reg .r14) (.reg .r9), -- 167: add r14, r9
  .adc (.reg .r15) (.reg .rcx), -- 168: adc r15, rcx
  .mov32 .r8 .rcx, -- 169: mov r8d, ecx
  .adc (.reg .r8) (.reg .rcx), -- 170: adc r8, rcx
  .xor (.reg .rcx) (.reg .rcx), -- 171: xor ecx, ecx
  .mov (.reg .rdx) (.imm 0x100000000#64), -- 172: movabs rdx, 0x100000000
  .mulx .rbx .rax (.reg .r10), -- 173: mulx rbx, rax, r10
  .adcx .r11 (.reg .rax), -- 174: adcx r11, rax
  .adox .r12 (.reg .rbx), -- 175: adox r12, rbx
  .mulx .rbx .rax (.reg .r11), -- 176: mulx rbx, rax, r11
  .adcx .r12 (.reg .rax), -- 177: adcx r12, rax
  .adox .r13 (.reg .rbx), -- 178: adox r13, rbx
  .mov (.reg .rdx) (.imm 0xffffffff00000001#64), -- 179: movabs rdx, 0xffffffff00000001
  .mulx .rbx .rax (.reg .r10), -- 180: mulx rbx, rax, r10
  .adcx .r13 (.reg .rax), -- 181: adcx r13, rax
  .adox .r14 (.reg .rbx), -- 182: adox r14, rbx
  .mulx .rbx .rax (.reg .r11), -- 183: mulx rbx, rax, r11
  .adcx .r14 (.reg .rax), -- 184: adcx r14, rax
  .adox .r15 (.reg .rbx), -- 185: adox r15, rbx
  .adcx .r15 (.reg .rcx), -- 186: adcx r15, rcx
  .adox .r8 (.reg .rcx), -- 187: adox r8, rcx
  .adc (.reg .r8) (.reg .rcx), -- 188: adc r8, rcx
  .mov (.reg .r8) (.imm 1#64), -- 189: mov r8d, 0x1
  .lea .rdx ⟨some .rdx, none, 0xffffffffffffffff#64⟩, -- 190: lea rdx, [rdx -0x1]
  .lea .rax ⟨some .rcx, none, 0xffffffffffffffff#64⟩, -- 191: lea rax, [rcx -0x1]
  .mov (.reg .r11) (.imm 0xfffffffe#64), -- 192: mov r11d, 0xfffffffe
  .cmov .zr .r8 (.reg .rcx), -- 193: cmovz r8, rcx
  .cmov .zr .rdx (.reg .rcx), -- 194: cmovz rdx, rcx
  .cmov .zr .rax (.reg .rcx), -- 195: cmovz rax, rcx
  .cmov .zr .r11 (.reg .rcx), -- 196: cmovz r11, rcx
  .add (.reg .r12) (.reg .r8), -- 197: add r12, r8
  .adc (.reg .r13) (.reg .rdx), -- 198: adc r13, rdx
  .adc (.reg .r14) (.reg .rax), -- 199: adc r14, rax
  .adc (.reg .r15) (.reg .r11), -- 200: adc r15, r11
  .mov (.mem ⟨some .rsp, none, 160#64⟩) (.reg .r12), -- 201: mov [rsp + (32* 5)], r12
  .mov (.mem ⟨some .rsp, none, 168#64⟩) (.reg .r13), -- 202: mov [rsp + (32* 5)+ 0x8], r13
  .mov (.mem ⟨some .rsp, none, 176#64⟩) (.reg .r14), -- 203: mov [rsp + (32* 5)+ 0x10], r14
  .mov (.mem ⟨some .rsp, none, 184#64⟩) (.reg .r15), -- 204: mov [rsp + (32* 5)+ 0x18], r15
  .xor (.reg .r13) (.reg .r13), -- 205: xor r13d, r13d
  .mov (.reg .rdx) (.mem ⟨some .rsi, none, 32#64⟩), -- 206: mov rdx, [rsi + 32]
  .mulx .r9 .r8 (.mem ⟨some .rbp, none, 64#64⟩), -- 207: mulx r9, r8, [rbp + (2 * 32)]
  .mulx .r10 .rbx (.mem ⟨some .rbp, none, 72#64⟩), -- 208: mulx r10, rbx, [rbp + (2 * 32)+ 0x8]
  .adc (.reg .r9) (.reg .rbx), -- 209: adc r9, rbx
  .mulx .r11 .rbx (.mem ⟨some .rbp, none, 80#64⟩), -- 210: mulx r11, rbx, [rbp + (2 * 32)+ 0x10]
  .adc (.reg .r10) (.reg .rbx), -- 211: adc r10, rbx
  .mulx .r12 .rbx (.mem ⟨some .rbp, none, 88#64⟩), -- 212: mulx r12, rbx, [rbp + (2 * 32)+ 0x18]
  .adc (.reg .r11) (.reg .rbx), -- 213: adc r11, rbx
  .adc (.reg .r12) (.reg .r13), -- 214: adc r12, r13
  .mov (.reg .rdx) (.mem ⟨some .rsi, none, 40#64⟩), -- 215: mov rdx, [rsi + 32+ 0x8]
  .xor (.reg .r14) (.reg .r14), -- 216: xor r14d, r14d
  .mulx .rbx .rax (.mem ⟨some .rbp, none, 64#64⟩), -- 217: mulx rbx, rax, [rbp + (2 * 32)]
  .adcx .r9 (.reg .rax), -- 218: adcx r9, rax
  .adox .r10 (.reg .rbx), -- 219: adox r10, rbx
  .mulx .rbx .rax (.mem ⟨some .rbp, none, 72#64⟩), -- 220: mulx rbx, rax, [rbp + (2 * 32)+ 0x8]
  .adcx .r10 (.reg .rax), -- 221: adcx r10, rax
  .adox .r11 (.reg .rbx), -- 222: adox r11, rbx
  .mulx .rbx .rax (.mem ⟨some .rbp, none, 80#64⟩), -- 223: mulx rbx, rax, [rbp + (2 * 32)+ 0x10]
  .adcx .r11 (.reg .rax), -- 224: adcx r11, rax
  .adox .r12 (.reg .rbx), -- 225: adox r12, rbx
  .mulx .rbx .rax (.mem ⟨some .rbp, none, 88#64⟩), -- 226: mulx rbx, rax, [rbp + (2 * 32)+ 0x18]
  .adcx .r12 (.reg .rax), -- 227: adcx r12, rax
  .adox .r13 (.reg .rbx), -- 228: adox r13, rbx
  .adc (.reg .r13) (.reg .r14), -- 229: adc r13, r14
  .xor (.reg .r15) (.reg .r15), -- 230: xor r15d, r15d
  .mov (.reg .rdx) (.imm 0x100000000#64), -- 231: movabs rdx, 0x100000000
  .mulx .rbx .rax (.reg .r8), -- 232: mulx rbx, rax, r8
  .adcx .r9 (.reg .rax), -- 233: adcx r9, rax
  .adox .r10 (.reg .rbx), -- 234: adox r10, rbx
  .mulx .rbx .rax (.reg .r9), -- 235: mulx rbx, rax, r9
  .adcx .r10 (.reg .rax), -- 236: adcx r10, rax
  .adox .r11 (.reg .rbx), -- 237: adox r11, rbx
  .not (.reg .rdx), -- 238: not rdx
  .lea .rdx ⟨some .rdx, none, 2#64⟩, -- 239: lea rdx, [rdx + 0x2]
  .mulx .rbx .rax (.reg .r8), -- 240: mulx rbx, rax, r8
  .adcx .r11 (.reg .rax), -- 241: adcx r11, rax
  .adox .r12 (.reg .rbx), -- 242: adox r12, rbx
  .mulx .rbx .rax (.reg .r9), -- 243: mulx rbx, rax, r9
  .adcx .r12 (.reg .rax), -- 244: adcx r12, rax
  .adox .r13 (.reg .rbx), -- 245: adox r13, rbx
  .adcx .r13 (.reg .r15), -- 246: adcx r13, r15
  .adox .r14 (.reg .r15), -- 247: adox r14, r15
  .adc (.reg .r14) (.reg .r15), -- 248: adc r14, r15
  .mov (.reg .rdx) (.mem ⟨some .rsi, none, 48#64⟩), -- 249: mov rdx, [rsi + 32+ 0x10]
  .xor (.reg .r8) (.reg .r8), -- 250: xor r8d, r8d
  .mulx .rbx .rax (.mem ⟨some .rbp, none, 64#64⟩), -- 251: mulx rbx, rax, [rbp + (2 * 32)]
  .adcx .r10 (.reg .rax), -- 252: adcx r10, rax
  .adox .r11 (.reg .rbx), -- 253: adox r11, rbx
  .mulx .rbx .rax (.mem ⟨some .rbp, none, 72#64⟩), -- 254: mulx rbx, rax, [rbp + (2 * 32)+ 0x8]
  .adcx .r11 (.reg .rax), -- 255: adcx r11, rax
  .adox .r12 (.reg .rbx), -- 256: adox r12, rbx
  .mulx .rbx .rax (.mem ⟨some .rbp, none, 80#64⟩), -- 257: mulx rbx, rax, [rbp + (2 * 32)+ 0x10]
  .adcx .r12 (.reg .rax), -- 258: adcx r12, rax
  .adox .r13 (.reg .rbx), -- 259: adox r13, rbx
  .adox .r14 (.reg .r8), -- 260: adox r14, r8
  .mulx .rbx .rax (.mem ⟨some .rbp, none, 88#64⟩), -- 261: mulx rbx, rax, [rbp + (2 * 32)+ 0x18]
  .adc (.reg .r13) (.reg .rax), -- 262: adc r13, rax
  .adc (.reg .r14) (.reg .rbx), -- 263: adc r14, rbx
  .adc (.reg .r15) (.reg .r8), -- 264: adc r15, r8
  .mov (.reg .rdx) (.mem ⟨some .rsi, none, 56#64⟩), -- 265: mov rdx, [rsi + 32+ 0x18]
  .xor (.reg .r9) (.reg .r9), -- 266: xor r9d, r9d
  .mulx .rbx .rax (.mem ⟨some .rbp, none, 64#64⟩), -- 267: mulx rbx, rax, [rbp + (2 * 32)]
  .adcx .r11 (.reg .rax), -- 268: adcx r11, rax
  .adox .r12 (.reg .rbx), -- 269: adox r12, rbx
  .mulx .rbx .rax (.mem ⟨some .rbp, none, 72#64⟩), -- 270: mulx rbx, rax, [rbp + (2 * 32)+ 0x8]
  .adcx .r12 (.reg .rax), -- 271: adcx r12, rax
  .adox .r13 (.reg .rbx), -- 272: adox r13, rbx
  .mulx .rbx .rax (.mem ⟨some .rbp, none, 80#64⟩), -- 273: mulx rbx, rax, [rbp + (2 * 32)+ 0x10]
  .adcx .r13 (.reg .rax), -- 274: adcx r13, rax
  .adox .r14 (.reg .rbx), -- 275: adox r14, rbx
  .adox .r15 (.reg .r9), -- 276: adox r15, r9
  .mulx .rbx .rax (.mem ⟨some .rbp, none, 88#64⟩), -- 277: mulx rbx, rax, [rbp + (2 * 32)+ 0x18]
  .adc (.reg .r14) (.reg .rax), -- 278: adc r14, rax
  .adc (.reg .r15) (.reg .rbx), -- 279: adc r15, rbx
  .adc (.reg .r8) (.reg .r9), -- 280: adc r8, r9
  .xor (.reg .r9) (.reg .r9), -- 281: xor r9d, r9d
  .mov (.reg .rdx) (.imm 0x100000000#64), -- 282: movabs rdx, 0x100000000
  .mulx .rbx .rax (.reg .r10), -- 283: mulx rbx, rax, r10
  .adcx .r11 (.reg .rax), -- 284: adcx r11, rax
  .adox .r12 (.reg .rbx), -- 285: adox r12, rbx
  .mulx .rbx .rax (.reg .r11), -- 286: mulx rbx, rax, r11
  .adcx .r12 (.reg .rax), -- 287: adcx r12, rax
  .adox .r13 (.reg .rbx), -- 288: adox r13, rbx
  .not (.reg .rdx), -- 289: not rdx
  .lea .rdx ⟨some .rdx, none, 2#64⟩, -- 290: lea rdx, [rdx + 0x2]
  .mulx .rbx .rax (.reg .r10), -- 291: mulx rbx, rax, r10
  .adcx .r13 (.reg .rax), -- 292: adcx r13, rax
  .adox .r14 (.reg .rbx), -- 293: adox r14, rbx
  .mulx .rbx .rax (.reg .r11), -- 294: mulx rbx, rax, r11
  .adcx .r14 (.reg .rax), -- 295: adcx r14, rax
  .adox .r15 (.reg .rbx), -- 296: adox r15, rbx
  .adcx .r15 (.reg .r9), -- 297: adcx r15, r9
  .adox .r8 (.reg .r9), -- 298: adox r8, r9
  .adc (.reg .r8) (.reg .r9), -- 299: adc r8, r9
  .mov (.reg .rcx) (.imm 1#64), -- 300: mov ecx, 0x1
  .add (.reg .rcx) (.reg .r12), -- 301: add rcx, r12
  .dec (.reg .rdx), -- 302: dec rdx
  .adc (.reg .rdx) (.reg .r13), -- 303: adc rdx, r13
  .dec (.reg .r9), -- 304: dec r9
  .mov (.reg .rax) (.reg .r9), -- 305: mov rax, r9
  .adc (.reg .r9) (.reg .r14), -- 306: adc r9, r14
  .mov (.reg .r11) (.imm 0xfffffffe#64), -- 307: mov r11d, 0xfffffffe
  .adc (.reg .r11) (.reg .r15), -- 308: adc r11, r15
  .adc (.reg .rax) (.reg .r8), -- 309: adc rax, r8
  .cmov .cy .r12 (.reg .rcx), -- 310: cmovb r12, rcx
  .cmov .cy .r13 (.reg .rdx), -- 311: cmovb r13, rdx
  .cmov .cy .r14 (.reg .r9), -- 312: cmovb r14, r9
  .cmov .cy .r15 (.reg .r11), -- 313: cmovb r15, r11
  .mov (.mem ⟨some .rsp, none, 192#64⟩) (.reg .r12), -- 314: mov [rsp + (32* 6)], r12
  .mov (.mem ⟨some .rsp, none, 200#64⟩) (.reg .r13), -- 315: mov [rsp + (32* 6)+ 0x8], r13
  .mov (.mem ⟨some .rsp, none, 208#64⟩) (.reg .r14), -- 316: mov [rsp + (32* 6)+ 0x10], r14
  .mov (.mem ⟨some .rsp, none, 216#64⟩) (.reg .r15), -- 317: mov [rsp + (32* 6)+ 0x18], r15
  .xor (.reg .r13) (.reg .r13), -- 318: xor r13d, r13d
  .mov (.reg .rdx) (.mem ⟨some .rbp, none, 32#64⟩), -- 319: mov rdx, [rbp + 32]
  .mulx .r9 .r8 (.mem ⟨some .rsi, none, 64#64⟩), -- 320: mulx r9, r8, [rsi + (2 * 32)]
  .mulx .r10 .rbx (.mem ⟨some .rsi, none, 72#64⟩), -- 321: mulx r10, rbx, [rsi + (2 * 32)+ 0x8]
  .adc (.reg .r9) (.reg .rbx), -- 322: adc r9, rbx
  .mulx .r11 .rbx (.mem ⟨some .rsi, none, 80#64⟩), -- 323: mulx r11, rbx, [rsi + (2 * 32)+ 0x10]
  .adc (.reg .r10) (.reg .rbx), -- 324: adc r10, rbx
  .mulx .r12 .rbx (.mem ⟨some .rsi, none, 88#64⟩), -- 325: mulx r12, rbx, [rsi + (2 * 32)+ 0x18]
  .adc (.reg .r11) (.reg .rbx), -- 326: adc r11, rbx
  .adc (.reg .r12) (.reg .r13), -- 327: adc r12, r13
  .mov (.reg .rdx) (.mem ⟨some .rbp, none, 40#64⟩), -- 328: mov rdx, [rbp + 32+ 0x8]
  .xor (.reg .r14) (.reg .r14), -- 329: xor r14d, r14d
  .mulx .rbx .rax (.mem ⟨some .rsi, none, 64#64⟩), -- 330: mulx rbx, rax, [rsi + (2 * 32)]
  .adcx .r9 (.reg .rax), -- 331: adcx r9, rax
  .adox .r10 (.reg .rbx), -- 332: adox r10, rbx
  .mulx .rbx .rax (.mem ⟨some .rsi, none, 72#64⟩), -- 333: mulx rbx, rax, [rsi + (2 * 32)+ 0x8]
  .adcx .r10 (.reg .rax), -- 334: adcx r10, rax
  .adox .r11 (.reg .rbx), -- 335: adox r11, rbx
  .mulx .rbx .rax (.mem ⟨some .rsi, none, 80#64⟩), -- 336: mulx rbx, rax, [rsi + (2 * 32)+ 0x10]
  .adcx .r11 (.reg .rax), -- 337: adcx r11, rax
  .adox .r12 (.reg .rbx), -- 338: adox r12, rbx
  .mulx .rbx .rax (.mem ⟨some .rsi, none, 88#64⟩), -- 339: mulx rbx, rax, [rsi + (2 * 32)+ 0x18]
  .adcx .r12 (.reg .rax), -- 340: adcx r12, rax
  .adox .r13 (.reg .rbx), -- 341: adox r13, rbx
  .adc (.reg .r13) (.reg .r14), -- 342: adc r13, r14
  .xor (.reg .r15) (.reg .r15), -- 343: xor r15d, r15d
  .mov (.reg .rdx) (.imm 0x100000000#64), -- 344: movabs rdx, 0x100000000
  .mulx .rbx .rax (.reg .r8), -- 345: mulx rbx, rax, r8
  .adcx .r9 (.reg .rax), -- 346: adcx r9, rax
  .adox .r10 (.reg .rbx), -- 347: adox r10, rbx
  .mulx .rbx .rax (.reg .r9), -- 348: mulx rbx, rax, r9
  .adcx .r10 (.reg .rax), -- 349: adcx r10, rax
  .adox .r11 (.reg .rbx), -- 350: adox r11, rbx
  .not (.reg .rdx), -- 351: not rdx
  .lea .rdx ⟨some .rdx, none, 2#64⟩, -- 352: lea rdx, [rdx + 0x2]
  .mulx .rbx .rax (.reg .r8), -- 353: mulx rbx, rax, r8
  .adcx .r11 (.reg .rax), -- 354: adcx r11, rax
  .adox .r12 (.reg .rbx), -- 355: adox r12, rbx
  .mulx .rbx .rax (.reg .r9), -- 356: mulx rbx, rax, r9
  .adcx .r12 (.reg .rax), -- 357: adcx r12, rax
  .adox .r13 (.reg .rbx), -- 358: adox r13, rbx
  .adcx .r13 (.reg .r15), -- 359: adcx r13, r15
  .adox .r14 (.reg .r15), -- 360: adox r14, r15
  .adc (.reg .r14) (.reg .r15), -- 361: adc r14, r15
  .mov (.reg .rdx) (.mem ⟨some .rbp, none, 48#64⟩), -- 362: mov rdx, [rbp + 32+ 0x10]
  .xor (.reg .r8) (.reg .r8), -- 363: xor r8d, r8d
  .mulx .rbx .rax (.mem ⟨some .rsi, none, 64#64⟩), -- 364: mulx rbx, rax, [rsi + (2 * 32)]
  .adcx .r10 (.reg .rax), -- 365: adcx r10, rax
  .adox .r11 (.reg .rbx), -- 366: adox r11, rbx
  .mulx .rbx .rax (.mem ⟨some .rsi, none, 72#64⟩), -- 367: mulx rbx, rax, [rsi + (2 * 32)+ 0x8]
  .adcx .r11 (.reg .rax), -- 368: adcx r11, rax
  .adox .r12 (.reg .rbx), -- 369: adox r12, rbx
  .mulx .rbx .rax (.mem ⟨some .rsi, none, 80#64⟩), -- 370: mulx rbx, rax, [rsi + (2 * 32)+ 0x10]
  .adcx .r12 (.reg .rax), -- 371: adcx r12, rax
  .adox .r13 (.reg .rbx), -- 372: adox r13, rbx
  .adox .r14 (.reg .r8), -- 373: adox r14, r8
  .mulx .rbx .rax (.mem ⟨some .rsi, none, 88#64⟩), -- 374: mulx rbx, rax, [rsi + (2 * 32)+ 0x18]
  .adc (.reg .r13) (.reg .rax), -- 375: adc r13, rax
  .adc (.reg .r14) (.reg .rbx), -- 376: adc r14, rbx
  .adc (.reg .r15) (.reg .r8), -- 377: adc r15, r8
  .mov (.reg .rdx) (.mem ⟨some .rbp, none, 56#64⟩), -- 378: mov rdx, [rbp + 32+ 0x18]
  .xor (.reg .r9) (.reg .r9), -- 379: xor r9d, r9d
  .mulx .rbx .rax (.mem ⟨some .rsi, none, 64#64⟩), -- 380: mulx rbx, rax, [rsi + (2 * 32)]
  .adcx .r11 (.reg .rax), -- 381: adcx r11, rax
  .adox .r12 (.reg .rbx), -- 382: adox r12, rbx
  .mulx .rbx .rax (.mem ⟨some .rsi, none, 72#64⟩), -- 383: mulx rbx, rax, [rsi + (2 * 32)+ 0x8]
  .adcx .r12 (.reg .rax), -- 384: adcx r12, rax
  .adox .r13 (.reg .rbx), -- 385: adox r13, rbx
  .mulx .rbx .rax (.mem ⟨some .rsi, none, 80#64⟩), -- 386: mulx rbx, rax, [rsi + (2 * 32)+ 0x10]
  .adcx .r13 (.reg .rax), -- 387: adcx r13, rax
  .adox .r14 (.reg .rbx), -- 388: adox r14, rbx
  .adox .r15 (.reg .r9), -- 389: adox r15, r9
  .mulx .rbx .rax (.mem ⟨some .rsi, none, 88#64⟩), -- 390: mulx rbx, rax, [rsi + (2 * 32)+ 0x18]
  .adc (.reg .r14) (.reg .rax), -- 391: adc r14, rax
  .adc (.reg .r15) (.reg .rbx), -- 392: adc r15, rbx
  .adc (.reg .r8) (.reg .r9), -- 393: adc r8, r9
  .xor (.reg .r9) (.reg .r9), -- 394: xor r9d, r9d
  .mov (.reg .rdx) (.imm 0x100000000#64), -- 395: movabs rdx, 0x100000000
  .mulx .rbx .rax (.reg .r10), -- 396: mulx rbx, rax, r10
  .adcx .r11 (.reg .rax), -- 397: adcx r11, rax
  .adox .r12 (.reg .rbx), -- 398: adox r12, rbx
  .mulx .rbx .rax (.reg .r11), -- 399: mulx rbx, rax, r11
  .adcx .r12 (.reg .rax), -- 400: adcx r12, rax
  .adox .r13 (.reg .rbx), -- 401: adox r13, rbx
  .not (.reg .rdx), -- 402: not rdx
  .lea .rdx ⟨some .rdx, none, 2#64⟩, -- 403: lea rdx, [rdx + 0x2]
  .mulx .rbx .rax (.reg .r10), -- 404: mulx rbx, rax, r10
  .adcx .r13 (.reg .rax), -- 405: adcx r13, rax
  .adox .r14 (.reg .rbx), -- 406: adox r14, rbx
  .mulx .rbx .rax (.reg .r11), -- 407: mulx rbx, rax, r11
  .adcx .r14 (.reg .rax), -- 408: adcx r14, rax
  .adox .r15 (.reg .rbx), -- 409: adox r15, rbx
  .adcx .r15 (.reg .r9), -- 410: adcx r15, r9
  .adox .r8 (.reg .r9), -- 411: adox r8, r9
  .adc (.reg .r8) (.reg .r9), -- 412: adc r8, r9
  .mov (.reg .rcx) (.imm 1#64), -- 413: mov ecx, 0x1
  .add (.reg .rcx) (.reg .r12), -- 414: add rcx, r12
  .dec (.reg .rdx), -- 415: dec rdx
  .adc (.reg .rdx) (.reg .r13), -- 416: adc rdx, r13
  .dec (.reg .r9), -- 417: dec r9
  .mov (.reg .rax) (.reg .r9), -- 418: mov rax, r9
  .adc (.reg .r9) (.reg .r14), -- 419: adc r9, r14
  .mov (.reg .r11) (.imm 0xfffffffe#64), -- 420: mov r11d, 0xfffffffe
  .adc (.reg .r11) (.reg .r15), -- 421: adc r11, r15
  .adc (.reg .rax) (.reg .r8), -- 422: adc rax, r8
  .cmov .cy .r12 (.reg .rcx), -- 423: cmovb r12, rcx
  .cmov .cy .r13 (.reg .rdx), -- 424: cmovb r13, rdx
  .cmov .cy .r14 (.reg .r9), -- 425: cmovb r14, r9
  .cmov .cy .r15 (.reg .r11), -- 426: cmovb r15, r11
  .mov (.mem ⟨some .rsp, none, 32#64⟩) (.reg .r12), -- 427: mov [rsp + (32* 1)], r12
  .mov (.mem ⟨some .rsp, none, 40#64⟩) (.reg .r13), -- 428: mov [rsp + (32* 1)+ 0x8], r13
  .mov (.mem ⟨some .rsp, none, 48#64⟩) (.reg .r14), -- 429: mov [rsp + (32* 1)+ 0x10], r14
  .mov (.mem ⟨some .rsp, none, 56#64⟩) (.reg .r15), -- 430: mov [rsp + (32* 1)+ 0x18], r15
  .xor (.reg .r13) (.reg .r13), -- 431: xor r13d, r13d
  .mov (.reg .rdx) (.mem ⟨some .rbp, none, 0#64⟩), -- 432: mov rdx, [rbp + 0]
  .mulx .r9 .r8 (.mem ⟨some .rsp, none, 0#64⟩), -- 433: mulx r9, r8, [rsp + (32* 0)]
  .mulx .r10 .rbx (.mem ⟨some .rsp, none, 8#64⟩), -- 434: mulx r10, rbx, [rsp + (32* 0)+ 0x8]
  .adc (.reg .r9) (.reg .rbx), -- 435: adc r9, rbx
  .mulx .r11 .rbx (.mem ⟨some .rsp, none, 16#64⟩), -- 436: mulx r11, rbx, [rsp + (32* 0)+ 0x10]
  .adc (.reg .r10) (.reg .rbx), -- 437: adc r10, rbx
  .mulx .r12 .rbx (.mem ⟨some .rsp, none, 24#64⟩), -- 438: mulx r12, rbx, [rsp + (32* 0)+ 0x18]
  .adc (.reg .r11) (.reg .rbx), -- 439: adc r11, rbx
  .adc (.reg .r12) (.reg .r13), -- 440: adc r12, r13
  .mov (.reg .rdx) (.mem ⟨some .rbp, none, 8#64⟩), -- 441: mov rdx, [rbp + 0+ 0x8]
  .xor (.reg .r14) (.reg .r14), -- 442: xor r14d, r14d
  .mulx .rbx .rax (.mem ⟨some .rsp, none, 0#64⟩), -- 443: mulx rbx, rax, [rsp + (32* 0)]
  .adcx .r9 (.reg .rax), -- 444: adcx r9, rax
  .adox .r10 (.reg .rbx), -- 445: adox r10, rbx
  .mulx .rbx .rax (.mem ⟨some .rsp, none, 8#64⟩), -- 446: mulx rbx, rax, [rsp + (32* 0)+ 0x8]
  .adcx .r10 (.reg .rax), -- 447: adcx r10, rax
  .adox .r11 (.reg .rbx), -- 448: adox r11, rbx
  .mulx .rbx .rax (.mem ⟨some .rsp, none, 16#64⟩), -- 449: mulx rbx, rax, [rsp + (32* 0)+ 0x10]
  .adcx .r11 (.reg .rax), -- 450: adcx r11, rax
  .adox .r12 (.reg .rbx), -- 451: adox r12, rbx
  .mulx .rbx .rax (.mem ⟨some .rsp, none, 24#64⟩), -- 452: mulx rbx, rax, [rsp + (32* 0)+ 0x18]
  .adcx .r12 (.reg .rax), -- 453: adcx r12, rax
  .adox .r13 (.reg .rbx), -- 454: adox r13, rbx
  .adc (.reg .r13) (.reg .r14), -- 455: adc r13, r14
  .xor (.reg .r15) (.reg .r15), -- 456: xor r15d, r15d
  .mov (.reg .rdx) (.imm 0x100000000#64), -- 457: movabs rdx, 0x100000000
  .mulx .rbx .rax (.reg .r8), -- 458: mulx rbx, rax, r8
  .adcx .r9 (.reg .rax), -- 459: adcx r9, rax
  .adox .r10 (.reg .rbx), -- 460: adox r10, rbx
  .mulx .rbx .rax (.reg .r9), -- 461: mulx rbx, rax, r9
  .adcx .r10 (.reg .rax), -- 462: adcx r10, rax
  .adox .r11 (.reg .rbx), -- 463: adox r11, rbx
  .not (.reg .rdx), -- 464: not rdx
  .lea .rdx ⟨some .rdx, none, 2#64⟩, -- 465: lea rdx, [rdx + 0x2]
  .mulx .rbx .rax (.reg .r8), -- 466: mulx rbx, rax, r8
  .adcx .r11 (.reg .rax), -- 467: adcx r11, rax
  .adox .r12 (.reg .rbx), -- 468: adox r12, rbx
  .mulx .rbx .rax (.reg .r9), -- 469: mulx rbx, rax, r9
  .adcx .r12 (.reg .rax), -- 470: adcx r12, rax
  .adox .r13 (.reg .rbx), -- 471: adox r13, rbx
  .adcx .r13 (.reg .r15), -- 472: adcx r13, r15
  .adox .r14 (.reg .r15), -- 473: adox r14, r15
  .adc (.reg .r14) (.reg .r15), -- 474: adc r14, r15
  .mov (.reg .rdx) (.mem ⟨some .rbp, none, 16#64⟩), -- 475: mov rdx, [rbp + 0+ 0x10]
  .xor (.reg .r8) (.reg .r8), -- 476: xor r8d, r8d
  .mulx .rbx .rax (.mem ⟨some .rsp, none, 0#64⟩), -- 477: mulx rbx, rax, [rsp + (32* 0)]
  .adcx .r10 (.reg .rax), -- 478: adcx r10, rax
  .adox .r11 (.reg .rbx), -- 479: adox r11, rbx
  .mulx .rbx .rax (.mem ⟨some .rsp, none, 8#64⟩), -- 480: mulx rbx, rax, [rsp + (32* 0)+ 0x8]
  .adcx .r11 (.reg .rax), -- 481: adcx r11, rax
  .adox .r12 (.reg .rbx), -- 482: adox r12, rbx
  .mulx .rbx .rax (.mem ⟨some .rsp, none, 16#64⟩), -- 483: mulx rbx, rax, [rsp + (32* 0)+ 0x10]
  .adcx .r12 (.reg .rax), -- 484: adcx r12, rax
  .adox .r13 (.reg .rbx), -- 485: adox r13, rbx
  .adox .r14 (.reg .r8), -- 486: adox r14, r8
  .mulx .rbx .rax (.mem ⟨some .rsp, none, 24#64⟩), -- 487: mulx rbx, rax, [rsp + (32* 0)+ 0x18]
  .adc (.reg .r13) (.reg .rax), -- 488: adc r13, rax
  .adc (.reg .r14) (.reg .rbx), -- 489: adc r14, rbx
  .adc (.reg .r15) (.reg .r8), -- 490: adc r15, r8
  .mov (.reg .rdx) (.mem ⟨some .rbp, none, 24#64⟩), -- 491: mov rdx, [rbp + 0+ 0x18]
  .xor (.reg .r9) (.reg .r9), -- 492: xor r9d, r9d
  .mulx .rbx .rax (.mem ⟨some .rsp, none, 0#64⟩), -- 493: mulx rbx, rax, [rsp + (32* 0)]
  .adcx .r11 (.reg .rax), -- 494: adcx r11, rax
  .adox .r12 (.reg .rbx), -- 495: adox r12, rbx
  .mulx .rbx .rax (.mem ⟨some .rsp, none, 8#64⟩), -- 496: mulx rbx, rax, [rsp + (32* 0)+ 0x8]
  .adcx .r12 (.reg .rax), -- 497: adcx r12, rax
  .adox .r13 (.reg .rbx), -- 498: adox r13, rbx
  .mulx .rbx .rax (.mem ⟨some .rsp, none, 16#64⟩), -- 499: mulx rbx, rax, [rsp + (32* 0)+ 0x10]
  .adcx .r13 (.reg .rax), -- 500: adcx r13, rax
  .adox .r14 (.reg .rbx), -- 501: adox r14, rbx
  .adox .r15 (.reg .r9), -- 502: adox r15, r9
  .mulx .rbx .rax (.mem ⟨some .rsp, none, 24#64⟩), -- 503: mulx rbx, rax, [rsp + (32* 0)+ 0x18]
  .adc (.reg .r14) (.reg .rax), -- 504: adc r14, rax
  .adc (.reg .r15) (.reg .rbx), -- 505: adc r15, rbx
  .adc (.reg .r8) (.reg .r9), -- 506: adc r8, r9
  .xor (.reg .r9) (.reg .r9), -- 507: xor r9d, r9d
  .mov (.reg .rdx) (.imm 0x100000000#64), -- 508: movabs rdx, 0x100000000
  .mulx .rbx .rax (.reg .r10), -- 509: mulx rbx, rax, r10
  .adcx .r11 (.reg .rax), -- 510: adcx r11, rax
  .adox .r12 (.reg .rbx), -- 511: adox r12, rbx
  .mulx .rbx .rax (.reg .r11), -- 512: mulx rbx, rax, r11
  .adcx .r12 (.reg .rax), -- 513: adcx r12, rax
  .adox .r13 (.reg .rbx), -- 514: adox r13, rbx
  .not (.reg .rdx), -- 515: not rdx
  .lea .rdx ⟨some .rdx, none, 2#64⟩, -- 516: lea rdx, [rdx + 0x2]
  .mulx .rbx .rax (.reg .r10), -- 517: mulx rbx, rax, r10
  .adcx .r13 (.reg .rax), -- 518: adcx r13, rax
  .adox .r14 (.reg .rbx), -- 519: adox r14, rbx
  .mulx .rbx .rax (.reg .r11), -- 520: mulx rbx, rax, r11
  .adcx .r14 (.reg .rax), -- 521: adcx r14, rax
  .adox .r15 (.reg .rbx), -- 522: adox r15, rbx
  .adcx .r15 (.reg .r9), -- 523: adcx r15, r9
  .adox .r8 (.reg .r9), -- 524: adox r8, r9
  .adc (.reg .r8) (.reg .r9), -- 525: adc r8, r9
  .mov (.reg .rcx) (.imm 1#64), -- 526: mov ecx, 0x1
  .add (.reg .rcx) (.reg .r12), -- 527: add rcx, r12
  .dec (.reg .rdx), -- 528: dec rdx
  .adc (.reg .rdx) (.reg .r13), -- 529: adc rdx, r13
  .dec (.reg .r9), -- 530: dec r9
  .mov (.reg .rax) (.reg .r9), -- 531: mov rax, r9
  .adc (.reg .r9) (.reg .r14), -- 532: adc r9, r14
  .mov (.reg .r11) (.imm 0xfffffffe#64), -- 533: mov r11d, 0xfffffffe
  .adc (.reg .r11) (.reg .r15), -- 534: adc r11, r15
  .adc (.reg .rax) (.reg .r8), -- 535: adc rax, r8
  .cmov .cy .r12 (.reg .rcx), -- 536: cmovb r12, rcx
  .cmov .cy .r13 (.reg .rdx), -- 537: cmovb r13, rdx
  .cmov .cy .r14 (.reg .r9), -- 538: cmovb r14, r9
  .cmov .cy .r15 (.reg .r11), -- 539: cmovb r15, r11
  .mov (.mem ⟨some .rsp, none, 64#64⟩) (.reg .r12), -- 540: mov [rsp + (32* 2)], r12
  .mov (.mem ⟨some .rsp, none, 72#64⟩) (.reg .r13), -- 541: mov [rsp + (32* 2)+ 0x8], r13
  .mov (.mem ⟨some .rsp, none, 80#64⟩) (.reg .r14), -- 542: mov [rsp + (32* 2)+ 0x10], r14
  .mov (.mem ⟨some .rsp, none, 88#64⟩) (.reg .r15), -- 543: mov [rsp + (32* 2)+ 0x18], r15
  .xor (.reg .r13) (.reg .r13), -- 544: xor r13d, r13d
  .mov (.reg .rdx) (.mem ⟨some .rsi, none, 0#64⟩), -- 545: mov rdx, [rsi + 0]
  .mulx .r9 .r8 (.mem ⟨some .rsp, none, 160#64⟩), -- 546: mulx r9, r8, [rsp + (32* 5)]
  .mulx .r10 .rbx (.mem ⟨some .rsp, none, 168#64⟩), -- 547: mulx r10, rbx, [rsp + (32* 5)+ 0x8]
  .adc (.reg .r9) (.reg .rbx), -- 548: adc r9, rbx
  .mulx .r11 .rbx (.mem ⟨some .rsp, none, 176#64⟩), -- 549: mulx r11, rbx, [rsp + (32* 5)+ 0x10]
  .adc (.reg .r10) (.reg .rbx), -- 550: adc r10, rbx
  .mulx .r12 .rbx (.mem ⟨some .rsp, none, 184#64⟩), -- 551: mulx r12, rbx, [rsp + (32* 5)+ 0x18]
  .adc (.reg .r11) (.reg .rbx), -- 552: adc r11, rbx
  .adc (.reg .r12) (.reg .r13), -- 553: adc r12, r13
  .mov (.reg .rdx) (.mem ⟨some .rsi, none, 8#64⟩), -- 554: mov rdx, [rsi + 0+ 0x8]
  .xor (.reg .r14) (.reg .r14), -- 555: xor r14d, r14d
  .mulx .rbx .rax (.mem ⟨some .rsp, none, 160#64⟩), -- 556: mulx rbx, rax, [rsp + (32* 5)]
  .adcx .r9 (.reg .rax), -- 557: adcx r9, rax
  .adox .r10 (.reg .rbx), -- 558: adox r10, rbx
  .mulx .rbx .rax (.mem ⟨some .rsp, none, 168#64⟩), -- 559: mulx rbx, rax, [rsp + (32* 5)+ 0x8]
  .adcx .r10 (.reg .rax), -- 560: adcx r10, rax
  .adox .r11 (.reg .rbx), -- 561: adox r11, rbx
  .mulx .rbx .rax (.mem ⟨some .rsp, none, 176#64⟩), -- 562: mulx rbx, rax, [rsp + (32* 5)+ 0x10]
  .adcx .r11 (.reg .rax), -- 563: adcx r11, rax
  .adox .r12 (.reg .rbx), -- 564: adox r12, rbx
  .mulx .rbx .rax (.mem ⟨some .rsp, none, 184#64⟩), -- 565: mulx rbx, rax, [rsp + (32* 5)+ 0x18]
  .adcx .r12 (.reg .rax), -- 566: adcx r12, rax
  .adox .r13 (.reg .rbx), -- 567: adox r13, rbx
  .adc (.reg .r13) (.reg .r14), -- 568: adc r13, r14
  .xor (.reg .r15) (.reg .r15), -- 569: xor r15d, r15d
  .mov (.reg .rdx) (.imm 0x100000000#64), -- 570: movabs rdx, 0x100000000
  .mulx .rbx .rax (.reg .r8), -- 571: mulx rbx, rax, r8
  .adcx .r9 (.reg .rax), -- 572: adcx r9, rax
  .adox .r10 (.reg .rbx), -- 573: adox r10, rbx
  .mulx .rbx .rax (.reg .r9), -- 574: mulx rbx, rax, r9
  .adcx .r10 (.reg .rax), -- 575: adcx r10, rax
  .adox .r11 (.reg .rbx), -- 576: adox r11, rbx
  .not (.reg .rdx), -- 577: not rdx
  .lea .rdx ⟨some .rdx, none, 2#64⟩, -- 578: lea rdx, [rdx + 0x2]
  .mulx .rbx .rax (.reg .r8), -- 579: mulx rbx, rax, r8
  .adcx .r11 (.reg .rax), -- 580: adcx r11, rax
  .adox .r12 (.reg .rbx), -- 581: adox r12, rbx
  .mulx .rbx .rax (.reg .r9), -- 582: mulx rbx, rax, r9
  .adcx .r12 (.reg .rax), -- 583: adcx r12, rax
  .adox .r13 (.reg .rbx), -- 584: adox r13, rbx
  .adcx .r13 (.reg .r15), -- 585: adcx r13, r15
  .adox .r14 (.reg .r15), -- 586: adox r14, r15
  .adc (.reg .r14) (.reg .r15), -- 587: adc r14, r15
  .mov (.reg .rdx) (.mem ⟨some .rsi, none, 16#64⟩), -- 588: mov rdx, [rsi + 0+ 0x10]
  .xor (.reg .r8) (.reg .r8), -- 589: xor r8d, r8d
  .mulx .rbx .rax (.mem ⟨some .rsp, none, 160#64⟩), -- 590: mulx rbx, rax, [rsp + (32* 5)]
  .adcx .r10 (.reg .rax), -- 591: adcx r10, rax
  .adox .r11 (.reg .rbx), -- 592: adox r11, rbx
  .mulx .rbx .rax (.mem ⟨some .rsp, none, 168#64⟩), -- 593: mulx rbx, rax, [rsp + (32* 5)+ 0x8]
  .adcx .r11 (.reg .rax), -- 594: adcx r11, rax
  .adox .r12 (.reg .rbx), -- 595: adox r12, rbx
  .mulx .rbx .rax (.mem ⟨some .rsp, none, 176#64⟩), -- 596: mulx rbx, rax, [rsp + (32* 5)+ 0x10]
  .adcx .r12 (.reg .rax), -- 597: adcx r12, rax
  .adox .r13 (.reg .rbx), -- 598: adox r13, rbx
  .adox .r14 (.reg .r8), -- 599: adox r14, r8
  .mulx .rbx .rax (.mem ⟨some .rsp, none, 184#64⟩), -- 600: mulx rbx, rax, [rsp + (32* 5)+ 0x18]
  .adc (.reg .r13) (.reg .rax), -- 601: adc r13, rax
  .adc (.reg .r14) (.reg .rbx), -- 602: adc r14, rbx
  .adc (.reg .r15) (.reg .r8), -- 603: adc r15, r8
  .mov (.reg .rdx) (.mem ⟨some .rsi, none, 24#64⟩), -- 604: mov rdx, [rsi + 0+ 0x18]
  .xor (.reg .r9) (.reg .r9), -- 605: xor r9d, r9d
  .mulx .rbx .rax (.mem ⟨some .rsp, none, 160#64⟩), -- 606: mulx rbx, rax, [rsp + (32* 5)]
  .adcx .r11 (.reg .rax), -- 607: adcx r11, rax
  .adox .r12 (.reg .rbx), -- 608: adox r12, rbx
  .mulx .rbx .rax (.mem ⟨some .rsp, none, 168#64⟩), -- 609: mulx rbx, rax, [rsp + (32* 5)+ 0x8]
  .adcx .r12 (.reg .rax), -- 610: adcx r12, rax
  .adox .r13 (.reg .rbx), -- 611: adox r13, rbx
  .mulx .rbx .rax (.mem ⟨some .rsp, none, 176#64⟩), -- 612: mulx rbx, rax, [rsp + (32* 5)+ 0x10]
  .adcx .r13 (.reg .rax), -- 613: adcx r13, rax
  .adox .r14 (.reg .rbx), -- 614: adox r14, rbx
  .adox .r15 (.reg .r9), -- 615: adox r15, r9
  .mulx .rbx .rax (.mem ⟨some .rsp, none, 184#64⟩), -- 616: mulx rbx, rax, [rsp + (32* 5)+ 0x18]
  .adc (.reg .r14) (.reg .rax), -- 617: adc r14, rax
  .adc (.reg .r15) (.reg .rbx), -- 618: adc r15, rbx
  .adc (.reg .r8) (.reg .r9), -- 619: adc r8, r9
  .xor (.reg .r9) (.reg .r9), -- 620: xor r9d, r9d
  .mov (.reg .rdx) (.imm 0x100000000#64), -- 621: movabs rdx, 0x100000000
  .mulx .rbx .rax (.reg .r10), -- 622: mulx rbx, rax, r10
  .adcx .r11 (.reg .rax), -- 623: adcx r11, rax
  .adox .r12 (.reg .rbx), -- 624: adox r12, rbx
  .mulx .rbx .rax (.reg .r11), -- 625: mulx rbx, rax, r11
  .adcx .r12 (.reg .rax), -- 626: adcx r12, rax
  .adox .r13 (.reg .rbx), -- 627: adox r13, rbx
  .not (.reg .rdx), -- 628: not rdx
  .lea .rdx ⟨some .rdx, none, 2#64⟩, -- 629: lea rdx, [rdx + 0x2]
  .mulx .rbx .rax (.reg .r10), -- 630: mulx rbx, rax, r10
  .adcx .r13 (.reg .rax), -- 631: adcx r13, rax
  .adox .r14 (.reg .rbx), -- 632: adox r14, rbx
  .mulx .rbx .rax (.reg .r11), -- 633: mulx rbx, rax, r11
  .adcx .r14 (.reg .rax), -- 634: adcx r14, rax
  .adox .r15 (.reg .rbx), -- 635: adox r15, rbx
  .adcx .r15 (.reg .r9), -- 636: adcx r15, r9
  .adox .r8 (.reg .r9), -- 637: adox r8, r9
  .adc (.reg .r8) (.reg .r9), -- 638: adc r8, r9
  .mov (.reg .rcx) (.imm 1#64), -- 639: mov ecx, 0x1
  .add (.reg .rcx) (.reg .r12), -- 640: add rcx, r12
  .dec (.reg .rdx), -- 641: dec rdx
  .adc (.reg .rdx) (.reg .r13), -- 642: adc rdx, r13
  .dec (.reg .r9), -- 643: dec r9
  .mov (.reg .rax) (.reg .r9), -- 644: mov rax, r9
  .adc (.reg .r9) (.reg .r14), -- 645: adc r9, r14
  .mov (.reg .r11) (.imm 0xfffffffe#64), -- 646: mov r11d, 0xfffffffe
  .adc (.reg .r11) (.reg .r15), -- 647: adc r11, r15
  .adc (.reg .rax) (.reg .r8), -- 648: adc rax, r8
  .cmov .cy .r12 (.reg .rcx), -- 649: cmovb r12, rcx
  .cmov .cy .r13 (.reg .rdx), -- 650: cmovb r13, rdx
  .cmov .cy .r14 (.reg .r9), -- 651: cmovb r14, r9
  .cmov .cy .r15 (.reg .r11), -- 652: cmovb r15, r11
  .mov (.mem ⟨some .rsp, none, 128#64⟩) (.reg .r12), -- 653: mov [rsp + (32* 4)], r12
  .mov (.mem ⟨some .rsp, none, 136#64⟩) (.reg .r13), -- 654: mov [rsp + (32* 4)+ 0x8], r13
  .mov (.mem ⟨some .rsp, none, 144#64⟩) (.reg .r14), -- 655: mov [rsp + (32* 4)+ 0x10], r14
  .mov (.mem ⟨some .rsp, none, 152#64⟩) (.reg .r15), -- 656: mov [rsp + (32* 4)+ 0x18], r15
  .xor (.reg .r13) (.reg .r13), -- 657: xor r13d, r13d
  .mov (.reg .rdx) (.mem ⟨some .rsp, none, 32#64⟩), -- 658: mov rdx, [rsp + (32* 1)]
  .mulx .r9 .r8 (.mem ⟨some .rsp, none, 0#64⟩), -- 659: mulx r9, r8, [rsp + (32* 0)]
  .mulx .r10 .rbx (.mem ⟨some .rsp, none, 8#64⟩), -- 660: mulx r10, rbx, [rsp + (32* 0)+ 0x8]
  .adc (.reg .r9) (.reg .rbx), -- 661: adc r9, rbx
  .mulx .r11 .rbx (.mem ⟨some .rsp, none, 16#64⟩), -- 662: mulx r11, rbx, [rsp + (32* 0)+ 0x10]
  .adc (.reg .r10) (.reg .rbx), -- 663: adc r10, rbx
  .mulx .r12 .rbx (.mem ⟨some .rsp, none, 24#64⟩), -- 664: mulx r12, rbx, [rsp + (32* 0)+ 0x18]
  .adc (.reg .r11) (.reg .rbx), -- 665: adc r11, rbx
  .adc (.reg .r12) (.reg .r13), -- 666: adc r12, r13
  .mov (.reg .rdx) (.mem ⟨some .rsp, none, 40#64⟩), -- 667: mov rdx, [rsp + (32* 1)+ 0x8]
  .xor (.reg .r14) (.reg .r14), -- 668: xor r14d, r14d
  .mulx .rbx .rax (.mem ⟨some .rsp, none, 0#64⟩), -- 669: mulx rbx, rax, [rsp + (32* 0)]
  .adcx .r9 (.reg .rax), -- 670: adcx r9, rax
  .adox .r10 (.reg .rbx), -- 671: adox r10, rbx
  .mulx .rbx .rax (.mem ⟨some .rsp, none, 8#64⟩), -- 672: mulx rbx, rax, [rsp + (32* 0)+ 0x8]
  .adcx .r10 (.reg .rax), -- 673: adcx r10, rax
  .adox .r11 (.reg .rbx), -- 674: adox r11, rbx
  .mulx .rbx .rax (.mem ⟨some .rsp, none, 16#64⟩), -- 675: mulx rbx, rax, [rsp + (32* 0)+ 0x10]
  .adcx .r11 (.reg .rax), -- 676: adcx r11, rax
  .adox .r12 (.reg .rbx), -- 677: adox r12, rbx
  .mulx .rbx .rax (.mem ⟨some .rsp, none, 24#64⟩), -- 678: mulx rbx, rax, [rsp + (32* 0)+ 0x18]
  .adcx .r12 (.reg .rax), -- 679: adcx r12, rax
  .adox .r13 (.reg .rbx), -- 680: adox r13, rbx
  .adc (.reg .r13) (.reg .r14), -- 681: adc r13, r14
  .xor (.reg .r15) (.reg .r15), -- 682: xor r15d, r15d
  .mov (.reg .rdx) (.imm 0x100000000#64), -- 683: movabs rdx, 0x100000000
  .mulx .rbx .rax (.reg .r8), -- 684: mulx rbx, rax, r8
  .adcx .r9 (.reg .rax), -- 685: adcx r9, rax
  .adox .r10 (.reg .rbx), -- 686: adox r10, rbx
  .mulx .rbx .rax (.reg .r9), -- 687: mulx rbx, rax, r9
  .adcx .r10 (.reg .rax), -- 688: adcx r10, rax
  .adox .r11 (.reg .rbx), -- 689: adox r11, rbx
  .not (.reg .rdx), -- 690: not rdx
  .lea .rdx ⟨some .rdx, none, 2#64⟩, -- 691: lea rdx, [rdx + 0x2]
  .mulx .rbx .rax (.reg .r8), -- 692: mulx rbx, rax, r8
  .adcx .r11 (.reg .rax), -- 693: adcx r11, rax
  .adox .r12 (.reg .rbx), -- 694: adox r12, rbx
  .mulx .rbx .rax (.reg .r9), -- 695: mulx rbx, rax, r9
  .adcx .r12 (.reg .rax), -- 696: adcx r12, rax
  .adox .r13 (.reg .rbx), -- 697: adox r13, rbx
  .adcx .r13 (.reg .r15), -- 698: adcx r13, r15
  .adox .r14 (.reg .r15), -- 699: adox r14, r15
  .adc (.reg .r14) (.reg .r15), -- 700: adc r14, r15
  .mov (.reg .rdx) (.mem ⟨some .rsp, none, 48#64⟩), -- 701: mov rdx, [rsp + (32* 1)+ 0x10]
  .xor (.reg .r8) (.reg .r8), -- 702: xor r8d, r8d
  .mulx .rbx .rax (.mem ⟨some .rsp, none, 0#64⟩), -- 703: mulx rbx, rax, [rsp + (32* 0)]
  .adcx .r10 (.reg .rax), -- 704: adcx r10, rax
  .adox .r11 (.reg .rbx), -- 705: adox r11, rbx
  .mulx .rbx .rax (.mem ⟨some .rsp, none, 8#64⟩), -- 706: mulx rbx, rax, [rsp + (32* 0)+ 0x8]
  .adcx .r11 (.reg .rax), -- 707: adcx r11, rax
  .adox .r12 (.reg .rbx), -- 708: adox r12, rbx
  .mulx .rbx .rax (.mem ⟨some .rsp, none, 16#64⟩), -- 709: mulx rbx, rax, [rsp + (32* 0)+ 0x10]
  .adcx .r12 (.reg .rax), -- 710: adcx r12, rax
  .adox .r13 (.reg .rbx), -- 711: adox r13, rbx
  .adox .r14 (.reg .r8), -- 712: adox r14, r8
  .mulx .rbx .rax (.mem ⟨some .rsp, none, 24#64⟩), -- 713: mulx rbx, rax, [rsp + (32* 0)+ 0x18]
  .adc (.reg .r13) (.reg .rax), -- 714: adc r13, rax
  .adc (.reg .r14) (.reg .rbx), -- 715: adc r14, rbx
  .adc (.reg .r15) (.reg .r8), -- 716: adc r15, r8
  .mov (.reg .rdx) (.mem ⟨some .rsp, none, 56#64⟩), -- 717: mov rdx, [rsp + (32* 1)+ 0x18]
  .xor (.reg .r9) (.reg .r9), -- 718: xor r9d, r9d
  .mulx .rbx .rax (.mem ⟨some .rsp, none, 0#64⟩), -- 719: mulx rbx, rax, [rsp + (32* 0)]
  .adcx .r11 (.reg .rax), -- 720: adcx r11, rax
  .adox .r12 (.reg .rbx), -- 721: adox r12, rbx
  .mulx .rbx .rax (.mem ⟨some .rsp, none, 8#64⟩), -- 722: mulx rbx, rax, [rsp + (32* 0)+ 0x8]
  .adcx .r12 (.reg .rax), -- 723: adcx r12, rax
  .adox .r13 (.reg .rbx), -- 724: adox r13, rbx
  .mulx .rbx .rax (.mem ⟨some .rsp, none, 16#64⟩), -- 725: mulx rbx, rax, [rsp + (32* 0)+ 0x10]
  .adcx .r13 (.reg .rax), -- 726: adcx r13, rax
  .adox .r14 (.reg .rbx), -- 727: adox r14, rbx
  .adox .r15 (.reg .r9), -- 728: adox r15, r9
  .mulx .rbx .rax (.mem ⟨some .rsp, none, 24#64⟩), -- 729: mulx rbx, rax, [rsp + (32* 0)+ 0x18]
  .adc (.reg .r14) (.reg .rax), -- 730: adc r14, rax
  .adc (.reg .r15) (.reg .rbx), -- 731: adc r15, rbx
  .adc (.reg .r8) (.reg .r9), -- 732: adc r8, r9
  .xor (.reg .r9) (.reg .r9), -- 733: xor r9d, r9d
  .mov (.reg .rdx) (.imm 0x100000000#64), -- 734: movabs rdx, 0x100000000
  .mulx .rbx .rax (.reg .r10), -- 735: mulx rbx, rax, r10
  .adcx .r11 (.reg .rax), -- 736: adcx r11, rax
  .adox .r12 (.reg .rbx), -- 737: adox r12, rbx
  .mulx .rbx .rax (.reg .r11), -- 738: mulx rbx, rax, r11
  .adcx .r12 (.reg .rax), -- 739: adcx r12, rax
  .adox .r13 (.reg .rbx), -- 740: adox r13, rbx
  .not (.reg .rdx), -- 741: not rdx
  .lea .rdx ⟨some .rdx, none, 2#64⟩, -- 742: lea rdx, [rdx + 0x2]
  .mulx .rbx .rax (.reg .r10), -- 743: mulx rbx, rax, r10
  .adcx .r13 (.reg .rax), -- 744: adcx r13, rax
  .adox .r14 (.reg .rbx), -- 745: adox r14, rbx
  .mulx .rbx .rax (.reg .r11), -- 746: mulx rbx, rax, r11
  .adcx .r14 (.reg .rax), -- 747: adcx r14, rax
  .adox .r15 (.reg .rbx), -- 748: adox r15, rbx
  .adcx .r15 (.reg .r9), -- 749: adcx r15, r9
  .adox .r8 (.reg .r9), -- 750: adox r8, r9
  .adc (.reg .r8) (.reg .r9), -- 751: adc r8, r9
  .mov (.reg .rcx) (.imm 1#64), -- 752: mov ecx, 0x1
  .add (.reg .rcx) (.reg .r12), -- 753: add rcx, r12
  .dec (.reg .rdx), -- 754: dec rdx
  .adc (.reg .rdx) (.reg .r13), -- 755: adc rdx, r13
  .dec (.reg .r9), -- 756: dec r9
  .mov (.reg .rax) (.reg .r9), -- 757: mov rax, r9
  .adc (.reg .r9) (.reg .r14), -- 758: adc r9, r14
  .mov (.reg .r11) (.imm 0xfffffffe#64), -- 759: mov r11d, 0xfffffffe
  .adc (.reg .r11) (.reg .r15), -- 760: adc r11, r15
  .adc (.reg .rax) (.reg .r8), -- 761: adc rax, r8
  .cmov .cy .r12 (.reg .rcx), -- 762: cmovb r12, rcx
  .cmov .cy .r13 (.reg .rdx), -- 763: cmovb r13, rdx
  .cmov .cy .r14 (.reg .r9), -- 764: cmovb r14, r9
  .cmov .cy .r15 (.reg .r11), -- 765: cmovb r15, r11
  .mov (.mem ⟨some .rsp, none, 32#64⟩) (.reg .r12), -- 766: mov [rsp + (32* 1)], r12
  .mov (.mem ⟨some .rsp, none, 40#64⟩) (.reg .r13), -- 767: mov [rsp + (32* 1)+ 0x8], r13
  .mov (.mem ⟨some .rsp, none, 48#64⟩) (.reg .r14), -- 768: mov [rsp + (32* 1)+ 0x10], r14
  .mov (.mem ⟨some .rsp, none, 56#64⟩) (.reg .r15), -- 769: mov [rsp + (32* 1)+ 0x18], r15
  .xor (.reg .r13) (.reg .r13), -- 770: xor r13d, r13d
  .mov (.reg .rdx) (.mem ⟨some .rsp, none, 192#64⟩), -- 771: mov rdx, [rsp + (32* 6)]
  .mulx .r9 .r8 (.mem ⟨some .rsp, none, 160#64⟩), -- 772: mulx r9, r8, [rsp + (32* 5)]
  .mulx .r10 .rbx (.mem ⟨some .rsp, none, 168#64⟩), -- 773: mulx r10, rbx, [rsp + (32* 5)+ 0x8]
  .adc (.reg .r9) (.reg .rbx), -- 774: adc r9, rbx
  .mulx .r11 .rbx (.mem ⟨some .rsp, none, 176#64⟩), -- 775: mulx r11, rbx, [rsp + (32* 5)+ 0x10]
  .adc (.reg .r10) (.reg .rbx), -- 776: adc r10, rbx
  .mulx .r12 .rbx (.mem ⟨some .rsp, none, 184#64⟩), -- 777: mulx r12, rbx, [rsp + (32* 5)+ 0x18]
  .adc (.reg .r11) (.reg .rbx), -- 778: adc r11, rbx
  .adc (.reg .r12) (.reg .r13), -- 779: adc r12, r13
  .mov (.reg .rdx) (.mem ⟨some .rsp, none, 200#64⟩), -- 780: mov rdx, [rsp + (32* 6)+ 0x8]
  .xor (.reg .r14) (.reg .r14), -- 781: xor r14d, r14d
  .mulx .rbx .rax (.mem ⟨some .rsp, none, 160#64⟩), -- 782: mulx rbx, rax, [rsp + (32* 5)]
  .adcx .r9 (.reg .rax), -- 783: adcx r9, rax
  .adox .r10 (.reg .rbx), -- 784: adox r10, rbx
  .mulx .rbx .rax (.mem ⟨some .rsp, none, 168#64⟩), -- 785: mulx rbx, rax, [rsp + (32* 5)+ 0x8]
  .adcx .r10 (.reg .rax), -- 786: adcx r10, rax
  .adox .r11 (.reg .rbx), -- 787: adox r11, rbx
  .mulx .rbx .rax (.mem ⟨some .rsp, none, 176#64⟩), -- 788: mulx rbx, rax, [rsp + (32* 5)+ 0x10]
  .adcx .r11 (.reg .rax), -- 789: adcx r11, rax
  .adox .r12 (.reg .rbx), -- 790: adox r12, rbx
  .mulx .rbx .rax (.mem ⟨some .rsp, none, 184#64⟩), -- 791: mulx rbx, rax, [rsp + (32* 5)+ 0x18]
  .adcx .r12 (.reg .rax), -- 792: adcx r12, rax
  .adox .r13 (.reg .rbx), -- 793: adox r13, rbx
  .adc (.reg .r13) (.reg .r14), -- 794: adc r13, r14
  .xor (.reg .r15) (.reg .r15), -- 795: xor r15d, r15d
  .mov (.reg .rdx) (.imm 0x100000000#64), -- 796: movabs rdx, 0x100000000
  .mulx .rbx .rax (.reg .r8), -- 797: mulx rbx, rax, r8
  .adcx .r9 (.reg .rax), -- 798: adcx r9, rax
  .adox .r10 (.reg .rbx), -- 799: adox r10, rbx
  .mulx .rbx .rax (.reg .r9), -- 800: mulx rbx, rax, r9
  .adcx .r10 (.reg .rax), -- 801: adcx r10, rax
  .adox .r11 (.reg .rbx), -- 802: adox r11, rbx
  .not (.reg .rdx), -- 803: not rdx
  .lea .rdx ⟨some .rdx, none, 2#64⟩, -- 804: lea rdx, [rdx + 0x2]
  .mulx .rbx .rax (.reg .r8), -- 805: mulx rbx, rax, r8
  .adcx .r11 (.reg .rax), -- 806: adcx r11, rax
  .adox .r12 (.reg .rbx), -- 807: adox r12, rbx
  .mulx .rbx .rax (.reg .r9), -- 808: mulx rbx, rax, r9
  .adcx .r12 (.reg .rax), -- 809: adcx r12, rax
  .adox .r13 (.reg .rbx), -- 810: adox r13, rbx
  .adcx .r13 (.reg .r15), -- 811: adcx r13, r15
  .adox .r14 (.reg .r15), -- 812: adox r14, r15
  .adc (.reg .r14) (.reg .r15), -- 813: adc r14, r15
  .mov (.reg .rdx) (.mem ⟨some .rsp, none, 208#64⟩), -- 814: mov rdx, [rsp + (32* 6)+ 0x10]
  .xor (.reg .r8) (.reg .r8), -- 815: xor r8d, r8d
  .mulx .rbx .rax (.mem ⟨some .rsp, none, 160#64⟩), -- 816: mulx rbx, rax, [rsp + (32* 5)]
  .adcx .r10 (.reg .rax), -- 817: adcx r10, rax
  .adox .r11 (.reg .rbx), -- 818: adox r11, rbx
  .mulx .rbx .rax (.mem ⟨some .rsp, none, 168#64⟩), -- 819: mulx rbx, rax, [rsp + (32* 5)+ 0x8]
  .adcx .r11 (.reg .rax), -- 820: adcx r11, rax
  .adox .r12 (.reg .rbx), -- 821: adox r12, rbx
  .mulx .rbx .rax (.mem ⟨some .rsp, none, 176#64⟩), -- 822: mulx rbx, rax, [rsp + (32* 5)+ 0x10]
  .adcx .r12 (.reg .rax), -- 823: adcx r12, rax
  .adox .r13 (.reg .rbx), -- 824: adox r13, rbx
  .adox .r14 (.reg .r8), -- 825: adox r14, r8
  .mulx .rbx .rax (.mem ⟨some .rsp, none, 184#64⟩), -- 826: mulx rbx, rax, [rsp + (32* 5)+ 0x18]
  .adc (.reg .r13) (.reg .rax), -- 827: adc r13, rax
  .adc (.reg .r14) (.reg .rbx), -- 828: adc r14, rbx
  .adc (.reg .r15) (.reg .r8), -- 829: adc r15, r8
  .mov (.reg .rdx) (.mem ⟨some .rsp, none, 216#64⟩), -- 830: mov rdx, [rsp + (32* 6)+ 0x18]
  .xor (.reg .r9) (.reg .r9), -- 831: xor r9d, r9d
  .mulx .rbx .rax (.mem ⟨some .rsp, none, 160#64⟩), -- 832: mulx rbx, rax, [rsp + (32* 5)]
  .adcx .r11 (.reg .rax), -- 833: adcx r11, rax
  .adox .r12 (.reg .rbx), -- 834: adox r12, rbx
  .mulx .rbx .rax (.mem ⟨some .rsp, none, 168#64⟩), -- 835: mulx rbx, rax, [rsp + (32* 5)+ 0x8]
  .adcx .r12 (.reg .rax), -- 836: adcx r12, rax
  .adox .r13 (.reg .rbx), -- 837: adox r13, rbx
  .mulx .rbx .rax (.mem ⟨some .rsp, none, 176#64⟩), -- 838: mulx rbx, rax, [rsp + (32* 5)+ 0x10]
  .adcx .r13 (.reg .rax), -- 839: adcx r13, rax
  .adox .r14 (.reg .rbx), -- 840: adox r14, rbx
  .adox .r15 (.reg .r9), -- 841: adox r15, r9
  .mulx .rbx .rax (.mem ⟨some .rsp, none, 184#64⟩), -- 842: mulx rbx, rax, [rsp + (32* 5)+ 0x18]
  .adc (.reg .r14) (.reg .rax), -- 843: adc r14, rax
  .adc (.reg .r15) (.reg .rbx), -- 844: adc r15, rbx
  .adc (.reg .r8) (.reg .r9), -- 845: adc r8, r9
  .xor (.reg .r9) (.reg .r9), -- 846: xor r9d, r9d
  .mov (.reg .rdx) (.imm 0x100000000#64), -- 847: movabs rdx, 0x100000000
  .mulx .rbx .rax (.reg .r10), -- 848: mulx rbx, rax, r10
  .adcx .r11 (.reg .rax), -- 849: adcx r11, rax
  .adox .r12 (.reg .rbx), -- 850: adox r12, rbx
  .mulx .rbx .rax (.reg .r11), -- 851: mulx rbx, rax, r11
  .adcx .r12 (.reg .rax), -- 852: adcx r12, rax
  .adox .r13 (.reg .rbx), -- 853: adox r13, rbx
  .not (.reg .rdx), -- 854: not rdx
  .lea .rdx ⟨some .rdx, none, 2#64⟩, -- 855: lea rdx, [rdx + 0x2]
  .mulx .rbx .rax (.reg .r10), -- 856: mulx rbx, rax, r10
  .adcx .r13 (.reg .rax), -- 857: adcx r13, rax
  .adox .r14 (.reg .rbx), -- 858: adox r14, rbx
  .mulx .rbx .rax (.reg .r11), -- 859: mulx rbx, rax, r11
  .adcx .r14 (.reg .rax), -- 860: adcx r14, rax
  .adox .r15 (.reg .rbx), -- 861: adox r15, rbx
  .adcx .r15 (.reg .r9), -- 862: adcx r15, r9
  .adox .r8 (.reg .r9), -- 863: adox r8, r9
  .adc (.reg .r8) (.reg .r9), -- 864: adc r8, r9
  .mov (.reg .rcx) (.imm 1#64), -- 865: mov ecx, 0x1
  .add (.reg .rcx) (.reg .r12), -- 866: add rcx, r12
  .dec (.reg .rdx), -- 867: dec rdx
  .adc (.reg .rdx) (.reg .r13), -- 868: adc rdx, r13
  .dec (.reg .r9), -- 869: dec r9
  .mov (.reg .rax) (.reg .r9), -- 870: mov rax, r9
  .adc (.reg .r9) (.reg .r14), -- 871: adc r9, r14
  .mov (.reg .r11) (.imm 0xfffffffe#64), -- 872: mov r11d, 0xfffffffe
  .adc (.reg .r11) (.reg .r15), -- 873: adc r11, r15
  .adc (.reg .rax) (.reg .r8), -- 874: adc rax, r8
  .cmov .cy .r12 (.reg .rcx), -- 875: cmovb r12, rcx
  .cmov .cy .r13 (.reg .rdx), -- 876: cmovb r13, rdx
  .cmov .cy .r14 (.reg .r9), -- 877: cmovb r14, r9
  .cmov .cy .r15 (.reg .r11), -- 878: cmovb r15, r11
  .mov (.mem ⟨some .rsp, none, 192#64⟩) (.reg .r12), -- 879: mov [rsp + (32* 6)], r12
  .mov (.mem ⟨some .rsp, none, 200#64⟩) (.reg .r13), -- 880: mov [rsp + (32* 6)+ 0x8], r13
  .mov (.mem ⟨some .rsp, none, 208#64⟩) (.reg .r14), -- 881: mov [rsp + (32* 6)+ 0x10], r14
  .mov (.mem ⟨some .rsp, none, 216#64⟩) (.reg .r15), -- 882: mov [rsp + (32* 6)+ 0x18], r15
  .mov (.reg .rax) (.mem ⟨some .rsp, none, 64#64⟩), -- 883: mov rax, [rsp + (32* 2)]
  .sub (.reg .rax) (.mem ⟨some .rsp, none, 128#64⟩), -- 884: sub rax, [rsp + (32* 4)]
  .mov (.reg .rcx) (.mem ⟨some .rsp, none, 72#64⟩), -- 885: mov rcx, [rsp + (32* 2)+ 0x8]
  .sbb (.reg .rcx) (.mem ⟨some .rsp, none, 136#64⟩), -- 886: sbb rcx, [rsp + (32* 4)+ 0x8]
  .mov (.reg .r8) (.mem ⟨some .rsp, none, 80#64⟩), -- 887: mov r8, [rsp + (32* 2)+ 0x10]
  .sbb (.reg .r8) (.mem ⟨some .rsp, none, 144#64⟩), -- 888: sbb r8, [rsp + (32* 4)+ 0x10]
  .mov (.reg .r9) (.mem ⟨some .rsp, none, 88#64⟩), -- 889: mov r9, [rsp + (32* 2)+ 0x18]
  .sbb (.reg .r9) (.mem ⟨some .rsp, none, 152#64⟩), -- 890: sbb r9, [rsp + (32* 4)+ 0x18]
  .mov (.reg .r10) (.imm 0xffffffff#64), -- 891: mov r10d, 0xffffffff
  .sbb (.reg .r11) (.reg .r11), -- 892: sbb r11, r11
  .xor (.reg .rdx) (.reg .rdx), -- 893: xor rdx, rdx
  .and (.reg .r10) (.reg .r11), -- 894: and r10, r11
  .sub (.reg .rdx) (.reg .r10), -- 895: sub rdx, r10
  .add (.reg .rax) (.reg .r11), -- 896: add rax, r11
  .mov (.mem ⟨some .rsp, none, 160#64⟩) (.reg .rax), -- 897: mov [rsp + (32* 5)], rax
  .adc (.reg .rcx) (.reg .r10), -- 898: adc rcx, r10
  .mov (.mem ⟨some .rsp, none, 168#64⟩) (.reg .rcx), -- 899: mov [rsp + (32* 5)+ 0x8], rcx
  .adc (.reg .r8) (.imm 0#64), -- 900: adc r8, 0x0
  .mov (.mem ⟨some .rsp, none, 176#64⟩) (.reg .r8), -- 901: mov [rsp + (32* 5)+ 0x10], r8
  .adc (.reg .r9) (.reg .rdx), -- 902: adc r9, rdx
  .mov (.mem ⟨some .rsp, none, 184#64⟩) (.reg .r9), -- 903: mov [rsp + (32* 5)+ 0x18], r9
  .mov (.reg .rax) (.mem ⟨some .rsp, none, 32#64⟩), -- 904: mov rax, [rsp + (32* 1)]
  .sub (.reg .rax) (.mem ⟨some .rsp, none, 192#64⟩), -- 905: sub rax, [rsp + (32* 6)]
  .mov (.reg .rcx) (.mem ⟨some .rsp, none, 40#64⟩), -- 906: mov rcx, [rsp + (32* 1)+ 0x8]
  .sbb (.reg .rcx) (.mem ⟨some .rsp, none, 200#64⟩), -- 907: sbb rcx, [rsp + (32* 6)+ 0x8]
  .mov (.reg .r8) (.mem ⟨some .rsp, none, 48#64⟩), -- 908: mov r8, [rsp + (32* 1)+ 0x10]
  .sbb (.reg .r8) (.mem ⟨some .rsp, none, 208#64⟩), -- 909: sbb r8, [rsp + (32* 6)+ 0x10]
  .mov (.reg .r9) (.mem ⟨some .rsp, none, 56#64⟩), -- 910: mov r9, [rsp + (32* 1)+ 0x18]
  .sbb (.reg .r9) (.mem ⟨some .rsp, none, 216#64⟩), -- 911: sbb r9, [rsp + (32* 6)+ 0x18]
  .mov (.reg .r10) (.imm 0xffffffff#64), -- 912: mov r10d, 0xffffffff
  .sbb (.reg .r11) (.reg .r11), -- 913: sbb r11, r11
  .xor (.reg .rdx) (.reg .rdx), -- 914: xor rdx, rdx
  .and (.reg .r10) (.reg .r11), -- 915: and r10, r11
  .sub (.reg .rdx) (.reg .r10), -- 916: sub rdx, r10
  .add (.reg .rax) (.reg .r11), -- 917: add rax, r11
  .mov (.mem ⟨some .rsp, none, 32#64⟩) (.reg .rax), -- 918: mov [rsp + (32* 1)], rax
  .adc (.reg .rcx) (.reg .r10), -- 919: adc rcx, r10
  .mov (.mem ⟨some .rsp, none, 40#64⟩) (.reg .rcx), -- 920: mov [rsp + (32* 1)+ 0x8], rcx
  .adc (.reg .r8) (.imm 0#64), -- 921: adc r8, 0x0
  .mov (.mem ⟨some .rsp, none, 48#64⟩) (.reg .r8), -- 922: mov [rsp + (32* 1)+ 0x10], r8
  .adc (.reg .r9) (.reg .rdx), -- 923: adc r9, rdx
  .mov (.mem ⟨some .rsp, none, 56#64⟩) (.reg .r9), -- 924: mov [rsp + (32* 1)+ 0x18], r9
  .mov (.reg .rdx) (.mem ⟨some .rsp, none, 160#64⟩), -- 925: mov rdx, [rsp + (32* 5)]
  .mulx .r15 .r8 (.reg .rdx), -- 926: mulx r15, r8, rdx
  .mulx .r10 .r9 (.mem ⟨some .rsp, none, 168#64⟩), -- 927: mulx r10, r9, [rsp + (32* 5)+ 0x8]
  .mulx .r12 .r11 (.mem ⟨some .rsp, none, 184#64⟩), -- 928: mulx r12, r11, [rsp + (32* 5)+ 0x18]
  .mov (.reg .rdx) (.mem ⟨some .rsp, none, 176#64⟩), -- 929: mov rdx, [rsp + (32* 5)+ 0x10]
  .mulx .r14 .r13 (.mem ⟨some .rsp, none, 184#64⟩), -- 930: mulx r14, r13, [rsp + (32* 5)+ 0x18]
  .xor (.reg .rcx) (.reg .rcx), -- 931: xor ecx, ecx
  .mulx .rbx .rax (.mem ⟨some .rsp, none, 160#64⟩), -- 932: mulx rbx, rax, [rsp + (32* 5)]
  .adcx .r10 (.reg .rax), -- 933: adcx r10, rax
  .adox .r11 (.reg .rbx), -- 934: adox r11, rbx
  .mulx .rbx .rax (.mem ⟨some .rsp, none, 168#64⟩), -- 935: mulx rbx, rax, [rsp + (32* 5)+ 0x8]
  .adcx .r11 (.reg .rax), -- 936: adcx r11, rax
  .adox .r12 (.reg .rbx), -- 937: adox r12, rbx
  .mov (.reg .rdx) (.mem ⟨some .rsp, none, 184#64⟩), -- 938: mov rdx, [rsp + (32* 5)+ 0x18]
  .mulx .rbx .rax (.mem ⟨some .rsp, none, 168#64⟩), -- 939: mulx rbx, rax, [rsp + (32* 5)+ 0x8]
  .adcx .r12 (.reg .rax), -- 940: adcx r12, rax
  .adox .r13 (.reg .rbx), -- 941: adox r13, rbx
  .adcx .r13 (.reg .rcx), -- 942: adcx r13, rcx
  .adox .r14 (.reg .rcx), -- 943: adox r14, rcx
  .adc (.reg .r14) (.reg .rcx), -- 944: adc r14, rcx
  .xor (.reg .rcx) (.reg .rcx), -- 945: xor ecx, ecx
  .adcx .r9 (.reg .r9), -- 946: adcx r9, r9
  .adox .r9 (.reg .r15), -- 947: adox r9, r15
  .mov (.reg .rdx) (.mem ⟨some .rsp, none, 168#64⟩), -- 948: mov rdx, [rsp + (32* 5)+ 0x8]
  .mulx .rdx .rax (.reg .rdx), -- 949: mulx rdx, rax, rdx
  .adcx .r10 (.reg .r10), -- 950: adcx r10, r10
  .adox .r10 (.reg .rax), -- 951: adox r10, rax
  .adcx .r11 (.reg .r11), -- 952: adcx r11, r11
  .adox .r11 (.reg .rdx), -- 953: adox r11, rdx
  .mov (.reg .rdx) (.mem ⟨some .rsp, none, 176#64⟩), -- 954: mov rdx, [rsp + (32* 5)+ 0x10]
  .mulx .rdx .rax (.reg .rdx), -- 955: mulx rdx, rax, rdx
  .adcx .r12 (.reg .r12), -- 956: adcx r12, r12
  .adox .r12 (.reg .rax), -- 957: adox r12, rax
  .adcx .r13 (.reg .r13), -- 958: adcx r13, r13
  .adox .r13 (.reg .rdx), -- 959: adox r13, rdx
  .mov (.reg .rdx) (.mem ⟨some .rsp, none, 184#64⟩), -- 960: mov rdx, [rsp + (32* 5)+ 0x18]
  .mulx .r15 .rax (.reg .rdx), -- 961: mulx r15, rax, rdx
  .adcx .r14 (.reg .r14), -- 962: adcx r14, r14
  .adox .r14 (.reg .rax), -- 963: adox r14, rax
  .adcx .r15 (.reg .rcx), -- 964: adcx r15, rcx
  .adox .r15 (.reg .rcx), -- 965: adox r15, rcx
  .xor (.reg .rcx) (.reg .rcx), -- 966: xor ecx, ecx
  .mov (.reg .rdx) (.imm 0x100000000#64), -- 967: movabs rdx, 0x100000000
  .mulx .rbx .rax (.reg .r8), -- 968: mulx rbx, rax, r8
  .adcx .r9 (.reg .rax), -- 969: adcx r9, rax
  .adox .r10 (.reg .rbx), -- 970: adox r10, rbx
  .mulx .rbx .rax (.reg .r9), -- 971: mulx rbx, rax, r9
  .adcx .r10 (.reg .rax), -- 972: adcx r10, rax
  .adox .r11 (.reg .rbx), -- 973: adox r11, rbx
  .mov (.reg .rdx) (.imm 0xffffffff00000001#64), -- 974: movabs rdx, 0xffffffff00000001
  .mulx .rbx .rax (.reg .r8), -- 975: mulx rbx, rax, r8
  .adcx .r11 (.reg .rax), -- 976: adcx r11, rax
  .adox .r12 (.reg .rbx), -- 977: adox r12, rbx
  .mulx .rbx .rax (.reg .r9), -- 978: mulx rbx, rax, r9
  .adcx .r12 (.reg .rax), -- 979: adcx r12, rax
  .adox .r13 (.reg .rbx), -- 980: adox r13, rbx
  .adcx .r13 (.reg .rcx), -- 981: adcx r13, rcx
  .mov32 .r9 .rcx, -- 982: mov r9d, ecx
  .adox .r9 (.reg .rcx), -- 983: adox r9, rcx
  .adcx .r9 (.reg .rcx), -- 984: adcx r9, rcx
  .add (.reg .r14) (.reg .r9), -- 985: add r14, r9
  .adc (.reg .r15) (.reg .rcx), -- 986: adc r15, rcx
  .mov32 .r8 .rcx, -- 987: mov r8d, ecx
  .adc (.reg .r8) (.reg .rcx), -- 988: adc r8, rcx
  .xor (.reg .rcx) (.reg .rcx), -- 989: xor ecx, ecx
  .mov (.reg .rdx) (.imm 0x100000000#64), -- 990: movabs rdx, 0x100000000
  .mulx .rbx .rax (.reg .r10), -- 991: mulx rbx, rax, r10
  .adcx .r11 (.reg .rax), -- 992: adcx r11, rax
  .adox .r12 (.reg .rbx), -- 993: adox r12, rbx
  .mulx .rbx .rax (.reg .r11), -- 994: mulx rbx, rax, r11
  .adcx .r12 (.reg .rax), -- 995: adcx r12, rax
  .adox .r13 (.reg .rbx), -- 996: adox r13, rbx
  .mov (.reg .rdx) (.imm 0xffffffff00000001#64), -- 997: movabs rdx, 0xffffffff00000001
  .mulx .rbx .rax (.reg .r10), -- 998: mulx rbx, rax, r10
  .adcx .r13 (.reg .rax), -- 999: adcx r13, rax
  .adox .r14 (.reg .rbx), -- 1000: adox r14, rbx
  .mulx .rbx .rax (.reg .r11), -- 1001: mulx rbx, rax, r11
  .adcx .r14 (.reg .rax), -- 1002: adcx r14, rax
  .adox .r15 (.reg .rbx), -- 1003: adox r15, rbx
  .adcx .r15 (.reg .rcx), -- 1004: adcx r15, rcx
  .adox .r8 (.reg .rcx), -- 1005: adox r8, rcx
  .adc (.reg .r8) (.reg .rcx), -- 1006: adc r8, rcx
  .mov (.reg .r8) (.imm 1#64), -- 1007: mov r8d, 0x1
  .lea .rdx ⟨some .rdx, none, 0xffffffffffffffff#64⟩, -- 1008: lea rdx, [rdx -0x1]
  .lea .rax ⟨some .rcx, none, 0xffffffffffffffff#64⟩, -- 1009: lea rax, [rcx -0x1]
  .mov (.reg .r11) (.imm 0xfffffffe#64), -- 1010: mov r11d, 0xfffffffe
  .cmov .zr .r8 (.reg .rcx), -- 1011: cmovz r8, rcx
  .cmov .zr .rdx (.reg .rcx), -- 1012: cmovz rdx, rcx
  .cmov .zr .rax (.reg .rcx), -- 1013: cmovz rax, rcx
  .cmov .zr .r11 (.reg .rcx), -- 1014: cmovz r11, rcx
  .add (.reg .r12) (.reg .r8), -- 1015: add r12, r8
  .adc (.reg .r13) (.reg .rdx), -- 1016: adc r13, rdx
  .adc (.reg .r14) (.reg .rax), -- 1017: adc r14, rax
  .adc (.reg .r15) (.reg .r11), -- 1018: adc r15, r11
  .mov (.mem ⟨some .rsp, none, 96#64⟩) (.reg .r12), -- 1019: mov [rsp + (32* 3)], r12
  .mov (.mem ⟨some .rsp, none, 104#64⟩) (.reg .r13), -- 1020: mov [rsp + (32* 3)+ 0x8], r13
  .mov (.mem ⟨some .rsp, none, 112#64⟩) (.reg .r14), -- 1021: mov [rsp + (32* 3)+ 0x10], r14
  .mov (.mem ⟨some .rsp, none, 120#64⟩) (.reg .r15), -- 1022: mov [rsp + (32* 3)+ 0x18], r15
  .mov (.reg .rdx) (.mem ⟨some .rsp, none, 32#64⟩), -- 1023: mov rdx, [rsp + (32* 1)]
  .mulx .r15 .r8 (.reg .rdx), -- 1024: mulx r15, r8, rdx
  .mulx .r10 .r9 (.mem ⟨some .rsp, none, 40#64⟩), -- 1025: mulx r10, r9, [rsp + (32* 1)+ 0x8]
  .mulx .r12 .r11 (.mem ⟨some .rsp, none, 56#64⟩), -- 1026: mulx r12, r11, [rsp + (32* 1)+ 0x18]
  .mov (.reg .rdx) (.mem ⟨some .rsp, none, 48#64⟩), -- 1027: mov rdx, [rsp + (32* 1)+ 0x10]
  .mulx .r14 .r13 (.mem ⟨some .rsp, none, 56#64⟩), -- 1028: mulx r14, r13, [rsp + (32* 1)+ 0x18]
  .xor (.reg .rcx) (.reg .rcx), -- 1029: xor ecx, ecx
  .mulx .rbx .rax (.mem ⟨some .rsp, none, 32#64⟩), -- 1030: mulx rbx, rax, [rsp + (32* 1)]
  .adcx .r10 (.reg .rax), -- 1031: adcx r10, rax
  .adox .r11 (.reg .rbx), -- 1032: adox r11, rbx
  .mulx .rbx .rax (.mem ⟨some .rsp, none, 40#64⟩), -- 1033: mulx rbx, rax, [rsp + (32* 1)+ 0x8]
  .adcx .r11 (.reg .rax), -- 1034: adcx r11, rax
  .adox .r12 (.reg .rbx), -- 1035: adox r12, rbx
  .mov (.reg .rdx) (.mem ⟨some .rsp, none, 56#64⟩), -- 1036: mov rdx, [rsp + (32* 1)+ 0x18]
  .mulx .rbx .rax (.mem ⟨some .rsp, none, 40#64⟩), -- 1037: mulx rbx, rax, [rsp + (32* 1)+ 0x8]
  .adcx .r12 (.reg .rax), -- 1038: adcx r12, rax
  .adox .r13 (.reg .rbx), -- 1039: adox r13, rbx
  .adcx .r13 (.reg .rcx), -- 1040: adcx r13, rcx
  .adox .r14 (.reg .rcx), -- 1041: adox r14, rcx
  .adc (.reg .r14) (.reg .rcx), -- 1042: adc r14, rcx
  .xor (.reg .rcx) (.reg .rcx), -- 1043: xor ecx, ecx
  .adcx .r9 (.reg .r9), -- 1044: adcx r9, r9
  .adox .r9 (.reg .r15), -- 1045: adox r9, r15
  .mov (.reg .rdx) (.mem ⟨some .rsp, none, 40#64⟩), -- 1046: mov rdx, [rsp + (32* 1)+ 0x8]
  .mulx .rdx .rax (.reg .rdx), -- 1047: mulx rdx, rax, rdx
  .adcx .r10 (.reg .r10), -- 1048: adcx r10, r10
  .adox .r10 (.reg .rax), -- 1049: adox r10, rax
  .adcx .r11 (.reg .r11), -- 1050: adcx r11, r11
  .adox .r11 (.reg .rdx), -- 1051: adox r11, rdx
  .mov (.reg .rdx) (.mem ⟨some .rsp, none, 48#64⟩), -- 1052: mov rdx, [rsp + (32* 1)+ 0x10]
  .mulx .rdx .rax (.reg .rdx), -- 1053: mulx rdx, rax, rdx
  .adcx .r12 (.reg .r12), -- 1054: adcx r12, r12
  .adox .r12 (.reg .rax), -- 1055: adox r12, rax
  .adcx .r13 (.reg .r13), -- 1056: adcx r13, r13
  .adox .r13 (.reg .rdx), -- 1057: adox r13, rdx
  .mov (.reg .rdx) (.mem ⟨some .rsp, none, 56#64⟩), -- 1058: mov rdx, [rsp + (32* 1)+ 0x18]
  .mulx .r15 .rax (.reg .rdx), -- 1059: mulx r15, rax, rdx
  .adcx .r14 (.reg .r14), -- 1060: adcx r14, r14
  .adox .r14 (.reg .rax), -- 1061: adox r14, rax
  .adcx .r15 (.reg .rcx), -- 1062: adcx r15, rcx
  .adox .r15 (.reg .rcx), -- 1063: adox r15, rcx
  .xor (.reg .rcx) (.reg .rcx), -- 1064: xor ecx, ecx
  .mov (.reg .rdx) (.imm 0x100000000#64), -- 1065: movabs rdx, 0x100000000
  .mulx .rbx .rax (.reg .r8), -- 1066: mulx rbx, rax, r8
  .adcx .r9 (.reg .rax), -- 1067: adcx r9, rax
  .adox .r10 (.reg .rbx), -- 1068: adox r10, rbx
  .mulx .rbx .rax (.reg .r9), -- 1069: mulx rbx, rax, r9
  .adcx .r10 (.reg .rax), -- 1070: adcx r10, rax
  .adox .r11 (.reg .rbx), -- 1071: adox r11, rbx
  .mov (.reg .rdx) (.imm 0xffffffff00000001#64), -- 1072: movabs rdx, 0xffffffff00000001
  .mulx .rbx .rax (.reg .r8), -- 1073: mulx rbx, rax, r8
  .adcx .r11 (.reg .rax), -- 1074: adcx r11, rax
  .adox .r12 (.reg .rbx), -- 1075: adox r12, rbx
  .mulx .rbx .rax (.reg .r9), -- 1076: mulx rbx, rax, r9
  .adcx .r12 (.reg .rax), -- 1077: adcx r12, rax
  .adox .r13 (.reg .rbx), -- 1078: adox r13, rbx
  .adcx .r13 (.reg .rcx), -- 1079: adcx r13, rcx
  .mov32 .r9 .rcx, -- 1080: mov r9d, ecx
  .adox .r9 (.reg .rcx), -- 1081: adox r9, rcx
  .adcx .r9 (.reg .rcx), -- 1082: adcx r9, rcx
  .add (.reg .r14) (.reg .r9), -- 1083: add r14, r9
  .adc (.reg .r15) (.reg .rcx), -- 1084: adc r15, rcx
  .mov32 .r8 .rcx, -- 1085: mov r8d, ecx
  .adc (.reg .r8) (.reg .rcx), -- 1086: adc r8, rcx
  .xor (.reg .rcx) (.reg .rcx), -- 1087: xor ecx, ecx
  .mov (.reg .rdx) (.imm 0x100000000#64), -- 1088: movabs rdx, 0x100000000
  .mulx .rbx .rax (.reg .r10), -- 1089: mulx rbx, rax, r10
  .adcx .r11 (.reg .rax), -- 1090: adcx r11, rax
  .adox .r12 (.reg .rbx), -- 1091: adox r12, rbx
  .mulx .rbx .rax (.reg .r11), -- 1092: mulx rbx, rax, r11
  .adcx .r12 (.reg .rax), -- 1093: adcx r12, rax
  .adox .r13 (.reg .rbx), -- 1094: adox r13, rbx
  .mov (.reg .rdx) (.imm 0xffffffff00000001#64), -- 1095: movabs rdx, 0xffffffff00000001
  .mulx .rbx .rax (.reg .r10), -- 1096: mulx rbx, rax, r10
  .adcx .r13 (.reg .rax), -- 1097: adcx r13, rax
  .adox .r14 (.reg .rbx), -- 1098: adox r14, rbx
  .mulx .rbx .rax (.reg .r11), -- 1099: mulx rbx, rax, r11
  .adcx .r14 (.reg .rax), -- 1100: adcx r14, rax
  .adox .r15 (.reg .rbx), -- 1101: adox r15, rbx
  .adcx .r15 (.reg .rcx), -- 1102: adcx r15, rcx
  .adox .r8 (.reg .rcx), -- 1103: adox r8, rcx
  .adc (.reg .r8) (.reg .rcx), -- 1104: adc r8, rcx
  .mov (.reg .rbx) (.imm 1#64), -- 1105: mov ebx, 0x1
  .add (.reg .rbx) (.reg .r12), -- 1106: add rbx, r12
  .lea .rdx ⟨some .rdx, none, 0xffffffffffffffff#64⟩, -- 1107: lea rdx, [rdx -0x1]
  .adc (.reg .rdx) (.reg .r13), -- 1108: adc rdx, r13
  .lea .rcx ⟨some .rcx, none, 0xffffffffffffffff#64⟩, -- 1109: lea rcx, [rcx -0x1]
  .mov (.reg .rax) (.reg .rcx), -- 1110: mov rax, rcx
  .adc (.reg .rcx) (.reg .r14), -- 1111: adc rcx, r14
  .mov (.reg .r11) (.imm 0xfffffffe#64), -- 1112: mov r11d, 0xfffffffe
  .adc (.reg .r11) (.reg .r15), -- 1113: adc r11, r15
  .adc (.reg .rax) (.reg .r8), -- 1114: adc rax, r8
  .cmov .cy .r12 (.reg .rbx), -- 1115: cmovb r12, rbx
  .cmov .cy .r13 (.reg .rdx), -- 1116: cmovb r13, rdx
  .cmov .cy .r14 (.reg .rcx), -- 1117: cmovb r14, rcx
  .cmov .cy .r15 (.reg .r11), -- 1118: cmovb r15, r11
  .mov (.mem ⟨some .rsp, none, 0#64⟩) (.reg .r12), -- 1119: mov [rsp + (32* 0)], r12
  .mov (.mem ⟨some .rsp, none, 8#64⟩) (.reg .r13), -- 1120: mov [rsp + (32* 0)+ 0x8], r13
  .mov (.mem ⟨some .rsp, none, 16#64⟩) (.reg .r14), -- 1121: mov [rsp + (32* 0)+ 0x10], r14
  .mov (.mem ⟨some .rsp, none, 24#64⟩) (.reg .r15), -- 1122: mov [rsp + (32* 0)+ 0x18], r15
  .xor (.reg .r13) (.reg .r13), -- 1123: xor r13d, r13d
  .mov (.reg .rdx) (.mem ⟨some .rsp, none, 128#64⟩), -- 1124: mov rdx, [rsp + (32* 4)]
  .mulx .r9 .r8 (.mem ⟨some .rsp, none, 96#64⟩), -- 1125: mulx r9, r8, [rsp + (32* 3)]
  .mulx .r10 .rbx (.mem ⟨some .rsp, none, 104#64⟩), -- 1126: mulx r10, rbx, [rsp + (32* 3)+ 0x8]
  .adc (.reg .r9) (.reg .rbx), -- 1127: adc r9, rbx
  .mulx .r11 .rbx (.mem ⟨some .rsp, none, 112#64⟩), -- 1128: mulx r11, rbx, [rsp + (32* 3)+ 0x10]
  .adc (.reg .r10) (.reg .rbx), -- 1129: adc r10, rbx
  .mulx .r12 .rbx (.mem ⟨some .rsp, none, 120#64⟩), -- 1130: mulx r12, rbx, [rsp + (32* 3)+ 0x18]
  .adc (.reg .r11) (.reg .rbx), -- 1131: adc r11, rbx
  .adc (.reg .r12) (.reg .r13), -- 1132: adc r12, r13
  .mov (.reg .rdx) (.mem ⟨some .rsp, none, 136#64⟩), -- 1133: mov rdx, [rsp + (32* 4)+ 0x8]
  .xor (.reg .r14) (.reg .r14), -- 1134: xor r14d, r14d
  .mulx .rbx .rax (.mem ⟨some .rsp, none, 96#64⟩), -- 1135: mulx rbx, rax, [rsp + (32* 3)]
  .adcx .r9 (.reg .rax), -- 1136: adcx r9, rax
  .adox .r10 (.reg .rbx), -- 1137: adox r10, rbx
  .mulx .rbx .rax (.mem ⟨some .rsp, none, 104#64⟩), -- 1138: mulx rbx, rax, [rsp + (32* 3)+ 0x8]
  .adcx .r10 (.reg .rax), -- 1139: adcx r10, rax
  .adox .r11 (.reg .rbx), -- 1140: adox r11, rbx
  .mulx .rbx .rax (.mem ⟨some .rsp, none, 112#64⟩), -- 1141: mulx rbx, rax, [rsp + (32* 3)+ 0x10]
  .adcx .r11 (.reg .rax), -- 1142: adcx r11, rax
  .adox .r12 (.reg .rbx), -- 1143: adox r12, rbx
  .mulx .rbx .rax (.mem ⟨some .rsp, none, 120#64⟩), -- 1144: mulx rbx, rax, [rsp + (32* 3)+ 0x18]
  .adcx .r12 (.reg .rax), -- 1145: adcx r12, rax
  .adox .r13 (.reg .rbx), -- 1146: adox r13, rbx
  .adc (.reg .r13) (.reg .r14), -- 1147: adc r13, r14
  .xor (.reg .r15) (.reg .r15), -- 1148: xor r15d, r15d
  .mov (.reg .rdx) (.imm 0x100000000#64), -- 1149: movabs rdx, 0x100000000
  .mulx .rbx .rax (.reg .r8), -- 1150: mulx rbx, rax, r8
  .adcx .r9 (.reg .rax), -- 1151: adcx r9, rax
  .adox .r10 (.reg .rbx), -- 1152: adox r10, rbx
  .mulx .rbx .rax (.reg .r9), -- 1153: mulx rbx, rax, r9
  .adcx .r10 (.reg .rax), -- 1154: adcx r10, rax
  .adox .r11 (.reg .rbx), -- 1155: adox r11, rbx
  .not (.reg .rdx), -- 1156: not rdx
  .lea .rdx ⟨some .rdx, none, 2#64⟩, -- 1157: lea rdx, [rdx + 0x2]
  .mulx .rbx .rax (.reg .r8), -- 1158: mulx rbx, rax, r8
  .adcx .r11 (.reg .rax), -- 1159: adcx r11, rax
  .adox .r12 (.reg .rbx), -- 1160: adox r12, rbx
  .mulx .rbx .rax (.reg .r9), -- 1161: mulx rbx, rax, r9
  .adcx .r12 (.reg .rax), -- 1162: adcx r12, rax
  .adox .r13 (.reg .rbx), -- 1163: adox r13, rbx
  .adcx .r13 (.reg .r15), -- 1164: adcx r13, r15
  .adox .r14 (.reg .r15), -- 1165: adox r14, r15
  .adc (.reg .r14) (.reg .r15), -- 1166: adc r14, r15
  .mov (.reg .rdx) (.mem ⟨some .rsp, none, 144#64⟩), -- 1167: mov rdx, [rsp + (32* 4)+ 0x10]
  .xor (.reg .r8) (.reg .r8), -- 1168: xor r8d, r8d
  .mulx .rbx .rax (.mem ⟨some .rsp, none, 96#64⟩), -- 1169: mulx rbx, rax, [rsp + (32* 3)]
  .adcx .r10 (.reg .rax), -- 1170: adcx r10, rax
  .adox .r11 (.reg .rbx), -- 1171: adox r11, rbx
  .mulx .rbx .rax (.mem ⟨some .rsp, none, 104#64⟩), -- 1172: mulx rbx, rax, [rsp + (32* 3)+ 0x8]
  .adcx .r11 (.reg .rax), -- 1173: adcx r11, rax
  .adox .r12 (.reg .rbx), -- 1174: adox r12, rbx
  .mulx .rbx .rax (.mem ⟨some .rsp, none, 112#64⟩), -- 1175: mulx rbx, rax, [rsp + (32* 3)+ 0x10]
  .adcx .r12 (.reg .rax), -- 1176: adcx r12, rax
  .adox .r13 (.reg .rbx), -- 1177: adox r13, rbx
  .adox .r14 (.reg .r8), -- 1178: adox r14, r8
  .mulx .rbx .rax (.mem ⟨some .rsp, none, 120#64⟩), -- 1179: mulx rbx, rax, [rsp + (32* 3)+ 0x18]
  .adc (.reg .r13) (.reg .rax), -- 1180: adc r13, rax
  .adc (.reg .r14) (.reg .rbx), -- 1181: adc r14, rbx
  .adc (.reg .r15) (.reg .r8), -- 1182: adc r15, r8
  .mov (.reg .rdx) (.mem ⟨some .rsp, none, 152#64⟩), -- 1183: mov rdx, [rsp + (32* 4)+ 0x18]
  .xor (.reg .r9) (.reg .r9), -- 1184: xor r9d, r9d
  .mulx .rbx .rax (.mem ⟨some .rsp, none, 96#64⟩), -- 1185: mulx rbx, rax, [rsp + (32* 3)]
  .adcx .r11 (.reg .rax), -- 1186: adcx r11, rax
  .adox .r12 (.reg .rbx), -- 1187: adox r12, rbx
  .mulx .rbx .rax (.mem ⟨some .rsp, none, 104#64⟩), -- 1188: mulx rbx, rax, [rsp + (32* 3)+ 0x8]
  .adcx .r12 (.reg .rax), -- 1189: adcx r12, rax
  .adox .r13 (.reg .rbx), -- 1190: adox r13, rbx
  .mulx .rbx .rax (.mem ⟨some .rsp, none, 112#64⟩), -- 1191: mulx rbx, rax, [rsp + (32* 3)+ 0x10]
  .adcx .r13 (.reg .rax), -- 1192: adcx r13, rax
  .adox .r14 (.reg .rbx), -- 1193: adox r14, rbx
  .adox .r15 (.reg .r9), -- 1194: adox r15, r9
  .mulx .rbx .rax (.mem ⟨some .rsp, none, 120#64⟩), -- 1195: mulx rbx, rax, [rsp + (32* 3)+ 0x18]
  .adc (.reg .r14) (.reg .rax), -- 1196: adc r14, rax
  .adc (.reg .r15) (.reg .rbx), -- 1197: adc r15, rbx
  .adc (.reg .r8) (.reg .r9), -- 1198: adc r8, r9
  .xor (.reg .r9) (.reg .r9), -- 1199: xor r9d, r9d
  .mov (.reg .rdx) (.imm 0x100000000#64), -- 1200: movabs rdx, 0x100000000
  .mulx .rbx .rax (.reg .r10), -- 1201: mulx rbx, rax, r10
  .adcx .r11 (.reg .rax), -- 1202: adcx r11, rax
  .adox .r12 (.reg .rbx), -- 1203: adox r12, rbx
  .mulx .rbx .rax (.reg .r11), -- 1204: mulx rbx, rax, r11
  .adcx .r12 (.reg .rax), -- 1205: adcx r12, rax
  .adox .r13 (.reg .rbx), -- 1206: adox r13, rbx
  .not (.reg .rdx), -- 1207: not rdx
  .lea .rdx ⟨some .rdx, none, 2#64⟩, -- 1208: lea rdx, [rdx + 0x2]
  .mulx .rbx .rax (.reg .r10), -- 1209: mulx rbx, rax, r10
  .adcx .r13 (.reg .rax), -- 1210: adcx r13, rax
  .adox .r14 (.reg .rbx), -- 1211: adox r14, rbx
  .mulx .rbx .rax (.reg .r11), -- 1212: mulx rbx, rax, r11
  .adcx .r14 (.reg .rax), -- 1213: adcx r14, rax
  .adox .r15 (.reg .rbx), -- 1214: adox r15, rbx
  .adcx .r15 (.reg .r9), -- 1215: adcx r15, r9
  .adox .r8 (.reg .r9), -- 1216: adox r8, r9
  .adc (.reg .r8) (.reg .r9), -- 1217: adc r8, r9
  .mov (.reg .rcx) (.imm 1#64), -- 1218: mov ecx, 0x1
  .add (.reg .rcx) (.reg .r12), -- 1219: add rcx, r12
  .dec (.reg .rdx), -- 1220: dec rdx
  .adc (.reg .rdx) (.reg .r13), -- 1221: adc rdx, r13
  .dec (.reg .r9), -- 1222: dec r9
  .mov (.reg .rax) (.reg .r9), -- 1223: mov rax, r9
  .adc (.reg .r9) (.reg .r14), -- 1224: adc r9, r14
  .mov (.reg .r11) (.imm 0xfffffffe#64), -- 1225: mov r11d, 0xfffffffe
  .adc (.reg .r11) (.reg .r15), -- 1226: adc r11, r15
  .adc (.reg .rax) (.reg .r8), -- 1227: adc rax, r8
  .cmov .cy .r12 (.reg .rcx), -- 1228: cmovb r12, rcx
  .cmov .cy .r13 (.reg .rdx), -- 1229: cmovb r13, rdx
  .cmov .cy .r14 (.reg .r9), -- 1230: cmovb r14, r9
  .cmov .cy .r15 (.reg .r11), -- 1231: cmovb r15, r11
  .mov (.mem ⟨some .rsp, none, 128#64⟩) (.reg .r12), -- 1232: mov [rsp + (32* 4)], r12
  .mov (.mem ⟨some .rsp, none, 136#64⟩) (.reg .r13), -- 1233: mov [rsp + (32* 4)+ 0x8], r13
  .mov (.mem ⟨some .rsp, none, 144#64⟩) (.reg .r14), -- 1234: mov [rsp + (32* 4)+ 0x10], r14
  .mov (.mem ⟨some .rsp, none, 152#64⟩) (.reg .r15), -- 1235: mov [rsp + (32* 4)+ 0x18], r15
  .xor (.reg .r13) (.reg .r13), -- 1236: xor r13d, r13d
  .mov (.reg .rdx) (.mem ⟨some .rsp, none, 64#64⟩), -- 1237: mov rdx, [rsp + (32* 2)]
  .mulx .r9 .r8 (.mem ⟨some .rsp, none, 96#64⟩), -- 1238: mulx r9, r8, [rsp + (32* 3)]
  .mulx .r10 .rbx (.mem ⟨some .rsp, none, 104#64⟩), -- 1239: mulx r10, rbx, [rsp + (32* 3)+ 0x8]
  .adc (.reg .r9) (.reg .rbx), -- 1240: adc r9, rbx
  .mulx .r11 .rbx (.mem ⟨some .rsp, none, 112#64⟩), -- 1241: mulx r11, rbx, [rsp + (32* 3)+ 0x10]
  .adc (.reg .r10) (.reg .rbx), -- 1242: adc r10, rbx
  .mulx .r12 .rbx (.mem ⟨some .rsp, none, 120#64⟩), -- 1243: mulx r12, rbx, [rsp + (32* 3)+ 0x18]
  .adc (.reg .r11) (.reg .rbx), -- 1244: adc r11, rbx
  .adc (.reg .r12) (.reg .r13), -- 1245: adc r12, r13
  .mov (.reg .rdx) (.mem ⟨some .rsp, none, 72#64⟩), -- 1246: mov rdx, [rsp + (32* 2)+ 0x8]
  .xor (.reg .r14) (.reg .r14), -- 1247: xor r14d, r14d
  .mulx .rbx .rax (.mem ⟨some .rsp, none, 96#64⟩), -- 1248: mulx rbx, rax, [rsp + (32* 3)]
  .adcx .r9 (.reg .rax), -- 1249: adcx r9, rax
  .adox .r10 (.reg .rbx), -- 1250: adox r10, rbx
  .mulx .rbx .rax (.mem ⟨some .rsp, none, 104#64⟩), -- 1251: mulx rbx, rax, [rsp + (32* 3)+ 0x8]
  .adcx .r10 (.reg .rax), -- 1252: adcx r10, rax
  .adox .r11 (.reg .rbx), -- 1253: adox r11, rbx
  .mulx .rbx .rax (.mem ⟨some .rsp, none, 112#64⟩), -- 1254: mulx rbx, rax, [rsp + (32* 3)+ 0x10]
  .adcx .r11 (.reg .rax), -- 1255: adcx r11, rax
  .adox .r12 (.reg .rbx), -- 1256: adox r12, rbx
  .mulx .rbx .rax (.mem ⟨some .rsp, none, 120#64⟩), -- 1257: mulx rbx, rax, [rsp + (32* 3)+ 0x18]
  .adcx .r12 (.reg .rax), -- 1258: adcx r12, rax
  .adox .r13 (.reg .rbx), -- 1259: adox r13, rbx
  .adc (.reg .r13) (.reg .r14), -- 1260: adc r13, r14
  .xor (.reg .r15) (.reg .r15), -- 1261: xor r15d, r15d
  .mov (.reg .rdx) (.imm 0x100000000#64), -- 1262: movabs rdx, 0x100000000
  .mulx .rbx .rax (.reg .r8), -- 1263: mulx rbx, rax, r8
  .adcx .r9 (.reg .rax), -- 1264: adcx r9, rax
  .adox .r10 (.reg .rbx), -- 1265: adox r10, rbx
  .mulx .rbx .rax (.reg .r9), -- 1266: mulx rbx, rax, r9
  .adcx .r10 (.reg .rax), -- 1267: adcx r10, rax
  .adox .r11 (.reg .rbx), -- 1268: adox r11, rbx
  .not (.reg .rdx), -- 1269: not rdx
  .lea .rdx ⟨some .rdx, none, 2#64⟩, -- 1270: lea rdx, [rdx + 0x2]
  .mulx .rbx .rax (.reg .r8), -- 1271: mulx rbx, rax, r8
  .adcx .r11 (.reg .rax), -- 1272: adcx r11, rax
  .adox .r12 (.reg .rbx), -- 1273: adox r12, rbx
  .mulx .rbx .rax (.reg .r9), -- 1274: mulx rbx, rax, r9
  .adcx .r12 (.reg .rax), -- 1275: adcx r12, rax
  .adox .r13 (.reg .rbx), -- 1276: adox r13, rbx
  .adcx .r13 (.reg .r15), -- 1277: adcx r13, r15
  .adox .r14 (.reg .r15), -- 1278: adox r14, r15
  .adc (.reg .r14) (.reg .r15), -- 1279: adc r14, r15
  .mov (.reg .rdx) (.mem ⟨some .rsp, none, 80#64⟩), -- 1280: mov rdx, [rsp + (32* 2)+ 0x10]
  .xor (.reg .r8) (.reg .r8), -- 1281: xor r8d, r8d
  .mulx .rbx .rax (.mem ⟨some .rsp, none, 96#64⟩), -- 1282: mulx rbx, rax, [rsp + (32* 3)]
  .adcx .r10 (.reg .rax), -- 1283: adcx r10, rax
  .adox .r11 (.reg .rbx), -- 1284: adox r11, rbx
  .mulx .rbx .rax (.mem ⟨some .rsp, none, 104#64⟩), -- 1285: mulx rbx, rax, [rsp + (32* 3)+ 0x8]
  .adcx .r11 (.reg .rax), -- 1286: adcx r11, rax
  .adox .r12 (.reg .rbx), -- 1287: adox r12, rbx
  .mulx .rbx .rax (.mem ⟨some .rsp, none, 112#64⟩), -- 1288: mulx rbx, rax, [rsp + (32* 3)+ 0x10]
  .adcx .r12 (.reg .rax), -- 1289: adcx r12, rax
  .adox .r13 (.reg .rbx), -- 1290: adox r13, rbx
  .adox .r14 (.reg .r8), -- 1291: adox r14, r8
  .mulx .rbx .rax (.mem ⟨some .rsp, none, 120#64⟩), -- 1292: mulx rbx, rax, [rsp + (32* 3)+ 0x18]
  .adc (.reg .r13) (.reg .rax), -- 1293: adc r13, rax
  .adc (.reg .r14) (.reg .rbx), -- 1294: adc r14, rbx
  .adc (.reg .r15) (.reg .r8), -- 1295: adc r15, r8
  .mov (.reg .rdx) (.mem ⟨some .rsp, none, 88#64⟩), -- 1296: mov rdx, [rsp + (32* 2)+ 0x18]
  .xor (.reg .r9) (.reg .r9), -- 1297: xor r9d, r9d
  .mulx .rbx .rax (.mem ⟨some .rsp, none, 96#64⟩), -- 1298: mulx rbx, rax, [rsp + (32* 3)]
  .adcx .r11 (.reg .rax), -- 1299: adcx r11, rax
  .adox .r12 (.reg .rbx), -- 1300: adox r12, rbx
  .mulx .rbx .rax (.mem ⟨some .rsp, none, 104#64⟩), -- 1301: mulx rbx, rax, [rsp + (32* 3)+ 0x8]
  .adcx .r12 (.reg .rax), -- 1302: adcx r12, rax
  .adox .r13 (.reg .rbx), -- 1303: adox r13, rbx
  .mulx .rbx .rax (.mem ⟨some .rsp, none, 112#64⟩), -- 1304: mulx rbx, rax, [rsp + (32* 3)+ 0x10]
  .adcx .r13 (.reg .rax), -- 1305: adcx r13, rax
  .adox .r14 (.reg .rbx), -- 1306: adox r14, rbx
  .adox .r15 (.reg .r9), -- 1307: adox r15, r9
  .mulx .rbx .rax (.mem ⟨some .rsp, none, 120#64⟩), -- 1308: mulx rbx, rax, [rsp + (32* 3)+ 0x18]
  .adc (.reg .r14) (.reg .rax), -- 1309: adc r14, rax
  .adc (.reg .r15) (.reg .rbx), -- 1310: adc r15, rbx
  .adc (.reg .r8) (.reg .r9), -- 1311: adc r8, r9
  .xor (.reg .r9) (.reg .r9), -- 1312: xor r9d, r9d
  .mov (.reg .rdx) (.imm 0x100000000#64), -- 1313: movabs rdx, 0x100000000
  .mulx .rbx .rax (.reg .r10), -- 1314: mulx rbx, rax, r10
  .adcx .r11 (.reg .rax), -- 1315: adcx r11, rax
  .adox .r12 (.reg .rbx), -- 1316: adox r12, rbx
  .mulx .rbx .rax (.reg .r11), -- 1317: mulx rbx, rax, r11
  .adcx .r12 (.reg .rax), -- 1318: adcx r12, rax
  .adox .r13 (.reg .rbx), -- 1319: adox r13, rbx
  .not (.reg .rdx), -- 1320: not rdx
  .lea .rdx ⟨some .rdx, none, 2#64⟩, -- 1321: lea rdx, [rdx + 0x2]
  .mulx .rbx .rax (.reg .r10), -- 1322: mulx rbx, rax, r10
  .adcx .r13 (.reg .rax), -- 1323: adcx r13, rax
  .adox .r14 (.reg .rbx), -- 1324: adox r14, rbx
  .mulx .rbx .rax (.reg .r11), -- 1325: mulx rbx, rax, r11
  .adcx .r14 (.reg .rax), -- 1326: adcx r14, rax
  .adox .r15 (.reg .rbx), -- 1327: adox r15, rbx
  .adcx .r15 (.reg .r9), -- 1328: adcx r15, r9
  .adox .r8 (.reg .r9), -- 1329: adox r8, r9
  .adc (.reg .r8) (.reg .r9), -- 1330: adc r8, r9
  .mov (.reg .rcx) (.imm 1#64), -- 1331: mov ecx, 0x1
  .add (.reg .rcx) (.reg .r12), -- 1332: add rcx, r12
  .dec (.reg .rdx), -- 1333: dec rdx
  .adc (.reg .rdx) (.reg .r13), -- 1334: adc rdx, r13
  .dec (.reg .r9), -- 1335: dec r9
  .mov (.reg .rax) (.reg .r9), -- 1336: mov rax, r9
  .adc (.reg .r9) (.reg .r14), -- 1337: adc r9, r14
  .mov (.reg .r11) (.imm 0xfffffffe#64), -- 1338: mov r11d, 0xfffffffe
  .adc (.reg .r11) (.reg .r15), -- 1339: adc r11, r15
  .adc (.reg .rax) (.reg .r8), -- 1340: adc rax, r8
  .cmov .cy .r12 (.reg .rcx), -- 1341: cmovb r12, rcx
  .cmov .cy .r13 (.reg .rdx), -- 1342: cmovb r13, rdx
  .cmov .cy .r14 (.reg .r9), -- 1343: cmovb r14, r9
  .cmov .cy .r15 (.reg .r11), -- 1344: cmovb r15, r11
  .mov (.mem ⟨some .rsp, none, 64#64⟩) (.reg .r12), -- 1345: mov [rsp + (32* 2)], r12
  .mov (.mem ⟨some .rsp, none, 72#64⟩) (.reg .r13), -- 1346: mov [rsp + (32* 2)+ 0x8], r13
  .mov (.mem ⟨some .rsp, none, 80#64⟩) (.reg .r14), -- 1347: mov [rsp + (32* 2)+ 0x10], r14
  .mov (.mem ⟨some .rsp, none, 88#64⟩) (.reg .r15), -- 1348: mov [rsp + (32* 2)+ 0x18], r15
  .mov (.reg .rax) (.mem ⟨some .rsp, none, 0#64⟩), -- 1349: mov rax, [rsp + (32* 0)]
  .sub (.reg .rax) (.mem ⟨some .rsp, none, 128#64⟩), -- 1350: sub rax, [rsp + (32* 4)]
  .mov (.reg .rcx) (.mem ⟨some .rsp, none, 8#64⟩), -- 1351: mov rcx, [rsp + (32* 0)+ 0x8]
  .sbb (.reg .rcx) (.mem ⟨some .rsp, none, 136#64⟩), -- 1352: sbb rcx, [rsp + (32* 4)+ 0x8]
  .mov (.reg .r8) (.mem ⟨some .rsp, none, 16#64⟩), -- 1353: mov r8, [rsp + (32* 0)+ 0x10]
  .sbb (.reg .r8) (.mem ⟨some .rsp, none, 144#64⟩), -- 1354: sbb r8, [rsp + (32* 4)+ 0x10]
  .mov (.reg .r9) (.mem ⟨some .rsp, none, 24#64⟩), -- 1355: mov r9, [rsp + (32* 0)+ 0x18]
  .sbb (.reg .r9) (.mem ⟨some .rsp, none, 152#64⟩), -- 1356: sbb r9, [rsp + (32* 4)+ 0x18]
  .mov (.reg .r10) (.imm 0xffffffff#64), -- 1357: mov r10d, 0xffffffff
  .sbb (.reg .r11) (.reg .r11), -- 1358: sbb r11, r11
  .xor (.reg .rdx) (.reg .rdx), -- 1359: xor rdx, rdx
  .and (.reg .r10) (.reg .r11), -- 1360: and r10, r11
  .sub (.reg .rdx) (.reg .r10), -- 1361: sub rdx, r10
  .add (.reg .rax) (.reg .r11), -- 1362: add rax, r11
  .mov (.mem ⟨some .rsp, none, 0#64⟩) (.reg .rax), -- 1363: mov [rsp + (32* 0)], rax
  .adc (.reg .rcx) (.reg .r10), -- 1364: adc rcx, r10
  .mov (.mem ⟨some .rsp, none, 8#64⟩) (.reg .rcx), -- 1365: mov [rsp + (32* 0)+ 0x8], rcx
  .adc (.reg .r8) (.imm 0#64), -- 1366: adc r8, 0x0
  .mov (.mem ⟨some .rsp, none, 16#64⟩) (.reg .r8), -- 1367: mov [rsp + (32* 0)+ 0x10], r8
  .adc (.reg .r9) (.reg .rdx), -- 1368: adc r9, rdx
  .mov (.mem ⟨some .rsp, none, 24#64⟩) (.reg .r9), -- 1369: mov [rsp + (32* 0)+ 0x18], r9
  .mov (.reg .rax) (.mem ⟨some .rsp, none, 64#64⟩), -- 1370: mov rax, [rsp + (32* 2)]
  .sub (.reg .rax) (.mem ⟨some .rsp, none, 128#64⟩), -- 1371: sub rax, [rsp + (32* 4)]
  .mov (.reg .rcx) (.mem ⟨some .rsp, none, 72#64⟩), -- 1372: mov rcx, [rsp + (32* 2)+ 0x8]
  .sbb (.reg .rcx) (.mem ⟨some .rsp, none, 136#64⟩), -- 1373: sbb rcx, [rsp + (32* 4)+ 0x8]
  .mov (.reg .r8) (.mem ⟨some .rsp, none, 80#64⟩), -- 1374: mov r8, [rsp + (32* 2)+ 0x10]
  .sbb (.reg .r8) (.mem ⟨some .rsp, none, 144#64⟩), -- 1375: sbb r8, [rsp + (32* 4)+ 0x10]
  .mov (.reg .r9) (.mem ⟨some .rsp, none, 88#64⟩), -- 1376: mov r9, [rsp + (32* 2)+ 0x18]
  .sbb (.reg .r9) (.mem ⟨some .rsp, none, 152#64⟩), -- 1377: sbb r9, [rsp + (32* 4)+ 0x18]
  .mov (.reg .r10) (.imm 0xffffffff#64), -- 1378: mov r10d, 0xffffffff
  .sbb (.reg .r11) (.reg .r11), -- 1379: sbb r11, r11
  .xor (.reg .rdx) (.reg .rdx), -- 1380: xor rdx, rdx
  .and (.reg .r10) (.reg .r11), -- 1381: and r10, r11
  .sub (.reg .rdx) (.reg .r10), -- 1382: sub rdx, r10
  .add (.reg .rax) (.reg .r11), -- 1383: add rax, r11
  .mov (.mem ⟨some .rsp, none, 96#64⟩) (.reg .rax), -- 1384: mov [rsp + (32* 3)], rax
  .adc (.reg .rcx) (.reg .r10), -- 1385: adc rcx, r10
  .mov (.mem ⟨some .rsp, none, 104#64⟩) (.reg .rcx), -- 1386: mov [rsp + (32* 3)+ 0x8], rcx
  .adc (.reg .r8) (.imm 0#64), -- 1387: adc r8, 0x0
  .mov (.mem ⟨some .rsp, none, 112#64⟩) (.reg .r8), -- 1388: mov [rsp + (32* 3)+ 0x10], r8
  .adc (.reg .r9) (.reg .rdx), -- 1389: adc r9, rdx
  .mov (.mem ⟨some .rsp, none, 120#64⟩) (.reg .r9), -- 1390: mov [rsp + (32* 3)+ 0x18], r9
  .xor (.reg .r13) (.reg .r13), -- 1391: xor r13d, r13d
  .mov (.reg .rdx) (.mem ⟨some .rsi, none, 64#64⟩), -- 1392: mov rdx, [rsi + (2 * 32)]
  .mulx .r9 .r8 (.mem ⟨some .rsp, none, 160#64⟩), -- 1393: mulx r9, r8, [rsp + (32* 5)]
  .mulx .r10 .rbx (.mem ⟨some .rsp, none, 168#64⟩), -- 1394: mulx r10, rbx, [rsp + (32* 5)+ 0x8]
  .adc (.reg .r9) (.reg .rbx), -- 1395: adc r9, rbx
  .mulx .r11 .rbx (.mem ⟨some .rsp, none, 176#64⟩), -- 1396: mulx r11, rbx, [rsp + (32* 5)+ 0x10]
  .adc (.reg .r10) (.reg .rbx), -- 1397: adc r10, rbx
  .mulx .r12 .rbx (.mem ⟨some .rsp, none, 184#64⟩), -- 1398: mulx r12, rbx, [rsp + (32* 5)+ 0x18]
  .adc (.reg .r11) (.reg .rbx), -- 1399: adc r11, rbx
  .adc (.reg .r12) (.reg .r13), -- 1400: adc r12, r13
  .mov (.reg .rdx) (.mem ⟨some .rsi, none, 72#64⟩), -- 1401: mov rdx, [rsi + (2 * 32)+ 0x8]
  .xor (.reg .r14) (.reg .r14), -- 1402: xor r14d, r14d
  .mulx .rbx .rax (.mem ⟨some .rsp, none, 160#64⟩), -- 1403: mulx rbx, rax, [rsp + (32* 5)]
  .adcx .r9 (.reg .rax), -- 1404: adcx r9, rax
  .adox .r10 (.reg .rbx), -- 1405: adox r10, rbx
  .mulx .rbx .rax (.mem ⟨some .rsp, none, 168#64⟩), -- 1406: mulx rbx, rax, [rsp + (32* 5)+ 0x8]
  .adcx .r10 (.reg .rax), -- 1407: adcx r10, rax
  .adox .r11 (.reg .rbx), -- 1408: adox r11, rbx
  .mulx .rbx .rax (.mem ⟨some .rsp, none, 176#64⟩), -- 1409: mulx rbx, rax, [rsp + (32* 5)+ 0x10]
  .adcx .r11 (.reg .rax), -- 1410: adcx r11, rax
  .adox .r12 (.reg .rbx), -- 1411: adox r12, rbx
  .mulx .rbx .rax (.mem ⟨some .rsp, none, 184#64⟩), -- 1412: mulx rbx, rax, [rsp + (32* 5)+ 0x18]
  .adcx .r12 (.reg .rax), -- 1413: adcx r12, rax
  .adox .r13 (.reg .rbx), -- 1414: adox r13, rbx
  .adc (.reg .r13) (.reg .r14), -- 1415: adc r13, r14
  .xor (.reg .r15) (.reg .r15), -- 1416: xor r15d, r15d
  .mov (.reg .rdx) (.imm 0x100000000#64), -- 1417: movabs rdx, 0x100000000
  .mulx .rbx .rax (.reg .r8), -- 1418: mulx rbx, rax, r8
  .adcx .r9 (.reg .rax), -- 1419: adcx r9, rax
  .adox .r10 (.reg .rbx), -- 1420: adox r10, rbx
  .mulx .rbx .rax (.reg .r9), -- 1421: mulx rbx, rax, r9
  .adcx .r10 (.reg .rax), -- 1422: adcx r10, rax
  .adox .r11 (.reg .rbx), -- 1423: adox r11, rbx
  .not (.reg .rdx), -- 1424: not rdx
  .lea .rdx ⟨some .rdx, none, 2#64⟩, -- 1425: lea rdx, [rdx + 0x2]
  .mulx .rbx .rax (.reg .r8), -- 1426: mulx rbx, rax, r8
  .adcx .r11 (.reg .rax), -- 1427: adcx r11, rax
  .adox .r12 (.reg .rbx), -- 1428: adox r12, rbx
  .mulx .rbx .rax (.reg .r9), -- 1429: mulx rbx, rax, r9
  .adcx .r12 (.reg .rax), -- 1430: adcx r12, rax
  .adox .r13 (.reg .rbx), -- 1431: adox r13, rbx
  .adcx .r13 (.reg .r15), -- 1432: adcx r13, r15
  .adox .r14 (.reg .r15), -- 1433: adox r14, r15
  .adc (.reg .r14) (.reg .r15), -- 1434: adc r14, r15
  .mov (.reg .rdx) (.mem ⟨some .rsi, none, 80#64⟩), -- 1435: mov rdx, [rsi + (2 * 32)+ 0x10]
  .xor (.reg .r8) (.reg .r8), -- 1436: xor r8d, r8d
  .mulx .rbx .rax (.mem ⟨some .rsp, none, 160#64⟩), -- 1437: mulx rbx, rax, [rsp + (32* 5)]
  .adcx .r10 (.reg .rax), -- 1438: adcx r10, rax
  .adox .r11 (.reg .rbx), -- 1439: adox r11, rbx
  .mulx .rbx .rax (.mem ⟨some .rsp, none, 168#64⟩), -- 1440: mulx rbx, rax, [rsp + (32* 5)+ 0x8]
  .adcx .r11 (.reg .rax), -- 1441: adcx r11, rax
  .adox .r12 (.reg .rbx), -- 1442: adox r12, rbx
  .mulx .rbx .rax (.mem ⟨some .rsp, none, 176#64⟩), -- 1443: mulx rbx, rax, [rsp + (32* 5)+ 0x10]
  .adcx .r12 (.reg .rax), -- 1444: adcx r12, rax
  .adox .r13 (.reg .rbx), -- 1445: adox r13, rbx
  .adox .r14 (.reg .r8), -- 1446: adox r14, r8
  .mulx .rbx .rax (.mem ⟨some .rsp, none, 184#64⟩), -- 1447: mulx rbx, rax, [rsp + (32* 5)+ 0x18]
  .adc (.reg .r13) (.reg .rax), -- 1448: adc r13, rax
  .adc (.reg .r14) (.reg .rbx), -- 1449: adc r14, rbx
  .adc (.reg .r15) (.reg .r8), -- 1450: adc r15, r8
  .mov (.reg .rdx) (.mem ⟨some .rsi, none, 88#64⟩), -- 1451: mov rdx, [rsi + (2 * 32)+ 0x18]
  .xor (.reg .r9) (.reg .r9), -- 1452: xor r9d, r9d
  .mulx .rbx .rax (.mem ⟨some .rsp, none, 160#64⟩), -- 1453: mulx rbx, rax, [rsp + (32* 5)]
  .adcx .r11 (.reg .rax), -- 1454: adcx r11, rax
  .adox .r12 (.reg .rbx), -- 1455: adox r12, rbx
  .mulx .rbx .rax (.mem ⟨some .rsp, none, 168#64⟩), -- 1456: mulx rbx, rax, [rsp + (32* 5)+ 0x8]
  .adcx .r12 (.reg .rax), -- 1457: adcx r12, rax
  .adox .r13 (.reg .rbx), -- 1458: adox r13, rbx
  .mulx .rbx .rax (.mem ⟨some .rsp, none, 176#64⟩), -- 1459: mulx rbx, rax, [rsp + (32* 5)+ 0x10]
  .adcx .r13 (.reg .rax), -- 1460: adcx r13, rax
  .adox .r14 (.reg .rbx), -- 1461: adox r14, rbx
  .adox .r15 (.reg .r9), -- 1462: adox r15, r9
  .mulx .rbx .rax (.mem ⟨some .rsp, none, 184#64⟩), -- 1463: mulx rbx, rax, [rsp + (32* 5)+ 0x18]
  .adc (.reg .r14) (.reg .rax), -- 1464: adc r14, rax
  .adc (.reg .r15) (.reg .rbx), -- 1465: adc r15, rbx
  .adc (.reg .r8) (.reg .r9), -- 1466: adc r8, r9
  .xor (.reg .r9) (.reg .r9), -- 1467: xor r9d, r9d
  .mov (.reg .rdx) (.imm 0x100000000#64), -- 1468: movabs rdx, 0x100000000
  .mulx .rbx .rax (.reg .r10), -- 1469: mulx rbx, rax, r10
  .adcx .r11 (.reg .rax), -- 1470: adcx r11, rax
  .adox .r12 (.reg .rbx), -- 1471: adox r12, rbx
  .mulx .rbx .rax (.reg .r11), -- 1472: mulx rbx, rax, r11
  .adcx .r12 (.reg .rax), -- 1473: adcx r12, rax
  .adox .r13 (.reg .rbx), -- 1474: adox r13, rbx
  .not (.reg .rdx), -- 1475: not rdx
  .lea .rdx ⟨some .rdx, none, 2#64⟩, -- 1476: lea rdx, [rdx + 0x2]
  .mulx .rbx .rax (.reg .r10), -- 1477: mulx rbx, rax, r10
  .adcx .r13 (.reg .rax), -- 1478: adcx r13, rax
  .adox .r14 (.reg .rbx), -- 1479: adox r14, rbx
  .mulx .rbx .rax (.reg .r11), -- 1480: mulx rbx, rax, r11
  .adcx .r14 (.reg .rax), -- 1481: adcx r14, rax
  .adox .r15 (.reg .rbx), -- 1482: adox r15, rbx
  .adcx .r15 (.reg .r9), -- 1483: adcx r15, r9
  .adox .r8 (.reg .r9), -- 1484: adox r8, r9
  .adc (.reg .r8) (.reg .r9), -- 1485: adc r8, r9
  .mov (.reg .rcx) (.imm 1#64), -- 1486: mov ecx, 0x1
  .add (.reg .rcx) (.reg .r12), -- 1487: add rcx, r12
  .dec (.reg .rdx), -- 1488: dec rdx
  .adc (.reg .rdx) (.reg .r13), -- 1489: adc rdx, r13
  .dec (.reg .r9), -- 1490: dec r9
  .mov (.reg .rax) (.reg .r9), -- 1491: mov rax, r9
  .adc (.reg .r9) (.reg .r14), -- 1492: adc r9, r14
  .mov (.reg .r11) (.imm 0xfffffffe#64), -- 1493: mov r11d, 0xfffffffe
  .adc (.reg .r11) (.reg .r15), -- 1494: adc r11, r15
  .adc (.reg .rax) (.reg .r8), -- 1495: adc rax, r8
  .cmov .cy .r12 (.reg .rcx), -- 1496: cmovb r12, rcx
  .cmov .cy .r13 (.reg .rdx), -- 1497: cmovb r13, rdx
  .cmov .cy .r14 (.reg .r9), -- 1498: cmovb r14, r9
  .cmov .cy .r15 (.reg .r11), -- 1499: cmovb r15, r11
  .mov (.mem ⟨some .rsp, none, 160#64⟩) (.reg .r12), -- 1500: mov [rsp + (32* 5)], r12
  .mov (.mem ⟨some .rsp, none, 168#64⟩) (.reg .r13), -- 1501: mov [rsp + (32* 5)+ 0x8], r13
  .mov (.mem ⟨some .rsp, none, 176#64⟩) (.reg .r14), -- 1502: mov [rsp + (32* 5)+ 0x10], r14
  .mov (.mem ⟨some .rsp, none, 184#64⟩) (.reg .r15), -- 1503: mov [rsp + (32* 5)+ 0x18], r15
  .mov (.reg .rax) (.mem ⟨some .rsp, none, 0#64⟩), -- 1504: mov rax, [rsp + (32* 0)]
  .sub (.reg .rax) (.mem ⟨some .rsp, none, 64#64⟩), -- 1505: sub rax, [rsp + (32* 2)]
  .mov (.reg .rcx) (.mem ⟨some .rsp, none, 8#64⟩), -- 1506: mov rcx, [rsp + (32* 0)+ 0x8]
  .sbb (.reg .rcx) (.mem ⟨some .rsp, none, 72#64⟩), -- 1507: sbb rcx, [rsp + (32* 2)+ 0x8]
  .mov (.reg .r8) (.mem ⟨some .rsp, none, 16#64⟩), -- 1508: mov r8, [rsp + (32* 0)+ 0x10]
  .sbb (.reg .r8) (.mem ⟨some .rsp, none, 80#64⟩), -- 1509: sbb r8, [rsp + (32* 2)+ 0x10]
  .mov (.reg .r9) (.mem ⟨some .rsp, none, 24#64⟩), -- 1510: mov r9, [rsp + (32* 0)+ 0x18]
  .sbb (.reg .r9) (.mem ⟨some .rsp, none, 88#64⟩), -- 1511: sbb r9, [rsp + (32* 2)+ 0x18]
  .mov (.reg .r10) (.imm 0xffffffff#64), -- 1512: mov r10d, 0xffffffff
  .sbb (.reg .r11) (.reg .r11), -- 1513: sbb r11, r11
  .xor (.reg .rdx) (.reg .rdx), -- 1514: xor rdx, rdx
  .and (.reg .r10) (.reg .r11), -- 1515: and r10, r11
  .sub (.reg .rdx) (.reg .r10), -- 1516: sub rdx, r10
  .add (.reg .rax) (.reg .r11), -- 1517: add rax, r11
  .mov (.mem ⟨some .rsp, none, 0#64⟩) (.reg .rax), -- 1518: mov [rsp + (32* 0)], rax
  .adc (.reg .rcx) (.reg .r10), -- 1519: adc rcx, r10
  .mov (.mem ⟨some .rsp, none, 8#64⟩) (.reg .rcx), -- 1520: mov [rsp + (32* 0)+ 0x8], rcx
  .adc (.reg .r8) (.imm 0#64), -- 1521: adc r8, 0x0
  .mov (.mem ⟨some .rsp, none, 16#64⟩) (.reg .r8), -- 1522: mov [rsp + (32* 0)+ 0x10], r8
  .adc (.reg .r9) (.reg .rdx), -- 1523: adc r9, rdx
  .mov (.mem ⟨some .rsp, none, 24#64⟩) (.reg .r9), -- 1524: mov [rsp + (32* 0)+ 0x18], r9
  .mov (.reg .rax) (.mem ⟨some .rsp, none, 128#64⟩), -- 1525: mov rax, [rsp + (32* 4)]
  .sub (.reg .rax) (.mem ⟨some .rsp, none, 0#64⟩), -- 1526: sub rax, [rsp + (32* 0)]
  .mov (.reg .rcx) (.mem ⟨some .rsp, none, 136#64⟩), -- 1527: mov rcx, [rsp + (32* 4)+ 0x8]
  .sbb (.reg .rcx) (.mem ⟨some .rsp, none, 8#64⟩), -- 1528: sbb rcx, [rsp + (32* 0)+ 0x8]
  .mov (.reg .r8) (.mem ⟨some .rsp, none, 144#64⟩), -- 1529: mov r8, [rsp + (32* 4)+ 0x10]
  .sbb (.reg .r8) (.mem ⟨some .rsp, none, 16#64⟩), -- 1530: sbb r8, [rsp + (32* 0)+ 0x10]
  .mov (.reg .r9) (.mem ⟨some .rsp, none, 152#64⟩), -- 1531: mov r9, [rsp + (32* 4)+ 0x18]
  .sbb (.reg .r9) (.mem ⟨some .rsp, none, 24#64⟩), -- 1532: sbb r9, [rsp + (32* 0)+ 0x18]
  .mov (.reg .r10) (.imm 0xffffffff#64), -- 1533: mov r10d, 0xffffffff
  .sbb (.reg .r11) (.reg .r11), -- 1534: sbb r11, r11
  .xor (.reg .rdx) (.reg .rdx), -- 1535: xor rdx, rdx
  .and (.reg .r10) (.reg .r11), -- 1536: and r10, r11
  .sub (.reg .rdx) (.reg .r10), -- 1537: sub rdx, r10
  .add (.reg .rax) (.reg .r11), -- 1538: add rax, r11
  .mov (.mem ⟨some .rsp, none, 128#64⟩) (.reg .rax), -- 1539: mov [rsp + (32* 4)], rax
  .adc (.reg .rcx) (.reg .r10), -- 1540: adc rcx, r10
  .mov (.mem ⟨some .rsp, none, 136#64⟩) (.reg .rcx), -- 1541: mov [rsp + (32* 4)+ 0x8], rcx
  .adc (.reg .r8) (.imm 0#64), -- 1542: adc r8, 0x0
  .mov (.mem ⟨some .rsp, none, 144#64⟩) (.reg .r8), -- 1543: mov [rsp + (32* 4)+ 0x10], r8
  .adc (.reg .r9) (.reg .rdx), -- 1544: adc r9, rdx
  .mov (.mem ⟨some .rsp, none, 152#64⟩) (.reg .r9), -- 1545: mov [rsp + (32* 4)+ 0x18], r9
  .xor (.reg .r13) (.reg .r13), -- 1546: xor r13d, r13d
  .mov (.reg .rdx) (.mem ⟨some .rsp, none, 192#64⟩), -- 1547: mov rdx, [rsp + (32* 6)]
  .mulx .r9 .r8 (.mem ⟨some .rsp, none, 96#64⟩), -- 1548: mulx r9, r8, [rsp + (32* 3)]
  .mulx .r10 .rbx (.mem ⟨some .rsp, none, 104#64⟩), -- 1549: mulx r10, rbx, [rsp + (32* 3)+ 0x8]
  .adc (.reg .r9) (.reg .rbx), -- 1550: adc r9, rbx
  .mulx .r11 .rbx (.mem ⟨some .rsp, none, 112#64⟩), -- 1551: mulx r11, rbx, [rsp + (32* 3)+ 0x10]
  .adc (.reg .r10) (.reg .rbx), -- 1552: adc r10, rbx
  .mulx .r12 .rbx (.mem ⟨some .rsp, none, 120#64⟩), -- 1553: mulx r12, rbx, [rsp + (32* 3)+ 0x18]
  .adc (.reg .r11) (.reg .rbx), -- 1554: adc r11, rbx
  .adc (.reg .r12) (.reg .r13), -- 1555: adc r12, r13
  .mov (.reg .rdx) (.mem ⟨some .rsp, none, 200#64⟩), -- 1556: mov rdx, [rsp + (32* 6)+ 0x8]
  .xor (.reg .r14) (.reg .r14), -- 1557: xor r14d, r14d
  .mulx .rbx .rax (.mem ⟨some .rsp, none, 96#64⟩), -- 1558: mulx rbx, rax, [rsp + (32* 3)]
  .adcx .r9 (.reg .rax), -- 1559: adcx r9, rax
  .adox .r10 (.reg .rbx), -- 1560: adox r10, rbx
  .mulx .rbx .rax (.mem ⟨some .rsp, none, 104#64⟩), -- 1561: mulx rbx, rax, [rsp + (32* 3)+ 0x8]
  .adcx .r10 (.reg .rax), -- 1562: adcx r10, rax
  .adox .r11 (.reg .rbx), -- 1563: adox r11, rbx
  .mulx .rbx .rax (.mem ⟨some .rsp, none, 112#64⟩), -- 1564: mulx rbx, rax, [rsp + (32* 3)+ 0x10]
  .adcx .r11 (.reg .rax), -- 1565: adcx r11, rax
  .adox .r12 (.reg .rbx), -- 1566: adox r12, rbx
  .mulx .rbx .rax (.mem ⟨some .rsp, none, 120#64⟩), -- 1567: mulx rbx, rax, [rsp + (32* 3)+ 0x18]
  .adcx .r12 (.reg .rax), -- 1568: adcx r12, rax
  .adox .r13 (.reg .rbx), -- 1569: adox r13, rbx
  .adc (.reg .r13) (.reg .r14), -- 1570: adc r13, r14
  .xor (.reg .r15) (.reg .r15), -- 1571: xor r15d, r15d
  .mov (.reg .rdx) (.imm 0x100000000#64), -- 1572: movabs rdx, 0x100000000
  .mulx .rbx .rax (.reg .r8), -- 1573: mulx rbx, rax, r8
  .adcx .r9 (.reg .rax), -- 1574: adcx r9, rax
  .adox .r10 (.reg .rbx), -- 1575: adox r10, rbx
  .mulx .rbx .rax (.reg .r9), -- 1576: mulx rbx, rax, r9
  .adcx .r10 (.reg .rax), -- 1577: adcx r10, rax
  .adox .r11 (.reg .rbx), -- 1578: adox r11, rbx
  .not (.reg .rdx), -- 1579: not rdx
  .lea .rdx ⟨some .rdx, none, 2#64⟩, -- 1580: lea rdx, [rdx + 0x2]
  .mulx .rbx .rax (.reg .r8), -- 1581: mulx rbx, rax, r8
  .adcx .r11 (.reg .rax), -- 1582: adcx r11, rax
  .adox .r12 (.reg .rbx), -- 1583: adox r12, rbx
  .mulx .rbx .rax (.reg .r9), -- 1584: mulx rbx, rax, r9
  .adcx .r12 (.reg .rax), -- 1585: adcx r12, rax
  .adox .r13 (.reg .rbx), -- 1586: adox r13, rbx
  .adcx .r13 (.reg .r15), -- 1587: adcx r13, r15
  .adox .r14 (.reg .r15), -- 1588: adox r14, r15
  .adc (.reg .r14) (.reg .r15), -- 1589: adc r14, r15
  .mov (.reg .rdx) (.mem ⟨some .rsp, none, 208#64⟩), -- 1590: mov rdx, [rsp + (32* 6)+ 0x10]
  .xor (.reg .r8) (.reg .r8), -- 1591: xor r8d, r8d
  .mulx .rbx .rax (.mem ⟨some .rsp, none, 96#64⟩), -- 1592: mulx rbx, rax, [rsp + (32* 3)]
  .adcx .r10 (.reg .rax), -- 1593: adcx r10, rax
  .adox .r11 (.reg .rbx), -- 1594: adox r11, rbx
  .mulx .rbx .rax (.mem ⟨some .rsp, none, 104#64⟩), -- 1595: mulx rbx, rax, [rsp + (32* 3)+ 0x8]
  .adcx .r11 (.reg .rax), -- 1596: adcx r11, rax
  .adox .r12 (.reg .rbx), -- 1597: adox r12, rbx
  .mulx .rbx .rax (.mem ⟨some .rsp, none, 112#64⟩), -- 1598: mulx rbx, rax, [rsp + (32* 3)+ 0x10]
  .adcx .r12 (.reg .rax), -- 1599: adcx r12, rax
  .adox .r13 (.reg .rbx), -- 1600: adox r13, rbx
  .adox .r14 (.reg .r8), -- 1601: adox r14, r8
  .mulx .rbx .rax (.mem ⟨some .rsp, none, 120#64⟩), -- 1602: mulx rbx, rax, [rsp + (32* 3)+ 0x18]
  .adc (.reg .r13) (.reg .rax), -- 1603: adc r13, rax
  .adc (.reg .r14) (.reg .rbx), -- 1604: adc r14, rbx
  .adc (.reg .r15) (.reg .r8), -- 1605: adc r15, r8
  .mov (.reg .rdx) (.mem ⟨some .rsp, none, 216#64⟩), -- 1606: mov rdx, [rsp + (32* 6)+ 0x18]
  .xor (.reg .r9) (.reg .r9), -- 1607: xor r9d, r9d
  .mulx .rbx .rax (.mem ⟨some .rsp, none, 96#64⟩), -- 1608: mulx rbx, rax, [rsp + (32* 3)]
  .adcx .r11 (.reg .rax), -- 1609: adcx r11, rax
  .adox .r12 (.reg .rbx), -- 1610: adox r12, rbx
  .mulx .rbx .rax (.mem ⟨some .rsp, none, 104#64⟩), -- 1611: mulx rbx, rax, [rsp + (32* 3)+ 0x8]
  .adcx .r12 (.reg .rax), -- 1612: adcx r12, rax
  .adox .r13 (.reg .rbx), -- 1613: adox r13, rbx
  .mulx .rbx .rax (.mem ⟨some .rsp, none, 112#64⟩), -- 1614: mulx rbx, rax, [rsp + (32* 3)+ 0x10]
  .adcx .r13 (.reg .rax), -- 1615: adcx r13, rax
  .adox .r14 (.reg .rbx), -- 1616: adox r14, rbx
  .adox .r15 (.reg .r9), -- 1617: adox r15, r9
  .mulx .rbx .rax (.mem ⟨some .rsp, none, 120#64⟩), -- 1618: mulx rbx, rax, [rsp + (32* 3)+ 0x18]
  .adc (.reg .r14) (.reg .rax), -- 1619: adc r14, rax
  .adc (.reg .r15) (.reg .rbx), -- 1620: adc r15, rbx
  .adc (.reg .r8) (.reg .r9), -- 1621: adc r8, r9
  .xor (.reg .r9) (.reg .r9), -- 1622: xor r9d, r9d
  .mov (.reg .rdx) (.imm 0x100000000#64), -- 1623: movabs rdx, 0x100000000
  .mulx .rbx .rax (.reg .r10), -- 1624: mulx rbx, rax, r10
  .adcx .r11 (.reg .rax), -- 1625: adcx r11, rax
  .adox .r12 (.reg .rbx), -- 1626: adox r12, rbx
  .mulx .rbx .rax (.reg .r11), -- 1627: mulx rbx, rax, r11
  .adcx .r12 (.reg .rax), -- 1628: adcx r12, rax
  .adox .r13 (.reg .rbx), -- 1629: adox r13, rbx
  .not (.reg .rdx), -- 1630: not rdx
  .lea .rdx ⟨some .rdx, none, 2#64⟩, -- 1631: lea rdx, [rdx + 0x2]
  .mulx .rbx .rax (.reg .r10), -- 1632: mulx rbx, rax, r10
  .adcx .r13 (.reg .rax), -- 1633: adcx r13, rax
  .adox .r14 (.reg .rbx), -- 1634: adox r14, rbx
  .mulx .rbx .rax (.reg .r11), -- 1635: mulx rbx, rax, r11
  .adcx .r14 (.reg .rax), -- 1636: adcx r14, rax
  .adox .r15 (.reg .rbx), -- 1637: adox r15, rbx
  .adcx .r15 (.reg .r9), -- 1638: adcx r15, r9
  .adox .r8 (.reg .r9), -- 1639: adox r8, r9
  .adc (.reg .r8) (.reg .r9), -- 1640: adc r8, r9
  .mov (.reg .rcx) (.imm 1#64), -- 1641: mov ecx, 0x1
  .add (.reg .rcx) (.reg .r12), -- 1642: add rcx, r12
  .dec (.reg .rdx), -- 1643: dec rdx
  .adc (.reg .rdx) (.reg .r13), -- 1644: adc rdx, r13
  .dec (.reg .r9), -- 1645: dec r9
  .mov (.reg .rax) (.reg .r9), -- 1646: mov rax, r9
  .adc (.reg .r9) (.reg .r14), -- 1647: adc r9, r14
  .mov (.reg .r11) (.imm 0xfffffffe#64), -- 1648: mov r11d, 0xfffffffe
  .adc (.reg .r11) (.reg .r15), -- 1649: adc r11, r15
  .adc (.reg .rax) (.reg .r8), -- 1650: adc rax, r8
  .cmov .cy .r12 (.reg .rcx), -- 1651: cmovb r12, rcx
  .cmov .cy .r13 (.reg .rdx), -- 1652: cmovb r13, rdx
  .cmov .cy .r14 (.reg .r9), -- 1653: cmovb r14, r9
  .cmov .cy .r15 (.reg .r11), -- 1654: cmovb r15, r11
  .mov (.mem ⟨some .rsp, none, 96#64⟩) (.reg .r12), -- 1655: mov [rsp + (32* 3)], r12
  .mov (.mem ⟨some .rsp, none, 104#64⟩) (.reg .r13), -- 1656: mov [rsp + (32* 3)+ 0x8], r13
  .mov (.mem ⟨some .rsp, none, 112#64⟩) (.reg .r14), -- 1657: mov [rsp + (32* 3)+ 0x10], r14
  .mov (.mem ⟨some .rsp, none, 120#64⟩) (.reg .r15), -- 1658: mov [rsp + (32* 3)+ 0x18], r15
  .xor (.reg .r13) (.reg .r13), -- 1659: xor r13d, r13d
  .mov (.reg .rdx) (.mem ⟨some .rbp, none, 64#64⟩), -- 1660: mov rdx, [rbp + (2 * 32)]
  .mulx .r9 .r8 (.mem ⟨some .rsp, none, 160#64⟩), -- 1661: mulx r9, r8, [rsp + (32* 5)]
  .mulx .r10 .rbx (.mem ⟨some .rsp, none, 168#64⟩), -- 1662: mulx r10, rbx, [rsp + (32* 5)+ 0x8]
  .adc (.reg .r9) (.reg .rbx), -- 1663: adc r9, rbx
  .mulx .r11 .rbx (.mem ⟨some .rsp, none, 176#64⟩), -- 1664: mulx r11, rbx, [rsp + (32* 5)+ 0x10]
  .adc (.reg .r10) (.reg .rbx), -- 1665: adc r10, rbx
  .mulx .r12 .rbx (.mem ⟨some .rsp, none, 184#64⟩), -- 1666: mulx r12, rbx, [rsp + (32* 5)+ 0x18]
  .adc (.reg .r11) (.reg .rbx), -- 1667: adc r11, rbx
  .adc (.reg .r12) (.reg .r13), -- 1668: adc r12, r13
  .mov (.reg .rdx) (.mem ⟨some .rbp, none, 72#64⟩), -- 1669: mov rdx, [rbp + (2 * 32)+ 0x8]
  .xor (.reg .r14) (.reg .r14), -- 1670: xor r14d, r14d
  .mulx .rbx .rax (.mem ⟨some .rsp, none, 160#64⟩), -- 1671: mulx rbx, rax, [rsp + (32* 5)]
  .adcx .r9 (.reg .rax), -- 1672: adcx r9, rax
  .adox .r10 (.reg .rbx), -- 1673: adox r10, rbx
  .mulx .rbx .rax (.mem ⟨some .rsp, none, 168#64⟩), -- 1674: mulx rbx, rax, [rsp + (32* 5)+ 0x8]
  .adcx .r10 (.reg .rax), -- 1675: adcx r10, rax
  .adox .r11 (.reg .rbx), -- 1676: adox r11, rbx
  .mulx .rbx .rax (.mem ⟨some .rsp, none, 176#64⟩), -- 1677: mulx rbx, rax, [rsp + (32* 5)+ 0x10]
  .adcx .r11 (.reg .rax), -- 1678: adcx r11, rax
  .adox .r12 (.reg .rbx), -- 1679: adox r12, rbx
  .mulx .rbx .rax (.mem ⟨some .rsp, none, 184#64⟩), -- 1680: mulx rbx, rax, [rsp + (32* 5)+ 0x18]
  .adcx .r12 (.reg .rax), -- 1681: adcx r12, rax
  .adox .r13 (.reg .rbx), -- 1682: adox r13, rbx
  .adc (.reg .r13) (.reg .r14), -- 1683: adc r13, r14
  .xor (.reg .r15) (.reg .r15), -- 1684: xor r15d, r15d
  .mov (.reg .rdx) (.imm 0x100000000#64), -- 1685: movabs rdx, 0x100000000
  .mulx .rbx .rax (.reg .r8), -- 1686: mulx rbx, rax, r8
  .adcx .r9 (.reg .rax), -- 1687: adcx r9, rax
  .adox .r10 (.reg .rbx), -- 1688: adox r10, rbx
  .mulx .rbx .rax (.reg .r9), -- 1689: mulx rbx, rax, r9
  .adcx .r10 (.reg .rax), -- 1690: adcx r10, rax
  .adox .r11 (.reg .rbx), -- 1691: adox r11, rbx
  .not (.reg .rdx), -- 1692: not rdx
  .lea .rdx ⟨some .rdx, none, 2#64⟩, -- 1693: lea rdx, [rdx + 0x2]
  .mulx .rbx .rax (.reg .r8), -- 1694: mulx rbx, rax, r8
  .adcx .r11 (.reg .rax), -- 1695: adcx r11, rax
  .adox .r12 (.reg .rbx), -- 1696: adox r12, rbx
  .mulx .rbx .rax (.reg .r9), -- 1697: mulx rbx, rax, r9
  .adcx .r12 (.reg .rax), -- 1698: adcx r12, rax
  .adox .r13 (.reg .rbx), -- 1699: adox r13, rbx
  .adcx .r13 (.reg .r15), -- 1700: adcx r13, r15
  .adox .r14 (.reg .r15), -- 1701: adox r14, r15
  .adc (.reg .r14) (.reg .r15), -- 1702: adc r14, r15
  .mov (.reg .rdx) (.mem ⟨some .rbp, none, 80#64⟩), -- 1703: mov rdx, [rbp + (2 * 32)+ 0x10]
  .xor (.reg .r8) (.reg .r8), -- 1704: xor r8d, r8d
  .mulx .rbx .rax (.mem ⟨some .rsp, none, 160#64⟩), -- 1705: mulx rbx, rax, [rsp + (32* 5)]
  .adcx .r10 (.reg .rax), -- 1706: adcx r10, rax
  .adox .r11 (.reg .rbx), -- 1707: adox r11, rbx
  .mulx .rbx .rax (.mem ⟨some .rsp, none, 168#64⟩), -- 1708: mulx rbx, rax, [rsp + (32* 5)+ 0x8]
  .adcx .r11 (.reg .rax), -- 1709: adcx r11, rax
  .adox .r12 (.reg .rbx), -- 1710: adox r12, rbx
  .mulx .rbx .rax (.mem ⟨some .rsp, none, 176#64⟩), -- 1711: mulx rbx, rax, [rsp + (32* 5)+ 0x10]
  .adcx .r12 (.reg .rax), -- 1712: adcx r12, rax
  .adox .r13 (.reg .rbx), -- 1713: adox r13, rbx
  .adox .r14 (.reg .r8), -- 1714: adox r14, r8
  .mulx .rbx .rax (.mem ⟨some .rsp, none, 184#64⟩), -- 1715: mulx rbx, rax, [rsp + (32* 5)+ 0x18]
  .adc (.reg .r13) (.reg .rax), -- 1716: adc r13, rax
  .adc (.reg .r14) (.reg .rbx), -- 1717: adc r14, rbx
  .adc (.reg .r15) (.reg .r8), -- 1718: adc r15, r8
  .mov (.reg .rdx) (.mem ⟨some .rbp, none, 88#64⟩), -- 1719: mov rdx, [rbp + (2 * 32)+ 0x18]
  .xor (.reg .r9) (.reg .r9), -- 1720: xor r9d, r9d
  .mulx .rbx .rax (.mem ⟨some .rsp, none, 160#64⟩), -- 1721: mulx rbx, rax, [rsp + (32* 5)]
  .adcx .r11 (.reg .rax), -- 1722: adcx r11, rax
  .adox .r12 (.reg .rbx), -- 1723: adox r12, rbx
  .mulx .rbx .rax (.mem ⟨some .rsp, none, 168#64⟩), -- 1724: mulx rbx, rax, [rsp + (32* 5)+ 0x8]
  .adcx .r12 (.reg .rax), -- 1725: adcx r12, rax
  .adox .r13 (.reg .rbx), -- 1726: adox r13, rbx
  .mulx .rbx .rax (.mem ⟨some .rsp, none, 176#64⟩), -- 1727: mulx rbx, rax, [rsp + (32* 5)+ 0x10]
  .adcx .r13 (.reg .rax), -- 1728: adcx r13, rax
  .adox .r14 (.reg .rbx), -- 1729: adox r14, rbx
  .adox .r15 (.reg .r9), -- 1730: adox r15, r9
  .mulx .rbx .rax (.mem ⟨some .rsp, none, 184#64⟩), -- 1731: mulx rbx, rax, [rsp + (32* 5)+ 0x18]
  .adc (.reg .r14) (.reg .rax), -- 1732: adc r14, rax
  .adc (.reg .r15) (.reg .rbx), -- 1733: adc r15, rbx
  .adc (.reg .r8) (.reg .r9), -- 1734: adc r8, r9
  .xor (.reg .r9) (.reg .r9), -- 1735: xor r9d, r9d
  .mov (.reg .rdx) (.imm 0x100000000#64), -- 1736: movabs rdx, 0x100000000
  .mulx .rbx .rax (.reg .r10), -- 1737: mulx rbx, rax, r10
  .adcx .r11 (.reg .rax), -- 1738: adcx r11, rax
  .adox .r12 (.reg .rbx), -- 1739: adox r12, rbx
  .mulx .rbx .rax (.reg .r11), -- 1740: mulx rbx, rax, r11
  .adcx .r12 (.reg .rax), -- 1741: adcx r12, rax
  .adox .r13 (.reg .rbx), -- 1742: adox r13, rbx
  .not (.reg .rdx), -- 1743: not rdx
  .lea .rdx ⟨some .rdx, none, 2#64⟩, -- 1744: lea rdx, [rdx + 0x2]
  .mulx .rbx .rax (.reg .r10), -- 1745: mulx rbx, rax, r10
  .adcx .r13 (.reg .rax), -- 1746: adcx r13, rax
  .adox .r14 (.reg .rbx), -- 1747: adox r14, rbx
  .mulx .rbx .rax (.reg .r11), -- 1748: mulx rbx, rax, r11
  .adcx .r14 (.reg .rax), -- 1749: adcx r14, rax
  .adox .r15 (.reg .rbx), -- 1750: adox r15, rbx
  .adcx .r15 (.reg .r9), -- 1751: adcx r15, r9
  .adox .r8 (.reg .r9), -- 1752: adox r8, r9
  .adc (.reg .r8) (.reg .r9), -- 1753: adc r8, r9
  .mov (.reg .rcx) (.imm 1#64), -- 1754: mov ecx, 0x1
  .add (.reg .rcx) (.reg .r12), -- 1755: add rcx, r12
  .dec (.reg .rdx), -- 1756: dec rdx
  .adc (.reg .rdx) (.reg .r13), -- 1757: adc rdx, r13
  .dec (.reg .r9), -- 1758: dec r9
  .mov (.reg .rax) (.reg .r9), -- 1759: mov rax, r9
  .adc (.reg .r9) (.reg .r14), -- 1760: adc r9, r14
  .mov (.reg .r11) (.imm 0xfffffffe#64), -- 1761: mov r11d, 0xfffffffe
  .adc (.reg .r11) (.reg .r15), -- 1762: adc r11, r15
  .adc (.reg .rax) (.reg .r8), -- 1763: adc rax, r8
  .cmov .cy .r12 (.reg .rcx), -- 1764: cmovb r12, rcx
  .cmov .cy .r13 (.reg .rdx), -- 1765: cmovb r13, rdx
  .cmov .cy .r14 (.reg .r9), -- 1766: cmovb r14, r9
  .cmov .cy .r15 (.reg .r11), -- 1767: cmovb r15, r11
  .mov (.mem ⟨some .rsp, none, 160#64⟩) (.reg .r12), -- 1768: mov [rsp + (32* 5)], r12
  .mov (.mem ⟨some .rsp, none, 168#64⟩) (.reg .r13), -- 1769: mov [rsp + (32* 5)+ 0x8], r13
  .mov (.mem ⟨some .rsp, none, 176#64⟩) (.reg .r14), -- 1770: mov [rsp + (32* 5)+ 0x10], r14
  .mov (.mem ⟨some .rsp, none, 184#64⟩) (.reg .r15), -- 1771: mov [rsp + (32* 5)+ 0x18], r15
  .xor (.reg .r13) (.reg .r13), -- 1772: xor r13d, r13d
  .mov (.reg .rdx) (.mem ⟨some .rsp, none, 128#64⟩), -- 1773: mov rdx, [rsp + (32* 4)]
  .mulx .r9 .r8 (.mem ⟨some .rsp, none, 32#64⟩), -- 1774: mulx r9, r8, [rsp + (32* 1)]
  .mulx .r10 .rbx (.mem ⟨some .rsp, none, 40#64⟩), -- 1775: mulx r10, rbx, [rsp + (32* 1)+ 0x8]
  .adc (.reg .r9) (.reg .rbx), -- 1776: adc r9, rbx
  .mulx .r11 .rbx (.mem ⟨some .rsp, none, 48#64⟩), -- 1777: mulx r11, rbx, [rsp + (32* 1)+ 0x10]
  .adc (.reg .r10) (.reg .rbx), -- 1778: adc r10, rbx
  .mulx .r12 .rbx (.mem ⟨some .rsp, none, 56#64⟩), -- 1779: mulx r12, rbx, [rsp + (32* 1)+ 0x18]
  .adc (.reg .r11) (.reg .rbx), -- 1780: adc r11, rbx
  .adc (.reg .r12) (.reg .r13), -- 1781: adc r12, r13
  .mov (.reg .rdx) (.mem ⟨some .rsp, none, 136#64⟩), -- 1782: mov rdx, [rsp + (32* 4)+ 0x8]
  .xor (.reg .r14) (.reg .r14), -- 1783: xor r14d, r14d
  .mulx .rbx .rax (.mem ⟨some .rsp, none, 32#64⟩), -- 1784: mulx rbx, rax, [rsp + (32* 1)]
  .adcx .r9 (.reg .rax), -- 1785: adcx r9, rax
  .adox .r10 (.reg .rbx), -- 1786: adox r10, rbx
  .mulx .rbx .rax (.mem ⟨some .rsp, none, 40#64⟩), -- 1787: mulx rbx, rax, [rsp + (32* 1)+ 0x8]
  .adcx .r10 (.reg .rax), -- 1788: adcx r10, rax
  .adox .r11 (.reg .rbx), -- 1789: adox r11, rbx
  .mulx .rbx .rax (.mem ⟨some .rsp, none, 48#64⟩), -- 1790: mulx rbx, rax, [rsp + (32* 1)+ 0x10]
  .adcx .r11 (.reg .rax), -- 1791: adcx r11, rax
  .adox .r12 (.reg .rbx), -- 1792: adox r12, rbx
  .mulx .rbx .rax (.mem ⟨some .rsp, none, 56#64⟩), -- 1793: mulx rbx, rax, [rsp + (32* 1)+ 0x18]
  .adcx .r12 (.reg .rax), -- 1794: adcx r12, rax
  .adox .r13 (.reg .rbx), -- 1795: adox r13, rbx
  .adc (.reg .r13) (.reg .r14), -- 1796: adc r13, r14
  .xor (.reg .r15) (.reg .r15), -- 1797: xor r15d, r15d
  .mov (.reg .rdx) (.imm 0x100000000#64), -- 1798: movabs rdx, 0x100000000
  .mulx .rbx .rax (.reg .r8), -- 1799: mulx rbx, rax, r8
  .adcx .r9 (.reg .rax), -- 1800: adcx r9, rax
  .adox .r10 (.reg .rbx), -- 1801: adox r10, rbx
  .mulx .rbx .rax (.reg .r9), -- 1802: mulx rbx, rax, r9
  .adcx .r10 (.reg .rax), -- 1803: adcx r10, rax
  .adox .r11 (.reg .rbx), -- 1804: adox r11, rbx
  .not (.reg .rdx), -- 1805: not rdx
  .lea .rdx ⟨some .rdx, none, 2#64⟩, -- 1806: lea rdx, [rdx + 0x2]
  .mulx .rbx .rax (.reg .r8), -- 1807: mulx rbx, rax, r8
  .adcx .r11 (.reg .rax), -- 1808: adcx r11, rax
  .adox .r12 (.reg .rbx), -- 1809: adox r12, rbx
  .mulx .rbx .rax (.reg .r9), -- 1810: mulx rbx, rax, r9
  .adcx .r12 (.reg .rax), -- 1811: adcx r12, rax
  .adox .r13 (.reg .rbx), -- 1812: adox r13, rbx
  .adcx .r13 (.reg .r15), -- 1813: adcx r13, r15
  .adox .r14 (.reg .r15), -- 1814: adox r14, r15
  .adc (.reg .r14) (.reg .r15), -- 1815: adc r14, r15
  .mov (.reg .rdx) (.mem ⟨some .rsp, none, 144#64⟩), -- 1816: mov rdx, [rsp + (32* 4)+ 0x10]
  .xor (.reg .r8) (.reg .r8), -- 1817: xor r8d, r8d
  .mulx .rbx .rax (.mem ⟨some .rsp, none, 32#64⟩), -- 1818: mulx rbx, rax, [rsp + (32* 1)]
  .adcx .r10 (.reg .rax), -- 1819: adcx r10, rax
  .adox .r11 (.reg .rbx), -- 1820: adox r11, rbx
  .mulx .rbx .rax (.mem ⟨some .rsp, none, 40#64⟩), -- 1821: mulx rbx, rax, [rsp + (32* 1)+ 0x8]
  .adcx .r11 (.reg .rax), -- 1822: adcx r11, rax
  .adox .r12 (.reg .rbx), -- 1823: adox r12, rbx
  .mulx .rbx .rax (.mem ⟨some .rsp, none, 48#64⟩), -- 1824: mulx rbx, rax, [rsp + (32* 1)+ 0x10]
  .adcx .r12 (.reg .rax), -- 1825: adcx r12, rax
  .adox .r13 (.reg .rbx), -- 1826: adox r13, rbx
  .adox .r14 (.reg .r8), -- 1827: adox r14, r8
  .mulx .rbx .rax (.mem ⟨some .rsp, none, 56#64⟩), -- 1828: mulx rbx, rax, [rsp + (32* 1)+ 0x18]
  .adc (.reg .r13) (.reg .rax), -- 1829: adc r13, rax
  .adc (.reg .r14) (.reg .rbx), -- 1830: adc r14, rbx
  .adc (.reg .r15) (.reg .r8), -- 1831: adc r15, r8
  .mov (.reg .rdx) (.mem ⟨some .rsp, none, 152#64⟩), -- 1832: mov rdx, [rsp + (32* 4)+ 0x18]
  .xor (.reg .r9) (.reg .r9), -- 1833: xor r9d, r9d
  .mulx .rbx .rax (.mem ⟨some .rsp, none, 32#64⟩), -- 1834: mulx rbx, rax, [rsp + (32* 1)]
  .adcx .r11 (.reg .rax), -- 1835: adcx r11, rax
  .adox .r12 (.reg .rbx), -- 1836: adox r12, rbx
  .mulx .rbx .rax (.mem ⟨some .rsp, none, 40#64⟩), -- 1837: mulx rbx, rax, [rsp + (32* 1)+ 0x8]
  .adcx .r12 (.reg .rax), -- 1838: adcx r12, rax
  .adox .r13 (.reg .rbx), -- 1839: adox r13, rbx
  .mulx .rbx .rax (.mem ⟨some .rsp, none, 48#64⟩), -- 1840: mulx rbx, rax, [rsp + (32* 1)+ 0x10]
  .adcx .r13 (.reg .rax), -- 1841: adcx r13, rax
  .adox .r14 (.reg .rbx), -- 1842: adox r14, rbx
  .adox .r15 (.reg .r9), -- 1843: adox r15, r9
  .mulx .rbx .rax (.mem ⟨some .rsp, none, 56#64⟩), -- 1844: mulx rbx, rax, [rsp + (32* 1)+ 0x18]
  .adc (.reg .r14) (.reg .rax), -- 1845: adc r14, rax
  .adc (.reg .r15) (.reg .rbx), -- 1846: adc r15, rbx
  .adc (.reg .r8) (.reg .r9), -- 1847: adc r8, r9
  .xor (.reg .r9) (.reg .r9), -- 1848: xor r9d, r9d
  .mov (.reg .rdx) (.imm 0x100000000#64), -- 1849: movabs rdx, 0x100000000
  .mulx .rbx .rax (.reg .r10), -- 1850: mulx rbx, rax, r10
  .adcx .r11 (.reg .rax), -- 1851: adcx r11, rax
  .adox .r12 (.reg .rbx), -- 1852: adox r12, rbx
  .mulx .rbx .rax (.reg .r11), -- 1853: mulx rbx, rax, r11
  .adcx .r12 (.reg .rax), -- 1854: adcx r12, rax
  .adox .r13 (.reg .rbx), -- 1855: adox r13, rbx
  .not (.reg .rdx), -- 1856: not rdx
  .lea .rdx ⟨some .rdx, none, 2#64⟩, -- 1857: lea rdx, [rdx + 0x2]
  .mulx .rbx .rax (.reg .r10), -- 1858: mulx rbx, rax, r10
  .adcx .r13 (.reg .rax), -- 1859: adcx r13, rax
  .adox .r14 (.reg .rbx), -- 1860: adox r14, rbx
  .mulx .rbx .rax (.reg .r11), -- 1861: mulx rbx, rax, r11
  .adcx .r14 (.reg .rax), -- 1862: adcx r14, rax
  .adox .r15 (.reg .rbx), -- 1863: adox r15, rbx
  .adcx .r15 (.reg .r9), -- 1864: adcx r15, r9
  .adox .r8 (.reg .r9), -- 1865: adox r8, r9
  .adc (.reg .r8) (.reg .r9), -- 1866: adc r8, r9
  .mov (.reg .rcx) (.imm 1#64), -- 1867: mov ecx, 0x1
  .add (.reg .rcx) (.reg .r12), -- 1868: add rcx, r12
  .dec (.reg .rdx), -- 1869: dec rdx
  .adc (.reg .rdx) (.reg .r13), -- 1870: adc rdx, r13
  .dec (.reg .r9), -- 1871: dec r9
  .mov (.reg .rax) (.reg .r9), -- 1872: mov rax, r9
  .adc (.reg .r9) (.reg .r14), -- 1873: adc r9, r14
  .mov (.reg .r11) (.imm 0xfffffffe#64), -- 1874: mov r11d, 0xfffffffe
  .adc (.reg .r11) (.reg .r15), -- 1875: adc r11, r15
  .adc (.reg .rax) (.reg .r8), -- 1876: adc rax, r8
  .cmov .cy .r12 (.reg .rcx), -- 1877: cmovb r12, rcx
  .cmov .cy .r13 (.reg .rdx), -- 1878: cmovb r13, rdx
  .cmov .cy .r14 (.reg .r9), -- 1879: cmovb r14, r9
  .cmov .cy .r15 (.reg .r11), -- 1880: cmovb r15, r11
  .mov (.mem ⟨some .rsp, none, 128#64⟩) (.reg .r12), -- 1881: mov [rsp + (32* 4)], r12
  .mov (.mem ⟨some .rsp, none, 136#64⟩) (.reg .r13), -- 1882: mov [rsp + (32* 4)+ 0x8], r13
  .mov (.mem ⟨some .rsp, none, 144#64⟩) (.reg .r14), -- 1883: mov [rsp + (32* 4)+ 0x10], r14
  .mov (.mem ⟨some .rsp, none, 152#64⟩) (.reg .r15), -- 1884: mov [rsp + (32* 4)+ 0x18], r15
  .mov (.reg .rax) (.mem ⟨some .rsp, none, 128#64⟩), -- 1885: mov rax, [rsp + (32* 4)]
  .sub (.reg .rax) (.mem ⟨some .rsp, none, 96#64⟩), -- 1886: sub rax, [rsp + (32* 3)]
  .mov (.reg .rcx) (.mem ⟨some .rsp, none, 136#64⟩), -- 1887: mov rcx, [rsp + (32* 4)+ 0x8]
  .sbb (.reg .rcx) (.mem ⟨some .rsp, none, 104#64⟩), -- 1888: sbb rcx, [rsp + (32* 3)+ 0x8]
  .mov (.reg .r8) (.mem ⟨some .rsp, none, 144#64⟩), -- 1889: mov r8, [rsp + (32* 4)+ 0x10]
  .sbb (.reg .r8) (.mem ⟨some .rsp, none, 112#64⟩), -- 1890: sbb r8, [rsp + (32* 3)+ 0x10]
  .mov (.reg .r9) (.mem ⟨some .rsp, none, 152#64⟩), -- 1891: mov r9, [rsp + (32* 4)+ 0x18]
  .sbb (.reg .r9) (.mem ⟨some .rsp, none, 120#64⟩), -- 1892: sbb r9, [rsp + (32* 3)+ 0x18]
  .mov (.reg .r10) (.imm 0xffffffff#64), -- 1893: mov r10d, 0xffffffff
  .sbb (.reg .r11) (.reg .r11), -- 1894: sbb r11, r11
  .xor (.reg .rdx) (.reg .rdx), -- 1895: xor rdx, rdx
  .and (.reg .r10) (.reg .r11), -- 1896: and r10, r11
  .sub (.reg .rdx) (.reg .r10), -- 1897: sub rdx, r10
  .add (.reg .rax) (.reg .r11), -- 1898: add rax, r11
  .mov (.mem ⟨some .rsp, none, 128#64⟩) (.reg .rax), -- 1899: mov [rsp + (32* 4)], rax
  .adc (.reg .rcx) (.reg .r10), -- 1900: adc rcx, r10
  .mov (.mem ⟨some .rsp, none, 136#64⟩) (.reg .rcx), -- 1901: mov [rsp + (32* 4)+ 0x8], rcx
  .adc (.reg .r8) (.imm 0#64), -- 1902: adc r8, 0x0
  .mov (.mem ⟨some .rsp, none, 144#64⟩) (.reg .r8), -- 1903: mov [rsp + (32* 4)+ 0x10], r8
  .adc (.reg .r9) (.reg .rdx), -- 1904: adc r9, rdx
  .mov (.mem ⟨some .rsp, none, 152#64⟩) (.reg .r9), -- 1905: mov [rsp + (32* 4)+ 0x18], r9
  .mov (.reg .r8) (.mem ⟨some .rsi, none, 64#64⟩), -- 1906: mov r8, [rsi + (2 * 32)]
  .mov (.reg .r9) (.mem ⟨some .rsi, none, 72#64⟩), -- 1907: mov r9, [rsi + (2 * 32)+ 8]
  .mov (.reg .r10) (.mem ⟨some .rsi, none, 80#64⟩), -- 1908: mov r10, [rsi + (2 * 32)+ 16]
  .mov (.reg .r11) (.mem ⟨some .rsi, none, 88#64⟩), -- 1909: mov r11, [rsi + (2 * 32)+ 24]
  .mov (.reg .rax) (.reg .r8), -- 1910: mov rax, r8
  .mov (.reg .rdx) (.reg .r9), -- 1911: mov rdx, r9
  .or (.reg .rax) (.reg .r10), -- 1912: or rax, r10
  .or (.reg .rdx) (.reg .r11), -- 1913: or rdx, r11
  .or (.reg .rax) (.reg .rdx), -- 1914: or rax, rdx
  .neg (.reg .rax), -- 1915: neg rax
  .sbb (.reg .rax) (.reg .rax), -- 1916: sbb rax, rax
  .mov (.reg .r12) (.mem ⟨some .rbp, none, 64#64⟩), -- 1917: mov r12, [rbp + (2 * 32)]
  .mov (.reg .r13) (.mem ⟨some .rbp, none, 72#64⟩), -- 1918: mov r13, [rbp + (2 * 32)+ 8]
  .mov (.reg .r14) (.mem ⟨some .rbp, none, 80#64⟩), -- 1919: mov r14, [rbp + (2 * 32)+ 16]
  .mov (.reg .r15) (.mem ⟨some .rbp, none, 88#64⟩), -- 1920: mov r15, [rbp + (2 * 32)+ 24]
  .mov (.reg .rbx) (.reg .r12), -- 1921: mov rbx, r12
  .mov (.reg .rdx) (.reg .r13), -- 1922: mov rdx, r13
  .or (.reg .rbx) (.reg .r14), -- 1923: or rbx, r14
  .or (.reg .rdx) (.reg .r15), -- 1924: or rdx, r15
  .or (.reg .rbx) (.reg .rdx), -- 1925: or rbx, rdx
  .neg (.reg .rbx), -- 1926: neg rbx
  .sbb (.reg .rbx) (.reg .rbx), -- 1927: sbb rbx, rbx
  .cmp (.reg .rbx) (.reg .rax), -- 1928: cmp rbx, rax
  .cmov .cy .r12 (.reg .r8), -- 1929: cmovb r12, r8
  .cmov .cy .r13 (.reg .r9), -- 1930: cmovb r13, r9
  .cmov .cy .r14 (.reg .r10), -- 1931: cmovb r14, r10
  .cmov .cy .r15 (.reg .r11), -- 1932: cmovb r15, r11
  .cmov .zr .r12 (.mem ⟨some .rsp, none, 160#64⟩), -- 1933: cmovz r12, [rsp + (32* 5)]
  .cmov .zr .r13 (.mem ⟨some .rsp, none, 168#64⟩), -- 1934: cmovz r13, [rsp + (32* 5)+ 8]
  .cmov .zr .r14 (.mem ⟨some .rsp, none, 176#64⟩), -- 1935: cmovz r14, [rsp + (32* 5)+ 16]
  .cmov .zr .r15 (.mem ⟨some .rsp, none, 184#64⟩), -- 1936: cmovz r15, [rsp + (32* 5)+ 24]
  .mov (.reg .rax) (.mem ⟨some .rsp, none, 0#64⟩), -- 1937: mov rax, [rsp + (32* 0)]
  .cmov .cy .rax (.mem ⟨some .rsi, none, 0#64⟩), -- 1938: cmovb rax, [rsi + 0]
  .cmov .ab .rax (.mem ⟨some .rbp, none, 0#64⟩), -- 1939: cmovnbe rax, [rbp + 0]
  .mov (.reg .rbx) (.mem ⟨some .rsp, none, 8#64⟩), -- 1940: mov rbx, [rsp + (32* 0)+ 8]
  .cmov .cy .rbx (.mem ⟨some .rsi, none, 8#64⟩), -- 1941: cmovb rbx, [rsi + 0+ 8]
  .cmov .ab .rbx (.mem ⟨some .rbp, none, 8#64⟩), -- 1942: cmovnbe rbx, [rbp + 0+ 8]
  .mov (.reg .rcx) (.mem ⟨some .rsp, none, 16#64⟩), -- 1943: mov rcx, [rsp + (32* 0)+ 16]
  .cmov .cy .rcx (.mem ⟨some .rsi, none, 16#64⟩), -- 1944: cmovb rcx, [rsi + 0+ 16]
  .cmov .ab .rcx (.mem ⟨some .rbp, none, 16#64⟩), -- 1945: cmovnbe rcx, [rbp + 0+ 16]
  .mov (.reg .rdx) (.mem ⟨some .rsp, none, 24#64⟩), -- 1946: mov rdx, [rsp + (32* 0)+ 24]
  .cmov .cy .rdx (.mem ⟨some .rsi, none, 24#64⟩), -- 1947: cmovb rdx, [rsi + 0+ 24]
  .cmov .ab .rdx (.mem ⟨some .rbp, none, 24#64⟩), -- 1948: cmovnbe rdx, [rbp + 0+ 24]
  .mov (.reg .r8) (.mem ⟨some .rsp, none, 128#64⟩), -- 1949: mov r8, [rsp + (32* 4)]
  .cmov .cy .r8 (.mem ⟨some .rsi, none, 32#64⟩), -- 1950: cmovb r8, [rsi + 32]
  .cmov .ab .r8 (.mem ⟨some .rbp, none, 32#64⟩), -- 1951: cmovnbe r8, [rbp + 32]
  .mov (.reg .r9) (.mem ⟨some .rsp, none, 136#64⟩), -- 1952: mov r9, [rsp + (32* 4)+ 8]
  .cmov .cy .r9 (.mem ⟨some .rsi, none, 40#64⟩), -- 1953: cmovb r9, [rsi + 32+ 8]
  .cmov .ab .r9 (.mem ⟨some .rbp, none, 40#64⟩), -- 1954: cmovnbe r9, [rbp + 32+ 8]
  .mov (.reg .r10) (.mem ⟨some .rsp, none, 144#64⟩), -- 1955: mov r10, [rsp + (32* 4)+ 16]
  .cmov .cy .r10 (.mem ⟨some .rsi, none, 48#64⟩), -- 1956: cmovb r10, [rsi + 32+ 16]
  .cmov .ab .r10 (.mem ⟨some .rbp, none, 48#64⟩), -- 1957: cmovnbe r10, [rbp + 32+ 16]
  .mov (.reg .r11) (.mem ⟨some .rsp, none, 152#64⟩), -- 1958: mov r11, [rsp + (32* 4)+ 24]
  .cmov .cy .r11 (.mem ⟨some .rsi, none, 56#64⟩), -- 1959: cmovb r11, [rsi + 32+ 24]
  .cmov .ab .r11 (.mem ⟨some .rbp, none, 56#64⟩), -- 1960: cmovnbe r11, [rbp + 32+ 24]
  .mov (.mem ⟨some .rdi, none, 0#64⟩) (.reg .rax), -- 1961: mov [rdi + 0], rax
  .mov (.mem ⟨some .rdi, none, 8#64⟩) (.reg .rbx), -- 1962: mov [rdi + 0+ 8], rbx
  .mov (.mem ⟨some .rdi, none, 16#64⟩) (.reg .rcx), -- 1963: mov [rdi + 0+ 16], rcx
  .mov (.mem ⟨some .rdi, none, 24#64⟩) (.reg .rdx), -- 1964: mov [rdi + 0+ 24], rdx
  .mov (.mem ⟨some .rdi, none, 32#64⟩) (.reg .r8), -- 1965: mov [rdi + 32], r8
  .mov (.mem ⟨some .rdi, none, 40#64⟩) (.reg .r9), -- 1966: mov [rdi + 32+ 8], r9
  .mov (.mem ⟨some .rdi, none, 48#64⟩) (.reg .r10), -- 1967: mov [rdi + 32+ 16], r10
  .mov (.mem ⟨some .rdi, none, 56#64⟩) (.reg .r11), -- 1968: mov [rdi + 32+ 24], r11
  .mov (.mem ⟨some .rdi, none, 64#64⟩) (.reg .r12), -- 1969: mov [rdi + (2 * 32)], r12
  .mov (.mem ⟨some .rdi, none, 72#64⟩) (.reg .r13), -- 1970: mov [rdi + (2 * 32)+ 8], r13
  .mov (.mem ⟨some .rdi, none, 80#64⟩) (.reg .r14), -- 1971: mov [rdi + (2 * 32)+ 16], r14
  .mov (.mem ⟨some .rdi, none, 88#64⟩) (.reg .r15), -- 1972: mov [rdi + (2 * 32)+ 24], r15
  .add (.reg .rsp) (.imm 224#64), -- 1973: add rsp, 32* 7
  .pop .r15, -- 1974: pop r15
  .pop .r14, -- 1975: pop r14
  .pop .r13, -- 1976: pop r13
  .pop .r12, -- 1977: pop r12
  .pop .rbp, -- 1978: pop rbp
  .pop .rbx] -- 1979: pop rbx

/-- The registers that the operands of p256_montjadd.rs:508-635 say may change. -/
def p256MontjaddRegs : List Reg := [.rdi, .rsi, .rdx, .r10, .r11, .r12, .r13, .r14, .r15, .r8, .r9, .rax, .rcx]

/-- low/x86_64/p256_montjdouble.rs:581-672.  Operands: inout("rdi") p3.as_mut_ptr() => _; inout("rsi") p1.as_ptr() => _; out("r10") _; out("r11") _; out("r12") _; out("r13") _; out("r14") _; out("r15") _; out("r8") _; out("r9") _; out("rax") _; out("rcx") _; out("rdx") _. -/
def p256Montjdouble : Prog := [
  .nop, -- 0: endbr64
  .push .rbx, -- 1: push rbx
  .push .rbp, -- 2: push rbp
  .push .r12, -- 3: push r12
  .push .r13, -- 4: push r13
  .push .r14, -- 5: push r14
  .push .r15, -- 6: push r15
  .sub (.reg .rsp) (.imm 192#64), -- 7: sub rsp, 32* 6
  .mov (.reg .rdx) (.mem ⟨some .rsi, none, 64#64⟩), -- 8: mov rdx, [rsi + (2 * 32)]
  .mulx .r15 .r8 (.reg .rdx), -- 9: mulx r15, r8, rdx
  .mulx .r10 .r9 (.mem ⟨some .rsi, none, 72#64⟩), -- 10: mulx r10, r9, [rsi + (2 * 32)+ 0x8]
  .mulx .r12 .r11 (.mem ⟨some .rsi, none, 88#64⟩), -- 11: mulx r12, r11, [rsi + (2 * 32)+ 0x18]
  .mov (.reg .rdx) (.mem ⟨some .rsi, none, 80#64⟩), -- 12: mov rdx, [rsi + (2 * 32)+ 0x10]
  .mulx .r14 .r13 (.mem ⟨some .rsi, none, 88#64⟩), -- 13: mulx r14, r13, [rsi + (2 * 32)+ 0x18]
  .xor (.reg .rbp) (.reg .rbp), -- 14: xor ebp, ebp
  .mulx .rbx .rax (.mem ⟨some .rsi, none, 64#64⟩), -- 15: mulx rbx, rax, [rsi + (2 * 32)]
  .adcx .r10 (.reg .rax), -- 16: adcx r10, rax
  .adox .r11 (.reg .rbx), -- 17: adox r11, rbx
  .mulx .rbx .rax (.mem ⟨some .rsi, none, 72#64⟩), -- 18: mulx rbx, rax, [rsi + (2 * 32)+ 0x8]
  .adcx .r11 (.reg .rax), -- 19: adcx r11, rax
  .adox .r12 (.reg .rbx), -- 20: adox r12, rbx
  .mov (.reg .rdx) (.mem ⟨some .rsi, none, 88#64⟩), -- 21: mov rdx, [rsi + (2 * 32)+ 0x18]
  .mulx .rbx .rax (.mem ⟨some .rsi, none, 72#64⟩), -- 22: mulx rbx, rax, [rsi + (2 * 32)+ 0x8]
  .adcx .r12 (.reg .rax), -- 23: adcx r12, rax
  .adox .r13 (.reg .rbx), -- 24: adox r13, rbx
  .adcx .r13 (.reg .rbp), -- 25: adcx r13, rbp
  .adox .r14 (.reg .rbp), -- 26: adox r14, rbp
  .adc (.reg .r14) (.reg .rbp), -- 27: adc r14, rbp
  .xor (.reg .rbp) (.reg .rbp), -- 28: xor ebp, ebp
  .adcx .r9 (.reg .r9), -- 29: adcx r9, r9
  .adox .r9 (.reg .r15), -- 30: adox r9, r15
  .mov (.reg .rdx) (.mem ⟨some .rsi, none, 72#64⟩), -- 31: mov rdx, [rsi + (2 * 32)+ 0x8]
  .mulx .rdx .rax (.reg .rdx), -- 32: mulx rdx, rax, rdx
  .adcx .r10 (.reg .r10), -- 33: adcx r10, r10
  .adox .r10 (.reg .rax), -- 34: adox r10, rax
  .adcx .r11 (.reg .r11), -- 35: adcx r11, r11
  .adox .r11 (.reg .rdx), -- 36: adox r11, rdx
  .mov (.reg .rdx) (.mem ⟨some .rsi, none, 80#64⟩), -- 37: mov rdx, [rsi + (2 * 32)+ 0x10]
  .mulx .rdx .rax (.reg .rdx), -- 38: mulx rdx, rax, rdx
  .adcx .r12 (.reg .r12), -- 39: adcx r12, r12
  .adox .r12 (.reg .rax), -- 40: adox r12, rax
  .adcx .r13 (.reg .r13), -- 41: adcx r13, r13
  .adox .r13 (.reg .rdx), -- 42: adox r13, rdx
  .mov (.reg .rdx) (.mem ⟨some .rsi, none, 88#64⟩), -- 43: mov rdx, [rsi + (2 * 32)+ 0x18]
  .mulx .r15 .rax (.reg .rdx), -- 44: mulx r15, rax, rdx
  .adcx .r14 (.reg .r14), -- 45: adcx r14, r14
  .adox .r14 (.reg .rax), -- 46: adox r14, rax
  .adcx .r15 (.reg .rbp), -- 47: adcx r15, rbp
  .adox .r15 (.reg .rbp), -- 48: adox r15, rbp
  .xor (.reg .rbp) (.reg .rbp), -- 49: xor ebp, ebp
  .mov (.reg .rdx) (.imm 0x100000000#64), -- 50: movabs rdx, 0x100000000
  .mulx .rbx .rax (.reg .r8), -- 51: mulx rbx, rax, r8
  .adcx .r9 (.reg .rax), -- 52: adcx r9, rax
  .adox .r10 (.reg .rbx), -- 53: adox r10, rbx
  .mulx .rbx .rax (.reg .r9), -- 54: mulx rbx, rax, r9
  .adcx .r10 (.reg .rax), -- 55: adcx r10, rax
  .adox .r11 (.reg .rbx), -- 56: adox r11, rbx
  .mov (.reg .rdx) (.imm 0xffffffff00000001#64), -- 57: movabs rdx, 0xffffffff00000001
  .mulx .rbx .rax (.reg .r8), -- 58: mulx rbx, rax, r8
  .adcx .r11 (.reg .rax), -- 59: adcx r11, rax
  .adox .r12 (.reg .rbx), -- 60: adox r12, rbx
  .mulx .rbx .rax (.reg .r9), -- 61: mulx rbx, rax, r9
  .adcx .r12 (.reg .rax), -- 62: adcx r12, rax
  .adox .r13 (.reg .rbx), -- 63: adox r13, rbx
  .adcx .r13 (.reg .rbp), -- 64: adcx r13, rbp
  .mov32 .r9 .rbp, -- 65: mov r9d, ebp
  .adox .r9 (.reg .rbp), -- 66: adox r9, rbp
  .adcx .r9 (.reg .rbp), -- 67: adcx r9, rbp
  .add (.reg .r14) (.reg .r9), -- 68: add r14, r9
  .adc (.reg .r15) (.reg .rbp), -- 69: adc r15, rbp
  .mov32 .r8 .rbp, -- 70: mov r8d, ebp
  .adc (.reg .r8) (.reg .rbp), -- 71: adc r8, rbp
  .xor (.reg .rbp) (.reg .rbp), -- 72: xor ebp, ebp
  .mov (.reg .rdx) (.imm 0x100000000#64), -- 73: movabs rdx, 0x100000000
  .mulx .rbx .rax (.reg .r10), -- 74: mulx rbx, rax, r10
  .adcx .r11 (.reg .rax), -- 75: adcx r11, rax
  .adox .r12 (.reg .rbx), -- 76: adox r12, rbx
  .mulx .rbx .rax (.reg .r11), -- 77: mulx rbx, rax, r11
  .adcx .r12 (.reg .rax), -- 78: adcx r12, rax
  .adox .r13 (.reg .rbx), -- 79: adox r13, rbx
  .mov (.reg .rdx) (.imm 0xffffffff00000001#64), -- 80: movabs rdx, 0xffffffff00000001
  .mulx .rbx .rax (.reg .r10), -- 81: mulx rbx, rax, r10
  .adcx .r13 (.reg .rax), -- 82: adcx r13, rax
  .adox .r14 (.reg .rbx), -- 83: adox r14, rbx
  .mulx .rbx .rax (.reg .r11), -- 84: mulx rbx, rax, r11
  .adcx .r14 (.reg .rax), -- 85: adcx r14, rax
  .adox .r15 (.reg .rbx), -- 86: adox r15, rbx
  .adcx .r15 (.reg .rbp), -- 87: adcx r15, rbp
  .adox .r8 (.reg .rbp), -- 88: adox r8, rbp
  .adc (.reg .r8) (.reg .rbp), -- 89: adc r8, rbp
  .mov (.reg .rcx) (.imm 1#64), -- 90: mov ecx, 0x1
  .add (.reg .rcx) (.reg .r12), -- 91: add rcx, r12
  .lea .rdx ⟨some .rdx, none, 0xffffffffffffffff#64⟩, -- 92: lea rdx, [rdx -0x1]
  .adc (.reg .rdx) (.reg .r13), -- 93: adc rdx, r13
  .lea .rbp ⟨some .rbp, none, 0xffffffffffffffff#64⟩, -- 94: lea rbp, [rbp -0x1]
  .mov (.reg .rax) (.reg .rbp), -- 95: mov rax, rbp
  .adc (.reg .rbp) (.reg .r14), -- 96: adc rbp, r14
  .mov (.reg .r11) (.imm 0xfffffffe#64), -- 97: mov r11d, 0xfffffffe
  .adc (.reg .r11) (.reg .r15), -- 98: adc r11, r15
  .adc (.reg .rax) (.reg .r8), -- 99: adc rax, r8
  .cmov .cy .r12 (.reg .rcx), -- 100: cmovb r12, rcx
  .cmov .cy .r13 (.reg .rdx), -- 101: cmovb r13, rdx
  .cmov .cy .r14 (.reg .rbp), -- 102: cmovb r14, rbp
  .cmov .cy .r15 (.reg .r11), -- 103: cmovb r15, r11
  .mov (.mem ⟨some .rsp, none, 0#64⟩) (.reg .r12), -- 104: mov [rsp + (32* 0)], r12
  .mov (.mem ⟨some .rsp, none, 8#64⟩) (.reg .r13), -- 105: mov [rsp + (32* 0)+ 0x8], r13
  .mov (.mem ⟨some .rsp, none, 16#64⟩) (.reg .r14), -- 106: mov [rsp + (32* 0)+ 0x10], r14
  .mov (.mem ⟨some .rsp, none, 24#64⟩) (.reg .r15), -- 107: mov [rsp + (32* 0)+ 0x18], r15
  .mov (.reg .rdx) (.mem ⟨some .rsi, none, 32#64⟩), -- 108: mov rdx, [rsi + 32]
  .mulx .r15 .r8 (.reg .rdx), -- 109: mulx r15, r8, rdx
  .mulx .r10 .r9 (.mem ⟨some .rsi, none, 40#64⟩), -- 110: mulx r10, r9, [rsi + 32+ 0x8]
  .mulx .r12 .r11 (.mem ⟨some .rsi, none, 56#64⟩), -- 111: mulx r12, r11, [rsi + 32+ 0x18]
  .mov (.reg .rdx) (.mem ⟨some .rsi, none, 48#64⟩), -- 112: mov rdx, [rsi + 32+ 0x10]
  .mulx .r14 .r13 (.mem ⟨some .rsi, none, 56#64⟩), -- 113: mulx r14, r13, [rsi + 32+ 0x18]
  .xor (.reg .rbp) (.reg .rbp), -- 114: xor ebp, ebp
  .mulx .rbx .rax (.mem ⟨some .rsi, none, 32#64⟩), -- 115: mulx rbx, rax, [rsi + 32]
  .adcx .r10 (.reg .rax), -- 116: adcx r10, rax
  .adox .r11 (.reg .rbx), -- 117: adox r11, rbx
  .mulx .rbx .rax (.mem ⟨some .rsi, none, 40#64⟩), -- 118: mulx rbx, rax, [rsi + 32+ 0x8]
  .adcx .r11 (.reg .rax), -- 119: adcx r11, rax
  .adox .r12 (.reg .rbx), -- 120: adox r12, rbx
  .mov (.reg .rdx) (.mem ⟨some .rsi, none, 56#64⟩), -- 121: mov rdx, [rsi + 32+ 0x18]
  .mulx .rbx .rax (.mem ⟨some .rsi, none, 40#64⟩), -- 122: mulx rbx, rax, [rsi + 32+ 0x8]
  .adcx .r12 (.reg .rax), -- 123: adcx r12, rax
  .adox .r13 (.reg .rbx), -- 124: adox r13, rbx
  .adcx .r13 (.reg .rbp), -- 125: adcx r13, rbp
  .adox .r14 (.reg .rbp), -- 126: adox r14, rbp
  .adc (.reg .r14) (.reg .rbp), -- 127: adc r14, rbp
  .xor (.reg .rbp) (.reg .rbp), -- 128: xor ebp, ebp
  .adcx .r9 (.reg .r9), -- 129: adcx r9, r9
  .adox .r9 (.reg .r15), -- 130: adox r9, r15
  .mov (.reg .rdx) (.mem ⟨some .rsi, none, 40#64⟩), -- 131: mov rdx, [rsi + 32+ 0x8]
  .mulx .rdx .rax (.reg .rdx), -- 132: mulx rdx, rax, rdx
  .adcx .r10 (.reg .r10), -- 133: adcx r10, r10
  .adox .r10 (.reg .rax), -- 134: adox r10, rax
  .adcx .r11 (.reg .r11), -- 135: adcx r11, r11
  .adox .r11 (.reg .rdx), -- 136: adox r11, rdx
  .mov (.reg .rdx) (.mem ⟨some .rsi, none, 48#64⟩), -- 137: mov rdx, [rsi + 32+ 0x10]
  .mulx .rdx .rax (.reg .rdx), -- 138: mulx rdx, rax, rdx
  .adcx .r12 (.reg .r12), -- 139: adcx r12, r12
  .adox .r12 (.reg .rax), -- 140: adox r12, rax
  .adcx .r13 (.reg .r13), -- 141: adcx r13, r13
  .adox .r13 (.reg .rdx), -- 142: adox r13, rdx
  .mov (.reg .rdx) (.mem ⟨some .rsi, none, 56#64⟩), -- 143: mov rdx, [rsi + 32+ 0x18]
  .mulx .r15 .rax (.reg .rdx), -- 144: mulx r15, rax, rdx
  .adcx .r14 (.reg .r14), -- 145: adcx r14, r14
  .adox .r14 (.reg .rax), -- 146: adox r14, rax
  .adcx .r15 (.reg .rbp), -- 147: adcx r15, rbp
  .adox .r15 (.reg .rbp), -- 148: adox r15, rbp
  .xor (.reg .rbp) (.reg .rbp), -- 149: xor ebp, ebp
  .mov (.reg .rdx) (.imm 0x100000000#64), -- 150: movabs rdx, 0x100000000
  .mulx .rbx .rax (.reg .r8), -- 151: mulx rbx, rax, r8
  .adcx .r9 (.reg .rax), -- 152: adcx r9, rax
  .adox .r10 (.reg .rbx), -- 153: adox r10, rbx
  .mulx .rbx .rax (.reg .r9), -- 154: mulx rbx, rax, r9
  .adcx .r10 (.reg .rax), -- 155: adcx r10, rax
  .adox .r11 (.reg .rbx), -- 156: adox r11, rbx
  .mov (.reg .rdx) (.imm 0xffffffff00000001#64), -- 157: movabs rdx, 0xffffffff00000001
  .mulx .rbx .rax (.reg .r8), -- 158: mulx rbx, rax, r8
  .adcx .r11 (.reg .rax), -- 159: adcx r11, rax
  .adox .r12 (.reg .rbx), -- 160: adox r12, rbx
  .mulx .rbx .rax (.reg .r9), -- 161: mulx rbx, rax, r9
  .adcx .r12 (.reg .rax), -- 162: adcx r12, rax
  .adox .r13 (.reg .rbx), -- 163: adox r13, rbx
  .adcx .r13 (.reg .rbp), -- 164: adcx r13, rbp
  .mov32 .r9 .rbp, -- 165: mov r9d, ebp
  .adox .r9 (.reg .rbp), -- 166: adox r9, rbp
  .adcx .r9 (.reg .rbp), -- 167: adcx r9, rbp
  .add (.reg .r14) (.reg .r9), -- 168: add r14, r9
  .adc (.reg .r15) (.reg .rbp), -- 169: adc r15, rbp
  .mov32 .r8 .rbp, -- 170: mov r8d, ebp
  .adc (.reg .r8) (.reg .rbp), -- 171: adc r8, rbp
  .xor (.reg .rbp) (.reg .rbp), -- 172: xor ebp, ebp
  .mov (.reg .rdx) (.imm 0x100000000#64), -- 173: movabs rdx, 0x100000000
  .mulx .rbx .rax (.reg .r10), -- 174: mulx rbx, rax, r10
  .adcx .r11 (.reg .rax), -- 175: adcx r11, rax
  .adox .r12 (.reg .rbx), -- 176: adox r12, rbx
  .mulx .rbx .rax (.reg .r11), -- 177: mulx rbx, rax, r11
  .adcx .r12 (.reg .rax), -- 178: adcx r12, rax
  .adox .r13 (.reg .rbx), -- 179: adox r13, rbx
  .mov (.reg .rdx) (.imm 0xffffffff00000001#64), -- 180: movabs rdx, 0xffffffff00000001
  .mulx .rbx .rax (.reg .r10), -- 181: mulx rbx, rax, r10
  .adcx .r13 (.reg .rax), -- 182: adcx r13, rax
  .adox .r14 (.reg .rbx), -- 183: adox r14, rbx
  .mulx .rbx .rax (.reg .r11), -- 184: mulx rbx, rax, r11
  .adcx .r14 (.reg .rax), -- 185: adcx r14, rax
  .adox .r15 (.reg .rbx), -- 186: adox r15, rbx
  .adcx .r15 (.reg .rbp), -- 187: adcx r15, rbp
  .adox .r8 (.reg .rbp), -- 188: adox r8, rbp
  .adc (.reg .r8) (.reg .rbp), -- 189: adc r8, rbp
  .mov (.reg .rcx) (.imm 1#64), -- 190: mov ecx, 0x1
  .add (.reg .rcx) (.reg .r12), -- 191: add rcx, r12
  .lea .rdx ⟨some .rdx, none, 0xffffffffffffffff#64⟩, -- 192: lea rdx, [rdx -0x1]
  .adc (.reg .rdx) (.reg .r13), -- 193: adc rdx, r13
  .lea .rbp ⟨some .rbp, none, 0xffffffffffffffff#64⟩, -- 194: lea rbp, [rbp -0x1]
  .mov (.reg .rax) (.reg .rbp), -- 195: mov rax, rbp
  .adc (.reg .rbp) (.reg .r14), -- 196: adc rbp, r14
  .mov (.reg .r11) (.imm 0xfffffffe#64), -- 197: mov r11d, 0xfffffffe
  .adc (.reg .r11) (.reg .r15), -- 198: adc r11, r15
  .adc (.reg .rax) (.reg .r8), -- 199: adc rax, r8
  .cmov .cy .r12 (.reg .rcx), -- 200: cmovb r12, rcx
  .cmov .cy .r13 (.reg .rdx), -- 201: cmovb r13, rdx
  .cmov .cy .r14 (.reg .rbp), -- 202: cmovb r14, rbp
  .cmov .cy .r15 (.reg .r11), -- 203: cmovb r15, r11
  .mov (.mem ⟨some .rsp, none, 32#64⟩) (.reg .r12), -- 204: mov [rsp + (32* 1)], r12
  .mov (.mem ⟨some .rsp, none, 40#64⟩) (.reg .r13), -- 205: mov [rsp + (32* 1)+ 0x8], r13
  .mov (.mem ⟨some .rsp, none, 48#64⟩) (.reg .r14), -- 206: mov [rsp + (32* 1)+ 0x10], r14
  .mov (.mem ⟨some .rsp, none, 56#64⟩) (.reg .r15), -- 207: mov [rsp + (32* 1)+ 0x18], r15
  .mov (.reg .rax) (.mem ⟨some .rsi, none, 0#64⟩), -- 208: mov rax, [rsi + 0]
  .sub (.reg .rax) (.mem ⟨some .rsp, none, 0#64⟩), -- 209: sub rax, [rsp + (32* 0)]
  .mov (.reg .rcx) (.mem ⟨some .rsi, none, 8#64⟩), -- 210: mov rcx, [rsi + 0+ 0x8]
  .sbb (.reg .rcx) (.mem ⟨some .rsp, none, 8#64⟩), -- 211: sbb rcx, [rsp + (32* 0)+ 0x8]
  .mov (.reg .r8) (.mem ⟨some .rsi, none, 16#64⟩), -- 212: mov r8, [rsi + 0+ 0x10]
  .sbb (.reg .r8) (.mem ⟨some .rsp, none, 16#64⟩), -- 213: sbb r8, [rsp + (32* 0)+ 0x10]
  .mov (.reg .r9) (.mem ⟨some .rsi, none, 24#64⟩), -- 214: mov r9, [rsi + 0+ 0x18]
  .sbb (.reg .r9) (.mem ⟨some .rsp, none, 24#64⟩), -- 215: sbb r9, [rsp + (32* 0)+ 0x18]
  .mov (.reg .r10) (.imm 0xffffffff#64), -- 216: mov r10d, 0xffffffff
  .sbb (.reg .r11) (.reg .r11), -- 217: sbb r11, r11
  .xor (.reg .rdx) (.reg .rdx), -- 218: xor rdx, rdx
  .and (.reg .r10) (.reg .r11), -- 219: and r10, r11
  .sub (.reg .rdx) (.reg .r10), -- 220: sub rdx, r10
  .add (.reg .rax) (.reg .r11), -- 221: add rax, r11
  .mov (.mem ⟨some .rsp, none, 96#64⟩) (.reg .rax), -- 222: mov [rsp + (32* 3)], rax
  .adc (.reg .rcx) (.reg .r10), -- 223: adc rcx, r10
  .mov (.mem ⟨some .rsp, none, 104#64⟩) (.reg .rcx), -- 224: mov [rsp + (32* 3)+ 0x8], rcx
  .adc (.reg .r8) (.imm 0#64), -- 225: adc r8, 0x0
  .mov (.mem ⟨some .rsp, none, 112#64⟩) (.reg .r8), -- 226: mov [rsp + (32* 3)+ 0x10], r8
  .adc (.reg .r9) (.reg .rdx), -- 227: adc r9, rdx
  .mov (.mem ⟨some .rsp, none, 120#64⟩) (.reg .r9), -- 228: mov [rsp + (32* 3)+ 0x18], r9
  .mov (.reg .rax) (.mem ⟨some .rsi, none, 0#64⟩), -- 229: mov rax, [rsi + 0]
  .add (.reg .rax) (.mem ⟨some .rsp, none, 0#64⟩), -- 230: add rax, [rsp + (32* 0)]
  .mov (.reg .rcx) (.mem ⟨some .rsi, none, 8#64⟩), -- 231: mov rcx, [rsi + 0+ 0x8]
  .adc (.reg .rcx) (.mem ⟨some .rsp, none, 8#64⟩), -- 232: adc rcx, [rsp + (32* 0)+ 0x8]
  .mov (.reg .r8) (.mem ⟨some .rsi, none, 16#64⟩), -- 233: mov r8, [rsi + 0+ 0x10]
  .adc (.reg .r8) (.mem ⟨some .rsp, none, 16#64⟩), -- 234: adc r8, [rsp + (32* 0)+ 0x10]
  .mov (.reg .r9) (.mem ⟨some .rsi, none, 24#64⟩), -- 235: mov r9, [rsi + 0+ 0x18]
  .adc (.reg .r9) (.mem ⟨some .rsp, none, 24#64⟩), -- 236: adc r9, [rsp + (32* 0)+ 0x18]
  .mov (.reg .r10) (.imm 0xffffffff#64), -- 237: mov r10d, 0xffffffff
  .sbb (.reg .r11) (.reg .r11), -- 238: sbb r11, r11
  .xor (.reg .rdx) (.reg .rdx), -- 239: xor rdx, rdx
  .and (.reg .r10) (.reg .r11), -- 240: and r10, r11
  .sub (.reg .rdx) (.reg .r10), -- 241: sub rdx, r10
  .sub (.reg .rax) (.reg .r11), -- 242: sub rax, r11
  .mov (.mem ⟨some .rsp, none, 64#64⟩) (.reg .rax), -- 243: mov [rsp + (32* 2)], rax
  .sbb (.reg .rcx) (.reg .r10), -- 244: sbb rcx, r10
  .mov (.mem ⟨some .rsp, none, 72#64⟩) (.reg .rcx), -- 245: mov [rsp + (32* 2)+ 0x8], rcx
  .sbb (.reg .r8) (.imm 0#64), -- 246: sbb r8, 0x0
  .mov (.mem ⟨some .rsp, none, 80#64⟩) (.reg .r8), -- 247: mov [rsp + (32* 2)+ 0x10], r8
  .sbb (.reg .r9) (.reg .rdx), -- 248: sbb r9, rdx
  .mov (.mem ⟨some .rsp, none, 88#64⟩) (.reg .r9), -- 249: mov [rsp + (32* 2)+ 0x18], r9
  .xor (.reg .r13) (.reg .r13), -- 250: xor r13d, r13d
  .mov (.reg .rdx) (.mem ⟨some .rsp, none, 96#64⟩), -- 251: mov rdx, [rsp + (32* 3)]
  .mulx .r9 .r8 (.mem ⟨some .rsp, none, 64#64⟩), -- 252: mulx r9, r8, [rsp + (32* 2)]
  .mulx .r10 .rbx (.mem ⟨some .rsp, none, 72#64⟩), -- 253: mulx r10, rbx, [rsp + (32* 2)+ 0x8]
  .adc (.reg .r9) (.reg .rbx), -- 254: adc r9, rbx
  .mulx .r11 .rbx (.mem ⟨some .rsp, none, 80#64⟩), -- 255: mulx r11, rbx, [rsp + (32* 2)+ 0x10]
  .adc (.reg .r10) (.reg .rbx), -- 256: adc r10, rbx
  .mulx .r12 .rbx (.mem ⟨some .rsp, none, 88#64⟩), -- 257: mulx r12, rbx, [rsp + (32* 2)+ 0x18]
  .adc (.reg .r11) (.reg .rbx), -- 258: adc r11, rbx
  .adc (.reg .r12) (.reg .r13), -- 259: adc r12, r13
  .mov (.reg .rdx) (.mem ⟨some .rsp, none, 104#64⟩), -- 260: mov rdx, [rsp + (32* 3)+ 0x8]
  .xor (.reg .r14) (.reg .r14), -- 261: xor r14d, r14d
  .mulx .rbx .rax (.mem ⟨some .rsp, none, 64#64⟩), -- 262: mulx rbx, rax, [rsp + (32* 2)]
  .adcx .r9 (.reg .rax), -- 263: adcx r9, rax
  .adox .r10 (.reg .rbx), -- 264: adox r10, rbx
  .mulx .rbx .rax (.mem ⟨some .rsp, none, 72#64⟩), -- 265: mulx rbx, rax, [rsp + (32* 2)+ 0x8]
  .adcx .r10 (.reg .rax), -- 266: adcx r10, rax
  .adox .r11 (.reg .rbx), -- 267: adox r11, rbx
  .mulx .rbx .rax (.mem ⟨some .rsp, none, 80#64⟩), -- 268: mulx rbx, rax, [rsp + (32* 2)+ 0x10]
  .adcx .r11 (.reg .rax), -- 269: adcx r11, rax
  .adox .r12 (.reg .rbx), -- 270: adox r12, rbx
  .mulx .rbx .rax (.mem ⟨some .rsp, none, 88#64⟩), -- 271: mulx rbx, rax, [rsp + (32* 2)+ 0x18]
  .adcx .r12 (.reg .rax), -- 272: adcx r12, rax
  .adox .r13 (.reg .rbx), -- 273: adox r13, rbx
  .adc (.reg .r13) (.reg .r14), -- 274: adc r13, r14
  .xor (.reg .r15) (.reg .r15), -- 275: xor r15d, r15d
  .mov (.reg .rdx) (.imm 0x100000000#64), -- 276: movabs rdx, 0x100000000
  .mulx .rbx .rax (.reg .r8), -- 277: mulx rbx, rax, r8
  .adcx .r9 (.reg .rax), -- 278: adcx r9, rax
  .adox .r10 (.reg .rbx), -- 279: adox r10, rbx
  .mulx .rbx .rax (.reg .r9), -- 280: mulx rbx, rax, r9
  .adcx .r10 (.reg .rax), -- 281: adcx r10, rax
  .adox .r11 (.reg .rbx), -- 282: adox r11, rbx
  .not (.reg .rdx), -- 283: not rdx
  .lea .rdx ⟨some .rdx, none, 2#64⟩, -- 284: lea rdx, [rdx + 0x2]
  .mulx .rbx .rax (.reg .r8), -- 285: mulx rbx, rax, r8
  .adcx .r11 (.reg .rax), -- 286: adcx r11, rax
  .adox .r12 (.reg .rbx), -- 287: adox r12, rbx
  .mulx .rbx .rax (.reg .r9), -- 288: mulx rbx, rax, r9
  .adcx .r12 (.reg .rax), -- 289: adcx r12, rax
  .adox .r13 (.reg .rbx), -- 290: adox r13, rbx
  .adcx .r13 (.reg .r15), -- 291: adcx r13, r15
  .adox .r14 (.reg .r15), -- 292: adox r14, r15
  .adc (.reg .r14) (.reg .r15), -- 293: adc r14, r15
  .mov (.reg .rdx) (.mem ⟨some .rsp, none, 112#64⟩), -- 294: mov rdx, [rsp + (32* 3)+ 0x10]
  .xor (.reg .r8) (.reg .r8), -- 295: xor r8d, r8d
  .mulx .rbx .rax (.mem ⟨some .rsp, none, 64#64⟩), -- 296: mulx rbx, rax, [rsp + (32* 2)]
  .adcx .r10 (.reg .rax), -- 297: adcx r10, rax
  .adox .r11 (.reg .rbx), -- 298: adox r11, rbx
  .mulx .rbx .rax (.mem ⟨some .rsp, none, 72#64⟩), -- 299: mulx rbx, rax, [rsp + (32* 2)+ 0x8]
  .adcx .r11 (.reg .rax), -- 300: adcx r11, rax
  .adox .r12 (.reg .rbx), -- 301: adox r12, rbx
  .mulx .rbx .rax (.mem ⟨some .rsp, none, 80#64⟩), -- 302: mulx rbx, rax, [rsp + (32* 2)+ 0x10]
  .adcx .r12 (.reg .rax), -- 303: adcx r12, rax
  .adox .r13 (.reg .rbx), -- 304: adox r13, rbx
  .adox .r14 (.reg .r8), -- 305: adox r14, r8
  .mulx .rbx .rax (.mem ⟨some .rsp, none, 88#64⟩), -- 306: mulx rbx, rax, [rsp + (32* 2)+ 0x18]
  .adc (.reg .r13) (.reg .rax), -- 307: adc r13, rax
  .adc (.reg .r14) (.reg .rbx), -- 308: adc r14, rbx
  .adc (.reg .r15) (.reg .r8), -- 309: adc r15, r8
  .mov (.reg .rdx) (.mem ⟨some .rsp, none, 120#64⟩), -- 310: mov rdx, [rsp + (32* 3)+ 0x18]
  .xor (.reg .r9) (.reg .r9), -- 311: xor r9d, r9d
  .mulx .rbx .rax (.mem ⟨some .rsp, none, 64#64⟩), -- 312: mulx rbx, rax, [rsp + (32* 2)]
  .adcx .r11 (.reg .rax), -- 313: adcx r11, rax
  .adox .r12 (.reg .rbx), -- 314: adox r12, rbx
  .mulx .rbx .rax (.mem ⟨some .rsp, none, 72#64⟩), -- 315: mulx rbx, rax, [rsp + (32* 2)+ 0x8]
  .adcx .r12 (.reg .rax), -- 316: adcx r12, rax
  .adox .r13 (.reg .rbx), -- 317: adox r13, rbx
  .mulx .rbx .rax (.mem ⟨some .rsp, none, 80#64⟩), -- 318: mulx rbx, rax, [rsp + (32* 2)+ 0x10]
  .adcx .r13 (.reg .rax), -- 319: adcx r13, rax
  .adox .r14 (.reg .rbx), -- 320: adox r14, rbx
  .adox .r15 (.reg .r9), -- 321: adox r15, r9
  .mulx .rbx .rax (.mem ⟨some .rsp, none, 88#64⟩), -- 322: mulx rbx, rax, [rsp + (32* 2)+ 0x18]
  .adc (.reg .r14) (.reg .rax), -- 323: adc r14, rax
  .adc (.reg .r15) (.reg .rbx), -- 324: adc r15, rbx
  .adc (.reg .r8) (.reg .r9), -- 325: adc r8, r9
  .xor (.reg .r9) (.reg .r9), -- 326: xor r9d, r9d
  .mov (.reg .rdx) (.imm 0x100000000#64), -- 327: movabs rdx, 0x100000000
  .mulx .rbx .rax (.reg .r10), -- 328: mulx rbx, rax, r10
  .adcx .r11 (.reg .rax), -- 329: adcx r11, rax
  .adox .r12 (.reg .rbx), -- 330: adox r12, rbx
  .mulx .rbx .rax (.reg .r11), -- 331: mulx rbx, rax, r11
  .adcx .r12 (.reg .rax), -- 332: adcx r12, rax
  .adox .r13 (.reg .rbx), -- 333: adox r13, rbx
  .not (.reg .rdx), -- 334: not rdx
  .lea .rdx ⟨some .rdx, none, 2#64⟩, -- 335: lea rdx, [rdx + 0x2]
  .mulx .rbx .rax (.reg .r10), -- 336: mulx rbx, rax, r10
  .adcx .r13 (.reg .rax), -- 337: adcx r13, rax
  .adox .r14 (.reg .rbx), -- 338: adox r14, rbx
  .mulx .rbx .rax (.reg .r11), -- 339: mulx rbx, rax, r11
  .adcx .r14 (.reg .rax), -- 340: adcx r14, rax
  .adox .r15 (.reg .rbx), -- 341: adox r15, rbx
  .adcx .r15 (.reg .r9), -- 342: adcx r15, r9
  .adox .r8 (.reg .r9), -- 343: adox r8, r9
  .adc (.reg .r8) (.reg .r9), -- 344: adc r8, r9
  .mov (.reg .rcx) (.imm 1#64), -- 345: mov ecx, 0x1
  .add (.reg .rcx) (.reg .r12), -- 346: add rcx, r12
  .dec (.reg .rdx), -- 347: dec rdx
  .adc (.reg .rdx) (.reg .r13), -- 348: adc rdx, r13
  .dec (.reg .r9), -- 349: dec r9
  .mov (.reg .rax) (.reg .r9), -- 350: mov rax, r9
  .adc (.reg .r9) (.reg .r14), -- 351: adc r9, r14
  .mov (.reg .r11) (.imm 0xfffffffe#64), -- 352: mov r11d, 0xfffffffe
  .adc (.reg .r11) (.reg .r15), -- 353: adc r11, r15
  .adc (.reg .rax) (.reg .r8), -- 354: adc rax, r8
  .cmov .cy .r12 (.reg .rcx), -- 355: cmovb r12, rcx
  .cmov .cy .r13 (.reg .rdx), -- 356: cmovb r13, rdx
  .cmov .cy .r14 (.reg .r9), -- 357: cmovb r14, r9
  .cmov .cy .r15 (.reg .r11), -- 358: cmovb r15, r11
  .mov (.mem ⟨some .rsp, none, 96#64⟩) (.reg .r12), -- 359: mov [rsp + (32* 3)], r12
  .mov (.mem ⟨some .rsp, none, 104#64⟩) (.reg .r13), -- 360: mov [rsp + (32* 3)+ 0x8], r13
  .mov (.mem ⟨some .rsp, none, 112#64⟩) (.reg .r14), -- 361: mov [rsp + (32* 3)+ 0x10], r14
  .mov (.mem ⟨some .rsp, none, 120#64⟩) (.reg .r15), -- 362: mov [rsp + (32* 3)+ 0x18], r15
  .xor (.reg .r11) (.reg .r11), -- 363: xor r11, r11
  .mov (.reg .rax) (.mem ⟨some .rsi, none, 32#64⟩), -- 364: mov rax, [rsi + 32]
  .add (.reg .rax) (.mem ⟨some .rsi, none, 64#64⟩), -- 365: add rax, [rsi + (2 * 32)]
  .mov (.reg .rcx) (.mem ⟨some .rsi, none, 40#64⟩), -- 366: mov rcx, [rsi + 32+ 0x8]
  .adc (.reg .rcx) (.mem ⟨some .rsi, none, 72#64⟩), -- 367: adc rcx, [rsi + (2 * 32)+ 0x8]
  .mov (.reg .r8) (.mem ⟨some .rsi, none, 48#64⟩), -- 368: mov r8, [rsi + 32+ 0x10]
  .adc (.reg .r8) (.mem ⟨some .rsi, none, 80#64⟩), -- 369: adc r8, [rsi + (2 * 32)+ 0x10]
  .mov (.reg .r9) (.mem ⟨some .rsi, none, 56#64⟩), -- 370: mov r9, [rsi + 32+ 0x18]
  .adc (.reg .r9) (.mem ⟨some .rsi, none, 88#64⟩), -- 371: adc r9, [rsi + (2 * 32)+ 0x18]
  .adc (.reg .r11) (.reg .r11), -- 372: adc r11, r11
  .sub (.reg .rax) (.imm 0xffffffffffffffff#64), -- 373: sub rax, 0xffffffffffffffff
  .mov (.reg .r10) (.imm 0xffffffff#64), -- 374: mov r10d, 0xffffffff
  .sbb (.reg .rcx) (.reg .r10), -- 375: sbb rcx, r10
  .sbb (.reg .r8) (.imm 0#64), -- 376: sbb r8, 0x0
  .mov (.reg .rdx) (.imm 0xffffffff00000001#64), -- 377: mov rdx, 0xffffffff00000001
  .sbb (.reg .r9) (.reg .rdx), -- 378: sbb r9, rdx
  .sbb (.reg .r11) (.imm 0#64), -- 379: sbb r11, 0x0
  .and (.reg .r10) (.reg .r11), -- 380: and r10, r11
  .and (.reg .rdx) (.reg .r11), -- 381: and rdx, r11
  .add (.reg .rax) (.reg .r11), -- 382: add rax, r11
  .mov (.mem ⟨some .rsp, none, 64#64⟩) (.reg .rax), -- 383: mov [rsp + (32* 2)], rax
  .adc (.reg .rcx) (.reg .r10), -- 384: adc rcx, r10
  .mov (.mem ⟨some .rsp, none, 72#64⟩) (.reg .rcx), -- 385: mov [rsp + (32* 2)+ 0x8], rcx
  .adc (.reg .r8) (.imm 0#64), -- 386: adc r8, 0x0
  .mov (.mem ⟨some .rsp, none, 80#64⟩) (.reg .r8), -- 387: mov [rsp + (32* 2)+ 0x10], r8
  .adc (.reg .r9) (.reg .rdx), -- 388: adc r9, rdx
  .mov (.mem ⟨some .rsp, none, 88#64⟩) (.reg .r9), -- 389: mov [rsp + (32* 2)+ 0x18], r9
  .xor (.reg .r13) (.reg .r13), -- 390: xor r13d, r13d
  .mov (.reg .rdx) (.mem ⟨some .rsp, none, 32#64⟩), -- 391: mov rdx, [rsp + (32* 1)]
  .mulx .r9 .r8 (.mem ⟨some .rsi, none, 0#64⟩), -- 392: mulx r9, r8, [rsi + 0]
  .mulx .r10 .rbx (.mem ⟨some .rsi, none, 8#64⟩), -- 393: mulx r10, rbx, [rsi + 0+ 0x8]
  .adc (.reg .r9) (.reg .rbx), -- 394: adc r9, rbx
  .mulx .r11 .rbx (.mem ⟨some .rsi, none, 16#64⟩), -- 395: mulx r11, rbx, [rsi + 0+ 0x10]
  .adc (.reg .r10) (.reg .rbx), -- 396: adc r10, rbx
  .mulx .r12 .rbx (.mem ⟨some .rsi, none, 24#64⟩), -- 397: mulx r12, rbx, [rsi + 0+ 0x18]
  .adc (.reg .r11) (.reg .rbx), -- 398: adc r11, rbx
  .adc (.reg .r12) (.reg .r13), -- 399: adc r12, r13
  .mov (.reg .rdx) (.mem ⟨some .rsp, none, 40#64⟩), -- 400: mov rdx, [rsp + (32* 1)+ 0x8]
  .xor (.reg .r14) (.reg .r14), -- 401: xor r14d, r14d
  .mulx .rbx .rax (.mem ⟨some .rsi, none, 0#64⟩), -- 402: mulx rbx, rax, [rsi + 0]
  .adcx .r9 (.reg .rax), -- 403: adcx r9, rax
  .adox .r10 (.reg .rbx), -- 404: adox r10, rbx
  .mulx .rbx .rax (.mem ⟨some .rsi, none, 8#64⟩), -- 405: mulx rbx, rax, [rsi + 0+ 0x8]
  .adcx .r10 (.reg .rax), -- 406: adcx r10, rax
  .adox .r11 (.reg .rbx), -- 407: adox r11, rbx
  .mulx .rbx .rax (.mem ⟨some .rsi, none, 16#64⟩), -- 408: mulx rbx, rax, [rsi + 0+ 0x10]
  .adcx .r11 (.reg .rax), -- 409: adcx r11, rax
  .adox .r12 (.reg .rbx), -- 410: adox r12, rbx
  .mulx .rbx .rax (.mem ⟨some .rsi, none, 24#64⟩), -- 411: mulx rbx, rax, [rsi + 0+ 0x18]
  .adcx .r12 (.reg .rax), -- 412: adcx r12, rax
  .adox .r13 (.reg .rbx), -- 413: adox r13, rbx
  .adc (.reg .r13) (.reg .r14), -- 414: adc r13, r14
  .xor (.reg .r15) (.reg .r15), -- 415: xor r15d, r15d
  .mov (.reg .rdx) (.imm 0x100000000#64), -- 416: movabs rdx, 0x100000000
  .mulx .rbx .rax (.reg .r8), -- 417: mulx rbx, rax, r8
  .adcx .r9 (.reg .rax), -- 418: adcx r9, rax
  .adox .r10 (.reg .rbx), -- 419: adox r10, rbx
  .mulx .rbx .rax (.reg .r9), -- 420: mulx rbx, rax, r9
  .adcx .r10 (.reg .rax), -- 421: adcx r10, rax
  .adox .r11 (.reg .rbx), -- 422: adox r11, rbx
  .not (.reg .rdx), -- 423: not rdx
  .lea .rdx ⟨some .rdx, none, 2#64⟩, -- 424: lea rdx, [rdx + 0x2]
  .mulx .rbx .rax (.reg .r8), -- 425: mulx rbx, rax, r8
  .adcx .r11 (.reg .rax), -- 426: adcx r11, rax
  .adox .r12 (.reg .rbx), -- 427: adox r12, rbx
  .mulx .rbx .rax (.reg .r9), -- 428: mulx rbx, rax, r9
  .adcx .r12 (.reg .rax), -- 429: adcx r12, rax
  .adox .r13 (.reg .rbx), -- 430: adox r13, rbx
  .adcx .r13 (.reg .r15), -- 431: adcx r13, r15
  .adox .r14 (.reg .r15), -- 432: adox r14, r15
  .adc (.reg .r14) (.reg .r15), -- 433: adc r14, r15
  .mov (.reg .rdx) (.mem ⟨some .rsp, none, 48#64⟩), -- 434: mov rdx, [rsp + (32* 1)+ 0x10]
  .xor (.reg .r8) (.reg .r8), -- 435: xor r8d, r8d
  .mulx .rbx .rax (.mem ⟨some .rsi, none, 0#64⟩), -- 436: mulx rbx, rax, [rsi + 0]
  .adcx .r10 (.reg .rax), -- 437: adcx r10, rax
  .adox .r11 (.reg .rbx), -- 438: adox r11, rbx
  .mulx .rbx .rax (.mem ⟨some .rsi, none, 8#64⟩), -- 439: mulx rbx, rax, [rsi + 0+ 0x8]
  .adcx .r11 (.reg .rax), -- 440: adcx r11, rax
  .adox .r12 (.reg .rbx), -- 441: adox r12, rbx
  .mulx .rbx .rax (.mem ⟨some .rsi, none, 16#64⟩), -- 442: mulx rbx, rax, [rsi + 0+ 0x10]
  .adcx .r12 (.reg .rax), -- 443: adcx r12, rax
  .adox .r13 (.reg .rbx), -- 444: adox r13, rbx
  .adox .r14 (.reg .r8), -- 445: adox r14, r8
  .mulx .rbx .rax (.mem ⟨some .rsi, none, 24#64⟩), -- 446: mulx rbx, rax, [rsi + 0+ 0x18]
  .adc (.reg .r13) (.reg .rax), -- 447: adc r13, rax
  .adc (.reg .r14) (.reg .rbx), -- 448: adc r14, rbx
  .adc (.reg .r15) (.reg .r8), -- 449: adc r15, r8
  .mov (.reg .rdx) (.mem ⟨some .rsp, none, 56#64⟩), -- 450: mov rdx, [rsp + (32* 1)+ 0x18]
  .xor (.reg .r9) (.reg .r9), -- 451: xor r9d, r9d
  .mulx .rbx .rax (.mem ⟨some .rsi, none, 0#64⟩), -- 452: mulx rbx, rax, [rsi + 0]
  .adcx .r11 (.reg .rax), -- 453: adcx r11, rax
  .adox .r12 (.reg .rbx), -- 454: adox r12, rbx
  .mulx .rbx .rax (.mem ⟨some .rsi, none, 8#64⟩), -- 455: mulx rbx, rax, [rsi + 0+ 0x8]
  .adcx .r12 (.reg .rax), -- 456: adcx r12, rax
  .adox .r13 (.reg .rbx), -- 457: adox r13, rbx
  .mulx .rbx .rax (.mem ⟨some .rsi, none, 16#64⟩), -- 458: mulx rbx, rax, [rsi + 0+ 0x10]
  .adcx .r13 (.reg .rax), -- 459: adcx r13, rax
  .adox .r14 (.reg .rbx), -- 460: adox r14, rbx
  .adox .r15 (.reg .r9), -- 461: adox r15, r9
  .mulx .rbx .rax (.mem ⟨some .rsi, none, 24#64⟩), -- 462: mulx rbx, rax, [rsi + 0+ 0x18]
  .adc (.reg .r14) (.reg .rax), -- 463: adc r14, rax
  .adc (.reg .r15) (.reg .rbx), -- 464: adc r15, rbx
  .adc (.reg .r8) (.reg .r9), -- 465: adc r8, r9
  .xor (.reg .r9) (.reg .r9), -- 466: xor r9d, r9d
  .mov (.reg .rdx) (.imm 0x100000000#64), -- 467: movabs rdx, 0x100000000
  .mulx .rbx .rax (.reg .r10), -- 468: mulx rbx, rax, r10
  .adcx .r11 (.reg .rax), -- 469: adcx r11, rax
  .adox .r12 (.reg .rbx), -- 470: adox r12, rbx
  .mulx .rbx .rax (.reg .r11), -- 471: mulx rbx, rax, r11
  .adcx .r12 (.reg .rax), -- 472: adcx r12, rax
  .adox .r13 (.reg .rbx), -- 473: adox r13, rbx
  .not (.reg .rdx), -- 474: not rdx
  .lea .rdx ⟨some .rdx, none, 2#64⟩, -- 475: lea rdx, [rdx + 0x2]
  .mulx .rbx .rax (.reg .r10), -- 476: mulx rbx, rax, r10
  .adcx .r13 (.reg .rax), -- 477: adcx r13, rax
  .adox .r14 (.reg .rbx), -- 478: adox r14, rbx
  .mulx .rbx .rax (.reg .r11), -- 479: mulx rbx, rax, r11
  .adcx .r14 (.reg .rax), -- 480: adcx r14, rax
  .adox .r15 (.reg .rbx), -- 481: adox r15, rbx
  .adcx .r15 (.reg .r9), -- 482: adcx r15, r9
  .adox .r8 (.reg .r9), -- 483: adox r8, r9
  .adc (.reg .r8) (.reg .r9), -- 484: adc r8, r9
  .mov (.reg .rcx) (.imm 1#64), -- 485: mov ecx, 0x1
  .add (.reg .rcx) (.reg .r12), -- 486: add rcx, r12
  .dec (.reg .rdx), -- 487: dec rdx
  .adc (.reg .rdx) (.reg .r13), -- 488: adc rdx, r13
  .dec (.reg .r9), -- 489: dec r9
  .mov (.reg .rax) (.reg .r9), -- 490: mov rax, r9
  .adc (.reg .r9) (.reg .r14), -- 491: adc r9, r14
  .mov (.reg .r11) (.imm 0xfffffffe#64), -- 492: mov r11d, 0xfffffffe
  .adc (.reg .r11) (.reg .r15), -- 493: adc r11, r15
  .adc (.reg .rax) (.reg .r8), -- 494: adc rax, r8
  .cmov .cy .r12 (.reg .rcx), -- 495: cmovb r12, rcx
  .cmov .cy .r13 (.reg .rdx), -- 496: cmovb r13, rdx
  .cmov .cy .r14 (.reg .r9), -- 497: cmovb r14, r9
  .cmov .cy .r15 (.reg .r11), -- 498: cmovb r15, r11
  .mov (.mem ⟨some .rsp, none, 128#64⟩) (.reg .r12), -- 499: mov [rsp + (32* 4)], r12
  .mov (.mem ⟨some .rsp, none, 136#64⟩) (.reg .r13), -- 500: mov [rsp + (32* 4)+ 0x8], r13
  .mov (.mem ⟨some .rsp, none, 144#64⟩) (.reg .r14), -- 501: mov [rsp + (32* 4)+ 0x10], r14
  .mov (.mem ⟨some .rsp, none, 152#64⟩) (.reg .r15), -- 502: mov [rsp + (32* 4)+ 0x18], r15
  .mov (.reg .rdx) (.mem ⟨some .rsp, none, 96#64⟩), -- 503: mov rdx, [rsp + (32* 3)]
  .mulx .r15 .r8 (.reg .rdx), -- 504: mulx r15, r8, rdx
  .mulx .r10 .r9 (.mem ⟨some .rsp, none, 104#64⟩), -- 505: mulx r10, r9, [rsp + (32* 3)+ 0x8]
  .mulx .r12 .r11 (.mem ⟨some .rsp, none, 120#64⟩), -- 506: mulx r12, r11, [rsp + (32* 3)+ 0x18]
  .mov (.reg .rdx) (.mem ⟨some .rsp, none, 112#64⟩), -- 507: mov rdx, [rsp + (32* 3)+ 0x10]
  .mulx .r14 .r13 (.mem ⟨some .rsp, none, 120#64⟩), -- 508: mulx r14, r13, [rsp + (32* 3)+ 0x18]
  .xor (.reg .rbp) (.reg .rbp), -- 509: xor ebp, ebp
  .mulx .rbx .rax (.mem ⟨some .rsp, none, 96#64⟩), -- 510: mulx rbx, rax, [rsp + (32* 3)]
  .adcx .r10 (.reg .rax), -- 511: adcx r10, rax
  .adox .r11 (.reg .rbx), -- 512: adox r11, rbx
  .mulx .rbx .rax (.mem ⟨some .rsp, none, 104#64⟩), -- 513: mulx rbx, rax, [rsp + (32* 3)+ 0x8]
  .adcx .r11 (.reg .rax), -- 514: adcx r11, rax
  .adox .r12 (.reg .rbx), -- 515: adox r12, rbx
  .mov (.reg .rdx) (.mem ⟨some .rsp, none, 120#64⟩), -- 516: mov rdx, [rsp + (32* 3)+ 0x18]
  .mulx .rbx .rax (.mem ⟨some .rsp, none, 104#64⟩), -- 517: mulx rbx, rax, [rsp + (32* 3)+ 0x8]
  .adcx .r12 (.reg .rax), -- 518: adcx r12, rax
  .adox .r13 (.reg .rbx), -- 519: adox r13, rbx
  .adcx .r13 (.reg .rbp), -- 520: adcx r13, rbp
  .adox .r14 (.reg .rbp), -- 521: adox r14, rbp
  .adc (.reg .r14) (.reg .rbp), -- 522: adc r14, rbp
  .xor (.reg .rbp) (.reg .rbp), -- 523: xor ebp, ebp
  .adcx .r9 (.reg .r9), -- 524: adcx r9, r9
  .adox .r9 (.reg .r15), -- 525: adox r9, r15
  .mov (.reg .rdx) (.mem ⟨some .rsp, none, 104#64⟩), -- 526: mov rdx, [rsp + (32* 3)+ 0x8]
  .mulx .rdx .rax (.reg .rdx), -- 527: mulx rdx, rax, rdx
  .adcx .r10 (.reg .r10), -- 528: adcx r10, r10
  .adox .r10 (.reg .rax), -- 529: adox r10, rax
  .adcx .r11 (.reg .r11), -- 530: adcx r11, r11
  .adox .r11 (.reg .rdx), -- 531: adox r11, rdx
  .mov (.reg .rdx) (.mem ⟨some .rsp, none, 112#64⟩), -- 532: mov rdx, [rsp + (32* 3)+ 0x10]
  .mulx .rdx .rax (.reg .rdx), -- 533: mulx rdx, rax, rdx
  .adcx .r12 (.reg .r12), -- 534: adcx r12, r12
  .adox .r12 (.reg .rax), -- 535: adox r12, rax
  .adcx .r13 (.reg .r13), -- 536: adcx r13, r13
  .adox .r13 (.reg .rdx), -- 537: adox r13, rdx
  .mov (.reg .rdx) (.mem ⟨some .rsp, none, 120#64⟩), -- 538: mov rdx, [rsp + (32* 3)+ 0x18]
  .mulx .r15 .rax (.reg .rdx), -- 539: mulx r15, rax, rdx
  .adcx .r14 (.reg .r14), -- 540: adcx r14, r14
  .adox .r14 (.reg .rax), -- 541: adox r14, rax
  .adcx .r15 (.reg .rbp), -- 542: adcx r15, rbp
  .adox .r15 (.reg .rbp), -- 543: adox r15, rbp
  .xor (.reg .rbp) (.reg .rbp), -- 544: xor ebp, ebp
  .mov (.reg .rdx) (.imm 0x100000000#64), -- 545: movabs rdx, 0x100000000
  .mulx .rbx .rax (.reg .r8), -- 546: mulx rbx, rax, r8
  .adcx .r9 (.reg .rax), -- 547: adcx r9, rax
  .adox .r10 (.reg .rbx), -- 548: adox r10, rbx
  .mulx .rbx .rax (.reg .r9), -- 549: mulx rbx, rax, r9
  .adcx .r10 (.reg .rax), -- 550: adcx r10, rax
  .adox .r11 (.reg .rbx), -- 551: adox r11, rbx
  .mov (.reg .rdx) (.imm 0xffffffff00000001#64), -- 552: movabs rdx, 0xffffffff00000001
  .mulx .rbx .rax (.reg .r8), -- 553: mulx rbx, rax, r8
  .adcx .r11 (.reg .rax), -- 554: adcx r11, rax
  .adox .r12 (.reg .rbx), -- 555: adox r12, rbx
  .mulx .rbx .rax (.reg .r9), -- 556: mulx rbx, rax, r9
  .adcx .r12 (.reg .rax), -- 557: adcx r12, rax
  .adox .r13 (.reg .rbx), -- 558: adox r13, rbx
  .adcx .r13 (.reg .rbp), -- 559: adcx r13, rbp
  .mov32 .r9 .rbp, -- 560: mov r9d, ebp
  .adox .r9 (.reg .rbp), -- 561: adox r9, rbp
  .adcx .r9 (.reg .rbp), -- 562: adcx r9, rbp
  .add (.reg .r14) (.reg .r9), -- 563: add r14, r9
  .adc (.reg .r15) (.reg .rbp), -- 564: adc r15, rbp
  .mov32 .r8 .rbp, -- 565: mov r8d, ebp
  .adc (.reg .r8) (.reg .rbp), -- 566: adc r8, rbp
  .xor (.reg .rbp) (.reg .rbp), -- 567: xor ebp, ebp
  .mov (.reg .rdx) (.imm 0x100000000#64), -- 568: movabs rdx, 0x100000000
  .mulx .rbx .rax (.reg .r10), -- 569: mulx rbx, rax, r10
  .adcx .r11 (.reg .rax), -- 570: adcx r11, rax
  .adox .r12 (.reg .rbx), -- 571: adox r12, rbx
  .mulx .rbx .rax (.reg .r11), -- 572: mulx rbx, rax, r11
  .adcx .r12 (.reg .rax), -- 573: adcx r12, rax
  .adox .r13 (.reg .rbx), -- 574: adox r13, rbx
  .mov (.reg .rdx) (.imm 0xffffffff00000001#64), -- 575: movabs rdx, 0xffffffff00000001
  .mulx .rbx .rax (.reg .r10), -- 576: mulx rbx, rax, r10
  .adcx .r13 (.reg .rax), -- 577: adcx r13, rax
  .adox .r14 (.reg .rbx), -- 578: adox r14, rbx
  .mulx .rbx .rax (.reg .r11), -- 579: mulx rbx, rax, r11
  .adcx .r14 (.reg .rax), -- 580: adcx r14, rax
  .adox .r15 (.reg .rbx), -- 581: adox r15, rbx
  .adcx .r15 (.reg .rbp), -- 582: adcx r15, rbp
  .adox .r8 (.reg .rbp), -- 583: adox r8, rbp
  .adc (.reg .r8) (.reg .rbp), -- 584: adc r8, rbp
  .mov (.reg .rcx) (.imm 1#64), -- 585: mov ecx, 0x1
  .add (.reg .rcx) (.reg .r12), -- 586: add rcx, r12
  .lea .rdx ⟨some .rdx, none, 0xffffffffffffffff#64⟩, -- 587: lea rdx, [rdx -0x1]
  .adc (.reg .rdx) (.reg .r13), -- 588: adc rdx, r13
  .lea .rbp ⟨some .rbp, none, 0xffffffffffffffff#64⟩, -- 589: lea rbp, [rbp -0x1]
  .mov (.reg .rax) (.reg .rbp), -- 590: mov rax, rbp
  .adc (.reg .rbp) (.reg .r14), -- 591: adc rbp, r14
  .mov (.reg .r11) (.imm 0xfffffffe#64), -- 592: mov r11d, 0xfffffffe
  .adc (.reg .r11) (.reg .r15), -- 593: adc r11, r15
  .adc (.reg .rax) (.reg .r8), -- 594: adc rax, r8
  .cmov .cy .r12 (.reg .rcx), -- 595: cmovb r12, rcx
  .cmov .cy .r13 (.reg .rdx), -- 596: cmovb r13, rdx
  .cmov .cy .r14 (.reg .rbp), -- 597: cmovb r14, rbp
  .cmov .cy .r15 (.reg .r11), -- 598: cmovb r15, r11
  .mov (.mem ⟨some .rsp, none, 160#64⟩) (.reg .r12), -- 599: mov [rsp + (32* 5)], r12
  .mov (.mem ⟨some .rsp, none, 168#64⟩) (.reg .r13), -- 600: mov [rsp + (32* 5)+ 0x8], r13
  .mov (.mem ⟨some .rsp, none, 176#64⟩) (.reg .r14), -- 601: mov [rsp + (32* 5)+ 0x10], r14
  .mov (.mem ⟨some .rsp, none, 184#64⟩) (.reg .r15), -- 602: mov [rsp + (32* 5)+ 0x18], r15
  .mov (.reg .rdx) (.mem ⟨some .rsp, none, 64#64⟩), -- 603: mov rdx, [rsp + (32* 2)]
  .mulx .r15 .r8 (.reg .rdx), -- 604: mulx r15, r8, rdx
  .mulx .r10 .r9 (.mem ⟨some .rsp, none, 72#64⟩), -- 605: mulx r10, r9, [rsp + (32* 2)+ 0x8]
  .mulx .r12 .r11 (.mem ⟨some .rsp, none, 88#64⟩), -- 606: mulx r12, r11, [rsp + (32* 2)+ 0x18]
  .mov (.reg .rdx) (.mem ⟨some .rsp, none, 80#64⟩), -- 607: mov rdx, [rsp + (32* 2)+ 0x10]
  .mulx .r14 .r13 (.mem ⟨some .rsp, none, 88#64⟩), -- 608: mulx r14, r13, [rsp + (32* 2)+ 0x18]
  .xor (.reg .rbp) (.reg .rbp), -- 609: xor ebp, ebp
  .mulx .rbx .rax (.mem ⟨some .rsp, none, 64#64⟩), -- 610: mulx rbx, rax, [rsp + (32* 2)]
  .adcx .r10 (.reg .rax), -- 611: adcx r10, rax
  .adox .r11 (.reg .rbx), -- 612: adox r11, rbx
  .mulx .rbx .rax (.mem ⟨some .rsp, none, 72#64⟩), -- 613: mulx rbx, rax, [rsp + (32* 2)+ 0x8]
  .adcx .r11 (.reg .rax), -- 614: adcx r11, rax
  .adox .r12 (.reg .rbx), -- 615: adox r12, rbx
  .mov (.reg .rdx) (.mem ⟨some .rsp, none, 88#64⟩), -- 616: mov rdx, [rsp + (32* 2)+ 0x18]
  .mulx .rbx .rax (.mem ⟨some .rsp, none, 72#64⟩), -- 617: mulx rbx, rax, [rsp + (32* 2)+ 0x8]
  .adcx .r12 (.reg .rax), -- 618: adcx r12, rax
  .adox .r13 (.reg .rbx), -- 619: adox r13, rbx
  .adcx .r13 (.reg .rbp), -- 620: adcx r13, rbp
  .adox .r14 (.reg .rbp), -- 621: adox r14, rbp
  .adc (.reg .r14) (.reg .rbp), -- 622: adc r14, rbp
  .xor (.reg .rbp) (.reg .rbp), -- 623: xor ebp, ebp
  .adcx .r9 (.reg .r9), -- 624: adcx r9, r9
  .adox .r9 (.reg .r15), -- 625: adox r9, r15
  .mov (.reg .rdx) (.mem ⟨some .rsp, none, 72#64⟩), -- 626: mov rdx, [rsp + (32* 2)+ 0x8]
  .mulx .rdx .rax (.reg .rdx), -- 627: mulx rdx, rax, rdx
  .adcx .r10 (.reg .r10), -- 628: adcx r10, r10
  .adox .r10 (.reg .rax), -- 629: adox r10, rax
  .adcx .r11 (.reg .r11), -- 630: adcx r11, r11
  .adox .r11 (.reg .rdx), -- 631: adox r11, rdx
  .mov (.reg .rdx) (.mem ⟨some .rsp, none, 80#64⟩), -- 632: mov rdx, [rsp + (32* 2)+ 0x10]
  .mulx .rdx .rax (.reg .rdx), -- 633: mulx rdx, rax, rdx
  .adcx .r12 (.reg .r12), -- 634: adcx r12, r12
  .adox .r12 (.reg .rax), -- 635: adox r12, rax
  .adcx .r13 (.reg .r13), -- 636: adcx r13, r13
  .adox .r13 (.reg .rdx), -- 637: adox r13, rdx
  .mov (.reg .rdx) (.mem ⟨some .rsp, none, 88#64⟩), -- 638: mov rdx, [rsp + (32* 2)+ 0x18]
  .mulx .r15 .rax (.reg .rdx), -- 639: mulx r15, rax, rdx
  .adcx .r14 (.reg .r14), -- 640: adcx r14, r14
  .adox .r14 (.reg .rax), -- 641: adox r14, rax
  .adcx .r15 (.reg .rbp), -- 642: adcx r15, rbp
  .adox .r15 (.reg .rbp), -- 643: adox r15, rbp
  .xor (.reg .rbp) (.reg .rbp), -- 644: xor ebp, ebp
  .mov (.reg .rdx) (.imm 0x100000000#64), -- 645: movabs rdx, 0x100000000
  .mulx .rbx .rax (.reg .r8), -- 646: mulx rbx, rax, r8
  .adcx .r9 (.reg .rax), -- 647: adcx r9, rax
  .adox .r10 (.reg .rbx), -- 648: adox r10, rbx
  .mulx .rbx .rax (.reg .r9), -- 649: mulx rbx, rax, r9
  .adcx .r10 (.reg .rax), -- 650: adcx r10, rax
  .adox .r11 (.reg .rbx), -- 651: adox r11, rbx
  .mov (.reg .rdx) (.imm 0xffffffff00000001#64), -- 652: movabs rdx, 0xffffffff00000001
  .mulx .rbx .rax (.reg .r8), -- 653: mulx rbx, rax, r8
  .adcx .r11 (.reg .rax), -- 654: adcx r11, rax
  .adox .r12 (.reg .rbx), -- 655: adox r12, rbx
  .mulx .rbx .rax (.reg .r9), -- 656: mulx rbx, rax, r9
  .adcx .r12 (.reg .rax), -- 657: adcx r12, rax
  .adox .r13 (.reg .rbx), -- 658: adox r13, rbx
  .adcx .r13 (.reg .rbp), -- 659: adcx r13, rbp
  .mov32 .r9 .rbp, -- 660: mov r9d, ebp
  .adox .r9 (.reg .rbp), -- 661: adox r9, rbp
  .adcx .r9 (.reg .rbp), -- 662: adcx r9, rbp
  .add (.reg .r14) (.reg .r9), -- 663: add r14, r9
  .adc (.reg .r15) (.reg .rbp), -- 664: adc r15, rbp
  .mov32 .r8 .rbp, -- 665: mov r8d, ebp
  .adc (.reg .r8) (.reg .rbp), -- 666: adc r8, rbp
  .xor (.reg .rbp) (.reg .rbp), -- 667: xor ebp, ebp
  .mov (.reg .rdx) (.imm 0x100000000#64), -- 668: movabs rdx, 0x100000000
  .mulx .rbx .rax (.reg .r10), -- 669: mulx rbx, rax, r10
  .adcx .r11 (.reg .rax), -- 670: adcx r11, rax
  .adox .r12 (.reg .rbx), -- 671: adox r12, rbx
  .mulx .rbx .rax (.reg .r11), -- 672: mulx rbx, rax, r11
  .adcx .r12 (.reg .rax), -- 673: adcx r12, rax
  .adox .r13 (.reg .rbx), -- 674: adox r13, rbx
  .mov (.reg .rdx) (.imm 0xffffffff00000001#64), -- 675: movabs rdx, 0xffffffff00000001
  .mulx .rbx .rax (.reg .r10), -- 676: mulx rbx, rax, r10
  .adcx .r13 (.reg .rax), -- 677: adcx r13, rax
  .adox .r14 (.reg .rbx), -- 678: adox r14, rbx
  .mulx .rbx .rax (.reg .r11), -- 679: mulx rbx, rax, r11
  .adcx .r14 (.reg .rax), -- 680: adcx r14, rax
  .adox .r15 (.reg .rbx), -- 681: adox r15, rbx
  .adcx .r15 (.reg .rbp), -- 682: adcx r15, rbp
  .adox .r8 (.reg .rbp), -- 683: adox r8, rbp
  .adc (.reg .r8) (.reg .rbp), -- 684: adc r8, rbp
  .mov (.reg .rcx) (.imm 1#64), -- 685: mov ecx, 0x1
  .add (.reg .rcx) (.reg .r12), -- 686: add rcx, r12
  .lea .rdx ⟨some .rdx, none, 0xffffffffffffffff#64⟩, -- 687: lea rdx, [rdx -0x1]
  .adc (.reg .rdx) (.reg .r13), -- 688: adc rdx, r13
  .lea .rbp ⟨some .rbp, none, 0xffffffffffffffff#64⟩, -- 689: lea rbp, [rbp -0x1]
  .mov (.reg .rax) (.reg .rbp), -- 690: mov rax, rbp
  .adc (.reg .rbp) (.reg .r14), -- 691: adc rbp, r14
  .mov (.reg .r11) (.imm 0xfffffffe#64), -- 692: mov r11d, 0xfffffffe
  .adc (.reg .r11) (.reg .r15), -- 693: adc r11, r15
  .adc (.reg .rax) (.reg .r8), -- 694: adc rax, r8
  .cmov .cy .r12 (.reg .rcx), -- 695: cmovb r12, rcx
  .cmov .cy .r13 (.reg .rdx), -- 696: cmovb r13, rdx
  .cmov .cy .r14 (.reg .rbp), -- 697: cmovb r14, rbp
  .cmov .cy .r15 (.reg .r11), -- 698: cmovb r15, r11
  .mov (.mem ⟨some .rsp, none, 64#64⟩) (.reg .r12), -- 699: mov [rsp + (32* 2)], r12
  .mov (.mem ⟨some .rsp, none, 72#64⟩) (.reg .r13), -- 700: mov [rsp + (32* 2)+ 0x8], r13
  .mov (.mem ⟨some .rsp, none, 80#64⟩) (.reg .r14), -- 701: mov [rsp + (32* 2)+ 0x10], r14
  .mov (.mem ⟨some .rsp, none, 88#64⟩) (.reg .r15), -- 702: mov [rsp + (32* 2)+ 0x18], r15
  .mov (.reg .r8) (.imm 0xffffffffffffffff#64), -- 703: mov r8, 0xffffffffffffffff
  .xor (.reg .r10) (.reg .r10), -- 704: xor r10d, r10d
  .sub (.reg .r8) (.mem ⟨some .rsp, none, 160#64⟩), -- 705: sub r8, [rsp + (32* 5)]
  .mov (.reg .r9) (.imm 0xffffffff#64), -- 706: mov r9, 0x00000000ffffffff
  .sbb (.reg .r9) (.mem ⟨some .rsp, none, 168#64⟩), -- 707: sbb r9, [rsp + (32* 5)+ 0x8]
  .sbb (.reg .r10) (.mem ⟨some .rsp, none, 176#64⟩), -- 708: sbb r10, [rsp + (32* 5)+ 0x10]
  .mov (.reg .r11) (.imm 0xffffffff00000001#64), -- 709: mov r11, 0xffffffff00000001
  .sbb (.reg .r11) (.mem ⟨some .rsp, none, 184#64⟩), -- 710: sbb r11, [rsp + (32* 5)+ 0x18]
  .xor (.reg .r12) (.reg .r12), -- 711: xor r12d, r12d
  .mov (.reg .rdx) (.imm 9#64), -- 712: mov rdx, 9
  .mulx .rax .r8 (.reg .r8), -- 713: mulx rax, r8, r8
  .mulx .rcx .r9 (.reg .r9), -- 714: mulx rcx, r9, r9
  .add (.reg .r9) (.reg .rax), -- 715: add r9, rax
  .mulx .rax .r10 (.reg .r10), -- 716: mulx rax, r10, r10
  .adc (.reg .r10) (.reg .rcx), -- 717: adc r10, rcx
  .mulx .rcx .r11 (.reg .r11), -- 718: mulx rcx, r11, r11
  .adc (.reg .r11) (.reg .rax), -- 719: adc r11, rax
  .adc (.reg .r12) (.reg .rcx), -- 720: adc r12, rcx
  .mov (.reg .rdx) (.imm 12#64), -- 721: mov rdx, 12
  .xor (.reg .rax) (.reg .rax), -- 722: xor eax, eax
  .mulx .rcx .rax (.mem ⟨some .rsp, none, 128#64⟩), -- 723: mulx rcx, rax, [rsp + (32* 4)]
  .adcx .r8 (.reg .rax), -- 724: adcx r8, rax
  .adox .r9 (.reg .rcx), -- 725: adox r9, rcx
  .mulx .rcx .rax (.mem ⟨some .rsp, none, 136#64⟩), -- 726: mulx rcx, rax, [rsp + (32* 4)+ 0x8]
  .adcx .r9 (.reg .rax), -- 727: adcx r9, rax
  .adox .r10 (.reg .rcx), -- 728: adox r10, rcx
  .mulx .rcx .rax (.mem ⟨some .rsp, none, 144#64⟩), -- 729: mulx rcx, rax, [rsp + (32* 4)+ 0x10]
  .adcx .r10 (.reg .rax), -- 730: adcx r10, rax
  .adox .r11 (.reg .rcx), -- 731: adox r11, rcx
  .mulx .rdx .rax (.mem ⟨some .rsp, none, 152#64⟩), -- 732: mulx rdx, rax, [rsp + (32* 4)+ 0x18]
  .adcx .r11 (.reg .rax), -- 733: adcx r11, rax
  .adox .rdx (.reg .r12), -- 734: adox rdx, r12
  .adc (.reg .rdx) (.imm 1#64), -- 735: adc rdx, 1
  .add (.reg .r8) (.reg .rdx), -- 736: add r8, rdx
  .mov (.reg .rax) (.imm 0x100000000#64), -- 737: mov rax, 0x100000000
  .mulx .rcx .rax (.reg .rax), -- 738: mulx rcx, rax, rax
  .sbb (.reg .rax) (.imm 0#64), -- 739: sbb rax, 0x0
  .sbb (.reg .rcx) (.imm 0#64), -- 740: sbb rcx, 0x0
  .sub (.reg .r9) (.reg .rax), -- 741: sub r9, rax
  .sbb (.reg .r10) (.reg .rcx), -- 742: sbb r10, rcx
  .mov (.reg .rax) (.imm 0xffffffff00000001#64), -- 743: mov rax, 0xffffffff00000001
  .mulx .rcx .rax (.reg .rax), -- 744: mulx rcx, rax, rax
  .sbb (.reg .r11) (.reg .rax), -- 745: sbb r11, rax
  .sbb (.reg .rdx) (.reg .rcx), -- 746: sbb rdx, rcx
  .dec (.reg .rdx), -- 747: dec rdx
  .mov (.reg .rax) (.imm 0xffffffff#64), -- 748: mov eax, 0xffffffff
  .and (.reg .rax) (.reg .rdx), -- 749: and rax, rdx
  .xor (.reg .rcx) (.reg .rcx), -- 750: xor ecx, ecx
  .sub (.reg .rcx) (.reg .rax), -- 751: sub rcx, rax
  .add (.reg .r8) (.reg .rdx), -- 752: add r8, rdx
  .mov (.mem ⟨some .rsp, none, 160#64⟩) (.reg .r8), -- 753: mov [rsp + (32* 5)], r8
  .adc (.reg .r9) (.reg .rax), -- 754: adc r9, rax
  .mov (.mem ⟨some .rsp, none, 168#64⟩) (.reg .r9), -- 755: mov [rsp + (32* 5)+ 0x8], r9
  .adc (.reg .r10) (.imm 0#64), -- 756: adc r10, 0x0
  .mov (.mem ⟨some .rsp, none, 176#64⟩) (.reg .r10), -- 757: mov [rsp + (32* 5)+ 0x10], r10
  .adc (.reg .r11) (.reg .rcx), -- 758: adc r11, rcx
  .mov (.mem ⟨some .rsp, none, 184#64⟩) (.reg .r11), -- 759: mov [rsp + (32* 5)+ 0x18], r11
  .mov (.reg .rax) (.mem ⟨some .rsp, none, 64#64⟩), -- 760: mov rax, [rsp + (32* 2)]
  .sub (.reg .rax) (.mem ⟨some .rsp, none, 0#64⟩), -- 761: sub rax, [rsp + (32* 0)]
  .mov (.reg .rcx) (.mem ⟨some .rsp, none, 72#64⟩), -- 762: mov rcx, [rsp + (32* 2)+ 0x8]
  .sbb (.reg .rcx) (.mem ⟨some .rsp, none, 8#64⟩), -- 763: sbb rcx, [rsp + (32* 0)+ 0x8]
  .mov (.reg .r8) (.mem ⟨some .rsp, none, 80#64⟩), -- 764: mov r8, [rsp + (32* 2)+ 0x10]
  .sbb (.reg .r8) (.mem ⟨some .rsp, none, 16#64⟩), -- 765: sbb r8, [rsp + (32* 0)+ 0x10]
  .mov (.reg .r9) (.mem ⟨some .rsp, none, 88#64⟩), -- 766: mov r9, [rsp + (32* 2)+ 0x18]
  .sbb (.reg .r9) (.mem ⟨some .rsp, none, 24#64⟩), -- 767: sbb r9, [rsp + (32* 0)+ 0x18]
  .mov (.reg .r10) (.imm 0xffffffff#64), -- 768: mov r10d, 0xffffffff
  .sbb (.reg .r11) (.reg .r11), -- 769: sbb r11, r11
  .xor (.reg .rdx) (.reg .rdx), -- 770: xor rdx, rdx
  .and (.reg .r10) (.reg .r11), -- 771: and r10, r11
  .sub (.reg .rdx) (.reg .r10), -- 772: sub rdx, r10
  .add (.reg .rax) (.reg .r11), -- 773: add rax, r11
  .mov (.mem ⟨some .rsp, none, 64#64⟩) (.reg .rax), -- 774: mov [rsp + (32* 2)], rax
  .adc (.reg .rcx) (.reg .r10), -- 775: adc rcx, r10
  .mov (.mem ⟨some .rsp, none, 72#64⟩) (.reg .rcx), -- 776: mov [rsp + (32* 2)+ 0x8], rcx
  .adc (.reg .r8) (.imm 0#64), -- 777: adc r8, 0x0
  .mov (.mem ⟨some .rsp, none, 80#64⟩) (.reg .r8), -- 778: mov [rsp + (32* 2)+ 0x10], r8
  .adc (.reg .r9) (.reg .rdx), -- 779: adc r9, rdx
  .mov (.mem ⟨some .rsp, none, 88#64⟩) (.reg .r9), -- 780: mov [rsp + (32* 2)+ 0x18], r9
  .mov (.reg .rdx) (.mem ⟨some .rsp, none, 32#64⟩), -- 781: mov rdx, [rsp + (32* 1)]
  .mulx .r15 .r8 (.reg .rdx), -- 782: mulx r15, r8, rdx
  .mulx .r10 .r9 (.mem ⟨some .rsp, none, 40#64⟩), -- 783: mulx r10, r9, [rsp + (32* 1)+ 0x8]
  .mulx .r12 .r11 (.mem ⟨some .rsp, none, 56#64⟩), -- 784: mulx r12, r11, [rsp + (32* 1)+ 0x18]
  .mov (.reg .rdx) (.mem ⟨some .rsp, none, 48#64⟩), -- 785: mov rdx, [rsp + (32* 1)+ 0x10]
  .mulx .r14 .r13 (.mem ⟨some .rsp, none, 56#64⟩), -- 786: mulx r14, r13, [rsp + (32* 1)+ 0x18]
  .xor (.reg .rbp) (.reg .rbp), -- 787: xor ebp, ebp
  .mulx .rbx .rax (.mem ⟨some .rsp, none, 32#64⟩), -- 788: mulx rbx, rax, [rsp + (32* 1)]
  .adcx .r10 (.reg .rax), -- 789: adcx r10, rax
  .adox .r11 (.reg .rbx), -- 790: adox r11, rbx
  .mulx .rbx .rax (.mem ⟨some .rsp, none, 40#64⟩), -- 791: mulx rbx, rax, [rsp + (32* 1)+ 0x8]
  .adcx .r11 (.reg .rax), -- 792: adcx r11, rax
  .adox .r12 (.reg .rbx), -- 793: adox r12, rbx
  .mov (.reg .rdx) (.mem ⟨some .rsp, none, 56#64⟩), -- 794: mov rdx, [rsp + (32* 1)+ 0x18]
  .mulx .rbx .rax (.mem ⟨some .rsp, none, 40#64⟩), -- 795: mulx rbx, rax, [rsp + (32* 1)+ 0x8]
  .adcx .r12 (.reg .rax), -- 796: adcx r12, rax
  .adox .r13 (.reg .rbx), -- 797: adox r13, rbx
  .adcx .r13 (.reg .rbp), -- 798: adcx r13, rbp
  .adox .r14 (.reg .rbp), -- 799: adox r14, rbp
  .adc (.reg .r14) (.reg .rbp), -- 800: adc r14, rbp
  .xor (.reg .rbp) (.reg .rbp), -- 801: xor ebp, ebp
  .adcx .r9 (.reg .r9), -- 802: adcx r9, r9
  .adox .r9 (.reg .r15), -- 803: adox r9, r15
  .mov (.reg .rdx) (.mem ⟨some .rsp, none, 40#64⟩), -- 804: mov rdx, [rsp + (32* 1)+ 0x8]
  .mulx .rdx .rax (.reg .rdx), -- 805: mulx rdx, rax, rdx
  .adcx .r10 (.reg .r10), -- 806: adcx r10, r10
  .adox .r10 (.reg .rax), -- 807: adox r10, rax
  .adcx .r11 (.reg .r11), -- 808: adcx r11, r11
  .adox .r11 (.reg .rdx), -- 809: adox r11, rdx
  .mov (.reg .rdx) (.mem ⟨some .rsp, none, 48#64⟩), -- 810: mov rdx, [rsp + (32* 1)+ 0x10]
  .mulx .rdx .rax (.reg .rdx), -- 811: mulx rdx, rax, rdx
  .adcx .r12 (.reg .r12), -- 812: adcx r12, r12
  .adox .r12 (.reg .rax), -- 813: adox r12, rax
  .adcx .r13 (.reg .r13), -- 814: adcx r13, r13
  .adox .r13 (.reg .rdx), -- 815: adox r13, rdx
  .mov (.reg .rdx) (.mem ⟨some .rsp, none, 56#64⟩), -- 816: mov rdx, [rsp + (32* 1)+ 0x18]
  .mulx .r15 .rax (.reg .rdx), -- 817: mulx r15, rax, rdx
  .adcx .r14 (.reg .r14), -- 818: adcx r14, r14
  .adox .r14 (.reg .rax), -- 819: adox r14, rax
  .adcx .r15 (.reg .rbp), -- 820: adcx r15, rbp
  .adox .r15 (.reg .rbp), -- 821: adox r15, rbp
  .xor (.reg .rbp) (.reg .rbp), -- 822: xor ebp, ebp
  .mov (.reg .rdx) (.imm 0x100000000#64), -- 823: movabs rdx, 0x100000000
  .mulx .rbx .rax (.reg .r8), -- 824: mulx rbx, rax, r8
  .adcx .r9 (.reg .rax), -- 825: adcx r9, rax
  .adox .r10 (.reg .rbx), -- 826: adox r10, rbx
  .mulx .rbx .rax (.reg .r9), -- 827: mulx rbx, rax, r9
  .adcx .r10 (.reg .rax), -- 828: adcx r10, rax
  .adox .r11 (.reg .rbx), -- 829: adox r11, rbx
  .mov (.reg .rdx) (.imm 0xffffffff00000001#64), -- 830: movabs rdx, 0xffffffff00000001
  .mulx .rbx .rax (.reg .r8), -- 831: mulx rbx, rax, r8
  .adcx .r11 (.reg .rax), -- 832: adcx r11, rax
  .adox .r12 (.reg .rbx), -- 833: adox r12, rbx
  .mulx .rbx .rax (.reg .r9), -- 834: mulx rbx, rax, r9
  .adcx .r12 (.reg .rax), -- 835: adcx r12, rax
  .adox .r13 (.reg .rbx), -- 836: adox r13, rbx
  .adcx .r13 (.reg .rbp), -- 837: adcx r13, rbp
  .mov32 .r9 .rbp, -- 838: mov r9d, ebp
  .adox .r9 (.reg .rbp), -- 839: adox r9, rbp
  .adcx .r9 (.reg .rbp), -- 840: adcx r9, rbp
  .add (.reg .r14) (.reg .r9), -- 841: add r14, r9
  .adc (.reg .r15) (.reg .rbp), -- 842: adc r15, rbp
  .mov32 .r8 .rbp, -- 843: mov r8d, ebp
  .adc (.reg .r8) (.reg .rbp), -- 844: adc r8, rbp
  .xor (.reg .rbp) (.reg .rbp), -- 845: xor ebp, ebp
  .mov (.reg .rdx) (.imm 0x100000000#64), -- 846: movabs rdx, 0x100000000
  .mulx .rbx .rax (.reg .r10), -- 847: mulx rbx, rax, r10
  .adcx .r11 (.reg .rax), -- 848: adcx r11, rax
  .adox .r12 (.reg .rbx), -- 849: adox r12, rbx
  .mulx .rbx .rax (.reg .r11), -- 850: mulx rbx, rax, r11
  .adcx .r12 (.reg .rax), -- 851: adcx r12, rax
  .adox .r13 (.reg .rbx), -- 852: adox r13, rbx
  .mov (.reg .rdx) (.imm 0xffffffff00000001#64), -- 853: movabs rdx, 0xffffffff00000001
  .mulx .rbx .rax (.reg .r10), -- 854: mulx rbx, rax, r10
  .adcx .r13 (.reg .rax), -- 855: adcx r13, rax
  .adox .r14 (.reg .rbx), -- 856: adox r14, rbx
  .mulx .rbx .rax (.reg .r11), -- 857: mulx rbx, rax, r11
  .adcx .r14 (.reg .rax), -- 858: adcx r14, rax
  .adox .r15 (.reg .rbx), -- 859: adox r15, rbx
  .adcx .r15 (.reg .rbp), -- 860: adcx r15, rbp
  .adox .r8 (.reg .rbp), -- 861: adox r8, rbp
  .adc (.reg .r8) (.reg .rbp), -- 862: adc r8, rbp
  .mov (.reg .rcx) (.imm 1#64), -- 863: mov ecx, 0x1
  .add (.reg .rcx) (.reg .r12), -- 864: add rcx, r12
  .lea .rdx ⟨some .rdx, none, 0xffffffffffffffff#64⟩, -- 865: lea rdx, [rdx -0x1]
  .adc (.reg .rdx) (.reg .r13), -- 866: adc rdx, r13
  .lea .rbp ⟨some .rbp, none, 0xffffffffffffffff#64⟩, -- 867: lea rbp, [rbp -0x1]
  .mov (.reg .rax) (.reg .rbp), -- 868: mov rax, rbp
  .adc (.reg .rbp) (.reg .r14), -- 869: adc rbp, r14
  .mov (.reg .r11) (.imm 0xfffffffe#64), -- 870: mov r11d, 0xfffffffe
  .adc (.reg .r11) (.reg .r15), -- 871: adc r11, r15
  .adc (.reg .rax) (.reg .r8), -- 872: adc rax, r8
  .cmov .cy .r12 (.reg .rcx), -- 873: cmovb r12, rcx
  .cmov .cy .r13 (.reg .rdx), -- 874: cmovb r13, rdx
  .cmov .cy .r14 (.reg .rbp), -- 875: cmovb r14, rbp
  .cmov .cy .r15 (.reg .r11), -- 876: cmovb r15, r11
  .mov (.mem ⟨some .rsp, none, 0#64⟩) (.reg .r12), -- 877: mov [rsp + (32* 0)], r12
  .mov (.mem ⟨some .rsp, none, 8#64⟩) (.reg .r13), -- 878: mov [rsp + (32* 0)+ 0x8], r13
  .mov (.mem ⟨some .rsp, none, 16#64⟩) (.reg .r14), -- 879: mov [rsp + (32* 0)+ 0x10], r14
  .mov (.mem ⟨some .rsp, none, 24#64⟩) (.reg .r15), -- 880: mov [rsp + (32* 0)+ 0x18], r15
  .xor (.reg .r13) (.reg .r13), -- 881: xor r13d, r13d
  .mov (.reg .rdx) (.mem ⟨some .rsp, none, 96#64⟩), -- 882: mov rdx, [rsp + (32* 3)]
  .mulx .r9 .r8 (.mem ⟨some .rsp, none, 160#64⟩), -- 883: mulx r9, r8, [rsp + (32* 5)]
  .mulx .r10 .rbx (.mem ⟨some .rsp, none, 168#64⟩), -- 884: mulx r10, rbx, [rsp + (32* 5)+ 0x8]
  .adc (.reg .r9) (.reg .rbx), -- 885: adc r9, rbx
  .mulx .r11 .rbx (.mem ⟨some .rsp, none, 176#64⟩), -- 886: mulx r11, rbx, [rsp + (32* 5)+ 0x10]
  .adc (.reg .r10) (.reg .rbx), -- 887: adc r10, rbx
  .mulx .r12 .rbx (.mem ⟨some .rsp, none, 184#64⟩), -- 888: mulx r12, rbx, [rsp + (32* 5)+ 0x18]
  .adc (.reg .r11) (.reg .rbx), -- 889: adc r11, rbx
  .adc (.reg .r12) (.reg .r13), -- 890: adc r12, r13
  .mov (.reg .rdx) (.mem ⟨some .rsp, none, 104#64⟩), -- 891: mov rdx, [rsp + (32* 3)+ 0x8]
  .xor (.reg .r14) (.reg .r14), -- 892: xor r14d, r14d
  .mulx .rbx .rax (.mem ⟨some .rsp, none, 160#64⟩), -- 893: mulx rbx, rax, [rsp + (32* 5)]
  .adcx .r9 (.reg .rax), -- 894: adcx r9, rax
  .adox .r10 (.reg .rbx), -- 895: adox r10, rbx
  .mulx .rbx .rax (.mem ⟨some .rsp, none, 168#64⟩), -- 896: mulx rbx, rax, [rsp + (32* 5)+ 0x8]
  .adcx .r10 (.reg .rax), -- 897: adcx r10, rax
  .adox .r11 (.reg .rbx), -- 898: adox r11, rbx
  .mulx .rbx .rax (.mem ⟨some .rsp, none, 176#64⟩), -- 899: mulx rbx, rax, [rsp + (32* 5)+ 0x10]
  .adcx .r11 (.reg .rax), -- 900: adcx r11, rax
  .adox .r12 (.reg .rbx), -- 901: adox r12, rbx
  .mulx .rbx .rax (.mem ⟨some .rsp, none, 184#64⟩), -- 902: mulx rbx, rax, [rsp + (32* 5)+ 0x18]
  .adcx .r12 (.reg .rax), -- 903: adcx r12, rax
  .adox .r13 (.reg .rbx), -- 904: adox r13, rbx
  .adc (.reg .r13) (.reg .r14), -- 905: adc r13, r14
  .xor (.reg .r15) (.reg .r15), -- 906: xor r15d, r15d
  .mov (.reg .rdx) (.imm 0x100000000#64), -- 907: movabs rdx, 0x100000000
  .mulx .rbx .rax (.reg .r8), -- 908: mulx rbx, rax, r8
  .adcx .r9 (.reg .rax), -- 909: adcx r9, rax
  .adox .r10 (.reg .rbx), -- 910: adox r10, rbx
  .mulx .rbx .rax (.reg .r9), -- 911: mulx rbx, rax, r9
  .adcx .r10 (.reg .rax), -- 912: adcx r10, rax
  .adox .r11 (.reg .rbx), -- 913: adox r11, rbx
  .not (.reg .rdx), -- 914: not rdx
  .lea .rdx ⟨some .rdx, none, 2#64⟩, -- 915: lea rdx, [rdx + 0x2]
  .mulx .rbx .rax (.reg .r8), -- 916: mulx rbx, rax, r8
  .adcx .r11 (.reg .rax), -- 917: adcx r11, rax
  .adox .r12 (.reg .rbx), -- 918: adox r12, rbx
  .mulx .rbx .rax (.reg .r9), -- 919: mulx rbx, rax, r9
  .adcx .r12 (.reg .rax), -- 920: adcx r12, rax
  .adox .r13 (.reg .rbx), -- 921: adox r13, rbx
  .adcx .r13 (.reg .r15), -- 922: adcx r13, r15
  .adox .r14 (.reg .r15), -- 923: adox r14, r15
  .adc (.reg .r14) (.reg .r15), -- 924: adc r14, r15
  .mov (.reg .rdx) (.mem ⟨some .rsp, none, 112#64⟩), -- 925: mov rdx, [rsp + (32* 3)+ 0x10]
  .xor (.reg .r8) (.reg .r8), -- 926: xor r8d, r8d
  .mulx .rbx .rax (.mem ⟨some .rsp, none, 160#64⟩), -- 927: mulx rbx, rax, [rsp + (32* 5)]
  .adcx .r10 (.reg .rax), -- 928: adcx r10, rax
  .adox .r11 (.reg .rbx), -- 929: adox r11, rbx
  .mulx .rbx .rax (.mem ⟨some .rsp, none, 168#64⟩), -- 930: mulx rbx, rax, [rsp + (32* 5)+ 0x8]
  .adcx .r11 (.reg .rax), -- 931: adcx r11, rax
  .adox .r12 (.reg .rbx), -- 932: adox r12, rbx
  .mulx .rbx .rax (.mem ⟨some .rsp, none, 176#64⟩), -- 933: mulx rbx, rax, [rsp + (32* 5)+ 0x10]
  .adcx .r12 (.reg .rax), -- 934: adcx r12, rax
  .adox .r13 (.reg .rbx), -- 935: adox r13, rbx
  .adox .r14 (.reg .r8), -- 936: adox r14, r8
  .mulx .rbx .rax (.mem ⟨some .rsp, none, 184#64⟩), -- 937: mulx rbx, rax, [rsp + (32* 5)+ 0x18]
  .adc (.reg .r13) (.reg .rax), -- 938: adc r13, rax
  .adc (.reg .r14) (.reg .rbx), -- 939: adc r14, rbx
  .adc (.reg .r15) (.reg .r8), -- 940: adc r15, r8
  .mov (.reg .rdx) (.mem ⟨some .rsp, none, 120#64⟩), -- 941: mov rdx, [rsp + (32* 3)+ 0x18]
  .xor (.reg .r9) (.reg .r9), -- 942: xor r9d, r9d
  .mulx .rbx .rax (.mem ⟨some .rsp, none, 160#64⟩), -- 943: mulx rbx, rax, [rsp + (32* 5)]
  .adcx .r11 (.reg .rax), -- 944: adcx r11, rax
  .adox .r12 (.reg .rbx), -- 945: adox r12, rbx
  .mulx .rbx .rax (.mem ⟨some .rsp, none, 168#64⟩), -- 946: mulx rbx, rax, [rsp + (32* 5)+ 0x8]
  .adcx .r12 (.reg .rax), -- 947: adcx r12, rax
  .adox .r13 (.reg .rbx), -- 948: adox r13, rbx
  .mulx .rbx .rax (.mem ⟨some .rsp, none, 176#64⟩), -- 949: mulx rbx, rax, [rsp + (32* 5)+ 0x10]
  .adcx .r13 (.reg .rax), -- 950: adcx r13, rax
  .adox .r14 (.reg .rbx), -- 951: adox r14, rbx
  .adox .r15 (.reg .r9), -- 952: adox r15, r9
  .mulx .rbx .rax (.mem ⟨some .rsp, none, 184#64⟩), -- 953: mulx rbx, rax, [rsp + (32* 5)+ 0x18]
  .adc (.reg .r14) (.reg .rax), -- 954: adc r14, rax
  .adc (.reg .r15) (.reg .rbx), -- 955: adc r15, rbx
  .adc (.reg .r8) (.reg .r9), -- 956: adc r8, r9
  .xor (.reg .r9) (.reg .r9), -- 957: xor r9d, r9d
  .mov (.reg .rdx) (.imm 0x100000000#64), -- 958: movabs rdx, 0x100000000
  .mulx .rbx .rax (.reg .r10), -- 959: mulx rbx, rax, r10
  .adcx .r11 (.reg .rax), -- 960: adcx r11, rax
  .adox .r12 (.reg .rbx), -- 961: adox r12, rbx
  .mulx .rbx .rax (.reg .r11), -- 962: mulx rbx, rax, r11
  .adcx .r12 (.reg .rax), -- 963: adcx r12, rax
  .adox .r13 (.reg .rbx), -- 964: adox r13, rbx
  .not (.reg .rdx), -- 965: not rdx
  .lea .rdx ⟨some .rdx, none, 2#64⟩, -- 966: lea rdx, [rdx + 0x2]
  .mulx .rbx .rax (.reg .r10), -- 967: mulx rbx, rax, r10
  .adcx .r13 (.reg .rax), -- 968: adcx r13, rax
  .adox .r14 (.reg .rbx), -- 969: adox r14, rbx
  .mulx .rbx .rax (.reg .r11), -- 970: mulx rbx, rax, r11
  .adcx .r14 (.reg .rax), -- 971: adcx r14, rax
  .adox .r15 (.reg .rbx), -- 972: adox r15, rbx
  .adcx .r15 (.reg .r9), -- 973: adcx r15, r9
  .adox .r8 (.reg .r9), -- 974: adox r8, r9
  .adc (.reg .r8) (.reg .r9), -- 975: adc r8, r9
  .mov (.reg .rcx) (.imm 1#64), -- 976: mov ecx, 0x1
  .add (.reg .rcx) (.reg .r12), -- 977: add rcx, r12
  .dec (.reg .rdx), -- 978: dec rdx
  .adc (.reg .rdx) (.reg .r13), -- 979: adc rdx, r13
  .dec (.reg .r9), -- 980: dec r9
  .mov (.reg .rax) (.reg .r9), -- 981: mov rax, r9
  .adc (.reg .r9) (.reg .r14), -- 982: adc r9, r14
  .mov (.reg .r11) (.imm 0xfffffffe#64), -- 983: mov r11d, 0xfffffffe
  .adc (.reg .r11) (.reg .r15), -- 984: adc r11, r15
  .adc (.reg .rax) (.reg .r8), -- 985: adc rax, r8
  .cmov .cy .r12 (.reg .rcx), -- 986: cmovb r12, rcx
  .cmov .cy .r13 (.reg .rdx), -- 987: cmovb r13, rdx
  .cmov .cy .r14 (.reg .r9), -- 988: cmovb r14, r9
  .cmov .cy .r15 (.reg .r11), -- 989: cmovb r15, r11
  .mov (.mem ⟨some .rsp, none, 96#64⟩) (.reg .r12), -- 990: mov [rsp + (32* 3)], r12
  .mov (.mem ⟨some .rsp, none, 104#64⟩) (.reg .r13), -- 991: mov [rsp + (32* 3)+ 0x8], r13
  .mov (.mem ⟨some .rsp, none, 112#64⟩) (.reg .r14), -- 992: mov [rsp + (32* 3)+ 0x10], r14
  .mov (.mem ⟨some .rsp, none, 120#64⟩) (.reg .r15), -- 993: mov [rsp + (32* 3)+ 0x18], r15
  .mov (.reg .rax) (.mem ⟨some .rsp, none, 64#64⟩), -- 994: mov rax, [rsp + (32* 2)]
  .sub (.reg .rax) (.mem ⟨some .rsp, none, 32#64⟩), -- 995: sub rax, [rsp + (32* 1)]
  .mov (.reg .rcx) (.mem ⟨some .rsp, none, 72#64⟩), -- 996: mov rcx, [rsp + (32* 2)+ 0x8]
  .sbb (.reg .rcx) (.mem ⟨some .rsp, none, 40#64⟩), -- 997: sbb rcx, [rsp + (32* 1)+ 0x8]
  .mov (.reg .r8) (.mem ⟨some .rsp, none, 80#64⟩), -- 998: mov r8, [rsp + (32* 2)+ 0x10]
  .sbb (.reg .r8) (.mem ⟨some .rsp, none, 48#64⟩), -- 999: sbb r8, [rsp + (32* 1)+ 0x10]
  .mov (.reg .r9) (.mem ⟨some .rsp, none, 88#64⟩), -- 1000: mov r9, [rsp + (32* 2)+ 0x18]
  .sbb (.reg .r9) (.mem ⟨some .rsp, none, 56#64⟩), -- 1001: sbb r9, [rsp + (32* 1)+ 0x18]
  .mov (.reg .r10) (.imm 0xffffffff#64), -- 1002: mov r10d, 0xffffffff
  .sbb (.reg .r11) (.reg .r11), -- 1003: sbb r11, r11
  .xor (.reg .rdx) (.reg .rdx), -- 1004: xor rdx, rdx
  .and (.reg .r10) (.reg .r11), -- 1005: and r10, r11
  .sub (.reg .rdx) (.reg .r10), -- 1006: sub rdx, r10
  .add (.reg .rax) (.reg .r11), -- 1007: add rax, r11
  .mov (.mem ⟨some .rdi, none, 64#64⟩) (.reg .rax), -- 1008: mov [rdi + (2 * 32)], rax
  .adc (.reg .rcx) (.reg .r10), -- 1009: adc rcx, r10
  .mov (.mem ⟨some .rdi, none, 72#64⟩) (.reg .rcx), -- 1010: mov [rdi + (2 * 32)+ 0x8], rcx
  .adc (.reg .r8) (.imm 0#64), -- 1011: adc r8, 0x0
  .mov (.mem ⟨some .rdi, none, 80#64⟩) (.reg .r8), -- 1012: mov [rdi + (2 * 32)+ 0x10], r8
  .adc (.reg .r9) (.reg .rdx), -- 1013: adc r9, rdx
  .mov (.mem ⟨some .rdi, none, 88#64⟩) (.reg .r9), -- 1014: mov [rdi + (2 * 32)+ 0x18], r9
  .mov (.reg .r11) (.mem ⟨some .rsp, none, 152#64⟩), -- 1015: mov r11, [rsp + (32* 4)+ 0x18]
  .mov (.reg .rdx) (.reg .r11), -- 1016: mov rdx, r11
  .mov (.reg .r10) (.mem ⟨some .rsp, none, 144#64⟩), -- 1017: mov r10, [rsp + (32* 4)+ 0x10]
  .shld (.reg .r11) .r10 (.imm 2#64), -- 1018: shld r11, r10, 2
  .mov (.reg .r9) (.mem ⟨some .rsp, none, 136#64⟩), -- 1019: mov r9, [rsp + (32* 4)+ 0x8]
  .shld (.reg .r10) .r9 (.imm 2#64), -- 1020: shld r10, r9, 2
  .mov (.reg .r8) (.mem ⟨some .rsp, none, 128#64⟩), -- 1021: mov r8, [rsp + (32* 4)]
  .shld (.reg .r9) .r8 (.imm 2#64), -- 1022: shld r9, r8, 2
  .shl (.reg .r8) (.imm 2#64), -- 1023: shl r8, 2
  .shr (.reg .rdx) (.imm 62#64), -- 1024: shr rdx, 62
  .add (.reg .rdx) (.imm 1#64), -- 1025: add rdx, 1
  .sub (.reg .r8) (.mem ⟨some .rsp, none, 160#64⟩), -- 1026: sub r8, [rsp + (32* 5)]
  .sbb (.reg .r9) (.mem ⟨some .rsp, none, 168#64⟩), -- 1027: sbb r9, [rsp + (32* 5)+ 0x8]
  .sbb (.reg .r10) (.mem ⟨some .rsp, none, 176#64⟩), -- 1028: sbb r10, [rsp + (32* 5)+ 0x10]
  .sbb (.reg .r11) (.mem ⟨some .rsp, none, 184#64⟩), -- 1029: sbb r11, [rsp + (32* 5)+ 0x18]
  .sbb (.reg .rdx) (.imm 0#64), -- 1030: sbb rdx, 0
  .add (.reg .r8) (.reg .rdx), -- 1031: add r8, rdx
  .mov (.reg .rax) (.imm 0x100000000#64), -- 1032: mov rax, 0x100000000
  .mulx .rcx .rax (.reg .rax), -- 1033: mulx rcx, rax, rax
  .sbb (.reg .rax) (.imm 0#64), -- 1034: sbb rax, 0x0
  .sbb (.reg .rcx) (.imm 0#64), -- 1035: sbb rcx, 0x0
  .sub (.reg .r9) (.reg .rax), -- 1036: sub r9, rax
  .sbb (.reg .r10) (.reg .rcx), -- 1037: sbb r10, rcx
  .mov (.reg .rax) (.imm 0xffffffff00000001#64), -- 1038: mov rax, 0xffffffff00000001
  .mulx .rcx .rax (.reg .rax), -- 1039: mulx rcx, rax, rax
  .sbb (.reg .r11) (.reg .rax), -- 1040: sbb r11, rax
  .sbb (.reg .rdx) (.reg .rcx), -- 1041: sbb rdx, rcx
  .dec (.reg .rdx), -- 1042: dec rdx
  .mov (.reg .rax) (.imm 0xffffffff#64), -- 1043: mov eax, 0xffffffff
  .and (.reg .rax) (.reg .rdx), -- 1044: and rax, rdx
  .xor (.reg .rcx) (.reg .rcx), -- 1045: xor ecx, ecx
  .sub (.reg .rcx) (.reg .rax), -- 1046: sub rcx, rax
  .add (.reg .r8) (.reg .rdx), -- 1047: add r8, rdx
  .mov (.mem ⟨some .rdi, none, 0#64⟩) (.reg .r8), -- 1048: mov [rdi + 0], r8
  .adc (.reg .r9) (.reg .rax), -- 1049: adc r9, rax
  .mov (.mem ⟨some .rdi, none, 8#64⟩) (.reg .r9), -- 1050: mov [rdi + 0+ 0x8], r9
  .adc (.reg .r10) (.imm 0#64), -- 1051: adc r10, 0x0
  .mov (.mem ⟨some .rdi, none, 16#64⟩) (.reg .r10), -- 1052: mov [rdi + 0+ 0x10], r10
  .adc (.reg .r11) (.reg .rcx), -- 1053: adc r11, rcx
  .mov (.mem ⟨some .rdi, none, 24#64⟩) (.reg .r11), -- 1054: mov [rdi + 0+ 0x18], r11
  .mov (.reg .r8) (.imm 0xffffffffffffffff#64), -- 1055: mov r8, 0xffffffffffffffff
  .xor (.reg .r10) (.reg .r10), -- 1056: xor r10d, r10d
  .sub (.reg .r8) (.mem ⟨some .rsp, none, 0#64⟩), -- 1057: sub r8, [rsp + (32* 0)]
  .mov (.reg .r9) (.imm 0xffffffff#64), -- 1058: mov r9, 0x00000000ffffffff
  .sbb (.reg .r9) (.mem ⟨some .rsp, none, 8#64⟩), -- 1059: sbb r9, [rsp + (32* 0)+ 0x8]
  .sbb (.reg .r10) (.mem ⟨some .rsp, none, 16#64⟩), -- 1060: sbb r10, [rsp + (32* 0)+ 0x10]
  .mov (.reg .r11) (.imm 0xffffffff00000001#64), -- 1061: mov r11, 0xffffffff00000001
  .sbb (.reg .r11) (.mem ⟨some .rsp, none, 24#64⟩), -- 1062: sbb r11, [rsp + (32* 0)+ 0x18]
  .mov (.reg .r12) (.reg .r11), -- 1063: mov r12, r11
  .shld (.reg .r11) .r10 (.imm 3#64), -- 1064: shld r11, r10, 3
  .shld (.reg .r10) .r9 (.imm 3#64), -- 1065: shld r10, r9, 3
  .shld (.reg .r9) .r8 (.imm 3#64), -- 1066: shld r9, r8, 3
  .shl (.reg .r8) (.imm 3#64), -- 1067: shl r8, 3
  .shr (.reg .r12) (.imm 61#64), -- 1068: shr r12, 61
  .mov (.reg .rdx) (.imm 3#64), -- 1069: mov rdx, 3
  .xor (.reg .rax) (.reg .rax), -- 1070: xor eax, eax
  .mulx .rcx .rax (.mem ⟨some .rsp, none, 96#64⟩), -- 1071: mulx rcx, rax, [rsp + (32* 3)]
  .adcx .r8 (.reg .rax), -- 1072: adcx r8, rax
  .adox .r9 (.reg .rcx), -- 1073: adox r9, rcx
  .mulx .rcx .rax (.mem ⟨some .rsp, none, 104#64⟩), -- 1074: mulx rcx, rax, [rsp + (32* 3)+ 0x8]
  .adcx .r9 (.reg .rax), -- 1075: adcx r9, rax
  .adox .r10 (.reg .rcx), -- 1076: adox r10, rcx
  .mulx .rcx .rax (.mem ⟨some .rsp, none, 112#64⟩), -- 1077: mulx rcx, rax, [rsp + (32* 3)+ 0x10]
  .adcx .r10 (.reg .rax), -- 1078: adcx r10, rax
  .adox .r11 (.reg .rcx), -- 1079: adox r11, rcx
  .mulx .rdx .rax (.mem ⟨some .rsp, none, 120#64⟩), -- 1080: mulx rdx, rax, [rsp + (32* 3)+ 0x18]
  .adcx .r11 (.reg .rax), -- 1081: adcx r11, rax
  .adox .rdx (.reg .r12), -- 1082: adox rdx, r12
  .adc (.reg .rdx) (.imm 1#64), -- 1083: adc rdx, 1
  .add (.reg .r8) (.reg .rdx), -- 1084: add r8, rdx
  .mov (.reg .rax) (.imm 0x100000000#64), -- 1085: mov rax, 0x100000000
  .mulx .rcx .rax (.reg .rax), -- 1086: mulx rcx, rax, rax
  .sbb (.reg .rax) (.imm 0#64), -- 1087: sbb rax, 0x0
  .sbb (.reg .rcx) (.imm 0#64), -- 1088: sbb rcx, 0x0
  .sub (.reg .r9) (.reg .rax), -- 1089: sub r9, rax
  .sbb (.reg .r10) (.reg .rcx), -- 1090: sbb r10, rcx
  .mov (.reg .rax) (.imm 0xffffffff00000001#64), -- 1091: mov rax, 0xffffffff00000001
  .mulx .rcx .rax (.reg .rax), -- 1092: mulx rcx, rax, rax
  .sbb (.reg .r11) (.reg .rax), -- 1093: sbb r11, rax
  .sbb (.reg .rdx) (.reg .rcx), -- 1094: sbb rdx, rcx
  .dec (.reg .rdx), -- 1095: dec rdx
  .mov (.reg .rax) (.imm 0xffffffff#64), -- 1096: mov eax, 0xffffffff
  .and (.reg .rax) (.reg .rdx), -- 1097: and rax, rdx
  .xor (.reg .rcx) (.reg .rcx), -- 1098: xor ecx, ecx
  .sub (.reg .rcx) (.reg .rax), -- 1099: sub rcx, rax
  .add (.reg .r8) (.reg .rdx), -- 1100: add r8, rdx
  .mov (.mem ⟨some .rdi, none, 32#64⟩) (.reg .r8), -- 1101: mov [rdi + 32], r8
  .adc (.reg .r9) (.reg .rax), -- 1102: adc r9, rax
  .mov (.mem ⟨some .rdi, none, 40#64⟩) (.reg .r9), -- 1103: mov [rdi + 32+ 0x8], r9
  .adc (.reg .r10) (.imm 0#64), -- 1104: adc r10, 0x0
  .mov (.mem ⟨some .rdi, none, 48#64⟩) (.reg .r10), -- 1105: mov [rdi + 32+ 0x10], r10
  .adc (.reg .r11) (.reg .rcx), -- 1106: adc r11, rcx
  .mov (.mem ⟨some .rdi, none, 56#64⟩) (.reg .r11), -- 1107: mov [rdi + 32+ 0x18], r11
  .add (.reg .rsp) (.imm 192#64), -- 1108: add rsp, 32* 6
  .pop .r15, -- 1109: pop r15
  .pop .r14, -- 1110: pop r14
  .pop .r13, -- 1111: pop r13
  .pop .r12, -- 1112: pop r12
  .pop .rbp, -- 1113: pop rbp
  .pop .rbx] -- 1114: pop rbx

/-- The registers that the operands of p256_montjdouble.rs:581-672 say may change. -/
def p256MontjdoubleRegs : List Reg := [.rdi, .rsi, .r10, .r11, .r12, .r13, .r14, .r15, .r8, .r9, .rax, .rcx, .rdx]

/-- low/x86_64/p256_montjmixadd.rs:509-611.  Operands: inout("rdi") p3.as_mut_ptr() => _; inout("rsi") p1.as_ptr() => _; inout("rdx") p2.as_ptr() => _; out("r10") _; out("r11") _; out("r12") _; out("r13") _; out("r14") _; out("r15") _; out("r8") _; out("r9") _; out("rax") _; out("rcx") _. -/
def p256Montjmixadd : Prog := [
  .nop, -- 0: endbr64
  .push .rbx, -- 1: push rbx
  .push .rbp, -- 2: push rbp
  .push .r12, -- 3: push r12
  .push .r13, -- 4: push r13
  .push .r14, -- 5: push r14
  .push .r15, -- 6: push r15
  .sub (.reg .rsp) (.imm 192#64), -- 7: sub rsp, 32* 6
  .mov (.reg .rbp) (.reg .rdx), -- 8: mov rbp, rdx
  .mov (.reg .rdx) (.mem ⟨some .rsi, none, 64#64⟩), -- 9: mov rdx, [rsi + (2 * 32)]
  .mulx .r15 .r8 (.reg .rdx), -- 10: mulx r15, r8, rdx
  .mulx .r10 .r9 (.mem ⟨some .rsi, none, 72#64⟩), -- 11: mulx r10, r9, [rsi + (2 * 32)+ 0x8]
  .mulx .r12 .r11 (.mem ⟨some .rsi, none, 88#64⟩), -- 12: mulx r12, r11, [rsi + (2 * 32)+ 0x18]
  .mov (.reg .rdx) (.mem ⟨some .rsi, none, 80#64⟩), -- 13: mov rdx, [rsi + (2 * 32)+ 0x10]
  .mulx .r14 .r13 (.mem ⟨some .rsi, none, 88#64⟩), -- 14: mulx r14, r13, [rsi + (2 * 32)+ 0x18]
  .xor (.reg .rcx) (.reg .rcx), -- 15: xor ecx, ecx
  .mulx .rbx .rax (.mem ⟨some .rsi, none, 64#64⟩), -- 16: mulx rbx, rax, [rsi + (2 * 32)]
  .adcx .r10 (.reg .rax), -- 17: adcx r10, rax
  .adox .r11 (.reg .rbx), -- 18: adox r11, rbx
  .mulx .rbx .rax (.mem ⟨some .rsi, none, 72#64⟩), -- 19: mulx rbx, rax, [rsi + (2 * 32)+ 0x8]
  .adcx .r11 (.reg .rax), -- 20: adcx r11, rax
  .adox .r12 (.reg .rbx), -- 21: adox r12, rbx
  .mov (.reg .rdx) (.mem ⟨some .rsi, none, 88#64⟩), -- 22: mov rdx, [rsi + (2 * 32)+ 0x18]
  .mulx .rbx .rax (.mem ⟨some .rsi, none, 72#64⟩), -- 23: mulx rbx, rax, [rsi + (2 * 32)+ 0x8]
  .adcx .r12 (.reg .rax), -- 24: adcx r12, rax
  .adox .r13 (.reg .rbx), -- 25: adox r13, rbx
  .adcx .r13 (.reg .rcx), -- 26: adcx r13, rcx
  .adox .r14 (.reg .rcx), -- 27: adox r14, rcx
  .adc (.reg .r14) (.reg .rcx), -- 28: adc r14, rcx
  .xor (.reg .rcx) (.reg .rcx), -- 29: xor ecx, ecx
  .adcx .r9 (.reg .r9), -- 30: adcx r9, r9
  .adox .r9 (.reg .r15), -- 31: adox r9, r15
  .mov (.reg .rdx) (.mem ⟨some .rsi, none, 72#64⟩), -- 32: mov rdx, [rsi + (2 * 32)+ 0x8]
  .mulx .rdx .rax (.reg .rdx), -- 33: mulx rdx, rax, rdx
  .adcx .r10 (.reg .r10), -- 34: adcx r10, r10
  .adox .r10 (.reg .rax), -- 35: adox r10, rax
  .adcx .r11 (.reg .r11), -- 36: adcx r11, r11
  .adox .r11 (.reg .rdx), -- 37: adox r11, rdx
  .mov (.reg .rdx) (.mem ⟨some .rsi, none, 80#64⟩), -- 38: mov rdx, [rsi + (2 * 32)+ 0x10]
  .mulx .rdx .rax (.reg .rdx), -- 39: mulx rdx, rax, rdx
  .adcx .r12 (.reg .r12), -- 40: adcx r12, r12
  .adox .r12 (.reg .rax), -- 41: adox r12, rax
  .adcx .r13 (.reg .r13), -- 42: adcx r13, r13
  .adox .r13 (.reg .rdx), -- 43: adox r13, rdx
  .mov (.reg .rdx) (.mem ⟨some .rsi, none, 88#64⟩), -- 44: mov rdx, [rsi + (2 * 32)+ 0x18]
  .mulx .r15 .rax (.reg .rdx), -- 45: mulx r15, rax, rdx
  .adcx .r14 (.reg .r14), -- 46: adcx r14, r14
  .adox .r14 (.reg .rax), -- 47: adox r14, rax
  .adcx .r15 (.reg .rcx), -- 48: adcx r15, rcx
  .adox .r15 (.reg .rcx), -- 49: adox r15, rcx
  .xor (.reg .rcx) (.reg .rcx), -- 50: xor ecx, ecx
  .mov (.reg .rdx) (.imm 0x100000000#64), -- 51: movabs rdx, 0x100000000
  .mulx .rbx .rax (.reg .r8), -- 52: mulx rbx, rax, r8
  .adcx .r9 (.reg .rax), -- 53: adcx r9, rax
  .adox .r10 (.reg .rbx), -- 54: adox r10, rbx
  .mulx .rbx .rax (.reg .r9), -- 55: mulx rbx, rax, r9
  .adcx .r10 (.reg .rax), -- 56: adcx r10, rax
  .adox .r11 (.reg .rbx), -- 57: adox r11, rbx
  .mov (.reg .rdx) (.imm 0xffffffff00000001#64), -- 58: movabs rdx, 0xffffffff00000001
  .mulx .rbx .rax (.reg .r8), -- 59: mulx rbx, rax, r8
  .adcx .r11 (.reg .rax), -- 60: adcx r11, rax
  .adox .r12 (.reg .rbx), -- 61: adox r12, rbx
  .mulx .rbx .rax (.reg .r9), -- 62: mulx rbx, rax, r9
  .adcx .r12 (.reg .rax), -- 63: adcx r12, rax
  .adox .r13 (.reg .rbx), -- 64: adox r13, rbx
  .adcx .r13 (.reg .rcx), -- 65: adcx r13, rcx
  .mov32 .r9 .rcx, -- 66: mov r9d, ecx
  .adox .r9 (.reg .rcx), -- 67: adox r9, rcx
  .adcx .r9 (.reg .rcx), -- 68: adcx r9, rcx
  .add (.reg .r14) (.reg .r9), -- 69: add r14, r9
  .adc (.reg .r15) (.reg .rcx), -- 70: adc r15, rcx
  .mov32 .r8 .rcx, -- 71: mov r8d, ecx
  .adc (.reg .r8) (.reg .rcx), -- 72: adc r8, rcx
  .xor (.reg .rcx) (.reg .rcx), -- 73: xor ecx, ecx
  .mov (.reg .rdx) (.imm 0x100000000#64), -- 74: movabs rdx, 0x100000000
  .mulx .rbx .rax (.reg .r10), -- 75: mulx rbx, rax, r10
  .adcx .r11 (.reg .rax), -- 76: adcx r11, rax
  .adox .r12 (.reg .rbx), -- 77: adox r12, rbx
  .mulx .rbx .rax (.reg .r11), -- 78: mulx rbx, rax, r11
  .adcx .r12 (.reg .rax), -- 79: adcx r12, rax
  .adox .r13 (.reg .rbx), -- 80: adox r13, rbx
  .mov (.reg .rdx) (.imm 0xffffffff00000001#64), -- 81: movabs rdx, 0xffffffff00000001
  .mulx .rbx .rax (.reg .r10), -- 82: mulx rbx, rax, r10
  .adcx .r13 (.reg .rax), -- 83: adcx r13, rax
  .adox .r14 (.reg .rbx), -- 84: adox r14, rbx
  .mulx .rbx .rax (.reg .r11), -- 85: mulx rbx, rax, r11
  .adcx .r14 (.reg .rax), -- 86: adcx r14, rax
  .adox .r15 (.reg .rbx), -- 87: adox r15, rbx
  .adcx .r15 (.reg .rcx), -- 88: adcx r15, rcx
  .adox .r8 (.reg .rcx), -- 89: adox r8, rcx
  .adc (.reg .r8) (.reg .rcx), -- 90: adc r8, rcx
  .mov (.reg .r8) (.imm 1#64), -- 91: mov r8d, 0x1
  .lea .rdx ⟨some .rdx, none, 0xffffffffffffffff#64⟩, -- 92: lea rdx, [rdx -0x1]
  .lea .rax ⟨some .rcx, none, 0xffffffffffffffff#64⟩, -- 93: lea rax, [rcx -0x1]
  .mov (.reg .r11) (.imm 0xfffffffe#64), -- 94: mov r11d, 0xfffffffe
  .cmov .zr .r8 (.reg .rcx), -- 95: cmovz r8, rcx
  .cmov .zr .rdx (.reg .rcx), -- 96: cmovz rdx, rcx
  .cmov .zr .rax (.reg .rcx), -- 97: cmovz rax, rcx
  .cmov .zr .r11 (.reg .rcx), -- 98: cmovz r11, rcx
  .add (.reg .r12) (.reg .r8), -- 99: add r12, r8
  .adc (.reg .r13) (.reg .rdx), -- 100: adc r13, rdx
  .adc (.reg .r14) (.reg .rax), -- 101: adc r14, rax
  .adc (.reg .r15) (.reg .r11), -- 102: adc r15, r11
  .mov (.mem ⟨some .rsp, none, 0#64⟩) (.reg .r12), -- 103: mov [rsp + (32* 0)], r12
  .mov (.mem ⟨some .rsp, none, 8#64⟩) (.reg .r13), -- 104: mov [rsp + (32* 0)+ 0x8], r13
  .mov (.mem ⟨some .rsp, none, 16#64⟩) (.reg .r14), -- 105: mov [rsp + (32* 0)+ 0x10], r14
  .mov (.mem ⟨some .rsp, none, 24#64⟩) (.reg .r15), -- 106: mov [rsp + (32* 0)+ 0x18], r15
  .xor (.reg .r13) (.reg .r13), -- 107: xor r13d, r13d
  .mov (.reg .rdx) (.mem ⟨some .rbp, none, 32#64⟩), -- 108: mov rdx, [rbp + 32]
  .mulx .r9 .r8 (.mem ⟨some .rsi, none, 64#64⟩), -- 109: mulx r9, r8, [rsi + (2 * 32)]
  .mulx .r10 .rbx (.mem ⟨some .rsi, none, 72#64⟩), -- 110: mulx r10, rbx, [rsi + (2 * 32)+ 0x8]
  .adc (.reg .r9) (.reg .rbx), -- 111: adc r9, rbx
  .mulx .r11 .rbx (.mem ⟨some .rsi, none, 80#64⟩), -- 112: mulx r11, rbx, [rsi + (2 * 32)+ 0x10]
  .adc (.reg .r10) (.reg .rbx), -- 113: adc r10, rbx
  .mulx .r12 .rbx (.mem ⟨some .rsi, none, 88#64⟩), -- 114: mulx r12, rbx, [rsi + (2 * 32)+ 0x18]
  .adc (.reg .r11) (.reg .rbx), -- 115: adc r11, rbx
  .adc (.reg .r12) (.reg .r13), -- 116: adc r12, r13
  .mov (.reg .rdx) (.mem ⟨some .rbp, none, 40#64⟩), -- 117: mov rdx, [rbp + 32+ 0x8]
  .xor (.reg .r14) (.reg .r14), -- 118: xor r14d, r14d
  .mulx .rbx .rax (.mem ⟨some .rsi, none, 64#64⟩), -- 119: mulx rbx, rax, [rsi + (2 * 32)]
  .adcx .r9 (.reg .rax), -- 120: adcx r9, rax
  .adox .r10 (.reg .rbx), -- 121: adox r10, rbx
  .mulx .rbx .rax (.mem ⟨some .rsi, none, 72#64⟩), -- 122: mulx rbx, rax, [rsi + (2 * 32)+ 0x8]
  .adcx .r10 (.reg .rax), -- 123: adcx r10, rax
  .adox .r11 (.reg .rbx), -- 124: adox r11, rbx
  .mulx .rbx .rax (.mem ⟨some .rsi, none, 80#64⟩), -- 125: mulx rbx, rax, [rsi + (2 * 32)+ 0x10]
  .adcx .r11 (.reg .rax), -- 126: adcx r11, rax
  .adox .r12 (.reg .rbx), -- 127: adox r12, rbx
  .mulx .rbx .rax (.mem ⟨some .rsi, none, 88#64⟩), -- 128: mulx rbx, rax, [rsi + (2 * 32)+ 0x18]
  .adcx .r12 (.reg .rax), -- 129: adcx r12, rax
  .adox .r13 (.reg .rbx), -- 130: adox r13, rbx
  .adc (.reg .r13) (.reg .r14), -- 131: adc r13, r14
  .xor (.reg .r15) (.reg .r15), -- 132: xor r15d, r15d
  .mov (.reg .rdx) (.imm 0x100000000#64), -- 133: movabs rdx, 0x100000000
  .mulx .rbx .rax (.reg .r8), -- 134: mulx rbx, rax, r8
  .adcx .r9 (.reg .rax), -- 135: adcx r9, rax
  .adox .r10 (.reg .rbx), -- 136: adox r10, rbx
  .mulx .rbx .rax (.reg .r9), -- 137: mulx rbx, rax, r9
  .adcx .r10 (.reg .rax), -- 138: adcx r10, rax
  .adox .r11 (.reg .rbx), -- 139: adox r11, rbx
  .not (.reg .rdx), -- 140: not rdx
  .lea .rdx ⟨some .rdx, none, 2#64⟩, -- 141: lea rdx, [rdx + 0x2]
  .mulx .rbx .rax (.reg .r8), -- 142: mulx rbx, rax, r8
  .adcx .r11 (.reg .rax), -- 143: adcx r11, rax
  .adox .r12 (.reg .rbx), -- 144: adox r12, rbx
  .mulx .rbx .rax (.reg .r9), -- 145: mulx rbx, rax, r9
  .adcx .r12 (.reg .rax), -- 146: adcx r12, rax
  .adox .r13 (.reg .rbx), -- 147: adox r13, rbx
  .adcx .r13 (.reg .r15), -- 148: adcx r13, r15
  .adox .r14 (.reg .r15), -- 149: adox r14, r15
  .adc (.reg .r14) (.reg .r15), -- 150: adc r14, r15
  .mov (.reg .rdx) (.mem ⟨some .rbp, none, 48#64⟩), -- 151: mov rdx, [rbp + 32+ 0x10]
  .xor (.reg .r8) (.reg .r8), -- 152: xor r8d, r8d
  .mulx .rbx .rax (.mem ⟨some .rsi, none, 64#64⟩), -- 153: mulx rbx, rax, [rsi + (2 * 32)]
  .adcx .r10 (.reg .rax), -- 154: adcx r10, rax
  .adox .r11 (.reg .rbx), -- 155: adox r11, rbx
  .mulx .rbx .rax (.mem ⟨some .rsi, none, 72#64⟩), -- 156: mulx rbx, rax, [rsi + (2 * 32)+ 0x8]
  .adcx .r11 (.reg .rax), -- 157: adcx r11, rax
  .adox .r12 (.reg .rbx), -- 158: adox r12, rbx
  .mulx .rbx .rax (.mem ⟨some .rsi, none, 80#64⟩), -- 159: mulx rbx, rax, [rsi + (2 * 32)+ 0x10]
  .adcx .r12 (.reg .rax), -- 160: adcx r12, rax
  .adox .r13 (.reg .rbx), -- 161: adox r13, rbx
  .adox .r14 (.reg .r8), -- 162: adox r14, r8
  .mulx .rbx .rax (.mem ⟨some .rsi, none, 88#64⟩), -- 163: mulx rbx, rax, [rsi + (2 * 32)+ 0x18]
  .adc (.reg .r13) (.reg .rax), -- 164: adc r13, rax
  .adc (.reg .r14) (.reg .rbx), -- 165: adc r14, rbx
  .adc (.reg .r15) (.reg .r8), -- 166: adc r15, r8
  .mov (.reg .rdx) (.mem ⟨some .rbp, none, 56#64⟩), -- 167: mov rdx, [rbp + 32+ 0x18]
  .xor (.reg .r9) (.reg .r9), -- 168: xor r9d, r9d
  .mulx .rbx .rax (.mem ⟨some .rsi, none, 64#64⟩), -- 169: mulx rbx, rax, [rsi + (2 * 32)]
  .adcx .r11 (.reg .rax), -- 170: adcx r11, rax
  .adox .r12 (.reg .rbx), -- 171: adox r12, rbx
  .mulx .rbx .rax (.mem ⟨some .rsi, none, 72#64⟩), -- 172: mulx rbx, rax, [rsi + (2 * 32)+ 0x8]
  .adcx .r12 (.reg .rax), -- 173: adcx r12, rax
  .adox .r13 (.reg .rbx), -- 174: adox r13, rbx
  .mulx .rbx .rax (.mem ⟨some .rsi, none, 80#64⟩), -- 175: mulx rbx, rax, [rsi + (2 * 32)+ 0x10]
  .adcx .r13 (.reg .rax), -- 176: adcx r13, rax
  .adox .r14 (.reg .rbx), -- 177: adox r14, rbx
  .adox .r15 (.reg .r9), -- 178: adox r15, r9
  .mulx .rbx .rax (.mem ⟨some .rsi, none, 88#64⟩), -- 179: mulx rbx, rax, [rsi + (2 * 32)+ 0x18]
  .adc (.reg .r14) (.reg .rax), -- 180: adc r14, rax
  .adc (.reg .r15) (.reg .rbx), -- 181: adc r15, rbx
  .adc (.reg .r8) (.reg .r9), -- 182: adc r8, r9
  .xor (.reg .r9) (.reg .r9), -- 183: xor r9d, r9d
  .mov (.reg .rdx) (.imm 0x100000000#64), -- 184: movabs rdx, 0x100000000
  .mulx .rbx .rax (.reg .r10), -- 185: mulx rbx, rax, r10
  .adcx .r11 (.reg .rax), -- 186: adcx r11, rax
  .adox .r12 (.reg .rbx), -- 187: adox r12, rbx
  .mulx .rbx .rax (.reg .r11), -- 188: mulx rbx, rax, r11
  .adcx .r12 (.reg .rax), -- 189: adcx r12, rax
  .adox .r13 (.reg .rbx), -- 190: adox r13, rbx
  .not (.reg .rdx), -- 191: not rdx
  .lea .rdx ⟨some .rdx, none, 2#64⟩, -- 192: lea rdx, [rdx + 0x2]
  .mulx .rbx .rax (.reg .r10), -- 193: mulx rbx, rax, r10
  .adcx .r13 (.reg .rax), -- 194: adcx r13, rax
  .adox .r14 (.reg .rbx), -- 195: adox r14, rbx
  .mulx .rbx .rax (.reg .r11), -- 196: mulx rbx, rax, r11
  .adcx .r14 (.reg .rax), -- 197: adcx r14, rax
  .adox .r15 (.reg .rbx), -- 198: adox r15, rbx
  .adcx .r15 (.reg .r9), -- 199: adcx r15, r9
  .adox .r8 (.reg .r9), -- 200: adox r8, r9
  .adc (.reg .r8) (.reg .r9), -- 201: adc r8, r9
  .mov (.reg .rcx) (.imm 1#64), -- 202: mov ecx, 0x1
  .add (.reg .rcx) (.reg .r12), -- 203: add rcx, r12
  .dec (.reg .rdx), -- 204: dec rdx
  .adc (.reg .rdx) (.reg .r13), -- 205: adc rdx, r13
  .dec (.reg .r9), -- 206: dec r9
  .mov (.reg .rax) (.reg .r9), -- 207: mov rax, r9
  .adc (.reg .r9) (.reg .r14), -- 208: adc r9, r14
  .mov (.reg .r11) (.imm 0xfffffffe#64), -- 209: mov r11d, 0xfffffffe
  .adc (.reg .r11) (.reg .r15), -- 210: adc r11, r15
  .adc (.reg .rax) (.reg .r8), -- 211: adc rax, r8
  .cmov .cy .r12 (.reg .rcx), -- 212: cmovb r12, rcx
  .cmov .cy .r13 (.reg .rdx), -- 213: cmovb r13, rdx
  .cmov .cy .r14 (.reg .r9), -- 214: cmovb r14, r9
  .cmov .cy .r15 (.reg .r11), -- 215: cmovb r15, r11
  .mov (.mem ⟨some .rsp, none, 32#64⟩) (.reg .r12), -- 216: mov [rsp + (32* 1)], r12
  .mov (.mem ⟨some .rsp, none, 40#64⟩) (.reg .r13), -- 217: mov [rsp + (32* 1)+ 0x8], r13
  .mov (.mem ⟨some .rsp, none, 48#64⟩) (.reg .r14), -- 218: mov [rsp + (32* 1)+ 0x10], r14
  .mov (.mem ⟨some .rsp, none, 56#64⟩) (.reg .r15), -- 219: mov [rsp + (32* 1)+ 0x18], r15
  .xor (.reg .r13) (.reg .r13), -- 220: xor r13d, r13d
  .mov (.reg .rdx) (.mem ⟨some .rbp, none, 0#64⟩), -- 221: mov rdx, [rbp + 0]
  .mulx .r9 .r8 (.mem ⟨some .rsp, none, 0#64⟩), -- 222: mulx r9, r8, [rsp + (32* 0)]
  .mulx .r10 .rbx (.mem ⟨some .rsp, none, 8#64⟩), -- 223: mulx r10, rbx, [rsp + (32* 0)+ 0x8]
  .adc (.reg .r9) (.reg .rbx), -- 224: adc r9, rbx
  .mulx .r11 .rbx (.mem ⟨some .rsp, none, 16#64⟩), -- 225: mulx r11, rbx, [rsp + (32* 0)+ 0x10]
  .adc (.reg .r10) (.reg .rbx), -- 226: adc r10, rbx
  .mulx .r12 .rbx (.mem ⟨some .rsp, none, 24#64⟩), -- 227: mulx r12, rbx, [rsp + (32* 0)+ 0x18]
  .adc (.reg .r11) (.reg .rbx), -- 228: adc r11, rbx
  .adc (.reg .r12) (.reg .r13), -- 229: adc r12, r13
  .mov (.reg .rdx) (.mem ⟨some .rbp, none, 8#64⟩), -- 230: mov rdx, [rbp + 0+ 0x8]
  .xor (.reg .r14) (.reg .r14), -- 231: xor r14d, r14d
  .mulx .rbx .rax (.mem ⟨some .rsp, none, 0#64⟩), -- 232: mulx rbx, rax, [rsp + (32* 0)]
  .adcx .r9 (.reg .rax), -- 233: adcx r9, rax
  .adox .r10 (.reg .rbx), -- 234: adox r10, rbx
  .mulx .rbx .rax (.mem ⟨some .rsp, none, 8#64⟩), -- 235: mulx rbx, rax, [rsp + (32* 0)+ 0x8]
  .adcx .r10 (.reg .rax), -- 236: adcx r10, rax
  .adox .r11 (.reg .rbx), -- 237: adox r11, rbx
  .mulx .rbx .rax (.mem ⟨some .rsp, none, 16#64⟩), -- 238: mulx rbx, rax, [rsp + (32* 0)+ 0x10]
  .adcx .r11 (.reg .rax), -- 239: adcx r11, rax
  .adox .r12 (.reg .rbx), -- 240: adox r12, rbx
  .mulx .rbx .rax (.mem ⟨some .rsp, none, 24#64⟩), -- 241: mulx rbx, rax, [rsp + (32* 0)+ 0x18]
  .adcx .r12 (.reg .rax), -- 242: adcx r12, rax
  .adox .r13 (.reg .rbx), -- 243: adox r13, rbx
  .adc (.reg .r13) (.reg .r14), -- 244: adc r13, r14
  .xor (.reg .r15) (.reg .r15), -- 245: xor r15d, r15d
  .mov (.reg .rdx) (.imm 0x100000000#64), -- 246: movabs rdx, 0x100000000
  .mulx .rbx .rax (.reg .r8), -- 247: mulx rbx, rax, r8
  .adcx .r9 (.reg .rax), -- 248: adcx r9, rax
  .adox .r10 (.reg .rbx), -- 249: adox r10, rbx
  .mulx .rbx .rax (.reg .r9), -- 250: mulx rbx, rax, r9
  .adcx .r10 (.reg .rax), -- 251: adcx r10, rax
  .adox .r11 (.reg .rbx), -- 252: adox r11, rbx
  .not (.reg .rdx), -- 253: not rdx
  .lea .rdx ⟨some .rdx, none, 2#64⟩, -- 254: lea rdx, [rdx + 0x2]
  .mulx .rbx .rax (.reg .r8), -- 255: mulx rbx, rax, r8
  .adcx .r11 (.reg .rax), -- 256: adcx r11, rax
  .adox .r12 (.reg .rbx), -- 257: adox r12, rbx
  .mulx .rbx .rax (.reg .r9), -- 258: mulx rbx, rax, r9
  .adcx .r12 (.reg .rax), -- 259: adcx r12, rax
  .adox .r13 (.reg .rbx), -- 260: adox r13, rbx
  .adcx .r13 (.reg .r15), -- 261: adcx r13, r15
  .adox .r14 (.reg .r15), -- 262: adox r14, r15
  .adc (.reg .r14) (.reg .r15), -- 263: adc r14, r15
  .mov (.reg .rdx) (.mem ⟨some .rbp, none, 16#64⟩), -- 264: mov rdx, [rbp + 0+ 0x10]
  .xor (.reg .r8) (.reg .r8), -- 265: xor r8d, r8d
  .mulx .rbx .rax (.mem ⟨some .rsp, none, 0#64⟩), -- 266: mulx rbx, rax, [rsp + (32* 0)]
  .adcx .r10 (.reg .rax), -- 267: adcx r10, rax
  .adox .r11 (.reg .rbx), -- 268: adox r11, rbx
  .mulx .rbx .rax (.mem ⟨some .rsp, none, 8#64⟩), -- 269: mulx rbx, rax, [rsp + (32* 0)+ 0x8]
  .adcx .r11 (.reg .rax), -- 270: adcx r11, rax
  .adox .r12 (.reg .rbx), -- 271: adox r12, rbx
  .mulx .rbx .rax (.mem ⟨some .rsp, none, 16#64⟩), -- 272: mulx rbx, rax, [rsp + (32* 0)+ 0x10]
  .adcx .r12 (.reg .rax), -- 273: adcx r12, rax
  .adox .r13 (.reg .rbx), -- 274: adox r13, rbx
  .adox .r14 (.reg .r8), -- 275: adox r14, r8
  .mulx .rbx .rax (.mem ⟨some .rsp, none, 24#64⟩), -- 276: mulx rbx, rax, [rsp + (32* 0)+ 0x18]
  .adc (.reg .r13) (.reg .rax), -- 277: adc r13, rax
  .adc (.reg .r14) (.reg .rbx), -- 278: adc r14, rbx
  .adc (.reg .r15) (.reg .r8), -- 279: adc r15, r8
  .mov (.reg .rdx) (.mem ⟨some .rbp, none, 24#64⟩), -- 280: mov rdx, [rbp + 0+ 0x18]
  .xor (.reg .r9) (.reg .r9), -- 281: xor r9d, r9d
  .mulx .rbx .rax (.mem ⟨some .rsp, none, 0#64⟩), -- 282: mulx rbx, rax, [rsp + (32* 0)]
  .adcx .r11 (.reg .rax), -- 283: adcx r11, rax
  .adox .r12 (.reg .rbx), -- 284: adox r12, rbx
  .mulx .rbx .rax (.mem ⟨some .rsp, none, 8#64⟩), -- 285: mulx rbx, rax, [rsp + (32* 0)+ 0x8]
  .adcx .r12 (.reg .rax), -- 286: adcx r12, rax
  .adox .r13 (.reg .rbx), -- 287: adox r13, rbx
  .mulx .rbx .rax (.mem ⟨some .rsp, none, 16#64⟩), -- 288: mulx rbx, rax, [rsp + (32* 0)+ 0x10]
  .adcx .r13 (.reg .rax), -- 289: adcx r13, rax
  .adox .r14 (.reg .rbx), -- 290: adox r14, rbx
  .adox .r15 (.reg .r9), -- 291: adox r15, r9
  .mulx .rbx .rax (.mem ⟨some .rsp, none, 24#64⟩), -- 292: mulx rbx, rax, [rsp + (32* 0)+ 0x18]
  .adc (.reg .r14) (.reg .rax), -- 293: adc r14, rax
  .adc (.reg .r15) (.reg .rbx), -- 294: adc r15, rbx
  .adc (.reg .r8) (.reg .r9), -- 295: adc r8, r9
  .xor (.reg .r9) (.reg .r9), -- 296: xor r9d, r9d
  .mov (.reg .rdx) (.imm 0x100000000#64), -- 297: movabs rdx, 0x100000000
  .mulx .rbx .rax (.reg .r10), -- 298: mulx rbx, rax, r10
  .adcx .r11 (.reg .rax), -- 299: adcx r11, rax
  .adox .r12 (.reg .rbx), -- 300: adox r12, rbx
  .mulx .rbx .rax (.reg .r11), -- 301: mulx rbx, rax, r11
  .adcx .r12 (.reg .rax), -- 302: adcx r12, rax
  .adox .r13 (.reg .rbx), -- 303: adox r13, rbx
  .not (.reg .rdx), -- 304: not rdx
  .lea .rdx ⟨some .rdx, none, 2#64⟩, -- 305: lea rdx, [rdx + 0x2]
  .mulx .rbx .rax (.reg .r10), -- 306: mulx rbx, rax, r10
  .adcx .r13 (.reg .rax), -- 307: adcx r13, rax
  .adox .r14 (.reg .rbx), -- 308: adox r14, rbx
  .mulx .rbx .rax (.reg .r11), -- 309: mulx rbx, rax, r11
  .adcx .r14 (.reg .rax), -- 310: adcx r14, rax
  .adox .r15 (.reg .rbx), -- 311: adox r15, rbx
  .adcx .r15 (.reg .r9), -- 312: adcx r15, r9
  .adox .r8 (.reg .r9), -- 313: adox r8, r9
  .adc (.reg .r8) (.reg .r9), -- 314: adc r8, r9
  .mov (.reg .rcx) (.imm 1#64), -- 315: mov ecx, 0x1
  .add (.reg .rcx) (.reg .r12), -- 316: add rcx, r12
  .dec (.reg .rdx), -- 317: dec rdx
  .adc (.reg .rdx) (.reg .r13), -- 318: adc rdx, r13
  .dec (.reg .r9), -- 319: dec r9
  .mov (.reg .rax) (.reg .r9), -- 320: mov rax, r9
  .adc (.reg .r9) (.reg .r14), -- 321: adc r9, r14
  .mov (.reg .r11) (.imm 0xfffffffe#64), -- 322: mov r11d, 0xfffffffe
  .adc (.reg .r11) (.reg .r15), -- 323: adc r11, r15
  .adc (.reg .rax) (.reg .r8), -- 324: adc rax, r8
  .cmov .cy .r12 (.reg .rcx), -- 325: cmovb r12, rcx
  .cmov .cy .r13 (.reg .rdx), -- 326: cmovb r13, rdx
  .cmov .cy .r14 (.reg .r9), -- 327: cmovb r14, r9
  .cmov .cy .r15 (.reg .r11), -- 328: cmovb r15, r11
  .mov (.mem ⟨some .rsp, none, 64#64⟩) (.reg .r12), -- 329: mov [rsp + (32* 2)], r12
  .mov (.mem ⟨some .rsp, none, 72#64⟩) (.reg .r13), -- 330: mov [rsp + (32* 2)+ 0x8], r13
  .mov (.mem ⟨some .rsp, none, 80#64⟩) (.reg .r14), -- 331: mov [rsp + (32* 2)+ 0x10], r14
  .mov (.mem ⟨some .rsp, none, 88#64⟩) (.reg .r15), -- 332: mov [rsp + (32* 2)+ 0x18], r15
  .xor (.reg .r13) (.reg .r13), -- 333: xor r13d, r13d
  .mov (.reg .rdx) (.mem ⟨some .rsp, none, 32#64⟩), -- 334: mov rdx, [rsp + (32* 1)]
  .mulx .r9 .r8 (.mem ⟨some .rsp, none, 0#64⟩), -- 335: mulx r9, r8, [rsp + (32* 0)]
  .mulx .r10 .rbx (.mem ⟨some .rsp, none, 8#64⟩), -- 336: mulx r10, rbx, [rsp + (32* 0)+ 0x8]
  .adc (.reg .r9) (.reg .rbx), -- 337: adc r9, rbx
  .mulx .r11 .rbx (.mem ⟨some .rsp, none, 16#64⟩), -- 338: mulx r11, rbx, [rsp + (32* 0)+ 0x10]
  .adc (.reg .r10) (.reg .rbx), -- 339: adc r10, rbx
  .mulx .r12 .rbx (.mem ⟨some .rsp, none, 24#64⟩), -- 340: mulx r12, rbx, [rsp + (32* 0)+ 0x18]
  .adc (.reg .r11) (.reg .rbx), -- 341: adc r11, rbx
  .adc (.reg .r12) (.reg .r13), -- 342: adc r12, r13
  .mov (.reg .rdx) (.mem ⟨some .rsp, none, 40#64⟩), -- 343: mov rdx, [rsp + (32* 1)+ 0x8]
  .xor (.reg .r14) (.reg .r14), -- 344: xor r14d, r14d
  .mulx .rbx .rax (.mem ⟨some .rsp, none, 0#64⟩), -- 345: mulx rbx, rax, [rsp + (32* 0)]
  .adcx .r9 (.reg .rax), -- 346: adcx r9, rax
  .adox .r10 (.reg .rbx), -- 347: adox r10, rbx
  .mulx .rbx .rax (.mem ⟨some .rsp, none, 8#64⟩), -- 348: mulx rbx, rax, [rsp + (32* 0)+ 0x8]
  .adcx .r10 (.reg .rax), -- 349: adcx r10, rax
  .adox .r11 (.reg .rbx), -- 350: adox r11, rbx
  .mulx .rbx .rax (.mem ⟨some .rsp, none, 16#64⟩), -- 351: mulx rbx, rax, [rsp + (32* 0)+ 0x10]
  .adcx .r11 (.reg .rax), -- 352: adcx r11, rax
  .adox .r12 (.reg .rbx), -- 353: adox r12, rbx
  .mulx .rbx .rax (.mem ⟨some .rsp, none, 24#64⟩), -- 354: mulx rbx, rax, [rsp + (32* 0)+ 0x18]
  .adcx .r12 (.reg .rax), -- 355: adcx r12, rax
  .adox .r13 (.reg .rbx), -- 356: adox r13, rbx
  .adc (.reg .r13) (.reg .r14), -- 357: adc r13, r14
  .xor (.reg .r15) (.reg .r15), -- 358: xor r15d, r15d
  .mov (.reg .rdx) (.imm 0x100000000#64), -- 359: movabs rdx, 0x100000000
  .mulx .rbx .rax (.reg .r8), -- 360: mulx rbx, rax, r8
  .adcx .r9 (.reg .rax), -- 361: adcx r9, rax
  .adox .r10 (.reg .rbx), -- 362: adox r10, rbx
  .mulx .rbx .rax (.reg .r9), -- 363: mulx rbx, rax, r9
  .adcx .r10 (.reg .rax), -- 364: adcx r10, rax
  .adox .r11 (.reg .rbx), -- 365: adox r11, rbx
  .not (.reg .rdx), -- 366: not rdx
  .lea .rdx ⟨some .rdx, none, 2#64⟩, -- 367: lea rdx, [rdx + 0x2]
  .mulx .rbx .rax (.reg .r8), -- 368: mulx rbx, rax, r8
  .adcx .r11 (.reg .rax), -- 369: adcx r11, rax
  .adox .r12 (.reg .rbx), -- 370: adox r12, rbx
  .mulx .rbx .rax (.reg .r9), -- 371: mulx rbx, rax, r9
  .adcx .r12 (.reg .rax), -- 372: adcx r12, rax
  .adox .r13 (.reg .rbx), -- 373: adox r13, rbx
  .adcx .r13 (.reg .r15), -- 374: adcx r13, r15
  .adox .r14 (.reg .r15), -- 375: adox r14, r15
  .adc (.reg .r14) (.reg .r15), -- 376: adc r14, r15
  .mov (.reg .rdx) (.mem ⟨some .rsp, none, 48#64⟩), -- 377: mov rdx, [rsp + (32* 1)+ 0x10]
  .xor (.reg .r8) (.reg .r8), -- 378: xor r8d, r8d
  .mulx .rbx .rax (.mem ⟨some .rsp, none, 0#64⟩), -- 379: mulx rbx, rax, [rsp + (32* 0)]
  .adcx .r10 (.reg .rax), -- 380: adcx r10, rax
  .adox .r11 (.reg .rbx), -- 381: adox r11, rbx
  .mulx .rbx .rax (.mem ⟨some .rsp, none, 8#64⟩), -- 382: mulx rbx, rax, [rsp + (32* 0)+ 0x8]
  .adcx .r11 (.reg .rax), -- 383: adcx r11, rax
  .adox .r12 (.reg .rbx), -- 384: adox r12, rbx
  .mulx .rbx .rax (.mem ⟨some .rsp, none, 16#64⟩), -- 385: mulx rbx, rax, [rsp + (32* 0)+ 0x10]
  .adcx .r12 (.reg .rax), -- 386: adcx r12, rax
  .adox .r13 (.reg .rbx), -- 387: adox r13, rbx
  .adox .r14 (.reg .r8), -- 388: adox r14, r8
  .mulx .rbx .rax (.mem ⟨some .rsp, none, 24#64⟩), -- 389: mulx rbx, rax, [rsp + (32* 0)+ 0x18]
  .adc (.reg .r13) (.reg .rax), -- 390: adc r13, rax
  .adc (.reg .r14) (.reg .rbx), -- 391: adc r14, rbx
  .adc (.reg .r15) (.reg .r8), -- 392: adc r15, r8
  .mov (.reg .rdx) (.mem ⟨some .rsp, none, 56#64⟩), -- 393: mov rdx, [rsp + (32* 1)+ 0x18]
  .xor (.reg .r9) (.reg .r9), -- 394: xor r9d, r9d
  .mulx .rbx .rax (.mem ⟨some .rsp, none, 0#64⟩), -- 395: mulx rbx, rax, [rsp + (32* 0)]
  .adcx .r11 (.reg .rax), -- 396: adcx r11, rax
  .adox .r12 (.reg .rbx), -- 397: adox r12, rbx
  .mulx .rbx .rax (.mem ⟨some .rsp, none, 8#64⟩), -- 398: mulx rbx, rax, [rsp + (32* 0)+ 0x8]
  .adcx .r12 (.reg .rax), -- 399: adcx r12, rax
  .adox .r13 (.reg .rbx), -- 400: adox r13, rbx
  .mulx .rbx .rax (.mem ⟨some .rsp, none, 16#64⟩), -- 401: mulx rbx, rax, [rsp + (32* 0)+ 0x10]
  .adcx .r13 (.reg .rax), -- 402: adcx r13, rax
  .adox .r14 (.reg .rbx), -- 403: adox r14, rbx
  .adox .r15 (.reg .r9), -- 404: adox r15, r9
  .mulx .rbx .rax (.mem ⟨some .rsp, none, 24#64⟩), -- 405: mulx rbx, rax, [rsp + (32* 0)+ 0x18]
  .adc (.reg .r14) (.reg .rax), -- 406: adc r14, rax
  .adc (.reg .r15) (.reg .rbx), -- 407: adc r15, rbx
  .adc (.reg .r8) (.reg .r9), -- 408: adc r8, r9
  .xor (.reg .r9) (.reg .r9), -- 409: xor r9d, r9d
  .mov (.reg .rdx) (.imm 0x100000000#64), -- 410: movabs rdx, 0x100000000
  .mulx .rbx .rax (.reg .r10), -- 411: mulx rbx, rax, r10
  .adcx .r11 (.reg .rax), -- 412: adcx r11, rax
  .adox .r12 (.reg .rbx), -- 413: adox r12, rbx
  .mulx .rbx .rax (.reg .r11), -- 414: mulx rbx, rax, r11
  .adcx .r12 (.reg .rax), -- 415: adcx r12, rax
  .adox .r13 (.reg .rbx), -- 416: adox r13, rbx
  .not (.reg .rdx), -- 417: not rdx
  .lea .rdx ⟨some .rdx, none, 2#64⟩, -- 418: lea rdx, [rdx + 0x2]
  .mulx .rbx .rax (.reg .r10), -- 419: mulx rbx, rax, r10
  .adcx .r13 (.reg .rax), -- 420: adcx r13, rax
  .adox .r14 (.reg .rbx), -- 421: adox r14, rbx
  .mulx .rbx .rax (.reg .r11), -- 422: mulx rbx, rax, r11
  .adcx .r14 (.reg .rax), -- 423: adcx r14, rax
  .adox .r15 (.reg .rbx), -- 424: adox r15, rbx
  .adcx .r15 (.reg .r9), -- 425: adcx r15, r9
  .adox .r8 (.reg .r9), -- 426: adox r8, r9
  .adc (.reg .r8) (.reg .r9), -- 427: adc r8, r9
  .mov (.reg .rcx) (.imm 1#64), -- 428: mov ecx, 0x1
  .add (.reg .rcx) (.reg .r12), -- 429: add rcx, r12
  .dec (.reg .rdx), -- 430: dec rdx
  .adc (.reg .rdx) (.reg .r13), -- 431: adc rdx, r13
  .dec (.reg .r9), -- 432: dec r9
  .mov (.reg .rax) (.reg .r9), -- 433: mov rax, r9
  .adc (.reg .r9) (.reg .r14), -- 434: adc r9, r14
  .mov (.reg .r11) (.imm 0xfffffffe#64), -- 435: mov r11d, 0xfffffffe
  .adc (.reg .r11) (.reg .r15), -- 436: adc r11, r15
  .adc (.reg .rax) (.reg .r8), -- 437: adc rax, r8
  .cmov .cy .r12 (.reg .rcx), -- 438: cmovb r12, rcx
  .cmov .cy .r13 (.reg .rdx), -- 439: cmovb r13, rdx
  .cmov .cy .r14 (.reg .r9), -- 440: cmovb r14, r9
  .cmov .cy .r15 (.reg .r11), -- 441: cmovb r15, r11
  .mov (.mem ⟨some .rsp, none, 32#64⟩) (.reg .r12), -- 442: mov [rsp + (32* 1)], r12
  .mov (.mem ⟨some .rsp, none, 40#64⟩) (.reg .r13), -- 443: mov [rsp + (32* 1)+ 0x8], r13
  .mov (.mem ⟨some .rsp, none, 48#64⟩) (.reg .r14), -- 444: mov [rsp + (32* 1)+ 0x10], r14
  .mov (.mem ⟨some .rsp, none, 56#64⟩) (.reg .r15), -- 445: mov [rsp + (32* 1)+ 0x18], r15
  .mov (.reg .rax) (.mem ⟨some .rsp, none, 64#64⟩), -- 446: mov rax, [rsp + (32* 2)]
  .sub (.reg .rax) (.mem ⟨some .rsi, none, 0#64⟩), -- 447: sub rax, [rsi + 0]
  .mov (.reg .rcx) (.mem ⟨some .rsp, none, 72#64⟩), -- 448: mov rcx, [rsp + (32* 2)+ 0x8]
  .sbb (.reg .rcx) (.mem ⟨some .rsi, none, 8#64⟩), -- 449: sbb rcx, [rsi + 0+ 0x8]
  .mov (.reg .r8) (.mem ⟨some .rsp, none, 80#64⟩), -- 450: mov r8, [rsp + (32* 2)+ 0x10]
  .sbb (.reg .r8) (.mem ⟨some .rsi, none, 16#64⟩), -- 451: sbb r8, [rsi + 0+ 0x10]
  .mov (.reg .r9) (.mem ⟨some .rsp, none, 88#64⟩), -- 452: mov r9, [rsp + (32* 2)+ 0x18]
  .sbb (.reg .r9) (.mem ⟨some .rsi, none, 24#64⟩), -- 453: sbb r9, [rsi + 0+ 0x18]
  .mov (.reg .r10) (.imm 0xffffffff#64), -- 454: mov r10d, 0xffffffff
  .sbb (.reg .r11) (.reg .r11), -- 455: sbb r11, r11
  .xor (.reg .rdx) (.reg .rdx), -- 456: xor rdx, rdx
  .and (.reg .r10) (.reg .r11), -- 457: and r10, r11
  .sub (.reg .rdx) (.reg .r10), -- 458: sub rdx, r10
  .add (.reg .rax) (.reg .r11), -- 459: add rax, r11
  .mov (.mem ⟨some .rsp, none, 160#64⟩) (.reg .rax), -- 460: mov [rsp + (32* 5)], rax
  .adc (.reg .rcx) (.reg .r10), -- 461: adc rcx, r10
  .mov (.mem ⟨some .rsp, none, 168#64⟩) (.reg .rcx), -- 462: mov [rsp + (32* 5)+ 0x8], rcx
  .adc (.reg .r8) (.imm 0#64), -- 463: adc r8, 0x0
  .mov (.mem ⟨some .rsp, none, 176#64⟩) (.reg .r8), -- 464: mov [rsp + (32* 5)+ 0x10], r8
  .adc (.reg .r9) (.reg .rdx), -- 465: adc r9, rdx
  .mov (.mem ⟨some .rsp, none, 184#64⟩) (.reg .r9), -- 466: mov [rsp + (32* 5)+ 0x18], r9
  .mov (.reg .rax) (.mem ⟨some .rsp, none, 32#64⟩), -- 467: mov rax, [rsp + (32* 1)]
  .sub (.reg .rax) (.mem ⟨some .rsi, none, 32#64⟩), -- 468: sub rax, [rsi + 32]
  .mov (.reg .rcx) (.mem ⟨some .rsp, none, 40#64⟩), -- 469: mov rcx, [rsp + (32* 1)+ 0x8]
  .sbb (.reg .rcx) (.mem ⟨some .rsi, none, 40#64⟩), -- 470: sbb rcx, [rsi + 32+ 0x8]
  .mov (.reg .r8) (.mem ⟨some .rsp, none, 48#64⟩), -- 471: mov r8, [rsp + (32* 1)+ 0x10]
  .sbb (.reg .r8) (.mem ⟨some .rsi, none, 48#64⟩), -- 472: sbb r8, [rsi + 32+ 0x10]
  .mov (.reg .r9) (.mem ⟨some .rsp, none, 56#64⟩), -- 473: mov r9, [rsp + (32* 1)+ 0x18]
  .sbb (.reg .r9) (.mem ⟨some .rsi, none, 56#64⟩), -- 474: sbb r9, [rsi + 32+ 0x18]
  .mov (.reg .r10) (.imm 0xffffffff#64), -- 475: mov r10d, 0xffffffff
  .sbb (.reg .r11) (.reg .r11), -- 476: sbb r11, r11
  .xor (.reg .rdx) (.reg .rdx), -- 477: xor rdx, rdx
  .and (.reg .r10) (.reg .r11), -- 478: and r10, r11
  .sub (.reg .rdx) (.reg .r10), -- 479: sub rdx, r10
  .add (.reg .rax) (.reg .r11), -- 480: add rax, r11
  .mov (.mem ⟨some .rsp, none, 32#64⟩) (.reg .rax), -- 481: mov [rsp + (32* 1)], rax
  .adc (.reg .rcx) (.reg .r10), -- 482: adc rcx, r10
  .mov (.mem ⟨some .rsp, none, 40#64⟩) (.reg .rcx), -- 483: mov [rsp + (32* 1)+ 0x8], rcx
  .adc (.reg .r8) (.imm 0#64), -- 484: adc r8, 0x0
  .mov (.mem ⟨some .rsp, none, 48#64⟩) (.reg .r8), -- 485: mov [rsp + (32* 1)+ 0x10], r8
  .adc (.reg .r9) (.reg .rdx), -- 486: adc r9, rdx
  .mov (.mem ⟨some .rsp, none, 56#64⟩) (.reg .r9), -- 487: mov [rsp + (32* 1)+ 0x18], r9
  .mov (.reg .rdx) (.mem ⟨some .rsp, none, 160#64⟩), -- 488: mov rdx, [rsp + (32* 5)]
  .mulx .r15 .r8 (.reg .rdx), -- 489: mulx r15, r8, rdx
  .mulx .r10 .r9 (.mem ⟨some .rsp, none, 168#64⟩), -- 490: mulx r10, r9, [rsp + (32* 5)+ 0x8]
  .mulx .r12 .r11 (.mem ⟨some .rsp, none, 184#64⟩), -- 491: mulx r12, r11, [rsp + (32* 5)+ 0x18]
  .mov (.reg .rdx) (.mem ⟨some .rsp, none, 176#64⟩), -- 492: mov rdx, [rsp + (32* 5)+ 0x10]
  .mulx .r14 .r13 (.mem ⟨some .rsp, none, 184#64⟩), -- 493: mulx r14, r13, [rsp + (32* 5)+ 0x18]
  .xor (.reg .rcx) (.reg .rcx), -- 494: xor ecx, ecx
  .mulx .rbx .rax (.mem ⟨some .rsp, none, 160#64⟩), -- 495: mulx rbx, rax, [rsp + (32* 5)]
  .adcx .r10 (.reg .rax), -- 496: adcx r10, rax
  .adox .r11 (.reg .rbx), -- 497: adox r11, rbx
  .mulx .rbx .rax (.mem ⟨some .rsp, none, 168#64⟩), -- 498: mulx rbx, rax, [rsp + (32* 5)+ 0x8]
  .adcx .r11 (.reg .rax), -- 499: adcx r11, rax
  .adox .r12 (.reg .rbx), -- 500: adox r12, rbx
  .mov (.reg .rdx) (.mem ⟨some .rsp, none, 184#64⟩), -- 501: mov rdx, [rsp + (32* 5)+ 0x18]
  .mulx .rbx .rax (.mem ⟨some .rsp, none, 168#64⟩), -- 502: mulx rbx, rax, [rsp + (32* 5)+ 0x8]
  .adcx .r12 (.reg .rax), -- 503: adcx r12, rax
  .adox .r13 (.reg .rbx), -- 504: adox r13, rbx
  .adcx .r13 (.reg .rcx), -- 505: adcx r13, rcx
  .adox .r14 (.reg .rcx), -- 506: adox r14, rcx
  .adc (.reg .r14) (.reg .rcx), -- 507: adc r14, rcx
  .xor (.reg .rcx) (.reg .rcx), -- 508: xor ecx, ecx
  .adcx .r9 (.reg .r9), -- 509: adcx r9, r9
  .adox .r9 (.reg .r15), -- 510: adox r9, r15
  .mov (.reg .rdx) (.mem ⟨some .rsp, none, 168#64⟩), -- 511: mov rdx, [rsp + (32* 5)+ 0x8]
  .mulx .rdx .rax (.reg .rdx), -- 512: mulx rdx, rax, rdx
  .adcx .r10 (.reg .r10), -- 513: adcx r10, r10
  .adox .r10 (.reg .rax), -- 514: adox r10, rax
  .adcx .r11 (.reg .r11), -- 515: adcx r11, r11
  .adox .r11 (.reg .rdx), -- 516: adox r11, rdx
  .mov (.reg .rdx) (.mem ⟨some .rsp, none, 176#64⟩), -- 517: mov rdx, [rsp + (32* 5)+ 0x10]
  .mulx .rdx .rax (.reg .rdx), -- 518: mulx rdx, rax, rdx
  .adcx .r12 (.reg .r12), -- 519: adcx r12, r12
  .adox .r12 (.reg .rax), -- 520: adox r12, rax
  .adcx .r13 (.reg .r13), -- 521: adcx r13, r13
  .adox .r13 (.reg .rdx), -- 522: adox r13, rdx
  .mov (.reg .rdx) (.mem ⟨some .rsp, none, 184#64⟩), -- 523: mov rdx, [rsp + (32* 5)+ 0x18]
  .mulx .r15 .rax (.reg .rdx), -- 524: mulx r15, rax, rdx
  .adcx .r14 (.reg .r14), -- 525: adcx r14, r14
  .adox .r14 (.reg .rax), -- 526: adox r14, rax
  .adcx .r15 (.reg .rcx), -- 527: adcx r15, rcx
  .adox .r15 (.reg .rcx), -- 528: adox r15, rcx
  .xor (.reg .rcx) (.reg .rcx), -- 529: xor ecx, ecx
  .mov (.reg .rdx) (.imm 0x100000000#64), -- 530: movabs rdx, 0x100000000
  .mulx .rbx .rax (.reg .r8), -- 531: mulx rbx, rax, r8
  .adcx .r9 (.reg .rax), -- 532: adcx r9, rax
  .adox .r10 (.reg .rbx), -- 533: adox r10, rbx
  .mulx .rbx .rax (.reg .r9), -- 534: mulx rbx, rax, r9
  .adcx .r10 (.reg .rax), -- 535: adcx r10, rax
  .adox .r11 (.reg .rbx), -- 536: adox r11, rbx
  .mov (.reg .rdx) (.imm 0xffffffff00000001#64), -- 537: movabs rdx, 0xffffffff00000001
  .mulx .rbx .rax (.reg .r8), -- 538: mulx rbx, rax, r8
  .adcx .r11 (.reg .rax), -- 539: adcx r11, rax
  .adox .r12 (.reg .rbx), -- 540: adox r12, rbx
  .mulx .rbx .rax (.reg .r9), -- 541: mulx rbx, rax, r9
  .adcx .r12 (.reg .rax), -- 542: adcx r12, rax
  .adox .r13 (.reg .rbx), -- 543: adox r13, rbx
  .adcx .r13 (.reg .rcx), -- 544: adcx r13, rcx
  .mov32 .r9 .rcx, -- 545: mov r9d, ecx
  .adox .r9 (.reg .rcx), -- 546: adox r9, rcx
  .adcx .r9 (.reg .rcx), -- 547: adcx r9, rcx
  .add (.reg .r14) (.reg .r9), -- 548: add r14, r9
  .adc (.reg .r15) (.reg .rcx), -- 549: adc r15, rcx
  .mov32 .r8 .rcx, -- 550: mov r8d, ecx
  .adc (.reg .r8) (.reg .rcx), -- 551: adc r8, rcx
  .xor (.reg .rcx) (.reg .rcx), -- 552: xor ecx, ecx
  .mov (.reg .rdx) (.imm 0x100000000#64), -- 553: movabs rdx, 0x100000000
  .mulx .rbx .rax (.reg .r10), -- 554: mulx rbx, rax, r10
  .adcx .r11 (.reg .rax), -- 555: adcx r11, rax
  .adox .r12 (.reg .rbx), -- 556: adox r12, rbx
  .mulx .rbx .rax (.reg .r11), -- 557: mulx rbx, rax, r11
  .adcx .r12 (.reg .rax), -- 558: adcx r12, rax
  .adox .r13 (.reg .rbx), -- 559: adox r13, rbx
  .mov (.reg .rdx) (.imm 0xffffffff00000001#64), -- 560: movabs rdx, 0xffffffff00000001
  .mulx .rbx .rax (.reg .r10), -- 561: mulx rbx, rax, r10
  .adcx .r13 (.reg .rax), -- 562: adcx r13, rax
  .adox .r14 (.reg .rbx), -- 563: adox r14, rbx
  .mulx .rbx .rax (.reg .r11), -- 564: mulx rbx, rax, r11
  .adcx .r14 (.reg .rax), -- 565: adcx r14, rax
  .adox .r15 (.reg .rbx), -- 566: adox r15, rbx
  .adcx .r15 (.reg .rcx), -- 567: adcx r15, rcx
  .adox .r8 (.reg .rcx), -- 568: adox r8, rcx
  .adc (.reg .r8) (.reg .rcx), -- 569: adc r8, rcx
  .mov (.reg .r8) (.imm 1#64), -- 570: mov r8d, 0x1
  .lea .rdx ⟨some .rdx, none, 0xffffffffffffffff#64⟩, -- 571: lea rdx, [rdx -0x1]
  .lea .rax ⟨some .rcx, none, 0xffffffffffffffff#64⟩, -- 572: lea rax, [rcx -0x1]
  .mov (.reg .r11) (.imm 0xfffffffe#64), -- 573: mov r11d, 0xfffffffe
  .cmov .zr .r8 (.reg .rcx), -- 574: cmovz r8, rcx
  .cmov .zr .rdx (.reg .rcx), -- 575: cmovz rdx, rcx
  .cmov .zr .rax (.reg .rcx), -- 576: cmovz rax, rcx
  .cmov .zr .r11 (.reg .rcx), -- 577: cmovz r11, rcx
  .add (.reg .r12) (.reg .r8), -- 578: add r12, r8
  .adc (.reg .r13) (.reg .rdx), -- 579: adc r13, rdx
  .adc (.reg .r14) (.reg .rax), -- 580: adc r14, rax
  .adc (.reg .r15) (.reg .r11), -- 581: adc r15, r11
  .mov (.mem ⟨some .rsp, none, 96#64⟩) (.reg .r12), -- 582: mov [rsp + (32* 3)], r12
  .mov (.mem ⟨some .rsp, none, 104#64⟩) (.reg .r13), -- 583: mov [rsp + (32* 3)+ 0x8], r13
  .mov (.mem ⟨some .rsp, none, 112#64⟩) (.reg .r14), -- 584: mov [rsp + (32* 3)+ 0x10], r14
  .mov (.mem ⟨some .rsp, none, 120#64⟩) (.reg .r15), -- 585: mov [rsp + (32* 3)+ 0x18], r15
  .mov (.reg .rdx) (.mem ⟨some .rsp, none, 32#64⟩), -- 586: mov rdx, [rsp + (32* 1)]
  .mulx .r15 .r8 (.reg .rdx), -- 587: mulx r15, r8, rdx
  .mulx .r10 .r9 (.mem ⟨some .rsp, none, 40#64⟩), -- 588: mulx r10, r9, [rsp + (32* 1)+ 0x8]
  .mulx .r12 .r11 (.mem ⟨some .rsp, none, 56#64⟩), -- 589: mulx r12, r11, [rsp + (32* 1)+ 0x18]
  .mov (.reg .rdx) (.mem ⟨some .rsp, none, 48#64⟩), -- 590: mov rdx, [rsp + (32* 1)+ 0x10]
  .mulx .r14 .r13 (.mem ⟨some .rsp, none, 56#64⟩), -- 591: mulx r14, r13, [rsp + (32* 1)+ 0x18]
  .xor (.reg .rcx) (.reg .rcx), -- 592: xor ecx, ecx
  .mulx .rbx .rax (.mem ⟨some .rsp, none, 32#64⟩), -- 593: mulx rbx, rax, [rsp + (32* 1)]
  .adcx .r10 (.reg .rax), -- 594: adcx r10, rax
  .adox .r11 (.reg .rbx), -- 595: adox r11, rbx
  .mulx .rbx .rax (.mem ⟨some .rsp, none, 40#64⟩), -- 596: mulx rbx, rax, [rsp + (32* 1)+ 0x8]
  .adcx .r11 (.reg .rax), -- 597: adcx r11, rax
  .adox .r12 (.reg .rbx), -- 598: adox r12, rbx
  .mov (.reg .rdx) (.mem ⟨some .rsp, none, 56#64⟩), -- 599: mov rdx, [rsp + (32* 1)+ 0x18]
  .mulx .rbx .rax (.mem ⟨some .rsp, none, 40#64⟩), -- 600: mulx rbx, rax, [rsp + (32* 1)+ 0x8]
  .adcx .r12 (.reg .rax), -- 601: adcx r12, rax
  .adox .r13 (.reg .rbx), -- 602: adox r13, rbx
  .adcx .r13 (.reg .rcx), -- 603: adcx r13, rcx
  .adox .r14 (.reg .rcx), -- 604: adox r14, rcx
  .adc (.reg .r14) (.reg .rcx), -- 605: adc r14, rcx
  .xor (.reg .rcx) (.reg .rcx), -- 606: xor ecx, ecx
  .adcx .r9 (.reg .r9), -- 607: adcx r9, r9
  .adox .r9 (.reg .r15), -- 608: adox r9, r15
  .mov (.reg .rdx) (.mem ⟨some .rsp, none, 40#64⟩), -- 609: mov rdx, [rsp + (32* 1)+ 0x8]
  .mulx .rdx .rax (.reg .rdx), -- 610: mulx rdx, rax, rdx
  .adcx .r10 (.reg .r10), -- 611: adcx r10, r10
  .adox .r10 (.reg .rax), -- 612: adox r10, rax
  .adcx .r11 (.reg .r11), -- 613: adcx r11, r11
  .adox .r11 (.reg .rdx), -- 614: adox r11, rdx
  .mov (.reg .rdx) (.mem ⟨some .rsp, none, 48#64⟩), -- 615: mov rdx, [rsp + (32* 1)+ 0x10]
  .mulx .rdx .rax (.reg .rdx), -- 616: mulx rdx, rax, rdx
  .adcx .r12 (.reg .r12), -- 617: adcx r12, r12
  .adox .r12 (.reg .rax), -- 618: adox r12, rax
  .adcx .r13 (.reg .r13), -- 619: adcx r13, r13
  .adox .r13 (.reg .rdx), -- 620: adox r13, rdx
  .mov (.reg .rdx) (.mem ⟨some .rsp, none, 56#64⟩), -- 621: mov rdx, [rsp + (32* 1)+ 0x18]
  .mulx .r15 .rax (.reg .rdx), -- 622: mulx r15, rax, rdx
  .adcx .r14 (.reg .r14), -- 623: adcx r14, r14
  .adox .r14 (.reg .rax), -- 624: adox r14, rax
  .adcx .r15 (.reg .rcx), -- 625: adcx r15, rcx
  .adox .r15 (.reg .rcx), -- 626: adox r15, rcx
  .xor (.reg .rcx) (.reg .rcx), -- 627: xor ecx, ecx
  .mov (.reg .rdx) (.imm 0x100000000#64), -- 628: movabs rdx, 0x100000000
  .mulx .rbx .rax (.reg .r8), -- 629: mulx rbx, rax, r8
  .adcx .r9 (.reg .rax), -- 630: adcx r9, rax
  .adox .r10 (.reg .rbx), -- 631: adox r10, rbx
  .mulx .rbx .rax (.reg .r9), -- 632: mulx rbx, rax, r9
  .adcx .r10 (.reg .rax), -- 633: adcx r10, rax
  .adox .r11 (.reg .rbx), -- 634: adox r11, rbx
  .mov (.reg .rdx) (.imm 0xffffffff00000001#64), -- 635: movabs rdx, 0xffffffff00000001
  .mulx .rbx .rax (.reg .r8), -- 636: mulx rbx, rax, r8
  .adcx .r11 (.reg .rax), -- 637: adcx r11, rax
  .adox .r12 (.reg .rbx), -- 638: adox r12, rbx
  .mulx .rbx .rax (.reg .r9), -- 639: mulx rbx, rax, r9
  .adcx .r12 (.reg .rax), -- 640: adcx r12, rax
  .adox .r13 (.reg .rbx), -- 641: adox r13, rbx
  .adcx .r13 (.reg .rcx), -- 642: adcx r13, rcx
  .mov32 .r9 .rcx, -- 643: mov r9d, ecx
  .adox .r9 (.reg .rcx), -- 644: adox r9, rcx
  .adcx .r9 (.reg .rcx), -- 645: adcx r9, rcx
  .add (.reg .r14) (.reg .r9), -- 646: add r14, r9
  .adc (.reg .r15) (.reg .rcx), -- 647: adc r15, rcx
  .mov32 .r8 .rcx, -- 648: mov r8d, ecx
  .adc (.reg .r8) (.reg .rcx), -- 649: adc r8, rcx
  .xor (.reg .rcx) (.reg .rcx), -- 650: xor ecx, ecx
  .mov (.reg .rdx) (.imm 0x100000000#64), -- 651: movabs rdx, 0x100000000
  .mulx .rbx .rax (.reg .r10), -- 652: mulx rbx, rax, r10
  .adcx .r11 (.reg .rax), -- 653: adcx r11, rax
  .adox .r12 (.reg .rbx), -- 654: adox r12, rbx
  .mulx .rbx .rax (.reg .r11), -- 655: mulx rbx, rax, r11
  .adcx .r12 (.reg .rax), -- 656: adcx r12, rax
  .adox .r13 (.reg .rbx), -- 657: adox r13, rbx
  .mov (.reg .rdx) (.imm 0xffffffff00000001#64), -- 658: movabs rdx, 0xffffffff00000001
  .mulx .rbx .rax (.reg .r10), -- 659: mulx rbx, rax, r10
  .adcx .r13 (.reg .rax), -- 660: adcx r13, rax
  .adox .r14 (.reg .rbx), -- 661: adox r14, rbx
  .mulx .rbx .rax (.reg .r11), -- 662: mulx rbx, rax, r11
  .adcx .r14 (.reg .rax), -- 663: adcx r14, rax
  .adox .r15 (.reg .rbx), -- 664: adox r15, rbx
  .adcx .r15 (.reg .rcx), -- 665: adcx r15, rcx
  .adox .r8 (.reg .rcx), -- 666: adox r8, rcx
  .adc (.reg .r8) (.reg .rcx), -- 667: adc r8, rcx
  .mov (.reg .rbx) (.imm 1#64), -- 668: mov ebx, 0x1
  .add (.reg .rbx) (.reg .r12), -- 669: add rbx, r12
  .lea .rdx ⟨some .rdx, none, 0xffffffffffffffff#64⟩, -- 670: lea rdx, [rdx -0x1]
  .adc (.reg .rdx) (.reg .r13), -- 671: adc rdx, r13
  .lea .rcx ⟨some .rcx, none, 0xffffffffffffffff#64⟩, -- 672: lea rcx, [rcx -0x1]
  .mov (.reg .rax) (.reg .rcx), -- 673: mov rax, rcx
  .adc (.reg .rcx) (.reg .r14), -- 674: adc rcx, r14
  .mov (.reg .r11) (.imm 0xfffffffe#64), -- 675: mov r11d, 0xfffffffe
  .adc (.reg .r11) (.reg .r15), -- 676: adc r11, r15
  .adc (.reg .rax) (.reg .r8), -- 677: adc rax, r8
  .cmov .cy .r12 (.reg .rbx), -- 678: cmovb r12, rbx
  .cmov .cy .r13 (.reg .rdx), -- 679: cmovb r13, rdx
  .cmov .cy .r14 (.reg .rcx), -- 680: cmovb r14, rcx
  .cmov .cy .r15 (.reg .r11), -- 681: cmovb r15, r11
  .mov (.mem ⟨some .rsp, none, 0#64⟩) (.reg .r12), -- 682: mov [rsp + (32* 0)], r12
  .mov (.mem ⟨some .rsp, none, 8#64⟩) (.reg .r13), -- 683: mov [rsp + (32* 0)+ 0x8], r13
  .mov (.mem ⟨some .rsp, none, 16#64⟩) (.reg .r14), -- 684: mov [rsp + (32* 0)+ 0x10], r14
  .mov (.mem ⟨some .rsp, none, 24#64⟩) (.reg .r15), -- 685: mov [rsp + (32* 0)+ 0x18], r15
  .xor (.reg .r13) (.reg .r13), -- 686: xor r13d, r13d
  .mov (.reg .rdx) (.mem ⟨some .rsi, none, 0#64⟩), -- 687: mov rdx, [rsi + 0]
  .mulx .r9 .r8 (.mem ⟨some .rsp, none, 96#64⟩), -- 688: mulx r9, r8, [rsp + (32* 3)]
  .mulx .r10 .rbx (.mem ⟨some .rsp, none, 104#64⟩), -- 689: mulx r10, rbx, [rsp + (32* 3)+ 0x8]
  .adc (.reg .r9) (.reg .rbx), -- 690: adc r9, rbx
  .mulx .r11 .rbx (.mem ⟨some .rsp, none, 112#64⟩), -- 691: mulx r11, rbx, [rsp + (32* 3)+ 0x10]
  .adc (.reg .r10) (.reg .rbx), -- 692: adc r10, rbx
  .mulx .r12 .rbx (.mem ⟨some .rsp, none, 120#64⟩), -- 693: mulx r12, rbx, [rsp + (32* 3)+ 0x18]
  .adc (.reg .r11) (.reg .rbx), -- 694: adc r11, rbx
  .adc (.reg .r12) (.reg .r13), -- 695: adc r12, r13
  .mov (.reg .rdx) (.mem ⟨some .rsi, none, 8#64⟩), -- 696: mov rdx, [rsi + 0+ 0x8]
  .xor (.reg .r14) (.reg .r14), -- 697: xor r14d, r14d
  .mulx .rbx .rax (.mem ⟨some .rsp, none, 96#64⟩), -- 698: mulx rbx, rax, [rsp + (32* 3)]
  .adcx .r9 (.reg .rax), -- 699: adcx r9, rax
  .adox .r10 (.reg .rbx), -- 700: adox r10, rbx
  .mulx .rbx .rax (.mem ⟨some .rsp, none, 104#64⟩), -- 701: mulx rbx, rax, [rsp + (32* 3)+ 0x8]
  .adcx .r10 (.reg .rax), -- 702: adcx r10, rax
  .adox .r11 (.reg .rbx), -- 703: adox r11, rbx
  .mulx .rbx .rax (.mem ⟨some .rsp, none, 112#64⟩), -- 704: mulx rbx, rax, [rsp + (32* 3)+ 0x10]
  .adcx .r11 (.reg .rax), -- 705: adcx r11, rax
  .adox .r12 (.reg .rbx), -- 706: adox r12, rbx
  .mulx .rbx .rax (.mem ⟨some .rsp, none, 120#64⟩), -- 707: mulx rbx, rax, [rsp + (32* 3)+ 0x18]
  .adcx .r12 (.reg .rax), -- 708: adcx r12, rax
  .adox .r13 (.reg .rbx), -- 709: adox r13, rbx
  .adc (.reg .r13) (.reg .r14), -- 710: adc r13, r14
  .xor (.reg .r15) (.reg .r15), -- 711: xor r15d, r15d
  .mov (.reg .rdx) (.imm 0x100000000#64), -- 712: movabs rdx, 0x100000000
  .mulx .rbx .rax (.reg .r8), -- 713: mulx rbx, rax, r8
  .adcx .r9 (.reg .rax), -- 714: adcx r9, rax
  .adox .r10 (.reg .rbx), -- 715: adox r10, rbx
  .mulx .rbx .rax (.reg .r9), -- 716: mulx rbx, rax, r9
  .adcx .r10 (.reg .rax), -- 717: adcx r10, rax
  .adox .r11 (.reg .rbx), -- 718: adox r11, rbx
  .not (.reg .rdx), -- 719: not rdx
  .lea .rdx ⟨some .rdx, none, 2#64⟩, -- 720: lea rdx, [rdx + 0x2]
  .mulx .rbx .rax (.reg .r8), -- 721: mulx rbx, rax, r8
  .adcx .r11 (.reg .rax), -- 722: adcx r11, rax
  .adox .r12 (.reg .rbx), -- 723: adox r12, rbx
  .mulx .rbx .rax (.reg .r9), -- 724: mulx rbx, rax, r9
  .adcx .r12 (.reg .rax), -- 725: adcx r12, rax
  .adox .r13 (.reg .rbx), -- 726: adox r13, rbx
  .adcx .r13 (.reg .r15), -- 727: adcx r13, r15
  .adox .r14 (.reg .r15), -- 728: adox r14, r15
  .adc (.reg .r14) (.reg .r15), -- 729: adc r14, r15
  .mov (.reg .rdx) (.mem ⟨some .rsi, none, 16#64⟩), -- 730: mov rdx, [rsi + 0+ 0x10]
  .xor (.reg .r8) (.reg .r8), -- 731: xor r8d, r8d
  .mulx .rbx .rax (.mem ⟨some .rsp, none, 96#64⟩), -- 732: mulx rbx, rax, [rsp + (32* 3)]
  .adcx .r10 (.reg .rax), -- 733: adcx r10, rax
  .adox .r11 (.reg .rbx), -- 734: adox r11, rbx
  .mulx .rbx .rax (.mem ⟨some .rsp, none, 104#64⟩), -- 735: mulx rbx, rax, [rsp + (32* 3)+ 0x8]
  .adcx .r11 (.reg .rax), -- 736: adcx r11, rax
  .adox .r12 (.reg .rbx), -- 737: adox r12, rbx
  .mulx .rbx .rax (.mem ⟨some .rsp, none, 112#64⟩), -- 738: mulx rbx, rax, [rsp + (32* 3)+ 0x10]
  .adcx .r12 (.reg .rax), -- 739: adcx r12, rax
  .adox .r13 (.reg .rbx), -- 740: adox r13, rbx
  .adox .r14 (.reg .r8), -- 741: adox r14, r8
  .mulx .rbx .rax (.mem ⟨some .rsp, none, 120#64⟩), -- 742: mulx rbx, rax, [rsp + (32* 3)+ 0x18]
  .adc (.reg .r13) (.reg .rax), -- 743: adc r13, rax
  .adc (.reg .r14) (.reg .rbx), -- 744: adc r14, rbx
  .adc (.reg .r15) (.reg .r8), -- 745: adc r15, r8
  .mov (.reg .rdx) (.mem ⟨some .rsi, none, 24#64⟩), -- 746: mov rdx, [rsi + 0+ 0x18]
  .xor (.reg .r9) (.reg .r9), -- 747: xor r9d, r9d
  .mulx .rbx .rax (.mem ⟨some .rsp, none, 96#64⟩), -- 748: mulx rbx, rax, [rsp + (32* 3)]
  .adcx .r11 (.reg .rax), -- 749: adcx r11, rax
  .adox .r12 (.reg .rbx), -- 750: adox r12, rbx
  .mulx .rbx .rax (.mem ⟨some .rsp, none, 104#64⟩), -- 751: mulx rbx, rax, [rsp + (32* 3)+ 0x8]
  .adcx .r12 (.reg .rax), -- 752: adcx r12, rax
  .adox .r13 (.reg .rbx), -- 753: adox r13, rbx
  .mulx .rbx .rax (.mem ⟨some .rsp, none, 112#64⟩), -- 754: mulx rbx, rax, [rsp + (32* 3)+ 0x10]
  .adcx .r13 (.reg .rax), -- 755: adcx r13, rax
  .adox .r14 (.reg .rbx), -- 756: adox r14, rbx
  .adox .r15 (.reg .r9), -- 757: adox r15, r9
  .mulx .rbx .rax (.mem ⟨some .rsp, none, 120#64⟩), -- 758: mulx rbx, rax, [rsp + (32* 3)+ 0x18]
  .adc (.reg .r14) (.reg .rax), -- 759: adc r14, rax
  .adc (.reg .r15) (.reg .rbx), -- 760: adc r15, rbx
  .adc (.reg .r8) (.reg .r9), -- 761: adc r8, r9
  .xor (.reg .r9) (.reg .r9), -- 762: xor r9d, r9d
  .mov (.reg .rdx) (.imm 0x100000000#64), -- 763: movabs rdx, 0x100000000
  .mulx .rbx .rax (.reg .r10), -- 764: mulx rbx, rax, r10
  .adcx .r11 (.reg .rax), -- 765: adcx r11, rax
  .adox .r12 (.reg .rbx), -- 766: adox r12, rbx
  .mulx .rbx .rax (.reg .r11), -- 767: mulx rbx, rax, r11
  .adcx .r12 (.reg .rax), -- 768: adcx r12, rax
  .adox .r13 (.reg .rbx), -- 769: adox r13, rbx
  .not (.reg .rdx), -- 770: not rdx
  .lea .rdx ⟨some .rdx, none, 2#64⟩, -- 771: lea rdx, [rdx + 0x2]
  .mulx .rbx .rax (.reg .r10), -- 772: mulx rbx, rax, r10
  .adcx .r13 (.reg .rax), -- 773: adcx r13, rax
  .adox .r14 (.reg .rbx), -- 774: adox r14, rbx
  .mulx .rbx .rax (.reg .r11), -- 775: mulx rbx, rax, r11
  .adcx .r14 (.reg .rax), -- 776: adcx r14, rax
  .adox .r15 (.reg .rbx), -- 777: adox r15, rbx
  .adcx .r15 (.reg .r9), -- 778: adcx r15, r9
  .adox .r8 (.reg .r9), -- 779: adox r8, r9
  .adc (.reg .r8) (.reg .r9), -- 780: adc r8, r9
  .mov (.reg .rcx) (.imm 1#64), -- 781: mov ecx, 0x1
  .add (.reg .rcx) (.reg .r12), -- 782: add rcx, r12
  .dec (.reg .rdx), -- 783: dec rdx
  .adc (.reg .rdx) (.reg .r13), -- 784: adc rdx, r13
  .dec (.reg .r9), -- 785: dec r9
  .mov (.reg .rax) (.reg .r9), -- 786: mov rax, r9
  .adc (.reg .r9) (.reg .r14), -- 787: adc r9, r14
  .mov (.reg .r11) (.imm 0xfffffffe#64), -- 788: mov r11d, 0xfffffffe
  .adc (.reg .r11) (.reg .r15), -- 789: adc r11, r15
  .adc (.reg .rax) (.reg .r8), -- 790: adc rax, r8
  .cmov .cy .r12 (.reg .rcx), -- 791: cmovb r12, rcx
  .cmov .cy .r13 (.reg .rdx), -- 792: cmovb r13, rdx
  .cmov .cy .r14 (.reg .r9), -- 793: cmovb r14, r9
  .cmov .cy .r15 (.reg .r11), -- 794: cmovb r15, r11
  .mov (.mem ⟨some .rsp, none, 128#64⟩) (.reg .r12), -- 795: mov [rsp + (32* 4)], r12
  .mov (.mem ⟨some .rsp, none, 136#64⟩) (.reg .r13), -- 796: mov [rsp + (32* 4)+ 0x8], r13
  .mov (.mem ⟨some .rsp, none, 144#64⟩) (.reg .r14), -- 797: mov [rsp + (32* 4)+ 0x10], r14
  .mov (.mem ⟨some .rsp, none, 152#64⟩) (.reg .r15), -- 798: mov [rsp + (32* 4)+ 0x18], r15
  .xor (.reg .r13) (.reg .r13), -- 799: xor r13d, r13d
  .mov (.reg .rdx) (.mem ⟨some .rsp, none, 64#64⟩), -- 800: mov rdx, [rsp + (32* 2)]
  .mulx .r9 .r8 (.mem ⟨some .rsp, none, 96#64⟩), -- 801: mulx r9, r8, [rsp + (32* 3)]
  .mulx .r10 .rbx (.mem ⟨some .rsp, none, 104#64⟩), -- 802: mulx r10, rbx, [rsp + (32* 3)+ 0x8]
  .adc (.reg .r9) (.reg .rbx), -- 803: adc r9, rbx
  .mulx .r11 .rbx (.mem ⟨some .rsp, none, 112#64⟩), -- 804: mulx r11, rbx, [rsp + (32* 3)+ 0x10]
  .adc (.reg .r10) (.reg .rbx), -- 805: adc r10, rbx
  .mulx .r12 .rbx (.mem ⟨some .rsp, none, 120#64⟩), -- 806: mulx r12, rbx, [rsp + (32* 3)+ 0x18]
  .adc (.reg .r11) (.reg .rbx), -- 807: adc r11, rbx
  .adc (.reg .r12) (.reg .r13), -- 808: adc r12, r13
  .mov (.reg .rdx) (.mem ⟨some .rsp, none, 72#64⟩), -- 809: mov rdx, [rsp + (32* 2)+ 0x8]
  .xor (.reg .r14) (.reg .r14), -- 810: xor r14d, r14d
  .mulx .rbx .rax (.mem ⟨some .rsp, none, 96#64⟩), -- 811: mulx rbx, rax, [rsp + (32* 3)]
  .adcx .r9 (.reg .rax), -- 812: adcx r9, rax
  .adox .r10 (.reg .rbx), -- 813: adox r10, rbx
  .mulx .rbx .rax (.mem ⟨some .rsp, none, 104#64⟩), -- 814: mulx rbx, rax, [rsp + (32* 3)+ 0x8]
  .adcx .r10 (.reg .rax), -- 815: adcx r10, rax
  .adox .r11 (.reg .rbx), -- 816: adox r11, rbx
  .mulx .rbx .rax (.mem ⟨some .rsp, none, 112#64⟩), -- 817: mulx rbx, rax, [rsp + (32* 3)+ 0x10]
  .adcx .r11 (.reg .rax), -- 818: adcx r11, rax
  .adox .r12 (.reg .rbx), -- 819: adox r12, rbx
  .mulx .rbx .rax (.mem ⟨some .rsp, none, 120#64⟩), -- 820: mulx rbx, rax, [rsp + (32* 3)+ 0x18]
  .adcx .r12 (.reg .rax), -- 821: adcx r12, rax
  .adox .r13 (.reg .rbx), -- 822: adox r13, rbx
  .adc (.reg .r13) (.reg .r14), -- 823: adc r13, r14
  .xor (.reg .r15) (.reg .r15), -- 824: xor r15d, r15d
  .mov (.reg .rdx) (.imm 0x100000000#64), -- 825: movabs rdx, 0x100000000
  .mulx .rbx .rax (.reg .r8), -- 826: mulx rbx, rax, r8
  .adcx .r9 (.reg .rax), -- 827: adcx r9, rax
  .adox .r10 (.reg .rbx), -- 828: adox r10, rbx
  .mulx .rbx .rax (.reg .r9), -- 829: mulx rbx, rax, r9
  .adcx .r10 (.reg .rax), -- 830: adcx r10, rax
  .adox .r11 (.reg .rbx), -- 831: adox r11, rbx
  .not (.reg .rdx), -- 832: not rdx
  .lea .rdx ⟨some .rdx, none, 2#64⟩, -- 833: lea rdx, [rdx + 0x2]
  .mulx .rbx .rax (.reg .r8), -- 834: mulx rbx, rax, r8
  .adcx .r11 (.reg .rax), -- 835: adcx r11, rax
  .adox .r12 (.reg .rbx), -- 836: adox r12, rbx
  .mulx .rbx .rax (.reg .r9), -- 837: mulx rbx, rax, r9
  .adcx .r12 (.reg .rax), -- 838: adcx r12, rax
  .adox .r13 (.reg .rbx), -- 839: adox r13, rbx
  .adcx .r13 (.reg .r15), -- 840: adcx r13, r15
  .adox .r14 (.reg .r15), -- 841: adox r14, r15
  .adc (.reg .r14) (.reg .r15), -- 842: adc r14, r15
  .mov (.reg .rdx) (.mem ⟨some .rsp, none, 80#64⟩), -- 843: mov rdx, [rsp + (32* 2)+ 0x10]
  .xor (.reg .r8) (.reg .r8), -- 844: xor r8d, r8d
  .mulx .rbx .rax (.mem ⟨some .rsp, none, 96#64⟩), -- 845: mulx rbx, rax, [rsp + (32* 3)]
  .adcx .r10 (.reg .rax), -- 846: adcx r10, rax
  .adox .r11 (.reg .rbx), -- 847: adox r11, rbx
  .mulx .rbx .rax (.mem ⟨some .rsp, none, 104#64⟩), -- 848: mulx rbx, rax, [rsp + (32* 3)+ 0x8]
  .adcx .r11 (.reg .rax), -- 849: adcx r11, rax
  .adox .r12 (.reg .rbx), -- 850: adox r12, rbx
  .mulx .rbx .rax (.mem ⟨some .rsp, none, 112#64⟩), -- 851: mulx rbx, rax, [rsp + (32* 3)+ 0x10]
  .adcx .r12 (.reg .rax), -- 852: adcx r12, rax
  .adox .r13 (.reg .rbx), -- 853: adox r13, rbx
  .adox .r14 (.reg .r8), -- 854: adox r14, r8
  .mulx .rbx .rax (.mem ⟨some .rsp, none, 120#64⟩), -- 855: mulx rbx, rax, [rsp + (32* 3)+ 0x18]
  .adc (.reg .r13) (.reg .rax), -- 856: adc r13, rax
  .adc (.reg .r14) (.reg .rbx), -- 857: adc r14, rbx
  .adc (.reg .r15) (.reg .r8), -- 858: adc r15, r8
  .mov (.reg .rdx) (.mem ⟨some .rsp, none, 88#64⟩), -- 859: mov rdx, [rsp + (32* 2)+ 0x18]
  .xor (.reg .r9) (.reg .r9), -- 860: xor r9d, r9d
  .mulx .rbx .rax (.mem ⟨some .rsp, none, 96#64⟩), -- 861: mulx rbx, rax, [rsp + (32* 3)]
  .adcx .r11 (.reg .rax), -- 862: adcx r11, rax
  .adox .r12 (.reg .rbx), -- 863: adox r12, rbx
  .mulx .rbx .rax (.mem ⟨some .rsp, none, 104#64⟩), -- 864: mulx rbx, rax, [rsp + (32* 3)+ 0x8]
  .adcx .r12 (.reg .rax), -- 865: adcx r12, rax
  .adox .r13 (.reg .rbx), -- 866: adox r13, rbx
  .mulx .rbx .rax (.mem ⟨some .rsp, none, 112#64⟩), -- 867: mulx rbx, rax, [rsp + (32* 3)+ 0x10]
  .adcx .r13 (.reg .rax), -- 868: adcx r13, rax
  .adox .r14 (.reg .rbx), -- 869: adox r14, rbx
  .adox .r15 (.reg .r9), -- 870: adox r15, r9
  .mulx .rbx .rax (.mem ⟨some .rsp, none, 120#64⟩), -- 871: mulx rbx, rax, [rsp + (32* 3)+ 0x18]
  .adc (.reg .r14) (.reg .rax), -- 872: adc r14, rax
  .adc (.reg .r15) (.reg .rbx), -- 873: adc r15, rbx
  .adc (.reg .r8) (.reg .r9), -- 874: adc r8, r9
  .xor (.reg .r9) (.reg .r9), -- 875: xor r9d, r9d
  .mov (.reg .rdx) (.imm 0x100000000#64), -- 876: movabs rdx, 0x100000000
  .mulx .rbx .rax (.reg .r10), -- 877: mulx rbx, rax, r10
  .adcx .r11 (.reg .rax), -- 878: adcx r11, rax
  .adox .r12 (.reg .rbx), -- 879: adox r12, rbx
  .mulx .rbx .rax (.reg .r11), -- 880: mulx rbx, rax, r11
  .adcx .r12 (.reg .rax), -- 881: adcx r12, rax
  .adox .r13 (.reg .rbx), -- 882: adox r13, rbx
  .not (.reg .rdx), -- 883: not rdx
  .lea .rdx ⟨some .rdx, none, 2#64⟩, -- 884: lea rdx, [rdx + 0x2]
  .mulx .rbx .rax (.reg .r10), -- 885: mulx rbx, rax, r10
  .adcx .r13 (.reg .rax), -- 886: adcx r13, rax
  .adox .r14 (.reg .rbx), -- 887: adox r14, rbx
  .mulx .rbx .rax (.reg .r11), -- 888: mulx rbx, rax, r11
  .adcx .r14 (.reg .rax), -- 889: adcx r14, rax
  .adox .r15 (.reg .rbx), -- 890: adox r15, rbx
  .adcx .r15 (.reg .r9), -- 891: adcx r15, r9
  .adox .r8 (.reg .r9), -- 892: adox r8, r9
  .adc (.reg .r8) (.reg .r9), -- 893: adc r8, r9
  .mov (.reg .rcx) (.imm 1#64), -- 894: mov ecx, 0x1
  .add (.reg .rcx) (.reg .r12), -- 895: add rcx, r12
  .dec (.reg .rdx), -- 896: dec rdx
  .adc (.reg .rdx) (.reg .r13), -- 897: adc rdx, r13
  .dec (.reg .r9), -- 898: dec r9
  .mov (.reg .rax) (.reg .r9), -- 899: mov rax, r9
  .adc (.reg .r9) (.reg .r14), -- 900: adc r9, r14
  .mov (.reg .r11) (.imm 0xfffffffe#64), -- 901: mov r11d, 0xfffffffe
  .adc (.reg .r11) (.reg .r15), -- 902: adc r11, r15
  .adc (.reg .rax) (.reg .r8), -- 903: adc rax, r8
  .cmov .cy .r12 (.reg .rcx), -- 904: cmovb r12, rcx
  .cmov .cy .r13 (.reg .rdx), -- 905: cmovb r13, rdx
  .cmov .cy .r14 (.reg .r9), -- 906: cmovb r14, r9
  .cmov .cy .r15 (.reg .r11), -- 907: cmovb r15, r11
  .mov (.mem ⟨some .rsp, none, 64#64⟩) (.reg .r12), -- 908: mov [rsp + (32* 2)], r12
  .mov (.mem ⟨some .rsp, none, 72#64⟩) (.reg .r13), -- 909: mov [rsp + (32* 2)+ 0x8], r13
  .mov (.mem ⟨some .rsp, none, 80#64⟩) (.reg .r14), -- 910: mov [rsp + (32* 2)+ 0x10], r14
  .mov (.mem ⟨some .rsp, none, 88#64⟩) (.reg .r15), -- 911: mov [rsp + (32* 2)+ 0x18], r15
  .mov (.reg .rax) (.mem ⟨some .rsp, none, 0#64⟩), -- 912: mov rax, [rsp + (32* 0)]
  .sub (.reg .rax) (.mem ⟨some .rsp, none, 128#64⟩), -- 913: sub rax, [rsp + (32* 4)]
  .mov (.reg .rcx) (.mem ⟨some .rsp, none, 8#64⟩), -- 914: mov rcx, [rsp + (32* 0)+ 0x8]
  .sbb (.reg .rcx) (.mem ⟨some .rsp, none, 136#64⟩), -- 915: sbb rcx, [rsp + (32* 4)+ 0x8]
  .mov (.reg .r8) (.mem ⟨some .rsp, none, 16#64⟩), -- 916: mov r8, [rsp + (32* 0)+ 0x10]
  .sbb (.reg .r8) (.mem ⟨some .rsp, none, 144#64⟩), -- 917: sbb r8, [rsp + (32* 4)+ 0x10]
  .mov (.reg .r9) (.mem ⟨some .rsp, none, 24#64⟩), -- 918: mov r9, [rsp + (32* 0)+ 0x18]
  .sbb (.reg .r9) (.mem ⟨some .rsp, none, 152#64⟩), -- 919: sbb r9, [rsp + (32* 4)+ 0x18]
  .mov (.reg .r10) (.imm 0xffffffff#64), -- 920: mov r10d, 0xffffffff
  .sbb (.reg .r11) (.reg .r11), -- 921: sbb r11, r11
  .xor (.reg .rdx) (.reg .rdx), -- 922: xor rdx, rdx
  .and (.reg .r10) (.reg .r11), -- 923: and r10, r11
  .sub (.reg .rdx) (.reg .r10), -- 924: sub rdx, r10
  .add (.reg .rax) (.reg .r11), -- 925: add rax, r11
  .mov (.mem ⟨some .rsp, none, 0#64⟩) (.reg .rax), -- 926: mov [rsp + (32* 0)], rax
  .adc (.reg .rcx) (.reg .r10), -- 927: adc rcx, r10
  .mov (.mem ⟨some .rsp, none, 8#64⟩) (.reg .rcx), -- 928: mov [rsp + (32* 0)+ 0x8], rcx
  .adc (.reg .r8) (.imm 0#64), -- 929: adc r8, 0x0
  .mov (.mem ⟨some .rsp, none, 16#64⟩) (.reg .r8), -- 930: mov [rsp + (32* 0)+ 0x10], r8
  .adc (.reg .r9) (.reg .rdx), -- 931: adc r9, rdx
  .mov (.mem ⟨some .rsp, none, 24#64⟩) (.reg .r9), -- 932: mov [rsp + (32* 0)+ 0x18], r9
  .mov (.reg .rax) (.mem ⟨some .rsp, none, 64#64⟩), -- 933: mov rax, [rsp + (32* 2)]
  .sub (.reg .rax) (.mem ⟨some .rsp, none, 128#64⟩), -- 934: sub rax, [rsp + (32* 4)]
  .mov (.reg .rcx) (.mem ⟨some .rsp, none, 72#64⟩), -- 935: mov rcx, [rsp + (32* 2)+ 0x8]
  .sbb (.reg .rcx) (.mem ⟨some .rsp, none, 136#64⟩), -- 936: sbb rcx, [rsp + (32* 4)+ 0x8]
  .mov (.reg .r8) (.mem ⟨some .rsp, none, 80#64⟩), -- 937: mov r8, [rsp + (32* 2)+ 0x10]
  .sbb (.reg .r8) (.mem ⟨some .rsp, none, 144#64⟩), -- 938: sbb r8, [rsp + (32* 4)+ 0x10]
  .mov (.reg .r9) (.mem ⟨some .rsp, none, 88#64⟩), -- 939: mov r9, [rsp + (32* 2)+ 0x18]
  .sbb (.reg .r9) (.mem ⟨some .rsp, none, 152#64⟩), -- 940: sbb r9, [rsp + (32* 4)+ 0x18]
  .mov (.reg .r10) (.imm 0xffffffff#64), -- 941: mov r10d, 0xffffffff
  .sbb (.reg .r11) (.reg .r11), -- 942: sbb r11, r11
  .xor (.reg .rdx) (.reg .rdx), -- 943: xor rdx, rdx
  .and (.reg .r10) (.reg .r11), -- 944: and r10, r11
  .sub (.reg .rdx) (.reg .r10), -- 945: sub rdx, r10
  .add (.reg .rax) (.reg .r11), -- 946: add rax, r11
  .mov (.mem ⟨some .rsp, none, 96#64⟩) (.reg .rax), -- 947: mov [rsp + (32* 3)], rax
  .adc (.reg .rcx) (.reg .r10), -- 948: adc rcx, r10
  .mov (.mem ⟨some .rsp, none, 104#64⟩) (.reg .rcx), -- 949: mov [rsp + (32* 3)+ 0x8], rcx
  .adc (.reg .r8) (.imm 0#64), -- 950: adc r8, 0x0
  .mov (.mem ⟨some .rsp, none, 112#64⟩) (.reg .r8), -- 951: mov [rsp + (32* 3)+ 0x10], r8
  .adc (.reg .r9) (.reg .rdx), -- 952: adc r9, rdx
  .mov (.mem ⟨some .rsp, none, 120#64⟩) (.reg .r9), -- 953: mov [rsp + (32* 3)+ 0x18], r9
  .xor (.reg .r13) (.reg .r13), -- 954: xor r13d, r13d
  .mov (.reg .rdx) (.mem ⟨some .rsi, none, 64#64⟩), -- 955: mov rdx, [rsi + (2 * 32)]
  .mulx .r9 .r8 (.mem ⟨some .rsp, none, 160#64⟩), -- 956: mulx r9, r8, [rsp + (32* 5)]
  .mulx .r10 .rbx (.mem ⟨some .rsp, none, 168#64⟩), -- 957: mulx r10, rbx, [rsp + (32* 5)+ 0x8]
  .adc (.reg .r9) (.reg .rbx), -- 958: adc r9, rbx
  .mulx .r11 .rbx (.mem ⟨some .rsp, none, 176#64⟩), -- 959: mulx r11, rbx, [rsp + (32* 5)+ 0x10]
  .adc (.reg .r10) (.reg .rbx), -- 960: adc r10, rbx
  .mulx .r12 .rbx (.mem ⟨some .rsp, none, 184#64⟩), -- 961: mulx r12, rbx, [rsp + (32* 5)+ 0x18]
  .adc (.reg .r11) (.reg .rbx), -- 962: adc r11, rbx
  .adc (.reg .r12) (.reg .r13), -- 963: adc r12, r13
  .mov (.reg .rdx) (.mem ⟨some .rsi, none, 72#64⟩), -- 964: mov rdx, [rsi + (2 * 32)+ 0x8]
  .xor (.reg .r14) (.reg .r14), -- 965: xor r14d, r14d
  .mulx .rbx .rax (.mem ⟨some .rsp, none, 160#64⟩), -- 966: mulx rbx, rax, [rsp + (32* 5)]
  .adcx .r9 (.reg .rax), -- 967: adcx r9, rax
  .adox .r10 (.reg .rbx), -- 968: adox r10, rbx
  .mulx .rbx .rax (.mem ⟨some .rsp, none, 168#64⟩), -- 969: mulx rbx, rax, [rsp + (32* 5)+ 0x8]
  .adcx .r10 (.reg .rax), -- 970: adcx r10, rax
  .adox .r11 (.reg .rbx), -- 971: adox r11, rbx
  .mulx .rbx .rax (.mem ⟨some .rsp, none, 176#64⟩), -- 972: mulx rbx, rax, [rsp + (32* 5)+ 0x10]
  .adcx .r11 (.reg .rax), -- 973: adcx r11, rax
  .adox .r12 (.reg .rbx), -- 974: adox r12, rbx
  .mulx .rbx .rax (.mem ⟨some .rsp, none, 184#64⟩), -- 975: mulx rbx, rax, [rsp + (32* 5)+ 0x18]
  .adcx .r12 (.reg .rax), -- 976: adcx r12, rax
  .adox .r13 (.reg .rbx), -- 977: adox r13, rbx
  .adc (.reg .r13) (.reg .r14), -- 978: adc r13, r14
  .xor (.reg .r15) (.reg .r15), -- 979: xor r15d, r15d
  .mov (.reg .rdx) (.imm 0x100000000#64), -- 980: movabs rdx, 0x100000000
  .mulx .rbx .rax (.reg .r8), -- 981: mulx rbx, rax, r8
  .adcx .r9 (.reg .rax), -- 982: adcx r9, rax
  .adox .r10 (.reg .rbx), -- 983: adox r10, rbx
  .mulx .rbx .rax (.reg .r9), -- 984: mulx rbx, rax, r9
  .adcx .r10 (.reg .rax), -- 985: adcx r10, rax
  .adox .r11 (.reg .rbx), -- 986: adox r11, rbx
  .not (.reg .rdx), -- 987: not rdx
  .lea .rdx ⟨some .rdx, none, 2#64⟩, -- 988: lea rdx, [rdx + 0x2]
  .mulx .rbx .rax (.reg .r8), -- 989: mulx rbx, rax, r8
  .adcx .r11 (.reg .rax), -- 990: adcx r11, rax
  .adox .r12 (.reg .rbx), -- 991: adox r12, rbx
  .mulx .rbx .rax (.reg .r9), -- 992: mulx rbx, rax, r9
  .adcx .r12 (.reg .rax), -- 993: adcx r12, rax
  .adox .r13 (.reg .rbx), -- 994: adox r13, rbx
  .adcx .r13 (.reg .r15), -- 995: adcx r13, r15
  .adox .r14 (.reg .r15), -- 996: adox r14, r15
  .adc (.reg .r14) (.reg .r15), -- 997: adc r14, r15
  .mov (.reg .rdx) (.mem ⟨some .rsi, none, 80#64⟩), -- 998: mov rdx, [rsi + (2 * 32)+ 0x10]
  .xor (.reg .r8) (.reg .r8), -- 999: xor r8d, r8d
  .mulx .rbx .rax (.mem ⟨some .rsp, none, 160#64⟩), -- 1000: mulx rbx, rax, [rsp + (32* 5)]
  .adcx .r10 (.reg .rax), -- 1001: adcx r10, rax
  .adox .r11 (.reg .rbx), -- 1002: adox r11, rbx
  .mulx .rbx .rax (.mem ⟨some .rsp, none, 168#64⟩), -- 1003: mulx rbx, rax, [rsp + (32* 5)+ 0x8]
  .adcx .r11 (.reg .rax), -- 1004: adcx r11, rax
  .adox .r12 (.reg .rbx), -- 1005: adox r12, rbx
  .mulx .rbx .rax (.mem ⟨some .rsp, none, 176#64⟩), -- 1006: mulx rbx, rax, [rsp + (32* 5)+ 0x10]
  .adcx .r12 (.reg .rax), -- 1007: adcx r12, rax
  .adox .r13 (.reg .rbx), -- 1008: adox r13, rbx
  .adox .r14 (.reg .r8), -- 1009: adox r14, r8
  .mulx .rbx .rax (.mem ⟨some .rsp, none, 184#64⟩), -- 1010: mulx rbx, rax, [rsp + (32* 5)+ 0x18]
  .adc (.reg .r13) (.reg .rax), -- 1011: adc r13, rax
  .adc (.reg .r14) (.reg .rbx), -- 1012: adc r14, rbx
  .adc (.reg .r15) (.reg .r8), -- 1013: adc r15, r8
  .mov (.reg .rdx) (.mem ⟨some .rsi, none, 88#64⟩), -- 1014: mov rdx, [rsi + (2 * 32)+ 0x18]
  .xor (.reg .r9) (.reg .r9), -- 1015: xor r9d, r9d
  .mulx .rbx .rax (.mem ⟨some .rsp, none, 160#64⟩), -- 1016: mulx rbx, rax, [rsp + (32* 5)]
  .adcx .r11 (.reg .rax), -- 1017: adcx r11, rax
  .adox .r12 (.reg .rbx), -- 1018: adox r12, rbx
  .mulx .rbx .rax (.mem ⟨some .rsp, none, 168#64⟩), -- 1019: mulx rbx, rax, [rsp + (32* 5)+ 0x8]
  .adcx .r12 (.reg .rax), -- 1020: adcx r12, rax
  .adox .r13 (.reg .rbx), -- 1021: adox r13, rbx
  .mulx .rbx .rax (.mem ⟨some .rsp, none, 176#64⟩), -- 1022: mulx rbx, rax, [rsp + (32* 5)+ 0x10]
  .adcx .r13 (.reg .rax), -- 1023: adcx r13, rax
  .adox .r14 (.reg .rbx), -- 1024: adox r14, rbx
  .adox .r15 (.reg .r9), -- 1025: adox r15, r9
  .mulx .rbx .rax (.mem ⟨some .rsp, none, 184#64⟩), -- 1026: mulx rbx, rax, [rsp + (32* 5)+ 0x18]
  .adc (.reg .r14) (.reg .rax), -- 1027: adc r14, rax
  .adc (.reg .r15) (.reg .rbx), -- 1028: adc r15, rbx
  .adc (.reg .r8) (.reg .r9), -- 1029: adc r8, r9
  .xor (.reg .r9) (.reg .r9), -- 1030: xor r9d, r9d
  .mov (.reg .rdx) (.imm 0x100000000#64), -- 1031: movabs rdx, 0x100000000
  .mulx .rbx .rax (.reg .r10), -- 1032: mulx rbx, rax, r10
  .adcx .r11 (.reg .rax), -- 1033: adcx r11, rax
  .adox .r12 (.reg .rbx), -- 1034: adox r12, rbx
  .mulx .rbx .rax (.reg .r11), -- 1035: mulx rbx, rax, r11
  .adcx .r12 (.reg .rax), -- 1036: adcx r12, rax
  .adox .r13 (.reg .rbx), -- 1037: adox r13, rbx
  .not (.reg .rdx), -- 1038: not rdx
  .lea .rdx ⟨some .rdx, none, 2#64⟩, -- 1039: lea rdx, [rdx + 0x2]
  .mulx .rbx .rax (.reg .r10), -- 1040: mulx rbx, rax, r10
  .adcx .r13 (.reg .rax), -- 1041: adcx r13, rax
  .adox .r14 (.reg .rbx), -- 1042: adox r14, rbx
  .mulx .rbx .rax (.reg .r11), -- 1043: mulx rbx, rax, r11
  .adcx .r14 (.reg .rax), -- 1044: adcx r14, rax
  .adox .r15 (.reg .rbx), -- 1045: adox r15, rbx
  .adcx .r15 (.reg .r9), -- 1046: adcx r15, r9
  .adox .r8 (.reg .r9), -- 1047: adox r8, r9
  .adc (.reg .r8) (.reg .r9), -- 1048: adc r8, r9
  .mov (.reg .rcx) (.imm 1#64), -- 1049: mov ecx, 0x1
  .add (.reg .rcx) (.reg .r12), -- 1050: add rcx, r12
  .dec (.reg .rdx), -- 1051: dec rdx
  .adc (.reg .rdx) (.reg .r13), -- 1052: adc rdx, r13
  .dec (.reg .r9), -- 1053: dec r9
  .mov (.reg .rax) (.reg .r9), -- 1054: mov rax, r9
  .adc (.reg .r9) (.reg .r14), -- 1055: adc r9, r14
  .mov (.reg .r11) (.imm 0xfffffffe#64), -- 1056: mov r11d, 0xfffffffe
  .adc (.reg .r11) (.reg .r15), -- 1057: adc r11, r15
  .adc (.reg .rax) (.reg .r8), -- 1058: adc rax, r8
  .cmov .cy .r12 (.reg .rcx), -- 1059: cmovb r12, rcx
  .cmov .cy .r13 (.reg .rdx), -- 1060: cmovb r13, rdx
  .cmov .cy .r14 (.reg .r9), -- 1061: cmovb r14, r9
  .cmov .cy .r15 (.reg .r11), -- 1062: cmovb r15, r11
  .mov (.mem ⟨some .rsp, none, 160#64⟩) (.reg .r12), -- 1063: mov [rsp + (32* 5)], r12
  .mov (.mem ⟨some .rsp, none, 168#64⟩) (.reg .r13), -- 1064: mov [rsp + (32* 5)+ 0x8], r13
  .mov (.mem ⟨some .rsp, none, 176#64⟩) (.reg .r14), -- 1065: mov [rsp + (32* 5)+ 0x10], r14
  .mov (.mem ⟨some .rsp, none, 184#64⟩) (.reg .r15), -- 1066: mov [rsp + (32* 5)+ 0x18], r15
  .mov (.reg .rax) (.mem ⟨some .rsp, none, 0#64⟩), -- 1067: mov rax, [rsp + (32* 0)]
  .sub (.reg .rax) (.mem ⟨some .rsp, none, 64#64⟩), -- 1068: sub rax, [rsp + (32* 2)]
  .mov (.reg .rcx) (.mem ⟨some .rsp, none, 8#64⟩), -- 1069: mov rcx, [rsp + (32* 0)+ 0x8]
  .sbb (.reg .rcx) (.mem ⟨some .rsp, none, 72#64⟩), -- 1070: sbb rcx, [rsp + (32* 2)+ 0x8]
  .mov (.reg .r8) (.mem ⟨some .rsp, none, 16#64⟩), -- 1071: mov r8, [rsp + (32* 0)+ 0x10]
  .sbb (.reg .r8) (.mem ⟨some .rsp, none, 80#64⟩), -- 1072: sbb r8, [rsp + (32* 2)+ 0x10]
  .mov (.reg .r9) (.mem ⟨some .rsp, none, 24#64⟩), -- 1073: mov r9, [rsp + (32* 0)+ 0x18]
  .sbb (.reg .r9) (.mem ⟨some .rsp, none, 88#64⟩), -- 1074: sbb r9, [rsp + (32* 2)+ 0x18]
  .mov (.reg .r10) (.imm 0xffffffff#64), -- 1075: mov r10d, 0xffffffff
  .sbb (.reg .r11) (.reg .r11), -- 1076: sbb r11, r11
  .xor (.reg .rdx) (.reg .rdx), -- 1077: xor rdx, rdx
  .and (.reg .r10) (.reg .r11), -- 1078: and r10, r11
  .sub (.reg .rdx) (.reg .r10), -- 1079: sub rdx, r10
  .add (.reg .rax) (.reg .r11), -- 1080: add rax, r11
  .mov (.mem ⟨some .rsp, none, 0#64⟩) (.reg .rax), -- 1081: mov [rsp + (32* 0)], rax
  .adc (.reg .rcx) (.reg .r10), -- 1082: adc rcx, r10
  .mov (.mem ⟨some .rsp, none, 8#64⟩) (.reg .rcx), -- 1083: mov [rsp + (32* 0)+ 0x8], rcx
  .adc (.reg .r8) (.imm 0#64), -- 1084: adc r8, 0x0
  .mov (.mem ⟨some .rsp, none, 16#64⟩) (.reg .r8), -- 1085: mov [rsp + (32* 0)+ 0x10], r8
  .adc (.reg .r9) (.reg .rdx), -- 1086: adc r9, rdx
  .mov (.mem ⟨some .rsp, none, 24#64⟩) (.reg .r9), -- 1087: mov [rsp + (32* 0)+ 0x18], r9
  .mov (.reg .rax) (.mem ⟨some .rsp, none, 128#64⟩), -- 1088: mov rax, [rsp + (32* 4)]
  .sub (.reg .rax) (.mem ⟨some .rsp, none, 0#64⟩), -- 1089: sub rax, [rsp + (32* 0)]
  .mov (.reg .rcx) (.mem ⟨some .rsp, none, 136#64⟩), -- 1090: mov rcx, [rsp + (32* 4)+ 0x8]
  .sbb (.reg .rcx) (.mem ⟨some .rsp, none, 8#64⟩), -- 1091: sbb rcx, [rsp + (32* 0)+ 0x8]
  .mov (.reg .r8) (.mem ⟨some .rsp, none, 144#64⟩), -- 1092: mov r8, [rsp + (32* 4)+ 0x10]
  .sbb (.reg .r8) (.mem ⟨some .rsp, none, 16#64⟩), -- 1093: sbb r8, [rsp + (32* 0)+ 0x10]
  .mov (.reg .r9) (.mem ⟨some .rsp, none, 152#64⟩), -- 1094: mov r9, [rsp + (32* 4)+ 0x18]
  .sbb (.reg .r9) (.mem ⟨some .rsp, none, 24#64⟩), -- 1095: sbb r9, [rsp + (32* 0)+ 0x18]
  .mov (.reg .r10) (.imm 0xffffffff#64), -- 1096: mov r10d, 0xffffffff
  .sbb (.reg .r11) (.reg .r11), -- 1097: sbb r11, r11
  .xor (.reg .rdx) (.reg .rdx), -- 1098: xor rdx, rdx
  .and (.reg .r10) (.reg .r11), -- 1099: and r10, r11
  .sub (.reg .rdx) (.reg .r10), -- 1100: sub rdx, r10
  .add (.reg .rax) (.reg .r11), -- 1101: add rax, r11
  .mov (.mem ⟨some .rsp, none, 128#64⟩) (.reg .rax), -- 1102: mov [rsp + (32* 4)], rax
  .adc (.reg .rcx) (.reg .r10), -- 1103: adc rcx, r10
  .mov (.mem ⟨some .rsp, none, 136#64⟩) (.reg .rcx), -- 1104: mov [rsp + (32* 4)+ 0x8], rcx
  .adc (.reg .r8) (.imm 0#64), -- 1105: adc r8, 0x0
  .mov (.mem ⟨some .rsp, none, 144#64⟩) (.reg .r8), -- 1106: mov [rsp + (32* 4)+ 0x10], r8
  .adc (.reg .r9) (.reg .rdx), -- 1107: adc r9, rdx
  .mov (.mem ⟨some .rsp, none, 152#64⟩) (.reg .r9), -- 1108: mov [rsp + (32* 4)+ 0x18], r9
  .xor (.reg .r13) (.reg .r13), -- 1109: xor r13d, r13d
  .mov (.reg .rdx) (.mem ⟨some .rsi, none, 32#64⟩), -- 1110: mov rdx, [rsi + 32]
  .mulx .r9 .r8 (.mem ⟨some .rsp, none, 96#64⟩), -- 1111: mulx r9, r8, [rsp + (32* 3)]
  .mulx .r10 .rbx (.mem ⟨some .rsp, none, 104#64⟩), -- 1112: mulx r10, rbx, [rsp + (32* 3)+ 0x8]
  .adc (.reg .r9) (.reg .rbx), -- 1113: adc r9, rbx
  .mulx .r11 .rbx (.mem ⟨some .rsp, none, 112#64⟩), -- 1114: mulx r11, rbx, [rsp + (32* 3)+ 0x10]
  .adc (.reg .r10) (.reg .rbx), -- 1115: adc r10, rbx
  .mulx .r12 .rbx (.mem ⟨some .rsp, none, 120#64⟩), -- 1116: mulx r12, rbx, [rsp + (32* 3)+ 0x18]
  .adc (.reg .r11) (.reg .rbx), -- 1117: adc r11, rbx
  .adc (.reg .r12) (.reg .r13), -- 1118: adc r12, r13
  .mov (.reg .rdx) (.mem ⟨some .rsi, none, 40#64⟩), -- 1119: mov rdx, [rsi + 32+ 0x8]
  .xor (.reg .r14) (.reg .r14), -- 1120: xor r14d, r14d
  .mulx .rbx .rax (.mem ⟨some .rsp, none, 96#64⟩), -- 1121: mulx rbx, rax, [rsp + (32* 3)]
  .adcx .r9 (.reg .rax), -- 1122: adcx r9, rax
  .adox .r10 (.reg .rbx), -- 1123: adox r10, rbx
  .mulx .rbx .rax (.mem ⟨some .rsp, none, 104#64⟩), -- 1124: mulx rbx, rax, [rsp + (32* 3)+ 0x8]
  .adcx .r10 (.reg .rax), -- 1125: adcx r10, rax
  .adox .r11 (.reg .rbx), -- 1126: adox r11, rbx
  .mulx .rbx .rax (.mem ⟨some .rsp, none, 112#64⟩), -- 1127: mulx rbx, rax, [rsp + (32* 3)+ 0x10]
  .adcx .r11 (.reg .rax), -- 1128: adcx r11, rax
  .adox .r12 (.reg .rbx), -- 1129: adox r12, rbx
  .mulx .rbx .rax (.mem ⟨some .rsp, none, 120#64⟩), -- 1130: mulx rbx, rax, [rsp + (32* 3)+ 0x18]
  .adcx .r12 (.reg .rax), -- 1131: adcx r12, rax
  .adox .r13 (.reg .rbx), -- 1132: adox r13, rbx
  .adc (.reg .r13) (.reg .r14), -- 1133: adc r13, r14
  .xor (.reg .r15) (.reg .r15), -- 1134: xor r15d, r15d
  .mov (.reg .rdx) (.imm 0x100000000#64), -- 1135: movabs rdx, 0x100000000
  .mulx .rbx .rax (.reg .r8), -- 1136: mulx rbx, rax, r8
  .adcx .r9 (.reg .rax), -- 1137: adcx r9, rax
  .adox .r10 (.reg .rbx), -- 1138: adox r10, rbx
  .mulx .rbx .rax (.reg .r9), -- 1139: mulx rbx, rax, r9
  .adcx .r10 (.reg .rax), -- 1140: adcx r10, rax
  .adox .r11 (.reg .rbx), -- 1141: adox r11, rbx
  .not (.reg .rdx), -- 1142: not rdx
  .lea .rdx ⟨some .rdx, none, 2#64⟩, -- 1143: lea rdx, [rdx + 0x2]
  .mulx .rbx .rax (.reg .r8), -- 1144: mulx rbx, rax, r8
  .adcx .r11 (.reg .rax), -- 1145: adcx r11, rax
  .adox .r12 (.reg .rbx), -- 1146: adox r12, rbx
  .mulx .rbx .rax (.reg .r9), -- 1147: mulx rbx, rax, r9
  .adcx .r12 (.reg .rax), -- 1148: adcx r12, rax
  .adox .r13 (.reg .rbx), -- 1149: adox r13, rbx
  .adcx .r13 (.reg .r15), -- 1150: adcx r13, r15
  .adox .r14 (.reg .r15), -- 1151: adox r14, r15
  .adc (.reg .r14) (.reg .r15), -- 1152: adc r14, r15
  .mov (.reg .rdx) (.mem ⟨some .rsi, none, 48#64⟩), -- 1153: mov rdx, [rsi + 32+ 0x10]
  .xor (.reg .r8) (.reg .r8), -- 1154: xor r8d, r8d
  .mulx .rbx .rax (.mem ⟨some .rsp, none, 96#64⟩), -- 1155: mulx rbx, rax, [rsp + (32* 3)]
  .adcx .r10 (.reg .rax), -- 1156: adcx r10, rax
  .adox .r11 (.reg .rbx), -- 1157: adox r11, rbx
  .mulx .rbx .rax (.mem ⟨some .rsp, none, 104#64⟩), -- 1158: mulx rbx, rax, [rsp + (32* 3)+ 0x8]
  .adcx .r11 (.reg .rax), -- 1159: adcx r11, rax
  .adox .r12 (.reg .rbx), -- 1160: adox r12, rbx
  .mulx .rbx .rax (.mem ⟨some .rsp, none, 112#64⟩), -- 1161: mulx rbx, rax, [rsp + (32* 3)+ 0x10]
  .adcx .r12 (.reg .rax), -- 1162: adcx r12, rax
  .adox .r13 (.reg .rbx), -- 1163: adox r13, rbx
  .adox .r14 (.reg .r8), -- 1164: adox r14, r8
  .mulx .rbx .rax (.mem ⟨some .rsp, none, 120#64⟩), -- 1165: mulx rbx, rax, [rsp + (32* 3)+ 0x18]
  .adc (.reg .r13) (.reg .rax), -- 1166: adc r13, rax
  .adc (.reg .r14) (.reg .rbx), -- 1167: adc r14, rbx
  .adc (.reg .r15) (.reg .r8), -- 1168: adc r15, r8
  .mov (.reg .rdx) (.mem ⟨some .rsi, none, 56#64⟩), -- 1169: mov rdx, [rsi + 32+ 0x18]
  .xor (.reg .r9) (.reg .r9), -- 1170: xor r9d, r9d
  .mulx .rbx .rax (.mem ⟨some .rsp, none, 96#64⟩), -- 1171: mulx rbx, rax, [rsp + (32* 3)]
  .adcx .r11 (.reg .rax), -- 1172: adcx r11, rax
  .adox .r12 (.reg .rbx), -- 1173: adox r12, rbx
  .mulx .rbx .rax (.mem ⟨some .rsp, none, 104#64⟩), -- 1174: mulx rbx, rax, [rsp + (32* 3)+ 0x8]
  .adcx .r12 (.reg .rax), -- 1175: adcx r12, rax
  .adox .r13 (.reg .rbx), -- 1176: adox r13, rbx
  .mulx .rbx .rax (.mem ⟨some .rsp, none, 112#64⟩), -- 1177: mulx rbx, rax, [rsp + (32* 3)+ 0x10]
  .adcx .r13 (.reg .rax), -- 1178: adcx r13, rax
  .adox .r14 (.reg .rbx), -- 1179: adox r14, rbx
  .adox .r15 (.reg .r9), -- 1180: adox r15, r9
  .mulx .rbx .rax (.mem ⟨some .rsp, none, 120#64⟩), -- 1181: mulx rbx, rax, [rsp + (32* 3)+ 0x18]
  .adc (.reg .r14) (.reg .rax), -- 1182: adc r14, rax
  .adc (.reg .r15) (.reg .rbx), -- 1183: adc r15, rbx
  .adc (.reg .r8) (.reg .r9), -- 1184: adc r8, r9
  .xor (.reg .r9) (.reg .r9), -- 1185: xor r9d, r9d
  .mov (.reg .rdx) (.imm 0x100000000#64), -- 1186: movabs rdx, 0x100000000
  .mulx .rbx .rax (.reg .r10), -- 1187: mulx rbx, rax, r10
  .adcx .r11 (.reg .rax), -- 1188: adcx r11, rax
  .adox .r12 (.reg .rbx), -- 1189: adox r12, rbx
  .mulx .rbx .rax (.reg .r11), -- 1190: mulx rbx, rax, r11
  .adcx .r12 (.reg .rax), -- 1191: adcx r12, rax
  .adox .r13 (.reg .rbx), -- 1192: adox r13, rbx
  .not (.reg .rdx), -- 1193: not rdx
  .lea .rdx ⟨some .rdx, none, 2#64⟩, -- 1194: lea rdx, [rdx + 0x2]
  .mulx .rbx .rax (.reg .r10), -- 1195: mulx rbx, rax, r10
  .adcx .r13 (.reg .rax), -- 1196: adcx r13, rax
  .adox .r14 (.reg .rbx), -- 1197: adox r14, rbx
  .mulx .rbx .rax (.reg .r11), -- 1198: mulx rbx, rax, r11
  .adcx .r14 (.reg .rax), -- 1199: adcx r14, rax
  .adox .r15 (.reg .rbx), -- 1200: adox r15, rbx
  .adcx .r15 (.reg .r9), -- 1201: adcx r15, r9
  .adox .r8 (.reg .r9), -- 1202: adox r8, r9
  .adc (.reg .r8) (.reg .r9), -- 1203: adc r8, r9
  .mov (.reg .rcx) (.imm 1#64), -- 1204: mov ecx, 0x1
  .add (.reg .rcx) (.reg .r12), -- 1205: add rcx, r12
  .dec (.reg .rdx), -- 1206: dec rdx
  .adc (.reg .rdx) (.reg .r13), -- 1207: adc rdx, r13
  .dec (.reg .r9), -- 1208: dec r9
  .mov (.reg .rax) (.reg .r9), -- 1209: mov rax, r9
  .adc (.reg .r9) (.reg .r14), -- 1210: adc r9, r14
  .mov (.reg .r11) (.imm 0xfffffffe#64), -- 1211: mov r11d, 0xfffffffe
  .adc (.reg .r11) (.reg .r15), -- 1212: adc r11, r15
  .adc (.reg .rax) (.reg .r8), -- 1213: adc rax, r8
  .cmov .cy .r12 (.reg .rcx), -- 1214: cmovb r12, rcx
  .cmov .cy .r13 (.reg .rdx), -- 1215: cmovb r13, rdx
  .cmov .cy .r14 (.reg .r9), -- 1216: cmovb r14, r9
  .cmov .cy .r15 (.reg .r11), -- 1217: cmovb r15, r11
  .mov (.mem ⟨some .rsp, none, 96#64⟩) (.reg .r12), -- 1218: mov [rsp + (32* 3)], r12
  .mov (.mem ⟨some .rsp, none, 104#64⟩) (.reg .r13), -- 1219: mov [rsp + (32* 3)+ 0x8], r13
  .mov (.mem ⟨some .rsp, none, 112#64⟩) (.reg .r14), -- 1220: mov [rsp + (32* 3)+ 0x10], r14
  .mov (.mem ⟨some .rsp, none, 120#64⟩) (.reg .r15), -- 1221: mov [rsp + (32* 3)+ 0x18], r15
  .xor (.reg .r13) (.reg .r13), -- 1222: xor r13d, r13d
  .mov (.reg .rdx) (.mem ⟨some .rsp, none, 128#64⟩), -- 1223: mov rdx, [rsp + (32* 4)]
  .mulx .r9 .r8 (.mem ⟨some .rsp, none, 32#64⟩), -- 1224: mulx r9, r8, [rsp + (32* 1)]
  .mulx .r10 .rbx (.mem ⟨some .rsp, none, 40#64⟩), -- 1225: mulx r10, rbx, [rsp + (32* 1)+ 0x8]
  .adc (.reg .r9) (.reg .rbx), -- 1226: adc r9, rbx
  .mulx .r11 .rbx (.mem ⟨some .rsp, none, 48#64⟩), -- 1227: mulx r11, rbx, [rsp + (32* 1)+ 0x10]
  .adc (.reg .r10) (.reg .rbx), -- 1228: adc r10, rbx
  .mulx .r12 .rbx (.mem ⟨some .rsp, none, 56#64⟩), -- 1229: mulx r12, rbx, [rsp + (32* 1)+ 0x18]
  .adc (.reg .r11) (.reg .rbx), -- 1230: adc r11, rbx
  .adc (.reg .r12) (.reg .r13), -- 1231: adc r12, r13
  .mov (.reg .rdx) (.mem ⟨some .rsp, none, 136#64⟩), -- 1232: mov rdx, [rsp + (32* 4)+ 0x8]
  .xor (.reg .r14) (.reg .r14), -- 1233: xor r14d, r14d
  .mulx .rbx .rax (.mem ⟨some .rsp, none, 32#64⟩), -- 1234: mulx rbx, rax, [rsp + (32* 1)]
  .adcx .r9 (.reg .rax), -- 1235: adcx r9, rax
  .adox .r10 (.reg .rbx), -- 1236: adox r10, rbx
  .mulx .rbx .rax (.mem ⟨some .rsp, none, 40#64⟩), -- 1237: mulx rbx, rax, [rsp + (32* 1)+ 0x8]
  .adcx .r10 (.reg .rax), -- 1238: adcx r10, rax
  .adox .r11 (.reg .rbx), -- 1239: adox r11, rbx
  .mulx .rbx .rax (.mem ⟨some .rsp, none, 48#64⟩), -- 1240: mulx rbx, rax, [rsp + (32* 1)+ 0x10]
  .adcx .r11 (.reg .rax), -- 1241: adcx r11, rax
  .adox .r12 (.reg .rbx), -- 1242: adox r12, rbx
  .mulx .rbx .rax (.mem ⟨some .rsp, none, 56#64⟩), -- 1243: mulx rbx, rax, [rsp + (32* 1)+ 0x18]
  .adcx .r12 (.reg .rax), -- 1244: adcx r12, rax
  .adox .r13 (.reg .rbx), -- 1245: adox r13, rbx
  .adc (.reg .r13) (.reg .r14), -- 1246: adc r13, r14
  .xor (.reg .r15) (.reg .r15), -- 1247: xor r15d, r15d
  .mov (.reg .rdx) (.imm 0x100000000#64), -- 1248: movabs rdx, 0x100000000
  .mulx .rbx .rax (.reg .r8), -- 1249: mulx rbx, rax, r8
  .adcx .r9 (.reg .rax), -- 1250: adcx r9, rax
  .adox .r10 (.reg .rbx), -- 1251: adox r10, rbx
  .mulx .rbx .rax (.reg .r9), -- 1252: mulx rbx, rax, r9
  .adcx .r10 (.reg .rax), -- 1253: adcx r10, rax
  .adox .r11 (.reg .rbx), -- 1254: adox r11, rbx
  .not (.reg .rdx), -- 1255: not rdx
  .lea .rdx ⟨some .rdx, none, 2#64⟩, -- 1256: lea rdx, [rdx + 0x2]
  .mulx .rbx .rax (.reg .r8), -- 1257: mulx rbx, rax, r8
  .adcx .r11 (.reg .rax), -- 1258: adcx r11, rax
  .adox .r12 (.reg .rbx), -- 1259: adox r12, rbx
  .mulx .rbx .rax (.reg .r9), -- 1260: mulx rbx, rax, r9
  .adcx .r12 (.reg .rax), -- 1261: adcx r12, rax
  .adox .r13 (.reg .rbx), -- 1262: adox r13, rbx
  .adcx .r13 (.reg .r15), -- 1263: adcx r13, r15
  .adox .r14 (.reg .r15), -- 1264: adox r14, r15
  .adc (.reg .r14) (.reg .r15), -- 1265: adc r14, r15
  .mov (.reg .rdx) (.mem ⟨some .rsp, none, 144#64⟩), -- 1266: mov rdx, [rsp + (32* 4)+ 0x10]
  .xor (.reg .r8) (.reg .r8), -- 1267: xor r8d, r8d
  .mulx .rbx .rax (.mem ⟨some .rsp, none, 32#64⟩), -- 1268: mulx rbx, rax, [rsp + (32* 1)]
  .adcx .r10 (.reg .rax), -- 1269: adcx r10, rax
  .adox .r11 (.reg .rbx), -- 1270: adox r11, rbx
  .mulx .rbx .rax (.mem ⟨some .rsp, none, 40#64⟩), -- 1271: mulx rbx, rax, [rsp + (32* 1)+ 0x8]
  .adcx .r11 (.reg .rax), -- 1272: adcx r11, rax
  .adox .r12 (.reg .rbx), -- 1273: adox r12, rbx
  .mulx .rbx .rax (.mem ⟨some .rsp, none, 48#64⟩), -- 1274: mulx rbx, rax, [rsp + (32* 1)+ 0x10]
  .adcx .r12 (.reg .rax), -- 1275: adcx r12, rax
  .adox .r13 (.reg .rbx), -- 1276: adox r13, rbx
  .adox .r14 (.reg .r8), -- 1277: adox r14, r8
  .mulx .rbx .rax (.mem ⟨some .rsp, none, 56#64⟩), -- 1278: mulx rbx, rax, [rsp + (32* 1)+ 0x18]
  .adc (.reg .r13) (.reg .rax), -- 1279: adc r13, rax
  .adc (.reg .r14) (.reg .rbx), -- 1280: adc r14, rbx
  .adc (.reg .r15) (.reg .r8), -- 1281: adc r15, r8
  .mov (.reg .rdx) (.mem ⟨some .rsp, none, 152#64⟩), -- 1282: mov rdx, [rsp + (32* 4)+ 0x18]
  .xor (.reg .r9) (.reg .r9), -- 1283: xor r9d, r9d
  .mulx .rbx .rax (.mem ⟨some .rsp, none, 32#64⟩), -- 1284: mulx rbx, rax, [rsp + (32* 1)]
  .adcx .r11 (.reg .rax), -- 1285: adcx r11, rax
  .adox .r12 (.reg .rbx), -- 1286: adox r12, rbx
  .mulx .rbx .rax (.mem ⟨some .rsp, none, 40#64⟩), -- 1287: mulx rbx, rax, [rsp + (32* 1)+ 0x8]
  .adcx .r12 (.reg .rax), -- 1288: adcx r12, rax
  .adox .r13 (.reg .rbx), -- 1289: adox r13, rbx
  .mulx .rbx .rax (.mem ⟨some .rsp, none, 48#64⟩), -- 1290: mulx rbx, rax, [rsp + (32* 1)+ 0x10]
  .adcx .r13 (.reg .rax), -- 1291: adcx r13, rax
  .adox .r14 (.reg .rbx), -- 1292: adox r14, rbx
  .adox .r15 (.reg .r9), -- 1293: adox r15, r9
  .mulx .rbx .rax (.mem ⟨some .rsp, none, 56#64⟩), -- 1294: mulx rbx, rax, [rsp + (32* 1)+ 0x18]
  .adc (.reg .r14) (.reg .rax), -- 1295: adc r14, rax
  .adc (.reg .r15) (.reg .rbx), -- 1296: adc r15, rbx
  .adc (.reg .r8) (.reg .r9), -- 1297: adc r8, r9
  .xor (.reg .r9) (.reg .r9), -- 1298: xor r9d, r9d
  .mov (.reg .rdx) (.imm 0x100000000#64), -- 1299: movabs rdx, 0x100000000
  .mulx .rbx .rax (.reg .r10), -- 1300: mulx rbx, rax, r10
  .adcx .r11 (.reg .rax), -- 1301: adcx r11, rax
  .adox .r12 (.reg .rbx), -- 1302: adox r12, rbx
  .mulx .rbx .rax (.reg .r11), -- 1303: mulx rbx, rax, r11
  .adcx .r12 (.reg .rax), -- 1304: adcx r12, rax
  .adox .r13 (.reg .rbx), -- 1305: adox r13, rbx
  .not (.reg .rdx), -- 1306: not rdx
  .lea .rdx ⟨some .rdx, none, 2#64⟩, -- 1307: lea rdx, [rdx + 0x2]
  .mulx .rbx .rax (.reg .r10), -- 1308: mulx rbx, rax, r10
  .adcx .r13 (.reg .rax), -- 1309: adcx r13, rax
  .adox .r14 (.reg .rbx), -- 1310: adox r14, rbx
  .mulx .rbx .rax (.reg .r11), -- 1311: mulx rbx, rax, r11
  .adcx .r14 (.reg .rax), -- 1312: adcx r14, rax
  .adox .r15 (.reg .rbx), -- 1313: adox r15, rbx
  .adcx .r15 (.reg .r9), -- 1314: adcx r15, r9
  .adox .r8 (.reg .r9), -- 1315: adox r8, r9
  .adc (.reg .r8) (.reg .r9), -- 1316: adc r8, r9
  .mov (.reg .rcx) (.imm 1#64), -- 1317: mov ecx, 0x1
  .add (.reg .rcx) (.reg .r12), -- 1318: add rcx, r12
  .dec (.reg .rdx), -- 1319: dec rdx
  .adc (.reg .rdx) (.reg .r13), -- 1320: adc rdx, r13
  .dec (.reg .r9), -- 1321: dec r9
  .mov (.reg .rax) (.reg .r9), -- 1322: mov rax, r9
  .adc (.reg .r9) (.reg .r14), -- 1323: adc r9, r14
  .mov (.reg .r11) (.imm 0xfffffffe#64), -- 1324: mov r11d, 0xfffffffe
  .adc (.reg .r11) (.reg .r15), -- 1325: adc r11, r15
  .adc (.reg .rax) (.reg .r8), -- 1326: adc rax, r8
  .cmov .cy .r12 (.reg .rcx), -- 1327: cmovb r12, rcx
  .cmov .cy .r13 (.reg .rdx), -- 1328: cmovb r13, rdx
  .cmov .cy .r14 (.reg .r9), -- 1329: cmovb r14, r9
  .cmov .cy .r15 (.reg .r11), -- 1330: cmovb r15, r11
  .mov (.mem ⟨some .rsp, none, 128#64⟩) (.reg .r12), -- 1331: mov [rsp + (32* 4)], r12
  .mov (.mem ⟨some .rsp, none, 136#64⟩) (.reg .r13), -- 1332: mov [rsp + (32* 4)+ 0x8], r13
  .mov (.mem ⟨some .rsp, none, 144#64⟩) (.reg .r14), -- 1333: mov [rsp + (32* 4)+ 0x10], r14
  .mov (.mem ⟨some .rsp, none, 152#64⟩) (.reg .r15), -- 1334: mov [rsp + (32* 4)+ 0x18], r15
  .mov (.reg .rax) (.mem ⟨some .rsp, none, 128#64⟩), -- 1335: mov rax, [rsp + (32* 4)]
  .sub (.reg .rax) (.mem ⟨some .rsp, none, 96#64⟩), -- 1336: sub rax, [rsp + (32* 3)]
  .mov (.reg .rcx) (.mem ⟨some .rsp, none, 136#64⟩), -- 1337: mov rcx, [rsp + (32* 4)+ 0x8]
  .sbb (.reg .rcx) (.mem ⟨some .rsp, none, 104#64⟩), -- 1338: sbb rcx, [rsp + (32* 3)+ 0x8]
  .mov (.reg .r8) (.mem ⟨some .rsp, none, 144#64⟩), -- 1339: mov r8, [rsp + (32* 4)+ 0x10]
  .sbb (.reg .r8) (.mem ⟨some .rsp, none, 112#64⟩), -- 1340: sbb r8, [rsp + (32* 3)+ 0x10]
  .mov (.reg .r9) (.mem ⟨some .rsp, none, 152#64⟩), -- 1341: mov r9, [rsp + (32* 4)+ 0x18]
  .sbb (.reg .r9) (.mem ⟨some .rsp, none, 120#64⟩), -- 1342: sbb r9, [rsp + (32* 3)+ 0x18]
  .mov (.reg .r10) (.imm 0xffffffff#64), -- 1343: mov r10d, 0xffffffff
  .sbb (.reg .r11) (.reg .r11), -- 1344: sbb r11, r11
  .xor (.reg .rdx) (.reg .rdx), -- 1345: xor rdx, rdx
  .and (.reg .r10) (.reg .r11), -- 1346: and r10, r11
  .sub (.reg .rdx) (.reg .r10), -- 1347: sub rdx, r10
  .add (.reg .rax) (.reg .r11), -- 1348: add rax, r11
  .mov (.mem ⟨some .rsp, none, 128#64⟩) (.reg .rax), -- 1349: mov [rsp + (32* 4)], rax
  .adc (.reg .rcx) (.reg .r10), -- 1350: adc rcx, r10
  .mov (.mem ⟨some .rsp, none, 136#64⟩) (.reg .rcx), -- 1351: mov [rsp + (32* 4)+ 0x8], rcx
  .adc (.reg .r8) (.imm 0#64), -- 1352: adc r8, 0x0
  .mov (.mem ⟨some .rsp, none, 144#64⟩) (.reg .r8), -- 1353: mov [rsp + (32* 4)+ 0x10], r8
  .adc (.reg .r9) (.reg .rdx), -- 1354: adc r9, rdx
  .mov (.mem ⟨some .rsp, none, 152#64⟩) (.reg .r9), -- 1355: mov [rsp + (32* 4)+ 0x18], r9
  .mov (.reg .rax) (.mem ⟨some .rsi, none, 64#64⟩), -- 1356: mov rax, [rsi + (2 * 32)]
  .mov (.reg .rdx) (.mem ⟨some .rsi, none, 72#64⟩), -- 1357: mov rdx, [rsi + (2 * 32)+ 8]
  .or (.reg .rax) (.mem ⟨some .rsi, none, 80#64⟩), -- 1358: or rax, [rsi + (2 * 32)+ 16]
  .or (.reg .rdx) (.mem ⟨some .rsi, none, 88#64⟩), -- 1359: or rdx, [rsi + (2 * 32)+ 24]
  .or (.reg .rax) (.reg .rdx), -- 1360: or rax, rdx
  .mov (.reg .r8) (.mem ⟨some .rsp, none, 0#64⟩), -- 1361: mov r8, [rsp + (32* 0)]
  .mov (.reg .rax) (.mem ⟨some .rbp, none, 0#64⟩), -- 1362: mov rax, [rbp + 0]
  .cmov .zr .r8 (.reg .rax), -- 1363: cmovz r8, rax
  .mov (.reg .r9) (.mem ⟨some .rsp, none, 8#64⟩), -- 1364: mov r9, [rsp + (32* 0)+ 8]
  .mov (.reg .rax) (.mem ⟨some .rbp, none, 8#64⟩), -- 1365: mov rax, [rbp + 0+ 8]
  .cmov .zr .r9 (.reg .rax), -- 1366: cmovz r9, rax
  .mov (.reg .r10) (.mem ⟨some .rsp, none, 16#64⟩), -- 1367: mov r10, [rsp + (32* 0)+ 16]
  .mov (.reg .rax) (.mem ⟨some .rbp, none, 16#64⟩), -- 1368: mov rax, [rbp + 0+ 16]
  .cmov .zr .r10 (.reg .rax), -- 1369: cmovz r10, rax
  .mov (.reg .r11) (.mem ⟨some .rsp, none, 24#64⟩), -- 1370: mov r11, [rsp + (32* 0)+ 24]
  .mov (.reg .rax) (.mem ⟨some .rbp, none, 24#64⟩), -- 1371: mov rax, [rbp + 0+ 24]
  .cmov .zr .r11 (.reg .rax), -- 1372: cmovz r11, rax
  .mov (.reg .r12) (.mem ⟨some .rsp, none, 128#64⟩), -- 1373: mov r12, [rsp + (32* 4)]
  .mov (.reg .rax) (.mem ⟨some .rbp, none, 32#64⟩), -- 1374: mov rax, [rbp + 32]
  .cmov .zr .r12 (.reg .rax), -- 1375: cmovz r12, rax
  .mov (.reg .r13) (.mem ⟨some .rsp, none, 136#64⟩), -- 1376: mov r13, [rsp + (32* 4)+ 8]
  .mov (.reg .rax) (.mem ⟨some .rbp, none, 40#64⟩), -- 1377: mov rax, [rbp + 32+ 8]
  .cmov .zr .r13 (.reg .rax), -- 1378: cmovz r13, rax
  .mov (.reg .r14) (.mem ⟨some .rsp, none, 144#64⟩), -- 1379: mov r14, [rsp + (32* 4)+ 16]
  .mov (.reg .rax) (.mem ⟨some .rbp, none, 48#64⟩), -- 1380: mov rax, [rbp + 32+ 16]
  .cmov .zr .r14 (.reg .rax), -- 1381: cmovz r14, rax
  .mov (.reg .r15) (.mem ⟨some .rsp, none, 152#64⟩), -- 1382: mov r15, [rsp + (32* 4)+ 24]
  .mov (.reg .rax) (.mem ⟨some .rbp, none, 56#64⟩), -- 1383: mov rax, [rbp + 32+ 24]
  .cmov .zr .r15 (.reg .rax), -- 1384: cmovz r15, rax
  .mov (.mem ⟨some .rdi, none, 0#64⟩) (.reg .r8), -- 1385: mov [rdi + 0], r8
  .mov (.mem ⟨some .rdi, none, 8#64⟩) (.reg .r9), -- 1386: mov [rdi + 0+ 8], r9
  .mov (.mem ⟨some .rdi, none, 16#64⟩) (.reg .r10), -- 1387: mov [rdi + 0+ 16], r10
  .mov (.mem ⟨some .rdi, none, 24#64⟩) (.reg .r11), -- 1388: mov [rdi + 0+ 24], r11
  .mov (.mem ⟨some .rdi, none, 32#64⟩) (.reg .r12), -- 1389: mov [rdi + 32], r12
  .mov (.mem ⟨some .rdi, none, 40#64⟩) (.reg .r13), -- 1390: mov [rdi + 32+ 8], r13
  .mov (.mem ⟨some .rdi, none, 48#64⟩) (.reg .r14), -- 1391: mov [rdi + 32+ 16], r14
  .mov (.mem ⟨some .rdi, none, 56#64⟩) (.reg .r15), -- 1392: mov [rdi + 32+ 24], r15
  .mov (.reg .r8) (.mem ⟨some .rsp, none, 160#64⟩), -- 1393: mov r8, [rsp + (32* 5)]
  .mov (.reg .r9) (.mem ⟨some .rsp, none, 168#64⟩), -- 1394: mov r9, [rsp + (32* 5)+ 8]
  .mov (.reg .r10) (.mem ⟨some .rsp, none, 176#64⟩), -- 1395: mov r10, [rsp + (32* 5)+ 16]
  .mov (.reg .r11) (.mem ⟨some .rsp, none, 184#64⟩), -- 1396: mov r11, [rsp + (32* 5)+ 24]
  .mov (.reg .rax) (.imm 1#64), -- 1397: mov eax, 1
  .cmov .zr .r8 (.reg .rax), -- 1398: cmovz r8, rax
  .mov (.reg .rax) (.imm 0xffffffff00000000#64), -- 1399: mov rax, 0xffffffff00000000
  .cmov .zr .r9 (.reg .rax), -- 1400: cmovz r9, rax
  .mov (.reg .rax) (.imm 0xffffffffffffffff#64), -- 1401: mov rax, 0xffffffffffffffff
  .cmov .zr .r10 (.reg .rax), -- 1402: cmovz r10, rax
  .mov (.reg .rax) (.imm 0xfffffffe#64), -- 1403: mov eax, 0x00000000fffffffe
  .cmov .zr .r11 (.reg .rax), -- 1404: cmovz r11, rax
  .mov (.mem ⟨some .rdi, none, 64#64⟩) (.reg .r8), -- 1405: mov [rdi + (2 * 32)], r8
  .mov (.mem ⟨some .rdi, none, 72#64⟩) (.reg .r9), -- 1406: mov [rdi + (2 * 32)+ 8], r9
  .mov (.mem ⟨some .rdi, none, 80#64⟩) (.reg .r10), -- 1407: mov [rdi + (2 * 32)+ 16], r10
  .mov (.mem ⟨some .rdi, none, 88#64⟩) (.reg .r11), -- 1408: mov [rdi + (2 * 32)+ 24], r11
  .add (.reg .rsp) (.imm 192#64), -- 1409: add rsp, 32* 6
  .pop .r15, -- 1410: pop r15
  .pop .r14, -- 1411: pop r14
  .pop .r13, -- 1412: pop r13
  .pop .r12, -- 1413: pop r12
  .pop .rbp, -- 1414: pop rbp
  .pop .rbx] -- 1415: pop rbx

/-- The registers that the operands of p256_montjmixadd.rs:509-611 say may change. -/
def p256MontjmixaddRegs : List Reg := [.rdi, .rsi, .rdx, .r10, .r11, .r12, .r13, .r14, .r15, .r8, .r9, .rax, .rcx]

end Verif.X86.Asm
