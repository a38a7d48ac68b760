import Verif.Model.X86

/-!
Generated by tools/gen_asm.py from `graviola/src/low/x86_64`: the `asm!` blocks as lists of instructions.
The comment at the end of a line gives its position; jump targets are positions.
-/
namespace Verif.X86.Asm
open Verif.X86

/-- low/x86_64/bignum_emontredc_8n.rs:34-589.  Operands: inout("rdi") m.len() => _; inout("rsi") z.as_mut_ptr() => _; inout("rdx") m.as_ptr() => _; inout("rcx") w => _; out("rax") ret; out("r10") _; out("r11") _; out("r12") _; out("r13") _; out("r14") _; out("r15") _; out("r8") _; out("r9") _. -/
def bignumEmontredc8n : Prog := [
  .nop, -- 0: endbr64
  .push .rbp, -- 1: push rbp
  .push .rbx, -- 2: push rbx
  .push .r12, -- 3: push r12
  .push .r13, -- 4: push r13
  .push .r14, -- 5: push r14
  .push .r15, -- 6: push r15
  .xor (.reg .rax) (.reg .rax), -- 7: xor eax, eax
  .shr (.reg .rdi) (.imm 3#64), -- 8: shr rdi, 0x3
  .jcc .zr 526, -- 9: je @2f
  .lea .rbx ⟨some .rdi, none, 0xffffffffffffffff#64⟩, -- 10: lea rbx, [rdi -0x1]
  .shl (.reg .rbx) (.imm 6#64), -- 11: shl rbx, 0x6
  .push .rbx, -- 12: push rbx
  .push .rdi, -- 13: push rdi
  .sub (.reg .rsp) (.imm 16#64), -- 14: sub rsp, 0x10
  .mov (.mem ⟨some .rsp, none, 0#64⟩) (.imm 0#64), -- 15: mov QWORD PTR [rsp], 0x0
  .mov (.reg .rdi) (.reg .rdx), -- 16: mov rdi, rdx
  .mov (.reg .rdx) (.reg .rcx), -- 17: mov rdx, rcx
  .xor (.reg .rax) (.reg .rax), -- 18: xor eax, eax
  .mov (.reg .r8) (.mem ⟨some .rsi, none, 0#64⟩), -- 19: mov r8, QWORD PTR [rsi]
  .mulx .rax .rdx (.reg .r8), -- 20: mulx rax, rdx, r8
  .mov (.mem ⟨some .rsi, none, 0#64⟩) (.reg .rdx), -- 21: mov QWORD PTR [rsi], rdx
  .mov (.reg .r9) (.mem ⟨some .rsi, none, 8#64⟩), -- 22: mov r9, QWORD PTR [rsi + 0x8]
  .mulx .rbx .rax (.mem ⟨some .rdi, none, 0#64⟩), -- 23: mulx rbx, rax, QWORD PTR [rdi]
  .adcx .r8 (.reg .rax), -- 24: adcx r8, rax
  .adox .r9 (.reg .rbx), -- 25: adox r9, rbx
  .mov (.reg .r10) (.mem ⟨some .rsi, none, 16#64⟩), -- 26: mov r10, QWORD PTR [rsi + 0x10]
  .mulx .rbx .rax (.mem ⟨some .rdi, none, 8#64⟩), -- 27: mulx rbx, rax, QWORD PTR [rdi + 0x8]
  .adcx .r9 (.reg .rax), -- 28: adcx r9, rax
  .adox .r10 (.reg .rbx), -- 29: adox r10, rbx
  .mov (.reg .r11) (.mem ⟨some .rsi, none, 24#64⟩), -- 30: mov r11, QWORD PTR [rsi + 0x18]
  .mulx .rbx .rax (.mem ⟨some .rdi, none, 16#64⟩), -- 31: mulx rbx, rax, QWORD PTR [rdi + 0x10]
  .adcx .r10 (.reg .rax), -- 32: adcx r10, rax
  .adox .r11 (.reg .rbx), -- 33: adox r11, rbx
  .mov (.reg .r12) (.mem ⟨some .rsi, none, 32#64⟩), -- 34: mov r12, QWORD PTR [rsi + 0x20]
  .mulx .rbx .rax (.mem ⟨some .rdi, none, 24#64⟩), -- 35: mulx rbx, rax, QWORD PTR [rdi + 0x18]
  .adcx .r11 (.reg .rax), -- 36: adcx r11, rax
  .adox .r12 (.reg .rbx), -- 37: adox r12, rbx
  .mov (.reg .r13) (.mem ⟨some .rsi, none, 40#64⟩), -- 38: mov r13, QWORD PTR [rsi + 0x28]
  .mulx .rbx .rax (.mem ⟨some .rdi, none, 32#64⟩), -- 39: mulx rbx, rax, QWORD PTR [rdi + 0x20]
  .adcx .r12 (.reg .rax), -- 40: adcx r12, rax
  .adox .r13 (.reg .rbx), -- 41: adox r13, rbx
  .mov (.reg .r14) (.mem ⟨some .rsi, none, 48#64⟩), -- 42: mov r14, QWORD PTR [rsi + 0x30]
  .mulx .rbx .rax (.mem ⟨some .rdi, none, 40#64⟩), -- 43: mulx rbx, rax, QWORD PTR [rdi + 0x28]
  .adcx .r13 (.reg .rax), -- 44: adcx r13, rax
  .adox .r14 (.reg .rbx), -- 45: adox r14, rbx
  .mov (.reg .r15) (.mem ⟨some .rsi, none, 56#64⟩), -- 46: mov r15, QWORD PTR [rsi + 0x38]
  .mulx .rbx .rax (.mem ⟨some .rdi, none, 48#64⟩), -- 47: mulx rbx, rax, QWORD PTR [rdi + 0x30]
  .adcx .r14 (.reg .rax), -- 48: adcx r14, rax
  .adox .r15 (.reg .rbx), -- 49: adox r15, rbx
  .mulx .rbx .rax (.mem ⟨some .rdi, none, 56#64⟩), -- 50: mulx rbx, rax, QWORD PTR [rdi + 0x38]
  .adcx .r15 (.reg .rax), -- 51: adcx r15, rax
  .adox .r8 (.reg .rbx), -- 52: adox r8, rbx
  .adc (.reg .r8) (.imm 0#64), -- 53: adc r8, 0x0
  .mov (.reg .rdx) (.reg .rcx), -- 54: mov rdx, rcx
  .xor (.reg .rax) (.reg .rax), -- 55: xor eax, eax
  .mulx .rax .rdx (.reg .r9), -- 56: mulx rax, rdx, r9
  .mov (.mem ⟨some .rsi, none, 8#64⟩) (.reg .rdx), -- 57: mov QWORD PTR [rsi + 0x8], rdx
  .mulx .rbx .rax (.mem ⟨some .rdi, none, 0#64⟩), -- 58: mulx rbx, rax, QWORD PTR [rdi]
  .adcx .r9 (.reg .rax), -- 59: adcx r9, rax
  .adox .r10 (.reg .rbx), -- 60: adox r10, rbx
  .mulx .rbx .rax (.mem ⟨some .rdi, none, 8#64⟩), -- 61: mulx rbx, rax, QWORD PTR [rdi + 0x8]
  .adcx .r10 (.reg .rax), -- 62: adcx r10, rax
  .adox .r11 (.reg .rbx), -- 63: adox r11, rbx
  .mulx .rbx .rax (.mem ⟨some .rdi, none, 16#64⟩), -- 64: mulx rbx, rax, QWORD PTR [rdi + 0x10]
  .adcx .r11 (.reg .rax), -- 65: adcx r11, rax
  .adox .r12 (.reg .rbx), -- 66: adox r12, rbx
  .mulx .rbx .rax (.mem ⟨some .rdi, none, 24#64⟩), -- 67: mulx rbx, rax, QWORD PTR [rdi + 0x18]
  .adcx .r12 (.reg .rax), -- 68: adcx r12, rax
  .adox .r13 (.reg .rbx), -- 69: adox r13, rbx
  .mulx .rbx .rax (.mem ⟨some .rdi, none, 32#64⟩), -- 70: mulx rbx, rax, QWORD PTR [rdi + 0x20]
  .adcx .r13 (.reg .rax), -- 71: adcx r13, rax
  .adox .r14 (.reg .rbx), -- 72: adox r14, rbx
  .mulx .rbx .rax (.mem ⟨some .rdi, none, 40#64⟩), -- 73: mulx rbx, rax, QWORD PTR [rdi + 0x28]
  .adcx .r14 (.reg .rax), -- 74: adcx r14, rax
  .adox .r15 (.reg .rbx), -- 75: adox r15, rbx
  .mulx .rbx .rax (.mem ⟨some .rdi, none, 48#64⟩), -- 76: mulx rbx, rax, QWORD PTR [rdi + 0x30]
  .adcx .r15 (.reg .rax), -- 77: adcx r15, rax
  .adox .r8 (.reg .rbx), -- 78: adox r8, rbx
  .mulx .rbx .rax (.mem ⟨some .rdi, none, 56#64⟩), -- 79: mulx rbx, rax, QWORD PTR [rdi + 0x38]
  .adcx .r8 (.reg .rax), -- 80: adcx r8, rax
  .adox .r9 (.reg .rbx), -- 81: adox r9, rbx
  .adc (.reg .r9) (.imm 0#64), -- 82: adc r9, 0x0
  .mov (.reg .rdx) (.reg .rcx), -- 83: mov rdx, rcx
  .xor (.reg .rax) (.reg .rax), -- 84: xor eax, eax
  .mulx .rax .rdx (.reg .r10), -- 85: mulx rax, rdx, r10
  .mov (.mem ⟨some .rsi, none, 16#64⟩) (.reg .rdx), -- 86: mov QWORD PTR [rsi + 0x10], rdx
  .mulx .rbx .rax (.mem ⟨some .rdi, none, 0#64⟩), -- 87: mulx rbx, rax, QWORD PTR [rdi]
  .adcx .r10 (.reg .rax), -- 88: adcx r10, rax
  .adox .r11 (.reg .rbx), -- 89: adox r11, rbx
  .mulx .rbx .rax (.mem ⟨some .rdi, none, 8#64⟩), -- 90: mulx rbx, rax, QWORD PTR [rdi + 0x8]
  .adcx .r11 (.reg .rax), -- 91: adcx r11, rax
  .adox .r12 (.reg .rbx), -- 92: adox r12, rbx
  .mulx .rbx .rax (.mem ⟨some .rdi, none, 16#64⟩), -- 93: mulx rbx, rax, QWORD PTR [rdi + 0x10]
  .adcx .r12 (.reg .rax), -- 94: adcx r12, rax
  .adox .r13 (.reg .rbx), -- 95: adox r13, rbx
  .mulx .rbx .rax (.mem ⟨some .rdi, none, 24#64⟩), -- 96: mulx rbx, rax, QWORD PTR [rdi + 0x18]
  .adcx .r13 (.reg .rax), -- 97: adcx r13, rax
  .adox .r14 (.reg .rbx), -- 98: adox r14, rbx
  .mulx .rbx .rax (.mem ⟨some .rdi, none, 32#64⟩), -- 99: mulx rbx, rax, QWORD PTR [rdi + 0x20]
  .adcx .r14 (.reg .rax), -- 100: adcx r14, rax
  .adox .r15 (.reg .rbx), -- 101: adox r15, rbx
  .mulx .rbx .rax (.mem ⟨some .rdi, none, 40#64⟩), -- 102: mulx rbx, rax, QWORD PTR [rdi + 0x28]
  .adcx .r15 (.reg .rax), -- 103: adcx r15, rax
  .adox .r8 (.reg .rbx), -- 104: adox r8, rbx
  .mulx .rbx .rax (.mem ⟨some .rdi, none, 48#64⟩), -- 105: mulx rbx, rax, QWORD PTR [rdi + 0x30]
  .adcx .r8 (.reg .rax), -- 106: adcx r8, rax
  .adox .r9 (.reg .rbx), -- 107: adox r9, rbx
  .mulx .rbx .rax (.mem ⟨some .rdi, none, 56#64⟩), -- 108: mulx rbx, rax, QWORD PTR [rdi + 0x38]
  .adcx .r9 (.reg .rax), -- 109: adcx r9, rax
  .adox .r10 (.reg .rbx), -- 110: adox r10, rbx
  .adc (.reg .r10) (.imm 0#64), -- 111: adc r10, 0x0
  .mov (.reg .rdx) (.reg .rcx), -- 112: mov rdx, rcx
  .xor (.reg .rax) (.reg .rax), -- 113: xor eax, eax
  .mulx .rax .rdx (.reg .r11), -- 114: mulx rax, rdx, r11
  .mov (.mem ⟨some .rsi, none, 24#64⟩) (.reg .rdx), -- 115: mov QWORD PTR [rsi + 0x18], rdx
  .mulx .rbx .rax (.mem ⟨some .rdi, none, 0#64⟩), -- 116: mulx rbx, rax, QWORD PTR [rdi]
  .adcx .r11 (.reg .rax), -- 117: adcx r11, rax
  .adox .r12 (.reg .rbx), -- 118: adox r12, rbx
  .mulx .rbx .rax (.mem ⟨some .rdi, none, 8#64⟩), -- 119: mulx rbx, rax, QWORD PTR [rdi + 0x8]
  .adcx .r12 (.reg .rax), -- 120: adcx r12, rax
  .adox .r13 (.reg .rbx), -- 121: adox r13, rbx
  .mulx .rbx .rax (.mem ⟨some .rdi, none, 16#64⟩), -- 122: mulx rbx, rax, QWORD PTR [rdi + 0x10]
  .adcx .r13 (.reg .rax), -- 123: adcx r13, rax
  .adox .r14 (.reg .rbx), -- 124: adox r14, rbx
  .mulx .rbx .rax (.mem ⟨some .rdi, none, 24#64⟩), -- 125: mulx rbx, rax, QWORD PTR [rdi + 0x18]
  .adcx .r14 (.reg .rax), -- 126: adcx r14, rax
  .adox .r15 (.reg .rbx), -- 127: adox r15, rbx
  .mulx .rbx .rax (.mem ⟨some .rdi, none, 32#64⟩), -- 128: mulx rbx, rax, QWORD PTR [rdi + 0x20]
  .adcx .r15 (.reg .rax), -- 129: adcx r15, rax
  .adox .r8 (.reg .rbx), -- 130: adox r8, rbx
  .mulx .rbx .rax (.mem ⟨some .rdi, none, 40#64⟩), -- 131: mulx rbx, rax, QWORD PTR [rdi + 0x28]
  .adcx .r8 (.reg .rax), -- 132: adcx r8, rax
  .adox .r9 (.reg .rbx), -- 133: adox r9, rbx
  .mulx .rbx .rax (.mem ⟨some .rdi, none, 48#64⟩), -- 134: mulx rbx, rax, QWORD PTR [rdi + 0x30]
  .adcx .r9 (.reg .rax), -- 135: adcx r9, rax
  .adox .r10 (.reg .rbx), -- 136: adox r10, rbx
  .mulx .rbx .rax (.mem ⟨some .rdi, none, 56#64⟩), -- 137: mulx rbx, rax, QWORD PTR [rdi + 0x38]
  .adcx .r10 (.reg .rax), -- 138: adcx r10, rax
  .adox .r11 (.reg .rbx), -- 139: adox r11, rbx
  .adc (.reg .r11) (.imm 0#64), -- 140: adc r11, 0x0
  .mov (.reg .rdx) (.reg .rcx), -- 141: mov rdx, rcx
  .xor (.reg .rax) (.reg .rax), -- 142: xor eax, eax
  .mulx .rax .rdx (.reg .r12), -- 143: mulx rax, rdx, r12
  .mov (.mem ⟨some .rsi, none, 32#64⟩) (.reg .rdx), -- 144: mov QWORD PTR [rsi + 0x20], rdx
  .mulx .rbx .rax (.mem ⟨some .rdi, none, 0#64⟩), -- 145: mulx rbx, rax, QWORD PTR [rdi]
  .adcx .r12 (.reg .rax), -- 146: adcx r12, rax
  .adox .r13 (.reg .rbx), -- 147: adox r13, rbx
  .mulx .rbx .rax (.mem ⟨some .rdi, none, 8#64⟩), -- 148: mulx rbx, rax, QWORD PTR [rdi + 0x8]
  .adcx .r13 (.reg .rax), -- 149: adcx r13, rax
  .adox .r14 (.reg .rbx), -- 150: adox r14, rbx
  .mulx .rbx .rax (.mem ⟨some .rdi, none, 16#64⟩), -- 151: mulx rbx, rax, QWORD PTR [rdi + 0x10]
  .adcx .r14 (.reg .rax), -- 152: adcx r14, rax
  .adox .r15 (.reg .rbx), -- 153: adox r15, rbx
  .mulx .rbx .rax (.mem ⟨some .rdi, none, 24#64⟩), -- 154: mulx rbx, rax, QWORD PTR [rdi + 0x18]
  .adcx .r15 (.reg .rax), -- 155: adcx r15, rax
  .adox .r8 (.reg .rbx), -- 156: adox r8, rbx
  .mulx .rbx .rax (.mem ⟨some .rdi, none, 32#64⟩), -- 157: mulx rbx, rax, QWORD PTR [rdi + 0x20]
  .adcx .r8 (.reg .rax), -- 158: adcx r8, rax
  .adox .r9 (.reg .rbx), -- 159: adox r9, rbx
  .mulx .rbx .rax (.mem ⟨some .rdi, none, 40#64⟩), -- 160: mulx rbx, rax, QWORD PTR [rdi + 0x28]
  .adcx .r9 (.reg .rax), -- 161: adcx r9, rax
  .adox .r10 (.reg .rbx), -- 162: adox r10, rbx
  .mulx .rbx .rax (.mem ⟨some .rdi, none, 48#64⟩), -- 163: mulx rbx, rax, QWORD PTR [rdi + 0x30]
  .adcx .r10 (.reg .rax), -- 164: adcx r10, rax
  .adox .r11 (.reg .rbx), -- 165: adox r11, rbx
  .mulx .rbx .rax (.mem ⟨some .rdi, none, 56#64⟩), -- 166: mulx rbx, rax, QWORD PTR [rdi + 0x38]
  .adcx .r11 (.reg .rax), -- 167: adcx r11, rax
  .adox .r12 (.reg .rbx), -- 168: adox r12, rbx
  .adc (.reg .r12) (.imm 0#64), -- 169: adc r12, 0x0
  .mov (.reg .rdx) (.reg .rcx), -- 170: mov rdx, rcx
  .xor (.reg .rax) (.reg .rax), -- 171: xor eax, eax
  .mulx .rax .rdx (.reg .r13), -- 172: mulx rax, rdx, r13
  .mov (.mem ⟨some .rsi, none, 40#64⟩) (.reg .rdx), -- 173: mov QWORD PTR [rsi + 0x28], rdx
  .mulx .rbx .rax (.mem ⟨some .rdi, none, 0#64⟩), -- 174: mulx rbx, rax, QWORD PTR [rdi]
  .adcx .r13 (.reg .rax), -- 175: adcx r13, rax
  .adox .r14 (.reg .rbx), -- 176: adox r14, rbx
  .mulx .rbx .rax (.mem ⟨some .rdi, none, 8#64⟩), -- 177: mulx rbx, rax, QWORD PTR [rdi + 0x8]
  .adcx .r14 (.reg .rax), -- 178: adcx r14, rax
  .adox .r15 (.reg .rbx), -- 179: adox r15, rbx
  .mulx .rbx .rax (.mem ⟨some .rdi, none, 16#64⟩), -- 180: mulx rbx, rax, QWORD PTR [rdi + 0x10]
  .adcx .r15 (.reg .rax), -- 181: adcx r15, rax
  .adox .r8 (.reg .rbx), -- 182: adox r8, rbx
  .mulx .rbx .rax (.mem ⟨some .rdi, none, 24#64⟩), -- 183: mulx rbx, rax, QWORD PTR [rdi + 0x18]
  .adcx .r8 (.reg .rax), -- 184: adcx r8, rax
  .adox .r9 (.reg .rbx), -- 185: adox r9, rbx
  .mulx .rbx .rax (.mem ⟨some .rdi, none, 32#64⟩), -- 186: mulx rbx, rax, QWORD PTR [rdi + 0x20]
  .adcx .r9 (.reg .rax), -- 187: adcx r9, rax
  .adox .r10 (.reg .rbx), -- 188: adox r10, rbx
  .mulx .rbx .rax (.mem ⟨some .rdi, none, 40#64⟩), -- 189: mulx rbx, rax, QWORD PTR [rdi + 0x28]
  .adcx .r10 (.reg .rax), -- 190: adcx r10, rax
  .adox .r11 (.reg .rbx), -- 191: adox r11, rbx
  .mulx .rbx .rax (.mem ⟨some .rdi, none, 48#64⟩), -- 192: mulx rbx, rax, QWORD PTR [rdi + 0x30]
  .adcx .r11 (.reg .rax), -- 193: adcx r11, rax
  .adox .r12 (.reg .rbx), -- 194: adox r12, rbx
  .mulx .rbx .rax (.mem ⟨some .rdi, none, 56#64⟩), -- 195: mulx rbx, rax, QWORD PTR [rdi + 0x38]
  .adcx .r12 (.reg .rax), -- 196: adcx r12, rax
  .adox .r13 (.reg .rbx), -- 197: adox r13, rbx
  .adc (.reg .r13) (.imm 0#64), -- 198: adc r13, 0x0
  .mov (.reg .rdx) (.reg .rcx), -- 199: mov rdx, rcx
  .xor (.reg .rax) (.reg .rax), -- 200: xor eax, eax
  .mulx .rax .rdx (.reg .r14), -- 201: mulx rax, rdx, r14
  .mov (.mem ⟨some .rsi, none, 48#64⟩) (.reg .rdx), -- 202: mov QWORD PTR [rsi + 0x30], rdx
  .mulx .rbx .rax (.mem ⟨some .rdi, none, 0#64⟩), -- 203: mulx rbx, rax, QWORD PTR [rdi]
  .adcx .r14 (.reg .rax), -- 204: adcx r14, rax
  .adox .r15 (.reg .rbx), -- 205: adox r15, rbx
  .mulx .rbx .rax (.mem ⟨some .rdi, none, 8#64⟩), -- 206: mulx rbx, rax, QWORD PTR [rdi + 0x8]
  .adcx .r15 (.reg .rax), -- 207: adcx r15, rax
  .adox .r8 (.reg .rbx), -- 208: adox r8, rbx
  .mulx .rbx .rax (.mem ⟨some .rdi, none, 16#64⟩), -- 209: mulx rbx, rax, QWORD PTR [rdi + 0x10]
  .adcx .r8 (.reg .rax), -- 210: adcx r8, rax
  .adox .r9 (.reg .rbx), -- 211: adox r9, rbx
  .mulx .rbx .rax (.mem ⟨some .rdi, none, 24#64⟩), -- 212: mulx rbx, rax, QWORD PTR [rdi + 0x18]
  .adcx .r9 (.reg .rax), -- 213: adcx r9, rax
  .adox .r10 (.reg .rbx), -- 214: adox r10, rbx
  .mulx .rbx .rax (.mem ⟨some .rdi, none, 32#64⟩), -- 215: mulx rbx, rax, QWORD PTR [rdi + 0x20]
  .adcx .r10 (.reg .rax), -- 216: adcx r10, rax
  .adox .r11 (.reg .rbx), -- 217: adox r11, rbx
  .mulx .rbx .rax (.mem ⟨some .rdi, none, 40#64⟩), -- 218: mulx rbx, rax, QWORD PTR [rdi + 0x28]
  .adcx .r11 (.reg .rax), -- 219: adcx r11, rax
  .adox .r12 (.reg .rbx), -- 220: adox r12, rbx
  .mulx .rbx .rax (.mem ⟨some .rdi, none, 48#64⟩), -- 221: mulx rbx, rax, QWORD PTR [rdi + 0x30]
  .adcx .r12 (.reg .rax), -- 222: adcx r12, rax
  .adox .r13 (.reg .rbx), -- 223: adox r13, rbx
  .mulx .rbx .rax (.mem ⟨some .rdi, none, 56#64⟩), -- 224: mulx rbx, rax, QWORD PTR [rdi + 0x38]
  .adcx .r13 (.reg .rax), -- 225: adcx r13, rax
  .adox .r14 (.reg .rbx), -- 226: adox r14, rbx
  .adc (.reg .r14) (.imm 0#64), -- 227: adc r14, 0x0
  .mov (.reg .rdx) (.reg .rcx), -- 228: mov rdx, rcx
  .xor (.reg .rax) (.reg .rax), -- 229: xor eax, eax
  .mulx .rax .rdx (.reg .r15), -- 230: mulx rax, rdx, r15
  .mov (.mem ⟨some .rsi, none, 56#64⟩) (.reg .rdx), -- 231: mov QWORD PTR [rsi + 0x38], rdx
  .mulx .rbx .rax (.mem ⟨some .rdi, none, 0#64⟩), -- 232: mulx rbx, rax, QWORD PTR [rdi]
  .adcx .r15 (.reg .rax), -- 233: adcx r15, rax
  .adox .r8 (.reg .rbx), -- 234: adox r8, rbx
  .mulx .rbx .rax (.mem ⟨some .rdi, none, 8#64⟩), -- 235: mulx rbx, rax, QWORD PTR [rdi + 0x8]
  .adcx .r8 (.reg .rax), -- 236: adcx r8, rax
  .adox .r9 (.reg .rbx), -- 237: adox r9, rbx
  .mulx .rbx .rax (.mem ⟨some .rdi, none, 16#64⟩), -- 238: mulx rbx, rax, QWORD PTR [rdi + 0x10]
  .adcx .r9 (.reg .rax), -- 239: adcx r9, rax
  .adox .r10 (.reg .rbx), -- 240: adox r10, rbx
  .mulx .rbx .rax (.mem ⟨some .rdi, none, 24#64⟩), -- 241: mulx rbx, rax, QWORD PTR [rdi + 0x18]
  .adcx .r10 (.reg .rax), -- 242: adcx r10, rax
  .adox .r11 (.reg .rbx), -- 243: adox r11, rbx
  .mulx .rbx .rax (.mem ⟨some .rdi, none, 32#64⟩), -- 244: mulx rbx, rax, QWORD PTR [rdi + 0x20]
  .adcx .r11 (.reg .rax), -- 245: adcx r11, rax
  .adox .r12 (.reg .rbx), -- 246: adox r12, rbx
  .mulx .rbx .rax (.mem ⟨some .rdi, none, 40#64⟩), -- 247: mulx rbx, rax, QWORD PTR [rdi + 0x28]
  .adcx .r12 (.reg .rax), -- 248: adcx r12, rax
  .adox .r13 (.reg .rbx), -- 249: adox r13, rbx
  .mulx .rbx .rax (.mem ⟨some .rdi, none, 48#64⟩), -- 250: mulx rbx, rax, QWORD PTR [rdi + 0x30]
  .adcx .r13 (.reg .rax), -- 251: adcx r13, rax
  .adox .r14 (.reg .rbx), -- 252: adox r14, rbx
  .mulx .rbx .rax (.mem ⟨some .rdi, none, 56#64⟩), -- 253: mulx rbx, rax, QWORD PTR [rdi + 0x38]
  .adcx .r14 (.reg .rax), -- 254: adcx r14, rax
  .adox .r15 (.reg .rbx), -- 255: adox r15, rbx
  .adc (.reg .r15) (.imm 0#64), -- 256: adc r15, 0x0
  .mov (.reg .rbp) (.reg .rsi), -- 257: mov rbp, rsi
  .mov (.reg .rax) (.mem ⟨some .rsp, none, 24#64⟩), -- 258: mov rax, QWORD PTR [rsp + 0x18]
  .test (.reg .rax) (.reg .rax), -- 259: test rax, rax
  .jcc .zr 507, -- 260: je @4f
  .mov (.mem ⟨some .rsp, none, 8#64⟩) (.reg .rax), -- 261: mov QWORD PTR [rsp + 0x8], rax
  .add (.reg .rbp) (.imm 64#64), -- 262: add rbp, 0x40
  .add (.reg .rdi) (.imm 64#64), -- 263: add rdi, 0x40
  .mov (.reg .rdx) (.mem ⟨some .rdi, none, 0#64⟩), -- 264: mov rdx, QWORD PTR [rdi]
  .xor (.reg .rax) (.reg .rax), -- 265: xor eax, eax
  .adox .r8 (.mem ⟨some .rbp, none, 0#64⟩), -- 266: adox r8, QWORD PTR [rbp + 0x0]
  .mulx .rbx .rax (.mem ⟨some .rsi, none, 0#64⟩), -- 267: mulx rbx, rax, QWORD PTR [rsi]
  .adcx .r8 (.reg .rax), -- 268: adcx r8, rax
  .adox .r9 (.reg .rbx), -- 269: adox r9, rbx
  .mov (.mem ⟨some .rbp, none, 0#64⟩) (.reg .r8), -- 270: mov QWORD PTR [rbp + 0x0], r8
  .mov (.reg .r8) (.imm 0#64), -- 271: mov r8d, 0x0
  .mulx .rbx .rax (.mem ⟨some .rsi, none, 8#64⟩), -- 272: mulx rbx, rax, QWORD PTR [rsi + 0x8]
  .adcx .r9 (.reg .rax), -- 273: adcx r9, rax
  .adox .r10 (.reg .rbx), -- 274: adox r10, rbx
  .mulx .rbx .rax (.mem ⟨some .rsi, none, 16#64⟩), -- 275: mulx rbx, rax, QWORD PTR [rsi + 0x10]
  .adcx .r10 (.reg .rax), -- 276: adcx r10, rax
  .adox .r11 (.reg .rbx), -- 277: adox r11, rbx
  .mulx .rbx .rax (.mem ⟨some .rsi, none, 24#64⟩), -- 278: mulx rbx, rax, QWORD PTR [rsi + 0x18]
  .adcx .r11 (.reg .rax), -- 279: adcx r11, rax
  .adox .r12 (.reg .rbx), -- 280: adox r12, rbx
  .mulx .rbx .rax (.mem ⟨some .rsi, none, 32#64⟩), -- 281: mulx rbx, rax, QWORD PTR [rsi + 0x20]
  .adcx .r12 (.reg .rax), -- 282: adcx r12, rax
  .adox .r13 (.reg .rbx), -- 283: adox r13, rbx
  .mulx .rbx .rax (.mem ⟨some .rsi, none, 40#64⟩), -- 284: mulx rbx, rax, QWORD PTR [rsi + 0x28]
  .adcx .r13 (.reg .rax), -- 285: adcx r13, rax
  .adox .r14 (.reg .rbx), -- 286: adox r14, rbx
  .mulx .rbx .rax (.mem ⟨some .rsi, none, 48#64⟩), -- 287: mulx rbx, rax, QWORD PTR [rsi + 0x30]
  .adcx .r14 (.reg .rax), -- 288: adcx r14, rax
  .adox .r15 (.reg .rbx), -- 289: adox r15, rbx
  .mulx .rbx .rax (.mem ⟨some .rsi, none, 56#64⟩), -- 290: mulx rbx, rax, QWORD PTR [rsi + 0x38]
  .adcx .r15 (.reg .rax), -- 291: adcx r15, rax
  .adox .r8 (.reg .rbx), -- 292: adox r8, rbx
  .adc (.reg .r8) (.imm 0#64), -- 293: adc r8, 0x0
  .mov (.reg .rdx) (.mem ⟨some .rdi, none, 8#64⟩), -- 294: mov rdx, QWORD PTR [rdi + 0x8]
  .xor (.reg .rax) (.reg .rax), -- 295: xor eax, eax
  .adox .r9 (.mem ⟨some .rbp, none, 8#64⟩), -- 296: adox r9, QWORD PTR [rbp + 0x8]
  .mulx .rbx .rax (.mem ⟨some .rsi, none, 0#64⟩), -- 297: mulx rbx, rax, QWORD PTR [rsi]
  .adcx .r9 (.reg .rax), -- 298: adcx r9, rax
  .adox .r10 (.reg .rbx), -- 299: adox r10, rbx
  .mov (.mem ⟨some .rbp, none, 8#64⟩) (.reg .r9), -- 300: mov QWORD PTR [rbp + 0x8], r9
  .mov (.reg .r9) (.imm 0#64), -- 301: mov r9d, 0x0
  .mulx .rbx .rax (.mem ⟨some .rsi, none, 8#64⟩), -- 302: mulx rbx, rax, QWORD PTR [rsi + 0x8]
  .adcx .r10 (.reg .rax), -- 303: adcx r10, rax
  .adox .r11 (.reg .rbx), -- 304: adox r11, rbx
  .mulx .rbx .rax (.mem ⟨some .rsi, none, 16#64⟩), -- 305: mulx rbx, rax, QWORD PTR [rsi + 0x10]
  .adcx .r11 (.reg .rax), -- 306: adcx r11, rax
  .adox .r12 (.reg .rbx), -- 307: adox r12, rbx
  .mulx .rbx .rax (.mem ⟨some .rsi, none, 24#64⟩), -- 308: mulx rbx, rax, QWORD PTR [rsi + 0x18]
  .adcx .r12 (.reg .rax), -- 309: adcx r12, rax
  .adox .r13 (.reg .rbx), -- 310: adox r13, rbx
  .mulx .rbx .rax (.mem ⟨some .rsi, none, 32#64⟩), -- 311: mulx rbx, rax, QWORD PTR [rsi + 0x20]
  .adcx .r13 (.reg .rax), -- 312: adcx r13, rax
  .adox .r14 (.reg .rbx), -- 313: adox r14, rbx
  .mulx .rbx .rax (.mem ⟨some .rsi, none, 40#64⟩), -- 314: mulx rbx, rax, QWORD PTR [rsi + 0x28]
  .adcx .r14 (.reg .rax), -- 315: adcx r14, rax
  .adox .r15 (.reg .rbx), -- 316: adox r15, rbx
  .mulx .rbx .rax (.mem ⟨some .rsi, none, 48#64⟩), -- 317: mulx rbx, rax, QWORD PTR [rsi + 0x30]
  .adcx .r15 (.reg .rax), -- 318: adcx r15, rax
  .adox .r8 (.reg .rbx), -- 319: adox r8, rbx
  .mulx .rbx .rax (.mem ⟨some .rsi, none, 56#64⟩), -- 320: mulx rbx, rax, QWORD PTR [rsi + 0x38]
  .adcx .r8 (.reg .rax), -- 321: adcx r8, rax
  .adox .r9 (.reg .rbx), -- 322: adox r9, rbx
  .adc (.reg .r9) (.imm 0#64), -- 323: adc r9, 0x0
  .mov (.reg .rdx) (.mem ⟨some .rdi, none, 16#64⟩), -- 324: mov rdx, QWORD PTR [rdi + 0x10]
  .xor (.reg .rax) (.reg .rax), -- 325: xor eax, eax
  .adox .r10 (.mem ⟨some .rbp, none, 16#64⟩), -- 326: adox r10, QWORD PTR [rbp + 0x10]
  .mulx .rbx .rax (.mem ⟨some .rsi, none, 0#64⟩), -- 327: mulx rbx, rax, QWORD PTR [rsi]
  .adcx .r10 (.reg .rax), -- 328: adcx r10, rax
  .adox .r11 (.reg .rbx), -- 329: adox r11, rbx
  .mov (.mem ⟨some .rbp, none, 16#64⟩) (.reg .r10), -- 330: mov QWORD PTR [rbp + 0x10], r10
  .mov (.reg .r10) (.imm 0#64), -- 331: mov r10d, 0x0
  .mulx .rbx .rax (.mem ⟨some .rsi, none, 8#64⟩), -- 332: mulx rbx, rax, QWORD PTR [rsi + 0x8]
  .adcx .r11 (.reg .rax), -- 333: adcx r11, rax
  .adox .r12 (.reg .rbx), -- 334: adox r12, rbx
  .mulx .rbx .rax (.mem ⟨some .rsi, none, 16#64⟩), -- 335: mulx rbx, rax, QWORD PTR [rsi + 0x10]
  .adcx .r12 (.reg .rax), -- 336: adcx r12, rax
  .adox .r13 (.reg .rbx), -- 337: adox r13, rbx
  .mulx .rbx .rax (.mem ⟨some .rsi, none, 24#64⟩), -- 338: mulx rbx, rax, QWORD PTR [rsi + 0x18]
  .adcx .r13 (.reg .rax), -- 339: adcx r13, rax
  .adox .r14 (.reg .rbx), -- 340: adox r14, rbx
  .mulx .rbx .rax (.mem ⟨some .rsi, none, 32#64⟩), -- 341: mulx rbx, rax, QWORD PTR [rsi + 0x20]
  .adcx .r14 (.reg .rax), -- 342: adcx r14, rax
  .adox .r15 (.reg .rbx), -- 343: adox r15, rbx
  .mulx .rbx .rax (.mem ⟨some .rsi, none, 40#64⟩), -- 344: mulx rbx, rax, QWORD PTR [rsi + 0x28]
  .adcx .r15 (.reg .rax), -- 345: adcx r15, rax
  .adox .r8 (.reg .rbx), -- 346: adox r8, rbx
  .mulx .rbx .rax (.mem ⟨some .rsi, none, 48#64⟩), -- 347: mulx rbx, rax, QWORD PTR [rsi + 0x30]
  .adcx .r8 (.reg .rax), -- 348: adcx r8, rax
  .adox .r9 (.reg .rbx), -- 349: adox r9, rbx
  .mulx .rbx .rax (.mem ⟨some .rsi, none, 56#64⟩), -- 350: mulx rbx, rax, QWORD PTR [rsi + 0x38]
  .adcx .r9 (.reg .rax), -- 351: adcx r9, rax
  .adox .r10 (.reg .rbx), -- 352: adox r10, rbx
  .adc (.reg .r10) (.imm 0#64), -- 353: adc r10, 0x0
  .mov (.reg .rdx) (.mem ⟨some .rdi, none, 24#64⟩), -- 354: mov rdx, QWORD PTR [rdi + 0x18]
  .xor (.reg .rax) (.reg .rax), -- 355: xor eax, eax
  .adox .r11 (.mem ⟨some .rbp, none, 24#64⟩), -- 356: adox r11, QWORD PTR [rbp + 0x18]
  .mulx .rbx .rax (.mem ⟨some .rsi, none, 0#64⟩), -- 357: mulx rbx, rax, QWORD PTR [rsi]
  .adcx .r11 (.reg .rax), -- 358: adcx r11, rax
  .adox .r12 (.reg .rbx), -- 359: adox r12, rbx
  .mov (.mem ⟨some .rbp, none, 24#64⟩) (.reg .r11), -- 360: mov QWORD PTR [rbp + 0x18], r11
  .mov (.reg .r11) (.imm 0#64), -- 361: mov r11d, 0x0
  .mulx .rbx .rax (.mem ⟨some .rsi, none, 8#64⟩), -- 362: mulx rbx, rax, QWORD PTR [rsi + 0x8]
  .adcx .r12 (.reg .rax), -- 363: adcx r12, rax
  .adox .r13 (.reg .rbx), -- 364: adox r13, rbx
  .mulx .rbx .rax (.mem ⟨some .rsi, none, 16#64⟩), -- 365: mulx rbx, rax, QWORD PTR [rsi + 0x10]
  .adcx .r13 (.reg .rax), -- 366: adcx r13, rax
  .adox .r14 (.reg .rbx), -- 367: adox r14, rbx
  .mulx .rbx .rax (.mem ⟨some .rsi, none, 24#64⟩), -- 368: mulx rbx, rax, QWORD PTR [rsi + 0x18]
  .adcx .r14 (.reg .rax), -- 369: adcx r14, rax
  .adox .r15 (.reg .rbx), -- 370: adox r15, rbx
  .mulx .rbx .rax (.mem ⟨some .rsi, none, 32#64⟩), -- 371: mulx rbx, rax, QWORD PTR [rsi + 0x20]
  .adcx .r15 (.reg .rax), -- 372: adcx r15, rax
  .adox .r8 (.reg .rbx), -- 373: adox r8, rbx
  .mulx .rbx .rax (.mem ⟨some .rsi, none, 40#64⟩), -- 374: mulx rbx, rax, QWORD PTR [rsi + 0x28]
  .adcx .r8 (.reg .rax), -- 375: adcx r8, rax
  .adox .r9 (.reg .rbx), -- 376: adox r9, rbx
  .mulx .rbx .rax (.mem ⟨some .rsi, none, 48#64⟩), -- 377: mulx rbx, rax, QWORD PTR [rsi + 0x30]
  .adcx .r9 (.reg .rax), -- 378: adcx r9, rax
  .adox .r10 (.reg .rbx), -- 379: adox r10, rbx
  .mulx .rbx .rax (.mem ⟨some .rsi, none, 56#64⟩), -- 380: mulx rbx, rax, QWORD PTR [rsi + 0x38]
  .adcx .r10 (.reg .rax), -- 381: adcx r10, rax
  .adox .r11 (.reg .rbx), -- 382: adox r11, rbx
  .adc (.reg .r11) (.imm 0#64), -- 383: adc r11, 0x0
  .mov (.reg .rdx) (.mem ⟨some .rdi, none, 32#64⟩), -- 384: mov rdx, QWORD PTR [rdi + 0x20]
  .xor (.reg .rax) (.reg .rax), -- 385: xor eax, eax
  .adox .r12 (.mem ⟨some .rbp, none, 32#64⟩), -- 386: adox r12, QWORD PTR [rbp + 0x20]
  .mulx .rbx .rax (.mem ⟨some .rsi, none, 0#64⟩), -- 387: mulx rbx, rax, QWORD PTR [rsi]
  .adcx .r12 (.reg .rax), -- 388: adcx r12, rax
  .adox .r13 (.reg .rbx), -- 389: adox r13, rbx
  .mov (.mem ⟨some .rbp, none, 32#64⟩) (.reg .r12), -- 390: mov QWORD PTR [rbp + 0x20], r12
  .mov (.reg .r12) (.imm 0#64), -- 391: mov r12d, 0x0
  .mulx .rbx .rax (.mem ⟨some .rsi, none, 8#64⟩), -- 392: mulx rbx, rax, QWORD PTR [rsi + 0x8]
  .adcx .r13 (.reg .rax), -- 393: adcx r13, rax
  .adox .r14 (.reg .rbx), -- 394: adox r14, rbx
  .mulx .rbx .rax (.mem ⟨some .rsi, none, 16#64⟩), -- 395: mulx rbx, rax, QWORD PTR [rsi + 0x10]
  .adcx .r14 (.reg .rax), -- 396: adcx r14, rax
  .adox .r15 (.reg .rbx), -- 397: adox r15, rbx
  .mulx .rbx .rax (.mem ⟨some .rsi, none, 24#64⟩), -- 398: mulx rbx, rax, QWORD PTR [rsi + 0x18]
  .adcx .r15 (.reg .rax), -- 399: adcx r15, rax
  .adox .r8 (.reg .rbx), -- 400: adox r8, rbx
  .mulx .rbx .rax (.mem ⟨some .rsi, none, 32#64⟩), -- 401: mulx rbx, rax, QWORD PTR [rsi + 0x20]
  .adcx .r8 (.reg .rax), -- 402: adcx r8, rax
  .adox .r9 (.reg .rbx), -- 403: adox r9, rbx
  .mulx .rbx .rax (.mem ⟨some .rsi, none, 40#64⟩), -- 404: mulx rbx, rax, QWORD PTR [rsi + 0x28]
  .adcx .r9 (.reg .rax), -- 405: adcx r9, rax
  .adox .r10 (.reg .rbx), -- 406: adox r10, rbx
  .mulx .rbx .rax (.mem ⟨some .rsi, none, 48#64⟩), -- 407: mulx rbx, rax, QWORD PTR [rsi + 0x30]
  .adcx .r10 (.reg .rax), -- 408: adcx r10, rax
  .adox .r11 (.reg .rbx), -- 409: adox r11, rbx
  .mulx .rbx .rax (.mem ⟨some .rsi, none, 56#64⟩), -- 410: mulx rbx, rax, QWORD PTR [rsi + 0x38]
  .adcx .r11 (.reg .rax), -- 411: adcx r11, rax
  .adox .r12 (.reg .rbx), -- 412: adox r12, rbx
  .adc (.reg .r12) (.imm 0#64), -- 413: adc r12, 0x0
  .mov (.reg .rdx) (.mem ⟨some .rdi, none, 40#64⟩), -- 414: mov rdx, QWORD PTR [rdi + 0x28]
  .xor (.reg .rax) (.reg .rax), -- 415: xor eax, eax
  .adox .r13 (.mem ⟨some .rbp, none, 40#64⟩), -- 416: adox r13, QWORD PTR [rbp + 0x28]
  .mulx .rbx .rax (.mem ⟨some .rsi, none, 0#64⟩), -- 417: mulx rbx, rax, QWORD PTR [rsi]
  .adcx .r13 (.reg .rax), -- 418: adcx r13, rax
  .adox .r14 (.reg .rbx), -- 419: adox r14, rbx
  .mov (.mem ⟨some .rbp, none, 40#64⟩) (.reg .r13), -- 420: mov QWORD PTR [rbp + 0x28], r13
  .mov (.reg .r13) (.imm 0#64), -- 421: mov r13d, 0x0
  .mulx .rbx .rax (.mem ⟨some .rsi, none, 8#64⟩), -- 422: mulx rbx, rax, QWORD PTR [rsi + 0x8]
  .adcx .r14 (.reg .rax), -- 423: adcx r14, rax
  .adox .r15 (.reg .rbx), -- 424: adox r15, rbx
  .mulx .rbx .rax (.mem ⟨some .rsi, none, 16#64⟩), -- 425: mulx rbx, rax, QWORD PTR [rsi + 0x10]
  .adcx .r15 (.reg .rax), -- 426: adcx r15, rax
  .adox .r8 (.reg .rbx), -- 427: adox r8, rbx
  .mulx .rbx .rax (.mem ⟨some .rsi, none, 24#64⟩), -- 428: mulx rbx, rax, QWORD PTR [rsi + 0x18]
  .adcx .r8 (.reg .rax), -- 429: adcx r8, rax
  .adox .r9 (.reg .rbx), -- 430: adox r9, rbx
  .mulx .rbx .rax (.mem ⟨some .rsi, none, 32#64⟩), -- 431: mulx rbx, rax, QWORD PTR [rsi + 0x20]
  .adcx .r9 (.reg .rax), -- 432: adcx r9, rax
  .adox .r10 (.reg .rbx), -- 433: adox r10, rbx
  .mulx .rbx .rax (.mem ⟨some .rsi, none, 40#64⟩), -- 434: mulx rbx, rax, QWORD PTR [rsi + 0x28]
  .adcx .r10 (.reg .rax), -- 435: adcx r10, rax
  .adox .r11 (.reg .rbx), -- 436: adox r11, rbx
  .mulx .rbx .rax (.mem ⟨some .rsi, none, 48#64⟩), -- 437: mulx rbx, rax, QWORD PTR [rsi + 0x30]
  .adcx .r11 (.reg .rax), -- 438: adcx r11, rax
  .adox .r12 (.reg .rbx), -- 439: adox r12, rbx
  .mulx .rbx .rax (.mem ⟨some .rsi, none, 56#64⟩), -- 440: mulx rbx, rax, QWORD PTR [rsi + 0x38]
  .adcx .r12 (.reg .rax), -- 441: adcx r12, rax
  .adox .r13 (.reg .rbx), -- 442: adox r13, rbx
  .adc (.reg .r13) (.imm 0#64), -- 443: adc r13, 0x0
  .mov (.reg .rdx) (.mem ⟨some .rdi, none, 48#64⟩), -- 444: mov rdx, QWORD PTR [rdi + 0x30]
  .xor (.reg .rax) (.reg .rax), -- 445: xor eax, eax
  .adox .r14 (.mem ⟨some .rbp, none, 48#64⟩), -- 446: adox r14, QWORD PTR [rbp + 0x30]
  .mulx .rbx .rax (.mem ⟨some .rsi, none, 0#64⟩), -- 447: mulx rbx, rax, QWORD PTR [rsi]
  .adcx .r14 (.reg .rax), -- 448: adcx r14, rax
  .adox .r15 (.reg .rbx), -- 449: adox r15, rbx
  .mov (.mem ⟨some .rbp, none, 48#64⟩) (.reg .r14), -- 450: mov QWORD PTR [rbp + 0x30], r14
  .mov (.reg .r14) (.imm 0#64), -- 451: mov r14d, 0x0
  .mulx .rbx .rax (.mem ⟨some .rsi, none, 8#64⟩), -- 452: mulx rbx, rax, QWORD PTR [rsi + 0x8]
  .adcx .r15 (.reg .rax), -- 453: adcx r15, rax
  .adox .r8 (.reg .rbx), -- 454: adox r8, rbx
  .mulx .rbx .rax (.mem ⟨some .rsi, none, 16#64⟩), -- 455: mulx rbx, rax, QWORD PTR [rsi + 0x10]
  .adcx .r8 (.reg .rax), -- 456: adcx r8, rax
  .adox .r9 (.reg .rbx), -- 457: adox r9, rbx
  .mulx .rbx .rax (.mem ⟨some .rsi, none, 24#64⟩), -- 458: mulx rbx, rax, QWORD PTR [rsi + 0x18]
  .adcx .r9 (.reg .rax), -- 459: adcx r9, rax
  .adox .r10 (.reg .rbx), -- 460: adox r10, rbx
  .mulx .rbx .rax (.mem ⟨some .rsi, none, 32#64⟩), -- 461: mulx rbx, rax, QWORD PTR [rsi + 0x20]
  .adcx .r10 (.reg .rax), -- 462: adcx r10, rax
  .adox .r11 (.reg .rbx), -- 463: adox r11, rbx
  .mulx .rbx .rax (.mem ⟨some .rsi, none, 40#64⟩), -- 464: mulx rbx, rax, QWORD PTR [rsi + 0x28]
  .adcx .r11 (.reg .rax), -- 465: adcx r11, rax
  .adox .r12 (.reg .rbx), -- 466: adox r12, rbx
  .mulx .rbx .rax (.mem ⟨some .rsi, none, 48#64⟩), -- 467: mulx rbx, rax, QWORD PTR [rsi + 0x30]
  .adcx .r12 (.reg .rax), -- 468: adcx r12, rax
  .adox .r13 (.reg .rbx), -- 469: adox r13, rbx
  .mulx .rbx .rax (.mem ⟨some .rsi, none, 56#64⟩), -- 470: mulx rbx, rax, QWORD PTR [rsi + 0x38]
  .adcx .r13 (.reg .rax), -- 471: adcx r13, rax
  .adox .r14 (.reg .rbx), -- 472: adox r14, rbx
  .adc (.reg .r14) (.imm 0#64), -- 473: adc r14, 0x0
  .mov (.reg .rdx) (.mem ⟨some .rdi, none, 56#64⟩), -- 474: mov rdx, QWORD PTR [rdi + 0x38]
  .xor (.reg .rax) (.reg .rax), -- 475: xor eax, eax
  .adox .r15 (.mem ⟨some .rbp, none, 56#64⟩), -- 476: adox r15, QWORD PTR [rbp + 0x38]
  .mulx .rbx .rax (.mem ⟨some .rsi, none, 0#64⟩), -- 477: mulx rbx, rax, QWORD PTR [rsi]
  .adcx .r15 (.reg .rax), -- 478: adcx r15, rax
  .adox .r8 (.reg .rbx), -- 479: adox r8, rbx
  .mov (.mem ⟨some .rbp, none, 56#64⟩) (.reg .r15), -- 480: mov QWORD PTR [rbp + 0x38], r15
  .mov (.reg .r15) (.imm 0#64), -- 481: mov r15d, 0x0
  .mulx .rbx .rax (.mem ⟨some .rsi, none, 8#64⟩), -- 482: mulx rbx, rax, QWORD PTR [rsi + 0x8]
  .adcx .r8 (.reg .rax), -- 483: adcx r8, rax
  .adox .r9 (.reg .rbx), -- 484: adox r9, rbx
  .mulx .rbx .rax (.mem ⟨some .rsi, none, 16#64⟩), -- 485: mulx rbx, rax, QWORD PTR [rsi + 0x10]
  .adcx .r9 (.reg .rax), -- 486: adcx r9, rax
  .adox .r10 (.reg .rbx), -- 487: adox r10, rbx
  .mulx .rbx .rax (.mem ⟨some .rsi, none, 24#64⟩), -- 488: mulx rbx, rax, QWORD PTR [rsi + 0x18]
  .adcx .r10 (.reg .rax), -- 489: adcx r10, rax
  .adox .r11 (.reg .rbx), -- 490: adox r11, rbx
  .mulx .rbx .rax (.mem ⟨some .rsi, none, 32#64⟩), -- 491: mulx rbx, rax, QWORD PTR [rsi + 0x20]
  .adcx .r11 (.reg .rax), -- 492: adcx r11, rax
  .adox .r12 (.reg .rbx), -- 493: adox r12, rbx
  .mulx .rbx .rax (.mem ⟨some .rsi, none, 40#64⟩), -- 494: mulx rbx, rax, QWORD PTR [rsi + 0x28]
  .adcx .r12 (.reg .rax), -- 495: adcx r12, rax
  .adox .r13 (.reg .rbx), -- 496: adox r13, rbx
  .mulx .rbx .rax (.mem ⟨some .rsi, none, 48#64⟩), -- 497: mulx rbx, rax, QWORD PTR [rsi + 0x30]
  .adcx .r13 (.reg .rax), -- 498: adcx r13, rax
  .adox .r14 (.reg .rbx), -- 499: adox r14, rbx
  .mulx .rbx .rax (.mem ⟨some .rsi, none, 56#64⟩), -- 500: mulx rbx, rax, QWORD PTR [rsi + 0x38]
  .adcx .r14 (.reg .rax), -- 501: adcx r14, rax
  .adox .r15 (.reg .rbx), -- 502: adox r15, rbx
  .adc (.reg .r15) (.imm 0#64), -- 503: adc r15, 0x0
  .sub (.mem ⟨some .rsp, none, 8#64⟩) (.imm 64#64), -- 504: sub QWORD PTR [rsp + 0x8], 0x40
  .jcc .nz 262, -- 505: jne @5b
  .mov (.reg .rax) (.mem ⟨some .rsp, none, 24#64⟩), -- 506: mov rax, QWORD PTR [rsp + 0x18]
  .sub (.reg .rdi) (.reg .rax), -- 507: sub rdi, rax
  .mov (.reg .rbx) (.mem ⟨some .rsp, none, 0#64⟩), -- 508: mov rbx, QWORD PTR [rsp]
  .neg (.reg .rbx), -- 509: neg rbx
  .adc (.mem ⟨some .rsi, some (.rax, 1#64), 64#64⟩) (.reg .r8), -- 510: adc QWORD PTR [rsi + rax * 1 + 0x40], r8
  .adc (.mem ⟨some .rsi, some (.rax, 1#64), 72#64⟩) (.reg .r9), -- 511: adc QWORD PTR [rsi + rax * 1 + 0x48], r9
  .adc (.mem ⟨some .rsi, some (.rax, 1#64), 80#64⟩) (.reg .r10), -- 512: adc QWORD PTR [rsi + rax * 1 + 0x50], r10
  .adc (.mem ⟨some .rsi, some (.rax, 1#64), 88#64⟩) (.reg .r11), -- 513: adc QWORD PTR [rsi + rax * 1 + 0x58], r11
  .adc (.mem ⟨some .rsi, some (.rax, 1#64), 96#64⟩) (.reg .r12), -- 514: adc QWORD PTR [rsi + rax * 1 + 0x60], r12
  .adc (.mem ⟨some .rsi, some (.rax, 1#64), 104#64⟩) (.reg .r13), -- 515: adc QWORD PTR [rsi + rax * 1 + 0x68], r13
  .adc (.mem ⟨some .rsi, some (.rax, 1#64), 112#64⟩) (.reg .r14), -- 516: adc QWORD PTR [rsi + rax * 1 + 0x70], r14
  .adc (.mem ⟨some .rsi, some (.rax, 1#64), 120#64⟩) (.reg .r15), -- 517: adc QWORD PTR [rsi + rax * 1 + 0x78], r15
  .mov (.reg .rax) (.imm 0#64), -- 518: mov eax, 0x0
  .adc (.reg .rax) (.imm 0#64), -- 519: adc rax, 0x0
  .mov (.mem ⟨some .rsp, none, 0#64⟩) (.reg .rax), -- 520: mov QWORD PTR [rsp], rax
  .add (.reg .rsi) (.imm 64#64), -- 521: add rsi, 0x40
  .sub (.mem ⟨some .rsp, none, 16#64⟩) (.imm 1#64), -- 522: sub QWORD PTR [rsp + 0x10], 0x1
  .jcc .nz 17, -- 523: jne @3b
  .pop .rax, -- 524: pop rax
  .add (.reg .rsp) (.imm 24#64), -- 525: add rsp, 0x18
  .pop .r15, -- 526: pop r15
  .pop .r14, -- 527: pop r14
  .pop .r13, -- 528: pop r13
  .pop .r12, -- 529: pop r12
  .pop .rbx, -- 530: pop rbx
  .pop .rbp] -- 531: pop rbp

/-- The registers that the operands of bignum_emontredc_8n.rs:34-589 say may change. -/
def bignumEmontredc8nRegs : List Reg := [.rdi, .rsi, .rdx, .rcx, .rax, .r10, .r11, .r12, .r13, .r14, .r15, .r8, .r9]

/-- low/x86_64/bignum_kmul_16_32.rs:36-986.  Operands: inout("rdi") z.as_mut_ptr() => _; inout("rsi") x.as_ptr() => _; inout("rdx") y.as_ptr() => _; inout("rcx") t.as_mut_ptr() => _; out("r10") _; out("r11") _; out("r12") _; out("r13") _; out("r14") _; out("r15") _; out("r8") _; out("r9") _; out("rax") _. -/
def bignumKmul1632 : Prog := [
  .nop, -- 0: endbr64
  .push .rbx, -- 1: push rbx
  .push .rbp, -- 2: push rbp
  .push .r12, -- 3: push r12
  .push .r13, -- 4: push r13
  .push .r14, -- 5: push r14
  .push .r15, -- 6: push r15
  .mov (.reg .rcx) (.reg .rdx), -- 7: mov rcx, rdx
  .mov (.reg .rdx) (.mem ⟨some .rcx, none, 0#64⟩), -- 8: mov rdx, QWORD PTR [rcx]
  .xor (.reg .rbp) (.reg .rbp), -- 9: xor ebp, ebp
  .mulx .r9 .rax (.mem ⟨some .rsi, none, 0#64⟩), -- 10: mulx r9, rax, QWORD PTR [rsi]
  .mov (.mem ⟨some .rdi, none, 0#64⟩) (.reg .rax), -- 11: mov QWORD PTR [rdi], rax
  .mulx .r10 .rax (.mem ⟨some .rsi, none, 8#64⟩), -- 12: mulx r10, rax, QWORD PTR [rsi + 0x8]
  .adcx .r9 (.reg .rax), -- 13: adcx r9, rax
  .mulx .r11 .rax (.mem ⟨some .rsi, none, 16#64⟩), -- 14: mulx r11, rax, QWORD PTR [rsi + 0x10]
  .adcx .r10 (.reg .rax), -- 15: adcx r10, rax
  .mulx .r12 .rax (.mem ⟨some .rsi, none, 24#64⟩), -- 16: mulx r12, rax, QWORD PTR [rsi + 0x18]
  .adcx .r11 (.reg .rax), -- 17: adcx r11, rax
  .mulx .r13 .rax (.mem ⟨some .rsi, none, 32#64⟩), -- 18: mulx r13, rax, QWORD PTR [rsi + 0x20]
  .adcx .r12 (.reg .rax), -- 19: adcx r12, rax
  .mulx .r14 .rax (.mem ⟨some .rsi, none, 40#64⟩), -- 20: mulx r14, rax, QWORD PTR [rsi + 0x28]
  .adcx .r13 (.reg .rax), -- 21: adcx r13, rax
  .mulx .r15 .rax (.mem ⟨some .rsi, none, 48#64⟩), -- 22: mulx r15, rax, QWORD PTR [rsi + 0x30]
  .adcx .r14 (.reg .rax), -- 23: adcx r14, rax
  .mulx .r8 .rax (.mem ⟨some .rsi, none, 56#64⟩), -- 24: mulx r8, rax, QWORD PTR [rsi + 0x38]
  .adcx .r15 (.reg .rax), -- 25: adcx r15, rax
  .adc (.reg .r8) (.reg .rbp), -- 26: adc r8, rbp
  .mov (.reg .rdx) (.mem ⟨some .rcx, none, 8#64⟩), -- 27: mov rdx, QWORD PTR [rcx + 0x8]
  .xor (.reg .rbp) (.reg .rbp), -- 28: xor ebp, ebp
  .mulx .rbx .rax (.mem ⟨some .rsi, none, 0#64⟩), -- 29: mulx rbx, rax, QWORD PTR [rsi]
  .adcx .r9 (.reg .rax), -- 30: adcx r9, rax
  .adox .r10 (.reg .rbx), -- 31: adox r10, rbx
  .mov (.mem ⟨some .rdi, none, 8#64⟩) (.reg .r9), -- 32: mov QWORD PTR [rdi + 0x8], r9
  .mulx .rbx .rax (.mem ⟨some .rsi, none, 8#64⟩), -- 33: mulx rbx, rax, QWORD PTR [rsi + 0x8]
  .adcx .r10 (.reg .rax), -- 34: adcx r10, rax
  .adox .r11 (.reg .rbx), -- 35: adox r11, rbx
  .mulx .rbx .rax (.mem ⟨some .rsi, none, 16#64⟩), -- 36: mulx rbx, rax, QWORD PTR [rsi + 0x10]
  .adcx .r11 (.reg .rax), -- 37: adcx r11, rax
  .adox .r12 (.reg .rbx), -- 38: adox r12, rbx
  .mulx .rbx .rax (.mem ⟨some .rsi, none, 24#64⟩), -- 39: mulx rbx, rax, QWORD PTR [rsi + 0x18]
  .adcx .r12 (.reg .rax), -- 40: adcx r12, rax
  .adox .r13 (.reg .rbx), -- 41: adox r13, rbx
  .mulx .rbx .rax (.mem ⟨some .rsi, none, 32#64⟩), -- 42: mulx rbx, rax, QWORD PTR [rsi + 0x20]
  .adcx .r13 (.reg .rax), -- 43: adcx r13, rax
  .adox .r14 (.reg .rbx), -- 44: adox r14, rbx
  .mulx .rbx .rax (.mem ⟨some .rsi, none, 40#64⟩), -- 45: mulx rbx, rax, QWORD PTR [rsi + 0x28]
  .adcx .r14 (.reg .rax), -- 46: adcx r14, rax
  .adox .r15 (.reg .rbx), -- 47: adox r15, rbx
  .mulx .rbx .rax (.mem ⟨some .rsi, none, 48#64⟩), -- 48: mulx rbx, rax, QWORD PTR [rsi + 0x30]
  .adcx .r15 (.reg .rax), -- 49: adcx r15, rax
  .adox .r8 (.reg .rbx), -- 50: adox r8, rbx
  .mulx .r9 .rax (.mem ⟨some .rsi, none, 56#64⟩), -- 51: mulx r9, rax, QWORD PTR [rsi + 0x38]
  .adcx .r8 (.reg .rax), -- 52: adcx r8, rax
  .adox .r9 (.reg .rbp), -- 53: adox r9, rbp
  .adc (.reg .r9) (.reg .rbp), -- 54: adc r9, rbp
  .mov (.reg .rdx) (.mem ⟨some .rcx, none, 16#64⟩), -- 55: mov rdx, QWORD PTR [rcx + 0x10]
  .xor (.reg .rbp) (.reg .rbp), -- 56: xor ebp, ebp
  .mulx .rbx .rax (.mem ⟨some .rsi, none, 0#64⟩), -- 57: mulx rbx, rax, QWORD PTR [rsi]
  .adcx .r10 (.reg .rax), -- 58: adcx r10, rax
  .adox .r11 (.reg .rbx), -- 59: adox r11, rbx
  .mov (.mem ⟨some .rdi, none, 16#64⟩) (.reg .r10), -- 60: mov QWORD PTR [rdi + 0x10], r10
  .mulx .rbx .rax (.mem ⟨some .rsi, none, 8#64⟩), -- 61: mulx rbx, rax, QWORD PTR [rsi + 0x8]
  .adcx .r11 (.reg .rax), -- 62: adcx r11, rax
  .adox .r12 (.reg .rbx), -- 63: adox r12, rbx
  .mulx .rbx .rax (.mem ⟨some .rsi, none, 16#64⟩), -- 64: mulx rbx, rax, QWORD PTR [rsi + 0x10]
  .adcx .r12 (.reg .rax), -- 65: adcx r12, rax
  .adox .r13 (.reg .rbx), -- 66: adox r13, rbx
  .mulx .rbx .rax (.mem ⟨some .rsi, none, 24#64⟩), -- 67: mulx rbx, rax, QWORD PTR [rsi + 0x18]
  .adcx .r13 (.reg .rax), -- 68: adcx r13, rax
  .adox .r14 (.reg .rbx), -- 69: adox r14, rbx
  .mulx .rbx .rax (.mem ⟨some .rsi, none, 32#64⟩), -- 70: mulx rbx, rax, QWORD PTR [rsi + 0x20]
  .adcx .r14 (.reg .rax), -- 71: adcx r14, rax
  .adox .r15 (.reg .rbx), -- 72: adox r15, rbx
  .mulx .rbx .rax (.mem ⟨some .rsi, none, 40#64⟩), -- 73: mulx rbx, rax, QWORD PTR [rsi + 0x28]
  .adcx .r15 (.reg .rax), -- 74: adcx r15, rax
  .adox .r8 (.reg .rbx), -- 75: adox r8, rbx
  .mulx .rbx .rax (.mem ⟨some .rsi, none, 48#64⟩), -- 76: mulx rbx, rax, QWORD PTR [rsi + 0x30]
  .adcx .r8 (.reg .rax), -- 77: adcx r8, rax
  .adox .r9 (.reg .rbx), -- 78: adox r9, rbx
  .mulx .r10 .rax (.mem ⟨some .rsi, none, 56#64⟩), -- 79: mulx r10, rax, QWORD PTR [rsi + 0x38]
  .adcx .r9 (.reg .rax), -- 80: adcx r9, rax
  .adox .r10 (.reg .rbp), -- 81: adox r10, rbp
  .adc (.reg .r10) (.reg .rbp), -- 82: adc r10, rbp
  .mov (.reg .rdx) (.mem ⟨some .rcx, none, 24#64⟩), -- 83: mov rdx, QWORD PTR [rcx + 0x18]
  .xor (.reg .rbp) (.reg .rbp), -- 84: xor ebp, ebp
  .mulx .rbx .rax (.mem ⟨some .rsi, none, 0#64⟩), -- 85: mulx rbx, rax, QWORD PTR [rsi]
  .adcx .r11 (.reg .rax), -- 86: adcx r11, rax
  .adox .r12 (.reg .rbx), -- 87: adox r12, rbx
  .mov (.mem ⟨some .rdi, none, 24#64⟩) (.reg .r11), -- 88: mov QWORD PTR [rdi + 0x18], r11
  .mulx .rbx .rax (.mem ⟨some .rsi, none, 8#64⟩), -- 89: mulx rbx, rax, QWORD PTR [rsi + 0x8]
  .adcx .r12 (.reg .rax), -- 90: adcx r12, rax
  .adox .r13 (.reg .rbx), -- 91: adox r13, rbx
  .mulx .rbx .rax (.mem ⟨some .rsi, none, 16#64⟩), -- 92: mulx rbx, rax, QWORD PTR [rsi + 0x10]
  .adcx .r13 (.reg .rax), -- 93: adcx r13, rax
  .adox .r14 (.reg .rbx), -- 94: adox r14, rbx
  .mulx .rbx .rax (.mem ⟨some .rsi, none, 24#64⟩), -- 95: mulx rbx, rax, QWORD PTR [rsi + 0x18]
  .adcx .r14 (.reg .rax), -- 96: adcx r14, rax
  .adox .r15 (.reg .rbx), -- 97: adox r15, rbx
  .mulx .rbx .rax (.mem ⟨some .rsi, none, 32#64⟩), -- 98: mulx rbx, rax, QWORD PTR [rsi + 0x20]
  .adcx .r15 (.reg .rax), -- 99: adcx r15, rax
  .adox .r8 (.reg .rbx), -- 100: adox r8, rbx
  .mulx .rbx .rax (.mem ⟨some .rsi, none, 40#64⟩), -- 101: mulx rbx, rax, QWORD PTR [rsi + 0x28]
  .adcx .r8 (.reg .rax), -- 102: adcx r8, rax
  .adox .r9 (.reg .rbx), -- 103: adox r9, rbx
  .mulx .rbx .rax (.mem ⟨some .rsi, none, 48#64⟩), -- 104: mulx rbx, rax, QWORD PTR [rsi + 0x30]
  .adcx .r9 (.reg .rax), -- 105: adcx r9, rax
  .adox .r10 (.reg .rbx), -- 106: adox r10, rbx
  .mulx .r11 .rax (.mem ⟨some .rsi, none, 56#64⟩), -- 107: mulx r11, rax, QWORD PTR [rsi + 0x38]
  .adcx .r10 (.reg .rax), -- 108: adcx r10, rax
  .adox .r11 (.reg .rbp), -- 109: adox r11, rbp
  .adc (.reg .r11) (.reg .rbp), -- 110: adc r11, rbp
  .mov (.reg .rdx) (.mem ⟨some .rcx, none, 32#64⟩), -- 111: mov rdx, QWORD PTR [rcx + 0x20]
  .xor (.reg .rbp) (.reg .rbp), -- 112: xor ebp, ebp
  .mulx .rbx .rax (.mem ⟨some .rsi, none, 0#64⟩), -- 113: mulx rbx, rax, QWORD PTR [rsi]
  .adcx .r12 (.reg .rax), -- 114: adcx r12, rax
  .adox .r13 (.reg .rbx), -- 115: adox r13, rbx
  .mov (.mem ⟨some .rdi, none, 32#64⟩) (.reg .r12), -- 116: mov QWORD PTR [rdi + 0x20], r12
  .mulx .rbx .rax (.mem ⟨some .rsi, none, 8#64⟩), -- 117: mulx rbx, rax, QWORD PTR [rsi + 0x8]
  .adcx .r13 (.reg .rax), -- 118: adcx r13, rax
  .adox .r14 (.reg .rbx), -- 119: adox r14, rbx
  .mulx .rbx .rax (.mem ⟨some .rsi, none, 16#64⟩), -- 120: mulx rbx, rax, QWORD PTR [rsi + 0x10]
  .adcx .r14 (.reg .rax), -- 121: adcx r14, rax
  .adox .r15 (.reg .rbx), -- 122: adox r15, rbx
  .mulx .rbx .rax (.mem ⟨some .rsi, none, 24#64⟩), -- 123: mulx rbx, rax, QWORD PTR [rsi + 0x18]
  .adcx .r15 (.reg .rax), -- 124: adcx r15, rax
  .adox .r8 (.reg .rbx), -- 125: adox r8, rbx
  .mulx .rbx .rax (.mem ⟨some .rsi, none, 32#64⟩), -- 126: mulx rbx, rax, QWORD PTR [rsi + 0x20]
  .adcx .r8 (.reg .rax), -- 127: adcx r8, rax
  .adox .r9 (.reg .rbx), -- 128: adox r9, rbx
  .mulx .rbx .rax (.mem ⟨some .rsi, none, 40#64⟩), -- 129: mulx rbx, rax, QWORD PTR [rsi + 0x28]
  .adcx .r9 (.reg .rax), -- 130: adcx r9, rax
  .adox .r10 (.reg .rbx), -- 131: adox r10, rbx
  .mulx .rbx .rax (.mem ⟨some .rsi, none, 48#64⟩), -- 132: mulx rbx, rax, QWORD PTR [rsi + 0x30]
  .adcx .r10 (.reg .rax), -- 133: adcx r10, rax
  .adox .r11 (.reg .rbx), -- 134: adox r11, rbx
  .mulx .r12 .rax (.mem ⟨some .rsi, none, 56#64⟩), -- 135: mulx r12, rax, QWORD PTR [rsi + 0x38]
  .adcx .r11 (.reg .rax), -- 136: adcx r11, rax
  .adox .r12 (.reg .rbp), -- 137: adox r12, rbp
  .adc (.reg .r12) (.reg .rbp), -- 138: adc r12, rbp
  .mov (.reg .rdx) (.mem ⟨some .rcx, none, 40#64⟩), -- 139: mov rdx, QWORD PTR [rcx + 0x28]
  .xor (.reg .rbp) (.reg .rbp), -- 140: xor ebp, ebp
  .mulx .rbx .rax (.mem ⟨some .rsi, none, 0#64⟩), -- 141: mulx rbx, rax, QWORD PTR [rsi]
  .adcx .r13 (.reg .rax), -- 142: adcx r13, rax
  .adox .r14 (.reg .rbx), -- 143: adox r14, rbx
  .mov (.mem ⟨some .rdi, none, 40#64⟩) (.reg .r13), -- 144: mov QWORD PTR [rdi + 0x28], r13
  .mulx .rbx .rax (.mem ⟨some .rsi, none, 8#64⟩), -- 145: mulx rbx, rax, QWORD PTR [rsi + 0x8]
  .adcx .r14 (.reg .rax), -- 146: adcx r14, rax
  .adox .r15 (.reg .rbx), -- 147: adox r15, rbx
  .mulx .rbx .rax (.mem ⟨some .rsi, none, 16#64⟩), -- 148: mulx rbx, rax, QWORD PTR [rsi + 0x10]
  .adcx .r15 (.reg .rax), -- 149: adcx r15, rax
  .adox .r8 (.reg .rbx), -- 150: adox r8, rbx
  .mulx .rbx .rax (.mem ⟨some .rsi, none, 24#64⟩), -- 151: mulx rbx, rax, QWORD PTR [rsi + 0x18]
  .adcx .r8 (.reg .rax), -- 152: adcx r8, rax
  .adox .r9 (.reg .rbx), -- 153: adox r9, rbx
  .mulx .rbx .rax (.mem ⟨some .rsi, none, 32#64⟩), -- 154: mulx rbx, rax, QWORD PTR [rsi + 0x20]
  .adcx .r9 (.reg .rax), -- 155: adcx r9, rax
  .adox .r10 (.reg .rbx), -- 156: adox r10, rbx
  .mulx .rbx .rax (.mem ⟨some .rsi, none, 40#64⟩), -- 157: mulx rbx, rax, QWORD PTR [rsi + 0x28]
  .adcx .r10 (.reg .rax), -- 158: adcx r10, rax
  .adox .r11 (.reg .rbx), -- 159: adox r11, rbx
  .mulx .rbx .rax (.mem ⟨some .rsi, none, 48#64⟩), -- 160: mulx rbx, rax, QWORD PTR [rsi + 0x30]
  .adcx .r11 (.reg .rax), -- 161: adcx r11, rax
  .adox .r12 (.reg .rbx), -- 162: adox r12, rbx
  .mulx .r13 .rax (.mem ⟨some .rsi, none, 56#64⟩), -- 163: mulx r13, rax, QWORD PTR [rsi + 0x38]
  .adcx .r12 (.reg .rax), -- 164: adcx r12, rax
  .adox .r13 (.reg .rbp), -- 165: adox r13, rbp
  .adc (.reg .r13) (.reg .rbp), -- 166: adc r13, rbp
  .mov (.reg .rdx) (.mem ⟨some .rcx, none, 48#64⟩), -- 167: mov rdx, QWORD PTR [rcx + 0x30]
  .xor (.reg .rbp) (.reg .rbp), -- 168: xor ebp, ebp
  .mulx .rbx .rax (.mem ⟨some .rsi, none, 0#64⟩), -- 169: mulx rbx, rax, QWORD PTR [rsi]
  .adcx .r14 (.reg .rax), -- 170: adcx r14, rax
  .adox .r15 (.reg .rbx), -- 171: adox r15, rbx
  .mov (.mem ⟨some .rdi, none, 48#64⟩) (.reg .r14), -- 172: mov QWORD PTR [rdi + 0x30], r14
  .mulx .rbx .rax (.mem ⟨some .rsi, none, 8#64⟩), -- 173: mulx rbx, rax, QWORD PTR [rsi + 0x8]
  .adcx .r15 (.reg .rax), -- 174: adcx r15, rax
  .adox .r8 (.reg .rbx), -- 175: adox r8, rbx
  .mulx .rbx .rax (.mem ⟨some .rsi, none, 16#64⟩), -- 176: mulx rbx, rax, QWORD PTR [rsi + 0x10]
  .adcx .r8 (.reg .rax), -- 177: adcx r8, rax
  .adox .r9 (.reg .rbx), -- 178: adox r9, rbx
  .mulx .rbx .rax (.mem ⟨some .rsi, none, 24#64⟩), -- 179: mulx rbx, rax, QWORD PTR [rsi + 0x18]
  .adcx .r9 (.reg .rax), -- 180: adcx r9, rax
  .adox .r10 (.reg .rbx), -- 181: adox r10, rbx
  .mulx .rbx .rax (.mem ⟨some .rsi, none, 32#64⟩), -- 182: mulx rbx, rax, QWORD PTR [rsi + 0x20]
  .adcx .r10 (.reg .rax), -- 183: adcx r10, rax
  .adox .r11 (.reg .rbx), -- 184: adox r11, rbx
  .mulx .rbx .rax (.mem ⟨some .rsi, none, 40#64⟩), -- 185: mulx rbx, rax, QWORD PTR [rsi + 0x28]
  .adcx .r11 (.reg .rax), -- 186: adcx r11, rax
  .adox .r12 (.reg .rbx), -- 187: adox r12, rbx
  .mulx .rbx .rax (.mem ⟨some .rsi, none, 48#64⟩), -- 188: mulx rbx, rax, QWORD PTR [rsi + 0x30]
  .adcx .r12 (.reg .rax), -- 189: adcx r12, rax
  .adox .r13 (.reg .rbx), -- 190: adox r13, rbx
  .mulx .r14 .rax (.mem ⟨some .rsi, none, 56#64⟩), -- 191: mulx r14, rax, QWORD PTR [rsi + 0x38]
  .adcx .r13 (.reg .rax), -- 192: adcx r13, rax
  .adox .r14 (.reg .rbp), -- 193: adox r14, rbp
  .adc (.reg .r14) (.reg .rbp), -- 194: adc r14, rbp
  .mov (.reg .rdx) (.mem ⟨some .rcx, none, 56#64⟩), -- 195: mov rdx, QWORD PTR [rcx + 0x38]
  .xor (.reg .rbp) (.reg .rbp), -- 196: xor ebp, ebp
  .mulx .rbx .rax (.mem ⟨some .rsi, none, 0#64⟩), -- 197: mulx rbx, rax, QWORD PTR [rsi]
  .adcx .r15 (.reg .rax), -- 198: adcx r15, rax
  .adox .r8 (.reg .rbx), -- 199: adox r8, rbx
  .mov (.mem ⟨some .rdi, none, 56#64⟩) (.reg .r15), -- 200: mov QWORD PTR [rdi + 0x38], r15
  .mulx .rbx .rax (.mem ⟨some .rsi, none, 8#64⟩), -- 201: mulx rbx, rax, QWORD PTR [rsi + 0x8]
  .adcx .r8 (.reg .rax), -- 202: adcx r8, rax
  .adox .r9 (.reg .rbx), -- 203: adox r9, rbx
  .mulx .rbx .rax (.mem ⟨some .rsi, none, 16#64⟩), -- 204: mulx rbx, rax, QWORD PTR [rsi + 0x10]
  .adcx .r9 (.reg .rax), -- 205: adcx r9, rax
  .adox .r10 (.reg .rbx), -- 206: adox r10, rbx
  .mulx .rbx .rax (.mem ⟨some .rsi, none, 24#64⟩), -- 207: mulx rbx, rax, QWORD PTR [rsi + 0x18]
  .adcx .r10 (.reg .rax), -- 208: adcx r10, rax
  .adox .r11 (.reg .rbx), -- 209: adox r11, rbx
  .mulx .rbx .rax (.mem ⟨some .rsi, none, 32#64⟩), -- 210: mulx rbx, rax, QWORD PTR [rsi + 0x20]
  .adcx .r11 (.reg .rax), -- 211: adcx r11, rax
  .adox .r12 (.reg .rbx), -- 212: adox r12, rbx
  .mulx .rbx .rax (.mem ⟨some .rsi, none, 40#64⟩), -- 213: mulx rbx, rax, QWORD PTR [rsi + 0x28]
  .adcx .r12 (.reg .rax), -- 214: adcx r12, rax
  .adox .r13 (.reg .rbx), -- 215: adox r13, rbx
  .mulx .rbx .rax (.mem ⟨some .rsi, none, 48#64⟩), -- 216: mulx rbx, rax, QWORD PTR [rsi + 0x30]
  .adcx .r13 (.reg .rax), -- 217: adcx r13, rax
  .adox .r14 (.reg .rbx), -- 218: adox r14, rbx
  .mulx .r15 .rax (.mem ⟨some .rsi, none, 56#64⟩), -- 219: mulx r15, rax, QWORD PTR [rsi + 0x38]
  .adcx .r14 (.reg .rax), -- 220: adcx r14, rax
  .adox .r15 (.reg .rbp), -- 221: adox r15, rbp
  .adc (.reg .r15) (.reg .rbp), -- 222: adc r15, rbp
  .mov (.reg .rdx) (.mem ⟨some .rcx, none, 64#64⟩), -- 223: mov rdx, QWORD PTR [rcx + 0x40]
  .xor (.reg .rbp) (.reg .rbp), -- 224: xor ebp, ebp
  .mulx .rbx .rax (.mem ⟨some .rsi, none, 0#64⟩), -- 225: mulx rbx, rax, QWORD PTR [rsi]
  .adcx .r8 (.reg .rax), -- 226: adcx r8, rax
  .adox .r9 (.reg .rbx), -- 227: adox r9, rbx
  .mov (.mem ⟨some .rdi, none, 64#64⟩) (.reg .r8), -- 228: mov QWORD PTR [rdi + 0x40], r8
  .mulx .rbx .rax (.mem ⟨some .rsi, none, 8#64⟩), -- 229: mulx rbx, rax, QWORD PTR [rsi + 0x8]
  .adcx .r9 (.reg .rax), -- 230: adcx r9, rax
  .adox .r10 (.reg .rbx), -- 231: adox r10, rbx
  .mulx .rbx .rax (.mem ⟨some .rsi, none, 16#64⟩), -- 232: mulx rbx, rax, QWORD PTR [rsi + 0x10]
  .adcx .r10 (.reg .rax), -- 233: adcx r10, rax
  .adox .r11 (.reg .rbx), -- 234: adox r11, rbx
  .mulx .rbx .rax (.mem ⟨some .rsi, none, 24#64⟩), -- 235: mulx rbx, rax, QWORD PTR [rsi + 0x18]
  .adcx .r11 (.reg .rax), -- 236: adcx r11, rax
  .adox .r12 (.reg .rbx), -- 237: adox r12, rbx
  .mulx .rbx .rax (.mem ⟨some .rsi, none, 32#64⟩), -- 238: mulx rbx, rax, QWORD PTR [rsi + 0x20]
  .adcx .r12 (.reg .rax), -- 239: adcx r12, rax
  .adox .r13 (.reg .rbx), -- 240: adox r13, rbx
  .mulx .rbx .rax (.mem ⟨some .rsi, none, 40#64⟩), -- 241: mulx rbx, rax, QWORD PTR [rsi + 0x28]
  .adcx .r13 (.reg .rax), -- 242: adcx r13, rax
  .adox .r14 (.reg .rbx), -- 243: adox r14, rbx
  .mulx .rbx .rax (.mem ⟨some .rsi, none, 48#64⟩), -- 244: mulx rbx, rax, QWORD PTR [rsi + 0x30]
  .adcx .r14 (.reg .rax), -- 245: adcx r14, rax
  .adox .r15 (.reg .rbx), -- 246: adox r15, rbx
  .mulx .r8 .rax (.mem ⟨some .rsi, none, 56#64⟩), -- 247: mulx r8, rax, QWORD PTR [rsi + 0x38]
  .adcx .r15 (.reg .rax), -- 248: adcx r15, rax
  .adox .r8 (.reg .rbp), -- 249: adox r8, rbp
  .adc (.reg .r8) (.reg .rbp), -- 250: adc r8, rbp
  .mov (.reg .rdx) (.mem ⟨some .rcx, none, 72#64⟩), -- 251: mov rdx, QWORD PTR [rcx + 0x48]
  .xor (.reg .rbp) (.reg .rbp), -- 252: xor ebp, ebp
  .mulx .rbx .rax (.mem ⟨some .rsi, none, 0#64⟩), -- 253: mulx rbx, rax, QWORD PTR [rsi]
  .adcx .r9 (.reg .rax), -- 254: adcx r9, rax
  .adox .r10 (.reg .rbx), -- 255: adox r10, rbx
  .mov (.mem ⟨some .rdi, none, 72#64⟩) (.reg .r9), -- 256: mov QWORD PTR [rdi + 0x48], r9
  .mulx .rbx .rax (.mem ⟨some .rsi, none, 8#64⟩), -- 257: mulx rbx, rax, QWORD PTR [rsi + 0x8]
  .adcx .r10 (.reg .rax), -- 258: adcx r10, rax
  .adox .r11 (.reg .rbx), -- 259: adox r11, rbx
  .mulx .rbx .rax (.mem ⟨some .rsi, none, 16#64⟩), -- 260: mulx rbx, rax, QWORD PTR [rsi + 0x10]
  .adcx .r11 (.reg .rax), -- 261: adcx r11, rax
  .adox .r12 (.reg .rbx), -- 262: adox r12, rbx
  .mulx .rbx .rax (.mem ⟨some .rsi, none, 24#64⟩), -- 263: mulx rbx, rax, QWORD PTR [rsi + 0x18]
  .adcx .r12 (.reg .rax), -- 264: adcx r12, rax
  .adox .r13 (.reg .rbx), -- 265: adox r13, rbx
  .mulx .rbx .rax (.mem ⟨some .rsi, none, 32#64⟩), -- 266: mulx rbx, rax, QWORD PTR [rsi + 0x20]
  .adcx .r13 (.reg .rax), -- 267: adcx r13, rax
  .adox .r14 (.reg .rbx), -- 268: adox r14, rbx
  .mulx .rbx .rax (.mem ⟨some .rsi, none, 40#64⟩), -- 269: mulx rbx, rax, QWORD PTR [rsi + 0x28]
  .adcx .r14 (.reg .rax), -- 270: adcx r14, rax
  .adox .r15 (.reg .rbx), -- 271: adox r15, rbx
  .mulx .rbx .rax (.mem ⟨some .rsi, none, 48#64⟩), -- 272: mulx rbx, rax, QWORD PTR [rsi + 0x30]
  .adcx .r15 (.reg .rax), -- 273: adcx r15, rax
  .adox .r8 (.reg .rbx), -- 274: adox r8, rbx
  .mulx .r9 .rax (.mem ⟨some .rsi, none, 56#64⟩), -- 275: mulx r9, rax, QWORD PTR [rsi + 0x38]
  .adcx .r8 (.reg .rax), -- 276: adcx r8, rax
  .adox .r9 (.reg .rbp), -- 277: adox r9, rbp
  .adc (.reg .r9) (.reg .rbp), -- 278: adc r9, rbp
  .mov (.reg .rdx) (.mem ⟨some .rcx, none, 80#64⟩), -- 279: mov rdx, QWORD PTR [rcx + 0x50]
  .xor (.reg .rbp) (.reg .rbp), -- 280: xor ebp, ebp
  .mulx .rbx .rax (.mem ⟨some .rsi, none, 0#64⟩), -- 281: mulx rbx, rax, QWORD PTR [rsi]
  .adcx .r10 (.reg .rax), -- 282: adcx r10, rax
  .adox .r11 (.reg .rbx), -- 283: adox r11, rbx
  .mov (.mem ⟨some .rdi, none, 80#64⟩) (.reg .r10), -- 284: mov QWORD PTR [rdi + 0x50], r10
  .mulx .rbx .rax (.mem ⟨some .rsi, none, 8#64⟩), -- 285: mulx rbx, rax, QWORD PTR [rsi + 0x8]
  .adcx .r11 (.reg .rax), -- 286: adcx r11, rax
  .adox .r12 (.reg .rbx), -- 287: adox r12, rbx
  .mulx .rbx .rax (.mem ⟨some .rsi, none, 16#64⟩), -- 288: mulx rbx, rax, QWORD PTR [rsi + 0x10]
  .adcx .r12 (.reg .rax), -- 289: adcx r12, rax
  .adox .r13 (.reg .rbx), -- 290: adox r13, rbx
  .mulx .rbx .rax (.mem ⟨some .rsi, none, 24#64⟩), -- 291: mulx rbx, rax, QWORD PTR [rsi + 0x18]
  .adcx .r13 (.reg .rax), -- 292: adcx r13, rax
  .adox .r14 (.reg .rbx), -- 293: adox r14, rbx
  .mulx .rbx .rax (.mem ⟨some .rsi, none, 32#64⟩), -- 294: mulx rbx, rax, QWORD PTR [rsi + 0x20]
  .adcx .r14 (.reg .rax), -- 295: adcx r14, rax
  .adox .r15 (.reg .rbx), -- 296: adox r15, rbx
  .mulx .rbx .rax (.mem ⟨some .rsi, none, 40#64⟩), -- 297: mulx rbx, rax, QWORD PTR [rsi + 0x28]
  .adcx .r15 (.reg .rax), -- 298: adcx r15, rax
  .adox .r8 (.reg .rbx), -- 299: adox r8, rbx
  .mulx .rbx .rax (.mem ⟨some .rsi, none, 48#64⟩), -- 300: mulx rbx, rax, QWORD PTR [rsi + 0x30]
  .adcx .r8 (.reg .rax), -- 301: adcx r8, rax
  .adox .r9 (.reg .rbx), -- 302: adox r9, rbx
  .mulx .r10 .rax (.mem ⟨some .rsi, none, 56#64⟩), -- 303: mulx r10, rax, QWORD PTR [rsi + 0x38]
  .adcx .r9 (.reg .rax), -- 304: adcx r9, rax
  .adox .r10 (.reg .rbp), -- 305: adox r10, rbp
  .adc (.reg .r10) (.reg .rbp), -- 306: adc r10, rbp
  .mov (.reg .rdx) (.mem ⟨some .rcx, none, 88#64⟩), -- 307: mov rdx, QWORD PTR [rcx + 0x58]
  .xor (.reg .rbp) (.reg .rbp), -- 308: xor ebp, ebp
  .mulx .rbx .rax (.mem ⟨some .rsi, none, 0#64⟩), -- 309: mulx rbx, rax, QWORD PTR [rsi]
  .adcx .r11 (.reg .rax), -- 310: adcx r11, rax
  .adox .r12 (.reg .rbx), -- 311: adox r12, rbx
  .mov (.mem ⟨some .rdi, none, 88#64⟩) (.reg .r11), -- 312: mov QWORD PTR [rdi + 0x58], r11
  .mulx .rbx .rax (.mem ⟨some .rsi, none, 8#64⟩), -- 313: mulx rbx, rax, QWORD PTR [rsi + 0x8]
  .adcx .r12 (.reg .rax), -- 314: adcx r12, rax
  .adox .r13 (.reg .rbx), -- 315: adox r13, rbx
  .mulx .rbx .rax (.mem ⟨some .rsi, none, 16#64⟩), -- 316: mulx rbx, rax, QWORD PTR [rsi + 0x10]
  .adcx .r13 (.reg .rax), -- 317: adcx r13, rax
  .adox .r14 (.reg .rbx), -- 318: adox r14, rbx
  .mulx .rbx .rax (.mem ⟨some .rsi, none, 24#64⟩), -- 319: mulx rbx, rax, QWORD PTR [rsi + 0x18]
  .adcx .r14 (.reg .rax), -- 320: adcx r14, rax
  .adox .r15 (.reg .rbx), -- 321: adox r15, rbx
  .mulx .rbx .rax (.mem ⟨some .rsi, none, 32#64⟩), -- 322: mulx rbx, rax, QWORD PTR [rsi + 0x20]
  .adcx .r15 (.reg .rax), -- 323: adcx r15, rax
  .adox .r8 (.reg .rbx), -- 324: adox r8, rbx
  .mulx .rbx .rax (.mem ⟨some .rsi, none, 40#64⟩), -- 325: mulx rbx, rax, QWORD PTR [rsi + 0x28]
  .adcx .r8 (.reg .rax), -- 326: adcx r8, rax
  .adox .r9 (.reg .rbx), -- 327: adox r9, rbx
  .mulx .rbx .rax (.mem ⟨some .rsi, none, 48#64⟩), -- 328: mulx rbx, rax, QWORD PTR [rsi + 0x30]
  .adcx .r9 (.reg .rax), -- 329: adcx r9, rax
  .adox .r10 (.reg .rbx), -- 330: adox r10, rbx
  .mulx .r11 .rax (.mem ⟨some .rsi, none, 56#64⟩), -- 331: mulx r11, rax, QWORD PTR [rsi + 0x38]
  .adcx .r10 (.reg .rax), -- 332: adcx r10, rax
  .adox .r11 (.reg .rbp), -- 333: adox r11, rbp
  .adc (.reg .r11) (.reg .rbp), -- 334: adc r11, rbp
  .mov (.reg .rdx) (.mem ⟨some .rcx, none, 96#64⟩), -- 335: mov rdx, QWORD PTR [rcx + 0x60]
  .xor (.reg .rbp) (.reg .rbp), -- 336: xor ebp, ebp
  .mulx .rbx .rax (.mem ⟨some .rsi, none, 0#64⟩), -- 337: mulx rbx, rax, QWORD PTR [rsi]
  .adcx .r12 (.reg .rax), -- 338: adcx r12, rax
  .adox .r13 (.reg .rbx), -- 339: adox r13, rbx
  .mov (.mem ⟨some .rdi, none, 96#64⟩) (.reg .r12), -- 340: mov QWORD PTR [rdi + 0x60], r12
  .mulx .rbx .rax (.mem ⟨some .rsi, none, 8#64⟩), -- 341: mulx rbx, rax, QWORD PTR [rsi + 0x8]
  .adcx .r13 (.reg .rax), -- 342: adcx r13, rax
  .adox .r14 (.reg .rbx), -- 343: adox r14, rbx
  .mulx .rbx .rax (.mem ⟨some .rsi, none, 16#64⟩), -- 344: mulx rbx, rax, QWORD PTR [rsi + 0x10]
  .adcx .r14 (.reg .rax), -- 345: adcx r14, rax
  .adox .r15 (.reg .rbx), -- 346: adox r15, rbx
  .mulx .rbx .rax (.mem ⟨some .rsi, none, 24#64⟩), -- 347: mulx rbx, rax, QWORD PTR [rsi + 0x18]
  .adcx .r15 (.reg .rax), -- 348: adcx r15, rax
  .adox .r8 (.reg .rbx), -- 349: adox r8, rbx
  .mulx .rbx .rax (.mem ⟨some .rsi, none, 32#64⟩), -- 350: mulx rbx, rax, QWORD PTR [rsi + 0x20]
  .adcx .r8 (.reg .rax), -- 351: adcx r8, rax
  .adox .r9 (.reg .rbx), -- 352: adox r9, rbx
  .mulx .rbx .rax (.mem ⟨some .rsi, none, 40#64⟩), -- 353: mulx rbx, rax, QWORD PTR [rsi + 0x28]
  .adcx .r9 (.reg .rax), -- 354: adcx r9, rax
  .adox .r10 (.reg .rbx), -- 355: adox r10, rbx
  .mulx .rbx .rax (.mem ⟨some .rsi, none, 48#64⟩), -- 356: mulx rbx, rax, QWORD PTR [rsi + 0x30]
  .adcx .r10 (.reg .rax), -- 357: adcx r10, rax
  .adox .r11 (.reg .rbx), -- 358: adox r11, rbx
  .mulx .r12 .rax (.mem ⟨some .rsi, none, 56#64⟩), -- 359: mulx r12, rax, QWORD PTR [rsi + 0x38]
  .adcx .r11 (.reg .rax), -- 360: adcx r11, rax
  .adox .r12 (.reg .rbp), -- 361: adox r12, rbp
  .adc (.reg .r12) (.reg .rbp), -- 362: adc r12, rbp
  .mov (.reg .rdx) (.mem ⟨some .rcx, none, 104#64⟩), -- 363: mov rdx, QWORD PTR [rcx + 0x68]
  .xor (.reg .rbp) (.reg .rbp), -- 364: xor ebp, ebp
  .mulx .rbx .rax (.mem ⟨some .rsi, none, 0#64⟩), -- 365: mulx rbx, rax, QWORD PTR [rsi]
  .adcx .r13 (.reg .rax), -- 366: adcx r13, rax
  .adox .r14 (.reg .rbx), -- 367: adox r14, rbx
  .mov (.mem ⟨some .rdi, none, 104#64⟩) (.reg .r13), -- 368: mov QWORD PTR [rdi + 0x68], r13
  .mulx .rbx .rax (.mem ⟨some .rsi, none, 8#64⟩), -- 369: mulx rbx, rax, QWORD PTR [rsi + 0x8]
  .adcx .r14 (.reg .rax), -- 370: adcx r14, rax
  .adox .r15 (.reg .rbx), -- 371: adox r15, rbx
  .mulx .rbx .rax (.mem ⟨some .rsi, none, 16#64⟩), -- 372: mulx rbx, rax, QWORD PTR [rsi + 0x10]
  .adcx .r15 (.reg .rax), -- 373: adcx r15, rax
  .adox .r8 (.reg .rbx), -- 374: adox r8, rbx
  .mulx .rbx .rax (.mem ⟨some .rsi, none, 24#64⟩), -- 375: mulx rbx, rax, QWORD PTR [rsi + 0x18]
  .adcx .r8 (.reg .rax), -- 376: adcx r8, rax
  .adox .r9 (.reg .rbx), -- 377: adox r9, rbx
  .mulx .rbx .rax (.mem ⟨some .rsi, none, 32#64⟩), -- 378: mulx rbx, rax, QWORD PTR [rsi + 0x20]
  .adcx .r9 (.reg .rax), -- 379: adcx r9, rax
  .adox .r10 (.reg .rbx), -- 380: adox r10, rbx
  .mulx .rbx .rax (.mem ⟨some .rsi, none, 40#64⟩), -- 381: mulx rbx, rax, QWORD PTR [rsi + 0x28]
  .adcx .r10 (.reg .rax), -- 382: adcx r10, rax
  .adox .r11 (.reg .rbx), -- 383: adox r11, rbx
  .mulx .rbx .rax (.mem ⟨some .rsi, none, 48#64⟩), -- 384: mulx rbx, rax, QWORD PTR [rsi + 0x30]
  .adcx .r11 (.reg .rax), -- 385: adcx r11, rax
  .adox .r12 (.reg .rbx), -- 386: adox r12, rbx
  .mulx .r13 .rax (.mem ⟨some .rsi, none, 56#64⟩), -- 387: mulx r13, rax, QWORD PTR [rsi + 0x38]
  .adcx .r12 (.reg .rax), -- 388: adcx r12, rax
  .adox .r13 (.reg .rbp), -- 389: adox r13, rbp
  .adc (.reg .r13) (.reg .rbp), -- 390: adc r13, rbp
  .mov (.reg .rdx) (.mem ⟨some .rcx, none, 112#64⟩), -- 391: mov rdx, QWORD PTR [rcx + 0x70]
  .xor (.reg .rbp) (.reg .rbp), -- 392: xor ebp, ebp
  .mulx .rbx .rax (.mem ⟨some .rsi, none, 0#64⟩), -- 393: mulx rbx, rax, QWORD PTR [rsi]
  .adcx .r14 (.reg .rax), -- 394: adcx r14, rax
  .adox .r15 (.reg .rbx), -- 395: adox r15, rbx
  .mov (.mem ⟨some .rdi, none, 112#64⟩) (.reg .r14), -- 396: mov QWORD PTR [rdi + 0x70], r14
  .mulx .rbx .rax (.mem ⟨some .rsi, none, 8#64⟩), -- 397: mulx rbx, rax, QWORD PTR [rsi + 0x8]
  .adcx .r15 (.reg .rax), -- 398: adcx r15, rax
  .adox .r8 (.reg .rbx), -- 399: adox r8, rbx
  .mulx .rbx .rax (.mem ⟨some .rsi, none, 16#64⟩), -- 400: mulx rbx, rax, QWORD PTR [rsi + 0x10]
  .adcx .r8 (.reg .rax), -- 401: adcx r8, rax
  .adox .r9 (.reg .rbx), -- 402: adox r9, rbx
  .mulx .rbx .rax (.mem ⟨some .rsi, none, 24#64⟩), -- 403: mulx rbx, rax, QWORD PTR [rsi + 0x18]
  .adcx .r9 (.reg .rax), -- 404: adcx r9, rax
  .adox .r10 (.reg .rbx), -- 405: adox r10, rbx
  .mulx .rbx .rax (.mem ⟨some .rsi, none, 32#64⟩), -- 406: mulx rbx, rax, QWORD PTR [rsi + 0x20]
  .adcx .r10 (.reg .rax), -- 407: adcx r10, rax
  .adox .r11 (.reg .rbx), -- 408: adox r11, rbx
  .mulx .rbx .rax (.mem ⟨some .rsi, none, 40#64⟩), -- 409: mulx rbx, rax, QWORD PTR [rsi + 0x28]
  .adcx .r11 (.reg .rax), -- 410: adcx r11, rax
  .adox .r12 (.reg .rbx), -- 411: adox r12, rbx
  .mulx .rbx .rax (.mem ⟨some .rsi, none, 48#64⟩), -- 412: mulx rbx, rax, QWORD PTR [rsi + 0x30]
  .adcx .r12 (.reg .rax), -- 413: adcx r12, rax
  .adox .r13 (.reg .rbx), -- 414: adox r13, rbx
  .mulx .r14 .rax (.mem ⟨some .rsi, none, 56#64⟩), -- 415: mulx r14, rax, QWORD PTR [rsi + 0x38]
  .adcx .r13 (.reg .rax), -- 416: adcx r13, rax
  .adox .r14 (.reg .rbp), -- 417: adox r14, rbp
  .adc (.reg .r14) (.reg .rbp), -- 418: adc r14, rbp
  .mov (.reg .rdx) (.mem ⟨some .rcx, none, 120#64⟩), -- 419: mov rdx, QWORD PTR [rcx + 0x78]
  .xor (.reg .rbp) (.reg .rbp), -- 420: xor ebp, ebp
  .mulx .rbx .rax (.mem ⟨some .rsi, none, 0#64⟩), -- 421: mulx rbx, rax, QWORD PTR [rsi]
  .adcx .r15 (.reg .rax), -- 422: adcx r15, rax
  .adox .r8 (.reg .rbx), -- 423: adox r8, rbx
  .mov (.mem ⟨some .rdi, none, 120#64⟩) (.reg .r15), -- 424: mov QWORD PTR [rdi + 0x78], r15
  .mulx .rbx .rax (.mem ⟨some .rsi, none, 8#64⟩), -- 425: mulx rbx, rax, QWORD PTR [rsi + 0x8]
  .adcx .r8 (.reg .rax), -- 426: adcx r8, rax
  .adox .r9 (.reg .rbx), -- 427: adox r9, rbx
  .mulx .rbx .rax (.mem ⟨some .rsi, none, 16#64⟩), -- 428: mulx rbx, rax, QWORD PTR [rsi + 0x10]
  .adcx .r9 (.reg .rax), -- 429: adcx r9, rax
  .adox .r10 (.reg .rbx), -- 430: adox r10, rbx
  .mulx .rbx .rax (.mem ⟨some .rsi, none, 24#64⟩), -- 431: mulx rbx, rax, QWORD PTR [rsi + 0x18]
  .adcx .r10 (.reg .rax), -- 432: adcx r10, rax
  .adox .r11 (.reg .rbx), -- 433: adox r11, rbx
  .mulx .rbx .rax (.mem ⟨some .rsi, none, 32#64⟩), -- 434: mulx rbx, rax, QWORD PTR [rsi + 0x20]
  .adcx .r11 (.reg .rax), -- 435: adcx r11, rax
  .adox .r12 (.reg .rbx), -- 436: adox r12, rbx
  .mulx .rbx .rax (.mem ⟨some .rsi, none, 40#64⟩), -- 437: mulx rbx, rax, QWORD PTR [rsi + 0x28]
  .adcx .r12 (.reg .rax), -- 438: adcx r12, rax
  .adox .r13 (.reg .rbx), -- 439: adox r13, rbx
  .mulx .rbx .rax (.mem ⟨some .rsi, none, 48#64⟩), -- 440: mulx rbx, rax, QWORD PTR [rsi + 0x30]
  .adcx .r13 (.reg .rax), -- 441: adcx r13, rax
  .adox .r14 (.reg .rbx), -- 442: adox r14, rbx
  .mulx .r15 .rax (.mem ⟨some .rsi, none, 56#64⟩), -- 443: mulx r15, rax, QWORD PTR [rsi + 0x38]
  .adcx .r14 (.reg .rax), -- 444: adcx r14, rax
  .adox .r15 (.reg .rbp), -- 445: adox r15, rbp
  .adc (.reg .r15) (.reg .rbp), -- 446: adc r15, rbp
  .mov (.mem ⟨some .rdi, none, 128#64⟩) (.reg .r8), -- 447: mov QWORD PTR [rdi + 0x80], r8
  .mov (.mem ⟨some .rdi, none, 136#64⟩) (.reg .r9), -- 448: mov QWORD PTR [rdi + 0x88], r9
  .mov (.mem ⟨some .rdi, none, 144#64⟩) (.reg .r10), -- 449: mov QWORD PTR [rdi + 0x90], r10
  .mov (.mem ⟨some .rdi, none, 152#64⟩) (.reg .r11), -- 450: mov QWORD PTR [rdi + 0x98], r11
  .mov (.mem ⟨some .rdi, none, 160#64⟩) (.reg .r12), -- 451: mov QWORD PTR [rdi + 0xa0], r12
  .mov (.mem ⟨some .rdi, none, 168#64⟩) (.reg .r13), -- 452: mov QWORD PTR [rdi + 0xa8], r13
  .mov (.mem ⟨some .rdi, none, 176#64⟩) (.reg .r14), -- 453: mov QWORD PTR [rdi + 0xb0], r14
  .mov (.mem ⟨some .rdi, none, 184#64⟩) (.reg .r15), -- 454: mov QWORD PTR [rdi + 0xb8], r15
  .add (.reg .rdi) (.imm 64#64), -- 455: add rdi, 0x40
  .add (.reg .rsi) (.imm 64#64), -- 456: add rsi, 0x40
  .mov (.reg .rdx) (.mem ⟨some .rcx, none, 0#64⟩), -- 457: mov rdx, QWORD PTR [rcx]
  .xor (.reg .rbp) (.reg .rbp), -- 458: xor ebp, ebp
  .mov (.reg .r8) (.mem ⟨some .rdi, none, 0#64⟩), -- 459: mov r8, QWORD PTR [rdi]
  .mov (.reg .r9) (.mem ⟨some .rdi, none, 8#64⟩), -- 460: mov r9, QWORD PTR [rdi + 0x8]
  .mulx .rbx .rax (.mem ⟨some .rsi, none, 0#64⟩), -- 461: mulx rbx, rax, QWORD PTR [rsi]
  .adcx .r8 (.reg .rax), -- 462: adcx r8, rax
  .adox .r9 (.reg .rbx), -- 463: adox r9, rbx
  .mov (.mem ⟨some .rdi, none, 0#64⟩) (.reg .r8), -- 464: mov QWORD PTR [rdi], r8
  .mov (.reg .r10) (.mem ⟨some .rdi, none, 16#64⟩), -- 465: mov r10, QWORD PTR [rdi + 0x10]
  .mulx .rbx .rax (.mem ⟨some .rsi, none, 8#64⟩), -- 466: mulx rbx, rax, QWORD PTR [rsi + 0x8]
  .adcx .r9 (.reg .rax), -- 467: adcx r9, rax
  .adox .r10 (.reg .rbx), -- 468: adox r10, rbx
  .mov (.reg .r11) (.mem ⟨some .rdi, none, 24#64⟩), -- 469: mov r11, QWORD PTR [rdi + 0x18]
  .mulx .rbx .rax (.mem ⟨some .rsi, none, 16#64⟩), -- 470: mulx rbx, rax, QWORD PTR [rsi + 0x10]
  .adcx .r10 (.reg .rax), -- 471: adcx r10, rax
  .adox .r11 (.reg .rbx), -- 472: adox r11, rbx
  .mov (.reg .r12) (.mem ⟨some .rdi, none, 32#64⟩), -- 473: mov r12, QWORD PTR [rdi + 0x20]
  .mulx .rbx .rax (.mem ⟨some .rsi, none, 24#64⟩), -- 474: mulx rbx, rax, QWORD PTR [rsi + 0x18]
  .adcx .r11 (.reg .rax), -- 475: adcx r11, rax
  .adox .r12 (.reg .rbx), -- 476: adox r12, rbx
  .mov (.reg .r13) (.mem ⟨some .rdi, none, 40#64⟩), -- 477: mov r13, QWORD PTR [rdi + 0x28]
  .mulx .rbx .rax (.mem ⟨some .rsi, none, 32#64⟩), -- 478: mulx rbx, rax, QWORD PTR [rsi + 0x20]
  .adcx .r12 (.reg .rax), -- 479: adcx r12, rax
  .adox .r13 (.reg .rbx), -- 480: adox r13, rbx
  .mov (.reg .r14) (.mem ⟨some .rdi, none, 48#64⟩), -- 481: mov r14, QWORD PTR [rdi + 0x30]
  .mulx .rbx .rax (.mem ⟨some .rsi, none, 40#64⟩), -- 482: mulx rbx, rax, QWORD PTR [rsi + 0x28]
  .adcx .r13 (.reg .rax), -- 483: adcx r13, rax
  .adox .r14 (.reg .rbx), -- 484: adox r14, rbx
  .mov (.reg .r15) (.mem ⟨some .rdi, none, 56#64⟩), -- 485: mov r15, QWORD PTR [rdi + 0x38]
  .mulx .rbx .rax (.mem ⟨some .rsi, none, 48#64⟩), -- 486: mulx rbx, rax, QWORD PTR [rsi + 0x30]
  .adcx .r14 (.reg .rax), -- 487: adcx r14, rax
  .adox .r15 (.reg .rbx), -- 488: adox r15, rbx
  .mulx .r8 .rax (.mem ⟨some .rsi, none, 56#64⟩), -- 489: mulx r8, rax, QWORD PTR [rsi + 0x38]
  .adcx .r15 (.reg .rax), -- 490: adcx r15, rax
  .adox .r8 (.reg .rbp), -- 491: adox r8, rbp
  .adcx .r8 (.reg .rbp), -- 492: adcx r8, rbp
  .mov (.reg .rdx) (.mem ⟨some .rcx, none, 8#64⟩), -- 493: mov rdx, QWORD PTR [rcx + 0x8]
  .xor (.reg .rbp) (.reg .rbp), -- 494: xor ebp, ebp
  .mulx .rbx .rax (.mem ⟨some .rsi, none, 0#64⟩), -- 495: mulx rbx, rax, QWORD PTR [rsi]
  .adcx .r9 (.reg .rax), -- 496: adcx r9, rax
  .adox .r10 (.reg .rbx), -- 497: adox r10, rbx
  .mov (.mem ⟨some .rdi, none, 8#64⟩) (.reg .r9), -- 498: mov QWORD PTR [rdi + 0x8], r9
  .mulx .rbx .rax (.mem ⟨some .rsi, none, 8#64⟩), -- 499: mulx rbx, rax, QWORD PTR [rsi + 0x8]
  .adcx .r10 (.reg .rax), -- 500: adcx r10, rax
  .adox .r11 (.reg .rbx), -- 501: adox r11, rbx
  .mulx .rbx .rax (.mem ⟨some .rsi, none, 16#64⟩), -- 502: mulx rbx, rax, QWORD PTR [rsi + 0x10]
  .adcx .r11 (.reg .rax), -- 503: adcx r11, rax
  .adox .r12 (.reg .rbx), -- 504: adox r12, rbx
  .mulx .rbx .rax (.mem ⟨some .rsi, none, 24#64⟩), -- 505: mulx rbx, rax, QWORD PTR [rsi + 0x18]
  .adcx .r12 (.reg .rax), -- 506: adcx r12, rax
  .adox .r13 (.reg .rbx), -- 507: adox r13, rbx
  .mulx .rbx .rax (.mem ⟨some .rsi, none, 32#64⟩), -- 508: mulx rbx, rax, QWORD PTR [rsi + 0x20]
  .adcx .r13 (.reg .rax), -- 509: adcx r13, rax
  .adox .r14 (.reg .rbx), -- 510: adox r14, rbx
  .mulx .rbx .rax (.mem ⟨some .rsi, none, 40#64⟩), -- 511: mulx rbx, rax, QWORD PTR [rsi + 0x28]
  .adcx .r14 (.reg .rax), -- 512: adcx r14, rax
  .adox .r15 (.reg .rbx), -- 513: adox r15, rbx
  .mulx .rbx .rax (.mem ⟨some .rsi, none, 48#64⟩), -- 514: mulx rbx, rax, QWORD PTR [rsi + 0x30]
  .adcx .r15 (.reg .rax), -- 515: adcx r15, rax
  .adox .r8 (.reg .rbx), -- 516: adox r8, rbx
  .mulx .r9 .rax (.mem ⟨some .rsi, none, 56#64⟩), -- 517: mulx r9, rax, QWORD PTR [rsi + 0x38]
  .adcx .r8 (.reg .rax), -- 518: adcx r8, rax
  .adox .r9 (.reg .rbp), -- 519: adox r9, rbp
  .adc (.reg .r9) (.reg .rbp), -- 520: adc r9, rbp
  .mov (.reg .rdx) (.mem ⟨some .rcx, none, 16#64⟩), -- 521: mov rdx, QWORD PTR [rcx + 0x10]
  .xor (.reg .rbp) (.reg .rbp), -- 522: xor ebp, ebp
  .mulx .rbx .rax (.mem ⟨some .rsi, none, 0#64⟩), -- 523: mulx rbx, rax, QWORD PTR [rsi]
  .adcx .r10 (.reg .rax), -- 524: adcx r10, rax
  .adox .r11 (.reg .rbx), -- 525: adox r11, rbx
  .mov (.mem ⟨some .rdi, none, 16#64⟩) (.reg .r10), -- 526: mov QWORD PTR [rdi + 0x10], r10
  .mulx .rbx .rax (.mem ⟨some .rsi, none, 8#64⟩), -- 527: mulx rbx, rax, QWORD PTR [rsi + 0x8]
  .adcx .r11 (.reg .rax), -- 528: adcx r11, rax
  .adox .r12 (.reg .rbx), -- 529: adox r12, rbx
  .mulx .rbx .rax (.mem ⟨some .rsi, none, 16#64⟩), -- 530: mulx rbx, rax, QWORD PTR [rsi + 0x10]
  .adcx .r12 (.reg .rax), -- 531: adcx r12, rax
  .adox .r13 (.reg .rbx), -- 532: adox r13, rbx
  .mulx .rbx .rax (.mem ⟨some .rsi, none, 24#64⟩), -- 533: mulx rbx, rax, QWORD PTR [rsi + 0x18]
  .adcx .r13 (.reg .rax), -- 534: adcx r13, rax
  .adox .r14 (.reg .rbx), -- 535: adox r14, rbx
  .mulx .rbx .rax (.mem ⟨some .rsi, none, 32#64⟩), -- 536: mulx rbx, rax, QWORD PTR [rsi + 0x20]
  .adcx .r14 (.reg .rax), -- 537: adcx r14, rax
  .adox .r15 (.reg .rbx), -- 538: adox r15, rbx
  .mulx .rbx .rax (.mem ⟨some .rsi, none, 40#64⟩), -- 539: mulx rbx, rax, QWORD PTR [rsi + 0x28]
  .adcx .r15 (.reg .rax), -- 540: adcx r15, rax
  .adox .r8 (.reg .rbx), -- 541: adox r8, rbx
  .mulx .rbx .rax (.mem ⟨some .rsi, none, 48#64⟩), -- 542: mulx rbx, rax, QWORD PTR [rsi + 0x30]
  .adcx .r8 (.reg .rax), -- 543: adcx r8, rax
  .adox .r9 (.reg .rbx), -- 544: adox r9, rbx
  .mulx .r10 .rax (.mem ⟨some .rsi, none, 56#64⟩), -- 545: mulx r10, rax, QWORD PTR [rsi + 0x38]
  .adcx .r9 (.reg .rax), -- 546: adcx r9, rax
  .adox .r10 (.reg .rbp), -- 547: adox r10, rbp
  .adc (.reg .r10) (.reg .rbp), -- 548: adc r10, rbp
  .mov (.reg .rdx) (.mem ⟨some .rcx, none, 24#64⟩), -- 549: mov rdx, QWORD PTR [rcx + 0x18]
  .xor (.reg .rbp) (.reg .rbp), -- 550: xor ebp, ebp
  .mulx .rbx .rax (.mem ⟨some .rsi, none, 0#64⟩), -- 551: mulx rbx, rax, QWORD PTR [rsi]
  .adcx .r11 (.reg .rax), -- 552: adcx r11, rax
  .adox .r12 (.reg .rbx), -- 553: adox r12, rbx
  .mov (.mem ⟨some .rdi, none, 24#64⟩) (.reg .r11), -- 554: mov QWORD PTR [rdi + 0x18], r11
  .mulx .rbx .rax (.mem ⟨some .rsi, none, 8#64⟩), -- 555: mulx rbx, rax, QWORD PTR [rsi + 0x8]
  .adcx .r12 (.reg .rax), -- 556: adcx r12, rax
  .adox .r13 (.reg .rbx), -- 557: adox r13, rbx
  .mulx .rbx .rax (.mem ⟨some .rsi, none, 16#64⟩), -- 558: mulx rbx, rax, QWORD PTR [rsi + 0x10]
  .adcx .r13 (.reg .rax), -- 559: adcx r13, rax
  .adox .r14 (.reg .rbx), -- 560: adox r14, rbx
  .mulx .rbx .rax (.mem ⟨some .rsi, none, 24#64⟩), -- 561: mulx rbx, rax, QWORD PTR [rsi + 0x18]
  .adcx .r14 (.reg .rax), -- 562: adcx r14, rax
  .adox .r15 (.reg .rbx), -- 563: adox r15, rbx
  .mulx .rbx .rax (.mem ⟨some .rsi, none, 32#64⟩), -- 564: mulx rbx, rax, QWORD PTR [rsi + 0x20]
  .adcx .r15 (.reg .rax), -- 565: adcx r15, rax
  .adox .r8 (.reg .rbx), -- 566: adox r8, rbx
  .mulx .rbx .rax (.mem ⟨some .rsi, none, 40#64⟩), -- 567: mulx rbx, rax, QWORD PTR [rsi + 0x28]
  .adcx .r8 (.reg .rax), -- 568: adcx r8, rax
  .adox .r9 (.reg .rbx), -- 569: adox r9, rbx
  .mulx .rbx .rax (.mem ⟨some .rsi, none, 48#64⟩), -- 570: mulx rbx, rax, QWORD PTR [rsi + 0x30]
  .adcx .r9 (.reg .rax), -- 571: adcx r9, rax
  .adox .r10 (.reg .rbx), -- 572: adox r10, rbx
  .mulx .r11 .rax (.mem ⟨some .rsi, none, 56#64⟩), -- 573: mulx r11, rax, QWORD PTR [rsi + 0x38]
  .adcx .r10 (.reg .rax), -- 574: adcx r10, rax
  .adox .r11 (.reg .rbp), -- 575: adox r11, rbp
  .adc (.reg .r11) (.reg .rbp), -- 576: adc r11, rbp
  .mov (.reg .rdx) (.mem ⟨some .rcx, none, 32#64⟩), -- 577: mov rdx, QWORD PTR [rcx + 0x20]
  .xor (.reg .rbp) (.reg .rbp), -- 578: xor ebp, ebp
  .mulx .rbx .rax (.mem ⟨some .rsi, none, 0#64⟩), -- 579: mulx rbx, rax, QWORD PTR [rsi]
  .adcx .r12 (.reg .rax), -- 580: adcx r12, rax
  .adox .r13 (.reg .rbx), -- 581: adox r13, rbx
  .mov (.mem ⟨some .rdi, none, 32#64⟩) (.reg .r12), -- 582: mov QWORD PTR [rdi + 0x20], r12
  .mulx .rbx .rax (.mem ⟨some .rsi, none, 8#64⟩), -- 583: mulx rbx, rax, QWORD PTR [rsi + 0x8]
  .adcx .r13 (.reg .rax), -- 584: adcx r13, rax
  .adox .r14 (.reg .rbx), -- 585: adox r14, rbx
  .mulx .rbx .rax (.mem ⟨some .rsi, none, 16#64⟩), -- 586: mulx rbx, rax, QWORD PTR [rsi + 0x10]
  .adcx .r14 (.reg .rax), -- 587: adcx r14, rax
  .adox .r15 (.reg .rbx), -- 588: adox r15, rbx
  .mulx .rbx .rax (.mem ⟨some .rsi, none, 24#64⟩), -- 589: mulx rbx, rax, QWORD PTR [rsi + 0x18]
  .adcx .r15 (.reg .rax), -- 590: adcx r15, rax
  .adox .r8 (.reg .rbx), -- 591: adox r8, rbx
  .mulx .rbx .rax (.mem ⟨some .rsi, none, 32#64⟩), -- 592: mulx rbx, rax, QWORD PTR [rsi + 0x20]
  .adcx .r8 (.reg .rax), -- 593: adcx r8, rax
  .adox .r9 (.reg .rbx), -- 594: adox r9, rbx
  .mulx .rbx .rax (.mem ⟨some .rsi, none, 40#64⟩), -- 595: mulx rbx, rax, QWORD PTR [rsi + 0x28]
  .adcx .r9 (.reg .rax), -- 596: adcx r9, rax
  .adox .r10 (.reg .rbx), -- 597: adox r10, rbx
  .mulx .rbx .rax (.mem ⟨some .rsi, none, 48#64⟩), -- 598: mulx rbx, rax, QWORD PTR [rsi + 0x30]
  .adcx .r10 (.reg .rax), -- 599: adcx r10, rax
  .adox .r11 (.reg .rbx), -- 600: adox r11, rbx
  .mulx .r12 .rax (.mem ⟨some .rsi, none, 56#64⟩), -- 601: mulx r12, rax, QWORD PTR [rsi + 0x38]
  .adcx .r11 (.reg .rax), -- 602: adcx r11, rax
  .adox .r12 (.reg .rbp), -- 603: adox r12, rbp
  .adc (.reg .r12) (.reg .rbp), -- 604: adc r12, rbp
  .mov (.reg .rdx) (.mem ⟨some .rcx, none, 40#64⟩), -- 605: mov rdx, QWORD PTR [rcx + 0x28]
  .xor (.reg .rbp) (.reg .rbp), -- 606: xor ebp, ebp
  .mulx .rbx .rax (.mem ⟨some .rsi, none, 0#64⟩), -- 607: mulx rbx, rax, QWORD PTR [rsi]
  .adcx .r13 (.reg .rax), -- 608: adcx r13, rax
  .adox .r14 (.reg .rbx), -- 609: adox r14, rbx
  .mov (.mem ⟨some .rdi, none, 40#64⟩) (.reg .r13), -- 610: mov QWORD PTR [rdi + 0x28], r13
  .mulx .rbx .rax (.mem ⟨some .rsi, none, 8#64⟩), -- 611: mulx rbx, rax, QWORD PTR [rsi + 0x8]
  .adcx .r14 (.reg .rax), -- 612: adcx r14, rax
  .adox .r15 (.reg .rbx), -- 613: adox r15, rbx
  .mulx .rbx .rax (.mem ⟨some .rsi, none, 16#64⟩), -- 614: mulx rbx, rax, QWORD PTR [rsi + 0x10]
  .adcx .r15 (.reg .rax), -- 615: adcx r15, rax
  .adox .r8 (.reg .rbx), -- 616: adox r8, rbx
  .mulx .rbx .rax (.mem ⟨some .rsi, none, 24#64⟩), -- 617: mulx rbx, rax, QWORD PTR [rsi + 0x18]
  .adcx .r8 (.reg .rax), -- 618: adcx r8, rax
  .adox .r9 (.reg .rbx), -- 619: adox r9, rbx
  .mulx .rbx .rax (.mem ⟨some .rsi, none, 32#64⟩), -- 620: mulx rbx, rax, QWORD PTR [rsi + 0x20]
  .adcx .r9 (.reg .rax), -- 621: adcx r9, rax
  .adox .r10 (.reg .rbx), -- 622: adox r10, rbx
  .mulx .rbx .rax (.mem ⟨some .rsi, none, 40#64⟩), -- 623: mulx rbx, rax, QWORD PTR [rsi + 0x28]
  .adcx .r10 (.reg .rax), -- 624: adcx r10, rax
  .adox .r11 (.reg .rbx), -- 625: adox r11, rbx
  .mulx .rbx .rax (.mem ⟨some .rsi, none, 48#64⟩), -- 626: mulx rbx, rax, QWORD PTR [rsi + 0x30]
  .adcx .r11 (.reg .rax), -- 627: adcx r11, rax
  .adox .r12 (.reg .rbx), -- 628: adox r12, rbx
  .mulx .r13 .rax (.mem ⟨some .rsi, none, 56#64⟩), -- 629: mulx r13, rax, QWORD PTR [rsi + 0x38]
  .adcx .r12 (.reg .rax), -- 630: adcx r12, rax
  .adox .r13 (.reg .rbp), -- 631: adox r13, rbp
  .adc (.reg .r13) (.reg .rbp), -- 632: adc r13, rbp
  .mov (.reg .rdx) (.mem ⟨some .rcx, none, 48#64⟩), -- 633: mov rdx, QWORD PTR [rcx + 0x30]
  .xor (.reg .rbp) (.reg .rbp), -- 634: xor ebp, ebp
  .mulx .rbx .rax (.mem ⟨some .rsi, none, 0#64⟩), -- 635: mulx rbx, rax, QWORD PTR [rsi]
  .adcx .r14 (.reg .rax), -- 636: adcx r14, rax
  .adox .r15 (.reg .rbx), -- 637: adox r15, rbx
  .mov (.mem ⟨some .rdi, none, 48#64⟩) (.reg .r14), -- 638: mov QWORD PTR [rdi + 0x30], r14
  .mulx .rbx .rax (.mem ⟨some .rsi, none, 8#64⟩), -- 639: mulx rbx, rax, QWORD PTR [rsi + 0x8]
  .adcx .r15 (.reg .rax), -- 640: adcx r15, rax
  .adox .r8 (.reg .rbx), -- 641: adox r8, rbx
  .mulx .rbx .rax (.mem ⟨some .rsi, none, 16#64⟩), -- 642: mulx rbx, rax, QWORD PTR [rsi + 0x10]
  .adcx .r8 (.reg .rax), -- 643: adcx r8, rax
  .adox .r9 (.reg .rbx), -- 644: adox r9, rbx
  .mulx .rbx .rax (.mem ⟨some .rsi, none, 24#64⟩), -- 645: mulx rbx, rax, QWORD PTR [rsi + 0x18]
  .adcx .r9 (.reg .rax), -- 646: adcx r9, rax
  .adox .r10 (.reg .rbx), -- 647: adox r10, rbx
  .mulx .rbx .rax (.mem ⟨some .rsi, none, 32#64⟩), -- 648: mulx rbx, rax, QWORD PTR [rsi + 0x20]
  .adcx .r10 (.reg .rax), -- 649: adcx r10, rax
  .adox .r11 (.reg .rbx), -- 650: adox r11, rbx
  .mulx .rbx .rax (.mem ⟨some .rsi, none, 40#64⟩), -- 651: mulx rbx, rax, QWORD PTR [rsi + 0x28]
  .adcx .r11 (.reg .rax), -- 652: adcx r11, rax
  .adox .r12 (.reg .rbx), -- 653: adox r12, rbx
  .mulx .rbx .rax (.mem ⟨some .rsi, none, 48#64⟩), -- 654: mulx rbx, rax, QWORD PTR [rsi + 0x30]
  .adcx .r12 (.reg .rax), -- 655: adcx r12, rax
  .adox .r13 (.reg .rbx), -- 656: adox r13, rbx
  .mulx .r14 .rax (.mem ⟨some .rsi, none, 56#64⟩), -- 657: mulx r14, rax, QWORD PTR [rsi + 0x38]
  .adcx .r13 (.reg .rax), -- 658: adcx r13, rax
  .adox .r14 (.reg .rbp), -- 659: adox r14, rbp
  .adc (.reg .r14) (.reg .rbp), -- 660: adc r14, rbp
  .mov (.reg .rdx) (.mem ⟨some .rcx, none, 56#64⟩), -- 661: mov rdx, QWORD PTR [rcx + 0x38]
  .xor (.reg .rbp) (.reg .rbp), -- 662: xor ebp, ebp
  .mulx .rbx .rax (.mem ⟨some .rsi, none, 0#64⟩), -- 663: mulx rbx, rax, QWORD PTR [rsi]
  .adcx .r15 (.reg .rax), -- 664: adcx r15, rax
  .adox .r8 (.reg .rbx), -- 665: adox r8, rbx
  .mov (.mem ⟨some .rdi, none, 56#64⟩) (.reg .r15), -- 666: mov QWORD PTR [rdi + 0x38], r15
  .mulx .rbx .rax (.mem ⟨some .rsi, none, 8#64⟩), -- 667: mulx rbx, rax, QWORD PTR [rsi + 0x8]
  .adcx .r8 (.reg .rax), -- 668: adcx r8, rax
  .adox .r9 (.reg .rbx), -- 669: adox r9, rbx
  .mulx .rbx .rax (.mem ⟨some .rsi, none, 16#64⟩), -- 670: mulx rbx, rax, QWORD PTR [rsi + 0x10]
  .adcx .r9 (.reg .rax), -- 671: adcx r9, rax
  .adox .r10 (.reg .rbx), -- 672: adox r10, rbx
  .mulx .rbx .rax (.mem ⟨some .rsi, none, 24#64⟩), -- 673: mulx rbx, rax, QWORD PTR [rsi + 0x18]
  .adcx .r10 (.reg .rax), -- 674: adcx r10, rax
  .adox .r11 (.reg .rbx), -- 675: adox r11, rbx
  .mulx .rbx .rax (.mem ⟨some .rsi, none, 32#64⟩), -- 676: mulx rbx, rax, QWORD PTR [rsi + 0x20]
  .adcx .r11 (.reg .rax), -- 677: adcx r11, rax
  .adox .r12 (.reg .rbx), -- 678: adox r12, rbx
  .mulx .rbx .rax (.mem ⟨some .rsi, none, 40#64⟩), -- 679: mulx rbx, rax, QWORD PTR [rsi + 0x28]
  .adcx .r12 (.reg .rax), -- 680: adcx r12, rax
  .adox .r13 (.reg .rbx), -- 681: adox r13, rbx
  .mulx .rbx .rax (.mem ⟨some .rsi, none, 48#64⟩), -- 682: mulx rbx, rax, QWORD PTR [rsi + 0x30]
  .adcx .r13 (.reg .rax), -- 683: adcx r13, rax
  .adox .r14 (.reg .rbx), -- 684: adox r14, rbx
  .mulx .r15 .rax (.mem ⟨some .rsi, none, 56#64⟩), -- 685: mulx r15, rax, QWORD PTR [rsi + 0x38]
  .adcx .r14 (.reg .rax), -- 686: adcx r14, rax
  .adox .r15 (.reg .rbp), -- 687: adox r15, rbp
  .adc (.reg .r15) (.reg .rbp), -- 688: adc r15, rbp
  .mov (.reg .rdx) (.mem ⟨some .rcx, none, 64#64⟩), -- 689: mov rdx, QWORD PTR [rcx + 0x40]
  .xor (.reg .rbp) (.reg .rbp), -- 690: xor ebp, ebp
  .adox .r8 (.mem ⟨some .rdi, none, 64#64⟩), -- 691: adox r8, QWORD PTR [rdi + 0x40]
  .mulx .rbx .rax (.mem ⟨some .rsi, none, 0#64⟩), -- 692: mulx rbx, rax, QWORD PTR [rsi]
  .adcx .r8 (.reg .rax), -- 693: adcx r8, rax
  .adox .r9 (.reg .rbx), -- 694: adox r9, rbx
  .mov (.mem ⟨some .rdi, none, 64#64⟩) (.reg .r8), -- 695: mov QWORD PTR [rdi + 0x40], r8
  .mulx .rbx .rax (.mem ⟨some .rsi, none, 8#64⟩), -- 696: mulx rbx, rax, QWORD PTR [rsi + 0x8]
  .adcx .r9 (.reg .rax), -- 697: adcx r9, rax
  .adox .r10 (.reg .rbx), -- 698: adox r10, rbx
  .mulx .rbx .rax (.mem ⟨some .rsi, none, 16#64⟩), -- 699: mulx rbx, rax, QWORD PTR [rsi + 0x10]
  .adcx .r10 (.reg .rax), -- 700: adcx r10, rax
  .adox .r11 (.reg .rbx), -- 701: adox r11, rbx
  .mulx .rbx .rax (.mem ⟨some .rsi, none, 24#64⟩), -- 702: mulx rbx, rax, QWORD PTR [rsi + 0x18]
  .adcx .r11 (.reg .rax), -- 703: adcx r11, rax
  .adox .r12 (.reg .rbx), -- 704: adox r12, rbx
  .mulx .rbx .rax (.mem ⟨some .rsi, none, 32#64⟩), -- 705: mulx rbx, rax, QWORD PTR [rsi + 0x20]
  .adcx .r12 (.reg .rax), -- 706: adcx r12, rax
  .adox .r13 (.reg .rbx), -- 707: adox r13, rbx
  .mulx .rbx .rax (.mem ⟨some .rsi, none, 40#64⟩), -- 708: mulx rbx, rax, QWORD PTR [rsi + 0x28]
  .adcx .r13 (.reg .rax), -- 709: adcx r13, rax
  .adox .r14 (.reg .rbx), -- 710: adox r14, rbx
  .mulx .rbx .rax (.mem ⟨some .rsi, none, 48#64⟩), -- 711: mulx rbx, rax, QWORD PTR [rsi + 0x30]
  .adcx .r14 (.reg .rax), -- 712: adcx r14, rax
  .adox .r15 (.reg .rbx), -- 713: adox r15, rbx
  .mulx .r8 .rax (.mem ⟨some .rsi, none, 56#64⟩), -- 714: mulx r8, rax, QWORD PTR [rsi + 0x38]
  .adcx .r15 (.reg .rax), -- 715: adcx r15, rax
  .adox .r8 (.reg .rbp), -- 716: adox r8, rbp
  .adc (.reg .r8) (.reg .rbp), -- 717: adc r8, rbp
  .mov (.reg .rdx) (.mem ⟨some .rcx, none, 72#64⟩), -- 718: mov rdx, QWORD PTR [rcx + 0x48]
  .xor (.reg .rbp) (.reg .rbp), -- 719: xor ebp, ebp
  .adox .r9 (.mem ⟨some .rdi, none, 72#64⟩), -- 720: adox r9, QWORD PTR [rdi + 0x48]
  .mulx .rbx .rax (.mem ⟨some .rsi, none, 0#64⟩), -- 721: mulx rbx, rax, QWORD PTR [rsi]
  .adcx .r9 (.reg .rax), -- 722: adcx r9, rax
  .adox .r10 (.reg .rbx), -- 723: adox r10, rbx
  .mov (.mem ⟨some .rdi, none, 72#64⟩) (.reg .r9), -- 724: mov QWORD PTR [rdi + 0x48], r9
  .mulx .rbx .rax (.mem ⟨some .rsi, none, 8#64⟩), -- 725: mulx rbx, rax, QWORD PTR [rsi + 0x8]
  .adcx .r10 (.reg .rax), -- 726: adcx r10, rax
  .adox .r11 (.reg .rbx), -- 727: adox r11, rbx
  .mulx .rbx .rax (.mem ⟨some .rsi, none, 16#64⟩), -- 728: mulx rbx, rax, QWORD PTR [rsi + 0x10]
  .adcx .r11 (.reg .rax), -- 729: adcx r11, rax
  .adox .r12 (.reg .rbx), -- 730: adox r12, rbx
  .mulx .rbx .rax (.mem ⟨some .rsi, none, 24#64⟩), -- 731: mulx rbx, rax, QWORD PTR [rsi + 0x18]
  .adcx .r12 (.reg .rax), -- 732: adcx r12, rax
  .adox .r13 (.reg .rbx), -- 733: adox r13, rbx
  .mulx .rbx .rax (.mem ⟨some .rsi, none, 32#64⟩), -- 734: mulx rbx, rax, QWORD PTR [rsi + 0x20]
  .adcx .r13 (.reg .rax), -- 735: adcx r13, rax
  .adox .r14 (.reg .rbx), -- 736: adox r14, rbx
  .mulx .rbx .rax (.mem ⟨some .rsi, none, 40#64⟩), -- 737: mulx rbx, rax, QWORD PTR [rsi + 0x28]
  .adcx .r14 (.reg .rax), -- 738: adcx r14, rax
  .adox .r15 (.reg .rbx), -- 739: adox r15, rbx
  .mulx .rbx .rax (.mem ⟨some .rsi, none, 48#64⟩), -- 740: mulx rbx, rax, QWORD PTR [rsi + 0x30]
  .adcx .r15 (.reg .rax), -- 741: adcx r15, rax
  .adox .r8 (.reg .rbx), -- 742: adox r8, rbx
  .mulx .r9 .rax (.mem ⟨some .rsi, none, 56#64⟩), -- 743: mulx r9, rax, QWORD PTR [rsi + 0x38]
  .adcx .r8 (.reg .rax), -- 744: adcx r8, rax
  .adox .r9 (.reg .rbp), -- 745: adox r9, rbp
  .adc (.reg .r9) (.reg .rbp), -- 746: adc r9, rbp
  .mov (.reg .rdx) (.mem ⟨some .rcx, none, 80#64⟩), -- 747: mov rdx, QWORD PTR [rcx + 0x50]
  .xor (.reg .rbp) (.reg .rbp), -- 748: xor ebp, ebp
  .adox .r10 (.mem ⟨some .rdi, none, 80#64⟩), -- 749: adox r10, QWORD PTR [rdi + 0x50]
  .mulx .rbx .rax (.mem ⟨some .rsi, none, 0#64⟩), -- 750: mulx rbx, rax, QWORD PTR [rsi]
  .adcx .r10 (.reg .rax), -- 751: adcx r10, rax
  .adox .r11 (.reg .rbx), -- 752: adox r11, rbx
  .mov (.mem ⟨some .rdi, none, 80#64⟩) (.reg .r10), -- 753: mov QWORD PTR [rdi + 0x50], r10
  .mulx .rbx .rax (.mem ⟨some .rsi, none, 8#64⟩), -- 754: mulx rbx, rax, QWORD PTR [rsi + 0x8]
  .adcx .r11 (.reg .rax), -- 755: adcx r11, rax
  .adox .r12 (.reg .rbx), -- 756: adox r12, rbx
  .mulx .rbx .rax (.mem ⟨some .rsi, none, 16#64⟩), -- 757: mulx rbx, rax, QWORD PTR [rsi + 0x10]
  .adcx .r12 (.reg .rax), -- 758: adcx r12, rax
  .adox .r13 (.reg .rbx), -- 759: adox r13, rbx
  .mulx .rbx .rax (.mem ⟨some .rsi, none, 24#64⟩), -- 760: mulx rbx, rax, QWORD PTR [rsi + 0x18]
  .adcx .r13 (.reg .rax), -- 761: adcx r13, rax
  .adox .r14 (.reg .rbx), -- 762: adox r14, rbx
  .mulx .rbx .rax (.mem ⟨some .rsi, none, 32#64⟩), -- 763: mulx rbx, rax, QWORD PTR [rsi + 0x20]
  .adcx .r14 (.reg .rax), -- 764: adcx r14, rax
  .adox .r15 (.reg .rbx), -- 765: adox r15, rbx
  .mulx .rbx .rax (.mem ⟨some .rsi, none, 40#64⟩), -- 766: mulx rbx, rax, QWORD PTR [rsi + 0x28]
  .adcx .r15 (.reg .rax), -- 767: adcx r15, rax
  .adox .r8 (.reg .rbx), -- 768: adox r8, rbx
  .mulx .rbx .rax (.mem ⟨some .rsi, none, 48#64⟩), -- 769: mulx rbx, rax, QWORD PTR [rsi + 0x30]
  .adcx .r8 (.reg .rax), -- 770: adcx r8, rax
  .adox .r9 (.reg .rbx), -- 771: adox r9, rbx
  .mulx .r10 .rax (.mem ⟨some .rsi, none, 56#64⟩), -- 772: mulx r10, rax, QWORD PTR [rsi + 0x38]
  .adcx .r9 (.reg .rax), -- 773: adcx r9, rax
  .adox .r10 (.reg .rbp), -- 774: adox r10, rbp
  .adc (.reg .r10) (.reg .rbp), -- 775: adc r10, rbp
  .mov (.reg .rdx) (.mem ⟨some .rcx, none, 88#64⟩), -- 776: mov rdx, QWORD PTR [rcx + 0x58]
  .xor (.reg .rbp) (.reg .rbp), -- 777: xor ebp, ebp
  .adox .r11 (.mem ⟨some .rdi, none, 88#64⟩), -- 778: adox r11, QWORD PTR [rdi + 0x58]
  .mulx .rbx .rax (.mem ⟨some .rsi, none, 0#64⟩), -- 779: mulx rbx, rax, QWORD PTR [rsi]
  .adcx .r11 (.reg .rax), -- 780: adcx r11, rax
  .adox .r12 (.reg .rbx), -- 781: adox r12, rbx
  .mov (.mem ⟨some .rdi, none, 88#64⟩) (.reg .r11), -- 782: mov QWORD PTR [rdi + 0x58], r11
  .mulx .rbx .rax (.mem ⟨some .rsi, none, 8#64⟩), -- 783: mulx rbx, rax, QWORD PTR [rsi + 0x8]
  .adcx .r12 (.reg .rax), -- 784: adcx r12, rax
  .adox .r13 (.reg .rbx), -- 785: adox r13, rbx
  .mulx .rbx .rax (.mem ⟨some .rsi, none, 16#64⟩), -- 786: mulx rbx, rax, QWORD PTR [rsi + 0x10]
  .adcx .r13 (.reg .rax), -- 787: adcx r13, rax
  .adox .r14 (.reg .rbx), -- 788: adox r14, rbx
  .mulx .rbx .rax (.mem ⟨some .rsi, none, 24#64⟩), -- 789: mulx rbx, rax, QWORD PTR [rsi + 0x18]
  .adcx .r14 (.reg .rax), -- 790: adcx r14, rax
  .adox .r15 (.reg .rbx), -- 791: adox r15, rbx
  .mulx .rbx .rax (.mem ⟨some .rsi, none, 32#64⟩), -- 792: mulx rbx, rax, QWORD PTR [rsi + 0x20]
  .adcx .r15 (.reg .rax), -- 793: adcx r15, rax
  .adox .r8 (.reg .rbx), -- 794: adox r8, rbx
  .mulx .rbx .rax (.mem ⟨some .rsi, none, 40#64⟩), -- 795: mulx rbx, rax, QWORD PTR [rsi + 0x28]
  .adcx .r8 (.reg .rax), -- 796: adcx r8, rax
  .adox .r9 (.reg .rbx), -- 797: adox r9, rbx
  .mulx .rbx .rax (.mem ⟨some .rsi, none, 48#64⟩), -- 798: mulx rbx, rax, QWORD PTR [rsi + 0x30]
  .adcx .r9 (.reg .rax), -- 799: adcx r9, rax
  .adox .r10 (.reg .rbx), -- 800: adox r10, rbx
  .mulx .r11 .rax (.mem ⟨some .rsi, none, 56#64⟩), -- 801: mulx r11, rax, QWORD PTR [rsi + 0x38]
  .adcx .r10 (.reg .rax), -- 802: adcx r10, rax
  .adox .r11 (.reg .rbp), -- 803: adox r11, rbp
  .adc (.reg .r11) (.reg .rbp), -- 804: adc r11, rbp
  .mov (.reg .rdx) (.mem ⟨some .rcx, none, 96#64⟩), -- 805: mov rdx, QWORD PTR [rcx + 0x60]
  .xor (.reg .rbp) (.reg .rbp), -- 806: xor ebp, ebp
  .adox .r12 (.mem ⟨some .rdi, none, 96#64⟩), -- 807: adox r12, QWORD PTR [rdi + 0x60]
  .mulx .rbx .rax (.mem ⟨some .rsi, none, 0#64⟩), -- 808: mulx rbx, rax, QWORD PTR [rsi]
  .adcx .r12 (.reg .rax), -- 809: adcx r12, rax
  .adox .r13 (.reg .rbx), -- 810: adox r13, rbx
  .mov (.mem ⟨some .rdi, none, 96#64⟩) (.reg .r12), -- 811: mov QWORD PTR [rdi + 0x60], r12
  .mulx .rbx .rax (.mem ⟨some .rsi, none, 8#64⟩), -- 812: mulx rbx, rax, QWORD PTR [rsi + 0x8]
  .adcx .r13 (.reg .rax), -- 813: adcx r13, rax
  .adox .r14 (.reg .rbx), -- 814: adox r14, rbx
  .mulx .rbx .rax (.mem ⟨some .rsi, none, 16#64⟩), -- 815: mulx rbx, rax, QWORD PTR [rsi + 0x10]
  .adcx .r14 (.reg .rax), -- 816: adcx r14, rax
  .adox .r15 (.reg .rbx), -- 817: adox r15, rbx
  .mulx .rbx .rax (.mem ⟨some .rsi, none, 24#64⟩), -- 818: mulx rbx, rax, QWORD PTR [rsi + 0x18]
  .adcx .r15 (.reg .rax), -- 819: adcx r15, rax
  .adox .r8 (.reg .rbx), -- 820: adox r8, rbx
  .mulx .rbx .rax (.mem ⟨some .rsi, none, 32#64⟩), -- 821: mulx rbx, rax, QWORD PTR [rsi + 0x20]
  .adcx .r8 (.reg .rax), -- 822: adcx r8, rax
  .adox .r9 (.reg .rbx), -- 823: adox r9, rbx
  .mulx .rbx .rax (.mem ⟨some .rsi, none, 40#64⟩), -- 824: mulx rbx, rax, QWORD PTR [rsi + 0x28]
  .adcx .r9 (.reg .rax), -- 825: adcx r9, rax
  .adox .r10 (.reg .rbx), -- 826: adox r10, rbx
  .mulx .rbx .rax (.mem ⟨some .rsi, none, 48#64⟩), -- 827: mulx rbx, rax, QWORD PTR [rsi + 0x30]
  .adcx .r10 (.reg .rax), -- 828: adcx r10, rax
  .adox .r11 (.reg .rbx), -- 829: adox r11, rbx
  .mulx .r12 .rax (.mem ⟨some .rsi, none, 56#64⟩), -- 830: mulx r12, rax, QWORD PTR [rsi + 0x38]
  .adcx .r11 (.reg .rax), -- 831: adcx r11, rax
  .adox .r12 (.reg .rbp), -- 832: adox r12, rbp
  .adc (.reg .r12) (.reg .rbp), -- 833: adc r12, rbp
  .mov (.reg .rdx) (.mem ⟨some .rcx, none, 104#64⟩), -- 834: mov rdx, QWORD PTR [rcx + 0x68]
  .xor (.reg .rbp) (.reg .rbp), -- 835: xor ebp, ebp
  .adox .r13 (.mem ⟨some .rdi, none, 104#64⟩), -- 836: adox r13, QWORD PTR [rdi + 0x68]
  .mulx .rbx .rax (.mem ⟨some .rsi, none, 0#64⟩), -- 837: mulx rbx, rax, QWORD PTR [rsi]
  .adcx .r13 (.reg .rax), -- 838: adcx r13, rax
  .adox .r14 (.reg .rbx), -- 839: adox r14, rbx
  .mov (.mem ⟨some .rdi, none, 104#64⟩) (.reg .r13), -- 840: mov QWORD PTR [rdi + 0x68], r13
  .mulx .rbx .rax (.mem ⟨some .rsi, none, 8#64⟩), -- 841: mulx rbx, rax, QWORD PTR [rsi + 0x8]
  .adcx .r14 (.reg .rax), -- 842: adcx r14, rax
  .adox .r15 (.reg .rbx), -- 843: adox r15, rbx
  .mulx .rbx .rax (.mem ⟨some .rsi, none, 16#64⟩), -- 844: mulx rbx, rax, QWORD PTR [rsi + 0x10]
  .adcx .r15 (.reg .rax), -- 845: adcx r15, rax
  .adox .r8 (.reg .rbx), -- 846: adox r8, rbx
  .mulx .rbx .rax (.mem ⟨some .rsi, none, 24#64⟩), -- 847: mulx rbx, rax, QWORD PTR [rsi + 0x18]
  .adcx .r8 (.reg .rax), -- 848: adcx r8, rax
  .adox .r9 (.reg .rbx), -- 849: adox r9, rbx
  .mulx .rbx .rax (.mem ⟨some .rsi, none, 32#64⟩), -- 850: mulx rbx, rax, QWORD PTR [rsi + 0x20]
  .adcx .r9 (.reg .rax), -- 851: adcx r9, rax
  .adox .r10 (.reg .rbx), -- 852: adox r10, rbx
  .mulx .rbx .rax (.mem ⟨some .rsi, none, 40#64⟩), -- 853: mulx rbx, rax, QWORD PTR [rsi + 0x28]
  .adcx .r10 (.reg .rax), -- 854: adcx r10, rax
  .adox .r11 (.reg .rbx), -- 855: adox r11, rbx
  .mulx .rbx .rax (.mem ⟨some .rsi, none, 48#64⟩), -- 856: mulx rbx, rax, QWORD PTR [rsi + 0x30]
  .adcx .r11 (.reg .rax), -- 857: adcx r11, rax
  .adox .r12 (.reg .rbx), -- 858: adox r12, rbx
  .mulx .r13 .rax (.mem ⟨some .rsi, none, 56#64⟩), -- 859: mulx r13, rax, QWORD PTR [rsi + 0x38]
  .adcx .r12 (.reg .rax), -- 860: adcx r12, rax
  .adox .r13 (.reg .rbp), -- 861: adox r13, rbp
  .adc (.reg .r13) (.reg .rbp), -- 862: adc r13, rbp
  .mov (.reg .rdx) (.mem ⟨some .rcx, none, 112#64⟩), -- 863: mov rdx, QWORD PTR [rcx + 0x70]
  .xor (.reg .rbp) (.reg .rbp), -- 864: xor ebp, ebp
  .adox .r14 (.mem ⟨some .rdi, none, 112#64⟩), -- 865: adox r14, QWORD PTR [rdi + 0x70]
  .mulx .rbx .rax (.mem ⟨some .rsi, none, 0#64⟩), -- 866: mulx rbx, rax, QWORD PTR [rsi]
  .adcx .r14 (.reg .rax), -- 867: adcx r14, rax
  .adox .r15 (.reg .rbx), -- 868: adox r15, rbx
  .mov (.mem ⟨some .rdi, none, 112#64⟩) (.reg .r14), -- 869: mov QWORD PTR [rdi + 0x70], r14
  .mulx .rbx .rax (.mem ⟨some .rsi, none, 8#64⟩), -- 870: mulx rbx, rax, QWORD PTR [rsi + 0x8]
  .adcx .r15 (.reg .rax), -- 871: adcx r15, rax
  .adox .r8 (.reg .rbx), -- 872: adox r8, rbx
  .mulx .rbx .rax (.mem ⟨some .rsi, none, 16#64⟩), -- 873: mulx rbx, rax, QWORD PTR [rsi + 0x10]
  .adcx .r8 (.reg .rax), -- 874: adcx r8, rax
  .adox .r9 (.reg .rbx), -- 875: adox r9, rbx
  .mulx .rbx .rax (.mem ⟨some .rsi, none, 24#64⟩), -- 876: mulx rbx, rax, QWORD PTR [rsi + 0x18]
  .adcx .r9 (.reg .rax), -- 877: adcx r9, rax
  .adox .r10 (.reg .rbx), -- 878: adox r10, rbx
  .mulx .rbx .rax (.mem ⟨some .rsi, none, 32#64⟩), -- 879: mulx rbx, rax, QWORD PTR [rsi + 0x20]
  .adcx .r10 (.reg .rax), -- 880: adcx r10, rax
  .adox .r11 (.reg .rbx), -- 881: adox r11, rbx
  .mulx .rbx .rax (.mem ⟨some .rsi, none, 40#64⟩), -- 882: mulx rbx, rax, QWORD PTR [rsi + 0x28]
  .adcx .r11 (.reg .rax), -- 883: adcx r11, rax
  .adox .r12 (.reg .rbx), -- 884: adox r12, rbx
  .mulx .rbx .rax (.mem ⟨some .rsi, none, 48#64⟩), -- 885: mulx rbx, rax, QWORD PTR [rsi + 0x30]
  .adcx .r12 (.reg .rax), -- 886: adcx r12, rax
  .adox .r13 (.reg .rbx), -- 887: adox r13, rbx
  .mulx .r14 .rax (.mem ⟨some .rsi, none, 56#64⟩), -- 888: mulx r14, rax, QWORD PTR [rsi + 0x38]
  .adcx .r13 (.reg .rax), -- 889: adcx r13, rax
  .adox .r14 (.reg .rbp), -- 890: adox r14, rbp
  .adc (.reg .r14) (.reg .rbp), -- 891: adc r14, rbp
  .mov (.reg .rdx) (.mem ⟨some .rcx, none, 120#64⟩), -- 892: mov rdx, QWORD PTR [rcx + 0x78]
  .xor (.reg .rbp) (.reg .rbp), -- 893: xor ebp, ebp
  .adox .r15 (.mem ⟨some .rdi, none, 120#64⟩), -- 894: adox r15, QWORD PTR [rdi + 0x78]
  .mulx .rbx .rax (.mem ⟨some .rsi, none, 0#64⟩), -- 895: mulx rbx, rax, QWORD PTR [rsi]
  .adcx .r15 (.reg .rax), -- 896: adcx r15, rax
  .adox .r8 (.reg .rbx), -- 897: adox r8, rbx
  .mov (.mem ⟨some .rdi, none, 120#64⟩) (.reg .r15), -- 898: mov QWORD PTR [rdi + 0x78], r15
  .mulx .rbx .rax (.mem ⟨some .rsi, none, 8#64⟩), -- 899: mulx rbx, rax, QWORD PTR [rsi + 0x8]
  .adcx .r8 (.reg .rax), -- 900: adcx r8, rax
  .adox .r9 (.reg .rbx), -- 901: adox r9, rbx
  .mulx .rbx .rax (.mem ⟨some .rsi, none, 16#64⟩), -- 902: mulx rbx, rax, QWORD PTR [rsi + 0x10]
  .adcx .r9 (.reg .rax), -- 903: adcx r9, rax
  .adox .r10 (.reg .rbx), -- 904: adox r10, rbx
  .mulx .rbx .rax (.mem ⟨some .rsi, none, 24#64⟩), -- 905: mulx rbx, rax, QWORD PTR [rsi + 0x18]
  .adcx .r10 (.reg .rax), -- 906: adcx r10, rax
  .adox .r11 (.reg .rbx), -- 907: adox r11, rbx
  .mulx .rbx .rax (.mem ⟨some .rsi, none, 32#64⟩), -- 908: mulx rbx, rax, QWORD PTR [rsi + 0x20]
  .adcx .r11 (.reg .rax), -- 909: adcx r11, rax
  .adox .r12 (.reg .rbx), -- 910: adox r12, rbx
  .mulx .rbx .rax (.mem ⟨some .rsi, none, 40#64⟩), -- 911: mulx rbx, rax, QWORD PTR [rsi + 0x28]
  .adcx .r12 (.reg .rax), -- 912: adcx r12, rax
  .adox .r13 (.reg .rbx), -- 913: adox r13, rbx
  .mulx .rbx .rax (.mem ⟨some .rsi, none, 48#64⟩), -- 914: mulx rbx, rax, QWORD PTR [rsi + 0x30]
  .adcx .r13 (.reg .rax), -- 915: adcx r13, rax
  .adox .r14 (.reg .rbx), -- 916: adox r14, rbx
  .mulx .r15 .rax (.mem ⟨some .rsi, none, 56#64⟩), -- 917: mulx r15, rax, QWORD PTR [rsi + 0x38]
  .adcx .r14 (.reg .rax), -- 918: adcx r14, rax
  .adox .r15 (.reg .rbp), -- 919: adox r15, rbp
  .adc (.reg .r15) (.reg .rbp), -- 920: adc r15, rbp
  .mov (.mem ⟨some .rdi, none, 128#64⟩) (.reg .r8), -- 921: mov QWORD PTR [rdi + 0x80], r8
  .mov (.mem ⟨some .rdi, none, 136#64⟩) (.reg .r9), -- 922: mov QWORD PTR [rdi + 0x88], r9
  .mov (.mem ⟨some .rdi, none, 144#64⟩) (.reg .r10), -- 923: mov QWORD PTR [rdi + 0x90], r10
  .mov (.mem ⟨some .rdi, none, 152#64⟩) (.reg .r11), -- 924: mov QWORD PTR [rdi + 0x98], r11
  .mov (.mem ⟨some .rdi, none, 160#64⟩) (.reg .r12), -- 925: mov QWORD PTR [rdi + 0xa0], r12
  .mov (.mem ⟨some .rdi, none, 168#64⟩) (.reg .r13), -- 926: mov QWORD PTR [rdi + 0xa8], r13
  .mov (.mem ⟨some .rdi, none, 176#64⟩) (.reg .r14), -- 927: mov QWORD PTR [rdi + 0xb0], r14
  .mov (.mem ⟨some .rdi, none, 184#64⟩) (.reg .r15), -- 928: mov QWORD PTR [rdi + 0xb8], r15
  .pop .r15, -- 929: pop r15
  .pop .r14, -- 930: pop r14
  .pop .r13, -- 931: pop r13
  .pop .r12, -- 932: pop r12
  .pop .rbp, -- 933: pop rbp
  .pop .rbx] -- 934: pop rbx

/-- The registers that the operands of bignum_kmul_16_32.rs:36-986 say may change. -/
def bignumKmul1632Regs : List Reg := [.rdi, .rsi, .rdx, .rcx, .r10, .r11, .r12, .r13, .r14, .r15, .r8, .r9, .rax]

/-- low/x86_64/bignum_ksqr_16_32.rs:34-667.  Operands: inout("rdi") z.as_mut_ptr() => _; inout("rsi") x.as_ptr() => _; inout("rdx") t.as_mut_ptr() => _; out("r10") _; out("r11") _; out("r12") _; out("r13") _; out("r14") _; out("r15") _; out("r8") _; out("r9") _; out("rax") _; out("rcx") _. -/
def bignumKsqr1632 : Prog := [
  .nop, -- 0: endbr64
  .push .rbp, -- 1: push rbp
  .push .r12, -- 2: push r12
  .push .r13, -- 3: push r13
  .push .r14, -- 4: push r14
  .push .r15, -- 5: push r15
  .xor (.reg .rbp) (.reg .rbp), -- 6: xor ebp, ebp
  .mov (.reg .rdx) (.mem ⟨some .rsi, none, 0#64⟩), -- 7: mov rdx, QWORD PTR [rsi]
  .mulx .rax .r9 (.mem ⟨some .rsi, none, 8#64⟩), -- 8: mulx rax, r9, QWORD PTR [rsi + 0x8]
  .mov (.mem ⟨some .rdi, none, 8#64⟩) (.reg .r9), -- 9: mov QWORD PTR [rdi + 0x8], r9
  .mulx .rcx .r10 (.mem ⟨some .rsi, none, 16#64⟩), -- 10: mulx rcx, r10, QWORD PTR [rsi + 0x10]
  .adcx .r10 (.reg .rax), -- 11: adcx r10, rax
  .mov (.mem ⟨some .rdi, none, 16#64⟩) (.reg .r10), -- 12: mov QWORD PTR [rdi + 0x10], r10
  .mulx .rax .r11 (.mem ⟨some .rsi, none, 24#64⟩), -- 13: mulx rax, r11, QWORD PTR [rsi + 0x18]
  .adcx .r11 (.reg .rcx), -- 14: adcx r11, rcx
  .mulx .rcx .r12 (.mem ⟨some .rsi, none, 32#64⟩), -- 15: mulx rcx, r12, QWORD PTR [rsi + 0x20]
  .adcx .r12 (.reg .rax), -- 16: adcx r12, rax
  .mulx .rax .r13 (.mem ⟨some .rsi, none, 40#64⟩), -- 17: mulx rax, r13, QWORD PTR [rsi + 0x28]
  .adcx .r13 (.reg .rcx), -- 18: adcx r13, rcx
  .mulx .rcx .r14 (.mem ⟨some .rsi, none, 48#64⟩), -- 19: mulx rcx, r14, QWORD PTR [rsi + 0x30]
  .adcx .r14 (.reg .rax), -- 20: adcx r14, rax
  .mulx .r8 .r15 (.mem ⟨some .rsi, none, 56#64⟩), -- 21: mulx r8, r15, QWORD PTR [rsi + 0x38]
  .adcx .r15 (.reg .rcx), -- 22: adcx r15, rcx
  .adcx .r8 (.reg .rbp), -- 23: adcx r8, rbp
  .xor (.reg .rbp) (.reg .rbp), -- 24: xor ebp, ebp
  .mov (.reg .rdx) (.mem ⟨some .rsi, none, 8#64⟩), -- 25: mov rdx, QWORD PTR [rsi + 0x8]
  .mulx .rcx .rax (.mem ⟨some .rsi, none, 16#64⟩), -- 26: mulx rcx, rax, QWORD PTR [rsi + 0x10]
  .adcx .r11 (.reg .rax), -- 27: adcx r11, rax
  .adox .r12 (.reg .rcx), -- 28: adox r12, rcx
  .mov (.mem ⟨some .rdi, none, 24#64⟩) (.reg .r11), -- 29: mov QWORD PTR [rdi + 0x18], r11
  .mulx .rcx .rax (.mem ⟨some .rsi, none, 24#64⟩), -- 30: mulx rcx, rax, QWORD PTR [rsi + 0x18]
  .adcx .r12 (.reg .rax), -- 31: adcx r12, rax
  .adox .r13 (.reg .rcx), -- 32: adox r13, rcx
  .mov (.mem ⟨some .rdi, none, 32#64⟩) (.reg .r12), -- 33: mov QWORD PTR [rdi + 0x20], r12
  .mulx .rcx .rax (.mem ⟨some .rsi, none, 32#64⟩), -- 34: mulx rcx, rax, QWORD PTR [rsi + 0x20]
  .adcx .r13 (.reg .rax), -- 35: adcx r13, rax
  .adox .r14 (.reg .rcx), -- 36: adox r14, rcx
  .mulx .rcx .rax (.mem ⟨some .rsi, none, 40#64⟩), -- 37: mulx rcx, rax, QWORD PTR [rsi + 0x28]
  .adcx .r14 (.reg .rax), -- 38: adcx r14, rax
  .adox .r15 (.reg .rcx), -- 39: adox r15, rcx
  .mulx .rcx .rax (.mem ⟨some .rsi, none, 48#64⟩), -- 40: mulx rcx, rax, QWORD PTR [rsi + 0x30]
  .adcx .r15 (.reg .rax), -- 41: adcx r15, rax
  .adox .r8 (.reg .rcx), -- 42: adox r8, rcx
  .mulx .r9 .rax (.mem ⟨some .rsi, none, 56#64⟩), -- 43: mulx r9, rax, QWORD PTR [rsi + 0x38]
  .adcx .r8 (.reg .rax), -- 44: adcx r8, rax
  .adox .r9 (.reg .rbp), -- 45: adox r9, rbp
  .mov (.reg .rdx) (.mem ⟨some .rsi, none, 32#64⟩), -- 46: mov rdx, QWORD PTR [rsi + 0x20]
  .mulx .r10 .rax (.mem ⟨some .rsi, none, 40#64⟩), -- 47: mulx r10, rax, QWORD PTR [rsi + 0x28]
  .adcx .r9 (.reg .rax), -- 48: adcx r9, rax
  .adox .r10 (.reg .rbp), -- 49: adox r10, rbp
  .adcx .r10 (.reg .rbp), -- 50: adcx r10, rbp
  .xor (.reg .rbp) (.reg .rbp), -- 51: xor ebp, ebp
  .mov (.reg .rdx) (.mem ⟨some .rsi, none, 16#64⟩), -- 52: mov rdx, QWORD PTR [rsi + 0x10]
  .mulx .rcx .rax (.mem ⟨some .rsi, none, 24#64⟩), -- 53: mulx rcx, rax, QWORD PTR [rsi + 0x18]
  .adcx .r13 (.reg .rax), -- 54: adcx r13, rax
  .adox .r14 (.reg .rcx), -- 55: adox r14, rcx
  .mov (.mem ⟨some .rdi, none, 40#64⟩) (.reg .r13), -- 56: mov QWORD PTR [rdi + 0x28], r13
  .mulx .rcx .rax (.mem ⟨some .rsi, none, 32#64⟩), -- 57: mulx rcx, rax, QWORD PTR [rsi + 0x20]
  .adcx .r14 (.reg .rax), -- 58: adcx r14, rax
  .adox .r15 (.reg .rcx), -- 59: adox r15, rcx
  .mov (.mem ⟨some .rdi, none, 48#64⟩) (.reg .r14), -- 60: mov QWORD PTR [rdi + 0x30], r14
  .mulx .rcx .rax (.mem ⟨some .rsi, none, 40#64⟩), -- 61: mulx rcx, rax, QWORD PTR [rsi + 0x28]
  .adcx .r15 (.reg .rax), -- 62: adcx r15, rax
  .adox .r8 (.reg .rcx), -- 63: adox r8, rcx
  .mulx .rcx .rax (.mem ⟨some .rsi, none, 48#64⟩), -- 64: mulx rcx, rax, QWORD PTR [rsi + 0x30]
  .adcx .r8 (.reg .rax), -- 65: adcx r8, rax
  .adox .r9 (.reg .rcx), -- 66: adox r9, rcx
  .mulx .rcx .rax (.mem ⟨some .rsi, none, 56#64⟩), -- 67: mulx rcx, rax, QWORD PTR [rsi + 0x38]
  .adcx .r9 (.reg .rax), -- 68: adcx r9, rax
  .adox .r10 (.reg .rcx), -- 69: adox r10, rcx
  .mov (.reg .rdx) (.mem ⟨some .rsi, none, 48#64⟩), -- 70: mov rdx, QWORD PTR [rsi + 0x30]
  .mulx .r11 .rax (.mem ⟨some .rsi, none, 32#64⟩), -- 71: mulx r11, rax, QWORD PTR [rsi + 0x20]
  .adcx .r10 (.reg .rax), -- 72: adcx r10, rax
  .adox .r11 (.reg .rbp), -- 73: adox r11, rbp
  .mulx .r12 .rax (.mem ⟨some .rsi, none, 40#64⟩), -- 74: mulx r12, rax, QWORD PTR [rsi + 0x28]
  .adcx .r11 (.reg .rax), -- 75: adcx r11, rax
  .adox .r12 (.reg .rbp), -- 76: adox r12, rbp
  .adcx .r12 (.reg .rbp), -- 77: adcx r12, rbp
  .xor (.reg .rbp) (.reg .rbp), -- 78: xor ebp, ebp
  .mov (.reg .rdx) (.mem ⟨some .rsi, none, 24#64⟩), -- 79: mov rdx, QWORD PTR [rsi + 0x18]
  .mulx .rcx .rax (.mem ⟨some .rsi, none, 32#64⟩), -- 80: mulx rcx, rax, QWORD PTR [rsi + 0x20]
  .adcx .r15 (.reg .rax), -- 81: adcx r15, rax
  .adox .r8 (.reg .rcx), -- 82: adox r8, rcx
  .mov (.mem ⟨some .rdi, none, 56#64⟩) (.reg .r15), -- 83: mov QWORD PTR [rdi + 0x38], r15
  .mulx .rcx .rax (.mem ⟨some .rsi, none, 40#64⟩), -- 84: mulx rcx, rax, QWORD PTR [rsi + 0x28]
  .adcx .r8 (.reg .rax), -- 85: adcx r8, rax
  .adox .r9 (.reg .rcx), -- 86: adox r9, rcx
  .mulx .rcx .rax (.mem ⟨some .rsi, none, 48#64⟩), -- 87: mulx rcx, rax, QWORD PTR [rsi + 0x30]
  .adcx .r9 (.reg .rax), -- 88: adcx r9, rax
  .adox .r10 (.reg .rcx), -- 89: adox r10, rcx
  .mulx .rcx .rax (.mem ⟨some .rsi, none, 56#64⟩), -- 90: mulx rcx, rax, QWORD PTR [rsi + 0x38]
  .adcx .r10 (.reg .rax), -- 91: adcx r10, rax
  .adox .r11 (.reg .rcx), -- 92: adox r11, rcx
  .mov (.reg .rdx) (.mem ⟨some .rsi, none, 56#64⟩), -- 93: mov rdx, QWORD PTR [rsi + 0x38]
  .mulx .rcx .rax (.mem ⟨some .rsi, none, 32#64⟩), -- 94: mulx rcx, rax, QWORD PTR [rsi + 0x20]
  .adcx .r11 (.reg .rax), -- 95: adcx r11, rax
  .adox .r12 (.reg .rcx), -- 96: adox r12, rcx
  .mulx .r13 .rax (.mem ⟨some .rsi, none, 40#64⟩), -- 97: mulx r13, rax, QWORD PTR [rsi + 0x28]
  .adcx .r12 (.reg .rax), -- 98: adcx r12, rax
  .adox .r13 (.reg .rbp), -- 99: adox r13, rbp
  .mulx .r14 .rax (.mem ⟨some .rsi, none, 48#64⟩), -- 100: mulx r14, rax, QWORD PTR [rsi + 0x30]
  .adcx .r13 (.reg .rax), -- 101: adcx r13, rax
  .adox .r14 (.reg .rbp), -- 102: adox r14, rbp
  .adcx .r14 (.reg .rbp), -- 103: adcx r14, rbp
  .mov (.reg .rdx) (.mem ⟨some .rsi, none, 64#64⟩), -- 104: mov rdx, QWORD PTR [rsi + 0x40]
  .xor (.reg .rbp) (.reg .rbp), -- 105: xor ebp, ebp
  .mulx .rcx .rax (.mem ⟨some .rsi, none, 0#64⟩), -- 106: mulx rcx, rax, QWORD PTR [rsi]
  .adcx .r8 (.reg .rax), -- 107: adcx r8, rax
  .adox .r9 (.reg .rcx), -- 108: adox r9, rcx
  .mov (.mem ⟨some .rdi, none, 64#64⟩) (.reg .r8), -- 109: mov QWORD PTR [rdi + 0x40], r8
  .mulx .rcx .rax (.mem ⟨some .rsi, none, 8#64⟩), -- 110: mulx rcx, rax, QWORD PTR [rsi + 0x8]
  .adcx .r9 (.reg .rax), -- 111: adcx r9, rax
  .adox .r10 (.reg .rcx), -- 112: adox r10, rcx
  .mulx .rcx .rax (.mem ⟨some .rsi, none, 16#64⟩), -- 113: mulx rcx, rax, QWORD PTR [rsi + 0x10]
  .adcx .r10 (.reg .rax), -- 114: adcx r10, rax
  .adox .r11 (.reg .rcx), -- 115: adox r11, rcx
  .mulx .rcx .rax (.mem ⟨some .rsi, none, 24#64⟩), -- 116: mulx rcx, rax, QWORD PTR [rsi + 0x18]
  .adcx .r11 (.reg .rax), -- 117: adcx r11, rax
  .adox .r12 (.reg .rcx), -- 118: adox r12, rcx
  .mulx .rcx .rax (.mem ⟨some .rsi, none, 32#64⟩), -- 119: mulx rcx, rax, QWORD PTR [rsi + 0x20]
  .adcx .r12 (.reg .rax), -- 120: adcx r12, rax
  .adox .r13 (.reg .rcx), -- 121: adox r13, rcx
  .mulx .rcx .rax (.mem ⟨some .rsi, none, 40#64⟩), -- 122: mulx rcx, rax, QWORD PTR [rsi + 0x28]
  .adcx .r13 (.reg .rax), -- 123: adcx r13, rax
  .adox .r14 (.reg .rcx), -- 124: adox r14, rcx
  .mulx .r15 .rax (.mem ⟨some .rsi, none, 48#64⟩), -- 125: mulx r15, rax, QWORD PTR [rsi + 0x30]
  .adcx .r14 (.reg .rax), -- 126: adcx r14, rax
  .adox .r15 (.reg .rbp), -- 127: adox r15, rbp
  .mulx .r8 .rax (.mem ⟨some .rsi, none, 56#64⟩), -- 128: mulx r8, rax, QWORD PTR [rsi + 0x38]
  .adcx .r15 (.reg .rax), -- 129: adcx r15, rax
  .adox .r8 (.reg .rbp), -- 130: adox r8, rbp
  .adcx .r8 (.reg .rbp), -- 131: adcx r8, rbp
  .mov (.reg .rdx) (.mem ⟨some .rsi, none, 72#64⟩), -- 132: mov rdx, QWORD PTR [rsi + 0x48]
  .xor (.reg .rbp) (.reg .rbp), -- 133: xor ebp, ebp
  .mulx .rcx .rax (.mem ⟨some .rsi, none, 0#64⟩), -- 134: mulx rcx, rax, QWORD PTR [rsi]
  .adcx .r9 (.reg .rax), -- 135: adcx r9, rax
  .adox .r10 (.reg .rcx), -- 136: adox r10, rcx
  .mov (.mem ⟨some .rdi, none, 72#64⟩) (.reg .r9), -- 137: mov QWORD PTR [rdi + 0x48], r9
  .mulx .rcx .rax (.mem ⟨some .rsi, none, 8#64⟩), -- 138: mulx rcx, rax, QWORD PTR [rsi + 0x8]
  .adcx .r10 (.reg .rax), -- 139: adcx r10, rax
  .adox .r11 (.reg .rcx), -- 140: adox r11, rcx
  .mulx .rcx .rax (.mem ⟨some .rsi, none, 16#64⟩), -- 141: mulx rcx, rax, QWORD PTR [rsi + 0x10]
  .adcx .r11 (.reg .rax), -- 142: adcx r11, rax
  .adox .r12 (.reg .rcx), -- 143: adox r12, rcx
  .mulx .rcx .rax (.mem ⟨some .rsi, none, 24#64⟩), -- 144: mulx rcx, rax, QWORD PTR [rsi + 0x18]
  .adcx .r12 (.reg .rax), -- 145: adcx r12, rax
  .adox .r13 (.reg .rcx), -- 146: adox r13, rcx
  .mulx .rcx .rax (.mem ⟨some .rsi, none, 32#64⟩), -- 147: mulx rcx, rax, QWORD PTR [rsi + 0x20]
  .adcx .r13 (.reg .rax), -- 148: adcx r13, rax
  .adox .r14 (.reg .rcx), -- 149: adox r14, rcx
  .mulx .rcx .rax (.mem ⟨some .rsi, none, 40#64⟩), -- 150: mulx rcx, rax, QWORD PTR [rsi + 0x28]
  .adcx .r14 (.reg .rax), -- 151: adcx r14, rax
  .adox .r15 (.reg .rcx), -- 152: adox r15, rcx
  .mulx .rcx .rax (.mem ⟨some .rsi, none, 48#64⟩), -- 153: mulx rcx, rax, QWORD PTR [rsi + 0x30]
  .adcx .r15 (.reg .rax), -- 154: adcx r15, rax
  .adox .r8 (.reg .rcx), -- 155: adox r8, rcx
  .mulx .r9 .rax (.mem ⟨some .rsi, none, 56#64⟩), -- 156: mulx r9, rax, QWORD PTR [rsi + 0x38]
  .adcx .r8 (.reg .rax), -- 157: adcx r8, rax
  .adox .r9 (.reg .rbp), -- 158: adox r9, rbp
  .adcx .r9 (.reg .rbp), -- 159: adcx r9, rbp
  .mov (.reg .rdx) (.mem ⟨some .rsi, none, 80#64⟩), -- 160: mov rdx, QWORD PTR [rsi + 0x50]
  .xor (.reg .rbp) (.reg .rbp), -- 161: xor ebp, ebp
  .mulx .rcx .rax (.mem ⟨some .rsi, none, 0#64⟩), -- 162: mulx rcx, rax, QWORD PTR [rsi]
  .adcx .r10 (.reg .rax), -- 163: adcx r10, rax
  .adox .r11 (.reg .rcx), -- 164: adox r11, rcx
  .mov (.mem ⟨some .rdi, none, 80#64⟩) (.reg .r10), -- 165: mov QWORD PTR [rdi + 0x50], r10
  .mulx .rcx .rax (.mem ⟨some .rsi, none, 8#64⟩), -- 166: mulx rcx, rax, QWORD PTR [rsi + 0x8]
  .adcx .r11 (.reg .rax), -- 167: adcx r11, rax
  .adox .r12 (.reg .rcx), -- 168: adox r12, rcx
  .mulx .rcx .rax (.mem ⟨some .rsi, none, 16#64⟩), -- 169: mulx rcx, rax, QWORD PTR [rsi + 0x10]
  .adcx .r12 (.reg .rax), -- 170: adcx r12, rax
  .adox .r13 (.reg .rcx), -- 171: adox r13, rcx
  .mulx .rcx .rax (.mem ⟨some .rsi, none, 24#64⟩), -- 172: mulx rcx, rax, QWORD PTR [rsi + 0x18]
  .adcx .r13 (.reg .rax), -- 173: adcx r13, rax
  .adox .r14 (.reg .rcx), -- 174: adox r14, rcx
  .mulx .rcx .rax (.mem ⟨some .rsi, none, 32#64⟩), -- 175: mulx rcx, rax, QWORD PTR [rsi + 0x20]
  .adcx .r14 (.reg .rax), -- 176: adcx r14, rax
  .adox .r15 (.reg .rcx), -- 177: adox r15, rcx
  .mulx .rcx .rax (.mem ⟨some .rsi, none, 40#64⟩), -- 178: mulx rcx, rax, QWORD PTR [rsi + 0x28]
  .adcx .r15 (.reg .rax), -- 179: adcx r15, rax
  .adox .r8 (.reg .rcx), -- 180: adox r8, rcx
  .mulx .rcx .rax (.mem ⟨some .rsi, none, 48#64⟩), -- 181: mulx rcx, rax, QWORD PTR [rsi + 0x30]
  .adcx .r8 (.reg .rax), -- 182: adcx r8, rax
  .adox .r9 (.reg .rcx), -- 183: adox r9, rcx
  .mulx .r10 .rax (.mem ⟨some .rsi, none, 56#64⟩), -- 184: mulx r10, rax, QWORD PTR [rsi + 0x38]
  .adcx .r9 (.reg .rax), -- 185: adcx r9, rax
  .adox .r10 (.reg .rbp), -- 186: adox r10, rbp
  .adcx .r10 (.reg .rbp), -- 187: adcx r10, rbp
  .mov (.reg .rdx) (.mem ⟨some .rsi, none, 88#64⟩), -- 188: mov rdx, QWORD PTR [rsi + 0x58]
  .xor (.reg .rbp) (.reg .rbp), -- 189: xor ebp, ebp
  .mulx .rcx .rax (.mem ⟨some .rsi, none, 0#64⟩), -- 190: mulx rcx, rax, QWORD PTR [rsi]
  .adcx .r11 (.reg .rax), -- 191: adcx r11, rax
  .adox .r12 (.reg .rcx), -- 192: adox r12, rcx
  .mov (.mem ⟨some .rdi, none, 88#64⟩) (.reg .r11), -- 193: mov QWORD PTR [rdi + 0x58], r11
  .mulx .rcx .rax (.mem ⟨some .rsi, none, 8#64⟩), -- 194: mulx rcx, rax, QWORD PTR [rsi + 0x8]
  .adcx .r12 (.reg .rax), -- 195: adcx r12, rax
  .adox .r13 (.reg .rcx), -- 196: adox r13, rcx
  .mulx .rcx .rax (.mem ⟨some .rsi, none, 16#64⟩), -- 197: mulx rcx, rax, QWORD PTR [rsi + 0x10]
  .adcx .r13 (.reg .rax), -- 198: adcx r13, rax
  .adox .r14 (.reg .rcx), -- 199: adox r14, rcx
  .mulx .rcx .rax (.mem ⟨some .rsi, none, 24#64⟩), -- 200: mulx rcx, rax, QWORD PTR [rsi + 0x18]
  .adcx .r14 (.reg .rax), -- 201: adcx r14, rax
  .adox .r15 (.reg .rcx), -- 202: adox r15, rcx
  .mulx .rcx .rax (.mem ⟨some .rsi, none, 32#64⟩), -- 203: mulx rcx, rax, QWORD PTR [rsi + 0x20]
  .adcx .r15 (.reg .rax), -- 204: adcx r15, rax
  .adox .r8 (.reg .rcx), -- 205: adox r8, rcx
  .mulx .rcx .rax (.mem ⟨some .rsi, none, 40#64⟩), -- 206: mulx rcx, rax, QWORD PTR [rsi + 0x28]
  .adcx .r8 (.reg .rax), -- 207: adcx r8, rax
  .adox .r9 (.reg .rcx), -- 208: adox r9, rcx
  .mulx .rcx .rax (.mem ⟨some .rsi, none, 48#64⟩), -- 209: mulx rcx, rax, QWORD PTR [rsi + 0x30]
  .adcx .r9 (.reg .rax), -- 210: adcx r9, rax
  .adox .r10 (.reg .rcx), -- 211: adox r10, rcx
  .mulx .r11 .rax (.mem ⟨some .rsi, none, 56#64⟩), -- 212: mulx r11, rax, QWORD PTR [rsi + 0x38]
  .adcx .r10 (.reg .rax), -- 213: adcx r10, rax
  .adox .r11 (.reg .rbp), -- 214: adox r11, rbp
  .adcx .r11 (.reg .rbp), -- 215: adcx r11, rbp
  .mov (.reg .rdx) (.mem ⟨some .rsi, none, 96#64⟩), -- 216: mov rdx, QWORD PTR [rsi + 0x60]
  .xor (.reg .rbp) (.reg .rbp), -- 217: xor ebp, ebp
  .mulx .rcx .rax (.mem ⟨some .rsi, none, 0#64⟩), -- 218: mulx rcx, rax, QWORD PTR [rsi]
  .adcx .r12 (.reg .rax), -- 219: adcx r12, rax
  .adox .r13 (.reg .rcx), -- 220: adox r13, rcx
  .mov (.mem ⟨some .rdi, none, 96#64⟩) (.reg .r12), -- 221: mov QWORD PTR [rdi + 0x60], r12
  .mulx .rcx .rax (.mem ⟨some .rsi, none, 8#64⟩), -- 222: mulx rcx, rax, QWORD PTR [rsi + 0x8]
  .adcx .r13 (.reg .rax), -- 223: adcx r13, rax
  .adox .r14 (.reg .rcx), -- 224: adox r14, rcx
  .mulx .rcx .rax (.mem ⟨some .rsi, none, 16#64⟩), -- 225: mulx rcx, rax, QWORD PTR [rsi + 0x10]
  .adcx .r14 (.reg .rax), -- 226: adcx r14, rax
  .adox .r15 (.reg .rcx), -- 227: adox r15, rcx
  .mulx .rcx .rax (.mem ⟨some .rsi, none, 24#64⟩), -- 228: mulx rcx, rax, QWORD PTR [rsi + 0x18]
  .adcx .r15 (.reg .rax), -- 229: adcx r15, rax
  .adox .r8 (.reg .rcx), -- 230: adox r8, rcx
  .mulx .rcx .rax (.mem ⟨some .rsi, none, 32#64⟩), -- 231: mulx rcx, rax, QWORD PTR [rsi + 0x20]
  .adcx .r8 (.reg .rax), -- 232: adcx r8, rax
  .adox .r9 (.reg .rcx), -- 233: adox r9, rcx
  .mulx .rcx .rax (.mem ⟨some .rsi, none, 40#64⟩), -- 234: mulx rcx, rax, QWORD PTR [rsi + 0x28]
  .adcx .r9 (.reg .rax), -- 235: adcx r9, rax
  .adox .r10 (.reg .rcx), -- 236: adox r10, rcx
  .mulx .rcx .rax (.mem ⟨some .rsi, none, 48#64⟩), -- 237: mulx rcx, rax, QWORD PTR [rsi + 0x30]
  .adcx .r10 (.reg .rax), -- 238: adcx r10, rax
  .adox .r11 (.reg .rcx), -- 239: adox r11, rcx
  .mulx .r12 .rax (.mem ⟨some .rsi, none, 56#64⟩), -- 240: mulx r12, rax, QWORD PTR [rsi + 0x38]
  .adcx .r11 (.reg .rax), -- 241: adcx r11, rax
  .adox .r12 (.reg .rbp), -- 242: adox r12, rbp
  .adcx .r12 (.reg .rbp), -- 243: adcx r12, rbp
  .mov (.reg .rdx) (.mem ⟨some .rsi, none, 104#64⟩), -- 244: mov rdx, QWORD PTR [rsi + 0x68]
  .xor (.reg .rbp) (.reg .rbp), -- 245: xor ebp, ebp
  .mulx .rcx .rax (.mem ⟨some .rsi, none, 0#64⟩), -- 246: mulx rcx, rax, QWORD PTR [rsi]
  .adcx .r13 (.reg .rax), -- 247: adcx r13, rax
  .adox .r14 (.reg .rcx), -- 248: adox r14, rcx
  .mov (.mem ⟨some .rdi, none, 104#64⟩) (.reg .r13), -- 249: mov QWORD PTR [rdi + 0x68], r13
  .mulx .rcx .rax (.mem ⟨some .rsi, none, 8#64⟩), -- 250: mulx rcx, rax, QWORD PTR [rsi + 0x8]
  .adcx .r14 (.reg .rax), -- 251: adcx r14, rax
  .adox .r15 (.reg .rcx), -- 252: adox r15, rcx
  .mulx .rcx .rax (.mem ⟨some .rsi, none, 16#64⟩), -- 253: mulx rcx, rax, QWORD PTR [rsi + 0x10]
  .adcx .r15 (.reg .rax), -- 254: adcx r15, rax
  .adox .r8 (.reg .rcx), -- 255: adox r8, rcx
  .mulx .rcx .rax (.mem ⟨some .rsi, none, 24#64⟩), -- 256: mulx rcx, rax, QWORD PTR [rsi + 0x18]
  .adcx .r8 (.reg .rax), -- 257: adcx r8, rax
  .adox .r9 (.reg .rcx), -- 258: adox r9, rcx
  .mulx .rcx .rax (.mem ⟨some .rsi, none, 32#64⟩), -- 259: mulx rcx, rax, QWORD PTR [rsi + 0x20]
  .adcx .r9 (.reg .rax), -- 260: adcx r9, rax
  .adox .r10 (.reg .rcx), -- 261: adox r10, rcx
  .mulx .rcx .rax (.mem ⟨some .rsi, none, 40#64⟩), -- 262: mulx rcx, rax, QWORD PTR [rsi + 0x28]
  .adcx .r10 (.reg .rax), -- 263: adcx r10, rax
  .adox .r11 (.reg .rcx), -- 264: adox r11, rcx
  .mulx .rcx .rax (.mem ⟨some .rsi, none, 48#64⟩), -- 265: mulx rcx, rax, QWORD PTR [rsi + 0x30]
  .adcx .r11 (.reg .rax), -- 266: adcx r11, rax
  .adox .r12 (.reg .rcx), -- 267: adox r12, rcx
  .mulx .r13 .rax (.mem ⟨some .rsi, none, 56#64⟩), -- 268: mulx r13, rax, QWORD PTR [rsi + 0x38]
  .adcx .r12 (.reg .rax), -- 269: adcx r12, rax
  .adox .r13 (.reg .rbp), -- 270: adox r13, rbp
  .adcx .r13 (.reg .rbp), -- 271: adcx r13, rbp
  .mov (.reg .rdx) (.mem ⟨some .rsi, none, 112#64⟩), -- 272: mov rdx, QWORD PTR [rsi + 0x70]
  .xor (.reg .rbp) (.reg .rbp), -- 273: xor ebp, ebp
  .mulx .rcx .rax (.mem ⟨some .rsi, none, 0#64⟩), -- 274: mulx rcx, rax, QWORD PTR [rsi]
  .adcx .r14 (.reg .rax), -- 275: adcx r14, rax
  .adox .r15 (.reg .rcx), -- 276: adox r15, rcx
  .mov (.mem ⟨some .rdi, none, 112#64⟩) (.reg .r14), -- 277: mov QWORD PTR [rdi + 0x70], r14
  .mulx .rcx .rax (.mem ⟨some .rsi, none, 8#64⟩), -- 278: mulx rcx, rax, QWORD PTR [rsi + 0x8]
  .adcx .r15 (.reg .rax), -- 279: adcx r15, rax
  .adox .r8 (.reg .rcx), -- 280: adox r8, rcx
  .mulx .rcx .rax (.mem ⟨some .rsi, none, 16#64⟩), -- 281: mulx rcx, rax, QWORD PTR [rsi + 0x10]
  .adcx .r8 (.reg .rax), -- 282: adcx r8, rax
  .adox .r9 (.reg .rcx), -- 283: adox r9, rcx
  .mulx .rcx .rax (.mem ⟨some .rsi, none, 24#64⟩), -- 284: mulx rcx, rax, QWORD PTR [rsi + 0x18]
  .adcx .r9 (.reg .rax), -- 285: adcx r9, rax
  .adox .r10 (.reg .rcx), -- 286: adox r10, rcx
  .mulx .rcx .rax (.mem ⟨some .rsi, none, 32#64⟩), -- 287: mulx rcx, rax, QWORD PTR [rsi + 0x20]
  .adcx .r10 (.reg .rax), -- 288: adcx r10, rax
  .adox .r11 (.reg .rcx), -- 289: adox r11, rcx
  .mulx .rcx .rax (.mem ⟨some .rsi, none, 40#64⟩), -- 290: mulx rcx, rax, QWORD PTR [rsi + 0x28]
  .adcx .r11 (.reg .rax), -- 291: adcx r11, rax
  .adox .r12 (.reg .rcx), -- 292: adox r12, rcx
  .mulx .rcx .rax (.mem ⟨some .rsi, none, 48#64⟩), -- 293: mulx rcx, rax, QWORD PTR [rsi + 0x30]
  .adcx .r12 (.reg .rax), -- 294: adcx r12, rax
  .adox .r13 (.reg .rcx), -- 295: adox r13, rcx
  .mulx .r14 .rax (.mem ⟨some .rsi, none, 56#64⟩), -- 296: mulx r14, rax, QWORD PTR [rsi + 0x38]
  .adcx .r13 (.reg .rax), -- 297: adcx r13, rax
  .adox .r14 (.reg .rbp), -- 298: adox r14, rbp
  .adcx .r14 (.reg .rbp), -- 299: adcx r14, rbp
  .mov (.reg .rdx) (.mem ⟨some .rsi, none, 120#64⟩), -- 300: mov rdx, QWORD PTR [rsi + 0x78]
  .xor (.reg .rbp) (.reg .rbp), -- 301: xor ebp, ebp
  .mulx .rcx .rax (.mem ⟨some .rsi, none, 0#64⟩), -- 302: mulx rcx, rax, QWORD PTR [rsi]
  .adcx .r15 (.reg .rax), -- 303: adcx r15, rax
  .adox .r8 (.reg .rcx), -- 304: adox r8, rcx
  .mov (.mem ⟨some .rdi, none, 120#64⟩) (.reg .r15), -- 305: mov QWORD PTR [rdi + 0x78], r15
  .mulx .rcx .rax (.mem ⟨some .rsi, none, 8#64⟩), -- 306: mulx rcx, rax, QWORD PTR [rsi + 0x8]
  .adcx .r8 (.reg .rax), -- 307: adcx r8, rax
  .adox .r9 (.reg .rcx), -- 308: adox r9, rcx
  .mulx .rcx .rax (.mem ⟨some .rsi, none, 16#64⟩), -- 309: mulx rcx, rax, QWORD PTR [rsi + 0x10]
  .adcx .r9 (.reg .rax), -- 310: adcx r9, rax
  .adox .r10 (.reg .rcx), -- 311: adox r10, rcx
  .mulx .rcx .rax (.mem ⟨some .rsi, none, 24#64⟩), -- 312: mulx rcx, rax, QWORD PTR [rsi + 0x18]
  .adcx .r10 (.reg .rax), -- 313: adcx r10, rax
  .adox .r11 (.reg .rcx), -- 314: adox r11, rcx
  .mulx .rcx .rax (.mem ⟨some .rsi, none, 32#64⟩), -- 315: mulx rcx, rax, QWORD PTR [rsi + 0x20]
  .adcx .r11 (.reg .rax), -- 316: adcx r11, rax
  .adox .r12 (.reg .rcx), -- 317: adox r12, rcx
  .mulx .rcx .rax (.mem ⟨some .rsi, none, 40#64⟩), -- 318: mulx rcx, rax, QWORD PTR [rsi + 0x28]
  .adcx .r12 (.reg .rax), -- 319: adcx r12, rax
  .adox .r13 (.reg .rcx), -- 320: adox r13, rcx
  .mulx .rcx .rax (.mem ⟨some .rsi, none, 48#64⟩), -- 321: mulx rcx, rax, QWORD PTR [rsi + 0x30]
  .adcx .r13 (.reg .rax), -- 322: adcx r13, rax
  .adox .r14 (.reg .rcx), -- 323: adox r14, rcx
  .mulx .r15 .rax (.mem ⟨some .rsi, none, 56#64⟩), -- 324: mulx r15, rax, QWORD PTR [rsi + 0x38]
  .adcx .r14 (.reg .rax), -- 325: adcx r14, rax
  .adox .r15 (.reg .rbp), -- 326: adox r15, rbp
  .adcx .r15 (.reg .rbp), -- 327: adcx r15, rbp
  .mov (.mem ⟨some .rdi, none, 128#64⟩) (.reg .r8), -- 328: mov QWORD PTR [rdi + 0x80], r8
  .mov (.mem ⟨some .rdi, none, 136#64⟩) (.reg .r9), -- 329: mov QWORD PTR [rdi + 0x88], r9
  .mov (.mem ⟨some .rdi, none, 144#64⟩) (.reg .r10), -- 330: mov QWORD PTR [rdi + 0x90], r10
  .mov (.mem ⟨some .rdi, none, 152#64⟩) (.reg .r11), -- 331: mov QWORD PTR [rdi + 0x98], r11
  .mov (.mem ⟨some .rdi, none, 160#64⟩) (.reg .r12), -- 332: mov QWORD PTR [rdi + 0xa0], r12
  .mov (.mem ⟨some .rdi, none, 168#64⟩) (.reg .r13), -- 333: mov QWORD PTR [rdi + 0xa8], r13
  .mov (.mem ⟨some .rdi, none, 176#64⟩) (.reg .r14), -- 334: mov QWORD PTR [rdi + 0xb0], r14
  .mov (.mem ⟨some .rdi, none, 184#64⟩) (.reg .r15), -- 335: mov QWORD PTR [rdi + 0xb8], r15
  .xor (.reg .rbp) (.reg .rbp), -- 336: xor ebp, ebp
  .mov (.reg .r9) (.mem ⟨some .rdi, none, 136#64⟩), -- 337: mov r9, QWORD PTR [rdi + 0x88]
  .mov (.reg .r10) (.mem ⟨some .rdi, none, 144#64⟩), -- 338: mov r10, QWORD PTR [rdi + 0x90]
  .mov (.reg .r11) (.mem ⟨some .rdi, none, 152#64⟩), -- 339: mov r11, QWORD PTR [rdi + 0x98]
  .mov (.reg .r12) (.mem ⟨some .rdi, none, 160#64⟩), -- 340: mov r12, QWORD PTR [rdi + 0xa0]
  .mov (.reg .r13) (.mem ⟨some .rdi, none, 168#64⟩), -- 341: mov r13, QWORD PTR [rdi + 0xa8]
  .mov (.reg .r14) (.mem ⟨some .rdi, none, 176#64⟩), -- 342: mov r14, QWORD PTR [rdi + 0xb0]
  .mov (.reg .r15) (.mem ⟨some .rdi, none, 184#64⟩), -- 343: mov r15, QWORD PTR [rdi + 0xb8]
  .mov (.reg .rdx) (.mem ⟨some .rsi, none, 64#64⟩), -- 344: mov rdx, QWORD PTR [rsi + 0x40]
  .mulx .rcx .rax (.mem ⟨some .rsi, none, 72#64⟩), -- 345: mulx rcx, rax, QWORD PTR [rsi + 0x48]
  .adcx .r9 (.reg .rax), -- 346: adcx r9, rax
  .adox .r10 (.reg .rcx), -- 347: adox r10, rcx
  .mov (.mem ⟨some .rdi, none, 136#64⟩) (.reg .r9), -- 348: mov QWORD PTR [rdi + 0x88], r9
  .mulx .rcx .rax (.mem ⟨some .rsi, none, 80#64⟩), -- 349: mulx rcx, rax, QWORD PTR [rsi + 0x50]
  .adcx .r10 (.reg .rax), -- 350: adcx r10, rax
  .adox .r11 (.reg .rcx), -- 351: adox r11, rcx
  .mov (.mem ⟨some .rdi, none, 144#64⟩) (.reg .r10), -- 352: mov QWORD PTR [rdi + 0x90], r10
  .mulx .rcx .rax (.mem ⟨some .rsi, none, 88#64⟩), -- 353: mulx rcx, rax, QWORD PTR [rsi + 0x58]
  .adcx .r11 (.reg .rax), -- 354: adcx r11, rax
  .adox .r12 (.reg .rcx), -- 355: adox r12, rcx
  .mulx .rcx .rax (.mem ⟨some .rsi, none, 96#64⟩), -- 356: mulx rcx, rax, QWORD PTR [rsi + 0x60]
  .adcx .r12 (.reg .rax), -- 357: adcx r12, rax
  .adox .r13 (.reg .rcx), -- 358: adox r13, rcx
  .mulx .rcx .rax (.mem ⟨some .rsi, none, 104#64⟩), -- 359: mulx rcx, rax, QWORD PTR [rsi + 0x68]
  .adcx .r13 (.reg .rax), -- 360: adcx r13, rax
  .adox .r14 (.reg .rcx), -- 361: adox r14, rcx
  .mulx .rcx .rax (.mem ⟨some .rsi, none, 112#64⟩), -- 362: mulx rcx, rax, QWORD PTR [rsi + 0x70]
  .adcx .r14 (.reg .rax), -- 363: adcx r14, rax
  .adox .r15 (.reg .rcx), -- 364: adox r15, rcx
  .mulx .r8 .rax (.mem ⟨some .rsi, none, 120#64⟩), -- 365: mulx r8, rax, QWORD PTR [rsi + 0x78]
  .adcx .r15 (.reg .rax), -- 366: adcx r15, rax
  .adox .r8 (.reg .rbp), -- 367: adox r8, rbp
  .adcx .r8 (.reg .rbp), -- 368: adcx r8, rbp
  .xor (.reg .rbp) (.reg .rbp), -- 369: xor ebp, ebp
  .mov (.reg .rdx) (.mem ⟨some .rsi, none, 72#64⟩), -- 370: mov rdx, QWORD PTR [rsi + 0x48]
  .mulx .rcx .rax (.mem ⟨some .rsi, none, 80#64⟩), -- 371: mulx rcx, rax, QWORD PTR [rsi + 0x50]
  .adcx .r11 (.reg .rax), -- 372: adcx r11, rax
  .adox .r12 (.reg .rcx), -- 373: adox r12, rcx
  .mov (.mem ⟨some .rdi, none, 152#64⟩) (.reg .r11), -- 374: mov QWORD PTR [rdi + 0x98], r11
  .mulx .rcx .rax (.mem ⟨some .rsi, none, 88#64⟩), -- 375: mulx rcx, rax, QWORD PTR [rsi + 0x58]
  .adcx .r12 (.reg .rax), -- 376: adcx r12, rax
  .adox .r13 (.reg .rcx), -- 377: adox r13, rcx
  .mov (.mem ⟨some .rdi, none, 160#64⟩) (.reg .r12), -- 378: mov QWORD PTR [rdi + 0xa0], r12
  .mulx .rcx .rax (.mem ⟨some .rsi, none, 96#64⟩), -- 379: mulx rcx, rax, QWORD PTR [rsi + 0x60]
  .adcx .r13 (.reg .rax), -- 380: adcx r13, rax
  .adox .r14 (.reg .rcx), -- 381: adox r14, rcx
  .mulx .rcx .rax (.mem ⟨some .rsi, none, 104#64⟩), -- 382: mulx rcx, rax, QWORD PTR [rsi + 0x68]
  .adcx .r14 (.reg .rax), -- 383: adcx r14, rax
  .adox .r15 (.reg .rcx), -- 384: adox r15, rcx
  .mulx .rcx .rax (.mem ⟨some .rsi, none, 112#64⟩), -- 385: mulx rcx, rax, QWORD PTR [rsi + 0x70]
  .adcx .r15 (.reg .rax), -- 386: adcx r15, rax
  .adox .r8 (.reg .rcx), -- 387: adox r8, rcx
  .mulx .r9 .rax (.mem ⟨some .rsi, none, 120#64⟩), -- 388: mulx r9, rax, QWORD PTR [rsi + 0x78]
  .adcx .r8 (.reg .rax), -- 389: adcx r8, rax
  .adox .r9 (.reg .rbp), -- 390: adox r9, rbp
  .mov (.reg .rdx) (.mem ⟨some .rsi, none, 96#64⟩), -- 391: mov rdx, QWORD PTR [rsi + 0x60]
  .mulx .r10 .rax (.mem ⟨some .rsi, none, 104#64⟩), -- 392: mulx r10, rax, QWORD PTR [rsi + 0x68]
  .adcx .r9 (.reg .rax), -- 393: adcx r9, rax
  .adox .r10 (.reg .rbp), -- 394: adox r10, rbp
  .adcx .r10 (.reg .rbp), -- 395: adcx r10, rbp
  .xor (.reg .rbp) (.reg .rbp), -- 396: xor ebp, ebp
  .mov (.reg .rdx) (.mem ⟨some .rsi, none, 80#64⟩), -- 397: mov rdx, QWORD PTR [rsi + 0x50]
  .mulx .rcx .rax (.mem ⟨some .rsi, none, 88#64⟩), -- 398: mulx rcx, rax, QWORD PTR [rsi + 0x58]
  .adcx .r13 (.reg .rax), -- 399: adcx r13, rax
  .adox .r14 (.reg .rcx), -- 400: adox r14, rcx
  .mov (.mem ⟨some .rdi, none, 168#64⟩) (.reg .r13), -- 401: mov QWORD PTR [rdi + 0xa8], r13
  .mulx .rcx .rax (.mem ⟨some .rsi, none, 96#64⟩), -- 402: mulx rcx, rax, QWORD PTR [rsi + 0x60]
  .adcx .r14 (.reg .rax), -- 403: adcx r14, rax
  .adox .r15 (.reg .rcx), -- 404: adox r15, rcx
  .mov (.mem ⟨some .rdi, none, 176#64⟩) (.reg .r14), -- 405: mov QWORD PTR [rdi + 0xb0], r14
  .mulx .rcx .rax (.mem ⟨some .rsi, none, 104#64⟩), -- 406: mulx rcx, rax, QWORD PTR [rsi + 0x68]
  .adcx .r15 (.reg .rax), -- 407: adcx r15, rax
  .adox .r8 (.reg .rcx), -- 408: adox r8, rcx
  .mulx .rcx .rax (.mem ⟨some .rsi, none, 112#64⟩), -- 409: mulx rcx, rax, QWORD PTR [rsi + 0x70]
  .adcx .r8 (.reg .rax), -- 410: adcx r8, rax
  .adox .r9 (.reg .rcx), -- 411: adox r9, rcx
  .mulx .rcx .rax (.mem ⟨some .rsi, none, 120#64⟩), -- 412: mulx rcx, rax, QWORD PTR [rsi + 0x78]
  .adcx .r9 (.reg .rax), -- 413: adcx r9, rax
  .adox .r10 (.reg .rcx), -- 414: adox r10, rcx
  .mov (.reg .rdx) (.mem ⟨some .rsi, none, 112#64⟩), -- 415: mov rdx, QWORD PTR [rsi + 0x70]
  .mulx .r11 .rax (.mem ⟨some .rsi, none, 96#64⟩), -- 416: mulx r11, rax, QWORD PTR [rsi + 0x60]
  .adcx .r10 (.reg .rax), -- 417: adcx r10, rax
  .adox .r11 (.reg .rbp), -- 418: adox r11, rbp
  .mulx .r12 .rax (.mem ⟨some .rsi, none, 104#64⟩), -- 419: mulx r12, rax, QWORD PTR [rsi + 0x68]
  .adcx .r11 (.reg .rax), -- 420: adcx r11, rax
  .adox .r12 (.reg .rbp), -- 421: adox r12, rbp
  .adcx .r12 (.reg .rbp), -- 422: adcx r12, rbp
  .xor (.reg .rbp) (.reg .rbp), -- 423: xor ebp, ebp
  .mov (.reg .rdx) (.mem ⟨some .rsi, none, 88#64⟩), -- 424: mov rdx, QWORD PTR [rsi + 0x58]
  .mulx .rcx .rax (.mem ⟨some .rsi, none, 96#64⟩), -- 425: mulx rcx, rax, QWORD PTR [rsi + 0x60]
  .adcx .r15 (.reg .rax), -- 426: adcx r15, rax
  .adox .r8 (.reg .rcx), -- 427: adox r8, rcx
  .mov (.mem ⟨some .rdi, none, 184#64⟩) (.reg .r15), -- 428: mov QWORD PTR [rdi + 0xb8], r15
  .mulx .rcx .rax (.mem ⟨some .rsi, none, 104#64⟩), -- 429: mulx rcx, rax, QWORD PTR [rsi + 0x68]
  .adcx .r8 (.reg .rax), -- 430: adcx r8, rax
  .adox .r9 (.reg .rcx), -- 431: adox r9, rcx
  .mulx .rcx .rax (.mem ⟨some .rsi, none, 112#64⟩), -- 432: mulx rcx, rax, QWORD PTR [rsi + 0x70]
  .adcx .r9 (.reg .rax), -- 433: adcx r9, rax
  .adox .r10 (.reg .rcx), -- 434: adox r10, rcx
  .mulx .rcx .rax (.mem ⟨some .rsi, none, 120#64⟩), -- 435: mulx rcx, rax, QWORD PTR [rsi + 0x78]
  .adcx .r10 (.reg .rax), -- 436: adcx r10, rax
  .adox .r11 (.reg .rcx), -- 437: adox r11, rcx
  .mov (.reg .rdx) (.mem ⟨some .rsi, none, 120#64⟩), -- 438: mov rdx, QWORD PTR [rsi + 0x78]
  .mulx .rcx .rax (.mem ⟨some .rsi, none, 96#64⟩), -- 439: mulx rcx, rax, QWORD PTR [rsi + 0x60]
  .adcx .r11 (.reg .rax), -- 440: adcx r11, rax
  .adox .r12 (.reg .rcx), -- 441: adox r12, rcx
  .mulx .r13 .rax (.mem ⟨some .rsi, none, 104#64⟩), -- 442: mulx r13, rax, QWORD PTR [rsi + 0x68]
  .adcx .r12 (.reg .rax), -- 443: adcx r12, rax
  .adox .r13 (.reg .rbp), -- 444: adox r13, rbp
  .mulx .r14 .rax (.mem ⟨some .rsi, none, 112#64⟩), -- 445: mulx r14, rax, QWORD PTR [rsi + 0x70]
  .adcx .r13 (.reg .rax), -- 446: adcx r13, rax
  .adox .r14 (.reg .rbp), -- 447: adox r14, rbp
  .adcx .r14 (.reg .rbp), -- 448: adcx r14, rbp
  .mov (.mem ⟨some .rdi, none, 192#64⟩) (.reg .r8), -- 449: mov QWORD PTR [rdi + 0xc0], r8
  .mov (.mem ⟨some .rdi, none, 200#64⟩) (.reg .r9), -- 450: mov QWORD PTR [rdi + 0xc8], r9
  .mov (.mem ⟨some .rdi, none, 208#64⟩) (.reg .r10), -- 451: mov QWORD PTR [rdi + 0xd0], r10
  .mov (.mem ⟨some .rdi, none, 216#64⟩) (.reg .r11), -- 452: mov QWORD PTR [rdi + 0xd8], r11
  .mov (.mem ⟨some .rdi, none, 224#64⟩) (.reg .r12), -- 453: mov QWORD PTR [rdi + 0xe0], r12
  .mov (.mem ⟨some .rdi, none, 232#64⟩) (.reg .r13), -- 454: mov QWORD PTR [rdi + 0xe8], r13
  .mov (.mem ⟨some .rdi, none, 240#64⟩) (.reg .r14), -- 455: mov QWORD PTR [rdi + 0xf0], r14
  .xor (.reg .rbp) (.reg .rbp), -- 456: xor ebp, ebp
  .mov (.reg .rdx) (.mem ⟨some .rsi, none, 0#64⟩), -- 457: mov rdx, QWORD PTR [rsi]
  .mulx .rcx .rax (.reg .rdx), -- 458: mulx rcx, rax, rdx
  .mov (.mem ⟨some .rdi, none, 0#64⟩) (.reg .rax), -- 459: mov QWORD PTR [rdi], rax
  .mov (.reg .rdx) (.mem ⟨some .rdi, none, 8#64⟩), -- 460: mov rdx, QWORD PTR [rdi + 0x8]
  .adcx .rdx (.reg .rdx), -- 461: adcx rdx, rdx
  .adox .rdx (.reg .rcx), -- 462: adox rdx, rcx
  .mov (.mem ⟨some .rdi, none, 8#64⟩) (.reg .rdx), -- 463: mov QWORD PTR [rdi + 0x8], rdx
  .mov (.reg .rdx) (.mem ⟨some .rsi, none, 8#64⟩), -- 464: mov rdx, QWORD PTR [rsi + 0x8]
  .mulx .rcx .rax (.reg .rdx), -- 465: mulx rcx, rax, rdx
  .mov (.reg .rdx) (.mem ⟨some .rdi, none, 16#64⟩), -- 466: mov rdx, QWORD PTR [rdi + 0x10]
  .adcx .rdx (.reg .rdx), -- 467: adcx rdx, rdx
  .adox .rdx (.reg .rax), -- 468: adox rdx, rax
  .mov (.mem ⟨some .rdi, none, 16#64⟩) (.reg .rdx), -- 469: mov QWORD PTR [rdi + 0x10], rdx
  .mov (.reg .rdx) (.mem ⟨some .rdi, none, 24#64⟩), -- 470: mov rdx, QWORD PTR [rdi + 0x18]
  .adcx .rdx (.reg .rdx), -- 471: adcx rdx, rdx
  .adox .rdx (.reg .rcx), -- 472: adox rdx, rcx
  .mov (.mem ⟨some .rdi, none, 24#64⟩) (.reg .rdx), -- 473: mov QWORD PTR [rdi + 0x18], rdx
  .mov (.reg .rdx) (.mem ⟨some .rsi, none, 16#64⟩), -- 474: mov rdx, QWORD PTR [rsi + 0x10]
  .mulx .rcx .rax (.reg .rdx), -- 475: mulx rcx, rax, rdx
  .mov (.reg .rdx) (.mem ⟨some .rdi, none, 32#64⟩), -- 476: mov rdx, QWORD PTR [rdi + 0x20]
  .adcx .rdx (.reg .rdx), -- 477: adcx rdx, rdx
  .adox .rdx (.reg .rax), -- 478: adox rdx, rax
  .mov (.mem ⟨some .rdi, none, 32#64⟩) (.reg .rdx), -- 479: mov QWORD PTR [rdi + 0x20], rdx
  .mov (.reg .rdx) (.mem ⟨some .rdi, none, 40#64⟩), -- 480: mov rdx, QWORD PTR [rdi + 0x28]
  .adcx .rdx (.reg .rdx), -- 481: adcx rdx, rdx
  .adox .rdx (.reg .rcx), -- 482: adox rdx, rcx
  .mov (.mem ⟨some .rdi, none, 40#64⟩) (.reg .rdx), -- 483: mov QWORD PTR [rdi + 0x28], rdx
  .mov (.reg .rdx) (.mem ⟨some .rsi, none, 24#64⟩), -- 484: mov rdx, QWORD PTR [rsi + 0x18]
  .mulx .rcx .rax (.reg .rdx), -- 485: mulx rcx, rax, rdx
  .mov (.reg .rdx) (.mem ⟨some .rdi, none, 48#64⟩), -- 486: mov rdx, QWORD PTR [rdi + 0x30]
  .adcx .rdx (.reg .rdx), -- 487: adcx rdx, rdx
  .adox .rdx (.reg .rax), -- 488: adox rdx, rax
  .mov (.mem ⟨some .rdi, none, 48#64⟩) (.reg .rdx), -- 489: mov QWORD PTR [rdi + 0x30], rdx
  .mov (.reg .rdx) (.mem ⟨some .rdi, none, 56#64⟩), -- 490: mov rdx, QWORD PTR [rdi + 0x38]
  .adcx .rdx (.reg .rdx), -- 491: adcx rdx, rdx
  .adox .rdx (.reg .rcx), -- 492: adox rdx, rcx
  .mov (.mem ⟨some .rdi, none, 56#64⟩) (.reg .rdx), -- 493: mov QWORD PTR [rdi + 0x38], rdx
  .mov (.reg .rdx) (.mem ⟨some .rsi, none, 32#64⟩), -- 494: mov rdx, QWORD PTR [rsi + 0x20]
  .mulx .rcx .rax (.reg .rdx), -- 495: mulx rcx, rax, rdx
  .mov (.reg .rdx) (.mem ⟨some .rdi, none, 64#64⟩), -- 496: mov rdx, QWORD PTR [rdi + 0x40]
  .adcx .rdx (.reg .rdx), -- 497: adcx rdx, rdx
  .adox .rdx (.reg .rax), -- 498: adox rdx, rax
  .mov (.mem ⟨some .rdi, none, 64#64⟩) (.reg .rdx), -- 499: mov QWORD PTR [rdi + 0x40], rdx
  .mov (.reg .rdx) (.mem ⟨some .rdi, none, 72#64⟩), -- 500: mov rdx, QWORD PTR [rdi + 0x48]
  .adcx .rdx (.reg .rdx), -- 501: adcx rdx, rdx
  .adox .rdx (.reg .rcx), -- 502: adox rdx, rcx
  .mov (.mem ⟨some .rdi, none, 72#64⟩) (.reg .rdx), -- 503: mov QWORD PTR [rdi + 0x48], rdx
  .mov (.reg .rdx) (.mem ⟨some .rsi, none, 40#64⟩), -- 504: mov rdx, QWORD PTR [rsi + 0x28]
  .mulx .rcx .rax (.reg .rdx), -- 505: mulx rcx, rax, rdx
  .mov (.reg .rdx) (.mem ⟨some .rdi, none, 80#64⟩), -- 506: mov rdx, QWORD PTR [rdi + 0x50]
  .adcx .rdx (.reg .rdx), -- 507: adcx rdx, rdx
  .adox .rdx (.reg .rax), -- 508: adox rdx, rax
  .mov (.mem ⟨some .rdi, none, 80#64⟩) (.reg .rdx), -- 509: mov QWORD PTR [rdi + 0x50], rdx
  .mov (.reg .rdx) (.mem ⟨some .rdi, none, 88#64⟩), -- 510: mov rdx, QWORD PTR [rdi + 0x58]
  .adcx .rdx (.reg .rdx), -- 511: adcx rdx, rdx
  .adox .rdx (.reg .rcx), -- 512: adox rdx, rcx
  .mov (.mem ⟨some .rdi, none, 88#64⟩) (.reg .rdx), -- 513: mov QWORD PTR [rdi + 0x58], rdx
  .mov (.reg .rdx) (.mem ⟨some .rsi, none, 48#64⟩), -- 514: mov rdx, QWORD PTR [rsi + 0x30]
  .mulx .rcx .rax (.reg .rdx), -- 515: mulx rcx, rax, rdx
  .mov (.reg .rdx) (.mem ⟨some .rdi, none, 96#64⟩), -- 516: mov rdx, QWORD PTR [rdi + 0x60]
  .adcx .rdx (.reg .rdx), -- 517: adcx rdx, rdx
  .adox .rdx (.reg .rax), -- 518: adox rdx, rax
  .mov (.mem ⟨some .rdi, none, 96#64⟩) (.reg .rdx), -- 519: mov QWORD PTR [rdi + 0x60], rdx
  .mov (.reg .rdx) (.mem ⟨some .rdi, none, 104#64⟩), -- 520: mov rdx, QWORD PTR [rdi + 0x68]
  .adcx .rdx (.reg .rdx), -- 521: adcx rdx, rdx
  .adox .rdx (.reg .rcx), -- 522: adox rdx, rcx
  .mov (.mem ⟨some .rdi, none, 104#64⟩) (.reg .rdx), -- 523: mov QWORD PTR [rdi + 0x68], rdx
  .mov (.reg .rdx) (.mem ⟨some .rsi, none, 56#64⟩), -- 524: mov rdx, QWORD PTR [rsi + 0x38]
  .mulx .rcx .rax (.reg .rdx), -- 525: mulx rcx, rax, rdx
  .mov (.reg .rdx) (.mem ⟨some .rdi, none, 112#64⟩), -- 526: mov rdx, QWORD PTR [rdi + 0x70]
  .adcx .rdx (.reg .rdx), -- 527: adcx rdx, rdx
  .adox .rdx (.reg .rax), -- 528: adox rdx, rax
  .mov (.mem ⟨some .rdi, none, 112#64⟩) (.reg .rdx), -- 529: mov QWORD PTR [rdi + 0x70], rdx
  .mov (.reg .rdx) (.mem ⟨some .rdi, none, 120#64⟩), -- 530: mov rdx, QWORD PTR [rdi + 0x78]
  .adcx .rdx (.reg .rdx), -- 531: adcx rdx, rdx
  .adox .rdx (.reg .rcx), -- 532: adox rdx, rcx
  .mov (.mem ⟨some .rdi, none, 120#64⟩) (.reg .rdx), -- 533: mov QWORD PTR [rdi + 0x78], rdx
  .mov (.reg .rdx) (.mem ⟨some .rsi, none, 64#64⟩), -- 534: mov rdx, QWORD PTR [rsi + 0x40]
  .mulx .rcx .rax (.reg .rdx), -- 535: mulx rcx, rax, rdx
  .mov (.reg .rdx) (.mem ⟨some .rdi, none, 128#64⟩), -- 536: mov rdx, QWORD PTR [rdi + 0x80]
  .adcx .rdx (.reg .rdx), -- 537: adcx rdx, rdx
  .adox .rdx (.reg .rax), -- 538: adox rdx, rax
  .mov (.mem ⟨some .rdi, none, 128#64⟩) (.reg .rdx), -- 539: mov QWORD PTR [rdi + 0x80], rdx
  .mov (.reg .rdx) (.mem ⟨some .rdi, none, 136#64⟩), -- 540: mov rdx, QWORD PTR [rdi + 0x88]
  .adcx .rdx (.reg .rdx), -- 541: adcx rdx, rdx
  .adox .rdx (.reg .rcx), -- 542: adox rdx, rcx
  .mov (.mem ⟨some .rdi, none, 136#64⟩) (.reg .rdx), -- 543: mov QWORD PTR [rdi + 0x88], rdx
  .mov (.reg .rdx) (.mem ⟨some .rsi, none, 72#64⟩), -- 544: mov rdx, QWORD PTR [rsi + 0x48]
  .mulx .rcx .rax (.reg .rdx), -- 545: mulx rcx, rax, rdx
  .mov (.reg .rdx) (.mem ⟨some .rdi, none, 144#64⟩), -- 546: mov rdx, QWORD PTR [rdi + 0x90]
  .adcx .rdx (.reg .rdx), -- 547: adcx rdx, rdx
  .adox .rdx (.reg .rax), -- 548: adox rdx, rax
  .mov (.mem ⟨some .rdi, none, 144#64⟩) (.reg .rdx), -- 549: mov QWORD PTR [rdi + 0x90], rdx
  .mov (.reg .rdx) (.mem ⟨some .rdi, none, 152#64⟩), -- 550: mov rdx, QWORD PTR [rdi + 0x98]
  .adcx .rdx (.reg .rdx), -- 551: adcx rdx, rdx
  .adox .rdx (.reg .rcx), -- 552: adox rdx, rcx
  .mov (.mem ⟨some .rdi, none, 152#64⟩) (.reg .rdx), -- 553: mov QWORD PTR [rdi + 0x98], rdx
  .mov (.reg .rdx) (.mem ⟨some .rsi, none, 80#64⟩), -- 554: mov rdx, QWORD PTR [rsi + 0x50]
  .mulx .rcx .rax (.reg .rdx), -- 555: mulx rcx, rax, rdx
  .mov (.reg .rdx) (.mem ⟨some .rdi, none, 160#64⟩), -- 556: mov rdx, QWORD PTR [rdi + 0xa0]
  .adcx .rdx (.reg .rdx), -- 557: adcx rdx, rdx
  .adox .rdx (.reg .rax), -- 558: adox rdx, rax
  .mov (.mem ⟨some .rdi, none, 160#64⟩) (.reg .rdx), -- 559: mov QWORD PTR [rdi + 0xa0], rdx
  .mov (.reg .rdx) (.mem ⟨some .rdi, none, 168#64⟩), -- 560: mov rdx, QWORD PTR [rdi + 0xa8]
  .adcx .rdx (.reg .rdx), -- 561: adcx rdx, rdx
  .adox .rdx (.reg .rcx), -- 562: adox rdx, rcx
  .mov (.mem ⟨some .rdi, none, 168#64⟩) (.reg .rdx), -- 563: mov QWORD PTR [rdi + 0xa8], rdx
  .mov (.reg .rdx) (.mem ⟨some .rsi, none, 88#64⟩), -- 564: mov rdx, QWORD PTR [rsi + 0x58]
  .mulx .rcx .rax (.reg .rdx), -- 565: mulx rcx, rax, rdx
  .mov (.reg .rdx) (.mem ⟨some .rdi, none, 176#64⟩), -- 566: mov rdx, QWORD PTR [rdi + 0xb0]
  .adcx .rdx (.reg .rdx), -- 567: adcx rdx, rdx
  .adox .rdx (.reg .rax), -- 568: adox rdx, rax
  .mov (.mem ⟨some .rdi, none, 176#64⟩) (.reg .rdx), -- 569: mov QWORD PTR [rdi + 0xb0], rdx
  .mov (.reg .rdx) (.mem ⟨some .rdi, none, 184#64⟩), -- 570: mov rdx, QWORD PTR [rdi + 0xb8]
  .adcx .rdx (.reg .rdx), -- 571: adcx rdx, rdx
  .adox .rdx (.reg .rcx), -- 572: adox rdx, rcx
  .mov (.mem ⟨some .rdi, none, 184#64⟩) (.reg .rdx), -- 573: mov QWORD PTR [rdi + 0xb8], rdx
  .mov (.reg .rdx) (.mem ⟨some .rsi, none, 96#64⟩), -- 574: mov rdx, QWORD PTR [rsi + 0x60]
  .mulx .rcx .rax (.reg .rdx), -- 575: mulx rcx, rax, rdx
  .mov (.reg .rdx) (.mem ⟨some .rdi, none, 192#64⟩), -- 576: mov rdx, QWORD PTR [rdi + 0xc0]
  .adcx .rdx (.reg .rdx), -- 577: adcx rdx, rdx
  .adox .rdx (.reg .rax), -- 578: adox rdx, rax
  .mov (.mem ⟨some .rdi, none, 192#64⟩) (.reg .rdx), -- 579: mov QWORD PTR [rdi + 0xc0], rdx
  .mov (.reg .rdx) (.mem ⟨some .rdi, none, 200#64⟩), -- 580: mov rdx, QWORD PTR [rdi + 0xc8]
  .adcx .rdx (.reg .rdx), -- 581: adcx rdx, rdx
  .adox .rdx (.reg .rcx), -- 582: adox rdx, rcx
  .mov (.mem ⟨some .rdi, none, 200#64⟩) (.reg .rdx), -- 583: mov QWORD PTR [rdi + 0xc8], rdx
  .mov (.reg .rdx) (.mem ⟨some .rsi, none, 104#64⟩), -- 584: mov rdx, QWORD PTR [rsi + 0x68]
  .mulx .rcx .rax (.reg .rdx), -- 585: mulx rcx, rax, rdx
  .mov (.reg .rdx) (.mem ⟨some .rdi, none, 208#64⟩), -- 586: mov rdx, QWORD PTR [rdi + 0xd0]
  .adcx .rdx (.reg .rdx), -- 587: adcx rdx, rdx
  .adox .rdx (.reg .rax), -- 588: adox rdx, rax
  .mov (.mem ⟨some .rdi, none, 208#64⟩) (.reg .rdx), -- 589: mov QWORD PTR [rdi + 0xd0], rdx
  .mov (.reg .rdx) (.mem ⟨some .rdi, none, 216#64⟩), -- 590: mov rdx, QWORD PTR [rdi + 0xd8]
  .adcx .rdx (.reg .rdx), -- 591: adcx rdx, rdx
  .adox .rdx (.reg .rcx), -- 592: adox rdx, rcx
  .mov (.mem ⟨some .rdi, none, 216#64⟩) (.reg .rdx), -- 593: mov QWORD PTR [rdi + 0xd8], rdx
  .mov (.reg .rdx) (.mem ⟨some .rsi, none, 112#64⟩), -- 594: mov rdx, QWORD PTR [rsi + 0x70]
  .mulx .rcx .rax (.reg .rdx), -- 595: mulx rcx, rax, rdx
  .mov (.reg .rdx) (.mem ⟨some .rdi, none, 224#64⟩), -- 596: mov rdx, QWORD PTR [rdi + 0xe0]
  .adcx .rdx (.reg .rdx), -- 597: adcx rdx, rdx
  .adox .rdx (.reg .rax), -- 598: adox rdx, rax
  .mov (.mem ⟨some .rdi, none, 224#64⟩) (.reg .rdx), -- 599: mov QWORD PTR [rdi + 0xe0], rdx
  .mov (.reg .rdx) (.mem ⟨some .rdi, none, 232#64⟩), -- 600: mov rdx, QWORD PTR [rdi + 0xe8]
  .adcx .rdx (.reg .rdx), -- 601: adcx rdx, rdx
  .adox .rdx (.reg .rcx), -- 602: adox rdx, rcx
  .mov (.mem ⟨some .rdi, none, 232#64⟩) (.reg .rdx), -- 603: mov QWORD PTR [rdi + 0xe8], rdx
  .mov (.reg .rdx) (.mem ⟨some .rsi, none, 120#64⟩), -- 604: mov rdx, QWORD PTR [rsi + 0x78]
  .mulx .rcx .rax (.reg .rdx), -- 605: mulx rcx, rax, rdx
  .mov (.reg .rdx) (.mem ⟨some .rdi, none, 240#64⟩), -- 606: mov rdx, QWORD PTR [rdi + 0xf0]
  .adcx .rdx (.reg .rdx), -- 607: adcx rdx, rdx
  .adox .rdx (.reg .rax), -- 608: adox rdx, rax
  .mov (.mem ⟨some .rdi, none, 240#64⟩) (.reg .rdx), -- 609: mov QWORD PTR [rdi + 0xf0], rdx
  .adcx .rcx (.reg .rbp), -- 610: adcx rcx, rbp
  .adox .rcx (.reg .rbp), -- 611: adox rcx, rbp
  .mov (.mem ⟨some .rdi, none, 248#64⟩) (.reg .rcx), -- 612: mov QWORD PTR [rdi + 0xf8], rcx
  .pop .r15, -- 613: pop r15
  .pop .r14, -- 614: pop r14
  .pop .r13, -- 615: pop r13
  .pop .r12, -- 616: pop r12
  .pop .rbp] -- 617: pop rbp

/-- The registers that the operands of bignum_ksqr_16_32.rs:34-667 say may change. -/
def bignumKsqr1632Regs : List Reg := [.rdi, .rsi, .rdx, .r10, .r11, .r12, .r13, .r14, .r15, .r8, .r9, .rax, .rcx]

/-- low/x86_64/bignum_montifier.rs:152-625.  Operands: inout("rdi") m.len() => _; inout("rsi") z.as_mut_ptr() => _; inout("rdx") m.as_ptr() => _; inout("rcx") t.as_mut_ptr() => _; out("r10") _; out("r11") _; out("r12") _; out("r13") _; out("r8") _; out("r9") _; out("rax") _. -/
def bignumMontifier : Prog := [
  .nop, -- 0: endbr64
  .push .rbp, -- 1: push rbp
  .push .rbx, -- 2: push rbx
  .push .r12, -- 3: push r12
  .push .r13, -- 4: push r13
  .mov (.reg .r12) (.reg .rdx), -- 5: mov r12, rdx
  .mov (.reg .r13) (.reg .rcx), -- 6: mov r13, rcx
  .test (.reg .rdi) (.reg .rdi), -- 7: test rdi, rdi
  .jcc .zr 285, -- 8: jz @2f
  .xor (.reg .rbx) (.reg .rbx), -- 9: xor rbx, rbx
  .mov (.reg .rcx) (.mem ⟨some .r12, some (.rbx, 8#64), 0#64⟩), -- 10: mov rcx, [r12+ 8 * rbx]
  .mov (.mem ⟨some .r13, some (.rbx, 8#64), 0#64⟩) (.reg .rcx), -- 11: mov [r13+ 8 * rbx], rcx
  .inc (.reg .rbx), -- 12: inc rbx
  .cmp (.reg .rbx) (.reg .rdi), -- 13: cmp rbx, rdi
  .jcc .cy 10, -- 14: jc @3b
  .mov (.reg .rbx) (.reg .rdi), -- 15: mov rbx, rdi
  .dec (.reg .rbx), -- 16: dec rbx
  .jcc .zr 31, -- 17: jz @4f
  .xor (.reg .rbp) (.reg .rbp), -- 18: xor rbp, rbp
  .mov (.reg .r11) (.reg .rdi), -- 19: mov r11, rdi
  .neg (.reg .rcx), -- 20: neg rcx
  .mov (.reg .rax) (.imm 0#64), -- 21: mov eax, 0
  .mov (.reg .rcx) (.reg .rax), -- 22: mov rcx, rax
  .mov (.reg .rax) (.mem ⟨some .r13, some (.rbp, 8#64), 0#64⟩), -- 23: mov rax, [r13+ 8 * rbp]
  .cmov .cy .rcx (.reg .rax), -- 24: cmovc rcx, rax
  .mov (.mem ⟨some .r13, some (.rbp, 8#64), 0#64⟩) (.reg .rcx), -- 25: mov [r13+ 8 * rbp], rcx
  .inc (.reg .rbp), -- 26: inc rbp
  .dec (.reg .r11), -- 27: dec r11
  .jcc .nz 22, -- 28: jnz @6b
  .dec (.reg .rbx), -- 29: dec rbx
  .jcc .nz 18, -- 30: jnz @5b
  .bsr .rcx (.reg .rcx), -- 31: bsr rcx, rcx
  .xor (.reg .rcx) (.imm 63#64), -- 32: xor rcx, 63
  .xor (.reg .r9) (.reg .r9), -- 33: xor r9, r9
  .xor (.reg .rbx) (.reg .rbx), -- 34: xor rbx, rbx
  .mov (.reg .rax) (.mem ⟨some .r13, some (.rbx, 8#64), 0#64⟩), -- 35: mov rax, [r13+ 8 * rbx]
  .mov (.reg .rbp) (.reg .rax), -- 36: mov rbp, rax
  .shld (.reg .rax) .r9 (.reg .rcx), -- 37: shld rax, r9, cl
  .mov (.mem ⟨some .r13, some (.rbx, 8#64), 0#64⟩) (.reg .rax), -- 38: mov [r13+ 8 * rbx], rax
  .mov (.reg .r9) (.reg .rbp), -- 39: mov r9, rbp
  .inc (.reg .rbx), -- 40: inc rbx
  .cmp (.reg .rbx) (.reg .rdi), -- 41: cmp rbx, rdi
  .jcc .cy 35, -- 42: jc @7b
  .mov (.reg .r11) (.mem ⟨some .r13, some (.rdi, 8#64), 0xfffffffffffffff8#64⟩), -- 43: mov r11, [r13+ 8 * rdi-8]
  .mov (.reg .r8) (.imm 1#64), -- 44: mov r8d, 1
  .mov (.reg .r9) (.reg .r11), -- 45: mov r9, r11
  .neg (.reg .r9), -- 46: neg r9
  .mov (.reg .rbx) (.imm 62#64), -- 47: mov ebx, 62
  .add (.reg .r8) (.reg .r8), -- 48: add r8, r8
  .mov (.reg .rax) (.reg .r11), -- 49: mov rax, r11
  .sub (.reg .rax) (.reg .r9), -- 50: sub rax, r9
  .cmp (.reg .r9) (.reg .rax), -- 51: cmp r9, rax
  .sbb (.reg .rax) (.reg .rax), -- 52: sbb rax, rax
  .not (.reg .rax), -- 53: not rax
  .sub (.reg .r8) (.reg .rax), -- 54: sub r8, rax
  .add (.reg .r9) (.reg .r9), -- 55: add r9, r9
  .and (.reg .rax) (.reg .r11), -- 56: and rax, r11
  .sub (.reg .r9) (.reg .rax), -- 57: sub r9, rax
  .dec (.reg .rbx), -- 58: dec rbx
  .jcc .nz 48, -- 59: jnz @8b
  .inc (.reg .r9), -- 60: inc r9
  .cmp (.reg .r11) (.reg .r9), -- 61: cmp r11, r9
  .adc (.reg .r8) (.imm 0#64), -- 62: adc r8, 0
  .xor (.reg .rcx) (.reg .rcx), -- 63: xor rcx, rcx
  .xor (.reg .rbx) (.reg .rbx), -- 64: xor rbx, rbx
  .mov (.reg .rax) (.mem ⟨some .r13, some (.rbx, 8#64), 0#64⟩), -- 65: mov rax, [r13+ 8 * rbx]
  .mul (.reg .r8), -- 66: mul r8
  .add (.reg .rax) (.reg .rcx), -- 67: add rax, rcx
  .adc (.reg .rdx) (.imm 0#64), -- 68: adc rdx, 0
  .mov (.mem ⟨some .rsi, some (.rbx, 8#64), 0#64⟩) (.reg .rax), -- 69: mov [rsi+ 8 * rbx], rax
  .mov (.reg .rcx) (.reg .rdx), -- 70: mov rcx, rdx
  .inc (.reg .rbx), -- 71: inc rbx
  .cmp (.reg .rbx) (.reg .rdi), -- 72: cmp rbx, rdi
  .jcc .cy 65, -- 73: jc @9b
  .mov (.reg .rax) (.imm 0x4000000000000000#64), -- 74: mov rax, 0x4000000000000000
  .sub (.reg .rcx) (.reg .rax), -- 75: sub rcx, rax
  .sbb (.reg .r8) (.reg .r8), -- 76: sbb r8, r8
  .not (.reg .r8), -- 77: not r8
  .xor (.reg .rcx) (.reg .rcx), -- 78: xor rcx, rcx
  .xor (.reg .rbx) (.reg .rbx), -- 79: xor rbx, rbx
  .mov (.reg .rax) (.mem ⟨some .r13, some (.rbx, 8#64), 0#64⟩), -- 80: mov rax, [r13+ 8 * rbx]
  .and (.reg .rax) (.reg .r8), -- 81: and rax, r8
  .neg (.reg .rcx), -- 82: neg rcx
  .sbb (.reg .rax) (.mem ⟨some .rsi, some (.rbx, 8#64), 0#64⟩), -- 83: sbb rax, [rsi+ 8 * rbx]
  .sbb (.reg .rcx) (.reg .rcx), -- 84: sbb rcx, rcx
  .mov (.mem ⟨some .rsi, some (.rbx, 8#64), 0#64⟩) (.reg .rax), -- 85: mov [rsi+ 8 * rbx], rax
  .inc (.reg .rbx), -- 86: inc rbx
  .cmp (.reg .rbx) (.reg .rdi), -- 87: cmp rbx, rdi
  .jcc .cy 80, -- 88: jc @12b
  .xor (.reg .rcx) (.reg .rcx), -- 89: xor rcx, rcx
  .xor (.reg .rbp) (.reg .rbp), -- 90: xor rbp, rbp
  .xor (.reg .r9) (.reg .r9), -- 91: xor r9, r9
  .mov (.reg .rax) (.mem ⟨some .rsi, some (.rbp, 8#64), 0#64⟩), -- 92: mov rax, [rsi+ 8 * rbp]
  .shrd (.reg .rcx) .rax (.imm 63#64), -- 93: shrd rcx, rax, 63
  .neg (.reg .r9), -- 94: neg r9
  .sbb (.reg .rcx) (.mem ⟨some .r13, some (.rbp, 8#64), 0#64⟩), -- 95: sbb rcx, [r13+ 8 * rbp]
  .sbb (.reg .r9) (.reg .r9), -- 96: sbb r9, r9
  .mov (.mem ⟨some .rsi, some (.rbp, 8#64), 0#64⟩) (.reg .rcx), -- 97: mov [rsi+ 8 * rbp], rcx
  .mov (.reg .rcx) (.reg .rax), -- 98: mov rcx, rax
  .inc (.reg .rbp), -- 99: inc rbp
  .cmp (.reg .rbp) (.reg .rdi), -- 100: cmp rbp, rdi
  .jcc .cy 92, -- 101: jc @13b
  .shr (.reg .rcx) (.imm 63#64), -- 102: shr rcx, 63
  .add (.reg .rcx) (.reg .r9), -- 103: add rcx, r9
  .xor (.reg .rbp) (.reg .rbp), -- 104: xor rbp, rbp
  .xor (.reg .r9) (.reg .r9), -- 105: xor r9, r9
  .mov (.reg .rax) (.mem ⟨some .r13, some (.rbp, 8#64), 0#64⟩), -- 106: mov rax, [r13+ 8 * rbp]
  .and (.reg .rax) (.reg .rcx), -- 107: and rax, rcx
  .neg (.reg .r9), -- 108: neg r9
  .adc (.reg .rax) (.mem ⟨some .rsi, some (.rbp, 8#64), 0#64⟩), -- 109: adc rax, [rsi+ 8 * rbp]
  .sbb (.reg .r9) (.reg .r9), -- 110: sbb r9, r9
  .mov (.mem ⟨some .rsi, some (.rbp, 8#64), 0#64⟩) (.reg .rax), -- 111: mov [rsi+ 8 * rbp], rax
  .inc (.reg .rbp), -- 112: inc rbp
  .cmp (.reg .rbp) (.reg .rdi), -- 113: cmp rbp, rdi
  .jcc .cy 106, -- 114: jc @14b
  .xor (.reg .rcx) (.reg .rcx), -- 115: xor rcx, rcx
  .xor (.reg .rbp) (.reg .rbp), -- 116: xor rbp, rbp
  .xor (.reg .r9) (.reg .r9), -- 117: xor r9, r9
  .mov (.reg .rax) (.mem ⟨some .rsi, some (.rbp, 8#64), 0#64⟩), -- 118: mov rax, [rsi+ 8 * rbp]
  .shrd (.reg .rcx) .rax (.imm 63#64), -- 119: shrd rcx, rax, 63
  .neg (.reg .r9), -- 120: neg r9
  .sbb (.reg .rcx) (.mem ⟨some .r13, some (.rbp, 8#64), 0#64⟩), -- 121: sbb rcx, [r13+ 8 * rbp]
  .sbb (.reg .r9) (.reg .r9), -- 122: sbb r9, r9
  .mov (.mem ⟨some .rsi, some (.rbp, 8#64), 0#64⟩) (.reg .rcx), -- 123: mov [rsi+ 8 * rbp], rcx
  .mov (.reg .rcx) (.reg .rax), -- 124: mov rcx, rax
  .inc (.reg .rbp), -- 125: inc rbp
  .cmp (.reg .rbp) (.reg .rdi), -- 126: cmp rbp, rdi
  .jcc .cy 118, -- 127: jc @15b
  .shr (.reg .rcx) (.imm 63#64), -- 128: shr rcx, 63
  .add (.reg .rcx) (.reg .r9), -- 129: add rcx, r9
  .xor (.reg .rbp) (.reg .rbp), -- 130: xor rbp, rbp
  .xor (.reg .r9) (.reg .r9), -- 131: xor r9, r9
  .mov (.reg .rax) (.mem ⟨some .r13, some (.rbp, 8#64), 0#64⟩), -- 132: mov rax, [r13+ 8 * rbp]
  .and (.reg .rax) (.reg .rcx), -- 133: and rax, rcx
  .neg (.reg .r9), -- 134: neg r9
  .adc (.reg .rax) (.mem ⟨some .rsi, some (.rbp, 8#64), 0#64⟩), -- 135: adc rax, [rsi+ 8 * rbp]
  .sbb (.reg .r9) (.reg .r9), -- 136: sbb r9, r9
  .mov (.mem ⟨some .rsi, some (.rbp, 8#64), 0#64⟩) (.reg .rax), -- 137: mov [rsi+ 8 * rbp], rax
  .mov (.mem ⟨some .r13, some (.rbp, 8#64), 0#64⟩) (.reg .rax), -- 138: mov [r13+ 8 * rbp], rax
  .inc (.reg .rbp), -- 139: inc rbp
  .cmp (.reg .rbp) (.reg .rdi), -- 140: cmp rbp, rdi
  .jcc .cy 132, -- 141: jc @16b
  .xor (.reg .r11) (.reg .r11), -- 142: xor r11, r11
  .lea .rbx ⟨some .rdi, some (.rdi, 1#64), 0#64⟩, -- 143: lea rbx, [rdi+ rdi]
  .xor (.reg .r9) (.reg .r9), -- 144: xor r9, r9
  .mov (.reg .r8) (.reg .rdi), -- 145: mov r8, rdi
  .xor (.reg .rbp) (.reg .rbp), -- 146: xor rbp, rbp
  .xor (.reg .rcx) (.reg .rcx), -- 147: xor rcx, rcx
  .adc (.reg .rcx) (.reg .r9), -- 148: adc rcx, r9
  .sbb (.reg .r10) (.reg .r10), -- 149: sbb r10, r10
  .mov (.reg .rax) (.mem ⟨some .rsi, some (.rbp, 8#64), 0#64⟩), -- 150: mov rax, [rsi+ 8 * rbp]
  .mul (.reg .r11), -- 151: mul r11
  .sub (.reg .rdx) (.reg .r10), -- 152: sub rdx, r10
  .add (.reg .rax) (.reg .rcx), -- 153: add rax, rcx
  .mov (.reg .r9) (.mem ⟨some .r13, some (.rbp, 8#64), 0#64⟩), -- 154: mov r9, [r13+ 8 * rbp]
  .mov (.mem ⟨some .r13, some (.rbp, 8#64), 0#64⟩) (.reg .rax), -- 155: mov [r13+ 8 * rbp], rax
  .mov (.reg .rcx) (.reg .rdx), -- 156: mov rcx, rdx
  .inc (.reg .rbp), -- 157: inc rbp
  .dec (.reg .r8), -- 158: dec r8
  .jcc .nz 148, -- 159: jnz @18b
  .adc (.reg .r9) (.reg .rcx), -- 160: adc r9, rcx
  .mov (.reg .r11) (.reg .r9), -- 161: mov r11, r9
  .sbb (.reg .r10) (.reg .r10), -- 162: sbb r10, r10
  .xor (.reg .rbp) (.reg .rbp), -- 163: xor rbp, rbp
  .xor (.reg .rcx) (.reg .rcx), -- 164: xor rcx, rcx
  .mov (.reg .rax) (.mem ⟨some .r13, some (.rbp, 8#64), 0#64⟩), -- 165: mov rax, [r13+ 8 * rbp]
  .mov (.reg .r9) (.mem ⟨some .rsi, some (.rbp, 8#64), 0#64⟩), -- 166: mov r9, [rsi+ 8 * rbp]
  .and (.reg .r9) (.reg .r10), -- 167: and r9, r10
  .neg (.reg .rcx), -- 168: neg rcx
  .adc (.reg .rax) (.reg .r9), -- 169: adc rax, r9
  .sbb (.reg .rcx) (.reg .rcx), -- 170: sbb rcx, rcx
  .mov (.mem ⟨some .r13, some (.rbp, 8#64), 0#64⟩) (.reg .rax), -- 171: mov [r13+ 8 * rbp], rax
  .inc (.reg .rbp), -- 172: inc rbp
  .cmp (.reg .rbp) (.reg .rdi), -- 173: cmp rbp, rdi
  .jcc .cy 165, -- 174: jc @19b
  .sub (.reg .r11) (.reg .rcx), -- 175: sub r11, rcx
  .dec (.reg .rbx), -- 176: dec rbx
  .jcc .nz 144, -- 177: jnz @17b
  .mov (.reg .rax) (.mem ⟨some .r12, none, 0#64⟩), -- 178: mov rax, [r12]
  .mov (.reg .rcx) (.reg .rax), -- 179: mov rcx, rax
  .mov (.reg .rbx) (.reg .rax), -- 180: mov rbx, rax
  .shl (.reg .rcx) (.imm 2#64), -- 181: shl rcx, 2
  .sub (.reg .rbx) (.reg .rcx), -- 182: sub rbx, rcx
  .xor (.reg .rbx) (.imm 2#64), -- 183: xor rbx, 2
  .mov (.reg .rcx) (.reg .rbx), -- 184: mov rcx, rbx
  .imul .rcx (.reg .rax), -- 185: imul rcx, rax
  .mov (.reg .rax) (.imm 2#64), -- 186: mov eax, 2
  .add (.reg .rax) (.reg .rcx), -- 187: add rax, rcx
  .add (.reg .rcx) (.imm 1#64), -- 188: add rcx, 1
  .imul .rbx (.reg .rax), -- 189: imul rbx, rax
  .imul .rcx (.reg .rcx), -- 190: imul rcx, rcx
  .mov (.reg .rax) (.imm 1#64), -- 191: mov eax, 1
  .add (.reg .rax) (.reg .rcx), -- 192: add rax, rcx
  .imul .rbx (.reg .rax), -- 193: imul rbx, rax
  .imul .rcx (.reg .rcx), -- 194: imul rcx, rcx
  .mov (.reg .rax) (.imm 1#64), -- 195: mov eax, 1
  .add (.reg .rax) (.reg .rcx), -- 196: add rax, rcx
  .imul .rbx (.reg .rax), -- 197: imul rbx, rax
  .imul .rcx (.reg .rcx), -- 198: imul rcx, rcx
  .mov (.reg .rax) (.imm 1#64), -- 199: mov eax, 1
  .add (.reg .rax) (.reg .rcx), -- 200: add rax, rcx
  .imul .rbx (.reg .rax), -- 201: imul rbx, rax
  .mov (.reg .rcx) (.mem ⟨some .r13, none, 0#64⟩), -- 202: mov rcx, [r13]
  .mov (.reg .r9) (.reg .rbx), -- 203: mov r9, rbx
  .imul .r9 (.reg .rcx), -- 204: imul r9, rcx
  .mov (.reg .rax) (.mem ⟨some .r12, none, 0#64⟩), -- 205: mov rax, [r12]
  .mul (.reg .r9), -- 206: mul r9
  .add (.reg .rax) (.reg .rcx), -- 207: add rax, rcx
  .mov (.reg .rcx) (.reg .rdx), -- 208: mov rcx, rdx
  .mov (.reg .rbp) (.imm 1#64), -- 209: mov ebp, 1
  .mov (.reg .r8) (.reg .rdi), -- 210: mov r8, rdi
  .dec (.reg .r8), -- 211: dec r8
  .jcc .zr 224, -- 212: jz @20f
  .adc (.reg .rcx) (.mem ⟨some .r13, some (.rbp, 8#64), 0#64⟩), -- 213: adc rcx, [r13+ 8 * rbp]
  .sbb (.reg .r10) (.reg .r10), -- 214: sbb r10, r10
  .mov (.reg .rax) (.mem ⟨some .r12, some (.rbp, 8#64), 0#64⟩), -- 215: mov rax, [r12+ 8 * rbp]
  .mul (.reg .r9), -- 216: mul r9
  .sub (.reg .rdx) (.reg .r10), -- 217: sub rdx, r10
  .add (.reg .rax) (.reg .rcx), -- 218: add rax, rcx
  .mov (.mem ⟨some .r13, some (.rbp, 8#64), 0xfffffffffffffff8#64⟩) (.reg .rax), -- 219: mov [r13+ 8 * rbp-8], rax
  .mov (.reg .rcx) (.reg .rdx), -- 220: mov rcx, rdx
  .inc (.reg .rbp), -- 221: inc rbp
  .dec (.reg .r8), -- 222: dec r8
  .jcc .nz 213, -- 223: jnz @21b
  .adc (.reg .r11) (.reg .rcx), -- 224: adc r11, rcx
  .sbb (.reg .r10) (.reg .r10), -- 225: sbb r10, r10
  .mov (.mem ⟨some .r13, some (.rdi, 8#64), 0xfffffffffffffff8#64⟩) (.reg .r11), -- 226: mov [r13+ 8 * rdi-8], r11
  .xor (.reg .rbp) (.reg .rbp), -- 227: xor rbp, rbp
  .xor (.reg .rcx) (.reg .rcx), -- 228: xor rcx, rcx
  .mov (.reg .rax) (.mem ⟨some .r13, some (.rbp, 8#64), 0#64⟩), -- 229: mov rax, [r13+ 8 * rbp]
  .mov (.reg .r9) (.mem ⟨some .r12, some (.rbp, 8#64), 0#64⟩), -- 230: mov r9, [r12+ 8 * rbp]
  .and (.reg .r9) (.reg .r10), -- 231: and r9, r10
  .neg (.reg .rcx), -- 232: neg rcx
  .sbb (.reg .rax) (.reg .r9), -- 233: sbb rax, r9
  .sbb (.reg .rcx) (.reg .rcx), -- 234: sbb rcx, rcx
  .mov (.mem ⟨some .rsi, some (.rbp, 8#64), 0#64⟩) (.reg .rax), -- 235: mov [rsi+ 8 * rbp], rax
  .inc (.reg .rbp), -- 236: inc rbp
  .cmp (.reg .rbp) (.reg .rdi), -- 237: cmp rbp, rdi
  .jcc .cy 229, -- 238: jc @22b
  .mov (.reg .r11) (.reg .rdi), -- 239: mov r11, rdi
  .mov (.reg .rcx) (.mem ⟨some .rsi, none, 0#64⟩), -- 240: mov rcx, [rsi]
  .mov (.reg .r9) (.reg .rbx), -- 241: mov r9, rbx
  .imul .r9 (.reg .rcx), -- 242: imul r9, rcx
  .mov (.reg .rax) (.mem ⟨some .r12, none, 0#64⟩), -- 243: mov rax, [r12]
  .mul (.reg .r9), -- 244: mul r9
  .add (.reg .rax) (.reg .rcx), -- 245: add rax, rcx
  .mov (.reg .rcx) (.reg .rdx), -- 246: mov rcx, rdx
  .mov (.reg .rbp) (.imm 1#64), -- 247: mov ebp, 1
  .mov (.reg .r8) (.reg .rdi), -- 248: mov r8, rdi
  .dec (.reg .r8), -- 249: dec r8
  .jcc .zr 262, -- 250: jz @24f
  .adc (.reg .rcx) (.mem ⟨some .rsi, some (.rbp, 8#64), 0#64⟩), -- 251: adc rcx, [rsi+ 8 * rbp]
  .sbb (.reg .r10) (.reg .r10), -- 252: sbb r10, r10
  .mov (.reg .rax) (.mem ⟨some .r12, some (.rbp, 8#64), 0#64⟩), -- 253: mov rax, [r12+ 8 * rbp]
  .mul (.reg .r9), -- 254: mul r9
  .sub (.reg .rdx) (.reg .r10), -- 255: sub rdx, r10
  .add (.reg .rax) (.reg .rcx), -- 256: add rax, rcx
  .mov (.mem ⟨some .rsi, some (.rbp, 8#64), 0xfffffffffffffff8#64⟩) (.reg .rax), -- 257: mov [rsi+ 8 * rbp-8], rax
  .mov (.reg .rcx) (.reg .rdx), -- 258: mov rcx, rdx
  .inc (.reg .rbp), -- 259: inc rbp
  .dec (.reg .r8), -- 260: dec r8
  .jcc .nz 251, -- 261: jnz @25b
  .adc (.reg .rcx) (.imm 0#64), -- 262: adc rcx, 0
  .mov (.mem ⟨some .rsi, some (.rdi, 8#64), 0xfffffffffffffff8#64⟩) (.reg .rcx), -- 263: mov [rsi+ 8 * rdi-8], rcx
  .dec (.reg .r11), -- 264: dec r11
  .jcc .nz 240, -- 265: jnz @23b
  .xor (.reg .rbp) (.reg .rbp), -- 266: xor rbp, rbp
  .mov (.reg .r8) (.reg .rdi), -- 267: mov r8, rdi
  .mov (.reg .rax) (.mem ⟨some .rsi, some (.rbp, 8#64), 0#64⟩), -- 268: mov rax, [rsi+ 8 * rbp]
  .sbb (.reg .rax) (.mem ⟨some .r12, some (.rbp, 8#64), 0#64⟩), -- 269: sbb rax, [r12+ 8 * rbp]
  .inc (.reg .rbp), -- 270: inc rbp
  .dec (.reg .r8), -- 271: dec r8
  .jcc .nz 268, -- 272: jnz @26b
  .sbb (.reg .rdx) (.reg .rdx), -- 273: sbb rdx, rdx
  .not (.reg .rdx), -- 274: not rdx
  .xor (.reg .r10) (.reg .r10), -- 275: xor r10, r10
  .xor (.reg .rbp) (.reg .rbp), -- 276: xor rbp, rbp
  .mov (.reg .rax) (.mem ⟨some .r12, some (.rbp, 8#64), 0#64⟩), -- 277: mov rax, [r12+ 8 * rbp]
  .and (.reg .rax) (.reg .rdx), -- 278: and rax, rdx
  .neg (.reg .r10), -- 279: neg r10
  .sbb (.mem ⟨some .rsi, some (.rbp, 8#64), 0#64⟩) (.reg .rax), -- 280: sbb [rsi+ 8 * rbp], rax
  .sbb (.reg .r10) (.reg .r10), -- 281: sbb r10, r10
  .inc (.reg .rbp), -- 282: inc rbp
  .cmp (.reg .rbp) (.reg .rdi), -- 283: cmp rbp, rdi
  .jcc .cy 277, -- 284: jc @27b
  .pop .r13, -- 285: pop r13
  .pop .r12, -- 286: pop r12
  .pop .rbx, -- 287: pop rbx
  .pop .rbp] -- 288: pop rbp

/-- The registers that the operands of bignum_montifier.rs:152-625 say may change. -/
def bignumMontifierRegs : List Reg := [.rdi, .rsi, .rdx, .rcx, .r10, .r11, .r12, .r13, .r8, .r9, .rax]

/-- low/x86_64/bignum_modinv.rs:273-880.  Operands: inout("rdi") b.len() => _; inout("rsi") z.as_mut_ptr() => _; inout("rdx") a.as_ptr() => _; inout("rcx") b.as_ptr() => _; inout("r8") t.as_mut_ptr() => _; out("r10") _; out("r11") _; out("r12") _; out("r13") _; out("r14") _; out("r15") _; out("r9") _; out("rax") _. -/
def bignumModinv : Prog := [
  .nop, -- 0: endbr64
  .push .rbp, -- 1: push rbp
  .push .rbx, -- 2: push rbx
  .push .r12, -- 3: push r12
  .push .r13, -- 4: push r13
  .push .r14, -- 5: push r14
  .push .r15, -- 6: push r15
  .sub (.reg .rsp) (.imm 80#64), -- 7: sub rsp, 80
  .test (.reg .rdi) (.reg .rdi), -- 8: test rdi, rdi
  .jcc .zr 383, -- 9: jz @2f
  .mov (.mem ⟨some .rsp, none, 64#64⟩) (.reg .rsi), -- 10: mov QWORD PTR [rsp + 64], rsi
  .mov (.mem ⟨some .rsp, none, 56#64⟩) (.reg .r8), -- 11: mov QWORD PTR [rsp + 56], r8
  .mov (.mem ⟨some .rsp, none, 72#64⟩) (.reg .rcx), -- 12: mov QWORD PTR [rsp + 72], rcx
  .lea .r10 ⟨some .r8, some (.rdi, 8#64), 0#64⟩, -- 13: lea r10, [r8 + 8 * rdi]
  .mov (.mem ⟨some .rsp, none, 48#64⟩) (.reg .r10), -- 14: mov QWORD PTR [rsp + 48], r10
  .lea .r15 ⟨some .r10, some (.rdi, 8#64), 0#64⟩, -- 15: lea r15, [r10 + 8 * rdi]
  .xor (.reg .r11) (.reg .r11), -- 16: xor r11, r11
  .xor (.reg .r9) (.reg .r9), -- 17: xor r9, r9
  .mov (.reg .rax) (.mem ⟨some .rdx, some (.r9, 8#64), 0#64⟩), -- 18: mov rax, [rdx + 8 * r9]
  .mov (.reg .rbx) (.mem ⟨some .rcx, some (.r9, 8#64), 0#64⟩), -- 19: mov rbx, [rcx + 8 * r9]
  .mov (.mem ⟨some .r10, some (.r9, 8#64), 0#64⟩) (.reg .rax), -- 20: mov [r10 + 8 * r9], rax
  .mov (.mem ⟨some .r15, some (.r9, 8#64), 0#64⟩) (.reg .rbx), -- 21: mov [r15+ 8 * r9], rbx
  .mov (.mem ⟨some .r8, some (.r9, 8#64), 0#64⟩) (.reg .rbx), -- 22: mov [r8 + 8 * r9], rbx
  .mov (.mem ⟨some .rsi, some (.r9, 8#64), 0#64⟩) (.reg .r11), -- 23: mov [rsi + 8 * r9], r11
  .inc (.reg .r9), -- 24: inc r9
  .cmp (.reg .r9) (.reg .rdi), -- 25: cmp r9, rdi
  .jcc .cy 18, -- 26: jc @3b
  .mov (.reg .rax) (.mem ⟨some .r8, none, 0#64⟩), -- 27: mov rax, [r8]
  .mov (.reg .rbx) (.reg .rax), -- 28: mov rbx, rax
  .dec (.reg .rbx), -- 29: dec rbx
  .mov (.mem ⟨some .r8, none, 0#64⟩) (.reg .rbx), -- 30: mov [r8], rbx
  .mov (.reg .rbp) (.reg .rax), -- 31: mov rbp, rax
  .mov (.reg .r12) (.reg .rax), -- 32: mov r12, rax
  .shl (.reg .rbp) (.imm 2#64), -- 33: shl rbp, 2
  .sub (.reg .r12) (.reg .rbp), -- 34: sub r12, rbp
  .xor (.reg .r12) (.imm 2#64), -- 35: xor r12, 2
  .mov (.reg .rbp) (.reg .r12), -- 36: mov rbp, r12
  .imul .rbp (.reg .rax), -- 37: imul rbp, rax
  .mov (.reg .rax) (.imm 2#64), -- 38: mov eax, 2
  .add (.reg .rax) (.reg .rbp), -- 39: add rax, rbp
  .add (.reg .rbp) (.imm 1#64), -- 40: add rbp, 1
  .imul .r12 (.reg .rax), -- 41: imul r12, rax
  .imul .rbp (.reg .rbp), -- 42: imul rbp, rbp
  .mov (.reg .rax) (.imm 1#64), -- 43: mov eax, 1
  .add (.reg .rax) (.reg .rbp), -- 44: add rax, rbp
  .imul .r12 (.reg .rax), -- 45: imul r12, rax
  .imul .rbp (.reg .rbp), -- 46: imul rbp, rbp
  .mov (.reg .rax) (.imm 1#64), -- 47: mov eax, 1
  .add (.reg .rax) (.reg .rbp), -- 48: add rax, rbp
  .imul .r12 (.reg .rax), -- 49: imul r12, rax
  .imul .rbp (.reg .rbp), -- 50: imul rbp, rbp
  .mov (.reg .rax) (.imm 1#64), -- 51: mov eax, 1
  .add (.reg .rax) (.reg .rbp), -- 52: add rax, rbp
  .imul .r12 (.reg .rax), -- 53: imul r12, rax
  .mov (.mem ⟨some .rsp, none, 40#64⟩) (.reg .r12), -- 54: mov QWORD PTR [rsp + 40], r12
  .mov (.reg .rax) (.reg .rdi), -- 55: mov rax, rdi
  .shl (.reg .rax) (.imm 7#64), -- 56: shl rax, 7
  .mov (.mem ⟨some .rsp, none, 32#64⟩) (.reg .rax), -- 57: mov QWORD PTR [rsp + 32], rax
  .mov (.reg .r13) (.mem ⟨some .rsp, none, 32#64⟩), -- 58: mov r13, QWORD PTR [rsp + 32]
  .add (.reg .r13) (.imm 63#64), -- 59: add r13, 63
  .shr (.reg .r13) (.imm 6#64), -- 60: shr r13, 6
  .cmp (.reg .r13) (.reg .rdi), -- 61: cmp r13, rdi
  .cmov .nc .r13 (.reg .rdi), -- 62: cmovnc r13, rdi
  .xor (.reg .r12) (.reg .r12), -- 63: xor r12, r12
  .xor (.reg .r14) (.reg .r14), -- 64: xor r14, r14
  .xor (.reg .rbp) (.reg .rbp), -- 65: xor rbp, rbp
  .xor (.reg .rsi) (.reg .rsi), -- 66: xor rsi, rsi
  .xor (.reg .r11) (.reg .r11), -- 67: xor r11, r11
  .mov (.reg .r8) (.mem ⟨some .rsp, none, 48#64⟩), -- 68: mov r8, QWORD PTR [rsp + 48]
  .lea .r15 ⟨some .r8, some (.rdi, 8#64), 0#64⟩, -- 69: lea r15, [r8+ 8 * rdi]
  .xor (.reg .r9) (.reg .r9), -- 70: xor r9, r9
  .mov (.reg .rbx) (.mem ⟨some .r8, some (.r9, 8#64), 0#64⟩), -- 71: mov rbx, [r8+ 8 * r9]
  .mov (.reg .rcx) (.mem ⟨some .r15, some (.r9, 8#64), 0#64⟩), -- 72: mov rcx, [r15+ 8 * r9]
  .mov (.reg .r10) (.reg .r11), -- 73: mov r10, r11
  .and (.reg .r10) (.reg .r12), -- 74: and r10, r12
  .and (.reg .r11) (.reg .rbp), -- 75: and r11, rbp
  .mov (.reg .rax) (.reg .rbx), -- 76: mov rax, rbx
  .or (.reg .rax) (.reg .rcx), -- 77: or rax, rcx
  .neg (.reg .rax), -- 78: neg rax
  .cmov .cy .r14 (.reg .r10), -- 79: cmovc r14, r10
  .cmov .cy .rsi (.reg .r11), -- 80: cmovc rsi, r11
  .cmov .cy .r12 (.reg .rbx), -- 81: cmovc r12, rbx
  .cmov .cy .rbp (.reg .rcx), -- 82: cmovc rbp, rcx
  .sbb (.reg .r11) (.reg .r11), -- 83: sbb r11, r11
  .inc (.reg .r9), -- 84: inc r9
  .cmp (.reg .r9) (.reg .r13), -- 85: cmp r9, r13
  .jcc .cy 71, -- 86: jc @5b
  .mov (.reg .rax) (.reg .r12), -- 87: mov rax, r12
  .or (.reg .rax) (.reg .rbp), -- 88: or rax, rbp
  .bsr .rcx (.reg .rax), -- 89: bsr rcx, rax
  .xor (.reg .rcx) (.imm 63#64), -- 90: xor rcx, 63
  .shld (.reg .r12) .r14 (.reg .rcx), -- 91: shld r12, r14, cl
  .shld (.reg .rbp) .rsi (.reg .rcx), -- 92: shld rbp, rsi, cl
  .mov (.reg .rax) (.mem ⟨some .r8, none, 0#64⟩), -- 93: mov rax, [r8]
  .mov (.reg .r14) (.reg .rax), -- 94: mov r14, rax
  .mov (.reg .rax) (.mem ⟨some .r15, none, 0#64⟩), -- 95: mov rax, [r15]
  .mov (.reg .rsi) (.reg .rax), -- 96: mov rsi, rax
  .mov (.reg .r10) (.imm 1#64), -- 97: mov r10d, 1
  .mov (.reg .r11) (.imm 0#64), -- 98: mov r11d, 0
  .mov (.reg .rcx) (.imm 0#64), -- 99: mov ecx, 0
  .mov (.reg .rdx) (.imm 1#64), -- 100: mov edx, 1
  .mov (.reg .r9) (.imm 58#64), -- 101: mov r9d, 58
  .mov (.mem ⟨some .rsp, none, 8#64⟩) (.reg .rdi), -- 102: mov QWORD PTR [rsp + 8], rdi
  .mov (.mem ⟨some .rsp, none, 16#64⟩) (.reg .r13), -- 103: mov QWORD PTR [rsp + 16], r13
  .mov (.mem ⟨some .rsp, none, 0#64⟩) (.reg .r8), -- 104: mov QWORD PTR [rsp], r8
  .mov (.mem ⟨some .rsp, none, 24#64⟩) (.reg .r15), -- 105: mov QWORD PTR [rsp + 24], r15
  .xor (.reg .rax) (.reg .rax), -- 106: xor eax, eax
  .xor (.reg .rbx) (.reg .rbx), -- 107: xor ebx, ebx
  .xor (.reg .r8) (.reg .r8), -- 108: xor r8, r8
  .xor (.reg .r15) (.reg .r15), -- 109: xor r15, r15
  .bt (.reg .r14) 0#64, -- 110: bt r14, 0
  .cmov .cy .rax (.reg .rbp), -- 111: cmovc rax, rbp
  .cmov .cy .rbx (.reg .rsi), -- 112: cmovc rbx, rsi
  .cmov .cy .r8 (.reg .rcx), -- 113: cmovc r8, rcx
  .cmov .cy .r15 (.reg .rdx), -- 114: cmovc r15, rdx
  .mov (.reg .r13) (.reg .r14), -- 115: mov r13, r14
  .sub (.reg .r14) (.reg .rbx), -- 116: sub r14, rbx
  .sub (.reg .rbx) (.reg .r13), -- 117: sub rbx, r13
  .mov (.reg .rdi) (.reg .r12), -- 118: mov rdi, r12
  .sub (.reg .rdi) (.reg .rax), -- 119: sub rdi, rax
  .cmov .cy .rbp (.reg .r12), -- 120: cmovc rbp, r12
  .lea .r12 ⟨some .rdi, none, 0xffffffffffffffff#64⟩, -- 121: lea r12, [rdi-1]
  .cmov .cy .r14 (.reg .rbx), -- 122: cmovc r14, rbx
  .cmov .cy .rsi (.reg .r13), -- 123: cmovc rsi, r13
  .not (.reg .r12), -- 124: not r12
  .cmov .cy .rcx (.reg .r10), -- 125: cmovc rcx, r10
  .cmov .cy .rdx (.reg .r11), -- 126: cmovc rdx, r11
  .cmov .nc .r12 (.reg .rdi), -- 127: cmovnc r12, rdi
  .shr (.reg .r14) (.imm 1#64), -- 128: shr r14, 1
  .add (.reg .r10) (.reg .r8), -- 129: add r10, r8
  .add (.reg .r11) (.reg .r15), -- 130: add r11, r15
  .shr (.reg .r12) (.imm 1#64), -- 131: shr r12, 1
  .add (.reg .rcx) (.reg .rcx), -- 132: add rcx, rcx
  .add (.reg .rdx) (.reg .rdx), -- 133: add rdx, rdx
  .dec (.reg .r9), -- 134: dec r9
  .jcc .nz 106, -- 135: jnz @6b
  .mov (.reg .rdi) (.mem ⟨some .rsp, none, 8#64⟩), -- 136: mov rdi, QWORD PTR [rsp + 8]
  .mov (.reg .r13) (.mem ⟨some .rsp, none, 16#64⟩), -- 137: mov r13, QWORD PTR [rsp + 16]
  .mov (.reg .r8) (.mem ⟨some .rsp, none, 0#64⟩), -- 138: mov r8, QWORD PTR [rsp]
  .mov (.reg .r15) (.mem ⟨some .rsp, none, 24#64⟩), -- 139: mov r15, QWORD PTR [rsp + 24]
  .mov (.mem ⟨some .rsp, none, 0#64⟩) (.reg .r10), -- 140: mov QWORD PTR [rsp], r10
  .mov (.mem ⟨some .rsp, none, 8#64⟩) (.reg .r11), -- 141: mov QWORD PTR [rsp + 8], r11
  .mov (.mem ⟨some .rsp, none, 16#64⟩) (.reg .rcx), -- 142: mov QWORD PTR [rsp + 16], rcx
  .mov (.mem ⟨some .rsp, none, 24#64⟩) (.reg .rdx), -- 143: mov QWORD PTR [rsp + 24], rdx
  .mov (.reg .r8) (.mem ⟨some .rsp, none, 56#64⟩), -- 144: mov r8, QWORD PTR [rsp + 56]
  .mov (.reg .r15) (.mem ⟨some .rsp, none, 64#64⟩), -- 145: mov r15, QWORD PTR [rsp + 64]
  .xor (.reg .r14) (.reg .r14), -- 146: xor r14, r14
  .xor (.reg .rsi) (.reg .rsi), -- 147: xor rsi, rsi
  .xor (.reg .r10) (.reg .r10), -- 148: xor r10, r10
  .xor (.reg .r11) (.reg .r11), -- 149: xor r11, r11
  .xor (.reg .r9) (.reg .r9), -- 150: xor r9, r9
  .mov (.reg .rcx) (.mem ⟨some .r8, some (.r9, 8#64), 0#64⟩), -- 151: mov rcx, [r8+ 8 * r9]
  .mov (.reg .rax) (.mem ⟨some .rsp, none, 0#64⟩), -- 152: mov rax, QWORD PTR [rsp]
  .mul (.reg .rcx), -- 153: mul rcx
  .add (.reg .r14) (.reg .rax), -- 154: add r14, rax
  .adc (.reg .rdx) (.imm 0#64), -- 155: adc rdx, 0
  .mov (.reg .r12) (.reg .rdx), -- 156: mov r12, rdx
  .mov (.reg .rax) (.mem ⟨some .rsp, none, 16#64⟩), -- 157: mov rax, QWORD PTR [rsp + 16]
  .mul (.reg .rcx), -- 158: mul rcx
  .add (.reg .rsi) (.reg .rax), -- 159: add rsi, rax
  .adc (.reg .rdx) (.imm 0#64), -- 160: adc rdx, 0
  .mov (.reg .rbp) (.reg .rdx), -- 161: mov rbp, rdx
  .mov (.reg .rcx) (.mem ⟨some .r15, some (.r9, 8#64), 0#64⟩), -- 162: mov rcx, [r15+ 8 * r9]
  .mov (.reg .rax) (.mem ⟨some .rsp, none, 8#64⟩), -- 163: mov rax, QWORD PTR [rsp + 8]
  .mul (.reg .rcx), -- 164: mul rcx
  .add (.reg .r14) (.reg .rax), -- 165: add r14, rax
  .adc (.reg .r12) (.reg .rdx), -- 166: adc r12, rdx
  .shrd (.reg .r10) .r14 (.imm 58#64), -- 167: shrd r10, r14, 58
  .mov (.mem ⟨some .r8, some (.r9, 8#64), 0#64⟩) (.reg .r10), -- 168: mov [r8+ 8 * r9], r10
  .mov (.reg .r10) (.reg .r14), -- 169: mov r10, r14
  .mov (.reg .r14) (.reg .r12), -- 170: mov r14, r12
  .mov (.reg .rax) (.mem ⟨some .rsp, none, 24#64⟩), -- 171: mov rax, QWORD PTR [rsp + 24]
  .mul (.reg .rcx), -- 172: mul rcx
  .add (.reg .rsi) (.reg .rax), -- 173: add rsi, rax
  .adc (.reg .rbp) (.reg .rdx), -- 174: adc rbp, rdx
  .shrd (.reg .r11) .rsi (.imm 58#64), -- 175: shrd r11, rsi, 58
  .mov (.mem ⟨some .r15, some (.r9, 8#64), 0#64⟩) (.reg .r11), -- 176: mov [r15+ 8 * r9], r11
  .mov (.reg .r11) (.reg .rsi), -- 177: mov r11, rsi
  .mov (.reg .rsi) (.reg .rbp), -- 178: mov rsi, rbp
  .inc (.reg .r9), -- 179: inc r9
  .cmp (.reg .r9) (.reg .rdi), -- 180: cmp r9, rdi
  .jcc .cy 151, -- 181: jc @7b
  .shld (.reg .r14) .r10 (.imm 6#64), -- 182: shld r14, r10, 64 - 58
  .shld (.reg .rsi) .r11 (.imm 6#64), -- 183: shld rsi, r11, 64 - 58
  .mov (.reg .r15) (.mem ⟨some .rsp, none, 72#64⟩), -- 184: mov r15, QWORD PTR [rsp + 72]
  .mov (.reg .rbx) (.mem ⟨some .r8, none, 0#64⟩), -- 185: mov rbx, [r8]
  .mov (.reg .r12) (.mem ⟨some .rsp, none, 40#64⟩), -- 186: mov r12, QWORD PTR [rsp + 40]
  .imul .r12 (.reg .rbx), -- 187: imul r12, rbx
  .mov (.reg .rax) (.mem ⟨some .r15, none, 0#64⟩), -- 188: mov rax, [r15]
  .mul (.reg .r12), -- 189: mul r12
  .add (.reg .rax) (.reg .rbx), -- 190: add rax, rbx
  .mov (.reg .r10) (.reg .rdx), -- 191: mov r10, rdx
  .mov (.reg .r9) (.imm 1#64), -- 192: mov r9d, 1
  .mov (.reg .rcx) (.reg .rdi), -- 193: mov rcx, rdi
  .dec (.reg .rcx), -- 194: dec rcx
  .jcc .zr 207, -- 195: jz @8f
  .adc (.reg .r10) (.mem ⟨some .r8, some (.r9, 8#64), 0#64⟩), -- 196: adc r10, [r8+ 8 * r9]
  .sbb (.reg .rbx) (.reg .rbx), -- 197: sbb rbx, rbx
  .mov (.reg .rax) (.mem ⟨some .r15, some (.r9, 8#64), 0#64⟩), -- 198: mov rax, [r15+ 8 * r9]
  .mul (.reg .r12), -- 199: mul r12
  .sub (.reg .rdx) (.reg .rbx), -- 200: sub rdx, rbx
  .add (.reg .rax) (.reg .r10), -- 201: add rax, r10
  .mov (.mem ⟨some .r8, some (.r9, 8#64), 0xfffffffffffffff8#64⟩) (.reg .rax), -- 202: mov [r8+ 8 * r9-8], rax
  .mov (.reg .r10) (.reg .rdx), -- 203: mov r10, rdx
  .inc (.reg .r9), -- 204: inc r9
  .dec (.reg .rcx), -- 205: dec rcx
  .jcc .nz 196, -- 206: jnz @9b
  .adc (.reg .r10) (.reg .r14), -- 207: adc r10, r14
  .mov (.mem ⟨some .r8, some (.rdi, 8#64), 0xfffffffffffffff8#64⟩) (.reg .r10), -- 208: mov [r8+ 8 * rdi-8], r10
  .sbb (.reg .r10) (.reg .r10), -- 209: sbb r10, r10
  .neg (.reg .r10), -- 210: neg r10
  .mov (.reg .rcx) (.reg .rdi), -- 211: mov rcx, rdi
  .xor (.reg .r9) (.reg .r9), -- 212: xor r9, r9
  .mov (.reg .rax) (.mem ⟨some .r8, some (.r9, 8#64), 0#64⟩), -- 213: mov rax, [r8+ 8 * r9]
  .sbb (.reg .rax) (.mem ⟨some .r15, some (.r9, 8#64), 0#64⟩), -- 214: sbb rax, [r15+ 8 * r9]
  .inc (.reg .r9), -- 215: inc r9
  .dec (.reg .rcx), -- 216: dec rcx
  .jcc .nz 213, -- 217: jnz @12b
  .sbb (.reg .r10) (.imm 0#64), -- 218: sbb r10, 0
  .sbb (.reg .r10) (.reg .r10), -- 219: sbb r10, r10
  .not (.reg .r10), -- 220: not r10
  .xor (.reg .rcx) (.reg .rcx), -- 221: xor rcx, rcx
  .xor (.reg .r9) (.reg .r9), -- 222: xor r9, r9
  .mov (.reg .rax) (.mem ⟨some .r8, some (.r9, 8#64), 0#64⟩), -- 223: mov rax, [r8+ 8 * r9]
  .mov (.reg .rbx) (.mem ⟨some .r15, some (.r9, 8#64), 0#64⟩), -- 224: mov rbx, [r15+ 8 * r9]
  .and (.reg .rbx) (.reg .r10), -- 225: and rbx, r10
  .neg (.reg .rcx), -- 226: neg rcx
  .sbb (.reg .rax) (.reg .rbx), -- 227: sbb rax, rbx
  .sbb (.reg .rcx) (.reg .rcx), -- 228: sbb rcx, rcx
  .mov (.mem ⟨some .r8, some (.r9, 8#64), 0#64⟩) (.reg .rax), -- 229: mov [r8+ 8 * r9], rax
  .inc (.reg .r9), -- 230: inc r9
  .cmp (.reg .r9) (.reg .rdi), -- 231: cmp r9, rdi
  .jcc .cy 223, -- 232: jc @13b
  .mov (.reg .r8) (.mem ⟨some .rsp, none, 64#64⟩), -- 233: mov r8, QWORD PTR [rsp + 64]
  .mov (.reg .rbx) (.mem ⟨some .r8, none, 0#64⟩), -- 234: mov rbx, [r8]
  .mov (.reg .rbp) (.mem ⟨some .rsp, none, 40#64⟩), -- 235: mov rbp, QWORD PTR [rsp + 40]
  .imul .rbp (.reg .rbx), -- 236: imul rbp, rbx
  .mov (.reg .rax) (.mem ⟨some .r15, none, 0#64⟩), -- 237: mov rax, [r15]
  .mul (.reg .rbp), -- 238: mul rbp
  .add (.reg .rax) (.reg .rbx), -- 239: add rax, rbx
  .mov (.reg .r11) (.reg .rdx), -- 240: mov r11, rdx
  .mov (.reg .r9) (.imm 1#64), -- 241: mov r9d, 1
  .mov (.reg .rcx) (.reg .rdi), -- 242: mov rcx, rdi
  .dec (.reg .rcx), -- 243: dec rcx
  .jcc .zr 256, -- 244: jz @14f
  .adc (.reg .r11) (.mem ⟨some .r8, some (.r9, 8#64), 0#64⟩), -- 245: adc r11, [r8+ 8 * r9]
  .sbb (.reg .rbx) (.reg .rbx), -- 246: sbb rbx, rbx
  .mov (.reg .rax) (.mem ⟨some .r15, some (.r9, 8#64), 0#64⟩), -- 247: mov rax, [r15+ 8 * r9]
  .mul (.reg .rbp), -- 248: mul rbp
  .sub (.reg .rdx) (.reg .rbx), -- 249: sub rdx, rbx
  .add (.reg .rax) (.reg .r11), -- 250: add rax, r11
  .mov (.mem ⟨some .r8, some (.r9, 8#64), 0xfffffffffffffff8#64⟩) (.reg .rax), -- 251: mov [r8+ 8 * r9-8], rax
  .mov (.reg .r11) (.reg .rdx), -- 252: mov r11, rdx
  .inc (.reg .r9), -- 253: inc r9
  .dec (.reg .rcx), -- 254: dec rcx
  .jcc .nz 245, -- 255: jnz @15b
  .adc (.reg .r11) (.reg .rsi), -- 256: adc r11, rsi
  .mov (.mem ⟨some .r8, some (.rdi, 8#64), 0xfffffffffffffff8#64⟩) (.reg .r11), -- 257: mov [r8+ 8 * rdi-8], r11
  .sbb (.reg .r11) (.reg .r11), -- 258: sbb r11, r11
  .neg (.reg .r11), -- 259: neg r11
  .mov (.reg .rcx) (.reg .rdi), -- 260: mov rcx, rdi
  .xor (.reg .r9) (.reg .r9), -- 261: xor r9, r9
  .mov (.reg .rax) (.mem ⟨some .r8, some (.r9, 8#64), 0#64⟩), -- 262: mov rax, [r8+ 8 * r9]
  .sbb (.reg .rax) (.mem ⟨some .r15, some (.r9, 8#64), 0#64⟩), -- 263: sbb rax, [r15+ 8 * r9]
  .inc (.reg .r9), -- 264: inc r9
  .dec (.reg .rcx), -- 265: dec rcx
  .jcc .nz 262, -- 266: jnz @16b
  .sbb (.reg .r11) (.imm 0#64), -- 267: sbb r11, 0
  .sbb (.reg .r11) (.reg .r11), -- 268: sbb r11, r11
  .not (.reg .r11), -- 269: not r11
  .xor (.reg .rcx) (.reg .rcx), -- 270: xor rcx, rcx
  .xor (.reg .r9) (.reg .r9), -- 271: xor r9, r9
  .mov (.reg .rax) (.mem ⟨some .r8, some (.r9, 8#64), 0#64⟩), -- 272: mov rax, [r8+ 8 * r9]
  .mov (.reg .rbx) (.mem ⟨some .r15, some (.r9, 8#64), 0#64⟩), -- 273: mov rbx, [r15+ 8 * r9]
  .and (.reg .rbx) (.reg .r11), -- 274: and rbx, r11
  .neg (.reg .rcx), -- 275: neg rcx
  .sbb (.reg .rax) (.reg .rbx), -- 276: sbb rax, rbx
  .sbb (.reg .rcx) (.reg .rcx), -- 277: sbb rcx, rcx
  .mov (.mem ⟨some .r8, some (.r9, 8#64), 0#64⟩) (.reg .rax), -- 278: mov [r8+ 8 * r9], rax
  .inc (.reg .r9), -- 279: inc r9
  .cmp (.reg .r9) (.reg .rdi), -- 280: cmp r9, rdi
  .jcc .cy 272, -- 281: jc @17b
  .mov (.reg .r8) (.mem ⟨some .rsp, none, 48#64⟩), -- 282: mov r8, QWORD PTR [rsp + 48]
  .lea .r15 ⟨some .r8, some (.rdi, 8#64), 0#64⟩, -- 283: lea r15, [r8+ 8 * rdi]
  .xor (.reg .r9) (.reg .r9), -- 284: xor r9, r9
  .xor (.reg .r12) (.reg .r12), -- 285: xor r12, r12
  .xor (.reg .r14) (.reg .r14), -- 286: xor r14, r14
  .xor (.reg .rbp) (.reg .rbp), -- 287: xor rbp, rbp
  .xor (.reg .rsi) (.reg .rsi), -- 288: xor rsi, rsi
  .mov (.reg .rcx) (.mem ⟨some .r8, some (.r9, 8#64), 0#64⟩), -- 289: mov rcx, [r8+ 8 * r9]
  .mov (.reg .rax) (.mem ⟨some .rsp, none, 0#64⟩), -- 290: mov rax, QWORD PTR [rsp]
  .mul (.reg .rcx), -- 291: mul rcx
  .add (.reg .r14) (.reg .rax), -- 292: add r14, rax
  .adc (.reg .rdx) (.imm 0#64), -- 293: adc rdx, 0
  .mov (.reg .r10) (.reg .rdx), -- 294: mov r10, rdx
  .mov (.reg .rax) (.mem ⟨some .rsp, none, 16#64⟩), -- 295: mov rax, QWORD PTR [rsp + 16]
  .mul (.reg .rcx), -- 296: mul rcx
  .add (.reg .rsi) (.reg .rax), -- 297: add rsi, rax
  .adc (.reg .rdx) (.imm 0#64), -- 298: adc rdx, 0
  .mov (.reg .r11) (.reg .rdx), -- 299: mov r11, rdx
  .mov (.reg .rcx) (.mem ⟨some .r15, some (.r9, 8#64), 0#64⟩), -- 300: mov rcx, [r15+ 8 * r9]
  .mov (.reg .rax) (.mem ⟨some .rsp, none, 8#64⟩), -- 301: mov rax, QWORD PTR [rsp + 8]
  .mul (.reg .rcx), -- 302: mul rcx
  .sub (.reg .rdx) (.reg .r12), -- 303: sub rdx, r12
  .sub (.reg .r14) (.reg .rax), -- 304: sub r14, rax
  .sbb (.reg .r10) (.reg .rdx), -- 305: sbb r10, rdx
  .sbb (.reg .r12) (.reg .r12), -- 306: sbb r12, r12
  .mov (.mem ⟨some .r8, some (.r9, 8#64), 0#64⟩) (.reg .r14), -- 307: mov [r8+ 8 * r9], r14
  .mov (.reg .r14) (.reg .r10), -- 308: mov r14, r10
  .mov (.reg .rax) (.mem ⟨some .rsp, none, 24#64⟩), -- 309: mov rax, QWORD PTR [rsp + 24]
  .mul (.reg .rcx), -- 310: mul rcx
  .sub (.reg .rdx) (.reg .rbp), -- 311: sub rdx, rbp
  .sub (.reg .rsi) (.reg .rax), -- 312: sub rsi, rax
  .sbb (.reg .r11) (.reg .rdx), -- 313: sbb r11, rdx
  .sbb (.reg .rbp) (.reg .rbp), -- 314: sbb rbp, rbp
  .mov (.mem ⟨some .r15, some (.r9, 8#64), 0#64⟩) (.reg .rsi), -- 315: mov [r15+ 8 * r9], rsi
  .mov (.reg .rsi) (.reg .r11), -- 316: mov rsi, r11
  .inc (.reg .r9), -- 317: inc r9
  .cmp (.reg .r9) (.reg .r13), -- 318: cmp r9, r13
  .jcc .cy 289, -- 319: jc @18b
  .xor (.reg .r9) (.reg .r9), -- 320: xor r9, r9
  .mov (.reg .r10) (.reg .r12), -- 321: mov r10, r12
  .mov (.reg .r11) (.reg .rbp), -- 322: mov r11, rbp
  .xor (.reg .r14) (.reg .r12), -- 323: xor r14, r12
  .xor (.reg .rsi) (.reg .rbp), -- 324: xor rsi, rbp
  .mov (.reg .rax) (.mem ⟨some .r8, some (.r9, 8#64), 0#64⟩), -- 325: mov rax, [r8+ 8 * r9]
  .xor (.reg .rax) (.reg .r12), -- 326: xor rax, r12
  .neg (.reg .r10), -- 327: neg r10
  .adc (.reg .rax) (.imm 0#64), -- 328: adc rax, 0
  .sbb (.reg .r10) (.reg .r10), -- 329: sbb r10, r10
  .mov (.mem ⟨some .r8, some (.r9, 8#64), 0#64⟩) (.reg .rax), -- 330: mov [r8+ 8 * r9], rax
  .mov (.reg .rax) (.mem ⟨some .r15, some (.r9, 8#64), 0#64⟩), -- 331: mov rax, [r15+ 8 * r9]
  .xor (.reg .rax) (.reg .rbp), -- 332: xor rax, rbp
  .neg (.reg .r11), -- 333: neg r11
  .adc (.reg .rax) (.imm 0#64), -- 334: adc rax, 0
  .sbb (.reg .r11) (.reg .r11), -- 335: sbb r11, r11
  .mov (.mem ⟨some .r15, some (.r9, 8#64), 0#64⟩) (.reg .rax), -- 336: mov [r15+ 8 * r9], rax
  .inc (.reg .r9), -- 337: inc r9
  .cmp (.reg .r9) (.reg .r13), -- 338: cmp r9, r13
  .jcc .cy 325, -- 339: jc @19b
  .sub (.reg .r14) (.reg .r10), -- 340: sub r14, r10
  .sub (.reg .rsi) (.reg .r11), -- 341: sub rsi, r11
  .mov (.reg .r9) (.reg .r13), -- 342: mov r9, r13
  .mov (.reg .rax) (.mem ⟨some .r8, some (.r9, 8#64), 0xfffffffffffffff8#64⟩), -- 343: mov rax, [r8+ 8 * r9-8]
  .mov (.reg .r10) (.reg .rax), -- 344: mov r10, rax
  .shrd (.reg .rax) .r14 (.imm 58#64), -- 345: shrd rax, r14, 58
  .mov (.mem ⟨some .r8, some (.r9, 8#64), 0xfffffffffffffff8#64⟩) (.reg .rax), -- 346: mov [r8+ 8 * r9-8], rax
  .mov (.reg .r14) (.reg .r10), -- 347: mov r14, r10
  .mov (.reg .rax) (.mem ⟨some .r15, some (.r9, 8#64), 0xfffffffffffffff8#64⟩), -- 348: mov rax, [r15+ 8 * r9-8]
  .mov (.reg .r11) (.reg .rax), -- 349: mov r11, rax
  .shrd (.reg .rax) .rsi (.imm 58#64), -- 350: shrd rax, rsi, 58
  .mov (.mem ⟨some .r15, some (.r9, 8#64), 0xfffffffffffffff8#64⟩) (.reg .rax), -- 351: mov [r15+ 8 * r9-8], rax
  .mov (.reg .rsi) (.reg .r11), -- 352: mov rsi, r11
  .dec (.reg .r9), -- 353: dec r9
  .jcc .nz 343, -- 354: jnz @20b
  .not (.reg .rbp), -- 355: not rbp
  .mov (.reg .rcx) (.mem ⟨some .rsp, none, 72#64⟩), -- 356: mov rcx, QWORD PTR [rsp + 72]
  .mov (.reg .r8) (.mem ⟨some .rsp, none, 56#64⟩), -- 357: mov r8, QWORD PTR [rsp + 56]
  .mov (.reg .r15) (.mem ⟨some .rsp, none, 64#64⟩), -- 358: mov r15, QWORD PTR [rsp + 64]
  .mov (.reg .r10) (.reg .r12), -- 359: mov r10, r12
  .mov (.reg .r11) (.reg .rbp), -- 360: mov r11, rbp
  .xor (.reg .r9) (.reg .r9), -- 361: xor r9, r9
  .mov (.reg .rdx) (.reg .rbp), -- 362: mov rdx, rbp
  .mov (.reg .rax) (.mem ⟨some .rcx, some (.r9, 8#64), 0#64⟩), -- 363: mov rax, [rcx+ 8 * r9]
  .and (.reg .rdx) (.reg .rax), -- 364: and rdx, rax
  .and (.reg .rax) (.reg .r12), -- 365: and rax, r12
  .mov (.reg .rbx) (.mem ⟨some .r8, some (.r9, 8#64), 0#64⟩), -- 366: mov rbx, [r8+ 8 * r9]
  .xor (.reg .rbx) (.reg .r12), -- 367: xor rbx, r12
  .neg (.reg .r10), -- 368: neg r10
  .adc (.reg .rax) (.reg .rbx), -- 369: adc rax, rbx
  .sbb (.reg .r10) (.reg .r10), -- 370: sbb r10, r10
  .mov (.mem ⟨some .r8, some (.r9, 8#64), 0#64⟩) (.reg .rax), -- 371: mov [r8+ 8 * r9], rax
  .mov (.reg .rbx) (.mem ⟨some .r15, some (.r9, 8#64), 0#64⟩), -- 372: mov rbx, [r15+ 8 * r9]
  .xor (.reg .rbx) (.reg .rbp), -- 373: xor rbx, rbp
  .neg (.reg .r11), -- 374: neg r11
  .adc (.reg .rdx) (.reg .rbx), -- 375: adc rdx, rbx
  .sbb (.reg .r11) (.reg .r11), -- 376: sbb r11, r11
  .mov (.mem ⟨some .r15, some (.r9, 8#64), 0#64⟩) (.reg .rdx), -- 377: mov [r15+ 8 * r9], rdx
  .inc (.reg .r9), -- 378: inc r9
  .cmp (.reg .r9) (.reg .rdi), -- 379: cmp r9, rdi
  .jcc .cy 362, -- 380: jc @21b
  .sub (.mem ⟨some .rsp, none, 32#64⟩) (.imm 58#64), -- 381: sub QWORD PTR [rsp + 32], 58
  .jcc .ab 58, -- 382: jnbe @4b
  .add (.reg .rsp) (.imm 80#64), -- 383: add rsp, 80
  .pop .r15, -- 384: pop r15
  .pop .r14, -- 385: pop r14
  .pop .r13, -- 386: pop r13
  .pop .r12, -- 387: pop r12
  .pop .rbx, -- 388: pop rbx
  .pop .rbp] -- 389: pop rbp

/-- The registers that the operands of bignum_modinv.rs:273-880 say may change. -/
def bignumModinvRegs : List Reg := [.rdi, .rsi, .rdx, .rcx, .r8, .r10, .r11, .r12, .r13, .r14, .r15, .r9, .rax]

/-- low/x86_64/bignum_coprime.rs:271-688.  Operands: inout("rdi") x.len() => _; inout("rsi") x.as_ptr() => _; inout("rdx") y.len() => _; inout("rcx") y.as_ptr() => _; inout("r8") t.as_mut_ptr() => _; out("rax") ret; out("r10") _; out("r11") _; out("r12") _; out("r13") _; out("r14") _; out("r15") _; out("r9") _. -/
def bignumCoprime : Prog := [
  .nop, -- 0: endbr64
  .push .rbp, -- 1: push rbp
  .push .rbx, -- 2: push rbx
  .push .r12, -- 3: push r12
  .push .r13, -- 4: push r13
  .push .r14, -- 5: push r14
  .push .r15, -- 6: push r15
  .sub (.reg .rsp) (.imm 48#64), -- 7: sub rsp, 48
  .mov (.reg .rax) (.reg .rdi), -- 8: mov rax, rdi
  .cmp (.reg .rax) (.reg .rdx), -- 9: cmp rax, rdx
  .cmov .cy .rax (.reg .rdx), -- 10: cmovc rax, rdx
  .mov (.reg .r14) (.reg .rax), -- 11: mov r14, rax
  .test (.reg .rax) (.reg .rax), -- 12: test rax, rax
  .jcc .zr 235, -- 13: jz @2f
  .lea .r15 ⟨some .r8, some (.r14, 8#64), 0#64⟩, -- 14: lea r15, [r8+ 8 * r14]
  .xor (.reg .r9) (.reg .r9), -- 15: xor r9, r9
  .test (.reg .rdi) (.reg .rdi), -- 16: test rdi, rdi
  .jcc .zr 25, -- 17: jz @3f
  .mov (.reg .rax) (.mem ⟨some .rsi, some (.r9, 8#64), 0#64⟩), -- 18: mov rax, [rsi+ 8 * r9]
  .mov (.mem ⟨some .r8, some (.r9, 8#64), 0#64⟩) (.reg .rax), -- 19: mov [r8+ 8 * r9], rax
  .inc (.reg .r9), -- 20: inc r9
  .cmp (.reg .r9) (.reg .rdi), -- 21: cmp r9, rdi
  .jcc .cy 18, -- 22: jc @4b
  .cmp (.reg .r9) (.reg .r14), -- 23: cmp r9, r14
  .jcc .nc 29, -- 24: jnc @5f
  .mov (.mem ⟨some .r8, some (.r9, 8#64), 0#64⟩) (.imm 0#64), -- 25: mov QWORD PTR [r8+ 8 * r9], 0
  .inc (.reg .r9), -- 26: inc r9
  .cmp (.reg .r9) (.reg .r14), -- 27: cmp r9, r14
  .jcc .cy 25, -- 28: jc @3b
  .xor (.reg .r9) (.reg .r9), -- 29: xor r9, r9
  .test (.reg .rdx) (.reg .rdx), -- 30: test rdx, rdx
  .jcc .zr 39, -- 31: jz @6f
  .mov (.reg .rax) (.mem ⟨some .rcx, some (.r9, 8#64), 0#64⟩), -- 32: mov rax, [rcx+ 8 * r9]
  .mov (.mem ⟨some .r15, some (.r9, 8#64), 0#64⟩) (.reg .rax), -- 33: mov [r15+ 8 * r9], rax
  .inc (.reg .r9), -- 34: inc r9
  .cmp (.reg .r9) (.reg .rdx), -- 35: cmp r9, rdx
  .jcc .cy 32, -- 36: jc @7b
  .cmp (.reg .r9) (.reg .r14), -- 37: cmp r9, r14
  .jcc .nc 43, -- 38: jnc @8f
  .mov (.mem ⟨some .r15, some (.r9, 8#64), 0#64⟩) (.imm 0#64), -- 39: mov QWORD PTR [r15+ 8 * r9], 0
  .inc (.reg .r9), -- 40: inc r9
  .cmp (.reg .r9) (.reg .r14), -- 41: cmp r9, r14
  .jcc .cy 39, -- 42: jc @6b
  .lea .rax ⟨some .rdi, some (.rdx, 1#64), 0#64⟩, -- 43: lea rax, [rdi+ rdx]
  .shl (.reg .rax) (.imm 6#64), -- 44: shl rax, 6
  .mov (.mem ⟨some .rsp, none, 32#64⟩) (.reg .rax), -- 45: mov QWORD PTR [rsp + 32], rax
  .mov (.reg .rax) (.mem ⟨some .r8, none, 0#64⟩), -- 46: mov rax, [r8]
  .mov (.reg .rbx) (.mem ⟨some .r15, none, 0#64⟩), -- 47: mov rbx, [r15]
  .or (.reg .rax) (.reg .rbx), -- 48: or rax, rbx
  .mov (.mem ⟨some .rsp, none, 40#64⟩) (.reg .rax), -- 49: mov QWORD PTR [rsp + 40], rax
  .and (.reg .rbx) (.imm 1#64), -- 50: and rbx, 1
  .sub (.reg .rbx) (.imm 1#64), -- 51: sub rbx, 1
  .xor (.reg .r9) (.reg .r9), -- 52: xor r9, r9
  .mov (.reg .rax) (.mem ⟨some .r8, some (.r9, 8#64), 0#64⟩), -- 53: mov rax, [r8+ 8 * r9]
  .mov (.reg .rcx) (.mem ⟨some .r15, some (.r9, 8#64), 0#64⟩), -- 54: mov rcx, [r15+ 8 * r9]
  .mov (.reg .rdx) (.reg .rax), -- 55: mov rdx, rax
  .xor (.reg .rdx) (.reg .rcx), -- 56: xor rdx, rcx
  .and (.reg .rdx) (.reg .rbx), -- 57: and rdx, rbx
  .xor (.reg .rax) (.reg .rdx), -- 58: xor rax, rdx
  .xor (.reg .rcx) (.reg .rdx), -- 59: xor rcx, rdx
  .mov (.mem ⟨some .r8, some (.r9, 8#64), 0#64⟩) (.reg .rax), -- 60: mov [r8+ 8 * r9], rax
  .mov (.mem ⟨some .r15, some (.r9, 8#64), 0#64⟩) (.reg .rcx), -- 61: mov [r15+ 8 * r9], rcx
  .inc (.reg .r9), -- 62: inc r9
  .cmp (.reg .r9) (.reg .r14), -- 63: cmp r9, r14
  .jcc .nz 53, -- 64: jnz @9b
  .mov (.reg .r13) (.mem ⟨some .rsp, none, 32#64⟩), -- 65: mov r13, QWORD PTR [rsp + 32]
  .add (.reg .r13) (.imm 63#64), -- 66: add r13, 63
  .shr (.reg .r13) (.imm 6#64), -- 67: shr r13, 6
  .cmp (.reg .r13) (.reg .r14), -- 68: cmp r13, r14
  .cmov .nc .r13 (.reg .r14), -- 69: cmovnc r13, r14
  .xor (.reg .r12) (.reg .r12), -- 70: xor r12, r12
  .xor (.reg .rdi) (.reg .rdi), -- 71: xor rdi, rdi
  .xor (.reg .rbp) (.reg .rbp), -- 72: xor rbp, rbp
  .xor (.reg .rsi) (.reg .rsi), -- 73: xor rsi, rsi
  .xor (.reg .r11) (.reg .r11), -- 74: xor r11, r11
  .xor (.reg .r9) (.reg .r9), -- 75: xor r9, r9
  .mov (.reg .rbx) (.mem ⟨some .r8, some (.r9, 8#64), 0#64⟩), -- 76: mov rbx, [r8+ 8 * r9]
  .mov (.reg .rcx) (.mem ⟨some .r15, some (.r9, 8#64), 0#64⟩), -- 77: mov rcx, [r15+ 8 * r9]
  .mov (.reg .r10) (.reg .r11), -- 78: mov r10, r11
  .and (.reg .r10) (.reg .r12), -- 79: and r10, r12
  .and (.reg .r11) (.reg .rbp), -- 80: and r11, rbp
  .mov (.reg .rax) (.reg .rbx), -- 81: mov rax, rbx
  .or (.reg .rax) (.reg .rcx), -- 82: or rax, rcx
  .neg (.reg .rax), -- 83: neg rax
  .cmov .cy .rdi (.reg .r10), -- 84: cmovc rdi, r10
  .cmov .cy .rsi (.reg .r11), -- 85: cmovc rsi, r11
  .cmov .cy .r12 (.reg .rbx), -- 86: cmovc r12, rbx
  .cmov .cy .rbp (.reg .rcx), -- 87: cmovc rbp, rcx
  .sbb (.reg .r11) (.reg .r11), -- 88: sbb r11, r11
  .inc (.reg .r9), -- 89: inc r9
  .cmp (.reg .r9) (.reg .r13), -- 90: cmp r9, r13
  .jcc .cy 76, -- 91: jc @13b
  .mov (.reg .rax) (.reg .r12), -- 92: mov rax, r12
  .or (.reg .rax) (.reg .rbp), -- 93: or rax, rbp
  .bsr .rcx (.reg .rax), -- 94: bsr rcx, rax
  .xor (.reg .rcx) (.imm 63#64), -- 95: xor rcx, 63
  .shld (.reg .r12) .rdi (.reg .rcx), -- 96: shld r12, rdi, cl
  .shld (.reg .rbp) .rsi (.reg .rcx), -- 97: shld rbp, rsi, cl
  .mov (.reg .rax) (.mem ⟨some .r8, none, 0#64⟩), -- 98: mov rax, [r8]
  .mov (.reg .rdi) (.reg .rax), -- 99: mov rdi, rax
  .mov (.reg .rax) (.mem ⟨some .r15, none, 0#64⟩), -- 100: mov rax, [r15]
  .mov (.reg .rsi) (.reg .rax), -- 101: mov rsi, rax
  .mov (.reg .r10) (.imm 1#64), -- 102: mov r10d, 1
  .mov (.reg .r11) (.imm 0#64), -- 103: mov r11d, 0
  .mov (.reg .rcx) (.imm 0#64), -- 104: mov ecx, 0
  .mov (.reg .rdx) (.imm 1#64), -- 105: mov edx, 1
  .mov (.reg .r9) (.imm 58#64), -- 106: mov r9d, 58
  .mov (.mem ⟨some .rsp, none, 8#64⟩) (.reg .r14), -- 107: mov QWORD PTR [rsp + 8], r14
  .mov (.mem ⟨some .rsp, none, 16#64⟩) (.reg .r13), -- 108: mov QWORD PTR [rsp + 16], r13
  .mov (.mem ⟨some .rsp, none, 0#64⟩) (.reg .r8), -- 109: mov QWORD PTR [rsp], r8
  .mov (.mem ⟨some .rsp, none, 24#64⟩) (.reg .r15), -- 110: mov QWORD PTR [rsp + 24], r15
  .xor (.reg .rax) (.reg .rax), -- 111: xor eax, eax
  .xor (.reg .rbx) (.reg .rbx), -- 112: xor ebx, ebx
  .xor (.reg .r8) (.reg .r8), -- 113: xor r8, r8
  .xor (.reg .r15) (.reg .r15), -- 114: xor r15, r15
  .bt (.reg .rdi) 0#64, -- 115: bt rdi, 0
  .cmov .cy .rax (.reg .rbp), -- 116: cmovc rax, rbp
  .cmov .cy .rbx (.reg .rsi), -- 117: cmovc rbx, rsi
  .cmov .cy .r8 (.reg .rcx), -- 118: cmovc r8, rcx
  .cmov .cy .r15 (.reg .rdx), -- 119: cmovc r15, rdx
  .mov (.reg .r13) (.reg .rdi), -- 120: mov r13, rdi
  .sub (.reg .rdi) (.reg .rbx), -- 121: sub rdi, rbx
  .sub (.reg .rbx) (.reg .r13), -- 122: sub rbx, r13
  .mov (.reg .r14) (.reg .r12), -- 123: mov r14, r12
  .sub (.reg .r14) (.reg .rax), -- 124: sub r14, rax
  .cmov .cy .rbp (.reg .r12), -- 125: cmovc rbp, r12
  .lea .r12 ⟨some .r14, none, 0xffffffffffffffff#64⟩, -- 126: lea r12, [r14-1]
  .cmov .cy .rdi (.reg .rbx), -- 127: cmovc rdi, rbx
  .cmov .cy .rsi (.reg .r13), -- 128: cmovc rsi, r13
  .not (.reg .r12), -- 129: not r12
  .cmov .cy .rcx (.reg .r10), -- 130: cmovc rcx, r10
  .cmov .cy .rdx (.reg .r11), -- 131: cmovc rdx, r11
  .cmov .nc .r12 (.reg .r14), -- 132: cmovnc r12, r14
  .shr (.reg .rdi) (.imm 1#64), -- 133: shr rdi, 1
  .add (.reg .r10) (.reg .r8), -- 134: add r10, r8
  .add (.reg .r11) (.reg .r15), -- 135: add r11, r15
  .shr (.reg .r12) (.imm 1#64), -- 136: shr r12, 1
  .add (.reg .rcx) (.reg .rcx), -- 137: add rcx, rcx
  .add (.reg .rdx) (.reg .rdx), -- 138: add rdx, rdx
  .dec (.reg .r9), -- 139: dec r9
  .jcc .nz 111, -- 140: jnz @14b
  .mov (.reg .r14) (.mem ⟨some .rsp, none, 8#64⟩), -- 141: mov r14, QWORD PTR [rsp + 8]
  .mov (.reg .r13) (.mem ⟨some .rsp, none, 16#64⟩), -- 142: mov r13, QWORD PTR [rsp + 16]
  .mov (.reg .r8) (.mem ⟨some .rsp, none, 0#64⟩), -- 143: mov r8, QWORD PTR [rsp]
  .mov (.reg .r15) (.mem ⟨some .rsp, none, 24#64⟩), -- 144: mov r15, QWORD PTR [rsp + 24]
  .mov (.mem ⟨some .rsp, none, 0#64⟩) (.reg .r10), -- 145: mov QWORD PTR [rsp], r10
  .mov (.mem ⟨some .rsp, none, 8#64⟩) (.reg .r11), -- 146: mov QWORD PTR [rsp + 8], r11
  .mov (.mem ⟨some .rsp, none, 16#64⟩) (.reg .rcx), -- 147: mov QWORD PTR [rsp + 16], rcx
  .mov (.mem ⟨some .rsp, none, 24#64⟩) (.reg .rdx), -- 148: mov QWORD PTR [rsp + 24], rdx
  .xor (.reg .r9) (.reg .r9), -- 149: xor r9, r9
  .xor (.reg .r12) (.reg .r12), -- 150: xor r12, r12
  .xor (.reg .rdi) (.reg .rdi), -- 151: xor rdi, rdi
  .xor (.reg .rbp) (.reg .rbp), -- 152: xor rbp, rbp
  .xor (.reg .rsi) (.reg .rsi), -- 153: xor rsi, rsi
  .mov (.reg .rcx) (.mem ⟨some .r8, some (.r9, 8#64), 0#64⟩), -- 154: mov rcx, [r8+ 8 * r9]
  .mov (.reg .rax) (.mem ⟨some .rsp, none, 0#64⟩), -- 155: mov rax, QWORD PTR [rsp]
  .mul (.reg .rcx), -- 156: mul rcx
  .add (.reg .rdi) (.reg .rax), -- 157: add rdi, rax
  .adc (.reg .rdx) (.imm 0#64), -- 158: adc rdx, 0
  .mov (.reg .r10) (.reg .rdx), -- 159: mov r10, rdx
  .mov (.reg .rax) (.mem ⟨some .rsp, none, 16#64⟩), -- 160: mov rax, QWORD PTR [rsp + 16]
  .mul (.reg .rcx), -- 161: mul rcx
  .add (.reg .rsi) (.reg .rax), -- 162: add rsi, rax
  .adc (.reg .rdx) (.imm 0#64), -- 163: adc rdx, 0
  .mov (.reg .r11) (.reg .rdx), -- 164: mov r11, rdx
  .mov (.reg .rcx) (.mem ⟨some .r15, some (.r9, 8#64), 0#64⟩), -- 165: mov rcx, [r15+ 8 * r9]
  .mov (.reg .rax) (.mem ⟨some .rsp, none, 8#64⟩), -- 166: mov rax, QWORD PTR [rsp + 8]
  .mul (.reg .rcx), -- 167: mul rcx
  .sub (.reg .rdx) (.reg .r12), -- 168: sub rdx, r12
  .sub (.reg .rdi) (.reg .rax), -- 169: sub rdi, rax
  .sbb (.reg .r10) (.reg .rdx), -- 170: sbb r10, rdx
  .sbb (.reg .r12) (.reg .r12), -- 171: sbb r12, r12
  .mov (.mem ⟨some .r8, some (.r9, 8#64), 0#64⟩) (.reg .rdi), -- 172: mov [r8+ 8 * r9], rdi
  .mov (.reg .rdi) (.reg .r10), -- 173: mov rdi, r10
  .mov (.reg .rax) (.mem ⟨some .rsp, none, 24#64⟩), -- 174: mov rax, QWORD PTR [rsp + 24]
  .mul (.reg .rcx), -- 175: mul rcx
  .sub (.reg .rdx) (.reg .rbp), -- 176: sub rdx, rbp
  .sub (.reg .rsi) (.reg .rax), -- 177: sub rsi, rax
  .sbb (.reg .r11) (.reg .rdx), -- 178: sbb r11, rdx
  .sbb (.reg .rbp) (.reg .rbp), -- 179: sbb rbp, rbp
  .mov (.mem ⟨some .r15, some (.r9, 8#64), 0#64⟩) (.reg .rsi), -- 180: mov [r15+ 8 * r9], rsi
  .mov (.reg .rsi) (.reg .r11), -- 181: mov rsi, r11
  .inc (.reg .r9), -- 182: inc r9
  .cmp (.reg .r9) (.reg .r13), -- 183: cmp r9, r13
  .jcc .cy 154, -- 184: jc @15b
  .xor (.reg .r9) (.reg .r9), -- 185: xor r9, r9
  .mov (.reg .r10) (.reg .r12), -- 186: mov r10, r12
  .mov (.reg .r11) (.reg .rbp), -- 187: mov r11, rbp
  .xor (.reg .rdi) (.reg .r12), -- 188: xor rdi, r12
  .xor (.reg .rsi) (.reg .rbp), -- 189: xor rsi, rbp
  .mov (.reg .rax) (.mem ⟨some .r8, some (.r9, 8#64), 0#64⟩), -- 190: mov rax, [r8+ 8 * r9]
  .xor (.reg .rax) (.reg .r12), -- 191: xor rax, r12
  .neg (.reg .r10), -- 192: neg r10
  .adc (.reg .rax) (.imm 0#64), -- 193: adc rax, 0
  .sbb (.reg .r10) (.reg .r10), -- 194: sbb r10, r10
  .mov (.mem ⟨some .r8, some (.r9, 8#64), 0#64⟩) (.reg .rax), -- 195: mov [r8+ 8 * r9], rax
  .mov (.reg .rax) (.mem ⟨some .r15, some (.r9, 8#64), 0#64⟩), -- 196: mov rax, [r15+ 8 * r9]
  .xor (.reg .rax) (.reg .rbp), -- 197: xor rax, rbp
  .neg (.reg .r11), -- 198: neg r11
  .adc (.reg .rax) (.imm 0#64), -- 199: adc rax, 0
  .sbb (.reg .r11) (.reg .r11), -- 200: sbb r11, r11
  .mov (.mem ⟨some .r15, some (.r9, 8#64), 0#64⟩) (.reg .rax), -- 201: mov [r15+ 8 * r9], rax
  .inc (.reg .r9), -- 202: inc r9
  .cmp (.reg .r9) (.reg .r13), -- 203: cmp r9, r13
  .jcc .cy 190, -- 204: jc @16b
  .sub (.reg .rdi) (.reg .r10), -- 205: sub rdi, r10
  .sub (.reg .rsi) (.reg .r11), -- 206: sub rsi, r11
  .mov (.reg .r9) (.reg .r13), -- 207: mov r9, r13
  .mov (.reg .rax) (.mem ⟨some .r8, some (.r9, 8#64), 0xfffffffffffffff8#64⟩), -- 208: mov rax, [r8+ 8 * r9-8]
  .mov (.reg .r12) (.reg .rax), -- 209: mov r12, rax
  .shrd (.reg .rax) .rdi (.imm 58#64), -- 210: shrd rax, rdi, 58
  .mov (.mem ⟨some .r8, some (.r9, 8#64), 0xfffffffffffffff8#64⟩) (.reg .rax), -- 211: mov [r8+ 8 * r9-8], rax
  .mov (.reg .rdi) (.reg .r12), -- 212: mov rdi, r12
  .mov (.reg .rax) (.mem ⟨some .r15, some (.r9, 8#64), 0xfffffffffffffff8#64⟩), -- 213: mov rax, [r15+ 8 * r9-8]
  .mov (.reg .rbp) (.reg .rax), -- 214: mov rbp, rax
  .shrd (.reg .rax) .rsi (.imm 58#64), -- 215: shrd rax, rsi, 58
  .mov (.mem ⟨some .r15, some (.r9, 8#64), 0xfffffffffffffff8#64⟩) (.reg .rax), -- 216: mov [r15+ 8 * r9-8], rax
  .mov (.reg .rsi) (.reg .rbp), -- 217: mov rsi, rbp
  .dec (.reg .r9), -- 218: dec r9
  .jcc .nz 208, -- 219: jnz @17b
  .sub (.mem ⟨some .rsp, none, 32#64⟩) (.imm 58#64), -- 220: sub QWORD PTR [rsp + 32], 58
  .jcc .ab 65, -- 221: jnbe @12b
  .mov (.reg .rax) (.mem ⟨some .r15, none, 0#64⟩), -- 222: mov rax, [r15]
  .xor (.reg .rax) (.imm 1#64), -- 223: xor rax, 1
  .cmp (.reg .r14) (.imm 1#64), -- 224: cmp r14, 1
  .jcc .zr 231, -- 225: jz @18f
  .mov (.reg .r9) (.imm 1#64), -- 226: mov r9d, 1
  .or (.reg .rax) (.mem ⟨some .r15, some (.r9, 8#64), 0#64⟩), -- 227: or rax, [r15+ 8 * r9]
  .inc (.reg .r9), -- 228: inc r9
  .cmp (.reg .r9) (.reg .r14), -- 229: cmp r9, r14
  .jcc .cy 227, -- 230: jc @19b
  .neg (.reg .rax), -- 231: neg rax
  .sbb (.reg .rax) (.reg .rax), -- 232: sbb rax, rax
  .inc (.reg .rax), -- 233: inc rax
  .and (.reg .rax) (.mem ⟨some .rsp, none, 40#64⟩), -- 234: and rax, QWORD PTR [rsp + 40]
  .add (.reg .rsp) (.imm 48#64), -- 235: add rsp, 48
  .pop .r15, -- 236: pop r15
  .pop .r14, -- 237: pop r14
  .pop .r13, -- 238: pop r13
  .pop .r12, -- 239: pop r12
  .pop .rbx, -- 240: pop rbx
  .pop .rbp] -- 241: pop rbp

/-- The registers that the operands of bignum_coprime.rs:271-688 say may change. -/
def bignumCoprimeRegs : List Reg := [.rdi, .rsi, .rdx, .rcx, .r8, .rax, .r10, .r11, .r12, .r13, .r14, .r15, .r9]

end Verif.X86.Asm
