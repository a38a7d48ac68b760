import Verif.Model.X86Vec

/-!
Generated by tools/gen_asm.py from `graviola/src/low/x86_64`: the `asm!` blocks as lists of instructions.
The comment at the end of a line gives its position; jump targets are positions.
-/
namespace Verif.X86.Asm
open Verif.X86

/-- low/x86_64/mlkem_ntt.rs:37-648.  Operands: inout("rdi") a.as_mut_ptr() => _; inout("rsi") qdata.as_ptr() => _; out("rax") _; out("zmm0") _; out("zmm10") _; out("zmm11") _; out("zmm12") _; out("zmm13") _; out("zmm14") _; out("zmm15") _; out("zmm2") _; out("zmm3") _; out("zmm4") _; out("zmm5") _; out("zmm6") _; out("zmm7") _; out("zmm8") _; out("zmm9") _. -/
def mlkemNtt : VProg := [
  .sc (.nop), -- 0: endbr64
  .sc (.mov (.reg .rax) (.imm 0xd010d01#64)), -- 1: mov eax, 0xd010d01
  .vmovd 0 .rax, -- 2: vmovd xmm0, eax
  .pbroadcastd 0 0, -- 3: vpbroadcastd ymm0, xmm0
  .pbroadcastq 15 ⟨some .rsi, none, 64#64⟩, -- 4: vpbroadcastq ymm15, [64 + rsi]
  .movA 8 (.m ⟨some .rdi, none, 256#64⟩), -- 5: vmovdqa ymm8, [256 + rdi]
  .movA 9 (.m ⟨some .rdi, none, 288#64⟩), -- 6: vmovdqa ymm9, [288 + rdi]
  .movA 10 (.m ⟨some .rdi, none, 320#64⟩), -- 7: vmovdqa ymm10, [320 + rdi]
  .movA 11 (.m ⟨some .rdi, none, 352#64⟩), -- 8: vmovdqa ymm11, [352 + rdi]
  .pbroadcastq 2 ⟨some .rsi, none, 72#64⟩, -- 9: vpbroadcastq ymm2, [72 + rsi]
  .pmullw 12 8 (.y 15), -- 10: vpmullw ymm12, ymm8, ymm15
  .pmullw 13 9 (.y 15), -- 11: vpmullw ymm13, ymm9, ymm15
  .pmullw 14 10 (.y 15), -- 12: vpmullw ymm14, ymm10, ymm15
  .pmullw 15 11 (.y 15), -- 13: vpmullw ymm15, ymm11, ymm15
  .pmulhw 8 8 (.y 2), -- 14: vpmulhw ymm8, ymm8, ymm2
  .pmulhw 9 9 (.y 2), -- 15: vpmulhw ymm9, ymm9, ymm2
  .pmulhw 10 10 (.y 2), -- 16: vpmulhw ymm10, ymm10, ymm2
  .pmulhw 11 11 (.y 2), -- 17: vpmulhw ymm11, ymm11, ymm2
  .movA 4 (.m ⟨some .rdi, none, 0#64⟩), -- 18: vmovdqa ymm4, [rdi]
  .movA 5 (.m ⟨some .rdi, none, 32#64⟩), -- 19: vmovdqa ymm5, [32 + rdi]
  .movA 6 (.m ⟨some .rdi, none, 64#64⟩), -- 20: vmovdqa ymm6, [64 + rdi]
  .movA 7 (.m ⟨some .rdi, none, 96#64⟩), -- 21: vmovdqa ymm7, [96 + rdi]
  .pmulhw 12 12 (.y 0), -- 22: vpmulhw ymm12, ymm12, ymm0
  .pmulhw 13 13 (.y 0), -- 23: vpmulhw ymm13, ymm13, ymm0
  .pmulhw 14 14 (.y 0), -- 24: vpmulhw ymm14, ymm14, ymm0
  .pmulhw 15 15 (.y 0), -- 25: vpmulhw ymm15, ymm15, ymm0
  .paddw 3 4 (.y 8), -- 26: vpaddw ymm3, ymm4, ymm8
  .psubw 8 4 (.y 8), -- 27: vpsubw ymm8, ymm4, ymm8
  .paddw 4 5 (.y 9), -- 28: vpaddw ymm4, ymm5, ymm9
  .psubw 9 5 (.y 9), -- 29: vpsubw ymm9, ymm5, ymm9
  .paddw 5 6 (.y 10), -- 30: vpaddw ymm5, ymm6, ymm10
  .psubw 10 6 (.y 10), -- 31: vpsubw ymm10, ymm6, ymm10
  .paddw 6 7 (.y 11), -- 32: vpaddw ymm6, ymm7, ymm11
  .psubw 11 7 (.y 11), -- 33: vpsubw ymm11, ymm7, ymm11
  .psubw 3 3 (.y 12), -- 34: vpsubw ymm3, ymm3, ymm12
  .paddw 8 8 (.y 12), -- 35: vpaddw ymm8, ymm8, ymm12
  .psubw 4 4 (.y 13), -- 36: vpsubw ymm4, ymm4, ymm13
  .paddw 9 9 (.y 13), -- 37: vpaddw ymm9, ymm9, ymm13
  .psubw 5 5 (.y 14), -- 38: vpsubw ymm5, ymm5, ymm14
  .paddw 10 10 (.y 14), -- 39: vpaddw ymm10, ymm10, ymm14
  .psubw 6 6 (.y 15), -- 40: vpsubw ymm6, ymm6, ymm15
  .paddw 11 11 (.y 15), -- 41: vpaddw ymm11, ymm11, ymm15
  .stA ⟨some .rdi, none, 0#64⟩ 3, -- 42: vmovdqa [rdi], ymm3
  .stA ⟨some .rdi, none, 32#64⟩ 4, -- 43: vmovdqa [32 + rdi], ymm4
  .stA ⟨some .rdi, none, 64#64⟩ 5, -- 44: vmovdqa [64 + rdi], ymm5
  .stA ⟨some .rdi, none, 96#64⟩ 6, -- 45: vmovdqa [96 + rdi], ymm6
  .stA ⟨some .rdi, none, 256#64⟩ 8, -- 46: vmovdqa [256 + rdi], ymm8
  .stA ⟨some .rdi, none, 288#64⟩ 9, -- 47: vmovdqa [288 + rdi], ymm9
  .stA ⟨some .rdi, none, 320#64⟩ 10, -- 48: vmovdqa [320 + rdi], ymm10
  .stA ⟨some .rdi, none, 352#64⟩ 11, -- 49: vmovdqa [352 + rdi], ymm11
  .pbroadcastq 15 ⟨some .rsi, none, 64#64⟩, -- 50: vpbroadcastq ymm15, [64 + rsi]
  .movA 8 (.m ⟨some .rdi, none, 384#64⟩), -- 51: vmovdqa ymm8, [384 + rdi]
  .movA 9 (.m ⟨some .rdi, none, 416#64⟩), -- 52: vmovdqa ymm9, [416 + rdi]
  .movA 10 (.m ⟨some .rdi, none, 448#64⟩), -- 53: vmovdqa ymm10, [448 + rdi]
  .movA 11 (.m ⟨some .rdi, none, 480#64⟩), -- 54: vmovdqa ymm11, [480 + rdi]
  .pbroadcastq 2 ⟨some .rsi, none, 72#64⟩, -- 55: vpbroadcastq ymm2, [72 + rsi]
  .pmullw 12 8 (.y 15), -- 56: vpmullw ymm12, ymm8, ymm15
  .pmullw 13 9 (.y 15), -- 57: vpmullw ymm13, ymm9, ymm15
  .pmullw 14 10 (.y 15), -- 58: vpmullw ymm14, ymm10, ymm15
  .pmullw 15 11 (.y 15), -- 59: vpmullw ymm15, ymm11, ymm15
  .pmulhw 8 8 (.y 2), -- 60: vpmulhw ymm8, ymm8, ymm2
  .pmulhw 9 9 (.y 2), -- 61: vpmulhw ymm9, ymm9, ymm2
  .pmulhw 10 10 (.y 2), -- 62: vpmulhw ymm10, ymm10, ymm2
  .pmulhw 11 11 (.y 2), -- 63: vpmulhw ymm11, ymm11, ymm2
  .movA 4 (.m ⟨some .rdi, none, 128#64⟩), -- 64: vmovdqa ymm4, [128 + rdi]
  .movA 5 (.m ⟨some .rdi, none, 160#64⟩), -- 65: vmovdqa ymm5, [160 + rdi]
  .movA 6 (.m ⟨some .rdi, none, 192#64⟩), -- 66: vmovdqa ymm6, [192 + rdi]
  .movA 7 (.m ⟨some .rdi, none, 224#64⟩), -- 67: vmovdqa ymm7, [224 + rdi]
  .pmulhw 12 12 (.y 0), -- 68: vpmulhw ymm12, ymm12, ymm0
  .pmulhw 13 13 (.y 0), -- 69: vpmulhw ymm13, ymm13, ymm0
  .pmulhw 14 14 (.y 0), -- 70: vpmulhw ymm14, ymm14, ymm0
  .pmulhw 15 15 (.y 0), -- 71: vpmulhw ymm15, ymm15, ymm0
  .paddw 3 4 (.y 8), -- 72: vpaddw ymm3, ymm4, ymm8
  .psubw 8 4 (.y 8), -- 73: vpsubw ymm8, ymm4, ymm8
  .paddw 4 5 (.y 9), -- 74: vpaddw ymm4, ymm5, ymm9
  .psubw 9 5 (.y 9), -- 75: vpsubw ymm9, ymm5, ymm9
  .paddw 5 6 (.y 10), -- 76: vpaddw ymm5, ymm6, ymm10
  .psubw 10 6 (.y 10), -- 77: vpsubw ymm10, ymm6, ymm10
  .paddw 6 7 (.y 11), -- 78: vpaddw ymm6, ymm7, ymm11
  .psubw 11 7 (.y 11), -- 79: vpsubw ymm11, ymm7, ymm11
  .psubw 3 3 (.y 12), -- 80: vpsubw ymm3, ymm3, ymm12
  .paddw 8 8 (.y 12), -- 81: vpaddw ymm8, ymm8, ymm12
  .psubw 4 4 (.y 13), -- 82: vpsubw ymm4, ymm4, ymm13
  .paddw 9 9 (.y 13), -- 83: vpaddw ymm9, ymm9, ymm13
  .psubw 5 5 (.y 14), -- 84: vpsubw ymm5, ymm5, ymm14
  .paddw 10 10 (.y 14), -- 85: vpaddw ymm10, ymm10, ymm14
  .psubw 6 6 (.y 15), -- 86: vpsubw ymm6, ymm6, ymm15
  .paddw 11 11 (.y 15), -- 87: vpaddw ymm11, ymm11, ymm15
  .stA ⟨some .rdi, none, 128#64⟩ 3, -- 88: vmovdqa [128 + rdi], ymm3
  .stA ⟨some .rdi, none, 160#64⟩ 4, -- 89: vmovdqa [160 + rdi], ymm4
  .stA ⟨some .rdi, none, 192#64⟩ 5, -- 90: vmovdqa [192 + rdi], ymm5
  .stA ⟨some .rdi, none, 224#64⟩ 6, -- 91: vmovdqa [224 + rdi], ymm6
  .stA ⟨some .rdi, none, 384#64⟩ 8, -- 92: vmovdqa [384 + rdi], ymm8
  .stA ⟨some .rdi, none, 416#64⟩ 9, -- 93: vmovdqa [416 + rdi], ymm9
  .stA ⟨some .rdi, none, 448#64⟩ 10, -- 94: vmovdqa [448 + rdi], ymm10
  .stA ⟨some .rdi, none, 480#64⟩ 11, -- 95: vmovdqa [480 + rdi], ymm11
  .movA 15 (.m ⟨some .rsi, none, 96#64⟩), -- 96: vmovdqa ymm15, [96 + rsi]
  .movA 8 (.m ⟨some .rdi, none, 128#64⟩), -- 97: vmovdqa ymm8, [128 + rdi]
  .movA 9 (.m ⟨some .rdi, none, 160#64⟩), -- 98: vmovdqa ymm9, [160 + rdi]
  .movA 10 (.m ⟨some .rdi, none, 192#64⟩), -- 99: vmovdqa ymm10, [192 + rdi]
  .movA 11 (.m ⟨some .rdi, none, 224#64⟩), -- 100: vmovdqa ymm11, [224 + rdi]
  .movA 2 (.m ⟨some .rsi, none, 128#64⟩), -- 101: vmovdqa ymm2, [128 + rsi]
  .pmullw 12 8 (.y 15), -- 102: vpmullw ymm12, ymm8, ymm15
  .pmullw 13 9 (.y 15), -- 103: vpmullw ymm13, ymm9, ymm15
  .pmullw 14 10 (.y 15), -- 104: vpmullw ymm14, ymm10, ymm15
  .pmullw 15 11 (.y 15), -- 105: vpmullw ymm15, ymm11, ymm15
  .pmulhw 8 8 (.y 2), -- 106: vpmulhw ymm8, ymm8, ymm2
  .pmulhw 9 9 (.y 2), -- 107: vpmulhw ymm9, ymm9, ymm2
  .pmulhw 10 10 (.y 2), -- 108: vpmulhw ymm10, ymm10, ymm2
  .pmulhw 11 11 (.y 2), -- 109: vpmulhw ymm11, ymm11, ymm2
  .movA 4 (.m ⟨some .rdi, none, 0#64⟩), -- 110: vmovdqa ymm4, [rdi]
  .movA 5 (.m ⟨some .rdi, none, 32#64⟩), -- 111: vmovdqa ymm5, [32 + rdi]
  .movA 6 (.m ⟨some .rdi, none, 64#64⟩), -- 112: vmovdqa ymm6, [64 + rdi]
  .movA 7 (.m ⟨some .rdi, none, 96#64⟩), -- 113: vmovdqa ymm7, [96 + rdi]
  .pmulhw 12 12 (.y 0), -- 114: vpmulhw ymm12, ymm12, ymm0
  .pmulhw 13 13 (.y 0), -- 115: vpmulhw ymm13, ymm13, ymm0
  .pmulhw 14 14 (.y 0), -- 116: vpmulhw ymm14, ymm14, ymm0
  .pmulhw 15 15 (.y 0), -- 117: vpmulhw ymm15, ymm15, ymm0
  .paddw 3 4 (.y 8), -- 118: vpaddw ymm3, ymm4, ymm8
  .psubw 8 4 (.y 8), -- 119: vpsubw ymm8, ymm4, ymm8
  .paddw 4 5 (.y 9), -- 120: vpaddw ymm4, ymm5, ymm9
  .psubw 9 5 (.y 9), -- 121: vpsubw ymm9, ymm5, ymm9
  .paddw 5 6 (.y 10), -- 122: vpaddw ymm5, ymm6, ymm10
  .psubw 10 6 (.y 10), -- 123: vpsubw ymm10, ymm6, ymm10
  .paddw 6 7 (.y 11), -- 124: vpaddw ymm6, ymm7, ymm11
  .psubw 11 7 (.y 11), -- 125: vpsubw ymm11, ymm7, ymm11
  .psubw 3 3 (.y 12), -- 126: vpsubw ymm3, ymm3, ymm12
  .paddw 8 8 (.y 12), -- 127: vpaddw ymm8, ymm8, ymm12
  .psubw 4 4 (.y 13), -- 128: vpsubw ymm4, ymm4, ymm13
  .paddw 9 9 (.y 13), -- 129: vpaddw ymm9, ymm9, ymm13
  .psubw 5 5 (.y 14), -- 130: vpsubw ymm5, ymm5, ymm14
  .paddw 10 10 (.y 14), -- 131: vpaddw ymm10, ymm10, ymm14
  .psubw 6 6 (.y 15), -- 132: vpsubw ymm6, ymm6, ymm15
  .paddw 11 11 (.y 15), -- 133: vpaddw ymm11, ymm11, ymm15
  .perm2i128 7 5 (.y 10) 32, -- 134: vperm2i128 ymm7, ymm5, ymm10, 0x20
  .perm2i128 10 5 (.y 10) 49, -- 135: vperm2i128 ymm10, ymm5, ymm10, 0x31
  .perm2i128 5 6 (.y 11) 32, -- 136: vperm2i128 ymm5, ymm6, ymm11, 0x20
  .perm2i128 11 6 (.y 11) 49, -- 137: vperm2i128 ymm11, ymm6, ymm11, 0x31
  .movA 15 (.m ⟨some .rsi, none, 160#64⟩), -- 138: vmovdqa ymm15, [160 + rsi]
  .movA 2 (.m ⟨some .rsi, none, 192#64⟩), -- 139: vmovdqa ymm2, [192 + rsi]
  .pmullw 12 7 (.y 15), -- 140: vpmullw ymm12, ymm7, ymm15
  .pmullw 13 10 (.y 15), -- 141: vpmullw ymm13, ymm10, ymm15
  .pmullw 14 5 (.y 15), -- 142: vpmullw ymm14, ymm5, ymm15
  .pmullw 15 11 (.y 15), -- 143: vpmullw ymm15, ymm11, ymm15
  .pmulhw 7 7 (.y 2), -- 144: vpmulhw ymm7, ymm7, ymm2
  .pmulhw 10 10 (.y 2), -- 145: vpmulhw ymm10, ymm10, ymm2
  .pmulhw 5 5 (.y 2), -- 146: vpmulhw ymm5, ymm5, ymm2
  .pmulhw 11 11 (.y 2), -- 147: vpmulhw ymm11, ymm11, ymm2
  .perm2i128 6 3 (.y 8) 32, -- 148: vperm2i128 ymm6, ymm3, ymm8, 0x20
  .perm2i128 8 3 (.y 8) 49, -- 149: vperm2i128 ymm8, ymm3, ymm8, 0x31
  .perm2i128 3 4 (.y 9) 32, -- 150: vperm2i128 ymm3, ymm4, ymm9, 0x20
  .perm2i128 9 4 (.y 9) 49, -- 151: vperm2i128 ymm9, ymm4, ymm9, 0x31
  .pmulhw 12 12 (.y 0), -- 152: vpmulhw ymm12, ymm12, ymm0
  .pmulhw 13 13 (.y 0), -- 153: vpmulhw ymm13, ymm13, ymm0
  .pmulhw 14 14 (.y 0), -- 154: vpmulhw ymm14, ymm14, ymm0
  .pmulhw 15 15 (.y 0), -- 155: vpmulhw ymm15, ymm15, ymm0
  .paddw 4 6 (.y 7), -- 156: vpaddw ymm4, ymm6, ymm7
  .psubw 7 6 (.y 7), -- 157: vpsubw ymm7, ymm6, ymm7
  .paddw 6 8 (.y 10), -- 158: vpaddw ymm6, ymm8, ymm10
  .psubw 10 8 (.y 10), -- 159: vpsubw ymm10, ymm8, ymm10
  .paddw 8 3 (.y 5), -- 160: vpaddw ymm8, ymm3, ymm5
  .psubw 5 3 (.y 5), -- 161: vpsubw ymm5, ymm3, ymm5
  .paddw 3 9 (.y 11), -- 162: vpaddw ymm3, ymm9, ymm11
  .psubw 11 9 (.y 11), -- 163: vpsubw ymm11, ymm9, ymm11
  .psubw 4 4 (.y 12), -- 164: vpsubw ymm4, ymm4, ymm12
  .paddw 7 7 (.y 12), -- 165: vpaddw ymm7, ymm7, ymm12
  .psubw 6 6 (.y 13), -- 166: vpsubw ymm6, ymm6, ymm13
  .paddw 10 10 (.y 13), -- 167: vpaddw ymm10, ymm10, ymm13
  .psubw 8 8 (.y 14), -- 168: vpsubw ymm8, ymm8, ymm14
  .paddw 5 5 (.y 14), -- 169: vpaddw ymm5, ymm5, ymm14
  .psubw 3 3 (.y 15), -- 170: vpsubw ymm3, ymm3, ymm15
  .paddw 11 11 (.y 15), -- 171: vpaddw ymm11, ymm11, ymm15
  .punpcklqdq 9 8 (.y 5), -- 172: vpunpcklqdq ymm9, ymm8, ymm5
  .punpckhqdq 5 8 (.y 5), -- 173: vpunpckhqdq ymm5, ymm8, ymm5
  .punpcklqdq 8 3 (.y 11), -- 174: vpunpcklqdq ymm8, ymm3, ymm11
  .punpckhqdq 11 3 (.y 11), -- 175: vpunpckhqdq ymm11, ymm3, ymm11
  .movA 15 (.m ⟨some .rsi, none, 224#64⟩), -- 176: vmovdqa ymm15, [224 + rsi]
  .movA 2 (.m ⟨some .rsi, none, 256#64⟩), -- 177: vmovdqa ymm2, [256 + rsi]
  .pmullw 12 9 (.y 15), -- 178: vpmullw ymm12, ymm9, ymm15
  .pmullw 13 5 (.y 15), -- 179: vpmullw ymm13, ymm5, ymm15
  .pmullw 14 8 (.y 15), -- 180: vpmullw ymm14, ymm8, ymm15
  .pmullw 15 11 (.y 15), -- 181: vpmullw ymm15, ymm11, ymm15
  .pmulhw 9 9 (.y 2), -- 182: vpmulhw ymm9, ymm9, ymm2
  .pmulhw 5 5 (.y 2), -- 183: vpmulhw ymm5, ymm5, ymm2
  .pmulhw 8 8 (.y 2), -- 184: vpmulhw ymm8, ymm8, ymm2
  .pmulhw 11 11 (.y 2), -- 185: vpmulhw ymm11, ymm11, ymm2
  .punpcklqdq 3 4 (.y 7), -- 186: vpunpcklqdq ymm3, ymm4, ymm7
  .punpckhqdq 7 4 (.y 7), -- 187: vpunpckhqdq ymm7, ymm4, ymm7
  .punpcklqdq 4 6 (.y 10), -- 188: vpunpcklqdq ymm4, ymm6, ymm10
  .punpckhqdq 10 6 (.y 10), -- 189: vpunpckhqdq ymm10, ymm6, ymm10
  .pmulhw 12 12 (.y 0), -- 190: vpmulhw ymm12, ymm12, ymm0
  .pmulhw 13 13 (.y 0), -- 191: vpmulhw ymm13, ymm13, ymm0
  .pmulhw 14 14 (.y 0), -- 192: vpmulhw ymm14, ymm14, ymm0
  .pmulhw 15 15 (.y 0), -- 193: vpmulhw ymm15, ymm15, ymm0
  .paddw 6 3 (.y 9), -- 194: vpaddw ymm6, ymm3, ymm9
  .psubw 9 3 (.y 9), -- 195: vpsubw ymm9, ymm3, ymm9
  .paddw 3 7 (.y 5), -- 196: vpaddw ymm3, ymm7, ymm5
  .psubw 5 7 (.y 5), -- 197: vpsubw ymm5, ymm7, ymm5
  .paddw 7 4 (.y 8), -- 198: vpaddw ymm7, ymm4, ymm8
  .psubw 8 4 (.y 8), -- 199: vpsubw ymm8, ymm4, ymm8
  .paddw 4 10 (.y 11), -- 200: vpaddw ymm4, ymm10, ymm11
  .psubw 11 10 (.y 11), -- 201: vpsubw ymm11, ymm10, ymm11
  .psubw 6 6 (.y 12), -- 202: vpsubw ymm6, ymm6, ymm12
  .paddw 9 9 (.y 12), -- 203: vpaddw ymm9, ymm9, ymm12
  .psubw 3 3 (.y 13), -- 204: vpsubw ymm3, ymm3, ymm13
  .paddw 5 5 (.y 13), -- 205: vpaddw ymm5, ymm5, ymm13
  .psubw 7 7 (.y 14), -- 206: vpsubw ymm7, ymm7, ymm14
  .paddw 8 8 (.y 14), -- 207: vpaddw ymm8, ymm8, ymm14
  .psubw 4 4 (.y 15), -- 208: vpsubw ymm4, ymm4, ymm15
  .paddw 11 11 (.y 15), -- 209: vpaddw ymm11, ymm11, ymm15
  .movsldup 10 (.y 8), -- 210: vmovsldup ymm10, ymm8
  .pblendd 10 7 (.y 10) 170, -- 211: vpblendd ymm10, ymm7, ymm10, 0xaa
  .psrlq 7 7 32, -- 212: vpsrlq ymm7, ymm7, 0x20
  .pblendd 8 7 (.y 8) 170, -- 213: vpblendd ymm8, ymm7, ymm8, 0xaa
  .movsldup 7 (.y 11), -- 214: vmovsldup ymm7, ymm11
  .pblendd 7 4 (.y 7) 170, -- 215: vpblendd ymm7, ymm4, ymm7, 0xaa
  .psrlq 4 4 32, -- 216: vpsrlq ymm4, ymm4, 0x20
  .pblendd 11 4 (.y 11) 170, -- 217: vpblendd ymm11, ymm4, ymm11, 0xaa
  .movA 15 (.m ⟨some .rsi, none, 288#64⟩), -- 218: vmovdqa ymm15, [288 + rsi]
  .movA 2 (.m ⟨some .rsi, none, 320#64⟩), -- 219: vmovdqa ymm2, [320 + rsi]
  .pmullw 12 10 (.y 15), -- 220: vpmullw ymm12, ymm10, ymm15
  .pmullw 13 8 (.y 15), -- 221: vpmullw ymm13, ymm8, ymm15
  .pmullw 14 7 (.y 15), -- 222: vpmullw ymm14, ymm7, ymm15
  .pmullw 15 11 (.y 15), -- 223: vpmullw ymm15, ymm11, ymm15
  .pmulhw 10 10 (.y 2), -- 224: vpmulhw ymm10, ymm10, ymm2
  .pmulhw 8 8 (.y 2), -- 225: vpmulhw ymm8, ymm8, ymm2
  .pmulhw 7 7 (.y 2), -- 226: vpmulhw ymm7, ymm7, ymm2
  .pmulhw 11 11 (.y 2), -- 227: vpmulhw ymm11, ymm11, ymm2
  .movsldup 4 (.y 9), -- 228: vmovsldup ymm4, ymm9
  .pblendd 4 6 (.y 4) 170, -- 229: vpblendd ymm4, ymm6, ymm4, 0xaa
  .psrlq 6 6 32, -- 230: vpsrlq ymm6, ymm6, 0x20
  .pblendd 9 6 (.y 9) 170, -- 231: vpblendd ymm9, ymm6, ymm9, 0xaa
  .movsldup 6 (.y 5), -- 232: vmovsldup ymm6, ymm5
  .pblendd 6 3 (.y 6) 170, -- 233: vpblendd ymm6, ymm3, ymm6, 0xaa
  .psrlq 3 3 32, -- 234: vpsrlq ymm3, ymm3, 0x20
  .pblendd 5 3 (.y 5) 170, -- 235: vpblendd ymm5, ymm3, ymm5, 0xaa
  .pmulhw 12 12 (.y 0), -- 236: vpmulhw ymm12, ymm12, ymm0
  .pmulhw 13 13 (.y 0), -- 237: vpmulhw ymm13, ymm13, ymm0
  .pmulhw 14 14 (.y 0), -- 238: vpmulhw ymm14, ymm14, ymm0
  .pmulhw 15 15 (.y 0), -- 239: vpmulhw ymm15, ymm15, ymm0
  .paddw 3 4 (.y 10), -- 240: vpaddw ymm3, ymm4, ymm10
  .psubw 10 4 (.y 10), -- 241: vpsubw ymm10, ymm4, ymm10
  .paddw 4 9 (.y 8), -- 242: vpaddw ymm4, ymm9, ymm8
  .psubw 8 9 (.y 8), -- 243: vpsubw ymm8, ymm9, ymm8
  .paddw 9 6 (.y 7), -- 244: vpaddw ymm9, ymm6, ymm7
  .psubw 7 6 (.y 7), -- 245: vpsubw ymm7, ymm6, ymm7
  .paddw 6 5 (.y 11), -- 246: vpaddw ymm6, ymm5, ymm11
  .psubw 11 5 (.y 11), -- 247: vpsubw ymm11, ymm5, ymm11
  .psubw 3 3 (.y 12), -- 248: vpsubw ymm3, ymm3, ymm12
  .paddw 10 10 (.y 12), -- 249: vpaddw ymm10, ymm10, ymm12
  .psubw 4 4 (.y 13), -- 250: vpsubw ymm4, ymm4, ymm13
  .paddw 8 8 (.y 13), -- 251: vpaddw ymm8, ymm8, ymm13
  .psubw 9 9 (.y 14), -- 252: vpsubw ymm9, ymm9, ymm14
  .paddw 7 7 (.y 14), -- 253: vpaddw ymm7, ymm7, ymm14
  .psubw 6 6 (.y 15), -- 254: vpsubw ymm6, ymm6, ymm15
  .paddw 11 11 (.y 15), -- 255: vpaddw ymm11, ymm11, ymm15
  .pslld 5 7 16, -- 256: vpslld ymm5, ymm7, 0x10
  .pblendw 5 9 (.y 5) 170, -- 257: vpblendw ymm5, ymm9, ymm5, 0xaa
  .psrld 9 9 16, -- 258: vpsrld ymm9, ymm9, 0x10
  .pblendw 7 9 (.y 7) 170, -- 259: vpblendw ymm7, ymm9, ymm7, 0xaa
  .pslld 9 11 16, -- 260: vpslld ymm9, ymm11, 0x10
  .pblendw 9 6 (.y 9) 170, -- 261: vpblendw ymm9, ymm6, ymm9, 0xaa
  .psrld 6 6 16, -- 262: vpsrld ymm6, ymm6, 0x10
  .pblendw 11 6 (.y 11) 170, -- 263: vpblendw ymm11, ymm6, ymm11, 0xaa
  .movA 15 (.m ⟨some .rsi, none, 352#64⟩), -- 264: vmovdqa ymm15, [352 + rsi]
  .movA 2 (.m ⟨some .rsi, none, 384#64⟩), -- 265: vmovdqa ymm2, [384 + rsi]
  .pmullw 12 5 (.y 15), -- 266: vpmullw ymm12, ymm5, ymm15
  .pmullw 13 7 (.y 15), -- 267: vpmullw ymm13, ymm7, ymm15
  .pmullw 14 9 (.y 15), -- 268: vpmullw ymm14, ymm9, ymm15
  .pmullw 15 11 (.y 15), -- 269: vpmullw ymm15, ymm11, ymm15
  .pmulhw 5 5 (.y 2), -- 270: vpmulhw ymm5, ymm5, ymm2
  .pmulhw 7 7 (.y 2), -- 271: vpmulhw ymm7, ymm7, ymm2
  .pmulhw 9 9 (.y 2), -- 272: vpmulhw ymm9, ymm9, ymm2
  .pmulhw 11 11 (.y 2), -- 273: vpmulhw ymm11, ymm11, ymm2
  .pslld 6 10 16, -- 274: vpslld ymm6, ymm10, 0x10
  .pblendw 6 3 (.y 6) 170, -- 275: vpblendw ymm6, ymm3, ymm6, 0xaa
  .psrld 3 3 16, -- 276: vpsrld ymm3, ymm3, 0x10
  .pblendw 10 3 (.y 10) 170, -- 277: vpblendw ymm10, ymm3, ymm10, 0xaa
  .pslld 3 8 16, -- 278: vpslld ymm3, ymm8, 0x10
  .pblendw 3 4 (.y 3) 170, -- 279: vpblendw ymm3, ymm4, ymm3, 0xaa
  .psrld 4 4 16, -- 280: vpsrld ymm4, ymm4, 0x10
  .pblendw 8 4 (.y 8) 170, -- 281: vpblendw ymm8, ymm4, ymm8, 0xaa
  .pmulhw 12 12 (.y 0), -- 282: vpmulhw ymm12, ymm12, ymm0
  .pmulhw 13 13 (.y 0), -- 283: vpmulhw ymm13, ymm13, ymm0
  .pmulhw 14 14 (.y 0), -- 284: vpmulhw ymm14, ymm14, ymm0
  .pmulhw 15 15 (.y 0), -- 285: vpmulhw ymm15, ymm15, ymm0
  .paddw 4 6 (.y 5), -- 286: vpaddw ymm4, ymm6, ymm5
  .psubw 5 6 (.y 5), -- 287: vpsubw ymm5, ymm6, ymm5
  .paddw 6 10 (.y 7), -- 288: vpaddw ymm6, ymm10, ymm7
  .psubw 7 10 (.y 7), -- 289: vpsubw ymm7, ymm10, ymm7
  .paddw 10 3 (.y 9), -- 290: vpaddw ymm10, ymm3, ymm9
  .psubw 9 3 (.y 9), -- 291: vpsubw ymm9, ymm3, ymm9
  .paddw 3 8 (.y 11), -- 292: vpaddw ymm3, ymm8, ymm11
  .psubw 11 8 (.y 11), -- 293: vpsubw ymm11, ymm8, ymm11
  .psubw 4 4 (.y 12), -- 294: vpsubw ymm4, ymm4, ymm12
  .paddw 5 5 (.y 12), -- 295: vpaddw ymm5, ymm5, ymm12
  .psubw 6 6 (.y 13), -- 296: vpsubw ymm6, ymm6, ymm13
  .paddw 7 7 (.y 13), -- 297: vpaddw ymm7, ymm7, ymm13
  .psubw 10 10 (.y 14), -- 298: vpsubw ymm10, ymm10, ymm14
  .paddw 9 9 (.y 14), -- 299: vpaddw ymm9, ymm9, ymm14
  .psubw 3 3 (.y 15), -- 300: vpsubw ymm3, ymm3, ymm15
  .paddw 11 11 (.y 15), -- 301: vpaddw ymm11, ymm11, ymm15
  .movA 14 (.m ⟨some .rsi, none, 416#64⟩), -- 302: vmovdqa ymm14, [416 + rsi]
  .movA 15 (.m ⟨some .rsi, none, 480#64⟩), -- 303: vmovdqa ymm15, [480 + rsi]
  .movA 8 (.m ⟨some .rsi, none, 448#64⟩), -- 304: vmovdqa ymm8, [448 + rsi]
  .movA 2 (.m ⟨some .rsi, none, 512#64⟩), -- 305: vmovdqa ymm2, [512 + rsi]
  .pmullw 12 10 (.y 14), -- 306: vpmullw ymm12, ymm10, ymm14
  .pmullw 13 3 (.y 14), -- 307: vpmullw ymm13, ymm3, ymm14
  .pmullw 14 9 (.y 15), -- 308: vpmullw ymm14, ymm9, ymm15
  .pmullw 15 11 (.y 15), -- 309: vpmullw ymm15, ymm11, ymm15
  .pmulhw 10 10 (.y 8), -- 310: vpmulhw ymm10, ymm10, ymm8
  .pmulhw 3 3 (.y 8), -- 311: vpmulhw ymm3, ymm3, ymm8
  .pmulhw 9 9 (.y 2), -- 312: vpmulhw ymm9, ymm9, ymm2
  .pmulhw 11 11 (.y 2), -- 313: vpmulhw ymm11, ymm11, ymm2
  .pmulhw 12 12 (.y 0), -- 314: vpmulhw ymm12, ymm12, ymm0
  .pmulhw 13 13 (.y 0), -- 315: vpmulhw ymm13, ymm13, ymm0
  .pmulhw 14 14 (.y 0), -- 316: vpmulhw ymm14, ymm14, ymm0
  .pmulhw 15 15 (.y 0), -- 317: vpmulhw ymm15, ymm15, ymm0
  .paddw 8 4 (.y 10), -- 318: vpaddw ymm8, ymm4, ymm10
  .psubw 10 4 (.y 10), -- 319: vpsubw ymm10, ymm4, ymm10
  .paddw 4 6 (.y 3), -- 320: vpaddw ymm4, ymm6, ymm3
  .psubw 3 6 (.y 3), -- 321: vpsubw ymm3, ymm6, ymm3
  .paddw 6 5 (.y 9), -- 322: vpaddw ymm6, ymm5, ymm9
  .psubw 9 5 (.y 9), -- 323: vpsubw ymm9, ymm5, ymm9
  .paddw 5 7 (.y 11), -- 324: vpaddw ymm5, ymm7, ymm11
  .psubw 11 7 (.y 11), -- 325: vpsubw ymm11, ymm7, ymm11
  .psubw 8 8 (.y 12), -- 326: vpsubw ymm8, ymm8, ymm12
  .paddw 10 10 (.y 12), -- 327: vpaddw ymm10, ymm10, ymm12
  .psubw 4 4 (.y 13), -- 328: vpsubw ymm4, ymm4, ymm13
  .paddw 3 3 (.y 13), -- 329: vpaddw ymm3, ymm3, ymm13
  .psubw 6 6 (.y 14), -- 330: vpsubw ymm6, ymm6, ymm14
  .paddw 9 9 (.y 14), -- 331: vpaddw ymm9, ymm9, ymm14
  .psubw 5 5 (.y 15), -- 332: vpsubw ymm5, ymm5, ymm15
  .paddw 11 11 (.y 15), -- 333: vpaddw ymm11, ymm11, ymm15
  .stA ⟨some .rdi, none, 0#64⟩ 8, -- 334: vmovdqa [rdi], ymm8
  .stA ⟨some .rdi, none, 32#64⟩ 4, -- 335: vmovdqa [32 + rdi], ymm4
  .stA ⟨some .rdi, none, 64#64⟩ 10, -- 336: vmovdqa [64 + rdi], ymm10
  .stA ⟨some .rdi, none, 96#64⟩ 3, -- 337: vmovdqa [96 + rdi], ymm3
  .stA ⟨some .rdi, none, 128#64⟩ 6, -- 338: vmovdqa [128 + rdi], ymm6
  .stA ⟨some .rdi, none, 160#64⟩ 5, -- 339: vmovdqa [160 + rdi], ymm5
  .stA ⟨some .rdi, none, 192#64⟩ 9, -- 340: vmovdqa [192 + rdi], ymm9
  .stA ⟨some .rdi, none, 224#64⟩ 11, -- 341: vmovdqa [224 + rdi], ymm11
  .movA 15 (.m ⟨some .rsi, none, 544#64⟩), -- 342: vmovdqa ymm15, [544 + rsi]
  .movA 8 (.m ⟨some .rdi, none, 384#64⟩), -- 343: vmovdqa ymm8, [384 + rdi]
  .movA 9 (.m ⟨some .rdi, none, 416#64⟩), -- 344: vmovdqa ymm9, [416 + rdi]
  .movA 10 (.m ⟨some .rdi, none, 448#64⟩), -- 345: vmovdqa ymm10, [448 + rdi]
  .movA 11 (.m ⟨some .rdi, none, 480#64⟩), -- 346: vmovdqa ymm11, [480 + rdi]
  .movA 2 (.m ⟨some .rsi, none, 576#64⟩), -- 347: vmovdqa ymm2, [576 + rsi]
  .pmullw 12 8 (.y 15), -- 348: vpmullw ymm12, ymm8, ymm15
  .pmullw 13 9 (.y 15), -- 349: vpmullw ymm13, ymm9, ymm15
  .pmullw 14 10 (.y 15), -- 350: vpmullw ymm14, ymm10, ymm15
  .pmullw 15 11 (.y 15), -- 351: vpmullw ymm15, ymm11, ymm15
  .pmulhw 8 8 (.y 2), -- 352: vpmulhw ymm8, ymm8, ymm2
  .pmulhw 9 9 (.y 2), -- 353: vpmulhw ymm9, ymm9, ymm2
  .pmulhw 10 10 (.y 2), -- 354: vpmulhw ymm10, ymm10, ymm2
  .pmulhw 11 11 (.y 2), -- 355: vpmulhw ymm11, ymm11, ymm2
  .movA 4 (.m ⟨some .rdi, none, 256#64⟩), -- 356: vmovdqa ymm4, [256 + rdi]
  .movA 5 (.m ⟨some .rdi, none, 288#64⟩), -- 357: vmovdqa ymm5, [288 + rdi]
  .movA 6 (.m ⟨some .rdi, none, 320#64⟩), -- 358: vmovdqa ymm6, [320 + rdi]
  .movA 7 (.m ⟨some .rdi, none, 352#64⟩), -- 359: vmovdqa ymm7, [352 + rdi]
  .pmulhw 12 12 (.y 0), -- 360: vpmulhw ymm12, ymm12, ymm0
  .pmulhw 13 13 (.y 0), -- 361: vpmulhw ymm13, ymm13, ymm0
  .pmulhw 14 14 (.y 0), -- 362: vpmulhw ymm14, ymm14, ymm0
  .pmulhw 15 15 (.y 0), -- 363: vpmulhw ymm15, ymm15, ymm0
  .paddw 3 4 (.y 8), -- 364: vpaddw ymm3, ymm4, ymm8
  .psubw 8 4 (.y 8), -- 365: vpsubw ymm8, ymm4, ymm8
  .paddw 4 5 (.y 9), -- 366: vpaddw ymm4, ymm5, ymm9
  .psubw 9 5 (.y 9), -- 367: vpsubw ymm9, ymm5, ymm9
  .paddw 5 6 (.y 10), -- 368: vpaddw ymm5, ymm6, ymm10
  .psubw 10 6 (.y 10), -- 369: vpsubw ymm10, ymm6, ymm10
  .paddw 6 7 (.y 11), -- 370: vpaddw ymm6, ymm7, ymm11
  .psubw 11 7 (.y 11), -- 371: vpsubw ymm11, ymm7, ymm11
  .psubw 3 3 (.y 12), -- 372: vpsubw ymm3, ymm3, ymm12
  .paddw 8 8 (.y 12), -- 373: vpaddw ymm8, ymm8, ymm12
  .psubw 4 4 (.y 13), -- 374: vpsubw ymm4, ymm4, ymm13
  .paddw 9 9 (.y 13), -- 375: vpaddw ymm9, ymm9, ymm13
  .psubw 5 5 (.y 14), -- 376: vpsubw ymm5, ymm5, ymm14
  .paddw 10 10 (.y 14), -- 377: vpaddw ymm10, ymm10, ymm14
  .psubw 6 6 (.y 15), -- 378: vpsubw ymm6, ymm6, ymm15
  .paddw 11 11 (.y 15), -- 379: vpaddw ymm11, ymm11, ymm15
  .perm2i128 7 5 (.y 10) 32, -- 380: vperm2i128 ymm7, ymm5, ymm10, 0x20
  .perm2i128 10 5 (.y 10) 49, -- 381: vperm2i128 ymm10, ymm5, ymm10, 0x31
  .perm2i128 5 6 (.y 11) 32, -- 382: vperm2i128 ymm5, ymm6, ymm11, 0x20
  .perm2i128 11 6 (.y 11) 49, -- 383: vperm2i128 ymm11, ymm6, ymm11, 0x31
  .movA 15 (.m ⟨some .rsi, none, 608#64⟩), -- 384: vmovdqa ymm15, [608 + rsi]
  .movA 2 (.m ⟨some .rsi, none, 640#64⟩), -- 385: vmovdqa ymm2, [640 + rsi]
  .pmullw 12 7 (.y 15), -- 386: vpmullw ymm12, ymm7, ymm15
  .pmullw 13 10 (.y 15), -- 387: vpmullw ymm13, ymm10, ymm15
  .pmullw 14 5 (.y 15), -- 388: vpmullw ymm14, ymm5, ymm15
  .pmullw 15 11 (.y 15), -- 389: vpmullw ymm15, ymm11, ymm15
  .pmulhw 7 7 (.y 2), -- 390: vpmulhw ymm7, ymm7, ymm2
  .pmulhw 10 10 (.y 2), -- 391: vpmulhw ymm10, ymm10, ymm2
  .pmulhw 5 5 (.y 2), -- 392: vpmulhw ymm5, ymm5, ymm2
  .pmulhw 11 11 (.y 2), -- 393: vpmulhw ymm11, ymm11, ymm2
  .perm2i128 6 3 (.y 8) 32, -- 394: vperm2i128 ymm6, ymm3, ymm8, 0x20
  .perm2i128 8 3 (.y 8) 49, -- 395: vperm2i128 ymm8, ymm3, ymm8, 0x31
  .perm2i128 3 4 (.y 9) 32, -- 396: vperm2i128 ymm3, ymm4, ymm9, 0x20
  .perm2i128 9 4 (.y 9) 49, -- 397: vperm2i128 ymm9, ymm4, ymm9, 0x31
  .pmulhw 12 12 (.y 0), -- 398: vpmulhw ymm12, ymm12, ymm0
  .pmulhw 13 13 (.y 0), -- 399: vpmulhw ymm13, ymm13, ymm0
  .pmulhw 14 14 (.y 0), -- 400: vpmulhw ymm14, ymm14, ymm0
  .pmulhw 15 15 (.y 0), -- 401: vpmulhw ymm15, ymm15, ymm0
  .paddw 4 6 (.y 7), -- 402: vpaddw ymm4, ymm6, ymm7
  .psubw 7 6 (.y 7), -- 403: vpsubw ymm7, ymm6, ymm7
  .paddw 6 8 (.y 10), -- 404: vpaddw ymm6, ymm8, ymm10
  .psubw 10 8 (.y 10), -- 405: vpsubw ymm10, ymm8, ymm10
  .paddw 8 3 (.y 5), -- 406: vpaddw ymm8, ymm3, ymm5
  .psubw 5 3 (.y 5), -- 407: vpsubw ymm5, ymm3, ymm5
  .paddw 3 9 (.y 11), -- 408: vpaddw ymm3, ymm9, ymm11
  .psubw 11 9 (.y 11), -- 409: vpsubw ymm11, ymm9, ymm11
  .psubw 4 4 (.y 12), -- 410: vpsubw ymm4, ymm4, ymm12
  .paddw 7 7 (.y 12), -- 411: vpaddw ymm7, ymm7, ymm12
  .psubw 6 6 (.y 13), -- 412: vpsubw ymm6, ymm6, ymm13
  .paddw 10 10 (.y 13), -- 413: vpaddw ymm10, ymm10, ymm13
  .psubw 8 8 (.y 14), -- 414: vpsubw ymm8, ymm8, ymm14
  .paddw 5 5 (.y 14), -- 415: vpaddw ymm5, ymm5, ymm14
  .psubw 3 3 (.y 15), -- 416: vpsubw ymm3, ymm3, ymm15
  .paddw 11 11 (.y 15), -- 417: vpaddw ymm11, ymm11, ymm15
  .punpcklqdq 9 8 (.y 5), -- 418: vpunpcklqdq ymm9, ymm8, ymm5
  .punpckhqdq 5 8 (.y 5), -- 419: vpunpckhqdq ymm5, ymm8, ymm5
  .punpcklqdq 8 3 (.y 11), -- 420: vpunpcklqdq ymm8, ymm3, ymm11
  .punpckhqdq 11 3 (.y 11), -- 421: vpunpckhqdq ymm11, ymm3, ymm11
  .movA 15 (.m ⟨some .rsi, none, 672#64⟩), -- 422: vmovdqa ymm15, [672 + rsi]
  .movA 2 (.m ⟨some .rsi, none, 704#64⟩), -- 423: vmovdqa ymm2, [704 + rsi]
  .pmullw 12 9 (.y 15), -- 424: vpmullw ymm12, ymm9, ymm15
  .pmullw 13 5 (.y 15), -- 425: vpmullw ymm13, ymm5, ymm15
  .pmullw 14 8 (.y 15), -- 426: vpmullw ymm14, ymm8, ymm15
  .pmullw 15 11 (.y 15), -- 427: vpmullw ymm15, ymm11, ymm15
  .pmulhw 9 9 (.y 2), -- 428: vpmulhw ymm9, ymm9, ymm2
  .pmulhw 5 5 (.y 2), -- 429: vpmulhw ymm5, ymm5, ymm2
  .pmulhw 8 8 (.y 2), -- 430: vpmulhw ymm8, ymm8, ymm2
  .pmulhw 11 11 (.y 2), -- 431: vpmulhw ymm11, ymm11, ymm2
  .punpcklqdq 3 4 (.y 7), -- 432: vpunpcklqdq ymm3, ymm4, ymm7
  .punpckhqdq 7 4 (.y 7), -- 433: vpunpckhqdq ymm7, ymm4, ymm7
  .punpcklqdq 4 6 (.y 10), -- 434: vpunpcklqdq ymm4, ymm6, ymm10
  .punpckhqdq 10 6 (.y 10), -- 435: vpunpckhqdq ymm10, ymm6, ymm10
  .pmulhw 12 12 (.y 0), -- 436: vpmulhw ymm12, ymm12, ymm0
  .pmulhw 13 13 (.y 0), -- 437: vpmulhw ymm13, ymm13, ymm0
  .pmulhw 14 14 (.y 0), -- 438: vpmulhw ymm14, ymm14, ymm0
  .pmulhw 15 15 (.y 0), -- 439: vpmulhw ymm15, ymm15, ymm0
  .paddw 6 3 (.y 9), -- 440: vpaddw ymm6, ymm3, ymm9
  .psubw 9 3 (.y 9), -- 441: vpsubw ymm9, ymm3, ymm9
  .paddw 3 7 (.y 5), -- 442: vpaddw ymm3, ymm7, ymm5
  .psubw 5 7 (.y 5), -- 443: vpsubw ymm5, ymm7, ymm5
  .paddw 7 4 (.y 8), -- 444: vpaddw ymm7, ymm4, ymm8
  .psubw 8 4 (.y 8), -- 445: vpsubw ymm8, ymm4, ymm8
  .paddw 4 10 (.y 11), -- 446: vpaddw ymm4, ymm10, ymm11
  .psubw 11 10 (.y 11), -- 447: vpsubw ymm11, ymm10, ymm11
  .psubw 6 6 (.y 12), -- 448: vpsubw ymm6, ymm6, ymm12
  .paddw 9 9 (.y 12), -- 449: vpaddw ymm9, ymm9, ymm12
  .psubw 3 3 (.y 13), -- 450: vpsubw ymm3, ymm3, ymm13
  .paddw 5 5 (.y 13), -- 451: vpaddw ymm5, ymm5, ymm13
  .psubw 7 7 (.y 14), -- 452: vpsubw ymm7, ymm7, ymm14
  .paddw 8 8 (.y 14), -- 453: vpaddw ymm8, ymm8, ymm14
  .psubw 4 4 (.y 15), -- 454: vpsubw ymm4, ymm4, ymm15
  .paddw 11 11 (.y 15), -- 455: vpaddw ymm11, ymm11, ymm15
  .movsldup 10 (.y 8), -- 456: vmovsldup ymm10, ymm8
  .pblendd 10 7 (.y 10) 170, -- 457: vpblendd ymm10, ymm7, ymm10, 0xaa
  .psrlq 7 7 32, -- 458: vpsrlq ymm7, ymm7, 0x20
  .pblendd 8 7 (.y 8) 170, -- 459: vpblendd ymm8, ymm7, ymm8, 0xaa
  .movsldup 7 (.y 11), -- 460: vmovsldup ymm7, ymm11
  .pblendd 7 4 (.y 7) 170, -- 461: vpblendd ymm7, ymm4, ymm7, 0xaa
  .psrlq 4 4 32, -- 462: vpsrlq ymm4, ymm4, 0x20
  .pblendd 11 4 (.y 11) 170, -- 463: vpblendd ymm11, ymm4, ymm11, 0xaa
  .movA 15 (.m ⟨some .rsi, none, 736#64⟩), -- 464: vmovdqa ymm15, [736 + rsi]
  .movA 2 (.m ⟨some .rsi, none, 768#64⟩), -- 465: vmovdqa ymm2, [768 + rsi]
  .pmullw 12 10 (.y 15), -- 466: vpmullw ymm12, ymm10, ymm15
  .pmullw 13 8 (.y 15), -- 467: vpmullw ymm13, ymm8, ymm15
  .pmullw 14 7 (.y 15), -- 468: vpmullw ymm14, ymm7, ymm15
  .pmullw 15 11 (.y 15), -- 469: vpmullw ymm15, ymm11, ymm15
  .pmulhw 10 10 (.y 2), -- 470: vpmulhw ymm10, ymm10, ymm2
  .pmulhw 8 8 (.y 2), -- 471: vpmulhw ymm8, ymm8, ymm2
  .pmulhw 7 7 (.y 2), -- 472: vpmulhw ymm7, ymm7, ymm2
  .pmulhw 11 11 (.y 2), -- 473: vpmulhw ymm11, ymm11, ymm2
  .movsldup 4 (.y 9), -- 474: vmovsldup ymm4, ymm9
  .pblendd 4 6 (.y 4) 170, -- 475: vpblendd ymm4, ymm6, ymm4, 0xaa
  .psrlq 6 6 32, -- 476: vpsrlq ymm6, ymm6, 0x20
  .pblendd 9 6 (.y 9) 170, -- 477: vpblendd ymm9, ymm6, ymm9, 0xaa
  .movsldup 6 (.y 5), -- 478: vmovsldup ymm6, ymm5
  .pblendd 6 3 (.y 6) 170, -- 479: vpblendd ymm6, ymm3, ymm6, 0xaa
  .psrlq 3 3 32, -- 480: vpsrlq ymm3, ymm3, 0x20
  .pblendd 5 3 (.y 5) 170, -- 481: vpblendd ymm5, ymm3, ymm5, 0xaa
  .pmulhw 12 12 (.y 0), -- 482: vpmulhw ymm12, ymm12, ymm0
  .pmulhw 13 13 (.y 0), -- 483: vpmulhw ymm13, ymm13, ymm0
  .pmulhw 14 14 (.y 0), -- 484: vpmulhw ymm14, ymm14, ymm0
  .pmulhw 15 15 (.y 0), -- 485: vpmulhw ymm15, ymm15, ymm0
  .paddw 3 4 (.y 10), -- 486: vpaddw ymm3, ymm4, ymm10
  .psubw 10 4 (.y 10), -- 487: vpsubw ymm10, ymm4, ymm10
  .paddw 4 9 (.y 8), -- 488: vpaddw ymm4, ymm9, ymm8
  .psubw 8 9 (.y 8), -- 489: vpsubw ymm8, ymm9, ymm8
  .paddw 9 6 (.y 7), -- 490: vpaddw ymm9, ymm6, ymm7
  .psubw 7 6 (.y 7), -- 491: vpsubw ymm7, ymm6, ymm7
  .paddw 6 5 (.y 11), -- 492: vpaddw ymm6, ymm5, ymm11
  .psubw 11 5 (.y 11), -- 493: vpsubw ymm11, ymm5, ymm11
  .psubw 3 3 (.y 12), -- 494: vpsubw ymm3, ymm3, ymm12
  .paddw 10 10 (.y 12), -- 495: vpaddw ymm10, ymm10, ymm12
  .psubw 4 4 (.y 13), -- 496: vpsubw ymm4, ymm4, ymm13
  .paddw 8 8 (.y 13), -- 497: vpaddw ymm8, ymm8, ymm13
  .psubw 9 9 (.y 14), -- 498: vpsubw ymm9, ymm9, ymm14
  .paddw 7 7 (.y 14), -- 499: vpaddw ymm7, ymm7, ymm14
  .psubw 6 6 (.y 15), -- 500: vpsubw ymm6, ymm6, ymm15
  .paddw 11 11 (.y 15), -- 501: vpaddw ymm11, ymm11, ymm15
  .pslld 5 7 16, -- 502: vpslld ymm5, ymm7, 0x10
  .pblendw 5 9 (.y 5) 170, -- 503: vpblendw ymm5, ymm9, ymm5, 0xaa
  .psrld 9 9 16, -- 504: vpsrld ymm9, ymm9, 0x10
  .pblendw 7 9 (.y 7) 170, -- 505: vpblendw ymm7, ymm9, ymm7, 0xaa
  .pslld 9 11 16, -- 506: vpslld ymm9, ymm11, 0x10
  .pblendw 9 6 (.y 9) 170, -- 507: vpblendw ymm9, ymm6, ymm9, 0xaa
  .psrld 6 6 16, -- 508: vpsrld ymm6, ymm6, 0x10
  .pblendw 11 6 (.y 11) 170, -- 509: vpblendw ymm11, ymm6, ymm11, 0xaa
  .movA 15 (.m ⟨some .rsi, none, 800#64⟩), -- 510: vmovdqa ymm15, [800 + rsi]
  .movA 2 (.m ⟨some .rsi, none, 832#64⟩), -- 511: vmovdqa ymm2, [832 + rsi]
  .pmullw 12 5 (.y 15), -- 512: vpmullw ymm12, ymm5, ymm15
  .pmullw 13 7 (.y 15), -- 513: vpmullw ymm13, ymm7, ymm15
  .pmullw 14 9 (.y 15), -- 514: vpmullw ymm14, ymm9, ymm15
  .pmullw 15 11 (.y 15), -- 515: vpmullw ymm15, ymm11, ymm15
  .pmulhw 5 5 (.y 2), -- 516: vpmulhw ymm5, ymm5, ymm2
  .pmulhw 7 7 (.y 2), -- 517: vpmulhw ymm7, ymm7, ymm2
  .pmulhw 9 9 (.y 2), -- 518: vpmulhw ymm9, ymm9, ymm2
  .pmulhw 11 11 (.y 2), -- 519: vpmulhw ymm11, ymm11, ymm2
  .pslld 6 10 16, -- 520: vpslld ymm6, ymm10, 0x10
  .pblendw 6 3 (.y 6) 170, -- 521: vpblendw ymm6, ymm3, ymm6, 0xaa
  .psrld 3 3 16, -- 522: vpsrld ymm3, ymm3, 0x10
  .pblendw 10 3 (.y 10) 170, -- 523: vpblendw ymm10, ymm3, ymm10, 0xaa
  .pslld 3 8 16, -- 524: vpslld ymm3, ymm8, 0x10
  .pblendw 3 4 (.y 3) 170, -- 525: vpblendw ymm3, ymm4, ymm3, 0xaa
  .psrld 4 4 16, -- 526: vpsrld ymm4, ymm4, 0x10
  .pblendw 8 4 (.y 8) 170, -- 527: vpblendw ymm8, ymm4, ymm8, 0xaa
  .pmulhw 12 12 (.y 0), -- 528: vpmulhw ymm12, ymm12, ymm0
  .pmulhw 13 13 (.y 0), -- 529: vpmulhw ymm13, ymm13, ymm0
  .pmulhw 14 14 (.y 0), -- 530: vpmulhw ymm14, ymm14, ymm0
  .pmulhw 15 15 (.y 0), -- 531: vpmulhw ymm15, ymm15, ymm0
  .paddw 4 6 (.y 5), -- 532: vpaddw ymm4, ymm6, ymm5
  .psubw 5 6 (.y 5), -- 533: vpsubw ymm5, ymm6, ymm5
  .paddw 6 10 (.y 7), -- 534: vpaddw ymm6, ymm10, ymm7
  .psubw 7 10 (.y 7), -- 535: vpsubw ymm7, ymm10, ymm7
  .paddw 10 3 (.y 9), -- 536: vpaddw ymm10, ymm3, ymm9
  .psubw 9 3 (.y 9), -- 537: vpsubw ymm9, ymm3, ymm9
  .paddw 3 8 (.y 11), -- 538: vpaddw ymm3, ymm8, ymm11
  .psubw 11 8 (.y 11), -- 539: vpsubw ymm11, ymm8, ymm11
  .psubw 4 4 (.y 12), -- 540: vpsubw ymm4, ymm4, ymm12
  .paddw 5 5 (.y 12), -- 541: vpaddw ymm5, ymm5, ymm12
  .psubw 6 6 (.y 13), -- 542: vpsubw ymm6, ymm6, ymm13
  .paddw 7 7 (.y 13), -- 543: vpaddw ymm7, ymm7, ymm13
  .psubw 10 10 (.y 14), -- 544: vpsubw ymm10, ymm10, ymm14
  .paddw 9 9 (.y 14), -- 545: vpaddw ymm9, ymm9, ymm14
  .psubw 3 3 (.y 15), -- 546: vpsubw ymm3, ymm3, ymm15
  .paddw 11 11 (.y 15), -- 547: vpaddw ymm11, ymm11, ymm15
  .movA 14 (.m ⟨some .rsi, none, 864#64⟩), -- 548: vmovdqa ymm14, [864 + rsi]
  .movA 15 (.m ⟨some .rsi, none, 928#64⟩), -- 549: vmovdqa ymm15, [928 + rsi]
  .movA 8 (.m ⟨some .rsi, none, 896#64⟩), -- 550: vmovdqa ymm8, [896 + rsi]
  .movA 2 (.m ⟨some .rsi, none, 960#64⟩), -- 551: vmovdqa ymm2, [960 + rsi]
  .pmullw 12 10 (.y 14), -- 552: vpmullw ymm12, ymm10, ymm14
  .pmullw 13 3 (.y 14), -- 553: vpmullw ymm13, ymm3, ymm14
  .pmullw 14 9 (.y 15), -- 554: vpmullw ymm14, ymm9, ymm15
  .pmullw 15 11 (.y 15), -- 555: vpmullw ymm15, ymm11, ymm15
  .pmulhw 10 10 (.y 8), -- 556: vpmulhw ymm10, ymm10, ymm8
  .pmulhw 3 3 (.y 8), -- 557: vpmulhw ymm3, ymm3, ymm8
  .pmulhw 9 9 (.y 2), -- 558: vpmulhw ymm9, ymm9, ymm2
  .pmulhw 11 11 (.y 2), -- 559: vpmulhw ymm11, ymm11, ymm2
  .pmulhw 12 12 (.y 0), -- 560: vpmulhw ymm12, ymm12, ymm0
  .pmulhw 13 13 (.y 0), -- 561: vpmulhw ymm13, ymm13, ymm0
  .pmulhw 14 14 (.y 0), -- 562: vpmulhw ymm14, ymm14, ymm0
  .pmulhw 15 15 (.y 0), -- 563: vpmulhw ymm15, ymm15, ymm0
  .paddw 8 4 (.y 10), -- 564: vpaddw ymm8, ymm4, ymm10
  .psubw 10 4 (.y 10), -- 565: vpsubw ymm10, ymm4, ymm10
  .paddw 4 6 (.y 3), -- 566: vpaddw ymm4, ymm6, ymm3
  .psubw 3 6 (.y 3), -- 567: vpsubw ymm3, ymm6, ymm3
  .paddw 6 5 (.y 9), -- 568: vpaddw ymm6, ymm5, ymm9
  .psubw 9 5 (.y 9), -- 569: vpsubw ymm9, ymm5, ymm9
  .paddw 5 7 (.y 11), -- 570: vpaddw ymm5, ymm7, ymm11
  .psubw 11 7 (.y 11), -- 571: vpsubw ymm11, ymm7, ymm11
  .psubw 8 8 (.y 12), -- 572: vpsubw ymm8, ymm8, ymm12
  .paddw 10 10 (.y 12), -- 573: vpaddw ymm10, ymm10, ymm12
  .psubw 4 4 (.y 13), -- 574: vpsubw ymm4, ymm4, ymm13
  .paddw 3 3 (.y 13), -- 575: vpaddw ymm3, ymm3, ymm13
  .psubw 6 6 (.y 14), -- 576: vpsubw ymm6, ymm6, ymm14
  .paddw 9 9 (.y 14), -- 577: vpaddw ymm9, ymm9, ymm14
  .psubw 5 5 (.y 15), -- 578: vpsubw ymm5, ymm5, ymm15
  .paddw 11 11 (.y 15), -- 579: vpaddw ymm11, ymm11, ymm15
  .stA ⟨some .rdi, none, 256#64⟩ 8, -- 580: vmovdqa [256 + rdi], ymm8
  .stA ⟨some .rdi, none, 288#64⟩ 4, -- 581: vmovdqa [288 + rdi], ymm4
  .stA ⟨some .rdi, none, 320#64⟩ 10, -- 582: vmovdqa [320 + rdi], ymm10
  .stA ⟨some .rdi, none, 352#64⟩ 3, -- 583: vmovdqa [352 + rdi], ymm3
  .stA ⟨some .rdi, none, 384#64⟩ 6, -- 584: vmovdqa [384 + rdi], ymm6
  .stA ⟨some .rdi, none, 416#64⟩ 5, -- 585: vmovdqa [416 + rdi], ymm5
  .stA ⟨some .rdi, none, 448#64⟩ 9, -- 586: vmovdqa [448 + rdi], ymm9
  .stA ⟨some .rdi, none, 480#64⟩ 11] -- 587: vmovdqa [480 + rdi], ymm11

/-- The registers that the operands of mlkem_ntt.rs:37-648 say may change. -/
def mlkemNttRegs : List Reg := [.rdi, .rsi, .rax]

/-- low/x86_64/mlkem_intt.rs:39-727.  Operands: inout("rdi") a.as_mut_ptr() => _; inout("rsi") qdata.as_ptr() => _; out("rax") _; out("zmm0") _; out("zmm1") _; out("zmm10") _; out("zmm11") _; out("zmm12") _; out("zmm13") _; out("zmm14") _; out("zmm15") _; out("zmm2") _; out("zmm3") _; out("zmm4") _; out("zmm5") _; out("zmm6") _; out("zmm7") _; out("zmm8") _; out("zmm9") _. -/
def mlkemIntt : VProg := [
  .sc (.nop), -- 0: endbr64
  .sc (.mov (.reg .rax) (.imm 0xd010d01#64)), -- 1: mov eax, 0xd010d01
  .vmovd 0 .rax, -- 2: vmovd xmm0, eax
  .pbroadcastd 0 0, -- 3: vpbroadcastd ymm0, xmm0
  .sc (.mov (.reg .rax) (.imm 0xd8a1d8a1#64)), -- 4: mov eax, 0xd8a1d8a1
  .vmovd 2 .rax, -- 5: vmovd xmm2, eax
  .pbroadcastd 2 2, -- 6: vpbroadcastd ymm2, xmm2
  .sc (.mov (.reg .rax) (.imm 0x5a105a1#64)), -- 7: mov eax, 0x5a105a1
  .vmovd 3 .rax, -- 8: vmovd xmm3, eax
  .pbroadcastd 3 3, -- 9: vpbroadcastd ymm3, xmm3
  .movA 4 (.m ⟨some .rdi, none, 0#64⟩), -- 10: vmovdqa ymm4, [rdi]
  .movA 6 (.m ⟨some .rdi, none, 64#64⟩), -- 11: vmovdqa ymm6, [64 + rdi]
  .movA 5 (.m ⟨some .rdi, none, 32#64⟩), -- 12: vmovdqa ymm5, [32 + rdi]
  .movA 7 (.m ⟨some .rdi, none, 96#64⟩), -- 13: vmovdqa ymm7, [96 + rdi]
  .pmullw 12 4 (.y 2), -- 14: vpmullw ymm12, ymm4, ymm2
  .pmulhw 4 4 (.y 3), -- 15: vpmulhw ymm4, ymm4, ymm3
  .pmulhw 12 12 (.y 0), -- 16: vpmulhw ymm12, ymm12, ymm0
  .psubw 4 4 (.y 12), -- 17: vpsubw ymm4, ymm4, ymm12
  .pmullw 12 6 (.y 2), -- 18: vpmullw ymm12, ymm6, ymm2
  .pmulhw 6 6 (.y 3), -- 19: vpmulhw ymm6, ymm6, ymm3
  .pmulhw 12 12 (.y 0), -- 20: vpmulhw ymm12, ymm12, ymm0
  .psubw 6 6 (.y 12), -- 21: vpsubw ymm6, ymm6, ymm12
  .pmullw 12 5 (.y 2), -- 22: vpmullw ymm12, ymm5, ymm2
  .pmulhw 5 5 (.y 3), -- 23: vpmulhw ymm5, ymm5, ymm3
  .pmulhw 12 12 (.y 0), -- 24: vpmulhw ymm12, ymm12, ymm0
  .psubw 5 5 (.y 12), -- 25: vpsubw ymm5, ymm5, ymm12
  .pmullw 12 7 (.y 2), -- 26: vpmullw ymm12, ymm7, ymm2
  .pmulhw 7 7 (.y 3), -- 27: vpmulhw ymm7, ymm7, ymm3
  .pmulhw 12 12 (.y 0), -- 28: vpmulhw ymm12, ymm12, ymm0
  .psubw 7 7 (.y 12), -- 29: vpsubw ymm7, ymm7, ymm12
  .movA 8 (.m ⟨some .rdi, none, 128#64⟩), -- 30: vmovdqa ymm8, [128 + rdi]
  .movA 10 (.m ⟨some .rdi, none, 192#64⟩), -- 31: vmovdqa ymm10, [192 + rdi]
  .movA 9 (.m ⟨some .rdi, none, 160#64⟩), -- 32: vmovdqa ymm9, [160 + rdi]
  .movA 11 (.m ⟨some .rdi, none, 224#64⟩), -- 33: vmovdqa ymm11, [224 + rdi]
  .pmullw 12 8 (.y 2), -- 34: vpmullw ymm12, ymm8, ymm2
  .pmulhw 8 8 (.y 3), -- 35: vpmulhw ymm8, ymm8, ymm3
  .pmulhw 12 12 (.y 0), -- 36: vpmulhw ymm12, ymm12, ymm0
  .psubw 8 8 (.y 12), -- 37: vpsubw ymm8, ymm8, ymm12
  .pmullw 12 10 (.y 2), -- 38: vpmullw ymm12, ymm10, ymm2
  .pmulhw 10 10 (.y 3), -- 39: vpmulhw ymm10, ymm10, ymm3
  .pmulhw 12 12 (.y 0), -- 40: vpmulhw ymm12, ymm12, ymm0
  .psubw 10 10 (.y 12), -- 41: vpsubw ymm10, ymm10, ymm12
  .pmullw 12 9 (.y 2), -- 42: vpmullw ymm12, ymm9, ymm2
  .pmulhw 9 9 (.y 3), -- 43: vpmulhw ymm9, ymm9, ymm3
  .pmulhw 12 12 (.y 0), -- 44: vpmulhw ymm12, ymm12, ymm0
  .psubw 9 9 (.y 12), -- 45: vpsubw ymm9, ymm9, ymm12
  .pmullw 12 11 (.y 2), -- 46: vpmullw ymm12, ymm11, ymm2
  .pmulhw 11 11 (.y 3), -- 47: vpmulhw ymm11, ymm11, ymm3
  .pmulhw 12 12 (.y 0), -- 48: vpmulhw ymm12, ymm12, ymm0
  .psubw 11 11 (.y 12), -- 49: vpsubw ymm11, ymm11, ymm12
  .permq 15 (.m ⟨some .rsi, none, 928#64⟩) 78, -- 50: vpermq ymm15, [928 + rsi], 0x4e
  .permq 1 (.m ⟨some .rsi, none, 864#64⟩) 78, -- 51: vpermq ymm1, [864 + rsi], 0x4e
  .permq 2 (.m ⟨some .rsi, none, 960#64⟩) 78, -- 52: vpermq ymm2, [960 + rsi], 0x4e
  .permq 3 (.m ⟨some .rsi, none, 896#64⟩) 78, -- 53: vpermq ymm3, [896 + rsi], 0x4e
  .movA 12 (.m ⟨some .rsi, none, 0#64⟩), -- 54: vmovdqa ymm12, [rsi]
  .pshufb 15 15 (.y 12), -- 55: vpshufb ymm15, ymm15, ymm12
  .pshufb 1 1 (.y 12), -- 56: vpshufb ymm1, ymm1, ymm12
  .pshufb 2 2 (.y 12), -- 57: vpshufb ymm2, ymm2, ymm12
  .pshufb 3 3 (.y 12), -- 58: vpshufb ymm3, ymm3, ymm12
  .psubw 12 6 (.y 4), -- 59: vpsubw ymm12, ymm6, ymm4
  .paddw 4 4 (.y 6), -- 60: vpaddw ymm4, ymm4, ymm6
  .psubw 13 7 (.y 5), -- 61: vpsubw ymm13, ymm7, ymm5
  .pmullw 6 12 (.y 15), -- 62: vpmullw ymm6, ymm12, ymm15
  .paddw 5 5 (.y 7), -- 63: vpaddw ymm5, ymm5, ymm7
  .psubw 14 10 (.y 8), -- 64: vpsubw ymm14, ymm10, ymm8
  .pmullw 7 13 (.y 15), -- 65: vpmullw ymm7, ymm13, ymm15
  .paddw 8 8 (.y 10), -- 66: vpaddw ymm8, ymm8, ymm10
  .psubw 15 11 (.y 9), -- 67: vpsubw ymm15, ymm11, ymm9
  .pmullw 10 14 (.y 1), -- 68: vpmullw ymm10, ymm14, ymm1
  .paddw 9 9 (.y 11), -- 69: vpaddw ymm9, ymm9, ymm11
  .pmullw 11 15 (.y 1), -- 70: vpmullw ymm11, ymm15, ymm1
  .pmulhw 12 12 (.y 2), -- 71: vpmulhw ymm12, ymm12, ymm2
  .pmulhw 13 13 (.y 2), -- 72: vpmulhw ymm13, ymm13, ymm2
  .pmulhw 14 14 (.y 3), -- 73: vpmulhw ymm14, ymm14, ymm3
  .pmulhw 15 15 (.y 3), -- 74: vpmulhw ymm15, ymm15, ymm3
  .pmulhw 6 6 (.y 0), -- 75: vpmulhw ymm6, ymm6, ymm0
  .pmulhw 7 7 (.y 0), -- 76: vpmulhw ymm7, ymm7, ymm0
  .pmulhw 10 10 (.y 0), -- 77: vpmulhw ymm10, ymm10, ymm0
  .pmulhw 11 11 (.y 0), -- 78: vpmulhw ymm11, ymm11, ymm0
  .psubw 6 12 (.y 6), -- 79: vpsubw ymm6, ymm12, ymm6
  .psubw 7 13 (.y 7), -- 80: vpsubw ymm7, ymm13, ymm7
  .psubw 10 14 (.y 10), -- 81: vpsubw ymm10, ymm14, ymm10
  .psubw 11 15 (.y 11), -- 82: vpsubw ymm11, ymm15, ymm11
  .permq 2 (.m ⟨some .rsi, none, 800#64⟩) 78, -- 83: vpermq ymm2, [800 + rsi], 0x4e
  .permq 3 (.m ⟨some .rsi, none, 832#64⟩) 78, -- 84: vpermq ymm3, [832 + rsi], 0x4e
  .movA 1 (.m ⟨some .rsi, none, 0#64⟩), -- 85: vmovdqa ymm1, [rsi]
  .pshufb 2 2 (.y 1), -- 86: vpshufb ymm2, ymm2, ymm1
  .pshufb 3 3 (.y 1), -- 87: vpshufb ymm3, ymm3, ymm1
  .psubw 12 8 (.y 4), -- 88: vpsubw ymm12, ymm8, ymm4
  .paddw 4 4 (.y 8), -- 89: vpaddw ymm4, ymm4, ymm8
  .psubw 13 9 (.y 5), -- 90: vpsubw ymm13, ymm9, ymm5
  .pmullw 8 12 (.y 2), -- 91: vpmullw ymm8, ymm12, ymm2
  .paddw 5 5 (.y 9), -- 92: vpaddw ymm5, ymm5, ymm9
  .psubw 14 10 (.y 6), -- 93: vpsubw ymm14, ymm10, ymm6
  .pmullw 9 13 (.y 2), -- 94: vpmullw ymm9, ymm13, ymm2
  .paddw 6 6 (.y 10), -- 95: vpaddw ymm6, ymm6, ymm10
  .psubw 15 11 (.y 7), -- 96: vpsubw ymm15, ymm11, ymm7
  .pmullw 10 14 (.y 2), -- 97: vpmullw ymm10, ymm14, ymm2
  .paddw 7 7 (.y 11), -- 98: vpaddw ymm7, ymm7, ymm11
  .pmullw 11 15 (.y 2), -- 99: vpmullw ymm11, ymm15, ymm2
  .pmulhw 12 12 (.y 3), -- 100: vpmulhw ymm12, ymm12, ymm3
  .pmulhw 13 13 (.y 3), -- 101: vpmulhw ymm13, ymm13, ymm3
  .pmulhw 14 14 (.y 3), -- 102: vpmulhw ymm14, ymm14, ymm3
  .pmulhw 15 15 (.y 3), -- 103: vpmulhw ymm15, ymm15, ymm3
  .pmulhw 8 8 (.y 0), -- 104: vpmulhw ymm8, ymm8, ymm0
  .pmulhw 9 9 (.y 0), -- 105: vpmulhw ymm9, ymm9, ymm0
  .pmulhw 10 10 (.y 0), -- 106: vpmulhw ymm10, ymm10, ymm0
  .pmulhw 11 11 (.y 0), -- 107: vpmulhw ymm11, ymm11, ymm0
  .psubw 8 12 (.y 8), -- 108: vpsubw ymm8, ymm12, ymm8
  .psubw 9 13 (.y 9), -- 109: vpsubw ymm9, ymm13, ymm9
  .psubw 10 14 (.y 10), -- 110: vpsubw ymm10, ymm14, ymm10
  .psubw 11 15 (.y 11), -- 111: vpsubw ymm11, ymm15, ymm11
  .pslld 3 5 16, -- 112: vpslld ymm3, ymm5, 0x10
  .pblendw 3 4 (.y 3) 170, -- 113: vpblendw ymm3, ymm4, ymm3, 0xaa
  .psrld 4 4 16, -- 114: vpsrld ymm4, ymm4, 0x10
  .pblendw 5 4 (.y 5) 170, -- 115: vpblendw ymm5, ymm4, ymm5, 0xaa
  .pslld 4 7 16, -- 116: vpslld ymm4, ymm7, 0x10
  .pblendw 4 6 (.y 4) 170, -- 117: vpblendw ymm4, ymm6, ymm4, 0xaa
  .psrld 6 6 16, -- 118: vpsrld ymm6, ymm6, 0x10
  .pblendw 7 6 (.y 7) 170, -- 119: vpblendw ymm7, ymm6, ymm7, 0xaa
  .pslld 6 9 16, -- 120: vpslld ymm6, ymm9, 0x10
  .pblendw 6 8 (.y 6) 170, -- 121: vpblendw ymm6, ymm8, ymm6, 0xaa
  .psrld 8 8 16, -- 122: vpsrld ymm8, ymm8, 0x10
  .pblendw 9 8 (.y 9) 170, -- 123: vpblendw ymm9, ymm8, ymm9, 0xaa
  .pslld 8 11 16, -- 124: vpslld ymm8, ymm11, 0x10
  .pblendw 8 10 (.y 8) 170, -- 125: vpblendw ymm8, ymm10, ymm8, 0xaa
  .psrld 10 10 16, -- 126: vpsrld ymm10, ymm10, 0x10
  .pblendw 11 10 (.y 11) 170, -- 127: vpblendw ymm11, ymm10, ymm11, 0xaa
  .movA 12 (.m ⟨some .rsi, none, 32#64⟩), -- 128: vmovdqa ymm12, [32 + rsi]
  .permd 2 12 (.m ⟨some .rsi, none, 736#64⟩), -- 129: vpermd ymm2, ymm12, [736 + rsi]
  .permd 10 12 (.m ⟨some .rsi, none, 768#64⟩), -- 130: vpermd ymm10, ymm12, [768 + rsi]
  .psubw 12 5 (.y 3), -- 131: vpsubw ymm12, ymm5, ymm3
  .paddw 3 3 (.y 5), -- 132: vpaddw ymm3, ymm3, ymm5
  .psubw 13 7 (.y 4), -- 133: vpsubw ymm13, ymm7, ymm4
  .pmullw 5 12 (.y 2), -- 134: vpmullw ymm5, ymm12, ymm2
  .paddw 4 4 (.y 7), -- 135: vpaddw ymm4, ymm4, ymm7
  .psubw 14 9 (.y 6), -- 136: vpsubw ymm14, ymm9, ymm6
  .pmullw 7 13 (.y 2), -- 137: vpmullw ymm7, ymm13, ymm2
  .paddw 6 6 (.y 9), -- 138: vpaddw ymm6, ymm6, ymm9
  .psubw 15 11 (.y 8), -- 139: vpsubw ymm15, ymm11, ymm8
  .pmullw 9 14 (.y 2), -- 140: vpmullw ymm9, ymm14, ymm2
  .paddw 8 8 (.y 11), -- 141: vpaddw ymm8, ymm8, ymm11
  .pmullw 11 15 (.y 2), -- 142: vpmullw ymm11, ymm15, ymm2
  .pmulhw 12 12 (.y 10), -- 143: vpmulhw ymm12, ymm12, ymm10
  .pmulhw 13 13 (.y 10), -- 144: vpmulhw ymm13, ymm13, ymm10
  .pmulhw 14 14 (.y 10), -- 145: vpmulhw ymm14, ymm14, ymm10
  .pmulhw 15 15 (.y 10), -- 146: vpmulhw ymm15, ymm15, ymm10
  .pmulhw 5 5 (.y 0), -- 147: vpmulhw ymm5, ymm5, ymm0
  .pmulhw 7 7 (.y 0), -- 148: vpmulhw ymm7, ymm7, ymm0
  .pmulhw 9 9 (.y 0), -- 149: vpmulhw ymm9, ymm9, ymm0
  .pmulhw 11 11 (.y 0), -- 150: vpmulhw ymm11, ymm11, ymm0
  .psubw 5 12 (.y 5), -- 151: vpsubw ymm5, ymm12, ymm5
  .psubw 7 13 (.y 7), -- 152: vpsubw ymm7, ymm13, ymm7
  .psubw 9 14 (.y 9), -- 153: vpsubw ymm9, ymm14, ymm9
  .psubw 11 15 (.y 11), -- 154: vpsubw ymm11, ymm15, ymm11
  .sc (.mov (.reg .rax) (.imm 0x4ebf4ebf#64)), -- 155: mov eax, 0x4ebf4ebf
  .vmovd 1 .rax, -- 156: vmovd xmm1, eax
  .pbroadcastd 1 1, -- 157: vpbroadcastd ymm1, xmm1
  .pmulhw 12 3 (.y 1), -- 158: vpmulhw ymm12, ymm3, ymm1
  .psraw 12 12 10, -- 159: vpsraw ymm12, ymm12, 0xa
  .pmullw 12 12 (.y 0), -- 160: vpmullw ymm12, ymm12, ymm0
  .psubw 3 3 (.y 12), -- 161: vpsubw ymm3, ymm3, ymm12
  .movsldup 10 (.y 4), -- 162: vmovsldup ymm10, ymm4
  .pblendd 10 3 (.y 10) 170, -- 163: vpblendd ymm10, ymm3, ymm10, 0xaa
  .psrlq 3 3 32, -- 164: vpsrlq ymm3, ymm3, 0x20
  .pblendd 4 3 (.y 4) 170, -- 165: vpblendd ymm4, ymm3, ymm4, 0xaa
  .movsldup 3 (.y 8), -- 166: vmovsldup ymm3, ymm8
  .pblendd 3 6 (.y 3) 170, -- 167: vpblendd ymm3, ymm6, ymm3, 0xaa
  .psrlq 6 6 32, -- 168: vpsrlq ymm6, ymm6, 0x20
  .pblendd 8 6 (.y 8) 170, -- 169: vpblendd ymm8, ymm6, ymm8, 0xaa
  .movsldup 6 (.y 7), -- 170: vmovsldup ymm6, ymm7
  .pblendd 6 5 (.y 6) 170, -- 171: vpblendd ymm6, ymm5, ymm6, 0xaa
  .psrlq 5 5 32, -- 172: vpsrlq ymm5, ymm5, 0x20
  .pblendd 7 5 (.y 7) 170, -- 173: vpblendd ymm7, ymm5, ymm7, 0xaa
  .movsldup 5 (.y 11), -- 174: vmovsldup ymm5, ymm11
  .pblendd 5 9 (.y 5) 170, -- 175: vpblendd ymm5, ymm9, ymm5, 0xaa
  .psrlq 9 9 32, -- 176: vpsrlq ymm9, ymm9, 0x20
  .pblendd 11 9 (.y 11) 170, -- 177: vpblendd ymm11, ymm9, ymm11, 0xaa
  .permq 2 (.m ⟨some .rsi, none, 672#64⟩) 27, -- 178: vpermq ymm2, [672 + rsi], 0x1b
  .permq 9 (.m ⟨some .rsi, none, 704#64⟩) 27, -- 179: vpermq ymm9, [704 + rsi], 0x1b
  .psubw 12 4 (.y 10), -- 180: vpsubw ymm12, ymm4, ymm10
  .paddw 10 10 (.y 4), -- 181: vpaddw ymm10, ymm10, ymm4
  .psubw 13 8 (.y 3), -- 182: vpsubw ymm13, ymm8, ymm3
  .pmullw 4 12 (.y 2), -- 183: vpmullw ymm4, ymm12, ymm2
  .paddw 3 3 (.y 8), -- 184: vpaddw ymm3, ymm3, ymm8
  .psubw 14 7 (.y 6), -- 185: vpsubw ymm14, ymm7, ymm6
  .pmullw 8 13 (.y 2), -- 186: vpmullw ymm8, ymm13, ymm2
  .paddw 6 6 (.y 7), -- 187: vpaddw ymm6, ymm6, ymm7
  .psubw 15 11 (.y 5), -- 188: vpsubw ymm15, ymm11, ymm5
  .pmullw 7 14 (.y 2), -- 189: vpmullw ymm7, ymm14, ymm2
  .paddw 5 5 (.y 11), -- 190: vpaddw ymm5, ymm5, ymm11
  .pmullw 11 15 (.y 2), -- 191: vpmullw ymm11, ymm15, ymm2
  .pmulhw 12 12 (.y 9), -- 192: vpmulhw ymm12, ymm12, ymm9
  .pmulhw 13 13 (.y 9), -- 193: vpmulhw ymm13, ymm13, ymm9
  .pmulhw 14 14 (.y 9), -- 194: vpmulhw ymm14, ymm14, ymm9
  .pmulhw 15 15 (.y 9), -- 195: vpmulhw ymm15, ymm15, ymm9
  .pmulhw 4 4 (.y 0), -- 196: vpmulhw ymm4, ymm4, ymm0
  .pmulhw 8 8 (.y 0), -- 197: vpmulhw ymm8, ymm8, ymm0
  .pmulhw 7 7 (.y 0), -- 198: vpmulhw ymm7, ymm7, ymm0
  .pmulhw 11 11 (.y 0), -- 199: vpmulhw ymm11, ymm11, ymm0
  .psubw 4 12 (.y 4), -- 200: vpsubw ymm4, ymm12, ymm4
  .psubw 8 13 (.y 8), -- 201: vpsubw ymm8, ymm13, ymm8
  .psubw 7 14 (.y 7), -- 202: vpsubw ymm7, ymm14, ymm7
  .psubw 11 15 (.y 11), -- 203: vpsubw ymm11, ymm15, ymm11
  .pmulhw 12 10 (.y 1), -- 204: vpmulhw ymm12, ymm10, ymm1
  .psraw 12 12 10, -- 205: vpsraw ymm12, ymm12, 0xa
  .pmullw 12 12 (.y 0), -- 206: vpmullw ymm12, ymm12, ymm0
  .psubw 10 10 (.y 12), -- 207: vpsubw ymm10, ymm10, ymm12
  .punpcklqdq 9 10 (.y 3), -- 208: vpunpcklqdq ymm9, ymm10, ymm3
  .punpckhqdq 3 10 (.y 3), -- 209: vpunpckhqdq ymm3, ymm10, ymm3
  .punpcklqdq 10 6 (.y 5), -- 210: vpunpcklqdq ymm10, ymm6, ymm5
  .punpckhqdq 5 6 (.y 5), -- 211: vpunpckhqdq ymm5, ymm6, ymm5
  .punpcklqdq 6 4 (.y 8), -- 212: vpunpcklqdq ymm6, ymm4, ymm8
  .punpckhqdq 8 4 (.y 8), -- 213: vpunpckhqdq ymm8, ymm4, ymm8
  .punpcklqdq 4 7 (.y 11), -- 214: vpunpcklqdq ymm4, ymm7, ymm11
  .punpckhqdq 11 7 (.y 11), -- 215: vpunpckhqdq ymm11, ymm7, ymm11
  .permq 2 (.m ⟨some .rsi, none, 608#64⟩) 78, -- 216: vpermq ymm2, [608 + rsi], 0x4e
  .permq 7 (.m ⟨some .rsi, none, 640#64⟩) 78, -- 217: vpermq ymm7, [640 + rsi], 0x4e
  .psubw 12 3 (.y 9), -- 218: vpsubw ymm12, ymm3, ymm9
  .paddw 9 9 (.y 3), -- 219: vpaddw ymm9, ymm9, ymm3
  .psubw 13 5 (.y 10), -- 220: vpsubw ymm13, ymm5, ymm10
  .pmullw 3 12 (.y 2), -- 221: vpmullw ymm3, ymm12, ymm2
  .paddw 10 10 (.y 5), -- 222: vpaddw ymm10, ymm10, ymm5
  .psubw 14 8 (.y 6), -- 223: vpsubw ymm14, ymm8, ymm6
  .pmullw 5 13 (.y 2), -- 224: vpmullw ymm5, ymm13, ymm2
  .paddw 6 6 (.y 8), -- 225: vpaddw ymm6, ymm6, ymm8
  .psubw 15 11 (.y 4), -- 226: vpsubw ymm15, ymm11, ymm4
  .pmullw 8 14 (.y 2), -- 227: vpmullw ymm8, ymm14, ymm2
  .paddw 4 4 (.y 11), -- 228: vpaddw ymm4, ymm4, ymm11
  .pmullw 11 15 (.y 2), -- 229: vpmullw ymm11, ymm15, ymm2
  .pmulhw 12 12 (.y 7), -- 230: vpmulhw ymm12, ymm12, ymm7
  .pmulhw 13 13 (.y 7), -- 231: vpmulhw ymm13, ymm13, ymm7
  .pmulhw 14 14 (.y 7), -- 232: vpmulhw ymm14, ymm14, ymm7
  .pmulhw 15 15 (.y 7), -- 233: vpmulhw ymm15, ymm15, ymm7
  .pmulhw 3 3 (.y 0), -- 234: vpmulhw ymm3, ymm3, ymm0
  .pmulhw 5 5 (.y 0), -- 235: vpmulhw ymm5, ymm5, ymm0
  .pmulhw 8 8 (.y 0), -- 236: vpmulhw ymm8, ymm8, ymm0
  .pmulhw 11 11 (.y 0), -- 237: vpmulhw ymm11, ymm11, ymm0
  .psubw 3 12 (.y 3), -- 238: vpsubw ymm3, ymm12, ymm3
  .psubw 5 13 (.y 5), -- 239: vpsubw ymm5, ymm13, ymm5
  .psubw 8 14 (.y 8), -- 240: vpsubw ymm8, ymm14, ymm8
  .psubw 11 15 (.y 11), -- 241: vpsubw ymm11, ymm15, ymm11
  .pmulhw 12 9 (.y 1), -- 242: vpmulhw ymm12, ymm9, ymm1
  .psraw 12 12 10, -- 243: vpsraw ymm12, ymm12, 0xa
  .pmullw 12 12 (.y 0), -- 244: vpmullw ymm12, ymm12, ymm0
  .psubw 9 9 (.y 12), -- 245: vpsubw ymm9, ymm9, ymm12
  .perm2i128 7 9 (.y 10) 32, -- 246: vperm2i128 ymm7, ymm9, ymm10, 0x20
  .perm2i128 10 9 (.y 10) 49, -- 247: vperm2i128 ymm10, ymm9, ymm10, 0x31
  .perm2i128 9 6 (.y 4) 32, -- 248: vperm2i128 ymm9, ymm6, ymm4, 0x20
  .perm2i128 4 6 (.y 4) 49, -- 249: vperm2i128 ymm4, ymm6, ymm4, 0x31
  .perm2i128 6 3 (.y 5) 32, -- 250: vperm2i128 ymm6, ymm3, ymm5, 0x20
  .perm2i128 5 3 (.y 5) 49, -- 251: vperm2i128 ymm5, ymm3, ymm5, 0x31
  .perm2i128 3 8 (.y 11) 32, -- 252: vperm2i128 ymm3, ymm8, ymm11, 0x20
  .perm2i128 11 8 (.y 11) 49, -- 253: vperm2i128 ymm11, ymm8, ymm11, 0x31
  .movA 2 (.m ⟨some .rsi, none, 544#64⟩), -- 254: vmovdqa ymm2, [544 + rsi]
  .movA 8 (.m ⟨some .rsi, none, 576#64⟩), -- 255: vmovdqa ymm8, [576 + rsi]
  .psubw 12 10 (.y 7), -- 256: vpsubw ymm12, ymm10, ymm7
  .paddw 7 7 (.y 10), -- 257: vpaddw ymm7, ymm7, ymm10
  .psubw 13 4 (.y 9), -- 258: vpsubw ymm13, ymm4, ymm9
  .pmullw 10 12 (.y 2), -- 259: vpmullw ymm10, ymm12, ymm2
  .paddw 9 9 (.y 4), -- 260: vpaddw ymm9, ymm9, ymm4
  .psubw 14 5 (.y 6), -- 261: vpsubw ymm14, ymm5, ymm6
  .pmullw 4 13 (.y 2), -- 262: vpmullw ymm4, ymm13, ymm2
  .paddw 6 6 (.y 5), -- 263: vpaddw ymm6, ymm6, ymm5
  .psubw 15 11 (.y 3), -- 264: vpsubw ymm15, ymm11, ymm3
  .pmullw 5 14 (.y 2), -- 265: vpmullw ymm5, ymm14, ymm2
  .paddw 3 3 (.y 11), -- 266: vpaddw ymm3, ymm3, ymm11
  .pmullw 11 15 (.y 2), -- 267: vpmullw ymm11, ymm15, ymm2
  .pmulhw 12 12 (.y 8), -- 268: vpmulhw ymm12, ymm12, ymm8
  .pmulhw 13 13 (.y 8), -- 269: vpmulhw ymm13, ymm13, ymm8
  .pmulhw 14 14 (.y 8), -- 270: vpmulhw ymm14, ymm14, ymm8
  .pmulhw 15 15 (.y 8), -- 271: vpmulhw ymm15, ymm15, ymm8
  .pmulhw 10 10 (.y 0), -- 272: vpmulhw ymm10, ymm10, ymm0
  .pmulhw 4 4 (.y 0), -- 273: vpmulhw ymm4, ymm4, ymm0
  .pmulhw 5 5 (.y 0), -- 274: vpmulhw ymm5, ymm5, ymm0
  .pmulhw 11 11 (.y 0), -- 275: vpmulhw ymm11, ymm11, ymm0
  .psubw 10 12 (.y 10), -- 276: vpsubw ymm10, ymm12, ymm10
  .psubw 4 13 (.y 4), -- 277: vpsubw ymm4, ymm13, ymm4
  .psubw 5 14 (.y 5), -- 278: vpsubw ymm5, ymm14, ymm5
  .psubw 11 15 (.y 11), -- 279: vpsubw ymm11, ymm15, ymm11
  .pmulhw 12 7 (.y 1), -- 280: vpmulhw ymm12, ymm7, ymm1
  .psraw 12 12 10, -- 281: vpsraw ymm12, ymm12, 0xa
  .pmullw 12 12 (.y 0), -- 282: vpmullw ymm12, ymm12, ymm0
  .psubw 7 7 (.y 12), -- 283: vpsubw ymm7, ymm7, ymm12
  .stA ⟨some .rdi, none, 0#64⟩ 7, -- 284: vmovdqa [rdi], ymm7
  .stA ⟨some .rdi, none, 32#64⟩ 9, -- 285: vmovdqa [32 + rdi], ymm9
  .stA ⟨some .rdi, none, 64#64⟩ 6, -- 286: vmovdqa [64 + rdi], ymm6
  .stA ⟨some .rdi, none, 96#64⟩ 3, -- 287: vmovdqa [96 + rdi], ymm3
  .stA ⟨some .rdi, none, 128#64⟩ 10, -- 288: vmovdqa [128 + rdi], ymm10
  .stA ⟨some .rdi, none, 160#64⟩ 4, -- 289: vmovdqa [160 + rdi], ymm4
  .stA ⟨some .rdi, none, 192#64⟩ 5, -- 290: vmovdqa [192 + rdi], ymm5
  .stA ⟨some .rdi, none, 224#64⟩ 11, -- 291: vmovdqa [224 + rdi], ymm11
  .sc (.mov (.reg .rax) (.imm 0xd8a1d8a1#64)), -- 292: mov eax, 0xd8a1d8a1
  .vmovd 2 .rax, -- 293: vmovd xmm2, eax
  .pbroadcastd 2 2, -- 294: vpbroadcastd ymm2, xmm2
  .sc (.mov (.reg .rax) (.imm 0x5a105a1#64)), -- 295: mov eax, 0x5a105a1
  .vmovd 3 .rax, -- 296: vmovd xmm3, eax
  .pbroadcastd 3 3, -- 297: vpbroadcastd ymm3, xmm3
  .movA 4 (.m ⟨some .rdi, none, 256#64⟩), -- 298: vmovdqa ymm4, [256 + rdi]
  .movA 6 (.m ⟨some .rdi, none, 320#64⟩), -- 299: vmovdqa ymm6, [320 + rdi]
  .movA 5 (.m ⟨some .rdi, none, 288#64⟩), -- 300: vmovdqa ymm5, [288 + rdi]
  .movA 7 (.m ⟨some .rdi, none, 352#64⟩), -- 301: vmovdqa ymm7, [352 + rdi]
  .pmullw 12 4 (.y 2), -- 302: vpmullw ymm12, ymm4, ymm2
  .pmulhw 4 4 (.y 3), -- 303: vpmulhw ymm4, ymm4, ymm3
  .pmulhw 12 12 (.y 0), -- 304: vpmulhw ymm12, ymm12, ymm0
  .psubw 4 4 (.y 12), -- 305: vpsubw ymm4, ymm4, ymm12
  .pmullw 12 6 (.y 2), -- 306: vpmullw ymm12, ymm6, ymm2
  .pmulhw 6 6 (.y 3), -- 307: vpmulhw ymm6, ymm6, ymm3
  .pmulhw 12 12 (.y 0), -- 308: vpmulhw ymm12, ymm12, ymm0
  .psubw 6 6 (.y 12), -- 309: vpsubw ymm6, ymm6, ymm12
  .pmullw 12 5 (.y 2), -- 310: vpmullw ymm12, ymm5, ymm2
  .pmulhw 5 5 (.y 3), -- 311: vpmulhw ymm5, ymm5, ymm3
  .pmulhw 12 12 (.y 0), -- 312: vpmulhw ymm12, ymm12, ymm0
  .psubw 5 5 (.y 12), -- 313: vpsubw ymm5, ymm5, ymm12
  .pmullw 12 7 (.y 2), -- 314: vpmullw ymm12, ymm7, ymm2
  .pmulhw 7 7 (.y 3), -- 315: vpmulhw ymm7, ymm7, ymm3
  .pmulhw 12 12 (.y 0), -- 316: vpmulhw ymm12, ymm12, ymm0
  .psubw 7 7 (.y 12), -- 317: vpsubw ymm7, ymm7, ymm12
  .movA 8 (.m ⟨some .rdi, none, 384#64⟩), -- 318: vmovdqa ymm8, [384 + rdi]
  .movA 10 (.m ⟨some .rdi, none, 448#64⟩), -- 319: vmovdqa ymm10, [448 + rdi]
  .movA 9 (.m ⟨some .rdi, none, 416#64⟩), -- 320: vmovdqa ymm9, [416 + rdi]
  .movA 11 (.m ⟨some .rdi, none, 480#64⟩), -- 321: vmovdqa ymm11, [480 + rdi]
  .pmullw 12 8 (.y 2), -- 322: vpmullw ymm12, ymm8, ymm2
  .pmulhw 8 8 (.y 3), -- 323: vpmulhw ymm8, ymm8, ymm3
  .pmulhw 12 12 (.y 0), -- 324: vpmulhw ymm12, ymm12, ymm0
  .psubw 8 8 (.y 12), -- 325: vpsubw ymm8, ymm8, ymm12
  .pmullw 12 10 (.y 2), -- 326: vpmullw ymm12, ymm10, ymm2
  .pmulhw 10 10 (.y 3), -- 327: vpmulhw ymm10, ymm10, ymm3
  .pmulhw 12 12 (.y 0), -- 328: vpmulhw ymm12, ymm12, ymm0
  .psubw 10 10 (.y 12), -- 329: vpsubw ymm10, ymm10, ymm12
  .pmullw 12 9 (.y 2), -- 330: vpmullw ymm12, ymm9, ymm2
  .pmulhw 9 9 (.y 3), -- 331: vpmulhw ymm9, ymm9, ymm3
  .pmulhw 12 12 (.y 0), -- 332: vpmulhw ymm12, ymm12, ymm0
  .psubw 9 9 (.y 12), -- 333: vpsubw ymm9, ymm9, ymm12
  .pmullw 12 11 (.y 2), -- 334: vpmullw ymm12, ymm11, ymm2
  .pmulhw 11 11 (.y 3), -- 335: vpmulhw ymm11, ymm11, ymm3
  .pmulhw 12 12 (.y 0), -- 336: vpmulhw ymm12, ymm12, ymm0
  .psubw 11 11 (.y 12), -- 337: vpsubw ymm11, ymm11, ymm12
  .permq 15 (.m ⟨some .rsi, none, 480#64⟩) 78, -- 338: vpermq ymm15, [480 + rsi], 0x4e
  .permq 1 (.m ⟨some .rsi, none, 416#64⟩) 78, -- 339: vpermq ymm1, [416 + rsi], 0x4e
  .permq 2 (.m ⟨some .rsi, none, 512#64⟩) 78, -- 340: vpermq ymm2, [512 + rsi], 0x4e
  .permq 3 (.m ⟨some .rsi, none, 448#64⟩) 78, -- 341: vpermq ymm3, [448 + rsi], 0x4e
  .movA 12 (.m ⟨some .rsi, none, 0#64⟩), -- 342: vmovdqa ymm12, [rsi]
  .pshufb 15 15 (.y 12), -- 343: vpshufb ymm15, ymm15, ymm12
  .pshufb 1 1 (.y 12), -- 344: vpshufb ymm1, ymm1, ymm12
  .pshufb 2 2 (.y 12), -- 345: vpshufb ymm2, ymm2, ymm12
  .pshufb 3 3 (.y 12), -- 346: vpshufb ymm3, ymm3, ymm12
  .psubw 12 6 (.y 4), -- 347: vpsubw ymm12, ymm6, ymm4
  .paddw 4 4 (.y 6), -- 348: vpaddw ymm4, ymm4, ymm6
  .psubw 13 7 (.y 5), -- 349: vpsubw ymm13, ymm7, ymm5
  .pmullw 6 12 (.y 15), -- 350: vpmullw ymm6, ymm12, ymm15
  .paddw 5 5 (.y 7), -- 351: vpaddw ymm5, ymm5, ymm7
  .psubw 14 10 (.y 8), -- 352: vpsubw ymm14, ymm10, ymm8
  .pmullw 7 13 (.y 15), -- 353: vpmullw ymm7, ymm13, ymm15
  .paddw 8 8 (.y 10), -- 354: vpaddw ymm8, ymm8, ymm10
  .psubw 15 11 (.y 9), -- 355: vpsubw ymm15, ymm11, ymm9
  .pmullw 10 14 (.y 1), -- 356: vpmullw ymm10, ymm14, ymm1
  .paddw 9 9 (.y 11), -- 357: vpaddw ymm9, ymm9, ymm11
  .pmullw 11 15 (.y 1), -- 358: vpmullw ymm11, ymm15, ymm1
  .pmulhw 12 12 (.y 2), -- 359: vpmulhw ymm12, ymm12, ymm2
  .pmulhw 13 13 (.y 2), -- 360: vpmulhw ymm13, ymm13, ymm2
  .pmulhw 14 14 (.y 3), -- 361: vpmulhw ymm14, ymm14, ymm3
  .pmulhw 15 15 (.y 3), -- 362: vpmulhw ymm15, ymm15, ymm3
  .pmulhw 6 6 (.y 0), -- 363: vpmulhw ymm6, ymm6, ymm0
  .pmulhw 7 7 (.y 0), -- 364: vpmulhw ymm7, ymm7, ymm0
  .pmulhw 10 10 (.y 0), -- 365: vpmulhw ymm10, ymm10, ymm0
  .pmulhw 11 11 (.y 0), -- 366: vpmulhw ymm11, ymm11, ymm0
  .psubw 6 12 (.y 6), -- 367: vpsubw ymm6, ymm12, ymm6
  .psubw 7 13 (.y 7), -- 368: vpsubw ymm7, ymm13, ymm7
  .psubw 10 14 (.y 10), -- 369: vpsubw ymm10, ymm14, ymm10
  .psubw 11 15 (.y 11), -- 370: vpsubw ymm11, ymm15, ymm11
  .permq 2 (.m ⟨some .rsi, none, 352#64⟩) 78, -- 371: vpermq ymm2, [352 + rsi], 0x4e
  .permq 3 (.m ⟨some .rsi, none, 384#64⟩) 78, -- 372: vpermq ymm3, [384 + rsi], 0x4e
  .movA 1 (.m ⟨some .rsi, none, 0#64⟩), -- 373: vmovdqa ymm1, [rsi]
  .pshufb 2 2 (.y 1), -- 374: vpshufb ymm2, ymm2, ymm1
  .pshufb 3 3 (.y 1), -- 375: vpshufb ymm3, ymm3, ymm1
  .psubw 12 8 (.y 4), -- 376: vpsubw ymm12, ymm8, ymm4
  .paddw 4 4 (.y 8), -- 377: vpaddw ymm4, ymm4, ymm8
  .psubw 13 9 (.y 5), -- 378: vpsubw ymm13, ymm9, ymm5
  .pmullw 8 12 (.y 2), -- 379: vpmullw ymm8, ymm12, ymm2
  .paddw 5 5 (.y 9), -- 380: vpaddw ymm5, ymm5, ymm9
  .psubw 14 10 (.y 6), -- 381: vpsubw ymm14, ymm10, ymm6
  .pmullw 9 13 (.y 2), -- 382: vpmullw ymm9, ymm13, ymm2
  .paddw 6 6 (.y 10), -- 383: vpaddw ymm6, ymm6, ymm10
  .psubw 15 11 (.y 7), -- 384: vpsubw ymm15, ymm11, ymm7
  .pmullw 10 14 (.y 2), -- 385: vpmullw ymm10, ymm14, ymm2
  .paddw 7 7 (.y 11), -- 386: vpaddw ymm7, ymm7, ymm11
  .pmullw 11 15 (.y 2), -- 387: vpmullw ymm11, ymm15, ymm2
  .pmulhw 12 12 (.y 3), -- 388: vpmulhw ymm12, ymm12, ymm3
  .pmulhw 13 13 (.y 3), -- 389: vpmulhw ymm13, ymm13, ymm3
  .pmulhw 14 14 (.y 3), -- 390: vpmulhw ymm14, ymm14, ymm3
  .pmulhw 15 15 (.y 3), -- 391: vpmulhw ymm15, ymm15, ymm3
  .pmulhw 8 8 (.y 0), -- 392: vpmulhw ymm8, ymm8, ymm0
  .pmulhw 9 9 (.y 0), -- 393: vpmulhw ymm9, ymm9, ymm0
  .pmulhw 10 10 (.y 0), -- 394: vpmulhw ymm10, ymm10, ymm0
  .pmulhw 11 11 (.y 0), -- 395: vpmulhw ymm11, ymm11, ymm0
  .psubw 8 12 (.y 8), -- 396: vpsubw ymm8, ymm12, ymm8
  .psubw 9 13 (.y 9), -- 397: vpsubw ymm9, ymm13, ymm9
  .psubw 10 14 (.y 10), -- 398: vpsubw ymm10, ymm14, ymm10
  .psubw 11 15 (.y 11), -- 399: vpsubw ymm11, ymm15, ymm11
  .pslld 3 5 16, -- 400: vpslld ymm3, ymm5, 0x10
  .pblendw 3 4 (.y 3) 170, -- 401: vpblendw ymm3, ymm4, ymm3, 0xaa
  .psrld 4 4 16, -- 402: vpsrld ymm4, ymm4, 0x10
  .pblendw 5 4 (.y 5) 170, -- 403: vpblendw ymm5, ymm4, ymm5, 0xaa
  .pslld 4 7 16, -- 404: vpslld ymm4, ymm7, 0x10
  .pblendw 4 6 (.y 4) 170, -- 405: vpblendw ymm4, ymm6, ymm4, 0xaa
  .psrld 6 6 16, -- 406: vpsrld ymm6, ymm6, 0x10
  .pblendw 7 6 (.y 7) 170, -- 407: vpblendw ymm7, ymm6, ymm7, 0xaa
  .pslld 6 9 16, -- 408: vpslld ymm6, ymm9, 0x10
  .pblendw 6 8 (.y 6) 170, -- 409: vpblendw ymm6, ymm8, ymm6, 0xaa
  .psrld 8 8 16, -- 410: vpsrld ymm8, ymm8, 0x10
  .pblendw 9 8 (.y 9) 170, -- 411: vpblendw ymm9, ymm8, ymm9, 0xaa
  .pslld 8 11 16, -- 412: vpslld ymm8, ymm11, 0x10
  .pblendw 8 10 (.y 8) 170, -- 413: vpblendw ymm8, ymm10, ymm8, 0xaa
  .psrld 10 10 16, -- 414: vpsrld ymm10, ymm10, 0x10
  .pblendw 11 10 (.y 11) 170, -- 415: vpblendw ymm11, ymm10, ymm11, 0xaa
  .movA 12 (.m ⟨some .rsi, none, 32#64⟩), -- 416: vmovdqa ymm12, [32 + rsi]
  .permd 2 12 (.m ⟨some .rsi, none, 288#64⟩), -- 417: vpermd ymm2, ymm12, [288 + rsi]
  .permd 10 12 (.m ⟨some .rsi, none, 320#64⟩), -- 418: vpermd ymm10, ymm12, [320 + rsi]
  .psubw 12 5 (.y 3), -- 419: vpsubw ymm12, ymm5, ymm3
  .paddw 3 3 (.y 5), -- 420: vpaddw ymm3, ymm3, ymm5
  .psubw 13 7 (.y 4), -- 421: vpsubw ymm13, ymm7, ymm4
  .pmullw 5 12 (.y 2), -- 422: vpmullw ymm5, ymm12, ymm2
  .paddw 4 4 (.y 7), -- 423: vpaddw ymm4, ymm4, ymm7
  .psubw 14 9 (.y 6), -- 424: vpsubw ymm14, ymm9, ymm6
  .pmullw 7 13 (.y 2), -- 425: vpmullw ymm7, ymm13, ymm2
  .paddw 6 6 (.y 9), -- 426: vpaddw ymm6, ymm6, ymm9
  .psubw 15 11 (.y 8), -- 427: vpsubw ymm15, ymm11, ymm8
  .pmullw 9 14 (.y 2), -- 428: vpmullw ymm9, ymm14, ymm2
  .paddw 8 8 (.y 11), -- 429: vpaddw ymm8, ymm8, ymm11
  .pmullw 11 15 (.y 2), -- 430: vpmullw ymm11, ymm15, ymm2
  .pmulhw 12 12 (.y 10), -- 431: vpmulhw ymm12, ymm12, ymm10
  .pmulhw 13 13 (.y 10), -- 432: vpmulhw ymm13, ymm13, ymm10
  .pmulhw 14 14 (.y 10), -- 433: vpmulhw ymm14, ymm14, ymm10
  .pmulhw 15 15 (.y 10), -- 434: vpmulhw ymm15, ymm15, ymm10
  .pmulhw 5 5 (.y 0), -- 435: vpmulhw ymm5, ymm5, ymm0
  .pmulhw 7 7 (.y 0), -- 436: vpmulhw ymm7, ymm7, ymm0
  .pmulhw 9 9 (.y 0), -- 437: vpmulhw ymm9, ymm9, ymm0
  .pmulhw 11 11 (.y 0), -- 438: vpmulhw ymm11, ymm11, ymm0
  .psubw 5 12 (.y 5), -- 439: vpsubw ymm5, ymm12, ymm5
  .psubw 7 13 (.y 7), -- 440: vpsubw ymm7, ymm13, ymm7
  .psubw 9 14 (.y 9), -- 441: vpsubw ymm9, ymm14, ymm9
  .psubw 11 15 (.y 11), -- 442: vpsubw ymm11, ymm15, ymm11
  .sc (.mov (.reg .rax) (.imm 0x4ebf4ebf#64)), -- 443: mov eax, 0x4ebf4ebf
  .vmovd 1 .rax, -- 444: vmovd xmm1, eax
  .pbroadcastd 1 1, -- 445: vpbroadcastd ymm1, xmm1
  .pmulhw 12 3 (.y 1), -- 446: vpmulhw ymm12, ymm3, ymm1
  .psraw 12 12 10, -- 447: vpsraw ymm12, ymm12, 0xa
  .pmullw 12 12 (.y 0), -- 448: vpmullw ymm12, ymm12, ymm0
  .psubw 3 3 (.y 12), -- 449: vpsubw ymm3, ymm3, ymm12
  .movsldup 10 (.y 4), -- 450: vmovsldup ymm10, ymm4
  .pblendd 10 3 (.y 10) 170, -- 451: vpblendd ymm10, ymm3, ymm10, 0xaa
  .psrlq 3 3 32, -- 452: vpsrlq ymm3, ymm3, 0x20
  .pblendd 4 3 (.y 4) 170, -- 453: vpblendd ymm4, ymm3, ymm4, 0xaa
  .movsldup 3 (.y 8), -- 454: vmovsldup ymm3, ymm8
  .pblendd 3 6 (.y 3) 170, -- 455: vpblendd ymm3, ymm6, ymm3, 0xaa
  .psrlq 6 6 32, -- 456: vpsrlq ymm6, ymm6, 0x20
  .pblendd 8 6 (.y 8) 170, -- 457: vpblendd ymm8, ymm6, ymm8, 0xaa
  .movsldup 6 (.y 7), -- 458: vmovsldup ymm6, ymm7
  .pblendd 6 5 (.y 6) 170, -- 459: vpblendd ymm6, ymm5, ymm6, 0xaa
  .psrlq 5 5 32, -- 460: vpsrlq ymm5, ymm5, 0x20
  .pblendd 7 5 (.y 7) 170, -- 461: vpblendd ymm7, ymm5, ymm7, 0xaa
  .movsldup 5 (.y 11), -- 462: vmovsldup ymm5, ymm11
  .pblendd 5 9 (.y 5) 170, -- 463: vpblendd ymm5, ymm9, ymm5, 0xaa
  .psrlq 9 9 32, -- 464: vpsrlq ymm9, ymm9, 0x20
  .pblendd 11 9 (.y 11) 170, -- 465: vpblendd ymm11, ymm9, ymm11, 0xaa
  .permq 2 (.m ⟨some .rsi, none, 224#64⟩) 27, -- 466: vpermq ymm2, [224 + rsi], 0x1b
  .permq 9 (.m ⟨some .rsi, none, 256#64⟩) 27, -- 467: vpermq ymm9, [256 + rsi], 0x1b
  .psubw 12 4 (.y 10), -- 468: vpsubw ymm12, ymm4, ymm10
  .paddw 10 10 (.y 4), -- 469: vpaddw ymm10, ymm10, ymm4
  .psubw 13 8 (.y 3), -- 470: vpsubw ymm13, ymm8, ymm3
  .pmullw 4 12 (.y 2), -- 471: vpmullw ymm4, ymm12, ymm2
  .paddw 3 3 (.y 8), -- 472: vpaddw ymm3, ymm3, ymm8
  .psubw 14 7 (.y 6), -- 473: vpsubw ymm14, ymm7, ymm6
  .pmullw 8 13 (.y 2), -- 474: vpmullw ymm8, ymm13, ymm2
  .paddw 6 6 (.y 7), -- 475: vpaddw ymm6, ymm6, ymm7
  .psubw 15 11 (.y 5), -- 476: vpsubw ymm15, ymm11, ymm5
  .pmullw 7 14 (.y 2), -- 477: vpmullw ymm7, ymm14, ymm2
  .paddw 5 5 (.y 11), -- 478: vpaddw ymm5, ymm5, ymm11
  .pmullw 11 15 (.y 2), -- 479: vpmullw ymm11, ymm15, ymm2
  .pmulhw 12 12 (.y 9), -- 480: vpmulhw ymm12, ymm12, ymm9
  .pmulhw 13 13 (.y 9), -- 481: vpmulhw ymm13, ymm13, ymm9
  .pmulhw 14 14 (.y 9), -- 482: vpmulhw ymm14, ymm14, ymm9
  .pmulhw 15 15 (.y 9), -- 483: vpmulhw ymm15, ymm15, ymm9
  .pmulhw 4 4 (.y 0), -- 484: vpmulhw ymm4, ymm4, ymm0
  .pmulhw 8 8 (.y 0), -- 485: vpmulhw ymm8, ymm8, ymm0
  .pmulhw 7 7 (.y 0), -- 486: vpmulhw ymm7, ymm7, ymm0
  .pmulhw 11 11 (.y 0), -- 487: vpmulhw ymm11, ymm11, ymm0
  .psubw 4 12 (.y 4), -- 488: vpsubw ymm4, ymm12, ymm4
  .psubw 8 13 (.y 8), -- 489: vpsubw ymm8, ymm13, ymm8
  .psubw 7 14 (.y 7), -- 490: vpsubw ymm7, ymm14, ymm7
  .psubw 11 15 (.y 11), -- 491: vpsubw ymm11, ymm15, ymm11
  .pmulhw 12 10 (.y 1), -- 492: vpmulhw ymm12, ymm10, ymm1
  .psraw 12 12 10, -- 493: vpsraw ymm12, ymm12, 0xa
  .pmullw 12 12 (.y 0), -- 494: vpmullw ymm12, ymm12, ymm0
  .psubw 10 10 (.y 12), -- 495: vpsubw ymm10, ymm10, ymm12
  .punpcklqdq 9 10 (.y 3), -- 496: vpunpcklqdq ymm9, ymm10, ymm3
  .punpckhqdq 3 10 (.y 3), -- 497: vpunpckhqdq ymm3, ymm10, ymm3
  .punpcklqdq 10 6 (.y 5), -- 498: vpunpcklqdq ymm10, ymm6, ymm5
  .punpckhqdq 5 6 (.y 5), -- 499: vpunpckhqdq ymm5, ymm6, ymm5
  .punpcklqdq 6 4 (.y 8), -- 500: vpunpcklqdq ymm6, ymm4, ymm8
  .punpckhqdq 8 4 (.y 8), -- 501: vpunpckhqdq ymm8, ymm4, ymm8
  .punpcklqdq 4 7 (.y 11), -- 502: vpunpcklqdq ymm4, ymm7, ymm11
  .punpckhqdq 11 7 (.y 11), -- 503: vpunpckhqdq ymm11, ymm7, ymm11
  .permq 2 (.m ⟨some .rsi, none, 160#64⟩) 78, -- 504: vpermq ymm2, [160 + rsi], 0x4e
  .permq 7 (.m ⟨some .rsi, none, 192#64⟩) 78, -- 505: vpermq ymm7, [192 + rsi], 0x4e
  .psubw 12 3 (.y 9), -- 506: vpsubw ymm12, ymm3, ymm9
  .paddw 9 9 (.y 3), -- 507: vpaddw ymm9, ymm9, ymm3
  .psubw 13 5 (.y 10), -- 508: vpsubw ymm13, ymm5, ymm10
  .pmullw 3 12 (.y 2), -- 509: vpmullw ymm3, ymm12, ymm2
  .paddw 10 10 (.y 5), -- 510: vpaddw ymm10, ymm10, ymm5
  .psubw 14 8 (.y 6), -- 511: vpsubw ymm14, ymm8, ymm6
  .pmullw 5 13 (.y 2), -- 512: vpmullw ymm5, ymm13, ymm2
  .paddw 6 6 (.y 8), -- 513: vpaddw ymm6, ymm6, ymm8
  .psubw 15 11 (.y 4), -- 514: vpsubw ymm15, ymm11, ymm4
  .pmullw 8 14 (.y 2), -- 515: vpmullw ymm8, ymm14, ymm2
  .paddw 4 4 (.y 11), -- 516: vpaddw ymm4, ymm4, ymm11
  .pmullw 11 15 (.y 2), -- 517: vpmullw ymm11, ymm15, ymm2
  .pmulhw 12 12 (.y 7), -- 518: vpmulhw ymm12, ymm12, ymm7
  .pmulhw 13 13 (.y 7), -- 519: vpmulhw ymm13, ymm13, ymm7
  .pmulhw 14 14 (.y 7), -- 520: vpmulhw ymm14, ymm14, ymm7
  .pmulhw 15 15 (.y 7), -- 521: vpmulhw ymm15, ymm15, ymm7
  .pmulhw 3 3 (.y 0), -- 522: vpmulhw ymm3, ymm3, ymm0
  .pmulhw 5 5 (.y 0), -- 523: vpmulhw ymm5, ymm5, ymm0
  .pmulhw 8 8 (.y 0), -- 524: vpmulhw ymm8, ymm8, ymm0
  .pmulhw 11 11 (.y 0), -- 525: vpmulhw ymm11, ymm11, ymm0
  .psubw 3 12 (.y 3), -- 526: vpsubw ymm3, ymm12, ymm3
  .psubw 5 13 (.y 5), -- 527: vpsubw ymm5, ymm13, ymm5
  .psubw 8 14 (.y 8), -- 528: vpsubw ymm8, ymm14, ymm8
  .psubw 11 15 (.y 11), -- 529: vpsubw ymm11, ymm15, ymm11
  .pmulhw 12 9 (.y 1), -- 530: vpmulhw ymm12, ymm9, ymm1
  .psraw 12 12 10, -- 531: vpsraw ymm12, ymm12, 0xa
  .pmullw 12 12 (.y 0), -- 532: vpmullw ymm12, ymm12, ymm0
  .psubw 9 9 (.y 12), -- 533: vpsubw ymm9, ymm9, ymm12
  .perm2i128 7 9 (.y 10) 32, -- 534: vperm2i128 ymm7, ymm9, ymm10, 0x20
  .perm2i128 10 9 (.y 10) 49, -- 535: vperm2i128 ymm10, ymm9, ymm10, 0x31
  .perm2i128 9 6 (.y 4) 32, -- 536: vperm2i128 ymm9, ymm6, ymm4, 0x20
  .perm2i128 4 6 (.y 4) 49, -- 537: vperm2i128 ymm4, ymm6, ymm4, 0x31
  .perm2i128 6 3 (.y 5) 32, -- 538: vperm2i128 ymm6, ymm3, ymm5, 0x20
  .perm2i128 5 3 (.y 5) 49, -- 539: vperm2i128 ymm5, ymm3, ymm5, 0x31
  .perm2i128 3 8 (.y 11) 32, -- 540: vperm2i128 ymm3, ymm8, ymm11, 0x20
  .perm2i128 11 8 (.y 11) 49, -- 541: vperm2i128 ymm11, ymm8, ymm11, 0x31
  .movA 2 (.m ⟨some .rsi, none, 96#64⟩), -- 542: vmovdqa ymm2, [96 + rsi]
  .movA 8 (.m ⟨some .rsi, none, 128#64⟩), -- 543: vmovdqa ymm8, [128 + rsi]
  .psubw 12 10 (.y 7), -- 544: vpsubw ymm12, ymm10, ymm7
  .paddw 7 7 (.y 10), -- 545: vpaddw ymm7, ymm7, ymm10
  .psubw 13 4 (.y 9), -- 546: vpsubw ymm13, ymm4, ymm9
  .pmullw 10 12 (.y 2), -- 547: vpmullw ymm10, ymm12, ymm2
  .paddw 9 9 (.y 4), -- 548: vpaddw ymm9, ymm9, ymm4
  .psubw 14 5 (.y 6), -- 549: vpsubw ymm14, ymm5, ymm6
  .pmullw 4 13 (.y 2), -- 550: vpmullw ymm4, ymm13, ymm2
  .paddw 6 6 (.y 5), -- 551: vpaddw ymm6, ymm6, ymm5
  .psubw 15 11 (.y 3), -- 552: vpsubw ymm15, ymm11, ymm3
  .pmullw 5 14 (.y 2), -- 553: vpmullw ymm5, ymm14, ymm2
  .paddw 3 3 (.y 11), -- 554: vpaddw ymm3, ymm3, ymm11
  .pmullw 11 15 (.y 2), -- 555: vpmullw ymm11, ymm15, ymm2
  .pmulhw 12 12 (.y 8), -- 556: vpmulhw ymm12, ymm12, ymm8
  .pmulhw 13 13 (.y 8), -- 557: vpmulhw ymm13, ymm13, ymm8
  .pmulhw 14 14 (.y 8), -- 558: vpmulhw ymm14, ymm14, ymm8
  .pmulhw 15 15 (.y 8), -- 559: vpmulhw ymm15, ymm15, ymm8
  .pmulhw 10 10 (.y 0), -- 560: vpmulhw ymm10, ymm10, ymm0
  .pmulhw 4 4 (.y 0), -- 561: vpmulhw ymm4, ymm4, ymm0
  .pmulhw 5 5 (.y 0), -- 562: vpmulhw ymm5, ymm5, ymm0
  .pmulhw 11 11 (.y 0), -- 563: vpmulhw ymm11, ymm11, ymm0
  .psubw 10 12 (.y 10), -- 564: vpsubw ymm10, ymm12, ymm10
  .psubw 4 13 (.y 4), -- 565: vpsubw ymm4, ymm13, ymm4
  .psubw 5 14 (.y 5), -- 566: vpsubw ymm5, ymm14, ymm5
  .psubw 11 15 (.y 11), -- 567: vpsubw ymm11, ymm15, ymm11
  .pmulhw 12 7 (.y 1), -- 568: vpmulhw ymm12, ymm7, ymm1
  .psraw 12 12 10, -- 569: vpsraw ymm12, ymm12, 0xa
  .pmullw 12 12 (.y 0), -- 570: vpmullw ymm12, ymm12, ymm0
  .psubw 7 7 (.y 12), -- 571: vpsubw ymm7, ymm7, ymm12
  .stA ⟨some .rdi, none, 256#64⟩ 7, -- 572: vmovdqa [256 + rdi], ymm7
  .stA ⟨some .rdi, none, 288#64⟩ 9, -- 573: vmovdqa [288 + rdi], ymm9
  .stA ⟨some .rdi, none, 320#64⟩ 6, -- 574: vmovdqa [320 + rdi], ymm6
  .stA ⟨some .rdi, none, 352#64⟩ 3, -- 575: vmovdqa [352 + rdi], ymm3
  .stA ⟨some .rdi, none, 384#64⟩ 10, -- 576: vmovdqa [384 + rdi], ymm10
  .stA ⟨some .rdi, none, 416#64⟩ 4, -- 577: vmovdqa [416 + rdi], ymm4
  .stA ⟨some .rdi, none, 448#64⟩ 5, -- 578: vmovdqa [448 + rdi], ymm5
  .stA ⟨some .rdi, none, 480#64⟩ 11, -- 579: vmovdqa [480 + rdi], ymm11
  .movA 4 (.m ⟨some .rdi, none, 0#64⟩), -- 580: vmovdqa ymm4, [rdi]
  .movA 8 (.m ⟨some .rdi, none, 256#64⟩), -- 581: vmovdqa ymm8, [256 + rdi]
  .movA 5 (.m ⟨some .rdi, none, 32#64⟩), -- 582: vmovdqa ymm5, [32 + rdi]
  .movA 9 (.m ⟨some .rdi, none, 288#64⟩), -- 583: vmovdqa ymm9, [288 + rdi]
  .pbroadcastq 2 ⟨some .rsi, none, 64#64⟩, -- 584: vpbroadcastq ymm2, [64 + rsi]
  .movA 6 (.m ⟨some .rdi, none, 64#64⟩), -- 585: vmovdqa ymm6, [64 + rdi]
  .movA 10 (.m ⟨some .rdi, none, 320#64⟩), -- 586: vmovdqa ymm10, [320 + rdi]
  .movA 7 (.m ⟨some .rdi, none, 96#64⟩), -- 587: vmovdqa ymm7, [96 + rdi]
  .movA 11 (.m ⟨some .rdi, none, 352#64⟩), -- 588: vmovdqa ymm11, [352 + rdi]
  .pbroadcastq 3 ⟨some .rsi, none, 72#64⟩, -- 589: vpbroadcastq ymm3, [72 + rsi]
  .psubw 12 8 (.y 4), -- 590: vpsubw ymm12, ymm8, ymm4
  .paddw 4 4 (.y 8), -- 591: vpaddw ymm4, ymm4, ymm8
  .psubw 13 9 (.y 5), -- 592: vpsubw ymm13, ymm9, ymm5
  .pmullw 8 12 (.y 2), -- 593: vpmullw ymm8, ymm12, ymm2
  .paddw 5 5 (.y 9), -- 594: vpaddw ymm5, ymm5, ymm9
  .psubw 14 10 (.y 6), -- 595: vpsubw ymm14, ymm10, ymm6
  .pmullw 9 13 (.y 2), -- 596: vpmullw ymm9, ymm13, ymm2
  .paddw 6 6 (.y 10), -- 597: vpaddw ymm6, ymm6, ymm10
  .psubw 15 11 (.y 7), -- 598: vpsubw ymm15, ymm11, ymm7
  .pmullw 10 14 (.y 2), -- 599: vpmullw ymm10, ymm14, ymm2
  .paddw 7 7 (.y 11), -- 600: vpaddw ymm7, ymm7, ymm11
  .pmullw 11 15 (.y 2), -- 601: vpmullw ymm11, ymm15, ymm2
  .pmulhw 12 12 (.y 3), -- 602: vpmulhw ymm12, ymm12, ymm3
  .pmulhw 13 13 (.y 3), -- 603: vpmulhw ymm13, ymm13, ymm3
  .pmulhw 14 14 (.y 3), -- 604: vpmulhw ymm14, ymm14, ymm3
  .pmulhw 15 15 (.y 3), -- 605: vpmulhw ymm15, ymm15, ymm3
  .pmulhw 8 8 (.y 0), -- 606: vpmulhw ymm8, ymm8, ymm0
  .pmulhw 9 9 (.y 0), -- 607: vpmulhw ymm9, ymm9, ymm0
  .pmulhw 10 10 (.y 0), -- 608: vpmulhw ymm10, ymm10, ymm0
  .pmulhw 11 11 (.y 0), -- 609: vpmulhw ymm11, ymm11, ymm0
  .psubw 8 12 (.y 8), -- 610: vpsubw ymm8, ymm12, ymm8
  .psubw 9 13 (.y 9), -- 611: vpsubw ymm9, ymm13, ymm9
  .psubw 10 14 (.y 10), -- 612: vpsubw ymm10, ymm14, ymm10
  .psubw 11 15 (.y 11), -- 613: vpsubw ymm11, ymm15, ymm11
  .stA ⟨some .rdi, none, 0#64⟩ 4, -- 614: vmovdqa [rdi], ymm4
  .stA ⟨some .rdi, none, 32#64⟩ 5, -- 615: vmovdqa [32 + rdi], ymm5
  .stA ⟨some .rdi, none, 64#64⟩ 6, -- 616: vmovdqa [64 + rdi], ymm6
  .stA ⟨some .rdi, none, 96#64⟩ 7, -- 617: vmovdqa [96 + rdi], ymm7
  .stA ⟨some .rdi, none, 256#64⟩ 8, -- 618: vmovdqa [256 + rdi], ymm8
  .stA ⟨some .rdi, none, 288#64⟩ 9, -- 619: vmovdqa [288 + rdi], ymm9
  .stA ⟨some .rdi, none, 320#64⟩ 10, -- 620: vmovdqa [320 + rdi], ymm10
  .stA ⟨some .rdi, none, 352#64⟩ 11, -- 621: vmovdqa [352 + rdi], ymm11
  .movA 4 (.m ⟨some .rdi, none, 128#64⟩), -- 622: vmovdqa ymm4, [128 + rdi]
  .movA 8 (.m ⟨some .rdi, none, 384#64⟩), -- 623: vmovdqa ymm8, [384 + rdi]
  .movA 5 (.m ⟨some .rdi, none, 160#64⟩), -- 624: vmovdqa ymm5, [160 + rdi]
  .movA 9 (.m ⟨some .rdi, none, 416#64⟩), -- 625: vmovdqa ymm9, [416 + rdi]
  .pbroadcastq 2 ⟨some .rsi, none, 64#64⟩, -- 626: vpbroadcastq ymm2, [64 + rsi]
  .movA 6 (.m ⟨some .rdi, none, 192#64⟩), -- 627: vmovdqa ymm6, [192 + rdi]
  .movA 10 (.m ⟨some .rdi, none, 448#64⟩), -- 628: vmovdqa ymm10, [448 + rdi]
  .movA 7 (.m ⟨some .rdi, none, 224#64⟩), -- 629: vmovdqa ymm7, [224 + rdi]
  .movA 11 (.m ⟨some .rdi, none, 480#64⟩), -- 630: vmovdqa ymm11, [480 + rdi]
  .pbroadcastq 3 ⟨some .rsi, none, 72#64⟩, -- 631: vpbroadcastq ymm3, [72 + rsi]
  .psubw 12 8 (.y 4), -- 632: vpsubw ymm12, ymm8, ymm4
  .paddw 4 4 (.y 8), -- 633: vpaddw ymm4, ymm4, ymm8
  .psubw 13 9 (.y 5), -- 634: vpsubw ymm13, ymm9, ymm5
  .pmullw 8 12 (.y 2), -- 635: vpmullw ymm8, ymm12, ymm2
  .paddw 5 5 (.y 9), -- 636: vpaddw ymm5, ymm5, ymm9
  .psubw 14 10 (.y 6), -- 637: vpsubw ymm14, ymm10, ymm6
  .pmullw 9 13 (.y 2), -- 638: vpmullw ymm9, ymm13, ymm2
  .paddw 6 6 (.y 10), -- 639: vpaddw ymm6, ymm6, ymm10
  .psubw 15 11 (.y 7), -- 640: vpsubw ymm15, ymm11, ymm7
  .pmullw 10 14 (.y 2), -- 641: vpmullw ymm10, ymm14, ymm2
  .paddw 7 7 (.y 11), -- 642: vpaddw ymm7, ymm7, ymm11
  .pmullw 11 15 (.y 2), -- 643: vpmullw ymm11, ymm15, ymm2
  .pmulhw 12 12 (.y 3), -- 644: vpmulhw ymm12, ymm12, ymm3
  .pmulhw 13 13 (.y 3), -- 645: vpmulhw ymm13, ymm13, ymm3
  .pmulhw 14 14 (.y 3), -- 646: vpmulhw ymm14, ymm14, ymm3
  .pmulhw 15 15 (.y 3), -- 647: vpmulhw ymm15, ymm15, ymm3
  .pmulhw 8 8 (.y 0), -- 648: vpmulhw ymm8, ymm8, ymm0
  .pmulhw 9 9 (.y 0), -- 649: vpmulhw ymm9, ymm9, ymm0
  .pmulhw 10 10 (.y 0), -- 650: vpmulhw ymm10, ymm10, ymm0
  .pmulhw 11 11 (.y 0), -- 651: vpmulhw ymm11, ymm11, ymm0
  .psubw 8 12 (.y 8), -- 652: vpsubw ymm8, ymm12, ymm8
  .psubw 9 13 (.y 9), -- 653: vpsubw ymm9, ymm13, ymm9
  .psubw 10 14 (.y 10), -- 654: vpsubw ymm10, ymm14, ymm10
  .psubw 11 15 (.y 11), -- 655: vpsubw ymm11, ymm15, ymm11
  .stA ⟨some .rdi, none, 128#64⟩ 4, -- 656: vmovdqa [128 + rdi], ymm4
  .stA ⟨some .rdi, none, 160#64⟩ 5, -- 657: vmovdqa [160 + rdi], ymm5
  .stA ⟨some .rdi, none, 192#64⟩ 6, -- 658: vmovdqa [192 + rdi], ymm6
  .stA ⟨some .rdi, none, 224#64⟩ 7, -- 659: vmovdqa [224 + rdi], ymm7
  .stA ⟨some .rdi, none, 384#64⟩ 8, -- 660: vmovdqa [384 + rdi], ymm8
  .stA ⟨some .rdi, none, 416#64⟩ 9, -- 661: vmovdqa [416 + rdi], ymm9
  .stA ⟨some .rdi, none, 448#64⟩ 10, -- 662: vmovdqa [448 + rdi], ymm10
  .stA ⟨some .rdi, none, 480#64⟩ 11] -- 663: vmovdqa [480 + rdi], ymm11

/-- The registers that the operands of mlkem_intt.rs:39-727 say may change. -/
def mlkemInttRegs : List Reg := [.rdi, .rsi, .rax]

/-- low/x86_64/mlkem_basemul_k3.rs:64-808.  Operands: inout("rdi") r.as_mut_ptr() => _; inout("rsi") a.as_ptr() => _; inout("rdx") b.as_ptr() => _; inout("rcx") bt.as_ptr() => _; out("rax") _; out("zmm0") _; out("zmm1") _; out("zmm10") _; out("zmm11") _; out("zmm12") _; out("zmm13") _; out("zmm14") _; out("zmm2") _; out("zmm3") _; out("zmm4") _; out("zmm5") _; out("zmm6") _; out("zmm7") _; out("zmm8") _; out("zmm9") _. -/
def mlkemBasemulK3 : VProg := [
  .sc (.nop), -- 0: endbr64
  .sc (.mov (.reg .rax) (.imm 0xd010d01#64)), -- 1: mov eax, 0xd010d01
  .vmovd 0 .rax, -- 2: vmovd xmm0, eax
  .pbroadcastd 0 0, -- 3: vpbroadcastd ymm0, xmm0
  .sc (.mov (.reg .rax) (.imm 0xf301f301#64)), -- 4: mov eax, 0xf301f301
  .vmovd 1 .rax, -- 5: vmovd xmm1, eax
  .pbroadcastd 1 1, -- 6: vpbroadcastd ymm1, xmm1
  .movA 2 (.m ⟨some .rsi, none, 0#64⟩), -- 7: vmovdqa ymm2, [rsi]
  .movA 3 (.m ⟨some .rsi, none, 32#64⟩), -- 8: vmovdqa ymm3, [32 + rsi]
  .movA 4 (.m ⟨some .rdx, none, 0#64⟩), -- 9: vmovdqa ymm4, [rdx]
  .movA 5 (.m ⟨some .rdx, none, 32#64⟩), -- 10: vmovdqa ymm5, [32 + rdx]
  .movA 6 (.m ⟨some .rcx, none, 0#64⟩), -- 11: vmovdqa ymm6, [rcx]
  .pmullw 13 1 (.y 2), -- 12: vpmullw ymm13, ymm1, ymm2
  .pmullw 14 1 (.y 3), -- 13: vpmullw ymm14, ymm1, ymm3
  .pmullw 7 4 (.y 13), -- 14: vpmullw ymm7, ymm4, ymm13
  .pmullw 9 5 (.y 13), -- 15: vpmullw ymm9, ymm5, ymm13
  .pmullw 8 6 (.y 14), -- 16: vpmullw ymm8, ymm6, ymm14
  .pmullw 10 4 (.y 14), -- 17: vpmullw ymm10, ymm4, ymm14
  .pmulhw 7 0 (.y 7), -- 18: vpmulhw ymm7, ymm0, ymm7
  .pmulhw 9 0 (.y 9), -- 19: vpmulhw ymm9, ymm0, ymm9
  .pmulhw 8 0 (.y 8), -- 20: vpmulhw ymm8, ymm0, ymm8
  .pmulhw 10 0 (.y 10), -- 21: vpmulhw ymm10, ymm0, ymm10
  .pmulhw 11 4 (.y 2), -- 22: vpmulhw ymm11, ymm4, ymm2
  .pmulhw 12 5 (.y 2), -- 23: vpmulhw ymm12, ymm5, ymm2
  .pmulhw 13 6 (.y 3), -- 24: vpmulhw ymm13, ymm6, ymm3
  .pmulhw 14 4 (.y 3), -- 25: vpmulhw ymm14, ymm4, ymm3
  .psubw 7 11 (.y 7), -- 26: vpsubw ymm7, ymm11, ymm7
  .psubw 9 12 (.y 9), -- 27: vpsubw ymm9, ymm12, ymm9
  .psubw 8 13 (.y 8), -- 28: vpsubw ymm8, ymm13, ymm8
  .psubw 10 14 (.y 10), -- 29: vpsubw ymm10, ymm14, ymm10
  .paddw 7 8 (.y 7), -- 30: vpaddw ymm7, ymm8, ymm7
  .paddw 9 10 (.y 9), -- 31: vpaddw ymm9, ymm10, ymm9
  .stA ⟨some .rdi, none, 0#64⟩ 7, -- 32: vmovdqa [rdi], ymm7
  .stA ⟨some .rdi, none, 32#64⟩ 9, -- 33: vmovdqa [32 + rdi], ymm9
  .movA 2 (.m ⟨some .rsi, none, 64#64⟩), -- 34: vmovdqa ymm2, [64 + rsi]
  .movA 3 (.m ⟨some .rsi, none, 96#64⟩), -- 35: vmovdqa ymm3, [96 + rsi]
  .movA 4 (.m ⟨some .rdx, none, 64#64⟩), -- 36: vmovdqa ymm4, [64 + rdx]
  .movA 5 (.m ⟨some .rdx, none, 96#64⟩), -- 37: vmovdqa ymm5, [96 + rdx]
  .movA 6 (.m ⟨some .rcx, none, 32#64⟩), -- 38: vmovdqa ymm6, [32 + rcx]
  .pmullw 13 1 (.y 2), -- 39: vpmullw ymm13, ymm1, ymm2
  .pmullw 14 1 (.y 3), -- 40: vpmullw ymm14, ymm1, ymm3
  .pmullw 7 4 (.y 13), -- 41: vpmullw ymm7, ymm4, ymm13
  .pmullw 9 5 (.y 13), -- 42: vpmullw ymm9, ymm5, ymm13
  .pmullw 8 6 (.y 14), -- 43: vpmullw ymm8, ymm6, ymm14
  .pmullw 10 4 (.y 14), -- 44: vpmullw ymm10, ymm4, ymm14
  .pmulhw 7 0 (.y 7), -- 45: vpmulhw ymm7, ymm0, ymm7
  .pmulhw 9 0 (.y 9), -- 46: vpmulhw ymm9, ymm0, ymm9
  .pmulhw 8 0 (.y 8), -- 47: vpmulhw ymm8, ymm0, ymm8
  .pmulhw 10 0 (.y 10), -- 48: vpmulhw ymm10, ymm0, ymm10
  .pmulhw 11 4 (.y 2), -- 49: vpmulhw ymm11, ymm4, ymm2
  .pmulhw 12 5 (.y 2), -- 50: vpmulhw ymm12, ymm5, ymm2
  .pmulhw 13 6 (.y 3), -- 51: vpmulhw ymm13, ymm6, ymm3
  .pmulhw 14 4 (.y 3), -- 52: vpmulhw ymm14, ymm4, ymm3
  .psubw 7 11 (.y 7), -- 53: vpsubw ymm7, ymm11, ymm7
  .psubw 9 12 (.y 9), -- 54: vpsubw ymm9, ymm12, ymm9
  .psubw 8 8 (.y 13), -- 55: vpsubw ymm8, ymm8, ymm13
  .psubw 10 14 (.y 10), -- 56: vpsubw ymm10, ymm14, ymm10
  .paddw 7 8 (.y 7), -- 57: vpaddw ymm7, ymm8, ymm7
  .paddw 9 10 (.y 9), -- 58: vpaddw ymm9, ymm10, ymm9
  .stA ⟨some .rdi, none, 64#64⟩ 7, -- 59: vmovdqa [64 + rdi], ymm7
  .stA ⟨some .rdi, none, 96#64⟩ 9, -- 60: vmovdqa [96 + rdi], ymm9
  .movA 2 (.m ⟨some .rsi, none, 128#64⟩), -- 61: vmovdqa ymm2, [128 + rsi]
  .movA 3 (.m ⟨some .rsi, none, 160#64⟩), -- 62: vmovdqa ymm3, [160 + rsi]
  .movA 4 (.m ⟨some .rdx, none, 128#64⟩), -- 63: vmovdqa ymm4, [128 + rdx]
  .movA 5 (.m ⟨some .rdx, none, 160#64⟩), -- 64: vmovdqa ymm5, [160 + rdx]
  .movA 6 (.m ⟨some .rcx, none, 64#64⟩), -- 65: vmovdqa ymm6, [64 + rcx]
  .pmullw 13 1 (.y 2), -- 66: vpmullw ymm13, ymm1, ymm2
  .pmullw 14 1 (.y 3), -- 67: vpmullw ymm14, ymm1, ymm3
  .pmullw 7 4 (.y 13), -- 68: vpmullw ymm7, ymm4, ymm13
  .pmullw 9 5 (.y 13), -- 69: vpmullw ymm9, ymm5, ymm13
  .pmullw 8 6 (.y 14), -- 70: vpmullw ymm8, ymm6, ymm14
  .pmullw 10 4 (.y 14), -- 71: vpmullw ymm10, ymm4, ymm14
  .pmulhw 7 0 (.y 7), -- 72: vpmulhw ymm7, ymm0, ymm7
  .pmulhw 9 0 (.y 9), -- 73: vpmulhw ymm9, ymm0, ymm9
  .pmulhw 8 0 (.y 8), -- 74: vpmulhw ymm8, ymm0, ymm8
  .pmulhw 10 0 (.y 10), -- 75: vpmulhw ymm10, ymm0, ymm10
  .pmulhw 11 4 (.y 2), -- 76: vpmulhw ymm11, ymm4, ymm2
  .pmulhw 12 5 (.y 2), -- 77: vpmulhw ymm12, ymm5, ymm2
  .pmulhw 13 6 (.y 3), -- 78: vpmulhw ymm13, ymm6, ymm3
  .pmulhw 14 4 (.y 3), -- 79: vpmulhw ymm14, ymm4, ymm3
  .psubw 7 11 (.y 7), -- 80: vpsubw ymm7, ymm11, ymm7
  .psubw 9 12 (.y 9), -- 81: vpsubw ymm9, ymm12, ymm9
  .psubw 8 13 (.y 8), -- 82: vpsubw ymm8, ymm13, ymm8
  .psubw 10 14 (.y 10), -- 83: vpsubw ymm10, ymm14, ymm10
  .paddw 7 8 (.y 7), -- 84: vpaddw ymm7, ymm8, ymm7
  .paddw 9 10 (.y 9), -- 85: vpaddw ymm9, ymm10, ymm9
  .stA ⟨some .rdi, none, 128#64⟩ 7, -- 86: vmovdqa [128 + rdi], ymm7
  .stA ⟨some .rdi, none, 160#64⟩ 9, -- 87: vmovdqa [160 + rdi], ymm9
  .movA 2 (.m ⟨some .rsi, none, 192#64⟩), -- 88: vmovdqa ymm2, [192 + rsi]
  .movA 3 (.m ⟨some .rsi, none, 224#64⟩), -- 89: vmovdqa ymm3, [224 + rsi]
  .movA 4 (.m ⟨some .rdx, none, 192#64⟩), -- 90: vmovdqa ymm4, [192 + rdx]
  .movA 5 (.m ⟨some .rdx, none, 224#64⟩), -- 91: vmovdqa ymm5, [224 + rdx]
  .movA 6 (.m ⟨some .rcx, none, 96#64⟩), -- 92: vmovdqa ymm6, [96 + rcx]
  .pmullw 13 1 (.y 2), -- 93: vpmullw ymm13, ymm1, ymm2
  .pmullw 14 1 (.y 3), -- 94: vpmullw ymm14, ymm1, ymm3
  .pmullw 7 4 (.y 13), -- 95: vpmullw ymm7, ymm4, ymm13
  .pmullw 9 5 (.y 13), -- 96: vpmullw ymm9, ymm5, ymm13
  .pmullw 8 6 (.y 14), -- 97: vpmullw ymm8, ymm6, ymm14
  .pmullw 10 4 (.y 14), -- 98: vpmullw ymm10, ymm4, ymm14
  .pmulhw 7 0 (.y 7), -- 99: vpmulhw ymm7, ymm0, ymm7
  .pmulhw 9 0 (.y 9), -- 100: vpmulhw ymm9, ymm0, ymm9
  .pmulhw 8 0 (.y 8), -- 101: vpmulhw ymm8, ymm0, ymm8
  .pmulhw 10 0 (.y 10), -- 102: vpmulhw ymm10, ymm0, ymm10
  .pmulhw 11 4 (.y 2), -- 103: vpmulhw ymm11, ymm4, ymm2
  .pmulhw 12 5 (.y 2), -- 104: vpmulhw ymm12, ymm5, ymm2
  .pmulhw 13 6 (.y 3), -- 105: vpmulhw ymm13, ymm6, ymm3
  .pmulhw 14 4 (.y 3), -- 106: vpmulhw ymm14, ymm4, ymm3
  .psubw 7 11 (.y 7), -- 107: vpsubw ymm7, ymm11, ymm7
  .psubw 9 12 (.y 9), -- 108: vpsubw ymm9, ymm12, ymm9
  .psubw 8 8 (.y 13), -- 109: vpsubw ymm8, ymm8, ymm13
  .psubw 10 14 (.y 10), -- 110: vpsubw ymm10, ymm14, ymm10
  .paddw 7 8 (.y 7), -- 111: vpaddw ymm7, ymm8, ymm7
  .paddw 9 10 (.y 9), -- 112: vpaddw ymm9, ymm10, ymm9
  .stA ⟨some .rdi, none, 192#64⟩ 7, -- 113: vmovdqa [192 + rdi], ymm7
  .stA ⟨some .rdi, none, 224#64⟩ 9, -- 114: vmovdqa [224 + rdi], ymm9
  .movA 2 (.m ⟨some .rsi, none, 256#64⟩), -- 115: vmovdqa ymm2, [256 + rsi]
  .movA 3 (.m ⟨some .rsi, none, 288#64⟩), -- 116: vmovdqa ymm3, [288 + rsi]
  .movA 4 (.m ⟨some .rdx, none, 256#64⟩), -- 117: vmovdqa ymm4, [256 + rdx]
  .movA 5 (.m ⟨some .rdx, none, 288#64⟩), -- 118: vmovdqa ymm5, [288 + rdx]
  .movA 6 (.m ⟨some .rcx, none, 128#64⟩), -- 119: vmovdqa ymm6, [128 + rcx]
  .pmullw 13 1 (.y 2), -- 120: vpmullw ymm13, ymm1, ymm2
  .pmullw 14 1 (.y 3), -- 121: vpmullw ymm14, ymm1, ymm3
  .pmullw 7 4 (.y 13), -- 122: vpmullw ymm7, ymm4, ymm13
  .pmullw 9 5 (.y 13), -- 123: vpmullw ymm9, ymm5, ymm13
  .pmullw 8 6 (.y 14), -- 124: vpmullw ymm8, ymm6, ymm14
  .pmullw 10 4 (.y 14), -- 125: vpmullw ymm10, ymm4, ymm14
  .pmulhw 7 0 (.y 7), -- 126: vpmulhw ymm7, ymm0, ymm7
  .pmulhw 9 0 (.y 9), -- 127: vpmulhw ymm9, ymm0, ymm9
  .pmulhw 8 0 (.y 8), -- 128: vpmulhw ymm8, ymm0, ymm8
  .pmulhw 10 0 (.y 10), -- 129: vpmulhw ymm10, ymm0, ymm10
  .pmulhw 11 4 (.y 2), -- 130: vpmulhw ymm11, ymm4, ymm2
  .pmulhw 12 5 (.y 2), -- 131: vpmulhw ymm12, ymm5, ymm2
  .pmulhw 13 6 (.y 3), -- 132: vpmulhw ymm13, ymm6, ymm3
  .pmulhw 14 4 (.y 3), -- 133: vpmulhw ymm14, ymm4, ymm3
  .psubw 7 11 (.y 7), -- 134: vpsubw ymm7, ymm11, ymm7
  .psubw 9 12 (.y 9), -- 135: vpsubw ymm9, ymm12, ymm9
  .psubw 8 13 (.y 8), -- 136: vpsubw ymm8, ymm13, ymm8
  .psubw 10 14 (.y 10), -- 137: vpsubw ymm10, ymm14, ymm10
  .paddw 7 8 (.y 7), -- 138: vpaddw ymm7, ymm8, ymm7
  .paddw 9 10 (.y 9), -- 139: vpaddw ymm9, ymm10, ymm9
  .stA ⟨some .rdi, none, 256#64⟩ 7, -- 140: vmovdqa [256 + rdi], ymm7
  .stA ⟨some .rdi, none, 288#64⟩ 9, -- 141: vmovdqa [288 + rdi], ymm9
  .movA 2 (.m ⟨some .rsi, none, 320#64⟩), -- 142: vmovdqa ymm2, [320 + rsi]
  .movA 3 (.m ⟨some .rsi, none, 352#64⟩), -- 143: vmovdqa ymm3, [352 + rsi]
  .movA 4 (.m ⟨some .rdx, none, 320#64⟩), -- 144: vmovdqa ymm4, [320 + rdx]
  .movA 5 (.m ⟨some .rdx, none, 352#64⟩), -- 145: vmovdqa ymm5, [352 + rdx]
  .movA 6 (.m ⟨some .rcx, none, 160#64⟩), -- 146: vmovdqa ymm6, [160 + rcx]
  .pmullw 13 1 (.y 2), -- 147: vpmullw ymm13, ymm1, ymm2
  .pmullw 14 1 (.y 3), -- 148: vpmullw ymm14, ymm1, ymm3
  .pmullw 7 4 (.y 13), -- 149: vpmullw ymm7, ymm4, ymm13
  .pmullw 9 5 (.y 13), -- 150: vpmullw ymm9, ymm5, ymm13
  .pmullw 8 6 (.y 14), -- 151: vpmullw ymm8, ymm6, ymm14
  .pmullw 10 4 (.y 14), -- 152: vpmullw ymm10, ymm4, ymm14
  .pmulhw 7 0 (.y 7), -- 153: vpmulhw ymm7, ymm0, ymm7
  .pmulhw 9 0 (.y 9), -- 154: vpmulhw ymm9, ymm0, ymm9
  .pmulhw 8 0 (.y 8), -- 155: vpmulhw ymm8, ymm0, ymm8
  .pmulhw 10 0 (.y 10), -- 156: vpmulhw ymm10, ymm0, ymm10
  .pmulhw 11 4 (.y 2), -- 157: vpmulhw ymm11, ymm4, ymm2
  .pmulhw 12 5 (.y 2), -- 158: vpmulhw ymm12, ymm5, ymm2
  .pmulhw 13 6 (.y 3), -- 159: vpmulhw ymm13, ymm6, ymm3
  .pmulhw 14 4 (.y 3), -- 160: vpmulhw ymm14, ymm4, ymm3
  .psubw 7 11 (.y 7), -- 161: vpsubw ymm7, ymm11, ymm7
  .psubw 9 12 (.y 9), -- 162: vpsubw ymm9, ymm12, ymm9
  .psubw 8 8 (.y 13), -- 163: vpsubw ymm8, ymm8, ymm13
  .psubw 10 14 (.y 10), -- 164: vpsubw ymm10, ymm14, ymm10
  .paddw 7 8 (.y 7), -- 165: vpaddw ymm7, ymm8, ymm7
  .paddw 9 10 (.y 9), -- 166: vpaddw ymm9, ymm10, ymm9
  .stA ⟨some .rdi, none, 320#64⟩ 7, -- 167: vmovdqa [320 + rdi], ymm7
  .stA ⟨some .rdi, none, 352#64⟩ 9, -- 168: vmovdqa [352 + rdi], ymm9
  .movA 2 (.m ⟨some .rsi, none, 384#64⟩), -- 169: vmovdqa ymm2, [384 + rsi]
  .movA 3 (.m ⟨some .rsi, none, 416#64⟩), -- 170: vmovdqa ymm3, [416 + rsi]
  .movA 4 (.m ⟨some .rdx, none, 384#64⟩), -- 171: vmovdqa ymm4, [384 + rdx]
  .movA 5 (.m ⟨some .rdx, none, 416#64⟩), -- 172: vmovdqa ymm5, [416 + rdx]
  .movA 6 (.m ⟨some .rcx, none, 192#64⟩), -- 173: vmovdqa ymm6, [192 + rcx]
  .pmullw 13 1 (.y 2), -- 174: vpmullw ymm13, ymm1, ymm2
  .pmullw 14 1 (.y 3), -- 175: vpmullw ymm14, ymm1, ymm3
  .pmullw 7 4 (.y 13), -- 176: vpmullw ymm7, ymm4, ymm13
  .pmullw 9 5 (.y 13), -- 177: vpmullw ymm9, ymm5, ymm13
  .pmullw 8 6 (.y 14), -- 178: vpmullw ymm8, ymm6, ymm14
  .pmullw 10 4 (.y 14), -- 179: vpmullw ymm10, ymm4, ymm14
  .pmulhw 7 0 (.y 7), -- 180: vpmulhw ymm7, ymm0, ymm7
  .pmulhw 9 0 (.y 9), -- 181: vpmulhw ymm9, ymm0, ymm9
  .pmulhw 8 0 (.y 8), -- 182: vpmulhw ymm8, ymm0, ymm8
  .pmulhw 10 0 (.y 10), -- 183: vpmulhw ymm10, ymm0, ymm10
  .pmulhw 11 4 (.y 2), -- 184: vpmulhw ymm11, ymm4, ymm2
  .pmulhw 12 5 (.y 2), -- 185: vpmulhw ymm12, ymm5, ymm2
  .pmulhw 13 6 (.y 3), -- 186: vpmulhw ymm13, ymm6, ymm3
  .pmulhw 14 4 (.y 3), -- 187: vpmulhw ymm14, ymm4, ymm3
  .psubw 7 11 (.y 7), -- 188: vpsubw ymm7, ymm11, ymm7
  .psubw 9 12 (.y 9), -- 189: vpsubw ymm9, ymm12, ymm9
  .psubw 8 13 (.y 8), -- 190: vpsubw ymm8, ymm13, ymm8
  .psubw 10 14 (.y 10), -- 191: vpsubw ymm10, ymm14, ymm10
  .paddw 7 8 (.y 7), -- 192: vpaddw ymm7, ymm8, ymm7
  .paddw 9 10 (.y 9), -- 193: vpaddw ymm9, ymm10, ymm9
  .stA ⟨some .rdi, none, 384#64⟩ 7, -- 194: vmovdqa [384 + rdi], ymm7
  .stA ⟨some .rdi, none, 416#64⟩ 9, -- 195: vmovdqa [416 + rdi], ymm9
  .movA 2 (.m ⟨some .rsi, none, 448#64⟩), -- 196: vmovdqa ymm2, [448 + rsi]
  .movA 3 (.m ⟨some .rsi, none, 480#64⟩), -- 197: vmovdqa ymm3, [480 + rsi]
  .movA 4 (.m ⟨some .rdx, none, 448#64⟩), -- 198: vmovdqa ymm4, [448 + rdx]
  .movA 5 (.m ⟨some .rdx, none, 480#64⟩), -- 199: vmovdqa ymm5, [480 + rdx]
  .movA 6 (.m ⟨some .rcx, none, 224#64⟩), -- 200: vmovdqa ymm6, [224 + rcx]
  .pmullw 13 1 (.y 2), -- 201: vpmullw ymm13, ymm1, ymm2
  .pmullw 14 1 (.y 3), -- 202: vpmullw ymm14, ymm1, ymm3
  .pmullw 7 4 (.y 13), -- 203: vpmullw ymm7, ymm4, ymm13
  .pmullw 9 5 (.y 13), -- 204: vpmullw ymm9, ymm5, ymm13
  .pmullw 8 6 (.y 14), -- 205: vpmullw ymm8, ymm6, ymm14
  .pmullw 10 4 (.y 14), -- 206: vpmullw ymm10, ymm4, ymm14
  .pmulhw 7 0 (.y 7), -- 207: vpmulhw ymm7, ymm0, ymm7
  .pmulhw 9 0 (.y 9), -- 208: vpmulhw ymm9, ymm0, ymm9
  .pmulhw 8 0 (.y 8), -- 209: vpmulhw ymm8, ymm0, ymm8
  .pmulhw 10 0 (.y 10), -- 210: vpmulhw ymm10, ymm0, ymm10
  .pmulhw 11 4 (.y 2), -- 211: vpmulhw ymm11, ymm4, ymm2
  .pmulhw 12 5 (.y 2), -- 212: vpmulhw ymm12, ymm5, ymm2
  .pmulhw 13 6 (.y 3), -- 213: vpmulhw ymm13, ymm6, ymm3
  .pmulhw 14 4 (.y 3), -- 214: vpmulhw ymm14, ymm4, ymm3
  .psubw 7 11 (.y 7), -- 215: vpsubw ymm7, ymm11, ymm7
  .psubw 9 12 (.y 9), -- 216: vpsubw ymm9, ymm12, ymm9
  .psubw 8 8 (.y 13), -- 217: vpsubw ymm8, ymm8, ymm13
  .psubw 10 14 (.y 10), -- 218: vpsubw ymm10, ymm14, ymm10
  .paddw 7 8 (.y 7), -- 219: vpaddw ymm7, ymm8, ymm7
  .paddw 9 10 (.y 9), -- 220: vpaddw ymm9, ymm10, ymm9
  .stA ⟨some .rdi, none, 448#64⟩ 7, -- 221: vmovdqa [448 + rdi], ymm7
  .stA ⟨some .rdi, none, 480#64⟩ 9, -- 222: vmovdqa [480 + rdi], ymm9
  .movA 2 (.m ⟨some .rsi, none, 512#64⟩), -- 223: vmovdqa ymm2, [512 + rsi]
  .movA 3 (.m ⟨some .rsi, none, 544#64⟩), -- 224: vmovdqa ymm3, [544 + rsi]
  .movA 4 (.m ⟨some .rdx, none, 512#64⟩), -- 225: vmovdqa ymm4, [512 + rdx]
  .movA 5 (.m ⟨some .rdx, none, 544#64⟩), -- 226: vmovdqa ymm5, [544 + rdx]
  .movA 6 (.m ⟨some .rcx, none, 256#64⟩), -- 227: vmovdqa ymm6, [256 + rcx]
  .pmullw 13 1 (.y 2), -- 228: vpmullw ymm13, ymm1, ymm2
  .pmullw 14 1 (.y 3), -- 229: vpmullw ymm14, ymm1, ymm3
  .pmullw 7 4 (.y 13), -- 230: vpmullw ymm7, ymm4, ymm13
  .pmullw 9 5 (.y 13), -- 231: vpmullw ymm9, ymm5, ymm13
  .pmullw 8 6 (.y 14), -- 232: vpmullw ymm8, ymm6, ymm14
  .pmullw 10 4 (.y 14), -- 233: vpmullw ymm10, ymm4, ymm14
  .pmulhw 7 0 (.y 7), -- 234: vpmulhw ymm7, ymm0, ymm7
  .pmulhw 9 0 (.y 9), -- 235: vpmulhw ymm9, ymm0, ymm9
  .pmulhw 8 0 (.y 8), -- 236: vpmulhw ymm8, ymm0, ymm8
  .pmulhw 10 0 (.y 10), -- 237: vpmulhw ymm10, ymm0, ymm10
  .pmulhw 11 4 (.y 2), -- 238: vpmulhw ymm11, ymm4, ymm2
  .pmulhw 12 5 (.y 2), -- 239: vpmulhw ymm12, ymm5, ymm2
  .pmulhw 13 6 (.y 3), -- 240: vpmulhw ymm13, ymm6, ymm3
  .pmulhw 14 4 (.y 3), -- 241: vpmulhw ymm14, ymm4, ymm3
  .psubw 7 11 (.y 7), -- 242: vpsubw ymm7, ymm11, ymm7
  .psubw 9 12 (.y 9), -- 243: vpsubw ymm9, ymm12, ymm9
  .psubw 8 13 (.y 8), -- 244: vpsubw ymm8, ymm13, ymm8
  .psubw 10 14 (.y 10), -- 245: vpsubw ymm10, ymm14, ymm10
  .paddw 7 8 (.y 7), -- 246: vpaddw ymm7, ymm8, ymm7
  .paddw 9 10 (.y 9), -- 247: vpaddw ymm9, ymm10, ymm9
  .movA 8 (.m ⟨some .rdi, none, 0#64⟩), -- 248: vmovdqa ymm8, [rdi]
  .movA 10 (.m ⟨some .rdi, none, 32#64⟩), -- 249: vmovdqa ymm10, [32 + rdi]
  .paddw 7 8 (.y 7), -- 250: vpaddw ymm7, ymm8, ymm7
  .paddw 9 10 (.y 9), -- 251: vpaddw ymm9, ymm10, ymm9
  .stA ⟨some .rdi, none, 0#64⟩ 7, -- 252: vmovdqa [rdi], ymm7
  .stA ⟨some .rdi, none, 32#64⟩ 9, -- 253: vmovdqa [32 + rdi], ymm9
  .movA 2 (.m ⟨some .rsi, none, 576#64⟩), -- 254: vmovdqa ymm2, [576 + rsi]
  .movA 3 (.m ⟨some .rsi, none, 608#64⟩), -- 255: vmovdqa ymm3, [608 + rsi]
  .movA 4 (.m ⟨some .rdx, none, 576#64⟩), -- 256: vmovdqa ymm4, [576 + rdx]
  .movA 5 (.m ⟨some .rdx, none, 608#64⟩), -- 257: vmovdqa ymm5, [608 + rdx]
  .movA 6 (.m ⟨some .rcx, none, 288#64⟩), -- 258: vmovdqa ymm6, [288 + rcx]
  .pmullw 13 1 (.y 2), -- 259: vpmullw ymm13, ymm1, ymm2
  .pmullw 14 1 (.y 3), -- 260: vpmullw ymm14, ymm1, ymm3
  .pmullw 7 4 (.y 13), -- 261: vpmullw ymm7, ymm4, ymm13
  .pmullw 9 5 (.y 13), -- 262: vpmullw ymm9, ymm5, ymm13
  .pmullw 8 6 (.y 14), -- 263: vpmullw ymm8, ymm6, ymm14
  .pmullw 10 4 (.y 14), -- 264: vpmullw ymm10, ymm4, ymm14
  .pmulhw 7 0 (.y 7), -- 265: vpmulhw ymm7, ymm0, ymm7
  .pmulhw 9 0 (.y 9), -- 266: vpmulhw ymm9, ymm0, ymm9
  .pmulhw 8 0 (.y 8), -- 267: vpmulhw ymm8, ymm0, ymm8
  .pmulhw 10 0 (.y 10), -- 268: vpmulhw ymm10, ymm0, ymm10
  .pmulhw 11 4 (.y 2), -- 269: vpmulhw ymm11, ymm4, ymm2
  .pmulhw 12 5 (.y 2), -- 270: vpmulhw ymm12, ymm5, ymm2
  .pmulhw 13 6 (.y 3), -- 271: vpmulhw ymm13, ymm6, ymm3
  .pmulhw 14 4 (.y 3), -- 272: vpmulhw ymm14, ymm4, ymm3
  .psubw 7 11 (.y 7), -- 273: vpsubw ymm7, ymm11, ymm7
  .psubw 9 12 (.y 9), -- 274: vpsubw ymm9, ymm12, ymm9
  .psubw 8 8 (.y 13), -- 275: vpsubw ymm8, ymm8, ymm13
  .psubw 10 14 (.y 10), -- 276: vpsubw ymm10, ymm14, ymm10
  .paddw 7 8 (.y 7), -- 277: vpaddw ymm7, ymm8, ymm7
  .paddw 9 10 (.y 9), -- 278: vpaddw ymm9, ymm10, ymm9
  .movA 8 (.m ⟨some .rdi, none, 64#64⟩), -- 279: vmovdqa ymm8, [64 + rdi]
  .movA 10 (.m ⟨some .rdi, none, 96#64⟩), -- 280: vmovdqa ymm10, [96 + rdi]
  .paddw 7 8 (.y 7), -- 281: vpaddw ymm7, ymm8, ymm7
  .paddw 9 10 (.y 9), -- 282: vpaddw ymm9, ymm10, ymm9
  .stA ⟨some .rdi, none, 64#64⟩ 7, -- 283: vmovdqa [64 + rdi], ymm7
  .stA ⟨some .rdi, none, 96#64⟩ 9, -- 284: vmovdqa [96 + rdi], ymm9
  .movA 2 (.m ⟨some .rsi, none, 640#64⟩), -- 285: vmovdqa ymm2, [640 + rsi]
  .movA 3 (.m ⟨some .rsi, none, 672#64⟩), -- 286: vmovdqa ymm3, [672 + rsi]
  .movA 4 (.m ⟨some .rdx, none, 640#64⟩), -- 287: vmovdqa ymm4, [640 + rdx]
  .movA 5 (.m ⟨some .rdx, none, 672#64⟩), -- 288: vmovdqa ymm5, [672 + rdx]
  .movA 6 (.m ⟨some .rcx, none, 320#64⟩), -- 289: vmovdqa ymm6, [320 + rcx]
  .pmullw 13 1 (.y 2), -- 290: vpmullw ymm13, ymm1, ymm2
  .pmullw 14 1 (.y 3), -- 291: vpmullw ymm14, ymm1, ymm3
  .pmullw 7 4 (.y 13), -- 292: vpmullw ymm7, ymm4, ymm13
  .pmullw 9 5 (.y 13), -- 293: vpmullw ymm9, ymm5, ymm13
  .pmullw 8 6 (.y 14), -- 294: vpmullw ymm8, ymm6, ymm14
  .pmullw 10 4 (.y 14), -- 295: vpmullw ymm10, ymm4, ymm14
  .pmulhw 7 0 (.y 7), -- 296: vpmulhw ymm7, ymm0, ymm7
  .pmulhw 9 0 (.y 9), -- 297: vpmulhw ymm9, ymm0, ymm9
  .pmulhw 8 0 (.y 8), -- 298: vpmulhw ymm8, ymm0, ymm8
  .pmulhw 10 0 (.y 10), -- 299: vpmulhw ymm10, ymm0, ymm10
  .pmulhw 11 4 (.y 2), -- 300: vpmulhw ymm11, ymm4, ymm2
  .pmulhw 12 5 (.y 2), -- 301: vpmulhw ymm12, ymm5, ymm2
  .pmulhw 13 6 (.y 3), -- 302: vpmulhw ymm13, ymm6, ymm3
  .pmulhw 14 4 (.y 3), -- 303: vpmulhw ymm14, ymm4, ymm3
  .psubw 7 11 (.y 7), -- 304: vpsubw ymm7, ymm11, ymm7
  .psubw 9 12 (.y 9), -- 305: vpsubw ymm9, ymm12, ymm9
  .psubw 8 13 (.y 8), -- 306: vpsubw ymm8, ymm13, ymm8
  .psubw 10 14 (.y 10), -- 307: vpsubw ymm10, ymm14, ymm10
  .paddw 7 8 (.y 7), -- 308: vpaddw ymm7, ymm8, ymm7
  .paddw 9 10 (.y 9), -- 309: vpaddw ymm9, ymm10, ymm9
  .movA 8 (.m ⟨some .rdi, none, 128#64⟩), -- 310: vmovdqa ymm8, [128 + rdi]
  .movA 10 (.m ⟨some .rdi, none, 160#64⟩), -- 311: vmovdqa ymm10, [160 + rdi]
  .paddw 7 8 (.y 7), -- 312: vpaddw ymm7, ymm8, ymm7
  .paddw 9 10 (.y 9), -- 313: vpaddw ymm9, ymm10, ymm9
  .stA ⟨some .rdi, none, 128#64⟩ 7, -- 314: vmovdqa [128 + rdi], ymm7
  .stA ⟨some .rdi, none, 160#64⟩ 9, -- 315: vmovdqa [160 + rdi], ymm9
  .movA 2 (.m ⟨some .rsi, none, 704#64⟩), -- 316: vmovdqa ymm2, [704 + rsi]
  .movA 3 (.m ⟨some .rsi, none, 736#64⟩), -- 317: vmovdqa ymm3, [736 + rsi]
  .movA 4 (.m ⟨some .rdx, none, 704#64⟩), -- 318: vmovdqa ymm4, [704 + rdx]
  .movA 5 (.m ⟨some .rdx, none, 736#64⟩), -- 319: vmovdqa ymm5, [736 + rdx]
  .movA 6 (.m ⟨some .rcx, none, 352#64⟩), -- 320: vmovdqa ymm6, [352 + rcx]
  .pmullw 13 1 (.y 2), -- 321: vpmullw ymm13, ymm1, ymm2
  .pmullw 14 1 (.y 3), -- 322: vpmullw ymm14, ymm1, ymm3
  .pmullw 7 4 (.y 13), -- 323: vpmullw ymm7, ymm4, ymm13
  .pmullw 9 5 (.y 13), -- 324: vpmullw ymm9, ymm5, ymm13
  .pmullw 8 6 (.y 14), -- 325: vpmullw ymm8, ymm6, ymm14
  .pmullw 10 4 (.y 14), -- 326: vpmullw ymm10, ymm4, ymm14
  .pmulhw 7 0 (.y 7), -- 327: vpmulhw ymm7, ymm0, ymm7
  .pmulhw 9 0 (.y 9), -- 328: vpmulhw ymm9, ymm0, ymm9
  .pmulhw 8 0 (.y 8), -- 329: vpmulhw ymm8, ymm0, ymm8
  .pmulhw 10 0 (.y 10), -- 330: vpmulhw ymm10, ymm0, ymm10
  .pmulhw 11 4 (.y 2), -- 331: vpmulhw ymm11, ymm4, ymm2
  .pmulhw 12 5 (.y 2), -- 332: vpmulhw ymm12, ymm5, ymm2
  .pmulhw 13 6 (.y 3), -- 333: vpmulhw ymm13, ymm6, ymm3
  .pmulhw 14 4 (.y 3), -- 334: vpmulhw ymm14, ymm4, ymm3
  .psubw 7 11 (.y 7), -- 335: vpsubw ymm7, ymm11, ymm7
  .psubw 9 12 (.y 9), -- 336: vpsubw ymm9, ymm12, ymm9
  .psubw 8 8 (.y 13), -- 337: vpsubw ymm8, ymm8, ymm13
  .psubw 10 14 (.y 10), -- 338: vpsubw ymm10, ymm14, ymm10
  .paddw 7 8 (.y 7), -- 339: vpaddw ymm7, ymm8, ymm7
  .paddw 9 10 (.y 9), -- 340: vpaddw ymm9, ymm10, ymm9
  .movA 8 (.m ⟨some .rdi, none, 192#64⟩), -- 341: vmovdqa ymm8, [192 + rdi]
  .movA 10 (.m ⟨some .rdi, none, 224#64⟩), -- 342: vmovdqa ymm10, [224 + rdi]
  .paddw 7 8 (.y 7), -- 343: vpaddw ymm7, ymm8, ymm7
  .paddw 9 10 (.y 9), -- 344: vpaddw ymm9, ymm10, ymm9
  .stA ⟨some .rdi, none, 192#64⟩ 7, -- 345: vmovdqa [192 + rdi], ymm7
  .stA ⟨some .rdi, none, 224#64⟩ 9, -- 346: vmovdqa [224 + rdi], ymm9
  .movA 2 (.m ⟨some .rsi, none, 768#64⟩), -- 347: vmovdqa ymm2, [768 + rsi]
  .movA 3 (.m ⟨some .rsi, none, 800#64⟩), -- 348: vmovdqa ymm3, [800 + rsi]
  .movA 4 (.m ⟨some .rdx, none, 768#64⟩), -- 349: vmovdqa ymm4, [768 + rdx]
  .movA 5 (.m ⟨some .rdx, none, 800#64⟩), -- 350: vmovdqa ymm5, [800 + rdx]
  .movA 6 (.m ⟨some .rcx, none, 384#64⟩), -- 351: vmovdqa ymm6, [384 + rcx]
  .pmullw 13 1 (.y 2), -- 352: vpmullw ymm13, ymm1, ymm2
  .pmullw 14 1 (.y 3), -- 353: vpmullw ymm14, ymm1, ymm3
  .pmullw 7 4 (.y 13), -- 354: vpmullw ymm7, ymm4, ymm13
  .pmullw 9 5 (.y 13), -- 355: vpmullw ymm9, ymm5, ymm13
  .pmullw 8 6 (.y 14), -- 356: vpmullw ymm8, ymm6, ymm14
  .pmullw 10 4 (.y 14), -- 357: vpmullw ymm10, ymm4, ymm14
  .pmulhw 7 0 (.y 7), -- 358: vpmulhw ymm7, ymm0, ymm7
  .pmulhw 9 0 (.y 9), -- 359: vpmulhw ymm9, ymm0, ymm9
  .pmulhw 8 0 (.y 8), -- 360: vpmulhw ymm8, ymm0, ymm8
  .pmulhw 10 0 (.y 10), -- 361: vpmulhw ymm10, ymm0, ymm10
  .pmulhw 11 4 (.y 2), -- 362: vpmulhw ymm11, ymm4, ymm2
  .pmulhw 12 5 (.y 2), -- 363: vpmulhw ymm12, ymm5, ymm2
  .pmulhw 13 6 (.y 3), -- 364: vpmulhw ymm13, ymm6, ymm3
  .pmulhw 14 4 (.y 3), -- 365: vpmulhw ymm14, ymm4, ymm3
  .psubw 7 11 (.y 7), -- 366: vpsubw ymm7, ymm11, ymm7
  .psubw 9 12 (.y 9), -- 367: vpsubw ymm9, ymm12, ymm9
  .psubw 8 13 (.y 8), -- 368: vpsubw ymm8, ymm13, ymm8
  .psubw 10 14 (.y 10), -- 369: vpsubw ymm10, ymm14, ymm10
  .paddw 7 8 (.y 7), -- 370: vpaddw ymm7, ymm8, ymm7
  .paddw 9 10 (.y 9), -- 371: vpaddw ymm9, ymm10, ymm9
  .movA 8 (.m ⟨some .rdi, none, 256#64⟩), -- 372: vmovdqa ymm8, [256 + rdi]
  .movA 10 (.m ⟨some .rdi, none, 288#64⟩), -- 373: vmovdqa ymm10, [288 + rdi]
  .paddw 7 8 (.y 7), -- 374: vpaddw ymm7, ymm8, ymm7
  .paddw 9 10 (.y 9), -- 375: vpaddw ymm9, ymm10, ymm9
  .stA ⟨some .rdi, none, 256#64⟩ 7, -- 376: vmovdqa [256 + rdi], ymm7
  .stA ⟨some .rdi, none, 288#64⟩ 9, -- 377: vmovdqa [288 + rdi], ymm9
  .movA 2 (.m ⟨some .rsi, none, 832#64⟩), -- 378: vmovdqa ymm2, [832 + rsi]
  .movA 3 (.m ⟨some .rsi, none, 864#64⟩), -- 379: vmovdqa ymm3, [864 + rsi]
  .movA 4 (.m ⟨some .rdx, none, 832#64⟩), -- 380: vmovdqa ymm4, [832 + rdx]
  .movA 5 (.m ⟨some .rdx, none, 864#64⟩), -- 381: vmovdqa ymm5, [864 + rdx]
  .movA 6 (.m ⟨some .rcx, none, 416#64⟩), -- 382: vmovdqa ymm6, [416 + rcx]
  .pmullw 13 1 (.y 2), -- 383: vpmullw ymm13, ymm1, ymm2
  .pmullw 14 1 (.y 3), -- 384: vpmullw ymm14, ymm1, ymm3
  .pmullw 7 4 (.y 13), -- 385: vpmullw ymm7, ymm4, ymm13
  .pmullw 9 5 (.y 13), -- 386: vpmullw ymm9, ymm5, ymm13
  .pmullw 8 6 (.y 14), -- 387: vpmullw ymm8, ymm6, ymm14
  .pmullw 10 4 (.y 14), -- 388: vpmullw ymm10, ymm4, ymm14
  .pmulhw 7 0 (.y 7), -- 389: vpmulhw ymm7, ymm0, ymm7
  .pmulhw 9 0 (.y 9), -- 390: vpmulhw ymm9, ymm0, ymm9
  .pmulhw 8 0 (.y 8), -- 391: vpmulhw ymm8, ymm0, ymm8
  .pmulhw 10 0 (.y 10), -- 392: vpmulhw ymm10, ymm0, ymm10
  .pmulhw 11 4 (.y 2), -- 393: vpmulhw ymm11, ymm4, ymm2
  .pmulhw 12 5 (.y 2), -- 394: vpmulhw ymm12, ymm5, ymm2
  .pmulhw 13 6 (.y 3), -- 395: vpmulhw ymm13, ymm6, ymm3
  .pmulhw 14 4 (.y 3), -- 396: vpmulhw ymm14, ymm4, ymm3
  .psubw 7 11 (.y 7), -- 397: vpsubw ymm7, ymm11, ymm7
  .psubw 9 12 (.y 9), -- 398: vpsubw ymm9, ymm12, ymm9
  .psubw 8 8 (.y 13), -- 399: vpsubw ymm8, ymm8, ymm13
  .psubw 10 14 (.y 10), -- 400: vpsubw ymm10, ymm14, ymm10
  .paddw 7 8 (.y 7), -- 401: vpaddw ymm7, ymm8, ymm7
  .paddw 9 10 (.y 9), -- 402: vpaddw ymm9, ymm10, ymm9
  .movA 8 (.m ⟨some .rdi, none, 320#64⟩), -- 403: vmovdqa ymm8, [320 + rdi]
  .movA 10 (.m ⟨some .rdi, none, 352#64⟩), -- 404: vmovdqa ymm10, [352 + rdi]
  .paddw 7 8 (.y 7), -- 405: vpaddw ymm7, ymm8, ymm7
  .paddw 9 10 (.y 9), -- 406: vpaddw ymm9, ymm10, ymm9
  .stA ⟨some .rdi, none, 320#64⟩ 7, -- 407: vmovdqa [320 + rdi], ymm7
  .stA ⟨some .rdi, none, 352#64⟩ 9, -- 408: vmovdqa [352 + rdi], ymm9
  .movA 2 (.m ⟨some .rsi, none, 896#64⟩), -- 409: vmovdqa ymm2, [896 + rsi]
  .movA 3 (.m ⟨some .rsi, none, 928#64⟩), -- 410: vmovdqa ymm3, [928 + rsi]
  .movA 4 (.m ⟨some .rdx, none, 896#64⟩), -- 411: vmovdqa ymm4, [896 + rdx]
  .movA 5 (.m ⟨some .rdx, none, 928#64⟩), -- 412: vmovdqa ymm5, [928 + rdx]
  .movA 6 (.m ⟨some .rcx, none, 448#64⟩), -- 413: vmovdqa ymm6, [448 + rcx]
  .pmullw 13 1 (.y 2), -- 414: vpmullw ymm13, ymm1, ymm2
  .pmullw 14 1 (.y 3), -- 415: vpmullw ymm14, ymm1, ymm3
  .pmullw 7 4 (.y 13), -- 416: vpmullw ymm7, ymm4, ymm13
  .pmullw 9 5 (.y 13), -- 417: vpmullw ymm9, ymm5, ymm13
  .pmullw 8 6 (.y 14), -- 418: vpmullw ymm8, ymm6, ymm14
  .pmullw 10 4 (.y 14), -- 419: vpmullw ymm10, ymm4, ymm14
  .pmulhw 7 0 (.y 7), -- 420: vpmulhw ymm7, ymm0, ymm7
  .pmulhw 9 0 (.y 9), -- 421: vpmulhw ymm9, ymm0, ymm9
  .pmulhw 8 0 (.y 8), -- 422: vpmulhw ymm8, ymm0, ymm8
  .pmulhw 10 0 (.y 10), -- 423: vpmulhw ymm10, ymm0, ymm10
  .pmulhw 11 4 (.y 2), -- 424: vpmulhw ymm11, ymm4, ymm2
  .pmulhw 12 5 (.y 2), -- 425: vpmulhw ymm12, ymm5, ymm2
  .pmulhw 13 6 (.y 3), -- 426: vpmulhw ymm13, ymm6, ymm3
  .pmulhw 14 4 (.y 3), -- 427: vpmulhw ymm14, ymm4, ymm3
  .psubw 7 11 (.y 7), -- 428: vpsubw ymm7, ymm11, ymm7
  .psubw 9 12 (.y 9), -- 429: vpsubw ymm9, ymm12, ymm9
  .psubw 8 13 (.y 8), -- 430: vpsubw ymm8, ymm13, ymm8
  .psubw 10 14 (.y 10), -- 431: vpsubw ymm10, ymm14, ymm10
  .paddw 7 8 (.y 7), -- 432: vpaddw ymm7, ymm8, ymm7
  .paddw 9 10 (.y 9), -- 433: vpaddw ymm9, ymm10, ymm9
  .movA 8 (.m ⟨some .rdi, none, 384#64⟩), -- 434: vmovdqa ymm8, [384 + rdi]
  .movA 10 (.m ⟨some .rdi, none, 416#64⟩), -- 435: vmovdqa ymm10, [416 + rdi]
  .paddw 7 8 (.y 7), -- 436: vpaddw ymm7, ymm8, ymm7
  .paddw 9 10 (.y 9), -- 437: vpaddw ymm9, ymm10, ymm9
  .stA ⟨some .rdi, none, 384#64⟩ 7, -- 438: vmovdqa [384 + rdi], ymm7
  .stA ⟨some .rdi, none, 416#64⟩ 9, -- 439: vmovdqa [416 + rdi], ymm9
  .movA 2 (.m ⟨some .rsi, none, 960#64⟩), -- 440: vmovdqa ymm2, [960 + rsi]
  .movA 3 (.m ⟨some .rsi, none, 992#64⟩), -- 441: vmovdqa ymm3, [992 + rsi]
  .movA 4 (.m ⟨some .rdx, none, 960#64⟩), -- 442: vmovdqa ymm4, [960 + rdx]
  .movA 5 (.m ⟨some .rdx, none, 992#64⟩), -- 443: vmovdqa ymm5, [992 + rdx]
  .movA 6 (.m ⟨some .rcx, none, 480#64⟩), -- 444: vmovdqa ymm6, [480 + rcx]
  .pmullw 13 1 (.y 2), -- 445: vpmullw ymm13, ymm1, ymm2
  .pmullw 14 1 (.y 3), -- 446: vpmullw ymm14, ymm1, ymm3
  .pmullw 7 4 (.y 13), -- 447: vpmullw ymm7, ymm4, ymm13
  .pmullw 9 5 (.y 13), -- 448: vpmullw ymm9, ymm5, ymm13
  .pmullw 8 6 (.y 14), -- 449: vpmullw ymm8, ymm6, ymm14
  .pmullw 10 4 (.y 14), -- 450: vpmullw ymm10, ymm4, ymm14
  .pmulhw 7 0 (.y 7), -- 451: vpmulhw ymm7, ymm0, ymm7
  .pmulhw 9 0 (.y 9), -- 452: vpmulhw ymm9, ymm0, ymm9
  .pmulhw 8 0 (.y 8), -- 453: vpmulhw ymm8, ymm0, ymm8
  .pmulhw 10 0 (.y 10), -- 454: vpmulhw ymm10, ymm0, ymm10
  .pmulhw 11 4 (.y 2), -- 455: vpmulhw ymm11, ymm4, ymm2
  .pmulhw 12 5 (.y 2), -- 456: vpmulhw ymm12, ymm5, ymm2
  .pmulhw 13 6 (.y 3), -- 457: vpmulhw ymm13, ymm6, ymm3
  .pmulhw 14 4 (.y 3), -- 458: vpmulhw ymm14, ymm4, ymm3
  .psubw 7 11 (.y 7), -- 459: vpsubw ymm7, ymm11, ymm7
  .psubw 9 12 (.y 9), -- 460: vpsubw ymm9, ymm12, ymm9
  .psubw 8 8 (.y 13), -- 461: vpsubw ymm8, ymm8, ymm13
  .psubw 10 14 (.y 10), -- 462: vpsubw ymm10, ymm14, ymm10
  .paddw 7 8 (.y 7), -- 463: vpaddw ymm7, ymm8, ymm7
  .paddw 9 10 (.y 9), -- 464: vpaddw ymm9, ymm10, ymm9
  .movA 8 (.m ⟨some .rdi, none, 448#64⟩), -- 465: vmovdqa ymm8, [448 + rdi]
  .movA 10 (.m ⟨some .rdi, none, 480#64⟩), -- 466: vmovdqa ymm10, [480 + rdi]
  .paddw 7 8 (.y 7), -- 467: vpaddw ymm7, ymm8, ymm7
  .paddw 9 10 (.y 9), -- 468: vpaddw ymm9, ymm10, ymm9
  .stA ⟨some .rdi, none, 448#64⟩ 7, -- 469: vmovdqa [448 + rdi], ymm7
  .stA ⟨some .rdi, none, 480#64⟩ 9, -- 470: vmovdqa [480 + rdi], ymm9
  .movA 2 (.m ⟨some .rsi, none, 1024#64⟩), -- 471: vmovdqa ymm2, [1024 + rsi]
  .movA 3 (.m ⟨some .rsi, none, 1056#64⟩), -- 472: vmovdqa ymm3, [1056 + rsi]
  .movA 4 (.m ⟨some .rdx, none, 1024#64⟩), -- 473: vmovdqa ymm4, [1024 + rdx]
  .movA 5 (.m ⟨some .rdx, none, 1056#64⟩), -- 474: vmovdqa ymm5, [1056 + rdx]
  .movA 6 (.m ⟨some .rcx, none, 512#64⟩), -- 475: vmovdqa ymm6, [512 + rcx]
  .pmullw 13 1 (.y 2), -- 476: vpmullw ymm13, ymm1, ymm2
  .pmullw 14 1 (.y 3), -- 477: vpmullw ymm14, ymm1, ymm3
  .pmullw 7 4 (.y 13), -- 478: vpmullw ymm7, ymm4, ymm13
  .pmullw 9 5 (.y 13), -- 479: vpmullw ymm9, ymm5, ymm13
  .pmullw 8 6 (.y 14), -- 480: vpmullw ymm8, ymm6, ymm14
  .pmullw 10 4 (.y 14), -- 481: vpmullw ymm10, ymm4, ymm14
  .pmulhw 7 0 (.y 7), -- 482: vpmulhw ymm7, ymm0, ymm7
  .pmulhw 9 0 (.y 9), -- 483: vpmulhw ymm9, ymm0, ymm9
  .pmulhw 8 0 (.y 8), -- 484: vpmulhw ymm8, ymm0, ymm8
  .pmulhw 10 0 (.y 10), -- 485: vpmulhw ymm10, ymm0, ymm10
  .pmulhw 11 4 (.y 2), -- 486: vpmulhw ymm11, ymm4, ymm2
  .pmulhw 12 5 (.y 2), -- 487: vpmulhw ymm12, ymm5, ymm2
  .pmulhw 13 6 (.y 3), -- 488: vpmulhw ymm13, ymm6, ymm3
  .pmulhw 14 4 (.y 3), -- 489: vpmulhw ymm14, ymm4, ymm3
  .psubw 7 11 (.y 7), -- 490: vpsubw ymm7, ymm11, ymm7
  .psubw 9 12 (.y 9), -- 491: vpsubw ymm9, ymm12, ymm9
  .psubw 8 13 (.y 8), -- 492: vpsubw ymm8, ymm13, ymm8
  .psubw 10 14 (.y 10), -- 493: vpsubw ymm10, ymm14, ymm10
  .paddw 7 8 (.y 7), -- 494: vpaddw ymm7, ymm8, ymm7
  .paddw 9 10 (.y 9), -- 495: vpaddw ymm9, ymm10, ymm9
  .movA 8 (.m ⟨some .rdi, none, 0#64⟩), -- 496: vmovdqa ymm8, [rdi]
  .movA 10 (.m ⟨some .rdi, none, 32#64⟩), -- 497: vmovdqa ymm10, [32 + rdi]
  .paddw 7 8 (.y 7), -- 498: vpaddw ymm7, ymm8, ymm7
  .paddw 9 10 (.y 9), -- 499: vpaddw ymm9, ymm10, ymm9
  .stA ⟨some .rdi, none, 0#64⟩ 7, -- 500: vmovdqa [rdi], ymm7
  .stA ⟨some .rdi, none, 32#64⟩ 9, -- 501: vmovdqa [32 + rdi], ymm9
  .movA 2 (.m ⟨some .rsi, none, 1088#64⟩), -- 502: vmovdqa ymm2, [1088 + rsi]
  .movA 3 (.m ⟨some .rsi, none, 1120#64⟩), -- 503: vmovdqa ymm3, [1120 + rsi]
  .movA 4 (.m ⟨some .rdx, none, 1088#64⟩), -- 504: vmovdqa ymm4, [1088 + rdx]
  .movA 5 (.m ⟨some .rdx, none, 1120#64⟩), -- 505: vmovdqa ymm5, [1120 + rdx]
  .movA 6 (.m ⟨some .rcx, none, 544#64⟩), -- 506: vmovdqa ymm6, [544 + rcx]
  .pmullw 13 1 (.y 2), -- 507: vpmullw ymm13, ymm1, ymm2
  .pmullw 14 1 (.y 3), -- 508: vpmullw ymm14, ymm1, ymm3
  .pmullw 7 4 (.y 13), -- 509: vpmullw ymm7, ymm4, ymm13
  .pmullw 9 5 (.y 13), -- 510: vpmullw ymm9, ymm5, ymm13
  .pmullw 8 6 (.y 14), -- 511: vpmullw ymm8, ymm6, ymm14
  .pmullw 10 4 (.y 14), -- 512: vpmullw ymm10, ymm4, ymm14
  .pmulhw 7 0 (.y 7), -- 513: vpmulhw ymm7, ymm0, ymm7
  .pmulhw 9 0 (.y 9), -- 514: vpmulhw ymm9, ymm0, ymm9
  .pmulhw 8 0 (.y 8), -- 515: vpmulhw ymm8, ymm0, ymm8
  .pmulhw 10 0 (.y 10), -- 516: vpmulhw ymm10, ymm0, ymm10
  .pmulhw 11 4 (.y 2), -- 517: vpmulhw ymm11, ymm4, ymm2
  .pmulhw 12 5 (.y 2), -- 518: vpmulhw ymm12, ymm5, ymm2
  .pmulhw 13 6 (.y 3), -- 519: vpmulhw ymm13, ymm6, ymm3
  .pmulhw 14 4 (.y 3), -- 520: vpmulhw ymm14, ymm4, ymm3
  .psubw 7 11 (.y 7), -- 521: vpsubw ymm7, ymm11, ymm7
  .psubw 9 12 (.y 9), -- 522: vpsubw ymm9, ymm12, ymm9
  .psubw 8 8 (.y 13), -- 523: vpsubw ymm8, ymm8, ymm13
  .psubw 10 14 (.y 10), -- 524: vpsubw ymm10, ymm14, ymm10
  .paddw 7 8 (.y 7), -- 525: vpaddw ymm7, ymm8, ymm7
  .paddw 9 10 (.y 9), -- 526: vpaddw ymm9, ymm10, ymm9
  .movA 8 (.m ⟨some .rdi, none, 64#64⟩), -- 527: vmovdqa ymm8, [64 + rdi]
  .movA 10 (.m ⟨some .rdi, none, 96#64⟩), -- 528: vmovdqa ymm10, [96 + rdi]
  .paddw 7 8 (.y 7), -- 529: vpaddw ymm7, ymm8, ymm7
  .paddw 9 10 (.y 9), -- 530: vpaddw ymm9, ymm10, ymm9
  .stA ⟨some .rdi, none, 64#64⟩ 7, -- 531: vmovdqa [64 + rdi], ymm7
  .stA ⟨some .rdi, none, 96#64⟩ 9, -- 532: vmovdqa [96 + rdi], ymm9
  .movA 2 (.m ⟨some .rsi, none, 1152#64⟩), -- 533: vmovdqa ymm2, [1152 + rsi]
  .movA 3 (.m ⟨some .rsi, none, 1184#64⟩), -- 534: vmovdqa ymm3, [1184 + rsi]
  .movA 4 (.m ⟨some .rdx, none, 1152#64⟩), -- 535: vmovdqa ymm4, [1152 + rdx]
  .movA 5 (.m ⟨some .rdx, none, 1184#64⟩), -- 536: vmovdqa ymm5, [1184 + rdx]
  .movA 6 (.m ⟨some .rcx, none, 576#64⟩), -- 537: vmovdqa ymm6, [576 + rcx]
  .pmullw 13 1 (.y 2), -- 538: vpmullw ymm13, ymm1, ymm2
  .pmullw 14 1 (.y 3), -- 539: vpmullw ymm14, ymm1, ymm3
  .pmullw 7 4 (.y 13), -- 540: vpmullw ymm7, ymm4, ymm13
  .pmullw 9 5 (.y 13), -- 541: vpmullw ymm9, ymm5, ymm13
  .pmullw 8 6 (.y 14), -- 542: vpmullw ymm8, ymm6, ymm14
  .pmullw 10 4 (.y 14), -- 543: vpmullw ymm10, ymm4, ymm14
  .pmulhw 7 0 (.y 7), -- 544: vpmulhw ymm7, ymm0, ymm7
  .pmulhw 9 0 (.y 9), -- 545: vpmulhw ymm9, ymm0, ymm9
  .pmulhw 8 0 (.y 8), -- 546: vpmulhw ymm8, ymm0, ymm8
  .pmulhw 10 0 (.y 10), -- 547: vpmulhw ymm10, ymm0, ymm10
  .pmulhw 11 4 (.y 2), -- 548: vpmulhw ymm11, ymm4, ymm2
  .pmulhw 12 5 (.y 2), -- 549: vpmulhw ymm12, ymm5, ymm2
  .pmulhw 13 6 (.y 3), -- 550: vpmulhw ymm13, ymm6, ymm3
  .pmulhw 14 4 (.y 3), -- 551: vpmulhw ymm14, ymm4, ymm3
  .psubw 7 11 (.y 7), -- 552: vpsubw ymm7, ymm11, ymm7
  .psubw 9 12 (.y 9), -- 553: vpsubw ymm9, ymm12, ymm9
  .psubw 8 13 (.y 8), -- 554: vpsubw ymm8, ymm13, ymm8
  .psubw 10 14 (.y 10), -- 555: vpsubw ymm10, ymm14, ymm10
  .paddw 7 8 (.y 7), -- 556: vpaddw ymm7, ymm8, ymm7
  .paddw 9 10 (.y 9), -- 557: vpaddw ymm9, ymm10, ymm9
  .movA 8 (.m ⟨some .rdi, none, 128#64⟩), -- 558: vmovdqa ymm8, [128 + rdi]
  .movA 10 (.m ⟨some .rdi, none, 160#64⟩), -- 559: vmovdqa ymm10, [160 + rdi]
  .paddw 7 8 (.y 7), -- 560: vpaddw ymm7, ymm8, ymm7
  .paddw 9 10 (.y 9), -- 561: vpaddw ymm9, ymm10, ymm9
  .stA ⟨some .rdi, none, 128#64⟩ 7, -- 562: vmovdqa [128 + rdi], ymm7
  .stA ⟨some .rdi, none, 160#64⟩ 9, -- 563: vmovdqa [160 + rdi], ymm9
  .movA 2 (.m ⟨some .rsi, none, 1216#64⟩), -- 564: vmovdqa ymm2, [1216 + rsi]
  .movA 3 (.m ⟨some .rsi, none, 1248#64⟩), -- 565: vmovdqa ymm3, [1248 + rsi]
  .movA 4 (.m ⟨some .rdx, none, 1216#64⟩), -- 566: vmovdqa ymm4, [1216 + rdx]
  .movA 5 (.m ⟨some .rdx, none, 1248#64⟩), -- 567: vmovdqa ymm5, [1248 + rdx]
  .movA 6 (.m ⟨some .rcx, none, 608#64⟩), -- 568: vmovdqa ymm6, [608 + rcx]
  .pmullw 13 1 (.y 2), -- 569: vpmullw ymm13, ymm1, ymm2
  .pmullw 14 1 (.y 3), -- 570: vpmullw ymm14, ymm1, ymm3
  .pmullw 7 4 (.y 13), -- 571: vpmullw ymm7, ymm4, ymm13
  .pmullw 9 5 (.y 13), -- 572: vpmullw ymm9, ymm5, ymm13
  .pmullw 8 6 (.y 14), -- 573: vpmullw ymm8, ymm6, ymm14
  .pmullw 10 4 (.y 14), -- 574: vpmullw ymm10, ymm4, ymm14
  .pmulhw 7 0 (.y 7), -- 575: vpmulhw ymm7, ymm0, ymm7
  .pmulhw 9 0 (.y 9), -- 576: vpmulhw ymm9, ymm0, ymm9
  .pmulhw 8 0 (.y 8), -- 577: vpmulhw ymm8, ymm0, ymm8
  .pmulhw 10 0 (.y 10), -- 578: vpmulhw ymm10, ymm0, ymm10
  .pmulhw 11 4 (.y 2), -- 579: vpmulhw ymm11, ymm4, ymm2
  .pmulhw 12 5 (.y 2), -- 580: vpmulhw ymm12, ymm5, ymm2
  .pmulhw 13 6 (.y 3), -- 581: vpmulhw ymm13, ymm6, ymm3
  .pmulhw 14 4 (.y 3), -- 582: vpmulhw ymm14, ymm4, ymm3
  .psubw 7 11 (.y 7), -- 583: vpsubw ymm7, ymm11, ymm7
  .psubw 9 12 (.y 9), -- 584: vpsubw ymm9, ymm12, ymm9
  .psubw 8 8 (.y 13), -- 585: vpsubw ymm8, ymm8, ymm13
  .psubw 10 14 (.y 10), -- 586: vpsubw ymm10, ymm14, ymm10
  .paddw 7 8 (.y 7), -- 587: vpaddw ymm7, ymm8, ymm7
  .paddw 9 10 (.y 9), -- 588: vpaddw ymm9, ymm10, ymm9
  .movA 8 (.m ⟨some .rdi, none, 192#64⟩), -- 589: vmovdqa ymm8, [192 + rdi]
  .movA 10 (.m ⟨some .rdi, none, 224#64⟩), -- 590: vmovdqa ymm10, [224 + rdi]
  .paddw 7 8 (.y 7), -- 591: vpaddw ymm7, ymm8, ymm7
  .paddw 9 10 (.y 9), -- 592: vpaddw ymm9, ymm10, ymm9
  .stA ⟨some .rdi, none, 192#64⟩ 7, -- 593: vmovdqa [192 + rdi], ymm7
  .stA ⟨some .rdi, none, 224#64⟩ 9, -- 594: vmovdqa [224 + rdi], ymm9
  .movA 2 (.m ⟨some .rsi, none, 1280#64⟩), -- 595: vmovdqa ymm2, [1280 + rsi]
  .movA 3 (.m ⟨some .rsi, none, 1312#64⟩), -- 596: vmovdqa ymm3, [1312 + rsi]
  .movA 4 (.m ⟨some .rdx, none, 1280#64⟩), -- 597: vmovdqa ymm4, [1280 + rdx]
  .movA 5 (.m ⟨some .rdx, none, 1312#64⟩), -- 598: vmovdqa ymm5, [1312 + rdx]
  .movA 6 (.m ⟨some .rcx, none, 640#64⟩), -- 599: vmovdqa ymm6, [640 + rcx]
  .pmullw 13 1 (.y 2), -- 600: vpmullw ymm13, ymm1, ymm2
  .pmullw 14 1 (.y 3), -- 601: vpmullw ymm14, ymm1, ymm3
  .pmullw 7 4 (.y 13), -- 602: vpmullw ymm7, ymm4, ymm13
  .pmullw 9 5 (.y 13), -- 603: vpmullw ymm9, ymm5, ymm13
  .pmullw 8 6 (.y 14), -- 604: vpmullw ymm8, ymm6, ymm14
  .pmullw 10 4 (.y 14), -- 605: vpmullw ymm10, ymm4, ymm14
  .pmulhw 7 0 (.y 7), -- 606: vpmulhw ymm7, ymm0, ymm7
  .pmulhw 9 0 (.y 9), -- 607: vpmulhw ymm9, ymm0, ymm9
  .pmulhw 8 0 (.y 8), -- 608: vpmulhw ymm8, ymm0, ymm8
  .pmulhw 10 0 (.y 10), -- 609: vpmulhw ymm10, ymm0, ymm10
  .pmulhw 11 4 (.y 2), -- 610: vpmulhw ymm11, ymm4, ymm2
  .pmulhw 12 5 (.y 2), -- 611: vpmulhw ymm12, ymm5, ymm2
  .pmulhw 13 6 (.y 3), -- 612: vpmulhw ymm13, ymm6, ymm3
  .pmulhw 14 4 (.y 3), -- 613: vpmulhw ymm14, ymm4, ymm3
  .psubw 7 11 (.y 7), -- 614: vpsubw ymm7, ymm11, ymm7
  .psubw 9 12 (.y 9), -- 615: vpsubw ymm9, ymm12, ymm9
  .psubw 8 13 (.y 8), -- 616: vpsubw ymm8, ymm13, ymm8
  .psubw 10 14 (.y 10), -- 617: vpsubw ymm10, ymm14, ymm10
  .paddw 7 8 (.y 7), -- 618: vpaddw ymm7, ymm8, ymm7
  .paddw 9 10 (.y 9), -- 619: vpaddw ymm9, ymm10, ymm9
  .movA 8 (.m ⟨some .rdi, none, 256#64⟩), -- 620: vmovdqa ymm8, [256 + rdi]
  .movA 10 (.m ⟨some .rdi, none, 288#64⟩), -- 621: vmovdqa ymm10, [288 + rdi]
  .paddw 7 8 (.y 7), -- 622: vpaddw ymm7, ymm8, ymm7
  .paddw 9 10 (.y 9), -- 623: vpaddw ymm9, ymm10, ymm9
  .stA ⟨some .rdi, none, 256#64⟩ 7, -- 624: vmovdqa [256 + rdi], ymm7
  .stA ⟨some .rdi, none, 288#64⟩ 9, -- 625: vmovdqa [288 + rdi], ymm9
  .movA 2 (.m ⟨some .rsi, none, 1344#64⟩), -- 626: vmovdqa ymm2, [1344 + rsi]
  .movA 3 (.m ⟨some .rsi, none, 1376#64⟩), -- 627: vmovdqa ymm3, [1376 + rsi]
  .movA 4 (.m ⟨some .rdx, none, 1344#64⟩), -- 628: vmovdqa ymm4, [1344 + rdx]
  .movA 5 (.m ⟨some .rdx, none, 1376#64⟩), -- 629: vmovdqa ymm5, [1376 + rdx]
  .movA 6 (.m ⟨some .rcx, none, 672#64⟩), -- 630: vmovdqa ymm6, [672 + rcx]
  .pmullw 13 1 (.y 2), -- 631: vpmullw ymm13, ymm1, ymm2
  .pmullw 14 1 (.y 3), -- 632: vpmullw ymm14, ymm1, ymm3
  .pmullw 7 4 (.y 13), -- 633: vpmullw ymm7, ymm4, ymm13
  .pmullw 9 5 (.y 13), -- 634: vpmullw ymm9, ymm5, ymm13
  .pmullw 8 6 (.y 14), -- 635: vpmullw ymm8, ymm6, ymm14
  .pmullw 10 4 (.y 14), -- 636: vpmullw ymm10, ymm4, ymm14
  .pmulhw 7 0 (.y 7), -- 637: vpmulhw ymm7, ymm0, ymm7
  .pmulhw 9 0 (.y 9), -- 638: vpmulhw ymm9, ymm0, ymm9
  .pmulhw 8 0 (.y 8), -- 639: vpmulhw ymm8, ymm0, ymm8
  .pmulhw 10 0 (.y 10), -- 640: vpmulhw ymm10, ymm0, ymm10
  .pmulhw 11 4 (.y 2), -- 641: vpmulhw ymm11, ymm4, ymm2
  .pmulhw 12 5 (.y 2), -- 642: vpmulhw ymm12, ymm5, ymm2
  .pmulhw 13 6 (.y 3), -- 643: vpmulhw ymm13, ymm6, ymm3
  .pmulhw 14 4 (.y 3), -- 644: vpmulhw ymm14, ymm4, ymm3
  .psubw 7 11 (.y 7), -- 645: vpsubw ymm7, ymm11, ymm7
  .psubw 9 12 (.y 9), -- 646: vpsubw ymm9, ymm12, ymm9
  .psubw 8 8 (.y 13), -- 647: vpsubw ymm8, ymm8, ymm13
  .psubw 10 14 (.y 10), -- 648: vpsubw ymm10, ymm14, ymm10
  .paddw 7 8 (.y 7), -- 649: vpaddw ymm7, ymm8, ymm7
  .paddw 9 10 (.y 9), -- 650: vpaddw ymm9, ymm10, ymm9
  .movA 8 (.m ⟨some .rdi, none, 320#64⟩), -- 651: vmovdqa ymm8, [320 + rdi]
  .movA 10 (.m ⟨some .rdi, none, 352#64⟩), -- 652: vmovdqa ymm10, [352 + rdi]
  .paddw 7 8 (.y 7), -- 653: vpaddw ymm7, ymm8, ymm7
  .paddw 9 10 (.y 9), -- 654: vpaddw ymm9, ymm10, ymm9
  .stA ⟨some .rdi, none, 320#64⟩ 7, -- 655: vmovdqa [320 + rdi], ymm7
  .stA ⟨some .rdi, none, 352#64⟩ 9, -- 656: vmovdqa [352 + rdi], ymm9
  .movA 2 (.m ⟨some .rsi, none, 1408#64⟩), -- 657: vmovdqa ymm2, [1408 + rsi]
  .movA 3 (.m ⟨some .rsi, none, 1440#64⟩), -- 658: vmovdqa ymm3, [1440 + rsi]
  .movA 4 (.m ⟨some .rdx, none, 1408#64⟩), -- 659: vmovdqa ymm4, [1408 + rdx]
  .movA 5 (.m ⟨some .rdx, none, 1440#64⟩), -- 660: vmovdqa ymm5, [1440 + rdx]
  .movA 6 (.m ⟨some .rcx, none, 704#64⟩), -- 661: vmovdqa ymm6, [704 + rcx]
  .pmullw 13 1 (.y 2), -- 662: vpmullw ymm13, ymm1, ymm2
  .pmullw 14 1 (.y 3), -- 663: vpmullw ymm14, ymm1, ymm3
  .pmullw 7 4 (.y 13), -- 664: vpmullw ymm7, ymm4, ymm13
  .pmullw 9 5 (.y 13), -- 665: vpmullw ymm9, ymm5, ymm13
  .pmullw 8 6 (.y 14), -- 666: vpmullw ymm8, ymm6, ymm14
  .pmullw 10 4 (.y 14), -- 667: vpmullw ymm10, ymm4, ymm14
  .pmulhw 7 0 (.y 7), -- 668: vpmulhw ymm7, ymm0, ymm7
  .pmulhw 9 0 (.y 9), -- 669: vpmulhw ymm9, ymm0, ymm9
  .pmulhw 8 0 (.y 8), -- 670: vpmulhw ymm8, ymm0, ymm8
  .pmulhw 10 0 (.y 10), -- 671: vpmulhw ymm10, ymm0, ymm10
  .pmulhw 11 4 (.y 2), -- 672: vpmulhw ymm11, ymm4, ymm2
  .pmulhw 12 5 (.y 2), -- 673: vpmulhw ymm12, ymm5, ymm2
  .pmulhw 13 6 (.y 3), -- 674: vpmulhw ymm13, ymm6, ymm3
  .pmulhw 14 4 (.y 3), -- 675: vpmulhw ymm14, ymm4, ymm3
  .psubw 7 11 (.y 7), -- 676: vpsubw ymm7, ymm11, ymm7
  .psubw 9 12 (.y 9), -- 677: vpsubw ymm9, ymm12, ymm9
  .psubw 8 13 (.y 8), -- 678: vpsubw ymm8, ymm13, ymm8
  .psubw 10 14 (.y 10), -- 679: vpsubw ymm10, ymm14, ymm10
  .paddw 7 8 (.y 7), -- 680: vpaddw ymm7, ymm8, ymm7
  .paddw 9 10 (.y 9), -- 681: vpaddw ymm9, ymm10, ymm9
  .movA 8 (.m ⟨some .rdi, none, 384#64⟩), -- 682: vmovdqa ymm8, [384 + rdi]
  .movA 10 (.m ⟨some .rdi, none, 416#64⟩), -- 683: vmovdqa ymm10, [416 + rdi]
  .paddw 7 8 (.y 7), -- 684: vpaddw ymm7, ymm8, ymm7
  .paddw 9 10 (.y 9), -- 685: vpaddw ymm9, ymm10, ymm9
  .stA ⟨some .rdi, none, 384#64⟩ 7, -- 686: vmovdqa [384 + rdi], ymm7
  .stA ⟨some .rdi, none, 416#64⟩ 9, -- 687: vmovdqa [416 + rdi], ymm9
  .movA 2 (.m ⟨some .rsi, none, 1472#64⟩), -- 688: vmovdqa ymm2, [1472 + rsi]
  .movA 3 (.m ⟨some .rsi, none, 1504#64⟩), -- 689: vmovdqa ymm3, [1504 + rsi]
  .movA 4 (.m ⟨some .rdx, none, 1472#64⟩), -- 690: vmovdqa ymm4, [1472 + rdx]
  .movA 5 (.m ⟨some .rdx, none, 1504#64⟩), -- 691: vmovdqa ymm5, [1504 + rdx]
  .movA 6 (.m ⟨some .rcx, none, 736#64⟩), -- 692: vmovdqa ymm6, [736 + rcx]
  .pmullw 13 1 (.y 2), -- 693: vpmullw ymm13, ymm1, ymm2
  .pmullw 14 1 (.y 3), -- 694: vpmullw ymm14, ymm1, ymm3
  .pmullw 7 4 (.y 13), -- 695: vpmullw ymm7, ymm4, ymm13
  .pmullw 9 5 (.y 13), -- 696: vpmullw ymm9, ymm5, ymm13
  .pmullw 8 6 (.y 14), -- 697: vpmullw ymm8, ymm6, ymm14
  .pmullw 10 4 (.y 14), -- 698: vpmullw ymm10, ymm4, ymm14
  .pmulhw 7 0 (.y 7), -- 699: vpmulhw ymm7, ymm0, ymm7
  .pmulhw 9 0 (.y 9), -- 700: vpmulhw ymm9, ymm0, ymm9
  .pmulhw 8 0 (.y 8), -- 701: vpmulhw ymm8, ymm0, ymm8
  .pmulhw 10 0 (.y 10), -- 702: vpmulhw ymm10, ymm0, ymm10
  .pmulhw 11 4 (.y 2), -- 703: vpmulhw ymm11, ymm4, ymm2
  .pmulhw 12 5 (.y 2), -- 704: vpmulhw ymm12, ymm5, ymm2
  .pmulhw 13 6 (.y 3), -- 705: vpmulhw ymm13, ymm6, ymm3
  .pmulhw 14 4 (.y 3), -- 706: vpmulhw ymm14, ymm4, ymm3
  .psubw 7 11 (.y 7), -- 707: vpsubw ymm7, ymm11, ymm7
  .psubw 9 12 (.y 9), -- 708: vpsubw ymm9, ymm12, ymm9
  .psubw 8 8 (.y 13), -- 709: vpsubw ymm8, ymm8, ymm13
  .psubw 10 14 (.y 10), -- 710: vpsubw ymm10, ymm14, ymm10
  .paddw 7 8 (.y 7), -- 711: vpaddw ymm7, ymm8, ymm7
  .paddw 9 10 (.y 9), -- 712: vpaddw ymm9, ymm10, ymm9
  .movA 8 (.m ⟨some .rdi, none, 448#64⟩), -- 713: vmovdqa ymm8, [448 + rdi]
  .movA 10 (.m ⟨some .rdi, none, 480#64⟩), -- 714: vmovdqa ymm10, [480 + rdi]
  .paddw 7 8 (.y 7), -- 715: vpaddw ymm7, ymm8, ymm7
  .paddw 9 10 (.y 9), -- 716: vpaddw ymm9, ymm10, ymm9
  .stA ⟨some .rdi, none, 448#64⟩ 7, -- 717: vmovdqa [448 + rdi], ymm7
  .stA ⟨some .rdi, none, 480#64⟩ 9] -- 718: vmovdqa [480 + rdi], ymm9

/-- The registers that the operands of mlkem_basemul_k3.rs:64-808 say may change. -/
def mlkemBasemulK3Regs : List Reg := [.rdi, .rsi, .rdx, .rcx, .rax]

/-- low/x86_64/mlkem_mulcache_compute.rs:49-129.  Operands: inout("rdi") x.as_mut_ptr() => _; inout("rsi") a.as_ptr() => _; inout("rdx") qdata.as_ptr() => _; out("rax") _; out("zmm0") _; out("zmm1") _; out("zmm10") _; out("zmm2") _; out("zmm3") _; out("zmm4") _; out("zmm5") _; out("zmm6") _; out("zmm7") _; out("zmm8") _; out("zmm9") _. -/
def mlkemMulcacheCompute : VProg := [
  .sc (.nop), -- 0: endbr64
  .sc (.mov (.reg .rax) (.imm 0xd010d01#64)), -- 1: mov eax, 0xd010d01
  .vmovd 0 .rax, -- 2: vmovd xmm0, eax
  .pbroadcastd 0 0, -- 3: vpbroadcastd ymm0, xmm0
  .movA 2 (.m ⟨some .rsi, none, 32#64⟩), -- 4: vmovdqa ymm2, [32 + rsi]
  .movA 3 (.m ⟨some .rsi, none, 96#64⟩), -- 5: vmovdqa ymm3, [96 + rsi]
  .movA 4 (.m ⟨some .rdx, none, 992#64⟩), -- 6: vmovdqa ymm4, [992 + rdx]
  .movA 1 (.m ⟨some .rdx, none, 1120#64⟩), -- 7: vmovdqa ymm1, [1120 + rdx]
  .pmullw 5 1 (.y 2), -- 8: vpmullw ymm5, ymm1, ymm2
  .pmullw 6 1 (.y 3), -- 9: vpmullw ymm6, ymm1, ymm3
  .pmulhw 7 4 (.y 2), -- 10: vpmulhw ymm7, ymm4, ymm2
  .pmulhw 8 4 (.y 3), -- 11: vpmulhw ymm8, ymm4, ymm3
  .pmulhw 9 0 (.y 5), -- 12: vpmulhw ymm9, ymm0, ymm5
  .pmulhw 10 0 (.y 6), -- 13: vpmulhw ymm10, ymm0, ymm6
  .psubw 7 7 (.y 9), -- 14: vpsubw ymm7, ymm7, ymm9
  .psubw 8 8 (.y 10), -- 15: vpsubw ymm8, ymm8, ymm10
  .stA ⟨some .rdi, none, 0#64⟩ 7, -- 16: vmovdqa [rdi], ymm7
  .stA ⟨some .rdi, none, 32#64⟩ 8, -- 17: vmovdqa [32 + rdi], ymm8
  .movA 2 (.m ⟨some .rsi, none, 160#64⟩), -- 18: vmovdqa ymm2, [160 + rsi]
  .movA 3 (.m ⟨some .rsi, none, 224#64⟩), -- 19: vmovdqa ymm3, [224 + rsi]
  .movA 4 (.m ⟨some .rdx, none, 1024#64⟩), -- 20: vmovdqa ymm4, [1024 + rdx]
  .movA 1 (.m ⟨some .rdx, none, 1152#64⟩), -- 21: vmovdqa ymm1, [1152 + rdx]
  .pmullw 5 1 (.y 2), -- 22: vpmullw ymm5, ymm1, ymm2
  .pmullw 6 1 (.y 3), -- 23: vpmullw ymm6, ymm1, ymm3
  .pmulhw 7 4 (.y 2), -- 24: vpmulhw ymm7, ymm4, ymm2
  .pmulhw 8 4 (.y 3), -- 25: vpmulhw ymm8, ymm4, ymm3
  .pmulhw 9 0 (.y 5), -- 26: vpmulhw ymm9, ymm0, ymm5
  .pmulhw 10 0 (.y 6), -- 27: vpmulhw ymm10, ymm0, ymm6
  .psubw 7 7 (.y 9), -- 28: vpsubw ymm7, ymm7, ymm9
  .psubw 8 8 (.y 10), -- 29: vpsubw ymm8, ymm8, ymm10
  .stA ⟨some .rdi, none, 64#64⟩ 7, -- 30: vmovdqa [64 + rdi], ymm7
  .stA ⟨some .rdi, none, 96#64⟩ 8, -- 31: vmovdqa [96 + rdi], ymm8
  .movA 2 (.m ⟨some .rsi, none, 288#64⟩), -- 32: vmovdqa ymm2, [288 + rsi]
  .movA 3 (.m ⟨some .rsi, none, 352#64⟩), -- 33: vmovdqa ymm3, [352 + rsi]
  .movA 4 (.m ⟨some .rdx, none, 1056#64⟩), -- 34: vmovdqa ymm4, [1056 + rdx]
  .movA 1 (.m ⟨some .rdx, none, 1184#64⟩), -- 35: vmovdqa ymm1, [1184 + rdx]
  .pmullw 5 1 (.y 2), -- 36: vpmullw ymm5, ymm1, ymm2
  .pmullw 6 1 (.y 3), -- 37: vpmullw ymm6, ymm1, ymm3
  .pmulhw 7 4 (.y 2), -- 38: vpmulhw ymm7, ymm4, ymm2
  .pmulhw 8 4 (.y 3), -- 39: vpmulhw ymm8, ymm4, ymm3
  .pmulhw 9 0 (.y 5), -- 40: vpmulhw ymm9, ymm0, ymm5
  .pmulhw 10 0 (.y 6), -- 41: vpmulhw ymm10, ymm0, ymm6
  .psubw 7 7 (.y 9), -- 42: vpsubw ymm7, ymm7, ymm9
  .psubw 8 8 (.y 10), -- 43: vpsubw ymm8, ymm8, ymm10
  .stA ⟨some .rdi, none, 128#64⟩ 7, -- 44: vmovdqa [128 + rdi], ymm7
  .stA ⟨some .rdi, none, 160#64⟩ 8, -- 45: vmovdqa [160 + rdi], ymm8
  .movA 2 (.m ⟨some .rsi, none, 416#64⟩), -- 46: vmovdqa ymm2, [416 + rsi]
  .movA 3 (.m ⟨some .rsi, none, 480#64⟩), -- 47: vmovdqa ymm3, [480 + rsi]
  .movA 4 (.m ⟨some .rdx, none, 1088#64⟩), -- 48: vmovdqa ymm4, [1088 + rdx]
  .movA 1 (.m ⟨some .rdx, none, 1216#64⟩), -- 49: vmovdqa ymm1, [1216 + rdx]
  .pmullw 5 1 (.y 2), -- 50: vpmullw ymm5, ymm1, ymm2
  .pmullw 6 1 (.y 3), -- 51: vpmullw ymm6, ymm1, ymm3
  .pmulhw 7 4 (.y 2), -- 52: vpmulhw ymm7, ymm4, ymm2
  .pmulhw 8 4 (.y 3), -- 53: vpmulhw ymm8, ymm4, ymm3
  .pmulhw 9 0 (.y 5), -- 54: vpmulhw ymm9, ymm0, ymm5
  .pmulhw 10 0 (.y 6), -- 55: vpmulhw ymm10, ymm0, ymm6
  .psubw 7 7 (.y 9), -- 56: vpsubw ymm7, ymm7, ymm9
  .psubw 8 8 (.y 10), -- 57: vpsubw ymm8, ymm8, ymm10
  .stA ⟨some .rdi, none, 192#64⟩ 7, -- 58: vmovdqa [192 + rdi], ymm7
  .stA ⟨some .rdi, none, 224#64⟩ 8] -- 59: vmovdqa [224 + rdi], ymm8

/-- The registers that the operands of mlkem_mulcache_compute.rs:49-129 say may change. -/
def mlkemMulcacheComputeRegs : List Reg := [.rdi, .rsi, .rdx, .rax]

/-- low/x86_64/mlkem_reduce.rs:35-234.  Operands: inout("rdi") a.as_mut_ptr() => _; out("rax") _; out("zmm0") _; out("zmm1") _; out("zmm12") _; out("zmm2") _; out("zmm3") _; out("zmm4") _; out("zmm5") _; out("zmm6") _; out("zmm7") _; out("zmm8") _; out("zmm9") _. -/
def mlkemReduce : VProg := [
  .sc (.nop), -- 0: endbr64
  .sc (.mov (.reg .rax) (.imm 0xd010d01#64)), -- 1: mov eax, 0x0D010D01
  .movd 0 .rax, -- 2: movd xmm0, eax
  .pbroadcastd 0 0, -- 3: vpbroadcastd ymm0, xmm0
  .sc (.mov (.reg .rax) (.imm 0x4ebf4ebf#64)), -- 4: mov eax, 0x4EBF4EBF
  .movd 1 .rax, -- 5: movd xmm1, eax
  .pbroadcastd 1 1, -- 6: vpbroadcastd ymm1, xmm1
  .movA 2 (.m ⟨some .rdi, none, 0#64⟩), -- 7: vmovdqa ymm2, [rdi + 0x00]
  .movA 3 (.m ⟨some .rdi, none, 32#64⟩), -- 8: vmovdqa ymm3, [rdi + 0x20]
  .movA 4 (.m ⟨some .rdi, none, 64#64⟩), -- 9: vmovdqa ymm4, [rdi + 0x40]
  .movA 5 (.m ⟨some .rdi, none, 96#64⟩), -- 10: vmovdqa ymm5, [rdi + 0x60]
  .movA 6 (.m ⟨some .rdi, none, 128#64⟩), -- 11: vmovdqa ymm6, [rdi + 0x80]
  .movA 7 (.m ⟨some .rdi, none, 160#64⟩), -- 12: vmovdqa ymm7, [rdi + 0xa0]
  .movA 8 (.m ⟨some .rdi, none, 192#64⟩), -- 13: vmovdqa ymm8, [rdi + 0xc0]
  .movA 9 (.m ⟨some .rdi, none, 224#64⟩), -- 14: vmovdqa ymm9, [rdi + 0xe0]
  .pmulhw 12 2 (.y 1), -- 15: vpmulhw ymm12, ymm2, ymm1
  .psraw 12 12 10, -- 16: vpsraw ymm12, ymm12, 0xa
  .pmullw 12 12 (.y 0), -- 17: vpmullw ymm12, ymm12, ymm0
  .psubw 2 2 (.y 12), -- 18: vpsubw ymm2, ymm2, ymm12
  .pmulhw 12 3 (.y 1), -- 19: vpmulhw ymm12, ymm3, ymm1
  .psraw 12 12 10, -- 20: vpsraw ymm12, ymm12, 0xa
  .pmullw 12 12 (.y 0), -- 21: vpmullw ymm12, ymm12, ymm0
  .psubw 3 3 (.y 12), -- 22: vpsubw ymm3, ymm3, ymm12
  .pmulhw 12 4 (.y 1), -- 23: vpmulhw ymm12, ymm4, ymm1
  .psraw 12 12 10, -- 24: vpsraw ymm12, ymm12, 0xa
  .pmullw 12 12 (.y 0), -- 25: vpmullw ymm12, ymm12, ymm0
  .psubw 4 4 (.y 12), -- 26: vpsubw ymm4, ymm4, ymm12
  .pmulhw 12 5 (.y 1), -- 27: vpmulhw ymm12, ymm5, ymm1
  .psraw 12 12 10, -- 28: vpsraw ymm12, ymm12, 0xa
  .pmullw 12 12 (.y 0), -- 29: vpmullw ymm12, ymm12, ymm0
  .psubw 5 5 (.y 12), -- 30: vpsubw ymm5, ymm5, ymm12
  .pmulhw 12 6 (.y 1), -- 31: vpmulhw ymm12, ymm6, ymm1
  .psraw 12 12 10, -- 32: vpsraw ymm12, ymm12, 0xa
  .pmullw 12 12 (.y 0), -- 33: vpmullw ymm12, ymm12, ymm0
  .psubw 6 6 (.y 12), -- 34: vpsubw ymm6, ymm6, ymm12
  .pmulhw 12 7 (.y 1), -- 35: vpmulhw ymm12, ymm7, ymm1
  .psraw 12 12 10, -- 36: vpsraw ymm12, ymm12, 0xa
  .pmullw 12 12 (.y 0), -- 37: vpmullw ymm12, ymm12, ymm0
  .psubw 7 7 (.y 12), -- 38: vpsubw ymm7, ymm7, ymm12
  .pmulhw 12 8 (.y 1), -- 39: vpmulhw ymm12, ymm8, ymm1
  .psraw 12 12 10, -- 40: vpsraw ymm12, ymm12, 0xa
  .pmullw 12 12 (.y 0), -- 41: vpmullw ymm12, ymm12, ymm0
  .psubw 8 8 (.y 12), -- 42: vpsubw ymm8, ymm8, ymm12
  .pmulhw 12 9 (.y 1), -- 43: vpmulhw ymm12, ymm9, ymm1
  .psraw 12 12 10, -- 44: vpsraw ymm12, ymm12, 0xa
  .pmullw 12 12 (.y 0), -- 45: vpmullw ymm12, ymm12, ymm0
  .psubw 9 9 (.y 12), -- 46: vpsubw ymm9, ymm9, ymm12
  .psubw 2 2 (.y 0), -- 47: vpsubw ymm2, ymm2, ymm0
  .psraw 12 2 15, -- 48: vpsraw ymm12, ymm2, 0xf
  .pand 12 12 (.y 0), -- 49: vpand ymm12, ymm12, ymm0
  .paddw 2 2 (.y 12), -- 50: vpaddw ymm2, ymm2, ymm12
  .psubw 3 3 (.y 0), -- 51: vpsubw ymm3, ymm3, ymm0
  .psraw 12 3 15, -- 52: vpsraw ymm12, ymm3, 0xf
  .pand 12 12 (.y 0), -- 53: vpand ymm12, ymm12, ymm0
  .paddw 3 3 (.y 12), -- 54: vpaddw ymm3, ymm3, ymm12
  .psubw 4 4 (.y 0), -- 55: vpsubw ymm4, ymm4, ymm0
  .psraw 12 4 15, -- 56: vpsraw ymm12, ymm4, 0xf
  .pand 12 12 (.y 0), -- 57: vpand ymm12, ymm12, ymm0
  .paddw 4 4 (.y 12), -- 58: vpaddw ymm4, ymm4, ymm12
  .psubw 5 5 (.y 0), -- 59: vpsubw ymm5, ymm5, ymm0
  .psraw 12 5 15, -- 60: vpsraw ymm12, ymm5, 0xf
  .pand 12 12 (.y 0), -- 61: vpand ymm12, ymm12, ymm0
  .paddw 5 5 (.y 12), -- 62: vpaddw ymm5, ymm5, ymm12
  .psubw 6 6 (.y 0), -- 63: vpsubw ymm6, ymm6, ymm0
  .psraw 12 6 15, -- 64: vpsraw ymm12, ymm6, 0xf
  .pand 12 12 (.y 0), -- 65: vpand ymm12, ymm12, ymm0
  .paddw 6 6 (.y 12), -- 66: vpaddw ymm6, ymm6, ymm12
  .psubw 7 7 (.y 0), -- 67: vpsubw ymm7, ymm7, ymm0
  .psraw 12 7 15, -- 68: vpsraw ymm12, ymm7, 0xf
  .pand 12 12 (.y 0), -- 69: vpand ymm12, ymm12, ymm0
  .paddw 7 7 (.y 12), -- 70: vpaddw ymm7, ymm7, ymm12
  .psubw 8 8 (.y 0), -- 71: vpsubw ymm8, ymm8, ymm0
  .psraw 12 8 15, -- 72: vpsraw ymm12, ymm8, 0xf
  .pand 12 12 (.y 0), -- 73: vpand ymm12, ymm12, ymm0
  .paddw 8 8 (.y 12), -- 74: vpaddw ymm8, ymm8, ymm12
  .psubw 9 9 (.y 0), -- 75: vpsubw ymm9, ymm9, ymm0
  .psraw 12 9 15, -- 76: vpsraw ymm12, ymm9, 0xf
  .pand 12 12 (.y 0), -- 77: vpand ymm12, ymm12, ymm0
  .paddw 9 9 (.y 12), -- 78: vpaddw ymm9, ymm9, ymm12
  .stA ⟨some .rdi, none, 0#64⟩ 2, -- 79: vmovdqa [rdi + 0x00], ymm2
  .stA ⟨some .rdi, none, 32#64⟩ 3, -- 80: vmovdqa [rdi + 0x20], ymm3
  .stA ⟨some .rdi, none, 64#64⟩ 4, -- 81: vmovdqa [rdi + 0x40], ymm4
  .stA ⟨some .rdi, none, 96#64⟩ 5, -- 82: vmovdqa [rdi + 0x60], ymm5
  .stA ⟨some .rdi, none, 128#64⟩ 6, -- 83: vmovdqa [rdi + 0x80], ymm6
  .stA ⟨some .rdi, none, 160#64⟩ 7, -- 84: vmovdqa [rdi + 0xa0], ymm7
  .stA ⟨some .rdi, none, 192#64⟩ 8, -- 85: vmovdqa [rdi + 0xc0], ymm8
  .stA ⟨some .rdi, none, 224#64⟩ 9, -- 86: vmovdqa [rdi + 0xe0], ymm9
  .movA 2 (.m ⟨some .rdi, none, 256#64⟩), -- 87: vmovdqa ymm2, [rdi + 0x100]
  .movA 3 (.m ⟨some .rdi, none, 288#64⟩), -- 88: vmovdqa ymm3, [rdi + 0x120]
  .movA 4 (.m ⟨some .rdi, none, 320#64⟩), -- 89: vmovdqa ymm4, [rdi + 0x140]
  .movA 5 (.m ⟨some .rdi, none, 352#64⟩), -- 90: vmovdqa ymm5, [rdi + 0x160]
  .movA 6 (.m ⟨some .rdi, none, 384#64⟩), -- 91: vmovdqa ymm6, [rdi + 0x180]
  .movA 7 (.m ⟨some .rdi, none, 416#64⟩), -- 92: vmovdqa ymm7, [rdi + 0x1a0]
  .movA 8 (.m ⟨some .rdi, none, 448#64⟩), -- 93: vmovdqa ymm8, [rdi + 0x1c0]
  .movA 9 (.m ⟨some .rdi, none, 480#64⟩), -- 94: vmovdqa ymm9, [rdi + 0x1e0]
  .pmulhw 12 2 (.y 1), -- 95: vpmulhw ymm12, ymm2, ymm1
  .psraw 12 12 10, -- 96: vpsraw ymm12, ymm12, 0xa
  .pmullw 12 12 (.y 0), -- 97: vpmullw ymm12, ymm12, ymm0
  .psubw 2 2 (.y 12), -- 98: vpsubw ymm2, ymm2, ymm12
  .pmulhw 12 3 (.y 1), -- 99: vpmulhw ymm12, ymm3, ymm1
  .psraw 12 12 10, -- 100: vpsraw ymm12, ymm12, 0xa
  .pmullw 12 12 (.y 0), -- 101: vpmullw ymm12, ymm12, ymm0
  .psubw 3 3 (.y 12), -- 102: vpsubw ymm3, ymm3, ymm12
  .pmulhw 12 4 (.y 1), -- 103: vpmulhw ymm12, ymm4, ymm1
  .psraw 12 12 10, -- 104: vpsraw ymm12, ymm12, 0xa
  .pmullw 12 12 (.y 0), -- 105: vpmullw ymm12, ymm12, ymm0
  .psubw 4 4 (.y 12), -- 106: vpsubw ymm4, ymm4, ymm12
  .pmulhw 12 5 (.y 1), -- 107: vpmulhw ymm12, ymm5, ymm1
  .psraw 12 12 10, -- 108: vpsraw ymm12, ymm12, 0xa
  .pmullw 12 12 (.y 0), -- 109: vpmullw ymm12, ymm12, ymm0
  .psubw 5 5 (.y 12), -- 110: vpsubw ymm5, ymm5, ymm12
  .pmulhw 12 6 (.y 1), -- 111: vpmulhw ymm12, ymm6, ymm1
  .psraw 12 12 10, -- 112: vpsraw ymm12, ymm12, 0xa
  .pmullw 12 12 (.y 0), -- 113: vpmullw ymm12, ymm12, ymm0
  .psubw 6 6 (.y 12), -- 114: vpsubw ymm6, ymm6, ymm12
  .pmulhw 12 7 (.y 1), -- 115: vpmulhw ymm12, ymm7, ymm1
  .psraw 12 12 10, -- 116: vpsraw ymm12, ymm12, 0xa
  .pmullw 12 12 (.y 0), -- 117: vpmullw ymm12, ymm12, ymm0
  .psubw 7 7 (.y 12), -- 118: vpsubw ymm7, ymm7, ymm12
  .pmulhw 12 8 (.y 1), -- 119: vpmulhw ymm12, ymm8, ymm1
  .psraw 12 12 10, -- 120: vpsraw ymm12, ymm12, 0xa
  .pmullw 12 12 (.y 0), -- 121: vpmullw ymm12, ymm12, ymm0
  .psubw 8 8 (.y 12), -- 122: vpsubw ymm8, ymm8, ymm12
  .pmulhw 12 9 (.y 1), -- 123: vpmulhw ymm12, ymm9, ymm1
  .psraw 12 12 10, -- 124: vpsraw ymm12, ymm12, 0xa
  .pmullw 12 12 (.y 0), -- 125: vpmullw ymm12, ymm12, ymm0
  .psubw 9 9 (.y 12), -- 126: vpsubw ymm9, ymm9, ymm12
  .psubw 2 2 (.y 0), -- 127: vpsubw ymm2, ymm2, ymm0
  .psraw 12 2 15, -- 128: vpsraw ymm12, ymm2, 0xf
  .pand 12 12 (.y 0), -- 129: vpand ymm12, ymm12, ymm0
  .paddw 2 2 (.y 12), -- 130: vpaddw ymm2, ymm2, ymm12
  .psubw 3 3 (.y 0), -- 131: vpsubw ymm3, ymm3, ymm0
  .psraw 12 3 15, -- 132: vpsraw ymm12, ymm3, 0xf
  .pand 12 12 (.y 0), -- 133: vpand ymm12, ymm12, ymm0
  .paddw 3 3 (.y 12), -- 134: vpaddw ymm3, ymm3, ymm12
  .psubw 4 4 (.y 0), -- 135: vpsubw ymm4, ymm4, ymm0
  .psraw 12 4 15, -- 136: vpsraw ymm12, ymm4, 0xf
  .pand 12 12 (.y 0), -- 137: vpand ymm12, ymm12, ymm0
  .paddw 4 4 (.y 12), -- 138: vpaddw ymm4, ymm4, ymm12
  .psubw 5 5 (.y 0), -- 139: vpsubw ymm5, ymm5, ymm0
  .psraw 12 5 15, -- 140: vpsraw ymm12, ymm5, 0xf
  .pand 12 12 (.y 0), -- 141: vpand ymm12, ymm12, ymm0
  .paddw 5 5 (.y 12), -- 142: vpaddw ymm5, ymm5, ymm12
  .psubw 6 6 (.y 0), -- 143: vpsubw ymm6, ymm6, ymm0
  .psraw 12 6 15, -- 144: vpsraw ymm12, ymm6, 0xf
  .pand 12 12 (.y 0), -- 145: vpand ymm12, ymm12, ymm0
  .paddw 6 6 (.y 12), -- 146: vpaddw ymm6, ymm6, ymm12
  .psubw 7 7 (.y 0), -- 147: vpsubw ymm7, ymm7, ymm0
  .psraw 12 7 15, -- 148: vpsraw ymm12, ymm7, 0xf
  .pand 12 12 (.y 0), -- 149: vpand ymm12, ymm12, ymm0
  .paddw 7 7 (.y 12), -- 150: vpaddw ymm7, ymm7, ymm12
  .psubw 8 8 (.y 0), -- 151: vpsubw ymm8, ymm8, ymm0
  .psraw 12 8 15, -- 152: vpsraw ymm12, ymm8, 0xf
  .pand 12 12 (.y 0), -- 153: vpand ymm12, ymm12, ymm0
  .paddw 8 8 (.y 12), -- 154: vpaddw ymm8, ymm8, ymm12
  .psubw 9 9 (.y 0), -- 155: vpsubw ymm9, ymm9, ymm0
  .psraw 12 9 15, -- 156: vpsraw ymm12, ymm9, 0xf
  .pand 12 12 (.y 0), -- 157: vpand ymm12, ymm12, ymm0
  .paddw 9 9 (.y 12), -- 158: vpaddw ymm9, ymm9, ymm12
  .stA ⟨some .rdi, none, 256#64⟩ 2, -- 159: vmovdqa [rdi + 0x100], ymm2
  .stA ⟨some .rdi, none, 288#64⟩ 3, -- 160: vmovdqa [rdi + 0x120], ymm3
  .stA ⟨some .rdi, none, 320#64⟩ 4, -- 161: vmovdqa [rdi + 0x140], ymm4
  .stA ⟨some .rdi, none, 352#64⟩ 5, -- 162: vmovdqa [rdi + 0x160], ymm5
  .stA ⟨some .rdi, none, 384#64⟩ 6, -- 163: vmovdqa [rdi + 0x180], ymm6
  .stA ⟨some .rdi, none, 416#64⟩ 7, -- 164: vmovdqa [rdi + 0x1a0], ymm7
  .stA ⟨some .rdi, none, 448#64⟩ 8, -- 165: vmovdqa [rdi + 0x1c0], ymm8
  .stA ⟨some .rdi, none, 480#64⟩ 9] -- 166: vmovdqa [rdi + 0x1e0], ymm9

/-- The registers that the operands of mlkem_reduce.rs:35-234 say may change. -/
def mlkemReduceRegs : List Reg := [.rdi, .rax]

/-- low/x86_64/mlkem_tomont.rs:34-163.  Operands: inout("rdi") a.as_mut_ptr() => _; out("rax") _; out("zmm0") _; out("zmm1") _; out("zmm10") _; out("zmm11") _; out("zmm12") _; out("zmm13") _; out("zmm14") _; out("zmm15") _; out("zmm2") _; out("zmm3") _; out("zmm4") _; out("zmm5") _; out("zmm6") _; out("zmm7") _; out("zmm8") _; out("zmm9") _. -/
def mlkemTomont : VProg := [
  .sc (.nop), -- 0: endbr64
  .sc (.mov (.reg .rax) (.imm 0xd010d01#64)), -- 1: mov eax, 0xd010d01
  .vmovd 0 .rax, -- 2: vmovd xmm0, eax
  .pbroadcastd 0 0, -- 3: vpbroadcastd ymm0, xmm0
  .sc (.mov (.reg .rax) (.imm 0x50495049#64)), -- 4: mov eax, 0x50495049
  .vmovd 1 .rax, -- 5: vmovd xmm1, eax
  .pbroadcastd 1 1, -- 6: vpbroadcastd ymm1, xmm1
  .sc (.mov (.reg .rax) (.imm 0x5490549#64)), -- 7: mov eax, 0x5490549
  .vmovd 2 .rax, -- 8: vmovd xmm2, eax
  .pbroadcastd 2 2, -- 9: vpbroadcastd ymm2, xmm2
  .movA 3 (.m ⟨some .rdi, none, 0#64⟩), -- 10: vmovdqa ymm3, [rdi]
  .movA 4 (.m ⟨some .rdi, none, 32#64⟩), -- 11: vmovdqa ymm4, [32 + rdi]
  .movA 5 (.m ⟨some .rdi, none, 64#64⟩), -- 12: vmovdqa ymm5, [64 + rdi]
  .movA 6 (.m ⟨some .rdi, none, 96#64⟩), -- 13: vmovdqa ymm6, [96 + rdi]
  .movA 7 (.m ⟨some .rdi, none, 128#64⟩), -- 14: vmovdqa ymm7, [128 + rdi]
  .movA 8 (.m ⟨some .rdi, none, 160#64⟩), -- 15: vmovdqa ymm8, [160 + rdi]
  .movA 9 (.m ⟨some .rdi, none, 192#64⟩), -- 16: vmovdqa ymm9, [192 + rdi]
  .movA 10 (.m ⟨some .rdi, none, 224#64⟩), -- 17: vmovdqa ymm10, [224 + rdi]
  .pmullw 11 3 (.y 1), -- 18: vpmullw ymm11, ymm3, ymm1
  .pmulhw 3 3 (.y 2), -- 19: vpmulhw ymm3, ymm3, ymm2
  .pmulhw 11 11 (.y 0), -- 20: vpmulhw ymm11, ymm11, ymm0
  .psubw 3 3 (.y 11), -- 21: vpsubw ymm3, ymm3, ymm11
  .pmullw 12 4 (.y 1), -- 22: vpmullw ymm12, ymm4, ymm1
  .pmulhw 4 4 (.y 2), -- 23: vpmulhw ymm4, ymm4, ymm2
  .pmulhw 12 12 (.y 0), -- 24: vpmulhw ymm12, ymm12, ymm0
  .psubw 4 4 (.y 12), -- 25: vpsubw ymm4, ymm4, ymm12
  .pmullw 13 5 (.y 1), -- 26: vpmullw ymm13, ymm5, ymm1
  .pmulhw 5 5 (.y 2), -- 27: vpmulhw ymm5, ymm5, ymm2
  .pmulhw 13 13 (.y 0), -- 28: vpmulhw ymm13, ymm13, ymm0
  .psubw 5 5 (.y 13), -- 29: vpsubw ymm5, ymm5, ymm13
  .pmullw 14 6 (.y 1), -- 30: vpmullw ymm14, ymm6, ymm1
  .pmulhw 6 6 (.y 2), -- 31: vpmulhw ymm6, ymm6, ymm2
  .pmulhw 14 14 (.y 0), -- 32: vpmulhw ymm14, ymm14, ymm0
  .psubw 6 6 (.y 14), -- 33: vpsubw ymm6, ymm6, ymm14
  .pmullw 15 7 (.y 1), -- 34: vpmullw ymm15, ymm7, ymm1
  .pmulhw 7 7 (.y 2), -- 35: vpmulhw ymm7, ymm7, ymm2
  .pmulhw 15 15 (.y 0), -- 36: vpmulhw ymm15, ymm15, ymm0
  .psubw 7 7 (.y 15), -- 37: vpsubw ymm7, ymm7, ymm15
  .pmullw 11 8 (.y 1), -- 38: vpmullw ymm11, ymm8, ymm1
  .pmulhw 8 8 (.y 2), -- 39: vpmulhw ymm8, ymm8, ymm2
  .pmulhw 11 11 (.y 0), -- 40: vpmulhw ymm11, ymm11, ymm0
  .psubw 8 8 (.y 11), -- 41: vpsubw ymm8, ymm8, ymm11
  .pmullw 12 9 (.y 1), -- 42: vpmullw ymm12, ymm9, ymm1
  .pmulhw 9 9 (.y 2), -- 43: vpmulhw ymm9, ymm9, ymm2
  .pmulhw 12 12 (.y 0), -- 44: vpmulhw ymm12, ymm12, ymm0
  .psubw 9 9 (.y 12), -- 45: vpsubw ymm9, ymm9, ymm12
  .pmullw 13 10 (.y 1), -- 46: vpmullw ymm13, ymm10, ymm1
  .pmulhw 10 10 (.y 2), -- 47: vpmulhw ymm10, ymm10, ymm2
  .pmulhw 13 13 (.y 0), -- 48: vpmulhw ymm13, ymm13, ymm0
  .psubw 10 10 (.y 13), -- 49: vpsubw ymm10, ymm10, ymm13
  .stA ⟨some .rdi, none, 0#64⟩ 3, -- 50: vmovdqa [rdi], ymm3
  .stA ⟨some .rdi, none, 32#64⟩ 4, -- 51: vmovdqa [32 + rdi], ymm4
  .stA ⟨some .rdi, none, 64#64⟩ 5, -- 52: vmovdqa [64 + rdi], ymm5
  .stA ⟨some .rdi, none, 96#64⟩ 6, -- 53: vmovdqa [96 + rdi], ymm6
  .stA ⟨some .rdi, none, 128#64⟩ 7, -- 54: vmovdqa [128 + rdi], ymm7
  .stA ⟨some .rdi, none, 160#64⟩ 8, -- 55: vmovdqa [160 + rdi], ymm8
  .stA ⟨some .rdi, none, 192#64⟩ 9, -- 56: vmovdqa [192 + rdi], ymm9
  .stA ⟨some .rdi, none, 224#64⟩ 10, -- 57: vmovdqa [224 + rdi], ymm10
  .movA 3 (.m ⟨some .rdi, none, 256#64⟩), -- 58: vmovdqa ymm3, [256 + rdi]
  .movA 4 (.m ⟨some .rdi, none, 288#64⟩), -- 59: vmovdqa ymm4, [288 + rdi]
  .movA 5 (.m ⟨some .rdi, none, 320#64⟩), -- 60: vmovdqa ymm5, [320 + rdi]
  .movA 6 (.m ⟨some .rdi, none, 352#64⟩), -- 61: vmovdqa ymm6, [352 + rdi]
  .movA 7 (.m ⟨some .rdi, none, 384#64⟩), -- 62: vmovdqa ymm7, [384 + rdi]
  .movA 8 (.m ⟨some .rdi, none, 416#64⟩), -- 63: vmovdqa ymm8, [416 + rdi]
  .movA 9 (.m ⟨some .rdi, none, 448#64⟩), -- 64: vmovdqa ymm9, [448 + rdi]
  .movA 10 (.m ⟨some .rdi, none, 480#64⟩), -- 65: vmovdqa ymm10, [480 + rdi]
  .pmullw 11 3 (.y 1), -- 66: vpmullw ymm11, ymm3, ymm1
  .pmulhw 3 3 (.y 2), -- 67: vpmulhw ymm3, ymm3, ymm2
  .pmulhw 11 11 (.y 0), -- 68: vpmulhw ymm11, ymm11, ymm0
  .psubw 3 3 (.y 11), -- 69: vpsubw ymm3, ymm3, ymm11
  .pmullw 12 4 (.y 1), -- 70: vpmullw ymm12, ymm4, ymm1
  .pmulhw 4 4 (.y 2), -- 71: vpmulhw ymm4, ymm4, ymm2
  .pmulhw 12 12 (.y 0), -- 72: vpmulhw ymm12, ymm12, ymm0
  .psubw 4 4 (.y 12), -- 73: vpsubw ymm4, ymm4, ymm12
  .pmullw 13 5 (.y 1), -- 74: vpmullw ymm13, ymm5, ymm1
  .pmulhw 5 5 (.y 2), -- 75: vpmulhw ymm5, ymm5, ymm2
  .pmulhw 13 13 (.y 0), -- 76: vpmulhw ymm13, ymm13, ymm0
  .psubw 5 5 (.y 13), -- 77: vpsubw ymm5, ymm5, ymm13
  .pmullw 14 6 (.y 1), -- 78: vpmullw ymm14, ymm6, ymm1
  .pmulhw 6 6 (.y 2), -- 79: vpmulhw ymm6, ymm6, ymm2
  .pmulhw 14 14 (.y 0), -- 80: vpmulhw ymm14, ymm14, ymm0
  .psubw 6 6 (.y 14), -- 81: vpsubw ymm6, ymm6, ymm14
  .pmullw 15 7 (.y 1), -- 82: vpmullw ymm15, ymm7, ymm1
  .pmulhw 7 7 (.y 2), -- 83: vpmulhw ymm7, ymm7, ymm2
  .pmulhw 15 15 (.y 0), -- 84: vpmulhw ymm15, ymm15, ymm0
  .psubw 7 7 (.y 15), -- 85: vpsubw ymm7, ymm7, ymm15
  .pmullw 11 8 (.y 1), -- 86: vpmullw ymm11, ymm8, ymm1
  .pmulhw 8 8 (.y 2), -- 87: vpmulhw ymm8, ymm8, ymm2
  .pmulhw 11 11 (.y 0), -- 88: vpmulhw ymm11, ymm11, ymm0
  .psubw 8 8 (.y 11), -- 89: vpsubw ymm8, ymm8, ymm11
  .pmullw 12 9 (.y 1), -- 90: vpmullw ymm12, ymm9, ymm1
  .pmulhw 9 9 (.y 2), -- 91: vpmulhw ymm9, ymm9, ymm2
  .pmulhw 12 12 (.y 0), -- 92: vpmulhw ymm12, ymm12, ymm0
  .psubw 9 9 (.y 12), -- 93: vpsubw ymm9, ymm9, ymm12
  .pmullw 13 10 (.y 1), -- 94: vpmullw ymm13, ymm10, ymm1
  .pmulhw 10 10 (.y 2), -- 95: vpmulhw ymm10, ymm10, ymm2
  .pmulhw 13 13 (.y 0), -- 96: vpmulhw ymm13, ymm13, ymm0
  .psubw 10 10 (.y 13), -- 97: vpsubw ymm10, ymm10, ymm13
  .stA ⟨some .rdi, none, 256#64⟩ 3, -- 98: vmovdqa [256 + rdi], ymm3
  .stA ⟨some .rdi, none, 288#64⟩ 4, -- 99: vmovdqa [288 + rdi], ymm4
  .stA ⟨some .rdi, none, 320#64⟩ 5, -- 100: vmovdqa [320 + rdi], ymm5
  .stA ⟨some .rdi, none, 352#64⟩ 6, -- 101: vmovdqa [352 + rdi], ymm6
  .stA ⟨some .rdi, none, 384#64⟩ 7, -- 102: vmovdqa [384 + rdi], ymm7
  .stA ⟨some .rdi, none, 416#64⟩ 8, -- 103: vmovdqa [416 + rdi], ymm8
  .stA ⟨some .rdi, none, 448#64⟩ 9, -- 104: vmovdqa [448 + rdi], ymm9
  .stA ⟨some .rdi, none, 480#64⟩ 10] -- 105: vmovdqa [480 + rdi], ymm10

/-- The registers that the operands of mlkem_tomont.rs:34-163 say may change. -/
def mlkemTomontRegs : List Reg := [.rdi, .rax]

/-- low/x86_64/mlkem_unpack.rs:29-173.  Operands: inout("rdi") a.as_mut_ptr() => _; out("zmm10") _; out("zmm11") _; out("zmm3") _; out("zmm4") _; out("zmm5") _; out("zmm6") _; out("zmm7") _; out("zmm8") _; out("zmm9") _. -/
def mlkemUnpack : VProg := [
  .sc (.nop), -- 0: endbr64
  .movA 4 (.m ⟨some .rdi, none, 0#64⟩), -- 1: vmovdqa ymm4, [rdi]
  .movA 5 (.m ⟨some .rdi, none, 32#64⟩), -- 2: vmovdqa ymm5, [32 + rdi]
  .movA 6 (.m ⟨some .rdi, none, 64#64⟩), -- 3: vmovdqa ymm6, [64 + rdi]
  .movA 7 (.m ⟨some .rdi, none, 96#64⟩), -- 4: vmovdqa ymm7, [96 + rdi]
  .movA 8 (.m ⟨some .rdi, none, 128#64⟩), -- 5: vmovdqa ymm8, [128 + rdi]
  .movA 9 (.m ⟨some .rdi, none, 160#64⟩), -- 6: vmovdqa ymm9, [160 + rdi]
  .movA 10 (.m ⟨some .rdi, none, 192#64⟩), -- 7: vmovdqa ymm10, [192 + rdi]
  .movA 11 (.m ⟨some .rdi, none, 224#64⟩), -- 8: vmovdqa ymm11, [224 + rdi]
  .perm2i128 3 4 (.y 8) 32, -- 9: vperm2i128 ymm3, ymm4, ymm8, 0x20
  .perm2i128 8 4 (.y 8) 49, -- 10: vperm2i128 ymm8, ymm4, ymm8, 0x31
  .perm2i128 4 5 (.y 9) 32, -- 11: vperm2i128 ymm4, ymm5, ymm9, 0x20
  .perm2i128 9 5 (.y 9) 49, -- 12: vperm2i128 ymm9, ymm5, ymm9, 0x31
  .perm2i128 5 6 (.y 10) 32, -- 13: vperm2i128 ymm5, ymm6, ymm10, 0x20
  .perm2i128 10 6 (.y 10) 49, -- 14: vperm2i128 ymm10, ymm6, ymm10, 0x31
  .perm2i128 6 7 (.y 11) 32, -- 15: vperm2i128 ymm6, ymm7, ymm11, 0x20
  .perm2i128 11 7 (.y 11) 49, -- 16: vperm2i128 ymm11, ymm7, ymm11, 0x31
  .punpcklqdq 7 3 (.y 5), -- 17: vpunpcklqdq ymm7, ymm3, ymm5
  .punpckhqdq 5 3 (.y 5), -- 18: vpunpckhqdq ymm5, ymm3, ymm5
  .punpcklqdq 3 8 (.y 10), -- 19: vpunpcklqdq ymm3, ymm8, ymm10
  .punpckhqdq 10 8 (.y 10), -- 20: vpunpckhqdq ymm10, ymm8, ymm10
  .punpcklqdq 8 4 (.y 6), -- 21: vpunpcklqdq ymm8, ymm4, ymm6
  .punpckhqdq 6 4 (.y 6), -- 22: vpunpckhqdq ymm6, ymm4, ymm6
  .punpcklqdq 4 9 (.y 11), -- 23: vpunpcklqdq ymm4, ymm9, ymm11
  .punpckhqdq 11 9 (.y 11), -- 24: vpunpckhqdq ymm11, ymm9, ymm11
  .movsldup 9 (.y 8), -- 25: vmovsldup ymm9, ymm8
  .pblendd 9 7 (.y 9) 170, -- 26: vpblendd ymm9, ymm7, ymm9, 0xaa
  .psrlq 7 7 32, -- 27: vpsrlq ymm7, ymm7, 0x20
  .pblendd 8 7 (.y 8) 170, -- 28: vpblendd ymm8, ymm7, ymm8, 0xaa
  .movsldup 7 (.y 6), -- 29: vmovsldup ymm7, ymm6
  .pblendd 7 5 (.y 7) 170, -- 30: vpblendd ymm7, ymm5, ymm7, 0xaa
  .psrlq 5 5 32, -- 31: vpsrlq ymm5, ymm5, 0x20
  .pblendd 6 5 (.y 6) 170, -- 32: vpblendd ymm6, ymm5, ymm6, 0xaa
  .movsldup 5 (.y 4), -- 33: vmovsldup ymm5, ymm4
  .pblendd 5 3 (.y 5) 170, -- 34: vpblendd ymm5, ymm3, ymm5, 0xaa
  .psrlq 3 3 32, -- 35: vpsrlq ymm3, ymm3, 0x20
  .pblendd 4 3 (.y 4) 170, -- 36: vpblendd ymm4, ymm3, ymm4, 0xaa
  .movsldup 3 (.y 11), -- 37: vmovsldup ymm3, ymm11
  .pblendd 3 10 (.y 3) 170, -- 38: vpblendd ymm3, ymm10, ymm3, 0xaa
  .psrlq 10 10 32, -- 39: vpsrlq ymm10, ymm10, 0x20
  .pblendd 11 10 (.y 11) 170, -- 40: vpblendd ymm11, ymm10, ymm11, 0xaa
  .pslld 10 5 16, -- 41: vpslld ymm10, ymm5, 0x10
  .pblendw 10 9 (.y 10) 170, -- 42: vpblendw ymm10, ymm9, ymm10, 0xaa
  .psrld 9 9 16, -- 43: vpsrld ymm9, ymm9, 0x10
  .pblendw 5 9 (.y 5) 170, -- 44: vpblendw ymm5, ymm9, ymm5, 0xaa
  .pslld 9 4 16, -- 45: vpslld ymm9, ymm4, 0x10
  .pblendw 9 8 (.y 9) 170, -- 46: vpblendw ymm9, ymm8, ymm9, 0xaa
  .psrld 8 8 16, -- 47: vpsrld ymm8, ymm8, 0x10
  .pblendw 4 8 (.y 4) 170, -- 48: vpblendw ymm4, ymm8, ymm4, 0xaa
  .pslld 8 3 16, -- 49: vpslld ymm8, ymm3, 0x10
  .pblendw 8 7 (.y 8) 170, -- 50: vpblendw ymm8, ymm7, ymm8, 0xaa
  .psrld 7 7 16, -- 51: vpsrld ymm7, ymm7, 0x10
  .pblendw 3 7 (.y 3) 170, -- 52: vpblendw ymm3, ymm7, ymm3, 0xaa
  .pslld 7 11 16, -- 53: vpslld ymm7, ymm11, 0x10
  .pblendw 7 6 (.y 7) 170, -- 54: vpblendw ymm7, ymm6, ymm7, 0xaa
  .psrld 6 6 16, -- 55: vpsrld ymm6, ymm6, 0x10
  .pblendw 11 6 (.y 11) 170, -- 56: vpblendw ymm11, ymm6, ymm11, 0xaa
  .stA ⟨some .rdi, none, 0#64⟩ 10, -- 57: vmovdqa [rdi], ymm10
  .stA ⟨some .rdi, none, 32#64⟩ 5, -- 58: vmovdqa [32 + rdi], ymm5
  .stA ⟨some .rdi, none, 64#64⟩ 9, -- 59: vmovdqa [64 + rdi], ymm9
  .stA ⟨some .rdi, none, 96#64⟩ 4, -- 60: vmovdqa [96 + rdi], ymm4
  .stA ⟨some .rdi, none, 128#64⟩ 8, -- 61: vmovdqa [128 + rdi], ymm8
  .stA ⟨some .rdi, none, 160#64⟩ 3, -- 62: vmovdqa [160 + rdi], ymm3
  .stA ⟨some .rdi, none, 192#64⟩ 7, -- 63: vmovdqa [192 + rdi], ymm7
  .stA ⟨some .rdi, none, 224#64⟩ 11, -- 64: vmovdqa [224 + rdi], ymm11
  .movA 4 (.m ⟨some .rdi, none, 256#64⟩), -- 65: vmovdqa ymm4, [256 + rdi]
  .movA 5 (.m ⟨some .rdi, none, 288#64⟩), -- 66: vmovdqa ymm5, [288 + rdi]
  .movA 6 (.m ⟨some .rdi, none, 320#64⟩), -- 67: vmovdqa ymm6, [320 + rdi]
  .movA 7 (.m ⟨some .rdi, none, 352#64⟩), -- 68: vmovdqa ymm7, [352 + rdi]
  .movA 8 (.m ⟨some .rdi, none, 384#64⟩), -- 69: vmovdqa ymm8, [384 + rdi]
  .movA 9 (.m ⟨some .rdi, none, 416#64⟩), -- 70: vmovdqa ymm9, [416 + rdi]
  .movA 10 (.m ⟨some .rdi, none, 448#64⟩), -- 71: vmovdqa ymm10, [448 + rdi]
  .movA 11 (.m ⟨some .rdi, none, 480#64⟩), -- 72: vmovdqa ymm11, [480 + rdi]
  .perm2i128 3 4 (.y 8) 32, -- 73: vperm2i128 ymm3, ymm4, ymm8, 0x20
  .perm2i128 8 4 (.y 8) 49, -- 74: vperm2i128 ymm8, ymm4, ymm8, 0x31
  .perm2i128 4 5 (.y 9) 32, -- 75: vperm2i128 ymm4, ymm5, ymm9, 0x20
  .perm2i128 9 5 (.y 9) 49, -- 76: vperm2i128 ymm9, ymm5, ymm9, 0x31
  .perm2i128 5 6 (.y 10) 32, -- 77: vperm2i128 ymm5, ymm6, ymm10, 0x20
  .perm2i128 10 6 (.y 10) 49, -- 78: vperm2i128 ymm10, ymm6, ymm10, 0x31
  .perm2i128 6 7 (.y 11) 32, -- 79: vperm2i128 ymm6, ymm7, ymm11, 0x20
  .perm2i128 11 7 (.y 11) 49, -- 80: vperm2i128 ymm11, ymm7, ymm11, 0x31
  .punpcklqdq 7 3 (.y 5), -- 81: vpunpcklqdq ymm7, ymm3, ymm5
  .punpckhqdq 5 3 (.y 5), -- 82: vpunpckhqdq ymm5, ymm3, ymm5
  .punpcklqdq 3 8 (.y 10), -- 83: vpunpcklqdq ymm3, ymm8, ymm10
  .punpckhqdq 10 8 (.y 10), -- 84: vpunpckhqdq ymm10, ymm8, ymm10
  .punpcklqdq 8 4 (.y 6), -- 85: vpunpcklqdq ymm8, ymm4, ymm6
  .punpckhqdq 6 4 (.y 6), -- 86: vpunpckhqdq ymm6, ymm4, ymm6
  .punpcklqdq 4 9 (.y 11), -- 87: vpunpcklqdq ymm4, ymm9, ymm11
  .punpckhqdq 11 9 (.y 11), -- 88: vpunpckhqdq ymm11, ymm9, ymm11
  .movsldup 9 (.y 8), -- 89: vmovsldup ymm9, ymm8
  .pblendd 9 7 (.y 9) 170, -- 90: vpblendd ymm9, ymm7, ymm9, 0xaa
  .psrlq 7 7 32, -- 91: vpsrlq ymm7, ymm7, 0x20
  .pblendd 8 7 (.y 8) 170, -- 92: vpblendd ymm8, ymm7, ymm8, 0xaa
  .movsldup 7 (.y 6), -- 93: vmovsldup ymm7, ymm6
  .pblendd 7 5 (.y 7) 170, -- 94: vpblendd ymm7, ymm5, ymm7, 0xaa
  .psrlq 5 5 32, -- 95: vpsrlq ymm5, ymm5, 0x20
  .pblendd 6 5 (.y 6) 170, -- 96: vpblendd ymm6, ymm5, ymm6, 0xaa
  .movsldup 5 (.y 4), -- 97: vmovsldup ymm5, ymm4
  .pblendd 5 3 (.y 5) 170, -- 98: vpblendd ymm5, ymm3, ymm5, 0xaa
  .psrlq 3 3 32, -- 99: vpsrlq ymm3, ymm3, 0x20
  .pblendd 4 3 (.y 4) 170, -- 100: vpblendd ymm4, ymm3, ymm4, 0xaa
  .movsldup 3 (.y 11), -- 101: vmovsldup ymm3, ymm11
  .pblendd 3 10 (.y 3) 170, -- 102: vpblendd ymm3, ymm10, ymm3, 0xaa
  .psrlq 10 10 32, -- 103: vpsrlq ymm10, ymm10, 0x20
  .pblendd 11 10 (.y 11) 170, -- 104: vpblendd ymm11, ymm10, ymm11, 0xaa
  .pslld 10 5 16, -- 105: vpslld ymm10, ymm5, 0x10
  .pblendw 10 9 (.y 10) 170, -- 106: vpblendw ymm10, ymm9, ymm10, 0xaa
  .psrld 9 9 16, -- 107: vpsrld ymm9, ymm9, 0x10
  .pblendw 5 9 (.y 5) 170, -- 108: vpblendw ymm5, ymm9, ymm5, 0xaa
  .pslld 9 4 16, -- 109: vpslld ymm9, ymm4, 0x10
  .pblendw 9 8 (.y 9) 170, -- 110: vpblendw ymm9, ymm8, ymm9, 0xaa
  .psrld 8 8 16, -- 111: vpsrld ymm8, ymm8, 0x10
  .pblendw 4 8 (.y 4) 170, -- 112: vpblendw ymm4, ymm8, ymm4, 0xaa
  .pslld 8 3 16, -- 113: vpslld ymm8, ymm3, 0x10
  .pblendw 8 7 (.y 8) 170, -- 114: vpblendw ymm8, ymm7, ymm8, 0xaa
  .psrld 7 7 16, -- 115: vpsrld ymm7, ymm7, 0x10
  .pblendw 3 7 (.y 3) 170, -- 116: vpblendw ymm3, ymm7, ymm3, 0xaa
  .pslld 7 11 16, -- 117: vpslld ymm7, ymm11, 0x10
  .pblendw 7 6 (.y 7) 170, -- 118: vpblendw ymm7, ymm6, ymm7, 0xaa
  .psrld 6 6 16, -- 119: vpsrld ymm6, ymm6, 0x10
  .pblendw 11 6 (.y 11) 170, -- 120: vpblendw ymm11, ymm6, ymm11, 0xaa
  .stA ⟨some .rdi, none, 256#64⟩ 10, -- 121: vmovdqa [256 + rdi], ymm10
  .stA ⟨some .rdi, none, 288#64⟩ 5, -- 122: vmovdqa [288 + rdi], ymm5
  .stA ⟨some .rdi, none, 320#64⟩ 9, -- 123: vmovdqa [320 + rdi], ymm9
  .stA ⟨some .rdi, none, 352#64⟩ 4, -- 124: vmovdqa [352 + rdi], ymm4
  .stA ⟨some .rdi, none, 384#64⟩ 8, -- 125: vmovdqa [384 + rdi], ymm8
  .stA ⟨some .rdi, none, 416#64⟩ 3, -- 126: vmovdqa [416 + rdi], ymm3
  .stA ⟨some .rdi, none, 448#64⟩ 7, -- 127: vmovdqa [448 + rdi], ymm7
  .stA ⟨some .rdi, none, 480#64⟩ 11] -- 128: vmovdqa [480 + rdi], ymm11

/-- The registers that the operands of mlkem_unpack.rs:29-173 say may change. -/
def mlkemUnpackRegs : List Reg := [.rdi]

/-- low/x86_64/mlkem_tobytes.rs:34-189.  Operands: inout("rdi") r.as_mut_ptr() => _; inout("rsi") a.as_ptr() => _; out("rax") _; out("zmm0") _; out("zmm10") _; out("zmm11") _; out("zmm12") _; out("zmm3") _; out("zmm4") _; out("zmm5") _; out("zmm6") _; out("zmm7") _; out("zmm8") _; out("zmm9") _. -/
def mlkemTobytes : VProg := [
  .sc (.nop), -- 0: endbr64
  .sc (.mov (.reg .rax) (.imm 0xd010d01#64)), -- 1: mov eax, 0xd010d01
  .vmovd 0 .rax, -- 2: vmovd xmm0, eax
  .pbroadcastd 0 0, -- 3: vpbroadcastd ymm0, xmm0
  .movA 5 (.m ⟨some .rsi, none, 0#64⟩), -- 4: vmovdqa ymm5, [rsi]
  .movA 6 (.m ⟨some .rsi, none, 32#64⟩), -- 5: vmovdqa ymm6, [32 + rsi]
  .movA 7 (.m ⟨some .rsi, none, 64#64⟩), -- 6: vmovdqa ymm7, [64 + rsi]
  .movA 8 (.m ⟨some .rsi, none, 96#64⟩), -- 7: vmovdqa ymm8, [96 + rsi]
  .movA 9 (.m ⟨some .rsi, none, 128#64⟩), -- 8: vmovdqa ymm9, [128 + rsi]
  .movA 10 (.m ⟨some .rsi, none, 160#64⟩), -- 9: vmovdqa ymm10, [160 + rsi]
  .movA 11 (.m ⟨some .rsi, none, 192#64⟩), -- 10: vmovdqa ymm11, [192 + rsi]
  .movA 12 (.m ⟨some .rsi, none, 224#64⟩), -- 11: vmovdqa ymm12, [224 + rsi]
  .psllw 4 6 12, -- 12: vpsllw ymm4, ymm6, 0xc
  .por 4 5 (.y 4), -- 13: vpor ymm4, ymm5, ymm4
  .psrlw 5 6 4, -- 14: vpsrlw ymm5, ymm6, 0x4
  .psllw 6 7 8, -- 15: vpsllw ymm6, ymm7, 0x8
  .por 5 6 (.y 5), -- 16: vpor ymm5, ymm6, ymm5
  .psrlw 6 7 8, -- 17: vpsrlw ymm6, ymm7, 0x8
  .psllw 7 8 4, -- 18: vpsllw ymm7, ymm8, 0x4
  .por 6 7 (.y 6), -- 19: vpor ymm6, ymm7, ymm6
  .psllw 7 10 12, -- 20: vpsllw ymm7, ymm10, 0xc
  .por 7 9 (.y 7), -- 21: vpor ymm7, ymm9, ymm7
  .psrlw 8 10 4, -- 22: vpsrlw ymm8, ymm10, 0x4
  .psllw 9 11 8, -- 23: vpsllw ymm9, ymm11, 0x8
  .por 8 9 (.y 8), -- 24: vpor ymm8, ymm9, ymm8
  .psrlw 9 11 8, -- 25: vpsrlw ymm9, ymm11, 0x8
  .psllw 10 12 4, -- 26: vpsllw ymm10, ymm12, 0x4
  .por 9 10 (.y 9), -- 27: vpor ymm9, ymm10, ymm9
  .pslld 3 5 16, -- 28: vpslld ymm3, ymm5, 0x10
  .pblendw 3 4 (.y 3) 170, -- 29: vpblendw ymm3, ymm4, ymm3, 0xaa
  .psrld 4 4 16, -- 30: vpsrld ymm4, ymm4, 0x10
  .pblendw 5 4 (.y 5) 170, -- 31: vpblendw ymm5, ymm4, ymm5, 0xaa
  .pslld 4 7 16, -- 32: vpslld ymm4, ymm7, 0x10
  .pblendw 4 6 (.y 4) 170, -- 33: vpblendw ymm4, ymm6, ymm4, 0xaa
  .psrld 6 6 16, -- 34: vpsrld ymm6, ymm6, 0x10
  .pblendw 7 6 (.y 7) 170, -- 35: vpblendw ymm7, ymm6, ymm7, 0xaa
  .pslld 6 9 16, -- 36: vpslld ymm6, ymm9, 0x10
  .pblendw 6 8 (.y 6) 170, -- 37: vpblendw ymm6, ymm8, ymm6, 0xaa
  .psrld 8 8 16, -- 38: vpsrld ymm8, ymm8, 0x10
  .pblendw 9 8 (.y 9) 170, -- 39: vpblendw ymm9, ymm8, ymm9, 0xaa
  .movsldup 8 (.y 4), -- 40: vmovsldup ymm8, ymm4
  .pblendd 8 3 (.y 8) 170, -- 41: vpblendd ymm8, ymm3, ymm8, 0xaa
  .psrlq 3 3 32, -- 42: vpsrlq ymm3, ymm3, 0x20
  .pblendd 4 3 (.y 4) 170, -- 43: vpblendd ymm4, ymm3, ymm4, 0xaa
  .movsldup 3 (.y 5), -- 44: vmovsldup ymm3, ymm5
  .pblendd 3 6 (.y 3) 170, -- 45: vpblendd ymm3, ymm6, ymm3, 0xaa
  .psrlq 6 6 32, -- 46: vpsrlq ymm6, ymm6, 0x20
  .pblendd 5 6 (.y 5) 170, -- 47: vpblendd ymm5, ymm6, ymm5, 0xaa
  .movsldup 6 (.y 9), -- 48: vmovsldup ymm6, ymm9
  .pblendd 6 7 (.y 6) 170, -- 49: vpblendd ymm6, ymm7, ymm6, 0xaa
  .psrlq 7 7 32, -- 50: vpsrlq ymm7, ymm7, 0x20
  .pblendd 9 7 (.y 9) 170, -- 51: vpblendd ymm9, ymm7, ymm9, 0xaa
  .punpcklqdq 7 8 (.y 3), -- 52: vpunpcklqdq ymm7, ymm8, ymm3
  .punpckhqdq 3 8 (.y 3), -- 53: vpunpckhqdq ymm3, ymm8, ymm3
  .punpcklqdq 8 6 (.y 4), -- 54: vpunpcklqdq ymm8, ymm6, ymm4
  .punpckhqdq 4 6 (.y 4), -- 55: vpunpckhqdq ymm4, ymm6, ymm4
  .punpcklqdq 6 5 (.y 9), -- 56: vpunpcklqdq ymm6, ymm5, ymm9
  .punpckhqdq 9 5 (.y 9), -- 57: vpunpckhqdq ymm9, ymm5, ymm9
  .perm2i128 5 7 (.y 8) 32, -- 58: vperm2i128 ymm5, ymm7, ymm8, 0x20
  .perm2i128 8 7 (.y 8) 49, -- 59: vperm2i128 ymm8, ymm7, ymm8, 0x31
  .perm2i128 7 6 (.y 3) 32, -- 60: vperm2i128 ymm7, ymm6, ymm3, 0x20
  .perm2i128 3 6 (.y 3) 49, -- 61: vperm2i128 ymm3, ymm6, ymm3, 0x31
  .perm2i128 6 4 (.y 9) 32, -- 62: vperm2i128 ymm6, ymm4, ymm9, 0x20
  .perm2i128 9 4 (.y 9) 49, -- 63: vperm2i128 ymm9, ymm4, ymm9, 0x31
  .st ⟨some .rdi, none, 0#64⟩ 5, -- 64: vmovdqu [rdi], ymm5
  .st ⟨some .rdi, none, 32#64⟩ 7, -- 65: vmovdqu [32 + rdi], ymm7
  .st ⟨some .rdi, none, 64#64⟩ 6, -- 66: vmovdqu [64 + rdi], ymm6
  .st ⟨some .rdi, none, 96#64⟩ 8, -- 67: vmovdqu [96 + rdi], ymm8
  .st ⟨some .rdi, none, 128#64⟩ 3, -- 68: vmovdqu [128 + rdi], ymm3
  .st ⟨some .rdi, none, 160#64⟩ 9, -- 69: vmovdqu [160 + rdi], ymm9
  .movA 5 (.m ⟨some .rsi, none, 256#64⟩), -- 70: vmovdqa ymm5, [256 + rsi]
  .movA 6 (.m ⟨some .rsi, none, 288#64⟩), -- 71: vmovdqa ymm6, [288 + rsi]
  .movA 7 (.m ⟨some .rsi, none, 320#64⟩), -- 72: vmovdqa ymm7, [320 + rsi]
  .movA 8 (.m ⟨some .rsi, none, 352#64⟩), -- 73: vmovdqa ymm8, [352 + rsi]
  .movA 9 (.m ⟨some .rsi, none, 384#64⟩), -- 74: vmovdqa ymm9, [384 + rsi]
  .movA 10 (.m ⟨some .rsi, none, 416#64⟩), -- 75: vmovdqa ymm10, [416 + rsi]
  .movA 11 (.m ⟨some .rsi, none, 448#64⟩), -- 76: vmovdqa ymm11, [448 + rsi]
  .movA 12 (.m ⟨some .rsi, none, 480#64⟩), -- 77: vmovdqa ymm12, [480 + rsi]
  .psllw 4 6 12, -- 78: vpsllw ymm4, ymm6, 0xc
  .por 4 5 (.y 4), -- 79: vpor ymm4, ymm5, ymm4
  .psrlw 5 6 4, -- 80: vpsrlw ymm5, ymm6, 0x4
  .psllw 6 7 8, -- 81: vpsllw ymm6, ymm7, 0x8
  .por 5 6 (.y 5), -- 82: vpor ymm5, ymm6, ymm5
  .psrlw 6 7 8, -- 83: vpsrlw ymm6, ymm7, 0x8
  .psllw 7 8 4, -- 84: vpsllw ymm7, ymm8, 0x4
  .por 6 7 (.y 6), -- 85: vpor ymm6, ymm7, ymm6
  .psllw 7 10 12, -- 86: vpsllw ymm7, ymm10, 0xc
  .por 7 9 (.y 7), -- 87: vpor ymm7, ymm9, ymm7
  .psrlw 8 10 4, -- 88: vpsrlw ymm8, ymm10, 0x4
  .psllw 9 11 8, -- 89: vpsllw ymm9, ymm11, 0x8
  .por 8 9 (.y 8), -- 90: vpor ymm8, ymm9, ymm8
  .psrlw 9 11 8, -- 91: vpsrlw ymm9, ymm11, 0x8
  .psllw 10 12 4, -- 92: vpsllw ymm10, ymm12, 0x4
  .por 9 10 (.y 9), -- 93: vpor ymm9, ymm10, ymm9
  .pslld 3 5 16, -- 94: vpslld ymm3, ymm5, 0x10
  .pblendw 3 4 (.y 3) 170, -- 95: vpblendw ymm3, ymm4, ymm3, 0xaa
  .psrld 4 4 16, -- 96: vpsrld ymm4, ymm4, 0x10
  .pblendw 5 4 (.y 5) 170, -- 97: vpblendw ymm5, ymm4, ymm5, 0xaa
  .pslld 4 7 16, -- 98: vpslld ymm4, ymm7, 0x10
  .pblendw 4 6 (.y 4) 170, -- 99: vpblendw ymm4, ymm6, ymm4, 0xaa
  .psrld 6 6 16, -- 100: vpsrld ymm6, ymm6, 0x10
  .pblendw 7 6 (.y 7) 170, -- 101: vpblendw ymm7, ymm6, ymm7, 0xaa
  .pslld 6 9 16, -- 102: vpslld ymm6, ymm9, 0x10
  .pblendw 6 8 (.y 6) 170, -- 103: vpblendw ymm6, ymm8, ymm6, 0xaa
  .psrld 8 8 16, -- 104: vpsrld ymm8, ymm8, 0x10
  .pblendw 9 8 (.y 9) 170, -- 105: vpblendw ymm9, ymm8, ymm9, 0xaa
  .movsldup 8 (.y 4), -- 106: vmovsldup ymm8, ymm4
  .pblendd 8 3 (.y 8) 170, -- 107: vpblendd ymm8, ymm3, ymm8, 0xaa
  .psrlq 3 3 32, -- 108: vpsrlq ymm3, ymm3, 0x20
  .pblendd 4 3 (.y 4) 170, -- 109: vpblendd ymm4, ymm3, ymm4, 0xaa
  .movsldup 3 (.y 5), -- 110: vmovsldup ymm3, ymm5
  .pblendd 3 6 (.y 3) 170, -- 111: vpblendd ymm3, ymm6, ymm3, 0xaa
  .psrlq 6 6 32, -- 112: vpsrlq ymm6, ymm6, 0x20
  .pblendd 5 6 (.y 5) 170, -- 113: vpblendd ymm5, ymm6, ymm5, 0xaa
  .movsldup 6 (.y 9), -- 114: vmovsldup ymm6, ymm9
  .pblendd 6 7 (.y 6) 170, -- 115: vpblendd ymm6, ymm7, ymm6, 0xaa
  .psrlq 7 7 32, -- 116: vpsrlq ymm7, ymm7, 0x20
  .pblendd 9 7 (.y 9) 170, -- 117: vpblendd ymm9, ymm7, ymm9, 0xaa
  .punpcklqdq 7 8 (.y 3), -- 118: vpunpcklqdq ymm7, ymm8, ymm3
  .punpckhqdq 3 8 (.y 3), -- 119: vpunpckhqdq ymm3, ymm8, ymm3
  .punpcklqdq 8 6 (.y 4), -- 120: vpunpcklqdq ymm8, ymm6, ymm4
  .punpckhqdq 4 6 (.y 4), -- 121: vpunpckhqdq ymm4, ymm6, ymm4
  .punpcklqdq 6 5 (.y 9), -- 122: vpunpcklqdq ymm6, ymm5, ymm9
  .punpckhqdq 9 5 (.y 9), -- 123: vpunpckhqdq ymm9, ymm5, ymm9
  .perm2i128 5 7 (.y 8) 32, -- 124: vperm2i128 ymm5, ymm7, ymm8, 0x20
  .perm2i128 8 7 (.y 8) 49, -- 125: vperm2i128 ymm8, ymm7, ymm8, 0x31
  .perm2i128 7 6 (.y 3) 32, -- 126: vperm2i128 ymm7, ymm6, ymm3, 0x20
  .perm2i128 3 6 (.y 3) 49, -- 127: vperm2i128 ymm3, ymm6, ymm3, 0x31
  .perm2i128 6 4 (.y 9) 32, -- 128: vperm2i128 ymm6, ymm4, ymm9, 0x20
  .perm2i128 9 4 (.y 9) 49, -- 129: vperm2i128 ymm9, ymm4, ymm9, 0x31
  .st ⟨some .rdi, none, 192#64⟩ 5, -- 130: vmovdqu [192 + rdi], ymm5
  .st ⟨some .rdi, none, 224#64⟩ 7, -- 131: vmovdqu [224 + rdi], ymm7
  .st ⟨some .rdi, none, 256#64⟩ 6, -- 132: vmovdqu [256 + rdi], ymm6
  .st ⟨some .rdi, none, 288#64⟩ 8, -- 133: vmovdqu [288 + rdi], ymm8
  .st ⟨some .rdi, none, 320#64⟩ 3, -- 134: vmovdqu [320 + rdi], ymm3
  .st ⟨some .rdi, none, 352#64⟩ 9] -- 135: vmovdqu [352 + rdi], ymm9

/-- The registers that the operands of mlkem_tobytes.rs:34-189 say may change. -/
def mlkemTobytesRegs : List Reg := [.rdi, .rsi, .rax]

/-- low/x86_64/mlkem_frombytes.rs:31-202.  Operands: inout("rdi") r.as_mut_ptr() => _; inout("rsi") a.as_ptr() => _; out("rax") _; out("zmm0") _; out("zmm1") _; out("zmm10") _; out("zmm11") _; out("zmm12") _; out("zmm13") _; out("zmm14") _; out("zmm15") _; out("zmm3") _; out("zmm4") _; out("zmm5") _; out("zmm6") _; out("zmm7") _; out("zmm8") _; out("zmm9") _. -/
def mlkemFrombytes : VProg := [
  .sc (.nop), -- 0: endbr64
  .sc (.mov (.reg .rax) (.imm 0xfff0fff#64)), -- 1: mov eax, 0xfff0fff
  .vmovd 0 .rax, -- 2: vmovd xmm0, eax
  .pbroadcastd 0 0, -- 3: vpbroadcastd ymm0, xmm0
  .mov 4 (.m ⟨some .rsi, none, 0#64⟩), -- 4: vmovdqu ymm4, [rsi]
  .mov 5 (.m ⟨some .rsi, none, 32#64⟩), -- 5: vmovdqu ymm5, [32 + rsi]
  .mov 6 (.m ⟨some .rsi, none, 64#64⟩), -- 6: vmovdqu ymm6, [64 + rsi]
  .mov 7 (.m ⟨some .rsi, none, 96#64⟩), -- 7: vmovdqu ymm7, [96 + rsi]
  .mov 8 (.m ⟨some .rsi, none, 128#64⟩), -- 8: vmovdqu ymm8, [128 + rsi]
  .mov 9 (.m ⟨some .rsi, none, 160#64⟩), -- 9: vmovdqu ymm9, [160 + rsi]
  .perm2i128 3 4 (.y 7) 32, -- 10: vperm2i128 ymm3, ymm4, ymm7, 0x20
  .perm2i128 7 4 (.y 7) 49, -- 11: vperm2i128 ymm7, ymm4, ymm7, 0x31
  .perm2i128 4 5 (.y 8) 32, -- 12: vperm2i128 ymm4, ymm5, ymm8, 0x20
  .perm2i128 8 5 (.y 8) 49, -- 13: vperm2i128 ymm8, ymm5, ymm8, 0x31
  .perm2i128 5 6 (.y 9) 32, -- 14: vperm2i128 ymm5, ymm6, ymm9, 0x20
  .perm2i128 9 6 (.y 9) 49, -- 15: vperm2i128 ymm9, ymm6, ymm9, 0x31
  .punpcklqdq 6 3 (.y 8), -- 16: vpunpcklqdq ymm6, ymm3, ymm8
  .punpckhqdq 8 3 (.y 8), -- 17: vpunpckhqdq ymm8, ymm3, ymm8
  .punpcklqdq 3 7 (.y 5), -- 18: vpunpcklqdq ymm3, ymm7, ymm5
  .punpckhqdq 5 7 (.y 5), -- 19: vpunpckhqdq ymm5, ymm7, ymm5
  .punpcklqdq 7 4 (.y 9), -- 20: vpunpcklqdq ymm7, ymm4, ymm9
  .punpckhqdq 9 4 (.y 9), -- 21: vpunpckhqdq ymm9, ymm4, ymm9
  .movsldup 4 (.y 5), -- 22: vmovsldup ymm4, ymm5
  .pblendd 4 6 (.y 4) 170, -- 23: vpblendd ymm4, ymm6, ymm4, 0xaa
  .psrlq 6 6 32, -- 24: vpsrlq ymm6, ymm6, 0x20
  .pblendd 5 6 (.y 5) 170, -- 25: vpblendd ymm5, ymm6, ymm5, 0xaa
  .movsldup 6 (.y 7), -- 26: vmovsldup ymm6, ymm7
  .pblendd 6 8 (.y 6) 170, -- 27: vpblendd ymm6, ymm8, ymm6, 0xaa
  .psrlq 8 8 32, -- 28: vpsrlq ymm8, ymm8, 0x20
  .pblendd 7 8 (.y 7) 170, -- 29: vpblendd ymm7, ymm8, ymm7, 0xaa
  .movsldup 8 (.y 9), -- 30: vmovsldup ymm8, ymm9
  .pblendd 8 3 (.y 8) 170, -- 31: vpblendd ymm8, ymm3, ymm8, 0xaa
  .psrlq 3 3 32, -- 32: vpsrlq ymm3, ymm3, 0x20
  .pblendd 9 3 (.y 9) 170, -- 33: vpblendd ymm9, ymm3, ymm9, 0xaa
  .pslld 10 7 16, -- 34: vpslld ymm10, ymm7, 0x10
  .pblendw 10 4 (.y 10) 170, -- 35: vpblendw ymm10, ymm4, ymm10, 0xaa
  .psrld 4 4 16, -- 36: vpsrld ymm4, ymm4, 0x10
  .pblendw 7 4 (.y 7) 170, -- 37: vpblendw ymm7, ymm4, ymm7, 0xaa
  .pslld 4 8 16, -- 38: vpslld ymm4, ymm8, 0x10
  .pblendw 4 5 (.y 4) 170, -- 39: vpblendw ymm4, ymm5, ymm4, 0xaa
  .psrld 5 5 16, -- 40: vpsrld ymm5, ymm5, 0x10
  .pblendw 8 5 (.y 8) 170, -- 41: vpblendw ymm8, ymm5, ymm8, 0xaa
  .pslld 5 9 16, -- 42: vpslld ymm5, ymm9, 0x10
  .pblendw 5 6 (.y 5) 170, -- 43: vpblendw ymm5, ymm6, ymm5, 0xaa
  .psrld 6 6 16, -- 44: vpsrld ymm6, ymm6, 0x10
  .pblendw 9 6 (.y 9) 170, -- 45: vpblendw ymm9, ymm6, ymm9, 0xaa
  .psrlw 11 10 12, -- 46: vpsrlw ymm11, ymm10, 0xc
  .psllw 12 7 4, -- 47: vpsllw ymm12, ymm7, 0x4
  .por 11 12 (.y 11), -- 48: vpor ymm11, ymm12, ymm11
  .pand 10 10 (.y 0), -- 49: vpand ymm10, ymm10, ymm0
  .pand 11 11 (.y 0), -- 50: vpand ymm11, ymm11, ymm0
  .psrlw 12 7 8, -- 51: vpsrlw ymm12, ymm7, 0x8
  .psllw 13 4 8, -- 52: vpsllw ymm13, ymm4, 0x8
  .por 12 13 (.y 12), -- 53: vpor ymm12, ymm13, ymm12
  .pand 12 12 (.y 0), -- 54: vpand ymm12, ymm12, ymm0
  .psrlw 13 4 4, -- 55: vpsrlw ymm13, ymm4, 0x4
  .pand 13 13 (.y 0), -- 56: vpand ymm13, ymm13, ymm0
  .psrlw 14 8 12, -- 57: vpsrlw ymm14, ymm8, 0xc
  .psllw 15 5 4, -- 58: vpsllw ymm15, ymm5, 0x4
  .por 14 15 (.y 14), -- 59: vpor ymm14, ymm15, ymm14
  .pand 8 8 (.y 0), -- 60: vpand ymm8, ymm8, ymm0
  .pand 14 14 (.y 0), -- 61: vpand ymm14, ymm14, ymm0
  .psrlw 15 5 8, -- 62: vpsrlw ymm15, ymm5, 0x8
  .psllw 1 9 8, -- 63: vpsllw ymm1, ymm9, 0x8
  .por 15 1 (.y 15), -- 64: vpor ymm15, ymm1, ymm15
  .pand 15 15 (.y 0), -- 65: vpand ymm15, ymm15, ymm0
  .psrlw 1 9 4, -- 66: vpsrlw ymm1, ymm9, 0x4
  .pand 1 1 (.y 0), -- 67: vpand ymm1, ymm1, ymm0
  .stA ⟨some .rdi, none, 0#64⟩ 10, -- 68: vmovdqa [rdi], ymm10
  .stA ⟨some .rdi, none, 32#64⟩ 11, -- 69: vmovdqa [32 + rdi], ymm11
  .stA ⟨some .rdi, none, 64#64⟩ 12, -- 70: vmovdqa [64 + rdi], ymm12
  .stA ⟨some .rdi, none, 96#64⟩ 13, -- 71: vmovdqa [96 + rdi], ymm13
  .stA ⟨some .rdi, none, 128#64⟩ 8, -- 72: vmovdqa [128 + rdi], ymm8
  .stA ⟨some .rdi, none, 160#64⟩ 14, -- 73: vmovdqa [160 + rdi], ymm14
  .stA ⟨some .rdi, none, 192#64⟩ 15, -- 74: vmovdqa [192 + rdi], ymm15
  .stA ⟨some .rdi, none, 224#64⟩ 1, -- 75: vmovdqa [224 + rdi], ymm1
  .mov 4 (.m ⟨some .rsi, none, 192#64⟩), -- 76: vmovdqu ymm4, [192 + rsi]
  .mov 5 (.m ⟨some .rsi, none, 224#64⟩), -- 77: vmovdqu ymm5, [224 + rsi]
  .mov 6 (.m ⟨some .rsi, none, 256#64⟩), -- 78: vmovdqu ymm6, [256 + rsi]
  .mov 7 (.m ⟨some .rsi, none, 288#64⟩), -- 79: vmovdqu ymm7, [288 + rsi]
  .mov 8 (.m ⟨some .rsi, none, 320#64⟩), -- 80: vmovdqu ymm8, [320 + rsi]
  .mov 9 (.m ⟨some .rsi, none, 352#64⟩), -- 81: vmovdqu ymm9, [352 + rsi]
  .perm2i128 3 4 (.y 7) 32, -- 82: vperm2i128 ymm3, ymm4, ymm7, 0x20
  .perm2i128 7 4 (.y 7) 49, -- 83: vperm2i128 ymm7, ymm4, ymm7, 0x31
  .perm2i128 4 5 (.y 8) 32, -- 84: vperm2i128 ymm4, ymm5, ymm8, 0x20
  .perm2i128 8 5 (.y 8) 49, -- 85: vperm2i128 ymm8, ymm5, ymm8, 0x31
  .perm2i128 5 6 (.y 9) 32, -- 86: vperm2i128 ymm5, ymm6, ymm9, 0x20
  .perm2i128 9 6 (.y 9) 49, -- 87: vperm2i128 ymm9, ymm6, ymm9, 0x31
  .punpcklqdq 6 3 (.y 8), -- 88: vpunpcklqdq ymm6, ymm3, ymm8
  .punpckhqdq 8 3 (.y 8), -- 89: vpunpckhqdq ymm8, ymm3, ymm8
  .punpcklqdq 3 7 (.y 5), -- 90: vpunpcklqdq ymm3, ymm7, ymm5
  .punpckhqdq 5 7 (.y 5), -- 91: vpunpckhqdq ymm5, ymm7, ymm5
  .punpcklqdq 7 4 (.y 9), -- 92: vpunpcklqdq ymm7, ymm4, ymm9
  .punpckhqdq 9 4 (.y 9), -- 93: vpunpckhqdq ymm9, ymm4, ymm9
  .movsldup 4 (.y 5), -- 94: vmovsldup ymm4, ymm5
  .pblendd 4 6 (.y 4) 170, -- 95: vpblendd ymm4, ymm6, ymm4, 0xaa
  .psrlq 6 6 32, -- 96: vpsrlq ymm6, ymm6, 0x20
  .pblendd 5 6 (.y 5) 170, -- 97: vpblendd ymm5, ymm6, ymm5, 0xaa
  .movsldup 6 (.y 7), -- 98: vmovsldup ymm6, ymm7
  .pblendd 6 8 (.y 6) 170, -- 99: vpblendd ymm6, ymm8, ymm6, 0xaa
  .psrlq 8 8 32, -- 100: vpsrlq ymm8, ymm8, 0x20
  .pblendd 7 8 (.y 7) 170, -- 101: vpblendd ymm7, ymm8, ymm7, 0xaa
  .movsldup 8 (.y 9), -- 102: vmovsldup ymm8, ymm9
  .pblendd 8 3 (.y 8) 170, -- 103: vpblendd ymm8, ymm3, ymm8, 0xaa
  .psrlq 3 3 32, -- 104: vpsrlq ymm3, ymm3, 0x20
  .pblendd 9 3 (.y 9) 170, -- 105: vpblendd ymm9, ymm3, ymm9, 0xaa
  .pslld 10 7 16, -- 106: vpslld ymm10, ymm7, 0x10
  .pblendw 10 4 (.y 10) 170, -- 107: vpblendw ymm10, ymm4, ymm10, 0xaa
  .psrld 4 4 16, -- 108: vpsrld ymm4, ymm4, 0x10
  .pblendw 7 4 (.y 7) 170, -- 109: vpblendw ymm7, ymm4, ymm7, 0xaa
  .pslld 4 8 16, -- 110: vpslld ymm4, ymm8, 0x10
  .pblendw 4 5 (.y 4) 170, -- 111: vpblendw ymm4, ymm5, ymm4, 0xaa
  .psrld 5 5 16, -- 112: vpsrld ymm5, ymm5, 0x10
  .pblendw 8 5 (.y 8) 170, -- 113: vpblendw ymm8, ymm5, ymm8, 0xaa
  .pslld 5 9 16, -- 114: vpslld ymm5, ymm9, 0x10
  .pblendw 5 6 (.y 5) 170, -- 115: vpblendw ymm5, ymm6, ymm5, 0xaa
  .psrld 6 6 16, -- 116: vpsrld ymm6, ymm6, 0x10
  .pblendw 9 6 (.y 9) 170, -- 117: vpblendw ymm9, ymm6, ymm9, 0xaa
  .psrlw 11 10 12, -- 118: vpsrlw ymm11, ymm10, 0xc
  .psllw 12 7 4, -- 119: vpsllw ymm12, ymm7, 0x4
  .por 11 12 (.y 11), -- 120: vpor ymm11, ymm12, ymm11
  .pand 10 10 (.y 0), -- 121: vpand ymm10, ymm10, ymm0
  .pand 11 11 (.y 0), -- 122: vpand ymm11, ymm11, ymm0
  .psrlw 12 7 8, -- 123: vpsrlw ymm12, ymm7, 0x8
  .psllw 13 4 8, -- 124: vpsllw ymm13, ymm4, 0x8
  .por 12 13 (.y 12), -- 125: vpor ymm12, ymm13, ymm12
  .pand 12 12 (.y 0), -- 126: vpand ymm12, ymm12, ymm0
  .psrlw 13 4 4, -- 127: vpsrlw ymm13, ymm4, 0x4
  .pand 13 13 (.y 0), -- 128: vpand ymm13, ymm13, ymm0
  .psrlw 14 8 12, -- 129: vpsrlw ymm14, ymm8, 0xc
  .psllw 15 5 4, -- 130: vpsllw ymm15, ymm5, 0x4
  .por 14 15 (.y 14), -- 131: vpor ymm14, ymm15, ymm14
  .pand 8 8 (.y 0), -- 132: vpand ymm8, ymm8, ymm0
  .pand 14 14 (.y 0), -- 133: vpand ymm14, ymm14, ymm0
  .psrlw 15 5 8, -- 134: vpsrlw ymm15, ymm5, 0x8
  .psllw 1 9 8, -- 135: vpsllw ymm1, ymm9, 0x8
  .por 15 1 (.y 15), -- 136: vpor ymm15, ymm1, ymm15
  .pand 15 15 (.y 0), -- 137: vpand ymm15, ymm15, ymm0
  .psrlw 1 9 4, -- 138: vpsrlw ymm1, ymm9, 0x4
  .pand 1 1 (.y 0), -- 139: vpand ymm1, ymm1, ymm0
  .stA ⟨some .rdi, none, 256#64⟩ 10, -- 140: vmovdqa [256 + rdi], ymm10
  .stA ⟨some .rdi, none, 288#64⟩ 11, -- 141: vmovdqa [288 + rdi], ymm11
  .stA ⟨some .rdi, none, 320#64⟩ 12, -- 142: vmovdqa [320 + rdi], ymm12
  .stA ⟨some .rdi, none, 352#64⟩ 13, -- 143: vmovdqa [352 + rdi], ymm13
  .stA ⟨some .rdi, none, 384#64⟩ 8, -- 144: vmovdqa [384 + rdi], ymm8
  .stA ⟨some .rdi, none, 416#64⟩ 14, -- 145: vmovdqa [416 + rdi], ymm14
  .stA ⟨some .rdi, none, 448#64⟩ 15, -- 146: vmovdqa [448 + rdi], ymm15
  .stA ⟨some .rdi, none, 480#64⟩ 1] -- 147: vmovdqa [480 + rdi], ymm1

/-- The registers that the operands of mlkem_frombytes.rs:31-202 say may change. -/
def mlkemFrombytesRegs : List Reg := [.rdi, .rsi, .rax]

end Verif.X86.Asm
