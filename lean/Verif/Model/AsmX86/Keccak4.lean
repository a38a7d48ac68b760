import Verif.Model.X86Vec

/-!
Generated by tools/gen_asm.py from `graviola/src/low/x86_64`: the `asm!` blocks as lists of instructions.
The comment at the end of a line gives its position; jump targets are positions.
-/
namespace Verif.X86.Asm
open Verif.X86

/-- low/x86_64/sha3_keccak4_f1600_alt.rs:47-680.  Operands: inout("rdi") a.as_mut_ptr() => _; inout("rsi") rc.as_ptr() => _; inout("rdx") rho8.as_ptr() => _; inout("rcx") rho56.as_ptr() => _; out("r10") _; out("r11") _; out("zmm0") _; out("zmm1") _; out("zmm10") _; out("zmm11") _; out("zmm12") _; out("zmm13") _; out("zmm14") _; out("zmm15") _; out("zmm2") _; out("zmm3") _; out("zmm4") _; out("zmm5") _; out("zmm6") _; out("zmm7") _; out("zmm8") _; out("zmm9") _. -/
def sha3Keccak4F1600Alt : VProg := [
  .sc (.nop), -- 0: endbr64
  .sc (.mov (.reg .r11) (.reg .rsp)), -- 1: mov r11, rsp
  .sc (.and (.reg .rsp) (.imm 0xffffffffffffffe0#64)), -- 2: and rsp, 0xffffffffffffffe0
  .sc (.sub (.reg .rsp) (.imm 768#64)), -- 3: sub rsp, 0x300
  .mov 0 (.m ⟨some .rdi, none, 0#64⟩), -- 4: vmovdqu ymm0, [rdi]
  .mov 3 (.m ⟨some .rdi, none, 200#64⟩), -- 5: vmovdqu ymm3, [rdi + 0xc8]
  .mov 1 (.m ⟨some .rdi, none, 400#64⟩), -- 6: vmovdqu ymm1, [rdi + 0x190]
  .mov 4 (.m ⟨some .rdi, none, 600#64⟩), -- 7: vmovdqu ymm4, [rdi + 0x258]
  .punpcklqdq 2 0 (.y 3), -- 8: vpunpcklqdq ymm2, ymm0, ymm3
  .punpckhqdq 0 0 (.y 3), -- 9: vpunpckhqdq ymm0, ymm0, ymm3
  .punpcklqdq 3 1 (.y 4), -- 10: vpunpcklqdq ymm3, ymm1, ymm4
  .perm2i128 7 2 (.y 3) 32, -- 11: vperm2i128 ymm7, ymm2, ymm3, 0x20
  .punpckhqdq 1 1 (.y 4), -- 12: vpunpckhqdq ymm1, ymm1, ymm4
  .perm2i128 3 2 (.y 3) 49, -- 13: vperm2i128 ymm3, ymm2, ymm3, 0x31
  .mov 4 (.m ⟨some .rdi, none, 632#64⟩), -- 14: vmovdqu ymm4, [rdi + 0x278]
  .st ⟨some .rsp, none, 64#64⟩ 3, -- 15: vmovdqu [rsp + 0x40], ymm3
  .perm2i128 3 0 (.y 1) 49, -- 16: vperm2i128 ymm3, ymm0, ymm1, 0x31
  .st ⟨some .rsp, none, 0#64⟩ 7, -- 17: vmovdqu [rsp + 0x0], ymm7
  .perm2i128 7 0 (.y 1) 32, -- 18: vperm2i128 ymm7, ymm0, ymm1, 0x20
  .mov 0 (.m ⟨some .rdi, none, 32#64⟩), -- 19: vmovdqu ymm0, [rdi + 0x20]
  .mov 1 (.m ⟨some .rdi, none, 432#64⟩), -- 20: vmovdqu ymm1, [rdi + 0x1b0]
  .st ⟨some .rsp, none, 96#64⟩ 3, -- 21: vmovdqu [rsp + 0x60], ymm3
  .mov 3 (.m ⟨some .rdi, none, 232#64⟩), -- 22: vmovdqu ymm3, [rdi + 0xe8]
  .st ⟨some .rsp, none, 32#64⟩ 7, -- 23: vmovdqu [rsp + 0x20], ymm7
  .punpcklqdq 2 0 (.y 3), -- 24: vpunpcklqdq ymm2, ymm0, ymm3
  .punpckhqdq 0 0 (.y 3), -- 25: vpunpckhqdq ymm0, ymm0, ymm3
  .punpcklqdq 3 1 (.y 4), -- 26: vpunpcklqdq ymm3, ymm1, ymm4
  .perm2i128 7 2 (.y 3) 32, -- 27: vperm2i128 ymm7, ymm2, ymm3, 0x20
  .punpckhqdq 1 1 (.y 4), -- 28: vpunpckhqdq ymm1, ymm1, ymm4
  .perm2i128 3 2 (.y 3) 49, -- 29: vperm2i128 ymm3, ymm2, ymm3, 0x31
  .mov 4 (.m ⟨some .rdi, none, 664#64⟩), -- 30: vmovdqu ymm4, [rdi + 0x298]
  .perm2i128 14 0 (.y 1) 49, -- 31: vperm2i128 ymm14, ymm0, ymm1, 0x31
  .st ⟨some .rsp, none, 128#64⟩ 7, -- 32: vmovdqu [rsp + 0x80], ymm7
  .perm2i128 7 0 (.y 1) 32, -- 33: vperm2i128 ymm7, ymm0, ymm1, 0x20
  .mov 0 (.m ⟨some .rdi, none, 64#64⟩), -- 34: vmovdqu ymm0, [rdi + 0x40]
  .mov 1 (.m ⟨some .rdi, none, 464#64⟩), -- 35: vmovdqu ymm1, [rdi + 0x1d0]
  .st ⟨some .rsp, none, 192#64⟩ 3, -- 36: vmovdqu [rsp + 0xc0], ymm3
  .mov 3 (.m ⟨some .rdi, none, 264#64⟩), -- 37: vmovdqu ymm3, [rdi + 0x108]
  .mov 10 (.y 14), -- 38: vmovdqu ymm10, ymm14
  .st ⟨some .rsp, none, 160#64⟩ 7, -- 39: vmovdqu [rsp + 0xa0], ymm7
  .punpcklqdq 2 0 (.y 3), -- 40: vpunpcklqdq ymm2, ymm0, ymm3
  .punpckhqdq 0 0 (.y 3), -- 41: vpunpckhqdq ymm0, ymm0, ymm3
  .punpcklqdq 3 1 (.y 4), -- 42: vpunpcklqdq ymm3, ymm1, ymm4
  .punpckhqdq 1 1 (.y 4), -- 43: vpunpckhqdq ymm1, ymm1, ymm4
  .perm2i128 11 2 (.y 3) 32, -- 44: vperm2i128 ymm11, ymm2, ymm3, 0x20
  .perm2i128 3 2 (.y 3) 49, -- 45: vperm2i128 ymm3, ymm2, ymm3, 0x31
  .perm2i128 7 0 (.y 1) 32, -- 46: vperm2i128 ymm7, ymm0, ymm1, 0x20
  .st ⟨some .rsp, none, 256#64⟩ 3, -- 47: vmovdqu [rsp + 0x100], ymm3
  .perm2i128 8 0 (.y 1) 49, -- 48: vperm2i128 ymm8, ymm0, ymm1, 0x31
  .mov 3 (.m ⟨some .rdi, none, 296#64⟩), -- 49: vmovdqu ymm3, [rdi + 0x128]
  .mov 0 (.m ⟨some .rdi, none, 96#64⟩), -- 50: vmovdqu ymm0, [rdi + 0x60]
  .mov 1 (.m ⟨some .rdi, none, 496#64⟩), -- 51: vmovdqu ymm1, [rdi + 0x1f0]
  .st ⟨some .rsp, none, 224#64⟩ 7, -- 52: vmovdqu [rsp + 0xe0], ymm7
  .mov 14 (.y 11), -- 53: vmovdqu ymm14, ymm11
  .mov 4 (.m ⟨some .rdi, none, 696#64⟩), -- 54: vmovdqu ymm4, [rdi + 0x2b8]
  .mov 5 (.m ⟨some .rdi, none, 760#64⟩), -- 55: vmovdqu ymm5, [rdi + 0x2f8]
  .punpcklqdq 2 0 (.y 3), -- 56: vpunpcklqdq ymm2, ymm0, ymm3
  .punpckhqdq 0 0 (.y 3), -- 57: vpunpckhqdq ymm0, ymm0, ymm3
  .punpcklqdq 3 1 (.y 4), -- 58: vpunpcklqdq ymm3, ymm1, ymm4
  .punpckhqdq 1 1 (.y 4), -- 59: vpunpckhqdq ymm1, ymm1, ymm4
  .mov 4 (.m ⟨some .rdi, none, 728#64⟩), -- 60: vmovdqu ymm4, [rdi + 0x2d8]
  .perm2i128 15 2 (.y 3) 32, -- 61: vperm2i128 ymm15, ymm2, ymm3, 0x20
  .perm2i128 3 2 (.y 3) 49, -- 62: vperm2i128 ymm3, ymm2, ymm3, 0x31
  .perm2i128 7 0 (.y 1) 32, -- 63: vperm2i128 ymm7, ymm0, ymm1, 0x20
  .perm2i128 9 0 (.y 1) 49, -- 64: vperm2i128 ymm9, ymm0, ymm1, 0x31
  .st ⟨some .rsp, none, 320#64⟩ 3, -- 65: vmovdqu [rsp + 0x140], ymm3
  .mov 0 (.m ⟨some .rdi, none, 128#64⟩), -- 66: vmovdqu ymm0, [rdi + 0x80]
  .mov 3 (.m ⟨some .rdi, none, 328#64⟩), -- 67: vmovdqu ymm3, [rdi + 0x148]
  .mov 1 (.m ⟨some .rdi, none, 528#64⟩), -- 68: vmovdqu ymm1, [rdi + 0x210]
  .st ⟨some .rsp, none, 288#64⟩ 7, -- 69: vmovdqu [rsp + 0x120], ymm7
  .punpcklqdq 2 0 (.y 3), -- 70: vpunpcklqdq ymm2, ymm0, ymm3
  .punpckhqdq 0 0 (.y 3), -- 71: vpunpckhqdq ymm0, ymm0, ymm3
  .punpcklqdq 3 1 (.y 4), -- 72: vpunpcklqdq ymm3, ymm1, ymm4
  .punpckhqdq 1 1 (.y 4), -- 73: vpunpckhqdq ymm1, ymm1, ymm4
  .perm2i128 7 2 (.y 3) 32, -- 74: vperm2i128 ymm7, ymm2, ymm3, 0x20
  .perm2i128 13 2 (.y 3) 49, -- 75: vperm2i128 ymm13, ymm2, ymm3, 0x31
  .perm2i128 3 0 (.y 1) 49, -- 76: vperm2i128 ymm3, ymm0, ymm1, 0x31
  .st ⟨some .rsp, none, 352#64⟩ 7, -- 77: vmovdqu [rsp + 0x160], ymm7
  .perm2i128 7 0 (.y 1) 32, -- 78: vperm2i128 ymm7, ymm0, ymm1, 0x20
  .mov 0 (.m ⟨some .rdi, none, 160#64⟩), -- 79: vmovdqu ymm0, [rdi + 0xa0]
  .mov 1 (.m ⟨some .rdi, none, 560#64⟩), -- 80: vmovdqu ymm1, [rdi + 0x230]
  .st ⟨some .rsp, none, 416#64⟩ 3, -- 81: vmovdqu [rsp + 0x1a0], ymm3
  .mov 3 (.m ⟨some .rdi, none, 360#64⟩), -- 82: vmovdqu ymm3, [rdi + 0x168]
  .punpcklqdq 4 1 (.y 5), -- 83: vpunpcklqdq ymm4, ymm1, ymm5
  .punpckhqdq 1 1 (.y 5), -- 84: vpunpckhqdq ymm1, ymm1, ymm5
  .st ⟨some .rsp, none, 384#64⟩ 7, -- 85: vmovdqu [rsp + 0x180], ymm7
  .punpcklqdq 2 0 (.y 3), -- 86: vpunpcklqdq ymm2, ymm0, ymm3
  .punpckhqdq 0 0 (.y 3), -- 87: vpunpckhqdq ymm0, ymm0, ymm3
  .perm2i128 12 2 (.y 4) 32, -- 88: vperm2i128 ymm12, ymm2, ymm4, 0x20
  .perm2i128 3 0 (.y 1) 32, -- 89: vperm2i128 ymm3, ymm0, ymm1, 0x20
  .perm2i128 7 2 (.y 4) 49, -- 90: vperm2i128 ymm7, ymm2, ymm4, 0x31
  .perm2i128 4 0 (.y 1) 49, -- 91: vperm2i128 ymm4, ymm0, ymm1, 0x31
  .movqLd 0 ⟨some .rdi, none, 592#64⟩, -- 92: vmovq xmm0, [rdi + 0x250]
  .movqLd 1 ⟨some .rdi, none, 192#64⟩, -- 93: vmovq xmm1, [rdi + 0xc0]
  .st ⟨some .rsp, none, 448#64⟩ 12, -- 94: vmovdqu [rsp + 0x1c0], ymm12
  .st ⟨some .rsp, none, 480#64⟩ 4, -- 95: vmovdqu [rsp + 0x1e0], ymm4
  .pinsrq 0 0 ⟨some .rdi, none, 792#64⟩ 1, -- 96: vpinsrq xmm0, xmm0, [rdi + 0x318], 0x1
  .pinsrq 1 1 ⟨some .rdi, none, 392#64⟩ 1, -- 97: vpinsrq xmm1, xmm1, [rdi + 0x188], 0x1
  .inserti128 2 1 0 1, -- 98: vinserti128 ymm2, ymm1, xmm0, 0x1
  .sc (.mov (.reg .r10) (.imm 0#64)), -- 99: mov r10, 0
  .mov 4 (.m ⟨some .rsp, none, 160#64⟩), -- 100: vmovdqu ymm4, [rsp + 0xa0]
  .pxor 0 9 (.m ⟨some .rsp, none, 448#64⟩), -- 101: vpxor ymm0, ymm9, [rsp + 0x1c0]
  .st ⟨some .rsp, none, 512#64⟩ 9, -- 102: vmovdqu [rsp + 0x200], ymm9
  .mov 9 (.y 10), -- 103: vmovdqu ymm9, ymm10
  .mov 11 (.m ⟨some .rsp, none, 192#64⟩), -- 104: vmovdqu ymm11, [rsp + 0xc0]
  .mov 12 (.m ⟨some .rsp, none, 352#64⟩), -- 105: vmovdqu ymm12, [rsp + 0x160]
  .st ⟨some .rsp, none, 576#64⟩ 3, -- 106: vmovdqu [rsp + 0x240], ymm3
  .pxor 1 4 (.m ⟨some .rsp, none, 256#64⟩), -- 107: vpxor ymm1, ymm4, [rsp + 0x100]
  .mov 10 (.m ⟨some .rsp, none, 64#64⟩), -- 108: vmovdqu ymm10, [rsp + 0x40]
  .st ⟨some .rsp, none, 544#64⟩ 4, -- 109: vmovdqu [rsp + 0x220], ymm4
  .pxor 12 12 (.y 3), -- 110: vpxor ymm12, ymm12, ymm3
  .mov 6 (.m ⟨some .rsp, none, 32#64⟩), -- 111: vmovdqu ymm6, [rsp + 0x20]
  .mov 4 (.m ⟨some .rsp, none, 320#64⟩), -- 112: vmovdqu ymm4, [rsp + 0x140]
  .st ⟨some .rsp, none, 672#64⟩ 14, -- 113: vmovdqu [rsp + 0x2a0], ymm14
  .pxor 0 0 (.y 1), -- 114: vpxor ymm0, ymm0, ymm1
  .pxor 1 11 (.y 8), -- 115: vpxor ymm1, ymm11, ymm8
  .pxor 11 7 (.m ⟨some .rsp, none, 384#64⟩), -- 116: vpxor ymm11, ymm7, [rsp + 0x180]
  .st ⟨some .rsp, none, 640#64⟩ 10, -- 117: vmovdqu [rsp + 0x280], ymm10
  .pxor 12 12 (.y 1), -- 118: vpxor ymm12, ymm12, ymm1
  .pxor 1 9 (.y 15), -- 119: vpxor ymm1, ymm9, ymm15
  .mov 3 (.m ⟨some .rsp, none, 224#64⟩), -- 120: vmovdqu ymm3, [rsp + 0xe0]
  .st ⟨some .rsp, none, 608#64⟩ 8, -- 121: vmovdqu [rsp + 0x260], ymm8
  .pxor 11 11 (.y 1), -- 122: vpxor ymm11, ymm11, ymm1
  .pxor 1 14 (.m ⟨some .rsp, none, 288#64⟩), -- 123: vpxor ymm1, ymm14, [rsp + 0x120]
  .pxor 12 12 (.y 6), -- 124: vpxor ymm12, ymm12, ymm6
  .mov 8 (.m ⟨some .rsp, none, 96#64⟩), -- 125: vmovdqu ymm8, [rsp + 0x60]
  .pxor 11 11 (.y 10), -- 126: vpxor ymm11, ymm11, ymm10
  .pxor 10 13 (.m ⟨some .rsp, none, 480#64⟩), -- 127: vpxor ymm10, ymm13, [rsp + 0x1e0]
  .pxor 3 3 (.y 4), -- 128: vpxor ymm3, ymm3, ymm4
  .st ⟨some .rsp, none, 704#64⟩ 4, -- 129: vmovdqu [rsp + 0x2c0], ymm4
  .psrlq 4 12 63, -- 130: vpsrlq ymm4, ymm12, 0x3f
  .psrlq 5 11 63, -- 131: vpsrlq ymm5, ymm11, 0x3f
  .pxor 0 0 (.m ⟨some .rsp, none, 0#64⟩), -- 132: vpxor ymm0, ymm0, [rsp + 0x0]
  .pxor 10 10 (.y 1), -- 133: vpxor ymm10, ymm10, ymm1
  .mov 1 (.m ⟨some .rsp, none, 128#64⟩), -- 134: vmovdqu ymm1, [rsp + 0x80]
  .pxor 10 10 (.y 8), -- 135: vpxor ymm10, ymm10, ymm8
  .mov 14 (.y 1), -- 136: vmovdqu ymm14, ymm1
  .pxor 1 2 (.m ⟨some .rsp, none, 416#64⟩), -- 137: vpxor ymm1, ymm2, [rsp + 0x1a0]
  .st ⟨some .rsp, none, 736#64⟩ 14, -- 138: vmovdqu [rsp + 0x2e0], ymm14
  .pxor 1 1 (.y 3), -- 139: vpxor ymm1, ymm1, ymm3
  .psllq 3 12 1, -- 140: vpsllq ymm3, ymm12, 0x1
  .por 3 3 (.y 4), -- 141: vpor ymm3, ymm3, ymm4
  .psllq 4 11 1, -- 142: vpsllq ymm4, ymm11, 0x1
  .pxor 1 1 (.y 14), -- 143: vpxor ymm1, ymm1, ymm14
  .por 4 4 (.y 5), -- 144: vpor ymm4, ymm4, ymm5
  .psrlq 14 10 63, -- 145: vpsrlq ymm14, ymm10, 0x3f
  .pxor 3 3 (.y 1), -- 146: vpxor ymm3, ymm3, ymm1
  .psllq 5 10 1, -- 147: vpsllq ymm5, ymm10, 0x1
  .pxor 4 4 (.y 0), -- 148: vpxor ymm4, ymm4, ymm0
  .por 5 5 (.y 14), -- 149: vpor ymm5, ymm5, ymm14
  .pxor 6 4 (.y 6), -- 150: vpxor ymm6, ymm4, ymm6
  .pxor 5 5 (.y 12), -- 151: vpxor ymm5, ymm5, ymm12
  .psrlq 12 1 63, -- 152: vpsrlq ymm12, ymm1, 0x3f
  .psllq 1 1 1, -- 153: vpsllq ymm1, ymm1, 0x1
  .pxor 7 5 (.y 7), -- 154: vpxor ymm7, ymm5, ymm7
  .pxor 9 5 (.y 9), -- 155: vpxor ymm9, ymm5, ymm9
  .por 1 1 (.y 12), -- 156: vpor ymm1, ymm1, ymm12
  .pxor 12 3 (.m ⟨some .rsp, none, 0#64⟩), -- 157: vpxor ymm12, ymm3, [rsp + 0x0]
  .pxor 1 1 (.y 11), -- 158: vpxor ymm1, ymm1, ymm11
  .psrlq 11 0 63, -- 159: vpsrlq ymm11, ymm0, 0x3f
  .psllq 0 0 1, -- 160: vpsllq ymm0, ymm0, 0x1
  .pxor 13 1 (.y 13), -- 161: vpxor ymm13, ymm1, ymm13
  .pxor 8 1 (.y 8), -- 162: vpxor ymm8, ymm1, ymm8
  .por 0 0 (.y 11), -- 163: vpor ymm0, ymm0, ymm11
  .pxor 0 0 (.y 10), -- 164: vpxor ymm0, ymm0, ymm10
  .pxor 10 4 (.m ⟨some .rsp, none, 192#64⟩), -- 165: vpxor ymm10, ymm4, [rsp + 0xc0]
  .pxor 2 0 (.y 2), -- 166: vpxor ymm2, ymm0, ymm2
  .psrlq 11 10 20, -- 167: vpsrlq ymm11, ymm10, 0x14
  .psllq 10 10 44, -- 168: vpsllq ymm10, ymm10, 0x2c
  .por 10 10 (.y 11), -- 169: vpor ymm10, ymm10, ymm11
  .pxor 11 5 (.y 15), -- 170: vpxor ymm11, ymm5, ymm15
  .pbroadcastq 15 ⟨some .rsi, none, 0#64⟩, -- 171: vpbroadcastq ymm15, [rsi]
  .psrlq 14 11 21, -- 172: vpsrlq ymm14, ymm11, 0x15
  .psllq 11 11 43, -- 173: vpsllq ymm11, ymm11, 0x2b
  .por 11 11 (.y 14), -- 174: vpor ymm11, ymm11, ymm14
  .pandn 14 10 (.y 11), -- 175: vpandn ymm14, ymm10, ymm11
  .pxor 14 14 (.y 15), -- 176: vpxor ymm14, ymm14, ymm15
  .pxor 15 14 (.y 12), -- 177: vpxor ymm15, ymm14, ymm12
  .psrlq 14 13 43, -- 178: vpsrlq ymm14, ymm13, 0x2b
  .psllq 13 13 21, -- 179: vpsllq ymm13, ymm13, 0x15
  .st ⟨some .rsp, none, 0#64⟩ 15, -- 180: vmovdqu [rsp + 0x0], ymm15
  .por 13 13 (.y 14), -- 181: vpor ymm13, ymm13, ymm14
  .pandn 14 11 (.y 13), -- 182: vpandn ymm14, ymm11, ymm13
  .pxor 15 14 (.y 10), -- 183: vpxor ymm15, ymm14, ymm10
  .psrlq 14 2 50, -- 184: vpsrlq ymm14, ymm2, 0x32
  .psllq 2 2 14, -- 185: vpsllq ymm2, ymm2, 0xe
  .st ⟨some .rsp, none, 32#64⟩ 15, -- 186: vmovdqu [rsp + 0x20], ymm15
  .por 2 2 (.y 14), -- 187: vpor ymm2, ymm2, ymm14
  .pandn 14 13 (.y 2), -- 188: vpandn ymm14, ymm13, ymm2
  .pxor 11 14 (.y 11), -- 189: vpxor ymm11, ymm14, ymm11
  .st ⟨some .rsp, none, 64#64⟩ 11, -- 190: vmovdqu [rsp + 0x40], ymm11
  .pandn 11 2 (.y 12), -- 191: vpandn ymm11, ymm2, ymm12
  .pandn 12 12 (.y 10), -- 192: vpandn ymm12, ymm12, ymm10
  .pxor 11 11 (.y 13), -- 193: vpxor ymm11, ymm11, ymm13
  .st ⟨some .rsp, none, 96#64⟩ 11, -- 194: vmovdqu [rsp + 0x60], ymm11
  .pxor 11 12 (.y 2), -- 195: vpxor ymm11, ymm12, ymm2
  .psrlq 2 8 36, -- 196: vpsrlq ymm2, ymm8, 0x24
  .psllq 8 8 28, -- 197: vpsllq ymm8, ymm8, 0x1c
  .st ⟨some .rsp, none, 128#64⟩ 11, -- 198: vmovdqu [rsp + 0x80], ymm11
  .por 8 8 (.y 2), -- 199: vpor ymm8, ymm8, ymm2
  .pxor 2 0 (.m ⟨some .rsp, none, 224#64⟩), -- 200: vpxor ymm2, ymm0, [rsp + 0xe0]
  .psrlq 10 2 44, -- 201: vpsrlq ymm10, ymm2, 0x2c
  .psllq 2 2 20, -- 202: vpsllq ymm2, ymm2, 0x14
  .por 2 2 (.y 10), -- 203: vpor ymm2, ymm2, ymm10
  .pxor 10 3 (.m ⟨some .rsp, none, 256#64⟩), -- 204: vpxor ymm10, ymm3, [rsp + 0x100]
  .psrlq 11 10 61, -- 205: vpsrlq ymm11, ymm10, 0x3d
  .psllq 10 10 3, -- 206: vpsllq ymm10, ymm10, 0x3
  .por 10 10 (.y 11), -- 207: vpor ymm10, ymm10, ymm11
  .pandn 11 2 (.y 10), -- 208: vpandn ymm11, ymm2, ymm10
  .pxor 11 11 (.y 8), -- 209: vpxor ymm11, ymm11, ymm8
  .st ⟨some .rsp, none, 160#64⟩ 11, -- 210: vmovdqu [rsp + 0xa0], ymm11
  .pxor 11 4 (.m ⟨some .rsp, none, 352#64⟩), -- 211: vpxor ymm11, ymm4, [rsp + 0x160]
  .psrlq 12 11 19, -- 212: vpsrlq ymm12, ymm11, 0x13
  .psllq 11 11 45, -- 213: vpsllq ymm11, ymm11, 0x2d
  .por 11 11 (.y 12), -- 214: vpor ymm11, ymm11, ymm12
  .pandn 12 10 (.y 11), -- 215: vpandn ymm12, ymm10, ymm11
  .pxor 12 12 (.y 2), -- 216: vpxor ymm12, ymm12, ymm2
  .st ⟨some .rsp, none, 192#64⟩ 12, -- 217: vmovdqu [rsp + 0xc0], ymm12
  .psrlq 12 7 3, -- 218: vpsrlq ymm12, ymm7, 0x3
  .psllq 7 7 61, -- 219: vpsllq ymm7, ymm7, 0x3d
  .por 7 7 (.y 12), -- 220: vpor ymm7, ymm7, ymm12
  .pandn 12 11 (.y 7), -- 221: vpandn ymm12, ymm11, ymm7
  .pxor 10 12 (.y 10), -- 222: vpxor ymm10, ymm12, ymm10
  .pandn 12 7 (.y 8), -- 223: vpandn ymm12, ymm7, ymm8
  .pandn 8 8 (.y 2), -- 224: vpandn ymm8, ymm8, ymm2
  .psrlq 2 6 63, -- 225: vpsrlq ymm2, ymm6, 0x3f
  .psllq 6 6 1, -- 226: vpsllq ymm6, ymm6, 0x1
  .pxor 14 12 (.y 11), -- 227: vpxor ymm14, ymm12, ymm11
  .por 6 6 (.y 2), -- 228: vpor ymm6, ymm6, ymm2
  .psrlq 2 9 58, -- 229: vpsrlq ymm2, ymm9, 0x3a
  .pxor 12 8 (.y 7), -- 230: vpxor ymm12, ymm8, ymm7
  .psllq 9 9 6, -- 231: vpsllq ymm9, ymm9, 0x6
  .st ⟨some .rsp, none, 224#64⟩ 12, -- 232: vmovdqu [rsp + 0xe0], ymm12
  .pxor 7 0 (.m ⟨some .rsp, none, 416#64⟩), -- 233: vpxor ymm7, ymm0, [rsp + 0x1a0]
  .por 9 9 (.y 2), -- 234: vpor ymm9, ymm9, ymm2
  .pxor 2 1 (.m ⟨some .rsp, none, 288#64⟩), -- 235: vpxor ymm2, ymm1, [rsp + 0x120]
  .pshufb 7 7 (.m ⟨some .rdx, none, 0#64⟩), -- 236: vpshufb ymm7, ymm7, [rdx]
  .psrlq 11 2 39, -- 237: vpsrlq ymm11, ymm2, 0x27
  .psllq 2 2 25, -- 238: vpsllq ymm2, ymm2, 0x19
  .por 11 11 (.y 2), -- 239: vpor ymm11, ymm11, ymm2
  .pandn 2 9 (.y 11), -- 240: vpandn ymm2, ymm9, ymm11
  .pandn 8 11 (.y 7), -- 241: vpandn ymm8, ymm11, ymm7
  .pxor 12 2 (.y 6), -- 242: vpxor ymm12, ymm2, ymm6
  .pxor 2 3 (.m ⟨some .rsp, none, 448#64⟩), -- 243: vpxor ymm2, ymm3, [rsp + 0x1c0]
  .pxor 8 8 (.y 9), -- 244: vpxor ymm8, ymm8, ymm9
  .st ⟨some .rsp, none, 256#64⟩ 12, -- 245: vmovdqu [rsp + 0x100], ymm12
  .psrlq 12 2 46, -- 246: vpsrlq ymm12, ymm2, 0x2e
  .psllq 2 2 18, -- 247: vpsllq ymm2, ymm2, 0x12
  .por 2 12 (.y 2), -- 248: vpor ymm2, ymm12, ymm2
  .pandn 12 7 (.y 2), -- 249: vpandn ymm12, ymm7, ymm2
  .pxor 15 12 (.y 11), -- 250: vpxor ymm15, ymm12, ymm11
  .pandn 11 2 (.y 6), -- 251: vpandn ymm11, ymm2, ymm6
  .pandn 6 6 (.y 9), -- 252: vpandn ymm6, ymm6, ymm9
  .pxor 12 11 (.y 7), -- 253: vpxor ymm12, ymm11, ymm7
  .st ⟨some .rsp, none, 288#64⟩ 12, -- 254: vmovdqu [rsp + 0x120], ymm12
  .pxor 12 6 (.y 2), -- 255: vpxor ymm12, ymm6, ymm2
  .pxor 6 0 (.m ⟨some .rsp, none, 736#64⟩), -- 256: vpxor ymm6, ymm0, [rsp + 0x2e0]
  .pxor 0 0 (.m ⟨some .rsp, none, 704#64⟩), -- 257: vpxor ymm0, ymm0, [rsp + 0x2c0]
  .st ⟨some .rsp, none, 320#64⟩ 12, -- 258: vmovdqu [rsp + 0x140], ymm12
  .psrlq 2 6 37, -- 259: vpsrlq ymm2, ymm6, 0x25
  .psllq 6 6 27, -- 260: vpsllq ymm6, ymm6, 0x1b
  .por 2 2 (.y 6), -- 261: vpor ymm2, ymm2, ymm6
  .pxor 6 3 (.m ⟨some .rsp, none, 544#64⟩), -- 262: vpxor ymm6, ymm3, [rsp + 0x220]
  .pxor 3 3 (.m ⟨some .rsp, none, 512#64⟩), -- 263: vpxor ymm3, ymm3, [rsp + 0x200]
  .psrlq 7 6 28, -- 264: vpsrlq ymm7, ymm6, 0x1c
  .psllq 6 6 36, -- 265: vpsllq ymm6, ymm6, 0x24
  .por 7 7 (.y 6), -- 266: vpor ymm7, ymm7, ymm6
  .pxor 6 4 (.m ⟨some .rsp, none, 608#64⟩), -- 267: vpxor ymm6, ymm4, [rsp + 0x260]
  .pxor 4 4 (.m ⟨some .rsp, none, 576#64⟩), -- 268: vpxor ymm4, ymm4, [rsp + 0x240]
  .psrlq 12 6 54, -- 269: vpsrlq ymm12, ymm6, 0x36
  .psllq 6 6 10, -- 270: vpsllq ymm6, ymm6, 0xa
  .por 12 12 (.y 6), -- 271: vpor ymm12, ymm12, ymm6
  .pxor 6 5 (.m ⟨some .rsp, none, 384#64⟩), -- 272: vpxor ymm6, ymm5, [rsp + 0x180]
  .pxor 5 5 (.m ⟨some .rsp, none, 640#64⟩), -- 273: vpxor ymm5, ymm5, [rsp + 0x280]
  .pandn 9 7 (.y 12), -- 274: vpandn ymm9, ymm7, ymm12
  .psrlq 11 6 49, -- 275: vpsrlq ymm11, ymm6, 0x31
  .psllq 6 6 15, -- 276: vpsllq ymm6, ymm6, 0xf
  .pxor 9 9 (.y 2), -- 277: vpxor ymm9, ymm9, ymm2
  .por 11 11 (.y 6), -- 278: vpor ymm11, ymm11, ymm6
  .pandn 6 12 (.y 11), -- 279: vpandn ymm6, ymm12, ymm11
  .pxor 6 6 (.y 7), -- 280: vpxor ymm6, ymm6, ymm7
  .st ⟨some .rsp, none, 352#64⟩ 6, -- 281: vmovdqu [rsp + 0x160], ymm6
  .pxor 6 1 (.m ⟨some .rsp, none, 480#64⟩), -- 282: vpxor ymm6, ymm1, [rsp + 0x1e0]
  .pxor 1 1 (.m ⟨some .rsp, none, 672#64⟩), -- 283: vpxor ymm1, ymm1, [rsp + 0x2a0]
  .pshufb 6 6 (.m ⟨some .rcx, none, 0#64⟩), -- 284: vpshufb ymm6, ymm6, [rcx]
  .pandn 13 11 (.y 6), -- 285: vpandn ymm13, ymm11, ymm6
  .pxor 13 13 (.y 12), -- 286: vpxor ymm13, ymm13, ymm12
  .st ⟨some .rsp, none, 384#64⟩ 13, -- 287: vmovdqu [rsp + 0x180], ymm13
  .pandn 13 6 (.y 2), -- 288: vpandn ymm13, ymm6, ymm2
  .pandn 2 2 (.y 7), -- 289: vpandn ymm2, ymm2, ymm7
  .pxor 2 2 (.y 6), -- 290: vpxor ymm2, ymm2, ymm6
  .psrlq 6 4 62, -- 291: vpsrlq ymm6, ymm4, 0x3e
  .pxor 13 13 (.y 11), -- 292: vpxor ymm13, ymm13, ymm11
  .st ⟨some .rsp, none, 416#64⟩ 2, -- 293: vmovdqu [rsp + 0x1a0], ymm2
  .psrlq 2 5 2, -- 294: vpsrlq ymm2, ymm5, 0x2
  .psllq 5 5 62, -- 295: vpsllq ymm5, ymm5, 0x3e
  .por 2 2 (.y 5), -- 296: vpor ymm2, ymm2, ymm5
  .psrlq 5 1 9, -- 297: vpsrlq ymm5, ymm1, 0x9
  .psllq 1 1 55, -- 298: vpsllq ymm1, ymm1, 0x37
  .psllq 4 4 2, -- 299: vpsllq ymm4, ymm4, 0x2
  .por 1 5 (.y 1), -- 300: vpor ymm1, ymm5, ymm1
  .psrlq 5 0 25, -- 301: vpsrlq ymm5, ymm0, 0x19
  .por 4 6 (.y 4), -- 302: vpor ymm4, ymm6, ymm4
  .psllq 0 0 39, -- 303: vpsllq ymm0, ymm0, 0x27
  .por 5 5 (.y 0), -- 304: vpor ymm5, ymm5, ymm0
  .pandn 0 1 (.y 5), -- 305: vpandn ymm0, ymm1, ymm5
  .pxor 0 0 (.y 2), -- 306: vpxor ymm0, ymm0, ymm2
  .st ⟨some .rsp, none, 448#64⟩ 0, -- 307: vmovdqu [rsp + 0x1c0], ymm0
  .psrlq 0 3 23, -- 308: vpsrlq ymm0, ymm3, 0x17
  .psllq 3 3 41, -- 309: vpsllq ymm3, ymm3, 0x29
  .por 0 0 (.y 3), -- 310: vpor ymm0, ymm0, ymm3
  .pandn 7 0 (.y 4), -- 311: vpandn ymm7, ymm0, ymm4
  .pandn 3 5 (.y 0), -- 312: vpandn ymm3, ymm5, ymm0
  .pxor 7 7 (.y 5), -- 313: vpxor ymm7, ymm7, ymm5
  .pandn 5 4 (.y 2), -- 314: vpandn ymm5, ymm4, ymm2
  .pandn 2 2 (.y 1), -- 315: vpandn ymm2, ymm2, ymm1
  .pxor 5 5 (.y 0), -- 316: vpxor ymm5, ymm5, ymm0
  .pxor 3 3 (.y 1), -- 317: vpxor ymm3, ymm3, ymm1
  .pxor 2 2 (.y 4), -- 318: vpxor ymm2, ymm2, ymm4
  .st ⟨some .rsp, none, 480#64⟩ 5, -- 319: vmovdqu [rsp + 0x1e0], ymm5
  .sc (.add (.reg .rsi) (.imm 8#64)), -- 320: add rsi, 8
  .sc (.add (.reg .r10) (.imm 1#64)), -- 321: add r10, 1
  .sc (.cmp (.reg .r10) (.imm 24#64)), -- 322: cmp r10, 0x18
  .sc (.jcc .nz 100), -- 323: jne @2b
  .mov 4 (.m ⟨some .rsp, none, 0#64⟩), -- 324: vmovdqu ymm4, [rsp + 0x0]
  .mov 5 (.m ⟨some .rsp, none, 64#64⟩), -- 325: vmovdqu ymm5, [rsp + 0x40]
  .mov 0 (.m ⟨some .rsp, none, 32#64⟩), -- 326: vmovdqu ymm0, [rsp + 0x20]
  .mov 1 (.m ⟨some .rsp, none, 96#64⟩), -- 327: vmovdqu ymm1, [rsp + 0x60]
  .mov 12 (.m ⟨some .rsp, none, 448#64⟩), -- 328: vmovdqu ymm12, [rsp + 0x1c0]
  .st ⟨some .rsp, none, 448#64⟩ 2, -- 329: vmovdqu [rsp + 0x1c0], ymm2
  .punpcklqdq 2 4 (.y 0), -- 330: vpunpcklqdq ymm2, ymm4, ymm0
  .punpckhqdq 0 4 (.y 0), -- 331: vpunpckhqdq ymm0, ymm4, ymm0
  .punpcklqdq 4 5 (.y 1), -- 332: vpunpcklqdq ymm4, ymm5, ymm1
  .punpckhqdq 1 5 (.y 1), -- 333: vpunpckhqdq ymm1, ymm5, ymm1
  .perm2i128 6 2 (.y 4) 32, -- 334: vperm2i128 ymm6, ymm2, ymm4, 0x20
  .perm2i128 2 2 (.y 4) 49, -- 335: vperm2i128 ymm2, ymm2, ymm4, 0x31
  .mov 4 (.m ⟨some .rsp, none, 128#64⟩), -- 336: vmovdqu ymm4, [rsp + 0x80]
  .perm2i128 5 0 (.y 1) 32, -- 337: vperm2i128 ymm5, ymm0, ymm1, 0x20
  .perm2i128 0 0 (.y 1) 49, -- 338: vperm2i128 ymm0, ymm0, ymm1, 0x31
  .st ⟨some .rdi, none, 0#64⟩ 6, -- 339: vmovdqu [rdi], ymm6
  .st ⟨some .rdi, none, 200#64⟩ 5, -- 340: vmovdqu [rdi + 0xc8], ymm5
  .st ⟨some .rdi, none, 400#64⟩ 2, -- 341: vmovdqu [rdi + 0x190], ymm2
  .st ⟨some .rdi, none, 600#64⟩ 0, -- 342: vmovdqu [rdi + 0x258], ymm0
  .mov 0 (.m ⟨some .rsp, none, 160#64⟩), -- 343: vmovdqu ymm0, [rsp + 0xa0]
  .punpcklqdq 2 4 (.y 0), -- 344: vpunpcklqdq ymm2, ymm4, ymm0
  .punpckhqdq 1 4 (.y 0), -- 345: vpunpckhqdq ymm1, ymm4, ymm0
  .mov 0 (.m ⟨some .rsp, none, 192#64⟩), -- 346: vmovdqu ymm0, [rsp + 0xc0]
  .punpcklqdq 4 0 (.y 10), -- 347: vpunpcklqdq ymm4, ymm0, ymm10
  .punpckhqdq 0 0 (.y 10), -- 348: vpunpckhqdq ymm0, ymm0, ymm10
  .perm2i128 6 2 (.y 4) 32, -- 349: vperm2i128 ymm6, ymm2, ymm4, 0x20
  .perm2i128 5 1 (.y 0) 32, -- 350: vperm2i128 ymm5, ymm1, ymm0, 0x20
  .perm2i128 2 2 (.y 4) 49, -- 351: vperm2i128 ymm2, ymm2, ymm4, 0x31
  .mov 4 (.m ⟨some .rsp, none, 224#64⟩), -- 352: vmovdqu ymm4, [rsp + 0xe0]
  .perm2i128 1 1 (.y 0) 49, -- 353: vperm2i128 ymm1, ymm1, ymm0, 0x31
  .mov 0 (.m ⟨some .rsp, none, 256#64⟩), -- 354: vmovdqu ymm0, [rsp + 0x100]
  .st ⟨some .rdi, none, 432#64⟩ 2, -- 355: vmovdqu [rdi + 0x1b0], ymm2
  .st ⟨some .rdi, none, 632#64⟩ 1, -- 356: vmovdqu [rdi + 0x278], ymm1
  .punpcklqdq 2 14 (.y 4), -- 357: vpunpcklqdq ymm2, ymm14, ymm4
  .punpckhqdq 1 14 (.y 4), -- 358: vpunpckhqdq ymm1, ymm14, ymm4
  .punpcklqdq 4 0 (.y 8), -- 359: vpunpcklqdq ymm4, ymm0, ymm8
  .punpckhqdq 0 0 (.y 8), -- 360: vpunpckhqdq ymm0, ymm0, ymm8
  .st ⟨some .rdi, none, 32#64⟩ 6, -- 361: vmovdqu [rdi + 0x20], ymm6
  .st ⟨some .rdi, none, 232#64⟩ 5, -- 362: vmovdqu [rdi + 0xe8], ymm5
  .perm2i128 6 2 (.y 4) 32, -- 363: vperm2i128 ymm6, ymm2, ymm4, 0x20
  .perm2i128 5 1 (.y 0) 32, -- 364: vperm2i128 ymm5, ymm1, ymm0, 0x20
  .perm2i128 2 2 (.y 4) 49, -- 365: vperm2i128 ymm2, ymm2, ymm4, 0x31
  .perm2i128 1 1 (.y 0) 49, -- 366: vperm2i128 ymm1, ymm1, ymm0, 0x31
  .mov 4 (.m ⟨some .rsp, none, 288#64⟩), -- 367: vmovdqu ymm4, [rsp + 0x120]
  .mov 0 (.m ⟨some .rsp, none, 320#64⟩), -- 368: vmovdqu ymm0, [rsp + 0x140]
  .st ⟨some .rdi, none, 464#64⟩ 2, -- 369: vmovdqu [rdi + 0x1d0], ymm2
  .st ⟨some .rdi, none, 664#64⟩ 1, -- 370: vmovdqu [rdi + 0x298], ymm1
  .punpcklqdq 2 15 (.y 4), -- 371: vpunpcklqdq ymm2, ymm15, ymm4
  .punpckhqdq 1 15 (.y 4), -- 372: vpunpckhqdq ymm1, ymm15, ymm4
  .punpcklqdq 4 0 (.y 9), -- 373: vpunpcklqdq ymm4, ymm0, ymm9
  .st ⟨some .rdi, none, 264#64⟩ 5, -- 374: vmovdqu [rdi + 0x108], ymm5
  .punpckhqdq 0 0 (.y 9), -- 375: vpunpckhqdq ymm0, ymm0, ymm9
  .st ⟨some .rdi, none, 64#64⟩ 6, -- 376: vmovdqu [rdi + 0x40], ymm6
  .perm2i128 6 2 (.y 4) 32, -- 377: vperm2i128 ymm6, ymm2, ymm4, 0x20
  .perm2i128 2 2 (.y 4) 49, -- 378: vperm2i128 ymm2, ymm2, ymm4, 0x31
  .perm2i128 5 1 (.y 0) 32, -- 379: vperm2i128 ymm5, ymm1, ymm0, 0x20
  .mov 4 (.m ⟨some .rsp, none, 352#64⟩), -- 380: vmovdqu ymm4, [rsp + 0x160]
  .perm2i128 1 1 (.y 0) 49, -- 381: vperm2i128 ymm1, ymm1, ymm0, 0x31
  .mov 0 (.m ⟨some .rsp, none, 384#64⟩), -- 382: vmovdqu ymm0, [rsp + 0x180]
  .st ⟨some .rdi, none, 296#64⟩ 5, -- 383: vmovdqu [rdi + 0x128], ymm5
  .mov 5 (.m ⟨some .rsp, none, 416#64⟩), -- 384: vmovdqu ymm5, [rsp + 0x1a0]
  .st ⟨some .rdi, none, 496#64⟩ 2, -- 385: vmovdqu [rdi + 0x1f0], ymm2
  .punpcklqdq 2 4 (.y 0), -- 386: vpunpcklqdq ymm2, ymm4, ymm0
  .punpckhqdq 0 4 (.y 0), -- 387: vpunpckhqdq ymm0, ymm4, ymm0
  .punpcklqdq 4 13 (.y 5), -- 388: vpunpcklqdq ymm4, ymm13, ymm5
  .st ⟨some .rdi, none, 96#64⟩ 6, -- 389: vmovdqu [rdi + 0x60], ymm6
  .perm2i128 6 2 (.y 4) 32, -- 390: vperm2i128 ymm6, ymm2, ymm4, 0x20
  .st ⟨some .rdi, none, 696#64⟩ 1, -- 391: vmovdqu [rdi + 0x2b8], ymm1
  .perm2i128 2 2 (.y 4) 49, -- 392: vperm2i128 ymm2, ymm2, ymm4, 0x31
  .punpckhqdq 1 13 (.y 5), -- 393: vpunpckhqdq ymm1, ymm13, ymm5
  .st ⟨some .rdi, none, 128#64⟩ 6, -- 394: vmovdqu [rdi + 0x80], ymm6
  .mov 4 (.m ⟨some .rsp, none, 480#64⟩), -- 395: vmovdqu ymm4, [rsp + 0x1e0]
  .perm2i128 5 0 (.y 1) 32, -- 396: vperm2i128 ymm5, ymm0, ymm1, 0x20
  .perm2i128 0 0 (.y 1) 49, -- 397: vperm2i128 ymm0, ymm0, ymm1, 0x31
  .st ⟨some .rdi, none, 528#64⟩ 2, -- 398: vmovdqu [rdi + 0x210], ymm2
  .punpcklqdq 2 12 (.y 3), -- 399: vpunpcklqdq ymm2, ymm12, ymm3
  .st ⟨some .rdi, none, 728#64⟩ 0, -- 400: vmovdqu [rdi + 0x2d8], ymm0
  .punpckhqdq 0 12 (.y 3), -- 401: vpunpckhqdq ymm0, ymm12, ymm3
  .punpcklqdq 3 7 (.y 4), -- 402: vpunpcklqdq ymm3, ymm7, ymm4
  .punpckhqdq 1 7 (.y 4), -- 403: vpunpckhqdq ymm1, ymm7, ymm4
  .st ⟨some .rdi, none, 328#64⟩ 5, -- 404: vmovdqu [rdi + 0x148], ymm5
  .perm2i128 5 2 (.y 3) 32, -- 405: vperm2i128 ymm5, ymm2, ymm3, 0x20
  .perm2i128 2 2 (.y 3) 49, -- 406: vperm2i128 ymm2, ymm2, ymm3, 0x31
  .mov 3 (.m ⟨some .rsp, none, 448#64⟩), -- 407: vmovdqu ymm3, [rsp + 0x1c0]
  .perm2i128 4 0 (.y 1) 32, -- 408: vperm2i128 ymm4, ymm0, ymm1, 0x20
  .perm2i128 0 0 (.y 1) 49, -- 409: vperm2i128 ymm0, ymm0, ymm1, 0x31
  .st ⟨some .rdi, none, 160#64⟩ 5, -- 410: vmovdqu [rdi + 0xa0], ymm5
  .extracti128 15 3 1, -- 411: vextracti128 xmm15, ymm3, 0x1
  .st ⟨some .rdi, none, 360#64⟩ 4, -- 412: vmovdqu [rdi + 0x168], ymm4
  .st ⟨some .rdi, none, 560#64⟩ 2, -- 413: vmovdqu [rdi + 0x230], ymm2
  .st ⟨some .rdi, none, 760#64⟩ 0, -- 414: vmovdqu [rdi + 0x2f8], ymm0
  .movqSt ⟨some .rdi, none, 192#64⟩ 3, -- 415: vmovq [rdi + 0xc0], xmm3
  .movhpdSt ⟨some .rdi, none, 392#64⟩ 3, -- 416: vmovhpd [rdi + 0x188], xmm3
  .movqSt ⟨some .rdi, none, 592#64⟩ 15, -- 417: vmovq [rdi + 0x250], xmm15
  .movhpdSt ⟨some .rdi, none, 792#64⟩ 15, -- 418: vmovhpd [rdi + 0x318], xmm15
  .sc (.mov (.reg .rsp) (.reg .r11))] -- 419: mov rsp, r11

/-- The registers that the operands of sha3_keccak4_f1600_alt.rs:47-680 say may change. -/
def sha3Keccak4F1600AltRegs : List Reg := [.rdi, .rsi, .rdx, .rcx, .r10, .r11]

end Verif.X86.Asm
