import Verif.Model.X86Byte

/-!
Generated by tools/gen_asm.py from `graviola/src/low/x86_64`: the `asm!` blocks as lists of instructions.
The comment at the end of a line gives its position; jump targets are positions.
-/
namespace Verif.X86.Asm
open Verif.X86

/-- low/x86_64/mlkem_rej_uniform_vartime.rs:65-142.  Operands: inout("rdi") r.as_mut_ptr() => _; inout("rsi") input.as_ptr() => _; inout("rdx") input.len() => _; inout("rcx") table.as_ptr() => _; out("rax") ret; out("r10") _; out("r11") _; out("r8") _; out("r9") _; out("zmm0") _; out("zmm1") _; out("zmm2") _; out("zmm3") _; out("zmm4") _; out("zmm5") _. -/
def mlkemRejUniformVartime : BProg := [
  .sc (.nop), -- 0: endbr64
  .sc (.sub (.reg .rsp) (.imm 528#64)), -- 1: sub rsp, 0x210
  .sc (.xor (.reg .rax) (.reg .rax)), -- 2: xor eax, eax
  .sc (.test (.reg .rdx) (.reg .rdx)), -- 3: test rdx, rdx
  .sc (.jcc .zr 48), -- 4: jz @2f
  .sc (.mov (.reg .rax) (.imm 0xd010d010d010d01#64)), -- 5: movabs rax, 0xd010d010d010d01
  .movqR 0 .rax, -- 6: movq xmm0, rax
  .pinsrqR 0 .rax 1, -- 7: pinsrq xmm0, rax, 0x1
  .sc (.mov (.reg .rax) (.imm 0xfff0fff0fff0fff#64)), -- 8: movabs rax, 0xfff0fff0fff0fff
  .movqR 5 .rax, -- 9: movq xmm5, rax
  .pinsrqR 5 .rax 1, -- 10: pinsrq xmm5, rax, 0x1
  .sc (.mov (.reg .rax) (.imm 0x504040302010100#64)), -- 11: movabs rax, 0x504040302010100
  .movqR 4 .rax, -- 12: movq xmm4, rax
  .sc (.mov (.reg .rax) (.imm 0xb0a0a0908070706#64)), -- 13: movabs rax, 0xb0a0a0908070706
  .pinsrqR 4 .rax 1, -- 14: pinsrq xmm4, rax, 0x1
  .sc (.mov (.reg .rax) (.imm 0#64)), -- 15: mov rax, 0x0
  .sc (.mov (.reg .r8) (.imm 0#64)), -- 16: mov r8, 0x0
  .sc (.mov (.reg .r9) (.imm 0x5555#64)), -- 17: mov r9, 0x5555
  .movqM 2 ⟨some .rsi, some (.r8, 1#64), 0#64⟩, -- 18: movq xmm2, [rsi + r8]
  .pinsrdM 2 ⟨some .rsi, some (.r8, 1#64), 8#64⟩ 2, -- 19: pinsrd xmm2, [rsi + r8 + 8], 0x2
  .pshufb 2 4, -- 20: pshufb xmm2, xmm4
  .movdqa 3 2, -- 21: movdqa xmm3, xmm2
  .psrlw 3 4, -- 22: psrlw xmm3, 0x4
  .pblendw 2 3 170, -- 23: pblendw xmm2, xmm3, 0xaa
  .pand 2 5, -- 24: pand xmm2, xmm5
  .movdqa 1 0, -- 25: movdqa xmm1, xmm0
  .pcmpgtw 1 2, -- 26: pcmpgtw xmm1, xmm2
  .pmovmskb .r11 1, -- 27: pmovmskb r11d, xmm1
  .pext .r11 .r11 .r9, -- 28: pext r11, r11, r9
  .sc (.mov (.reg .r10) (.reg .r11)), -- 29: mov r10, r11
  .sc (.shl (.reg .r10) (.imm 4#64)), -- 30: shl r10, 0x4
  .movdquLd 3 ⟨some .rcx, some (.r10, 1#64), 0#64⟩, -- 31: movdqu xmm3, [rcx + r10]
  .pshufb 2 3, -- 32: pshufb xmm2, xmm3
  .movdquSt ⟨some .rsp, some (.rax, 2#64), 0#64⟩ 2, -- 33: movdqu [rsp + 2 * rax], xmm2
  .popcnt .r11 .r11, -- 34: popcnt r11, r11
  .sc (.add (.reg .rax) (.reg .r11)), -- 35: add rax, r11
  .sc (.cmp (.reg .rax) (.imm 256#64)), -- 36: cmp rax, 0x100
  .sc (.jcc .nc 41), -- 37: jae @4f
  .sc (.add (.reg .r8) (.imm 12#64)), -- 38: add r8, 0xc
  .sc (.cmp (.reg .rdx) (.reg .r8)), -- 39: cmp rdx, r8
  .sc (.jcc .ab 18), -- 40: ja @3b
  .sc (.mov (.reg .rcx) (.imm 256#64)), -- 41: mov rcx, 0x100
  .sc (.cmp (.reg .rax) (.imm 256#64)), -- 42: cmp rax, 0x100
  .sc (.cmov .ab .rax (.reg .rcx)), -- 43: cmova rax, rcx
  .sc (.mov (.reg .rsi) (.reg .rsp)), -- 44: mov rsi, rsp
  .sc (.mov (.reg .rcx) (.reg .rax)), -- 45: mov rcx, rax
  .sc (.shl (.reg .rcx) (.imm 1#64)), -- 46: shl rcx, 1
  .repMovsb, -- 47: repz movsb
  .sc (.add (.reg .rsp) (.imm 528#64))] -- 48: add rsp, 0x210

/-- The registers that the operands of mlkem_rej_uniform_vartime.rs:65-142 say may change. -/
def mlkemRejUniformVartimeRegs : List Reg := [.rdi, .rsi, .rdx, .rcx, .rax, .r10, .r11, .r8, .r9]

end Verif.X86.Asm
