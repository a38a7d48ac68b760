import Verif.Model.X86

/-!
Generated by tools/gen_asm.py from `graviola/src/low/x86_64`: the `asm!` blocks as lists of instructions.
The comment at the end of a line gives its position; jump targets are positions.
-/
namespace Verif.X86.Asm
open Verif.X86

/-- low/x86_64/bignum_mux.rs:67-93.  Operands: inout("rdi") p => _; inout("rsi") z.len() => _; inout("rdx") z.as_mut_ptr() => _; inout("rcx") x_if_p.as_ptr() => _; inout("r8") y_if_not_p.as_ptr() => _; out("r9") _; out("rax") _. -/
def bignumMux : Prog := [
  .nop, -- 0: endbr64
  .test (.reg .rsi) (.reg .rsi), -- 1: test rsi, rsi
  .jcc .zr 12, -- 2: jz @2f
  .xor (.reg .r9) (.reg .r9), -- 3: xor r9, r9
  .neg (.reg .rdi), -- 4: neg rdi
  .mov (.reg .rax) (.mem ⟨some .rcx, some (.r9, 8#64), 0#64⟩), -- 5: mov rax, [rcx+ 8 * r9]
  .mov (.reg .rdi) (.mem ⟨some .r8, some (.r9, 8#64), 0#64⟩), -- 6: mov rdi, [r8+ 8 * r9]
  .cmov .nc .rax (.reg .rdi), -- 7: cmovnc rax, rdi
  .mov (.mem ⟨some .rdx, some (.r9, 8#64), 0#64⟩) (.reg .rax), -- 8: mov [rdx+ 8 * r9], rax
  .inc (.reg .r9), -- 9: inc r9
  .dec (.reg .rsi), -- 10: dec rsi
  .jcc .nz 5] -- 11: jnz @3b

/-- The registers that the operands of bignum_mux.rs:67-93 say may change. -/
def bignumMuxRegs : List Reg := [.rdi, .rsi, .rdx, .rcx, .r8, .r9, .rax]

/-- low/x86_64/bignum_eq.rs:58-115.  Operands: inout("rdi") x.len() => _; inout("rsi") x.as_ptr() => _; inout("rdx") y.len() => _; inout("rcx") y.as_ptr() => _; out("rax") ret. -/
def bignumEq : Prog := [
  .nop, -- 0: endbr64
  .xor (.reg .rax) (.reg .rax), -- 1: xor rax, rax
  .cmp (.reg .rdi) (.reg .rdx), -- 2: cmp rdi, rdx
  .jcc .nc 12, -- 3: jnc @2f
  .dec (.reg .rdx), -- 4: dec rdx
  .or (.reg .rax) (.mem ⟨some .rcx, some (.rdx, 8#64), 0#64⟩), -- 5: or rax, [rcx+ 8 * rdx]
  .cmp (.reg .rdi) (.reg .rdx), -- 6: cmp rdi, rdx
  .jcc .nz 4, -- 7: jnz @3b
  .jmp 13, -- 8: jmp @4f
  .dec (.reg .rdi), -- 9: dec rdi
  .or (.reg .rax) (.mem ⟨some .rsi, some (.rdi, 8#64), 0#64⟩), -- 10: or rax, [rsi+ 8 * rdi]
  .cmp (.reg .rdi) (.reg .rdx), -- 11: cmp rdi, rdx
  .jcc .nz 9, -- 12: jnz @5b
  .test (.reg .rdi) (.reg .rdi), -- 13: test rdi, rdi
  .jcc .zr 20, -- 14: jz @6f
  .mov (.reg .rdx) (.mem ⟨some .rsi, some (.rdi, 8#64), 0xfffffffffffffff8#64⟩), -- 15: mov rdx, [rsi+ 8 * rdi-8]
  .xor (.reg .rdx) (.mem ⟨some .rcx, some (.rdi, 8#64), 0xfffffffffffffff8#64⟩), -- 16: xor rdx, [rcx+ 8 * rdi-8]
  .or (.reg .rax) (.reg .rdx), -- 17: or rax, rdx
  .dec (.reg .rdi), -- 18: dec rdi
  .jcc .nz 15, -- 19: jnz @7b
  .neg (.reg .rax), -- 20: neg rax
  .sbb (.reg .rax) (.reg .rax), -- 21: sbb rax, rax
  .inc (.reg .rax)] -- 22: inc rax

/-- The registers that the operands of bignum_eq.rs:58-115 say may change. -/
def bignumEqRegs : List Reg := [.rdi, .rsi, .rdx, .rcx, .rax]

/-- low/x86_64/bignum_cmp_lt.rs:63-130.  Operands: inout("rdi") x.len() => _; inout("rsi") x.as_ptr() => _; inout("rdx") y.len() => _; inout("rcx") y.as_ptr() => _; out("rax") ret; out("r8") _. -/
def bignumCmpLt : Prog := [
  .nop, -- 0: endbr64
  .xor (.reg .r8) (.reg .r8), -- 1: xor r8, r8
  .sub (.reg .rdi) (.reg .rdx), -- 2: sub rdi, rdx
  .jcc .cy 21, -- 3: jc @2f
  .inc (.reg .rdi), -- 4: inc rdi
  .test (.reg .rdx) (.reg .rdx), -- 5: test rdx, rdx
  .jcc .zr 16, -- 6: jz @3f
  .mov (.reg .rax) (.mem ⟨some .rsi, some (.r8, 8#64), 0#64⟩), -- 7: mov rax, [rsi+ 8 * r8]
  .sbb (.reg .rax) (.mem ⟨some .rcx, some (.r8, 8#64), 0#64⟩), -- 8: sbb rax, [rcx+ 8 * r8]
  .inc (.reg .r8), -- 9: inc r8
  .dec (.reg .rdx), -- 10: dec rdx
  .jcc .nz 7, -- 11: jnz @4b
  .jmp 16, -- 12: jmp @3f
  .mov (.reg .rax) (.mem ⟨some .rsi, some (.r8, 8#64), 0#64⟩), -- 13: mov rax, [rsi+ 8 * r8]
  .sbb (.reg .rax) (.imm 0#64), -- 14: sbb rax, 0
  .inc (.reg .r8), -- 15: inc r8
  .dec (.reg .rdi), -- 16: dec rdi
  .jcc .nz 13, -- 17: jnz @5b
  .sbb (.reg .rax) (.reg .rax), -- 18: sbb rax, rax
  .neg (.reg .rax), -- 19: neg rax
  .jmp 37, -- 20: jmp @6f
  .add (.reg .rdi) (.reg .rdx), -- 21: add rdi, rdx
  .sub (.reg .rdx) (.reg .rdi), -- 22: sub rdx, rdi
  .test (.reg .rdi) (.reg .rdi), -- 23: test rdi, rdi
  .jcc .zr 30, -- 24: jz @7f
  .mov (.reg .rax) (.mem ⟨some .rsi, some (.r8, 8#64), 0#64⟩), -- 25: mov rax, [rsi+ 8 * r8]
  .sbb (.reg .rax) (.mem ⟨some .rcx, some (.r8, 8#64), 0#64⟩), -- 26: sbb rax, [rcx+ 8 * r8]
  .inc (.reg .r8), -- 27: inc r8
  .dec (.reg .rdi), -- 28: dec rdi
  .jcc .nz 25, -- 29: jnz @8b
  .mov (.reg .rax) (.imm 0#64), -- 30: mov eax, 0
  .sbb (.reg .rax) (.mem ⟨some .rcx, some (.r8, 8#64), 0#64⟩), -- 31: sbb rax, [rcx+ 8 * r8]
  .inc (.reg .r8), -- 32: inc r8
  .dec (.reg .rdx), -- 33: dec rdx
  .jcc .nz 30, -- 34: jnz @7b
  .sbb (.reg .rax) (.reg .rax), -- 35: sbb rax, rax
  .neg (.reg .rax)] -- 36: neg rax

/-- The registers that the operands of bignum_cmp_lt.rs:63-130 say may change. -/
def bignumCmpLtRegs : List Reg := [.rdi, .rsi, .rdx, .rcx, .rax, .r8]

/-- low/x86_64/bignum_digitsize.rs:55-86.  Operands: inout("rdi") z.len() => _; inout("rsi") z.as_ptr() => _; out("rax") ret; out("rcx") _; out("rdx") _. -/
def bignumDigitsize : Prog := [
  .nop, -- 0: endbr64
  .xor (.reg .rax) (.reg .rax), -- 1: xor rax, rax
  .test (.reg .rdi) (.reg .rdi), -- 2: test rdi, rdi
  .jcc .zr 11, -- 3: jz @2f
  .xor (.reg .rdx) (.reg .rdx), -- 4: xor rdx, rdx
  .mov (.reg .rcx) (.mem ⟨some .rsi, some (.rdx, 8#64), 0#64⟩), -- 5: mov rcx, [rsi+ 8 * rdx]
  .inc (.reg .rdx), -- 6: inc rdx
  .test (.reg .rcx) (.reg .rcx), -- 7: test rcx, rcx
  .cmov .nz .rax (.reg .rdx), -- 8: cmovnz rax, rdx
  .cmp (.reg .rdx) (.reg .rdi), -- 9: cmp rdx, rdi
  .jcc .nz 5] -- 10: jnz @3b

/-- The registers that the operands of bignum_digitsize.rs:55-86 say may change. -/
def bignumDigitsizeRegs : List Reg := [.rdi, .rsi, .rax, .rcx, .rdx]

/-- low/x86_64/bignum_bitsize.rs:66-112.  Operands: inout("rdi") x.len() => _; inout("rsi") x.as_ptr() => _; out("rax") ret; out("r8") _; out("rcx") _; out("rdx") _. -/
def bignumBitsize : Prog := [
  .nop, -- 0: endbr64
  .xor (.reg .rax) (.reg .rax), -- 1: xor rax, rax
  .test (.reg .rdi) (.reg .rdi), -- 2: test rdi, rdi
  .jcc .zr 17, -- 3: jz @2f
  .mov (.reg .rdx) (.imm 0xffffffffffffffff#64), -- 4: mov rdx, -1
  .xor (.reg .r8) (.reg .r8), -- 5: xor r8, r8
  .mov (.reg .rcx) (.mem ⟨some .rsi, some (.r8, 8#64), 0#64⟩), -- 6: mov rcx, [rsi+ 8 * r8]
  .inc (.reg .r8), -- 7: inc r8
  .test (.reg .rcx) (.reg .rcx), -- 8: test rcx, rcx
  .cmov .nz .rax (.reg .r8), -- 9: cmovnz rax, r8
  .cmov .nz .rdx (.reg .rcx), -- 10: cmovnz rdx, rcx
  .cmp (.reg .r8) (.reg .rdi), -- 11: cmp r8, rdi
  .jcc .nz 6, -- 12: jnz @3b
  .shl (.reg .rax) (.imm 6#64), -- 13: shl rax, 6
  .sub (.reg .rax) (.imm 63#64), -- 14: sub rax, 63
  .bsr .rdx (.reg .rdx), -- 15: bsr rdx, rdx
  .add (.reg .rax) (.reg .rdx)] -- 16: add rax, rdx

/-- The registers that the operands of bignum_bitsize.rs:66-112 say may change. -/
def bignumBitsizeRegs : List Reg := [.rdi, .rsi, .rax, .r8, .rcx, .rdx]

/-- low/x86_64/bignum_ctz.rs:69-111.  Operands: inout("rdi") x.len() => _; inout("rsi") x.as_ptr() => _; out("rax") ret; out("rcx") _; out("rdx") _. -/
def bignumCtz : Prog := [
  .nop, -- 0: endbr64
  .xor (.reg .rax) (.reg .rax), -- 1: xor rax, rax
  .test (.reg .rdi) (.reg .rdi), -- 2: test rdi, rdi
  .jcc .zr 17, -- 3: jz @2f
  .mov (.reg .rdx) (.reg .rdi), -- 4: mov rdx, rdi
  .inc (.reg .rdx), -- 5: inc rdx
  .mov (.reg .rcx) (.imm 1#64), -- 6: mov ecx, 1
  .mov (.reg .rax) (.mem ⟨some .rsi, some (.rdi, 8#64), 0xfffffffffffffff8#64⟩), -- 7: mov rax, [rsi+ 8 * rdi-8]
  .test (.reg .rax) (.reg .rax), -- 8: test rax, rax
  .cmov .nz .rdx (.reg .rdi), -- 9: cmovne rdx, rdi
  .cmov .nz .rcx (.reg .rax), -- 10: cmovne rcx, rax
  .dec (.reg .rdi), -- 11: dec rdi
  .jcc .nz 7, -- 12: jnz @3b
  .dec (.reg .rdx), -- 13: dec rdx
  .shl (.reg .rdx) (.imm 6#64), -- 14: shl rdx, 6
  .bsf .rax (.reg .rcx), -- 15: bsf rax, rcx
  .add (.reg .rax) (.reg .rdx)] -- 16: add rax, rdx

/-- The registers that the operands of bignum_ctz.rs:69-111 say may change. -/
def bignumCtzRegs : List Reg := [.rdi, .rsi, .rax, .rcx, .rdx]

/-- low/x86_64/bignum_add.rs:81-180.  Operands: inout("rdi") z.len() => _; inout("rsi") z.as_mut_ptr() => _; inout("rdx") x.len() => _; inout("rcx") x.as_ptr() => _; inout("r8") y.len() => _; inout("r9") y.as_ptr() => _; out("rax") ret; out("r10") _. -/
def bignumAdd : Prog := [
  .nop, -- 0: endbr64
  .xor (.reg .r10) (.reg .r10), -- 1: xor r10, r10
  .cmp (.reg .rdi) (.reg .rdx), -- 2: cmp rdi, rdx
  .cmov .cy .rdx (.reg .rdi), -- 3: cmovc rdx, rdi
  .cmp (.reg .rdi) (.reg .r8), -- 4: cmp rdi, r8
  .cmov .cy .r8 (.reg .rdi), -- 5: cmovc r8, rdi
  .cmp (.reg .rdx) (.reg .r8), -- 6: cmp rdx, r8
  .jcc .cy 31, -- 7: jc @2f
  .sub (.reg .rdi) (.reg .rdx), -- 8: sub rdi, rdx
  .sub (.reg .rdx) (.reg .r8), -- 9: sub rdx, r8
  .inc (.reg .rdx), -- 10: inc rdx
  .test (.reg .r8) (.reg .r8), -- 11: test r8, r8
  .jcc .zr 24, -- 12: jz @3f
  .mov (.reg .rax) (.mem ⟨some .rcx, some (.r10, 8#64), 0#64⟩), -- 13: mov rax, [rcx+ 8 * r10]
  .adc (.reg .rax) (.mem ⟨some .r9, some (.r10, 8#64), 0#64⟩), -- 14: adc rax, [r9+ 8 * r10]
  .mov (.mem ⟨some .rsi, some (.r10, 8#64), 0#64⟩) (.reg .rax), -- 15: mov [rsi+ 8 * r10], rax
  .inc (.reg .r10), -- 16: inc r10
  .dec (.reg .r8), -- 17: dec r8
  .jcc .nz 13, -- 18: jnz @4b
  .jmp 24, -- 19: jmp @3f
  .mov (.reg .rax) (.mem ⟨some .rcx, some (.r10, 8#64), 0#64⟩), -- 20: mov rax, [rcx+ 8 * r10]
  .adc (.reg .rax) (.imm 0#64), -- 21: adc rax, 0
  .mov (.mem ⟨some .rsi, some (.r10, 8#64), 0#64⟩) (.reg .rax), -- 22: mov [rsi+ 8 * r10], rax
  .inc (.reg .r10), -- 23: inc r10
  .dec (.reg .rdx), -- 24: dec rdx
  .jcc .nz 20, -- 25: jnz @5b
  .mov (.reg .rax) (.imm 0#64), -- 26: mov eax, 0
  .adc (.reg .rax) (.imm 0#64), -- 27: adc rax, 0
  .test (.reg .rdi) (.reg .rdi), -- 28: test rdi, rdi
  .jcc .nz 52, -- 29: jnz @6f
  .jmp 59, -- 30: jmp @7f
  .sub (.reg .rdi) (.reg .r8), -- 31: sub rdi, r8
  .sub (.reg .r8) (.reg .rdx), -- 32: sub r8, rdx
  .test (.reg .rdx) (.reg .rdx), -- 33: test rdx, rdx
  .jcc .zr 41, -- 34: jz @8f
  .mov (.reg .rax) (.mem ⟨some .rcx, some (.r10, 8#64), 0#64⟩), -- 35: mov rax, [rcx+ 8 * r10]
  .adc (.reg .rax) (.mem ⟨some .r9, some (.r10, 8#64), 0#64⟩), -- 36: adc rax, [r9+ 8 * r10]
  .mov (.mem ⟨some .rsi, some (.r10, 8#64), 0#64⟩) (.reg .rax), -- 37: mov [rsi+ 8 * r10], rax
  .inc (.reg .r10), -- 38: inc r10
  .dec (.reg .rdx), -- 39: dec rdx
  .jcc .nz 35, -- 40: jnz @9b
  .mov (.reg .rax) (.mem ⟨some .r9, some (.r10, 8#64), 0#64⟩), -- 41: mov rax, [r9+ 8 * r10]
  .adc (.reg .rax) (.imm 0#64), -- 42: adc rax, 0
  .mov (.mem ⟨some .rsi, some (.r10, 8#64), 0#64⟩) (.reg .rax), -- 43: mov [rsi+ 8 * r10], rax
  .inc (.reg .r10), -- 44: inc r10
  .dec (.reg .r8), -- 45: dec r8
  .jcc .nz 41, -- 46: jnz @8b
  .mov (.reg .rax) (.imm 0#64), -- 47: mov eax, 0
  .adc (.reg .rax) (.imm 0#64), -- 48: adc rax, 0
  .test (.reg .rdi) (.reg .rdi), -- 49: test rdi, rdi
  .jcc .nz 52, -- 50: jnz @6f
  .jmp 59, -- 51: jmp @7f
  .mov (.mem ⟨some .rsi, some (.r10, 8#64), 0#64⟩) (.reg .rax), -- 52: mov [rsi+ 8 * r10], rax
  .xor (.reg .rax) (.reg .rax), -- 53: xor rax, rax
  .jmp 56, -- 54: jmp @12f
  .mov (.mem ⟨some .rsi, some (.r10, 8#64), 0#64⟩) (.reg .rax), -- 55: mov [rsi+ 8 * r10], rax
  .inc (.reg .r10), -- 56: inc r10
  .dec (.reg .rdi), -- 57: dec rdi
  .jcc .nz 55] -- 58: jnz @13b

/-- The registers that the operands of bignum_add.rs:81-180 say may change. -/
def bignumAddRegs : List Reg := [.rdi, .rsi, .rdx, .rcx, .r8, .r9, .rax, .r10]

/-- low/x86_64/bignum_modadd.rs:74-134.  Operands: inout("rdi") m.len() => _; inout("rsi") z.as_mut_ptr() => _; inout("rdx") x.as_ptr() => _; inout("rcx") y.as_ptr() => _; inout("r8") m.as_ptr() => _; out("r10") _; out("r11") _; out("r9") _; out("rax") _. -/
def bignumModadd : Prog := [
  .nop, -- 0: endbr64
  .test (.reg .rdi) (.reg .rdi), -- 1: test rdi, rdi
  .jcc .zr 31, -- 2: jz @2f
  .xor (.reg .r11) (.reg .r11), -- 3: xor r11, r11
  .mov (.reg .r10) (.reg .rdi), -- 4: mov r10, rdi
  .xor (.reg .r9) (.reg .r9), -- 5: xor r9, r9
  .mov (.reg .rax) (.mem ⟨some .rdx, some (.r9, 8#64), 0#64⟩), -- 6: mov rax, [rdx+ 8 * r9]
  .adc (.reg .rax) (.mem ⟨some .rcx, some (.r9, 8#64), 0#64⟩), -- 7: adc rax, [rcx+ 8 * r9]
  .mov (.mem ⟨some .rsi, some (.r9, 8#64), 0#64⟩) (.reg .rax), -- 8: mov [rsi+ 8 * r9], rax
  .inc (.reg .r9), -- 9: inc r9
  .dec (.reg .r10), -- 10: dec r10
  .jcc .nz 6, -- 11: jnz @3b
  .adc (.reg .r11) (.imm 0#64), -- 12: adc r11, 0
  .mov (.reg .r10) (.reg .rdi), -- 13: mov r10, rdi
  .xor (.reg .r9) (.reg .r9), -- 14: xor r9, r9
  .mov (.reg .rax) (.mem ⟨some .rsi, some (.r9, 8#64), 0#64⟩), -- 15: mov rax, [rsi+ 8 * r9]
  .sbb (.reg .rax) (.mem ⟨some .r8, some (.r9, 8#64), 0#64⟩), -- 16: sbb rax, [r8+ 8 * r9]
  .inc (.reg .r9), -- 17: inc r9
  .dec (.reg .r10), -- 18: dec r10
  .jcc .nz 15, -- 19: jnz @4b
  .sbb (.reg .r11) (.imm 0#64), -- 20: sbb r11, 0
  .not (.reg .r11), -- 21: not r11
  .xor (.reg .r9) (.reg .r9), -- 22: xor r9, r9
  .mov (.reg .rax) (.mem ⟨some .r8, some (.r9, 8#64), 0#64⟩), -- 23: mov rax, [r8+ 8 * r9]
  .and (.reg .rax) (.reg .r11), -- 24: and rax, r11
  .neg (.reg .r10), -- 25: neg r10
  .sbb (.mem ⟨some .rsi, some (.r9, 8#64), 0#64⟩) (.reg .rax), -- 26: sbb [rsi+ 8 * r9], rax
  .sbb (.reg .r10) (.reg .r10), -- 27: sbb r10, r10
  .inc (.reg .r9), -- 28: inc r9
  .cmp (.reg .r9) (.reg .rdi), -- 29: cmp r9, rdi
  .jcc .cy 23] -- 30: jc @5b

/-- The registers that the operands of bignum_modadd.rs:74-134 say may change. -/
def bignumModaddRegs : List Reg := [.rdi, .rsi, .rdx, .rcx, .r8, .r10, .r11, .r9, .rax]

/-- low/x86_64/bignum_modsub.rs:74-121.  Operands: inout("rdi") z.len() => _; inout("rsi") z.as_mut_ptr() => _; inout("rdx") x.as_ptr() => _; inout("rcx") y.as_ptr() => _; inout("r8") m.as_ptr() => _; out("r10") _; out("r11") _; out("r9") _; out("rax") _. -/
def bignumModsub : Prog := [
  .nop, -- 0: endbr64
  .test (.reg .rdi) (.reg .rdi), -- 1: test rdi, rdi
  .jcc .zr 22, -- 2: jz @2f
  .xor (.reg .r11) (.reg .r11), -- 3: xor r11, r11
  .mov (.reg .r10) (.reg .rdi), -- 4: mov r10, rdi
  .xor (.reg .r9) (.reg .r9), -- 5: xor r9, r9
  .mov (.reg .rax) (.mem ⟨some .rdx, some (.r9, 8#64), 0#64⟩), -- 6: mov rax, [rdx+ 8 * r9]
  .sbb (.reg .rax) (.mem ⟨some .rcx, some (.r9, 8#64), 0#64⟩), -- 7: sbb rax, [rcx+ 8 * r9]
  .mov (.mem ⟨some .rsi, some (.r9, 8#64), 0#64⟩) (.reg .rax), -- 8: mov [rsi+ 8 * r9], rax
  .inc (.reg .r9), -- 9: inc r9
  .dec (.reg .r10), -- 10: dec r10
  .jcc .nz 6, -- 11: jnz @3b
  .sbb (.reg .r11) (.reg .r11), -- 12: sbb r11, r11
  .xor (.reg .r9) (.reg .r9), -- 13: xor r9, r9
  .mov (.reg .rax) (.mem ⟨some .r8, some (.r9, 8#64), 0#64⟩), -- 14: mov rax, [r8+ 8 * r9]
  .and (.reg .rax) (.reg .r11), -- 15: and rax, r11
  .neg (.reg .r10), -- 16: neg r10
  .adc (.mem ⟨some .rsi, some (.r9, 8#64), 0#64⟩) (.reg .rax), -- 17: adc [rsi+ 8 * r9], rax
  .sbb (.reg .r10) (.reg .r10), -- 18: sbb r10, r10
  .inc (.reg .r9), -- 19: inc r9
  .cmp (.reg .r9) (.reg .rdi), -- 20: cmp r9, rdi
  .jcc .cy 14] -- 21: jc @4b

/-- The registers that the operands of bignum_modsub.rs:74-121 say may change. -/
def bignumModsubRegs : List Reg := [.rdi, .rsi, .rdx, .rcx, .r8, .r10, .r11, .r9, .rax]

/-- low/x86_64/bignum_optsub.rs:78-126.  Operands: inout("rdi") z.len() => _; inout("rsi") z.as_mut_ptr() => _; inout("rdx") x.as_ptr() => _; inout("rcx") p => _; inout("r8") y.as_ptr() => _; out("r10") _; out("r11") _; out("r9") _; out("rax") _. -/
def bignumOptsub : Prog := [
  .nop, -- 0: endbr64
  .xor (.reg .rax) (.reg .rax), -- 1: xor rax, rax
  .test (.reg .rdi) (.reg .rdi), -- 2: test rdi, rdi
  .jcc .zr 18, -- 3: jz @2f
  .neg (.reg .rcx), -- 4: neg rcx
  .sbb (.reg .rcx) (.reg .rcx), -- 5: sbb rcx, rcx
  .xor (.reg .r9) (.reg .r9), -- 6: xor r9, r9
  .mov (.reg .r11) (.mem ⟨some .rdx, some (.r9, 8#64), 0#64⟩), -- 7: mov r11, [rdx+ 8 * r9]
  .mov (.reg .r10) (.mem ⟨some .r8, some (.r9, 8#64), 0#64⟩), -- 8: mov r10, [r8+ 8 * r9]
  .and (.reg .r10) (.reg .rcx), -- 9: and r10, rcx
  .neg (.reg .rax), -- 10: neg rax
  .sbb (.reg .r11) (.reg .r10), -- 11: sbb r11, r10
  .sbb (.reg .rax) (.reg .rax), -- 12: sbb rax, rax
  .mov (.mem ⟨some .rsi, some (.r9, 8#64), 0#64⟩) (.reg .r11), -- 13: mov [rsi+ 8 * r9], r11
  .inc (.reg .r9), -- 14: inc r9
  .cmp (.reg .r9) (.reg .rdi), -- 15: cmp r9, rdi
  .jcc .cy 7, -- 16: jc @3b
  .neg (.reg .rax)] -- 17: neg rax

/-- The registers that the operands of bignum_optsub.rs:78-126 say may change. -/
def bignumOptsubRegs : List Reg := [.rdi, .rsi, .rdx, .rcx, .r8, .r10, .r11, .r9, .rax]

/-- low/x86_64/bignum_shr_small.rs:86-147.  Operands: inout("rdi") z.len() => _; inout("rsi") z.as_ptr() => _; inout("rdx") x.len() => _; inout("rcx") x.as_ptr() => _; inout("r8") (c as u64) => _; out("r10") _; out("r9") _; out("rax") _. -/
def bignumShrSmall : Prog := [
  .nop, -- 0: endbr64
  .mov (.reg .r9) (.reg .rcx), -- 1: mov r9, rcx
  .mov (.reg .rcx) (.reg .r8), -- 2: mov rcx, r8
  .xor (.reg .rax) (.reg .rax), -- 3: xor rax, rax
  .cmp (.reg .rdx) (.reg .rdi), -- 4: cmp rdx, rdi
  .jcc .nc 10, -- 5: jnc @2f
  .dec (.reg .rdi), -- 6: dec rdi
  .mov (.mem ⟨some .rsi, some (.rdi, 8#64), 0#64⟩) (.reg .rax), -- 7: mov [rsi+ 8 * rdi], rax
  .cmp (.reg .rdx) (.reg .rdi), -- 8: cmp rdx, rdi
  .jcc .cy 6, -- 9: jc @3b
  .jcc .zr 12, -- 10: jz @4f
  .mov (.reg .rax) (.mem ⟨some .r9, some (.rdi, 8#64), 0#64⟩), -- 11: mov rax, [r9+ 8 * rdi]
  .test (.reg .rdi) (.reg .rdi), -- 12: test rdi, rdi
  .jcc .zr 21, -- 13: jz @5f
  .mov (.reg .r10) (.mem ⟨some .r9, some (.rdi, 8#64), 0xfffffffffffffff8#64⟩), -- 14: mov r10, [r9+ 8 * rdi-8]
  .mov (.reg .r8) (.reg .r10), -- 15: mov r8, r10
  .shrd (.reg .r10) .rax (.reg .rcx), -- 16: shrd r10, rax, cl
  .mov (.mem ⟨some .rsi, some (.rdi, 8#64), 0xfffffffffffffff8#64⟩) (.reg .r10), -- 17: mov [rsi+ 8 * rdi-8], r10
  .mov (.reg .rax) (.reg .r8), -- 18: mov rax, r8
  .dec (.reg .rdi), -- 19: dec rdi
  .jcc .nz 14, -- 20: jnz @6b
  .mov (.reg .r10) (.imm 1#64), -- 21: mov r10d, 1
  .shl (.reg .r10) (.reg .rcx), -- 22: shl r10, cl
  .dec (.reg .r10), -- 23: dec r10
  .and (.reg .rax) (.reg .r10)] -- 24: and rax, r10

/-- The registers that the operands of bignum_shr_small.rs:86-147 say may change. -/
def bignumShrSmallRegs : List Reg := [.rdi, .rsi, .rdx, .rcx, .r8, .r10, .r9, .rax]

/-- low/x86_64/bignum_copy_row_from_table.rs:72-125.  Operands: inout("rdi") z.as_mut_ptr() => _; inout("rsi") table.as_ptr() => _; inout("rdx") height => _; inout("rcx") width => _; inout("r8") index => _; out("r10") _; out("r11") _; out("r9") _; out("rax") _. -/
def bignumCopyRowFromTable : Prog := [
  .nop, -- 0: endbr64
  .test (.reg .rdx) (.reg .rdx), -- 1: test rdx, rdx
  .jcc .zr 26, -- 2: jz @2f
  .test (.reg .rcx) (.reg .rcx), -- 3: test rcx, rcx
  .jcc .zr 26, -- 4: jz @2f
  .mov (.reg .rax) (.reg .rdi), -- 5: mov rax, rdi
  .mov (.reg .r9) (.reg .rcx), -- 6: mov r9, rcx
  .mov (.mem ⟨some .rax, none, 0#64⟩) (.imm 0#64), -- 7: mov QWORD PTR [rax], 0
  .add (.reg .rax) (.imm 8#64), -- 8: add rax, 8
  .dec (.reg .r9), -- 9: dec r9
  .jcc .nz 7, -- 10: jnz @3b
  .mov (.reg .r9) (.imm 0#64), -- 11: mov r9, 0
  .mov (.reg .rax) (.reg .rsi), -- 12: mov rax, rsi
  .mov (.reg .r10) (.imm 0#64), -- 13: mov r10, 0
  .xor (.reg .r11) (.reg .r11), -- 14: xor r11, r11
  .cmp (.reg .r9) (.reg .r8), -- 15: cmp r9, r8
  .cmov .zr .r11 (.mem ⟨some .rax, some (.r10, 8#64), 0#64⟩), -- 16: cmove r11, [rax + 8 * r10]
  .or (.mem ⟨some .rdi, some (.r10, 8#64), 0#64⟩) (.reg .r11), -- 17: or [rdi+ 8 * r10], r11
  .inc (.reg .r10), -- 18: inc r10
  .cmp (.reg .r10) (.reg .rcx), -- 19: cmp r10, rcx
  .jcc .nz 14, -- 20: jne @5b
  .lea .r10 ⟨none, some (.rcx, 8#64), 0#64⟩, -- 21: lea r10, [rcx* 8]
  .add (.reg .rax) (.reg .r10), -- 22: add rax, r10
  .inc (.reg .r9), -- 23: inc r9
  .cmp (.reg .r9) (.reg .rdx), -- 24: cmp r9, rdx
  .jcc .nz 13] -- 25: jne @4b

/-- The registers that the operands of bignum_copy_row_from_table.rs:72-125 say may change. -/
def bignumCopyRowFromTableRegs : List Reg := [.rdi, .rsi, .rdx, .rcx, .r8, .r10, .r11, .r9, .rax]

end Verif.X86.Asm
