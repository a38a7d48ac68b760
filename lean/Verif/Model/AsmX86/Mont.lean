import Verif.Model.X86

/-!
Generated by tools/gen_asm.py from `graviola/src/low/x86_64`: the `asm!` blocks as lists of instructions.
The comment at the end of a line gives its position; jump targets are positions.
-/
namespace Verif.X86.Asm
open Verif.X86

/-- low/x86_64/bignum_negmodinv.rs:106-243.  Operands: inout("rdi") z.len() => _; inout("rsi") z.as_mut_ptr() => _; inout("rdx") x.as_ptr() => _; out("r10") _; out("r11") _; out("r12") _; out("r8") _; out("r9") _; out("rax") _; out("rcx") _. -/
def bignumNegmodinv : Prog := [
  .nop, -- 0: endbr64
  .push .rbx, -- 1: push rbx
  .push .r12, -- 2: push r12
  .test (.reg .rdi) (.reg .rdi), -- 3: test rdi, rdi
  .jcc .zr 78, -- 4: jz @2f
  .mov (.reg .rcx) (.reg .rdx), -- 5: mov rcx, rdx
  .mov (.reg .rax) (.mem ⟨some .rcx, none, 0#64⟩), -- 6: mov rax, [rcx]
  .mov (.reg .rdx) (.reg .rax), -- 7: mov rdx, rax
  .mov (.reg .r11) (.reg .rax), -- 8: mov r11, rax
  .shl (.reg .rdx) (.imm 2#64), -- 9: shl rdx, 2
  .sub (.reg .r11) (.reg .rdx), -- 10: sub r11, rdx
  .xor (.reg .r11) (.imm 2#64), -- 11: xor r11, 2
  .mov (.reg .rdx) (.reg .r11), -- 12: mov rdx, r11
  .imul .rdx (.reg .rax), -- 13: imul rdx, rax
  .mov (.reg .rax) (.imm 2#64), -- 14: mov eax, 2
  .add (.reg .rax) (.reg .rdx), -- 15: add rax, rdx
  .add (.reg .rdx) (.imm 1#64), -- 16: add rdx, 1
  .imul .r11 (.reg .rax), -- 17: imul r11, rax
  .imul .rdx (.reg .rdx), -- 18: imul rdx, rdx
  .mov (.reg .rax) (.imm 1#64), -- 19: mov eax, 1
  .add (.reg .rax) (.reg .rdx), -- 20: add rax, rdx
  .imul .r11 (.reg .rax), -- 21: imul r11, rax
  .imul .rdx (.reg .rdx), -- 22: imul rdx, rdx
  .mov (.reg .rax) (.imm 1#64), -- 23: mov eax, 1
  .add (.reg .rax) (.reg .rdx), -- 24: add rax, rdx
  .imul .r11 (.reg .rax), -- 25: imul r11, rax
  .imul .rdx (.reg .rdx), -- 26: imul rdx, rdx
  .mov (.reg .rax) (.imm 1#64), -- 27: mov eax, 1
  .add (.reg .rax) (.reg .rdx), -- 28: add rax, rdx
  .imul .r11 (.reg .rax), -- 29: imul r11, rax
  .mov (.mem ⟨some .rsi, none, 0#64⟩) (.reg .r11), -- 30: mov [rsi], r11
  .cmp (.reg .rdi) (.imm 1#64), -- 31: cmp rdi, 1
  .jcc .zr 78, -- 32: jz @2f
  .mov (.reg .rax) (.mem ⟨some .rcx, none, 0#64⟩), -- 33: mov rax, [rcx]
  .xor (.reg .r10) (.reg .r10), -- 34: xor r10, r10
  .mul (.reg .r11), -- 35: mul r11
  .add (.reg .rax) (.imm 1#64), -- 36: add rax, 1
  .adc (.reg .r10) (.reg .rdx), -- 37: adc r10, rdx
  .mov (.reg .r8) (.imm 1#64), -- 38: mov r8d, 1
  .mov (.reg .rax) (.mem ⟨some .rcx, some (.r8, 8#64), 0#64⟩), -- 39: mov rax, [rcx+ 8 * r8]
  .mul (.reg .r11), -- 40: mul r11
  .add (.reg .rax) (.reg .r10), -- 41: add rax, r10
  .adc (.reg .rdx) (.imm 0#64), -- 42: adc rdx, 0
  .mov (.mem ⟨some .rsi, some (.r8, 8#64), 0#64⟩) (.reg .rax), -- 43: mov [rsi+ 8 * r8], rax
  .mov (.reg .r10) (.reg .rdx), -- 44: mov r10, rdx
  .inc (.reg .r8), -- 45: inc r8
  .cmp (.reg .r8) (.reg .rdi), -- 46: cmp r8, rdi
  .jcc .cy 39, -- 47: jc @3b
  .sub (.reg .rdi) (.imm 2#64), -- 48: sub rdi, 2
  .jcc .zr 75, -- 49: jz @4f
  .add (.reg .rsi) (.imm 8#64), -- 50: add rsi, 8
  .mov (.reg .r10) (.mem ⟨some .rsi, none, 0#64⟩), -- 51: mov r10, [rsi]
  .mov (.reg .r9) (.reg .r11), -- 52: mov r9, r11
  .imul .r9 (.reg .r10), -- 53: imul r9, r10
  .mov (.mem ⟨some .rsi, none, 0#64⟩) (.reg .r9), -- 54: mov [rsi], r9
  .mov (.reg .rax) (.mem ⟨some .rcx, none, 0#64⟩), -- 55: mov rax, [rcx]
  .mul (.reg .r9), -- 56: mul r9
  .add (.reg .rax) (.reg .r10), -- 57: add rax, r10
  .adc (.reg .rdx) (.imm 0#64), -- 58: adc rdx, 0
  .mov (.reg .r10) (.reg .rdx), -- 59: mov r10, rdx
  .mov (.reg .r8) (.imm 1#64), -- 60: mov r8d, 1
  .mov (.reg .r12) (.reg .rdi), -- 61: mov r12, rdi
  .adc (.reg .r10) (.mem ⟨some .rsi, some (.r8, 8#64), 0#64⟩), -- 62: adc r10, [rsi+ 8 * r8]
  .sbb (.reg .rbx) (.reg .rbx), -- 63: sbb rbx, rbx
  .mov (.reg .rax) (.mem ⟨some .rcx, some (.r8, 8#64), 0#64⟩), -- 64: mov rax, [rcx+ 8 * r8]
  .mul (.reg .r9), -- 65: mul r9
  .sub (.reg .rdx) (.reg .rbx), -- 66: sub rdx, rbx
  .add (.reg .rax) (.reg .r10), -- 67: add rax, r10
  .mov (.mem ⟨some .rsi, some (.r8, 8#64), 0#64⟩) (.reg .rax), -- 68: mov [rsi+ 8 * r8], rax
  .mov (.reg .r10) (.reg .rdx), -- 69: mov r10, rdx
  .inc (.reg .r8), -- 70: inc r8
  .dec (.reg .r12), -- 71: dec r12
  .jcc .nz 62, -- 72: jnz @6b
  .dec (.reg .rdi), -- 73: dec rdi
  .jcc .nz 50, -- 74: jnz @5b
  .mov (.reg .rax) (.mem ⟨some .rsi, none, 8#64⟩), -- 75: mov rax, [rsi+ 8]
  .imul .rax (.reg .r11), -- 76: imul rax, r11
  .mov (.mem ⟨some .rsi, none, 8#64⟩) (.reg .rax), -- 77: mov [rsi+ 8], rax
  .pop .r12, -- 78: pop r12
  .pop .rbx] -- 79: pop rbx

/-- The registers that the operands of bignum_negmodinv.rs:106-243 say may change. -/
def bignumNegmodinvRegs : List Reg := [.rdi, .rsi, .rdx, .r10, .r11, .r12, .r8, .r9, .rax, .rcx]

/-- low/x86_64/bignum_mul.rs:106-208.  Operands: inout("rdi") z.len() => _; inout("rsi") z.as_mut_ptr() => _; inout("rdx") x.len() => _; inout("rcx") x.as_ptr() => _; inout("r8") y.len() => _; inout("r9") y.as_ptr() => _; out("r10") _; out("r11") _; out("r12") _; out("r13") _; out("r14") _; out("r15") _; out("rax") _. -/
def bignumMul : Prog := [
  .nop, -- 0: endbr64
  .push .rbx, -- 1: push rbx
  .push .rbp, -- 2: push rbp
  .push .r12, -- 3: push r12
  .push .r13, -- 4: push r13
  .push .r14, -- 5: push r14
  .push .r15, -- 6: push r15
  .mov (.reg .rbp) (.reg .rdx), -- 7: mov rbp, rdx
  .test (.reg .rdi) (.reg .rdi), -- 8: test rdi, rdi
  .jcc .zr 41, -- 9: jz @2f
  .xor (.reg .r14) (.reg .r14), -- 10: xor r14, r14
  .xor (.reg .r13) (.reg .r13), -- 11: xor r13, r13
  .xor (.reg .r10) (.reg .r10), -- 12: xor r10, r10
  .xor (.reg .r15) (.reg .r15), -- 13: xor r15, r15
  .inc (.reg .r10), -- 14: inc r10
  .mov (.reg .rax) (.reg .r10), -- 15: mov rax, r10
  .sub (.reg .rax) (.reg .r8), -- 16: sub rax, r8
  .cmov .cy .rax (.reg .r15), -- 17: cmovc rax, r15
  .mov (.reg .rbx) (.reg .rbp), -- 18: mov rbx, rbp
  .cmp (.reg .r10) (.reg .rbp), -- 19: cmp r10, rbp
  .cmov .cy .rbx (.reg .r10), -- 20: cmovc rbx, r10
  .mov (.reg .rdx) (.reg .r10), -- 21: mov rdx, r10
  .sub (.reg .rdx) (.reg .rbx), -- 22: sub rdx, rbx
  .sub (.reg .rbx) (.reg .rax), -- 23: sub rbx, rax
  .jcc .be 35, -- 24: jbe @4f
  .lea .r12 ⟨some .rcx, some (.rax, 8#64), 0#64⟩, -- 25: lea r12, [rcx + 8 * rax]
  .lea .r11 ⟨some .r9, some (.rdx, 8#64), 0xfffffffffffffff8#64⟩, -- 26: lea r11, [r9 + 8 * rdx-8]
  .mov (.reg .rax) (.mem ⟨some .r11, some (.rbx, 8#64), 0#64⟩), -- 27: mov rax, [r11+ 8 * rbx]
  .mul (.mem ⟨some .r12, none, 0#64⟩), -- 28: mul QWORD PTR [r12]
  .add (.reg .r12) (.imm 8#64), -- 29: add r12, 8
  .add (.reg .r13) (.reg .rax), -- 30: add r13, rax
  .adc (.reg .r14) (.reg .rdx), -- 31: adc r14, rdx
  .adc (.reg .r15) (.imm 0#64), -- 32: adc r15, 0
  .dec (.reg .rbx), -- 33: dec rbx
  .jcc .nz 27, -- 34: jnz @5b
  .mov (.mem ⟨some .rsi, none, 0#64⟩) (.reg .r13), -- 35: mov [rsi], r13
  .mov (.reg .r13) (.reg .r14), -- 36: mov r13, r14
  .mov (.reg .r14) (.reg .r15), -- 37: mov r14, r15
  .add (.reg .rsi) (.imm 8#64), -- 38: add rsi, 8
  .cmp (.reg .r10) (.reg .rdi), -- 39: cmp r10, rdi
  .jcc .cy 13, -- 40: jc @3b
  .pop .r15, -- 41: pop r15
  .pop .r14, -- 42: pop r14
  .pop .r13, -- 43: pop r13
  .pop .r12, -- 44: pop r12
  .pop .rbp, -- 45: pop rbp
  .pop .rbx] -- 46: pop rbx

/-- The registers that the operands of bignum_mul.rs:106-208 say may change. -/
def bignumMulRegs : List Reg := [.rdi, .rsi, .rdx, .rcx, .r8, .r9, .r10, .r11, .r12, .r13, .r14, .r15, .rax]

/-- low/x86_64/bignum_demont.rs:127-271.  Operands: inout("rdi") m.len() => _; inout("rsi") z.as_mut_ptr() => _; inout("rdx") x.as_ptr() => _; inout("rcx") m.as_ptr() => _; out("r10") _; out("r11") _; out("r12") _; out("r8") _; out("r9") _; out("rax") _. -/
def bignumDemont : Prog := [
  .nop, -- 0: endbr64
  .push .rbx, -- 1: push rbx
  .push .rbp, -- 2: push rbp
  .push .r12, -- 3: push r12
  .test (.reg .rdi) (.reg .rdi), -- 4: test rdi, rdi
  .jcc .zr 83, -- 5: jz @2f
  .mov (.reg .rax) (.mem ⟨some .rcx, none, 0#64⟩), -- 6: mov rax, [rcx]
  .mov (.reg .rbx) (.reg .rax), -- 7: mov rbx, rax
  .mov (.reg .r8) (.reg .rax), -- 8: mov r8, rax
  .shl (.reg .rbx) (.imm 2#64), -- 9: shl rbx, 2
  .sub (.reg .r8) (.reg .rbx), -- 10: sub r8, rbx
  .xor (.reg .r8) (.imm 2#64), -- 11: xor r8, 2
  .mov (.reg .rbx) (.reg .r8), -- 12: mov rbx, r8
  .imul .rbx (.reg .rax), -- 13: imul rbx, rax
  .mov (.reg .rax) (.imm 2#64), -- 14: mov eax, 2
  .add (.reg .rax) (.reg .rbx), -- 15: add rax, rbx
  .add (.reg .rbx) (.imm 1#64), -- 16: add rbx, 1
  .imul .r8 (.reg .rax), -- 17: imul r8, rax
  .imul .rbx (.reg .rbx), -- 18: imul rbx, rbx
  .mov (.reg .rax) (.imm 1#64), -- 19: mov eax, 1
  .add (.reg .rax) (.reg .rbx), -- 20: add rax, rbx
  .imul .r8 (.reg .rax), -- 21: imul r8, rax
  .imul .rbx (.reg .rbx), -- 22: imul rbx, rbx
  .mov (.reg .rax) (.imm 1#64), -- 23: mov eax, 1
  .add (.reg .rax) (.reg .rbx), -- 24: add rax, rbx
  .imul .r8 (.reg .rax), -- 25: imul r8, rax
  .imul .rbx (.reg .rbx), -- 26: imul rbx, rbx
  .mov (.reg .rax) (.imm 1#64), -- 27: mov eax, 1
  .add (.reg .rax) (.reg .rbx), -- 28: add rax, rbx
  .imul .r8 (.reg .rax), -- 29: imul r8, rax
  .xor (.reg .rbx) (.reg .rbx), -- 30: xor rbx, rbx
  .mov (.reg .rax) (.mem ⟨some .rdx, some (.rbx, 8#64), 0#64⟩), -- 31: mov rax, [rdx+ 8 * rbx]
  .mov (.mem ⟨some .rsi, some (.rbx, 8#64), 0#64⟩) (.reg .rax), -- 32: mov [rsi+ 8 * rbx], rax
  .inc (.reg .rbx), -- 33: inc rbx
  .cmp (.reg .rbx) (.reg .rdi), -- 34: cmp rbx, rdi
  .jcc .cy 31, -- 35: jc @3b
  .xor (.reg .r9) (.reg .r9), -- 36: xor r9, r9
  .mov (.reg .r11) (.mem ⟨some .rsi, none, 0#64⟩), -- 37: mov r11, [rsi]
  .mov (.reg .rbp) (.reg .r8), -- 38: mov rbp, r8
  .imul .rbp (.reg .r11), -- 39: imul rbp, r11
  .mov (.reg .rax) (.mem ⟨some .rcx, none, 0#64⟩), -- 40: mov rax, [rcx]
  .mul (.reg .rbp), -- 41: mul rbp
  .add (.reg .rax) (.reg .r11), -- 42: add rax, r11
  .mov (.reg .r10) (.reg .rdx), -- 43: mov r10, rdx
  .mov (.reg .rbx) (.imm 1#64), -- 44: mov ebx, 1
  .mov (.reg .r12) (.reg .rdi), -- 45: mov r12, rdi
  .dec (.reg .r12), -- 46: dec r12
  .jcc .zr 59, -- 47: jz @5f
  .adc (.reg .r10) (.mem ⟨some .rsi, some (.rbx, 8#64), 0#64⟩), -- 48: adc r10, [rsi+ 8 * rbx]
  .sbb (.reg .r11) (.reg .r11), -- 49: sbb r11, r11
  .mov (.reg .rax) (.mem ⟨some .rcx, some (.rbx, 8#64), 0#64⟩), -- 50: mov rax, [rcx+ 8 * rbx]
  .mul (.reg .rbp), -- 51: mul rbp
  .sub (.reg .rdx) (.reg .r11), -- 52: sub rdx, r11
  .add (.reg .rax) (.reg .r10), -- 53: add rax, r10
  .mov (.mem ⟨some .rsi, some (.rbx, 8#64), 0xfffffffffffffff8#64⟩) (.reg .rax), -- 54: mov [rsi+ 8 * rbx-8], rax
  .mov (.reg .r10) (.reg .rdx), -- 55: mov r10, rdx
  .inc (.reg .rbx), -- 56: inc rbx
  .dec (.reg .r12), -- 57: dec r12
  .jcc .nz 48, -- 58: jnz @6b
  .adc (.reg .r10) (.imm 0#64), -- 59: adc r10, 0
  .mov (.mem ⟨some .rsi, some (.rbx, 8#64), 0xfffffffffffffff8#64⟩) (.reg .r10), -- 60: mov [rsi+ 8 * rbx-8], r10
  .inc (.reg .r9), -- 61: inc r9
  .cmp (.reg .r9) (.reg .rdi), -- 62: cmp r9, rdi
  .jcc .cy 37, -- 63: jc @4b
  .xor (.reg .rbx) (.reg .rbx), -- 64: xor rbx, rbx
  .mov (.reg .r12) (.reg .rdi), -- 65: mov r12, rdi
  .mov (.reg .rax) (.mem ⟨some .rsi, some (.rbx, 8#64), 0#64⟩), -- 66: mov rax, [rsi+ 8 * rbx]
  .sbb (.reg .rax) (.mem ⟨some .rcx, some (.rbx, 8#64), 0#64⟩), -- 67: sbb rax, [rcx+ 8 * rbx]
  .inc (.reg .rbx), -- 68: inc rbx
  .dec (.reg .r12), -- 69: dec r12
  .jcc .nz 66, -- 70: jnz @7b
  .sbb (.reg .rbp) (.reg .rbp), -- 71: sbb rbp, rbp
  .not (.reg .rbp), -- 72: not rbp
  .xor (.reg .r11) (.reg .r11), -- 73: xor r11, r11
  .xor (.reg .rbx) (.reg .rbx), -- 74: xor rbx, rbx
  .mov (.reg .rax) (.mem ⟨some .rcx, some (.rbx, 8#64), 0#64⟩), -- 75: mov rax, [rcx+ 8 * rbx]
  .and (.reg .rax) (.reg .rbp), -- 76: and rax, rbp
  .neg (.reg .r11), -- 77: neg r11
  .sbb (.mem ⟨some .rsi, some (.rbx, 8#64), 0#64⟩) (.reg .rax), -- 78: sbb [rsi+ 8 * rbx], rax
  .sbb (.reg .r11) (.reg .r11), -- 79: sbb r11, r11
  .inc (.reg .rbx), -- 80: inc rbx
  .cmp (.reg .rbx) (.reg .rdi), -- 81: cmp rbx, rdi
  .jcc .cy 75, -- 82: jc @8b
  .pop .r12, -- 83: pop r12
  .pop .rbp, -- 84: pop rbp
  .pop .rbx] -- 85: pop rbx

/-- The registers that the operands of bignum_demont.rs:127-271 say may change. -/
def bignumDemontRegs : List Reg := [.rdi, .rsi, .rdx, .rcx, .r10, .r11, .r12, .r8, .r9, .rax]

/-- low/x86_64/bignum_montmul.rs:152-345.  Operands: inout("rdi") m.len() => _; inout("rsi") z.as_mut_ptr() => _; inout("rdx") x.as_ptr() => _; inout("rcx") y.as_ptr() => _; inout("r8") m.as_ptr() => _; out("r10") _; out("r11") _; out("r12") _; out("r13") _; out("r14") _; out("r15") _; out("r9") _; out("rax") _. -/
def bignumMontmul : Prog := [
  .nop, -- 0: endbr64
  .push .rbx, -- 1: push rbx
  .push .rbp, -- 2: push rbp
  .push .r12, -- 3: push r12
  .push .r13, -- 4: push r13
  .push .r14, -- 5: push r14
  .push .r15, -- 6: push r15
  .sub (.reg .rsp) (.imm 8#64), -- 7: sub rsp, 8
  .test (.reg .rdi) (.reg .rdi), -- 8: test rdi, rdi
  .jcc .zr 110, -- 9: jz @2f
  .mov (.reg .r9) (.reg .rdx), -- 10: mov r9, rdx
  .mov (.reg .rax) (.mem ⟨some .r8, none, 0#64⟩), -- 11: mov rax, [r8]
  .mov (.reg .rdx) (.reg .rax), -- 12: mov rdx, rax
  .mov (.reg .rbx) (.reg .rax), -- 13: mov rbx, rax
  .shl (.reg .rdx) (.imm 2#64), -- 14: shl rdx, 2
  .sub (.reg .rbx) (.reg .rdx), -- 15: sub rbx, rdx
  .xor (.reg .rbx) (.imm 2#64), -- 16: xor rbx, 2
  .mov (.reg .rdx) (.reg .rbx), -- 17: mov rdx, rbx
  .imul .rdx (.reg .rax), -- 18: imul rdx, rax
  .mov (.reg .rax) (.imm 2#64), -- 19: mov eax, 2
  .add (.reg .rax) (.reg .rdx), -- 20: add rax, rdx
  .add (.reg .rdx) (.imm 1#64), -- 21: add rdx, 1
  .imul .rbx (.reg .rax), -- 22: imul rbx, rax
  .imul .rdx (.reg .rdx), -- 23: imul rdx, rdx
  .mov (.reg .rax) (.imm 1#64), -- 24: mov eax, 1
  .add (.reg .rax) (.reg .rdx), -- 25: add rax, rdx
  .imul .rbx (.reg .rax), -- 26: imul rbx, rax
  .imul .rdx (.reg .rdx), -- 27: imul rdx, rdx
  .mov (.reg .rax) (.imm 1#64), -- 28: mov eax, 1
  .add (.reg .rax) (.reg .rdx), -- 29: add rax, rdx
  .imul .rbx (.reg .rax), -- 30: imul rbx, rax
  .imul .rdx (.reg .rdx), -- 31: imul rdx, rdx
  .mov (.reg .rax) (.imm 1#64), -- 32: mov eax, 1
  .add (.reg .rax) (.reg .rdx), -- 33: add rax, rdx
  .imul .rbx (.reg .rax), -- 34: imul rbx, rax
  .mov (.mem ⟨some .rsp, none, 0#64⟩) (.reg .rbx), -- 35: mov QWORD PTR [rsp], rbx
  .xor (.reg .r13) (.reg .r13), -- 36: xor r13, r13
  .xor (.reg .rbx) (.reg .rbx), -- 37: xor rbx, rbx
  .mov (.mem ⟨some .rsi, some (.rbx, 8#64), 0#64⟩) (.reg .r13), -- 38: mov [rsi+ 8 * rbx], r13
  .inc (.reg .rbx), -- 39: inc rbx
  .cmp (.reg .rbx) (.reg .rdi), -- 40: cmp rbx, rdi
  .jcc .cy 38, -- 41: jc @3b
  .xor (.reg .r14) (.reg .r14), -- 42: xor r14, r14
  .mov (.reg .rbp) (.mem ⟨some .r9, some (.r13, 8#64), 0#64⟩), -- 43: mov rbp, [r9+ 8 * r13]
  .xor (.reg .rbx) (.reg .rbx), -- 44: xor rbx, rbx
  .xor (.reg .r10) (.reg .r10), -- 45: xor r10, r10
  .xor (.reg .r15) (.reg .r15), -- 46: xor r15, r15
  .mov (.reg .r12) (.reg .rdi), -- 47: mov r12, rdi
  .adc (.reg .r10) (.mem ⟨some .rsi, some (.rbx, 8#64), 0#64⟩), -- 48: adc r10, [rsi+ 8 * rbx]
  .sbb (.reg .r11) (.reg .r11), -- 49: sbb r11, r11
  .mov (.reg .rax) (.mem ⟨some .rcx, some (.rbx, 8#64), 0#64⟩), -- 50: mov rax, [rcx+ 8 * rbx]
  .mul (.reg .rbp), -- 51: mul rbp
  .sub (.reg .rdx) (.reg .r11), -- 52: sub rdx, r11
  .add (.reg .rax) (.reg .r10), -- 53: add rax, r10
  .mov (.mem ⟨some .rsi, some (.rbx, 8#64), 0#64⟩) (.reg .rax), -- 54: mov [rsi+ 8 * rbx], rax
  .mov (.reg .r10) (.reg .rdx), -- 55: mov r10, rdx
  .inc (.reg .rbx), -- 56: inc rbx
  .dec (.reg .r12), -- 57: dec r12
  .jcc .nz 48, -- 58: jnz @5b
  .adc (.reg .r14) (.reg .r10), -- 59: adc r14, r10
  .adc (.reg .r15) (.reg .r15), -- 60: adc r15, r15
  .mov (.reg .r11) (.mem ⟨some .rsi, none, 0#64⟩), -- 61: mov r11, [rsi]
  .mov (.reg .rbp) (.mem ⟨some .rsp, none, 0#64⟩), -- 62: mov rbp, QWORD PTR [rsp]
  .imul .rbp (.reg .r11), -- 63: imul rbp, r11
  .mov (.reg .rax) (.mem ⟨some .r8, none, 0#64⟩), -- 64: mov rax, [r8]
  .mul (.reg .rbp), -- 65: mul rbp
  .add (.reg .rax) (.reg .r11), -- 66: add rax, r11
  .mov (.reg .r10) (.reg .rdx), -- 67: mov r10, rdx
  .mov (.reg .rbx) (.imm 1#64), -- 68: mov ebx, 1
  .mov (.reg .r12) (.reg .rdi), -- 69: mov r12, rdi
  .dec (.reg .r12), -- 70: dec r12
  .jcc .zr 83, -- 71: jz @6f
  .adc (.reg .r10) (.mem ⟨some .rsi, some (.rbx, 8#64), 0#64⟩), -- 72: adc r10, [rsi+ 8 * rbx]
  .sbb (.reg .r11) (.reg .r11), -- 73: sbb r11, r11
  .mov (.reg .rax) (.mem ⟨some .r8, some (.rbx, 8#64), 0#64⟩), -- 74: mov rax, [r8+ 8 * rbx]
  .mul (.reg .rbp), -- 75: mul rbp
  .sub (.reg .rdx) (.reg .r11), -- 76: sub rdx, r11
  .add (.reg .rax) (.reg .r10), -- 77: add rax, r10
  .mov (.mem ⟨some .rsi, some (.rbx, 8#64), 0xfffffffffffffff8#64⟩) (.reg .rax), -- 78: mov [rsi+ 8 * rbx-8], rax
  .mov (.reg .r10) (.reg .rdx), -- 79: mov r10, rdx
  .inc (.reg .rbx), -- 80: inc rbx
  .dec (.reg .r12), -- 81: dec r12
  .jcc .nz 72, -- 82: jnz @7b
  .adc (.reg .r10) (.reg .r14), -- 83: adc r10, r14
  .adc (.reg .r15) (.imm 0#64), -- 84: adc r15, 0
  .mov (.reg .r14) (.reg .r15), -- 85: mov r14, r15
  .mov (.mem ⟨some .rsi, some (.rbx, 8#64), 0xfffffffffffffff8#64⟩) (.reg .r10), -- 86: mov [rsi+ 8 * rbx-8], r10
  .inc (.reg .r13), -- 87: inc r13
  .cmp (.reg .r13) (.reg .rdi), -- 88: cmp r13, rdi
  .jcc .cy 43, -- 89: jc @4b
  .xor (.reg .rbx) (.reg .rbx), -- 90: xor rbx, rbx
  .mov (.reg .r12) (.reg .rdi), -- 91: mov r12, rdi
  .mov (.reg .rax) (.mem ⟨some .rsi, some (.rbx, 8#64), 0#64⟩), -- 92: mov rax, [rsi+ 8 * rbx]
  .sbb (.reg .rax) (.mem ⟨some .r8, some (.rbx, 8#64), 0#64⟩), -- 93: sbb rax, [r8+ 8 * rbx]
  .inc (.reg .rbx), -- 94: inc rbx
  .dec (.reg .r12), -- 95: dec r12
  .jcc .nz 92, -- 96: jnz @8b
  .sbb (.reg .r14) (.imm 0#64), -- 97: sbb r14, 0
  .sbb (.reg .rbp) (.reg .rbp), -- 98: sbb rbp, rbp
  .not (.reg .rbp), -- 99: not rbp
  .xor (.reg .r11) (.reg .r11), -- 100: xor r11, r11
  .xor (.reg .rbx) (.reg .rbx), -- 101: xor rbx, rbx
  .mov (.reg .rax) (.mem ⟨some .r8, some (.rbx, 8#64), 0#64⟩), -- 102: mov rax, [r8+ 8 * rbx]
  .and (.reg .rax) (.reg .rbp), -- 103: and rax, rbp
  .neg (.reg .r11), -- 104: neg r11
  .sbb (.mem ⟨some .rsi, some (.rbx, 8#64), 0#64⟩) (.reg .rax), -- 105: sbb [rsi+ 8 * rbx], rax
  .sbb (.reg .r11) (.reg .r11), -- 106: sbb r11, r11
  .inc (.reg .rbx), -- 107: inc rbx
  .cmp (.reg .rbx) (.reg .rdi), -- 108: cmp rbx, rdi
  .jcc .cy 102, -- 109: jc @9b
  .add (.reg .rsp) (.imm 8#64), -- 110: add rsp, 8
  .pop .r15, -- 111: pop r15
  .pop .r14, -- 112: pop r14
  .pop .r13, -- 113: pop r13
  .pop .r12, -- 114: pop r12
  .pop .rbp, -- 115: pop rbp
  .pop .rbx] -- 116: pop rbx

/-- The registers that the operands of bignum_montmul.rs:152-345 say may change. -/
def bignumMontmulRegs : List Reg := [.rdi, .rsi, .rdx, .rcx, .r8, .r10, .r11, .r12, .r13, .r14, .r15, .r9, .rax]

/-- low/x86_64/bignum_montsqr.rs:136-325.  Operands: inout("rdi") z.len() => _; inout("rsi") z.as_mut_ptr() => _; inout("rdx") x.as_ptr() => _; inout("rcx") m.as_ptr() => _; out("r10") _; out("r11") _; out("r12") _; out("r13") _; out("r14") _; out("r15") _; out("r8") _; out("r9") _; out("rax") _. -/
def bignumMontsqr : Prog := [
  .nop, -- 0: endbr64
  .push .rbx, -- 1: push rbx
  .push .rbp, -- 2: push rbp
  .push .r12, -- 3: push r12
  .push .r13, -- 4: push r13
  .push .r14, -- 5: push r14
  .push .r15, -- 6: push r15
  .test (.reg .rdi) (.reg .rdi), -- 7: test rdi, rdi
  .jcc .zr 108, -- 8: jz @2f
  .mov (.reg .r9) (.reg .rdx), -- 9: mov r9, rdx
  .mov (.reg .rax) (.mem ⟨some .rcx, none, 0#64⟩), -- 10: mov rax, [rcx]
  .mov (.reg .rdx) (.reg .rax), -- 11: mov rdx, rax
  .mov (.reg .r8) (.reg .rax), -- 12: mov r8, rax
  .shl (.reg .rdx) (.imm 2#64), -- 13: shl rdx, 2
  .sub (.reg .r8) (.reg .rdx), -- 14: sub r8, rdx
  .xor (.reg .r8) (.imm 2#64), -- 15: xor r8, 2
  .mov (.reg .rdx) (.reg .r8), -- 16: mov rdx, r8
  .imul .rdx (.reg .rax), -- 17: imul rdx, rax
  .mov (.reg .rax) (.imm 2#64), -- 18: mov eax, 2
  .add (.reg .rax) (.reg .rdx), -- 19: add rax, rdx
  .add (.reg .rdx) (.imm 1#64), -- 20: add rdx, 1
  .imul .r8 (.reg .rax), -- 21: imul r8, rax
  .imul .rdx (.reg .rdx), -- 22: imul rdx, rdx
  .mov (.reg .rax) (.imm 1#64), -- 23: mov eax, 1
  .add (.reg .rax) (.reg .rdx), -- 24: add rax, rdx
  .imul .r8 (.reg .rax), -- 25: imul r8, rax
  .imul .rdx (.reg .rdx), -- 26: imul rdx, rdx
  .mov (.reg .rax) (.imm 1#64), -- 27: mov eax, 1
  .add (.reg .rax) (.reg .rdx), -- 28: add rax, rdx
  .imul .r8 (.reg .rax), -- 29: imul r8, rax
  .imul .rdx (.reg .rdx), -- 30: imul rdx, rdx
  .mov (.reg .rax) (.imm 1#64), -- 31: mov eax, 1
  .add (.reg .rax) (.reg .rdx), -- 32: add rax, rdx
  .imul .r8 (.reg .rax), -- 33: imul r8, rax
  .xor (.reg .r13) (.reg .r13), -- 34: xor r13, r13
  .xor (.reg .rbx) (.reg .rbx), -- 35: xor rbx, rbx
  .mov (.mem ⟨some .rsi, some (.rbx, 8#64), 0#64⟩) (.reg .r13), -- 36: mov [rsi+ 8 * rbx], r13
  .inc (.reg .rbx), -- 37: inc rbx
  .cmp (.reg .rbx) (.reg .rdi), -- 38: cmp rbx, rdi
  .jcc .cy 36, -- 39: jc @3b
  .xor (.reg .r14) (.reg .r14), -- 40: xor r14, r14
  .mov (.reg .rbp) (.mem ⟨some .r9, some (.r13, 8#64), 0#64⟩), -- 41: mov rbp, [r9+ 8 * r13]
  .xor (.reg .rbx) (.reg .rbx), -- 42: xor rbx, rbx
  .xor (.reg .r10) (.reg .r10), -- 43: xor r10, r10
  .xor (.reg .r15) (.reg .r15), -- 44: xor r15, r15
  .mov (.reg .r12) (.reg .rdi), -- 45: mov r12, rdi
  .adc (.reg .r10) (.mem ⟨some .rsi, some (.rbx, 8#64), 0#64⟩), -- 46: adc r10, [rsi+ 8 * rbx]
  .sbb (.reg .r11) (.reg .r11), -- 47: sbb r11, r11
  .mov (.reg .rax) (.mem ⟨some .r9, some (.rbx, 8#64), 0#64⟩), -- 48: mov rax, [r9+ 8 * rbx]
  .mul (.reg .rbp), -- 49: mul rbp
  .sub (.reg .rdx) (.reg .r11), -- 50: sub rdx, r11
  .add (.reg .rax) (.reg .r10), -- 51: add rax, r10
  .mov (.mem ⟨some .rsi, some (.rbx, 8#64), 0#64⟩) (.reg .rax), -- 52: mov [rsi+ 8 * rbx], rax
  .mov (.reg .r10) (.reg .rdx), -- 53: mov r10, rdx
  .inc (.reg .rbx), -- 54: inc rbx
  .dec (.reg .r12), -- 55: dec r12
  .jcc .nz 46, -- 56: jnz @5b
  .adc (.reg .r14) (.reg .r10), -- 57: adc r14, r10
  .adc (.reg .r15) (.reg .r15), -- 58: adc r15, r15
  .mov (.reg .r11) (.mem ⟨some .rsi, none, 0#64⟩), -- 59: mov r11, [rsi]
  .mov (.reg .rbp) (.reg .r8), -- 60: mov rbp, r8
  .imul .rbp (.reg .r11), -- 61: imul rbp, r11
  .mov (.reg .rax) (.mem ⟨some .rcx, none, 0#64⟩), -- 62: mov rax, [rcx]
  .mul (.reg .rbp), -- 63: mul rbp
  .add (.reg .rax) (.reg .r11), -- 64: add rax, r11
  .mov (.reg .r10) (.reg .rdx), -- 65: mov r10, rdx
  .mov (.reg .rbx) (.imm 1#64), -- 66: mov ebx, 1
  .mov (.reg .r12) (.reg .rdi), -- 67: mov r12, rdi
  .dec (.reg .r12), -- 68: dec r12
  .jcc .zr 81, -- 69: jz @6f
  .adc (.reg .r10) (.mem ⟨some .rsi, some (.rbx, 8#64), 0#64⟩), -- 70: adc r10, [rsi+ 8 * rbx]
  .sbb (.reg .r11) (.reg .r11), -- 71: sbb r11, r11
  .mov (.reg .rax) (.mem ⟨some .rcx, some (.rbx, 8#64), 0#64⟩), -- 72: mov rax, [rcx+ 8 * rbx]
  .mul (.reg .rbp), -- 73: mul rbp
  .sub (.reg .rdx) (.reg .r11), -- 74: sub rdx, r11
  .add (.reg .rax) (.reg .r10), -- 75: add rax, r10
  .mov (.mem ⟨some .rsi, some (.rbx, 8#64), 0xfffffffffffffff8#64⟩) (.reg .rax), -- 76: mov [rsi+ 8 * rbx-8], rax
  .mov (.reg .r10) (.reg .rdx), -- 77: mov r10, rdx
  .inc (.reg .rbx), -- 78: inc rbx
  .dec (.reg .r12), -- 79: dec r12
  .jcc .nz 70, -- 80: jnz @7b
  .adc (.reg .r10) (.reg .r14), -- 81: adc r10, r14
  .adc (.reg .r15) (.imm 0#64), -- 82: adc r15, 0
  .mov (.reg .r14) (.reg .r15), -- 83: mov r14, r15
  .mov (.mem ⟨some .rsi, some (.rbx, 8#64), 0xfffffffffffffff8#64⟩) (.reg .r10), -- 84: mov [rsi+ 8 * rbx-8], r10
  .inc (.reg .r13), -- 85: inc r13
  .cmp (.reg .r13) (.reg .rdi), -- 86: cmp r13, rdi
  .jcc .cy 41, -- 87: jc @4b
  .xor (.reg .rbx) (.reg .rbx), -- 88: xor rbx, rbx
  .mov (.reg .r12) (.reg .rdi), -- 89: mov r12, rdi
  .mov (.reg .rax) (.mem ⟨some .rsi, some (.rbx, 8#64), 0#64⟩), -- 90: mov rax, [rsi+ 8 * rbx]
  .sbb (.reg .rax) (.mem ⟨some .rcx, some (.rbx, 8#64), 0#64⟩), -- 91: sbb rax, [rcx+ 8 * rbx]
  .inc (.reg .rbx), -- 92: inc rbx
  .dec (.reg .r12), -- 93: dec r12
  .jcc .nz 90, -- 94: jnz @8b
  .sbb (.reg .r14) (.imm 0#64), -- 95: sbb r14, 0
  .sbb (.reg .rbp) (.reg .rbp), -- 96: sbb rbp, rbp
  .not (.reg .rbp), -- 97: not rbp
  .xor (.reg .r11) (.reg .r11), -- 98: xor r11, r11
  .xor (.reg .rbx) (.reg .rbx), -- 99: xor rbx, rbx
  .mov (.reg .rax) (.mem ⟨some .rcx, some (.rbx, 8#64), 0#64⟩), -- 100: mov rax, [rcx+ 8 * rbx]
  .and (.reg .rax) (.reg .rbp), -- 101: and rax, rbp
  .neg (.reg .r11), -- 102: neg r11
  .sbb (.mem ⟨some .rsi, some (.rbx, 8#64), 0#64⟩) (.reg .rax), -- 103: sbb [rsi+ 8 * rbx], rax
  .sbb (.reg .r11) (.reg .r11), -- 104: sbb r11, r11
  .inc (.reg .rbx), -- 105: inc rbx
  .cmp (.reg .rbx) (.reg .rdi), -- 106: cmp rbx, rdi
  .jcc .cy 100, -- 107: jc @9b
  .pop .r15, -- 108: pop r15
  .pop .r14, -- 109: pop r14
  .pop .r13, -- 110: pop r13
  .pop .r12, -- 111: pop r12
  .pop .rbp, -- 112: pop rbp
  .pop .rbx] -- 113: pop rbx

/-- The registers that the operands of bignum_montsqr.rs:136-325 say may change. -/
def bignumMontsqrRegs : List Reg := [.rdi, .rsi, .rdx, .rcx, .r10, .r11, .r12, .r13, .r14, .r15, .r8, .r9, .rax]

/-- low/x86_64/bignum_montredc.rs:154-351.  Operands: inout("rdi") z.len() => _; inout("rsi") z.as_mut_ptr() => _; inout("rdx") x.len() => _; inout("rcx") x.as_ptr() => _; inout("r8") m.as_ptr() => _; inout("r9") p => _; out("r10") _; out("r11") _; out("r12") _; out("r13") _; out("r14") _; out("r15") _; out("rax") _. -/
def bignumMontredc : Prog := [
  .nop, -- 0: endbr64
  .push .rbx, -- 1: push rbx
  .push .rbp, -- 2: push rbp
  .push .r12, -- 3: push r12
  .push .r13, -- 4: push r13
  .push .r14, -- 5: push r14
  .push .r15, -- 6: push r15
  .sub (.reg .rsp) (.imm 8#64), -- 7: sub rsp, 8
  .test (.reg .rdi) (.reg .rdi), -- 8: test rdi, rdi
  .jcc .zr 113, -- 9: jz @2f
  .mov (.reg .r10) (.reg .rdx), -- 10: mov r10, rdx
  .mov (.reg .rax) (.mem ⟨some .r8, none, 0#64⟩), -- 11: mov rax, [r8]
  .mov (.reg .r14) (.reg .rax), -- 12: mov r14, rax
  .mov (.reg .rbx) (.reg .rax), -- 13: mov rbx, rax
  .shl (.reg .r14) (.imm 2#64), -- 14: shl r14, 2
  .sub (.reg .rbx) (.reg .r14), -- 15: sub rbx, r14
  .xor (.reg .rbx) (.imm 2#64), -- 16: xor rbx, 2
  .mov (.reg .r14) (.reg .rbx), -- 17: mov r14, rbx
  .imul .r14 (.reg .rax), -- 18: imul r14, rax
  .mov (.reg .rax) (.imm 2#64), -- 19: mov eax, 2
  .add (.reg .rax) (.reg .r14), -- 20: add rax, r14
  .add (.reg .r14) (.imm 1#64), -- 21: add r14, 1
  .imul .rbx (.reg .rax), -- 22: imul rbx, rax
  .imul .r14 (.reg .r14), -- 23: imul r14, r14
  .mov (.reg .rax) (.imm 1#64), -- 24: mov eax, 1
  .add (.reg .rax) (.reg .r14), -- 25: add rax, r14
  .imul .rbx (.reg .rax), -- 26: imul rbx, rax
  .imul .r14 (.reg .r14), -- 27: imul r14, r14
  .mov (.reg .rax) (.imm 1#64), -- 28: mov eax, 1
  .add (.reg .rax) (.reg .r14), -- 29: add rax, r14
  .imul .rbx (.reg .rax), -- 30: imul rbx, rax
  .imul .r14 (.reg .r14), -- 31: imul r14, r14
  .mov (.reg .rax) (.imm 1#64), -- 32: mov eax, 1
  .add (.reg .rax) (.reg .r14), -- 33: add rax, r14
  .imul .rbx (.reg .rax), -- 34: imul rbx, rax
  .mov (.mem ⟨some .rsp, none, 0#64⟩) (.reg .rbx), -- 35: mov QWORD PTR [rsp], rbx
  .mov (.reg .rbx) (.reg .rdi), -- 36: mov rbx, rdi
  .cmp (.reg .r10) (.reg .rdi), -- 37: cmp r10, rdi
  .cmov .cy .rbx (.reg .r10), -- 38: cmovc rbx, r10
  .xor (.reg .r14) (.reg .r14), -- 39: xor r14, r14
  .test (.reg .rbx) (.reg .rbx), -- 40: test rbx, rbx
  .jcc .zr 50, -- 41: jz @3f
  .mov (.reg .rax) (.mem ⟨some .rcx, some (.r14, 8#64), 0#64⟩), -- 42: mov rax, [rcx+ 8 * r14]
  .mov (.mem ⟨some .rsi, some (.r14, 8#64), 0#64⟩) (.reg .rax), -- 43: mov [rsi+ 8 * r14], rax
  .inc (.reg .r14), -- 44: inc r14
  .cmp (.reg .r14) (.reg .rbx), -- 45: cmp r14, rbx
  .jcc .cy 42, -- 46: jc @4b
  .cmp (.reg .r14) (.reg .rdi), -- 47: cmp r14, rdi
  .jcc .nc 54, -- 48: jnc @5f
  .xor (.reg .rbx) (.reg .rbx), -- 49: xor rbx, rbx
  .mov (.mem ⟨some .rsi, some (.r14, 8#64), 0#64⟩) (.reg .rbx), -- 50: mov [rsi+ 8 * r14], rbx
  .inc (.reg .r14), -- 51: inc r14
  .cmp (.reg .r14) (.reg .rdi), -- 52: cmp r14, rdi
  .jcc .cy 50, -- 53: jc @3b
  .xor (.reg .r15) (.reg .r15), -- 54: xor r15, r15
  .test (.reg .r9) (.reg .r9), -- 55: test r9, r9
  .jcc .zr 93, -- 56: jz @6f
  .xor (.reg .r14) (.reg .r14), -- 57: xor r14, r14
  .mov (.reg .r12) (.mem ⟨some .rsi, none, 0#64⟩), -- 58: mov r12, [rsi]
  .mov (.reg .rbp) (.mem ⟨some .rsp, none, 0#64⟩), -- 59: mov rbp, QWORD PTR [rsp]
  .imul .rbp (.reg .r12), -- 60: imul rbp, r12
  .mov (.reg .rax) (.mem ⟨some .r8, none, 0#64⟩), -- 61: mov rax, [r8]
  .mul (.reg .rbp), -- 62: mul rbp
  .add (.reg .rax) (.reg .r12), -- 63: add rax, r12
  .mov (.reg .r11) (.reg .rdx), -- 64: mov r11, rdx
  .mov (.reg .rbx) (.imm 1#64), -- 65: mov ebx, 1
  .mov (.reg .r13) (.reg .rdi), -- 66: mov r13, rdi
  .dec (.reg .r13), -- 67: dec r13
  .jcc .zr 80, -- 68: jz @8f
  .adc (.reg .r11) (.mem ⟨some .rsi, some (.rbx, 8#64), 0#64⟩), -- 69: adc r11, [rsi+ 8 * rbx]
  .sbb (.reg .r12) (.reg .r12), -- 70: sbb r12, r12
  .mov (.reg .rax) (.mem ⟨some .r8, some (.rbx, 8#64), 0#64⟩), -- 71: mov rax, [r8+ 8 * rbx]
  .mul (.reg .rbp), -- 72: mul rbp
  .sub (.reg .rdx) (.reg .r12), -- 73: sub rdx, r12
  .add (.reg .rax) (.reg .r11), -- 74: add rax, r11
  .mov (.mem ⟨some .rsi, some (.rbx, 8#64), 0xfffffffffffffff8#64⟩) (.reg .rax), -- 75: mov [rsi+ 8 * rbx-8], rax
  .mov (.reg .r11) (.reg .rdx), -- 76: mov r11, rdx
  .inc (.reg .rbx), -- 77: inc rbx
  .dec (.reg .r13), -- 78: dec r13
  .jcc .nz 69, -- 79: jnz @9b
  .adc (.reg .r11) (.reg .r15), -- 80: adc r11, r15
  .mov (.reg .r15) (.imm 0#64), -- 81: mov r15d, 0
  .adc (.reg .r15) (.imm 0#64), -- 82: adc r15, 0
  .add (.reg .rbx) (.reg .r14), -- 83: add rbx, r14
  .cmp (.reg .rbx) (.reg .r10), -- 84: cmp rbx, r10
  .jcc .nc 89, -- 85: jnc @12f
  .mov (.reg .rax) (.mem ⟨some .rcx, some (.rbx, 8#64), 0#64⟩), -- 86: mov rax, [rcx+ 8 * rbx]
  .add (.reg .r11) (.reg .rax), -- 87: add r11, rax
  .adc (.reg .r15) (.imm 0#64), -- 88: adc r15, 0
  .mov (.mem ⟨some .rsi, some (.rdi, 8#64), 0xfffffffffffffff8#64⟩) (.reg .r11), -- 89: mov [rsi+ 8 * rdi-8], r11
  .inc (.reg .r14), -- 90: inc r14
  .cmp (.reg .r14) (.reg .r9), -- 91: cmp r14, r9
  .jcc .cy 58, -- 92: jc @7b
  .xor (.reg .rbx) (.reg .rbx), -- 93: xor rbx, rbx
  .mov (.reg .r10) (.reg .rdi), -- 94: mov r10, rdi
  .mov (.reg .rax) (.mem ⟨some .rsi, some (.rbx, 8#64), 0#64⟩), -- 95: mov rax, [rsi+ 8 * rbx]
  .sbb (.reg .rax) (.mem ⟨some .r8, some (.rbx, 8#64), 0#64⟩), -- 96: sbb rax, [r8+ 8 * rbx]
  .inc (.reg .rbx), -- 97: inc rbx
  .dec (.reg .r10), -- 98: dec r10
  .jcc .nz 95, -- 99: jnz @13b
  .sbb (.reg .r15) (.imm 0#64), -- 100: sbb r15, 0
  .sbb (.reg .rbp) (.reg .rbp), -- 101: sbb rbp, rbp
  .not (.reg .rbp), -- 102: not rbp
  .xor (.reg .r12) (.reg .r12), -- 103: xor r12, r12
  .xor (.reg .rbx) (.reg .rbx), -- 104: xor rbx, rbx
  .mov (.reg .rax) (.mem ⟨some .r8, some (.rbx, 8#64), 0#64⟩), -- 105: mov rax, [r8+ 8 * rbx]
  .and (.reg .rax) (.reg .rbp), -- 106: and rax, rbp
  .neg (.reg .r12), -- 107: neg r12
  .sbb (.mem ⟨some .rsi, some (.rbx, 8#64), 0#64⟩) (.reg .rax), -- 108: sbb [rsi+ 8 * rbx], rax
  .sbb (.reg .r12) (.reg .r12), -- 109: sbb r12, r12
  .inc (.reg .rbx), -- 110: inc rbx
  .cmp (.reg .rbx) (.reg .rdi), -- 111: cmp rbx, rdi
  .jcc .cy 105, -- 112: jc @14b
  .add (.reg .rsp) (.imm 8#64), -- 113: add rsp, 8
  .pop .r15, -- 114: pop r15
  .pop .r14, -- 115: pop r14
  .pop .r13, -- 116: pop r13
  .pop .r12, -- 117: pop r12
  .pop .rbp, -- 118: pop rbp
  .pop .rbx] -- 119: pop rbx

/-- The registers that the operands of bignum_montredc.rs:154-351 say may change. -/
def bignumMontredcRegs : List Reg := [.rdi, .rsi, .rdx, .rcx, .r8, .r9, .r10, .r11, .r12, .r13, .r14, .r15, .rax]

end Verif.X86.Asm
