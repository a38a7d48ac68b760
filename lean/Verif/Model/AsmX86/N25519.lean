import Verif.Model.X86

/-!
Generated by tools/gen_asm.py from `graviola/src/low/x86_64`: the `asm!` blocks as lists of instructions.
The comment at the end of a line gives its position; jump targets are positions.
-/
namespace Verif.X86.Asm
open Verif.X86

/-- low/x86_64/bignum_neg_p25519.rs:73-120.  Operands: inout("rdi") z.as_mut_ptr() => _; inout("rsi") x.as_ptr() => _; out("r10") _; out("r8") _; out("r9") _; out("rax") _; out("rcx") _; out("rdx") _. -/
def bignumNegP25519 : Prog := [
  .nop, -- 0: endbr64
  .mov (.reg .rax) (.mem ⟨some .rsi, none, 0#64⟩), -- 1: mov rax, [rsi]
  .mov (.reg .rdx) (.reg .rax), -- 2: mov rdx, rax
  .mov (.reg .rcx) (.mem ⟨some .rsi, none, 8#64⟩), -- 3: mov rcx, [rsi+ 8]
  .or (.reg .rdx) (.reg .rcx), -- 4: or rdx, rcx
  .mov (.reg .r8) (.mem ⟨some .rsi, none, 16#64⟩), -- 5: mov r8, [rsi+ 16]
  .or (.reg .rdx) (.reg .r8), -- 6: or rdx, r8
  .mov (.reg .r9) (.mem ⟨some .rsi, none, 24#64⟩), -- 7: mov r9, [rsi+ 24]
  .or (.reg .rdx) (.reg .r9), -- 8: or rdx, r9
  .neg (.reg .rdx), -- 9: neg rdx
  .sbb (.reg .rdx) (.reg .rdx), -- 10: sbb rdx, rdx
  .mov (.reg .r10) (.imm 0xffffffffffffffed#64), -- 11: mov r10, -19
  .and (.reg .r10) (.reg .rdx), -- 12: and r10, rdx
  .sub (.reg .r10) (.reg .rax), -- 13: sub r10, rax
  .mov (.mem ⟨some .rdi, none, 0#64⟩) (.reg .r10), -- 14: mov [rdi], r10
  .mov (.reg .r10) (.reg .rdx), -- 15: mov r10, rdx
  .sbb (.reg .r10) (.reg .rcx), -- 16: sbb r10, rcx
  .mov (.mem ⟨some .rdi, none, 8#64⟩) (.reg .r10), -- 17: mov [rdi+ 8], r10
  .mov (.reg .r10) (.reg .rdx), -- 18: mov r10, rdx
  .sbb (.reg .r10) (.reg .r8), -- 19: sbb r10, r8
  .mov (.mem ⟨some .rdi, none, 16#64⟩) (.reg .r10), -- 20: mov [rdi+ 16], r10
  .sbb (.reg .rdx) (.reg .r9), -- 21: sbb rdx, r9
  .btr .rdx 63#64, -- 22: btr rdx, 63
  .mov (.mem ⟨some .rdi, none, 24#64⟩) (.reg .rdx)] -- 23: mov [rdi+ 24], rdx

/-- The registers that the operands of bignum_neg_p25519.rs:73-120 say may change. -/
def bignumNegP25519Regs : List Reg := [.rdi, .rsi, .r10, .r8, .r9, .rax, .rcx, .rdx]

/-- low/x86_64/bignum_mod_n25519.rs:79-267.  Operands: inout("rdi") z.as_mut_ptr() => _; inout("rsi") x.len() => _; inout("rdx") x.as_ptr() => _; out("r10") _; out("r11") _; out("r12") _; out("r8") _; out("r9") _; out("rax") _; out("rcx") _. -/
def bignumModN25519 : Prog := [
  .nop, -- 0: endbr64
  .push .rbx, -- 1: push rbx
  .push .rbp, -- 2: push rbp
  .push .r12, -- 3: push r12
  .cmp (.reg .rsi) (.imm 4#64), -- 4: cmp rsi, 4
  .jcc .cy 78, -- 5: jc @2f
  .sub (.reg .rsi) (.imm 4#64), -- 6: sub rsi, 4
  .mov (.reg .r11) (.mem ⟨some .rdx, some (.rsi, 8#64), 24#64⟩), -- 7: mov r11, [rdx + 8 * rsi+ 24]
  .mov (.reg .r10) (.mem ⟨some .rdx, some (.rsi, 8#64), 16#64⟩), -- 8: mov r10, [rdx + 8 * rsi+ 16]
  .mov (.reg .r9) (.mem ⟨some .rdx, some (.rsi, 8#64), 8#64⟩), -- 9: mov r9, [rdx + 8 * rsi+ 8]
  .mov (.reg .r8) (.mem ⟨some .rdx, some (.rsi, 8#64), 0#64⟩), -- 10: mov r8, [rdx + 8 * rsi]
  .mov (.reg .rcx) (.reg .rdx), -- 11: mov rcx, rdx
  .mov (.reg .rbx) (.reg .r11), -- 12: mov rbx, r11
  .shr (.reg .rbx) (.imm 60#64), -- 13: shr rbx, 60
  .shl (.reg .r11) (.imm 4#64), -- 14: shl r11, 4
  .shr (.reg .r11) (.imm 4#64), -- 15: shr r11, 4
  .mov (.reg .rax) (.imm 0x5812631a5cf5d3ed#64), -- 16: mov rax, 0x5812631a5cf5d3ed
  .mul (.reg .rbx), -- 17: mul rbx
  .mov (.reg .rbp) (.reg .rax), -- 18: mov rbp, rax
  .mov (.reg .r12) (.reg .rdx), -- 19: mov r12, rdx
  .mov (.reg .rax) (.imm 0x14def9dea2f79cd6#64), -- 20: mov rax, 0x14def9dea2f79cd6
  .mul (.reg .rbx), -- 21: mul rbx
  .add (.reg .r12) (.reg .rax), -- 22: add r12, rax
  .adc (.reg .rdx) (.imm 0#64), -- 23: adc rdx, 0
  .sub (.reg .r8) (.reg .rbp), -- 24: sub r8, rbp
  .sbb (.reg .r9) (.reg .r12), -- 25: sbb r9, r12
  .sbb (.reg .r10) (.reg .rdx), -- 26: sbb r10, rdx
  .sbb (.reg .r11) (.imm 0#64), -- 27: sbb r11, 0
  .sbb (.reg .rbx) (.reg .rbx), -- 28: sbb rbx, rbx
  .mov (.reg .rax) (.imm 0x5812631a5cf5d3ed#64), -- 29: mov rax, 0x5812631a5cf5d3ed
  .and (.reg .rax) (.reg .rbx), -- 30: and rax, rbx
  .mov (.reg .rdx) (.imm 0x14def9dea2f79cd6#64), -- 31: mov rdx, 0x14def9dea2f79cd6
  .and (.reg .rdx) (.reg .rbx), -- 32: and rdx, rbx
  .mov (.reg .rbx) (.imm 0x1000000000000000#64), -- 33: mov rbx, 0x1000000000000000
  .and (.reg .rbx) (.reg .rax), -- 34: and rbx, rax
  .add (.reg .r8) (.reg .rax), -- 35: add r8, rax
  .adc (.reg .r9) (.reg .rdx), -- 36: adc r9, rdx
  .adc (.reg .r10) (.imm 0#64), -- 37: adc r10, 0
  .adc (.reg .r11) (.reg .rbx), -- 38: adc r11, rbx
  .test (.reg .rsi) (.reg .rsi), -- 39: test rsi, rsi
  .jcc .zr 91, -- 40: jz @3f
  .mov (.reg .rbx) (.reg .r11), -- 41: mov rbx, r11
  .shld (.reg .rbx) .r10 (.imm 4#64), -- 42: shld rbx, r10, 4
  .shr (.reg .r11) (.imm 60#64), -- 43: shr r11, 60
  .sub (.reg .rbx) (.reg .r11), -- 44: sub rbx, r11
  .shl (.reg .r10) (.imm 4#64), -- 45: shl r10, 4
  .shrd (.reg .r10) .r11 (.imm 4#64), -- 46: shrd r10, r11, 4
  .mov (.reg .rax) (.imm 0x5812631a5cf5d3ed#64), -- 47: mov rax, 0x5812631a5cf5d3ed
  .mul (.reg .rbx), -- 48: mul rbx
  .mov (.reg .rbp) (.reg .rax), -- 49: mov rbp, rax
  .mov (.reg .r11) (.reg .rdx), -- 50: mov r11, rdx
  .mov (.reg .rax) (.imm 0x14def9dea2f79cd6#64), -- 51: mov rax, 0x14def9dea2f79cd6
  .mul (.reg .rbx), -- 52: mul rbx
  .add (.reg .r11) (.reg .rax), -- 53: add r11, rax
  .adc (.reg .rdx) (.imm 0#64), -- 54: adc rdx, 0
  .mov (.reg .r12) (.mem ⟨some .rcx, some (.rsi, 8#64), 0xfffffffffffffff8#64⟩), -- 55: mov r12, [rcx+ 8 * rsi-8]
  .sub (.reg .r12) (.reg .rbp), -- 56: sub r12, rbp
  .sbb (.reg .r8) (.reg .r11), -- 57: sbb r8, r11
  .sbb (.reg .r9) (.reg .rdx), -- 58: sbb r9, rdx
  .sbb (.reg .r10) (.imm 0#64), -- 59: sbb r10, 0
  .sbb (.reg .rbx) (.reg .rbx), -- 60: sbb rbx, rbx
  .mov (.reg .rax) (.imm 0x5812631a5cf5d3ed#64), -- 61: mov rax, 0x5812631a5cf5d3ed
  .and (.reg .rax) (.reg .rbx), -- 62: and rax, rbx
  .mov (.reg .rdx) (.imm 0x14def9dea2f79cd6#64), -- 63: mov rdx, 0x14def9dea2f79cd6
  .and (.reg .rdx) (.reg .rbx), -- 64: and rdx, rbx
  .mov (.reg .rbx) (.imm 0x1000000000000000#64), -- 65: mov rbx, 0x1000000000000000
  .and (.reg .rbx) (.reg .rax), -- 66: and rbx, rax
  .add (.reg .r12) (.reg .rax), -- 67: add r12, rax
  .adc (.reg .r8) (.reg .rdx), -- 68: adc r8, rdx
  .adc (.reg .r9) (.imm 0#64), -- 69: adc r9, 0
  .adc (.reg .r10) (.reg .rbx), -- 70: adc r10, rbx
  .mov (.reg .r11) (.reg .r10), -- 71: mov r11, r10
  .mov (.reg .r10) (.reg .r9), -- 72: mov r10, r9
  .mov (.reg .r9) (.reg .r8), -- 73: mov r9, r8
  .mov (.reg .r8) (.reg .r12), -- 74: mov r8, r12
  .dec (.reg .rsi), -- 75: dec rsi
  .jcc .nz 41, -- 76: jnz @4b
  .jmp 91, -- 77: jmp @3f
  .xor (.reg .r8) (.reg .r8), -- 78: xor r8, r8
  .xor (.reg .r9) (.reg .r9), -- 79: xor r9, r9
  .xor (.reg .r10) (.reg .r10), -- 80: xor r10, r10
  .xor (.reg .r11) (.reg .r11), -- 81: xor r11, r11
  .test (.reg .rsi) (.reg .rsi), -- 82: test rsi, rsi
  .jcc .zr 91, -- 83: jz @3f
  .mov (.reg .r8) (.mem ⟨some .rdx, none, 0#64⟩), -- 84: mov r8, [rdx]
  .dec (.reg .rsi), -- 85: dec rsi
  .jcc .zr 91, -- 86: jz @3f
  .mov (.reg .r9) (.mem ⟨some .rdx, none, 8#64⟩), -- 87: mov r9, [rdx + 8]
  .dec (.reg .rsi), -- 88: dec rsi
  .jcc .zr 91, -- 89: jz @3f
  .mov (.reg .r10) (.mem ⟨some .rdx, none, 16#64⟩), -- 90: mov r10, [rdx + 16]
  .mov (.mem ⟨some .rdi, none, 0#64⟩) (.reg .r8), -- 91: mov [rdi], r8
  .mov (.mem ⟨some .rdi, none, 8#64⟩) (.reg .r9), -- 92: mov [rdi+ 8], r9
  .mov (.mem ⟨some .rdi, none, 16#64⟩) (.reg .r10), -- 93: mov [rdi+ 16], r10
  .mov (.mem ⟨some .rdi, none, 24#64⟩) (.reg .r11), -- 94: mov [rdi+ 24], r11
  .pop .r12, -- 95: pop r12
  .pop .rbp, -- 96: pop rbp
  .pop .rbx] -- 97: pop rbx

/-- The registers that the operands of bignum_mod_n25519.rs:79-267 say may change. -/
def bignumModN25519Regs : List Reg := [.rdi, .rsi, .rdx, .r10, .r11, .r12, .r8, .r9, .rax, .rcx]

/-- low/x86_64/bignum_madd_n25519.rs:111-232.  Operands: inout("rdi") z.as_mut_ptr() => _; inout("rsi") x.as_ptr() => _; inout("rdx") y.as_ptr() => _; inout("rcx") c.as_ptr() => _; out("r10") _; out("r11") _; out("r12") _; out("r13") _; out("r14") _; out("r15") _; out("r8") _; out("r9") _; out("rax") _. -/
def bignumMaddN25519 : Prog := [
  .nop, -- 0: endbr64
  .push .rbx, -- 1: push rbx
  .push .rbp, -- 2: push rbp
  .push .r12, -- 3: push r12
  .push .r13, -- 4: push r13
  .push .r14, -- 5: push r14
  .push .r15, -- 6: push r15
  .mov (.reg .r8) (.mem ⟨some .rcx, none, 0#64⟩), -- 7: mov r8, [rcx]
  .mov (.reg .r9) (.mem ⟨some .rcx, none, 8#64⟩), -- 8: mov r9, [rcx + 8]
  .mov (.reg .r10) (.mem ⟨some .rcx, none, 16#64⟩), -- 9: mov r10, [rcx + 16]
  .mov (.reg .r11) (.mem ⟨some .rcx, none, 24#64⟩), -- 10: mov r11, [rcx + 24]
  .mov (.reg .rcx) (.reg .rdx), -- 11: mov rcx, rdx
  .xor (.reg .rbp) (.reg .rbp), -- 12: xor ebp, ebp
  .mov (.reg .rdx) (.mem ⟨some .rcx, none, 0#64⟩), -- 13: mov rdx, [rcx]
  .mulx .rbx .rax (.mem ⟨some .rsi, none, 0#64⟩), -- 14: mulx rbx, rax, [rsi]
  .adcx .r8 (.reg .rax), -- 15: adcx r8, rax
  .adox .r9 (.reg .rbx), -- 16: adox r9, rbx
  .mulx .rbx .rax (.mem ⟨some .rsi, none, 8#64⟩), -- 17: mulx rbx, rax, [rsi + 0x8]
  .adcx .r9 (.reg .rax), -- 18: adcx r9, rax
  .adox .r10 (.reg .rbx), -- 19: adox r10, rbx
  .mulx .rbx .rax (.mem ⟨some .rsi, none, 16#64⟩), -- 20: mulx rbx, rax, [rsi + 0x10]
  .adcx .r10 (.reg .rax), -- 21: adcx r10, rax
  .adox .r11 (.reg .rbx), -- 22: adox r11, rbx
  .mulx .r12 .rax (.mem ⟨some .rsi, none, 24#64⟩), -- 23: mulx r12, rax, [rsi + 0x18]
  .adcx .r11 (.reg .rax), -- 24: adcx r11, rax
  .adox .r12 (.reg .rbp), -- 25: adox r12, rbp
  .adcx .r12 (.reg .rbp), -- 26: adcx r12, rbp
  .xor (.reg .rbp) (.reg .rbp), -- 27: xor ebp, ebp
  .mov (.reg .rdx) (.mem ⟨some .rcx, none, 8#64⟩), -- 28: mov rdx, [rcx + 0x8]
  .mulx .rbx .rax (.mem ⟨some .rsi, none, 0#64⟩), -- 29: mulx rbx, rax, [rsi]
  .adcx .r9 (.reg .rax), -- 30: adcx r9, rax
  .adox .r10 (.reg .rbx), -- 31: adox r10, rbx
  .mulx .rbx .rax (.mem ⟨some .rsi, none, 8#64⟩), -- 32: mulx rbx, rax, [rsi + 0x8]
  .adcx .r10 (.reg .rax), -- 33: adcx r10, rax
  .adox .r11 (.reg .rbx), -- 34: adox r11, rbx
  .mulx .rbx .rax (.mem ⟨some .rsi, none, 16#64⟩), -- 35: mulx rbx, rax, [rsi + 0x10]
  .adcx .r11 (.reg .rax), -- 36: adcx r11, rax
  .adox .r12 (.reg .rbx), -- 37: adox r12, rbx
  .mulx .r13 .rax (.mem ⟨some .rsi, none, 24#64⟩), -- 38: mulx r13, rax, [rsi + 0x18]
  .adcx .r12 (.reg .rax), -- 39: adcx r12, rax
  .adox .r13 (.reg .rbp), -- 40: adox r13, rbp
  .adcx .r13 (.reg .rbp), -- 41: adcx r13, rbp
  .xor (.reg .rbp) (.reg .rbp), -- 42: xor ebp, ebp
  .mov (.reg .rdx) (.mem ⟨some .rcx, none, 16#64⟩), -- 43: mov rdx, [rcx + 0x10]
  .mulx .rbx .rax (.mem ⟨some .rsi, none, 0#64⟩), -- 44: mulx rbx, rax, [rsi]
  .adcx .r10 (.reg .rax), -- 45: adcx r10, rax
  .adox .r11 (.reg .rbx), -- 46: adox r11, rbx
  .mulx .rbx .rax (.mem ⟨some .rsi, none, 8#64⟩), -- 47: mulx rbx, rax, [rsi + 0x8]
  .adcx .r11 (.reg .rax), -- 48: adcx r11, rax
  .adox .r12 (.reg .rbx), -- 49: adox r12, rbx
  .mulx .rbx .rax (.mem ⟨some .rsi, none, 16#64⟩), -- 50: mulx rbx, rax, [rsi + 0x10]
  .adcx .r12 (.reg .rax), -- 51: adcx r12, rax
  .adox .r13 (.reg .rbx), -- 52: adox r13, rbx
  .mulx .r14 .rax (.mem ⟨some .rsi, none, 24#64⟩), -- 53: mulx r14, rax, [rsi + 0x18]
  .adcx .r13 (.reg .rax), -- 54: adcx r13, rax
  .adox .r14 (.reg .rbp), -- 55: adox r14, rbp
  .adcx .r14 (.reg .rbp), -- 56: adcx r14, rbp
  .xor (.reg .rbp) (.reg .rbp), -- 57: xor ebp, ebp
  .mov (.reg .rdx) (.mem ⟨some .rcx, none, 24#64⟩), -- 58: mov rdx, [rcx + 0x18]
  .mulx .rbx .rax (.mem ⟨some .rsi, none, 0#64⟩), -- 59: mulx rbx, rax, [rsi]
  .adcx .r11 (.reg .rax), -- 60: adcx r11, rax
  .adox .r12 (.reg .rbx), -- 61: adox r12, rbx
  .mulx .rbx .rax (.mem ⟨some .rsi, none, 8#64⟩), -- 62: mulx rbx, rax, [rsi + 0x8]
  .adcx .r12 (.reg .rax), -- 63: adcx r12, rax
  .adox .r13 (.reg .rbx), -- 64: adox r13, rbx
  .mulx .rbx .rax (.mem ⟨some .rsi, none, 16#64⟩), -- 65: mulx rbx, rax, [rsi + 0x10]
  .adcx .r13 (.reg .rax), -- 66: adcx r13, rax
  .adox .r14 (.reg .rbx), -- 67: adox r14, rbx
  .mulx .r15 .rax (.mem ⟨some .rsi, none, 24#64⟩), -- 68: mulx r15, rax, [rsi + 0x18]
  .adcx .r14 (.reg .rax), -- 69: adcx r14, rax
  .adox .r15 (.reg .rbp), -- 70: adox r15, rbp
  .adcx .r15 (.reg .rbp), -- 71: adcx r15, rbp
  .mov (.reg .rbx) (.reg .r15), -- 72: mov rbx, r15
  .shr (.reg .rbx) (.imm 60#64), -- 73: shr rbx, 60
  .shl (.reg .r15) (.imm 4#64), -- 74: shl r15, 4
  .shr (.reg .r15) (.imm 4#64), -- 75: shr r15, 4
  .mov (.reg .rax) (.imm 0x5812631a5cf5d3ed#64), -- 76: movabs rax, 0x5812631a5cf5d3ed
  .mul (.reg .rbx), -- 77: mul rbx
  .mov (.reg .rbp) (.reg .rax), -- 78: mov rbp, rax
  .mov (.reg .rcx) (.reg .rdx), -- 79: mov rcx, rdx
  .mov (.reg .rax) (.imm 0x14def9dea2f79cd6#64), -- 80: movabs rax, 0x14def9dea2f79cd6
  .mul (.reg .rbx), -- 81: mul rbx
  .add (.reg .rcx) (.reg .rax), -- 82: add rcx, rax
  .adc (.reg .rdx) (.imm 0#64), -- 83: adc rdx, 0x0
  .sub (.reg .r12) (.reg .rbp), -- 84: sub r12, rbp
  .sbb (.reg .r13) (.reg .rcx), -- 85: sbb r13, rcx
  .sbb (.reg .r14) (.reg .rdx), -- 86: sbb r14, rdx
  .sbb (.reg .r15) (.imm 0#64), -- 87: sbb r15, 0x0
  .sbb (.reg .rbx) (.reg .rbx), -- 88: sbb rbx, rbx
  .mov (.reg .rax) (.imm 0x5812631a5cf5d3ed#64), -- 89: movabs rax, 0x5812631a5cf5d3ed
  .and (.reg .rax) (.reg .rbx), -- 90: and rax, rbx
  .mov (.reg .rdx) (.imm 0x14def9dea2f79cd6#64), -- 91: movabs rdx, 0x14def9dea2f79cd6
  .and (.reg .rdx) (.reg .rbx), -- 92: and rdx, rbx
  .mov (.reg .rbx) (.imm 0x1000000000000000#64), -- 93: movabs rbx, 0x1000000000000000
  .and (.reg .rbx) (.reg .rax), -- 94: and rbx, rax
  .add (.reg .r12) (.reg .rax), -- 95: add r12, rax
  .adc (.reg .r13) (.reg .rdx), -- 96: adc r13, rdx
  .adc (.reg .r14) (.imm 0#64), -- 97: adc r14, 0x0
  .adc (.reg .r15) (.reg .rbx), -- 98: adc r15, rbx
  .mov (.reg .rbx) (.reg .r15), -- 99: mov rbx, r15
  .shld (.reg .rbx) .r14 (.imm 4#64), -- 100: shld rbx, r14, 0x4
  .shr (.reg .r15) (.imm 60#64), -- 101: shr r15, 0x3c
  .sub (.reg .rbx) (.reg .r15), -- 102: sub rbx, r15
  .shl (.reg .r14) (.imm 4#64), -- 103: shl r14, 0x4
  .shrd (.reg .r14) .r15 (.imm 4#64), -- 104: shrd r14, r15, 0x4
  .mov (.reg .rax) (.imm 0x5812631a5cf5d3ed#64), -- 105: movabs rax, 0x5812631a5cf5d3ed
  .mul (.reg .rbx), -- 106: mul rbx
  .mov (.reg .rbp) (.reg .rax), -- 107: mov rbp, rax
  .mov (.reg .rcx) (.reg .rdx), -- 108: mov rcx, rdx
  .mov (.reg .rax) (.imm 0x14def9dea2f79cd6#64), -- 109: movabs rax, 0x14def9dea2f79cd6
  .mul (.reg .rbx), -- 110: mul rbx
  .add (.reg .rcx) (.reg .rax), -- 111: add rcx, rax
  .adc (.reg .rdx) (.imm 0#64), -- 112: adc rdx, 0x0
  .sub (.reg .r11) (.reg .rbp), -- 113: sub r11, rbp
  .sbb (.reg .r12) (.reg .rcx), -- 114: sbb r12, rcx
  .sbb (.reg .r13) (.reg .rdx), -- 115: sbb r13, rdx
  .sbb (.reg .r14) (.imm 0#64), -- 116: sbb r14, 0x0
  .sbb (.reg .rbx) (.reg .rbx), -- 117: sbb rbx, rbx
  .mov (.reg .rax) (.imm 0x5812631a5cf5d3ed#64), -- 118: movabs rax, 0x5812631a5cf5d3ed
  .and (.reg .rax) (.reg .rbx), -- 119: and rax, rbx
  .mov (.reg .rdx) (.imm 0x14def9dea2f79cd6#64), -- 120: movabs rdx, 0x14def9dea2f79cd6
  .and (.reg .rdx) (.reg .rbx), -- 121: and rdx, rbx
  .mov (.reg .rbx) (.imm 0x1000000000000000#64), -- 122: movabs rbx, 0x1000000000000000
  .and (.reg .rbx) (.reg .rax), -- 123: and rbx, rax
  .add (.reg .r11) (.reg .rax), -- 124: add r11, rax
  .adc (.reg .r12) (.reg .rdx), -- 125: adc r12, rdx
  .adc (.reg .r13) (.imm 0#64), -- 126: adc r13, 0x0
  .adc (.reg .r14) (.reg .rbx), -- 127: adc r14, rbx
  .mov (.reg .rbx) (.reg .r14), -- 128: mov rbx, r14
  .shld (.reg .rbx) .r13 (.imm 4#64), -- 129: shld rbx, r13, 0x4
  .shr (.reg .r14) (.imm 60#64), -- 130: shr r14, 0x3c
  .sub (.reg .rbx) (.reg .r14), -- 131: sub rbx, r14
  .shl (.reg .r13) (.imm 4#64), -- 132: shl r13, 0x4
  .shrd (.reg .r13) .r14 (.imm 4#64), -- 133: shrd r13, r14, 0x4
  .mov (.reg .rax) (.imm 0x5812631a5cf5d3ed#64), -- 134: movabs rax, 0x5812631a5cf5d3ed
  .mul (.reg .rbx), -- 135: mul rbx
  .mov (.reg .rbp) (.reg .rax), -- 136: mov rbp, rax
  .mov (.reg .rcx) (.reg .rdx), -- 137: mov rcx, rdx
  .mov (.reg .rax) (.imm 0x14def9dea2f79cd6#64), -- 138: movabs rax, 0x14def9dea2f79cd6
  .mul (.reg .rbx), -- 139: mul rbx
  .add (.reg .rcx) (.reg .rax), -- 140: add rcx, rax
  .adc (.reg .rdx) (.imm 0#64), -- 141: adc rdx, 0x0
  .sub (.reg .r10) (.reg .rbp), -- 142: sub r10, rbp
  .sbb (.reg .r11) (.reg .rcx), -- 143: sbb r11, rcx
  .sbb (.reg .r12) (.reg .rdx), -- 144: sbb r12, rdx
  .sbb (.reg .r13) (.imm 0#64), -- 145: sbb r13, 0x0
  .sbb (.reg .rbx) (.reg .rbx), -- 146: sbb rbx, rbx
  .mov (.reg .rax) (.imm 0x5812631a5cf5d3ed#64), -- 147: movabs rax, 0x5812631a5cf5d3ed
  .and (.reg .rax) (.reg .rbx), -- 148: and rax, rbx
  .mov (.reg .rdx) (.imm 0x14def9dea2f79cd6#64), -- 149: movabs rdx, 0x14def9dea2f79cd6
  .and (.reg .rdx) (.reg .rbx), -- 150: and rdx, rbx
  .mov (.reg .rbx) (.imm 0x1000000000000000#64), -- 151: movabs rbx, 0x1000000000000000
  .and (.reg .rbx) (.reg .rax), -- 152: and rbx, rax
  .add (.reg .r10) (.reg .rax), -- 153: add r10, rax
  .adc (.reg .r11) (.reg .rdx), -- 154: adc r11, rdx
  .adc (.reg .r12) (.imm 0#64), -- 155: adc r12, 0x0
  .adc (.reg .r13) (.reg .rbx), -- 156: adc r13, rbx
  .mov (.reg .rbx) (.reg .r13), -- 157: mov rbx, r13
  .shld (.reg .rbx) .r12 (.imm 4#64), -- 158: shld rbx, r12, 0x4
  .shr (.reg .r13) (.imm 60#64), -- 159: shr r13, 0x3c
  .sub (.reg .rbx) (.reg .r13), -- 160: sub rbx, r13
  .shl (.reg .r12) (.imm 4#64), -- 161: shl r12, 0x4
  .shrd (.reg .r12) .r13 (.imm 4#64), -- 162: shrd r12, r13, 0x4
  .mov (.reg .rax) (.imm 0x5812631a5cf5d3ed#64), -- 163: movabs rax, 0x5812631a5cf5d3ed
  .mul (.reg .rbx), -- 164: mul rbx
  .mov (.reg .rbp) (.reg .rax), -- 165: mov rbp, rax
  .mov (.reg .rcx) (.reg .rdx), -- 166: mov rcx, rdx
  .mov (.reg .rax) (.imm 0x14def9dea2f79cd6#64), -- 167: movabs rax, 0x14def9dea2f79cd6
  .mul (.reg .rbx), -- 168: mul rbx
  .add (.reg .rcx) (.reg .rax), -- 169: add rcx, rax
  .adc (.reg .rdx) (.imm 0#64), -- 170: adc rdx, 0x0
  .sub (.reg .r9) (.reg .rbp), -- 171: sub r9, rbp
  .sbb (.reg .r10) (.reg .rcx), -- 172: sbb r10, rcx
  .sbb (.reg .r11) (.reg .rdx), -- 173: sbb r11, rdx
  .sbb (.reg .r12) (.imm 0#64), -- 174: sbb r12, 0x0
  .sbb (.reg .rbx) (.reg .rbx), -- 175: sbb rbx, rbx
  .mov (.reg .rax) (.imm 0x5812631a5cf5d3ed#64), -- 176: movabs rax, 0x5812631a5cf5d3ed
  .and (.reg .rax) (.reg .rbx), -- 177: and rax, rbx
  .mov (.reg .rdx) (.imm 0x14def9dea2f79cd6#64), -- 178: movabs rdx, 0x14def9dea2f79cd6
  .and (.reg .rdx) (.reg .rbx), -- 179: and rdx, rbx
  .mov (.reg .rbx) (.imm 0x1000000000000000#64), -- 180: movabs rbx, 0x1000000000000000
  .and (.reg .rbx) (.reg .rax), -- 181: and rbx, rax
  .add (.reg .r9) (.reg .rax), -- 182: add r9, rax
  .adc (.reg .r10) (.reg .rdx), -- 183: adc r10, rdx
  .adc (.reg .r11) (.imm 0#64), -- 184: adc r11, 0x0
  .adc (.reg .r12) (.reg .rbx), -- 185: adc r12, rbx
  .mov (.reg .rbx) (.reg .r12), -- 186: mov rbx, r12
  .shld (.reg .rbx) .r11 (.imm 4#64), -- 187: shld rbx, r11, 0x4
  .shr (.reg .r12) (.imm 60#64), -- 188: shr r12, 0x3c
  .sub (.reg .rbx) (.reg .r12), -- 189: sub rbx, r12
  .shl (.reg .r11) (.imm 4#64), -- 190: shl r11, 0x4
  .shrd (.reg .r11) .r12 (.imm 4#64), -- 191: shrd r11, r12, 0x4
  .mov (.reg .rax) (.imm 0x5812631a5cf5d3ed#64), -- 192: movabs rax, 0x5812631a5cf5d3ed
  .mul (.reg .rbx), -- 193: mul rbx
  .mov (.reg .rbp) (.reg .rax), -- 194: mov rbp, rax
  .mov (.reg .rcx) (.reg .rdx), -- 195: mov rcx, rdx
  .mov (.reg .rax) (.imm 0x14def9dea2f79cd6#64), -- 196: movabs rax, 0x14def9dea2f79cd6
  .mul (.reg .rbx), -- 197: mul rbx
  .add (.reg .rcx) (.reg .rax), -- 198: add rcx, rax
  .adc (.reg .rdx) (.imm 0#64), -- 199: adc rdx, 0x0
  .sub (.reg .r8) (.reg .rbp), -- 200: sub r8, rbp
  .sbb (.reg .r9) (.reg .rcx), -- 201: sbb r9, rcx
  .sbb (.reg .r10) (.reg .rdx), -- 202: sbb r10, rdx
  .sbb (.reg .r11) (.imm 0#64), -- 203: sbb r11, 0x0
  .sbb (.reg .rbx) (.reg .rbx), -- 204: sbb rbx, rbx
  .mov (.reg .rax) (.imm 0x5812631a5cf5d3ed#64), -- 205: movabs rax, 0x5812631a5cf5d3ed
  .and (.reg .rax) (.reg .rbx), -- 206: and rax, rbx
  .mov (.reg .rdx) (.imm 0x14def9dea2f79cd6#64), -- 207: movabs rdx, 0x14def9dea2f79cd6
  .and (.reg .rdx) (.reg .rbx), -- 208: and rdx, rbx
  .mov (.reg .rbx) (.imm 0x1000000000000000#64), -- 209: movabs rbx, 0x1000000000000000
  .and (.reg .rbx) (.reg .rax), -- 210: and rbx, rax
  .add (.reg .r8) (.reg .rax), -- 211: add r8, rax
  .adc (.reg .r9) (.reg .rdx), -- 212: adc r9, rdx
  .adc (.reg .r10) (.imm 0#64), -- 213: adc r10, 0x0
  .adc (.reg .r11) (.reg .rbx), -- 214: adc r11, rbx
  .mov (.mem ⟨some .rdi, none, 0#64⟩) (.reg .r8), -- 215: mov [rdi], r8
  .mov (.mem ⟨some .rdi, none, 8#64⟩) (.reg .r9), -- 216: mov [rdi + 8], r9
  .mov (.mem ⟨some .rdi, none, 16#64⟩) (.reg .r10), -- 217: mov [rdi + 16], r10
  .mov (.mem ⟨some .rdi, none, 24#64⟩) (.reg .r11), -- 218: mov [rdi + 24], r11
  .pop .r15, -- 219: pop r15
  .pop .r14, -- 220: pop r14
  .pop .r13, -- 221: pop r13
  .pop .r12, -- 222: pop r12
  .pop .rbp, -- 223: pop rbp
  .pop .rbx] -- 224: pop rbx

/-- The registers that the operands of bignum_madd_n25519.rs:111-232 say may change. -/
def bignumMaddN25519Regs : List Reg := [.rdi, .rsi, .rdx, .rcx, .r10, .r11, .r12, .r13, .r14, .r15, .r8, .r9, .rax]

end Verif.X86.Asm
