import Verif.Model.X86

/-!
Generated by tools/gen_asm.py from `graviola/src/low/x86_64`: the `asm!` blocks as lists of instructions.
The comment at the end of a line gives its position; jump targets are positions.
-/
namespace Verif.X86.Asm
open Verif.X86

/-- low/x86_64/bignum_add_p256.rs:84-140.  Operands: inout("rdi") z.as_mut_ptr() => _; inout("rsi") x.as_ptr() => _; inout("rdx") y.as_ptr() => _; out("r10") _; out("r11") _; out("r8") _; out("r9") _; out("rax") _; out("rcx") _. -/
def bignumAddP256 : Prog := [
  .nop, -- 0: endbr64
  .xor (.reg .r11) (.reg .r11), -- 1: xor r11, r11
  .mov (.reg .rax) (.mem ⟨some .rsi, none, 0#64⟩), -- 2: mov rax, [rsi]
  .add (.reg .rax) (.mem ⟨some .rdx, none, 0#64⟩), -- 3: add rax, [rdx]
  .mov (.reg .rcx) (.mem ⟨some .rsi, none, 8#64⟩), -- 4: mov rcx, [rsi+ 8]
  .adc (.reg .rcx) (.mem ⟨some .rdx, none, 8#64⟩), -- 5: adc rcx, [rdx+ 8]
  .mov (.reg .r8) (.mem ⟨some .rsi, none, 16#64⟩), -- 6: mov r8, [rsi+ 16]
  .adc (.reg .r8) (.mem ⟨some .rdx, none, 16#64⟩), -- 7: adc r8, [rdx+ 16]
  .mov (.reg .r9) (.mem ⟨some .rsi, none, 24#64⟩), -- 8: mov r9, [rsi+ 24]
  .adc (.reg .r9) (.mem ⟨some .rdx, none, 24#64⟩), -- 9: adc r9, [rdx+ 24]
  .adc (.reg .r11) (.reg .r11), -- 10: adc r11, r11
  .sub (.reg .rax) (.imm 0xffffffffffffffff#64), -- 11: sub rax, -1
  .mov (.reg .r10) (.imm 0xffffffff#64), -- 12: mov r10d, 0x00000000ffffffff
  .sbb (.reg .rcx) (.reg .r10), -- 13: sbb rcx, r10
  .sbb (.reg .r8) (.imm 0#64), -- 14: sbb r8, 0
  .mov (.reg .rdx) (.imm 0xffffffff00000001#64), -- 15: mov rdx, 0xffffffff00000001
  .sbb (.reg .r9) (.reg .rdx), -- 16: sbb r9, rdx
  .sbb (.reg .r11) (.imm 0#64), -- 17: sbb r11, 0
  .and (.reg .r10) (.reg .r11), -- 18: and r10, r11
  .and (.reg .rdx) (.reg .r11), -- 19: and rdx, r11
  .add (.reg .rax) (.reg .r11), -- 20: add rax, r11
  .mov (.mem ⟨some .rdi, none, 0#64⟩) (.reg .rax), -- 21: mov [rdi], rax
  .adc (.reg .rcx) (.reg .r10), -- 22: adc rcx, r10
  .mov (.mem ⟨some .rdi, none, 8#64⟩) (.reg .rcx), -- 23: mov [rdi+ 8], rcx
  .adc (.reg .r8) (.imm 0#64), -- 24: adc r8, 0
  .mov (.mem ⟨some .rdi, none, 16#64⟩) (.reg .r8), -- 25: mov [rdi+ 16], r8
  .adc (.reg .r9) (.reg .rdx), -- 26: adc r9, rdx
  .mov (.mem ⟨some .rdi, none, 24#64⟩) (.reg .r9)] -- 27: mov [rdi+ 24], r9

/-- The registers that the operands of bignum_add_p256.rs:84-140 say may change. -/
def bignumAddP256Regs : List Reg := [.rdi, .rsi, .rdx, .r10, .r11, .r8, .r9, .rax, .rcx]

/-- low/x86_64/bignum_neg_p256.rs:84-136.  Operands: inout("rdi") z.as_mut_ptr() => _; inout("rsi") x.as_ptr() => _; out("r10") _; out("r11") _; out("r8") _; out("r9") _; out("rax") _; out("rcx") _; out("rdx") _. -/
def bignumNegP256 : Prog := [
  .nop, -- 0: endbr64
  .mov (.reg .rax) (.mem ⟨some .rsi, none, 0#64⟩), -- 1: mov rax, [rsi]
  .mov (.reg .rcx) (.mem ⟨some .rsi, none, 8#64⟩), -- 2: mov rcx, [rsi+ 8]
  .mov (.reg .r10) (.reg .rax), -- 3: mov r10, rax
  .or (.reg .r10) (.reg .rcx), -- 4: or r10, rcx
  .mov (.reg .r8) (.mem ⟨some .rsi, none, 16#64⟩), -- 5: mov r8, [rsi+ 16]
  .mov (.reg .r9) (.mem ⟨some .rsi, none, 24#64⟩), -- 6: mov r9, [rsi+ 24]
  .mov (.reg .r11) (.reg .r8), -- 7: mov r11, r8
  .or (.reg .r11) (.reg .r9), -- 8: or r11, r9
  .or (.reg .r11) (.reg .r10), -- 9: or r11, r10
  .neg (.reg .r11), -- 10: neg r11
  .sbb (.reg .rdx) (.reg .rdx), -- 11: sbb rdx, rdx
  .mov (.reg .r10) (.imm 0xffffffff#64), -- 12: mov r10d, 0x00000000ffffffff
  .mov (.reg .r11) (.imm 0xffffffff00000001#64), -- 13: mov r11, 0xffffffff00000001
  .and (.reg .r10) (.reg .rdx), -- 14: and r10, rdx
  .and (.reg .r11) (.reg .rdx), -- 15: and r11, rdx
  .sub (.reg .rdx) (.reg .rax), -- 16: sub rdx, rax
  .mov (.reg .rax) (.imm 0#64), -- 17: mov eax, 0
  .sbb (.reg .r10) (.reg .rcx), -- 18: sbb r10, rcx
  .sbb (.reg .rax) (.reg .r8), -- 19: sbb rax, r8
  .sbb (.reg .r11) (.reg .r9), -- 20: sbb r11, r9
  .mov (.mem ⟨some .rdi, none, 0#64⟩) (.reg .rdx), -- 21: mov [rdi], rdx
  .mov (.mem ⟨some .rdi, none, 8#64⟩) (.reg .r10), -- 22: mov [rdi+ 8], r10
  .mov (.mem ⟨some .rdi, none, 16#64⟩) (.reg .rax), -- 23: mov [rdi+ 16], rax
  .mov (.mem ⟨some .rdi, none, 24#64⟩) (.reg .r11)] -- 24: mov [rdi+ 24], r11

/-- The registers that the operands of bignum_neg_p256.rs:84-136 say may change. -/
def bignumNegP256Regs : List Reg := [.rdi, .rsi, .r10, .r11, .r8, .r9, .rax, .rcx, .rdx]

/-- low/x86_64/bignum_mod_n256.rs:90-142.  Operands: inout("rdi") z.as_mut_ptr() => _; inout("rsi") x.as_ptr() => _; out("r10") _; out("r11") _; out("r8") _; out("r9") _; out("rax") _; out("rcx") _; out("rdx") _. -/
def bignumModN256 : Prog := [
  .nop, -- 0: endbr64
  .mov (.reg .rax) (.imm 0xc46353d039cdaaf#64), -- 1: mov rax, 0x0c46353d039cdaaf
  .mov (.reg .r10) (.imm 0x4319055258e8617b#64), -- 2: mov r10, 0x4319055258e8617b
  .mov (.reg .r11) (.imm 0xffffffff#64), -- 3: mov r11d, 0x00000000ffffffff
  .mov (.reg .rdx) (.mem ⟨some .rsi, none, 0#64⟩), -- 4: mov rdx, [rsi]
  .add (.reg .rdx) (.reg .rax), -- 5: add rdx, rax
  .mov (.reg .rcx) (.mem ⟨some .rsi, none, 8#64⟩), -- 6: mov rcx, [rsi+ 8]
  .adc (.reg .rcx) (.reg .r10), -- 7: adc rcx, r10
  .mov (.reg .r8) (.mem ⟨some .rsi, none, 16#64⟩), -- 8: mov r8, [rsi+ 16]
  .adc (.reg .r8) (.imm 0#64), -- 9: adc r8, 0
  .mov (.reg .r9) (.mem ⟨some .rsi, none, 24#64⟩), -- 10: mov r9, [rsi+ 24]
  .adc (.reg .r9) (.reg .r11), -- 11: adc r9, r11
  .sbb (.reg .rsi) (.reg .rsi), -- 12: sbb rsi, rsi
  .not (.reg .rsi), -- 13: not rsi
  .and (.reg .rax) (.reg .rsi), -- 14: and rax, rsi
  .and (.reg .r10) (.reg .rsi), -- 15: and r10, rsi
  .and (.reg .r11) (.reg .rsi), -- 16: and r11, rsi
  .sub (.reg .rdx) (.reg .rax), -- 17: sub rdx, rax
  .mov (.mem ⟨some .rdi, none, 0#64⟩) (.reg .rdx), -- 18: mov [rdi], rdx
  .sbb (.reg .rcx) (.reg .r10), -- 19: sbb rcx, r10
  .mov (.mem ⟨some .rdi, none, 8#64⟩) (.reg .rcx), -- 20: mov [rdi+ 8], rcx
  .sbb (.reg .r8) (.imm 0#64), -- 21: sbb r8, 0
  .mov (.mem ⟨some .rdi, none, 16#64⟩) (.reg .r8), -- 22: mov [rdi+ 16], r8
  .sbb (.reg .r9) (.reg .r11), -- 23: sbb r9, r11
  .mov (.mem ⟨some .rdi, none, 24#64⟩) (.reg .r9)] -- 24: mov [rdi+ 24], r9

/-- The registers that the operands of bignum_mod_n256.rs:90-142 say may change. -/
def bignumModN256Regs : List Reg := [.rdi, .rsi, .r10, .r11, .r8, .r9, .rax, .rcx, .rdx]

/-- low/x86_64/bignum_demont_p256.rs:54-125.  Operands: inout("rdi") z.as_mut_ptr() => _; inout("rsi") x.as_ptr() => _; out("r10") _; out("r11") _; out("r8") _; out("r9") _; out("rax") _; out("rcx") _; out("rdx") _. -/
def bignumDemontP256 : Prog := [
  .nop, -- 0: endbr64
  .push .rbx, -- 1: push rbx
  .mov (.reg .r8) (.mem ⟨some .rsi, none, 0#64⟩), -- 2: mov r8, [rsi]
  .mov (.reg .r9) (.mem ⟨some .rsi, none, 8#64⟩), -- 3: mov r9, [rsi+ 8]
  .mov (.reg .r10) (.mem ⟨some .rsi, none, 16#64⟩), -- 4: mov r10, [rsi+ 16]
  .mov (.reg .r11) (.mem ⟨some .rsi, none, 24#64⟩), -- 5: mov r11, [rsi+ 24]
  .xor (.reg .rbx) (.reg .rbx), -- 6: xor rbx, rbx
  .xor (.reg .rsi) (.reg .rsi), -- 7: xor rsi, rsi
  .mov (.reg .rdx) (.imm 0x100000000#64), -- 8: mov rdx, 0x0000000100000000
  .mulx .rcx .rax (.reg .r8), -- 9: mulx rcx, rax, r8
  .adcx .r9 (.reg .rax), -- 10: adcx r9, rax
  .adox .r10 (.reg .rcx), -- 11: adox r10, rcx
  .mulx .rcx .rax (.reg .r9), -- 12: mulx rcx, rax, r9
  .adcx .r10 (.reg .rax), -- 13: adcx r10, rax
  .adox .r11 (.reg .rcx), -- 14: adox r11, rcx
  .mov (.reg .rdx) (.imm 0xffffffff00000001#64), -- 15: mov rdx, 0xffffffff00000001
  .mulx .rcx .rax (.reg .r8), -- 16: mulx rcx, rax, r8
  .adcx .r11 (.reg .rax), -- 17: adcx r11, rax
  .adox .rbx (.reg .rcx), -- 18: adox rbx, rcx
  .mulx .rcx .rax (.reg .r9), -- 19: mulx rcx, rax, r9
  .adcx .rbx (.reg .rax), -- 20: adcx rbx, rax
  .adox .rsi (.reg .rcx), -- 21: adox rsi, rcx
  .mov (.reg .r8) (.imm 0#64), -- 22: mov r8d, 0
  .adcx .rsi (.reg .r8), -- 23: adcx rsi, r8
  .xor (.reg .r9) (.reg .r9), -- 24: xor r9, r9
  .mov (.reg .rdx) (.imm 0x100000000#64), -- 25: mov rdx, 0x0000000100000000
  .mulx .rcx .rax (.reg .r10), -- 26: mulx rcx, rax, r10
  .adcx .r11 (.reg .rax), -- 27: adcx r11, rax
  .adox .rbx (.reg .rcx), -- 28: adox rbx, rcx
  .mulx .rcx .rax (.reg .r11), -- 29: mulx rcx, rax, r11
  .adcx .rbx (.reg .rax), -- 30: adcx rbx, rax
  .adox .rsi (.reg .rcx), -- 31: adox rsi, rcx
  .mov (.reg .rdx) (.imm 0xffffffff00000001#64), -- 32: mov rdx, 0xffffffff00000001
  .mulx .rcx .rax (.reg .r10), -- 33: mulx rcx, rax, r10
  .adcx .rsi (.reg .rax), -- 34: adcx rsi, rax
  .adox .r8 (.reg .rcx), -- 35: adox r8, rcx
  .mulx .rcx .rax (.reg .r11), -- 36: mulx rcx, rax, r11
  .adcx .r8 (.reg .rax), -- 37: adcx r8, rax
  .adox .r9 (.reg .rcx), -- 38: adox r9, rcx
  .mov (.reg .r10) (.imm 0#64), -- 39: mov r10d, 0
  .adcx .r9 (.reg .r10), -- 40: adcx r9, r10
  .mov (.mem ⟨some .rdi, none, 0#64⟩) (.reg .rbx), -- 41: mov [rdi], rbx
  .mov (.mem ⟨some .rdi, none, 8#64⟩) (.reg .rsi), -- 42: mov [rdi+ 8], rsi
  .mov (.mem ⟨some .rdi, none, 16#64⟩) (.reg .r8), -- 43: mov [rdi+ 16], r8
  .mov (.mem ⟨some .rdi, none, 24#64⟩) (.reg .r9), -- 44: mov [rdi+ 24], r9
  .pop .rbx] -- 45: pop rbx

/-- The registers that the operands of bignum_demont_p256.rs:54-125 say may change. -/
def bignumDemontP256Regs : List Reg := [.rdi, .rsi, .r10, .r11, .r8, .r9, .rax, .rcx, .rdx]

/-- low/x86_64/bignum_tomont_p256.rs:77-225.  Operands: inout("rdi") z.as_mut_ptr() => _; inout("rsi") x.as_ptr() => _; out("r10") _; out("r11") _; out("r12") _; out("r13") _; out("r14") _; out("r15") _; out("r8") _; out("r9") _; out("rax") _; out("rcx") _; out("rdx") _. -/
def bignumTomontP256 : Prog := [
  .nop, -- 0: endbr64
  .push .r12, -- 1: push r12
  .push .r13, -- 2: push r13
  .push .r14, -- 3: push r14
  .push .r15, -- 4: push r15
  .xor (.reg .r13) (.reg .r13), -- 5: xor r13, r13
  .mov (.reg .rdx) (.imm 3#64), -- 6: mov edx, 0x0000000000000003
  .mulx .r9 .r8 (.mem ⟨some .rsi, none, 0#64⟩), -- 7: mulx r9, r8, [rsi]
  .mulx .r10 .rcx (.mem ⟨some .rsi, none, 8#64⟩), -- 8: mulx r10, rcx, [rsi+ 8]
  .adcx .r9 (.reg .rcx), -- 9: adcx r9, rcx
  .mulx .r11 .rcx (.mem ⟨some .rsi, none, 16#64⟩), -- 10: mulx r11, rcx, [rsi+ 16]
  .adcx .r10 (.reg .rcx), -- 11: adcx r10, rcx
  .mulx .r12 .rcx (.mem ⟨some .rsi, none, 24#64⟩), -- 12: mulx r12, rcx, [rsi+ 24]
  .adcx .r11 (.reg .rcx), -- 13: adcx r11, rcx
  .adcx .r12 (.reg .r13), -- 14: adcx r12, r13
  .mov (.reg .rdx) (.imm 0xfffffffbffffffff#64), -- 15: mov rdx, 0xfffffffbffffffff
  .xor (.reg .r14) (.reg .r14), -- 16: xor r14, r14
  .mulx .rcx .rax (.mem ⟨some .rsi, none, 0#64⟩), -- 17: mulx rcx, rax, [rsi]
  .adcx .r9 (.reg .rax), -- 18: adcx r9, rax
  .adox .r10 (.reg .rcx), -- 19: adox r10, rcx
  .mulx .rcx .rax (.mem ⟨some .rsi, none, 8#64⟩), -- 20: mulx rcx, rax, [rsi+8]
  .adcx .r10 (.reg .rax), -- 21: adcx r10, rax
  .adox .r11 (.reg .rcx), -- 22: adox r11, rcx
  .mulx .rcx .rax (.mem ⟨some .rsi, none, 16#64⟩), -- 23: mulx rcx, rax, [rsi+16]
  .adcx .r11 (.reg .rax), -- 24: adcx r11, rax
  .adox .r12 (.reg .rcx), -- 25: adox r12, rcx
  .mulx .rcx .rax (.mem ⟨some .rsi, none, 24#64⟩), -- 26: mulx rcx, rax, [rsi+24]
  .adcx .r12 (.reg .rax), -- 27: adcx r12, rax
  .adox .r13 (.reg .rcx), -- 28: adox r13, rcx
  .adc (.reg .r13) (.reg .r14), -- 29: adc r13, r14
  .xor (.reg .r15) (.reg .r15), -- 30: xor r15, r15
  .mov (.reg .rdx) (.imm 0x100000000#64), -- 31: mov rdx, 0x0000000100000000
  .mulx .rcx .rax (.reg .r8), -- 32: mulx rcx, rax, r8
  .adcx .r9 (.reg .rax), -- 33: adcx r9, rax
  .adox .r10 (.reg .rcx), -- 34: adox r10, rcx
  .mulx .rcx .rax (.reg .r9), -- 35: mulx rcx, rax, r9
  .adcx .r10 (.reg .rax), -- 36: adcx r10, rax
  .adox .r11 (.reg .rcx), -- 37: adox r11, rcx
  .mov (.reg .rdx) (.imm 0xffffffff00000001#64), -- 38: mov rdx, 0xffffffff00000001
  .mulx .rcx .rax (.reg .r8), -- 39: mulx rcx, rax, r8
  .adcx .r11 (.reg .rax), -- 40: adcx r11, rax
  .adox .r12 (.reg .rcx), -- 41: adox r12, rcx
  .mulx .rcx .rax (.reg .r9), -- 42: mulx rcx, rax, r9
  .adcx .r12 (.reg .rax), -- 43: adcx r12, rax
  .adox .r13 (.reg .rcx), -- 44: adox r13, rcx
  .adcx .r13 (.reg .r15), -- 45: adcx r13, r15
  .adox .r14 (.reg .r15), -- 46: adox r14, r15
  .adcx .r14 (.reg .r15), -- 47: adcx r14, r15
  .mov (.reg .rdx) (.imm 0xfffffffffffffffe#64), -- 48: mov rdx, 0xfffffffffffffffe
  .xor (.reg .r8) (.reg .r8), -- 49: xor r8, r8
  .mulx .rcx .rax (.mem ⟨some .rsi, none, 0#64⟩), -- 50: mulx rcx, rax, [rsi]
  .adcx .r10 (.reg .rax), -- 51: adcx r10, rax
  .adox .r11 (.reg .rcx), -- 52: adox r11, rcx
  .mulx .rcx .rax (.mem ⟨some .rsi, none, 8#64⟩), -- 53: mulx rcx, rax, [rsi+8]
  .adcx .r11 (.reg .rax), -- 54: adcx r11, rax
  .adox .r12 (.reg .rcx), -- 55: adox r12, rcx
  .mulx .rcx .rax (.mem ⟨some .rsi, none, 16#64⟩), -- 56: mulx rcx, rax, [rsi+16]
  .adcx .r12 (.reg .rax), -- 57: adcx r12, rax
  .adox .r13 (.reg .rcx), -- 58: adox r13, rcx
  .mulx .rcx .rax (.mem ⟨some .rsi, none, 24#64⟩), -- 59: mulx rcx, rax, [rsi+24]
  .adcx .r13 (.reg .rax), -- 60: adcx r13, rax
  .adox .r14 (.reg .rcx), -- 61: adox r14, rcx
  .adcx .r14 (.reg .r8), -- 62: adcx r14, r8
  .adox .r15 (.reg .r8), -- 63: adox r15, r8
  .adcx .r15 (.reg .r8), -- 64: adcx r15, r8
  .mov (.reg .rdx) (.imm 0x4fffffffd#64), -- 65: mov rdx, 0x00000004fffffffd
  .xor (.reg .r9) (.reg .r9), -- 66: xor r9, r9
  .mulx .rcx .rax (.mem ⟨some .rsi, none, 0#64⟩), -- 67: mulx rcx, rax, [rsi]
  .adcx .r11 (.reg .rax), -- 68: adcx r11, rax
  .adox .r12 (.reg .rcx), -- 69: adox r12, rcx
  .mulx .rcx .rax (.mem ⟨some .rsi, none, 8#64⟩), -- 70: mulx rcx, rax, [rsi+8]
  .adcx .r12 (.reg .rax), -- 71: adcx r12, rax
  .adox .r13 (.reg .rcx), -- 72: adox r13, rcx
  .mulx .rcx .rax (.mem ⟨some .rsi, none, 16#64⟩), -- 73: mulx rcx, rax, [rsi+16]
  .adcx .r13 (.reg .rax), -- 74: adcx r13, rax
  .adox .r14 (.reg .rcx), -- 75: adox r14, rcx
  .mulx .rcx .rax (.mem ⟨some .rsi, none, 24#64⟩), -- 76: mulx rcx, rax, [rsi+24]
  .adcx .r14 (.reg .rax), -- 77: adcx r14, rax
  .adox .r15 (.reg .rcx), -- 78: adox r15, rcx
  .adcx .r15 (.reg .r9), -- 79: adcx r15, r9
  .adox .r8 (.reg .r9), -- 80: adox r8, r9
  .adcx .r8 (.reg .r9), -- 81: adcx r8, r9
  .xor (.reg .r9) (.reg .r9), -- 82: xor r9, r9
  .mov (.reg .rdx) (.imm 0x100000000#64), -- 83: mov rdx, 0x0000000100000000
  .mulx .rcx .rax (.reg .r10), -- 84: mulx rcx, rax, r10
  .adcx .r11 (.reg .rax), -- 85: adcx r11, rax
  .adox .r12 (.reg .rcx), -- 86: adox r12, rcx
  .mulx .rcx .rax (.reg .r11), -- 87: mulx rcx, rax, r11
  .adcx .r12 (.reg .rax), -- 88: adcx r12, rax
  .adox .r13 (.reg .rcx), -- 89: adox r13, rcx
  .mov (.reg .rdx) (.imm 0xffffffff00000001#64), -- 90: mov rdx, 0xffffffff00000001
  .mulx .rcx .rax (.reg .r10), -- 91: mulx rcx, rax, r10
  .adcx .r13 (.reg .rax), -- 92: adcx r13, rax
  .adox .r14 (.reg .rcx), -- 93: adox r14, rcx
  .mulx .rcx .rax (.reg .r11), -- 94: mulx rcx, rax, r11
  .adcx .r14 (.reg .rax), -- 95: adcx r14, rax
  .adox .r15 (.reg .rcx), -- 96: adox r15, rcx
  .adcx .r15 (.reg .r9), -- 97: adcx r15, r9
  .adox .r8 (.reg .r9), -- 98: adox r8, r9
  .adcx .r8 (.reg .r9), -- 99: adcx r8, r9
  .mov (.reg .rdx) (.imm 0xffffffff#64), -- 100: mov edx, 0x00000000ffffffff
  .mov (.reg .rcx) (.imm 0xffffffff00000001#64), -- 101: mov rcx, 0xffffffff00000001
  .mov (.reg .rax) (.imm 0xfffffffffffffffe#64), -- 102: mov rax, -2
  .sub (.reg .rax) (.reg .r12), -- 103: sub rax, r12
  .mov (.reg .rax) (.reg .rdx), -- 104: mov rax, rdx
  .sbb (.reg .rax) (.reg .r13), -- 105: sbb rax, r13
  .mov (.reg .rax) (.imm 0#64), -- 106: mov eax, 0
  .sbb (.reg .rax) (.reg .r14), -- 107: sbb rax, r14
  .mov (.reg .rax) (.reg .rcx), -- 108: mov rax, rcx
  .sbb (.reg .rax) (.reg .r15), -- 109: sbb rax, r15
  .mov (.reg .rax) (.imm 0#64), -- 110: mov eax, 0
  .sbb (.reg .rax) (.reg .r8), -- 111: sbb rax, r8
  .and (.reg .rdx) (.reg .rax), -- 112: and rdx, rax
  .and (.reg .rcx) (.reg .rax), -- 113: and rcx, rax
  .sub (.reg .r12) (.reg .rax), -- 114: sub r12, rax
  .sbb (.reg .r13) (.reg .rdx), -- 115: sbb r13, rdx
  .sbb (.reg .r14) (.imm 0#64), -- 116: sbb r14, 0
  .sbb (.reg .r15) (.reg .rcx), -- 117: sbb r15, rcx
  .mov (.mem ⟨some .rdi, none, 0#64⟩) (.reg .r12), -- 118: mov [rdi], r12
  .mov (.mem ⟨some .rdi, none, 8#64⟩) (.reg .r13), -- 119: mov [rdi+ 8], r13
  .mov (.mem ⟨some .rdi, none, 16#64⟩) (.reg .r14), -- 120: mov [rdi+ 16], r14
  .mov (.mem ⟨some .rdi, none, 24#64⟩) (.reg .r15), -- 121: mov [rdi+ 24], r15
  .pop .r15, -- 122: pop r15
  .pop .r14, -- 123: pop r14
  .pop .r13, -- 124: pop r13
  .pop .r12] -- 125: pop r12

/-- The registers that the operands of bignum_tomont_p256.rs:77-225 say may change. -/
def bignumTomontP256Regs : List Reg := [.rdi, .rsi, .r10, .r11, .r12, .r13, .r14, .r15, .r8, .r9, .rax, .rcx, .rdx]

/-- low/x86_64/bignum_montmul_p256.rs:65-213.  Operands: inout("rdi") z.as_mut_ptr() => _; inout("rsi") x.as_ptr() => _; inout("rdx") y.as_ptr() => _; out("r10") _; out("r11") _; out("r12") _; out("r13") _; out("r14") _; out("r15") _; out("r8") _; out("r9") _; out("rax") _; out("rcx") _. -/
def bignumMontmulP256 : Prog := [
  .nop, -- 0: endbr64
  .push .rbx, -- 1: push rbx
  .push .r12, -- 2: push r12
  .push .r13, -- 3: push r13
  .push .r14, -- 4: push r14
  .push .r15, -- 5: push r15
  .mov (.reg .rcx) (.reg .rdx), -- 6: mov rcx, rdx
  .xor (.reg .r13) (.reg .r13), -- 7: xor r13d, r13d
  .mov (.reg .rdx) (.mem ⟨some .rcx, none, 0#64⟩), -- 8: mov rdx, [rcx]
  .mulx .r9 .r8 (.mem ⟨some .rsi, none, 0#64⟩), -- 9: mulx r9, r8, [rsi]
  .mulx .r10 .rbx (.mem ⟨some .rsi, none, 8#64⟩), -- 10: mulx r10, rbx, [rsi+ 8]
  .adc (.reg .r9) (.reg .rbx), -- 11: adc r9, rbx
  .mulx .r11 .rbx (.mem ⟨some .rsi, none, 16#64⟩), -- 12: mulx r11, rbx, [rsi+ 16]
  .adc (.reg .r10) (.reg .rbx), -- 13: adc r10, rbx
  .mulx .r12 .rbx (.mem ⟨some .rsi, none, 24#64⟩), -- 14: mulx r12, rbx, [rsi+ 24]
  .adc (.reg .r11) (.reg .rbx), -- 15: adc r11, rbx
  .adc (.reg .r12) (.reg .r13), -- 16: adc r12, r13
  .mov (.reg .rdx) (.mem ⟨some .rcx, none, 8#64⟩), -- 17: mov rdx, [rcx+ 8]
  .xor (.reg .r14) (.reg .r14), -- 18: xor r14d, r14d
  .mulx .rbx .rax (.mem ⟨some .rsi, none, 0#64⟩), -- 19: mulx rbx, rax, [rsi]
  .adcx .r9 (.reg .rax), -- 20: adcx r9, rax
  .adox .r10 (.reg .rbx), -- 21: adox r10, rbx
  .mulx .rbx .rax (.mem ⟨some .rsi, none, 8#64⟩), -- 22: mulx rbx, rax, [rsi+8]
  .adcx .r10 (.reg .rax), -- 23: adcx r10, rax
  .adox .r11 (.reg .rbx), -- 24: adox r11, rbx
  .mulx .rbx .rax (.mem ⟨some .rsi, none, 16#64⟩), -- 25: mulx rbx, rax, [rsi+16]
  .adcx .r11 (.reg .rax), -- 26: adcx r11, rax
  .adox .r12 (.reg .rbx), -- 27: adox r12, rbx
  .mulx .rbx .rax (.mem ⟨some .rsi, none, 24#64⟩), -- 28: mulx rbx, rax, [rsi+24]
  .adcx .r12 (.reg .rax), -- 29: adcx r12, rax
  .adox .r13 (.reg .rbx), -- 30: adox r13, rbx
  .adc (.reg .r13) (.reg .r14), -- 31: adc r13, r14
  .xor (.reg .r15) (.reg .r15), -- 32: xor r15d, r15d
  .mov (.reg .rdx) (.imm 0x100000000#64), -- 33: mov rdx, 0x0000000100000000
  .mulx .rbx .rax (.reg .r8), -- 34: mulx rbx, rax, r8
  .adcx .r9 (.reg .rax), -- 35: adcx r9, rax
  .adox .r10 (.reg .rbx), -- 36: adox r10, rbx
  .mulx .rbx .rax (.reg .r9), -- 37: mulx rbx, rax, r9
  .adcx .r10 (.reg .rax), -- 38: adcx r10, rax
  .adox .r11 (.reg .rbx), -- 39: adox r11, rbx
  .not (.reg .rdx), -- 40: not rdx
  .lea .rdx ⟨some .rdx, none, 2#64⟩, -- 41: lea rdx, [rdx + 2]
  .mulx .rbx .rax (.reg .r8), -- 42: mulx rbx, rax, r8
  .adcx .r11 (.reg .rax), -- 43: adcx r11, rax
  .adox .r12 (.reg .rbx), -- 44: adox r12, rbx
  .mulx .rbx .rax (.reg .r9), -- 45: mulx rbx, rax, r9
  .adcx .r12 (.reg .rax), -- 46: adcx r12, rax
  .adox .r13 (.reg .rbx), -- 47: adox r13, rbx
  .adcx .r13 (.reg .r15), -- 48: adcx r13, r15
  .adox .r14 (.reg .r15), -- 49: adox r14, r15
  .adc (.reg .r14) (.reg .r15), -- 50: adc r14, r15
  .mov (.reg .rdx) (.mem ⟨some .rcx, none, 16#64⟩), -- 51: mov rdx, [rcx+ 16]
  .xor (.reg .r8) (.reg .r8), -- 52: xor r8d, r8d
  .mulx .rbx .rax (.mem ⟨some .rsi, none, 0#64⟩), -- 53: mulx rbx, rax, [rsi]
  .adcx .r10 (.reg .rax), -- 54: adcx r10, rax
  .adox .r11 (.reg .rbx), -- 55: adox r11, rbx
  .mulx .rbx .rax (.mem ⟨some .rsi, none, 8#64⟩), -- 56: mulx rbx, rax, [rsi+8]
  .adcx .r11 (.reg .rax), -- 57: adcx r11, rax
  .adox .r12 (.reg .rbx), -- 58: adox r12, rbx
  .mulx .rbx .rax (.mem ⟨some .rsi, none, 16#64⟩), -- 59: mulx rbx, rax, [rsi+16]
  .adcx .r12 (.reg .rax), -- 60: adcx r12, rax
  .adox .r13 (.reg .rbx), -- 61: adox r13, rbx
  .adox .r14 (.reg .r8), -- 62: adox r14, r8
  .mulx .rbx .rax (.mem ⟨some .rsi, none, 24#64⟩), -- 63: mulx rbx, rax, [rsi+ 24]
  .adc (.reg .r13) (.reg .rax), -- 64: adc r13, rax
  .adc (.reg .r14) (.reg .rbx), -- 65: adc r14, rbx
  .adc (.reg .r15) (.reg .r8), -- 66: adc r15, r8
  .mov (.reg .rdx) (.mem ⟨some .rcx, none, 24#64⟩), -- 67: mov rdx, [rcx+ 24]
  .xor (.reg .r9) (.reg .r9), -- 68: xor r9d, r9d
  .mulx .rbx .rax (.mem ⟨some .rsi, none, 0#64⟩), -- 69: mulx rbx, rax, [rsi]
  .adcx .r11 (.reg .rax), -- 70: adcx r11, rax
  .adox .r12 (.reg .rbx), -- 71: adox r12, rbx
  .mulx .rbx .rax (.mem ⟨some .rsi, none, 8#64⟩), -- 72: mulx rbx, rax, [rsi+8]
  .adcx .r12 (.reg .rax), -- 73: adcx r12, rax
  .adox .r13 (.reg .rbx), -- 74: adox r13, rbx
  .mulx .rbx .rax (.mem ⟨some .rsi, none, 16#64⟩), -- 75: mulx rbx, rax, [rsi+16]
  .adcx .r13 (.reg .rax), -- 76: adcx r13, rax
  .adox .r14 (.reg .rbx), -- 77: adox r14, rbx
  .adox .r15 (.reg .r9), -- 78: adox r15, r9
  .mulx .rbx .rax (.mem ⟨some .rsi, none, 24#64⟩), -- 79: mulx rbx, rax, [rsi+ 24]
  .adc (.reg .r14) (.reg .rax), -- 80: adc r14, rax
  .adc (.reg .r15) (.reg .rbx), -- 81: adc r15, rbx
  .adc (.reg .r8) (.reg .r9), -- 82: adc r8, r9
  .xor (.reg .r9) (.reg .r9), -- 83: xor r9d, r9d
  .mov (.reg .rdx) (.imm 0x100000000#64), -- 84: mov rdx, 0x0000000100000000
  .mulx .rbx .rax (.reg .r10), -- 85: mulx rbx, rax, r10
  .adcx .r11 (.reg .rax), -- 86: adcx r11, rax
  .adox .r12 (.reg .rbx), -- 87: adox r12, rbx
  .mulx .rbx .rax (.reg .r11), -- 88: mulx rbx, rax, r11
  .adcx .r12 (.reg .rax), -- 89: adcx r12, rax
  .adox .r13 (.reg .rbx), -- 90: adox r13, rbx
  .not (.reg .rdx), -- 91: not rdx
  .lea .rdx ⟨some .rdx, none, 2#64⟩, -- 92: lea rdx, [rdx + 2]
  .mulx .rbx .rax (.reg .r10), -- 93: mulx rbx, rax, r10
  .adcx .r13 (.reg .rax), -- 94: adcx r13, rax
  .adox .r14 (.reg .rbx), -- 95: adox r14, rbx
  .mulx .rbx .rax (.reg .r11), -- 96: mulx rbx, rax, r11
  .adcx .r14 (.reg .rax), -- 97: adcx r14, rax
  .adox .r15 (.reg .rbx), -- 98: adox r15, rbx
  .adcx .r15 (.reg .r9), -- 99: adcx r15, r9
  .adox .r8 (.reg .r9), -- 100: adox r8, r9
  .adc (.reg .r8) (.reg .r9), -- 101: adc r8, r9
  .mov (.reg .rcx) (.imm 1#64), -- 102: mov ecx, 1
  .add (.reg .rcx) (.reg .r12), -- 103: add rcx, r12
  .dec (.reg .rdx), -- 104: dec rdx
  .adc (.reg .rdx) (.reg .r13), -- 105: adc rdx, r13
  .dec (.reg .r9), -- 106: dec r9
  .mov (.reg .rax) (.reg .r9), -- 107: mov rax, r9
  .adc (.reg .r9) (.reg .r14), -- 108: adc r9, r14
  .mov (.reg .r11) (.imm 0xfffffffe#64), -- 109: mov r11d, 0x00000000fffffffe
  .adc (.reg .r11) (.reg .r15), -- 110: adc r11, r15
  .adc (.reg .rax) (.reg .r8), -- 111: adc rax, r8
  .cmov .cy .r12 (.reg .rcx), -- 112: cmovc r12, rcx
  .cmov .cy .r13 (.reg .rdx), -- 113: cmovc r13, rdx
  .cmov .cy .r14 (.reg .r9), -- 114: cmovc r14, r9
  .cmov .cy .r15 (.reg .r11), -- 115: cmovc r15, r11
  .mov (.mem ⟨some .rdi, none, 0#64⟩) (.reg .r12), -- 116: mov [rdi], r12
  .mov (.mem ⟨some .rdi, none, 8#64⟩) (.reg .r13), -- 117: mov [rdi+ 8], r13
  .mov (.mem ⟨some .rdi, none, 16#64⟩) (.reg .r14), -- 118: mov [rdi+ 16], r14
  .mov (.mem ⟨some .rdi, none, 24#64⟩) (.reg .r15), -- 119: mov [rdi+ 24], r15
  .pop .r15, -- 120: pop r15
  .pop .r14, -- 121: pop r14
  .pop .r13, -- 122: pop r13
  .pop .r12, -- 123: pop r12
  .pop .rbx] -- 124: pop rbx

/-- The registers that the operands of bignum_montmul_p256.rs:65-213 say may change. -/
def bignumMontmulP256Regs : List Reg := [.rdi, .rsi, .rdx, .r10, .r11, .r12, .r13, .r14, .r15, .r8, .r9, .rax, .rcx]

/-- low/x86_64/bignum_montsqr_p256.rs:67-214.  Operands: inout("rdi") z.as_mut_ptr() => _; inout("rsi") x.as_ptr() => _; out("r10") _; out("r11") _; out("r12") _; out("r13") _; out("r14") _; out("r15") _; out("r8") _; out("r9") _; out("rax") _; out("rcx") _; out("rdx") _. -/
def bignumMontsqrP256 : Prog := [
  .nop, -- 0: endbr64
  .push .rbx, -- 1: push rbx
  .push .rbp, -- 2: push rbp
  .push .r12, -- 3: push r12
  .push .r13, -- 4: push r13
  .push .r14, -- 5: push r14
  .push .r15, -- 6: push r15
  .mov (.reg .rdx) (.mem ⟨some .rsi, none, 0#64⟩), -- 7: mov rdx, [rsi]
  .mulx .r15 .r8 (.reg .rdx), -- 8: mulx r15, r8, rdx
  .mulx .r10 .r9 (.mem ⟨some .rsi, none, 8#64⟩), -- 9: mulx r10, r9, [rsi+ 8]
  .mulx .r12 .r11 (.mem ⟨some .rsi, none, 24#64⟩), -- 10: mulx r12, r11, [rsi+ 24]
  .mov (.reg .rdx) (.mem ⟨some .rsi, none, 16#64⟩), -- 11: mov rdx, [rsi+ 16]
  .mulx .r14 .r13 (.mem ⟨some .rsi, none, 24#64⟩), -- 12: mulx r14, r13, [rsi+ 24]
  .xor (.reg .rbp) (.reg .rbp), -- 13: xor ebp, ebp
  .mulx .rbx .rax (.mem ⟨some .rsi, none, 0#64⟩), -- 14: mulx rbx, rax, [rsi]
  .adcx .r10 (.reg .rax), -- 15: adcx r10, rax
  .adox .r11 (.reg .rbx), -- 16: adox r11, rbx
  .mulx .rbx .rax (.mem ⟨some .rsi, none, 8#64⟩), -- 17: mulx rbx, rax, [rsi+8]
  .adcx .r11 (.reg .rax), -- 18: adcx r11, rax
  .adox .r12 (.reg .rbx), -- 19: adox r12, rbx
  .mov (.reg .rdx) (.mem ⟨some .rsi, none, 24#64⟩), -- 20: mov rdx, [rsi+ 24]
  .mulx .rbx .rax (.mem ⟨some .rsi, none, 8#64⟩), -- 21: mulx rbx, rax, [rsi+8]
  .adcx .r12 (.reg .rax), -- 22: adcx r12, rax
  .adox .r13 (.reg .rbx), -- 23: adox r13, rbx
  .adcx .r13 (.reg .rbp), -- 24: adcx r13, rbp
  .adox .r14 (.reg .rbp), -- 25: adox r14, rbp
  .adc (.reg .r14) (.reg .rbp), -- 26: adc r14, rbp
  .xor (.reg .rbp) (.reg .rbp), -- 27: xor ebp, ebp
  .adcx .r9 (.reg .r9), -- 28: adcx r9, r9
  .adox .r9 (.reg .r15), -- 29: adox r9, r15
  .mov (.reg .rdx) (.mem ⟨some .rsi, none, 8#64⟩), -- 30: mov rdx, [rsi+ 8]
  .mulx .rdx .rax (.reg .rdx), -- 31: mulx rdx, rax, rdx
  .adcx .r10 (.reg .r10), -- 32: adcx r10, r10
  .adox .r10 (.reg .rax), -- 33: adox r10, rax
  .adcx .r11 (.reg .r11), -- 34: adcx r11, r11
  .adox .r11 (.reg .rdx), -- 35: adox r11, rdx
  .mov (.reg .rdx) (.mem ⟨some .rsi, none, 16#64⟩), -- 36: mov rdx, [rsi+ 16]
  .mulx .rdx .rax (.reg .rdx), -- 37: mulx rdx, rax, rdx
  .adcx .r12 (.reg .r12), -- 38: adcx r12, r12
  .adox .r12 (.reg .rax), -- 39: adox r12, rax
  .adcx .r13 (.reg .r13), -- 40: adcx r13, r13
  .adox .r13 (.reg .rdx), -- 41: adox r13, rdx
  .mov (.reg .rdx) (.mem ⟨some .rsi, none, 24#64⟩), -- 42: mov rdx, [rsi+ 24]
  .mulx .r15 .rax (.reg .rdx), -- 43: mulx r15, rax, rdx
  .adcx .r14 (.reg .r14), -- 44: adcx r14, r14
  .adox .r14 (.reg .rax), -- 45: adox r14, rax
  .adcx .r15 (.reg .rbp), -- 46: adcx r15, rbp
  .adox .r15 (.reg .rbp), -- 47: adox r15, rbp
  .xor (.reg .rbp) (.reg .rbp), -- 48: xor ebp, ebp
  .mov (.reg .rdx) (.imm 0x100000000#64), -- 49: mov rdx, 0x0000000100000000
  .mulx .rbx .rax (.reg .r8), -- 50: mulx rbx, rax, r8
  .adcx .r9 (.reg .rax), -- 51: adcx r9, rax
  .adox .r10 (.reg .rbx), -- 52: adox r10, rbx
  .mulx .rbx .rax (.reg .r9), -- 53: mulx rbx, rax, r9
  .adcx .r10 (.reg .rax), -- 54: adcx r10, rax
  .adox .r11 (.reg .rbx), -- 55: adox r11, rbx
  .mov (.reg .rdx) (.imm 0xffffffff00000001#64), -- 56: mov rdx, 0xffffffff00000001
  .mulx .rbx .rax (.reg .r8), -- 57: mulx rbx, rax, r8
  .adcx .r11 (.reg .rax), -- 58: adcx r11, rax
  .adox .r12 (.reg .rbx), -- 59: adox r12, rbx
  .mulx .rbx .rax (.reg .r9), -- 60: mulx rbx, rax, r9
  .adcx .r12 (.reg .rax), -- 61: adcx r12, rax
  .adox .r13 (.reg .rbx), -- 62: adox r13, rbx
  .adcx .r13 (.reg .rbp), -- 63: adcx r13, rbp
  .mov32 .r9 .rbp, -- 64: mov r9d, ebp
  .adox .r9 (.reg .rbp), -- 65: adox r9, rbp
  .adcx .r9 (.reg .rbp), -- 66: adcx r9, rbp
  .add (.reg .r14) (.reg .r9), -- 67: add r14, r9
  .adc (.reg .r15) (.reg .rbp), -- 68: adc r15, rbp
  .mov32 .r8 .rbp, -- 69: mov r8d, ebp
  .adc (.reg .r8) (.reg .rbp), -- 70: adc r8, rbp
  .xor (.reg .rbp) (.reg .rbp), -- 71: xor ebp, ebp
  .mov (.reg .rdx) (.imm 0x100000000#64), -- 72: mov rdx, 0x0000000100000000
  .mulx .rbx .rax (.reg .r10), -- 73: mulx rbx, rax, r10
  .adcx .r11 (.reg .rax), -- 74: adcx r11, rax
  .adox .r12 (.reg .rbx), -- 75: adox r12, rbx
  .mulx .rbx .rax (.reg .r11), -- 76: mulx rbx, rax, r11
  .adcx .r12 (.reg .rax), -- 77: adcx r12, rax
  .adox .r13 (.reg .rbx), -- 78: adox r13, rbx
  .mov (.reg .rdx) (.imm 0xffffffff00000001#64), -- 79: mov rdx, 0xffffffff00000001
  .mulx .rbx .rax (.reg .r10), -- 80: mulx rbx, rax, r10
  .adcx .r13 (.reg .rax), -- 81: adcx r13, rax
  .adox .r14 (.reg .rbx), -- 82: adox r14, rbx
  .mulx .rbx .rax (.reg .r11), -- 83: mulx rbx, rax, r11
  .adcx .r14 (.reg .rax), -- 84: adcx r14, rax
  .adox .r15 (.reg .rbx), -- 85: adox r15, rbx
  .adcx .r15 (.reg .rbp), -- 86: adcx r15, rbp
  .adox .r8 (.reg .rbp), -- 87: adox r8, rbp
  .adc (.reg .r8) (.reg .rbp), -- 88: adc r8, rbp
  .mov (.reg .rcx) (.imm 1#64), -- 89: mov ecx, 1
  .add (.reg .rcx) (.reg .r12), -- 90: add rcx, r12
  .lea .rdx ⟨some .rdx, none, 0xffffffffffffffff#64⟩, -- 91: lea rdx, [rdx -1]
  .adc (.reg .rdx) (.reg .r13), -- 92: adc rdx, r13
  .lea .rbp ⟨some .rbp, none, 0xffffffffffffffff#64⟩, -- 93: lea rbp, [rbp -1]
  .mov (.reg .rax) (.reg .rbp), -- 94: mov rax, rbp
  .adc (.reg .rbp) (.reg .r14), -- 95: adc rbp, r14
  .mov (.reg .r11) (.imm 0xfffffffe#64), -- 96: mov r11d, 0x00000000fffffffe
  .adc (.reg .r11) (.reg .r15), -- 97: adc r11, r15
  .adc (.reg .rax) (.reg .r8), -- 98: adc rax, r8
  .cmov .cy .r12 (.reg .rcx), -- 99: cmovc r12, rcx
  .cmov .cy .r13 (.reg .rdx), -- 100: cmovc r13, rdx
  .cmov .cy .r14 (.reg .rbp), -- 101: cmovc r14, rbp
  .cmov .cy .r15 (.reg .r11), -- 102: cmovc r15, r11
  .mov (.mem ⟨some .rdi, none, 0#64⟩) (.reg .r12), -- 103: mov [rdi], r12
  .mov (.mem ⟨some .rdi, none, 8#64⟩) (.reg .r13), -- 104: mov [rdi+ 8], r13
  .mov (.mem ⟨some .rdi, none, 16#64⟩) (.reg .r14), -- 105: mov [rdi+ 16], r14
  .mov (.mem ⟨some .rdi, none, 24#64⟩) (.reg .r15), -- 106: mov [rdi+ 24], r15
  .pop .r15, -- 107: pop r15
  .pop .r14, -- 108: pop r14
  .pop .r13, -- 109: pop r13
  .pop .r12, -- 110: pop r12
  .pop .rbp, -- 111: pop rbp
  .pop .rbx] -- 112: pop rbx

/-- The registers that the operands of bignum_montsqr_p256.rs:67-214 say may change. -/
def bignumMontsqrP256Regs : List Reg := [.rdi, .rsi, .r10, .r11, .r12, .r13, .r14, .r15, .r8, .r9, .rax, .rcx, .rdx]

/-- low/x86_64/bignum_inv_p256.rs:1046-1655.  Operands: inout("rdi") z.as_mut_ptr() => _; inout("rsi") x.as_ptr() => _; out("r10") _; out("r11") _; out("r12") _; out("r13") _; out("r14") _; out("r15") _; out("r8") _; out("r9") _; out("rax") _; out("rcx") _; out("rdx") _. -/
def bignumInvP256 : Prog := [
  .nop, -- 0: endbr64
  .push .rbx, -- 1: push rbx
  .push .rbp, -- 2: push rbp
  .push .r12, -- 3: push r12
  .push .r13, -- 4: push r13
  .push .r14, -- 5: push r14
  .push .r15, -- 6: push r15
  .sub (.reg .rsp) (.imm 240#64), -- 7: sub rsp, 30 * 8
  .mov (.mem ⟨some .rsp, none, 224#64⟩) (.reg .rdi), -- 8: mov QWORD PTR [rsp + (28 * 8)], rdi
  .xor (.reg .rcx) (.reg .rcx), -- 9: xor ecx, ecx
  .mov (.reg .rdx) (.imm 0xffffffff#64), -- 10: mov edx, 0x00000000ffffffff
  .mov (.reg .rbx) (.reg .rdx), -- 11: mov rbx, rdx
  .lea .rax ⟨some .rcx, none, 0xffffffffffffffff#64⟩, -- 12: lea rax, [rcx -1]
  .neg (.reg .rdx), -- 13: neg rdx
  .mov (.mem ⟨some .rsp, none, 0#64⟩) (.reg .rax), -- 14: mov [rsp + 0], rax
  .mov (.mem ⟨some .rsp, none, 8#64⟩) (.reg .rbx), -- 15: mov [rsp + 0+ 8], rbx
  .mov (.mem ⟨some .rsp, none, 16#64⟩) (.reg .rcx), -- 16: mov [rsp + 0+ 16], rcx
  .mov (.mem ⟨some .rsp, none, 24#64⟩) (.reg .rdx), -- 17: mov [rsp + 0+ 24], rdx
  .mov (.mem ⟨some .rsp, none, 32#64⟩) (.reg .rcx), -- 18: mov [rsp + 0+ 32], rcx
  .mov (.reg .r8) (.mem ⟨some .rsi, none, 0#64⟩), -- 19: mov r8, [rsi]
  .mov (.reg .r9) (.mem ⟨some .rsi, none, 8#64⟩), -- 20: mov r9, [rsi + 8]
  .mov (.reg .r10) (.mem ⟨some .rsi, none, 16#64⟩), -- 21: mov r10, [rsi + 16]
  .mov (.reg .r11) (.mem ⟨some .rsi, none, 24#64⟩), -- 22: mov r11, [rsi + 24]
  .lea .rax ⟨some .rcx, none, 1#64⟩, -- 23: lea rax, [rcx + 1]
  .add (.reg .rax) (.reg .r8), -- 24: add rax, r8
  .lea .rbx ⟨some .rdx, none, 0xffffffffffffffff#64⟩, -- 25: lea rbx, [rdx -1]
  .adc (.reg .rbx) (.reg .r9), -- 26: adc rbx, r9
  .not (.reg .rcx), -- 27: not rcx
  .adc (.reg .rcx) (.reg .r10), -- 28: adc rcx, r10
  .not (.reg .rdx), -- 29: not rdx
  .adc (.reg .rdx) (.reg .r11), -- 30: adc rdx, r11
  .cmov .nc .rax (.reg .r8), -- 31: cmovnc rax, r8
  .cmov .nc .rbx (.reg .r9), -- 32: cmovnc rbx, r9
  .cmov .nc .rcx (.reg .r10), -- 33: cmovnc rcx, r10
  .cmov .nc .rdx (.reg .r11), -- 34: cmovnc rdx, r11
  .mov (.mem ⟨some .rsp, none, 40#64⟩) (.reg .rax), -- 35: mov [rsp + (5 * 8)], rax
  .mov (.mem ⟨some .rsp, none, 48#64⟩) (.reg .rbx), -- 36: mov [rsp + (5 * 8)+ 8], rbx
  .mov (.mem ⟨some .rsp, none, 56#64⟩) (.reg .rcx), -- 37: mov [rsp + (5 * 8)+ 16], rcx
  .mov (.mem ⟨some .rsp, none, 64#64⟩) (.reg .rdx), -- 38: mov [rsp + (5 * 8)+ 24], rdx
  .xor (.reg .rax) (.reg .rax), -- 39: xor eax, eax
  .mov (.mem ⟨some .rsp, none, 72#64⟩) (.reg .rax), -- 40: mov [rsp + (5 * 8)+ 32], rax
  .xor (.reg .rax) (.reg .rax), -- 41: xor eax, eax
  .mov (.mem ⟨some .rsp, none, 80#64⟩) (.reg .rax), -- 42: mov [rsp + (10 * 8)], rax
  .mov (.mem ⟨some .rsp, none, 88#64⟩) (.reg .rax), -- 43: mov [rsp + (10 * 8)+ 8], rax
  .mov (.mem ⟨some .rsp, none, 96#64⟩) (.reg .rax), -- 44: mov [rsp + (10 * 8)+ 16], rax
  .mov (.mem ⟨some .rsp, none, 104#64⟩) (.reg .rax), -- 45: mov [rsp + (10 * 8)+ 24], rax
  .mov (.reg .rcx) (.imm 0x4000000000000#64), -- 46: mov rcx, 0x0004000000000000
  .mov (.mem ⟨some .rsp, none, 120#64⟩) (.reg .rcx), -- 47: mov [rsp + (15 * 8)], rcx
  .mov (.mem ⟨some .rsp, none, 128#64⟩) (.reg .rax), -- 48: mov [rsp + (15 * 8)+ 8], rax
  .mov (.mem ⟨some .rsp, none, 136#64⟩) (.reg .rax), -- 49: mov [rsp + (15 * 8)+ 16], rax
  .mov (.mem ⟨some .rsp, none, 144#64⟩) (.reg .rax), -- 50: mov [rsp + (15 * 8)+ 24], rax
  .mov (.mem ⟨some .rsp, none, 176#64⟩) (.imm 10#64), -- 51: mov QWORD PTR [rsp + (22 * 8)], 10
  .mov (.mem ⟨some .rsp, none, 184#64⟩) (.imm 1#64), -- 52: mov QWORD PTR [rsp + (23 * 8)], 1
  .jmp 378, -- 53: jmp @2f
  .mov (.reg .r9) (.reg .r8), -- 54: mov r9, r8
  .sar (.reg .r9) (.imm 63#64), -- 55: sar r9, 63
  .xor (.reg .r8) (.reg .r9), -- 56: xor r8, r9
  .sub (.reg .r8) (.reg .r9), -- 57: sub r8, r9
  .mov (.reg .r11) (.reg .r10), -- 58: mov r11, r10
  .sar (.reg .r11) (.imm 63#64), -- 59: sar r11, 63
  .xor (.reg .r10) (.reg .r11), -- 60: xor r10, r11
  .sub (.reg .r10) (.reg .r11), -- 61: sub r10, r11
  .mov (.reg .r13) (.reg .r12), -- 62: mov r13, r12
  .sar (.reg .r13) (.imm 63#64), -- 63: sar r13, 63
  .xor (.reg .r12) (.reg .r13), -- 64: xor r12, r13
  .sub (.reg .r12) (.reg .r13), -- 65: sub r12, r13
  .mov (.reg .r15) (.reg .r14), -- 66: mov r15, r14
  .sar (.reg .r15) (.imm 63#64), -- 67: sar r15, 63
  .xor (.reg .r14) (.reg .r15), -- 68: xor r14, r15
  .sub (.reg .r14) (.reg .r15), -- 69: sub r14, r15
  .mov (.reg .rax) (.reg .r8), -- 70: mov rax, r8
  .and (.reg .rax) (.reg .r9), -- 71: and rax, r9
  .mov (.reg .rdi) (.reg .r10), -- 72: mov rdi, r10
  .and (.reg .rdi) (.reg .r11), -- 73: and rdi, r11
  .add (.reg .rdi) (.reg .rax), -- 74: add rdi, rax
  .mov (.mem ⟨some .rsp, none, 160#64⟩) (.reg .rdi), -- 75: mov QWORD PTR [rsp + (20 * 8)], rdi
  .mov (.reg .rax) (.reg .r12), -- 76: mov rax, r12
  .and (.reg .rax) (.reg .r13), -- 77: and rax, r13
  .mov (.reg .rsi) (.reg .r14), -- 78: mov rsi, r14
  .and (.reg .rsi) (.reg .r15), -- 79: and rsi, r15
  .add (.reg .rsi) (.reg .rax), -- 80: add rsi, rax
  .mov (.mem ⟨some .rsp, none, 168#64⟩) (.reg .rsi), -- 81: mov QWORD PTR [rsp + (21 * 8)], rsi
  .xor (.reg .rbx) (.reg .rbx), -- 82: xor ebx, ebx
  .mov (.reg .rax) (.mem ⟨some .rsp, none, 0#64⟩), -- 83: mov rax, [rsp + 0]
  .xor (.reg .rax) (.reg .r9), -- 84: xor rax, r9
  .mul (.reg .r8), -- 85: mul r8
  .add (.reg .rdi) (.reg .rax), -- 86: add rdi, rax
  .adc (.reg .rbx) (.reg .rdx), -- 87: adc rbx, rdx
  .mov (.reg .rax) (.mem ⟨some .rsp, none, 40#64⟩), -- 88: mov rax, [rsp + (5 * 8)]
  .xor (.reg .rax) (.reg .r11), -- 89: xor rax, r11
  .mul (.reg .r10), -- 90: mul r10
  .add (.reg .rdi) (.reg .rax), -- 91: add rdi, rax
  .adc (.reg .rbx) (.reg .rdx), -- 92: adc rbx, rdx
  .xor (.reg .rbp) (.reg .rbp), -- 93: xor ebp, ebp
  .mov (.reg .rax) (.mem ⟨some .rsp, none, 0#64⟩), -- 94: mov rax, [rsp + 0]
  .xor (.reg .rax) (.reg .r13), -- 95: xor rax, r13
  .mul (.reg .r12), -- 96: mul r12
  .add (.reg .rsi) (.reg .rax), -- 97: add rsi, rax
  .adc (.reg .rbp) (.reg .rdx), -- 98: adc rbp, rdx
  .mov (.reg .rax) (.mem ⟨some .rsp, none, 40#64⟩), -- 99: mov rax, [rsp + (5 * 8)]
  .xor (.reg .rax) (.reg .r15), -- 100: xor rax, r15
  .mul (.reg .r14), -- 101: mul r14
  .add (.reg .rsi) (.reg .rax), -- 102: add rsi, rax
  .adc (.reg .rbp) (.reg .rdx), -- 103: adc rbp, rdx
  .xor (.reg .rcx) (.reg .rcx), -- 104: xor ecx, ecx
  .mov (.reg .rax) (.mem ⟨some .rsp, none, 8#64⟩), -- 105: mov rax, [rsp + 0+ 8]
  .xor (.reg .rax) (.reg .r9), -- 106: xor rax, r9
  .mul (.reg .r8), -- 107: mul r8
  .add (.reg .rbx) (.reg .rax), -- 108: add rbx, rax
  .adc (.reg .rcx) (.reg .rdx), -- 109: adc rcx, rdx
  .mov (.reg .rax) (.mem ⟨some .rsp, none, 48#64⟩), -- 110: mov rax, [rsp + (5 * 8)+ 8]
  .xor (.reg .rax) (.reg .r11), -- 111: xor rax, r11
  .mul (.reg .r10), -- 112: mul r10
  .add (.reg .rbx) (.reg .rax), -- 113: add rbx, rax
  .adc (.reg .rcx) (.reg .rdx), -- 114: adc rcx, rdx
  .shrd (.reg .rdi) .rbx (.imm 59#64), -- 115: shrd rdi, rbx, 59
  .mov (.mem ⟨some .rsp, none, 0#64⟩) (.reg .rdi), -- 116: mov [rsp + 0], rdi
  .xor (.reg .rdi) (.reg .rdi), -- 117: xor edi, edi
  .mov (.reg .rax) (.mem ⟨some .rsp, none, 8#64⟩), -- 118: mov rax, [rsp + 0+ 8]
  .xor (.reg .rax) (.reg .r13), -- 119: xor rax, r13
  .mul (.reg .r12), -- 120: mul r12
  .add (.reg .rbp) (.reg .rax), -- 121: add rbp, rax
  .adc (.reg .rdi) (.reg .rdx), -- 122: adc rdi, rdx
  .mov (.reg .rax) (.mem ⟨some .rsp, none, 48#64⟩), -- 123: mov rax, [rsp + (5 * 8)+ 8]
  .xor (.reg .rax) (.reg .r15), -- 124: xor rax, r15
  .mul (.reg .r14), -- 125: mul r14
  .add (.reg .rbp) (.reg .rax), -- 126: add rbp, rax
  .adc (.reg .rdi) (.reg .rdx), -- 127: adc rdi, rdx
  .shrd (.reg .rsi) .rbp (.imm 59#64), -- 128: shrd rsi, rbp, 59
  .mov (.mem ⟨some .rsp, none, 40#64⟩) (.reg .rsi), -- 129: mov [rsp + (5 * 8)], rsi
  .xor (.reg .rsi) (.reg .rsi), -- 130: xor esi, esi
  .mov (.reg .rax) (.mem ⟨some .rsp, none, 16#64⟩), -- 131: mov rax, [rsp + 0+ 2 * 8]
  .xor (.reg .rax) (.reg .r9), -- 132: xor rax, r9
  .mul (.reg .r8), -- 133: mul r8
  .add (.reg .rcx) (.reg .rax), -- 134: add rcx, rax
  .adc (.reg .rsi) (.reg .rdx), -- 135: adc rsi, rdx
  .mov (.reg .rax) (.mem ⟨some .rsp, none, 56#64⟩), -- 136: mov rax, [rsp + (5 * 8)+ 2 * 8]
  .xor (.reg .rax) (.reg .r11), -- 137: xor rax, r11
  .mul (.reg .r10), -- 138: mul r10
  .add (.reg .rcx) (.reg .rax), -- 139: add rcx, rax
  .adc (.reg .rsi) (.reg .rdx), -- 140: adc rsi, rdx
  .shrd (.reg .rbx) .rcx (.imm 59#64), -- 141: shrd rbx, rcx, 59
  .mov (.mem ⟨some .rsp, none, 8#64⟩) (.reg .rbx), -- 142: mov [rsp + 0+ 8], rbx
  .xor (.reg .rbx) (.reg .rbx), -- 143: xor ebx, ebx
  .mov (.reg .rax) (.mem ⟨some .rsp, none, 16#64⟩), -- 144: mov rax, [rsp + 0+ 2 * 8]
  .xor (.reg .rax) (.reg .r13), -- 145: xor rax, r13
  .mul (.reg .r12), -- 146: mul r12
  .add (.reg .rdi) (.reg .rax), -- 147: add rdi, rax
  .adc (.reg .rbx) (.reg .rdx), -- 148: adc rbx, rdx
  .mov (.reg .rax) (.mem ⟨some .rsp, none, 56#64⟩), -- 149: mov rax, [rsp + (5 * 8)+ 2 * 8]
  .xor (.reg .rax) (.reg .r15), -- 150: xor rax, r15
  .mul (.reg .r14), -- 151: mul r14
  .add (.reg .rdi) (.reg .rax), -- 152: add rdi, rax
  .adc (.reg .rbx) (.reg .rdx), -- 153: adc rbx, rdx
  .shrd (.reg .rbp) .rdi (.imm 59#64), -- 154: shrd rbp, rdi, 59
  .mov (.mem ⟨some .rsp, none, 48#64⟩) (.reg .rbp), -- 155: mov [rsp + (5 * 8)+ 8], rbp
  .mov (.reg .rax) (.mem ⟨some .rsp, none, 24#64⟩), -- 156: mov rax, [rsp + 0+ 3 * 8]
  .xor (.reg .rax) (.reg .r9), -- 157: xor rax, r9
  .mov (.reg .rbp) (.mem ⟨some .rsp, none, 32#64⟩), -- 158: mov rbp, [rsp + 0+ 4 * 8]
  .xor (.reg .rbp) (.reg .r9), -- 159: xor rbp, r9
  .and (.reg .rbp) (.reg .r8), -- 160: and rbp, r8
  .neg (.reg .rbp), -- 161: neg rbp
  .mul (.reg .r8), -- 162: mul r8
  .add (.reg .rsi) (.reg .rax), -- 163: add rsi, rax
  .adc (.reg .rbp) (.reg .rdx), -- 164: adc rbp, rdx
  .mov (.reg .rax) (.mem ⟨some .rsp, none, 64#64⟩), -- 165: mov rax, [rsp + (5 * 8)+ 3 * 8]
  .xor (.reg .rax) (.reg .r11), -- 166: xor rax, r11
  .mov (.reg .rdx) (.mem ⟨some .rsp, none, 72#64⟩), -- 167: mov rdx, [rsp + (5 * 8)+ 4 * 8]
  .xor (.reg .rdx) (.reg .r11), -- 168: xor rdx, r11
  .and (.reg .rdx) (.reg .r10), -- 169: and rdx, r10
  .sub (.reg .rbp) (.reg .rdx), -- 170: sub rbp, rdx
  .mul (.reg .r10), -- 171: mul r10
  .add (.reg .rsi) (.reg .rax), -- 172: add rsi, rax
  .adc (.reg .rbp) (.reg .rdx), -- 173: adc rbp, rdx
  .shrd (.reg .rcx) .rsi (.imm 59#64), -- 174: shrd rcx, rsi, 59
  .mov (.mem ⟨some .rsp, none, 16#64⟩) (.reg .rcx), -- 175: mov [rsp + 0+ 2 * 8], rcx
  .shrd (.reg .rsi) .rbp (.imm 59#64), -- 176: shrd rsi, rbp, 59
  .sar (.reg .rbp) (.imm 59#64), -- 177: sar rbp, 59
  .mov (.reg .rax) (.mem ⟨some .rsp, none, 24#64⟩), -- 178: mov rax, [rsp + 0+ 3 * 8]
  .mov (.mem ⟨some .rsp, none, 24#64⟩) (.reg .rsi), -- 179: mov [rsp + 0+ 3 * 8], rsi
  .mov (.reg .rsi) (.mem ⟨some .rsp, none, 32#64⟩), -- 180: mov rsi, [rsp + 0+ 4 * 8]
  .mov (.mem ⟨some .rsp, none, 32#64⟩) (.reg .rbp), -- 181: mov [rsp + 0+ 4 * 8], rbp
  .xor (.reg .rax) (.reg .r13), -- 182: xor rax, r13
  .xor (.reg .rsi) (.reg .r13), -- 183: xor rsi, r13
  .and (.reg .rsi) (.reg .r12), -- 184: and rsi, r12
  .neg (.reg .rsi), -- 185: neg rsi
  .mul (.reg .r12), -- 186: mul r12
  .add (.reg .rbx) (.reg .rax), -- 187: add rbx, rax
  .adc (.reg .rsi) (.reg .rdx), -- 188: adc rsi, rdx
  .mov (.reg .rax) (.mem ⟨some .rsp, none, 64#64⟩), -- 189: mov rax, [rsp + (5 * 8)+ 3 * 8]
  .xor (.reg .rax) (.reg .r15), -- 190: xor rax, r15
  .mov (.reg .rdx) (.mem ⟨some .rsp, none, 72#64⟩), -- 191: mov rdx, [rsp + (5 * 8)+ 4 * 8]
  .xor (.reg .rdx) (.reg .r15), -- 192: xor rdx, r15
  .and (.reg .rdx) (.reg .r14), -- 193: and rdx, r14
  .sub (.reg .rsi) (.reg .rdx), -- 194: sub rsi, rdx
  .mul (.reg .r14), -- 195: mul r14
  .add (.reg .rbx) (.reg .rax), -- 196: add rbx, rax
  .adc (.reg .rsi) (.reg .rdx), -- 197: adc rsi, rdx
  .shrd (.reg .rdi) .rbx (.imm 59#64), -- 198: shrd rdi, rbx, 59
  .mov (.mem ⟨some .rsp, none, 56#64⟩) (.reg .rdi), -- 199: mov [rsp + (5 * 8)+ 2 * 8], rdi
  .shrd (.reg .rbx) .rsi (.imm 59#64), -- 200: shrd rbx, rsi, 59
  .mov (.mem ⟨some .rsp, none, 64#64⟩) (.reg .rbx), -- 201: mov [rsp + (5 * 8)+ 3 * 8], rbx
  .sar (.reg .rsi) (.imm 59#64), -- 202: sar rsi, 59
  .mov (.mem ⟨some .rsp, none, 72#64⟩) (.reg .rsi), -- 203: mov [rsp + (5 * 8)+ 4 * 8], rsi
  .mov (.reg .rbx) (.mem ⟨some .rsp, none, 160#64⟩), -- 204: mov rbx, QWORD PTR [rsp + (20 * 8)]
  .mov (.reg .rbp) (.mem ⟨some .rsp, none, 168#64⟩), -- 205: mov rbp, QWORD PTR [rsp + (21 * 8)]
  .xor (.reg .rcx) (.reg .rcx), -- 206: xor ecx, ecx
  .mov (.reg .rax) (.mem ⟨some .rsp, none, 80#64⟩), -- 207: mov rax, [rsp + (10 * 8)]
  .xor (.reg .rax) (.reg .r9), -- 208: xor rax, r9
  .mul (.reg .r8), -- 209: mul r8
  .add (.reg .rbx) (.reg .rax), -- 210: add rbx, rax
  .adc (.reg .rcx) (.reg .rdx), -- 211: adc rcx, rdx
  .mov (.reg .rax) (.mem ⟨some .rsp, none, 120#64⟩), -- 212: mov rax, [rsp + (15 * 8)]
  .xor (.reg .rax) (.reg .r11), -- 213: xor rax, r11
  .mul (.reg .r10), -- 214: mul r10
  .add (.reg .rbx) (.reg .rax), -- 215: add rbx, rax
  .adc (.reg .rcx) (.reg .rdx), -- 216: adc rcx, rdx
  .xor (.reg .rsi) (.reg .rsi), -- 217: xor esi, esi
  .mov (.reg .rax) (.mem ⟨some .rsp, none, 80#64⟩), -- 218: mov rax, [rsp + (10 * 8)]
  .xor (.reg .rax) (.reg .r13), -- 219: xor rax, r13
  .mul (.reg .r12), -- 220: mul r12
  .mov (.mem ⟨some .rsp, none, 80#64⟩) (.reg .rbx), -- 221: mov [rsp + (10 * 8)], rbx
  .add (.reg .rbp) (.reg .rax), -- 222: add rbp, rax
  .adc (.reg .rsi) (.reg .rdx), -- 223: adc rsi, rdx
  .mov (.reg .rax) (.mem ⟨some .rsp, none, 120#64⟩), -- 224: mov rax, [rsp + (15 * 8)]
  .xor (.reg .rax) (.reg .r15), -- 225: xor rax, r15
  .mul (.reg .r14), -- 226: mul r14
  .add (.reg .rbp) (.reg .rax), -- 227: add rbp, rax
  .adc (.reg .rsi) (.reg .rdx), -- 228: adc rsi, rdx
  .mov (.mem ⟨some .rsp, none, 120#64⟩) (.reg .rbp), -- 229: mov [rsp + (15 * 8)], rbp
  .xor (.reg .rbx) (.reg .rbx), -- 230: xor ebx, ebx
  .mov (.reg .rax) (.mem ⟨some .rsp, none, 88#64⟩), -- 231: mov rax, [rsp + (10 * 8)+ 8]
  .xor (.reg .rax) (.reg .r9), -- 232: xor rax, r9
  .mul (.reg .r8), -- 233: mul r8
  .add (.reg .rcx) (.reg .rax), -- 234: add rcx, rax
  .adc (.reg .rbx) (.reg .rdx), -- 235: adc rbx, rdx
  .mov (.reg .rax) (.mem ⟨some .rsp, none, 128#64⟩), -- 236: mov rax, [rsp + (15 * 8)+ 8]
  .xor (.reg .rax) (.reg .r11), -- 237: xor rax, r11
  .mul (.reg .r10), -- 238: mul r10
  .add (.reg .rcx) (.reg .rax), -- 239: add rcx, rax
  .adc (.reg .rbx) (.reg .rdx), -- 240: adc rbx, rdx
  .xor (.reg .rbp) (.reg .rbp), -- 241: xor ebp, ebp
  .mov (.reg .rax) (.mem ⟨some .rsp, none, 88#64⟩), -- 242: mov rax, [rsp + (10 * 8)+ 8]
  .xor (.reg .rax) (.reg .r13), -- 243: xor rax, r13
  .mul (.reg .r12), -- 244: mul r12
  .mov (.mem ⟨some .rsp, none, 88#64⟩) (.reg .rcx), -- 245: mov [rsp + (10 * 8)+ 8], rcx
  .add (.reg .rsi) (.reg .rax), -- 246: add rsi, rax
  .adc (.reg .rbp) (.reg .rdx), -- 247: adc rbp, rdx
  .mov (.reg .rax) (.mem ⟨some .rsp, none, 128#64⟩), -- 248: mov rax, [rsp + (15 * 8)+ 8]
  .xor (.reg .rax) (.reg .r15), -- 249: xor rax, r15
  .mul (.reg .r14), -- 250: mul r14
  .add (.reg .rsi) (.reg .rax), -- 251: add rsi, rax
  .adc (.reg .rbp) (.reg .rdx), -- 252: adc rbp, rdx
  .mov (.mem ⟨some .rsp, none, 128#64⟩) (.reg .rsi), -- 253: mov [rsp + (15 * 8)+ 8], rsi
  .xor (.reg .rcx) (.reg .rcx), -- 254: xor ecx, ecx
  .mov (.reg .rax) (.mem ⟨some .rsp, none, 96#64⟩), -- 255: mov rax, [rsp + (10 * 8)+ 2 * 8]
  .xor (.reg .rax) (.reg .r9), -- 256: xor rax, r9
  .mul (.reg .r8), -- 257: mul r8
  .add (.reg .rbx) (.reg .rax), -- 258: add rbx, rax
  .adc (.reg .rcx) (.reg .rdx), -- 259: adc rcx, rdx
  .mov (.reg .rax) (.mem ⟨some .rsp, none, 136#64⟩), -- 260: mov rax, [rsp + (15 * 8)+ 2 * 8]
  .xor (.reg .rax) (.reg .r11), -- 261: xor rax, r11
  .mul (.reg .r10), -- 262: mul r10
  .add (.reg .rbx) (.reg .rax), -- 263: add rbx, rax
  .adc (.reg .rcx) (.reg .rdx), -- 264: adc rcx, rdx
  .xor (.reg .rsi) (.reg .rsi), -- 265: xor esi, esi
  .mov (.reg .rax) (.mem ⟨some .rsp, none, 96#64⟩), -- 266: mov rax, [rsp + (10 * 8)+ 2 * 8]
  .xor (.reg .rax) (.reg .r13), -- 267: xor rax, r13
  .mul (.reg .r12), -- 268: mul r12
  .mov (.mem ⟨some .rsp, none, 96#64⟩) (.reg .rbx), -- 269: mov [rsp + (10 * 8)+ 2 * 8], rbx
  .add (.reg .rbp) (.reg .rax), -- 270: add rbp, rax
  .adc (.reg .rsi) (.reg .rdx), -- 271: adc rsi, rdx
  .mov (.reg .rax) (.mem ⟨some .rsp, none, 136#64⟩), -- 272: mov rax, [rsp + (15 * 8)+ 2 * 8]
  .xor (.reg .rax) (.reg .r15), -- 273: xor rax, r15
  .mul (.reg .r14), -- 274: mul r14
  .add (.reg .rbp) (.reg .rax), -- 275: add rbp, rax
  .adc (.reg .rsi) (.reg .rdx), -- 276: adc rsi, rdx
  .mov (.mem ⟨some .rsp, none, 136#64⟩) (.reg .rbp), -- 277: mov [rsp + (15 * 8)+ 2 * 8], rbp
  .mov (.reg .rax) (.mem ⟨some .rsp, none, 104#64⟩), -- 278: mov rax, [rsp + (10 * 8)+ 3 * 8]
  .xor (.reg .rax) (.reg .r9), -- 279: xor rax, r9
  .mov (.reg .rbx) (.reg .r9), -- 280: mov rbx, r9
  .and (.reg .rbx) (.reg .r8), -- 281: and rbx, r8
  .neg (.reg .rbx), -- 282: neg rbx
  .mul (.reg .r8), -- 283: mul r8
  .add (.reg .rcx) (.reg .rax), -- 284: add rcx, rax
  .adc (.reg .rbx) (.reg .rdx), -- 285: adc rbx, rdx
  .mov (.reg .rax) (.mem ⟨some .rsp, none, 144#64⟩), -- 286: mov rax, [rsp + (15 * 8)+ 3 * 8]
  .xor (.reg .rax) (.reg .r11), -- 287: xor rax, r11
  .mov (.reg .rdx) (.reg .r11), -- 288: mov rdx, r11
  .and (.reg .rdx) (.reg .r10), -- 289: and rdx, r10
  .sub (.reg .rbx) (.reg .rdx), -- 290: sub rbx, rdx
  .mul (.reg .r10), -- 291: mul r10
  .add (.reg .rcx) (.reg .rax), -- 292: add rcx, rax
  .adc (.reg .rdx) (.reg .rbx), -- 293: adc rdx, rbx
  .mov (.reg .rax) (.mem ⟨some .rsp, none, 104#64⟩), -- 294: mov rax, [rsp + (10 * 8)+ 3 * 8]
  .mov (.mem ⟨some .rsp, none, 104#64⟩) (.reg .rcx), -- 295: mov [rsp + (10 * 8)+ 3 * 8], rcx
  .mov (.mem ⟨some .rsp, none, 112#64⟩) (.reg .rdx), -- 296: mov [rsp + (10 * 8)+ 4 * 8], rdx
  .xor (.reg .rax) (.reg .r13), -- 297: xor rax, r13
  .mov (.reg .rcx) (.reg .r13), -- 298: mov rcx, r13
  .and (.reg .rcx) (.reg .r12), -- 299: and rcx, r12
  .neg (.reg .rcx), -- 300: neg rcx
  .mul (.reg .r12), -- 301: mul r12
  .add (.reg .rsi) (.reg .rax), -- 302: add rsi, rax
  .adc (.reg .rcx) (.reg .rdx), -- 303: adc rcx, rdx
  .mov (.reg .rax) (.mem ⟨some .rsp, none, 144#64⟩), -- 304: mov rax, [rsp + (15 * 8)+ 3 * 8]
  .xor (.reg .rax) (.reg .r15), -- 305: xor rax, r15
  .mov (.reg .rdx) (.reg .r15), -- 306: mov rdx, r15
  .and (.reg .rdx) (.reg .r14), -- 307: and rdx, r14
  .sub (.reg .rcx) (.reg .rdx), -- 308: sub rcx, rdx
  .mul (.reg .r14), -- 309: mul r14
  .add (.reg .rsi) (.reg .rax), -- 310: add rsi, rax
  .adc (.reg .rdx) (.reg .rcx), -- 311: adc rdx, rcx
  .mov (.mem ⟨some .rsp, none, 144#64⟩) (.reg .rsi), -- 312: mov [rsp + (15 * 8)+ 3 * 8], rsi
  .mov (.mem ⟨some .rsp, none, 152#64⟩) (.reg .rdx), -- 313: mov [rsp + (15 * 8)+ 4 * 8], rdx
  .mov (.reg .r8) (.imm 0xe000000000000000#64), -- 314: mov r8, 0xe000000000000000
  .add (.reg .r8) (.mem ⟨some .rsp, none, 80#64⟩), -- 315: add r8, [rsp + (10 * 8)]
  .mov (.reg .r9) (.imm 0xffffffffffffffff#64), -- 316: mov r9, 0xffffffffffffffff
  .adc (.reg .r9) (.mem ⟨some .rsp, none, 88#64⟩), -- 317: adc r9, [rsp + (10 * 8)+ 8]
  .mov (.reg .r10) (.imm 0x1fffffff#64), -- 318: mov r10, 0x000000001fffffff
  .adc (.reg .r10) (.mem ⟨some .rsp, none, 96#64⟩), -- 319: adc r10, [rsp + (10 * 8)+ 16]
  .mov (.reg .r11) (.imm 0x2000000000000000#64), -- 320: mov r11, 0x2000000000000000
  .adc (.reg .r11) (.mem ⟨some .rsp, none, 104#64⟩), -- 321: adc r11, [rsp + (10 * 8)+ 24]
  .mov (.reg .r12) (.imm 0x1fffffffe0000000#64), -- 322: mov r12, 0x1fffffffe0000000
  .adc (.reg .r12) (.mem ⟨some .rsp, none, 112#64⟩), -- 323: adc r12, [rsp + (10 * 8)+ 32]
  .mov (.reg .rbx) (.reg .r8), -- 324: mov rbx, r8
  .shl (.reg .rbx) (.imm 32#64), -- 325: shl rbx, 32
  .mov (.reg .rax) (.imm 0xffffffff00000001#64), -- 326: mov rax, 0xffffffff00000001
  .mul (.reg .r8), -- 327: mul r8
  .shr (.reg .r8) (.imm 32#64), -- 328: shr r8, 32
  .add (.reg .r9) (.reg .rbx), -- 329: add r9, rbx
  .adc (.reg .r10) (.reg .r8), -- 330: adc r10, r8
  .adc (.reg .r11) (.reg .rax), -- 331: adc r11, rax
  .adc (.reg .r12) (.reg .rdx), -- 332: adc r12, rdx
  .sbb (.reg .rax) (.reg .rax), -- 333: sbb rax, rax
  .mov (.reg .rbx) (.imm 0xffffffff#64), -- 334: mov ebx, 0x00000000ffffffff
  .and (.reg .rbx) (.reg .rax), -- 335: and rbx, rax
  .mov (.reg .rdx) (.imm 0xffffffff00000001#64), -- 336: mov rdx, 0xffffffff00000001
  .and (.reg .rdx) (.reg .rax), -- 337: and rdx, rax
  .sub (.reg .r9) (.reg .rax), -- 338: sub r9, rax
  .mov (.mem ⟨some .rsp, none, 80#64⟩) (.reg .r9), -- 339: mov [rsp + (10 * 8)], r9
  .sbb (.reg .r10) (.reg .rbx), -- 340: sbb r10, rbx
  .mov (.mem ⟨some .rsp, none, 88#64⟩) (.reg .r10), -- 341: mov [rsp + (10 * 8)+ 8], r10
  .sbb (.reg .r11) (.imm 0#64), -- 342: sbb r11, 0
  .mov (.mem ⟨some .rsp, none, 96#64⟩) (.reg .r11), -- 343: mov [rsp + (10 * 8)+ 16], r11
  .sbb (.reg .r12) (.reg .rdx), -- 344: sbb r12, rdx
  .mov (.mem ⟨some .rsp, none, 104#64⟩) (.reg .r12), -- 345: mov [rsp + (10 * 8)+ 24], r12
  .mov (.reg .r8) (.imm 0xe000000000000000#64), -- 346: mov r8, 0xe000000000000000
  .add (.reg .r8) (.mem ⟨some .rsp, none, 120#64⟩), -- 347: add r8, [rsp + (15 * 8)]
  .mov (.reg .r9) (.imm 0xffffffffffffffff#64), -- 348: mov r9, 0xffffffffffffffff
  .adc (.reg .r9) (.mem ⟨some .rsp, none, 128#64⟩), -- 349: adc r9, [rsp + (15 * 8)+ 8]
  .mov (.reg .r10) (.imm 0x1fffffff#64), -- 350: mov r10, 0x000000001fffffff
  .adc (.reg .r10) (.mem ⟨some .rsp, none, 136#64⟩), -- 351: adc r10, [rsp + (15 * 8)+ 16]
  .mov (.reg .r11) (.imm 0x2000000000000000#64), -- 352: mov r11, 0x2000000000000000
  .adc (.reg .r11) (.mem ⟨some .rsp, none, 144#64⟩), -- 353: adc r11, [rsp + (15 * 8)+ 24]
  .mov (.reg .r12) (.imm 0x1fffffffe0000000#64), -- 354: mov r12, 0x1fffffffe0000000
  .adc (.reg .r12) (.mem ⟨some .rsp, none, 152#64⟩), -- 355: adc r12, [rsp + (15 * 8)+ 32]
  .mov (.reg .rbx) (.reg .r8), -- 356: mov rbx, r8
  .shl (.reg .rbx) (.imm 32#64), -- 357: shl rbx, 32
  .mov (.reg .rax) (.imm 0xffffffff00000001#64), -- 358: mov rax, 0xffffffff00000001
  .mul (.reg .r8), -- 359: mul r8
  .shr (.reg .r8) (.imm 32#64), -- 360: shr r8, 32
  .add (.reg .r9) (.reg .rbx), -- 361: add r9, rbx
  .adc (.reg .r10) (.reg .r8), -- 362: adc r10, r8
  .adc (.reg .r11) (.reg .rax), -- 363: adc r11, rax
  .adc (.reg .r12) (.reg .rdx), -- 364: adc r12, rdx
  .sbb (.reg .rax) (.reg .rax), -- 365: sbb rax, rax
  .mov (.reg .rbx) (.imm 0xffffffff#64), -- 366: mov ebx, 0x00000000ffffffff
  .and (.reg .rbx) (.reg .rax), -- 367: and rbx, rax
  .mov (.reg .rdx) (.imm 0xffffffff00000001#64), -- 368: mov rdx, 0xffffffff00000001
  .and (.reg .rdx) (.reg .rax), -- 369: and rdx, rax
  .sub (.reg .r9) (.reg .rax), -- 370: sub r9, rax
  .mov (.mem ⟨some .rsp, none, 120#64⟩) (.reg .r9), -- 371: mov [rsp + (15 * 8)], r9
  .sbb (.reg .r10) (.reg .rbx), -- 372: sbb r10, rbx
  .mov (.mem ⟨some .rsp, none, 128#64⟩) (.reg .r10), -- 373: mov [rsp + (15 * 8)+ 8], r10
  .sbb (.reg .r11) (.imm 0#64), -- 374: sbb r11, 0
  .mov (.mem ⟨some .rsp, none, 136#64⟩) (.reg .r11), -- 375: mov [rsp + (15 * 8)+ 16], r11
  .sbb (.reg .r12) (.reg .rdx), -- 376: sbb r12, rdx
  .mov (.mem ⟨some .rsp, none, 144#64⟩) (.reg .r12), -- 377: mov [rsp + (15 * 8)+ 24], r12
  .mov (.reg .rsi) (.mem ⟨some .rsp, none, 184#64⟩), -- 378: mov rsi, QWORD PTR [rsp + (23 * 8)]
  .mov (.reg .rdx) (.mem ⟨some .rsp, none, 0#64⟩), -- 379: mov rdx, QWORD PTR [rsp]
  .mov (.reg .rcx) (.mem ⟨some .rsp, none, 40#64⟩), -- 380: mov rcx, QWORD PTR [rsp + (5 * 8)]
  .mov (.reg .rbx) (.reg .rdx), -- 381: mov rbx, rdx
  .and (.reg .rbx) (.imm 0xfffff#64), -- 382: and rbx, 0xfffff
  .mov (.reg .rax) (.imm 0xfffffe0000000000#64), -- 383: movabs rax, 0xfffffe0000000000
  .or (.reg .rbx) (.reg .rax), -- 384: or rbx, rax
  .and (.reg .rcx) (.imm 0xfffff#64), -- 385: and rcx, 0xfffff
  .mov (.reg .rax) (.imm 0xc000000000000000#64), -- 386: movabs rax, 0xc000000000000000
  .or (.reg .rcx) (.reg .rax), -- 387: or rcx, rax
  .mov (.reg .rax) (.imm 0xfffffffffffffffe#64), -- 388: mov rax, 0xfffffffffffffffe
  .xor (.reg .rbp) (.reg .rbp), -- 389: xor ebp, ebp
  .mov (.reg .rdx) (.imm 2#64), -- 390: mov edx, 0x2
  .mov (.reg .rdi) (.reg .rbx), -- 391: mov rdi, rbx
  .mov (.reg .r8) (.reg .rax), -- 392: mov r8, rax
  .test (.reg .rsi) (.reg .rsi), -- 393: test rsi, rsi
  .cmov .sg .r8 (.reg .rbp), -- 394: cmovs r8, rbp
  .test (.reg .rcx) (.imm 1#64), -- 395: test rcx, 0x1
  .cmov .zr .r8 (.reg .rbp), -- 396: cmove r8, rbp
  .cmov .zr .rdi (.reg .rbp), -- 397: cmove rdi, rbp
  .xor (.reg .rdi) (.reg .r8), -- 398: xor rdi, r8
  .xor (.reg .rsi) (.reg .r8), -- 399: xor rsi, r8
  .bt (.reg .r8) 63#64, -- 400: bt r8, 0x3f
  .cmov .cy .rbx (.reg .rcx), -- 401: cmovb rbx, rcx
  .mov (.reg .r8) (.reg .rax), -- 402: mov r8, rax
  .sub (.reg .rsi) (.reg .rax), -- 403: sub rsi, rax
  .lea .rcx ⟨some .rcx, some (.rdi, 1#64), 0#64⟩, -- 404: lea rcx, [rcx + rdi]
  .cmov .sg .r8 (.reg .rbp), -- 405: cmovs r8, rbp
  .mov (.reg .rdi) (.reg .rbx), -- 406: mov rdi, rbx
  .test (.reg .rcx) (.reg .rdx), -- 407: test rcx, rdx
  .cmov .zr .r8 (.reg .rbp), -- 408: cmove r8, rbp
  .cmov .zr .rdi (.reg .rbp), -- 409: cmove rdi, rbp
  .sar (.reg .rcx) (.imm 1#64), -- 410: sar rcx, 1
  .xor (.reg .rdi) (.reg .r8), -- 411: xor rdi, r8
  .xor (.reg .rsi) (.reg .r8), -- 412: xor rsi, r8
  .bt (.reg .r8) 63#64, -- 413: bt r8, 0x3f
  .cmov .cy .rbx (.reg .rcx), -- 414: cmovb rbx, rcx
  .mov (.reg .r8) (.reg .rax), -- 415: mov r8, rax
  .sub (.reg .rsi) (.reg .rax), -- 416: sub rsi, rax
  .lea .rcx ⟨some .rcx, some (.rdi, 1#64), 0#64⟩, -- 417: lea rcx, [rcx + rdi]
  .cmov .sg .r8 (.reg .rbp), -- 418: cmovs r8, rbp
  .mov (.reg .rdi) (.reg .rbx), -- 419: mov rdi, rbx
  .test (.reg .rcx) (.reg .rdx), -- 420: test rcx, rdx
  .cmov .zr .r8 (.reg .rbp), -- 421: cmove r8, rbp
  .cmov .zr .rdi (.reg .rbp), -- 422: cmove rdi, rbp
  .sar (.reg .rcx) (.imm 1#64), -- 423: sar rcx, 1
  .xor (.reg .rdi) (.reg .r8), -- 424: xor rdi, r8
  .xor (.reg .rsi) (.reg .r8), -- 425: xor rsi, r8
  .bt (.reg .r8) 63#64, -- 426: bt r8, 0x3f
  .cmov .cy .rbx (.reg .rcx), -- 427: cmovb rbx, rcx
  .mov (.reg .r8) (.reg .rax), -- 428: mov r8, rax
  .sub (.reg .rsi) (.reg .rax), -- 429: sub rsi, rax
  .lea .rcx ⟨some .rcx, some (.rdi, 1#64), 0#64⟩, -- 430: lea rcx, [rcx + rdi]
  .cmov .sg .r8 (.reg .rbp), -- 431: cmovs r8, rbp
  .mov (.reg .rdi) (.reg .rbx), -- 432: mov rdi, rbx
  .test (.reg .rcx) (.reg .rdx), -- 433: test rcx, rdx
  .cmov .zr .r8 (.reg .rbp), -- 434: cmove r8, rbp
  .cmov .zr .rdi (.reg .rbp), -- 435: cmove rdi, rbp
  .sar (.reg .rcx) (.imm 1#64), -- 436: sar rcx, 1
  .xor (.reg .rdi) (.reg .r8), -- 437: xor rdi, r8
  .xor (.reg .rsi) (.reg .r8), -- 438: xor rsi, r8
  .bt (.reg .r8) 63#64, -- 439: bt r8, 0x3f
  .cmov .cy .rbx (.reg .rcx), -- 440: cmovb rbx, rcx
  .mov (.reg .r8) (.reg .rax), -- 441: mov r8, rax
  .sub (.reg .rsi) (.reg .rax), -- 442: sub rsi, rax
  .lea .rcx ⟨some .rcx, some (.rdi, 1#64), 0#64⟩, -- 443: lea rcx, [rcx + rdi]
  .cmov .sg .r8 (.reg .rbp), -- 444: cmovs r8, rbp
  .mov (.reg .rdi) (.reg .rbx), -- 445: mov rdi, rbx
  .test (.reg .rcx) (.reg .rdx), -- 446: test rcx, rdx
  .cmov .zr .r8 (.reg .rbp), -- 447: cmove r8, rbp
  .cmov .zr .rdi (.reg .rbp), -- 448: cmove rdi, rbp
  .sar (.reg .rcx) (.imm 1#64), -- 449: sar rcx, 1
  .xor (.reg .rdi) (.reg .r8), -- 450: xor rdi, r8
  .xor (.reg .rsi) (.reg .r8), -- 451: xor rsi, r8
  .bt (.reg .r8) 63#64, -- 452: bt r8, 0x3f
  .cmov .cy .rbx (.reg .rcx), -- 453: cmovb rbx, rcx
  .mov (.reg .r8) (.reg .rax), -- 454: mov r8, rax
  .sub (.reg .rsi) (.reg .rax), -- 455: sub rsi, rax
  .lea .rcx ⟨some .rcx, some (.rdi, 1#64), 0#64⟩, -- 456: lea rcx, [rcx + rdi]
  .cmov .sg .r8 (.reg .rbp), -- 457: cmovs r8, rbp
  .mov (.reg .rdi) (.reg .rbx), -- 458: mov rdi, rbx
  .test (.reg .rcx) (.reg .rdx), -- 459: test rcx, rdx
  .cmov .zr .r8 (.reg .rbp), -- 460: cmove r8, rbp
  .cmov .zr .rdi (.reg .rbp), -- 461: cmove rdi, rbp
  .sar (.reg .rcx) (.imm 1#64), -- 462: sar rcx, 1
  .xor (.reg .rdi) (.reg .r8), -- 463: xor rdi, r8
  .xor (.reg .rsi) (.reg .r8), -- 464: xor rsi, r8
  .bt (.reg .r8) 63#64, -- 465: bt r8, 0x3f
  .cmov .cy .rbx (.reg .rcx), -- 466: cmovb rbx, rcx
  .mov (.reg .r8) (.reg .rax), -- 467: mov r8, rax
  .sub (.reg .rsi) (.reg .rax), -- 468: sub rsi, rax
  .lea .rcx ⟨some .rcx, some (.rdi, 1#64), 0#64⟩, -- 469: lea rcx, [rcx + rdi]
  .cmov .sg .r8 (.reg .rbp), -- 470: cmovs r8, rbp
  .mov (.reg .rdi) (.reg .rbx), -- 471: mov rdi, rbx
  .test (.reg .rcx) (.reg .rdx), -- 472: test rcx, rdx
  .cmov .zr .r8 (.reg .rbp), -- 473: cmove r8, rbp
  .cmov .zr .rdi (.reg .rbp), -- 474: cmove rdi, rbp
  .sar (.reg .rcx) (.imm 1#64), -- 475: sar rcx, 1
  .xor (.reg .rdi) (.reg .r8), -- 476: xor rdi, r8
  .xor (.reg .rsi) (.reg .r8), -- 477: xor rsi, r8
  .bt (.reg .r8) 63#64, -- 478: bt r8, 0x3f
  .cmov .cy .rbx (.reg .rcx), -- 479: cmovb rbx, rcx
  .mov (.reg .r8) (.reg .rax), -- 480: mov r8, rax
  .sub (.reg .rsi) (.reg .rax), -- 481: sub rsi, rax
  .lea .rcx ⟨some .rcx, some (.rdi, 1#64), 0#64⟩, -- 482: lea rcx, [rcx + rdi]
  .cmov .sg .r8 (.reg .rbp), -- 483: cmovs r8, rbp
  .mov (.reg .rdi) (.reg .rbx), -- 484: mov rdi, rbx
  .test (.reg .rcx) (.reg .rdx), -- 485: test rcx, rdx
  .cmov .zr .r8 (.reg .rbp), -- 486: cmove r8, rbp
  .cmov .zr .rdi (.reg .rbp), -- 487: cmove rdi, rbp
  .sar (.reg .rcx) (.imm 1#64), -- 488: sar rcx, 1
  .xor (.reg .rdi) (.reg .r8), -- 489: xor rdi, r8
  .xor (.reg .rsi) (.reg .r8), -- 490: xor rsi, r8
  .bt (.reg .r8) 63#64, -- 491: bt r8, 0x3f
  .cmov .cy .rbx (.reg .rcx), -- 492: cmovb rbx, rcx
  .mov (.reg .r8) (.reg .rax), -- 493: mov r8, rax
  .sub (.reg .rsi) (.reg .rax), -- 494: sub rsi, rax
  .lea .rcx ⟨some .rcx, some (.rdi, 1#64), 0#64⟩, -- 495: lea rcx, [rcx + rdi]
  .cmov .sg .r8 (.reg .rbp), -- 496: cmovs r8, rbp
  .mov (.reg .rdi) (.reg .rbx), -- 497: mov rdi, rbx
  .test (.reg .rcx) (.reg .rdx), -- 498: test rcx, rdx
  .cmov .zr .r8 (.reg .rbp), -- 499: cmove r8, rbp
  .cmov .zr .rdi (.reg .rbp), -- 500: cmove rdi, rbp
  .sar (.reg .rcx) (.imm 1#64), -- 501: sar rcx, 1
  .xor (.reg .rdi) (.reg .r8), -- 502: xor rdi, r8
  .xor (.reg .rsi) (.reg .r8), -- 503: xor rsi, r8
  .bt (.reg .r8) 63#64, -- 504: bt r8, 0x3f
  .cmov .cy .rbx (.reg .rcx), -- 505: cmovb rbx, rcx
  .mov (.reg .r8) (.reg .rax), -- 506: mov r8, rax
  .sub (.reg .rsi) (.reg .rax), -- 507: sub rsi, rax
  .lea .rcx ⟨some .rcx, some (.rdi, 1#64), 0#64⟩, -- 508: lea rcx, [rcx + rdi]
  .cmov .sg .r8 (.reg .rbp), -- 509: cmovs r8, rbp
  .mov (.reg .rdi) (.reg .rbx), -- 510: mov rdi, rbx
  .test (.reg .rcx) (.reg .rdx), -- 511: test rcx, rdx
  .cmov .zr .r8 (.reg .rbp), -- 512: cmove r8, rbp
  .cmov .zr .rdi (.reg .rbp), -- 513: cmove rdi, rbp
  .sar (.reg .rcx) (.imm 1#64), -- 514: sar rcx, 1
  .xor (.reg .rdi) (.reg .r8), -- 515: xor rdi, r8
  .xor (.reg .rsi) (.reg .r8), -- 516: xor rsi, r8
  .bt (.reg .r8) 63#64, -- 517: bt r8, 0x3f
  .cmov .cy .rbx (.reg .rcx), -- 518: cmovb rbx, rcx
  .mov (.reg .r8) (.reg .rax), -- 519: mov r8, rax
  .sub (.reg .rsi) (.reg .rax), -- 520: sub rsi, rax
  .lea .rcx ⟨some .rcx, some (.rdi, 1#64), 0#64⟩, -- 521: lea rcx, [rcx + rdi]
  .cmov .sg .r8 (.reg .rbp), -- 522: cmovs r8, rbp
  .mov (.reg .rdi) (.reg .rbx), -- 523: mov rdi, rbx
  .test (.reg .rcx) (.reg .rdx), -- 524: test rcx, rdx
  .cmov .zr .r8 (.reg .rbp), -- 525: cmove r8, rbp
  .cmov .zr .rdi (.reg .rbp), -- 526: cmove rdi, rbp
  .sar (.reg .rcx) (.imm 1#64), -- 527: sar rcx, 1
  .xor (.reg .rdi) (.reg .r8), -- 528: xor rdi, r8
  .xor (.reg .rsi) (.reg .r8), -- 529: xor rsi, r8
  .bt (.reg .r8) 63#64, -- 530: bt r8, 0x3f
  .cmov .cy .rbx (.reg .rcx), -- 531: cmovb rbx, rcx
  .mov (.reg .r8) (.reg .rax), -- 532: mov r8, rax
  .sub (.reg .rsi) (.reg .rax), -- 533: sub rsi, rax
  .lea .rcx ⟨some .rcx, some (.rdi, 1#64), 0#64⟩, -- 534: lea rcx, [rcx + rdi]
  .cmov .sg .r8 (.reg .rbp), -- 535: cmovs r8, rbp
  .mov (.reg .rdi) (.reg .rbx), -- 536: mov rdi, rbx
  .test (.reg .rcx) (.reg .rdx), -- 537: test rcx, rdx
  .cmov .zr .r8 (.reg .rbp), -- 538: cmove r8, rbp
  .cmov .zr .rdi (.reg .rbp), -- 539: cmove rdi, rbp
  .sar (.reg .rcx) (.imm 1#64), -- 540: sar rcx, 1
  .xor (.reg .rdi) (.reg .r8), -- 541: xor rdi, r8
  .xor (.reg .rsi) (.reg .r8), -- 542: xor rsi, r8
  .bt (.reg .r8) 63#64, -- 543: bt r8, 0x3f
  .cmov .cy .rbx (.reg .rcx), -- 544: cmovb rbx, rcx
  .mov (.reg .r8) (.reg .rax), -- 545: mov r8, rax
  .sub (.reg .rsi) (.reg .rax), -- 546: sub rsi, rax
  .lea .rcx ⟨some .rcx, some (.rdi, 1#64), 0#64⟩, -- 547: lea rcx, [rcx + rdi]
  .cmov .sg .r8 (.reg .rbp), -- 548: cmovs r8, rbp
  .mov (.reg .rdi) (.reg .rbx), -- 549: mov rdi, rbx
  .test (.reg .rcx) (.reg .rdx), -- 550: test rcx, rdx
  .cmov .zr .r8 (.reg .rbp), -- 551: cmove r8, rbp
  .cmov .zr .rdi (.reg .rbp), -- 552: cmove rdi, rbp
  .sar (.reg .rcx) (.imm 1#64), -- 553: sar rcx, 1
  .xor (.reg .rdi) (.reg .r8), -- 554: xor rdi, r8
  .xor (.reg .rsi) (.reg .r8), -- 555: xor rsi, r8
  .bt (.reg .r8) 63#64, -- 556: bt r8, 0x3f
  .cmov .cy .rbx (.reg .rcx), -- 557: cmovb rbx, rcx
  .mov (.reg .r8) (.reg .rax), -- 558: mov r8, rax
  .sub (.reg .rsi) (.reg .rax), -- 559: sub rsi, rax
  .lea .rcx ⟨some .rcx, some (.rdi, 1#64), 0#64⟩, -- 560: lea rcx, [rcx + rdi]
  .cmov .sg .r8 (.reg .rbp), -- 561: cmovs r8, rbp
  .mov (.reg .rdi) (.reg .rbx), -- 562: mov rdi, rbx
  .test (.reg .rcx) (.reg .rdx), -- 563: test rcx, rdx
  .cmov .zr .r8 (.reg .rbp), -- 564: cmove r8, rbp
  .cmov .zr .rdi (.reg .rbp), -- 565: cmove rdi, rbp
  .sar (.reg .rcx) (.imm 1#64), -- 566: sar rcx, 1
  .xor (.reg .rdi) (.reg .r8), -- 567: xor rdi, r8
  .xor (.reg .rsi) (.reg .r8), -- 568: xor rsi, r8
  .bt (.reg .r8) 63#64, -- 569: bt r8, 0x3f
  .cmov .cy .rbx (.reg .rcx), -- 570: cmovb rbx, rcx
  .mov (.reg .r8) (.reg .rax), -- 571: mov r8, rax
  .sub (.reg .rsi) (.reg .rax), -- 572: sub rsi, rax
  .lea .rcx ⟨some .rcx, some (.rdi, 1#64), 0#64⟩, -- 573: lea rcx, [rcx + rdi]
  .cmov .sg .r8 (.reg .rbp), -- 574: cmovs r8, rbp
  .mov (.reg .rdi) (.reg .rbx), -- 575: mov rdi, rbx
  .test (.reg .rcx) (.reg .rdx), -- 576: test rcx, rdx
  .cmov .zr .r8 (.reg .rbp), -- 577: cmove r8, rbp
  .cmov .zr .rdi (.reg .rbp), -- 578: cmove rdi, rbp
  .sar (.reg .rcx) (.imm 1#64), -- 579: sar rcx, 1
  .xor (.reg .rdi) (.reg .r8), -- 580: xor rdi, r8
  .xor (.reg .rsi) (.reg .r8), -- 581: xor rsi, r8
  .bt (.reg .r8) 63#64, -- 582: bt r8, 0x3f
  .cmov .cy .rbx (.reg .rcx), -- 583: cmovb rbx, rcx
  .mov (.reg .r8) (.reg .rax), -- 584: mov r8, rax
  .sub (.reg .rsi) (.reg .rax), -- 585: sub rsi, rax
  .lea .rcx ⟨some .rcx, some (.rdi, 1#64), 0#64⟩, -- 586: lea rcx, [rcx + rdi]
  .cmov .sg .r8 (.reg .rbp), -- 587: cmovs r8, rbp
  .mov (.reg .rdi) (.reg .rbx), -- 588: mov rdi, rbx
  .test (.reg .rcx) (.reg .rdx), -- 589: test rcx, rdx
  .cmov .zr .r8 (.reg .rbp), -- 590: cmove r8, rbp
  .cmov .zr .rdi (.reg .rbp), -- 591: cmove rdi, rbp
  .sar (.reg .rcx) (.imm 1#64), -- 592: sar rcx, 1
  .xor (.reg .rdi) (.reg .r8), -- 593: xor rdi, r8
  .xor (.reg .rsi) (.reg .r8), -- 594: xor rsi, r8
  .bt (.reg .r8) 63#64, -- 595: bt r8, 0x3f
  .cmov .cy .rbx (.reg .rcx), -- 596: cmovb rbx, rcx
  .mov (.reg .r8) (.reg .rax), -- 597: mov r8, rax
  .sub (.reg .rsi) (.reg .rax), -- 598: sub rsi, rax
  .lea .rcx ⟨some .rcx, some (.rdi, 1#64), 0#64⟩, -- 599: lea rcx, [rcx + rdi]
  .cmov .sg .r8 (.reg .rbp), -- 600: cmovs r8, rbp
  .mov (.reg .rdi) (.reg .rbx), -- 601: mov rdi, rbx
  .test (.reg .rcx) (.reg .rdx), -- 602: test rcx, rdx
  .cmov .zr .r8 (.reg .rbp), -- 603: cmove r8, rbp
  .cmov .zr .rdi (.reg .rbp), -- 604: cmove rdi, rbp
  .sar (.reg .rcx) (.imm 1#64), -- 605: sar rcx, 1
  .xor (.reg .rdi) (.reg .r8), -- 606: xor rdi, r8
  .xor (.reg .rsi) (.reg .r8), -- 607: xor rsi, r8
  .bt (.reg .r8) 63#64, -- 608: bt r8, 0x3f
  .cmov .cy .rbx (.reg .rcx), -- 609: cmovb rbx, rcx
  .mov (.reg .r8) (.reg .rax), -- 610: mov r8, rax
  .sub (.reg .rsi) (.reg .rax), -- 611: sub rsi, rax
  .lea .rcx ⟨some .rcx, some (.rdi, 1#64), 0#64⟩, -- 612: lea rcx, [rcx + rdi]
  .cmov .sg .r8 (.reg .rbp), -- 613: cmovs r8, rbp
  .mov (.reg .rdi) (.reg .rbx), -- 614: mov rdi, rbx
  .test (.reg .rcx) (.reg .rdx), -- 615: test rcx, rdx
  .cmov .zr .r8 (.reg .rbp), -- 616: cmove r8, rbp
  .cmov .zr .rdi (.reg .rbp), -- 617: cmove rdi, rbp
  .sar (.reg .rcx) (.imm 1#64), -- 618: sar rcx, 1
  .xor (.reg .rdi) (.reg .r8), -- 619: xor rdi, r8
  .xor (.reg .rsi) (.reg .r8), -- 620: xor rsi, r8
  .bt (.reg .r8) 63#64, -- 621: bt r8, 0x3f
  .cmov .cy .rbx (.reg .rcx), -- 622: cmovb rbx, rcx
  .mov (.reg .r8) (.reg .rax), -- 623: mov r8, rax
  .sub (.reg .rsi) (.reg .rax), -- 624: sub rsi, rax
  .lea .rcx ⟨some .rcx, some (.rdi, 1#64), 0#64⟩, -- 625: lea rcx, [rcx + rdi]
  .cmov .sg .r8 (.reg .rbp), -- 626: cmovs r8, rbp
  .mov (.reg .rdi) (.reg .rbx), -- 627: mov rdi, rbx
  .test (.reg .rcx) (.reg .rdx), -- 628: test rcx, rdx
  .cmov .zr .r8 (.reg .rbp), -- 629: cmove r8, rbp
  .cmov .zr .rdi (.reg .rbp), -- 630: cmove rdi, rbp
  .sar (.reg .rcx) (.imm 1#64), -- 631: sar rcx, 1
  .xor (.reg .rdi) (.reg .r8), -- 632: xor rdi, r8
  .xor (.reg .rsi) (.reg .r8), -- 633: xor rsi, r8
  .bt (.reg .r8) 63#64, -- 634: bt r8, 0x3f
  .cmov .cy .rbx (.reg .rcx), -- 635: cmovb rbx, rcx
  .mov (.reg .r8) (.reg .rax), -- 636: mov r8, rax
  .sub (.reg .rsi) (.reg .rax), -- 637: sub rsi, rax
  .lea .rcx ⟨some .rcx, some (.rdi, 1#64), 0#64⟩, -- 638: lea rcx, [rcx + rdi]
  .cmov .sg .r8 (.reg .rbp), -- 639: cmovs r8, rbp
  .mov (.reg .rdi) (.reg .rbx), -- 640: mov rdi, rbx
  .test (.reg .rcx) (.reg .rdx), -- 641: test rcx, rdx
  .cmov .zr .r8 (.reg .rbp), -- 642: cmove r8, rbp
  .cmov .zr .rdi (.reg .rbp), -- 643: cmove rdi, rbp
  .sar (.reg .rcx) (.imm 1#64), -- 644: sar rcx, 1
  .xor (.reg .rdi) (.reg .r8), -- 645: xor rdi, r8
  .xor (.reg .rsi) (.reg .r8), -- 646: xor rsi, r8
  .bt (.reg .r8) 63#64, -- 647: bt r8, 0x3f
  .cmov .cy .rbx (.reg .rcx), -- 648: cmovb rbx, rcx
  .mov (.reg .r8) (.reg .rax), -- 649: mov r8, rax
  .sub (.reg .rsi) (.reg .rax), -- 650: sub rsi, rax
  .lea .rcx ⟨some .rcx, some (.rdi, 1#64), 0#64⟩, -- 651: lea rcx, [rcx + rdi]
  .sar (.reg .rcx) (.imm 1#64), -- 652: sar rcx, 1
  .mov (.reg .rax) (.imm 0x100000#64), -- 653: mov eax, 0x100000
  .lea .rdx ⟨some .rbx, some (.rax, 1#64), 0#64⟩, -- 654: lea rdx, [rbx + rax]
  .lea .rdi ⟨some .rcx, some (.rax, 1#64), 0#64⟩, -- 655: lea rdi, [rcx + rax]
  .shl (.reg .rdx) (.imm 22#64), -- 656: shl rdx, 0x16
  .shl (.reg .rdi) (.imm 22#64), -- 657: shl rdi, 0x16
  .sar (.reg .rdx) (.imm 43#64), -- 658: sar rdx, 0x2b
  .sar (.reg .rdi) (.imm 43#64), -- 659: sar rdi, 0x2b
  .mov (.reg .rax) (.imm 0x20000100000#64), -- 660: movabs rax, 0x20000100000
  .lea .rbx ⟨some .rbx, some (.rax, 1#64), 0#64⟩, -- 661: lea rbx, [rbx + rax]
  .lea .rcx ⟨some .rcx, some (.rax, 1#64), 0#64⟩, -- 662: lea rcx, [rcx + rax]
  .sar (.reg .rbx) (.imm 42#64), -- 663: sar rbx, 0x2a
  .sar (.reg .rcx) (.imm 42#64), -- 664: sar rcx, 0x2a
  .mov (.mem ⟨some .rsp, none, 192#64⟩) (.reg .rdx), -- 665: mov [rsp + (24 * 8)], rdx
  .mov (.mem ⟨some .rsp, none, 200#64⟩) (.reg .rbx), -- 666: mov [rsp + (24 * 8)+ 0x8], rbx
  .mov (.mem ⟨some .rsp, none, 208#64⟩) (.reg .rdi), -- 667: mov [rsp + (24 * 8)+ 0x10], rdi
  .mov (.mem ⟨some .rsp, none, 216#64⟩) (.reg .rcx), -- 668: mov [rsp + (24 * 8)+ 0x18], rcx
  .mov (.reg .r12) (.mem ⟨some .rsp, none, 0#64⟩), -- 669: mov r12, QWORD PTR [rsp]
  .imul .rdi (.reg .r12), -- 670: imul rdi, r12
  .imul .r12 (.reg .rdx), -- 671: imul r12, rdx
  .mov (.reg .r13) (.mem ⟨some .rsp, none, 40#64⟩), -- 672: mov r13, QWORD PTR [rsp + (5 * 8)]
  .imul .rbx (.reg .r13), -- 673: imul rbx, r13
  .imul .r13 (.reg .rcx), -- 674: imul r13, rcx
  .add (.reg .r12) (.reg .rbx), -- 675: add r12, rbx
  .add (.reg .r13) (.reg .rdi), -- 676: add r13, rdi
  .sar (.reg .r12) (.imm 20#64), -- 677: sar r12, 0x14
  .sar (.reg .r13) (.imm 20#64), -- 678: sar r13, 0x14
  .mov (.reg .rbx) (.reg .r12), -- 679: mov rbx, r12
  .and (.reg .rbx) (.imm 0xfffff#64), -- 680: and rbx, 0xfffff
  .mov (.reg .rax) (.imm 0xfffffe0000000000#64), -- 681: movabs rax, 0xfffffe0000000000
  .or (.reg .rbx) (.reg .rax), -- 682: or rbx, rax
  .mov (.reg .rcx) (.reg .r13), -- 683: mov rcx, r13
  .and (.reg .rcx) (.imm 0xfffff#64), -- 684: and rcx, 0xfffff
  .mov (.reg .rax) (.imm 0xc000000000000000#64), -- 685: movabs rax, 0xc000000000000000
  .or (.reg .rcx) (.reg .rax), -- 686: or rcx, rax
  .mov (.reg .rax) (.imm 0xfffffffffffffffe#64), -- 687: mov rax, 0xfffffffffffffffe
  .mov (.reg .rdx) (.imm 2#64), -- 688: mov edx, 0x2
  .mov (.reg .rdi) (.reg .rbx), -- 689: mov rdi, rbx
  .mov (.reg .r8) (.reg .rax), -- 690: mov r8, rax
  .test (.reg .rsi) (.reg .rsi), -- 691: test rsi, rsi
  .cmov .sg .r8 (.reg .rbp), -- 692: cmovs r8, rbp
  .test (.reg .rcx) (.imm 1#64), -- 693: test rcx, 0x1
  .cmov .zr .r8 (.reg .rbp), -- 694: cmove r8, rbp
  .cmov .zr .rdi (.reg .rbp), -- 695: cmove rdi, rbp
  .xor (.reg .rdi) (.reg .r8), -- 696: xor rdi, r8
  .xor (.reg .rsi) (.reg .r8), -- 697: xor rsi, r8
  .bt (.reg .r8) 63#64, -- 698: bt r8, 0x3f
  .cmov .cy .rbx (.reg .rcx), -- 699: cmovb rbx, rcx
  .mov (.reg .r8) (.reg .rax), -- 700: mov r8, rax
  .sub (.reg .rsi) (.reg .rax), -- 701: sub rsi, rax
  .lea .rcx ⟨some .rcx, some (.rdi, 1#64), 0#64⟩, -- 702: lea rcx, [rcx + rdi]
  .cmov .sg .r8 (.reg .rbp), -- 703: cmovs r8, rbp
  .mov (.reg .rdi) (.reg .rbx), -- 704: mov rdi, rbx
  .test (.reg .rcx) (.reg .rdx), -- 705: test rcx, rdx
  .cmov .zr .r8 (.reg .rbp), -- 706: cmove r8, rbp
  .cmov .zr .rdi (.reg .rbp), -- 707: cmove rdi, rbp
  .sar (.reg .rcx) (.imm 1#64), -- 708: sar rcx, 1
  .xor (.reg .rdi) (.reg .r8), -- 709: xor rdi, r8
  .xor (.reg .rsi) (.reg .r8), -- 710: xor rsi, r8
  .bt (.reg .r8) 63#64, -- 711: bt r8, 0x3f
  .cmov .cy .rbx (.reg .rcx), -- 712: cmovb rbx, rcx
  .mov (.reg .r8) (.reg .rax), -- 713: mov r8, rax
  .sub (.reg .rsi) (.reg .rax), -- 714: sub rsi, rax
  .lea .rcx ⟨some .rcx, some (.rdi, 1#64), 0#64⟩, -- 715: lea rcx, [rcx + rdi]
  .cmov .sg .r8 (.reg .rbp), -- 716: cmovs r8, rbp
  .mov (.reg .rdi) (.reg .rbx), -- 717: mov rdi, rbx
  .test (.reg .rcx) (.reg .rdx), -- 718: test rcx, rdx
  .cmov .zr .r8 (.reg .rbp), -- 719: cmove r8, rbp
  .cmov .zr .rdi (.reg .rbp), -- 720: cmove rdi, rbp
  .sar (.reg .rcx) (.imm 1#64), -- 721: sar rcx, 1
  .xor (.reg .rdi) (.reg .r8), -- 722: xor rdi, r8
  .xor (.reg .rsi) (.reg .r8), -- 723: xor rsi, r8
  .bt (.reg .r8) 63#64, -- 724: bt r8, 0x3f
  .cmov .cy .rbx (.reg .rcx), -- 725: cmovb rbx, rcx
  .mov (.reg .r8) (.reg .rax), -- 726: mov r8, rax
  .sub (.reg .rsi) (.reg .rax), -- 727: sub rsi, rax
  .lea .rcx ⟨some .rcx, some (.rdi, 1#64), 0#64⟩, -- 728: lea rcx, [rcx + rdi]
  .cmov .sg .r8 (.reg .rbp), -- 729: cmovs r8, rbp
  .mov (.reg .rdi) (.reg .rbx), -- 730: mov rdi, rbx
  .test (.reg .rcx) (.reg .rdx), -- 731: test rcx, rdx
  .cmov .zr .r8 (.reg .rbp), -- 732: cmove r8, rbp
  .cmov .zr .rdi (.reg .rbp), -- 733: cmove rdi, rbp
  .sar (.reg .rcx) (.imm 1#64), -- 734: sar rcx, 1
  .xor (.reg .rdi) (.reg .r8), -- 735: xor rdi, r8
  .xor (.reg .rsi) (.reg .r8), -- 736: xor rsi, r8
  .bt (.reg .r8) 63#64, -- 737: bt r8, 0x3f
  .cmov .cy .rbx (.reg .rcx), -- 738: cmovb rbx, rcx
  .mov (.reg .r8) (.reg .rax), -- 739: mov r8, rax
  .sub (.reg .rsi) (.reg .rax), -- 740: sub rsi, rax
  .lea .rcx ⟨some .rcx, some (.rdi, 1#64), 0#64⟩, -- 741: lea rcx, [rcx + rdi]
  .cmov .sg .r8 (.reg .rbp), -- 742: cmovs r8, rbp
  .mov (.reg .rdi) (.reg .rbx), -- 743: mov rdi, rbx
  .test (.reg .rcx) (.reg .rdx), -- 744: test rcx, rdx
  .cmov .zr .r8 (.reg .rbp), -- 745: cmove r8, rbp
  .cmov .zr .rdi (.reg .rbp), -- 746: cmove rdi, rbp
  .sar (.reg .rcx) (.imm 1#64), -- 747: sar rcx, 1
  .xor (.reg .rdi) (.reg .r8), -- 748: xor rdi, r8
  .xor (.reg .rsi) (.reg .r8), -- 749: xor rsi, r8
  .bt (.reg .r8) 63#64, -- 750: bt r8, 0x3f
  .cmov .cy .rbx (.reg .rcx), -- 751: cmovb rbx, rcx
  .mov (.reg .r8) (.reg .rax), -- 752: mov r8, rax
  .sub (.reg .rsi) (.reg .rax), -- 753: sub rsi, rax
  .lea .rcx ⟨some .rcx, some (.rdi, 1#64), 0#64⟩, -- 754: lea rcx, [rcx + rdi]
  .cmov .sg .r8 (.reg .rbp), -- 755: cmovs r8, rbp
  .mov (.reg .rdi) (.reg .rbx), -- 756: mov rdi, rbx
  .test (.reg .rcx) (.reg .rdx), -- 757: test rcx, rdx
  .cmov .zr .r8 (.reg .rbp), -- 758: cmove r8, rbp
  .cmov .zr .rdi (.reg .rbp), -- 759: cmove rdi, rbp
  .sar (.reg .rcx) (.imm 1#64), -- 760: sar rcx, 1
  .xor (.reg .rdi) (.reg .r8), -- 761: xor rdi, r8
  .xor (.reg .rsi) (.reg .r8), -- 762: xor rsi, r8
  .bt (.reg .r8) 63#64, -- 763: bt r8, 0x3f
  .cmov .cy .rbx (.reg .rcx), -- 764: cmovb rbx, rcx
  .mov (.reg .r8) (.reg .rax), -- 765: mov r8, rax
  .sub (.reg .rsi) (.reg .rax), -- 766: sub rsi, rax
  .lea .rcx ⟨some .rcx, some (.rdi, 1#64), 0#64⟩, -- 767: lea rcx, [rcx + rdi]
  .cmov .sg .r8 (.reg .rbp), -- 768: cmovs r8, rbp
  .mov (.reg .rdi) (.reg .rbx), -- 769: mov rdi, rbx
  .test (.reg .rcx) (.reg .rdx), -- 770: test rcx, rdx
  .cmov .zr .r8 (.reg .rbp), -- 771: cmove r8, rbp
  .cmov .zr .rdi (.reg .rbp), -- 772: cmove rdi, rbp
  .sar (.reg .rcx) (.imm 1#64), -- 773: sar rcx, 1
  .xor (.reg .rdi) (.reg .r8), -- 774: xor rdi, r8
  .xor (.reg .rsi) (.reg .r8), -- 775: xor rsi, r8
  .bt (.reg .r8) 63#64, -- 776: bt r8, 0x3f
  .cmov .cy .rbx (.reg .rcx), -- 777: cmovb rbx, rcx
  .mov (.reg .r8) (.reg .rax), -- 778: mov r8, rax
  .sub (.reg .rsi) (.reg .rax), -- 779: sub rsi, rax
  .lea .rcx ⟨some .rcx, some (.rdi, 1#64), 0#64⟩, -- 780: lea rcx, [rcx + rdi]
  .cmov .sg .r8 (.reg .rbp), -- 781: cmovs r8, rbp
  .mov (.reg .rdi) (.reg .rbx), -- 782: mov rdi, rbx
  .test (.reg .rcx) (.reg .rdx), -- 783: test rcx, rdx
  .cmov .zr .r8 (.reg .rbp), -- 784: cmove r8, rbp
  .cmov .zr .rdi (.reg .rbp), -- 785: cmove rdi, rbp
  .sar (.reg .rcx) (.imm 1#64), -- 786: sar rcx, 1
  .xor (.reg .rdi) (.reg .r8), -- 787: xor rdi, r8
  .xor (.reg .rsi) (.reg .r8), -- 788: xor rsi, r8
  .bt (.reg .r8) 63#64, -- 789: bt r8, 0x3f
  .cmov .cy .rbx (.reg .rcx), -- 790: cmovb rbx, rcx
  .mov (.reg .r8) (.reg .rax), -- 791: mov r8, rax
  .sub (.reg .rsi) (.reg .rax), -- 792: sub rsi, rax
  .lea .rcx ⟨some .rcx, some (.rdi, 1#64), 0#64⟩, -- 793: lea rcx, [rcx + rdi]
  .cmov .sg .r8 (.reg .rbp), -- 794: cmovs r8, rbp
  .mov (.reg .rdi) (.reg .rbx), -- 795: mov rdi, rbx
  .test (.reg .rcx) (.reg .rdx), -- 796: test rcx, rdx
  .cmov .zr .r8 (.reg .rbp), -- 797: cmove r8, rbp
  .cmov .zr .rdi (.reg .rbp), -- 798: cmove rdi, rbp
  .sar (.reg .rcx) (.imm 1#64), -- 799: sar rcx, 1
  .xor (.reg .rdi) (.reg .r8), -- 800: xor rdi, r8
  .xor (.reg .rsi) (.reg .r8), -- 801: xor rsi, r8
  .bt (.reg .r8) 63#64, -- 802: bt r8, 0x3f
  .cmov .cy .rbx (.reg .rcx), -- 803: cmovb rbx, rcx
  .mov (.reg .r8) (.reg .rax), -- 804: mov r8, rax
  .sub (.reg .rsi) (.reg .rax), -- 805: sub rsi, rax
  .lea .rcx ⟨some .rcx, some (.rdi, 1#64), 0#64⟩, -- 806: lea rcx, [rcx + rdi]
  .cmov .sg .r8 (.reg .rbp), -- 807: cmovs r8, rbp
  .mov (.reg .rdi) (.reg .rbx), -- 808: mov rdi, rbx
  .test (.reg .rcx) (.reg .rdx), -- 809: test rcx, rdx
  .cmov .zr .r8 (.reg .rbp), -- 810: cmove r8, rbp
  .cmov .zr .rdi (.reg .rbp), -- 811: cmove rdi, rbp
  .sar (.reg .rcx) (.imm 1#64), -- 812: sar rcx, 1
  .xor (.reg .rdi) (.reg .r8), -- 813: xor rdi, r8
  .xor (.reg .rsi) (.reg .r8), -- 814: xor rsi, r8
  .bt (.reg .r8) 63#64, -- 815: bt r8, 0x3f
  .cmov .cy .rbx (.reg .rcx), -- 816: cmovb rbx, rcx
  .mov (.reg .r8) (.reg .rax), -- 817: mov r8, rax
  .sub (.reg .rsi) (.reg .rax), -- 818: sub rsi, rax
  .lea .rcx ⟨some .rcx, some (.rdi, 1#64), 0#64⟩, -- 819: lea rcx, [rcx + rdi]
  .cmov .sg .r8 (.reg .rbp), -- 820: cmovs r8, rbp
  .mov (.reg .rdi) (.reg .rbx), -- 821: mov rdi, rbx
  .test (.reg .rcx) (.reg .rdx), -- 822: test rcx, rdx
  .cmov .zr .r8 (.reg .rbp), -- 823: cmove r8, rbp
  .cmov .zr .rdi (.reg .rbp), -- 824: cmove rdi, rbp
  .sar (.reg .rcx) (.imm 1#64), -- 825: sar rcx, 1
  .xor (.reg .rdi) (.reg .r8), -- 826: xor rdi, r8
  .xor (.reg .rsi) (.reg .r8), -- 827: xor rsi, r8
  .bt (.reg .r8) 63#64, -- 828: bt r8, 0x3f
  .cmov .cy .rbx (.reg .rcx), -- 829: cmovb rbx, rcx
  .mov (.reg .r8) (.reg .rax), -- 830: mov r8, rax
  .sub (.reg .rsi) (.reg .rax), -- 831: sub rsi, rax
  .lea .rcx ⟨some .rcx, some (.rdi, 1#64), 0#64⟩, -- 832: lea rcx, [rcx + rdi]
  .cmov .sg .r8 (.reg .rbp), -- 833: cmovs r8, rbp
  .mov (.reg .rdi) (.reg .rbx), -- 834: mov rdi, rbx
  .test (.reg .rcx) (.reg .rdx), -- 835: test rcx, rdx
  .cmov .zr .r8 (.reg .rbp), -- 836: cmove r8, rbp
  .cmov .zr .rdi (.reg .rbp), -- 837: cmove rdi, rbp
  .sar (.reg .rcx) (.imm 1#64), -- 838: sar rcx, 1
  .xor (.reg .rdi) (.reg .r8), -- 839: xor rdi, r8
  .xor (.reg .rsi) (.reg .r8), -- 840: xor rsi, r8
  .bt (.reg .r8) 63#64, -- 841: bt r8, 0x3f
  .cmov .cy .rbx (.reg .rcx), -- 842: cmovb rbx, rcx
  .mov (.reg .r8) (.reg .rax), -- 843: mov r8, rax
  .sub (.reg .rsi) (.reg .rax), -- 844: sub rsi, rax
  .lea .rcx ⟨some .rcx, some (.rdi, 1#64), 0#64⟩, -- 845: lea rcx, [rcx + rdi]
  .cmov .sg .r8 (.reg .rbp), -- 846: cmovs r8, rbp
  .mov (.reg .rdi) (.reg .rbx), -- 847: mov rdi, rbx
  .test (.reg .rcx) (.reg .rdx), -- 848: test rcx, rdx
  .cmov .zr .r8 (.reg .rbp), -- 849: cmove r8, rbp
  .cmov .zr .rdi (.reg .rbp), -- 850: cmove rdi, rbp
  .sar (.reg .rcx) (.imm 1#64), -- 851: sar rcx, 1
  .xor (.reg .rdi) (.reg .r8), -- 852: xor rdi, r8
  .xor (.reg .rsi) (.reg .r8), -- 853: xor rsi, r8
  .bt (.reg .r8) 63#64, -- 854: bt r8, 0x3f
  .cmov .cy .rbx (.reg .rcx), -- 855: cmovb rbx, rcx
  .mov (.reg .r8) (.reg .rax), -- 856: mov r8, rax
  .sub (.reg .rsi) (.reg .rax), -- 857: sub rsi, rax
  .lea .rcx ⟨some .rcx, some (.rdi, 1#64), 0#64⟩, -- 858: lea rcx, [rcx + rdi]
  .cmov .sg .r8 (.reg .rbp), -- 859: cmovs r8, rbp
  .mov (.reg .rdi) (.reg .rbx), -- 860: mov rdi, rbx
  .test (.reg .rcx) (.reg .rdx), -- 861: test rcx, rdx
  .cmov .zr .r8 (.reg .rbp), -- 862: cmove r8, rbp
  .cmov .zr .rdi (.reg .rbp), -- 863: cmove rdi, rbp
  .sar (.reg .rcx) (.imm 1#64), -- 864: sar rcx, 1
  .xor (.reg .rdi) (.reg .r8), -- 865: xor rdi, r8
  .xor (.reg .rsi) (.reg .r8), -- 866: xor rsi, r8
  .bt (.reg .r8) 63#64, -- 867: bt r8, 0x3f
  .cmov .cy .rbx (.reg .rcx), -- 868: cmovb rbx, rcx
  .mov (.reg .r8) (.reg .rax), -- 869: mov r8, rax
  .sub (.reg .rsi) (.reg .rax), -- 870: sub rsi, rax
  .lea .rcx ⟨some .rcx, some (.rdi, 1#64), 0#64⟩, -- 871: lea rcx, [rcx + rdi]
  .cmov .sg .r8 (.reg .rbp), -- 872: cmovs r8, rbp
  .mov (.reg .rdi) (.reg .rbx), -- 873: mov rdi, rbx
  .test (.reg .rcx) (.reg .rdx), -- 874: test rcx, rdx
  .cmov .zr .r8 (.reg .rbp), -- 875: cmove r8, rbp
  .cmov .zr .rdi (.reg .rbp), -- 876: cmove rdi, rbp
  .sar (.reg .rcx) (.imm 1#64), -- 877: sar rcx, 1
  .xor (.reg .rdi) (.reg .r8), -- 878: xor rdi, r8
  .xor (.reg .rsi) (.reg .r8), -- 879: xor rsi, r8
  .bt (.reg .r8) 63#64, -- 880: bt r8, 0x3f
  .cmov .cy .rbx (.reg .rcx), -- 881: cmovb rbx, rcx
  .mov (.reg .r8) (.reg .rax), -- 882: mov r8, rax
  .sub (.reg .rsi) (.reg .rax), -- 883: sub rsi, rax
  .lea .rcx ⟨some .rcx, some (.rdi, 1#64), 0#64⟩, -- 884: lea rcx, [rcx + rdi]
  .cmov .sg .r8 (.reg .rbp), -- 885: cmovs r8, rbp
  .mov (.reg .rdi) (.reg .rbx), -- 886: mov rdi, rbx
  .test (.reg .rcx) (.reg .rdx), -- 887: test rcx, rdx
  .cmov .zr .r8 (.reg .rbp), -- 888: cmove r8, rbp
  .cmov .zr .rdi (.reg .rbp), -- 889: cmove rdi, rbp
  .sar (.reg .rcx) (.imm 1#64), -- 890: sar rcx, 1
  .xor (.reg .rdi) (.reg .r8), -- 891: xor rdi, r8
  .xor (.reg .rsi) (.reg .r8), -- 892: xor rsi, r8
  .bt (.reg .r8) 63#64, -- 893: bt r8, 0x3f
  .cmov .cy .rbx (.reg .rcx), -- 894: cmovb rbx, rcx
  .mov (.reg .r8) (.reg .rax), -- 895: mov r8, rax
  .sub (.reg .rsi) (.reg .rax), -- 896: sub rsi, rax
  .lea .rcx ⟨some .rcx, some (.rdi, 1#64), 0#64⟩, -- 897: lea rcx, [rcx + rdi]
  .cmov .sg .r8 (.reg .rbp), -- 898: cmovs r8, rbp
  .mov (.reg .rdi) (.reg .rbx), -- 899: mov rdi, rbx
  .test (.reg .rcx) (.reg .rdx), -- 900: test rcx, rdx
  .cmov .zr .r8 (.reg .rbp), -- 901: cmove r8, rbp
  .cmov .zr .rdi (.reg .rbp), -- 902: cmove rdi, rbp
  .sar (.reg .rcx) (.imm 1#64), -- 903: sar rcx, 1
  .xor (.reg .rdi) (.reg .r8), -- 904: xor rdi, r8
  .xor (.reg .rsi) (.reg .r8), -- 905: xor rsi, r8
  .bt (.reg .r8) 63#64, -- 906: bt r8, 0x3f
  .cmov .cy .rbx (.reg .rcx), -- 907: cmovb rbx, rcx
  .mov (.reg .r8) (.reg .rax), -- 908: mov r8, rax
  .sub (.reg .rsi) (.reg .rax), -- 909: sub rsi, rax
  .lea .rcx ⟨some .rcx, some (.rdi, 1#64), 0#64⟩, -- 910: lea rcx, [rcx + rdi]
  .cmov .sg .r8 (.reg .rbp), -- 911: cmovs r8, rbp
  .mov (.reg .rdi) (.reg .rbx), -- 912: mov rdi, rbx
  .test (.reg .rcx) (.reg .rdx), -- 913: test rcx, rdx
  .cmov .zr .r8 (.reg .rbp), -- 914: cmove r8, rbp
  .cmov .zr .rdi (.reg .rbp), -- 915: cmove rdi, rbp
  .sar (.reg .rcx) (.imm 1#64), -- 916: sar rcx, 1
  .xor (.reg .rdi) (.reg .r8), -- 917: xor rdi, r8
  .xor (.reg .rsi) (.reg .r8), -- 918: xor rsi, r8
  .bt (.reg .r8) 63#64, -- 919: bt r8, 0x3f
  .cmov .cy .rbx (.reg .rcx), -- 920: cmovb rbx, rcx
  .mov (.reg .r8) (.reg .rax), -- 921: mov r8, rax
  .sub (.reg .rsi) (.reg .rax), -- 922: sub rsi, rax
  .lea .rcx ⟨some .rcx, some (.rdi, 1#64), 0#64⟩, -- 923: lea rcx, [rcx + rdi]
  .cmov .sg .r8 (.reg .rbp), -- 924: cmovs r8, rbp
  .mov (.reg .rdi) (.reg .rbx), -- 925: mov rdi, rbx
  .test (.reg .rcx) (.reg .rdx), -- 926: test rcx, rdx
  .cmov .zr .r8 (.reg .rbp), -- 927: cmove r8, rbp
  .cmov .zr .rdi (.reg .rbp), -- 928: cmove rdi, rbp
  .sar (.reg .rcx) (.imm 1#64), -- 929: sar rcx, 1
  .xor (.reg .rdi) (.reg .r8), -- 930: xor rdi, r8
  .xor (.reg .rsi) (.reg .r8), -- 931: xor rsi, r8
  .bt (.reg .r8) 63#64, -- 932: bt r8, 0x3f
  .cmov .cy .rbx (.reg .rcx), -- 933: cmovb rbx, rcx
  .mov (.reg .r8) (.reg .rax), -- 934: mov r8, rax
  .sub (.reg .rsi) (.reg .rax), -- 935: sub rsi, rax
  .lea .rcx ⟨some .rcx, some (.rdi, 1#64), 0#64⟩, -- 936: lea rcx, [rcx + rdi]
  .cmov .sg .r8 (.reg .rbp), -- 937: cmovs r8, rbp
  .mov (.reg .rdi) (.reg .rbx), -- 938: mov rdi, rbx
  .test (.reg .rcx) (.reg .rdx), -- 939: test rcx, rdx
  .cmov .zr .r8 (.reg .rbp), -- 940: cmove r8, rbp
  .cmov .zr .rdi (.reg .rbp), -- 941: cmove rdi, rbp
  .sar (.reg .rcx) (.imm 1#64), -- 942: sar rcx, 1
  .xor (.reg .rdi) (.reg .r8), -- 943: xor rdi, r8
  .xor (.reg .rsi) (.reg .r8), -- 944: xor rsi, r8
  .bt (.reg .r8) 63#64, -- 945: bt r8, 0x3f
  .cmov .cy .rbx (.reg .rcx), -- 946: cmovb rbx, rcx
  .mov (.reg .r8) (.reg .rax), -- 947: mov r8, rax
  .sub (.reg .rsi) (.reg .rax), -- 948: sub rsi, rax
  .lea .rcx ⟨some .rcx, some (.rdi, 1#64), 0#64⟩, -- 949: lea rcx, [rcx + rdi]
  .sar (.reg .rcx) (.imm 1#64), -- 950: sar rcx, 1
  .mov (.reg .rax) (.imm 0x100000#64), -- 951: mov eax, 0x100000
  .lea .r8 ⟨some .rbx, some (.rax, 1#64), 0#64⟩, -- 952: lea r8, [rbx + rax]
  .lea .r10 ⟨some .rcx, some (.rax, 1#64), 0#64⟩, -- 953: lea r10, [rcx + rax]
  .shl (.reg .r8) (.imm 22#64), -- 954: shl r8, 0x16
  .shl (.reg .r10) (.imm 22#64), -- 955: shl r10, 0x16
  .sar (.reg .r8) (.imm 43#64), -- 956: sar r8, 0x2b
  .sar (.reg .r10) (.imm 43#64), -- 957: sar r10, 0x2b
  .mov (.reg .rax) (.imm 0x20000100000#64), -- 958: movabs rax, 0x20000100000
  .lea .r15 ⟨some .rbx, some (.rax, 1#64), 0#64⟩, -- 959: lea r15, [rbx + rax]
  .lea .r11 ⟨some .rcx, some (.rax, 1#64), 0#64⟩, -- 960: lea r11, [rcx + rax]
  .sar (.reg .r15) (.imm 42#64), -- 961: sar r15, 0x2a
  .sar (.reg .r11) (.imm 42#64), -- 962: sar r11, 0x2a
  .mov (.reg .rbx) (.reg .r13), -- 963: mov rbx, r13
  .mov (.reg .rcx) (.reg .r12), -- 964: mov rcx, r12
  .imul .r12 (.reg .r8), -- 965: imul r12, r8
  .imul .rbx (.reg .r15), -- 966: imul rbx, r15
  .add (.reg .r12) (.reg .rbx), -- 967: add r12, rbx
  .imul .r13 (.reg .r11), -- 968: imul r13, r11
  .imul .rcx (.reg .r10), -- 969: imul rcx, r10
  .add (.reg .r13) (.reg .rcx), -- 970: add r13, rcx
  .sar (.reg .r12) (.imm 20#64), -- 971: sar r12, 0x14
  .sar (.reg .r13) (.imm 20#64), -- 972: sar r13, 0x14
  .mov (.reg .rbx) (.reg .r12), -- 973: mov rbx, r12
  .and (.reg .rbx) (.imm 0xfffff#64), -- 974: and rbx, 0xfffff
  .mov (.reg .rax) (.imm 0xfffffe0000000000#64), -- 975: movabs rax, 0xfffffe0000000000
  .or (.reg .rbx) (.reg .rax), -- 976: or rbx, rax
  .mov (.reg .rcx) (.reg .r13), -- 977: mov rcx, r13
  .and (.reg .rcx) (.imm 0xfffff#64), -- 978: and rcx, 0xfffff
  .mov (.reg .rax) (.imm 0xc000000000000000#64), -- 979: movabs rax, 0xc000000000000000
  .or (.reg .rcx) (.reg .rax), -- 980: or rcx, rax
  .mov (.reg .rax) (.mem ⟨some .rsp, none, 192#64⟩), -- 981: mov rax, [rsp + (24 * 8)]
  .imul .rax (.reg .r8), -- 982: imul rax, r8
  .mov (.reg .rdx) (.mem ⟨some .rsp, none, 208#64⟩), -- 983: mov rdx, [rsp + (24 * 8)+ 0x10]
  .imul .rdx (.reg .r15), -- 984: imul rdx, r15
  .imul .r8 (.mem ⟨some .rsp, none, 200#64⟩), -- 985: imul r8, [rsp + (24 * 8)+ 0x8]
  .imul .r15 (.mem ⟨some .rsp, none, 216#64⟩), -- 986: imul r15, [rsp + (24 * 8)+ 0x18]
  .add (.reg .r15) (.reg .r8), -- 987: add r15, r8
  .lea .r9 ⟨some .rax, some (.rdx, 1#64), 0#64⟩, -- 988: lea r9, [rax + rdx]
  .mov (.reg .rax) (.mem ⟨some .rsp, none, 192#64⟩), -- 989: mov rax, [rsp + (24 * 8)]
  .imul .rax (.reg .r10), -- 990: imul rax, r10
  .mov (.reg .rdx) (.mem ⟨some .rsp, none, 208#64⟩), -- 991: mov rdx, [rsp + (24 * 8)+ 0x10]
  .imul .rdx (.reg .r11), -- 992: imul rdx, r11
  .imul .r10 (.mem ⟨some .rsp, none, 200#64⟩), -- 993: imul r10, [rsp + (24 * 8)+ 0x8]
  .imul .r11 (.mem ⟨some .rsp, none, 216#64⟩), -- 994: imul r11, [rsp + (24 * 8)+ 0x18]
  .add (.reg .r11) (.reg .r10), -- 995: add r11, r10
  .lea .r13 ⟨some .rax, some (.rdx, 1#64), 0#64⟩, -- 996: lea r13, [rax + rdx]
  .mov (.reg .rax) (.imm 0xfffffffffffffffe#64), -- 997: mov rax, 0xfffffffffffffffe
  .mov (.reg .rdx) (.imm 2#64), -- 998: mov edx, 0x2
  .mov (.reg .rdi) (.reg .rbx), -- 999: mov rdi, rbx
  .mov (.reg .r8) (.reg .rax), -- 1000: mov r8, rax
  .test (.reg .rsi) (.reg .rsi), -- 1001: test rsi, rsi
  .cmov .sg .r8 (.reg .rbp), -- 1002: cmovs r8, rbp
  .test (.reg .rcx) (.imm 1#64), -- 1003: test rcx, 0x1
  .cmov .zr .r8 (.reg .rbp), -- 1004: cmove r8, rbp
  .cmov .zr .rdi (.reg .rbp), -- 1005: cmove rdi, rbp
  .xor (.reg .rdi) (.reg .r8), -- 1006: xor rdi, r8
  .xor (.reg .rsi) (.reg .r8), -- 1007: xor rsi, r8
  .bt (.reg .r8) 63#64, -- 1008: bt r8, 0x3f
  .cmov .cy .rbx (.reg .rcx), -- 1009: cmovb rbx, rcx
  .mov (.reg .r8) (.reg .rax), -- 1010: mov r8, rax
  .sub (.reg .rsi) (.reg .rax), -- 1011: sub rsi, rax
  .lea .rcx ⟨some .rcx, some (.rdi, 1#64), 0#64⟩, -- 1012: lea rcx, [rcx + rdi]
  .cmov .sg .r8 (.reg .rbp), -- 1013: cmovs r8, rbp
  .mov (.reg .rdi) (.reg .rbx), -- 1014: mov rdi, rbx
  .test (.reg .rcx) (.reg .rdx), -- 1015: test rcx, rdx
  .cmov .zr .r8 (.reg .rbp), -- 1016: cmove r8, rbp
  .cmov .zr .rdi (.reg .rbp), -- 1017: cmove rdi, rbp
  .sar (.reg .rcx) (.imm 1#64), -- 1018: sar rcx, 1
  .xor (.reg .rdi) (.reg .r8), -- 1019: xor rdi, r8
  .xor (.reg .rsi) (.reg .r8), -- 1020: xor rsi, r8
  .bt (.reg .r8) 63#64, -- 1021: bt r8, 0x3f
  .cmov .cy .rbx (.reg .rcx), -- 1022: cmovb rbx, rcx
  .mov (.reg .r8) (.reg .rax), -- 1023: mov r8, rax
  .sub (.reg .rsi) (.reg .rax), -- 1024: sub rsi, rax
  .lea .rcx ⟨some .rcx, some (.rdi, 1#64), 0#64⟩, -- 1025: lea rcx, [rcx + rdi]
  .cmov .sg .r8 (.reg .rbp), -- 1026: cmovs r8, rbp
  .mov (.reg .rdi) (.reg .rbx), -- 1027: mov rdi, rbx
  .test (.reg .rcx) (.reg .rdx), -- 1028: test rcx, rdx
  .cmov .zr .r8 (.reg .rbp), -- 1029: cmove r8, rbp
  .cmov .zr .rdi (.reg .rbp), -- 1030: cmove rdi, rbp
  .sar (.reg .rcx) (.imm 1#64), -- 1031: sar rcx, 1
  .xor (.reg .rdi) (.reg .r8), -- 1032: xor rdi, r8
  .xor (.reg .rsi) (.reg .r8), -- 1033: xor rsi, r8
  .bt (.reg .r8) 63#64, -- 1034: bt r8, 0x3f
  .cmov .cy .rbx (.reg .rcx), -- 1035: cmovb rbx, rcx
  .mov (.reg .r8) (.reg .rax), -- 1036: mov r8, rax
  .sub (.reg .rsi) (.reg .rax), -- 1037: sub rsi, rax
  .lea .rcx ⟨some .rcx, some (.rdi, 1#64), 0#64⟩, -- 1038: lea rcx, [rcx + rdi]
  .cmov .sg .r8 (.reg .rbp), -- 1039: cmovs r8, rbp
  .mov (.reg .rdi) (.reg .rbx), -- 1040: mov rdi, rbx
  .test (.reg .rcx) (.reg .rdx), -- 1041: test rcx, rdx
  .cmov .zr .r8 (.reg .rbp), -- 1042: cmove r8, rbp
  .cmov .zr .rdi (.reg .rbp), -- 1043: cmove rdi, rbp
  .sar (.reg .rcx) (.imm 1#64), -- 1044: sar rcx, 1
  .xor (.reg .rdi) (.reg .r8), -- 1045: xor rdi, r8
  .xor (.reg .rsi) (.reg .r8), -- 1046: xor rsi, r8
  .bt (.reg .r8) 63#64, -- 1047: bt r8, 0x3f
  .cmov .cy .rbx (.reg .rcx), -- 1048: cmovb rbx, rcx
  .mov (.reg .r8) (.reg .rax), -- 1049: mov r8, rax
  .sub (.reg .rsi) (.reg .rax), -- 1050: sub rsi, rax
  .lea .rcx ⟨some .rcx, some (.rdi, 1#64), 0#64⟩, -- 1051: lea rcx, [rcx + rdi]
  .cmov .sg .r8 (.reg .rbp), -- 1052: cmovs r8, rbp
  .mov (.reg .rdi) (.reg .rbx), -- 1053: mov rdi, rbx
  .test (.reg .rcx) (.reg .rdx), -- 1054: test rcx, rdx
  .cmov .zr .r8 (.reg .rbp), -- 1055: cmove r8, rbp
  .cmov .zr .rdi (.reg .rbp), -- 1056: cmove rdi, rbp
  .sar (.reg .rcx) (.imm 1#64), -- 1057: sar rcx, 1
  .xor (.reg .rdi) (.reg .r8), -- 1058: xor rdi, r8
  .xor (.reg .rsi) (.reg .r8), -- 1059: xor rsi, r8
  .bt (.reg .r8) 63#64, -- 1060: bt r8, 0x3f
  .cmov .cy .rbx (.reg .rcx), -- 1061: cmovb rbx, rcx
  .mov (.reg .r8) (.reg .rax), -- 1062: mov r8, rax
  .sub (.reg .rsi) (.reg .rax), -- 1063: sub rsi, rax
  .lea .rcx ⟨some .rcx, some (.rdi, 1#64), 0#64⟩, -- 1064: lea rcx, [rcx + rdi]
  .cmov .sg .r8 (.reg .rbp), -- 1065: cmovs r8, rbp
  .mov (.reg .rdi) (.reg .rbx), -- 1066: mov rdi, rbx
  .test (.reg .rcx) (.reg .rdx), -- 1067: test rcx, rdx
  .cmov .zr .r8 (.reg .rbp), -- 1068: cmove r8, rbp
  .cmov .zr .rdi (.reg .rbp), -- 1069: cmove rdi, rbp
  .sar (.reg .rcx) (.imm 1#64), -- 1070: sar rcx, 1
  .xor (.reg .rdi) (.reg .r8), -- 1071: xor rdi, r8
  .xor (.reg .rsi) (.reg .r8), -- 1072: xor rsi, r8
  .bt (.reg .r8) 63#64, -- 1073: bt r8, 0x3f
  .cmov .cy .rbx (.reg .rcx), -- 1074: cmovb rbx, rcx
  .mov (.reg .r8) (.reg .rax), -- 1075: mov r8, rax
  .sub (.reg .rsi) (.reg .rax), -- 1076: sub rsi, rax
  .lea .rcx ⟨some .rcx, some (.rdi, 1#64), 0#64⟩, -- 1077: lea rcx, [rcx + rdi]
  .cmov .sg .r8 (.reg .rbp), -- 1078: cmovs r8, rbp
  .mov (.reg .rdi) (.reg .rbx), -- 1079: mov rdi, rbx
  .test (.reg .rcx) (.reg .rdx), -- 1080: test rcx, rdx
  .cmov .zr .r8 (.reg .rbp), -- 1081: cmove r8, rbp
  .cmov .zr .rdi (.reg .rbp), -- 1082: cmove rdi, rbp
  .sar (.reg .rcx) (.imm 1#64), -- 1083: sar rcx, 1
  .xor (.reg .rdi) (.reg .r8), -- 1084: xor rdi, r8
  .xor (.reg .rsi) (.reg .r8), -- 1085: xor rsi, r8
  .bt (.reg .r8) 63#64, -- 1086: bt r8, 0x3f
  .cmov .cy .rbx (.reg .rcx), -- 1087: cmovb rbx, rcx
  .mov (.reg .r8) (.reg .rax), -- 1088: mov r8, rax
  .sub (.reg .rsi) (.reg .rax), -- 1089: sub rsi, rax
  .lea .rcx ⟨some .rcx, some (.rdi, 1#64), 0#64⟩, -- 1090: lea rcx, [rcx + rdi]
  .cmov .sg .r8 (.reg .rbp), -- 1091: cmovs r8, rbp
  .mov (.reg .rdi) (.reg .rbx), -- 1092: mov rdi, rbx
  .test (.reg .rcx) (.reg .rdx), -- 1093: test rcx, rdx
  .cmov .zr .r8 (.reg .rbp), -- 1094: cmove r8, rbp
  .cmov .zr .rdi (.reg .rbp), -- 1095: cmove rdi, rbp
  .sar (.reg .rcx) (.imm 1#64), -- 1096: sar rcx, 1
  .xor (.reg .rdi) (.reg .r8), -- 1097: xor rdi, r8
  .xor (.reg .rsi) (.reg .r8), -- 1098: xor rsi, r8
  .bt (.reg .r8) 63#64, -- 1099: bt r8, 0x3f
  .cmov .cy .rbx (.reg .rcx), -- 1100: cmovb rbx, rcx
  .mov (.reg .r8) (.reg .rax), -- 1101: mov r8, rax
  .sub (.reg .rsi) (.reg .rax), -- 1102: sub rsi, rax
  .lea .rcx ⟨some .rcx, some (.rdi, 1#64), 0#64⟩, -- 1103: lea rcx, [rcx + rdi]
  .cmov .sg .r8 (.reg .rbp), -- 1104: cmovs r8, rbp
  .mov (.reg .rdi) (.reg .rbx), -- 1105: mov rdi, rbx
  .test (.reg .rcx) (.reg .rdx), -- 1106: test rcx, rdx
  .cmov .zr .r8 (.reg .rbp), -- 1107: cmove r8, rbp
  .cmov .zr .rdi (.reg .rbp), -- 1108: cmove rdi, rbp
  .sar (.reg .rcx) (.imm 1#64), -- 1109: sar rcx, 1
  .xor (.reg .rdi) (.reg .r8), -- 1110: xor rdi, r8
  .xor (.reg .rsi) (.reg .r8), -- 1111: xor rsi, r8
  .bt (.reg .r8) 63#64, -- 1112: bt r8, 0x3f
  .cmov .cy .rbx (.reg .rcx), -- 1113: cmovb rbx, rcx
  .mov (.reg .r8) (.reg .rax), -- 1114: mov r8, rax
  .sub (.reg .rsi) (.reg .rax), -- 1115: sub rsi, rax
  .lea .rcx ⟨some .rcx, some (.rdi, 1#64), 0#64⟩, -- 1116: lea rcx, [rcx + rdi]
  .cmov .sg .r8 (.reg .rbp), -- 1117: cmovs r8, rbp
  .mov (.reg .rdi) (.reg .rbx), -- 1118: mov rdi, rbx
  .test (.reg .rcx) (.reg .rdx), -- 1119: test rcx, rdx
  .cmov .zr .r8 (.reg .rbp), -- 1120: cmove r8, rbp
  .cmov .zr .rdi (.reg .rbp), -- 1121: cmove rdi, rbp
  .sar (.reg .rcx) (.imm 1#64), -- 1122: sar rcx, 1
  .xor (.reg .rdi) (.reg .r8), -- 1123: xor rdi, r8
  .xor (.reg .rsi) (.reg .r8), -- 1124: xor rsi, r8
  .bt (.reg .r8) 63#64, -- 1125: bt r8, 0x3f
  .cmov .cy .rbx (.reg .rcx), -- 1126: cmovb rbx, rcx
  .mov (.reg .r8) (.reg .rax), -- 1127: mov r8, rax
  .sub (.reg .rsi) (.reg .rax), -- 1128: sub rsi, rax
  .lea .rcx ⟨some .rcx, some (.rdi, 1#64), 0#64⟩, -- 1129: lea rcx, [rcx + rdi]
  .cmov .sg .r8 (.reg .rbp), -- 1130: cmovs r8, rbp
  .mov (.reg .rdi) (.reg .rbx), -- 1131: mov rdi, rbx
  .test (.reg .rcx) (.reg .rdx), -- 1132: test rcx, rdx
  .cmov .zr .r8 (.reg .rbp), -- 1133: cmove r8, rbp
  .cmov .zr .rdi (.reg .rbp), -- 1134: cmove rdi, rbp
  .sar (.reg .rcx) (.imm 1#64), -- 1135: sar rcx, 1
  .xor (.reg .rdi) (.reg .r8), -- 1136: xor rdi, r8
  .xor (.reg .rsi) (.reg .r8), -- 1137: xor rsi, r8
  .bt (.reg .r8) 63#64, -- 1138: bt r8, 0x3f
  .cmov .cy .rbx (.reg .rcx), -- 1139: cmovb rbx, rcx
  .mov (.reg .r8) (.reg .rax), -- 1140: mov r8, rax
  .sub (.reg .rsi) (.reg .rax), -- 1141: sub rsi, rax
  .lea .rcx ⟨some .rcx, some (.rdi, 1#64), 0#64⟩, -- 1142: lea rcx, [rcx + rdi]
  .cmov .sg .r8 (.reg .rbp), -- 1143: cmovs r8, rbp
  .mov (.reg .rdi) (.reg .rbx), -- 1144: mov rdi, rbx
  .test (.reg .rcx) (.reg .rdx), -- 1145: test rcx, rdx
  .cmov .zr .r8 (.reg .rbp), -- 1146: cmove r8, rbp
  .cmov .zr .rdi (.reg .rbp), -- 1147: cmove rdi, rbp
  .sar (.reg .rcx) (.imm 1#64), -- 1148: sar rcx, 1
  .xor (.reg .rdi) (.reg .r8), -- 1149: xor rdi, r8
  .xor (.reg .rsi) (.reg .r8), -- 1150: xor rsi, r8
  .bt (.reg .r8) 63#64, -- 1151: bt r8, 0x3f
  .cmov .cy .rbx (.reg .rcx), -- 1152: cmovb rbx, rcx
  .mov (.reg .r8) (.reg .rax), -- 1153: mov r8, rax
  .sub (.reg .rsi) (.reg .rax), -- 1154: sub rsi, rax
  .lea .rcx ⟨some .rcx, some (.rdi, 1#64), 0#64⟩, -- 1155: lea rcx, [rcx + rdi]
  .cmov .sg .r8 (.reg .rbp), -- 1156: cmovs r8, rbp
  .mov (.reg .rdi) (.reg .rbx), -- 1157: mov rdi, rbx
  .test (.reg .rcx) (.reg .rdx), -- 1158: test rcx, rdx
  .cmov .zr .r8 (.reg .rbp), -- 1159: cmove r8, rbp
  .cmov .zr .rdi (.reg .rbp), -- 1160: cmove rdi, rbp
  .sar (.reg .rcx) (.imm 1#64), -- 1161: sar rcx, 1
  .xor (.reg .rdi) (.reg .r8), -- 1162: xor rdi, r8
  .xor (.reg .rsi) (.reg .r8), -- 1163: xor rsi, r8
  .bt (.reg .r8) 63#64, -- 1164: bt r8, 0x3f
  .cmov .cy .rbx (.reg .rcx), -- 1165: cmovb rbx, rcx
  .mov (.reg .r8) (.reg .rax), -- 1166: mov r8, rax
  .sub (.reg .rsi) (.reg .rax), -- 1167: sub rsi, rax
  .lea .rcx ⟨some .rcx, some (.rdi, 1#64), 0#64⟩, -- 1168: lea rcx, [rcx + rdi]
  .cmov .sg .r8 (.reg .rbp), -- 1169: cmovs r8, rbp
  .mov (.reg .rdi) (.reg .rbx), -- 1170: mov rdi, rbx
  .test (.reg .rcx) (.reg .rdx), -- 1171: test rcx, rdx
  .cmov .zr .r8 (.reg .rbp), -- 1172: cmove r8, rbp
  .cmov .zr .rdi (.reg .rbp), -- 1173: cmove rdi, rbp
  .sar (.reg .rcx) (.imm 1#64), -- 1174: sar rcx, 1
  .xor (.reg .rdi) (.reg .r8), -- 1175: xor rdi, r8
  .xor (.reg .rsi) (.reg .r8), -- 1176: xor rsi, r8
  .bt (.reg .r8) 63#64, -- 1177: bt r8, 0x3f
  .cmov .cy .rbx (.reg .rcx), -- 1178: cmovb rbx, rcx
  .mov (.reg .r8) (.reg .rax), -- 1179: mov r8, rax
  .sub (.reg .rsi) (.reg .rax), -- 1180: sub rsi, rax
  .lea .rcx ⟨some .rcx, some (.rdi, 1#64), 0#64⟩, -- 1181: lea rcx, [rcx + rdi]
  .cmov .sg .r8 (.reg .rbp), -- 1182: cmovs r8, rbp
  .mov (.reg .rdi) (.reg .rbx), -- 1183: mov rdi, rbx
  .test (.reg .rcx) (.reg .rdx), -- 1184: test rcx, rdx
  .cmov .zr .r8 (.reg .rbp), -- 1185: cmove r8, rbp
  .cmov .zr .rdi (.reg .rbp), -- 1186: cmove rdi, rbp
  .sar (.reg .rcx) (.imm 1#64), -- 1187: sar rcx, 1
  .xor (.reg .rdi) (.reg .r8), -- 1188: xor rdi, r8
  .xor (.reg .rsi) (.reg .r8), -- 1189: xor rsi, r8
  .bt (.reg .r8) 63#64, -- 1190: bt r8, 0x3f
  .cmov .cy .rbx (.reg .rcx), -- 1191: cmovb rbx, rcx
  .mov (.reg .r8) (.reg .rax), -- 1192: mov r8, rax
  .sub (.reg .rsi) (.reg .rax), -- 1193: sub rsi, rax
  .lea .rcx ⟨some .rcx, some (.rdi, 1#64), 0#64⟩, -- 1194: lea rcx, [rcx + rdi]
  .cmov .sg .r8 (.reg .rbp), -- 1195: cmovs r8, rbp
  .mov (.reg .rdi) (.reg .rbx), -- 1196: mov rdi, rbx
  .test (.reg .rcx) (.reg .rdx), -- 1197: test rcx, rdx
  .cmov .zr .r8 (.reg .rbp), -- 1198: cmove r8, rbp
  .cmov .zr .rdi (.reg .rbp), -- 1199: cmove rdi, rbp
  .sar (.reg .rcx) (.imm 1#64), -- 1200: sar rcx, 1
  .xor (.reg .rdi) (.reg .r8), -- 1201: xor rdi, r8
  .xor (.reg .rsi) (.reg .r8), -- 1202: xor rsi, r8
  .bt (.reg .r8) 63#64, -- 1203: bt r8, 0x3f
  .cmov .cy .rbx (.reg .rcx), -- 1204: cmovb rbx, rcx
  .mov (.reg .r8) (.reg .rax), -- 1205: mov r8, rax
  .sub (.reg .rsi) (.reg .rax), -- 1206: sub rsi, rax
  .lea .rcx ⟨some .rcx, some (.rdi, 1#64), 0#64⟩, -- 1207: lea rcx, [rcx + rdi]
  .cmov .sg .r8 (.reg .rbp), -- 1208: cmovs r8, rbp
  .mov (.reg .rdi) (.reg .rbx), -- 1209: mov rdi, rbx
  .test (.reg .rcx) (.reg .rdx), -- 1210: test rcx, rdx
  .cmov .zr .r8 (.reg .rbp), -- 1211: cmove r8, rbp
  .cmov .zr .rdi (.reg .rbp), -- 1212: cmove rdi, rbp
  .sar (.reg .rcx) (.imm 1#64), -- 1213: sar rcx, 1
  .xor (.reg .rdi) (.reg .r8), -- 1214: xor rdi, r8
  .xor (.reg .rsi) (.reg .r8), -- 1215: xor rsi, r8
  .bt (.reg .r8) 63#64, -- 1216: bt r8, 0x3f
  .cmov .cy .rbx (.reg .rcx), -- 1217: cmovb rbx, rcx
  .mov (.reg .r8) (.reg .rax), -- 1218: mov r8, rax
  .sub (.reg .rsi) (.reg .rax), -- 1219: sub rsi, rax
  .lea .rcx ⟨some .rcx, some (.rdi, 1#64), 0#64⟩, -- 1220: lea rcx, [rcx + rdi]
  .cmov .sg .r8 (.reg .rbp), -- 1221: cmovs r8, rbp
  .mov (.reg .rdi) (.reg .rbx), -- 1222: mov rdi, rbx
  .test (.reg .rcx) (.reg .rdx), -- 1223: test rcx, rdx
  .cmov .zr .r8 (.reg .rbp), -- 1224: cmove r8, rbp
  .cmov .zr .rdi (.reg .rbp), -- 1225: cmove rdi, rbp
  .sar (.reg .rcx) (.imm 1#64), -- 1226: sar rcx, 1
  .xor (.reg .rdi) (.reg .r8), -- 1227: xor rdi, r8
  .xor (.reg .rsi) (.reg .r8), -- 1228: xor rsi, r8
  .bt (.reg .r8) 63#64, -- 1229: bt r8, 0x3f
  .cmov .cy .rbx (.reg .rcx), -- 1230: cmovb rbx, rcx
  .mov (.reg .r8) (.reg .rax), -- 1231: mov r8, rax
  .sub (.reg .rsi) (.reg .rax), -- 1232: sub rsi, rax
  .lea .rcx ⟨some .rcx, some (.rdi, 1#64), 0#64⟩, -- 1233: lea rcx, [rcx + rdi]
  .cmov .sg .r8 (.reg .rbp), -- 1234: cmovs r8, rbp
  .mov (.reg .rdi) (.reg .rbx), -- 1235: mov rdi, rbx
  .test (.reg .rcx) (.reg .rdx), -- 1236: test rcx, rdx
  .cmov .zr .r8 (.reg .rbp), -- 1237: cmove r8, rbp
  .cmov .zr .rdi (.reg .rbp), -- 1238: cmove rdi, rbp
  .sar (.reg .rcx) (.imm 1#64), -- 1239: sar rcx, 1
  .xor (.reg .rdi) (.reg .r8), -- 1240: xor rdi, r8
  .xor (.reg .rsi) (.reg .r8), -- 1241: xor rsi, r8
  .bt (.reg .r8) 63#64, -- 1242: bt r8, 0x3f
  .cmov .cy .rbx (.reg .rcx), -- 1243: cmovb rbx, rcx
  .mov (.reg .r8) (.reg .rax), -- 1244: mov r8, rax
  .sub (.reg .rsi) (.reg .rax), -- 1245: sub rsi, rax
  .lea .rcx ⟨some .rcx, some (.rdi, 1#64), 0#64⟩, -- 1246: lea rcx, [rcx + rdi]
  .sar (.reg .rcx) (.imm 1#64), -- 1247: sar rcx, 1
  .mov (.reg .rax) (.imm 0x100000#64), -- 1248: mov eax, 0x100000
  .lea .r8 ⟨some .rbx, some (.rax, 1#64), 0#64⟩, -- 1249: lea r8, [rbx + rax]
  .lea .r12 ⟨some .rcx, some (.rax, 1#64), 0#64⟩, -- 1250: lea r12, [rcx + rax]
  .shl (.reg .r8) (.imm 21#64), -- 1251: shl r8, 0x15
  .shl (.reg .r12) (.imm 21#64), -- 1252: shl r12, 0x15
  .sar (.reg .r8) (.imm 43#64), -- 1253: sar r8, 0x2b
  .sar (.reg .r12) (.imm 43#64), -- 1254: sar r12, 0x2b
  .mov (.reg .rax) (.imm 0x20000100000#64), -- 1255: movabs rax, 0x20000100000
  .lea .r10 ⟨some .rbx, some (.rax, 1#64), 0#64⟩, -- 1256: lea r10, [rbx + rax]
  .lea .r14 ⟨some .rcx, some (.rax, 1#64), 0#64⟩, -- 1257: lea r14, [rcx + rax]
  .sar (.reg .r10) (.imm 43#64), -- 1258: sar r10, 0x2b
  .sar (.reg .r14) (.imm 43#64), -- 1259: sar r14, 0x2b
  .mov (.reg .rax) (.reg .r9), -- 1260: mov rax, r9
  .imul .rax (.reg .r8), -- 1261: imul rax, r8
  .mov (.reg .rdx) (.reg .r13), -- 1262: mov rdx, r13
  .imul .rdx (.reg .r10), -- 1263: imul rdx, r10
  .imul .r8 (.reg .r15), -- 1264: imul r8, r15
  .imul .r10 (.reg .r11), -- 1265: imul r10, r11
  .add (.reg .r10) (.reg .r8), -- 1266: add r10, r8
  .lea .r8 ⟨some .rax, some (.rdx, 1#64), 0#64⟩, -- 1267: lea r8, [rax + rdx]
  .mov (.reg .rax) (.reg .r9), -- 1268: mov rax, r9
  .imul .rax (.reg .r12), -- 1269: imul rax, r12
  .mov (.reg .rdx) (.reg .r13), -- 1270: mov rdx, r13
  .imul .rdx (.reg .r14), -- 1271: imul rdx, r14
  .imul .r12 (.reg .r15), -- 1272: imul r12, r15
  .imul .r14 (.reg .r11), -- 1273: imul r14, r11
  .add (.reg .r14) (.reg .r12), -- 1274: add r14, r12
  .lea .r12 ⟨some .rax, some (.rdx, 1#64), 0#64⟩, -- 1275: lea r12, [rax + rdx]
  .mov (.mem ⟨some .rsp, none, 184#64⟩) (.reg .rsi), -- 1276: mov QWORD PTR [rsp + (23 * 8)], rsi
  .dec (.mem ⟨some .rsp, none, 176#64⟩), -- 1277: dec QWORD PTR [rsp + (22 * 8)]
  .jcc .nz 54, -- 1278: jnz @3b
  .mov (.reg .rax) (.mem ⟨some .rsp, none, 0#64⟩), -- 1279: mov rax, [rsp + 0]
  .mov (.reg .rcx) (.mem ⟨some .rsp, none, 40#64⟩), -- 1280: mov rcx, [rsp + (5 * 8)]
  .imul .rax (.reg .r8), -- 1281: imul rax, r8
  .imul .rcx (.reg .r10), -- 1282: imul rcx, r10
  .add (.reg .rax) (.reg .rcx), -- 1283: add rax, rcx
  .sar (.reg .rax) (.imm 63#64), -- 1284: sar rax, 63
  .mov (.reg .r9) (.reg .r8), -- 1285: mov r9, r8
  .sar (.reg .r9) (.imm 63#64), -- 1286: sar r9, 63
  .xor (.reg .r8) (.reg .r9), -- 1287: xor r8, r9
  .sub (.reg .r8) (.reg .r9), -- 1288: sub r8, r9
  .xor (.reg .r9) (.reg .rax), -- 1289: xor r9, rax
  .mov (.reg .r11) (.reg .r10), -- 1290: mov r11, r10
  .sar (.reg .r11) (.imm 63#64), -- 1291: sar r11, 63
  .xor (.reg .r10) (.reg .r11), -- 1292: xor r10, r11
  .sub (.reg .r10) (.reg .r11), -- 1293: sub r10, r11
  .xor (.reg .r11) (.reg .rax), -- 1294: xor r11, rax
  .mov (.reg .r13) (.reg .r12), -- 1295: mov r13, r12
  .sar (.reg .r13) (.imm 63#64), -- 1296: sar r13, 63
  .xor (.reg .r12) (.reg .r13), -- 1297: xor r12, r13
  .sub (.reg .r12) (.reg .r13), -- 1298: sub r12, r13
  .xor (.reg .r13) (.reg .rax), -- 1299: xor r13, rax
  .mov (.reg .r15) (.reg .r14), -- 1300: mov r15, r14
  .sar (.reg .r15) (.imm 63#64), -- 1301: sar r15, 63
  .xor (.reg .r14) (.reg .r15), -- 1302: xor r14, r15
  .sub (.reg .r14) (.reg .r15), -- 1303: sub r14, r15
  .xor (.reg .r15) (.reg .rax), -- 1304: xor r15, rax
  .mov (.reg .rax) (.reg .r8), -- 1305: mov rax, r8
  .and (.reg .rax) (.reg .r9), -- 1306: and rax, r9
  .mov (.reg .r12) (.reg .r10), -- 1307: mov r12, r10
  .and (.reg .r12) (.reg .r11), -- 1308: and r12, r11
  .add (.reg .r12) (.reg .rax), -- 1309: add r12, rax
  .xor (.reg .r13) (.reg .r13), -- 1310: xor r13d, r13d
  .mov (.reg .rax) (.mem ⟨some .rsp, none, 80#64⟩), -- 1311: mov rax, [rsp + (10 * 8)]
  .xor (.reg .rax) (.reg .r9), -- 1312: xor rax, r9
  .mul (.reg .r8), -- 1313: mul r8
  .add (.reg .r12) (.reg .rax), -- 1314: add r12, rax
  .adc (.reg .r13) (.reg .rdx), -- 1315: adc r13, rdx
  .mov (.reg .rax) (.mem ⟨some .rsp, none, 120#64⟩), -- 1316: mov rax, [rsp + (15 * 8)]
  .xor (.reg .rax) (.reg .r11), -- 1317: xor rax, r11
  .mul (.reg .r10), -- 1318: mul r10
  .add (.reg .r12) (.reg .rax), -- 1319: add r12, rax
  .adc (.reg .r13) (.reg .rdx), -- 1320: adc r13, rdx
  .xor (.reg .r14) (.reg .r14), -- 1321: xor r14d, r14d
  .mov (.reg .rax) (.mem ⟨some .rsp, none, 88#64⟩), -- 1322: mov rax, [rsp + (10 * 8)+ 8]
  .xor (.reg .rax) (.reg .r9), -- 1323: xor rax, r9
  .mul (.reg .r8), -- 1324: mul r8
  .add (.reg .r13) (.reg .rax), -- 1325: add r13, rax
  .adc (.reg .r14) (.reg .rdx), -- 1326: adc r14, rdx
  .mov (.reg .rax) (.mem ⟨some .rsp, none, 128#64⟩), -- 1327: mov rax, [rsp + (15 * 8)+ 8]
  .xor (.reg .rax) (.reg .r11), -- 1328: xor rax, r11
  .mul (.reg .r10), -- 1329: mul r10
  .add (.reg .r13) (.reg .rax), -- 1330: add r13, rax
  .adc (.reg .r14) (.reg .rdx), -- 1331: adc r14, rdx
  .xor (.reg .r15) (.reg .r15), -- 1332: xor r15d, r15d
  .mov (.reg .rax) (.mem ⟨some .rsp, none, 96#64⟩), -- 1333: mov rax, [rsp + (10 * 8)+ 2 * 8]
  .xor (.reg .rax) (.reg .r9), -- 1334: xor rax, r9
  .mul (.reg .r8), -- 1335: mul r8
  .add (.reg .r14) (.reg .rax), -- 1336: add r14, rax
  .adc (.reg .r15) (.reg .rdx), -- 1337: adc r15, rdx
  .mov (.reg .rax) (.mem ⟨some .rsp, none, 136#64⟩), -- 1338: mov rax, [rsp + (15 * 8)+ 2 * 8]
  .xor (.reg .rax) (.reg .r11), -- 1339: xor rax, r11
  .mul (.reg .r10), -- 1340: mul r10
  .add (.reg .r14) (.reg .rax), -- 1341: add r14, rax
  .adc (.reg .r15) (.reg .rdx), -- 1342: adc r15, rdx
  .mov (.reg .rax) (.mem ⟨some .rsp, none, 104#64⟩), -- 1343: mov rax, [rsp + (10 * 8)+ 3 * 8]
  .xor (.reg .rax) (.reg .r9), -- 1344: xor rax, r9
  .and (.reg .r9) (.reg .r8), -- 1345: and r9, r8
  .neg (.reg .r9), -- 1346: neg r9
  .mul (.reg .r8), -- 1347: mul r8
  .add (.reg .r15) (.reg .rax), -- 1348: add r15, rax
  .adc (.reg .r9) (.reg .rdx), -- 1349: adc r9, rdx
  .mov (.reg .rax) (.mem ⟨some .rsp, none, 144#64⟩), -- 1350: mov rax, [rsp + (15 * 8)+ 3 * 8]
  .xor (.reg .rax) (.reg .r11), -- 1351: xor rax, r11
  .mov (.reg .rdx) (.reg .r11), -- 1352: mov rdx, r11
  .and (.reg .rdx) (.reg .r10), -- 1353: and rdx, r10
  .sub (.reg .r9) (.reg .rdx), -- 1354: sub r9, rdx
  .mul (.reg .r10), -- 1355: mul r10
  .add (.reg .r15) (.reg .rax), -- 1356: add r15, rax
  .adc (.reg .r9) (.reg .rdx), -- 1357: adc r9, rdx
  .mov (.mem ⟨some .rsp, none, 80#64⟩) (.reg .r12), -- 1358: mov [rsp + (10 * 8)], r12
  .mov (.mem ⟨some .rsp, none, 88#64⟩) (.reg .r13), -- 1359: mov [rsp + (10 * 8)+ 8], r13
  .mov (.mem ⟨some .rsp, none, 96#64⟩) (.reg .r14), -- 1360: mov [rsp + (10 * 8)+ 2 * 8], r14
  .mov (.mem ⟨some .rsp, none, 104#64⟩) (.reg .r15), -- 1361: mov [rsp + (10 * 8)+ 3 * 8], r15
  .mov (.mem ⟨some .rsp, none, 112#64⟩) (.reg .r9), -- 1362: mov [rsp + (10 * 8)+ 4 * 8], r9
  .mov (.reg .r8) (.imm 0xe000000000000000#64), -- 1363: mov r8, 0xe000000000000000
  .add (.reg .r8) (.mem ⟨some .rsp, none, 80#64⟩), -- 1364: add r8, [rsp + (10 * 8)]
  .mov (.reg .r9) (.imm 0xffffffffffffffff#64), -- 1365: mov r9, 0xffffffffffffffff
  .adc (.reg .r9) (.mem ⟨some .rsp, none, 88#64⟩), -- 1366: adc r9, [rsp + (10 * 8)+ 8]
  .mov (.reg .r10) (.imm 0x1fffffff#64), -- 1367: mov r10, 0x000000001fffffff
  .adc (.reg .r10) (.mem ⟨some .rsp, none, 96#64⟩), -- 1368: adc r10, [rsp + (10 * 8)+ 16]
  .mov (.reg .r11) (.imm 0x2000000000000000#64), -- 1369: mov r11, 0x2000000000000000
  .adc (.reg .r11) (.mem ⟨some .rsp, none, 104#64⟩), -- 1370: adc r11, [rsp + (10 * 8)+ 24]
  .mov (.reg .r12) (.imm 0x1fffffffe0000000#64), -- 1371: mov r12, 0x1fffffffe0000000
  .adc (.reg .r12) (.mem ⟨some .rsp, none, 112#64⟩), -- 1372: adc r12, [rsp + (10 * 8)+ 32]
  .mov (.reg .rbx) (.reg .r8), -- 1373: mov rbx, r8
  .shl (.reg .rbx) (.imm 32#64), -- 1374: shl rbx, 32
  .mov (.reg .rax) (.imm 0xffffffff00000001#64), -- 1375: mov rax, 0xffffffff00000001
  .mul (.reg .r8), -- 1376: mul r8
  .shr (.reg .r8) (.imm 32#64), -- 1377: shr r8, 32
  .add (.reg .r9) (.reg .rbx), -- 1378: add r9, rbx
  .adc (.reg .r10) (.reg .r8), -- 1379: adc r10, r8
  .adc (.reg .r11) (.reg .rax), -- 1380: adc r11, rax
  .adc (.reg .r12) (.reg .rdx), -- 1381: adc r12, rdx
  .sbb (.reg .rax) (.reg .rax), -- 1382: sbb rax, rax
  .mov (.reg .rbx) (.imm 0xffffffff#64), -- 1383: mov ebx, 0x00000000ffffffff
  .and (.reg .rbx) (.reg .rax), -- 1384: and rbx, rax
  .mov (.reg .rdx) (.imm 0xffffffff00000001#64), -- 1385: mov rdx, 0xffffffff00000001
  .and (.reg .rdx) (.reg .rax), -- 1386: and rdx, rax
  .sub (.reg .r9) (.reg .rax), -- 1387: sub r9, rax
  .mov (.mem ⟨some .rsp, none, 80#64⟩) (.reg .r9), -- 1388: mov [rsp + (10 * 8)], r9
  .sbb (.reg .r10) (.reg .rbx), -- 1389: sbb r10, rbx
  .mov (.mem ⟨some .rsp, none, 88#64⟩) (.reg .r10), -- 1390: mov [rsp + (10 * 8)+ 8], r10
  .sbb (.reg .r11) (.imm 0#64), -- 1391: sbb r11, 0
  .mov (.mem ⟨some .rsp, none, 96#64⟩) (.reg .r11), -- 1392: mov [rsp + (10 * 8)+ 16], r11
  .sbb (.reg .r12) (.reg .rdx), -- 1393: sbb r12, rdx
  .mov (.mem ⟨some .rsp, none, 104#64⟩) (.reg .r12), -- 1394: mov [rsp + (10 * 8)+ 24], r12
  .mov (.reg .r8) (.mem ⟨some .rsp, none, 80#64⟩), -- 1395: mov r8, [rsp + (10 * 8)]
  .mov (.reg .r9) (.mem ⟨some .rsp, none, 88#64⟩), -- 1396: mov r9, [rsp + (10 * 8)+ 8]
  .mov (.reg .r10) (.mem ⟨some .rsp, none, 96#64⟩), -- 1397: mov r10, [rsp + (10 * 8)+ 2 * 8]
  .mov (.reg .r11) (.mem ⟨some .rsp, none, 104#64⟩), -- 1398: mov r11, [rsp + (10 * 8)+ 3 * 8]
  .mov (.reg .rax) (.imm 1#64), -- 1399: mov eax, 1
  .mov (.reg .rbx) (.imm 0xffffffff#64), -- 1400: mov ebx, 0xffffffff
  .lea .rcx ⟨some .rax, none, 0xfffffffffffffffe#64⟩, -- 1401: lea rcx, [rax -2]
  .lea .rdx ⟨some .rbx, none, 0xffffffffffffffff#64⟩, -- 1402: lea rdx, [rbx -1]
  .not (.reg .rbx), -- 1403: not rbx
  .add (.reg .rax) (.reg .r8), -- 1404: add rax, r8
  .adc (.reg .rbx) (.reg .r9), -- 1405: adc rbx, r9
  .adc (.reg .rcx) (.reg .r10), -- 1406: adc rcx, r10
  .adc (.reg .rdx) (.reg .r11), -- 1407: adc rdx, r11
  .cmov .nc .rax (.reg .r8), -- 1408: cmovnc rax, r8
  .cmov .nc .rbx (.reg .r9), -- 1409: cmovnc rbx, r9
  .cmov .nc .rcx (.reg .r10), -- 1410: cmovnc rcx, r10
  .cmov .nc .rdx (.reg .r11), -- 1411: cmovnc rdx, r11
  .mov (.reg .rdi) (.mem ⟨some .rsp, none, 224#64⟩), -- 1412: mov rdi, QWORD PTR [rsp + (28 * 8)]
  .mov (.mem ⟨some .rdi, none, 0#64⟩) (.reg .rax), -- 1413: mov [rdi], rax
  .mov (.mem ⟨some .rdi, none, 8#64⟩) (.reg .rbx), -- 1414: mov [rdi + 8], rbx
  .mov (.mem ⟨some .rdi, none, 16#64⟩) (.reg .rcx), -- 1415: mov [rdi + 2 * 8], rcx
  .mov (.mem ⟨some .rdi, none, 24#64⟩) (.reg .rdx), -- 1416: mov [rdi + 3 * 8], rdx
  .add (.reg .rsp) (.imm 240#64), -- 1417: add rsp, 30 * 8
  .pop .r15, -- 1418: pop r15
  .pop .r14, -- 1419: pop r14
  .pop .r13, -- 1420: pop r13
  .pop .r12, -- 1421: pop r12
  .pop .rbp, -- 1422: pop rbp
  .pop .rbx] -- 1423: pop rbx

/-- The registers that the operands of bignum_inv_p256.rs:1046-1655 say may change. -/
def bignumInvP256Regs : List Reg := [.rdi, .rsi, .r10, .r11, .r12, .r13, .r14, .r15, .r8, .r9, .rax, .rcx, .rdx]

end Verif.X86.Asm
