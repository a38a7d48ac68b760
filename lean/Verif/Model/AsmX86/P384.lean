import Verif.Model.X86

/-!
Generated by tools/gen_asm.py from `graviola/src/low/x86_64`: the `asm!` blocks as lists of instructions.
The comment at the end of a line gives its position; jump targets are positions.
-/
namespace Verif.X86.Asm
open Verif.X86

/-- low/x86_64/bignum_add_p384.rs:96-177.  Operands: inout("rdi") z.as_mut_ptr() => _; inout("rsi") x.as_ptr() => _; inout("rdx") y.as_ptr() => _; out("r10") _; out("r11") _; out("r8") _; out("r9") _; out("rax") _; out("rcx") _. -/
def bignumAddP384 : Prog := [
  .nop, -- 0: endbr64
  .mov (.reg .rax) (.mem ⟨some .rsi, none, 0#64⟩), -- 1: mov rax, [rsi]
  .add (.reg .rax) (.mem ⟨some .rdx, none, 0#64⟩), -- 2: add rax, [rdx]
  .mov (.reg .rcx) (.mem ⟨some .rsi, none, 8#64⟩), -- 3: mov rcx, [rsi+ 8]
  .adc (.reg .rcx) (.mem ⟨some .rdx, none, 8#64⟩), -- 4: adc rcx, [rdx+ 8]
  .mov (.reg .r8) (.mem ⟨some .rsi, none, 16#64⟩), -- 5: mov r8, [rsi+ 16]
  .adc (.reg .r8) (.mem ⟨some .rdx, none, 16#64⟩), -- 6: adc r8, [rdx+ 16]
  .mov (.reg .r9) (.mem ⟨some .rsi, none, 24#64⟩), -- 7: mov r9, [rsi+ 24]
  .adc (.reg .r9) (.mem ⟨some .rdx, none, 24#64⟩), -- 8: adc r9, [rdx+ 24]
  .mov (.reg .r10) (.mem ⟨some .rsi, none, 32#64⟩), -- 9: mov r10, [rsi+ 32]
  .adc (.reg .r10) (.mem ⟨some .rdx, none, 32#64⟩), -- 10: adc r10, [rdx+ 32]
  .mov (.reg .r11) (.mem ⟨some .rsi, none, 40#64⟩), -- 11: mov r11, [rsi+ 40]
  .adc (.reg .r11) (.mem ⟨some .rdx, none, 40#64⟩), -- 12: adc r11, [rdx+ 40]
  .mov (.reg .rdx) (.imm 0#64), -- 13: mov edx, 0
  .adc (.reg .rdx) (.reg .rdx), -- 14: adc rdx, rdx
  .mov (.reg .rsi) (.imm 0xffffffff00000001#64), -- 15: mov rsi, 0xffffffff00000001
  .add (.reg .rax) (.reg .rsi), -- 16: add rax, rsi
  .mov (.reg .rsi) (.imm 0xffffffff#64), -- 17: mov esi, 0x00000000ffffffff
  .adc (.reg .rcx) (.reg .rsi), -- 18: adc rcx, rsi
  .adc (.reg .r8) (.imm 1#64), -- 19: adc r8, 1
  .adc (.reg .r9) (.imm 0#64), -- 20: adc r9, 0
  .adc (.reg .r10) (.imm 0#64), -- 21: adc r10, 0
  .adc (.reg .r11) (.imm 0#64), -- 22: adc r11, 0
  .adc (.reg .rdx) (.imm 0xffffffffffffffff#64), -- 23: adc rdx, -1
  .and (.reg .rdx) (.reg .rsi), -- 24: and rdx, rsi
  .xor (.reg .rsi) (.reg .rsi), -- 25: xor rsi, rsi
  .sub (.reg .rsi) (.reg .rdx), -- 26: sub rsi, rdx
  .sub (.reg .rax) (.reg .rsi), -- 27: sub rax, rsi
  .mov (.mem ⟨some .rdi, none, 0#64⟩) (.reg .rax), -- 28: mov [rdi], rax
  .sbb (.reg .rcx) (.reg .rdx), -- 29: sbb rcx, rdx
  .mov (.mem ⟨some .rdi, none, 8#64⟩) (.reg .rcx), -- 30: mov [rdi+ 8], rcx
  .sbb (.reg .rax) (.reg .rax), -- 31: sbb rax, rax
  .and (.reg .rdx) (.reg .rsi), -- 32: and rdx, rsi
  .neg (.reg .rax), -- 33: neg rax
  .sbb (.reg .r8) (.reg .rdx), -- 34: sbb r8, rdx
  .mov (.mem ⟨some .rdi, none, 16#64⟩) (.reg .r8), -- 35: mov [rdi+ 16], r8
  .sbb (.reg .r9) (.imm 0#64), -- 36: sbb r9, 0
  .mov (.mem ⟨some .rdi, none, 24#64⟩) (.reg .r9), -- 37: mov [rdi+ 24], r9
  .sbb (.reg .r10) (.imm 0#64), -- 38: sbb r10, 0
  .mov (.mem ⟨some .rdi, none, 32#64⟩) (.reg .r10), -- 39: mov [rdi+ 32], r10
  .sbb (.reg .r11) (.imm 0#64), -- 40: sbb r11, 0
  .mov (.mem ⟨some .rdi, none, 40#64⟩) (.reg .r11)] -- 41: mov [rdi+ 40], r11

/-- The registers that the operands of bignum_add_p384.rs:96-177 say may change. -/
def bignumAddP384Regs : List Reg := [.rdi, .rsi, .rdx, .r10, .r11, .r8, .r9, .rax, .rcx]

/-- low/x86_64/bignum_neg_p384.rs:72-128.  Operands: inout("rdi") z.as_mut_ptr() => _; inout("rsi") x.as_ptr() => _; out("r10") _; out("r8") _; out("r9") _; out("rax") _; out("rcx") _; out("rdx") _. -/
def bignumNegP384 : Prog := [
  .nop, -- 0: endbr64
  .mov (.reg .rax) (.mem ⟨some .rsi, none, 0#64⟩), -- 1: mov rax, [rsi]
  .or (.reg .rax) (.mem ⟨some .rsi, none, 8#64⟩), -- 2: or rax, [rsi+ 8]
  .mov (.reg .rcx) (.mem ⟨some .rsi, none, 16#64⟩), -- 3: mov rcx, [rsi+ 16]
  .or (.reg .rcx) (.mem ⟨some .rsi, none, 24#64⟩), -- 4: or rcx, [rsi+ 24]
  .mov (.reg .rdx) (.mem ⟨some .rsi, none, 32#64⟩), -- 5: mov rdx, [rsi+ 32]
  .or (.reg .rdx) (.mem ⟨some .rsi, none, 40#64⟩), -- 6: or rdx, [rsi+ 40]
  .or (.reg .rax) (.reg .rcx), -- 7: or rax, rcx
  .or (.reg .rax) (.reg .rdx), -- 8: or rax, rdx
  .neg (.reg .rax), -- 9: neg rax
  .sbb (.reg .r10) (.reg .r10), -- 10: sbb r10, r10
  .mov (.reg .rax) (.imm 0xffffffff#64), -- 11: mov eax, 0x00000000ffffffff
  .and (.reg .rax) (.reg .r10), -- 12: and rax, r10
  .mov (.reg .rcx) (.imm 0xffffffff00000000#64), -- 13: mov rcx, 0xffffffff00000000
  .and (.reg .rcx) (.reg .r10), -- 14: and rcx, r10
  .mov (.reg .rdx) (.imm 0xfffffffffffffffe#64), -- 15: mov rdx, 0xfffffffffffffffe
  .and (.reg .rdx) (.reg .r10), -- 16: and rdx, r10
  .mov (.reg .r8) (.reg .r10), -- 17: mov r8, r10
  .mov (.reg .r9) (.reg .r10), -- 18: mov r9, r10
  .sub (.reg .rax) (.mem ⟨some .rsi, none, 0#64⟩), -- 19: sub rax, [rsi]
  .sbb (.reg .rcx) (.mem ⟨some .rsi, none, 8#64⟩), -- 20: sbb rcx, [rsi+ 8]
  .sbb (.reg .rdx) (.mem ⟨some .rsi, none, 16#64⟩), -- 21: sbb rdx, [rsi+ 16]
  .sbb (.reg .r8) (.mem ⟨some .rsi, none, 24#64⟩), -- 22: sbb r8, [rsi+ 24]
  .sbb (.reg .r9) (.mem ⟨some .rsi, none, 32#64⟩), -- 23: sbb r9, [rsi+ 32]
  .sbb (.reg .r10) (.mem ⟨some .rsi, none, 40#64⟩), -- 24: sbb r10, [rsi+ 40]
  .mov (.mem ⟨some .rdi, none, 0#64⟩) (.reg .rax), -- 25: mov [rdi], rax
  .mov (.mem ⟨some .rdi, none, 8#64⟩) (.reg .rcx), -- 26: mov [rdi+ 8], rcx
  .mov (.mem ⟨some .rdi, none, 16#64⟩) (.reg .rdx), -- 27: mov [rdi+ 16], rdx
  .mov (.mem ⟨some .rdi, none, 24#64⟩) (.reg .r8), -- 28: mov [rdi+ 24], r8
  .mov (.mem ⟨some .rdi, none, 32#64⟩) (.reg .r9), -- 29: mov [rdi+ 32], r9
  .mov (.mem ⟨some .rdi, none, 40#64⟩) (.reg .r10)] -- 30: mov [rdi+ 40], r10

/-- The registers that the operands of bignum_neg_p384.rs:72-128 say may change. -/
def bignumNegP384Regs : List Reg := [.rdi, .rsi, .r10, .r8, .r9, .rax, .rcx, .rdx]

/-- low/x86_64/bignum_mod_n384.rs:84-153.  Operands: inout("rdi") z.as_mut_ptr() => _; inout("rsi") x.as_ptr() => _; out("r10") _; out("r11") _; out("r8") _; out("r9") _; out("rax") _; out("rcx") _; out("rdx") _. -/
def bignumModN384 : Prog := [
  .nop, -- 0: endbr64
  .mov (.reg .rax) (.imm 0x1313e695333ad68d#64), -- 1: mov rax, 0x1313e695333ad68d
  .mov (.reg .rdx) (.mem ⟨some .rsi, none, 0#64⟩), -- 2: mov rdx, [rsi]
  .add (.reg .rdx) (.reg .rax), -- 3: add rdx, rax
  .mov (.reg .rcx) (.imm 0xa7e5f24db74f5885#64), -- 4: mov rcx, 0xa7e5f24db74f5885
  .adc (.reg .rcx) (.mem ⟨some .rsi, none, 8#64⟩), -- 5: adc rcx, [rsi+ 8]
  .mov (.reg .r8) (.imm 0x389cb27e0bc8d220#64), -- 6: mov r8, 0x389cb27e0bc8d220
  .adc (.reg .r8) (.mem ⟨some .rsi, none, 16#64⟩), -- 7: adc r8, [rsi+ 16]
  .mov (.reg .r9) (.mem ⟨some .rsi, none, 24#64⟩), -- 8: mov r9, [rsi+ 24]
  .adc (.reg .r9) (.imm 0#64), -- 9: adc r9, 0
  .mov (.reg .r10) (.mem ⟨some .rsi, none, 32#64⟩), -- 10: mov r10, [rsi+ 32]
  .adc (.reg .r10) (.imm 0#64), -- 11: adc r10, 0
  .mov (.reg .r11) (.mem ⟨some .rsi, none, 40#64⟩), -- 12: mov r11, [rsi+ 40]
  .adc (.reg .r11) (.imm 0#64), -- 13: adc r11, 0
  .sbb (.reg .rsi) (.reg .rsi), -- 14: sbb rsi, rsi
  .not (.reg .rsi), -- 15: not rsi
  .and (.reg .rax) (.reg .rsi), -- 16: and rax, rsi
  .sub (.reg .rdx) (.reg .rax), -- 17: sub rdx, rax
  .mov (.mem ⟨some .rdi, none, 0#64⟩) (.reg .rdx), -- 18: mov [rdi], rdx
  .sbb (.reg .rdx) (.reg .rdx), -- 19: sbb rdx, rdx
  .mov (.reg .rax) (.imm 0xa7e5f24db74f5885#64), -- 20: mov rax, 0xa7e5f24db74f5885
  .and (.reg .rax) (.reg .rsi), -- 21: and rax, rsi
  .neg (.reg .rdx), -- 22: neg rdx
  .sbb (.reg .rcx) (.reg .rax), -- 23: sbb rcx, rax
  .mov (.mem ⟨some .rdi, none, 8#64⟩) (.reg .rcx), -- 24: mov [rdi+ 8], rcx
  .sbb (.reg .rdx) (.reg .rdx), -- 25: sbb rdx, rdx
  .mov (.reg .rax) (.imm 0x389cb27e0bc8d220#64), -- 26: mov rax, 0x389cb27e0bc8d220
  .and (.reg .rax) (.reg .rsi), -- 27: and rax, rsi
  .neg (.reg .rdx), -- 28: neg rdx
  .sbb (.reg .r8) (.reg .rax), -- 29: sbb r8, rax
  .mov (.mem ⟨some .rdi, none, 16#64⟩) (.reg .r8), -- 30: mov [rdi+ 16], r8
  .sbb (.reg .r9) (.imm 0#64), -- 31: sbb r9, 0
  .mov (.mem ⟨some .rdi, none, 24#64⟩) (.reg .r9), -- 32: mov [rdi+ 24], r9
  .sbb (.reg .r10) (.imm 0#64), -- 33: sbb r10, 0
  .mov (.mem ⟨some .rdi, none, 32#64⟩) (.reg .r10), -- 34: mov [rdi+ 32], r10
  .sbb (.reg .r11) (.imm 0#64), -- 35: sbb r11, 0
  .mov (.mem ⟨some .rdi, none, 40#64⟩) (.reg .r11)] -- 36: mov [rdi+ 40], r11

/-- The registers that the operands of bignum_mod_n384.rs:84-153 say may change. -/
def bignumModN384Regs : List Reg := [.rdi, .rsi, .r10, .r11, .r8, .r9, .rax, .rcx, .rdx]

/-- low/x86_64/bignum_demont_p384.rs:82-150.  Operands: inout("rdi") z.as_mut_ptr() => _; inout("rsi") x.as_ptr() => _; out("r10") _; out("r11") _; out("r12") _; out("r13") _; out("r8") _; out("r9") _; out("rax") _; out("rcx") _; out("rdx") _. -/
def bignumDemontP384 : Prog := [
  .nop, -- 0: endbr64
  .push .r12, -- 1: push r12
  .push .r13, -- 2: push r13
  .mov (.reg .r8) (.mem ⟨some .rsi, none, 0#64⟩), -- 3: mov r8, [rsi]
  .mov (.reg .r9) (.mem ⟨some .rsi, none, 8#64⟩), -- 4: mov r9, [rsi+ 8]
  .mov (.reg .r10) (.mem ⟨some .rsi, none, 16#64⟩), -- 5: mov r10, [rsi+ 16]
  .mov (.reg .r11) (.mem ⟨some .rsi, none, 24#64⟩), -- 6: mov r11, [rsi+ 24]
  .mov (.reg .r12) (.mem ⟨some .rsi, none, 32#64⟩), -- 7: mov r12, [rsi+ 32]
  .mov (.reg .r13) (.mem ⟨some .rsi, none, 40#64⟩), -- 8: mov r13, [rsi+ 40]
  .mov (.reg .rdx) (.reg .r8), -- 9: mov rdx, r8
  .shl (.reg .rdx) (.imm 32#64), -- 10: shl rdx, 32
  .add (.reg .rdx) (.reg .r8), -- 11: add rdx, r8
  .xor (.reg .rsi) (.reg .rsi), -- 12: xor rsi, rsi
  .mov (.reg .rax) (.imm 0xffffffff00000001#64), -- 13: mov rax, 0xffffffff00000001
  .mulx .rax .rcx (.reg .rax), -- 14: mulx rax, rcx, rax
  .mov (.reg .rcx) (.imm 0xffffffff#64), -- 15: mov ecx, 0x00000000ffffffff
  .mulx .rcx .r8 (.reg .rcx), -- 16: mulx rcx, r8, rcx
  .adc (.reg .rax) (.reg .r8), -- 17: adc rax, r8
  .adc (.reg .rcx) (.reg .rdx), -- 18: adc rcx, rdx
  .adc (.reg .rsi) (.imm 0#64), -- 19: adc rsi, 0
  .sub (.reg .r9) (.reg .rax), -- 20: sub r9, rax
  .sbb (.reg .r10) (.reg .rcx), -- 21: sbb r10, rcx
  .sbb (.reg .r11) (.reg .rsi), -- 22: sbb r11, rsi
  .sbb (.reg .r12) (.imm 0#64), -- 23: sbb r12, 0
  .sbb (.reg .r13) (.imm 0#64), -- 24: sbb r13, 0
  .mov (.reg .r8) (.reg .rdx), -- 25: mov r8, rdx
  .sbb (.reg .r8) (.imm 0#64), -- 26: sbb r8, 0
  .mov (.reg .rdx) (.reg .r9), -- 27: mov rdx, r9
  .shl (.reg .rdx) (.imm 32#64), -- 28: shl rdx, 32
  .add (.reg .rdx) (.reg .r9), -- 29: add rdx, r9
  .xor (.reg .rsi) (.reg .rsi), -- 30: xor rsi, rsi
  .mov (.reg .rax) (.imm 0xffffffff00000001#64), -- 31: mov rax, 0xffffffff00000001
  .mulx .rax .rcx (.reg .rax), -- 32: mulx rax, rcx, rax
  .mov (.reg .rcx) (.imm 0xffffffff#64), -- 33: mov ecx, 0x00000000ffffffff
  .mulx .rcx .r9 (.reg .rcx), -- 34: mulx rcx, r9, rcx
  .adc (.reg .rax) (.reg .r9), -- 35: adc rax, r9
  .adc (.reg .rcx) (.reg .rdx), -- 36: adc rcx, rdx
  .adc (.reg .rsi) (.imm 0#64), -- 37: adc rsi, 0
  .sub (.reg .r10) (.reg .rax), -- 38: sub r10, rax
  .sbb (.reg .r11) (.reg .rcx), -- 39: sbb r11, rcx
  .sbb (.reg .r12) (.reg .rsi), -- 40: sbb r12, rsi
  .sbb (.reg .r13) (.imm 0#64), -- 41: sbb r13, 0
  .sbb (.reg .r8) (.imm 0#64), -- 42: sbb r8, 0
  .mov (.reg .r9) (.reg .rdx), -- 43: mov r9, rdx
  .sbb (.reg .r9) (.imm 0#64), -- 44: sbb r9, 0
  .mov (.reg .rdx) (.reg .r10), -- 45: mov rdx, r10
  .shl (.reg .rdx) (.imm 32#64), -- 46: shl rdx, 32
  .add (.reg .rdx) (.reg .r10), -- 47: add rdx, r10
  .xor (.reg .rsi) (.reg .rsi), -- 48: xor rsi, rsi
  .mov (.reg .rax) (.imm 0xffffffff00000001#64), -- 49: mov rax, 0xffffffff00000001
  .mulx .rax .rcx (.reg .rax), -- 50: mulx rax, rcx, rax
  .mov (.reg .rcx) (.imm 0xffffffff#64), -- 51: mov ecx, 0x00000000ffffffff
  .mulx .rcx .r10 (.reg .rcx), -- 52: mulx rcx, r10, rcx
  .adc (.reg .rax) (.reg .r10), -- 53: adc rax, r10
  .adc (.reg .rcx) (.reg .rdx), -- 54: adc rcx, rdx
  .adc (.reg .rsi) (.imm 0#64), -- 55: adc rsi, 0
  .sub (.reg .r11) (.reg .rax), -- 56: sub r11, rax
  .sbb (.reg .r12) (.reg .rcx), -- 57: sbb r12, rcx
  .sbb (.reg .r13) (.reg .rsi), -- 58: sbb r13, rsi
  .sbb (.reg .r8) (.imm 0#64), -- 59: sbb r8, 0
  .sbb (.reg .r9) (.imm 0#64), -- 60: sbb r9, 0
  .mov (.reg .r10) (.reg .rdx), -- 61: mov r10, rdx
  .sbb (.reg .r10) (.imm 0#64), -- 62: sbb r10, 0
  .mov (.reg .rdx) (.reg .r11), -- 63: mov rdx, r11
  .shl (.reg .rdx) (.imm 32#64), -- 64: shl rdx, 32
  .add (.reg .rdx) (.reg .r11), -- 65: add rdx, r11
  .xor (.reg .rsi) (.reg .rsi), -- 66: xor rsi, rsi
  .mov (.reg .rax) (.imm 0xffffffff00000001#64), -- 67: mov rax, 0xffffffff00000001
  .mulx .rax .rcx (.reg .rax), -- 68: mulx rax, rcx, rax
  .mov (.reg .rcx) (.imm 0xffffffff#64), -- 69: mov ecx, 0x00000000ffffffff
  .mulx .rcx .r11 (.reg .rcx), -- 70: mulx rcx, r11, rcx
  .adc (.reg .rax) (.reg .r11), -- 71: adc rax, r11
  .adc (.reg .rcx) (.reg .rdx), -- 72: adc rcx, rdx
  .adc (.reg .rsi) (.imm 0#64), -- 73: adc rsi, 0
  .sub (.reg .r12) (.reg .rax), -- 74: sub r12, rax
  .sbb (.reg .r13) (.reg .rcx), -- 75: sbb r13, rcx
  .sbb (.reg .r8) (.reg .rsi), -- 76: sbb r8, rsi
  .sbb (.reg .r9) (.imm 0#64), -- 77: sbb r9, 0
  .sbb (.reg .r10) (.imm 0#64), -- 78: sbb r10, 0
  .mov (.reg .r11) (.reg .rdx), -- 79: mov r11, rdx
  .sbb (.reg .r11) (.imm 0#64), -- 80: sbb r11, 0
  .mov (.reg .rdx) (.reg .r12), -- 81: mov rdx, r12
  .shl (.reg .rdx) (.imm 32#64), -- 82: shl rdx, 32
  .add (.reg .rdx) (.reg .r12), -- 83: add rdx, r12
  .xor (.reg .rsi) (.reg .rsi), -- 84: xor rsi, rsi
  .mov (.reg .rax) (.imm 0xffffffff00000001#64), -- 85: mov rax, 0xffffffff00000001
  .mulx .rax .rcx (.reg .rax), -- 86: mulx rax, rcx, rax
  .mov (.reg .rcx) (.imm 0xffffffff#64), -- 87: mov ecx, 0x00000000ffffffff
  .mulx .rcx .r12 (.reg .rcx), -- 88: mulx rcx, r12, rcx
  .adc (.reg .rax) (.reg .r12), -- 89: adc rax, r12
  .adc (.reg .rcx) (.reg .rdx), -- 90: adc rcx, rdx
  .adc (.reg .rsi) (.imm 0#64), -- 91: adc rsi, 0
  .sub (.reg .r13) (.reg .rax), -- 92: sub r13, rax
  .sbb (.reg .r8) (.reg .rcx), -- 93: sbb r8, rcx
  .sbb (.reg .r9) (.reg .rsi), -- 94: sbb r9, rsi
  .sbb (.reg .r10) (.imm 0#64), -- 95: sbb r10, 0
  .sbb (.reg .r11) (.imm 0#64), -- 96: sbb r11, 0
  .mov (.reg .r12) (.reg .rdx), -- 97: mov r12, rdx
  .sbb (.reg .r12) (.imm 0#64), -- 98: sbb r12, 0
  .mov (.reg .rdx) (.reg .r13), -- 99: mov rdx, r13
  .shl (.reg .rdx) (.imm 32#64), -- 100: shl rdx, 32
  .add (.reg .rdx) (.reg .r13), -- 101: add rdx, r13
  .xor (.reg .rsi) (.reg .rsi), -- 102: xor rsi, rsi
  .mov (.reg .rax) (.imm 0xffffffff00000001#64), -- 103: mov rax, 0xffffffff00000001
  .mulx .rax .rcx (.reg .rax), -- 104: mulx rax, rcx, rax
  .mov (.reg .rcx) (.imm 0xffffffff#64), -- 105: mov ecx, 0x00000000ffffffff
  .mulx .rcx .r13 (.reg .rcx), -- 106: mulx rcx, r13, rcx
  .adc (.reg .rax) (.reg .r13), -- 107: adc rax, r13
  .adc (.reg .rcx) (.reg .rdx), -- 108: adc rcx, rdx
  .adc (.reg .rsi) (.imm 0#64), -- 109: adc rsi, 0
  .sub (.reg .r8) (.reg .rax), -- 110: sub r8, rax
  .sbb (.reg .r9) (.reg .rcx), -- 111: sbb r9, rcx
  .sbb (.reg .r10) (.reg .rsi), -- 112: sbb r10, rsi
  .sbb (.reg .r11) (.imm 0#64), -- 113: sbb r11, 0
  .sbb (.reg .r12) (.imm 0#64), -- 114: sbb r12, 0
  .mov (.reg .r13) (.reg .rdx), -- 115: mov r13, rdx
  .sbb (.reg .r13) (.imm 0#64), -- 116: sbb r13, 0
  .mov (.mem ⟨some .rdi, none, 0#64⟩) (.reg .r8), -- 117: mov [rdi], r8
  .mov (.mem ⟨some .rdi, none, 8#64⟩) (.reg .r9), -- 118: mov [rdi+ 8], r9
  .mov (.mem ⟨some .rdi, none, 16#64⟩) (.reg .r10), -- 119: mov [rdi+ 16], r10
  .mov (.mem ⟨some .rdi, none, 24#64⟩) (.reg .r11), -- 120: mov [rdi+ 24], r11
  .mov (.mem ⟨some .rdi, none, 32#64⟩) (.reg .r12), -- 121: mov [rdi+ 32], r12
  .mov (.mem ⟨some .rdi, none, 40#64⟩) (.reg .r13), -- 122: mov [rdi+ 40], r13
  .pop .r13, -- 123: pop r13
  .pop .r12] -- 124: pop r12

/-- The registers that the operands of bignum_demont_p384.rs:82-150 say may change. -/
def bignumDemontP384Regs : List Reg := [.rdi, .rsi, .r10, .r11, .r12, .r13, .r8, .r9, .rax, .rcx, .rdx]

/-- low/x86_64/bignum_tomont_p384.rs:132-336.  Operands: inout("rdi") z.as_mut_ptr() => _; inout("rsi") x.as_ptr() => _; out("r10") _; out("r11") _; out("r12") _; out("r13") _; out("r14") _; out("r15") _; out("r8") _; out("r9") _; out("rax") _; out("rcx") _; out("rdx") _. -/
def bignumTomontP384 : Prog := [
  .nop, -- 0: endbr64
  .push .rbp, -- 1: push rbp
  .push .r12, -- 2: push r12
  .push .r13, -- 3: push r13
  .push .r14, -- 4: push r14
  .push .r15, -- 5: push r15
  .mov (.reg .rdx) (.imm 0xfffffffe00000001#64), -- 6: mov rdx, 0xfffffffe00000001
  .mulx .r9 .r8 (.mem ⟨some .rsi, none, 0#64⟩), -- 7: mulx r9, r8, [rsi]
  .mulx .r10 .rcx (.mem ⟨some .rsi, none, 8#64⟩), -- 8: mulx r10, rcx, [rsi+ 8]
  .add (.reg .r9) (.reg .rcx), -- 9: add r9, rcx
  .mulx .r11 .rcx (.mem ⟨some .rsi, none, 16#64⟩), -- 10: mulx r11, rcx, [rsi+ 16]
  .adc (.reg .r10) (.reg .rcx), -- 11: adc r10, rcx
  .mulx .r12 .rcx (.mem ⟨some .rsi, none, 24#64⟩), -- 12: mulx r12, rcx, [rsi+ 24]
  .adc (.reg .r11) (.reg .rcx), -- 13: adc r11, rcx
  .mulx .r13 .rcx (.mem ⟨some .rsi, none, 32#64⟩), -- 14: mulx r13, rcx, [rsi+ 32]
  .adc (.reg .r12) (.reg .rcx), -- 15: adc r12, rcx
  .mulx .r14 .rcx (.mem ⟨some .rsi, none, 40#64⟩), -- 16: mulx r14, rcx, [rsi+ 40]
  .adc (.reg .r13) (.reg .rcx), -- 17: adc r13, rcx
  .adc (.reg .r14) (.imm 0#64), -- 18: adc r14, 0
  .xor (.reg .r15) (.reg .r15), -- 19: xor r15, r15
  .mov (.reg .rdx) (.reg .r8), -- 20: mov rdx, r8
  .shl (.reg .rdx) (.imm 32#64), -- 21: shl rdx, 32
  .add (.reg .rdx) (.reg .r8), -- 22: add rdx, r8
  .xor (.reg .rbp) (.reg .rbp), -- 23: xor ebp, ebp
  .mov (.reg .rax) (.imm 0xffffffff00000001#64), -- 24: mov rax, 0xffffffff00000001
  .mulx .rax .rcx (.reg .rax), -- 25: mulx rax, rcx, rax
  .mov (.reg .rcx) (.imm 0xffffffff#64), -- 26: mov ecx, 0x00000000ffffffff
  .mulx .rcx .r8 (.reg .rcx), -- 27: mulx rcx, r8, rcx
  .adc (.reg .rax) (.reg .r8), -- 28: adc rax, r8
  .adc (.reg .rcx) (.reg .rdx), -- 29: adc rcx, rdx
  .adc32 .rbp .rbp, -- 30: adc ebp, ebp
  .sub (.reg .r9) (.reg .rax), -- 31: sub r9, rax
  .sbb (.reg .r10) (.reg .rcx), -- 32: sbb r10, rcx
  .sbb (.reg .r11) (.reg .rbp), -- 33: sbb r11, rbp
  .sbb (.reg .r12) (.imm 0#64), -- 34: sbb r12, 0
  .sbb (.reg .r13) (.imm 0#64), -- 35: sbb r13, 0
  .sbb (.reg .rdx) (.imm 0#64), -- 36: sbb rdx, 0
  .add (.reg .r14) (.reg .rdx), -- 37: add r14, rdx
  .adc (.reg .r15) (.imm 0#64), -- 38: adc r15, 0
  .xor (.reg .rbp) (.reg .rbp), -- 39: xor rbp, rbp
  .mov (.reg .rdx) (.imm 0x200000000#64), -- 40: mov rdx, 0x0000000200000000
  .xor (.reg .r8) (.reg .r8), -- 41: xor r8, r8
  .mulx .rcx .rax (.mem ⟨some .rsi, none, 0#64⟩), -- 42: mulx rcx, rax, [rsi]
  .adcx .r9 (.reg .rax), -- 43: adcx r9, rax
  .adox .r10 (.reg .rcx), -- 44: adox r10, rcx
  .mulx .rcx .rax (.mem ⟨some .rsi, none, 8#64⟩), -- 45: mulx rcx, rax, [rsi+8]
  .adcx .r10 (.reg .rax), -- 46: adcx r10, rax
  .adox .r11 (.reg .rcx), -- 47: adox r11, rcx
  .mulx .rcx .rax (.mem ⟨some .rsi, none, 16#64⟩), -- 48: mulx rcx, rax, [rsi+16]
  .adcx .r11 (.reg .rax), -- 49: adcx r11, rax
  .adox .r12 (.reg .rcx), -- 50: adox r12, rcx
  .mulx .rcx .rax (.mem ⟨some .rsi, none, 24#64⟩), -- 51: mulx rcx, rax, [rsi+24]
  .adcx .r12 (.reg .rax), -- 52: adcx r12, rax
  .adox .r13 (.reg .rcx), -- 53: adox r13, rcx
  .mulx .rcx .rax (.mem ⟨some .rsi, none, 32#64⟩), -- 54: mulx rcx, rax, [rsi+32]
  .adcx .r13 (.reg .rax), -- 55: adcx r13, rax
  .adox .r14 (.reg .rcx), -- 56: adox r14, rcx
  .mulx .rcx .rax (.mem ⟨some .rsi, none, 40#64⟩), -- 57: mulx rcx, rax, [rsi+40]
  .adcx .r14 (.reg .rax), -- 58: adcx r14, rax
  .adox .r15 (.reg .rcx), -- 59: adox r15, rcx
  .adcx .r15 (.reg .rbp), -- 60: adcx r15, rbp
  .adox .r8 (.reg .rbp), -- 61: adox r8, rbp
  .adcx .r8 (.reg .rbp), -- 62: adcx r8, rbp
  .mov (.reg .rdx) (.reg .r9), -- 63: mov rdx, r9
  .shl (.reg .rdx) (.imm 32#64), -- 64: shl rdx, 32
  .add (.reg .rdx) (.reg .r9), -- 65: add rdx, r9
  .xor (.reg .rbp) (.reg .rbp), -- 66: xor ebp, ebp
  .mov (.reg .rax) (.imm 0xffffffff00000001#64), -- 67: mov rax, 0xffffffff00000001
  .mulx .rax .rcx (.reg .rax), -- 68: mulx rax, rcx, rax
  .mov (.reg .rcx) (.imm 0xffffffff#64), -- 69: mov ecx, 0x00000000ffffffff
  .mulx .rcx .r9 (.reg .rcx), -- 70: mulx rcx, r9, rcx
  .adc (.reg .rax) (.reg .r9), -- 71: adc rax, r9
  .adc (.reg .rcx) (.reg .rdx), -- 72: adc rcx, rdx
  .adc32 .rbp .rbp, -- 73: adc ebp, ebp
  .sub (.reg .r10) (.reg .rax), -- 74: sub r10, rax
  .sbb (.reg .r11) (.reg .rcx), -- 75: sbb r11, rcx
  .sbb (.reg .r12) (.reg .rbp), -- 76: sbb r12, rbp
  .sbb (.reg .r13) (.imm 0#64), -- 77: sbb r13, 0
  .sbb (.reg .r14) (.imm 0#64), -- 78: sbb r14, 0
  .sbb (.reg .rdx) (.imm 0#64), -- 79: sbb rdx, 0
  .add (.reg .r15) (.reg .rdx), -- 80: add r15, rdx
  .adc (.reg .r8) (.imm 0#64), -- 81: adc r8, 0
  .xor (.reg .rbp) (.reg .rbp), -- 82: xor rbp, rbp
  .mov (.reg .rdx) (.imm 0xfffffffe00000000#64), -- 83: mov rdx, 0xfffffffe00000000
  .xor (.reg .r9) (.reg .r9), -- 84: xor r9, r9
  .mulx .rcx .rax (.mem ⟨some .rsi, none, 0#64⟩), -- 85: mulx rcx, rax, [rsi]
  .adcx .r10 (.reg .rax), -- 86: adcx r10, rax
  .adox .r11 (.reg .rcx), -- 87: adox r11, rcx
  .mulx .rcx .rax (.mem ⟨some .rsi, none, 8#64⟩), -- 88: mulx rcx, rax, [rsi+8]
  .adcx .r11 (.reg .rax), -- 89: adcx r11, rax
  .adox .r12 (.reg .rcx), -- 90: adox r12, rcx
  .mulx .rcx .rax (.mem ⟨some .rsi, none, 16#64⟩), -- 91: mulx rcx, rax, [rsi+16]
  .adcx .r12 (.reg .rax), -- 92: adcx r12, rax
  .adox .r13 (.reg .rcx), -- 93: adox r13, rcx
  .mulx .rcx .rax (.mem ⟨some .rsi, none, 24#64⟩), -- 94: mulx rcx, rax, [rsi+24]
  .adcx .r13 (.reg .rax), -- 95: adcx r13, rax
  .adox .r14 (.reg .rcx), -- 96: adox r14, rcx
  .mulx .rcx .rax (.mem ⟨some .rsi, none, 32#64⟩), -- 97: mulx rcx, rax, [rsi+32]
  .adcx .r14 (.reg .rax), -- 98: adcx r14, rax
  .adox .r15 (.reg .rcx), -- 99: adox r15, rcx
  .mulx .rcx .rax (.mem ⟨some .rsi, none, 40#64⟩), -- 100: mulx rcx, rax, [rsi+40]
  .adcx .r15 (.reg .rax), -- 101: adcx r15, rax
  .adox .r8 (.reg .rcx), -- 102: adox r8, rcx
  .adcx .r8 (.reg .rbp), -- 103: adcx r8, rbp
  .adox .r9 (.reg .rbp), -- 104: adox r9, rbp
  .adcx .r9 (.reg .rbp), -- 105: adcx r9, rbp
  .mov (.reg .rdx) (.reg .r10), -- 106: mov rdx, r10
  .shl (.reg .rdx) (.imm 32#64), -- 107: shl rdx, 32
  .add (.reg .rdx) (.reg .r10), -- 108: add rdx, r10
  .xor (.reg .rbp) (.reg .rbp), -- 109: xor ebp, ebp
  .mov (.reg .rax) (.imm 0xffffffff00000001#64), -- 110: mov rax, 0xffffffff00000001
  .mulx .rax .rcx (.reg .rax), -- 111: mulx rax, rcx, rax
  .mov (.reg .rcx) (.imm 0xffffffff#64), -- 112: mov ecx, 0x00000000ffffffff
  .mulx .rcx .r10 (.reg .rcx), -- 113: mulx rcx, r10, rcx
  .adc (.reg .rax) (.reg .r10), -- 114: adc rax, r10
  .adc (.reg .rcx) (.reg .rdx), -- 115: adc rcx, rdx
  .adc32 .rbp .rbp, -- 116: adc ebp, ebp
  .sub (.reg .r11) (.reg .rax), -- 117: sub r11, rax
  .sbb (.reg .r12) (.reg .rcx), -- 118: sbb r12, rcx
  .sbb (.reg .r13) (.reg .rbp), -- 119: sbb r13, rbp
  .sbb (.reg .r14) (.imm 0#64), -- 120: sbb r14, 0
  .sbb (.reg .r15) (.imm 0#64), -- 121: sbb r15, 0
  .sbb (.reg .rdx) (.imm 0#64), -- 122: sbb rdx, 0
  .add (.reg .r8) (.reg .rdx), -- 123: add r8, rdx
  .adc (.reg .r9) (.imm 0#64), -- 124: adc r9, 0
  .xor (.reg .rbp) (.reg .rbp), -- 125: xor rbp, rbp
  .mov (.reg .rdx) (.imm 0x200000000#64), -- 126: mov rdx, 0x0000000200000000
  .xor (.reg .r10) (.reg .r10), -- 127: xor r10, r10
  .mulx .rcx .rax (.mem ⟨some .rsi, none, 0#64⟩), -- 128: mulx rcx, rax, [rsi]
  .adcx .r11 (.reg .rax), -- 129: adcx r11, rax
  .adox .r12 (.reg .rcx), -- 130: adox r12, rcx
  .mulx .rcx .rax (.mem ⟨some .rsi, none, 8#64⟩), -- 131: mulx rcx, rax, [rsi+8]
  .adcx .r12 (.reg .rax), -- 132: adcx r12, rax
  .adox .r13 (.reg .rcx), -- 133: adox r13, rcx
  .mulx .rcx .rax (.mem ⟨some .rsi, none, 16#64⟩), -- 134: mulx rcx, rax, [rsi+16]
  .adcx .r13 (.reg .rax), -- 135: adcx r13, rax
  .adox .r14 (.reg .rcx), -- 136: adox r14, rcx
  .mulx .rcx .rax (.mem ⟨some .rsi, none, 24#64⟩), -- 137: mulx rcx, rax, [rsi+24]
  .adcx .r14 (.reg .rax), -- 138: adcx r14, rax
  .adox .r15 (.reg .rcx), -- 139: adox r15, rcx
  .mulx .rcx .rax (.mem ⟨some .rsi, none, 32#64⟩), -- 140: mulx rcx, rax, [rsi+32]
  .adcx .r15 (.reg .rax), -- 141: adcx r15, rax
  .adox .r8 (.reg .rcx), -- 142: adox r8, rcx
  .mulx .rcx .rax (.mem ⟨some .rsi, none, 40#64⟩), -- 143: mulx rcx, rax, [rsi+40]
  .adcx .r8 (.reg .rax), -- 144: adcx r8, rax
  .adox .r9 (.reg .rcx), -- 145: adox r9, rcx
  .adcx .r9 (.reg .rbp), -- 146: adcx r9, rbp
  .adox .r10 (.reg .rbp), -- 147: adox r10, rbp
  .adcx .r10 (.reg .rbp), -- 148: adcx r10, rbp
  .mov (.reg .rdx) (.reg .r11), -- 149: mov rdx, r11
  .shl (.reg .rdx) (.imm 32#64), -- 150: shl rdx, 32
  .add (.reg .rdx) (.reg .r11), -- 151: add rdx, r11
  .xor (.reg .rbp) (.reg .rbp), -- 152: xor ebp, ebp
  .mov (.reg .rax) (.imm 0xffffffff00000001#64), -- 153: mov rax, 0xffffffff00000001
  .mulx .rax .rcx (.reg .rax), -- 154: mulx rax, rcx, rax
  .mov (.reg .rcx) (.imm 0xffffffff#64), -- 155: mov ecx, 0x00000000ffffffff
  .mulx .rcx .r11 (.reg .rcx), -- 156: mulx rcx, r11, rcx
  .adc (.reg .rax) (.reg .r11), -- 157: adc rax, r11
  .adc (.reg .rcx) (.reg .rdx), -- 158: adc rcx, rdx
  .adc32 .rbp .rbp, -- 159: adc ebp, ebp
  .sub (.reg .r12) (.reg .rax), -- 160: sub r12, rax
  .sbb (.reg .r13) (.reg .rcx), -- 161: sbb r13, rcx
  .sbb (.reg .r14) (.reg .rbp), -- 162: sbb r14, rbp
  .sbb (.reg .r15) (.imm 0#64), -- 163: sbb r15, 0
  .sbb (.reg .r8) (.imm 0#64), -- 164: sbb r8, 0
  .sbb (.reg .rdx) (.imm 0#64), -- 165: sbb rdx, 0
  .add (.reg .r9) (.reg .rdx), -- 166: add r9, rdx
  .adc (.reg .r10) (.imm 0#64), -- 167: adc r10, 0
  .xor (.reg .r11) (.reg .r11), -- 168: xor r11, r11
  .add (.reg .r12) (.mem ⟨some .rsi, none, 0#64⟩), -- 169: add r12, [rsi]
  .adc (.reg .r13) (.mem ⟨some .rsi, none, 8#64⟩), -- 170: adc r13, [rsi+ 8]
  .adc (.reg .r14) (.mem ⟨some .rsi, none, 16#64⟩), -- 171: adc r14, [rsi+ 16]
  .adc (.reg .r15) (.mem ⟨some .rsi, none, 24#64⟩), -- 172: adc r15, [rsi+ 24]
  .adc (.reg .r8) (.mem ⟨some .rsi, none, 32#64⟩), -- 173: adc r8, [rsi+ 32]
  .adc (.reg .r9) (.mem ⟨some .rsi, none, 40#64⟩), -- 174: adc r9, [rsi+ 40]
  .adc (.reg .r10) (.imm 0#64), -- 175: adc r10, 0
  .adc (.reg .r11) (.imm 0#64), -- 176: adc r11, 0
  .mov (.reg .rdx) (.reg .r12), -- 177: mov rdx, r12
  .shl (.reg .rdx) (.imm 32#64), -- 178: shl rdx, 32
  .add (.reg .rdx) (.reg .r12), -- 179: add rdx, r12
  .xor (.reg .rbp) (.reg .rbp), -- 180: xor ebp, ebp
  .mov (.reg .rax) (.imm 0xffffffff00000001#64), -- 181: mov rax, 0xffffffff00000001
  .mulx .rax .rcx (.reg .rax), -- 182: mulx rax, rcx, rax
  .mov (.reg .rcx) (.imm 0xffffffff#64), -- 183: mov ecx, 0x00000000ffffffff
  .mulx .rcx .r12 (.reg .rcx), -- 184: mulx rcx, r12, rcx
  .adc (.reg .rax) (.reg .r12), -- 185: adc rax, r12
  .adc (.reg .rcx) (.reg .rdx), -- 186: adc rcx, rdx
  .adc32 .rbp .rbp, -- 187: adc ebp, ebp
  .sub (.reg .r13) (.reg .rax), -- 188: sub r13, rax
  .sbb (.reg .r14) (.reg .rcx), -- 189: sbb r14, rcx
  .sbb (.reg .r15) (.reg .rbp), -- 190: sbb r15, rbp
  .sbb (.reg .r8) (.imm 0#64), -- 191: sbb r8, 0
  .sbb (.reg .r9) (.imm 0#64), -- 192: sbb r9, 0
  .sbb (.reg .rdx) (.imm 0#64), -- 193: sbb rdx, 0
  .add (.reg .r10) (.reg .rdx), -- 194: add r10, rdx
  .adc (.reg .r11) (.imm 0#64), -- 195: adc r11, 0
  .xor (.reg .r12) (.reg .r12), -- 196: xor r12, r12
  .mov (.reg .rdx) (.reg .r13), -- 197: mov rdx, r13
  .shl (.reg .rdx) (.imm 32#64), -- 198: shl rdx, 32
  .add (.reg .rdx) (.reg .r13), -- 199: add rdx, r13
  .xor (.reg .rbp) (.reg .rbp), -- 200: xor ebp, ebp
  .mov (.reg .rax) (.imm 0xffffffff00000001#64), -- 201: mov rax, 0xffffffff00000001
  .mulx .rax .rcx (.reg .rax), -- 202: mulx rax, rcx, rax
  .mov (.reg .rcx) (.imm 0xffffffff#64), -- 203: mov ecx, 0x00000000ffffffff
  .mulx .rcx .r13 (.reg .rcx), -- 204: mulx rcx, r13, rcx
  .adc (.reg .rax) (.reg .r13), -- 205: adc rax, r13
  .adc (.reg .rcx) (.reg .rdx), -- 206: adc rcx, rdx
  .adc32 .rbp .rbp, -- 207: adc ebp, ebp
  .sub (.reg .r14) (.reg .rax), -- 208: sub r14, rax
  .sbb (.reg .r15) (.reg .rcx), -- 209: sbb r15, rcx
  .sbb (.reg .r8) (.reg .rbp), -- 210: sbb r8, rbp
  .sbb (.reg .r9) (.imm 0#64), -- 211: sbb r9, 0
  .sbb (.reg .r10) (.imm 0#64), -- 212: sbb r10, 0
  .sbb (.reg .rdx) (.imm 0#64), -- 213: sbb rdx, 0
  .add (.reg .r11) (.reg .rdx), -- 214: add r11, rdx
  .adc (.reg .r12) (.imm 0#64), -- 215: adc r12, 0
  .mov (.reg .rdx) (.imm 0xffffffff00000001#64), -- 216: mov rdx, 0xffffffff00000001
  .mov (.reg .rcx) (.imm 0xffffffff#64), -- 217: mov ecx, 0x00000000ffffffff
  .mov (.reg .rsi) (.imm 1#64), -- 218: mov esi, 0x0000000000000001
  .mov (.reg .rax) (.reg .r14), -- 219: mov rax, r14
  .add (.reg .rax) (.reg .rdx), -- 220: add rax, rdx
  .mov (.reg .rax) (.reg .r15), -- 221: mov rax, r15
  .adc (.reg .rax) (.reg .rcx), -- 222: adc rax, rcx
  .mov (.reg .rax) (.reg .r8), -- 223: mov rax, r8
  .adc (.reg .rax) (.reg .rsi), -- 224: adc rax, rsi
  .mov (.reg .rax) (.reg .r9), -- 225: mov rax, r9
  .adc (.reg .rax) (.imm 0#64), -- 226: adc rax, 0
  .mov (.reg .rax) (.reg .r10), -- 227: mov rax, r10
  .adc (.reg .rax) (.imm 0#64), -- 228: adc rax, 0
  .mov (.reg .rax) (.reg .r11), -- 229: mov rax, r11
  .adc (.reg .rax) (.imm 0#64), -- 230: adc rax, 0
  .adc (.reg .r12) (.imm 0#64), -- 231: adc r12, 0
  .neg (.reg .r12), -- 232: neg r12
  .and (.reg .rdx) (.reg .r12), -- 233: and rdx, r12
  .and (.reg .rcx) (.reg .r12), -- 234: and rcx, r12
  .and (.reg .rsi) (.reg .r12), -- 235: and rsi, r12
  .add (.reg .r14) (.reg .rdx), -- 236: add r14, rdx
  .adc (.reg .r15) (.reg .rcx), -- 237: adc r15, rcx
  .adc (.reg .r8) (.reg .rsi), -- 238: adc r8, rsi
  .adc (.reg .r9) (.imm 0#64), -- 239: adc r9, 0
  .adc (.reg .r10) (.imm 0#64), -- 240: adc r10, 0
  .adc (.reg .r11) (.imm 0#64), -- 241: adc r11, 0
  .mov (.mem ⟨some .rdi, none, 0#64⟩) (.reg .r14), -- 242: mov [rdi], r14
  .mov (.mem ⟨some .rdi, none, 8#64⟩) (.reg .r15), -- 243: mov [rdi+ 8], r15
  .mov (.mem ⟨some .rdi, none, 16#64⟩) (.reg .r8), -- 244: mov [rdi+ 16], r8
  .mov (.mem ⟨some .rdi, none, 24#64⟩) (.reg .r9), -- 245: mov [rdi+ 24], r9
  .mov (.mem ⟨some .rdi, none, 32#64⟩) (.reg .r10), -- 246: mov [rdi+ 32], r10
  .mov (.mem ⟨some .rdi, none, 40#64⟩) (.reg .r11), -- 247: mov [rdi+ 40], r11
  .pop .r15, -- 248: pop r15
  .pop .r14, -- 249: pop r14
  .pop .r13, -- 250: pop r13
  .pop .r12, -- 251: pop r12
  .pop .rbp] -- 252: pop rbp

/-- The registers that the operands of bignum_tomont_p384.rs:132-336 say may change. -/
def bignumTomontP384Regs : List Reg := [.rdi, .rsi, .r10, .r11, .r12, .r13, .r14, .r15, .r8, .r9, .rax, .rcx, .rdx]

/-- low/x86_64/bignum_montmul_p384.rs:130-327.  Operands: inout("rdi") z.as_mut_ptr() => _; inout("rsi") x.as_ptr() => _; inout("rdx") y.as_ptr() => _; out("r10") _; out("r11") _; out("r12") _; out("r13") _; out("r14") _; out("r15") _; out("r8") _; out("r9") _; out("rax") _; out("rcx") _. -/
def bignumMontmulP384 : Prog := [
  .nop, -- 0: endbr64
  .push .rbx, -- 1: push rbx
  .push .rbp, -- 2: push rbp
  .push .r12, -- 3: push r12
  .push .r13, -- 4: push r13
  .push .r14, -- 5: push r14
  .push .r15, -- 6: push r15
  .mov (.reg .rcx) (.reg .rdx), -- 7: mov rcx, rdx
  .mov (.reg .rdx) (.mem ⟨some .rcx, none, 0#64⟩), -- 8: mov rdx, [rcx]
  .xor (.reg .r15) (.reg .r15), -- 9: xor r15d, r15d
  .mulx .r9 .r8 (.mem ⟨some .rsi, none, 0#64⟩), -- 10: mulx r9, r8, [rsi]
  .mulx .r10 .rbx (.mem ⟨some .rsi, none, 8#64⟩), -- 11: mulx r10, rbx, [rsi+ 8]
  .add (.reg .r9) (.reg .rbx), -- 12: add r9, rbx
  .mulx .r11 .rbx (.mem ⟨some .rsi, none, 16#64⟩), -- 13: mulx r11, rbx, [rsi+ 16]
  .adc (.reg .r10) (.reg .rbx), -- 14: adc r10, rbx
  .mulx .r12 .rbx (.mem ⟨some .rsi, none, 24#64⟩), -- 15: mulx r12, rbx, [rsi+ 24]
  .adc (.reg .r11) (.reg .rbx), -- 16: adc r11, rbx
  .mulx .r13 .rbx (.mem ⟨some .rsi, none, 32#64⟩), -- 17: mulx r13, rbx, [rsi+ 32]
  .adc (.reg .r12) (.reg .rbx), -- 18: adc r12, rbx
  .mulx .r14 .rbx (.mem ⟨some .rsi, none, 40#64⟩), -- 19: mulx r14, rbx, [rsi+ 40]
  .adc (.reg .r13) (.reg .rbx), -- 20: adc r13, rbx
  .adc (.reg .r14) (.reg .r15), -- 21: adc r14, r15
  .mov (.reg .rdx) (.reg .r8), -- 22: mov rdx, r8
  .shl (.reg .rdx) (.imm 32#64), -- 23: shl rdx, 32
  .add (.reg .rdx) (.reg .r8), -- 24: add rdx, r8
  .xor (.reg .rbp) (.reg .rbp), -- 25: xor ebp, ebp
  .mov (.reg .rax) (.imm 0xffffffff00000001#64), -- 26: mov rax, 0xffffffff00000001
  .mulx .rax .rbx (.reg .rax), -- 27: mulx rax, rbx, rax
  .mov (.reg .rbx) (.imm 0xffffffff#64), -- 28: mov ebx, 0x00000000ffffffff
  .mulx .rbx .r8 (.reg .rbx), -- 29: mulx rbx, r8, rbx
  .adc (.reg .rax) (.reg .r8), -- 30: adc rax, r8
  .adc (.reg .rbx) (.reg .rdx), -- 31: adc rbx, rdx
  .adc32 .rbp .rbp, -- 32: adc ebp, ebp
  .sub (.reg .r9) (.reg .rax), -- 33: sub r9, rax
  .sbb (.reg .r10) (.reg .rbx), -- 34: sbb r10, rbx
  .sbb (.reg .r11) (.reg .rbp), -- 35: sbb r11, rbp
  .sbb (.reg .r12) (.imm 0#64), -- 36: sbb r12, 0
  .sbb (.reg .r13) (.imm 0#64), -- 37: sbb r13, 0
  .sbb (.reg .rdx) (.imm 0#64), -- 38: sbb rdx, 0
  .add (.reg .r14) (.reg .rdx), -- 39: add r14, rdx
  .adc (.reg .r15) (.imm 0#64), -- 40: adc r15, 0
  .mov (.reg .rdx) (.mem ⟨some .rcx, none, 8#64⟩), -- 41: mov rdx, [rcx+ 8]
  .xor (.reg .r8) (.reg .r8), -- 42: xor r8d, r8d
  .mulx .rbx .rax (.mem ⟨some .rsi, none, 0#64⟩), -- 43: mulx rbx, rax, [rsi]
  .adcx .r9 (.reg .rax), -- 44: adcx r9, rax
  .adox .r10 (.reg .rbx), -- 45: adox r10, rbx
  .mulx .rbx .rax (.mem ⟨some .rsi, none, 8#64⟩), -- 46: mulx rbx, rax, [rsi+8]
  .adcx .r10 (.reg .rax), -- 47: adcx r10, rax
  .adox .r11 (.reg .rbx), -- 48: adox r11, rbx
  .mulx .rbx .rax (.mem ⟨some .rsi, none, 16#64⟩), -- 49: mulx rbx, rax, [rsi+16]
  .adcx .r11 (.reg .rax), -- 50: adcx r11, rax
  .adox .r12 (.reg .rbx), -- 51: adox r12, rbx
  .mulx .rbx .rax (.mem ⟨some .rsi, none, 24#64⟩), -- 52: mulx rbx, rax, [rsi+24]
  .adcx .r12 (.reg .rax), -- 53: adcx r12, rax
  .adox .r13 (.reg .rbx), -- 54: adox r13, rbx
  .mulx .rbx .rax (.mem ⟨some .rsi, none, 32#64⟩), -- 55: mulx rbx, rax, [rsi+32]
  .adcx .r13 (.reg .rax), -- 56: adcx r13, rax
  .adox .r14 (.reg .rbx), -- 57: adox r14, rbx
  .adox .r15 (.reg .r8), -- 58: adox r15, r8
  .mulx .rbx .rax (.mem ⟨some .rsi, none, 40#64⟩), -- 59: mulx rbx, rax, [rsi+ 40]
  .adc (.reg .r14) (.reg .rax), -- 60: adc r14, rax
  .adc (.reg .r15) (.reg .rbx), -- 61: adc r15, rbx
  .adc (.reg .r8) (.reg .r8), -- 62: adc r8, r8
  .mov (.reg .rdx) (.reg .r9), -- 63: mov rdx, r9
  .shl (.reg .rdx) (.imm 32#64), -- 64: shl rdx, 32
  .add (.reg .rdx) (.reg .r9), -- 65: add rdx, r9
  .xor (.reg .rbp) (.reg .rbp), -- 66: xor ebp, ebp
  .mov (.reg .rax) (.imm 0xffffffff00000001#64), -- 67: mov rax, 0xffffffff00000001
  .mulx .rax .rbx (.reg .rax), -- 68: mulx rax, rbx, rax
  .mov (.reg .rbx) (.imm 0xffffffff#64), -- 69: mov ebx, 0x00000000ffffffff
  .mulx .rbx .r9 (.reg .rbx), -- 70: mulx rbx, r9, rbx
  .adc (.reg .rax) (.reg .r9), -- 71: adc rax, r9
  .adc (.reg .rbx) (.reg .rdx), -- 72: adc rbx, rdx
  .adc32 .rbp .rbp, -- 73: adc ebp, ebp
  .sub (.reg .r10) (.reg .rax), -- 74: sub r10, rax
  .sbb (.reg .r11) (.reg .rbx), -- 75: sbb r11, rbx
  .sbb (.reg .r12) (.reg .rbp), -- 76: sbb r12, rbp
  .sbb (.reg .r13) (.imm 0#64), -- 77: sbb r13, 0
  .sbb (.reg .r14) (.imm 0#64), -- 78: sbb r14, 0
  .sbb (.reg .rdx) (.imm 0#64), -- 79: sbb rdx, 0
  .add (.reg .r15) (.reg .rdx), -- 80: add r15, rdx
  .adc (.reg .r8) (.imm 0#64), -- 81: adc r8, 0
  .mov (.reg .rdx) (.mem ⟨some .rcx, none, 16#64⟩), -- 82: mov rdx, [rcx+ 16]
  .xor (.reg .r9) (.reg .r9), -- 83: xor r9d, r9d
  .mulx .rbx .rax (.mem ⟨some .rsi, none, 0#64⟩), -- 84: mulx rbx, rax, [rsi]
  .adcx .r10 (.reg .rax), -- 85: adcx r10, rax
  .adox .r11 (.reg .rbx), -- 86: adox r11, rbx
  .mulx .rbx .rax (.mem ⟨some .rsi, none, 8#64⟩), -- 87: mulx rbx, rax, [rsi+8]
  .adcx .r11 (.reg .rax), -- 88: adcx r11, rax
  .adox .r12 (.reg .rbx), -- 89: adox r12, rbx
  .mulx .rbx .rax (.mem ⟨some .rsi, none, 16#64⟩), -- 90: mulx rbx, rax, [rsi+16]
  .adcx .r12 (.reg .rax), -- 91: adcx r12, rax
  .adox .r13 (.reg .rbx), -- 92: adox r13, rbx
  .mulx .rbx .rax (.mem ⟨some .rsi, none, 24#64⟩), -- 93: mulx rbx, rax, [rsi+24]
  .adcx .r13 (.reg .rax), -- 94: adcx r13, rax
  .adox .r14 (.reg .rbx), -- 95: adox r14, rbx
  .mulx .rbx .rax (.mem ⟨some .rsi, none, 32#64⟩), -- 96: mulx rbx, rax, [rsi+32]
  .adcx .r14 (.reg .rax), -- 97: adcx r14, rax
  .adox .r15 (.reg .rbx), -- 98: adox r15, rbx
  .adox .r8 (.reg .r9), -- 99: adox r8, r9
  .mulx .rbx .rax (.mem ⟨some .rsi, none, 40#64⟩), -- 100: mulx rbx, rax, [rsi+ 40]
  .adc (.reg .r15) (.reg .rax), -- 101: adc r15, rax
  .adc (.reg .r8) (.reg .rbx), -- 102: adc r8, rbx
  .adc (.reg .r9) (.reg .r9), -- 103: adc r9, r9
  .mov (.reg .rdx) (.reg .r10), -- 104: mov rdx, r10
  .shl (.reg .rdx) (.imm 32#64), -- 105: shl rdx, 32
  .add (.reg .rdx) (.reg .r10), -- 106: add rdx, r10
  .xor (.reg .rbp) (.reg .rbp), -- 107: xor ebp, ebp
  .mov (.reg .rax) (.imm 0xffffffff00000001#64), -- 108: mov rax, 0xffffffff00000001
  .mulx .rax .rbx (.reg .rax), -- 109: mulx rax, rbx, rax
  .mov (.reg .rbx) (.imm 0xffffffff#64), -- 110: mov ebx, 0x00000000ffffffff
  .mulx .rbx .r10 (.reg .rbx), -- 111: mulx rbx, r10, rbx
  .adc (.reg .rax) (.reg .r10), -- 112: adc rax, r10
  .adc (.reg .rbx) (.reg .rdx), -- 113: adc rbx, rdx
  .adc32 .rbp .rbp, -- 114: adc ebp, ebp
  .sub (.reg .r11) (.reg .rax), -- 115: sub r11, rax
  .sbb (.reg .r12) (.reg .rbx), -- 116: sbb r12, rbx
  .sbb (.reg .r13) (.reg .rbp), -- 117: sbb r13, rbp
  .sbb (.reg .r14) (.imm 0#64), -- 118: sbb r14, 0
  .sbb (.reg .r15) (.imm 0#64), -- 119: sbb r15, 0
  .sbb (.reg .rdx) (.imm 0#64), -- 120: sbb rdx, 0
  .add (.reg .r8) (.reg .rdx), -- 121: add r8, rdx
  .adc (.reg .r9) (.imm 0#64), -- 122: adc r9, 0
  .mov (.reg .rdx) (.mem ⟨some .rcx, none, 24#64⟩), -- 123: mov rdx, [rcx+ 24]
  .xor (.reg .r10) (.reg .r10), -- 124: xor r10d, r10d
  .mulx .rbx .rax (.mem ⟨some .rsi, none, 0#64⟩), -- 125: mulx rbx, rax, [rsi]
  .adcx .r11 (.reg .rax), -- 126: adcx r11, rax
  .adox .r12 (.reg .rbx), -- 127: adox r12, rbx
  .mulx .rbx .rax (.mem ⟨some .rsi, none, 8#64⟩), -- 128: mulx rbx, rax, [rsi+8]
  .adcx .r12 (.reg .rax), -- 129: adcx r12, rax
  .adox .r13 (.reg .rbx), -- 130: adox r13, rbx
  .mulx .rbx .rax (.mem ⟨some .rsi, none, 16#64⟩), -- 131: mulx rbx, rax, [rsi+16]
  .adcx .r13 (.reg .rax), -- 132: adcx r13, rax
  .adox .r14 (.reg .rbx), -- 133: adox r14, rbx
  .mulx .rbx .rax (.mem ⟨some .rsi, none, 24#64⟩), -- 134: mulx rbx, rax, [rsi+24]
  .adcx .r14 (.reg .rax), -- 135: adcx r14, rax
  .adox .r15 (.reg .rbx), -- 136: adox r15, rbx
  .mulx .rbx .rax (.mem ⟨some .rsi, none, 32#64⟩), -- 137: mulx rbx, rax, [rsi+32]
  .adcx .r15 (.reg .rax), -- 138: adcx r15, rax
  .adox .r8 (.reg .rbx), -- 139: adox r8, rbx
  .adox .r9 (.reg .r10), -- 140: adox r9, r10
  .mulx .rbx .rax (.mem ⟨some .rsi, none, 40#64⟩), -- 141: mulx rbx, rax, [rsi+ 40]
  .adc (.reg .r8) (.reg .rax), -- 142: adc r8, rax
  .adc (.reg .r9) (.reg .rbx), -- 143: adc r9, rbx
  .adc (.reg .r10) (.reg .r10), -- 144: adc r10, r10
  .mov (.reg .rdx) (.reg .r11), -- 145: mov rdx, r11
  .shl (.reg .rdx) (.imm 32#64), -- 146: shl rdx, 32
  .add (.reg .rdx) (.reg .r11), -- 147: add rdx, r11
  .xor (.reg .rbp) (.reg .rbp), -- 148: xor ebp, ebp
  .mov (.reg .rax) (.imm 0xffffffff00000001#64), -- 149: mov rax, 0xffffffff00000001
  .mulx .rax .rbx (.reg .rax), -- 150: mulx rax, rbx, rax
  .mov (.reg .rbx) (.imm 0xffffffff#64), -- 151: mov ebx, 0x00000000ffffffff
  .mulx .rbx .r11 (.reg .rbx), -- 152: mulx rbx, r11, rbx
  .adc (.reg .rax) (.reg .r11), -- 153: adc rax, r11
  .adc (.reg .rbx) (.reg .rdx), -- 154: adc rbx, rdx
  .adc32 .rbp .rbp, -- 155: adc ebp, ebp
  .sub (.reg .r12) (.reg .rax), -- 156: sub r12, rax
  .sbb (.reg .r13) (.reg .rbx), -- 157: sbb r13, rbx
  .sbb (.reg .r14) (.reg .rbp), -- 158: sbb r14, rbp
  .sbb (.reg .r15) (.imm 0#64), -- 159: sbb r15, 0
  .sbb (.reg .r8) (.imm 0#64), -- 160: sbb r8, 0
  .sbb (.reg .rdx) (.imm 0#64), -- 161: sbb rdx, 0
  .add (.reg .r9) (.reg .rdx), -- 162: add r9, rdx
  .adc (.reg .r10) (.imm 0#64), -- 163: adc r10, 0
  .mov (.reg .rdx) (.mem ⟨some .rcx, none, 32#64⟩), -- 164: mov rdx, [rcx+ 32]
  .xor (.reg .r11) (.reg .r11), -- 165: xor r11d, r11d
  .mulx .rbx .rax (.mem ⟨some .rsi, none, 0#64⟩), -- 166: mulx rbx, rax, [rsi]
  .adcx .r12 (.reg .rax), -- 167: adcx r12, rax
  .adox .r13 (.reg .rbx), -- 168: adox r13, rbx
  .mulx .rbx .rax (.mem ⟨some .rsi, none, 8#64⟩), -- 169: mulx rbx, rax, [rsi+8]
  .adcx .r13 (.reg .rax), -- 170: adcx r13, rax
  .adox .r14 (.reg .rbx), -- 171: adox r14, rbx
  .mulx .rbx .rax (.mem ⟨some .rsi, none, 16#64⟩), -- 172: mulx rbx, rax, [rsi+16]
  .adcx .r14 (.reg .rax), -- 173: adcx r14, rax
  .adox .r15 (.reg .rbx), -- 174: adox r15, rbx
  .mulx .rbx .rax (.mem ⟨some .rsi, none, 24#64⟩), -- 175: mulx rbx, rax, [rsi+24]
  .adcx .r15 (.reg .rax), -- 176: adcx r15, rax
  .adox .r8 (.reg .rbx), -- 177: adox r8, rbx
  .mulx .rbx .rax (.mem ⟨some .rsi, none, 32#64⟩), -- 178: mulx rbx, rax, [rsi+32]
  .adcx .r8 (.reg .rax), -- 179: adcx r8, rax
  .adox .r9 (.reg .rbx), -- 180: adox r9, rbx
  .adox .r10 (.reg .r11), -- 181: adox r10, r11
  .mulx .rbx .rax (.mem ⟨some .rsi, none, 40#64⟩), -- 182: mulx rbx, rax, [rsi+ 40]
  .adc (.reg .r9) (.reg .rax), -- 183: adc r9, rax
  .adc (.reg .r10) (.reg .rbx), -- 184: adc r10, rbx
  .adc (.reg .r11) (.reg .r11), -- 185: adc r11, r11
  .mov (.reg .rdx) (.reg .r12), -- 186: mov rdx, r12
  .shl (.reg .rdx) (.imm 32#64), -- 187: shl rdx, 32
  .add (.reg .rdx) (.reg .r12), -- 188: add rdx, r12
  .xor (.reg .rbp) (.reg .rbp), -- 189: xor ebp, ebp
  .mov (.reg .rax) (.imm 0xffffffff00000001#64), -- 190: mov rax, 0xffffffff00000001
  .mulx .rax .rbx (.reg .rax), -- 191: mulx rax, rbx, rax
  .mov (.reg .rbx) (.imm 0xffffffff#64), -- 192: mov ebx, 0x00000000ffffffff
  .mulx .rbx .r12 (.reg .rbx), -- 193: mulx rbx, r12, rbx
  .adc (.reg .rax) (.reg .r12), -- 194: adc rax, r12
  .adc (.reg .rbx) (.reg .rdx), -- 195: adc rbx, rdx
  .adc32 .rbp .rbp, -- 196: adc ebp, ebp
  .sub (.reg .r13) (.reg .rax), -- 197: sub r13, rax
  .sbb (.reg .r14) (.reg .rbx), -- 198: sbb r14, rbx
  .sbb (.reg .r15) (.reg .rbp), -- 199: sbb r15, rbp
  .sbb (.reg .r8) (.imm 0#64), -- 200: sbb r8, 0
  .sbb (.reg .r9) (.imm 0#64), -- 201: sbb r9, 0
  .sbb (.reg .rdx) (.imm 0#64), -- 202: sbb rdx, 0
  .add (.reg .r10) (.reg .rdx), -- 203: add r10, rdx
  .adc (.reg .r11) (.imm 0#64), -- 204: adc r11, 0
  .mov (.reg .rdx) (.mem ⟨some .rcx, none, 40#64⟩), -- 205: mov rdx, [rcx+ 40]
  .xor (.reg .r12) (.reg .r12), -- 206: xor r12d, r12d
  .mulx .rbx .rax (.mem ⟨some .rsi, none, 0#64⟩), -- 207: mulx rbx, rax, [rsi]
  .adcx .r13 (.reg .rax), -- 208: adcx r13, rax
  .adox .r14 (.reg .rbx), -- 209: adox r14, rbx
  .mulx .rbx .rax (.mem ⟨some .rsi, none, 8#64⟩), -- 210: mulx rbx, rax, [rsi+8]
  .adcx .r14 (.reg .rax), -- 211: adcx r14, rax
  .adox .r15 (.reg .rbx), -- 212: adox r15, rbx
  .mulx .rbx .rax (.mem ⟨some .rsi, none, 16#64⟩), -- 213: mulx rbx, rax, [rsi+16]
  .adcx .r15 (.reg .rax), -- 214: adcx r15, rax
  .adox .r8 (.reg .rbx), -- 215: adox r8, rbx
  .mulx .rbx .rax (.mem ⟨some .rsi, none, 24#64⟩), -- 216: mulx rbx, rax, [rsi+24]
  .adcx .r8 (.reg .rax), -- 217: adcx r8, rax
  .adox .r9 (.reg .rbx), -- 218: adox r9, rbx
  .mulx .rbx .rax (.mem ⟨some .rsi, none, 32#64⟩), -- 219: mulx rbx, rax, [rsi+32]
  .adcx .r9 (.reg .rax), -- 220: adcx r9, rax
  .adox .r10 (.reg .rbx), -- 221: adox r10, rbx
  .adox .r11 (.reg .r12), -- 222: adox r11, r12
  .mulx .rbx .rax (.mem ⟨some .rsi, none, 40#64⟩), -- 223: mulx rbx, rax, [rsi+ 40]
  .adc (.reg .r10) (.reg .rax), -- 224: adc r10, rax
  .adc (.reg .r11) (.reg .rbx), -- 225: adc r11, rbx
  .adc (.reg .r12) (.reg .r12), -- 226: adc r12, r12
  .mov (.reg .rdx) (.reg .r13), -- 227: mov rdx, r13
  .shl (.reg .rdx) (.imm 32#64), -- 228: shl rdx, 32
  .add (.reg .rdx) (.reg .r13), -- 229: add rdx, r13
  .xor (.reg .rbp) (.reg .rbp), -- 230: xor ebp, ebp
  .mov (.reg .rax) (.imm 0xffffffff00000001#64), -- 231: mov rax, 0xffffffff00000001
  .mulx .rax .rbx (.reg .rax), -- 232: mulx rax, rbx, rax
  .mov (.reg .rbx) (.imm 0xffffffff#64), -- 233: mov ebx, 0x00000000ffffffff
  .mulx .rbx .r13 (.reg .rbx), -- 234: mulx rbx, r13, rbx
  .adc (.reg .rax) (.reg .r13), -- 235: adc rax, r13
  .adc (.reg .rbx) (.reg .rdx), -- 236: adc rbx, rdx
  .adc32 .rbp .rbp, -- 237: adc ebp, ebp
  .sub (.reg .r14) (.reg .rax), -- 238: sub r14, rax
  .sbb (.reg .r15) (.reg .rbx), -- 239: sbb r15, rbx
  .sbb (.reg .r8) (.reg .rbp), -- 240: sbb r8, rbp
  .sbb (.reg .r9) (.imm 0#64), -- 241: sbb r9, 0
  .sbb (.reg .r10) (.imm 0#64), -- 242: sbb r10, 0
  .sbb (.reg .rdx) (.imm 0#64), -- 243: sbb rdx, 0
  .add (.reg .r11) (.reg .rdx), -- 244: add r11, rdx
  .adc (.reg .r12) (.imm 0#64), -- 245: adc r12, 0
  .xor (.reg .rdx) (.reg .rdx), -- 246: xor edx, edx
  .xor (.reg .rbp) (.reg .rbp), -- 247: xor ebp, ebp
  .xor (.reg .r13) (.reg .r13), -- 248: xor r13d, r13d
  .mov (.reg .rax) (.imm 0xffffffff00000001#64), -- 249: mov rax, 0xffffffff00000001
  .add (.reg .rax) (.reg .r14), -- 250: add rax, r14
  .mov (.reg .rbx) (.imm 0xffffffff#64), -- 251: mov ebx, 0x00000000ffffffff
  .adc (.reg .rbx) (.reg .r15), -- 252: adc rbx, r15
  .mov (.reg .rcx) (.imm 1#64), -- 253: mov ecx, 0x0000000000000001
  .adc (.reg .rcx) (.reg .r8), -- 254: adc rcx, r8
  .adc (.reg .rdx) (.reg .r9), -- 255: adc rdx, r9
  .adc (.reg .rbp) (.reg .r10), -- 256: adc rbp, r10
  .adc (.reg .r13) (.reg .r11), -- 257: adc r13, r11
  .adc (.reg .r12) (.imm 0#64), -- 258: adc r12, 0
  .cmov .nz .r14 (.reg .rax), -- 259: cmovnz r14, rax
  .cmov .nz .r15 (.reg .rbx), -- 260: cmovnz r15, rbx
  .cmov .nz .r8 (.reg .rcx), -- 261: cmovnz r8, rcx
  .cmov .nz .r9 (.reg .rdx), -- 262: cmovnz r9, rdx
  .cmov .nz .r10 (.reg .rbp), -- 263: cmovnz r10, rbp
  .cmov .nz .r11 (.reg .r13), -- 264: cmovnz r11, r13
  .mov (.mem ⟨some .rdi, none, 0#64⟩) (.reg .r14), -- 265: mov [rdi], r14
  .mov (.mem ⟨some .rdi, none, 8#64⟩) (.reg .r15), -- 266: mov [rdi+ 8], r15
  .mov (.mem ⟨some .rdi, none, 16#64⟩) (.reg .r8), -- 267: mov [rdi+ 16], r8
  .mov (.mem ⟨some .rdi, none, 24#64⟩) (.reg .r9), -- 268: mov [rdi+ 24], r9
  .mov (.mem ⟨some .rdi, none, 32#64⟩) (.reg .r10), -- 269: mov [rdi+ 32], r10
  .mov (.mem ⟨some .rdi, none, 40#64⟩) (.reg .r11), -- 270: mov [rdi+ 40], r11
  .pop .r15, -- 271: pop r15
  .pop .r14, -- 272: pop r14
  .pop .r13, -- 273: pop r13
  .pop .r12, -- 274: pop r12
  .pop .rbp, -- 275: pop rbp
  .pop .rbx] -- 276: pop rbx

/-- The registers that the operands of bignum_montmul_p384.rs:130-327 say may change. -/
def bignumMontmulP384Regs : List Reg := [.rdi, .rsi, .rdx, .r10, .r11, .r12, .r13, .r14, .r15, .r8, .r9, .rax, .rcx]

/-- low/x86_64/bignum_montsqr_p384.rs:129-334.  Operands: inout("rdi") z.as_mut_ptr() => _; inout("rsi") x.as_ptr() => _; out("r10") _; out("r11") _; out("r12") _; out("r13") _; out("r14") _; out("r15") _; out("r8") _; out("r9") _; out("rax") _; out("rcx") _; out("rdx") _. -/
def bignumMontsqrP384 : Prog := [
  .nop, -- 0: endbr64
  .push .rbx, -- 1: push rbx
  .push .rbp, -- 2: push rbp
  .push .r12, -- 3: push r12
  .push .r13, -- 4: push r13
  .push .r14, -- 5: push r14
  .push .r15, -- 6: push r15
  .mov (.reg .rdx) (.mem ⟨some .rsi, none, 0#64⟩), -- 7: mov rdx, [rsi]
  .mulx .r10 .r9 (.mem ⟨some .rsi, none, 8#64⟩), -- 8: mulx r10, r9, [rsi+ 8]
  .mulx .r12 .r11 (.mem ⟨some .rsi, none, 24#64⟩), -- 9: mulx r12, r11, [rsi+ 24]
  .mulx .r14 .r13 (.mem ⟨some .rsi, none, 40#64⟩), -- 10: mulx r14, r13, [rsi+ 40]
  .mov (.reg .rdx) (.mem ⟨some .rsi, none, 24#64⟩), -- 11: mov rdx, [rsi+ 24]
  .mulx .rcx .r15 (.mem ⟨some .rsi, none, 32#64⟩), -- 12: mulx rcx, r15, [rsi+ 32]
  .xor (.reg .rbp) (.reg .rbp), -- 13: xor ebp, ebp
  .mov (.reg .rdx) (.mem ⟨some .rsi, none, 16#64⟩), -- 14: mov rdx, [rsi+ 16]
  .mulx .rbx .rax (.mem ⟨some .rsi, none, 0#64⟩), -- 15: mulx rbx, rax, [rsi]
  .adcx .r10 (.reg .rax), -- 16: adcx r10, rax
  .adox .r11 (.reg .rbx), -- 17: adox r11, rbx
  .mulx .rbx .rax (.mem ⟨some .rsi, none, 8#64⟩), -- 18: mulx rbx, rax, [rsi+8]
  .adcx .r11 (.reg .rax), -- 19: adcx r11, rax
  .adox .r12 (.reg .rbx), -- 20: adox r12, rbx
  .mov (.reg .rdx) (.mem ⟨some .rsi, none, 8#64⟩), -- 21: mov rdx, [rsi+ 8]
  .mulx .rbx .rax (.mem ⟨some .rsi, none, 24#64⟩), -- 22: mulx rbx, rax, [rsi+24]
  .adcx .r12 (.reg .rax), -- 23: adcx r12, rax
  .adox .r13 (.reg .rbx), -- 24: adox r13, rbx
  .mulx .rbx .rax (.mem ⟨some .rsi, none, 32#64⟩), -- 25: mulx rbx, rax, [rsi+32]
  .adcx .r13 (.reg .rax), -- 26: adcx r13, rax
  .adox .r14 (.reg .rbx), -- 27: adox r14, rbx
  .mulx .rbx .rax (.mem ⟨some .rsi, none, 40#64⟩), -- 28: mulx rbx, rax, [rsi+40]
  .adcx .r14 (.reg .rax), -- 29: adcx r14, rax
  .adox .r15 (.reg .rbx), -- 30: adox r15, rbx
  .adcx .r15 (.reg .rbp), -- 31: adcx r15, rbp
  .adox .rcx (.reg .rbp), -- 32: adox rcx, rbp
  .adc (.reg .rcx) (.reg .rbp), -- 33: adc rcx, rbp
  .xor (.reg .rbp) (.reg .rbp), -- 34: xor ebp, ebp
  .mov (.reg .rdx) (.mem ⟨some .rsi, none, 32#64⟩), -- 35: mov rdx, [rsi+ 32]
  .mulx .rbx .rax (.mem ⟨some .rsi, none, 0#64⟩), -- 36: mulx rbx, rax, [rsi]
  .adcx .r12 (.reg .rax), -- 37: adcx r12, rax
  .adox .r13 (.reg .rbx), -- 38: adox r13, rbx
  .mov (.reg .rdx) (.mem ⟨some .rsi, none, 16#64⟩), -- 39: mov rdx, [rsi+ 16]
  .mulx .rbx .rax (.mem ⟨some .rsi, none, 24#64⟩), -- 40: mulx rbx, rax, [rsi+24]
  .adcx .r13 (.reg .rax), -- 41: adcx r13, rax
  .adox .r14 (.reg .rbx), -- 42: adox r14, rbx
  .mulx .rbx .rax (.mem ⟨some .rsi, none, 32#64⟩), -- 43: mulx rbx, rax, [rsi+32]
  .adcx .r14 (.reg .rax), -- 44: adcx r14, rax
  .adox .r15 (.reg .rbx), -- 45: adox r15, rbx
  .mulx .rdx .rax (.mem ⟨some .rsi, none, 40#64⟩), -- 46: mulx rdx, rax, [rsi+ 40]
  .adcx .r15 (.reg .rax), -- 47: adcx r15, rax
  .adox .rcx (.reg .rdx), -- 48: adox rcx, rdx
  .mov (.reg .rdx) (.mem ⟨some .rsi, none, 40#64⟩), -- 49: mov rdx, [rsi+ 40]
  .mulx .rbp .rbx (.mem ⟨some .rsi, none, 32#64⟩), -- 50: mulx rbp, rbx, [rsi+ 32]
  .mulx .rdx .rax (.mem ⟨some .rsi, none, 24#64⟩), -- 51: mulx rdx, rax, [rsi+ 24]
  .adcx .rcx (.reg .rax), -- 52: adcx rcx, rax
  .adox .rbx (.reg .rdx), -- 53: adox rbx, rdx
  .mov (.reg .rax) (.imm 0#64), -- 54: mov eax, 0
  .adcx .rbx (.reg .rax), -- 55: adcx rbx, rax
  .adox .rbp (.reg .rax), -- 56: adox rbp, rax
  .adc (.reg .rbp) (.reg .rax), -- 57: adc rbp, rax
  .xor (.reg .rax) (.reg .rax), -- 58: xor rax, rax
  .mov (.reg .rdx) (.mem ⟨some .rsi, none, 0#64⟩), -- 59: mov rdx, [rsi]
  .mulx .rax .r8 (.mem ⟨some .rsi, none, 0#64⟩), -- 60: mulx rax, r8, [rsi]
  .adcx .r9 (.reg .r9), -- 61: adcx r9, r9
  .adox .r9 (.reg .rax), -- 62: adox r9, rax
  .mov (.reg .rdx) (.mem ⟨some .rsi, none, 8#64⟩), -- 63: mov rdx, [rsi+ 8]
  .mulx .rdx .rax (.reg .rdx), -- 64: mulx rdx, rax, rdx
  .adcx .r10 (.reg .r10), -- 65: adcx r10, r10
  .adox .r10 (.reg .rax), -- 66: adox r10, rax
  .adcx .r11 (.reg .r11), -- 67: adcx r11, r11
  .adox .r11 (.reg .rdx), -- 68: adox r11, rdx
  .mov (.reg .rdx) (.mem ⟨some .rsi, none, 16#64⟩), -- 69: mov rdx, [rsi+ 16]
  .mulx .rdx .rax (.reg .rdx), -- 70: mulx rdx, rax, rdx
  .adcx .r12 (.reg .r12), -- 71: adcx r12, r12
  .adox .r12 (.reg .rax), -- 72: adox r12, rax
  .adcx .r13 (.reg .r13), -- 73: adcx r13, r13
  .adox .r13 (.reg .rdx), -- 74: adox r13, rdx
  .mov (.reg .rdx) (.mem ⟨some .rsi, none, 24#64⟩), -- 75: mov rdx, [rsi+ 24]
  .mulx .rdx .rax (.reg .rdx), -- 76: mulx rdx, rax, rdx
  .adcx .r14 (.reg .r14), -- 77: adcx r14, r14
  .adox .r14 (.reg .rax), -- 78: adox r14, rax
  .adcx .r15 (.reg .r15), -- 79: adcx r15, r15
  .adox .r15 (.reg .rdx), -- 80: adox r15, rdx
  .mov (.reg .rdx) (.mem ⟨some .rsi, none, 32#64⟩), -- 81: mov rdx, [rsi+ 32]
  .mulx .rdx .rax (.reg .rdx), -- 82: mulx rdx, rax, rdx
  .adcx .rcx (.reg .rcx), -- 83: adcx rcx, rcx
  .adox .rcx (.reg .rax), -- 84: adox rcx, rax
  .adcx .rbx (.reg .rbx), -- 85: adcx rbx, rbx
  .adox .rbx (.reg .rdx), -- 86: adox rbx, rdx
  .mov (.reg .rdx) (.mem ⟨some .rsi, none, 40#64⟩), -- 87: mov rdx, [rsi+ 40]
  .mulx .rsi .rax (.reg .rdx), -- 88: mulx rsi, rax, rdx
  .adcx .rbp (.reg .rbp), -- 89: adcx rbp, rbp
  .adox .rbp (.reg .rax), -- 90: adox rbp, rax
  .mov (.reg .rax) (.imm 0#64), -- 91: mov eax, 0
  .adcx .rsi (.reg .rax), -- 92: adcx rsi, rax
  .adox .rsi (.reg .rax), -- 93: adox rsi, rax
  .mov (.mem ⟨some .rdi, none, 0#64⟩) (.reg .rbx), -- 94: mov [rdi], rbx
  .mov (.reg .rdx) (.reg .r8), -- 95: mov rdx, r8
  .shl (.reg .rdx) (.imm 32#64), -- 96: shl rdx, 32
  .add (.reg .rdx) (.reg .r8), -- 97: add rdx, r8
  .mov (.reg .rax) (.imm 0xffffffff00000001#64), -- 98: mov rax, 0xffffffff00000001
  .mulx .rax .r8 (.reg .rax), -- 99: mulx rax, r8, rax
  .mov (.reg .rbx) (.imm 0xffffffff#64), -- 100: mov ebx, 0x00000000ffffffff
  .mulx .r8 .rbx (.reg .rbx), -- 101: mulx r8, rbx, rbx
  .add (.reg .rax) (.reg .rbx), -- 102: add rax, rbx
  .adc (.reg .r8) (.reg .rdx), -- 103: adc r8, rdx
  .mov (.reg .rbx) (.imm 0#64), -- 104: mov ebx, 0
  .adc (.reg .rbx) (.reg .rbx), -- 105: adc rbx, rbx
  .sub (.reg .r9) (.reg .rax), -- 106: sub r9, rax
  .sbb (.reg .r10) (.reg .r8), -- 107: sbb r10, r8
  .sbb (.reg .r11) (.reg .rbx), -- 108: sbb r11, rbx
  .sbb (.reg .r12) (.imm 0#64), -- 109: sbb r12, 0
  .sbb (.reg .r13) (.imm 0#64), -- 110: sbb r13, 0
  .mov (.reg .r8) (.reg .rdx), -- 111: mov r8, rdx
  .sbb (.reg .r8) (.imm 0#64), -- 112: sbb r8, 0
  .mov (.reg .rdx) (.reg .r9), -- 113: mov rdx, r9
  .shl (.reg .rdx) (.imm 32#64), -- 114: shl rdx, 32
  .add (.reg .rdx) (.reg .r9), -- 115: add rdx, r9
  .mov (.reg .rax) (.imm 0xffffffff00000001#64), -- 116: mov rax, 0xffffffff00000001
  .mulx .rax .r9 (.reg .rax), -- 117: mulx rax, r9, rax
  .mov (.reg .rbx) (.imm 0xffffffff#64), -- 118: mov ebx, 0x00000000ffffffff
  .mulx .r9 .rbx (.reg .rbx), -- 119: mulx r9, rbx, rbx
  .add (.reg .rax) (.reg .rbx), -- 120: add rax, rbx
  .adc (.reg .r9) (.reg .rdx), -- 121: adc r9, rdx
  .mov (.reg .rbx) (.imm 0#64), -- 122: mov ebx, 0
  .adc (.reg .rbx) (.reg .rbx), -- 123: adc rbx, rbx
  .sub (.reg .r10) (.reg .rax), -- 124: sub r10, rax
  .sbb (.reg .r11) (.reg .r9), -- 125: sbb r11, r9
  .sbb (.reg .r12) (.reg .rbx), -- 126: sbb r12, rbx
  .sbb (.reg .r13) (.imm 0#64), -- 127: sbb r13, 0
  .sbb (.reg .r8) (.imm 0#64), -- 128: sbb r8, 0
  .mov (.reg .r9) (.reg .rdx), -- 129: mov r9, rdx
  .sbb (.reg .r9) (.imm 0#64), -- 130: sbb r9, 0
  .mov (.reg .rdx) (.reg .r10), -- 131: mov rdx, r10
  .shl (.reg .rdx) (.imm 32#64), -- 132: shl rdx, 32
  .add (.reg .rdx) (.reg .r10), -- 133: add rdx, r10
  .mov (.reg .rax) (.imm 0xffffffff00000001#64), -- 134: mov rax, 0xffffffff00000001
  .mulx .rax .r10 (.reg .rax), -- 135: mulx rax, r10, rax
  .mov (.reg .rbx) (.imm 0xffffffff#64), -- 136: mov ebx, 0x00000000ffffffff
  .mulx .r10 .rbx (.reg .rbx), -- 137: mulx r10, rbx, rbx
  .add (.reg .rax) (.reg .rbx), -- 138: add rax, rbx
  .adc (.reg .r10) (.reg .rdx), -- 139: adc r10, rdx
  .mov (.reg .rbx) (.imm 0#64), -- 140: mov ebx, 0
  .adc (.reg .rbx) (.reg .rbx), -- 141: adc rbx, rbx
  .sub (.reg .r11) (.reg .rax), -- 142: sub r11, rax
  .sbb (.reg .r12) (.reg .r10), -- 143: sbb r12, r10
  .sbb (.reg .r13) (.reg .rbx), -- 144: sbb r13, rbx
  .sbb (.reg .r8) (.imm 0#64), -- 145: sbb r8, 0
  .sbb (.reg .r9) (.imm 0#64), -- 146: sbb r9, 0
  .mov (.reg .r10) (.reg .rdx), -- 147: mov r10, rdx
  .sbb (.reg .r10) (.imm 0#64), -- 148: sbb r10, 0
  .mov (.reg .rdx) (.reg .r11), -- 149: mov rdx, r11
  .shl (.reg .rdx) (.imm 32#64), -- 150: shl rdx, 32
  .add (.reg .rdx) (.reg .r11), -- 151: add rdx, r11
  .mov (.reg .rax) (.imm 0xffffffff00000001#64), -- 152: mov rax, 0xffffffff00000001
  .mulx .rax .r11 (.reg .rax), -- 153: mulx rax, r11, rax
  .mov (.reg .rbx) (.imm 0xffffffff#64), -- 154: mov ebx, 0x00000000ffffffff
  .mulx .r11 .rbx (.reg .rbx), -- 155: mulx r11, rbx, rbx
  .add (.reg .rax) (.reg .rbx), -- 156: add rax, rbx
  .adc (.reg .r11) (.reg .rdx), -- 157: adc r11, rdx
  .mov (.reg .rbx) (.imm 0#64), -- 158: mov ebx, 0
  .adc (.reg .rbx) (.reg .rbx), -- 159: adc rbx, rbx
  .sub (.reg .r12) (.reg .rax), -- 160: sub r12, rax
  .sbb (.reg .r13) (.reg .r11), -- 161: sbb r13, r11
  .sbb (.reg .r8) (.reg .rbx), -- 162: sbb r8, rbx
  .sbb (.reg .r9) (.imm 0#64), -- 163: sbb r9, 0
  .sbb (.reg .r10) (.imm 0#64), -- 164: sbb r10, 0
  .mov (.reg .r11) (.reg .rdx), -- 165: mov r11, rdx
  .sbb (.reg .r11) (.imm 0#64), -- 166: sbb r11, 0
  .mov (.reg .rdx) (.reg .r12), -- 167: mov rdx, r12
  .shl (.reg .rdx) (.imm 32#64), -- 168: shl rdx, 32
  .add (.reg .rdx) (.reg .r12), -- 169: add rdx, r12
  .mov (.reg .rax) (.imm 0xffffffff00000001#64), -- 170: mov rax, 0xffffffff00000001
  .mulx .rax .r12 (.reg .rax), -- 171: mulx rax, r12, rax
  .mov (.reg .rbx) (.imm 0xffffffff#64), -- 172: mov ebx, 0x00000000ffffffff
  .mulx .r12 .rbx (.reg .rbx), -- 173: mulx r12, rbx, rbx
  .add (.reg .rax) (.reg .rbx), -- 174: add rax, rbx
  .adc (.reg .r12) (.reg .rdx), -- 175: adc r12, rdx
  .mov (.reg .rbx) (.imm 0#64), -- 176: mov ebx, 0
  .adc (.reg .rbx) (.reg .rbx), -- 177: adc rbx, rbx
  .sub (.reg .r13) (.reg .rax), -- 178: sub r13, rax
  .sbb (.reg .r8) (.reg .r12), -- 179: sbb r8, r12
  .sbb (.reg .r9) (.reg .rbx), -- 180: sbb r9, rbx
  .sbb (.reg .r10) (.imm 0#64), -- 181: sbb r10, 0
  .sbb (.reg .r11) (.imm 0#64), -- 182: sbb r11, 0
  .mov (.reg .r12) (.reg .rdx), -- 183: mov r12, rdx
  .sbb (.reg .r12) (.imm 0#64), -- 184: sbb r12, 0
  .mov (.reg .rdx) (.reg .r13), -- 185: mov rdx, r13
  .shl (.reg .rdx) (.imm 32#64), -- 186: shl rdx, 32
  .add (.reg .rdx) (.reg .r13), -- 187: add rdx, r13
  .mov (.reg .rax) (.imm 0xffffffff00000001#64), -- 188: mov rax, 0xffffffff00000001
  .mulx .rax .r13 (.reg .rax), -- 189: mulx rax, r13, rax
  .mov (.reg .rbx) (.imm 0xffffffff#64), -- 190: mov ebx, 0x00000000ffffffff
  .mulx .r13 .rbx (.reg .rbx), -- 191: mulx r13, rbx, rbx
  .add (.reg .rax) (.reg .rbx), -- 192: add rax, rbx
  .adc (.reg .r13) (.reg .rdx), -- 193: adc r13, rdx
  .mov (.reg .rbx) (.imm 0#64), -- 194: mov ebx, 0
  .adc (.reg .rbx) (.reg .rbx), -- 195: adc rbx, rbx
  .sub (.reg .r8) (.reg .rax), -- 196: sub r8, rax
  .sbb (.reg .r9) (.reg .r13), -- 197: sbb r9, r13
  .sbb (.reg .r10) (.reg .rbx), -- 198: sbb r10, rbx
  .sbb (.reg .r11) (.imm 0#64), -- 199: sbb r11, 0
  .sbb (.reg .r12) (.imm 0#64), -- 200: sbb r12, 0
  .mov (.reg .r13) (.reg .rdx), -- 201: mov r13, rdx
  .sbb (.reg .r13) (.imm 0#64), -- 202: sbb r13, 0
  .mov (.reg .rbx) (.mem ⟨some .rdi, none, 0#64⟩), -- 203: mov rbx, [rdi]
  .add (.reg .r14) (.reg .r8), -- 204: add r14, r8
  .adc (.reg .r15) (.reg .r9), -- 205: adc r15, r9
  .adc (.reg .rcx) (.reg .r10), -- 206: adc rcx, r10
  .adc (.reg .rbx) (.reg .r11), -- 207: adc rbx, r11
  .adc (.reg .rbp) (.reg .r12), -- 208: adc rbp, r12
  .adc (.reg .rsi) (.reg .r13), -- 209: adc rsi, r13
  .mov (.reg .r8) (.imm 0#64), -- 210: mov r8d, 0
  .adc (.reg .r8) (.reg .r8), -- 211: adc r8, r8
  .xor (.reg .r11) (.reg .r11), -- 212: xor r11, r11
  .xor (.reg .r12) (.reg .r12), -- 213: xor r12, r12
  .xor (.reg .r13) (.reg .r13), -- 214: xor r13, r13
  .mov (.reg .rax) (.imm 0xffffffff00000001#64), -- 215: mov rax, 0xffffffff00000001
  .add (.reg .rax) (.reg .r14), -- 216: add rax, r14
  .mov (.reg .r9) (.imm 0xffffffff#64), -- 217: mov r9d, 0x00000000ffffffff
  .adc (.reg .r9) (.reg .r15), -- 218: adc r9, r15
  .mov (.reg .r10) (.imm 1#64), -- 219: mov r10d, 0x0000000000000001
  .adc (.reg .r10) (.reg .rcx), -- 220: adc r10, rcx
  .adc (.reg .r11) (.reg .rbx), -- 221: adc r11, rbx
  .adc (.reg .r12) (.reg .rbp), -- 222: adc r12, rbp
  .adc (.reg .r13) (.reg .rsi), -- 223: adc r13, rsi
  .adc (.reg .r8) (.imm 0#64), -- 224: adc r8, 0
  .cmov .nz .r14 (.reg .rax), -- 225: cmovnz r14, rax
  .cmov .nz .r15 (.reg .r9), -- 226: cmovnz r15, r9
  .cmov .nz .rcx (.reg .r10), -- 227: cmovnz rcx, r10
  .cmov .nz .rbx (.reg .r11), -- 228: cmovnz rbx, r11
  .cmov .nz .rbp (.reg .r12), -- 229: cmovnz rbp, r12
  .cmov .nz .rsi (.reg .r13), -- 230: cmovnz rsi, r13
  .mov (.mem ⟨some .rdi, none, 0#64⟩) (.reg .r14), -- 231: mov [rdi], r14
  .mov (.mem ⟨some .rdi, none, 8#64⟩) (.reg .r15), -- 232: mov [rdi+ 8], r15
  .mov (.mem ⟨some .rdi, none, 16#64⟩) (.reg .rcx), -- 233: mov [rdi+ 16], rcx
  .mov (.mem ⟨some .rdi, none, 24#64⟩) (.reg .rbx), -- 234: mov [rdi+ 24], rbx
  .mov (.mem ⟨some .rdi, none, 32#64⟩) (.reg .rbp), -- 235: mov [rdi+ 32], rbp
  .mov (.mem ⟨some .rdi, none, 40#64⟩) (.reg .rsi), -- 236: mov [rdi+ 40], rsi
  .pop .r15, -- 237: pop r15
  .pop .r14, -- 238: pop r14
  .pop .r13, -- 239: pop r13
  .pop .r12, -- 240: pop r12
  .pop .rbp, -- 241: pop rbp
  .pop .rbx] -- 242: pop rbx

/-- The registers that the operands of bignum_montsqr_p384.rs:129-334 say may change. -/
def bignumMontsqrP384Regs : List Reg := [.rdi, .rsi, .r10, .r11, .r12, .r13, .r14, .r15, .r8, .r9, .rax, .rcx, .rdx]

/-- low/x86_64/bignum_inv_p384.rs:1075-1843.  Operands: inout("rdi") z.as_mut_ptr() => _; inout("rsi") x.as_ptr() => _; out("r10") _; out("r11") _; out("r12") _; out("r13") _; out("r14") _; out("r15") _; out("r8") _; out("r9") _; out("rax") _; out("rcx") _; out("rdx") _. -/
def bignumInvP384 : Prog := [
  .nop, -- 0: endbr64
  .push .rbx, -- 1: push rbx
  .push .rbp, -- 2: push rbp
  .push .r12, -- 3: push r12
  .push .r13, -- 4: push r13
  .push .r14, -- 5: push r14
  .push .r15, -- 6: push r15
  .sub (.reg .rsp) (.imm 336#64), -- 7: sub rsp, 42 * 8
  .mov (.mem ⟨some .rsp, none, 320#64⟩) (.reg .rdi), -- 8: mov QWORD PTR [rsp + (40 * 8)], rdi
  .mov (.reg .rax) (.imm 0xffffffff#64), -- 9: mov eax, 0xffffffff
  .mov (.mem ⟨some .rsp, none, 0#64⟩) (.reg .rax), -- 10: mov [rsp + 0], rax
  .mov (.reg .rbx) (.reg .rax), -- 11: mov rbx, rax
  .not (.reg .rbx), -- 12: not rbx
  .mov (.mem ⟨some .rsp, none, 8#64⟩) (.reg .rbx), -- 13: mov [rsp + 0+ 8], rbx
  .xor (.reg .rbp) (.reg .rbp), -- 14: xor ebp, ebp
  .lea .rcx ⟨some .rbp, none, 0xfffffffffffffffe#64⟩, -- 15: lea rcx, [rbp -2]
  .mov (.mem ⟨some .rsp, none, 16#64⟩) (.reg .rcx), -- 16: mov [rsp + 0+ 2 * 8], rcx
  .lea .rdx ⟨some .rbp, none, 0xffffffffffffffff#64⟩, -- 17: lea rdx, [rbp -1]
  .mov (.mem ⟨some .rsp, none, 24#64⟩) (.reg .rdx), -- 18: mov [rsp + 0+ 3 * 8], rdx
  .mov (.mem ⟨some .rsp, none, 32#64⟩) (.reg .rdx), -- 19: mov [rsp + 0+ 4 * 8], rdx
  .mov (.mem ⟨some .rsp, none, 40#64⟩) (.reg .rdx), -- 20: mov [rsp + 0+ 5 * 8], rdx
  .mov (.mem ⟨some .rsp, none, 48#64⟩) (.reg .rbp), -- 21: mov [rsp + 0+ 6 * 8], rbp
  .mov (.reg .r8) (.mem ⟨some .rsi, none, 0#64⟩), -- 22: mov r8, [rsi]
  .sub (.reg .r8) (.reg .rax), -- 23: sub r8, rax
  .mov (.reg .r9) (.mem ⟨some .rsi, none, 8#64⟩), -- 24: mov r9, [rsi + 8]
  .sbb (.reg .r9) (.reg .rbx), -- 25: sbb r9, rbx
  .mov (.reg .r10) (.mem ⟨some .rsi, none, 16#64⟩), -- 26: mov r10, [rsi + 2 * 8]
  .sbb (.reg .r10) (.reg .rcx), -- 27: sbb r10, rcx
  .mov (.reg .r11) (.mem ⟨some .rsi, none, 24#64⟩), -- 28: mov r11, [rsi + 3 * 8]
  .sbb (.reg .r11) (.reg .rdx), -- 29: sbb r11, rdx
  .mov (.reg .r12) (.mem ⟨some .rsi, none, 32#64⟩), -- 30: mov r12, [rsi + 4 * 8]
  .sbb (.reg .r12) (.reg .rdx), -- 31: sbb r12, rdx
  .mov (.reg .r13) (.mem ⟨some .rsi, none, 40#64⟩), -- 32: mov r13, [rsi + 5 * 8]
  .sbb (.reg .r13) (.reg .rdx), -- 33: sbb r13, rdx
  .cmov .cy .r8 (.mem ⟨some .rsi, none, 0#64⟩), -- 34: cmovc r8, [rsi]
  .cmov .cy .r9 (.mem ⟨some .rsi, none, 8#64⟩), -- 35: cmovc r9, [rsi + 8]
  .cmov .cy .r10 (.mem ⟨some .rsi, none, 16#64⟩), -- 36: cmovc r10, [rsi + 2 * 8]
  .cmov .cy .r11 (.mem ⟨some .rsi, none, 24#64⟩), -- 37: cmovc r11, [rsi + 3 * 8]
  .cmov .cy .r12 (.mem ⟨some .rsi, none, 32#64⟩), -- 38: cmovc r12, [rsi + 4 * 8]
  .cmov .cy .r13 (.mem ⟨some .rsi, none, 40#64⟩), -- 39: cmovc r13, [rsi + 5 * 8]
  .mov (.mem ⟨some .rsp, none, 64#64⟩) (.reg .r8), -- 40: mov [rsp + (8 * 8)], r8
  .mov (.mem ⟨some .rsp, none, 72#64⟩) (.reg .r9), -- 41: mov [rsp + (8 * 8)+ 8], r9
  .mov (.mem ⟨some .rsp, none, 80#64⟩) (.reg .r10), -- 42: mov [rsp + (8 * 8)+ 2 * 8], r10
  .mov (.mem ⟨some .rsp, none, 88#64⟩) (.reg .r11), -- 43: mov [rsp + (8 * 8)+ 3 * 8], r11
  .mov (.mem ⟨some .rsp, none, 96#64⟩) (.reg .r12), -- 44: mov [rsp + (8 * 8)+ 4 * 8], r12
  .mov (.mem ⟨some .rsp, none, 104#64⟩) (.reg .r13), -- 45: mov [rsp + (8 * 8)+ 5 * 8], r13
  .mov (.mem ⟨some .rsp, none, 112#64⟩) (.reg .rbp), -- 46: mov [rsp + (8 * 8)+ 6 * 8], rbp
  .xor (.reg .rax) (.reg .rax), -- 47: xor eax, eax
  .mov (.mem ⟨some .rsp, none, 128#64⟩) (.reg .rax), -- 48: mov [rsp + (16 * 8)], rax
  .mov (.mem ⟨some .rsp, none, 136#64⟩) (.reg .rax), -- 49: mov [rsp + (16 * 8)+ 8], rax
  .mov (.mem ⟨some .rsp, none, 144#64⟩) (.reg .rax), -- 50: mov [rsp + (16 * 8)+ 2 * 8], rax
  .mov (.mem ⟨some .rsp, none, 152#64⟩) (.reg .rax), -- 51: mov [rsp + (16 * 8)+ 3 * 8], rax
  .mov (.mem ⟨some .rsp, none, 160#64⟩) (.reg .rax), -- 52: mov [rsp + (16 * 8)+ 4 * 8], rax
  .mov (.mem ⟨some .rsp, none, 168#64⟩) (.reg .rax), -- 53: mov [rsp + (16 * 8)+ 5 * 8], rax
  .mov (.reg .rcx) (.imm 2048#64), -- 54: mov ecx, 2048
  .mov (.mem ⟨some .rsp, none, 192#64⟩) (.reg .rax), -- 55: mov [rsp + (24 * 8)], rax
  .mov (.mem ⟨some .rsp, none, 200#64⟩) (.reg .rcx), -- 56: mov [rsp + (24 * 8)+ 8], rcx
  .mov (.mem ⟨some .rsp, none, 208#64⟩) (.reg .rax), -- 57: mov [rsp + (24 * 8)+ 2 * 8], rax
  .mov (.mem ⟨some .rsp, none, 216#64⟩) (.reg .rax), -- 58: mov [rsp + (24 * 8)+ 3 * 8], rax
  .mov (.mem ⟨some .rsp, none, 224#64⟩) (.reg .rax), -- 59: mov [rsp + (24 * 8)+ 4 * 8], rax
  .mov (.mem ⟨some .rsp, none, 232#64⟩) (.reg .rax), -- 60: mov [rsp + (24 * 8)+ 5 * 8], rax
  .mov (.mem ⟨some .rsp, none, 272#64⟩) (.imm 15#64), -- 61: mov QWORD PTR [rsp + (34 * 8)], 15
  .mov (.mem ⟨some .rsp, none, 280#64⟩) (.imm 1#64), -- 62: mov QWORD PTR [rsp + (35 * 8)], 1
  .jmp 536, -- 63: jmp @2f
  .mov (.reg .r9) (.reg .r8), -- 64: mov r9, r8
  .sar (.reg .r9) (.imm 63#64), -- 65: sar r9, 63
  .xor (.reg .r8) (.reg .r9), -- 66: xor r8, r9
  .sub (.reg .r8) (.reg .r9), -- 67: sub r8, r9
  .mov (.reg .r11) (.reg .r10), -- 68: mov r11, r10
  .sar (.reg .r11) (.imm 63#64), -- 69: sar r11, 63
  .xor (.reg .r10) (.reg .r11), -- 70: xor r10, r11
  .sub (.reg .r10) (.reg .r11), -- 71: sub r10, r11
  .mov (.reg .r13) (.reg .r12), -- 72: mov r13, r12
  .sar (.reg .r13) (.imm 63#64), -- 73: sar r13, 63
  .xor (.reg .r12) (.reg .r13), -- 74: xor r12, r13
  .sub (.reg .r12) (.reg .r13), -- 75: sub r12, r13
  .mov (.reg .r15) (.reg .r14), -- 76: mov r15, r14
  .sar (.reg .r15) (.imm 63#64), -- 77: sar r15, 63
  .xor (.reg .r14) (.reg .r15), -- 78: xor r14, r15
  .sub (.reg .r14) (.reg .r15), -- 79: sub r14, r15
  .mov (.reg .rax) (.reg .r8), -- 80: mov rax, r8
  .and (.reg .rax) (.reg .r9), -- 81: and rax, r9
  .mov (.reg .rdi) (.reg .r10), -- 82: mov rdi, r10
  .and (.reg .rdi) (.reg .r11), -- 83: and rdi, r11
  .add (.reg .rdi) (.reg .rax), -- 84: add rdi, rax
  .mov (.mem ⟨some .rsp, none, 256#64⟩) (.reg .rdi), -- 85: mov QWORD PTR [rsp + (32 * 8)], rdi
  .mov (.reg .rax) (.reg .r12), -- 86: mov rax, r12
  .and (.reg .rax) (.reg .r13), -- 87: and rax, r13
  .mov (.reg .rsi) (.reg .r14), -- 88: mov rsi, r14
  .and (.reg .rsi) (.reg .r15), -- 89: and rsi, r15
  .add (.reg .rsi) (.reg .rax), -- 90: add rsi, rax
  .mov (.mem ⟨some .rsp, none, 264#64⟩) (.reg .rsi), -- 91: mov QWORD PTR [rsp + (33 * 8)], rsi
  .xor (.reg .rbx) (.reg .rbx), -- 92: xor ebx, ebx
  .mov (.reg .rax) (.mem ⟨some .rsp, none, 0#64⟩), -- 93: mov rax, [rsp + 0]
  .xor (.reg .rax) (.reg .r9), -- 94: xor rax, r9
  .mul (.reg .r8), -- 95: mul r8
  .add (.reg .rdi) (.reg .rax), -- 96: add rdi, rax
  .adc (.reg .rbx) (.reg .rdx), -- 97: adc rbx, rdx
  .mov (.reg .rax) (.mem ⟨some .rsp, none, 64#64⟩), -- 98: mov rax, [rsp + (8 * 8)]
  .xor (.reg .rax) (.reg .r11), -- 99: xor rax, r11
  .mul (.reg .r10), -- 100: mul r10
  .add (.reg .rdi) (.reg .rax), -- 101: add rdi, rax
  .adc (.reg .rbx) (.reg .rdx), -- 102: adc rbx, rdx
  .xor (.reg .rbp) (.reg .rbp), -- 103: xor ebp, ebp
  .mov (.reg .rax) (.mem ⟨some .rsp, none, 0#64⟩), -- 104: mov rax, [rsp + 0]
  .xor (.reg .rax) (.reg .r13), -- 105: xor rax, r13
  .mul (.reg .r12), -- 106: mul r12
  .add (.reg .rsi) (.reg .rax), -- 107: add rsi, rax
  .adc (.reg .rbp) (.reg .rdx), -- 108: adc rbp, rdx
  .mov (.reg .rax) (.mem ⟨some .rsp, none, 64#64⟩), -- 109: mov rax, [rsp + (8 * 8)]
  .xor (.reg .rax) (.reg .r15), -- 110: xor rax, r15
  .mul (.reg .r14), -- 111: mul r14
  .add (.reg .rsi) (.reg .rax), -- 112: add rsi, rax
  .adc (.reg .rbp) (.reg .rdx), -- 113: adc rbp, rdx
  .xor (.reg .rcx) (.reg .rcx), -- 114: xor ecx, ecx
  .mov (.reg .rax) (.mem ⟨some .rsp, none, 8#64⟩), -- 115: mov rax, [rsp + 0+ 8]
  .xor (.reg .rax) (.reg .r9), -- 116: xor rax, r9
  .mul (.reg .r8), -- 117: mul r8
  .add (.reg .rbx) (.reg .rax), -- 118: add rbx, rax
  .adc (.reg .rcx) (.reg .rdx), -- 119: adc rcx, rdx
  .mov (.reg .rax) (.mem ⟨some .rsp, none, 72#64⟩), -- 120: mov rax, [rsp + (8 * 8)+ 8]
  .xor (.reg .rax) (.reg .r11), -- 121: xor rax, r11
  .mul (.reg .r10), -- 122: mul r10
  .add (.reg .rbx) (.reg .rax), -- 123: add rbx, rax
  .adc (.reg .rcx) (.reg .rdx), -- 124: adc rcx, rdx
  .shrd (.reg .rdi) .rbx (.imm 59#64), -- 125: shrd rdi, rbx, 59
  .mov (.mem ⟨some .rsp, none, 0#64⟩) (.reg .rdi), -- 126: mov [rsp + 0], rdi
  .xor (.reg .rdi) (.reg .rdi), -- 127: xor edi, edi
  .mov (.reg .rax) (.mem ⟨some .rsp, none, 8#64⟩), -- 128: mov rax, [rsp + 0+ 8]
  .xor (.reg .rax) (.reg .r13), -- 129: xor rax, r13
  .mul (.reg .r12), -- 130: mul r12
  .add (.reg .rbp) (.reg .rax), -- 131: add rbp, rax
  .adc (.reg .rdi) (.reg .rdx), -- 132: adc rdi, rdx
  .mov (.reg .rax) (.mem ⟨some .rsp, none, 72#64⟩), -- 133: mov rax, [rsp + (8 * 8)+ 8]
  .xor (.reg .rax) (.reg .r15), -- 134: xor rax, r15
  .mul (.reg .r14), -- 135: mul r14
  .add (.reg .rbp) (.reg .rax), -- 136: add rbp, rax
  .adc (.reg .rdi) (.reg .rdx), -- 137: adc rdi, rdx
  .shrd (.reg .rsi) .rbp (.imm 59#64), -- 138: shrd rsi, rbp, 59
  .mov (.mem ⟨some .rsp, none, 64#64⟩) (.reg .rsi), -- 139: mov [rsp + (8 * 8)], rsi
  .xor (.reg .rsi) (.reg .rsi), -- 140: xor esi, esi
  .mov (.reg .rax) (.mem ⟨some .rsp, none, 16#64⟩), -- 141: mov rax, [rsp + 0+ 2 * 8]
  .xor (.reg .rax) (.reg .r9), -- 142: xor rax, r9
  .mul (.reg .r8), -- 143: mul r8
  .add (.reg .rcx) (.reg .rax), -- 144: add rcx, rax
  .adc (.reg .rsi) (.reg .rdx), -- 145: adc rsi, rdx
  .mov (.reg .rax) (.mem ⟨some .rsp, none, 80#64⟩), -- 146: mov rax, [rsp + (8 * 8)+ 2 * 8]
  .xor (.reg .rax) (.reg .r11), -- 147: xor rax, r11
  .mul (.reg .r10), -- 148: mul r10
  .add (.reg .rcx) (.reg .rax), -- 149: add rcx, rax
  .adc (.reg .rsi) (.reg .rdx), -- 150: adc rsi, rdx
  .shrd (.reg .rbx) .rcx (.imm 59#64), -- 151: shrd rbx, rcx, 59
  .mov (.mem ⟨some .rsp, none, 8#64⟩) (.reg .rbx), -- 152: mov [rsp + 0+ 8], rbx
  .xor (.reg .rbx) (.reg .rbx), -- 153: xor ebx, ebx
  .mov (.reg .rax) (.mem ⟨some .rsp, none, 16#64⟩), -- 154: mov rax, [rsp + 0+ 2 * 8]
  .xor (.reg .rax) (.reg .r13), -- 155: xor rax, r13
  .mul (.reg .r12), -- 156: mul r12
  .add (.reg .rdi) (.reg .rax), -- 157: add rdi, rax
  .adc (.reg .rbx) (.reg .rdx), -- 158: adc rbx, rdx
  .mov (.reg .rax) (.mem ⟨some .rsp, none, 80#64⟩), -- 159: mov rax, [rsp + (8 * 8)+ 2 * 8]
  .xor (.reg .rax) (.reg .r15), -- 160: xor rax, r15
  .mul (.reg .r14), -- 161: mul r14
  .add (.reg .rdi) (.reg .rax), -- 162: add rdi, rax
  .adc (.reg .rbx) (.reg .rdx), -- 163: adc rbx, rdx
  .shrd (.reg .rbp) .rdi (.imm 59#64), -- 164: shrd rbp, rdi, 59
  .mov (.mem ⟨some .rsp, none, 72#64⟩) (.reg .rbp), -- 165: mov [rsp + (8 * 8)+ 8], rbp
  .xor (.reg .rbp) (.reg .rbp), -- 166: xor ebp, ebp
  .mov (.reg .rax) (.mem ⟨some .rsp, none, 24#64⟩), -- 167: mov rax, [rsp + 0+ 3 * 8]
  .xor (.reg .rax) (.reg .r9), -- 168: xor rax, r9
  .mul (.reg .r8), -- 169: mul r8
  .add (.reg .rsi) (.reg .rax), -- 170: add rsi, rax
  .adc (.reg .rbp) (.reg .rdx), -- 171: adc rbp, rdx
  .mov (.reg .rax) (.mem ⟨some .rsp, none, 88#64⟩), -- 172: mov rax, [rsp + (8 * 8)+ 3 * 8]
  .xor (.reg .rax) (.reg .r11), -- 173: xor rax, r11
  .mul (.reg .r10), -- 174: mul r10
  .add (.reg .rsi) (.reg .rax), -- 175: add rsi, rax
  .adc (.reg .rbp) (.reg .rdx), -- 176: adc rbp, rdx
  .shrd (.reg .rcx) .rsi (.imm 59#64), -- 177: shrd rcx, rsi, 59
  .mov (.mem ⟨some .rsp, none, 16#64⟩) (.reg .rcx), -- 178: mov [rsp + 0+ 2 * 8], rcx
  .xor (.reg .rcx) (.reg .rcx), -- 179: xor ecx, ecx
  .mov (.reg .rax) (.mem ⟨some .rsp, none, 24#64⟩), -- 180: mov rax, [rsp + 0+ 3 * 8]
  .xor (.reg .rax) (.reg .r13), -- 181: xor rax, r13
  .mul (.reg .r12), -- 182: mul r12
  .add (.reg .rbx) (.reg .rax), -- 183: add rbx, rax
  .adc (.reg .rcx) (.reg .rdx), -- 184: adc rcx, rdx
  .mov (.reg .rax) (.mem ⟨some .rsp, none, 88#64⟩), -- 185: mov rax, [rsp + (8 * 8)+ 3 * 8]
  .xor (.reg .rax) (.reg .r15), -- 186: xor rax, r15
  .mul (.reg .r14), -- 187: mul r14
  .add (.reg .rbx) (.reg .rax), -- 188: add rbx, rax
  .adc (.reg .rcx) (.reg .rdx), -- 189: adc rcx, rdx
  .shrd (.reg .rdi) .rbx (.imm 59#64), -- 190: shrd rdi, rbx, 59
  .mov (.mem ⟨some .rsp, none, 80#64⟩) (.reg .rdi), -- 191: mov [rsp + (8 * 8)+ 2 * 8], rdi
  .xor (.reg .rdi) (.reg .rdi), -- 192: xor edi, edi
  .mov (.reg .rax) (.mem ⟨some .rsp, none, 32#64⟩), -- 193: mov rax, [rsp + 0+ 4 * 8]
  .xor (.reg .rax) (.reg .r9), -- 194: xor rax, r9
  .mul (.reg .r8), -- 195: mul r8
  .add (.reg .rbp) (.reg .rax), -- 196: add rbp, rax
  .adc (.reg .rdi) (.reg .rdx), -- 197: adc rdi, rdx
  .mov (.reg .rax) (.mem ⟨some .rsp, none, 96#64⟩), -- 198: mov rax, [rsp + (8 * 8)+ 4 * 8]
  .xor (.reg .rax) (.reg .r11), -- 199: xor rax, r11
  .mul (.reg .r10), -- 200: mul r10
  .add (.reg .rbp) (.reg .rax), -- 201: add rbp, rax
  .adc (.reg .rdi) (.reg .rdx), -- 202: adc rdi, rdx
  .shrd (.reg .rsi) .rbp (.imm 59#64), -- 203: shrd rsi, rbp, 59
  .mov (.mem ⟨some .rsp, none, 24#64⟩) (.reg .rsi), -- 204: mov [rsp + 0+ 3 * 8], rsi
  .xor (.reg .rsi) (.reg .rsi), -- 205: xor esi, esi
  .mov (.reg .rax) (.mem ⟨some .rsp, none, 32#64⟩), -- 206: mov rax, [rsp + 0+ 4 * 8]
  .xor (.reg .rax) (.reg .r13), -- 207: xor rax, r13
  .mul (.reg .r12), -- 208: mul r12
  .add (.reg .rcx) (.reg .rax), -- 209: add rcx, rax
  .adc (.reg .rsi) (.reg .rdx), -- 210: adc rsi, rdx
  .mov (.reg .rax) (.mem ⟨some .rsp, none, 96#64⟩), -- 211: mov rax, [rsp + (8 * 8)+ 4 * 8]
  .xor (.reg .rax) (.reg .r15), -- 212: xor rax, r15
  .mul (.reg .r14), -- 213: mul r14
  .add (.reg .rcx) (.reg .rax), -- 214: add rcx, rax
  .adc (.reg .rsi) (.reg .rdx), -- 215: adc rsi, rdx
  .shrd (.reg .rbx) .rcx (.imm 59#64), -- 216: shrd rbx, rcx, 59
  .mov (.mem ⟨some .rsp, none, 88#64⟩) (.reg .rbx), -- 217: mov [rsp + (8 * 8)+ 3 * 8], rbx
  .mov (.reg .rax) (.mem ⟨some .rsp, none, 40#64⟩), -- 218: mov rax, [rsp + 0+ 5 * 8]
  .xor (.reg .rax) (.reg .r9), -- 219: xor rax, r9
  .mov (.reg .rbx) (.mem ⟨some .rsp, none, 48#64⟩), -- 220: mov rbx, [rsp + 0+ 6 * 8]
  .xor (.reg .rbx) (.reg .r9), -- 221: xor rbx, r9
  .and (.reg .rbx) (.reg .r8), -- 222: and rbx, r8
  .neg (.reg .rbx), -- 223: neg rbx
  .mul (.reg .r8), -- 224: mul r8
  .add (.reg .rdi) (.reg .rax), -- 225: add rdi, rax
  .adc (.reg .rbx) (.reg .rdx), -- 226: adc rbx, rdx
  .mov (.reg .rax) (.mem ⟨some .rsp, none, 104#64⟩), -- 227: mov rax, [rsp + (8 * 8)+ 5 * 8]
  .xor (.reg .rax) (.reg .r11), -- 228: xor rax, r11
  .mov (.reg .rdx) (.mem ⟨some .rsp, none, 112#64⟩), -- 229: mov rdx, [rsp + (8 * 8)+ 6 * 8]
  .xor (.reg .rdx) (.reg .r11), -- 230: xor rdx, r11
  .and (.reg .rdx) (.reg .r10), -- 231: and rdx, r10
  .sub (.reg .rbx) (.reg .rdx), -- 232: sub rbx, rdx
  .mul (.reg .r10), -- 233: mul r10
  .add (.reg .rdi) (.reg .rax), -- 234: add rdi, rax
  .adc (.reg .rbx) (.reg .rdx), -- 235: adc rbx, rdx
  .shrd (.reg .rbp) .rdi (.imm 59#64), -- 236: shrd rbp, rdi, 59
  .mov (.mem ⟨some .rsp, none, 32#64⟩) (.reg .rbp), -- 237: mov [rsp + 0+ 4 * 8], rbp
  .shrd (.reg .rdi) .rbx (.imm 59#64), -- 238: shrd rdi, rbx, 59
  .sar (.reg .rbx) (.imm 59#64), -- 239: sar rbx, 59
  .mov (.reg .rax) (.mem ⟨some .rsp, none, 40#64⟩), -- 240: mov rax, [rsp + 0+ 5 * 8]
  .mov (.mem ⟨some .rsp, none, 40#64⟩) (.reg .rdi), -- 241: mov [rsp + 0+ 5 * 8], rdi
  .mov (.reg .rdi) (.mem ⟨some .rsp, none, 48#64⟩), -- 242: mov rdi, [rsp + 0+ 6 * 8]
  .mov (.mem ⟨some .rsp, none, 48#64⟩) (.reg .rbx), -- 243: mov [rsp + 0+ 6 * 8], rbx
  .xor (.reg .rax) (.reg .r13), -- 244: xor rax, r13
  .xor (.reg .rdi) (.reg .r13), -- 245: xor rdi, r13
  .and (.reg .rdi) (.reg .r12), -- 246: and rdi, r12
  .neg (.reg .rdi), -- 247: neg rdi
  .mul (.reg .r12), -- 248: mul r12
  .add (.reg .rsi) (.reg .rax), -- 249: add rsi, rax
  .adc (.reg .rdi) (.reg .rdx), -- 250: adc rdi, rdx
  .mov (.reg .rax) (.mem ⟨some .rsp, none, 104#64⟩), -- 251: mov rax, [rsp + (8 * 8)+ 5 * 8]
  .xor (.reg .rax) (.reg .r15), -- 252: xor rax, r15
  .mov (.reg .rdx) (.mem ⟨some .rsp, none, 112#64⟩), -- 253: mov rdx, [rsp + (8 * 8)+ 6 * 8]
  .xor (.reg .rdx) (.reg .r15), -- 254: xor rdx, r15
  .and (.reg .rdx) (.reg .r14), -- 255: and rdx, r14
  .sub (.reg .rdi) (.reg .rdx), -- 256: sub rdi, rdx
  .mul (.reg .r14), -- 257: mul r14
  .add (.reg .rsi) (.reg .rax), -- 258: add rsi, rax
  .adc (.reg .rdi) (.reg .rdx), -- 259: adc rdi, rdx
  .shrd (.reg .rcx) .rsi (.imm 59#64), -- 260: shrd rcx, rsi, 59
  .mov (.mem ⟨some .rsp, none, 96#64⟩) (.reg .rcx), -- 261: mov [rsp + (8 * 8)+ 4 * 8], rcx
  .shrd (.reg .rsi) .rdi (.imm 59#64), -- 262: shrd rsi, rdi, 59
  .mov (.mem ⟨some .rsp, none, 104#64⟩) (.reg .rsi), -- 263: mov [rsp + (8 * 8)+ 5 * 8], rsi
  .sar (.reg .rdi) (.imm 59#64), -- 264: sar rdi, 59
  .mov (.mem ⟨some .rsp, none, 112#64⟩) (.reg .rdi), -- 265: mov [rsp + (8 * 8)+ 6 * 8], rdi
  .mov (.reg .rbx) (.mem ⟨some .rsp, none, 256#64⟩), -- 266: mov rbx, QWORD PTR [rsp + (32 * 8)]
  .mov (.reg .rbp) (.mem ⟨some .rsp, none, 264#64⟩), -- 267: mov rbp, QWORD PTR [rsp + (33 * 8)]
  .xor (.reg .rcx) (.reg .rcx), -- 268: xor ecx, ecx
  .mov (.reg .rax) (.mem ⟨some .rsp, none, 128#64⟩), -- 269: mov rax, [rsp + (16 * 8)]
  .xor (.reg .rax) (.reg .r9), -- 270: xor rax, r9
  .mul (.reg .r8), -- 271: mul r8
  .add (.reg .rbx) (.reg .rax), -- 272: add rbx, rax
  .adc (.reg .rcx) (.reg .rdx), -- 273: adc rcx, rdx
  .mov (.reg .rax) (.mem ⟨some .rsp, none, 192#64⟩), -- 274: mov rax, [rsp + (24 * 8)]
  .xor (.reg .rax) (.reg .r11), -- 275: xor rax, r11
  .mul (.reg .r10), -- 276: mul r10
  .add (.reg .rbx) (.reg .rax), -- 277: add rbx, rax
  .adc (.reg .rcx) (.reg .rdx), -- 278: adc rcx, rdx
  .xor (.reg .rsi) (.reg .rsi), -- 279: xor esi, esi
  .mov (.reg .rax) (.mem ⟨some .rsp, none, 128#64⟩), -- 280: mov rax, [rsp + (16 * 8)]
  .xor (.reg .rax) (.reg .r13), -- 281: xor rax, r13
  .mul (.reg .r12), -- 282: mul r12
  .mov (.mem ⟨some .rsp, none, 128#64⟩) (.reg .rbx), -- 283: mov [rsp + (16 * 8)], rbx
  .add (.reg .rbp) (.reg .rax), -- 284: add rbp, rax
  .adc (.reg .rsi) (.reg .rdx), -- 285: adc rsi, rdx
  .mov (.reg .rax) (.mem ⟨some .rsp, none, 192#64⟩), -- 286: mov rax, [rsp + (24 * 8)]
  .xor (.reg .rax) (.reg .r15), -- 287: xor rax, r15
  .mul (.reg .r14), -- 288: mul r14
  .add (.reg .rbp) (.reg .rax), -- 289: add rbp, rax
  .adc (.reg .rsi) (.reg .rdx), -- 290: adc rsi, rdx
  .mov (.mem ⟨some .rsp, none, 192#64⟩) (.reg .rbp), -- 291: mov [rsp + (24 * 8)], rbp
  .xor (.reg .rbx) (.reg .rbx), -- 292: xor ebx, ebx
  .mov (.reg .rax) (.mem ⟨some .rsp, none, 136#64⟩), -- 293: mov rax, [rsp + (16 * 8)+ 8]
  .xor (.reg .rax) (.reg .r9), -- 294: xor rax, r9
  .mul (.reg .r8), -- 295: mul r8
  .add (.reg .rcx) (.reg .rax), -- 296: add rcx, rax
  .adc (.reg .rbx) (.reg .rdx), -- 297: adc rbx, rdx
  .mov (.reg .rax) (.mem ⟨some .rsp, none, 200#64⟩), -- 298: mov rax, [rsp + (24 * 8)+ 8]
  .xor (.reg .rax) (.reg .r11), -- 299: xor rax, r11
  .mul (.reg .r10), -- 300: mul r10
  .add (.reg .rcx) (.reg .rax), -- 301: add rcx, rax
  .adc (.reg .rbx) (.reg .rdx), -- 302: adc rbx, rdx
  .xor (.reg .rbp) (.reg .rbp), -- 303: xor ebp, ebp
  .mov (.reg .rax) (.mem ⟨some .rsp, none, 136#64⟩), -- 304: mov rax, [rsp + (16 * 8)+ 8]
  .xor (.reg .rax) (.reg .r13), -- 305: xor rax, r13
  .mul (.reg .r12), -- 306: mul r12
  .mov (.mem ⟨some .rsp, none, 136#64⟩) (.reg .rcx), -- 307: mov [rsp + (16 * 8)+ 8], rcx
  .add (.reg .rsi) (.reg .rax), -- 308: add rsi, rax
  .adc (.reg .rbp) (.reg .rdx), -- 309: adc rbp, rdx
  .mov (.reg .rax) (.mem ⟨some .rsp, none, 200#64⟩), -- 310: mov rax, [rsp + (24 * 8)+ 8]
  .xor (.reg .rax) (.reg .r15), -- 311: xor rax, r15
  .mul (.reg .r14), -- 312: mul r14
  .add (.reg .rsi) (.reg .rax), -- 313: add rsi, rax
  .adc (.reg .rbp) (.reg .rdx), -- 314: adc rbp, rdx
  .mov (.mem ⟨some .rsp, none, 200#64⟩) (.reg .rsi), -- 315: mov [rsp + (24 * 8)+ 8], rsi
  .xor (.reg .rcx) (.reg .rcx), -- 316: xor ecx, ecx
  .mov (.reg .rax) (.mem ⟨some .rsp, none, 144#64⟩), -- 317: mov rax, [rsp + (16 * 8)+ 2 * 8]
  .xor (.reg .rax) (.reg .r9), -- 318: xor rax, r9
  .mul (.reg .r8), -- 319: mul r8
  .add (.reg .rbx) (.reg .rax), -- 320: add rbx, rax
  .adc (.reg .rcx) (.reg .rdx), -- 321: adc rcx, rdx
  .mov (.reg .rax) (.mem ⟨some .rsp, none, 208#64⟩), -- 322: mov rax, [rsp + (24 * 8)+ 2 * 8]
  .xor (.reg .rax) (.reg .r11), -- 323: xor rax, r11
  .mul (.reg .r10), -- 324: mul r10
  .add (.reg .rbx) (.reg .rax), -- 325: add rbx, rax
  .adc (.reg .rcx) (.reg .rdx), -- 326: adc rcx, rdx
  .xor (.reg .rsi) (.reg .rsi), -- 327: xor esi, esi
  .mov (.reg .rax) (.mem ⟨some .rsp, none, 144#64⟩), -- 328: mov rax, [rsp + (16 * 8)+ 2 * 8]
  .xor (.reg .rax) (.reg .r13), -- 329: xor rax, r13
  .mul (.reg .r12), -- 330: mul r12
  .mov (.mem ⟨some .rsp, none, 144#64⟩) (.reg .rbx), -- 331: mov [rsp + (16 * 8)+ 2 * 8], rbx
  .add (.reg .rbp) (.reg .rax), -- 332: add rbp, rax
  .adc (.reg .rsi) (.reg .rdx), -- 333: adc rsi, rdx
  .mov (.reg .rax) (.mem ⟨some .rsp, none, 208#64⟩), -- 334: mov rax, [rsp + (24 * 8)+ 2 * 8]
  .xor (.reg .rax) (.reg .r15), -- 335: xor rax, r15
  .mul (.reg .r14), -- 336: mul r14
  .add (.reg .rbp) (.reg .rax), -- 337: add rbp, rax
  .adc (.reg .rsi) (.reg .rdx), -- 338: adc rsi, rdx
  .mov (.mem ⟨some .rsp, none, 208#64⟩) (.reg .rbp), -- 339: mov [rsp + (24 * 8)+ 2 * 8], rbp
  .xor (.reg .rbx) (.reg .rbx), -- 340: xor ebx, ebx
  .mov (.reg .rax) (.mem ⟨some .rsp, none, 152#64⟩), -- 341: mov rax, [rsp + (16 * 8)+ 3 * 8]
  .xor (.reg .rax) (.reg .r9), -- 342: xor rax, r9
  .mul (.reg .r8), -- 343: mul r8
  .add (.reg .rcx) (.reg .rax), -- 344: add rcx, rax
  .adc (.reg .rbx) (.reg .rdx), -- 345: adc rbx, rdx
  .mov (.reg .rax) (.mem ⟨some .rsp, none, 216#64⟩), -- 346: mov rax, [rsp + (24 * 8)+ 3 * 8]
  .xor (.reg .rax) (.reg .r11), -- 347: xor rax, r11
  .mul (.reg .r10), -- 348: mul r10
  .add (.reg .rcx) (.reg .rax), -- 349: add rcx, rax
  .adc (.reg .rbx) (.reg .rdx), -- 350: adc rbx, rdx
  .xor (.reg .rbp) (.reg .rbp), -- 351: xor ebp, ebp
  .mov (.reg .rax) (.mem ⟨some .rsp, none, 152#64⟩), -- 352: mov rax, [rsp + (16 * 8)+ 3 * 8]
  .xor (.reg .rax) (.reg .r13), -- 353: xor rax, r13
  .mul (.reg .r12), -- 354: mul r12
  .mov (.mem ⟨some .rsp, none, 152#64⟩) (.reg .rcx), -- 355: mov [rsp + (16 * 8)+ 3 * 8], rcx
  .add (.reg .rsi) (.reg .rax), -- 356: add rsi, rax
  .adc (.reg .rbp) (.reg .rdx), -- 357: adc rbp, rdx
  .mov (.reg .rax) (.mem ⟨some .rsp, none, 216#64⟩), -- 358: mov rax, [rsp + (24 * 8)+ 3 * 8]
  .xor (.reg .rax) (.reg .r15), -- 359: xor rax, r15
  .mul (.reg .r14), -- 360: mul r14
  .add (.reg .rsi) (.reg .rax), -- 361: add rsi, rax
  .adc (.reg .rbp) (.reg .rdx), -- 362: adc rbp, rdx
  .mov (.mem ⟨some .rsp, none, 216#64⟩) (.reg .rsi), -- 363: mov [rsp + (24 * 8)+ 3 * 8], rsi
  .xor (.reg .rcx) (.reg .rcx), -- 364: xor ecx, ecx
  .mov (.reg .rax) (.mem ⟨some .rsp, none, 160#64⟩), -- 365: mov rax, [rsp + (16 * 8)+ 4 * 8]
  .xor (.reg .rax) (.reg .r9), -- 366: xor rax, r9
  .mul (.reg .r8), -- 367: mul r8
  .add (.reg .rbx) (.reg .rax), -- 368: add rbx, rax
  .adc (.reg .rcx) (.reg .rdx), -- 369: adc rcx, rdx
  .mov (.reg .rax) (.mem ⟨some .rsp, none, 224#64⟩), -- 370: mov rax, [rsp + (24 * 8)+ 4 * 8]
  .xor (.reg .rax) (.reg .r11), -- 371: xor rax, r11
  .mul (.reg .r10), -- 372: mul r10
  .add (.reg .rbx) (.reg .rax), -- 373: add rbx, rax
  .adc (.reg .rcx) (.reg .rdx), -- 374: adc rcx, rdx
  .xor (.reg .rsi) (.reg .rsi), -- 375: xor esi, esi
  .mov (.reg .rax) (.mem ⟨some .rsp, none, 160#64⟩), -- 376: mov rax, [rsp + (16 * 8)+ 4 * 8]
  .xor (.reg .rax) (.reg .r13), -- 377: xor rax, r13
  .mul (.reg .r12), -- 378: mul r12
  .mov (.mem ⟨some .rsp, none, 160#64⟩) (.reg .rbx), -- 379: mov [rsp + (16 * 8)+ 4 * 8], rbx
  .add (.reg .rbp) (.reg .rax), -- 380: add rbp, rax
  .adc (.reg .rsi) (.reg .rdx), -- 381: adc rsi, rdx
  .mov (.reg .rax) (.mem ⟨some .rsp, none, 224#64⟩), -- 382: mov rax, [rsp + (24 * 8)+ 4 * 8]
  .xor (.reg .rax) (.reg .r15), -- 383: xor rax, r15
  .mul (.reg .r14), -- 384: mul r14
  .add (.reg .rbp) (.reg .rax), -- 385: add rbp, rax
  .adc (.reg .rsi) (.reg .rdx), -- 386: adc rsi, rdx
  .mov (.mem ⟨some .rsp, none, 224#64⟩) (.reg .rbp), -- 387: mov [rsp + (24 * 8)+ 4 * 8], rbp
  .mov (.reg .rax) (.mem ⟨some .rsp, none, 168#64⟩), -- 388: mov rax, [rsp + (16 * 8)+ 5 * 8]
  .xor (.reg .rax) (.reg .r9), -- 389: xor rax, r9
  .mov (.reg .rbx) (.reg .r9), -- 390: mov rbx, r9
  .and (.reg .rbx) (.reg .r8), -- 391: and rbx, r8
  .neg (.reg .rbx), -- 392: neg rbx
  .mul (.reg .r8), -- 393: mul r8
  .add (.reg .rcx) (.reg .rax), -- 394: add rcx, rax
  .adc (.reg .rbx) (.reg .rdx), -- 395: adc rbx, rdx
  .mov (.reg .rax) (.mem ⟨some .rsp, none, 232#64⟩), -- 396: mov rax, [rsp + (24 * 8)+ 5 * 8]
  .xor (.reg .rax) (.reg .r11), -- 397: xor rax, r11
  .mov (.reg .rdx) (.reg .r11), -- 398: mov rdx, r11
  .and (.reg .rdx) (.reg .r10), -- 399: and rdx, r10
  .sub (.reg .rbx) (.reg .rdx), -- 400: sub rbx, rdx
  .mul (.reg .r10), -- 401: mul r10
  .add (.reg .rcx) (.reg .rax), -- 402: add rcx, rax
  .adc (.reg .rdx) (.reg .rbx), -- 403: adc rdx, rbx
  .mov (.reg .rax) (.mem ⟨some .rsp, none, 168#64⟩), -- 404: mov rax, [rsp + (16 * 8)+ 5 * 8]
  .mov (.mem ⟨some .rsp, none, 168#64⟩) (.reg .rcx), -- 405: mov [rsp + (16 * 8)+ 5 * 8], rcx
  .mov (.mem ⟨some .rsp, none, 176#64⟩) (.reg .rdx), -- 406: mov [rsp + (16 * 8)+ 6 * 8], rdx
  .xor (.reg .rax) (.reg .r13), -- 407: xor rax, r13
  .mov (.reg .rcx) (.reg .r13), -- 408: mov rcx, r13
  .and (.reg .rcx) (.reg .r12), -- 409: and rcx, r12
  .neg (.reg .rcx), -- 410: neg rcx
  .mul (.reg .r12), -- 411: mul r12
  .add (.reg .rsi) (.reg .rax), -- 412: add rsi, rax
  .adc (.reg .rcx) (.reg .rdx), -- 413: adc rcx, rdx
  .mov (.reg .rax) (.mem ⟨some .rsp, none, 232#64⟩), -- 414: mov rax, [rsp + (24 * 8)+ 5 * 8]
  .xor (.reg .rax) (.reg .r15), -- 415: xor rax, r15
  .mov (.reg .rdx) (.reg .r15), -- 416: mov rdx, r15
  .and (.reg .rdx) (.reg .r14), -- 417: and rdx, r14
  .sub (.reg .rcx) (.reg .rdx), -- 418: sub rcx, rdx
  .mul (.reg .r14), -- 419: mul r14
  .add (.reg .rsi) (.reg .rax), -- 420: add rsi, rax
  .adc (.reg .rdx) (.reg .rcx), -- 421: adc rdx, rcx
  .mov (.mem ⟨some .rsp, none, 232#64⟩) (.reg .rsi), -- 422: mov [rsp + (24 * 8)+ 5 * 8], rsi
  .mov (.mem ⟨some .rsp, none, 240#64⟩) (.reg .rdx), -- 423: mov [rsp + (24 * 8)+ 6 * 8], rdx
  .mov (.reg .r8) (.imm 0xe000000000000000#64), -- 424: mov r8, 0xe000000000000000
  .xor (.reg .rax) (.reg .rax), -- 425: xor eax, eax
  .add (.reg .r8) (.mem ⟨some .rsp, none, 128#64⟩), -- 426: add r8, [rsp + (16 * 8)]
  .mov (.reg .r9) (.imm 0x1fffffff#64), -- 427: mov r9, 0x000000001fffffff
  .lea .rax ⟨some .rax, none, 0xffffffffffffffff#64⟩, -- 428: lea rax, [rax -1]
  .adc (.reg .r9) (.mem ⟨some .rsp, none, 136#64⟩), -- 429: adc r9, [rsp + (16 * 8)+ 8]
  .mov (.reg .r10) (.imm 0xdfffffffe0000000#64), -- 430: mov r10, 0xdfffffffe0000000
  .adc (.reg .r10) (.mem ⟨some .rsp, none, 144#64⟩), -- 431: adc r10, [rsp + (16 * 8)+ 2 * 8]
  .mov (.reg .r11) (.mem ⟨some .rsp, none, 152#64⟩), -- 432: mov r11, [rsp + (16 * 8)+ 3 * 8]
  .adc (.reg .r11) (.reg .rax), -- 433: adc r11, rax
  .mov (.reg .r12) (.mem ⟨some .rsp, none, 160#64⟩), -- 434: mov r12, [rsp + (16 * 8)+ 4 * 8]
  .adc (.reg .r12) (.reg .rax), -- 435: adc r12, rax
  .mov (.reg .r13) (.mem ⟨some .rsp, none, 168#64⟩), -- 436: mov r13, [rsp + (16 * 8)+ 5 * 8]
  .adc (.reg .r13) (.reg .rax), -- 437: adc r13, rax
  .mov (.reg .r14) (.imm 0x1fffffffffffffff#64), -- 438: mov r14, 0x1fffffffffffffff
  .adc (.reg .r14) (.mem ⟨some .rsp, none, 176#64⟩), -- 439: adc r14, [rsp + (16 * 8)+ 6 * 8]
  .mov (.reg .rbx) (.reg .r8), -- 440: mov rbx, r8
  .shl (.reg .rbx) (.imm 32#64), -- 441: shl rbx, 32
  .add (.reg .rbx) (.reg .r8), -- 442: add rbx, r8
  .xor (.reg .rbp) (.reg .rbp), -- 443: xor ebp, ebp
  .mov (.reg .rax) (.imm 0xffffffff00000001#64), -- 444: mov rax, 0xffffffff00000001
  .mul (.reg .rbx), -- 445: mul rbx
  .mov (.reg .r8) (.reg .rdx), -- 446: mov r8, rdx
  .mov (.reg .rax) (.imm 0xffffffff#64), -- 447: mov rax, 0x00000000ffffffff
  .mul (.reg .rbx), -- 448: mul rbx
  .add (.reg .rax) (.reg .r8), -- 449: add rax, r8
  .adc (.reg .rdx) (.reg .rbx), -- 450: adc rdx, rbx
  .adc32 .rbp .rbp, -- 451: adc ebp, ebp
  .sub (.reg .r9) (.reg .rax), -- 452: sub r9, rax
  .sbb (.reg .r10) (.reg .rdx), -- 453: sbb r10, rdx
  .sbb (.reg .r11) (.reg .rbp), -- 454: sbb r11, rbp
  .sbb (.reg .r12) (.imm 0#64), -- 455: sbb r12, 0
  .sbb (.reg .r13) (.imm 0#64), -- 456: sbb r13, 0
  .sbb (.reg .r14) (.imm 0#64), -- 457: sbb r14, 0
  .sbb (.reg .rax) (.reg .rax), -- 458: sbb rax, rax
  .add (.reg .r14) (.reg .rbx), -- 459: add r14, rbx
  .adc (.reg .rax) (.imm 0#64), -- 460: adc rax, 0
  .neg (.reg .rax), -- 461: neg rax
  .mov (.reg .rbx) (.imm 0xffffffff#64), -- 462: mov rbx, 0x00000000ffffffff
  .and (.reg .rbx) (.reg .rax), -- 463: and rbx, rax
  .mov (.reg .rcx) (.imm 0xffffffff00000000#64), -- 464: mov rcx, 0xffffffff00000000
  .and (.reg .rcx) (.reg .rax), -- 465: and rcx, rax
  .mov (.reg .rdx) (.imm 0xfffffffffffffffe#64), -- 466: mov rdx, 0xfffffffffffffffe
  .and (.reg .rdx) (.reg .rax), -- 467: and rdx, rax
  .sub (.reg .r9) (.reg .rbx), -- 468: sub r9, rbx
  .mov (.mem ⟨some .rsp, none, 128#64⟩) (.reg .r9), -- 469: mov [rsp + (16 * 8)], r9
  .sbb (.reg .r10) (.reg .rcx), -- 470: sbb r10, rcx
  .mov (.mem ⟨some .rsp, none, 136#64⟩) (.reg .r10), -- 471: mov [rsp + (16 * 8)+ 8], r10
  .sbb (.reg .r11) (.reg .rdx), -- 472: sbb r11, rdx
  .mov (.mem ⟨some .rsp, none, 144#64⟩) (.reg .r11), -- 473: mov [rsp + (16 * 8)+ 2 * 8], r11
  .sbb (.reg .r12) (.reg .rax), -- 474: sbb r12, rax
  .mov (.mem ⟨some .rsp, none, 152#64⟩) (.reg .r12), -- 475: mov [rsp + (16 * 8)+ 3 * 8], r12
  .sbb (.reg .r13) (.reg .rax), -- 476: sbb r13, rax
  .mov (.mem ⟨some .rsp, none, 160#64⟩) (.reg .r13), -- 477: mov [rsp + (16 * 8)+ 4 * 8], r13
  .sbb (.reg .r14) (.reg .rax), -- 478: sbb r14, rax
  .mov (.mem ⟨some .rsp, none, 168#64⟩) (.reg .r14), -- 479: mov [rsp + (16 * 8)+ 5 * 8], r14
  .mov (.reg .r8) (.imm 0xe000000000000000#64), -- 480: mov r8, 0xe000000000000000
  .xor (.reg .rax) (.reg .rax), -- 481: xor eax, eax
  .add (.reg .r8) (.mem ⟨some .rsp, none, 192#64⟩), -- 482: add r8, [rsp + (24 * 8)]
  .mov (.reg .r9) (.imm 0x1fffffff#64), -- 483: mov r9, 0x000000001fffffff
  .lea .rax ⟨some .rax, none, 0xffffffffffffffff#64⟩, -- 484: lea rax, [rax -1]
  .adc (.reg .r9) (.mem ⟨some .rsp, none, 200#64⟩), -- 485: adc r9, [rsp + (24 * 8)+ 8]
  .mov (.reg .r10) (.imm 0xdfffffffe0000000#64), -- 486: mov r10, 0xdfffffffe0000000
  .adc (.reg .r10) (.mem ⟨some .rsp, none, 208#64⟩), -- 487: adc r10, [rsp + (24 * 8)+ 2 * 8]
  .mov (.reg .r11) (.mem ⟨some .rsp, none, 216#64⟩), -- 488: mov r11, [rsp + (24 * 8)+ 3 * 8]
  .adc (.reg .r11) (.reg .rax), -- 489: adc r11, rax
  .mov (.reg .r12) (.mem ⟨some .rsp, none, 224#64⟩), -- 490: mov r12, [rsp + (24 * 8)+ 4 * 8]
  .adc (.reg .r12) (.reg .rax), -- 491: adc r12, rax
  .mov (.reg .r13) (.mem ⟨some .rsp, none, 232#64⟩), -- 492: mov r13, [rsp + (24 * 8)+ 5 * 8]
  .adc (.reg .r13) (.reg .rax), -- 493: adc r13, rax
  .mov (.reg .r14) (.imm 0x1fffffffffffffff#64), -- 494: mov r14, 0x1fffffffffffffff
  .adc (.reg .r14) (.mem ⟨some .rsp, none, 240#64⟩), -- 495: adc r14, [rsp + (24 * 8)+ 6 * 8]
  .mov (.reg .rbx) (.reg .r8), -- 496: mov rbx, r8
  .shl (.reg .rbx) (.imm 32#64), -- 497: shl rbx, 32
  .add (.reg .rbx) (.reg .r8), -- 498: add rbx, r8
  .xor (.reg .rbp) (.reg .rbp), -- 499: xor ebp, ebp
  .mov (.reg .rax) (.imm 0xffffffff00000001#64), -- 500: mov rax, 0xffffffff00000001
  .mul (.reg .rbx), -- 501: mul rbx
  .mov (.reg .r8) (.reg .rdx), -- 502: mov r8, rdx
  .mov (.reg .rax) (.imm 0xffffffff#64), -- 503: mov rax, 0x00000000ffffffff
  .mul (.reg .rbx), -- 504: mul rbx
  .add (.reg .rax) (.reg .r8), -- 505: add rax, r8
  .adc (.reg .rdx) (.reg .rbx), -- 506: adc rdx, rbx
  .adc32 .rbp .rbp, -- 507: adc ebp, ebp
  .sub (.reg .r9) (.reg .rax), -- 508: sub r9, rax
  .sbb (.reg .r10) (.reg .rdx), -- 509: sbb r10, rdx
  .sbb (.reg .r11) (.reg .rbp), -- 510: sbb r11, rbp
  .sbb (.reg .r12) (.imm 0#64), -- 511: sbb r12, 0
  .sbb (.reg .r13) (.imm 0#64), -- 512: sbb r13, 0
  .sbb (.reg .r14) (.imm 0#64), -- 513: sbb r14, 0
  .sbb (.reg .rax) (.reg .rax), -- 514: sbb rax, rax
  .add (.reg .r14) (.reg .rbx), -- 515: add r14, rbx
  .adc (.reg .rax) (.imm 0#64), -- 516: adc rax, 0
  .neg (.reg .rax), -- 517: neg rax
  .mov (.reg .rbx) (.imm 0xffffffff#64), -- 518: mov rbx, 0x00000000ffffffff
  .and (.reg .rbx) (.reg .rax), -- 519: and rbx, rax
  .mov (.reg .rcx) (.imm 0xffffffff00000000#64), -- 520: mov rcx, 0xffffffff00000000
  .and (.reg .rcx) (.reg .rax), -- 521: and rcx, rax
  .mov (.reg .rdx) (.imm 0xfffffffffffffffe#64), -- 522: mov rdx, 0xfffffffffffffffe
  .and (.reg .rdx) (.reg .rax), -- 523: and rdx, rax
  .sub (.reg .r9) (.reg .rbx), -- 524: sub r9, rbx
  .mov (.mem ⟨some .rsp, none, 192#64⟩) (.reg .r9), -- 525: mov [rsp + (24 * 8)], r9
  .sbb (.reg .r10) (.reg .rcx), -- 526: sbb r10, rcx
  .mov (.mem ⟨some .rsp, none, 200#64⟩) (.reg .r10), -- 527: mov [rsp + (24 * 8)+ 8], r10
  .sbb (.reg .r11) (.reg .rdx), -- 528: sbb r11, rdx
  .mov (.mem ⟨some .rsp, none, 208#64⟩) (.reg .r11), -- 529: mov [rsp + (24 * 8)+ 2 * 8], r11
  .sbb (.reg .r12) (.reg .rax), -- 530: sbb r12, rax
  .mov (.mem ⟨some .rsp, none, 216#64⟩) (.reg .r12), -- 531: mov [rsp + (24 * 8)+ 3 * 8], r12
  .sbb (.reg .r13) (.reg .rax), -- 532: sbb r13, rax
  .mov (.mem ⟨some .rsp, none, 224#64⟩) (.reg .r13), -- 533: mov [rsp + (24 * 8)+ 4 * 8], r13
  .sbb (.reg .r14) (.reg .rax), -- 534: sbb r14, rax
  .mov (.mem ⟨some .rsp, none, 232#64⟩) (.reg .r14), -- 535: mov [rsp + (24 * 8)+ 5 * 8], r14
  .mov (.reg .rsi) (.mem ⟨some .rsp, none, 280#64⟩), -- 536: mov rsi, QWORD PTR [rsp + (35 * 8)]
  .mov (.reg .rdx) (.mem ⟨some .rsp, none, 0#64⟩), -- 537: mov rdx, QWORD PTR [rsp]
  .mov (.reg .rcx) (.mem ⟨some .rsp, none, 64#64⟩), -- 538: mov rcx, QWORD PTR [rsp + (8 * 8)]
  .mov (.reg .rbx) (.reg .rdx), -- 539: mov rbx, rdx
  .and (.reg .rbx) (.imm 0xfffff#64), -- 540: and rbx, 0xfffff
  .mov (.reg .rax) (.imm 0xfffffe0000000000#64), -- 541: movabs rax, 0xfffffe0000000000
  .or (.reg .rbx) (.reg .rax), -- 542: or rbx, rax
  .and (.reg .rcx) (.imm 0xfffff#64), -- 543: and rcx, 0xfffff
  .mov (.reg .rax) (.imm 0xc000000000000000#64), -- 544: movabs rax, 0xc000000000000000
  .or (.reg .rcx) (.reg .rax), -- 545: or rcx, rax
  .mov (.reg .rax) (.imm 0xfffffffffffffffe#64), -- 546: mov rax, 0xfffffffffffffffe
  .xor (.reg .rbp) (.reg .rbp), -- 547: xor ebp, ebp
  .mov (.reg .rdx) (.imm 2#64), -- 548: mov edx, 0x2
  .mov (.reg .rdi) (.reg .rbx), -- 549: mov rdi, rbx
  .mov (.reg .r8) (.reg .rax), -- 550: mov r8, rax
  .test (.reg .rsi) (.reg .rsi), -- 551: test rsi, rsi
  .cmov .sg .r8 (.reg .rbp), -- 552: cmovs r8, rbp
  .test (.reg .rcx) (.imm 1#64), -- 553: test rcx, 0x1
  .cmov .zr .r8 (.reg .rbp), -- 554: cmove r8, rbp
  .cmov .zr .rdi (.reg .rbp), -- 555: cmove rdi, rbp
  .xor (.reg .rdi) (.reg .r8), -- 556: xor rdi, r8
  .xor (.reg .rsi) (.reg .r8), -- 557: xor rsi, r8
  .bt (.reg .r8) 63#64, -- 558: bt r8, 0x3f
  .cmov .cy .rbx (.reg .rcx), -- 559: cmovb rbx, rcx
  .mov (.reg .r8) (.reg .rax), -- 560: mov r8, rax
  .sub (.reg .rsi) (.reg .rax), -- 561: sub rsi, rax
  .lea .rcx ⟨some .rcx, some (.rdi, 1#64), 0#64⟩, -- 562: lea rcx, [rcx + rdi]
  .cmov .sg .r8 (.reg .rbp), -- 563: cmovs r8, rbp
  .mov (.reg .rdi) (.reg .rbx), -- 564: mov rdi, rbx
  .test (.reg .rcx) (.reg .rdx), -- 565: test rcx, rdx
  .cmov .zr .r8 (.reg .rbp), -- 566: cmove r8, rbp
  .cmov .zr .rdi (.reg .rbp), -- 567: cmove rdi, rbp
  .sar (.reg .rcx) (.imm 1#64), -- 568: sar rcx, 1
  .xor (.reg .rdi) (.reg .r8), -- 569: xor rdi, r8
  .xor (.reg .rsi) (.reg .r8), -- 570: xor rsi, r8
  .bt (.reg .r8) 63#64, -- 571: bt r8, 0x3f
  .cmov .cy .rbx (.reg .rcx), -- 572: cmovb rbx, rcx
  .mov (.reg .r8) (.reg .rax), -- 573: mov r8, rax
  .sub (.reg .rsi) (.reg .rax), -- 574: sub rsi, rax
  .lea .rcx ⟨some .rcx, some (.rdi, 1#64), 0#64⟩, -- 575: lea rcx, [rcx + rdi]
  .cmov .sg .r8 (.reg .rbp), -- 576: cmovs r8, rbp
  .mov (.reg .rdi) (.reg .rbx), -- 577: mov rdi, rbx
  .test (.reg .rcx) (.reg .rdx), -- 578: test rcx, rdx
  .cmov .zr .r8 (.reg .rbp), -- 579: cmove r8, rbp
  .cmov .zr .rdi (.reg .rbp), -- 580: cmove rdi, rbp
  .sar (.reg .rcx) (.imm 1#64), -- 581: sar rcx, 1
  .xor (.reg .rdi) (.reg .r8), -- 582: xor rdi, r8
  .xor (.reg .rsi) (.reg .r8), -- 583: xor rsi, r8
  .bt (.reg .r8) 63#64, -- 584: bt r8, 0x3f
  .cmov .cy .rbx (.reg .rcx), -- 585: cmovb rbx, rcx
  .mov (.reg .r8) (.reg .rax), -- 586: mov r8, rax
  .sub (.reg .rsi) (.reg .rax), -- 587: sub rsi, rax
  .lea .rcx ⟨some .rcx, some (.rdi, 1#64), 0#64⟩, -- 588: lea rcx, [rcx + rdi]
  .cmov .sg .r8 (.reg .rbp), -- 589: cmovs r8, rbp
  .mov (.reg .rdi) (.reg .rbx), -- 590: mov rdi, rbx
  .test (.reg .rcx) (.reg .rdx), -- 591: test rcx, rdx
  .cmov .zr .r8 (.reg .rbp), -- 592: cmove r8, rbp
  .cmov .zr .rdi (.reg .rbp), -- 593: cmove rdi, rbp
  .sar (.reg .rcx) (.imm 1#64), -- 594: sar rcx, 1
  .xor (.reg .rdi) (.reg .r8), -- 595: xor rdi, r8
  .xor (.reg .rsi) (.reg .r8), -- 596: xor rsi, r8
  .bt (.reg .r8) 63#64, -- 597: bt r8, 0x3f
  .cmov .cy .rbx (.reg .rcx), -- 598: cmovb rbx, rcx
  .mov (.reg .r8) (.reg .rax), -- 599: mov r8, rax
  .sub (.reg .rsi) (.reg .rax), -- 600: sub rsi, rax
  .lea .rcx ⟨some .rcx, some (.rdi, 1#64), 0#64⟩, -- 601: lea rcx, [rcx + rdi]
  .cmov .sg .r8 (.reg .rbp), -- 602: cmovs r8, rbp
  .mov (.reg .rdi) (.reg .rbx), -- 603: mov rdi, rbx
  .test (.reg .rcx) (.reg .rdx), -- 604: test rcx, rdx
  .cmov .zr .r8 (.reg .rbp), -- 605: cmove r8, rbp
  .cmov .zr .rdi (.reg .rbp), -- 606: cmove rdi, rbp
  .sar (.reg .rcx) (.imm 1#64), -- 607: sar rcx, 1
  .xor (.reg .rdi) (.reg .r8), -- 608: xor rdi, r8
  .xor (.reg .rsi) (.reg .r8), -- 609: xor rsi, r8
  .bt (.reg .r8) 63#64, -- 610: bt r8, 0x3f
  .cmov .cy .rbx (.reg .rcx), -- 611: cmovb rbx, rcx
  .mov (.reg .r8) (.reg .rax), -- 612: mov r8, rax
  .sub (.reg .rsi) (.reg .rax), -- 613: sub rsi, rax
  .lea .rcx ⟨some .rcx, some (.rdi, 1#64), 0#64⟩, -- 614: lea rcx, [rcx + rdi]
  .cmov .sg .r8 (.reg .rbp), -- 615: cmovs r8, rbp
  .mov (.reg .rdi) (.reg .rbx), -- 616: mov rdi, rbx
  .test (.reg .rcx) (.reg .rdx), -- 617: test rcx, rdx
  .cmov .zr .r8 (.reg .rbp), -- 618: cmove r8, rbp
  .cmov .zr .rdi (.reg .rbp), -- 619: cmove rdi, rbp
  .sar (.reg .rcx) (.imm 1#64), -- 620: sar rcx, 1
  .xor (.reg .rdi) (.reg .r8), -- 621: xor rdi, r8
  .xor (.reg .rsi) (.reg .r8), -- 622: xor rsi, r8
  .bt (.reg .r8) 63#64, -- 623: bt r8, 0x3f
  .cmov .cy .rbx (.reg .rcx), -- 624: cmovb rbx, rcx
  .mov (.reg .r8) (.reg .rax), -- 625: mov r8, rax
  .sub (.reg .rsi) (.reg .rax), -- 626: sub rsi, rax
  .lea .rcx ⟨some .rcx, some (.rdi, 1#64), 0#64⟩, -- 627: lea rcx, [rcx + rdi]
  .cmov .sg .r8 (.reg .rbp), -- 628: cmovs r8, rbp
  .mov (.reg .rdi) (.reg .rbx), -- 629: mov rdi, rbx
  .test (.reg .rcx) (.reg .rdx), -- 630: test rcx, rdx
  .cmov .zr .r8 (.reg .rbp), -- 631: cmove r8, rbp
  .cmov .zr .rdi (.reg .rbp), -- 632: cmove rdi, rbp
  .sar (.reg .rcx) (.imm 1#64), -- 633: sar rcx, 1
  .xor (.reg .rdi) (.reg .r8), -- 634: xor rdi, r8
  .xor (.reg .rsi) (.reg .r8), -- 635: xor rsi, r8
  .bt (.reg .r8) 63#64, -- 636: bt r8, 0x3f
  .cmov .cy .rbx (.reg .rcx), -- 637: cmovb rbx, rcx
  .mov (.reg .r8) (.reg .rax), -- 638: mov r8, rax
  .sub (.reg .rsi) (.reg .rax), -- 639: sub rsi, rax
  .lea .rcx ⟨some .rcx, some (.rdi, 1#64), 0#64⟩, -- 640: lea rcx, [rcx + rdi]
  .cmov .sg .r8 (.reg .rbp), -- 641: cmovs r8, rbp
  .mov (.reg .rdi) (.reg .rbx), -- 642: mov rdi, rbx
  .test (.reg .rcx) (.reg .rdx), -- 643: test rcx, rdx
  .cmov .zr .r8 (.reg .rbp), -- 644: cmove r8, rbp
  .cmov .zr .rdi (.reg .rbp), -- 645: cmove rdi, rbp
  .sar (.reg .rcx) (.imm 1#64), -- 646: sar rcx, 1
  .xor (.reg .rdi) (.reg .r8), -- 647: xor rdi, r8
  .xor (.reg .rsi) (.reg .r8), -- 648: xor rsi, r8
  .bt (.reg .r8) 63#64, -- 649: bt r8, 0x3f
  .cmov .cy .rbx (.reg .rcx), -- 650: cmovb rbx, rcx
  .mov (.reg .r8) (.reg .rax), -- 651: mov r8, rax
  .sub (.reg .rsi) (.reg .rax), -- 652: sub rsi, rax
  .lea .rcx ⟨some .rcx, some (.rdi, 1#64), 0#64⟩, -- 653: lea rcx, [rcx + rdi]
  .cmov .sg .r8 (.reg .rbp), -- 654: cmovs r8, rbp
  .mov (.reg .rdi) (.reg .rbx), -- 655: mov rdi, rbx
  .test (.reg .rcx) (.reg .rdx), -- 656: test rcx, rdx
  .cmov .zr .r8 (.reg .rbp), -- 657: cmove r8, rbp
  .cmov .zr .rdi (.reg .rbp), -- 658: cmove rdi, rbp
  .sar (.reg .rcx) (.imm 1#64), -- 659: sar rcx, 1
  .xor (.reg .rdi) (.reg .r8), -- 660: xor rdi, r8
  .xor (.reg .rsi) (.reg .r8), -- 661: xor rsi, r8
  .bt (.reg .r8) 63#64, -- 662: bt r8, 0x3f
  .cmov .cy .rbx (.reg .rcx), -- 663: cmovb rbx, rcx
  .mov (.reg .r8) (.reg .rax), -- 664: mov r8, rax
  .sub (.reg .rsi) (.reg .rax), -- 665: sub rsi, rax
  .lea .rcx ⟨some .rcx, some (.rdi, 1#64), 0#64⟩, -- 666: lea rcx, [rcx + rdi]
  .cmov .sg .r8 (.reg .rbp), -- 667: cmovs r8, rbp
  .mov (.reg .rdi) (.reg .rbx), -- 668: mov rdi, rbx
  .test (.reg .rcx) (.reg .rdx), -- 669: test rcx, rdx
  .cmov .zr .r8 (.reg .rbp), -- 670: cmove r8, rbp
  .cmov .zr .rdi (.reg .rbp), -- 671: cmove rdi, rbp
  .sar (.reg .rcx) (.imm 1#64), -- 672: sar rcx, 1
  .xor (.reg .rdi) (.reg .r8), -- 673: xor rdi, r8
  .xor (.reg .rsi) (.reg .r8), -- 674: xor rsi, r8
  .bt (.reg .r8) 63#64, -- 675: bt r8, 0x3f
  .cmov .cy .rbx (.reg .rcx), -- 676: cmovb rbx, rcx
  .mov (.reg .r8) (.reg .rax), -- 677: mov r8, rax
  .sub (.reg .rsi) (.reg .rax), -- 678: sub rsi, rax
  .lea .rcx ⟨some .rcx, some (.rdi, 1#64), 0#64⟩, -- 679: lea rcx, [rcx + rdi]
  .cmov .sg .r8 (.reg .rbp), -- 680: cmovs r8, rbp
  .mov (.reg .rdi) (.reg .rbx), -- 681: mov rdi, rbx
  .test (.reg .rcx) (.reg .rdx), -- 682: test rcx, rdx
  .cmov .zr .r8 (.reg .rbp), -- 683: cmove r8, rbp
  .cmov .zr .rdi (.reg .rbp), -- 684: cmove rdi, rbp
  .sar (.reg .rcx) (.imm 1#64), -- 685: sar rcx, 1
  .xor (.reg .rdi) (.reg .r8), -- 686: xor rdi, r8
  .xor (.reg .rsi) (.reg .r8), -- 687: xor rsi, r8
  .bt (.reg .r8) 63#64, -- 688: bt r8, 0x3f
  .cmov .cy .rbx (.reg .rcx), -- 689: cmovb rbx, rcx
  .mov (.reg .r8) (.reg .rax), -- 690: mov r8, rax
  .sub (.reg .rsi) (.reg .rax), -- 691: sub rsi, rax
  .lea .rcx ⟨some .rcx, some (.rdi, 1#64), 0#64⟩, -- 692: lea rcx, [rcx + rdi]
  .cmov .sg .r8 (.reg .rbp), -- 693: cmovs r8, rbp
  .mov (.reg .rdi) (.reg .rbx), -- 694: mov rdi, rbx
  .test (.reg .rcx) (.reg .rdx), -- 695: test rcx, rdx
  .cmov .zr .r8 (.reg .rbp), -- 696: cmove r8, rbp
  .cmov .zr .rdi (.reg .rbp), -- 697: cmove rdi, rbp
  .sar (.reg .rcx) (.imm 1#64), -- 698: sar rcx, 1
  .xor (.reg .rdi) (.reg .r8), -- 699: xor rdi, r8
  .xor (.reg .rsi) (.reg .r8), -- 700: xor rsi, r8
  .bt (.reg .r8) 63#64, -- 701: bt r8, 0x3f
  .cmov .cy .rbx (.reg .rcx), -- 702: cmovb rbx, rcx
  .mov (.reg .r8) (.reg .rax), -- 703: mov r8, rax
  .sub (.reg .rsi) (.reg .rax), -- 704: sub rsi, rax
  .lea .rcx ⟨some .rcx, some (.rdi, 1#64), 0#64⟩, -- 705: lea rcx, [rcx + rdi]
  .cmov .sg .r8 (.reg .rbp), -- 706: cmovs r8, rbp
  .mov (.reg .rdi) (.reg .rbx), -- 707: mov rdi, rbx
  .test (.reg .rcx) (.reg .rdx), -- 708: test rcx, rdx
  .cmov .zr .r8 (.reg .rbp), -- 709: cmove r8, rbp
  .cmov .zr .rdi (.reg .rbp), -- 710: cmove rdi, rbp
  .sar (.reg .rcx) (.imm 1#64), -- 711: sar rcx, 1
  .xor (.reg .rdi) (.reg .r8), -- 712: xor rdi, r8
  .xor (.reg .rsi) (.reg .r8), -- 713: xor rsi, r8
  .bt (.reg .r8) 63#64, -- 714: bt r8, 0x3f
  .cmov .cy .rbx (.reg .rcx), -- 715: cmovb rbx, rcx
  .mov (.reg .r8) (.reg .rax), -- 716: mov r8, rax
  .sub (.reg .rsi) (.reg .rax), -- 717: sub rsi, rax
  .lea .rcx ⟨some .rcx, some (.rdi, 1#64), 0#64⟩, -- 718: lea rcx, [rcx + rdi]
  .cmov .sg .r8 (.reg .rbp), -- 719: cmovs r8, rbp
  .mov (.reg .rdi) (.reg .rbx), -- 720: mov rdi, rbx
  .test (.reg .rcx) (.reg .rdx), -- 721: test rcx, rdx
  .cmov .zr .r8 (.reg .rbp), -- 722: cmove r8, rbp
  .cmov .zr .rdi (.reg .rbp), -- 723: cmove rdi, rbp
  .sar (.reg .rcx) (.imm 1#64), -- 724: sar rcx, 1
  .xor (.reg .rdi) (.reg .r8), -- 725: xor rdi, r8
  .xor (.reg .rsi) (.reg .r8), -- 726: xor rsi, r8
  .bt (.reg .r8) 63#64, -- 727: bt r8, 0x3f
  .cmov .cy .rbx (.reg .rcx), -- 728: cmovb rbx, rcx
  .mov (.reg .r8) (.reg .rax), -- 729: mov r8, rax
  .sub (.reg .rsi) (.reg .rax), -- 730: sub rsi, rax
  .lea .rcx ⟨some .rcx, some (.rdi, 1#64), 0#64⟩, -- 731: lea rcx, [rcx + rdi]
  .cmov .sg .r8 (.reg .rbp), -- 732: cmovs r8, rbp
  .mov (.reg .rdi) (.reg .rbx), -- 733: mov rdi, rbx
  .test (.reg .rcx) (.reg .rdx), -- 734: test rcx, rdx
  .cmov .zr .r8 (.reg .rbp), -- 735: cmove r8, rbp
  .cmov .zr .rdi (.reg .rbp), -- 736: cmove rdi, rbp
  .sar (.reg .rcx) (.imm 1#64), -- 737: sar rcx, 1
  .xor (.reg .rdi) (.reg .r8), -- 738: xor rdi, r8
  .xor (.reg .rsi) (.reg .r8), -- 739: xor rsi, r8
  .bt (.reg .r8) 63#64, -- 740: bt r8, 0x3f
  .cmov .cy .rbx (.reg .rcx), -- 741: cmovb rbx, rcx
  .mov (.reg .r8) (.reg .rax), -- 742: mov r8, rax
  .sub (.reg .rsi) (.reg .rax), -- 743: sub rsi, rax
  .lea .rcx ⟨some .rcx, some (.rdi, 1#64), 0#64⟩, -- 744: lea rcx, [rcx + rdi]
  .cmov .sg .r8 (.reg .rbp), -- 745: cmovs r8, rbp
  .mov (.reg .rdi) (.reg .rbx), -- 746: mov rdi, rbx
  .test (.reg .rcx) (.reg .rdx), -- 747: test rcx, rdx
  .cmov .zr .r8 (.reg .rbp), -- 748: cmove r8, rbp
  .cmov .zr .rdi (.reg .rbp), -- 749: cmove rdi, rbp
  .sar (.reg .rcx) (.imm 1#64), -- 750: sar rcx, 1
  .xor (.reg .rdi) (.reg .r8), -- 751: xor rdi, r8
  .xor (.reg .rsi) (.reg .r8), -- 752: xor rsi, r8
  .bt (.reg .r8) 63#64, -- 753: bt r8, 0x3f
  .cmov .cy .rbx (.reg .rcx), -- 754: cmovb rbx, rcx
  .mov (.reg .r8) (.reg .rax), -- 755: mov r8, rax
  .sub (.reg .rsi) (.reg .rax), -- 756: sub rsi, rax
  .lea .rcx ⟨some .rcx, some (.rdi, 1#64), 0#64⟩, -- 757: lea rcx, [rcx + rdi]
  .cmov .sg .r8 (.reg .rbp), -- 758: cmovs r8, rbp
  .mov (.reg .rdi) (.reg .rbx), -- 759: mov rdi, rbx
  .test (.reg .rcx) (.reg .rdx), -- 760: test rcx, rdx
  .cmov .zr .r8 (.reg .rbp), -- 761: cmove r8, rbp
  .cmov .zr .rdi (.reg .rbp), -- 762: cmove rdi, rbp
  .sar (.reg .rcx) (.imm 1#64), -- 763: sar rcx, 1
  .xor (.reg .rdi) (.reg .r8), -- 764: xor rdi, r8
  .xor (.reg .rsi) (.reg .r8), -- 765: xor rsi, r8
  .bt (.reg .r8) 63#64, -- 766: bt r8, 0x3f
  .cmov .cy .rbx (.reg .rcx), -- 767: cmovb rbx, rcx
  .mov (.reg .r8) (.reg .rax), -- 768: mov r8, rax
  .sub (.reg .rsi) (.reg .rax), -- 769: sub rsi, rax
  .lea .rcx ⟨some .rcx, some (.rdi, 1#64), 0#64⟩, -- 770: lea rcx, [rcx + rdi]
  .cmov .sg .r8 (.reg .rbp), -- 771: cmovs r8, rbp
  .mov (.reg .rdi) (.reg .rbx), -- 772: mov rdi, rbx
  .test (.reg .rcx) (.reg .rdx), -- 773: test rcx, rdx
  .cmov .zr .r8 (.reg .rbp), -- 774: cmove r8, rbp
  .cmov .zr .rdi (.reg .rbp), -- 775: cmove rdi, rbp
  .sar (.reg .rcx) (.imm 1#64), -- 776: sar rcx, 1
  .xor (.reg .rdi) (.reg .r8), -- 777: xor rdi, r8
  .xor (.reg .rsi) (.reg .r8), -- 778: xor rsi, r8
  .bt (.reg .r8) 63#64, -- 779: bt r8, 0x3f
  .cmov .cy .rbx (.reg .rcx), -- 780: cmovb rbx, rcx
  .mov (.reg .r8) (.reg .rax), -- 781: mov r8, rax
  .sub (.reg .rsi) (.reg .rax), -- 782: sub rsi, rax
  .lea .rcx ⟨some .rcx, some (.rdi, 1#64), 0#64⟩, -- 783: lea rcx, [rcx + rdi]
  .cmov .sg .r8 (.reg .rbp), -- 784: cmovs r8, rbp
  .mov (.reg .rdi) (.reg .rbx), -- 785: mov rdi, rbx
  .test (.reg .rcx) (.reg .rdx), -- 786: test rcx, rdx
  .cmov .zr .r8 (.reg .rbp), -- 787: cmove r8, rbp
  .cmov .zr .rdi (.reg .rbp), -- 788: cmove rdi, rbp
  .sar (.reg .rcx) (.imm 1#64), -- 789: sar rcx, 1
  .xor (.reg .rdi) (.reg .r8), -- 790: xor rdi, r8
  .xor (.reg .rsi) (.reg .r8), -- 791: xor rsi, r8
  .bt (.reg .r8) 63#64, -- 792: bt r8, 0x3f
  .cmov .cy .rbx (.reg .rcx), -- 793: cmovb rbx, rcx
  .mov (.reg .r8) (.reg .rax), -- 794: mov r8, rax
  .sub (.reg .rsi) (.reg .rax), -- 795: sub rsi, rax
  .lea .rcx ⟨some .rcx, some (.rdi, 1#64), 0#64⟩, -- 796: lea rcx, [rcx + rdi]
  .cmov .sg .r8 (.reg .rbp), -- 797: cmovs r8, rbp
  .mov (.reg .rdi) (.reg .rbx), -- 798: mov rdi, rbx
  .test (.reg .rcx) (.reg .rdx), -- 799: test rcx, rdx
  .cmov .zr .r8 (.reg .rbp), -- 800: cmove r8, rbp
  .cmov .zr .rdi (.reg .rbp), -- 801: cmove rdi, rbp
  .sar (.reg .rcx) (.imm 1#64), -- 802: sar rcx, 1
  .xor (.reg .rdi) (.reg .r8), -- 803: xor rdi, r8
  .xor (.reg .rsi) (.reg .r8), -- 804: xor rsi, r8
  .bt (.reg .r8) 63#64, -- 805: bt r8, 0x3f
  .cmov .cy .rbx (.reg .rcx), -- 806: cmovb rbx, rcx
  .mov (.reg .r8) (.reg .rax), -- 807: mov r8, rax
  .sub (.reg .rsi) (.reg .rax), -- 808: sub rsi, rax
  .lea .rcx ⟨some .rcx, some (.rdi, 1#64), 0#64⟩, -- 809: lea rcx, [rcx + rdi]
  .sar (.reg .rcx) (.imm 1#64), -- 810: sar rcx, 1
  .mov (.reg .rax) (.imm 0x100000#64), -- 811: mov eax, 0x100000
  .lea .rdx ⟨some .rbx, some (.rax, 1#64), 0#64⟩, -- 812: lea rdx, [rbx + rax]
  .lea .rdi ⟨some .rcx, some (.rax, 1#64), 0#64⟩, -- 813: lea rdi, [rcx + rax]
  .shl (.reg .rdx) (.imm 22#64), -- 814: shl rdx, 0x16
  .shl (.reg .rdi) (.imm 22#64), -- 815: shl rdi, 0x16
  .sar (.reg .rdx) (.imm 43#64), -- 816: sar rdx, 0x2b
  .sar (.reg .rdi) (.imm 43#64), -- 817: sar rdi, 0x2b
  .mov (.reg .rax) (.imm 0x20000100000#64), -- 818: movabs rax, 0x20000100000
  .lea .rbx ⟨some .rbx, some (.rax, 1#64), 0#64⟩, -- 819: lea rbx, [rbx + rax]
  .lea .rcx ⟨some .rcx, some (.rax, 1#64), 0#64⟩, -- 820: lea rcx, [rcx + rax]
  .sar (.reg .rbx) (.imm 42#64), -- 821: sar rbx, 0x2a
  .sar (.reg .rcx) (.imm 42#64), -- 822: sar rcx, 0x2a
  .mov (.mem ⟨some .rsp, none, 288#64⟩) (.reg .rdx), -- 823: mov [rsp + (36 * 8)], rdx
  .mov (.mem ⟨some .rsp, none, 296#64⟩) (.reg .rbx), -- 824: mov [rsp + (36 * 8)+ 0x8], rbx
  .mov (.mem ⟨some .rsp, none, 304#64⟩) (.reg .rdi), -- 825: mov [rsp + (36 * 8)+ 0x10], rdi
  .mov (.mem ⟨some .rsp, none, 312#64⟩) (.reg .rcx), -- 826: mov [rsp + (36 * 8)+ 0x18], rcx
  .mov (.reg .r12) (.mem ⟨some .rsp, none, 0#64⟩), -- 827: mov r12, QWORD PTR [rsp]
  .imul .rdi (.reg .r12), -- 828: imul rdi, r12
  .imul .r12 (.reg .rdx), -- 829: imul r12, rdx
  .mov (.reg .r13) (.mem ⟨some .rsp, none, 64#64⟩), -- 830: mov r13, QWORD PTR [rsp + (8 * 8)]
  .imul .rbx (.reg .r13), -- 831: imul rbx, r13
  .imul .r13 (.reg .rcx), -- 832: imul r13, rcx
  .add (.reg .r12) (.reg .rbx), -- 833: add r12, rbx
  .add (.reg .r13) (.reg .rdi), -- 834: add r13, rdi
  .sar (.reg .r12) (.imm 20#64), -- 835: sar r12, 0x14
  .sar (.reg .r13) (.imm 20#64), -- 836: sar r13, 0x14
  .mov (.reg .rbx) (.reg .r12), -- 837: mov rbx, r12
  .and (.reg .rbx) (.imm 0xfffff#64), -- 838: and rbx, 0xfffff
  .mov (.reg .rax) (.imm 0xfffffe0000000000#64), -- 839: movabs rax, 0xfffffe0000000000
  .or (.reg .rbx) (.reg .rax), -- 840: or rbx, rax
  .mov (.reg .rcx) (.reg .r13), -- 841: mov rcx, r13
  .and (.reg .rcx) (.imm 0xfffff#64), -- 842: and rcx, 0xfffff
  .mov (.reg .rax) (.imm 0xc000000000000000#64), -- 843: movabs rax, 0xc000000000000000
  .or (.reg .rcx) (.reg .rax), -- 844: or rcx, rax
  .mov (.reg .rax) (.imm 0xfffffffffffffffe#64), -- 845: mov rax, 0xfffffffffffffffe
  .mov (.reg .rdx) (.imm 2#64), -- 846: mov edx, 0x2
  .mov (.reg .rdi) (.reg .rbx), -- 847: mov rdi, rbx
  .mov (.reg .r8) (.reg .rax), -- 848: mov r8, rax
  .test (.reg .rsi) (.reg .rsi), -- 849: test rsi, rsi
  .cmov .sg .r8 (.reg .rbp), -- 850: cmovs r8, rbp
  .test (.reg .rcx) (.imm 1#64), -- 851: test rcx, 0x1
  .cmov .zr .r8 (.reg .rbp), -- 852: cmove r8, rbp
  .cmov .zr .rdi (.reg .rbp), -- 853: cmove rdi, rbp
  .xor (.reg .rdi) (.reg .r8), -- 854: xor rdi, r8
  .xor (.reg .rsi) (.reg .r8), -- 855: xor rsi, r8
  .bt (.reg .r8) 63#64, -- 856: bt r8, 0x3f
  .cmov .cy .rbx (.reg .rcx), -- 857: cmovb rbx, rcx
  .mov (.reg .r8) (.reg .rax), -- 858: mov r8, rax
  .sub (.reg .rsi) (.reg .rax), -- 859: sub rsi, rax
  .lea .rcx ⟨some .rcx, some (.rdi, 1#64), 0#64⟩, -- 860: lea rcx, [rcx + rdi]
  .cmov .sg .r8 (.reg .rbp), -- 861: cmovs r8, rbp
  .mov (.reg .rdi) (.reg .rbx), -- 862: mov rdi, rbx
  .test (.reg .rcx) (.reg .rdx), -- 863: test rcx, rdx
  .cmov .zr .r8 (.reg .rbp), -- 864: cmove r8, rbp
  .cmov .zr .rdi (.reg .rbp), -- 865: cmove rdi, rbp
  .sar (.reg .rcx) (.imm 1#64), -- 866: sar rcx, 1
  .xor (.reg .rdi) (.reg .r8), -- 867: xor rdi, r8
  .xor (.reg .rsi) (.reg .r8), -- 868: xor rsi, r8
  .bt (.reg .r8) 63#64, -- 869: bt r8, 0x3f
  .cmov .cy .rbx (.reg .rcx), -- 870: cmovb rbx, rcx
  .mov (.reg .r8) (.reg .rax), -- 871: mov r8, rax
  .sub (.reg .rsi) (.reg .rax), -- 872: sub rsi, rax
  .lea .rcx ⟨some .rcx, some (.rdi, 1#64), 0#64⟩, -- 873: lea rcx, [rcx + rdi]
  .cmov .sg .r8 (.reg .rbp), -- 874: cmovs r8, rbp
  .mov (.reg .rdi) (.reg .rbx), -- 875: mov rdi, rbx
  .test (.reg .rcx) (.reg .rdx), -- 876: test rcx, rdx
  .cmov .zr .r8 (.reg .rbp), -- 877: cmove r8, rbp
  .cmov .zr .rdi (.reg .rbp), -- 878: cmove rdi, rbp
  .sar (.reg .rcx) (.imm 1#64), -- 879: sar rcx, 1
  .xor (.reg .rdi) (.reg .r8), -- 880: xor rdi, r8
  .xor (.reg .rsi) (.reg .r8), -- 881: xor rsi, r8
  .bt (.reg .r8) 63#64, -- 882: bt r8, 0x3f
  .cmov .cy .rbx (.reg .rcx), -- 883: cmovb rbx, rcx
  .mov (.reg .r8) (.reg .rax), -- 884: mov r8, rax
  .sub (.reg .rsi) (.reg .rax), -- 885: sub rsi, rax
  .lea .rcx ⟨some .rcx, some (.rdi, 1#64), 0#64⟩, -- 886: lea rcx, [rcx + rdi]
  .cmov .sg .r8 (.reg .rbp), -- 887: cmovs r8, rbp
  .mov (.reg .rdi) (.reg .rbx), -- 888: mov rdi, rbx
  .test (.reg .rcx) (.reg .rdx), -- 889: test rcx, rdx
  .cmov .zr .r8 (.reg .rbp), -- 890: cmove r8, rbp
  .cmov .zr .rdi (.reg .rbp), -- 891: cmove rdi, rbp
  .sar (.reg .rcx) (.imm 1#64), -- 892: sar rcx, 1
  .xor (.reg .rdi) (.reg .r8), -- 893: xor rdi, r8
  .xor (.reg .rsi) (.reg .r8), -- 894: xor rsi, r8
  .bt (.reg .r8) 63#64, -- 895: bt r8, 0x3f
  .cmov .cy .rbx (.reg .rcx), -- 896: cmovb rbx, rcx
  .mov (.reg .r8) (.reg .rax), -- 897: mov r8, rax
  .sub (.reg .rsi) (.reg .rax), -- 898: sub rsi, rax
  .lea .rcx ⟨some .rcx, some (.rdi, 1#64), 0#64⟩, -- 899: lea rcx, [rcx + rdi]
  .cmov .sg .r8 (.reg .rbp), -- 900: cmovs r8, rbp
  .mov (.reg .rdi) (.reg .rbx), -- 901: mov rdi, rbx
  .test (.reg .rcx) (.reg .rdx), -- 902: test rcx, rdx
  .cmov .zr .r8 (.reg .rbp), -- 903: cmove r8, rbp
  .cmov .zr .rdi (.reg .rbp), -- 904: cmove rdi, rbp
  .sar (.reg .rcx) (.imm 1#64), -- 905: sar rcx, 1
  .xor (.reg .rdi) (.reg .r8), -- 906: xor rdi, r8
  .xor (.reg .rsi) (.reg .r8), -- 907: xor rsi, r8
  .bt (.reg .r8) 63#64, -- 908: bt r8, 0x3f
  .cmov .cy .rbx (.reg .rcx), -- 909: cmovb rbx, rcx
  .mov (.reg .r8) (.reg .rax), -- 910: mov r8, rax
  .sub (.reg .rsi) (.reg .rax), -- 911: sub rsi, rax
  .lea .rcx ⟨some .rcx, some (.rdi, 1#64), 0#64⟩, -- 912: lea rcx, [rcx + rdi]
  .cmov .sg .r8 (.reg .rbp), -- 913: cmovs r8, rbp
  .mov (.reg .rdi) (.reg .rbx), -- 914: mov rdi, rbx
  .test (.reg .rcx) (.reg .rdx), -- 915: test rcx, rdx
  .cmov .zr .r8 (.reg .rbp), -- 916: cmove r8, rbp
  .cmov .zr .rdi (.reg .rbp), -- 917: cmove rdi, rbp
  .sar (.reg .rcx) (.imm 1#64), -- 918: sar rcx, 1
  .xor (.reg .rdi) (.reg .r8), -- 919: xor rdi, r8
  .xor (.reg .rsi) (.reg .r8), -- 920: xor rsi, r8
  .bt (.reg .r8) 63#64, -- 921: bt r8, 0x3f
  .cmov .cy .rbx (.reg .rcx), -- 922: cmovb rbx, rcx
  .mov (.reg .r8) (.reg .rax), -- 923: mov r8, rax
  .sub (.reg .rsi) (.reg .rax), -- 924: sub rsi, rax
  .lea .rcx ⟨some .rcx, some (.rdi, 1#64), 0#64⟩, -- 925: lea rcx, [rcx + rdi]
  .cmov .sg .r8 (.reg .rbp), -- 926: cmovs r8, rbp
  .mov (.reg .rdi) (.reg .rbx), -- 927: mov rdi, rbx
  .test (.reg .rcx) (.reg .rdx), -- 928: test rcx, rdx
  .cmov .zr .r8 (.reg .rbp), -- 929: cmove r8, rbp
  .cmov .zr .rdi (.reg .rbp), -- 930: cmove rdi, rbp
  .sar (.reg .rcx) (.imm 1#64), -- 931: sar rcx, 1
  .xor (.reg .rdi) (.reg .r8), -- 932: xor rdi, r8
  .xor (.reg .rsi) (.reg .r8), -- 933: xor rsi, r8
  .bt (.reg .r8) 63#64, -- 934: bt r8, 0x3f
  .cmov .cy .rbx (.reg .rcx), -- 935: cmovb rbx, rcx
  .mov (.reg .r8) (.reg .rax), -- 936: mov r8, rax
  .sub (.reg .rsi) (.reg .rax), -- 937: sub rsi, rax
  .lea .rcx ⟨some .rcx, some (.rdi, 1#64), 0#64⟩, -- 938: lea rcx, [rcx + rdi]
  .cmov .sg .r8 (.reg .rbp), -- 939: cmovs r8, rbp
  .mov (.reg .rdi) (.reg .rbx), -- 940: mov rdi, rbx
  .test (.reg .rcx) (.reg .rdx), -- 941: test rcx, rdx
  .cmov .zr .r8 (.reg .rbp), -- 942: cmove r8, rbp
  .cmov .zr .rdi (.reg .rbp), -- 943: cmove rdi, rbp
  .sar (.reg .rcx) (.imm 1#64), -- 944: sar rcx, 1
  .xor (.reg .rdi) (.reg .r8), -- 945: xor rdi, r8
  .xor (.reg .rsi) (.reg .r8), -- 946: xor rsi, r8
  .bt (.reg .r8) 63#64, -- 947: bt r8, 0x3f
  .cmov .cy .rbx (.reg .rcx), -- 948: cmovb rbx, rcx
  .mov (.reg .r8) (.reg .rax), -- 949: mov r8, rax
  .sub (.reg .rsi) (.reg .rax), -- 950: sub rsi, rax
  .lea .rcx ⟨some .rcx, some (.rdi, 1#64), 0#64⟩, -- 951: lea rcx, [rcx + rdi]
  .cmov .sg .r8 (.reg .rbp), -- 952: cmovs r8, rbp
  .mov (.reg .rdi) (.reg .rbx), -- 953: mov rdi, rbx
  .test (.reg .rcx) (.reg .rdx), -- 954: test rcx, rdx
  .cmov .zr .r8 (.reg .rbp), -- 955: cmove r8, rbp
  .cmov .zr .rdi (.reg .rbp), -- 956: cmove rdi, rbp
  .sar (.reg .rcx) (.imm 1#64), -- 957: sar rcx, 1
  .xor (.reg .rdi) (.reg .r8), -- 958: xor rdi, r8
  .xor (.reg .rsi) (.reg .r8), -- 959: xor rsi, r8
  .bt (.reg .r8) 63#64, -- 960: bt r8, 0x3f
  .cmov .cy .rbx (.reg .rcx), -- 961: cmovb rbx, rcx
  .mov (.reg .r8) (.reg .rax), -- 962: mov r8, rax
  .sub (.reg .rsi) (.reg .rax), -- 963: sub rsi, rax
  .lea .rcx ⟨some .rcx, some (.rdi, 1#64), 0#64⟩, -- 964: lea rcx, [rcx + rdi]
  .cmov .sg .r8 (.reg .rbp), -- 965: cmovs r8, rbp
  .mov (.reg .rdi) (.reg .rbx), -- 966: mov rdi, rbx
  .test (.reg .rcx) (.reg .rdx), -- 967: test rcx, rdx
  .cmov .zr .r8 (.reg .rbp), -- 968: cmove r8, rbp
  .cmov .zr .rdi (.reg .rbp), -- 969: cmove rdi, rbp
  .sar (.reg .rcx) (.imm 1#64), -- 970: sar rcx, 1
  .xor (.reg .rdi) (.reg .r8), -- 971: xor rdi, r8
  .xor (.reg .rsi) (.reg .r8), -- 972: xor rsi, r8
  .bt (.reg .r8) 63#64, -- 973: bt r8, 0x3f
  .cmov .cy .rbx (.reg .rcx), -- 974: cmovb rbx, rcx
  .mov (.reg .r8) (.reg .rax), -- 975: mov r8, rax
  .sub (.reg .rsi) (.reg .rax), -- 976: sub rsi, rax
  .lea .rcx ⟨some .rcx, some (.rdi, 1#64), 0#64⟩, -- 977: lea rcx, [rcx + rdi]
  .cmov .sg .r8 (.reg .rbp), -- 978: cmovs r8, rbp
  .mov (.reg .rdi) (.reg .rbx), -- 979: mov rdi, rbx
  .test (.reg .rcx) (.reg .rdx), -- 980: test rcx, rdx
  .cmov .zr .r8 (.reg .rbp), -- 981: cmove r8, rbp
  .cmov .zr .rdi (.reg .rbp), -- 982: cmove rdi, rbp
  .sar (.reg .rcx) (.imm 1#64), -- 983: sar rcx, 1
  .xor (.reg .rdi) (.reg .r8), -- 984: xor rdi, r8
  .xor (.reg .rsi) (.reg .r8), -- 985: xor rsi, r8
  .bt (.reg .r8) 63#64, -- 986: bt r8, 0x3f
  .cmov .cy .rbx (.reg .rcx), -- 987: cmovb rbx, rcx
  .mov (.reg .r8) (.reg .rax), -- 988: mov r8, rax
  .sub (.reg .rsi) (.reg .rax), -- 989: sub rsi, rax
  .lea .rcx ⟨some .rcx, some (.rdi, 1#64), 0#64⟩, -- 990: lea rcx, [rcx + rdi]
  .cmov .sg .r8 (.reg .rbp), -- 991: cmovs r8, rbp
  .mov (.reg .rdi) (.reg .rbx), -- 992: mov rdi, rbx
  .test (.reg .rcx) (.reg .rdx), -- 993: test rcx, rdx
  .cmov .zr .r8 (.reg .rbp), -- 994: cmove r8, rbp
  .cmov .zr .rdi (.reg .rbp), -- 995: cmove rdi, rbp
  .sar (.reg .rcx) (.imm 1#64), -- 996: sar rcx, 1
  .xor (.reg .rdi) (.reg .r8), -- 997: xor rdi, r8
  .xor (.reg .rsi) (.reg .r8), -- 998: xor rsi, r8
  .bt (.reg .r8) 63#64, -- 999: bt r8, 0x3f
  .cmov .cy .rbx (.reg .rcx), -- 1000: cmovb rbx, rcx
  .mov (.reg .r8) (.reg .rax), -- 1001: mov r8, rax
  .sub (.reg .rsi) (.reg .rax), -- 1002: sub rsi, rax
  .lea .rcx ⟨some .rcx, some (.rdi, 1#64), 0#64⟩, -- 1003: lea rcx, [rcx + rdi]
  .cmov .sg .r8 (.reg .rbp), -- 1004: cmovs r8, rbp
  .mov (.reg .rdi) (.reg .rbx), -- 1005: mov rdi, rbx
  .test (.reg .rcx) (.reg .rdx), -- 1006: test rcx, rdx
  .cmov .zr .r8 (.reg .rbp), -- 1007: cmove r8, rbp
  .cmov .zr .rdi (.reg .rbp), -- 1008: cmove rdi, rbp
  .sar (.reg .rcx) (.imm 1#64), -- 1009: sar rcx, 1
  .xor (.reg .rdi) (.reg .r8), -- 1010: xor rdi, r8
  .xor (.reg .rsi) (.reg .r8), -- 1011: xor rsi, r8
  .bt (.reg .r8) 63#64, -- 1012: bt r8, 0x3f
  .cmov .cy .rbx (.reg .rcx), -- 1013: cmovb rbx, rcx
  .mov (.reg .r8) (.reg .rax), -- 1014: mov r8, rax
  .sub (.reg .rsi) (.reg .rax), -- 1015: sub rsi, rax
  .lea .rcx ⟨some .rcx, some (.rdi, 1#64), 0#64⟩, -- 1016: lea rcx, [rcx + rdi]
  .cmov .sg .r8 (.reg .rbp), -- 1017: cmovs r8, rbp
  .mov (.reg .rdi) (.reg .rbx), -- 1018: mov rdi, rbx
  .test (.reg .rcx) (.reg .rdx), -- 1019: test rcx, rdx
  .cmov .zr .r8 (.reg .rbp), -- 1020: cmove r8, rbp
  .cmov .zr .rdi (.reg .rbp), -- 1021: cmove rdi, rbp
  .sar (.reg .rcx) (.imm 1#64), -- 1022: sar rcx, 1
  .xor (.reg .rdi) (.reg .r8), -- 1023: xor rdi, r8
  .xor (.reg .rsi) (.reg .r8), -- 1024: xor rsi, r8
  .bt (.reg .r8) 63#64, -- 1025: bt r8, 0x3f
  .cmov .cy .rbx (.reg .rcx), -- 1026: cmovb rbx, rcx
  .mov (.reg .r8) (.reg .rax), -- 1027: mov r8, rax
  .sub (.reg .rsi) (.reg .rax), -- 1028: sub rsi, rax
  .lea .rcx ⟨some .rcx, some (.rdi, 1#64), 0#64⟩, -- 1029: lea rcx, [rcx + rdi]
  .cmov .sg .r8 (.reg .rbp), -- 1030: cmovs r8, rbp
  .mov (.reg .rdi) (.reg .rbx), -- 1031: mov rdi, rbx
  .test (.reg .rcx) (.reg .rdx), -- 1032: test rcx, rdx
  .cmov .zr .r8 (.reg .rbp), -- 1033: cmove r8, rbp
  .cmov .zr .rdi (.reg .rbp), -- 1034: cmove rdi, rbp
  .sar (.reg .rcx) (.imm 1#64), -- 1035: sar rcx, 1
  .xor (.reg .rdi) (.reg .r8), -- 1036: xor rdi, r8
  .xor (.reg .rsi) (.reg .r8), -- 1037: xor rsi, r8
  .bt (.reg .r8) 63#64, -- 1038: bt r8, 0x3f
  .cmov .cy .rbx (.reg .rcx), -- 1039: cmovb rbx, rcx
  .mov (.reg .r8) (.reg .rax), -- 1040: mov r8, rax
  .sub (.reg .rsi) (.reg .rax), -- 1041: sub rsi, rax
  .lea .rcx ⟨some .rcx, some (.rdi, 1#64), 0#64⟩, -- 1042: lea rcx, [rcx + rdi]
  .cmov .sg .r8 (.reg .rbp), -- 1043: cmovs r8, rbp
  .mov (.reg .rdi) (.reg .rbx), -- 1044: mov rdi, rbx
  .test (.reg .rcx) (.reg .rdx), -- 1045: test rcx, rdx
  .cmov .zr .r8 (.reg .rbp), -- 1046: cmove r8, rbp
  .cmov .zr .rdi (.reg .rbp), -- 1047: cmove rdi, rbp
  .sar (.reg .rcx) (.imm 1#64), -- 1048: sar rcx, 1
  .xor (.reg .rdi) (.reg .r8), -- 1049: xor rdi, r8
  .xor (.reg .rsi) (.reg .r8), -- 1050: xor rsi, r8
  .bt (.reg .r8) 63#64, -- 1051: bt r8, 0x3f
  .cmov .cy .rbx (.reg .rcx), -- 1052: cmovb rbx, rcx
  .mov (.reg .r8) (.reg .rax), -- 1053: mov r8, rax
  .sub (.reg .rsi) (.reg .rax), -- 1054: sub rsi, rax
  .lea .rcx ⟨some .rcx, some (.rdi, 1#64), 0#64⟩, -- 1055: lea rcx, [rcx + rdi]
  .cmov .sg .r8 (.reg .rbp), -- 1056: cmovs r8, rbp
  .mov (.reg .rdi) (.reg .rbx), -- 1057: mov rdi, rbx
  .test (.reg .rcx) (.reg .rdx), -- 1058: test rcx, rdx
  .cmov .zr .r8 (.reg .rbp), -- 1059: cmove r8, rbp
  .cmov .zr .rdi (.reg .rbp), -- 1060: cmove rdi, rbp
  .sar (.reg .rcx) (.imm 1#64), -- 1061: sar rcx, 1
  .xor (.reg .rdi) (.reg .r8), -- 1062: xor rdi, r8
  .xor (.reg .rsi) (.reg .r8), -- 1063: xor rsi, r8
  .bt (.reg .r8) 63#64, -- 1064: bt r8, 0x3f
  .cmov .cy .rbx (.reg .rcx), -- 1065: cmovb rbx, rcx
  .mov (.reg .r8) (.reg .rax), -- 1066: mov r8, rax
  .sub (.reg .rsi) (.reg .rax), -- 1067: sub rsi, rax
  .lea .rcx ⟨some .rcx, some (.rdi, 1#64), 0#64⟩, -- 1068: lea rcx, [rcx + rdi]
  .cmov .sg .r8 (.reg .rbp), -- 1069: cmovs r8, rbp
  .mov (.reg .rdi) (.reg .rbx), -- 1070: mov rdi, rbx
  .test (.reg .rcx) (.reg .rdx), -- 1071: test rcx, rdx
  .cmov .zr .r8 (.reg .rbp), -- 1072: cmove r8, rbp
  .cmov .zr .rdi (.reg .rbp), -- 1073: cmove rdi, rbp
  .sar (.reg .rcx) (.imm 1#64), -- 1074: sar rcx, 1
  .xor (.reg .rdi) (.reg .r8), -- 1075: xor rdi, r8
  .xor (.reg .rsi) (.reg .r8), -- 1076: xor rsi, r8
  .bt (.reg .r8) 63#64, -- 1077: bt r8, 0x3f
  .cmov .cy .rbx (.reg .rcx), -- 1078: cmovb rbx, rcx
  .mov (.reg .r8) (.reg .rax), -- 1079: mov r8, rax
  .sub (.reg .rsi) (.reg .rax), -- 1080: sub rsi, rax
  .lea .rcx ⟨some .rcx, some (.rdi, 1#64), 0#64⟩, -- 1081: lea rcx, [rcx + rdi]
  .cmov .sg .r8 (.reg .rbp), -- 1082: cmovs r8, rbp
  .mov (.reg .rdi) (.reg .rbx), -- 1083: mov rdi, rbx
  .test (.reg .rcx) (.reg .rdx), -- 1084: test rcx, rdx
  .cmov .zr .r8 (.reg .rbp), -- 1085: cmove r8, rbp
  .cmov .zr .rdi (.reg .rbp), -- 1086: cmove rdi, rbp
  .sar (.reg .rcx) (.imm 1#64), -- 1087: sar rcx, 1
  .xor (.reg .rdi) (.reg .r8), -- 1088: xor rdi, r8
  .xor (.reg .rsi) (.reg .r8), -- 1089: xor rsi, r8
  .bt (.reg .r8) 63#64, -- 1090: bt r8, 0x3f
  .cmov .cy .rbx (.reg .rcx), -- 1091: cmovb rbx, rcx
  .mov (.reg .r8) (.reg .rax), -- 1092: mov r8, rax
  .sub (.reg .rsi) (.reg .rax), -- 1093: sub rsi, rax
  .lea .rcx ⟨some .rcx, some (.rdi, 1#64), 0#64⟩, -- 1094: lea rcx, [rcx + rdi]
  .cmov .sg .r8 (.reg .rbp), -- 1095: cmovs r8, rbp
  .mov (.reg .rdi) (.reg .rbx), -- 1096: mov rdi, rbx
  .test (.reg .rcx) (.reg .rdx), -- 1097: test rcx, rdx
  .cmov .zr .r8 (.reg .rbp), -- 1098: cmove r8, rbp
  .cmov .zr .rdi (.reg .rbp), -- 1099: cmove rdi, rbp
  .sar (.reg .rcx) (.imm 1#64), -- 1100: sar rcx, 1
  .xor (.reg .rdi) (.reg .r8), -- 1101: xor rdi, r8
  .xor (.reg .rsi) (.reg .r8), -- 1102: xor rsi, r8
  .bt (.reg .r8) 63#64, -- 1103: bt r8, 0x3f
  .cmov .cy .rbx (.reg .rcx), -- 1104: cmovb rbx, rcx
  .mov (.reg .r8) (.reg .rax), -- 1105: mov r8, rax
  .sub (.reg .rsi) (.reg .rax), -- 1106: sub rsi, rax
  .lea .rcx ⟨some .rcx, some (.rdi, 1#64), 0#64⟩, -- 1107: lea rcx, [rcx + rdi]
  .sar (.reg .rcx) (.imm 1#64), -- 1108: sar rcx, 1
  .mov (.reg .rax) (.imm 0x100000#64), -- 1109: mov eax, 0x100000
  .lea .r8 ⟨some .rbx, some (.rax, 1#64), 0#64⟩, -- 1110: lea r8, [rbx + rax]
  .lea .r10 ⟨some .rcx, some (.rax, 1#64), 0#64⟩, -- 1111: lea r10, [rcx + rax]
  .shl (.reg .r8) (.imm 22#64), -- 1112: shl r8, 0x16
  .shl (.reg .r10) (.imm 22#64), -- 1113: shl r10, 0x16
  .sar (.reg .r8) (.imm 43#64), -- 1114: sar r8, 0x2b
  .sar (.reg .r10) (.imm 43#64), -- 1115: sar r10, 0x2b
  .mov (.reg .rax) (.imm 0x20000100000#64), -- 1116: movabs rax, 0x20000100000
  .lea .r15 ⟨some .rbx, some (.rax, 1#64), 0#64⟩, -- 1117: lea r15, [rbx + rax]
  .lea .r11 ⟨some .rcx, some (.rax, 1#64), 0#64⟩, -- 1118: lea r11, [rcx + rax]
  .sar (.reg .r15) (.imm 42#64), -- 1119: sar r15, 0x2a
  .sar (.reg .r11) (.imm 42#64), -- 1120: sar r11, 0x2a
  .mov (.reg .rbx) (.reg .r13), -- 1121: mov rbx, r13
  .mov (.reg .rcx) (.reg .r12), -- 1122: mov rcx, r12
  .imul .r12 (.reg .r8), -- 1123: imul r12, r8
  .imul .rbx (.reg .r15), -- 1124: imul rbx, r15
  .add (.reg .r12) (.reg .rbx), -- 1125: add r12, rbx
  .imul .r13 (.reg .r11), -- 1126: imul r13, r11
  .imul .rcx (.reg .r10), -- 1127: imul rcx, r10
  .add (.reg .r13) (.reg .rcx), -- 1128: add r13, rcx
  .sar (.reg .r12) (.imm 20#64), -- 1129: sar r12, 0x14
  .sar (.reg .r13) (.imm 20#64), -- 1130: sar r13, 0x14
  .mov (.reg .rbx) (.reg .r12), -- 1131: mov rbx, r12
  .and (.reg .rbx) (.imm 0xfffff#64), -- 1132: and rbx, 0xfffff
  .mov (.reg .rax) (.imm 0xfffffe0000000000#64), -- 1133: movabs rax, 0xfffffe0000000000
  .or (.reg .rbx) (.reg .rax), -- 1134: or rbx, rax
  .mov (.reg .rcx) (.reg .r13), -- 1135: mov rcx, r13
  .and (.reg .rcx) (.imm 0xfffff#64), -- 1136: and rcx, 0xfffff
  .mov (.reg .rax) (.imm 0xc000000000000000#64), -- 1137: movabs rax, 0xc000000000000000
  .or (.reg .rcx) (.reg .rax), -- 1138: or rcx, rax
  .mov (.reg .rax) (.mem ⟨some .rsp, none, 288#64⟩), -- 1139: mov rax, [rsp + (36 * 8)]
  .imul .rax (.reg .r8), -- 1140: imul rax, r8
  .mov (.reg .rdx) (.mem ⟨some .rsp, none, 304#64⟩), -- 1141: mov rdx, [rsp + (36 * 8)+ 0x10]
  .imul .rdx (.reg .r15), -- 1142: imul rdx, r15
  .imul .r8 (.mem ⟨some .rsp, none, 296#64⟩), -- 1143: imul r8, [rsp + (36 * 8)+ 0x8]
  .imul .r15 (.mem ⟨some .rsp, none, 312#64⟩), -- 1144: imul r15, [rsp + (36 * 8)+ 0x18]
  .add (.reg .r15) (.reg .r8), -- 1145: add r15, r8
  .lea .r9 ⟨some .rax, some (.rdx, 1#64), 0#64⟩, -- 1146: lea r9, [rax + rdx]
  .mov (.reg .rax) (.mem ⟨some .rsp, none, 288#64⟩), -- 1147: mov rax, [rsp + (36 * 8)]
  .imul .rax (.reg .r10), -- 1148: imul rax, r10
  .mov (.reg .rdx) (.mem ⟨some .rsp, none, 304#64⟩), -- 1149: mov rdx, [rsp + (36 * 8)+ 0x10]
  .imul .rdx (.reg .r11), -- 1150: imul rdx, r11
  .imul .r10 (.mem ⟨some .rsp, none, 296#64⟩), -- 1151: imul r10, [rsp + (36 * 8)+ 0x8]
  .imul .r11 (.mem ⟨some .rsp, none, 312#64⟩), -- 1152: imul r11, [rsp + (36 * 8)+ 0x18]
  .add (.reg .r11) (.reg .r10), -- 1153: add r11, r10
  .lea .r13 ⟨some .rax, some (.rdx, 1#64), 0#64⟩, -- 1154: lea r13, [rax + rdx]
  .mov (.reg .rax) (.imm 0xfffffffffffffffe#64), -- 1155: mov rax, 0xfffffffffffffffe
  .mov (.reg .rdx) (.imm 2#64), -- 1156: mov edx, 0x2
  .mov (.reg .rdi) (.reg .rbx), -- 1157: mov rdi, rbx
  .mov (.reg .r8) (.reg .rax), -- 1158: mov r8, rax
  .test (.reg .rsi) (.reg .rsi), -- 1159: test rsi, rsi
  .cmov .sg .r8 (.reg .rbp), -- 1160: cmovs r8, rbp
  .test (.reg .rcx) (.imm 1#64), -- 1161: test rcx, 0x1
  .cmov .zr .r8 (.reg .rbp), -- 1162: cmove r8, rbp
  .cmov .zr .rdi (.reg .rbp), -- 1163: cmove rdi, rbp
  .xor (.reg .rdi) (.reg .r8), -- 1164: xor rdi, r8
  .xor (.reg .rsi) (.reg .r8), -- 1165: xor rsi, r8
  .bt (.reg .r8) 63#64, -- 1166: bt r8, 0x3f
  .cmov .cy .rbx (.reg .rcx), -- 1167: cmovb rbx, rcx
  .mov (.reg .r8) (.reg .rax), -- 1168: mov r8, rax
  .sub (.reg .rsi) (.reg .rax), -- 1169: sub rsi, rax
  .lea .rcx ⟨some .rcx, some (.rdi, 1#64), 0#64⟩, -- 1170: lea rcx, [rcx + rdi]
  .cmov .sg .r8 (.reg .rbp), -- 1171: cmovs r8, rbp
  .mov (.reg .rdi) (.reg .rbx), -- 1172: mov rdi, rbx
  .test (.reg .rcx) (.reg .rdx), -- 1173: test rcx, rdx
  .cmov .zr .r8 (.reg .rbp), -- 1174: cmove r8, rbp
  .cmov .zr .rdi (.reg .rbp), -- 1175: cmove rdi, rbp
  .sar (.reg .rcx) (.imm 1#64), -- 1176: sar rcx, 1
  .xor (.reg .rdi) (.reg .r8), -- 1177: xor rdi, r8
  .xor (.reg .rsi) (.reg .r8), -- 1178: xor rsi, r8
  .bt (.reg .r8) 63#64, -- 1179: bt r8, 0x3f
  .cmov .cy .rbx (.reg .rcx), -- 1180: cmovb rbx, rcx
  .mov (.reg .r8) (.reg .rax), -- 1181: mov r8, rax
  .sub (.reg .rsi) (.reg .rax), -- 1182: sub rsi, rax
  .lea .rcx ⟨some .rcx, some (.rdi, 1#64), 0#64⟩, -- 1183: lea rcx, [rcx + rdi]
  .cmov .sg .r8 (.reg .rbp), -- 1184: cmovs r8, rbp
  .mov (.reg .rdi) (.reg .rbx), -- 1185: mov rdi, rbx
  .test (.reg .rcx) (.reg .rdx), -- 1186: test rcx, rdx
  .cmov .zr .r8 (.reg .rbp), -- 1187: cmove r8, rbp
  .cmov .zr .rdi (.reg .rbp), -- 1188: cmove rdi, rbp
  .sar (.reg .rcx) (.imm 1#64), -- 1189: sar rcx, 1
  .xor (.reg .rdi) (.reg .r8), -- 1190: xor rdi, r8
  .xor (.reg .rsi) (.reg .r8), -- 1191: xor rsi, r8
  .bt (.reg .r8) 63#64, -- 1192: bt r8, 0x3f
  .cmov .cy .rbx (.reg .rcx), -- 1193: cmovb rbx, rcx
  .mov (.reg .r8) (.reg .rax), -- 1194: mov r8, rax
  .sub (.reg .rsi) (.reg .rax), -- 1195: sub rsi, rax
  .lea .rcx ⟨some .rcx, some (.rdi, 1#64), 0#64⟩, -- 1196: lea rcx, [rcx + rdi]
  .cmov .sg .r8 (.reg .rbp), -- 1197: cmovs r8, rbp
  .mov (.reg .rdi) (.reg .rbx), -- 1198: mov rdi, rbx
  .test (.reg .rcx) (.reg .rdx), -- 1199: test rcx, rdx
  .cmov .zr .r8 (.reg .rbp), -- 1200: cmove r8, rbp
  .cmov .zr .rdi (.reg .rbp), -- 1201: cmove rdi, rbp
  .sar (.reg .rcx) (.imm 1#64), -- 1202: sar rcx, 1
  .xor (.reg .rdi) (.reg .r8), -- 1203: xor rdi, r8
  .xor (.reg .rsi) (.reg .r8), -- 1204: xor rsi, r8
  .bt (.reg .r8) 63#64, -- 1205: bt r8, 0x3f
  .cmov .cy .rbx (.reg .rcx), -- 1206: cmovb rbx, rcx
  .mov (.reg .r8) (.reg .rax), -- 1207: mov r8, rax
  .sub (.reg .rsi) (.reg .rax), -- 1208: sub rsi, rax
  .lea .rcx ⟨some .rcx, some (.rdi, 1#64), 0#64⟩, -- 1209: lea rcx, [rcx + rdi]
  .cmov .sg .r8 (.reg .rbp), -- 1210: cmovs r8, rbp
  .mov (.reg .rdi) (.reg .rbx), -- 1211: mov rdi, rbx
  .test (.reg .rcx) (.reg .rdx), -- 1212: test rcx, rdx
  .cmov .zr .r8 (.reg .rbp), -- 1213: cmove r8, rbp
  .cmov .zr .rdi (.reg .rbp), -- 1214: cmove rdi, rbp
  .sar (.reg .rcx) (.imm 1#64), -- 1215: sar rcx, 1
  .xor (.reg .rdi) (.reg .r8), -- 1216: xor rdi, r8
  .xor (.reg .rsi) (.reg .r8), -- 1217: xor rsi, r8
  .bt (.reg .r8) 63#64, -- 1218: bt r8, 0x3f
  .cmov .cy .rbx (.reg .rcx), -- 1219: cmovb rbx, rcx
  .mov (.reg .r8) (.reg .rax), -- 1220: mov r8, rax
  .sub (.reg .rsi) (.reg .rax), -- 1221: sub rsi, rax
  .lea .rcx ⟨some .rcx, some (.rdi, 1#64), 0#64⟩, -- 1222: lea rcx, [rcx + rdi]
  .cmov .sg .r8 (.reg .rbp), -- 1223: cmovs r8, rbp
  .mov (.reg .rdi) (.reg .rbx), -- 1224: mov rdi, rbx
  .test (.reg .rcx) (.reg .rdx), -- 1225: test rcx, rdx
  .cmov .zr .r8 (.reg .rbp), -- 1226: cmove r8, rbp
  .cmov .zr .rdi (.reg .rbp), -- 1227: cmove rdi, rbp
  .sar (.reg .rcx) (.imm 1#64), -- 1228: sar rcx, 1
  .xor (.reg .rdi) (.reg .r8), -- 1229: xor rdi, r8
  .xor (.reg .rsi) (.reg .r8), -- 1230: xor rsi, r8
  .bt (.reg .r8) 63#64, -- 1231: bt r8, 0x3f
  .cmov .cy .rbx (.reg .rcx), -- 1232: cmovb rbx, rcx
  .mov (.reg .r8) (.reg .rax), -- 1233: mov r8, rax
  .sub (.reg .rsi) (.reg .rax), -- 1234: sub rsi, rax
  .lea .rcx ⟨some .rcx, some (.rdi, 1#64), 0#64⟩, -- 1235: lea rcx, [rcx + rdi]
  .cmov .sg .r8 (.reg .rbp), -- 1236: cmovs r8, rbp
  .mov (.reg .rdi) (.reg .rbx), -- 1237: mov rdi, rbx
  .test (.reg .rcx) (.reg .rdx), -- 1238: test rcx, rdx
  .cmov .zr .r8 (.reg .rbp), -- 1239: cmove r8, rbp
  .cmov .zr .rdi (.reg .rbp), -- 1240: cmove rdi, rbp
  .sar (.reg .rcx) (.imm 1#64), -- 1241: sar rcx, 1
  .xor (.reg .rdi) (.reg .r8), -- 1242: xor rdi, r8
  .xor (.reg .rsi) (.reg .r8), -- 1243: xor rsi, r8
  .bt (.reg .r8) 63#64, -- 1244: bt r8, 0x3f
  .cmov .cy .rbx (.reg .rcx), -- 1245: cmovb rbx, rcx
  .mov (.reg .r8) (.reg .rax), -- 1246: mov r8, rax
  .sub (.reg .rsi) (.reg .rax), -- 1247: sub rsi, rax
  .lea .rcx ⟨some .rcx, some (.rdi, 1#64), 0#64⟩, -- 1248: lea rcx, [rcx + rdi]
  .cmov .sg .r8 (.reg .rbp), -- 1249: cmovs r8, rbp
  .mov (.reg .rdi) (.reg .rbx), -- 1250: mov rdi, rbx
  .test (.reg .rcx) (.reg .rdx), -- 1251: test rcx, rdx
  .cmov .zr .r8 (.reg .rbp), -- 1252: cmove r8, rbp
  .cmov .zr .rdi (.reg .rbp), -- 1253: cmove rdi, rbp
  .sar (.reg .rcx) (.imm 1#64), -- 1254: sar rcx, 1
  .xor (.reg .rdi) (.reg .r8), -- 1255: xor rdi, r8
  .xor (.reg .rsi) (.reg .r8), -- 1256: xor rsi, r8
  .bt (.reg .r8) 63#64, -- 1257: bt r8, 0x3f
  .cmov .cy .rbx (.reg .rcx), -- 1258: cmovb rbx, rcx
  .mov (.reg .r8) (.reg .rax), -- 1259: mov r8, rax
  .sub (.reg .rsi) (.reg .rax), -- 1260: sub rsi, rax
  .lea .rcx ⟨some .rcx, some (.rdi, 1#64), 0#64⟩, -- 1261: lea rcx, [rcx + rdi]
  .cmov .sg .r8 (.reg .rbp), -- 1262: cmovs r8, rbp
  .mov (.reg .rdi) (.reg .rbx), -- 1263: mov rdi, rbx
  .test (.reg .rcx) (.reg .rdx), -- 1264: test rcx, rdx
  .cmov .zr .r8 (.reg .rbp), -- 1265: cmove r8, rbp
  .cmov .zr .rdi (.reg .rbp), -- 1266: cmove rdi, rbp
  .sar (.reg .rcx) (.imm 1#64), -- 1267: sar rcx, 1
  .xor (.reg .rdi) (.reg .r8), -- 1268: xor rdi, r8
  .xor (.reg .rsi) (.reg .r8), -- 1269: xor rsi, r8
  .bt (.reg .r8) 63#64, -- 1270: bt r8, 0x3f
  .cmov .cy .rbx (.reg .rcx), -- 1271: cmovb rbx, rcx
  .mov (.reg .r8) (.reg .rax), -- 1272: mov r8, rax
  .sub (.reg .rsi) (.reg .rax), -- 1273: sub rsi, rax
  .lea .rcx ⟨some .rcx, some (.rdi, 1#64), 0#64⟩, -- 1274: lea rcx, [rcx + rdi]
  .cmov .sg .r8 (.reg .rbp), -- 1275: cmovs r8, rbp
  .mov (.reg .rdi) (.reg .rbx), -- 1276: mov rdi, rbx
  .test (.reg .rcx) (.reg .rdx), -- 1277: test rcx, rdx
  .cmov .zr .r8 (.reg .rbp), -- 1278: cmove r8, rbp
  .cmov .zr .rdi (.reg .rbp), -- 1279: cmove rdi, rbp
  .sar (.reg .rcx) (.imm 1#64), -- 1280: sar rcx, 1
  .xor (.reg .rdi) (.reg .r8), -- 1281: xor rdi, r8
  .xor (.reg .rsi) (.reg .r8), -- 1282: xor rsi, r8
  .bt (.reg .r8) 63#64, -- 1283: bt r8, 0x3f
  .cmov .cy .rbx (.reg .rcx), -- 1284: cmovb rbx, rcx
  .mov (.reg .r8) (.reg .rax), -- 1285: mov r8, rax
  .sub (.reg .rsi) (.reg .rax), -- 1286: sub rsi, rax
  .lea .rcx ⟨some .rcx, some (.rdi, 1#64), 0#64⟩, -- 1287: lea rcx, [rcx + rdi]
  .cmov .sg .r8 (.reg .rbp), -- 1288: cmovs r8, rbp
  .mov (.reg .rdi) (.reg .rbx), -- 1289: mov rdi, rbx
  .test (.reg .rcx) (.reg .rdx), -- 1290: test rcx, rdx
  .cmov .zr .r8 (.reg .rbp), -- 1291: cmove r8, rbp
  .cmov .zr .rdi (.reg .rbp), -- 1292: cmove rdi, rbp
  .sar (.reg .rcx) (.imm 1#64), -- 1293: sar rcx, 1
  .xor (.reg .rdi) (.reg .r8), -- 1294: xor rdi, r8
  .xor (.reg .rsi) (.reg .r8), -- 1295: xor rsi, r8
  .bt (.reg .r8) 63#64, -- 1296: bt r8, 0x3f
  .cmov .cy .rbx (.reg .rcx), -- 1297: cmovb rbx, rcx
  .mov (.reg .r8) (.reg .rax), -- 1298: mov r8, rax
  .sub (.reg .rsi) (.reg .rax), -- 1299: sub rsi, rax
  .lea .rcx ⟨some .rcx, some (.rdi, 1#64), 0#64⟩, -- 1300: lea rcx, [rcx + rdi]
  .cmov .sg .r8 (.reg .rbp), -- 1301: cmovs r8, rbp
  .mov (.reg .rdi) (.reg .rbx), -- 1302: mov rdi, rbx
  .test (.reg .rcx) (.reg .rdx), -- 1303: test rcx, rdx
  .cmov .zr .r8 (.reg .rbp), -- 1304: cmove r8, rbp
  .cmov .zr .rdi (.reg .rbp), -- 1305: cmove rdi, rbp
  .sar (.reg .rcx) (.imm 1#64), -- 1306: sar rcx, 1
  .xor (.reg .rdi) (.reg .r8), -- 1307: xor rdi, r8
  .xor (.reg .rsi) (.reg .r8), -- 1308: xor rsi, r8
  .bt (.reg .r8) 63#64, -- 1309: bt r8, 0x3f
  .cmov .cy .rbx (.reg .rcx), -- 1310: cmovb rbx, rcx
  .mov (.reg .r8) (.reg .rax), -- 1311: mov r8, rax
  .sub (.reg .rsi) (.reg .rax), -- 1312: sub rsi, rax
  .lea .rcx ⟨some .rcx, some (.rdi, 1#64), 0#64⟩, -- 1313: lea rcx, [rcx + rdi]
  .cmov .sg .r8 (.reg .rbp), -- 1314: cmovs r8, rbp
  .mov (.reg .rdi) (.reg .rbx), -- 1315: mov rdi, rbx
  .test (.reg .rcx) (.reg .rdx), -- 1316: test rcx, rdx
  .cmov .zr .r8 (.reg .rbp), -- 1317: cmove r8, rbp
  .cmov .zr .rdi (.reg .rbp), -- 1318: cmove rdi, rbp
  .sar (.reg .rcx) (.imm 1#64), -- 1319: sar rcx, 1
  .xor (.reg .rdi) (.reg .r8), -- 1320: xor rdi, r8
  .xor (.reg .rsi) (.reg .r8), -- 1321: xor rsi, r8
  .bt (.reg .r8) 63#64, -- 1322: bt r8, 0x3f
  .cmov .cy .rbx (.reg .rcx), -- 1323: cmovb rbx, rcx
  .mov (.reg .r8) (.reg .rax), -- 1324: mov r8, rax
  .sub (.reg .rsi) (.reg .rax), -- 1325: sub rsi, rax
  .lea .rcx ⟨some .rcx, some (.rdi, 1#64), 0#64⟩, -- 1326: lea rcx, [rcx + rdi]
  .cmov .sg .r8 (.reg .rbp), -- 1327: cmovs r8, rbp
  .mov (.reg .rdi) (.reg .rbx), -- 1328: mov rdi, rbx
  .test (.reg .rcx) (.reg .rdx), -- 1329: test rcx, rdx
  .cmov .zr .r8 (.reg .rbp), -- 1330: cmove r8, rbp
  .cmov .zr .rdi (.reg .rbp), -- 1331: cmove rdi, rbp
  .sar (.reg .rcx) (.imm 1#64), -- 1332: sar rcx, 1
  .xor (.reg .rdi) (.reg .r8), -- 1333: xor rdi, r8
  .xor (.reg .rsi) (.reg .r8), -- 1334: xor rsi, r8
  .bt (.reg .r8) 63#64, -- 1335: bt r8, 0x3f
  .cmov .cy .rbx (.reg .rcx), -- 1336: cmovb rbx, rcx
  .mov (.reg .r8) (.reg .rax), -- 1337: mov r8, rax
  .sub (.reg .rsi) (.reg .rax), -- 1338: sub rsi, rax
  .lea .rcx ⟨some .rcx, some (.rdi, 1#64), 0#64⟩, -- 1339: lea rcx, [rcx + rdi]
  .cmov .sg .r8 (.reg .rbp), -- 1340: cmovs r8, rbp
  .mov (.reg .rdi) (.reg .rbx), -- 1341: mov rdi, rbx
  .test (.reg .rcx) (.reg .rdx), -- 1342: test rcx, rdx
  .cmov .zr .r8 (.reg .rbp), -- 1343: cmove r8, rbp
  .cmov .zr .rdi (.reg .rbp), -- 1344: cmove rdi, rbp
  .sar (.reg .rcx) (.imm 1#64), -- 1345: sar rcx, 1
  .xor (.reg .rdi) (.reg .r8), -- 1346: xor rdi, r8
  .xor (.reg .rsi) (.reg .r8), -- 1347: xor rsi, r8
  .bt (.reg .r8) 63#64, -- 1348: bt r8, 0x3f
  .cmov .cy .rbx (.reg .rcx), -- 1349: cmovb rbx, rcx
  .mov (.reg .r8) (.reg .rax), -- 1350: mov r8, rax
  .sub (.reg .rsi) (.reg .rax), -- 1351: sub rsi, rax
  .lea .rcx ⟨some .rcx, some (.rdi, 1#64), 0#64⟩, -- 1352: lea rcx, [rcx + rdi]
  .cmov .sg .r8 (.reg .rbp), -- 1353: cmovs r8, rbp
  .mov (.reg .rdi) (.reg .rbx), -- 1354: mov rdi, rbx
  .test (.reg .rcx) (.reg .rdx), -- 1355: test rcx, rdx
  .cmov .zr .r8 (.reg .rbp), -- 1356: cmove r8, rbp
  .cmov .zr .rdi (.reg .rbp), -- 1357: cmove rdi, rbp
  .sar (.reg .rcx) (.imm 1#64), -- 1358: sar rcx, 1
  .xor (.reg .rdi) (.reg .r8), -- 1359: xor rdi, r8
  .xor (.reg .rsi) (.reg .r8), -- 1360: xor rsi, r8
  .bt (.reg .r8) 63#64, -- 1361: bt r8, 0x3f
  .cmov .cy .rbx (.reg .rcx), -- 1362: cmovb rbx, rcx
  .mov (.reg .r8) (.reg .rax), -- 1363: mov r8, rax
  .sub (.reg .rsi) (.reg .rax), -- 1364: sub rsi, rax
  .lea .rcx ⟨some .rcx, some (.rdi, 1#64), 0#64⟩, -- 1365: lea rcx, [rcx + rdi]
  .cmov .sg .r8 (.reg .rbp), -- 1366: cmovs r8, rbp
  .mov (.reg .rdi) (.reg .rbx), -- 1367: mov rdi, rbx
  .test (.reg .rcx) (.reg .rdx), -- 1368: test rcx, rdx
  .cmov .zr .r8 (.reg .rbp), -- 1369: cmove r8, rbp
  .cmov .zr .rdi (.reg .rbp), -- 1370: cmove rdi, rbp
  .sar (.reg .rcx) (.imm 1#64), -- 1371: sar rcx, 1
  .xor (.reg .rdi) (.reg .r8), -- 1372: xor rdi, r8
  .xor (.reg .rsi) (.reg .r8), -- 1373: xor rsi, r8
  .bt (.reg .r8) 63#64, -- 1374: bt r8, 0x3f
  .cmov .cy .rbx (.reg .rcx), -- 1375: cmovb rbx, rcx
  .mov (.reg .r8) (.reg .rax), -- 1376: mov r8, rax
  .sub (.reg .rsi) (.reg .rax), -- 1377: sub rsi, rax
  .lea .rcx ⟨some .rcx, some (.rdi, 1#64), 0#64⟩, -- 1378: lea rcx, [rcx + rdi]
  .cmov .sg .r8 (.reg .rbp), -- 1379: cmovs r8, rbp
  .mov (.reg .rdi) (.reg .rbx), -- 1380: mov rdi, rbx
  .test (.reg .rcx) (.reg .rdx), -- 1381: test rcx, rdx
  .cmov .zr .r8 (.reg .rbp), -- 1382: cmove r8, rbp
  .cmov .zr .rdi (.reg .rbp), -- 1383: cmove rdi, rbp
  .sar (.reg .rcx) (.imm 1#64), -- 1384: sar rcx, 1
  .xor (.reg .rdi) (.reg .r8), -- 1385: xor rdi, r8
  .xor (.reg .rsi) (.reg .r8), -- 1386: xor rsi, r8
  .bt (.reg .r8) 63#64, -- 1387: bt r8, 0x3f
  .cmov .cy .rbx (.reg .rcx), -- 1388: cmovb rbx, rcx
  .mov (.reg .r8) (.reg .rax), -- 1389: mov r8, rax
  .sub (.reg .rsi) (.reg .rax), -- 1390: sub rsi, rax
  .lea .rcx ⟨some .rcx, some (.rdi, 1#64), 0#64⟩, -- 1391: lea rcx, [rcx + rdi]
  .cmov .sg .r8 (.reg .rbp), -- 1392: cmovs r8, rbp
  .mov (.reg .rdi) (.reg .rbx), -- 1393: mov rdi, rbx
  .test (.reg .rcx) (.reg .rdx), -- 1394: test rcx, rdx
  .cmov .zr .r8 (.reg .rbp), -- 1395: cmove r8, rbp
  .cmov .zr .rdi (.reg .rbp), -- 1396: cmove rdi, rbp
  .sar (.reg .rcx) (.imm 1#64), -- 1397: sar rcx, 1
  .xor (.reg .rdi) (.reg .r8), -- 1398: xor rdi, r8
  .xor (.reg .rsi) (.reg .r8), -- 1399: xor rsi, r8
  .bt (.reg .r8) 63#64, -- 1400: bt r8, 0x3f
  .cmov .cy .rbx (.reg .rcx), -- 1401: cmovb rbx, rcx
  .mov (.reg .r8) (.reg .rax), -- 1402: mov r8, rax
  .sub (.reg .rsi) (.reg .rax), -- 1403: sub rsi, rax
  .lea .rcx ⟨some .rcx, some (.rdi, 1#64), 0#64⟩, -- 1404: lea rcx, [rcx + rdi]
  .sar (.reg .rcx) (.imm 1#64), -- 1405: sar rcx, 1
  .mov (.reg .rax) (.imm 0x100000#64), -- 1406: mov eax, 0x100000
  .lea .r8 ⟨some .rbx, some (.rax, 1#64), 0#64⟩, -- 1407: lea r8, [rbx + rax]
  .lea .r12 ⟨some .rcx, some (.rax, 1#64), 0#64⟩, -- 1408: lea r12, [rcx + rax]
  .shl (.reg .r8) (.imm 21#64), -- 1409: shl r8, 0x15
  .shl (.reg .r12) (.imm 21#64), -- 1410: shl r12, 0x15
  .sar (.reg .r8) (.imm 43#64), -- 1411: sar r8, 0x2b
  .sar (.reg .r12) (.imm 43#64), -- 1412: sar r12, 0x2b
  .mov (.reg .rax) (.imm 0x20000100000#64), -- 1413: movabs rax, 0x20000100000
  .lea .r10 ⟨some .rbx, some (.rax, 1#64), 0#64⟩, -- 1414: lea r10, [rbx + rax]
  .lea .r14 ⟨some .rcx, some (.rax, 1#64), 0#64⟩, -- 1415: lea r14, [rcx + rax]
  .sar (.reg .r10) (.imm 43#64), -- 1416: sar r10, 0x2b
  .sar (.reg .r14) (.imm 43#64), -- 1417: sar r14, 0x2b
  .mov (.reg .rax) (.reg .r9), -- 1418: mov rax, r9
  .imul .rax (.reg .r8), -- 1419: imul rax, r8
  .mov (.reg .rdx) (.reg .r13), -- 1420: mov rdx, r13
  .imul .rdx (.reg .r10), -- 1421: imul rdx, r10
  .imul .r8 (.reg .r15), -- 1422: imul r8, r15
  .imul .r10 (.reg .r11), -- 1423: imul r10, r11
  .add (.reg .r10) (.reg .r8), -- 1424: add r10, r8
  .lea .r8 ⟨some .rax, some (.rdx, 1#64), 0#64⟩, -- 1425: lea r8, [rax + rdx]
  .mov (.reg .rax) (.reg .r9), -- 1426: mov rax, r9
  .imul .rax (.reg .r12), -- 1427: imul rax, r12
  .mov (.reg .rdx) (.reg .r13), -- 1428: mov rdx, r13
  .imul .rdx (.reg .r14), -- 1429: imul rdx, r14
  .imul .r12 (.reg .r15), -- 1430: imul r12, r15
  .imul .r14 (.reg .r11), -- 1431: imul r14, r11
  .add (.reg .r14) (.reg .r12), -- 1432: add r14, r12
  .lea .r12 ⟨some .rax, some (.rdx, 1#64), 0#64⟩, -- 1433: lea r12, [rax + rdx]
  .mov (.mem ⟨some .rsp, none, 280#64⟩) (.reg .rsi), -- 1434: mov QWORD PTR [rsp + (35 * 8)], rsi
  .dec (.mem ⟨some .rsp, none, 272#64⟩), -- 1435: dec QWORD PTR [rsp + (34 * 8)]
  .jcc .nz 64, -- 1436: jnz @3b
  .mov (.reg .rax) (.mem ⟨some .rsp, none, 0#64⟩), -- 1437: mov rax, [rsp + 0]
  .mov (.reg .rcx) (.mem ⟨some .rsp, none, 64#64⟩), -- 1438: mov rcx, [rsp + (8 * 8)]
  .imul .rax (.reg .r8), -- 1439: imul rax, r8
  .imul .rcx (.reg .r10), -- 1440: imul rcx, r10
  .add (.reg .rax) (.reg .rcx), -- 1441: add rax, rcx
  .sar (.reg .rax) (.imm 63#64), -- 1442: sar rax, 63
  .mov (.reg .r9) (.reg .r8), -- 1443: mov r9, r8
  .sar (.reg .r9) (.imm 63#64), -- 1444: sar r9, 63
  .xor (.reg .r8) (.reg .r9), -- 1445: xor r8, r9
  .sub (.reg .r8) (.reg .r9), -- 1446: sub r8, r9
  .xor (.reg .r9) (.reg .rax), -- 1447: xor r9, rax
  .mov (.reg .r11) (.reg .r10), -- 1448: mov r11, r10
  .sar (.reg .r11) (.imm 63#64), -- 1449: sar r11, 63
  .xor (.reg .r10) (.reg .r11), -- 1450: xor r10, r11
  .sub (.reg .r10) (.reg .r11), -- 1451: sub r10, r11
  .xor (.reg .r11) (.reg .rax), -- 1452: xor r11, rax
  .mov (.reg .r13) (.reg .r12), -- 1453: mov r13, r12
  .sar (.reg .r13) (.imm 63#64), -- 1454: sar r13, 63
  .xor (.reg .r12) (.reg .r13), -- 1455: xor r12, r13
  .sub (.reg .r12) (.reg .r13), -- 1456: sub r12, r13
  .xor (.reg .r13) (.reg .rax), -- 1457: xor r13, rax
  .mov (.reg .r15) (.reg .r14), -- 1458: mov r15, r14
  .sar (.reg .r15) (.imm 63#64), -- 1459: sar r15, 63
  .xor (.reg .r14) (.reg .r15), -- 1460: xor r14, r15
  .sub (.reg .r14) (.reg .r15), -- 1461: sub r14, r15
  .xor (.reg .r15) (.reg .rax), -- 1462: xor r15, rax
  .mov (.reg .rax) (.reg .r8), -- 1463: mov rax, r8
  .and (.reg .rax) (.reg .r9), -- 1464: and rax, r9
  .mov (.reg .r12) (.reg .r10), -- 1465: mov r12, r10
  .and (.reg .r12) (.reg .r11), -- 1466: and r12, r11
  .add (.reg .r12) (.reg .rax), -- 1467: add r12, rax
  .xor (.reg .r13) (.reg .r13), -- 1468: xor r13d, r13d
  .mov (.reg .rax) (.mem ⟨some .rsp, none, 128#64⟩), -- 1469: mov rax, [rsp + (16 * 8)]
  .xor (.reg .rax) (.reg .r9), -- 1470: xor rax, r9
  .mul (.reg .r8), -- 1471: mul r8
  .add (.reg .r12) (.reg .rax), -- 1472: add r12, rax
  .adc (.reg .r13) (.reg .rdx), -- 1473: adc r13, rdx
  .mov (.reg .rax) (.mem ⟨some .rsp, none, 192#64⟩), -- 1474: mov rax, [rsp + (24 * 8)]
  .xor (.reg .rax) (.reg .r11), -- 1475: xor rax, r11
  .mul (.reg .r10), -- 1476: mul r10
  .add (.reg .r12) (.reg .rax), -- 1477: add r12, rax
  .mov (.mem ⟨some .rsp, none, 128#64⟩) (.reg .r12), -- 1478: mov [rsp + (16 * 8)], r12
  .adc (.reg .r13) (.reg .rdx), -- 1479: adc r13, rdx
  .xor (.reg .r14) (.reg .r14), -- 1480: xor r14d, r14d
  .mov (.reg .rax) (.mem ⟨some .rsp, none, 136#64⟩), -- 1481: mov rax, [rsp + (16 * 8)+ 8]
  .xor (.reg .rax) (.reg .r9), -- 1482: xor rax, r9
  .mul (.reg .r8), -- 1483: mul r8
  .add (.reg .r13) (.reg .rax), -- 1484: add r13, rax
  .adc (.reg .r14) (.reg .rdx), -- 1485: adc r14, rdx
  .mov (.reg .rax) (.mem ⟨some .rsp, none, 200#64⟩), -- 1486: mov rax, [rsp + (24 * 8)+ 8]
  .xor (.reg .rax) (.reg .r11), -- 1487: xor rax, r11
  .mul (.reg .r10), -- 1488: mul r10
  .add (.reg .r13) (.reg .rax), -- 1489: add r13, rax
  .mov (.mem ⟨some .rsp, none, 136#64⟩) (.reg .r13), -- 1490: mov [rsp + (16 * 8)+ 8], r13
  .adc (.reg .r14) (.reg .rdx), -- 1491: adc r14, rdx
  .xor (.reg .r15) (.reg .r15), -- 1492: xor r15d, r15d
  .mov (.reg .rax) (.mem ⟨some .rsp, none, 144#64⟩), -- 1493: mov rax, [rsp + (16 * 8)+ 2 * 8]
  .xor (.reg .rax) (.reg .r9), -- 1494: xor rax, r9
  .mul (.reg .r8), -- 1495: mul r8
  .add (.reg .r14) (.reg .rax), -- 1496: add r14, rax
  .adc (.reg .r15) (.reg .rdx), -- 1497: adc r15, rdx
  .mov (.reg .rax) (.mem ⟨some .rsp, none, 208#64⟩), -- 1498: mov rax, [rsp + (24 * 8)+ 2 * 8]
  .xor (.reg .rax) (.reg .r11), -- 1499: xor rax, r11
  .mul (.reg .r10), -- 1500: mul r10
  .add (.reg .r14) (.reg .rax), -- 1501: add r14, rax
  .mov (.mem ⟨some .rsp, none, 144#64⟩) (.reg .r14), -- 1502: mov [rsp + (16 * 8)+ 2 * 8], r14
  .adc (.reg .r15) (.reg .rdx), -- 1503: adc r15, rdx
  .xor (.reg .r14) (.reg .r14), -- 1504: xor r14d, r14d
  .mov (.reg .rax) (.mem ⟨some .rsp, none, 152#64⟩), -- 1505: mov rax, [rsp + (16 * 8)+ 3 * 8]
  .xor (.reg .rax) (.reg .r9), -- 1506: xor rax, r9
  .mul (.reg .r8), -- 1507: mul r8
  .add (.reg .r15) (.reg .rax), -- 1508: add r15, rax
  .adc (.reg .r14) (.reg .rdx), -- 1509: adc r14, rdx
  .mov (.reg .rax) (.mem ⟨some .rsp, none, 216#64⟩), -- 1510: mov rax, [rsp + (24 * 8)+ 3 * 8]
  .xor (.reg .rax) (.reg .r11), -- 1511: xor rax, r11
  .mul (.reg .r10), -- 1512: mul r10
  .add (.reg .r15) (.reg .rax), -- 1513: add r15, rax
  .mov (.mem ⟨some .rsp, none, 152#64⟩) (.reg .r15), -- 1514: mov [rsp + (16 * 8)+ 3 * 8], r15
  .adc (.reg .r14) (.reg .rdx), -- 1515: adc r14, rdx
  .xor (.reg .r15) (.reg .r15), -- 1516: xor r15d, r15d
  .mov (.reg .rax) (.mem ⟨some .rsp, none, 160#64⟩), -- 1517: mov rax, [rsp + (16 * 8)+ 4 * 8]
  .xor (.reg .rax) (.reg .r9), -- 1518: xor rax, r9
  .mul (.reg .r8), -- 1519: mul r8
  .add (.reg .r14) (.reg .rax), -- 1520: add r14, rax
  .adc (.reg .r15) (.reg .rdx), -- 1521: adc r15, rdx
  .mov (.reg .rax) (.mem ⟨some .rsp, none, 224#64⟩), -- 1522: mov rax, [rsp + (24 * 8)+ 4 * 8]
  .xor (.reg .rax) (.reg .r11), -- 1523: xor rax, r11
  .mul (.reg .r10), -- 1524: mul r10
  .add (.reg .r14) (.reg .rax), -- 1525: add r14, rax
  .mov (.mem ⟨some .rsp, none, 160#64⟩) (.reg .r14), -- 1526: mov [rsp + (16 * 8)+ 4 * 8], r14
  .adc (.reg .r15) (.reg .rdx), -- 1527: adc r15, rdx
  .mov (.reg .rax) (.mem ⟨some .rsp, none, 168#64⟩), -- 1528: mov rax, [rsp + (16 * 8)+ 5 * 8]
  .xor (.reg .rax) (.reg .r9), -- 1529: xor rax, r9
  .and (.reg .r9) (.reg .r8), -- 1530: and r9, r8
  .neg (.reg .r9), -- 1531: neg r9
  .mul (.reg .r8), -- 1532: mul r8
  .add (.reg .r15) (.reg .rax), -- 1533: add r15, rax
  .adc (.reg .r9) (.reg .rdx), -- 1534: adc r9, rdx
  .mov (.reg .rax) (.mem ⟨some .rsp, none, 232#64⟩), -- 1535: mov rax, [rsp + (24 * 8)+ 5 * 8]
  .xor (.reg .rax) (.reg .r11), -- 1536: xor rax, r11
  .mov (.reg .rdx) (.reg .r11), -- 1537: mov rdx, r11
  .and (.reg .rdx) (.reg .r10), -- 1538: and rdx, r10
  .sub (.reg .r9) (.reg .rdx), -- 1539: sub r9, rdx
  .mul (.reg .r10), -- 1540: mul r10
  .add (.reg .r15) (.reg .rax), -- 1541: add r15, rax
  .mov (.mem ⟨some .rsp, none, 168#64⟩) (.reg .r15), -- 1542: mov [rsp + (16 * 8)+ 5 * 8], r15
  .adc (.reg .r9) (.reg .rdx), -- 1543: adc r9, rdx
  .mov (.mem ⟨some .rsp, none, 176#64⟩) (.reg .r9), -- 1544: mov [rsp + (16 * 8)+ 6 * 8], r9
  .mov (.reg .r8) (.imm 0xe000000000000000#64), -- 1545: mov r8, 0xe000000000000000
  .xor (.reg .rax) (.reg .rax), -- 1546: xor eax, eax
  .add (.reg .r8) (.mem ⟨some .rsp, none, 128#64⟩), -- 1547: add r8, [rsp + (16 * 8)]
  .mov (.reg .r9) (.imm 0x1fffffff#64), -- 1548: mov r9, 0x000000001fffffff
  .lea .rax ⟨some .rax, none, 0xffffffffffffffff#64⟩, -- 1549: lea rax, [rax -1]
  .adc (.reg .r9) (.mem ⟨some .rsp, none, 136#64⟩), -- 1550: adc r9, [rsp + (16 * 8)+ 8]
  .mov (.reg .r10) (.imm 0xdfffffffe0000000#64), -- 1551: mov r10, 0xdfffffffe0000000
  .adc (.reg .r10) (.mem ⟨some .rsp, none, 144#64⟩), -- 1552: adc r10, [rsp + (16 * 8)+ 2 * 8]
  .mov (.reg .r11) (.mem ⟨some .rsp, none, 152#64⟩), -- 1553: mov r11, [rsp + (16 * 8)+ 3 * 8]
  .adc (.reg .r11) (.reg .rax), -- 1554: adc r11, rax
  .mov (.reg .r12) (.mem ⟨some .rsp, none, 160#64⟩), -- 1555: mov r12, [rsp + (16 * 8)+ 4 * 8]
  .adc (.reg .r12) (.reg .rax), -- 1556: adc r12, rax
  .mov (.reg .r13) (.mem ⟨some .rsp, none, 168#64⟩), -- 1557: mov r13, [rsp + (16 * 8)+ 5 * 8]
  .adc (.reg .r13) (.reg .rax), -- 1558: adc r13, rax
  .mov (.reg .r14) (.imm 0x1fffffffffffffff#64), -- 1559: mov r14, 0x1fffffffffffffff
  .adc (.reg .r14) (.mem ⟨some .rsp, none, 176#64⟩), -- 1560: adc r14, [rsp + (16 * 8)+ 6 * 8]
  .mov (.reg .rbx) (.reg .r8), -- 1561: mov rbx, r8
  .shl (.reg .rbx) (.imm 32#64), -- 1562: shl rbx, 32
  .add (.reg .rbx) (.reg .r8), -- 1563: add rbx, r8
  .xor (.reg .rbp) (.reg .rbp), -- 1564: xor ebp, ebp
  .mov (.reg .rax) (.imm 0xffffffff00000001#64), -- 1565: mov rax, 0xffffffff00000001
  .mul (.reg .rbx), -- 1566: mul rbx
  .mov (.reg .r8) (.reg .rdx), -- 1567: mov r8, rdx
  .mov (.reg .rax) (.imm 0xffffffff#64), -- 1568: mov rax, 0x00000000ffffffff
  .mul (.reg .rbx), -- 1569: mul rbx
  .add (.reg .rax) (.reg .r8), -- 1570: add rax, r8
  .adc (.reg .rdx) (.reg .rbx), -- 1571: adc rdx, rbx
  .adc32 .rbp .rbp, -- 1572: adc ebp, ebp
  .sub (.reg .r9) (.reg .rax), -- 1573: sub r9, rax
  .sbb (.reg .r10) (.reg .rdx), -- 1574: sbb r10, rdx
  .sbb (.reg .r11) (.reg .rbp), -- 1575: sbb r11, rbp
  .sbb (.reg .r12) (.imm 0#64), -- 1576: sbb r12, 0
  .sbb (.reg .r13) (.imm 0#64), -- 1577: sbb r13, 0
  .sbb (.reg .r14) (.imm 0#64), -- 1578: sbb r14, 0
  .sbb (.reg .rax) (.reg .rax), -- 1579: sbb rax, rax
  .add (.reg .r14) (.reg .rbx), -- 1580: add r14, rbx
  .adc (.reg .rax) (.imm 0#64), -- 1581: adc rax, 0
  .neg (.reg .rax), -- 1582: neg rax
  .mov (.reg .rbx) (.imm 0xffffffff#64), -- 1583: mov rbx, 0x00000000ffffffff
  .and (.reg .rbx) (.reg .rax), -- 1584: and rbx, rax
  .mov (.reg .rcx) (.imm 0xffffffff00000000#64), -- 1585: mov rcx, 0xffffffff00000000
  .and (.reg .rcx) (.reg .rax), -- 1586: and rcx, rax
  .mov (.reg .rdx) (.imm 0xfffffffffffffffe#64), -- 1587: mov rdx, 0xfffffffffffffffe
  .and (.reg .rdx) (.reg .rax), -- 1588: and rdx, rax
  .sub (.reg .r9) (.reg .rbx), -- 1589: sub r9, rbx
  .mov (.mem ⟨some .rsp, none, 128#64⟩) (.reg .r9), -- 1590: mov [rsp + (16 * 8)], r9
  .sbb (.reg .r10) (.reg .rcx), -- 1591: sbb r10, rcx
  .mov (.mem ⟨some .rsp, none, 136#64⟩) (.reg .r10), -- 1592: mov [rsp + (16 * 8)+ 8], r10
  .sbb (.reg .r11) (.reg .rdx), -- 1593: sbb r11, rdx
  .mov (.mem ⟨some .rsp, none, 144#64⟩) (.reg .r11), -- 1594: mov [rsp + (16 * 8)+ 2 * 8], r11
  .sbb (.reg .r12) (.reg .rax), -- 1595: sbb r12, rax
  .mov (.mem ⟨some .rsp, none, 152#64⟩) (.reg .r12), -- 1596: mov [rsp + (16 * 8)+ 3 * 8], r12
  .sbb (.reg .r13) (.reg .rax), -- 1597: sbb r13, rax
  .mov (.mem ⟨some .rsp, none, 160#64⟩) (.reg .r13), -- 1598: mov [rsp + (16 * 8)+ 4 * 8], r13
  .sbb (.reg .r14) (.reg .rax), -- 1599: sbb r14, rax
  .mov (.mem ⟨some .rsp, none, 168#64⟩) (.reg .r14), -- 1600: mov [rsp + (16 * 8)+ 5 * 8], r14
  .mov (.reg .rax) (.imm 0xffffffff#64), -- 1601: mov eax, 0xffffffff
  .mov (.reg .rbx) (.reg .rax), -- 1602: mov rbx, rax
  .not (.reg .rbx), -- 1603: not rbx
  .xor (.reg .rbp) (.reg .rbp), -- 1604: xor ebp, ebp
  .lea .rcx ⟨some .rbp, none, 0xfffffffffffffffe#64⟩, -- 1605: lea rcx, [rbp -2]
  .lea .rdx ⟨some .rbp, none, 0xffffffffffffffff#64⟩, -- 1606: lea rdx, [rbp -1]
  .mov (.reg .r8) (.mem ⟨some .rsp, none, 128#64⟩), -- 1607: mov r8, [rsp + (16 * 8)]
  .sub (.reg .r8) (.reg .rax), -- 1608: sub r8, rax
  .mov (.reg .r9) (.mem ⟨some .rsp, none, 136#64⟩), -- 1609: mov r9, [rsp + (16 * 8)+ 8]
  .sbb (.reg .r9) (.reg .rbx), -- 1610: sbb r9, rbx
  .mov (.reg .r10) (.mem ⟨some .rsp, none, 144#64⟩), -- 1611: mov r10, [rsp + (16 * 8)+ 2 * 8]
  .sbb (.reg .r10) (.reg .rcx), -- 1612: sbb r10, rcx
  .mov (.reg .r11) (.mem ⟨some .rsp, none, 152#64⟩), -- 1613: mov r11, [rsp + (16 * 8)+ 3 * 8]
  .sbb (.reg .r11) (.reg .rdx), -- 1614: sbb r11, rdx
  .mov (.reg .r12) (.mem ⟨some .rsp, none, 160#64⟩), -- 1615: mov r12, [rsp + (16 * 8)+ 4 * 8]
  .sbb (.reg .r12) (.reg .rdx), -- 1616: sbb r12, rdx
  .mov (.reg .r13) (.mem ⟨some .rsp, none, 168#64⟩), -- 1617: mov r13, [rsp + (16 * 8)+ 5 * 8]
  .sbb (.reg .r13) (.reg .rdx), -- 1618: sbb r13, rdx
  .cmov .cy .r8 (.mem ⟨some .rsp, none, 128#64⟩), -- 1619: cmovc r8, [rsp + (16 * 8)]
  .cmov .cy .r9 (.mem ⟨some .rsp, none, 136#64⟩), -- 1620: cmovc r9, [rsp + (16 * 8)+ 8]
  .cmov .cy .r10 (.mem ⟨some .rsp, none, 144#64⟩), -- 1621: cmovc r10, [rsp + (16 * 8)+ 2 * 8]
  .cmov .cy .r11 (.mem ⟨some .rsp, none, 152#64⟩), -- 1622: cmovc r11, [rsp + (16 * 8)+ 3 * 8]
  .cmov .cy .r12 (.mem ⟨some .rsp, none, 160#64⟩), -- 1623: cmovc r12, [rsp + (16 * 8)+ 4 * 8]
  .cmov .cy .r13 (.mem ⟨some .rsp, none, 168#64⟩), -- 1624: cmovc r13, [rsp + (16 * 8)+ 5 * 8]
  .mov (.reg .rdi) (.mem ⟨some .rsp, none, 320#64⟩), -- 1625: mov rdi, QWORD PTR [rsp + (40 * 8)]
  .mov (.mem ⟨some .rdi, none, 0#64⟩) (.reg .r8), -- 1626: mov [rdi], r8
  .mov (.mem ⟨some .rdi, none, 8#64⟩) (.reg .r9), -- 1627: mov [rdi + 8], r9
  .mov (.mem ⟨some .rdi, none, 16#64⟩) (.reg .r10), -- 1628: mov [rdi + 2 * 8], r10
  .mov (.mem ⟨some .rdi, none, 24#64⟩) (.reg .r11), -- 1629: mov [rdi + 3 * 8], r11
  .mov (.mem ⟨some .rdi, none, 32#64⟩) (.reg .r12), -- 1630: mov [rdi + 4 * 8], r12
  .mov (.mem ⟨some .rdi, none, 40#64⟩) (.reg .r13), -- 1631: mov [rdi + 5 * 8], r13
  .add (.reg .rsp) (.imm 336#64), -- 1632: add rsp, 42 * 8
  .pop .r15, -- 1633: pop r15
  .pop .r14, -- 1634: pop r14
  .pop .r13, -- 1635: pop r13
  .pop .r12, -- 1636: pop r12
  .pop .rbp, -- 1637: pop rbp
  .pop .rbx] -- 1638: pop rbx

/-- The registers that the operands of bignum_inv_p384.rs:1075-1843 say may change. -/
def bignumInvP384Regs : List Reg := [.rdi, .rsi, .r10, .r11, .r12, .r13, .r14, .r15, .r8, .r9, .rax, .rcx, .rdx]

end Verif.X86.Asm
