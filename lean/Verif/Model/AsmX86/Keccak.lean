import Verif.Model.X86

/-!
Generated by tools/gen_asm.py from `graviola/src/low/x86_64`: the `asm!` blocks as lists of instructions.
The comment at the end of a line gives its position; jump targets are positions.
-/
namespace Verif.X86.Asm
open Verif.X86

/-- low/x86_64/sha3_keccak_f1600.rs:38-490.  Operands: inout("rdi") a.as_mut_ptr() => _; inout("rsi") rc.as_ptr() => _; out("r10") _; out("r11") _; out("r12") _; out("r13") _; out("r14") _; out("r15") _; out("r8") _; out("r9") _; out("rax") _; out("rcx") _; out("rdx") _. -/
def sha3KeccakF1600 : Prog := [
  .nop, -- 0: endbr64
  .push .rbx, -- 1: push rbx
  .push .rbp, -- 2: push rbp
  .push .r12, -- 3: push r12
  .push .r13, -- 4: push r13
  .push .r14, -- 5: push r14
  .push .r15, -- 6: push r15
  .sub (.reg .rsp) (.imm 208#64), -- 7: sub rsp, 208
  .not (.mem ⟨some .rdi, none, 8#64⟩), -- 8: not QWORD PTR [rdi + 0x08]
  .not (.mem ⟨some .rdi, none, 16#64⟩), -- 9: not QWORD PTR [rdi + 0x10]
  .not (.mem ⟨some .rdi, none, 64#64⟩), -- 10: not QWORD PTR [rdi + 0x40]
  .not (.mem ⟨some .rdi, none, 96#64⟩), -- 11: not QWORD PTR [rdi + 0x60]
  .not (.mem ⟨some .rdi, none, 136#64⟩), -- 12: not QWORD PTR [rdi + 0x88]
  .not (.mem ⟨some .rdi, none, 160#64⟩), -- 13: not QWORD PTR [rdi + 0xa0]
  .lea .r15 ⟨some .rsp, none, 0#64⟩, -- 14: lea r15, [rsp]
  .mov (.reg .rax) (.mem ⟨some .rdi, none, 160#64⟩), -- 15: mov rax, QWORD PTR [rdi + 0xa0]
  .mov (.reg .rbx) (.mem ⟨some .rdi, none, 168#64⟩), -- 16: mov rbx, QWORD PTR [rdi + 0xa8]
  .mov (.reg .rcx) (.mem ⟨some .rdi, none, 176#64⟩), -- 17: mov rcx, QWORD PTR [rdi + 0xb0]
  .mov (.reg .rdx) (.mem ⟨some .rdi, none, 184#64⟩), -- 18: mov rdx, QWORD PTR [rdi + 0xb8]
  .mov (.reg .rbp) (.mem ⟨some .rdi, none, 192#64⟩), -- 19: mov rbp, QWORD PTR [rdi + 0xc0]
  .mov (.reg .r8) (.imm 0#64), -- 20: mov r8, 0x0
  .mov (.mem ⟨some .rsp, none, 200#64⟩) (.reg .r8), -- 21: mov QWORD PTR [rsp + 0xc8], r8
  .mov (.reg .r8) (.mem ⟨some .rdi, none, 0#64⟩), -- 22: mov r8, QWORD PTR [rdi]
  .mov (.reg .r9) (.mem ⟨some .rdi, none, 48#64⟩), -- 23: mov r9, QWORD PTR [rdi + 0x30]
  .mov (.reg .r10) (.mem ⟨some .rdi, none, 96#64⟩), -- 24: mov r10, QWORD PTR [rdi + 0x60]
  .mov (.reg .r11) (.mem ⟨some .rdi, none, 144#64⟩), -- 25: mov r11, QWORD PTR [rdi + 0x90]
  .xor (.reg .rcx) (.mem ⟨some .rdi, none, 16#64⟩), -- 26: xor rcx, QWORD PTR [rdi + 0x10]
  .xor (.reg .rdx) (.mem ⟨some .rdi, none, 24#64⟩), -- 27: xor rdx, QWORD PTR [rdi + 0x18]
  .xor (.reg .rax) (.reg .r8), -- 28: xor rax, r8
  .xor (.reg .rbx) (.mem ⟨some .rdi, none, 8#64⟩), -- 29: xor rbx, QWORD PTR [rdi + 0x08]
  .xor (.reg .rcx) (.mem ⟨some .rdi, none, 56#64⟩), -- 30: xor rcx, QWORD PTR [rdi + 0x38]
  .xor (.reg .rax) (.mem ⟨some .rdi, none, 40#64⟩), -- 31: xor rax, QWORD PTR [rdi + 0x28]
  .mov (.reg .r12) (.reg .rbp), -- 32: mov r12, rbp
  .xor (.reg .rbp) (.mem ⟨some .rdi, none, 32#64⟩), -- 33: xor rbp, QWORD PTR [rdi + 0x20]
  .xor (.reg .rcx) (.reg .r10), -- 34: xor rcx, r10
  .xor (.reg .rax) (.mem ⟨some .rdi, none, 80#64⟩), -- 35: xor rax, QWORD PTR [rdi + 0x50]
  .xor (.reg .rdx) (.mem ⟨some .rdi, none, 64#64⟩), -- 36: xor rdx, QWORD PTR [rdi + 0x40]
  .xor (.reg .rbx) (.reg .r9), -- 37: xor rbx, r9
  .xor (.reg .rbp) (.mem ⟨some .rdi, none, 72#64⟩), -- 38: xor rbp, QWORD PTR [rdi + 0x48]
  .xor (.reg .rcx) (.mem ⟨some .rdi, none, 136#64⟩), -- 39: xor rcx, QWORD PTR [rdi + 0x88]
  .xor (.reg .rax) (.mem ⟨some .rdi, none, 120#64⟩), -- 40: xor rax, QWORD PTR [rdi + 0x78]
  .xor (.reg .rdx) (.mem ⟨some .rdi, none, 104#64⟩), -- 41: xor rdx, QWORD PTR [rdi + 0x68]
  .xor (.reg .rbx) (.mem ⟨some .rdi, none, 88#64⟩), -- 42: xor rbx, QWORD PTR [rdi + 0x58]
  .xor (.reg .rbp) (.mem ⟨some .rdi, none, 112#64⟩), -- 43: xor rbp, QWORD PTR [rdi + 0x70]
  .mov (.reg .r13) (.reg .rcx), -- 44: mov r13, rcx
  .rol .rcx 1#64, -- 45: rol rcx, 1
  .xor (.reg .rcx) (.reg .rax), -- 46: xor rcx, rax
  .xor (.reg .rdx) (.reg .r11), -- 47: xor rdx, r11
  .rol .rax 1#64, -- 48: rol rax, 1
  .xor (.reg .rax) (.reg .rdx), -- 49: xor rax, rdx
  .xor (.reg .rbx) (.mem ⟨some .rdi, none, 128#64⟩), -- 50: xor rbx, QWORD PTR [rdi + 0x80]
  .rol .rdx 1#64, -- 51: rol rdx, 1
  .xor (.reg .rdx) (.reg .rbx), -- 52: xor rdx, rbx
  .xor (.reg .rbp) (.mem ⟨some .rdi, none, 152#64⟩), -- 53: xor rbp, QWORD PTR [rdi + 0x98]
  .rol .rbx 1#64, -- 54: rol rbx, 1
  .xor (.reg .rbx) (.reg .rbp), -- 55: xor rbx, rbp
  .rol .rbp 1#64, -- 56: rol rbp, 1
  .xor (.reg .rbp) (.reg .r13), -- 57: xor rbp, r13
  .xor (.reg .r9) (.reg .rcx), -- 58: xor r9, rcx
  .xor (.reg .r10) (.reg .rdx), -- 59: xor r10, rdx
  .rol .r9 44#64, -- 60: rol r9, 0x2c
  .xor (.reg .r11) (.reg .rbp), -- 61: xor r11, rbp
  .xor (.reg .r12) (.reg .rax), -- 62: xor r12, rax
  .rol .r10 43#64, -- 63: rol r10, 0x2b
  .xor (.reg .r8) (.reg .rbx), -- 64: xor r8, rbx
  .mov (.reg .r13) (.reg .r9), -- 65: mov r13, r9
  .rol .r11 21#64, -- 66: rol r11, 0x15
  .or (.reg .r9) (.reg .r10), -- 67: or r9, r10
  .xor (.reg .r9) (.reg .r8), -- 68: xor r9, r8
  .rol .r12 14#64, -- 69: rol r12, 0xe
  .xor (.reg .r9) (.mem ⟨some .rsi, none, 0#64⟩), -- 70: xor r9, QWORD PTR [rsi]
  .mov (.reg .r14) (.reg .r12), -- 71: mov r14, r12
  .and (.reg .r12) (.reg .r11), -- 72: and r12, r11
  .mov (.mem ⟨some .r15, none, 0#64⟩) (.reg .r9), -- 73: mov QWORD PTR [r15], r9
  .xor (.reg .r12) (.reg .r10), -- 74: xor r12, r10
  .not (.reg .r10), -- 75: not r10
  .mov (.mem ⟨some .r15, none, 16#64⟩) (.reg .r12), -- 76: mov QWORD PTR [r15 + 0x10], r12
  .or (.reg .r10) (.reg .r11), -- 77: or r10, r11
  .mov (.reg .r12) (.mem ⟨some .rdi, none, 176#64⟩), -- 78: mov r12, QWORD PTR [rdi + 0xb0]
  .xor (.reg .r10) (.reg .r13), -- 79: xor r10, r13
  .mov (.mem ⟨some .r15, none, 8#64⟩) (.reg .r10), -- 80: mov QWORD PTR [r15 + 0x08], r10
  .and (.reg .r13) (.reg .r8), -- 81: and r13, r8
  .mov (.reg .r9) (.mem ⟨some .rdi, none, 72#64⟩), -- 82: mov r9, QWORD PTR [rdi + 0x48]
  .xor (.reg .r13) (.reg .r14), -- 83: xor r13, r14
  .mov (.reg .r10) (.mem ⟨some .rdi, none, 80#64⟩), -- 84: mov r10, QWORD PTR [rdi + 0x50]
  .mov (.mem ⟨some .r15, none, 32#64⟩) (.reg .r13), -- 85: mov QWORD PTR [r15 + 0x20], r13
  .or (.reg .r14) (.reg .r8), -- 86: or r14, r8
  .mov (.reg .r8) (.mem ⟨some .rdi, none, 24#64⟩), -- 87: mov r8, QWORD PTR [rdi + 0x18]
  .xor (.reg .r14) (.reg .r11), -- 88: xor r14, r11
  .mov (.reg .r11) (.mem ⟨some .rdi, none, 128#64⟩), -- 89: mov r11, QWORD PTR [rdi + 0x80]
  .mov (.mem ⟨some .r15, none, 24#64⟩) (.reg .r14), -- 90: mov QWORD PTR [r15 + 0x18], r14
  .xor (.reg .r8) (.reg .rbp), -- 91: xor r8, rbp
  .xor (.reg .r12) (.reg .rdx), -- 92: xor r12, rdx
  .rol .r8 28#64, -- 93: rol r8, 0x1c
  .xor (.reg .r11) (.reg .rcx), -- 94: xor r11, rcx
  .xor (.reg .r9) (.reg .rax), -- 95: xor r9, rax
  .rol .r12 61#64, -- 96: rol r12, 0x3d
  .rol .r11 45#64, -- 97: rol r11, 0x2d
  .xor (.reg .r10) (.reg .rbx), -- 98: xor r10, rbx
  .rol .r9 20#64, -- 99: rol r9, 0x14
  .mov (.reg .r13) (.reg .r8), -- 100: mov r13, r8
  .or (.reg .r8) (.reg .r12), -- 101: or r8, r12
  .rol .r10 3#64, -- 102: rol r10, 0x3
  .xor (.reg .r8) (.reg .r11), -- 103: xor r8, r11
  .mov (.mem ⟨some .r15, none, 64#64⟩) (.reg .r8), -- 104: mov QWORD PTR [r15 + 0x40], r8
  .mov (.reg .r14) (.reg .r9), -- 105: mov r14, r9
  .and (.reg .r9) (.reg .r13), -- 106: and r9, r13
  .mov (.reg .r8) (.mem ⟨some .rdi, none, 8#64⟩), -- 107: mov r8, QWORD PTR [rdi + 0x08]
  .xor (.reg .r9) (.reg .r12), -- 108: xor r9, r12
  .not (.reg .r12), -- 109: not r12
  .mov (.mem ⟨some .r15, none, 72#64⟩) (.reg .r9), -- 110: mov QWORD PTR [r15 + 0x48], r9
  .or (.reg .r12) (.reg .r11), -- 111: or r12, r11
  .mov (.reg .r9) (.mem ⟨some .rdi, none, 56#64⟩), -- 112: mov r9, QWORD PTR [rdi + 0x38]
  .xor (.reg .r12) (.reg .r10), -- 113: xor r12, r10
  .mov (.mem ⟨some .r15, none, 56#64⟩) (.reg .r12), -- 114: mov QWORD PTR [r15 + 0x38], r12
  .and (.reg .r11) (.reg .r10), -- 115: and r11, r10
  .mov (.reg .r12) (.mem ⟨some .rdi, none, 160#64⟩), -- 116: mov r12, QWORD PTR [rdi + 0xa0]
  .xor (.reg .r11) (.reg .r14), -- 117: xor r11, r14
  .mov (.mem ⟨some .r15, none, 48#64⟩) (.reg .r11), -- 118: mov QWORD PTR [r15 + 0x30], r11
  .or (.reg .r14) (.reg .r10), -- 119: or r14, r10
  .mov (.reg .r10) (.mem ⟨some .rdi, none, 104#64⟩), -- 120: mov r10, QWORD PTR [rdi + 0x68]
  .xor (.reg .r14) (.reg .r13), -- 121: xor r14, r13
  .mov (.reg .r11) (.mem ⟨some .rdi, none, 152#64⟩), -- 122: mov r11, QWORD PTR [rdi + 0x98]
  .mov (.mem ⟨some .r15, none, 40#64⟩) (.reg .r14), -- 123: mov QWORD PTR [r15 + 0x28], r14
  .xor (.reg .r10) (.reg .rbp), -- 124: xor r10, rbp
  .xor (.reg .r11) (.reg .rax), -- 125: xor r11, rax
  .rol .r10 25#64, -- 126: rol r10, 0x19
  .xor (.reg .r9) (.reg .rdx), -- 127: xor r9, rdx
  .rol .r11 8#64, -- 128: rol r11, 0x8
  .xor (.reg .r12) (.reg .rbx), -- 129: xor r12, rbx
  .rol .r9 6#64, -- 130: rol r9, 0x6
  .xor (.reg .r8) (.reg .rcx), -- 131: xor r8, rcx
  .rol .r12 18#64, -- 132: rol r12, 0x12
  .mov (.reg .r13) (.reg .r10), -- 133: mov r13, r10
  .and (.reg .r10) (.reg .r11), -- 134: and r10, r11
  .rol .r8 1#64, -- 135: rol r8, 1
  .not (.reg .r11), -- 136: not r11
  .xor (.reg .r10) (.reg .r9), -- 137: xor r10, r9
  .mov (.mem ⟨some .r15, none, 88#64⟩) (.reg .r10), -- 138: mov QWORD PTR [r15 + 0x58], r10
  .mov (.reg .r14) (.reg .r12), -- 139: mov r14, r12
  .and (.reg .r12) (.reg .r11), -- 140: and r12, r11
  .mov (.reg .r10) (.mem ⟨some .rdi, none, 88#64⟩), -- 141: mov r10, QWORD PTR [rdi + 0x58]
  .xor (.reg .r12) (.reg .r13), -- 142: xor r12, r13
  .mov (.mem ⟨some .r15, none, 96#64⟩) (.reg .r12), -- 143: mov QWORD PTR [r15 + 0x60], r12
  .or (.reg .r13) (.reg .r9), -- 144: or r13, r9
  .mov (.reg .r12) (.mem ⟨some .rdi, none, 184#64⟩), -- 145: mov r12, QWORD PTR [rdi + 0xb8]
  .xor (.reg .r13) (.reg .r8), -- 146: xor r13, r8
  .mov (.mem ⟨some .r15, none, 80#64⟩) (.reg .r13), -- 147: mov QWORD PTR [r15 + 0x50], r13
  .and (.reg .r9) (.reg .r8), -- 148: and r9, r8
  .xor (.reg .r9) (.reg .r14), -- 149: xor r9, r14
  .mov (.mem ⟨some .r15, none, 112#64⟩) (.reg .r9), -- 150: mov QWORD PTR [r15 + 0x70], r9
  .or (.reg .r14) (.reg .r8), -- 151: or r14, r8
  .mov (.reg .r9) (.mem ⟨some .rdi, none, 40#64⟩), -- 152: mov r9, QWORD PTR [rdi + 0x28]
  .xor (.reg .r14) (.reg .r11), -- 153: xor r14, r11
  .mov (.reg .r11) (.mem ⟨some .rdi, none, 136#64⟩), -- 154: mov r11, QWORD PTR [rdi + 0x88]
  .mov (.mem ⟨some .r15, none, 104#64⟩) (.reg .r14), -- 155: mov QWORD PTR [r15 + 0x68], r14
  .mov (.reg .r8) (.mem ⟨some .rdi, none, 32#64⟩), -- 156: mov r8, QWORD PTR [rdi + 0x20]
  .xor (.reg .r10) (.reg .rcx), -- 157: xor r10, rcx
  .xor (.reg .r11) (.reg .rdx), -- 158: xor r11, rdx
  .rol .r10 10#64, -- 159: rol r10, 0xa
  .xor (.reg .r9) (.reg .rbx), -- 160: xor r9, rbx
  .rol .r11 15#64, -- 161: rol r11, 0xf
  .xor (.reg .r12) (.reg .rbp), -- 162: xor r12, rbp
  .rol .r9 36#64, -- 163: rol r9, 0x24
  .xor (.reg .r8) (.reg .rax), -- 164: xor r8, rax
  .rol .r12 56#64, -- 165: rol r12, 0x38
  .mov (.reg .r13) (.reg .r10), -- 166: mov r13, r10
  .or (.reg .r10) (.reg .r11), -- 167: or r10, r11
  .rol .r8 27#64, -- 168: rol r8, 0x1b
  .not (.reg .r11), -- 169: not r11
  .xor (.reg .r10) (.reg .r9), -- 170: xor r10, r9
  .mov (.mem ⟨some .r15, none, 128#64⟩) (.reg .r10), -- 171: mov QWORD PTR [r15 + 0x80], r10
  .mov (.reg .r14) (.reg .r12), -- 172: mov r14, r12
  .or (.reg .r12) (.reg .r11), -- 173: or r12, r11
  .xor (.reg .r12) (.reg .r13), -- 174: xor r12, r13
  .mov (.mem ⟨some .r15, none, 136#64⟩) (.reg .r12), -- 175: mov QWORD PTR [r15 + 0x88], r12
  .and (.reg .r13) (.reg .r9), -- 176: and r13, r9
  .xor (.reg .r13) (.reg .r8), -- 177: xor r13, r8
  .mov (.mem ⟨some .r15, none, 120#64⟩) (.reg .r13), -- 178: mov QWORD PTR [r15 + 0x78], r13
  .or (.reg .r9) (.reg .r8), -- 179: or r9, r8
  .xor (.reg .r9) (.reg .r14), -- 180: xor r9, r14
  .mov (.mem ⟨some .r15, none, 152#64⟩) (.reg .r9), -- 181: mov QWORD PTR [r15 + 0x98], r9
  .and (.reg .r8) (.reg .r14), -- 182: and r8, r14
  .xor (.reg .r8) (.reg .r11), -- 183: xor r8, r11
  .mov (.mem ⟨some .r15, none, 144#64⟩) (.reg .r8), -- 184: mov QWORD PTR [r15 + 0x90], r8
  .xor (.reg .rdx) (.mem ⟨some .rdi, none, 16#64⟩), -- 185: xor rdx, QWORD PTR [rdi + 0x10]
  .xor (.reg .rbp) (.mem ⟨some .rdi, none, 64#64⟩), -- 186: xor rbp, QWORD PTR [rdi + 0x40]
  .rol .rdx 62#64, -- 187: rol rdx, 0x3e
  .xor (.reg .rcx) (.mem ⟨some .rdi, none, 168#64⟩), -- 188: xor rcx, QWORD PTR [rdi + 0xa8]
  .rol .rbp 55#64, -- 189: rol rbp, 0x37
  .xor (.reg .rax) (.mem ⟨some .rdi, none, 112#64⟩), -- 190: xor rax, QWORD PTR [rdi + 0x70]
  .rol .rcx 2#64, -- 191: rol rcx, 0x2
  .xor (.reg .rbx) (.mem ⟨some .rdi, none, 120#64⟩), -- 192: xor rbx, QWORD PTR [rdi + 0x78]
  .xchg .rdi .r15, -- 193: xchg rdi, r15
  .rol .rax 39#64, -- 194: rol rax, 0x27
  .rol .rbx 41#64, -- 195: rol rbx, 0x29
  .mov (.reg .r13) (.reg .rdx), -- 196: mov r13, rdx
  .and (.reg .rdx) (.reg .rbp), -- 197: and rdx, rbp
  .not (.reg .rbp), -- 198: not rbp
  .xor (.reg .rdx) (.reg .rcx), -- 199: xor rdx, rcx
  .mov (.mem ⟨some .rdi, none, 192#64⟩) (.reg .rdx), -- 200: mov QWORD PTR [rdi + 0xc0], rdx
  .mov (.reg .r14) (.reg .rax), -- 201: mov r14, rax
  .and (.reg .rax) (.reg .rbp), -- 202: and rax, rbp
  .xor (.reg .rax) (.reg .r13), -- 203: xor rax, r13
  .mov (.mem ⟨some .rdi, none, 160#64⟩) (.reg .rax), -- 204: mov QWORD PTR [rdi + 0xa0], rax
  .or (.reg .r13) (.reg .rcx), -- 205: or r13, rcx
  .xor (.reg .r13) (.reg .rbx), -- 206: xor r13, rbx
  .mov (.mem ⟨some .rdi, none, 184#64⟩) (.reg .r13), -- 207: mov QWORD PTR [rdi + 0xb8], r13
  .and (.reg .rcx) (.reg .rbx), -- 208: and rcx, rbx
  .xor (.reg .rcx) (.reg .r14), -- 209: xor rcx, r14
  .mov (.mem ⟨some .rdi, none, 176#64⟩) (.reg .rcx), -- 210: mov QWORD PTR [rdi + 0xb0], rcx
  .or (.reg .rbx) (.reg .r14), -- 211: or rbx, r14
  .xor (.reg .rbx) (.reg .rbp), -- 212: xor rbx, rbp
  .mov (.mem ⟨some .rdi, none, 168#64⟩) (.reg .rbx), -- 213: mov QWORD PTR [rdi + 0xa8], rbx
  .mov (.reg .rbp) (.reg .rdx), -- 214: mov rbp, rdx
  .mov (.reg .rdx) (.reg .r13), -- 215: mov rdx, r13
  .lea .rsi ⟨some .rsi, none, 8#64⟩, -- 216: lea rsi, [rsi + 0x8]
  .mov (.reg .r8) (.mem ⟨some .rdi, none, 0#64⟩), -- 217: mov r8, QWORD PTR [rdi]
  .mov (.reg .r9) (.mem ⟨some .rdi, none, 48#64⟩), -- 218: mov r9, QWORD PTR [rdi + 0x30]
  .mov (.reg .r10) (.mem ⟨some .rdi, none, 96#64⟩), -- 219: mov r10, QWORD PTR [rdi + 0x60]
  .mov (.reg .r11) (.mem ⟨some .rdi, none, 144#64⟩), -- 220: mov r11, QWORD PTR [rdi + 0x90]
  .xor (.reg .rcx) (.mem ⟨some .rdi, none, 16#64⟩), -- 221: xor rcx, QWORD PTR [rdi + 0x10]
  .xor (.reg .rdx) (.mem ⟨some .rdi, none, 24#64⟩), -- 222: xor rdx, QWORD PTR [rdi + 0x18]
  .xor (.reg .rax) (.reg .r8), -- 223: xor rax, r8
  .xor (.reg .rbx) (.mem ⟨some .rdi, none, 8#64⟩), -- 224: xor rbx, QWORD PTR [rdi + 0x08]
  .xor (.reg .rcx) (.mem ⟨some .rdi, none, 56#64⟩), -- 225: xor rcx, QWORD PTR [rdi + 0x38]
  .xor (.reg .rax) (.mem ⟨some .rdi, none, 40#64⟩), -- 226: xor rax, QWORD PTR [rdi + 0x28]
  .mov (.reg .r12) (.reg .rbp), -- 227: mov r12, rbp
  .xor (.reg .rbp) (.mem ⟨some .rdi, none, 32#64⟩), -- 228: xor rbp, QWORD PTR [rdi + 0x20]
  .xor (.reg .rcx) (.reg .r10), -- 229: xor rcx, r10
  .xor (.reg .rax) (.mem ⟨some .rdi, none, 80#64⟩), -- 230: xor rax, QWORD PTR [rdi + 0x50]
  .xor (.reg .rdx) (.mem ⟨some .rdi, none, 64#64⟩), -- 231: xor rdx, QWORD PTR [rdi + 0x40]
  .xor (.reg .rbx) (.reg .r9), -- 232: xor rbx, r9
  .xor (.reg .rbp) (.mem ⟨some .rdi, none, 72#64⟩), -- 233: xor rbp, QWORD PTR [rdi + 0x48]
  .xor (.reg .rcx) (.mem ⟨some .rdi, none, 136#64⟩), -- 234: xor rcx, QWORD PTR [rdi + 0x88]
  .xor (.reg .rax) (.mem ⟨some .rdi, none, 120#64⟩), -- 235: xor rax, QWORD PTR [rdi + 0x78]
  .xor (.reg .rdx) (.mem ⟨some .rdi, none, 104#64⟩), -- 236: xor rdx, QWORD PTR [rdi + 0x68]
  .xor (.reg .rbx) (.mem ⟨some .rdi, none, 88#64⟩), -- 237: xor rbx, QWORD PTR [rdi + 0x58]
  .xor (.reg .rbp) (.mem ⟨some .rdi, none, 112#64⟩), -- 238: xor rbp, QWORD PTR [rdi + 0x70]
  .mov (.reg .r13) (.reg .rcx), -- 239: mov r13, rcx
  .rol .rcx 1#64, -- 240: rol rcx, 1
  .xor (.reg .rcx) (.reg .rax), -- 241: xor rcx, rax
  .xor (.reg .rdx) (.reg .r11), -- 242: xor rdx, r11
  .rol .rax 1#64, -- 243: rol rax, 1
  .xor (.reg .rax) (.reg .rdx), -- 244: xor rax, rdx
  .xor (.reg .rbx) (.mem ⟨some .rdi, none, 128#64⟩), -- 245: xor rbx, QWORD PTR [rdi + 0x80]
  .rol .rdx 1#64, -- 246: rol rdx, 1
  .xor (.reg .rdx) (.reg .rbx), -- 247: xor rdx, rbx
  .xor (.reg .rbp) (.mem ⟨some .rdi, none, 152#64⟩), -- 248: xor rbp, QWORD PTR [rdi + 0x98]
  .rol .rbx 1#64, -- 249: rol rbx, 1
  .xor (.reg .rbx) (.reg .rbp), -- 250: xor rbx, rbp
  .rol .rbp 1#64, -- 251: rol rbp, 1
  .xor (.reg .rbp) (.reg .r13), -- 252: xor rbp, r13
  .xor (.reg .r9) (.reg .rcx), -- 253: xor r9, rcx
  .xor (.reg .r10) (.reg .rdx), -- 254: xor r10, rdx
  .rol .r9 44#64, -- 255: rol r9, 0x2c
  .xor (.reg .r11) (.reg .rbp), -- 256: xor r11, rbp
  .xor (.reg .r12) (.reg .rax), -- 257: xor r12, rax
  .rol .r10 43#64, -- 258: rol r10, 0x2b
  .xor (.reg .r8) (.reg .rbx), -- 259: xor r8, rbx
  .mov (.reg .r13) (.reg .r9), -- 260: mov r13, r9
  .rol .r11 21#64, -- 261: rol r11, 0x15
  .or (.reg .r9) (.reg .r10), -- 262: or r9, r10
  .xor (.reg .r9) (.reg .r8), -- 263: xor r9, r8
  .rol .r12 14#64, -- 264: rol r12, 0xe
  .xor (.reg .r9) (.mem ⟨some .rsi, none, 0#64⟩), -- 265: xor r9, QWORD PTR [rsi]
  .mov (.reg .r14) (.reg .r12), -- 266: mov r14, r12
  .and (.reg .r12) (.reg .r11), -- 267: and r12, r11
  .mov (.mem ⟨some .r15, none, 0#64⟩) (.reg .r9), -- 268: mov QWORD PTR [r15], r9
  .xor (.reg .r12) (.reg .r10), -- 269: xor r12, r10
  .not (.reg .r10), -- 270: not r10
  .mov (.mem ⟨some .r15, none, 16#64⟩) (.reg .r12), -- 271: mov QWORD PTR [r15 + 0x10], r12
  .or (.reg .r10) (.reg .r11), -- 272: or r10, r11
  .mov (.reg .r12) (.mem ⟨some .rdi, none, 176#64⟩), -- 273: mov r12, QWORD PTR [rdi + 0xb0]
  .xor (.reg .r10) (.reg .r13), -- 274: xor r10, r13
  .mov (.mem ⟨some .r15, none, 8#64⟩) (.reg .r10), -- 275: mov QWORD PTR [r15 + 0x08], r10
  .and (.reg .r13) (.reg .r8), -- 276: and r13, r8
  .mov (.reg .r9) (.mem ⟨some .rdi, none, 72#64⟩), -- 277: mov r9, QWORD PTR [rdi + 0x48]
  .xor (.reg .r13) (.reg .r14), -- 278: xor r13, r14
  .mov (.reg .r10) (.mem ⟨some .rdi, none, 80#64⟩), -- 279: mov r10, QWORD PTR [rdi + 0x50]
  .mov (.mem ⟨some .r15, none, 32#64⟩) (.reg .r13), -- 280: mov QWORD PTR [r15 + 0x20], r13
  .or (.reg .r14) (.reg .r8), -- 281: or r14, r8
  .mov (.reg .r8) (.mem ⟨some .rdi, none, 24#64⟩), -- 282: mov r8, QWORD PTR [rdi + 0x18]
  .xor (.reg .r14) (.reg .r11), -- 283: xor r14, r11
  .mov (.reg .r11) (.mem ⟨some .rdi, none, 128#64⟩), -- 284: mov r11, QWORD PTR [rdi + 0x80]
  .mov (.mem ⟨some .r15, none, 24#64⟩) (.reg .r14), -- 285: mov QWORD PTR [r15 + 0x18], r14
  .xor (.reg .r8) (.reg .rbp), -- 286: xor r8, rbp
  .xor (.reg .r12) (.reg .rdx), -- 287: xor r12, rdx
  .rol .r8 28#64, -- 288: rol r8, 0x1c
  .xor (.reg .r11) (.reg .rcx), -- 289: xor r11, rcx
  .xor (.reg .r9) (.reg .rax), -- 290: xor r9, rax
  .rol .r12 61#64, -- 291: rol r12, 0x3d
  .rol .r11 45#64, -- 292: rol r11, 0x2d
  .xor (.reg .r10) (.reg .rbx), -- 293: xor r10, rbx
  .rol .r9 20#64, -- 294: rol r9, 0x14
  .mov (.reg .r13) (.reg .r8), -- 295: mov r13, r8
  .or (.reg .r8) (.reg .r12), -- 296: or r8, r12
  .rol .r10 3#64, -- 297: rol r10, 0x3
  .xor (.reg .r8) (.reg .r11), -- 298: xor r8, r11
  .mov (.mem ⟨some .r15, none, 64#64⟩) (.reg .r8), -- 299: mov QWORD PTR [r15 + 0x40], r8
  .mov (.reg .r14) (.reg .r9), -- 300: mov r14, r9
  .and (.reg .r9) (.reg .r13), -- 301: and r9, r13
  .mov (.reg .r8) (.mem ⟨some .rdi, none, 8#64⟩), -- 302: mov r8, QWORD PTR [rdi + 0x08]
  .xor (.reg .r9) (.reg .r12), -- 303: xor r9, r12
  .not (.reg .r12), -- 304: not r12
  .mov (.mem ⟨some .r15, none, 72#64⟩) (.reg .r9), -- 305: mov QWORD PTR [r15 + 0x48], r9
  .or (.reg .r12) (.reg .r11), -- 306: or r12, r11
  .mov (.reg .r9) (.mem ⟨some .rdi, none, 56#64⟩), -- 307: mov r9, QWORD PTR [rdi + 0x38]
  .xor (.reg .r12) (.reg .r10), -- 308: xor r12, r10
  .mov (.mem ⟨some .r15, none, 56#64⟩) (.reg .r12), -- 309: mov QWORD PTR [r15 + 0x38], r12
  .and (.reg .r11) (.reg .r10), -- 310: and r11, r10
  .mov (.reg .r12) (.mem ⟨some .rdi, none, 160#64⟩), -- 311: mov r12, QWORD PTR [rdi + 0xa0]
  .xor (.reg .r11) (.reg .r14), -- 312: xor r11, r14
  .mov (.mem ⟨some .r15, none, 48#64⟩) (.reg .r11), -- 313: mov QWORD PTR [r15 + 0x30], r11
  .or (.reg .r14) (.reg .r10), -- 314: or r14, r10
  .mov (.reg .r10) (.mem ⟨some .rdi, none, 104#64⟩), -- 315: mov r10, QWORD PTR [rdi + 0x68]
  .xor (.reg .r14) (.reg .r13), -- 316: xor r14, r13
  .mov (.reg .r11) (.mem ⟨some .rdi, none, 152#64⟩), -- 317: mov r11, QWORD PTR [rdi + 0x98]
  .mov (.mem ⟨some .r15, none, 40#64⟩) (.reg .r14), -- 318: mov QWORD PTR [r15 + 0x28], r14
  .xor (.reg .r10) (.reg .rbp), -- 319: xor r10, rbp
  .xor (.reg .r11) (.reg .rax), -- 320: xor r11, rax
  .rol .r10 25#64, -- 321: rol r10, 0x19
  .xor (.reg .r9) (.reg .rdx), -- 322: xor r9, rdx
  .rol .r11 8#64, -- 323: rol r11, 0x8
  .xor (.reg .r12) (.reg .rbx), -- 324: xor r12, rbx
  .rol .r9 6#64, -- 325: rol r9, 0x6
  .xor (.reg .r8) (.reg .rcx), -- 326: xor r8, rcx
  .rol .r12 18#64, -- 327: rol r12, 0x12
  .mov (.reg .r13) (.reg .r10), -- 328: mov r13, r10
  .and (.reg .r10) (.reg .r11), -- 329: and r10, r11
  .rol .r8 1#64, -- 330: rol r8, 1
  .not (.reg .r11), -- 331: not r11
  .xor (.reg .r10) (.reg .r9), -- 332: xor r10, r9
  .mov (.mem ⟨some .r15, none, 88#64⟩) (.reg .r10), -- 333: mov QWORD PTR [r15 + 0x58], r10
  .mov (.reg .r14) (.reg .r12), -- 334: mov r14, r12
  .and (.reg .r12) (.reg .r11), -- 335: and r12, r11
  .mov (.reg .r10) (.mem ⟨some .rdi, none, 88#64⟩), -- 336: mov r10, QWORD PTR [rdi + 0x58]
  .xor (.reg .r12) (.reg .r13), -- 337: xor r12, r13
  .mov (.mem ⟨some .r15, none, 96#64⟩) (.reg .r12), -- 338: mov QWORD PTR [r15 + 0x60], r12
  .or (.reg .r13) (.reg .r9), -- 339: or r13, r9
  .mov (.reg .r12) (.mem ⟨some .rdi, none, 184#64⟩), -- 340: mov r12, QWORD PTR [rdi + 0xb8]
  .xor (.reg .r13) (.reg .r8), -- 341: xor r13, r8
  .mov (.mem ⟨some .r15, none, 80#64⟩) (.reg .r13), -- 342: mov QWORD PTR [r15 + 0x50], r13
  .and (.reg .r9) (.reg .r8), -- 343: and r9, r8
  .xor (.reg .r9) (.reg .r14), -- 344: xor r9, r14
  .mov (.mem ⟨some .r15, none, 112#64⟩) (.reg .r9), -- 345: mov QWORD PTR [r15 + 0x70], r9
  .or (.reg .r14) (.reg .r8), -- 346: or r14, r8
  .mov (.reg .r9) (.mem ⟨some .rdi, none, 40#64⟩), -- 347: mov r9, QWORD PTR [rdi + 0x28]
  .xor (.reg .r14) (.reg .r11), -- 348: xor r14, r11
  .mov (.reg .r11) (.mem ⟨some .rdi, none, 136#64⟩), -- 349: mov r11, QWORD PTR [rdi + 0x88]
  .mov (.mem ⟨some .r15, none, 104#64⟩) (.reg .r14), -- 350: mov QWORD PTR [r15 + 0x68], r14
  .mov (.reg .r8) (.mem ⟨some .rdi, none, 32#64⟩), -- 351: mov r8, QWORD PTR [rdi + 0x20]
  .xor (.reg .r10) (.reg .rcx), -- 352: xor r10, rcx
  .xor (.reg .r11) (.reg .rdx), -- 353: xor r11, rdx
  .rol .r10 10#64, -- 354: rol r10, 0xa
  .xor (.reg .r9) (.reg .rbx), -- 355: xor r9, rbx
  .rol .r11 15#64, -- 356: rol r11, 0xf
  .xor (.reg .r12) (.reg .rbp), -- 357: xor r12, rbp
  .rol .r9 36#64, -- 358: rol r9, 0x24
  .xor (.reg .r8) (.reg .rax), -- 359: xor r8, rax
  .rol .r12 56#64, -- 360: rol r12, 0x38
  .mov (.reg .r13) (.reg .r10), -- 361: mov r13, r10
  .or (.reg .r10) (.reg .r11), -- 362: or r10, r11
  .rol .r8 27#64, -- 363: rol r8, 0x1b
  .not (.reg .r11), -- 364: not r11
  .xor (.reg .r10) (.reg .r9), -- 365: xor r10, r9
  .mov (.mem ⟨some .r15, none, 128#64⟩) (.reg .r10), -- 366: mov QWORD PTR [r15 + 0x80], r10
  .mov (.reg .r14) (.reg .r12), -- 367: mov r14, r12
  .or (.reg .r12) (.reg .r11), -- 368: or r12, r11
  .xor (.reg .r12) (.reg .r13), -- 369: xor r12, r13
  .mov (.mem ⟨some .r15, none, 136#64⟩) (.reg .r12), -- 370: mov QWORD PTR [r15 + 0x88], r12
  .and (.reg .r13) (.reg .r9), -- 371: and r13, r9
  .xor (.reg .r13) (.reg .r8), -- 372: xor r13, r8
  .mov (.mem ⟨some .r15, none, 120#64⟩) (.reg .r13), -- 373: mov QWORD PTR [r15 + 0x78], r13
  .or (.reg .r9) (.reg .r8), -- 374: or r9, r8
  .xor (.reg .r9) (.reg .r14), -- 375: xor r9, r14
  .mov (.mem ⟨some .r15, none, 152#64⟩) (.reg .r9), -- 376: mov QWORD PTR [r15 + 0x98], r9
  .and (.reg .r8) (.reg .r14), -- 377: and r8, r14
  .xor (.reg .r8) (.reg .r11), -- 378: xor r8, r11
  .mov (.mem ⟨some .r15, none, 144#64⟩) (.reg .r8), -- 379: mov QWORD PTR [r15 + 0x90], r8
  .xor (.reg .rdx) (.mem ⟨some .rdi, none, 16#64⟩), -- 380: xor rdx, QWORD PTR [rdi + 0x10]
  .xor (.reg .rbp) (.mem ⟨some .rdi, none, 64#64⟩), -- 381: xor rbp, QWORD PTR [rdi + 0x40]
  .rol .rdx 62#64, -- 382: rol rdx, 0x3e
  .xor (.reg .rcx) (.mem ⟨some .rdi, none, 168#64⟩), -- 383: xor rcx, QWORD PTR [rdi + 0xa8]
  .rol .rbp 55#64, -- 384: rol rbp, 0x37
  .xor (.reg .rax) (.mem ⟨some .rdi, none, 112#64⟩), -- 385: xor rax, QWORD PTR [rdi + 0x70]
  .rol .rcx 2#64, -- 386: rol rcx, 0x2
  .xor (.reg .rbx) (.mem ⟨some .rdi, none, 120#64⟩), -- 387: xor rbx, QWORD PTR [rdi + 0x78]
  .xchg .rdi .r15, -- 388: xchg rdi, r15
  .rol .rax 39#64, -- 389: rol rax, 0x27
  .rol .rbx 41#64, -- 390: rol rbx, 0x29
  .mov (.reg .r13) (.reg .rdx), -- 391: mov r13, rdx
  .and (.reg .rdx) (.reg .rbp), -- 392: and rdx, rbp
  .not (.reg .rbp), -- 393: not rbp
  .xor (.reg .rdx) (.reg .rcx), -- 394: xor rdx, rcx
  .mov (.mem ⟨some .rdi, none, 192#64⟩) (.reg .rdx), -- 395: mov QWORD PTR [rdi + 0xc0], rdx
  .mov (.reg .r14) (.reg .rax), -- 396: mov r14, rax
  .and (.reg .rax) (.reg .rbp), -- 397: and rax, rbp
  .xor (.reg .rax) (.reg .r13), -- 398: xor rax, r13
  .mov (.mem ⟨some .rdi, none, 160#64⟩) (.reg .rax), -- 399: mov QWORD PTR [rdi + 0xa0], rax
  .or (.reg .r13) (.reg .rcx), -- 400: or r13, rcx
  .xor (.reg .r13) (.reg .rbx), -- 401: xor r13, rbx
  .mov (.mem ⟨some .rdi, none, 184#64⟩) (.reg .r13), -- 402: mov QWORD PTR [rdi + 0xb8], r13
  .and (.reg .rcx) (.reg .rbx), -- 403: and rcx, rbx
  .xor (.reg .rcx) (.reg .r14), -- 404: xor rcx, r14
  .mov (.mem ⟨some .rdi, none, 176#64⟩) (.reg .rcx), -- 405: mov QWORD PTR [rdi + 0xb0], rcx
  .or (.reg .rbx) (.reg .r14), -- 406: or rbx, r14
  .xor (.reg .rbx) (.reg .rbp), -- 407: xor rbx, rbp
  .mov (.mem ⟨some .rdi, none, 168#64⟩) (.reg .rbx), -- 408: mov QWORD PTR [rdi + 0xa8], rbx
  .mov (.reg .rbp) (.reg .rdx), -- 409: mov rbp, rdx
  .mov (.reg .rdx) (.reg .r13), -- 410: mov rdx, r13
  .lea .rsi ⟨some .rsi, none, 8#64⟩, -- 411: lea rsi, [rsi + 0x8]
  .mov (.reg .r8) (.mem ⟨some .rsp, none, 200#64⟩), -- 412: mov r8, QWORD PTR [rsp + 0xc8]
  .add (.reg .r8) (.imm 2#64), -- 413: add r8, 0x2
  .cmp (.reg .r8) (.imm 24#64), -- 414: cmp r8, 24
  .jcc .nz 21, -- 415: jne @2b
  .lea .rsi ⟨some .rsi, none, 0xffffffffffffff40#64⟩, -- 416: lea rsi, [rsi -0xc0]
  .not (.mem ⟨some .rdi, none, 8#64⟩), -- 417: not QWORD PTR [rdi + 0x08]
  .not (.mem ⟨some .rdi, none, 16#64⟩), -- 418: not QWORD PTR [rdi + 0x10]
  .not (.mem ⟨some .rdi, none, 64#64⟩), -- 419: not QWORD PTR [rdi + 0x40]
  .not (.mem ⟨some .rdi, none, 96#64⟩), -- 420: not QWORD PTR [rdi + 0x60]
  .not (.mem ⟨some .rdi, none, 136#64⟩), -- 421: not QWORD PTR [rdi + 0x88]
  .not (.mem ⟨some .rdi, none, 160#64⟩), -- 422: not QWORD PTR [rdi + 0xa0]
  .add (.reg .rsp) (.imm 208#64), -- 423: add rsp, 208
  .pop .r15, -- 424: pop r15
  .pop .r14, -- 425: pop r14
  .pop .r13, -- 426: pop r13
  .pop .r12, -- 427: pop r12
  .pop .rbp, -- 428: pop rbp
  .pop .rbx] -- 429: pop rbx

/-- The registers that the operands of sha3_keccak_f1600.rs:38-490 say may change. -/
def sha3KeccakF1600Regs : List Reg := [.rdi, .rsi, .r10, .r11, .r12, .r13, .r14, .r15, .r8, .r9, .rax, .rcx, .rdx]

end Verif.X86.Asm
