import Verif.Model.X86Byte

/-!
The `asm!` blocks of `graviola/src/low/x86_64/cpu.rs`.  Their operands are placeholders: the compiler chooses the registers, all different,
which are parameters here.  The comment at the end of a line gives its position; jump targets are positions.
-/
namespace Verif.X86.Asm
open Verif.X86

/-- `_zero_bytes`, low/x86_64/cpu.rs:56-83: `ptr` in `p`, `len` in `l`, `zero` in `ymm` register `z`. -/
def zeroBytes (z : Nat) (p l : Reg) : BProg := [
  .vpxorY z z z, -- 0: vpxor {zero}, {zero}, {zero}
  .sc (.cmp (.reg l) (.imm 32#64)), -- 1: 2: cmp {len}, 32
  .jl 7, -- 2: jl 3f
  .vmovdquStY ⟨some p, none, 0#64⟩ z, -- 3: vmovdqu [{ptr}], {zero}
  .sc (.add (.reg p) (.imm 32#64)), -- 4: add {ptr}, 32
  .sc (.sub (.reg l) (.imm 32#64)), -- 5: sub {len}, 32
  .sc (.jmp 1), -- 6: jmp 2b
  .sc (.sub (.reg l) (.imm 1#64)), -- 7: 3: sub {len}, 1
  .jl 12, -- 8: jl 4f
  .stb ⟨some p, none, 0#64⟩ 0#8, -- 9: mov byte ptr [{ptr}], 0
  .sc (.add (.reg p) (.imm 1#64)), -- 10: add {ptr}, 1
  .sc (.jmp 7)] -- 11: jmp 3b

/-- `ct_compare_bytes`, low/x86_64/cpu.rs:93-116: `a`, `b`, `len` in `l`, `tmp` and `acc` in the low bytes of `c` and `o`. -/
def ctCompareBytes (a b l c o : Reg) : BProg := [
  .sc (.cmp (.reg l) (.imm 0#64)), -- 0: 2: cmp {len}, 0
  .sc (.jcc .zr 9), -- 1: je 3f
  .ldb c ⟨some a, none, 0#64⟩, -- 2: mov {tmp}, [{a}]
  .xorb c ⟨some b, none, 0#64⟩, -- 3: xor {tmp}, [{b}]
  .orb o c, -- 4: or {acc}, {tmp}
  .sc (.add (.reg a) (.imm 1#64)), -- 5: add {a}, 1
  .sc (.add (.reg b) (.imm 1#64)), -- 6: add {b}, 1
  .sc (.sub (.reg l) (.imm 1#64)), -- 7: sub {len}, 1
  .sc (.jmp 0)] -- 8: jmp 2b

end Verif.X86.Asm
