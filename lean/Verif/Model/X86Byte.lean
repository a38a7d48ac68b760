import Verif.Model.X86

/-!
The general registers and flags of `Model/X86` with memory as bytes, the registers `xmm0` to `xmm15` and the instructions that
`graviola/src/low/x86_64/mlkem_rej_uniform_vartime.rs` and the `asm!` blocks of `graviola/src/low/x86_64/cpu.rs` use: they read and write at
any address, which memory made of words cannot express.  The semantics of each instruction is that of the Intel Software Developer's Manual, volume 2.

* Scalar instructions are those of `Model/X86`, on registers only: their memory, `s.mem`, is not used here.
* The sampler uses the lower halves of the vector registers, with instructions (not VEX encoded) that neither read nor change the upper
  halves; these are bytes 16 to 31, which only the two instructions with `Y` in their names use.
* `d8` operands are the low bytes of registers.
* `rep movsb` goes upwards: the direction flag is clear on entry to an `asm!` block.
* `movdqa` is used between registers only.
-/
namespace Verif.X86
open Verif

/-- The contents of an `xmm` register: byte `i`, for `i` below 16 (of a `ymm` register: below 32). -/
abbrev Xmm := Nat → Byte

/-- Lane `i` of the eight of 16 bits. -/
def xh (v : Xmm) (i : Nat) : BitVec 16 := v (2 * i + 1) ++ v (2 * i)
/-- The register of eight lanes of 16 bits. -/
def xof (f : Nat → BitVec 16) : Xmm := fun i => (f (i / 2)).extractLsb' (8 * (i % 2)) 8

/-- A machine state. -/
structure BSt where
  s : St
  bm : Word → Option Byte
  bw : Word → Bool
  x : Nat → Xmm

/-- Writing a vector register. -/
def BSt.setx (t : BSt) (d : Nat) (v : Xmm) : BSt := { t with x := fun r => if r = d then v else t.x r }

/-- The address of byte `i` of an array at `p`. -/
def badr (p : Word) (i : Nat) : Word := p + BitVec.ofNat 64 i

/-- A load of `n` bytes, with zeros above. -/
def BSt.load (t : BSt) (a : Word) (n : Nat) : Option Xmm :=
  if ∀ i < n, (t.bm (badr a i)).isSome then some fun i => if i < n then (t.bm (badr a i)).getD 0#8 else 0#8 else none

/-- A store of `n` bytes. -/
def BSt.store (t : BSt) (a : Word) (n : Nat) (v : Xmm) : Option BSt :=
  if ∀ i < n, t.bw (badr a i) then
    some { t with bm := fun b => if (b - a).toNat < n then some (v (b - a).toNat) else t.bm b }
  else none

/-- `rep movsb`: `n` bytes from `a` to `d`, one after the other. -/
def bcopy (bw : Word → Bool) : Nat → Word → Word → (Word → Option Byte) → Option (Word → Option Byte)
  | 0, _, _, m => some m
  | n + 1, a, d, m => do
    let v ← m a
    if bw d then bcopy bw n (a + 1#64) (d + 1#64) fun b => if b = d then some v else m b else none

/-- The number of bits set. -/
def popcount (w : Word) : Nat := (List.range 64).countP fun i => w.getLsbD i

/-- `pext`: the bits of `w` where `m` is set, put together at the low end. -/
def pextv (w m : Word) : Word :=
  BitVec.ofNat 64 ((((List.range 64).filter fun i => m.getLsbD i).zipIdx.map fun p => if w.getLsbD p.1 then 2 ^ p.2 else 0).sum)

/-- The instructions.  `sc`: one of the scalar machine. -/
inductive BInstr where
  | sc (i : Instr)
  /-- `movq xmm, r64` -/
  | movqR (d : Nat) (r : Reg)
  /-- `pinsrq xmm, r64, imm8` -/
  | pinsrqR (d : Nat) (r : Reg) (n : Nat)
  /-- `movq xmm, m64` -/
  | movqM (d : Nat) (m : Addr)
  /-- `pinsrd xmm, m32, imm8` -/
  | pinsrdM (d : Nat) (m : Addr) (n : Nat)
  | pshufb (d a : Nat)
  | movdqa (d a : Nat)
  | psrlw (d n : Nat)
  | pblendw (d a n : Nat)
  | pand (d a : Nat)
  | pcmpgtw (d a : Nat)
  /-- `pmovmskb r32, xmm` -/
  | pmovmskb (r : Reg) (a : Nat)
  | pext (d a b : Reg)
  | popcnt (d a : Reg)
  /-- `movdqu xmm, m128` -/
  | movdquLd (d : Nat) (m : Addr)
  /-- `movdqu m128, xmm` -/
  | movdquSt (m : Addr) (a : Nat)
  | repMovsb
  /-- `jl` -/
  | jl (l : Nat)
  /-- `mov r8, m8` -/
  | ldb (r : Reg) (m : Addr)
  /-- `xor r8, m8` -/
  | xorb (r : Reg) (m : Addr)
  /-- `or r8, r8` -/
  | orb (r a : Reg)
  /-- `mov m8, imm8` -/
  | stb (m : Addr) (v : Byte)
  /-- `vpxor ymm, ymm, ymm` -/
  | vpxorY (d a b : Nat)
  /-- `vmovdqu m256, ymm` -/
  | vmovdquStY (m : Addr) (a : Nat)

/-- The low byte of a register. -/
def St.getb (s : St) (r : Reg) : Byte := (s.get r).setWidth 8
/-- Writing the low byte: the other bytes stay. -/
def St.setb (s : St) (r : Reg) (v : Byte) : St := s.set r ((s.get r).extractLsb' 8 56 ++ v)
/-- The flags of a bitwise operation on bytes. -/
def St.logicFlagsb (s : St) (v : Byte) : St := { s with zf := some (v == 0#8), sf := some v.msb, cf := some false, of := some false }

/-- The effect of an instruction that is not scalar. -/
def BInstr.eff (i : BInstr) (t : BSt) : Option BSt :=
  match i with
  | .sc _ | .jl _ => none
  | .movqR d r => some (t.setx d fun i => if i < 8 then (t.s.get r).extractLsb' (8 * i) 8 else 0#8)
  | .pinsrqR d r n =>
    some (t.setx d fun i => if i / 8 = n % 2 then (t.s.get r).extractLsb' (8 * (i % 8)) 8 else t.x d i)
  | .movqM d m => do some (t.setx d (← t.load (t.s.ea m) 8))
  | .pinsrdM d m n => do
    let v ← t.load (t.s.ea m) 4
    some (t.setx d fun i => if i / 4 = n % 4 then v (i % 4) else t.x d i)
  | .pshufb d a => some (t.setx d fun i => if (t.x a i).getLsbD 7 then 0#8 else t.x d ((t.x a i).toNat % 16))
  | .movdqa d a => some (t.setx d (t.x a))
  | .psrlw d n => some (t.setx d (xof fun i => xh (t.x d) i >>> n))
  | .pblendw d a n => some (t.setx d (xof fun i => if n.testBit i then xh (t.x a) i else xh (t.x d) i))
  | .pand d a => some (t.setx d fun i => t.x d i &&& t.x a i)
  | .pcmpgtw d a => some (t.setx d (xof fun i => if (xh (t.x a) i).toInt < (xh (t.x d) i).toInt then 0xffff#16 else 0#16))
  | .pmovmskb r a =>
    some { t with s := t.s.set r (BitVec.ofNat 64 (((List.range 16).map fun i => if (t.x a i).getLsbD 7 then 2 ^ i else 0).sum)) }
  | .pext d a b => some { t with s := t.s.set d (pextv (t.s.get a) (t.s.get b)) }
  | .popcnt d a =>
    some { t with s := { t.s.set d (BitVec.ofNat 64 (popcount (t.s.get a))) with
      zf := some (t.s.get a == 0#64), cf := some false, sf := some false, of := some false } }
  | .movdquLd d m => do some (t.setx d (← t.load (t.s.ea m) 16))
  | .movdquSt m a => t.store (t.s.ea m) 16 (t.x a)
  | .repMovsb => do
    let m ← bcopy t.bw t.s.rcx.toNat t.s.rsi t.s.rdi t.bm
    some { t with bm := m, s := { t.s with rcx := 0#64, rsi := t.s.rsi + t.s.rcx, rdi := t.s.rdi + t.s.rcx } }
  | .ldb r m => do some { t with s := t.s.setb r (← t.bm (t.s.ea m)) }
  | .xorb r m => do
    let v ← t.bm (t.s.ea m)
    some { t with s := (t.s.logicFlagsb (t.s.getb r ^^^ v)).setb r (t.s.getb r ^^^ v) }
  | .orb r a => some { t with s := (t.s.logicFlagsb (t.s.getb r ||| t.s.getb a)).setb r (t.s.getb r ||| t.s.getb a) }
  | .stb m v => t.store (t.s.ea m) 1 fun _ => v
  | .vpxorY d a b => some (t.setx d fun i => t.x a i ^^^ t.x b i)
  | .vmovdquStY m a => t.store (t.s.ea m) 32 (t.x a)

/-- One instruction at position `pc`: the next position and state. -/
def BInstr.exec (i : BInstr) (pc : Nat) (t : BSt) : Option (Nat × BSt) :=
  match i with
  | .jl l => t.s.sf.bind fun x => t.s.of.map fun y => (if x != y then l else pc + 1, t)
  | .sc i => (i.exec pc t.s).map fun p => (p.1, { t with s := p.2 })
  | i => (i.eff t).map fun t' => (pc + 1, t')

/-- A program. -/
abbrev BProg := List BInstr

/-- Run at most `fuel` instructions from position `pc`; the program ends when control reaches its end. -/
def brun (P : BProg) : Nat → Nat → BSt → Option BSt
  | 0, _, _ => none
  | f + 1, pc, t =>
    if pc = P.length then some t else
      match P[pc]? with
      | none => none
      | some i =>
        match i.exec pc t with
        | none => none
        | some (pc', t') => brun P f pc' t'

/-- The program, started in `t`, ends, without a fault, in a state of which `Q` holds. -/
def BRuns (P : BProg) (t : BSt) (Q : BSt → Prop) : Prop := ∃ f t', brun P f 0 t = some t' ∧ Q t'

/-- The addresses an instruction of those in `cpu.rs` touches: each with the number of bytes.  (Not for the others.) -/
def BInstr.addrs (t : BSt) : BInstr → List (Word × Nat)
  | .ldb _ m | .xorb _ m | .stb m _ => [(t.s.ea m, 1)]
  | .vmovdquStY m _ => [(t.s.ea m, 32)]
  | _ => []

/-- What an observer sees of the first `fuel` instructions from position `pc`: the position of each, and the addresses. -/
def btrace (P : BProg) : Nat → Nat → BSt → List (Nat × List (Word × Nat))
  | 0, _, _ => []
  | f + 1, pc, t =>
    match P[pc]? with
    | none => []
    | some i => (pc, i.addrs t) ::
      match i.exec pc t with
      | none => []
      | some (pc', t') => btrace P f pc' t'

end Verif.X86
