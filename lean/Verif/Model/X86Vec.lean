import Verif.Model.X86

/-!
The machine of `Model/X86` with the registers `ymm0` to `ymm15` and the AVX and AVX2 instructions that
`graviola/src/low/x86_64/sha3_keccak4_f1600_alt.rs` and `mlkem_*.rs` (but `mlkem_rej_uniform_vartime.rs`) use.  The semantics of each instruction is that of the Intel Software
Developer's Manual, volume 2 (VEX encoded forms: an instruction that writes an `xmm` register clears the upper half of the `ymm`
register).

* A 256-bit operand in memory is four words at successive addresses; `vmovdqa` faults at an address that is not a multiple of 32,
  no other instruction here demands alignment.
* No vector instruction here touches the general registers or the flags.
* The upper halves of the `zmm` registers are not modelled: nothing here reads them.
-/
namespace Verif.X86
open Verif

/-- The contents of a `ymm` register: four words, the lowest first. -/
structure V4 where
  w0 : Word
  w1 : Word
  w2 : Word
  w3 : Word
  deriving DecidableEq

/-- Word `i`. -/
def V4.lane (v : V4) : Nat → Word
  | 0 => v.w0
  | 1 => v.w1
  | 2 => v.w2
  | _ => v.w3

/-- Word by word. -/
def V4.map (f : Word → Word) (a : V4) : V4 := ⟨f a.w0, f a.w1, f a.w2, f a.w3⟩
/-- Word by word. -/
def V4.map2 (f : Word → Word → Word) (a b : V4) : V4 := ⟨f a.w0 b.w0, f a.w1 b.w1, f a.w2 b.w2, f a.w3 b.w3⟩

/-- Byte `i` of the 32 bytes. -/
def V4.byte (v : V4) (i : Nat) : Byte := (v.lane (i / 8)).extractLsb' (8 * (i % 8)) 8

/-- The word of eight bytes, the lowest first. -/
def ofBytes8 (f : Nat → Byte) : Word := f 7 ++ f 6 ++ f 5 ++ f 4 ++ f 3 ++ f 2 ++ f 1 ++ f 0

/-- `vpshufb`: byte `i` is zero if the top bit of byte `i` of the mask is set, and else the byte of the same half of `a` that its
low four bits name. -/
def V4.shufb (a m : V4) (i : Nat) : Byte :=
  if (m.byte i).getLsbD 7 then 0#8 else a.byte (16 * (i / 16) + (m.byte i).toNat % 16)

/-- The half of `vperm2i128` that the four bits `n` select; bit 3 clears it. -/
def V4.pick (a b : V4) (n : Nat) : Word × Word :=
  if n / 8 % 2 = 1 then (0#64, 0#64) else
    match n % 4 with
    | 0 => (a.w0, a.w1)
    | 1 => (a.w2, a.w3)
    | 2 => (b.w0, b.w1)
    | _ => (b.w2, b.w3)

/-- Lane `i` of the sixteen of 16 bits. -/
def V4.h (v : V4) (i : Nat) : BitVec 16 := (v.lane (i / 4)).extractLsb' (16 * (i % 4)) 16
/-- Lane `i` of the eight of 32 bits. -/
def V4.d (v : V4) (i : Nat) : BitVec 32 := (v.lane (i / 2)).extractLsb' (32 * (i % 2)) 32

/-- The word of four lanes of 16 bits, the lowest first. -/
def ofLanes4 (f : Nat → BitVec 16) : Word := f 3 ++ f 2 ++ f 1 ++ f 0
/-- The vector of sixteen lanes of 16 bits. -/
def V4.of16 (f : Nat → BitVec 16) : V4 :=
  ⟨ofLanes4 f, ofLanes4 fun i => f (4 + i), ofLanes4 fun i => f (8 + i), ofLanes4 fun i => f (12 + i)⟩
/-- The vector of eight lanes of 32 bits. -/
def V4.of32 (f : Nat → BitVec 32) : V4 := ⟨f 1 ++ f 0, f 3 ++ f 2, f 5 ++ f 4, f 7 ++ f 6⟩

/-- `vpmulhw` in a lane: the upper half of the signed product. -/
def mulhi16 (a b : BitVec 16) : BitVec 16 := BitVec.ofInt 16 (a.toInt * b.toInt / 65536)

/-- A machine state: that of the scalar machine, and the vector registers. -/
structure VSt where
  s : St
  y : Nat → V4

/-- Writing a vector register. -/
def VSt.set (t : VSt) (d : Nat) (v : V4) : VSt := { t with y := fun r => if r = d then v else t.y r }

/-- The words of a 256-bit operand. -/
def VSt.load (t : VSt) (a : Word) : Option V4 := do
  let w0 ← t.s.load a
  let w1 ← t.s.load (a + 8#64)
  let w2 ← t.s.load (a + 16#64)
  let w3 ← t.s.load (a + 24#64)
  some ⟨w0, w1, w2, w3⟩

/-- Storing a 256-bit operand. -/
def VSt.store (t : VSt) (a : Word) (v : V4) : Option VSt := do
  let s0 ← t.s.store a v.w0
  let s1 ← s0.store (a + 8#64) v.w1
  let s2 ← s1.store (a + 16#64) v.w2
  let s3 ← s2.store (a + 24#64) v.w3
  some { t with s := s3 }

/-- A vector operand. -/
inductive VOpd where
  | y (r : Nat)
  | m (a : Addr)

/-- The value of a vector operand. -/
def VSt.val (t : VSt) : VOpd → Option V4
  | .y r => some (t.y r)
  | .m a => t.load (t.s.ea a)

/-- The instructions.  `sc`: one of the scalar machine. -/
inductive VInstr where
  | sc (i : Instr)
  /-- `vmovdqu` with a register as destination -/
  | mov (d : Nat) (x : VOpd)
  /-- `vmovdqu` to memory -/
  | st (m : Addr) (x : Nat)
  | pxor (d a : Nat) (b : VOpd)
  | por (d a : Nat) (b : VOpd)
  | pandn (d a : Nat) (b : VOpd)
  | psrlq (d a n : Nat)
  | psllq (d a n : Nat)
  | pshufb (d a : Nat) (b : VOpd)
  | pbroadcastq (d : Nat) (m : Addr)
  | punpcklqdq (d a : Nat) (b : VOpd)
  | punpckhqdq (d a : Nat) (b : VOpd)
  | perm2i128 (d a : Nat) (b : VOpd) (n : Nat)
  /-- `vmovq xmm, m64` -/
  | movqLd (d : Nat) (m : Addr)
  /-- `vmovq m64, xmm` -/
  | movqSt (m : Addr) (x : Nat)
  /-- `vmovhpd m64, xmm` -/
  | movhpdSt (m : Addr) (x : Nat)
  /-- `vpinsrq xmm, xmm, m64, imm8` -/
  | pinsrq (d a : Nat) (m : Addr) (n : Nat)
  /-- `vinserti128 ymm, ymm, xmm, imm8` -/
  | inserti128 (d a b n : Nat)
  /-- `vextracti128 xmm, ymm, imm8` -/
  | extracti128 (d a n : Nat)
  /-- `vmovdqa` with a register as destination -/
  | movA (d : Nat) (x : VOpd)
  /-- `vmovdqa` to memory -/
  | stA (m : Addr) (x : Nat)
  /-- `vmovd xmm, r32` -/
  | vmovd (d : Nat) (r : Reg)
  /-- `movd xmm, r32`, not VEX encoded: the upper half of the `ymm` register stays -/
  | movd (d : Nat) (r : Reg)
  /-- `vpbroadcastd ymm, xmm` -/
  | pbroadcastd (d a : Nat)
  | pand (d a : Nat) (b : VOpd)
  | paddw (d a : Nat) (b : VOpd)
  | psubw (d a : Nat) (b : VOpd)
  | pmullw (d a : Nat) (b : VOpd)
  | pmulhw (d a : Nat) (b : VOpd)
  | psraw (d a n : Nat)
  | psrlw (d a n : Nat)
  | psllw (d a n : Nat)
  | psrld (d a n : Nat)
  | pslld (d a n : Nat)
  | movsldup (d : Nat) (b : VOpd)
  | pblendw (d a : Nat) (b : VOpd) (n : Nat)
  | pblendd (d a : Nat) (b : VOpd) (n : Nat)
  | permq (d : Nat) (b : VOpd) (n : Nat)
  | permd (d a : Nat) (b : VOpd)

/-- The address of an operand of `vmovdqa` is a multiple of 32. -/
def VSt.aligned (t : VSt) : VOpd → Bool
  | .y _ => true
  | .m a => (t.s.ea a).toNat % 32 == 0

/-- The effect of a vector instruction. -/
def VInstr.eff (i : VInstr) (t : VSt) : Option VSt :=
  match i with
  | .sc _ => none
  | .mov d x => do some (t.set d (← t.val x))
  | .st m x => t.store (t.s.ea m) (t.y x)
  | .pxor d a b => do some (t.set d (V4.map2 (fun x y => x ^^^ y) (t.y a) (← t.val b)))
  | .por d a b => do some (t.set d (V4.map2 (fun x y => x ||| y) (t.y a) (← t.val b)))
  | .pandn d a b => do some (t.set d (V4.map2 (fun x y => ~~~ x &&& y) (t.y a) (← t.val b)))
  | .psrlq d a n => some (t.set d (V4.map (fun x => x >>> n) (t.y a)))
  | .psllq d a n => some (t.set d (V4.map (fun x => x <<< n) (t.y a)))
  | .pshufb d a b => do
    let f := V4.shufb (t.y a) (← t.val b)
    some (t.set d ⟨ofBytes8 f, ofBytes8 fun i => f (8 + i), ofBytes8 fun i => f (16 + i), ofBytes8 fun i => f (24 + i)⟩)
  | .pbroadcastq d m => do
    let w ← t.s.load (t.s.ea m)
    some (t.set d ⟨w, w, w, w⟩)
  | .punpcklqdq d a b => do
    let v ← t.val b
    some (t.set d ⟨(t.y a).w0, v.w0, (t.y a).w2, v.w2⟩)
  | .punpckhqdq d a b => do
    let v ← t.val b
    some (t.set d ⟨(t.y a).w1, v.w1, (t.y a).w3, v.w3⟩)
  | .perm2i128 d a b n => do
    let v ← t.val b
    let l := V4.pick (t.y a) v (n % 16)
    let h := V4.pick (t.y a) v (n / 16)
    some (t.set d ⟨l.1, l.2, h.1, h.2⟩)
  | .movqLd d m => do
    let w ← t.s.load (t.s.ea m)
    some (t.set d ⟨w, 0#64, 0#64, 0#64⟩)
  | .movqSt m x => do some { t with s := ← t.s.store (t.s.ea m) (t.y x).w0 }
  | .movhpdSt m x => do some { t with s := ← t.s.store (t.s.ea m) (t.y x).w1 }
  | .pinsrq d a m n => do
    let w ← t.s.load (t.s.ea m)
    some (t.set d (if n % 2 = 0 then ⟨w, (t.y a).w1, 0#64, 0#64⟩ else ⟨(t.y a).w0, w, 0#64, 0#64⟩))
  | .inserti128 d a b n =>
    some (t.set d (if n % 2 = 0 then ⟨(t.y b).w0, (t.y b).w1, (t.y a).w2, (t.y a).w3⟩ else
      ⟨(t.y a).w0, (t.y a).w1, (t.y b).w0, (t.y b).w1⟩))
  | .extracti128 d a n =>
    some (t.set d (if n % 2 = 0 then ⟨(t.y a).w0, (t.y a).w1, 0#64, 0#64⟩ else ⟨(t.y a).w2, (t.y a).w3, 0#64, 0#64⟩))
  | .movA d x => do
    let v ← t.val x
    if t.aligned x then some (t.set d v) else none
  | .stA m x => if t.aligned (.m m) then t.store (t.s.ea m) (t.y x) else none
  | .vmovd d r => some (t.set d ⟨((t.s.get r).setWidth 32).setWidth 64, 0#64, 0#64, 0#64⟩)
  | .movd d r => some (t.set d ⟨((t.s.get r).setWidth 32).setWidth 64, 0#64, (t.y d).w2, (t.y d).w3⟩)
  | .pbroadcastd d a => some (t.set d (V4.of32 fun _ => (t.y a).d 0))
  | .pand d a b => do some (t.set d (V4.map2 (fun x y => x &&& y) (t.y a) (← t.val b)))
  | .paddw d a b => do
    let v ← t.val b
    some (t.set d (V4.of16 fun i => (t.y a).h i + v.h i))
  | .psubw d a b => do
    let v ← t.val b
    some (t.set d (V4.of16 fun i => (t.y a).h i - v.h i))
  | .pmullw d a b => do
    let v ← t.val b
    some (t.set d (V4.of16 fun i => (t.y a).h i * v.h i))
  | .pmulhw d a b => do
    let v ← t.val b
    some (t.set d (V4.of16 fun i => mulhi16 ((t.y a).h i) (v.h i)))
  | .psraw d a n => some (t.set d (V4.of16 fun i => ((t.y a).h i).sshiftRight n))
  | .psrlw d a n => some (t.set d (V4.of16 fun i => (t.y a).h i >>> n))
  | .psllw d a n => some (t.set d (V4.of16 fun i => (t.y a).h i <<< n))
  | .psrld d a n => some (t.set d (V4.of32 fun i => (t.y a).d i >>> n))
  | .pslld d a n => some (t.set d (V4.of32 fun i => (t.y a).d i <<< n))
  | .movsldup d b => do
    let v ← t.val b
    some (t.set d (V4.of32 fun i => v.d (i - i % 2)))
  | .pblendw d a b n => do
    let v ← t.val b
    some (t.set d (V4.of16 fun i => if n.testBit (i % 8) then v.h i else (t.y a).h i))
  | .pblendd d a b n => do
    let v ← t.val b
    some (t.set d (V4.of32 fun i => if n.testBit i then v.d i else (t.y a).d i))
  | .permq d b n => do
    let v ← t.val b
    some (t.set d ⟨v.lane (n % 4), v.lane (n / 4 % 4), v.lane (n / 16 % 4), v.lane (n / 64 % 4)⟩)
  | .permd d a b => do
    let v ← t.val b
    some (t.set d (V4.of32 fun i => v.d (((t.y a).d i).toNat % 8)))

/-- One instruction at position `pc`: the next position and state. -/
def VInstr.exec (i : VInstr) (pc : Nat) (t : VSt) : Option (Nat × VSt) :=
  match i with
  | .sc i => (i.exec pc t.s).map fun p => (p.1, { t with s := p.2 })
  | i => (i.eff t).map fun t' => (pc + 1, t')

/-- A program. -/
abbrev VProg := List VInstr

/-- Run at most `fuel` instructions from position `pc`; the program ends when control reaches its end. -/
def vrun (P : VProg) : Nat → Nat → VSt → Option VSt
  | 0, _, _ => none
  | f + 1, pc, t =>
    if pc = P.length then some t else
      match P[pc]? with
      | none => none
      | some i =>
        match i.exec pc t with
        | none => none
        | some (pc', t') => vrun P f pc' t'

/-- The program, started in `t`, ends, without a fault, in a state of which `Q` holds. -/
def VRuns (P : VProg) (t : VSt) (Q : VSt → Prop) : Prop := ∃ f t', vrun P f 0 t = some t' ∧ Q t'

/-- low/x86_64/sha3_keccak4_f1600_shim.rs:9-14: `RHO8`. -/
def rho8 : V4 := ⟨0x0605040302010007#64, 0x0E0D0C0B0A09080F#64, 0x1615141312111017#64, 0x1E1D1C1B1A19181F#64⟩
/-- low/x86_64/sha3_keccak4_f1600_shim.rs:15-20: `RHO56`. -/
def rho56 : V4 := ⟨0x0007060504030201#64, 0x080F0E0D0C0B0A09#64, 0x1017161514131211#64, 0x181F1E1D1C1B1A19#64⟩
/-- A vector as an array. -/
def V4.words (v : V4) : Words := [v.w0, v.w1, v.w2, v.w3]

end Verif.X86
