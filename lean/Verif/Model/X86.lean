import Verif.Base.Words

/-!
A machine for the integer part of x86-64 that the `asm!` blocks of `graviola/src/low/x86_64/bignum_*.rs` use: the sixteen
general registers, the flags `CF`, `ZF`, `SF` and `OF`, and memory as 64-bit words.  The semantics of each instruction is that
of the Intel Software Developer's Manual, volume 2.

* A flag or a register that the manual leaves undefined after an instruction may not be relied on.  An undefined flag is `none`,
  and reading it stops the machine; the undefined destination of `bsf` and `bsr` is `junk`, an arbitrary value.
* Memory is a partial map from addresses to 64-bit words.  An access to an address that is not mapped, and a write to one that
  is not writable, stops the machine.  The instances meant are those where only multiples of eight are mapped: then two
  accesses overlap only if their addresses are equal, and an unaligned access stops the machine.
* `adc32` is the 32-bit form, which clears the upper half; of its flags only `CF` is modelled, the others count as undefined.
* The address of an instruction is its position: this is what `call` pushes and `ret` expects.  `leaSym` takes the address of
  table `k`, an arbitrary value of the state.
* `AF` and `PF` are not modelled: no instruction here reads them.
-/
namespace Verif.X86
open Verif

/-- The general registers. -/
inductive Reg where
  | rax | rbx | rcx | rdx | rsi | rdi | rbp | rsp | r8 | r9 | r10 | r11 | r12 | r13 | r14 | r15
  deriving DecidableEq, Repr

/-- A machine state. -/
structure St where
  rax : Word
  rbx : Word
  rcx : Word
  rdx : Word
  rsi : Word
  rdi : Word
  rbp : Word
  rsp : Word
  r8 : Word
  r9 : Word
  r10 : Word
  r11 : Word
  r12 : Word
  r13 : Word
  r14 : Word
  r15 : Word
  cf : Option Bool
  zf : Option Bool
  sf : Option Bool
  of : Option Bool
  mem : Word → Option Word
  wr : Word → Bool
  junk : Word
  sym : Nat → Word

/-- Reading a register. -/
def St.get (s : St) : Reg → Word
  | .rax => s.rax | .rbx => s.rbx | .rcx => s.rcx | .rdx => s.rdx
  | .rsi => s.rsi | .rdi => s.rdi | .rbp => s.rbp | .rsp => s.rsp
  | .r8 => s.r8 | .r9 => s.r9 | .r10 => s.r10 | .r11 => s.r11
  | .r12 => s.r12 | .r13 => s.r13 | .r14 => s.r14 | .r15 => s.r15

/-- Writing a register. -/
def St.set (s : St) : Reg → Word → St
  | .rax, v => { s with rax := v } | .rbx, v => { s with rbx := v }
  | .rcx, v => { s with rcx := v } | .rdx, v => { s with rdx := v }
  | .rsi, v => { s with rsi := v } | .rdi, v => { s with rdi := v }
  | .rbp, v => { s with rbp := v } | .rsp, v => { s with rsp := v }
  | .r8, v => { s with r8 := v } | .r9, v => { s with r9 := v }
  | .r10, v => { s with r10 := v } | .r11, v => { s with r11 := v }
  | .r12, v => { s with r12 := v } | .r13, v => { s with r13 := v }
  | .r14, v => { s with r14 := v } | .r15, v => { s with r15 := v }

/-- A memory operand: `[base + scale * index + disp]`. -/
structure Addr where
  base : Option Reg
  idx : Option (Reg × Word)
  disp : Word

/-- The address of a memory operand. -/
def St.ea (s : St) (m : Addr) : Word :=
  (match m.base with | some r => s.get r | none => 0#64) +
    (match m.idx with | some (r, k) => k * s.get r | none => 0#64) + m.disp

/-- An operand. -/
inductive Opd where
  | reg (r : Reg)
  | imm (v : Word)
  | mem (m : Addr)

/-- A load. -/
def St.load (s : St) (a : Word) : Option Word := s.mem a

/-- A store. -/
def St.store (s : St) (a v : Word) : Option St :=
  if s.wr a then some { s with mem := fun b => if b = a then some v else s.mem b } else none

/-- The value of an operand. -/
def St.val (s : St) : Opd → Option Word
  | .reg r => some (s.get r)
  | .imm v => some v
  | .mem m => s.load (s.ea m)

/-- Writing an operand. -/
def St.put (s : St) (d : Opd) (v : Word) : Option St :=
  match d with
  | .reg r => some (s.set r v)
  | .imm _ => none
  | .mem m => s.store (s.ea m) v

/-- Conditions of `jcc` and `cmovcc`.  `cy`: carry (`c`, `b`); `nc`; `zr`: zero (`z`, `e`); `nz` (also `ne`); `be`: carry or
zero; `ab`: neither (`a`, `nbe`); `sg`: sign (`s`); `ns`. -/
inductive Cond where
  | cy | nc | zr | nz | be | ab | sg | ns

/-- The value of a condition. -/
def St.cond (s : St) : Cond → Option Bool
  | .cy => s.cf
  | .nc => s.cf.map not
  | .zr => s.zf
  | .nz => s.zf.map not
  | .be => s.cf.bind fun x => s.zf.map fun y => x || y
  | .ab => s.cf.bind fun x => s.zf.map fun y => !(x || y)
  | .sg => s.sf
  | .ns => s.sf.map not

/-- The instructions.  Jump targets are positions in the program. -/
inductive Instr where
  | nop
  | mov (d s : Opd)
  | mov32 (d s : Reg)
  | lea (d : Reg) (m : Addr)
  | add (d s : Opd)
  | adc (d s : Opd)
  | sub (d s : Opd)
  | sbb (d s : Opd)
  | cmp (d s : Opd)
  | and (d s : Opd)
  | or (d s : Opd)
  | xor (d s : Opd)
  | test (d s : Opd)
  | not (d : Opd)
  | neg (d : Opd)
  | inc (d : Opd)
  | dec (d : Opd)
  | mul (s : Opd)
  | imul (d : Reg) (s : Opd)
  | mulx (hi lo : Reg) (s : Opd)
  | adcx (d : Reg) (s : Opd)
  | adox (d : Reg) (s : Opd)
  | shl (d : Opd) (n : Opd)
  | shr (d : Opd) (n : Opd)
  | sar (d : Opd) (n : Opd)
  | shld (d : Opd) (s : Reg) (n : Opd)
  | shrd (d : Opd) (s : Reg) (n : Opd)
  | bsf (d : Reg) (s : Opd)
  | bsr (d : Reg) (s : Opd)
  | bt (d : Opd) (n : Word)
  | btr (d : Reg) (n : Word)
  | bts (d : Reg) (n : Word)
  | btc (d : Reg) (n : Word)
  | adc32 (d s : Reg)
  | imul3 (d : Reg) (s : Opd) (v : Word)
  | imul1 (s : Opd)
  | rol (d : Reg) (n : Word)
  | ror (d : Reg) (n : Word)
  | xchg (d s : Reg)
  | leaSym (d : Reg) (k : Nat)
  | cmov (c : Cond) (d : Reg) (s : Opd)
  | push (r : Reg)
  | pop (r : Reg)
  | jmp (l : Nat)
  | jcc (c : Cond) (l : Nat)
  | call (l : Nat)
  | ret

/-- `ZF` and `SF` from a result. -/
def St.zs (s : St) (v : Word) : St := { s with zf := some (v == 0#64), sf := some v.msb }

/-- Addition with carry in: the sum and the carry out. -/
def adcv (a b : Word) (c : Bool) : Word := a + b + BitVec.ofNat 64 c.toNat
/-- The carry out of an addition. -/
def adcc (a b : Word) (c : Bool) : Bool := decide (2 ^ 64 ≤ a.toNat + b.toNat + c.toNat)
/-- Subtraction with borrow in. -/
def sbbv (a b : Word) (c : Bool) : Word := a - b - BitVec.ofNat 64 c.toNat
/-- The borrow out of a subtraction. -/
def sbbc (a b : Word) (c : Bool) : Bool := decide (a.toNat < b.toNat + c.toNat)
/-- The signed overflow of an addition with result `r`. -/
def addo (a b r : Word) : Bool := (a.msb == b.msb) && (r.msb != a.msb)
/-- The signed overflow of a subtraction with result `r`. -/
def subo (a b r : Word) : Bool := (a.msb != b.msb) && (r.msb != a.msb)
/-- The high and the low half of a product. -/
def mulhi (a b : Word) : Word := BitVec.ofNat 64 (a.toNat * b.toNat / 2 ^ 64)
/-- The low half. -/
def mullo (a b : Word) : Word := a * b

/-- The flags of an addition. -/
def St.addFlags (s : St) (a b : Word) (c : Bool) : St :=
  { s.zs (adcv a b c) with cf := some (adcc a b c), of := some (addo a b (adcv a b c)) }
/-- The flags of a subtraction. -/
def St.subFlags (s : St) (a b : Word) (c : Bool) : St :=
  { s.zs (sbbv a b c) with cf := some (sbbc a b c), of := some (subo a b (sbbv a b c)) }
/-- The flags of a bitwise operation. -/
def St.logicFlags (s : St) (v : Word) : St := { s.zs v with cf := some false, of := some false }
/-- The flags of a shift by a count other than zero: `OF` is not used. -/
def St.shiftFlags (s : St) (c : Bool) (v : Word) : St := { s.zs v with cf := some c, of := none }

/-- A shift: the count is taken modulo 64; for zero nothing changes. -/
def St.shift (s : St) (d n : Opd) (f : Word → Nat → Word) (cout : Word → Nat → Bool) : Option St := do
  let a ← s.val d
  let k := (← s.val n).toNat % 64
  if k = 0 then some s else (s.shiftFlags (cout a k) (f a k)).put d (f a k)

/-- Position of the lowest set bit. -/
def lowBit (v : Word) : Nat := ((List.range 64).find? fun i => v.getLsbD i).getD 0
/-- Position of the highest set bit. -/
def highBit (v : Word) : Nat := Nat.log2 v.toNat

/-- The effect of an instruction that is not a jump. -/
def Instr.eff (i : Instr) (s : St) : Option St :=
  match i with
  | .nop => some s
  | .mov d x => do s.put d (← s.val x)
  | .mov32 d x => some (s.set d (BitVec.ofNat 64 ((s.get x).toNat % 2 ^ 32)))
  | .lea d m => some (s.set d (s.ea m))
  | .add d x => do
    let a ← s.val d
    let b ← s.val x
    (s.addFlags a b false).put d (adcv a b false)
  | .adc d x => do
    let a ← s.val d
    let b ← s.val x
    let c ← s.cf
    (s.addFlags a b c).put d (adcv a b c)
  | .sub d x => do
    let a ← s.val d
    let b ← s.val x
    (s.subFlags a b false).put d (sbbv a b false)
  | .sbb d x => do
    let a ← s.val d
    let b ← s.val x
    let c ← s.cf
    (s.subFlags a b c).put d (sbbv a b c)
  | .cmp d x => do
    let a ← s.val d
    let b ← s.val x
    some (s.subFlags a b false)
  | .and d x => do
    let a ← s.val d
    let b ← s.val x
    (s.logicFlags (a &&& b)).put d (a &&& b)
  | .or d x => do
    let a ← s.val d
    let b ← s.val x
    (s.logicFlags (a ||| b)).put d (a ||| b)
  | .xor d x => do
    let a ← s.val d
    let b ← s.val x
    (s.logicFlags (a ^^^ b)).put d (a ^^^ b)
  | .test d x => do
    let a ← s.val d
    let b ← s.val x
    some (s.logicFlags (a &&& b))
  | .not d => do
    let a ← s.val d
    s.put d (~~~ a)
  | .neg d => do
    let a ← s.val d
    (s.subFlags 0#64 a false).put d (sbbv 0#64 a false)
  | .inc d => do
    let a ← s.val d
    ({ s.addFlags a 1#64 false with cf := s.cf }).put d (adcv a 1#64 false)
  | .dec d => do
    let a ← s.val d
    ({ s.subFlags a 1#64 false with cf := s.cf }).put d (sbbv a 1#64 false)
  | .mul x => do
    let b ← s.val x
    let h := mulhi s.rax b
    some { s with
      rax := mullo s.rax b, rdx := h,
      cf := some (h != 0#64), of := some (h != 0#64), zf := none, sf := none }
  | .imul d x => do
    let b ← s.val x
    let p := (s.get d).toInt * b.toInt
    let o := decide (p < -2 ^ 63 ∨ 2 ^ 63 ≤ p)
    some { s.set d (s.get d * b) with cf := some o, of := some o, zf := none, sf := none }
  | .mulx h l x => do
    let b ← s.val x
    some ((s.set l (mullo s.rdx b)).set h (mulhi s.rdx b))
  | .adcx d x => do
    let b ← s.val x
    let c ← s.cf
    some { s.set d (adcv (s.get d) b c) with cf := some (adcc (s.get d) b c) }
  | .adox d x => do
    let b ← s.val x
    let c ← s.of
    some { s.set d (adcv (s.get d) b c) with of := some (adcc (s.get d) b c) }
  | .shl d n => s.shift d n (fun a k => a <<< k) (fun a k => a.getLsbD (64 - k))
  | .shr d n => s.shift d n (fun a k => a >>> k) (fun a k => a.getLsbD (k - 1))
  | .sar d n => s.shift d n (fun a k => a.sshiftRight k) (fun a k => a.getLsbD (k - 1))
  | .shld d x n => s.shift d n (fun a k => (a <<< k) ||| (s.get x >>> (64 - k))) (fun a k => a.getLsbD (64 - k))
  | .shrd d x n => s.shift d n (fun a k => (a >>> k) ||| (s.get x <<< (64 - k))) (fun a k => a.getLsbD (k - 1))
  | .bsf d x => do
    let a ← s.val x
    let s' := { s with zf := some (a == 0#64), cf := none, sf := none, of := none }
    some (s'.set d (if a = 0#64 then s.junk else BitVec.ofNat 64 (lowBit a)))
  | .bsr d x => do
    let a ← s.val x
    let s' := { s with zf := some (a == 0#64), cf := none, sf := none, of := none }
    some (s'.set d (if a = 0#64 then s.junk else BitVec.ofNat 64 (highBit a)))
  | .bt d n => do
    let a ← s.val d
    some { s with cf := some (a.getLsbD (n.toNat % 64)), sf := none, of := none }
  | .btr d n =>
    some { s.set d (s.get d &&& ~~~ (1#64 <<< (n.toNat % 64))) with
      cf := some ((s.get d).getLsbD (n.toNat % 64)), sf := none, of := none }
  | .bts d n =>
    some { s.set d (s.get d ||| (1#64 <<< (n.toNat % 64))) with
      cf := some ((s.get d).getLsbD (n.toNat % 64)), sf := none, of := none }
  | .btc d n =>
    some { s.set d (s.get d ^^^ (1#64 <<< (n.toNat % 64))) with
      cf := some ((s.get d).getLsbD (n.toNat % 64)), sf := none, of := none }
  | .adc32 d x => do
    let c ← s.cf
    let r := (s.get d).toNat % 2 ^ 32 + (s.get x).toNat % 2 ^ 32 + c.toNat
    some { s.set d (BitVec.ofNat 64 (r % 2 ^ 32)) with cf := some (decide (2 ^ 32 ≤ r)), zf := none, sf := none, of := none }
  | .imul3 d x v => do
    let b ← s.val x
    let p := b.toInt * v.toInt
    let o := decide (p < -2 ^ 63 ∨ 2 ^ 63 ≤ p)
    some { s.set d (b * v) with cf := some o, of := some o, zf := none, sf := none }
  | .imul1 x => do
    let b ← s.val x
    let p := s.rax.toInt * b.toInt
    let o := decide (p < -2 ^ 63 ∨ 2 ^ 63 ≤ p)
    some { s with
      rax := BitVec.ofInt 64 p, rdx := BitVec.ofInt 64 (p / 2 ^ 64), cf := some o, of := some o, zf := none, sf := none }
  | .rol d n =>
    let v := (s.get d).rotateLeft (n.toNat % 64)
    if n.toNat % 64 = 0 then some s else some { s.set d v with cf := some (v.getLsbD 0), of := none }
  | .ror d n =>
    let v := (s.get d).rotateRight (n.toNat % 64)
    if n.toNat % 64 = 0 then some s else some { s.set d v with cf := some v.msb, of := none }
  | .xchg d x => some ((s.set d (s.get x)).set x (s.get d))
  | .leaSym d k => some (s.set d (s.sym k))
  | .cmov c d x => do
    let b ← s.val x
    let t ← s.cond c
    some (s.set d (if t then b else s.get d))
  | .push r => (s.set .rsp (s.rsp - 8#64)).store (s.rsp - 8#64) (s.get r)
  | .pop r => do
    let v ← s.load s.rsp
    some ((s.set .rsp (s.rsp + 8#64)).set r v)
  | .jmp _ | .jcc _ _ | .call _ | .ret => none

/-- One instruction at position `pc`: the next position and state. -/
def Instr.exec (i : Instr) (pc : Nat) (s : St) : Option (Nat × St) :=
  match i with
  | .jmp l => some (l, s)
  | .jcc c l => (s.cond c).map fun b => (if b then l else pc + 1, s)
  | .call l => ((s.set .rsp (s.rsp - 8#64)).store (s.rsp - 8#64) (BitVec.ofNat 64 (pc + 1))).map fun s' => (l, s')
  | .ret => (s.load s.rsp).map fun v => (v.toNat, s.set .rsp (s.rsp + 8#64))
  | i => (i.eff s).map fun s' => (pc + 1, s')

/-- A program: the instructions of an `asm!` block. -/
abbrev Prog := List Instr

/-- Run at most `fuel` instructions from position `pc`; the program ends when control reaches its end. -/
def run (P : Prog) : Nat → Nat → St → Option St
  | 0, _, _ => none
  | f + 1, pc, s =>
    if pc = P.length then some s else
      match P[pc]? with
      | none => none
      | some i =>
        match i.exec pc s with
        | none => none
        | some (pc', s') => run P f pc' s'

/-- The program, started in `s`, ends, without a fault, in a state of which `Q` holds. -/
def Runs (P : Prog) (s : St) (Q : St → Prop) : Prop := ∃ f s', run P f 0 s = some s' ∧ Q s'

/-- The address of word `i` of an array at `p`. -/
def word (p : Word) (i : Nat) : Word := p + 8#64 * BitVec.ofNat 64 i

/-- Memory holds the words `ws` at `p`. -/
def Holds (mem : Word → Option Word) (p : Word) (ws : Words) : Prop :=
  ∀ (i : Nat) (h : i < ws.length), mem (word p i) = some ws[i]

/-- The `k` words at `p` may be written. -/
def St.Owns (s : St) (p : Word) (k : Nat) : Prop := ∀ i < k, s.wr (word p i) = true

/-- The `k` words at `p` and the `l` words at `q` have no word in common. -/
def Apart (p : Word) (k : Nat) (q : Word) (l : Nat) : Prop := ∀ i < k, ∀ j < l, word p i ≠ word q j

/-- Nothing changed in memory but the `k` words at `p`. -/
def OnlyAt (p : Word) (k : Nat) (m m' : Word → Option Word) : Prop := ∀ a, (∀ i < k, a ≠ word p i) → m' a = m a

end Verif.X86
