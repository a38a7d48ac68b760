import Verif.Model.X86Leak

/-!
A static analysis of programs of `Verif.X86`, and its soundness: a program that passes shows the same trace from any two states
that agree on the public registers.
-/
namespace Verif.X86
open Verif

/-- What is known of a flag in two runs: equal, equally defined, nothing. -/
inductive Fl where
  | pub | sec | unk
  deriving DecidableEq

def Fl.of (p : Bool) : Fl := if p then .pub else .sec
def Fl.join : Fl → Fl → Fl
  | .pub, x => x
  | .sec, .unk => .unk
  | .sec, _ => .sec
  | .unk, _ => .unk
def Fl.le (x y : Fl) : Bool := x.join y == y

/-- An abstract state: the public registers as a bit mask, the flags, the stack pointer relative to its start, the words of the
frame that are public. -/
structure Ab where
  regs : Nat
  cf : Fl
  zf : Fl
  sf : Fl
  of : Fl
  sp : Word
  slots : List Word

def Reg.idx : Reg → Nat
  | .rax => 0 | .rbx => 1 | .rcx => 2 | .rdx => 3 | .rsi => 4 | .rdi => 5 | .rbp => 6 | .rsp => 7
  | .r8 => 8 | .r9 => 9 | .r10 => 10 | .r11 => 11 | .r12 => 12 | .r13 => 13 | .r14 => 14 | .r15 => 15

theorem Reg.idx_inj {r q : Reg} (h : r.idx = q.idx) : r = q := by
  cases r <;> cases q <;> first | rfl | (exact absurd h (by decide))

/-- Whether a register is public; the stack pointer always is. -/
def Ab.pub (a : Ab) (r : Reg) : Bool := a.regs.testBit r.idx || r == .rsp
def Ab.set (a : Ab) (r : Reg) (v : Bool) : Ab :=
  { a with regs := if v then a.regs ||| 2 ^ r.idx else a.regs ^^^ (a.regs &&& 2 ^ r.idx) }

def Ab.apub (a : Ab) (m : Addr) : Bool :=
  (match m.base with | some r => a.pub r | none => true) && (match m.idx with | some (r, _) => a.pub r | none => true)

/-- Whether an operand is public; `none` if its address is not. -/
def Ab.val (a : Ab) : Opd → Option Bool
  | .reg r => some (a.pub r)
  | .imm _ => some true
  | .mem m => if a.apub m then some (m.fixed && a.slots.contains (a.sp + m.disp)) else none

/-- Writing a word of the frame. -/
def Ab.slot (frame : List Word) (a : Ab) (o : Word) (v : Bool) : Ab :=
  { a with slots := if v && frame.contains o then o :: a.slots else a.slots.filter (· != o) }

def Ab.put (frame : List Word) (a : Ab) (d : Opd) (v : Bool) : Option Ab :=
  match d with
  | .reg r => if r = .rsp then none else some (a.set r v)
  | .imm _ => none
  | .mem m => if a.apub m then some (if m.fixed then a.slot frame (a.sp + m.disp) v else a) else none

def Ab.flags (a : Ab) (l : Fl) : Ab := { a with cf := l, zf := l, sf := l, of := l }

def Ab.cond (a : Ab) : Cond → Fl
  | .cy | .nc => a.cf
  | .zr | .nz => a.zf
  | .be | .ab => a.cf.join a.zf
  | .sg | .ns => a.sf

/-- A destination that is a register other than the stack pointer. -/
def Ab.setReg (a : Ab) (r : Reg) (v : Bool) : Option Ab := if r = .rsp then none else some (a.set r v)

def Ab.bin (frame : List Word) (a : Ab) (d x : Opd) (c : Fl) : Option Ab := do
  let p ← a.val d
  let q ← a.val x
  if c = .unk then none else
    let v := p && q && decide (c = .pub)
    (a.flags (.of v)).put frame d v

def Ab.shift (frame : List Word) (a : Ab) (d n : Opd) (x : Bool) : Option Ab := do
  let p ← a.val d
  let q ← a.val n
  let v := p && x
  if q then
    ({ a with cf := a.cf.join (.of v), zf := a.zf.join (.of v), sf := a.sf.join (.of v) } : Ab).put frame d v
  else
    match d with
    | .reg r => (a.flags .unk).setReg r false
    | _ => none

/-- The abstract effect of an instruction that is not a jump. -/
def Ab.post (frame : List Word) (a : Ab) (i : Instr) : Option Ab :=
  match i with
  | .nop => some a
  | .mov d x => do a.put frame d (← a.val x)
  | .mov32 d x => a.setReg d (a.pub x)
  | .lea d m => a.setReg d (a.apub m)
  | .add d x => match d, x with
    | .reg .rsp, .imm v => some { a.flags .pub with sp := a.sp + v }
    | d, x => a.bin frame d x .pub
  | .sub d x => match d, x with
    | .reg .rsp, .imm v => some { a.flags .pub with sp := a.sp - v }
    | d, x => a.bin frame d x .pub
  | .adc d x => a.bin frame d x a.cf
  | .sbb d x => match d, x with
    | .reg r, .reg q =>
      if r = q then if a.cf = .unk then none else (a.flags (.of (decide (a.cf = .pub)))).setReg r (decide (a.cf = .pub))
      else a.bin frame d x a.cf
    | d, x => a.bin frame d x a.cf
  | .and d x | .or d x => a.bin frame d x .pub
  | .xor d x => match d, x with
    | .reg r, .reg q => if r = q then (a.flags .pub).setReg r true else a.bin frame d x .pub
    | d, x => a.bin frame d x .pub
  | .cmp d x | .test d x => do
    let p ← a.val d
    let q ← a.val x
    some (a.flags (.of (p && q)))
  | .not d => do a.put frame d (← a.val d)
  | .neg d => do
    let p ← a.val d
    (a.flags (.of p)).put frame d p
  | .inc d | .dec d => do
    let p ← a.val d
    ({ a with zf := .of p, sf := .of p, of := .of p } : Ab).put frame d p
  | .mul x => do
    let p ← a.val x
    let v := p && a.pub .rax
    some (({ a with cf := .of v, of := .of v, zf := .pub, sf := .pub } : Ab).set .rax v |>.set .rdx v)
  | .imul1 x => do
    let p ← a.val x
    let v := p && a.pub .rax
    some (({ a with cf := .of v, of := .of v, zf := .pub, sf := .pub } : Ab).set .rax v |>.set .rdx v)
  | .imul d x => do
    let p ← a.val x
    let v := p && a.pub d
    ({ a with cf := .of v, of := .of v, zf := .pub, sf := .pub } : Ab).setReg d v
  | .imul3 d x _ => do
    let v ← a.val x
    ({ a with cf := .of v, of := .of v, zf := .pub, sf := .pub } : Ab).setReg d v
  | .mulx h l x => do
    let p ← a.val x
    (← a.setReg l (p && a.pub .rdx)).setReg h (p && a.pub .rdx)
  | .adcx d x => do
    let p ← a.val x
    if a.cf = .unk then none else
      let v := p && a.pub d && decide (a.cf = .pub)
      ({ a with cf := .of v } : Ab).setReg d v
  | .adox d x => do
    let p ← a.val x
    if a.of = .unk then none else
      let v := p && a.pub d && decide (a.of = .pub)
      ({ a with of := .of v } : Ab).setReg d v
  | .shl d n | .shr d n | .sar d n => a.shift frame d n true
  | .shld d x n | .shrd d x n => a.shift frame d n (a.pub x)
  | .bsf d x | .bsr d x => do
    let p ← a.val x
    ({ a with zf := .of p, cf := .pub, sf := .pub, of := .pub } : Ab).setReg d false
  | .bt d _ => do
    let p ← a.val d
    some { a with cf := .of p, sf := .pub, of := .pub }
  | .btr d _ | .bts d _ | .btc d _ => ({ a with cf := .of (a.pub d), sf := .pub, of := .pub } : Ab).setReg d (a.pub d)
  | .adc32 d x =>
    if a.cf = .unk then none else
      let v := a.pub d && a.pub x && decide (a.cf = .pub)
      ({ a with cf := .of v, zf := .pub, sf := .pub, of := .pub } : Ab).setReg d v
  | .rol d n | .ror d n =>
    if n.toNat % 64 = 0 then some a else ({ a with cf := .of (a.pub d), of := .pub } : Ab).setReg d (a.pub d)
  | .xchg d x => do (← a.setReg d (a.pub x)).setReg x (a.pub d)
  | .leaSym d _ => a.setReg d true
  | .cmov c d x => do
    let p ← a.val x
    if a.cond c = .unk then none else a.setReg d (p && a.pub d && decide (a.cond c = .pub))
  | .push r => some ({ a with sp := a.sp - 8#64 }.slot frame (a.sp - 8#64) (a.pub r))
  | .pop r => ({ a with sp := a.sp + 8#64 } : Ab).setReg r (a.slots.contains a.sp)
  | .jmp _ | .jcc _ _ | .call _ | .ret => none

/-- One state is at least as informative as another. -/
def Ab.le (a b : Ab) : Bool :=
  a.regs &&& b.regs == b.regs && a.cf.le b.cf && a.zf.le b.zf && a.sf.le b.sf && a.of.le b.of && a.sp == b.sp &&
    b.slots.all a.slots.contains

/-- The state at position `pc`, reached from before in `st`. -/
def Ab.entry (ann : List (Nat × Ab)) (pc : Nat) (st : Option Ab) : Option (Option Ab) :=
  match ann.lookup pc, st with
  | none, st => some st
  | some b, none => some (some b)
  | some b, some a => if a.le b then some (some b) else none

/-- A jump to `l` in state `a` is allowed for. -/
def Ab.goes (ann : List (Nat × Ab)) (n l : Nat) (a : Ab) : Bool :=
  decide (n ≤ l) || match ann.lookup l with | some b => a.le b | none => false

/-- The analysis: one pass over the program, given the states at jump targets. -/
def flow (frame : List Word) (ann : List (Nat × Ab)) (n : Nat) : Prog → Nat → Option Ab → Bool
  | [], _, _ => true
  | i :: P, pc, st =>
    match Ab.entry ann pc st with
    | none => false
    | some none => flow frame ann n P (pc + 1) none
    | some (some a) =>
      match i with
      | .jmp l => a.goes ann n l && flow frame ann n P (pc + 1) none
      | .jcc c l => decide (a.cond c = .pub) && a.goes ann n l && flow frame ann n P (pc + 1) (some a)
      | i =>
        match a.post frame i with
        | none => false
        | some a' => flow frame ann n P (pc + 1) (some a')

/-! Soundness -/

def FlRel : Fl → Option Bool → Option Bool → Prop
  | .pub, x, y => x = y
  | .sec, x, y => x.isSome = y.isSome
  | .unk, _, _ => True

theorem FlRel.of_eq {x : Option Bool} : ∀ l, FlRel l x x
  | .pub => rfl
  | .sec => rfl
  | .unk => trivial

theorem FlRel.of_some {p : Bool} {x y : Bool} (h : p = true → x = y) : FlRel (.of p) (some x) (some y) := by
  cases p with
  | false => rfl
  | true => exact congrArg some (h rfl)

theorem FlRel.mono {x y : Fl} (h : x.le y = true) {u v : Option Bool} (r : FlRel x u v) : FlRel y u v := by
  cases x <;> cases y <;> first | exact r | trivial | (exact absurd h (by decide)) | (simp only [FlRel] at r ⊢; rw [r])

theorem Fl.le_join_left (x y : Fl) : x.le (x.join y) = true := by cases x <;> cases y <;> decide
theorem Fl.le_join_right (x y : Fl) : y.le (x.join y) = true := by cases x <;> cases y <;> decide

/-- Two states with what `a` says. -/
structure Same (b : Word) (a : Ab) (s t : St) : Prop where
  regs : ∀ r, a.pub r = true → s.get r = t.get r
  cf : FlRel a.cf s.cf t.cf
  zf : FlRel a.zf s.zf t.zf
  sf : FlRel a.sf s.sf t.sf
  of : FlRel a.of s.of t.of
  dom : ∀ x, (s.mem x).isSome = (t.mem x).isSome
  wr : s.wr = t.wr
  sym : s.sym = t.sym
  rsp : s.rsp = b + a.sp
  slots : ∀ o ∈ a.slots, s.mem (b + o) = t.mem (b + o)

theorem Same.rsp' {b a s t} (h : Same b a s t) : t.rsp = b + a.sp := by
  rw [← h.rsp]
  exact (h.regs .rsp (by simp [Ab.pub])).symm

/-- Both absent, or both present and related. -/
def ORel {α β} (R : α → β → Prop) : Option α → Option β → Prop
  | some u, some v => R u v
  | none, none => True
  | _, _ => False

theorem ORel.bind {α β γ δ} {R : α → β → Prop} {S : γ → δ → Prop} {x : Option α} {y : Option β} {f g} (h : ORel R x y)
    (k : ∀ u v, R u v → ORel S (f u) (g v)) : ORel S (x >>= f) (y >>= g) := by
  cases x <;> cases y <;> first | exact h | exact k _ _ h | exact h.elim

theorem ea_eq {b a s t} (h : Same b a s t) {m : Addr} (hm : a.apub m = true) : s.ea m = t.ea m := by
  unfold Ab.apub at hm
  rw [Bool.and_eq_true] at hm
  unfold St.ea
  obtain ⟨base, idx, disp⟩ := m
  congr 2
  · cases base with
    | none => rfl
    | some r => exact h.regs r hm.1
  · cases idx with
    | none => rfl
    | some r => exact congrArg (r.2 * ·) (h.regs r.1 hm.2)

theorem ea_fixed {b a s t} (h : Same b a s t) {m : Addr} (hm : m.fixed = true) : s.ea m = b + (a.sp + m.disp) := by
  obtain ⟨base, idx, disp⟩ := m
  unfold Addr.fixed at hm
  rw [Bool.and_eq_true] at hm
  have h1 : base = some .rsp := by simpa using hm.1
  have h2 : idx = none := by simpa using hm.2
  subst h1
  subst h2
  show s.rsp + 0#64 + disp = _
  rw [h.rsp, BitVec.add_zero, BitVec.add_assoc]

theorem val_rel {b a s t} (h : Same b a s t) {o : Opd} {p : Bool} (hp : a.val o = some p) :
    ORel (fun u v => p = true → u = v) (s.val o) (t.val o) := by
  cases o with
  | reg r =>
    cases hp
    exact fun e => h.regs r e
  | imm v => exact fun _ => rfl
  | mem m =>
    simp only [Ab.val] at hp
    split at hp
    · rename_i hm
      cases hp
      have e := ea_eq h hm
      have d := h.dom (s.ea m)
      show ORel _ (s.mem (s.ea m)) (t.mem (t.ea m))
      rw [← e]
      have key : (m.fixed && a.slots.contains (a.sp + m.disp)) = true → s.mem (s.ea m) = t.mem (s.ea m) := by
        intro c
        rw [Bool.and_eq_true] at c
        rw [ea_fixed h c.1]
        exact h.slots _ (by simpa using c.2)
      revert d key
      generalize s.mem (s.ea m) = u
      generalize t.mem (s.ea m) = v
      intro d key
      cases u <;> cases v <;> first | trivial | (exact absurd d (by decide)) | (intro c; simpa using key c)
    · cases hp

theorem addrs_eq {b a s t} (h : Same b a s t) {o : Opd} {p : Bool} (hp : a.val o = some p) : o.addrs s = o.addrs t := by
  cases o with
  | reg r => rfl
  | imm v => rfl
  | mem m =>
    simp only [Ab.val] at hp
    split at hp
    · rename_i hm
      exact congrArg (fun x => [x]) (ea_eq h hm)
    · cases hp

theorem put_addrs_eq {b a s t frame} (h : Same b a s t) {o : Opd} {p : Bool} {a' : Ab} (hp : a.put frame o p = some a') :
    o.addrs s = o.addrs t := by
  cases o with
  | reg r => rfl
  | imm v => rfl
  | mem m =>
    simp only [Ab.put] at hp
    split at hp
    · rename_i hm
      exact congrArg (fun x => [x]) (ea_eq h hm)
    · cases hp

theorem pub_set {a : Ab} {q r : Reg} {v : Bool} (h : (a.set q v).pub r = true) :
    (r = q ∧ (v = true ∨ r = .rsp)) ∨ (r ≠ q ∧ a.pub r = true) := by
  unfold Ab.pub Ab.set at h
  by_cases e : r = q
  · subst e
    refine Or.inl ⟨rfl, ?_⟩
    cases v with
    | true => exact Or.inl rfl
    | false =>
      refine Or.inr ?_
      simp [Nat.testBit_xor, Nat.testBit_and, Nat.testBit_two_pow_self] at h
      exact h
  · refine Or.inr ⟨e, ?_⟩
    have hi : q.idx ≠ r.idx := fun c => e (Reg.idx_inj c).symm
    unfold Ab.pub
    cases v <;>
      simp [Nat.testBit_xor, Nat.testBit_and, Nat.testBit_or, Nat.testBit_two_pow_of_ne hi] at h <;> simp [h]

theorem getset {s : St} {q r : Reg} {v : Word} : (s.set q v).get r = if r = q then v else s.get r := by
  cases q <;> cases r <;> rfl

theorem set_rsp {s : St} {q : Reg} {v : Word} (h : q ≠ .rsp) : (s.set q v).rsp = s.rsp := by
  cases q <;> first | rfl | exact absurd rfl h

theorem set_rest (s : St) (q : Reg) (v : Word) : (s.set q v).cf = s.cf ∧ (s.set q v).zf = s.zf ∧ (s.set q v).sf = s.sf ∧
    (s.set q v).of = s.of ∧ (s.set q v).mem = s.mem ∧ (s.set q v).wr = s.wr ∧ (s.set q v).sym = s.sym := by
  cases q <;> exact ⟨rfl, rfl, rfl, rfl, rfl, rfl, rfl⟩

theorem Same.set {b a s t} (h : Same b a s t) {q : Reg} (hq : q ≠ .rsp) {v w : Word} {p : Bool} (e : p = true → v = w) :
    Same b (a.set q p) (s.set q v) (t.set q w) := by
  obtain ⟨s1, s2, s3, s4, s5, s6, s7⟩ := set_rest s q v
  obtain ⟨t1, t2, t3, t4, t5, t6, t7⟩ := set_rest t q w
  constructor
  · intro r hr
    rw [getset, getset]
    rcases pub_set hr with ⟨rfl, c⟩ | ⟨c, d⟩
    · rw [if_pos rfl, if_pos rfl]
      rcases c with c | c
      · exact e c
      · exact absurd c hq
    · rw [if_neg c, if_neg c]
      exact h.regs r d
  · rw [s1, t1]; exact h.cf
  · rw [s2, t2]; exact h.zf
  · rw [s3, t3]; exact h.sf
  · rw [s4, t4]; exact h.of
  · rw [s5, t5]; exact h.dom
  · rw [s6, t6]; exact h.wr
  · rw [s7, t7]; exact h.sym
  · rw [set_rsp hq]; exact h.rsp
  · rw [s5, t5]; exact h.slots

theorem Same.setReg {b a a' s t} (h : Same b a s t) {q : Reg} {v w : Word} {p : Bool} (hp : a.setReg q p = some a')
    (e : p = true → v = w) : Same b a' (s.set q v) (t.set q w) := by
  unfold Ab.setReg at hp
  split at hp
  · cases hp
  · rename_i hq
    cases hp
    exact h.set hq e

/-- A change of flags only. -/
theorem Same.flags {b a s t} (h : Same b a s t) (c z g o c' z' g' o') {l1 l2 l3 l4} (h1 : FlRel l1 c c') (h2 : FlRel l2 z z')
    (h3 : FlRel l3 g g') (h4 : FlRel l4 o o') :
    Same b { a with cf := l1, zf := l2, sf := l3, of := l4 } { s with cf := c, zf := z, sf := g, of := o }
      { t with cf := c', zf := z', sf := g', of := o' } := by
  constructor
  · intro r hr
    have := h.regs r hr
    cases r <;> exact this
  · exact h1
  · exact h2
  · exact h3
  · exact h4
  · exact h.dom
  · exact h.wr
  · exact h.sym
  · exact h.rsp
  · exact h.slots

theorem slot_low {b a s t frame} (h : Same b a s t) {o v w : Word} {p : Bool} (e : p = true → v = w) {x : Word}
    (hx : x = b + o) : Same b (a.slot frame o p) { s with mem := fun y => if y = x then some v else s.mem y }
      { t with mem := fun y => if y = x then some w else t.mem y } := by
  subst hx
  constructor
  · intro r hr
    have := h.regs r hr
    cases r <;> exact this
  · exact h.cf
  · exact h.zf
  · exact h.sf
  · exact h.of
  · intro y
    show (if y = b + o then some v else s.mem y).isSome = (if y = b + o then some w else t.mem y).isSome
    split
    · rfl
    · exact h.dom y
  · exact h.wr
  · exact h.sym
  · exact h.rsp
  · intro q hq
    show (if b + q = b + o then some v else s.mem (b + q)) = (if b + q = b + o then some w else t.mem (b + q))
    have inj : b + q = b + o → q = o := by intro hh; simpa using hh
    unfold Ab.slot at hq
    dsimp only at hq
    split at hq
    · rename_i hc
      rw [Bool.and_eq_true] at hc
      split
      · rw [e hc.1]
      · rename_i hne
        rcases List.mem_cons.mp hq with rfl | hq
        · exact absurd rfl hne
        · exact h.slots q hq
    · rw [List.mem_filter] at hq
      have hne : q ≠ o := by simpa using hq.2
      rw [if_neg fun c => hne (inj c), if_neg fun c => hne (inj c)]
      exact h.slots q hq.1

theorem store_rel {b a s t frame} (h : Same b a s t) {o v w : Word} {p : Bool} (e : p = true → v = w) {x : Word}
    (hx : x = b + o) : ORel (Same b (a.slot frame o p)) (s.store x v) (t.store x w) := by
  unfold St.store
  have hw : t.wr x = s.wr x := by rw [h.wr]
  rw [hw]
  split
  · exact slot_low h e hx
  · trivial

theorem store_blind {b a s t} {frame : List Word} (h : Same b a s t) (hs : ∀ o ∈ a.slots, o ∈ frame) {v w x : Word}
    (hx : ∀ o ∈ frame, x ≠ b + o) : ORel (Same b a) (s.store x v) (t.store x w) := by
  unfold St.store
  have hw : t.wr x = s.wr x := by rw [h.wr]
  rw [hw]
  split
  · show Same b a _ _
    constructor
    · intro r hr
      have := h.regs r hr
      cases r <;> exact this
    · exact h.cf
    · exact h.zf
    · exact h.sf
    · exact h.of
    · intro y
      show (if y = x then some v else s.mem y).isSome = (if y = x then some w else t.mem y).isSome
      split
      · rfl
      · exact h.dom y
    · exact h.wr
    · exact h.sym
    · exact h.rsp
    · intro o ho
      show (if b + o = x then some v else s.mem (b + o)) = (if b + o = x then some w else t.mem (b + o))
      have := hx o (hs o ho)
      rw [if_neg fun c => this c.symm, if_neg fun c => this c.symm]
      exact h.slots o ho
  · trivial

/-- The address written, unless it is fixed in the frame. -/
def Opd.blind (s : St) : Opd → List Word
  | .mem m => if m.fixed then [] else [s.ea m]
  | _ => []

theorem put_rel {b a a' s t} {frame : List Word} (h : Same b a s t) (hs : ∀ o ∈ a.slots, o ∈ frame) {d : Opd} {v w : Word} {p : Bool}
    (e : p = true → v = w) (hp : a.put frame d p = some a') (hb : ∀ x ∈ d.blind s, ∀ o ∈ frame, x ≠ b + o) :
    ORel (Same b a') (s.put d v) (t.put d w) := by
  cases d with
  | reg r =>
    simp only [Ab.put] at hp
    split at hp
    · cases hp
    · rename_i hr
      cases hp
      exact h.set hr e
  | imm v => cases hp
  | mem m =>
    simp only [Ab.put] at hp
    split at hp
    · rename_i hm
      show ORel _ (s.store (s.ea m) v) (t.store (t.ea m) w)
      rw [← ea_eq h hm]
      cases hf : m.fixed with
      | true =>
        rw [hf] at hp
        cases hp
        exact store_rel h e (ea_fixed h hf)
      | false =>
        rw [hf] at hp
        cases hp
        refine store_blind h hs (hb _ ?_)
        simp [Opd.blind, hf]
    · cases hp

theorem put_slots {a a' : Ab} {frame : List Word} {d p} (hs : ∀ o ∈ a.slots, o ∈ frame) (hp : a.put frame d p = some a') :
    ∀ o ∈ a'.slots, o ∈ frame := by
  have slot : ∀ o p, ∀ q ∈ (a.slot frame o p).slots, q ∈ frame := by
    intro o p q hq
    unfold Ab.slot at hq
    dsimp only at hq
    split at hq
    · rename_i hc
      rw [Bool.and_eq_true] at hc
      rcases List.mem_cons.mp hq with rfl | hq
      · simpa using hc.2
      · exact hs q hq
    · exact hs q (List.mem_filter.mp hq).1
  cases d with
  | reg r =>
    simp only [Ab.put] at hp
    split at hp
    · cases hp
    · cases hp
      exact hs
  | imm v => cases hp
  | mem m =>
    simp only [Ab.put] at hp
    split at hp
    · cases hp
      split
      · exact slot _ _
      · exact hs
    · cases hp

theorem Same.mono {b a a' s t} (h : Same b a s t) (hle : a.le a' = true) : Same b a' s t := by
  unfold Ab.le at hle
  simp only [Bool.and_eq_true] at hle
  obtain ⟨⟨⟨⟨⟨⟨h1, h2⟩, h3⟩, h4⟩, h5⟩, h6⟩, h7⟩ := hle
  constructor
  · intro r hr
    refine h.regs r ?_
    unfold Ab.pub at hr ⊢
    rw [Bool.or_eq_true] at hr ⊢
    refine hr.imp_left fun c => ?_
    have h1 : a.regs &&& a'.regs = a'.regs := by simpa using h1
    rw [← h1, Nat.testBit_and, Bool.and_eq_true] at c
    exact c.1
  · exact h.cf.mono h2
  · exact h.zf.mono h3
  · exact h.sf.mono h4
  · exact h.of.mono h5
  · exact h.dom
  · exact h.wr
  · exact h.sym
  · have : a.sp = a'.sp := by simpa using h6
    rw [← this]
    exact h.rsp
  · intro o ho
    refine h.slots o ?_
    rw [List.all_eq_true] at h7
    simpa using h7 o ho

/-- What is proved of one instruction. -/
structure Step (frame : List Word) (b : Word) (a' : Ab) (i : Instr) (s t : St) : Prop where
  addrs : i.addrs s = i.addrs t
  eff : ORel (Same b a') (i.eff s) (i.eff t)
  slots : ∀ o ∈ a'.slots, o ∈ frame

theorem FlRel.defined {c : Fl} (hc : c ≠ .unk) {u v : Option Bool} (h : FlRel c u v) :
    ORel (fun x y => decide (c = .pub) = true → x = y) u v := by
  cases c with
  | pub =>
    cases h
    cases u
    · trivial
    · exact fun _ => rfl
  | sec =>
    cases u <;> cases v <;> first | trivial | (exact absurd h (by decide)) | (intro c; exact absurd c (by decide))
  | unk => exact absurd rfl hc

theorem setReg_slots {a a' : Ab} {r v} (h : a.setReg r v = some a') : a'.slots = a.slots := by
  unfold Ab.setReg at h
  split at h
  · cases h
  · cases h
    rfl

theorem bin_rel {b a a' s t} {frame : List Word} (h : Same b a s t) (hs : ∀ o ∈ a.slots, o ∈ frame) {d x : Opd} {c : Fl}
    (hp : a.bin frame d x c = some a') (hb : ∀ y ∈ d.blind s, ∀ o ∈ frame, y ≠ b + o) {u v : Option Bool} (hc : FlRel c u v)
    (f1 f2 f3 f4 : Word → Word → Bool → Bool) (g : Word → Word → Bool → Word) :
    d.addrs s ++ x.addrs s = d.addrs t ++ x.addrs t ∧
    ORel (Same b a')
      (s.val d >>= fun y => s.val x >>= fun z => u >>= fun k =>
        ({ s with cf := some (f1 y z k), zf := some (f2 y z k), sf := some (f3 y z k), of := some (f4 y z k) } : St).put d (g y z k))
      (t.val d >>= fun y => t.val x >>= fun z => v >>= fun k =>
        ({ t with cf := some (f1 y z k), zf := some (f2 y z k), sf := some (f3 y z k), of := some (f4 y z k) } : St).put d (g y z k)) ∧
    ∀ o ∈ a'.slots, o ∈ frame := by
  simp only [Ab.bin, bind, Option.bind_eq_some_iff] at hp
  obtain ⟨p, h1, q, h2, hp⟩ := hp
  split at hp
  · cases hp
  rename_i hcu
  refine ⟨by rw [addrs_eq h h1, addrs_eq h h2], ?_, put_slots (a := a.flags _) hs hp⟩
  refine ORel.bind (val_rel h h1) fun y y' e1 => ORel.bind (val_rel h h2) fun z z' e2 =>
    ORel.bind (hc.defined hcu) fun k k' e3 => ?_
  have all : (p && q && decide (c = .pub)) = true → y = y' ∧ z = z' ∧ k = k' := by
    intro e
    rw [Bool.and_eq_true, Bool.and_eq_true] at e
    exact ⟨e1 e.1.1, e2 e.1.2, e3 e.2⟩
  have fl : ∀ f : Word → Word → Bool → Bool, FlRel (.of (p && q && decide (c = .pub))) (some (f y z k)) (some (f y' z' k')) := by
    intro f
    refine FlRel.of_some fun e => ?_
    obtain ⟨rfl, rfl, rfl⟩ := all e
    rfl
  refine put_rel (h.flags _ _ _ _ _ _ _ _ (fl f1) (fl f2) (fl f3) (fl f4)) hs ?_ hp ?_
  · intro e
    obtain ⟨rfl, rfl, rfl⟩ := all e
    rfl
  · cases d <;> exact hb

theorem un_rel {b a a' s t} {frame : List Word} (h : Same b a s t) (hs : ∀ o ∈ a.slots, o ∈ frame) {d : Opd} {p : Bool}
    {l1 l2 l3 l4 : Fl} (h1 : a.val d = some p)
    (hp : ({ a with cf := l1, zf := l2, sf := l3, of := l4 } : Ab).put frame d p = some a')
    (hb : ∀ y ∈ d.blind s, ∀ o ∈ frame, y ≠ b + o)
    (f1 f2 f3 f4 f1' f2' f3' f4' : Word → Option Bool)
    (e1 : ∀ y y', (p = true → y = y') → FlRel l1 (f1 y) (f1' y')) (e2 : ∀ y y', (p = true → y = y') → FlRel l2 (f2 y) (f2' y'))
    (e3 : ∀ y y', (p = true → y = y') → FlRel l3 (f3 y) (f3' y')) (e4 : ∀ y y', (p = true → y = y') → FlRel l4 (f4 y) (f4' y'))
    (g : Word → Word) :
    d.addrs s = d.addrs t ∧
    ORel (Same b a')
      (s.val d >>= fun y => ({ s with cf := f1 y, zf := f2 y, sf := f3 y, of := f4 y } : St).put d (g y))
      (t.val d >>= fun y => ({ t with cf := f1' y, zf := f2' y, sf := f3' y, of := f4' y } : St).put d (g y)) ∧
    ∀ o ∈ a'.slots, o ∈ frame := by
  refine ⟨addrs_eq h h1, ?_, put_slots (a := { a with cf := l1, zf := l2, sf := l3, of := l4 }) hs hp⟩
  refine ORel.bind (val_rel h h1) fun y y' e => ?_
  refine put_rel (h.flags _ _ _ _ _ _ _ _ (e1 y y' e) (e2 y y' e) (e3 y y' e) (e4 y y' e)) hs ?_ hp ?_
  · intro c
    rw [e c]
  · cases d <;> exact hb

theorem Same.keep {b a a' s t} {frame : List Word} (h : Same b a s t) {d : Opd} {p v : Bool} (h1 : a.val d = some p)
    (hv : v = true → p = true) (hp : a.put frame d v = some a') : Same b a' s t := by
  cases d with
  | reg r =>
    cases h1
    simp only [Ab.put] at hp
    split at hp
    · cases hp
    · rename_i hr
      cases hp
      have := h.set (v := s.get r) (w := t.get r) (p := v) hr fun e => h.regs r (hv e)
      have e : ∀ u : St, u.set r (u.get r) = u := by intro u; cases r <;> rfl
      rwa [e, e] at this
  | imm v => cases hp
  | mem m =>
    simp only [Ab.put] at hp
    simp only [Ab.val] at h1
    split at hp
    · rename_i hm
      rw [if_pos hm] at h1
      cases h1
      cases hp
      split
      · rename_i hf
        refine { h with slots := ?_ }
        intro o ho
        unfold Ab.slot at ho
        dsimp only at ho
        split at ho
        · rename_i hc
          rw [Bool.and_eq_true] at hc
          have := hv hc.1
          rw [Bool.and_eq_true] at this
          rcases List.mem_cons.mp ho with rfl | ho
          · exact h.slots _ (by simpa using this.2)
          · exact h.slots o ho
        · exact h.slots o (List.mem_filter.mp ho).1
      · exact h
    · cases hp

theorem shift_rel {b a a' s t} {frame : List Word} (h : Same b a s t) (hs : ∀ o ∈ a.slots, o ∈ frame) {d n : Opd} {x : Bool}
    (hp : a.shift frame d n x = some a') (hb : ∀ y ∈ d.blind s, ∀ o ∈ frame, y ≠ b + o)
    (f f' : Word → Nat → Word) (g : Word → Nat → Bool) (hx : x = true → f = f') :
    d.addrs s ++ n.addrs s = d.addrs t ++ n.addrs t ∧ ORel (Same b a') (s.shift d n f g) (t.shift d n f' g) ∧
      ∀ o ∈ a'.slots, o ∈ frame := by
  simp only [Ab.shift, bind, Option.bind_eq_some_iff] at hp
  obtain ⟨p, h1, q, h2, hp⟩ := hp
  refine ⟨by rw [addrs_eq h h1, addrs_eq h h2], ?_⟩
  have hv := val_rel h h1
  have hn := val_rel h h2
  cases q with
  | true =>
    simp only [if_true] at hp
    refine ⟨ORel.bind hv fun y y' e1 => ORel.bind hn fun k k' e2 => ?_, ?_⟩
    · cases e2 rfl
      dsimp only
      by_cases hk : k.toNat % 64 = 0
      · rw [if_pos hk, if_pos hk]
        have weak : Same b { a with cf := a.cf.join (.of (p && x)), zf := a.zf.join (.of (p && x)), sf := a.sf.join (.of (p && x)) } s t :=
          { h with
            cf := h.cf.mono (Fl.le_join_left _ _)
            zf := h.zf.mono (Fl.le_join_left _ _)
            sf := h.sf.mono (Fl.le_join_left _ _) }
        refine weak.keep (p := p) ?_ ?_ hp
        · cases d <;> exact h1
        · intro c
          rw [Bool.and_eq_true] at c
          exact c.1
      · rw [if_neg hk, if_neg hk]
        have all : (p && x) = true → y = y' ∧ f = f' := by
          intro e
          rw [Bool.and_eq_true] at e
          exact ⟨e1 e.1, hx e.2⟩
        have fl : ∀ (l : Fl) (w : Word → (Word → Nat → Word) → Bool),
            FlRel (l.join (.of (p && x))) (some (w y f)) (some (w y' f')) := by
          intro l w
          refine FlRel.mono (Fl.le_join_right _ _) (FlRel.of_some fun e => ?_)
          obtain ⟨rfl, rfl⟩ := all e
          rfl
        refine put_rel (a := { a with cf := a.cf.join (.of (p && x)), zf := a.zf.join (.of (p && x)), sf := a.sf.join (.of (p && x)) })
          (h.flags _ _ _ _ _ _ _ _ (fl a.cf fun y _ => g y (k.toNat % 64)) (fl a.zf fun y f => f y (k.toNat % 64) == 0#64)
          (fl a.sf fun y f => (f y (k.toNat % 64)).msb) (FlRel.of_eq a.of)) hs ?_ hp ?_
        · intro e
          obtain ⟨rfl, rfl⟩ := all e
          rfl
        · cases d <;> exact hb
    · have := put_slots (a := { a with cf := a.cf.join (.of (p && x)), zf := a.zf.join (.of (p && x)), sf := a.sf.join (.of (p && x)) }) hs hp
      exact this
  | false =>
    simp only [Bool.false_eq_true, if_false] at hp
    cases d with
    | imm v => cases hp
    | mem m => cases hp
    | reg r =>
      dsimp only at hp
      refine ⟨ORel.bind hv fun y y' _ => ORel.bind hn fun k k' _ => ?_, by rw [setReg_slots hp]; exact hs⟩
      dsimp only
      have unk : ∀ (c z g o c' z' g' o'), Same b (a.flags .unk) { s with cf := c, zf := z, sf := g, of := o }
          { t with cf := c', zf := z', sf := g', of := o' } := fun c z g o c' z' g' o' =>
        h.flags c z g o c' z' g' o' trivial trivial trivial trivial
      have e : ∀ u : St, u.set r (u.get r) = u := by intro u; cases r <;> rfl
      by_cases hk : k.toNat % 64 = 0 <;> by_cases hk' : k'.toNat % 64 = 0
      · rw [if_pos hk, if_pos hk']
        have := (unk s.cf s.zf s.sf s.of t.cf t.zf t.sf t.of).setReg (v := s.get r) (w := t.get r) hp (by simp)
        rwa [e s, e t] at this
      · rw [if_pos hk, if_neg hk']
        have := (unk s.cf s.zf s.sf s.of (some (g y' (k'.toNat % 64))) (some (f' y' (k'.toNat % 64) == 0#64))
          (some (f' y' (k'.toNat % 64)).msb) none).setReg (v := s.get r) (w := f' y' (k'.toNat % 64)) hp (by simp)
        rw [e s] at this
        exact this
      · rw [if_neg hk, if_pos hk']
        have := (unk (some (g y (k.toNat % 64))) (some (f y (k.toNat % 64) == 0#64))
          (some (f y (k.toNat % 64)).msb) none t.cf t.zf t.sf t.of).setReg (v := f y (k.toNat % 64)) (w := t.get r) hp (by simp)
        rw [e t] at this
        exact this
      · rw [if_neg hk, if_neg hk']
        exact (unk _ _ _ _ _ _ _ _).setReg hp (by simp)

theorem Step.mk' {frame : List Word} {b a' i s t} {l l' : List Word} {u v : Option St} (e1 : i.addrs s = l) (e2 : i.addrs t = l')
    (e3 : i.eff s = u) (e4 : i.eff t = v) (h : l = l' ∧ ORel (Same b a') u v ∧ ∀ o ∈ a'.slots, o ∈ frame) :
    Step frame b a' i s t :=
  ⟨by rw [e1, e2, h.1], by rw [e3, e4]; exact h.2.1, h.2.2⟩

theorem sbb_same (x : Word) (c : Bool) : sbbv x x c = sbbv 0#64 0#64 c := by
  unfold sbbv
  rw [BitVec.sub_self, BitVec.sub_self]

theorem sbbc_same (x : Word) (c : Bool) : sbbc x x c = c := by
  unfold sbbc
  cases c <;> simp

theorem subo_same (x r : Word) : subo x x r = false := by simp [subo]

theorem Same.move {b a s t} (h : Same b a s t) {o x y : Word} (hx : x = b + o) (hy : y = x) :
    Same b { a with sp := o } { s with rsp := x } { t with rsp := y } := by
  subst hy
  constructor
  · intro r hr
    have := h.regs r
    cases r <;> first | exact this hr | rfl
  · exact h.cf
  · exact h.zf
  · exact h.sf
  · exact h.of
  · exact h.dom
  · exact h.wr
  · exact h.sym
  · exact hx
  · exact h.slots

theorem Same.setFl {b a a' s t} (h : Same b a s t) {q : Reg} {v w : Word} {p : Bool} {l1 l2 l3 l4 : Fl}
    (hp : ({ a with cf := l1, zf := l2, sf := l3, of := l4 } : Ab).setReg q p = some a') (e : p = true → v = w)
    (c z g o c' z' g' o') (h1 : FlRel l1 c c') (h2 : FlRel l2 z z') (h3 : FlRel l3 g g') (h4 : FlRel l4 o o') :
    Same b a' { s.set q v with cf := c, zf := z, sf := g, of := o } { t.set q w with cf := c', zf := z', sf := g', of := o' } := by
  unfold Ab.setReg at hp
  split at hp
  · cases hp
  · rename_i hq
    cases hp
    exact (h.set hq e).flags c z g o c' z' g' o' h1 h2 h3 h4

theorem cond_rel {b a s t} (h : Same b a s t) (c : Cond) : FlRel (a.cond c) (s.cond c) (t.cond c) := by
  have nt : ∀ l x y, FlRel l x y → FlRel l (x.map not) (y.map not) := by
    intro l x y r
    cases l <;> simp only [FlRel] at r ⊢
    · rw [r]
    · simpa using r
  have two : ∀ (f : Bool → Bool → Bool) l m x y x' y', FlRel l x y → FlRel m x' y' →
      FlRel (l.join m) (x.bind fun u => x'.map fun v => f u v) (y.bind fun u => y'.map fun v => f u v) := by
    intro f l m x y x' y' r r'
    cases l <;> cases m <;> simp only [FlRel, Fl.join] at r r' ⊢
    · rw [r, r']
    · subst r
      cases x <;> simp [r']
    · subst r'
      cases x <;> cases y <;> simp at r ⊢
    · cases x <;> cases y <;> simp at r ⊢
      exact r'
  cases c
  · exact h.cf
  · exact nt _ _ _ h.cf
  · exact h.zf
  · exact nt _ _ _ h.zf
  · exact two _ _ _ _ _ _ _ h.cf h.zf
  · exact two _ _ _ _ _ _ _ h.cf h.zf
  · exact h.sf
  · exact nt _ _ _ h.sf

set_option maxHeartbeats 1600000 in
theorem post_step {b a a' s t} {frame : List Word} {i : Instr} (h : Same b a s t) (hs : ∀ o ∈ a.slots, o ∈ frame)
    (hp : a.post frame i = some a') (hb : ∀ y ∈ i.blind s, ∀ o ∈ frame, y ≠ b + o) : Step frame b a' i s t := by
  cases i with
  | nop => cases hp; exact ⟨rfl, h, hs⟩
  | jmp _ => cases hp
  | jcc _ _ => cases hp
  | call _ => cases hp
  | ret => cases hp
  | mov d x =>
    simp only [Ab.post, bind, Option.bind_eq_some_iff] at hp
    obtain ⟨p, h1, hp⟩ := hp
    refine ⟨?_, ORel.bind (val_rel h h1) fun u v e => put_rel h hs e hp ?_, put_slots hs hp⟩
    · show d.addrs s ++ x.addrs s = d.addrs t ++ x.addrs t
      rw [put_addrs_eq h hp, addrs_eq h h1]
    · cases d <;> exact hb
  | mov32 d x =>
    refine ⟨rfl, h.setReg hp fun e => ?_, by rw [setReg_slots hp]; exact hs⟩
    rw [h.regs x e]
  | lea d m =>
    refine ⟨rfl, h.setReg hp fun e => ea_eq h e, by rw [setReg_slots hp]; exact hs⟩
  | leaSym d k =>
    refine ⟨rfl, h.setReg hp fun e => by rw [h.sym], by rw [setReg_slots hp]; exact hs⟩
  | add d x =>
    have gen : a.bin frame d x .pub = some a' → Step frame b a' (.add d x) s t := fun hp =>
      Step.mk' rfl rfl rfl rfl (bin_rel h hs hp (by cases d <;> exact hb) (u := some false) (v := some false) rfl
        adcc (fun y z k => adcv y z k == 0#64) (fun y z k => (adcv y z k).msb) (fun y z k => addo y z (adcv y z k)) adcv)
    simp only [Ab.post] at hp
    split at hp
    · rename_i v
      cases hp
      refine ⟨rfl, ?_, hs⟩
      have e : t.rsp = s.rsp := by rw [h.rsp, h.rsp']
      refine Same.move (a := a.flags .pub) (s := s.addFlags s.rsp v false) (t := t.addFlags t.rsp v false) (h.flags _ _ _ _ _ _ _ _ ?_ ?_ ?_ ?_) ?_ ?_
      · exact congrArg (fun y => some (adcc y v false)) e.symm
      · exact congrArg (fun y => some (adcv y v false == 0#64)) e.symm
      · exact congrArg (fun y => some (adcv y v false).msb) e.symm
      · exact congrArg (fun y => some (addo y v (adcv y v false))) e.symm
      · show s.rsp + v + 0#64 = _
        rw [h.rsp, BitVec.add_zero, BitVec.add_assoc]
      · exact congrArg (fun y => adcv y v false) e
    · exact gen hp
  | sub d x =>
    have gen : a.bin frame d x .pub = some a' → Step frame b a' (.sub d x) s t := fun hp =>
      Step.mk' rfl rfl rfl rfl (bin_rel h hs hp (by cases d <;> exact hb) (u := some false) (v := some false) rfl
        sbbc (fun y z k => sbbv y z k == 0#64) (fun y z k => (sbbv y z k).msb) (fun y z k => subo y z (sbbv y z k)) sbbv)
    simp only [Ab.post] at hp
    split at hp
    · rename_i v
      cases hp
      refine ⟨rfl, ?_, hs⟩
      have e : t.rsp = s.rsp := by rw [h.rsp, h.rsp']
      refine Same.move (a := a.flags .pub) (s := s.subFlags s.rsp v false) (t := t.subFlags t.rsp v false) (h.flags _ _ _ _ _ _ _ _ ?_ ?_ ?_ ?_) ?_ ?_
      · exact congrArg (fun y => some (sbbc y v false)) e.symm
      · exact congrArg (fun y => some (sbbv y v false == 0#64)) e.symm
      · exact congrArg (fun y => some (sbbv y v false).msb) e.symm
      · exact congrArg (fun y => some (subo y v (sbbv y v false))) e.symm
      · show s.rsp - v - 0#64 = _
        rw [h.rsp, BitVec.sub_zero, BitVec.sub_eq_add_neg, BitVec.add_assoc, ← BitVec.sub_eq_add_neg]
      · exact congrArg (fun y => sbbv y v false) e
    · exact gen hp
  | adc d x =>
    exact Step.mk' rfl rfl rfl rfl (bin_rel h hs hp (by cases d <;> exact hb) h.cf
        adcc (fun y z k => adcv y z k == 0#64) (fun y z k => (adcv y z k).msb) (fun y z k => addo y z (adcv y z k)) adcv)
  | sbb d x =>
    have gen : a.bin frame d x a.cf = some a' → Step frame b a' (.sbb d x) s t := fun hp =>
      Step.mk' rfl rfl rfl rfl (bin_rel h hs hp (by cases d <;> exact hb) h.cf
        sbbc (fun y z k => sbbv y z k == 0#64) (fun y z k => (sbbv y z k).msb) (fun y z k => subo y z (sbbv y z k)) sbbv)
    simp only [Ab.post] at hp
    split at hp
    · rename_i r q
      split at hp
      · rename_i e
        subst e
        split at hp
        · cases hp
        · rename_i hu
          refine ⟨rfl, ?_, by rw [setReg_slots hp]; exact hs⟩
          have key : ORel (Same b a') (s.cf >>= fun k => (s.subFlags (s.get r) (s.get r) k).put (.reg r) (sbbv (s.get r) (s.get r) k))
              (t.cf >>= fun k => (t.subFlags (t.get r) (t.get r) k).put (.reg r) (sbbv (t.get r) (t.get r) k)) := by
            refine ORel.bind (h.cf.defined hu) fun k k' e => ?_
            have fl : ∀ f : Bool → Bool, FlRel (.of (decide (a.cf = .pub))) (some (f k)) (some (f k')) := by
              intro f
              refine FlRel.of_some fun c => ?_
              rw [e c]
            refine Same.setReg (a := a.flags (.of (decide (a.cf = .pub)))) (h.flags _ _ _ _ _ _ _ _ ?_ ?_ ?_ ?_) hp ?_
            · rw [sbbc_same, sbbc_same]
              exact fl id
            · rw [sbb_same, sbb_same (t.get r)]
              exact fl fun k => sbbv 0#64 0#64 k == 0#64
            · rw [sbb_same, sbb_same (t.get r)]
              exact fl fun k => (sbbv 0#64 0#64 k).msb
            · rw [subo_same, subo_same]
              exact fl fun _ => false
            · intro c
              rw [sbb_same, sbb_same (t.get r), e c]
          exact key
      · exact gen hp
    · exact gen hp
  | and d x =>
    exact Step.mk' rfl rfl rfl rfl (bin_rel h hs hp (by cases d <;> exact hb) (u := some false) (v := some false) rfl
        (fun _ _ _ => false) (fun y z _ => y &&& z == 0#64) (fun y z _ => (y &&& z).msb) (fun _ _ _ => false) (fun y z _ => y &&& z))
  | or d x =>
    exact Step.mk' rfl rfl rfl rfl (bin_rel h hs hp (by cases d <;> exact hb) (u := some false) (v := some false) rfl
        (fun _ _ _ => false) (fun y z _ => y ||| z == 0#64) (fun y z _ => (y ||| z).msb) (fun _ _ _ => false) (fun y z _ => y ||| z))
  | xor d x =>
    have gen : a.bin frame d x .pub = some a' → Step frame b a' (.xor d x) s t := fun hp =>
      Step.mk' rfl rfl rfl rfl (bin_rel h hs hp (by cases d <;> exact hb) (u := some false) (v := some false) rfl
        (fun _ _ _ => false) (fun y z _ => y ^^^ z == 0#64) (fun y z _ => (y ^^^ z).msb) (fun _ _ _ => false) (fun y z _ => y ^^^ z))
    simp only [Ab.post] at hp
    split at hp
    · rename_i r q
      split at hp
      · rename_i e
        subst e
        refine ⟨rfl, ?_, by rw [setReg_slots hp]; exact hs⟩
        refine Same.setReg (a := a.flags .pub) (h.flags _ _ _ _ _ _ _ _ ?_ ?_ ?_ ?_) hp ?_
        · rfl
        · show some _ = some _
          rw [BitVec.xor_self, BitVec.xor_self]
        · show some _ = some _
          rw [BitVec.xor_self, BitVec.xor_self]
        · rfl
        · intro _
          show s.get r ^^^ s.get r = t.get r ^^^ t.get r
          rw [BitVec.xor_self, BitVec.xor_self]
      · exact gen hp
    · exact gen hp
  | cmp d x =>
    simp only [Ab.post, bind, Option.bind_eq_some_iff] at hp
    obtain ⟨p, h1, q, h2, hp⟩ := hp
    cases hp
    refine ⟨?_, ORel.bind (val_rel h h1) fun y y' e1 => ORel.bind (val_rel h h2) fun z z' e2 => ?_, hs⟩
    · show d.addrs s ++ x.addrs s = d.addrs t ++ x.addrs t
      rw [addrs_eq h h1, addrs_eq h h2]
    · have fl : ∀ f : Word → Word → Bool, FlRel (.of (p && q)) (some (f y z)) (some (f y' z')) := by
        intro f
        refine FlRel.of_some fun e => ?_
        rw [Bool.and_eq_true] at e
        rw [e1 e.1, e2 e.2]
      exact h.flags _ _ _ _ _ _ _ _ (fl fun y z => sbbc y z false) (fl fun y z => sbbv y z false == 0#64)
        (fl fun y z => (sbbv y z false).msb) (fl fun y z => subo y z (sbbv y z false))
  | test d x =>
    simp only [Ab.post, bind, Option.bind_eq_some_iff] at hp
    obtain ⟨p, h1, q, h2, hp⟩ := hp
    cases hp
    refine ⟨?_, ORel.bind (val_rel h h1) fun y y' e1 => ORel.bind (val_rel h h2) fun z z' e2 => ?_, hs⟩
    · show d.addrs s ++ x.addrs s = d.addrs t ++ x.addrs t
      rw [addrs_eq h h1, addrs_eq h h2]
    · have fl : ∀ f : Word → Word → Bool, FlRel (.of (p && q)) (some (f y z)) (some (f y' z')) := by
        intro f
        refine FlRel.of_some fun e => ?_
        rw [Bool.and_eq_true] at e
        rw [e1 e.1, e2 e.2]
      exact h.flags _ _ _ _ _ _ _ _ (fl fun _ _ => false) (fl fun y z => y &&& z == 0#64)
        (fl fun y z => (y &&& z).msb) (fl fun _ _ => false)
  | not d =>
    simp only [Ab.post, bind, Option.bind_eq_some_iff] at hp
    obtain ⟨p, h1, hp⟩ := hp
    exact Step.mk' rfl rfl rfl rfl (un_rel h hs h1 hp (by cases d <;> exact hb) (fun _ => s.cf) (fun _ => s.zf) (fun _ => s.sf)
      (fun _ => s.of) (fun _ => t.cf) (fun _ => t.zf) (fun _ => t.sf) (fun _ => t.of) (fun _ _ _ => h.cf) (fun _ _ _ => h.zf)
      (fun _ _ _ => h.sf) (fun _ _ _ => h.of) (fun y => ~~~ y))
  | neg d =>
    simp only [Ab.post, bind, Option.bind_eq_some_iff] at hp
    obtain ⟨p, h1, hp⟩ := hp
    have fl : ∀ (f : Word → Bool) (y y' : Word), (p = true → y = y') → FlRel (.of p) (some (f y)) (some (f y')) :=
      fun f y y' e => FlRel.of_some fun c => by rw [e c]
    exact Step.mk' rfl rfl rfl rfl (un_rel h hs h1 hp (by cases d <;> exact hb) _ _ _ _ _ _ _ _
      (fl fun y => sbbc 0#64 y false) (fl fun y => sbbv 0#64 y false == 0#64) (fl fun y => (sbbv 0#64 y false).msb)
      (fl fun y => subo 0#64 y (sbbv 0#64 y false)) (fun y => sbbv 0#64 y false))
  | inc d =>
    simp only [Ab.post, bind, Option.bind_eq_some_iff] at hp
    obtain ⟨p, h1, hp⟩ := hp
    have fl : ∀ (f : Word → Bool) (y y' : Word), (p = true → y = y') → FlRel (.of p) (some (f y)) (some (f y')) :=
      fun f y y' e => FlRel.of_some fun c => by rw [e c]
    exact Step.mk' rfl rfl rfl rfl (un_rel h hs h1 hp (by cases d <;> exact hb) (fun _ => s.cf) _ _ _ (fun _ => t.cf) _ _ _
      (fun _ _ _ => h.cf) (fl fun y => adcv y 1#64 false == 0#64) (fl fun y => (adcv y 1#64 false).msb)
      (fl fun y => addo y 1#64 (adcv y 1#64 false)) (fun y => adcv y 1#64 false))
  | dec d =>
    simp only [Ab.post, bind, Option.bind_eq_some_iff] at hp
    obtain ⟨p, h1, hp⟩ := hp
    have fl : ∀ (f : Word → Bool) (y y' : Word), (p = true → y = y') → FlRel (.of p) (some (f y)) (some (f y')) :=
      fun f y y' e => FlRel.of_some fun c => by rw [e c]
    exact Step.mk' rfl rfl rfl rfl (un_rel h hs h1 hp (by cases d <;> exact hb) (fun _ => s.cf) _ _ _ (fun _ => t.cf) _ _ _
      (fun _ _ _ => h.cf) (fl fun y => sbbv y 1#64 false == 0#64) (fl fun y => (sbbv y 1#64 false).msb)
      (fl fun y => subo y 1#64 (sbbv y 1#64 false)) (fun y => sbbv y 1#64 false))
  | mul x =>
    simp only [Ab.post, bind, Option.bind_eq_some_iff] at hp
    obtain ⟨p, h1, hp⟩ := hp
    cases hp
    refine ⟨addrs_eq h h1, ORel.bind (val_rel h h1) fun y y' e => ?_, hs⟩
    have all : (p && a.pub .rax) = true → y = y' ∧ s.rax = t.rax := by
      intro c
      rw [Bool.and_eq_true] at c
      exact ⟨e c.1, h.regs .rax c.2⟩
    have fl : ∀ f : Word → Word → Bool, FlRel (.of (p && a.pub .rax)) (some (f y s.rax)) (some (f y' t.rax)) := by
      intro f
      refine FlRel.of_some fun c => ?_
      rw [(all c).1, (all c).2]
    exact ((h.flags _ _ _ _ _ _ _ _ (fl fun y z => mulhi z y != 0#64) (FlRel.of_eq (x := none) .pub) (FlRel.of_eq (x := none) .pub)
      (fl fun y z => mulhi z y != 0#64)).set (q := .rax) (v := mullo s.rax y) (w := mullo t.rax y') (by decide)
        (fun c => by rw [(all c).1, (all c).2])).set (q := .rdx) (v := mulhi s.rax y) (w := mulhi t.rax y') (by decide)
        (fun c => by rw [(all c).1, (all c).2])
  | imul1 x =>
    simp only [Ab.post, bind, Option.bind_eq_some_iff] at hp
    obtain ⟨p, h1, hp⟩ := hp
    cases hp
    refine ⟨addrs_eq h h1, ORel.bind (val_rel h h1) fun y y' e => ?_, hs⟩
    have all : (p && a.pub .rax) = true → y = y' ∧ s.rax = t.rax := by
      intro c
      rw [Bool.and_eq_true] at c
      exact ⟨e c.1, h.regs .rax c.2⟩
    have fl : ∀ f : Word → Word → Bool, FlRel (.of (p && a.pub .rax)) (some (f y s.rax)) (some (f y' t.rax)) := by
      intro f
      refine FlRel.of_some fun c => ?_
      rw [(all c).1, (all c).2]
    exact ((h.flags _ _ _ _ _ _ _ _
      (fl fun y z => decide (z.toInt * y.toInt < -2 ^ 63 ∨ 2 ^ 63 ≤ z.toInt * y.toInt)) (FlRel.of_eq (x := none) .pub)
      (FlRel.of_eq (x := none) .pub) (fl fun y z => decide (z.toInt * y.toInt < -2 ^ 63 ∨ 2 ^ 63 ≤ z.toInt * y.toInt))).set
        (q := .rax) (v := BitVec.ofInt 64 (s.rax.toInt * y.toInt)) (w := BitVec.ofInt 64 (t.rax.toInt * y'.toInt)) (by decide)
        (fun c => by rw [(all c).1, (all c).2])).set (q := .rdx) (v := BitVec.ofInt 64 (s.rax.toInt * y.toInt / 2 ^ 64))
        (w := BitVec.ofInt 64 (t.rax.toInt * y'.toInt / 2 ^ 64)) (by decide) (fun c => by rw [(all c).1, (all c).2])
  | imul d x =>
    simp only [Ab.post, bind, Option.bind_eq_some_iff] at hp
    obtain ⟨p, h1, hp⟩ := hp
    refine ⟨addrs_eq h h1, ORel.bind (val_rel h h1) fun y y' e => ?_, by rw [setReg_slots hp]; exact hs⟩
    have all : (p && a.pub d) = true → y = y' ∧ s.get d = t.get d := by
      intro c
      rw [Bool.and_eq_true] at c
      exact ⟨e c.1, h.regs d c.2⟩
    have fl : FlRel (.of (p && a.pub d))
        (some (decide ((s.get d).toInt * y.toInt < -2 ^ 63 ∨ 2 ^ 63 ≤ (s.get d).toInt * y.toInt)))
        (some (decide ((t.get d).toInt * y'.toInt < -2 ^ 63 ∨ 2 ^ 63 ≤ (t.get d).toInt * y'.toInt))) :=
      FlRel.of_some fun c => by rw [(all c).1, (all c).2]
    exact h.setFl hp (fun c => by rw [(all c).1, (all c).2]) _ _ _ _ _ _ _ _ fl (FlRel.of_eq (x := none) .pub)
      (FlRel.of_eq (x := none) .pub) fl
  | imul3 d x k =>
    simp only [Ab.post, bind, Option.bind_eq_some_iff] at hp
    obtain ⟨p, h1, hp⟩ := hp
    refine ⟨addrs_eq h h1, ORel.bind (val_rel h h1) fun y y' e => ?_, by rw [setReg_slots hp]; exact hs⟩
    have fl : FlRel (.of p)
        (some (decide (y.toInt * k.toInt < -2 ^ 63 ∨ 2 ^ 63 ≤ y.toInt * k.toInt)))
        (some (decide (y'.toInt * k.toInt < -2 ^ 63 ∨ 2 ^ 63 ≤ y'.toInt * k.toInt))) :=
      FlRel.of_some fun c => by rw [e c]
    exact h.setFl hp (fun c => by rw [e c]) _ _ _ _ _ _ _ _ fl (FlRel.of_eq (x := none) .pub)
      (FlRel.of_eq (x := none) .pub) fl
  | mulx hi lo x =>
    simp only [Ab.post, bind, Option.bind_eq_some_iff] at hp
    obtain ⟨p, h1, a1, h2, hp⟩ := hp
    refine ⟨addrs_eq h h1, ORel.bind (val_rel h h1) fun y y' e => ?_, by rw [setReg_slots hp, setReg_slots h2]; exact hs⟩
    have all : (p && a.pub .rdx) = true → y = y' ∧ s.rdx = t.rdx := by
      intro c
      rw [Bool.and_eq_true] at c
      exact ⟨e c.1, h.regs .rdx c.2⟩
    exact (h.setReg h2 fun c => by rw [(all c).1, (all c).2]).setReg hp fun c => by rw [(all c).1, (all c).2]
  | adcx d x =>
    simp only [Ab.post, bind, Option.bind_eq_some_iff] at hp
    obtain ⟨p, h1, hp⟩ := hp
    split at hp
    · cases hp
    rename_i hu
    refine ⟨addrs_eq h h1, ORel.bind (val_rel h h1) fun y y' e => ORel.bind (h.cf.defined hu) fun k k' e2 => ?_,
      by rw [setReg_slots hp]; exact hs⟩
    have all : (p && a.pub d && decide (a.cf = .pub)) = true → y = y' ∧ s.get d = t.get d ∧ k = k' := by
      intro c
      rw [Bool.and_eq_true, Bool.and_eq_true] at c
      exact ⟨e c.1.1, h.regs d c.1.2, e2 c.2⟩
    exact h.setFl hp (fun c => by rw [(all c).1, (all c).2.1, (all c).2.2]) (some _) _ _ _ (some _) _ _ _
      (FlRel.of_some fun c => by rw [(all c).1, (all c).2.1, (all c).2.2])
      (by rw [(set_rest s d _).2.1, (set_rest t d _).2.1]; exact h.zf) (by rw [(set_rest s d _).2.2.1, (set_rest t d _).2.2.1]; exact h.sf)
      (by rw [(set_rest s d _).2.2.2.1, (set_rest t d _).2.2.2.1]; exact h.of)
  | adox d x =>
    simp only [Ab.post, bind, Option.bind_eq_some_iff] at hp
    obtain ⟨p, h1, hp⟩ := hp
    split at hp
    · cases hp
    rename_i hu
    refine ⟨addrs_eq h h1, ORel.bind (val_rel h h1) fun y y' e => ORel.bind (h.of.defined hu) fun k k' e2 => ?_,
      by rw [setReg_slots hp]; exact hs⟩
    have all : (p && a.pub d && decide (a.of = .pub)) = true → y = y' ∧ s.get d = t.get d ∧ k = k' := by
      intro c
      rw [Bool.and_eq_true, Bool.and_eq_true] at c
      exact ⟨e c.1.1, h.regs d c.1.2, e2 c.2⟩
    exact h.setFl hp (fun c => by rw [(all c).1, (all c).2.1, (all c).2.2]) _ _ _ (some _) _ _ _ (some _)
      (by rw [(set_rest s d _).1, (set_rest t d _).1]; exact h.cf)
      (by rw [(set_rest s d _).2.1, (set_rest t d _).2.1]; exact h.zf) (by rw [(set_rest s d _).2.2.1, (set_rest t d _).2.2.1]; exact h.sf)
      (FlRel.of_some fun c => by rw [(all c).1, (all c).2.1, (all c).2.2])
  | shl d n =>
    simp only [Ab.post] at hp
    exact Step.mk' rfl rfl rfl rfl (shift_rel h hs hp (by cases d <;> exact hb) (fun a k => a <<< k) (fun a k => a <<< k)
      (fun a k => a.getLsbD (64 - k)) fun _ => rfl)
  | shr d n =>
    simp only [Ab.post] at hp
    exact Step.mk' rfl rfl rfl rfl (shift_rel h hs hp (by cases d <;> exact hb) (fun a k => a >>> k) (fun a k => a >>> k)
      (fun a k => a.getLsbD (k - 1)) fun _ => rfl)
  | sar d n =>
    simp only [Ab.post] at hp
    exact Step.mk' rfl rfl rfl rfl (shift_rel h hs hp (by cases d <;> exact hb) (fun a k => a.sshiftRight k) (fun a k => a.sshiftRight k)
      (fun a k => a.getLsbD (k - 1)) fun _ => rfl)
  | shld d x n =>
    simp only [Ab.post] at hp
    exact Step.mk' rfl rfl rfl rfl (shift_rel h hs hp (by cases d <;> exact hb) (fun a k => (a <<< k) ||| (s.get x >>> (64 - k)))
      (fun a k => (a <<< k) ||| (t.get x >>> (64 - k))) (fun a k => a.getLsbD (64 - k)) fun c => by rw [h.regs x c])
  | shrd d x n =>
    simp only [Ab.post] at hp
    exact Step.mk' rfl rfl rfl rfl (shift_rel h hs hp (by cases d <;> exact hb) (fun a k => (a >>> k) ||| (s.get x <<< (64 - k)))
      (fun a k => (a >>> k) ||| (t.get x <<< (64 - k))) (fun a k => a.getLsbD (k - 1)) fun c => by rw [h.regs x c])
  | bsf d x =>
    simp only [Ab.post, bind, Option.bind_eq_some_iff] at hp
    obtain ⟨p, h1, hp⟩ := hp
    refine ⟨addrs_eq h h1, ORel.bind (val_rel h h1) fun y y' e => ?_, by rw [setReg_slots hp]; exact hs⟩
    exact (h.flags none (some _) none none none (some _) none none (FlRel.of_eq .pub) (FlRel.of_some (p := p) fun c => by rw [e c])
      (FlRel.of_eq .pub) (FlRel.of_eq .pub)).setReg hp (by simp)
  | bsr d x =>
    simp only [Ab.post, bind, Option.bind_eq_some_iff] at hp
    obtain ⟨p, h1, hp⟩ := hp
    refine ⟨addrs_eq h h1, ORel.bind (val_rel h h1) fun y y' e => ?_, by rw [setReg_slots hp]; exact hs⟩
    exact (h.flags none (some _) none none none (some _) none none (FlRel.of_eq .pub) (FlRel.of_some (p := p) fun c => by rw [e c])
      (FlRel.of_eq .pub) (FlRel.of_eq .pub)).setReg hp (by simp)
  | bt d n =>
    simp only [Ab.post, bind, Option.bind_eq_some_iff] at hp
    obtain ⟨p, h1, hp⟩ := hp
    cases hp
    refine ⟨addrs_eq h h1, ORel.bind (val_rel h h1) fun y y' e => ?_, hs⟩
    exact h.flags _ s.zf none none _ t.zf none none (FlRel.of_some fun c => by rw [e c]) h.zf rfl rfl
  | btr d n =>
    refine ⟨rfl, ?_, by rw [setReg_slots hp]; exact hs⟩
    exact h.setFl hp (fun c => by rw [h.regs d c]) (some _) _ none none (some _) _ none none
      (FlRel.of_some fun c => by rw [h.regs d c]) (by rw [(set_rest s d _).2.1, (set_rest t d _).2.1]; exact h.zf) rfl rfl
  | bts d n =>
    refine ⟨rfl, ?_, by rw [setReg_slots hp]; exact hs⟩
    exact h.setFl hp (fun c => by rw [h.regs d c]) (some _) _ none none (some _) _ none none
      (FlRel.of_some fun c => by rw [h.regs d c]) (by rw [(set_rest s d _).2.1, (set_rest t d _).2.1]; exact h.zf) rfl rfl
  | btc d n =>
    refine ⟨rfl, ?_, by rw [setReg_slots hp]; exact hs⟩
    exact h.setFl hp (fun c => by rw [h.regs d c]) (some _) _ none none (some _) _ none none
      (FlRel.of_some fun c => by rw [h.regs d c]) (by rw [(set_rest s d _).2.1, (set_rest t d _).2.1]; exact h.zf) rfl rfl
  | adc32 d x =>
    simp only [Ab.post] at hp
    split at hp
    · cases hp
    rename_i hu
    refine ⟨rfl, ORel.bind (h.cf.defined hu) fun k k' e => ?_, by rw [setReg_slots hp]; exact hs⟩
    have all : (a.pub d && a.pub x && decide (a.cf = .pub)) = true → s.get d = t.get d ∧ s.get x = t.get x ∧ k = k' := by
      intro c
      rw [Bool.and_eq_true, Bool.and_eq_true] at c
      exact ⟨h.regs d c.1.1, h.regs x c.1.2, e c.2⟩
    exact h.setFl hp (fun c => by rw [(all c).1, (all c).2.1, (all c).2.2]) (some _) none none none (some _) none none none
      (FlRel.of_some fun c => by rw [(all c).1, (all c).2.1, (all c).2.2]) rfl rfl rfl
  | rol d n =>
    simp only [Ab.post] at hp
    by_cases hn : n.toNat % 64 = 0
    · rw [if_pos hn] at hp
      cases hp
      refine ⟨rfl, ?_, hs⟩
      simp only [Instr.eff, if_pos hn]
      exact h
    · rw [if_neg hn] at hp
      refine ⟨rfl, ?_, by rw [setReg_slots hp]; exact hs⟩
      simp only [Instr.eff, if_neg hn]
      exact h.setFl hp (fun c => by rw [h.regs d c]) (some _) _ _ none (some _) _ _ none
        (FlRel.of_some fun c => by rw [h.regs d c]) (by rw [(set_rest s d _).2.1, (set_rest t d _).2.1]; exact h.zf)
        (by rw [(set_rest s d _).2.2.1, (set_rest t d _).2.2.1]; exact h.sf) rfl
  | ror d n =>
    simp only [Ab.post] at hp
    by_cases hn : n.toNat % 64 = 0
    · rw [if_pos hn] at hp
      cases hp
      refine ⟨rfl, ?_, hs⟩
      simp only [Instr.eff, if_pos hn]
      exact h
    · rw [if_neg hn] at hp
      refine ⟨rfl, ?_, by rw [setReg_slots hp]; exact hs⟩
      simp only [Instr.eff, if_neg hn]
      exact h.setFl hp (fun c => by rw [h.regs d c]) (some _) _ _ none (some _) _ _ none
        (FlRel.of_some fun c => by rw [h.regs d c]) (by rw [(set_rest s d _).2.1, (set_rest t d _).2.1]; exact h.zf)
        (by rw [(set_rest s d _).2.2.1, (set_rest t d _).2.2.1]; exact h.sf) rfl
  | xchg d x =>
    simp only [Ab.post, bind, Option.bind_eq_some_iff] at hp
    obtain ⟨a1, h2, hp⟩ := hp
    exact ⟨rfl, (h.setReg h2 fun c => h.regs x c).setReg hp fun c => h.regs d c,
      by rw [setReg_slots hp, setReg_slots h2]; exact hs⟩
  | cmov c d x =>
    simp only [Ab.post, bind, Option.bind_eq_some_iff] at hp
    obtain ⟨p, h1, hp⟩ := hp
    split at hp
    · cases hp
    rename_i hu
    refine ⟨addrs_eq h h1, ORel.bind (val_rel h h1) fun y y' e => ORel.bind ((cond_rel h c).defined hu) fun k k' e2 => ?_,
      by rw [setReg_slots hp]; exact hs⟩
    refine h.setReg hp fun f => ?_
    rw [Bool.and_eq_true, Bool.and_eq_true] at f
    rw [e f.1.1, h.regs d f.1.2, e2 f.2]
  | push r =>
    cases hp
    have e : t.rsp = s.rsp := by rw [h.rsp, h.rsp']
    refine ⟨congrArg (fun y => [y - 8#64]) e.symm, ?_, ?_⟩
    · have hm := h.move (o := a.sp - 8#64) (x := s.rsp - 8#64) (y := t.rsp - 8#64)
        (by rw [h.rsp, BitVec.sub_eq_add_neg, BitVec.add_assoc, ← BitVec.sub_eq_add_neg]) (by rw [e])
      have := store_rel (frame := frame) hm (o := a.sp - 8#64) (v := s.get r) (w := t.get r) (p := a.pub r) (h.regs r)
        (x := s.rsp - 8#64) (by rw [h.rsp, BitVec.sub_eq_add_neg, BitVec.add_assoc, ← BitVec.sub_eq_add_neg])
      have e2 : (Instr.push r).eff t = ({ t with rsp := t.rsp - 8#64 } : St).store (s.rsp - 8#64) (t.get r) := by
        rw [← e]; rfl
      rw [e2]
      exact this
    · exact put_slots (a := { a with sp := a.sp - 8#64 }) (d := .mem ⟨some .rsp, none, 0#64⟩) (p := a.pub r) hs (by
        simp [Ab.put, Ab.apub, Ab.pub, Addr.fixed])
  | pop r =>
    have e : t.rsp = s.rsp := by rw [h.rsp, h.rsp']
    refine ⟨congrArg (fun y => [y]) e.symm, ?_, by rw [setReg_slots hp]; exact hs⟩
    have hv := val_rel h (o := .mem ⟨some .rsp, none, 0#64⟩) (p := a.slots.contains a.sp) (by
      simp [Ab.val, Ab.apub, Ab.pub, Addr.fixed])
    have ez : ∀ u : St, u.val (.mem ⟨some .rsp, none, 0#64⟩) = u.load u.rsp := by
      intro u
      show u.mem (u.rsp + 0#64 + 0#64) = _
      rw [BitVec.add_zero, BitVec.add_zero]
      rfl
    rw [ez, ez] at hv
    refine ORel.bind hv fun v w f => ?_
    exact (h.move (o := a.sp + 8#64) (x := s.rsp + 8#64) (y := t.rsp + 8#64) (by rw [h.rsp, BitVec.add_assoc])
      (by rw [e])).setReg hp f

theorem le_slots {a b : Ab} (h : a.le b = true) {frame : List Word} (hs : ∀ o ∈ a.slots, o ∈ frame) :
    ∀ o ∈ b.slots, o ∈ frame := by
  unfold Ab.le at h
  simp only [Bool.and_eq_true] at h
  intro o ho
  have := h.2
  rw [List.all_eq_true] at this
  exact hs o (by simpa using this o ho)

theorem entry_some {ann pc a r} (h : Ab.entry ann pc (some a) = some r) : ∃ a', r = some a' ∧ (a' = a ∨ a.le a' = true) := by
  unfold Ab.entry at h
  split at h
  · cases h
    exact ⟨a, rfl, Or.inl rfl⟩
  · rename_i e
    cases e
  · rename_i b c e1 e2
    cases e2
    split at h
    · cases h
      rename_i hle
      exact ⟨_, rfl, Or.inr hle⟩
    · cases h

theorem exec_eff {i : Instr} (h : ∀ l, i ≠ .jmp l) (h2 : ∀ c l, i ≠ .jcc c l) (h3 : ∀ l, i ≠ .call l) (h4 : i ≠ .ret) (pc : Nat)
    (s : St) : i.exec pc s = (i.eff s).map fun s' => (pc + 1, s') := by
  cases i <;> first | rfl | exact absurd rfl (h _) | exact absurd rfl (h2 _ _) | exact absurd rfl (h3 _) | exact absurd rfl h4

/-- From an annotated position on the pass succeeds with the annotation. -/
theorem flow_at {frame ann n} : ∀ (P : Prog) (pc : Nat) (st : Option Ab), flow frame ann n P pc st = true → ∀ k b,
    ann.lookup (pc + k) = some b → k < P.length → ∃ i Q, P.drop k = i :: Q ∧ ∀ r, Ab.entry ann (pc + k) r ≠ none →
      flow frame ann n (P.drop k) (pc + k) r = true := by
  intro P
  induction P with
  | nil => intro pc st _ k b _ hk; cases hk
  | cons i P ih =>
    intro pc st h k b hl hk
    cases k with
    | zero =>
      refine ⟨i, P, rfl, fun r hr => ?_⟩
      have hl' : ann.lookup pc = some b := hl
      have e : ∀ r, Ab.entry ann pc r ≠ none → Ab.entry ann pc r = some (some b) := by
        intro r hr
        unfold Ab.entry at hr ⊢
        rw [hl'] at hr ⊢
        cases r with
        | none => rfl
        | some a =>
          dsimp only at hr ⊢
          split
          · rfl
          · rename_i hn
            rw [if_neg hn] at hr
            exact absurd rfl hr
      have h1 : Ab.entry ann pc st ≠ none := by
        intro c
        rw [flow, c] at h
        cases h
      show flow frame ann n (i :: P) pc r = true
      rw [flow, e st h1] at h
      rw [flow, e r hr]
      exact h
    | succ k =>
      have hk' : k < P.length := by
        rw [List.length_cons] at hk
        omega
      have key : ∀ st', flow frame ann n P (pc + 1) st' = true → _ := fun st' h' =>
        ih (pc + 1) st' h' k b (by rw [← hl]; congr 1; omega) hk'
      have e : pc + 1 + k = pc + (k + 1) := by omega
      rw [e] at key
      rw [flow] at h
      split at h
      · cases h
      · exact key _ h
      · split at h
        · rw [Bool.and_eq_true] at h
          exact key _ h.2
        · rw [Bool.and_eq_true] at h
          exact key _ h.2
        · split at h
          · cases h
          · exact key _ h

theorem trace_eq {frame : List Word} {b : Word} {ann : List (Nat × Ab)} {P : Prog} {a0 : Ab}
    (hP : flow frame ann P.length P 0 (some a0) = true) : ∀ (f pc : Nat) (s t : St) (a : Ab),
    (pc < P.length → flow frame ann P.length (P.drop pc) pc (some a) = true) → Same b a s t → (∀ o ∈ a.slots, o ∈ frame) →
    Clear frame b P f pc s → trace P f pc s = trace P f pc t := by
  intro f
  induction f with
  | zero => intros; rfl
  | succ f ih =>
    intro pc s t a hf h hs hc
    rw [trace, trace]
    rw [Clear] at hc
    cases hi : P[pc]? with
    | none => rfl
    | some i =>
      rw [hi] at hc
      dsimp only at hc ⊢
      obtain ⟨hb, hc⟩ := hc
      have hlt : pc < P.length := (List.getElem?_eq_some_iff.mp hi).1
      have hg := (List.getElem?_eq_some_iff.mp hi).2
      have hd : P.drop pc = i :: P.drop (pc + 1) := by rw [List.drop_eq_getElem_cons hlt, hg]
      have hflow := hf hlt
      rw [hd, flow] at hflow
      -- what a jump leads to
      have goes : ∀ l a', Same b a' s t → (∀ o ∈ a'.slots, o ∈ frame) → a'.goes ann P.length l = true →
          Clear frame b P f l s → trace P f l s = trace P f l t := by
        intro l a' h' hs' hgo hc'
        unfold Ab.goes at hgo
        by_cases hl : l < P.length
        · rw [Bool.or_eq_true] at hgo
          rcases hgo with hgo | hgo
          · exact absurd (of_decide_eq_true hgo) (by omega)
          · split at hgo
            · rename_i b' hb'
              refine ih l s t b' (fun _ => ?_) (h'.mono hgo) (le_slots hgo hs') hc'
              obtain ⟨_, _, _, hh⟩ := flow_at P 0 (some a0) hP l b' (by rw [Nat.zero_add]; exact hb') hl
              rw [Nat.zero_add] at hh
              refine hh _ ?_
              unfold Ab.entry
              rw [hb']
              have : b'.le b' = true := by
                unfold Ab.le
                have fl : ∀ x : Fl, x.le x = true := by intro x; cases x <;> rfl
                simp [fl]
              simp [this]
            · cases hgo
        · refine ih l s t a' (fun c => absurd c hl) h' hs' hc'
      split at hflow
      · cases hflow
      · rename_i e
        obtain ⟨a', e', -⟩ := entry_some e
        cases e'
      · rename_i a' e
        obtain ⟨a'', e', hle⟩ := entry_some e
        cases e'
        have h' : Same b a' s t := by
          rcases hle with rfl | hle
          · exact h
          · exact h.mono hle
        have hs' : ∀ o ∈ a'.slots, o ∈ frame := by
          rcases hle with rfl | hle
          · exact hs
          · exact le_slots hle hs
        split at hflow
        · rename_i l
          rw [Bool.and_eq_true] at hflow
          have := goes l a' h' hs' hflow.1 hc
          simp only [Instr.exec, Instr.addrs, this]
        · rename_i c l
          rw [Bool.and_eq_true, Bool.and_eq_true] at hflow
          have hcp := of_decide_eq_true hflow.1.1
          have hce := cond_rel h' c
          rw [hcp] at hce
          have hce : s.cond c = t.cond c := hce
          simp only [Instr.exec, Instr.addrs] at hc ⊢
          rw [← hce]
          cases hq : s.cond c with
          | none => rfl
          | some q =>
            rw [hq] at hc
            simp only [Option.map_some] at hc ⊢
            cases q with
            | true =>
              simp only [if_true] at hc ⊢
              rw [goes l a' h' hs' hflow.1.2 hc]
            | false =>
              simp only [Bool.false_eq_true, if_false] at hc ⊢
              rw [ih (pc + 1) s t a' (fun _ => hflow.2) h' hs' hc]
        · rename_i n1 n2
          split at hflow
          · cases hflow
          · rename_i a2 hpost
            have st := post_step h' hs' hpost hb
            have n3 : ∀ l, i ≠ .call l := by intro l c; subst c; cases hpost
            have n4 : i ≠ .ret := by intro c; subst c; cases hpost
            have ex := exec_eff (i := i) (fun l c => n1 l c) (fun c l d => n2 c l d) n3 n4 pc
            rw [ex s] at hc
            rw [ex s, ex t, st.addrs]
            have he := st.eff
            revert he hc
            generalize i.eff s = u
            generalize i.eff t = v
            intro hc he
            cases u <;> cases v
            · rfl
            · exact he.elim
            · exact he.elim
            · simp only [Option.map_some] at hc ⊢
              rw [ih (pc + 1) _ _ a2 (fun _ => hflow) he st.slots hc]

/-- The abstract state at the start. -/
def Ab.start (pub : List Reg) : Ab where
  regs := pub.foldl (fun m r => m ||| 2 ^ r.idx) 0
  cf := .sec
  zf := .sec
  sf := .sec
  of := .sec
  sp := 0#64
  slots := []

theorem start_pub {pub : List Reg} {r : Reg} (h : (Ab.start pub).pub r = true) : r ∈ pub ∨ r = .rsp := by
  have key : ∀ (l : List Reg) (m : Nat), (l.foldl (fun m r => m ||| 2 ^ r.idx) m).testBit r.idx = true →
      m.testBit r.idx = true ∨ r ∈ l := by
    intro l
    induction l with
    | nil => intro m h; exact Or.inl h
    | cons q l ih =>
      intro m h
      rcases ih _ h with h | h
      · rw [Nat.testBit_or, Bool.or_eq_true] at h
        rcases h with h | h
        · exact Or.inl h
        · refine Or.inr ?_
          by_cases e : q.idx = r.idx
          · rw [Reg.idx_inj e]
            exact List.mem_cons_self
          · rw [Nat.testBit_two_pow_of_ne e] at h
            cases h
      · exact Or.inr (List.mem_cons_of_mem _ h)
  unfold Ab.pub at h
  rw [Bool.or_eq_true] at h
  rcases h with h | h
  · rcases key pub 0 h with h | h
    · simp at h
    · exact Or.inl h
  · exact Or.inr (by simpa using h)

/-- A program that passes the analysis shows the same trace from any two states that agree on the public registers. -/
theorem ct_sound {frame : List Word} {ann : List (Nat × Ab)} {P : Prog} {pub : List Reg} (hr : .rsp ∈ pub)
    (hP : flow frame ann P.length P 0 (some (.start pub)) = true) (f : Nat) (s t : St) (h : Agree pub s t)
    (hc : Clear frame s.rsp P f 0 s) : trace P f 0 s = trace P f 0 t := by
  refine trace_eq hP f 0 s t (.start pub) (fun _ => hP) ?_ (by simp [Ab.start]) hc
  constructor
  · intro r hr'
    rcases start_pub hr' with c | rfl
    · exact h.regs r c
    · exact h.regs _ hr
  · exact h.cf
  · exact h.zf
  · exact h.sf
  · exact h.of
  · exact h.mapped
  · exact h.writable
  · exact h.tables
  · simp [Ab.start]
  · intro o ho
    simp [Ab.start] at ho

end Verif.X86
