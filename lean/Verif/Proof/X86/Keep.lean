import Verif.Proof.X86.Ct
import Verif.Proof.X86.Clobber

/-!
A static analysis of programs of `Verif.X86` that save registers on the stack, and its soundness: at the end of a program that
passes, the stack pointer and every register it is not declared to change have the values they started with.
-/
namespace Verif.X86
open Verif

/-- An abstract state: the registers that hold their first values, the stack pointer relative to its start, and words of the
frame that hold the first values of registers. -/
structure Kp where
  kept : Nat
  sp : Word
  saved : List (Word × Reg)

def Kp.has (a : Kp) (r : Reg) : Bool := a.kept.testBit r.idx && r != .rsp
def Kp.drop (a : Kp) (r : Reg) : Kp := { a with kept := a.kept ^^^ (a.kept &&& 2 ^ r.idx) }
def Kp.add (a : Kp) (r : Reg) : Kp := { a with kept := a.kept ||| 2 ^ r.idx }
def Kp.wipe (a : Kp) (o : Word) : Kp := { a with saved := a.saved.filter (·.1 != o) }

/-- The memory operand an instruction writes. -/
def Instr.memDst : Instr → Option Addr
  | .mov (.mem m) _ | .add (.mem m) _ | .adc (.mem m) _ | .sub (.mem m) _ | .sbb (.mem m) _ | .and (.mem m) _ | .or (.mem m) _
  | .xor (.mem m) _ | .not (.mem m) | .neg (.mem m) | .inc (.mem m) | .dec (.mem m) | .shl (.mem m) _ | .shr (.mem m) _
  | .sar (.mem m) _ | .shld (.mem m) _ _ | .shrd (.mem m) _ _ => some m
  | _ => none

def Instr.isPush : Instr → Bool
  | .push _ => true
  | _ => false

/-- Any instruction that is neither a jump nor concerned with the stack pointer. -/
def Kp.any (a : Kp) (i : Instr) : Option Kp :=
  if i.isPush || i.writes.contains .rsp then none else
    let a := i.writes.foldl Kp.drop a
    match i.memDst with
    | some m => if m.fixed then some (a.wipe (a.sp + m.disp)) else some a
    | none => some a

/-- The abstract effect of an instruction that is not a jump; words outside `frame` are not followed. -/
def Kp.post (frame : List Word) (a : Kp) (i : Instr) : Option Kp :=
  match i with
  | .add (.reg .rsp) (.imm v) => some { a with sp := a.sp + v }
  | .sub (.reg .rsp) (.imm v) => some { a with sp := a.sp - v }
  | .push r =>
    let b := { a with sp := a.sp - 8#64 }.wipe (a.sp - 8#64)
    some (if a.has r && frame.contains b.sp then { b with saved := (b.sp, r) :: b.saved } else b)
  | .pop r =>
    if r = .rsp then none else
      let b := { a with sp := a.sp + 8#64 }
      some (if a.saved.contains (a.sp, r) then b.add r else b.drop r)
  | .jmp _ | .jcc _ _ | .call _ | .ret => none
  | i => a.any i

def Kp.le (a b : Kp) : Bool := a.kept &&& b.kept == b.kept && a.sp == b.sp && b.saved.all a.saved.contains

def Kp.entry (ann : List (Nat × Kp)) (pc : Nat) (st : Option Kp) : Option (Option Kp) :=
  match ann.lookup pc, st with
  | none, st => some st
  | some b, none => some (some b)
  | some b, some a => if a.le b then some (some b) else none

def Kp.goes (ann : List (Nat × Kp)) (n l : Nat) (fin a : Kp) : Bool :=
  if l = n then a.le fin else match ann.lookup l with | some b => a.le b | none => false

/-- The analysis: one pass over the program, given the states at jump targets and the state wanted at the end. -/
def keeps (frame : List Word) (ann : List (Nat × Kp)) (fin : Kp) (n : Nat) : Prog → Nat → Option Kp → Bool
  | [], _, none => true
  | [], _, some a => a.le fin
  | i :: P, pc, st =>
    match Kp.entry ann pc st with
    | none => false
    | some none => keeps frame ann fin n P (pc + 1) none
    | some (some a) =>
      match i with
      | .jmp l => Kp.goes ann n l fin a && keeps frame ann fin n P (pc + 1) none
      | .jcc _ l => Kp.goes ann n l fin a && keeps frame ann fin n P (pc + 1) (some a)
      | i =>
        match a.post frame i with
        | none => false
        | some a' => keeps frame ann fin n P (pc + 1) (some a')

/-! Soundness -/

/-- The abstract state describes `s`, in a run from `s0`. -/
structure KRel (s0 : St) (a : Kp) (s : St) : Prop where
  kept : ∀ r, a.has r = true → s.get r = s0.get r
  rsp : s.rsp = s0.rsp + a.sp
  saved : ∀ o r, (o, r) ∈ a.saved → s.mem (s0.rsp + o) = some (s0.get r)

theorem has_drop {a : Kp} {q r : Reg} (h : (a.drop q).has r = true) : r ≠ q ∧ a.has r = true := by
  unfold Kp.has Kp.drop at h
  by_cases e : r = q
  · subst e
    simp [Nat.testBit_xor, Nat.testBit_and, Nat.testBit_two_pow_self] at h
  · have hi : q.idx ≠ r.idx := fun c => e (Reg.idx_inj c).symm
    unfold Kp.has
    simp [Nat.testBit_xor, Nat.testBit_and, Nat.testBit_two_pow_of_ne hi] at h
    exact ⟨e, by simp [h]⟩

theorem has_add {a : Kp} {q r : Reg} (h : (a.add q).has r = true) : r = q ∨ a.has r = true := by
  unfold Kp.has Kp.add at h
  by_cases e : r = q
  · exact Or.inl e
  · have hi : q.idx ≠ r.idx := fun c => e (Reg.idx_inj c).symm
    unfold Kp.has
    simp [Nat.testBit_or, Nat.testBit_two_pow_of_ne hi] at h
    exact Or.inr (by simp [h])

theorem has_drops : ∀ (l : List Reg) {a : Kp} {r : Reg}, (l.foldl Kp.drop a).has r = true → r ∉ l ∧ a.has r = true
  | [], _, _, h => ⟨by simp, h⟩
  | q :: l, a, r, h => by
    obtain ⟨h1, h2⟩ := has_drops l (a := a.drop q) h
    obtain ⟨h3, h4⟩ := has_drop h2
    exact ⟨by simp [h1, h3], h4⟩

theorem drops_rest : ∀ (l : List Reg) (a : Kp), (l.foldl Kp.drop a).sp = a.sp ∧ (l.foldl Kp.drop a).saved = a.saved
  | [], _ => ⟨rfl, rfl⟩
  | q :: l, a => drops_rest l (a.drop q)

theorem KRel.mono {s0 a b s} (h : KRel s0 a s) (hle : a.le b = true) : KRel s0 b s := by
  unfold Kp.le at hle
  simp only [Bool.and_eq_true, List.all_eq_true] at hle
  obtain ⟨⟨h1, h2⟩, h3⟩ := hle
  constructor
  · intro r hr
    refine h.kept r ?_
    unfold Kp.has at hr ⊢
    have h1 : a.kept &&& b.kept = b.kept := by simpa using h1
    rw [← h1, Nat.testBit_and] at hr
    simp only [Bool.and_eq_true] at hr ⊢
    exact ⟨hr.1.1, hr.2⟩
  · rw [h.rsp, show a.sp = b.sp by simpa using h2]
  · intro o r hm
    exact h.saved o r (by simpa using h3 _ hm)

theorem ea_of_get {s t : St} (h : ∀ r, t.get r = s.get r) (m : Addr) : t.ea m = s.ea m := by
  obtain ⟨base, idx, disp⟩ := m
  unfold St.ea
  cases base <;> cases idx <;> simp [h]

theorem store_mem {s s' : St} {a v x : Word} (h : s.store a v = some s') (hx : x ≠ a) : s'.mem x = s.mem x := by
  unfold St.store at h
  split at h
  · cases h
    exact if_neg hx
  · cases h

/-- The address an operand is. -/
def Opd.dst : Opd → Option Addr
  | .mem m => some m
  | _ => none

theorem put_mem {s t s' : St} {d : Opd} {v x : Word} (h : t.put d v = some s') (hg : ∀ r, t.get r = s.get r)
    (hm : t.mem x = s.mem x) (hx : ∀ m, d.dst = some m → x ≠ s.ea m) : s'.mem x = s.mem x := by
  cases d with
  | reg q =>
    cases h
    rw [← hm]
    cases q <;> rfl
  | imm v => cases h
  | mem m =>
    rw [← hm]
    refine store_mem h ?_
    rw [ea_of_get hg]
    exact hx m rfl

theorem shift_mem {s s' : St} {d n : Opd} {f : Word → Nat → Word} {g : Word → Nat → Bool} {x : Word}
    (h : s.shift d n f g = some s') (hx : ∀ m, d.dst = some m → x ≠ s.ea m) : s'.mem x = s.mem x := by
  unfold St.shift at h
  simp only [bind, Option.bind_eq_some_iff] at h
  obtain ⟨a, -, k, -, h⟩ := h
  split at h
  · cases h
    rfl
  · exact put_mem h (fun r => by cases r <;> rfl) rfl hx

theorem set_mem (s : St) (q : Reg) (v : Word) : (s.set q v).mem = s.mem := by cases q <;> rfl

set_option maxHeartbeats 1600000 in
theorem eff_mem {i : Instr} {s s' : St} (hp : i.isPush = false) (h : i.eff s = some s') {x : Word}
    (hx : ∀ m, i.memDst = some m → x ≠ s.ea m) : s'.mem x = s.mem x := by
  have flags : ∀ {t : St} {d : Opd} {v : Word}, t.put d v = some s' → (∀ r, t.get r = s.get r) → t.mem x = s.mem x →
      (∀ m, d.dst = some m → x ≠ s.ea m) → s'.mem x = s.mem x := fun h a b c => put_mem h a b c
  have dst : ∀ {d : Opd} {j : Opd → Option Addr}, (∀ m, j d = some m → x ≠ s.ea m) → (∀ m, j (.mem m) = some m) →
      ∀ m, d.dst = some m → x ≠ s.ea m := by
    intro d j h1 h2 m hm
    cases d <;> cases hm
    exact h1 m (h2 m)
  cases i <;> simp only [Instr.eff, bind, Option.bind_eq_some_iff, Option.some.injEq, reduceCtorEq] at h
  case nop => rw [← h]
  case mov x => obtain ⟨_, -, h⟩ := h; exact flags h (fun _ => rfl) rfl (dst (j := fun d => Instr.memDst (.mov d x)) hx fun _ => rfl)
  case mov32 => rw [← h, set_mem]
  case lea => rw [← h, set_mem]
  case add x => obtain ⟨_, -, _, -, h⟩ := h; exact flags h (fun r => by cases r <;> rfl) rfl (dst (j := fun d => Instr.memDst (.add d x)) hx fun _ => rfl)
  case adc x => obtain ⟨_, -, _, -, _, -, h⟩ := h; exact flags h (fun r => by cases r <;> rfl) rfl (dst (j := fun d => Instr.memDst (.adc d x)) hx fun _ => rfl)
  case sub x => obtain ⟨_, -, _, -, h⟩ := h; exact flags h (fun r => by cases r <;> rfl) rfl (dst (j := fun d => Instr.memDst (.sub d x)) hx fun _ => rfl)
  case sbb x => obtain ⟨_, -, _, -, _, -, h⟩ := h; exact flags h (fun r => by cases r <;> rfl) rfl (dst (j := fun d => Instr.memDst (.sbb d x)) hx fun _ => rfl)
  case cmp => obtain ⟨_, -, _, -, h⟩ := h; rw [← h]; rfl
  case and x => obtain ⟨_, -, _, -, h⟩ := h; exact flags h (fun r => by cases r <;> rfl) rfl (dst (j := fun d => Instr.memDst (.and d x)) hx fun _ => rfl)
  case or x => obtain ⟨_, -, _, -, h⟩ := h; exact flags h (fun r => by cases r <;> rfl) rfl (dst (j := fun d => Instr.memDst (.or d x)) hx fun _ => rfl)
  case xor x => obtain ⟨_, -, _, -, h⟩ := h; exact flags h (fun r => by cases r <;> rfl) rfl (dst (j := fun d => Instr.memDst (.xor d x)) hx fun _ => rfl)
  case test => obtain ⟨_, -, _, -, h⟩ := h; rw [← h]; rfl
  case not => obtain ⟨_, -, h⟩ := h; exact flags h (fun _ => rfl) rfl (dst (j := fun d => Instr.memDst (.not d)) hx fun _ => rfl)
  case neg => obtain ⟨_, -, h⟩ := h; exact flags h (fun r => by cases r <;> rfl) rfl (dst (j := fun d => Instr.memDst (.neg d)) hx fun _ => rfl)
  case inc => obtain ⟨_, -, h⟩ := h; exact flags h (fun r => by cases r <;> rfl) rfl (dst (j := fun d => Instr.memDst (.inc d)) hx fun _ => rfl)
  case dec => obtain ⟨_, -, h⟩ := h; exact flags h (fun r => by cases r <;> rfl) rfl (dst (j := fun d => Instr.memDst (.dec d)) hx fun _ => rfl)
  case mul => obtain ⟨_, -, h⟩ := h; rw [← h]
  case imul1 => obtain ⟨_, -, h⟩ := h; rw [← h]
  case imul => obtain ⟨_, -, h⟩ := h; rw [← h]; exact congrFun (set_mem s _ _) _
  case imul3 => obtain ⟨_, -, h⟩ := h; rw [← h]; exact congrFun (set_mem s _ _) _
  case mulx => obtain ⟨_, -, h⟩ := h; rw [← h, set_mem, set_mem]
  case adcx => obtain ⟨_, -, _, -, h⟩ := h; rw [← h]; exact congrFun (set_mem s _ _) _
  case adox => obtain ⟨_, -, _, -, h⟩ := h; rw [← h]; exact congrFun (set_mem s _ _) _
  case shl n => exact shift_mem h (dst (j := fun d => Instr.memDst (.shl d n)) hx fun _ => rfl)
  case shr n => exact shift_mem h (dst (j := fun d => Instr.memDst (.shr d n)) hx fun _ => rfl)
  case sar n => exact shift_mem h (dst (j := fun d => Instr.memDst (.sar d n)) hx fun _ => rfl)
  case shld q n => exact shift_mem h (dst (j := fun d => Instr.memDst (.shld d q n)) hx fun _ => rfl)
  case shrd q n => exact shift_mem h (dst (j := fun d => Instr.memDst (.shrd d q n)) hx fun _ => rfl)
  case bsf => obtain ⟨_, -, h⟩ := h; rw [← h, set_mem]
  case bsr => obtain ⟨_, -, h⟩ := h; rw [← h, set_mem]
  case bt => obtain ⟨_, -, h⟩ := h; rw [← h]
  case btr => rw [← h]; exact congrFun (set_mem s _ _) _
  case bts => rw [← h]; exact congrFun (set_mem s _ _) _
  case btc => rw [← h]; exact congrFun (set_mem s _ _) _
  case adc32 => obtain ⟨_, -, h⟩ := h; rw [← h]; exact congrFun (set_mem s _ _) _
  case rol =>
    split at h
    · cases h; rfl
    · cases h; exact congrFun (set_mem s _ _) _
  case ror =>
    split at h
    · cases h; rfl
    · cases h; exact congrFun (set_mem s _ _) _
  case xchg => rw [← h, set_mem, set_mem]
  case leaSym => rw [← h, set_mem]
  case cmov => obtain ⟨_, -, _, -, h⟩ := h; rw [← h, set_mem]
  case push => cases hp
  case pop => obtain ⟨_, -, h⟩ := h; rw [← h, set_mem, set_mem]

theorem blind_eq (i : Instr) (s : St) :
    i.blind s = match i.memDst with | some m => if m.fixed then [] else [s.ea m] | none => [] := by
  cases i with
  | mov d x => cases d <;> rfl
  | add d x => cases d <;> rfl
  | adc d x => cases d <;> rfl
  | sub d x => cases d <;> rfl
  | sbb d x => cases d <;> rfl
  | and d x => cases d <;> rfl
  | or d x => cases d <;> rfl
  | xor d x => cases d <;> rfl
  | shl d x => cases d <;> rfl
  | shr d x => cases d <;> rfl
  | sar d x => cases d <;> rfl
  | not d => cases d <;> rfl
  | neg d => cases d <;> rfl
  | inc d => cases d <;> rfl
  | dec d => cases d <;> rfl
  | shld d q n => cases d <;> rfl
  | shrd d q n => cases d <;> rfl
  | _ => rfl

theorem KRel.any {s0 a a' s s'} {frame : List Word} {i : Instr} (h : KRel s0 a s) (hs : ∀ o r, (o, r) ∈ a.saved → o ∈ frame)
    (hb : ∀ x ∈ i.blind s, ∀ o ∈ frame, x ≠ s0.rsp + o) (hp : a.any i = some a') (he : i.eff s = some s') :
    KRel s0 a' s' ∧ ∀ o r, (o, r) ∈ a'.saved → o ∈ frame := by
  unfold Kp.any at hp
  split at hp
  · cases hp
  rename_i hw
  simp only [Bool.or_eq_true, List.contains_iff_mem, not_or, Bool.not_eq_true] at hw
  obtain ⟨hpush, hw⟩ := hw
  obtain ⟨d1, d2⟩ := drops_rest i.writes a
  have hk : ∀ r, (i.writes.foldl Kp.drop a).has r = true → s'.get r = s0.get r := by
    intro r hr
    obtain ⟨h1, h2⟩ := has_drops i.writes hr
    rw [eff_get he h1, h.kept r h2]
  have hr : s'.rsp = s0.rsp + a.sp := by
    have := eff_get he hw
    rw [← h.rsp]
    exact this
  rw [blind_eq] at hb
  dsimp only at hp
  split at hp
  · rename_i m hm
    rw [hm] at hb
    dsimp only at hb
    split at hp
    · rename_i hf
      cases hp
      have hea : s.ea m = s0.rsp + (a.sp + m.disp) := by
        obtain ⟨base, idx, disp⟩ := m
        unfold Addr.fixed at hf
        rw [Bool.and_eq_true] at hf
        have h1 : base = some .rsp := by simpa using hf.1
        have h2 : idx = none := by simpa using hf.2
        subst h1
        subst h2
        show s.rsp + 0#64 + disp = _
        rw [h.rsp, BitVec.add_zero, BitVec.add_assoc]
      refine ⟨⟨hk, by rw [hr, ← d1]; rfl, ?_⟩, ?_⟩
      · intro o r ho
        simp only [Kp.wipe, List.mem_filter, d1, d2] at ho
        rw [eff_mem hpush he, h.saved o r ho.1]
        intro m' hm'
        rw [hm] at hm'
        cases hm'
        rw [hea]
        intro c
        have : o = a.sp + m.disp := by simpa using c
        simp [this] at ho
      · intro o r ho
        simp only [Kp.wipe, List.mem_filter, d2] at ho
        exact hs o r ho.1
    · rename_i hf
      cases hp
      rw [if_neg hf] at hb
      refine ⟨⟨hk, by rw [hr, ← d1], ?_⟩, ?_⟩
      · intro o r ho
        rw [d2] at ho
        rw [eff_mem hpush he, h.saved o r ho]
        intro m' hm'
        rw [hm] at hm'
        cases hm'
        exact fun c => hb _ List.mem_cons_self o (hs o r ho) c.symm
      · intro o r ho
        rw [d2] at ho
        exact hs o r ho
  · rename_i hm
    cases hp
    refine ⟨⟨hk, by rw [hr, ← d1], ?_⟩, ?_⟩
    · intro o r ho
      rw [d2] at ho
      rw [eff_mem hpush he, h.saved o r ho]
      intro m' hm'
      rw [hm] at hm'
      cases hm'
    · intro o r ho
      rw [d2] at ho
      exact hs o r ho

theorem KRel.post {s0 a a' s s'} {frame : List Word} {i : Instr} (h : KRel s0 a s) (hs : ∀ o r, (o, r) ∈ a.saved → o ∈ frame)
    (hb : ∀ x ∈ i.blind s, ∀ o ∈ frame, x ≠ s0.rsp + o) (hp : a.post frame i = some a') (he : i.eff s = some s') :
    KRel s0 a' s' ∧ ∀ o r, (o, r) ∈ a'.saved → o ∈ frame := by
  unfold Kp.post at hp
  split at hp
  · rename_i v
    cases hp
    cases he
    refine ⟨⟨?_, ?_, ?_⟩, hs⟩
    · intro r hr
      rw [← h.kept r hr]
      have : r ≠ .rsp := by intro c; subst c; simp [Kp.has] at hr
      exact Eq.trans (get_set this) (by cases r <;> rfl)
    · show adcv s.rsp v false = _
      rw [h.rsp]
      simp [adcv, BitVec.add_assoc]
    · exact h.saved
  · rename_i v
    cases hp
    cases he
    refine ⟨⟨?_, ?_, ?_⟩, hs⟩
    · intro r hr
      rw [← h.kept r hr]
      have : r ≠ .rsp := by intro c; subst c; simp [Kp.has] at hr
      exact Eq.trans (get_set this) (by cases r <;> rfl)
    · show sbbv s.rsp v false = _
      rw [h.rsp]
      simp [sbbv, BitVec.sub_eq_add_neg, BitVec.add_assoc]
    · exact h.saved
  · rename_i r
    cases hp
    simp only [Instr.eff] at he
    have hsp : s.rsp - 8#64 = s0.rsp + (a.sp - 8#64) := by
      rw [h.rsp, BitVec.sub_eq_add_neg, BitVec.sub_eq_add_neg, BitVec.add_assoc]
    have hm : s'.mem = fun x => if x = s.rsp - 8#64 then some (s.get r) else s.mem x := by
      unfold St.store at he
      split at he
      · cases he
        rfl
      · cases he
    have base : KRel s0 ({ a with sp := a.sp - 8#64 }.wipe (a.sp - 8#64)) s' := by
      refine ⟨?_, ?_, ?_⟩
      · intro q hq
        have : q ≠ .rsp := by intro c; subst c; simp [Kp.has] at hq
        rw [store_get he, get_set this]
        exact h.kept q hq
      · have := store_get he .rsp
        exact this.trans hsp
      · intro o q ho
        simp only [Kp.wipe, List.mem_filter] at ho
        rw [hm, hsp]
        dsimp only
        rw [if_neg, h.saved o q ho.1]
        intro c
        have : o = a.sp - 8#64 := by simpa using c
        simp [this] at ho
    have bsl : ∀ o q, (o, q) ∈ ({ a with sp := a.sp - 8#64 }.wipe (a.sp - 8#64)).saved → o ∈ frame := by
      intro o q ho
      simp only [Kp.wipe, List.mem_filter] at ho
      exact hs o q ho.1
    split
    · rename_i hc
      rw [Bool.and_eq_true] at hc
      refine ⟨⟨base.kept, base.rsp, ?_⟩, ?_⟩
      · intro o q ho
        rcases List.mem_cons.mp ho with c | c
        · cases c
          rw [hm, hsp]
          exact (if_pos rfl).trans (by rw [h.kept r hc.1])
        · exact base.saved o q c
      · intro o q ho
        rcases List.mem_cons.mp ho with c | c
        · cases c
          simpa using hc.2
        · exact bsl o q c
    · exact ⟨base, bsl⟩
  · rename_i r
    split at hp
    · cases hp
    rename_i hr
    cases hp
    simp only [Instr.eff, bind, Option.bind_eq_some_iff, Option.some.injEq] at he
    obtain ⟨v, hv, he⟩ := he
    subst he
    have hm : ((s.set .rsp (s.rsp + 8#64)).set r v).mem = s.mem := by rw [set_mem, set_mem]
    have hsp : ((s.set .rsp (s.rsp + 8#64)).set r v).rsp = s0.rsp + (a.sp + 8#64) := by
      rw [set_rsp hr, ← BitVec.add_assoc, ← h.rsp]
      rfl
    have hk : ∀ q, q ≠ r → a.has q = true → ((s.set .rsp (s.rsp + 8#64)).set r v).get q = s0.get q := by
      intro q h1 h2
      have : q ≠ .rsp := by intro c; subst c; simp [Kp.has] at h2
      rw [get_set h1, get_set this, h.kept q h2]
    split
    · rename_i hc
      refine ⟨⟨?_, hsp, ?_⟩, hs⟩
      · intro q hq
        by_cases e : q = r
        · subst e
          have hl := h.saved a.sp q (by simpa using hc)
          rw [← h.rsp] at hl
          rw [getset, if_pos rfl]
          exact Option.some.inj (hv.symm.trans hl)
        · rcases has_add hq with c | c
          · exact absurd c e
          · exact hk q e c
      · intro o q ho
        rw [hm]
        exact h.saved o q ho
    · refine ⟨⟨?_, hsp, ?_⟩, hs⟩
      · intro q hq
        obtain ⟨h1, h2⟩ := has_drop hq
        exact hk q h1 h2
      · intro o q ho
        rw [hm]
        exact h.saved o q ho
  · cases hp
  · cases hp
  · cases hp
  · cases hp
  · exact h.any hs hb hp he

theorem kle_saved {a b : Kp} (h : a.le b = true) {frame : List Word} (hs : ∀ o r, (o, r) ∈ a.saved → o ∈ frame) :
    ∀ o r, (o, r) ∈ b.saved → o ∈ frame := by
  unfold Kp.le at h
  simp only [Bool.and_eq_true, List.all_eq_true] at h
  exact fun o r ho => hs o r (by simpa using h.2 _ ho)

theorem kentry_some {ann pc a r} (h : Kp.entry ann pc (some a) = some r) : ∃ a', r = some a' ∧ (a' = a ∨ a.le a' = true) := by
  unfold Kp.entry at h
  split at h
  · cases h
    exact ⟨a, rfl, Or.inl rfl⟩
  · rename_i e
    cases e
  · rename_i b c e1 e2
    cases e2
    split at h
    · cases h
      rename_i hle
      exact ⟨_, rfl, Or.inr hle⟩
    · cases h

/-- From an annotated position on the pass succeeds with the annotation. -/
theorem keeps_at {frame ann fin n} : ∀ (P : Prog) (pc : Nat) (st : Option Kp), keeps frame ann fin n P pc st = true → ∀ k b,
    ann.lookup (pc + k) = some b → k < P.length → ∀ r, Kp.entry ann (pc + k) r ≠ none →
      keeps frame ann fin n (P.drop k) (pc + k) r = true := by
  intro P
  induction P with
  | nil => intro pc st _ k b _ hk; cases hk
  | cons i P ih =>
    intro pc st h k b hl hk
    cases k with
    | zero =>
      intro r hr
      have hl' : ann.lookup pc = some b := hl
      have e : ∀ r, Kp.entry ann pc r ≠ none → Kp.entry ann pc r = some (some b) := by
        intro r hr
        unfold Kp.entry at hr ⊢
        rw [hl'] at hr ⊢
        cases r with
        | none => rfl
        | some a =>
          dsimp only at hr ⊢
          split
          · rfl
          · rename_i hn
            rw [if_neg hn] at hr
            exact absurd rfl hr
      have h1 : Kp.entry ann pc st ≠ none := by
        intro c
        rw [keeps, c] at h
        cases h
      show keeps frame ann fin n (i :: P) pc r = true
      rw [keeps, e st h1] at h
      rw [keeps, e r hr]
      exact h
    | succ k =>
      have hk' : k < P.length := by
        rw [List.length_cons] at hk
        omega
      have key : ∀ st', keeps frame ann fin n P (pc + 1) st' = true → _ := fun st' h' =>
        ih (pc + 1) st' h' k b (by rw [← hl]; congr 1; omega) hk'
      have e : pc + 1 + k = pc + (k + 1) := by omega
      rw [e] at key
      rw [keeps] at h
      split at h
      · cases h
      · exact key _ h
      · split at h
        · rw [Bool.and_eq_true] at h
          exact key _ h.2
        · rw [Bool.and_eq_true] at h
          exact key _ h.2
        · split at h
          · cases h
          · exact key _ h

theorem keeps_run {frame : List Word} {s0 : St} {ann : List (Nat × Kp)} {fin : Kp} {P : Prog} {a0 : Kp}
    (hP : keeps frame ann fin P.length P 0 (some a0) = true) : ∀ (f pc : Nat) (s s' : St) (a : Kp),
    keeps frame ann fin P.length (P.drop pc) pc (some a) = true → KRel s0 a s → (∀ o r, (o, r) ∈ a.saved → o ∈ frame) →
    Clear frame s0.rsp P f pc s → run P f pc s = some s' → KRel s0 fin s' := by
  intro f
  induction f with
  | zero => intro _ _ _ _ _ _ _ _ h; cases h
  | succ f ih =>
    intro pc s s' a hf h hs hc hr
    rw [run] at hr
    split at hr
    · rename_i e
      cases hr
      subst e
      rw [List.drop_length, keeps] at hf
      exact h.mono hf
    rw [Clear] at hc
    cases hi : P[pc]? with
    | none => rw [hi] at hr; cases hr
    | some i =>
      rw [hi] at hc hr
      dsimp only at hc hr
      obtain ⟨hb, hc⟩ := hc
      have hlt : pc < P.length := (List.getElem?_eq_some_iff.mp hi).1
      have hg := (List.getElem?_eq_some_iff.mp hi).2
      have hd : P.drop pc = i :: P.drop (pc + 1) := by rw [List.drop_eq_getElem_cons hlt, hg]
      rw [hd, keeps] at hf
      have goes : ∀ l a', KRel s0 a' s → (∀ o r, (o, r) ∈ a'.saved → o ∈ frame) → Kp.goes ann P.length l fin a' = true →
          Clear frame s0.rsp P f l s → run P f l s = some s' → KRel s0 fin s' := by
        intro l a' h' hs' hgo hc' hr'
        unfold Kp.goes at hgo
        split at hgo
        · rename_i e
          subst e
          have hdl : P.drop P.length = [] := List.drop_length
          exact ih _ s s' a' (by rw [hdl, keeps]; exact hgo) h' hs' hc' hr'
        · split at hgo
          · rename_i b' hb'
            by_cases hl : l < P.length
            · refine ih l s s' b' ?_ (h'.mono hgo) (kle_saved hgo hs') hc' hr'
              have hh := keeps_at P 0 (some a0) hP l b' (by rw [Nat.zero_add]; exact hb') hl
              rw [Nat.zero_add] at hh
              refine hh _ ?_
              unfold Kp.entry
              rw [hb']
              have : b'.le b' = true := by simp [Kp.le]
              simp [this]
            · cases f with
              | zero => cases hr'
              | succ f =>
                rw [run, if_neg (by assumption), List.getElem?_eq_none (by omega)] at hr'
                cases hr'
          · cases hgo
      split at hf
      · cases hf
      · rename_i e
        obtain ⟨a', e', -⟩ := kentry_some e
        cases e'
      · rename_i a' e
        obtain ⟨a'', e', hle⟩ := kentry_some e
        cases e'
        have h' : KRel s0 a' s := by
          rcases hle with rfl | hle
          · exact h
          · exact h.mono hle
        have hs' : ∀ o r, (o, r) ∈ a'.saved → o ∈ frame := by
          rcases hle with rfl | hle
          · exact hs
          · exact kle_saved hle hs
        split at hf
        · rename_i l
          rw [Bool.and_eq_true] at hf
          exact goes l a' h' hs' hf.1 hc hr
        · rename_i c l
          rw [Bool.and_eq_true] at hf
          simp only [Instr.exec] at hc hr
          cases hq : s.cond c with
          | none => rw [hq] at hr; cases hr
          | some q =>
            rw [hq] at hc hr
            simp only [Option.map_some] at hc hr
            cases q with
            | true =>
              simp only [if_true] at hc hr
              exact goes l a' h' hs' hf.1 hc hr
            | false =>
              simp only [Bool.false_eq_true, if_false] at hc hr
              exact ih (pc + 1) s s' a' hf.2 h' hs' hc hr
        · rename_i n1 n2
          split at hf
          · cases hf
          · rename_i a2 hpost
            have n3 : ∀ l, i ≠ .call l := by intro l c; subst c; cases hpost
            have n4 : i ≠ .ret := by intro c; subst c; cases hpost
            have ex := exec_eff (i := i) (fun l c => n1 l c) (fun c l d => n2 c l d) n3 n4 pc
            rw [ex s] at hc hr
            cases he : i.eff s with
            | none => rw [he] at hr; cases hr
            | some t =>
              rw [he] at hc hr
              simp only [Option.map_some] at hc hr
              obtain ⟨k1, k2⟩ := h'.post hs' hb hpost he
              exact ih (pc + 1) t s' a2 hf k1 k2 hc hr

/-- All registers but those in `l`. -/
def Kp.but (l : List Reg) : Kp where
  kept := (l.foldl Kp.drop ⟨0xffff, 0#64, []⟩).kept
  sp := 0#64
  saved := []

theorem has_foldl : ∀ (l : List Reg) {a : Kp} {r : Reg}, r ∉ l → a.has r = true → (l.foldl Kp.drop a).has r = true
  | [], _, _, _, h => h
  | q :: l, a, r, hn, h => by
    rw [List.mem_cons, not_or] at hn
    refine has_foldl l hn.2 ?_
    have hi : q.idx ≠ r.idx := fun c => hn.1 (Reg.idx_inj c).symm
    unfold Kp.has Kp.drop at *
    simp [Nat.testBit_xor, Nat.testBit_and, Nat.testBit_two_pow_of_ne hi] at h ⊢
    exact h

/-- A program that passes ends with the stack pointer, and all registers not in `l`, as they were. -/
theorem keeps_sound {frame : List Word} {ann : List (Nat × Kp)} {P : Prog} {l : List Reg}
    (hP : keeps frame ann (.but l) P.length P 0 (some (.but [])) = true) {f : Nat} {s s' : St}
    (hc : Clear frame s.rsp P f 0 s) (hr : run P f 0 s = some s') : s'.rsp = s.rsp ∧ ∀ r, r ∉ l → s'.get r = s.get r := by
  have h := keeps_run (s0 := s) hP f 0 s s' (.but []) hP ⟨fun _ _ => rfl, by simp [Kp.but], by simp [Kp.but]⟩
    (by simp [Kp.but]) hc hr
  have h1 : s'.rsp = s.rsp := by rw [h.rsp]; simp [Kp.but]
  refine ⟨h1, fun r hn => ?_⟩
  by_cases e : r = .rsp
  · subst e
    exact h1
  · refine h.kept r ?_
    have h0 : (⟨0xffff, 0#64, []⟩ : Kp).has r = true := by cases r <;> first | rfl | exact absurd rfl e
    exact has_foldl l hn h0

end Verif.X86
