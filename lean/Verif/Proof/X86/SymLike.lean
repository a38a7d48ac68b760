import Verif.Proof.X86.SymCall
import Verif.Proof.X86.Clobber

/-!
Two programs that differ only in where their operands are in memory.

The point routines repeat the same few programs, for field operations, on operands in different places.  Such a program is
followed once, on operands at the stack pointer; here it is shown that a copy that has its operands elsewhere does the same.
-/
namespace Verif.X86.Sym
open Verif Verif.X86

/-- The state with another memory. -/
def over (μ : Word → Option Word) (w : Word → Bool) (s : St) : St := { s with mem := μ, wr := w }

theorem over_get (μ w s) (r : Reg) : (over μ w s).get r = s.get r := by cases r <;> rfl
theorem over_set (μ w s) (r : Reg) (v : Word) : (over μ w s).set r v = over μ w (s.set r v) := by cases r <;> rfl
theorem set_wr (s : St) (r : Reg) (v : Word) : (s.set r v).wr = s.wr := by cases r <;> rfl

/-- `[r + d]` of the one is `[rsp + e]` of the other. -/
structure Pair where
  r : Reg
  d : Word
  e : Word

def Reg.is (r q : Reg) : Bool := r.idx.beq q.idx

theorem Reg.is_eq {r q : Reg} (h : Reg.is r q = true) : r = q := Reg.idx_inj (Nat.eq_of_beq_eq_true h)

def Opd.like (m : List Pair) : Opd → Opd → Bool
  | .reg r, .reg q => Reg.is r q
  | .imm v, .imm w => v.toNat.beq w.toNat
  | .mem ⟨some r, none, d⟩, .mem ⟨some q, none, e⟩ =>
    Reg.is q .rsp && m.any fun p => Reg.is r p.r && p.d.toNat.beq d.toNat && p.e.toNat.beq e.toNat
  | _, _ => false

def Opd.same : Opd → Opd → Bool
  | .reg r, .reg q => Reg.is r q
  | _, _ => false

def Opd.immed : Opd → Opd → Bool
  | .imm v, .imm w => v.toNat.beq w.toNat
  | _, _ => false

def Addr.same : Addr → Addr → Bool
  | ⟨some r, none, d⟩, ⟨some q, none, e⟩ => Reg.is r q && d.toNat.beq e.toNat
  | ⟨some r, some (i, k), d⟩, ⟨some q, some (j, l), e⟩ => Reg.is r q && Reg.is i j && k.toNat.beq l.toNat && d.toNat.beq e.toNat
  | _, _ => false

def Cond.num : Cond → Nat
  | .cy => 0 | .nc => 1 | .zr => 2 | .nz => 3 | .be => 4 | .ab => 5 | .sg => 6 | .ns => 7

/-- The same instruction, with its result in a register. -/
def like (m : List Pair) : Instr → Instr → Bool
  | .mov d x, g => match g with | .mov e y => Opd.same d e && Opd.like m x y | _ => false
  | .mov32 d x, g => match g with | .mov32 e y => Reg.is d e && Reg.is x y | _ => false
  | .lea d x, g => match g with | .lea e y => Reg.is d e && Addr.same x y | _ => false
  | .add d x, g => match g with | .add e y => Opd.same d e && Opd.like m x y | _ => false
  | .adc d x, g => match g with | .adc e y => Opd.same d e && Opd.like m x y | _ => false
  | .sub d x, g => match g with | .sub e y => Opd.same d e && Opd.like m x y | _ => false
  | .sbb d x, g => match g with | .sbb e y => Opd.same d e && Opd.like m x y | _ => false
  | .cmp d x, g => match g with | .cmp e y => Opd.same d e && Opd.like m x y | _ => false
  | .and d x, g => match g with | .and e y => Opd.same d e && Opd.like m x y | _ => false
  | .or d x, g => match g with | .or e y => Opd.same d e && Opd.like m x y | _ => false
  | .xor d x, g => match g with | .xor e y => Opd.same d e && Opd.like m x y | _ => false
  | .not d, g => match g with | .not e => Opd.same d e | _ => false
  | .neg d, g => match g with | .neg e => Opd.same d e | _ => false
  | .inc d, g => match g with | .inc e => Opd.same d e | _ => false
  | .dec d, g => match g with | .dec e => Opd.same d e | _ => false
  | .mulx h l x, g => match g with | .mulx h' l' y => Reg.is h h' && Reg.is l l' && Opd.like m x y | _ => false
  | .adcx d x, g => match g with | .adcx e y => Reg.is d e && Opd.like m x y | _ => false
  | .adox d x, g => match g with | .adox e y => Reg.is d e && Opd.like m x y | _ => false
  | .adc32 d x, g => match g with | .adc32 e y => Reg.is d e && Reg.is x y | _ => false
  | .shl d x, g => match g with | .shl e y => Opd.same d e && Opd.immed x y | _ => false
  | .shr d x, g => match g with | .shr e y => Opd.same d e && Opd.immed x y | _ => false
  | .shld d x n, g => match g with | .shld e y k => Opd.same d e && Reg.is x y && Opd.immed n k | _ => false
  | .shrd d x n, g => match g with | .shrd e y k => Opd.same d e && Reg.is x y && Opd.immed n k | _ => false
  | .cmov c d x, g => match g with
    | .cmov c' e y => (Cond.num c).beq (Cond.num c') && Reg.is d e && Opd.like m x y
    | _ => false
  | _, _ => false

/-- The operands hold the same. -/
def Pairs (m : List Pair) (μ : Word → Option Word) (s : St) : Prop :=
  ∀ p ∈ m, s.mem (s.get p.r + p.d) = μ (s.rsp + p.e)

theorem word_beq {v w : Word} (h : v.toNat.beq w.toNat = true) : v = w := BitVec.eq_of_toNat_eq (Nat.eq_of_beq_eq_true h)

theorem same_ok {d e : Opd} (h : Opd.same d e = true) : ∃ r, d = .reg r ∧ e = .reg r := by
  unfold Opd.same at h
  split at h
  · cases Reg.is_eq h
    exact ⟨_, rfl, rfl⟩
  · cases h

theorem immed_ok {d e : Opd} (h : Opd.immed d e = true) : ∃ v, d = .imm v ∧ e = .imm v := by
  unfold Opd.immed at h
  split at h
  · cases word_beq h
    exact ⟨_, rfl, rfl⟩
  · cases h

theorem like_val {m μ w s} (hp : Pairs m μ s) {x y : Opd} (h : Opd.like m x y = true) : (over μ w s).val y = s.val x := by
  unfold Opd.like at h
  split at h
  · cases Reg.is_eq h
    exact congrArg some (over_get ..)
  · cases word_beq h
    rfl
  · rw [Bool.and_eq_true] at h
    cases Reg.is_eq h.1
    obtain ⟨p, hp1, hp2⟩ := List.any_eq_true.mp h.2
    simp only [Bool.and_eq_true] at hp2
    have h1 := Reg.is_eq hp2.1.1
    have h2 := word_beq hp2.1.2
    have h3 := word_beq hp2.2
    have h4 := hp p hp1
    rw [← h1, h2, h3] at h4
    show μ (s.rsp + 0#64 + _) = s.mem (s.get _ + 0#64 + _)
    rw [BitVec.add_zero, BitVec.add_zero, h4]
  · cases h

theorem addr_same {μ w s} {x y : Addr} (h : Addr.same x y = true) : (over μ w s).ea y = s.ea x := by
  unfold Addr.same at h
  split at h
  · simp only [Bool.and_eq_true] at h
    cases Reg.is_eq h.1
    cases word_beq h.2
    simp only [St.ea, over_get]
  · simp only [Bool.and_eq_true] at h
    cases Reg.is_eq h.1.1.1
    cases Reg.is_eq h.1.1.2
    cases word_beq h.1.2
    cases word_beq h.2
    simp only [St.ea, over_get]
  · cases h

theorem cond_num {c d : Cond} (h : (Cond.num c).beq (Cond.num d) = true) : c = d := by
  have := Nat.eq_of_beq_eq_true h
  revert this
  cases c <;> cases d <;> intro h <;> first | rfl | cases h

/-- What is to be shown of an instruction. -/
def Fwd (μ : Word → Option Word) (w : Word → Bool) (s : St) (c g : Option St) : Prop :=
  g = c.map (over μ w) ∧ ∀ t, c = some t → t.mem = s.mem ∧ t.wr = s.wr

theorem step_reg {μ w s} {f : St → St} (hf : ∀ t μ w, f (over μ w t) = over μ w (f t)) (hm : (f s).mem = s.mem ∧ (f s).wr = s.wr)
    (r : Reg) (v : Word) : Fwd μ w s ((f s).put (.reg r) v) ((f (over μ w s)).put (.reg r) v) := by
  constructor
  · show some _ = some _
    rw [hf, over_set]
  · intro t ht
    cases ht
    rw [set_mem, set_wr]
    exact hm

theorem step_bind {μ w s} {α} {o : Option α} {f g : α → Option St} (h : ∀ b, Fwd μ w s (f b) (g b)) :
    Fwd μ w s (o.bind f) (o.bind g) := by
  cases o with
  | none => exact ⟨rfl, nofun⟩
  | some b => exact h b

theorem step_set {μ w s} (r : Reg) (v : Word) : Fwd μ w s (some (s.set r v)) (some ((over μ w s).set r v)) :=
  step_reg (f := id) (fun _ _ _ => rfl) ⟨rfl, rfl⟩ r v

theorem step_shift {μ w s} (r : Reg) (v : Word) (f : Word → Nat → Word) (co : Word → Nat → Bool) :
    Fwd μ w s (s.shift (.reg r) (.imm v) f co) ((over μ w s).shift (.reg r) (.imm v) f co) := by
  show Fwd μ w s (if v.toNat % 64 = 0 then some s else _) (if v.toNat % 64 = 0 then some (over μ w s) else _)
  split
  · exact ⟨rfl, fun t ht => by cases ht; exact ⟨rfl, rfl⟩⟩
  · show Fwd μ w s _ ((St.shiftFlags _ (co ((over μ w s).get r) _) (f ((over μ w s).get r) _)).put _ (f ((over μ w s).get r) _))
    rw [over_get]
    exact step_reg (f := fun s => s.shiftFlags _ _) (fun _ _ _ => rfl) ⟨rfl, rfl⟩ r _

theorem over_cond (μ w s) (c : Cond) : (over μ w s).cond c = s.cond c := by cases c <;> rfl

theorem like_ok {m μ w s} (hp : Pairs m μ s) {c g : Instr} (h : like m c g = true) :
    Fwd μ w s (c.eff s) (g.eff (over μ w s)) := by
  cases c <;> simp only [like, Bool.false_eq_true] at h
  case mov d x =>
    split at h
    · simp only [Bool.and_eq_true] at h
      obtain ⟨r, rfl, rfl⟩ := same_ok h.1
      have hv := like_val (w := w) hp h.2
      simp only [Instr.eff, bind, hv]
      exact step_bind fun b => step_set r b
    · cases h
  case mov32 d x =>
    split at h
    · simp only [Bool.and_eq_true] at h
      cases Reg.is_eq h.1
      cases Reg.is_eq h.2
      simp only [Instr.eff, over_get]
      exact step_set _ _
    · cases h
  case lea d x =>
    split at h
    · simp only [Bool.and_eq_true] at h
      cases Reg.is_eq h.1
      simp only [Instr.eff, addr_same h.2]
      exact step_set _ _
    · cases h
  case add d x =>
    split at h
    · simp only [Bool.and_eq_true] at h
      obtain ⟨r, rfl, rfl⟩ := same_ok h.1
      have hv := like_val (w := w) hp h.2
      simp only [Instr.eff, bind, hv]
      show Fwd μ w s (Option.bind (some (s.get r)) _) (Option.bind (some ((over μ w s).get r)) _)
      rw [over_get]
      refine step_bind fun a => step_bind fun b => ?_
      exact step_reg (f := fun s => s.addFlags a b false) (fun _ _ _ => rfl) ⟨rfl, rfl⟩ r _
    · cases h
  case adc d x =>
    split at h
    · simp only [Bool.and_eq_true] at h
      obtain ⟨r, rfl, rfl⟩ := same_ok h.1
      have hv := like_val (w := w) hp h.2
      simp only [Instr.eff, bind, hv]
      show Fwd μ w s (Option.bind (some (s.get r)) _) (Option.bind (some ((over μ w s).get r)) _)
      rw [over_get]
      refine step_bind fun a => step_bind fun b => ?_
      refine step_bind (o := s.cf) fun c => ?_
      exact step_reg (f := fun s => s.addFlags a b c) (fun _ _ _ => rfl) ⟨rfl, rfl⟩ r _
    · cases h
  case sub d x =>
    split at h
    · simp only [Bool.and_eq_true] at h
      obtain ⟨r, rfl, rfl⟩ := same_ok h.1
      have hv := like_val (w := w) hp h.2
      simp only [Instr.eff, bind, hv]
      show Fwd μ w s (Option.bind (some (s.get r)) _) (Option.bind (some ((over μ w s).get r)) _)
      rw [over_get]
      refine step_bind fun a => step_bind fun b => ?_
      exact step_reg (f := fun s => s.subFlags a b false) (fun _ _ _ => rfl) ⟨rfl, rfl⟩ r _
    · cases h
  case sbb d x =>
    split at h
    · simp only [Bool.and_eq_true] at h
      obtain ⟨r, rfl, rfl⟩ := same_ok h.1
      have hv := like_val (w := w) hp h.2
      simp only [Instr.eff, bind, hv]
      show Fwd μ w s (Option.bind (some (s.get r)) _) (Option.bind (some ((over μ w s).get r)) _)
      rw [over_get]
      refine step_bind fun a => step_bind fun b => ?_
      refine step_bind (o := s.cf) fun c => ?_
      exact step_reg (f := fun s => s.subFlags a b c) (fun _ _ _ => rfl) ⟨rfl, rfl⟩ r _
    · cases h
  case and d x =>
    split at h
    · simp only [Bool.and_eq_true] at h
      obtain ⟨r, rfl, rfl⟩ := same_ok h.1
      have hv := like_val (w := w) hp h.2
      simp only [Instr.eff, bind, hv]
      show Fwd μ w s (Option.bind (some (s.get r)) _) (Option.bind (some ((over μ w s).get r)) _)
      rw [over_get]
      refine step_bind fun a => step_bind fun b => ?_
      exact step_reg (f := fun s => s.logicFlags (a &&& b)) (fun _ _ _ => rfl) ⟨rfl, rfl⟩ r _
    · cases h
  case or d x =>
    split at h
    · simp only [Bool.and_eq_true] at h
      obtain ⟨r, rfl, rfl⟩ := same_ok h.1
      have hv := like_val (w := w) hp h.2
      simp only [Instr.eff, bind, hv]
      show Fwd μ w s (Option.bind (some (s.get r)) _) (Option.bind (some ((over μ w s).get r)) _)
      rw [over_get]
      refine step_bind fun a => step_bind fun b => ?_
      exact step_reg (f := fun s => s.logicFlags (a ||| b)) (fun _ _ _ => rfl) ⟨rfl, rfl⟩ r _
    · cases h
  case xor d x =>
    split at h
    · simp only [Bool.and_eq_true] at h
      obtain ⟨r, rfl, rfl⟩ := same_ok h.1
      have hv := like_val (w := w) hp h.2
      simp only [Instr.eff, bind, hv]
      show Fwd μ w s (Option.bind (some (s.get r)) _) (Option.bind (some ((over μ w s).get r)) _)
      rw [over_get]
      refine step_bind fun a => step_bind fun b => ?_
      exact step_reg (f := fun s => s.logicFlags (a ^^^ b)) (fun _ _ _ => rfl) ⟨rfl, rfl⟩ r _
    · cases h
  case cmp d x =>
    split at h
    · simp only [Bool.and_eq_true] at h
      obtain ⟨r, rfl, rfl⟩ := same_ok h.1
      have hv := like_val (w := w) hp h.2
      simp only [Instr.eff, bind, hv]
      show Fwd μ w s (Option.bind (some (s.get r)) _) (Option.bind (some ((over μ w s).get r)) _)
      rw [over_get]
      refine step_bind fun a => step_bind fun b => ?_
      exact ⟨rfl, fun t ht => by cases ht; exact ⟨rfl, rfl⟩⟩
    · cases h
  case not d =>
    split at h
    · obtain ⟨r, rfl, rfl⟩ := same_ok h
      simp only [Instr.eff, bind]
      show Fwd μ w s (Option.bind (some (s.get r)) _) (Option.bind (some ((over μ w s).get r)) _)
      rw [over_get]
      refine step_bind fun a => ?_
      exact step_reg (f := fun s => id s) (fun _ _ _ => rfl) ⟨rfl, rfl⟩ r _
    · cases h
  case neg d =>
    split at h
    · obtain ⟨r, rfl, rfl⟩ := same_ok h
      simp only [Instr.eff, bind]
      show Fwd μ w s (Option.bind (some (s.get r)) _) (Option.bind (some ((over μ w s).get r)) _)
      rw [over_get]
      refine step_bind fun a => ?_
      exact step_reg (f := fun s => s.subFlags 0#64 a false) (fun _ _ _ => rfl) ⟨rfl, rfl⟩ r _
    · cases h
  case inc d =>
    split at h
    · obtain ⟨r, rfl, rfl⟩ := same_ok h
      simp only [Instr.eff, bind]
      show Fwd μ w s (Option.bind (some (s.get r)) _) (Option.bind (some ((over μ w s).get r)) _)
      rw [over_get]
      refine step_bind fun a => ?_
      exact step_reg (f := fun s => { s.addFlags a 1#64 false with cf := s.cf }) (fun _ _ _ => rfl) ⟨rfl, rfl⟩ r _
    · cases h
  case dec d =>
    split at h
    · obtain ⟨r, rfl, rfl⟩ := same_ok h
      simp only [Instr.eff, bind]
      show Fwd μ w s (Option.bind (some (s.get r)) _) (Option.bind (some ((over μ w s).get r)) _)
      rw [over_get]
      refine step_bind fun a => ?_
      exact step_reg (f := fun s => { s.subFlags a 1#64 false with cf := s.cf }) (fun _ _ _ => rfl) ⟨rfl, rfl⟩ r _
    · cases h
  case mulx hi lo x =>
    split at h
    · simp only [Bool.and_eq_true] at h
      cases Reg.is_eq h.1.1
      cases Reg.is_eq h.1.2
      have hv := like_val (w := w) hp h.2
      simp only [Instr.eff, bind, hv]
      refine step_bind fun b => ⟨?_, ?_⟩
      · show some _ = some _
        rw [over_set, over_set]
        rfl
      · intro t ht
        cases ht
        rw [set_mem, set_mem, set_wr, set_wr]
        exact ⟨rfl, rfl⟩
    · cases h
  case adcx d x =>
    split at h
    · simp only [Bool.and_eq_true] at h
      cases Reg.is_eq h.1
      have hv := like_val (w := w) hp h.2
      simp only [Instr.eff, bind, hv]
      refine step_bind fun b => step_bind (o := s.cf) fun c => ⟨?_, ?_⟩
      · show some _ = some _
        rw [over_get, over_set]
        rfl
      · intro t ht
        cases ht
        show (s.set _ _).mem = _ ∧ (s.set _ _).wr = _
        rw [set_mem, set_wr]
        exact ⟨rfl, rfl⟩
    · cases h
  case adox d x =>
    split at h
    · simp only [Bool.and_eq_true] at h
      cases Reg.is_eq h.1
      have hv := like_val (w := w) hp h.2
      simp only [Instr.eff, bind, hv]
      refine step_bind fun b => step_bind (o := s.of) fun c => ⟨?_, ?_⟩
      · show some _ = some _
        rw [over_get, over_set]
        rfl
      · intro t ht
        cases ht
        show (s.set _ _).mem = _ ∧ (s.set _ _).wr = _
        rw [set_mem, set_wr]
        exact ⟨rfl, rfl⟩
    · cases h
  case adc32 d x =>
    split at h
    · simp only [Bool.and_eq_true] at h
      cases Reg.is_eq h.1
      cases Reg.is_eq h.2
      simp only [Instr.eff, bind, over_get]
      refine step_bind (o := s.cf) fun c => ⟨?_, ?_⟩
      · show some _ = some _
        rw [over_set]
        rfl
      · intro t ht
        cases ht
        show (s.set _ _).mem = _ ∧ (s.set _ _).wr = _
        rw [set_mem, set_wr]
        exact ⟨rfl, rfl⟩
    · cases h
  case shl d x =>
    split at h
    · simp only [Bool.and_eq_true] at h
      obtain ⟨r, rfl, rfl⟩ := same_ok h.1
      obtain ⟨v, rfl, rfl⟩ := immed_ok h.2
      simp only [Instr.eff]
      exact step_shift r v _ _
    · cases h
  case shr d x =>
    split at h
    · simp only [Bool.and_eq_true] at h
      obtain ⟨r, rfl, rfl⟩ := same_ok h.1
      obtain ⟨v, rfl, rfl⟩ := immed_ok h.2
      simp only [Instr.eff]
      exact step_shift r v _ _
    · cases h
  case shld d x n =>
    split at h
    · simp only [Bool.and_eq_true] at h
      obtain ⟨r, rfl, rfl⟩ := same_ok h.1.1
      cases Reg.is_eq h.1.2
      obtain ⟨v, rfl, rfl⟩ := immed_ok h.2
      simp only [Instr.eff, over_get]
      exact step_shift r v _ _
    · cases h
  case shrd d x n =>
    split at h
    · simp only [Bool.and_eq_true] at h
      obtain ⟨r, rfl, rfl⟩ := same_ok h.1.1
      cases Reg.is_eq h.1.2
      obtain ⟨v, rfl, rfl⟩ := immed_ok h.2
      simp only [Instr.eff, over_get]
      exact step_shift r v _ _
    · cases h
  case cmov c d x =>
    split at h
    · simp only [Bool.and_eq_true] at h
      cases cond_num h.1.1
      cases Reg.is_eq h.1.2
      have hv := like_val (w := w) hp h.2
      simp only [Instr.eff, bind, hv, over_cond, over_get]
      exact step_bind fun b => step_bind fun c => step_set _ _
    · cases h

/-- The operands that can still be found after these registers have changed. -/
def keep (m : List Pair) (ws : List Reg) : List Pair := m.filter fun p => !ws.any (Reg.is p.r)

/-- A store: base register, displacement and register stored. -/
def isStore : Instr → Option (Reg × Word × Reg)
  | .mov (.mem ⟨some q, none, d⟩) (.reg r) => some (q, d, r)
  | _ => none

/-- `C` does what `G` does, with the operands that `m` says, and also stores the registers in `todo` in the places that go with
them; `G` and `C` may both store a word for use later. -/
def likes (b : Reg) : List Pair → List Word → List (Word × Reg) → Prog → Prog → Bool
  | _, _, todo, [], G => G.isEmpty && todo.isEmpty
  | m, all, todo, c :: C, G =>
    match isStore c with
    | none => match G with
      | [] => false
      | g :: G => like m c g && !c.writes.any (Reg.is b) && !c.writes.any (Reg.is .rsp) && likes b (keep m c.writes) all todo C G
    | some (q, d, r) => Reg.is q b && all.any (fun x => x.toNat.beq d.toNat) &&
      match (match G with | [] => none | g :: _ => isStore g) with
      | some (q', e, r') => Reg.is q' .rsp && Reg.is r r' && likes b [⟨b, d, e⟩] all todo C G.tail
      | none => match todo with
        | [] => false
        | (d', r') :: todo => d.toNat.beq d'.toNat && Reg.is r r' && todo.all (fun x => !x.1.toNat.beq d.toNat) &&
          C.all (fun i => !i.writes.any (Reg.is r)) && likes b [] (todo.map Prod.fst) todo C G

theorem isStore_eq {c : Instr} {q d r} (h : isStore c = some (q, d, r)) : c = .mov (.mem ⟨some q, none, d⟩) (.reg r) := by
  unfold isStore at h
  split at h
  · cases h
    rfl
  · cases h

theorem effs_get {r : Reg} : ∀ {P : Prog} {s s' : St}, (∀ i ∈ P, r ∉ i.writes) → effs P s = some s' → s'.get r = s.get r := by
  intro P
  induction P with
  | nil => intro s s' _ h; cases h; rfl
  | cons i P ih =>
    intro s s' hr h
    rw [effs, Option.bind_eq_some_iff] at h
    obtain ⟨t, h1, h2⟩ := h
    rw [ih (fun j hj => hr j (List.mem_cons_of_mem _ hj)) h2, eff_get h1 (hr i List.mem_cons_self)]

theorem not_any_is {l : List Reg} {r : Reg} (h : (!l.any (Reg.is r)) = true) : r ∉ l := by
  intro hr
  have : l.any (Reg.is r) = true := List.any_eq_true.mpr ⟨r, hr, Nat.beq_refl _⟩
  rw [this] at h
  cases h

theorem keep_ok {m μ s s' ws} (hp : Pairs m μ s) (hm : s'.mem = s.mem) (hr : s'.rsp = s.rsp)
    (hg : ∀ r, r ∉ ws → s'.get r = s.get r) : Pairs (keep m ws) μ s' := by
  intro p h
  obtain ⟨h1, h2⟩ := List.mem_filter.mp h
  rw [hm, hr, hg p.r (not_any_is h2)]
  exact hp p h1

theorem likes_ok {b : Reg} : ∀ {C : Prog} {m all todo G s μ t}, likes b m all todo C G = true → Pairs m μ s →
    (∀ d ∈ all, s.wr (s.get b + d) = true) → (∀ p ∈ todo, s.wr (s.get b + p.1) = true) → effs G (over μ (fun _ => true) s) = some t →
    ∃ s', effs C s = some s' ∧ (∀ r, s'.get r = t.get r) ∧ s'.wr = s.wr ∧ s'.get b = s.get b ∧
      (∀ p ∈ todo, s'.mem (s.get b + p.1) = some (s'.get p.2)) ∧
      ∀ a, (∀ d ∈ all, a ≠ s.get b + d) → (∀ p ∈ todo, a ≠ s.get b + p.1) → s'.mem a = s.mem a := by
  intro C
  induction C with
  | nil =>
    intro m all todo G s μ t h hp hw hall he
    unfold likes at h
    rw [Bool.and_eq_true] at h
    have h1 := List.isEmpty_iff.mp h.1
    have h2 := List.isEmpty_iff.mp h.2
    subst h1 h2
    cases he
    exact ⟨s, rfl, fun r => (over_get ..).symm, rfl, rfl, nofun, fun _ _ _ => rfl⟩
  | cons c C ih =>
    intro m all todo G s μ t h hp hw hall he
    unfold likes at h
    split at h
    · split at h
      · cases h
      · rename_i g G
        simp only [Bool.and_eq_true] at h
        obtain ⟨⟨⟨h1, h2⟩, h3⟩, h4⟩ := h
        obtain ⟨k1, k2⟩ := like_ok (w := fun _ => true) hp h1
        rw [effs, Option.bind_eq_some_iff] at he
        obtain ⟨t1, e1, e2⟩ := he
        rw [k1, Option.map_eq_some_iff] at e1
        obtain ⟨s1, e1, rfl⟩ := e1
        obtain ⟨m1, m2⟩ := k2 s1 e1
        have hb := eff_get e1 (not_any_is h2)
        have hs : s1.rsp = s.rsp := eff_get e1 (not_any_is h3)
        obtain ⟨s', r1, r2, r3, r4, r5, r6⟩ := ih h4 (keep_ok hp m1 hs fun r hr => eff_get e1 hr)
          (by rw [m2, hb]; exact hw) (by rw [m2, hb]; exact hall) e2
        refine ⟨s', ?_, r2, r3.trans m2, r4.trans hb, ?_, ?_⟩
        · rw [effs, e1]
          exact r1
        · rw [← hb]
          exact r5
        · rw [← hb, ← m1]
          exact r6
    · rename_i q d r hc
      have hc := isStore_eq hc
      subst hc
      simp only [Bool.and_eq_true] at h
      obtain ⟨⟨h1, h2⟩, h3⟩ := h
      cases Reg.is_eq h1
      obtain ⟨d', hd, hd'⟩ := List.any_eq_true.mp h2
      cases word_beq hd'
      have hst : (Instr.mov (.mem ⟨some b, none, d⟩) (.reg r)).eff s =
          some { s with mem := fun a => if a = s.get b + d then some (s.get r) else s.mem a } := by
        show s.store (s.get b + 0#64 + d) (s.get r) = _
        rw [BitVec.add_zero, St.store, if_pos (hw _ hd)]
      have hg : ∀ z : Reg, ({ s with mem := fun a => if a = s.get b + d then some (s.get r) else s.mem a } : St).get z = s.get z := by
        intro z; cases z <;> rfl
      split at h3
      · rename_i q' e r' hG
        cases G with
        | nil => cases hG
        | cons g G =>
          have hG := isStore_eq hG
          subst hG
          simp only [Bool.and_eq_true] at h3
          cases Reg.is_eq h3.1.1
          cases Reg.is_eq h3.1.2
          have hst' : (Instr.mov (.mem ⟨some .rsp, none, e⟩) (.reg r)).eff (over μ (fun _ => true) s) =
              some (over (fun a => if a = s.rsp + e then some (s.get r) else μ a) (fun _ => true)
                { s with mem := fun a => if a = s.get b + d then some (s.get r) else s.mem a }) := by
            show (over μ (fun _ => true) s).store (s.rsp + 0#64 + e) ((over μ (fun _ => true) s).get r) = _
            rw [BitVec.add_zero, over_get]
            rfl
          rw [effs, hst'] at he
          obtain ⟨s', r1, r2, r3, r4, r5, r6⟩ := ih (t := t) h3.2 (by
            intro p hp
            cases List.mem_singleton.mp hp
            dsimp only
            rw [hg, if_pos rfl, if_pos rfl]) (by
            rw [hg]
            exact hw) (by
            rw [hg]
            exact hall) he
          rw [hg] at r4 r5 r6
          refine ⟨s', ?_, r2, r3, r4, r5, ?_⟩
          · rw [effs, hst]
            exact r1
          · intro a ha hb
            rw [r6 a ha hb]
            exact if_neg (ha _ hd)
      · split at h3
        · cases h3
        · rename_i d'' r'' todo
          simp only [Bool.and_eq_true] at h3
          obtain ⟨⟨⟨⟨h4, h5⟩, h6⟩, h7⟩, h8⟩ := h3
          cases word_beq h4
          cases Reg.is_eq h5
          have hne : ∀ p ∈ todo, p.1 ≠ d := by
            intro p hp hc
            have := List.all_eq_true.mp h6 p hp
            rw [hc] at this
            simp at this
          have hnw : ∀ i ∈ C, r ∉ i.writes := fun i hi => not_any_is (List.all_eq_true.mp h7 i hi)
          obtain ⟨s', r1, r2, r3, r4, r5, r6⟩ := ih (t := t) (μ := μ)
            (s := { s with mem := fun a => if a = s.get b + d then some (s.get r) else s.mem a }) h8 nofun (by
            intro x hx
            obtain ⟨p, hp, rfl⟩ := List.mem_map.mp hx
            rw [hg]
            exact hall p (List.mem_cons_of_mem _ hp)) (by
            rw [hg]
            exact fun p hp => hall p (List.mem_cons_of_mem _ hp)) he
          rw [hg] at r4 r5 r6
          refine ⟨s', ?_, r2, r3, r4, ?_, ?_⟩
          · rw [effs, hst]
            exact r1
          · intro p hp
            rcases List.mem_cons.mp hp with rfl | hp
            · have hn : ∀ x ∈ todo, s.get b + d ≠ s.get b + x.1 := fun x hx hc =>
                hne x hx (BitVec.add_right_inj _ |>.mp hc).symm
              rw [r6 _ (fun x hx => by
                obtain ⟨y, hy, rfl⟩ := List.mem_map.mp hx
                exact hn y hy) hn, effs_get hnw r1, hg]
              exact if_pos rfl
            · exact r5 p hp
          · intro a ha hb
            rw [r6 a (fun x hx => by
              obtain ⟨y, hy, rfl⟩ := List.mem_map.mp hx
              exact hb y (List.mem_cons_of_mem _ hy)) fun p hp => hb p (List.mem_cons_of_mem _ hp)]
            exact if_neg (ha _ hd)

end Verif.X86.Sym
