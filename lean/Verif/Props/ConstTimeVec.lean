import Verif.Model.X86VecLeak
import Verif.Model.AsmX86.Keccak4
import Verif.Model.AsmX86.MlKem
import Verif.Proof.X86.Ct

/-!
C55 for the machine code with vector instructions: the number-theoretic transforms and the other arithmetic of ML-KEM, and the Keccak permutation of four
states.  Public are the pointers the routines are given and the stack pointer; all other registers, the vector registers and memory may hold secrets, and
neither branches nor addresses depend on them.
-/
namespace Verif.X86
open Verif

/-- Both fault, or both go on, in states that agree on the public registers `pub`. -/
def VBoth (pub : List Reg) : Option VSt → Option VSt → Prop
  | none, none => True
  | some t, some u => Agree pub t.s u.s
  | _, _ => False

/-- An address made of public registers. -/
def addrIn (pub : List Reg) (m : Addr) : Bool :=
  (match m.base with | none => true | some r => pub.contains r) && (match m.idx with | none => true | some p => pub.contains p.1)

/-- The same for an operand. -/
def opdIn (pub : List Reg) : VOpd → Bool
  | .y _ => true
  | .m a => addrIn pub a

namespace Agree
variable {pub : List Reg}

theorem eaEq {s s' : X86.St} (h : Agree pub s s') {m : Addr} (hm : addrIn pub m = true) : s'.ea m = s.ea m := by
  obtain ⟨base, idx, disp⟩ := m
  have g : ∀ r, pub.contains r = true → s'.get r = s.get r := fun r hr => (h.regs r (by simpa using hr)).symm
  cases base with
  | none =>
    cases idx with
    | none => rfl
    | some p => simp only [addrIn, Bool.true_and] at hm; simp only [X86.St.ea, g _ hm]
  | some r =>
    cases idx with
    | none => simp only [addrIn, Bool.and_true] at hm; simp only [X86.St.ea, g _ hm]
    | some p => simp only [addrIn, Bool.and_eq_true] at hm; simp only [X86.St.ea, g _ hm.1, g _ hm.2]

theorem valigned {t u : VSt} (h : Agree pub t.s u.s) {x : VOpd} (hx : opdIn pub x = true) : u.aligned x = t.aligned x := by
  cases x with
  | y _ => rfl
  | m a => simp only [VSt.aligned, h.eaEq hx]

theorem loadSome {s s' : X86.St} (h : Agree pub s s') (a : Word) : (s.load a).isSome = (s'.load a).isSome := h.mapped a

theorem load4 {t u : VSt} (h : Agree pub t.s u.s) (a : Word) : (t.load a).isSome = (u.load a).isSome := by
  have e : ∀ t : VSt, (t.load a).isSome = ((t.s.load a).isSome && (t.s.load (a + 8#64)).isSome && (t.s.load (a + 16#64)).isSome && (t.s.load (a + 24#64)).isSome) := by
    intro t
    simp only [VSt.load, bind, Option.bind]
    cases t.s.load a <;> cases t.s.load (a + 8#64) <;> cases t.s.load (a + 16#64) <;> cases t.s.load (a + 24#64) <;> rfl
  rw [e, e, h.loadSome, h.loadSome, h.loadSome, h.loadSome]

theorem valSome {t u : VSt} (h : Agree pub t.s u.s) {x : VOpd} (hx : opdIn pub x = true) : (t.val x).isSome = (u.val x).isSome := by
  cases x with
  | y _ => rfl
  | m a => simp only [VSt.val, h.eaEq hx]; exact h.load4 _

theorem bindSet {t u : VSt} {α : Type} (h : Agree pub t.s u.s) {x y : Option α} (e : x.isSome = y.isSome) (d : Nat) (f g : α → V4) :
    VBoth pub (x.bind fun v => some (t.set d (f v))) (y.bind fun v => some (u.set d (g v))) := by
  cases x <;> cases y <;> simp at e
  · exact trivial
  · exact h

/-- Storing a word. -/
theorem store1 {t u : VSt} (h : Agree pub t.s u.s) (a v w : Word) :
    VBoth pub ((t.s.store a v).map fun s => { t with s := s }) ((u.s.store a w).map fun s => { u with s := s }) := by
  simp only [X86.St.store, ← h.writable]
  cases t.s.wr a with
  | false => exact trivial
  | true =>
    refine ⟨fun r hr => ?_, fun b => ?_, by first | rfl | exact h.writable, h.tables, h.cf, h.zf, h.sf, h.of⟩
    · have := h.regs r hr
      cases r <;> exact this
    · show (if b = a then some v else t.s.mem b).isSome = (if b = a then some w else u.s.mem b).isSome
      split
      · rfl
      · exact h.mapped b

theorem store4 {t u : VSt} (h : Agree pub t.s u.s) (a : Word) (v w : V4) : VBoth pub (t.store a v) (u.store a w) := by
  have e : ∀ (t : VSt) (v : V4), t.store a v = (((((t.s.store a v.w0).map fun s => { t with s := s }).bind
      fun t => (t.s.store (a + 8#64) v.w1).map fun s => { t with s := s }).bind
      fun t => (t.s.store (a + 16#64) v.w2).map fun s => { t with s := s }).bind
      fun t => (t.s.store (a + 24#64) v.w3).map fun s => { t with s := s }) := by
    intro t v
    simp only [VSt.store, bind]
    cases t.s.store a v.w0 with
    | none => rfl
    | some s0 =>
      simp only [Option.bind, Option.map]
      cases s0.store (a + 8#64) v.w1 with
      | none => rfl
      | some s1 =>
        simp only
        cases s1.store (a + 16#64) v.w2 with
        | none => rfl
        | some s2 =>
          simp only
          cases s2.store (a + 24#64) v.w3 <;> rfl
  have next : ∀ {x y : Option VSt} (b p q : Word), VBoth pub x y →
      VBoth pub (x.bind fun t => (t.s.store b p).map fun s => { t with s := s }) (y.bind fun t => (t.s.store b q).map fun s => { t with s := s }) := by
    intro x y b p q hb
    cases x <;> cases y <;> try exact hb.elim
    · exact trivial
    · exact Agree.store1 hb b p q
  rw [e, e]
  exact next _ _ _ (next _ _ _ (next _ _ _ (h.store1 _ _ _)))

end Agree

end Verif.X86

namespace Verif.Props
open Verif Verif.X86 Verif.X86.Asm

/-- All addresses of a vector instruction are made of public registers. -/
def vaddrIn (pub : List Reg) : VInstr → Bool
  | .sc _ => false
  | .st m _ | .stA m _ | .pbroadcastq _ m | .movqLd _ m | .movqSt m _ | .movhpdSt m _ | .pinsrq _ _ m _ => addrIn pub m
  | .mov _ x | .movA _ x | .movsldup _ x | .permq _ x _ => opdIn pub x
  | .pxor _ _ x | .por _ _ x | .pandn _ _ x | .pshufb _ _ x | .punpcklqdq _ _ x | .punpckhqdq _ _ x | .perm2i128 _ _ x _ | .pand _ _ x
  | .paddw _ _ x | .psubw _ _ x | .pmullw _ _ x | .pmulhw _ _ x | .pblendw _ _ x _ | .pblendd _ _ x _ | .permd _ _ x => opdIn pub x
  | _ => true

theorem eff_both {pub : List Reg} {i : VInstr} (hi : vaddrIn pub i = true) {t u : VSt} (h : Agree pub t.s u.s) : VBoth pub (i.eff t) (i.eff u) := by
  cases i <;> simp only [VInstr.eff, bind] <;> simp only [vaddrIn, Bool.false_eq_true] at hi
  case st => rw [h.eaEq hi]; exact h.store4 _ _ _
  case movqSt m x =>
    have := h.store1 (t.s.ea m) (t.y x).w0 (u.y x).w0
    rw [h.eaEq hi]
    simpa only [Option.map_eq_bind, Function.comp_def] using this
  case movhpdSt m x =>
    have := h.store1 (t.s.ea m) (t.y x).w1 (u.y x).w1
    rw [h.eaEq hi]
    simpa only [Option.map_eq_bind, Function.comp_def] using this
  case movA d x =>
    have := h.valSome hi
    rw [h.valigned hi]
    cases hx : t.val x <;> cases hy : u.val x <;> simp [hx, hy] at this
    · trivial
    · simp only [Option.bind]
      split
      · exact h
      · trivial
  case stA m x =>
    rw [h.valigned (x := .m m) hi, h.eaEq hi]
    split
    · exact h.store4 _ _ _
    · trivial
  all_goals first
    | exact h
    | exact h.bindSet (h.valSome hi) _ _ _
    | (rw [h.eaEq hi]; exact h.bindSet (h.loadSome _) _ _ _)

/-- What is known before an instruction: the public registers, and whether the flags are public. -/
abbrev VInfo := List Reg × Bool

/-- Two states that agree on what is public. -/
def VRel (p : VInfo) (s s' : X86.St) : Prop :=
  Agree p.1 s s' ∧ (p.2 = true → s.cf = s'.cf ∧ s.zf = s'.zf ∧ s.sf = s'.sf ∧ s.of = s'.of)

/-- What is known after a scalar instruction; `none` for those that do not occur or would reveal a secret. -/
def scPost (p : VInfo) : Instr → Option VInfo
  | .nop => some p
  | .jcc _ _ => if p.2 then some p else none
  | .mov (.reg d) (.reg x) => some (if p.1.contains x then (d :: p.1, p.2) else (p.1.filter (· != d), p.2))
  | .mov (.reg d) (.imm _) => some (d :: p.1, p.2)
  | .add (.reg d) (.imm _) | .sub (.reg d) (.imm _) | .and (.reg d) (.imm _) | .cmp (.reg d) (.imm _) => some (p.1, p.1.contains d)
  | _ => none

/-- What is known after any instruction. -/
def vpost (p : VInfo) : VInstr → Option VInfo
  | .sc i => scPost p i
  | i => if vaddrIn p.1 i then some (p.1, false) else none

/-- `q` claims no more than `p`. -/
def vle (q p : VInfo) : Bool := q.1.all p.1.contains && (!q.2 || p.2)

/-- The positions an instruction may go to. -/
def vnext (pc : Nat) : VInstr → List Nat
  | .sc (.jcc _ l) => [l, pc + 1]
  | _ => [pc + 1]

/-- The claims `info` about each position follow from each other. -/
def vflow (info : Nat → VInfo) (P : VProg) : Bool :=
  P.zipIdx.all fun x => match vpost (info x.2) x.1 with | none => false | some o => (vnext x.2 x.1).all fun l => vle (info l) o

theorem VRel.mono {q p : VInfo} (h : vle q p = true) {s s' : X86.St} (r : VRel p s s') : VRel q s s' := by
  simp only [vle, Bool.and_eq_true, Bool.or_eq_true, List.all_eq_true] at h
  obtain ⟨h1, h2⟩ := h
  refine ⟨{ r.1 with regs := fun x hx => r.1.regs x (by simpa using h1 x hx) }, fun hq => ?_⟩
  rcases h2 with h2 | h2
  · rw [hq] at h2; cases h2
  · exact r.2 h2

theorem agree_set {pub pub' : List Reg} {s s' : X86.St} (h : Agree pub s s') {d : Reg} {v w : Word}
    (hp : ∀ r ∈ pub', (r = d ∧ v = w) ∨ (r ≠ d ∧ r ∈ pub)) : Agree pub' (s.set d v) (s'.set d w) := by
  obtain ⟨a1, a2, a3, a4, a5, a6, a7⟩ := set_rest s d v
  obtain ⟨b1, b2, b3, b4, b5, b6, b7⟩ := set_rest s' d w
  refine ⟨fun r hr => ?_, fun a => by rw [a5, b5]; exact h.mapped a, by rw [a6, b6]; exact h.writable, by rw [a7, b7]; exact h.tables,
    by rw [a1, b1]; exact h.cf, by rw [a2, b2]; exact h.zf, by rw [a3, b3]; exact h.sf, by rw [a4, b4]; exact h.of⟩
  rw [getset, getset]
  rcases hp r hr with ⟨e, hv⟩ | ⟨e, hm⟩
  · rw [if_pos e, if_pos e, hv]
  · rw [if_neg e, if_neg e]; exact h.regs r hm

/-- Both fault, or both go to the same position, in states that agree. -/
def ScBoth (q : VInfo) : Option (Nat × X86.St) → Option (Nat × X86.St) → Prop
  | none, none => True
  | some (p, s), some (p', s') => p = p' ∧ VRel q s s'
  | _, _ => False

/-- Setting flags from a register and a constant, and then perhaps the register. -/
theorem agree_flags {pub : List Reg} {s s' : X86.St} (h : Agree pub s s') {c z g o c' z' g' o' : Bool} :
    Agree pub { s with cf := some c, zf := some z, sf := some g, of := some o } { s' with cf := some c', zf := some z', sf := some g', of := some o' } := by
  refine ⟨fun r hr => ?_, h.mapped, h.writable, h.tables, rfl, rfl, rfl, rfl⟩
  have := h.regs r hr
  cases r <;> exact this

theorem scPost_ok {p q : VInfo} {i : Instr} (hq : scPost p i = some q) (pc : Nat) {s s' : X86.St} (h : VRel p s s') :
    ScBoth q (i.exec pc s) (i.exec pc s') := by
  obtain ⟨ha, hf⟩ := h
  unfold scPost at hq
  split at hq
  case h_1 => cases hq; exact ⟨rfl, ha, hf⟩
  case h_2 c l =>
    split at hq
    case isTrue hp =>
      cases hq
      obtain ⟨f1, f2, f3, f4⟩ := hf hp
      have hc : s'.cond c = s.cond c := by cases c <;> simp only [X86.St.cond, f1, f2, f3]
      simp only [Instr.exec, hc]
      cases s.cond c with
      | none => trivial
      | some b => exact ⟨rfl, ha, hf⟩
    case isFalse => cases hq
  case h_3 d x =>
    have hfl : ∀ v w : Word, p.2 = true → (s.set d v).cf = (s'.set d w).cf ∧ (s.set d v).zf = (s'.set d w).zf ∧ (s.set d v).sf = (s'.set d w).sf ∧
        (s.set d v).of = (s'.set d w).of := by
      intro v w hp
      obtain ⟨f1, f2, f3, f4⟩ := hf hp
      obtain ⟨a1, a2, a3, a4, -⟩ := set_rest s d v
      obtain ⟨b1, b2, b3, b4, -⟩ := set_rest s' d w
      exact ⟨by rw [a1, b1, f1], by rw [a2, b2, f2], by rw [a3, b3, f3], by rw [a4, b4, f4]⟩
    split at hq
    case isTrue hx =>
      cases hq
      refine ⟨rfl, agree_set ha fun r hr => ?_, hfl _ _⟩
      by_cases e : r = d
      · exact .inl ⟨e, ha.regs x (by simpa using hx)⟩
      · exact .inr ⟨e, (List.mem_cons.mp hr).resolve_left e⟩
    case isFalse hx =>
      cases hq
      refine ⟨rfl, agree_set ha fun r hr => ?_, hfl _ _⟩
      obtain ⟨h1, h2⟩ := List.mem_filter.mp hr
      exact .inr ⟨by simpa using h2, h1⟩
  case h_4 d v =>
    cases hq
    refine ⟨rfl, agree_set ha fun r hr => ?_, fun hp => ?_⟩
    · by_cases e : r = d
      · exact .inl ⟨e, rfl⟩
      · exact .inr ⟨e, (List.mem_cons.mp hr).resolve_left e⟩
    · obtain ⟨f1, f2, f3, f4⟩ := hf hp
      obtain ⟨a1, a2, a3, a4, -⟩ := set_rest s d v
      obtain ⟨b1, b2, b3, b4, -⟩ := set_rest s' d v
      exact ⟨by rw [a1, b1, f1], by rw [a2, b2, f2], by rw [a3, b3, f3], by rw [a4, b4, f4]⟩
  case h_9 => cases hq
  all_goals rename_i d v; cases hq
  case h_8 =>
    refine ⟨rfl, agree_flags ha, fun hp => ?_⟩
    have e := ha.regs d (by simpa using hp)
    show (s.subFlags (s.get d) v false).cf = _ ∧ _
    simp only [X86.St.subFlags, X86.St.zs, e, and_self]
  all_goals
    have hr : ∀ r ∈ p.1, r ≠ d ∨ s.get d = s'.get d := fun r hr => by
      by_cases e : r = d
      · exact .inr (e ▸ ha.regs r hr)
      · exact .inl e
  case h_5 =>
    refine ⟨rfl, agree_set (agree_flags ha) fun r h => ?_, fun hp => ?_⟩
    · rcases hr r h with e | e
      · exact .inr ⟨e, h⟩
      · by_cases e' : r = d
        · exact .inl ⟨e', congrArg (adcv · v false) e⟩
        · exact .inr ⟨e', h⟩
    · have e := ha.regs d (by simpa using hp)
      obtain ⟨a1, a2, a3, a4, -⟩ := set_rest (s.addFlags (s.get d) v false) d (adcv (s.get d) v false)
      obtain ⟨b1, b2, b3, b4, -⟩ := set_rest (s'.addFlags (s'.get d) v false) d (adcv (s'.get d) v false)
      refine ⟨a1.trans (.trans ?_ b1.symm), a2.trans (.trans ?_ b2.symm), a3.trans (.trans ?_ b3.symm), a4.trans (.trans ?_ b4.symm)⟩ <;>
        simp only [X86.St.addFlags, X86.St.zs, e]
  case h_6 =>
    refine ⟨rfl, agree_set (agree_flags ha) fun r h => ?_, fun hp => ?_⟩
    · rcases hr r h with e | e
      · exact .inr ⟨e, h⟩
      · by_cases e' : r = d
        · exact .inl ⟨e', congrArg (sbbv · v false) e⟩
        · exact .inr ⟨e', h⟩
    · have e := ha.regs d (by simpa using hp)
      obtain ⟨a1, a2, a3, a4, -⟩ := set_rest (s.subFlags (s.get d) v false) d (sbbv (s.get d) v false)
      obtain ⟨b1, b2, b3, b4, -⟩ := set_rest (s'.subFlags (s'.get d) v false) d (sbbv (s'.get d) v false)
      refine ⟨a1.trans (.trans ?_ b1.symm), a2.trans (.trans ?_ b2.symm), a3.trans (.trans ?_ b3.symm), a4.trans (.trans ?_ b4.symm)⟩ <;>
        simp only [X86.St.subFlags, X86.St.zs, e]
  case h_7 =>
    refine ⟨rfl, agree_set (agree_flags ha) fun r h => ?_, fun hp => ?_⟩
    · rcases hr r h with e | e
      · exact .inr ⟨e, h⟩
      · by_cases e' : r = d
        · exact .inl ⟨e', congrArg (· &&& v) e⟩
        · exact .inr ⟨e', h⟩
    · have e := ha.regs d (by simpa using hp)
      obtain ⟨a1, a2, a3, a4, -⟩ := set_rest (s.logicFlags (s.get d &&& v)) d (s.get d &&& v)
      obtain ⟨b1, b2, b3, b4, -⟩ := set_rest (s'.logicFlags (s'.get d &&& v)) d (s'.get d &&& v)
      refine ⟨a1.trans (.trans ?_ b1.symm), a2.trans (.trans ?_ b2.symm), a3.trans (.trans ?_ b3.symm), a4.trans (.trans ?_ b4.symm)⟩ <;>
        simp only [X86.St.logicFlags, X86.St.zs, e]

theorem scPost_next {p q : VInfo} {i : Instr} (hq : scPost p i = some q) {pc : Nat} {s : X86.St} {r : Nat × X86.St} (h : i.exec pc s = some r) :
    r.1 ∈ vnext pc (.sc i) := by
  unfold scPost at hq
  split at hq
  case h_2 c l =>
    simp only [Instr.exec, Option.map_eq_some_iff] at h
    obtain ⟨b, -, e⟩ := h
    subst e
    cases b <;> simp [vnext]
  case h_9 => cases hq
  all_goals cases h; simp [vnext]

theorem scPost_addrs {p q : VInfo} {i : Instr} (hq : scPost p i = some q) (s : X86.St) : i.addrs s = [] := by
  unfold scPost at hq
  split at hq <;> first | rfl | cases hq

theorem vaddrs_eq {p : List Reg} {i : VInstr} (hi : vaddrIn p i = true) {t u : VSt} (h : Agree p t.s u.s) : i.addrs t = i.addrs u := by
  have hx : ∀ x : VOpd, opdIn p x = true → x.addrs t = x.addrs u := by
    intro x hx
    cases x with
    | y _ => rfl
    | m a => simp only [VOpd.addrs, h.eaEq hx]
  cases i <;> simp only [vaddrIn, Bool.false_eq_true] at hi <;> simp only [VInstr.addrs] <;> first | exact hx _ hi | rw [h.eaEq hi]

theorem vtrace_eq {info : Nat → VInfo} {P : VProg} (hP : vflow info P = true) (f pc : Nat) {t u : VSt} (h : VRel (info pc) t.s u.s) :
    vtrace P f pc t = vtrace P f pc u := by
  induction f generalizing pc t u with
  | zero => rfl
  | succ f ih =>
    simp only [vtrace]
    cases hi : P[pc]? with
    | none => rfl
    | some i =>
      have hr := List.all_eq_true.mp hP (i, pc) (List.mem_zipIdx_iff_getElem?.mpr hi)
      simp only at hr
      cases ho : vpost (info pc) i with
      | none => rw [ho] at hr; cases hr
      | some o =>
        simp only [ho, List.all_eq_true] at hr
        by_cases hs : ∃ j, i = .sc j
        · obtain ⟨j, rfl⟩ := hs
          have hb := scPost_ok ho pc h
          simp only [VInstr.addrs, scPost_addrs ho, VInstr.exec]
          congr 1
          cases h1 : j.exec pc t.s <;> cases h2 : j.exec pc u.s <;> rw [h1, h2] at hb
          · rfl
          · exact hb.elim
          · exact hb.elim
          · rename_i a b
            obtain ⟨e, hb⟩ := hb
            simp only [Option.map_some]
            rw [← e]
            exact ih _ (hb.mono (hr _ (scPost_next ho h1)))
        · have hv : vaddrIn (info pc).1 i = true ∧ o = ((info pc).1, false) ∧ vnext pc i = [pc + 1] ∧
              ∀ t : VSt, i.exec pc t = (i.eff t).map fun t' => (pc + 1, t') := by
            cases i <;> first | exact absurd ⟨_, rfl⟩ hs | skip
            all_goals
              simp only [vpost] at ho
              split at ho
              · rename_i hv
                exact ⟨hv, by cases ho; rfl, rfl, fun _ => rfl⟩
              · cases ho
          obtain ⟨hv, rfl, hn, ex⟩ := hv
          have hb := eff_both hv h.1
          dsimp only
          rw [vaddrs_eq hv h.1, ex, ex]
          congr 1
          cases h1 : i.eff t <;> cases h2 : i.eff u <;> rw [h1, h2] at hb
          · exact hb.elim
          · exact hb.elim
          · exact ih _ (VRel.mono (hr _ (by simp [hn])) ⟨hb, fun e => by cases e⟩)

/-- The routines with vector instructions that handle secrets, with the public registers. -/
def ctVector : List (VProg × List Reg) := [
  (mlkemBasemulK3, [.rdi, .rsi, .rdx, .rcx]), (mlkemFrombytes, [.rdi, .rsi]), (mlkemIntt, [.rdi, .rsi]), (mlkemMulcacheCompute, [.rdi, .rsi, .rdx]),
  (mlkemNtt, [.rdi, .rsi]), (mlkemReduce, [.rdi]), (mlkemTobytes, [.rdi, .rsi]), (mlkemTomont, [.rdi]), (mlkemUnpack, [.rdi]),
  (sha3Keccak4F1600Alt, [.rdi, .rsi, .rdx, .rcx, .rsp])]

/-- What the analysis knows at each position of the Keccak permutation: `r11` keeps the stack pointer, `r10` counts rounds, and the flags are public
after the comparison. -/
def keccak4Info (pc : Nat) : VInfo :=
  (if pc < 2 then [.rdi, .rsi, .rdx, .rcx, .rsp] else if pc < 100 then [.rdi, .rsi, .rdx, .rcx, .rsp, .r11] else [.rdi, .rsi, .rdx, .rcx, .rsp, .r11, .r10],
    pc == 323)

/-- C55: the instructions executed and the addresses touched by the vector routines of ML-KEM and by the Keccak permutation of four states are the same in
any two states that agree on the public registers, whatever the other registers, the vector registers and memory hold, at every point of the execution. -/
theorem C55_x86_vector : ∀ e ∈ ctVector, ∀ (t u : VSt), Agree e.2 t.s u.s → ∀ f, vtrace e.1 f 0 t = vtrace e.1 f 0 u := by
  have h : ∀ e ∈ ctVector, vflow (fun _ => (e.2, false)) e.1 = true ∨ (e = (sha3Keccak4F1600Alt, (keccak4Info 0).1)) := by
    intro e he
    simp only [ctVector, List.mem_cons, List.not_mem_nil, or_false] at he
    rcases he with rfl | rfl | rfl | rfl | rfl | rfl | rfl | rfl | rfl | rfl
    all_goals first | exact .inl (by decide +kernel) | exact .inr rfl
  intro e he t u htu f
  rcases h e he with h | rfl
  · exact vtrace_eq h f 0 ⟨htu, fun e => by cases e⟩
  · have h : vflow keccak4Info sha3Keccak4F1600Alt = true := by decide +kernel
    exact vtrace_eq h f 0 ⟨htu, fun e => by cases e⟩

/-! Two states with different secrets: another memory and other vector registers. -/

/-- Pointers to four areas, and `v` in the other registers, all of memory and the vector registers. -/
def ctVecSt (v : Word) : VSt where
  s := {
    rax := v, rbx := v, rcx := 0x4000#64, rdx := 0x3000#64, rsi := 0x2000#64, rdi := 0x1000#64, rbp := v, rsp := 0x8000#64
    r8 := v, r9 := v, r10 := v, r11 := v, r12 := v, r13 := v, r14 := v, r15 := v
    cf := none, zf := none, sf := none, of := none
    mem := fun _ => some v, wr := fun _ => true, junk := 0#64, sym := fun _ => 0#64 }
  y := fun _ => ⟨v, v, v, v⟩

example : Agree [.rdi, .rsi, .rdx, .rcx, .rsp] (ctVecSt 1#64).s (ctVecSt 2#64).s :=
  ⟨by decide, fun _ => rfl, rfl, rfl, rfl, rfl, rfl, rfl⟩
/-- The execution goes on to the end of the program. -/
example : (vtrace mlkemReduce 1000 0 (ctVecSt 1#64)).length = mlkemReduce.length := by decide +kernel
/-- Of the four-state permutation: one round of the loop after another. -/
example : (vtrace sha3Keccak4F1600Alt 600 0 (ctVecSt 1#64)).length = 600 := by decide +kernel

end Verif.Props
