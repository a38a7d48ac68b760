import Verif.Props.ConstTimeVec

/-!
C61 for the vector code of ML-KEM: the registers that the operands of an `asm!` block do not name, and the stack pointer, are as at the start.  (For the
Keccak permutation of four states, which moves the stack pointer, this is part of C63_keccak4_f.)
-/
namespace Verif.Props
open Verif Verif.X86 Verif.X86.Asm

/-- A vector instruction changes no scalar register. -/
theorem veff_regs {i : VInstr} {t t' : VSt} (h : i.eff t = some t') (r : Reg) : t'.s.get r = t.s.get r := by
  have hset : ∀ d v, (some (t.set d v) : Option VSt) = some t' → t'.s.get r = t.s.get r := by
    intro d v e; cases e; rfl
  have hst : ∀ {s s' : X86.St} {a v : Word}, s.store a v = some s' → s'.get r = s.get r := by
    intro s s' a v e
    simp only [X86.St.store] at e
    split at e
    · cases e; cases r <;> rfl
    · cases e
  have h4 : ∀ a v, t.store a v = some t' → t'.s.get r = t.s.get r := by
    intro a v e
    simp only [VSt.store, bind, Option.bind_eq_some_iff] at e
    obtain ⟨s0, e0, s1, e1, s2, e2, s3, e3, e⟩ := e
    cases e
    exact (hst e3).trans ((hst e2).trans ((hst e1).trans (hst e0)))
  cases i <;> simp only [VInstr.eff, bind, Option.bind_eq_some_iff, reduceCtorEq] at h
  case st => exact h4 _ _ h
  case movqSt => obtain ⟨s, hs, e⟩ := h; cases e; exact hst hs
  case movhpdSt => obtain ⟨s, hs, e⟩ := h; cases e; exact hst hs
  case movA =>
    obtain ⟨v, -, e⟩ := h
    split at e
    · exact hset _ _ e
    · cases e
  case stA =>
    split at h
    · exact h4 _ _ h
    · cases h
  all_goals first
    | exact hset _ _ h
    | (obtain ⟨v, -, e⟩ := h; exact hset _ _ e)

/-- A scalar instruction without memory operands that writes only registers of the list. -/
def writesIn (rs : List Reg) : Instr → Bool
  | .nop | .jmp _ | .jcc _ _ => true
  | .mov (.reg d) (.reg _) | .mov (.reg d) (.imm _) => rs.contains d
  | .add (.reg d) (.imm _) | .sub (.reg d) (.imm _) | .and (.reg d) (.imm _) => rs.contains d
  | .cmp (.reg _) (.imm _) => true
  | _ => false

/-- The same for a vector program. -/
def vwritesIn (rs : List Reg) : VInstr → Bool
  | .sc i => writesIn rs i
  | _ => true

theorem get_set_ne {s : X86.St} {d r : Reg} (v : Word) (h : r ≠ d) : (s.set d v).get r = s.get r := by
  cases d <;> cases r <;> first | rfl | exact absurd rfl h

theorem writesIn_exec {rs : List Reg} {i : Instr} (hi : writesIn rs i = true) {pc : Nat} {s : X86.St} {p : Nat × X86.St} (h : i.exec pc s = some p)
    {r : Reg} (hr : r ∉ rs) : p.2.get r = s.get r := by
  have ne : ∀ d, rs.contains d = true → r ≠ d := by
    intro d hd e
    subst e
    exact hr (by simpa using hd)
  have fa : ∀ (a b : Word) (c : Bool), (s.addFlags a b c).get r = s.get r := by intro a b c; cases r <;> rfl
  have fs : ∀ (a b : Word) (c : Bool), (s.subFlags a b c).get r = s.get r := by intro a b c; cases r <;> rfl
  have fg : ∀ (a : Word), (s.logicFlags a).get r = s.get r := by intro a; cases r <;> rfl
  unfold writesIn at hi
  split at hi
  case h_1 => cases h; rfl
  case h_2 => cases h; rfl
  case h_3 c l =>
    simp only [Instr.exec, Option.map_eq_some_iff] at h
    obtain ⟨b, -, e⟩ := h
    rw [← e]
  case h_4 d x => cases h; exact get_set_ne _ (ne d hi)
  case h_5 d x => cases h; exact get_set_ne _ (ne d hi)
  case h_6 d x => cases h; exact (get_set_ne _ (ne d hi)).trans (fa _ _ _)
  case h_7 d x => cases h; exact (get_set_ne _ (ne d hi)).trans (fs _ _ _)
  case h_8 d x => cases h; exact (get_set_ne _ (ne d hi)).trans (fg _)
  case h_9 d x => cases h; exact fs _ _ _
  case h_10 => cases hi

theorem vkeeps {rs : List Reg} {P : VProg} (hP : P.all (vwritesIn rs) = true) {r : Reg} (hr : r ∉ rs) (f pc : Nat) {t t' : VSt}
    (h : vrun P f pc t = some t') : t'.s.get r = t.s.get r := by
  induction f generalizing pc t with
  | zero => cases h
  | succ f ih =>
    simp only [vrun] at h
    split at h
    · cases h; rfl
    · cases hi : P[pc]? with
      | none => rw [hi] at h; cases h
      | some i =>
        rw [hi] at h
        have hw := List.all_eq_true.mp hP i (List.mem_of_getElem? hi)
        cases he : i.exec pc t with
        | none => simp only [he] at h; cases h
        | some q =>
          obtain ⟨pc', t1⟩ := q
          simp only [he] at h
          rw [ih _ h]
          by_cases hs : ∃ j, i = .sc j
          · obtain ⟨j, rfl⟩ := hs
            simp only [VInstr.exec, Option.map_eq_some_iff] at he
            obtain ⟨p, hp, e⟩ := he
            cases e
            exact writesIn_exec hw hp hr
          · have ex : i.exec pc t = (i.eff t).map fun t' => (pc + 1, t') := by
              cases i <;> first | rfl | exact absurd ⟨_, rfl⟩ hs
            rw [ex, Option.map_eq_some_iff] at he
            obtain ⟨t2, ht, e⟩ := he
            cases e
            exact veff_regs ht r

/-- The vector routines of ML-KEM, with the registers that the operands of their blocks name. -/
def keepMlKem : List (VProg × List Reg) := [
  (mlkemNtt, mlkemNttRegs), (mlkemIntt, mlkemInttRegs), (mlkemBasemulK3, mlkemBasemulK3Regs), (mlkemMulcacheCompute, mlkemMulcacheComputeRegs),
  (mlkemReduce, mlkemReduceRegs), (mlkemTomont, mlkemTomontRegs), (mlkemUnpack, mlkemUnpackRegs), (mlkemTobytes, mlkemTobytesRegs),
  (mlkemFrombytes, mlkemFrombytesRegs)]

/-- C61: from whatever state, and however they end, the vector routines of ML-KEM leave the stack pointer and the registers they do not name as they
found them.  Nothing is assumed about where they write. -/
theorem C61_mlkem : ∀ e ∈ keepMlKem, ∀ (f : Nat) (t t' : VSt), vrun e.1 f 0 t = some t' →
    t'.s.rsp = t.s.rsp ∧ ∀ r, r ∉ e.2 → t'.s.get r = t.s.get r := by
  have h : ∀ e ∈ keepMlKem, e.1.all (vwritesIn e.2) = true ∧ Reg.rsp ∉ e.2 := by decide +kernel
  intro e he f t t' hr
  obtain ⟨h1, h2⟩ := h e he
  exact ⟨vkeeps h1 h2 f 0 hr, fun r hn => vkeeps h1 hn f 0 hr⟩

/-- A run that ends. -/
example : (vrun mlkemReduce 1000 0 (ctVecSt 1#64)).isSome = true := by decide +kernel

end Verif.Props
