import Verif.Proof.X86

/-! A program changes no register but those its instructions name as a destination. -/
namespace Verif.X86
open Verif

/-- The register an operand is, if it is one. -/
def Opd.regs : Opd → List Reg
  | .reg r => [r]
  | _ => []

/-- The registers an instruction may change. -/
def Instr.writes : Instr → List Reg
  | .nop | .cmp _ _ | .test _ _ | .bt _ _ | .jmp _ | .jcc _ _ => []
  | .mov d _ | .add d _ | .adc d _ | .sub d _ | .sbb d _ | .and d _ | .or d _ | .xor d _ | .not d | .neg d | .inc d | .dec d
  | .shl d _ | .shr d _ | .sar d _ | .shld d _ _ | .shrd d _ _ => d.regs
  | .mov32 d _ | .lea d _ | .imul d _ | .adcx d _ | .adox d _ | .bsf d _ | .bsr d _ | .btr d _ | .cmov _ d _ | .bts d _
  | .btc d _ | .adc32 d _ | .imul3 d _ _ | .rol d _ | .ror d _ | .leaSym d _ => [d]
  | .xchg d x => [d, x]
  | .call _ | .ret => [.rsp]
  | .mul _ | .imul1 _ => [.rax, .rdx]
  | .mulx h l _ => [h, l]
  | .push _ => [.rsp]
  | .pop r => [.rsp, r]

theorem get_set {s : St} {r q : Reg} {v : Word} (h : r ≠ q) : (s.set q v).get r = s.get r := by
  cases q <;> cases r <;> first | rfl | exact absurd rfl h

theorem store_get {s s' : St} {a v : Word} (h : s.store a v = some s') (r : Reg) : s'.get r = s.get r := by
  unfold St.store at h
  split at h
  · cases h
    cases r <;> rfl
  · cases h

theorem put_get {s s' : St} {d : Opd} {v : Word} (h : s.put d v = some s') {r : Reg} (hr : r ∉ d.regs) :
    s'.get r = s.get r := by
  cases d with
  | reg q =>
    cases h
    exact get_set fun e => hr (by rw [e]; exact List.mem_singleton.mpr rfl)
  | imm v => cases h
  | mem m => exact store_get h r

theorem shift_get {s s' : St} {d n : Opd} {f : Word → Nat → Word} {g : Word → Nat → Bool} (h : s.shift d n f g = some s')
    {r : Reg} (hr : r ∉ d.regs) : s'.get r = s.get r := by
  unfold St.shift at h
  simp only [bind, Option.bind_eq_some_iff] at h
  obtain ⟨a, -, k, -, h⟩ := h
  split at h
  · cases h
    rfl
  · exact (put_get h hr).trans (by cases r <;> rfl)

theorem eff_get {i : Instr} {s s' : St} (h : i.eff s = some s') {r : Reg} (hr : r ∉ i.writes) : s'.get r = s.get r := by
  cases i <;> simp only [Instr.eff, bind, Option.bind_eq_some_iff, Option.some.injEq, reduceCtorEq] at h <;>
    simp only [Instr.writes, List.mem_cons, List.not_mem_nil, or_false, not_or] at hr
  case nop => rw [← h]
  case mov => obtain ⟨_, -, h⟩ := h; exact put_get h hr
  case mov32 => rw [← h]; exact get_set hr
  case lea => rw [← h]; exact get_set hr
  case add => obtain ⟨_, -, _, -, h⟩ := h; exact (put_get h hr).trans (by cases r <;> rfl)
  case adc => obtain ⟨_, -, _, -, _, -, h⟩ := h; exact (put_get h hr).trans (by cases r <;> rfl)
  case sub => obtain ⟨_, -, _, -, h⟩ := h; exact (put_get h hr).trans (by cases r <;> rfl)
  case sbb => obtain ⟨_, -, _, -, _, -, h⟩ := h; exact (put_get h hr).trans (by cases r <;> rfl)
  case cmp => obtain ⟨_, -, _, -, h⟩ := h; rw [← h]; cases r <;> rfl
  case and => obtain ⟨_, -, _, -, h⟩ := h; exact (put_get h hr).trans (by cases r <;> rfl)
  case or => obtain ⟨_, -, _, -, h⟩ := h; exact (put_get h hr).trans (by cases r <;> rfl)
  case xor => obtain ⟨_, -, _, -, h⟩ := h; exact (put_get h hr).trans (by cases r <;> rfl)
  case test => obtain ⟨_, -, _, -, h⟩ := h; rw [← h]; cases r <;> rfl
  case not => obtain ⟨_, -, h⟩ := h; exact put_get h hr
  case neg => obtain ⟨_, -, h⟩ := h; exact (put_get h hr).trans (by cases r <;> rfl)
  case inc => obtain ⟨_, -, h⟩ := h; exact (put_get h hr).trans (by cases r <;> rfl)
  case dec => obtain ⟨_, -, h⟩ := h; exact (put_get h hr).trans (by cases r <;> rfl)
  case mul => obtain ⟨_, -, h⟩ := h; rw [← h]; cases r <;> first | rfl | exact absurd rfl hr.1 | exact absurd rfl hr.2
  case imul =>
    obtain ⟨_, -, h⟩ := h
    rw [← h]
    exact Eq.trans (by cases r <;> rfl) (get_set hr)
  case mulx => obtain ⟨_, -, h⟩ := h; rw [← h, get_set hr.1, get_set hr.2]
  case adcx =>
    obtain ⟨_, -, _, -, h⟩ := h
    rw [← h]
    exact Eq.trans (by cases r <;> rfl) (get_set hr)
  case adox =>
    obtain ⟨_, -, _, -, h⟩ := h
    rw [← h]
    exact Eq.trans (by cases r <;> rfl) (get_set hr)
  case shl => exact shift_get h hr
  case shr => exact shift_get h hr
  case sar => exact shift_get h hr
  case shld => exact shift_get h hr
  case shrd => exact shift_get h hr
  case bsf => obtain ⟨_, -, h⟩ := h; rw [← h, get_set hr]; cases r <;> rfl
  case bsr => obtain ⟨_, -, h⟩ := h; rw [← h, get_set hr]; cases r <;> rfl
  case bt => obtain ⟨_, -, h⟩ := h; rw [← h]; cases r <;> rfl
  case btr =>
    rw [← h]
    exact Eq.trans (by cases r <;> rfl) (get_set hr)
  case bts =>
    rw [← h]
    exact Eq.trans (by cases r <;> rfl) (get_set hr)
  case btc =>
    rw [← h]
    exact Eq.trans (by cases r <;> rfl) (get_set hr)
  case adc32 =>
    obtain ⟨_, -, h⟩ := h
    rw [← h]
    exact Eq.trans (by cases r <;> rfl) (get_set hr)
  case imul3 =>
    obtain ⟨_, -, h⟩ := h
    rw [← h]
    exact Eq.trans (by cases r <;> rfl) (get_set hr)
  case imul1 => obtain ⟨_, -, h⟩ := h; rw [← h]; cases r <;> first | rfl | exact absurd rfl hr.1 | exact absurd rfl hr.2
  case rol =>
    split at h
    · cases h
      rfl
    · cases h
      exact Eq.trans (by cases r <;> rfl) (get_set hr)
  case ror =>
    split at h
    · cases h
      rfl
    · cases h
      exact Eq.trans (by cases r <;> rfl) (get_set hr)
  case xchg => rw [← h, get_set hr.2, get_set hr.1]
  case leaSym => rw [← h]; exact get_set hr
  case cmov => obtain ⟨_, -, _, -, h⟩ := h; rw [← h]; exact get_set hr
  case push => exact (store_get h r).trans (get_set hr)
  case pop => obtain ⟨_, -, h⟩ := h; rw [← h, get_set hr.2, get_set hr.1]

theorem run_get {P : Prog} {r : Reg} (hr : ∀ i ∈ P, r ∉ i.writes) : ∀ {f pc : Nat} {s s' : St}, run P f pc s = some s' →
    s'.get r = s.get r := by
  intro f
  induction f with
  | zero => intro pc s s' h; cases h
  | succ f ih =>
    intro pc s s' h
    rw [run] at h
    split at h
    · cases h
      rfl
    · split at h
      · cases h
      · rename_i i hi
        have hm : i ∈ P := List.mem_of_getElem? hi
        split at h
        · cases h
        · rename_i pc' s'' he
          have h1 := ih h
          have h2 : s''.get r = s.get r := by
            cases i <;> simp only [Instr.exec] at he
            case jmp => cases he; rfl
            case call =>
              rw [Option.map_eq_some_iff] at he
              obtain ⟨t, he, hp⟩ := he
              cases hp
              have hn := hr _ hm
              simp only [Instr.writes, List.mem_cons, List.not_mem_nil, or_false] at hn
              rw [store_get he, get_set hn]
            case ret =>
              rw [Option.map_eq_some_iff] at he
              obtain ⟨t, he, hp⟩ := he
              cases hp
              have hn := hr _ hm
              simp only [Instr.writes, List.mem_cons, List.not_mem_nil, or_false] at hn
              rw [get_set hn]
            case jcc =>
              rw [Option.map_eq_some_iff] at he
              obtain ⟨b, -, he⟩ := he
              cases he
              rfl
            all_goals
              rw [Option.map_eq_some_iff] at he
              obtain ⟨t, he, hp⟩ := he
              cases hp
              exact eff_get he (hr _ hm)
          rw [h1, h2]

end Verif.X86
