import Verif.Proof.X86.SymUse

/-! Symbolic execution of a part of a routine: registers on entry may hold numbers too. -/
namespace Verif.X86.Sym
open Verif Verif.X86

/-- The content of a register becomes a variable. -/
def learnR (σ : SSt) (r : Reg) : SSt :=
  { σ with
    nv := σ.nv + 2
    words := vr σ.nv :: σ.words
    regs := σ.regs.set r.idx (.num (vr σ.nv)) }

/-- The entry to a part: blocks of memory, then registers. -/
def entryR (as : List Arg) (rd : List Nat) (rs : List Reg) : SSt := rs.foldl learnR (entry as rd)

def acceptR (as : List Arg) (rd : List Nat) (rs : List Reg) (cs : List Claim) (r : Option SSt) : Bool :=
  match r with
  | none => false
  | some σ =>
    sameSkel σ.mem (cellsFrom 0 as) &&
      (List.range (entryR as rd rs).words.length).all (fun i => samePoly (σ.at' i) ((entryR as rd rs).at' i)) &&
      cs.all fun c => c.check σ as

def verifyR (as : List Arg) (rd : List Nat) (rs : List Reg) (hs : List (Nat × Hint)) (P : Prog) (cs : List Claim) : Bool :=
  acceptR as rd rs cs (runSym 0 hs P (entryR as rd rs))

theorem set_get_self (s : St) (r : Reg) : s.set r (s.get r) = s := by cases r <;> rfl

theorem learnR_rep {B s0 ρ σ s} (h : Rep B s0 ρ σ s) (r : Reg)
    (hr : σ.room = true) : ∃ ρ', Rep B s0 ρ' (learnR σ r) s ∧ Grow σ ρ (learnR σ r) ρ' ∧
      Num (learnR σ r).nv ρ' ((learnR σ r).at' σ.words.length) (s.get r) := by
  obtain ⟨ρ', h1, h2, h3⟩ := h.wordVar hr (s.get r)
  have hat : (learnR σ r).at' σ.words.length = vr σ.nv := by
    unfold SSt.at' learnR
    simp
  refine ⟨ρ', ?_, h2, ?_⟩
  · have h4 := h1.setReg (r := r) (v := .num (vr σ.nv)) h3
    rw [set_get_self] at h4
    refine ⟨h4.good, h4.even, h4.len, h4.regs, h4.cf, h4.of, h4.zf, h4.mem, h4.wr, h4.sep, ?_, h4.facts, h4.outside, h4.swr⟩
    intro p hp
    rcases List.mem_cons.mp hp with rfl | hp
    · intro τ g hag
      have := h3 τ g hag
      dsimp only at this ⊢
      have := (s.get r).isLt
      omega
    · exact h4.words p hp
  · rw [hat]
    exact h3

theorem learnRs_rep {B s0 s} : ∀ {rs : List Reg} {ρ σ ins}, Rep B s0 ρ σ s → Known σ ρ ins →
    σ.nv + 2 * rs.length < 1048576 - 2 →
    ∃ ρ', Rep B s0 ρ' (rs.foldl learnR σ) s ∧ Known (rs.foldl learnR σ) ρ' (ins ++ rs.map s.get) := by
  intro rs
  induction rs with
  | nil =>
    intro ρ σ ins h hk _
    rw [List.map_nil, List.append_nil]
    exact ⟨ρ, h, hk⟩
  | cons r rs ih =>
    intro ρ σ ins h hk hn
    rw [List.length_cons] at hn
    obtain ⟨ρ1, h1, h2, h3⟩ := learnR_rep h r (by
      unfold SSt.room
      rw [Nat.blt_eq]
      omega)
    have hk1 : Known (learnR σ r) ρ1 (ins ++ [s.get r]) := by
      refine ⟨by simp [learnR, hk.1], fun i hi => ?_⟩
      by_cases hi' : i < ins.length
      · rw [List.getElem_append_left hi', at_cons (by rw [hk.1]; exact hi') (learnR σ r) rfl]
        exact (hk.2 i hi').grow h2
      · have e : i = σ.words.length := by
          rw [hk.1]
          rw [List.length_append] at hi
          simp at hi
          omega
        subst e
        have : (ins ++ [s.get r])[σ.words.length] = s.get r := by simp [hk.1]
        rw [this]
        exact h3
    obtain ⟨ρ2, h4, h5⟩ := ih h1 hk1 (by
      show σ.nv + 2 + _ < _
      omega)
    refine ⟨ρ2, h4, ?_⟩
    rw [List.map_cons, show ins ++ s.get r :: rs.map s.get = (ins ++ [s.get r]) ++ rs.map s.get by simp]
    exact h5

theorem foldl_learn_nv : ∀ (ks : List (Nat × Word)) (σ : SSt), (ks.foldl learn σ).nv = σ.nv + 2 * ks.length
  | [], _ => rfl
  | k :: ks, σ => by
    rw [List.foldl_cons, foldl_learn_nv ks, List.length_cons]
    show σ.nv + 2 + _ = _
    omega

/-- A part of a routine whose run was verified. -/
theorem verifyR_effs {as : List Arg} {rd : List Nat} {rs : List Reg} {hs : List (Nat × Hint)} {P : Prog} {cs : List Claim}
    (hv : verifyR as rd rs hs P cs = true) {s : St} {ws : List (Option Words)} (hl : as.length = ws.length)
    (hs : ∀ a ∈ as, a.len < 2 ^ 60) (hrd : ∀ b ∈ rd, ∃ w, ws[b]? = some (some w)) (hn : (given ws rd).length < 100000)
    (hrs : rs.length < 100) (h : Ready s ((as.zip ws).map fun x => blockOf s x.1 x.2)) :
    ∃ s' W, effs P s = some s' ∧ Untouched ((as.zip ws).map fun x => blockOf s x.1 x.2) s s' ∧ s'.wr = s.wr ∧
      (∀ i, W i < 2 ^ 64) ∧
      (∀ i (hi : i < (given ws rd ++ rs.map s.get).length), W i = (given ws rd ++ rs.map s.get)[i].toNat) ∧
      ∀ c ∈ cs, c.Holds s s' as W := by
  unfold verifyR acceptR at hv
  split at hv
  · cases hv
  rename_i σ hσ
  rw [Bool.and_eq_true, Bool.and_eq_true] at hv
  have h0 := start_rep hl hs h
  obtain ⟨k1, k2⟩ := given_keys hl h hrd
  obtain ⟨ρ0, h1, h2⟩ := learnAll_rep (ins := []) h0 ⟨rfl, fun i hi => by cases hi⟩ k1 k2 (by
    show 2 + _ < _
    omega)
  rw [List.nil_append] at h2
  obtain ⟨ρ1, h1, h2⟩ := learnRs_rep (rs := rs) h1 h2 (by
    rw [foldl_learn_nv]
    show 2 + _ + _ < _
    omega)
  obtain ⟨ρ2, s', e, h3, g⟩ := runSym_ok P h1 hσ
  refine ⟨s', σ.W ρ2, e, ?_, h3.swr, fun i => ?_, fun i hi => ?_, fun c hc => ?_⟩
  · intro a ha
    refine h3.outside a fun c hc hw => ?_
    obtain ⟨d, hd, e1, e2, e3⟩ := sameSkel_mem hv.1.1 c hc
    obtain ⟨i, x, j, i1, i2, rfl⟩ := mem_cells as 0 hd
    obtain ⟨w, hz⟩ := zip_get hl i1
    have := ha _ (List.mem_map.mpr ⟨_, List.mem_of_getElem? hz, rfl⟩) (e3 hw) j i2
    have hb : c.addr (baseOf as s) = word (x.at' s) j := by
      unfold Cell.addr
      rw [e1, e2]
      unfold baseOf
      rw [Nat.zero_add, i1]
      exact addr_word x s j
    rw [hb]
    exact this
  · unfold SSt.W
    have := h3.at_bound i
    omega
  · have h4 := (h2.2 i hi).grow g ρ2 h3.good fun _ _ => rfl
    dsimp only at h4
    have h5 := samePoly_ev (List.all_eq_true.mp hv.1.2 i (List.mem_range.mpr (by
      show i < (entryR as rd rs).words.length
      rw [show (entryR as rd rs).words.length = _ from h2.1]
      exact hi))) ρ2
    unfold SSt.W
    rw [h5]
    have h4 : ev ρ2 ((entryR as rd rs).at' i) = _ := h4
    rw [h4]
    rfl
  · exact Claim.sound h3 (List.all_eq_true.mp hv.2 c hc)

end Verif.X86.Sym
