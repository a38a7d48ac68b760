import Verif.Proof.X86.Lane16Run
import Verif.Spec.AsmLanes

/-! How `Lane16Run` is used on a routine: from blocks of memory to the executor's state and back. -/
namespace Verif.X86.L16
open Verif Verif.X86

theorem ofLanes4_congr {f f' : Nat → BitVec 16} (h : ∀ k < 4, f k = f' k) : ofLanes4 f = ofLanes4 f' := by
  unfold ofLanes4
  rw [h 0 (by omega), h 1 (by omega), h 2 (by omega), h 3 (by omega)]

theorem laneWords_length (n : Nat) (f : Nat → BitVec 16) : (laneWords n f).length = n := by
  unfold laneWords
  rw [List.length_map, List.length_range]

theorem laneWords_get (n : Nat) (f : Nat → BitVec 16) {i : Nat} (h : i < (laneWords n f).length) :
    (laneWords n f)[i] = ofLanes4 fun k => f (4 * i + k) := by
  simp only [laneWords, List.getElem_map, List.getElem_range]

theorem laneWords_congr {n : Nat} {f f' : Nat → BitVec 16} (h : ∀ m < 4 * n, f m = f' m) : laneWords n f = laneWords n f' := by
  unfold laneWords
  refine List.map_congr_left fun i hi => ?_
  rw [List.mem_range] at hi
  exact ofLanes4_congr fun k hk => h _ (by omega)

/-- Sixteen lanes as a vector. -/
theorem of16_lane (f : Nat → BitVec 16) {k : Nat} (hk : k < 4) : (V4.of16 f).lane k = ofLanes4 fun i => f (4 * k + i) := by
  rw [lane_h _ hk]
  exact ofLanes4_congr fun i hi => of16_h f (by omega)

/-- An array and what its lanes are at the start, if they may be read. -/
abbrev Inp := Arr × Option (Nat → E)

def cellsOf (A : Arr) (x : Option (Nat → E)) : List (Option (List E)) :=
  (List.range A.n).map fun j => x.map fun x => gen fun i => x (16 * j + i)

def initC : List Inp → List (Option (List E))
  | [] => []
  | (A, x) :: I => cellsOf A x ++ initC I

def arrs (I : List Inp) : List Arr := I.map fun p => p.1

def regs0 : List (List E) := (List.range 16).map fun r => gen fun i => .v (100000 + 16 * r + i)

/-- Variables for the registers, `b` for the rest. -/
def env (t : VSt) (b : Nat → BitVec 16) (n : Nat) : BitVec 16 := if n < 100000 then b n else (t.y ((n - 100000) / 16)).h (n % 16)

theorem env_lo (t : VSt) (b : Nat → BitVec 16) {n : Nat} (h : n < 100000) : env t b n = b n := if_pos h

theorem regs0_is (t : VSt) (b : Nat → BitVec 16) {r : Nat} {l : List E} (h : regs0[r]? = some l) : Is (env t b) l (t.y r) := by
  unfold regs0 at h
  rw [List.getElem?_map] at h
  cases hr : (List.range 16)[r]? with
  | none => rw [hr] at h; cases h
  | some q =>
    rw [hr] at h
    have hlt : r < 16 := by
      by_contra hn
      rw [List.getElem?_eq_none (by simpa using hn)] at hr
      cases hr
    rw [List.getElem?_range hlt] at hr
    cases hr
    cases h
    refine gen_is fun i hi => ?_
    show env t b (100000 + 16 * r + i) = _
    unfold env
    rw [if_neg (by omega), show (100000 + 16 * r + i - 100000) / 16 = r by omega, show (100000 + 16 * r + i) % 16 = i by omega]

/-- The block that an array is. -/
structure Fits (ρ : Nat → BitVec 16) (s : St) (p : Inp) (b : Block) : Prop where
  a : b.at' = s.get p.1.r
  n : b.len = 4 * p.1.n
  wr : b.wr = p.1.wr
  holds : ∀ x, p.2 = some x → b.holds = some (laneWords (4 * p.1.n) fun m => (x m).val ρ)

section
variable {ρ : Nat → BitVec 16} {s : St}

theorem cellsOf_length (A : Arr) (x : Option (Nat → E)) : (cellsOf A x).length = A.n := by
  unfold cellsOf
  rw [List.length_map, List.length_range]

theorem initC_length : ∀ I : List Inp, (initC I).length = size (arrs I)
  | [] => rfl
  | (A, x) :: I => by
    show (cellsOf A x ++ initC I).length = A.n + size (arrs I)
    rw [List.length_append, cellsOf_length, initC_length I]

theorem fits_mem {I : List Inp} {bs : List Block} (h : List.Forall₂ (Fits ρ s) I bs) :
    (∀ p ∈ I, ∃ b ∈ bs, Fits ρ s p b) ∧ ∀ b ∈ bs, ∃ p ∈ I, Fits ρ s p b := by
  induction h with
  | nil => simp
  | cons h0 _ ih =>
    refine ⟨fun p hp => ?_, fun b hb => ?_⟩
    · rcases List.mem_cons.1 hp with rfl | hp
      · exact ⟨_, by simp, h0⟩
      · obtain ⟨b, hb, hf⟩ := ih.1 p hp
        exact ⟨b, by simp [hb], hf⟩
    · rcases List.mem_cons.1 hb with rfl | hb
      · exact ⟨_, by simp, h0⟩
      · obtain ⟨p, hp, hf⟩ := ih.2 b hb
        exact ⟨p, by simp [hp], hf⟩

/-- The array of a cell. -/
theorem adr_in : ∀ (W : List Arr) {i : Nat}, i < size W → ∃ A ∈ W, ∃ q < A.n, (∀ k, adr s W i k = word (s.get A.r) (4 * q + k)) ∧ wrAt W i = A.wr
  | [], _, h => by simp [size] at h
  | A :: W, i, h => by
    by_cases hi : i < A.n
    · refine ⟨A, by simp, i, hi, fun k => ?_, ?_⟩
      · unfold adr
        rw [if_pos hi]
      · unfold wrAt
        rw [show Nat.blt i A.n = true by simpa using hi, cond_true]
    · obtain ⟨B, hB, q, hq, h1, h2⟩ := adr_in W (i := i - A.n) (by unfold size at h; omega)
      refine ⟨B, by simp [hB], q, hq, fun k => ?_, ?_⟩
      · unfold adr
        rw [if_neg hi, h1]
      · unfold wrAt
        rw [blt_f hi, cond_false, h2]

/-- Each word of an array that may be written is one of a cell. -/
theorem in_adr : ∀ (W : List Arr) {A : Arr}, A ∈ W → ∀ q < A.n, ∃ i < size W, (∀ k, adr s W i k = word (s.get A.r) (4 * q + k)) ∧ wrAt W i = A.wr
  | B :: W, A, hA, q, hq => by
    rcases List.mem_cons.1 hA with rfl | hA
    · refine ⟨q, by unfold size; omega, fun k => ?_, ?_⟩
      · unfold adr
        rw [if_pos hq]
      · unfold wrAt
        rw [show Nat.blt q A.n = true by simpa using hq, cond_true]
    · obtain ⟨i, hi, h1, h2⟩ := in_adr W hA q hq
      refine ⟨B.n + i, by unfold size; omega, fun k => ?_, ?_⟩
      · unfold adr
        rw [if_neg (by omega), Nat.add_sub_cancel_left, h1]
      · unfold wrAt
        rw [blt_f (by omega), cond_false, Nat.add_sub_cancel_left, h2]

theorem adr_inj : ∀ (W : List Arr), (∀ A ∈ W, A.n ≤ 1000) →
    W.Pairwise (fun A B => (A.wr = true ∨ B.wr = true) → Apart (s.get A.r) (4 * A.n) (s.get B.r) (4 * B.n)) →
    ∀ i < size W, ∀ j < size W, ∀ k < 4, ∀ l < 4, wrAt W i = true → adr s W i k = adr s W j l → i = j ∧ k = l
  | [], _, _, i, hi, _, _, _, _, _, _, _, _ => by simp [size] at hi
  | A :: W, hn, hp, i, hi, j, hj, k, hk, l, hl, hw, e => by
    have hA := hn A (by simp)
    rw [List.pairwise_cons] at hp
    unfold size at hi hj
    unfold wrAt at hw
    unfold adr at e
    by_cases i1 : i < A.n
    · rw [if_pos i1] at e
      rw [show Nat.blt i A.n = true by simpa using i1, cond_true] at hw
      by_cases j1 : j < A.n
      · rw [if_pos j1] at e
        have := word_inj (by omega) (by omega) e
        omega
      · rw [if_neg j1] at e
        obtain ⟨B, hB, q, hq, h1, _⟩ := adr_in (s := s) W (i := j - A.n) (by omega)
        rw [h1] at e
        exact absurd e (hp.1 B hB (.inl hw) _ (by omega) _ (by omega))
    · rw [if_neg i1] at e
      rw [blt_f i1, cond_false] at hw
      by_cases j1 : j < A.n
      · rw [if_pos j1] at e
        obtain ⟨B, hB, q, hq, h1, h2⟩ := adr_in (s := s) W (i := i - A.n) (by omega)
        rw [h1] at e
        exact absurd e.symm (hp.1 B hB (.inr (h2 ▸ hw)) _ (by omega) _ (by omega))
      · rw [if_neg j1] at e
        obtain ⟨h1, h2⟩ := adr_inj W (fun B hB => hn B (by simp [hB])) hp.2 (i - A.n) (by omega) (j - A.n) (by omega) k hk l hl hw e
        exact ⟨by omega, h2⟩

theorem init_c : ∀ (I : List Inp), (∀ p ∈ I, ∀ x, p.2 = some x → Holds s.mem (s.get p.1.r) (laneWords (4 * p.1.n) fun m => (x m).val ρ)) →
    ∀ i < size (arrs I), ∀ l, (initC I).getD i none = some l →
      ∃ w : V4, (∀ k < 4, s.mem (adr s (arrs I) i k) = some (w.lane k)) ∧ Is ρ l w
  | [], _, i, hi, _, _ => by simp [arrs, size] at hi
  | (A, x) :: I, h, i, hi, l, hl => by
    have hi : i < A.n + size (arrs I) := hi
    have hl : (cellsOf A x ++ initC I).getD i none = some l := hl
    show ∃ w : V4, (∀ k < 4, s.mem (if i < A.n then word (s.get A.r) (4 * i + k) else adr s (arrs I) (i - A.n) k) = some (w.lane k)) ∧ Is ρ l w
    rw [List.getD_eq_getElem?_getD] at hl
    by_cases i1 : i < A.n
    · rw [List.getElem?_append_left (by rw [cellsOf_length]; exact i1)] at hl
      unfold cellsOf at hl
      rw [List.getElem?_map, List.getElem?_range i1] at hl
      cases x with
      | none => cases hl
      | some x =>
        cases hl
        have hm := h (A, some x) (by simp) x rfl
        refine ⟨V4.of16 fun q => (x (16 * i + q)).val ρ, fun k hk => ?_, gen_is fun q hq => (of16_h (fun q => (x (16 * i + q)).val ρ) hq).symm⟩
        rw [if_pos i1, hm (4 * i + k) (by rw [laneWords_length]; show _ < 4 * A.n; omega), laneWords_get, of16_lane _ hk]
        unfold ofLanes4
        simp only [show ∀ r, 4 * (4 * i + k) + r = 16 * i + (4 * k + r) by intro r; omega]
    · rw [List.getElem?_append_right (by rw [cellsOf_length]; omega), cellsOf_length] at hl
      obtain ⟨w, h1, h2⟩ := init_c I (fun p hp => h p (by simp [hp])) (i - A.n) (by omega) l (by
        rw [List.getD_eq_getElem?_getD]
        exact hl)
      refine ⟨w, fun k hk => ?_, h2⟩
      rw [if_neg i1]
      exact h1 k hk

/-- The first cells are as expected. -/
def outIs (X : Nat → E) : Nat → Nat → List (Option (List E)) → Bool
  | 0, _, _ => true
  | n + 1, j, some a :: c => sameL a (gen fun i => X (16 * j + i)) && outIs X n (j + 1) c
  | _, _, _ => false

theorem outIs_get {X : Nat → E} : ∀ {n j : Nat} {c : List (Option (List E))}, outIs X n j c = true →
    ∀ i < n, c.getD i none = some (gen fun k => X (16 * (j + i) + k))
  | n + 1, j, some a :: c, h, i, hi => by
    unfold outIs at h
    rw [Bool.and_eq_true] at h
    cases i with
    | zero => rw [sameL_eq h.1]; rfl
    | succ i =>
      have := outIs_get h.2 i (by omega)
      rw [show j + 1 + i = j + (i + 1) by omega] at this
      exact this
  | n + 1, j, [], h, _, _ => by cases h
  | n + 1, j, none :: c, h, _, _ => by cases h

/-- The executor's verdict: from the arrays `I`, the first of which is the output, the program ends with the lanes `X` in it. -/
def check (F : E → E) (I : List Inp) (P : VProg) (n : Nat) (X : Nat → E) : Bool :=
  match WS.run F (arrs I) P ⟨none, regs0, initC I⟩ with
  | some σ => outIs X n 0 σ.c
  | none => false

theorem check_sound {F : E → E} {A : Arr} {x : Option (Nat → E)} {I : List Inp} {P : VProg} {X : Nat → E} {t : VSt} {b : Nat → BitVec 16}
    {bs : List Block} (hF : ∀ e : E, (F e).val (env t b) = e.val (env t b)) (h : check F ((A, x) :: I) P A.n X = true)
    (hr : Ready t.s bs) (hb : List.Forall₂ (Fits (env t b) t.s) ((A, x) :: I) bs) (hn : ∀ B ∈ arrs ((A, x) :: I), B.n ≤ 1000)
    (hal : ∀ B ∈ arrs ((A, x) :: I), B.al = true → Aligned32 (t.s.get B.r)) :
    VRuns P t fun t' => Holds t'.s.mem (t.s.get A.r) (laneWords (4 * A.n) fun m => (X m).val (env t b)) ∧ Untouched bs t.s t'.s ∧
      t'.s = { t.s with mem := t'.s.mem, rax := t'.s.rax } := by
  unfold check at h
  split at h
  · rename_i σ hσ
    have hm := fits_mem hb
    have C : Ctx (arrs ((A, x) :: I)) t.s := by
      refine ⟨fun i hi hw k hk => ?_, adr_inj _ hn ?_, hal⟩
      · obtain ⟨B, hB, q, hq, h1, h2⟩ := adr_in (s := t.s) _ hi
        obtain ⟨p, hp, rfl⟩ := List.mem_map.1 hB
        obtain ⟨c, hc, hf⟩ := hm.1 p hp
        rw [h1]
        have := (hr.ok c hc).owns (by rw [hf.wr, ← h2, hw])
        rw [hf.a, hf.n] at this
        exact this _ (by omega)
      · have hp := hr.apart
        clear hσ hF hal hn hm hr
        generalize (A, x) :: I = J at hb
        induction hb with
        | nil => exact List.Pairwise.nil
        | cons h0 hrest ih =>
          rw [List.pairwise_cons] at hp
          refine List.pairwise_cons.2 ⟨fun B hB => ?_, ih hp.2⟩
          obtain ⟨p, hp', rfl⟩ := List.mem_map.1 hB
          obtain ⟨c, hc, hf⟩ := (fits_mem hrest).1 p hp'
          have := hp.1 c hc
          rw [h0.wr, hf.wr, h0.a, hf.a, h0.n, hf.n] at this
          exact this
    have R : Rel (arrs ((A, x) :: I)) (env t b) t.s ⟨none, regs0, initC ((A, x) :: I)⟩ t := by
      refine ⟨initC_length _, rfl, fun _ h => (by cases h), fun r l h => regs0_is t b h, init_c _ fun p hp y hy => ?_, fun _ _ => rfl⟩
      obtain ⟨c, hc, hf⟩ := hm.1 p hp
      have := (hr.ok c hc).holds _ (hf.holds y hy)
      rw [hf.a] at this
      exact this
    obtain ⟨f, t', h1, R'⟩ := Rel.runs hF C R hσ
    refine ⟨f, t', h1, fun i hi => ?_, fun a ha => R'.un a fun i hi hw k hk => ?_, R'.st⟩
    · rw [laneWords_get]
      rw [laneWords_length] at hi
      obtain ⟨w, g1, g2⟩ := R'.c (i / 4) (by show _ < A.n + _; omega) _ (outIs_get h (i / 4) (by omega))
      have := g1 (i % 4) (by omega)
      have ea : adr t.s (arrs ((A, x) :: I)) (i / 4) (i % 4) = word (t.s.get A.r) i := by
        show (if i / 4 < A.n then word (t.s.get A.r) (4 * (i / 4) + i % 4) else _) = _
        rw [if_pos (by omega), show 4 * (i / 4) + i % 4 = i by omega]
      rw [ea] at this
      rw [this, lane_h _ (by omega)]
      unfold ofLanes4
      simp only [← g2.2 _ (show 4 * (i % 4) + 0 < 16 by omega), ← g2.2 _ (show 4 * (i % 4) + 1 < 16 by omega),
        ← g2.2 _ (show 4 * (i % 4) + 2 < 16 by omega), ← g2.2 _ (show 4 * (i % 4) + 3 < 16 by omega)]
      rw [gen_g _ (by omega), gen_g _ (by omega), gen_g _ (by omega), gen_g _ (by omega)]
      simp only [show ∀ r, 16 * (0 + i / 4) + (4 * (i % 4) + r) = 4 * i + r by intro r; omega]
    · obtain ⟨B, hB, q, hq, e1, e2⟩ := adr_in (s := t.s) _ hi
      obtain ⟨p, hp, rfl⟩ := List.mem_map.1 hB
      obtain ⟨c, hc, hf⟩ := hm.1 p hp
      rw [e1]
      have := ha c hc (by rw [hf.wr, ← e2, hw]) (4 * q + k) (by rw [hf.n]; omega)
      rw [hf.a] at this
      exact this
  · cases h

end
end Verif.X86.L16
