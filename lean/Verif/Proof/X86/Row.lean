import Verif.Proof.X86
import Verif.Model.AsmX86.Words
import Verif.Model.Bignum

/-! `bignum_copy_row_from_table`. -/
namespace Verif.X86
open Verif

/-- The output after `r` rows. -/
def rowAcc (tab : Words) (w idx r : Nat) : Words :=
  if idx < r then (tab.drop (idx * w)).take w else List.replicate w 0#64

theorem row_le {h w idx : Nat} (hi : idx < h) : idx * w + w ≤ h * w := by
  have : (idx + 1) * w ≤ h * w := Nat.mul_le_mul_right _ hi
  rw [Nat.add_mul, Nat.one_mul] at this
  exact this

theorem rowAcc_length {tab : Words} {h w idx r : Nat} (ht : tab.length = h * w) (hr : r ≤ h) : (rowAcc tab w idx r).length = w := by
  unfold rowAcc
  by_cases hi : idx < r
  · rw [if_pos hi, List.length_take, List.length_drop]
    have := row_le (h := h) (w := w) (idx := idx) (by omega)
    omega
  · rw [if_neg hi, List.length_replicate]

theorem wd_replicate (k j : Nat) : wd (List.replicate k 0#64) j = 0#64 := by
  unfold wd
  rw [List.getD_eq_getElem?_getD, List.getElem?_replicate]
  split <;> rfl

theorem rowAcc_step {tab : Words} {h w idx r j : Nat} (ht : tab.length = h * w) (hr : r < h) (hj : j < w) :
    wd (rowAcc tab w idx r) j ||| (if r = idx then wd tab (r * w + j) else 0#64) = wd (rowAcc tab w idx (r + 1)) j := by
  unfold rowAcc
  rcases Nat.lt_trichotomy idx r with hi | hi | hi
  · rw [if_pos hi, if_neg (by omega), if_pos (by omega), BitVec.or_zero]
  · subst hi
    rw [if_neg (Nat.lt_irrefl _), if_pos rfl, if_pos (by omega), wd_replicate, BitVec.zero_or]
    have := row_le (w := w) hr
    rw [wd_eq (by omega), wd_eq (by rw [List.length_take, List.length_drop]; omega)]
    simp
  · rw [if_neg (by omega), if_neg (by omega), if_neg (by omega), BitVec.or_zero]

structure RowInv (s0 : St) (h w : Nat) (r : Nat) (s : St) : Prop where
  rdi : s.rdi = s0.rdi
  rdx : s.rdx = BitVec.ofNat 64 h
  rcx : s.rcx = BitVec.ofNat 64 w
  r8 : s.r8 = s0.r8
  r9 : s.r9 = BitVec.ofNat 64 r
  rax : s.rax = word s0.rsi (r * w)
  wr : s.wr = s0.wr
  only : OnlyAt s0.rdi w s0.mem s.mem

theorem copyRow_ok (s : St) (tab : Words) (h w : Nat) (hh : 0 < h) (ht : tab.length = h * w) (hk : h * w < 2 ^ 61) (hh61 : h < 2 ^ 61)
   (hdx : s.rdx = BitVec.ofNat 64 h) (hcx : s.rcx = BitVec.ofNat 64 w) (hT : Holds s.mem s.rsi tab) (hZ : s.Owns s.rdi w)
   (hw61 : w < 2 ^ 61) (ha : Apart s.rdi w s.rsi (h * w)) :
   Runs Asm.bignumCopyRowFromTable s fun s' => Holds s'.mem s.rdi (Bignum.copyRow tab h w s.r8.toNat) ∧ OnlyAt s.rdi w s.mem s'.mem := by
  apply runs_of_from
  generalize hQ : (fun s' : St => Holds s'.mem s.rdi (Bignum.copyRow tab h w s.r8.toNat) ∧ OnlyAt s.rdi w s.mem s'.mem) = Q
  xstep []
  xstep [hdx]
  have hbh := ofNat_beq_zero (i := h) (by omega)
  have hbw := ofNat_beq_zero (i := w) (by omega)
  xfall [hbh, decide_eq_false (show ¬ h = 0 by omega)]
  xstep [hcx]
  by_cases hw0 : w = 0
  · xtake [hbw, decide_eq_true hw0]
    refine From.halt rfl ?_
    rw [← hQ]
    refine ⟨?_, OnlyAt.refl _ _ _⟩
    have : Bignum.copyRow tab h w s.r8.toNat = [] := by
      unfold Bignum.copyRow
      split <;> simp [hw0]
    rw [this]
    exact Holds.nil _ _
  xfall [hbw, decide_eq_false hw0]
  xstep []
  xstep []
  -- the rows
  have rows : ∀ t, RowInv s h w 0 t → Holds t.mem s.rdi (rowAcc tab w s.r8.toNat 0) → From Asm.bignumCopyRowFromTable 13 t Q := by
    intro t I hz
    refine From.loop (fun n s' => ∃ r, r + n = h ∧ 0 < n ∧ RowInv s h w r s' ∧ Holds s'.mem s.rdi (rowAcc tab w s.r8.toNat r)) ?_ h _ ⟨0, by omega, hh, I, hz⟩
    rintro n t ⟨r, hrn, hn, I, hz⟩ ih
    have hlen := rowAcc_length (tab := tab) (idx := s.r8.toNat) ht (show r ≤ h by omega)
    have hlen' := rowAcc_length (tab := tab) (idx := s.r8.toNat) ht (show r + 1 ≤ h by omega)
    generalize hacc : rowAcc tab w s.r8.toNat r = old at *
    generalize hacc' : rowAcc tab w s.r8.toNat (r + 1) = new at *
    have hst : ∀ j < w, wd old j ||| (if BitVec.ofNat 64 r = s.r8 then wd tab (r * w + j) else 0#64) = wd new j := by
      intro j hj
      have e : (BitVec.ofNat 64 r = s.r8) = (r = s.r8.toNat) := by
        apply propext
        rw [← BitVec.toNat_inj, toNat_ofNat' (by omega)]
      rw [← hacc, ← hacc', ← rowAcc_step ht (by omega) hj]
      simp only [e]
    have hrow := row_le (w := w) (show r < h by omega)
    xstep []
    refine From.loop (fun n s' => ∃ j, j + n = w ∧ 0 < n ∧ RowInv s h w r s' ∧ s'.r10 = BitVec.ofNat 64 j ∧
      Holds s'.mem s.rdi (new.take j ++ old.drop j)) ?_ w _ ⟨0, by omega, by omega, ⟨I.rdi, I.rdx, I.rcx, I.r8, I.r9, I.rax, I.wr, I.only⟩, rfl, hz⟩
    rintro n' t ⟨j, hjn, hn', I, h10, hz⟩ ih'
    obtain ⟨m, rfl⟩ : ∃ m, n' = m + 1 := ⟨n' - 1, by omega⟩
    have hT' := (I.only.holds (by rw [ht]; exact ha) hT).wd (i := r * w + j) (by omega)
    have hzj := hz.over_wd (by rw [List.length_take]; omega) (by omega)
    xstep []
    xstep [I.r9, I.r8, sub_beq_zero]
    xstep [I.rax, h10, word_add, hT', decide_eq_true_eq]
    xstep [I.rdi, hzj, hst j (by omega), I.wr, hZ j (by omega)]
    xstep []
    xstep [I.rcx, sub_beq_zero, ofNat_inj (i := j + 1) (j := w) (by omega) (by omega)]
    have ho := I.only.store (i := j) (by omega) (wd new j)
    have hs := hz.over (by rw [List.length_take]; omega) (by omega) (by omega) (wd new j)
    rw [← take_succ (by omega)] at hs
    by_cases hm : j + 1 = w
    · xfall [decide_eq_true hm, Bool.not_true]
      xstep []
      xstep [word_adc]
      xstep []
      xstep [I.rdx, sub_beq_zero, ofNat_inj (i := r + 1) (j := h) (by omega) (by omega)]
      have hz' : Holds (fun b => if b = word s.rdi j then some (wd new j) else t.mem b) s.rdi new := by
        rw [hm, List.take_of_length_le (by omega), List.drop_of_length_le (by omega), List.append_nil] at hs
        exact hs
      by_cases hr : r + 1 = h
      · xfall [decide_eq_true hr, Bool.not_true]
        refine From.halt rfl ?_
        rw [← hQ]
        refine ⟨?_, ho⟩
        have : Bignum.copyRow tab h w s.r8.toNat = new := by
          rw [← hacc', hr]; rfl
        rw [this]
        exact hz'
      · xtake [decide_eq_false hr, Bool.not_false]
        refine ih (n - 1) (by omega) _ ⟨r + 1, by omega, by omega, ⟨rfl, rfl, rfl, rfl, rfl, ?_, rfl, ho⟩, by rw [hacc']; exact hz'⟩
        rw [Nat.add_mul, Nat.one_mul]
    · xtake [decide_eq_false hm, Bool.not_false]
      exact ih' m (by omega) _ ⟨j + 1, by omega, by omega, ⟨rfl, I.rdx, rfl, rfl, rfl, rfl, rfl, ho⟩, rfl, hs⟩
  -- the zeros
  refine From.loop (fun n s' => ∃ i, i + n = w ∧ 0 < n ∧ s'.rax = word s.rdi i ∧ s'.r9 = BitVec.ofNat 64 n ∧ s'.rdi = s.rdi ∧ s'.rsi = s.rsi ∧
    s'.rdx = BitVec.ofNat 64 h ∧ s'.rcx = BitVec.ofNat 64 w ∧ s'.r8 = s.r8 ∧ s'.wr = s.wr ∧ OnlyAt s.rdi w s.mem s'.mem ∧
    Holds s'.mem s.rdi (List.replicate i 0#64)) ?_ w _ ⟨0, by omega, by omega, (word_zero _).symm, rfl, rfl, rfl, rfl, rfl, rfl, rfl, OnlyAt.refl _ _ _, Holds.nil _ _⟩
  rintro n t ⟨i, hin, hn, hax, h9, hdi, hsi, hdx, hcx, h8, hwr, ho, hz⟩ ih
  obtain ⟨m, rfl⟩ : ∃ m, n = m + 1 := ⟨n - 1, by omega⟩
  have ho' := ho.store (i := i) (by omega) 0#64
  have hs := hz.snoc (by rw [List.length_replicate]; omega) (by rw [List.length_replicate]) 0#64 (i := i)
  rw [← List.replicate_succ'] at hs
  xstep [hax, hwr, hZ i (by omega)]
  xstep [word_add8]
  xstep [h9]
  have hb := ofNat_beq_zero (i := m) (by omega)
  by_cases hm : m = 0
  · xfall [hb, decide_eq_true hm, Bool.not_true]
    xstep []
    xstep []
    refine rows _ ⟨hdi, hdx, hcx, h8, rfl, ?_, rfl, ho'⟩ ?_
    · rw [Nat.zero_mul, word_zero]; exact hsi
    · rw [show i + 1 = w by omega] at hs
      exact hs
  · xtake [hb, decide_eq_false hm, Bool.not_false]
    exact ih m (by omega) _ ⟨i + 1, by omega, by omega, rfl, rfl, hdi, hsi, hdx, hcx, h8, rfl, ho', hs⟩

end Verif.X86
