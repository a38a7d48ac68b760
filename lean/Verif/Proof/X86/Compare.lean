import Verif.Proof.X86
import Verif.Model.AsmX86.Words
import Verif.Model.Bignum

/-! `bignum_eq` and `bignum_cmp_lt`. -/
namespace Verif.X86
open Verif

theorem eq_step (x y : Words) (i : Nat) :
    val (x.drop i) = val (y.drop i) ↔ wd x i = wd y i ∧ val (x.drop (i + 1)) = val (y.drop (i + 1)) := by
  rw [val_drop_step x, val_drop_step y, ← BitVec.toNat_inj]
  have := (wd x i).isLt
  have := (wd y i).isLt
  omega

theorem or_eq_zero (a b : Word) : a ||| b = 0#64 ↔ a = 0#64 ∧ b = 0#64 := BitVec.or_eq_zero_iff

theorem xor_eq_zero (a b : Word) : a ^^^ b = 0#64 ↔ a = b := BitVec.xor_eq_zero_iff

structure EqInv (s0 : St) (x y : Words) (i : Nat) (s : St) : Prop where
  rsi : s.rsi = s0.rsi
  rcx : s.rcx = s0.rcx
  mem : s.mem = s0.mem
  rax : s.rax = 0#64 ↔ val (x.drop i) = val (y.drop i)

theorem eq_ok (s : St) (x y : Words) (hkx : x.length < 2 ^ 61) (hky : y.length < 2 ^ 61)
   (hm : s.rdi = BitVec.ofNat 64 x.length) (hX : Holds s.mem s.rsi x)
   (hn : s.rdx = BitVec.ofNat 64 y.length) (hY : Holds s.mem s.rcx y) :
   Runs Asm.bignumEq s fun s' => s'.rax = (if Bignum.eq x y then 1#64 else 0#64) ∧ s'.mem = s.mem := by
  apply runs_of_from
  have main : ∀ i t, EqInv s x y i t → i ≤ x.length → i ≤ y.length → t.rdi = BitVec.ofNat 64 i →
      From Asm.bignumEq 13 t fun s' => s'.rax = (if Bignum.eq x y then 1#64 else 0#64) ∧ s'.mem = s.mem := by
    intro i t I hix hiy hd
    have fin : ∀ t, EqInv s x y 0 t →
        From Asm.bignumEq 20 t fun s' => s'.rax = (if Bignum.eq x y then 1#64 else 0#64) ∧ s'.mem = s.mem := by
      intro t I
      xstep [neg_cf]
      xstep [sbb_self]
      xstep []
      refine From.halt rfl ⟨?_, I.mem⟩
      have hr := I.rax
      rw [List.drop_zero, List.drop_zero] at hr
      by_cases he : val x = val y
      · simp [hr.mpr he, Bignum.eq, he, adcv, msk]
      · have : ¬ t.rax = 0#64 := fun h => he (hr.mp h)
        simp [this, Bignum.eq, he, adcv, msk]
    xstep [hd]
    have hb := ofNat_beq_zero (i := i) (by omega)
    by_cases h0 : i = 0
    · xtake [hb, decide_eq_true h0]
      subst h0
      exact fin _ ⟨I.rsi, I.rcx, I.mem, I.rax⟩
    · xfall [hb, decide_eq_false h0]
      refine From.loop (fun n s' => 0 < n ∧ n ≤ i ∧ s'.rdi = BitVec.ofNat 64 n ∧ EqInv s x y n s') ?_ i _ ⟨by omega, by omega, rfl, I.rsi, I.rcx, I.mem, I.rax⟩
      rintro n t ⟨hn0, hni, hdi, I⟩ ih
      obtain ⟨m, rfl⟩ : ∃ m, n = m + 1 := ⟨n - 1, by omega⟩
      xstep [hdi, word_pred, I.rsi, I.mem, hX.wd (i := m) (by omega)]
      xstep [hdi, word_pred, I.rcx, I.mem, hY.wd (i := m) (by omega)]
      xstep []
      xstep []
      have hb := ofNat_beq_zero (i := m) (by omega)
      have hr : t.rax ||| (wd x m ^^^ wd y m) = 0#64 ↔ val (x.drop m) = val (y.drop m) := by
        rw [or_eq_zero, xor_eq_zero, eq_step, I.rax, and_comm]
      by_cases h0 : m = 0
      · xfall [hb, decide_eq_true h0, Bool.not_true]
        exact fin _ ⟨rfl, rfl, rfl, h0 ▸ hr⟩
      · xtake [hb, decide_eq_false h0, Bool.not_false]
        exact ih m (by omega) _ ⟨by omega, by omega, rfl, rfl, rfl, rfl, hr⟩
  xstep []
  xstep []
  xstep [hm, hn, sub_lt_ofNat (i := x.length) (j := y.length) (by omega) (by omega), sub_beq_zero, ofNat_inj (i := x.length) (j := y.length) (by omega) (by omega)]
  by_cases hlt : x.length < y.length
  · xfall [decide_eq_true hlt, Bool.not_true]
    refine From.loop (fun n s' => 0 < n ∧ x.length + n ≤ y.length ∧ s'.rdi = BitVec.ofNat 64 x.length ∧ s'.rdx = BitVec.ofNat 64 (x.length + n) ∧ EqInv s x y (x.length + n) s') ?_ (y.length - x.length) _
      ⟨by omega, by omega, rfl, by rw [Nat.add_sub_cancel' (by omega)], rfl, rfl, rfl, ?_⟩
    · rintro n t ⟨hn0, hle, hdi, hdx, I⟩ ih
      obtain ⟨m, rfl⟩ : ∃ m, n = m + 1 := ⟨n - 1, by omega⟩
      rw [← Nat.add_assoc] at hdx
      have hr : t.rax ||| wd y (x.length + m) = 0#64 ↔ val (x.drop (x.length + m)) = val (y.drop (x.length + m)) := by
        rw [or_eq_zero, eq_step, I.rax, and_comm, wd_ge (ws := x) (by omega), eq_comm (a := (0#64)), Nat.add_assoc]
      xstep [hdx]
      xstep [I.rcx, I.mem, hY.wd (i := x.length + m) (by omega)]
      xstep [hdi, sub_beq_zero, ofNat_inj (i := x.length) (j := x.length + m) (by omega) (by omega)]
      by_cases h0 : m = 0
      · subst h0
        xfall [Nat.add_zero, decide_true, Bool.not_true]
        xstep []
        exact main x.length _ ⟨I.rsi, rfl, rfl, hr⟩ (by omega) (by omega) rfl
      · xtake [decide_eq_false (show ¬ x.length = x.length + m by omega), Bool.not_false]
        exact ih m (by omega) _ ⟨by omega, by omega, rfl, rfl, I.rsi, rfl, rfl, hr⟩
    · rw [Nat.add_sub_cancel' (by omega)]
      simp [List.drop_of_length_le (Nat.le_of_lt hlt)]
  · xtake [decide_eq_false hlt, Bool.not_false]
    refine From.loop (fun n s' => y.length + n ≤ x.length ∧ s'.zf = some (decide (n = 0)) ∧ s'.rdi = BitVec.ofNat 64 (y.length + n) ∧ s'.rdx = BitVec.ofNat 64 y.length ∧ EqInv s x y (y.length + n) s') ?_ (x.length - y.length) _
      ⟨by omega, ?_, by rw [Nat.add_sub_cancel' (by omega)], rfl, rfl, rfl, rfl, ?_⟩
    · rintro n t ⟨hle, hz, hdi, hdx, I⟩ ih
      by_cases h0 : n = 0
      · subst h0
        xfall [hz, decide_true, Bool.not_true]
        exact main y.length _ I (by omega) (by omega) hdi
      · obtain ⟨m, rfl⟩ : ∃ m, n = m + 1 := ⟨n - 1, by omega⟩
        xtake [hz, decide_eq_false h0, Bool.not_false]
        rw [← Nat.add_assoc] at hdi
        have hr : t.rax ||| wd x (y.length + m) = 0#64 ↔ val (x.drop (y.length + m)) = val (y.drop (y.length + m)) := by
          rw [or_eq_zero, eq_step, I.rax, and_comm, wd_ge (ws := y) (by omega), Nat.add_assoc]
        xstep [hdi]
        xstep [I.rsi, I.mem, hX.wd (i := y.length + m) (by omega)]
        xstep [hdx, sub_beq_zero, ofNat_inj (i := y.length + m) (j := y.length) (by omega) (by omega)]
        refine ih m (by omega) _ ⟨by omega, ?_, rfl, rfl, rfl, I.rcx, rfl, hr⟩
        by_cases hm : m = 0 <;> simp [hm]
    · by_cases hm : x.length = y.length <;> simp [hm]
      omega
    · rw [Nat.add_sub_cancel' (by omega)]
      simp [List.drop_of_length_le (Nat.le_of_not_lt hlt)]

structure LtInv (s0 : St) (x y : Words) (i : Nat) (s : St) : Prop where
  r8 : s.r8 = BitVec.ofNat 64 i
  rsi : s.rsi = s0.rsi
  rcx : s.rcx = s0.rcx
  mem : s.mem = s0.mem
  cf : s.cf = some (decide (val (x.take i) < val (y.take i)))

theorem cmpLt_ok (s : St) (x y : Words) (hkx : x.length < 2 ^ 61) (hky : y.length < 2 ^ 61)
   (hm : s.rdi = BitVec.ofNat 64 x.length) (hX : Holds s.mem s.rsi x)
   (hn : s.rdx = BitVec.ofNat 64 y.length) (hY : Holds s.mem s.rcx y) :
   Runs Asm.bignumCmpLt s fun s' => s'.rax = Bignum.cmpLt x y ∧ s'.mem = s.mem := by
  apply runs_of_from
  have hend : (if decide (val (x.take (max x.length y.length)) < val (y.take (max x.length y.length))) then 1#64 else 0#64) = Bignum.cmpLt x y := by
    rw [List.take_of_length_le (Nat.le_max_left _ _), List.take_of_length_le (Nat.le_max_right _ _)]
    simp [Bignum.cmpLt]
  xstep []
  xstep []
  xstep [hm, hn, sub_lt_ofNat (i := x.length) (j := y.length) (by omega) (by omega)]
  by_cases hlt : x.length < y.length
  · xtake [decide_eq_true hlt]
    xstep [add_sub_back]
    xstep [sub_ofNat (Nat.le_of_lt hlt)]
    have hb := ofNat_beq_zero (i := x.length) (by omega)
    -- second part
    have second : ∀ t, LtInv s x y x.length t → t.rdx = BitVec.ofNat 64 (y.length - x.length) →
        From Asm.bignumCmpLt 30 t fun s' => s'.rax = Bignum.cmpLt x y ∧ s'.mem = s.mem := by
      intro t I hd
      refine From.loop (fun n s' => ∃ i, x.length ≤ i ∧ i + n = y.length ∧ 0 < n ∧ s'.rdx = BitVec.ofNat 64 n ∧ LtInv s x y i s') ?_ (y.length - x.length) _
        ⟨x.length, by omega, by omega, by omega, hd, I⟩
      rintro n t ⟨i, hxi, hin, hn0, hdx, I⟩ ih
      obtain ⟨m, rfl⟩ : ∃ m, n = m + 1 := ⟨n - 1, by omega⟩
      have hstep := lt_step x y i
      rw [wd_ge hxi] at hstep
      xstep []
      xstep [I.r8, I.rcx, I.mem, hY.wd (i := i) (by omega), I.cf, hstep]
      xstep []
      xstep [hdx]
      have hb := ofNat_beq_zero (i := m) (by omega)
      by_cases h0 : m = 0
      · xfall [hb, decide_eq_true h0, Bool.not_true]
        xstep [sbb_self]
        xstep [neg_mask]
        refine From.halt rfl ⟨?_, rfl⟩
        rw [← hend, show max x.length y.length = i + 1 by omega]
      · xtake [hb, decide_eq_false h0, Bool.not_false]
        exact ih m (by omega) _ ⟨i + 1, by omega, by omega, by omega, rfl, rfl, I.rsi, rfl, rfl, rfl⟩
    xstep []
    by_cases h0 : x.length = 0
    · xtake [hb, decide_eq_true h0]
      refine second _ ⟨by rw [h0], rfl, rfl, rfl, ?_⟩ rfl
      rw [h0]
      simp
    · xfall [hb, decide_eq_false h0]
      refine From.loop (fun n s' => ∃ i, i + n = x.length ∧ 0 < n ∧ s'.rdi = BitVec.ofNat 64 n ∧ s'.rdx = BitVec.ofNat 64 (y.length - x.length) ∧ LtInv s x y i s') ?_ x.length _
        ⟨0, by omega, by omega, rfl, rfl, rfl, rfl, rfl, rfl, by simp⟩
      rintro n t ⟨i, hin, hn0, hdi, hdx, I⟩ ih
      obtain ⟨m, rfl⟩ : ∃ m, n = m + 1 := ⟨n - 1, by omega⟩
      have hstep := lt_step x y i
      xstep [I.r8, I.rsi, I.mem, hX.wd (i := i) (by omega)]
      xstep [I.r8, I.rcx, I.mem, hY.wd (i := i) (by omega), I.cf, hstep]
      xstep []
      xstep [hdi]
      have hb := ofNat_beq_zero (i := m) (by omega)
      by_cases h0 : m = 0
      · xfall [hb, decide_eq_true h0, Bool.not_true]
        have : i + 1 = x.length := by omega
        exact second _ ⟨by rw [← this], rfl, rfl, rfl, by rw [← this]⟩ hdx
      · xtake [hb, decide_eq_false h0, Bool.not_false]
        exact ih m (by omega) _ ⟨i + 1, by omega, by omega, rfl, hdx, rfl, rfl, rfl, rfl, rfl⟩
  · xfall [decide_eq_false hlt]
    simp only [sub_ofNat (Nat.le_of_not_lt hlt)]
    xstep []
    have hb := ofNat_beq_zero (i := y.length) (by omega)
    have second : ∀ t, LtInv s x y y.length t → t.rdi = BitVec.ofNat 64 (x.length - y.length + 1) →
        From Asm.bignumCmpLt 16 t fun s' => s'.rax = Bignum.cmpLt x y ∧ s'.mem = s.mem := by
      intro t I hd
      refine From.loop (fun n s' => ∃ i, y.length ≤ i ∧ i + n = x.length ∧ s'.rdi = BitVec.ofNat 64 (n + 1) ∧ LtInv s x y i s') ?_ (x.length - y.length) _
        ⟨y.length, by omega, by omega, hd, I⟩
      rintro n t ⟨i, hxi, hin, hdx, I⟩ ih
      have hstep := lt_step x y i
      rw [wd_ge hxi] at hstep
      xstep [hdx]
      have hb := ofNat_beq_zero (i := n) (by omega)
      by_cases h0 : n = 0
      · xfall [hb, decide_eq_true h0, Bool.not_true]
        xstep [sbb_self, I.cf]
        xstep [neg_mask]
        xstep []
        refine From.halt rfl ⟨?_, I.mem⟩
        rw [← hend, show max x.length y.length = i by omega]
      · obtain ⟨m, rfl⟩ : ∃ m, n = m + 1 := ⟨n - 1, by omega⟩
        xtake [hb, decide_eq_false h0, Bool.not_false]
        xstep [I.r8, I.rsi, I.mem, hX.wd (i := i) (by omega)]
        xstep [I.cf, hstep]
        xstep []
        exact ih m (by omega) _ ⟨i + 1, by omega, by omega, rfl, rfl, rfl, I.rcx, rfl, rfl⟩
    xstep []
    by_cases h0 : y.length = 0
    · xtake [hb, decide_eq_true h0]
      refine second _ ⟨by rw [h0], rfl, rfl, rfl, ?_⟩ rfl
      rw [h0]
      simp
    · xfall [hb, decide_eq_false h0]
      refine From.loop (fun n s' => ∃ i, i + n = y.length ∧ 0 < n ∧ s'.rdx = BitVec.ofNat 64 n ∧ s'.rdi = BitVec.ofNat 64 (x.length - y.length + 1) ∧ LtInv s x y i s') ?_ y.length _
        ⟨0, by omega, by omega, rfl, rfl, rfl, rfl, rfl, rfl, by simp⟩
      rintro n t ⟨i, hin, hn0, hdi, hdx, I⟩ ih
      obtain ⟨m, rfl⟩ : ∃ m, n = m + 1 := ⟨n - 1, by omega⟩
      have hstep := lt_step x y i
      xstep [I.r8, I.rsi, I.mem, hX.wd (i := i) (by omega)]
      xstep [I.r8, I.rcx, I.mem, hY.wd (i := i) (by omega), I.cf, hstep]
      xstep []
      xstep [hdi]
      have hb := ofNat_beq_zero (i := m) (by omega)
      by_cases h0 : m = 0
      · xfall [hb, decide_eq_true h0, Bool.not_true]
        xstep []
        have : i + 1 = y.length := by omega
        exact second _ ⟨by rw [← this], rfl, rfl, rfl, by rw [← this]⟩ hdx
      · xtake [hb, decide_eq_false h0, Bool.not_false]
        exact ih m (by omega) _ ⟨i + 1, by omega, by omega, rfl, hdx, rfl, rfl, rfl, rfl, rfl⟩

end Verif.X86
