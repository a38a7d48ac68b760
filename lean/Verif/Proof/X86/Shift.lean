import Verif.Proof.X86
import Verif.Model.AsmX86.Words
import Verif.Model.Bignum

/-! `bignum_shr_small`. -/
namespace Verif.X86
open Verif

theorem wd_toWords {k j : Nat} (n : Nat) (h : j < k) : wd (toWords k n) j = BitVec.ofNat 64 (n / 2 ^ (64 * j)) := by
  induction k generalizing n j with
  | zero => omega
  | succ k ih =>
    cases j with
    | zero => simp [wd, toWords]
    | succ j =>
      have : wd (toWords (k + 1) n) (j + 1) = wd (toWords k (n / 2 ^ 64)) j := by simp [wd, toWords]
      rw [this, ih _ (by omega), Nat.div_div_eq_div_mul, pow_step]

theorem val_drop_step2 (x : Words) (i : Nat) : val x / 2 ^ (64 * i) = (wd x i).toNat + 2 ^ 64 * (val x / 2 ^ (64 * (i + 1))) := by
  have h1 : val x / 2 ^ (64 * (i + 1)) = val x / 2 ^ (64 * i) / 2 ^ 64 := by
    rw [Nat.div_div_eq_div_mul, pow_step, Nat.mul_comm]
  have h2 : (wd x i).toNat = val x / 2 ^ (64 * i) % 2 ^ 64 := by
    by_cases h : i < x.length
    · rw [← toWords_val x, wd_toWords _ h, BitVec.toNat_ofNat, toWords_val]
    · rw [wd_ge (by omega), Nat.div_eq_of_lt]
      · rfl
      · exact Nat.lt_of_lt_of_le (val_lt x) (Nat.pow_le_pow_right (by omega) (by omega))
  rw [h1, h2]
  omega

theorem shrd_word (a b : Word) (n c : Nat) (hc : c < 64) (h0 : c ≠ 0) :
    (a >>> c) ||| (b <<< (64 - c)) = BitVec.ofNat 64 ((a.toNat + 2 ^ 64 * (b.toNat + 2 ^ 64 * n)) / 2 ^ c) := by
  apply BitVec.eq_of_toNat_eq
  have hp : (2 : Nat) ^ 64 = 2 ^ c * 2 ^ (64 - c) := by rw [← Nat.pow_add, Nat.add_sub_cancel' (by omega)]
  have h1 : (a.toNat + 2 ^ 64 * (b.toNat + 2 ^ 64 * n)) / 2 ^ c = a.toNat / 2 ^ c + 2 ^ (64 - c) * (b.toNat + 2 ^ 64 * n) := by
    rw [show 2 ^ 64 * (b.toNat + 2 ^ 64 * n) = 2 ^ c * (2 ^ (64 - c) * (b.toNat + 2 ^ 64 * n)) by rw [← Nat.mul_assoc, ← hp]]
    rw [Nat.add_mul_div_left _ _ (Nat.two_pow_pos c)]
  rw [h1, BitVec.toNat_or, BitVec.toNat_ushiftRight, BitVec.toNat_shiftLeft, BitVec.toNat_ofNat, Nat.shiftRight_eq_div_pow, Nat.shiftLeft_eq]
  have ha : a.toNat / 2 ^ c < 2 ^ (64 - c) := by
    rw [Nat.div_lt_iff_lt_mul (Nat.two_pow_pos c), Nat.mul_comm, ← hp]
    exact a.isLt
  have hb : b.toNat * 2 ^ (64 - c) % 2 ^ 64 = 2 ^ (64 - c) * (b.toNat % 2 ^ c) := by
    rw [hp, Nat.mul_comm b.toNat, Nat.mul_comm (2 ^ c), Nat.mul_mod_mul_left]
  rw [hb, Nat.or_comm, ← Nat.two_pow_add_eq_or_of_lt ha]
  have hd := Nat.div_add_mod b.toNat (2 ^ c)
  have : a.toNat / 2 ^ c + 2 ^ (64 - c) * (b.toNat + 2 ^ 64 * n) = (2 ^ (64 - c) * (b.toNat % 2 ^ c) + a.toNat / 2 ^ c) + 2 ^ 64 * (b.toNat / 2 ^ c + 2 ^ (64 - c) * n) := by
    have e1 : 2 ^ (64 - c) * b.toNat = 2 ^ 64 * (b.toNat / 2 ^ c) + 2 ^ (64 - c) * (b.toNat % 2 ^ c) := by
      conv => lhs; rw [← hd]
      rw [Nat.mul_add, ← Nat.mul_assoc, Nat.mul_comm (2 ^ (64 - c)), ← hp]
    rw [Nat.mul_add, e1, Nat.mul_add, ← Nat.mul_assoc, ← Nat.mul_assoc, Nat.mul_comm (2 ^ (64 - c)) (2 ^ 64)]
    omega
  rw [this, Nat.add_mul_mod_self_left]
  refine (Nat.mod_eq_of_lt ?_).symm
  have hm := Nat.mod_lt b.toNat (Nat.two_pow_pos c)
  have : 2 ^ (64 - c) * (b.toNat % 2 ^ c + 1) ≤ 2 ^ (64 - c) * 2 ^ c := Nat.mul_le_mul_left _ hm
  rw [Nat.mul_comm _ (2 ^ c), ← hp, Nat.mul_add, Nat.mul_one] at this
  omega

/-- Word `i` of the shifted number. -/
theorem shr_word (x : Words) (k i c : Nat) (hi : i < k) :
    wd (Bignum.shrSmall k x c) i =
      if c % 64 = 0 then wd x i else (wd x i >>> (c % 64)) ||| (wd x (i + 1) <<< (64 - c % 64)) := by
  unfold Bignum.shrSmall
  rw [wd_toWords _ hi, Nat.div_div_eq_div_mul, Nat.mul_comm, ← Nat.div_div_eq_div_mul, val_drop_step2, val_drop_step2 x (i + 1)]
  by_cases h0 : c % 64 = 0
  · rw [if_pos h0, h0, Nat.pow_zero, Nat.div_one]
    apply BitVec.eq_of_toNat_eq
    rw [BitVec.toNat_ofNat, Nat.add_mul_mod_self_left, Nat.mod_eq_of_lt (wd x i).isLt]
  · rw [if_neg h0, shrd_word _ _ _ _ (Nat.mod_lt _ (by omega)) h0]

structure ShrInv (s0 : St) (x : Words) (k n : Nat) (s : St) : Prop where
  rdi : s.rdi = BitVec.ofNat 64 n
  rsi : s.rsi = s0.rsi
  r9 : s.r9 = s0.rcx
  rcx : s.rcx = s0.r8
  wr : s.wr = s0.wr
  only : OnlyAt s0.rsi k s0.mem s.mem
  done : ∀ j, n ≤ j → j < k → s.mem (word s0.rsi j) = some (wd (Bignum.shrSmall k x s0.r8.toNat) j)

theorem store_done {m : Word → Option Word} {z : Word} {k n : Nat} {f : Nat → Word} (hk : k < 2 ^ 61) (hn : n < k)
    (h : ∀ j, n + 1 ≤ j → j < k → m (word z j) = some (f j)) :
    ∀ j, n ≤ j → j < k → (if word z j = word z n then some (f n) else m (word z j)) = some (f j) := by
  intro j hj hjk
  by_cases e : j = n
  · rw [e, if_pos rfl]
  · rw [if_neg fun he => e (word_inj (by omega) (by omega) he)]
    exact h j (by omega) hjk

theorem shrSmall_ok (s : St) (x : Words) (k : Nat) (hk : k < 2 ^ 61) (hkx : x.length < 2 ^ 61)
   (hdi : s.rdi = BitVec.ofNat 64 k) (hZ : s.Owns s.rsi k) (hdx : s.rdx = BitVec.ofNat 64 x.length) (hX : Holds s.mem s.rcx x)
   (a1 : Apart s.rsi k s.rcx x.length) :
   Runs Asm.bignumShrSmall s fun s' => Holds s'.mem s.rsi (Bignum.shrSmall k x s.r8.toNat) ∧
     s'.rax = BitVec.ofNat 64 (val x % 2 ^ (s.r8.toNat % 64)) ∧ OnlyAt s.rsi k s.mem s'.mem := by
  apply runs_of_from
  generalize hQ : (fun s' : St => Holds s'.mem s.rsi (Bignum.shrSmall k x s.r8.toNat) ∧
     s'.rax = BitVec.ofNat 64 (val x % 2 ^ (s.r8.toNat % 64)) ∧ OnlyAt s.rsi k s.mem s'.mem) = Q
  -- the end
  have fin : ∀ t, ShrInv s x k 0 t → t.rax = wd x 0 → From Asm.bignumShrSmall 21 t Q := by
    intro t I ha
    have hc : s.r8.toNat % 64 < 64 := Nat.mod_lt _ (by omega)
    have hres : ∀ v : Word, v = BitVec.ofNat 64 (2 ^ (s.r8.toNat % 64)) →
        wd x 0 &&& sbbv v 1#64 false = BitVec.ofNat 64 (val x % 2 ^ (s.r8.toNat % 64)) := by
      intro v hv
      generalize s.r8.toNat % 64 = c at *
      have hp : 2 ^ c = (2 ^ c - 1) + 1 := by have := Nat.two_pow_pos c; omega
      rw [hv, hp, dec_ofNat]
      apply BitVec.eq_of_toNat_eq
      have hlt : 2 ^ c < 2 ^ 64 := Nat.pow_lt_pow_right (by omega) hc
      rw [BitVec.toNat_and, toNat_ofNat' (by omega), Nat.and_two_pow_sub_one_eq_mod, BitVec.toNat_ofNat, Nat.sub_add_cancel (Nat.two_pow_pos c)]
      have h1 := val_drop_step2 x 0
      rw [Nat.mul_zero, Nat.pow_zero, Nat.div_one] at h1
      rw [Nat.mod_eq_of_lt (Nat.lt_trans (Nat.mod_lt _ (Nat.two_pow_pos c)) hlt), h1]
      rw [show (2:Nat)^64 = 2 ^ c * 2 ^ (64 - c) by rw [← Nat.pow_add, Nat.add_sub_cancel' (by omega)], Nat.mul_assoc, Nat.add_mul_mod_self_left]
    have hh : Holds t.mem s.rsi (Bignum.shrSmall k x s.r8.toNat) := by
      intro i hi
      have : (Bignum.shrSmall k x s.r8.toNat).length = k := by simp [Bignum.shrSmall]
      rw [I.done i (Nat.zero_le _) (by omega), wd_eq]
    xstep []
    by_cases h0 : s.r8.toNat % 64 = 0
    · xstep [St.shift, I.rcx, h0]
      xstep []
      xstep [ha]
      refine From.halt rfl ?_
      rw [← hQ]
      exact ⟨hh, hres 1#64 (by rw [h0]), I.only⟩
    · xstep [St.shift, St.shiftFlags, I.rcx, h0, if_false]
      xstep []
      xstep [ha]
      refine From.halt rfl ?_
      rw [← hQ]
      exact ⟨hh, hres _ (by rw [shl_ofNat, Nat.mul_one]), I.only⟩
  -- the main loop
  have main : ∀ n t, n ≤ x.length → n ≤ k → ShrInv s x k n t → t.rax = wd x n → From Asm.bignumShrSmall 12 t Q := by
    intro n t hnx hnk I ha
    have hb := ofNat_beq_zero (i := n) (by omega)
    xstep [I.rdi]
    by_cases h0 : n = 0
    · subst h0
      xtake [hb, decide_true]
      exact fin _ ⟨rfl, I.rsi, I.r9, I.rcx, I.wr, I.only, I.done⟩ ha
    · xfall [hb, decide_eq_false h0]
      refine From.loop (fun n s' => 0 < n ∧ n ≤ x.length ∧ n ≤ k ∧ ShrInv s x k n s' ∧ s'.rax = wd x n) ?_ n _
        ⟨by omega, hnx, hnk, ⟨rfl, I.rsi, I.r9, I.rcx, I.wr, I.only, I.done⟩, ha⟩
      rintro n t ⟨hn, hnx, hnk, I, ha⟩ ih
      obtain ⟨m, rfl⟩ : ∃ m, n = m + 1 := ⟨n - 1, by omega⟩
      have hX' := (I.only.holds a1 hX).wd (i := m) (by omega)
      have hsw := shr_word x k m s.r8.toNat (by omega)
      have hd := store_done hk (show m < k by omega) I.done
      have ho := I.only.store (i := m) (by omega) (wd (Bignum.shrSmall k x s.r8.toNat) m)
      have rest : ∀ t : St, ShrInv s x k m t → t.zf = some (BitVec.ofNat 64 m == 0#64) → t.rax = wd x m → From Asm.bignumShrSmall 20 t Q := by
        intro t I hz ha
        have hb := ofNat_beq_zero (i := m) (by omega)
        by_cases h0 : m = 0
        · subst h0
          xfall [hz, hb, decide_true, Bool.not_true]
          exact fin _ I ha
        · xtake [hz, hb, decide_eq_false h0, Bool.not_false]
          exact ih m (by omega) _ ⟨by omega, by omega, by omega, I, ha⟩
      xstep [I.rdi, word_pred, I.r9, hX']
      xstep []
      by_cases h0 : s.r8.toNat % 64 = 0
      · rw [if_pos h0] at hsw
        xstep [St.shift, I.rcx, h0]
        xstep [word_pred, I.rsi, I.wr, hZ m (by omega), ← hsw]
        xstep []
        xstep []
        exact rest _ ⟨rfl, rfl, rfl, rfl, rfl, ho, hd⟩ rfl hsw
      · rw [if_neg h0] at hsw
        xstep [St.shift, St.shiftFlags, I.rcx, h0, if_false, ha, ← hsw]
        xstep [word_pred, I.rsi, I.wr, hZ m (by omega)]
        xstep []
        xstep []
        exact rest _ ⟨rfl, rfl, rfl, rfl, rfl, ho, hd⟩ rfl rfl
  xstep []
  xstep []
  xstep []
  xstep []
  xstep [hdx, hdi, sub_lt_ofNat (i := x.length) (j := k) (by omega) (by omega), sub_beq_zero, ofNat_inj (i := x.length) (j := k) (by omega) (by omega)]
  by_cases hlt : x.length < k
  · xfall [decide_eq_true hlt, Bool.not_true]
    refine From.loop (fun n s' => x.length < n ∧ n ≤ k ∧ s'.rax = 0#64 ∧ s'.rdx = BitVec.ofNat 64 x.length ∧ ShrInv s x k n s') ?_ k _
      ⟨hlt, Nat.le_refl _, rfl, rfl, rfl, rfl, rfl, rfl, rfl, OnlyAt.refl _ _ _, fun j h1 h2 => by omega⟩
    rintro n t ⟨hxn, hnk, ha, hdx, I⟩ ih
    obtain ⟨m, rfl⟩ : ∃ m, n = m + 1 := ⟨n - 1, by omega⟩
    have hsw := shr_word x k m s.r8.toNat (by omega)
    rw [wd_ge (ws := x) (i := m) (by omega), wd_ge (ws := x) (i := m + 1) (by omega)] at hsw
    have hsw : wd (Bignum.shrSmall k x s.r8.toNat) m = 0#64 := by rw [hsw]; split <;> simp
    have hd := store_done hk (show m < k by omega) I.done
    have ho := I.only.store (i := m) (by omega) (wd (Bignum.shrSmall k x s.r8.toNat) m)
    rw [hsw] at hd ho
    xstep [I.rdi]
    xstep [I.rsi, I.wr, hZ m (by omega), ha]
    xstep [hdx, sub_lt_ofNat (i := x.length) (j := m) (by omega) (by omega), sub_beq_zero, ofNat_inj (i := x.length) (j := m) (by omega) (by omega)]
    by_cases hm : x.length < m
    · xtake [decide_eq_true hm]
      exact ih m (by omega) _ ⟨hm, by omega, rfl, rfl, rfl, rfl, I.r9, I.rcx, rfl, ho, hd⟩
    · xfall [decide_eq_false hm]
      xtake [decide_eq_true (show x.length = m by omega)]
      exact main m _ (by omega) (by omega) ⟨rfl, rfl, I.r9, I.rcx, rfl, ho, hd⟩ (by rw [wd_ge (by omega)])
  · xtake [decide_eq_false hlt, Bool.not_false]
    by_cases he : x.length = k
    · xtake [decide_eq_true he]
      exact main k _ (by omega) (by omega) ⟨rfl, rfl, rfl, rfl, rfl, OnlyAt.refl _ _ _, fun j h1 h2 => by omega⟩ (by rw [wd_ge (by omega)])
    · xfall [decide_eq_false he]
      xstep [hX.wd (i := k) (by omega)]
      exact main k _ (by omega) (by omega) ⟨rfl, rfl, rfl, rfl, rfl, OnlyAt.refl _ _ _, fun j h1 h2 => by omega⟩ rfl

end Verif.X86
