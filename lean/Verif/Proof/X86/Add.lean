import Verif.Proof.X86
import Verif.Model.AsmX86.Words
import Verif.Model.Bignum

/-! `bignum_add`. -/
namespace Verif.X86
open Verif

/-- The low `i` words of a sum are in memory, with carry `c`. -/
structure SumAt (m : Word → Option Word) (z : Word) (x y : Words) (i : Nat) (zs : Words) (c : Bool) : Prop where
  len : zs.length = i
  holds : Holds m z zs
  sum : val zs + 2 ^ (64 * i) * c.toNat = val (x.take i) + val (y.take i)

theorem SumAt.init (m : Word → Option Word) (z : Word) (x y : Words) : SumAt m z x y 0 [] false :=
  ⟨rfl, Holds.nil _ _, rfl⟩

theorem SumAt.step {m : Word → Option Word} {z : Word} {x y : Words} {i : Nat} {zs : Words} {c : Bool}
    (h : SumAt m z x y i zs c) (hi : i < 2 ^ 61) :
    SumAt (fun b => if b = word z i then some (adcv (wd x i) (wd y i) c) else m b) z x y (i + 1)
      (zs ++ [adcv (wd x i) (wd y i) c]) (adcc (wd x i) (wd y i) c) := by
  refine ⟨by rw [List.length_append, h.len]; rfl, h.holds.snoc (by rw [h.len]; exact hi) h.len.symm _, ?_⟩
  rw [val_snoc, h.len, val_take_succ', val_take_succ', pow_step]
  exact carry_step h.sum (adc_val _ _ _)

structure AddInv (s0 : St) (x y : Words) (p i : Nat) (s : St) : Prop where
  r10 : s.r10 = BitVec.ofNat 64 i
  rsi : s.rsi = s0.rsi
  rcx : s.rcx = s0.rcx
  r9 : s.r9 = s0.r9
  wr : s.wr = s0.wr
  only : OnlyAt s0.rsi p s0.mem s.mem
  cf : ∃ zs c, s.cf = some c ∧ SumAt s.mem s0.rsi x y i zs c

theorem add_aux (s : St) (x y : Words) (p : Nat) (hkp : p < 2 ^ 61)
   (hx : x.length ≤ p) (hy : y.length ≤ p)
   (hX : Holds s.mem s.rcx x) (hY : Holds s.mem s.r9 y) (hZ : s.Owns s.rsi p)
   (a1 : Apart s.rsi p s.rcx x.length) (a2 : Apart s.rsi p s.r9 y.length)
   (hdi : s.rdi = BitVec.ofNat 64 p) (hdx : s.rdx = BitVec.ofNat 64 x.length) (h8 : s.r8 = BitVec.ofNat 64 y.length)
   (hr : s.r10 = 0#64) :
   From Asm.bignumAdd 6 s fun s' => Holds s'.mem s.rsi (toWords p (val x + val y)) ∧
     s'.rax = BitVec.ofNat 64 ((val x + val y) / 2 ^ (64 * p)) ∧ OnlyAt s.rsi p s.mem s'.mem := by
  generalize hQ : (fun s' : St => Holds s'.mem s.rsi (toWords p (val x + val y)) ∧
     s'.rax = BitVec.ofNat 64 ((val x + val y) / 2 ^ (64 * p)) ∧ OnlyAt s.rsi p s.mem s'.mem) = Q
  -- when all words of the result are written
  have done : ∀ (t : St) (zs : Words) (c : Nat), zs.length = p → Holds t.mem s.rsi zs →
      OnlyAt s.rsi p s.mem t.mem → val zs + 2 ^ (64 * p) * c = val x + val y → t.rax = BitVec.ofNat 64 c → Q t := by
    intro t zs c hl hh ho hv ha
    rw [← hQ]
    have := words_of_val (zs := zs) (c := c) rfl
    rw [hl, hv] at this
    exact ⟨this.1 ▸ hh, by rw [ha, this.2], ho⟩
  -- the zeros at the top, when there are more words
  have tail : ∀ (i : Nat) (t : St) (zs : Words) (c : Bool), i < p → i = zs.length → x.length ≤ i → y.length ≤ i →
      Holds t.mem s.rsi zs → val zs + 2 ^ (64 * i) * c.toNat = val x + val y →
      OnlyAt s.rsi p s.mem t.mem → t.rax = BitVec.ofNat 64 c.toNat → t.rdi = BitVec.ofNat 64 (p - i) → t.wr = s.wr →
      t.r10 = BitVec.ofNat 64 i → t.rsi = s.rsi → From Asm.bignumAdd 52 t Q := by
    intro i t zs c hi hl hxi hyi hh hv ho ha hd hw h10 hsi
    xstep [h10, hsi, hw, hZ i hi]
    xstep []
    xstep []
    refine From.loop (fun n s' => ∃ j zs, j + n = p ∧ 0 < n ∧ zs.length = j + 1 ∧ Holds s'.mem s.rsi zs ∧ val zs = val x + val y ∧
      OnlyAt s.rsi p s.mem s'.mem ∧ s'.rax = 0#64 ∧ s'.rdi = BitVec.ofNat 64 n ∧ s'.wr = s.wr ∧ s'.r10 = BitVec.ofNat 64 j ∧ s'.rsi = s.rsi)
      ?_ (p - i) _ ⟨i, zs ++ [t.rax], by omega, by omega, by simp [hl], hh.snoc (by omega) hl _, ?_, ho.store hi _, rfl, hd, rfl, rfl, rfl⟩
    · rintro n t ⟨j, zs, hjn, hn, hl, hh, hv, ho, ha, hd, hw, h10, hsi⟩ ih
      obtain ⟨m, rfl⟩ : ∃ m, n = m + 1 := ⟨n - 1, by omega⟩
      have hb := ofNat_beq_zero (i := m) (by omega)
      xstep [h10]
      xstep [hd]
      by_cases h0 : m = 0
      · xfall [hb, decide_eq_true h0, Bool.not_true]
        exact From.halt rfl (done _ zs 0 (by omega) hh ho (by rw [hv]; rfl) ha)
      · xtake [hb, decide_eq_false h0, Bool.not_false]
        xstep [hsi, hw, hZ (j + 1) (by omega), ha]
        exact ih m (by omega) _ ⟨j + 1, zs ++ [0#64], by omega, by omega, by simp [hl], hh.snoc (by omega) (by omega) _,
          by rw [val_snoc, hv]; rfl, ho.store (by omega) _, rfl, rfl, rfl, rfl, rfl⟩
    · rw [val_snoc, ha, ← hl, toNat_ofNat' (by have := bool_toNat_le c; omega), hv]
  have hcz : ∀ c : Bool, adcv 0#64 0#64 c = BitVec.ofNat 64 c.toNat := by intro c; cases c <;> rfl
  have hc0 : ∀ c : Bool, adcc 0#64 0#64 c = false := by intro c; cases c <;> rfl
  xstep [hdx, h8]
  have hl := sub_lt_ofNat (i := x.length) (j := y.length) (by omega) (by omega)
  by_cases hlt : x.length < y.length
  · xtake [hl, decide_eq_true hlt]
    xstep [hdi, sub_ofNat hy]
    xstep [sub_ofNat (Nat.le_of_lt hlt)]
    xstep []
    have second : ∀ t, AddInv s x y p x.length t → t.r8 = BitVec.ofNat 64 (y.length - x.length) → t.rdi = BitVec.ofNat 64 (p - y.length) →
        From Asm.bignumAdd 41 t Q := by
      intro t I hd hp
      refine From.loop (fun n s' => ∃ i, x.length ≤ i ∧ i + n = y.length ∧ 0 < n ∧ s'.r8 = BitVec.ofNat 64 n ∧ s'.rdi = BitVec.ofNat 64 (p - y.length) ∧ AddInv s x y p i s') ?_ (y.length - x.length) _
        ⟨x.length, by omega, by omega, by omega, hd, hp, I⟩
      rintro n t ⟨i, hxi, hin, hn0, hd, hp, I⟩ ih
      obtain ⟨m, rfl⟩ : ∃ m, n = m + 1 := ⟨n - 1, by omega⟩
      obtain ⟨zs, c, hc, S⟩ := I.cf
      have S' := S.step (by omega)
      rw [wd_ge (ws := x) hxi] at S'
      have hcomm : ∀ c, adcv (wd y i) 0#64 c = adcv 0#64 (wd y i) c ∧ adcc (wd y i) 0#64 c = adcc 0#64 (wd y i) c := by
        intro c; simp [adcv, adcc]
      have hY' := (I.only.holds a2 hY).wd (i := i) (by omega)
      xstep [I.r10, I.r9, hY']
      xstep [hc, (hcomm c).1, (hcomm c).2]
      xstep [I.rsi, I.wr, hZ i (by omega)]
      xstep []
      xstep [hd]
      have hb := ofNat_beq_zero (i := m) (by omega)
      have ho := I.only.store (i := i) (by omega) (adcv 0#64 (wd y i) c)
      by_cases h0 : m = 0
      · xfall [hb, decide_eq_true h0, Bool.not_true]
        have hsum := S'.sum
        rw [List.take_of_length_le (by omega), List.take_of_length_le (by omega)] at hsum
        xstep []
        xstep [hcz, hc0]
        xstep [hp]
        have hb := ofNat_beq_zero (i := p - y.length) (by omega)
        by_cases hpy : p - y.length = 0
        · xfall [hb, decide_eq_true hpy, Bool.not_true]
          xstep []
          have : i + 1 = p := by omega
          exact From.halt rfl (done _ _ _ (by rw [S'.len, this]) S'.holds ho (by rw [← this]; exact hsum) rfl)
        · xtake [hb, decide_eq_false hpy, Bool.not_false]
          exact tail (i + 1) _ _ _ (by omega) S'.len.symm (by omega) (by omega) S'.holds hsum ho rfl (by rw [show p - y.length = p - (i + 1) by omega]) rfl rfl rfl
      · xtake [hb, decide_eq_false h0, Bool.not_false]
        exact ih m (by omega) _ ⟨i + 1, by omega, by omega, by omega, rfl, hp, rfl, rfl, I.rcx, rfl, rfl, ho, _, _, rfl, S'⟩
    have hb := ofNat_beq_zero (i := x.length) (by omega)
    by_cases h0 : x.length = 0
    · xtake [hb, decide_eq_true h0]
      refine second _ ⟨by rw [h0]; exact hr, rfl, rfl, rfl, rfl, OnlyAt.refl _ _ _, [], false, rfl, ?_⟩ rfl rfl
      rw [h0]
      exact SumAt.init _ _ _ _
    · xfall [hb, decide_eq_false h0]
      refine From.loop (fun n s' => ∃ i, i + n = x.length ∧ 0 < n ∧ s'.rdx = BitVec.ofNat 64 n ∧ s'.r8 = BitVec.ofNat 64 (y.length - x.length) ∧ s'.rdi = BitVec.ofNat 64 (p - y.length) ∧ AddInv s x y p i s') ?_ x.length _
        ⟨0, by omega, by omega, rfl, rfl, rfl, hr, rfl, rfl, rfl, rfl, OnlyAt.refl _ _ _, [], false, rfl, SumAt.init _ _ _ _⟩
      rintro n t ⟨i, hin, hn0, hd, h8, hp, I⟩ ih
      obtain ⟨m, rfl⟩ : ∃ m, n = m + 1 := ⟨n - 1, by omega⟩
      obtain ⟨zs, c, hc, S⟩ := I.cf
      have S' := S.step (by omega)
      have hX' := (I.only.holds a1 hX).wd (i := i) (by omega)
      have hY' := (I.only.holds a2 hY).wd (i := i) (by omega)
      xstep [I.r10, I.rcx, hX']
      xstep [I.r9, hY', hc]
      xstep [I.rsi, I.wr, hZ i (by omega)]
      xstep []
      xstep [hd]
      have hb := ofNat_beq_zero (i := m) (by omega)
      have ho := I.only.store (i := i) (by omega) (adcv (wd x i) (wd y i) c)
      by_cases h0 : m = 0
      · xfall [hb, decide_eq_true h0, Bool.not_true]
        have e : i + 1 = x.length := by omega
        exact second _ ⟨by rw [← e], rfl, rfl, rfl, rfl, ho, _, _, rfl, e ▸ S'⟩ h8 hp
      · xtake [hb, decide_eq_false h0, Bool.not_false]
        exact ih m (by omega) _ ⟨i + 1, by omega, by omega, rfl, h8, hp, rfl, rfl, rfl, rfl, rfl, ho, _, _, rfl, S'⟩
  · xfall [hl, decide_eq_false hlt]
    xstep [hdi, sub_ofNat hx]
    xstep [sub_ofNat (Nat.le_of_not_lt hlt)]
    xstep []
    have second : ∀ t, AddInv s x y p y.length t → t.rdx = BitVec.ofNat 64 (x.length - y.length + 1) → t.rdi = BitVec.ofNat 64 (p - x.length) →
        From Asm.bignumAdd 24 t Q := by
      intro t I hd hp
      refine From.loop (fun n s' => ∃ i, y.length ≤ i ∧ i + n = x.length ∧ s'.rdx = BitVec.ofNat 64 (n + 1) ∧ s'.rdi = BitVec.ofNat 64 (p - x.length) ∧ AddInv s x y p i s') ?_ (x.length - y.length) _
        ⟨y.length, by omega, by omega, hd, hp, I⟩
      rintro n t ⟨i, hxi, hin, hd, hp, I⟩ ih
      obtain ⟨zs, c, hc, S⟩ := I.cf
      xstep [hd]
      have hb := ofNat_beq_zero (i := n) (by omega)
      by_cases h0 : n = 0
      · xfall [hb, decide_eq_true h0, Bool.not_true]
        have hsum := S.sum
        rw [List.take_of_length_le (by omega), List.take_of_length_le (by omega)] at hsum
        xstep []
        xstep [hc, hcz, hc0]
        xstep [hp]
        have hb := ofNat_beq_zero (i := p - x.length) (by omega)
        by_cases hpy : p - x.length = 0
        · xfall [hb, decide_eq_true hpy, Bool.not_true]
          xstep []
          have : i = p := by omega
          exact From.halt rfl (done _ _ _ (by rw [S.len, this]) S.holds I.only (by rw [← this]; exact hsum) rfl)
        · xtake [hb, decide_eq_false hpy, Bool.not_false]
          exact tail i _ _ _ (by omega) S.len.symm (by omega) (by omega) S.holds hsum I.only rfl (by rw [show p - x.length = p - i by omega]) I.wr I.r10 I.rsi
      · obtain ⟨m, rfl⟩ : ∃ m, n = m + 1 := ⟨n - 1, by omega⟩
        xtake [hb, decide_eq_false h0, Bool.not_false]
        have S' := S.step (by omega)
        rw [wd_ge (ws := y) hxi] at S'
        have hX' := (I.only.holds a1 hX).wd (i := i) (by omega)
        have ho := I.only.store (i := i) (by omega) (adcv (wd x i) 0#64 c)
        xstep [I.r10, I.rcx, hX']
        xstep [hc]
        xstep [I.rsi, I.wr, hZ i (by omega)]
        xstep []
        exact ih m (by omega) _ ⟨i + 1, by omega, by omega, rfl, hp, rfl, rfl, rfl, I.r9, rfl, ho, _, _, rfl, S'⟩
    xstep []
    have hb := ofNat_beq_zero (i := y.length) (by omega)
    by_cases h0 : y.length = 0
    · xtake [hb, decide_eq_true h0]
      refine second _ ⟨by rw [h0]; exact hr, rfl, rfl, rfl, rfl, OnlyAt.refl _ _ _, [], false, rfl, ?_⟩ rfl rfl
      rw [h0]
      exact SumAt.init _ _ _ _
    · xfall [hb, decide_eq_false h0]
      refine From.loop (fun n s' => ∃ i, i + n = y.length ∧ 0 < n ∧ s'.r8 = BitVec.ofNat 64 n ∧ s'.rdx = BitVec.ofNat 64 (x.length - y.length + 1) ∧ s'.rdi = BitVec.ofNat 64 (p - x.length) ∧ AddInv s x y p i s') ?_ y.length _
        ⟨0, by omega, by omega, rfl, rfl, rfl, hr, rfl, rfl, rfl, rfl, OnlyAt.refl _ _ _, [], false, rfl, SumAt.init _ _ _ _⟩
      rintro n t ⟨i, hin, hn0, h8, hd, hp, I⟩ ih
      obtain ⟨m, rfl⟩ : ∃ m, n = m + 1 := ⟨n - 1, by omega⟩
      obtain ⟨zs, c, hc, S⟩ := I.cf
      have S' := S.step (by omega)
      have hX' := (I.only.holds a1 hX).wd (i := i) (by omega)
      have hY' := (I.only.holds a2 hY).wd (i := i) (by omega)
      xstep [I.r10, I.rcx, hX']
      xstep [I.r9, hY', hc]
      xstep [I.rsi, I.wr, hZ i (by omega)]
      xstep []
      xstep [h8]
      have hb := ofNat_beq_zero (i := m) (by omega)
      have ho := I.only.store (i := i) (by omega) (adcv (wd x i) (wd y i) c)
      by_cases h0 : m = 0
      · xfall [hb, decide_eq_true h0, Bool.not_true]
        xstep []
        have e : i + 1 = y.length := by omega
        exact second _ ⟨by rw [← e], rfl, rfl, rfl, rfl, ho, _, _, rfl, e ▸ S'⟩ hd hp
      · xtake [hb, decide_eq_false h0, Bool.not_false]
        exact ih m (by omega) _ ⟨i + 1, by omega, by omega, rfl, hd, hp, rfl, rfl, rfl, rfl, rfl, ho, _, _, rfl, S'⟩

theorem add_ok (s : St) (x y : Words) (p : Nat) (hkp : p < 2 ^ 61) (hkx : x.length < 2 ^ 61) (hky : y.length < 2 ^ 61)
   (hdi : s.rdi = BitVec.ofNat 64 p) (hZ : s.Owns s.rsi p)
   (hdx : s.rdx = BitVec.ofNat 64 x.length) (hX : Holds s.mem s.rcx x)
   (h8 : s.r8 = BitVec.ofNat 64 y.length) (hY : Holds s.mem s.r9 y)
   (a1 : Apart s.rsi p s.rcx x.length) (a2 : Apart s.rsi p s.r9 y.length) :
   Runs Asm.bignumAdd s fun s' => Holds s'.mem s.rsi (Bignum.add p x y).1 ∧
     s'.rax = (Bignum.add p x y).2 ∧ OnlyAt s.rsi p s.mem s'.mem := by
  apply runs_of_from
  xstep []
  xstep []
  xstep [hdi, hdx]
  xstep [cmov_min (i := p) (j := x.length) (by omega) (by omega)]
  xstep [h8]
  xstep [cmov_min (i := p) (j := y.length) (by omega) (by omega)]
  have hlx : (x.take p).length = min p x.length := List.length_take
  have hly : (y.take p).length = min p y.length := List.length_take
  exact add_aux _ (x.take p) (y.take p) p hkp (by omega) (by omega) (hX.take p) (hY.take p) hZ
    (a1.mono (by omega)) (a2.mono (by omega)) rfl (by rw [hlx]) (by rw [hly]) rfl

end Verif.X86
