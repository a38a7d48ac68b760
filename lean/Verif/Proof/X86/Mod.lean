import Verif.Proof.X86
import Verif.Model.AsmX86.Words
import Verif.Model.Bignum

/-! `bignum_optsub`, `bignum_modsub` and `bignum_modadd`. -/
namespace Verif.X86
open Verif

structure OptInv (s0 : St) (x y : Words) (k i : Nat) (s : St) : Prop where
  r9 : s.r9 = BitVec.ofNat 64 i
  rdi : s.rdi = s0.rdi
  rsi : s.rsi = s0.rsi
  rdx : s.rdx = s0.rdx
  r8 : s.r8 = s0.r8
  rcx : s.rcx = msk (s0.rcx != 0#64)
  wr : s.wr = s0.wr
  only : OnlyAt s0.rsi k s0.mem s.mem
  cf : ∃ zs c, s.rax = msk c ∧ Holds s.mem s0.rsi zs ∧ DiffOf x (opt (s0.rcx != 0#64) y) i zs c

theorem optsub_ok (s : St) (x y : Words) (k : Nat) (hk : k < 2 ^ 61) (hx : x.length = k) (hy : y.length = k)
   (hdi : s.rdi = BitVec.ofNat 64 k) (hZ : s.Owns s.rsi k) (hX : Holds s.mem s.rdx x) (hY : Holds s.mem s.r8 y)
   (a1 : Apart s.rsi k s.rdx k) (a2 : Apart s.rsi k s.r8 k) :
   Runs Asm.bignumOptsub s fun s' => Holds s'.mem s.rsi (Bignum.optsub k x y s.rcx) ∧
     s'.rax = (if s.rcx ≠ 0#64 ∧ val x < val y then 1#64 else 0#64) ∧ OnlyAt s.rsi k s.mem s'.mem := by
  apply runs_of_from
  have done : ∀ (t : St) zs c, t.rax = msk c → Holds t.mem s.rsi zs → DiffOf x (opt (s.rcx != 0#64) y) k zs c →
      OnlyAt s.rsi k s.mem t.mem → From Asm.bignumOptsub 17 t fun s' => Holds s'.mem s.rsi (Bignum.optsub k x y s.rcx) ∧
     s'.rax = (if s.rcx ≠ 0#64 ∧ val x < val y then 1#64 else 0#64) ∧ OnlyAt s.rsi k s.mem s'.mem := by
    intro t zs c ha hh D ho
    have hv := D.sum
    have hl := D.len
    have hlt := val_lt zs
    rw [hl] at hlt
    have hxl := val_lt x
    have hyl := val_lt y
    rw [hx] at hxl
    rw [hy] at hyl
    rw [List.take_of_length_le (l := x) (by omega)] at hv
    xstep [ha, neg_mask]
    by_cases hp : s.rcx = 0#64
    · simp only [hp, bne_self_eq_false, opt, if_false, Bool.false_eq_true, List.take_nil] at hv
      have hv : val zs = val x + 2 ^ (64 * k) * c.toNat := hv
      have hc : c = false := by
        cases c
        · rfl
        · simp at hv; omega
      subst hc
      simp only [Bool.toNat_false, Nat.mul_zero, Nat.add_zero] at hv
      refine From.halt rfl ⟨?_, by simp [hp], ho⟩
      have : Bignum.optsub k x y s.rcx = zs := by
        rw [Bignum.optsub, if_pos hp, List.take_of_length_le (by omega), ← hv, ← hl, toWords_val]
      rw [this]
      exact hh
    · have e : (s.rcx != 0#64) = true := by simp [hp]
      simp only [e, opt, if_true] at hv
      rw [List.take_of_length_le (by omega)] at hv
      refine From.halt rfl ⟨?_, ?_, ho⟩
      · have : Bignum.optsub k x y s.rcx = zs := by
          rw [Bignum.optsub, if_neg hp, List.take_of_length_le (by omega), List.take_of_length_le (by omega)]
          apply val_inj (by simp [hl])
          rw [val_toWords]
          cases c
          · simp only [Bool.toNat_false, Nat.mul_zero, Nat.add_zero] at hv
            rw [show val x + 2 ^ (64 * k) - val y = val zs + 2 ^ (64 * k) by omega, Nat.add_mod_right, Nat.mod_eq_of_lt hlt]
          · simp only [Bool.toNat_true, Nat.mul_one] at hv
            rw [show val x + 2 ^ (64 * k) - val y = val zs by omega, Nat.mod_eq_of_lt hlt]
        rw [this]
        exact hh
      · cases c
        · simp only [Bool.toNat_false, Nat.mul_zero, Nat.add_zero] at hv
          simp [hp]; omega
        · simp only [Bool.toNat_true, Nat.mul_one] at hv
          simp [hp]; omega
  xstep []
  xstep []
  xstep [hdi]
  have hb := ofNat_beq_zero (i := k) (by omega)
  by_cases h0 : k = 0
  · xtake [hb, decide_eq_true h0]
    have ex : x = [] := List.eq_nil_of_length_eq_zero (by omega)
    have ey : y = [] := List.eq_nil_of_length_eq_zero (by omega)
    refine From.halt rfl ⟨?_, ?_, OnlyAt.refl _ _ _⟩
    · have : Bignum.optsub k x y s.rcx = [] := by
        apply List.eq_nil_of_length_eq_zero
        unfold Bignum.optsub
        split <;> simp [h0]
      rw [this]
      exact Holds.nil _ _
    · simp [ex, ey]
  xfall [hb, decide_eq_false h0]
  xstep [neg_cf]
  xstep [sbb_self]
  xstep []
  refine From.loop (fun n s' => ∃ i, i + n = k ∧ 0 < n ∧ OptInv s x y k i s') ?_ k _
    ⟨0, by omega, by omega, rfl, hdi.symm, rfl, rfl, rfl, rfl, rfl, OnlyAt.refl _ _ _, [], false, rfl, Holds.nil _ _, DiffOf.init _ _⟩
  rintro n t ⟨i, hin, hn, I⟩ ih
  obtain ⟨m, rfl⟩ : ∃ m, n = m + 1 := ⟨n - 1, by omega⟩
  obtain ⟨zs, c, hc, hh, D⟩ := I.cf
  have D' := D.step
  have hX' := (I.only.holds (by rw [hx]; exact a1) hX).wd (i := i) (by omega)
  have hY' := (I.only.holds (by rw [hy]; exact a2) hY).wd (i := i) (by omega)
  xstep [I.r9, I.rdx, hX']
  xstep [I.r8, hY']
  xstep [I.rcx, ← wd_opt]
  xstep [hc, neg_cf, msk_ne]
  xstep []
  xstep [sbb_self]
  xstep [I.rsi, I.wr, hZ i (by omega)]
  xstep []
  xstep [I.rdi, hdi, sub_lt_ofNat (i := i + 1) (j := k) (by omega) (by omega)]
  have ho := I.only.store (i := i) (by omega) (sbbv (wd x i) (wd (opt (s.rcx != 0#64) y) i) c)
  have hs := hh.snoc (by rw [D.len]; omega) D.len.symm (sbbv (wd x i) (wd (opt (s.rcx != 0#64) y) i) c)
  by_cases hm : i + 1 < k
  · xtake [decide_eq_true hm]
    exact ih m (by omega) _ ⟨i + 1, by omega, by omega, rfl, hdi.symm, rfl, rfl, rfl, rfl, rfl, ho, _, _, rfl, hs, D'⟩
  · xfall [decide_eq_false hm]
    exact done _ _ _ rfl hs (show i + 1 = k by omega ▸ D') ho

structure MsInv (s0 : St) (x y : Words) (k i : Nat) (s : St) : Prop where
  r9 : s.r9 = BitVec.ofNat 64 i
  rdi : s.rdi = s0.rdi
  rsi : s.rsi = s0.rsi
  rdx : s.rdx = s0.rdx
  rcx : s.rcx = s0.rcx
  r8 : s.r8 = s0.r8
  wr : s.wr = s0.wr
  only : OnlyAt s0.rsi k s0.mem s.mem

theorem modsub_ok (s : St) (x y q : Words) (k : Nat) (hk : k < 2 ^ 61) (hx : x.length = k) (hy : y.length = k) (hq : q.length = k)
   (hdi : s.rdi = BitVec.ofNat 64 k) (hZ : s.Owns s.rsi k) (hX : Holds s.mem s.rdx x) (hY : Holds s.mem s.rcx y) (hM : Holds s.mem s.r8 q)
   (a1 : Apart s.rsi k s.rdx k) (a2 : Apart s.rsi k s.rcx k) (a3 : Apart s.rsi k s.r8 k) :
   Runs Asm.bignumModsub s fun s' => Holds s'.mem s.rsi (Bignum.modsub k x y q) ∧ OnlyAt s.rsi k s.mem s'.mem := by
  apply runs_of_from
  xstep []
  xstep [hdi]
  have hb := ofNat_beq_zero (i := k) (by omega)
  by_cases h0 : k = 0
  · xtake [hb, decide_eq_true h0]
    refine From.halt rfl ⟨?_, OnlyAt.refl _ _ _⟩
    have : Bignum.modsub k x y q = [] := by
      apply List.eq_nil_of_length_eq_zero
      unfold Bignum.modsub
      simp only []
      split <;> simp [h0]
    rw [this]
    exact Holds.nil _ _
  xfall [hb, decide_eq_false h0]
  xstep []
  xstep []
  xstep []
  -- the addition
  have second : ∀ (t : St) (zs : Words) (c : Bool), Holds t.mem s.rsi zs → DiffOf x y k zs c → t.r11 = msk c → t.r10 = 0#64 → MsInv s x y k 0 t →
      From Asm.bignumModsub 14 t fun s' => Holds s'.mem s.rsi (Bignum.modsub k x y q) ∧ OnlyAt s.rsi k s.mem s'.mem := by
    intro t zs c hh D h11 h10 I
    have hl := D.len
    refine From.loop (fun n s' => ∃ i, i + n = k ∧ 0 < n ∧ s'.r11 = msk c ∧ MsInv s x y k i s' ∧
       ∃ us e, s'.r10 = msk e ∧ Holds s'.mem s.rsi (us ++ zs.drop i) ∧ SumOf zs (opt c q) i us e) ?_ k _
       ⟨0, by omega, by omega, h11, I, [], false, h10, hh, SumOf.init _ _⟩
    rintro n t ⟨i, hin, hn, h11, I, us, e, h10, hh, S⟩ ih
    obtain ⟨m, rfl⟩ : ∃ m, n = m + 1 := ⟨n - 1, by omega⟩
    have S' := S.step
    have hM' := (I.only.holds (by rw [hq]; exact a3) hM).wd (i := i) (by omega)
    have hz := hh.over_wd S.len (by omega)
    xstep [I.r9, I.r8, hM']
    xstep [h11, ← wd_opt]
    xstep [h10, neg_cf, msk_ne]
    xstep [I.rsi, hz, I.wr, hZ i (by omega)]
    have hs := hh.over S.len (by omega) (by omega) (adcv (wd zs i) (wd (opt c q) i) e)
    have ho := I.only.store (i := i) (by omega) (adcv (wd zs i) (wd (opt c q) i) e)
    xstep [sbb_self]
    xstep []
    xstep [I.rdi, hdi, sub_lt_ofNat (i := i + 1) (j := k) (by omega) (by omega)]
    by_cases hm : i + 1 < k
    · xtake [decide_eq_true hm]
      exact ih m (by omega) _ ⟨i + 1, by omega, by omega, rfl, ⟨rfl, hdi.symm, rfl, I.rdx, I.rcx, rfl, rfl, ho⟩, _, _, rfl, hs, S'⟩
    · xfall [decide_eq_false hm]
      have e : i + 1 = k := by omega
      refine From.halt rfl ⟨?_, ho⟩
      rw [e, List.drop_of_length_le (by omega), List.append_nil] at hs
      rw [e] at S'
      have h1 := S'.sum
      have h2 := D.sum
      have hlen := S'.len
      have hlt := val_lt zs
      rw [hl] at hlt
      have hxl := val_lt x
      have hyl := val_lt y
      have hql := val_lt q
      rw [hx] at hxl
      rw [hy] at hyl
      rw [hq] at hql
      rw [List.take_of_length_le (by omega)] at h1
      rw [List.take_of_length_le (by omega), List.take_of_length_le (by omega)] at h2
      generalize us ++ [adcv (wd zs i) (wd (opt c q) i) _] = vs at *
      have hvl := val_lt vs
      rw [hlen] at hvl
      have : Bignum.modsub k x y q = vs := by
        unfold Bignum.modsub
        rw [List.take_of_length_le (by omega), List.take_of_length_le (by omega), List.take_of_length_le (by omega)]
        simp only []
        apply val_inj (by split <;> simp [hlen])
        cases c
        · simp only [Bool.toNat_false, Nat.mul_zero, Nat.add_zero] at h2
          rw [if_neg (by omega), val_toWords]
          simp only [opt, Bool.false_eq_true, if_false, List.take_nil] at h1
          have h1 : val vs + 2 ^ (64 * k) * _ = val zs := h1
          rw [show val x + 2 ^ (64 * k) - val y = val zs + 2 ^ (64 * k) by omega, Nat.add_mod_right, ← h1, Nat.add_mul_mod_self_left, Nat.mod_eq_of_lt hvl]
        · simp only [Bool.toNat_true, Nat.mul_one] at h2
          rw [if_pos (by omega), val_toWords]
          simp only [opt, if_true] at h1
          rw [List.take_of_length_le (by omega)] at h1
          rw [show val x + 2 ^ (64 * k) - val y + val q = val zs + val q by omega, ← h1, Nat.add_mul_mod_self_left, Nat.mod_eq_of_lt hvl]
      rw [this]
      exact hs
  refine From.loop (fun n s' => ∃ i, i + n = k ∧ 0 < n ∧ s'.r10 = BitVec.ofNat 64 n ∧ MsInv s x y k i s' ∧
      ∃ us e, s'.cf = some e ∧ Holds s'.mem s.rsi us ∧ DiffOf x y i us e) ?_ k _
      ⟨0, by omega, by omega, rfl, ⟨rfl, hdi.symm, rfl, rfl, rfl, rfl, rfl, OnlyAt.refl _ _ _⟩, [], false, rfl, Holds.nil _ _, DiffOf.init _ _⟩
  rintro n t ⟨i, hin, hn, h10, I, us, e, hc, hh, D⟩ ih
  obtain ⟨m, rfl⟩ : ∃ m, n = m + 1 := ⟨n - 1, by omega⟩
  have D' := D.step
  have hX' := (I.only.holds (by rw [hx]; exact a1) hX).wd (i := i) (by omega)
  have hY' := (I.only.holds (by rw [hy]; exact a2) hY).wd (i := i) (by omega)
  xstep [I.r9, I.rdx, hX']
  xstep [I.rcx, hY', hc]
  xstep [I.rsi, I.wr, hZ i (by omega)]
  xstep []
  xstep [h10]
  have hb := ofNat_beq_zero (i := m) (by omega)
  have ho := I.only.store (i := i) (by omega) (sbbv (wd x i) (wd y i) e)
  have hs := hh.snoc (by rw [D.len]; omega) D.len.symm (sbbv (wd x i) (wd y i) e)
  by_cases h0 : m = 0
  · xfall [hb, decide_eq_true h0, Bool.not_true]
    xstep [sbb_self]
    xstep []
    have e : i + 1 = k := by omega
    exact second _ _ _ hs (e ▸ D') rfl (by rw [h0]) ⟨rfl, I.rdi, rfl, rfl, rfl, I.r8, rfl, ho⟩
  · xtake [hb, decide_eq_false h0, Bool.not_false]
    exact ih m (by omega) _ ⟨i + 1, by omega, by omega, rfl, ⟨rfl, I.rdi, rfl, rfl, rfl, I.r8, rfl, ho⟩, _, _, rfl, hs, D'⟩

theorem modadd_ok (s : St) (x y q : Words) (k : Nat) (hk : k < 2 ^ 61) (hx : x.length = k) (hy : y.length = k) (hq : q.length = k)
   (hdi : s.rdi = BitVec.ofNat 64 k) (hZ : s.Owns s.rsi k) (hX : Holds s.mem s.rdx x) (hY : Holds s.mem s.rcx y) (hM : Holds s.mem s.r8 q)
   (a1 : Apart s.rsi k s.rdx k) (a2 : Apart s.rsi k s.rcx k) (a3 : Apart s.rsi k s.r8 k)
   (rx : val x < val q) (ry : val y < val q) :
   Runs Asm.bignumModadd s fun s' => Holds s'.mem s.rsi (toWords k ((val x + val y) % val q)) ∧ OnlyAt s.rsi k s.mem s'.mem := by
  apply runs_of_from
  have hxl := val_lt x
  have hyl := val_lt y
  have hql := val_lt q
  rw [hx] at hxl
  rw [hy] at hyl
  rw [hq] at hql
  xstep []
  xstep [hdi]
  have hb := ofNat_beq_zero (i := k) (by omega)
  by_cases h0 : k = 0
  · xtake [hb, decide_eq_true h0]
    refine From.halt rfl ⟨?_, OnlyAt.refl _ _ _⟩
    subst h0
    exact Holds.nil _ _
  xfall [hb, decide_eq_false h0]
  xstep []
  xstep []
  xstep []
  -- the subtraction
  have third : ∀ (t : St) (zs : Words) (c : Bool), Holds t.mem s.rsi zs → SumOf x y k zs c →
      t.r11 = msk (decide (val q ≤ val x + val y)) → t.r10 = 0#64 → MsInv s x y k 0 t →
      From Asm.bignumModadd 23 t fun s' => Holds s'.mem s.rsi (toWords k ((val x + val y) % val q)) ∧ OnlyAt s.rsi k s.mem s'.mem := by
    intro t zs c hh D h11 h10 I
    have hl := D.len
    generalize hg : decide (val q ≤ val x + val y) = g at *
    refine From.loop (fun n s' => ∃ i, i + n = k ∧ 0 < n ∧ s'.r11 = msk g ∧ MsInv s x y k i s' ∧
       ∃ us e, s'.r10 = msk e ∧ Holds s'.mem s.rsi (us ++ zs.drop i) ∧ DiffOf zs (opt g q) i us e) ?_ k _
       ⟨0, by omega, by omega, h11, I, [], false, h10, hh, DiffOf.init _ _⟩
    rintro n t ⟨i, hin, hn, h11, I, us, e, h10, hh, S⟩ ih
    obtain ⟨m, rfl⟩ : ∃ m, n = m + 1 := ⟨n - 1, by omega⟩
    have S' := S.step
    have hM' := (I.only.holds (by rw [hq]; exact a3) hM).wd (i := i) (by omega)
    have hz := hh.over_wd S.len (by omega)
    xstep [I.r9, I.r8, hM']
    xstep [h11, ← wd_opt]
    xstep [h10, neg_cf, msk_ne]
    xstep [I.rsi, hz, I.wr, hZ i (by omega)]
    have hs := hh.over S.len (by omega) (by omega) (sbbv (wd zs i) (wd (opt g q) i) e)
    have ho := I.only.store (i := i) (by omega) (sbbv (wd zs i) (wd (opt g q) i) e)
    xstep [sbb_self]
    xstep []
    xstep [I.rdi, hdi, sub_lt_ofNat (i := i + 1) (j := k) (by omega) (by omega)]
    by_cases hm : i + 1 < k
    · xtake [decide_eq_true hm]
      exact ih m (by omega) _ ⟨i + 1, by omega, by omega, rfl, ⟨rfl, hdi.symm, rfl, I.rdx, I.rcx, rfl, rfl, ho⟩, _, _, rfl, hs, S'⟩
    · xfall [decide_eq_false hm]
      have e : i + 1 = k := by omega
      refine From.halt rfl ⟨?_, ho⟩
      rw [e, List.drop_of_length_le (by omega), List.append_nil] at hs
      rw [e] at S'
      have h1 := S'.sum
      have h2 := D.sum
      have hlen := S'.len
      have hlt := val_lt zs
      rw [hl] at hlt
      rw [List.take_of_length_le (l := zs) (by omega)] at h1
      rw [List.take_of_length_le (by omega), List.take_of_length_le (by omega)] at h2
      generalize us ++ [sbbv (wd zs i) (wd (opt g q) i) _] = vs at *
      generalize sbbc (wd zs i) (wd (opt g q) i) _ = b at *
      have hvl := val_lt vs
      rw [hlen] at hvl
      have : toWords k ((val x + val y) % val q) = vs := by
        apply val_inj (by simp [hlen])
        rw [val_toWords_of_lt (Nat.lt_trans (Nat.mod_lt _ (by omega)) hql)]
        cases g
        · have hg := of_decide_eq_false hg
          rw [Nat.mod_eq_of_lt (by omega)]
          simp only [opt, Bool.false_eq_true, if_false, List.take_nil] at h1
          have h1 : val vs = val zs + 2 ^ (64 * k) * b.toNat := h1
          cases b <;> cases c <;> simp at h1 h2 <;> omega
        · have hg := of_decide_eq_true hg
          rw [Nat.mod_eq_sub_mod hg, Nat.mod_eq_of_lt (by omega)]
          simp only [opt, if_true] at h1
          rw [List.take_of_length_le (by omega)] at h1
          cases b <;> cases c <;> simp at h1 h2 <;> omega
      rw [this]
      exact hs
  -- the comparison
  have second : ∀ (t : St) (zs : Words) (c : Bool), Holds t.mem s.rsi zs → SumOf x y k zs c → t.r11 = BitVec.ofNat 64 c.toNat →
      t.r10 = BitVec.ofNat 64 k → MsInv s x y k 0 t → t.cf = some false →
      From Asm.bignumModadd 15 t fun s' => Holds s'.mem s.rsi (toWords k ((val x + val y) % val q)) ∧ OnlyAt s.rsi k s.mem s'.mem := by
    intro t zs c hh D h11 h10 I hc
    have hl := D.len
    refine From.loop (fun n s' => ∃ i, i + n = k ∧ 0 < n ∧ s'.r11 = BitVec.ofNat 64 c.toNat ∧ s'.r10 = BitVec.ofNat 64 n ∧ MsInv s x y k i s' ∧
       Holds s'.mem s.rsi zs ∧ s'.cf = some (decide (val (zs.take i) < val (q.take i)))) ?_ k _
       ⟨0, by omega, by omega, h11, h10, I, hh, by rw [hc]; simp⟩
    rintro n t ⟨i, hin, hn, h11, h10, I, hh, hc⟩ ih
    obtain ⟨m, rfl⟩ : ∃ m, n = m + 1 := ⟨n - 1, by omega⟩
    have hstep := lt_step zs q i
    have hM' := (I.only.holds (by rw [hq]; exact a3) hM).wd (i := i) (by omega)
    have hz := hh.wd (i := i) (by omega)
    xstep [I.r9, I.rsi, hz]
    xstep [I.r8, hM', hc, hstep]
    xstep []
    xstep [h10]
    have hb := ofNat_beq_zero (i := m) (by omega)
    by_cases h0 : m = 0
    · xfall [hb, decide_eq_true h0, Bool.not_true]
      have e : i + 1 = k := by omega
      simp only [e, List.take_of_length_le (l := zs) (i := k) (by omega), List.take_of_length_le (l := q) (i := k) (by omega)]
      have h2 := D.sum
      have hlt := val_lt zs
      rw [hl] at hlt
      rw [List.take_of_length_le (by omega), List.take_of_length_le (by omega)] at h2
      have hmask : ~~~ sbbv (BitVec.ofNat 64 c.toNat) 0#64 (decide (val zs < val q)) = msk (decide (val q ≤ val x + val y)) := by
        cases c <;> simp at h2 <;> by_cases hlt : val zs < val q
        · rw [decide_eq_true hlt, decide_eq_false (by omega)]; rfl
        · rw [decide_eq_false hlt, decide_eq_true (by omega)]; rfl
        · rw [decide_eq_true hlt, decide_eq_true (by omega)]; rfl
        · omega
      xstep [h11]
      xstep [hmask]
      xstep []
      exact third _ zs c hh D rfl (by rw [h0]) ⟨rfl, I.rdi, rfl, I.rdx, I.rcx, rfl, I.wr, I.only⟩
    · xtake [hb, decide_eq_false h0, Bool.not_false]
      exact ih m (by omega) _ ⟨i + 1, by omega, by omega, h11, rfl, ⟨rfl, I.rdi, rfl, I.rdx, I.rcx, rfl, I.wr, I.only⟩, hh, rfl⟩
  refine From.loop (fun n s' => ∃ i, i + n = k ∧ 0 < n ∧ s'.r11 = 0#64 ∧ s'.r10 = BitVec.ofNat 64 n ∧ MsInv s x y k i s' ∧
      ∃ us e, s'.cf = some e ∧ Holds s'.mem s.rsi us ∧ SumOf x y i us e) ?_ k _
      ⟨0, by omega, by omega, rfl, rfl, ⟨rfl, hdi.symm, rfl, rfl, rfl, rfl, rfl, OnlyAt.refl _ _ _⟩, [], false, rfl, Holds.nil _ _, SumOf.init _ _⟩
  rintro n t ⟨i, hin, hn, h11, h10, I, us, e, hc, hh, D⟩ ih
  obtain ⟨m, rfl⟩ : ∃ m, n = m + 1 := ⟨n - 1, by omega⟩
  have D' := D.step
  have hX' := (I.only.holds (by rw [hx]; exact a1) hX).wd (i := i) (by omega)
  have hY' := (I.only.holds (by rw [hy]; exact a2) hY).wd (i := i) (by omega)
  xstep [I.r9, I.rdx, hX']
  xstep [I.rcx, hY', hc]
  xstep [I.rsi, I.wr, hZ i (by omega)]
  xstep []
  xstep [h10]
  have hb := ofNat_beq_zero (i := m) (by omega)
  have ho := I.only.store (i := i) (by omega) (adcv (wd x i) (wd y i) e)
  have hs := hh.snoc (by rw [D.len]; omega) D.len.symm (adcv (wd x i) (wd y i) e)
  have hcz : ∀ c : Bool, adcv 0#64 0#64 c = BitVec.ofNat 64 c.toNat := by intro c; cases c <;> rfl
  by_cases h0 : m = 0
  · xfall [hb, decide_eq_true h0, Bool.not_true]
    xstep [h11, hcz]
    xstep [I.rdi, hdi]
    xstep []
    have e : i + 1 = k := by omega
    exact second _ _ _ hs (e ▸ D') rfl rfl ⟨rfl, hdi.symm, rfl, rfl, rfl, I.r8, rfl, ho⟩ rfl
  · xtake [hb, decide_eq_false h0, Bool.not_false]
    exact ih m (by omega) _ ⟨i + 1, by omega, by omega, h11, rfl, ⟨rfl, I.rdi, rfl, rfl, rfl, I.r8, rfl, ho⟩, _, _, rfl, hs, D'⟩

end Verif.X86
