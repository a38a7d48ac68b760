#!/usr/bin/env python3
"""Writes Proof/X86/Montmul.lean, Montsqr.lean and Montredc.lean: the routines have the same loops at other positions and in other
registers."""
import os
OUT = os.path.join(os.path.dirname(__file__), '..', 'lean', 'Verif', 'Proof', 'X86')

HEAD = r'''import Verif.Proof.X86.Env
import Verif.Model.AsmX86.Mont

/-! `bignum_@name`.  Written by tools/gen_montx86.py. -/
namespace Verif.X86
open Verif

'''

FRAME = r'''/-- What stays the same during the run. -/
structure @F (s : St) (k : Nat) (@xy m : Words) (t : St) : Prop where
  rdi : t.rdi = BitVec.ofNat 64 k
  rsi : t.rsi = s.rsi
  rcx : t.rcx = s.rcx
  r8 : t.r8 = @r8v
  r9 : t.r9 = s.rdx
  rsp : t.rsp = word (@b) 0
  wr : t.wr = s.wr
  env : Env s.mem s.rsi k (@b) @n 0 @ro t.mem

local macro "fr" h:ident : tactic => `(tactic| exact ⟨by first | with_reducible rfl | exact (@F.rdi $h :),
  by first | with_reducible rfl | exact (@F.rsi $h :),
  by first | with_reducible rfl | exact (@F.rcx $h :),
  by first | with_reducible rfl | exact (@F.r8 $h :),
  by first | with_reducible rfl | exact (@F.r9 $h :),
  by first | with_reducible rfl | exact (@F.rsp $h :),
  by first | with_reducible rfl | exact (@F.wr $h :),
  by first | assumption | exact (@F.env $h :)⟩)

'''

TAIL = r'''theorem @name_end {s t : St} {k : Nat} {@xy m us : Words} {R : Words → Prop} (F : @F s k @xy m t) (h : Holds t.mem s.rsi us)
    (hR : R us) : From @P @end t fun s' => (∃ zs, Holds s'.mem s.rsi zs ∧ R zs) ∧
      Env s.mem s.rsi k (@b) @n 0 @ro s'.mem := by
@stk
@pops
  exact From.halt rfl ⟨⟨us, h, hR⟩, F.env⟩

theorem @name_sub {s : St} {k : Nat} {@xy m z : Words} {R : Words → Prop} {T : Bool} (hk : k < 2 ^ 61) (h0 : 0 < k) (hm : m.length = k)
    (hz : z.length = k) (hZ : s.Owns s.rsi k) (ha : ∀ p ∈ @ro, Apart s.rsi k p.1 p.2.length)
    (hR : ∀ us c, DiffOf z (opt T m) k us c → R us)
    {t : St} (F : @F s k @xy m t) (h : Holds t.mem s.rsi z) (hT : t.rbp = msk T) :
    From @P @sub t fun s' => (∃ zs, Holds s'.mem s.rsi zs ∧ R zs) ∧
      Env s.mem s.rsi k (@b) @n 0 @ro s'.mem := by
  xstep []
  xstep []
  refine From.loop (fun n t => ∃ i us c, i + n = k ∧ 0 < n ∧ @F s k @xy m t ∧ t.rbp = msk T ∧ t.rbx = BitVec.ofNat 64 i ∧ t.@mk = msk c ∧
      Holds t.mem s.rsi (us ++ z.drop i) ∧ DiffOf z (opt T m) i us c) ?_ k _
    ⟨0, [], false, by omega, h0, by fr F, hT, rfl, rfl, h, DiffOf.init _ _⟩
  rintro n t ⟨i, us, c, hin, hn, F, hT, hb, hmk, hh, D⟩ ih
  have hM := F.env.get (p := s.@m) (ws := m) (by simp) (i := i) (by omega)
  have hX := hh.over_wd D.len (by omega)
  have hs := hh.over D.len (by omega) (by omega) (sbbv (wd z i) (wd (opt T m) i) c)
  have D' := D.step
  have he := F.env.store ha (i := i) (by omega) (sbbv (wd z i) (wd (opt T m) i) c)
  xstep [F.@m, hb, hM]
  xstep [hT, ← wd_opt]
  xstep [hmk, neg_cf, msk_ne]
  xstep [F.rsi, hX, F.wr, hZ i (by omega)]
  xstep [sbb_self]
  xstep []
  xstep [F.rdi, sub_lt_ofNat (i := i + 1) (j := k) (by omega) (by omega)]
  by_cases hm' : i + 1 < k
  · xtake [decide_eq_true hm']
    exact ih (n - 1) (by omega) _ ⟨i + 1, _, _, by omega, by omega, by fr F, rfl, rfl, rfl, hs, D'⟩
  · xfall [decide_eq_false hm']
    have e : i + 1 = k := by omega
    rw [e, List.drop_of_length_le (by omega), List.append_nil] at hs
    rw [e] at D'
    exact @name_end (by fr F) hs (hR _ _ D')

theorem @name_cmp {s : St} {k : Nat} {@xy m z : Words} {R : Words → Prop} {top : Word} (hk : k < 2 ^ 61) (h0 : 0 < k) (hm : m.length = k)
    (hz : z.length = k) (hZ : s.Owns s.rsi k) (ha : ∀ p ∈ @ro, Apart s.rsi k p.1 p.2.length)
    (hR : ∀ us c, DiffOf z (opt (decide (val m ≤ val z + 2 ^ (64 * k) * top.toNat)) m) k us c → R us)
    {t : St} (F : @F s k @xy m t) (h : Holds t.mem s.rsi z) (ht : t.@tp = top) :
    From @P @cmp t fun s' => (∃ zs, Holds s'.mem s.rsi zs ∧ R zs) ∧
      Env s.mem s.rsi k (@b) @n 0 @ro s'.mem := by
  xstep []
  xstep [F.rdi]
  refine From.loop (fun n t => ∃ i us c, i + n = k ∧ 0 < n ∧ @F s k @xy m t ∧ t.@tp = top ∧ t.rbx = BitVec.ofNat 64 i ∧
      t.@cn = BitVec.ofNat 64 n ∧ t.cf = some c ∧ Holds t.mem s.rsi z ∧ DiffOf z m i us c) ?_ k _
    ⟨0, [], false, by omega, h0, by fr F, ht, rfl, rfl, rfl, h, DiffOf.init _ _⟩
  rintro n t ⟨i, us, c, hin, hn, F, ht, hb, hcn, hc, hh, D⟩ ih
  obtain ⟨n, rfl⟩ : ∃ j, n = j + 1 := ⟨n - 1, by omega⟩
  have hM := F.env.get (p := s.@m) (ws := m) (by simp) (i := i) (by omega)
  have hX := hh.wd (i := i) (by omega)
  have D' := D.step
  xstep [F.rsi, hb, hX]
  xstep [F.@m, hM, hc]
  xstep []
  xstep [hcn, ofNat_beq_zero (i := n) (by omega)]
  by_cases hm' : n = 0
  · xfall [decide_eq_true hm', Bool.not_true]
    have e : i + 1 = k := by omega
    rw [e] at D'
    xstep [ht]
    xstep [sbb_self]
    xstep []
    refine @name_sub hk h0 hm hz hZ ha hR (by fr F) hh ?_
    show ~~~ msk _ = _
    rw [D'.top_lt hz hm]
    cases decide (val m ≤ val z + 2 ^ (64 * k) * top.toNat) <;> rfl
  · xtake [decide_eq_false hm', Bool.not_false]
    exact ih n (by omega) _ ⟨i + 1, _, _, by omega, by omega, by fr F, ht, rfl, rfl, rfl, hh, D'⟩

'''

REST = r'''/-- The reduction by one word. -/
theorem @name_red {s : St} {k : Nat} {@xy m z : Words} {Q : St → Prop} (hk : k + 1 < 2 ^ 61) (hm : m.length = k + 1)
    (hz : z.length = k + 1) (hZ : s.Owns s.rsi (k + 1)) (ho : (wd m 0).toNat % 2 = 1)
    (ha : ∀ p ∈ @ro, Apart s.rsi (k + 1) p.1 p.2.length)
    {r13 v c0 : Word} (hc0 : c0.toNat ≤ 1)
    (hQ : ∀ t zs q top, @F s (k + 1) @xy m t → t.r13 = r13 → t.r14 = top → Holds t.mem s.rsi zs → zs.length = k + 1 → q < 2 ^ 64 →
      2 ^ 64 * (val zs + 2 ^ (64 * (k + 1)) * top.toNat) = val z + 2 ^ (64 * (k + 1)) * (v.toNat + 2 ^ 64 * c0.toNat) + q * val m →
      From @P @inc t Q)
    {t : St} (F : @F s (k + 1) @xy m t) (h13 : t.r13 = r13) (h14 : t.r14 = v) (h15 : t.r15 = c0) (h : Holds t.mem s.rsi z) :
    From @P @red t Q := by
  have done : ∀ (t : St) us h c q j, j = k → @F s (k + 1) @xy m t → t.r13 = r13 → t.r14 = v → t.r15 = c0 → t.rbx = BitVec.ofNat 64 (j + 1) →
      t.r10 = h → t.cf = some c → Holds t.mem s.rsi (us ++ z.drop j) → q < 2 ^ 64 → RowOf z m q (j + 1) (0#64 :: us) h.toNat c →
      From @P @rend t Q := by
    rintro t us h c q j rfl F h13 h14 h15 hb h10 hc hh hq D
    have hl := D.len
    rw [List.length_cons, Nat.add_right_cancel_iff] at hl
    have hv := D.down hz hm v
    have hs := hh.over hl (by omega) (by omega) (adcv h v c)
    rw [List.drop_of_length_le (by omega), List.append_nil] at hs
    have he := F.env.store ha (Nat.lt_succ_self _) (adcv h v c)
    xstep [h10, hc, h14]
    xstep [h15]
    xstep []
    xstep [F.rsi, hb, word_pred, F.wr, hZ _ (Nat.lt_succ_self _)]
    refine hQ _ _ q _ (by fr F) h13 rfl hs (by simp [hl]) hq ?_
    have h1 := adc_val c0 0#64 (adcc h v c)
    have h2 := bool_toNat_le (adcc h v c)
    have h3 : (adcc c0 0#64 (adcc h v c)).toNat = 0 := by
      rw [BitVec.toNat_ofNat] at h1
      omega
    rw [h3] at h1
    have e0 : (0#64).toNat = 0 := rfl
    rw [e0] at h1
    generalize 2 ^ (64 * (j + 1)) = B at *
    zify at *
    linear_combination hv + 2 ^ 64 * (B : Int) * h1
  have h0 := h.wd (i := 0) (by omega)
  have hM0 := F.env.get (p := s.@m) (ws := m) (by simp) (i := 0) (by omega)
  @getw
  rw [word_zero] at h0 hM0
  xstep [F.rsi, h0]
  xstep [@ldw]
  xstep []
  xstep [F.@m, hM0]
  xstep []
  xstep []
  xstep []
  xstep []
  xstep [F.rdi]
  xstep [ofNat_beq_zero (i := k) (by omega)]
  have D := RowOf.first z m (winv (wd m 0) * wd z 0)
  rw [red_zero ho] at D
  by_cases hk0 : k = 0
  · xtake [decide_eq_true hk0]
    subst hk0
    exact done _ [] _ _ _ 0 rfl (by fr F) h13 h14 h15 rfl rfl rfl h (BitVec.isLt _) D
  xfall [decide_eq_false hk0]
  refine From.loop (fun n t => ∃ j us c h, j + n = k ∧ 0 < n ∧ @F s (k + 1) @xy m t ∧ t.r13 = r13 ∧ t.r14 = v ∧ t.r15 = c0 ∧
      t.rbx = BitVec.ofNat 64 (j + 1) ∧ t.r12 = BitVec.ofNat 64 n ∧ t.rbp = winv (wd m 0) * wd z 0 ∧
      t.r10 = h ∧ t.cf = some c ∧ Holds t.mem s.rsi (us ++ z.drop j) ∧
      RowOf z m (winv (wd m 0) * wd z 0).toNat (j + 1) (0#64 :: us) h.toNat c) ?_ k _
    ⟨0, [], _, _, by omega, by omega, by fr F, h13, h14, h15, rfl, rfl, rfl, rfl, rfl, h, D⟩
  rintro n t ⟨j, us, c, h, hin, hn, F, h13, h14, h15, hb, h12, hbp, h10, hc, hh, D⟩ ih
  obtain ⟨n, rfl⟩ : ∃ j, n = j + 1 := ⟨n - 1, by omega⟩
  have hl : us.length = j := by simpa using D.len
  have hM := F.env.get (p := s.@m) (ws := m) (by simp) (i := j + 1) (by omega)
  have hX : t.mem (word s.rsi (j + 1)) = some (wd z (j + 1)) := hh.drop_wd hl (by omega) (by omega)
  have D' := D.step
  xstep [F.rsi, hb, hX, h10, hc]
  xstep [sbb_self]
  xstep [F.@m, hM]
  xstep [hbp]
  xstep []
  xstep []
  xstep [word_pred, F.wr, hZ j (by omega)]
  xstep []
  xstep []
  xstep [h12, ofNat_beq_zero (i := n) (by omega)]
  have hs := hh.over hl (by omega) (by omega)
    (adcv (mullo (wd m (j + 1)) (winv (wd m 0) * wd z 0)) (adcv h (wd z (j + 1)) c) false)
  have he := F.env.store ha (i := j) (by omega)
    (adcv (mullo (wd m (j + 1)) (winv (wd m 0) * wd z 0)) (adcv h (wd z (j + 1)) c) false)
  by_cases hm' : n = 0
  · xfall [decide_eq_true hm', Bool.not_true]
    exact done _ _ _ _ _ (j + 1) (by omega) (by fr F) h13 h14 h15 rfl rfl rfl hs (BitVec.isLt _) D'
  · xtake [decide_eq_false hm', Bool.not_false]
    exact ih n (by omega) _ ⟨j + 1, _, _, _, by omega, by omega, by fr F, h13, h14, h15, rfl, rfl, rfl, rfl, rfl, hs, D'⟩

/-- The multiplication by one word. -/
theorem @name_row {s : St} {k : Nat} {@xy m z : Words} {Q : St → Prop} (hk : k < 2 ^ 61) (h0 : 0 < k) (hx : x.length = k) @hy
    (hz : z.length = k) (hZ : s.Owns s.rsi k) (ha : ∀ p ∈ @ro, Apart s.rsi k p.1 p.2.length)
    {j : Nat} (hj : j < k) {top : Word}
    (hQ : ∀ t zs v c0, @F s k @xy m t → t.r13 = BitVec.ofNat 64 j → t.r14 = v → t.r15 = c0 → Holds t.mem s.rsi zs → zs.length = k →
      c0.toNat ≤ 1 → val zs + 2 ^ (64 * k) * (v.toNat + 2 ^ 64 * c0.toNat) = val z + 2 ^ (64 * k) * top.toNat + (wd x j).toNat * val @y →
      From @P @red t Q)
    {t : St} (F : @F s k @xy m t) (h13 : t.r13 = BitVec.ofNat 64 j) (h14 : t.r14 = top) (h : Holds t.mem s.rsi z) :
    From @P @row t Q := by
  have hXj := F.env.get (p := s.rdx) (ws := x) (by simp) (i := j) (by omega)
  xstep [F.r9, h13, hXj]
  xstep []
  xstep []
  xstep []
  xstep [F.rdi]
  refine From.loop (fun n t => ∃ i us c h, i + n = k ∧ 0 < n ∧ @F s k @xy m t ∧ t.r13 = BitVec.ofNat 64 j ∧ t.r14 = top ∧ t.r15 = 0#64 ∧
      t.rbx = BitVec.ofNat 64 i ∧ t.r12 = BitVec.ofNat 64 n ∧ t.rbp = wd x j ∧
      t.r10 = h ∧ t.cf = some c ∧ Holds t.mem s.rsi (us ++ z.drop i) ∧
      RowOf z @y (wd x j).toNat i us h.toNat c) ?_ k _
    ⟨0, [], _, _, by omega, by omega, by fr F, rfl, h14, rfl, rfl, rfl, rfl, rfl, rfl, h, RowOf.init _ _ _⟩
  rintro n t ⟨i, us, c, h, hin, hn, F, h13, h14, h15, hb, h12, hbp, h10, hc, hh, D⟩ ih
  obtain ⟨n, rfl⟩ : ∃ j, n = j + 1 := ⟨n - 1, by omega⟩
  have hY := F.env.get (p := s.@yp) (ws := @y) (by simp) (i := i) (by omega)
  have hX := hh.over_wd D.len (by omega)
  have D' := D.step
  xstep [F.rsi, hb, hX, h10, hc]
  xstep [sbb_self]
  xstep [F.@yr, hY]
  xstep [hbp]
  xstep []
  xstep []
  xstep [F.wr, hZ i (by omega)]
  xstep []
  xstep []
  xstep [h12, ofNat_beq_zero (i := n) (by omega)]
  have hs := hh.over D.len (by omega) (by omega) (adcv (mullo (wd @y i) (wd x j)) (adcv h (wd z i) c) false)
  have he := F.env.store ha (i := i) (by omega) (adcv (mullo (wd @y i) (wd x j)) (adcv h (wd z i) c) false)
  by_cases hm' : n = 0
  · xfall [decide_eq_true hm', Bool.not_true]
    have e : i + 1 = k := by omega
    rw [List.drop_of_length_le (by omega), List.append_nil] at hs
    xstep [h14]
    xstep [h15]
    have hl := D'.len
    have hv := D'.sum
    generalize adcc (mullo (wd @y i) (wd x j)) (adcv h (wd z i) c) false = c1 at *
    generalize sbbv (mulhi (wd @y i) (wd x j)) (msk (adcc h (wd z i) c)) false = h1 at *
    have h2 : (adcv 0#64 0#64 (adcc top h1 c1)).toNat = (adcc top h1 c1).toNat := by cases adcc top h1 c1 <;> rfl
    refine hQ _ _ _ _ (by fr F) h13 rfl rfl hs (by rw [hl, e]) (by rw [h2]; exact bool_toNat_le _) ?_
    rw [h2]
    rw [List.take_of_length_le (by omega), List.take_of_length_le (by omega), e] at hv
    have h3 := adc_val top h1 c1
    generalize 2 ^ (64 * k) = B at *
    zify at *
    linear_combination hv + (B : Int) * h3
  · xtake [decide_eq_false hm', Bool.not_false]
    exact ih n (by omega) _ ⟨i + 1, _, _, _, by omega, by omega, by fr F, h13, h14, h15, rfl, rfl, rfl, rfl, rfl, hs, D'⟩

theorem @name_ok (s : St) (@xy m : Words) (k : Nat) (hk : k < 2 ^ 61) (hx : x.length = k) @hy (hm : m.length = k) (ho : val m % 2 = 1)
    (hp : val x * val @y ≤ 2 ^ (64 * k) * val m)
    (hdi : s.rdi = BitVec.ofNat 64 k) (hZ : s.Owns s.rsi k) (hS : s.Owns (@b) @n)
    (hi : ∀ p ∈ @ri, Holds s.mem p.1 p.2) (ha : ∀ p ∈ @ri, Apart s.rsi k p.1 p.2.length)
    (hb : ∀ p ∈ @ri, Apart (@b) @n p.1 p.2.length)@hzs :
    Runs @P s fun s' => (∃ zs, Holds s'.mem s.rsi zs ∧ zs.length = k ∧ val zs < val m ∧
        val zs * 2 ^ (64 * k) % val m = val x * val @y % val m) ∧
      Env s.mem s.rsi k (@b) @n 0 @ro s'.mem := by
  obtain ⟨k, rfl⟩ : ∃ j, k = j + 1 := ⟨k - 1, by
    have : k ≠ 0 := by
      rintro rfl
      rw [List.eq_nil_of_length_eq_zero hm] at ho
      simp [val] at ho
    omega⟩
@exta
  have hmp : 0 < val m := by omega
  have outer : ∀ t z, @F s (k + 1) @xy m t → t.r13 = 0#64 → t.r14 = 0#64 → Holds t.mem s.rsi z → z.length = k + 1 → val z = 0 →
      From @P @row t fun s' => (∃ zs, Holds s'.mem s.rsi zs ∧ zs.length = k + 1 ∧ val zs < val m ∧
        val zs * 2 ^ (64 * (k + 1)) % val m = val x * val @y % val m) ∧
      Env s.mem s.rsi (k + 1) (@b) @n 0 @ro s'.mem := by
    intro t z F h13 h14 hz hl hv
    refine From.loop (fun n t => ∃ j z u top, j + n = k + 1 ∧ 0 < n ∧ @F s (k + 1) @xy m t ∧ t.r13 = BitVec.ofNat 64 j ∧ t.r14 = top ∧
      Holds t.mem s.rsi z ∧ z.length = k + 1 ∧
      2 ^ (64 * j) * (val z + 2 ^ (64 * (k + 1)) * top.toNat) = val (x.take j) * val @y + u * val m ∧ u < 2 ^ (64 * j)) ?_ (k + 1) t
      ⟨0, z, 0, _, by omega, by omega, F, h13, h14, hz, hl, by simp [hv], by simp⟩
    rintro n t ⟨j, z, u, top, hn, hn', F, h13, h14, hz, hl, hv, hu⟩ ih
    refine @name_row hk (by omega) hx @hya hl hZ ha (j := j) (by omega) ?_ F h13 h14 hz
    intro t z1 v c0 F h13 h14 h15 hz hl hc0 hv1
    refine @name_red hk hm hl hZ (odd_wd ho) ha hc0 ?_ F h13 h14 h15 hz
    intro t zs q top F h13 h14 hz hl hq hv2
    rw [hv1] at hv2
    have hs := mont_step' (j := j) rfl hv hv2 hq hu
    rw [← val_take_succ'] at hs
    obtain ⟨hv, hu⟩ := hs
    xstep [h13]
    xstep [F.rdi, sub_lt_ofNat (i := j + 1) (j := k + 1) (by omega) (by omega)]
    by_cases h : j + 1 < k + 1
    · xtake [decide_eq_true h]
      exact ih (n - 1) (by omega) _ ⟨j + 1, zs, _, top, by omega, by omega, by fr F, rfl, h14, hz, hl, hv, hu⟩
    · xfall [decide_eq_false h]
      have e : j + 1 = k + 1 := by omega
      rw [e, List.take_of_length_le (by omega)] at hv
      rw [e] at hu
      refine @name_cmp (R := fun zs => zs.length = k + 1 ∧ val zs < val m ∧ val zs * 2 ^ (64 * (k + 1)) % val m = val x * val @y % val m)
        hk (by omega) hm hl hZ ha ?_ (by fr F) hz h14
      intro us c D
      exact mont_final (top := top.toNat) hu hp hv hl hm rfl hmp rfl D
  have zeroed : ∀ t, @F s (k + 1) @xy m t → t.r13 = 0#64 → t.rbx = 0#64 →
      From @P @zero t fun s' => (∃ zs, Holds s'.mem s.rsi zs ∧ zs.length = k + 1 ∧ val zs < val m ∧
        val zs * 2 ^ (64 * (k + 1)) % val m = val x * val @y % val m) ∧
      Env s.mem s.rsi (k + 1) (@b) @n 0 @ro s'.mem := by
    intro t F h13 hbx
    refine From.loop (fun n t => ∃ i, i + n = k + 1 ∧ 0 < n ∧ @F s (k + 1) @xy m t ∧ t.r13 = 0#64 ∧
        t.rbx = BitVec.ofNat 64 i ∧ Holds t.mem s.rsi (List.replicate i 0#64)) ?_ (k + 1) _
      ⟨0, by omega, by omega, F, h13, hbx, Holds.nil _ _⟩
    rintro n t ⟨i, hn, hn', F, h13, hb, hh⟩ ih
    have hs := hh.snoc (by simp; omega) (List.length_replicate (n := i)).symm 0#64
    rw [← List.replicate_succ'] at hs
    have he := F.env.store ha (i := i) (by omega) 0#64
    xstep [F.rsi, hb, h13, F.wr, hZ i (by omega)]
    xstep []
    xstep [F.rdi, sub_lt_ofNat (i := i + 1) (j := k + 1) (by omega) (by omega)]
    by_cases h : i + 1 < k + 1
    · xtake [decide_eq_true h]
      exact ih (n - 1) (by omega) _ ⟨i + 1, by omega, by omega, by fr F, rfl, rfl, hs⟩
    · xfall [decide_eq_false h]
      xstep []
      exact outer _ _ (by fr F) rfl rfl hs (by simp; omega) (val_zeros _)
  apply runs_of_from
  have hsp : s.rsp = word (@b) @n := stack_top s @n
@start

end Verif.X86
'''

def mul():
    d = dict(mk='r11', cn='r12', tp='r14', name='montmul', F='MmFr', P='Asm.bignumMontmul', xy='x y', y='y', yp='rcx', yr='rcx', m='r8', n='7', b='s.rsp - 56#64',
      r8v='s.r8', ro='[(word (s.rsp - 56#64) 0, [winv (wd m 0)]), (s.rdx, x), (s.rcx, y), (s.r8, m)]',
      ri='[(s.rdx, x), (s.rcx, y), (s.r8, m)]', end='110', sub='100', cmp='90', inc='87', rend='83', red='61', row='43', zero='38',
      hy='(hy : y.length = k)', hya='hy',
      getw='have hw := F.env.get (p := word (s.rsp - 56#64) 0) (ws := [winv (wd m 0)]) (by simp) (i := 0) (by simp)\n'
           '  rw [word_zero] at hw\n  have hw : t.mem (word (s.rsp - 56#64) 0) = some (winv (wd m 0)) := hw',
      ldw='F.rsp, hw',
      hzs='\n    (hsz : Apart s.rsi k (s.rsp - 56#64) 7)')
    d['stk'] = '\n'.join(f'  obtain ⟨v{i}, h{i}⟩ := F.env.st {i} (by omega) (by omega)' for i in range(1, 7))
    d['pops'] = '  xstep [F.rsp, word_add8]\n' + '\n'.join(f'  xstep [h{i}, word_plus8]' for i in range(1, 7))
    d['exta'] = '''  have ha : ∀ p ∈ @ro, Apart s.rsi (k + 1) p.1 p.2.length := by
    intro p hp
    rcases List.mem_cons.mp hp with rfl | hp
    · intro i hi j hj
      have : j = 0 := by simpa using hj
      subst this
      rw [word_zero]
      exact hsz i hi 0 (by omega)
    · exact ha p hp'''.replace('@ro', d['ro'])
    regs = ['rbx', 'rbp', 'r12', 'r13', 'r14', 'r15']
    e = '(Env.init (Z := s.rsi) (k := k + 1) (b := s.rsp - 56#64) (n := 7) hi)'
    for r in regs: e = f'({e}.push hb (by omega) s.{r})'
    st = [f'  have E6 := {e}']
    st += ['''  have start : ∀ t, t.rdi = BitVec.ofNat 64 (k + 1) → t.rsi = s.rsi → t.rcx = s.rcx → t.r8 = s.r8 → t.rdx = s.rdx →
      t.rsp = word (s.rsp - 56#64) 0 → t.wr = s.wr → Env s.mem s.rsi (k + 1) (s.rsp - 56#64) 7 1 @ri t.mem →
      From Asm.bignumMontmul 10 t fun s' => (∃ zs, Holds s'.mem s.rsi zs ∧ zs.length = k + 1 ∧ val zs < val m ∧
        val zs * 2 ^ (64 * (k + 1)) % val m = val x * val y % val m) ∧
      Env s.mem s.rsi (k + 1) (s.rsp - 56#64) 7 0 @ro s'.mem := by
    intro t tdi tsi tcx t8 tdx tsp twr E
    have hM0 := E.get (p := s.r8) (ws := m) (by simp) (i := 0) (by omega)
    rw [word_zero] at hM0
    xstep [tdx]
    xstep [t8, hM0]
    xstep []
    xstep []
    xstep [St.shift, St.shiftFlags, BitVec.toNat_ofNat, Nat.reducePow, Nat.reduceMod, OfNat.ofNat_ne_zero, if_false]
    iterate 20 xstep []
    xstep [tsp, twr, hS 0 (by omega)]
    xstep []
    xstep []
    have E' := (E.push hb (by omega) (winv (wd m 0))).pushed (if_pos rfl)
    exact zeroed _ ⟨tdi, tsi, tcx, rfl, rfl, rfl, rfl, E'⟩ rfl rfl'''.replace('@ro', d['ro']).replace('@ri', d['ri'])]
    st += ['  generalize hbb : s.rsp - 56#64 = b at *', '  xstep []']
    for i in range(6):
        st.append(f'  xstep [{"hsp, " if i==0 else ""}word_sub8, hS {6-i} (by omega)]')
    st += ['  xstep [sub8_word]', '  xstep [hdi, ofNat_beq_zero (i := k + 1) (by omega)]', '  xfall [decide_eq_false (Nat.succ_ne_zero k)]',
           '  exact start _ rfl rfl rfl rfl rfl rfl rfl E6']
    d['start'] = '\n'.join(st)
    return d

def sqr():
    d = dict(mk='r11', cn='r12', tp='r14', name='montsqr', F='MqFr', P='Asm.bignumMontsqr', xy='x', y='x', yp='rdx', yr='r9', m='rcx', n='6', b='s.rsp - 48#64',
      r8v='winv (wd m 0)', ro='[(s.rdx, x), (s.rcx, m)]', ri='[(s.rdx, x), (s.rcx, m)]',
      end='108', sub='98', cmp='88', inc='85', rend='81', red='59', row='41', zero='36', hy='', hya='',
      getw='', ldw='F.r8', hzs='', exta='')
    d['stk'] = '\n'.join(f'  obtain ⟨v{i}, h{i}⟩ := F.env.st {i} (by omega) (by omega)' for i in range(0, 6))
    d['pops'] = '\n'.join(f'  xstep [{"F.rsp, " if i==0 else ""}h{i}, word_plus8]' for i in range(0, 6))
    regs = ['rbx', 'rbp', 'r12', 'r13', 'r14', 'r15']
    e = '(Env.init (Z := s.rsi) (k := k + 1) (b := s.rsp - 48#64) (n := 6) hi)'
    for r in regs: e = f'({e}.push hb (by omega) s.{r})'
    st = [f'  have E6 := {e}']
    st += ['''  have start : ∀ t, t.rdi = BitVec.ofNat 64 (k + 1) → t.rsi = s.rsi → t.rcx = s.rcx → t.rdx = s.rdx →
      t.rsp = word (s.rsp - 48#64) 0 → t.wr = s.wr → Env s.mem s.rsi (k + 1) (s.rsp - 48#64) 6 0 @ro t.mem →
      From Asm.bignumMontsqr 9 t fun s' => (∃ zs, Holds s'.mem s.rsi zs ∧ zs.length = k + 1 ∧ val zs < val m ∧
        val zs * 2 ^ (64 * (k + 1)) % val m = val x * val x % val m) ∧
      Env s.mem s.rsi (k + 1) (s.rsp - 48#64) 6 0 @ro s'.mem := by
    intro t tdi tsi tcx tdx tsp twr E
    have hM0 := E.get (p := s.rcx) (ws := m) (by simp) (i := 0) (by omega)
    rw [word_zero] at hM0
    xstep [tdx]
    xstep [tcx, hM0]
    xstep []
    xstep []
    xstep [St.shift, St.shiftFlags, BitVec.toNat_ofNat, Nat.reducePow, Nat.reduceMod, OfNat.ofNat_ne_zero, if_false]
    iterate 20 xstep []
    xstep []
    xstep []
    exact zeroed _ ⟨tdi, tsi, rfl, rfl, rfl, tsp, twr, E⟩ rfl rfl'''.replace('@ro', d['ro'])]
    st += ['  generalize hbb : s.rsp - 48#64 = b at *', '  xstep []']
    for i in range(6):
        st.append(f'  xstep [{"hsp, " if i==0 else ""}word_sub8, hS {5-i} (by omega)]')
    st += ['  xstep [hdi, ofNat_beq_zero (i := k + 1) (by omega)]', '  xfall [decide_eq_false (Nat.succ_ne_zero k)]',
           '  exact start _ rfl rfl rfl rfl rfl rfl E6']
    d['start'] = '\n'.join(st)
    return d

RFRAME = FRAME.replace('  r9 : t.r9 = s.rdx\n', '  r9 : t.r9 = BitVec.ofNat 64 p\n').replace('(k : Nat) (@xy m : Words)', '(k p : Nat) (@xy m : Words)')

RREST = r'''/-- The reduction by one word; the next word of `x` comes in. -/
theorem @name_red {s : St} {k p : Nat} {x m z : Words} {Q : St → Prop} (hk : k + 1 < 2 ^ 61) (hx : x.length < 2 ^ 61) (hm : m.length = k + 1)
    (hz : z.length = k + 1) (hZ : s.Owns s.rsi (k + 1)) (ho : (wd m 0).toNat % 2 = 1)
    (ha : ∀ p ∈ @ro, Apart s.rsi (k + 1) p.1 p.2.length)
    {i : Nat} (hi : i < 2 ^ 61) {v : Word}
    (hQ : ∀ t zs q top, @F s (k + 1) p x m t → t.r10 = BitVec.ofNat 64 x.length → t.r14 = BitVec.ofNat 64 i → t.r15 = top →
      Holds t.mem s.rsi zs → zs.length = k + 1 → q < 2 ^ 64 →
      2 ^ 64 * (val zs + 2 ^ (64 * (k + 1)) * top.toNat) =
        val z + 2 ^ (64 * (k + 1)) * v.toNat + q * val m + 2 ^ (64 * (k + 1)) * (wd x (k + 1 + i)).toNat →
      From @P @inc t Q)
    {t : St} (F : @F s (k + 1) p x m t) (h10 : t.r10 = BitVec.ofNat 64 x.length) (h14 : t.r14 = BitVec.ofNat 64 i) (h15 : t.r15 = v)
    (h : Holds t.mem s.rsi z) : From @P @red t Q := by
  have done : ∀ (t : St) us h c q j, j = k → @F s (k + 1) p x m t → t.r10 = BitVec.ofNat 64 x.length → t.r14 = BitVec.ofNat 64 i →
      t.r15 = v → t.rbx = BitVec.ofNat 64 (j + 1) →
      t.r11 = h → t.cf = some c → Holds t.mem s.rsi (us ++ z.drop j) → q < 2 ^ 64 → RowOf z m q (j + 1) (0#64 :: us) h.toNat c →
      From @P @rend t Q := by
    rintro t us h c q j rfl F h10 h14 h15 hb h11 hc hh hq D
    have hl := D.len
    rw [List.length_cons, Nat.add_right_cancel_iff] at hl
    have hv := D.down hz hm v
    xstep [h11, hc, h15]
    xstep []
    xstep []
    xstep [hb, h14, add_ofNat]
    have hlt := sub_lt_ofNat (i := j + 1 + i) (j := x.length) (by omega) (by omega)
    xstep [h10, hlt]
    have z2 : adcv 0#64 0#64 (adcc h v c) = if adcc h v c then 1#64 else 0#64 := by cases adcc h v c <;> rfl
    by_cases hn : j + 1 + i < x.length
    · xfall [decide_eq_true hn, Bool.not_true]
      have hX := F.env.get (p := s.rcx) (ws := x) (by simp) (i := j + 1 + i) hn
      have hs := hh.over hl (by omega) (by omega) (adcv (adcv h v c) (wd x (j + 1 + i)) false)
      rw [List.drop_of_length_le (by omega), List.append_nil] at hs
      have he := F.env.store ha (Nat.lt_succ_self _) (adcv (adcv h v c) (wd x (j + 1 + i)) false)
      xstep [F.rcx, hX]
      xstep []
      xstep []
      xstep [F.rsi, F.rdi, word_pred, F.wr, hZ _ (Nat.lt_succ_self _)]
      refine hQ _ _ q _ (by fr F) rfl rfl rfl hs (by simp [hl]) hq ?_
      have h1 := adc_val (adcv h v c) (wd x (j + 1 + i)) false
      have h2 : (adcv (adcv 0#64 0#64 (adcc h v c)) 0#64 (adcc (adcv h v c) (wd x (j + 1 + i)) false)).toNat =
          (adcc h v c).toNat + (adcc (adcv h v c) (wd x (j + 1 + i)) false).toNat := by
        cases adcc h v c <;> cases adcc (adcv h v c) (wd x (j + 1 + i)) false <;> rfl
      rw [h2]
      rw [val_snoc, hl] at hv ⊢
      have e : 2 ^ (64 * (j + 1)) = 2 ^ (64 * j) * 2 ^ 64 := by rw [Nat.mul_add, Nat.pow_add]
      rw [e] at hv ⊢
      simp only [Bool.toNat_false, Nat.add_zero] at h1
      generalize 2 ^ (64 * j) = B at *
      zify at *
      linear_combination hv + 2 ^ 64 * (B : Int) * h1
    · xtake [decide_eq_false hn, Bool.not_false]
      have hs := hh.over hl (by omega) (by omega) (adcv h v c)
      rw [List.drop_of_length_le (by omega), List.append_nil] at hs
      have he := F.env.store ha (Nat.lt_succ_self _) (adcv h v c)
      xstep [F.rsi, F.rdi, word_pred, F.wr, hZ _ (Nat.lt_succ_self _)]
      refine hQ _ _ q _ (by fr F) rfl rfl rfl hs (by simp [hl]) hq ?_
      have h2 : (adcv 0#64 0#64 (adcc h v c)).toNat = (adcc h v c).toNat := by cases adcc h v c <;> rfl
      have e0 : (0#64).toNat = 0 := rfl
      rw [h2, wd_ge (by omega), e0]
      generalize 2 ^ (64 * (j + 1)) = B at *
      zify at *
      linear_combination hv
  have h0 := h.wd (i := 0) (by omega)
  have hM0 := F.env.get (p := s.@m) (ws := m) (by simp) (i := 0) (by omega)
  @getw
  rw [word_zero] at h0 hM0
  xstep [F.rsi, h0]
  xstep [@ldw]
  xstep []
  xstep [F.@m, hM0]
  xstep []
  xstep []
  xstep []
  xstep []
  xstep [F.rdi]
  xstep [ofNat_beq_zero (i := k) (by omega)]
  have D := RowOf.first z m (winv (wd m 0) * wd z 0)
  rw [red_zero ho] at D
  by_cases hk0 : k = 0
  · xtake [decide_eq_true hk0]
    subst hk0
    exact done _ [] _ _ _ 0 rfl (by fr F) h10 h14 h15 rfl rfl rfl h (BitVec.isLt _) D
  xfall [decide_eq_false hk0]
  refine From.loop (fun n t => ∃ j us c h, j + n = k ∧ 0 < n ∧ @F s (k + 1) p x m t ∧ t.r10 = BitVec.ofNat 64 x.length ∧
      t.r14 = BitVec.ofNat 64 i ∧ t.r15 = v ∧
      t.rbx = BitVec.ofNat 64 (j + 1) ∧ t.r13 = BitVec.ofNat 64 n ∧ t.rbp = winv (wd m 0) * wd z 0 ∧
      t.r11 = h ∧ t.cf = some c ∧ Holds t.mem s.rsi (us ++ z.drop j) ∧
      RowOf z m (winv (wd m 0) * wd z 0).toNat (j + 1) (0#64 :: us) h.toNat c) ?_ k _
    ⟨0, [], _, _, by omega, by omega, by fr F, h10, h14, h15, rfl, rfl, rfl, rfl, rfl, h, D⟩
  rintro n t ⟨j, us, c, h, hin, hn, F, h10, h14, h15, hb, h13, hbp, h11, hc, hh, D⟩ ih
  obtain ⟨n, rfl⟩ : ∃ j, n = j + 1 := ⟨n - 1, by omega⟩
  have hl : us.length = j := by simpa using D.len
  have hM := F.env.get (p := s.@m) (ws := m) (by simp) (i := j + 1) (by omega)
  have hX : t.mem (word s.rsi (j + 1)) = some (wd z (j + 1)) := hh.drop_wd hl (by omega) (by omega)
  have D' := D.step
  xstep [F.rsi, hb, hX, h11, hc]
  xstep [sbb_self]
  xstep [F.@m, hM]
  xstep [hbp]
  xstep []
  xstep []
  xstep [word_pred, F.wr, hZ j (by omega)]
  xstep []
  xstep []
  xstep [h13, ofNat_beq_zero (i := n) (by omega)]
  have hs := hh.over hl (by omega) (by omega)
    (adcv (mullo (wd m (j + 1)) (winv (wd m 0) * wd z 0)) (adcv h (wd z (j + 1)) c) false)
  have he := F.env.store ha (i := j) (by omega)
    (adcv (mullo (wd m (j + 1)) (winv (wd m 0) * wd z 0)) (adcv h (wd z (j + 1)) c) false)
  by_cases hm' : n = 0
  · xfall [decide_eq_true hm', Bool.not_true]
    exact done _ _ _ _ _ (j + 1) (by omega) (by fr F) h10 h14 h15 rfl rfl rfl hs (BitVec.isLt _) D'
  · xtake [decide_eq_false hm', Bool.not_false]
    exact ih n (by omega) _ ⟨j + 1, _, _, _, by omega, by omega, by fr F, h10, h14, h15, rfl, rfl, rfl, rfl, rfl, hs, D'⟩

theorem redc_step {B C z q M x w y u : Nat} (hW : B * z = x + u * M)
    (h : 2 ^ 64 * y = z + q * M + C * w) (hq : q < 2 ^ 64) (hu : u < B) :
    B * 2 ^ 64 * y = x + B * C * w + (u + B * q) * M ∧ u + B * q < B * 2 ^ 64 := by
  constructor
  · zify at *
    linear_combination hW + (B : Int) * h
  · have : B * (q + 1) ≤ B * 2 ^ 64 := Nat.mul_le_mul_left B hq
    rw [Nat.mul_add] at this
    omega

set_option maxHeartbeats 400000 in
theorem @name_ok (s : St) (x m : Words) (k p : Nat) (hk : k < 2 ^ 61) (hx : x.length < 2 ^ 61) (hp : p < 2 ^ 61) (hn : x.length ≤ p + k)
    (hm : m.length = k) (ho : val m % 2 = 1) (hb' : val x ≤ 2 ^ (64 * p) * val m)
    (hdi : s.rdi = BitVec.ofNat 64 k) (hdx : s.rdx = BitVec.ofNat 64 x.length) (h9 : s.r9 = BitVec.ofNat 64 p)
    (hZ : s.Owns s.rsi k) (hS : s.Owns (@b) @n)
    (hi : ∀ p ∈ @ri, Holds s.mem p.1 p.2) (ha : ∀ p ∈ @ri, Apart s.rsi k p.1 p.2.length)
    (hb : ∀ p ∈ @ri, Apart (@b) @n p.1 p.2.length)@hzs :
    Runs @P s fun s' => (∃ zs, Holds s'.mem s.rsi zs ∧ zs.length = k ∧ val zs < val m ∧
        val zs * 2 ^ (64 * p) % val m = val x % val m) ∧
      Env s.mem s.rsi k (@b) @n 0 @ro s'.mem := by
  obtain ⟨k, rfl⟩ : ∃ j, k = j + 1 := ⟨k - 1, by
    have : k ≠ 0 := by
      rintro rfl
      rw [List.eq_nil_of_length_eq_zero hm] at ho
      simp [val] at ho
    omega⟩
@exta
  have hmp : 0 < val m := by omega
  have final : ∀ t z u top, @F s (k + 1) p x m t → t.r15 = top → Holds t.mem s.rsi z → z.length = k + 1 →
      2 ^ (64 * p) * (val z + 2 ^ (64 * (k + 1)) * top.toNat) = val x + u * val m → u < 2 ^ (64 * p) →
      From @P @cmp t fun s' => (∃ zs, Holds s'.mem s.rsi zs ∧ zs.length = k + 1 ∧ val zs < val m ∧
        val zs * 2 ^ (64 * p) % val m = val x % val m) ∧
      Env s.mem s.rsi (k + 1) (@b) @n 0 @ro s'.mem := by
    intro t z u top F h15 hz hl hv hu
    refine @name_cmp (R := fun zs => zs.length = k + 1 ∧ val zs < val m ∧ val zs * 2 ^ (64 * p) % val m = val x % val m)
      hk (by omega) hm hl hZ ha ?_ F hz h15
    intro us c D
    exact mont_final (top := top.toNat) hu hb' hv hl hm rfl hmp rfl D
  have outer : ∀ t z, @F s (k + 1) p x m t → t.r10 = BitVec.ofNat 64 x.length → Holds t.mem s.rsi z → z.length = k + 1 →
      val z = val (x.take (k + 1)) →
      From @P 54 t fun s' => (∃ zs, Holds s'.mem s.rsi zs ∧ zs.length = k + 1 ∧ val zs < val m ∧
        val zs * 2 ^ (64 * p) % val m = val x % val m) ∧
      Env s.mem s.rsi (k + 1) (@b) @n 0 @ro s'.mem := by
    intro t z F h10 hz hl hv
    xstep []
    xstep [F.r9, ofNat_beq_zero (i := p) (by omega)]
    by_cases hp0 : p = 0
    · xtake [decide_eq_true hp0]
      refine final _ z 0 0#64 (by fr F) rfl hz hl ?_ (Nat.two_pow_pos _)
      rw [hv, List.take_of_length_le (by omega)]
      subst hp0
      simp
    xfall [decide_eq_false hp0]
    xstep []
    refine From.loop (fun n t => ∃ j z u top, j + n = p ∧ 0 < n ∧ @F s (k + 1) p x m t ∧ t.r10 = BitVec.ofNat 64 x.length ∧
      t.r14 = BitVec.ofNat 64 j ∧ t.r15 = top ∧ Holds t.mem s.rsi z ∧ z.length = k + 1 ∧
      2 ^ (64 * j) * (val z + 2 ^ (64 * (k + 1)) * top.toNat) = val (x.take (k + 1 + j)) + u * val m ∧ u < 2 ^ (64 * j)) ?_ p _
      ⟨0, z, 0, _, by omega, by omega, by fr F, h10, rfl, rfl, hz, hl, by simp [hv], by simp⟩
    rintro n t ⟨j, z, u, top, hn, hn', F, h10, h14, h15, hz, hl, hv, hu⟩ ih
    refine @name_red hk hx hm hl hZ (odd_wd ho) ha (i := j) (by omega) ?_ F h10 h14 h15 hz
    intro t zs q top F h10 h14 h15 hz hl hq hv2
    have hs := redc_step hv hv2 hq hu
    have e1 : 2 ^ (64 * j) * 2 ^ (64 * (k + 1)) = 2 ^ (64 * (k + 1 + j)) := by rw [← Nat.pow_add]; congr 1; omega
    have e2 : 2 ^ (64 * j) * 2 ^ 64 = 2 ^ (64 * (j + 1)) := by rw [← Nat.pow_add]; congr 1
    rw [e1, e2, ← val_take_succ', Nat.add_assoc (k + 1) j 1] at hs
    obtain ⟨hv, hu⟩ := hs
    xstep [h14]
    xstep [F.r9, sub_lt_ofNat (i := j + 1) (j := p) (by omega) (by omega)]
    by_cases h : j + 1 < p
    · xtake [decide_eq_true h]
      exact ih (n - 1) (by omega) _ ⟨j + 1, zs, _, top, by omega, by omega, by fr F, h10, rfl, h15, hz, hl, hv, hu⟩
    · xfall [decide_eq_false h]
      have e : j + 1 = p := by omega
      rw [List.take_of_length_le (by omega), e] at hv
      rw [e] at hu
      exact final _ zs _ top (by fr F) h15 hz hl hv hu
  have zeroed : ∀ t i, min x.length (k + 1) ≤ i → i < k + 1 → @F s (k + 1) p x m t → t.r10 = BitVec.ofNat 64 x.length →
      t.r14 = BitVec.ofNat 64 i → t.rbx = 0#64 → Holds t.mem s.rsi (x.take (k + 1) ++ List.replicate (i - min x.length (k + 1)) 0#64) →
      From @P 50 t fun s' => (∃ zs, Holds s'.mem s.rsi zs ∧ zs.length = k + 1 ∧ val zs < val m ∧
        val zs * 2 ^ (64 * p) % val m = val x % val m) ∧
      Env s.mem s.rsi (k + 1) (@b) @n 0 @ro s'.mem := by
    intro t i hi0 hi F h10 h14 hbx hh
    refine From.loop (fun n t => ∃ i, i + n = k + 1 ∧ 0 < n ∧ min x.length (k + 1) ≤ i ∧ @F s (k + 1) p x m t ∧
        t.r10 = BitVec.ofNat 64 x.length ∧ t.r14 = BitVec.ofNat 64 i ∧ t.rbx = 0#64 ∧
        Holds t.mem s.rsi (x.take (k + 1) ++ List.replicate (i - min x.length (k + 1)) 0#64)) ?_ (k + 1 - i) _
      ⟨i, by omega, by omega, hi0, F, h10, h14, hbx, hh⟩
    rintro n t ⟨i, hn, hn', hi, F, h10, h14, hb, hh⟩ ih
    have hlen : (x.take (k + 1) ++ List.replicate (i - min x.length (k + 1)) 0#64).length = i := by
      simp only [List.length_append, List.length_take, List.length_replicate]
      omega
    have hs := hh.snoc (by omega) hlen.symm 0#64
    rw [List.append_assoc, ← List.replicate_succ', show i - min x.length (k + 1) + 1 = i + 1 - min x.length (k + 1) by omega] at hs
    have he := F.env.store ha (i := i) (by omega) 0#64
    xstep [F.rsi, h14, hb, F.wr, hZ i (by omega)]
    xstep []
    xstep [F.rdi, sub_lt_ofNat (i := i + 1) (j := k + 1) (by omega) (by omega)]
    by_cases h : i + 1 < k + 1
    · xtake [decide_eq_true h]
      exact ih (n - 1) (by omega) _ ⟨i + 1, by omega, by omega, by omega, by fr F, h10, rfl, rfl, hs⟩
    · xfall [decide_eq_false h]
      refine outer _ _ (by fr F) h10 hs ?_ ?_
      · simp only [List.length_append, List.length_take, List.length_replicate]
        omega
      · rw [val_append, val_zeros, Nat.mul_zero, Nat.add_zero]
  have copied : ∀ t, @F s (k + 1) p x m t → t.r10 = BitVec.ofNat 64 x.length →
      t.rbx = BitVec.ofNat 64 (min x.length (k + 1)) → t.r14 = 0#64 →
      From @P 40 t fun s' => (∃ zs, Holds s'.mem s.rsi zs ∧ zs.length = k + 1 ∧ val zs < val m ∧
        val zs * 2 ^ (64 * p) % val m = val x % val m) ∧
      Env s.mem s.rsi (k + 1) (@b) @n 0 @ro s'.mem := by
    intro t F h10 hbx h14
    xstep [hbx, ofNat_beq_zero (i := min x.length (k + 1)) (by omega)]
    by_cases h0 : min x.length (k + 1) = 0
    · xtake [decide_eq_true h0]
      have hx0 : x = [] := List.eq_nil_of_length_eq_zero (by omega)
      refine zeroed _ 0 (by omega) (by omega) (by fr F) h10 h14 (by simp only [h0]) ?_
      rw [hx0]
      exact Holds.nil _ _
    xfall [decide_eq_false h0]
    refine From.loop (fun n t => ∃ i, i + n = min x.length (k + 1) ∧ 0 < n ∧ @F s (k + 1) p x m t ∧ t.r10 = BitVec.ofNat 64 x.length ∧
        t.rbx = BitVec.ofNat 64 (min x.length (k + 1)) ∧ t.r14 = BitVec.ofNat 64 i ∧ Holds t.mem s.rsi (x.take i)) ?_ (min x.length (k + 1)) _
      ⟨0, by omega, by omega, by fr F, h10, rfl, h14, Holds.nil _ _⟩
    rintro n t ⟨i, hn, hn', F, h10, hb, h14, hh⟩ ih
    have hX := F.env.get (p := s.rcx) (ws := x) (by simp) (i := i) (by omega)
    have hs := hh.take_snoc (by omega) (by omega)
    have he := F.env.store ha (i := i) (by omega) (wd x i)
    xstep [F.rcx, h14, hX]
    xstep [F.rsi, F.wr, hZ i (by omega)]
    xstep []
    xstep [hb, sub_lt_ofNat (i := i + 1) (j := min x.length (k + 1)) (by omega) (by omega)]
    by_cases h : i + 1 < min x.length (k + 1)
    · xtake [decide_eq_true h]
      exact ih (n - 1) (by omega) _ ⟨i + 1, by omega, by omega, by fr F, h10, rfl, rfl, hs⟩
    · xfall [decide_eq_false h]
      have hs' := hs
      rw [show x.take (i + 1) = x.take (k + 1) by
        rw [List.take_eq_take_iff]
        omega] at hs
      xstep [F.rdi, sub_lt_ofNat (i := i + 1) (j := k + 1) (by omega) (by omega)]
      by_cases h' : i + 1 < k + 1
      · xfall [decide_eq_true h', Bool.not_true]
        xstep []
        refine zeroed _ (i + 1) (by omega) h' (by fr F) h10 rfl rfl ?_
        rw [show i + 1 - min x.length (k + 1) = 0 by omega, List.replicate_zero, List.append_nil]
        exact hs
      · xtake [decide_eq_false h', Bool.not_false]
        refine outer _ _ (by fr F) h10 hs ?_ rfl
        rw [List.length_take]
        omega
  apply runs_of_from
  have hsp : s.rsp = word (@b) @n := stack_top s @n
@start

end Verif.X86
'''

def redc():
    d = mul()
    d.update(name='montredc', F='MrFr', P='Asm.bignumMontredc', xy='x', mk='r12', cn='r10', tp='r15',
      ro='[(word (s.rsp - 56#64) 0, [winv (wd m 0)]), (s.rcx, x), (s.r8, m)]', ri='[(s.rcx, x), (s.r8, m)]',
      end='113', sub='103', cmp='93', inc='90', rend='80', red='58')
    old = mul()
    d['exta'] = d['exta'].replace(old['ro'], d['ro'])
    a, b = d['start'].index('  have start'), d['start'].index('  generalize hbb')
    d['start'] = d['start'][:a] + '''  have start : ∀ t, t.rdi = BitVec.ofNat 64 (k + 1) → t.rsi = s.rsi → t.rcx = s.rcx → t.r8 = s.r8 → t.rdx = BitVec.ofNat 64 x.length →
      t.r9 = BitVec.ofNat 64 p → t.rsp = word (s.rsp - 56#64) 0 → t.wr = s.wr → Env s.mem s.rsi (k + 1) (s.rsp - 56#64) 7 1 @ri t.mem →
      From Asm.bignumMontredc 10 t fun s' => (∃ zs, Holds s'.mem s.rsi zs ∧ zs.length = k + 1 ∧ val zs < val m ∧
        val zs * 2 ^ (64 * p) % val m = val x % val m) ∧
      Env s.mem s.rsi (k + 1) (s.rsp - 56#64) 7 0 @ro s'.mem := by
    intro t tdi tsi tcx t8 tdx t9 tsp twr E
    have hM0 := E.get (p := s.r8) (ws := m) (by simp) (i := 0) (by omega)
    rw [word_zero] at hM0
    xstep [tdx]
    xstep [t8, hM0]
    xstep []
    xstep []
    xstep [St.shift, St.shiftFlags, BitVec.toNat_ofNat, Nat.reducePow, Nat.reduceMod, OfNat.ofNat_ne_zero, if_false]
    iterate 20 xstep []
    xstep [tsp, twr, hS 0 (by omega)]
    xstep [tdi]
    xstep []
    xstep [cmov_min (i := x.length) (j := k + 1) (by omega) (by omega)]
    xstep []
    have E' := (E.push hb (by omega) (winv (wd m 0))).pushed (if_pos rfl)
    exact copied _ ⟨rfl, tsi, tcx, rfl, t9, rfl, rfl, E'⟩ rfl rfl rfl
'''.replace('@ro', d['ro']).replace('@ri', d['ri']) + d['start'][b:].replace('exact start _ rfl rfl rfl rfl rfl', 'exact start _ rfl rfl rfl rfl hdx h9')
    return d

for d in (mul(), sqr(), redc()):
    t = HEAD + FRAME + TAIL + REST if d['name'] != 'montredc' else HEAD + RFRAME + TAIL.replace('@F s k', '@F s k p').replace('{k : Nat}', '{k p : Nat}') + RREST
    for key in sorted(d, key=len, reverse=True):
        t = t.replace('@' + key, d[key])
    f = os.path.join(OUT, d['name'].capitalize() + '.lean')
    open(f, 'w').write(t)
