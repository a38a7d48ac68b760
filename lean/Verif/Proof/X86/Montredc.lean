import Verif.Proof.X86.Env
import Verif.Model.AsmX86.Mont

/-! `bignum_montredc`.  Written by tools/gen_montx86.py. -/
namespace Verif.X86
open Verif

/-- What stays the same during the run. -/
structure MrFr (s : St) (k p : Nat) (x m : Words) (t : St) : Prop where
  rdi : t.rdi = BitVec.ofNat 64 k
  rsi : t.rsi = s.rsi
  rcx : t.rcx = s.rcx
  r8 : t.r8 = s.r8
  r9 : t.r9 = BitVec.ofNat 64 p
  rsp : t.rsp = word (s.rsp - 56#64) 0
  wr : t.wr = s.wr
  env : Env s.mem s.rsi k (s.rsp - 56#64) 7 0 [(word (s.rsp - 56#64) 0, [winv (wd m 0)]), (s.rcx, x), (s.r8, m)] t.mem

local macro "fr" h:ident : tactic => `(tactic| exact ⟨by first | with_reducible rfl | exact (MrFr.rdi $h :),
  by first | with_reducible rfl | exact (MrFr.rsi $h :),
  by first | with_reducible rfl | exact (MrFr.rcx $h :),
  by first | with_reducible rfl | exact (MrFr.r8 $h :),
  by first | with_reducible rfl | exact (MrFr.r9 $h :),
  by first | with_reducible rfl | exact (MrFr.rsp $h :),
  by first | with_reducible rfl | exact (MrFr.wr $h :),
  by first | assumption | exact (MrFr.env $h :)⟩)

theorem montredc_end {s t : St} {k p : Nat} {x m us : Words} {R : Words → Prop} (F : MrFr s k p x m t) (h : Holds t.mem s.rsi us)
    (hR : R us) : From Asm.bignumMontredc 113 t fun s' => (∃ zs, Holds s'.mem s.rsi zs ∧ R zs) ∧
      Env s.mem s.rsi k (s.rsp - 56#64) 7 0 [(word (s.rsp - 56#64) 0, [winv (wd m 0)]), (s.rcx, x), (s.r8, m)] s'.mem := by
  obtain ⟨v1, h1⟩ := F.env.st 1 (by omega) (by omega)
  obtain ⟨v2, h2⟩ := F.env.st 2 (by omega) (by omega)
  obtain ⟨v3, h3⟩ := F.env.st 3 (by omega) (by omega)
  obtain ⟨v4, h4⟩ := F.env.st 4 (by omega) (by omega)
  obtain ⟨v5, h5⟩ := F.env.st 5 (by omega) (by omega)
  obtain ⟨v6, h6⟩ := F.env.st 6 (by omega) (by omega)
  xstep [F.rsp, word_add8]
  xstep [h1, word_plus8]
  xstep [h2, word_plus8]
  xstep [h3, word_plus8]
  xstep [h4, word_plus8]
  xstep [h5, word_plus8]
  xstep [h6, word_plus8]
  exact From.halt rfl ⟨⟨us, h, hR⟩, F.env⟩

theorem montredc_sub {s : St} {k p : Nat} {x m z : Words} {R : Words → Prop} {T : Bool} (hk : k < 2 ^ 61) (h0 : 0 < k) (hm : m.length = k)
    (hz : z.length = k) (hZ : s.Owns s.rsi k) (ha : ∀ p ∈ [(word (s.rsp - 56#64) 0, [winv (wd m 0)]), (s.rcx, x), (s.r8, m)], Apart s.rsi k p.1 p.2.length)
    (hR : ∀ us c, DiffOf z (opt T m) k us c → R us)
    {t : St} (F : MrFr s k p x m t) (h : Holds t.mem s.rsi z) (hT : t.rbp = msk T) :
    From Asm.bignumMontredc 103 t fun s' => (∃ zs, Holds s'.mem s.rsi zs ∧ R zs) ∧
      Env s.mem s.rsi k (s.rsp - 56#64) 7 0 [(word (s.rsp - 56#64) 0, [winv (wd m 0)]), (s.rcx, x), (s.r8, m)] s'.mem := by
  xstep []
  xstep []
  refine From.loop (fun n t => ∃ i us c, i + n = k ∧ 0 < n ∧ MrFr s k p x m t ∧ t.rbp = msk T ∧ t.rbx = BitVec.ofNat 64 i ∧ t.r12 = msk c ∧
      Holds t.mem s.rsi (us ++ z.drop i) ∧ DiffOf z (opt T m) i us c) ?_ k _
    ⟨0, [], false, by omega, h0, by fr F, hT, rfl, rfl, h, DiffOf.init _ _⟩
  rintro n t ⟨i, us, c, hin, hn, F, hT, hb, hmk, hh, D⟩ ih
  have hM := F.env.get (p := s.r8) (ws := m) (by simp) (i := i) (by omega)
  have hX := hh.over_wd D.len (by omega)
  have hs := hh.over D.len (by omega) (by omega) (sbbv (wd z i) (wd (opt T m) i) c)
  have D' := D.step
  have he := F.env.store ha (i := i) (by omega) (sbbv (wd z i) (wd (opt T m) i) c)
  xstep [F.r8, hb, hM]
  xstep [hT, ← wd_opt]
  xstep [hmk, neg_cf, msk_ne]
  xstep [F.rsi, hX, F.wr, hZ i (by omega)]
  xstep [sbb_self]
  xstep []
  xstep [F.rdi, sub_lt_ofNat (i := i + 1) (j := k) (by omega) (by omega)]
  by_cases hm' : i + 1 < k
  · xtake [decide_eq_true hm']
    exact ih (n - 1) (by omega) _ ⟨i + 1, _, _, by omega, by omega, by fr F, rfl, rfl, rfl, hs, D'⟩
  · xfall [decide_eq_false hm']
    have e : i + 1 = k := by omega
    rw [e, List.drop_of_length_le (by omega), List.append_nil] at hs
    rw [e] at D'
    exact montredc_end (by fr F) hs (hR _ _ D')

theorem montredc_cmp {s : St} {k p : Nat} {x m z : Words} {R : Words → Prop} {top : Word} (hk : k < 2 ^ 61) (h0 : 0 < k) (hm : m.length = k)
    (hz : z.length = k) (hZ : s.Owns s.rsi k) (ha : ∀ p ∈ [(word (s.rsp - 56#64) 0, [winv (wd m 0)]), (s.rcx, x), (s.r8, m)], Apart s.rsi k p.1 p.2.length)
    (hR : ∀ us c, DiffOf z (opt (decide (val m ≤ val z + 2 ^ (64 * k) * top.toNat)) m) k us c → R us)
    {t : St} (F : MrFr s k p x m t) (h : Holds t.mem s.rsi z) (ht : t.r15 = top) :
    From Asm.bignumMontredc 93 t fun s' => (∃ zs, Holds s'.mem s.rsi zs ∧ R zs) ∧
      Env s.mem s.rsi k (s.rsp - 56#64) 7 0 [(word (s.rsp - 56#64) 0, [winv (wd m 0)]), (s.rcx, x), (s.r8, m)] s'.mem := by
  xstep []
  xstep [F.rdi]
  refine From.loop (fun n t => ∃ i us c, i + n = k ∧ 0 < n ∧ MrFr s k p x m t ∧ t.r15 = top ∧ t.rbx = BitVec.ofNat 64 i ∧
      t.r10 = BitVec.ofNat 64 n ∧ t.cf = some c ∧ Holds t.mem s.rsi z ∧ DiffOf z m i us c) ?_ k _
    ⟨0, [], false, by omega, h0, by fr F, ht, rfl, rfl, rfl, h, DiffOf.init _ _⟩
  rintro n t ⟨i, us, c, hin, hn, F, ht, hb, hcn, hc, hh, D⟩ ih
  obtain ⟨n, rfl⟩ : ∃ j, n = j + 1 := ⟨n - 1, by omega⟩
  have hM := F.env.get (p := s.r8) (ws := m) (by simp) (i := i) (by omega)
  have hX := hh.wd (i := i) (by omega)
  have D' := D.step
  xstep [F.rsi, hb, hX]
  xstep [F.r8, hM, hc]
  xstep []
  xstep [hcn, ofNat_beq_zero (i := n) (by omega)]
  by_cases hm' : n = 0
  · xfall [decide_eq_true hm', Bool.not_true]
    have e : i + 1 = k := by omega
    rw [e] at D'
    xstep [ht]
    xstep [sbb_self]
    xstep []
    refine montredc_sub hk h0 hm hz hZ ha hR (by fr F) hh ?_
    show ~~~ msk _ = _
    rw [D'.top_lt hz hm]
    cases decide (val m ≤ val z + 2 ^ (64 * k) * top.toNat) <;> rfl
  · xtake [decide_eq_false hm', Bool.not_false]
    exact ih n (by omega) _ ⟨i + 1, _, _, by omega, by omega, by fr F, ht, rfl, rfl, rfl, hh, D'⟩

/-- The reduction by one word; the next word of `x` comes in. -/
theorem montredc_red {s : St} {k p : Nat} {x m z : Words} {Q : St → Prop} (hk : k + 1 < 2 ^ 61) (hx : x.length < 2 ^ 61) (hm : m.length = k + 1)
    (hz : z.length = k + 1) (hZ : s.Owns s.rsi (k + 1)) (ho : (wd m 0).toNat % 2 = 1)
    (ha : ∀ p ∈ [(word (s.rsp - 56#64) 0, [winv (wd m 0)]), (s.rcx, x), (s.r8, m)], Apart s.rsi (k + 1) p.1 p.2.length)
    {i : Nat} (hi : i < 2 ^ 61) {v : Word}
    (hQ : ∀ t zs q top, MrFr s (k + 1) p x m t → t.r10 = BitVec.ofNat 64 x.length → t.r14 = BitVec.ofNat 64 i → t.r15 = top →
      Holds t.mem s.rsi zs → zs.length = k + 1 → q < 2 ^ 64 →
      2 ^ 64 * (val zs + 2 ^ (64 * (k + 1)) * top.toNat) =
        val z + 2 ^ (64 * (k + 1)) * v.toNat + q * val m + 2 ^ (64 * (k + 1)) * (wd x (k + 1 + i)).toNat →
      From Asm.bignumMontredc 90 t Q)
    {t : St} (F : MrFr s (k + 1) p x m t) (h10 : t.r10 = BitVec.ofNat 64 x.length) (h14 : t.r14 = BitVec.ofNat 64 i) (h15 : t.r15 = v)
    (h : Holds t.mem s.rsi z) : From Asm.bignumMontredc 58 t Q := by
  have done : ∀ (t : St) us h c q j, j = k → MrFr s (k + 1) p x m t → t.r10 = BitVec.ofNat 64 x.length → t.r14 = BitVec.ofNat 64 i →
      t.r15 = v → t.rbx = BitVec.ofNat 64 (j + 1) →
      t.r11 = h → t.cf = some c → Holds t.mem s.rsi (us ++ z.drop j) → q < 2 ^ 64 → RowOf z m q (j + 1) (0#64 :: us) h.toNat c →
      From Asm.bignumMontredc 80 t Q := by
    rintro t us h c q j rfl F h10 h14 h15 hb h11 hc hh hq D
    have hl := D.len
    rw [List.length_cons, Nat.add_right_cancel_iff] at hl
    have hv := D.down hz hm v
    xstep [h11, hc, h15]
    xstep []
    xstep []
    xstep [hb, h14, add_ofNat]
    have hlt := sub_lt_ofNat (i := j + 1 + i) (j := x.length) (by omega) (by omega)
    xstep [h10, hlt]
    have z2 : adcv 0#64 0#64 (adcc h v c) = if adcc h v c then 1#64 else 0#64 := by cases adcc h v c <;> rfl
    by_cases hn : j + 1 + i < x.length
    · xfall [decide_eq_true hn, Bool.not_true]
      have hX := F.env.get (p := s.rcx) (ws := x) (by simp) (i := j + 1 + i) hn
      have hs := hh.over hl (by omega) (by omega) (adcv (adcv h v c) (wd x (j + 1 + i)) false)
      rw [List.drop_of_length_le (by omega), List.append_nil] at hs
      have he := F.env.store ha (Nat.lt_succ_self _) (adcv (adcv h v c) (wd x (j + 1 + i)) false)
      xstep [F.rcx, hX]
      xstep []
      xstep []
      xstep [F.rsi, F.rdi, word_pred, F.wr, hZ _ (Nat.lt_succ_self _)]
      refine hQ _ _ q _ (by fr F) rfl rfl rfl hs (by simp [hl]) hq ?_
      have h1 := adc_val (adcv h v c) (wd x (j + 1 + i)) false
      have h2 : (adcv (adcv 0#64 0#64 (adcc h v c)) 0#64 (adcc (adcv h v c) (wd x (j + 1 + i)) false)).toNat =
          (adcc h v c).toNat + (adcc (adcv h v c) (wd x (j + 1 + i)) false).toNat := by
        cases adcc h v c <;> cases adcc (adcv h v c) (wd x (j + 1 + i)) false <;> rfl
      rw [h2]
      rw [val_snoc, hl] at hv ⊢
      have e : 2 ^ (64 * (j + 1)) = 2 ^ (64 * j) * 2 ^ 64 := by rw [Nat.mul_add, Nat.pow_add]
      rw [e] at hv ⊢
      simp only [Bool.toNat_false, Nat.add_zero] at h1
      generalize 2 ^ (64 * j) = B at *
      zify at *
      linear_combination hv + 2 ^ 64 * (B : Int) * h1
    · xtake [decide_eq_false hn, Bool.not_false]
      have hs := hh.over hl (by omega) (by omega) (adcv h v c)
      rw [List.drop_of_length_le (by omega), List.append_nil] at hs
      have he := F.env.store ha (Nat.lt_succ_self _) (adcv h v c)
      xstep [F.rsi, F.rdi, word_pred, F.wr, hZ _ (Nat.lt_succ_self _)]
      refine hQ _ _ q _ (by fr F) rfl rfl rfl hs (by simp [hl]) hq ?_
      have h2 : (adcv 0#64 0#64 (adcc h v c)).toNat = (adcc h v c).toNat := by cases adcc h v c <;> rfl
      have e0 : (0#64).toNat = 0 := rfl
      rw [h2, wd_ge (by omega), e0]
      generalize 2 ^ (64 * (j + 1)) = B at *
      zify at *
      linear_combination hv
  have h0 := h.wd (i := 0) (by omega)
  have hM0 := F.env.get (p := s.r8) (ws := m) (by simp) (i := 0) (by omega)
  have hw := F.env.get (p := word (s.rsp - 56#64) 0) (ws := [winv (wd m 0)]) (by simp) (i := 0) (by simp)
  rw [word_zero] at hw
  have hw : t.mem (word (s.rsp - 56#64) 0) = some (winv (wd m 0)) := hw
  rw [word_zero] at h0 hM0
  xstep [F.rsi, h0]
  xstep [F.rsp, hw]
  xstep []
  xstep [F.r8, hM0]
  xstep []
  xstep []
  xstep []
  xstep []
  xstep [F.rdi]
  xstep [ofNat_beq_zero (i := k) (by omega)]
  have D := RowOf.first z m (winv (wd m 0) * wd z 0)
  rw [red_zero ho] at D
  by_cases hk0 : k = 0
  · xtake [decide_eq_true hk0]
    subst hk0
    exact done _ [] _ _ _ 0 rfl (by fr F) h10 h14 h15 rfl rfl rfl h (BitVec.isLt _) D
  xfall [decide_eq_false hk0]
  refine From.loop (fun n t => ∃ j us c h, j + n = k ∧ 0 < n ∧ MrFr s (k + 1) p x m t ∧ t.r10 = BitVec.ofNat 64 x.length ∧
      t.r14 = BitVec.ofNat 64 i ∧ t.r15 = v ∧
      t.rbx = BitVec.ofNat 64 (j + 1) ∧ t.r13 = BitVec.ofNat 64 n ∧ t.rbp = winv (wd m 0) * wd z 0 ∧
      t.r11 = h ∧ t.cf = some c ∧ Holds t.mem s.rsi (us ++ z.drop j) ∧
      RowOf z m (winv (wd m 0) * wd z 0).toNat (j + 1) (0#64 :: us) h.toNat c) ?_ k _
    ⟨0, [], _, _, by omega, by omega, by fr F, h10, h14, h15, rfl, rfl, rfl, rfl, rfl, h, D⟩
  rintro n t ⟨j, us, c, h, hin, hn, F, h10, h14, h15, hb, h13, hbp, h11, hc, hh, D⟩ ih
  obtain ⟨n, rfl⟩ : ∃ j, n = j + 1 := ⟨n - 1, by omega⟩
  have hl : us.length = j := by simpa using D.len
  have hM := F.env.get (p := s.r8) (ws := m) (by simp) (i := j + 1) (by omega)
  have hX : t.mem (word s.rsi (j + 1)) = some (wd z (j + 1)) := hh.drop_wd hl (by omega) (by omega)
  have D' := D.step
  xstep [F.rsi, hb, hX, h11, hc]
  xstep [sbb_self]
  xstep [F.r8, hM]
  xstep [hbp]
  xstep []
  xstep []
  xstep [word_pred, F.wr, hZ j (by omega)]
  xstep []
  xstep []
  xstep [h13, ofNat_beq_zero (i := n) (by omega)]
  have hs := hh.over hl (by omega) (by omega)
    (adcv (mullo (wd m (j + 1)) (winv (wd m 0) * wd z 0)) (adcv h (wd z (j + 1)) c) false)
  have he := F.env.store ha (i := j) (by omega)
    (adcv (mullo (wd m (j + 1)) (winv (wd m 0) * wd z 0)) (adcv h (wd z (j + 1)) c) false)
  by_cases hm' : n = 0
  · xfall [decide_eq_true hm', Bool.not_true]
    exact done _ _ _ _ _ (j + 1) (by omega) (by fr F) h10 h14 h15 rfl rfl rfl hs (BitVec.isLt _) D'
  · xtake [decide_eq_false hm', Bool.not_false]
    exact ih n (by omega) _ ⟨j + 1, _, _, _, by omega, by omega, by fr F, h10, h14, h15, rfl, rfl, rfl, rfl, rfl, hs, D'⟩

theorem redc_step {B C z q M x w y u : Nat} (hW : B * z = x + u * M)
    (h : 2 ^ 64 * y = z + q * M + C * w) (hq : q < 2 ^ 64) (hu : u < B) :
    B * 2 ^ 64 * y = x + B * C * w + (u + B * q) * M ∧ u + B * q < B * 2 ^ 64 := by
  constructor
  · zify at *
    linear_combination hW + (B : Int) * h
  · have : B * (q + 1) ≤ B * 2 ^ 64 := Nat.mul_le_mul_left B hq
    rw [Nat.mul_add] at this
    omega

set_option maxHeartbeats 400000 in
theorem montredc_ok (s : St) (x m : Words) (k p : Nat) (hk : k < 2 ^ 61) (hx : x.length < 2 ^ 61) (hp : p < 2 ^ 61) (hn : x.length ≤ p + k)
    (hm : m.length = k) (ho : val m % 2 = 1) (hb' : val x ≤ 2 ^ (64 * p) * val m)
    (hdi : s.rdi = BitVec.ofNat 64 k) (hdx : s.rdx = BitVec.ofNat 64 x.length) (h9 : s.r9 = BitVec.ofNat 64 p)
    (hZ : s.Owns s.rsi k) (hS : s.Owns (s.rsp - 56#64) 7)
    (hi : ∀ p ∈ [(s.rcx, x), (s.r8, m)], Holds s.mem p.1 p.2) (ha : ∀ p ∈ [(s.rcx, x), (s.r8, m)], Apart s.rsi k p.1 p.2.length)
    (hb : ∀ p ∈ [(s.rcx, x), (s.r8, m)], Apart (s.rsp - 56#64) 7 p.1 p.2.length)
    (hsz : Apart s.rsi k (s.rsp - 56#64) 7) :
    Runs Asm.bignumMontredc s fun s' => (∃ zs, Holds s'.mem s.rsi zs ∧ zs.length = k ∧ val zs < val m ∧
        val zs * 2 ^ (64 * p) % val m = val x % val m) ∧
      Env s.mem s.rsi k (s.rsp - 56#64) 7 0 [(word (s.rsp - 56#64) 0, [winv (wd m 0)]), (s.rcx, x), (s.r8, m)] s'.mem := by
  obtain ⟨k, rfl⟩ : ∃ j, k = j + 1 := ⟨k - 1, by
    have : k ≠ 0 := by
      rintro rfl
      rw [List.eq_nil_of_length_eq_zero hm] at ho
      simp [val] at ho
    omega⟩
  have ha : ∀ p ∈ [(word (s.rsp - 56#64) 0, [winv (wd m 0)]), (s.rcx, x), (s.r8, m)], Apart s.rsi (k + 1) p.1 p.2.length := by
    intro p hp
    rcases List.mem_cons.mp hp with rfl | hp
    · intro i hi j hj
      have : j = 0 := by simpa using hj
      subst this
      rw [word_zero]
      exact hsz i hi 0 (by omega)
    · exact ha p hp
  have hmp : 0 < val m := by omega
  have final : ∀ t z u top, MrFr s (k + 1) p x m t → t.r15 = top → Holds t.mem s.rsi z → z.length = k + 1 →
      2 ^ (64 * p) * (val z + 2 ^ (64 * (k + 1)) * top.toNat) = val x + u * val m → u < 2 ^ (64 * p) →
      From Asm.bignumMontredc 93 t fun s' => (∃ zs, Holds s'.mem s.rsi zs ∧ zs.length = k + 1 ∧ val zs < val m ∧
        val zs * 2 ^ (64 * p) % val m = val x % val m) ∧
      Env s.mem s.rsi (k + 1) (s.rsp - 56#64) 7 0 [(word (s.rsp - 56#64) 0, [winv (wd m 0)]), (s.rcx, x), (s.r8, m)] s'.mem := by
    intro t z u top F h15 hz hl hv hu
    refine montredc_cmp (R := fun zs => zs.length = k + 1 ∧ val zs < val m ∧ val zs * 2 ^ (64 * p) % val m = val x % val m)
      hk (by omega) hm hl hZ ha ?_ F hz h15
    intro us c D
    exact mont_final (top := top.toNat) hu hb' hv hl hm rfl hmp rfl D
  have outer : ∀ t z, MrFr s (k + 1) p x m t → t.r10 = BitVec.ofNat 64 x.length → Holds t.mem s.rsi z → z.length = k + 1 →
      val z = val (x.take (k + 1)) →
      From Asm.bignumMontredc 54 t fun s' => (∃ zs, Holds s'.mem s.rsi zs ∧ zs.length = k + 1 ∧ val zs < val m ∧
        val zs * 2 ^ (64 * p) % val m = val x % val m) ∧
      Env s.mem s.rsi (k + 1) (s.rsp - 56#64) 7 0 [(word (s.rsp - 56#64) 0, [winv (wd m 0)]), (s.rcx, x), (s.r8, m)] s'.mem := by
    intro t z F h10 hz hl hv
    xstep []
    xstep [F.r9, ofNat_beq_zero (i := p) (by omega)]
    by_cases hp0 : p = 0
    · xtake [decide_eq_true hp0]
      refine final _ z 0 0#64 (by fr F) rfl hz hl ?_ (Nat.two_pow_pos _)
      rw [hv, List.take_of_length_le (by omega)]
      subst hp0
      simp
    xfall [decide_eq_false hp0]
    xstep []
    refine From.loop (fun n t => ∃ j z u top, j + n = p ∧ 0 < n ∧ MrFr s (k + 1) p x m t ∧ t.r10 = BitVec.ofNat 64 x.length ∧
      t.r14 = BitVec.ofNat 64 j ∧ t.r15 = top ∧ Holds t.mem s.rsi z ∧ z.length = k + 1 ∧
      2 ^ (64 * j) * (val z + 2 ^ (64 * (k + 1)) * top.toNat) = val (x.take (k + 1 + j)) + u * val m ∧ u < 2 ^ (64 * j)) ?_ p _
      ⟨0, z, 0, _, by omega, by omega, by fr F, h10, rfl, rfl, hz, hl, by simp [hv], by simp⟩
    rintro n t ⟨j, z, u, top, hn, hn', F, h10, h14, h15, hz, hl, hv, hu⟩ ih
    refine montredc_red hk hx hm hl hZ (odd_wd ho) ha (i := j) (by omega) ?_ F h10 h14 h15 hz
    intro t zs q top F h10 h14 h15 hz hl hq hv2
    have hs := redc_step hv hv2 hq hu
    have e1 : 2 ^ (64 * j) * 2 ^ (64 * (k + 1)) = 2 ^ (64 * (k + 1 + j)) := by rw [← Nat.pow_add]; congr 1; omega
    have e2 : 2 ^ (64 * j) * 2 ^ 64 = 2 ^ (64 * (j + 1)) := by rw [← Nat.pow_add]; congr 1
    rw [e1, e2, ← val_take_succ', Nat.add_assoc (k + 1) j 1] at hs
    obtain ⟨hv, hu⟩ := hs
    xstep [h14]
    xstep [F.r9, sub_lt_ofNat (i := j + 1) (j := p) (by omega) (by omega)]
    by_cases h : j + 1 < p
    · xtake [decide_eq_true h]
      exact ih (n - 1) (by omega) _ ⟨j + 1, zs, _, top, by omega, by omega, by fr F, h10, rfl, h15, hz, hl, hv, hu⟩
    · xfall [decide_eq_false h]
      have e : j + 1 = p := by omega
      rw [List.take_of_length_le (by omega), e] at hv
      rw [e] at hu
      exact final _ zs _ top (by fr F) h15 hz hl hv hu
  have zeroed : ∀ t i, min x.length (k + 1) ≤ i → i < k + 1 → MrFr s (k + 1) p x m t → t.r10 = BitVec.ofNat 64 x.length →
      t.r14 = BitVec.ofNat 64 i → t.rbx = 0#64 → Holds t.mem s.rsi (x.take (k + 1) ++ List.replicate (i - min x.length (k + 1)) 0#64) →
      From Asm.bignumMontredc 50 t fun s' => (∃ zs, Holds s'.mem s.rsi zs ∧ zs.length = k + 1 ∧ val zs < val m ∧
        val zs * 2 ^ (64 * p) % val m = val x % val m) ∧
      Env s.mem s.rsi (k + 1) (s.rsp - 56#64) 7 0 [(word (s.rsp - 56#64) 0, [winv (wd m 0)]), (s.rcx, x), (s.r8, m)] s'.mem := by
    intro t i hi0 hi F h10 h14 hbx hh
    refine From.loop (fun n t => ∃ i, i + n = k + 1 ∧ 0 < n ∧ min x.length (k + 1) ≤ i ∧ MrFr s (k + 1) p x m t ∧
        t.r10 = BitVec.ofNat 64 x.length ∧ t.r14 = BitVec.ofNat 64 i ∧ t.rbx = 0#64 ∧
        Holds t.mem s.rsi (x.take (k + 1) ++ List.replicate (i - min x.length (k + 1)) 0#64)) ?_ (k + 1 - i) _
      ⟨i, by omega, by omega, hi0, F, h10, h14, hbx, hh⟩
    rintro n t ⟨i, hn, hn', hi, F, h10, h14, hb, hh⟩ ih
    have hlen : (x.take (k + 1) ++ List.replicate (i - min x.length (k + 1)) 0#64).length = i := by
      simp only [List.length_append, List.length_take, List.length_replicate]
      omega
    have hs := hh.snoc (by omega) hlen.symm 0#64
    rw [List.append_assoc, ← List.replicate_succ', show i - min x.length (k + 1) + 1 = i + 1 - min x.length (k + 1) by omega] at hs
    have he := F.env.store ha (i := i) (by omega) 0#64
    xstep [F.rsi, h14, hb, F.wr, hZ i (by omega)]
    xstep []
    xstep [F.rdi, sub_lt_ofNat (i := i + 1) (j := k + 1) (by omega) (by omega)]
    by_cases h : i + 1 < k + 1
    · xtake [decide_eq_true h]
      exact ih (n - 1) (by omega) _ ⟨i + 1, by omega, by omega, by omega, by fr F, h10, rfl, rfl, hs⟩
    · xfall [decide_eq_false h]
      refine outer _ _ (by fr F) h10 hs ?_ ?_
      · simp only [List.length_append, List.length_take, List.length_replicate]
        omega
      · rw [val_append, val_zeros, Nat.mul_zero, Nat.add_zero]
  have copied : ∀ t, MrFr s (k + 1) p x m t → t.r10 = BitVec.ofNat 64 x.length →
      t.rbx = BitVec.ofNat 64 (min x.length (k + 1)) → t.r14 = 0#64 →
      From Asm.bignumMontredc 40 t fun s' => (∃ zs, Holds s'.mem s.rsi zs ∧ zs.length = k + 1 ∧ val zs < val m ∧
        val zs * 2 ^ (64 * p) % val m = val x % val m) ∧
      Env s.mem s.rsi (k + 1) (s.rsp - 56#64) 7 0 [(word (s.rsp - 56#64) 0, [winv (wd m 0)]), (s.rcx, x), (s.r8, m)] s'.mem := by
    intro t F h10 hbx h14
    xstep [hbx, ofNat_beq_zero (i := min x.length (k + 1)) (by omega)]
    by_cases h0 : min x.length (k + 1) = 0
    · xtake [decide_eq_true h0]
      have hx0 : x = [] := List.eq_nil_of_length_eq_zero (by omega)
      refine zeroed _ 0 (by omega) (by omega) (by fr F) h10 h14 (by simp only [h0]) ?_
      rw [hx0]
      exact Holds.nil _ _
    xfall [decide_eq_false h0]
    refine From.loop (fun n t => ∃ i, i + n = min x.length (k + 1) ∧ 0 < n ∧ MrFr s (k + 1) p x m t ∧ t.r10 = BitVec.ofNat 64 x.length ∧
        t.rbx = BitVec.ofNat 64 (min x.length (k + 1)) ∧ t.r14 = BitVec.ofNat 64 i ∧ Holds t.mem s.rsi (x.take i)) ?_ (min x.length (k + 1)) _
      ⟨0, by omega, by omega, by fr F, h10, rfl, h14, Holds.nil _ _⟩
    rintro n t ⟨i, hn, hn', F, h10, hb, h14, hh⟩ ih
    have hX := F.env.get (p := s.rcx) (ws := x) (by simp) (i := i) (by omega)
    have hs := hh.take_snoc (by omega) (by omega)
    have he := F.env.store ha (i := i) (by omega) (wd x i)
    xstep [F.rcx, h14, hX]
    xstep [F.rsi, F.wr, hZ i (by omega)]
    xstep []
    xstep [hb, sub_lt_ofNat (i := i + 1) (j := min x.length (k + 1)) (by omega) (by omega)]
    by_cases h : i + 1 < min x.length (k + 1)
    · xtake [decide_eq_true h]
      exact ih (n - 1) (by omega) _ ⟨i + 1, by omega, by omega, by fr F, h10, rfl, rfl, hs⟩
    · xfall [decide_eq_false h]
      have hs' := hs
      rw [show x.take (i + 1) = x.take (k + 1) by
        rw [List.take_eq_take_iff]
        omega] at hs
      xstep [F.rdi, sub_lt_ofNat (i := i + 1) (j := k + 1) (by omega) (by omega)]
      by_cases h' : i + 1 < k + 1
      · xfall [decide_eq_true h', Bool.not_true]
        xstep []
        refine zeroed _ (i + 1) (by omega) h' (by fr F) h10 rfl rfl ?_
        rw [show i + 1 - min x.length (k + 1) = 0 by omega, List.replicate_zero, List.append_nil]
        exact hs
      · xtake [decide_eq_false h', Bool.not_false]
        refine outer _ _ (by fr F) h10 hs ?_ rfl
        rw [List.length_take]
        omega
  apply runs_of_from
  have hsp : s.rsp = word (s.rsp - 56#64) 7 := stack_top s 7
  have E6 := (((((((Env.init (Z := s.rsi) (k := k + 1) (b := s.rsp - 56#64) (n := 7) hi).push hb (by omega) s.rbx).push hb (by omega) s.rbp).push hb (by omega) s.r12).push hb (by omega) s.r13).push hb (by omega) s.r14).push hb (by omega) s.r15)
  have start : ∀ t, t.rdi = BitVec.ofNat 64 (k + 1) → t.rsi = s.rsi → t.rcx = s.rcx → t.r8 = s.r8 → t.rdx = BitVec.ofNat 64 x.length →
      t.r9 = BitVec.ofNat 64 p → t.rsp = word (s.rsp - 56#64) 0 → t.wr = s.wr → Env s.mem s.rsi (k + 1) (s.rsp - 56#64) 7 1 [(s.rcx, x), (s.r8, m)] t.mem →
      From Asm.bignumMontredc 10 t fun s' => (∃ zs, Holds s'.mem s.rsi zs ∧ zs.length = k + 1 ∧ val zs < val m ∧
        val zs * 2 ^ (64 * p) % val m = val x % val m) ∧
      Env s.mem s.rsi (k + 1) (s.rsp - 56#64) 7 0 [(word (s.rsp - 56#64) 0, [winv (wd m 0)]), (s.rcx, x), (s.r8, m)] s'.mem := by
    intro t tdi tsi tcx t8 tdx t9 tsp twr E
    have hM0 := E.get (p := s.r8) (ws := m) (by simp) (i := 0) (by omega)
    rw [word_zero] at hM0
    xstep [tdx]
    xstep [t8, hM0]
    xstep []
    xstep []
    xstep [St.shift, St.shiftFlags, BitVec.toNat_ofNat, Nat.reducePow, Nat.reduceMod, OfNat.ofNat_ne_zero, if_false]
    iterate 20 xstep []
    xstep [tsp, twr, hS 0 (by omega)]
    xstep [tdi]
    xstep []
    xstep [cmov_min (i := x.length) (j := k + 1) (by omega) (by omega)]
    xstep []
    have E' := (E.push hb (by omega) (winv (wd m 0))).pushed (if_pos rfl)
    exact copied _ ⟨rfl, tsi, tcx, rfl, t9, rfl, rfl, E'⟩ rfl rfl rfl
  generalize hbb : s.rsp - 56#64 = b at *
  xstep []
  xstep [hsp, word_sub8, hS 6 (by omega)]
  xstep [word_sub8, hS 5 (by omega)]
  xstep [word_sub8, hS 4 (by omega)]
  xstep [word_sub8, hS 3 (by omega)]
  xstep [word_sub8, hS 2 (by omega)]
  xstep [word_sub8, hS 1 (by omega)]
  xstep [sub8_word]
  xstep [hdi, ofNat_beq_zero (i := k + 1) (by omega)]
  xfall [decide_eq_false (Nat.succ_ne_zero k)]
  exact start _ rfl rfl rfl rfl hdx h9 rfl rfl E6

end Verif.X86
