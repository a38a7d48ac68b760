import Verif.Proof.X86.Env
import Verif.Model.AsmX86.Mont

/-! `bignum_montsqr`.  Written by tools/gen_montx86.py. -/
namespace Verif.X86
open Verif

/-- What stays the same during the run. -/
structure MqFr (s : St) (k : Nat) (x m : Words) (t : St) : Prop where
  rdi : t.rdi = BitVec.ofNat 64 k
  rsi : t.rsi = s.rsi
  rcx : t.rcx = s.rcx
  r8 : t.r8 = winv (wd m 0)
  r9 : t.r9 = s.rdx
  rsp : t.rsp = word (s.rsp - 48#64) 0
  wr : t.wr = s.wr
  env : Env s.mem s.rsi k (s.rsp - 48#64) 6 0 [(s.rdx, x), (s.rcx, m)] t.mem

local macro "fr" h:ident : tactic => `(tactic| exact ⟨by first | with_reducible rfl | exact (MqFr.rdi $h :),
  by first | with_reducible rfl | exact (MqFr.rsi $h :),
  by first | with_reducible rfl | exact (MqFr.rcx $h :),
  by first | with_reducible rfl | exact (MqFr.r8 $h :),
  by first | with_reducible rfl | exact (MqFr.r9 $h :),
  by first | with_reducible rfl | exact (MqFr.rsp $h :),
  by first | with_reducible rfl | exact (MqFr.wr $h :),
  by first | assumption | exact (MqFr.env $h :)⟩)

theorem montsqr_end {s t : St} {k : Nat} {x m us : Words} {R : Words → Prop} (F : MqFr s k x m t) (h : Holds t.mem s.rsi us)
    (hR : R us) : From Asm.bignumMontsqr 108 t fun s' => (∃ zs, Holds s'.mem s.rsi zs ∧ R zs) ∧
      Env s.mem s.rsi k (s.rsp - 48#64) 6 0 [(s.rdx, x), (s.rcx, m)] s'.mem := by
  obtain ⟨v0, h0⟩ := F.env.st 0 (by omega) (by omega)
  obtain ⟨v1, h1⟩ := F.env.st 1 (by omega) (by omega)
  obtain ⟨v2, h2⟩ := F.env.st 2 (by omega) (by omega)
  obtain ⟨v3, h3⟩ := F.env.st 3 (by omega) (by omega)
  obtain ⟨v4, h4⟩ := F.env.st 4 (by omega) (by omega)
  obtain ⟨v5, h5⟩ := F.env.st 5 (by omega) (by omega)
  xstep [F.rsp, h0, word_plus8]
  xstep [h1, word_plus8]
  xstep [h2, word_plus8]
  xstep [h3, word_plus8]
  xstep [h4, word_plus8]
  xstep [h5, word_plus8]
  exact From.halt rfl ⟨⟨us, h, hR⟩, F.env⟩

theorem montsqr_sub {s : St} {k : Nat} {x m z : Words} {R : Words → Prop} {T : Bool} (hk : k < 2 ^ 61) (h0 : 0 < k) (hm : m.length = k)
    (hz : z.length = k) (hZ : s.Owns s.rsi k) (ha : ∀ p ∈ [(s.rdx, x), (s.rcx, m)], Apart s.rsi k p.1 p.2.length)
    (hR : ∀ us c, DiffOf z (opt T m) k us c → R us)
    {t : St} (F : MqFr s k x m t) (h : Holds t.mem s.rsi z) (hT : t.rbp = msk T) :
    From Asm.bignumMontsqr 98 t fun s' => (∃ zs, Holds s'.mem s.rsi zs ∧ R zs) ∧
      Env s.mem s.rsi k (s.rsp - 48#64) 6 0 [(s.rdx, x), (s.rcx, m)] s'.mem := by
  xstep []
  xstep []
  refine From.loop (fun n t => ∃ i us c, i + n = k ∧ 0 < n ∧ MqFr s k x m t ∧ t.rbp = msk T ∧ t.rbx = BitVec.ofNat 64 i ∧ t.r11 = msk c ∧
      Holds t.mem s.rsi (us ++ z.drop i) ∧ DiffOf z (opt T m) i us c) ?_ k _
    ⟨0, [], false, by omega, h0, by fr F, hT, rfl, rfl, h, DiffOf.init _ _⟩
  rintro n t ⟨i, us, c, hin, hn, F, hT, hb, hmk, hh, D⟩ ih
  have hM := F.env.get (p := s.rcx) (ws := m) (by simp) (i := i) (by omega)
  have hX := hh.over_wd D.len (by omega)
  have hs := hh.over D.len (by omega) (by omega) (sbbv (wd z i) (wd (opt T m) i) c)
  have D' := D.step
  have he := F.env.store ha (i := i) (by omega) (sbbv (wd z i) (wd (opt T m) i) c)
  xstep [F.rcx, hb, hM]
  xstep [hT, ← wd_opt]
  xstep [hmk, neg_cf, msk_ne]
  xstep [F.rsi, hX, F.wr, hZ i (by omega)]
  xstep [sbb_self]
  xstep []
  xstep [F.rdi, sub_lt_ofNat (i := i + 1) (j := k) (by omega) (by omega)]
  by_cases hm' : i + 1 < k
  · xtake [decide_eq_true hm']
    exact ih (n - 1) (by omega) _ ⟨i + 1, _, _, by omega, by omega, by fr F, rfl, rfl, rfl, hs, D'⟩
  · xfall [decide_eq_false hm']
    have e : i + 1 = k := by omega
    rw [e, List.drop_of_length_le (by omega), List.append_nil] at hs
    rw [e] at D'
    exact montsqr_end (by fr F) hs (hR _ _ D')

theorem montsqr_cmp {s : St} {k : Nat} {x m z : Words} {R : Words → Prop} {top : Word} (hk : k < 2 ^ 61) (h0 : 0 < k) (hm : m.length = k)
    (hz : z.length = k) (hZ : s.Owns s.rsi k) (ha : ∀ p ∈ [(s.rdx, x), (s.rcx, m)], Apart s.rsi k p.1 p.2.length)
    (hR : ∀ us c, DiffOf z (opt (decide (val m ≤ val z + 2 ^ (64 * k) * top.toNat)) m) k us c → R us)
    {t : St} (F : MqFr s k x m t) (h : Holds t.mem s.rsi z) (ht : t.r14 = top) :
    From Asm.bignumMontsqr 88 t fun s' => (∃ zs, Holds s'.mem s.rsi zs ∧ R zs) ∧
      Env s.mem s.rsi k (s.rsp - 48#64) 6 0 [(s.rdx, x), (s.rcx, m)] s'.mem := by
  xstep []
  xstep [F.rdi]
  refine From.loop (fun n t => ∃ i us c, i + n = k ∧ 0 < n ∧ MqFr s k x m t ∧ t.r14 = top ∧ t.rbx = BitVec.ofNat 64 i ∧
      t.r12 = BitVec.ofNat 64 n ∧ t.cf = some c ∧ Holds t.mem s.rsi z ∧ DiffOf z m i us c) ?_ k _
    ⟨0, [], false, by omega, h0, by fr F, ht, rfl, rfl, rfl, h, DiffOf.init _ _⟩
  rintro n t ⟨i, us, c, hin, hn, F, ht, hb, hcn, hc, hh, D⟩ ih
  obtain ⟨n, rfl⟩ : ∃ j, n = j + 1 := ⟨n - 1, by omega⟩
  have hM := F.env.get (p := s.rcx) (ws := m) (by simp) (i := i) (by omega)
  have hX := hh.wd (i := i) (by omega)
  have D' := D.step
  xstep [F.rsi, hb, hX]
  xstep [F.rcx, hM, hc]
  xstep []
  xstep [hcn, ofNat_beq_zero (i := n) (by omega)]
  by_cases hm' : n = 0
  · xfall [decide_eq_true hm', Bool.not_true]
    have e : i + 1 = k := by omega
    rw [e] at D'
    xstep [ht]
    xstep [sbb_self]
    xstep []
    refine montsqr_sub hk h0 hm hz hZ ha hR (by fr F) hh ?_
    show ~~~ msk _ = _
    rw [D'.top_lt hz hm]
    cases decide (val m ≤ val z + 2 ^ (64 * k) * top.toNat) <;> rfl
  · xtake [decide_eq_false hm', Bool.not_false]
    exact ih n (by omega) _ ⟨i + 1, _, _, by omega, by omega, by fr F, ht, rfl, rfl, rfl, hh, D'⟩

/-- The reduction by one word. -/
theorem montsqr_red {s : St} {k : Nat} {x m z : Words} {Q : St → Prop} (hk : k + 1 < 2 ^ 61) (hm : m.length = k + 1)
    (hz : z.length = k + 1) (hZ : s.Owns s.rsi (k + 1)) (ho : (wd m 0).toNat % 2 = 1)
    (ha : ∀ p ∈ [(s.rdx, x), (s.rcx, m)], Apart s.rsi (k + 1) p.1 p.2.length)
    {r13 v c0 : Word} (hc0 : c0.toNat ≤ 1)
    (hQ : ∀ t zs q top, MqFr s (k + 1) x m t → t.r13 = r13 → t.r14 = top → Holds t.mem s.rsi zs → zs.length = k + 1 → q < 2 ^ 64 →
      2 ^ 64 * (val zs + 2 ^ (64 * (k + 1)) * top.toNat) = val z + 2 ^ (64 * (k + 1)) * (v.toNat + 2 ^ 64 * c0.toNat) + q * val m →
      From Asm.bignumMontsqr 85 t Q)
    {t : St} (F : MqFr s (k + 1) x m t) (h13 : t.r13 = r13) (h14 : t.r14 = v) (h15 : t.r15 = c0) (h : Holds t.mem s.rsi z) :
    From Asm.bignumMontsqr 59 t Q := by
  have done : ∀ (t : St) us h c q j, j = k → MqFr s (k + 1) x m t → t.r13 = r13 → t.r14 = v → t.r15 = c0 → t.rbx = BitVec.ofNat 64 (j + 1) →
      t.r10 = h → t.cf = some c → Holds t.mem s.rsi (us ++ z.drop j) → q < 2 ^ 64 → RowOf z m q (j + 1) (0#64 :: us) h.toNat c →
      From Asm.bignumMontsqr 81 t Q := by
    rintro t us h c q j rfl F h13 h14 h15 hb h10 hc hh hq D
    have hl := D.len
    rw [List.length_cons, Nat.add_right_cancel_iff] at hl
    have hv := D.down hz hm v
    have hs := hh.over hl (by omega) (by omega) (adcv h v c)
    rw [List.drop_of_length_le (by omega), List.append_nil] at hs
    have he := F.env.store ha (Nat.lt_succ_self _) (adcv h v c)
    xstep [h10, hc, h14]
    xstep [h15]
    xstep []
    xstep [F.rsi, hb, word_pred, F.wr, hZ _ (Nat.lt_succ_self _)]
    refine hQ _ _ q _ (by fr F) h13 rfl hs (by simp [hl]) hq ?_
    have h1 := adc_val c0 0#64 (adcc h v c)
    have h2 := bool_toNat_le (adcc h v c)
    have h3 : (adcc c0 0#64 (adcc h v c)).toNat = 0 := by
      rw [BitVec.toNat_ofNat] at h1
      omega
    rw [h3] at h1
    have e0 : (0#64).toNat = 0 := rfl
    rw [e0] at h1
    generalize 2 ^ (64 * (j + 1)) = B at *
    zify at *
    linear_combination hv + 2 ^ 64 * (B : Int) * h1
  have h0 := h.wd (i := 0) (by omega)
  have hM0 := F.env.get (p := s.rcx) (ws := m) (by simp) (i := 0) (by omega)
  
  rw [word_zero] at h0 hM0
  xstep [F.rsi, h0]
  xstep [F.r8]
  xstep []
  xstep [F.rcx, hM0]
  xstep []
  xstep []
  xstep []
  xstep []
  xstep [F.rdi]
  xstep [ofNat_beq_zero (i := k) (by omega)]
  have D := RowOf.first z m (winv (wd m 0) * wd z 0)
  rw [red_zero ho] at D
  by_cases hk0 : k = 0
  · xtake [decide_eq_true hk0]
    subst hk0
    exact done _ [] _ _ _ 0 rfl (by fr F) h13 h14 h15 rfl rfl rfl h (BitVec.isLt _) D
  xfall [decide_eq_false hk0]
  refine From.loop (fun n t => ∃ j us c h, j + n = k ∧ 0 < n ∧ MqFr s (k + 1) x m t ∧ t.r13 = r13 ∧ t.r14 = v ∧ t.r15 = c0 ∧
      t.rbx = BitVec.ofNat 64 (j + 1) ∧ t.r12 = BitVec.ofNat 64 n ∧ t.rbp = winv (wd m 0) * wd z 0 ∧
      t.r10 = h ∧ t.cf = some c ∧ Holds t.mem s.rsi (us ++ z.drop j) ∧
      RowOf z m (winv (wd m 0) * wd z 0).toNat (j + 1) (0#64 :: us) h.toNat c) ?_ k _
    ⟨0, [], _, _, by omega, by omega, by fr F, h13, h14, h15, rfl, rfl, rfl, rfl, rfl, h, D⟩
  rintro n t ⟨j, us, c, h, hin, hn, F, h13, h14, h15, hb, h12, hbp, h10, hc, hh, D⟩ ih
  obtain ⟨n, rfl⟩ : ∃ j, n = j + 1 := ⟨n - 1, by omega⟩
  have hl : us.length = j := by simpa using D.len
  have hM := F.env.get (p := s.rcx) (ws := m) (by simp) (i := j + 1) (by omega)
  have hX : t.mem (word s.rsi (j + 1)) = some (wd z (j + 1)) := hh.drop_wd hl (by omega) (by omega)
  have D' := D.step
  xstep [F.rsi, hb, hX, h10, hc]
  xstep [sbb_self]
  xstep [F.rcx, hM]
  xstep [hbp]
  xstep []
  xstep []
  xstep [word_pred, F.wr, hZ j (by omega)]
  xstep []
  xstep []
  xstep [h12, ofNat_beq_zero (i := n) (by omega)]
  have hs := hh.over hl (by omega) (by omega)
    (adcv (mullo (wd m (j + 1)) (winv (wd m 0) * wd z 0)) (adcv h (wd z (j + 1)) c) false)
  have he := F.env.store ha (i := j) (by omega)
    (adcv (mullo (wd m (j + 1)) (winv (wd m 0) * wd z 0)) (adcv h (wd z (j + 1)) c) false)
  by_cases hm' : n = 0
  · xfall [decide_eq_true hm', Bool.not_true]
    exact done _ _ _ _ _ (j + 1) (by omega) (by fr F) h13 h14 h15 rfl rfl rfl hs (BitVec.isLt _) D'
  · xtake [decide_eq_false hm', Bool.not_false]
    exact ih n (by omega) _ ⟨j + 1, _, _, _, by omega, by omega, by fr F, h13, h14, h15, rfl, rfl, rfl, rfl, rfl, hs, D'⟩

/-- The multiplication by one word. -/
theorem montsqr_row {s : St} {k : Nat} {x m z : Words} {Q : St → Prop} (hk : k < 2 ^ 61) (h0 : 0 < k) (hx : x.length = k) 
    (hz : z.length = k) (hZ : s.Owns s.rsi k) (ha : ∀ p ∈ [(s.rdx, x), (s.rcx, m)], Apart s.rsi k p.1 p.2.length)
    {j : Nat} (hj : j < k) {top : Word}
    (hQ : ∀ t zs v c0, MqFr s k x m t → t.r13 = BitVec.ofNat 64 j → t.r14 = v → t.r15 = c0 → Holds t.mem s.rsi zs → zs.length = k →
      c0.toNat ≤ 1 → val zs + 2 ^ (64 * k) * (v.toNat + 2 ^ 64 * c0.toNat) = val z + 2 ^ (64 * k) * top.toNat + (wd x j).toNat * val x →
      From Asm.bignumMontsqr 59 t Q)
    {t : St} (F : MqFr s k x m t) (h13 : t.r13 = BitVec.ofNat 64 j) (h14 : t.r14 = top) (h : Holds t.mem s.rsi z) :
    From Asm.bignumMontsqr 41 t Q := by
  have hXj := F.env.get (p := s.rdx) (ws := x) (by simp) (i := j) (by omega)
  xstep [F.r9, h13, hXj]
  xstep []
  xstep []
  xstep []
  xstep [F.rdi]
  refine From.loop (fun n t => ∃ i us c h, i + n = k ∧ 0 < n ∧ MqFr s k x m t ∧ t.r13 = BitVec.ofNat 64 j ∧ t.r14 = top ∧ t.r15 = 0#64 ∧
      t.rbx = BitVec.ofNat 64 i ∧ t.r12 = BitVec.ofNat 64 n ∧ t.rbp = wd x j ∧
      t.r10 = h ∧ t.cf = some c ∧ Holds t.mem s.rsi (us ++ z.drop i) ∧
      RowOf z x (wd x j).toNat i us h.toNat c) ?_ k _
    ⟨0, [], _, _, by omega, by omega, by fr F, rfl, h14, rfl, rfl, rfl, rfl, rfl, rfl, h, RowOf.init _ _ _⟩
  rintro n t ⟨i, us, c, h, hin, hn, F, h13, h14, h15, hb, h12, hbp, h10, hc, hh, D⟩ ih
  obtain ⟨n, rfl⟩ : ∃ j, n = j + 1 := ⟨n - 1, by omega⟩
  have hY := F.env.get (p := s.rdx) (ws := x) (by simp) (i := i) (by omega)
  have hX := hh.over_wd D.len (by omega)
  have D' := D.step
  xstep [F.rsi, hb, hX, h10, hc]
  xstep [sbb_self]
  xstep [F.r9, hY]
  xstep [hbp]
  xstep []
  xstep []
  xstep [F.wr, hZ i (by omega)]
  xstep []
  xstep []
  xstep [h12, ofNat_beq_zero (i := n) (by omega)]
  have hs := hh.over D.len (by omega) (by omega) (adcv (mullo (wd x i) (wd x j)) (adcv h (wd z i) c) false)
  have he := F.env.store ha (i := i) (by omega) (adcv (mullo (wd x i) (wd x j)) (adcv h (wd z i) c) false)
  by_cases hm' : n = 0
  · xfall [decide_eq_true hm', Bool.not_true]
    have e : i + 1 = k := by omega
    rw [List.drop_of_length_le (by omega), List.append_nil] at hs
    xstep [h14]
    xstep [h15]
    have hl := D'.len
    have hv := D'.sum
    generalize adcc (mullo (wd x i) (wd x j)) (adcv h (wd z i) c) false = c1 at *
    generalize sbbv (mulhi (wd x i) (wd x j)) (msk (adcc h (wd z i) c)) false = h1 at *
    have h2 : (adcv 0#64 0#64 (adcc top h1 c1)).toNat = (adcc top h1 c1).toNat := by cases adcc top h1 c1 <;> rfl
    refine hQ _ _ _ _ (by fr F) h13 rfl rfl hs (by rw [hl, e]) (by rw [h2]; exact bool_toNat_le _) ?_
    rw [h2]
    rw [List.take_of_length_le (by omega), List.take_of_length_le (by omega), e] at hv
    have h3 := adc_val top h1 c1
    generalize 2 ^ (64 * k) = B at *
    zify at *
    linear_combination hv + (B : Int) * h3
  · xtake [decide_eq_false hm', Bool.not_false]
    exact ih n (by omega) _ ⟨i + 1, _, _, _, by omega, by omega, by fr F, h13, h14, h15, rfl, rfl, rfl, rfl, rfl, hs, D'⟩

theorem montsqr_ok (s : St) (x m : Words) (k : Nat) (hk : k < 2 ^ 61) (hx : x.length = k)  (hm : m.length = k) (ho : val m % 2 = 1)
    (hp : val x * val x ≤ 2 ^ (64 * k) * val m)
    (hdi : s.rdi = BitVec.ofNat 64 k) (hZ : s.Owns s.rsi k) (hS : s.Owns (s.rsp - 48#64) 6)
    (hi : ∀ p ∈ [(s.rdx, x), (s.rcx, m)], Holds s.mem p.1 p.2) (ha : ∀ p ∈ [(s.rdx, x), (s.rcx, m)], Apart s.rsi k p.1 p.2.length)
    (hb : ∀ p ∈ [(s.rdx, x), (s.rcx, m)], Apart (s.rsp - 48#64) 6 p.1 p.2.length) :
    Runs Asm.bignumMontsqr s fun s' => (∃ zs, Holds s'.mem s.rsi zs ∧ zs.length = k ∧ val zs < val m ∧
        val zs * 2 ^ (64 * k) % val m = val x * val x % val m) ∧
      Env s.mem s.rsi k (s.rsp - 48#64) 6 0 [(s.rdx, x), (s.rcx, m)] s'.mem := by
  obtain ⟨k, rfl⟩ : ∃ j, k = j + 1 := ⟨k - 1, by
    have : k ≠ 0 := by
      rintro rfl
      rw [List.eq_nil_of_length_eq_zero hm] at ho
      simp [val] at ho
    omega⟩

  have hmp : 0 < val m := by omega
  have outer : ∀ t z, MqFr s (k + 1) x m t → t.r13 = 0#64 → t.r14 = 0#64 → Holds t.mem s.rsi z → z.length = k + 1 → val z = 0 →
      From Asm.bignumMontsqr 41 t fun s' => (∃ zs, Holds s'.mem s.rsi zs ∧ zs.length = k + 1 ∧ val zs < val m ∧
        val zs * 2 ^ (64 * (k + 1)) % val m = val x * val x % val m) ∧
      Env s.mem s.rsi (k + 1) (s.rsp - 48#64) 6 0 [(s.rdx, x), (s.rcx, m)] s'.mem := by
    intro t z F h13 h14 hz hl hv
    refine From.loop (fun n t => ∃ j z u top, j + n = k + 1 ∧ 0 < n ∧ MqFr s (k + 1) x m t ∧ t.r13 = BitVec.ofNat 64 j ∧ t.r14 = top ∧
      Holds t.mem s.rsi z ∧ z.length = k + 1 ∧
      2 ^ (64 * j) * (val z + 2 ^ (64 * (k + 1)) * top.toNat) = val (x.take j) * val x + u * val m ∧ u < 2 ^ (64 * j)) ?_ (k + 1) t
      ⟨0, z, 0, _, by omega, by omega, F, h13, h14, hz, hl, by simp [hv], by simp⟩
    rintro n t ⟨j, z, u, top, hn, hn', F, h13, h14, hz, hl, hv, hu⟩ ih
    refine montsqr_row hk (by omega) hx  hl hZ ha (j := j) (by omega) ?_ F h13 h14 hz
    intro t z1 v c0 F h13 h14 h15 hz hl hc0 hv1
    refine montsqr_red hk hm hl hZ (odd_wd ho) ha hc0 ?_ F h13 h14 h15 hz
    intro t zs q top F h13 h14 hz hl hq hv2
    rw [hv1] at hv2
    have hs := mont_step' (j := j) rfl hv hv2 hq hu
    rw [← val_take_succ'] at hs
    obtain ⟨hv, hu⟩ := hs
    xstep [h13]
    xstep [F.rdi, sub_lt_ofNat (i := j + 1) (j := k + 1) (by omega) (by omega)]
    by_cases h : j + 1 < k + 1
    · xtake [decide_eq_true h]
      exact ih (n - 1) (by omega) _ ⟨j + 1, zs, _, top, by omega, by omega, by fr F, rfl, h14, hz, hl, hv, hu⟩
    · xfall [decide_eq_false h]
      have e : j + 1 = k + 1 := by omega
      rw [e, List.take_of_length_le (by omega)] at hv
      rw [e] at hu
      refine montsqr_cmp (R := fun zs => zs.length = k + 1 ∧ val zs < val m ∧ val zs * 2 ^ (64 * (k + 1)) % val m = val x * val x % val m)
        hk (by omega) hm hl hZ ha ?_ (by fr F) hz h14
      intro us c D
      exact mont_final (top := top.toNat) hu hp hv hl hm rfl hmp rfl D
  have zeroed : ∀ t, MqFr s (k + 1) x m t → t.r13 = 0#64 → t.rbx = 0#64 →
      From Asm.bignumMontsqr 36 t fun s' => (∃ zs, Holds s'.mem s.rsi zs ∧ zs.length = k + 1 ∧ val zs < val m ∧
        val zs * 2 ^ (64 * (k + 1)) % val m = val x * val x % val m) ∧
      Env s.mem s.rsi (k + 1) (s.rsp - 48#64) 6 0 [(s.rdx, x), (s.rcx, m)] s'.mem := by
    intro t F h13 hbx
    refine From.loop (fun n t => ∃ i, i + n = k + 1 ∧ 0 < n ∧ MqFr s (k + 1) x m t ∧ t.r13 = 0#64 ∧
        t.rbx = BitVec.ofNat 64 i ∧ Holds t.mem s.rsi (List.replicate i 0#64)) ?_ (k + 1) _
      ⟨0, by omega, by omega, F, h13, hbx, Holds.nil _ _⟩
    rintro n t ⟨i, hn, hn', F, h13, hb, hh⟩ ih
    have hs := hh.snoc (by simp; omega) (List.length_replicate (n := i)).symm 0#64
    rw [← List.replicate_succ'] at hs
    have he := F.env.store ha (i := i) (by omega) 0#64
    xstep [F.rsi, hb, h13, F.wr, hZ i (by omega)]
    xstep []
    xstep [F.rdi, sub_lt_ofNat (i := i + 1) (j := k + 1) (by omega) (by omega)]
    by_cases h : i + 1 < k + 1
    · xtake [decide_eq_true h]
      exact ih (n - 1) (by omega) _ ⟨i + 1, by omega, by omega, by fr F, rfl, rfl, hs⟩
    · xfall [decide_eq_false h]
      xstep []
      exact outer _ _ (by fr F) rfl rfl hs (by simp; omega) (val_zeros _)
  apply runs_of_from
  have hsp : s.rsp = word (s.rsp - 48#64) 6 := stack_top s 6
  have E6 := (((((((Env.init (Z := s.rsi) (k := k + 1) (b := s.rsp - 48#64) (n := 6) hi).push hb (by omega) s.rbx).push hb (by omega) s.rbp).push hb (by omega) s.r12).push hb (by omega) s.r13).push hb (by omega) s.r14).push hb (by omega) s.r15)
  have start : ∀ t, t.rdi = BitVec.ofNat 64 (k + 1) → t.rsi = s.rsi → t.rcx = s.rcx → t.rdx = s.rdx →
      t.rsp = word (s.rsp - 48#64) 0 → t.wr = s.wr → Env s.mem s.rsi (k + 1) (s.rsp - 48#64) 6 0 [(s.rdx, x), (s.rcx, m)] t.mem →
      From Asm.bignumMontsqr 9 t fun s' => (∃ zs, Holds s'.mem s.rsi zs ∧ zs.length = k + 1 ∧ val zs < val m ∧
        val zs * 2 ^ (64 * (k + 1)) % val m = val x * val x % val m) ∧
      Env s.mem s.rsi (k + 1) (s.rsp - 48#64) 6 0 [(s.rdx, x), (s.rcx, m)] s'.mem := by
    intro t tdi tsi tcx tdx tsp twr E
    have hM0 := E.get (p := s.rcx) (ws := m) (by simp) (i := 0) (by omega)
    rw [word_zero] at hM0
    xstep [tdx]
    xstep [tcx, hM0]
    xstep []
    xstep []
    xstep [St.shift, St.shiftFlags, BitVec.toNat_ofNat, Nat.reducePow, Nat.reduceMod, OfNat.ofNat_ne_zero, if_false]
    iterate 20 xstep []
    xstep []
    xstep []
    exact zeroed _ ⟨tdi, tsi, rfl, rfl, rfl, tsp, twr, E⟩ rfl rfl
  generalize hbb : s.rsp - 48#64 = b at *
  xstep []
  xstep [hsp, word_sub8, hS 5 (by omega)]
  xstep [word_sub8, hS 4 (by omega)]
  xstep [word_sub8, hS 3 (by omega)]
  xstep [word_sub8, hS 2 (by omega)]
  xstep [word_sub8, hS 1 (by omega)]
  xstep [word_sub8, hS 0 (by omega)]
  xstep [hdi, ofNat_beq_zero (i := k + 1) (by omega)]
  xfall [decide_eq_false (Nat.succ_ne_zero k)]
  exact start _ rfl rfl rfl rfl rfl rfl E6

end Verif.X86
