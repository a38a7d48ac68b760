import Verif.Proof.X86.Env
import Verif.Model.AsmX86.Mont

/-! `bignum_demont`. -/
namespace Verif.X86
open Verif

/-- What stays the same during the run. -/
structure DmFr (s : St) (k : Nat) (m x : Words) (t : St) : Prop where
  rdi : t.rdi = BitVec.ofNat 64 k
  rsi : t.rsi = s.rsi
  rcx : t.rcx = s.rcx
  rsp : t.rsp = word (s.rsp - 24#64) 0
  wr : t.wr = s.wr
  env : Env s.mem s.rsi k (s.rsp - 24#64) 3 0 [(s.rdx, x), (s.rcx, m)] t.mem

theorem demont_end {s t : St} {k : Nat} {m x us : Words} {R : Words → Prop} (F : DmFr s k m x t) (h : Holds t.mem s.rsi us)
    (hR : R us) : From Asm.bignumDemont 83 t fun s' => (∃ zs, Holds s'.mem s.rsi zs ∧ R zs) ∧
      Env s.mem s.rsi k (s.rsp - 24#64) 3 0 [(s.rdx, x), (s.rcx, m)] s'.mem := by
  obtain ⟨v0, h0⟩ := F.env.st 0 (by omega) (by omega)
  obtain ⟨v1, h1⟩ := F.env.st 1 (by omega) (by omega)
  obtain ⟨v2, h2⟩ := F.env.st 2 (by omega) (by omega)
  xstep [F.rsp, h0, word_plus8]
  xstep [h1, word_plus8]
  xstep [h2, word_plus8]
  exact From.halt rfl ⟨⟨us, h, hR⟩, F.env⟩

theorem demont_sub {s : St} {k : Nat} {m x z : Words} {R : Words → Prop} {T : Bool} (hk : k < 2 ^ 61) (h0 : 0 < k) (hm : m.length = k)
    (hz : z.length = k) (hZ : s.Owns s.rsi k) (ha : ∀ p ∈ [(s.rdx, x), (s.rcx, m)], Apart s.rsi k p.1 p.2.length)
    (hR : ∀ us c, DiffOf z (opt T m) k us c → R us)
    {t : St} (F : DmFr s k m x t) (h : Holds t.mem s.rsi z) (hT : t.rbp = msk T) :
    From Asm.bignumDemont 73 t fun s' => (∃ zs, Holds s'.mem s.rsi zs ∧ R zs) ∧
      Env s.mem s.rsi k (s.rsp - 24#64) 3 0 [(s.rdx, x), (s.rcx, m)] s'.mem := by
  xstep []
  xstep []
  refine From.loop (fun n t => ∃ i us c, i + n = k ∧ 0 < n ∧ DmFr s k m x t ∧ t.rbp = msk T ∧ t.rbx = BitVec.ofNat 64 i ∧ t.r11 = msk c ∧
      Holds t.mem s.rsi (us ++ z.drop i) ∧ DiffOf z (opt T m) i us c) ?_ k _
    ⟨0, [], false, by omega, h0, ⟨F.rdi, F.rsi, F.rcx, F.rsp, F.wr, F.env⟩, hT, rfl, rfl, h, DiffOf.init _ _⟩
  rintro n t ⟨i, us, c, hin, hn, F, hT, hb, h11, hh, D⟩ ih
  have hM := F.env.get (p := s.rcx) (ws := m) (by simp) (i := i) (by omega)
  have hX := hh.over_wd D.len (by omega)
  have hs := hh.over D.len (by omega) (by omega) (sbbv (wd z i) (wd (opt T m) i) c)
  have D' := D.step
  have he := F.env.store ha (i := i) (by omega) (sbbv (wd z i) (wd (opt T m) i) c)
  xstep [F.rcx, hb, hM]
  xstep [hT, ← wd_opt]
  xstep [h11, neg_cf, msk_ne]
  xstep [F.rsi, hX, F.wr, hZ i (by omega)]
  xstep [sbb_self]
  xstep []
  xstep [F.rdi, sub_lt_ofNat (i := i + 1) (j := k) (by omega) (by omega)]
  by_cases hm' : i + 1 < k
  · xtake [decide_eq_true hm']
    exact ih (n - 1) (by omega) _ ⟨i + 1, _, _, by omega, by omega, ⟨rfl, rfl, rfl, F.rsp, rfl, he⟩, rfl, rfl, rfl, hs, D'⟩
  · xfall [decide_eq_false hm']
    have e : i + 1 = k := by omega
    rw [e, List.drop_of_length_le (by omega), List.append_nil] at hs
    rw [e] at D'
    exact demont_end ⟨rfl, rfl, rfl, F.rsp, rfl, he⟩ hs (hR _ _ D')

theorem demont_cmp {s : St} {k : Nat} {m x z : Words} {R : Words → Prop} (hk : k < 2 ^ 61) (h0 : 0 < k) (hm : m.length = k)
    (hz : z.length = k) (hZ : s.Owns s.rsi k) (ha : ∀ p ∈ [(s.rdx, x), (s.rcx, m)], Apart s.rsi k p.1 p.2.length)
    (hR : ∀ us c, DiffOf z (opt (decide (val m ≤ val z)) m) k us c → R us)
    {t : St} (F : DmFr s k m x t) (h : Holds t.mem s.rsi z) :
    From Asm.bignumDemont 64 t fun s' => (∃ zs, Holds s'.mem s.rsi zs ∧ R zs) ∧
      Env s.mem s.rsi k (s.rsp - 24#64) 3 0 [(s.rdx, x), (s.rcx, m)] s'.mem := by
  xstep []
  xstep [F.rdi]
  refine From.loop (fun n t => ∃ i us c, i + n = k ∧ 0 < n ∧ DmFr s k m x t ∧ t.rbx = BitVec.ofNat 64 i ∧ t.r12 = BitVec.ofNat 64 n ∧
      t.cf = some c ∧ Holds t.mem s.rsi z ∧ DiffOf z m i us c) ?_ k _
    ⟨0, [], false, by omega, h0, ⟨F.rdi ▸ rfl, F.rsi, F.rcx, F.rsp, F.wr, F.env⟩, rfl, rfl, rfl, h, DiffOf.init _ _⟩
  rintro n t ⟨i, us, c, hin, hn, F, hb, h12, hc, hh, D⟩ ih
  obtain ⟨n, rfl⟩ : ∃ j, n = j + 1 := ⟨n - 1, by omega⟩
  have hM := F.env.get (p := s.rcx) (ws := m) (by simp) (i := i) (by omega)
  have hX := hh.wd (i := i) (by omega)
  have D' := D.step
  xstep [F.rsi, hb, hX]
  xstep [F.rcx, hM, hc]
  xstep []
  xstep [h12, ofNat_beq_zero (i := n) (by omega)]
  by_cases hm' : n = 0
  · xfall [decide_eq_true hm', Bool.not_true]
    have e : i + 1 = k := by omega
    rw [e] at D'
    xstep [sbb_self]
    xstep []
    have hT : sbbc (wd z i) (wd m i) c = !decide (val m ≤ val z) := by
      have h1 := D'.sum
      have h2 := val_lt (us ++ [sbbv (wd z i) (wd m i) c])
      rw [D'.len] at h2
      rw [List.take_of_length_le (by omega), List.take_of_length_le (by omega)] at h1
      generalize sbbc (wd z i) (wd m i) c = b at h1
      cases b
      · simp at h1 ⊢; omega
      · simp at h1 ⊢; omega
    refine demont_sub hk h0 hm hz hZ ha hR ⟨F.rdi, rfl, rfl, F.rsp, F.wr, F.env⟩ hh ?_
    show ~~~ msk _ = _
    rw [hT]
    cases decide (val m ≤ val z) <;> rfl
  · xtake [decide_eq_false hm', Bool.not_false]
    exact ih n (by omega) _ ⟨i + 1, _, _, by omega, by omega, ⟨F.rdi, rfl, rfl, F.rsp, F.wr, F.env⟩, rfl, rfl, rfl, hh, D'⟩

/-- The reduction by one word. -/
theorem demont_row {s : St} {k : Nat} {m x z : Words} {Q : St → Prop} (hk : k + 1 < 2 ^ 61) (hm : m.length = k + 1)
    (hz : z.length = k + 1) (hZ : s.Owns s.rsi (k + 1)) (ho : (wd m 0).toNat % 2 = 1)
    (ha : ∀ p ∈ [(s.rdx, x), (s.rcx, m)], Apart s.rsi (k + 1) p.1 p.2.length)
    {r9 : Word}
    (hQ : ∀ t zs q, DmFr s (k + 1) m x t → t.r8 = winv (wd m 0) → t.r9 = r9 → Holds t.mem s.rsi zs → zs.length = k + 1 → q < 2 ^ 64 →
      2 ^ 64 * val zs = val z + q * val m → From Asm.bignumDemont 61 t Q)
    {t : St} (F : DmFr s (k + 1) m x t) (h8' : t.r8 = winv (wd m 0)) (h9 : t.r9 = r9) (h : Holds t.mem s.rsi z) :
    From Asm.bignumDemont 37 t Q := by
  have done : ∀ (t : St) us h c q j, j = k → DmFr s (k + 1) m x t → t.r8 = winv (wd m 0) → t.r9 = r9 → t.rbx = BitVec.ofNat 64 (j + 1) →
      t.r10 = h → t.cf = some c → Holds t.mem s.rsi (us ++ z.drop j) → q < 2 ^ 64 → RowOf z m q (j + 1) (0#64 :: us) h.toNat c →
      From Asm.bignumDemont 59 t Q := by
    rintro t us h c q j rfl F h8 h9 hb h10 hc hh hq D
    have hl := D.len
    rw [List.length_cons, Nat.add_right_cancel_iff] at hl
    have hv := D.down hz hm 0#64
    xstep [h10, hc]
    have hs := hh.over hl (by omega) (by omega) (adcv h 0#64 c)
    rw [List.drop_of_length_le (by omega), List.append_nil] at hs
    xstep [F.rsi, hb, word_pred, F.wr, hZ _ (Nat.lt_succ_self _)]
    refine hQ _ _ q ⟨F.rdi, rfl, F.rcx, F.rsp, rfl, F.env.store ha (Nat.lt_succ_self _) _⟩ h8 h9 hs (by simp [hl]) hq ?_
    have h1 := val_lt z
    have h2 := val_lt m
    rw [hz] at h1
    rw [hm] at h2
    have h3 : q * val m ≤ (2 ^ 64 - 1) * (2 ^ (64 * (j + 1)) - 1) := Nat.mul_le_mul (by omega) (by omega)
    have hc0 : (adcc h 0#64 c).toNat = 0 := by
      have := bool_toNat_le (adcc h 0#64 c)
      by_contra hn
      have h4 : (adcc h 0#64 c).toNat = 1 := by omega
      rw [h4] at hv
      simp only [BitVec.toNat_ofNat, Nat.zero_mod, Nat.mul_zero, Nat.add_zero, Nat.mul_one] at hv
      generalize 2 ^ (64 * (j + 1)) = B at *
      omega
    rw [hc0] at hv
    simpa using hv
  have h0 := h.wd (i := 0) (by omega)
  have hM0 := F.env.get (p := s.rcx) (ws := m) (by simp) (i := 0) (by omega)
  rw [word_zero] at h0 hM0
  xstep [F.rsi, h0]
  xstep [h8']
  xstep []
  xstep [F.rcx, hM0]
  xstep []
  xstep []
  xstep []
  xstep []
  xstep [F.rdi]
  xstep [ofNat_beq_zero (i := k) (by omega)]
  have D := RowOf.first z m (winv (wd m 0) * wd z 0)
  rw [red_zero ho] at D
  by_cases hk0 : k = 0
  · xtake [decide_eq_true hk0]
    subst hk0
    exact done _ [] _ _ _ 0 rfl ⟨rfl, rfl, rfl, F.rsp, F.wr, F.env⟩ rfl h9 rfl rfl rfl h (BitVec.isLt _) D
  xfall [decide_eq_false hk0]
  refine From.loop (fun n t => ∃ j us c h, j + n = k ∧ 0 < n ∧ DmFr s (k + 1) m x t ∧ t.r8 = winv (wd m 0) ∧ t.r9 = r9 ∧
      t.rbx = BitVec.ofNat 64 (j + 1) ∧ t.r12 = BitVec.ofNat 64 n ∧ t.rbp = winv (wd m 0) * wd z 0 ∧
      t.r10 = h ∧ t.cf = some c ∧ Holds t.mem s.rsi (us ++ z.drop j) ∧
      RowOf z m (winv (wd m 0) * wd z 0).toNat (j + 1) (0#64 :: us) h.toNat c) ?_ k _
    ⟨0, [], _, _, by omega, by omega, ⟨rfl, rfl, rfl, F.rsp, F.wr, F.env⟩, rfl, h9, rfl, rfl, rfl, rfl, rfl, h, D⟩
  rintro n t ⟨j, us, c, h, hin, hn, F, h8, h9, hb, h12, hbp, h10, hc, hh, D⟩ ih
  obtain ⟨n, rfl⟩ : ∃ j, n = j + 1 := ⟨n - 1, by omega⟩
  have hl : us.length = j := by simpa using D.len
  have hM := F.env.get (p := s.rcx) (ws := m) (by simp) (i := j + 1) (by omega)
  have hX : t.mem (word s.rsi (j + 1)) = some (wd z (j + 1)) := hh.drop_wd hl (by omega) (by omega)
  have D' := D.step
  xstep [F.rsi, hb, hX, h10, hc]
  xstep [sbb_self]
  xstep [F.rcx, hM]
  xstep [hbp]
  xstep []
  xstep []
  xstep [word_pred, F.wr, hZ j (by omega)]
  xstep []
  xstep []
  xstep [h12, ofNat_beq_zero (i := n) (by omega)]
  have hs := hh.over hl (by omega) (by omega)
    (adcv (mullo (wd m (j + 1)) (winv (wd m 0) * wd z 0)) (adcv h (wd z (j + 1)) c) false)
  have he := F.env.store ha (i := j) (by omega)
    (adcv (mullo (wd m (j + 1)) (winv (wd m 0) * wd z 0)) (adcv h (wd z (j + 1)) c) false)
  by_cases hm' : n = 0
  · xfall [decide_eq_true hm', Bool.not_true]
    exact done _ _ _ _ _ (j + 1) (by omega) ⟨F.rdi, rfl, rfl, F.rsp, rfl, he⟩ h8 h9 rfl rfl rfl hs (BitVec.isLt _) D'
  · xtake [decide_eq_false hm', Bool.not_false]
    exact ih n (by omega) _ ⟨j + 1, _, _, _, by omega, by omega, ⟨F.rdi, rfl, rfl, F.rsp, rfl, he⟩, h8, h9, rfl, rfl, rfl, rfl, rfl, hs, D'⟩

theorem demont_ok (s : St) (x m : Words) (k : Nat) (hk : k < 2 ^ 61) (hx : x.length = k) (hm : m.length = k) (ho : val m % 2 = 1)
    (hdi : s.rdi = BitVec.ofNat 64 k) (hZ : s.Owns s.rsi k) (hS : s.Owns (s.rsp - 24#64) 3)
    (hX : Holds s.mem s.rdx x) (hM : Holds s.mem s.rcx m)
    (a1 : Apart s.rsi k s.rdx k) (a2 : Apart s.rsi k s.rcx k) (a3 : Apart (s.rsp - 24#64) 3 s.rdx k)
    (a4 : Apart (s.rsp - 24#64) 3 s.rcx k) :
    Runs Asm.bignumDemont s fun s' => (∃ zs, Holds s'.mem s.rsi zs ∧ zs.length = k ∧ val zs < val m ∧
        val zs * 2 ^ (64 * k) % val m = val x % val m) ∧
      Env s.mem s.rsi k (s.rsp - 24#64) 3 0 [(s.rdx, x), (s.rcx, m)] s'.mem := by
  obtain ⟨k, rfl⟩ : ∃ j, k = j + 1 := ⟨k - 1, by
    have : k ≠ 0 := by
      rintro rfl
      rw [List.eq_nil_of_length_eq_zero hm] at ho
      simp [val] at ho
    omega⟩
  have ha : ∀ p ∈ [(s.rdx, x), (s.rcx, m)], Apart s.rsi (k + 1) p.1 p.2.length := by
    intro p hp
    simp only [List.mem_cons, List.not_mem_nil, or_false] at hp
    rcases hp with rfl | rfl
    · rw [hx]; exact a1
    · rw [hm]; exact a2
  have hb : ∀ p ∈ [(s.rdx, x), (s.rcx, m)], Apart (s.rsp - 24#64) 3 p.1 p.2.length := by
    intro p hp
    simp only [List.mem_cons, List.not_mem_nil, or_false] at hp
    rcases hp with rfl | rfl
    · rw [hx]; exact a3
    · rw [hm]; exact a4
  have hi : ∀ p ∈ [(s.rdx, x), (s.rcx, m)], Holds s.mem p.1 p.2 := by
    intro p hp
    simp only [List.mem_cons, List.not_mem_nil, or_false] at hp
    rcases hp with rfl | rfl
    · exact hX
    · exact hM
  have hmp : 0 < val m := by omega
  have outer : ∀ t z u j, j < k + 1 → DmFr s (k + 1) m x t → t.r8 = winv (wd m 0) → t.r9 = BitVec.ofNat 64 j → Holds t.mem s.rsi z →
      z.length = k + 1 → 2 ^ (64 * j) * val z = val x + u * val m → u < 2 ^ (64 * j) →
      From Asm.bignumDemont 37 t fun s' => (∃ zs, Holds s'.mem s.rsi zs ∧ zs.length = k + 1 ∧ val zs < val m ∧
        val zs * 2 ^ (64 * (k + 1)) % val m = val x % val m) ∧
      Env s.mem s.rsi (k + 1) (s.rsp - 24#64) 3 0 [(s.rdx, x), (s.rcx, m)] s'.mem := by
    intro t z u j hj F h8 h9 hz hl hv hu
    refine From.loop (fun n t => ∃ j z u, j + n = k + 1 ∧ 0 < n ∧ DmFr s (k + 1) m x t ∧ t.r8 = winv (wd m 0) ∧ t.r9 = BitVec.ofNat 64 j ∧
      Holds t.mem s.rsi z ∧ z.length = k + 1 ∧ 2 ^ (64 * j) * val z = val x + u * val m ∧ u < 2 ^ (64 * j)) ?_ (k + 1 - j) t
      ⟨j, z, u, by omega, by omega, F, h8, h9, hz, hl, hv, hu⟩
    rintro n t ⟨j, z, u, hn, hn', F, h8, h9, hz, hl, hv, hu⟩ ih
    refine demont_row hk hm hl hZ (odd_wd ho) ha ?_ F h8 h9 hz
    intro t zs q F h8 h9 hz hl hq hv'
    obtain ⟨hv, hu⟩ := mont_step rfl hv hv' hq hu
    xstep [h9]
    xstep [F.rdi, sub_lt_ofNat (i := j + 1) (j := k + 1) (by omega) (by omega)]
    by_cases h : j + 1 < k + 1
    · xtake [decide_eq_true h]
      exact ih (n - 1) (by omega) _ ⟨j + 1, zs, _, by omega, by omega, ⟨rfl, F.rsi, F.rcx, F.rsp, F.wr, F.env⟩, h8, rfl, hz, hl, hv, hu⟩
    · xfall [decide_eq_false h]
      have e : j + 1 = k + 1 := by omega
      rw [e] at hv hu
      refine demont_cmp (R := fun zs => zs.length = k + 1 ∧ val zs < val m ∧ val zs * 2 ^ (64 * (k + 1)) % val m = val x % val m)
        hk (by omega) hm hl hZ ha ?_ ⟨rfl, F.rsi, F.rcx, F.rsp, F.wr, F.env⟩ hz
      intro us c D
      refine mont_final (top := 0) hu ?_ hv hl hm rfl hmp rfl D
      have := val_lt x
      rw [hx] at this
      exact Nat.le_trans this.le (Nat.le_mul_of_pos_right _ hmp)
  have copied : ∀ t, DmFr s (k + 1) m x t → t.r8 = winv (wd m 0) → Holds t.mem s.rsi x →
      From Asm.bignumDemont 36 t fun s' => (∃ zs, Holds s'.mem s.rsi zs ∧ zs.length = k + 1 ∧ val zs < val m ∧
        val zs * 2 ^ (64 * (k + 1)) % val m = val x % val m) ∧
      Env s.mem s.rsi (k + 1) (s.rsp - 24#64) 3 0 [(s.rdx, x), (s.rcx, m)] s'.mem := by
    intro t F h8 hh
    xstep []
    exact outer _ x 0 0 (by omega) ⟨F.rdi, F.rsi, F.rcx, F.rsp, F.wr, F.env⟩ h8 rfl hh hx (by simp) (by simp)
  have start : ∀ t, DmFr s (k + 1) m x t → t.rdx = s.rdx →
      From Asm.bignumDemont 6 t fun s' => (∃ zs, Holds s'.mem s.rsi zs ∧ zs.length = k + 1 ∧ val zs < val m ∧
        val zs * 2 ^ (64 * (k + 1)) % val m = val x % val m) ∧
      Env s.mem s.rsi (k + 1) (s.rsp - 24#64) 3 0 [(s.rdx, x), (s.rcx, m)] s'.mem := by
    intro t F hd
    have hM0 := F.env.get (p := s.rcx) (ws := m) (by simp) (i := 0) (by omega)
    rw [word_zero] at hM0
    xstep [F.rcx, hM0]
    xstep []
    xstep []
    xstep [St.shift, St.shiftFlags, BitVec.toNat_ofNat, Nat.reducePow, Nat.reduceMod, OfNat.ofNat_ne_zero, if_false]
    iterate 21 xstep []
    refine From.loop (fun n t => ∃ i, i + n = k + 1 ∧ 0 < n ∧ DmFr s (k + 1) m x t ∧ t.rdx = s.rdx ∧ t.r8 = winv (wd m 0) ∧
        t.rbx = BitVec.ofNat 64 i ∧ Holds t.mem s.rsi (x.take i)) ?_ (k + 1) _
      ⟨0, by omega, by omega, ⟨F.rdi, F.rsi, rfl, F.rsp, F.wr, F.env⟩, hd, rfl, rfl, Holds.nil _ _⟩
    rintro n t ⟨i, hn, hn', F, hd, h8, hb, hh⟩ ih
    have hX := F.env.get (p := s.rdx) (ws := x) (by simp) (i := i) (by omega)
    have hs := hh.take_snoc (by omega) (by omega)
    have he := F.env.store ha (i := i) (by omega) (wd x i)
    xstep [hd, hb, hX]
    xstep [F.rsi, F.wr, hZ i (by omega)]
    xstep []
    xstep [F.rdi, sub_lt_ofNat (i := i + 1) (j := k + 1) (by omega) (by omega)]
    by_cases h : i + 1 < k + 1
    · xtake [decide_eq_true h]
      exact ih (n - 1) (by omega) _ ⟨i + 1, by omega, by omega, ⟨rfl, rfl, F.rcx, F.rsp, rfl, he⟩, rfl, h8, rfl, hs⟩
    · xfall [decide_eq_false h]
      rw [List.take_of_length_le (by omega)] at hs
      exact copied _ ⟨rfl, rfl, F.rcx, F.rsp, rfl, he⟩ h8 hs
  apply runs_of_from
  have hsp : s.rsp = word (s.rsp - 24#64) 3 := stack_top s 3
  have E3 := ((((Env.init (Z := s.rsi) (k := k + 1) (b := s.rsp - 24#64) (n := 3) hi).push hb (by omega) s.rbx).push hb
    (by omega) s.rbp).push hb (by omega) s.r12)
  generalize hbb : s.rsp - 24#64 = b at *
  xstep []
  xstep [hsp, word_sub8, hS 2 (by omega)]
  xstep [word_sub8, hS 1 (by omega)]
  xstep [word_sub8, hS 0 (by omega)]
  xstep [hdi, ofNat_beq_zero (i := k + 1) (by omega)]
  xfall [decide_eq_false (Nat.succ_ne_zero k)]
  exact start _ ⟨rfl, rfl, rfl, by rw [hbb], rfl, by rw [hbb]; exact E3⟩ rfl

end Verif.X86
