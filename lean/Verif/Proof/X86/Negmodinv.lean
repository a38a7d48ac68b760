import Verif.Proof.X86.Env
import Verif.Model.AsmX86.Mont

/-! `bignum_negmodinv`. -/
namespace Verif.X86
open Verif

/-- What stays the same during the run. -/
structure NiFr (s : St) (k : Nat) (x : Words) (t : St) : Prop where
  rcx : t.rcx = s.rdx
  r11 : t.r11 = winv (wd x 0)
  rsp : t.rsp = word (s.rsp - 16#64) 0
  wr : t.wr = s.wr
  env : Env s.mem s.rsi k (s.rsp - 16#64) 2 0 [(s.rdx, x)] t.mem

local macro "fr" h:ident : tactic => `(tactic| exact ⟨by first | with_reducible rfl | exact (NiFr.rcx $h :),
  by first | with_reducible rfl | exact (NiFr.r11 $h :),
  by first | with_reducible rfl | exact (NiFr.rsp $h :),
  by first | with_reducible rfl | exact (NiFr.wr $h :),
  by first | assumption | exact (NiFr.env $h :)⟩)

/-- `qs` are the first words of the result and `e` what is left: `x * qs + 1` is `e` moved up, up to a multiple of `2^(64 k)`. -/
def NiLeft (x : Words) (k : Nat) (qs e : Words) : Prop :=
  qs.length + e.length = k ∧ ∃ N, val x * val qs + 1 = 2 ^ (64 * qs.length) * val e + 2 ^ (64 * k) * N

/-- What is wanted. -/
def NiDone (s : St) (x : Words) (k : Nat) (s' : St) : Prop :=
  (∃ zs, Holds s'.mem s.rsi zs ∧ zs.length = k ∧ (val x * val zs + 1) % 2 ^ (64 * k) = 0) ∧
    Env s.mem s.rsi k (s.rsp - 16#64) 2 0 [(s.rdx, x)] s'.mem

theorem negmodinv_end {s t : St} {k : Nat} {x zs : Words} (F : NiFr s k x t) (h : Holds t.mem s.rsi zs)
    (hl : zs.length = k) (hv : (val x * val zs + 1) % 2 ^ (64 * k) = 0) : From Asm.bignumNegmodinv 78 t (NiDone s x k) := by
  obtain ⟨v0, h0⟩ := F.env.st 0 (by omega) (by omega)
  obtain ⟨v1, h1⟩ := F.env.st 1 (by omega) (by omega)
  xstep [F.rsp, h0, word_plus8]
  xstep [h1, word_plus8]
  exact From.halt rfl ⟨⟨zs, h, hl, hv⟩, F.env⟩

theorem NiLeft.last {x qs : Words} {k : Nat} {e : Word} (h : NiLeft x k qs [e]) (ho : (wd x 0).toNat % 2 = 1) :
    (qs ++ [e * winv (wd x 0)]).length = k ∧ (val x * val (qs ++ [e * winv (wd x 0)]) + 1) % 2 ^ (64 * k) = 0 := by
  obtain ⟨hl, N, hv⟩ := h
  simp only [List.length_singleton] at hl
  refine ⟨by simp; exact hl, ?_⟩
  have hz := red_zero (z := e) ho
  have hz' := adc_val (mullo (wd x 0) (winv (wd x 0) * e)) e false
  have hm := mul_val (wd x 0) (winv (wd x 0) * e)
  rw [hz] at hz'
  simp only [Bool.toNat_false, Nat.add_zero, BitVec.toNat_ofNat, Nat.zero_mod, Nat.zero_add] at hz'
  have hd : val x = (wd x 0).toNat + 2 ^ 64 * val (x.drop 1) := by
    rw [← val_drop_step x 0, List.drop_zero]
  have e1 : val [e] = e.toNat := by simp [val]
  rw [e1] at hv
  rw [val_snoc, BitVec.mul_comm e]
  have hk : 2 ^ (64 * k) = 2 ^ (64 * qs.length) * 2 ^ 64 := by rw [← hl, Nat.mul_add, Nat.pow_add]
  rw [hk] at hv ⊢
  generalize (winv (wd x 0) * e) = q at *
  generalize 2 ^ (64 * qs.length) = B at *
  have : val x * (val qs + B * q.toNat) + 1 =
      B * 2 ^ 64 * (N + (adcc (mullo (wd x 0) q) e false).toNat + (mulhi (wd x 0) q).toNat + val (x.drop 1) * q.toNat) := by
    zify at *
    linear_combination hv - (B : Int) * hz' - (B : Int) * hm + (B : Int) * q.toNat * hd
  rw [this, Nat.mul_mod_right]

theorem NiLeft.next {x qs us e : Words} {k n : Nat} {q : Word} {h : Nat} {c : Bool} (H : NiLeft x k qs e) (he : e.length = n + 1) (hx : n + 1 ≤ x.length)
    (D : RowOf e x q.toNat (n + 1) (0#64 :: us) h c) : NiLeft x k (qs ++ [q]) us := by
  obtain ⟨hl, N, hv⟩ := H
  have h1 := D.len
  have h2 := D.sum
  rw [List.length_cons] at h1
  rw [List.take_of_length_le (l := e) (by omega)] at h2
  refine ⟨by simp; omega, N + (h + c.toNat) + q.toNat * val (x.drop (n + 1)), ?_⟩
  have hd := val_take_add_drop x (n + 1)
  rw [Nat.min_eq_left hx] at hd
  have hk : 2 ^ (64 * k) = 2 ^ (64 * qs.length) * 2 ^ (64 * (n + 1)) := by rw [← hl, he, Nat.mul_add, Nat.pow_add]
  rw [val_snoc, List.length_append, List.length_singleton, hk, Nat.mul_add 64 qs.length, Nat.pow_add]
  rw [hk] at hv
  simp only [val, BitVec.toNat_ofNat, Nat.zero_mod, Nat.zero_add] at h2
  generalize 2 ^ (64 * qs.length) = B at *
  generalize 2 ^ (64 * (n + 1)) = C at *
  simp only [Nat.mul_one]
  zify at *
  linear_combination hv - (B : Int) * h2 + (B : Int) * q.toNat * hd

/-- The last word. -/
theorem negmodinv_last {s t : St} {k : Nat} {x qs : Words} {e : Word} (hk : k < 2 ^ 61)
    (ho : (wd x 0).toNat % 2 = 1) (hZ : s.Owns s.rsi k) (ha : ∀ p ∈ [(s.rdx, x)], Apart s.rsi k p.1 p.2.length)
    (H : NiLeft x k qs [e]) (F : NiFr s k x t) (h : Holds t.mem s.rsi (qs ++ [e])) (hq : 0 < qs.length)
    (hsi : t.rsi = word s.rsi (qs.length - 1)) : From Asm.bignumNegmodinv 75 t (NiDone s x k) := by
  have hl := H.1
  simp only [List.length_singleton] at hl
  have hr : t.mem (word s.rsi qs.length) = some e := by
    have := h.wd (i := qs.length) (by simp)
    rw [this, wd_eq (by simp)]
    simp
  have hs := (show Holds t.mem s.rsi (qs ++ [e].drop 0) from h)
  have e1 : word s.rsi (qs.length - 1) + 8#64 = word s.rsi qs.length := by
    rw [word_plus8, Nat.sub_add_cancel hq]
  have hs : Holds (fun b => if b = word s.rsi qs.length then some (e * winv (wd x 0)) else t.mem b) s.rsi (qs ++ [e * winv (wd x 0)]) := by
    have := h.set (by simp; omega) (i := qs.length) (by simp) (e * winv (wd x 0))
    rwa [List.set_append_right _ _ (le_refl _), Nat.sub_self] at this
  have he := F.env.store ha (i := qs.length) (by omega) (e * winv (wd x 0))
  xstep [hsi, e1, hr]
  xstep [F.r11]
  xstep [e1, F.wr, hZ qs.length (by omega)]
  obtain ⟨h1, h2⟩ := H.last ho
  exact negmodinv_end (by fr F) hs h1 h2

theorem wd_append {qs e : Words} (i : Nat) : wd (qs ++ e) (qs.length + i) = wd e i := by
  unfold wd
  rw [List.getD_eq_getElem?_getD, List.getD_eq_getElem?_getD, List.getElem?_append_right (by omega), Nat.add_sub_cancel_left]

/-- One more word. -/
theorem negmodinv_word {s t : St} {k n : Nat} {x qs e : Words} (hk : k < 2 ^ 61) (hx : x.length = k)
    (ho : (wd x 0).toNat % 2 = 1) (hZ : s.Owns s.rsi k) (ha : ∀ p ∈ [(s.rdx, x)], Apart s.rsi k p.1 p.2.length)
    (H : NiLeft x k qs e) (hn : e.length = n + 2) (hq : 0 < qs.length)
    (hQ : ∀ t qs e, NiLeft x k qs e → e.length = n + 1 → 0 < qs.length → NiFr s k x t → Holds t.mem s.rsi (qs ++ e) →
      t.rsi = word s.rsi (qs.length - 1) → t.rdi = BitVec.ofNat 64 (n + 1) → From Asm.bignumNegmodinv 73 t (NiDone s x k))
    (F : NiFr s k x t) (h : Holds t.mem s.rsi (qs ++ e))
    (hsi : t.rsi = word s.rsi (qs.length - 1)) (hdi : t.rdi = BitVec.ofNat 64 (n + 1)) :
    From Asm.bignumNegmodinv 50 t (NiDone s x k) := by
  have hl := H.1
  have e1 : adcv (word s.rsi (qs.length - 1)) 8#64 false = word s.rsi qs.length := by
    rw [word_add8, Nat.sub_add_cancel hq]
  have hlen : (qs ++ e).length = k := by rw [List.length_append, hl]
  have hr := h.wd (i := qs.length) (by omega)
  rw [show wd (qs ++ e) qs.length = wd e 0 from wd_append 0] at hr
  have hs0 := (show Holds t.mem s.rsi (qs ++ e.drop 0) from h)
  have hs : Holds (fun b => if b = word s.rsi qs.length then some (winv (wd x 0) * wd e 0) else t.mem b) s.rsi
      ((qs ++ [winv (wd x 0) * wd e 0]) ++ (qs ++ e).drop (qs.length + 1)) := by
    refine Holds.over (i := qs.length) ?_ rfl (by omega) (by omega) _
    rw [List.drop_left]
    exact h
  have he := F.env.store ha (i := qs.length) (by omega) (winv (wd x 0) * wd e 0)
  xstep [hsi, e1]
  xstep [hr]
  xstep [F.r11]
  xstep []
  xstep [F.wr, hZ qs.length (by omega)]
  have D := RowOf.first e x (winv (wd x 0) * wd e 0)
  rw [red_zero ho] at D
  generalize hm : (fun b => if b = word s.rsi qs.length then some (winv (wd x 0) * wd e 0) else t.mem b) = mem at *
  have hX0 := he.get (p := s.rdx) (ws := x) (by simp) (i := 0) (by omega)
  rw [word_zero] at hX0
  xstep [F.rcx, hX0]
  xstep []
  xstep []
  xstep []
  xstep []
  xstep []
  xstep [hdi]
  have hh := mulhi_lt (wd x 0) (winv (wd x 0) * wd e 0)
  have hcv := adc_val (mulhi (wd x 0) (winv (wd x 0) * wd e 0)) 0#64 (adcc (mullo (wd x 0) (winv (wd x 0) * wd e 0)) (wd e 0) false)
  have hcb := bool_toNat_le (adcc (mullo (wd x 0) (winv (wd x 0) * wd e 0)) (wd e 0) false)
  have e0 : (0#64).toNat = 0 := rfl
  rw [e0] at hcv
  have hc0 : adcc (mulhi (wd x 0) (winv (wd x 0) * wd e 0)) 0#64 (adcc (mullo (wd x 0) (winv (wd x 0) * wd e 0)) (wd e 0) false) = false := by
    generalize hg : adcc (mulhi (wd x 0) (winv (wd x 0) * wd e 0)) 0#64 (adcc (mullo (wd x 0) (winv (wd x 0) * wd e 0)) (wd e 0) false) = g at *
    cases g
    · rfl
    · simp only [Bool.toNat_true] at hcv
      omega
  have D0 : RowOf e x (winv (wd x 0) * wd e 0).toNat 1 [0#64] (adcv (mulhi (wd x 0) (winv (wd x 0) * wd e 0)) 0#64
      (adcc (mullo (wd x 0) (winv (wd x 0) * wd e 0)) (wd e 0) false)).toNat false := by
    refine ⟨rfl, ?_⟩
    rw [hc0] at hcv
    have := D.sum
    rw [Bool.toNat_false, Nat.mul_zero, Nat.add_zero, Nat.add_zero] at hcv
    rw [hcv, Bool.toNat_false, Nat.add_zero, this]
  rw [hc0]
  generalize hqq : winv (wd x 0) * wd e 0 = q at *
  refine From.loop (fun m t => ∃ j us h c, j + m = n + 1 ∧ 0 < m ∧ NiFr s k x t ∧ t.rsi = word s.rsi qs.length ∧
      t.rdi = BitVec.ofNat 64 (n + 1) ∧ t.r8 = BitVec.ofNat 64 (j + 1) ∧ t.r12 = BitVec.ofNat 64 m ∧ t.r9 = q ∧ t.r10 = h ∧ t.cf = some c ∧
      Holds t.mem s.rsi ((qs ++ [q] ++ us) ++ (qs ++ e).drop (qs.length + 1 + j)) ∧
      RowOf e x q.toNat (j + 1) (0#64 :: us) h.toNat c) ?_ (n + 1) _
    ⟨0, [], _, _, by omega, by omega, by fr F, rfl, rfl, rfl, rfl, rfl, rfl, rfl, by rw [List.append_nil]; exact hs, D0⟩
  rintro m t ⟨j, us, h, c, hj, hm0, F, hsi, hdi, h8, h12, h9, h10, hc, hh, D⟩ ih
  obtain ⟨m, rfl⟩ : ∃ j, m = j + 1 := ⟨m - 1, by omega⟩
  have hul : us.length = j := by simpa using D.len
  have hpl : (qs ++ [q] ++ us).length = qs.length + 1 + j := by simp; omega
  have hX := F.env.get (p := s.rdx) (ws := x) (by simp) (i := j + 1) (by omega)
  have hE := hh.over_wd hpl (by omega)
  have ea : word (word s.rsi qs.length) (j + 1) = word s.rsi (qs.length + 1 + j) := by rw [word_add]; congr 1; omega
  have ew : wd (qs ++ e) (qs.length + 1 + j) = wd e (j + 1) := by rw [Nat.add_assoc, Nat.add_comm 1]; exact wd_append _
  rw [ew] at hE
  have D' := D.step
  xstep [hsi, h8, ea, hE, h10, hc]
  xstep [sbb_self]
  xstep [F.rcx, hX]
  xstep [h9]
  xstep []
  xstep []
  xstep [ea, F.wr, hZ (qs.length + 1 + j) (by omega)]
  xstep []
  xstep []
  xstep [h12, ofNat_beq_zero (i := m) (by omega)]
  have hs := hh.over hpl (by omega) (by omega) (adcv (mullo (wd x (j + 1)) q) (adcv h (wd e (j + 1)) c) false)
  have he := F.env.store ha (i := qs.length + 1 + j) (by omega) (adcv (mullo (wd x (j + 1)) q) (adcv h (wd e (j + 1)) c) false)
  by_cases hm' : m = 0
  · xfall [decide_eq_true hm', Bool.not_true]
    have en : j = n := by omega
    subst en
    rw [List.drop_of_length_le (by omega), List.append_nil, List.append_assoc] at hs
    refine hQ _ _ _ (H.next (by omega) (by omega) D') (by simp [hul]) (by simp) (by fr F) hs ?_ hdi
    simp
  · xtake [decide_eq_false hm', Bool.not_false]
    rw [List.append_assoc (qs ++ [q]) us] at hs
    exact ih m (by omega) _ ⟨j + 1, us ++ [adcv (mullo (wd x (j + 1)) q) (adcv h (wd e (j + 1)) c) false], _, _, by omega, by omega,
      by fr F, rfl, hdi, rfl, rfl, rfl, rfl, rfl, hs, D'⟩

/-- The words from the second on. -/
theorem negmodinv_rest {s t : St} {k n : Nat} {x qs e : Words} (hk : k < 2 ^ 61) (hx : x.length = k)
    (ho : (wd x 0).toNat % 2 = 1) (hZ : s.Owns s.rsi k) (ha : ∀ p ∈ [(s.rdx, x)], Apart s.rsi k p.1 p.2.length)
    (H : NiLeft x k qs e) (hn : e.length = n + 2) (hq : 0 < qs.length)
    (F : NiFr s k x t) (h : Holds t.mem s.rsi (qs ++ e))
    (hsi : t.rsi = word s.rsi (qs.length - 1)) (hdi : t.rdi = BitVec.ofNat 64 (n + 1)) :
    From Asm.bignumNegmodinv 50 t (NiDone s x k) := by
  induction n generalizing t qs e with
  | zero =>
    refine negmodinv_word hk hx ho hZ ha H hn hq ?_ F h hsi hdi
    intro t qs e H hn hq F h hsi hdi
    xstep [hdi]
    xfall [show (BitVec.ofNat 64 0 == 0#64) = true from rfl, Bool.not_true]
    match e, hn with
    | [e], _ => exact negmodinv_last hk ho hZ ha H (by fr F) h hq hsi
  | succ n ih =>
    refine negmodinv_word hk hx ho hZ ha H hn hq ?_ F h hsi hdi
    intro t qs e H hn hq F h hsi hdi
    have hl := H.1
    xstep [hdi, ofNat_beq_zero (i := n + 1) (by omega)]
    xtake [decide_eq_false (Nat.succ_ne_zero n), Bool.not_false]
    exact ih H hn hq (by fr F) h hsi rfl

theorem negmodinv_ok (s : St) (x : Words) (k : Nat) (hk : k < 2 ^ 61) (hx : x.length = k) (hodd : val x % 2 = 1)
    (hdi : s.rdi = BitVec.ofNat 64 k) (hZ : s.Owns s.rsi k) (hS : s.Owns (s.rsp - 16#64) 2)
    (hi : ∀ p ∈ [(s.rdx, x)], Holds s.mem p.1 p.2) (ha : ∀ p ∈ [(s.rdx, x)], Apart s.rsi k p.1 p.2.length)
    (hb : ∀ p ∈ [(s.rdx, x)], Apart (s.rsp - 16#64) 2 p.1 p.2.length) : Runs Asm.bignumNegmodinv s (NiDone s x k) := by
  obtain ⟨k, rfl⟩ : ∃ j, k = j + 1 := ⟨k - 1, by
    have : k ≠ 0 := by
      rintro rfl
      rw [List.eq_nil_of_length_eq_zero hx] at hodd
      simp [val] at hodd
    omega⟩
  have ho := odd_wd hodd
  -- after the first word has been stored and there are more
  have more : ∀ t, 0 < k → NiFr s (k + 1) x t → t.rsi = s.rsi → t.rdi = BitVec.ofNat 64 (k + 1) →
      Holds t.mem s.rsi [winv (wd x 0)] → From Asm.bignumNegmodinv 33 t (NiDone s x (k + 1)) := by
    intro t hk0 F hsi hdi hh
    have hX0 := F.env.get (p := s.rdx) (ws := x) (by simp) (i := 0) (by omega)
    rw [word_zero] at hX0
    xstep [F.rcx, hX0]
    xstep []
    xstep [F.r11]
    xstep []
    xstep []
    xstep []
    have h1 := adc_val (mullo (wd x 0) (winv (wd x 0))) 1#64 false
    have h2 := mul_val (wd x 0) (winv (wd x 0))
    have h3 := adc_val 0#64 (mulhi (wd x 0) (winv (wd x 0))) (adcc (mullo (wd x 0) (winv (wd x 0))) 1#64 false)
    have h4 := mulhi_lt (wd x 0) (winv (wd x 0))
    have h5 : adcv (mullo (wd x 0) (winv (wd x 0))) 1#64 false = 0#64 := by
      have := red_zero (z := 1#64) ho
      rwa [BitVec.mul_one] at this
    rw [h5] at h1
    have e0 : (0#64).toNat = 0 := rfl
    have e1 : (1#64).toNat = 1 := rfl
    have hcb := bool_toNat_le (adcc (mullo (wd x 0) (winv (wd x 0))) 1#64 false)
    rw [e0, e1, Bool.toNat_false] at h1
    rw [e0] at h3
    have hc0 : (adcc 0#64 (mulhi (wd x 0) (winv (wd x 0))) (adcc (mullo (wd x 0) (winv (wd x 0))) 1#64 false)).toNat = 0 := by
      have := bool_toNat_le (adcc 0#64 (mulhi (wd x 0) (winv (wd x 0))) (adcc (mullo (wd x 0) (winv (wd x 0))) 1#64 false))
      omega
    rw [hc0] at h3
    have hr : (wd x 0).toNat * (winv (wd x 0)).toNat + 1 =
        2 ^ 64 * (adcv 0#64 (mulhi (wd x 0) (winv (wd x 0))) (adcc (mullo (wd x 0) (winv (wd x 0))) 1#64 false)).toNat := by
      omega
    refine From.loop (fun n t => ∃ i us h, i + n = k ∧ 0 < n ∧ NiFr s (k + 1) x t ∧ t.rsi = s.rsi ∧ t.rdi = BitVec.ofNat 64 (k + 1) ∧
        t.r8 = BitVec.ofNat 64 (i + 1) ∧ t.r10 = h ∧ Holds t.mem s.rsi ([winv (wd x 0)] ++ us) ∧ us.length = i ∧
        val (x.take (i + 1)) * (winv (wd x 0)).toNat + 1 = 2 ^ 64 * (val us + 2 ^ (64 * i) * h.toNat)) ?_ k _
      ⟨0, [], _, by omega, hk0, by fr F, hsi, hdi, rfl, rfl, hh, rfl, by
        rw [val_take_succ']
        simpa [val] using hr⟩
    rintro n t ⟨i, us, h, hn, hn0, F, hsi, hdi, h8, h10, hh, hl, hv⟩ ih
    have hX := F.env.get (p := s.rdx) (ws := x) (by simp) (i := i + 1) (by omega)
    xstep [F.rcx, h8, hX]
    xstep [F.r11]
    xstep [h10]
    xstep []
    xstep [hsi, F.wr, hZ (i + 1) (by omega)]
    xstep []
    xstep []
    xstep [hdi, sub_lt_ofNat (i := i + 1 + 1) (j := k + 1) (by omega) (by omega)]
    have g1 := adc_val (mullo (wd x (i + 1)) (winv (wd x 0))) h false
    have g2 := mul_val (wd x (i + 1)) (winv (wd x 0))
    have g3 := adc_val (mulhi (wd x (i + 1)) (winv (wd x 0))) 0#64 (adcc (mullo (wd x (i + 1)) (winv (wd x 0))) h false)
    have g4 := mulhi_lt (wd x (i + 1)) (winv (wd x 0))
    have hs := hh.snoc (by simp; omega) (i := i + 1) (by rw [List.length_append, hl, List.length_singleton, Nat.add_comm]) (adcv (mullo (wd x (i + 1)) (winv (wd x 0))) h false)
    rw [List.append_assoc] at hs
    have he := F.env.store ha (i := i + 1) (by omega) (adcv (mullo (wd x (i + 1)) (winv (wd x 0))) h false)
    have gb := bool_toNat_le (adcc (mullo (wd x (i + 1)) (winv (wd x 0))) h false)
    rw [e0] at g3
    have gc : (adcc (mulhi (wd x (i + 1)) (winv (wd x 0))) 0#64 (adcc (mullo (wd x (i + 1)) (winv (wd x 0))) h false)).toNat = 0 := by
      have := bool_toNat_le (adcc (mulhi (wd x (i + 1)) (winv (wd x 0))) 0#64 (adcc (mullo (wd x (i + 1)) (winv (wd x 0))) h false))
      omega
    rw [gc] at g3
    have hv' : val (x.take (i + 1 + 1)) * (winv (wd x 0)).toNat + 1 =
        2 ^ 64 * (val (us ++ [adcv (mullo (wd x (i + 1)) (winv (wd x 0))) h false]) + 2 ^ (64 * (i + 1)) *
          (adcv (mulhi (wd x (i + 1)) (winv (wd x 0))) 0#64 (adcc (mullo (wd x (i + 1)) (winv (wd x 0))) h false)).toNat) := by
      rw [val_take_succ', val_snoc, hl, Nat.mul_add 64 i 1, Nat.pow_add, Nat.mul_one]
      rw [Bool.toNat_false] at g1
      generalize 2 ^ (64 * i) = B at *
      clear ih h1 h2 h3 h4 h5 hr gb hcb
      zify at *
      linear_combination hv + 2 ^ 64 * (B : Int) * (- g1 - g2 - 2 ^ 64 * g3)
    by_cases hm : i + 1 + 1 < k + 1
    · xtake [decide_eq_true hm]
      exact ih (n - 1) (by omega) _ ⟨i + 1, _, _, by omega, by omega, by fr F, rfl, rfl, rfl, rfl, hs, by simp [hl], hv'⟩
    · xfall [decide_eq_false hm]
      have ek : i + 1 = k := by omega
      have H : NiLeft x (k + 1) [winv (wd x 0)] (us ++ [adcv (mullo (wd x (i + 1)) (winv (wd x 0))) h false]) := by
        refine ⟨by simp [hl]; omega,
          (adcv (mulhi (wd x (i + 1)) (winv (wd x 0))) 0#64 (adcc (mullo (wd x (i + 1)) (winv (wd x 0))) h false)).toNat, ?_⟩
        · rw [List.take_of_length_le (by omega)] at hv'
          have e1 : val [winv (wd x 0)] = (winv (wd x 0)).toNat := by simp [val]
          have e2 : 2 ^ (64 * (k + 1)) = 2 ^ 64 * 2 ^ (64 * (i + 1)) := by rw [← Nat.pow_add, ← ek]; congr 1; omega
          rw [e1, hv', List.length_singleton, e2, Nat.mul_one]
          ring
      have hs2 : sbbv (BitVec.ofNat 64 (k + 1)) 2#64 false = BitVec.ofNat 64 (k - 1) := by
        have := sub_ofNat (i := k + 1) (j := 2) (by omega)
        rw [show k + 1 - 2 = k - 1 by omega] at this
        exact this
      xstep [hs2, ofNat_beq_zero (i := k - 1) (by omega)]
      by_cases h1k : k - 1 = 0
      · xtake [decide_eq_true h1k]
        have hu : us = [] := List.eq_nil_of_length_eq_zero (by omega)
        subst hu
        exact negmodinv_last hk ho hZ ha H (by fr F) hs (by simp) (word_zero _).symm
      · xfall [decide_eq_false h1k]
        refine negmodinv_rest (n := k - 2) hk hx ho hZ ha H (by simp [hl]; omega) (by simp) (by fr F) hs (word_zero _).symm ?_
        show BitVec.ofNat 64 (k - 1) = _
        congr 1
        omega
  have start : ∀ t, t.rdi = BitVec.ofNat 64 (k + 1) → t.rsi = s.rsi → t.rdx = s.rdx → t.rsp = word (s.rsp - 16#64) 0 → t.wr = s.wr →
      Env s.mem s.rsi (k + 1) (s.rsp - 16#64) 2 0 [(s.rdx, x)] t.mem → From Asm.bignumNegmodinv 5 t (NiDone s x (k + 1)) := by
    intro t tdi tsi tdx tsp twr E
    have hM0 := E.get (p := s.rdx) (ws := x) (by simp) (i := 0) (by omega)
    rw [word_zero] at hM0
    xstep [tdx]
    xstep [hM0]
    xstep []
    xstep []
    xstep [St.shift, St.shiftFlags, BitVec.toNat_ofNat, Nat.reducePow, Nat.reduceMod, OfNat.ofNat_ne_zero, if_false]
    iterate 20 xstep []
    have hw := hZ 0 (by omega)
    rw [word_zero] at hw
    xstep [tsi, twr, hw]
    have he := E.store ha (i := 0) (by omega) (winv (wd x 0))
    rw [word_zero] at he
    have hh := (Holds.nil t.mem s.rsi).snoc (by simp) (i := 0) rfl (winv (wd x 0))
    rw [word_zero] at hh
    xstep [tdi, sub_beq_zero]
    by_cases h1 : k = 0
    · subst h1
      xtake [show BitVec.ofNat 64 (0 + 1) = 1#64 from rfl, decide_true]
      have hv : (val x * val [winv (wd x 0)] + 1) % 2 ^ (64 * 1) = 0 := by
        have := (show NiLeft x 1 [] [1#64] from ⟨rfl, 0, by simp [val]⟩).last ho
        rw [BitVec.one_mul] at this
        exact this.2
      exact negmodinv_end (zs := [winv (wd x 0)]) ⟨rfl, rfl, tsp, rfl, he⟩ hh rfl hv
    · have hne : BitVec.ofNat 64 (k + 1) ≠ 1#64 := by
        intro e
        have := (ofNat_inj (i := k + 1) (j := 1) (by omega) (by omega)).mp e
        omega
      xfall [decide_eq_false hne]
      exact more _ (by omega) ⟨rfl, rfl, tsp, rfl, he⟩ rfl rfl hh
  apply runs_of_from
  have hsp : s.rsp = word (s.rsp - 16#64) 2 := stack_top s 2
  have E2 := ((Env.init (Z := s.rsi) (k := k + 1) (b := s.rsp - 16#64) (n := 2) hi).push hb (by omega) s.rbx).push hb (by omega) s.r12
  generalize hbb : s.rsp - 16#64 = b at *
  xstep []
  xstep [hsp, word_sub8, hS 1 (by omega)]
  xstep [word_sub8, hS 0 (by omega)]
  xstep [hdi, ofNat_beq_zero (i := k + 1) (by omega)]
  xfall [decide_eq_false (Nat.succ_ne_zero k)]
  exact start _ rfl rfl rfl rfl rfl E2

end Verif.X86
