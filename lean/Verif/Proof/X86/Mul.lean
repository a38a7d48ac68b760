import Verif.Proof.X86.Env
import Verif.Model.AsmX86.Mont
import Mathlib.Algebra.BigOperators.Intervals
import Mathlib.Algebra.BigOperators.Ring.Finset

/-! `bignum_mul`: products by columns. -/
namespace Verif.X86
open Verif

/-- The products that meet in column `i`. -/
def col (x y : Words) (i : Nat) : Nat := ∑ a ∈ Finset.range (i + 1), (wd x a).toNat * (wd y (i - a)).toNat

/-- The first `p` columns. -/
def cols (x y : Words) (p : Nat) : Nat := ∑ a ∈ Finset.range p, 2 ^ (64 * a) * (wd x a).toNat * val (y.take (p - a))

theorem cols_succ (x y : Words) (p : Nat) : cols x y (p + 1) = cols x y p + 2 ^ (64 * p) * col x y p := by
  unfold cols col
  rw [Finset.mul_sum]
  have h : ∑ a ∈ Finset.range p, 2 ^ (64 * a) * (wd x a).toNat * val (y.take (p - a)) =
      ∑ a ∈ Finset.range (p + 1), 2 ^ (64 * a) * (wd x a).toNat * val (y.take (p - a)) := by
    rw [Finset.sum_range_succ, Nat.sub_self, List.take_zero]
    simp [val]
  rw [h, ← Finset.sum_add_distrib]
  refine Finset.sum_congr rfl fun a ha => ?_
  rw [Finset.mem_range] at ha
  rw [show p + 1 - a = (p - a) + 1 by omega, val_take_succ']
  have e : 2 ^ (64 * p) = 2 ^ (64 * a) * 2 ^ (64 * (p - a)) := by rw [← Nat.pow_add]; congr 1; omega
  rw [e]
  ring

theorem val_take_sum (x : Words) (p : Nat) : ∑ a ∈ Finset.range p, 2 ^ (64 * a) * (wd x a).toNat = val (x.take p) := by
  induction p with
  | zero => simp
  | succ p ih => rw [Finset.sum_range_succ, ih, val_take_succ']

theorem cols_mod (x y : Words) (p : Nat) : cols x y p % 2 ^ (64 * p) = val x * val y % 2 ^ (64 * p) := by
  have h : ∀ a ∈ Finset.range p, 2 ^ (64 * a) * (wd x a).toNat * val (y.take (p - a)) ≡
      2 ^ (64 * a) * (wd x a).toNat * val y [MOD 2 ^ (64 * p)] := by
    intro a ha
    rw [Finset.mem_range] at ha
    have e : 2 ^ (64 * p) = 2 ^ (64 * a) * 2 ^ (64 * (p - a)) := by rw [← Nat.pow_add]; congr 1; omega
    rw [e, Nat.mul_assoc, Nat.mul_assoc]
    apply Nat.ModEq.mul_left'
    apply Nat.ModEq.mul_left
    rw [val_take]
    exact Nat.mod_modEq _ _
  have h2 : cols x y p ≡ ∑ a ∈ Finset.range p, 2 ^ (64 * a) * (wd x a).toNat * val y [MOD 2 ^ (64 * p)] := by
    unfold cols Nat.ModEq
    rw [Finset.sum_nat_mod, Finset.sum_congr rfl h, ← Finset.sum_nat_mod]
  rw [← Finset.sum_mul, val_take_sum] at h2
  refine h2.trans ?_
  apply Nat.ModEq.mul_right
  rw [val_take]
  exact Nat.mod_modEq _ _

/-- Only the words that exist count. -/
theorem col_ico (x y : Words) (i : Nat) :
    col x y i = ∑ a ∈ Finset.Ico (i + 1 - y.length) (min x.length (i + 1)), (wd x a).toNat * (wd y (i - a)).toNat := by
  unfold col
  symm
  refine Finset.sum_subset (fun a ha => ?_) fun a ha hn => ?_
  · rw [Finset.mem_Ico] at ha
    rw [Finset.mem_range]
    omega
  · rw [Finset.mem_range] at ha
    rw [Finset.mem_Ico] at hn
    by_cases h : a < x.length
    · rw [wd_ge (ws := y) (by omega)]
      rfl
    · rw [wd_ge (ws := x) (by omega)]
      simp

theorem word_back (p : Word) (d n : Nat) : word (word p d + 0xfffffffffffffff8#64) (n + 1) = word p (d + n) := by
  unfold word
  rw [BitVec.ofNat_add, BitVec.ofNat_add]
  have e : (0xfffffffffffffff8#64 : Word) = -8 := rfl
  have e8 : (8#64 : Word) = 8 := rfl
  have e1 : BitVec.ofNat 64 1 = (1 : Word) := rfl
  rw [e, e8, e1]
  ring

theorem cmov_sub {i j : Nat} (hi : i < 2 ^ 64) (hj : j < 2 ^ 64) :
    (if sbbc (BitVec.ofNat 64 i) (BitVec.ofNat 64 j) false = true then 0#64 else sbbv (BitVec.ofNat 64 i) (BitVec.ofNat 64 j) false) =
      BitVec.ofNat 64 (i - j) := by
  rw [sub_lt_ofNat hi hj]
  by_cases h : i < j
  · rw [if_pos (decide_eq_true h), Nat.sub_eq_zero_of_le h.le]
  · rw [if_neg (by simpa using h), sub_ofNat (by omega)]

/-- What stays the same during the run. -/
structure MuFr (s : St) (k : Nat) (x y : Words) (t : St) : Prop where
  rdi : t.rdi = BitVec.ofNat 64 k
  rbp : t.rbp = BitVec.ofNat 64 x.length
  rcx : t.rcx = s.rcx
  r8 : t.r8 = BitVec.ofNat 64 y.length
  r9 : t.r9 = s.r9
  rsp : t.rsp = word (s.rsp - 48#64) 0
  wr : t.wr = s.wr
  env : Env s.mem s.rsi k (s.rsp - 48#64) 6 0 [(s.rcx, x), (s.r9, y)] t.mem

local macro "fr" h:ident : tactic => `(tactic| exact ⟨by first | with_reducible rfl | exact (MuFr.rdi $h :),
  by first | with_reducible rfl | exact (MuFr.rbp $h :),
  by first | with_reducible rfl | exact (MuFr.rcx $h :),
  by first | with_reducible rfl | exact (MuFr.r8 $h :),
  by first | with_reducible rfl | exact (MuFr.r9 $h :),
  by first | with_reducible rfl | exact (MuFr.rsp $h :),
  by first | with_reducible rfl | exact (MuFr.wr $h :),
  by first | assumption | exact (MuFr.env $h :)⟩)

/-- What is wanted. -/
def MuDone (s : St) (x y : Words) (k : Nat) (s' : St) : Prop :=
  Holds s'.mem s.rsi (toWords k (val x * val y)) ∧ Env s.mem s.rsi k (s.rsp - 48#64) 6 0 [(s.rcx, x), (s.r9, y)] s'.mem

theorem mul_end {s t : St} {k : Nat} {x y : Words} (rsp : t.rsp = word (s.rsp - 48#64) 0)
    (env : Env s.mem s.rsi k (s.rsp - 48#64) 6 0 [(s.rcx, x), (s.r9, y)] t.mem)
    (h : Holds t.mem s.rsi (toWords k (val x * val y))) : From Asm.bignumMul 41 t (MuDone s x y k) := by
  obtain ⟨v0, h0⟩ := env.st 0 (by omega) (by omega)
  obtain ⟨v1, h1⟩ := env.st 1 (by omega) (by omega)
  obtain ⟨v2, h2⟩ := env.st 2 (by omega) (by omega)
  obtain ⟨v3, h3⟩ := env.st 3 (by omega) (by omega)
  obtain ⟨v4, h4⟩ := env.st 4 (by omega) (by omega)
  obtain ⟨v5, h5⟩ := env.st 5 (by omega) (by omega)
  xstep [rsp, h0, word_plus8]
  xstep [h1, word_plus8]
  xstep [h2, word_plus8]
  xstep [h3, word_plus8]
  xstep [h4, word_plus8]
  xstep [h5, word_plus8]
  exact From.halt rfl ⟨h, env⟩

/-- One column. -/
theorem mul_col {s : St} {k i : Nat} {x y : Words} {Q : St → Prop} (hk : k < 2 ^ 61) (hx : x.length < 2 ^ 61) (hy : y.length < 2 ^ 61)
    (hi : i < k) {v13 v14 z : Word} {m : Word → Option Word}
    (hQ : ∀ t, MuFr s k x y t → t.mem = m → t.rsi = z → t.r10 = BitVec.ofNat 64 (i + 1) →
      t.r13.toNat + 2 ^ 64 * t.r14.toNat + 2 ^ 128 * t.r15.toNat = v13.toNat + 2 ^ 64 * v14.toNat + col x y i → From Asm.bignumMul 35 t Q)
    {t : St} (F : MuFr s k x y t) (hm : t.mem = m) (hsi : t.rsi = z) (h10 : t.r10 = BitVec.ofNat 64 i) (h13 : t.r13 = v13)
    (h14 : t.r14 = v14) :
    From Asm.bignumMul 13 t Q := by
  rw [col_ico] at hQ
  generalize hlo : i + 1 - y.length = lo at *
  generalize hhi : min x.length (i + 1) = hi' at *
  have hhi2 : min (i + 1) x.length = hi' := by rw [Nat.min_comm]; exact hhi
  have c1 := cmov_sub (i := i + 1) (j := y.length) (by omega) (by omega)
  have c2 := cmov_min (i := i + 1) (j := x.length) (by omega) (by omega)
  have c3 := sub_ofNat (i := i + 1) (j := hi') (by omega)
  have c4 := sub_lt_ofNat (i := hi') (j := lo) (by omega) (by omega)
  rw [hlo] at c1
  rw [hhi2] at c2
  xstep []
  xstep [h10, inc_ofNat]
  xstep []
  xstep [F.r8]
  xstep [c1]
  xstep [F.rbp]
  xstep []
  xstep [c2]
  xstep []
  xstep [c3]
  xstep [c4, sub_beq_zero]
  by_cases hle : hi' ≤ lo
  · have hb : (decide (hi' < lo) || decide (BitVec.ofNat 64 hi' = BitVec.ofNat 64 lo)) = true := by
      rcases Nat.lt_or_eq_of_le hle with h | h
      · simp [h]
      · simp [h]
    xtake [Option.bind_some, hb]
    refine hQ _ (by fr F) hm hsi rfl ?_
    rw [Finset.Ico_eq_empty (by omega), Finset.sum_empty]
    show t.r13.toNat + 2 ^ 64 * t.r14.toNat + 2 ^ 128 * (0#64).toNat = _
    rw [h13, h14]
    simp
  · have hb : (decide (hi' < lo) || decide (BitVec.ofNat 64 hi' = BitVec.ofNat 64 lo)) = false := by
      rw [Bool.or_eq_false_iff, decide_eq_false_iff_not, decide_eq_false_iff_not, ofNat_inj (by omega) (by omega)]
      omega
    xfall [Option.bind_some, hb]
    xstep [F.rcx]
    xstep [F.r9]
    rw [sub_ofNat (i := hi') (j := lo) (by omega)]
    refine From.loop (fun n t => ∃ a, a + n = hi' ∧ lo ≤ a ∧ 0 < n ∧ MuFr s k x y t ∧ t.mem = m ∧ t.rsi = z ∧ t.r10 = BitVec.ofNat 64 (i + 1) ∧
        t.rbx = BitVec.ofNat 64 n ∧ t.r12 = word s.rcx a ∧ t.r11 = word s.r9 (i + 1 - hi') + 0xfffffffffffffff8#64 ∧
        t.r15.toNat ≤ a - lo ∧
        t.r13.toNat + 2 ^ 64 * t.r14.toNat + 2 ^ 128 * t.r15.toNat = v13.toNat + 2 ^ 64 * v14.toNat +
          ∑ a ∈ Finset.Ico lo a, (wd x a).toNat * (wd y (i - a)).toNat) ?_ (hi' - lo) _
      ⟨lo, by omega, le_refl _, by omega, by fr F, hm, hsi, rfl, rfl, rfl, rfl, by simp, ?_⟩
    · rintro n t ⟨a, han, hla, hn, F, hm, hsi, h10, hbx, h12, h11, h15, hv⟩ ih
      obtain ⟨n, rfl⟩ : ∃ j, n = j + 1 := ⟨n - 1, by omega⟩
      have hX := F.env.get (p := s.rcx) (ws := x) (by simp) (i := a) (by omega)
      have hY := F.env.get (p := s.r9) (ws := y) (by simp) (i := i - a) (by omega)
      have ey : word (word s.r9 (i + 1 - hi') + 0xfffffffffffffff8#64) (n + 1) = word s.r9 (i - a) := by
        rw [word_back]
        congr 1
        omega
      xstep [h11, hbx, ey, hY]
      xstep [h12, hX]
      xstep [word_add8]
      xstep []
      xstep []
      xstep []
      xstep [ofNat_beq_zero (i := n) (by omega)]
      have g0 := mul_val (wd y (i - a)) (wd x a)
      have g1 := adc_val t.r13 (mullo (wd y (i - a)) (wd x a)) false
      have g2 := adc_val t.r14 (mulhi (wd y (i - a)) (wd x a)) (adcc t.r13 (mullo (wd y (i - a)) (wd x a)) false)
      have g3 := adc_val t.r15 0#64 (adcc t.r14 (mulhi (wd y (i - a)) (wd x a)) (adcc t.r13 (mullo (wd y (i - a)) (wd x a)) false))
      have e0 : (0#64).toNat = 0 := rfl
      have gb := bool_toNat_le (adcc t.r14 (mulhi (wd y (i - a)) (wd x a)) (adcc t.r13 (mullo (wd y (i - a)) (wd x a)) false))
      rw [e0] at g3
      generalize hA : adcc t.r13 (mullo (wd y (i - a)) (wd x a)) false = cA at *
      generalize hB : adcc t.r14 (mulhi (wd y (i - a)) (wd x a)) cA = cB at *
      have gc : (adcc t.r15 0#64 cB).toNat = 0 := by
        have := bool_toNat_le (adcc t.r15 0#64 cB)
        omega
      rw [gc] at g3
      rw [Bool.toNat_false] at g1
      have hle' : (adcv t.r15 0#64 cB).toNat ≤ a + 1 - lo := by omega
      have hv' : (adcv t.r13 (mullo (wd y (i - a)) (wd x a)) false).toNat +
          2 ^ 64 * (adcv t.r14 (mulhi (wd y (i - a)) (wd x a)) cA).toNat + 2 ^ 128 * (adcv t.r15 0#64 cB).toNat =
          v13.toNat + 2 ^ 64 * v14.toNat + ∑ a ∈ Finset.Ico lo (a + 1), (wd x a).toNat * (wd y (i - a)).toNat := by
        rw [Finset.sum_Ico_succ_top hla]
        generalize ∑ a ∈ Finset.Ico lo a, (wd x a).toNat * (wd y (i - a)).toNat = S at *
        clear ih hQ hle' gc
        zify at g0 g1 g2 g3 hv ⊢
        linear_combination hv + g1 + 2 ^ 64 * g2 + 2 ^ 128 * g3 + g0
      by_cases hn0 : n = 0
      · xfall [decide_eq_true hn0, Bool.not_true]
        have ea : a + 1 = hi' := by omega
        rw [ea] at hv'
        exact hQ _ (by fr F) hm hsi h10 hv'
      · xtake [decide_eq_false hn0, Bool.not_false]
        exact ih n (by omega) _ ⟨a + 1, by omega, by omega, by omega, by fr F, hm, hsi, h10, rfl, rfl, rfl, hle', hv'⟩
    · show t.r13.toNat + 2 ^ 64 * t.r14.toNat + 2 ^ 128 * (0#64).toNat = _
      rw [h13, h14]
      simp

/-- `bignum_mul` leaves the low words of the product of `x` and `y` in `z`. -/
theorem mul_ok (s : St) (x y : Words) (k : Nat) (hk : k < 2 ^ 61) (hx : x.length < 2 ^ 61) (hy : y.length < 2 ^ 61)
    (hdi : s.rdi = BitVec.ofNat 64 k) (hdx : s.rdx = BitVec.ofNat 64 x.length) (h8 : s.r8 = BitVec.ofNat 64 y.length)
    (hZ : s.Owns s.rsi k) (hS : s.Owns (s.rsp - 48#64) 6)
    (hi : ∀ p ∈ [(s.rcx, x), (s.r9, y)], Holds s.mem p.1 p.2)
    (ha : ∀ p ∈ [(s.rcx, x), (s.r9, y)], Apart s.rsi k p.1 p.2.length)
    (hb : ∀ p ∈ [(s.rcx, x), (s.r9, y)], Apart (s.rsp - 48#64) 6 p.1 p.2.length) :
    Runs Asm.bignumMul s (MuDone s x y k) := by
  have start : ∀ t, t.rdi = BitVec.ofNat 64 k → t.rsi = s.rsi → t.rdx = BitVec.ofNat 64 x.length → t.rcx = s.rcx →
      t.r8 = BitVec.ofNat 64 y.length → t.r9 = s.r9 → t.rsp = word (s.rsp - 48#64) 0 → t.wr = s.wr →
      Env s.mem s.rsi k (s.rsp - 48#64) 6 0 [(s.rcx, x), (s.r9, y)] t.mem → From Asm.bignumMul 7 t (MuDone s x y k) := by
    intro t tdi tsi tdx tcx t8 t9 tsp twr E
    xstep [tdx]
    xstep [tdi, ofNat_beq_zero (i := k) (by omega)]
    by_cases hk0 : k = 0
    · xtake [decide_eq_true hk0]
      subst hk0
      exact mul_end tsp E (Holds.nil _ _)
    · xfall [decide_eq_false hk0]
      xstep []
      xstep []
      xstep []
      refine From.loop (fun n t => ∃ i zs, i + n = k ∧ 0 < n ∧ MuFr s k x y t ∧ t.rsi = word s.rsi i ∧ t.r10 = BitVec.ofNat 64 i ∧
          Holds t.mem s.rsi zs ∧ zs.length = i ∧
          val zs + 2 ^ (64 * i) * (t.r13.toNat + 2 ^ 64 * t.r14.toNat) = cols x y i) ?_ k _
        ⟨0, [], by omega, by omega, ⟨rfl, rfl, tcx, t8, t9, tsp, twr, E⟩, ?_, rfl, Holds.nil _ _, rfl, ?_⟩
      · rintro n t ⟨i, zs, hin, hn, F, hsi, h10, hz, hl, hv⟩ ih
        refine mul_col hk hx hy (show i < k by omega) ?_ F rfl hsi h10 rfl rfl
        intro u G um usi u10 uv
        have hw := hZ i (by omega)
        xstep [usi, G.wr, hw]
        have he := G.env.store ha (i := i) (by omega) u.r13
        rw [um] at he
        have hs := hz.snoc (by omega) (i := i) hl.symm u.r13
        xstep []
        xstep []
        xstep [word_add8]
        xstep [u10, G.rdi, sub_lt_ofNat (i := i + 1) (j := k) (by omega) (by omega)]
        rw [← um] at hs he
        have hv' : val (zs ++ [u.r13]) + 2 ^ (64 * (i + 1)) * (u.r14.toNat + 2 ^ 64 * u.r15.toNat) = cols x y (i + 1) := by
          rw [cols_succ, val_snoc, hl, Nat.mul_add 64 i 1, Nat.pow_add, Nat.mul_one]
          generalize 2 ^ (64 * i) = B at *
          clear ih
          zify at hv uv ⊢
          linear_combination hv + (B : Int) * uv
        by_cases hm : i + 1 < k
        · xtake [decide_eq_true hm]
          exact ih (n - 1) (by omega) _ ⟨i + 1, _, by omega, by omega, by fr G, rfl, rfl, hs, by simp [hl], hv'⟩
        · xfall [decide_eq_false hm]
          have ek : i + 1 = k := by omega
          refine mul_end G.rsp he ?_
          have hlz : (zs ++ [u.r13]).length = k := by simp [hl, ek]
          have e : toWords k (val x * val y) = zs ++ [u.r13] := by
            rw [ek] at hv'
            have h1 := toWords_val (zs ++ [u.r13])
            rw [hlz] at h1
            rw [← h1]
            apply val_inj (by simp)
            rw [val_toWords, val_toWords, ← cols_mod, ← hv', Nat.add_mul_mod_self_left]
          rw [e]
          exact hs
      · show t.rsi = _
        rw [tsi, word_zero]
      · show val [] + 2 ^ (64 * 0) * ((0#64).toNat + 2 ^ 64 * (0#64).toNat) = _
        simp [cols, val]
  apply runs_of_from
  have hsp : s.rsp = word (s.rsp - 48#64) 6 := stack_top s 6
  have E6 := ((((((Env.init (Z := s.rsi) (k := k) (b := s.rsp - 48#64) (n := 6) hi).push hb (by omega) s.rbx).push hb (by omega) s.rbp).push
    hb (by omega) s.r12).push hb (by omega) s.r13).push hb (by omega) s.r14).push hb (by omega) s.r15
  generalize hbb : s.rsp - 48#64 = b at *
  xstep []
  xstep [hsp, word_sub8, hS 5 (by omega)]
  xstep [word_sub8, hS 4 (by omega)]
  xstep [word_sub8, hS 3 (by omega)]
  xstep [word_sub8, hS 2 (by omega)]
  xstep [word_sub8, hS 1 (by omega)]
  xstep [word_sub8, hS 0 (by omega)]
  exact start _ hdi rfl hdx rfl h8 rfl rfl rfl E6

end Verif.X86
