import Verif.Proof.X86
import Verif.Model.AsmX86.Words
import Verif.Model.Bignum

/-! `bignum_digitsize`, `bignum_bitsize` and `bignum_ctz`. -/
namespace Verif.X86
open Verif

/-- The top words of `x` from `d` to `i` are zero, and `d` is the least such. -/
structure Top (x : Words) (i d : Nat) : Prop where
  le : d ≤ i
  zero : val (x.take i) < 2 ^ (64 * d)
  top : d = 0 ∨ 2 ^ (64 * (d - 1)) ≤ val (x.take i)

theorem Top.init (x : Words) : Top x 0 0 := ⟨Nat.le_refl _, by simp, .inl rfl⟩

theorem Top.step {x : Words} {i d : Nat} (h : Top x i d) (hi : i < x.length) :
    Top x (i + 1) (if wd x i = 0#64 then d else i + 1) := by
  obtain ⟨h1, h2, h3⟩ := h
  have hv := val_take_succ hi
  have hlt := val_lt (x.take (i + 1))
  rw [List.length_take, Nat.min_eq_left (by omega)] at hlt
  by_cases hz : wd x i = 0#64
  · rw [if_pos hz]
    rw [hz] at hv
    simp only [BitVec.toNat_ofNat, Nat.zero_mod, Nat.mul_zero, Nat.add_zero] at hv
    exact ⟨by omega, by rw [hv]; exact h2, by rw [hv]; exact h3⟩
  · rw [if_neg hz]
    refine ⟨Nat.le_refl _, hlt, .inr ?_⟩
    rw [hv, Nat.add_sub_cancel]
    have : 1 ≤ (wd x i).toNat := by
      rcases Nat.eq_zero_or_pos (wd x i).toNat with h | h
      · exact absurd (BitVec.eq_of_toNat_eq h) hz
      · exact h
    calc 2 ^ (64 * i) = 2 ^ (64 * i) * 1 := (Nat.mul_one _).symm
      _ ≤ 2 ^ (64 * i) * (wd x i).toNat := Nat.mul_le_mul_left _ this
      _ ≤ _ := Nat.le_add_left _ _

theorem Top.digitsize {x : Words} {d : Nat} (h : Top x x.length d) : Bignum.digitsize x = d := by
  obtain ⟨h1, h2, h3⟩ := h
  rw [List.take_length] at h2 h3
  unfold Bignum.digitsize Bignum.bitsize
  by_cases hv : val x = 0
  · rw [if_pos hv]
    rcases h3 with h3 | h3
    · omega
    · have := Nat.two_pow_pos (64 * (d - 1))
      omega
  · rw [if_neg hv]
    rcases h3 with h3 | h3
    · subst h3
      simp at h2
      omega
    · have a := (Nat.le_log2 hv).mpr h3
      have b := (Nat.log2_lt hv).mpr h2
      omega

structure DigInv (s0 : St) (x : Words) (i n : Nat) (s : St) : Prop where
  pos : 0 < n
  le : i + n = x.length
  rdx : s.rdx = BitVec.ofNat 64 i
  rdi : s.rdi = s0.rdi
  rsi : s.rsi = s0.rsi
  mem : s.mem = s0.mem
  rax : ∃ d, s.rax = BitVec.ofNat 64 d ∧ Top x i d

theorem digitsize_ok (s : St) (x : Words) (hk : x.length < 2 ^ 61)
   (hr : s.rdi = BitVec.ofNat 64 x.length) (hX : Holds s.mem s.rsi x) :
   Runs Asm.bignumDigitsize s fun s' => s'.rax = BitVec.ofNat 64 (Bignum.digitsize x) ∧ s'.mem = s.mem := by
  apply runs_of_from
  xstep []
  xstep []
  xstep [hr]
  have hb := ofNat_beq_zero (i := x.length) (by omega)
  by_cases h0 : x.length = 0
  · xtake [hb, decide_eq_true h0]
    refine From.halt rfl ⟨?_, rfl⟩
    have : x = [] := List.eq_nil_of_length_eq_zero h0
    subst this
    rfl
  xfall [hb, decide_eq_false h0]
  xstep []
  refine From.loop (fun n s' => ∃ i, DigInv s x i n s') ?_ x.length _
    ⟨0, by omega, by omega, rfl, hr.symm, rfl, rfl, 0, rfl, Top.init x⟩
  rintro n t ⟨i, I⟩ ih
  obtain ⟨m, rfl⟩ : ∃ m, n = m + 1 := ⟨n - 1, by have := I.pos; omega⟩
  have hl := I.le
  obtain ⟨d, hd, T⟩ := I.rax
  have T' := T.step (by omega)
  have hz : (if (! wd x i == 0#64) = true then BitVec.ofNat 64 (i + 1) else BitVec.ofNat 64 d)
    = BitVec.ofNat 64 (if wd x i = 0#64 then d else i + 1) := by
    by_cases h : wd x i = 0#64 <;> simp [h]
  xstep [I.rdx, I.rsi, I.mem, hX.wd (i := i) (by omega)]
  xstep []
  xstep []
  xstep [hd, hz]
  xstep [I.rdi, hr, sub_beq_zero, ofNat_inj (i := i + 1) (j := x.length) (by omega) (by omega)]
  by_cases hm : i + 1 = x.length
  · xfall [decide_eq_true hm, Bool.not_true]
    rw [hm] at T'
    exact From.halt rfl ⟨by rw [T'.digitsize, ← hm], rfl⟩
  · xtake [decide_eq_false hm, Bool.not_false]
    exact ih m (by omega) _ ⟨i + 1, by omega, by omega, rfl, hr.symm, rfl, rfl, _, rfl, T'⟩

/-- `d` words, of which the top one is `w`; all ones for no words. -/
structure TopW (x : Words) (i d : Nat) (w : Word) : Prop where
  top : Top x i d
  zero : d = 0 → w = 0xffffffffffffffff#64
  word : 0 < d → w ≠ 0#64 ∧ val (x.take i) / 2 ^ (64 * (d - 1)) = w.toNat

theorem TopW.init (x : Words) : TopW x 0 0 0xffffffffffffffff#64 := ⟨Top.init x, fun _ => rfl, fun h => absurd h (by omega)⟩

theorem TopW.step {x : Words} {i d : Nat} {w : Word} (h : TopW x i d w) (hi : i < x.length) :
    TopW x (i + 1) (if wd x i = 0#64 then d else i + 1) (if wd x i = 0#64 then w else wd x i) := by
  refine ⟨h.top.step hi, ?_, ?_⟩
  · by_cases hz : wd x i = 0#64
    · rw [if_pos hz, if_pos hz]; exact h.zero
    · rw [if_neg hz]; intro hc; omega
  · have hv := val_take_succ hi
    have hlt := val_take_lt x i
    by_cases hz : wd x i = 0#64
    · rw [if_pos hz, if_pos hz]
      rw [hz] at hv
      simp only [BitVec.toNat_ofNat, Nat.zero_mod, Nat.mul_zero, Nat.add_zero] at hv
      rw [hv]
      exact h.word
    · rw [if_neg hz, if_neg hz]
      intro _
      refine ⟨hz, ?_⟩
      rw [hv, Nat.add_sub_cancel, Nat.add_mul_div_left _ _ (Nat.two_pow_pos _), Nat.div_eq_of_lt hlt, Nat.zero_add]

theorem log2_eq {n k : Nat} (h1 : 2 ^ k ≤ n) (h2 : n < 2 ^ (k + 1)) : Nat.log2 n = k := by
  have h0 : n ≠ 0 := by
    have := Nat.two_pow_pos k
    omega
  have a := (Nat.le_log2 h0).mpr h1
  have b := (Nat.log2_lt h0).mpr h2
  omega

theorem TopW.bitsize {x : Words} {d : Nat} {w : Word} (h : TopW x x.length d w) :
    Bignum.bitsize x = 64 * d + Nat.log2 w.toNat - 63 := by
  obtain ⟨⟨h1, h2, h3⟩, h4, h5⟩ := h
  rw [List.take_length] at h2 h3 h5
  unfold Bignum.bitsize
  by_cases hd : d = 0
  · subst hd
    rw [h4 rfl, if_pos (by simp at h2; omega)]
    decide +kernel
  · obtain ⟨hw, hq⟩ := h5 (by omega)
    have h3 : 2 ^ (64 * (d - 1)) ≤ val x := by omega
    have h0 : val x ≠ 0 := by
      have := Nat.two_pow_pos (64 * (d - 1))
      omega
    have hw0 : w.toNat ≠ 0 := fun h => hw (BitVec.eq_of_toNat_eq h)
    rw [if_neg h0]
    have : Nat.log2 (val x) = 64 * (d - 1) + Nat.log2 w.toNat := by
      have a := Nat.log2_self_le hw0
      have b := Nat.lt_log2_self (n := w.toNat)
      rw [← hq] at a b
      apply log2_eq
      · rw [Nat.pow_add, Nat.mul_comm, ← hq]
        exact (Nat.le_div_iff_mul_le (Nat.two_pow_pos _)).mp a
      · rw [Nat.add_assoc, Nat.pow_add, Nat.mul_comm, ← hq]
        exact (Nat.div_lt_iff_lt_mul (Nat.two_pow_pos _)).mp b
    rw [this]
    omega

structure BitInv (s0 : St) (x : Words) (i n : Nat) (s : St) : Prop where
  pos : 0 < n
  le : i + n = x.length
  r8 : s.r8 = BitVec.ofNat 64 i
  rdi : s.rdi = s0.rdi
  rsi : s.rsi = s0.rsi
  mem : s.mem = s0.mem
  rax : ∃ d, s.rax = BitVec.ofNat 64 d ∧ TopW x i d s.rdx

theorem bitsize_ok (s : St) (x : Words) (hk : x.length < 2 ^ 58)
   (hr : s.rdi = BitVec.ofNat 64 x.length) (hX : Holds s.mem s.rsi x) :
   Runs Asm.bignumBitsize s fun s' => s'.rax = BitVec.ofNat 64 (Bignum.bitsize x) ∧ s'.mem = s.mem := by
  apply runs_of_from
  xstep []
  xstep []
  xstep [hr]
  have hb := ofNat_beq_zero (i := x.length) (by omega)
  by_cases h0 : x.length = 0
  · xtake [hb, decide_eq_true h0]
    refine From.halt rfl ⟨?_, rfl⟩
    have : x = [] := List.eq_nil_of_length_eq_zero h0
    subst this
    rfl
  xfall [hb, decide_eq_false h0]
  xstep []
  xstep []
  refine From.loop (fun n s' => ∃ i, BitInv s x i n s') ?_ x.length _
    ⟨0, by omega, by omega, rfl, hr.symm, rfl, rfl, 0, rfl, TopW.init x⟩
  rintro n t ⟨i, I⟩ ih
  obtain ⟨m, rfl⟩ : ∃ m, n = m + 1 := ⟨n - 1, by have := I.pos; omega⟩
  have hl := I.le
  obtain ⟨d, hd, T⟩ := I.rax
  have T' := T.step (by omega)
  have hz : (if (! wd x i == 0#64) = true then BitVec.ofNat 64 (i + 1) else BitVec.ofNat 64 d)
    = BitVec.ofNat 64 (if wd x i = 0#64 then d else i + 1) := by
    by_cases h : wd x i = 0#64 <;> simp [h]
  have hz2 : (if (! wd x i == 0#64) = true then wd x i else t.rdx)
    = (if wd x i = 0#64 then t.rdx else wd x i) := by
    by_cases h : wd x i = 0#64 <;> simp [h]
  xstep [I.r8, I.rsi, I.mem, hX.wd (i := i) (by omega)]
  xstep []
  xstep []
  xstep [hd, hz]
  xstep [hz2]
  generalize (if wd x i = 0#64 then d else i + 1) = d' at *
  generalize (if wd x i = 0#64 then t.rdx else wd x i) = w' at *
  xstep [I.rdi, hr, sub_beq_zero, ofNat_inj (i := i + 1) (j := x.length) (by omega) (by omega)]
  by_cases hm : i + 1 = x.length
  · xfall [decide_eq_true hm, Bool.not_true]
    rw [hm] at T'
    have hbs := T'.bitsize
    have hdl := T'.top.le
    have hw0 : w' ≠ 0#64 := by
      by_cases hd : d' = 0
      · rw [T'.zero hd]; decide
      · exact (T'.word (by omega)).1
    have hlg : Nat.log2 w'.toNat < 64 :=
      (Nat.log2_lt fun h => hw0 (BitVec.eq_of_toNat_eq h)).mpr w'.isLt
    xstep [St.shift, St.shiftFlags, BitVec.toNat_ofNat, Nat.reducePow, Nat.reduceMod, Nat.reduceEqDiff, if_false, shl_ofNat]
    xstep []
    xstep [hw0, if_false, highBit]
    xstep []
    refine From.halt rfl ⟨?_, rfl⟩
    show adcv (sbbv (BitVec.ofNat 64 (64 * d')) 63#64 false) (BitVec.ofNat 64 (Nat.log2 w'.toNat)) false = _
    rw [hbs]
    by_cases hd : d' = 0
    · have hw := T'.zero hd
      subst hd hw
      decide +kernel
    · rw [sub_ofNat (by omega), add_ofNat]
      congr 1
      omega
  · xtake [decide_eq_false hm, Bool.not_false]
    exact ih m (by omega) _ ⟨i + 1, by omega, by omega, rfl, hr.symm, rfl, rfl, _, rfl, T'⟩

theorem trailingZeros_zero (f : Nat) : Bignum.trailingZeros f 0 = f := by
  induction f with
  | zero => rfl
  | succ f ih => rw [Bignum.trailingZeros, if_neg (by omega), ih]

theorem trailingZeros_eq (f e q : Nat) (he : e < f) (hq : q % 2 = 1) : Bignum.trailingZeros f (2 ^ e * q) = e := by
  induction e generalizing f with
  | zero =>
    obtain ⟨g, rfl⟩ : ∃ g, f = g + 1 := ⟨f - 1, by omega⟩
    rw [Nat.pow_zero, Nat.one_mul, Bignum.trailingZeros, if_pos hq]
  | succ e ih =>
    obtain ⟨g, rfl⟩ : ∃ g, f = g + 1 := ⟨f - 1, by omega⟩
    have h : 2 ^ (e + 1) * q = 2 * (2 ^ e * q) := by rw [Nat.pow_succ, Nat.mul_comm (2 ^ e), Nat.mul_assoc]
    rw [Bignum.trailingZeros, h, if_neg (by omega), Nat.mul_div_cancel_left _ (by omega), ih g (by omega)]

theorem lowBit_spec {v : Word} (h : v ≠ 0#64) : lowBit v < 64 ∧ ∃ q, q % 2 = 1 ∧ v.toNat = 2 ^ lowBit v * q := by
  unfold lowBit
  cases hf : (List.range 64).find? fun i => v.getLsbD i with
  | none =>
    exfalso
    rw [List.find?_eq_none] at hf
    apply h
    apply BitVec.eq_of_getLsbD_eq
    intro i hi
    have := hf i (List.mem_range.mpr hi)
    simpa using this
  | some l =>
    rw [List.find?_range_eq_some] at hf
    obtain ⟨h1, h2, h3⟩ := hf
    have hl : l < 64 := List.mem_range.mp h2
    refine ⟨hl, v.toNat / 2 ^ l, ?_, ?_⟩
    · have : v.toNat.testBit l = true := h1
      rw [Nat.testBit_eq_decide_div_mod_eq] at this
      exact of_decide_eq_true this
    · show v.toNat = 2 ^ l * (v.toNat / 2 ^ l)
      have : v.toNat % 2 ^ l = 0 := by
        apply Nat.eq_of_testBit_eq
        intro i
        rw [Nat.testBit_mod_two_pow, Nat.zero_testBit]
        by_cases hi : i < l
        · have := h3 i hi
          have e : v.getLsbD i = false := by simpa using this
          have e : v.toNat.testBit i = false := e
          rw [e, Bool.and_false]
        · simp [hi]
      have := Nat.div_add_mod v.toNat (2 ^ l)
      omega

/-- The lowest of the words from `n` on that is not zero is number `d - 1`, and is `w`; past the end if there is none. -/
structure Low (x : Words) (n d : Nat) (w : Word) : Prop where
  le : n < d ∧ d ≤ x.length + 1
  nz : w ≠ 0#64
  zero : d = x.length + 1 → w = 1#64 ∧ val (x.drop n) = 0
  word : d ≤ x.length → ∃ r, val (x.drop n) = 2 ^ (64 * (d - 1 - n)) * (w.toNat + 2 ^ 64 * r)

theorem Low.init (x : Words) : Low x x.length (x.length + 1) 1#64 := by
  refine ⟨by omega, by decide, fun _ => ⟨rfl, ?_⟩, fun h => by omega⟩
  rw [List.drop_length]
  rfl

theorem Low.step {x : Words} {n d : Nat} {w : Word} (h : Low x (n + 1) d w) (hn : n < x.length) :
    Low x n (if wd x n = 0#64 then d else n + 1) (if wd x n = 0#64 then w else wd x n) := by
  obtain ⟨h1, h2, h3, h4⟩ := h
  have hv := val_drop_step x n
  by_cases hz : wd x n = 0#64
  · rw [if_pos hz, if_pos hz]
    rw [hz] at hv
    have hv : val (x.drop n) = 0 + 2 ^ 64 * val (x.drop (n + 1)) := hv
    refine ⟨by omega, h2, fun hd => ⟨(h3 hd).1, ?_⟩, fun hd => ?_⟩
    · rw [hv, (h3 hd).2]
    · obtain ⟨r, hr⟩ := h4 hd
      refine ⟨r, ?_⟩
      rw [hv, hr, Nat.zero_add, ← Nat.mul_assoc, ← Nat.pow_add]
      congr 2
      omega
  · rw [if_neg hz, if_neg hz]
    refine ⟨by omega, hz, fun hd => by omega, fun _ => ⟨val (x.drop (n + 1)), ?_⟩⟩
    rw [hv, show n + 1 - 1 - n = 0 by omega, Nat.mul_zero, Nat.pow_zero, Nat.one_mul]

theorem Low.ctz {x : Words} {d : Nat} {w : Word} (h : Low x 0 d w) : Bignum.ctz x = 64 * (d - 1) + lowBit w := by
  obtain ⟨h1, h2, h3, h4⟩ := h
  rw [List.drop_zero] at h3 h4
  obtain ⟨hl, q, hq, hw⟩ := lowBit_spec h2
  unfold Bignum.ctz
  by_cases hd : d = x.length + 1
  · obtain ⟨h5, h6⟩ := h3 hd
    rw [h6, trailingZeros_zero, h5, hd]
    have : lowBit 1#64 = 0 := by decide
    rw [this]
    rfl
  · obtain ⟨r, hr⟩ := h4 (by omega)
    have e : w.toNat + 2 ^ 64 * r = 2 ^ lowBit w * (q + 2 ^ (64 - lowBit w) * r) := by
      rw [Nat.mul_add, ← hw, ← Nat.mul_assoc, ← Nat.pow_add, Nat.add_sub_cancel' (Nat.le_of_lt hl)]
    rw [hr, e, Nat.sub_zero, ← Nat.mul_assoc, ← Nat.pow_add]
    apply trailingZeros_eq
    · omega
    · obtain ⟨g, hg⟩ : ∃ g, 64 - lowBit w = g + 1 := ⟨64 - lowBit w - 1, by omega⟩
      rw [hg, Nat.pow_succ, Nat.mul_comm (2 ^ g), Nat.mul_assoc]
      omega

structure CtzInv (s0 : St) (x : Words) (n : Nat) (s : St) : Prop where
  pos : 0 < n
  le : n ≤ x.length
  rdi : s.rdi = BitVec.ofNat 64 n
  rsi : s.rsi = s0.rsi
  mem : s.mem = s0.mem
  low : ∃ d, s.rdx = BitVec.ofNat 64 d ∧ Low x n d s.rcx

theorem ctz_ok (s : St) (x : Words) (hk : x.length < 2 ^ 58)
   (hr : s.rdi = BitVec.ofNat 64 x.length) (hX : Holds s.mem s.rsi x) :
   Runs Asm.bignumCtz s fun s' => s'.rax = BitVec.ofNat 64 (Bignum.ctz x) ∧ s'.mem = s.mem := by
  apply runs_of_from
  xstep []
  xstep []
  xstep [hr]
  have hb := ofNat_beq_zero (i := x.length) (by omega)
  by_cases h0 : x.length = 0
  · xtake [hb, decide_eq_true h0]
    refine From.halt rfl ⟨?_, rfl⟩
    have : x = [] := List.eq_nil_of_length_eq_zero h0
    subst this
    rfl
  xfall [hb, decide_eq_false h0]
  xstep []
  xstep []
  xstep []
  refine From.loop (CtzInv s x) ?_ x.length _ ⟨by omega, by omega, rfl, rfl, rfl, _, rfl, Low.init x⟩
  rintro n t I ih
  obtain ⟨m, rfl⟩ : ∃ m, n = m + 1 := ⟨n - 1, by have := I.pos; omega⟩
  have hl := I.le
  obtain ⟨d, hd, T⟩ := I.low
  have T' := T.step (by omega)
  have hz : (if (! wd x m == 0#64) = true then BitVec.ofNat 64 (m + 1) else BitVec.ofNat 64 d)
    = BitVec.ofNat 64 (if wd x m = 0#64 then d else m + 1) := by
    by_cases h : wd x m = 0#64 <;> simp [h]
  have hz2 : (if (! wd x m == 0#64) = true then wd x m else t.rcx)
    = (if wd x m = 0#64 then t.rcx else wd x m) := by
    by_cases h : wd x m = 0#64 <;> simp [h]
  xstep [I.rdi, word_pred, I.rsi, I.mem, hX.wd (i := m) (by omega)]
  xstep []
  xstep [hd, hz]
  xstep [hz2]
  generalize (if wd x m = 0#64 then d else m + 1) = d' at *
  generalize (if wd x m = 0#64 then t.rcx else wd x m) = w' at *
  xstep []
  have hb := ofNat_beq_zero (i := m) (by omega)
  by_cases hm : m = 0
  · subst hm
    xfall [hb, decide_true, Bool.not_true]
    obtain ⟨e, rfl⟩ : ∃ e, d' = e + 1 := ⟨d' - 1, by have := T'.le; omega⟩
    xstep []
    xstep [St.shift, St.shiftFlags, BitVec.toNat_ofNat, Nat.reducePow, Nat.reduceMod, Nat.reduceEqDiff, if_false, shl_ofNat]
    have hw0 := T'.nz
    xstep [hw0, if_false]
    xstep []
    refine From.halt rfl ⟨?_, rfl⟩
    show adcv (BitVec.ofNat 64 (lowBit w')) (BitVec.ofNat 64 (64 * e)) false = _
    rw [add_ofNat, T'.ctz, Nat.add_sub_cancel, Nat.add_comm]
  · xtake [hb, decide_eq_false hm, Bool.not_false]
    exact ih m (by omega) _ ⟨by omega, by omega, rfl, rfl, rfl, _, rfl, T'⟩

end Verif.X86
