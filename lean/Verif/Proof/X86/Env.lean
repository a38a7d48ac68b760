import Verif.Proof.X86
import Verif.Spec.AsmCall
import Mathlib.Tactic.Ring
import Mathlib.Tactic.LinearCombination
import Mathlib.Tactic.Zify
import Mathlib.Data.BitVec

/-! Routines with a stack frame and loops over arrays: memory, rows of products, the inverse of a word. -/
namespace Verif.X86
open Verif

/-- Memory in a run: the arrays that are only read are as on entry, the words of the stack from the `lo`-th can be read, nothing else
changed but the `k` words at `Z`. -/
structure Env (m0 : Word → Option Word) (Z : Word) (k : Nat) (b : Word) (n lo : Nat) (ro : List (Word × Words))
    (m : Word → Option Word) : Prop where
  ro : ∀ p ∈ ro, Holds m p.1 p.2
  st : ∀ i < n, lo ≤ i → ∃ v, m (word b i) = some v
  un : ∀ a, (∀ i < k, a ≠ word Z i) → (∀ i < n, a ≠ word b i) → m a = m0 a

theorem Env.store {m0 : Word → Option Word} {Z : Word} {k : Nat} {b : Word} {n lo : Nat} {ro : List (Word × Words)}
    {m : Word → Option Word} (h : Env m0 Z k b n lo ro m) (ha : ∀ p ∈ ro, Apart Z k p.1 p.2.length) {i : Nat} (hi : i < k) (v : Word) :
    Env m0 Z k b n lo ro fun a => if a = word Z i then some v else m a := by
  refine ⟨fun p hp j hj => ?_, fun j hj hl => ?_, fun a h1 h2 => ?_⟩
  · rw [if_neg fun e => ha p hp i hi j hj e.symm]
    exact h.ro p hp j hj
  · by_cases e : word b j = word Z i
    · exact ⟨v, if_pos e⟩
    · rw [if_neg e]
      exact h.st j hj hl
  · rw [if_neg (h1 i hi)]
    exact h.un a h1 h2

/-- On entry. -/
theorem Env.init {m0 : Word → Option Word} {Z : Word} {k : Nat} {b : Word} {n : Nat} {ro : List (Word × Words)}
    (h : ∀ p ∈ ro, Holds m0 p.1 p.2) : Env m0 Z k b n n ro m0 :=
  ⟨h, fun _ h1 h2 => absurd h1 (Nat.not_lt.mpr h2), fun _ _ _ => rfl⟩

/-- A word is pushed. -/
theorem Env.push {m0 : Word → Option Word} {Z : Word} {k : Nat} {b : Word} {n lo : Nat} {ro : List (Word × Words)}
    {m : Word → Option Word} (h : Env m0 Z k b n (lo + 1) ro m) (ha : ∀ p ∈ ro, Apart b n p.1 p.2.length) (hl : lo < n) (v : Word) :
    Env m0 Z k b n lo ro fun a => if a = word b lo then some v else m a := by
  refine ⟨fun p hp j hj => ?_, fun j hj h1 => ?_, fun a h1 h2 => ?_⟩
  · rw [if_neg fun e => ha p hp lo hl j hj e.symm]
    exact h.ro p hp j hj
  · by_cases e : word b j = word b lo
    · exact ⟨v, if_pos e⟩
    · rw [if_neg e]
      refine h.st j hj ?_
      rcases Nat.lt_or_ge lo j with h2 | h2
      · exact h2
      · exact absurd (by rw [show j = lo by omega]) e
  · rw [if_neg (h2 lo hl)]
    exact h.un a h1 h2

/-- The stack pointer is lowered: nothing is written. -/
theorem Env.pushed {m0 : Word → Option Word} {Z : Word} {k : Nat} {b : Word} {n lo : Nat} {ro : List (Word × Words)}
    {m : Word → Option Word} (h : Env m0 Z k b n lo ro m) {w : Word} (hw : m (word b lo) = some w) :
    Env m0 Z k b n lo ((word b lo, [w]) :: ro) m := by
  refine ⟨fun p hp => ?_, h.st, h.un⟩
  rcases List.mem_cons.mp hp with rfl | hp
  · intro i hi
    have : i = 0 := by
      have : i < 1 := hi
      omega
    subst this
    rw [word_zero]
    exact hw
  · exact h.ro p hp

theorem Env.get {m0 : Word → Option Word} {Z : Word} {k : Nat} {b : Word} {n lo : Nat} {ro : List (Word × Words)}
    {m : Word → Option Word} (h : Env m0 Z k b n lo ro m) {p : Word} {ws : Words} (hp : (p, ws) ∈ ro) {i : Nat} (hi : i < ws.length) :
    m (word p i) = some (wd ws i) := (h.ro _ hp).wd hi

theorem Holds.drop_wd {m : Word → Option Word} {p : Word} {us old : Words} {i j : Nat} (h : Holds m p (us ++ old.drop i))
    (hu : us.length = i) (hj : i ≤ j) (hi : j < old.length) : m (word p j) = some (X86.wd old j) := by
  rw [Holds.wd h (by simp; omega), wd_eq (by simp; omega), wd_eq hi, List.getElem_append_right (by omega), List.getElem_drop]
  congr 2
  omega

theorem word_sub8 (b : Word) (i : Nat) : word b (i + 1) - 8#64 = word b i := by
  have := word_pred b i
  rw [← this, BitVec.sub_eq_add_neg]
  rfl

theorem word_plus8 (b : Word) (i : Nat) : word b i + 8#64 = word b (i + 1) := by
  rw [← word_add8]
  exact (BitVec.add_zero _).symm

theorem stack_top (s : St) (n : Nat) : s.rsp = word (s.rsp - BitVec.ofNat 64 (8 * n)) n := by
  unfold word
  have : BitVec.ofNat 64 (8 * n) = 8#64 * BitVec.ofNat 64 n := by rw [BitVec.ofNat_mul]
  rw [this, BitVec.sub_add_cancel]

/-- A product row: `us` are the low words of `z + b * y` over the first `i` words, `h` and `c` what goes on. -/
structure RowOf (z y : Words) (b : Nat) (i : Nat) (us : Words) (h : Nat) (c : Bool) : Prop where
  len : us.length = i
  sum : val us + 2 ^ (64 * i) * (h + c.toNat) = val (z.take i) + b * val (y.take i)

theorem RowOf.init (z y : Words) (b : Nat) : RowOf z y b 0 [] 0 false := ⟨rfl, by simp [val]⟩

theorem mul_val (a b : Word) : (mullo a b).toNat + 2 ^ 64 * (mulhi a b).toNat = a.toNat * b.toNat := by
  have ha := a.isLt
  have hb := b.isLt
  have h : a.toNat * b.toNat < 2 ^ 64 * 2 ^ 64 := Nat.mul_lt_mul'' ha hb
  rw [mullo, mulhi, BitVec.toNat_mul, BitVec.toNat_ofNat, Nat.mod_eq_of_lt (a := _ / _) (Nat.div_lt_of_lt_mul h)]
  exact Nat.mod_add_div _ _

theorem mulhi_lt (a b : Word) : (mulhi a b).toNat < 2 ^ 64 - 1 := by
  have ha := a.isLt
  have hb := b.isLt
  have e := mul_val a b
  have h : a.toNat * b.toNat ≤ (2 ^ 64 - 1) * (2 ^ 64 - 1) := Nat.mul_le_mul (by omega) (by omega)
  omega

/-- The high word with a carry added by subtracting its mask. -/
theorem sub_msk {a : Word} (h : a.toNat < 2 ^ 64 - 1) (c : Bool) : (sbbv a (msk c) false).toNat = a.toNat + c.toNat := by
  have e : sbbv a (msk c) false = a - msk c := BitVec.sub_zero _
  rw [e, BitVec.toNat_sub]
  cases c <;> simp [msk] <;> omega

theorem RowOf.step {z y : Words} {b : Word} {i : Nat} {us : Words} {h : Word} {c : Bool} (H : RowOf z y b.toNat i us h.toNat c) :
    RowOf z y b.toNat (i + 1) (us ++ [adcv (mullo (wd y i) b) (adcv h (wd z i) c) false])
      (sbbv (mulhi (wd y i) b) (msk (adcc h (wd z i) c)) false).toNat
      (adcc (mullo (wd y i) b) (adcv h (wd z i) c) false) := by
  refine ⟨by rw [List.length_append, H.len]; rfl, ?_⟩
  have h1 := adc_val h (wd z i) c
  have h2 := adc_val (mullo (wd y i) b) (adcv h (wd z i) c) false
  have h3 := mul_val (wd y i) b
  have h4 := sub_msk (mulhi_lt (wd y i) b) (adcc h (wd z i) c)
  have h0 := H.sum
  rw [val_snoc, H.len, val_take_succ', val_take_succ', h4]
  simp only [Bool.toNat_false, Nat.add_zero] at h2
  have e : 2 ^ (64 * (i + 1)) = 2 ^ (64 * i) * 2 ^ 64 := by rw [Nat.mul_add, Nat.pow_add]
  rw [e]
  generalize 2 ^ (64 * i) = B at *
  zify at *
  linear_combination h0 + (B : Int) * h1 + (B : Int) * h2 + (B : Int) * h3

/-- The first step of a row that makes the lowest word vanish. -/
theorem RowOf.first (z y : Words) (b : Word) :
    RowOf z y b.toNat 1 [adcv (mullo (wd y 0) b) (wd z 0) false] (mulhi (wd y 0) b).toNat
      (adcc (mullo (wd y 0) b) (wd z 0) false) := by
  have h := (RowOf.init z y b.toNat).step (h := 0#64)
  have e1 : adcv 0#64 (wd z 0) false = wd z 0 := by simp [adcv]
  have e2 : adcc 0#64 (wd z 0) false = false := by
    have := (wd z 0).isLt
    simp [adcc]
    omega
  have e3 : sbbv (mulhi (wd y 0) b) (msk false) false = mulhi (wd y 0) b := by simp [sbbv, msk]
  rw [e1, e2, e3] at h
  exact h

/-- The negated inverse of an odd word, as computed by the routines. -/
def winv (a : Word) : Word :=
  let t := sbbv a (a <<< 2) false ^^^ 2#64
  let e := t * a
  let f := adcv e 1#64 false
  let g := f * f
  let h := g * g
  t * adcv 2#64 e false * adcv 1#64 g false * adcv 1#64 h false * adcv 1#64 (h * h) false

theorem winv_seed : ∀ a : BitVec 5, a.getLsbD 0 = true → ((a - a <<< 2) ^^^ 2#5) * a + 1#5 = 0#5 := by decide

theorem setWidth_sub' (a b : Word) : (a - b).setWidth 5 = a.setWidth 5 - b.setWidth 5 := by
  apply BitVec.eq_of_toNat_eq
  rw [BitVec.toNat_setWidth, BitVec.toNat_sub, BitVec.toNat_sub, BitVec.toNat_setWidth, BitVec.toNat_setWidth]
  have := b.isLt
  omega

theorem winv_low {a : Word} (h : a.toNat % 2 = 1) :
    ∃ u : Word, ((a - a <<< 2) ^^^ 2#64) * a + 1#64 = 32#64 * u := by
  have e : (((a - a <<< 2) ^^^ 2#64) * a + 1#64).setWidth 5 = 0#5 := by
    have := winv_seed (a.setWidth 5) (by
      rw [BitVec.getLsbD_setWidth]
      simp [BitVec.getLsbD, Nat.testBit_zero, h])
    rw [BitVec.setWidth_add _ _ (by decide), BitVec.setWidth_mul _ _ (by decide), BitVec.setWidth_xor,
      setWidth_sub', ← this]
    congr 5
    ext i hi
    simp
  have n : (((a - a <<< 2) ^^^ 2#64) * a + 1#64).toNat % 32 = 0 := by
    have := congrArg BitVec.toNat e
    rw [BitVec.toNat_setWidth] at this
    exact this
  generalize ((a - a <<< 2) ^^^ 2#64) * a + 1#64 = f at n ⊢
  refine ⟨BitVec.ofNat 64 (f.toNat / 32), BitVec.eq_of_toNat_eq ?_⟩
  rw [BitVec.toNat_mul, BitVec.toNat_ofNat, BitVec.toNat_ofNat]
  have := f.isLt
  omega

theorem adcv_false' (a b : Word) : adcv a b false = a + b := by simp [adcv]
theorem sbbv_false' (a b : Word) : sbbv a b false = a - b := by simp [sbbv]

theorem winv_mul {a : Word} (h : a.toNat % 2 = 1) : winv a * a = -1#64 := by
  obtain ⟨u, e⟩ := winv_low h
  simp only [winv, adcv_false', sbbv_false']
  generalize (a - a <<< 2) ^^^ 2#64 = t at *
  have z : (32#64) ^ 16 = 0#64 := by decide
  have h0 : (t * a + 1#64) ^ 16 = 0#64 := by rw [e, mul_pow, z]; exact zero_mul _
  have one : (1#64 : Word) = 1 := rfl
  have two : (2#64 : Word) = 2 := rfl
  have zero : (0#64 : Word) = 0 := rfl
  rw [one, zero] at h0
  rw [one, two]
  linear_combination h0

/-- The lowest word vanishes. -/
theorem red_zero {a z : Word} (h : a.toNat % 2 = 1) : adcv (mullo a (winv a * z)) z false = 0#64 := by
  have e := winv_mul h
  have one : (-1#64 : Word) = -1 := rfl
  have zero : (0#64 : Word) = 0 := rfl
  rw [one] at e
  rw [adcv_false', mullo, zero]
  linear_combination z * e

/-- A row whose lowest word is zero, moved down by a word. -/
theorem RowOf.down {z y : Words} {b k : Nat} {us : Words} {h : Word} {c : Bool} (H : RowOf z y b (k + 1) (0#64 :: us) h.toNat c)
    (hz : z.length = k + 1) (hy : y.length = k + 1) (t : Word) :
    2 ^ 64 * (val (us ++ [adcv h t c]) + 2 ^ (64 * (k + 1)) * (adcc h t c).toNat) =
      val z + b * val y + 2 ^ (64 * (k + 1)) * t.toNat := by
  have h1 := adc_val h t c
  have h2 := H.sum
  have h3 : us.length = k := by simpa using H.len
  rw [val_snoc, h3]
  rw [List.take_of_length_le (by omega), List.take_of_length_le (by omega)] at h2
  simp only [val, BitVec.toNat_ofNat, Nat.zero_mod, Nat.zero_add] at h2
  have e : 2 ^ (64 * (k + 1)) = 2 ^ (64 * k) * 2 ^ 64 := by rw [Nat.mul_add, Nat.pow_add]
  rw [e] at h2 ⊢
  generalize 2 ^ (64 * k) = B at *
  zify at *
  linear_combination h2 + (B : Int) * 2 ^ 64 * h1

/-- What is left after the conditional subtraction. -/
theorem mont_final {R A q M T : Nat} (hq : q < R) (hA : A ≤ R * M) (hT : R * T = A + q * M) {z us m : Words} {k : Nat} {c : Bool}
    {top : Nat} (hz : z.length = k) (hm : m.length = k) (hM : M = val m) (hM0 : 0 < M) (hv : val z + 2 ^ (64 * k) * top = T)
    (D : DiffOf z (opt (decide (M ≤ T)) m) k us c) : us.length = k ∧ val us < M ∧ val us * R % M = A % M := by
  have hlt : T < 2 * M := by
    apply Nat.lt_of_mul_lt_mul_left (a := R)
    have : q * M < R * M := Nat.mul_lt_mul_of_pos_right hq hM0
    have e : R * (2 * M) = R * M + R * M := by ring
    omega
  have hs := D.sum
  have hl := D.len
  have h1 := val_lt us
  have h2 := val_lt z
  have h3 := val_lt m
  rw [hl] at h1
  rw [hz] at h2
  rw [hm] at h3
  rw [List.take_of_length_le (l := z) (by omega)] at hs
  have hc := bool_toNat_le c
  have key : val us = if M ≤ T then T - M else T := by
    by_cases h : M ≤ T
    · rw [if_pos h]
      simp only [h, decide_true, opt, if_true] at hs
      rw [List.take_of_length_le (by omega), ← hM] at hs
      have : 2 ^ (64 * k) * top = 2 ^ (64 * k) * c.toNat := by
        have ht : top = 0 ∨ top = 1 ∨ 2 ≤ top := by omega
        have hc' : c.toNat = 0 ∨ c.toNat = 1 := by omega
        rcases ht with e | e | e <;> rcases hc' with e' | e' <;> simp only [e, e', Nat.mul_zero, Nat.mul_one] at hs hv ⊢
        · omega
        · omega
        all_goals
          exfalso
          have := Nat.mul_le_mul_left (2 ^ (64 * k)) e
          omega
      omega
    · rw [if_neg h]
      simp only [h, decide_false, opt, if_false, Bool.false_eq_true, List.take_nil] at hs
      have hs : val us = val z + 2 ^ (64 * k) * c.toNat := hs
      have ht : 2 ^ (64 * k) * top = 0 := by
        rcases Nat.eq_zero_or_pos top with e | e
        · rw [e, Nat.mul_zero]
        · have := Nat.mul_le_mul_left (2 ^ (64 * k)) e
          omega
      have hc0 : 2 ^ (64 * k) * c.toNat = 0 := by
        rcases Nat.eq_zero_or_pos c.toNat with e | e
        · rw [e, Nat.mul_zero]
        · have := Nat.mul_le_mul_left (2 ^ (64 * k)) e
          omega
      omega
  refine ⟨hl, by rw [key]; split <;> omega, ?_⟩
  have hTA : T * R % M = A % M := by rw [Nat.mul_comm T, hT, Nat.add_mul_mod_self_right]
  rw [key]
  split
  · rename_i h
    rw [← hTA, Nat.sub_mul, ← Nat.sub_mul_mod (n := M) (k := R) (x := T * R) (Nat.mul_comm R M ▸ Nat.mul_comm T R ▸ Nat.mul_le_mul_left R h)]
  · exact hTA

theorem odd_wd {m : Words} (h : val m % 2 = 1) : (wd m 0).toNat % 2 = 1 := by
  cases m with
  | nil => simp [val] at h
  | cons a m =>
    have e : wd (a :: m) 0 = a := rfl
    rw [e]
    rw [val] at h
    omega

theorem mont_step {B z q M x y j u : Nat} (hB : B = 2 ^ (64 * j)) (hW : B * z = x + u * M) (h : 2 ^ 64 * y = z + q * M) (hq : q < 2 ^ 64)
    (hu : u < B) : 2 ^ (64 * (j + 1)) * y = x + (u + B * q) * M ∧ u + B * q < 2 ^ (64 * (j + 1)) := by
  have e : 2 ^ (64 * (j + 1)) = B * 2 ^ 64 := by rw [Nat.mul_add, Nat.pow_add, hB]
  rw [e]
  constructor
  · clear hB e
    zify at *
    linear_combination hW + (B : Int) * h
  · have : B * (q + 1) ≤ B * 2 ^ 64 := Nat.mul_le_mul_left B hq
    rw [Nat.mul_add] at this
    omega

theorem mont_step' {B z q M x w Y y j u : Nat} (hB : B = 2 ^ (64 * j)) (hW : B * z = x * Y + u * M)
    (h : 2 ^ 64 * y = z + w * Y + q * M) (hq : q < 2 ^ 64) (hu : u < B) :
    2 ^ (64 * (j + 1)) * y = (x + 2 ^ (64 * j) * w) * Y + (u + B * q) * M ∧ u + B * q < 2 ^ (64 * (j + 1)) := by
  have e : 2 ^ (64 * (j + 1)) = B * 2 ^ 64 := by rw [Nat.mul_add, Nat.pow_add, hB]
  rw [e, ← hB]
  constructor
  · clear hB e
    zify at *
    linear_combination hW + (B : Int) * h
  · have : B * (q + 1) ≤ B * 2 ^ 64 := Nat.mul_le_mul_left B hq
    rw [Nat.mul_add] at this
    omega

/-- A word above the compared numbers: whether the whole is smaller. -/
theorem DiffOf.top_lt {z m us : Words} {k : Nat} {c : Bool} (D : DiffOf z m k us c) (hz : z.length = k) (hm : m.length = k) (top : Word) :
    sbbc top 0#64 c = !decide (val m ≤ val z + 2 ^ (64 * k) * top.toNat) := by
  have h1 := D.sum
  have h2 := val_lt us
  have h3 := val_lt m
  rw [D.len] at h2
  rw [hm] at h3
  rw [List.take_of_length_le (by omega), List.take_of_length_le (by omega)] at h1
  have e : sbbc top 0#64 c = decide (top.toNat < c.toNat) := by simp [sbbc]
  rw [e, Bool.eq_iff_iff, Bool.not_eq_true', decide_eq_true_iff, decide_eq_false_iff_not]
  cases c
  · simp only [Bool.toNat_false, Nat.mul_zero, Nat.add_zero, Nat.not_lt_zero, false_iff, not_not] at *
    omega
  · simp only [Bool.toNat_true, Nat.mul_one] at *
    rcases Nat.eq_zero_or_pos top.toNat with h | h
    · rw [h]; omega
    · have := Nat.mul_le_mul_left (2 ^ (64 * k)) h
      omega

theorem sub8_word (b : Word) (i : Nat) : sbbv (word b (i + 1)) 8#64 false = word b i := by
  rw [sbbv_false', word_sub8]

end Verif.X86
