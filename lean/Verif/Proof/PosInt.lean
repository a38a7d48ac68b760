import Verif.Model.PosInt
import Mathlib.Data.Nat.ModEq
import Mathlib.Tactic.Ring
import Mathlib.Tactic.Linarith
import Mathlib.Tactic.IntervalCases

/-!
Lemmas about `PosInt`: representation, comparison, and Montgomery arithmetic.
-/
namespace Verif.PosInt
open Verif Bignum

variable {N M : Nat}

/-! ### Representation -/

theorem length_asWords {p : PosInt N} (h : p.Inv) : p.asWords.length = p.used := by
  rw [asWords, List.length_take, h.length]; exact Nat.min_eq_left h.used

theorem value_lt {p : PosInt N} (h : p.Inv) : p.value < 2 ^ (64 * p.used) := by
  have := val_lt p.asWords
  rwa [length_asWords h] at this

theorem val_words {p : PosInt N} (h : p.Inv) : val p.words = p.value := by
  rw [val_take_add_drop p.words p.used, h.zero, val_zeros, Nat.mul_zero, Nat.add_zero]; rfl

theorem val_take_words {p : PosInt N} (h : p.Inv) {k : Nat} (hk : p.value < 2 ^ (64 * k)) : val (p.words.take k) = p.value := by
  rw [val_take, val_words h, Nat.mod_eq_of_lt hk]

theorem length_take_words {p : PosInt N} (h : p.Inv) {k : Nat} (hk : k ≤ N) : (p.words.take k).length = k := by
  rw [List.length_take, h.length]; exact Nat.min_eq_left hk

theorem value_lt_N {p : PosInt N} (h : p.Inv) : p.value < 2 ^ (64 * N) := by
  have := val_lt p.words
  rwa [val_words h, h.length] at this

theorem ofWords_asWords {ws : Words} : (ofWords N ws).asWords = ws := by
  rw [asWords, ofWords]; simp

theorem ofWords_value {ws : Words} : (ofWords N ws).value = val ws := by
  rw [value, ofWords_asWords]

theorem ofWords_inv {ws : Words} (h : ws.length ≤ N) : (ofWords N ws).Inv := by
  constructor
  · simp [ofWords]; omega
  · exact h
  · simp [ofWords]

theorem overwrite_asWords {p : PosInt N} {ws : Words} : (p.overwrite ws).asWords = ws := by
  rw [asWords, overwrite]; simp

theorem overwrite_value {p : PosInt N} {ws : Words} : (p.overwrite ws).value = val ws := by
  rw [value, overwrite_asWords]

theorem overwrite_inv {p : PosInt N} (h : p.Inv) {ws : Words} (hl : ws.length = p.used) : (p.overwrite ws).Inv := by
  constructor
  · simp [overwrite, h.length]; have := h.used; omega
  · simp [overwrite, hl, h.used]
  · have := h.zero
    simp [overwrite, hl, this]

theorem zero_inv : (zero N).Inv := ⟨by simp [zero], by simp [zero], by simp [zero]⟩

theorem zero_value : (zero N).value = 0 := by simp [value, asWords, zero]

theorem set_zero_eq (h : 0 < N) (w : Word) : (List.replicate N 0#64).set 0 w = w :: List.replicate (N - 1) 0#64 := by
  obtain ⟨n, rfl⟩ : ∃ n, N = n + 1 := ⟨N - 1, by omega⟩
  simp [List.replicate_succ]

theorem expand_one_inv {k : Nat} (h : 0 < k) (hN : k ≤ N) (w : Word) :
    (⟨(zero N).words.set 0 w, k⟩ : PosInt N).Inv ∧ (⟨(zero N).words.set 0 w, k⟩ : PosInt N).value = w.toNat := by
  obtain ⟨j, rfl⟩ : ∃ j, k = j + 1 := ⟨k - 1, by omega⟩
  have e : (zero N).words.set 0 w = w :: List.replicate (N - 1) 0#64 := set_zero_eq (by omega) w
  refine ⟨⟨?_, hN, ?_⟩, ?_⟩
  · simp [zero]
  · rw [e]; simp; omega
  · simp only [value, asWords, e, List.take_succ_cons, List.take_replicate, val, val_zeros]; omega

theorem one_inv (h : 0 < N) : (one N).Inv := (expand_one_inv (by omega) h 1#64).1
theorem one_value (h : 0 < N) : (one N).value = 1 := (expand_one_inv (by omega) h 1#64).2
theorem word_inv (h : 0 < N) (w : Word) : (word N w).Inv := (expand_one_inv (by omega) h w).1
theorem word_value (h : 0 < N) (w : Word) : (word N w).value = w.toNat := (expand_one_inv (by omega) h w).2

/-- Widening or narrowing `used` over zero words keeps the value. -/
theorem expand_inv {p other : PosInt N} (h : p.Inv) (ho : other.used ≤ N) (hv : p.value < 2 ^ (64 * other.used)) :
    (p.expand other).Inv ∧ (p.expand other).value = p.value := by
  have e : (p.expand other).value = p.value := val_take_words h hv
  refine ⟨⟨h.length, ho, ?_⟩, e⟩
  have hd := val_take_add_drop p.words other.used
  rw [val_words h, val_take_words h hv] at hd
  have h0 : val (p.words.drop other.used) = 0 := by
    have hp : 0 < 2 ^ (64 * min other.used p.words.length) := Nat.two_pow_pos _
    rcases Nat.eq_zero_or_pos (val (p.words.drop other.used)) with h0 | h0
    · exact h0
    · have := Nat.mul_pos hp h0; omega
  have := (val_eq_zero_iff _).1 h0
  rw [List.length_drop, h.length] at this
  exact this

/-! ### Sizes and tests -/

theorem bitsize_spec (x : Words) (k : Nat) : bitsize x ≤ k ↔ val x < 2 ^ k := by
  rw [bitsize]
  split
  · rename_i h; simp [h]
  · rename_i h
    rw [Nat.succ_le_iff, Nat.log2_lt h]

theorem digitsize_spec (x : Words) (k : Nat) : digitsize x ≤ k ↔ val x < 2 ^ (64 * k) := by
  rw [← bitsize_spec, digitsize]; omega

theorem digitsize_lt (x : Words) : val x < 2 ^ (64 * digitsize x) := (digitsize_spec x _).1 (Nat.le_refl _)

theorem digitsize_le (x : Words) : digitsize x ≤ x.length := (digitsize_spec x _).2 (val_lt x)

/-- The result of `add`-like functions: `N` words with `used` their digit size. -/
theorem sized_inv {ws : Words} (h : ws.length = N) :
    (⟨ws, digitsize ws⟩ : PosInt N).Inv ∧ (⟨ws, digitsize ws⟩ : PosInt N).value = val ws := by
  have hd := digitsize_lt ws
  have e : (⟨ws, digitsize ws⟩ : PosInt N).value = val ws := by
    rw [value, asWords, val_take, Nat.mod_eq_of_lt hd]
  refine ⟨⟨h, by rw [← h]; exact digitsize_le ws, ?_⟩, e⟩
  have h1 := val_take_add_drop ws (digitsize ws)
  have h2 : val (ws.take (digitsize ws)) = val ws := e
  rw [h2] at h1
  have h0 : val (ws.drop (digitsize ws)) = 0 := by
    have hp : 0 < 2 ^ (64 * min (digitsize ws) ws.length) := Nat.two_pow_pos _
    rcases Nat.eq_zero_or_pos (val (ws.drop (digitsize ws))) with h0 | h0
    · exact h0
    · have := Nat.mul_pos hp h0; omega
  have := (val_eq_zero_iff _).1 h0
  rw [List.length_drop, h] at this
  exact this

theorem lenBits_le (p : PosInt N) (k : Nat) : p.lenBits ≤ k ↔ p.value < 2 ^ k := bitsize_spec _ _

theorem isZero_iff (p : PosInt N) : p.isZero = true ↔ p.value = 0 := by
  have := lenBits_le p 0
  simp only [isZero, beq_iff_eq]
  omega

theorem lenBits_eq_one (p : PosInt N) : p.lenBits = 1 ↔ p.value = 1 := by
  have h0 := lenBits_le p 0
  have h1 := lenBits_le p 1
  omega

theorem isEven_iff {p : PosInt N} (h : p.Inv) : p.isEven = true ↔ p.value % 2 = 0 := by
  rw [isEven, beq_iff_eq, ← val_words h]
  rcases p.words with _ | ⟨w, ws⟩
  · simp
  · simp only [List.headD_cons, val]; omega

theorem isEven_false {p : PosInt N} (h : p.Inv) : p.isEven = false ↔ p.value % 2 = 1 := by
  have := isEven_iff h
  rcases he : p.isEven <;> simp [he] at this ⊢ <;> omega

theorem isOdd_iff {p : PosInt N} (h : p.Inv) : p.isOdd = true ↔ p.value % 2 = 1 := by
  rw [isOdd, Bool.not_eq_true', isEven_false h]

theorem isOdd_false {p : PosInt N} (h : p.Inv) : p.isOdd = false ↔ p.value % 2 = 0 := by
  rw [isOdd, Bool.not_eq_false', isEven_iff h]

theorem equals_iff (p q : PosInt N) : p.equals q = true ↔ p.value = q.value := by
  simp [equals, eq, value]

theorem lessThan_iff (p q : PosInt N) : p.lessThan q = true ↔ p.value < q.value := by
  rw [lessThan, cmpLt, value, value]
  split <;> simp_all

theorem used_pos {p : PosInt N} (h : p.value ≠ 0) : 0 < p.used := by
  rcases Nat.eq_zero_or_pos p.used with h0 | h0
  · exact absurd (by rw [value, asWords, h0]; simp) h
  · exact h0

theorem N_pos {p : PosInt N} (hi : p.Inv) (h : p.value ≠ 0) : 0 < N := Nat.lt_of_lt_of_le (used_pos h) hi.used

/-! ### Simple arithmetic -/

theorem shiftRight1_ok {p : PosInt N} (h : p.Inv) :
    p.shiftRight1.Inv ∧ p.shiftRight1.used = p.used ∧ p.shiftRight1.value = p.value / 2 := by
  have hl : (shrSmall p.used p.asWords 1).length = p.used := by simp [shrSmall]
  refine ⟨ofWords_inv (by rw [hl]; exact h.used), hl, ?_⟩
  rw [shiftRight1, ofWords_value, shrSmall, val_toWords_of_lt]
  · rfl
  · exact Nat.lt_of_le_of_lt (Nat.div_le_self _ _) (value_lt h)

theorem shiftRightVartime_ok {p : PosInt N} (h : p.Inv) (s : Nat) (hs : s < p.lenBits) :
    (p.shiftRightVartime s).Inv ∧ (p.shiftRightVartime s).value = p.value / 2 ^ s := by
  have hb : p.lenBits ≤ 64 * p.used := (lenBits_le _ _).2 (value_lt h)
  have hw : (s - s % 64) / 64 = s / 64 := by omega
  refine ⟨ofWords_inv (by simp [shrSmall]; have := h.used; omega), ?_⟩
  rw [shiftRightVartime, ofWords_value]
  simp only [hw]
  have hd : val (p.asWords.drop (s / 64)) = p.value / 2 ^ (64 * (s / 64)) :=
    val_drop _ _ (by rw [length_asWords h]; omega)
  have hlt : p.value / 2 ^ (64 * (s / 64)) < 2 ^ (64 * (p.used - s / 64)) := by
    rw [Nat.div_lt_iff_lt_mul (Nat.two_pow_pos _), ← Nat.pow_add]
    have := value_lt h
    rwa [show 64 * (p.used - s / 64) + 64 * (s / 64) = 64 * p.used by omega]
  rw [shrSmall, hd, val_toWords_of_lt]
  · rw [Nat.mod_mod, Nat.div_div_eq_div_mul, ← Nat.pow_add]
    congr 2; omega
  · exact Nat.lt_of_le_of_lt (Nat.div_le_self _ _) hlt

theorem sub_ok {p b : PosInt N} (h : p.Inv) (hb : b.Inv) (hle : b.value ≤ p.value) :
    (p.sub b).Inv ∧ (p.sub b).used = p.used ∧ (p.sub b).value = p.value - b.value := by
  have hl : (optsub p.used p.asWords b.words 1#64).length = p.used := by simp [optsub]
  refine ⟨ofWords_inv (by rw [hl]; exact h.used), hl, ?_⟩
  have h1 : val (p.asWords.take p.used) = p.value := by
    rw [List.take_of_length_le (by rw [length_asWords h])]; rfl
  have h2 : val (b.words.take p.used) = b.value := val_take_words hb (Nat.lt_of_le_of_lt hle (value_lt h))
  have h3 := value_lt h
  rw [sub, ofWords_value, optsub, if_neg (by decide), val_toWords, h1, h2,
    show p.value + 2 ^ (64 * p.used) - b.value = (p.value - b.value) + 2 ^ (64 * p.used) by omega, Nat.add_mod_right,
    Nat.mod_eq_of_lt (by omega)]

theorem mul_ok {a b : PosInt N} (ha : a.Inv) (hb : b.Inv) (h : N + N ≤ M) :
    ∃ r : PosInt M, mul M a b = some r ∧ r.Inv ∧ r.used = a.used + b.used ∧ r.value = a.value * b.value := by
  refine ⟨_, if_pos h, ofWords_inv ?_, ?_, ?_⟩
  · have := ha.used; have := hb.used; simp [Bignum.mul]; omega
  · simp [ofWords, Bignum.mul]
  · rw [ofWords_value, Bignum.mul, val_toWords_of_lt]
    · rfl
    · rw [Nat.mul_add, Nat.pow_add]
      exact Nat.mul_lt_mul'' (value_lt ha) (value_lt hb)

theorem add_ok {p b : PosInt N} (hp : p.Inv) (hb : b.Inv) (h : p.value + b.value < 2 ^ (64 * N)) :
    (p.add b).Inv ∧ (p.add b).value = p.value + b.value ∧ (p.add b).used = digitsize (p.add b).words := by
  have hl : (Bignum.add N p.asWords b.asWords).1.length = N := by simp [Bignum.add]
  have h1 : val (p.asWords.take N) = p.value := by
    rw [List.take_of_length_le (by rw [length_asWords hp]; exact hp.used)]; rfl
  have h2 : val (b.asWords.take N) = b.value := by
    rw [List.take_of_length_le (by rw [length_asWords hb]; exact hb.used)]; rfl
  obtain ⟨i1, i2⟩ := sized_inv hl
  refine ⟨i1, ?_, rfl⟩
  show (⟨_, digitsize _⟩ : PosInt N).value = _
  rw [i2]
  simp only [Bignum.add, h1, h2]
  exact val_toWords_of_lt h

theorem widen_ok {p : PosInt N} (hp : p.Inv) (h : N ≤ M) :
    ∃ r : PosInt M, p.widen M = some r ∧ r.Inv ∧ r.used = p.used ∧ r.value = p.value := by
  refine ⟨_, if_pos h, ofWords_inv ?_, ?_, ofWords_value⟩
  · rw [length_asWords hp]; exact Nat.le_trans hp.used h
  · exact length_asWords hp

theorem addMod_ok {A : Asm} (hA : A.Ok) {p b m : PosInt N} (hp : p.Inv) (hb : b.Inv) (hm : m.Inv) (h1 : p.value < m.value)
    (h2 : b.value < m.value) :
    (p.addMod A b m).Inv ∧ (p.addMod A b m).value = (p.value + b.value) % m.value := by
  have hl : (A.modadd (p.asWordsWithLenOf m) (b.asWordsWithLenOf m) m.asWords).length = m.used := by
    rw [hA.modadd_length, length_asWords hm]
  have hw : (ofWords N (A.modadd (p.asWordsWithLenOf m) (b.asWordsWithLenOf m) m.asWords)).words.length = N :=
    (ofWords_inv (by rw [hl]; exact hm.used)).length
  have hv := value_lt hm
  obtain ⟨i1, i2⟩ := sized_inv hw
  have p1 : val (p.asWordsWithLenOf m) = p.value := val_take_words hp (Nat.lt_trans h1 hv)
  have p2 : val (b.asWordsWithLenOf m) = b.value := val_take_words hb (Nat.lt_trans h2 hv)
  refine ⟨i1, ?_⟩
  show (⟨_, digitsize _⟩ : PosInt N).value = _
  rw [i2, val_words (ofWords_inv (by rw [hl]; exact hm.used)), ofWords_value,
    hA.modadd _ _ _ (by rw [asWordsWithLenOf, length_take_words hp hm.used, length_asWords hm])
      (by rw [asWordsWithLenOf, length_take_words hb hm.used, length_asWords hm]) (by rw [p1]; exact h1) (by rw [p2]; exact h2),
    p1, p2]
  rfl

theorem subMod_ok {p b m : PosInt N} (hp : p.Inv) (hb : b.Inv) (hm : m.Inv) (h1 : p.value < m.value)
    (h2 : b.value < m.value) :
    (p.subMod b m).Inv ∧ (p.subMod b m).used = m.used ∧ (p.subMod b m).value = (p.value + m.value - b.value) % m.value := by
  have hl : (modsub m.used p.words b.words m.words).length = m.used := by simp only [modsub]; split <;> simp
  refine ⟨ofWords_inv (by rw [hl]; exact hm.used), hl, ?_⟩
  have hv := value_lt hm
  have e1 := val_take_words hp (Nat.lt_trans h1 hv)
  have e2 := val_take_words hb (Nat.lt_trans h2 hv)
  have e3 := val_take_words hm hv
  rw [subMod, ofWords_value]
  simp only [modsub, e1, e2, e3]
  split
  · rw [val_toWords, show p.value + 2 ^ (64 * m.used) - b.value + m.value = (p.value + m.value - b.value) + 2 ^ (64 * m.used) by omega,
      Nat.add_mod_right, Nat.mod_eq_of_lt (by omega), Nat.mod_eq_of_lt (by omega)]
  · rw [val_toWords, show p.value + 2 ^ (64 * m.used) - b.value = (p.value - b.value) + 2 ^ (64 * m.used) by omega,
      Nat.add_mod_right, Nat.mod_eq_of_lt (by omega), show p.value + m.value - b.value = (p.value - b.value) + m.value by omega,
      Nat.add_mod_right, Nat.mod_eq_of_lt (by omega)]

end Verif.PosInt
