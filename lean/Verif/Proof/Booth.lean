import Verif.Proof.EcBytes
import Mathlib.Tactic.Ring
import Mathlib.Tactic.IntervalCases
import Mathlib.Algebra.Group.Nat.Even

/-!
Booth recoding: the digits of a scalar, the sums of their multiples.
-/
namespace Verif.Ec

open Bignum

variable {N : Nat}

/-- `k / 2^(w i)`, rounded. -/
def bq (w k i : Nat) : Nat := (2 * k / 2 ^ (w * i) + 1) / 2

/-- The window of `w + 1` bits of digit `i`. -/
def bw (w k i : Nat) : Nat := 2 * k / 2 ^ (w * i) % 2 ^ (w + 1)

/-- The signed digit for a window. -/
def sd (w v : Nat) : Int := ((v + 1) / 2 : Nat) - (2 ^ w * (v / 2 ^ w) : Nat)

theorem bq_zero (w k : Nat) : bq w k 0 = k := by
  simp only [bq, Nat.mul_zero, Nat.pow_zero, Nat.div_one]; omega

theorem sd_eq (w k i : Nat) : sd w (bw w k i) = (bq w k i : Int) - 2 ^ w * bq w k (i + 1) := by
  have e : 2 * k / 2 ^ (w * (i + 1)) = 2 * k / 2 ^ (w * i) / 2 ^ w := by
    rw [Nat.mul_succ, Nat.pow_add, Nat.div_div_eq_div_mul]
  rw [sd, bw, bq, bq, e]
  generalize 2 * k / 2 ^ (w * i) = m
  have hpos : 0 < 2 ^ w := Nat.two_pow_pos w
  have h2 : 2 ^ (w + 1) = 2 ^ w * 2 := Nat.pow_succ ..
  have hm := Nat.div_add_mod m (2 ^ (w + 1))
  have hlt := Nat.mod_lt m (y := 2 ^ (w + 1)) (by omega)
  generalize m % 2 ^ (w + 1) = v at *
  generalize m / 2 ^ (w + 1) = c at *
  have hdiv : m / 2 ^ w = 2 * c + v / 2 ^ w := by
    rw [← hm, h2, Nat.mul_assoc, Nat.mul_add_div hpos]
  have hv : v / 2 ^ w < 2 := by rw [Nat.div_lt_iff_lt_mul hpos]; omega
  have h1 : (m + 1) / 2 = 2 ^ w * c + (v + 1) / 2 := by
    rw [← hm, h2, show 2 ^ w * 2 * c + v + 1 = 2 * (2 ^ w * c) + (v + 1) by ring, Nat.mul_add_div (by decide)]
  have h3 : (m / 2 ^ w + 1) / 2 = c + v / 2 ^ w := by
    rw [hdiv]
    generalize v / 2 ^ w = u at *
    omega
  rw [h1, h3]
  push_cast
  ring

theorem bw_lt (w k i : Nat) : bw w k i < 2 ^ (w + 1) := Nat.mod_lt _ (Nat.two_pow_pos _)

/-- Rounding: `2^(wi) q_i` is `k` up to half a unit. -/
theorem bq_bounds (w k i : Nat) : 2 * (2 ^ (w * i) * bq w k i) ≤ 2 * k + 2 ^ (w * i) ∧
    2 * k < 2 * (2 ^ (w * i) * bq w k i) + 2 ^ (w * i) := by
  rw [bq]
  have hpos : 0 < 2 ^ (w * i) := Nat.two_pow_pos _
  generalize 2 ^ (w * i) = t at *
  have hm := Nat.div_add_mod (2 * k) t
  have hlt := Nat.mod_lt (2 * k) hpos
  generalize 2 * k / t = m at *
  rcases Nat.even_or_odd' m with ⟨c, h | h⟩
  · subst h
    rw [show (2 * c + 1) / 2 = c by omega]
    rw [show t * (2 * c) = 2 * (t * c) by ring] at hm
    constructor <;> omega
  · subst h
    rw [show (2 * c + 1 + 1) / 2 = c + 1 by omega]
    rw [show t * (2 * c + 1) = 2 * (t * c) + t by ring] at hm
    rw [show t * (c + 1) = t * c + t by ring]
    constructor <;> omega

/-! ### The bytes -/

theorem getD_le (bs : Bytes) (i : Nat) : (bs.getD i 0).toNat = leNat bs / 256 ^ i % 256 := by
  induction bs generalizing i with
  | nil => simp
  | cons x xs ih =>
    cases i with
    | zero =>
      simp only [List.getD_cons_zero, leNat_cons, Nat.pow_zero, Nat.div_one]
      have := x.isLt
      omega
    | succ i =>
      rw [List.getD_cons_succ, ih, leNat_cons, Nat.pow_succ, Nat.mul_comm (256 ^ i), ← Nat.div_div_eq_div_mul]
      have := x.isLt
      rw [show (x.toNat + 256 * leNat xs) / 256 = leNat xs by omega]

theorem leNat_words (ws : Words) : leNat (ws.map fun w => toLE 8 w.toNat).flatten = val ws := by
  induction ws with
  | nil => rfl
  | cons w ws ih =>
    rw [List.map_cons, List.flatten_cons, leNat_append, ih, leNat_toLE, toLE_length, val]
    have := w.isLt
    rw [Nat.mod_eq_of_lt (by omega)]

theorem leNat_boothBytes (s : Scalar N) : leNat (boothBytes s) = s.toNat := by
  rw [boothBytes, leNat_append, leNat_words, val_words]; simp

theorem boothBytes_length (s : Scalar N) : (boothBytes s).length = 8 * N + 1 := by
  have h : ∀ ws : Words, ((ws.map fun w => toLE 8 w.toNat).flatten).length = 8 * ws.length := by
    intro ws
    induction ws with
    | nil => rfl
    | cons w ws ih => rw [List.map_cons, List.flatten_cons, List.length_append, ih, toLE_length, List.length_cons]; omega
  rw [boothBytes, List.length_append, h, words_length]; rfl

theorem boothWindow_eq (bs : Bytes) (index : Nat) (h : 1 ≤ index) :
    boothWindow bs index = BitVec.ofNat 8 (2 * leNat bs / 2 ^ index) := by
  rw [boothWindow]
  have g1 := getD_le bs ((index - 1) / 8)
  have g2 := getD_le bs ((index - 1) / 8 + 1)
  generalize leNat bs = k at *
  apply BitVec.eq_of_toNat_eq
  generalize bs.getD ((index - 1) / 8) 0 = a at *
  generalize bs.getD ((index - 1) / 8 + 1) 0 = c at *
  have hor : (a.setWidth 16 ||| (c.setWidth 16 <<< 8) : BitVec 16).toNat = a.toNat + 256 * c.toNat := by
    have := a.isLt
    have := c.isLt
    rw [BitVec.toNat_or, BitVec.toNat_shiftLeft, BitVec.toNat_setWidth, BitVec.toNat_setWidth,
      Nat.mod_eq_of_lt (by omega : a.toNat < 2 ^ 16), Nat.mod_eq_of_lt (by omega : c.toNat < 2 ^ 16), Nat.shiftLeft_eq,
      Nat.mod_eq_of_lt (by omega : c.toNat * 2 ^ 8 < 2 ^ 16)]
    rw [Nat.or_comm, Nat.mul_comm, ← Nat.two_pow_add_eq_or_of_lt (by omega)]
    omega
  rw [BitVec.toNat_setWidth, BitVec.toNat_ushiftRight, hor, Nat.shiftRight_eq_div_pow, BitVec.toNat_ofNat, g1, g2]
  have hi : index = 8 * ((index - 1) / 8) + (index - 1) % 8 + 1 := by omega
  have hsh : (index - 1) % 8 < 8 := Nat.mod_lt _ (by decide)
  generalize (index - 1) / 8 = o at *
  generalize (index - 1) % 8 = s at *
  subst hi
  rw [Nat.pow_succ 256, ← Nat.div_div_eq_div_mul]
  rw [show 2 ^ (8 * o + s + 1) = 2 * (256 ^ o * 2 ^ s) by
    rw [Nat.pow_succ, Nat.pow_add, Nat.pow_mul]; ring, Nat.mul_div_mul_left _ _ (by decide),
    ← Nat.div_div_eq_div_mul]
  clear g1 g2 hor
  generalize k / 256 ^ o = X
  interval_cases s <;> omega

/-- The window of digit `i`, for both widths. -/
theorem boothWindow_bw {w : Nat} (s : Scalar N) (i : Nat) (h : 1 ≤ w * i) (hw : w ≤ 7) :
    (boothWindow (boothBytes s) (w * i)).toNat % 2 ^ (w + 1) = bw w s.toNat i := by
  rw [boothWindow_eq _ _ h, leNat_boothBytes, BitVec.toNat_ofNat, bw]
  exact Nat.mod_mod_of_dvd _ (Nat.pow_dvd_pow 2 (by omega))

theorem firstWindow_bw {w : Nat} (s : Scalar N) (hw : w ≤ 7) :
    ((boothBytes s).getD 0 0 <<< 1).toNat % 2 ^ (w + 1) = bw w s.toNat 0 := by
  have := getD_le (boothBytes s) 0
  rw [leNat_boothBytes] at this
  rw [BitVec.toNat_shiftLeft, this, bw, Nat.mul_zero, Nat.pow_zero, Nat.div_one, Nat.pow_zero, Nat.div_one, Nat.shiftLeft_eq,
    Nat.mod_mod_of_dvd _ (Nat.pow_dvd_pow 2 (by omega))]
  have hd : 2 ^ (w + 1) ∣ 256 * 2 := Nat.dvd_trans (Nat.pow_dvd_pow 2 (by omega : w + 1 ≤ 9)) (by decide)
  rw [show s.toNat % 256 * 2 ^ 1 = 2 * s.toNat % (256 * 2) by omega]
  exact Nat.mod_mod_of_dvd _ hd

/-- `recode` of the 7-bit windows, all 256 cases. -/
theorem recodeW7_eq (v : Nat) (h : v < 256) : recodeW7 (BitVec.ofNat 8 v) =
    (BitVec.ofNat 8 (sd 7 v).natAbs, if sd 7 v < 0 ∨ v = 255 then 1 else 0) ∧ (sd 7 v).natAbs ≤ 64 := by
  revert v
  decide +kernel

/-- `recode` of the 5-bit windows, all 64 cases. -/
theorem recodeW5_eq (v : Nat) (h : v < 64) : recodeW5 (BitVec.ofNat 8 v) =
    (BitVec.ofNat 8 (sd 5 v).natAbs, if sd 5 v < 0 ∨ v = 63 then 1 else 0) ∧ (sd 5 v).natAbs ≤ 16 := by
  revert v
  decide +kernel

/-- The digits of the 7-bit windows, least significant first. -/
theorem itemsW7_eq (s : Scalar N) (i fuel : Nat) (hi : i ≤ 37) (hf : 37 - i < fuel) :
    itemsW7 (boothBytes s) fuel (7 * i) =
      (List.range' i (37 - i)).map fun j => recodeW7 (BitVec.ofNat 8 (bw 7 s.toNat j)) := by
  induction fuel generalizing i with
  | zero => omega
  | succ fuel ih =>
    rw [itemsW7, nextW7]
    by_cases h0 : i = 0
    · subst h0
      have e : (boothBytes s).getD 0 0 <<< 1 = BitVec.ofNat 8 (bw 7 s.toNat 0) := by
        apply BitVec.eq_of_toNat_eq
        rw [← firstWindow_bw s (by decide), BitVec.toNat_ofNat, Nat.mod_mod_of_dvd _ (by decide),
          Nat.mod_eq_of_lt (BitVec.isLt _)]
      rw [if_pos (by rfl), e]
      have := ih 1 (by omega) (by omega)
      simp only [Nat.mul_zero, Nat.zero_add]
      rw [Nat.mul_one] at this
      rw [this]
      rfl
    · rw [if_neg (by omega)]
      by_cases h1 : i ≤ 36
      · rw [if_pos (by omega)]
        have e : boothWindow (boothBytes s) (7 * i) = BitVec.ofNat 8 (bw 7 s.toNat i) := by
          apply BitVec.eq_of_toNat_eq
          rw [← boothWindow_bw s i (by omega) (by decide), BitVec.toNat_ofNat, Nat.mod_mod_of_dvd _ (by decide),
            Nat.mod_eq_of_lt (BitVec.isLt _)]
        have := ih (i + 1) (by omega) (by omega)
        simp only [e]
        rw [show 7 * i + 7 = 7 * (i + 1) by omega, this, show 37 - i = (37 - (i + 1)) + 1 by omega, List.range'_succ,
          List.map_cons]
      · rw [if_neg (by omega)]
        have : i = 37 := by omega
        subst this
        rfl

theorem boothRecodedW7_eq (s : Scalar N) :
    boothRecodedW7 s = (List.range' 0 37).map fun j => recodeW7 (BitVec.ofNat 8 (bw 7 s.toNat j)) :=
  itemsW7_eq s 0 38 (by decide) (by decide)

/-- The digits of the 5-bit windows, most significant first: digit numbers `i, i-1, …, 0`. -/
def digitsW5 (k : Nat) : Nat → List (BitVec 8 × BitVec 8 × Bool)
  | 0 => [((recodeW5 (BitVec.ofNat 8 (bw 5 k 0))).1, (recodeW5 (BitVec.ofNat 8 (bw 5 k 0))).2, true)]
  | i + 1 => ((recodeW5 (BitVec.ofNat 8 (bw 5 k (i + 1)))).1, (recodeW5 (BitVec.ofNat 8 (bw 5 k (i + 1)))).2, false) ::
      digitsW5 k i

theorem and63 (v : BitVec 8) : v &&& 63 = BitVec.ofNat 8 (v.toNat % 2 ^ (5 + 1)) := by
  apply BitVec.eq_of_toNat_eq
  rw [BitVec.toNat_and, BitVec.toNat_ofNat, show BitVec.toNat (63 : BitVec 8) = 2 ^ 6 - 1 by decide,
    Nat.and_two_pow_sub_one_eq_mod, Nat.mod_eq_of_lt (a := v.toNat % 2 ^ (5 + 1))]
  have := Nat.mod_lt v.toNat (y := 2 ^ (5 + 1)) (by decide)
  omega

theorem itemsW5_eq (C : Curve N) (s : Scalar N) (i fuel : Nat) (hi : 5 * i ≤ C.w5Start) (hf : i + 1 < fuel) :
    itemsW5 C (boothBytes s) fuel (some (5 * i)) = digitsW5 s.toNat i := by
  induction i generalizing fuel with
  | zero =>
    obtain ⟨fuel, rfl⟩ : ∃ m, fuel = m + 2 := ⟨fuel - 2, by omega⟩
    rw [itemsW5, nextW5, digitsW5]
    simp only [Nat.mul_zero, nonpos_iff_eq_zero, OfNat.ofNat_ne_zero, false_and, if_false, if_true]
    rw [and63, firstWindow_bw s (by decide)]
    rfl
  | succ i ih =>
    obtain ⟨fuel, rfl⟩ : ∃ m, fuel = m + 1 := ⟨fuel - 1, by omega⟩
    rw [itemsW5, nextW5, digitsW5]
    dsimp only
    rw [if_pos (by omega), and63, boothWindow_bw s (i + 1) (by omega) (by decide)]
    dsimp only
    rw [show 5 * (i + 1) - 5 = 5 * i by omega, ih fuel (by omega) (by omega)]

theorem reversedBoothRecodedW5_eq (C : Curve N) (s : Scalar N) (i : Nat) (hi : C.w5Start = 5 * i) :
    reversedBoothRecodedW5 C s = digitsW5 s.toNat i := by
  rw [reversedBoothRecodedW5, hi]
  exact itemsW5_eq C s i _ (by omega) (by omega)

end Verif.Ec
