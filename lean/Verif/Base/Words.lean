import Verif.Base.Bytes

/-!
Multi-word numbers: little-endian lists of 64-bit words.
-/
namespace Verif

/-- A machine word. -/
abbrev Word := BitVec 64
/-- A slice of words, least significant first. -/
abbrev Words := List Word

/-- The number a slice of words denotes. -/
def val : Words → Nat
  | [] => 0
  | w :: ws => w.toNat + 2 ^ 64 * val ws

/-- The low `k` words of a number. -/
def toWords : Nat → Nat → Words
  | 0, _ => []
  | k + 1, n => BitVec.ofNat 64 n :: toWords k (n / 2 ^ 64)

@[simp] theorem toWords_length (k n : Nat) : (toWords k n).length = k := by
  induction k generalizing n with
  | zero => rfl
  | succ k ih => simp [toWords, ih]

theorem pow_step (k : Nat) : 2 ^ (64 * (k + 1)) = 2 ^ 64 * 2 ^ (64 * k) := by
  rw [← Nat.pow_add]; congr 1; omega

theorem val_lt (ws : Words) : val ws < 2 ^ (64 * ws.length) := by
  induction ws with
  | nil => simp [val]
  | cons w ws ih =>
    have h1 := w.isLt
    rw [List.length_cons, pow_step, val]
    have : 2 ^ 64 * (val ws + 1) ≤ 2 ^ 64 * 2 ^ (64 * ws.length) := Nat.mul_le_mul_left _ ih
    omega

theorem val_toWords (k n : Nat) : val (toWords k n) = n % 2 ^ (64 * k) := by
  induction k generalizing n with
  | zero => simp [toWords, val, Nat.mod_one]
  | succ k ih =>
    rw [toWords, val, ih, pow_step, BitVec.toNat_ofNat]
    rw [Nat.mod_mul]

theorem val_toWords_of_lt {k n : Nat} (h : n < 2 ^ (64 * k)) : val (toWords k n) = n := by
  rw [val_toWords, Nat.mod_eq_of_lt h]

theorem toWords_val (ws : Words) : toWords ws.length (val ws) = ws := by
  induction ws with
  | nil => rfl
  | cons w ws ih =>
    have h1 := w.isLt
    rw [List.length_cons, toWords, val]
    have h2 : (w.toNat + 2 ^ 64 * val ws) / 2 ^ 64 = val ws := by omega
    rw [h2, ih]
    congr 1
    apply BitVec.eq_of_toNat_eq
    rw [BitVec.toNat_ofNat]
    omega

theorem val_inj {a b : Words} (hl : a.length = b.length) (h : val a = val b) : a = b := by
  rw [← toWords_val a, ← toWords_val b, hl, h]

theorem val_append (a b : Words) : val (a ++ b) = val a + 2 ^ (64 * a.length) * val b := by
  induction a with
  | nil => simp [val]
  | cons w a ih =>
    rw [List.cons_append, val, ih, val, List.length_cons, pow_step, Nat.mul_add, Nat.mul_assoc]
    omega

@[simp] theorem val_nil : val [] = 0 := rfl

@[simp] theorem val_zeros (n : Nat) : val (List.replicate n 0#64) = 0 := by
  induction n with
  | zero => rfl
  | succ n ih => simp [List.replicate_succ, val, ih]

theorem val_take_add_drop (ws : Words) (k : Nat) :
    val ws = val (ws.take k) + 2 ^ (64 * min k ws.length) * val (ws.drop k) := by
  conv => lhs; rw [← List.take_append_drop k ws]
  rw [val_append, List.length_take]

theorem val_take (ws : Words) (k : Nat) : val (ws.take k) = val ws % 2 ^ (64 * k) := by
  rcases Nat.lt_or_ge ws.length k with h | h
  · rw [List.take_of_length_le (by omega), Nat.mod_eq_of_lt]
    exact Nat.lt_of_lt_of_le (val_lt ws) (Nat.pow_le_pow_right (by omega) (by omega))
  · rw [val_take_add_drop ws k, Nat.min_eq_left h, Nat.add_mul_mod_self_left]
    have := val_lt (ws.take k)
    rw [List.length_take, Nat.min_eq_left h] at this
    rw [Nat.mod_eq_of_lt this]

theorem val_drop (ws : Words) (k : Nat) (h : k ≤ ws.length) : val (ws.drop k) = val ws / 2 ^ (64 * k) := by
  rw [val_take_add_drop ws k, Nat.min_eq_left h]
  have := val_lt (ws.take k)
  rw [List.length_take, Nat.min_eq_left h] at this
  rw [Nat.add_mul_div_left _ _ (Nat.two_pow_pos _), Nat.div_eq_of_lt this, Nat.zero_add]

theorem val_eq_zero_iff (ws : Words) : val ws = 0 ↔ ws = List.replicate ws.length 0#64 := by
  constructor
  · intro h
    exact val_inj (by simp) (by simpa using h)
  · intro h
    rw [h]; exact val_zeros _

end Verif
