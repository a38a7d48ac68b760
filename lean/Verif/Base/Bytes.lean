/-!
Bytes and byte strings, and the numbers they denote.  Used by all models and specifications.
-/
namespace Verif

/-- `u8`. -/
abbrev Byte := BitVec 8
/-- `[u8]` / `Vec<u8>`. -/
abbrev Bytes := List Byte

/-- The number denoted by a big-endian byte string. -/
def beNat (bs : Bytes) : Nat := bs.foldl (fun acc b => acc * 256 + b.toNat) 0

/-- The number denoted by a little-endian byte string. -/
def leNat : Bytes → Nat
  | [] => 0
  | b :: bs => b.toNat + 256 * leNat bs

/-- `n` little-endian bytes of `v` (`v` reduced modulo `256^n`). -/
def toLE : Nat → Nat → Bytes
  | 0, _ => []
  | n + 1, v => BitVec.ofNat 8 v :: toLE n (v / 256)

/-- `n` big-endian bytes of `v` (`v` reduced modulo `256^n`). -/
def toBE (n v : Nat) : Bytes := (toLE n v).reverse

/-! ### Basic facts -/

@[simp] theorem leNat_nil : leNat [] = 0 := rfl
@[simp] theorem leNat_cons (b : Byte) (bs : Bytes) :
    leNat (b :: bs) = b.toNat + 256 * leNat bs := rfl

theorem leNat_append (a b : Bytes) : leNat (a ++ b) = leNat a + 256 ^ a.length * leNat b := by
  induction a with
  | nil => simp
  | cons x xs ih =>
    simp only [List.cons_append, leNat_cons, ih, List.length_cons, Nat.pow_succ]
    rw [Nat.mul_add, Nat.add_assoc, Nat.mul_comm (256 ^ xs.length) 256, Nat.mul_assoc]

theorem beNat_foldl (bs : Bytes) (acc : Nat) :
    bs.foldl (fun acc b => acc * 256 + b.toNat) acc = acc * 256 ^ bs.length + beNat bs := by
  induction bs generalizing acc with
  | nil => simp [beNat]
  | cons x xs ih =>
    simp only [beNat, List.foldl_cons, List.length_cons]
    rw [ih, ih (0 * 256 + x.toNat)]
    simp only [Nat.pow_succ, Nat.add_mul, Nat.zero_mul, Nat.zero_add, Nat.mul_assoc]
    rw [Nat.mul_comm 256, Nat.add_assoc]

@[simp] theorem beNat_nil : beNat [] = 0 := rfl

theorem beNat_cons (b : Byte) (bs : Bytes) :
    beNat (b :: bs) = b.toNat * 256 ^ bs.length + beNat bs := by
  show (b :: bs).foldl _ 0 = _
  rw [List.foldl_cons, beNat_foldl]; simp

theorem beNat_append (a b : Bytes) : beNat (a ++ b) = beNat a * 256 ^ b.length + beNat b := by
  simp only [beNat, List.foldl_append]
  rw [beNat_foldl]; rfl

theorem beNat_eq_leNat_reverse (bs : Bytes) : beNat bs = leNat bs.reverse := by
  induction bs with
  | nil => rfl
  | cons x xs ih =>
    rw [beNat_cons, List.reverse_cons, leNat_append, ih]
    simp [Nat.add_comm, Nat.mul_comm]

theorem leNat_lt (bs : Bytes) : leNat bs < 256 ^ bs.length := by
  induction bs with
  | nil => simp
  | cons x xs ih =>
    have := x.isLt
    simp only [leNat_cons, List.length_cons, Nat.pow_succ]
    omega

theorem beNat_lt (bs : Bytes) : beNat bs < 256 ^ bs.length := by
  rw [beNat_eq_leNat_reverse]; simpa using leNat_lt bs.reverse

@[simp] theorem toLE_length (n v : Nat) : (toLE n v).length = n := by
  induction n generalizing v with
  | zero => rfl
  | succ n ih => simp [toLE, ih]

@[simp] theorem toBE_length (n v : Nat) : (toBE n v).length = n := by simp [toBE]

theorem leNat_toLE (n v : Nat) : leNat (toLE n v) = v % 256 ^ n := by
  induction n generalizing v with
  | zero => simp [toLE, Nat.mod_one]
  | succ n ih =>
    simp only [toLE, leNat_cons, ih, BitVec.toNat_ofNat]
    rw [show 256 ^ (n + 1) = 256 * 256 ^ n from Nat.pow_succ', Nat.mod_mul]

theorem beNat_toBE (n v : Nat) : beNat (toBE n v) = v % 256 ^ n := by
  rw [beNat_eq_leNat_reverse]; simp [toBE, leNat_toLE]

theorem toLE_leNat (bs : Bytes) : toLE bs.length (leNat bs) = bs := by
  induction bs with
  | nil => rfl
  | cons x xs ih =>
    have hx := x.isLt
    simp only [List.length_cons, toLE, leNat_cons]
    have h1 : (x.toNat + 256 * leNat xs) / 256 = leNat xs := by omega
    rw [h1, ih]
    congr 1
    apply BitVec.eq_of_toNat_eq
    simp only [BitVec.toNat_ofNat]; omega

theorem toBE_beNat (bs : Bytes) : toBE bs.length (beNat bs) = bs := by
  rw [beNat_eq_leNat_reverse, toBE]
  have := toLE_leNat bs.reverse
  rw [List.length_reverse] at this
  rw [this, List.reverse_reverse]

theorem leNat_inj {a b : Bytes} (hl : a.length = b.length) (h : leNat a = leNat b) : a = b := by
  rw [← toLE_leNat a, ← toLE_leNat b, hl, h]

theorem beNat_inj {a b : Bytes} (hl : a.length = b.length) (h : beNat a = beNat b) : a = b := by
  rw [← toBE_beNat a, ← toBE_beNat b, hl, h]

theorem beNat_replicate_zero (n : Nat) : beNat (List.replicate n 0#8) = 0 := by
  induction n with
  | zero => rfl
  | succ n ih => simp [List.replicate_succ, beNat_cons, ih]

theorem beNat_zeros_append (n : Nat) (bs : Bytes) :
    beNat (List.replicate n 0#8 ++ bs) = beNat bs := by
  rw [beNat_append, beNat_replicate_zero]; simp

theorem toLE_mod (n v : Nat) : toLE n (v % 256 ^ n) = toLE n v := by
  apply leNat_inj
  · simp
  · rw [leNat_toLE, leNat_toLE, Nat.mod_mod]

theorem toLE_append (m n v : Nat) : toLE (m + n) v = toLE m v ++ toLE n (v / 256 ^ m) := by
  induction m generalizing v with
  | zero => simp [toLE]
  | succ m ih =>
    rw [Nat.succ_add]
    simp only [toLE, ih, List.cons_append, Nat.pow_succ]
    rw [Nat.div_div_eq_div_mul, Nat.mul_comm 256]

theorem leNat_drop (bs : Bytes) (i : Nat) : leNat (bs.drop i) = leNat bs / 256 ^ i := by
  induction i generalizing bs with
  | zero => simp
  | succ i ih => cases bs with
    | nil => simp
    | cons b bs =>
      have hb := b.isLt
      rw [List.drop_succ_cons, ih, leNat_cons, Nat.pow_succ', ← Nat.div_div_eq_div_mul]
      congr 1; omega

theorem leNat_take (bs : Bytes) (j : Nat) : leNat (bs.take j) = leNat bs % 256 ^ j := by
  induction j generalizing bs with
  | zero => simp [Nat.mod_one]
  | succ j ih => cases bs with
    | nil => simp
    | cons b bs =>
      have hb := b.isLt
      rw [List.take_succ_cons, leNat_cons, leNat_cons, ih, Nat.pow_succ', Nat.mod_mul]
      congr 1
      · omega
      · congr 2; omega

theorem leNat_slice (bs : Bytes) (i j : Nat) :
    leNat ((bs.drop i).take j) = leNat bs / 256 ^ i % 256 ^ j := by
  rw [leNat_take, leNat_drop]

end Verif
