import Verif.Proof.Gf2
import Verif.Proof.Simd
import Verif.Spec.Ghash
import Verif.Model.GhashX86

/-!
Lemmas for C29.
-/
namespace Verif.GhashX86
open Verif Verif.Simd Verif.Gf2 Polynomial

set_option maxRecDepth 8000

/-! ### Bits and classes -/

theorem tp_bit {n : Nat} (i : Nat) (h : i < n) : tp (((1#1).setWidth n) <<< i) = X ^ i := by
  rw [tp_setWidth_shl _ _ (by omega)]
  simp [tp]

theorem tp_shr1 {n : Nat} (v : BitVec n) :
    tp v = (if v.getLsbD 0 then (1 : (ZMod 2)[X]) else 0) + X * tp (v >>> 1) := by
  ext j
  rw [coeff_add, coeff_tp]
  cases j with
  | zero => rw [mul_coeff_zero, coeff_X_zero, zero_mul, add_zero]; cases v.getLsbD 0 <;> simp
  | succ j =>
    rw [coeff_X_mul, coeff_tp, BitVec.getLsbD_ushiftRight, Nat.add_comm 1 j]
    cases v.getLsbD 0 <;> simp [coeff_one]

theorem tp_shl1 {n : Nat} (v : BitVec (n + 1)) :
    tp (v <<< 1) + (if v.getLsbD n then X ^ (n + 1) else 0) = X * tp v := by
  ext j
  rw [coeff_add, coeff_tp]
  cases j with
  | zero => simp; split <;> simp
  | succ j =>
    rw [coeff_X_mul, coeff_tp, BitVec.getLsbD_shiftLeft]
    by_cases hj : j = n
    · subst hj
      simp only [Nat.lt_irrefl, decide_false, Bool.false_and, Bool.false_eq_true, if_false, zero_add]
      split <;> simp
    · by_cases hlt : j < n
      · have : ¬ (j + 1 < 1) := by omega
        simp only [show j + 1 < n + 1 by omega, decide_true, this, decide_false, Bool.not_false,
          Bool.true_and, Nat.add_sub_cancel]
        have e : (if v.getLsbD n = true then (X : (ZMod 2)[X]) ^ (n + 1) else 0).coeff (j + 1) = 0 := by
          split
          · rw [coeff_X_pow, if_neg (by omega)]
          · simp
        rw [e, add_zero]
      · have e : (if v.getLsbD n = true then (X : (ZMod 2)[X]) ^ (n + 1) else 0).coeff (j + 1) = 0 := by
          split
          · rw [coeff_X_pow, if_neg (by omega)]
          · simp
        rw [e, add_zero, BitVec.getLsbD_of_ge v j (by omega)]
        simp [show ¬ j + 1 < n + 1 by omega]

theorem clmul_tp (a b : BitVec 64) (n : Nat) (h : n ≤ 64) :
    tp ((List.range n).foldl (fun acc i => if a.getLsbD i then acc ^^^ ((b.setWidth 128) <<< i) else acc)
      0#128) = (∑ i ∈ Finset.range n, if a.getLsbD i then X ^ i else 0) * tp b := by
  induction n with
  | zero => simp [tp_zero]
  | succ n ih =>
    rw [List.range_succ, List.foldl_append, List.foldl_cons, List.foldl_nil, Finset.sum_range_succ,
      add_mul, ← ih (by omega)]
    split
    · rw [tp_xor, tp_setWidth_shl _ _ (by omega)]
    · simp

theorem cls_clmul (a b : BitVec 64) : cls (clmul a b) = cls a * cls b := by
  rw [cls, clmul, clmul_tp a b 64 (Nat.le_refl _), map_mul]; rfl

noncomputable section

/-- Classes of the two halves. -/
def L (v : M128) : K := cls (lo64 v)
def H (v : M128) : K := cls (hi64 v)

theorem cls_halves (v : M128) : cls v = L v + y ^ 64 * H v := by
  rw [L, H, ← cls_append, halves]

theorem cls_swap (v : M128) : cls (shuffle32 v 0b01001110) = H v + y ^ 64 * L v := by
  rw [swap_eq, cls_append]; rfl

/-- `POLY_HI`. -/
def q : K := y ^ 63 + y ^ 62 + y ^ 57

theorem qP : y ^ 128 + y ^ 64 * q + 1 = 0 := by
  rw [q]; linear_combination P_cls

theorem q_poly : cls (0xc200000000000000#64) = q := by
  have : (0xc200000000000000#64) = ((1#1).setWidth 64 <<< 63) ^^^ ((1#1).setWidth 64 <<< 62) ^^^
    ((1#1).setWidth 64 <<< 57) := by decide
  rw [this, cls_xor, cls_xor, cls, cls, cls, tp_bit 63 (by omega), tp_bit 62 (by omega),
    tp_bit 57 (by omega), map_pow, map_pow, map_pow]
  rfl

/-- The two folding steps, on classes. -/
theorem fold_core (lo mi hi m1 : M128) (r : K)
    (hm : cls m1 = cls mi + (H lo + y ^ 64 * L lo) + q * L lo)
    (hr : r = cls hi + (H m1 + y ^ 64 * L m1) + q * L m1) :
    y ^ 128 * r = cls lo + y ^ 64 * cls mi + y ^ 128 * cls hi := by
  rw [cls_halves m1] at hm
  rw [hr, cls_halves lo]
  linear_combination y ^ 64 * hm + (y ^ 64 * L m1 + L lo) * qP - (y ^ 64 * L m1 + L lo) * two_eq

/-- The product an accumulator stands for. -/
def val (s : Acc) : K := cls s.lo + y ^ 64 * (cls s.mi + cls s.lo + cls s.hi) + y ^ 128 * cls s.hi

theorem clmul00 (a b : M128) : cls (clmulepi64 a b 0x00) = L a * L b := cls_clmul _ _
theorem clmul11 (a b : M128) : cls (clmulepi64 a b 0x11) = H a * H b := cls_clmul _ _
theorem clmul01 (a b : M128) : cls (clmulepi64 a b 0x01) = H a * L b := cls_clmul _ _
theorem clmul10 (a b : M128) : cls (clmulepi64 a b 0x10) = L a * H b := cls_clmul _ _

theorem reduce_ok (s : Acc) : y ^ 128 * cls (reduce s) = val s := by
  have h := fold_core s.lo (s.mi ^^^ s.lo ^^^ s.hi) s.hi
    (s.mi ^^^ s.lo ^^^ s.hi ^^^ shuffle32 s.lo 0b01001110 ^^^ clmulepi64 POLY_HI s.lo 0x00)
    (cls (reduce s)) ?_ ?_
  · rw [h, val, cls_xor, cls_xor]
  · rw [cls_xor, cls_xor (s.mi ^^^ s.lo ^^^ s.hi), cls_swap, clmul00]
    rw [show L POLY_HI = cls (0xc200000000000000#64) from congrArg cls (by decide), q_poly]
  · rw [reduce]
    rw [cls_xor, cls_xor, cls_swap, clmul00]
    rw [show L POLY_HI = cls (0xc200000000000000#64) from congrArg cls (by decide), q_poly]

theorem lo64_xor (a b : M128) : lo64 (a ^^^ b) = lo64 a ^^^ lo64 b := by
  simp [lo64, BitVec.extractLsb'_xor]

theorem L_xorHalves (h : M128) : L (xorHalves h) = L h + H h := by
  rw [L, xorHalves, lo64_xor, cls_xor, swap_eq, add_comm]
  rw [lo64_append]; rfl

theorem mulAcc_ok (s : Acc) (x h : M128) : val (mulAcc s x h (xorHalves h)) = val s + cls x * cls h := by
  rw [mulAcc]
  simp only [val]
  rw [cls_xor, cls_xor, cls_xor, clmul00, clmul11, clmul00, L_xorHalves,
    show L (shuffle32 x 78 ^^^ x) = L x + H x from L_xorHalves x, cls_halves x, cls_halves h]
  linear_combination (y ^ 64 * (L x * L h + H x * H h)) * two_eq

theorem mul_ok (a b : M128) : y ^ 128 * cls (mul a b) = cls a * cls b := by
  rw [mul, reduce_ok, mulAcc_ok]
  simp [val, cls_zero]

/-! ### The hash key -/

theorem add_self_eq (x : BitVec 64) : x + x = x <<< 1 := by
  apply BitVec.eq_of_toNat_eq
  rw [BitVec.toNat_add, BitVec.toNat_shiftLeft, Nat.shiftLeft_eq]
  congr 1; omega

theorem carry_mask (h : M128) : POLY_CARRY_MASK &&& srai31 (shuffle32 h 0b11010011) =
    (if h.getLsbD 127 then 0xc2000000000000000000000000000001#128 else 0#128) ^^^
    (if h.getLsbD 63 then 0x00000000000000010000000000000000#128 else 0#128) := by
  have hd : srai31 (shuffle32 h 0b11010011) =
      dwords (if h.getLsbD 127 then 0xffffffff#32 else 0#32) (if h.getLsbD 31 then 0xffffffff#32 else 0#32)
        (if h.getLsbD 63 then 0xffffffff#32 else 0#32) (if h.getLsbD 127 then 0xffffffff#32 else 0#32) := by
    rw [srai31, shuffle32, dword0, dword1, dword2, dword3, sra_dword, sra_dword, sra_dword]
  rw [hd]
  cases h.getLsbD 127 <;> cases h.getLsbD 63 <;> cases h.getLsbD 31 <;> decide

theorem cls_shl1 {n : Nat} (v : BitVec (n + 1)) :
    cls (v <<< 1) + (if v.getLsbD n then y ^ (n + 1) else 0) = y * cls v := by
  have := congrArg mk (tp_shl1 v)
  rw [map_add, map_mul] at this
  rw [cls, cls, y, ← this]
  congr 1
  split <;> simp

theorem cls_if (b : Bool) {n : Nat} (v : BitVec n) : cls (if b then v else 0#n) = if b then cls v else 0 := by
  cases b <;> simp [cls_zero]

theorem cls_carry : cls (0xc2000000000000000000000000000001#128) = y ^ 127 + y ^ 126 + y ^ 121 + 1 := by
  have : (0xc2000000000000000000000000000001#128) = ((1#1).setWidth 128 <<< 127) ^^^
    ((1#1).setWidth 128 <<< 126) ^^^ ((1#1).setWidth 128 <<< 121) ^^^ ((1#1).setWidth 128 <<< 0) := by decide
  rw [this, cls_xor, cls_xor, cls_xor, cls, cls, cls, cls, tp_bit 127 (by omega), tp_bit 126 (by omega),
    tp_bit 121 (by omega), tp_bit 0 (by omega), map_pow, map_pow, map_pow, pow_zero, map_one]
  rfl

theorem cls_bit64 : cls (0x00000000000000010000000000000000#128) = y ^ 64 := by
  have : (0x00000000000000010000000000000000#128) = ((1#1).setWidth 128 <<< 64) := by decide
  rw [this, cls, tp_bit 64 (by omega), map_pow]; rfl

theorem gf128BigEndian_ok (h : M128) : cls (gf128BigEndian h) = y * cls h := by
  rw [gf128BigEndian]
  rw [carry_mask, cls_xor, cls_xor, cls_if, cls_if, cls_carry, cls_bit64, add64, add_self_eq, add_self_eq,
    cls_append, cls_halves h]
  have h1 := cls_shl1 (hi64 h)
  have h2 := cls_shl1 (lo64 h)
  have b1 : (hi64 h).getLsbD 63 = h.getLsbD 127 := by simp [hi64]
  have b2 : (lo64 h).getLsbD 63 = h.getLsbD 63 := by simp [lo64]
  rw [b1] at h1; rw [b2] at h2
  change _ = y * cls (hi64 h) at h1
  change _ = y * cls (lo64 h) at h2
  rw [mul_add, L, ← h2, H, mul_left_comm, ← h1]
  have hP := P_cls
  cases h.getLsbD 127 <;> cases h.getLsbD 63 <;>
    simp only [Bool.false_eq_true, if_false, if_true, add_zero]
  · ring
  · linear_combination hP - y ^ 128 * two_eq
  · linear_combination hP - y ^ 128 * two_eq

end
end Verif.GhashX86
