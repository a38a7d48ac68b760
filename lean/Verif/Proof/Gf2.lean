import Mathlib.Algebra.Polynomial.Div
import Mathlib.Algebra.CharP.Two
import Mathlib.Algebra.Field.ZMod
import Mathlib.RingTheory.Ideal.Quotient.Defs
import Mathlib.RingTheory.Ideal.Quotient.Operations
import Mathlib.Tactic.ComputeDegree
import Mathlib.Tactic.LinearCombination
import Mathlib.Tactic.Ring

/-!
Bit vectors as polynomials over the field of two elements, and the quotient by the (reflected) GCM
polynomial.  Used only in proofs.
-/
namespace Verif.Gf2
open Polynomial

set_option maxRecDepth 8000

noncomputable section

/-- The polynomial whose coefficients are the bits of `v`. -/
def tp {n : Nat} (v : BitVec n) : (ZMod 2)[X] :=
  ∑ i ∈ Finset.range n, if v.getLsbD i then X ^ i else 0

theorem tp_zero (n : Nat) : tp (0#n) = 0 := by simp [tp]

theorem tp_xor {n : Nat} (a b : BitVec n) : tp (a ^^^ b) = tp a + tp b := by
  rw [tp, tp, tp, ← Finset.sum_add_distrib]
  refine Finset.sum_congr rfl fun i _ => ?_
  rw [BitVec.getLsbD_xor]
  cases a.getLsbD i <;> cases b.getLsbD i <;> simp [CharTwo.add_self_eq_zero]

theorem coeff_tp {n : Nat} (v : BitVec n) (i : Nat) : (tp v).coeff i = if v.getLsbD i then 1 else 0 := by
  rw [tp, finset_sum_coeff]
  by_cases h : i < n
  · rw [Finset.sum_eq_single i]
    · split <;> simp
    · intro j _ hj
      split
      · rw [coeff_X_pow, if_neg (fun e => hj e.symm)]
      · simp
    · intro h'; exact absurd (Finset.mem_range.2 h) h'
  · rw [BitVec.getLsbD_of_ge _ _ (by omega)]
    rw [Finset.sum_eq_zero]
    · simp
    · intro j hj
      have := Finset.mem_range.1 hj
      split
      · rw [coeff_X_pow, if_neg (by omega)]
      · simp

theorem tp_inj {n : Nat} (a b : BitVec n) (h : tp a = tp b) : a = b := by
  apply BitVec.eq_of_getLsbD_eq
  intro i _
  have := congrArg (fun p => p.coeff i) h
  simp only [coeff_tp] at this
  cases h1 : a.getLsbD i <;> cases h2 : b.getLsbD i <;> simp_all

theorem degree_tp {n : Nat} (v : BitVec n) : (tp v).degree < n := by
  rw [degree_lt_iff_coeff_zero]
  intro m hm
  rw [coeff_tp, BitVec.getLsbD_of_ge _ _ hm]; simp

/-- `hi` above `lo`. -/
theorem tp_append {m n : Nat} (hi : BitVec m) (lo : BitVec n) : tp (hi ++ lo) = tp lo + X ^ n * tp hi := by
  ext j
  rw [coeff_add, coeff_X_pow_mul', coeff_tp, coeff_tp, coeff_tp, BitVec.getLsbD_append]
  by_cases h : j < n
  · simp [h, show ¬ n ≤ j by omega]
  · rw [BitVec.getLsbD_of_ge lo _ (by omega)]; simp [h, show n ≤ j by omega]

theorem tp_setWidth_shl {n m : Nat} (b : BitVec n) (i : Nat) (h : n + i ≤ m) :
    tp ((b.setWidth m) <<< i) = X ^ i * tp b := by
  ext j
  rw [coeff_tp, coeff_X_pow_mul', coeff_tp, BitVec.getLsbD_shiftLeft, BitVec.getLsbD_setWidth]
  by_cases h1 : i ≤ j
  · rw [if_pos h1]
    by_cases h2 : j < m
    · simp [h2, show ¬ j < i by omega, show j - i < m by omega]
    · rw [BitVec.getLsbD_of_ge b _ (by omega)]; simp
  · rw [if_neg h1]; simp [show j < i by omega]

/-! ### The quotient -/

/-- `x^128 P(1/x)` for the GCM polynomial `P = x^128 + x^7 + x^2 + x + 1`. -/
def P : (ZMod 2)[X] := X ^ 128 + X ^ 127 + X ^ 126 + X ^ 121 + 1

theorem P_natDegree : P.natDegree = 128 := by
  unfold P; compute_degree!

theorem P_eq : P = X ^ 128 + X ^ 127 + X ^ 126 + X ^ 121 + 1 := rfl

attribute [irreducible] P

theorem P_ne : P ≠ 0 := by
  intro h
  have := P_natDegree
  rw [h, natDegree_zero] at this
  omega

theorem P_degree : P.degree = ((128 : ℕ) : WithBot ℕ) := by
  rw [degree_eq_natDegree P_ne, P_natDegree]

abbrev K : Type := (ZMod 2)[X] ⧸ Ideal.span {P}

def mk : (ZMod 2)[X] →+* K := Ideal.Quotient.mk _

/-- The residue class of a bit vector. -/
def cls {n : Nat} (v : BitVec n) : K := mk (tp v)

def y : K := mk X

theorem cls_xor {n : Nat} (a b : BitVec n) : cls (a ^^^ b) = cls a + cls b := by
  rw [cls, tp_xor, map_add]; rfl

theorem cls_zero (n : Nat) : cls (0#n) = 0 := by rw [cls, tp_zero, map_zero]

theorem cls_append {m n : Nat} (hi : BitVec m) (lo : BitVec n) : cls (hi ++ lo) = cls lo + y ^ n * cls hi := by
  rw [cls, tp_append, map_add, map_mul, map_pow]; rfl

theorem cls_inj (a b : BitVec 128) (h : cls a = cls b) : a = b := by
  apply tp_inj
  have h1 : P ∣ tp a - tp b := by
    rw [← Ideal.mem_span_singleton]
    exact (Ideal.Quotient.mk_eq_mk_iff_sub_mem _ _).1 h
  have h2 : (tp a - tp b).degree < P.degree := by
    rw [P_degree]
    exact lt_of_le_of_lt (degree_sub_le _ _) (max_lt (degree_tp a) (degree_tp b))
  have h3 := eq_zero_of_dvd_of_degree_lt h1 h2
  exact sub_eq_zero.1 h3

theorem two_eq : (2 : K) = 0 := by
  have : (2 : (ZMod 2)[X]) = 0 := CharTwo.two_eq_zero
  rw [show (2 : K) = mk 2 from (map_ofNat mk 2).symm, this, map_zero]

theorem P_cls : y ^ 128 + y ^ 127 + y ^ 126 + y ^ 121 + 1 = 0 := by
  have : mk P = 0 := Ideal.Quotient.eq_zero_iff_mem.2 (Ideal.mem_span_singleton_self P)
  have e : mk P = mk (X ^ 128 + X ^ 127 + X ^ 126 + X ^ 121 + 1) := congrArg mk P_eq
  rw [map_add, map_add, map_add, map_add, map_pow, map_pow, map_pow, map_pow, map_one] at e
  exact e.symm.trans this

/-- `1/y`. -/
def yi : K := y ^ 127 + y ^ 126 + y ^ 125 + y ^ 120

theorem y_yi : y * yi = 1 := by
  rw [yi]
  linear_combination P_cls - two_eq

theorem cancel (k : Nat) (a b : K) (h : y ^ k * a = y ^ k * b) : a = b := by
  have e : (yi * y) ^ k = 1 := by rw [mul_comm, y_yi, one_pow]
  have := congrArg (fun t => yi ^ k * t) h
  simp only [← mul_assoc, ← mul_pow] at this
  simpa [e] using this

end

end Verif.Gf2
