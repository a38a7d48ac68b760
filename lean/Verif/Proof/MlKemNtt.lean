import Verif.Spec.MlKem
import Mathlib.Algebra.QuadraticAlgebra.Basic
import Mathlib.Tactic.Ring
import Mathlib.Tactic.LinearCombination

/-!
The number-theoretic transform of FIPS 203: it is linear and invertible, and it turns the product modulo `X^256 + 1`
into `MultiplyNTTs`.
-/
namespace Verif.Spec.MlKem
open Finset

theorem idx_val (i : Nat) (h : i < 256) : (idx i).val = i := Nat.mod_eq_of_lt h
theorem idx_self (j : Fin 256) : idx j.val = j := Fin.ext (idx_val _ j.isLt)

/-! ### Layers -/

theorem nttLayer_add (len : Nat) (f g : Poly) : nttLayer len (f + g) = nttLayer len f + nttLayer len g := by
  funext j
  simp only [nttLayer, Pi.add_apply]
  split <;> ring
theorem nttLayer_smul (c : Fq) (len : Nat) (f : Poly) : nttLayer len (fun i => c * f i) = fun i => c * nttLayer len f i := by
  funext j
  simp only [nttLayer]
  split <;> ring
theorem inttLayer_add (len : Nat) (f g : Poly) : inttLayer len (f + g) = inttLayer len f + inttLayer len g := by
  funext j
  simp only [inttLayer, Pi.add_apply]
  split <;> ring
theorem inttLayer_smul' (c : Fq) (len : Nat) (f : Poly) : inttLayer len (fun i => c * f i) = fun i => c * inttLayer len f i := by
  funext j
  simp only [inttLayer]
  split <;> ring

theorem ntt_add (f g : Poly) : ntt (f + g) = ntt f + ntt g := by
  simp only [ntt, List.foldl_cons, List.foldl_nil, nttLayer_add]
theorem intt_add (f g : Poly) : intt (f + g) = intt f + intt g := by
  funext j
  simp only [intt, List.foldl_cons, List.foldl_nil, inttLayer_add, Pi.add_apply]
  ring
theorem ntt_smul (c : Fq) (f : Poly) : ntt (fun i => c * f i) = fun i => c * ntt f i := by
  simp only [ntt, List.foldl_cons, List.foldl_nil, nttLayer_smul]
theorem intt_neg (f : Poly) : intt (-f) = -intt f := by
  funext j
  have : (-f) = fun i => (-1 : Fq) * f i := by funext i; simp
  simp only [this, intt, List.foldl_cons, List.foldl_nil, inttLayer_smul', Pi.neg_apply]
  ring
theorem intt_sub (f g : Poly) : intt (f - g) = intt f - intt g := by
  rw [sub_eq_add_neg, intt_add, intt_neg, ← sub_eq_add_neg]

/-- The spans of the layers. -/
def spans : List Nat := [2, 4, 8, 16, 32, 64, 128]

/-- The twiddle factors of the two directions cancel. -/
theorem twiddle : ∀ len ∈ spans, ∀ b < 128 / len,
    zeta ^ bitRev7 (128 / len + b) * zeta ^ bitRev7 (256 / len - 1 - b) = -1 := by decide +kernel

theorem span_facts (len : Nat) (hl : len ∈ spans) (j : Nat) (hj : j < 256) :
    j / (2 * len) < 128 / len ∧
    (j % (2 * len) < len → j + len < 256 ∧ (j + len) / (2 * len) = j / (2 * len) ∧ ¬ (j + len) % (2 * len) < len) ∧
    (¬ j % (2 * len) < len → len ≤ j ∧ (j - len) / (2 * len) = j / (2 * len) ∧ (j - len) % (2 * len) < len) := by
  simp only [spans, List.mem_cons, List.not_mem_nil, or_false] at hl
  rcases hl with rfl | rfl | rfl | rfl | rfl | rfl | rfl <;> omega

theorem inttLayer_nttLayer (len : Nat) (hl : len ∈ spans) (f : Poly) :
    inttLayer len (nttLayer len f) = fun i => 2 * f i := by
  funext j
  obtain ⟨hb, h1, h2⟩ := span_facts len hl j.val j.isLt
  have tw := twiddle len hl _ hb
  by_cases h : j.val % (2 * len) < len
  · obtain ⟨a, b, c⟩ := h1 h
    simp only [inttLayer, if_pos h, nttLayer, idx_val _ a, if_neg c, b, Nat.add_sub_cancel, idx_self]
    ring
  · obtain ⟨a, b, c⟩ := h2 h
    have hlt : j.val - len < 256 := by have := j.isLt; omega
    simp only [inttLayer, if_neg h, nttLayer, idx_val _ hlt, if_pos c, b, Nat.sub_add_cancel a, idx_self]
    linear_combination (-2 * f j) * tw

theorem nttLayer_inttLayer (len : Nat) (hl : len ∈ spans) (f : Poly) :
    nttLayer len (inttLayer len f) = fun i => 2 * f i := by
  funext j
  obtain ⟨hb, h1, h2⟩ := span_facts len hl j.val j.isLt
  have tw := twiddle len hl _ hb
  by_cases h : j.val % (2 * len) < len
  · obtain ⟨a, b, c⟩ := h1 h
    simp only [inttLayer, if_pos h, nttLayer, idx_val _ a, if_neg c, b, Nat.add_sub_cancel, idx_self]
    linear_combination (f (idx (j.val + len)) - f j) * tw
  · obtain ⟨a, b, c⟩ := h2 h
    have hlt : j.val - len < 256 := by have := j.isLt; omega
    simp only [inttLayer, if_neg h, nttLayer, idx_val _ hlt, if_pos c, b, Nat.sub_add_cancel a, idx_self]
    linear_combination (f (idx (j.val - len)) - f j) * tw

theorem scale : (3303 * (2 * (2 * (2 * (2 * (2 * (2 * 2)))))) : Fq) = 1 := by decide +kernel

/-- The inverse transform undoes the transform. -/
theorem intt_ntt (f : Poly) : intt (ntt f) = f := by
  funext j
  simp only [intt, ntt, List.foldl_cons, List.foldl_nil]
  rw [inttLayer_nttLayer 2 (by decide)]
  simp only [inttLayer_smul']
  rw [inttLayer_nttLayer 4 (by decide)]
  simp only [inttLayer_smul']
  rw [inttLayer_nttLayer 8 (by decide)]
  simp only [inttLayer_smul']
  rw [inttLayer_nttLayer 16 (by decide)]
  simp only [inttLayer_smul']
  rw [inttLayer_nttLayer 32 (by decide)]
  simp only [inttLayer_smul']
  rw [inttLayer_nttLayer 64 (by decide)]
  simp only [inttLayer_smul']
  rw [inttLayer_nttLayer 128 (by decide)]
  linear_combination (f j) * scale

/-- And the transform undoes the inverse. -/
theorem ntt_intt (f : Poly) : ntt (intt f) = f := by
  have e : intt f = fun i => 3303 * ([2, 4, 8, 16, 32, 64, 128].foldl (fun f len => inttLayer len f) f) i := rfl
  rw [e, ntt_smul]
  funext j
  simp only [ntt, List.foldl_cons, List.foldl_nil]
  rw [nttLayer_inttLayer 128 (by decide)]
  simp only [nttLayer_smul]
  rw [nttLayer_inttLayer 64 (by decide)]
  simp only [nttLayer_smul]
  rw [nttLayer_inttLayer 32 (by decide)]
  simp only [nttLayer_smul]
  rw [nttLayer_inttLayer 16 (by decide)]
  simp only [nttLayer_smul]
  rw [nttLayer_inttLayer 8 (by decide)]
  simp only [nttLayer_smul]
  rw [nttLayer_inttLayer 4 (by decide)]
  simp only [nttLayer_smul]
  rw [nttLayer_inttLayer 2 (by decide)]
  linear_combination (f j) * scale

/-! ### Closed form -/

theorem sum_pairs (n : Nat) (h : Nat → Fq) :
    ∑ k ∈ range (2 * n), h k = ∑ k ∈ range n, (h (2 * k) + h (2 * k + 1)) := by
  induction n with
  | zero => rfl
  | succ n ih => rw [show 2 * (n + 1) = 2 * n + 1 + 1 by ring, sum_range_succ, sum_range_succ, ih, sum_range_succ, add_assoc]

/-- `X^(256/n)` modulo factor `b` of the `n` factors of `X^256 + 1`. -/
def root (n b : Nat) : Fq :=
  if n = 1 then -1 else (if b % 2 = 0 then 1 else -1) * zeta ^ bitRev7 (n / 2 + b / 2)

theorem root_sq : ∀ n ∈ [1, 2, 4, 8, 16, 32, 64], ∀ b < n, (zeta ^ bitRev7 (n + b)) ^ 2 = root n b := by decide +kernel
theorem root_final : ∀ b < 128, root 128 b = zeta ^ (2 * bitRev7 b + 1) := by decide +kernel
theorem root_final_neg : ∀ b < 128, (zeta ^ (2 * bitRev7 b + 1)) ^ 128 = -1 := by decide +kernel

/-- The state after the layers that split into `n` factors. -/
def Split (n : Nat) (f g : Poly) : Prop :=
  ∀ b < n, ∀ r < 256 / n, g (idx (b * (256 / n) + r)) = ∑ k ∈ range n, f (idx (k * (256 / n) + r)) * root n b ^ k

theorem split_one (f : Poly) : Split 1 f f := by
  intro b hb r hr
  have : b = 0 := by omega
  subst this
  simp

theorem split_step (n len : Nat) (hn : n ∈ [1, 2, 4, 8, 16, 32, 64]) (hl : len * n = 128) (f g : Poly) (h : Split n f g) :
    Split (2 * n) f (nttLayer len g) := by
  have facts : 256 / n = 2 * len ∧ 256 / (2 * n) = len ∧ 128 / len = n ∧ 0 < len ∧ 2 * n ≠ 1 ∧ 2 * n / 2 = n := by
    have hlen : len = 128 / n := (Nat.div_eq_of_eq_mul_left (by
      rcases Nat.eq_zero_or_pos n with h | h
      · subst h; omega
      · exact h) hl.symm).symm
    subst hlen
    simp only [List.mem_cons, List.not_mem_nil, or_false] at hn
    rcases hn with rfl | rfl | rfl | rfl | rfl | rfl | rfl <;> decide
  obtain ⟨f1, f2, f3, f4, f5, f6⟩ := facts
  rw [Split, f1] at h
  rw [Split, f2]
  intro b hb r hr
  have hbn : b / 2 < n := by omega
  have e1 := h (b / 2) hbn r (by omega)
  have e2 := h (b / 2) hbn (len + r) (by omega)
  have sq := root_sq n hn (b / 2) hbn
  have hlt : b * len + r < 256 := by
    have : b * len + r < (b + 1) * len := by rw [Nat.add_mul]; omega
    have : (b + 1) * len ≤ 2 * n * len := Nat.mul_le_mul_right _ (by omega)
    have : 2 * n * len = 256 := by rw [Nat.mul_assoc, Nat.mul_comm n]; omega
    omega
  have s1 : ∑ k ∈ range (2 * n), f (idx (k * len + r)) * root (2 * n) b ^ k =
      ∑ k ∈ range n, (f (idx (k * (2 * len) + r)) * root n (b / 2) ^ k +
        root (2 * n) b * (f (idx (k * (2 * len) + (len + r))) * root n (b / 2) ^ k)) := by
    rw [sum_pairs]
    refine sum_congr rfl fun k _ => ?_
    have sq2 : root (2 * n) b ^ 2 = root n (b / 2) := by
      rw [← sq, root, if_neg f5, f6]
      split <;> ring
    rw [← sq2, ← pow_mul, pow_succ, show 2 * k * len + r = k * (2 * len) + r by ring,
      show (2 * k + 1) * len + r = k * (2 * len) + (len + r) by ring]
    ring
  rw [s1, sum_add_distrib, ← mul_sum, ← e1, ← e2]
  have hd : (b * len + r) / (2 * len) = b / 2 := by
    rw [Nat.mul_comm 2 len, ← Nat.div_div_eq_div_mul, Nat.mul_comm b len, Nat.mul_add_div f4, Nat.div_eq_of_lt hr, Nat.add_zero]
  have hm : (b * len + r) % (2 * len) = (b % 2) * len + r := by
    have := Nat.div_add_mod (b * len + r) (2 * len)
    rw [hd] at this
    have hb2 := Nat.div_add_mod b 2
    have : 2 * len * (b / 2) + ((b % 2) * len + r) = b * len + r := by
      conv => rhs; rw [← hb2]
      ring
    omega
  rw [nttLayer]
  simp only [idx_val _ hlt, hd, hm, f3]
  rw [root, if_neg f5, f6]
  by_cases hb2 : b % 2 = 0
  · have hbe : b = 2 * (b / 2) := by omega
    rw [if_pos (by rw [hb2]; omega), if_pos hb2, one_mul, show b * len + r = b / 2 * (2 * len) + r by
      conv => lhs; rw [hbe]
      ring, show b / 2 * (2 * len) + r + len = b / 2 * (2 * len) + (len + r) by ring]
  · have hb1 : b % 2 = 1 := by omega
    have hbe : b = 2 * (b / 2) + 1 := by omega
    rw [if_neg (by rw [hb1]; omega), if_neg hb2, show b * len + r = b / 2 * (2 * len) + (len + r) by
      conv => lhs; rw [hbe]
      ring, show b / 2 * (2 * len) + (len + r) - len = b / 2 * (2 * len) + r by omega]
    ring

/-- The transform evaluates the even and the odd part at 128 roots. -/
theorem ntt_closed (f : Poly) (i r : Nat) (hi : i < 128) (hr : r < 2) :
    ntt f (idx (2 * i + r)) = ∑ k ∈ range 128, f (idx (2 * k + r)) * (zeta ^ (2 * bitRev7 i + 1)) ^ k := by
  have h0 := split_one f
  have h1 := split_step 1 128 (by decide) rfl f _ h0
  have h2 := split_step 2 64 (by decide) rfl f _ h1
  have h3 := split_step 4 32 (by decide) rfl f _ h2
  have h4 := split_step 8 16 (by decide) rfl f _ h3
  have h5 := split_step 16 8 (by decide) rfl f _ h4
  have h6 := split_step 32 4 (by decide) rfl f _ h5
  have h7 := split_step 64 2 (by decide) rfl f _ h6
  have := h7 i hi r hr
  rw [show 256 / (2 * 64) = 2 from rfl, show 2 * 64 = 128 from rfl, root_final i hi, Nat.mul_comm i 2] at this
  rw [ntt]
  simp only [List.foldl_cons, List.foldl_nil]
  rw [this]
  exact sum_congr rfl fun k _ => by rw [Nat.mul_comm k 2]

/-! ### Products -/

open QuadraticAlgebra

/-- The residue of `f` modulo `X^2 - w`. -/
def residue (w : Fq) (f : Poly) : QuadraticAlgebra Fq w 0 := ∑ n : Fin 256, QuadraticAlgebra.C (f n) * ⟨0, 1⟩ ^ n.val

theorem gen_sq (w : Fq) : (⟨0, 1⟩ : QuadraticAlgebra Fq w 0) ^ 2 = QuadraticAlgebra.C w := by
  rw [pow_two]
  ext <;> simp

theorem residue_eq (w : Fq) (f : Poly) : residue w f =
    ⟨∑ k ∈ range 128, f (idx (2 * k)) * w ^ k, ∑ k ∈ range 128, f (idx (2 * k + 1)) * w ^ k⟩ := by
  have gen : ∀ (n : Nat) (h : Nat → Fq), ∑ k ∈ range (2 * n), QuadraticAlgebra.C (h k) * (⟨0, 1⟩ : QuadraticAlgebra Fq w 0) ^ k =
      ⟨∑ k ∈ range n, h (2 * k) * w ^ k, ∑ k ∈ range n, h (2 * k + 1) * w ^ k⟩ := by
    intro n h
    induction n with
    | zero => rfl
    | succ n ih =>
      rw [show 2 * (n + 1) = 2 * n + 1 + 1 by ring, sum_range_succ, sum_range_succ, ih, sum_range_succ, sum_range_succ, pow_succ,
        pow_mul, gen_sq, ← C_pow]
      ext <;> simp [re_mul, im_mul, re_C, im_C, -C_eq_algebraMap, -C_pow]
  have e : residue w f = ∑ k ∈ range 256, QuadraticAlgebra.C (f (idx k)) * (⟨0, 1⟩ : QuadraticAlgebra Fq w 0) ^ k := by
    rw [residue, Finset.sum_range]
    exact sum_congr rfl fun n _ => by rw [idx_self]
  rw [e]
  exact gen 128 fun k => f (idx k)

/-- Reduction modulo `X^2 - w` respects products when `w^128 = -1`. -/
theorem residue_mul (w : Fq) (hw : w ^ 128 = -1) (f g : Poly) : residue w (polyMul f g) = residue w f * residue w g := by
  have hx : (⟨0, 1⟩ : QuadraticAlgebra Fq w 0) ^ 256 = -1 := by
    rw [show 256 = 2 * 128 from rfl, pow_mul, gen_sq, ← C_pow, hw]
    ext <;> simp
  generalize hX : (⟨0, 1⟩ : QuadraticAlgebra Fq w 0) = X at *
  simp only [residue, hX]
  have cs : ∀ (s : Finset (Fin 256)) (t : Fin 256 → Fq), (QuadraticAlgebra.C (∑ a ∈ s, t a) : QuadraticAlgebra Fq w 0) =
      ∑ a ∈ s, QuadraticAlgebra.C (t a) := by
    intro s t
    rw [C_eq_algebraMap]
    exact map_sum _ _ _
  have inner : ∀ a : Fin 256, ∑ n : Fin 256, QuadraticAlgebra.C ((if a ≤ n then 1 else -1) * f a * g (n - a)) * X ^ n.val =
      (QuadraticAlgebra.C (f a) * X ^ a.val) * ∑ m : Fin 256, QuadraticAlgebra.C (g m) * X ^ m.val := by
    intro a
    rw [← Equiv.sum_comp (Equiv.addLeft a), mul_sum]
    refine sum_congr rfl fun m _ => ?_
    show QuadraticAlgebra.C ((if a ≤ a + m then 1 else -1) * f a * g (a + m - a)) * X ^ (a + m).val = _
    rw [show a + m - a = m by abel]
    have ha := a.isLt
    have hm := m.isLt
    by_cases hs : a.val + m.val < 256
    · have hv : (a + m).val = a.val + m.val := by rw [Fin.val_add, Nat.mod_eq_of_lt hs]
      rw [if_pos (by rw [Fin.le_def, hv]; omega), hv, one_mul, C_mul, pow_add]
      ring
    · have hv : (a + m).val = a.val + m.val - 256 := by
        rw [Fin.val_add, Nat.mod_eq_sub_mod (by omega), Nat.mod_eq_of_lt (by omega)]
      have hp : X ^ a.val * X ^ m.val = - X ^ (a.val + m.val - 256) := by
        rw [← pow_add]
        conv => lhs; rw [show a.val + m.val = 256 + (a.val + m.val - 256) by omega, pow_add, hx]
        ring
      rw [if_neg (by rw [Fin.le_def, hv]; omega), hv, C_mul, C_mul, C_neg, C_one]
      linear_combination (- QuadraticAlgebra.C (f a) * QuadraticAlgebra.C (g m)) * hp
  simp only [polyMul, cs, sum_mul]
  rw [sum_comm]
  exact sum_congr rfl fun a _ => inner a

/-- The transform of a product is the product of the transforms. -/
theorem ntt_polyMul (f g : Poly) : ntt (polyMul f g) = mulNTT (ntt f) (ntt g) := by
  funext j
  have hj := j.isLt
  have hi : j.val / 2 < 128 := by omega
  have hw := root_final_neg _ hi
  have hm := residue_mul _ hw f g
  rw [residue_eq, residue_eq, residue_eq] at hm
  have c := fun (p : Poly) (r : Nat) (hr : r < 2) => ntt_closed p (j.val / 2) r hi hr
  have c0 := fun p => c p 0 (by decide)
  have c1 := fun p => c p 1 (by decide)
  simp only [Nat.add_zero] at c0
  simp only [← c0, ← c1, mk_mul_mk, QuadraticAlgebra.mk.injEq] at hm
  rw [mulNTT]
  by_cases h : j.val % 2 = 0
  · rw [if_pos h]
    have := hm.1
    rw [show 2 * (j.val / 2) = j.val by omega, idx_self] at this
    rw [show 2 * (j.val / 2) = j.val by omega, idx_self, this]
    ring
  · rw [if_neg h]
    have := hm.2
    have e : idx (2 * (j.val / 2) + 1) = j := by rw [show 2 * (j.val / 2) + 1 = j.val by omega, idx_self]
    rw [e] at this ⊢
    rw [this]
    ring

theorem intt_mulNTT (f g : Poly) : intt (mulNTT (ntt f) (ntt g)) = polyMul f g := by
  rw [← ntt_polyMul, intt_ntt]

/-! ### The algebra of `MultiplyNTTs` -/

theorem pair_idx (j : Fin 256) : (idx (2 * (j.val / 2))).val / 2 = j.val / 2 ∧ (idx (2 * (j.val / 2))).val % 2 = 0 ∧
    (idx (2 * (j.val / 2) + 1)).val / 2 = j.val / 2 ∧ (idx (2 * (j.val / 2) + 1)).val % 2 = 1 := by
  have := j.isLt
  rw [idx_val _ (by omega), idx_val _ (by omega)]
  omega

theorem mulNTT_comm (f g : Poly) : mulNTT f g = mulNTT g f := by
  funext j
  simp only [mulNTT]
  split <;> ring
theorem mulNTT_add (f g h : Poly) : mulNTT f (g + h) = mulNTT f g + mulNTT f h := by
  funext j
  simp only [mulNTT, Pi.add_apply]
  split <;> ring
theorem mulNTT_assoc (f g h : Poly) : mulNTT (mulNTT f g) h = mulNTT f (mulNTT g h) := by
  funext j
  obtain ⟨h1, h2, h3, h4⟩ := pair_idx j
  simp only [mulNTT, h1, h2, h3, h4, if_pos, if_neg, one_ne_zero, if_false]
  split <;> ring

theorem dot_add (a b c : Vec) : dot a (b + c) = dot a b + dot a c := by
  funext j
  simp only [dot, Pi.add_apply, mulNTT_add]
  ring
theorem dot_comm (a b : Vec) : dot a b = dot b a := by
  funext j
  simp only [dot]
  rw [mulNTT_comm (a 0), mulNTT_comm (a 1), mulNTT_comm (a 2)]

/-- `(A s) · y = s · (Aᵀ y)`. -/
theorem dot_mulVec (A : Mat) (s y : Vec) : dot (mulVec A s) y = dot s (mulVec (transpose A) y) := by
  have e : ∀ a b c d : Poly, mulNTT (a + b + c) d = mulNTT a d + mulNTT b d + mulNTT c d := by
    intro a b c d
    rw [mulNTT_comm, mulNTT_add, mulNTT_add, mulNTT_comm d, mulNTT_comm d, mulNTT_comm d]
  have d : ∀ a b : Vec, dot a b = mulNTT (a 0) (b 0) + mulNTT (a 1) (b 1) + mulNTT (a 2) (b 2) := fun _ _ => rfl
  have sw : ∀ a b c : Poly, mulNTT (mulNTT a b) c = mulNTT b (mulNTT a c) := by
    intro a b c
    rw [mulNTT_comm a b, mulNTT_assoc]
  simp only [mulVec, transpose, d, e, mulNTT_add, sw]
  abel

end Verif.Spec.MlKem
