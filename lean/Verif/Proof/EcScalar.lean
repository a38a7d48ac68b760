import Verif.Proof.EcBytes
import Mathlib.Data.ZMod.Basic
import Mathlib.Algebra.Field.ZMod
import Mathlib.Tactic.Ring
import Mathlib.Tactic.LinearCombination

/-!
Arithmetic of scalars modulo the group order, under the contracts of the bignum routines.
-/
namespace Verif.Ec

open Bignum

variable {N n p : Nat} [Fact n.Prime]

/-- The constants for the order. -/
structure OrderOk (C : Curve N) (n : Nat) : Prop where
  order : C.order.toNat = n
  mm : C.orderMM.toNat = 2 ^ (128 * N) % n
  odd : n % 2 = 1
  lt : n < 2 ^ (64 * N)

variable {A : Asm N} {C : Curve N} (hA : A.Ok p n) (hC : OrderOk C n)

theorem castn {a b : Nat} (h : a % n = b % n) : (a : ZMod n) = b := (ZMod.natCast_eq_natCast_iff' a b n).2 h

include hC in
theorem two_ne_zero_n : (2 : ZMod n) ≠ 0 := by
  intro h
  have : ((2 : Nat) : ZMod n) = 0 := by exact_mod_cast h
  rw [ZMod.natCast_eq_zero_iff, Nat.dvd_prime Nat.prime_two] at this
  have := hC.odd
  rcases ‹n = 1 ∨ n = 2› with h | h
  · exact (Fact.out : n.Prime).one_lt.ne' h
  · omega

include hC in
theorem Rn_ne : ((2 : ZMod n) ^ (64 * N)) ≠ 0 := pow_ne_zero _ (two_ne_zero_n hC)

include hA hC

theorem smontmul {x y : Scalar N} (hxy : x.toNat * y.toNat ≤ 2 ^ (64 * N) * n) :
    (x.montMul C A y).toNat < n ∧ ((x.montMul C A y).toNat : ZMod n) * 2 ^ (64 * N) = x.toNat * y.toNat := by
  have h := hA.bn.montmul (words x) (words y) (words C.order) (by simp [words_length]) (by simp [words_length])
  rw [val_words, val_words, val_words, words_length, hC.order] at h
  obtain ⟨h1, h2⟩ := h hC.odd hxy
  have e : (x.montMul C A y).toNat = val (A.bn.montmul (words x) (words y) (words C.order)) := by
    rw [Scalar.montMul, ofWords_toNat]
    rw [hA.bn.montmul_length, words_length]
  rw [e]
  refine ⟨h1, ?_⟩
  have := castn h2
  push_cast at this
  exact this

theorem sasMont {x : Scalar N} (hx : x.toNat < n) :
    (x.asMont C A).toNat < n ∧ ((x.asMont C A).toNat : ZMod n) = x.toNat * 2 ^ (64 * N) := by
  have hmm : C.orderMM.toNat < n := by rw [hC.mm]; exact Nat.mod_lt _ (Fact.out : n.Prime).pos
  obtain ⟨h1, h2⟩ := smontmul hA hC (x := x) (y := C.orderMM) (Nat.mul_le_mul (by omega) hmm.le)
  have e : x.asMont C A = x.montMul C A C.orderMM := rfl
  rw [e]
  refine ⟨h1, mul_right_cancel₀ (Rn_ne hC) ?_⟩
  rw [h2, hC.mm, ZMod.natCast_mod]
  push_cast
  rw [show 128 * N = 64 * N + 64 * N by omega, pow_add]
  ring

theorem sdemont (x : Scalar N) :
    (x.demont C A).toNat < n ∧ ((x.demont C A).toNat : ZMod n) * 2 ^ (64 * N) = x.toNat := by
  have h := hA.bn.demont (words x) (words C.order) (by simp [words_length])
  rw [val_words, val_words, words_length, hC.order] at h
  obtain ⟨h1, h2⟩ := h hC.odd
  have e : (x.demont C A).toNat = val (A.bn.demont (words x) (words C.order)) := by
    rw [Scalar.demont, ofWords_toNat]
    rw [hA.bn.demont_length, words_length]
  rw [e]
  refine ⟨h1, ?_⟩
  have := castn h2
  push_cast at this
  exact this

theorem sinv {x : Scalar N} (hx : x.toNat < n) (h0 : x.toNat ≠ 0) :
    (x.inv C A).toNat < n ∧ ((x.inv C A).toNat : ZMod n) = (x.toNat : ZMod n)⁻¹ := by
  have h := hA.bn.modinv (words x) (words C.order) (by simp [words_length])
  rw [val_words, val_words, hC.order] at h
  have hc : Nat.gcd x.toNat n = 1 := by
    rw [Nat.gcd_comm]
    exact (Nat.Prime.coprime_iff_not_dvd Fact.out).2 (Nat.not_dvd_of_pos_of_lt (Nat.pos_of_ne_zero h0) hx)
  obtain ⟨h1, h2⟩ := h hC.odd (Fact.out : n.Prime).one_lt hc
  have e : (x.inv C A).toNat = val (A.bn.modinv (words x) (words C.order)) := by
    rw [Scalar.inv, ofWords_toNat]
    rw [hA.bn.modinv_length, words_length]
  rw [e]
  refine ⟨h1, eq_inv_of_mul_eq_one_right ?_⟩
  have : ((x.toNat * val (A.bn.modinv (words x) (words C.order)) : Nat) : ZMod n) = (1 : Nat) :=
    castn (by rw [h2, Nat.mod_eq_of_lt (Fact.out : n.Prime).one_lt])
  push_cast at this
  exact this

theorem sadd {x y : Scalar N} (hx : x.toNat < n) (hy : y.toNat < n) :
    (x.add C A y).toNat < n ∧ ((x.add C A y).toNat : ZMod n) = x.toNat + y.toNat := by
  have h := hA.bn.modadd (words x) (words y) (words C.order) (by simp [words_length]) (by simp [words_length])
  rw [val_words, val_words, val_words, hC.order] at h
  have h1 := h hx hy
  have e : (x.add C A y).toNat = val (A.bn.modadd (words x) (words y) (words C.order)) := by
    rw [Scalar.add, ofWords_toNat]
    rw [hA.bn.modadd_length, words_length]
  rw [e, h1, ZMod.natCast_mod]
  refine ⟨Nat.mod_lt _ (Fact.out : n.Prime).pos, by push_cast; rfl⟩

theorem smul_reduced {x y : Scalar N} (hx : x.toNat < n) (hy : y.toNat < n) : x.toNat * y.toNat ≤ 2 ^ (64 * N) * n :=
  Nat.mul_le_mul (by have := hC.lt; omega) hy.le

/-- `raw_ecdsa_sign` computes `(r d + e) / k` modulo `n`. -/
theorem rawEcdsaSign_eq {d k e r : Scalar N} (hd : d.toNat < n) (hk : k.toNat < n) (hk0 : k.toNat ≠ 0)
    (he : e.toNat < n) (hr : r.toNat < n) :
    (rawEcdsaSign C A d k e r).toNat < n ∧
      ((rawEcdsaSign C A d k e r).toNat : ZMod n) = (r.toNat * d.toNat + e.toNat) * (k.toNat : ZMod n)⁻¹ := by
  obtain ⟨a1, a2⟩ := sasMont hA hC hd
  obtain ⟨b1, b2⟩ := sasMont hA hC hr
  obtain ⟨c1, c2⟩ := smontmul hA hC (smul_reduced hA hC a1 b1)
  obtain ⟨d1, d2⟩ := sdemont hA hC (((d.asMont C A).montMul C A (r.asMont C A)))
  obtain ⟨e1, e2⟩ := sadd hA hC d1 he
  obtain ⟨f1, f2⟩ := sasMont hA hC e1
  obtain ⟨g1, g2⟩ := sinv hA hC hk hk0
  obtain ⟨h1, h2⟩ := smontmul hA hC (smul_reduced hA hC g1 f1)
  refine ⟨h1, mul_right_cancel₀ (Rn_ne hC) ?_⟩
  rw [rawEcdsaSign, h2, g2, f2, e2]
  have hR := Rn_ne hC
  have hx : (((((d.asMont C A).montMul C A (r.asMont C A)).demont C A)).toNat : ZMod n) = r.toNat * d.toNat := by
    apply mul_right_cancel₀ hR
    rw [d2]
    apply mul_right_cancel₀ hR
    rw [c2, a2, b2]; ring
  rw [hx]; ring

/-- The multipliers of `raw_ecdsa_verify`. -/
theorem verify_u {s e : Scalar N} (hs : s.toNat < n) (hs0 : s.toNat ≠ 0) (he : e.toNat < n) :
    ((((s.inv C A).asMont C A).montMul C A (e.asMont C A)).demont C A).toNat < n ∧
      (((((s.inv C A).asMont C A).montMul C A (e.asMont C A)).demont C A).toNat : ZMod n) =
        e.toNat * (s.toNat : ZMod n)⁻¹ := by
  obtain ⟨a1, a2⟩ := sinv hA hC hs hs0
  obtain ⟨b1, b2⟩ := sasMont hA hC a1
  obtain ⟨c1, c2⟩ := sasMont hA hC he
  obtain ⟨d1, d2⟩ := smontmul hA hC (smul_reduced hA hC b1 c1)
  obtain ⟨e1, e2⟩ := sdemont hA hC (((s.inv C A).asMont C A).montMul C A (e.asMont C A))
  refine ⟨e1, ?_⟩
  have hR := Rn_ne hC
  apply mul_right_cancel₀ hR
  rw [e2]
  apply mul_right_cancel₀ hR
  rw [d2, b2, a2, c2]; ring

end Verif.Ec
