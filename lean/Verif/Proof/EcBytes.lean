import Verif.Model.Ec
import Verif.Proof.PosIntBytes

/-!
Byte conversions and scalars of the curve code.
-/
namespace Verif.Ec

open Bignum

variable {N : Nat}

theorem pow8 (N : Nat) : 256 ^ (N * 8) = 2 ^ (64 * N) := by
  rw [show 256 = 2 ^ 8 by rfl, ← Nat.pow_mul]; congr 1; omega

theorem words_length (v : Elt N) : (words v).length = N := toWords_length _ _

theorem val_words (v : Elt N) : val (words v) = v.toNat := val_toWords_of_lt v.isLt

theorem ofWords_toNat {ws : Words} (h : ws.length = N) : (ofWords N ws).toNat = val ws := by
  rw [ofWords, BitVec.toNat_ofNat, Nat.mod_eq_of_lt]
  rw [← h]; exact val_lt ws

theorem ofWords_words (v : Elt N) : ofWords N (words v) = v :=
  BitVec.eq_of_toNat_eq (by rw [ofWords_toNat (words_length v), val_words])

theorem val_chunks (k : Nat) (b : Bytes) (h : b.length = k * 8) :
    val ((chunksExact 8 b).reverse.map fun c => BitVec.ofNat 64 (beNat c)) = beNat b ∧ (chunksExact 8 b).length = k := by
  induction k generalizing b with
  | zero =>
    have : b = [] := List.length_eq_zero_iff.1 (by omega)
    subst this
    rw [chunksExact_short (by simp)]
    exact ⟨rfl, rfl⟩
  | succ k ih =>
    obtain ⟨ih1, ih2⟩ := ih (b.drop 8) (by rw [List.length_drop]; omega)
    rw [chunksExact_cons (by decide) (by omega)]
    refine ⟨?_, by rw [List.length_cons, ih2]⟩
    rw [List.reverse_cons, List.map_append, val_append, ih1, List.length_map, List.length_reverse, ih2]
    have hlt := beNat_lt (b.take 8)
    rw [List.length_take, Nat.min_eq_left (by omega)] at hlt
    simp only [List.map_cons, List.map_nil, val, BitVec.toNat_ofNat]
    rw [Nat.mod_eq_of_lt (by omega : beNat (b.take 8) < 2 ^ 64)]
    conv_rhs => rw [← List.take_append_drop 8 b, beNat_append, List.length_drop, h]
    rw [show (k + 1) * 8 - 8 = k * 8 by omega, pow8]
    rw [Nat.mul_zero, Nat.add_zero, Nat.mul_comm, Nat.add_comm]

theorem beArrayTo_toNat {b : Bytes} (h : b.length = N * 8) : (beArrayTo N b).toNat = beNat b := by
  obtain ⟨h1, h2⟩ := val_chunks N b h
  rw [beArrayTo, ofWords_toNat (by rw [List.length_map, List.length_reverse, h2]), h1]

theorem toBigEndian_eq (v : Elt N) : toBigEndian v = toBE (N * 8) v.toNat := by
  obtain ⟨h1, h2⟩ := PosInt.words_bytes (words v)
  rw [val_words] at h2
  rw [words_length] at h1
  rw [toBigEndian, ← toBE_beNat (List.flatten _), h1, h2, Nat.mul_comm]

theorem removeLeadingZeroes_eq (b : Bytes) (h : N * 8 < b.length) :
    removeLeadingZeroes N b = if beNat b < 2 ^ (64 * N) then some (BitVec.ofNat _ (beNat b)) else none := by
  induction b with
  | nil => simp at h
  | cons first remain ih =>
    rw [removeLeadingZeroes]
    rw [List.length_cons] at h
    by_cases h0 : first = 0#8
    · rw [if_pos h0]
      have e : beNat (first :: remain) = beNat remain := by rw [beNat_cons, h0]; simp
      rw [e]
      by_cases hl : remain.length = N * 8
      · rw [if_pos hl, if_pos (by rw [← pow8, ← hl]; exact beNat_lt remain)]
        congr 1
        apply BitVec.eq_of_toNat_eq
        rw [beArrayTo_toNat hl, BitVec.toNat_ofNat, Nat.mod_eq_of_lt]
        rw [← pow8, ← hl]; exact beNat_lt remain
      · rw [if_neg hl, ih (by omega)]
    · rw [if_neg h0, if_neg]
      rw [beNat_cons, Nat.not_lt, ← pow8]
      have : 1 ≤ first.toNat := by
        rcases Nat.eq_zero_or_pos first.toNat with hz | hz
        · exact absurd (BitVec.eq_of_toNat_eq (by simpa using hz)) h0
        · exact hz
      calc 256 ^ (N * 8) ≤ 256 ^ remain.length := Nat.pow_le_pow_right (by decide) (by omega)
        _ = 1 * 256 ^ remain.length := by omega
        _ ≤ first.toNat * 256 ^ remain.length := Nat.mul_le_mul_right _ this
        _ ≤ _ := Nat.le_add_right _ _

/-- The conversion takes any length and fails exactly when the number does not fit. -/
theorem beSliceAnySizeTo_eq (b : Bytes) :
    beSliceAnySizeTo N b = if beNat b < 2 ^ (64 * N) then some (BitVec.ofNat _ (beNat b)) else none := by
  rw [beSliceAnySizeTo]
  by_cases h1 : b.length = N * 8
  · have hlt : beNat b < 2 ^ (64 * N) := by rw [← pow8, ← h1]; exact beNat_lt b
    rw [if_pos h1, if_pos hlt]
    congr 1
    apply BitVec.eq_of_toNat_eq
    rw [beArrayTo_toNat h1, BitVec.toNat_ofNat, Nat.mod_eq_of_lt hlt]
  · rw [if_neg h1]
    by_cases h2 : b.length < N * 8
    · have hlt : beNat b < 2 ^ (64 * N) := by
        rw [← pow8]
        exact Nat.lt_of_lt_of_le (beNat_lt b) (Nat.pow_le_pow_right (by decide) (by omega))
      rw [if_pos h2, if_pos hlt]
      congr 1
      apply BitVec.eq_of_toNat_eq
      rw [beArrayTo_toNat (by simp; omega), BitVec.toNat_ofNat, Nat.mod_eq_of_lt hlt, beNat_append, beNat_replicate_zero]
      omega
    · rw [if_neg h2, removeLeadingZeroes_eq b (by omega)]

/-! ### Scalars -/

section scalars

variable {A : Asm N} {C : Curve N} {p n : Nat} (hA : A.Ok p n)
include hA

theorem intoRangeCheck_eq (hn : 0 < n) (s : Scalar N) :
    Scalar.intoRangeCheck A s = if s.toNat = 0 ∨ n ≤ s.toNat then .error (.err .OutOfRange) else .ok s := by
  have key : (Scalar.reduceModN A s ≠ s ∨ Scalar.isZero s = true) ↔ (s.toNat = 0 ∨ n ≤ s.toNat) := by
    rw [Scalar.reduceModN, Scalar.isZero, Ne, ← BitVec.toNat_inj, hA.modN, decide_eq_true_eq, ← BitVec.toNat_inj]
    rw [show BitVec.toNat (0 : Scalar N) = 0 by simp]
    have := Nat.mod_lt s.toNat hn
    constructor
    · rintro (h1 | h1)
      · right
        by_contra hc
        exact h1 (Nat.mod_eq_of_lt (by omega))
      · exact .inl h1
    · rintro (h1 | h1)
      · exact .inr h1
      · left; omega
  rw [Scalar.intoRangeCheck]
  by_cases hc : s.toNat = 0 ∨ n ≤ s.toNat
  · rw [if_pos hc]; exact if_pos (key.2 hc)
  · rw [if_neg hc]; exact if_neg (fun h => hc (key.1 h))

theorem fromBytesChecked_eq (hn : 0 < n) (b : Bytes) :
    Scalar.fromBytesChecked A b =
      if 2 ^ (64 * N) ≤ beNat b then .error (.err .WrongLength)
      else if beNat b = 0 ∨ n ≤ beNat b then .error (.err .OutOfRange)
      else .ok (BitVec.ofNat _ (beNat b)) := by
  rw [Scalar.fromBytesChecked, beSliceAnySizeTo_eq]
  by_cases h : 2 ^ (64 * N) ≤ beNat b
  · rw [if_neg (by omega), if_pos h]
  · rw [if_pos (by omega), if_neg h]
    dsimp only
    rw [intoRangeCheck_eq hA hn, BitVec.toNat_ofNat, Nat.mod_eq_of_lt (by omega)]

theorem fromBytesReduced_eq (b : Bytes) (h : beNat b < 2 ^ (64 * N)) :
    Scalar.fromBytesReduced A b = .ok (BitVec.ofNat _ (beNat b % n)) := by
  rw [Scalar.fromBytesReduced, beSliceAnySizeTo_eq, if_pos h]
  simp only [Scalar.reduceModN]
  congr 1
  apply BitVec.eq_of_toNat_eq
  rw [hA.modN, BitVec.toNat_ofNat, BitVec.toNat_ofNat, Nat.mod_eq_of_lt h]
  exact (Nat.mod_eq_of_lt (Nat.lt_of_le_of_lt (Nat.mod_le _ _) h)).symm

end scalars

end Verif.Ec
