import Verif.Model.Ct

namespace Verif.Ct
open Verif

theorem or_eq_zero {n : Nat} (a b : BitVec n) : a ||| b = 0#n ↔ a = 0#n ∧ b = 0#n := by
  constructor
  · intro h
    constructor
    · ext i hi
      have := congrArg (fun x => x.getLsbD i) h
      simp only [BitVec.getLsbD_or, BitVec.getLsbD_zero, Bool.or_eq_false_iff] at this
      simpa [BitVec.getLsbD_eq_getElem hi] using this.1
    · ext i hi
      have := congrArg (fun x => x.getLsbD i) h
      simp only [BitVec.getLsbD_or, BitVec.getLsbD_zero, Bool.or_eq_false_iff] at this
      simpa [BitVec.getLsbD_eq_getElem hi] using this.2
  · rintro ⟨rfl, rfl⟩; simp

theorem xor_eq_zero {n : Nat} (a b : BitVec n) : a ^^^ b = 0#n ↔ a = b := by
  constructor
  · intro h
    have : a ^^^ b ^^^ b = 0#n ^^^ b := by rw [h]
    simpa [BitVec.xor_assoc] using this
  · rintro rfl; simp

theorem compareLoop_zero (a b : Bytes) (acc : Byte) (h : a.length = b.length) :
    compareLoop a.length a b acc = 0#8 ↔ acc = 0#8 ∧ a = b := by
  induction a generalizing b acc with
  | nil => cases b with
    | nil => simp [compareLoop]
    | cons => simp at h
  | cons x xs ih => cases b with
    | nil => simp at h
    | cons y ys =>
      simp only [List.length_cons, Nat.add_right_cancel_iff] at h
      simp only [List.length_cons, compareLoop, List.cons.injEq]
      rw [ih ys _ h, or_eq_zero, xor_eq_zero]
      constructor
      · rintro ⟨⟨h1, h2⟩, h3⟩; exact ⟨h1, h2, h3⟩
      · rintro ⟨h1, h2, h3⟩; exact ⟨⟨h1, h2⟩, h3⟩

theorem ctEqual_iff (a b : Bytes) : ctEqual a b = true ↔ a = b := by
  rw [ctEqual]
  by_cases h : a.length = b.length
  · simp only [ne_eq, h, not_true_eq_false, if_false]
    rw [← h, beq_iff_eq, compareLoop_zero a b _ h]; simp
  · simp only [ne_eq, h, not_false_eq_true, if_true]
    constructor
    · intro h'; cases h'
    · rintro rfl; exact absurd rfl h

theorem ctEqual_eq (a b : Bytes) : ctEqual a b = decide (a = b) := by
  by_cases h : a = b
  · rw [decide_eq_true h]; exact (ctEqual_iff a b).2 h
  · rw [decide_eq_false h]
    cases hc : ctEqual a b with
    | false => rfl
    | true => exact absurd ((ctEqual_iff a b).1 hc) h

end Verif.Ct
