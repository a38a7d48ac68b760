import Verif.Model.Blockwise

/-!
Lemmas about the block buffer.
-/
namespace Verif.Blockwise
open Verif

/-- The buffer holds exactly the bytes `r`. -/
structure Holds (N : Nat) (s : Blockwise) (r : Bytes) : Prop where
  len : s.buffer.length = N
  used : s.used = r.length
  le : r.length ≤ N
  eq : s.buffer.take s.used = r

theorem copyInto_ok {buffer src : Bytes} {start : Nat} (h : start + src.length ≤ buffer.length) :
    copyInto buffer start src = some (buffer.take start ++ src ++ buffer.drop (start + src.length)) := by
  rw [copyInto, if_pos h]

theorem holds_new (N : Nat) : Holds N (new N) [] := ⟨by simp [new], rfl, by simp, by simp [new]⟩

theorem addLeading_empty {N : Nat} {s : Blockwise} (h : Holds N s []) (bytes : Bytes) :
    addLeading N s bytes = some (s, bytes) := by
  rw [addLeading, if_pos (by simpa using h.used)]

theorem addLeading_ok {N : Nat} {s : Blockwise} {r : Bytes} (h : Holds N s r) (hr : r ≠ [])
    (bytes : Bytes) : ∃ s', addLeading N s bytes = some (s', bytes.drop (N - r.length)) ∧
      Holds N s' (r ++ bytes.take (N - r.length)) := by
  have h0 := List.length_pos_iff.2 hr
  have hu := h.used
  have hl := h.len
  have hle := h.le
  have htl : (bytes.take (min bytes.length (N - s.used))).length = min bytes.length (N - s.used) := by
    simp
  have hd : bytes.drop (min bytes.length (N - s.used)) = bytes.drop (N - r.length) := by
    rw [← hu]
    by_cases hc : bytes.length ≤ N - s.used
    · rw [Nat.min_eq_left hc, List.drop_length, List.drop_of_length_le hc]
    · rw [Nat.min_eq_right (by omega)]
  have ht : bytes.take (min bytes.length (N - s.used)) = bytes.take (N - r.length) := by
    rw [← hu]
    by_cases hc : bytes.length ≤ N - s.used
    · rw [Nat.min_eq_left hc, List.take_length, List.take_of_length_le hc]
    · rw [Nat.min_eq_right (by omega)]
  rw [addLeading, if_neg (by omega), if_neg (by omega)]
  simp only [copyInto_ok (show s.used + (bytes.take (min bytes.length (N - s.used))).length
    ≤ s.buffer.length by rw [htl]; omega)]
  refine ⟨_, by rw [hd], ?_⟩
  have hlen : s.used + min bytes.length (N - s.used) = (r ++ bytes.take (N - r.length)).length := by
    rw [List.length_append, ← ht, htl, hu]
  refine ⟨?_, hlen, ?_, ?_⟩
  · simp only [List.length_append, List.length_take, List.length_drop]; omega
  · rw [← hlen]; omega
  · simp only [h.eq, ht, hlen]
    exact List.take_left' rfl

theorem take_full {N : Nat} {s : Blockwise} {r : Bytes} (h : Holds N s r) (hr : r.length = N) :
    Blockwise.take N s = (⟨s.buffer, 0⟩, some r) ∧ Holds N ⟨s.buffer, 0⟩ [] := by
  have hu := h.used
  have hl := h.len
  refine ⟨?_, hl, rfl, by simp, by simp⟩
  rw [Blockwise.take, if_pos (by omega)]
  have := h.eq
  rw [List.take_of_length_le (by omega)] at this
  rw [this]

theorem take_part {N : Nat} {s : Blockwise} {r : Bytes} (h : Holds N s r) (hr : r.length ≠ N) :
    Blockwise.take N s = (s, none) := by
  have hu := h.used
  rw [Blockwise.take, if_neg (by omega)]

theorem addTrailing_ok {N : Nat} {s : Blockwise} (h : Holds N s []) {t : Bytes} (ht : t.length ≤ N) :
    ∃ s', addTrailing s t = some s' ∧ Holds N s' t := by
  have hu : s.used = 0 := by simpa using h.used
  have hl := h.len
  rw [addTrailing, copyInto_ok (by omega)]
  refine ⟨_, rfl, ?_, ?_, ht, ?_⟩
  · simp only [List.length_append, List.length_take, List.length_drop]; omega
  · simp [hu]
  · simp only [hu, List.take_zero, List.nil_append, Nat.zero_add]
    exact List.take_left' rfl

theorem addTrailing_nil {N : Nat} {s : Blockwise} {r : Bytes} (h : Holds N s r) :
    ∃ s', addTrailing s [] = some s' ∧ Holds N s' r := by
  rw [addTrailing, copyInto_ok (by simp)]
  refine ⟨_, rfl, ?_, ?_, h.le, ?_⟩
  · simpa using h.len
  · simpa using h.used
  · simpa using h.eq

theorem peek_ok {N : Nat} {s : Blockwise} {r : Bytes} (h : Holds N s r) :
    peekRemaining s = if r = [] then none else some r := by
  have hu := h.used
  rw [peekRemaining]
  by_cases hr : r = []
  · rw [if_pos hr, if_neg (by simp [hu, hr])]
  · have := List.length_pos_iff.2 hr
    rw [if_neg hr, if_pos (by omega), h.eq]

theorem mdPad_ok {N : Nat} {s : Blockwise} {r L : Bytes} (h : Holds N s r) (hr : r.length < N)
    (hL : 1 + L.length ≤ N) :
    mdPadWithLength N s L = some (r ++ [0x80#8]
      ++ List.replicate ((N - (r.length + 1 + L.length) % N) % N) 0#8 ++ L) := by
  have hu := h.used
  have hl := h.len
  rw [mdPadWithLength, if_neg (by omega)]
  by_cases hc : N - s.used < 1 + L.length
  · simp only [if_pos hc]
    have hne : r ≠ [] := by
      intro e; subst e
      simp only [List.length_nil] at hu
      omega
    obtain ⟨s1, e1, h1⟩ := addLeading_ok h hne [0x80#8]
    rw [e1]
    simp only []
    have ht : ([0x80#8] : Bytes).take (N - r.length) = [0x80#8] :=
      List.take_of_length_le (by simp; omega)
    rw [ht] at h1
    obtain ⟨s2, e2, h2⟩ := addLeading_ok h1 (by simp) (List.replicate N 0#8)
    rw [e2]
    simp only []
    rw [List.take_replicate] at h2
    have hfull := (take_full h2 (by
      simp only [List.length_append, List.length_replicate, List.length_cons, List.length_nil]; omega)).1
    rw [hfull]
    simp only [if_neg (show ¬ N < L.length by omega)]
    simp only [List.append_assoc, Option.some.injEq]
    congr 2
    rw [← List.append_assoc, List.replicate_append_replicate]
    congr 2
    simp only [List.length_append, List.length_cons, List.length_nil]
    have : (r.length + 1 + L.length) % N = r.length + 1 + L.length - N := by
      rw [Nat.mod_eq_sub_mod (by omega), Nat.mod_eq_of_lt (by omega)]
    rw [this]
    rw [Nat.mod_eq_of_lt (by omega)]
    omega
  · simp only [if_neg hc]
    rw [h.eq]
    simp only [List.append_assoc, Option.some.injEq]
    congr 4
    rw [hl]
    by_cases he : r.length + 1 + L.length = N
    · rw [he, Nat.mod_self, Nat.sub_zero, Nat.mod_self]; omega
    · rw [Nat.mod_eq_of_lt (show r.length + 1 + L.length < N by omega), Nat.mod_eq_of_lt (by omega)]
      omega

end Verif.Blockwise
