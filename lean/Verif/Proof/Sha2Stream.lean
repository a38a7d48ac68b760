import Verif.Proof.Sha2
import Verif.Proof.Blockwise

/-!
The streaming context represents the concatenation of everything passed to `update`.
-/
namespace Verif.Sha2
open Verif Verif.Blockwise

variable {w : Nat}

/-- The context, started from `iv`, has absorbed the message `m`. -/
structure Absorbed (A : Alg w) (iv : St w) (c : Ctx w) (m : Bytes) : Prop where
  bw : Holds A.blockSz c.blockwise (chunksRem A.blockSz m)
  h : c.h = (chunksExact A.blockSz m).foldl A.compress iv
  n : c.nblocks = min (m.length / A.blockSz) (usizeLimit - 1)

theorem chunksRem_append_dvd {α : Type} {N : Nat} (hN : 0 < N) {a b : List α} (h : N ∣ a.length) :
    chunksRem N (a ++ b) = chunksRem N b := by
  obtain ⟨k, hk⟩ := h
  rw [chunksRem, chunksRem, List.length_append, hk, Nat.mul_add_div hN, Nat.mul_add, ← hk,
    ← List.drop_drop, List.drop_left' rfl]

theorem chunksRem_short {α : Type} {N : Nat} {a : List α} (h : a.length < N) : chunksRem N a = a := by
  rw [chunksRem, Nat.div_eq_of_lt h]; simp

theorem split_msg {α : Type} (N : Nat) (m : List α) :
    m = m.take (N * (m.length / N)) ++ chunksRem N m := (List.take_append_drop _ _).symm

theorem dvd_take {α : Type} (N : Nat) (m : List α) :
    N ∣ (m.take (N * (m.length / N))).length := by
  rw [List.length_take, Nat.min_eq_left (Nat.mul_div_le _ _)]; exact Nat.dvd_mul_right _ _

/-- Absorbing whole blocks at a block boundary. -/
theorem updateBlocks_ok {A : Alg w} (hN : 0 < A.blockSz) {iv : St w} {c : Ctx w} {m b : Bytes}
    (hw : Holds A.blockSz c.blockwise [])
    (h : c.h = (chunksExact A.blockSz m).foldl A.compress iv)
    (n : c.nblocks = min (m.length / A.blockSz) (usizeLimit - 1))
    (hm : A.blockSz ∣ m.length) (hb : A.blockSz ∣ b.length) :
    Absorbed A iv (updateBlocks A c b) (m ++ b) := by
  have hrem : chunksRem A.blockSz (m ++ b) = [] := by
    rw [chunksRem_append_dvd hN hm, chunksRem, Nat.mul_div_cancel' hb, List.drop_length]
  rw [updateBlocks]
  by_cases he : b = []
  · subst he
    rw [if_pos rfl]
    exact ⟨by rw [hrem]; exact hw, by simpa using h, by simpa using n⟩
  · rw [if_neg he]
    refine ⟨by rw [hrem]; exact hw, ?_, ?_⟩
    · simp only []
      rw [chunksExact_append hN hm, List.foldl_append, h]
    · simp only [n]
      obtain ⟨k, hk⟩ := hm
      have hk' : m.length / A.blockSz = k := by rw [hk, Nat.mul_div_cancel_left _ hN]
      rw [List.length_append, hk', hk, Nat.mul_add_div hN]
      generalize b.length / A.blockSz = q
      generalize usizeLimit = L
      omega

theorem updateBlocks_bw (A : Alg w) (c : Ctx w) (b : Bytes) :
    (updateBlocks A c b).blockwise = c.blockwise := by
  rw [updateBlocks]; split <;> rfl

theorem update_ok {A : Alg w} (hN : 0 < A.blockSz) {iv : St w} {c : Ctx w} {m : Bytes}
    (h : Absorbed A iv c m) (bytes : Bytes) :
    ∃ c', update A c bytes = some c' ∧ Absorbed A iv c' (m ++ bytes) := by
  obtain ⟨hbw, hh, hn⟩ := h
  have hrlt : (chunksRem A.blockSz m).length < A.blockSz := by
    rw [chunksRem_length]; exact Nat.mod_lt _ hN
  rw [update]
  by_cases hc : c.blockwise.used = 0 ∧ bytes.length % A.blockSz = 0
  · rw [if_pos hc]
    obtain ⟨h1, h2⟩ := hc
    have hr0 : chunksRem A.blockSz m = [] :=
      List.eq_nil_of_length_eq_zero (by rw [← hbw.used]; exact h1)
    rw [hr0] at hbw
    have hm : A.blockSz ∣ m.length := by
      apply Nat.dvd_of_mod_eq_zero
      rw [← chunksRem_length, hr0]; rfl
    exact ⟨_, rfl, updateBlocks_ok hN hbw hh hn hm (Nat.dvd_of_mod_eq_zero h2)⟩
  · rw [if_neg hc]
    -- the tail of `update` from a block boundary
    have tail : ∀ (c : Ctx w) (m rest : Bytes), A.blockSz ∣ m.length →
        Absorbed A iv c m →
        ∃ c', (match addTrailing (updateBlocks A c
            (rest.take (rest.length - rest.length % A.blockSz))).blockwise
            (rest.drop (rest.length - rest.length % A.blockSz)) with
          | none => none
          | some bw => some { updateBlocks A c
              (rest.take (rest.length - rest.length % A.blockSz)) with blockwise := bw }) = some c' ∧
          Absorbed A iv c' (m ++ rest) := by
      intro c m rest hm hab
      have hwl : rest.length - rest.length % A.blockSz = A.blockSz * (rest.length / A.blockSz) := by
        have := Nat.div_add_mod rest.length A.blockSz; omega
      rw [hwl]
      have hr0 : chunksRem A.blockSz m = [] :=
        List.eq_nil_of_length_eq_zero (by rw [chunksRem_length]; exact Nat.mod_eq_zero_of_dvd hm)
      have hd1 : A.blockSz ∣ (rest.take (A.blockSz * (rest.length / A.blockSz))).length := dvd_take _ _
      have hab2 := updateBlocks_ok hN (b := rest.take (A.blockSz * (rest.length / A.blockSz)))
        (by rw [← hr0]; exact hab.bw) hab.h hab.n hm hd1
      have hrem2 : chunksRem A.blockSz (m ++ rest.take (A.blockSz * (rest.length / A.blockSz))) = [] := by
        rw [chunksRem_append_dvd hN hm, chunksRem, Nat.mul_div_cancel' hd1, List.drop_length]
      have hbw2 := hab2.bw
      rw [hrem2] at hbw2
      have hrl : (rest.drop (A.blockSz * (rest.length / A.blockSz))).length < A.blockSz := by
        have := chunksRem_length (n := A.blockSz) rest
        rw [chunksRem] at this
        rw [this]; exact Nat.mod_lt _ hN
      obtain ⟨bw', e, hb'⟩ := addTrailing_ok hbw2 (Nat.le_of_lt hrl)
      rw [e]
      have hdm : A.blockSz ∣ (m ++ rest.take (A.blockSz * (rest.length / A.blockSz))).length := by
        rw [List.length_append]; exact Nat.dvd_add hm hd1
      refine ⟨_, rfl, ?_, ?_, ?_⟩
      · conv => arg 3; rw [split_msg A.blockSz rest, ← List.append_assoc]
        rw [chunksRem_append_dvd hN hdm, chunksRem_short (by rw [chunksRem]; exact hrl)]
        exact hb'
      · conv => rhs; rw [split_msg A.blockSz rest, ← List.append_assoc]
        rw [chunksExact_append_short hN hdm (by rw [chunksRem]; exact hrl)]
        exact hab2.h
      · have hlen : (m ++ rest).length / A.blockSz
            = (m ++ rest.take (A.blockSz * (rest.length / A.blockSz))).length / A.blockSz := by
          conv => lhs; rw [split_msg A.blockSz rest, ← List.append_assoc, List.length_append]
          obtain ⟨k, hk⟩ := hdm
          rw [hk, Nat.mul_add_div hN, Nat.mul_div_cancel_left _ hN,
            Nat.div_eq_of_lt (by rw [chunksRem]; exact hrl)]; omega
        rw [hlen]; exact hab2.n
    by_cases hr : chunksRem A.blockSz m = []
    · rw [hr] at hbw
      rw [addLeading_empty hbw]
      simp only []
      rw [take_part hbw (by simp; omega)]
      simp only []
      have hm : A.blockSz ∣ m.length := by
        apply Nat.dvd_of_mod_eq_zero
        rw [← chunksRem_length, hr]; rfl
      exact tail c m bytes hm ⟨by rw [hr]; exact hbw, hh, hn⟩
    · obtain ⟨bw1, e1, h1⟩ := addLeading_ok hbw hr bytes
      rw [e1]
      simp only []
      by_cases hfull : A.blockSz - (chunksRem A.blockSz m).length ≤ bytes.length
      · -- the buffer is completed
        have hl : (chunksRem A.blockSz m ++ bytes.take (A.blockSz - (chunksRem A.blockSz m).length)).length
            = A.blockSz := by
          rw [List.length_append, List.length_take, Nat.min_eq_left hfull]; omega
        obtain ⟨e2, h2⟩ := take_full h1 hl
        rw [e2]
        simp only []
        have hmd : A.blockSz ∣ (m.take (A.blockSz * (m.length / A.blockSz))).length := dvd_take _ _
        have key := updateBlocks_ok (c := { c with blockwise := ⟨bw1.buffer, 0⟩ }) hN
          (m := m.take (A.blockSz * (m.length / A.blockSz)))
          (b := chunksRem A.blockSz m ++ bytes.take (A.blockSz - (chunksRem A.blockSz m).length))
          (iv := iv) h2 (by rw [chunksExact_take hN]; exact hh) (by
            rw [List.length_take, Nat.min_eq_left (Nat.mul_div_le _ _), Nat.mul_div_cancel_left _ hN]
            exact hn) hmd (by rw [hl]; exact Nat.dvd_refl _)
        rw [← List.append_assoc, ← split_msg] at key
        have hdv : A.blockSz ∣ (m ++ bytes.take (A.blockSz - (chunksRem A.blockSz m).length)).length := by
          have e := congrArg List.length (split_msg A.blockSz m)
          rw [List.length_append] at e
          rw [List.length_append] at hl
          rw [List.length_append, e, Nat.add_assoc, hl]
          exact Nat.dvd_add hmd (Nat.dvd_refl _)
        obtain ⟨c', e3, h3⟩ := tail _ _ (bytes.drop (A.blockSz - (chunksRem A.blockSz m).length)) hdv key
        refine ⟨c', e3, ?_⟩
        rw [List.append_assoc, List.take_append_drop] at h3
        exact h3
      · -- everything fits in the buffer
        have hlt : bytes.length < A.blockSz - (chunksRem A.blockSz m).length := by omega
        rw [List.take_of_length_le (Nat.le_of_lt hlt)] at h1
        rw [List.drop_of_length_le (Nat.le_of_lt hlt)]
        rw [take_part h1 (by rw [List.length_append]; omega)]
        simp only [List.length_nil, Nat.zero_mod, Nat.sub_zero, List.take_zero, List.drop_nil,
          updateBlocks, if_pos]
        obtain ⟨bw2, e2, h2⟩ := addTrailing_nil h1
        rw [e2]
        have hmd : A.blockSz ∣ (m.take (A.blockSz * (m.length / A.blockSz))).length := dvd_take _ _
        have hshort : (chunksRem A.blockSz m ++ bytes).length < A.blockSz := by
          rw [List.length_append]; omega
        refine ⟨_, rfl, ?_, ?_, ?_⟩
        · conv => arg 3; rw [split_msg A.blockSz m, List.append_assoc]
          rw [chunksRem_append_dvd hN hmd, chunksRem_short hshort]
          exact h2
        · conv => rhs; rw [split_msg A.blockSz m, List.append_assoc]
          rw [chunksExact_append_short hN hmd hshort, chunksExact_take hN]
          exact hh
        · have hlen : (m ++ bytes).length / A.blockSz = m.length / A.blockSz := by
            conv => lhs; rw [split_msg A.blockSz m, List.append_assoc, List.length_append]
            obtain ⟨k, hk⟩ := hmd
            rw [hk, Nat.mul_add_div hN, Nat.div_eq_of_lt hshort]
            rw [List.length_take, Nat.min_eq_left (Nat.mul_div_le _ _)] at hk
            have := Nat.eq_of_mul_eq_mul_left hN hk
            omega
          rw [hlen]; exact hn

theorem totalBytes_ok {A : Alg w} (hN : 2 ≤ A.blockSz) {iv : St w} {c : Ctx w} {m : Bytes}
    (h : Absorbed A iv c m) :
    totalBytes A c = if m.length < usizeLimit then some m.length else none := by
  obtain ⟨hbw, _, hn⟩ := h
  have hu : c.blockwise.used = m.length % A.blockSz := by rw [hbw.used, chunksRem_length]
  have hdm := Nat.div_add_mod m.length A.blockSz
  have hlt := Nat.mod_lt m.length (show 0 < A.blockSz by omega)
  rw [totalBytes, hu, hn]
  by_cases hs : m.length / A.blockSz ≤ usizeLimit - 1
  · rw [Nat.min_eq_left hs, Nat.mul_comm (m.length / A.blockSz)]
    by_cases h1 : m.length < usizeLimit
    · rw [if_pos (by omega), if_pos (by omega), if_pos h1, hdm]
    · rw [if_neg h1]
      split
      · rw [if_neg (by omega)]
      · rfl
  · rw [Nat.min_eq_right (by omega)]
    have hge : usizeLimit ≤ m.length := by
      have : m.length / A.blockSz ≤ m.length := Nat.div_le_self _ _
      omega
    rw [if_neg (show ¬ m.length < usizeLimit by omega)]
    have hmul : (usizeLimit - 1) * 2 ≤ (usizeLimit - 1) * A.blockSz := Nat.mul_le_mul_left _ hN
    rw [if_neg (by simp only [usizeLimit] at *; omega)]

/-- The padded message, seen from the buffer: whole blocks, then the final blocks. -/
theorem pad_split {A : Alg w} {iv : St w} {c : Ctx w} {m : Bytes} (h : Absorbed A iv c m) (l : Nat)
    (hl : 1 + l ≤ A.blockSz) :
    ∃ last, mdPadWithLength A.blockSz c.blockwise (toBE l (m.length * 8)) = some last ∧
      (updateBlocks A c last).h
        = (chunksExact A.blockSz (Spec.Sha2.pad A.blockSz l m)).foldl A.compress iv := by
  have hN : 0 < A.blockSz := by omega
  have hrlt : (chunksRem A.blockSz m).length < A.blockSz := by
    rw [chunksRem_length]; exact Nat.mod_lt _ hN
  have hmd : A.blockSz ∣ (m.take (A.blockSz * (m.length / A.blockSz))).length := dvd_take _ _
  refine ⟨_, mdPad_ok h.bw hrlt (by rw [toBE_length]; exact hl), ?_⟩
  rw [updateBlocks, if_neg (by simp)]
  simp only []
  have e : ∀ x y z : Bytes, m ++ x ++ y ++ z
      = m.take (A.blockSz * (m.length / A.blockSz)) ++ (chunksRem A.blockSz m ++ x ++ y ++ z) := by
    intro x y z
    simp only [← List.append_assoc]
    rw [← split_msg]
  have hk : (m.length + 1 + l) % A.blockSz = ((chunksRem A.blockSz m).length + 1 + l) % A.blockSz := by
    rw [chunksRem_length, Nat.add_assoc, Nat.add_assoc, Nat.mod_add_mod]
  rw [Spec.Sha2.pad, e, chunksExact_append hN hmd, List.foldl_append, chunksExact_take hN, ← h.h,
    toBE_length, hk, Nat.mul_comm 8]

/-- All the chunks of a stream, one after the other. -/
def updates (A : Alg w) (c : Ctx w) (chunks : List Bytes) : Option (Ctx w) :=
  chunks.foldlM (update A) c

theorem updates_ok {A : Alg w} (hN : 0 < A.blockSz) {iv : St w} (chunks : List Bytes) {c : Ctx w}
    {m : Bytes} (h : Absorbed A iv c m) :
    ∃ c', updates A c chunks = some c' ∧ Absorbed A iv c' (m ++ chunks.flatten) := by
  induction chunks generalizing c m with
  | nil => exact ⟨c, rfl, by simpa using h⟩
  | cons b bs ih =>
    obtain ⟨c1, e1, h1⟩ := update_ok hN h b
    obtain ⟨c2, e2, h2⟩ := ih h1
    refine ⟨c2, ?_, by simpa using h2⟩
    rw [updates, List.foldlM_cons, e1]
    exact e2

theorem absorbed_new (A : Alg w) (iv : St w) (hN : 0 < A.blockSz) :
    Absorbed A iv ⟨iv, Blockwise.new A.blockSz, 0⟩ [] := by
  refine ⟨?_, ?_, ?_⟩
  · rw [chunksRem_short (by simpa using hN)]; exact holds_new _
  · rw [chunksExact_short (by simpa using hN)]; rfl
  · simp

theorem compress256_eq : alg256.compress = Spec.Sha2.compress Spec.Sha2.v256 := by
  funext s b; exact compressBlock_eq agree256 s b

theorem compress512_eq : alg512.compress = Spec.Sha2.compress Spec.Sha2.v512 := by
  funext s b; exact compressBlock_eq agree512 s b

theorem finish256_ok {c : Ctx 32} {m : Bytes} (h : Absorbed alg256 new256.h c m) :
    finish256 alg256 c = if m.length < 2 ^ 61 then some (Spec.Sha2.sha256 m) else none := by
  rw [finish256, totalBytes_ok (by decide) h]
  obtain ⟨last, e1, e2⟩ := pad_split h 8 (by decide)
  by_cases h1 : m.length < 2 ^ 61
  · rw [if_pos (show m.length < usizeLimit by simp only [usizeLimit]; omega)]
    simp only [if_pos h1, if_pos (show m.length * 8 < usizeLimit by simp only [usizeLimit]; omega), e1,
      e2, compress256_eq, iv256_ok]
    rfl
  · rw [if_neg h1]
    split
    · rfl
    · rename_i b hb
      split at hb
      · injection hb with hb
        subst hb
        rw [if_neg (by simp only [usizeLimit]; omega)]
      · cases hb

theorem finish512_ok {c : Ctx 64} {m : Bytes} {iv : St 64} (h : Absorbed alg512 iv c m) :
    finish512 alg512 c = if m.length < 2 ^ 64 then
      some (Spec.Sha2.output ((chunksExact 128 (Spec.Sha2.pad 128 16 m)).foldl
        (Spec.Sha2.compress Spec.Sha2.v512) iv)) else none := by
  rw [finish512, totalBytes_ok (by decide) h]
  obtain ⟨last, e1, e2⟩ := pad_split h 16 (by decide)
  by_cases h1 : m.length < 2 ^ 64
  · rw [if_pos (show m.length < usizeLimit from h1)]
    simp only [if_pos h1, if_pos (show m.length * 8 < 2 ^ 128 by omega), e1, e2, compress512_eq]
    rfl
  · rw [if_neg (show ¬ m.length < usizeLimit from h1)]
    simp only [if_neg h1]

end Verif.Sha2
