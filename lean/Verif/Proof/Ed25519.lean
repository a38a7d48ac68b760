import Verif.Model.Ed25519
import Verif.Proof.Ed25519Group
import Verif.Proof.EcBytes
import Verif.Proof.Pkcs1
import Verif.Props.Sha2

/-!
Lemmas about the model of Ed25519.
-/
namespace Verif.Ec
open Bignum

theorem val_chunks_le (k : Nat) (b : Bytes) (h : b.length = k * 8) :
    val ((chunksExact 8 b).map fun c => BitVec.ofNat 64 (leNat c)) = leNat b ∧ (chunksExact 8 b).length = k := by
  induction k generalizing b with
  | zero =>
    have : b = [] := List.length_eq_zero_iff.1 (by omega)
    subst this
    rw [chunksExact_short (by simp)]
    exact ⟨rfl, rfl⟩
  | succ k ih =>
    obtain ⟨ih1, ih2⟩ := ih (b.drop 8) (by rw [List.length_drop]; omega)
    rw [chunksExact_cons (by decide) (by omega)]
    refine ⟨?_, by rw [List.length_cons, ih2]⟩
    have hlt := leNat_lt (b.take 8)
    rw [List.length_take, Nat.min_eq_left (by omega)] at hlt
    rw [List.map_cons, val, ih1, BitVec.toNat_ofNat, Nat.mod_eq_of_lt (by omega : leNat (b.take 8) < 2 ^ 64)]
    conv_rhs => rw [← List.take_append_drop 8 b, leNat_append, List.length_take, Nat.min_eq_left (by omega)]

theorem leArrayTo_toNat {N : Nat} {b : Bytes} (h : b.length = N * 8) : (leArrayTo N b).toNat = leNat b := by
  obtain ⟨h1, h2⟩ := val_chunks_le N b h
  rw [leArrayTo, ofWords_toNat (by rw [List.length_map, h2]), h1]

theorem le_words : ∀ ws : Words, leNat (ws.map fun w => toLE 8 w.toNat).flatten = val ws ∧
    (ws.map fun w => toLE 8 w.toNat).flatten.length = ws.length * 8
  | [] => ⟨rfl, rfl⟩
  | w :: ws => by
    obtain ⟨h1, h2⟩ := le_words ws
    have := w.isLt
    rw [List.map_cons, List.flatten_cons, leNat_append, h1, List.length_append, h2, toLE_length, leNat_toLE, val, List.length_cons,
      Nat.mod_eq_of_lt (by omega)]
    exact ⟨rfl, by omega⟩

theorem toLittleEndian_eq {N : Nat} (v : Elt N) : toLittleEndian v = toLE (N * 8) v.toNat := by
  obtain ⟨h1, h2⟩ := le_words (words v)
  rw [val_words] at h1
  rw [words_length] at h2
  rw [toLittleEndian, ← toLE_leNat (List.flatten _), h1, h2]

theorem leArrayTo_toLittleEndian {N : Nat} (v : Elt N) : leArrayTo N (toLittleEndian v) = v := by
  apply BitVec.eq_of_toNat_eq
  rw [toLittleEndian_eq, leArrayTo_toNat (toLE_length _ _), leNat_toLE, pow8, Nat.mod_eq_of_lt v.isLt]

theorem toLittleEndian_leArrayTo {N : Nat} {b : Bytes} (h : b.length = N * 8) : toLittleEndian (leArrayTo N b) = b := by
  rw [toLittleEndian_eq, leArrayTo_toNat h, ← h, toLE_leNat]

end Verif.Ec

namespace Verif.Ed25519
open Verif Verif.Ec Bignum Verif.Spec.Ed25519 Verif.Ed25519Group

/-! ### Encodings -/

theorem top_bit (w x : BitVec 64) : ((w &&& 0x7fffffffffffffff#64) ||| (x <<< 63)).toNat = w.toNat % 2 ^ 63 + 2 ^ 63 * (x.toNat % 2) := by
  rw [BitVec.toNat_or, BitVec.toNat_and, BitVec.toNat_shiftLeft, show (0x7fffffffffffffff#64).toNat = 2 ^ 63 - 1 by decide,
    Nat.and_two_pow_sub_one_eq_mod, Nat.shiftLeft_eq]
  have h : x.toNat * 2 ^ 63 % 2 ^ 64 = 2 ^ 63 * (x.toNat % 2) := by omega
  rw [h, Nat.or_comm, ← Nat.two_pow_add_eq_or_of_lt (Nat.mod_lt _ (by decide)), Nat.add_comm]

theorem words4 (v : Elt 4) : ∃ a b c d : BitVec 64, words v = [a, b, c, d] ∧
    v.toNat = a.toNat + 2 ^ 64 * (b.toNat + 2 ^ 64 * (c.toNat + 2 ^ 64 * d.toNat)) := by
  have hl := words_length v
  have hv := val_words v
  match h : words v with
  | [a, b, c, d] =>
    rw [h] at hv
    simp only [val] at hv
    exact ⟨a, b, c, d, rfl, by rw [← hv]; omega⟩
  | [] | [_] | [_, _] | [_, _, _] | _ :: _ :: _ :: _ :: _ :: _ => rw [h] at hl; simp at hl

theorem compress_eq {P : Pt} {Q : Point} (h : P.Is Q) : compress P = encode Q := by
  obtain ⟨h1, h2⟩ := h
  have hy : Q.2.val < p := ZMod.val_lt _
  have hp : p < 2 ^ 255 := by decide +kernel
  obtain ⟨x0, x1, x2, x3, hx, ex⟩ := words4 P.x
  obtain ⟨y0, y1, y2, y3, hy', ey⟩ := words4 P.y
  have l0 := y0.isLt
  have l1 := y1.isLt
  have l2 := y2.isLt
  have l3 := y3.isLt
  have m0 := x0.isLt
  apply leNat_inj
  · simp [compress, encode]
  rw [compress, encode, hx, hy', leNat_toLE]
  simp only [List.getElem!_cons_zero, List.getElem!_cons_succ]
  rw [leNat_append, leNat_append, leNat_append]
  simp only [List.length_append, toLE_length, leNat_toLE]
  rw [top_bit, ← h1, ← h2]
  rw [← h2] at hy
  omega

theorem encode_length (Q : Point) : (encode Q).length = 32 := toLE_length _ _

theorem encode_val (Q : Point) : leNat (encode Q) = Q.2.val + 2 ^ 255 * (Q.1.val % 2) := by
  have hy : Q.2.val < p := ZMod.val_lt _
  have hp : p < 2 ^ 255 := by decide +kernel
  rw [encode, leNat_toLE]
  omega

theorem encode_inj {P Q : Point} (hP : OnCurve P) (hQ : OnCurve Q) (h : encode P = encode Q) : P = Q := by
  have h1 := congrArg leNat h
  rw [encode_val, encode_val] at h1
  have hyP : P.2.val < p := ZMod.val_lt _
  have hyQ : Q.2.val < p := ZMod.val_lt _
  have hp : p < 2 ^ 255 := by decide +kernel
  have hpar : P.1.val % 2 = Q.1.val % 2 := by omega
  have hy : P.2 = Q.2 := ZMod.val_injective p (by omega)
  obtain ⟨x, y⟩ := P
  obtain ⟨x', y'⟩ := Q
  dsimp only at *
  subst hy
  have hne : 1 + d * y ^ 2 ≠ 0 := by
    intro e
    obtain ⟨i, hi⟩ := ok.i
    by_cases hy0 : y = 0
    · rw [hy0] at e; simp at e
    · refine ok.ns (i / y) ?_
      field_simp
      linear_combination hi - e
  have hsq : x ^ 2 = x' ^ 2 := by
    simp only [OnCurve] at hP hQ
    have : (x ^ 2 - x' ^ 2) * (1 + d * y ^ 2) = 0 := by linear_combination hQ - hP
    rcases mul_eq_zero.1 this with h | h
    · linear_combination h
    · exact absurd h hne
  rcases sq_eq_sq_iff_eq_or_eq_neg.1 hsq with e | e
  · rw [e]
  · by_cases h0 : x' = 0
    · rw [e, h0, neg_zero]
    · have : NeZero x' := ⟨h0⟩
      rw [e, ZMod.val_neg_of_ne_zero] at hpar
      have hlt : x'.val < p := ZMod.val_lt _
      have hodd : p % 2 = 1 := by decide +kernel
      omega

theorem Decodes.unique {b : Bytes} {P Q : Point} (h : Decodes b P) (h' : Decodes b Q) : P = Q :=
  encode_inj h.1 h'.1 (h.2.trans h'.2.symm)

theorem byte_and : ∀ b : BitVec 8, (b &&& 0b11111000#8).toNat = 8 * (b.toNat / 8) := by decide +kernel
theorem byte_clamp : ∀ b : BitVec 8, ((b &&& 0b01111111#8) ||| 0b01000000#8).toNat = 64 + b.toNat % 64 := by decide +kernel

theorem clamp_eq {x : Bytes} (h : x.length = 32) : (clampFromLeBytes x).toNat = clamp (leNat x) := by
  obtain ⟨a, m, z, hm, rfl⟩ : ∃ a m z, m.length = 30 ∧ x = a :: (m ++ [z]) := by
    match x with
    | a :: t =>
      refine ⟨a, t.dropLast, t.getLast (by intro e; rw [e] at h; simp at h), ?_, by rw [List.dropLast_append_getLast]⟩
      rw [List.length_dropLast]
      simp only [List.length_cons] at h
      omega
  rw [clampFromLeBytes, leArrayTo_toNat (by simp; omega)]
  have e1 : ∀ (c w : Byte), (c :: (m ++ [z])).set 31 w = c :: (m ++ [w]) := by
    intro c w
    rw [List.set_cons_succ, List.set_append_right _ _ (by omega), hm]
    rfl
  have e2 : ∀ (c w : Byte), (c :: (m ++ [w]))[31]! = w := by
    intro c w
    rw [getElem!_pos _ 31 (by simp; omega), List.getElem_cons_succ, List.getElem_append_right (by omega)]
    simp [hm]
  rw [List.set_cons_zero, List.getElem!_cons_zero, e2, e1, e2]
  rw [show ∀ (c w : Byte), (c :: (m ++ [z &&& 0b01111111#8])).set 31 w = c :: (m ++ [w]) by
    intro c w
    rw [List.set_cons_succ, List.set_append_right _ _ (by omega), hm]
    rfl]
  simp only [leNat_cons, leNat_append, leNat_nil]
  rw [hm, byte_and, byte_clamp, clamp]
  have l1 := a.isLt
  have l2 := z.isLt
  have l3 := leNat_lt m
  rw [hm] at l3
  omega

theorem val_ORDER : val ORDER = L := by decide +kernel

theorem tryFromLeBytes_eq {x : Bytes} (h : x.length = 32) :
    tryFromLeBytes x = if leNat x < L then some (leArrayTo 4 x) else none := by
  rw [tryFromLeBytes, cmpLt, val_words, leArrayTo_toNat h, val_ORDER]
  by_cases hl : leNat x < L
  · rw [if_pos hl, if_pos (by decide), if_pos hl]
  · rw [if_neg hl, if_neg (by simp), if_neg hl]

theorem sha512_length (m : Bytes) : (Spec.Sha2.sha512 m).length = 64 := Hmac.correct512.outLen m

theorem hashParts_eq (parts : List Bytes) : Pkcs1.hashParts Hmac.sha512 parts =
    if parts.flatten.length < 2 ^ 64 then some (Spec.Sha2.sha512 parts.flatten) else none := Props.C16_sha512 parts

theorem digest_ok {a b c : Bytes} (h : a.length + b.length + c.length < 2 ^ 64) :
    digest a b c = .ok (Spec.Sha2.sha512 (a ++ b ++ c)) := by
  rw [digest, hashParts_eq, if_pos (by simp; omega)]
  simp [hashed]

theorem digest_panic {a b c : Bytes} (h : ¬a.length + b.length + c.length < 2 ^ 64) : digest a b c = .error .panic := by
  rw [digest, hashParts_eq, if_neg (by simp; omega)]
  rfl

theorem reduce_eq {A : Asm} (hA : A.Ok) {x : Bytes} (h : x.length = 64) : (reduceFromLeBytes A x).toNat = leNat x % L := by
  rw [reduceFromLeBytes, hA.modN, leArrayTo_toNat h]

/-! ### Points -/

theorem mul_B_on (n : Nat) : OnCurve (mul n B) := (is_g.mul n).on

theorem negate_is {A : Asm} (hA : A.Ok) {P : Pt} {Q : Point} (h : P.Is Q) : (negate A P).Is (neg Q) := by
  have hlt : P.x.toNat < p := by rw [h.1]; exact ZMod.val_lt _
  refine ⟨?_, h.2⟩
  rw [negate, hA.negP _ hlt, h.1, neg]
  dsimp only
  rw [ZMod.neg_val']

end Verif.Ed25519
