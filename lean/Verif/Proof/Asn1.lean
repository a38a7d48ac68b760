import Verif.Model.Asn1
import Verif.Spec.Der

/-! Supporting lemmas for the DER properties. -/
namespace Verif.Asn1
open Verif.Spec.Der

@[simp] theorem ok_bind {α β : Type} (a : α) (f : α → R β) : (Except.ok a >>= f) = f a := rfl
@[simp] theorem error_bind {α β : Type} (e : Fault) (f : α → R β) :
    ((Except.error e : R α) >>= f) = Except.error e := rfl

theorem bind_eq_ok {α β : Type} {x : R α} {f : α → R β} {b : β} :
    (x >>= f) = .ok b ↔ ∃ a, x = .ok a ∧ f a = .ok b := by
  cases x <;> simp

/-! ### Bytes -/

theorem topSet_iff (b : Byte) : topSet b = true ↔ 128 ≤ b.toNat := by
  revert b; decide

theorem ofNat_toNat8 (b : Byte) : BitVec.ofNat 8 b.toNat = b := by simp

/-! ### Lengths -/

theorem natBytes_zero : natBytes 0 = [] := by unfold natBytes; simp

theorem natBytes_pos {n : Nat} (h : n ≠ 0) :
    natBytes n = natBytes (n / 256) ++ [BitVec.ofNat 8 n] := by
  conv => lhs; unfold natBytes
  simp [h]

theorem toBE_succ (k n : Nat) : toBE (k + 1) n = toBE k (n / 256) ++ [BitVec.ofNat 8 n] := by
  simp [toBE, toLE]

theorem natBytes_eq_toBE {k n : Nat} (h1 : n < 256 ^ k) (h2 : k = 0 ∨ 256 ^ (k - 1) ≤ n) :
    natBytes n = toBE k n := by
  induction k generalizing n with
  | zero =>
    have : n = 0 := by simpa using h1
    subst this; rw [natBytes_zero]; rfl
  | succ k ih =>
    have hn : n ≠ 0 := by
      rcases h2 with h2 | h2
      · omega
      · have := Nat.pow_pos (n := k + 1 - 1) (show 0 < 256 by decide); omega
    rw [natBytes_pos hn, toBE_succ]
    congr 1
    apply ih
    · rw [Nat.pow_succ] at h1; omega
    · cases k with
      | zero => left; rfl
      | succ j =>
        right
        rcases h2 with h2 | h2
        · omega
        · simp only [Nat.add_sub_cancel, Nat.pow_succ] at *
          omega

theorem toBE_drop (j k n : Nat) : (toBE (j + k) n).drop j = toBE k n := by
  simp only [toBE]
  rw [Nat.add_comm, toLE_append, List.reverse_append, List.drop_left']
  simp

/-- The count of length bytes the encoder uses is the byte length of the number. -/
theorem lenBytes_bounds {n : Nat} (h : n ≠ 0) :
    n < 256 ^ ((Nat.log2 n + 1 + 7) / 8) ∧ 256 ^ ((Nat.log2 n + 1 + 7) / 8 - 1) ≤ n := by
  have h1 := Nat.log2_self_le h
  have h2 := Nat.lt_log2_self (n := n)
  have e : ∀ k, 256 ^ k = 2 ^ (8 * k) := fun k => by rw [Nat.pow_mul]
  constructor
  · rw [e]
    exact Nat.lt_of_lt_of_le h2 (Nat.pow_le_pow_right (by decide) (by omega))
  · rw [e]
    exact Nat.le_trans (Nat.pow_le_pow_right (by decide) (by omega)) h1

theorem lenBytes_le {n : Nat} (h : n < 2 ^ 64) : (Nat.log2 n + 1 + 7) / 8 ≤ 8 := by
  by_cases h0 : n = 0
  · subst h0; decide
  · have := (Nat.log2_lt h0).2 h
    omega

theorem drop_toBE_eq {n : Nat} (h0 : n ≠ 0) (h : n < 2 ^ 64) :
    (toBE 8 n).drop (8 - (Nat.log2 n + 1 + 7) / 8) = natBytes n := by
  have hle := lenBytes_le h
  obtain ⟨b1, b2⟩ := lenBytes_bounds h0
  rw [natBytes_eq_toBE b1 (Or.inr b2)]
  generalize (Nat.log2 n + 1 + 7) / 8 = k at *
  have : 8 = (8 - k) + k := by omega
  conv => lhs; rw [this]
  simp only [Nat.add_sub_cancel]
  exact toBE_drop ..

theorem natBytes_length {k n : Nat} (h1 : n < 256 ^ k) (h2 : k = 0 ∨ 256 ^ (k - 1) ≤ n) :
    (natBytes n).length = k := by
  rw [natBytes_eq_toBE h1 h2]; simp

theorem encodedLengthFor_eq {n : Nat} (h : n < 2 ^ 32) (tag : Byte) (body : Bytes)
    (hb : body.length = n) : encodedLengthFor n = .ok (tlv tag body).length := by
  have e : (tlv tag body).length = 1 + (lenOctets n).length + n := by
    simp [tlv, hb]; omega
  rw [e]
  unfold encodedLengthFor lenOctets
  by_cases h1 : n ≤ 0x7f
  · rw [if_pos h1, if_pos (by omega)]; simp
  rw [if_neg h1, if_neg (show ¬ n < 128 by omega), List.length_cons]
  by_cases h2 : n ≤ 0xff
  · rw [if_pos h2, natBytes_length (k := 1) (by omega) (by right; omega)]
  rw [if_neg h2]
  by_cases h3 : n ≤ 0xffff
  · rw [if_pos h3, natBytes_length (k := 2) (by omega) (by right; omega)]
  rw [if_neg h3]
  by_cases h4 : n ≤ 0xffffff
  · rw [if_pos h4, natBytes_length (k := 3) (by omega) (by right; omega)]
  rw [if_neg h4, if_pos (by omega), natBytes_length (k := 4) (by omega) (by right; omega)]

theorem encodedLengthFor_panic {n : Nat} (h : 2 ^ 32 ≤ n) : encodedLengthFor n = .error .panic := by
  unfold encodedLengthFor
  repeat rw [if_neg (by omega)]

/-! ### Encoder -/

/-- The encoder after `bs` has been written. -/
def Encoder.adv (e : Encoder) (bs : Bytes) : Encoder :=
  { done := e.done ++ bs, out := e.out.drop bs.length, written := e.written + bs.length }

@[simp] theorem Encoder.adv_nil (e : Encoder) : e.adv [] = e := by simp [Encoder.adv]

theorem Encoder.adv_adv (e : Encoder) (a b : Bytes) : (e.adv a).adv b = e.adv (a ++ b) := by
  simp [Encoder.adv, Nat.add_assoc]

@[simp] theorem Encoder.adv_out_length (e : Encoder) (a : Bytes) :
    (e.adv a).out.length = e.out.length - a.length := by simp [Encoder.adv]

theorem push_ok {e : Encoder} (b : Byte) (h : 1 ≤ e.out.length) : e.push b = .ok (e.adv [b]) := by
  rcases e with ⟨d, o, w⟩
  cases o with
  | nil => simp at h
  | cons x xs => simp [Encoder.push, Encoder.adv]

theorem push_err {e : Encoder} (b : Byte) (h : e.out.length < 1) :
    e.push b = .error (.err .UnexpectedEof) := by
  rcases e with ⟨d, o, w⟩
  cases o with
  | nil => simp [Encoder.push]
  | cons x xs => simp at h

theorem pushAll_ok {e : Encoder} (bs : Bytes) (h : bs.length ≤ e.out.length) :
    e.pushAll bs = .ok (e.adv bs) := by
  induction bs generalizing e with
  | nil => simp [Encoder.pushAll]
  | cons b bs ih =>
    simp only [List.length_cons] at h
    rw [Encoder.pushAll, push_ok b (by omega), ok_bind, ih (by simp; omega), Encoder.adv_adv]
    rfl

theorem pushAll_err {e : Encoder} (bs : Bytes) (h : e.out.length < bs.length) :
    e.pushAll bs = .error (.err .UnexpectedEof) := by
  induction bs generalizing e with
  | nil => simp at h
  | cons b bs ih =>
    simp only [List.length_cons] at h
    rw [Encoder.pushAll]
    by_cases h1 : 1 ≤ e.out.length
    · rw [push_ok b h1, ok_bind, ih (by simp; omega)]
    · rw [push_err b (by omega)]; rfl

theorem appendSlice_ok {e : Encoder} (bs : Bytes) (h : bs.length ≤ e.out.length) :
    e.appendSlice bs = .ok (e.adv bs) := by
  rw [Encoder.appendSlice, if_neg (by omega)]; rfl

theorem appendSlice_err {e : Encoder} (bs : Bytes) (h : e.out.length < bs.length) :
    e.appendSlice bs = .error (.err .UnexpectedEof) := by
  rw [Encoder.appendSlice, if_pos h]

/-- The tag and length octets. -/
def header (tag : Byte) (n : Nat) : Bytes := tag :: lenOctets n

theorem tlv_eq (tag : Byte) (body : Bytes) : tlv tag body = header tag body.length ++ body := rfl

theorem begin_eq {e : Encoder} {tag : Byte} {n : Nat} (hn : n < 2 ^ 64) :
    e.begin tag n = (do let e ← e.pushAll (header tag n); e.split n) := by
  unfold Encoder.begin header lenOctets
  rw [Encoder.pushAll]
  cases he : e.push tag with
  | error f => rfl
  | ok e1 =>
    simp only [ok_bind]
    split
    · rw [if_pos (by omega)]
      simp only [Encoder.pushAll]
      cases e1.push (BitVec.ofNat 8 n) <;> rfl
    · rw [if_neg (by omega), drop_toBE_eq (by omega) hn, Encoder.pushAll]
      have hb := lenBytes_bounds (n := n) (by omega)
      have hk : (natBytes n).length = (Nat.log2 n + 1 + 7) / 8 := natBytes_length hb.1 (.inr hb.2)
      rw [hk]
      have : (0x80#8 + BitVec.ofNat 8 ((n.log2 + 1 + 7) / 8)) =
          BitVec.ofNat 8 (128 + (n.log2 + 1 + 7) / 8) := by
        apply BitVec.eq_of_toNat_eq; simp
      rw [this]
      cases e1.push _ <;> rfl

theorem begin_ok {e : Encoder} {tag : Byte} {n : Nat} (hn : n < 2 ^ 64)
    (h : (header tag n).length + n ≤ e.out.length) :
    e.begin tag n = .ok
      ({ done := [], out := (e.out.drop (header tag n).length).take n,
         written := e.written + (header tag n).length },
       { done := e.done ++ header tag n, out := e.out.drop ((header tag n).length + n),
         written := e.written + (header tag n).length + n }) := by
  rw [begin_eq hn, pushAll_ok _ (by omega), ok_bind, Encoder.split, if_neg]
  · simp [Encoder.adv]
  · simp; omega

theorem begin_err {e : Encoder} {tag : Byte} {n : Nat} (hn : n < 2 ^ 64)
    (h : e.out.length < (header tag n).length + n) :
    e.begin tag n = .error (.err .UnexpectedEof) := by
  rw [begin_eq hn]
  by_cases h1 : (header tag n).length ≤ e.out.length
  · rw [pushAll_ok _ h1, ok_bind, Encoder.split, if_pos]
    simp; omega
  · rw [pushAll_err _ (by omega)]; rfl

/-- Writing a framed body through a child encoder writes the TLV. -/
theorem frame_ok {e : Encoder} {tag : Byte} {body : Bytes} (hn : body.length < 2 ^ 64)
    (h : (tlv tag body).length ≤ e.out.length) :
    ∃ child parent, e.begin tag body.length = .ok (child, parent) ∧
      child.out.length = body.length ∧
      (child.adv body).finish = e.written + (tlv tag body).length ∧
      parent.join (child.adv body) = e.adv (tlv tag body) := by
  have hl : (tlv tag body).length = (header tag body.length).length + body.length := by
    simp [tlv_eq]
  refine ⟨_, _, begin_ok hn (by omega), ?_, ?_, ?_⟩
  · simp; omega
  · simp [Encoder.finish, Encoder.adv, hl]; omega
  · simp only [Encoder.join, Encoder.adv]
    have : (List.drop body.length (List.take body.length
        (List.drop (header tag body.length).length e.out))) = [] := by
      apply List.eq_nil_of_length_eq_zero; simp
    simp [this, tlv_eq, Nat.add_assoc]

theorem encodeBody_ok {e : Encoder} {tag : Byte} {body : Bytes} (hn : body.length < 2 ^ 64)
    (h : (tlv tag body).length ≤ e.out.length) :
    encodeBody tag body e = .ok (e.written + (tlv tag body).length, e.adv (tlv tag body)) := by
  obtain ⟨c, p, h1, h2, h3, h4⟩ := frame_ok hn h
  rw [encodeBody, h1, ok_bind]
  simp only [appendSlice_ok body (Nat.le_of_eq h2.symm), ok_bind, h3, h4]

theorem frame_err {e : Encoder} {tag : Byte} {body : Bytes} (hn : body.length < 2 ^ 64)
    (h : e.out.length < (tlv tag body).length) :
    e.begin tag body.length = .error (.err .UnexpectedEof) := by
  apply begin_err hn
  simpa [tlv_eq] using h

/-! ### Parser -/

theorem natBytes_two {n : Nat} (h1 : 256 ≤ n) (h2 : n < 65536) :
    natBytes n = [BitVec.ofNat 8 (n / 256), BitVec.ofNat 8 n] := by
  rw [natBytes_pos (by omega), natBytes_pos (by omega), show n / 256 / 256 = 0 by omega,
    natBytes_zero]
  rfl

theorem natBytes_one {n : Nat} (h1 : n ≠ 0) (h2 : n < 256) : natBytes n = [BitVec.ofNat 8 n] := by
  rw [natBytes_pos h1, show n / 256 = 0 by omega, natBytes_zero]; rfl

theorem hi_lo (hi lo : Byte) : (hi.toNat <<< 8) ||| lo.toNat = hi.toNat * 256 + lo.toNat := by
  have := lo.isLt
  rw [Nat.shiftLeft_eq, Nat.mul_comm, ← Nat.two_pow_add_eq_or_of_lt (i := 8) this]

theorem takeLen_lenOctets {n : Nat} (h : n < 65536) (rest : Bytes) :
    takeLen (lenOctets n ++ rest) = .ok (n, rest) := by
  unfold lenOctets
  split
  case isTrue hn =>
    simp only [List.cons_append, List.nil_append, takeLen, oneByte, ok_bind]
    rw [if_pos]
    · simp; omega
    · simp [BitVec.le_def]; omega
  case isFalse hn =>
    by_cases h2 : n < 256
    · rw [natBytes_one (by omega) h2]
      simp only [List.length_singleton, List.cons_append, List.nil_append, takeLen, oneByte,
        ok_bind]
      rw [if_neg (by decide), if_pos (by decide), if_neg]
      · simp; omega
      · simp [BitVec.lt_def]; omega
    · rw [natBytes_two (by omega) h]
      simp only [List.length_cons, List.length_nil, List.cons_append, List.nil_append, takeLen,
        oneByte, ok_bind, hi_lo]
      rw [if_neg (by decide), if_neg (by decide), if_pos (by decide), if_neg]
      · simp; omega
      · simp; omega

theorem takeLen_canon {p rest : Bytes} {n : Nat} (h : takeLen p = .ok (n, rest)) :
    p = lenOctets n ++ rest ∧ n < 65536 := by
  unfold takeLen at h
  cases p with
  | nil => simp [oneByte] at h
  | cons b p =>
    simp only [oneByte, ok_bind] at h
    split at h
    case isTrue hb =>
      injection h with h; injection h with h1 h2
      subst h1 h2
      have : b.toNat ≤ 127 := by simpa [BitVec.le_def] using hb
      constructor
      · rw [lenOctets, if_pos (by omega)]; simp
      · omega
    case isFalse hb =>
    split at h
    case isTrue hb =>
      subst hb
      cases p with
      | nil => simp [oneByte] at h
      | cons l p =>
        simp only [oneByte, ok_bind] at h
        split at h
        · simp at h
        case isFalse hl =>
          injection h with h; injection h with h1 h2
          subst h1 h2
          have hl : 128 ≤ l.toNat := by simpa [BitVec.lt_def] using hl
          have := l.isLt
          constructor
          · rw [lenOctets, if_neg (by omega), natBytes_one (by omega) (by omega)]; simp
          · omega
    case isFalse hb2 =>
    split at h
    case isTrue hb =>
      subst hb
      cases p with
      | nil => simp [oneByte] at h
      | cons hi p =>
      cases p with
      | nil => simp [oneByte] at h
      | cons lo p =>
        simp only [oneByte, ok_bind, hi_lo] at h
        split at h
        · simp at h
        case isFalse hl =>
          injection h with h; injection h with h1 h2
          subst h1 h2
          have := hi.isLt
          have := lo.isLt
          constructor
          · rw [lenOctets, if_neg (by omega), natBytes_two (by omega) (by omega)]
            have e1 : (hi.toNat * 256 + lo.toNat) / 256 = hi.toNat := by omega
            have e2 : BitVec.ofNat 8 (hi.toNat * 256 + lo.toNat) = lo := by
              apply BitVec.eq_of_toNat_eq
              simp only [BitVec.toNat_ofNat]; omega
            rw [e1, e2]
            simp
          · omega
    case isFalse => simp at h

theorem take_tlv {tag : Byte} {body : Bytes} (h : body.length < 65536) (rest : Bytes) :
    take tag (tlv tag body ++ rest) = .ok (body, rest) := by
  simp only [take, tlv, List.cons_append, oneByte, ok_bind, Tag.acceptable, beq_self_eq_true,
    Bool.not_true, List.append_assoc]
  rw [if_neg (by simp), takeLen_lenOctets h, ok_bind]
  simp

theorem take_canon {tag : Byte} {p body rest : Bytes} (h : take tag p = .ok (body, rest)) :
    p = tlv tag body ++ rest ∧ body.length < 65536 := by
  unfold take at h
  cases p with
  | nil => simp [oneByte] at h
  | cons b p =>
    simp only [oneByte, ok_bind] at h
    cases hb : Tag.acceptable tag b
    case false => simp [hb] at h
    case true =>
      have hbt : tag = b := by simpa [Tag.acceptable] using hb
      subst hbt
      simp only [hb, Bool.not_true, Bool.false_eq_true, if_false] at h
      rw [bind_eq_ok] at h
      obtain ⟨⟨n, q⟩, h1, h2⟩ := h
      obtain ⟨h3, h4⟩ := takeLen_canon h1
      simp only at h2
      by_cases hl : n ≤ q.length
      case pos =>
        rw [if_pos hl] at h2
        injection h2 with h2; injection h2 with h5 h6
        have hlen : body.length = n := by rw [← h5]; simp [hl]
        refine ⟨?_, by omega⟩
        rw [h3, tlv, hlen, ← h5, ← h6]
        simp
      case neg => rw [if_neg hl] at h2; simp at h2

theorem oneByte_total (p : Bytes) : oneByte p ≠ .error .panic := by
  cases p <;> simp [oneByte]

theorem bind_total {α β : Type} {x : R α} {f : α → R β} (h1 : x ≠ .error .panic)
    (h2 : ∀ a, x = .ok a → f a ≠ .error .panic) : (x >>= f) ≠ .error .panic := by
  cases x with
  | error e => simpa using h1
  | ok a => simpa using h2 a rfl

theorem takeLen_total (p : Bytes) : takeLen p ≠ .error .panic := by
  unfold takeLen
  refine bind_total (oneByte_total _) fun ⟨a, q⟩ _ => ?_
  dsimp only
  split
  · simp
  split
  · refine bind_total (oneByte_total _) fun ⟨a, q⟩ _ => ?_
    dsimp only
    split <;> simp
  split
  · refine bind_total (oneByte_total _) fun a _ => bind_total (oneByte_total _) fun a _ => ?_
    split <;> simp
  · simp

theorem take_total (t : Tag) (p : Bytes) : take t p ≠ .error .panic := by
  unfold take
  refine bind_total (oneByte_total _) fun ⟨a, q⟩ _ => ?_
  cases h : Tag.acceptable t a
  · simp [h]
  · simp only [h, Bool.not_true, Bool.false_eq_true, if_false]
    refine bind_total (takeLen_total _) fun ⟨a, q⟩ _ => ?_
    dsimp only
    split <;> simp

theorem checkEnd_total (p : Bytes) : checkEnd p ≠ .error .panic := by
  unfold checkEnd; split <;> simp

/-- Cutting a length short. -/
theorem takeLen_cut {n : Nat} (h : n < 65536) {k : Nat} (hk : k < (lenOctets n).length) :
    takeLen ((lenOctets n).take k) = .error (.err .UnexpectedEof) := by
  unfold lenOctets at *
  split at hk
  case isTrue hn =>
    have : k = 0 := by simpa using hk
    subst this; rfl
  case isFalse hn =>
    rw [if_neg hn]
    by_cases h2 : n < 256
    · rw [natBytes_one (by omega) h2] at *
      simp only [List.length_cons, List.length_nil] at hk
      match k with
      | 0 => rfl
      | 1 =>
        simp only [List.length_singleton, List.take_succ_cons, List.take_zero, takeLen, oneByte,
          ok_bind]
        rw [if_neg (by decide), if_pos (by decide)]; rfl
      | k + 2 => omega
    · rw [natBytes_two (by omega) h] at *
      simp only [List.length_cons, List.length_nil] at hk
      match k with
      | 0 => rfl
      | 1 =>
        simp only [List.length_cons, List.length_nil, List.take_succ_cons, List.take_zero, takeLen,
          oneByte, ok_bind]
        rw [if_neg (by decide), if_neg (by decide), if_pos (by decide)]; rfl
      | 2 =>
        simp only [List.length_cons, List.length_nil, List.take_succ_cons, List.take_zero, takeLen,
          oneByte, ok_bind]
        rw [if_neg (by decide), if_neg (by decide), if_pos (by decide)]; rfl
      | k + 3 => omega

/-- Cutting an object short is reported as end of input. -/
theorem take_cut {t : Tag} {body : Bytes} (h : body.length < 65536) {k : Nat}
    (hk : k < (tlv t body).length) :
    take t ((tlv t body).take k) = .error (.err .UnexpectedEof) := by
  cases k with
  | zero => rfl
  | succ k =>
    simp only [tlv, List.take_succ_cons, take, oneByte, ok_bind, Tag.acceptable, beq_self_eq_true,
      Bool.not_true]
    rw [if_neg (by simp)]
    simp only [tlv, List.length_cons, List.length_append] at hk
    by_cases h1 : k < (lenOctets body.length).length
    · rw [List.take_append_of_le_length (by omega), takeLen_cut h h1]; rfl
    · rw [List.take_append, List.take_of_length_le (by omega), takeLen_lenOctets h, ok_bind]
      dsimp only
      rw [if_neg]
      simp; omega

end Verif.Asn1
