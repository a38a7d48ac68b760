import Verif.Proof.Asn1

/-! Laws every `Type` implementation satisfies, proved combinator by combinator. -/
namespace Verif.Asn1
open Verif.Spec.Der

variable {T A B S : Type}

/-- `c`, used with tag `t`, reads and writes exactly the byte strings `der v`.
`follow v rest` says that `rest` may come after `v` (matters for optional items only). -/
structure Lawful (c : Codec T) (t : Tag) (der : T → Bytes) (wf fits : T → Prop)
    (follow : T → Bytes → Prop) : Prop where
  enc_ok : ∀ v e, (der v).length < 2 ^ 32 → (der v).length ≤ e.out.length →
    ∃ n, c.encodeWithTag t v e = .ok (n, e.adv (der v)) ∧
      (der v ≠ [] → n = e.written + (der v).length)
  enc_err : ∀ v e, (der v).length < 2 ^ 32 → e.out.length < (der v).length →
    c.encodeWithTag t v e = .error (.err .UnexpectedEof)
  len : ∀ v, (der v).length < 2 ^ 32 → c.encodedLen v = .ok (der v).length
  parse_der : ∀ v rest, wf v → fits v → follow v rest →
    c.parseWithTag t (der v ++ rest) = .ok (v, rest)
  canon : ∀ inp v rest, c.parseWithTag t inp = .ok (v, rest) →
    inp = der v ++ rest ∧ wf v ∧ fits v ∧ follow v rest
  fits_of_len : ∀ v, (der v).length < 65536 → fits v
  total : ∀ inp, c.parseWithTag t inp ≠ .error .panic

/-- Same for the fields of a struct. -/
structure FieldsLawful (f : Fields T) (der : T → Bytes) (wf : T → Prop)
    (follow : T → Bytes → Prop) : Prop where
  enc_ok : ∀ v e, (der v).length < 2 ^ 32 → (der v).length ≤ e.out.length →
    f.encode v e = .ok (e.adv (der v))
  len : ∀ v, (der v).length < 2 ^ 32 → f.bodyLen v = .ok (der v).length
  parse_der : ∀ v rest, wf v → (der v).length < 65536 → follow v rest →
    f.parse (der v ++ rest) = .ok (v, rest)
  canon : ∀ inp v rest, f.parse inp = .ok (v, rest) →
    inp = der v ++ rest ∧ wf v ∧ follow v rest
  total : ∀ inp, f.parse inp ≠ .error .panic

abbrev free : T → Bytes → Prop := fun _ _ => True

theorem tlv_length (t : Tag) (b : Bytes) :
    (tlv t b).length = 1 + (lenOctets b.length).length + b.length := by
  simp [tlv]; omega

theorem tlv_body_lt {t : Tag} {b : Bytes} {n : Nat} (h : (tlv t b).length < n) : b.length < n := by
  rw [tlv_length] at h; omega

theorem tlv_ne_nil (t : Tag) (b : Bytes) : tlv t b ≠ [] := by simp [tlv]

theorem encodeBody_err {e : Encoder} {tag : Byte} {body : Bytes} (hn : body.length < 2 ^ 64)
    (h : e.out.length < (tlv tag body).length) :
    encodeBody tag body e = .error (.err .UnexpectedEof) := by
  rw [encodeBody, frame_err hn h]; rfl

theorem null_lawful (t : Tag) :
    Lawful nullCodec t (fun _ => tlv t []) (fun _ => True) (fun _ => True) free where
  enc_ok v e h1 h2 := by
    obtain ⟨c, p, h3, h4, h5, h6⟩ := frame_ok (tag := t) (body := []) (by decide) h2
    simp only [Encoder.adv_nil] at h5 h6
    refine ⟨_, ?_, fun _ => rfl⟩
    simp only [nullCodec]
    rw [List.length_nil] at h3
    rw [h3]
    simp [h5, h6]
  enc_err v e h1 h2 := by
    have := frame_err (tag := t) (body := []) (by decide) h2
    simp only [nullCodec]
    rw [List.length_nil] at this
    rw [this]; rfl
  len v h := by simp only [nullCodec]; exact encodedLengthFor_eq (by decide) t [] rfl
  parse_der v rest _ _ _ := by
    cases v
    simp only [nullCodec]
    rw [take_tlv (by decide)]
    rfl
  canon inp v rest h := by
    cases v
    simp only [nullCodec, bind_eq_ok] at h
    obtain ⟨⟨body, p⟩, h1, h2⟩ := h
    obtain ⟨h3, h4⟩ := take_canon h1
    cases body with
    | nil => simp at h2; subst h2; exact ⟨h3, trivial, trivial, trivial⟩
    | cons => simp at h2
  fits_of_len _ _ := trivial
  total inp := by
    refine bind_total (take_total _ _) fun a _ => ?_
    dsimp only; split <;> simp

theorem octetString_lawful (t : Tag) :
    Lawful octetStringCodec t (fun v => tlv t v.octets) (fun _ => True)
      (fun v => v.octets.length < 65536) free where
  enc_ok v e h1 h2 := by
    have := tlv_body_lt h1
    exact ⟨_, encodeBody_ok (by omega) h2, fun _ => rfl⟩
  enc_err v e h1 h2 := by
    have := tlv_body_lt h1
    exact encodeBody_err (by omega) h2
  len v h := encodedLengthFor_eq (tlv_body_lt h) t _ rfl
  parse_der v rest _ h _ := by
    simp only [octetStringCodec]
    rw [take_tlv h]
    rfl
  canon inp v rest h := by
    simp only [octetStringCodec, bind_eq_ok] at h
    obtain ⟨⟨body, p⟩, h1, h2⟩ := h
    obtain ⟨h3, h4⟩ := take_canon h1
    simp at h2
    obtain ⟨rfl, rfl⟩ := h2
    exact ⟨h3, trivial, h4, trivial⟩
  fits_of_len _ h := tlv_body_lt h
  total inp := by
    refine bind_total (take_total _ _) fun a _ => ?_
    simp

theorem objectId_lawful (t : Tag) :
    Lawful objectIdCodec t (fun v => tlv t v.bytes) (fun _ => True) (fun _ => True) free where
  enc_ok v e h1 h2 := by
    have := tlv_body_lt h1
    exact ⟨_, encodeBody_ok (by omega) h2, fun _ => rfl⟩
  enc_err v e h1 h2 := by
    have := tlv_body_lt h1
    exact encodeBody_err (by omega) h2
  len v h := encodedLengthFor_eq (tlv_body_lt h) t _ rfl
  parse_der v rest _ h _ := by
    have := v.bound
    simp only [objectIdCodec]
    rw [take_tlv (by omega), ok_bind]
    simp [this]
  canon inp v rest h := by
    simp only [objectIdCodec, bind_eq_ok] at h
    obtain ⟨⟨body, p⟩, h1, h2⟩ := h
    obtain ⟨h3, h4⟩ := take_canon h1
    simp only at h2
    split at h2
    · simp at h2
      obtain ⟨rfl, rfl⟩ := h2
      exact ⟨h3, trivial, trivial, trivial⟩
    · simp at h2
  fits_of_len _ _ := trivial
  total inp := by
    refine bind_total (take_total _ _) fun a _ => ?_
    dsimp only; split <;> simp

theorem bitString_lawful (t : Tag) :
    Lawful bitStringCodec t (fun v => tlv t (0#8 :: v.octets)) (fun _ => True)
      (fun v => v.octets.length + 1 < 65536) free where
  enc_ok v e h1 h2 := by
    have hb := tlv_body_lt h1
    refine ⟨_, ?_, fun _ => rfl⟩
    obtain ⟨c, p, h3, h4, h5, h6⟩ := frame_ok (by omega) h2
    simp only [bitStringCodec]
    rw [List.length_cons] at h3 h4
    rw [h3]
    simp only [ok_bind]
    rw [push_ok _ (by omega), ok_bind, appendSlice_ok _ (by simp; omega)]
    simp only [ok_bind, Encoder.adv_adv]
    simp only [List.cons_append, List.nil_append, h5, h6]
  enc_err v e h1 h2 := by
    have hb := tlv_body_lt h1
    have := frame_err (by omega) h2
    simp only [bitStringCodec]
    rw [List.length_cons] at this
    rw [this]; rfl
  len v h := encodedLengthFor_eq (tlv_body_lt h) t _ rfl
  parse_der v rest _ h _ := by
    simp only [bitStringCodec]
    rw [take_tlv (by simpa using h)]
    rfl
  canon inp v rest h := by
    simp only [bitStringCodec, bind_eq_ok] at h
    obtain ⟨⟨body, p⟩, h1, h2⟩ := h
    obtain ⟨h3, h4⟩ := take_canon h1
    cases body with
    | nil => simp at h2
    | cons b bs =>
      simp only at h2
      split at h2
      case isTrue hb =>
        simp at h2
        obtain ⟨rfl, rfl⟩ := h2
        subst hb
        exact ⟨h3, trivial, h4, trivial⟩
      · simp at h2
  fits_of_len _ h := by simpa using tlv_body_lt h
  total inp := by
    refine bind_total (take_total _ _) fun a _ => ?_
    dsimp only
    split
    · simp
    · split <;> simp

/-- A value the parser could have produced: minimal contents. -/
def Integer.ok (i : Integer) : Prop := Integer.minimumMagnitudeCheck i.twosComplement = .ok i

theorem minCheck_eq {bs : Bytes} {i : Integer}
    (h : Integer.minimumMagnitudeCheck bs = .ok i) : i = ⟨bs⟩ := by
  unfold Integer.minimumMagnitudeCheck at h
  split at h
  · simp at h
  · split at h
    · simp at h
    · split at h
      · simp at h
      · injection h with h; exact h.symm
  · injection h with h; exact h.symm

theorem minCheck_total (bs : Bytes) : Integer.minimumMagnitudeCheck bs ≠ .error .panic := by
  unfold Integer.minimumMagnitudeCheck
  split
  · simp
  · split
    · simp
    · split <;> simp
  · simp

theorem integer_lawful (t : Tag) :
    Lawful integerCodec t (fun v => tlv t v.twosComplement) Integer.ok
      (fun v => v.twosComplement.length < 65536) free where
  enc_ok v e h1 h2 := by
    have := tlv_body_lt h1
    exact ⟨_, encodeBody_ok (by omega) h2, fun _ => rfl⟩
  enc_err v e h1 h2 := by
    have := tlv_body_lt h1
    exact encodeBody_err (by omega) h2
  len v h := encodedLengthFor_eq (tlv_body_lt h) t _ rfl
  parse_der v rest hw h _ := by
    simp only [integerCodec]
    rw [take_tlv h, ok_bind]
    simp only [Integer.ok] at hw
    rw [hw]; rfl
  canon inp v rest h := by
    simp only [integerCodec, bind_eq_ok] at h
    obtain ⟨⟨body, p⟩, h1, i, h2, h5⟩ := h
    obtain ⟨h3, h4⟩ := take_canon h1
    have hi := minCheck_eq h2
    subst hi
    injection h5 with h5; injection h5 with h5 h6
    subst h5 h6
    exact ⟨h3, h2, h4, trivial⟩
  fits_of_len _ h := tlv_body_lt h
  total inp := by
    refine bind_total (take_total _ _) fun a _ => bind_total ?_ fun a _ => by simp
    exact minCheck_total _

/-! ### ANY -/

def derAny : Any → Bytes
  | .Null _ => tlv Tag.NULL []
  | .Integer i => tlv Tag.INTEGER i.twosComplement
  | .OctetString o => tlv Tag.OCTET_STRING o.octets
  | .BitString b => tlv Tag.BIT_STRING (0#8 :: b.octets)
  | .ObjectId o => tlv Tag.OBJECT_ID o.bytes

def Any.ok : Any → Prop
  | .Integer i => i.ok
  | _ => True

def Any.fits : Any → Prop
  | .Integer i => i.twosComplement.length < 65536
  | .OctetString o => o.octets.length < 65536
  | .BitString b => b.octets.length + 1 < 65536
  | _ => True

theorem peekTag_tlv (t : Tag) (b rest : Bytes) : peekTag (tlv t b ++ rest) = .ok t := rfl

theorem any_lawful (t : Tag) : Lawful anyCodec t derAny Any.ok Any.fits free where
  enc_ok v e h1 h2 := by
    cases v with
    | Null x => exact (null_lawful _).enc_ok x e h1 h2
    | Integer x => exact (integer_lawful _).enc_ok x e h1 h2
    | OctetString x => exact (octetString_lawful _).enc_ok x e h1 h2
    | BitString x => exact (bitString_lawful _).enc_ok x e h1 h2
    | ObjectId x => exact (objectId_lawful _).enc_ok x e h1 h2
  enc_err v e h1 h2 := by
    cases v with
    | Null x => exact (null_lawful _).enc_err x e h1 h2
    | Integer x => exact (integer_lawful _).enc_err x e h1 h2
    | OctetString x => exact (octetString_lawful _).enc_err x e h1 h2
    | BitString x => exact (bitString_lawful _).enc_err x e h1 h2
    | ObjectId x => exact (objectId_lawful _).enc_err x e h1 h2
  len v h := by
    cases v with
    | Null x => exact (null_lawful _).len x h
    | Integer x => exact (integer_lawful _).len x h
    | OctetString x => exact (octetString_lawful _).len x h
    | BitString x => exact (bitString_lawful _).len x h
    | ObjectId x => exact (objectId_lawful _).len x h
  parse_der v rest h1 h2 _ := by
    cases v with
    | Null x =>
      have := (null_lawful Tag.NULL).parse_der x rest trivial trivial trivial
      simp only [anyCodec, derAny, peekTag_tlv, ok_bind]
      simp only [Codec.parse]
      simp +decide only [if_true, if_false]
      exact (by rw [show nullCodec.tag = Tag.NULL from rfl, this]; rfl)
    | Integer x =>
      have := (integer_lawful Tag.INTEGER).parse_der x rest h1 h2 trivial
      simp only [anyCodec, derAny, peekTag_tlv, ok_bind]
      simp only [Codec.parse]
      simp +decide only [if_true, if_false]
      exact (by rw [show integerCodec.tag = Tag.INTEGER from rfl, this]; rfl)
    | OctetString x =>
      have := (octetString_lawful Tag.OCTET_STRING).parse_der x rest trivial h2 trivial
      simp only [anyCodec, derAny, peekTag_tlv, ok_bind]
      simp only [Codec.parse]
      simp +decide only [if_true, if_false]
      exact (by rw [show octetStringCodec.tag = Tag.OCTET_STRING from rfl, this]; rfl)
    | BitString x =>
      have := (bitString_lawful Tag.BIT_STRING).parse_der x rest trivial h2 trivial
      simp only [anyCodec, derAny, peekTag_tlv, ok_bind]
      simp only [Codec.parse]
      simp +decide only [if_true, if_false]
      exact (by rw [show bitStringCodec.tag = Tag.BIT_STRING from rfl, this]; rfl)
    | ObjectId x =>
      have := (objectId_lawful Tag.OBJECT_ID).parse_der x rest trivial trivial trivial
      simp only [anyCodec, derAny, peekTag_tlv, ok_bind]
      simp only [Codec.parse]
      simp +decide only [if_true, if_false]
      exact (by rw [show objectIdCodec.tag = Tag.OBJECT_ID from rfl, this]; rfl)
  canon inp v rest h := by
    simp only [anyCodec, bind_eq_ok] at h
    obtain ⟨tt, ht, h⟩ := h
    split at h
    · rw [bind_eq_ok] at h
      obtain ⟨⟨x, p⟩, h1, h2⟩ := h
      injection h2 with h2; injection h2 with h3 h4; subst h3 h4
      obtain ⟨a, b, c, d⟩ := (null_lawful Tag.NULL).canon _ _ _ h1
      exact ⟨a, trivial, trivial, trivial⟩
    split at h
    · rw [bind_eq_ok] at h
      obtain ⟨⟨x, p⟩, h1, h2⟩ := h
      injection h2 with h2; injection h2 with h3 h4; subst h3 h4
      exact (integer_lawful Tag.INTEGER).canon _ _ _ h1
    split at h
    · rw [bind_eq_ok] at h
      obtain ⟨⟨x, p⟩, h1, h2⟩ := h
      injection h2 with h2; injection h2 with h3 h4; subst h3 h4
      exact (octetString_lawful Tag.OCTET_STRING).canon _ _ _ h1
    split at h
    · rw [bind_eq_ok] at h
      obtain ⟨⟨x, p⟩, h1, h2⟩ := h
      injection h2 with h2; injection h2 with h3 h4; subst h3 h4
      exact (bitString_lawful Tag.BIT_STRING).canon _ _ _ h1
    split at h
    · rw [bind_eq_ok] at h
      obtain ⟨⟨x, p⟩, h1, h2⟩ := h
      injection h2 with h2; injection h2 with h3 h4; subst h3 h4
      exact (objectId_lawful Tag.OBJECT_ID).canon _ _ _ h1
    · simp at h
  fits_of_len v h := by
    cases v with
    | Null x => trivial
    | Integer x => exact tlv_body_lt h
    | OctetString x => exact tlv_body_lt h
    | BitString x => exact (bitString_lawful Tag.BIT_STRING).fits_of_len x h
    | ObjectId x => trivial
  total inp := by
    refine bind_total (by cases inp <;> simp [peekTag]) fun tt _ => ?_
    split
    · exact bind_total ((null_lawful _).total _) fun _ _ => by simp
    split
    · exact bind_total ((integer_lawful _).total _) fun _ _ => by simp
    split
    · exact bind_total ((octetString_lawful _).total _) fun _ _ => by simp
    split
    · exact bind_total ((bitString_lawful _).total _) fun _ _ => by simp
    split
    · exact bind_total ((objectId_lawful _).total _) fun _ _ => by simp
    · simp

/-! ### Optional and context-tagged items -/

def derOpt (der : T → Bytes) : Option T → Bytes
  | none => []
  | some v => der v

def optP (p : T → Prop) : Option T → Prop
  | none => True
  | some v => p v

theorem option_lawful {c : Codec T} {t der wf fits} (hc : Lawful c t der wf fits free)
    (hne : ∀ v, der v ≠ []) :
    Lawful (optionCodec c) t (derOpt der) (optP wf) (optP fits)
      (fun v rest => v = none → rest = []) where
  enc_ok v e h1 h2 := by
    cases v with
    | none => exact ⟨0, by simp [optionCodec, derOpt], fun h => absurd rfl h⟩
    | some v => exact hc.enc_ok v e h1 h2
  enc_err v e h1 h2 := by
    cases v with
    | none => simp [derOpt] at h2
    | some v => exact hc.enc_err v e h1 h2
  len v h := by
    cases v with
    | none => rfl
    | some v => exact hc.len v h
  parse_der v rest h1 h2 h3 := by
    cases v with
    | none => simp [optionCodec, derOpt, h3]
    | some v =>
      have := List.length_pos_iff.2 (hne v)
      simp only [optionCodec, derOpt]
      rw [if_pos (by simp; omega), hc.parse_der v rest h1 h2 trivial]
      rfl
  canon inp v rest h := by
    simp only [optionCodec] at h
    split at h
    · rw [bind_eq_ok] at h
      obtain ⟨⟨x, p⟩, h1, h2⟩ := h
      injection h2 with h2; injection h2 with h3 h4; subst h3 h4
      obtain ⟨a, b, c, _⟩ := hc.canon _ _ _ h1
      exact ⟨a, b, c, by simp⟩
    case isFalse hl =>
      injection h with h; injection h with h3 h4; subst h3 h4
      exact ⟨rfl, trivial, trivial, fun _ => by simpa using hl⟩
  fits_of_len v h := by
    cases v with
    | none => trivial
    | some v => exact hc.fits_of_len v h
  total inp := by
    simp only [optionCodec]
    split
    · exact bind_total (hc.total _) fun _ _ => by simp
    · simp

/-- Explicitly tagged context item. -/
theorem explicit_lawful {c : Codec T} {der wf fits} (id : Byte)
    (hc : Lawful c c.tag der wf fits free) (t : Tag) (ht : t = Tag.context id true)
    (hcons : Tag.constructed t = true) :
    Lawful (contextCodec id true c) t (derOpt fun v => tlv t (der v)) (optP wf)
      (optP fun v => (der v).length < 65536)
      (fun v rest => v = none → rest.head? ≠ some t) where
  enc_ok v e h1 h2 := by
    cases v with
    | none => exact ⟨0, by simp [contextCodec, derOpt], fun h => absurd rfl h⟩
    | some v =>
      have hb := tlv_body_lt h1
      refine ⟨_, ?_, fun _ => rfl⟩
      obtain ⟨ch, p, h3, h4, h5, h6⟩ := frame_ok (by omega) h2
      obtain ⟨n, h7, _⟩ := hc.enc_ok v ch hb (by omega)
      simp only [contextCodec, Bool.true_or, if_true, hc.len v hb, ok_bind, h3, Codec.encode, h7,
        h5, h6]
      rfl
  enc_err v e h1 h2 := by
    cases v with
    | none => simp [derOpt] at h2
    | some v =>
      have hb := tlv_body_lt h1
      simp only [contextCodec, Bool.true_or, if_true, hc.len v hb, ok_bind]
      rw [frame_err (by omega) h2]; rfl
  len v h := by
    cases v with
    | none => rfl
    | some v =>
      have hb := tlv_body_lt h
      subst ht
      simp only [contextCodec, if_true, hcons, hc.len v hb, ok_bind]
      exact encodedLengthFor_eq hb _ _ rfl
  parse_der v rest h1 h2 h3 := by
    cases v with
    | none =>
      simp only [derOpt, List.nil_append, contextCodec]
      cases rest with
      | nil => rfl
      | cons b bs =>
        have hb : b ≠ t := by simpa using h3 rfl
        have hb' : (t == b) = false := by simpa using hb.symm
        simp [peekTag, Tag.acceptable, hb']
    | some v =>
      have hp : c.parse (der v) = .ok (v, []) := by
        have := hc.parse_der v [] h1 (hc.fits_of_len v h2) trivial
        rwa [List.append_nil] at this
      simp only [contextCodec, derOpt, peekTag_tlv]
      rw [if_pos (by simp [Tag.acceptable]), if_pos (by simp), take_tlv h2]
      simp only [ok_bind, hp]
      rfl
  canon inp v rest h := by
    simp only [contextCodec] at h
    split at h
    case h_1 tt htt =>
      split at h
      case isTrue hacc =>
        rw [if_pos (by simp), bind_eq_ok] at h
        obtain ⟨⟨body, p⟩, h1, h⟩ := h
        simp only [bind_eq_ok] at h
        obtain ⟨⟨x, sub⟩, h2, ⟨⟩, h3, h4⟩ := h
        obtain ⟨a1, a2⟩ := take_canon h1
        obtain ⟨b1, b2, b3, b4⟩ := hc.canon _ _ _ h2
        have hsub : sub = [] := by
          unfold checkEnd at h3
          split at h3
          · simp at h3
          case isFalse h => simpa using h
        subst hsub
        injection h4 with h4; injection h4 with h5 h6; subst h5 h6
        rw [List.append_nil] at b1
        subst b1
        exact ⟨a1, b2, a2, by simp⟩
      case isFalse hacc =>
        injection h with h; injection h with h3 h4; subst h3 h4
        refine ⟨rfl, trivial, trivial, fun _ => ?_⟩
        cases inp with
        | nil => simp
        | cons b bs =>
          simp only [peekTag] at htt
          injection htt with htt; subst htt
          simp only [Tag.acceptable] at hacc
          intro hh
          apply hacc
          simp at hh
          simp [hh]
    case h_2 =>
      injection h with h; injection h with h3 h4; subst h3 h4
      refine ⟨rfl, trivial, trivial, fun _ => ?_⟩
      cases inp with
      | nil => simp
      | cons b bs => simp_all [peekTag]
  fits_of_len v h := by
    cases v with
    | none => trivial
    | some v => exact tlv_body_lt h
  total inp := by
    simp only [contextCodec]
    split
    · split
      · rw [if_pos (by simp)]
        refine bind_total (take_total _ _) fun _ _ => bind_total (hc.total _) fun _ _ =>
          bind_total (checkEnd_total _) fun _ _ => by simp
      · simp
    · simp

/-- Implicitly tagged context item of a primitive type. -/
theorem implicit_lawful {c : Codec T} {der wf fits} (id : Byte) (t : Tag)
    (hc : Lawful c t der wf fits free) (hd : ∀ v, (der v).head? = some t)
    (ht : t = Tag.context id (Tag.constructed c.tag))
    (hcons : Tag.constructed t = false) :
    Lawful (contextCodec id false c) t (derOpt der) (optP wf) (optP fits)
      (fun v rest => v = none → rest.head? ≠ some t) where
  enc_ok v e h1 h2 := by
    cases v with
    | none => exact ⟨0, by simp [contextCodec, derOpt], fun h => absurd rfl h⟩
    | some v =>
      obtain ⟨n, h3, h4⟩ := hc.enc_ok v e h1 h2
      refine ⟨n, ?_, h4⟩
      simp only [contextCodec, Bool.false_or, hcons, Bool.false_eq_true, if_false, h3]
      rfl
  enc_err v e h1 h2 := by
    cases v with
    | none => simp [derOpt] at h2
    | some v =>
      have := hc.enc_err v e h1 h2
      simp only [contextCodec, Bool.false_or, hcons, Bool.false_eq_true, if_false, this]
  len v h := by
    cases v with
    | none => rfl
    | some v =>
      subst ht
      have := hc.len v h
      simp only [contextCodec, Bool.false_eq_true, if_false, hcons]
      exact this
  parse_der v rest h1 h2 h3 := by
    cases v with
    | none =>
      simp only [derOpt, List.nil_append, contextCodec]
      cases rest with
      | nil => rfl
      | cons b bs =>
        have hb : b ≠ t := by simpa using h3 rfl
        have hb' : (t == b) = false := by simpa using hb.symm
        simp [peekTag, Tag.acceptable, hb']
    | some v =>
      have hp := hc.parse_der v rest h1 h2 trivial
      have hpk : peekTag (der v ++ rest) = .ok t := by
        have := hd v
        cases hder : der v with
        | nil => simp [hder] at this
        | cons b bs =>
          rw [hder] at this; simp at this; subst this; rfl
      simp only [contextCodec, derOpt, hpk]
      rw [if_pos (by simp [Tag.acceptable]), if_neg (by simp [hcons]), hp]
      rfl
  canon inp v rest h := by
    simp only [contextCodec] at h
    split at h
    case h_1 tt htt =>
      split at h
      case isTrue hacc =>
        rw [if_neg (by simp [hcons]), bind_eq_ok] at h
        obtain ⟨⟨x, p⟩, h1, h⟩ := h
        injection h with h4; injection h4 with h5 h6; subst h5 h6
        obtain ⟨b1, b2, b3, b4⟩ := hc.canon _ _ _ h1
        exact ⟨b1, b2, b3, by simp⟩
      case isFalse hacc =>
        injection h with h; injection h with h3 h4; subst h3 h4
        refine ⟨rfl, trivial, trivial, fun _ => ?_⟩
        cases inp with
        | nil => simp
        | cons b bs =>
          simp only [peekTag] at htt
          injection htt with htt; subst htt
          simp only [Tag.acceptable] at hacc
          intro hh
          apply hacc
          simp at hh
          simp [hh]
    case h_2 =>
      injection h with h; injection h with h3 h4; subst h3 h4
      refine ⟨rfl, trivial, trivial, fun _ => ?_⟩
      cases inp with
      | nil => simp
      | cons b bs => simp_all [peekTag]
  fits_of_len v h := by
    cases v with
    | none => trivial
    | some v => exact hc.fits_of_len v h
  total inp := by
    simp only [contextCodec]
    split
    · split
      · rw [if_neg (by simp [hcons])]
        exact bind_total (hc.total _) fun _ _ => by simp
      · simp
    · simp

/-! ### Structs -/

theorem last_lawful {c : Codec T} {der wf fits follow} (hc : Lawful c c.tag der wf fits follow) :
    FieldsLawful (.last c) der wf follow where
  enc_ok v e h1 h2 := by
    obtain ⟨n, h3, _⟩ := hc.enc_ok v e h1 h2
    simp only [Fields.last, Codec.encode, h3]; rfl
  len v h := hc.len v h
  parse_der v rest h1 h2 h3 := hc.parse_der v rest h1 (hc.fits_of_len v h2) h3
  canon inp v rest h := by
    obtain ⟨a, b, c, d⟩ := hc.canon inp v rest h
    exact ⟨a, b, d⟩
  total inp := hc.total inp

theorem cons_lawful {c : Codec A} {f : Fields B} {der wf fits follow derB wfB followB}
    (hc : Lawful c c.tag der wf fits follow) (hf : FieldsLawful f derB wfB followB) :
    FieldsLawful (.cons c f) (fun v => der v.1 ++ derB v.2) (fun v => wf v.1 ∧ wfB v.2)
      (fun v rest => follow v.1 (derB v.2 ++ rest) ∧ followB v.2 rest) where
  enc_ok v e h1 h2 := by
    rw [List.length_append] at h1 h2
    obtain ⟨n, h3, _⟩ := hc.enc_ok v.1 e (by omega) (by omega)
    have h4 := hf.enc_ok v.2 (e.adv (der v.1)) (by omega) (by simp; omega)
    simp only [Fields.cons, Codec.encode, h3, ok_bind, h4, Encoder.adv_adv]
  len v h := by
    rw [List.length_append] at *
    simp only [Fields.cons, hc.len v.1 (by omega), hf.len v.2 (by omega), ok_bind]
  parse_der v rest h1 h2 h3 := by
    rw [List.length_append] at h2
    have e1 := hc.parse_der v.1 (derB v.2 ++ rest) h1.1 (hc.fits_of_len _ (by omega)) h3.1
    have e2 := hf.parse_der v.2 rest h1.2 (by omega) h3.2
    simp only [Fields.cons, List.append_assoc, Codec.parse, e1, ok_bind, e2]
  canon inp v rest h := by
    simp only [Fields.cons, bind_eq_ok] at h
    obtain ⟨⟨a, p⟩, h1, ⟨b, q⟩, h2, h3⟩ := h
    injection h3 with h3; injection h3 with h3 h4; subst h3 h4
    obtain ⟨a1, a2, a3, a4⟩ := hc.canon _ _ _ h1
    obtain ⟨b1, b2, b3⟩ := hf.canon _ _ _ h2
    simp only at *
    subst b1
    exact ⟨by rw [a1, List.append_assoc], ⟨a2, b2⟩, a4, b3⟩
  total inp := bind_total (hc.total _) fun _ _ => bind_total (hf.total _) fun _ _ => by simp

/-- A `SEQUENCE` struct is written as the TLV of its fields' encodings. -/
theorem struct_lawful {f : Fields T} {der wf follow} (mk : T → S) (get : S → T)
    (hgm : ∀ x, get (mk x) = x) (hmg : ∀ s, mk (get s) = s)
    (hf : FieldsLawful f der wf follow) (t : Tag) :
    Lawful (structCodec f mk get) t (fun s => tlv t (der (get s)))
      (fun s => wf (get s) ∧ follow (get s) []) (fun s => (der (get s)).length < 65536) free where
  enc_ok v e h1 h2 := by
    have hb := tlv_body_lt h1
    refine ⟨_, ?_, fun _ => rfl⟩
    obtain ⟨ch, p, h3, h4, h5, h6⟩ := frame_ok (by omega) h2
    have h7 := hf.enc_ok (get v) ch hb (by omega)
    simp only [structCodec, hf.len _ hb, ok_bind, h3, h7, h5, h6]
  enc_err v e h1 h2 := by
    have hb := tlv_body_lt h1
    simp only [structCodec, hf.len _ hb, ok_bind]
    rw [frame_err (by omega) h2]; rfl
  len v h := by
    have hb := tlv_body_lt h
    simp only [structCodec, hf.len _ hb, ok_bind]
    exact encodedLengthFor_eq hb _ _ rfl
  parse_der v rest h1 h2 _ := by
    have hp := hf.parse_der (get v) [] h1.1 h2 h1.2
    rw [List.append_nil] at hp
    simp only [structCodec]
    rw [take_tlv h2]
    simp only [ok_bind, hp, checkEnd, List.length_nil, ne_eq, not_true, if_false, hmg]
  canon inp v rest h := by
    simp only [structCodec, bind_eq_ok] at h
    obtain ⟨⟨body, p⟩, h1, ⟨x, sub⟩, h2, ⟨⟩, h3, h4⟩ := h
    obtain ⟨a1, a2⟩ := take_canon h1
    obtain ⟨b1, b2, b3⟩ := hf.canon _ _ _ h2
    have hsub : sub = [] := by
      unfold checkEnd at h3
      split at h3
      · simp at h3
      case isFalse h => simpa using h
    subst hsub
    injection h4 with h4; injection h4 with h5 h6; subst h5 h6
    rw [List.append_nil] at b1
    simp only at *
    subst b1
    rw [hgm]
    exact ⟨a1, ⟨b2, b3⟩, a2, trivial⟩
  fits_of_len v h := tlv_body_lt h
  total inp := bind_total (take_total _ _) fun _ _ => bind_total (hf.total _) fun _ _ =>
    bind_total (checkEnd_total _) fun _ _ => by simp

end Verif.Asn1
