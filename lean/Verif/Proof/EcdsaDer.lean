import Verif.Model.Ecdsa
import Verif.Proof.NatOctets
import Verif.Props.Pkcs

/-!
DER lemmas for `high/ecdsa.rs`.
-/
namespace Verif.Ecdsa

open Verif.Asn1 Verif.Spec.Der Verif.Props

/-- Encoding, with its error as `Error::Asn1Error`. -/
theorem lift_encode (k : Kind) (v : k.Val) (h32 : (k.der v).length < 2 ^ 32) (buf : Bytes) :
    Pkcs8.liftAsn1 (k.codec.encodeInto v buf) =
      if (k.der v).length ≤ buf.length then .ok ((k.der v).length, k.der v ++ buf.drop (k.der v).length)
      else .error (.err (.Asn1Error .UnexpectedEof)) := by
  by_cases h : (k.der v).length ≤ buf.length
  · rw [if_pos h, C01_wire_format k v h32 buf h]; rfl
  · have := C03_encode_exact k v _ (C03_encoded_len k v h32) h32 buf
    rw [if_neg h] at this
    rw [if_neg h, this]; rfl

/-- Parsing, with its error as `Error::Asn1Error`. -/
theorem lift_parse (k : Kind) (b : Bytes) :
    (∃ v, k.valid v ∧ b = k.der v ∧ b.length ≤ 65539 ∧ Pkcs8.liftAsn1 (k.codec.fromBytes b) = .ok v) ∨
    ((∀ v, k.valid v → b.length ≤ 65539 → b ≠ k.der v) ∧ ∃ e, Pkcs8.liftAsn1 (k.codec.fromBytes b) = .error (.err (.Asn1Error e))) := by
  cases e : k.codec.fromBytes b with
  | ok v => exact .inl ⟨v, (C02_parse_then_encode k b v e).1, (C02_parse_then_encode k b v e).2.1, C01_size_limit k b v e, rfl⟩
  | error f =>
    cases f with
    | panic => exact absurd e (C04_total k b).2
    | err f =>
      refine .inr ⟨?_, f, rfl⟩
      rintro v hv hl rfl
      obtain ⟨fits, hl', hf⟩ := (good k).lawful
      have := hl'.parse_der v [] hv ((hf v).2 hl) trivial
      rw [List.append_nil] at this
      have h2 : k.codec.fromBytes (k.der v) = .ok v := by
        simp only [Codec.fromBytes, Codec.parse, this, ok_bind]
        rfl
      rw [h2] at e; cases e

theorem lift_der (k : Kind) (v : k.Val) (hv : k.valid v) (hl : (k.der v).length ≤ 65539) :
    Pkcs8.liftAsn1 (k.codec.fromBytes (k.der v)) = .ok v := by
  obtain ⟨fits, hl', hf⟩ := (good k).lawful
  have := hl'.parse_der v [] hv ((hf v).2 hl) trivial
  rw [List.append_nil] at this
  have h2 : k.codec.fromBytes (k.der v) = .ok v := by
    simp only [Codec.fromBytes, Codec.parse, this, ok_bind]
    rfl
  rw [h2]; rfl

theorem newPositive_natOctets (value : Bytes) (bufLen : Nat) (hb : value.length + 1 ≤ bufLen) :
    Pkcs8.liftAsn1 (Integer.newPositive bufLen value) = .ok ⟨natOctets (beNat value)⟩ := by
  obtain ⟨i, h1, h2, h3, -, h5⟩ := C05_new_positive value bufLen hb
  rw [h1]
  have := natOctets_of_minimal h3 h5
  have hb : beNat i.twosComplement = beNat value := by
    have := twosComp_nonneg h5
    omega
  rw [hb] at this
  rw [this]; rfl

theorem beNat_replicate_zero (k : Nat) (b : Bytes) : beNat (List.replicate k 0#8 ++ b) = beNat b := by
  induction k with
  | zero => rfl
  | succ k ih => rw [List.replicate_succ, List.cons_append, beNat_cons, ih]; simp

/-- Contents of a non-negative INTEGER: the fixed-width number when it fits. -/
theorem writeFixed_eq (len v : Nat) :
    writeFixed len (natOctets v) = if v < 256 ^ len then .ok (toBE len v) else .error (.err .BadSignature) := by
  suffices main : ∃ b : Bytes, writeFixed len (natOctets v) =
      (if len < b.length then .error (.err .BadSignature) else .ok (List.replicate (len - b.length) 0#8 ++ b)) ∧
      beNat b = v ∧ (∀ c cs, b = c :: cs → c ≠ 0#8) by
    obtain ⟨b, e, hb, hc⟩ := main
    rw [e]
    by_cases hl : len < b.length
    · rw [if_pos hl, if_neg]
      cases b with
      | nil => simp at hl
      | cons c cs =>
        have hc0 := hc c cs rfl
        have h1 : 1 ≤ c.toNat := by
          rcases Nat.eq_zero_or_pos c.toNat with h | h
          · exact absurd (BitVec.eq_of_toNat_eq (by simpa using h)) hc0
          · exact h
        rw [beNat_cons] at hb
        have h2 : 256 ^ len ≤ 256 ^ cs.length := Nat.pow_le_pow_right (by omega) (by simp at hl; omega)
        have h3 : 1 * 256 ^ cs.length ≤ c.toNat * 256 ^ cs.length := Nat.mul_le_mul_right _ h1
        omega
    · have hlt := beNat_lt b
      have hle : 256 ^ b.length ≤ 256 ^ len := Nat.pow_le_pow_right (by omega) (by omega)
      rw [if_neg hl, if_pos (by omega)]
      congr 1
      apply beNat_inj
      · rw [List.length_append, List.length_replicate, toBE_length]; omega
      · rw [beNat_replicate_zero, beNat_toBE, hb, Nat.mod_eq_of_lt (by omega)]
  have hmin := natOctets_minimal v
  have hv := natOctets_beNat v
  have htc := natOctets_twosComp v
  cases ho : natOctets v with
  | nil => rw [ho] at hmin; exact absurd rfl hmin.1
  | cons b bs =>
    rw [ho] at hmin hv htc
    by_cases hz : b = 0#8
    · refine ⟨bs, ?_, ?_, ?_⟩
      · simp only [writeFixed]
        rw [if_pos hz]
      · rw [beNat_cons, hz] at hv; simpa using hv
      · rintro c cs rfl hc
        have : twosComp (c :: cs) = twosComp (b :: c :: cs) := by
          rw [htc, twosComp, if_neg (by rw [hc]; decide)]
          rw [beNat_cons b, hz] at hv
          simp at hv
          omega
        have := hmin.2 (c :: cs) (by simp) this
        simp at this
    · refine ⟨b :: bs, ?_, hv, ?_⟩
      · simp only [writeFixed]
        rw [if_neg hz]
      · rintro c cs h; cases h; exact hz

theorem bind_ok {α β : Type} (v : α) (f : α → GR β) : (Except.ok v : GR α) >>= f = f v := rfl

/-- The DER of a signature. -/
theorem sigValue_der (r s : Nat) : Kind.der .ecdsaSigValue ⟨⟨natOctets r⟩, ⟨natOctets s⟩⟩ = seq [natInt r, natInt s] := rfl

theorem sigValue_length {r s : Nat} (hr : r < 2 ^ 384) (hs : s < 2 ^ 384) : (seq [natInt r, natInt s]).length ≤ 110 := by
  have h1 := natInt_length_le (v := r) (l := 48) (hr.trans (by decide)) (by decide)
  have h2 := natInt_length_le (v := s) (l := 48) (hs.trans (by decide)) (by decide)
  have e : [natInt r, natInt s].flatten.length ≤ 106 := by simp; omega
  have := tlv_length_le 0x30#8 [natInt r, natInt s].flatten (by omega)
  rw [seq]; omega

theorem fixedToAsn1_eq {N : Nat} (hN : N ≤ 6) (sig buf : Bytes) (hs : sig.length = N * 8 * 2) :
    fixedToAsn1 N sig buf =
      let der := seq [natInt (beNat (sig.take (N * 8))), natInt (beNat (sig.drop (N * 8)))]
      if der.length ≤ buf.length then .ok der else .error (.err (.Asn1Error .UnexpectedEof)) := by
  have l1 : (sig.take (N * 8)).length = N * 8 := by rw [List.length_take]; omega
  have l2 : (sig.drop (N * 8)).length = N * 8 := by rw [List.length_drop]; omega
  have hp : 256 ^ (N * 8) ≤ 2 ^ 384 := by
    rw [pow256']; exact Nat.pow_le_pow_right (by omega) (by omega)
  have b1 := beNat_lt (sig.take (N * 8))
  have b2 := beNat_lt (sig.drop (N * 8))
  rw [l1] at b1
  rw [l2] at b2
  unfold fixedToAsn1
  rw [if_neg (by omega), newPositive_natOctets _ _ (by rw [MAX_SCALAR_LEN]; omega),
    newPositive_natOctets _ _ (by rw [MAX_SCALAR_LEN]; omega)]
  generalize beNat (sig.take (N * 8)) = r at b1
  generalize beNat (sig.drop (N * 8)) = s at b2
  have hl := sigValue_length (Nat.lt_of_lt_of_le b1 hp) (Nat.lt_of_lt_of_le b2 hp)
  rw [bind_ok, bind_ok]
  have e := lift_encode .ecdsaSigValue ⟨⟨natOctets r⟩, ⟨natOctets s⟩⟩ (by rw [sigValue_der]; omega) buf
  rw [sigValue_der] at e
  rw [show Pkcs8.liftAsn1 (ecdsaSigValueCodec.encodeInto ⟨⟨natOctets r⟩, ⟨natOctets s⟩⟩ buf) = _ from e]
  dsimp only
  by_cases h : (seq [natInt r, natInt s]).length ≤ buf.length
  · rw [if_pos h, if_pos h, bind_ok]
    dsimp only
    rw [if_pos (by rw [List.length_append]; omega), List.take_left]
  · rw [if_neg h, if_neg h]; rfl

end Verif.Ecdsa
