import Verif.Proof.PkixDer
import Verif.Proof.Oid

/-!
C01-C06: DER encoding and parsing (`high/asn1.rs`, `high/asn1/pkix.rs`, `high/asn1/oid.rs`).

`Kind` (Spec/PkixDer.lean) lists the seventeen supported types; `k.codec` is the modelled code,
`k.der` the specified encoding.  65539 = 4 + 65535: an object whose contents are shorter than
65536 bytes has at most that total length.
-/
namespace Verif.Props
open Verif Verif.Asn1 Verif.Spec.Der

/-- Encoding into a buffer that is large enough: what is written and returned. -/
theorem encodeInto_ok (k : Kind) (v : k.Val) {n : Nat} (hn : k.codec.encodedLen v = .ok n)
    (h32 : (k.der v).length < 2 ^ 32) (buf : Bytes) (hb : n ≤ buf.length) :
    n = (k.der v).length ∧ k.codec.encodeInto v buf = .ok (n, k.der v ++ buf.drop n) := by
  obtain ⟨fits, hl, _⟩ := (good k).lawful
  have hlen := hl.len v h32
  rw [hn] at hlen
  injection hlen with hlen
  subst hlen
  obtain ⟨m, h1, h2⟩ := hl.enc_ok v (Encoder.new buf) h32 hb
  refine ⟨rfl, ?_⟩
  have := h2 ((good k).nonempty v)
  simp only [Encoder.new] at this
  simp only [Codec.encodeInto, Codec.encode, h1, ok_bind, this]
  simp [Encoder.adv, Encoder.new]

/-- **C01** Encode then parse: any valid value whose contents are shorter than 65536 bytes, encoded
into a large enough buffer, parses back from the bytes written to exactly that value. -/
theorem C01_encode_then_parse (k : Kind) (v : k.Val) (hv : k.valid v) (n : Nat)
    (hn : k.codec.encodedLen v = .ok n) (h : (k.der v).length ≤ 65539)
    (buf : Bytes) (hb : n ≤ buf.length) :
    ∃ out, k.codec.encodeInto v buf = .ok (n, out) ∧ k.codec.fromBytes (out.take n) = .ok v := by
  obtain ⟨h1, h2⟩ := encodeInto_ok k v hn (by omega) buf hb
  refine ⟨_, h2, ?_⟩
  obtain ⟨fits, hl, hf⟩ := (good k).lawful
  have := hl.parse_der v [] hv ((hf v).2 h) trivial
  rw [List.append_nil] at this
  rw [h1, List.take_left]
  simp only [Codec.fromBytes, Codec.parse, this, ok_bind]
  rfl

/-- **C01** The bytes written are the specified DER encoding. -/
theorem C01_wire_format (k : Kind) (v : k.Val) (h : (k.der v).length < 2 ^ 32)
    (buf : Bytes) (hb : (k.der v).length ≤ buf.length) :
    k.codec.encodeInto v buf =
      .ok ((k.der v).length, k.der v ++ buf.drop (k.der v).length) := by
  obtain ⟨fits, hl, _⟩ := (good k).lawful
  exact (encodeInto_ok k v (hl.len v h) h buf hb).2

/-- **C02** Parsing is canonical: an accepted string is the DER encoding of the value, the value is
valid, and encoding it again gives the same string. -/
theorem C02_parse_then_encode (k : Kind) (b : Bytes) (v : k.Val)
    (h : k.codec.fromBytes b = .ok v) :
    k.valid v ∧ b = k.der v ∧
      (b.length < 2 ^ 32 → ∀ buf : Bytes, buf.length = b.length →
        k.codec.encodeInto v buf = .ok (b.length, b)) := by
  obtain ⟨fits, hl, _⟩ := (good k).lawful
  simp only [Codec.fromBytes, bind_eq_ok] at h
  obtain ⟨⟨w, p⟩, h1, ⟨⟩, h2, h3⟩ := h
  injection h3 with h3
  subst h3
  obtain ⟨a1, a2, _, _⟩ := hl.canon _ _ _ h1
  have hp : p = [] := by
    unfold checkEnd at h2
    split at h2
    · simp at h2
    case isFalse h => simpa using h
  subst hp
  rw [List.append_nil] at a1
  simp only at *
  subst a1
  refine ⟨a2, rfl, fun h32 buf hb => ?_⟩
  rw [C01_wire_format k w h32 buf (by omega), ← hb, List.drop_length, List.append_nil]

/-- **C01** The size limit is sharp: nothing with contents of 65536 bytes or more is accepted. -/
theorem C01_size_limit (k : Kind) (b : Bytes) (v : k.Val) (h : k.codec.fromBytes b = .ok v) :
    b.length ≤ 65539 := by
  obtain ⟨fits, hl, hf⟩ := (good k).lawful
  have hb := (C02_parse_then_encode k b v h).2.1
  simp only [Codec.fromBytes, bind_eq_ok] at h
  obtain ⟨⟨w, p⟩, h1, ⟨⟩, h2, h3⟩ := h
  injection h3 with h3
  simp only at h3
  subst h3
  obtain ⟨_, _, a3, _⟩ := hl.canon _ _ _ h1
  rw [hb]; exact (hf w).1 a3

/-- **C02** No two different strings parse to the same value. -/
theorem C02_unique_encoding (k : Kind) (b b' : Bytes) (v : k.Val)
    (h : k.codec.fromBytes b = .ok v) (h' : k.codec.fromBytes b' = .ok v) : b = b' := by
  rw [(C02_parse_then_encode k b v h).2.1, (C02_parse_then_encode k b' v h').2.1]

/-- **C03** Encoding succeeds exactly when the buffer has `encoded_len` bytes; it then returns
`encoded_len`, and leaves every byte past that point, and the buffer's length, unchanged.
Otherwise it returns an error (not a panic). -/
theorem C03_encode_exact (k : Kind) (v : k.Val) (n : Nat) (hn : k.codec.encodedLen v = .ok n)
    (h32 : (k.der v).length < 2 ^ 32) (buf : Bytes) :
    if n ≤ buf.length then
      ∃ out, k.codec.encodeInto v buf = .ok (n, out) ∧ out.length = buf.length ∧
        out.drop n = buf.drop n
    else k.codec.encodeInto v buf = .error (.err .UnexpectedEof) := by
  split
  case isTrue hb =>
    obtain ⟨h1, h2⟩ := encodeInto_ok k v hn h32 buf hb
    refine ⟨_, h2, ?_, ?_⟩
    · rw [List.length_append, List.length_drop]; omega
    · rw [h1, List.drop_left]
  case isFalse hb =>
    obtain ⟨fits, hl, _⟩ := (good k).lawful
    have hlen := hl.len v h32
    rw [hn] at hlen
    injection hlen with hlen
    subst hlen
    have := hl.enc_err v (Encoder.new buf) h32 (by simpa [Encoder.new] using hb)
    simp only [Codec.encodeInto, Codec.encode, this]
    rfl

/-- **C03** `encoded_len` is defined for every value whose encoding is below 4 GiB, and is the
length of the specified encoding. -/
theorem C03_encoded_len (k : Kind) (v : k.Val) (h32 : (k.der v).length < 2 ^ 32) :
    k.codec.encodedLen v = .ok (k.der v).length := by
  obtain ⟨fits, hl, _⟩ := (good k).lawful
  exact hl.len v h32

/-- **C04** Parsing never panics. -/
theorem C04_total (k : Kind) (inp : Bytes) :
    k.codec.parse inp ≠ .error .panic ∧ k.codec.fromBytes inp ≠ .error .panic := by
  obtain ⟨fits, hl, _⟩ := (good k).lawful
  exact ⟨hl.total inp, bind_total (hl.total inp) fun _ _ =>
    bind_total (checkEnd_total _) fun _ _ => by simp⟩

/-- **C04** Parsing reads a prefix, returns the exact suffix, and what it returns does not depend on
that suffix: nothing outside the object is looked at. -/
theorem C04_prefix (k : Kind) (inp : Bytes) (v : k.Val) (rest : Bytes)
    (h : k.codec.parse inp = .ok (v, rest)) :
    ∃ pre, inp = pre ++ rest ∧ pre ≠ [] ∧
      ∀ rest', k.codec.parse (pre ++ rest') = .ok (v, rest') := by
  obtain ⟨fits, hl, _⟩ := (good k).lawful
  obtain ⟨a1, a2, a3, _⟩ := hl.canon _ _ _ h
  exact ⟨k.der v, a1, (good k).nonempty v, fun rest' => hl.parse_der v rest' a2 a3 trivial⟩

/-- **C04** `from_bytes` rejects any trailing data after a complete object. -/
theorem C04_trailing_rejected (k : Kind) (b : Bytes) (v : k.Val) (h : k.codec.fromBytes b = .ok v)
    (extra : Bytes) (he : extra ≠ []) :
    k.codec.fromBytes (b ++ extra) = .error (.err .UnexpectedTrailingData) := by
  obtain ⟨fits, hl, _⟩ := (good k).lawful
  simp only [Codec.fromBytes, bind_eq_ok] at h
  obtain ⟨⟨w, p⟩, h1, ⟨⟩, h2, h3⟩ := h
  have hp : p = [] := by
    unfold checkEnd at h2
    split at h2
    · simp at h2
    case isFalse h => simpa using h
  obtain ⟨pre, hpre, _, hall⟩ := C04_prefix k _ _ _ h1
  rw [hp, List.append_nil] at hpre
  subst hpre
  simp only [Codec.fromBytes, hall extra, ok_bind, checkEnd]
  rw [if_pos (by simpa using he)]
  rfl

/-- **C04** Any truncation of an accepted object is reported as unexpected end of input. -/
theorem C04_truncated_rejected (k : Kind) (b : Bytes) (v : k.Val) (h : k.codec.fromBytes b = .ok v)
    (j : Nat) (hj : j < b.length) :
    k.codec.fromBytes (b.take j) = .error (.err .UnexpectedEof) := by
  have hb := (C02_parse_then_encode k b v h).2.1
  have hlen := C01_size_limit k b v h
  subst hb
  simp only [Codec.fromBytes, (good k).cut v j hlen hj]
  rfl

/-- **C05** `Integer::new_positive`: shortest contents of the same non-negative number, accepted by
the parser's minimality check; no panic when the scratch buffer is one byte longer. -/
theorem C05_new_positive (value : Bytes) (bufLen : Nat) (hb : value.length + 1 ≤ bufLen) :
    ∃ i, Integer.newPositive bufLen value = .ok i ∧
      twosComp i.twosComplement = beNat value ∧ MinimalInt i.twosComplement ∧
      Integer.minimumMagnitudeCheck i.twosComplement = .ok i ∧ i.isNegative = false := by
  have hl := positiveBytes_length value
  have hs := positiveBytes_spec value
  refine ⟨⟨positiveBytes value⟩, ?_, hs.1, hs.2, (minCheck_iff _).2 hs.2, ?_⟩
  · rw [newPositive_eq, if_pos (by omega)]
  · rw [← Bool.not_eq_true, isNegative_iff]
    simp only [hs.1]; omega

/-- **C05** `Integer::new`: shortest contents of the same signed number. -/
theorem C05_new (bytes : Bytes) :
    twosComp (Integer.new bytes).twosComplement = twosComp bytes ∧
      MinimalInt (Integer.new bytes).twosComplement ∧
      Integer.minimumMagnitudeCheck (Integer.new bytes).twosComplement = .ok (Integer.new bytes) :=
  ⟨(new_spec bytes).1, (new_spec bytes).2, (minCheck_iff _).2 (new_spec bytes).2⟩

/-- **C05** The parser's minimality check accepts exactly the shortest contents. -/
theorem C05_minimality_check (bs : Bytes) :
    (∃ i, Integer.minimumMagnitudeCheck bs = .ok i) ↔ MinimalInt bs := by
  rw [← minCheck_iff]
  constructor
  · rintro ⟨i, h⟩
    have := minCheck_eq h
    subst this; exact h
  · exact fun h => ⟨_, h⟩

/-- **C05** Shortest contents are unique, so two INTEGERs made from the same number are the same. -/
theorem C05_unique (a b : Bytes) (ha : MinimalInt a) (hb : MinimalInt b)
    (h : twosComp a = twosComp b) : a = b := minimal_unique ha hb h

/-- **C05** `is_negative` is the sign, and `as_usize` is the value when it fits. -/
theorem C05_sign_and_usize (i : Integer) :
    (i.isNegative = true ↔ twosComp i.twosComplement < 0) ∧
      ∀ n, i.asUsize = .ok n ↔ twosComp i.twosComplement = n ∧ i.twosComplement.length ≤ 8 :=
  ⟨isNegative_iff i, fun _ => asUsize_ok⟩

/-- **C06** OID contents are X.690's, for every path whose first two arcs fit one byte
(`40a + b < 128`, as for every OID in the crate). -/
theorem C06_oid_encoding_partial (a b : Nat) (rest : List Nat) (h : 40 * a + b < 128)
    (hl : (oidBytes a b rest).length ≤ 16) :
    ∃ o, ObjectId.fromPath (a :: b :: rest) = .ok o ∧ o.bytes = oidBytes a b rest := by
  refine ⟨⟨_, hl⟩, ?_, rfl⟩
  rw [ObjectId.fromPath, oidPathBytes_eq h, ok_bind]
  simp [hl]

/-- **C06** Decoding gives the path back. -/
theorem C06_oid_decodes (a b : Nat) (rest : List Nat) (h : 40 * a + b < 128) (ha : a ≤ 2)
    (hb : a < 2 → b < 40) (o : ObjectId) (ho : ObjectId.fromPath (a :: b :: rest) = .ok o) :
    decodeOid o.bytes = a :: b :: rest := by
  rw [ObjectId.fromPath, oidPathBytes_eq h, ok_bind] at ho
  split at ho
  · injection ho with ho
    subst ho
    exact decodeOid_oidBytes ha hb
  · simp at ho

/-- **C06** Different paths have different encodings. -/
theorem C06_oid_injective (a b a' b' : Nat) (rest rest' : List Nat)
    (h : 40 * a + b < 128) (ha : a ≤ 2) (hb : a < 2 → b < 40)
    (h' : 40 * a' + b' < 128) (ha' : a' ≤ 2) (hb' : a' < 2 → b' < 40) (o : ObjectId)
    (ho : ObjectId.fromPath (a :: b :: rest) = .ok o)
    (ho' : ObjectId.fromPath (a' :: b' :: rest') = .ok o) :
    a :: b :: rest = a' :: b' :: rest' := by
  rw [← C06_oid_decodes a b rest h ha hb o ho, C06_oid_decodes a' b' rest' h' ha' hb' o ho']

/-- **C06** (negative) A first subidentifier of 128 or more is encoded in one byte with the
continuation bit set, which is not the X.690 encoding: arcs 2.100.3. -/
theorem C06_large_first_arc_wrong :
    ∃ o, ObjectId.fromPath [2, 100, 3] = .ok o ∧ o.bytes ≠ oidBytes 2 100 [3] := by
  refine ⟨⟨[0xb4#8, 3#8], by decide⟩, by rfl, ?_⟩
  have : oidBytes 2 100 [3] = [0x81#8, 0x34#8, 3#8] := by
    simp [oidBytes, subidentifier, digits128]
  rw [this]; decide

/-- **C06** The OIDs the crate compares against and writes are the registered ones. -/
theorem C06_registered :
    id_ecPublicKey.bytes = oidBytes 1 2 [840, 10045, 2, 1] ∧
    id_prime256v1.bytes = oidBytes 1 2 [840, 10045, 3, 1, 7] ∧
    id_secp384r1.bytes = oidBytes 1 3 [132, 0, 34] ∧
    id_rsaEncryption.bytes = oidBytes 1 2 [840, 113549, 1, 1, 1] ∧
    id_sha256.bytes = oidBytes 2 16 [840, 1, 101, 3, 4, 2, 1] ∧
    id_sha384.bytes = oidBytes 2 16 [840, 1, 101, 3, 4, 2, 2] ∧
    id_sha512.bytes = oidBytes 2 16 [840, 1, 101, 3, 4, 2, 3] ∧
    id_ed25519.bytes = oidBytes 1 3 [101, 112] := by
  have key : ∀ (path : List Nat) (h) (a b : Nat) (rest : List Nat), path = a :: b :: rest →
      40 * a + b < 128 → (oidOf path h).bytes = oidBytes a b rest := by
    intro path h a b rest hp h128
    subst hp
    unfold oidOf
    have e : ∃ o, ObjectId.fromPath (a :: b :: rest) = .ok o := by
      cases hh : ObjectId.fromPath (a :: b :: rest) with
      | ok o => exact ⟨o, rfl⟩
      | error e => rw [hh] at h; simp [Except.toOption] at h
    obtain ⟨o, ho⟩ := e
    have ho2 := ho
    simp only [ho, Except.toOption, Option.get_some]
    rw [ObjectId.fromPath, oidPathBytes_eq h128, ok_bind] at ho2
    split at ho2
    · injection ho2 with ho2; subst ho2; rfl
    · simp at ho2
  refine ⟨key _ _ _ _ _ rfl (by decide), key _ _ _ _ _ rfl (by decide),
    key _ _ _ _ _ rfl (by decide), key _ _ _ _ _ rfl (by decide), key _ _ _ _ _ rfl (by decide),
    key _ _ _ _ _ rfl (by decide), key _ _ _ _ _ rfl (by decide), key _ _ _ _ _ rfl (by decide)⟩

/-! ### Concrete cases meeting the hypotheses -/

/-- A SEC1 key with both optional fields. -/
def exampleEcKey : EcPrivateKey :=
  { version := .ecPrivkeyVer1, privateKey := ⟨[1#8, 2#8, 3#8]⟩, parameters := some id_prime256v1,
    publicKey := some ⟨[4#8, 9#8]⟩ }

def exampleEcKeyDer : Bytes :=
  [0x30#8, 0x1b#8, 0x02#8, 0x01#8, 0x01#8, 0x04#8, 0x03#8, 0x01#8, 0x02#8, 0x03#8, 0xa0#8, 0x0a#8,
    0x06#8, 0x08#8, 0x2a#8, 0x86#8, 0x48#8, 0xce#8, 0x3d#8, 0x03#8, 0x01#8, 0x07#8, 0xa1#8, 0x05#8,
    0x03#8, 0x03#8, 0x00#8, 0x04#8, 0x09#8]

-- C01, C03: the encoder and its hypotheses on this key, with a longer buffer.
example : Kind.ecPrivateKey.codec.encodedLen exampleEcKey = .ok 29 ∧
    Kind.ecPrivateKey.codec.encodeInto exampleEcKey (List.replicate 31 0xee#8) =
      .ok (29, exampleEcKeyDer ++ [0xee#8, 0xee#8]) ∧
    Kind.ecPrivateKey.valid exampleEcKey := by
  refine ⟨by rfl, by rfl, trivial⟩
-- C02, C04: it parses.
example : Kind.ecPrivateKey.codec.fromBytes exampleEcKeyDer = .ok exampleEcKey := by rfl
-- C01 with INTEGERs: 128 and -128.
example : Kind.ecdsaSigValue.valid ⟨⟨[0#8, 0x80#8]⟩, ⟨[0x80#8]⟩⟩ ∧
    Kind.ecdsaSigValue.codec.encodeInto ⟨⟨[0#8, 0x80#8]⟩, ⟨[0x80#8]⟩⟩ (List.replicate 9 0#8) =
      .ok (9, [0x30#8, 7#8, 2#8, 2#8, 0#8, 0x80#8, 2#8, 1#8, 0x80#8]) :=
  ⟨⟨(minCheck_iff _).1 (by rfl), (minCheck_iff _).1 (by rfl)⟩, by rfl⟩
-- C05
example : Integer.newPositive 4 [0#8, 0x80#8, 1#8] = .ok ⟨[0#8, 0x80#8, 1#8]⟩ ∧
    Integer.new [0xff#8, 0xff#8, 0x80#8] = ⟨[0x80#8]⟩ ∧
    Integer.asUsize ⟨[1#8, 0#8]⟩ = .ok 256 := ⟨by rfl, by rfl, by rfl⟩
-- C06
example : 40 * 1 + 2 < 128 ∧ (∃ o, ObjectId.fromPath [1, 2, 840, 113549] = .ok o) :=
  ⟨by decide, ⟨[0x2a#8, 0x86#8, 0x48#8, 0x86#8, 0xf7#8, 0x0d#8], by decide⟩, by rfl⟩

end Verif.Props
