import Verif.Props.Asn1
import Verif.Props.Sha2
import Verif.Proof.Pkcs1
import Verif.Model.Pkcs8

/-!
C08-C10: PKCS#8 containers and the RSA signature paddings.
-/
namespace Verif.Props
open Verif Verif.Asn1 Verif.Spec.Der

/-! ### C08 -/

/-- The DER of a PKCS#8 key (RFC 5958). -/
def pkcs8Der (priv : Bytes) (pub : Option Bytes) (alg : ObjectId) (params : Option Any) : Bytes :=
  seq [smallInt (if pub.isSome then 1 else 0), seq [oid alg, optional any params], tlv 0x04#8 priv,
    optional (fun p => tlv 0x81#8 (0#8 :: p)) pub]

theorem construct_der (priv : Bytes) (pub : Option Bytes) (alg : ObjectId) (params : Option Any) :
    Kind.der .oneAsymmetricKey (Pkcs8.construct priv pub alg params) = pkcs8Der priv pub alg params := by
  cases pub <;> rfl

theorem encode_of {k : OneAsymmetricKey} {buf out : Bytes} {len : Nat}
    (h : oneAsymmetricKeyCodec.encodeInto k buf = .ok (len, out)) :
    Pkcs8.encode k buf = if len ≤ out.length then .ok (out.take len) else .error (.err .WrongLength) := by
  rw [Pkcs8.encode, h]; rfl

theorem decode_of {k : OneAsymmetricKey} {slice rest : Bytes} (alg : ObjectId) (params : Option Any)
    (h : oneAsymmetricKeyCodec.parse slice = .ok (k, rest)) :
    Pkcs8.decode slice alg params = if Pkcs8.versionOk k = false then .error (.err (.KeyFormatError .UnsupportedPkcs8Version))
      else if k.privateKeyAlgorithm.algorithm ≠ alg then .error (.err (.KeyFormatError .MismatchedPkcs8Algorithm))
      else if k.privateKeyAlgorithm.parameters ≠ params then .error (.err (.KeyFormatError .MismatchedPkcs8Parameters))
      else .ok k := by
  rw [Pkcs8.decode, h]; rfl

theorem decode_err {slice : Bytes} {e : Fault} (alg : ObjectId) (params : Option Any)
    (h : oneAsymmetricKeyCodec.parse slice = .error e) :
    ∃ g, Pkcs8.decode slice alg params = .error g ∧ (g = .panic → e = .panic) := by
  cases e with
  | err e => exact ⟨.err (.Asn1Error e), by rw [Pkcs8.decode, h]; rfl, by simp⟩
  | panic => exact ⟨.panic, by rw [Pkcs8.decode, h]; rfl, by simp⟩

/-- **C08** Encoding writes the RFC 5958 structure, and decoding it returns the private and public key bytes. -/
theorem C08_round_trip (priv : Bytes) (pub : Option Bytes) (alg : ObjectId) (params : Option Any)
    (hp : ∀ p, params = some p → anyValid p) (hs : (pkcs8Der priv pub alg params).length ≤ 65539)
    (buf : Bytes) (hb : (pkcs8Der priv pub alg params).length ≤ buf.length) :
    Pkcs8.encode (Pkcs8.construct priv pub alg params) buf = .ok (pkcs8Der priv pub alg params) ∧
    ∃ k, Pkcs8.decode (pkcs8Der priv pub alg params) alg params = .ok k ∧
      Pkcs8.privateKey k = priv ∧ Pkcs8.publicKey k = pub := by
  have hd := construct_der priv pub alg params
  have hw := C01_wire_format .oneAsymmetricKey (Pkcs8.construct priv pub alg params) (by rw [hd]; omega) buf (by rw [hd]; exact hb)
  rw [hd] at hw
  have hw' : oneAsymmetricKeyCodec.encodeInto (Pkcs8.construct priv pub alg params) buf =
    .ok ((pkcs8Der priv pub alg params).length, pkcs8Der priv pub alg params ++ buf.drop (pkcs8Der priv pub alg params).length) := hw
  refine ⟨?_, Pkcs8.construct priv pub alg params, ?_, rfl, ?_⟩
  · rw [encode_of hw', if_pos (by rw [List.length_append]; omega), List.take_left]
  · obtain ⟨fits, hl, hf⟩ := (good .oneAsymmetricKey).lawful
    have hv : Kind.valid .oneAsymmetricKey (Pkcs8.construct priv pub alg params) := hp
    have := hl.parse_der (Pkcs8.construct priv pub alg params) [] hv ((hf _).2 (by rw [hd]; exact hs)) trivial
    rw [List.append_nil, hd] at this
    have this' : oneAsymmetricKeyCodec.parse (pkcs8Der priv pub alg params) = .ok (Pkcs8.construct priv pub alg params, []) := this
    rw [decode_of _ _ this', if_neg (by cases pub <;> simp [Pkcs8.versionOk, Pkcs8.construct]), if_neg (by simp [Pkcs8.construct]),
      if_neg (by simp [Pkcs8.construct])]
  · cases pub <;> rfl

theorem construct_of (k : OneAsymmetricKey) (h : Pkcs8.versionOk k = true) :
    k = Pkcs8.construct k.privateKey.octets (k.publicKey.map (·.octets)) k.privateKeyAlgorithm.algorithm
      k.privateKeyAlgorithm.parameters := by
  obtain ⟨ver, ⟨al, pa⟩, pr, pu⟩ := k
  cases ver <;> cases pu <;> first | rfl | simp [Pkcs8.versionOk] at h

/-- **C08** What decoding accepts, exactly: a string that starts with the encoding of a key with this algorithm and these
parameters, in version 0 without and in version 1 with a public key.  It returns that key. -/
theorem C08_decode (slice : Bytes) (alg : ObjectId) (params : Option Any) (k : OneAsymmetricKey) :
    Pkcs8.decode slice alg params = .ok k ↔
      ∃ rest priv pub, slice = pkcs8Der priv pub alg params ++ rest ∧ (pkcs8Der priv pub alg params).length ≤ 65539 ∧
        (∀ p, params = some p → anyValid p) ∧ k = Pkcs8.construct priv pub alg params := by
  obtain ⟨fits, hl, hf⟩ := (good .oneAsymmetricKey).lawful
  constructor
  · intro h
    rcases hp : oneAsymmetricKeyCodec.parse slice with f | ⟨oak, rest⟩
    · obtain ⟨g, hg, _⟩ := decode_err alg params hp
      rw [hg] at h
      cases h
    have h' := h
    rw [decode_of _ _ hp] at h'
    by_cases c1 : Pkcs8.versionOk oak = false
    · rw [if_pos c1] at h'; cases h'
    rw [if_neg c1] at h'
    by_cases c2 : oak.privateKeyAlgorithm.algorithm ≠ alg
    · rw [if_pos c2] at h'; cases h'
    rw [if_neg c2] at h'
    by_cases c3 : oak.privateKeyAlgorithm.parameters ≠ params
    · rw [if_pos c3] at h'; cases h'
    rw [if_neg c3] at h'
    cases h'
    obtain ⟨a1, a2, a3, _⟩ := hl.canon _ _ _ hp
    simp only [ne_eq, Decidable.not_not] at c2 c3
    have hc := construct_of k (by simpa using c1)
    rw [c2, c3] at hc
    have a2' : ∀ p, params = some p → anyValid p := by rw [← c3]; exact a2
    have a3' := (hf _).1 a3
    have hd := construct_der k.privateKey.octets (k.publicKey.map (·.octets)) alg params
    rw [← hc] at hd
    refine ⟨rest, k.privateKey.octets, k.publicKey.map (·.octets), ?_, ?_, a2', hc⟩
    · rw [← hd]; exact a1
    · rw [← hd]; exact a3'
  · intro ⟨rest, priv, pub, h1, h2, h3, h4⟩
    have hd := construct_der priv pub alg params
    have hv : Kind.valid .oneAsymmetricKey (Pkcs8.construct priv pub alg params) := h3
    have := hl.parse_der (Pkcs8.construct priv pub alg params) rest hv ((hf _).2 (by rw [hd]; exact h2)) trivial
    rw [hd, ← h1] at this
    have this' : oneAsymmetricKeyCodec.parse slice = .ok (Pkcs8.construct priv pub alg params, rest) := this
    rw [decode_of _ _ this', h4, if_neg (by cases pub <;> simp [Pkcs8.versionOk, Pkcs8.construct]), if_neg (by simp [Pkcs8.construct]),
      if_neg (by simp [Pkcs8.construct])]

/-- **C08** Another algorithm, other parameters, or a version that does not go with the presence of a public key: an error. -/
theorem C08_rejects (k : OneAsymmetricKey) (hv : Kind.valid .oneAsymmetricKey k)
    (hs : (Kind.der .oneAsymmetricKey k).length ≤ 65539) (rest : Bytes) (alg : ObjectId) (params : Option Any) :
    Pkcs8.decode (Kind.der .oneAsymmetricKey k ++ rest) alg params =
      if (k.version = .Pkcs8v1) ≠ (k.publicKey = none) then .error (.err (.KeyFormatError .UnsupportedPkcs8Version))
      else if k.privateKeyAlgorithm.algorithm ≠ alg then .error (.err (.KeyFormatError .MismatchedPkcs8Algorithm))
      else if k.privateKeyAlgorithm.parameters ≠ params then .error (.err (.KeyFormatError .MismatchedPkcs8Parameters))
      else .ok k := by
  obtain ⟨fits, hl, hf⟩ := (good .oneAsymmetricKey).lawful
  have := hl.parse_der k rest hv ((hf _).2 hs) trivial
  have this' : oneAsymmetricKeyCodec.parse (Kind.der .oneAsymmetricKey k ++ rest) = .ok (k, rest) := this
  rw [decode_of _ _ this']
  have e : (Pkcs8.versionOk k = false) = ((k.version = .Pkcs8v1) ≠ (k.publicKey = none)) := by
    obtain ⟨ver, alg, pr, pu⟩ := k
    cases ver <;> cases pu <;> simp [Pkcs8.versionOk]
  simp only [e]

/-- **C08** The documentation says the slice is decoded "as a whole".  It is not: whatever follows the key is ignored. -/
theorem C08_trailing_ignored (slice extra : Bytes) (alg : ObjectId) (params : Option Any) (k : OneAsymmetricKey)
    (h : Pkcs8.decode slice alg params = .ok k) : Pkcs8.decode (slice ++ extra) alg params = .ok k := by
  rw [C08_decode] at h ⊢
  obtain ⟨rest, priv, pub, h1, h2, h3, h4⟩ := h
  exact ⟨rest ++ extra, priv, pub, by rw [h1, List.append_assoc], h2, h3, h4⟩

/-- **C08** Never a panic. -/
theorem C08_total (slice : Bytes) (alg : ObjectId) (params : Option Any) : Pkcs8.decode slice alg params ≠ .error .panic := by
  have ht : oneAsymmetricKeyCodec.parse slice ≠ .error .panic := (C04_total .oneAsymmetricKey slice).1
  rcases hp : oneAsymmetricKeyCodec.parse slice with f | ⟨oak, rest⟩
  · obtain ⟨g, hg, h2⟩ := decode_err alg params hp
    rw [hg]
    intro h
    cases h
    rw [h2 rfl] at hp
    exact ht hp
  · rw [decode_of _ _ hp]
    split
    · simp
    split
    · simp
    split <;> simp

/-- A key pair, its encoding, and one accepted with a trailing byte. -/
example : ∃ out, Pkcs8.encode (Pkcs8.construct [1#8, 2#8] (some [3#8]) id_ed25519 none) (List.replicate 30 0#8) = .ok out ∧
    (Pkcs8.decode (out ++ [0xff#8]) id_ed25519 none).toOption.map Pkcs8.publicKey = some (some [3#8]) ∧
    (Pkcs8.decode out id_rsaEncryption none).toOption = none ∧ (Pkcs8.decode out id_ed25519 (some (.Null .null))).toOption = none :=
  ⟨_, rfl, by decide, by decide, by decide⟩

/-! ### C09 -/

/-- The hash functions of the RSA signatures: with their digest length, `DigestInfo` constant, and OID below 2.16. -/
inductive IsDigestInfo : (len : Nat) → Bytes → List Nat → Prop
  | sha256 : IsDigestInfo 32 Pkcs1.DIGESTINFO_SHA256 [840, 1, 101, 3, 4, 2, 1]
  | sha384 : IsDigestInfo 48 Pkcs1.DIGESTINFO_SHA384 [840, 1, 101, 3, 4, 2, 2]
  | sha512 : IsDigestInfo 64 Pkcs1.DIGESTINFO_SHA512 [840, 1, 101, 3, 4, 2, 3]

/-- **C09** The embedded constants followed by a hash are the DER encodings of `DigestInfo`. -/
theorem C09_digest_info {len : Nat} {c : Bytes} {arcs : List Nat} (h : IsDigestInfo len c arcs) (hash : Bytes)
    (hl : hash.length = len) : c ++ hash = Spec.Pkcs1.digestInfo arcs hash := by
  have key : ∀ (n : Nat) (a pre : Bytes), hash.length = n → seq [a, tlv 0x04#8 hash] =
      0x30#8 :: (lenOctets (a.length + (1 + ((lenOctets n).length + n))) ++ (a ++ (0x04#8 :: (lenOctets n)))) ++ hash := by
    intro n a _ hn
    simp only [seq, tlv, hn, List.flatten_cons, List.flatten_nil, List.append_nil, List.length_append, List.length_cons,
      List.append_assoc, List.cons_append, Nat.add_comm 1]
  cases h <;> rw [Spec.Pkcs1.digestInfo, key _ _ [] hl] <;> congr 1 <;>
    simp [Pkcs1.DIGESTINFO_SHA256, Pkcs1.DIGESTINFO_SHA384, Pkcs1.DIGESTINFO_SHA512, oidBytes, subidentifier, digits128, seq, tlv,
      lenOctets]

/-- **C09** The encoded message is the one of RFC 8017, 9.2, and the encoder panics exactly when the standard says
"intended encoded message length too short". -/
theorem C09_encode {len : Nat} {c : Bytes} {arcs : List Nat} (h : IsDigestInfo len c arcs) (emLen : Nat) (hash : Bytes)
    (hl : hash.length = len) :
    Pkcs1.encodePkcs1Sig emLen c hash = Spec.Pkcs1.emsaPkcs1 emLen (Spec.Pkcs1.digestInfo arcs hash) := by
  rw [← C09_digest_info h hash hl, Pkcs1.encodePkcs1Sig, Spec.Pkcs1.emsaPkcs1, List.length_append]
  simp only [List.append_assoc]
  rfl

/-- **C09** It fills the modulus length, is a number below `256^(emLen - 1)`, and has at least eight `ff` octets. -/
theorem C09_shape (emLen : Nat) (c hash em : Bytes) (h : Pkcs1.encodePkcs1Sig emLen c hash = some em) :
    em.length = emLen ∧ ∃ k, 8 ≤ k ∧ em = [0x00#8, 0x01#8] ++ List.replicate k 0xff#8 ++ [0x00#8] ++ c ++ hash := by
  rw [Pkcs1.encodePkcs1Sig] at h
  simp only at h
  split at h
  · cases h
  · rename_i hn
    cases h
    refine ⟨by simp; omega, _, ?_, rfl⟩
    omega

/-- **C09** Different hashes of one length give different messages. -/
theorem C09_injective (emLen : Nat) (c h1 h2 em : Bytes) (hl : h1.length = h2.length)
    (e1 : Pkcs1.encodePkcs1Sig emLen c h1 = some em) (e2 : Pkcs1.encodePkcs1Sig emLen c h2 = some em) : h1 = h2 := by
  obtain ⟨_, k1, _, g1⟩ := C09_shape _ _ _ _ e1
  obtain ⟨_, k2, _, g2⟩ := C09_shape _ _ _ _ e2
  rw [g1] at g2
  exact (List.append_inj' g2 hl).2

example : (Pkcs1.encodePkcs1Sig 62 Pkcs1.DIGESTINFO_SHA256 (List.replicate 32 7#8)).isSome ∧
    Pkcs1.encodePkcs1Sig 61 Pkcs1.DIGESTINFO_SHA256 (List.replicate 32 7#8) = none := by decide

/-! ### C10 -/

theorem pss_limits {F H b o l} (hF : IsHash F H b o l) : 8 + 2 * o < l ∧ o + 4 < l := by
  cases hF <;> decide

/-- **C10** Encoding gives the RFC 8017 encoding for the salt the random source returned (`emBits` is one less than the bits
of a modulus of `emLen` bytes), fails only as the source does, and panics only when the block is too short. -/
theorem C10_encode {F H b o l} (hF : IsHash F H b o l) (emLen : Nat) (rng : RandomSource) (hr : rng.Fills) (i : Nat)
    (mHash : Bytes) (hm : mHash.length = o) (h32 : emLen < 2 ^ 32) :
    Pkcs1.encodePssSig F emLen rng i mHash =
      if emLen < 2 * o + 2 then .error .panic
      else match rng i o with
        | .error e => .error (.err e)
        | .ok salt => .ok (Spec.Pkcs1.emsaPss H o (8 * emLen - 1) mHash salt) := by
  obtain ⟨⟨C⟩, rfl, rfl, ho⟩ := isHash_correct hF
  obtain ⟨l1, l2⟩ := pss_limits hF
  rw [Pkcs1.encodePssSig, hm, show F.outLen + F.outLen = 2 * F.outLen by omega]
  split
  · rfl
  rw [if_neg (by simp)]
  rcases hs : rng i F.outLen with e | salt
  · rfl
  · simp only []
    rw [Pkcs1.pssBlock_ok C emLen mHash salt hm (hr _ _ _ hs) (by omega) h32 l1 l2]

/-- **C10** Verification accepts a block exactly when it is the encoding of the message hash under some salt of hash
length; otherwise it reports a bad signature, and it never panics. -/
theorem C10_verify {F H b o l} (hF : IsHash F H b o l) (em mHash : Bytes) (hm : mHash.length = o) (h32 : em.length < 2 ^ 32) :
    (Pkcs1.verifyPssSig F em mHash = .ok () ↔ 2 * o + 2 ≤ em.length ∧
      ∃ salt, salt.length = o ∧ em = Spec.Pkcs1.emsaPss H o (8 * em.length - 1) mHash salt) ∧
    (Pkcs1.verifyPssSig F em mHash = .ok () ∨ Pkcs1.verifyPssSig F em mHash = .error (.err .BadSignature)) := by
  obtain ⟨⟨C⟩, rfl, rfl, ho⟩ := isHash_correct hF
  obtain ⟨l1, l2⟩ := pss_limits hF
  refine ⟨?_, Pkcs1.verify_ok C em mHash hm h32 l1 l2⟩
  rw [Pkcs1.verify_iff C em mHash hm h32 l1 l2, show F.outLen + F.outLen = 2 * F.outLen by omega]

theorem emsaPss_length {F H b o l} (hF : IsHash F H b o l) (emLen : Nat) (mHash salt : Bytes) (hs : salt.length = o)
    (he : 2 * o + 2 ≤ emLen) : (Spec.Pkcs1.emsaPss H o (8 * emLen - 1) mHash salt).length = emLen := by
  obtain ⟨⟨C⟩, rfl, rfl, ho⟩ := isHash_correct hF
  rw [Spec.Pkcs1.emsaPss]
  simp only [List.length_append, Pkcs1.clearBits_length, List.length_zipWith, Pkcs1.mgf1_length C, C.outLen, List.length_replicate,
    List.length_cons, List.length_nil, hs]
  omega

/-- **C10** What was encoded verifies, for the same message hash. -/
theorem C10_round_trip {F H b o l} (hF : IsHash F H b o l) (emLen : Nat) (rng : RandomSource) (hr : rng.Fills) (i : Nat)
    (mHash em : Bytes) (hm : mHash.length = o) (h32 : emLen < 2 ^ 32)
    (he : Pkcs1.encodePssSig F emLen rng i mHash = .ok em) :
    em.length = emLen ∧ Pkcs1.verifyPssSig F em mHash = .ok () := by
  rw [C10_encode hF emLen rng hr i mHash hm h32] at he
  split at he
  · cases he
  rename_i h2
  rcases hs : rng i o with e | salt
  · rw [hs] at he; cases he
  rw [hs] at he
  cases he
  have hl := emsaPss_length hF emLen mHash salt (hr _ _ _ hs) (by omega)
  refine ⟨hl, ((C10_verify hF _ mHash hm (by rw [hl]; exact h32)).1).2 ⟨by rw [hl]; omega, salt, hr _ _ _ hs, by rw [hl]⟩⟩

/-- A source, and a block that can be encoded. -/
example : ∃ em, Pkcs1.encodePssSig Hmac.sha256 256 (fun _ n => .ok (List.replicate n 9#8)) 0 (List.replicate 32 1#8) = .ok em := by
  rw [C10_encode .sha256 256 _ (fun i n b h => by cases h; exact List.length_replicate ..) 0 _ (List.length_replicate ..) (by decide)]
  exact ⟨_, rfl⟩

end Verif.Props
