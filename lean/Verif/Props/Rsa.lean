import Verif.Proof.RsaDer

/-!
C11 to C15: RSA keys and signatures.  The numbers in a key are those of its fields (`Holds`).
-/
namespace Verif.Props
open Verif Verif.Rsa Verif.PosInt Verif.Bignum Verif.Asn1 Verif.Spec.Der

variable {A : Asm}

/-! ### C13 -/

/-- **C13** The public operation is RSAVP1: `c^e mod n` for `c < n`, and `OutOfRange` otherwise; for every key the constructor accepts. -/
theorem C13_public_op (hA : A.Ok) (n : PosInt 128) (hn : n.Inv) (e : BitVec 32) (k : PublicKey) (hk : PublicKey.new A n e = .ok k)
    (c : PosInt 128) (hc : c.Inv) :
    match Spec.Rsa.publicOp n.value e.toNat c.value with
    | some m => ∃ r, publicOp A k c = .ok r ∧ r.Inv ∧ r.value = m
    | none => publicOp A k c = .error .OutOfRange := by
  obtain ⟨h1, h2, h3⟩ := publicKey_ok hA hn hk
  rw [Spec.Rsa.publicOp]
  by_cases h : c.value < n.value
  · rw [if_pos h]
    obtain ⟨r, r1, r2, _, r3⟩ := publicOp_ok hA h1 hc (by rw [h2]; exact h)
    exact ⟨r, r1, r2, by rw [r3, h2, h3]⟩
  · rw [if_neg h]
    exact publicOp_err (by rw [h2]; omega)

/-- **C13** Which keys the constructor accepts. -/
theorem C13_accepts (A : Asm) (n : PosInt 128) (hn : n.Inv) (e : BitVec 32) :
    (∃ k, PublicKey.new A n e = .ok k) ↔ n.value % 2 = 1 ∧ 2 ^ 2040 ≤ n.value ∧ n.value < 2 ^ 8192 ∧ e.toNat ≠ 0 := by
  have he : BitVec.ofNat 32 e.toNat = e := BitVec.ofNat_toNat 32 e ▸ by simp
  have hl := limits_iff (n := n) (e := e.toNat) e.isLt
  rw [he] at hl
  rw [publicKey_new A n hn]
  by_cases h : n.value % 2 = 1 ∧ 256 ≤ n.lenBytes ∧ n.lenBytes ≤ 1024 ∧ e ≠ 0#32
  · rw [if_pos h]
    have := hl.1 h
    exact ⟨fun _ => ⟨this.odd, this.min, this.max, this.e_pos⟩, fun _ => ⟨_, rfl⟩⟩
  · rw [if_neg h]
    refine ⟨fun hk => (by obtain ⟨k, hk⟩ := hk; cases hk), fun hc => absurd (hl.2 ⟨hc.1, hc.2.1, hc.2.2.1, hc.2.2.2, e.isLt⟩) h⟩

/-! ### C15 -/

theorem encodeInto_cases (k : Kind) (v : k.Val) (h : (k.der v).length < 2 ^ 32) (buf : Bytes) :
    k.codec.encodeInto v buf = if (k.der v).length ≤ buf.length then
      .ok ((k.der v).length, k.der v ++ buf.drop (k.der v).length) else .error (.err .UnexpectedEof) := by
  split
  · rename_i hb; exact C01_wire_format k v h buf hb
  · rename_i hb
    have := C03_encode_exact k v _ (C03_encoded_len k v h) h buf
    rwa [if_neg hb] at this

/-- Parsing the encoding of a valid value. -/
theorem fromBytes_der (k : Kind) (v : k.Val) (hv : k.valid v) (h : (k.der v).length ≤ 65539) : k.codec.fromBytes (k.der v) = .ok v := by
  have h32 : (k.der v).length < 2 ^ 32 := by omega
  obtain ⟨out, h1, h2⟩ := C01_encode_then_parse k v hv _ (C03_encoded_len k v h32) h (List.replicate (k.der v).length 0#8) (by simp)
  rw [C01_wire_format k v h32 _ (by simp)] at h1
  injection h1 with h1
  injection h1 with _ h1
  rw [← h1, List.take_left] at h2
  exact h2

/-- The INTEGER that export writes for the public exponent. -/
def exportedExponent (e : Nat) : Integer := Integer.new (toBE 4 e)

theorem exportedExponent_small {e : Nat} (h : e < 2 ^ 31) : exportedExponent e = ⟨natOctets e⟩ :=
  integer_new_eq (twosComp_toBE (k := 3) h)

theorem exportedExponent_length (e : Nat) : (exportedExponent e).twosComplement.length ≤ 4 := by
  have := (C05_new (toBE 4 e)).2.1.2 (toBE 4 e) (by intro h; have := congrArg List.length h; simp at this) (C05_new (toBE 4 e)).1.symm
  simpa [exportedExponent] using this

theorem exportedPublic_length {k : PublicKey} (hk : k.Ok) {n e : Nat} (hh : k.Holds n e) (v : RSAPublicKey)
    (hv0 : v = ⟨⟨natOctets n⟩, exportedExponent e⟩) : (Kind.der .rsaPublicKey v).length ≤ 1042 := by
  have h1 := natInt_le (l := 1024) (show n < 2 ^ (64 * 128) by rw [← hh.n]; exact value_lt_N hk.ctx.inv) (by omega) (by omega)
  have h2 := tlv_length_le 0x02#8 (exportedExponent e).twosComplement (by have := exportedExponent_length e; omega)
  have := exportedExponent_length e
  rw [hv0]
  show (seq [natInt n, tlv 0x02#8 (exportedExponent e).twosComplement]).length ≤ _
  generalize natInt n = a at *
  generalize tlv 0x02#8 (exportedExponent e).twosComplement = b at *
  have hf : [a, b].flatten.length = a.length + b.length := by simp
  have := seq_length_le [a, b] (by omega)
  omega

theorem verifyingToPkcs1_eq {k : PublicKey} (hk : k.Ok) {n e : Nat} (hh : k.Holds n e) (buf : Bytes) (v : RSAPublicKey)
    (hv0 : v = ⟨⟨natOctets n⟩, exportedExponent e⟩) :
    verifyingToPkcs1 k buf =
      if (Kind.der .rsaPublicKey v).length ≤ buf.length then .ok (Kind.der .rsaPublicKey v)
      else .error (.err (.Asn1Error .UnexpectedEof)) := by
  obtain ⟨bs, b1, b2⟩ := asn1_component hk.ctx.inv (L := MAX_PUBLIC_MODULUS_BYTES + 1) (by decide)
  rw [hh.n] at b2
  have hlen := exportedPublic_length hk hh v hv0
  have henc := encodeInto_cases .rsaPublicKey v (by omega) buf
  have hv : (⟨Integer.new bs, Integer.new (toBE 4 k.e.toNat)⟩ : RSAPublicKey) = v := by rw [b2, hh.e, hv0]; rfl
  rw [verifyingToPkcs1, b1, lift_bind]
  simp only [hv]
  rw [show rsaPublicKeyCodec.encodeInto v buf = _ from henc]
  split
  · show (if (Kind.der .rsaPublicKey v).length ≤ _ then _ else _) = _
    rw [if_pos (by rw [List.length_append]; omega), List.take_left]
  · rfl

/-- **C15** A public key is exported as its RSAPublicKey, when the exponent is below `2^31`; a buffer that is too small gives an
error.  What is missing is the exponents from `2^31` on, see `C15_large_exponent_not_reimported`. -/
theorem C15_export_public_partial {k : PublicKey} (hk : k.Ok) {n e : Nat} (hh : k.Holds n e) (he : e < 2 ^ 31) (buf : Bytes) :
    verifyingToPkcs1 k buf =
      if (Spec.Rsa.publicKeyDer n e).length ≤ buf.length then .ok (Spec.Rsa.publicKeyDer n e)
      else .error (.err (.Asn1Error .UnexpectedEof)) := by
  have := verifyingToPkcs1_eq hk hh buf _ rfl
  rw [exportedExponent_small he] at this
  exact this

theorem liftAsn1_ok {α : Type} {x : R α} {v : α} (h : x = .ok v) : Pkcs8.liftAsn1 x = .ok v := by rw [h]; rfl

/-- A parse error is an error, never a panic. -/
theorem liftAsn1_err (k : Kind) {b : Bytes} {f : Fault} (h : k.codec.fromBytes b = .error f) :
    ∃ e, (Pkcs8.liftAsn1 (k.codec.fromBytes b) : GR k.Val) = .error (.err e) := by
  cases f with
  | err e => exact ⟨_, by rw [h]; rfl⟩
  | panic => exact absurd h (C04_total k b).2

theorem publicStruct_of (v : RSAPublicKey) (hv : MinimalInt v.modulus.twosComplement ∧ MinimalInt v.publicExponent.twosComplement)
    (h1 : v.modulus.isNegative = false) (h2 : v.publicExponent.isNegative = false) :
    v = publicStruct (beNat v.modulus.twosComplement) (beNat v.publicExponent.twosComplement) := by
  obtain ⟨m, e⟩ := v
  show _ = (⟨⟨natOctets (beNat m.twosComplement)⟩, ⟨natOctets (beNat e.twosComplement)⟩⟩ : RSAPublicKey)
  rw [← natOctets_of_minimal hv.1 h1, ← natOctets_of_minimal hv.2 h2]

/-- **C15** Which public keys are accepted: exactly the encodings of a modulus and an exponent within the limits. -/
theorem C15_import_public (hA : A.Ok) (b : Bytes) :
    (∃ k n e, b = Spec.Rsa.publicKeyDer n e ∧ PublicLimits n e ∧
      verifyingFromPkcs1 A b = .ok k ∧ k.Ok ∧ Canon k.n ∧ k.Holds n e) ∨
    ((¬ ∃ n e, b = Spec.Rsa.publicKeyDer n e ∧ PublicLimits n e) ∧ ∃ err, verifyingFromPkcs1 A b = .error (.err err)) := by
  rcases hf : Kind.codec .rsaPublicKey |>.fromBytes b with f | v
  · obtain ⟨e, he⟩ := liftAsn1_err _ hf
    refine Or.inr ⟨?_, e, ?_⟩
    · rintro ⟨n, e, rfl, hl⟩
      have := fromBytes_der .rsaPublicKey (publicStruct n e) (publicStruct_valid n e)
        (by rw [publicStruct_der]; have := publicKeyDer_length hl; omega)
      rw [publicStruct_der, hf] at this
      cases this
    · rw [verifyingFromPkcs1, show Pkcs8.liftAsn1 (rsaPublicKeyCodec.fromBytes b) = _ from he]; rfl
  have hl := liftAsn1_ok hf
  have himp : verifyingFromPkcs1 A b = importPublic A v := by
    rw [verifyingFromPkcs1, show Pkcs8.liftAsn1 (rsaPublicKeyCodec.fromBytes b) = _ from hl]; rfl
  obtain ⟨hv, hd, _⟩ := C02_parse_then_encode .rsaPublicKey b v hf
  have hv' : MinimalInt v.modulus.twosComplement ∧ MinimalInt v.publicExponent.twosComplement := hv
  rcases importPublic_cases hA v hv'.2 with ⟨⟨h1, h2, h3⟩, k, k1, k2, k3, k4⟩ | ⟨h1, e, k1⟩
  · refine Or.inl ⟨k, _, _, ?_, h3, by rw [himp, k1], k2, k3, k4⟩
    rw [← publicStruct_der, hd]
    congr 1
    exact publicStruct_of v hv' h1 h2
  · refine Or.inr ⟨?_, e, by rw [himp, k1]⟩
    rintro ⟨n, e, hb, hlim⟩
    have := fromBytes_der .rsaPublicKey (publicStruct n e) (publicStruct_valid n e)
      (by rw [publicStruct_der]; have := publicKeyDer_length hlim; omega)
    rw [publicStruct_der, ← hb, hf] at this
    injection this with this
    subst this
    refine h1 ⟨natOctets_nonneg n, natOctets_nonneg e, ?_⟩
    rw [show (publicStruct n e).modulus.twosComplement = natOctets n from rfl, natOctets_beNat,
      show (publicStruct n e).publicExponent.twosComplement = natOctets e from rfl, natOctets_beNat]
    exact hlim

theorem importPublic_made {v : RSAPublicKey} {k : PublicKey} (h : importPublic A v = .ok k) : PublicKey.new A k.n k.e = .ok k := by
  rw [importPublic] at h
  split at h
  · cases h
  rw [lift_bind] at h
  split at h
  swap
  · cases h
  rename_i n _
  rcases he : exponentOf v.publicExponent with f | e
  · rw [he, err_bind'] at h; cases h
  rw [he, ok_bind'] at h
  have h' : PublicKey.new A n e = .ok k := by
    rcases hk : PublicKey.new A n e with f | k'
    · rw [hk] at h; cases h
    · rw [hk] at h; cases h; rfl
  have h2 := h'
  simp only [PublicKey.new] at h2
  repeat' split at h2
  all_goals first | (cases h2; done) | skip
  cases h2
  exact h'

/-- **C15** Export and import of a public key that was imported: the same key again, when the exponent is below `2^31`. -/
theorem C15_round_trip_public_partial (hA : A.Ok) (b : Bytes) (k : PublicKey) (h : verifyingFromPkcs1 A b = .ok k)
    (he : k.e.toNat < 2 ^ 31) (buf : Bytes) (hbuf : b.length ≤ buf.length) :
    verifyingToPkcs1 k buf = .ok b := by
  rcases C15_import_public hA b with ⟨k', n, e, h1, h2, h3, h4, h5, h6⟩ | ⟨_, e, h1⟩
  · rw [h] at h3
    cases h3
    rw [C15_export_public_partial h4 h6 (by rw [← h6.e]; exact he), ← h1, if_pos hbuf]
  · rw [h] at h1; cases h1

theorem exportedExponent_large {e : Nat} (he : 2 ^ 31 ≤ e) (e32 : e < 2 ^ 32) :
    MinimalInt (exportedExponent e).twosComplement ∧ twosComp (exportedExponent e).twosComplement = (e : Int) - 2 ^ 32 ∧
    (exportedExponent e).isNegative = true := by
  obtain ⟨b0, b1, b2, b3, hb⟩ : ∃ b0 b1 b2 b3 : Byte, toBE 4 e = [b0, b1, b2, b3] := ⟨_, _, _, _, rfl⟩
  have hbe : beNat [b0, b1, b2, b3] = e := by rw [← hb, beNat_toBE]; exact Nat.mod_eq_of_lt (by omega)
  have htc : twosComp (toBE 4 e) = (e : Int) - 2 ^ 32 := by
    have := b0.isLt; have := b1.isLt; have := b2.isLt; have := b3.isLt
    rw [hb, twosComp_cons]
    simp only [beNat_cons, List.length_cons, List.length_nil, beNat_nil] at hbe ⊢
    split <;> omega
  have h1 := (C05_new (toBE 4 e))
  refine ⟨h1.2.1, h1.1.trans htc, ?_⟩
  rw [isNegative_iff]
  have : twosComp (exportedExponent e).twosComplement = _ := h1.1.trans htc
  rw [this]; omega

/-- **C15** A key whose exponent is `2^31` or more is exported with the negative exponent `e - 2^32`, and cannot be read back: the
code hands the four octets of the exponent to a signed INTEGER. -/
theorem C15_large_exponent_not_reimported (hA : A.Ok) {k : PublicKey} (hk : k.Ok) {n e : Nat} (hh : k.Holds n e) (he : 2 ^ 31 ≤ e)
    (buf out : Bytes) (h : verifyingToPkcs1 k buf = .ok out) :
    (∃ c, MinimalInt c ∧ twosComp c = (e : Int) - 2 ^ 32 ∧ out = seq [natInt n, tlv 0x02#8 c]) ∧
      ∃ err, verifyingFromPkcs1 A out = .error (.err err) := by
  obtain ⟨e1, e2, e3⟩ := exportedExponent_large he (by rw [← hh.e]; exact k.e.isLt)
  rw [verifyingToPkcs1_eq hk hh buf _ rfl] at h
  split at h
  swap
  · cases h
  injection h with h
  refine ⟨⟨_, e1, e2, h.symm⟩, ?_⟩
  have hf := fromBytes_der .rsaPublicKey ⟨⟨natOctets n⟩, exportedExponent e⟩ ⟨natOctets_minimal n, e1⟩
    (by have := exportedPublic_length hk hh _ rfl; omega)
  rw [h] at hf
  have himp : verifyingFromPkcs1 A out = importPublic A ⟨⟨natOctets n⟩, exportedExponent e⟩ := by
    rw [verifyingFromPkcs1, show Pkcs8.liftAsn1 (rsaPublicKeyCodec.fromBytes out) = _ from liftAsn1_ok hf]; rfl
  rcases importPublic_cases hA ⟨⟨natOctets n⟩, exportedExponent e⟩ e1 with ⟨⟨_, h2, _⟩, _⟩ | ⟨_, err, h1⟩
  · rw [e3] at h2; cases h2
  · exact ⟨err, himp.trans h1⟩

/-! Private keys. -/

theorem publicLimits_of_ok {k : PublicKey} (hk : k.Ok) {n e : Nat} (hh : k.Holds n e) : PublicLimits n e := by
  have he := k.e.isLt
  have := (limits_iff (n := k.n) he).1 ⟨hk.ctx.odd, hk.min, hk.max, by rw [BitVec.ofNat_toNat]; simpa using hk.e⟩
  rwa [hh.n, hh.e] at this

theorem privateLimits_of_ok {k : PrivateKey} (hk : k.Ok A) {n e d p q dp dq qInv : Nat} (hh : k.Holds n e d p q dp dq qInv) :
    PrivateLimits n e d p q dp dq qInv where
  pub := publicLimits_of_ok hk.pub hh.pub
  oddP := by rw [← hh.p]; exact hk.ctxP.odd
  oddQ := by rw [← hh.q]; exact hk.ctxQ.odd
  minP := by rw [← hh.p]; exact (le_lenBytes k.p 127).1 hk.minP
  maxP := by rw [← hh.p]; exact value_lt_N hk.ctxP.inv
  maxQ := by rw [← hh.q]; exact value_lt_N hk.ctxQ.inv
  maxD := by rw [← hh.d]; exact value_lt_N hk.d
  maxDp := by rw [← hh.dp]; exact value_lt_N hk.dp
  maxDq := by rw [← hh.dq]; exact value_lt_N hk.dq
  maxQInv := by rw [← hh.qInv]; exact value_lt_N hk.iqmp

theorem encodeComponents_ok {k : PrivateKey} (hk : k.Ok A) {n e d p q dp dq qInv : Nat} (hh : k.Holds n e d p q dp dq qInv) :
    ∃ c, encodeComponents k = .ok c ∧ Integer.new c.publicModulus = ⟨natOctets n⟩ ∧ c.publicExponent = toBE 4 e ∧
      Integer.new c.d = ⟨natOctets d⟩ ∧ Integer.new c.p = ⟨natOctets p⟩ ∧ Integer.new c.q = ⟨natOctets q⟩ ∧
      Integer.new c.dp = ⟨natOctets dp⟩ ∧ Integer.new c.dq = ⟨natOctets dq⟩ ∧ Integer.new c.iqmp = ⟨natOctets qInv⟩ := by
  obtain ⟨b1, c1, d1⟩ := asn1_component hk.pub.ctx.inv (L := MAX_PUBLIC_MODULUS_BYTES + 1) (by decide)
  obtain ⟨b2, c2, d2⟩ := asn1_component hk.ctxP.inv (L := MAX_PRIVATE_MODULUS_BYTES + 1) (by decide)
  obtain ⟨b3, c3, d3⟩ := asn1_component hk.ctxQ.inv (L := MAX_PRIVATE_MODULUS_BYTES + 1) (by decide)
  obtain ⟨b4, c4, d4⟩ := asn1_component hk.d (L := MAX_PUBLIC_MODULUS_BYTES + 1) (by decide)
  obtain ⟨b5, c5, d5⟩ := asn1_component hk.dp (L := MAX_PRIVATE_MODULUS_BYTES + 1) (by decide)
  obtain ⟨b6, c6, d6⟩ := asn1_component hk.dq (L := MAX_PRIVATE_MODULUS_BYTES + 1) (by decide)
  obtain ⟨b7, c7, d7⟩ := asn1_component hk.iqmp (L := MAX_PRIVATE_MODULUS_BYTES + 1) (by decide)
  refine ⟨⟨b1, toBE 4 e, b2, b3, b4, b5, b6, b7⟩, ?_, ?_⟩
  · rw [encodeComponents, c1, c2, c3, c4, c5, c6, c7, hh.pub.e]; rfl
  · rw [hh.pub.n] at d1
    rw [hh.p] at d2
    rw [hh.q] at d3
    rw [hh.d] at d4
    rw [hh.dp] at d5
    rw [hh.dq] at d6
    rw [hh.qInv] at d7
    exact ⟨d1, rfl, d4, d2, d3, d5, d6, d7⟩

/-- **C15** A private key is exported as its RSAPrivateKey, when the exponent is below `2^31`; a buffer that is too small gives an
error. -/
theorem C15_export_private_partial {k : PrivateKey} (hk : k.Ok A) {n e d p q dp dq qInv : Nat} (hh : k.Holds n e d p q dp dq qInv)
    (he : e < 2 ^ 31) (buf : Bytes) :
    signingToPkcs1 k buf =
      if (Spec.Rsa.privateKeyDer n e d p q dp dq qInv).length ≤ buf.length then .ok (Spec.Rsa.privateKeyDer n e d p q dp dq qInv)
      else .error (.err (.Asn1Error .UnexpectedEof)) := by
  obtain ⟨c, c0, c1, c2, c3, c4, c5, c6, c7, c8⟩ := encodeComponents_ok hk hh
  have hlen := privateKeyDer_length (privateLimits_of_ok hk hh)
  have henc := encodeInto_cases .rsaPrivateKey (privateStruct n e d p q dp dq qInv) (by rw [privateStruct_der]; omega) buf
  rw [privateStruct_der] at henc
  unfold privateStruct at henc
  rw [signingToPkcs1, c0, lift_bind]
  simp only [c1, c2, c3, c4, c5, c6, c7, c8]
  rw [show Integer.new (toBE 4 e) = exportedExponent e from rfl, exportedExponent_small he,
    show rsaPrivateKeyCodec.encodeInto _ buf = _ from henc]
  split
  · show (if (Spec.Rsa.privateKeyDer n e d p q dp dq qInv).length ≤ _ then _ else _) = _
    rw [if_pos (by rw [List.length_append]; omega), List.take_left]
  · rfl

/-- **C15** Which private keys are accepted.  The private components may be written as negative INTEGERs: their octets are read as
unsigned numbers. -/
theorem C15_import_private (hA : A.Ok) (b : Bytes) :
    (∃ k, ∃ v : RSAPrivateKey, Kind.valid .rsaPrivateKey v ∧ b = Kind.der .rsaPrivateKey v ∧ b.length ≤ 65539 ∧ PrivateAccept v ∧
      signingFromPkcs1 A b = .ok k ∧ k.Ok A ∧ k.Canonical ∧
      k.Holds (beNat v.modulus.twosComplement) (beNat v.publicExponent.twosComplement) (beNat v.privateExponent.twosComplement)
        (beNat v.prime1.twosComplement) (beNat v.prime2.twosComplement) (beNat v.exponent1.twosComplement)
        (beNat v.exponent2.twosComplement) (beNat v.coefficient.twosComplement)) ∨
    ((¬ ∃ v : RSAPrivateKey, Kind.valid .rsaPrivateKey v ∧ b = Kind.der .rsaPrivateKey v ∧ b.length ≤ 65539 ∧ PrivateAccept v) ∧
      ∃ err, signingFromPkcs1 A b = .error (.err err)) := by
  rcases hf : Kind.codec .rsaPrivateKey |>.fromBytes b with f | v
  · obtain ⟨e, he⟩ := liftAsn1_err _ hf
    refine Or.inr ⟨?_, e, ?_⟩
    · rintro ⟨v, hv, hb, hl, -⟩
      have := fromBytes_der .rsaPrivateKey v hv (by rw [← hb]; exact hl)
      rw [← hb, hf] at this
      cases this
    · rw [signingFromPkcs1, show Pkcs8.liftAsn1 (rsaPrivateKeyCodec.fromBytes b) = _ from he]; rfl
  have himp : signingFromPkcs1 A b = importPrivate A v := by
    rw [signingFromPkcs1, show Pkcs8.liftAsn1 (rsaPrivateKeyCodec.fromBytes b) = _ from liftAsn1_ok hf]; rfl
  obtain ⟨hv, hd, _⟩ := C02_parse_then_encode .rsaPrivateKey b v hf
  have hl := C01_size_limit .rsaPrivateKey b v hf
  rcases importPrivate_cases hA v hv.2.1 with ⟨h1, k, k1, k2, k3, k4⟩ | ⟨h1, e, k1⟩
  · exact Or.inl ⟨k, v, hv, hd, hl, h1, by rw [himp, k1], k2, k3, k4⟩
  · refine Or.inr ⟨?_, e, by rw [himp, k1]⟩
    rintro ⟨v', hv', hb, hl', ha⟩
    have := fromBytes_der .rsaPrivateKey v' hv' (by rw [← hb]; exact hl')
    rw [← hb, hf] at this
    cases this
    exact h1 ha

/-- **C15** A key written with non-negative numbers is accepted exactly when they are within the limits. -/
theorem C15_import_private_der (hA : A.Ok) (n e d p q dp dq qInv : Nat) :
    (PrivateLimits n e d p q dp dq qInv ∧ ∃ k, signingFromPkcs1 A (Spec.Rsa.privateKeyDer n e d p q dp dq qInv) = .ok k ∧
      k.Ok A ∧ k.Canonical ∧ k.Holds n e d p q dp dq qInv) ∨
    (¬ PrivateLimits n e d p q dp dq qInv ∧
      ∃ err, signingFromPkcs1 A (Spec.Rsa.privateKeyDer n e d p q dp dq qInv) = .error (.err err)) := by
  have acc : PrivateAccept (privateStruct n e d p q dp dq qInv) ↔ PrivateLimits n e d p q dp dq qInv := by
    unfold PrivateAccept privateStruct
    simp only [natOctets_beNat, natOctets_nonneg, true_and]
  have vacc := privateStruct_valid n e d p q dp dq qInv
  have hder := privateStruct_der n e d p q dp dq qInv
  rcases C15_import_private hA (Spec.Rsa.privateKeyDer n e d p q dp dq qInv) with
    ⟨k, v, v1, v2, v3, v4, k1, k2, k3, k4⟩ | ⟨h, hr⟩
  · have f1 := fromBytes_der .rsaPrivateKey v v1 (by rw [← v2]; exact v3)
    have f2 := fromBytes_der .rsaPrivateKey _ vacc (by rw [hder]; exact v3)
    rw [← v2] at f1
    rw [hder, f1] at f2
    injection f2 with f2
    subst f2
    simp only [privateStruct, natOctets_beNat] at k4
    exact Or.inl ⟨acc.1 v4, k, k1, k2, k3, k4⟩
  · refine Or.inr ⟨fun hl => h ⟨_, vacc, hder.symm, ?_, acc.2 hl⟩, hr⟩
    have := privateKeyDer_length hl
    omega

/-- An accepted key is determined by its numbers. -/
theorem private_unique {k k' : PrivateKey} (h1 : k.Ok A) (h2 : k.Canonical) (h1' : k'.Ok A) (h2' : k'.Canonical)
    {n e d p q dp dq qInv : Nat} (h : k.Holds n e d p q dp dq qInv) (h' : k'.Holds n e d p q dp dq qInv) : k = k' := by
  have e1 := h2.p.eq h2'.p (by rw [h.p, h'.p])
  have e2 := h2.q.eq h2'.q (by rw [h.q, h'.q])
  have e3 := h2.d.eq h2'.d (by rw [h.d, h'.d])
  have e4 := h2.dp.eq h2'.dp (by rw [h.dp, h'.dp])
  have e5 := h2.dq.eq h2'.dq (by rw [h.dq, h'.dq])
  have e6 := h2.iqmp.eq h2'.iqmp (by rw [h.qInv, h'.qInv])
  have e7 := h2.n.eq h2'.n (by rw [h.pub.n, h'.pub.n])
  have e8 : k.pub.e = k'.pub.e := BitVec.eq_of_toNat_eq (by rw [h.pub.e, h'.pub.e])
  have := h1.made
  rw [e1, e2, e3, e4, e5, e6, e7, e8, h1'.made] at this
  injection this with this
  exact this.symm

/-- **C15** Export then import gives back the same key, and then the same bytes, when the exponent is below `2^31`. -/
theorem C15_round_trip_private_partial (hA : A.Ok) (b : Bytes) (k : PrivateKey) (h : signingFromPkcs1 A b = .ok k)
    (he : k.pub.e.toNat < 2 ^ 31) (buf : Bytes) (hbuf : 4700 ≤ buf.length) :
    ∃ out, signingToPkcs1 k buf = .ok out ∧ signingFromPkcs1 A out = .ok k := by
  rcases C15_import_private hA b with ⟨k', v, v1, v2, v3, v4, k1, k2, k3, k4⟩ | ⟨_, err, h'⟩
  swap
  · rw [h] at h'; cases h'
  rw [h] at k1
  cases k1
  have hl := privateLimits_of_ok k2 k4
  have hlen := privateKeyDer_length hl
  refine ⟨_, (C15_export_private_partial k2 k4 (by rw [← k4.pub.e]; exact he) buf).trans (if_pos (by omega)), ?_⟩
  rcases C15_import_private_der hA _ _ _ _ _ _ _ _ with ⟨_, k'', g1, g2, g3, g4⟩ | ⟨hn, _⟩
  · rw [g1, private_unique g2 g3 k2 k3 g4 k4]
  · exact absurd hl hn

/-- **C15** The bytes an imported key came from are what it is exported as, if the private components were not negative. -/
theorem C15_reexport_private_partial (hA : A.Ok) (n e d p q dp dq qInv : Nat) (he : e < 2 ^ 31) (k : PrivateKey)
    (h : signingFromPkcs1 A (Spec.Rsa.privateKeyDer n e d p q dp dq qInv) = .ok k) (buf : Bytes)
    (hbuf : (Spec.Rsa.privateKeyDer n e d p q dp dq qInv).length ≤ buf.length) :
    signingToPkcs1 k buf = .ok (Spec.Rsa.privateKeyDer n e d p q dp dq qInv) := by
  rcases C15_import_private_der hA n e d p q dp dq qInv with ⟨_, k', g1, g2, g3, g4⟩ | ⟨hn, err, g⟩
  · rw [h] at g1
    cases g1
    rw [C15_export_private_partial g2 g4 he, if_pos hbuf]
  · rw [h] at g; cases g

/-! PKCS#8 and SubjectPublicKeyInfo. -/

/-- The parameters of rsaEncryption: NULL. -/
def rsaParams : Option Any := some (.Null ⟨⟩)

/-- **C15** The PKCS#8 form of a key, and that it is read back as the same key. -/
theorem C15_pkcs8_partial (hA : A.Ok) {k : PrivateKey} (hk : k.Ok A) (hc : k.Canonical) {n e d p q dp dq qInv : Nat}
    (hh : k.Holds n e d p q dp dq qInv) (he : e < 2 ^ 31) (buf : Bytes) (hbuf : 4750 ≤ buf.length) :
    let der := pkcs8Der (Spec.Rsa.privateKeyDer n e d p q dp dq qInv) none id_rsaEncryption rsaParams
    signingToPkcs8 k buf = .ok der ∧ signingFromPkcs8 A der = .ok k := by
  intro der
  have hlen := privateKeyDer_length (privateLimits_of_ok hk hh)
  have hder : der.length ≤ 4750 := by
    show (pkcs8Der _ none id_rsaEncryption rsaParams).length ≤ 4750
    generalize Spec.Rsa.privateKeyDer n e d p q dp dq qInv = body at *
    have h1 := tlv_length_le 0x04#8 body (by omega)
    rw [pkcs8Der]
    have h2 : (smallInt 0).length = 3 := by decide
    have h3 : (seq [oid id_rsaEncryption, optional any rsaParams]).length = 15 := by decide
    generalize tlv 0x04#8 body = t at *
    show (seq [smallInt 0, seq [oid id_rsaEncryption, optional any rsaParams], t, []]).length ≤ 4750
    generalize smallInt 0 = a at *
    generalize seq [oid id_rsaEncryption, optional any rsaParams] = b at *
    have hf : [a, b, t, []].flatten.length = a.length + b.length + t.length := by simp; omega
    have := seq_length_le [a, b, t, []] (by omega)
    omega
  obtain ⟨r1, k', r2, r3, r4⟩ := C08_round_trip (Spec.Rsa.privateKeyDer n e d p q dp dq qInv) none id_rsaEncryption rsaParams
    (by intro p hp; cases hp; trivial) (by show der.length ≤ _; omega) buf (by show der.length ≤ _; omega)
  constructor
  · rw [signingToPkcs8, C15_export_private_partial hk hh he, if_pos (by rw [List.length_replicate]; exact Nat.le_trans hlen (by decide))]
    exact r1
  · rw [signingFromPkcs8, show Pkcs8.decode der id_rsaEncryption (some (.Null ⟨⟩)) = _ from r2, ok_bind', r3]
    rcases C15_import_private_der hA n e d p q dp dq qInv with ⟨_, k'', g1, g2, g3, g4⟩ | ⟨hn, _⟩
    · rw [g1, private_unique g2 g3 hk hc g4 hh]
    · exact absurd (privateLimits_of_ok hk hh) hn

/-- **C15** A PKCS#8 private key is accepted exactly when it is, before any trailing bytes, the version 1 or 2 container of an
accepted RSAPrivateKey under rsaEncryption with NULL parameters. -/
theorem C15_import_pkcs8 (b : Bytes) (k : PrivateKey) :
    signingFromPkcs8 A b = .ok k ↔ ∃ inner pub rest, b = pkcs8Der inner pub id_rsaEncryption rsaParams ++ rest ∧
      (pkcs8Der inner pub id_rsaEncryption rsaParams).length ≤ 65539 ∧ signingFromPkcs1 A inner = .ok k := by
  rw [signingFromPkcs8]
  constructor
  · intro h
    rcases hd : Pkcs8.decode b id_rsaEncryption (some (.Null ⟨⟩)) with f | c
    · rw [hd] at h; cases h
    · rw [hd, ok_bind'] at h
      obtain ⟨rest, priv, pub, h1, h2, _, h4⟩ := (C08_decode _ _ _ _).1 hd
      subst h4
      exact ⟨priv, pub, rest, h1, h2, h⟩
  · rintro ⟨inner, pub, rest, h1, h2, h3⟩
    have := (C08_decode b id_rsaEncryption rsaParams (Pkcs8.construct inner pub id_rsaEncryption rsaParams)).2
      ⟨rest, inner, pub, h1, h2, by intro p hp; cases hp; trivial, rfl⟩
    rw [show Pkcs8.decode b id_rsaEncryption (some (.Null ⟨⟩)) = _ from this, ok_bind']
    exact h3

/-- **C15** The SubjectPublicKeyInfo of a public key, when the exponent is below `2^31`. -/
theorem C15_spki_partial {k : PublicKey} (hk : k.Ok) {n e : Nat} (hh : k.Holds n e) (he : e < 2 ^ 31) (buf : Bytes) :
    verifyingToSpki k buf = if (Spec.Rsa.spkiDer n e).length ≤ buf.length then .ok (Spec.Rsa.spkiDer n e)
      else .error (.err (.Asn1Error .UnexpectedEof)) := by
  have hlen := publicKeyDer_length (publicLimits_of_ok hk hh)
  have hsp : Kind.der .subjectPublicKeyInfo ⟨⟨id_rsaEncryption, some (.Null ⟨⟩)⟩, ⟨Spec.Rsa.publicKeyDer n e⟩⟩ = Spec.Rsa.spkiDer n e := by
    show seq [seq [oid id_rsaEncryption, _], tlv 0x03#8 (0#8 :: _)] = seq [seq [_, _], tlv 0x03#8 (0#8 :: _)]
    have : oid id_rsaEncryption = tlv 0x06#8 (oidBytes 1 2 [840, 113549, 1, 1, 1]) := by decide +kernel
    rw [this]; rfl
  have hs : (Spec.Rsa.spkiDer n e).length < 2 ^ 32 := by
    rw [Spec.Rsa.spkiDer]
    have h3 : (seq [tlv 0x06#8 (oidBytes 1 2 [840, 113549, 1, 1, 1]), null]).length = 15 := by decide +kernel
    generalize Spec.Rsa.publicKeyDer n e = body at *
    have h1 := tlv_length_le 0x03#8 (0#8 :: body) (by simp; omega)
    rw [List.length_cons] at h1
    generalize tlv 0x03#8 (0#8 :: body) = t at *
    generalize seq [tlv 0x06#8 (oidBytes 1 2 [840, 113549, 1, 1, 1]), null] = b at *
    have hf : [b, t].flatten.length = b.length + t.length := by simp
    have := seq_length_le [b, t] (by omega)
    omega
  have henc := encodeInto_cases .subjectPublicKeyInfo ⟨⟨id_rsaEncryption, some (.Null ⟨⟩)⟩, ⟨Spec.Rsa.publicKeyDer n e⟩⟩
    (by rw [hsp]; exact hs) buf
  rw [hsp] at henc
  rw [verifyingToSpki, C15_export_public_partial hk hh he, if_pos (by rw [List.length_replicate]; exact Nat.le_trans hlen (by decide)), ok_bind']
  simp only []
  rw [show subjectPublicKeyInfoCodec.encodeInto _ buf = _ from henc]
  split
  · show (if (Spec.Rsa.spkiDer n e).length ≤ _ then _ else _) = _
    rw [if_pos (by rw [List.length_append]; omega), List.take_left]
  · rfl

end Verif.Props
