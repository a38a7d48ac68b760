import Verif.Proof.Asn1Integer
import Verif.Spec.PkixDer

/-! Every supported type obeys the codec laws with the specified DER encoding. -/
namespace Verif.Asn1
open Verif.Spec.Der

theorem Lawful.congr {T : Type} {c : Codec T} {t t' der der' wf wf' fits fits' follow follow'}
    (h : Lawful c t der wf fits follow) (ht : t' = t) (hd : ∀ v, der' v = der v)
    (hw : ∀ v, wf' v ↔ wf v) (hf : ∀ v, fits' v ↔ fits v)
    (hfo : ∀ v r, follow' v r ↔ follow v r) : Lawful c t' der' wf' fits' follow' := by
  have e1 : der' = der := funext hd
  have e2 : wf' = wf := funext fun v => propext (hw v)
  have e3 : fits' = fits := funext fun v => propext (hf v)
  have e4 : follow' = follow := funext fun v => funext fun r => propext (hfo v r)
  subst ht e1 e2 e3 e4
  exact h

theorem tlv_len_iff (t : Tag) (b : Bytes) : (tlv t b).length ≤ 65539 ↔ b.length < 65536 := by
  rw [tlv_length]
  unfold lenOctets
  split
  · simp; omega
  case isFalse h1 =>
    by_cases h2 : b.length < 65536
    · by_cases h3 : b.length < 256
      · rw [natBytes_one (by omega) h3]; simp; omega
      · rw [natBytes_two (by omega) h2]; simp; omega
    · rw [natBytes_pos (by omega), natBytes_pos (n := b.length / 256) (by omega),
        natBytes_pos (n := b.length / 256 / 256) (by omega)]
      simp; omega

/-- What is needed of each top-level type. -/
structure Good {T : Type} (c : Codec T) (der : T → Bytes) (valid : T → Prop) : Prop where
  lawful : ∃ fits, Lawful c c.tag der valid fits free ∧ ∀ v, fits v ↔ (der v).length ≤ 65539
  cut : ∀ v k, (der v).length ≤ 65539 → k < (der v).length →
    c.parse ((der v).take k) = .error (.err .UnexpectedEof)
  nonempty : ∀ v, der v ≠ []

variable {T S : Type}

theorem good_of_body {c : Codec T} {t : Tag} {body : T → Bytes} {valid : T → Prop}
    {fits : T → Prop} (ht : c.tag = t)
    (h : Lawful c t (fun v => tlv t (body v)) valid fits free)
    (hf : ∀ v, fits v ↔ (body v).length < 65536)
    (hp : ∀ inp e, take t inp = .error e → c.parseWithTag t inp = .error e) :
    Good c (fun v => tlv t (body v)) valid where
  lawful := by
    subst ht
    exact ⟨fits, h, fun v => (hf v).trans (tlv_len_iff _ _).symm⟩
  cut v k hl hk := by
    subst ht
    exact hp _ _ (take_cut ((tlv_len_iff _ _).1 hl) hk)
  nonempty v := tlv_ne_nil _ _

theorem bind_error {α β : Type} {x : R α} {f : α → R β} {e : Fault} (h : x = .error e) :
    (x >>= f) = .error e := by subst h; rfl

theorem null_good : Good nullCodec (fun _ => tlv 0x05#8 []) (fun _ => True) :=
  good_of_body rfl (null_lawful _) (fun _ => by simp) (fun _ _ h => bind_error h)
theorem integer_good : Good integerCodec int intValid :=
  good_of_body rfl ((integer_lawful _).congr rfl (fun _ => rfl)
    (fun v => (integer_ok_iff v).symm) (fun _ => Iff.rfl) (fun _ _ => Iff.rfl))
    (fun _ => Iff.rfl) (fun _ _ h => bind_error h)
theorem octetString_good : Good octetStringCodec octets (fun _ => True) :=
  good_of_body rfl (octetString_lawful _) (fun _ => Iff.rfl) (fun _ _ h => bind_error h)
theorem objectId_good : Good objectIdCodec oid (fun _ => True) :=
  good_of_body rfl (objectId_lawful _) (fun v => by have := v.bound; simp; omega) (fun _ _ h => bind_error h)
theorem bitString_good : Good bitStringCodec bits (fun _ => True) :=
  good_of_body rfl (bitString_lawful _) (fun v => by simp) (fun _ _ h => bind_error h)

theorem anyValid_iff (v : Any) : anyValid v ↔ v.ok := by
  cases v with
  | Integer i => exact (integer_ok_iff i).symm
  | _ => exact Iff.rfl

theorem anyDer_eq (v : Any) : any v = derAny v := by cases v <;> rfl

theorem any_lawful' (t : Tag) : Lawful anyCodec t any anyValid Any.fits free :=
  (any_lawful t).congr rfl anyDer_eq anyValid_iff (fun _ => Iff.rfl) (fun _ _ => Iff.rfl)

theorem any_good : Good anyCodec any anyValid where
  lawful := ⟨_, any_lawful' _, fun v => by
    cases v with
    | Null => exact iff_of_true trivial ((tlv_len_iff _ _).2 (by decide))
    | Integer x => exact (tlv_len_iff _ _).symm
    | OctetString x => exact (tlv_len_iff _ _).symm
    | BitString x => exact (tlv_len_iff 0x03#8 (0#8 :: x.octets)).symm
    | ObjectId x =>
      have := x.bound
      exact iff_of_true trivial ((tlv_len_iff _ _).2 (by omega))⟩
  cut v k hl hk := by
    cases k with
    | zero => rfl
    | succ k =>
      cases v with
      | Null x =>
        have := null_good.cut x (k + 1) hl hk
        simp only [Codec.parse, anyCodec, any] at this ⊢
        simp only [null, tlv, List.take_succ_cons, peekTag, ok_bind] at this ⊢
        simp +decide only [if_true, if_false]
        exact bind_error this
      | Integer x =>
        have := integer_good.cut x (k + 1) hl hk
        simp only [Codec.parse, anyCodec, any] at this ⊢
        simp only [int, tlv, List.take_succ_cons, peekTag, ok_bind] at this ⊢
        simp +decide only [if_true, if_false]
        exact bind_error this
      | OctetString x =>
        have := octetString_good.cut x (k + 1) hl hk
        simp only [Codec.parse, anyCodec, any] at this ⊢
        simp only [octets, tlv, List.take_succ_cons, peekTag, ok_bind] at this ⊢
        simp +decide only [if_true, if_false]
        exact bind_error this
      | BitString x =>
        have := bitString_good.cut x (k + 1) hl hk
        simp only [Codec.parse, anyCodec, any] at this ⊢
        simp only [bits, tlv, List.take_succ_cons, peekTag, ok_bind] at this ⊢
        simp +decide only [if_true, if_false]
        exact bind_error this
      | ObjectId x =>
        have := objectId_good.cut x (k + 1) hl hk
        simp only [Codec.parse, anyCodec, any] at this ⊢
        simp only [oid, tlv, List.take_succ_cons, peekTag, ok_bind] at this ⊢
        simp +decide only [if_true, if_false]
        exact bind_error this
  nonempty v := by cases v <;> exact tlv_ne_nil _ _

theorem Good.congr {c : Codec T} {der der' valid valid'} (h : Good c der valid)
    (hd : ∀ v, der' v = der v) (hw : ∀ v, valid' v ↔ valid v) : Good c der' valid' := by
  have e1 : der' = der := funext hd
  have e2 : valid' = valid := funext fun v => propext (hw v)
  subst e1 e2; exact h

theorem struct_good {f : Fields T} {der wf follow} (mk : T → S) (get : S → T)
    (hgm : ∀ x, get (mk x) = x) (hmg : ∀ s, mk (get s) = s)
    (hf : FieldsLawful f der wf follow) :
    Good (structCodec f mk get) (fun s => tlv 0x30#8 (der (get s)))
      (fun s => wf (get s) ∧ follow (get s) []) :=
  good_of_body rfl (struct_lawful mk get hgm hmg hf _) (fun _ => Iff.rfl)
    (fun _ _ h => bind_error h)

theorem enum_good {num : T → Nat} {ofNum : Nat → Option T}
    (h1 : ∀ v, ofNum (num v) = some v) (h2 : ∀ n v, ofNum n = some v → num v = n)
    (hlt : ∀ v, num v < 2 ^ 63) :
    Good (enumCodec num ofNum)
      (fun v => tlv 0x02#8 (Integer.new (toBE 8 (num v))).twosComplement) (fun _ => True) :=
  good_of_body rfl (enum_lawful h1 h2 hlt _)
    (fun v => by
      have := new_length_le (toBE 8 (num v))
      simp at this ⊢; omega)
    (fun _ _ h => bind_error (bind_error h))

theorem version_good : Good versionCodec version (fun _ => True) := by
  refine (enum_good ?_ ?_ ?_).congr ?_ (fun _ => Iff.rfl)
  · intro v; cases v <;> rfl
  · intro n v h; split at h <;> cases h <;> rfl
  · intro v; cases v <;> decide
  · intro v; cases v <;> decide

theorem pkcs8Version_good : Good pkcs8VersionCodec pkcs8Version (fun _ => True) := by
  refine (enum_good ?_ ?_ ?_).congr ?_ (fun _ => Iff.rfl)
  · intro v; cases v <;> rfl
  · intro n v h; split at h <;> cases h <;> rfl
  · intro v; cases v <;> decide
  · intro v; cases v <;> decide

theorem ecPrivateKeyVer_good : Good ecPrivateKeyVerCodec ecPrivateKeyVer (fun _ => True) := by
  refine (enum_good ?_ ?_ ?_).congr ?_ (fun _ => Iff.rfl)
  · intro v; cases v; rfl
  · intro n v h; split at h <;> cases h; rfl
  · intro v; cases v; decide
  · intro v; cases v; decide

theorem rsaPublicKey_good : Good rsaPublicKeyCodec rsaPublicKey
    (fun v => intValid v.modulus ∧ intValid v.publicExponent) := by
  obtain ⟨f1, h1, _⟩ := integer_good.lawful
  refine (struct_good _ _ (fun _ => rfl) (fun _ => rfl) (cons_lawful h1 (last_lawful h1))).congr
    ?_ ?_
  · intro v; simp [rsaPublicKey, seq]
  · intro v; simp [free]

theorem ecdsaSigValue_good : Good ecdsaSigValueCodec ecdsaSigValue
    (fun v => intValid v.r ∧ intValid v.s) := by
  obtain ⟨f1, h1, _⟩ := integer_good.lawful
  refine (struct_good _ _ (fun _ => rfl) (fun _ => rfl) (cons_lawful h1 (last_lawful h1))).congr
    ?_ ?_
  · intro v; simp [ecdsaSigValue, seq]
  · intro v; simp [free]

theorem rsaPrivateKey_good : Good rsaPrivateKeyCodec rsaPrivateKey
    (fun v => intValid v.modulus ∧ intValid v.publicExponent ∧
      intValid v.privateExponent ∧ intValid v.prime1 ∧ intValid v.prime2 ∧
      intValid v.exponent1 ∧ intValid v.exponent2 ∧ intValid v.coefficient) := by
  obtain ⟨f1, h1, _⟩ := integer_good.lawful
  obtain ⟨f2, h2, _⟩ := version_good.lawful
  refine (struct_good _ _ (fun _ => rfl) (fun _ => rfl) (cons_lawful h2 (cons_lawful h1
    (cons_lawful h1 (cons_lawful h1 (cons_lawful h1 (cons_lawful h1 (cons_lawful h1
      (cons_lawful h1 (last_lawful h1)))))))))).congr ?_ ?_
  · intro v; simp [rsaPrivateKey, seq]
  · intro v; simp [free]

theorem optional_eq (f : T → Bytes) (v : Option T) : optional f v = derOpt f v := by
  cases v <;> rfl

theorem algorithmIdentifier_good : Good algorithmIdentifierCodec algorithmIdentifier algValid := by
  obtain ⟨f1, h1, _⟩ := objectId_good.lawful
  obtain ⟨f2, h2, _⟩ := any_good.lawful
  have h3 := option_lawful h2 any_good.nonempty
  refine (struct_good _ _ (fun _ => rfl) (fun _ => rfl) (cons_lawful h1 (last_lawful h3))).congr
    ?_ ?_
  · intro v; simp [algorithmIdentifier, seq, optional_eq]
  · intro v
    simp only [algValid, free, true_and, implies_true, and_true]
    cases v.parameters <;> simp [optP]

theorem digestInfo_good : Good digestInfoCodec digestInfo
    (fun v => algValid v.digestAlgorithm) := by
  obtain ⟨f1, h1, _⟩ := algorithmIdentifier_good.lawful
  obtain ⟨f2, h2, _⟩ := octetString_good.lawful
  refine (struct_good _ _ (fun _ => rfl) (fun _ => rfl) (cons_lawful h1 (last_lawful h2))).congr
    ?_ ?_
  · intro v; simp [digestInfo, seq]
  · intro v; simp [free]

theorem subjectPublicKeyInfo_good : Good subjectPublicKeyInfoCodec subjectPublicKeyInfo
    (fun v => algValid v.algorithm) := by
  obtain ⟨f1, h1, _⟩ := algorithmIdentifier_good.lawful
  obtain ⟨f2, h2, _⟩ := bitString_good.lawful
  refine (struct_good _ _ (fun _ => rfl) (fun _ => rfl) (cons_lawful h1 (last_lawful h2))).congr
    ?_ ?_
  · intro v; simp [subjectPublicKeyInfo, seq]
  · intro v; simp [free]

theorem oneAsymmetricKey_good : Good oneAsymmetricKeyCodec oneAsymmetricKey
    (fun v => algValid v.privateKeyAlgorithm) := by
  obtain ⟨f1, h1, _⟩ := pkcs8Version_good.lawful
  obtain ⟨f2, h2, _⟩ := algorithmIdentifier_good.lawful
  obtain ⟨f3, h3, _⟩ := octetString_good.lawful
  have h4 := implicit_lawful (c := bitStringCodec) 1#8 0x81#8 (bitString_lawful _)
    (fun _ => rfl) (by decide) (by decide)
  refine (struct_good _ _ (fun _ => rfl) (fun _ => rfl) (cons_lawful h1 (cons_lawful h2
    (cons_lawful h3 (last_lawful h4))))).congr ?_ ?_
  · intro v; simp [oneAsymmetricKey, seq, optional_eq]
  · intro v
    simp only [free, true_and, implies_true, and_true]
    cases v.publicKey <;> simp [optP]

theorem ecPrivateKey_good : Good ecPrivateKeyCodec ecPrivateKey (fun _ => True) := by
  obtain ⟨f1, h1, _⟩ := ecPrivateKeyVer_good.lawful
  obtain ⟨f2, h2, _⟩ := octetString_good.lawful
  obtain ⟨f3, h3, _⟩ := objectId_good.lawful
  obtain ⟨f4, h4, _⟩ := bitString_good.lawful
  have h5 := explicit_lawful 0#8 h3 0xa0#8 (by decide) (by decide)
  have h6 := explicit_lawful 1#8 h4 0xa1#8 (by decide) (by decide)
  refine (struct_good _ _ (fun _ => rfl) (fun _ => rfl) (cons_lawful h1 (cons_lawful h2
    (cons_lawful h5 (last_lawful h6))))).congr ?_ ?_
  · intro v; simp [ecPrivateKey, seq, optional_eq]
  · intro v
    simp only [free, true_and, implies_true]
    cases v.publicKey <;> cases v.parameters <;> simp [optP, derOpt, tlv]

theorem good (k : Kind) : Good k.codec k.der k.valid := by
  cases k with
  | null => exact null_good
  | integer => exact integer_good
  | octetString => exact octetString_good
  | bitString => exact bitString_good
  | objectId => exact objectId_good
  | any => exact any_good
  | version => exact version_good
  | pkcs8Version => exact pkcs8Version_good
  | ecPrivateKeyVer => exact ecPrivateKeyVer_good
  | rsaPublicKey => exact rsaPublicKey_good
  | rsaPrivateKey => exact rsaPrivateKey_good
  | algorithmIdentifier => exact algorithmIdentifier_good
  | oneAsymmetricKey => exact oneAsymmetricKey_good
  | ecPrivateKey => exact ecPrivateKey_good
  | subjectPublicKeyInfo => exact subjectPublicKeyInfo_good
  | digestInfo => exact digestInfo_good
  | ecdsaSigValue => exact ecdsaSigValue_good

end Verif.Asn1
