import Verif.Model.TlsSign
import Verif.Spec.TlsScheme
import Verif.Props.RsaOps
import Verif.Props.Ecdsa
import Verif.Props.Ed25519Keys

/-!
C54: loading of signing keys, choice of the signature scheme, and the table of verification algorithms.
-/
namespace Verif.Props
open Verif Verif.TlsSign Verif.Spec.TlsScheme Verif.Asn1

/-- The assembly routines meet their contracts. -/
structure EnvOk (E : Env) : Prop where
  rsa : E.rsa.Ok
  p256 : E.p256.Ok Spec.Nist.p256.p Spec.Nist.p256.n
  p384 : E.p384.Ok Spec.Nist.p384.p Spec.Nist.p384.n
  ed : E.ed.Ok

/-! ### Meaning of the schemes -/

/-- RFC 8446, section 4.2.3. -/
def tls13 : Scheme → Option Alg
  | .RSA_PKCS1_SHA256 => some (.rsaPkcs1 .sha256)
  | .RSA_PKCS1_SHA384 => some (.rsaPkcs1 .sha384)
  | .RSA_PKCS1_SHA512 => some (.rsaPkcs1 .sha512)
  | .RSA_PSS_SHA256 => some (.rsaPss .sha256)
  | .RSA_PSS_SHA384 => some (.rsaPss .sha384)
  | .RSA_PSS_SHA512 => some (.rsaPss .sha512)
  | .ECDSA_NISTP256_SHA256 => some (.ecdsaP256 .sha256)
  | .ECDSA_NISTP384_SHA384 => some (.ecdsaP384 .sha384)
  | .ED25519 => some .ed25519
  | _ => none

/-- RFC 5246, section 7.4.1.4.1: the algorithms that a scheme admits before TLS 1.3, where ECDSA does not name a curve. -/
def tls12 (s : Scheme) (a : Alg) : Prop :=
  tls13 s = some a ∨ (s = .ECDSA_NISTP256_SHA256 ∧ a = .ecdsaP384 .sha256) ∨ (s = .ECDSA_NISTP384_SHA384 ∧ a = .ecdsaP256 .sha384)

/-- The kind of key that an algorithm needs. -/
def Fits : Key → Alg → Prop
  | .rsa _, .rsaPkcs1 _ | .rsa _, .rsaPss _ | .p256 _, .ecdsaP256 _ | .p384 _, .ecdsaP384 _ | .ed25519 _, .ed25519 => True
  | _, _ => False

/-- The scheme is one that a key can sign with. -/
def Compatible (key : Key) (s : Scheme) : Prop := ∃ a, tls13 s = some a ∧ Fits key a

/-- PSS before PKCS#1, then the longer hash. -/
def rank : Alg → Nat
  | .rsaPss h => 100 + h.len
  | .rsaPkcs1 h | .ecdsaP256 h | .ecdsaP384 h => h.len
  | .ed25519 => 0

/-- The key that a signer uses. -/
def keyOf : Signer → Key
  | .rsa k _ => .rsa k
  | .p256 d => .p256 d
  | .p384 d => .p384 d
  | .ed25519 k => .ed25519 k

/-! ### Choice of a scheme -/

/-- **C54** What is chosen was offered, suits the key, signs with that key, and no other suitable offer is preferred to it. -/
theorem C54_choose (schemes : List Scheme) (key : Key) (signer : Signer) (h : key.chooseScheme schemes = some signer) :
    signer.scheme ∈ schemes ∧ keyOf signer = key ∧ ∃ a, tls13 signer.scheme = some a ∧ Fits key a ∧
      ∀ s ∈ schemes, ∀ b, tls13 s = some b → Fits key b → rank b ≤ rank a := by
  cases key with
  | rsa k =>
    simp only [Key.chooseScheme, List.contains_iff_mem] at h
    split at h
    · cases h
      refine ⟨by assumption, rfl, _, rfl, trivial, fun s hs b hb hf => ?_⟩
      cases s <;> cases hb <;> first | decide | cases hf
    split at h
    · cases h
      refine ⟨by assumption, rfl, _, rfl, trivial, fun s hs b hb hf => ?_⟩
      cases s <;> cases hb <;> first | decide | contradiction | cases hf
    split at h
    · cases h
      refine ⟨by assumption, rfl, _, rfl, trivial, fun s hs b hb hf => ?_⟩
      cases s <;> cases hb <;> first | decide | contradiction | cases hf
    split at h
    · cases h
      refine ⟨by assumption, rfl, _, rfl, trivial, fun s hs b hb hf => ?_⟩
      cases s <;> cases hb <;> first | decide | contradiction | cases hf
    split at h
    · cases h
      refine ⟨by assumption, rfl, _, rfl, trivial, fun s hs b hb hf => ?_⟩
      cases s <;> cases hb <;> first | decide | contradiction | cases hf
    split at h
    · cases h
      refine ⟨by assumption, rfl, _, rfl, trivial, fun s hs b hb hf => ?_⟩
      cases s <;> cases hb <;> first | decide | contradiction | cases hf
    · cases h
  | p256 d =>
    simp only [Key.chooseScheme, List.contains_iff_mem] at h
    split at h
    · cases h
      refine ⟨by assumption, rfl, _, rfl, trivial, fun s hs b hb hf => ?_⟩
      cases s <;> cases hb <;> first | decide | cases hf
    · cases h
  | p384 d =>
    simp only [Key.chooseScheme, List.contains_iff_mem] at h
    split at h
    · cases h
      refine ⟨by assumption, rfl, _, rfl, trivial, fun s hs b hb hf => ?_⟩
      cases s <;> cases hb <;> first | decide | cases hf
    · cases h
  | ed25519 k =>
    simp only [Key.chooseScheme, List.contains_iff_mem] at h
    split at h
    · cases h
      refine ⟨by assumption, rfl, _, rfl, trivial, fun s hs b hb hf => ?_⟩
      cases s <;> cases hb <;> first | decide | cases hf
    · cases h

/-- **C54** Nothing is chosen only if nothing suitable was offered. -/
theorem C54_choose_none (schemes : List Scheme) (key : Key) :
    key.chooseScheme schemes = none ↔ ∀ s ∈ schemes, ¬Compatible key s := by
  constructor
  · rintro h s hs ⟨a, ha, hf⟩
    cases key <;> cases s <;> cases ha <;> first | cases hf | skip
    all_goals
      simp only [Key.chooseScheme, List.contains_iff_mem] at h
      repeat' split at h
      all_goals first | cases h | contradiction
  · intro h
    cases hc : key.chooseScheme schemes with
    | none => rfl
    | some signer =>
      obtain ⟨h1, -, a, h2, h3, -⟩ := C54_choose schemes key signer hc
      exact absurd ⟨a, h2, h3⟩ (h _ h1)

/-- **C54** The order in which the peer lists its schemes does not matter, nor does repetition. -/
theorem C54_choose_order (s1 s2 : List Scheme) (key : Key) (h : ∀ s, s ∈ s1 ↔ s ∈ s2) :
    key.chooseScheme s1 = key.chooseScheme s2 := by
  have hc : ∀ s, s1.contains s = s2.contains s := fun s => by
    rw [Bool.eq_iff_iff, List.contains_iff_mem, List.contains_iff_mem]; exact h s
  cases key <;> simp only [Key.chooseScheme, hc]

example (k : Rsa.PrivateKey) : Key.chooseScheme [.ED25519, .RSA_PKCS1_SHA512, .RSA_PSS_SHA256, .RSA_PSS_SHA384] (.rsa k) =
    some (.rsa k .RSA_PSS_SHA384) := rfl
example (k : Rsa.PrivateKey) : Key.chooseScheme [.ED25519, .ECDSA_NISTP256_SHA256, .RSA_PKCS1_SHA1] (.rsa k) = none := rfl
example (d : Ec.Scalar 6) : Key.chooseScheme [.ECDSA_NISTP256_SHA256, .ECDSA_NISTP384_SHA384] (.p384 d) = some (.p384 d) := rfl

/-! ### Loading of keys -/

theorem decode_other {b : Bytes} {a1 a2 : ObjectId} {p1 p2 : Option Any} {k : OneAsymmetricKey}
    (h : Pkcs8.decode b a1 p1 = .ok k) (hne : ¬(a1 = a2 ∧ p1 = p2)) : ∃ e, Pkcs8.decode b a2 p2 = .error (.err e) := by
  rw [Pkcs8.decode] at h ⊢
  cases hp : Pkcs8.liftAsn1 (oneAsymmetricKeyCodec.parse b) with
  | error f => rw [hp] at h; cases h
  | ok v =>
    rw [hp, Ecdsa.bind_ok] at h
    rw [Ecdsa.bind_ok]
    dsimp only at h ⊢
    by_cases h1 : Pkcs8.versionOk v.1 = false
    · rw [if_pos h1] at h; cases h
    rw [if_neg h1] at h ⊢
    by_cases h2 : v.1.privateKeyAlgorithm.algorithm ≠ a2
    · rw [if_pos h2]; exact ⟨_, rfl⟩
    rw [if_neg h2]
    by_cases h3 : v.1.privateKeyAlgorithm.parameters ≠ p2
    · rw [if_pos h3]; exact ⟨_, rfl⟩
    exfalso
    by_cases h4 : v.1.privateKeyAlgorithm.algorithm ≠ a1
    · rw [if_pos h4] at h; cases h
    rw [if_neg h4] at h
    by_cases h5 : v.1.privateKeyAlgorithm.parameters ≠ p1
    · rw [if_pos h5] at h; cases h
    simp only [ne_eq, Decidable.not_not] at h2 h3 h4 h5
    exact hne ⟨h4 ▸ h2, h5 ▸ h3⟩

section
open Verif.Spec.Nist Verif.Ecdsa Verif.Ec Verif.Spec.Der Verif.EcCard
variable {N : Nat} {D : Params} [Fact D.p.Prime] [Fact D.n.Prime] {S : Suite N} {curve : Bytes} {A : Ec.Asm N}

theorem fromSec1_total (h : IsSuite D S curve) (hA : A.Ok D.p D.n) (b : Bytes) : fromSec1Der S A b ≠ .error .panic := by
  rcases lift_parse .ecPrivateKey b with ⟨v, -, hder, hlen, -⟩ | ⟨-, f, e⟩
  · obtain ⟨ver, ⟨priv⟩, params, pub⟩ := v
    have hb : b = sec1Der priv (params.map (·.bytes)) (pub.map (·.octets)) := by
      rw [hder, ← sec1Der_eq]
      cases ver
      cases pub <;> rfl
    rw [hb, fromSec1_of h hA priv params _ (hb ▸ hlen)]
    intro hx
    split at hx
    · cases hx
    · rw [sec1Rest] at hx
      by_cases hr : 1 ≤ beNat priv ∧ beNat priv < D.n
      · obtain ⟨d, e1, e2, -⟩ := (C31_import h.nist hA priv).1 hr
        obtain ⟨x, y, -, e⟩ := C33_public_key h.nist hA d (by omega) (by omega)
        rw [e1] at hx
        cases hq : pub.map (·.octets) with
        | none => rw [hq] at hx; cases hx
        | some q =>
          rw [hq] at hx
          dsimp only at hx
          rw [e] at hx
          dsimp only at hx
          split at hx <;> cases hx
      · rw [(C31_import h.nist hA priv).2 (by omega)] at hx
        dsimp only at hx
        cases hx
  · have e : Pkcs8.liftAsn1 (ecPrivateKeyCodec.fromBytes b) = .error (.err (.Asn1Error f)) := e
    unfold fromSec1Der
    rw [e]
    intro hx; cases hx

theorem ecPkcs8_total (h : IsSuite D S curve) (hA : A.Ok D.p D.n) (b : Bytes) : fromPkcs8Der S A b ≠ .error .panic := by
  unfold fromPkcs8Der
  cases e : Pkcs8.decode b id_ecPublicKey (some (.ObjectId S.oid)) with
  | error f =>
    intro hx
    cases hx
    exact C08_total _ _ _ e
  | ok k => rw [Ecdsa.bind_ok]; exact fromSec1_total h hA _
end

theorem rsaPkcs8_total {A : Bignum.Asm} (hA : A.Ok) (b : Bytes) : Rsa.signingFromPkcs8 A b ≠ .error .panic := by
  unfold Rsa.signingFromPkcs8
  cases e : Pkcs8.decode b id_rsaEncryption (some (.Null ⟨⟩)) with
  | error f =>
    intro hx
    cases hx
    exact C08_total _ _ _ e
  | ok k =>
    rw [Ecdsa.bind_ok]
    rcases C15_import_private hA (Pkcs8.privateKey k) with ⟨k', v, -, -, -, -, e, -⟩ | ⟨-, err, e⟩
    · rw [e]; intro hx; cases hx
    · rw [e]; intro hx; cases hx

theorem edPkcs8_total {A : Ed25519.Asm} (hA : A.Ok) (b : Bytes) : Ed25519.SigningKey.fromPkcs8Der A b ≠ .error .panic := by
  unfold Ed25519.SigningKey.fromPkcs8Der
  cases e : Pkcs8.decode b id_ed25519 none with
  | error f =>
    intro hx
    cases hx
    exact C08_total _ _ _ e
  | ok k =>
    rw [Ecdsa.bind_ok]
    rcases Ecdsa.lift_parse .octetString (Pkcs8.privateKey k) with ⟨v, -, -, -, hp⟩ | ⟨-, f, hp⟩
    · have hp : Pkcs8.liftAsn1 (octetStringCodec.fromBytes (Pkcs8.privateKey k)) = .ok v := hp
      rw [hp, Ecdsa.bind_ok]
      by_cases hl : v.octets.length = 32
      · obtain ⟨key, e1, -⟩ := (C38_signing_key hA v.octets).2 hl
        rw [e1, Ecdsa.bind_ok]
        intro hx
        cases hq : Pkcs8.publicKey k with
        | none => rw [hq] at hx; cases hx
        | some q =>
          rw [hq, Ed25519.checkPublic] at hx
          split at hx <;> cases hx
      · rw [(C38_signing_key hA v.octets).1 hl]
        intro hx; cases hx
    · have hp : Pkcs8.liftAsn1 (octetStringCodec.fromBytes (Pkcs8.privateKey k)) = .error (.err (.Asn1Error f)) := hp
      rw [hp]
      intro hx; cases hx

theorem tryOr_ok {α β : Type} {r : GR α} {f : α → β} {next : TR β} (hp : r ≠ .error .panic) (b : β) :
    tryOr r f next = .ok b ↔ (∃ a, r = .ok a ∧ f a = b) ∨ ((∃ e, r = .error (.err e)) ∧ next = .ok b) := by
  rcases r with (e | _) | a
  · exact ⟨fun h => .inr ⟨⟨e, rfl⟩, h⟩, fun h => by
      rcases h with ⟨a, h, -⟩ | ⟨-, h⟩
      · cases h
      · exact h⟩
  · exact absurd rfl hp
  · constructor
    · intro h; exact .inl ⟨a, rfl, Except.ok.inj h⟩
    · rintro (⟨a', h, rfl⟩ | ⟨⟨e, h⟩, -⟩)
      · cases h; rfl
      · cases h

theorem tryOr_total {α β : Type} {r : GR α} {f : α → β} {next : TR β} (hp : r ≠ .error .panic) (hn : next ≠ .error .panic) :
    tryOr r f next ≠ .error .panic := by
  rcases r with (e | _) | a
  · exact hn
  · exact absurd rfl hp
  · intro h; cases h

theorem bind_not_ok {α β : Type} {r : GR α} {g : α → GR β} {b : β} (h : (r >>= g) = .ok b) : ∃ a, r = .ok a := by
  rcases r with e | a
  · cases h
  · exact ⟨a, rfl⟩

theorem bind_err {α β : Type} {r : GR α} {g : α → GR β} (h : ∃ e, r = .error (.err e)) : ∃ e, (r >>= g) = .error (.err e) := by
  obtain ⟨e, rfl⟩ := h
  exact ⟨e, rfl⟩

/-- **C54** A PKCS#8 document is loaded as the kind of key that its algorithm identifier names, exactly if the parser of that kind
takes it: the order of the four attempts does not matter.  Never a panic. -/
theorem C54_load_pkcs8 {E : Env} (hE : EnvOk E) (der : Bytes) (key : Key) :
    (loadPkcs8 E der = .ok key ↔ match key with
      | .rsa k => Rsa.signingFromPkcs8 E.rsa der = .ok k
      | .p256 d => Ecdsa.fromPkcs8Der Ecdsa.suiteP256 E.p256 der = .ok d
      | .p384 d => Ecdsa.fromPkcs8Der Ecdsa.suiteP384 E.p384 der = .ok d
      | .ed25519 k => Ed25519.SigningKey.fromPkcs8Der E.ed der = .ok k) ∧
    loadPkcs8 E der ≠ .error .panic := by
  have t1 := rsaPkcs8_total hE.rsa der
  have t2 := ecPkcs8_total IsSuite.p256 hE.p256 der
  have t3 := ecPkcs8_total IsSuite.p384 hE.p384 der
  have t4 := edPkcs8_total hE.ed der
  have n1 : id_rsaEncryption ≠ id_ecPublicKey := by decide
  have n2 : id_rsaEncryption ≠ id_ed25519 := by decide
  have n3 : id_ecPublicKey ≠ id_ed25519 := by decide
  have n4 : Ecdsa.suiteP256.oid ≠ Ecdsa.suiteP384.oid := by decide
  have ec1 : ∀ {d}, Ecdsa.fromPkcs8Der Ecdsa.suiteP256 E.p256 der = .ok d → ∃ e, Rsa.signingFromPkcs8 E.rsa der = .error (.err e) := by
    intro d h
    obtain ⟨k, hk⟩ := bind_not_ok h
    exact bind_err (decode_other hk (fun h => n1 h.1.symm))
  have ec2 : ∀ {d}, Ecdsa.fromPkcs8Der Ecdsa.suiteP384 E.p384 der = .ok d →
      (∃ e, Rsa.signingFromPkcs8 E.rsa der = .error (.err e)) ∧
      ∃ e, Ecdsa.fromPkcs8Der Ecdsa.suiteP256 E.p256 der = .error (.err e) := by
    intro d h
    obtain ⟨k, hk⟩ := bind_not_ok h
    exact ⟨bind_err (decode_other hk (fun h => n1 h.1.symm)), bind_err (decode_other hk (fun h => n4 (by injection h.2 with h; injection h with h; exact h.symm)))⟩
  have ed1 : ∀ {k}, Ed25519.SigningKey.fromPkcs8Der E.ed der = .ok k →
      (∃ e, Rsa.signingFromPkcs8 E.rsa der = .error (.err e)) ∧
      (∃ e, Ecdsa.fromPkcs8Der Ecdsa.suiteP256 E.p256 der = .error (.err e)) ∧
      ∃ e, Ecdsa.fromPkcs8Der Ecdsa.suiteP384 E.p384 der = .error (.err e) := by
    intro k h
    obtain ⟨k, hk⟩ := bind_not_ok h
    exact ⟨bind_err (decode_other hk (fun h => n2 h.1.symm)), bind_err (decode_other hk (fun h => n3 h.1.symm)),
      bind_err (decode_other hk (fun h => n3 h.1.symm))⟩
  refine ⟨?_, tryOr_total t1 (tryOr_total t2 (tryOr_total t3 (tryOr_total t4 (by intro h; cases h))))⟩
  rw [loadPkcs8, tryOr_ok t1, tryOr_ok t2, tryOr_ok t3, tryOr_ok t4]
  cases key with
  | rsa k =>
    constructor
    · rintro (⟨a, h, e⟩ | ⟨-, ⟨a, h, e⟩ | ⟨-, ⟨a, h, e⟩ | ⟨-, ⟨a, h, e⟩ | ⟨-, h⟩⟩⟩⟩) <;> first | cases e | cases h
      exact h
    · intro h; exact .inl ⟨_, h, rfl⟩
  | p256 d =>
    constructor
    · rintro (⟨a, h, e⟩ | ⟨-, ⟨a, h, e⟩ | ⟨-, ⟨a, h, e⟩ | ⟨-, ⟨a, h, e⟩ | ⟨-, h⟩⟩⟩⟩) <;> first | cases e | cases h
      exact h
    · intro h; exact .inr ⟨ec1 h, .inl ⟨_, h, rfl⟩⟩
  | p384 d =>
    constructor
    · rintro (⟨a, h, e⟩ | ⟨-, ⟨a, h, e⟩ | ⟨-, ⟨a, h, e⟩ | ⟨-, ⟨a, h, e⟩ | ⟨-, h⟩⟩⟩⟩) <;> first | cases e | cases h
      exact h
    · intro h; exact .inr ⟨(ec2 h).1, .inr ⟨(ec2 h).2, .inl ⟨_, h, rfl⟩⟩⟩
  | ed25519 k =>
    constructor
    · rintro (⟨a, h, e⟩ | ⟨-, ⟨a, h, e⟩ | ⟨-, ⟨a, h, e⟩ | ⟨-, ⟨a, h, e⟩ | ⟨-, h⟩⟩⟩⟩) <;> first | cases e | cases h
      exact h
    · intro h; exact .inr ⟨(ed1 h).1, .inr ⟨(ed1 h).2.1, .inr ⟨(ed1 h).2.2, .inl ⟨_, h, rfl⟩⟩⟩⟩

/-- **C54** A PKCS#1 document is an RSA key or an error. -/
theorem C54_load_pkcs1 {E : Env} (hE : EnvOk E) (der : Bytes) (key : Key) :
    (loadPrivateKey E (.Pkcs1 der) = .ok key ↔ ∃ k, key = .rsa k ∧ Rsa.signingFromPkcs1 E.rsa der = .ok k) ∧
    loadPrivateKey E (.Pkcs1 der) ≠ .error .panic := by
  show (loadPkcs1 E der = _ ↔ _) ∧ loadPkcs1 E der ≠ _
  rw [loadPkcs1]
  rcases C15_import_private hE.rsa der with ⟨k, v, -, -, -, -, e, -⟩ | ⟨-, err, e⟩
  · rw [e]
    refine ⟨⟨fun h => ⟨k, (Except.ok.inj h).symm, rfl⟩, ?_⟩, fun h => by cases h⟩
    rintro ⟨k', rfl, h⟩
    cases h; rfl
  · rw [e]
    refine ⟨⟨fun h => (by cases h), ?_⟩, fun h => by cases h⟩
    rintro ⟨k', rfl, h⟩
    cases h

/-- **C54** A SEC 1 document is a key of the first of the two curves whose parser takes it.  Never a panic. -/
theorem C54_load_sec1 {E : Env} (hE : EnvOk E) (der : Bytes) (key : Key) :
    (loadSec1 E der = .ok key ↔ match key with
      | .p256 d => Ecdsa.fromSec1Der Ecdsa.suiteP256 E.p256 der = .ok d
      | .p384 d => Ecdsa.fromSec1Der Ecdsa.suiteP384 E.p384 der = .ok d ∧ ∀ d', Ecdsa.fromSec1Der Ecdsa.suiteP256 E.p256 der ≠ .ok d'
      | _ => False) ∧
    loadSec1 E der ≠ .error .panic := by
  have t2 := fromSec1_total IsSuite.p256 hE.p256 der
  have t3 := fromSec1_total IsSuite.p384 hE.p384 der
  refine ⟨?_, tryOr_total t2 (tryOr_total t3 (by intro h; cases h))⟩
  rw [loadSec1, tryOr_ok t2, tryOr_ok t3]
  cases key with
  | rsa k =>
    refine ⟨?_, fun h => h.elim⟩
    rintro (⟨a, h, e⟩ | ⟨-, ⟨a, h, e⟩ | ⟨-, h⟩⟩) <;> first | cases e | cases h
  | ed25519 k =>
    refine ⟨?_, fun h => h.elim⟩
    rintro (⟨a, h, e⟩ | ⟨-, ⟨a, h, e⟩ | ⟨-, h⟩⟩) <;> first | cases e | cases h
  | p256 d =>
    constructor
    · rintro (⟨a, h, e⟩ | ⟨-, ⟨a, h, e⟩ | ⟨-, h⟩⟩) <;> first | cases e | cases h
      exact h
    · intro h; exact .inl ⟨_, h, rfl⟩
  | p384 d =>
    constructor
    · rintro (⟨a, h, e⟩ | ⟨⟨e', h'⟩, ⟨a, h, e⟩ | ⟨-, h⟩⟩) <;> first | cases e | cases h
      exact ⟨h, fun d' hd => by rw [h'] at hd; cases hd⟩
    · rintro ⟨h, hn⟩
      refine .inr ⟨?_, .inl ⟨_, h, rfl⟩⟩
      rcases hr : Ecdsa.fromSec1Der Ecdsa.suiteP256 E.p256 der with (e | _) | d'
      · exact ⟨e, rfl⟩
      · exact absurd hr t2
      · exact absurd hr (hn d')

section
open Verif.Spec.Der Verif.Spec.Nist Verif.EcCard Verif.Ecdsa

/-- **C54** A SEC 1 document that names its curve or carries the public key is not mistaken: a P-384 key is loaded as one. -/
theorem C54_load_sec1_p384 {E : Env} (hE : EnvOk E) (d : Ec.Scalar 6) (priv : Bytes) (params : Option ObjectId) (pub : Option Bytes)
    (h : fromSec1Der suiteP384 E.p384 (sec1Der priv (params.map (·.bytes)) pub) = .ok d) (hp : params ≠ none ∨ pub ≠ none) :
    loadSec1 E (sec1Der priv (params.map (·.bytes)) pub) = .ok (.p384 d) := by
  refine ((C54_load_sec1 hE _ _).1).2 ⟨h, fun d' h' => ?_⟩
  obtain ⟨-, -, -, -, hl, -⟩ := (C39_sec1_import IsSuite.p384 hE.p384 _ d).1 h
  rw [fromSec1_of IsSuite.p384 hE.p384 priv params pub hl] at h
  rw [fromSec1_of IsSuite.p256 hE.p256 priv params pub hl] at h'
  have hne : oidBytes 1 2 [840, 10045, 3, 1, 7] ≠ oidBytes 1 3 [132, 0, 34] := by decide +kernel
  generalize oidBytes 1 2 [840, 10045, 3, 1, 7] = c1 at *
  generalize oidBytes 1 3 [132, 0, 34] = c2 at *
  split at h
  · cases h
  split at h'
  · cases h'
  rename_i q1 q2
  cases params with
  | some o =>
    simp only [Option.map_some, ne_eq, reduceCtorEq, not_false_eq_true, true_and, Decidable.not_not, Option.some.injEq] at q1 q2
    exact hne (q2.symm.trans q1)
  | none =>
    cases pub with
    | none => simp at hp
    | some q =>
      have len : ∀ {N : Nat} {D : Params} [Fact D.p.Prime] [Fact D.n.Prime] {S : Suite N} {curve : Bytes} {A : Ec.Asm N}
          (_ : IsSuite D S curve) (_ : A.Ok D.p D.n) (d : Ec.Scalar N), sec1Rest S A priv (some q) = .ok d → q.length = 1 + 2 * (N * 8) := by
        intro N D _ _ S curve A hS hA d hr
        rw [sec1Rest] at hr
        by_cases hb : 1 ≤ beNat priv ∧ beNat priv < D.n
        · obtain ⟨d', e1, e2, -⟩ := (C31_import hS.nist hA priv).1 hb
          obtain ⟨x, y, -, e⟩ := C33_public_key hS.nist hA d' (by omega) (by omega)
          rw [e1] at hr
          dsimp only at hr
          rw [e] at hr
          dsimp only at hr
          split at hr
          · cases hr
          · rename_i hq
            simp only [ne_eq, Decidable.not_not] at hq
            rw [← hq, encodePoint_length]; omega
        · rw [(C31_import hS.nist hA priv).2 (by omega)] at hr
          cases hr
      have l1 := len IsSuite.p384 hE.p384 d h
      have l2 := len IsSuite.p256 hE.p256 d' h'
      omega

/-- **C54** A SEC 1 document without curve and public key does not say which curve it is for; it is taken as a P-256 key whenever
the number is in range for that curve, even if written with the 48 octets of a P-384 key. -/
theorem C54_load_sec1_bare {E : Env} (hE : EnvOk E) (priv : Bytes) (hl : priv.length ≤ 48) (h1 : 1 ≤ beNat priv)
    (h2 : beNat priv < p256.n) : ∃ d : Ec.Scalar 4, d.toNat = beNat priv ∧ loadSec1 E (sec1Der priv none none) = .ok (.p256 d) := by
  obtain ⟨d, e1, e2, -⟩ := (C31_import IsSuite.p256.nist hE.p256 priv).1 ⟨h1, h2⟩
  have hs := sec1Der_length (priv := priv) (params := none) (pub := none) (by omega) (by rintro o ho; cases ho) (by rintro o ho; cases ho)
  refine ⟨d, e2, ((C54_load_sec1 hE _ _).1).2 ?_⟩
  refine (C39_sec1_import IsSuite.p256 hE.p256 _ d).2 ⟨priv, none, none, rfl, ?_, .inl rfl, h1, h2, e2, by rintro p hp; cases hp⟩
  omega

end

/-! ### Verification -/

/-- What a verification routine makes of a public key, message and signature. -/
def Decides (v : Verifier) (a : Alg) (pk msg sig : Bytes) : Prop :=
  (v.verify pk msg sig = .ok () ↔ a.Valid pk msg sig) ∧ (v.verify pk msg sig = .ok () ∨ v.verify pk msg sig = .error .err)

/-- The RSA public keys for which the claim is made: within the limits of the library, and of a whole number of 64-bit words. -/
def Covered (pk : Bytes) : Alg → Prop
  | .rsaPkcs1 _ | .rsaPss _ => ∀ n e k, pk = Spec.Rsa.publicKeyDer n e → Octets n k → Rsa.PublicLimits n e ∧ k % 8 = 0
  | _ => True

/-- The verification routine does what the algorithm asks, for every covered public key, message below `2^61 - 64` bytes and signature. -/
def Implements (v : Verifier) (a : Alg) : Prop :=
  ∀ pk msg sig, Covered pk a → 64 + msg.length < 2 ^ 61 → Decides v a pk msg sig

theorem mapErr_unit {r : GR Unit} : TlsSign.mapErr r = .ok () ↔ r = .ok () := by
  rcases r with (e | _) | a
  · exact ⟨fun h => (by cases h), fun h => (by cases h)⟩
  · exact ⟨fun h => (by cases h), fun h => (by cases h)⟩
  · exact ⟨fun _ => rfl, fun _ => rfl⟩

theorem mapErr_fails {α : Type} {r : GR α} {e : GError} (h : r = .error (.err e)) : TlsSign.mapErr r = .error .err := by
  rw [h]; rfl

theorem publicKeyDer_inj {n e n' e' : Nat} (h : Spec.Rsa.publicKeyDer n e = Spec.Rsa.publicKeyDer n' e') (hl : Rsa.PublicLimits n e) :
    n = n' ∧ e = e' := by
  have hlen := Rsa.publicKeyDer_length hl
  have h1 := fromBytes_der .rsaPublicKey (Rsa.publicStruct n e) (Rsa.publicStruct_valid n e) (by rw [Rsa.publicStruct_der]; omega)
  have h2 := fromBytes_der .rsaPublicKey (Rsa.publicStruct n' e') (Rsa.publicStruct_valid n' e')
    (by rw [Rsa.publicStruct_der, ← h]; omega)
  rw [Rsa.publicStruct_der] at h1 h2
  rw [← h, h1] at h2
  have h3 := Except.ok.inj h2
  have a1 : Spec.Der.natOctets n = Spec.Der.natOctets n' := congrArg (fun x : RSAPublicKey => x.modulus.twosComplement) h3
  have a2 : Spec.Der.natOctets e = Spec.Der.natOctets e' := congrArg (fun x : RSAPublicKey => x.publicExponent.twosComplement) h3
  exact ⟨by rw [← Spec.Der.natOctets_beNat n, a1, Spec.Der.natOctets_beNat], by rw [← Spec.Der.natOctets_beNat e, a2, Spec.Der.natOctets_beNat]⟩

/-- The length that the library computes for a modulus. -/
theorem octets_len {k : Rsa.PublicKey} (hk : k.Ok) : Octets k.n.value k.modulusLenBytes := by
  have h1 := (Rsa.lenBytes_le k.n k.modulusLenBytes).1 (Nat.le_refl _)
  have hmin : 256 ≤ k.modulusLenBytes := hk.min
  have h2 : ¬ k.modulusLenBytes ≤ k.modulusLenBytes - 1 := by omega
  rw [show k.modulusLenBytes = k.n.lenBytes from rfl, Rsa.lenBytes_le] at h2
  refine ⟨?_, ?_⟩
  · rw [show (256 : Nat) = 2 ^ 8 from rfl, ← Nat.pow_mul]; exact Nat.le_of_not_lt h2
  · rw [show (256 : Nat) = 2 ^ 8 from rfl, ← Nat.pow_mul]; exact h1

theorem octets_unique {n k k' : Nat} (h : Octets n k) (h' : Octets n k') (hk : 1 ≤ k) (hk' : 1 ≤ k') : k = k' := by
  have a : k - 1 < k' := (Nat.pow_lt_pow_iff_right (by omega : 1 < 256)).1 (Nat.lt_of_le_of_lt h.1 h'.2)
  have b : k' - 1 < k := (Nat.pow_lt_pow_iff_right (by omega : 1 < 256)).1 (Nat.lt_of_le_of_lt h'.1 h.2)
  omega

/-- The hash functions of the library. -/
inductive IsFn : Hmac.HashFn → Hash → Prop
  | sha256 : IsFn Hmac.sha256 .sha256
  | sha384 : IsFn Hmac.sha384 .sha384
  | sha512 : IsFn Hmac.sha512 .sha512

theorem IsFn.isHash {F : Hmac.HashFn} {h : Hash} (hF : IsFn F h) : ∃ b l, IsHash F h.fn b h.len l ∧ 2 ^ 61 ≤ l := by
  cases hF
  · exact ⟨_, _, .sha256, by decide⟩
  · exact ⟨_, _, .sha384, by decide⟩
  · exact ⟨_, _, .sha512, by decide⟩

theorem IsFn.hashOf {F : Hmac.HashFn} {h : Hash} (hF : IsFn F h) (msg : Bytes) (hm : 64 + msg.length < 2 ^ 61) :
    Rsa.hashOf F msg = .ok (h.fn msg) ∧ (h.fn msg).length = h.len := by
  obtain ⟨b, l, h1, h2⟩ := hF.isHash
  obtain ⟨⟨C⟩, -, ho, -⟩ := isHash_correct h1
  rw [Rsa.hashOf, Pkcs1.hashParts_ok C [msg] (by simp; omega)]
  rw [← ho, ← C.outLen [msg].flatten]
  simp [Rsa.orPanic]

/-- A decision of an imported RSA key is a decision about the bytes it was imported from. -/
theorem rsa_implements {E : Env} (hE : EnvOk E) {id : AlgId} {f : Rsa.PublicKey → Bytes → Bytes → GR Unit} {a : Alg}
    (P : Nat → Nat → Nat → Bytes → Bytes → Prop)
    (ha : ∀ pk msg sig, a.Valid pk msg sig ↔ ∃ n e k, pk = Spec.Rsa.publicKeyDer n e ∧ Octets n k ∧ P n e k msg sig)
    (hcov : ∀ pk, Covered pk a → ∀ n e k, pk = Spec.Rsa.publicKeyDer n e → Octets n k → Rsa.PublicLimits n e ∧ k % 8 = 0)
    (hf : ∀ (k : Rsa.PublicKey) msg sig, k.Ok → Rsa.Canon k.n → k.modulusLenBytes % 8 = 0 → 64 + msg.length < 2 ^ 61 →
      (f k sig msg = .ok () ↔ P k.n.value k.e.toNat k.modulusLenBytes msg sig) ∧
      (f k sig msg = .ok () ∨ f k sig msg = .error (.err .BadSignature))) : Implements (rsaVerify E id f) a := by
  intro pk msg sig hc hm
  have hv : (rsaVerify E id f).verify pk msg sig = TlsSign.mapErr (do let pk ← Rsa.verifyingFromPkcs1 E.rsa pk; f pk sig msg) := rfl
  rw [Decides, hv, mapErr_unit, ha]
  rcases C15_import_public hE.rsa pk with ⟨K, n, e, rfl, hl, hi, hok, hcan, hn, he⟩ | ⟨hno, err, hi⟩
  · rw [hi, Ecdsa.bind_ok]
    have hoct := octets_len hok
    have h8 := (hcov _ hc n e K.modulusLenBytes rfl (hn ▸ hoct)).2
    obtain ⟨f1, f2⟩ := hf K msg sig hok hcan h8 hm
    rw [f1]
    refine ⟨⟨fun h => ⟨n, e, _, rfl, hn ▸ hoct, by rw [← hn, ← he]; exact h⟩, ?_⟩, ?_⟩
    · rintro ⟨n', e', k', h1, h2, h3⟩
      obtain ⟨rfl, rfl⟩ := publicKeyDer_inj h1 hl
      rw [hn, he]
      have hmin : 256 ≤ K.modulusLenBytes := hok.min
      have hk' : 1 ≤ k' := by
        rcases Nat.eq_zero_or_pos k' with h0 | h0
        · subst h0
          have h3 : 0 < n := Nat.lt_of_lt_of_le (Nat.two_pow_pos _) hl.min
          have h4 : n < 1 := h2.2
          omega
        · exact h0
      have hoct' : Octets n K.modulusLenBytes := hn ▸ hoct
      rwa [octets_unique hoct' h2 (by omega) hk']
    · rcases f2 with f2 | f2
      · exact .inl (f1.1 f2)
      · exact .inr (mapErr_fails f2)
  · rw [hi]
    refine ⟨⟨fun h => (by cases h), ?_⟩, .inr rfl⟩
    rintro ⟨n, e, k, h1, h2, -⟩
    exact absurd ⟨n, e, h1, (hcov _ hc n e k h1 h2).1⟩ hno

theorem rsaPkcs1_implements {E : Env} (hE : EnvOk E) {id : AlgId} {F : Hmac.HashFn} {h : Hash} (hF : IsFn F h) {di : Bytes}
    (hd : IsDigestInfo h.len di h.arcs) : Implements (rsaVerify E id (Rsa.verifyPkcs1 E.rsa F di)) (.rsaPkcs1 h) := by
  refine rsa_implements hE (fun n e k msg sig => beNat sig < n ∧
      Spec.Pkcs1.emsaPkcs1 k (Spec.Pkcs1.digestInfo h.arcs (h.fn msg)) = some (toBE k (beNat sig ^ e % n)))
    (fun _ _ _ => Iff.rfl) (fun _ h => h) ?_
  intro K msg sig hok hcan h8 hm
  obtain ⟨h1, h2⟩ := hF.hashOf msg hm
  rw [Rsa.verifyPkcs1, h1, Ecdsa.bind_ok]
  obtain ⟨v1, v2⟩ := C09_verify_partial hE.rsa hok hcan h8 hd (h.fn msg) h2 sig
  refine ⟨v1, ?_⟩
  rcases v2 with v2 | v2 | v2
  · exact .inl v2
  · exact .inr v2
  · exfalso
    have hmin : 256 ≤ K.modulusLenBytes := hok.min
    have hdi : di.length + h.len ≤ 128 := by cases hF <;> cases hd <;> decide
    rw [← C09_encode hd _ _ h2, Pkcs1.encodePkcs1Sig] at v2
    simp only at v2
    rw [if_neg (by omega)] at v2
    cases v2

theorem rsaPss_implements {E : Env} (hE : EnvOk E) {id : AlgId} {F : Hmac.HashFn} {h : Hash} (hF : IsFn F h) :
    Implements (rsaVerify E id (Rsa.verifyPss E.rsa F)) (.rsaPss h) := by
  refine rsa_implements hE (fun n e k msg sig => sig.length ≤ k ∧ beNat sig < n ∧
      ∃ salt, salt.length = h.len ∧ toBE k (beNat sig ^ e % n) = Spec.Pkcs1.emsaPss h.fn h.len (8 * k - 1) (h.fn msg) salt)
    (fun _ _ _ => Iff.rfl) (fun _ h => h) ?_
  intro K msg sig hok hcan h8 hm
  obtain ⟨b, l, h1, h2⟩ := hF.isHash
  exact C10_verify_signature_partial hE.rsa hok hcan h8 h1 sig msg (by omega)

section
open Verif.Spec.Nist Verif.Ecdsa Verif.Ec Verif.Spec.Der Verif.EcCard
variable {N : Nat} {D : Params} [Fact D.p.Prime] [Fact D.n.Prime] {C : Curve N} {A : Ec.Asm N}

omit [Fact D.n.Prime] in
theorem at_point {P Q : D.Pt} {x y : Nat} (h : D.At P x y) (h' : D.At Q x y) : P = Q := by
  obtain ⟨-, -, a, ha⟩ := h
  obtain ⟨-, -, b, hb⟩ := h'
  rw [ha, hb]

theorem ecdsa_decides (h : Nist D C) (hA : A.Ok D.p D.n) {F : Hmac.HashFn} {hh : Hash} (hF : IsFn F hh) (pk msg sig : Bytes)
    (hm : 64 + msg.length < 2 ^ 61) :
    let r := TlsSign.mapErr (do
      let K ← Ec.PublicKey.fromX962Uncompressed C A pk
      Ecdsa.verifyAsn1 C A F K [msg] sig)
    (r = .ok () ↔ ∃ xb yb, ∃ Q : D.Pt, ∃ r s, pk = 0x04#8 :: (xb ++ yb) ∧ xb.length = N * 8 ∧ yb.length = N * 8 ∧
      D.OnCurve (beNat xb) (beNat yb) ∧ D.At Q (beNat xb % D.p) (beNat yb % D.p) ∧
      sig = seq [natInt r, natInt s] ∧ D.Verifies Q (hashInt (N * 8) (hh.fn msg)) r s) ∧ (r = .ok () ∨ r = .error .err) := by
  dsimp only
  obtain ⟨b, l, hF1, hF2⟩ := hF.isHash
  have hml : [msg].flatten.length < l := by simp; omega
  rw [mapErr_unit]
  cases e : Ec.PublicKey.fromX962Uncompressed C A pk with
  | error f =>
    have hf := C35_errors h hA pk f e
    subst hf
    refine ⟨⟨fun h => (by cases h), ?_⟩, .inr rfl⟩
    rintro ⟨xb, yb, Q, r, s, h1, h2, h3, h4, -⟩
    obtain ⟨K, hK⟩ := (C35_accepts h hA pk).2 ⟨xb, yb, h1, h2, h3, h4⟩
    rw [e] at hK; cases hK
  | ok K =>
    rw [bind_ok]
    obtain ⟨xb, yb, rfl, hx, hy, hon⟩ := (C35_accepts h hA pk).1 ⟨K, e⟩
    obtain ⟨Q, hQ, hK, -⟩ := C35_meaning h hA xb yb hx hy K e
    obtain ⟨v1, v2⟩ := C07_verify_asn1 h hA hF1 Q K hK [msg] hml sig
    have fixed : ∀ r s, r < 256 ^ (N * 8) → s < 256 ^ (N * 8) →
        (verify C A F K [msg] (toBE (N * 8) r ++ toBE (N * 8) s) = .ok () ↔ D.Verifies Q (hashInt (N * 8) (hh.fn msg)) r s) := by
      intro r s hr hs
      have := ((C34_verify h hA hF1 Q K hK [msg] hml (toBE (N * 8) r ++ toBE (N * 8) s)).2 _ _ rfl (toBE_length _ _) (toBE_length _ _)).1
      rw [beNat_toBE, beNat_toBE, Nat.mod_eq_of_lt hr, Nat.mod_eq_of_lt hs] at this
      simpa using this
    refine ⟨⟨fun hv => ?_, ?_⟩, ?_⟩
    · obtain ⟨r, s, s1, s2, s3, s4⟩ := v1.1 hv
      exact ⟨xb, yb, Q, r, s, rfl, hx, hy, hon, hQ, s1, (fixed r s s2 s3).1 s4⟩
    · rintro ⟨xb', yb', Q', r, s, h1, h2, h3, h4, h5, h6, h7⟩
      have h1' := (List.cons.inj h1).2
      obtain ⟨rfl, rfl⟩ := List.append_inj h1' (hx.trans h2.symm)
      have hlt := h.ok.const.ord.lt
      have hQQ : Q' = Q := at_point h5 hQ
      subst hQQ
      have hr : r < 256 ^ (N * 8) := by rw [pow256', show 8 * (N * 8) = 64 * N by omega]; have := h7.2.1; omega
      have hs : s < 256 ^ (N * 8) := by rw [pow256', show 8 * (N * 8) = 64 * N by omega]; have := h7.2.2.2.1; omega
      exact v1.2 ⟨r, s, h6, hr, hs, (fixed r s hr hs).2 h7⟩
    · rcases v2 with v2 | v2
      · exact .inl (by rw [v2])
      · exact .inr (mapErr_fails v2)
end

theorem p256_implements {E : Env} (hE : EnvOk E) {id : AlgId} {F : Hmac.HashFn} {h : Hash} (hF : IsFn F h) :
    Implements (p256Verify E id F) (.ecdsaP256 h) :=
  fun pk msg sig _ hm => ecdsa_decides Nist.p256 hE.p256 hF pk msg sig hm

theorem p384_implements {E : Env} (hE : EnvOk E) {id : AlgId} {F : Hmac.HashFn} {h : Hash} (hF : IsFn F h) :
    Implements (p384Verify E id F) (.ecdsaP384 h) :=
  fun pk msg sig _ hm => ecdsa_decides Nist.p384 hE.p384 hF pk msg sig hm

theorem ed25519_implements {E : Env} (hE : EnvOk E) : Implements (ed25519Verify E) .ed25519 := by
  intro pk msg sig _ hm
  have hv : (ed25519Verify E).verify pk msg sig =
    TlsSign.mapErr (do let pk ← Ed25519.VerifyingKey.fromBytes E.ed pk; pk.verify E.ed sig msg) := rfl
  rw [Decides, hv, mapErr_unit]
  show (_ ↔ Spec.Ed25519.Valid true pk msg sig) ∧ _
  obtain ⟨k1, k2, k3⟩ := C38_verifying_key hE.ed pk
  by_cases hQ : ∃ Q, Spec.Ed25519.Decodes pk Q
  · obtain ⟨Q, hQ⟩ := hQ
    obtain ⟨key, e, -⟩ := k3 Q hQ
    rw [e, Ecdsa.bind_ok]
    obtain ⟨v1, v2⟩ := C38_verify hE.ed pk key e sig msg (by omega)
    refine ⟨v1, ?_⟩
    rcases v2 with v2 | v2
    · exact .inl v2
    · exact .inr (mapErr_fails v2)
  · have hbad : ¬Spec.Ed25519.Valid true pk msg sig := by
      rintro ⟨-, -, Q, -, hd, -⟩
      exact hQ ⟨Q, hd⟩
    have hf : ∃ e, Ed25519.VerifyingKey.fromBytes E.ed pk = .error (.err e) := by
      by_cases hl : pk.length = 32
      · exact ⟨_, k2 hl (fun Q h => hQ ⟨Q, h⟩)⟩
      · exact ⟨_, k1 hl⟩
    obtain ⟨e, hf⟩ := hf
    rw [hf]
    exact ⟨⟨fun h => (by cases h), fun h => absurd h hbad⟩, .inr rfl⟩

/-! ### The tables -/

/-- The pair of algorithm identifiers that a certificate carries for each algorithm (RFC 4055, 5480, 8410). -/
def idsOf : Alg → AlgId × AlgId
  | .rsaPkcs1 .sha256 => (.RSA_ENCRYPTION, .RSA_PKCS1_SHA256)
  | .rsaPkcs1 .sha384 => (.RSA_ENCRYPTION, .RSA_PKCS1_SHA384)
  | .rsaPkcs1 .sha512 => (.RSA_ENCRYPTION, .RSA_PKCS1_SHA512)
  | .rsaPss .sha256 => (.RSA_ENCRYPTION, .RSA_PSS_SHA256)
  | .rsaPss .sha384 => (.RSA_ENCRYPTION, .RSA_PSS_SHA384)
  | .rsaPss .sha512 => (.RSA_ENCRYPTION, .RSA_PSS_SHA512)
  | .ecdsaP256 .sha256 => (.ECDSA_P256, .ECDSA_SHA256)
  | .ecdsaP256 .sha384 => (.ECDSA_P256, .ECDSA_SHA384)
  | .ecdsaP256 .sha512 => (.ECDSA_P256, .ECDSA_SHA512)
  | .ecdsaP384 .sha256 => (.ECDSA_P384, .ECDSA_SHA256)
  | .ecdsaP384 .sha384 => (.ECDSA_P384, .ECDSA_SHA384)
  | .ecdsaP384 .sha512 => (.ECDSA_P384, .ECDSA_SHA512)
  | .ed25519 => (.ED25519, .ED25519)

/-- **C54** Every verification algorithm does what its two algorithm identifiers say, and every algorithm is there.  Partial: the RSA
public keys are those of `Covered`. -/
theorem C54_all_partial {E : Env} (hE : EnvOk E) :
    (∀ v ∈ allAlgorithms E, ∃ a, idsOf a = (v.publicKeyAlg, v.signatureAlg) ∧ Implements v a) ∧
    (∀ a, ∃ v ∈ allAlgorithms E, (v.publicKeyAlg, v.signatureAlg) = idsOf a) := by
  constructor
  · intro v hv
    simp only [allAlgorithms, List.mem_cons, List.not_mem_nil, or_false] at hv
    rcases hv with rfl | rfl | rfl | rfl | rfl | rfl | rfl | rfl | rfl | rfl | rfl | rfl | rfl
    · exact ⟨.ecdsaP256 .sha512, rfl, p256_implements hE .sha512⟩
    · exact ⟨.ecdsaP256 .sha384, rfl, p256_implements hE .sha384⟩
    · exact ⟨.ecdsaP256 .sha256, rfl, p256_implements hE .sha256⟩
    · exact ⟨.ecdsaP384 .sha512, rfl, p384_implements hE .sha512⟩
    · exact ⟨.ecdsaP384 .sha384, rfl, p384_implements hE .sha384⟩
    · exact ⟨.ecdsaP384 .sha256, rfl, p384_implements hE .sha256⟩
    · exact ⟨.ed25519, rfl, ed25519_implements hE⟩
    · exact ⟨.rsaPss .sha512, rfl, rsaPss_implements hE .sha512⟩
    · exact ⟨.rsaPss .sha384, rfl, rsaPss_implements hE .sha384⟩
    · exact ⟨.rsaPss .sha256, rfl, rsaPss_implements hE .sha256⟩
    · exact ⟨.rsaPkcs1 .sha512, rfl, rsaPkcs1_implements hE .sha512 .sha512⟩
    · exact ⟨.rsaPkcs1 .sha384, rfl, rsaPkcs1_implements hE .sha384 .sha384⟩
    · exact ⟨.rsaPkcs1 .sha256, rfl, rsaPkcs1_implements hE .sha256 .sha256⟩
  · intro a
    have hl : idsOf a ∈ (allAlgorithms E).map (fun v => (v.publicKeyAlg, v.signatureAlg)) := by
      show idsOf a ∈ ([(.ECDSA_P256, .ECDSA_SHA512), (.ECDSA_P256, .ECDSA_SHA384), (.ECDSA_P256, .ECDSA_SHA256),
        (.ECDSA_P384, .ECDSA_SHA512), (.ECDSA_P384, .ECDSA_SHA384), (.ECDSA_P384, .ECDSA_SHA256), (.ED25519, .ED25519),
        (.RSA_ENCRYPTION, .RSA_PSS_SHA512), (.RSA_ENCRYPTION, .RSA_PSS_SHA384), (.RSA_ENCRYPTION, .RSA_PSS_SHA256),
        (.RSA_ENCRYPTION, .RSA_PKCS1_SHA512), (.RSA_ENCRYPTION, .RSA_PKCS1_SHA384), (.RSA_ENCRYPTION, .RSA_PKCS1_SHA256)] :
          List (AlgId × AlgId))
      rcases a with h | h | h | h | _ <;> first | (cases h <;> decide) | decide
    obtain ⟨v, h1, h2⟩ := List.mem_map.1 hl
    exact ⟨v, h1, h2⟩

/-- The algorithm of the identifiers is the only one. -/
theorem C54_ids (a b : Alg) (h : idsOf a = idsOf b) : a = b := by
  rcases a with x | x | x | x | _ <;> rcases b with y | y | y | y | _ <;> (try cases x) <;> (try cases y) <;> first | rfl | cases h

/-- **C54** The table from schemes: the first algorithm of an entry is the one TLS 1.3 gives the scheme, every further one is
admitted before TLS 1.3 (the same hash, the other curve), and all are among the algorithms of the provider.  Partial: the RSA
public keys are those of `Covered`. -/
theorem C54_mapping_partial {E : Env} (hE : EnvOk E) (s : Scheme) (vs : List Verifier) (h : (s, vs) ∈ mapping E) :
    (∃ a v rest, tls13 s = some a ∧ vs = v :: rest ∧ Implements v a) ∧
    ∀ v ∈ vs, v ∈ allAlgorithms E ∧ ∃ a, tls12 s a ∧ Implements v a := by
  simp only [mapping, List.mem_cons, List.not_mem_nil, or_false, Prod.mk.injEq] at h
  rcases h with ⟨rfl, rfl⟩ | ⟨rfl, rfl⟩ | ⟨rfl, rfl⟩ | ⟨rfl, rfl⟩ | ⟨rfl, rfl⟩ | ⟨rfl, rfl⟩ | ⟨rfl, rfl⟩ | ⟨rfl, rfl⟩ | ⟨rfl, rfl⟩
  · refine ⟨⟨_, _, _, rfl, rfl, p256_implements hE .sha256⟩, fun v hv => ?_⟩
    simp only [List.mem_cons, List.not_mem_nil, or_false] at hv
    rcases hv with rfl | rfl
    · exact ⟨by simp [allAlgorithms], _, .inl rfl, p256_implements hE .sha256⟩
    · exact ⟨by simp [allAlgorithms], _, .inr (.inl ⟨rfl, rfl⟩), p384_implements hE .sha256⟩
  · refine ⟨⟨_, _, _, rfl, rfl, p384_implements hE .sha384⟩, fun v hv => ?_⟩
    simp only [List.mem_cons, List.not_mem_nil, or_false] at hv
    rcases hv with rfl | rfl
    · exact ⟨by simp [allAlgorithms], _, .inl rfl, p384_implements hE .sha384⟩
    · exact ⟨by simp [allAlgorithms], _, .inr (.inr ⟨rfl, rfl⟩), p256_implements hE .sha384⟩
  · refine ⟨⟨_, _, _, rfl, rfl, ed25519_implements hE⟩, fun v hv => ?_⟩
    obtain rfl := List.mem_singleton.1 hv
    exact ⟨by simp [allAlgorithms], _, .inl rfl, ed25519_implements hE⟩
  · refine ⟨⟨_, _, _, rfl, rfl, rsaPss_implements hE .sha512⟩, fun v hv => ?_⟩
    obtain rfl := List.mem_singleton.1 hv
    exact ⟨by simp [allAlgorithms], _, .inl rfl, rsaPss_implements hE .sha512⟩
  · refine ⟨⟨_, _, _, rfl, rfl, rsaPss_implements hE .sha384⟩, fun v hv => ?_⟩
    obtain rfl := List.mem_singleton.1 hv
    exact ⟨by simp [allAlgorithms], _, .inl rfl, rsaPss_implements hE .sha384⟩
  · refine ⟨⟨_, _, _, rfl, rfl, rsaPss_implements hE .sha256⟩, fun v hv => ?_⟩
    obtain rfl := List.mem_singleton.1 hv
    exact ⟨by simp [allAlgorithms], _, .inl rfl, rsaPss_implements hE .sha256⟩
  · refine ⟨⟨_, _, _, rfl, rfl, rsaPkcs1_implements hE .sha512 .sha512⟩, fun v hv => ?_⟩
    obtain rfl := List.mem_singleton.1 hv
    exact ⟨by simp [allAlgorithms], _, .inl rfl, rsaPkcs1_implements hE .sha512 .sha512⟩
  · refine ⟨⟨_, _, _, rfl, rfl, rsaPkcs1_implements hE .sha384 .sha384⟩, fun v hv => ?_⟩
    obtain rfl := List.mem_singleton.1 hv
    exact ⟨by simp [allAlgorithms], _, .inl rfl, rsaPkcs1_implements hE .sha384 .sha384⟩
  · refine ⟨⟨_, _, _, rfl, rfl, rsaPkcs1_implements hE .sha256 .sha256⟩, fun v hv => ?_⟩
    obtain rfl := List.mem_singleton.1 hv
    exact ⟨by simp [allAlgorithms], _, .inl rfl, rsaPkcs1_implements hE .sha256 .sha256⟩

/-- **C54** Every scheme with a meaning, hence every scheme that a key may choose, has exactly one entry. -/
theorem C54_mapping_complete (E : Env) (s : Scheme) :
    (tls13 s ≠ none ↔ ∃ vs, (s, vs) ∈ mapping E) ∧ ((mapping E).map (·.1)).Nodup := by
  constructor
  · constructor
    · intro h
      cases s <;> first | exact absurd rfl h | exact ⟨_, by simp only [mapping, List.mem_cons, Prod.mk.injEq, true_and]; simp; rfl⟩
    · rintro ⟨vs, h⟩
      simp only [mapping, List.mem_cons, List.not_mem_nil, or_false, Prod.mk.injEq] at h
      rcases h with ⟨rfl, rfl⟩ | ⟨rfl, rfl⟩ | ⟨rfl, rfl⟩ | ⟨rfl, rfl⟩ | ⟨rfl, rfl⟩ | ⟨rfl, rfl⟩ | ⟨rfl, rfl⟩ | ⟨rfl, rfl⟩ | ⟨rfl, rfl⟩ <;>
        exact fun h => (by cases h)
  · show ([.ECDSA_NISTP256_SHA256, .ECDSA_NISTP384_SHA384, .ED25519, .RSA_PSS_SHA512, .RSA_PSS_SHA384, .RSA_PSS_SHA256,
      .RSA_PKCS1_SHA512, .RSA_PKCS1_SHA384, .RSA_PKCS1_SHA256] : List Scheme).Nodup
    decide

/-- **C54** RSA public keys that are not DER, or are outside the limits of the library, are refused by every RSA algorithm. -/
theorem C54_rsa_keys {E : Env} (hE : EnvOk E) (v : Verifier) (hv : v ∈ allAlgorithms E) (hr : v.publicKeyAlg = .RSA_ENCRYPTION)
    (pk msg sig : Bytes) (h : ¬∃ n e, pk = Spec.Rsa.publicKeyDer n e ∧ Rsa.PublicLimits n e) : v.verify pk msg sig = .error .err := by
  have key : ∀ id f, (rsaVerify E id f).verify pk msg sig = .error .err := by
    intro id f
    rcases C15_import_public hE.rsa pk with ⟨K, n, e, h1, h2, -⟩ | ⟨-, err, hi⟩
    · exact absurd ⟨n, e, h1, h2⟩ h
    · show TlsSign.mapErr (do let pk ← Rsa.verifyingFromPkcs1 E.rsa pk; f pk sig msg) = _
      rw [hi]; rfl
  simp only [allAlgorithms, List.mem_cons, List.not_mem_nil, or_false] at hv
  rcases hv with rfl | rfl | rfl | rfl | rfl | rfl | rfl | rfl | rfl | rfl | rfl | rfl | rfl
  all_goals first | (cases hr; done) | exact key _ _

end Verif.Props
