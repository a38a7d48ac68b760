import Verif.Proof.Ed25519
import Verif.Proof.EcdsaDer

/-!
C38 and the Ed25519 part of C39: signatures and key containers.
-/
namespace Verif.Props
open Verif Verif.Ec Verif.Ed25519 Verif.Ed25519Group Verif.Asn1 Verif.Spec.Der
open Verif.Ecdsa (bind_ok lift_encode lift_parse lift_der)

variable {A : Ed25519.Asm}

/-! ### C38: keys -/

theorem pt_ext {P P' : Pt} {Q : Spec.Ed25519.Point} (h : P.Is Q) (h' : P'.Is Q) : P = P' := by
  obtain ⟨a, b⟩ := P
  obtain ⟨a', b'⟩ := P'
  obtain ⟨f1, f2⟩ := h
  obtain ⟨g1, g2⟩ := h'
  dsimp only at f1 f2 g1 g2
  rw [BitVec.eq_of_toNat_eq (f1.trans g1.symm), BitVec.eq_of_toNat_eq (f2.trans g2.symm)]

/-- A private key: 32 bytes are a seed, from which the public key of RFC 8032, 5.1.5 is derived; that public key can be
imported, and gives the same verifying key. -/
theorem C38_signing_key (hA : A.Ok) (seed : Bytes) :
    (seed.length ≠ 32 → SigningKey.fromBytes A seed = .error (.err .WrongLength)) ∧
    (seed.length = 32 → ∃ key, SigningKey.fromBytes A seed = .ok key ∧ key.asSeed = seed ∧
      key.publicKey.asBytes = Spec.Ed25519.publicKey seed ∧
      VerifyingKey.fromBytes A (Spec.Ed25519.publicKey seed) = .ok key.publicKey) := by
  constructor
  · intro h
    rw [SigningKey.fromBytes, if_neg h]
  · intro h
    rw [SigningKey.fromBytes, if_pos h, fromSeed, hashParts_eq, if_pos (by simp; omega)]
    have e1 : [seed].flatten = seed := by simp
    have hl := sha512_length seed
    have hs : (clampFromLeBytes ((Spec.Sha2.sha512 seed).take 32)).toNat = Spec.Ed25519.secretScalar seed := by
      rw [clamp_eq (by rw [List.length_take, hl]; rfl)]; rfl
    rw [e1, hashed, bind_ok]
    have hpt := hA.scalarmulbase (clampFromLeBytes ((Spec.Sha2.sha512 seed).take 32))
    rw [hs] at hpt
    refine ⟨_, rfl, rfl, compress_eq hpt, ?_⟩
    have hdec : Spec.Ed25519.Decodes (Spec.Ed25519.publicKey seed) (Spec.Ed25519.mul (Spec.Ed25519.secretScalar seed) Spec.Ed25519.B) :=
      ⟨mul_B_on _, rfl⟩
    obtain ⟨d1, d2⟩ := hA.decode_ok _ _ hdec
    rw [VerifyingKey.fromBytes, if_pos (show (Spec.Ed25519.publicKey seed).length = 32 from encode_length _), decompressFrom, if_pos d1, bind_ok]
    dsimp only [SigningKey.publicKey]
    rw [compress_eq hpt]
    congr 2
    exact pt_ext d2 hpt

/-- A public key: 32 bytes that encode a point of the curve, in the one way RFC 8032, 5.1.2 encodes it. -/
theorem C38_verifying_key (hA : A.Ok) (pk : Bytes) :
    (pk.length ≠ 32 → VerifyingKey.fromBytes A pk = .error (.err .WrongLength)) ∧
    (pk.length = 32 → (∀ Q, ¬Spec.Ed25519.Decodes pk Q) → VerifyingKey.fromBytes A pk = .error (.err .NotOnCurve)) ∧
    (∀ Q, Spec.Ed25519.Decodes pk Q → ∃ key, VerifyingKey.fromBytes A pk = .ok key ∧ key.asBytes = pk) := by
  refine ⟨fun h => by rw [VerifyingKey.fromBytes, if_neg h], fun h hn => ?_, fun Q hQ => ?_⟩
  · rw [VerifyingKey.fromBytes, if_pos h, decompressFrom, if_neg (by rw [hA.decode_fail pk h hn]; decide)]
    rfl
  · have hl : pk.length = 32 := by rw [← hQ.2]; exact encode_length _
    rw [VerifyingKey.fromBytes, if_pos hl, decompressFrom, if_pos (hA.decode_ok pk Q hQ).1]
    exact ⟨_, rfl, rfl⟩

/-- What is known of an imported key. -/
theorem key_of (hA : A.Ok) {pk : Bytes} {key : VerifyingKey} (h : VerifyingKey.fromBytes A pk = .ok key) :
    pk.length = 32 ∧ key.bytes = pk ∧ ∃ Q, Spec.Ed25519.Decodes pk Q ∧ key.point.Is Q := by
  by_cases hl : pk.length = 32
  · rw [VerifyingKey.fromBytes, if_pos hl, decompressFrom] at h
    by_cases hd : (A.decode pk).2 = true
    · rw [if_pos hd, bind_ok] at h
      injection h with h
      by_cases hq : ∃ Q, Spec.Ed25519.Decodes pk Q
      · obtain ⟨Q, hQ⟩ := hq
        exact ⟨hl, by rw [← h], Q, hQ, by rw [← h]; exact (hA.decode_ok pk Q hQ).2⟩
      · have := hA.decode_fail pk hl (fun Q hQ => hq ⟨Q, hQ⟩)
        rw [this] at hd; cases hd
    · rw [if_neg hd] at h; cases h
  · rw [VerifyingKey.fromBytes, if_neg hl] at h; cases h

/-- A generated key is the one of the 32 bytes the random source gave; only a failing source makes generation fail. -/
theorem C38_generate (hA : A.Ok) (rng : RandomSource) (hr : rng.Fills) (i : Nat) :
    (∀ seed, rng i 32 = .ok seed → ∃ key, SigningKey.generate A rng i = .ok key ∧ SigningKey.fromBytes A seed = .ok key) ∧
    (∀ e, rng i 32 = .error e → SigningKey.generate A rng i = .error (.err e)) := by
  constructor
  · intro seed h
    have hl := hr i 32 seed h
    obtain ⟨key, e, -⟩ := (C38_signing_key hA seed).2 hl
    refine ⟨key, ?_, e⟩
    rw [SigningKey.fromBytes, if_pos hl] at e
    rw [SigningKey.generate, h]
    exact e
  · intro e h
    rw [SigningKey.generate, h]
    rfl

/-! ### C38: signing and verification -/

/-- What is known of a private key. -/
theorem sk_of (hA : A.Ok) {seed : Bytes} {key : SigningKey} (h : SigningKey.fromBytes A seed = .ok key) :
    seed.length = 32 ∧ key.seed = seed ∧ key.s.toNat = Spec.Ed25519.secretScalar seed ∧
      key.pfx = (Spec.Sha2.sha512 seed).drop 32 ∧ key.verifyingKey.bytes = Spec.Ed25519.publicKey seed := by
  by_cases hl : seed.length = 32
  · obtain ⟨key', e, e1, e2, -⟩ := (C38_signing_key hA seed).2 hl
    rw [h] at e
    injection e with e
    subst e
    refine ⟨hl, e1, ?_, ?_, e2⟩
    all_goals
      rw [SigningKey.fromBytes, if_pos hl, fromSeed, hashParts_eq, if_pos (by simp; omega)] at h
      have hs := sha512_length seed
      rw [show [seed].flatten = seed by simp, hashed, bind_ok] at h
      injection h with h
      subst h
      dsimp only
    · rw [clamp_eq (by rw [List.length_take, hs]; rfl)]; rfl
    · rw [List.take_of_length_le (by rw [List.length_drop, hs])]
  · rw [SigningKey.fromBytes, if_neg hl] at h; cases h

theorem sign_unfold {key : SigningKey} {msg h : Bytes} (hd : digest key.pfx msg [] = .ok h) :
    Verif.Ed25519.sign A key msg =
      (digest (compress (A.scalarmulbase (reduceFromLeBytes A h))) key.verifyingKey.bytes msg >>= fun k =>
        .ok (compress (A.scalarmulbase (reduceFromLeBytes A h)) ++
          toLittleEndian (A.maddN (reduceFromLeBytes A k) key.s (reduceFromLeBytes A h)))) := by
  rw [Verif.Ed25519.sign, hd, bind_ok]

/-- **C38** Signing is RFC 8032, 5.1.6; nothing but the seed and the message enters it.  (A message so long that the
SHA-512 byte counter overflows makes it panic.) -/
theorem C38_sign (hA : A.Ok) (seed : Bytes) (key : SigningKey) (h : SigningKey.fromBytes A seed = .ok key) (msg : Bytes) :
    Verif.Ed25519.sign A key msg = if 64 + msg.length < 2 ^ 64 then .ok (Spec.Ed25519.sign seed msg) else .error .panic := by
  obtain ⟨hl, -, hs, hp, hk⟩ := sk_of hA h
  have hpl : key.pfx.length = 32 := by rw [hp, List.length_drop, sha512_length]
  have hkl : (Spec.Ed25519.publicKey seed).length = 32 := encode_length _
  by_cases hm1 : 32 + msg.length < 2 ^ 64
  · have hd : digest key.pfx msg [] = .ok (Spec.Sha2.sha512 (key.pfx ++ msg)) := by
      rw [digest_ok (by simp; omega), List.append_nil]
    have hr := reduce_eq hA (sha512_length (key.pfx ++ msg))
    have hpt := hA.scalarmulbase (reduceFromLeBytes A (Spec.Sha2.sha512 (key.pfx ++ msg)))
    rw [hr] at hpt
    rw [sign_unfold hd, compress_eq hpt, hk]
    have hRl := encode_length (Spec.Ed25519.mul (leNat (Spec.Sha2.sha512 (key.pfx ++ msg)) % Spec.Ed25519.L) Spec.Ed25519.B)
    by_cases hm : 64 + msg.length < 2 ^ 64
    · rw [if_pos hm, digest_ok (by omega), bind_ok, toLittleEndian_eq, hA.maddN, hr, reduce_eq hA (sha512_length _), hs, hp]
      rw [Spec.Ed25519.sign]
      dsimp only [Spec.Ed25519.challenge]
      rw [Nat.add_comm]
    · rw [if_neg hm, digest_panic (by omega)]; rfl
  · rw [if_neg (by omega), Verif.Ed25519.sign, digest_panic (by simp; omega)]; rfl

theorem sign_length (seed msg : Bytes) : (Spec.Ed25519.sign seed msg).length = 64 := by
  simp [Spec.Ed25519.sign, encode_length]

theorem verify_unfold {key : VerifyingKey} {sig msg : Bytes} (h64 : sig.length = 64) :
    key.verify A sig msg = (scalarOrBad (tryFromLeBytes (sig.drop 32)) >>= fun s =>
      digest (sig.take 32) key.bytes msg >>= fun k =>
        if sig.take 32 = compress (A.scalarmuldouble (reduceFromLeBytes A k) (negate A key.point) s) then .ok ()
        else .error (.err .BadSignature)) := by
  rw [VerifyingKey.verify, if_pos h64]; rfl

/-- **C38** No signature whose second half, as a number, is not below the group order is accepted. -/
theorem C38_s_range (key : VerifyingKey) (sig msg : Bytes) (h : Spec.Ed25519.L ≤ leNat (sig.drop 32)) :
    key.verify A sig msg = .error (.err .BadSignature) := by
  by_cases h64 : sig.length = 64
  · rw [verify_unfold h64, tryFromLeBytes_eq (by rw [List.length_drop, h64]), if_neg (by omega)]; rfl
  · rw [VerifyingKey.verify, if_neg h64]

/-- **C38** Nor any whose length is not 64. -/
theorem C38_length (key : VerifyingKey) (sig msg : Bytes) (h : sig.length ≠ 64) :
    key.verify A sig msg = .error (.err .BadSignature) := by rw [VerifyingKey.verify, if_neg h]

/-- **C38** Verification with an imported key accepts exactly the signatures that satisfy the equation of RFC 8032, 5.1.7
(without cofactor, the challenge taken modulo the group order), and otherwise reports a bad signature. -/
theorem C38_verify (hA : A.Ok) (pk : Bytes) (key : VerifyingKey) (h : VerifyingKey.fromBytes A pk = .ok key) (sig msg : Bytes)
    (hm : 64 + msg.length < 2 ^ 64) :
    (key.verify A sig msg = .ok () ↔ Spec.Ed25519.Valid true pk msg sig) ∧
    (key.verify A sig msg = .ok () ∨ key.verify A sig msg = .error (.err .BadSignature)) := by
  by_cases h64 : sig.length = 64
  swap
  · rw [C38_length key sig msg h64]
    exact ⟨⟨fun h => (by cases h), fun h => absurd h.1 h64⟩, .inr rfl⟩
  by_cases hS : leNat (sig.drop 32) < Spec.Ed25519.L
  swap
  · rw [C38_s_range key sig msg (by omega)]
    exact ⟨⟨fun h => (by cases h), fun h => absurd h.2.1 hS⟩, .inr rfl⟩
  obtain ⟨hpl, hkb, Q, hQ, hpt⟩ := key_of hA h
  have hrl : (sig.take 32).length = 32 := by rw [List.length_take, h64]; rfl
  have hsl : (sig.drop 32).length = 32 := by rw [List.length_drop, h64]
  rw [verify_unfold h64, tryFromLeBytes_eq hsl, if_pos hS, scalarOrBad, bind_ok, hkb, digest_ok (by omega), bind_ok]
  have hk := reduce_eq hA (sha512_length (sig.take 32 ++ pk ++ msg))
  obtain ⟨a, ha⟩ := Is.of_on hQ.1
  have hneg := negate_is hA hpt
  have hmul := hA.scalarmuldouble (reduceFromLeBytes A (Spec.Sha2.sha512 (sig.take 32 ++ pk ++ msg))) _
    (leArrayTo 4 (sig.drop 32)) _ ha.neg.on hneg
  rw [hk, leArrayTo_toNat hsl] at hmul
  rw [compress_eq hmul]
  set k := leNat (Spec.Sha2.sha512 (sig.take 32 ++ pk ++ msg)) % Spec.Ed25519.L with hkdef
  set S := leNat (sig.drop 32) with hSdef
  have hR := (ha.neg.mul k).add (is_g.mul S)
  generalize Spec.Ed25519.add (Spec.Ed25519.mul k (Spec.Ed25519.neg Q)) (Spec.Ed25519.mul S Spec.Ed25519.B) = R at hR
  have hiff : sig.take 32 = Spec.Ed25519.encode R ↔ Spec.Ed25519.Valid true pk msg sig := by
    constructor
    · intro e
      refine ⟨h64, hS, Q, R, hQ, ⟨hR.on, e.symm⟩, ?_⟩
      dsimp only
      rw [if_pos rfl, Spec.Ed25519.challenge, ← hkdef, ← hSdef]
      refine (is_g.mul S).inj ?_
      have := hR.add (ha.mul k)
      rwa [show k • -a + S • g + k • a = S • g by rw [neg_nsmul]; abel] at this
    · rintro ⟨-, -, Q', R', hQ', hR', e⟩
      dsimp only at e
      rw [if_pos rfl, Spec.Ed25519.challenge, ← hkdef, ← hSdef, Decodes.unique hQ' hQ] at e
      obtain ⟨r, hr⟩ := Is.of_on hR'.1
      have h1 := hr.add (ha.mul k)
      rw [← e] at h1
      have h2 := h1.ext (is_g.mul S)
      have h3 : k • -a + S • g = r := by rw [← h2, neg_nsmul]; abel
      rw [h3] at hR
      rw [← hR'.2, hr.inj hR]
  by_cases hd : sig.take 32 = Spec.Ed25519.encode R
  · rw [if_pos hd]
    exact ⟨⟨fun _ => hiff.1 hd, fun _ => rfl⟩, .inl rfl⟩
  · rw [if_neg hd]
    exact ⟨⟨fun h => (by cases h), fun h => absurd (hiff.2 h) hd⟩, .inr rfl⟩

/-- **C38** Every signature produced for a message verifies under the derived public key. -/
theorem C38_sign_verifies (hA : A.Ok) (seed : Bytes) (key : SigningKey) (h : SigningKey.fromBytes A seed = .ok key)
    (msg sig : Bytes) (hs : Verif.Ed25519.sign A key msg = .ok sig) : key.publicKey.verify A sig msg = .ok () := by
  rw [C38_sign hA seed key h] at hs
  by_cases hm : 64 + msg.length < 2 ^ 64
  swap
  · rw [if_neg hm] at hs; cases hs
  rw [if_pos hm] at hs
  injection hs with hs
  have hl := (sk_of hA h).1
  obtain ⟨key', e, -, -, e3⟩ := (C38_signing_key hA seed).2 hl
  rw [h] at e
  injection e with e
  subst e
  refine (C38_verify hA _ _ e3 sig msg hm).1.2 ?_
  have h64 := sign_length seed msg
  rw [hs] at h64
  rw [Spec.Ed25519.sign] at hs
  have hRl := encode_length (Spec.Ed25519.mul (leNat (Spec.Sha2.sha512 ((Spec.Sha2.sha512 seed).drop 32 ++ msg)) % Spec.Ed25519.L) Spec.Ed25519.B)
  generalize leNat (Spec.Sha2.sha512 ((Spec.Sha2.sha512 seed).drop 32 ++ msg)) % Spec.Ed25519.L = r at *
  have ht : sig.take 32 = Spec.Ed25519.encode (Spec.Ed25519.mul r Spec.Ed25519.B) := by
    rw [← hs, List.take_left' hRl]
  have hd : sig.drop 32 = toLE 32 ((r + Spec.Ed25519.challenge (Spec.Ed25519.encode (Spec.Ed25519.mul r Spec.Ed25519.B))
      (Spec.Ed25519.publicKey seed) msg % Spec.Ed25519.L * Spec.Ed25519.secretScalar seed) % Spec.Ed25519.L) := by
    rw [← hs, List.drop_left' hRl]
  rw [← ht] at hd
  have hL : Spec.Ed25519.L < 256 ^ 32 := by decide +kernel
  have hLp : 0 < Spec.Ed25519.L := by decide +kernel
  have hlt : ∀ x, x % Spec.Ed25519.L < Spec.Ed25519.L := fun x => Nat.mod_lt _ hLp
  refine ⟨h64, ?_, _, _, ⟨mul_B_on (Spec.Ed25519.secretScalar seed), rfl⟩, ⟨mul_B_on r, ht.symm⟩, ?_⟩
  · rw [hd, leNat_toLE, Nat.mod_eq_of_lt ((hlt _).trans hL)]
    exact hlt _
  · dsimp only
    rw [if_pos rfl]
    generalize Spec.Ed25519.challenge (sig.take 32) (Spec.Ed25519.publicKey seed) msg % Spec.Ed25519.L = k at *
    rw [hd, leNat_toLE, Nat.mod_eq_of_lt ((hlt _).trans hL)]
    have h1 := is_g.mul ((r + k * Spec.Ed25519.secretScalar seed) % Spec.Ed25519.L)
    have h2 := (is_g.mul r).add ((is_g.mul (Spec.Ed25519.secretScalar seed)).mul k)
    rw [mod_smul_g, add_nsmul, mul_nsmul'] at h1
    exact h1.inj h2

/-- **C38** A second accepted signature for the same key and message never differs only in its second half: adding a
multiple of the order to it, or changing it in any other way, gives a signature that is rejected. -/
theorem C38_s_unique (hA : A.Ok) (pk : Bytes) (key : VerifyingKey) (h : VerifyingKey.fromBytes A pk = .ok key) (sig sig' msg : Bytes)
    (hm : 64 + msg.length < 2 ^ 64) (h1 : key.verify A sig msg = .ok ()) (h2 : key.verify A sig' msg = .ok ())
    (hR : sig.take 32 = sig'.take 32) : sig = sig' := by
  obtain ⟨l1, s1, Q1, R1, d1, e1, v1⟩ := (C38_verify hA pk key h sig msg hm).1.1 h1
  obtain ⟨l2, s2, Q2, R2, d2, e2, v2⟩ := (C38_verify hA pk key h sig' msg hm).1.1 h2
  dsimp only at v1 v2
  rw [if_pos rfl] at v1 v2
  rw [hR] at e1 v1
  rw [Decodes.unique d1 d2, Decodes.unique e1 e2, ← v2] at v1
  have g1 := is_g.mul (leNat (sig.drop 32))
  rw [v1] at g1
  have := smul_g_inj s1 s2 (g1.ext (is_g.mul _))
  rw [← List.take_append_drop 32 sig, ← List.take_append_drop 32 sig', hR]
  congr 1
  exact leNat_inj (by rw [List.length_drop, List.length_drop, l1, l2]) this

/-- **C38** Whatever is accepted satisfies the cofactored equation of RFC 8032, 5.1.7, with the challenge not reduced. -/
theorem C38_cofactored (hA : A.Ok) (pk : Bytes) (key : VerifyingKey) (h : VerifyingKey.fromBytes A pk = .ok key) (sig msg : Bytes)
    (hm : 64 + msg.length < 2 ^ 64) (h1 : key.verify A sig msg = .ok ()) : Spec.Ed25519.ValidCofactor pk msg sig := by
  obtain ⟨l1, s1, Q, R, d1, e1, v1⟩ := (C38_verify hA pk key h sig msg hm).1.1 h1
  refine ⟨l1, s1, Q, R, d1, e1, ?_⟩
  dsimp only at v1
  rw [if_pos rfl] at v1
  generalize Spec.Ed25519.challenge (sig.take 32) pk msg = k at *
  generalize leNat (sig.drop 32) = S at *
  obtain ⟨a, ha⟩ := Is.of_on d1.1
  obtain ⟨r, hr⟩ := Is.of_on e1.1
  have g1 := hr.add (ha.mul (k % Spec.Ed25519.L))
  rw [← v1] at g1
  have g2 := g1.ext (is_g.mul S)
  have g3 := (is_g.mul S).mul 8
  refine g3.inj ?_
  have g4 := (hr.mul 8).add ((ha.mul k).mul 8)
  have : 8 • r + 8 • k • a = 8 • S • g := by
    rw [← g2, nsmul_add, ← mul_nsmul', ← mul_nsmul']
    congr 1
    have hz := smul_card a
    conv_lhs => rw [← Nat.div_add_mod k Spec.Ed25519.L]
    rw [mul_add, add_nsmul, show 8 * (Spec.Ed25519.L * (k / Spec.Ed25519.L)) = (k / Spec.Ed25519.L) * (8 * Spec.Ed25519.L) by ring,
      mul_nsmul', hz, nsmul_zero, zero_add]
  rwa [this] at g4

/-- **C38** For public keys in the group generated by the base point, as all keys derived from a seed are, taking the
challenge modulo the order changes nothing. -/
theorem C38_prime_order (pk msg sig : Bytes)
    (hA : ∀ Q, Spec.Ed25519.Decodes pk Q → Spec.Ed25519.mul Spec.Ed25519.L Q = Spec.Ed25519.zero) :
    Spec.Ed25519.Valid true pk msg sig ↔ Spec.Ed25519.Valid false pk msg sig := by
  have key : ∀ k Q, Spec.Ed25519.Decodes pk Q → Spec.Ed25519.mul (k % Spec.Ed25519.L) Q = Spec.Ed25519.mul k Q := by
    intro k Q hQ
    obtain ⟨a, ha⟩ := Is.of_on hQ.1
    have hL := ha.mul Spec.Ed25519.L
    rw [hA Q hQ] at hL
    have hz := hL.ext Is.zero
    refine (ha.mul _).inj ?_
    have : (k % Spec.Ed25519.L) • a = k • a := by
      conv_rhs => rw [← Nat.mod_add_div k Spec.Ed25519.L]
      rw [add_nsmul, mul_comm, mul_nsmul', hz, nsmul_zero, add_zero]
    rw [this]
    exact ha.mul k
  constructor
  · rintro ⟨l, s, Q, R, d, e, v⟩
    refine ⟨l, s, Q, R, d, e, ?_⟩
    dsimp only at v ⊢
    rw [if_pos rfl, key _ _ d] at v
    rw [if_neg (by decide)]
    exact v
  · rintro ⟨l, s, Q, R, d, e, v⟩
    refine ⟨l, s, Q, R, d, e, ?_⟩
    dsimp only at v ⊢
    rw [if_neg (by decide)] at v
    rw [if_pos rfl, key _ _ d]
    exact v

/-- The hypothesis of `C38_prime_order` for derived keys. -/
theorem C38_derived_order (seed : Bytes) (Q : Spec.Ed25519.Point) (h : Spec.Ed25519.Decodes (Spec.Ed25519.publicKey seed) Q) :
    Spec.Ed25519.mul Spec.Ed25519.L Q = Spec.Ed25519.zero := by
  have hd : Spec.Ed25519.Decodes (Spec.Ed25519.publicKey seed) (Spec.Ed25519.mul (Spec.Ed25519.secretScalar seed) Spec.Ed25519.B) :=
    ⟨mul_B_on _, rfl⟩
  rw [Decodes.unique h hd]
  have := (is_g.mul (Spec.Ed25519.secretScalar seed)).mul Spec.Ed25519.L
  rw [← mul_nsmul', mul_comm, mul_nsmul', L_smul_g, nsmul_zero] at this
  exact this.inj Is.zero

end Verif.Props
