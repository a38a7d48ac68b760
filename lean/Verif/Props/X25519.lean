import Verif.Model.X25519
import Verif.Proof.Twist25519
import Verif.Proof.Ed25519

/-!
C37: X25519 keys and exchanges.
-/
namespace Verif.Props
open Verif Verif.Ec Verif.X25519 Verif.Mg
open Verif.Spec.Ed25519 (F p clamp)

variable {A : X25519.Asm}

/-! ### Import and export -/

/-- **C37** Static private keys: exactly the strings of 32 bytes are accepted, and are exported as they were. -/
theorem C37_private_round_trip (b : Bytes) :
    (b.length = 32 → ∃ k, StaticPrivateKey.tryFromSlice b = .ok k ∧ StaticPrivateKey.fromArray b = k ∧ k.asBytes = b) ∧
    (b.length ≠ 32 → StaticPrivateKey.tryFromSlice b = .error .WrongLength) ∧
    (∀ k : StaticPrivateKey, k.asBytes.length = 32 ∧ StaticPrivateKey.tryFromSlice k.asBytes = .ok k) := by
  refine ⟨fun h => ?_, fun h => ?_, fun k => ?_⟩
  · refine ⟨_, ?_, rfl, toLittleEndian_leArrayTo h⟩
    rw [StaticPrivateKey.tryFromSlice, leSliceTo, if_pos h]; rfl
  · rw [StaticPrivateKey.tryFromSlice, leSliceTo, if_neg h]
  · have h : k.asBytes.length = 32 := by rw [StaticPrivateKey.asBytes, toLittleEndian_eq]; exact toLE_length _ _
    refine ⟨h, ?_⟩
    rw [StaticPrivateKey.tryFromSlice, leSliceTo, if_pos h, StaticPrivateKey.asBytes, leArrayTo_toLittleEndian]

/-- **C37** Public keys: exactly the strings of 32 bytes are accepted, and are exported as they were. -/
theorem C37_public_round_trip (b : Bytes) :
    (b.length = 32 → ∃ k, PublicKey.tryFromSlice b = .ok k ∧ PublicKey.fromArray b = k ∧ k.asBytes = b) ∧
    (b.length ≠ 32 → PublicKey.tryFromSlice b = .error .WrongLength) ∧
    (∀ k : PublicKey, k.asBytes.length = 32 ∧ PublicKey.tryFromSlice k.asBytes = .ok k) := by
  refine ⟨fun h => ?_, fun h => ?_, fun k => ?_⟩
  · refine ⟨_, ?_, rfl, toLittleEndian_leArrayTo h⟩
    rw [PublicKey.tryFromSlice, leSliceTo, if_pos h]; rfl
  · rw [PublicKey.tryFromSlice, leSliceTo, if_neg h]
  · have h : k.asBytes.length = 32 := by rw [PublicKey.asBytes, toLittleEndian_eq]; exact toLE_length _ _
    refine ⟨h, ?_⟩
    rw [PublicKey.tryFromSlice, leSliceTo, if_pos h, PublicKey.asBytes, leArrayTo_toLittleEndian]

/-- **C37** A new key is made of the 32 bytes the random source gave; only a failing source makes this fail. -/
theorem C37_new_random (rng : RandomSource) (i : Nat) :
    (∀ r, rng i 32 = .ok r → StaticPrivateKey.newRandom rng i = .ok (StaticPrivateKey.fromArray r) ∧
      PrivateKey.newRandom rng i = .ok (StaticPrivateKey.fromArray r).key) ∧
    (∀ e, rng i 32 = .error e → StaticPrivateKey.newRandom rng i = .error e ∧ PrivateKey.newRandom rng i = .error e) := by
  constructor
  · intro r h
    have : PrivateKey.newRandom rng i = .ok ⟨leArrayTo 4 r⟩ := by rw [PrivateKey.newRandom, h]; rfl
    exact ⟨by rw [StaticPrivateKey.newRandom, this]; rfl, this⟩
  · intro e h
    have : PrivateKey.newRandom rng i = .error e := by rw [PrivateKey.newRandom, h]; rfl
    exact ⟨by rw [StaticPrivateKey.newRandom, this]; rfl, this⟩

/-! ### The operations are those of RFC 7748 -/

theorem val_lt_256 (x : F) : x.val < 256 ^ 32 := (ZMod.val_lt x).trans (by decide +kernel)

theorem elt_of_val {e : Elt 4} {x : F} (h : e.toNat = x.val) : toLittleEndian e = Spec.X25519.encodeU x := by
  rw [toLittleEndian_eq, h]; rfl

theorem leNat_words (e : Elt 4) : leNat (toLittleEndian e) = e.toNat := by
  rw [toLittleEndian_eq, leNat_toLE, Nat.mod_eq_of_lt]
  exact lt_of_lt_of_eq e.isLt (by decide +kernel)

/-- **C37** The public key is `X25519(k, 9)`. -/
theorem C37_public_key (hA : A.Ok) (k : StaticPrivateKey) :
    (k.publicKey A).asBytes = Spec.X25519.x25519 k.asBytes Spec.X25519.base ∧ k.publicKey A = k.key.publicKey A := by
  refine ⟨?_, rfl⟩
  rw [StaticPrivateKey.publicKey, PublicKey.asBytes, PrivateKey.publicKey, elt_of_val (hA.x25519base _), Spec.X25519.x25519,
    Spec.X25519.decodeScalar, StaticPrivateKey.asBytes, leNat_words, Spec.X25519.decodeU, Spec.X25519.base, leNat_toLE]
  rw [show ((9 % 256 ^ 32 % 2 ^ 255 : Nat) : F) = 9 by norm_num]

theorem res_eq (hA : A.Ok) (k : StaticPrivateKey) (peer : PublicKey) :
    (A.x25519 k.key.words peer.words).toNat =
      (Spec.X25519.scalarMult (Spec.X25519.decodeScalar k.asBytes) (Spec.X25519.decodeU peer.asBytes)).val := by
  rw [hA.x25519, Spec.X25519.decodeScalar, Spec.X25519.decodeU, StaticPrivateKey.asBytes, PublicKey.asBytes, leNat_words, leNat_words]

theorem dh_eq (hA : A.Ok) (k : StaticPrivateKey) (peer : PublicKey) :
    k.diffieHellman A peer =
      if Spec.X25519.scalarMult (Spec.X25519.decodeScalar k.asBytes) (Spec.X25519.decodeU peer.asBytes) = 0 then .error .NotOnCurve
      else .ok ⟨Spec.X25519.x25519 k.asBytes peer.asBytes⟩ := by
  have h := res_eq hA k peer
  have e := elt_of_val h
  have hz : Bignum.eq (Ec.words (A.x25519 k.key.words peer.words)) ZERO = true ↔
      Spec.X25519.scalarMult (Spec.X25519.decodeScalar k.asBytes) (Spec.X25519.decodeU peer.asBytes) = 0 := by
    rw [Bignum.eq, Ec.val_words, h, beq_iff_eq, show val ZERO = 0 by decide +kernel, ZMod.val_eq_zero]
  rw [StaticPrivateKey.diffieHellman, PrivateKey.diffieHellman]
  by_cases h0 : Spec.X25519.scalarMult (Spec.X25519.decodeScalar k.asBytes) (Spec.X25519.decodeU peer.asBytes) = 0
  · rw [if_pos h0]
    exact if_pos (hz.2 h0)
  · rw [if_neg h0]
    refine (if_neg fun hh => h0 (hz.1 hh)).trans ?_
    exact congrArg (fun x => Except.ok (SharedSecret.mk x)) e

theorem encodeU_zero {x : F} : Spec.X25519.encodeU x = List.replicate 32 0#8 ↔ x = 0 := by
  constructor
  · intro h
    have h1 := congrArg leNat h
    rw [Spec.X25519.encodeU, leNat_toLE, Nat.mod_eq_of_lt (val_lt_256 x), show leNat (List.replicate 32 0#8) = 0 by decide +kernel] at h1
    exact (ZMod.val_eq_zero x).1 h1
  · rintro rfl
    rw [Spec.X25519.encodeU, ZMod.val_zero]
    decide +kernel

/-- **C37** An exchange returns `X25519(k, u)`, except that the all-zero result is an error.  The single-use key behaves as the
static one. -/
theorem C37_diffie_hellman (hA : A.Ok) (k : StaticPrivateKey) (peer : PublicKey) :
    (Spec.X25519.x25519 k.asBytes peer.asBytes = List.replicate 32 0#8 → k.diffieHellman A peer = .error .NotOnCurve) ∧
    (Spec.X25519.x25519 k.asBytes peer.asBytes ≠ List.replicate 32 0#8 →
      ∃ s, k.diffieHellman A peer = .ok s ∧ s.asBytes = Spec.X25519.x25519 k.asBytes peer.asBytes ∧ s.asBytes.length = 32) ∧
    k.diffieHellman A peer = k.key.diffieHellman A peer := by
  rw [dh_eq hA]
  refine ⟨fun h => ?_, fun h => ?_, ?_⟩
  · rw [if_pos (encodeU_zero.1 h)]
  · rw [if_neg (fun h0 => h (by rw [Spec.X25519.x25519, h0]; exact encodeU_zero.2 rfl))]
    exact ⟨_, rfl, rfl, toLE_length _ _⟩
  · rw [← dh_eq hA]; rfl

/-- **C37** A successful exchange never returns 32 zero bytes. -/
theorem C37_nonzero (hA : A.Ok) (k : StaticPrivateKey) (peer : PublicKey) {s : SharedSecret} (h : k.diffieHellman A peer = .ok s) :
    s.asBytes ≠ List.replicate 32 0#8 := by
  rw [dh_eq hA] at h
  split at h
  · cases h
  · rename_i h0
    replace h := Except.ok.inj h
    subst h
    intro h
    rw [SharedSecret.asBytes, Spec.X25519.x25519, encodeU_zero] at h
    exact h0 h

/-! ### X25519 is multiplication of points -/

theorem clamp_facts (n : Nat) : 2 ^ 254 ≤ clamp n ∧ clamp n < 2 ^ 255 ∧ clamp n % 8 = 0 ∧ clamp n % 2 = 0 := by
  unfold clamp
  have := Nat.mod_lt (n / 8) (show 0 < 2 ^ 251 by decide)
  generalize n / 8 % 2 ^ 251 = m at this
  omega

/-- **C37** The ladder of RFC 7748 multiplies points: over every extension of the field, if `u` is the x coordinate of the point
`P` of curve25519 (or its twist), then the result is the x coordinate of `k P`, and 0 if that is the point at infinity. -/
theorem C37_multiplication {K : Type} [Field K] [DecidableEq K] (f : F →+* K) (k : Bytes) (u : Bytes) {P : (M (486662 : K)).Point} {y : K}
    (hP : IsPt P (f (Spec.X25519.decodeU u)) y) (hu : Spec.X25519.decodeU u ≠ 0) {r : F}
    (hr : Spec.X25519.x25519 k u = Spec.X25519.encodeU r) :
    (Spec.X25519.decodeScalar k • P = 0 ∧ r = 0) ∨ ∃ y', IsPt (Spec.X25519.decodeScalar k • P) (f r) y' := by
  have : r = Spec.X25519.scalarMult (Spec.X25519.decodeScalar k) (Spec.X25519.decodeU u) := by
    have h1 := congrArg leNat hr
    rw [Spec.X25519.x25519, Spec.X25519.encodeU, Spec.X25519.encodeU, leNat_toLE, leNat_toLE, Nat.mod_eq_of_lt (val_lt_256 _),
      Nat.mod_eq_of_lt (val_lt_256 _)] at h1
    exact (ZMod.val_injective _ h1).symm
  rw [this]
  exact scalarMult_spec f hP hu (clamp_facts _).2.1

/-! ### Both sides agree -/

theorem decodeU_encodeU (x : F) : Spec.X25519.decodeU (Spec.X25519.encodeU x) = x := by
  rw [Spec.X25519.decodeU, Spec.X25519.encodeU, leNat_toLE, Nat.mod_eq_of_lt (val_lt_256 _),
    Nat.mod_eq_of_lt ((ZMod.val_lt x).trans (by decide +kernel)), ZMod.natCast_zmod_val]

/-- **C37** X25519 commutes, for all private keys and every starting value, also those not on the curve, of small order or not
reduced. -/
theorem C37_commutes (a b u : Bytes) :
    Spec.X25519.x25519 a (Spec.X25519.x25519 b u) = Spec.X25519.x25519 b (Spec.X25519.x25519 a u) := by
  obtain ⟨a1, a2, a3, a4⟩ := clamp_facts (leNat a)
  obtain ⟨b1, b2, b3, b4⟩ := clamp_facts (leNat b)
  rw [Spec.X25519.x25519, Spec.X25519.x25519, Spec.X25519.x25519, Spec.X25519.x25519, decodeU_encodeU, decodeU_encodeU]
  rw [Spec.X25519.decodeScalar, Spec.X25519.decodeScalar, scalarMult_comm a2 b2 a4 b4]

/-- The u coordinates of the points of curve25519 and its twist whose order divides 8. -/
def smallOrder : List Nat := [0, 1, 2 ^ 255 - 20,
  325606250916557431795983626356110631294008115727848805560023387167927233504,
  39382357235489614581723060781553021112529911719440698176882885853963445705823]

theorem lowOrder_iff (n : Nat) : LowOrder (n : F) ↔ n % p ∈ smallOrder := by
  have h : ∀ m : Nat, m < p → ((n : F) = (m : F) ↔ n % p = m) := fun m hm => by
    rw [ZMod.natCast_eq_natCast_iff', Nat.mod_eq_of_lt hm]
  have e1 := h 0 (by decide +kernel)
  have e2 := h 1 (by decide +kernel)
  have e3 := h (2 ^ 255 - 20) (by decide +kernel)
  have e4 := h 325606250916557431795983626356110631294008115727848805560023387167927233504 (by decide +kernel)
  have e5 := h 39382357235489614581723060781553021112529911719440698176882885853963445705823 (by decide +kernel)
  have hm1 : ((2 ^ 255 - 20 : Nat) : F) = -1 := by
    have : ((2 ^ 255 - 20 + 1 : Nat) : F) = ((0 : Nat) : F) := Ed25519Group.cast_eq (by decide +kernel)
    rw [Nat.cast_add, Nat.cast_one, Nat.cast_zero] at this
    exact eq_neg_of_add_eq_zero_left this
  rw [hm1] at e3
  rw [Nat.cast_zero] at e1
  rw [Nat.cast_one] at e2
  rw [LowOrder, e1, e2, e3]
  simp only [smallOrder, List.mem_cons, List.not_mem_nil, or_false]
  rw [show (n : F) = c1 ↔ _ from e4, show (n : F) = c2 ↔ _ from e5]

/-- **C37** An exchange fails exactly if the peer's public key, its top bit ignored and reduced modulo the prime, is one of the five
coordinates of small order: whether it fails does not depend on the private key. -/
theorem C37_small_order (hA : A.Ok) (k : StaticPrivateKey) (peer : PublicKey) :
    k.diffieHellman A peer = .error .NotOnCurve ↔ leNat peer.asBytes % 2 ^ 255 % p ∈ smallOrder := by
  obtain ⟨a1, a2, a3, a4⟩ := clamp_facts (leNat k.asBytes)
  rw [← lowOrder_iff, ← scalarMult_eq_zero a1 a2 a3, dh_eq hA]
  have hd : Spec.X25519.decodeScalar k.asBytes = clamp (leNat k.asBytes) := rfl
  have hu : Spec.X25519.decodeU peer.asBytes = ((leNat peer.asBytes % 2 ^ 255 : Nat) : F) := rfl
  rw [hd, hu]
  constructor
  · intro h
    by_contra h0
    rw [if_neg h0] at h
    cases h
  · intro h0
    rw [if_pos h0]

theorem nine : ¬LowOrder 9 := by
  have := (lowOrder_iff 9).not.2 (by decide +kernel)
  exact_mod_cast this

/-- **C37** Both sides of an exchange with each other's public keys succeed, with the same secret. -/
theorem C37_agreement (hA : A.Ok) (a b : StaticPrivateKey) :
    ∃ s, a.diffieHellman A (b.publicKey A) = .ok s ∧ b.diffieHellman A (a.publicKey A) = .ok s ∧
      s.asBytes = Spec.X25519.x25519 a.asBytes (Spec.X25519.x25519 b.asBytes Spec.X25519.base) := by
  have hne : ∀ x y : StaticPrivateKey, ¬ x.diffieHellman A (y.publicKey A) = .error .NotOnCurve := by
    intro x y
    obtain ⟨y1, y2, y3, y4⟩ := clamp_facts (leNat y.asBytes)
    rw [C37_small_order hA, ← lowOrder_iff, (C37_public_key hA y).1]
    rw [show ((leNat (Spec.X25519.x25519 y.asBytes Spec.X25519.base) % 2 ^ 255 : Nat) : F) =
      Spec.X25519.decodeU (Spec.X25519.x25519 y.asBytes Spec.X25519.base) from rfl, Spec.X25519.x25519, decodeU_encodeU,
      Spec.X25519.decodeScalar, lowOrder_scalarMult y1 y2 y3, Spec.X25519.decodeU, Spec.X25519.base, leNat_toLE,
      show ((9 % 256 ^ 32 % 2 ^ 255 : Nat) : F) = 9 by norm_num]
    exact nine
  have hok : ∀ x y : StaticPrivateKey, x.diffieHellman A (y.publicKey A) =
      .ok ⟨Spec.X25519.x25519 x.asBytes (Spec.X25519.x25519 y.asBytes Spec.X25519.base)⟩ := by
    intro x y
    have h := hne x y
    rw [dh_eq hA] at h ⊢
    rw [(C37_public_key hA y).1] at h ⊢
    split
    · rename_i h0
      rw [if_pos h0] at h
      exact absurd rfl h
    · rfl
  refine ⟨_, hok a b, ?_, rfl⟩
  rw [hok b a, C37_commutes]

/-- **C37** Agreement from any common starting point: if both parties apply their keys to the same public key and exchange the
results, they end up with the same secret. -/
theorem C37_agreement_any (hA : A.Ok) (a b : StaticPrivateKey) (start : PublicKey) {s t : SharedSecret}
    (hs : a.diffieHellman A start = .ok s) (ht : b.diffieHellman A start = .ok t) :
    ∃ r, a.diffieHellman A (PublicKey.fromArray t.asBytes) = .ok r ∧ b.diffieHellman A (PublicKey.fromArray s.asBytes) = .ok r := by
  have out : ∀ {x : StaticPrivateKey} {q : SharedSecret}, x.diffieHellman A start = .ok q →
      q.asBytes = Spec.X25519.x25519 x.asBytes start.asBytes ∧ ¬LowOrder (Spec.X25519.decodeU q.asBytes) := by
    intro x q h
    obtain ⟨x1, x2, x3, x4⟩ := clamp_facts (leNat x.asBytes)
    rw [dh_eq hA] at h
    split at h
    · cases h
    · rename_i h0
      replace h := Except.ok.inj h
      subst h
      refine ⟨rfl, ?_⟩
      rw [SharedSecret.asBytes, Spec.X25519.x25519, decodeU_encodeU, Spec.X25519.decodeScalar, lowOrder_scalarMult x1 x2 x3]
      exact fun hl => h0 ((scalarMult_eq_zero x1 x2 x3 _).2 hl)
  obtain ⟨s1, s2⟩ := out hs
  obtain ⟨t1, t2⟩ := out ht
  have go : ∀ {x : StaticPrivateKey} {q : SharedSecret}, q.asBytes.length = 32 → ¬LowOrder (Spec.X25519.decodeU q.asBytes) →
      x.diffieHellman A (PublicKey.fromArray q.asBytes) = .ok ⟨Spec.X25519.x25519 x.asBytes q.asBytes⟩ := by
    intro x q hl hq
    obtain ⟨x1, x2, x3, x4⟩ := clamp_facts (leNat x.asBytes)
    have e : (PublicKey.fromArray q.asBytes).asBytes = q.asBytes := toLittleEndian_leArrayTo hl
    rw [dh_eq hA, e, if_neg]
    exact fun h0 => hq ((scalarMult_eq_zero x1 x2 x3 _).1 h0)
  refine ⟨_, go (by rw [t1]; exact toLE_length _ _) t2, ?_⟩
  rw [go (by rw [s1]; exact toLE_length _ _) s2, s1, t1, C37_commutes]

/-! ### Examples -/

/-- Routines that do what is promised exist. -/
def X25519.refAsm : X25519.Asm where
  x25519 n u := BitVec.ofNat _ (Spec.X25519.scalarMult (clamp n.toNat) ((u.toNat % 2 ^ 255 : Nat) : F)).val
  x25519base n := BitVec.ofNat _ (Spec.X25519.scalarMult (clamp n.toNat) 9).val

theorem X25519.refAsm_ok : X25519.refAsm.Ok where
  x25519 n u := by
    rw [X25519.refAsm, BitVec.toNat_ofNat, Nat.mod_eq_of_lt]
    exact (ZMod.val_lt _).trans (by decide +kernel)
  x25519base n := by
    rw [X25519.refAsm, BitVec.toNat_ofNat, Nat.mod_eq_of_lt]
    exact (ZMod.val_lt _).trans (by decide +kernel)

/-- A key exchange with an all-one and an all-two key works. -/
example : ∃ s, (StaticPrivateKey.fromArray (List.replicate 32 1#8)).diffieHellman X25519.refAsm
      ((StaticPrivateKey.fromArray (List.replicate 32 2#8)).publicKey X25519.refAsm) = .ok s ∧ s.asBytes ≠ List.replicate 32 0#8 := by
  obtain ⟨s, h, -⟩ := C37_agreement X25519.refAsm_ok (StaticPrivateKey.fromArray (List.replicate 32 1#8)) (StaticPrivateKey.fromArray (List.replicate 32 2#8))
  exact ⟨s, h, C37_nonzero X25519.refAsm_ok _ _ h⟩

/-- The public key 1 is of small order, also in the unreduced form `p + 1`; the public key 9 is not. -/
example (k : StaticPrivateKey) : k.diffieHellman X25519.refAsm (PublicKey.fromArray (toLE 32 1)) = .error .NotOnCurve :=
  (C37_small_order X25519.refAsm_ok k _).2 (by decide +kernel)
example (k : StaticPrivateKey) : k.diffieHellman X25519.refAsm (PublicKey.fromArray (toLE 32 (p + 1))) = .error .NotOnCurve :=
  (C37_small_order X25519.refAsm_ok k _).2 (by decide +kernel)
example (k : StaticPrivateKey) : k.diffieHellman X25519.refAsm (PublicKey.fromArray Spec.X25519.base) ≠ .error .NotOnCurve :=
  fun h => absurd ((C37_small_order X25519.refAsm_ok k _).1 h) (by decide +kernel)

/-! The first test vector of RFC 7748, section 5.2, computed with the specification. -/

open Verif.Spec.X25519 Verif.Ladder in
/-- One iteration on representatives. -/
def X25519.stepN (q x1 : Nat) (v : Vars Nat) : Vars Nat :=
  let a := (v.x2 + v.z2) ^ 2 % q
  let b := (v.x2 + (q - v.z2)) ^ 2 % q
  let e := (a + (q - b)) % q
  let da := (v.x3 + (q - v.z3)) * (v.x2 + v.z2) % q
  let cb := (v.x3 + v.z3) * (v.x2 + (q - v.z2)) % q
  ⟨a * b % q, e * (a + 121665 * e) % q, (da + cb) ^ 2 % q, x1 * (da + (q - cb)) ^ 2 % q⟩

open Verif.Spec.X25519 Verif.Ladder in
def X25519.loopN (q x1 k : Nat) : Nat → Bool → Vars Nat → Vars Nat
  | 0, swap, v => v.swap swap
  | n + 1, swap, v => loopN q x1 k n (k.testBit n) (X25519.stepN q x1 (v.swap (swap ^^ k.testBit n)))

open Verif.Spec.X25519 Verif.Ladder in
theorem X25519.loopN_eq (x1 k : Nat) : ∀ n sw (v : Vars Nat), v.x2 ≤ p ∧ v.z2 ≤ p ∧ v.x3 ≤ p ∧ v.z3 ≤ p →
    mapVars (fun n : Nat => (n : F)) (X25519.loopN p x1 k n sw v) = loop (x1 : F) k n sw (mapVars (fun n : Nat => (n : F)) v)
  | 0, sw, v, _ => by cases sw <;> rfl
  | n + 1, sw, v, h => by
    have hsub : ∀ a b : Nat, b ≤ p → ((a + (p - b) : Nat) : F) = a - b := by
      intro a b hb
      rw [Nat.cast_add, Nat.cast_sub hb, ZMod.natCast_self]; ring
    have hm : ∀ a : Nat, ((a % p : Nat) : F) = a := fun a => ZMod.natCast_mod a p
    have hl : ∀ a : Nat, a % p ≤ p := fun a => (Nat.mod_lt a (by decide +kernel)).le
    rw [X25519.loopN, loop, X25519.loopN_eq x1 k n]
    · congr 1
      have : (mapVars (fun n : Nat => (n : F)) v).swap (sw ^^ k.testBit n) = mapVars (fun n : Nat => (n : F)) (v.swap (sw ^^ k.testBit n)) := by
        cases sw ^^ k.testBit n <;> rfl
      rw [this]
      have hw : (v.swap (sw ^^ k.testBit n)).z2 ≤ p ∧ (v.swap (sw ^^ k.testBit n)).z3 ≤ p := by
        cases sw ^^ k.testBit n <;> simp [Vars.swap, h]
      generalize v.swap (sw ^^ k.testBit n) = w at hw
      obtain ⟨x2, z2, x3, z3⟩ := w
      obtain ⟨h1, h2⟩ := hw
      simp only [X25519.stepN, Vars.step, mapVars]
      congr 1 <;> simp only [hm, Nat.cast_mul, Nat.cast_add, Nat.cast_pow, hsub _ _ (hl _), hsub _ _ h1, hsub _ _ h2, Nat.cast_ofNat]
    · exact ⟨hl _, hl _, hl _, hl _⟩

example : Spec.X25519.x25519
    (toLE 32 0xc49a44ba44226a50185afcc10a4c1462dd5e46824b15163b9d7c52f06be346a5)
    (toLE 32 0x4c1cabd0a603a9103b35b326ec2466727c5fb124a4c19435db3030586768dbe6) =
    toLE 32 0x5285a2775507b454f7711c4903cfec324f088df24dea948e90c6e99d3755dac3 := by
  have hk : Spec.X25519.decodeScalar (toLE 32 0xc49a44ba44226a50185afcc10a4c1462dd5e46824b15163b9d7c52f06be346a5) =
      31029842492115040904895560451863089656472772604678260265531221036453811406496 := by decide +kernel
  have hu : Spec.X25519.decodeU (toLE 32 0x4c1cabd0a603a9103b35b326ec2466727c5fb124a4c19435db3030586768dbe6) =
      ((34426434033919594451155107781188821651316167215306631574996226621102155684838 : Nat) : F) := by
    rw [Spec.X25519.decodeU, leNat_toLE]
    exact Ed25519Group.cast_eq (by decide +kernel)
  have hl := X25519.loopN_eq 34426434033919594451155107781188821651316167215306631574996226621102155684838
    31029842492115040904895560451863089656472772604678260265531221036453811406496 255 false
    ⟨1, 0, 34426434033919594451155107781188821651316167215306631574996226621102155684838, 1⟩ (by decide +kernel)
  rw [Spec.X25519.x25519, hk, hu, Spec.X25519.scalarMult, inv_eq, Spec.X25519.ladder]
  simp only [Ladder.mapVars, Nat.cast_zero, Nat.cast_one] at hl
  rw [← hl]
  generalize hX : (X25519.loopN p 34426434033919594451155107781188821651316167215306631574996226621102155684838
    31029842492115040904895560451863089656472772604678260265531221036453811406496 255 false
    ⟨1, 0, 34426434033919594451155107781188821651316167215306631574996226621102155684838, 1⟩) = w
  have h1 : (0x5285a2775507b454f7711c4903cfec324f088df24dea948e90c6e99d3755dac3 * w.z2) % p = w.x2 % p := by rw [← hX]; decide +kernel
  have h2 : w.z2 % p ≠ 0 % p := by rw [← hX]; decide +kernel
  have h3 := Ed25519Group.cast_eq h1
  have h4 := Ed25519Group.cast_ne h2
  rw [Nat.cast_zero] at h4
  show Spec.X25519.encodeU ((w.x2 : F) * (w.z2 : F)⁻¹) = _
  rw [← h3, Nat.cast_mul, mul_assoc, mul_inv_cancel₀ h4, mul_one, Spec.X25519.encodeU, ZMod.val_natCast_of_lt (by decide +kernel)]

end Verif.Props
