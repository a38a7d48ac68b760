import Verif.Model.Kx
import Verif.Props.X25519
import Verif.Props.EcKeys
import Verif.Props.MlKemCorrect

/-!
C51: the hybrid key exchange; C59: the key exchanges offered to rustls (`rustls-graviola/src/kx.rs`, `kx/*.rs`).
-/
namespace Verif.Props
open Verif Verif.Kx

theorem kx_bind_ok {α β : Type} {x : KR α} {f : α → KR β} {b : β} : x >>= f = .ok b ↔ ∃ a, x = .ok a ∧ f a = .ok b := by
  cases x with
  | error e => exact ⟨fun h => (by cases h), fun ⟨_, h, _⟩ => (by cases h)⟩
  | ok a => exact ⟨fun h => ⟨a, rfl, h⟩, fun ⟨_, h, g⟩ => by cases h; exact g⟩

/-! ### Layout -/

/-- **C51** A share is taken apart exactly where it was put together. -/
theorem C51_split (L : Layout) (share : Bytes) (pqLen : Nat) (pq cl : Bytes) :
    L.split share pqLen = some (pq, cl) ↔ pq.length = pqLen ∧ cl.length = L.classicalLen ∧
      share = if L.pqFirst then pq ++ cl else cl ++ pq := by
  unfold Layout.split
  by_cases hl : share.length ≠ L.classicalLen + pqLen
  · rw [if_pos hl]
    refine ⟨fun h => (by cases h), fun ⟨h1, h2, h3⟩ => absurd ?_ hl⟩
    rw [h3]
    split <;> rw [List.length_append] <;> omega
  · rw [if_neg hl]
    have hl := Decidable.not_not.1 hl
    cases L.pqFirst
    · simp only [Bool.false_eq_true, if_false, Option.some.injEq, Prod.mk.injEq]
      constructor
      · rintro ⟨rfl, rfl⟩
        refine ⟨by rw [List.length_drop]; omega, by rw [List.length_take]; omega, (List.take_append_drop ..).symm⟩
      · rintro ⟨h1, h2, h3⟩
        rw [h3, ← h2]
        exact ⟨List.drop_left, List.take_left⟩
    · simp only [if_true, Option.some.injEq, Prod.mk.injEq]
      constructor
      · rintro ⟨rfl, rfl⟩
        refine ⟨by rw [List.length_take]; omega, by rw [List.length_drop]; omega, (List.take_append_drop ..).symm⟩
      · rintro ⟨h1, h2, h3⟩
        rw [h3, ← h1]
        exact ⟨List.take_left, List.drop_left⟩

theorem C51_split_length (L : Layout) (share : Bytes) (pqLen : Nat) :
    L.split share pqLen = none ↔ share.length ≠ L.classicalLen + pqLen := by
  unfold Layout.split
  by_cases hl : share.length ≠ L.classicalLen + pqLen
  · rw [if_pos hl]; exact ⟨fun _ => hl, fun _ => rfl⟩
  · rw [if_neg hl]
    refine ⟨fun h => ?_, fun h => absurd h hl⟩
    split at h <;> cases h

/-- Put together and taken apart. -/
theorem split_concat (L : Layout) (pqLen : Nat) (pq cl : Bytes) (h1 : pq.length = pqLen) (h2 : cl.length = L.classicalLen) :
    L.split (L.concat pq cl) pqLen = some (pq, cl) := (C51_split ..).2 ⟨h1, h2, rfl⟩

/-! ### Any two groups -/

/-- **C51** What the client offers: both shares in the order of the layout, and the classical one separately. -/
theorem C51_start (H : Hybrid) (rng : RandomSource) (i j : Nat) (a : Active) :
    H.group.start rng i = .ok (a, j) ↔ ∃ ca pa i', H.classical.start rng i = .ok (ca, i') ∧
      H.postQuantum.start rng i' = .ok (pa, j) ∧
      a = ⟨H.layout.concat pa.pubKey ca.pubKey, H.name, hybridComplete H.layout ca pa, some (ca.group, ca.pubKey),
        ca.complete⟩ := by
  show hybridStart H rng i = _ ↔ _
  unfold hybridStart
  rw [kx_bind_ok]
  constructor
  · rintro ⟨⟨ca, i'⟩, h1, h2⟩
    obtain ⟨⟨pa, j'⟩, h3, h4⟩ := kx_bind_ok.1 h2
    have h4 := Except.ok.inj h4
    simp only [Prod.mk.injEq] at h4
    exact ⟨ca, pa, i', h1, by rw [h3, h4.2], h4.1.symm⟩
  · rintro ⟨ca, pa, i', h1, h2, rfl⟩
    exact ⟨(ca, i'), h1, kx_bind_ok.2 ⟨(pa, j), h2, rfl⟩⟩

/-- **C51** What the server makes of it: each group gets its own part of the share, and the answer and the secret are put
together in the same order. -/
theorem C51_server (H : Hybrid) (rng : RandomSource) (i j : Nat) (share : Bytes) (r : Completed) :
    H.group.startAndComplete rng i share = .ok (r, j) ↔ ∃ pqs cls cl pq i',
      pqs.length = H.layout.pqClientLen ∧ cls.length = H.layout.classicalLen ∧ share = H.layout.concat pqs cls ∧
      H.classical.startAndComplete rng i cls = .ok (cl, i') ∧ H.postQuantum.startAndComplete rng i' pqs = .ok (pq, j) ∧
      r = ⟨H.name, H.layout.concat pq.pubKey cl.pubKey, H.layout.concat pq.secret cl.secret⟩ := by
  show hybridStartAndComplete H rng i share = _ ↔ _
  unfold hybridStartAndComplete
  rw [kx_bind_ok]
  constructor
  · rintro ⟨⟨pqs, cls⟩, h1, h2⟩
    have hs : H.layout.split share H.layout.pqClientLen = some (pqs, cls) := by
      cases hs : H.layout.split share H.layout.pqClientLen with
      | none => rw [hs] at h1; cases h1
      | some x => rw [hs] at h1; rw [Except.ok.inj h1]
    obtain ⟨g1, g2, g3⟩ := (C51_split ..).1 hs
    obtain ⟨⟨cl, i'⟩, h3, h4⟩ := kx_bind_ok.1 h2
    obtain ⟨⟨pq, j'⟩, h5, h6⟩ := kx_bind_ok.1 h4
    have h6 := Except.ok.inj h6
    simp only [Prod.mk.injEq] at h6
    exact ⟨pqs, cls, cl, pq, i', g1, g2, g3, h3, by rw [h5, h6.2], h6.1.symm⟩
  · rintro ⟨pqs, cls, cl, pq, i', g1, g2, rfl, h3, h5, rfl⟩
    refine ⟨(pqs, cls), by rw [split_concat _ _ _ _ g1 g2]; rfl, kx_bind_ok.2 ⟨(cl, i'), h3, kx_bind_ok.2 ⟨(pq, j), h5, rfl⟩⟩⟩

/-- **C51** What the client makes of the answer. -/
theorem C51_client (L : Layout) (ca pa : Active) (share s : Bytes) :
    hybridComplete L ca pa share = .ok s ↔ ∃ pqs cls pq cl,
      pqs.length = L.pqServerLen ∧ cls.length = L.classicalLen ∧ share = L.concat pqs cls ∧
      ca.complete cls = .ok cl ∧ pa.complete pqs = .ok pq ∧ s = L.concat pq cl := by
  unfold hybridComplete
  rw [kx_bind_ok]
  constructor
  · rintro ⟨⟨pqs, cls⟩, h1, h2⟩
    have hs : L.split share L.pqServerLen = some (pqs, cls) := by
      cases hs : L.split share L.pqServerLen with
      | none => rw [hs] at h1; cases h1
      | some x => rw [hs] at h1; rw [Except.ok.inj h1]
    obtain ⟨g1, g2, g3⟩ := (C51_split ..).1 hs
    obtain ⟨cl, h3, h4⟩ := kx_bind_ok.1 h2
    obtain ⟨pq, h5, h6⟩ := kx_bind_ok.1 h4
    exact ⟨pqs, cls, pq, cl, g1, g2, g3, h3, h5, (Except.ok.inj h6).symm⟩
  · rintro ⟨pqs, cls, pq, cl, g1, g2, rfl, h3, h5, rfl⟩
    refine ⟨(pqs, cls), by rw [split_concat _ _ _ _ g1 g2]; rfl, kx_bind_ok.2 ⟨cl, h3, kx_bind_ok.2 ⟨pq, h5, rfl⟩⟩⟩

/-- **C51** A share of any other total length is refused, by both sides. -/
theorem C51_wrong_length (H : Hybrid) (rng : RandomSource) (i : Nat) (share : Bytes) :
    (share.length ≠ H.layout.classicalLen + H.layout.pqClientLen →
      H.group.startAndComplete rng i share = .error (.err .InvalidKeyShare)) ∧
    ∀ a j, H.group.start rng i = .ok (a, j) → share.length ≠ H.layout.classicalLen + H.layout.pqServerLen →
      a.complete share = .error (.err .InvalidKeyShare) := by
  constructor
  · intro h
    show hybridStartAndComplete H rng i share = _
    unfold hybridStartAndComplete
    rw [(C51_split_length ..).2 h]
    rfl
  · intro a j h hl
    obtain ⟨ca, pa, i', _, _, rfl⟩ := (C51_start ..).1 h
    show hybridComplete _ _ _ _ = _
    unfold hybridComplete
    rw [(C51_split_length ..).2 hl]
    rfl

/-- **C51** For any two groups: the server's answer to the client's offer makes both end with the same secret if each group alone
does. -/
theorem C51_agree (H : Hybrid) (rng rng' : RandomSource) (i j k l : Nat) (a : Active) (r : Completed)
    (hc : ∀ ca i' cl k', H.classical.start rng i = .ok (ca, i') →
      H.classical.startAndComplete rng' k ca.pubKey = .ok (cl, k') →
      ca.pubKey.length = H.layout.classicalLen ∧ cl.pubKey.length = H.layout.classicalLen ∧ ca.complete cl.pubKey = .ok cl.secret)
    (hp : ∀ pa i' j' pq k' l', H.postQuantum.start rng i' = .ok (pa, j') →
      H.postQuantum.startAndComplete rng' k' pa.pubKey = .ok (pq, l') →
      pa.pubKey.length = H.layout.pqClientLen ∧ pq.pubKey.length = H.layout.pqServerLen ∧ pa.complete pq.pubKey = .ok pq.secret)
    (hpl : ∀ pa i' j', H.postQuantum.start rng i' = .ok (pa, j') → pa.pubKey.length = H.layout.pqClientLen)
    (h1 : H.group.start rng i = .ok (a, j)) (h2 : H.group.startAndComplete rng' k a.pubKey = .ok (r, l)) :
    a.complete r.pubKey = .ok r.secret := by
  obtain ⟨ca, pa, i', e1, e2, rfl⟩ := (C51_start ..).1 h1
  obtain ⟨pqs, cls, cl, pq, k', l1, l2, e3, e4, e5, rfl⟩ := (C51_server ..).1 h2
  have hl := hpl _ _ _ e2
  have hcl : ca.pubKey.length = cls.length := by
    have := congrArg List.length e3
    unfold Layout.concat at this
    dsimp only at this
    split at this <;> rw [List.length_append, List.length_append] at this <;> omega
  obtain ⟨rfl, rfl⟩ : pa.pubKey = pqs ∧ ca.pubKey = cls := by
    have a1 := split_concat H.layout _ pa.pubKey ca.pubKey hl (hcl.trans l2)
    have e3 : H.layout.concat pa.pubKey ca.pubKey = _ := e3
    rw [e3, split_concat _ _ _ _ l1 l2] at a1
    have := Option.some.inj a1
    exact ⟨(Prod.ext_iff.1 this).1.symm, (Prod.ext_iff.1 this).2.symm⟩
  obtain ⟨c1, c2, c3⟩ := hc _ _ _ _ e1 e4
  obtain ⟨p1, p2, p3⟩ := hp _ _ _ _ _ _ e2 e5
  exact (C51_client ..).2 ⟨_, _, _, _, p2, c2, rfl, c3, p3, rfl⟩

/-! ### X25519 -/

/-- `complete`, exactly: 32 bytes that do not lead to the zero secret give `X25519(k, peer)`; all else is an invalid share. -/
theorem C59_x25519_complete {A : X25519.Asm} (hA : A.Ok) (k : X25519.StaticPrivateKey) (peer : Bytes) :
    x25519Complete A k.key peer =
      if peer.length = 32 ∧ Spec.X25519.x25519 k.asBytes peer ≠ List.replicate 32 0#8
        then .ok (Spec.X25519.x25519 k.asBytes peer) else .error (.err .InvalidKeyShare) := by
  obtain ⟨h1, h2, -⟩ := C37_public_round_trip peer
  by_cases hl : peer.length = 32
  · obtain ⟨P, e1, -, e2⟩ := h1 hl
    obtain ⟨d1, d2, d3⟩ := C37_diffie_hellman hA k P
    rw [e2] at d1 d2
    have e : x25519Complete A k.key peer =
        (do let s ← mapErr .InvalidKeyShare (k.diffieHellman A P); return s.asBytes) := by
      rw [d3, x25519Complete, e1]; rfl
    rw [e]
    by_cases hz : Spec.X25519.x25519 k.asBytes peer = List.replicate 32 0#8
    · rw [if_neg (fun h => h.2 hz), d1 hz]; rfl
    · obtain ⟨s, g1, g2, -⟩ := d2 hz
      rw [if_pos ⟨hl, hz⟩, g1, ← g2]; rfl
  · rw [if_neg (fun h => hl h.1), x25519Complete, h2 hl]; rfl

/-- `start`, exactly: the public key of 32 random bytes. -/
theorem C59_x25519_start {A : X25519.Asm} (hA : A.Ok) (rng : RandomSource) (hr : rng.Fills) (i : Nat) :
    (∀ e, rng i 32 = .error e → (Kx.x25519 A).start rng i = .error (.err .GetRandomFailed)) ∧
    ∀ r, rng i 32 = .ok r → ∃ k : X25519.StaticPrivateKey, k.asBytes = r ∧
      (Kx.x25519 A).start rng i =
        .ok (plain .X25519 (Spec.X25519.x25519 r Spec.X25519.base) (x25519Complete A k.key), i + 1) := by
  constructor
  · intro e h
    show x25519Start A rng i = _
    rw [x25519Start, ((C37_new_random rng i).2 e h).2]; rfl
  · intro r h
    obtain ⟨k, -, h2, h3⟩ := (C37_private_round_trip r).1 (hr _ _ _ h)
    refine ⟨k, h3, ?_⟩
    show x25519Start A rng i = _
    rw [x25519Start, ((C37_new_random rng i).1 r h).2, h2, ← h3, ← (C37_public_key hA k).1]; rfl

theorem x25519_length (k u : Bytes) : (Spec.X25519.x25519 k u).length = 32 := toLE_length _ _

/-- Two exchanges with X25519 agree. -/
theorem x25519_agrees {A : X25519.Asm} (hA : A.Ok) (rng rng' : RandomSource) (hr : rng.Fills) (hr' : rng'.Fills) (i j k l : Nat)
    (a b : Active) (h1 : (Kx.x25519 A).start rng i = .ok (a, j)) (h2 : (Kx.x25519 A).start rng' k = .ok (b, l)) :
    a.pubKey.length = 32 ∧ b.pubKey.length = 32 ∧ ∃ secret ka kb, rng i 32 = .ok ka ∧ rng' k 32 = .ok kb ∧
      secret = Spec.X25519.x25519 kb a.pubKey ∧ a.pubKey = Spec.X25519.x25519 ka Spec.X25519.base ∧
      b.pubKey = Spec.X25519.x25519 kb Spec.X25519.base ∧
      a.complete b.pubKey = .ok secret ∧ b.complete a.pubKey = .ok secret := by
  obtain ⟨e1, o1⟩ := C59_x25519_start hA rng hr i
  obtain ⟨e2, o2⟩ := C59_x25519_start hA rng' hr' k
  cases ha : rng i 32 with
  | error e => rw [e1 e ha] at h1; cases h1
  | ok ra =>
  cases hb : rng' k 32 with
  | error e => rw [e2 e hb] at h2; cases h2
  | ok rb =>
  obtain ⟨ka, p1, p2⟩ := o1 ra ha
  obtain ⟨kb, q1, q2⟩ := o2 rb hb
  rw [p2] at h1
  rw [q2] at h2
  have h1 := (Prod.ext_iff.1 (Except.ok.inj h1)).1
  have h2 := (Prod.ext_iff.1 (Except.ok.inj h2)).1
  dsimp only at h1 h2
  subst h1 h2
  refine ⟨x25519_length _ _, x25519_length _ _, ?_⟩
  obtain ⟨s, s1, s2, s3⟩ := C37_agreement hA ka kb
  have pa := (C37_public_key hA ka).1
  have pb := (C37_public_key hA kb).1
  rw [p1] at pa s3
  rw [q1] at pb s3
  have z1 := C37_nonzero hA ka _ s1
  rw [s3] at z1
  have comm := C37_commutes ra rb Spec.X25519.base
  refine ⟨_, ra, rb, rfl, rfl, rfl, rfl, rfl, ?_, ?_⟩
  · show x25519Complete A ka.key (Spec.X25519.x25519 rb Spec.X25519.base) =
      .ok (Spec.X25519.x25519 rb (Spec.X25519.x25519 ra Spec.X25519.base))
    rw [C59_x25519_complete hA, p1, if_pos ⟨x25519_length _ _, z1⟩, comm]
  · show x25519Complete A kb.key (Spec.X25519.x25519 ra Spec.X25519.base) =
      .ok (Spec.X25519.x25519 rb (Spec.X25519.x25519 ra Spec.X25519.base))
    rw [C59_x25519_complete hA, q1, if_pos ⟨x25519_length _ _, by rw [← comm]; exact z1⟩]

/-! ### P-256 and P-384 -/

section
open Verif.Ec Verif.Spec.Nist Verif.EcCard
variable {N : Nat} {D : Params} [Fact D.p.Prime] [Fact D.n.Prime] {C : Ec.Curve N} {A : Ec.Asm N}

/-- `start`, exactly: a key in range and its encoded point, or the failure of the random source. -/
theorem C59_ec_start (name : NamedGroup) (h : Nist D C) (hA : A.Ok D.p D.n) (rng : RandomSource) (i : Nat) :
    (∃ e, Ec.generate A rng i = .error (.err e) ∧ ecStart name C A rng i = .error (.err .GetRandomFailed)) ∨
    ∃ d j x y, Ec.generate A rng i = .ok (d, j) ∧ 1 ≤ d.toNat ∧ d.toNat < D.n ∧ D.At (d.toNat • D.G) x y ∧
      ecStart name C A rng i = .ok (plain name (encodePoint (N * 8) x y) (ecComplete C A d), j) := by
  rcases C36_cases (N := N) (D := D) rng i with hu | ⟨j, hj, hu, ⟨err, hb⟩ | ⟨b, hb, h1, h2⟩⟩
  · have e := C36_gives_up h hA rng i hu
    exact .inl ⟨_, e, by rw [ecStart, e]; rfl⟩
  · have e := C36_source_fails h hA rng i j hj hu err hb
    exact .inl ⟨_, e, by rw [ecStart, e]; rfl⟩
  · obtain ⟨d, e1, e2⟩ := C36_first_suitable h hA rng i j hj hu b hb h1 h2
    obtain ⟨x, y, hat, e⟩ := C33_public_key h hA d (by omega) (by omega)
    refine .inr ⟨d, _, x, y, e1, by omega, by omega, hat, ?_⟩
    rw [ecStart, e1]
    show (do let pub ← mapFault .GetRandomFailed (publicKeyUncompressed C A d); return (plain name pub (ecComplete C A d), _)) = _
    rw [e]; rfl

/-- `complete`, exactly: `04` and two coordinates on the curve give the x-coordinate of the multiple of that point, and all else
is an invalid share; there is no panic. -/
theorem C59_ec_complete (h : Nist D C) (hA : A.Ok D.p D.n) (d : Scalar N) (h1 : 1 ≤ d.toNat) (h2 : d.toNat < D.n) (peer : Bytes) :
    ((∃ xb yb, peer = 0x04#8 :: (xb ++ yb) ∧ xb.length = N * 8 ∧ yb.length = N * 8 ∧ D.OnCurve (beNat xb) (beNat yb) ∧
      ∃ (Q : D.Pt) (x y : Nat), D.At Q (beNat xb % D.p) (beNat yb % D.p) ∧ D.At (d.toNat • Q) x y ∧
        ecComplete C A d peer = .ok (toBE (N * 8) x)) ∨
    (¬ (∃ xb yb, peer = 0x04#8 :: (xb ++ yb) ∧ xb.length = N * 8 ∧ yb.length = N * 8 ∧ D.OnCurve (beNat xb) (beNat yb)) ∧
      ecComplete C A d peer = .error (.err .InvalidKeyShare))) := by
  cases hK : PublicKey.fromX962Uncompressed C A peer with
  | error e =>
    refine .inr ⟨fun hx => ?_, ?_⟩
    · obtain ⟨K, e'⟩ := (C35_accepts h hA peer).2 hx
      rw [hK] at e'; cases e'
    · rw [ecComplete, hK, C35_errors h hA peer e hK]; rfl
  | ok K =>
    obtain ⟨xb, yb, rfl, hx, hy, hc⟩ := (C35_accepts h hA peer).1 ⟨K, hK⟩
    obtain ⟨Q, q1, q2, -⟩ := C35_meaning h hA xb yb hx hy K hK
    obtain ⟨x, y, e1, e2⟩ := C58_shared_secret h hA d h1 h2 Q K q2
    refine .inl ⟨xb, yb, rfl, hx, hy, hc, Q, x, y, q1, e1, ?_⟩
    rw [ecComplete, hK]
    show mapFault _ (diffieHellman C A d K) = _
    rw [e2]; rfl

/-- Two exchanges on a curve agree. -/
theorem ec_agrees (name : NamedGroup) (h : Nist D C) (hA : A.Ok D.p D.n) (rng rng' : RandomSource) (i j k l : Nat)
    (a b : Active) (h1 : ecStart name C A rng i = .ok (a, j)) (h2 : ecStart name C A rng' k = .ok (b, l)) :
    a.pubKey.length = 1 + 2 * (N * 8) ∧ b.pubKey.length = 1 + 2 * (N * 8) ∧ ∃ secret,
      a.complete b.pubKey = .ok secret ∧ b.complete a.pubKey = .ok secret := by
  rcases C59_ec_start name h hA rng i with ⟨_, _, e⟩ | ⟨da, ja, xa, ya, ga, a1, a2, a3, a4⟩
  · rw [e] at h1; cases h1
  rcases C59_ec_start name h hA rng' k with ⟨_, _, e⟩ | ⟨db, jb, xb, yb, gb, b1, b2, b3, b4⟩
  · rw [e] at h2; cases h2
  rw [a4] at h1
  rw [b4] at h2
  have h1 := (Prod.ext_iff.1 (Except.ok.inj h1)).1
  have h2 := (Prod.ext_iff.1 (Except.ok.inj h2)).1
  dsimp only at h1 h2
  subst h1 h2
  have len : ∀ x y, (encodePoint (N * 8) x y).length = 1 + 2 * (N * 8) := by
    intro x y
    simp only [encodePoint, List.length_cons, List.length_append, toBE_length]
    omega
  refine ⟨len _ _, len _ _, ?_⟩
  obtain ⟨ab, bb, KA, KB, s, e1, e2, e3, e4, e5, e6⟩ := C58_agreement h hA da db ⟨a1, a2⟩ ⟨b1, b2⟩
  obtain ⟨xa', ya', hat, ea⟩ := C33_public_key h hA da a1 a2
  obtain ⟨rfl, rfl⟩ := at_inj hat a3
  obtain ⟨xb', yb', hat', eb⟩ := C33_public_key h hA db b1 b2
  obtain ⟨rfl, rfl⟩ := at_inj hat' b3
  rw [ea] at e1
  rw [eb] at e2
  have e1 := Except.ok.inj e1
  have e2 := Except.ok.inj e2
  subst e1 e2
  refine ⟨s, ?_, ?_⟩
  · show ecComplete C A da (encodePoint (N * 8) _ _) = _
    rw [ecComplete, e4]
    show mapFault _ (diffieHellman C A da KB) = _
    rw [e5]; rfl
  · show ecComplete C A db (encodePoint (N * 8) _ _) = _
    rw [ecComplete, e3]
    show mapFault _ (diffieHellman C A db KA) = _
    rw [e6]; rfl
end

/-! ### The groups without post-quantum part -/

/-- The three groups, with the length of their public keys. -/
inductive ClassicalGroup : Group → Nat → Prop
  | x25519 {A : X25519.Asm} (hA : A.Ok) : ClassicalGroup (Kx.x25519 A) 32
  | p256 {A : Ec.Asm 4} (hA : A.Ok Spec.Nist.p256.p Spec.Nist.p256.n) : ClassicalGroup (Kx.p256 A) 65
  | p384 {A : Ec.Asm 6} (hA : A.Ok Spec.Nist.p384.p Spec.Nist.p384.n) : ClassicalGroup (Kx.p384 A) 97

open Verif.EcCard in
/-- **C59** For X25519, P-256 and P-384: if the client's and the server's random sources give them keys, the server accepts the
client's offer, the client accepts the answer, and they have the same secret. -/
theorem C59_agree {G : Group} {n : Nat} (hG : ClassicalGroup G n) (rng rng' : RandomSource) (hr : rng.Fills) (hr' : rng'.Fills)
    (i j k l : Nat) (a b : Active) (h1 : G.start rng i = .ok (a, j)) (h2 : G.start rng' k = .ok (b, l)) :
    ∃ r, G.startAndComplete rng' k a.pubKey = .ok (r, l) ∧ a.complete r.pubKey = .ok r.secret ∧
      r.pubKey = b.pubKey ∧ r.group = G.name ∧ a.group = G.name ∧ a.pubKey.length = n ∧ r.pubKey.length = n := by
  have gen : ∀ start : RandomSource → Nat → KR (Active × Nat), start rng' k = .ok (b, l) → ∀ secret,
      a.complete b.pubKey = .ok secret → b.complete a.pubKey = .ok secret →
      ∃ r, defaultStartAndComplete start rng' k a.pubKey = .ok (r, l) ∧ a.complete r.pubKey = .ok r.secret ∧
        r.pubKey = b.pubKey ∧ r.group = b.group := by
    intro start h2 secret h3 h4
    refine ⟨⟨b.group, b.pubKey, secret⟩, ?_, h3, rfl, rfl⟩
    rw [defaultStartAndComplete, h2]
    show (do let secret ← b.complete a.pubKey; return (_, _)) = _
    rw [h4]; rfl
  cases hG with
  | @x25519 A hA =>
    obtain ⟨l1, l2, s, _, _, -, -, -, -, -, s1, s2⟩ := x25519_agrees hA rng rng' hr hr' i j k l a b h1 h2
    obtain ⟨r, r1, r2, r3, r4⟩ := gen (x25519Start A) h2 s s1 s2
    have ga : ∀ rng i c j, x25519Start A rng i = .ok (c, j) → c.group = .X25519 := by
      intro rng i c j h
      rw [x25519Start, kx_bind_ok] at h
      obtain ⟨_, -, h⟩ := h
      have h := (Prod.ext_iff.1 (Except.ok.inj h)).1
      dsimp only at h
      rw [← h]; rfl
    exact ⟨r, r1, r2, r3, by rw [r4]; exact ga _ _ _ _ h2, ga _ _ _ _ h1, l1, by rw [r3, l2]⟩
  | @p256 A hA =>
    have ga : ∀ rng i c j, ecStart .secp256r1 Ec.curveP256 A rng i = .ok (c, j) → c.group = .secp256r1 := by
      intro rng i c j h
      rw [ecStart, kx_bind_ok] at h
      obtain ⟨_, -, h⟩ := h
      obtain ⟨_, -, h⟩ := kx_bind_ok.1 h
      have h := (Prod.ext_iff.1 (Except.ok.inj h)).1
      dsimp only at h
      rw [← h]; rfl
    obtain ⟨l1, l2, s, s1, s2⟩ := ec_agrees .secp256r1 .p256 hA rng rng' i j k l a b h1 h2
    obtain ⟨r, r1, r2, r3, r4⟩ := gen _ h2 s s1 s2
    exact ⟨r, r1, r2, r3, by rw [r4]; exact ga _ _ _ _ h2, ga _ _ _ _ h1, l1, by rw [r3, l2]⟩
  | @p384 A hA =>
    have ga : ∀ rng i c j, ecStart .secp384r1 Ec.curveP384 A rng i = .ok (c, j) → c.group = .secp384r1 := by
      intro rng i c j h
      rw [ecStart, kx_bind_ok] at h
      obtain ⟨_, -, h⟩ := h
      obtain ⟨_, -, h⟩ := kx_bind_ok.1 h
      have h := (Prod.ext_iff.1 (Except.ok.inj h)).1
      dsimp only at h
      rw [← h]; rfl
    obtain ⟨l1, l2, s, s1, s2⟩ := ec_agrees .secp384r1 .p384 hA rng rng' i j k l a b h1 h2
    obtain ⟨r, r1, r2, r3, r4⟩ := gen _ h2 s s1 s2
    exact ⟨r, r1, r2, r3, by rw [r4]; exact ga _ _ _ _ h2, ga _ _ _ _ h1, l1, by rw [r3, l2]⟩

/-! ### ML-KEM-768 -/

open Verif.MlKem Verif.Spec.MlKem

/-- **C42** The public half of a generated key is accepted by the import, and comes back as it was. -/
theorem C42_own_key {A : MlKem.Asm} {σ : Fin 256 → Fin 256} (h : Contract A σ) (Gu : Sha3.Lanes → Sha3.Lanes) (fuel : Nat)
    (d z : Bytes) (hd : d.length = 32) (hz : z.length = 32) (dk : DecapKey) (hk : keygenInternal A Gu fuel (d ++ z) = some dk) :
    encapFromBytes A fuel (encapAsBytes dk.ekPke) = some (some dk.ekPke) := by
  obtain ⟨k1, k2⟩ := C43_keygen h Gu fuel d z hd hz
  obtain ⟨⟨v1, v2, v3⟩, -⟩ := k2 dk hk
  rw [hk, Option.map_some, keyGen_eq _ _ _ []] at k1
  have ht : ∃ v, dk.ekPke.tHat = encodeVec12 v := by
    cases hM : sampleMat (168 * (3 + fuel)) (G (d ++ [3#8])).1 with
    | none => rw [hM] at k1; cases k1
    | some M =>
      rw [hM, Option.map_some] at k1
      have k1 := (Prod.ext_iff.1 (Option.some.inj k1)).1
      dsimp only at k1
      rw [encapAsBytes] at k1
      exact ⟨_, (List.append_inj k1 (by rw [v1, encodeVec12_length])).1⟩
  obtain ⟨v, hv⟩ := ht
  have hK : MlKem.K * 384 = 1152 := rfl
  rw [encapFromBytes, hK, encapAsBytes, List.take_left' v1, List.drop_left' v1, v3]
  rw [if_neg]
  · rfl
  · rw [Decidable.not_not, hv, fromBytes12_ok h _ (encodeVec12_length _), toBytes12_ok h, decode_encodeVec12]

/-- **C59** ML-KEM-768: a server with a random source accepts every generated offer and answers with 1088 bytes; the client gets
the same 32-byte secret whenever the error of this encryption is below the decoding threshold (`Decodes`, see C46), and some
32-byte secret otherwise. -/
theorem C59_mlkem {A : MlKem.Asm} {σ : Fin 256 → Fin 256} (h : Contract A σ) (Gu : Sha3.Lanes → Sha3.Lanes) (fuel : Nat)
    (rng rng' : RandomSource) (hr : rng.Fills) (hr' : rng'.Fills) (i j k : Nat) (a : Active)
    (h1 : (mlkem ⟨A, Gu, fuel⟩).start rng i = .ok (a, j)) (m : Bytes) (hm : rng' k 32 = .ok m) :
    ∃ seed c s s', rng i 64 = .ok seed ∧ j = i + 1 ∧ a.pubKey.length = 1184 ∧ c.length = 1088 ∧ s.length = 32 ∧ s'.length = 32 ∧
      (mlkem ⟨A, Gu, fuel⟩).startAndComplete rng' k a.pubKey = .ok (⟨.MLKEM768, c, s⟩, k + 1) ∧ a.complete c = .ok s' ∧
      (Decodes (168 * (3 + fuel)) (seed.take 32) a.pubKey m → s' = s) := by
  have h1 : mlkemStart ⟨A, Gu, fuel⟩ rng i = .ok (a, j) := h1
  rw [mlkemStart, kx_bind_ok] at h1
  obtain ⟨seed, g1, h1⟩ := h1
  obtain ⟨dk, g2, h1⟩ := kx_bind_ok.1 h1
  have h1 := Prod.ext_iff.1 (Except.ok.inj h1)
  obtain ⟨ha, hj⟩ := h1
  dsimp only at ha hj
  have g1 : rng i 64 = .ok seed := by
    cases hs : rng i 64 with
    | error e => rw [hs] at g1; cases g1
    | ok x => rw [hs] at g1; rw [Except.ok.inj g1]
  have g2 : keygenInternal A Gu fuel seed = some dk := by
    cases hs : keygenInternal A Gu fuel seed with
    | none => rw [hs] at g2; cases g2
    | some x => rw [hs] at g2; rw [Except.ok.inj g2]
  have hsl := hr _ _ _ g1
  have hml := hr' _ _ _ hm
  have es : seed = seed.take 32 ++ seed.drop 32 := (List.take_append_drop ..).symm
  have ld : (seed.take 32).length = 32 := by rw [List.length_take]; omega
  have lz : (seed.drop 32).length = 32 := by rw [List.length_drop]; omega
  rw [es] at g2
  obtain ⟨-, k2⟩ := C43_keygen h Gu fuel _ _ ld lz
  have hv := k2 dk g2
  have hlen : (encapAsBytes dk.ekPke).length = 1184 := by
    rw [encapAsBytes, List.length_append, hv.1.1, hv.1.2.1]
  have hown := C42_own_key h Gu fuel _ _ ld lz dk g2
  obtain ⟨⟨s, c⟩, e1, e2⟩ := C43_encaps h Gu fuel dk.ekPke hv.1 m hml
  have hc : c.length = 1088 ∧ s.length = 32 := by
    rw [Spec.MlKem.encapsInternal] at e2
    have hG : (G (m ++ H (encapAsBytes dk.ekPke))).1.length = 32 := G_fst_length _
    generalize G (m ++ H (encapAsBytes dk.ekPke)) = kr at e2 hG
    obtain ⟨K', r⟩ := kr
    dsimp only at e2 hG
    rcases hE : Spec.MlKem.kpkeEncrypt (168 * (3 + fuel)) (encapAsBytes dk.ekPke) m r with _ | c'
    · rw [hE] at e2; cases e2
    rw [hE, Option.map_some, Option.some.injEq, Prod.mk.injEq] at e2
    rw [← e2.2, ← e2.1]
    exact ⟨encrypt_length hE, hG⟩
  obtain ⟨s', d2, hs'⟩ : ∃ s', MlKem.decapsInternal A Gu dk c = some s' ∧ s'.length = 32 := by
    obtain ⟨c', -, d2⟩ := C43_decaps h Gu fuel dk hv c hc.1
    refine ⟨_, d2, ?_⟩
    split
    · exact G_fst_length _
    · rw [J, Spec.Keccak.shake256, Spec.Keccak.sponge, Spec.Keccak.squeeze]; simp
  refine ⟨seed, c, s, s', g1, hj.symm, by rw [← ha]; exact hlen, hc.1, hc.2, hs', ?_, ?_, ?_⟩
  · rw [← ha]
    show mlkemStartAndComplete ⟨A, Gu, fuel⟩ rng' k (encapAsBytes dk.ekPke) = _
    rw [mlkemStartAndComplete, mlkemImport, if_neg (by rw [hlen]; simp), hown]
    exact kx_bind_ok.2 ⟨dk.ekPke, rfl, kx_bind_ok.2 ⟨m, by rw [hm]; rfl, kx_bind_ok.2 ⟨(s, c), by rw [e1]; rfl, rfl⟩⟩⟩
  · rw [← ha]
    show mlkemComplete ⟨A, Gu, fuel⟩ dk c = _
    rw [mlkemComplete, if_neg (by rw [hc.1]; simp), d2]; rfl
  · intro hdec
    rw [← ha] at hdec
    have := C46_decaps h Gu fuel _ _ m s c ld lz hml dk g2 e1 hdec
    rw [d2] at this
    exact Option.some.inj this

/-- **C59** ML-KEM-768, the server: an offer that is not 1184 bytes, or that has a coefficient of 3329 or more in its first 1152
bytes, is an invalid share, whatever the random source does. -/
theorem C59_mlkem_server_refuses {A : MlKem.Asm} {σ : Fin 256 → Fin 256} (h : Contract A σ) (Gu : Sha3.Lanes → Sha3.Lanes)
    (fuel : Nat) (rng : RandomSource) (i : Nat) (share : Bytes)
    (hs : ¬ (share.length = 1184 ∧ ∀ i < 768, leNat (share.take 1152) / 2 ^ (12 * i) % 2 ^ 12 < 3329)) :
    (mlkem ⟨A, Gu, fuel⟩).startAndComplete rng i share = .error (.err .InvalidKeyShare) := by
  show mlkemStartAndComplete ⟨A, Gu, fuel⟩ rng i share = _
  rw [mlkemStartAndComplete, mlkemImport]
  by_cases hl : share.length = 1184
  · rw [if_neg (fun g => g hl), (C42_from_bytes h fuel share hl).1.2 (fun g => hs ⟨hl, g⟩)]; rfl
  · rw [if_pos hl]; rfl

/-- **C59** ML-KEM-768, the client: an answer that is not 1088 bytes is an invalid share; every other one gives 32 bytes. -/
theorem C59_mlkem_client {A : MlKem.Asm} {σ : Fin 256 → Fin 256} (h : Contract A σ) (Gu : Sha3.Lanes → Sha3.Lanes) (fuel : Nat)
    (rng : RandomSource) (hr : rng.Fills) (i j : Nat) (a : Active) (h1 : (mlkem ⟨A, Gu, fuel⟩).start rng i = .ok (a, j))
    (answer : Bytes) :
    (answer.length ≠ 1088 → a.complete answer = .error (.err .InvalidKeyShare)) ∧
    (answer.length = 1088 → ∃ s, s.length = 32 ∧ a.complete answer = .ok s) := by
  have h1 : mlkemStart ⟨A, Gu, fuel⟩ rng i = .ok (a, j) := h1
  rw [mlkemStart, kx_bind_ok] at h1
  obtain ⟨seed, g1, h1⟩ := h1
  obtain ⟨dk, g2, h1⟩ := kx_bind_ok.1 h1
  have ha := (Prod.ext_iff.1 (Except.ok.inj h1)).1
  dsimp only at ha
  have g1 : rng i 64 = .ok seed := by
    cases hs : rng i 64 with
    | error e => rw [hs] at g1; cases g1
    | ok x => rw [hs] at g1; rw [Except.ok.inj g1]
  have g2 : keygenInternal A Gu fuel seed = some dk := by
    cases hs : keygenInternal A Gu fuel seed with
    | none => rw [hs] at g2; cases g2
    | some x => rw [hs] at g2; rw [Except.ok.inj g2]
  have hsl := hr _ _ _ g1
  rw [show seed = seed.take 32 ++ seed.drop 32 from (List.take_append_drop ..).symm] at g2
  have hv := (C43_keygen h Gu fuel _ _ (by rw [List.length_take]; omega) (by rw [List.length_drop]; omega)).2 dk g2
  rw [← ha]
  refine ⟨fun hl => ?_, fun hl => ?_⟩
  · show mlkemComplete ⟨A, Gu, fuel⟩ dk answer = _
    rw [mlkemComplete, if_pos hl]
  · obtain ⟨c', -, d2⟩ := C43_decaps h Gu fuel dk hv answer hl
    refine ⟨_, ?_, show mlkemComplete ⟨A, Gu, fuel⟩ dk answer = _ by rw [mlkemComplete, if_neg (fun g => g hl), d2]; rfl⟩
    split
    · exact G_fst_length _
    · rw [J, Spec.Keccak.shake256, Spec.Keccak.sponge, Spec.Keccak.squeeze]; simp

/-- **C59** The groups offered, in the order of preference: the hybrid first, then X25519, P-256 and P-384, each under its own name. -/
theorem C59_offered (X : X25519.Asm) (E : MlKemEnv) (A4 : Ec.Asm 4) (A6 : Ec.Asm 6) :
    (allKxGroups X E A4 A6).map Group.name = [.X25519MLKEM768, .X25519, .secp256r1, .secp384r1] ∧
    ∀ G ∈ allKxGroups X E A4 A6,
      G = (match G.name with
        | .X25519MLKEM768 => Hybrid.group ⟨Kx.x25519 X, mlkem E, .X25519MLKEM768, ⟨32, 1184, 1088, true⟩⟩
        | .X25519 => Kx.x25519 X | .secp256r1 => Kx.p256 A4 | .secp384r1 => Kx.p384 A6 | .MLKEM768 => mlkem E) := by
  refine ⟨rfl, fun G hG => ?_⟩
  simp only [allKxGroups, List.mem_cons, List.not_mem_nil, or_false] at hG
  rcases hG with rfl | rfl | rfl | rfl <;> rfl

/-! ### X25519MLKEM768 -/

/-- **C51** X25519MLKEM768: the client offers 1216 bytes, the ML-KEM key first; the server, if its random source does not fail,
accepts and answers with 1120 bytes, the ciphertext first; its secret is the 32 bytes of ML-KEM followed by the 32 of X25519.  The
client's secret is the same, in the X25519 part always, and in the ML-KEM part whenever the error of the encryption is below the
decoding threshold. -/
theorem C51_x25519mlkem768 {A : MlKem.Asm} {σ : Fin 256 → Fin 256} (h : Contract A σ) (Gu : Sha3.Lanes → Sha3.Lanes) (fuel : Nat)
    {X : X25519.Asm} (hX : X.Ok) (rng rng' : RandomSource) (hr : rng.Fills) (hr' : rng'.Fills) (i j k : Nat) (a : Active)
    (h1 : (x25519mlkem768 X ⟨A, Gu, fuel⟩).group.start rng i = .ok (a, j))
    (kb m : Bytes) (hkb : rng' k 32 = .ok kb) (hm : rng' (k + 1) 32 = .ok m) :
    ∃ ka seed ek c s s' x, rng i 32 = .ok ka ∧ rng (i + 1) 64 = .ok seed ∧ ek.length = 1184 ∧ c.length = 1088 ∧
      s.length = 32 ∧ s'.length = 32 ∧ x.length = 32 ∧ x = Spec.X25519.x25519 kb (Spec.X25519.x25519 ka Spec.X25519.base) ∧
      a.pubKey = ek ++ Spec.X25519.x25519 ka Spec.X25519.base ∧ a.pubKey.length = 1216 ∧
      (x25519mlkem768 X ⟨A, Gu, fuel⟩).group.startAndComplete rng' k a.pubKey =
        .ok (⟨.X25519MLKEM768, c ++ Spec.X25519.x25519 kb Spec.X25519.base, s ++ x⟩, k + 2) ∧
      a.complete (c ++ Spec.X25519.x25519 kb Spec.X25519.base) = .ok (s' ++ x) ∧
      (Decodes (168 * (3 + fuel)) (seed.take 32) ek m → s' = s) := by
  obtain ⟨ca, pa, i', e1, e2, rfl⟩ := (C51_start ..).1 h1
  obtain ⟨E1, O1⟩ := C59_x25519_start hX rng' hr' k
  obtain ⟨kB, hkB, hb⟩ := O1 kb hkb
  have e1 : (Kx.x25519 X).start rng i = .ok (ca, i') := e1
  obtain ⟨l1, l2, x, ka, kb', q1, q2, q3, q4, q5, q6, q7⟩ := x25519_agrees hX rng rng' hr hr' i i' k (k + 1) ca _ e1 hb
  rw [hkb] at q2
  cases q2
  have hi' : i' = i + 1 := by
    obtain ⟨E1, O1⟩ := C59_x25519_start hX rng hr i
    obtain ⟨_, _, hb⟩ := O1 ka q1
    rw [e1] at hb
    exact (Prod.ext_iff.1 (Except.ok.inj hb)).2
  subst hi'
  obtain ⟨seed, c, s, s', p1, p2, p3, p4, p5, p5', p6, p7, p8⟩ := C59_mlkem h Gu fuel rng rng' hr hr' (i + 1) j (k + 1) pa e2 m hm
  refine ⟨ka, seed, pa.pubKey, c, s, s', x, q1, p1, p3, p4, p5, p5', by rw [q3]; exact x25519_length _ _, by rw [q3, q4], by rw [← q4]; rfl, ?_, ?_, ?_, p8⟩
  · show (pa.pubKey ++ ca.pubKey).length = _
    rw [List.length_append, p3, l1]
  · rw [C51_server]
    refine ⟨pa.pubKey, ca.pubKey, ⟨.X25519, _, x⟩, ⟨.MLKEM768, c, s⟩, k + 1, p3, l1, rfl, ?_, p6, rfl⟩
    show defaultStartAndComplete (x25519Start X) rng' k ca.pubKey = _
    have hb : x25519Start X rng' k = _ := hb
    rw [defaultStartAndComplete, hb]
    show (do let secret ← x25519Complete X kB.key ca.pubKey; return (_, _)) = _
    have q7 : x25519Complete X kB.key ca.pubKey = .ok x := q7
    rw [q7]; rfl
  · exact (C51_client ..).2 ⟨c, _, s', x, p4, l2, rfl, q6, p7, rfl⟩

/-! ### Concrete cases -/

/-- A random source for the examples: the number 5 in as many bytes as asked for. -/
def fiveRng : RandomSource := fun _ n => .ok (List.replicate (n - 1) 0#8 ++ List.replicate (min n 1) 5#8)

theorem fiveRng_fills : fiveRng.Fills := by
  intro i n b h
  rw [fiveRng] at h
  rw [← Except.ok.inj h, List.length_append, List.length_replicate, List.length_replicate]
  omega

example : ∃ a, (Kx.x25519 X25519.refAsm).start fiveRng 0 = .ok (a, 1) := by
  obtain ⟨_, _, e⟩ := (C59_x25519_start X25519.refAsm_ok fiveRng fiveRng_fills 0).2 _ rfl
  exact ⟨_, e⟩

open Verif.EcCard Verif.Spec.Nist in
example : ∃ a, (Kx.p256 (Ec.refAsm 4 p256.p p256.n)).start fiveRng 0 = .ok (a, 1) := by
  obtain ⟨d, h1, h2⟩ := C36_first_suitable .p256 refP256 fiveRng 0 0 (by decide) (fun _ h => (by cases h)) _ rfl
    (by decide +kernel) (by decide +kernel)
  rcases C59_ec_start .secp256r1 .p256 refP256 fiveRng 0 with ⟨_, e, -⟩ | ⟨_, _, _, _, e, -, -, -, e'⟩
  · rw [h1] at e; cases e
  · rw [h1] at e
    have e := (Prod.ext_iff.1 (Except.ok.inj e)).2
    dsimp only at e
    rw [← e] at e'
    exact ⟨_, e'⟩

/-- Shares that are one byte short, one byte long, or of the other party's length are refused by the server. -/
example (E : MlKemEnv) (n : Nat) (h : n = 1215 ∨ n = 1217 ∨ n = 1120) :
    (x25519mlkem768 X25519.refAsm E).group.startAndComplete fiveRng 0 (List.replicate n 7#8) = .error (.err .InvalidKeyShare) := by
  refine (C51_wrong_length ..).1 ?_
  rw [List.length_replicate]
  show n ≠ 32 + 1184
  omega

end Verif.Props
