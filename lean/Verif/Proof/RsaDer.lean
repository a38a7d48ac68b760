import Verif.Proof.Rsa
import Verif.Proof.NatOctets
import Verif.Props.Pkcs
import Verif.Props.PosInt
import Verif.Spec.Rsa

/-!
Import and export of RSA keys.
-/
namespace Verif.Rsa
open Verif Verif.Bignum Verif.PosInt Verif.Asn1 Verif.Spec.Der Verif.Props

variable {A : Asm}

/-- An integer in as few words as possible. -/
structure Canon {N : Nat} (p : PosInt N) : Prop where
  inv : p.Inv
  min : ∀ k, p.used ≤ k ↔ p.value < 2 ^ (64 * k)

theorem Canon.eq {N : Nat} {a b : PosInt N} (ha : Canon a) (hb : Canon b) (h : a.value = b.value) : a = b := by
  have hu : a.used = b.used := by
    have h1 := (ha.min b.used).2 (by rw [h]; exact (hb.min _).1 (Nat.le_refl _))
    have h2 := (hb.min a.used).2 (by rw [← h]; exact (ha.min _).1 (Nat.le_refl _))
    omega
  have hw : a.words = b.words := val_inj (by rw [ha.inv.length, hb.inv.length]) (by rw [val_words ha.inv, val_words hb.inv, h])
  cases a; cases b; simp only at hu hw; rw [hu, hw]

theorem fromBytes_cases (N : Nat) (bs : Bytes) :
    (beNat bs < 2 ^ (64 * N) ∧ ∃ r, fromBytes N bs = .ok r ∧ Canon r ∧ r.value = beNat bs) ∨
    (¬ beNat bs < 2 ^ (64 * N) ∧ fromBytes N bs = .error .OutOfRange) := by
  by_cases h : beNat bs < 2 ^ (64 * N)
  · obtain ⟨r, h1, h2, h3, h4⟩ := fromBytes_ok bs h
    exact Or.inl ⟨h, r, h1, ⟨h2, by rw [h3]; exact h4⟩, h3⟩
  · exact Or.inr ⟨h, fromBytes_err bs h⟩

theorem lenBytes_le {N : Nat} (p : PosInt N) (k : Nat) : p.lenBytes ≤ k ↔ p.value < 2 ^ (8 * k) := by
  rw [← lenBits_le, lenBytes]; omega

theorem le_lenBytes {N : Nat} (p : PosInt N) (k : Nat) : k + 1 ≤ p.lenBytes ↔ 2 ^ (8 * k) ≤ p.value := by
  have := lenBytes_le p k; omega

/-- The limits on the numbers in a public key. -/
structure PublicLimits (n e : Nat) : Prop where
  odd : n % 2 = 1
  min : 2 ^ 2040 ≤ n
  max : n < 2 ^ 8192
  e_pos : e ≠ 0
  e_lt : e < 2 ^ 32

/-- The limits on the numbers in a private key. -/
structure PrivateLimits (n e d p q dp dq qInv : Nat) : Prop where
  pub : PublicLimits n e
  oddP : p % 2 = 1
  oddQ : q % 2 = 1
  minP : 2 ^ 1016 ≤ p
  maxP : p < 2 ^ 4096
  maxQ : q < 2 ^ 4096
  maxD : d < 2 ^ 8192
  maxDp : dp < 2 ^ 4096
  maxDq : dq < 2 ^ 4096
  maxQInv : qInv < 2 ^ 4096

/-- A public key holds these numbers. -/
structure PublicKey.Holds (k : PublicKey) (n e : Nat) : Prop where
  n : k.n.value = n
  e : k.e.toNat = e

/-- A private key holds these numbers. -/
structure PrivateKey.Holds (k : PrivateKey) (n e d p q dp dq qInv : Nat) : Prop where
  pub : k.pub.Holds n e
  d : k.d.value = d
  p : k.p.value = p
  q : k.q.value = q
  dp : k.dp.value = dp
  dq : k.dq.value = dq
  qInv : k.iqmp.value = qInv

/-- All the integers of a key are in as few words as possible, as after import. -/
structure PrivateKey.Canonical (k : PrivateKey) : Prop where
  n : Canon k.pub.n
  d : Canon k.d
  p : Canon k.p
  q : Canon k.q
  dp : Canon k.dp
  dq : Canon k.dq
  iqmp : Canon k.iqmp

theorem exponentOf_cases {i : Integer} (h : MinimalInt i.twosComplement) :
    (i.isNegative = false ∧ beNat i.twosComplement < 2 ^ 32 ∧
      exponentOf i = .ok (BitVec.ofNat 32 (beNat i.twosComplement))) ∨
    (¬ (i.isNegative = false ∧ beNat i.twosComplement < 2 ^ 32) ∧ ∃ e, exponentOf i = .error (.err e)) := by
  rcases hu : i.asUsize with f | n
  · right
    refine ⟨?_, ?_⟩
    · rintro ⟨h1, h2⟩
      have hi := natOctets_of_minimal h h1
      have hl : i.twosComplement.length ≤ 8 := by
        rw [hi]
        show (natOctets _).length ≤ 8
        exact (natOctets_length _ 7).2 (Nat.lt_trans h2 (by decide))
      have := (asUsize_ok (i := i) (n := beNat i.twosComplement)).2 ⟨twosComp_nonneg h1, hl⟩
      rw [hu] at this; cases this
    · have : f = .err .IntegerOutOfRange := by
        rw [Integer.asUsize] at hu
        split at hu
        · cases hu; rfl
        · cases hu
      subst this
      exact ⟨_, by rw [exponentOf, hu]; rfl⟩
  · obtain ⟨h1, h2⟩ := asUsize_ok.1 hu
    have hneg : i.isNegative = false := by
      rw [← Bool.not_eq_true, isNegative_iff, h1]; omega
    have hn : n = beNat i.twosComplement := by
      have := twosComp_nonneg hneg
      rw [h1] at this; exact_mod_cast this
    subst hn
    by_cases hlt : beNat i.twosComplement < 2 ^ 32
    · left
      refine ⟨hneg, hlt, ?_⟩
      rw [exponentOf, hu]
      show (if beNat i.twosComplement < 2 ^ 32 then (.ok _ : GR (BitVec 32)) else .error _) = _
      rw [if_pos hlt]
    · right
      refine ⟨fun hc => hlt hc.2, .OutOfRange, ?_⟩
      rw [exponentOf, hu]
      show (if beNat i.twosComplement < 2 ^ 32 then (.ok _ : GR (BitVec 32)) else .error _) = _
      rw [if_neg hlt]

theorem toNat_ofNat32 {e : Nat} (h : e < 2 ^ 32) : (BitVec.ofNat 32 e).toNat = e := by
  rw [BitVec.toNat_ofNat, Nat.mod_eq_of_lt h]

theorem ofNat32_ne {e : Nat} (h : e < 2 ^ 32) : BitVec.ofNat 32 e ≠ 0#32 ↔ e ≠ 0 := by
  constructor
  · rintro h1 rfl; exact h1 rfl
  · intro h1 h2
    have := congrArg BitVec.toNat h2
    rw [toNat_ofNat32 h] at this
    exact h1 this

theorem limits_iff {N : Nat} {n : PosInt N} {e : Nat} (he : e < 2 ^ 32) :
    (n.value % 2 = 1 ∧ 256 ≤ n.lenBytes ∧ n.lenBytes ≤ 1024 ∧ BitVec.ofNat 32 e ≠ 0#32) ↔ PublicLimits n.value e := by
  rw [ofNat32_ne he, le_lenBytes n 255, lenBytes_le n 1024]
  constructor
  · rintro ⟨h1, h2, h3, h4⟩; exact ⟨h1, h2, h3, h4, he⟩
  · rintro ⟨h1, h2, h3, h4, _⟩; exact ⟨h1, h2, h3, h4⟩

theorem lift_bind {α β : Type} (x : Except GError α) (f : α → GR β) :
    (lift x >>= f) = match x with | .ok v => f v | .error e => .error (.err e) := by cases x <;> rfl

theorem ok_bind' {α β : Type} (x : α) (f : α → GR β) : ((.ok x : GR α) >>= f) = f x := rfl
theorem err_bind' {α β : Type} (e : GFault) (f : α → GR β) : ((.error e : GR α) >>= f) = .error e := rfl

theorem importPublic_cases (hA : A.Ok) (v : RSAPublicKey) (hv : MinimalInt v.publicExponent.twosComplement) :
    ((v.modulus.isNegative = false ∧ v.publicExponent.isNegative = false ∧
        PublicLimits (beNat v.modulus.twosComplement) (beNat v.publicExponent.twosComplement)) ∧
      ∃ k, importPublic A v = .ok k ∧ k.Ok ∧ Canon k.n ∧
        k.Holds (beNat v.modulus.twosComplement) (beNat v.publicExponent.twosComplement)) ∨
    (¬ (v.modulus.isNegative = false ∧ v.publicExponent.isNegative = false ∧
        PublicLimits (beNat v.modulus.twosComplement) (beNat v.publicExponent.twosComplement)) ∧
      ∃ e, importPublic A v = .error (.err e)) := by
  rw [importPublic]
  rcases h1 : v.modulus.isNegative with _ | _
  · rw [if_neg (by simp), lift_bind]
    rcases fromBytes_cases 128 v.modulus.twosComplement with ⟨n1, n, n2, n3, n4⟩ | ⟨n1, n2⟩
    · rw [n2]
      rcases exponentOf_cases hv with ⟨e1, e2, e3⟩ | ⟨e1, e, e2⟩
      · simp only [e3]
        have hl := limits_iff (n := n) e2
        rw [n4] at hl
        have hnew := publicKey_new A n n3.inv (BitVec.ofNat 32 (beNat v.publicExponent.twosComplement))
        by_cases hc : PublicLimits (beNat v.modulus.twosComplement) (beNat v.publicExponent.twosComplement)
        · left
          rw [n4, if_pos (hl.2 hc)] at hnew
          obtain ⟨k1, k2, k3⟩ := publicKey_ok hA n3.inv hnew
          refine ⟨⟨trivial, e1, hc⟩, _, by rw [ok_bind', hnew]; rfl, k1, ?_, ?_⟩
          · exact n3
          · exact ⟨n4, toNat_ofNat32 e2⟩
        · right
          rw [n4, if_neg (fun h => hc (hl.1 h))] at hnew
          exact ⟨fun h => hc h.2.2, _, by rw [ok_bind', hnew]; rfl⟩
      · right
        refine ⟨fun h => e1 ⟨h.2.1, h.2.2.e_lt⟩, e, ?_⟩
        simp only [e2]; rfl
    · right
      rw [n2]
      exact ⟨fun h => n1 h.2.2.max, _, rfl⟩
  · right
    exact ⟨fun h => by simp at h, _, by rw [if_pos rfl]⟩

/-- What the decoded structure must satisfy to be accepted. -/
def PrivateAccept (v : RSAPrivateKey) : Prop :=
  v.version = .two_prime ∧ v.modulus.isNegative = false ∧ v.publicExponent.isNegative = false ∧
    PrivateLimits (beNat v.modulus.twosComplement) (beNat v.publicExponent.twosComplement) (beNat v.privateExponent.twosComplement)
      (beNat v.prime1.twosComplement) (beNat v.prime2.twosComplement) (beNat v.exponent1.twosComplement)
      (beNat v.exponent2.twosComplement) (beNat v.coefficient.twosComplement)

theorem importPrivate_cases (hA : A.Ok) (v : RSAPrivateKey) (hv : MinimalInt v.publicExponent.twosComplement) :
    (PrivateAccept v ∧ ∃ k, importPrivate A v = .ok k ∧ k.Ok A ∧ k.Canonical ∧
      k.Holds (beNat v.modulus.twosComplement) (beNat v.publicExponent.twosComplement) (beNat v.privateExponent.twosComplement)
      (beNat v.prime1.twosComplement) (beNat v.prime2.twosComplement) (beNat v.exponent1.twosComplement)
      (beNat v.exponent2.twosComplement) (beNat v.coefficient.twosComplement)) ∨
    (¬ PrivateAccept v ∧ ∃ e, importPrivate A v = .error (.err e)) := by
  rw [importPrivate]
  by_cases h0 : v.version = .two_prime
  swap
  · exact Or.inr ⟨fun h => h0 h.1, _, by rw [if_pos h0]⟩
  rw [if_neg (fun h => h h0)]
  by_cases h1 : v.modulus.isNegative = false
  swap
  · exact Or.inr ⟨fun h => h1 h.2.1, _, by rw [if_pos (by simpa using h1)]⟩
  rw [if_neg (by simp [h1]), lift_bind]
  rcases fromBytes_cases 128 v.modulus.twosComplement with ⟨n1, n, n2, n3, n4⟩ | ⟨n1, n2⟩
  swap
  · rw [n2]; exact Or.inr ⟨fun h => n1 h.2.2.2.pub.max, _, rfl⟩
  rw [n2]
  simp only
  rcases exponentOf_cases hv with ⟨e1, e2, e3⟩ | ⟨e1, e, e2⟩
  swap
  · rw [e2]; exact Or.inr ⟨fun h => e1 ⟨h.2.2.1, h.2.2.2.pub.e_lt⟩, _, rfl⟩
  rw [e3, ok_bind', lift_bind]
  rcases fromBytes_cases 64 v.prime1.twosComplement with ⟨p1, p, p2, p3, p4⟩ | ⟨p1, p2⟩
  swap
  · rw [p2]; exact Or.inr ⟨fun h => p1 h.2.2.2.maxP, _, rfl⟩
  rw [p2]
  simp only
  rw [lift_bind]
  rcases fromBytes_cases 64 v.prime2.twosComplement with ⟨q1, q, q2, q3, q4⟩ | ⟨q1, q2⟩
  swap
  · rw [q2]; exact Or.inr ⟨fun h => q1 h.2.2.2.maxQ, _, rfl⟩
  rw [q2]
  simp only
  rw [lift_bind]
  rcases fromBytes_cases 128 v.privateExponent.twosComplement with ⟨d1, d, d2, d3, d4⟩ | ⟨d1, d2⟩
  swap
  · rw [d2]; exact Or.inr ⟨fun h => d1 h.2.2.2.maxD, _, rfl⟩
  rw [d2]
  simp only
  rw [lift_bind]
  rcases fromBytes_cases 64 v.exponent1.twosComplement with ⟨x1, x, x2, x3, x4⟩ | ⟨x1, x2⟩
  swap
  · rw [x2]; exact Or.inr ⟨fun h => x1 h.2.2.2.maxDp, _, rfl⟩
  rw [x2]
  simp only
  rw [lift_bind]
  rcases fromBytes_cases 64 v.exponent2.twosComplement with ⟨y1, y, y2, y3, y4⟩ | ⟨y1, y2⟩
  swap
  · rw [y2]; exact Or.inr ⟨fun h => y1 h.2.2.2.maxDq, _, rfl⟩
  rw [y2]
  simp only
  rw [lift_bind]
  rcases fromBytes_cases 64 v.coefficient.twosComplement with ⟨z1, z, z2, z3, z4⟩ | ⟨z1, z2⟩
  swap
  · rw [z2]; exact Or.inr ⟨fun h => z1 h.2.2.2.maxQInv, _, rfl⟩
  rw [z2]
  simp only
  have hl := limits_iff (n := n) e2
  rw [n4] at hl
  have lp : (128 ≤ p.lenBytes ∧ p.lenBytes ≤ 512) ↔ (2 ^ 1016 ≤ p.value ∧ p.value < 2 ^ 4096) := by
    rw [le_lenBytes p 127, lenBytes_le p 512]
  rcases privateKey_new hA (BitVec.ofNat 32 (beNat v.publicExponent.twosComplement)) p3.inv q3.inv d3.inv x3.inv y3.inv z3.inv n3.inv
    with ⟨⟨a1, a2, a3⟩, a4, k, k1, k2, k3⟩ | ⟨a1, k1⟩
  · left
    rw [n4] at a4
    rw [lp, p4] at a3
    rw [p4] at a1
    rw [q4] at a2
    refine ⟨⟨h0, h1, e1, hl.1 a4, a1, a2, a3.1, p1, q1, d1, x1, y1, z1⟩, k, by rw [k1]; rfl, k2, ?_, ?_⟩
    · refine ⟨?_, ?_, ?_, ?_, ?_, ?_, ?_⟩
      · rw [k3.n]; exact n3
      · rw [k3.d]; exact d3
      · rw [k3.p]; exact p3
      · rw [k3.q]; exact q3
      · rw [k3.dp]; exact x3
      · rw [k3.dq]; exact y3
      · rw [k3.iqmp]; exact z3
    · refine ⟨⟨?_, ?_⟩, ?_, ?_, ?_, ?_, ?_, ?_⟩
      · rw [k3.n, n4]
      · rw [k3.e, toNat_ofNat32 e2]
      · rw [k3.d, d4]
      · rw [k3.p, p4]
      · rw [k3.q, q4]
      · rw [k3.dp, x4]
      · rw [k3.dq, y4]
      · rw [k3.iqmp, z4]
  · right
    refine ⟨?_, _, by rw [k1]; rfl⟩
    rintro ⟨_, _, _, h⟩
    refine a1 ⟨⟨?_, ?_, ?_⟩, ?_⟩
    · rw [p4]; exact h.oddP
    · rw [q4]; exact h.oddQ
    · rw [lp, p4]; exact ⟨h.minP, h.maxP⟩
    · rw [n4]; exact hl.2 h.pub

/-! ### The structures that are written -/

/-- The public key structure of two numbers. -/
def publicStruct (n e : Nat) : RSAPublicKey := ⟨⟨natOctets n⟩, ⟨natOctets e⟩⟩

/-- The private key structure of eight numbers. -/
def privateStruct (n e d p q dp dq qInv : Nat) : RSAPrivateKey where
  version := .two_prime
  modulus := ⟨natOctets n⟩
  publicExponent := ⟨natOctets e⟩
  privateExponent := ⟨natOctets d⟩
  prime1 := ⟨natOctets p⟩
  prime2 := ⟨natOctets q⟩
  exponent1 := ⟨natOctets dp⟩
  exponent2 := ⟨natOctets dq⟩
  coefficient := ⟨natOctets qInv⟩

theorem publicStruct_der (n e : Nat) : Kind.der .rsaPublicKey (publicStruct n e) = Spec.Rsa.publicKeyDer n e := rfl

theorem privateStruct_der (n e d p q dp dq qInv : Nat) :
    Kind.der .rsaPrivateKey (privateStruct n e d p q dp dq qInv) = Spec.Rsa.privateKeyDer n e d p q dp dq qInv := by
  have : smallInt 0 = natInt 0 := by decide
  show seq [smallInt 0, _, _, _, _, _, _, _, _] = _
  rw [this]; rfl

theorem publicStruct_valid (n e : Nat) : Kind.valid .rsaPublicKey (publicStruct n e) := ⟨natOctets_minimal _, natOctets_minimal _⟩

theorem privateStruct_valid (n e d p q dp dq qInv : Nat) : Kind.valid .rsaPrivateKey (privateStruct n e d p q dp dq qInv) :=
  ⟨natOctets_minimal _, natOctets_minimal _, natOctets_minimal _, natOctets_minimal _, natOctets_minimal _, natOctets_minimal _,
    natOctets_minimal _, natOctets_minimal _⟩

theorem seq_length_le (items : List Bytes) (h : items.flatten.length < 65536) : (seq items).length ≤ items.flatten.length + 4 :=
  tlv_length_le _ _ h

theorem natInt_le {v k l : Nat} (h : v < 2 ^ k) (hk : k ≤ 8 * l + 7) (hl : l < 65535) : (natInt v).length ≤ l + 5 :=
  natInt_length_le (Nat.lt_of_lt_of_le h (Nat.pow_le_pow_right (by omega) hk)) hl

theorem publicKeyDer_length {n e : Nat} (h : PublicLimits n e) : (Spec.Rsa.publicKeyDer n e).length ≤ 1042 := by
  have h1 := natInt_le h.max (l := 1024) (by omega) (by omega)
  have h2 := natInt_le h.e_lt (l := 4) (by omega) (by omega)
  have hf : [natInt n, natInt e].flatten.length = (natInt n).length + (natInt e).length := by simp
  have := seq_length_le [natInt n, natInt e] (by omega)
  rw [Spec.Rsa.publicKeyDer]; omega

theorem privateKeyDer_length {n e d p q dp dq qInv : Nat} (h : PrivateLimits n e d p q dp dq qInv) :
    (Spec.Rsa.privateKeyDer n e d p q dp dq qInv).length ≤ 4700 := by
  have h1 := natInt_le h.pub.max (l := 1024) (by omega) (by omega)
  have h2 := natInt_le h.pub.e_lt (l := 4) (by omega) (by omega)
  have h3 := natInt_le h.maxD (l := 1024) (by omega) (by omega)
  have h4 := natInt_le h.maxP (l := 512) (by omega) (by omega)
  have h5 := natInt_le h.maxQ (l := 512) (by omega) (by omega)
  have h6 := natInt_le h.maxDp (l := 512) (by omega) (by omega)
  have h7 := natInt_le h.maxDq (l := 512) (by omega) (by omega)
  have h8 := natInt_le h.maxQInv (l := 512) (by omega) (by omega)
  have h0 := natInt_le (v := 0) (k := 1) (by decide) (l := 0) (by omega) (by omega)
  rw [Spec.Rsa.privateKeyDer]
  generalize natInt n = a1 at *
  generalize natInt e = a2 at *
  generalize natInt d = a3 at *
  generalize natInt p = a4 at *
  generalize natInt q = a5 at *
  generalize natInt dp = a6 at *
  generalize natInt dq = a7 at *
  generalize natInt qInv = a8 at *
  generalize natInt 0 = a0 at *
  have hf : [a0, a1, a2, a3, a4, a5, a6, a7, a8].flatten.length = a0.length + a1.length + a2.length + a3.length + a4.length +
    a5.length + a6.length + a7.length + a8.length := by simp; omega
  have := seq_length_le [a0, a1, a2, a3, a4, a5, a6, a7, a8] (by omega)
  omega

theorem asn1_component {N : Nat} {p : PosInt N} (h : p.Inv) {L : Nat} (hL : 8 * N + 1 ≤ L) :
    ∃ bs, p.toBytesAsn1 L = .ok bs ∧ Integer.new bs = ⟨natOctets p.value⟩ := by
  have hu := h.used
  refine ⟨toBE (8 * p.used + 1) p.value, ?_, integer_new_eq (twosComp_toBE ?_)⟩
  · rw [(C48_write p h L).2, if_neg (by omega)]
  · exact Nat.lt_of_lt_of_le (value_lt h) (Nat.pow_le_pow_right (by omega) (by omega))

theorem exponent_component (e : BitVec 32) (h : e.toNat < 2 ^ 31) : Integer.new (toBE 4 e.toNat) = ⟨natOctets e.toNat⟩ :=
  integer_new_eq (twosComp_toBE (k := 3) h)

end Verif.Rsa
