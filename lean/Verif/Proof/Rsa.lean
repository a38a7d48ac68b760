import Verif.Model.Rsa
import Verif.Proof.MontExp
import Verif.Proof.PosIntBytes
import Verif.Proof.RsaMath

/-!
The public and private operations compute what RFC 8017 says.
-/
namespace Verif.Rsa
open Verif Verif.Bignum Verif.PosInt

variable {A : Asm}

/-- What `PublicKey.new` guarantees. -/
structure PublicKey.Ok (k : PublicKey) : Prop where
  ctx : Ctx k.n k.n0
  mont : IsMontifier k.n k.montifier
  one : Rep k.n k.one 1
  min : 256 ≤ k.n.lenBytes
  max : k.n.lenBytes ≤ 1024
  e : k.e ≠ 0#32

theorem publicKey_new (A : Asm) (n : PosInt 128) (hn : n.Inv) (e : BitVec 32) :
    PublicKey.new A n e = if n.value % 2 = 1 ∧ 256 ≤ n.lenBytes ∧ n.lenBytes ≤ 1024 ∧ e ≠ 0#32 then
      .ok ⟨n, e, n.montifier A, n.fixedOne.montMul A (n.montifier A) n (n.montNegInverse A), n.montNegInverse A⟩
      else .error .OutOfRange := by
  have he := isEven_iff hn
  rw [PublicKey.new, show MIN_PUBLIC_MODULUS_BYTES = 256 from rfl, show MAX_PUBLIC_MODULUS_BYTES = 1024 from rfl]
  by_cases h : n.value % 2 = 1 ∧ 256 ≤ n.lenBytes ∧ n.lenBytes ≤ 1024 ∧ e ≠ 0#32
  · rw [if_pos h, if_neg]
    have : n.isEven = false := (isEven_false hn).2 h.1
    simp [this, h.2.1, h.2.2.1, h.2.2.2]
  · rw [if_neg h, if_pos]
    rcases hev : n.isEven with _ | _
    · have h1 : n.value % 2 = 1 := (isEven_false hn).1 hev
      simp only [Bool.false_or, Bool.or_eq_true, Bool.not_eq_true', Bool.and_eq_false_iff, decide_eq_false_iff_not, beq_iff_eq]
      by_cases h2 : e = 0#32
      · exact Or.inr h2
      · left
        by_cases h3 : 256 ≤ n.lenBytes
        · exact Or.inr fun h4 => h ⟨h1, h3, h4, h2⟩
        · exact Or.inl h3
    · rfl

theorem publicKey_ok (hA : A.Ok) {n : PosInt 128} (hn : n.Inv) {e : BitVec 32} {k : PublicKey} (h : PublicKey.new A n e = .ok k) :
    k.Ok ∧ k.n = n ∧ k.e = e := by
  rw [publicKey_new A n hn] at h
  split at h
  · rename_i hc
    cases h
    exact ⟨⟨montNegInverse_ok hA hn hc.1, isMontifier hA hn hc.1, oneMont_ok hA (montNegInverse_ok hA hn hc.1) (isMontifier hA hn hc.1),
      hc.2.1, hc.2.2.1, hc.2.2.2⟩, rfl, rfl⟩
  · cases h

theorem mask_iff (e : BitVec 32) (bit : Nat) (h : bit < 32) :
    (e &&& (1#32 <<< bit) = 1#32 <<< bit) ↔ e.toNat / 2 ^ bit % 2 = 1 := by
  rw [← BitVec.twoPow_eq, BitVec.and_twoPow, BitVec.getLsbD, Nat.testBit_eq_decide_div_mod_eq]
  by_cases hb : e.toNat / 2 ^ bit % 2 = 1
  · simp [hb]
  · rw [if_neg (by simpa using hb)]
    simp only [hb, iff_false]
    intro h0
    have := congrArg BitVec.toNat h0
    rw [BitVec.toNat_twoPow] at this
    have h2 : 2 ^ bit < 2 ^ 32 := Nat.pow_lt_pow_right (by omega) h
    rw [Nat.mod_eq_of_lt h2] at this
    have h3 := Nat.two_pow_pos bit
    rw [show (0#32).toNat = 0 from rfl] at this
    omega

theorem publicLoop_ok (hA : A.Ok) {k : PublicKey} (hk : k.Ok) {cMont : PosInt 128} {x : Nat} (hc : Rep k.n cMont x) :
    ∀ (j : Nat) (s : Bool × PosInt 128), j ≤ 32 → Rep k.n s.2 (x ^ (k.e.toNat / 2 ^ j)) → (s.1 = true → k.e.toNat / 2 ^ j = 0) →
      Rep k.n ((List.range j).reverse.foldl (publicStep A k cMont) s).2 (x ^ k.e.toNat) := by
  intro j
  induction j with
  | zero => intro s _ h _; simpa using h
  | succ j ih =>
    intro s hj hr hf
    rw [List.range_succ, List.reverse_append, List.reverse_singleton, List.singleton_append, List.foldl_cons]
    have hdiv : k.e.toNat / 2 ^ j = 2 * (k.e.toNat / 2 ^ (j + 1)) + k.e.toNat / 2 ^ j % 2 := by
      rw [Nat.pow_succ, ← Nat.div_div_eq_div_mul]; omega
    have ht : Rep k.n (if s.1 then s.2 else s.2.montSqr A k.n k.n0) (x ^ (2 * (k.e.toNat / 2 ^ (j + 1)))) := by
      by_cases h : s.1 = true
      · rw [if_pos h, hf h]; rw [hf h] at hr; exact hr
      · rw [if_neg h, Nat.two_mul, Nat.pow_add]; exact (montSqr_rep hA hk.ctx hr).1
    have hm := mask_iff k.e j (by omega)
    have hfst : (publicStep A k cMont s j).1 = false := by rw [publicStep]; split <;> rfl
    refine ih _ (by omega) ?_ (by rw [hfst]; simp)
    rw [publicStep]
    by_cases hb : k.e.toNat / 2 ^ j % 2 = 1
    · rw [if_pos (hm.2 hb), hdiv, hb, Nat.pow_succ]
      exact montMul_rep hA hk.ctx ht hc
    · rw [if_neg (fun h => hb (hm.1 h)), hdiv, show k.e.toNat / 2 ^ j % 2 = 0 by omega]
      exact ht

theorem publicOp_ok (hA : A.Ok) {k : PublicKey} (hk : k.Ok) {c : PosInt 128} (hc : c.Inv) (hlt : c.value < k.n.value) :
    ∃ m, publicOp A k c = .ok m ∧ m.Inv ∧ m.used = k.n.used ∧ m.value = c.value ^ k.e.toNat % k.n.value := by
  have hv : c.value < 2 ^ (64 * k.n.used) := Nat.lt_trans hlt (value_lt hk.ctx.inv)
  obtain ⟨x1, x2⟩ := expand_inv hc hk.ctx.inv.used hv
  have hm := (toMontgomery_ok hA hk.ctx hk.mont x1 (by rw [x2]; exact hv)).1
  rw [x2] at hm
  have h32 : k.e.toNat < 2 ^ 32 := k.e.isLt
  have hne : k.e.toNat ≠ 0 := fun h => hk.e (BitVec.eq_of_toNat_eq (by simpa using h))
  have hlog : Nat.log2 k.e.toNat < 32 := (Nat.log2_lt hne).2 h32
  have hz : k.e.toNat / 2 ^ (Nat.log2 k.e.toNat + 1) = 0 := Nat.div_eq_of_lt Nat.lt_log2_self
  have hl := publicLoop_ok hA hk hm (Nat.log2 k.e.toNat + 1) (true, k.one) (by omega) (by rw [hz]; exact hk.one) (fun _ => hz)
  refine ⟨_, by rw [publicOp, if_neg (by rw [(lessThan_iff c k.n).2 hlt]; simp)], fromMontgomery_ok hA hk.ctx hl⟩

theorem publicOp_err {k : PublicKey} {c : PosInt 128} (h : k.n.value ≤ c.value) : publicOp A k c = .error .OutOfRange := by
  rw [publicOp, if_pos]
  rw [← Bool.not_eq_true, lessThan_iff]; omega

/-! ### The private operation -/

/-- What `PrivateKey.new` guarantees when its arguments are well-formed integers. -/
structure PrivateKey.Ok (A : Asm) (k : PrivateKey) : Prop where
  pub : k.pub.Ok
  ctxP : Ctx k.p k.p0
  ctxQ : Ctx k.q k.q0
  montP : IsMontifier k.p k.pMontifier
  montQ : IsMontifier k.q k.qMontifier
  minP : 128 ≤ k.p.lenBytes
  maxP : k.p.lenBytes ≤ 512
  d : k.d.Inv
  dp : k.dp.Inv
  dq : k.dq.Inv
  iqmp : k.iqmp.Inv
  iqmpMont : k.iqmpMont = k.iqmp.toMontgomery A k.pMontifier k.p
  made : PrivateKey.new A k.p k.q k.d k.dp k.dq k.iqmp k.pub.n k.pub.e = .ok k

/-- The fields of a key that come from the arguments of `PrivateKey.new`. -/
structure PrivateKey.Has (k : PrivateKey) (p q : PosInt 64) (d : PosInt 128) (dp dq iqmp : PosInt 64) (n : PosInt 128) (e : BitVec 32) :
    Prop where
  p : k.p = p
  q : k.q = q
  d : k.d = d
  dp : k.dp = dp
  dq : k.dq = dq
  iqmp : k.iqmp = iqmp
  n : k.pub.n = n
  e : k.pub.e = e

theorem privateKey_new (hA : A.Ok) {p q : PosInt 64} {d : PosInt 128} {dp dq iqmp : PosInt 64} {n : PosInt 128} (e : BitVec 32)
    (ip : p.Inv) (iq : q.Inv) (id : d.Inv) (idp : dp.Inv) (idq : dq.Inv) (ii : iqmp.Inv) (hn : n.Inv) :
    ((p.value % 2 = 1 ∧ q.value % 2 = 1 ∧ 128 ≤ p.lenBytes ∧ p.lenBytes ≤ 512) ∧
      (n.value % 2 = 1 ∧ 256 ≤ n.lenBytes ∧ n.lenBytes ≤ 1024 ∧ e ≠ 0#32) ∧
      ∃ k, PrivateKey.new A p q d dp dq iqmp n e = .ok k ∧ k.Ok A ∧ k.Has p q d dp dq iqmp n e) ∨
    (¬ ((p.value % 2 = 1 ∧ q.value % 2 = 1 ∧ 128 ≤ p.lenBytes ∧ p.lenBytes ≤ 512) ∧
      (n.value % 2 = 1 ∧ 256 ≤ n.lenBytes ∧ n.lenBytes ≤ 1024 ∧ e ≠ 0#32)) ∧
      PrivateKey.new A p q d dp dq iqmp n e = .error .OutOfRange) := by
  by_cases h : p.value % 2 = 1 ∧ q.value % 2 = 1 ∧ 128 ≤ p.lenBytes ∧ p.lenBytes ≤ 512
  · have hp : p.isEven = false := (isEven_false ip).2 h.1
    have hq : q.isEven = false := (isEven_false iq).2 h.2.1
    have e1 : ¬ ((p.isEven || q.isEven || !(decide (MIN_PRIVATE_MODULUS_BYTES ≤ p.lenBytes) &&
        decide (p.lenBytes ≤ MAX_PRIVATE_MODULUS_BYTES))) = true) := by
      rw [show MIN_PRIVATE_MODULUS_BYTES = 128 from rfl, show MAX_PRIVATE_MODULUS_BYTES = 512 from rfl]
      simp [hp, hq, h.2.2.1, h.2.2.2]
    by_cases h2 : n.value % 2 = 1 ∧ 256 ≤ n.lenBytes ∧ n.lenBytes ≤ 1024 ∧ e ≠ 0#32
    · left
      have hpub := publicKey_new A n hn e
      rw [if_pos h2] at hpub
      obtain ⟨k1, k2, k3⟩ := publicKey_ok hA hn hpub
      have hm := show PrivateKey.new A p q d dp dq iqmp n e = .ok _ by rw [PrivateKey.new, if_neg e1, hpub]
      refine ⟨h, h2, _, hm, ?_, ?_⟩
      · exact ⟨k1, montNegInverse_ok hA ip h.1, montNegInverse_ok hA iq h.2.1, isMontifier hA ip h.1, isMontifier hA iq h.2.1,
          h.2.2.1, h.2.2.2, id, idp, idq, ii, rfl, hm⟩
      · exact ⟨rfl, rfl, rfl, rfl, rfl, rfl, rfl, rfl⟩
    · right
      refine ⟨fun hc => h2 hc.2, ?_⟩
      have hpub := publicKey_new A n hn e
      rw [if_neg h2] at hpub
      rw [PrivateKey.new, if_neg e1, hpub]
  · right
    refine ⟨fun hc => h hc.1, ?_⟩
    rw [PrivateKey.new, if_pos]
    rw [show MIN_PRIVATE_MODULUS_BYTES = 128 from rfl, show MAX_PRIVATE_MODULUS_BYTES = 512 from rfl]
    rcases hp : p.isEven with _ | _
    · rcases hq : q.isEven with _ | _
      · have h1 := (isEven_false ip).1 hp
        have h2 := (isEven_false iq).1 hq
        simp only [Bool.false_or, Bool.not_eq_true', Bool.and_eq_false_iff, decide_eq_false_iff_not]
        by_cases h3 : 128 ≤ p.lenBytes
        · exact Or.inr fun h4 => h ⟨h1, h2, h3, h4⟩
        · exact Or.inl h3
      · rfl
    · rfl

theorem modExp_isSome {p e n m : PosInt 64} {n0 : Word} (he : e.Inv) : (∃ r, p.modExp A e n m n0 = some r) ↔ e.used ≠ 0 := by
  constructor
  · rintro ⟨r, hr⟩ h0
    rw [modExp, montExp_none h0] at hr
    cases hr
  · intro h0
    have : e.asWords ≠ [] := by
      intro h
      have := congrArg List.length h
      rw [length_asWords he] at this
      exact h0 this
    rw [modExp, montExp, bitsMsbFirst_ok this]
    exact ⟨_, rfl⟩

/-- The four steps fail in one way only: an exponent without words. -/
theorem crt_none {k : PrivateKey} (h1 : k.dp.Inv) (h2 : k.dq.Inv) (c : PosInt 128) :
    crt A k c = none ↔ k.dp.used = 0 ∨ k.dq.used = 0 := by
  have r1 : c.reduce A k.p k.pMontifier = some ((c.montRedc A k.p).toMontgomery A k.pMontifier k.p) := if_pos (by decide)
  have r2 : c.reduce A k.q k.qMontifier = some ((c.montRedc A k.q).toMontgomery A k.qMontifier k.q) := if_pos (by decide)
  have e1 := modExp_isSome (A := A) (p := (c.montRedc A k.p).toMontgomery A k.pMontifier k.p) (n := k.p) (m := k.pMontifier)
    (n0 := k.p0) h1
  have e2 := modExp_isSome (A := A) (p := (c.montRedc A k.q).toMontgomery A k.qMontifier k.q) (n := k.q) (m := k.qMontifier)
    (n0 := k.q0) h2
  rw [crt, r1]
  simp only [Option.bind_eq_bind, Option.bind_some]
  rcases g1 : modExp A ((c.montRedc A k.p).toMontgomery A k.pMontifier k.p) k.dp k.p k.pMontifier k.p0 with _ | m1
  · rw [g1] at e1
    simp at e1 ⊢
    exact Or.inl e1
  · rw [g1] at e1
    have n1 : k.dp.used ≠ 0 := e1.1 ⟨_, rfl⟩
    rw [Option.bind_some, r2, Option.bind_some]
    rcases g2 : modExp A ((c.montRedc A k.q).toMontgomery A k.qMontifier k.q) k.dq k.q k.qMontifier k.q0 with _ | m2
    · rw [g2] at e2
      simp at e2 ⊢
      exact Or.inr e2
    · rw [g2] at e2
      have n2 : k.dq.used ≠ 0 := e2.1 ⟨_, rfl⟩
      simp [widen, PosInt.mul, n1, n2]

/-- Whatever the key, what the four steps return is a well-formed integer. -/
theorem crt_inv {k : PrivateKey} {c m : PosInt 128} (h : crt A k c = some m) : m.Inv := by
  rw [crt] at h
  simp only [Option.bind_eq_bind, Option.bind_eq_some_iff] at h
  obtain ⟨_, _, _, _, _, _, _, _, w, _, qh, _, h⟩ := h
  cases h
  exact (sized_inv (by simp [Bignum.add])).1

/-- `sub_mod` on any operands that fit. -/
theorem subMod_any {N : Nat} {p b m : PosInt N} (hp : p.Inv) (hb : b.Inv) (hm : m.Inv) (h1 : p.value < 2 ^ (64 * m.used))
    (h2 : b.value < 2 ^ (64 * m.used)) :
    (p.subMod b m).Inv ∧ (p.subMod b m).used = m.used ∧ (p.subMod b m).value =
      if p.value < b.value then (p.value + 2 ^ (64 * m.used) - b.value + m.value) % 2 ^ (64 * m.used) else p.value - b.value := by
  have hl : (modsub m.used p.words b.words m.words).length = m.used := by simp only [modsub]; split <;> simp
  refine ⟨ofWords_inv (by rw [hl]; exact hm.used), hl, ?_⟩
  have e1 := val_take_words hp h1
  have e2 := val_take_words hb h2
  have e3 := val_take_words hm (value_lt hm)
  rw [subMod, ofWords_value]
  simp only [modsub, e1, e2, e3]
  split
  · rw [val_toWords]
  · rw [val_toWords, show p.value + 2 ^ (64 * m.used) - b.value = (p.value - b.value) + 2 ^ (64 * m.used) by omega,
      Nat.add_mod_right, Nat.mod_eq_of_lt (by omega)]

theorem add_bound {a q h p B : Nat} (h1 : a < q) (h2 : h ≤ p) (h3 : q < B) (h4 : p < B) : a + q * h < B * B := by
  have e1 := Nat.mul_le_mul_left q h2
  have e2 : q * (p + 1) ≤ B * B := Nat.mul_le_mul (Nat.le_of_lt h3) h4
  rw [Nat.mul_add, Nat.mul_one] at e2
  omega

theorem two_pow_128 : (2 : Nat) ^ (64 * 128) = 2 ^ (64 * 64) * 2 ^ (64 * 64) := by rw [← Nat.pow_add]

/-- The value the four steps compute. -/
theorem crt_core (hA : A.Ok) {k : PrivateKey} (hk : k.Ok A) {c : PosInt 128} (hc : c.Inv) (hu : k.p.used = k.q.used)
    (hcu : c.used ≤ 2 * k.p.used) (hcp : c.value ≤ 2 ^ (64 * k.p.used) * k.p.value) (hcq : c.value ≤ 2 ^ (64 * k.p.used) * k.q.value)
    (hi : k.iqmp.value < 2 ^ (64 * k.p.used)) (h1 : k.dp.used ≠ 0) (h2 : k.dq.used ≠ 0) :
    ∃ m s h, crt A k c = some m ∧ m.Inv ∧ m.value = c.value ^ k.dq.value % k.q.value + k.q.value * h ∧
      s = (if c.value ^ k.dp.value % k.p.value < c.value ^ k.dq.value % k.q.value then
        (c.value ^ k.dp.value % k.p.value + 2 ^ (64 * k.p.used) - c.value ^ k.dq.value % k.q.value + k.p.value) % 2 ^ (64 * k.p.used)
        else c.value ^ k.dp.value % k.p.value - c.value ^ k.dq.value % k.q.value) ∧
      h ≤ k.p.value ∧ h ≡ s * k.iqmp.value [MOD k.p.value] ∧ (s = 0 → h = 0) := by
  obtain ⟨cp, a1, a2, a3, a4⟩ := reduce_ok hA hk.ctxP hk.montP hc (by decide) hcu hcp
  obtain ⟨cq, b1, b2, b3, b4⟩ := reduce_ok hA hk.ctxQ hk.montQ hc (by decide) (by rw [← hu]; exact hcu) (by rw [← hu]; exact hcq)
  obtain ⟨m1, c1, c2, c3, c4⟩ := modExp_ok hA hk.ctxP hk.montP a2 (by rw [← a3]; exact value_lt a2) hk.dp (by omega)
  obtain ⟨m2, d1, d2, d3, d4⟩ := modExp_ok hA hk.ctxQ hk.montQ b2 (by rw [← b3]; exact value_lt b2) hk.dq (by omega)
  rw [a4, ← Nat.pow_mod] at c4
  rw [b4, ← Nat.pow_mod] at d4
  obtain ⟨s1, s2, s3⟩ := subMod_any c2 d2 hk.ctxP.inv (by rw [← c3]; exact value_lt c2) (by rw [hu, ← d3]; exact value_lt d2)
  obtain ⟨t1, t2⟩ := toMontgomery_ok hA hk.ctxP hk.montP hk.iqmp hi
  rw [← hk.iqmpMont] at t1 t2
  have hprod := montMul_raw hA hk.ctxP s1 t1.inv s2 t1.used
    (Nat.mul_le_mul (Nat.le_of_lt (by rw [← s2]; exact value_lt s1)) t1.le)
  obtain ⟨w, w1, w2, w3, w4⟩ := widen_ok (M := 128) d2 (by decide)
  obtain ⟨qh, q1, q2, q3, q4⟩ := mul_ok (M := 128) hk.ctxQ.inv hprod.inv (by decide)
  have hadd : w.value + qh.value < 2 ^ (64 * 128) := by
    rw [w4, q4, d4]
    have hqp : 0 < k.q.value := by have := hk.ctxQ.odd; omega
    rw [two_pow_128]
    exact add_bound (Nat.mod_lt _ hqp) hprod.le (value_lt_N hk.ctxQ.inv) (value_lt_N hk.ctxP.inv)
  obtain ⟨r1, r2, _⟩ := add_ok w2 q2 hadd
  refine ⟨_, (m1.subMod m2 k.p).value, _, ?_, r1, ?_, ?_, hprod.le, ?_, ?_⟩
  · simp only [crt, a1, b1, c1, d1, w1, q1, Option.bind_eq_bind, Option.bind_some]; rfl
  · rw [r2, w4, q4, d4]
  · rw [s3, c4, d4]
  · have hcg := hprod.cong.trans (t1.cong.mul_left _)
    rw [← Nat.mul_assoc] at hcg
    exact Nat.ModEq.cancel_right_of_coprime (coprime_two_pow hk.ctxP.odd _) hcg
  · intro h0
    exact hprod.zero (by rw [h0, Nat.zero_mul])

end Verif.Rsa
