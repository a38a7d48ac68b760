import Verif.Props.Rsa

/-!
C11 and C12: RSA signatures and the private operation.
-/
namespace Verif.Props
open Verif Verif.Rsa Verif.PosInt Verif.Bignum

variable {A : Asm}

/-! ### C12 -/

/-- **C12** Whatever the key holds, a result of the private operation is below the modulus and the public operation takes it back to
the input: a wrong result is never released. -/
theorem C12_never_wrong (hA : A.Ok) {k : PrivateKey} (hk : k.Ok A) {c m : PosInt 128} (hc : c.Inv) (h : privateOp A k c = .ok m) :
    c.value < k.pub.n.value ∧ m.Inv ∧ m.value < k.pub.n.value ∧ m.value ^ k.pub.e.toNat % k.pub.n.value = c.value := by
  rw [privateOp] at h
  split at h
  · cases h
  rename_i h1
  have h1' : c.value < k.pub.n.value := by rwa [Bool.not_eq_false, lessThan_iff] at h1
  split at h
  · cases h
  rename_i m' hm
  have hi := crt_inv hm
  by_cases hlt : m'.value < k.pub.n.value
  swap
  · rw [publicOp_err (by omega)] at h; cases h
  obtain ⟨c2, r1, r2, r3, r4⟩ := publicOp_ok hA hk.pub hi hlt
  rw [r1] at h
  simp only at h
  split at h
  swap
  · cases h
  rename_i heq
  cases h
  rw [equals_iff] at heq
  exact ⟨h1', hi, hlt, by rw [← r4, heq]⟩

/-- The result is in as few words as possible. -/
theorem privateOp_canon {k : PrivateKey} {c m : PosInt 128} (h : privateOp A k c = .ok m) : m.used = digitsize m.words := by
  rw [privateOp] at h
  split at h
  · cases h
  split at h
  · cases h
  rename_i m' hm
  split at h
  · cases h
  split at h
  swap
  · cases h
  cases h
  rw [crt] at hm
  simp only [Option.bind_eq_bind, Option.bind_eq_some_iff] at hm
  obtain ⟨_, _, _, _, _, _, _, _, w, _, qh, _, h⟩ := hm
  cases h
  rfl

/-- **C12** Input that is not below the modulus is refused. -/
theorem C12_range {k : PrivateKey} {c : PosInt 128} (h : k.pub.n.value ≤ c.value) : privateOp A k c = .error (.err .OutOfRange) := by
  rw [privateOp, if_pos]
  rw [← Bool.not_eq_true, lessThan_iff]; omega

/-- **C12** The private operation panics exactly when `dP` or `dQ` was imported as zero. -/
theorem C12_panics_iff (hA : A.Ok) {k : PrivateKey} (hk : k.Ok A) (hc' : k.Canonical) {c : PosInt 128} (hc : c.Inv)
    (h : c.value < k.pub.n.value) : privateOp A k c = .error .panic ↔ k.dp.value = 0 ∨ k.dq.value = 0 := by
  have e1 : k.dp.used = 0 ↔ k.dp.value = 0 := by
    have := hc'.dp.min 0
    simp only [Nat.mul_zero, Nat.pow_zero] at this; omega
  have e2 : k.dq.used = 0 ↔ k.dq.value = 0 := by
    have := hc'.dq.min 0
    simp only [Nat.mul_zero, Nat.pow_zero] at this; omega
  rw [← e1, ← e2, ← crt_none (A := A) hk.dp hk.dq c, privateOp, if_neg (by rw [Bool.not_eq_false, lessThan_iff]; exact h)]
  rcases hm : crt A k c with _ | m
  · simp
  · simp only [reduceCtorEq, iff_false]
    split
    · simp
    · split <;> simp

/-- What steps i to iv give for a consistent key with primes of the same length in words. -/
theorem crt_valid (hA : A.Ok) {k : PrivateKey} (hk : k.Ok A) {n e d p q dp dq qInv : Nat}
    (hh : k.Holds n e d p q dp dq qInv) (hv : Spec.Rsa.ValidKey n e d p q dp dq qInv) (hu : k.p.used = k.q.used)
    {c : PosInt 128} (hc : Canon c) (hlt : c.value < n) :
    ∃ m s h, crt A k c = some m ∧ m.Inv ∧ m.value = c.value ^ dq % q + q * h ∧
      s = (if c.value ^ dp % p < c.value ^ dq % q then
        (c.value ^ dp % p + 2 ^ (64 * k.p.used) - c.value ^ dq % q + p) % 2 ^ (64 * k.p.used)
        else c.value ^ dp % p - c.value ^ dq % q) ∧
      h ≤ p ∧ h ≡ s * qInv [MOD p] ∧ (s = 0 → h = 0) ∧ p < 2 ^ (64 * k.p.used) ∧ q < 2 ^ (64 * k.p.used) := by
  have hp := hv.primeP
  have hq := hv.primeQ
  have hp3 : 2 ^ 1016 ≤ p := (privateLimits_of_ok hk hh).minP
  have hp2 := hp.two_le
  have hq2 := hq.two_le
  have hpR : p < 2 ^ (64 * k.p.used) := by rw [← hh.p]; exact value_lt hk.ctxP.inv
  have hqR : q < 2 ^ (64 * k.p.used) := by rw [← hh.q, hu]; exact value_lt hk.ctxQ.inv
  have hcu : c.used ≤ 2 * k.p.used := by
    rw [hc.min]
    have : p * q < 2 ^ (64 * k.p.used) * 2 ^ (64 * k.p.used) := Nat.mul_lt_mul'' hpR hqR
    rw [← Nat.pow_add] at this
    rw [show 64 * (2 * k.p.used) = 64 * k.p.used + 64 * k.p.used by omega]
    rw [hv.modulus] at hlt
    omega
  have hcp : c.value ≤ 2 ^ (64 * k.p.used) * k.p.value := by
    rw [hh.p]
    have : q * p ≤ 2 ^ (64 * k.p.used) * p := Nat.mul_le_mul_right _ (by omega)
    rw [hv.modulus, Nat.mul_comm] at hlt
    omega
  have hcq : c.value ≤ 2 ^ (64 * k.p.used) * k.q.value := by
    rw [hh.q]
    have : p * q ≤ 2 ^ (64 * k.p.used) * q := Nat.mul_le_mul_right _ (by omega)
    rw [hv.modulus] at hlt
    omega
  have z : ∀ x y : Nat, x * 0 % y ≠ 1 := by intro x y; simp
  have ndp : k.dp.used ≠ 0 := by
    intro h0
    have e0 : dp = 0 := by
      rw [← hh.dp]
      by_contra hne
      exact absurd (used_pos hne) (by omega)
    have := hv.expP
    rw [e0] at this
    exact z _ _ this
  have ndq : k.dq.used ≠ 0 := by
    intro h0
    have e0 : dq = 0 := by
      rw [← hh.dq]
      by_contra hne
      exact absurd (used_pos hne) (by omega)
    have := hv.expQ
    rw [e0] at this
    exact z _ _ this
  obtain ⟨m, s, h, r⟩ := crt_core hA hk hc.inv hu hcu hcp hcq
    (by rw [hh.qInv]; have := hv.qInv_lt; omega) ndp ndq
  rw [hh.p, hh.q, hh.dp, hh.dq, hh.qInv] at r
  exact ⟨m, s, h, r.1, r.2.1, r.2.2.1, r.2.2.2.1, r.2.2.2.2.1, r.2.2.2.2.2.1, r.2.2.2.2.2.2, hpR, hqR⟩

/-- The private operation when the difference of the two halves is in range. -/
theorem privateOp_valid (hA : A.Ok) {k : PrivateKey} (hk : k.Ok A) {n e d p q dp dq qInv : Nat}
    (hh : k.Holds n e d p q dp dq qInv) (hv : Spec.Rsa.ValidKey n e d p q dp dq qInv) (hu : k.p.used = k.q.used)
    {c : PosInt 128} (hc : Canon c) (hlt : c.value < n)
    (hcond : c.value ^ dq % q ≤ c.value ^ dp % p + p) :
    ∃ m, privateOp A k c = .ok m ∧ m.Inv ∧ m.value = c.value ^ d % n ∧ m.value ^ e % n = c.value ∧
      ∀ x, x < n → x ^ e % n = c.value → x = m.value := by
  have hp := hv.primeP
  have hq := hv.primeQ
  have hp3 : 2 ^ 1016 ≤ p := (privateLimits_of_ok hk hh).minP
  have hp2 := hp.two_le
  have hq2 := hq.two_le
  have z : ∀ x y : Nat, x * 0 % y ≠ 1 := by intro x y; simp
  obtain ⟨m, s, h, r1, r2, r3, r4, r5, r6, r7, hpR, hqR⟩ := crt_valid hA hk hh hv hu hc hlt
  generalize hR : 2 ^ (64 * k.p.used) = R at *
  have m1lt : c.value ^ dp % p < p := Nat.mod_lt _ (by omega)
  have m2lt : c.value ^ dq % q < q := Nat.mod_lt _ (by omega)
  generalize hm1 : c.value ^ dp % p = m1 at *
  generalize hm2 : c.value ^ dq % q = m2 at *
  -- the difference modulo `p`
  have hs : s < p ∧ s + m2 ≡ m1 [MOD p] := by
    by_cases hl : m1 < m2
    · rw [if_pos hl, show m1 + R - m2 + p = (m1 + p - m2) + R by omega, Nat.add_mod_right, Nat.mod_eq_of_lt (by omega)] at r4
      refine ⟨by omega, ?_⟩
      rw [r4, show m1 + p - m2 + m2 = m1 + p by omega]
      show (m1 + p) % p = m1 % p
      exact Nat.add_mod_right _ _
    · rw [if_neg hl] at r4
      exact ⟨by omega, by rw [r4, show m1 - m2 + m2 = m1 by omega]⟩
  have hhp : h < p := by
    by_contra hge
    have hpe : h = p := by omega
    by_cases s0 : s = 0
    · have := r7 s0; omega
    · have hd : p ∣ s * qInv := (Nat.modEq_zero_iff_dvd).1 (r6.symm.trans (by rw [hpe]; exact (Nat.modEq_zero_iff_dvd).2 (dvd_refl p)))
      rcases hp.dvd_mul.1 hd with hd | hd
      · exact absurd (Nat.le_of_dvd (by omega) hd) (by omega)
      · have h0 := Nat.eq_zero_of_dvd_of_lt hd hv.qInv_lt
        have := hv.coeff
        rw [h0] at this
        exact z _ _ this
  obtain ⟨v1, v2, v3⟩ := RsaMath.crt_value (qInv := qInv) m2lt hhp hv.coeff (by omega) hs.2 r6
  rw [← r3] at v1 v2 v3
  have k1 : m.value ≡ c.value ^ dp [MOD p] := v2.trans (by rw [← hm1]; exact Nat.mod_modEq _ _)
  have k2 : m.value ≡ c.value ^ dq [MOD q] := v3.trans (by rw [← hm2]; exact Nat.mod_modEq _ _)
  obtain ⟨i1, i2⟩ := RsaMath.rsa_inverse hp hq hv.distinct hv.expP hv.expQ (by rw [← hv.modulus]; exact hlt) k1 k2
  rw [← hv.modulus] at i1 i2 v1
  have huniq : ∀ x, x < n → x ^ e % n = c.value → x = m.value := by
    intro x hx hxe
    have := i2 x hx hxe
    rw [Nat.ModEq, Nat.mod_eq_of_lt hx, Nat.mod_eq_of_lt v1] at this
    exact this
  refine ⟨m, ?_, r2, ?_, i1, huniq⟩
  · rw [privateOp, if_neg (by rw [Bool.not_eq_false, lessThan_iff, hh.pub.n]; exact hlt), r1]
    simp only
    obtain ⟨c2, q1, q2, q3, q4⟩ := publicOp_ok hA hk.pub r2 (by rw [hh.pub.n]; exact v1)
    rw [q1]
    simp only
    rw [if_pos]
    rw [equals_iff, q4, hh.pub.n, hh.pub.e, i1]
  · symm
    apply huniq _ (Nat.mod_lt _ (by omega))
    have hd1 : e * d % (p - 1) = 1 := RsaMath.exp_of_lcm (by omega) hv.expD
    have hd2 : e * d % (q - 1) = 1 := by
      have := hv.oddQ
      have := hv.expD
      rw [Nat.lcm_comm] at this
      exact RsaMath.exp_of_lcm (by omega) this
    obtain ⟨j1, _⟩ := RsaMath.rsa_inverse (m := c.value ^ d) hp hq hv.distinct hd1 hd2 (by rw [← hv.modulus]; exact hlt)
      (Nat.ModEq.refl _) (Nat.ModEq.refl _)
    rw [← hv.modulus] at j1
    rw [← Nat.pow_mod]; exact j1

/-- **C12** With a consistent key, `q < p` of the same length in words, the private operation is RSADP for every input below the
modulus: the one `m < n` with `m^e = c`, which is also `c^d mod n`.  What is missing: keys with `p < q` (see `C12_succeeds_iff` and
`C12_larger_q_fails`), or with primes of different lengths in words. -/
theorem C12_private_op_partial (hA : A.Ok) {k : PrivateKey} (hk : k.Ok A) {n e d p q dp dq qInv : Nat}
    (hh : k.Holds n e d p q dp dq qInv) (hv : Spec.Rsa.ValidKey n e d p q dp dq qInv) (hqp : q < p) (hu : k.p.used = k.q.used)
    {c : PosInt 128} (hc : Canon c) (hlt : c.value < n) :
    ∃ m, privateOp A k c = .ok m ∧ m.Inv ∧ m.value = c.value ^ d % n ∧ m.value ^ e % n = c.value ∧
      ∀ x, x < n → x ^ e % n = c.value → x = m.value := by
  refine privateOp_valid hA hk hh hv hu hc hlt ?_
  have := Nat.mod_lt (c.value ^ dq) hv.primeQ.pos
  omega

/-- **C12** Without `q < p`, the private operation gives the RSADP result exactly when the two halves are not too far apart, and an
error otherwise. -/
theorem C12_succeeds_iff (hA : A.Ok) {k : PrivateKey} (hk : k.Ok A) {n e d p q dp dq qInv : Nat}
    (hh : k.Holds n e d p q dp dq qInv) (hv : Spec.Rsa.ValidKey n e d p q dp dq qInv) (hu : k.p.used = k.q.used)
    {c : PosInt 128} (hc : Canon c) (hlt : c.value < n) :
    (c.value ^ dq % q ≤ c.value ^ dp % p + p ∧ ∃ m, privateOp A k c = .ok m ∧ m.value = c.value ^ d % n) ∨
    (c.value ^ dp % p + p < c.value ^ dq % q ∧ ∃ err, privateOp A k c = .error (.err err)) := by
  by_cases hcond : c.value ^ dq % q ≤ c.value ^ dp % p + p
  · obtain ⟨m, h1, h2, h3, _⟩ := privateOp_valid hA hk hh hv hu hc hlt hcond
    exact Or.inl ⟨hcond, m, h1, h3⟩
  refine Or.inr ⟨by omega, ?_⟩
  obtain ⟨m, s, h, r1, r2, r3, r4, r5, r6, r7, hpR, hqR⟩ := crt_valid hA hk hh hv hu hc hlt
  rcases hop : privateOp A k c with f | m'
  · cases f with
    | err e => exact ⟨e, rfl⟩
    | panic =>
      rw [privateOp, if_neg (by rw [Bool.not_eq_false, lessThan_iff, hh.pub.n]; exact hlt), r1] at hop
      simp only at hop
      split at hop
      · cases hop
      · split at hop <;> cases hop
  exfalso
  have hmm : m' = m := by
    rw [privateOp, if_neg (by rw [Bool.not_eq_false, lessThan_iff, hh.pub.n]; exact hlt), r1] at hop
    simp only at hop
    split at hop
    · cases hop
    · split at hop
      · cases hop; rfl
      · cases hop
  subst hmm
  obtain ⟨_, _, w1, w2⟩ := C12_never_wrong hA hk hc.inv hop
  rw [hh.pub.n, hh.pub.e] at w2
  rw [hh.pub.n] at w1
  have hp := hv.primeP
  have hp2 := hp.two_le
  have m2lt : c.value ^ dq % q < q := Nat.mod_lt _ hv.primeQ.pos
  rw [if_pos (by omega)] at r4
  have hs : s + c.value ^ dq % q = c.value ^ dp % p + p + 2 ^ (64 * k.p.used) := by
    rw [r4, Nat.mod_eq_of_lt (by omega)]; omega
  have hres := RsaMath.crt_residue (m2 := c.value ^ dq % q) hv.coeff (by omega) r6
  rw [← r3, hs] at hres
  -- the true value is `c^dp` modulo `p`
  have htrue : m'.value ≡ c.value ^ dp [MOD p] := by
    apply RsaMath.pow_inj hp hv.expP
    have a : m'.value ^ e ≡ c.value [MOD p] := by
      have : m'.value ^ e ≡ c.value [MOD n] := by
        rw [Nat.ModEq, w2, Nat.mod_eq_of_lt hlt]
      exact this.of_dvd (by rw [hv.modulus]; exact dvd_mul_right p q)
    exact a.trans (RsaMath.pow_pow hp hv.expP c.value).symm
  have hz : c.value ^ dp % p + p + 2 ^ (64 * k.p.used) ≡ c.value ^ dp % p + 0 [MOD p] :=
    hres.symm.trans (htrue.trans (Nat.mod_modEq _ _).symm)
  rw [Nat.add_assoc] at hz
  have hz2 := Nat.ModEq.add_left_cancel' _ hz
  have hd : p ∣ p + 2 ^ (64 * k.p.used) := (Nat.modEq_zero_iff_dvd).1 hz2
  have hd2 : p ∣ 2 ^ (64 * k.p.used) := (Nat.dvd_add_right (dvd_refl p)).1 hd
  have h2 : p ∣ 2 := hp.dvd_of_dvd_pow hd2
  have := Nat.le_of_dvd (by omega) h2
  have := hv.oddP
  omega

/-- **C12** With a consistent key that lists the smaller prime first, the private operation fails for some inputs below the modulus. -/
theorem C12_larger_q_fails (hA : A.Ok) {k : PrivateKey} (hk : k.Ok A) {n e d p q dp dq qInv : Nat}
    (hh : k.Holds n e d p q dp dq qInv) (hv : Spec.Rsa.ValidKey n e d p q dp dq qInv) (hpq : p < q) (hu : k.p.used = k.q.used) :
    ∃ b : Bytes, ∃ c : PosInt 128, fromBytes 128 b = .ok c ∧ c.value < n ∧ ∃ err, privateOp A k c = .error (.err err) := by
  have hp := hv.primeP
  have hq := hv.primeQ
  have hco := RsaMath.coprime_of hp hq hv.distinct
  have hn := hv.modulus
  have hpos : 0 < n := by rw [hn]; exact Nat.mul_pos hp.pos hq.pos
  obtain ⟨M, M1, M2⟩ := Nat.chineseRemainder hco 0 (q - 1)
  have hcv : M ^ e % n < n := Nat.mod_lt _ hpos
  have hn8 : n < 2 ^ (64 * 128) := by rw [← hh.pub.n]; exact value_lt_N hk.pub.ctx.inv
  have hbe : beNat (toBE 1024 (M ^ e % n)) = M ^ e % n := by
    rw [beNat_toBE]
    apply Nat.mod_eq_of_lt
    rw [Spec.Der.pow256']
    exact Nat.lt_trans hcv hn8
  rcases fromBytes_cases 128 (toBE 1024 (M ^ e % n)) with ⟨_, c, c1, c2, c3⟩ | ⟨h, _⟩
  swap
  · exact absurd (by rw [hbe]; exact Nat.lt_trans hcv hn8) h
  rw [hbe] at c3
  refine ⟨_, c, c1, by rw [c3]; exact hcv, ?_⟩
  have e1 : c.value ^ dp % p = 0 := by
    have : c.value ≡ M ^ e [MOD p] := by
      rw [c3]; exact (Nat.mod_modEq _ _).of_dvd (by rw [hn]; exact dvd_mul_right p q)
    have h2 := this.pow dp
    rw [← pow_mul] at h2
    have h2 := h2.trans (RsaMath.pow_cong hp M hv.expP)
    have h3 : c.value ^ dp ≡ 0 [MOD p] := h2.trans M1
    exact (Nat.modEq_zero_iff_dvd.1 h3).elim fun x hx => by rw [hx, Nat.mul_mod_right]
  have e2 : c.value ^ dq % q = q - 1 := by
    have : c.value ≡ M ^ e [MOD q] := by
      rw [c3]; exact (Nat.mod_modEq _ _).of_dvd (by rw [hn]; exact dvd_mul_left q p)
    have h2 := this.pow dq
    rw [← pow_mul] at h2
    have h2 := h2.trans (RsaMath.pow_cong hq M hv.expQ)
    have h3 : c.value ^ dq ≡ q - 1 [MOD q] := h2.trans M2
    rw [Nat.ModEq, Nat.mod_eq_of_lt (show q - 1 < q by have := hq.pos; omega)] at h3
    exact h3
  rcases C12_succeeds_iff hA hk hh hv hu c2 (by rw [c3]; exact hcv) with ⟨h, _⟩ | ⟨_, h⟩
  · rw [e1, e2] at h
    have := hv.oddP
    have := hv.oddQ
    omega
  · exact h

/-! ### C11 -/

theorem mapErr_ok {α : Type} {e : GError} {x : GR α} {v : α} : mapErr e x = .ok v ↔ x = .ok v := by
  rcases x with (_ | _) | _ <;> simp [mapErr]

theorem lift_ok {α : Type} {x : Except GError α} {v : α} : lift x = .ok v ↔ x = .ok v := by cases x <;> simp [lift]

/-- The modulus fills its words when its length is a multiple of eight octets. -/
theorem modulus_words {k : PublicKey} (hc : Canon k.n) (h8 : k.modulusLenBytes % 8 = 0) : 8 * k.n.used = k.modulusLenBytes := by
  have h1 : k.n.used ≤ k.modulusLenBytes / 8 := by
    rw [hc.min, show 64 * (k.modulusLenBytes / 8) = 8 * k.modulusLenBytes by omega]
    exact (lenBytes_le k.n _).1 (Nat.le_refl _)
  have h2 : k.modulusLenBytes ≤ 8 * k.n.used := by
    refine (lenBytes_le k.n _).2 ?_
    rw [show 8 * (8 * k.n.used) = 64 * k.n.used by omega]
    exact value_lt hc.inv
  omega

/-- What a released signature is: the octets, in whole words, of the one number below the modulus that the public operation takes to
the encoded message. -/
theorem released (hA : A.Ok) {k : PrivateKey} (hk : k.Ok A) {em sig : Bytes} {sigLen : Nat}
    (h : (do let m ← lift (fromBytes 128 em); let c ← mapErr .BadSignature (privateOp A k m); lift (c.toBytes sigLen) : GR Bytes) = .ok sig) :
    ∃ s, s < k.pub.n.value ∧ s ^ k.pub.e.toNat % k.pub.n.value = beNat em ∧ beNat em < k.pub.n.value ∧
      ∃ w, sig = toBE (8 * w) s ∧ (∀ j, w ≤ j ↔ s < 2 ^ (64 * j)) ∧ sig.length ≤ sigLen := by
  rw [lift_bind] at h
  rcases fromBytes_cases 128 em with ⟨_, m, m1, m2, m3⟩ | ⟨_, h2⟩
  swap
  · rw [h2] at h; cases h
  rw [m1] at h
  simp only at h
  rcases ho : mapErr .BadSignature (privateOp A k m) with f | c
  · rw [ho] at h; cases h
  rw [ho, ok_bind', lift_ok] at h
  rw [mapErr_ok] at ho
  obtain ⟨p1, p2, p3, p4⟩ := C12_never_wrong hA hk m2.inv ho
  rw [(C48_write c p2 sigLen).1] at h
  split at h
  · cases h
  rename_i hl
  cases h
  refine ⟨c.value, p3, by rw [p4, m3], by rw [← m3]; exact p1, c.used, rfl, ?_, by rw [toBE_length]; omega⟩
  intro j
  rw [privateOp_canon ho, digitsize_spec, val_words p2]

/-- Verification of a released signature recovers the encoded message. -/
theorem recovered (hA : A.Ok) {k : PublicKey} (hk : k.Ok) (hc : Canon k.n) (h8 : k.modulusLenBytes % 8 = 0) {em : Bytes}
    (hem : em.length = k.modulusLenBytes) {s w : Nat} (hs : s < k.n.value) (he : s ^ k.e.toNat % k.n.value = beNat em)
    (hw : ∀ j, w ≤ j ↔ s < 2 ^ (64 * j)) :
    ∃ c m, fromBytes 128 (toBE (8 * w) s) = .ok c ∧ publicOp A k c = .ok m ∧ m.toBytes MAX_PUBLIC_MODULUS_BYTES = .ok em ∧
      8 * w ≤ k.modulusLenBytes := by
  have hu := modulus_words hc h8
  have hn := value_lt hc.inv
  have hb : beNat (toBE (8 * w) s) = s := by
    rw [beNat_toBE]
    apply Nat.mod_eq_of_lt
    rw [Spec.Der.pow256', show 8 * (8 * w) = 64 * w by omega]
    exact (hw w).1 (Nat.le_refl _)
  rcases fromBytes_cases 128 (toBE (8 * w) s) with ⟨_, c, c1, c2, c3⟩ | ⟨h, _⟩
  swap
  · exact absurd (by rw [hb]; exact Nat.lt_trans hs (value_lt_N hc.inv)) h
  rw [hb] at c3
  obtain ⟨m, m1, m2, m3, m4⟩ := publicOp_ok hA hk c2.inv (by rw [c3]; exact hs)
  refine ⟨c, m, c1, m1, ?_, ?_⟩
  · have hmax := hk.max
    have hN := hc.inv.used
    rw [(C48_write m m2 _).1, if_neg (by rw [m3]; show ¬ (1024 < _); omega), m3, m4, c3, he, hu, ← hem, toBE_beNat]
  · have := (hw k.n.used).2 (Nat.lt_trans hs hn)
    omega

/-- **C11** RSASSA-PKCS1-v1_5: whatever private key was imported, a signature that is released verifies under its public half, if the
modulus is a multiple of eight octets long.  What is missing is the other lengths, see `C11_pkcs1_odd_length`. -/
theorem C11_pkcs1_partial (hA : A.Ok) {k : PrivateKey} (hk : k.Ok A) (hc : Canon k.pub.n) (h8 : k.pub.modulusLenBytes % 8 = 0)
    (F : Hmac.HashFn) (di : Bytes) (sigLen : Nat) (message sig : Bytes) (h : signPkcs1 A F di k sigLen message = .ok sig) :
    verifyPkcs1 A F di k.pub sig message = .ok () ∧ sig.length ≤ k.pub.modulusLenBytes ∧ sig.length ≤ sigLen := by
  rw [signPkcs1] at h
  rw [verifyPkcs1]
  rcases hh : hashOf F message with f | hash
  · rw [hh] at h; cases h
  rw [hh, ok_bind'] at h
  rw [ok_bind']
  rw [signPkcs1Hash] at h
  split at h
  · cases h
  rcases he : orPanic (Pkcs1.encodePkcs1Sig k.pub.modulusLenBytes di hash) with f | em
  · rw [he] at h; cases h
  rw [he, ok_bind'] at h
  have hem : em.length = k.pub.modulusLenBytes := by
    rcases hx : Pkcs1.encodePkcs1Sig k.pub.modulusLenBytes di hash with _ | em'
    · rw [hx] at he; cases he
    · rw [hx] at he; cases he
      exact (C09_shape _ _ _ _ hx).1
  obtain ⟨s, s1, s2, s3, w, rfl, s5, s6⟩ := released hA hk h
  obtain ⟨c, m, c1, c2, c3, c4⟩ := recovered hA hk.pub hc h8 hem s1 s2 s5
  refine ⟨?_, by rw [toBE_length]; exact c4, s6⟩
  rw [verifyPkcs1Hash, c1]
  show (mapErr .BadSignature (lift (publicOp A k.pub c)) >>= _) = _
  rw [c2]
  show (lift (m.toBytes MAX_PUBLIC_MODULUS_BYTES) >>= _) = _
  rw [c3]
  show (orPanic _ >>= _) = _
  rw [he, ok_bind', if_pos rfl]

/-- **C11** RSASSA-PSS: the same, for every source of randomness. -/
theorem C11_pss_partial (hA : A.Ok) {k : PrivateKey} (hk : k.Ok A) (hc : Canon k.pub.n) (h8 : k.pub.modulusLenBytes % 8 = 0)
    {F H b o l} (hF : IsHash F H b o l) (rng : RandomSource) (hr : rng.Fills) (sigLen : Nat) (message sig : Bytes)
    (hm : message.length < l) (h : signPss A F rng k sigLen message = .ok sig) :
    verifyPss A F k.pub sig message = .ok () ∧ sig.length ≤ k.pub.modulusLenBytes ∧ sig.length ≤ sigLen := by
  rw [signPss] at h
  split at h
  · cases h
  rw [verifyPss]
  rcases hh : hashOf F message with f | hash
  · rw [hh] at h; cases h
  rw [hh, ok_bind'] at h
  rw [ok_bind']
  rcases he : Pkcs1.encodePssSig F k.pub.modulusLenBytes rng 0 hash with f | em
  · rw [he] at h; cases h
  rw [he, ok_bind'] at h
  have hho : hash.length = o := by
    obtain ⟨⟨C⟩, rfl, rfl, ho⟩ := isHash_correct hF
    rw [hashOf, Pkcs1.hashParts_ok C [message] (by simpa using hm)] at hh
    cases hh
    exact C.outLen _
  obtain ⟨hem, hver⟩ := C10_round_trip hF k.pub.modulusLenBytes rng hr 0 hash em hho (by have := hk.pub.max; show k.pub.n.lenBytes < _; omega) he
  obtain ⟨s, s1, s2, s3, w, rfl, s5, s6⟩ := released hA hk h
  obtain ⟨c, m, c1, c2, c3, c4⟩ := recovered hA hk.pub hc h8 hem s1 s2 s5
  refine ⟨?_, by rw [toBE_length]; exact c4, s6⟩
  rw [toBE_length, if_neg (by omega), c1]
  show (mapErr .BadSignature (lift (publicOp A k.pub c)) >>= _) = _
  rw [c2]
  show (lift (m.toBytes MAX_PUBLIC_MODULUS_BYTES) >>= _) = _
  rw [c3]
  exact hver

/-- **C09** RSASSA-PKCS1-v1_5 verification, for a modulus that is a multiple of eight octets long: it accepts exactly the signatures
that are below the modulus and whose `e`-th power is the one encoding of the message hash, octet for octet. -/
theorem C09_verify_partial (hA : A.Ok) {k : PublicKey} (hk : k.Ok) (hc : Canon k.n) (h8 : k.modulusLenBytes % 8 = 0)
    {len : Nat} {di : Bytes} {arcs : List Nat} (hd : IsDigestInfo len di arcs) (hash : Bytes) (hl : hash.length = len) (sig : Bytes) :
    (verifyPkcs1Hash A k sig di hash = .ok () ↔ beNat sig < k.n.value ∧
      Spec.Pkcs1.emsaPkcs1 k.modulusLenBytes (Spec.Pkcs1.digestInfo arcs hash) =
        some (toBE k.modulusLenBytes (beNat sig ^ k.e.toNat % k.n.value))) ∧
    (verifyPkcs1Hash A k sig di hash = .ok () ∨ verifyPkcs1Hash A k sig di hash = .error (.err .BadSignature) ∨
      Spec.Pkcs1.emsaPkcs1 k.modulusLenBytes (Spec.Pkcs1.digestInfo arcs hash) = none) := by
  have hu := modulus_words hc h8
  rw [← C09_encode hd _ _ hl, verifyPkcs1Hash]
  rcases fromBytes_cases 128 sig with ⟨_, c, c1, c2, c3⟩ | ⟨hbig, h2⟩
  swap
  · have hn := value_lt_N hc.inv
    rw [h2]
    exact ⟨⟨fun h => (by cases h), fun h => absurd (Nat.lt_trans h.1 hn) hbig⟩, Or.inr (Or.inl rfl)⟩
  have hstep : ∀ {β : Type} (f : PosInt 128 → GR β), (mapErr .BadSignature (lift (fromBytes 128 sig)) >>= f) = f c := by
    intro β f; rw [c1]; rfl
  simp only [hstep]
  by_cases hlt : beNat sig < k.n.value
  swap
  · have : publicOp A k c = .error .OutOfRange := publicOp_err (by omega)
    have hstep2 : ∀ {β : Type} (f : PosInt 128 → GR β), (mapErr .BadSignature (lift (publicOp A k c)) >>= f) = .error (.err .BadSignature) := by
      intro β f; rw [this]; rfl
    simp only [hstep2]
    simp [hlt]
  obtain ⟨m, m1, m2, m3, m4⟩ := publicOp_ok hA hk c2.inv (by rw [c3]; exact hlt)
  have hmb : m.toBytes MAX_PUBLIC_MODULUS_BYTES = .ok (toBE k.modulusLenBytes (beNat sig ^ k.e.toNat % k.n.value)) := by
    have hN := hc.inv.used
    rw [(C48_write m m2 _).1, if_neg (by rw [m3]; show ¬ (1024 < _); omega), m3, m4, c3, hu]
  generalize toBE k.modulusLenBytes (beNat sig ^ k.e.toNat % k.n.value) = mb at *
  have hstep2 : ∀ {β : Type} (f : PosInt 128 → GR β), (mapErr .BadSignature (lift (publicOp A k c)) >>= f) = f m := by
    intro β f; rw [m1]; rfl
  have hstep3 : ∀ {β : Type} (f : Bytes → GR β), (lift (m.toBytes MAX_PUBLIC_MODULUS_BYTES) >>= f) = f mb := by
    intro β f; rw [hmb]; rfl
  simp only [hstep2, hstep3]
  rcases he : Pkcs1.encodePkcs1Sig k.modulusLenBytes di hash with _ | em
  · have hstep4 : ∀ {β : Type} (f : Bytes → GR β), (orPanic (none : Option Bytes) >>= f) = .error .panic := fun f => rfl
    simp only [hstep4]
    simp
  · have hstep4 : ∀ {β : Type} (f : Bytes → GR β), (orPanic (some em) >>= f) = f em := fun f => rfl
    simp only [hstep4]
    by_cases hem : em = mb
    · rw [if_pos hem, hem]; simp [hlt]
    · rw [if_neg hem]; simp [hem]

/-- **C11** With a modulus whose length in octets is not a multiple of eight, RSASSA-PKCS1-v1_5 verification accepts no signature at
all, so signatures that were released do not verify. -/
theorem C11_pkcs1_odd_length (hA : A.Ok) {k : PublicKey} (hk : k.Ok) (h8 : k.modulusLenBytes % 8 ≠ 0) (F : Hmac.HashFn) (di : Bytes)
    (sig message : Bytes) : verifyPkcs1 A F di k sig message ≠ .ok () := by
  intro h
  rw [verifyPkcs1] at h
  rcases hh : hashOf F message with f | hash
  · rw [hh] at h; cases h
  rw [hh, ok_bind', verifyPkcs1Hash] at h
  rcases fromBytes_cases 128 sig with ⟨_, c, c1, c2, c3⟩ | ⟨_, h2⟩
  swap
  · rw [h2] at h; cases h
  rw [c1] at h
  have h : (mapErr .BadSignature (lift (publicOp A k c)) >>= _) = (.ok () : GR Unit) := h
  by_cases hlt : c.value < k.n.value
  swap
  · rw [publicOp_err (by omega)] at h; cases h
  obtain ⟨m, m1, m2, m3, m4⟩ := publicOp_ok hA hk c2.inv hlt
  rw [m1] at h
  have h : (lift (m.toBytes MAX_PUBLIC_MODULUS_BYTES) >>= _) = (.ok () : GR Unit) := h
  rw [(C48_write m m2 _).1] at h
  split at h
  · cases h
  have h : (orPanic _ >>= _) = (.ok () : GR Unit) := h
  rcases he : Pkcs1.encodePkcs1Sig k.modulusLenBytes di hash with _ | em
  · rw [he] at h; cases h
  rw [he] at h
  have h : (if em = toBE (8 * m.used) m.value then _ else _) = (.ok () : GR Unit) := h
  split at h
  swap
  · cases h
  rename_i hem
  have h1 := (C09_shape _ _ _ _ he).1
  rw [hem, toBE_length] at h1
  omega

/-- **C11** The same for RSASSA-PSS, unless the number happens to be short: a signature in all the words of the modulus is longer than
the modulus, and refused. -/
theorem C11_pss_odd_length {k : PublicKey} (hc : Canon k.n) (h8 : k.modulusLenBytes % 8 ≠ 0) (F : Hmac.HashFn)
    (sig message hash : Bytes) (hh : hashOf F message = .ok hash) (hs : sig.length = 8 * k.n.used) :
    verifyPss A F k sig message = .error (.err .BadSignature) := by
  have h2 : k.modulusLenBytes ≤ 8 * k.n.used := by
    refine (lenBytes_le k.n _).2 ?_
    rw [show 8 * (8 * k.n.used) = 64 * k.n.used by omega]
    exact value_lt hc.inv
  rw [verifyPss, hh, ok_bind', if_pos (by omega)]

/-- **C09** The length of a signature is not checked (RFC 8017, 8.2.2 step 1, asks for it): leading zero octets change nothing. -/
theorem C09_length_unchecked (k : PublicKey) (sig di hash : Bytes) (j : Nat) :
    verifyPkcs1Hash A k (List.replicate j 0#8 ++ sig) di hash = verifyPkcs1Hash A k sig di hash := by
  have : fromBytes 128 (List.replicate j 0#8 ++ sig) = fromBytes 128 sig := by
    have hb : beNat (List.replicate j 0#8 ++ sig) = beNat sig := by
      induction j with
      | zero => rfl
      | succ j ih => rw [List.replicate_succ, List.cons_append, beNat_cons, ih]; simp
    rcases fromBytes_cases 128 (List.replicate j 0#8 ++ sig) with ⟨h1, c, c1, c2, c3⟩ | ⟨h1, c1⟩ <;>
      rcases fromBytes_cases 128 sig with ⟨h1', c', c1', c2', c3'⟩ | ⟨h1', c1'⟩
    · rw [c1, c1', c2.eq c2' (by rw [c3, c3', hb])]
    · rw [hb] at h1; exact absurd h1 h1'
    · rw [hb] at h1; exact absurd h1' h1
    · rw [c1, c1']
  rw [verifyPkcs1Hash, verifyPkcs1Hash, this]

/-- **C10** RSASSA-PSS verification, for a modulus that is a multiple of eight octets long: it accepts exactly the signatures no longer
than the modulus and below it, whose `e`-th power is an encoding of the message hash with a salt of the length of the hash. -/
theorem C10_verify_signature_partial (hA : A.Ok) {k : PublicKey} (hk : k.Ok) (hc : Canon k.n) (h8 : k.modulusLenBytes % 8 = 0)
    {F H b o l} (hF : IsHash F H b o l) (sig message : Bytes) (hm : message.length < l) :
    (verifyPss A F k sig message = .ok () ↔ sig.length ≤ k.modulusLenBytes ∧ beNat sig < k.n.value ∧
      ∃ salt, salt.length = o ∧ toBE k.modulusLenBytes (beNat sig ^ k.e.toNat % k.n.value) =
        Spec.Pkcs1.emsaPss H o (8 * k.modulusLenBytes - 1) (H message) salt) ∧
    (verifyPss A F k sig message = .ok () ∨ verifyPss A F k sig message = .error (.err .BadSignature)) := by
  have hu := modulus_words hc h8
  have hmin : 256 ≤ k.modulusLenBytes := hk.min
  have hmax : k.modulusLenBytes ≤ 1024 := hk.max
  have hho : hashOf F message = .ok (H message) ∧ (H message).length = o ∧ o ≤ 64 := by
    have h64 : o ≤ 64 := by cases hF <;> decide
    obtain ⟨⟨C⟩, rfl, rfl, ho⟩ := isHash_correct hF
    refine ⟨?_, C.outLen _, h64⟩
    rw [hashOf, Pkcs1.hashParts_ok C [message] (by simpa using hm)]
    simp [orPanic]
  rw [verifyPss, hho.1, ok_bind']
  by_cases hlen : sig.length ≤ k.modulusLenBytes
  swap
  · rw [if_pos (by omega)]; simp [hlen]
  rw [if_neg (by omega)]
  rcases fromBytes_cases 128 sig with ⟨_, c, c1, c2, c3⟩ | ⟨hbig, h2⟩
  swap
  · have hn := value_lt_N hc.inv
    rw [h2]
    exact ⟨⟨fun h => (by cases h), fun h => absurd (Nat.lt_trans h.2.1 hn) hbig⟩, Or.inr rfl⟩
  have hstep : ∀ {β : Type} (f : PosInt 128 → GR β), (mapErr .BadSignature (lift (fromBytes 128 sig)) >>= f) = f c := by
    intro β f; rw [c1]; rfl
  simp only [hstep]
  by_cases hlt : beNat sig < k.n.value
  swap
  · have : publicOp A k c = .error .OutOfRange := publicOp_err (by omega)
    have hstep2 : ∀ {β : Type} (f : PosInt 128 → GR β), (mapErr .BadSignature (lift (publicOp A k c)) >>= f) = .error (.err .BadSignature) := by
      intro β f; rw [this]; rfl
    simp only [hstep2]
    simp [hlt]
  obtain ⟨m, m1, m2, m3, m4⟩ := publicOp_ok hA hk c2.inv (by rw [c3]; exact hlt)
  have hmb : m.toBytes MAX_PUBLIC_MODULUS_BYTES = .ok (toBE k.modulusLenBytes (beNat sig ^ k.e.toNat % k.n.value)) := by
    have hN := hc.inv.used
    rw [(C48_write m m2 _).1, if_neg (by rw [m3]; show ¬ (1024 < _); omega), m3, m4, c3, hu]
  have hstep2 : ∀ {β : Type} (f : PosInt 128 → GR β), (mapErr .BadSignature (lift (publicOp A k c)) >>= f) = f m := by
    intro β f; rw [m1]; rfl
  have hl : (toBE k.modulusLenBytes (beNat sig ^ k.e.toNat % k.n.value)).length = k.modulusLenBytes := toBE_length _ _
  generalize toBE k.modulusLenBytes (beNat sig ^ k.e.toNat % k.n.value) = mb at *
  have hstep3 : ∀ {β : Type} (f : Bytes → GR β), (lift (m.toBytes MAX_PUBLIC_MODULUS_BYTES) >>= f) = f mb := by
    intro β f; rw [hmb]; rfl
  simp only [hstep2, hstep3]
  obtain ⟨v1, v2⟩ := C10_verify hF mb (H message) hho.2.1 (by omega)
  refine ⟨?_, v2⟩
  rw [v1, hl]
  constructor
  · rintro ⟨_, h⟩; exact ⟨hlen, hlt, h⟩
  · rintro ⟨_, _, h⟩; exact ⟨by omega, h⟩

/-- The hypotheses on a key under which the private operation always succeeds: consistent, `q < p`, primes of the same length in
words, and a modulus that is a multiple of eight octets long. -/
structure Conventional (A : Asm) (k : PrivateKey) (n e d p q dp dq qInv : Nat) : Prop where
  ok : k.Ok A
  canonical : Canon k.pub.n
  holds : k.Holds n e d p q dp dq qInv
  valid : Spec.Rsa.ValidKey n e d p q dp dq qInv
  larger : q < p
  words : k.p.used = k.q.used
  octets : k.pub.modulusLenBytes % 8 = 0

theorem sign_ok (hA : A.Ok) {k : PrivateKey} {n e d p q dp dq qInv : Nat} (hk : Conventional A k n e d p q dp dq qInv) {em : Bytes}
    (hlt : beNat em < n) {sigLen : Nat} (hs : k.pub.modulusLenBytes ≤ sigLen) :
    ∃ sig, (do let m ← lift (fromBytes 128 em); let c ← mapErr .BadSignature (privateOp A k m); lift (c.toBytes sigLen) : GR Bytes) = .ok sig := by
  have hn : n < 2 ^ (64 * 128) := by rw [← hk.holds.pub.n]; exact value_lt_N hk.ok.pub.ctx.inv
  rcases fromBytes_cases 128 em with ⟨_, m, m1, m2, m3⟩ | ⟨h, _⟩
  swap
  · exact absurd (Nat.lt_trans hlt hn) h
  obtain ⟨c, c1, c2, c3, _⟩ := C12_private_op_partial hA hk.ok hk.holds hk.valid hk.larger hk.words m2 (by rw [m3]; exact hlt)
  have hc : c.value < k.pub.n.value := by
    rw [c3, hk.holds.pub.n]; exact Nat.mod_lt _ (by omega)
  have hu := modulus_words hk.canonical hk.octets
  have hcu : c.used ≤ k.pub.n.used := by
    rw [privateOp_canon c1, digitsize_spec, val_words c2]
    exact Nat.lt_trans hc (value_lt hk.ok.pub.ctx.inv)
  refine ⟨toBE (8 * c.used) c.value, ?_⟩
  rw [m1]
  show (mapErr .BadSignature (privateOp A k m) >>= _) = _
  rw [c1]
  show lift (c.toBytes sigLen) = _
  rw [(C48_write c c2 sigLen).1, if_neg (by omega)]; rfl

/-- **C11** With a conventional key every message is signed, into any buffer at least as long as the modulus. -/
theorem C11_pkcs1_signs_partial (hA : A.Ok) {k : PrivateKey} {n e d p q dp dq qInv : Nat} (hk : Conventional A k n e d p q dp dq qInv)
    {F H b o l} (hF : IsHash F H b o l) {di : Bytes} {arcs : List Nat} (hd : IsDigestInfo o di arcs)
    (message : Bytes) (hm : message.length < l) (sigLen : Nat) (hs : k.pub.modulusLenBytes ≤ sigLen) :
    ∃ sig, signPkcs1 A F di k sigLen message = .ok sig := by
  have hmin : 256 ≤ k.pub.modulusLenBytes := hk.ok.pub.min
  have hdi : di.length + o ≤ 128 := by cases hd <;> decide
  obtain ⟨⟨C⟩, rfl, rfl, ho⟩ := isHash_correct hF
  have hho : hashOf F message = .ok (H message) := by
    rw [hashOf, Pkcs1.hashParts_ok C [message] (by simpa using hm)]
    simp [orPanic]
  have hlen := C.outLen message
  rw [signPkcs1, hho, ok_bind', signPkcs1Hash, if_neg (by omega)]
  rcases he : Pkcs1.encodePkcs1Sig k.pub.modulusLenBytes di (H message) with _ | em
  · rw [Pkcs1.encodePkcs1Sig] at he
    simp only at he
    rw [if_neg (by omega)] at he
    cases he
  show ∃ sig, (lift (fromBytes 128 em) >>= _) = _
  apply sign_ok hA hk _ hs
  obtain ⟨h1, j, _, h2⟩ := C09_shape _ _ _ _ he
  obtain ⟨rest, hr⟩ : ∃ rest, em = 0x00#8 :: rest := ⟨_, h2⟩
  have hb : beNat em = beNat rest := by rw [hr, beNat_cons]; simp
  have hrl : rest.length = k.pub.modulusLenBytes - 1 := by rw [hr, List.length_cons] at h1; omega
  rw [hb, ← hk.holds.pub.n]
  refine Nat.lt_of_lt_of_le (beNat_lt rest) ?_
  rw [hrl, Spec.Der.pow256']
  exact (le_lenBytes k.pub.n (k.pub.modulusLenBytes - 1)).1 (by show _ ≤ k.pub.modulusLenBytes; omega)

theorem emsaPss_form (H : Bytes → Bytes) (o emBits : Nat) (m salt : Bytes) :
    ∃ x rest, Spec.Pkcs1.emsaPss H o emBits m salt = Spec.Pkcs1.clearBits (8 * ((emBits + 7) / 8) - emBits) x ++ rest ∧
      ∃ j h, x = List.zipWith (· ^^^ ·) (List.replicate j 0#8 ++ [0x01#8] ++ salt) (Spec.Pkcs1.mgf1 H o h ((emBits + 7) / 8 - o - 1)) :=
  ⟨_, _, List.append_assoc _ _ _, _, _, rfl⟩

/-- **C11** The same for RSASSA-PSS, when the modulus has its top bit set; signing fails only as the random source does. -/
theorem C11_pss_signs_partial (hA : A.Ok) {k : PrivateKey} {n e d p q dp dq qInv : Nat} (hk : Conventional A k n e d p q dp dq qInv)
    {F H b o l} (hF : IsHash F H b o l) (htop : 2 ^ (8 * k.pub.modulusLenBytes - 1) ≤ n) (rng : RandomSource) (hr : rng.Fills)
    (message : Bytes) (hm : message.length < l) (sigLen : Nat) (hs : k.pub.modulusLenBytes ≤ sigLen) :
    match rng 0 o with
    | .ok _ => ∃ sig, signPss A F rng k sigLen message = .ok sig
    | .error e => signPss A F rng k sigLen message = .error (.err e) := by
  have hmin : 256 ≤ k.pub.modulusLenBytes := hk.ok.pub.min
  have hmax : k.pub.modulusLenBytes ≤ 1024 := hk.ok.pub.max
  have h64 : o ≤ 64 := by cases hF <;> decide
  have hho : hashOf F message = .ok (H message) ∧ (H message).length = o := by
    obtain ⟨⟨C⟩, rfl, rfl, ho⟩ := isHash_correct hF
    refine ⟨?_, C.outLen _⟩
    rw [hashOf, Pkcs1.hashParts_ok C [message] (by simpa using hm)]
    simp [orPanic]
  rw [signPss, if_neg (by omega), hho.1, ok_bind', C10_encode hF _ rng hr 0 _ hho.2 (by omega), if_neg (by omega)]
  rcases hsalt : rng 0 o with err | salt
  · rfl
  show ∃ sig, (lift (fromBytes 128 _) >>= _) = _
  apply sign_ok hA hk _ hs
  have hl := emsaPss_length hF k.pub.modulusLenBytes (H message) salt (hr _ _ _ hsalt) (by omega)
  refine Nat.lt_of_lt_of_le ?_ htop
  have hform : ∃ x rest, Spec.Pkcs1.emsaPss H o (8 * k.pub.modulusLenBytes - 1) (H message) salt =
      Spec.Pkcs1.clearBits 1 x ++ rest ∧ x ≠ [] := by
    have hsl := hr _ _ _ hsalt
    obtain ⟨x, rest, h1, j, hh, h2⟩ := emsaPss_form H o (8 * k.pub.modulusLenBytes - 1) (H message) salt
    rw [show 8 * ((8 * k.pub.modulusLenBytes - 1 + 7) / 8) - (8 * k.pub.modulusLenBytes - 1) = 1 by omega] at h1
    refine ⟨x, rest, h1, ?_⟩
    intro h0
    rw [h2] at h0
    have h0 := congrArg List.length h0
    obtain ⟨⟨C⟩, rfl, rfl, ho⟩ := isHash_correct hF
    rw [List.length_zipWith, Pkcs1.mgf1_length C] at h0
    simp only [List.length_append, List.length_replicate, List.length_cons, List.length_nil] at h0
    omega
  obtain ⟨x, rest, hx, hne⟩ := hform
  rw [hx] at hl ⊢
  obtain ⟨y, ys, rfl⟩ := List.exists_cons_of_ne_nil hne
  rw [Spec.Pkcs1.clearBits, List.cons_append] at hl ⊢
  have hy : (y &&& (0xff#8 >>> 1)).toNat < 128 := (show ∀ y : Byte, (y &&& (0xff#8 >>> 1)).toNat < 128 by decide) y
  rw [beNat_cons]
  have hb := beNat_lt (ys ++ rest)
  rw [List.length_cons] at hl
  have hll : (ys ++ rest).length = k.pub.modulusLenBytes - 1 := by omega
  rw [hll] at hb ⊢
  rw [Spec.Der.pow256'] at hb ⊢
  rw [show 8 * k.pub.modulusLenBytes - 1 = 7 + 8 * (k.pub.modulusLenBytes - 1) by omega, Nat.pow_add]
  generalize 2 ^ (8 * (k.pub.modulusLenBytes - 1)) = X at *
  generalize (y &&& (0xff#8 >>> 1)).toNat = z at *
  have : z * X + X ≤ 2 ^ 7 * X := by
    rw [← Nat.succ_mul]; exact Nat.mul_le_mul_right X (by omega)
  omega

end Verif.Props
