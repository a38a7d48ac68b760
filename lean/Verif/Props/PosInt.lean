import Verif.Proof.MontExp
import Verif.Proof.Invert
import Verif.Proof.PosIntBytes
import Verif.Proof.BignumRef

/-!
C47, C48, C49: multi-word integers.  A `PosInt` denotes the number `value`: its first `used` words, least significant first.
`Inv` is the representation invariant (`N` words, `used` of them in use, the others zero).  `Asm.Ok` is the documented contract
of the trusted assembly; `Bignum.ref_ok` shows that it can be met.
-/
namespace Verif.Props
open Verif Verif.PosInt Verif.Bignum

variable {N M : Nat} {A : Asm}

/-- The number 7 in one word, 2^128 + 7 in three, and so on: values for the examples below. -/
def ofNat (N k v : Nat) : PosInt N := ofWords N (toWords k v)

theorem ofNat_ok {k v : Nat} (h : k ≤ N) (hv : v < 2 ^ (64 * k)) : (ofNat N k v).Inv ∧ (ofNat N k v).value = v ∧ (ofNat N k v).used = k :=
  ⟨ofWords_inv (by simpa using h), by rw [ofNat, ofWords_value, val_toWords_of_lt hv], by simp [ofNat, ofWords]⟩

/-! ### C47 -/

/-- **C47** Exponentiation returns `base^exponent mod modulus`, for every odd modulus, every base that fits in the words of the
modulus and every exponent with at least one word.  The montifier and the negated inverse are those the callers compute. -/
theorem C47_mod_exp (hA : A.Ok) (b e n : PosInt N) (hb : b.Inv) (he : e.Inv) (hn : n.Inv) (hodd : n.value % 2 = 1)
    (hfit : b.value < 2 ^ (64 * n.used)) (hlen : 0 < e.used) :
    ∃ r, b.modExp A e n (n.montifier A) (n.montNegInverse A) = some r ∧ r.Inv ∧ r.used = n.used ∧
      r.value = b.value ^ e.value % n.value :=
  modExp_ok hA (montNegInverse_ok hA hn hodd) (isMontifier hA hn hodd) hb hfit he hlen

/-- 7^65537 modulo the 128-bit number 2^127 + 1, with numbers of 16 words: the hypotheses can be met. -/
example : ∃ r, (ofNat 64 1 7).modExp ref (ofNat 64 1 65537) (ofNat 64 2 (2 ^ 127 + 1)) ((ofNat 64 2 (2 ^ 127 + 1)).montifier ref)
    ((ofNat 64 2 (2 ^ 127 + 1)).montNegInverse ref) = some r ∧ r.value = 7 ^ 65537 % (2 ^ 127 + 1) := by
  obtain ⟨b1, b2, b3⟩ := ofNat_ok (N := 64) (k := 1) (v := 7) (by decide) (by decide)
  obtain ⟨e1, e2, e3⟩ := ofNat_ok (N := 64) (k := 1) (v := 65537) (by decide) (by decide)
  obtain ⟨n1, n2, n3⟩ := ofNat_ok (N := 64) (k := 2) (v := 2 ^ 127 + 1) (by decide) (by decide)
  obtain ⟨r, h1, _, _, h2⟩ := C47_mod_exp ref_ok _ _ _ b1 e1 n1 (by rw [n2]; decide) (by rw [b2, n3]; decide) (by rw [e3]; decide)
  exact ⟨r, h1, by rw [h2, b2, e2, n2]⟩

/-- **C47** An exponent without words, as zero is read from bytes, makes exponentiation panic. -/
theorem C47_zero_exponent_panics (b n m : PosInt N) (n0 : Word) (zeros : Nat) :
    ∃ e, fromBytes N (List.replicate zeros 0#8) = .ok e ∧ b.modExp A e n m n0 = none := by
  obtain ⟨r, h1, h2, h3, h4⟩ := fromBytes_ok (N := N) (List.replicate zeros 0#8) (by rw [beNat_replicate_zero]; exact Nat.two_pow_pos _)
  refine ⟨r, h1, ?_⟩
  have : r.used ≤ 0 := (h4 0).2 (by rw [beNat_replicate_zero]; decide)
  rw [modExp, montExp_none (by omega)]; rfl

/-! ### C48 -/

/-- **C48** Reading big-endian bytes gives the number they denote, in as few words as possible, exactly when it fits;
otherwise `OutOfRange`.  Leading zeros do not matter. -/
theorem C48_read (bytes : Bytes) :
    (beNat bytes < 2 ^ (64 * N) ∧ ∃ r, fromBytes N bytes = .ok r ∧ r.Inv ∧ r.value = beNat bytes ∧
      ∀ k, r.used ≤ k ↔ beNat bytes < 2 ^ (64 * k)) ∨
    (2 ^ (64 * N) ≤ beNat bytes ∧ fromBytes N bytes = .error .OutOfRange) := by
  by_cases h : beNat bytes < 2 ^ (64 * N)
  · exact Or.inl ⟨h, fromBytes_ok bytes h⟩
  · exact Or.inr ⟨by omega, fromBytes_err bytes h⟩

/-- **C48** Writing gives the big-endian bytes of the number at the width of its words, if the buffer is large enough; the DER
form has one more zero byte in front. -/
theorem C48_write (p : PosInt N) (hp : p.Inv) (outLen : Nat) :
    p.toBytes outLen = (if outLen < 8 * p.used then .error .OutOfRange else .ok (toBE (8 * p.used) p.value)) ∧
    p.toBytesAsn1 outLen = (if outLen < 8 * p.used + 1 then .error .OutOfRange else .ok (toBE (8 * p.used + 1) p.value)) := by
  rw [toBytes, toBytesAsn1, beBytes_eq hp, Nat.mul_comm p.used 8]
  refine ⟨rfl, ?_⟩
  split
  · rfl
  · congr 1
    have hv := value_lt hp
    refine beNat_inj (by simp) ?_
    rw [beNat_cons, beNat_toBE, beNat_toBE, pow256 (8 * p.used), pow256 (8 * p.used + 1), show 8 * (8 * p.used) = 64 * p.used by omega,
      show 8 * (8 * p.used + 1) = 64 * p.used + 8 by omega, Nat.pow_add, Nat.mod_eq_of_lt hv]
    have : p.value < 2 ^ (64 * p.used) * 2 ^ 8 := by omega
    rw [Nat.mod_eq_of_lt this]; simp

/-- **C48** Read, then written: the same number, padded or trimmed to the smallest multiple of eight bytes that holds it. -/
theorem C48_round_trip (bytes : Bytes) (h : beNat bytes < 2 ^ (64 * N)) :
    ∃ r w, fromBytes N bytes = .ok r ∧ (∀ k, w ≤ k ↔ beNat bytes < 2 ^ (64 * k)) ∧
      ∀ outLen, 8 * w ≤ outLen → r.toBytes outLen = .ok (toBE (8 * w) (beNat bytes)) := by
  obtain ⟨r, h1, h2, h3, h4⟩ := fromBytes_ok bytes h
  refine ⟨r, r.used, h1, h4, ?_⟩
  intro outLen ho
  rw [(C48_write r h2 outLen).1, if_neg (by omega), h3]

/-- **C48** Written, then read: the same number, whatever the width. -/
theorem C48_write_read (p : PosInt N) (hp : p.Inv) (outLen : Nat) (bytes : Bytes)
    (h : p.toBytes outLen = .ok bytes ∨ p.toBytesAsn1 outLen = .ok bytes) :
    ∃ r, fromBytes N bytes = .ok r ∧ r.Inv ∧ r.value = p.value := by
  have hv := value_lt hp
  have hb : beNat bytes = p.value := by
    obtain ⟨e1, e2⟩ := C48_write p hp outLen
    rw [e1, e2] at h
    have k : ∀ j, p.value < 256 ^ (8 * p.used + j) := by
      intro j
      rw [pow256, show 8 * (8 * p.used + j) = 64 * p.used + 8 * j by omega]
      exact Nat.lt_of_lt_of_le hv (Nat.pow_le_pow_right (by omega) (by omega))
    rcases h with h | h
    · split at h
      · cases h
      · cases h; rw [beNat_toBE]; exact Nat.mod_eq_of_lt (k 0)
    · split at h
      · cases h
      · cases h; rw [beNat_toBE, Nat.mod_eq_of_lt (k 1)]
  obtain ⟨r, h1, h2, h3, _⟩ := fromBytes_ok (N := N) bytes (by rw [hb]; exact value_lt_N hp)
  exact ⟨r, h1, h2, by rw [h3, hb]⟩

/-- **C48** Comparisons, parity and lengths are those of the numbers, whatever the widths. -/
theorem C48_compare (p q : PosInt N) (hp : p.Inv) :
    (p.equals q = true ↔ p.value = q.value) ∧ (p.lessThan q = true ↔ p.value < q.value) ∧
    (p.isZero = true ↔ p.value = 0) ∧ (p.isEven = true ↔ p.value % 2 = 0) ∧ (p.isOdd = true ↔ p.value % 2 = 1) ∧
    (∀ k, p.lenBits ≤ k ↔ p.value < 2 ^ k) ∧ (∀ k, p.lenBytes ≤ k ↔ p.value < 256 ^ k) := by
  refine ⟨equals_iff p q, lessThan_iff p q, isZero_iff p, isEven_iff hp, isOdd_iff hp, lenBits_le p, ?_⟩
  intro k
  rw [pow256, ← lenBits_le, lenBytes]; omega

/-- Nine bytes, two words. -/
example : ∃ r, fromBytes 4 [0x00#8, 0x01#8, 0, 0, 0, 0, 0, 0, 0, 0x05#8] = .ok r ∧ r.value = 2 ^ 64 + 5 ∧ r.used = 2 :=
  ⟨⟨[5#64, 1#64, 0#64, 0#64], 2⟩, rfl, by decide, rfl⟩

/-! ### C49 -/

/-- **C49** Inversion: for every modulus with a spare bit in the array and every odd operand greater than one and below the
modulus, the loop ends within as many turns as the two numbers have bits; the result is the inverse when there is one and
`None` otherwise.  What is missing: the function's comment does not ask for an operand that is odd and below the modulus, nor
for the spare bit; see the two theorems that follow. -/
theorem C49_invert_partial (hA : A.Ok) (x m : PosInt N) (hx : x.Inv) (hm : m.Inv) (hspare : 2 * m.value ≤ 2 ^ (64 * N))
    (hodd : x.value % 2 = 1) (h1 : 1 < x.value) (hlt : x.value < m.value) (fuel : Nat) (hf : x.lenBits + m.lenBits ≤ fuel) :
    (Nat.gcd x.value m.value = 1 → ∃ r, invertVartime A fuel x m = .done (some r) ∧ r.Inv ∧ r.value < m.value ∧
      r.value * x.value % m.value = 1) ∧
    (Nat.gcd x.value m.value ≠ 1 → invertVartime A fuel x m = .done none) := by
  rcases invertVartime_ok hA hx hm hspare h1 hlt hodd hf with ⟨g, h⟩ | ⟨g, h⟩
  · exact ⟨fun _ => h, fun h' => absurd g h'⟩
  · exact ⟨fun h' => absurd h' g, fun _ => h⟩

/-- 65537 modulo an even number of 96 bits. -/
example : ∃ r, invertVartime ref 200 (ofNat 4 1 65537) (ofNat 4 2 (2 ^ 95 + 4)) = .done (some r) ∧
    r.value * 65537 % (2 ^ 95 + 4) = 1 := by
  obtain ⟨x1, x2, _⟩ := ofNat_ok (N := 4) (k := 1) (v := 65537) (by decide) (by decide)
  obtain ⟨m1, m2, _⟩ := ofNat_ok (N := 4) (k := 2) (v := 2 ^ 95 + 4) (by decide) (by decide)
  have hb1 : (ofNat 4 1 65537).lenBits ≤ 17 := (lenBits_le _ _).2 (by rw [x2]; decide)
  have hb2 : (ofNat 4 2 (2 ^ 95 + 4)).lenBits ≤ 96 := (lenBits_le _ _).2 (by rw [m2]; decide)
  have := (C49_invert_partial ref_ok _ _ x1 m1 (by rw [m2]; decide) (by rw [x2]) (by rw [x2]; decide) (by rw [x2, m2]; decide) 200
    (by omega)).1 (by rw [x2, m2]; decide)
  obtain ⟨r, h1, _, _, h2⟩ := this
  rw [x2, m2] at h2
  exact ⟨r, h1, h2⟩

/-- **C49** Without the spare bit the function can panic: inverting 2 modulo `2^(64N) - 1` does, although the inverse exists. -/
theorem C49_invert_panics (hN : 0 < N) (x m : PosInt N) (hx : x.Inv) (hm : m.Inv) (h2 : x.value = 2) (hv : m.value = 2 ^ (64 * N) - 1)
    (fuel : Nat) : invertVartime A (fuel + 1) x m = .panic ∧ 2 ^ (64 * N - 1) * x.value % m.value = 1 := by
  have hp : 2 ^ (64 * N) = 2 * 2 ^ (64 * N - 1) := by rw [← Nat.pow_succ']; congr 1; omega
  have hp1 : 2 ≤ 2 ^ (64 * N - 1) := by
    calc 2 = 2 ^ 1 := rfl
      _ ≤ _ := Nat.pow_le_pow_right (by omega) (by omega)
  constructor
  · have hmu : 0 < m.used := used_pos (by omega)
    have hc : ¬ (x.isZero || m.isZero || (x.isEven && m.isEven)) = true := by
      simp only [Bool.or_eq_true, Bool.and_eq_true, isZero_iff, isEven_iff hx, isEven_iff hm]; omega
    obtain ⟨a1, a2⟩ : ((one N).expand m).Inv ∧ ((one N).expand m).value = 1 := expand_one_inv hmu hm.used 1#64
    rw [invertVartime, if_neg hc, invLoop, invSub]
    have h0 : x.isOdd = false := (isOdd_false hx).2 (by rw [h2])
    have he : x.isEven = true := (isEven_iff hx).2 (by rw [h2])
    simp only [h0, Bool.false_and]
    rw [if_neg (by simp), invShift]
    simp only [he, Bool.true_or]
    rw [if_neg (by simp), if_pos trivial, invHalf, if_pos (by rw [(isOdd_iff a1).2 (by rw [a2])]; rfl)]
    have hn : ((one N).expand m).addShiftRight1 m = none := by
      rw [addShiftRight1]
      have t1 : val (((one N).expand m).asWords.take N) = 1 := by
        rw [List.take_of_length_le (by rw [length_asWords a1]; exact a1.used)]; exact a2
      have t2 : val (m.asWords.take N) = m.value := by
        rw [List.take_of_length_le (by rw [length_asWords hm]; exact hm.used)]; rfl
      have hz : val (Bignum.add N ((one N).expand m).asWords m.asWords).1 = 0 := by
        simp only [Bignum.add, t1, t2, val_toWords, hv]
        rw [show 1 + (2 ^ (64 * N) - 1) = 2 ^ (64 * N) by omega, Nat.mod_self]
      have hd : digitsize (Bignum.add N ((one N).expand m).asWords m.asWords).1 = 0 :=
        Nat.le_zero.1 ((digitsize_spec _ 0).2 (by rw [hz]; decide))
      rw [if_pos hd]
    rw [hn]
  · rw [h2, hv, Nat.mul_comm, ← hp, Nat.mod_eq_sub_mod (by omega), show 2 ^ (64 * N) - (2 ^ (64 * N) - 1) = 1 by omega]
    exact Nat.mod_eq_of_lt (by omega)

theorem modadd_eq (hA : A.Ok) {x y m z : Words} (h1 : x.length = m.length) (h2 : y.length = m.length) (h3 : val x < val m)
    (h4 : val y < val m) (hl : z.length = m.length) (hz : val z = (val x + val y) % val m) : A.modadd x y m = z :=
  val_inj (by rw [hA.modadd_length, hl]) (by rw [hA.modadd _ _ _ h1 h2 h3 h4, hz])

/-- **C49** Operands above the modulus are not supported: asked for the inverse of 3 modulo 2 the function answers 0. -/
theorem C49_invert_large_operand_wrong (hA : A.Ok) (fuel : Nat) :
    invertVartime A (fuel + 3) (⟨[3#64], 1⟩ : PosInt 1) ⟨[2#64], 1⟩ = .done (some ⟨[0#64], 0⟩) := by
  have e1 : A.modadd [1#64] [1#64] [2#64] = [0#64] := modadd_eq hA rfl rfl (by decide) (by decide) rfl (by decide)
  have e2 : A.modadd [0#64] [2#64] [3#64] = [2#64] := modadd_eq hA rfl rfl (by decide) (by decide) rfl (by decide)
  have e3 : A.modadd [1#64] [0#64] [2#64] = [1#64] := modadd_eq hA rfl rfl (by decide) (by decide) rfl (by decide)
  have e4 : A.modadd [2#64] [1#64] [3#64] = [0#64] := modadd_eq hA rfl rfl (by decide) (by decide) rfl (by decide)
  have m1 : addMod A (⟨[1#64], 1⟩ : PosInt 1) ⟨[1#64], 1⟩ ⟨[2#64], 1⟩ = ⟨[0#64], 0⟩ := by
    simp only [addMod, asWordsWithLenOf, asWords, List.take_succ_cons, List.take_zero, e1]; rfl
  have m2 : addMod A (⟨[0#64], 1⟩ : PosInt 1) ⟨[2#64], 1⟩ ⟨[3#64], 1⟩ = ⟨[2#64], 1⟩ := by
    simp only [addMod, asWordsWithLenOf, asWords, List.take_succ_cons, List.take_zero, e2]; rfl
  have m3 : addMod A (⟨[1#64], 1⟩ : PosInt 1) ⟨[0#64], 0⟩ ⟨[2#64], 1⟩ = ⟨[1#64], 1⟩ := by
    simp only [addMod, asWordsWithLenOf, asWords, List.take_succ_cons, List.take_zero, e3]; rfl
  have m4 : addMod A (⟨[2#64], 1⟩ : PosInt 1) ⟨[1#64], 1⟩ ⟨[3#64], 1⟩ = ⟨[0#64], 0⟩ := by
    simp only [addMod, asWordsWithLenOf, asWords, List.take_succ_cons, List.take_zero, e4]; rfl
  let x : PosInt 1 := ⟨[3#64], 1⟩
  let y : PosInt 1 := ⟨[2#64], 1⟩
  have q1 : addShiftRight1 (⟨[0#64], 1⟩ : PosInt 1) ⟨[2#64], 1⟩ = some ⟨[1#64], 1⟩ := by decide +kernel
  have q2 : addShiftRight1 (⟨[1#64], 1⟩ : PosInt 1) ⟨[3#64], 1⟩ = some ⟨[2#64], 1⟩ := by decide +kernel
  have s1 : invShift x y (invSub A x y ⟨x, y, ⟨[1#64], 1⟩, ⟨[0#64], 1⟩, ⟨[0#64], 1⟩, ⟨[1#64], 1⟩⟩) =
      some ⟨x, ⟨[1#64], 1⟩, ⟨[1#64], 1⟩, ⟨[0#64], 1⟩, ⟨[1#64], 1⟩, ⟨[2#64], 1⟩⟩ := by
    rw [invSub, if_neg (by decide), invShift, if_neg (by decide), if_neg (by decide), invHalf, if_pos (by decide)]
    simp only [x, y, q1, q2]
    rfl
  have s2 : invShift x y (invSub A x y ⟨x, ⟨[1#64], 1⟩, ⟨[1#64], 1⟩, ⟨[0#64], 1⟩, ⟨[1#64], 1⟩, ⟨[2#64], 1⟩⟩) =
      some ⟨⟨[1#64], 1⟩, ⟨[1#64], 1⟩, ⟨[0#64], 0⟩, ⟨[1#64], 1⟩, ⟨[1#64], 1⟩, ⟨[2#64], 1⟩⟩ := by
    rw [invSub, if_pos (by decide), if_pos (by decide)]
    simp only [x, y, m1, m2]
    rfl
  have s3 : invShift x y (invSub A x y ⟨⟨[1#64], 1⟩, ⟨[1#64], 1⟩, ⟨[0#64], 0⟩, ⟨[1#64], 1⟩, ⟨[1#64], 1⟩, ⟨[2#64], 1⟩⟩) =
      some ⟨⟨[1#64], 1⟩, ⟨[0#64], 1⟩, ⟨[0#64], 0⟩, ⟨[1#64], 1⟩, ⟨[1#64], 1⟩, ⟨[1#64], 1⟩⟩ := by
    rw [invSub, if_pos (by decide), if_neg (by decide)]
    simp only [x, y, m3, m4]
    rfl
  rw [invertVartime, if_neg (by decide)]
  show invLoop A x y (fuel + 3) ⟨x, y, ⟨[1#64], 1⟩, ⟨[0#64], 1⟩, ⟨[0#64], 1⟩, ⟨[1#64], 1⟩⟩ = _
  rw [invLoop, s1]
  dsimp only
  rw [if_neg (by decide), invLoop, s2]
  dsimp only
  rw [if_neg (by decide), invLoop, s3]
  dsimp only
  rw [if_pos (by decide), if_pos (by decide)]

/-- **C49** Reduction modulo a number greater than one, odd or even, whose top word is not zero, is the remainder; the value
may have any number of words from one fewer than the modulus up. -/
theorem C49_reduce_even (hA : A.Ok) (p : PosInt N) (m : PosInt M) (hp : p.Inv) (hm : m.Inv) (hMN : M < N) (h2 : 1 < m.value)
    (htop : 2 ^ (64 * (m.used - 1)) ≤ m.value) (hlen : m.used - 1 ≤ p.used) :
    ∃ r, reduceEven A p m = some r ∧ r.Inv ∧ r.used = m.used ∧ r.value = p.value % m.value :=
  reduceEven_ok hA hp hm hMN h2 htop hlen

/-- **C49** With fewer words than that it panics, though the remainder is the value itself. -/
theorem C49_reduce_even_short_panics (p : PosInt N) (m : PosInt M) (hp : p.Inv) (hlen : p.used < m.used - 1) :
    reduceEven A p m = none := reduceEven_panic hp hlen

example : ∃ r, reduceEven ref (ofNat 4 3 (2 ^ 190 + 12345)) (ofNat 2 2 (2 ^ 100 + 6)) = some r ∧
    r.value = (2 ^ 190 + 12345) % (2 ^ 100 + 6) := by
  obtain ⟨p1, p2, p3⟩ := ofNat_ok (N := 4) (k := 3) (v := 2 ^ 190 + 12345) (by decide) (by decide)
  obtain ⟨m1, m2, m3⟩ := ofNat_ok (N := 2) (k := 2) (v := 2 ^ 100 + 6) (by decide) (by decide)
  obtain ⟨r, h1, _, _, h2⟩ := C49_reduce_even ref_ok _ _ p1 m1 (by decide) (by rw [m2]; decide) (by rw [m2, m3]; decide)
    (by rw [m3, p3]; decide)
  exact ⟨r, h1, by rw [h2, p2, m2]⟩

end Verif.Props
