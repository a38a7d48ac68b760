import Verif.Proof.RsaGen
import Verif.Props.RsaOps
import Verif.Props.RsaExamples

/-!
C14: RSA key generation, and C57: the primality test it uses.

`generateKey A fuel size cr kr n s` runs the generator with `cr` as source of candidates and `kr` as source of Miller-Rabin bases;
`s` counts the calls made before, `fuel` and `n` bound the turns of its loops, and `none` means that it is still running.
-/
namespace Verif.Props
open Verif Verif.Bignum Verif.PosInt Verif.RsaGen Verif.Rsa Verif.Spec.MillerRabin

variable {A : Asm}

/-- **C14** The sizes that exist are 2048, 3072, 4096, 6144 and 8192 bits. -/
theorem C14_sizes (v : Nat) :
    (∀ s, KeySize.tryFrom v = .ok s ↔ s.publicModulusSizeBits = v) ∧
    (v ∉ [2048, 3072, 4096, 6144, 8192] → KeySize.tryFrom v = .error .OutOfRange) := by
  unfold KeySize.tryFrom
  split
  · exact ⟨fun s => by cases s <;> simp [KeySize.publicModulusSizeBits], by simp⟩
  · exact ⟨fun s => by cases s <;> simp [KeySize.publicModulusSizeBits], by simp⟩
  · exact ⟨fun s => by cases s <;> simp [KeySize.publicModulusSizeBits], by simp⟩
  · exact ⟨fun s => by cases s <;> simp [KeySize.publicModulusSizeBits], by simp⟩
  · exact ⟨fun s => by cases s <;> simp [KeySize.publicModulusSizeBits], by simp⟩
  · rename_i h1 h2 h3 h4 h5
    refine ⟨fun s => ?_, fun _ => rfl⟩
    constructor
    · intro h; cases h
    · intro h; cases s <;> first | exact absurd h.symm h1 | exact absurd h.symm h2 | exact absurd h.symm h3 | exact absurd h.symm h4 | exact absurd h.symm h5

/-- **C14** A generated key of the requested size `S`: the modulus has exactly `S` bits and is the product of `p` and `q`, which are
odd, distinct, of exactly half the size, and `q < p`; the public exponent is 65537.  If `p` and `q` are coprime (they are only tested
for primality) the coefficient is the inverse of `q`.  For sizes below 8192 `d` is the inverse of 65537 modulo `(p-1)(q-1)`, and
`dp` and `dq` are its remainders.

Partial: for 8192 bits nothing is said about `d`, `dp` and `dq`, because `(p-1)(q-1)` fills all the words, and then the inversion is
not right for all values (`C49_invert_panics`). -/
theorem C14_generated_partial (hA : A.Ok) {size : KeySize} {cr kr : RandomSource} (hc : cr.Fills) (hk : kr.Fills) {fuel n : Nat} {s s' : Calls}
    {k : PrivateKey} (h : generateKey A fuel size cr kr n s = some (.ok k, s')) {S : Nat} (hS : S = size.publicModulusSizeBits) :
    2 ^ (S - 1) ≤ k.pub.n.value ∧ k.pub.n.value < 2 ^ S ∧ k.pub.e.toNat = 65537 ∧ k.pub.n.value = k.p.value * k.q.value ∧
    k.p.value % 2 = 1 ∧ k.q.value % 2 = 1 ∧ k.q.value < k.p.value ∧ 2 ^ (S / 2 - 1) ≤ k.q.value ∧ k.p.value < 2 ^ (S / 2) ∧
    (Nat.Coprime k.p.value k.q.value → k.iqmp.value < k.p.value ∧ k.q.value * k.iqmp.value % k.p.value = 1) ∧
    (size ≠ .Rsa8192 → k.pub.e.toNat * k.d.value % ((k.p.value - 1) * (k.q.value - 1)) = 1 ∧
      k.d.value < (k.p.value - 1) * (k.q.value - 1) ∧
      k.dp.value = k.d.value % (k.p.value - 1) ∧ k.dq.value = k.d.value % (k.q.value - 1)) := by
  obtain ⟨w1, w2, w3, w4, w5⟩ := words_cases size
  have g := generateKey_ok hA hc hk _ _ _ _ h
  obtain ⟨_, _, a, b, t, t', ca, cb, _, _, hne, hm, he⟩ := g.ok k rfl
  have main : ∀ {p q : PosInt 64}, IsCand size.words p → IsCand size.words q → q.value < p.value → MadeFrom size.words p q k →
      (size ≠ .Rsa8192 → k.Ok A ∧ Exponents p q k) → 2 ^ (S - 1) ≤ k.pub.n.value ∧ k.pub.n.value < 2 ^ S ∧ k.pub.e.toNat = 65537 ∧ k.pub.n.value = k.p.value * k.q.value ∧
      k.p.value % 2 = 1 ∧ k.q.value % 2 = 1 ∧ k.q.value < k.p.value ∧ 2 ^ (S / 2 - 1) ≤ k.q.value ∧ k.p.value < 2 ^ (S / 2) ∧
      (Nat.Coprime k.p.value k.q.value → k.iqmp.value < k.p.value ∧ k.q.value * k.iqmp.value % k.p.value = 1) ∧
      (size ≠ .Rsa8192 → k.pub.e.toNat * k.d.value % ((k.p.value - 1) * (k.q.value - 1)) = 1 ∧
        k.d.value < (k.p.value - 1) * (k.q.value - 1) ∧
        k.dp.value = k.d.value % (k.p.value - 1) ∧ k.dq.value = k.d.value % (k.q.value - 1)) := by
    intro p q hp hq hlt hm he
    obtain ⟨b1, b2⟩ := n_bounds w1 hp.lo hq.lo hp.hi hq.hi
    have e1 : 2 ^ (64 * size.words - 1) = 2 * 2 ^ (64 * size.words - 2) := by rw [← Nat.pow_succ']; congr 1; omega
    have e2 := hq.lo
    rw [hm.e, hm.pEq, hm.qEq, hm.n, hS, w4, show 128 * size.words / 2 = 64 * size.words by omega]
    refine ⟨b1, b2, rfl, rfl, hp.odd, hq.odd, hlt, by omega, hp.hi, fun h => hm.iqmp (Nat.Coprime.symm h), fun hs => ?_⟩
    have := (he hs).2
    exact ⟨by rw [Nat.mul_comm]; exact this.d, this.d_lt, this.dp, this.dq⟩
  by_cases hlt : b.value < a.value
  · rw [if_pos hlt, if_pos hlt] at hm he
    exact main ca.cand cb.cand hlt hm he
  · rw [if_neg hlt, if_neg hlt] at hm he
    exact main cb.cand ca.cand (by omega) hm he

/-- The rounds FIPS 186-5 table B.1 asks for when a candidate of half the modulus length is tested with random bases alone (the
table ends at 2048-bit primes; the longer ones are given its last row). -/
def fipsRounds (modulusBits : Nat) : Nat := if modulusBits < 3072 then 5 else 4

theorem rounds_eq (size : KeySize) : size.millerRabinRounds = fipsRounds size.publicModulusSizeBits := by cases size <;> rfl

/-- **C14** Both primes of a generated key come from successful calls of the candidate source, and both have passed the tests: no prime
factor below 743, and as many Miller-Rabin bases as FIPS 186-5 asks for, and one more, drawn from the other source. -/
theorem C14_tested (hA : A.Ok) {size : KeySize} {cr kr : RandomSource} (hc : cr.Fills) (hk : kr.Fills) {fuel n : Nat} {s s' : Calls}
    {k : PrivateKey} (h : generateKey A fuel size cr kr n s = some (.ok k, s')) :
    ∀ w, (w = k.p.value ∨ w = k.q.value) →
      (∃ i buf, s.cand ≤ i ∧ i < s'.cand ∧ cr i (size.privatePrimeSizeBits / 8) = .ok buf ∧ w = setBits buf.length (beNat buf)) ∧
      (∀ r : Nat, r.Prime → r ∣ w → 743 ≤ r) ∧
      ∃ idx : List Nat, idx.length = fipsRounds size.publicModulusSizeBits + 1 ∧ idx.Nodup ∧ ∀ i ∈ idx, s.check ≤ i ∧ i < s'.check ∧
        ∃ buf, kr i (size.privatePrimeSizeBits / 8) = .ok buf ∧ Suitable w (beNat buf) ∧ Passes w (beNat buf) := by
  obtain ⟨w1, w2, w3, w4, w5⟩ := words_cases size
  have g := generateKey_ok hA hc hk _ _ _ _ h
  obtain ⟨_, _, a, b, t, t', ca, cb, h1, h2, hne, hm, he⟩ := g.ok k rfl
  have main : ∀ {x y : Calls} {p : PosInt 64}, s.cand ≤ x.cand → s.check ≤ x.check → y.cand ≤ s'.cand → y.check ≤ s'.check →
      Chosen cr kr size x y p →
      (∃ i buf, s.cand ≤ i ∧ i < s'.cand ∧ cr i (size.privatePrimeSizeBits / 8) = .ok buf ∧ p.value = setBits buf.length (beNat buf)) ∧
      (∀ r : Nat, r.Prime → r ∣ p.value → 743 ≤ r) ∧
      ∃ idx : List Nat, idx.length = fipsRounds size.publicModulusSizeBits + 1 ∧ idx.Nodup ∧ ∀ i ∈ idx, s.check ≤ i ∧ i < s'.check ∧
        ∃ buf, kr i (size.privatePrimeSizeBits / 8) = .ok buf ∧ Suitable p.value (beNat buf) ∧ Passes p.value (beNat buf) := by
    intro x y p x1 x2 y1 y2 c
    have e8 : size.privatePrimeSizeBits / 8 = 8 * size.words := by omega
    obtain ⟨buf, d1, d2⟩ := c.drawn
    have lt := c.lt
    refine ⟨⟨y.cand - 1, buf, by omega, by omega, by rw [e8]; exact d1, by rw [hc _ _ _ d1]; exact d2⟩, c.tested.small, ?_⟩
    obtain ⟨idx, i1, i2, i3⟩ := c.tested.bases
    refine ⟨idx, by rw [← rounds_eq]; exact i1, i2.imp (fun h => by omega), fun i hi => ?_⟩
    obtain ⟨j1, j2, v, ⟨buf, j3, j4⟩, j5, j6⟩ := i3 i hi
    rw [show (size.privatePrimeSizeBits + 7) / 8 = size.privatePrimeSizeBits / 8 by omega] at j3
    have hlt := beNat_lt buf
    rw [pow256, hk _ _ _ j3, show 8 * (size.privatePrimeSizeBits / 8) = size.privatePrimeSizeBits by omega] at hlt
    rw [Nat.mod_eq_of_lt hlt] at j4
    exact ⟨by omega, by omega, buf, j3, by rw [← j4]; exact j5, by rw [← j4]; exact j6⟩
  have ha := main h1 h2 (Nat.le_of_lt cb.lt) (by
    obtain ⟨idx, i1, _, i3⟩ := cb.tested.bases
    rcases idx with _ | ⟨i, _⟩
    · simp at i1
    · have := i3 i (by simp); omega) ca
  have hb := main (Nat.le_trans h1 (Nat.le_of_lt ca.lt)) (Nat.le_trans h2 (by
    obtain ⟨idx, i1, _, i3⟩ := ca.tested.bases
    rcases idx with _ | ⟨i, _⟩
    · simp at i1
    · have := i3 i (by simp); omega)) (Nat.le_refl _) (Nat.le_refl _) cb
  intro w hw
  rw [hm.pEq, hm.qEq] at hw
  by_cases hlt : b.value < a.value
  · rw [if_pos hlt, if_pos hlt] at hw
    rcases hw with rfl | rfl
    · exact ha
    · exact hb
  · rw [if_neg hlt, if_neg hlt] at hw
    rcases hw with rfl | rfl
    · exact hb
    · exact ha

/-- **C14** Generation fails if a random source fails: when a key comes out, every call made of either source has succeeded. -/
theorem C14_no_key_after_failure (hA : A.Ok) {size : KeySize} {cr kr : RandomSource} (hc : cr.Fills) (hk : kr.Fills) {fuel n : Nat}
    {s s' : Calls} {k : PrivateKey} (h : generateKey A fuel size cr kr n s = some (.ok k, s')) :
    (∀ i, s.cand ≤ i → i < s'.cand → ∃ buf, cr i (size.privatePrimeSizeBits / 8) = .ok buf) ∧
    (∀ i, s.check ≤ i → i < s'.check → ∃ buf, kr i (size.privatePrimeSizeBits / 8) = .ok buf) := by
  obtain ⟨w1, w2, w3, w4, w5⟩ := words_cases size
  obtain ⟨x, y, _⟩ := (generateKey_ok hA hc hk _ _ _ _ h).ok k rfl
  rw [show size.privatePrimeSizeBits / 8 = 8 * size.words by omega]
  exact ⟨x, y⟩

/-- **C14** The only errors are that of a failing source, and `RngFailed` for drawing the same prime twice.  For sizes below 8192
there is no panic. -/
theorem C14_errors_partial (hA : A.Ok) {size : KeySize} {cr kr : RandomSource} (hc : cr.Fills) (hk : kr.Fills) {fuel n : Nat} {s s' : Calls}
    {f : GFault} (h : generateKey A fuel size cr kr n s = some (.error f, s')) :
    (f = .panic ∧ size = .Rsa8192) ∨ ∃ e, f = .err e ∧
      ((∃ i, s.cand ≤ i ∧ i < s'.cand ∧ cr i (size.privatePrimeSizeBits / 8) = .error e) ∨
       (∃ i, s.check ≤ i ∧ i < s'.check ∧ kr i (size.privatePrimeSizeBits / 8) = .error e) ∨
       (e = .RngFailed ∧ ∃ i j buf buf', s.cand ≤ i ∧ i < j ∧ j < s'.cand ∧ cr i (size.privatePrimeSizeBits / 8) = .ok buf ∧
        cr j (size.privatePrimeSizeBits / 8) = .ok buf' ∧
        setBits (size.privatePrimeSizeBits / 8) (beNat buf) = setBits (size.privatePrimeSizeBits / 8) (beNat buf'))) := by
  obtain ⟨w1, w2, w3, w4, w5⟩ := words_cases size
  rw [show size.privatePrimeSizeBits / 8 = 8 * size.words by omega]
  rcases (generateKey_ok hA hc hk _ _ _ _ h).fail f rfl with ⟨h1, h2⟩ | ⟨e, e1, e2⟩
  · exact Or.inl ⟨h2, h1⟩
  · refine Or.inr ⟨e, e1, e2.imp_right (Or.imp_right ?_)⟩
    rintro ⟨r, a, t, t', h1, ca, b, cb, hv⟩
    obtain ⟨x, x1, x2⟩ := ca.drawn
    obtain ⟨y, y1, y2⟩ := cb.drawn
    have l1 := ca.lt
    have l2 := cb.lt
    exact ⟨r, t'.cand - 1, s'.cand - 1, x, y, by omega, by omega, by omega, x1, y1, by rw [← x2, ← y2, hv]⟩

/-- Lengths in words of a generated key. -/
theorem generated_canon {size : KeySize} {k : PrivateKey} {p q : PosInt 64} (hk : k.Ok A) (hp : IsCand size.words p) (hq : IsCand size.words q)
    (hm : MadeFrom size.words p q k) : Canon k.pub.n ∧ k.p.used = k.q.used ∧ k.pub.modulusLenBytes = 16 * size.words := by
  obtain ⟨w1, w2, w3, w4, w5⟩ := words_cases size
  obtain ⟨b1, b2⟩ := n_bounds w1 hp.lo hq.lo hp.hi hq.hi
  rw [← hm.n] at b1 b2
  refine ⟨⟨hk.pub.ctx.inv, fun j => ⟨fun h => ?_, fun h => ?_⟩⟩, by rw [hm.pEq, hm.qEq, hp.used, hq.used], ?_⟩
  · rw [hm.nUsed] at h
    exact Nat.lt_of_lt_of_le b2 (Nat.pow_le_pow_right (by decide) (by omega))
  · rw [hm.nUsed]
    by_contra hc
    have : 2 ^ (64 * j) ≤ 2 ^ (128 * size.words - 1) := Nat.pow_le_pow_right (by decide) (by omega)
    omega
  · have h1 := lenBytes_ge (p := k.pub.n) (k := 16 * size.words) (by rw [show 8 * (16 * size.words) - 1 = 128 * size.words - 1 by omega]; exact b1) (by omega)
    have h2 := lenBytes_le' (p := k.pub.n) (k := 16 * size.words) (by rw [show 8 * (16 * size.words) = 128 * size.words by omega]; exact b2)
    exact Nat.le_antisymm h2 h1

theorem mod_lcm_of_mul {a b x : Nat} (ha : 1 < a) (hb : 1 < b) (h : x % (a * b) = 1) : x % Nat.lcm a b = 1 ∧ x % a = 1 ∧ x % b = 1 := by
  have key : ∀ {m : Nat}, 1 < m → m ∣ a * b → x % m = 1 := by
    intro m hm hd
    have : x ≡ 1 [MOD a * b] := by
      rw [Nat.ModEq, h, Nat.mod_eq_of_lt (by calc 1 < a := ha
        _ ≤ a * b := Nat.le_mul_of_pos_right _ (by omega))]
    have := this.of_dvd hd
    rwa [Nat.ModEq, Nat.mod_eq_of_lt hm] at this
  refine ⟨key ?_ (Nat.lcm_dvd (Nat.dvd_mul_right _ _) (Nat.dvd_mul_left _ _)), key ha (Nat.dvd_mul_right _ _), key hb (Nat.dvd_mul_left _ _)⟩
  exact Nat.lt_of_lt_of_le ha (Nat.le_of_dvd (Nat.lcm_pos (by omega) (by omega)) (Nat.dvd_lcm_left _ _))

/-- **C14** When the two numbers drawn are prime, the key is a valid RSA key in the sense of RFC 8017 and meets all the conditions under
which signing always succeeds (`C11_pkcs1_signs_partial`, `C11_pss_signs_partial`).  For sizes below 8192. -/
theorem C14_valid_partial (hA : A.Ok) {size : KeySize} (hs : size ≠ .Rsa8192) {cr kr : RandomSource} (hc : cr.Fills) (hk : kr.Fills) {fuel n : Nat}
    {s s' : Calls} {k : PrivateKey} (h : generateKey A fuel size cr kr n s = some (.ok k, s')) (hp : k.p.value.Prime) (hq : k.q.value.Prime) :
    Conventional A k k.pub.n.value 65537 k.d.value k.p.value k.q.value k.dp.value k.dq.value k.iqmp.value ∧
    8 * k.pub.modulusLenBytes = size.publicModulusSizeBits := by
  obtain ⟨w1, w2, w3, w4, w5⟩ := words_cases size
  obtain ⟨g1, g2, g3, g4, g5, g6, g7, g8, g9, g10, g11⟩ := C14_generated_partial hA hc hk h rfl
  obtain ⟨x1, x2, x3, x4⟩ := g11 hs
  have h2 := hq.two_le
  have hq3 : 2 < k.q.value := by omega
  have g := generateKey_ok hA hc hk _ _ _ _ h
  obtain ⟨_, _, a, b, t, t', ca, cb, _, _, hne, hm, he⟩ := g.ok k rfl
  have hkk := (he hs).1
  have hcan : Canon k.pub.n ∧ k.p.used = k.q.used ∧ k.pub.modulusLenBytes = 16 * size.words := by
    by_cases hlt : b.value < a.value
    · rw [if_pos hlt, if_pos hlt] at hm; exact generated_canon hkk ca.cand cb.cand hm
    · rw [if_neg hlt, if_neg hlt] at hm; exact generated_canon hkk cb.cand ca.cand hm
  obtain ⟨c1, c2, c3⟩ := hcan
  have hcop := (Nat.coprime_primes hp hq).2 (by omega)
  obtain ⟨i1, i2⟩ := g10 hcop
  rw [g3] at x1
  obtain ⟨y1, y2, y3⟩ := mod_lcm_of_mul (show 1 < k.p.value - 1 by omega) (show 1 < k.q.value - 1 by omega) x1
  refine ⟨⟨hkk, c1, ⟨⟨rfl, g3⟩, rfl, rfl, rfl, rfl, rfl, rfl⟩, ?_, g7, c2, by rw [c3]; omega⟩, by rw [c3]; omega⟩
  exact ⟨hp, hq, g5, g6, by omega, g4, y1, by rw [x3, Nat.mul_mod_mod]; exact y2, by rw [x4, Nat.mul_mod_mod]; exact y3, i2,
    by have := Nat.mod_lt k.d.value (show 0 < k.p.value - 1 by omega); omega,
    by have := Nat.mod_lt k.d.value (show 0 < k.q.value - 1 by omega); omega, i1⟩

/-- A draw that gives a prime is chosen at once. -/
theorem randomPrime_of_prime (hA : A.Ok) {size : KeySize} {cr kr : RandomSource} (hc : cr.Fills) (hk : kr.Fills) {fuel n : Nat} {s : Calls}
    (hfu : size.millerRabinRounds < fuel) {buf : Bytes} (hb : cr s.cand (size.privatePrimeSizeBits / 8) = .ok buf)
    (hp : (setBits (size.privatePrimeSizeBits / 8) (beNat buf)).Prime)
    (hbases : ∀ i, ∃ b, kr i (size.privatePrimeSizeBits / 8) = .ok b ∧ Suitable (setBits (size.privatePrimeSizeBits / 8) (beNat buf)) (beNat b)) :
    ∃ p, randomPrime A fuel size cr kr (n + 1) s = some (.ok p, ⟨s.cand + 1, s.check + size.millerRabinRounds + 1⟩) ∧
      IsCand size.words p ∧ p.value = setBits (size.privatePrimeSizeBits / 8) (beNat buf) := by
  obtain ⟨w1, w2, w3, w4, w5⟩ := words_cases size
  have e8 : size.privatePrimeSizeBits / 8 = 8 * size.words := by omega
  rw [e8] at hb hp hbases ⊢
  obtain ⟨p, p1, p2, p3⟩ := cand_ok w1 w2 (hc _ _ _ hb)
  refine ⟨p, ?_, p2, p3⟩
  have hi := isPrime_accepts hA p2 (by rw [p3]; exact hp) hk hfu (k := s.check) (fun i _ _ => by
    obtain ⟨b, b1, b2⟩ := hbases i
    have hlt := beNat_lt b
    rw [pow256, hk _ _ _ b1, show 8 * (8 * size.words) = 64 * size.words by omega] at hlt
    exact ⟨beNat b, ⟨b, by rw [show (64 * size.words + 7) / 8 = 8 * size.words by omega]; exact b1, (Nat.mod_eq_of_lt hlt).symm⟩, by rw [p3]; exact b2⟩)
  rw [randomPrime, randomPrimeOne, e8]
  simp only [hb, p1, hi]

/-- **C14** Generation succeeds, with the primes drawn: if the next two draws give two primes `a` and `b` (after setting the top two
bits and the lowest) and the other source gives suitable bases, then the outcome is decided by `a` and `b` alone.  The same prime twice
is an error; primes with 65537 dividing `(a-1)(b-1)` are thrown away; any others make a key. -/
theorem C14_generates_partial (hA : A.Ok) {size : KeySize} (hs : size ≠ .Rsa8192) {cr kr : RandomSource} (hc : cr.Fills) (hk : kr.Fills)
    {fuel n : Nat} {s : Calls} (hfu : size.publicModulusSizeBits + 64 ≤ fuel) {L : Nat} (hL : L = size.privatePrimeSizeBits / 8) {x y : Bytes}
    (hx : cr s.cand L = .ok x) (hy : cr (s.cand + 1) L = .ok y) {a b : Nat} (ha : a = setBits L (beNat x)) (hb : b = setBits L (beNat y))
    (pa : a.Prime) (pb : b.Prime) (hbases : ∀ i, ∃ z, kr i L = .ok z ∧ Suitable a (beNat z) ∧ Suitable b (beNat z)) :
    ∃ s', s'.cand = s.cand + 2 ∧
    (a = b → generateKey A fuel size cr kr (n + 1) s = some (.error (.err .RngFailed), s')) ∧
    (a ≠ b → 65537 ∣ (a - 1) * (b - 1) → generateKey A fuel size cr kr (n + 1) s = generateKey A fuel size cr kr n s') ∧
    (a ≠ b → ¬ 65537 ∣ (a - 1) * (b - 1) → ∃ k, generateKey A fuel size cr kr (n + 1) s = some (.ok k, s') ∧
      k.p.value = max a b ∧ k.q.value = min a b) := by
  subst hL ha hb
  obtain ⟨w1, w2, w3, w4, w5⟩ := words_cases size
  obtain ⟨fuel, rfl⟩ : ∃ f, fuel = f + 1 := ⟨fuel - 1, by omega⟩
  have hr : size.millerRabinRounds < fuel + 1 := by
    have : size.millerRabinRounds ≤ 5 := by cases size <;> decide
    omega
  obtain ⟨p, p1, p2, p3⟩ := randomPrime_of_prime hA hc hk (n := fuel) (s := s) hr hx pa fun i => by
    obtain ⟨z, z1, z2, _⟩ := hbases i; exact ⟨z, z1, z2⟩
  obtain ⟨q, q1, q2, q3⟩ := randomPrime_of_prime hA hc hk (n := fuel) (s := ⟨s.cand + 1, s.check + size.millerRabinRounds + 1⟩) hr hy pb fun i => by
    obtain ⟨z, z1, _, z2⟩ := hbases i; exact ⟨z, z1, z2⟩
  refine ⟨⟨s.cand + 2, s.check + size.millerRabinRounds + 1 + size.millerRabinRounds + 1⟩, rfl, ?_⟩
  rw [← p3, ← q3]
  rw [generateKey, p1]
  simp only
  rw [q1]
  simp only
  have hpr : Nat.Prime 65537 := by norm_num
  have hdvd : ∀ {m : Nat}, Nat.gcd 65537 m ≠ 1 ↔ 65537 ∣ m := by
    intro m; rw [← not_iff_not, not_not]; exact Nat.Prime.coprime_iff_not_dvd hpr
  have main : ∀ {a b : PosInt 64}, IsCand size.words a → IsCand size.words b → b.value < a.value →
      (65537 ∣ (a.value - 1) * (b.value - 1) → assemble A (fuel + 1) a b = some none) ∧
      (¬ 65537 ∣ (a.value - 1) * (b.value - 1) → ∃ k, assemble A (fuel + 1) a b = some (some (.ok k)) ∧ k.p = a ∧ k.q = b) := by
    intro a b ha hb hlt
    rcases (assemble_gt hA w1 w2 ha hb hlt (fuel + 1)).1 (by have := w5 hs; omega) with ⟨_, h⟩ | ⟨h1, h2⟩ | ⟨h1, k, k1, _, k3, _⟩
    · omega
    · exact ⟨fun _ => h2, fun h => absurd (hdvd.1 h1) h⟩
    · exact ⟨fun h => absurd h1 (hdvd.2 h), fun _ => ⟨k, k1, k3.pEq, k3.qEq⟩⟩
  refine ⟨fun h => by rw [assemble_eq h], fun hne hd => ?_, fun hne hd => ?_⟩
  · rcases Nat.lt_or_ge q.value p.value with hlt | hge
    · rw [(main p2 q2 hlt).1 hd]
    · rw [assemble_swap (by omega), (main q2 p2 (by omega)).1 (by rw [Nat.mul_comm]; exact hd)]
  · rcases Nat.lt_or_ge q.value p.value with hlt | hge
    · obtain ⟨k, k1, k2, k3⟩ := (main p2 q2 hlt).2 hd
      rw [k1]
      exact ⟨k, rfl, by rw [k2, Nat.max_eq_left (by omega)], by rw [k3, Nat.min_eq_right (by omega)]⟩
    · obtain ⟨k, k1, k2, k3⟩ := (main q2 p2 (by omega)).2 (by rw [Nat.mul_comm]; exact hd)
      rw [assemble_swap (by omega), k1]
      exact ⟨k, rfl, by rw [k2, Nat.max_eq_right hge], by rw [k3, Nat.min_eq_left hge]⟩

/-! ### C57 -/

/-- **C57** Acceptance: a number accepted by the test, odd and above two, has no prime factor below 743 and passes the Miller-Rabin test
for at least as many different draws of suitable bases as FIPS 186-5, table B.1, asks for. -/
theorem C57_accepts (hA : A.Ok) {w : PosInt 64} (hw : w.Inv) (ho : w.value % 2 = 1) (h3 : 2 < w.value) {size : KeySize} {rng : RandomSource} (hr : rng.Fills)
    {fuel k k' : Nat} (h : isPrime A fuel w size rng k = some (.ok true, k')) :
    (∀ r : Nat, r.Prime → r ∣ w.value → 743 ≤ r) ∧
    ∃ idx : List Nat, size.millerRabinRounds < idx.length ∧ idx.Nodup ∧ ∀ i ∈ idx, k ≤ i ∧ i < k' ∧
      ∃ buf, rng i ((w.lenBits + 7) / 8) = .ok buf ∧ Suitable w.value (beNat buf % 2 ^ w.lenBits) ∧
        Passes w.value (beNat buf % 2 ^ w.lenBits) := by
  obtain ⟨c1, c2⟩ := isPrime_cases (A := A) fuel w size rng k
  by_cases hc : Nat.gcd w.value (beNat PRODUCT_OF_SMALL_PRIMES) = 1
  · rw [c1 hc, millerRabin] at h
    have o := mrLoop_ok hA (mrParams_ok hA hw ho h3) h3 (lenBits_le_4096 hw) hr _ _ _ _ _ h
    refine ⟨fun r h1 h2 => no_small_factor ho hc h1 h2, ?_⟩
    obtain ⟨idx, i1, i2, i3⟩ := o.accept rfl
    refine ⟨idx, by omega, i2.imp (fun h => by omega), fun i hi => ?_⟩
    obtain ⟨j1, j2, v, ⟨buf, j3, rfl⟩, j5, j6⟩ := i3 i hi
    exact ⟨j1, j2, buf, j3, j5, j6⟩
  · rw [c2 hc] at h; cases h

/-- **C57** Rejection: an odd number above 743 that is rejected is not prime. -/
theorem C57_rejects (hA : A.Ok) {w : PosInt 64} (hw : w.Inv) (ho : w.value % 2 = 1) (h3 : 743 ≤ w.value) {size : KeySize} {rng : RandomSource}
    (hr : rng.Fills) {fuel k k' : Nat} (h : isPrime A fuel w size rng k = some (.ok false, k')) : ¬ w.value.Prime := by
  intro hp
  obtain ⟨c1, c2⟩ := isPrime_cases (A := A) fuel w size rng k
  by_cases hc : Nat.gcd w.value (beNat PRODUCT_OF_SMALL_PRIMES) = 1
  · rw [c1 hc, millerRabin] at h
    have o := mrLoop_ok hA (mrParams_ok hA hw ho (by omega)) (show 2 < w.value by omega) (lenBits_le_4096 hw) hr _ _ _ _ _ h
    obtain ⟨b, _, b2, b3⟩ := o.reject rfl
    exact b3 (prime_passes hp ho b2)
  · obtain ⟨r, r1, r2⟩ := Nat.exists_prime_and_dvd hc
    have := product_factors r1 (Nat.dvd_trans r2 (Nat.gcd_dvd_right _ _))
    have h2 := (Nat.prime_dvd_prime_iff_eq r1 hp).1 (Nat.dvd_trans r2 (Nat.gcd_dvd_left _ _))
    omega

/-- **C57** One base is checked as in FIPS 186-5, B.3.1, steps 4.2 to 4.6. -/
theorem C57_base (hA : A.Ok) {w b : PosInt 64} (hw : w.Inv) (ho : w.value % 2 = 1) (h3 : 2 < w.value) (hb : b.Inv) :
    (checkBase A (MrParams.new A w) b = some .UnsuitableBase ↔ ¬ Suitable w.value b.value) ∧
    (checkBase A (MrParams.new A w) b = some .PossiblyPrime ↔ Suitable w.value b.value ∧ Passes w.value b.value) ∧
    (checkBase A (MrParams.new A w) b = some .Composite ↔ Suitable w.value b.value ∧ ¬ Passes w.value b.value) := by
  obtain ⟨c1, c2, c3⟩ := checkBase_ok hA (mrParams_ok hA hw ho h3) (show 2 < w.value from h3) hb
  change (¬ Suitable w.value b.value → _) at c1
  change (Suitable w.value b.value → Passes w.value b.value → _) at c2
  change (Suitable w.value b.value → ¬ Passes w.value b.value → _) at c3
  by_cases hs : Suitable w.value b.value
  · by_cases hp : Passes w.value b.value
    · rw [c2 hs hp]; simp [hs, hp]
    · rw [c3 hs hp]; simp [hs, hp]
  · rw [c1 hs]; simp [hs]

/-- **C57** The test stops only with an answer or with the error of the source. -/
theorem C57_errors (hA : A.Ok) {w : PosInt 64} (hw : w.Inv) (ho : w.value % 2 = 1) (h3 : 2 < w.value) {size : KeySize} {rng : RandomSource}
    (hr : rng.Fills) {fuel k k' : Nat} {f : GFault} (h : isPrime A fuel w size rng k = some (.error f, k')) :
    ∃ e, f = .err e ∧ k < k' ∧ rng (k' - 1) ((w.lenBits + 7) / 8) = .error e := by
  obtain ⟨c1, c2⟩ := isPrime_cases (A := A) fuel w size rng k
  by_cases hc : Nat.gcd w.value (beNat PRODUCT_OF_SMALL_PRIMES) = 1
  · rw [c1 hc, millerRabin] at h
    have o := mrLoop_ok hA (mrParams_ok hA hw ho (by omega)) (show 2 < w.value by omega) (lenBits_le_4096 hw) hr _ _ _ _ _ h
    obtain ⟨e, e1, e2⟩ := o.fail f rfl
    exact ⟨e, e1, o.lt, e2⟩
  · rw [c2 hc] at h; cases h

/-- The primes of the example key as a stream of candidates, then errors; and bases that are all 2. -/
def exCand : RandomSource := fun i n => if i = 0 then .ok (toBE n RsaExample.q) else if i = 1 then .ok (toBE n RsaExample.p) else .error .RngFailed
def exBase : RandomSource := fun _ n => .ok (toBE n 2)

theorem setBits_toBE {L v : Nat} (hL : 2 ≤ L) (h1 : v % 2 = 1) (h2 : 3 * 2 ^ (8 * L - 2) ≤ v) (h3 : v < 2 ^ (8 * L)) :
    setBits L (beNat (toBE L v)) = v := by
  rw [beNat_toBE, pow256, Nat.mod_eq_of_lt h3]
  exact setBits_self hL h1 h2 h3

/-- With the primes of the example as candidates a 2048-bit key is generated: the hypotheses above are met. -/
example : ∃ k s', generateKey ref 2112 .Rsa2048 exCand exBase 1 ⟨0, 0⟩ = some (.ok k, s') ∧ k.p.value = RsaExample.p ∧
    k.q.value = RsaExample.q ∧ Conventional ref k k.pub.n.value 65537 k.d.value k.p.value k.q.value k.dp.value k.dq.value k.iqmp.value := by
  have fc : exCand.Fills := by
    intro i n b h
    rw [exCand] at h
    split at h
    · cases h; exact toBE_length _ _
    · split at h
      · cases h; exact toBE_length _ _
      · cases h
  have fk : exBase.Fills := by intro i n b h; cases h; exact toBE_length _ _
  have hP := setBits_toBE (L := 128) (v := RsaExample.p) (by decide) (by decide +kernel) (by decide +kernel) (by decide +kernel)
  have hQ := setBits_toBE (L := 128) (v := RsaExample.q) (by decide) (by decide +kernel) (by decide +kernel) (by decide +kernel)
  have hv := RsaExample.valid
  obtain ⟨s', h1, _, _, h4⟩ := C14_generates_partial ref_ok (size := .Rsa2048) (by decide) fc fk (fuel := 2112) (n := 0) (s := ⟨0, 0⟩) (by decide)
    (L := 128) rfl (x := toBE 128 RsaExample.q) (y := toBE 128 RsaExample.p) rfl rfl hQ.symm hP.symm hv.primeQ hv.primeP
    (fun i => ⟨toBE 128 2, rfl, by constructor <;> decide +kernel, by constructor <;> decide +kernel⟩)
  obtain ⟨k, k1, k2, k3⟩ := h4 (by decide +kernel) (by decide +kernel)
  have k2' : k.p.value = RsaExample.p := k2.trans (by decide +kernel)
  have k3' : k.q.value = RsaExample.q := k3.trans (by decide +kernel)
  exact ⟨k, s', k1, k2', k3', (C14_valid_partial ref_ok (by decide) fc fk k1 (by rw [k2']; exact hv.primeP) (by rw [k3']; exact hv.primeQ)).1⟩

end Verif.Props
