import Mathlib.FieldTheory.Finite.Basic
import Verif.Model.RsaGen
import Verif.Spec.MillerRabin
import Verif.Proof.Rsa
import Verif.Proof.Invert

/-!
Lemmas about the Miller-Rabin test and RSA key generation.
-/
namespace Verif.RsaGen
open Verif Verif.Bignum Verif.PosInt Verif.Spec.MillerRabin

variable {A : Asm}

theorem trailingZeros_spec : ∀ (f n : Nat), n ≠ 0 → n < 2 ^ f →
    ∃ m, n = 2 ^ trailingZeros f n * m ∧ m % 2 = 1 := by
  intro f
  induction f with
  | zero => intro n h0 h; simp at h; omega
  | succ f ih =>
    intro n h0 h
    rw [trailingZeros]
    by_cases ho : n % 2 = 1
    · rw [if_pos ho]; exact ⟨n, by simp, ho⟩
    · rw [if_neg ho]
      obtain ⟨m, h1, h2⟩ := ih (n / 2) (by omega) (by rw [Nat.pow_succ] at h; omega)
      refine ⟨m, ?_, h2⟩
      rw [Nat.pow_succ, Nat.mul_right_comm, ← h1]; omega

/-- Equal in the Montgomery domain means congruent, unless one of the two is zero. -/
theorem equals_rep {n a b : PosInt N} {n0 : Word} (c : Ctx n n0) {x y : Nat} (ha : Rep n a x) (hb : Rep n b y)
    (hy : y % n.value ≠ 0) : a.equals b = true ↔ x ≡ y [MOD n.value] := by
  rw [equals_iff]
  have cop := coprime_two_pow c.odd (64 * n.used)
  constructor
  · intro h
    have : x * 2 ^ (64 * n.used) ≡ y * 2 ^ (64 * n.used) [MOD n.value] := ha.cong.symm.trans (h ▸ hb.cong)
    exact Nat.ModEq.cancel_right_of_coprime cop this
  · intro h
    have hab : a.value ≡ b.value [MOD n.value] := ha.cong.trans ((h.mul_right _).trans hb.cong.symm)
    have nz : ∀ {v z : Nat}, v ≡ z * 2 ^ (64 * n.used) [MOD n.value] → z % n.value ≠ 0 → v % n.value ≠ 0 := by
      intro v z hv hz h0
      refine hz ?_
      have : z * 2 ^ (64 * n.used) ≡ 0 * 2 ^ (64 * n.used) [MOD n.value] := by
        rw [Nat.zero_mul]; exact hv.symm.trans h0
      exact Nat.ModEq.cancel_right_of_coprime cop this
    have h1 := nz ha.cong (by rw [show x % n.value = y % n.value from h]; exact hy)
    have h2 := nz hb.cong hy
    have lt1 : a.value < n.value := Nat.lt_of_le_of_ne ha.le (by intro e; rw [e, Nat.mod_self] at h1; exact h1 rfl)
    have lt2 : b.value < n.value := Nat.lt_of_le_of_ne hb.le (by intro e; rw [e, Nat.mod_self] at h2; exact h2 rfl)
    have hab' : a.value % n.value = b.value % n.value := hab
    rwa [Nat.mod_eq_of_lt lt1, Nat.mod_eq_of_lt lt2] at hab'

/-- What `MillerRabinParams::new` prepares. -/
structure MrParams.Ok (P : MrParams) : Prop where
  ctx : Ctx P.w P.w0
  mont : IsMontifier P.w P.wMontifier
  w1 : P.w1.value = P.w.value - 1
  m : P.m.Inv
  odd : P.m.value % 2 = 1
  split : P.w.value - 1 = 2 ^ P.a * P.m.value
  repW1 : Rep P.w P.montW1 (P.w.value - 1)
  repOne : Rep P.w P.montOne 1

theorem mrParams_ok (hA : A.Ok) {w : PosInt 64} (hw : w.Inv) (ho : w.value % 2 = 1) (h3 : 2 < w.value) :
    (MrParams.new A w).Ok := by
  have hone : (PosInt.word 64 1#64).value = 1 := word_value (by decide) _
  obtain ⟨s1, s2, s3⟩ := sub_ok hw (word_inv (by decide) 1#64) (by rw [hone]; omega)
  rw [hone] at s3
  have c := montNegInverse_ok hA hw ho
  have hm := isMontifier hA hw ho
  generalize hw1 : w.sub (PosInt.word 64 1#64) = w1 at s1 s2 s3
  obtain ⟨m, t1, t2⟩ := trailingZeros_spec (64 * w1.asWords.length) w1.value (by omega)
    (by rw [length_asWords s1]; exact value_lt s1)
  have hle : 2 ^ w1.countTrailingZeroes ≤ w1.value := by
    have e : w1.value = 2 ^ w1.countTrailingZeroes * m := t1
    have : 0 < m := by omega
    rw [e]; exact Nat.le_mul_of_pos_right _ this
  have hsh : w1.countTrailingZeroes < w1.lenBits := by
    by_contra hc
    have := (lenBits_le w1 w1.countTrailingZeroes).1 (by omega)
    omega
  obtain ⟨r1, r2⟩ := shiftRightVartime_ok s1 _ hsh
  have hmv : (w1.shiftRightVartime w1.countTrailingZeroes).value = m := by
    rw [r2]
    have e : w1.value = 2 ^ w1.countTrailingZeroes * m := t1
    exact Nat.div_eq_of_eq_mul_right (Nat.two_pow_pos _) e
  exact {
    ctx := c
    mont := hm
    w1 := by show (w.sub _).value = _; rw [hw1]; exact s3
    m := by show ((w.sub _).shiftRightVartime (w.sub _).countTrailingZeroes).Inv; rw [hw1]; exact r1
    odd := by show ((w.sub _).shiftRightVartime (w.sub _).countTrailingZeroes).value % 2 = 1; rw [hw1, hmv]; exact t2
    split := by
      show w.value - 1 = 2 ^ (w.sub _).countTrailingZeroes * ((w.sub _).shiftRightVartime (w.sub _).countTrailingZeroes).value
      rw [hw1, hmv, ← s3]; exact t1
    repW1 := by
      show Rep w ((w.sub _).toMontgomery A _ w) (w.value - 1)
      rw [hw1, ← s3]
      exact (toMontgomery_ok hA c hm s1 (by rw [← s2]; exact value_lt s1)).1
    repOne := oneMont_ok hA c hm }

/-- The squaring loop finds `-1` among the next `turns` squares. -/
theorem checkLoop_ok (hA : A.Ok) {P : MrParams} (hP : P.Ok) (h3 : 2 < P.w.value) : ∀ (turns : Nat) (z : PosInt 64) (x : Nat), Rep P.w z x →
    (checkLoop A P turns z = .PossiblyPrime ↔ ∃ j, j < turns ∧ x ^ 2 ^ (j + 1) ≡ P.w.value - 1 [MOD P.w.value]) ∧
    (checkLoop A P turns z = .PossiblyPrime ∨ checkLoop A P turns z = .Composite) := by
  have nz1 : 1 % P.w.value ≠ 0 := by rw [Nat.mod_eq_of_lt (by omega)]; omega
  have nzm : (P.w.value - 1) % P.w.value ≠ 0 := by rw [Nat.mod_eq_of_lt (by omega)]; omega
  intro turns
  induction turns with
  | zero => intro z x _; simp [checkLoop]
  | succ t ih =>
    intro z x hz
    have hs := (montSqr_rep hA hP.ctx hz).1
    rw [checkLoop]
    have e1 := equals_rep hP.ctx hs hP.repW1 nzm
    have e2 := equals_rep hP.ctx hs hP.repOne nz1
    by_cases c1 : (z.montSqr A P.w P.w0).equals P.montW1 = true
    · rw [if_pos c1]
      refine ⟨⟨fun _ => ⟨0, by omega, ?_⟩, fun _ => rfl⟩, Or.inl rfl⟩
      have := e1.1 c1
      rwa [show x * x = x ^ 2 ^ (0 + 1) by rw [Nat.zero_add, Nat.pow_one, Nat.pow_two]] at this
    · rw [if_neg c1]
      have n1 : ¬ x * x ≡ P.w.value - 1 [MOD P.w.value] := fun h => c1 (e1.2 h)
      by_cases c2 : (z.montSqr A P.w P.w0).equals P.montOne = true
      · rw [if_pos c2]
        refine ⟨⟨fun h => (by cases h), ?_⟩, Or.inr rfl⟩
        rintro ⟨j, hj, h⟩
        exfalso
        have h1 := (e2.1 c2).pow (2 ^ j)
        rw [Nat.one_pow, ← Nat.pow_two, ← Nat.pow_mul, ← Nat.pow_succ'] at h1
        have h2 : 1 % P.w.value = (P.w.value - 1) % P.w.value := h1.symm.trans h
        rw [Nat.mod_eq_of_lt (by omega), Nat.mod_eq_of_lt (by omega)] at h2
        omega
      · rw [if_neg c2]
        obtain ⟨i1, i2⟩ := ih _ _ hs
        refine ⟨i1.trans ?_, i2⟩
        have key : ∀ j, (x * x) ^ 2 ^ (j + 1) = x ^ 2 ^ (j + 1 + 1) := by
          intro j; rw [← Nat.pow_two, ← Nat.pow_mul, ← Nat.pow_succ']
        constructor
        · rintro ⟨j, hj, h⟩
          exact ⟨j + 1, by omega, by rw [← key]; exact h⟩
        · rintro ⟨j, hj, h⟩
          rcases j with _ | j
          · exact absurd (by simpa [Nat.pow_two] using h) n1
          · exact ⟨j, by omega, by rw [key]; exact h⟩

theorem odd_split_unique {a m b n : Nat} (hm : m % 2 = 1) (hn : n % 2 = 1) (h : 2 ^ a * m = 2 ^ b * n) : a = b ∧ m = n := by
  induction a generalizing b with
  | zero =>
    rcases b with _ | b
    · simpa using h
    · rw [Nat.pow_succ, Nat.mul_right_comm, Nat.pow_zero, Nat.one_mul] at h; omega
  | succ a ih =>
    rcases b with _ | b
    · rw [Nat.pow_succ, Nat.mul_right_comm, Nat.pow_zero, Nat.one_mul] at h; omega
    · rw [Nat.pow_succ, Nat.pow_succ, Nat.mul_right_comm, Nat.mul_right_comm (2 ^ b)] at h
      obtain ⟨h1, h2⟩ := ih (Nat.eq_of_mul_eq_mul_right (by decide) h)
      exact ⟨by omega, h2⟩

/-- `check_base` is steps 4.2 to 4.6 of the standard. -/
theorem checkBase_ok (hA : A.Ok) {P : MrParams} (hP : P.Ok) (h3 : 2 < P.w.value) {b : PosInt 64} (hb : b.Inv) :
    (¬ Suitable P.w.value b.value → checkBase A P b = some .UnsuitableBase) ∧
    (Suitable P.w.value b.value → Passes P.w.value b.value → checkBase A P b = some .PossiblyPrime) ∧
    (Suitable P.w.value b.value → ¬ Passes P.w.value b.value → checkBase A P b = some .Composite) := by
  have nz1 : 1 % P.w.value ≠ 0 := by rw [Nat.mod_eq_of_lt (by omega)]; omega
  have nzm : (P.w.value - 1) % P.w.value ≠ 0 := by rw [Nat.mod_eq_of_lt (by omega)]; omega
  have hcond : (b.lenBits ≤ 1 || !b.lessThan P.w1) = true ↔ ¬ Suitable P.w.value b.value := by
    have h1 := lenBits_le b 1
    have h2 := lessThan_iff b P.w1
    rw [hP.w1] at h2
    rw [Suitable, Bool.or_eq_true, Bool.not_eq_true', ← Bool.not_eq_true, h2, decide_eq_true_iff, h1]
    omega
  refine ⟨fun h => by rw [checkBase, if_pos (hcond.2 h)], ?_⟩
  suffices hs : Suitable P.w.value b.value → (Passes P.w.value b.value ∧ checkBase A P b = some .PossiblyPrime) ∨
      (¬ Passes P.w.value b.value ∧ checkBase A P b = some .Composite) by
    constructor
    · intro h1 h2; rcases hs h1 with h | h
      · exact h.2
      · exact absurd h2 h.1
    · intro h1 h2; rcases hs h1 with h | h
      · exact absurd h.1 h2
      · exact h.2
  intro hS
  rw [checkBase, if_neg (by rw [hcond]; exact fun h => h hS)]
  have hrb := (toMontgomery_ok hA hP.ctx hP.mont hb
    (Nat.lt_trans (by have := hS.2; omega) (value_lt hP.ctx.inv))).1
  have hmu : 0 < P.m.used := used_pos (by have := hP.odd; omega)
  obtain ⟨z, z1, z2⟩ := montExp_ok hA hP.ctx hrb hP.repOne hP.m hmu
  rw [z1]
  have e1 := equals_rep hP.ctx z2 hP.repOne nz1
  have e2 := equals_rep hP.ctx z2 hP.repW1 nzm
  show (Passes _ _ ∧ (if _ then _ else _) = _) ∨ (¬ Passes _ _ ∧ (if _ then _ else _) = _)
  have ha : 0 < P.a := by
    rcases Nat.eq_zero_or_pos P.a with h0 | h0
    · have h1 := hP.split; rw [h0, Nat.pow_zero, Nat.one_mul] at h1
      have := hP.odd; have := hP.ctx.odd; omega
    · exact h0
  have hpass : Passes P.w.value b.value ↔ b.value ^ P.m.value ≡ 1 [MOD P.w.value] ∨ ∃ j, j < P.a ∧
      (b.value ^ P.m.value) ^ 2 ^ j ≡ P.w.value - 1 [MOD P.w.value] := by
    have r1 : ∀ v, v ≡ 1 [MOD P.w.value] ↔ v % P.w.value = 1 := by
      intro v; rw [Nat.ModEq, Nat.mod_eq_of_lt (show 1 < P.w.value by omega)]
    have r2 : ∀ v, v ≡ P.w.value - 1 [MOD P.w.value] ↔ v % P.w.value = P.w.value - 1 := by
      intro v; rw [Nat.ModEq, Nat.mod_eq_of_lt (show P.w.value - 1 < P.w.value by omega)]
    simp only [r1, r2, ← Nat.pow_mul]
    constructor
    · rintro ⟨a, m, h1, h2, h⟩
      obtain ⟨ea, em⟩ := odd_split_unique h2 hP.odd (h1.symm.trans hP.split)
      rw [← ea, ← em]; simpa only [Nat.mul_comm m] using h
    · intro h
      exact ⟨P.a, P.m.value, hP.split, hP.odd, by simpa only [Nat.mul_comm P.m.value] using h⟩
  by_cases c : (z.equals P.montOne || z.equals P.montW1) = true
  · rw [if_pos c]
    refine Or.inl ⟨hpass.2 ?_, rfl⟩
    rcases Bool.or_eq_true _ _ ▸ c with c | c
    · exact Or.inl (e1.1 c)
    · exact Or.inr ⟨0, ha, by rw [Nat.pow_zero, Nat.pow_one]; exact e2.1 c⟩
  · rw [if_neg c]
    rw [Bool.or_eq_true, not_or] at c
    obtain ⟨l1, l2⟩ := checkLoop_ok hA hP h3 (P.a - 1) z _ z2
    by_cases hp : Passes P.w.value b.value
    · refine Or.inl ⟨hp, ?_⟩
      rw [l1.2]
      rcases hpass.1 hp with h | ⟨j, hj, h⟩
      · exact absurd (e1.2 h) c.1
      · rcases j with _ | j
        · rw [Nat.pow_zero, Nat.pow_one] at h; exact absurd (e2.2 h) c.2
        · exact ⟨j, by omega, h⟩
    · refine Or.inr ⟨hp, ?_⟩
      rcases l2 with h | h
      · obtain ⟨j, hj, h⟩ := l1.1 h
        exact absurd (hpass.2 (Or.inr ⟨j + 1, by omega, h⟩)) hp
      · rw [h]

theorem sq_chain {R : Type} [CommRing R] [IsDomain R] (x : R) : ∀ a : Nat, x ^ 2 ^ a = 1 → x = 1 ∨ ∃ j, j < a ∧ x ^ 2 ^ j = -1 := by
  intro a
  induction a with
  | zero => intro h; left; simpa using h
  | succ a ih =>
    intro h
    rw [pow_succ, pow_mul] at h
    rcases mul_self_eq_one_iff.1 (by rwa [pow_two] at h) with h | h
    · rcases ih h with h | ⟨j, hj, h⟩
      · exact Or.inl h
      · exact Or.inr ⟨j, by omega, h⟩
    · exact Or.inr ⟨a, by omega, h⟩

/-- A prime passes with every base. -/
theorem prime_passes {w b : Nat} (hp : w.Prime) (ho : w % 2 = 1) (hb : Suitable w b) : Passes w b := by
  have h2 := hp.two_le
  have := Fact.mk hp
  obtain ⟨m, h1, hm⟩ := trailingZeros_spec (w - 1) (w - 1) (by omega) Nat.lt_two_pow_self
  refine ⟨_, m, h1, hm, ?_⟩
  have hx0 : (b : ZMod w) ≠ 0 := by
    rw [Ne, ZMod.natCast_eq_zero_iff]
    intro hd
    have := Nat.le_of_dvd (by have := hb.1; omega) hd
    have := hb.2; omega
  have hf : ((b : ZMod w) ^ m) ^ 2 ^ trailingZeros (w - 1) (w - 1) = 1 := by
    rw [← pow_mul, Nat.mul_comm, ← h1]; exact ZMod.pow_card_sub_one_eq_one hx0
  rcases sq_chain _ _ hf with h | ⟨j, hj, h⟩
  · left
    rw [← Nat.cast_pow, ← Nat.cast_one, ZMod.natCast_eq_natCast_iff'] at h
    rwa [Nat.mod_eq_of_lt (show 1 < w by omega)] at h
  · right
    refine ⟨j, hj, ?_⟩
    have e : ((w - 1 : Nat) : ZMod w) = -1 := by rw [Nat.cast_sub (by omega), ZMod.natCast_self]; simp
    rw [← e, ← pow_mul, ← Nat.cast_pow, ZMod.natCast_eq_natCast_iff', Nat.mul_comm] at h
    rwa [Nat.mod_eq_of_lt (show w - 1 < w by omega)] at h

theorem product_small : ∀ r, r < 743 → 2 < r → (∀ d, d < r → 1 < d → r % d ≠ 0) → beNat PRODUCT_OF_SMALL_PRIMES % r = 0 := by
  decide +kernel

theorem product_lt : beNat PRODUCT_OF_SMALL_PRIMES < 2 ^ (64 * 64) := by decide +kernel

/-- An odd number prime to the product has no prime factor below 743. -/
theorem no_small_factor {w r : Nat} (ho : w % 2 = 1) (hc : Nat.gcd w (beNat PRODUCT_OF_SMALL_PRIMES) = 1) (hr : r.Prime) (hd : r ∣ w) : 743 ≤ r := by
  by_contra hle
  have h2 := hr.two_le
  rcases Nat.lt_or_ge 2 r with h | h
  · have := product_small r (by omega) h (by
      intro d hd1 hd2 h0
      rcases hr.eq_one_or_self_of_dvd d (Nat.dvd_of_mod_eq_zero h0) with h | h <;> omega)
    have := Nat.dvd_gcd hd (Nat.dvd_of_mod_eq_zero this)
    rw [hc] at this
    have := Nat.le_of_dvd (by decide) this
    omega
  · have : r = 2 := by omega
    subst this; omega

/-- The product has no other prime factors. -/
theorem product_factors {r : Nat} (hr : r.Prime) (h : r ∣ beNat PRODUCT_OF_SMALL_PRIMES) : r < 743 := by
  have e : beNat PRODUCT_OF_SMALL_PRIMES = (((List.range 743).filter fun n => decide (2 < n) && (List.range n).all fun d => decide (d < 2) || n % d != 0)).prod := by
    decide +kernel
  rw [e, Prime.dvd_prod_iff hr.prime] at h
  obtain ⟨a, ha, h⟩ := h
  have := List.mem_range.1 (List.mem_filter.1 ha).1
  have h2 : 2 < a := by have := (List.mem_filter.1 ha).2; simp at this; exact this.1
  have := Nat.le_of_dvd (by omega) h
  omega

/-! ### Bytes -/

theorem maskBase_value {wLen : Nat} {buf : Bytes} (h : buf.length = (wLen + 7) / 8) : beNat (maskBase wLen buf) = beNat buf % 2 ^ wLen := by
  rw [maskBase]
  by_cases h0 : wLen % 8 ≠ 0
  · rw [if_pos h0]
    rcases buf with _ | ⟨x, t⟩
    · simp at h; omega
    · have ht : t.length = wLen / 8 := by simp at h; omega
      have hx : (x &&& BitVec.ofNat 8 (2 ^ (wLen % 8) - 1)).toNat = x.toNat % 2 ^ (wLen % 8) := by
        have hr : wLen % 8 < 8 := Nat.mod_lt _ (by decide)
        generalize wLen % 8 = r at hr
        rw [BitVec.toNat_and, BitVec.toNat_ofNat, Nat.mod_eq_of_lt, Nat.and_two_pow_sub_one_eq_mod]
        have : 2 ^ r ≤ 2 ^ 8 := Nat.pow_le_pow_right (by decide) (by omega)
        have := Nat.two_pow_pos r
        omega
      have hlt := beNat_lt t
      rw [List.modifyHead_cons, beNat_cons, beNat_cons, hx, pow256]
      have e : 2 ^ wLen = 2 ^ (8 * t.length) * 2 ^ (wLen % 8) := by rw [← Nat.pow_add]; congr 1; omega
      have hlt' : beNat t < 2 ^ (8 * t.length) := by rwa [pow256] at hlt
      rw [e, Nat.mod_mul, Nat.mul_add_mod', Nat.mod_eq_of_lt hlt', Nat.mul_comm x.toNat, Nat.mul_add_div (Nat.two_pow_pos _),
        Nat.div_eq_of_lt hlt', Nat.add_zero, Nat.mul_comm, Nat.add_comm]
  · rw [if_neg h0, Nat.mod_eq_of_lt]
    have := beNat_lt buf
    rw [pow256, h] at this
    rwa [show 8 * ((wLen + 7) / 8) = wLen by omega] at this

theorem base_ok {wLen : Nat} (hw : wLen ≤ 4096) {buf : Bytes} (h : buf.length = (wLen + 7) / 8) :
    ∃ b, fromBytes 64 (maskBase wLen buf) = .ok b ∧ b.Inv ∧ b.value = beNat buf % 2 ^ wLen := by
  have hv := maskBase_value h
  obtain ⟨r, h1, h2, h3, _⟩ := fromBytes_ok (N := 64) (maskBase wLen buf) (by
    rw [hv]
    exact Nat.lt_of_lt_of_le (Nat.mod_lt _ (Nat.two_pow_pos _)) (Nat.pow_le_pow_right (by decide) (by omega)))
  exact ⟨r, h1, h2, by rw [h3, hv]⟩

/-- The number with the bits of `v` except that, of `8 * L` bits, the top two and the lowest are set. -/
def setBits (L v : Nat) : Nat := 2 * ((v % 2 ^ (8 * L - 2) + 3 * 2 ^ (8 * L - 2)) / 2) + 1

theorem or_top (h : Byte) : (h ||| 0b1100_0000#8).toNat = h.toNat % 64 + 192 := by
  revert h; decide +kernel

theorem or_low (l : Byte) : (l ||| 0b0000_0001#8).toNat = 2 * (l.toNat / 2) + 1 := by
  revert l; decide +kernel

theorem candidate_arith (h m l K : Nat) (hK : 0 < K) (hr : m * 256 + l < 256 * K) :
    (h % 64 + 192) * (256 * K) + m * 256 + (2 * (l / 2) + 1) =
    2 * (((h * (256 * K) + (m * 256 + l)) % (64 * (256 * K)) + 3 * (64 * (256 * K))) / 2) + 1 := by
  have e : (h * (256 * K) + (m * 256 + l)) % (64 * (256 * K)) = (h % 64) * (256 * K) + (m * 256 + l) := by
    rw [Nat.mul_comm 64, Nat.mod_mul, Nat.mul_add_mod', Nat.mod_eq_of_lt hr, Nat.mul_comm h, Nat.mul_add_div (by omega),
      Nat.div_eq_of_lt hr, Nat.add_zero]
    ring
  rw [e]
  have e2 : (h % 64) * (256 * K) + (m * 256 + l) + 3 * (64 * (256 * K)) = 2 * ((h % 64) * (128 * K) + m * 128 + 3 * (64 * (128 * K))) + l := by ring
  rw [e2, Nat.mul_add_div (by decide)]
  ring

theorem candidate_value {buf : Bytes} (h : 2 ≤ buf.length) : (candidateBytes buf).length = buf.length ∧
    beNat (candidateBytes buf) = setBits buf.length (beNat buf) := by
  rcases buf with _ | ⟨x, t⟩
  · simp at h
  obtain ⟨mid, l, rfl⟩ : ∃ mid l, t = mid ++ [l] := ⟨t.dropLast, t.getLast (by rintro rfl; simp at h),
    (List.dropLast_concat_getLast _).symm⟩
  have e : candidateBytes (x :: (mid ++ [l])) = (x ||| 0b1100_0000#8) :: (mid ++ [l ||| 0b0000_0001#8]) := by
    rw [candidateBytes]
    simp only [List.modifyHead_cons, List.length_cons, List.length_append, List.length_nil, Nat.add_sub_cancel]
    rw [List.modify_succ_cons]
    congr 1
    clear h
    induction mid with
    | nil => rfl
    | cons y ys ih => rw [List.cons_append, List.length_cons, List.modify_succ_cons, ih, List.cons_append]
  refine ⟨by rw [e]; simp, ?_⟩
  have hb := beNat_lt mid
  have hl := l.isLt
  rw [e, beNat_cons, beNat_cons, beNat_append, beNat_append, setBits, or_top]
  simp only [List.length_cons, List.length_append, List.length_nil, beNat_cons, beNat_nil, Nat.pow_zero, Nat.pow_one, Nat.mul_one,
    Nat.add_zero, Nat.zero_add, or_low]
  have := candidate_arith x.toNat (beNat mid) l.toNat (256 ^ mid.length) (Nat.pow_pos (by decide)) (by omega)
  rw [show (2 : Nat) ^ (8 * (mid.length + 1 + 1) - 2) = 64 * (256 * 256 ^ mid.length) by
    rw [show 8 * (mid.length + 1 + 1) - 2 = 6 + 8 + 8 * mid.length by omega, Nat.pow_add, Nat.pow_add, ← pow256]; ring]
  rw [Nat.pow_succ, Nat.mul_comm _ 256, ← this]
  ring

theorem setBits_bounds {L v : Nat} (h : 2 ≤ L) : setBits L v % 2 = 1 ∧ 3 * 2 ^ (8 * L - 2) ≤ setBits L v ∧ setBits L v < 2 ^ (8 * L) := by
  have e : 2 ^ (8 * L) = 4 * 2 ^ (8 * L - 2) := by rw [show 4 = 2 ^ 2 from rfl, ← Nat.pow_add]; congr 1; omega
  have e2 : 2 ^ (8 * L - 2) = 2 * 2 ^ (8 * L - 3) := by rw [← Nat.pow_succ']; congr 1; omega
  have := Nat.mod_lt v (Nat.two_pow_pos (8 * L - 2))
  rw [setBits]
  omega

/-- A number with these bits set already is not changed. -/
theorem setBits_self {L v : Nat} (h : 2 ≤ L) (ho : v % 2 = 1) (h1 : 3 * 2 ^ (8 * L - 2) ≤ v) (h2 : v < 2 ^ (8 * L)) : setBits L v = v := by
  have e : 2 ^ (8 * L) = 4 * 2 ^ (8 * L - 2) := by rw [show 4 = 2 ^ 2 from rfl, ← Nat.pow_add]; congr 1; omega
  rw [setBits, show v % 2 ^ (8 * L - 2) = v - 3 * 2 ^ (8 * L - 2) by
    rw [← Nat.mod_eq_of_lt (show v - 3 * 2 ^ (8 * L - 2) < 2 ^ (8 * L - 2) by omega)]
    conv_lhs => rw [show v = v - 3 * 2 ^ (8 * L - 2) + 2 ^ (8 * L - 2) * 3 by omega]
    rw [Nat.add_mul_mod_self_left]]
  omega

/-! ### The Miller-Rabin loop -/

/-- The number `b` is what call `i` of the source gives for `wLen` bits. -/
def Drawn (rng : RandomSource) (wLen i b : Nat) : Prop := ∃ buf, rng i ((wLen + 7) / 8) = .ok buf ∧ b = beNat buf % 2 ^ wLen

/-- What the outcome of the loop means, for calls `k` to `k' - 1`. -/
structure MrOut (rng : RandomSource) (w wLen left k : Nat) (r : GR Bool) (k' : Nat) : Prop where
  lt : k < k'
  drawn : ∀ i, k ≤ i → i < k' - 1 → ∃ b, Drawn rng wLen i b
  fail : ∀ f, r = .error f → ∃ e, f = .err e ∧ rng (k' - 1) ((wLen + 7) / 8) = .error e
  done : ∀ v, r = .ok v → ∃ b, Drawn rng wLen (k' - 1) b
  accept : r = .ok true → ∃ idx : List Nat, idx.length = left + 1 ∧ idx.Pairwise (· < ·) ∧
    ∀ i ∈ idx, k ≤ i ∧ i < k' ∧ ∃ b, Drawn rng wLen i b ∧ Suitable w b ∧ Passes w b
  reject : r = .ok false → ∃ b, Drawn rng wLen (k' - 1) b ∧ Suitable w b ∧ ¬ Passes w b

theorem mrLoop_ok (hA : A.Ok) {P : MrParams} (hP : P.Ok) (h3 : 2 < P.w.value) {wLen : Nat} (hw : wLen ≤ 4096) {rng : RandomSource}
    (hf : rng.Fills) : ∀ (fuel left k : Nat) (r : GR Bool) (k' : Nat), mrLoop A P wLen rng fuel left k = some (r, k') →
    MrOut rng P.w.value wLen left k r k' := by
  intro fuel
  induction fuel with
  | zero => intro left k r k' h; cases h
  | succ fuel ih =>
    intro left k r k' h
    rw [mrLoop] at h
    rcases hr : rng k ((wLen + 7) / 8) with e | buf
    · rw [hr] at h
      cases h
      exact ⟨by omega, fun i h1 h2 => by omega, fun f hf => (by cases hf; exact ⟨e, rfl, hr⟩), fun v h => (by cases h), fun h => (by cases h),
        fun h => (by cases h)⟩
    · obtain ⟨b, b1, b2, b3⟩ := base_ok hw (hf _ _ _ hr)
      have hd : Drawn rng wLen k b.value := ⟨buf, hr, b3⟩
      obtain ⟨c1, c2, c3⟩ := checkBase_ok hA hP h3 b2
      simp only [hr, b1] at h
      by_cases hs : Suitable P.w.value b.value
      · by_cases hp : Passes P.w.value b.value
        · simp only [c2 hs hp] at h
          by_cases hl : left = 0
          · rw [if_pos hl] at h
            cases h
            exact ⟨by omega, fun i h1 h2 => by omega, fun f hf => (by cases hf), fun v _ => ⟨_, hd⟩,
              fun _ => ⟨[k], by simp [hl], by simp, by simpa using ⟨_, hd, hs, hp⟩⟩, fun h => (by cases h)⟩
          · rw [if_neg hl] at h
            have i := ih _ _ _ _ h
            have il := i.lt
            refine ⟨by omega, ?_, i.fail, i.done, ?_, i.reject⟩
            · intro j h1 h2
              rcases Nat.eq_or_lt_of_le h1 with h1 | h1
              · exact ⟨_, h1 ▸ hd⟩
              · exact i.drawn j (by omega) h2
            · intro hr
              obtain ⟨idx, x1, x2, x3⟩ := i.accept hr
              refine ⟨k :: idx, by simp [x1]; omega, ?_, ?_⟩
              · rw [List.pairwise_cons]; exact ⟨fun j hj => by have := (x3 j hj).1; omega, x2⟩
              · intro j hj
                rcases List.mem_cons.1 hj with hj | hj
                · subst hj; exact ⟨by omega, by omega, _, hd, hs, hp⟩
                · obtain ⟨y1, y2, y3⟩ := x3 j hj
                  exact ⟨by omega, y2, y3⟩
        · simp only [c3 hs hp] at h
          cases h
          exact ⟨by omega, fun i h1 h2 => by omega, fun f hf => (by cases hf), fun v _ => ⟨_, hd⟩, fun h => (by cases h),
            fun _ => ⟨_, hd, hs, hp⟩⟩
      · simp only [c1 hs] at h
        have i := ih _ _ _ _ h
        have il := i.lt
        refine ⟨by omega, ?_, i.fail, i.done, ?_, i.reject⟩
        · intro j h1 h2
          rcases Nat.eq_or_lt_of_le h1 with h1 | h1
          · exact ⟨_, h1 ▸ hd⟩
          · exact i.drawn j (by omega) h2
        · intro hr
          obtain ⟨idx, x1, x2, x3⟩ := i.accept hr
          exact ⟨idx, x1, x2, fun j hj => by obtain ⟨y1, y2, y3⟩ := x3 j hj; exact ⟨by omega, y2, y3⟩⟩

/-- With a source whose next calls all give suitable bases, a number that passes with all of them is accepted. -/
theorem mrLoop_accepts (hA : A.Ok) {P : MrParams} (hP : P.Ok) (h3 : 2 < P.w.value) {wLen : Nat} (hw : wLen ≤ 4096) {rng : RandomSource}
    (hf : rng.Fills) : ∀ (left fuel k : Nat), left < fuel →
    (∀ i, k ≤ i → i ≤ k + left → ∃ b, Drawn rng wLen i b ∧ Suitable P.w.value b ∧ Passes P.w.value b) →
    mrLoop A P wLen rng fuel left k = some (.ok true, k + left + 1) := by
  intro left
  induction left with
  | zero =>
    intro fuel k hfu h
    obtain ⟨fuel, rfl⟩ : ∃ f, fuel = f + 1 := ⟨fuel - 1, by omega⟩
    obtain ⟨b, ⟨buf, hr, hb⟩, hs, hp⟩ := h k (by omega) (by omega)
    obtain ⟨b', b1, b2, b3⟩ := base_ok hw (hf _ _ _ hr)
    rw [hb, ← b3] at hs hp
    rw [mrLoop]
    simp only [hr, b1, (checkBase_ok hA hP h3 b2).2.1 hs hp]
    rfl
  | succ left ih =>
    intro fuel k hfu h
    obtain ⟨fuel, rfl⟩ : ∃ f, fuel = f + 1 := ⟨fuel - 1, by omega⟩
    obtain ⟨b, ⟨buf, hr, hb⟩, hs, hp⟩ := h k (by omega) (by omega)
    obtain ⟨b', b1, b2, b3⟩ := base_ok hw (hf _ _ _ hr)
    rw [hb, ← b3] at hs hp
    rw [mrLoop]
    simp only [hr, b1, (checkBase_ok hA hP h3 b2).2.1 hs hp]
    rw [if_neg (by omega), Nat.add_sub_cancel, ih fuel (k + 1) (by omega) (fun i h1 h2 => h i (by omega) (by omega))]
    congr 2; omega

theorem smallPrimes_ok : ∃ r, fromBytes 64 PRODUCT_OF_SMALL_PRIMES = .ok r ∧ r.value = beNat PRODUCT_OF_SMALL_PRIMES := by
  obtain ⟨r, h1, _, h3, _⟩ := fromBytes_ok (N := 64) PRODUCT_OF_SMALL_PRIMES product_lt
  exact ⟨r, h1, h3⟩

theorem isPrimeWith_cases {bytes : Bytes} {v : Nat} (hb : ∃ r, fromBytes 64 bytes = .ok r ∧ r.value = v)
    (fuel : Nat) (w : PosInt 64) (size : KeySize) (rng : RandomSource) (k : Nat) :
    (Nat.gcd w.value v = 1 → isPrimeWith bytes A fuel w size rng k = millerRabin A fuel w size rng k) ∧
    (Nat.gcd w.value v ≠ 1 → isPrimeWith bytes A fuel w size rng k = some (.ok false, k)) := by
  obtain ⟨r, h1, h2⟩ := hb
  rw [isPrimeWith, h1, ← h2]
  have e : (w.isCoprime r = false) ↔ Nat.gcd w.value r.value ≠ 1 := by
    rw [isCoprime, Bignum.coprime, ← Bool.not_eq_true, beq_iff_eq]; rfl
  exact ⟨fun h => by dsimp only; rw [if_neg (by rw [e]; exact not_not.2 h)], fun h => by dsimp only; rw [if_pos (e.2 h)]⟩

theorem isPrime_cases (fuel : Nat) (w : PosInt 64) (size : KeySize) (rng : RandomSource) (k : Nat) :
    (Nat.gcd w.value (beNat PRODUCT_OF_SMALL_PRIMES) = 1 → isPrime A fuel w size rng k = millerRabin A fuel w size rng k) ∧
    (Nat.gcd w.value (beNat PRODUCT_OF_SMALL_PRIMES) ≠ 1 → isPrime A fuel w size rng k = some (.ok false, k)) :=
  isPrimeWith_cases smallPrimes_ok fuel w size rng k

theorem lenBits_le_4096 {w : PosInt 64} (hw : w.Inv) : w.lenBits ≤ 4096 := (lenBits_le _ _).2 (value_lt_N hw)

/-! ### Candidates -/

/-- Words of a prime of a key of this size. -/
def KeySize.words (s : KeySize) : Nat := s.publicModulusSizeBits / 128

theorem words_cases (s : KeySize) : 16 ≤ s.words ∧ s.words ≤ 64 ∧ s.privatePrimeSizeBits = 64 * s.words ∧
    s.publicModulusSizeBits = 128 * s.words ∧ (s ≠ .Rsa8192 → s.words ≤ 48) := by
  cases s <;> decide

/-- An odd number of exactly `64 * u` bits, the top two of them set. -/
structure IsCand (u : Nat) (p : PosInt 64) : Prop where
  inv : p.Inv
  used : p.used = u
  odd : p.value % 2 = 1
  lo : 3 * 2 ^ (64 * u - 2) ≤ p.value
  hi : p.value < 2 ^ (64 * u)

theorem IsCand.gt {u : Nat} {p : PosInt 64} (h : IsCand u p) (hu : 16 ≤ u) : 743 < p.value := by
  have := h.lo
  have : 2 ^ 10 ≤ 2 ^ (64 * u - 2) := Nat.pow_le_pow_right (by decide) (by omega)
  omega

theorem IsCand.lenBits {u : Nat} {p : PosInt 64} (h : IsCand u p) (hu : 16 ≤ u) : p.lenBits = 64 * u := by
  have h1 := (lenBits_le p (64 * u)).2 h.hi
  have h2 : ¬ p.lenBits ≤ 64 * u - 1 := by
    rw [lenBits_le]
    have := h.lo
    have e : 2 ^ (64 * u - 1) = 2 * 2 ^ (64 * u - 2) := by rw [← Nat.pow_succ']; congr 1; omega
    have := Nat.two_pow_pos (64 * u - 2)
    omega
  omega

theorem cand_ok {u : Nat} (hu : 16 ≤ u) (hu2 : u ≤ 64) {buf : Bytes} (h : buf.length = 8 * u) :
    ∃ p, fromBytes 64 (candidateBytes buf) = .ok p ∧ IsCand u p ∧ p.value = setBits (8 * u) (beNat buf) := by
  obtain ⟨c1, c2⟩ := candidate_value (buf := buf) (by omega)
  rw [h] at c2
  obtain ⟨b1, b2, b3⟩ := setBits_bounds (L := 8 * u) (v := beNat buf) (by omega)
  rw [show 8 * (8 * u) = 64 * u by omega] at b2 b3
  obtain ⟨r, r1, r2, r3, r4⟩ := fromBytes_ok (N := 64) (candidateBytes buf) (by
    rw [c2]; exact Nat.lt_of_lt_of_le b3 (Nat.pow_le_pow_right (by decide) (by omega)))
  rw [c2] at r3 r4
  refine ⟨r, r1, ⟨r2, ?_, by rw [r3]; exact b1, by rw [r3]; exact b2, by rw [r3]; exact b3⟩, r3⟩
  have h1 := (r4 u).2 b3
  have h2 : ¬ r.used ≤ u - 1 := by
    rw [r4]
    have e : 2 ^ (64 * (u - 1)) ≤ 2 ^ (64 * u - 2) := Nat.pow_le_pow_right (by decide) (by omega)
    omega
  omega

/-- The number has passed the tests, with bases from calls `k` to `k' - 1`. -/
structure Tested (kr : RandomSource) (size : KeySize) (k k' w : Nat) : Prop where
  small : ∀ r : Nat, r.Prime → r ∣ w → 743 ≤ r
  bases : ∃ idx : List Nat, idx.length = size.millerRabinRounds + 1 ∧ idx.Pairwise (· < ·) ∧
    ∀ i ∈ idx, k ≤ i ∧ i < k' ∧ ∃ b, Drawn kr size.privatePrimeSizeBits i b ∧ Suitable w b ∧ Passes w b

/-- All calls from `a` to `b - 1`, for `len` bytes, succeed. -/
def AllOk (r : RandomSource) (len a b : Nat) : Prop := ∀ i, a ≤ i → i < b → ∃ buf, r i len = .ok buf

/-- Call `i`, from `a` to `b - 1`, fails. -/
def FailsIn (r : RandomSource) (len a b : Nat) (e : GError) : Prop := ∃ i, a ≤ i ∧ i < b ∧ r i len = .error e

theorem isPrime_ok (hA : A.Ok) {size : KeySize} {p : PosInt 64} (hp : IsCand size.words p) {kr : RandomSource} (hf : kr.Fills)
    {fuel k : Nat} {r : GR Bool} {k' : Nat} (h : isPrime A fuel p size kr k = some (r, k')) :
    k ≤ k' ∧ (∀ v, r = .ok v → AllOk kr (8 * size.words) k k') ∧
    (∀ f, r = .error f → ∃ e, f = .err e ∧ FailsIn kr (8 * size.words) k k' e) ∧
    (r = .ok true → Tested kr size k k' p.value) ∧ (r = .ok false → ¬ p.value.Prime) := by
  obtain ⟨w1, w2, w3, w4, _⟩ := words_cases size
  have gt := hp.gt w1
  obtain ⟨c1, c2⟩ := isPrime_cases (A := A) fuel p size kr k
  by_cases hc : Nat.gcd p.value (beNat PRODUCT_OF_SMALL_PRIMES) = 1
  · rw [c1 hc, millerRabin] at h
    have hb := hp.lenBits w1
    have hP := mrParams_ok hA hp.inv hp.odd (by omega)
    have o := mrLoop_ok hA hP (show 2 < p.value by omega) (lenBits_le_4096 hp.inv) hf _ _ _ _ _ h
    have e8 : (p.lenBits + 7) / 8 = 8 * size.words := by omega
    have hd : ∀ {i b}, Drawn kr p.lenBits i b → ∃ buf, kr i (8 * size.words) = .ok buf := by
      rintro i b ⟨buf, h1, _⟩; rw [e8] at h1; exact ⟨buf, h1⟩
    have lt := o.lt
    refine ⟨by omega, ?_, ?_, ?_, ?_⟩
    · intro v hv i h1 h2
      rcases Nat.lt_or_ge i (k' - 1) with h3 | h3
      · obtain ⟨b, hb⟩ := o.drawn i h1 h3; exact hd hb
      · obtain ⟨b, hb⟩ := o.done v hv
        rw [show i = k' - 1 by omega]; exact hd hb
    · intro f hf'
      obtain ⟨e, e1, e2⟩ := o.fail f hf'
      rw [e8] at e2
      exact ⟨e, e1, _, by omega, by omega, e2⟩
    · intro hr
      refine ⟨fun r hr hd => no_small_factor hp.odd hc hr hd, ?_⟩
      obtain ⟨idx, x1, x2, x3⟩ := o.accept hr
      refine ⟨idx, x1, x2, ?_⟩
      rw [w3, ← hb]; exact x3
    · intro hr hpr
      obtain ⟨b, _, b2, b3⟩ := o.reject hr
      exact b3 (prime_passes hpr hp.odd b2)
  · rw [c2 hc] at h
    cases h
    refine ⟨by omega, fun v _ i h1 h2 => by omega, fun f h => (by cases h), fun h => (by cases h), fun _ hpr => ?_⟩
    obtain ⟨r, r1, r2⟩ := Nat.exists_prime_and_dvd hc
    have := product_factors r1 (Nat.dvd_trans r2 (Nat.gcd_dvd_right _ _))
    have h2 := (Nat.prime_dvd_prime_iff_eq r1 hpr).1 (Nat.dvd_trans r2 (Nat.gcd_dvd_left _ _))
    omega

/-- A prime is accepted when the next calls give suitable bases. -/
theorem isPrime_accepts (hA : A.Ok) {size : KeySize} {p : PosInt 64} (hp : IsCand size.words p) (hpr : p.value.Prime) {kr : RandomSource}
    (hf : kr.Fills) {fuel k : Nat} (hfu : size.millerRabinRounds < fuel)
    (hb : ∀ i, k ≤ i → i ≤ k + size.millerRabinRounds → ∃ b, Drawn kr (64 * size.words) i b ∧ Suitable p.value b) :
    isPrime A fuel p size kr k = some (.ok true, k + size.millerRabinRounds + 1) := by
  obtain ⟨w1, w2, w3, w4, _⟩ := words_cases size
  have gt := hp.gt w1
  have hc : Nat.gcd p.value (beNat PRODUCT_OF_SMALL_PRIMES) = 1 := by
    by_contra hc
    obtain ⟨r, r1, r2⟩ := Nat.exists_prime_and_dvd hc
    have := product_factors r1 (Nat.dvd_trans r2 (Nat.gcd_dvd_right _ _))
    have h2 := (Nat.prime_dvd_prime_iff_eq r1 hpr).1 (Nat.dvd_trans r2 (Nat.gcd_dvd_left _ _))
    omega
  rw [(isPrime_cases (A := A) fuel p size kr k).1 hc, millerRabin]
  have hP := mrParams_ok hA hp.inv hp.odd (by omega)
  refine mrLoop_accepts hA hP (show 2 < p.value by omega) (lenBits_le_4096 hp.inv) hf _ _ _ hfu fun i h1 h2 => ?_
  obtain ⟨b, b1, b2⟩ := hb i h1 h2
  rw [hp.lenBits w1]
  exact ⟨b, b1, b2, prime_passes hpr hp.odd b2⟩

/-- What a step that may call both sources leaves behind. -/
structure Ran {α : Type} (cr kr : RandomSource) (len : Nat) (s : Calls) (r : GR α) (s' : Calls) : Prop where
  cand : s.cand ≤ s'.cand
  check : s.check ≤ s'.check
  ok : ∀ v, r = .ok v → AllOk cr len s.cand s'.cand ∧ AllOk kr len s.check s'.check
  fail : ∀ f, r = .error f → ∃ e, f = .err e ∧ (FailsIn cr len s.cand s'.cand e ∨ FailsIn kr len s.check s'.check e)

theorem AllOk.append {r : RandomSource} {len a b c : Nat} (h1 : AllOk r len a b) (h2 : AllOk r len b c) : AllOk r len a c := by
  intro i x y
  rcases Nat.lt_or_ge i b with h | h
  · exact h1 i x h
  · exact h2 i h y

theorem FailsIn.mono {r : RandomSource} {len a b a' b' : Nat} {e : GError} (h : FailsIn r len a b e) (h1 : a' ≤ a) (h2 : b ≤ b') : FailsIn r len a' b' e := by
  obtain ⟨i, x, y, z⟩ := h
  exact ⟨i, by omega, by omega, z⟩

/-- An accepted prime: where it was drawn and that it passed. -/
structure Chosen (cr kr : RandomSource) (size : KeySize) (s s' : Calls) (p : PosInt 64) : Prop where
  cand : IsCand size.words p
  drawn : ∃ buf, cr (s'.cand - 1) (8 * size.words) = .ok buf ∧ p.value = setBits (8 * size.words) (beNat buf)
  lt : s.cand < s'.cand
  tested : Tested kr size s.check s'.check p.value

theorem Tested.mono {kr : RandomSource} {size : KeySize} {k k' l w : Nat} (h : Tested kr size k k' w) (hl : l ≤ k) : Tested kr size l k' w := by
  obtain ⟨idx, x1, x2, x3⟩ := h.bases
  exact ⟨h.small, idx, x1, x2, fun i hi => by obtain ⟨y1, y2, y3⟩ := x3 i hi; exact ⟨by omega, y2, y3⟩⟩

theorem randomPrimeOne_ok (hA : A.Ok) {size : KeySize} {cr kr : RandomSource} (hc : cr.Fills) (hk : kr.Fills) {fuel : Nat} {s : Calls}
    {r : GR (Option (PosInt 64))} {s' : Calls} (h : randomPrimeOne A fuel size cr kr s = some (r, s')) :
    Ran cr kr (8 * size.words) s r s' ∧ s'.cand = s.cand + 1 ∧ ∀ p, r = .ok (some p) → Chosen cr kr size s s' p := by
  obtain ⟨w1, w2, w3, w4, _⟩ := words_cases size
  rw [randomPrimeOne, show size.privatePrimeSizeBits / 8 = 8 * size.words by omega] at h
  dsimp only at h
  rcases hr : cr s.cand (8 * size.words) with e | buf
  · rw [hr] at h
    cases h
    exact ⟨⟨by simp, Nat.le_refl _, fun v h => (by cases h), fun f hf => (by
      cases hf; exact ⟨e, rfl, Or.inl ⟨s.cand, Nat.le_refl _, by simp, hr⟩⟩)⟩, rfl, fun p h => (by cases h)⟩
  · obtain ⟨p, p1, p2, p3⟩ := cand_ok w1 w2 (hc _ _ _ hr)
    rw [hr] at h
    simp only [p1] at h
    rcases hi : isPrime A fuel p size kr s.check with _ | ⟨v, k⟩
    · rw [hi] at h; cases h
    · rw [hi] at h
      obtain ⟨i1, i2, i3, i4, i5⟩ := isPrime_ok hA p2 hk hi
      have hone : AllOk cr (8 * size.words) s.cand (s.cand + 1) := by
        intro i h1 h2
        rw [show i = s.cand by omega]; exact ⟨buf, hr⟩
      rcases v with f | v
      · cases h
        refine ⟨⟨by simp, i1, fun v h => (by cases h), fun f hf => ?_⟩, rfl, fun p h => (by cases h)⟩
        cases hf
        obtain ⟨e, e1, e2⟩ := i3 _ rfl
        exact ⟨e, e1, Or.inr e2⟩
      · rcases v with _ | _
        · cases h
          exact ⟨⟨by simp, i1, fun v _ => ⟨hone, i2 _ rfl⟩, fun f h => (by cases h)⟩, rfl, fun p h => (by cases h)⟩
        · cases h
          refine ⟨⟨by simp, i1, fun v _ => ⟨hone, i2 _ rfl⟩, fun f h => (by cases h)⟩, rfl, fun p h => ?_⟩
          cases h
          exact ⟨p2, ⟨buf, by simpa using hr, p3⟩, by simp, i4 rfl⟩

theorem randomPrime_ok (hA : A.Ok) {size : KeySize} {cr kr : RandomSource} (hc : cr.Fills) (hk : kr.Fills) {fuel : Nat} : ∀ (n : Nat) (s : Calls)
    (r : GR (PosInt 64)) (s' : Calls), randomPrime A fuel size cr kr n s = some (r, s') →
    Ran cr kr (8 * size.words) s r s' ∧ ∀ p, r = .ok p → Chosen cr kr size s s' p := by
  intro n
  induction n with
  | zero => intro s r s' h; cases h
  | succ n ih =>
    intro s r s' h
    rw [randomPrime] at h
    rcases h1 : randomPrimeOne A fuel size cr kr s with _ | ⟨v, s1⟩
    · rw [h1] at h; cases h
    · rw [h1] at h
      obtain ⟨o1, o2, o3⟩ := randomPrimeOne_ok hA hc hk h1
      rcases v with f | v
      · cases h
        exact ⟨⟨o1.cand, o1.check, fun v h => (by cases h), fun f hf => (by cases hf; exact o1.fail _ rfl)⟩, fun p h => (by cases h)⟩
      · rcases v with _ | p
        · obtain ⟨i1, i2⟩ := ih s1 r s' h
          have oa := o1.ok _ rfl
          refine ⟨⟨Nat.le_trans o1.cand i1.cand, Nat.le_trans o1.check i1.check, fun v hv => ?_, fun f hf => ?_⟩, fun p hp => ?_⟩
          · have ia := i1.ok v hv
            exact ⟨oa.1.append ia.1, oa.2.append ia.2⟩
          · obtain ⟨e, e1, e2⟩ := i1.fail f hf
            exact ⟨e, e1, e2.imp (·.mono o1.cand (Nat.le_refl _)) (·.mono o1.check (Nat.le_refl _))⟩
          · have c := i2 p hp
            exact ⟨c.cand, c.drawn, Nat.lt_of_le_of_lt o1.cand c.lt, c.tested.mono o1.check⟩
        · cases h
          exact ⟨⟨o1.cand, o1.check, fun v _ => o1.ok _ rfl, fun f h => (by cases h)⟩, fun p hp => (by cases hp; exact o3 p rfl)⟩

/-! ### The other components -/

theorem invLoop_mono {N : Nat} {x y : PosInt N} : ∀ (f : Nat) (s : InvState N) (r : Option (PosInt N)), invLoop A x y f s = .done r →
    ∀ g, f ≤ g → invLoop A x y g s = .done r := by
  intro f
  induction f with
  | zero => intro s r h; cases h
  | succ f ih =>
    intro s r h g hg
    obtain ⟨g, rfl⟩ : ∃ g', g = g' + 1 := ⟨g - 1, by omega⟩
    rw [invLoop] at h ⊢
    rcases hs : invShift x y (invSub A x y s) with _ | s'
    · rw [hs] at h; cases h
    · rw [hs] at h
      dsimp only at h ⊢
      by_cases hz : s'.v.isZero = true
      · rw [if_pos hz] at h ⊢; exact h
      · rw [if_neg hz] at h ⊢; exact ih s' r h g (by omega)

theorem invLoop_panic_mono {N : Nat} {x y : PosInt N} : ∀ (f : Nat) (s : InvState N), invLoop A x y f s = .panic →
    ∀ g, f ≤ g → invLoop A x y g s = .panic := by
  intro f
  induction f with
  | zero => intro s h; cases h
  | succ f ih =>
    intro s h g hg
    obtain ⟨g, rfl⟩ : ∃ g', g = g' + 1 := ⟨g - 1, by omega⟩
    rw [invLoop] at h ⊢
    rcases hs : invShift x y (invSub A x y s) with _ | s'
    · rfl
    · rw [hs] at h
      dsimp only at h ⊢
      by_cases hz : s'.v.isZero = true
      · rw [if_pos hz] at h; cases h
      · rw [if_neg hz] at h ⊢; exact ih s' h g (by omega)

theorem invertVartime_mono {N : Nat} {x y : PosInt N} {f : Nat} {r : InvOut N} (h : invertVartime A f x y = r) (hr : r ≠ .running) {g : Nat}
    (hg : f ≤ g) : invertVartime A g x y = r := by
  rw [invertVartime] at h ⊢
  split at h
  · rename_i hc; rw [if_pos hc]; exact h
  · rename_i hc
    rw [if_neg hc]
    rcases r with _ | _ | r
    · exact invLoop_panic_mono _ _ h _ hg
    · exact absurd rfl hr
    · exact invLoop_mono _ _ _ h _ hg

/-- The numbers of the primes less one, their product, and the public exponent. -/
structure Parts (u : Nat) (p q : PosInt 64) (n phi : PosInt 128) : Prop where
  nInv : n.Inv
  nUsed : n.used = 2 * u
  nVal : n.value = p.value * q.value
  phiInv : phi.Inv
  phiVal : phi.value = (p.value - 1) * (q.value - 1)
  p1 : (p.sub (one 64)).Inv ∧ (p.sub (one 64)).used = u ∧ (p.sub (one 64)).value = p.value - 1
  q1 : (q.sub (one 64)).Inv ∧ (q.sub (one 64)).used = u ∧ (q.sub (one 64)).value = q.value - 1

theorem parts_ok {u : Nat} (hu : 16 ≤ u) {p q : PosInt 64} (hp : IsCand u p) (hq : IsCand u q) :
    ∃ n phi, PosInt.mul 128 p q = some n ∧ PosInt.mul 128 (p.sub (one 64)) (q.sub (one 64)) = some phi ∧ Parts u p q n phi := by
  have h1 : (one 64).value = 1 := one_value (by decide)
  have gp := hp.gt hu
  have gq := hq.gt hu
  obtain ⟨p1, p2, p3⟩ := sub_ok hp.inv (one_inv (by decide)) (by rw [h1]; omega)
  obtain ⟨q1, q2, q3⟩ := sub_ok hq.inv (one_inv (by decide)) (by rw [h1]; omega)
  obtain ⟨n, n1, n2, n3, n4⟩ := mul_ok (M := 128) hp.inv hq.inv (by decide)
  obtain ⟨f, f1, f2, f3, f4⟩ := mul_ok (M := 128) p1 q1 (by decide)
  rw [h1] at p3 q3
  exact ⟨n, f, n1, f1, n2, by rw [n3, hp.used, hq.used]; omega, n4, f2, by rw [f4, p3, q3], ⟨p1, by rw [p2, hp.used], p3⟩,
    q1, by rw [q2, hq.used], q3⟩

theorem exponent_ok : (word 128 (PUBLIC_EXPONENT.zeroExtend 64)).Inv ∧ (word 128 (PUBLIC_EXPONENT.zeroExtend 64)).value = 65537 :=
  ⟨word_inv (by decide) _, by rw [word_value (by decide)]; decide⟩

theorem phi_lower {u a b : Nat} (hu : 16 ≤ u) (ha : 3 * 2 ^ (64 * u - 2) ≤ a) (hb : 3 * 2 ^ (64 * u - 2) ≤ b) : 2 ^ (128 * u - 2) ≤ (a - 1) * (b - 1) := by
  have e : 2 ^ (64 * u - 1) = 2 * 2 ^ (64 * u - 2) := by rw [← Nat.pow_succ']; congr 1; omega
  have e0 := Nat.two_pow_pos (64 * u - 2)
  have h := Nat.mul_le_mul (show 2 ^ (64 * u - 1) ≤ a - 1 by omega) (show 2 ^ (64 * u - 1) ≤ b - 1 by omega)
  rwa [← Nat.pow_add, show 64 * u - 1 + (64 * u - 1) = 128 * u - 2 by omega] at h

theorem n_bounds {u a b : Nat} (hu : 16 ≤ u) (ha : 3 * 2 ^ (64 * u - 2) ≤ a) (hb : 3 * 2 ^ (64 * u - 2) ≤ b) (ha' : a < 2 ^ (64 * u))
    (hb' : b < 2 ^ (64 * u)) : 2 ^ (128 * u - 1) ≤ a * b ∧ a * b < 2 ^ (128 * u) := by
  constructor
  · have h := Nat.mul_le_mul ha hb
    have e : 3 * 2 ^ (64 * u - 2) * (3 * 2 ^ (64 * u - 2)) = 9 * 2 ^ (128 * u - 4) := by
      rw [show 128 * u - 4 = (64 * u - 2) + (64 * u - 2) by omega, Nat.pow_add]; ring
    have e2 : 2 ^ (128 * u - 1) = 8 * 2 ^ (128 * u - 4) := by
      rw [show 8 = 2 ^ 3 from rfl, ← Nat.pow_add]; congr 1; omega
    omega
  · have h := Nat.mul_lt_mul'' ha' hb'
    rwa [← Nat.pow_add, show 64 * u + 64 * u = 128 * u by omega] at h

/-- A private exponent found by the inversion is long enough to be reduced. -/
theorem d_long {u d phi : Nat} (hu : 16 ≤ u) (h : d * 65537 % phi = 1) (hphi : 2 ^ (128 * u - 2) ≤ phi) : 2 ^ (64 * (u - 1)) ≤ d := by
  by_contra hc
  have h1 : 2 ^ (128 * u - 2) = 2 ^ (64 * u + 62) * 2 ^ (64 * (u - 1)) := by rw [← Nat.pow_add]; congr 1; omega
  have h2 : 2 ^ 17 ≤ 2 ^ (64 * u + 62) := Nat.pow_le_pow_right (by decide) (by omega)
  have h3 : d * 65537 < phi := by
    refine Nat.lt_of_lt_of_le ?_ hphi
    rw [h1]
    calc d * 65537 ≤ d * 2 ^ (64 * u + 62) := Nat.mul_le_mul_left _ (by omega)
      _ < 2 ^ (64 * (u - 1)) * 2 ^ (64 * u + 62) := Nat.mul_lt_mul_of_pos_right (by omega) (Nat.two_pow_pos _)
      _ = _ := Nat.mul_comm _ _
  rw [Nat.mod_eq_of_lt h3] at h
  omega

theorem reduce_d (hA : A.Ok) {u : Nat} (hu : 16 ≤ u) {d : PosInt 128} (hd : d.Inv) (hlong : 2 ^ (64 * (u - 1)) ≤ d.value) {m : PosInt 64}
    (hm : m.Inv) (hmu : m.used = u) {x : Nat} (hmv : m.value = x - 1) (hx : 3 * 2 ^ (64 * u - 2) ≤ x) :
    ∃ r, d.reduceEven A m = some r ∧ r.Inv ∧ r.used = u ∧ r.value = d.value % (x - 1) := by
  have e : 2 ^ (64 * (u - 1)) ≤ 2 ^ (64 * u - 2) := Nat.pow_le_pow_right (by decide) (by omega)
  have e0 := Nat.two_pow_pos (64 * u - 2)
  obtain ⟨r, r1, r2, r3, r4⟩ := reduceEven_ok hA hd hm (by decide) (by rw [hmv]; omega) (by rw [hmu, hmv]; omega) (by
    rw [hmu]
    by_contra hc
    have := value_lt hd
    have h2 : 2 ^ (64 * d.used) ≤ 2 ^ (64 * (u - 1)) := Nat.pow_le_pow_right (by decide) (by omega)
    omega)
  exact ⟨r, r1, r2, by rw [r3, hmu], by rw [r4, hmv]⟩

theorem lenBytes_ge {N : Nat} {p : PosInt N} {k : Nat} (h : 2 ^ (8 * k - 1) ≤ p.value) (hk : 0 < k) : k ≤ p.lenBytes := by
  have : ¬ p.lenBits ≤ 8 * k - 1 := by rw [lenBits_le]; omega
  rw [lenBytes]; omega

theorem lenBytes_le' {N : Nat} {p : PosInt N} {k : Nat} (h : p.value < 2 ^ (8 * k)) : p.lenBytes ≤ k := by
  have := (lenBits_le p (8 * k)).2 h
  rw [lenBytes]; omega

/-- The values of a generated key, the private exponents aside. -/
structure MadeFrom (u : Nat) (p q : PosInt 64) (k : Rsa.PrivateKey) : Prop where
  pEq : k.p = p
  qEq : k.q = q
  n : k.pub.n.value = p.value * q.value
  nUsed : k.pub.n.used = 2 * u
  e : k.pub.e = 65537#32
  iqmpUsed : k.iqmp.used = u
  iqmp : Nat.gcd q.value p.value = 1 → k.iqmp.value < p.value ∧ q.value * k.iqmp.value % p.value = 1

/-- The private exponents of a generated key. -/
structure Exponents (p q : PosInt 64) (k : Rsa.PrivateKey) : Prop where
  d_lt : k.d.value < (p.value - 1) * (q.value - 1)
  d : k.d.value * 65537 % ((p.value - 1) * (q.value - 1)) = 1
  dp : k.dp.value = k.d.value % (p.value - 1)
  dq : k.dq.value = k.d.value % (q.value - 1)

theorem new_has {p q : PosInt 64} {d : PosInt 128} {dp dq iqmp : PosInt 64} {n : PosInt 128} {e : BitVec 32} {k : Rsa.PrivateKey}
    (h : Rsa.PrivateKey.new A p q d dp dq iqmp n e = .ok k) : k.Has p q d dp dq iqmp n e := by
  rw [Rsa.PrivateKey.new] at h
  dsimp only at h
  split at h
  · cases h
  · split at h
    · cases h
    · rename_i pub hp
      cases h
      rw [Rsa.PublicKey.new] at hp
      dsimp only at hp
      split at hp
      · cases hp
      · cases hp; exact ⟨rfl, rfl, rfl, rfl, rfl, rfl, rfl, rfl⟩

theorem has_made (hA : A.Ok) {u : Nat} (hu : 16 ≤ u) {p q : PosInt 64} (hp : IsCand u p) (hq : IsCand u q) {n phi : PosInt 128}
    (hn : Parts u p q n phi) {d : PosInt 128} {dp dq : PosInt 64} {k : Rsa.PrivateKey}
    (k3 : k.Has p q d dp dq (q.modInverse A p) n PUBLIC_EXPONENT) : MadeFrom u p q k := by
  have hl := hA.modinv_length (q.asWordsWithLenOf p) p.asWords
  rw [length_asWords hp.inv] at hl
  refine ⟨k3.p, k3.q, by rw [k3.n, hn.nVal], by rw [k3.n, hn.nUsed], k3.e, ?_, ?_⟩
  · rw [k3.iqmp]; show (A.modinv _ _).length = u; rw [hl, hp.used]
  · intro hg
    have hv : val (q.asWordsWithLenOf p) = q.value :=
      val_take_words hq.inv (by rw [hp.used]; exact hq.hi)
    have := hA.modinv (q.asWordsWithLenOf p) p.asWords
      (by rw [asWordsWithLenOf, length_take_words hq.inv hp.inv.used, length_asWords hp.inv])
      hp.odd (by have := hp.gt hu; show 1 < p.value; omega) (by rw [hv]; exact hg)
    rw [hv] at this
    rw [k3.iqmp, modInverse, ofWords_value]
    exact this

/-- The end of `assemble`, once `d`, `dp` and `dq` are known. -/
theorem new_ok (hA : A.Ok) {u : Nat} (hu : 16 ≤ u) (hu2 : u ≤ 64) {p q : PosInt 64} (hp : IsCand u p) (hq : IsCand u q) {n phi : PosInt 128}
    (hn : Parts u p q n phi) {d : PosInt 128} {dp dq : PosInt 64} (hd : d.Inv) (hdp : dp.Inv) (hdq : dq.Inv) :
    ∃ k, Rsa.PrivateKey.new A p q d dp dq (q.modInverse A p) n PUBLIC_EXPONENT = .ok k ∧ k.Ok A ∧ MadeFrom u p q k ∧
      k.d = d ∧ k.dp = dp ∧ k.dq = dq := by
  have hl := hA.modinv_length (q.asWordsWithLenOf p) p.asWords
  rw [length_asWords hp.inv] at hl
  have hi : (q.modInverse A p).Inv := ofWords_inv (by rw [hl]; exact hp.inv.used)
  obtain ⟨b1, b2⟩ := n_bounds hu hp.lo hq.lo hp.hi hq.hi
  have le1 : 2 ^ (8 * 256 - 1) ≤ 2 ^ (128 * u - 1) := Nat.pow_le_pow_right (by decide) (by omega)
  have le2 : 2 ^ (128 * u) ≤ 2 ^ (8 * 1024) := Nat.pow_le_pow_right (by decide) (by omega)
  have le3 : 2 ^ (8 * 128 - 1) ≤ 2 ^ (64 * u - 1) := Nat.pow_le_pow_right (by decide) (by omega)
  have le4 : 2 ^ (64 * u) ≤ 2 ^ (8 * 512) := Nat.pow_le_pow_right (by decide) (by omega)
  have e1 : 2 ^ (64 * u - 1) = 2 * 2 ^ (64 * u - 2) := by rw [← Nat.pow_succ']; congr 1; omega
  have lo := hp.lo
  have hi' := hp.hi
  have nb1 := lenBytes_ge (p := n) (k := 256) (Nat.le_trans le1 (by rw [hn.nVal]; exact b1)) (by decide)
  have nb2 := lenBytes_le' (p := n) (k := 1024) (Nat.lt_of_lt_of_le (by rw [hn.nVal]; exact b2) le2)
  have pb1 := lenBytes_ge (p := p) (k := 128) (Nat.le_trans le3 (by omega)) (by decide)
  have pb2 := lenBytes_le' (p := p) (k := 512) (Nat.lt_of_lt_of_le hi' le4)
  have hno : n.value % 2 = 1 := by
    rw [hn.nVal, Nat.mul_mod, hp.odd, hq.odd]
  rcases Rsa.privateKey_new hA PUBLIC_EXPONENT hp.inv hq.inv hd hdp hdq hi hn.nInv with ⟨_, _, k, k1, k2, k3⟩ | ⟨h, _⟩
  · exact ⟨k, k1, k2, has_made hA hu hp hq hn k3, k3.d, k3.dp, k3.dq⟩
  · exact absurd ⟨⟨hp.odd, hq.odd, pb1, pb2⟩, hno, nb1, nb2, by decide⟩ h

theorem new_indep {p q : PosInt 64} {d d' : PosInt 128} {dp dq iqmp dp' dq' iqmp' : PosInt 64} {n : PosInt 128} {e : BitVec 32} {k : Rsa.PrivateKey}
    (h : Rsa.PrivateKey.new A p q d dp dq iqmp n e = .ok k) : ∃ k', Rsa.PrivateKey.new A p q d' dp' dq' iqmp' n e = .ok k' := by
  rw [Rsa.PrivateKey.new] at h ⊢
  dsimp only at h ⊢
  split at h
  · cases h
  · rename_i hc
    rw [if_neg hc]
    split at h
    · cases h
    · exact ⟨_, rfl⟩

/-- What `assemble` gives for the larger and the smaller prime.  The first part is for all sizes, the second needs a spare bit above
`(p - 1) * (q - 1)` in 128 words. -/
theorem assemble_gt (hA : A.Ok) {u : Nat} (hu : 16 ≤ u) (hu2 : u ≤ 64) {p q : PosInt 64} (hp : IsCand u p) (hq : IsCand u q) (hlt : q.value < p.value)
    (fuel : Nat) :
    (u ≤ 63 → (assemble A fuel p q = none ∧ fuel < 128 * u + 64) ∨
      (Nat.gcd 65537 ((p.value - 1) * (q.value - 1)) ≠ 1 ∧ assemble A fuel p q = some none) ∨
      (Nat.gcd 65537 ((p.value - 1) * (q.value - 1)) = 1 ∧ ∃ k, assemble A fuel p q = some (some (.ok k)) ∧ k.Ok A ∧ MadeFrom u p q k ∧
        Exponents p q k ∧ k.dp.used = u ∧ k.dq.used = u)) ∧
    (∀ k, assemble A fuel p q = some (some (.ok k)) → MadeFrom u p q k) ∧
    (∀ f, assemble A fuel p q = some (some (.error f)) → f = .panic) := by
  obtain ⟨n, phi, h1, h2, P⟩ := parts_ok hu hp hq
  have hne : p.equals q = false := by
    rw [← Bool.not_eq_true, equals_iff]; omega
  have hltb : q.lessThan p = true := (lessThan_iff _ _).2 hlt
  obtain ⟨x1, x2⟩ := exponent_ok
  have gp := hp.gt hu
  have gq := hq.gt hu
  have low := phi_lower hu hp.lo hq.lo
  have big : 2 ^ 17 ≤ 2 ^ (128 * u - 2) := Nat.pow_le_pow_right (by decide) (by omega)
  rw [assemble]
  simp only [hne, hltb, Bool.false_eq_true, if_false, if_true, h1, h2]
  refine ⟨?_, fun k hk => ?_, fun f hk => ?_⟩
  rotate_left
  · split at hk
    · cases hk
    · cases hk
    · cases hk
    · rename_i d _
      split at hk
      · rename_i dp dq _ _
        rcases hn : Rsa.PrivateKey.new A p q d dp dq (q.modInverse A p) n PUBLIC_EXPONENT with e | k'
        · rw [hn] at hk; cases hk
        · rw [hn] at hk; cases hk
          exact has_made hA hu hp hq P (new_has hn)
      · cases hk
  · split at hk
    · cases hk; rfl
    · cases hk
    · cases hk
    · rename_i d _
      split at hk
      · rename_i dp dq _ _
        obtain ⟨k, k1, _⟩ := new_ok hA hu hu2 hp hq P (zero_inv (N := 128)) (zero_inv (N := 64)) (zero_inv (N := 64))
        obtain ⟨k', hk'⟩ := new_indep (d' := d) (dp' := dp) (dq' := dq) (iqmp' := q.modInverse A p) k1
        rw [hk'] at hk; cases hk
      · cases hk; rfl
  intro hu63
  have hhi : phi.value < 2 ^ (128 * u) := by
    rw [P.phiVal]
    exact Nat.lt_of_le_of_lt (Nat.mul_le_mul (Nat.sub_le _ _) (Nat.sub_le _ _)) (n_bounds hu hp.lo hq.lo hp.hi hq.hi).2
  have hspare : 2 * phi.value ≤ 2 ^ (64 * 128) := by
    have : 2 ^ (128 * u + 1) ≤ 2 ^ (64 * 128) := Nat.pow_le_pow_right (by decide) (by omega)
    rw [Nat.pow_succ] at this
    omega
  have hb1 := (lenBits_le (word 128 (PUBLIC_EXPONENT.zeroExtend 64)) 64).2 (by rw [x2]; decide)
  have hb2 := (lenBits_le phi (128 * u)).2 hhi
  have key : ∀ {r}, invertVartime A fuel (word 128 (PUBLIC_EXPONENT.zeroExtend 64)) phi = r → r ≠ .running →
      (Nat.gcd 65537 phi.value = 1 ∧ ∃ d, r = .done (some d) ∧ d.Inv ∧ d.value < phi.value ∧ d.value * 65537 % phi.value = 1) ∨
      (Nat.gcd 65537 phi.value ≠ 1 ∧ r = .done none) := by
    intro r hr hne
    have := invertVartime_ok hA x1 P.phiInv hspare (by rw [x2]; decide) (by rw [x2, P.phiVal]; omega) (by rw [x2])
      (fuel := fuel + (128 * u + 64)) (by omega)
    rw [x2] at this
    have hm := invertVartime_mono hr hne (g := fuel + (128 * u + 64)) (by omega)
    rw [hm] at this
    exact this
  rcases hr : invertVartime A fuel (word 128 (PUBLIC_EXPONENT.zeroExtend 64)) phi with _ | _ | r
  · rcases key hr (by simp) with ⟨_, d, h, _⟩ | ⟨_, h⟩ <;> cases h
  · left
    refine ⟨rfl, ?_⟩
    by_contra hc
    have := invertVartime_ok hA x1 P.phiInv hspare (by rw [x2]; decide) (by rw [x2, P.phiVal]; omega) (by rw [x2])
      (fuel := fuel) (by omega)
    rw [hr] at this
    rcases this with ⟨_, d, h, _⟩ | ⟨_, h⟩ <;> cases h
  · right
    rw [← P.phiVal]
    rcases key hr (by simp) with ⟨g, d, h, d1, d2, d3⟩ | ⟨g, h⟩
    · right
      cases h
      have hlong := d_long hu d3 (by rw [P.phiVal]; exact low)
      obtain ⟨dp, a1, a2, a3, a4⟩ := reduce_d hA hu d1 hlong P.p1.1 P.p1.2.1 P.p1.2.2 hp.lo
      obtain ⟨dq, b1, b2, b3, b4⟩ := reduce_d hA hu d1 hlong P.q1.1 P.q1.2.1 P.q1.2.2 hq.lo
      obtain ⟨k, k1, k2, k3, k4, k5, k6⟩ := new_ok hA hu hu2 hp hq P d1 a2 b2
      refine ⟨g, k, by simp only [a1, b1, k1]; rfl, k2, k3, ⟨?_, ?_, ?_, ?_⟩, by rw [k5, a3], by rw [k6, b3]⟩
      · rw [k4, ← P.phiVal]; exact d2
      · rw [k4, ← P.phiVal]; exact d3
      · rw [k5, k4, a4]
      · rw [k6, k4, b4]
    · left; cases h; exact ⟨g, rfl⟩

theorem assemble_swap {p q : PosInt 64} (hne : p.value < q.value) (fuel : Nat) : assemble A fuel p q = assemble A fuel q p := by
  have e1 : p.equals q = false := by rw [← Bool.not_eq_true, equals_iff]; omega
  have e2 : q.equals p = false := by rw [← Bool.not_eq_true, equals_iff]; omega
  have e3 : q.lessThan p = false := by rw [← Bool.not_eq_true, lessThan_iff]; omega
  have e4 : p.lessThan q = true := (lessThan_iff _ _).2 hne
  rw [assemble, assemble]
  simp only [e1, e2, e3, e4, Bool.false_eq_true, if_false, if_true]

theorem assemble_eq {p q : PosInt 64} (he : p.value = q.value) (fuel : Nat) : assemble A fuel p q = some (some (.error (.err .RngFailed))) := by
  rw [assemble, if_pos ((equals_iff _ _).2 he)]

/-- What a run of the generator leaves behind. -/
structure Generated (A : Asm) (cr kr : RandomSource) (size : KeySize) (s : Calls) (r : GR Rsa.PrivateKey) (s' : Calls) : Prop where
  cand : s.cand ≤ s'.cand
  check : s.check ≤ s'.check
  ok : ∀ k, r = .ok k → AllOk cr (8 * size.words) s.cand s'.cand ∧ AllOk kr (8 * size.words) s.check s'.check ∧
    ∃ (a b : PosInt 64) (t t' : Calls), Chosen cr kr size t t' a ∧ Chosen cr kr size t' s' b ∧ s.cand ≤ t.cand ∧ s.check ≤ t.check ∧
      b.value ≠ a.value ∧
      MadeFrom size.words (if b.value < a.value then a else b) (if b.value < a.value then b else a) k ∧
      (size ≠ .Rsa8192 → k.Ok A ∧ Exponents (if b.value < a.value then a else b) (if b.value < a.value then b else a) k)
  fail : ∀ f, r = .error f → (size = .Rsa8192 ∧ f = .panic) ∨ ∃ e, f = .err e ∧ (FailsIn cr (8 * size.words) s.cand s'.cand e ∨
    FailsIn kr (8 * size.words) s.check s'.check e ∨ (e = .RngFailed ∧
      ∃ (a : PosInt 64) (t t' : Calls), s.cand ≤ t.cand ∧ Chosen cr kr size t t' a ∧ ∃ b, Chosen cr kr size t' s' b ∧ b.value = a.value))

theorem generateKey_ok (hA : A.Ok) {size : KeySize} {cr kr : RandomSource} (hc : cr.Fills) (hk : kr.Fills) {fuel : Nat} : ∀ (n : Nat) (s : Calls)
    (r : GR Rsa.PrivateKey) (s' : Calls), generateKey A fuel size cr kr n s = some (r, s') → Generated A cr kr size s r s' := by
  obtain ⟨w1, w2, w3, w4, w5⟩ := words_cases size
  intro n
  induction n with
  | zero => intro s r s' h; cases h
  | succ n ih =>
    intro s r s' h
    rw [generateKey] at h
    rcases h1 : randomPrime A fuel size cr kr fuel s with _ | ⟨v, s1⟩
    · rw [h1] at h; cases h
    rw [h1] at h
    obtain ⟨o1, o2⟩ := randomPrime_ok hA hc hk _ _ _ _ h1
    rcases v with f | p
    · cases h
      exact ⟨o1.cand, o1.check, fun v h => (by cases h), fun f hf => (by
        cases hf
        obtain ⟨e, e1, e2⟩ := o1.fail _ rfl
        exact Or.inr ⟨e, e1, e2.imp_right Or.inl⟩)⟩
    dsimp only at h
    rcases h2 : randomPrime A fuel size cr kr fuel s1 with _ | ⟨v, s2⟩
    · rw [h2] at h; cases h
    rw [h2] at h
    obtain ⟨q1, q2⟩ := randomPrime_ok hA hc hk _ _ _ _ h2
    rcases v with f | q
    · cases h
      exact ⟨Nat.le_trans o1.cand q1.cand, Nat.le_trans o1.check q1.check, fun v h => (by cases h), fun f hf => (by
        cases hf
        obtain ⟨e, e1, e2⟩ := q1.fail _ rfl
        exact Or.inr ⟨e, e1, (e2.imp (·.mono o1.cand (Nat.le_refl _)) fun h => Or.inl (h.mono o1.check (Nat.le_refl _)))⟩)⟩
    dsimp only at h
    have cp := o2 p rfl
    have cq := q2 q rfl
    have c1 := Nat.le_trans o1.cand q1.cand
    have c2 := Nat.le_trans o1.check q1.check
    have a1 := (o1.ok _ rfl).1.append (q1.ok _ rfl).1
    have a2 := (o1.ok _ rfl).2.append (q1.ok _ rfl).2
    -- the result of this turn
    have turn : (assemble A fuel p q = none) ∨ (assemble A fuel p q = some none) ∨
        (∃ f, assemble A fuel p q = some (some (.error f)) ∧ (p.value = q.value ∧ f = .err .RngFailed ∨ size = .Rsa8192 ∧ f = .panic)) ∨
        (∃ k, assemble A fuel p q = some (some (.ok k)) ∧ q.value ≠ p.value ∧
          MadeFrom size.words (if q.value < p.value then p else q) (if q.value < p.value then q else p) k ∧
          (size ≠ .Rsa8192 → k.Ok A ∧ Exponents (if q.value < p.value then p else q) (if q.value < p.value then q else p) k)) := by
      by_cases heq : p.value = q.value
      · right; right; left
        exact ⟨_, assemble_eq heq fuel, Or.inl ⟨heq, rfl⟩⟩
      have main : ∀ {a b : PosInt 64}, IsCand size.words a → IsCand size.words b → b.value < a.value →
          (assemble A fuel a b = none) ∨ (assemble A fuel a b = some none) ∨
          (∃ f, assemble A fuel a b = some (some (.error f)) ∧ size = .Rsa8192 ∧ f = .panic) ∨
          (∃ k, assemble A fuel a b = some (some (.ok k)) ∧ MadeFrom size.words a b k ∧ (size ≠ .Rsa8192 → k.Ok A ∧ Exponents a b k)) := by
        intro a b ha hb hlt
        obtain ⟨m1, m2, m3⟩ := assemble_gt hA w1 w2 ha hb hlt fuel
        by_cases hs : size = .Rsa8192
        · rcases hr : assemble A fuel a b with _ | _ | (f | k)
          · exact Or.inl rfl
          · exact Or.inr (Or.inl rfl)
          · exact Or.inr (Or.inr (Or.inl ⟨f, rfl, hs, m3 f hr⟩))
          · exact Or.inr (Or.inr (Or.inr ⟨k, rfl, m2 k hr, fun h => absurd hs h⟩))
        · rcases m1 (by have := w5 hs; omega) with ⟨h, _⟩ | ⟨_, h⟩ | ⟨_, k, k1, k2, k3, k4, _⟩
          · exact Or.inl h
          · exact Or.inr (Or.inl h)
          · exact Or.inr (Or.inr (Or.inr ⟨k, k1, k3, fun _ => ⟨k2, k4⟩⟩))
      rcases Nat.lt_or_ge q.value p.value with hlt | hge
      · rcases main cp.cand cq.cand hlt with h | h | ⟨f, h, hs⟩ | ⟨k, h, k1, k2⟩
        · exact Or.inl h
        · exact Or.inr (Or.inl h)
        · exact Or.inr (Or.inr (Or.inl ⟨f, h, Or.inr hs⟩))
        · refine Or.inr (Or.inr (Or.inr ⟨k, h, by omega, ?_⟩))
          rw [if_pos hlt, if_pos hlt]; exact ⟨k1, k2⟩
      · rw [assemble_swap (by omega)]
        rcases main cq.cand cp.cand (by omega) with h | h | ⟨f, h, hs⟩ | ⟨k, h, k1, k2⟩
        · exact Or.inl h
        · exact Or.inr (Or.inl h)
        · exact Or.inr (Or.inr (Or.inl ⟨f, h, Or.inr hs⟩))
        · refine Or.inr (Or.inr (Or.inr ⟨k, h, by omega, ?_⟩))
          rw [if_neg (by omega), if_neg (by omega)]; exact ⟨k1, k2⟩
    rcases turn with ht | ht | ⟨f, ht, hf⟩ | ⟨k, ht, t1, t2, t3⟩
    · rw [ht] at h; cases h
    · rw [ht] at h
      dsimp only at h
      have i := ih s2 r s' h
      refine ⟨Nat.le_trans c1 i.cand, Nat.le_trans c2 i.check, fun k hk => ?_, fun f hf => ?_⟩
      · obtain ⟨x1, x2, a, b, t, t', y1, y2, y3, y4, y5⟩ := i.ok k hk
        exact ⟨a1.append x1, a2.append x2, a, b, t, t', y1, y2, Nat.le_trans c1 y3, Nat.le_trans c2 y4, y5⟩
      · rcases i.fail f hf with h | ⟨e, e1, e2⟩
        · exact Or.inl h
        · refine Or.inr ⟨e, e1, ?_⟩
          rcases e2 with e2 | e2 | ⟨e2, a, t, t', e3, e4, e5⟩
          · exact Or.inl (e2.mono c1 (Nat.le_refl _))
          · exact Or.inr (Or.inl (e2.mono c2 (Nat.le_refl _)))
          · exact Or.inr (Or.inr ⟨e2, a, t, t', Nat.le_trans c1 e3, e4, e5⟩)
    · rw [ht] at h
      cases h
      refine ⟨c1, c2, fun k hk => (by cases hk), fun f' hf' => ?_⟩
      cases hf'
      rcases hf with ⟨he, rfl⟩ | hs
      · exact Or.inr ⟨_, rfl, Or.inr (Or.inr ⟨rfl, p, s, s1, Nat.le_refl _, cp, q, cq, he.symm⟩)⟩
      · exact Or.inl hs
    · rw [ht] at h
      cases h
      refine ⟨c1, c2, fun k' hk' => ?_, fun f hf => (by cases hf)⟩
      cases hk'
      exact ⟨a1, a2, p, q, s, s1, cp, cq, Nat.le_refl _, Nat.le_refl _, t1, t2, t3⟩

end Verif.RsaGen
