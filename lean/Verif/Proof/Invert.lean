import Verif.Proof.PosInt
import Mathlib.Tactic.Push

/-!
The binary extended Euclidean algorithm of `invert_vartime`.
-/
namespace Verif.PosInt
open Verif Bignum

variable {N M : Nat} {A : Asm}

theorem addShiftRight1_ok {p b : PosInt N} (hp : p.Inv) (hb : b.Inv) (h : p.value + b.value < 2 ^ (64 * N)) (h0 : 0 < p.value + b.value) :
    ∃ r, p.addShiftRight1 b = some r ∧ r.Inv ∧ r.value = (p.value + b.value) / 2 := by
  obtain ⟨a1, a2, a3⟩ := add_ok hp hb h
  have h1 : val (p.asWords.take N) = p.value := by
    rw [List.take_of_length_le (by rw [length_asWords hp]; exact hp.used)]; rfl
  have h2 : val (b.asWords.take N) = b.value := by
    rw [List.take_of_length_le (by rw [length_asWords hb]; exact hb.used)]; rfl
  have hc : (Bignum.add N p.asWords b.asWords).2 = 0#64 := by
    simp only [Bignum.add, h1, h2]
    rw [Nat.div_eq_of_lt h]
  rw [addShiftRight1]
  have hu : digitsize (Bignum.add N p.asWords b.asWords).1 = (p.add b).used := rfl
  have hw : ((Bignum.add N p.asWords b.asWords).1.take (digitsize (Bignum.add N p.asWords b.asWords).1)) = (p.add b).asWords := rfl
  simp only [hw, hc]
  simp only [hu]
  have hpos : 0 < (p.add b).used := used_pos (by omega)
  rw [if_neg (by omega)]
  refine ⟨_, rfl, ?_⟩
  have hl : (shrSmall N (p.add b).asWords 1).length = N := by simp [shrSmall]
  have hset : (shrSmall N (p.add b).asWords 1).set ((p.add b).used - 1)
      ((shrSmall N (p.add b).asWords 1).getD ((p.add b).used - 1) 0#64 ||| 0#64 <<< 63) = shrSmall N (p.add b).asWords 1 := by
    have hi : (p.add b).used - 1 < (shrSmall N (p.add b).asWords 1).length := by rw [hl]; have := a1.used; omega
    rw [show (0#64 <<< 63 : Word) = 0#64 by decide, show ∀ w : Word, w ||| 0#64 = w by intro w; simp]
    apply List.ext_getElem (by simp)
    intro i h1 h2
    rw [List.getElem_set]
    split
    · rename_i h; subst h; simp [hi]
    · rfl
  rw [hset]
  have hv : val (shrSmall N (p.add b).asWords 1) = (p.value + b.value) / 2 := by
    rw [shrSmall, val_toWords_of_lt]
    · rw [Nat.pow_one]; show (p.add b).value / 2 = _; rw [a2]
    · rw [Nat.pow_one]; show (p.add b).value / 2 < _; rw [a2]; omega
  have hlt : val (shrSmall N (p.add b).asWords 1) < 2 ^ (64 * (p.add b).used) := by
    rw [hv]; have := value_lt a1; omega
  refine ⟨⟨hl, a1.used, ?_⟩, ?_⟩
  · dsimp only
    have hd := val_drop (shrSmall N (p.add b).asWords 1) (p.add b).used (by rw [hl]; exact a1.used)
    rw [Nat.div_eq_of_lt hlt, val_eq_zero_iff] at hd
    rw [hd, List.length_drop, hl]
  · rw [value, asWords]
    dsimp only
    rw [val_take, Nat.mod_eq_of_lt hlt, hv]

/-- The invariant.  `x` is odd and below `y`. -/
structure IInv (x y : PosInt N) (s : InvState N) : Prop where
  iu : s.u.Inv
  iv : s.v.Inv
  ia : s.a.Inv
  ib : s.b.Inv
  ic : s.c.Inv
  id : s.d.Inv
  la : s.a.value < y.value
  lb : s.b.value < x.value
  lc : s.c.value < y.value
  ld : s.d.value < x.value
  upos : 0 < s.u.value
  ux : s.u.value ≤ x.value
  eu : s.u.value + s.b.value * y.value = s.a.value * x.value
  ev : s.v.value + s.c.value * x.value = s.d.value * y.value
  early : s.v.value < x.value ∨ (s.a.value = 1 ∧ s.b.value = 0)
  odd : s.u.value % 2 = 1 ∨ s.v.value % 2 = 1
  gcd : Nat.gcd s.u.value s.v.value = Nat.gcd x.value y.value

/-- The two sums wrap together (subtraction from `u`). -/
theorem wrap_u {x y a b c d w : Nat} (hxy : x < y) (la : a < y) (lb : b < x) (lc : c < y) (ld : d < x) (hw : 0 < w) (hwx : w ≤ x)
    (e : w + (b + d) * y = (a + c) * x) : w + (b + d) % x * y = (a + c) % y * x := by
  have key : y ≤ a + c ↔ x ≤ b + d := by
    constructor
    · intro h
      by_contra hc
      have h1 : y * x ≤ (a + c) * x := Nat.mul_le_mul_right x h
      have h2 : (b + d) * y + y ≤ x * y := by
        have := Nat.mul_le_mul_right y (show b + d + 1 ≤ x by omega)
        rw [Nat.add_mul, Nat.one_mul] at this; exact this
      rw [Nat.mul_comm x y] at h2
      omega
    · intro h
      by_contra hc
      have h1 : x * y ≤ (b + d) * y := Nat.mul_le_mul_right y h
      have h2 : (a + c) * x ≤ y * x := Nat.mul_le_mul_right x (by omega)
      rw [Nat.mul_comm x y] at h1
      omega
  by_cases h : y ≤ a + c
  · have h2 := key.1 h
    rw [Nat.mod_eq_sub_mod h2, Nat.mod_eq_sub_mod h, Nat.mod_eq_of_lt (by omega), Nat.mod_eq_of_lt (by omega)]
    have e1 : (b + d) * y = (b + d - x) * y + x * y := by rw [← Nat.add_mul]; congr 1; omega
    have e2 : (a + c) * x = (a + c - y) * x + x * y := by rw [Nat.mul_comm x y, ← Nat.add_mul]; congr 1; omega
    omega
  · have h2 : ¬ x ≤ b + d := fun h' => h (key.2 h')
    rw [Nat.mod_eq_of_lt (by omega), Nat.mod_eq_of_lt (by omega)]; exact e

/-- The two sums wrap together (subtraction from `v`). -/
theorem wrap_v {x y a b c d w : Nat} (la : a < y) (lb : b < x) (lc : c < y) (ld : d < x)
    (hw : w < x ∨ (a = 1 ∧ b = 0))
    (e : w + (c + a) * x = (d + b) * y) : w + (c + a) % y * x = (d + b) % x * y := by
  have key : y ≤ c + a ↔ x ≤ d + b := by
    constructor
    · intro h
      by_contra hc
      have h1 : y * x ≤ (c + a) * x := Nat.mul_le_mul_right x h
      have h2 : (d + b) * y + y ≤ x * y := by
        have := Nat.mul_le_mul_right y (show d + b + 1 ≤ x by omega)
        rw [Nat.add_mul, Nat.one_mul] at this; exact this
      rw [Nat.mul_comm x y] at h2
      omega
    · intro h
      by_contra hc
      rcases hw with hw | ⟨_, hb⟩
      · have h1 : x * y ≤ (d + b) * y := Nat.mul_le_mul_right y h
        have h2 : (c + a) * x + x ≤ y * x := by
          have := Nat.mul_le_mul_right x (show c + a + 1 ≤ y by omega)
          rw [Nat.add_mul, Nat.one_mul] at this; exact this
        rw [Nat.mul_comm x y] at h1
        omega
      · omega
  by_cases h : y ≤ c + a
  · have h2 := key.1 h
    rw [Nat.mod_eq_sub_mod h2, Nat.mod_eq_sub_mod h, Nat.mod_eq_of_lt (by omega), Nat.mod_eq_of_lt (by omega)]
    have e1 : (d + b) * y = (d + b - x) * y + x * y := by rw [← Nat.add_mul]; congr 1; omega
    have e2 : (c + a) * x = (c + a - y) * x + x * y := by rw [Nat.mul_comm x y, ← Nat.add_mul]; congr 1; omega
    omega
  · have h2 : ¬ x ≤ d + b := fun h' => h (key.2 h')
    rw [Nat.mod_eq_of_lt (by omega), Nat.mod_eq_of_lt (by omega)]; exact e

theorem gcd_sub_left {u v : Nat} (h : v ≤ u) : Nat.gcd (u - v) v = Nat.gcd u v := by
  conv_rhs => rw [show u = (u - v) + v by omega]
  rw [Nat.gcd_add_self_left]

/-- Halving an even number does not change the gcd with an odd one. -/
theorem gcd_half {u v : Nat} (hu : u % 2 = 0) (hv : v % 2 = 1) : Nat.gcd (u / 2) v = Nat.gcd u v := by
  have e : u = 2 * (u / 2) := by omega
  conv_rhs => rw [e]
  have h2 : Nat.Coprime 2 v := by rw [Nat.Coprime, Nat.gcd_rec, hv]; rfl
  rw [Nat.gcd_comm (2 * _), Nat.gcd_comm (u / 2)]
  exact (Nat.Coprime.gcd_mul_left_cancel_right (u / 2) h2).symm

theorem invSub_ok (hA : A.Ok) {x y : PosInt N} (hx : x.Inv) (hy : y.Inv) (hxy : x.value < y.value) {s : InvState N} (h : IInv x y s) :
    IInv x y (invSub A x y s) ∧ ((invSub A x y s).u.value % 2 = 0 ∨ (invSub A x y s).v.value % 2 = 0) ∧
    (invSub A x y s).u.value ≤ s.u.value ∧ (invSub A x y s).v.value ≤ s.v.value := by
  rw [invSub]
  by_cases ho : (s.u.isOdd && s.v.isOdd) = true
  · rw [if_pos ho]
    rw [Bool.and_eq_true, isOdd_iff h.iu, isOdd_iff h.iv] at ho
    obtain ⟨ou, ov⟩ := ho
    by_cases hlt : s.v.lessThan s.u = true
    · rw [if_pos hlt]
      rw [lessThan_iff] at hlt
      obtain ⟨u1, _, u2⟩ := sub_ok h.iu h.iv (Nat.le_of_lt hlt)
      obtain ⟨a1, a2⟩ := addMod_ok hA h.ia h.ic hy h.la h.lc
      obtain ⟨b1, b2⟩ := addMod_ok hA h.ib h.id hx h.lb h.ld
      have hux := h.ux
      have hyp : 0 < y.value := by omega
      have hxp : 0 < x.value := by omega
      refine ⟨⟨u1, h.iv, a1, b1, h.ic, h.id, ?_, ?_, h.lc, h.ld, ?_, ?_, ?_, h.ev, ?_, ?_, ?_⟩, ?_, ?_, ?_⟩ <;> dsimp only
      · rw [a2]; exact Nat.mod_lt _ hyp
      · rw [b2]; exact Nat.mod_lt _ hxp
      · omega
      · omega
      · rw [u2, a2, b2]
        refine wrap_u hxy h.la h.lb h.lc h.ld (by omega) (by omega) ?_
        have e1 := h.eu; have e2 := h.ev
        rw [Nat.add_mul, Nat.add_mul]; omega
      · left; omega
      · right; exact ov
      · rw [u2, gcd_sub_left (Nat.le_of_lt hlt)]; exact h.gcd
      · left; omega
      · omega
      · omega
    · rw [if_neg hlt]
      rw [lessThan_iff] at hlt
      have hle : s.u.value ≤ s.v.value := by omega
      obtain ⟨u1, _, u2⟩ := sub_ok h.iv h.iu hle
      obtain ⟨a1, a2⟩ := addMod_ok hA h.ic h.ia hy h.lc h.la
      obtain ⟨b1, b2⟩ := addMod_ok hA h.id h.ib hx h.ld h.lb
      have hux := h.ux
      have hup := h.upos
      have hyp : 0 < y.value := by omega
      have hxp : 0 < x.value := by omega
      have hea := h.early
      refine ⟨⟨h.iu, u1, h.ia, h.ib, a1, b1, h.la, h.lb, ?_, ?_, h.upos, h.ux, h.eu, ?_, ?_, ?_, ?_⟩, ?_, ?_, ?_⟩ <;> dsimp only
      · rw [a2]; exact Nat.mod_lt _ hyp
      · rw [b2]; exact Nat.mod_lt _ hxp
      · rw [u2, a2, b2]
        refine wrap_v h.la h.lb h.lc h.ld (by omega) ?_
        have e1 := h.eu; have e2 := h.ev
        rw [Nat.add_mul, Nat.add_mul]; omega
      · omega
      · left; exact ou
      · rw [u2, Nat.gcd_comm, gcd_sub_left hle, Nat.gcd_comm]; exact h.gcd
      · right; omega
      · omega
      · omega
  · rw [if_neg ho]
    rw [Bool.and_eq_true, isOdd_iff h.iu, isOdd_iff h.iv] at ho
    exact ⟨h, by omega, Nat.le_refl _, Nat.le_refl _⟩

/-- Halving one pair of coefficients. -/
theorem invHalf_ok {x y a b : PosInt N} (hx : x.Inv) (hy : y.Inv) (ha : a.Inv) (hb : b.Inv) (hN : 2 * y.value ≤ 2 ^ (64 * N))
    (hxy : x.value < y.value) (ho : x.value % 2 = 1) (la : a.value < y.value) (lb : b.value < x.value)
    (hpar : (a.value * x.value + b.value * y.value) % 2 = 0) :
    ∃ a' b', invHalf x y a b = some (a', b') ∧ a'.Inv ∧ b'.Inv ∧ a'.value < y.value ∧ b'.value < x.value ∧
      ((2 * a'.value = a.value ∧ 2 * b'.value = b.value) ∨ (2 * a'.value = a.value + y.value ∧ 2 * b'.value = b.value + x.value)) := by
  rw [invHalf]
  rw [Nat.add_mod, Nat.mul_mod, Nat.mul_mod b.value, ho] at hpar
  by_cases h : (a.isOdd || b.isOdd) = true
  · rw [if_pos h]
    rw [Bool.or_eq_true, isOdd_iff ha, isOdd_iff hb] at h
    have hpy : (a.value + y.value) % 2 = 0 ∧ (b.value + x.value) % 2 = 0 := by
      rcases Nat.mod_two_eq_zero_or_one a.value with h1 | h1 <;> rcases Nat.mod_two_eq_zero_or_one b.value with h2 | h2 <;>
        rcases Nat.mod_two_eq_zero_or_one y.value with h3 | h3 <;> simp [h1, h2, h3] at hpar h <;> omega
    obtain ⟨a', e1, i1, v1⟩ := addShiftRight1_ok ha hy (by omega) (by omega)
    obtain ⟨b', e2, i2, v2⟩ := addShiftRight1_ok hb hx (by omega) (by omega)
    rw [e1, e2]
    exact ⟨a', b', rfl, i1, i2, by omega, by omega, by right; omega⟩
  · rw [if_neg h]
    rw [Bool.or_eq_true, isOdd_iff ha, isOdd_iff hb] at h
    obtain ⟨i1, _, v1⟩ := shiftRight1_ok ha
    obtain ⟨i2, _, v2⟩ := shiftRight1_ok hb
    exact ⟨_, _, rfl, i1, i2, by omega, by omega, by left; omega⟩

theorem invShift_ok {x y : PosInt N} (hx : x.Inv) (hy : y.Inv) (hN : 2 * y.value ≤ 2 ^ (64 * N))
    (hxy : x.value < y.value) (ho : x.value % 2 = 1) {s : InvState N} (h : IInv x y s)
    (hev : s.u.value % 2 = 0 ∨ s.v.value % 2 = 0) :
    ∃ s', invShift x y s = some s' ∧
      ((s'.u.value = s.u.value / 2 ∧ s'.v.value = s.v.value ∧ s.v.value % 2 = 1) ∨ (s'.u.value = s.u.value ∧ s'.v.value = s.v.value / 2)) ∧
      IInv x y s' := by
  rw [invShift]
  have hsome : ¬ (s.u.isEven || s.v.isEven) = false := by
    rw [Bool.or_eq_false_iff, isEven_false h.iu, isEven_false h.iv]; omega
  rw [if_neg hsome]
  by_cases hu : s.u.isEven = true
  · rw [if_pos hu]
    rw [isEven_iff h.iu] at hu
    have hv : s.v.value % 2 = 1 := by have := h.odd; omega
    have e1 := h.eu
    obtain ⟨a', b', e, i1, i2, l1, l2, hab⟩ := invHalf_ok hx hy h.ia h.ib hN hxy ho h.la h.lb (by omega)
    rw [e]
    obtain ⟨i3, _, v3⟩ := shiftRight1_ok h.iu
    have hup := h.upos
    have hux := h.ux
    refine ⟨_, rfl, Or.inl ⟨v3, rfl, hv⟩, ⟨i3, h.iv, i1, i2, h.ic, h.id, l1, l2, h.lc, h.ld, ?_, ?_, ?_, h.ev, ?_, ?_, ?_⟩⟩ <;> dsimp only
    · omega
    · omega
    · rw [v3]
      have h2 : 2 * (s.u.value / 2 + b'.value * y.value) = 2 * (a'.value * x.value) := by
        rw [Nat.mul_add, ← Nat.mul_assoc, ← Nat.mul_assoc]
        rcases hab with ⟨ea, eb⟩ | ⟨ea, eb⟩
        · rw [ea, eb]; omega
        · rw [ea, eb, Nat.add_mul, Nat.add_mul, Nat.mul_comm y.value x.value]; omega
      omega
    · left
      rcases h.early with h' | ⟨ha1, hb0⟩
      · exact h'
      · rw [ha1, hb0] at e1; omega
    · right; exact hv
    · rw [v3, gcd_half hu hv]; exact h.gcd
  · rw [if_neg hu]
    rw [isEven_iff h.iu] at hu
    have hv : s.v.value % 2 = 0 := by omega
    have e1 := h.ev
    obtain ⟨a', b', e, i1, i2, l1, l2, hab⟩ := invHalf_ok hx hy h.ic h.id hN hxy ho h.lc h.ld (by omega)
    rw [e]
    obtain ⟨i3, _, v3⟩ := shiftRight1_ok h.iv
    have hea := h.early
    refine ⟨_, rfl, Or.inr ⟨rfl, v3⟩, ⟨h.iu, i3, h.ia, h.ib, i1, i2, h.la, h.lb, l1, l2, h.upos, h.ux, h.eu, ?_, ?_, ?_, ?_⟩⟩ <;> dsimp only
    · rw [v3]
      have h2 : 2 * (s.v.value / 2 + a'.value * x.value) = 2 * (b'.value * y.value) := by
        rw [Nat.mul_add, ← Nat.mul_assoc, ← Nat.mul_assoc]
        rcases hab with ⟨ea, eb⟩ | ⟨ea, eb⟩
        · rw [ea, eb]; omega
        · rw [ea, eb, Nat.add_mul, Nat.add_mul, Nat.mul_comm y.value x.value]; omega
      omega
    · omega
    · left; omega
    · rw [v3, Nat.gcd_comm, gcd_half hv (by omega), Nat.gcd_comm]; exact h.gcd

theorem invLoop_ok (hA : A.Ok) {x y : PosInt N} (hx : x.Inv) (hy : y.Inv) (hN : 2 * y.value ≤ 2 ^ (64 * N))
    (hxy : x.value < y.value) (ho : x.value % 2 = 1) : ∀ (fuel i j : Nat) (s : InvState N), IInv x y s → 0 < s.v.value →
      s.u.value < 2 ^ i → s.v.value < 2 ^ j → i + j ≤ fuel →
    (Nat.gcd x.value y.value = 1 ∧ ∃ r, invLoop A x y fuel s = .done (some r) ∧ r.Inv ∧ r.value < y.value ∧
      ∃ b, 1 + b * y.value = r.value * x.value) ∨
    (Nat.gcd x.value y.value ≠ 1 ∧ invLoop A x y fuel s = .done none) := by
  intro fuel
  induction fuel with
  | zero =>
    intro i j s h h0 h1 h2 h3
    have : j = 0 := by omega
    subst this
    simp at h2; omega
  | succ fuel ih =>
    intro i j s h h0 hi hj hij
    obtain ⟨h1, hev, hu, hv⟩ := invSub_ok hA hx hy hxy h
    obtain ⟨s', e, hs, h'⟩ := invShift_ok hx hy hN hxy ho h1 hev
    rw [invLoop, e]
    dsimp only
    by_cases hz : s'.v.isZero = true
    · rw [if_pos hz]
      rw [isZero_iff] at hz
      have hg := h'.gcd
      rw [hz, Nat.gcd_zero_right] at hg
      by_cases hu1 : s'.u.lenBits = 1
      · rw [if_pos hu1]
        rw [lenBits_eq_one] at hu1
        left
        refine ⟨by rw [← hg, hu1], s'.a, rfl, h'.ia, h'.la, s'.b.value, ?_⟩
        have := h'.eu
        rwa [hu1] at this
      · rw [if_neg hu1]
        rw [lenBits_eq_one] at hu1
        right
        exact ⟨by rw [← hg]; exact hu1, rfl⟩
    · rw [if_neg hz]
      rw [isZero_iff] at hz
      have hup := h'.upos
      have pow1 : ∀ k n, 0 < n → n < 2 ^ k → ∃ k', k = k' + 1 := by
        intro k n hn hk
        rcases k with _ | k
        · simp at hk; omega
        · exact ⟨k, rfl⟩
      rcases hs with ⟨hs1, hs2, _⟩ | ⟨hs1, hs2⟩
      · obtain ⟨i', rfl⟩ := pow1 i s.u.value h.upos hi
        rw [Nat.pow_succ] at hi
        exact ih i' j s' h' (by omega) (by omega) (by omega) (by omega)
      · obtain ⟨j', rfl⟩ := pow1 j s.v.value h0 hj
        rw [Nat.pow_succ] at hj
        exact ih i j' s' h' (by omega) (by omega) (by omega) (by omega)

/-- Inversion of an odd number greater than one and below the modulus. -/
theorem invertVartime_ok (hA : A.Ok) {x y : PosInt N} (hx : x.Inv) (hy : y.Inv) (hN : 2 * y.value ≤ 2 ^ (64 * N))
    (h1 : 1 < x.value) (hxy : x.value < y.value) (ho : x.value % 2 = 1) {fuel : Nat} (hf : x.lenBits + y.lenBits ≤ fuel) :
    (Nat.gcd x.value y.value = 1 ∧ ∃ r, invertVartime A fuel x y = .done (some r) ∧ r.Inv ∧ r.value < y.value ∧
      r.value * x.value % y.value = 1) ∨
    (Nat.gcd x.value y.value ≠ 1 ∧ invertVartime A fuel x y = .done none) := by
  have hNp : 0 < N := N_pos hx (by omega)
  rw [invertVartime]
  have hc : ¬ (x.isZero || y.isZero || (x.isEven && y.isEven)) = true := by
    simp only [Bool.or_eq_true, Bool.and_eq_true, isZero_iff, isEven_iff hx, isEven_iff hy]; omega
  rw [if_neg hc]
  have hxu : 0 < x.used := used_pos (by omega)
  have hyu : 0 < y.used := used_pos (by omega)
  obtain ⟨a1, a2⟩ : ((one N).expand y).Inv ∧ ((one N).expand y).value = 1 := expand_one_inv hyu hy.used 1#64
  obtain ⟨d1, d2⟩ : ((one N).expand x).Inv ∧ ((one N).expand x).value = 1 := expand_one_inv hxu hx.used 1#64
  obtain ⟨b1, b2⟩ := expand_inv (other := x) (zero_inv (N := N)) hx.used (by rw [zero_value]; exact Nat.two_pow_pos _)
  obtain ⟨c1, c2⟩ := expand_inv (other := y) (zero_inv (N := N)) hy.used (by rw [zero_value]; exact Nat.two_pow_pos _)
  rw [zero_value] at b2 c2
  have := invLoop_ok hA hx hy hN hxy ho fuel x.lenBits y.lenBits
    ⟨x, y, (one N).expand y, (zero N).expand x, (zero N).expand y, (one N).expand x⟩
    ⟨hx, hy, a1, b1, c1, d1, by dsimp only; omega, by dsimp only; omega, by dsimp only; omega, by dsimp only; omega,
      by dsimp only; omega, by dsimp only; omega, by dsimp only; rw [a2, b2]; omega, by dsimp only; rw [c2, d2]; omega,
      by dsimp only; omega, by dsimp only; omega, rfl⟩ (by dsimp only; omega) ((lenBits_le _ _).1 (Nat.le_refl _))
      ((lenBits_le _ _).1 (Nat.le_refl _)) hf
  rcases this with ⟨g, r, e, i, l, b, hb⟩ | h
  · left
    refine ⟨g, r, e, i, l, ?_⟩
    rw [← hb, Nat.add_mul_mod_self_right, Nat.mod_eq_of_lt (by omega)]
  · right; exact h

end Verif.PosInt
