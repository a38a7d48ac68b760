import Verif.Model.Poly1305
import Verif.Spec.Poly1305
import Verif.Proof.Blockwise
import Mathlib.Tactic.Ring

/-!
Lemmas for C23: the 5x26-bit arithmetic is arithmetic modulo 2^130 - 5.
-/
namespace Verif.Poly1305
open Verif Verif.Blockwise

/-- The number a five-limb value stands for. -/
def L5.val (h : L5) : Nat :=
  h.x0.toNat + 2 ^ 26 * h.x1.toNat + 2 ^ 52 * h.x2.toNat + 2 ^ 78 * h.x3.toNat + 2 ^ 104 * h.x4.toNat

/-- Bounds on the accumulator between blocks. -/
structure Small (h : L5) : Prop where
  b0 : h.x0.toNat < 2 ^ 26
  b1 : h.x1.toNat < 2 ^ 26 + 2 ^ 6
  b2 : h.x2.toNat < 2 ^ 26
  b3 : h.x3.toNat < 2 ^ 26
  b4 : h.x4.toNat < 2 ^ 26

/-- All limbs below 2^26. -/
structure Limbs (r : L5) : Prop where
  b0 : r.x0.toNat < 2 ^ 26
  b1 : r.x1.toNat < 2 ^ 26
  b2 : r.x2.toNat < 2 ^ 26
  b3 : r.x3.toNat < 2 ^ 26
  b4 : r.x4.toNat < 2 ^ 26

theorem toNat_mul32 (a b : BitVec 32) : (mul32 a b).toNat = a.toNat * b.toNat := by
  rw [mul32, BitVec.toNat_mul, BitVec.toNat_setWidth, BitVec.toNat_setWidth]
  have ha := a.isLt
  have hb := b.isLt
  rw [Nat.mod_eq_of_lt (a := a.toNat) (by omega), Nat.mod_eq_of_lt (a := b.toNat) (by omega)]
  apply Nat.mod_eq_of_lt
  calc a.toNat * b.toNat < 2 ^ 32 * 2 ^ 32 := Nat.mul_lt_mul'' ha hb
    _ = 2 ^ 64 := by norm_num

theorem and_mask64 (x : BitVec 64) : (x &&& 0x3ffffff#64).toNat = x.toNat % 2 ^ 26 := by
  rw [BitVec.toNat_and]
  exact Nat.and_two_pow_sub_one_eq_mod _ 26

theorem and_mask32 (x : BitVec 32) : (x &&& 0x3ffffff#32).toNat = x.toNat % 2 ^ 26 := by
  rw [BitVec.toNat_and]
  exact Nat.and_two_pow_sub_one_eq_mod _ 26

theorem shr26_64 (x : BitVec 64) : (x >>> 26).toNat = x.toNat / 2 ^ 26 := by
  rw [BitVec.toNat_ushiftRight, Nat.shiftRight_eq_div_pow]

theorem shr_32 (x : BitVec 32) (n : Nat) : (x >>> n).toNat = x.toNat / 2 ^ n := by
  rw [BitVec.toNat_ushiftRight, Nat.shiftRight_eq_div_pow]

theorem add_ok (h x : L5) (hh : Small h) (hx : Limbs x) :
    (add h x).val = h.val + x.val ∧ (add h x).x0.toNat < 2 ^ 27 + 2 ^ 6 ∧
    (add h x).x1.toNat < 2 ^ 27 + 2 ^ 6 ∧ (add h x).x2.toNat < 2 ^ 27 + 2 ^ 6 ∧
    (add h x).x3.toNat < 2 ^ 27 + 2 ^ 6 ∧ (add h x).x4.toNat < 2 ^ 27 + 2 ^ 6 := by
  obtain ⟨a0, a1, a2, a3, a4⟩ := hh
  obtain ⟨c0, c1, c2, c3, c4⟩ := hx
  simp only [add, L5.val, BitVec.toNat_add]
  omega

/-- The final carry chain of `mul` on natural numbers: linear facts only. -/
theorem carry_chain (d0 d1 d2 d3 d4 : Nat) :
    let c0 := d0 / 2 ^ 26
    let e1 := d1 + c0
    let c1 := e1 / 2 ^ 26
    let e2 := d2 + c1
    let c2 := e2 / 2 ^ 26
    let e3 := d3 + c2
    let c3 := e3 / 2 ^ 26
    let e4 := d4 + c3
    let c4 := e4 / 2 ^ 26
    let f0 := d0 % 2 ^ 26 + c4 * 5
    d0 + 2 ^ 26 * d1 + 2 ^ 52 * d2 + 2 ^ 78 * d3 + 2 ^ 104 * d4 =
      (f0 % 2 ^ 26 + 2 ^ 26 * (e1 % 2 ^ 26 + f0 / 2 ^ 26) + 2 ^ 52 * (e2 % 2 ^ 26)
        + 2 ^ 78 * (e3 % 2 ^ 26) + 2 ^ 104 * (e4 % 2 ^ 26)) + (2 ^ 130 - 5) * c4 := by
  intro c0 e1 c1 e2 c2 e3 c3 e4 c4 f0
  simp only [c0, e1, c1, e2, c2, e3, c3, e4, c4, f0]
  omega

theorem mul_nat (h0 h1 h2 h3 h4 r0 r1 r2 r3 r4 : Nat) :
    (h0 + 2 ^ 26 * h1 + 2 ^ 52 * h2 + 2 ^ 78 * h3 + 2 ^ 104 * h4)
      * (r0 + 2 ^ 26 * r1 + 2 ^ 52 * r2 + 2 ^ 78 * r3 + 2 ^ 104 * r4)
    = ((h0 * r0 + h1 * (r4 * 5) + h2 * (r3 * 5) + h3 * (r2 * 5) + h4 * (r1 * 5))
      + 2 ^ 26 * (h0 * r1 + h1 * r0 + h2 * (r4 * 5) + h3 * (r3 * 5) + h4 * (r2 * 5))
      + 2 ^ 52 * (h0 * r2 + h1 * r1 + h2 * r0 + h3 * (r4 * 5) + h4 * (r3 * 5))
      + 2 ^ 78 * (h0 * r3 + h1 * r2 + h2 * r1 + h3 * r0 + h4 * (r4 * 5))
      + 2 ^ 104 * (h0 * r4 + h1 * r3 + h2 * r2 + h3 * r1 + h4 * r0))
      + (2 ^ 130 - 5) * ((h1 * r4 + h2 * r3 + h3 * r2 + h4 * r1)
        + 2 ^ 26 * (h2 * r4 + h3 * r3 + h4 * r2) + 2 ^ 52 * (h3 * r4 + h4 * r3)
        + 2 ^ 78 * (h4 * r4)) := by
  rw [show (2 : Nat) ^ 130 - 5 = 1361129467683753853853498429727072845819 by norm_num]
  ring

/-- A sum of five small products does not overflow 64 bits. -/
theorem sum5 (a b c d e : BitVec 64) (M : Nat) (hM : 5 * M < 2 ^ 64) (ha : a.toNat ≤ M)
    (hb : b.toNat ≤ M) (hc : c.toNat ≤ M) (hd : d.toNat ≤ M) (he : e.toNat ≤ M) :
    (a + b + c + d + e).toNat = a.toNat + b.toNat + c.toNat + d.toNat + e.toNat := by
  simp only [BitVec.toNat_add]
  omega

theorem prod_le {a b A B : Nat} (ha : a < A) (hb : b < B) : a * b ≤ A * B :=
  Nat.mul_le_mul (Nat.le_of_lt ha) (Nat.le_of_lt hb)

theorem times5 {r : BitVec 32} (h : r.toNat < 2 ^ 26) : (r * 5#32).toNat = r.toNat * 5 := by
  rw [BitVec.toNat_mul]
  exact Nat.mod_eq_of_lt (by simp; omega)

/-- `mul` multiplies modulo 2^130 - 5 and re-establishes the bounds. -/
theorem mul_ok (h r : L5) (hr : Limbs r) (b0 : h.x0.toNat < 2 ^ 27 + 2 ^ 6)
    (b1 : h.x1.toNat < 2 ^ 27 + 2 ^ 6) (b2 : h.x2.toNat < 2 ^ 27 + 2 ^ 6)
    (b3 : h.x3.toNat < 2 ^ 27 + 2 ^ 6) (b4 : h.x4.toNat < 2 ^ 27 + 2 ^ 6) :
    Small (mul h r ⟨r.x1 * 5#32, r.x2 * 5#32, r.x3 * 5#32, r.x4 * 5#32⟩) ∧
    (mul h r ⟨r.x1 * 5#32, r.x2 * 5#32, r.x3 * 5#32, r.x4 * 5#32⟩).val % (2 ^ 130 - 5)
      = (h.val * r.val) % (2 ^ 130 - 5) := by
  obtain ⟨r0, r1, r2, r3, r4⟩ := hr
  obtain ⟨x0, x1, x2, x3, x4⟩ := h
  obtain ⟨y0, y1, y2, y3, y4⟩ := r
  simp only at b0 b1 b2 b3 b4 r0 r1 r2 r3 r4
  have t1 := times5 r1
  have t2 := times5 r2
  have t3 := times5 r3
  have t4 := times5 r4
  have hmul := mul_nat x0.toNat x1.toNat x2.toNat x3.toNat x4.toNat
    y0.toNat y1.toNat y2.toNat y3.toNat y4.toNat
  have hM : ∀ (a b : BitVec 32), a.toNat < 2 ^ 27 + 2 ^ 6 → b.toNat < 2 ^ 26 →
      (mul32 a b).toNat ≤ 2 ^ 53 + 2 ^ 32 := by
    intro a b ha hb
    rw [toNat_mul32]
    exact Nat.le_trans (prod_le ha hb) (by omega)
  have hM5 : ∀ (a b : BitVec 32), a.toNat < 2 ^ 27 + 2 ^ 6 → b.toNat < 2 ^ 26 →
      (mul32 a (b * 5#32)).toNat ≤ 5 * (2 ^ 53 + 2 ^ 32) := by
    intro a b ha hb
    rw [toNat_mul32, times5 hb]
    have := prod_le ha hb
    have e : a.toNat * (b.toNat * 5) = 5 * (a.toNat * b.toNat) := by ring
    rw [e]
    rw [show (2 ^ 27 + 2 ^ 6) * 2 ^ 26 = 2 ^ 53 + 2 ^ 32 by rfl] at this
    omega
  have q : ∀ (a b : BitVec 32), a.toNat < 2 ^ 27 + 2 ^ 6 → b.toNat < 2 ^ 26 →
      (mul32 a b).toNat ≤ 5 * (2 ^ 53 + 2 ^ 32) := fun a b ha hb =>
    Nat.le_trans (hM a b ha hb) (by omega)
  have e0 := sum5 (mul32 x0 y0) (mul32 x1 (y4 * 5#32)) (mul32 x2 (y3 * 5#32)) (mul32 x3 (y2 * 5#32))
    (mul32 x4 (y1 * 5#32)) (5 * (2 ^ 53 + 2 ^ 32)) (by omega) (q _ _ b0 r0) (hM5 _ _ b1 r4)
    (hM5 _ _ b2 r3) (hM5 _ _ b3 r2) (hM5 _ _ b4 r1)
  have e1 := sum5 (mul32 x0 y1) (mul32 x1 y0) (mul32 x2 (y4 * 5#32)) (mul32 x3 (y3 * 5#32))
    (mul32 x4 (y2 * 5#32)) (5 * (2 ^ 53 + 2 ^ 32)) (by omega) (q _ _ b0 r1) (q _ _ b1 r0)
    (hM5 _ _ b2 r4) (hM5 _ _ b3 r3) (hM5 _ _ b4 r2)
  have e2 := sum5 (mul32 x0 y2) (mul32 x1 y1) (mul32 x2 y0) (mul32 x3 (y4 * 5#32))
    (mul32 x4 (y3 * 5#32)) (5 * (2 ^ 53 + 2 ^ 32)) (by omega) (q _ _ b0 r2) (q _ _ b1 r1)
    (q _ _ b2 r0) (hM5 _ _ b3 r4) (hM5 _ _ b4 r3)
  have e3 := sum5 (mul32 x0 y3) (mul32 x1 y2) (mul32 x2 y1) (mul32 x3 y0)
    (mul32 x4 (y4 * 5#32)) (5 * (2 ^ 53 + 2 ^ 32)) (by omega) (q _ _ b0 r3) (q _ _ b1 r2)
    (q _ _ b2 r1) (q _ _ b3 r0) (hM5 _ _ b4 r4)
  have e4 := sum5 (mul32 x0 y4) (mul32 x1 y3) (mul32 x2 y2) (mul32 x3 y1)
    (mul32 x4 y0) (2 ^ 53 + 2 ^ 32) (by omega) (hM _ _ b0 r4) (hM _ _ b1 r3)
    (hM _ _ b2 r2) (hM _ _ b3 r1) (hM _ _ b4 r0)
  have f0 : (mul32 x0 y0 + mul32 x1 (y4 * 5#32) + mul32 x2 (y3 * 5#32) + mul32 x3 (y2 * 5#32)
      + mul32 x4 (y1 * 5#32)).toNat ≤ 25 * (2 ^ 53 + 2 ^ 32) := by
    have := q _ _ b0 r0; have := hM5 _ _ b1 r4; have := hM5 _ _ b2 r3; have := hM5 _ _ b3 r2
    have := hM5 _ _ b4 r1
    omega
  have f1 : (mul32 x0 y1 + mul32 x1 y0 + mul32 x2 (y4 * 5#32) + mul32 x3 (y3 * 5#32)
      + mul32 x4 (y2 * 5#32)).toNat ≤ 25 * (2 ^ 53 + 2 ^ 32) := by
    have := q _ _ b0 r1; have := q _ _ b1 r0; have := hM5 _ _ b2 r4; have := hM5 _ _ b3 r3
    have := hM5 _ _ b4 r2
    omega
  have f2 : (mul32 x0 y2 + mul32 x1 y1 + mul32 x2 y0 + mul32 x3 (y4 * 5#32)
      + mul32 x4 (y3 * 5#32)).toNat ≤ 25 * (2 ^ 53 + 2 ^ 32) := by
    have := q _ _ b0 r2; have := q _ _ b1 r1; have := q _ _ b2 r0; have := hM5 _ _ b3 r4
    have := hM5 _ _ b4 r3
    omega
  have f3 : (mul32 x0 y3 + mul32 x1 y2 + mul32 x2 y1 + mul32 x3 y0
      + mul32 x4 (y4 * 5#32)).toNat ≤ 25 * (2 ^ 53 + 2 ^ 32) := by
    have := q _ _ b0 r3; have := q _ _ b1 r2; have := q _ _ b2 r1; have := q _ _ b3 r0
    have := hM5 _ _ b4 r4
    omega
  have f4 : (mul32 x0 y4 + mul32 x1 y3 + mul32 x2 y2 + mul32 x3 y1
      + mul32 x4 y0).toNat ≤ 5 * (2 ^ 53 + 2 ^ 32) := by
    have := hM _ _ b0 r4; have := hM _ _ b1 r3; have := hM _ _ b2 r2; have := hM _ _ b3 r1
    have := hM _ _ b4 r0
    omega
  simp only [toNat_mul32, t1, t2, t3, t4] at e0 e1 e2 e3 e4
  rw [← e0, ← e1, ← e2, ← e3, ← e4] at hmul
  simp only [mul]
  generalize mul32 x0 y0 + mul32 x1 (y4 * 5#32) + mul32 x2 (y3 * 5#32) + mul32 x3 (y2 * 5#32)
      + mul32 x4 (y1 * 5#32) = d0 at *
  generalize mul32 x0 y1 + mul32 x1 y0 + mul32 x2 (y4 * 5#32) + mul32 x3 (y3 * 5#32)
      + mul32 x4 (y2 * 5#32) = d1 at *
  generalize mul32 x0 y2 + mul32 x1 y1 + mul32 x2 y0 + mul32 x3 (y4 * 5#32)
      + mul32 x4 (y3 * 5#32) = d2 at *
  generalize mul32 x0 y3 + mul32 x1 y2 + mul32 x2 y1 + mul32 x3 y0
      + mul32 x4 (y4 * 5#32) = d3 at *
  generalize mul32 x0 y4 + mul32 x1 y3 + mul32 x2 y2 + mul32 x3 y1
      + mul32 x4 y0 = d4 at *
  clear e0 e1 e2 e3 e4 hM hM5 q t1 t2 t3 t4
  have hchain := carry_chain d0.toNat d1.toNat d2.toNat d3.toNat d4.toNat
  simp only [] at hchain
  -- the machine words of the carry chain
  have g1 : (d1 + d0 >>> 26).toNat = d1.toNat + d0.toNat / 2 ^ 26 := by
    rw [BitVec.toNat_add, shr26_64]; omega
  generalize hE1 : d1 + d0 >>> 26 = E1 at *
  have g2 : (d2 + E1 >>> 26).toNat = d2.toNat + E1.toNat / 2 ^ 26 := by
    rw [BitVec.toNat_add, shr26_64]; omega
  generalize hE2 : d2 + E1 >>> 26 = E2 at *
  have g3 : (d3 + E2 >>> 26).toNat = d3.toNat + E2.toNat / 2 ^ 26 := by
    rw [BitVec.toNat_add, shr26_64]; omega
  generalize hE3 : d3 + E2 >>> 26 = E3 at *
  have g4 : (d4 + E3 >>> 26).toNat = d4.toNat + E3.toNat / 2 ^ 26 := by
    rw [BitVec.toNat_add, shr26_64]; omega
  generalize hE4 : d4 + E3 >>> 26 = E4 at *
  have gc : ((E4 >>> 26).setWidth 32).toNat = E4.toNat / 2 ^ 26 := by
    rw [BitVec.toNat_setWidth, shr26_64]; omega
  have g0 : ((d0 &&& 0x3ffffff#64).setWidth 32 + (E4 >>> 26).setWidth 32 * 5#32).toNat
      = d0.toNat % 2 ^ 26 + E4.toNat / 2 ^ 26 * 5 := by
    rw [BitVec.toNat_add, BitVec.toNat_mul, gc, BitVec.toNat_setWidth, and_mask64]
    simp only [BitVec.toNat_ofNat]
    omega
  generalize hF0 : (d0 &&& 0x3ffffff#64).setWidth 32 + (E4 >>> 26).setWidth 32 * 5#32 = F0 at *
  have gh1 : ((E1 &&& 0x3ffffff#64).setWidth 32 + F0 >>> 26).toNat
      = E1.toNat % 2 ^ 26 + F0.toNat / 2 ^ 26 := by
    rw [BitVec.toNat_add, BitVec.toNat_setWidth, and_mask64, shr_32]; omega
  have hs : ∀ x : BitVec 64, ((x &&& 0x3ffffff#64).setWidth 32).toNat = x.toNat % 2 ^ 26 := by
    intro x
    rw [BitVec.toNat_setWidth, and_mask64]; omega
  have hF : F0.toNat < 2 ^ 32 := F0.isLt
  constructor
  · refine ⟨?_, ?_, ?_, ?_, ?_⟩
    · simp only [and_mask32]; omega
    · simp only [gh1]; omega
    · simp only [hs]; omega
    · simp only [hs]; omega
    · simp only [hs]; omega
  · simp only [L5.val, and_mask32, gh1, hs]
    rw [hmul]
    rw [g0, g4, g3, g2, g1]
    rw [hchain]
    rw [Nat.add_mul_mod_self_left, Nat.add_mul_mod_self_left]

/-! ### No overflow -/

theorem cadd_ok {n : Nat} {a b : BitVec n} (h : a.toNat + b.toNat < 2 ^ n) :
    cadd a b = some (a + b) ∧ (a + b).toNat = a.toNat + b.toNat :=
  ⟨if_pos h, by rw [BitVec.toNat_add, Nat.mod_eq_of_lt h]⟩

theorem crow_ok (a0 b0 a1 b1 a2 b2 a3 b3 a4 b4 : BitVec 32)
    (h : a0.toNat < 2 ^ 27 + 2 ^ 6 ∧ a1.toNat < 2 ^ 27 + 2 ^ 6 ∧ a2.toNat < 2 ^ 27 + 2 ^ 6 ∧
      a3.toNat < 2 ^ 27 + 2 ^ 6 ∧ a4.toNat < 2 ^ 27 + 2 ^ 6) (B : Nat) (hB : B ≤ 5)
    (k : b0.toNat < B * 2 ^ 26 ∧ b1.toNat < B * 2 ^ 26 ∧ b2.toNat < B * 2 ^ 26 ∧
      b3.toNat < B * 2 ^ 26 ∧ b4.toNat < B * 2 ^ 26) :
    crow a0 b0 a1 b1 a2 b2 a3 b3 a4 b4 =
      some (mul32 a0 b0 + mul32 a1 b1 + mul32 a2 b2 + mul32 a3 b3 + mul32 a4 b4) ∧
    (mul32 a0 b0 + mul32 a1 b1 + mul32 a2 b2 + mul32 a3 b3 + mul32 a4 b4).toNat
      ≤ 5 * B * (2 ^ 53 + 2 ^ 32) := by
  have one : ∀ a b : BitVec 32, a.toNat < 2 ^ 27 + 2 ^ 6 → b.toNat < B * 2 ^ 26 →
      cmul32 a b = some (mul32 a b) ∧ (mul32 a b).toNat ≤ B * (2 ^ 53 + 2 ^ 32) := by
    intro a b ha hb
    have hp := prod_le ha hb
    have e : (2 ^ 27 + 2 ^ 6) * (B * 2 ^ 26) = B * (2 ^ 53 + 2 ^ 32) := by ring
    rw [e] at hp
    have e2 : ∀ x : BitVec 32, (x.setWidth 64).toNat = x.toNat := by
      intro x
      have := x.isLt
      rw [BitVec.toNat_setWidth]; omega
    refine ⟨?_, by rw [toNat_mul32]; exact hp⟩
    rw [cmul32, cmul, if_pos (by rw [e2, e2]; omega)]; rfl
  obtain ⟨h0, h1, h2, h3, h4⟩ := h
  obtain ⟨k0, k1, k2, k3, k4⟩ := k
  obtain ⟨p0, q0⟩ := one a0 b0 h0 k0
  obtain ⟨p1, q1⟩ := one a1 b1 h1 k1
  obtain ⟨p2, q2⟩ := one a2 b2 h2 k2
  obtain ⟨p3, q3⟩ := one a3 b3 h3 k3
  obtain ⟨p4, q4⟩ := one a4 b4 h4 k4
  rw [crow, p0, p1, p2, p3, p4]
  simp only [Option.bind_eq_bind, Option.bind_some, csum5]
  generalize mul32 a0 b0 = w0 at *
  generalize mul32 a1 b1 = w1 at *
  generalize mul32 a2 b2 = w2 at *
  generalize mul32 a3 b3 = w3 at *
  generalize mul32 a4 b4 = w4 at *
  obtain ⟨c1, v1⟩ := cadd_ok (a := w0) (b := w1) (by omega)
  rw [c1]; simp only [Option.bind_some]
  obtain ⟨c2, v2⟩ := cadd_ok (a := w0 + w1) (b := w2) (by omega)
  rw [c2]; simp only [Option.bind_some]
  obtain ⟨c3, v3⟩ := cadd_ok (a := w0 + w1 + w2) (b := w3) (by omega)
  rw [c3]; simp only [Option.bind_some]
  obtain ⟨c4, v4⟩ := cadd_ok (a := w0 + w1 + w2 + w3) (b := w4) (by omega)
  rw [c4]
  exact ⟨rfl, by omega⟩

/-- None of the plain additions and multiplications of `mul` overflows. -/
theorem mulChecked_ok (h r : L5) (hr : Limbs r) (b0 : h.x0.toNat < 2 ^ 27 + 2 ^ 6)
    (b1 : h.x1.toNat < 2 ^ 27 + 2 ^ 6) (b2 : h.x2.toNat < 2 ^ 27 + 2 ^ 6)
    (b3 : h.x3.toNat < 2 ^ 27 + 2 ^ 6) (b4 : h.x4.toNat < 2 ^ 27 + 2 ^ 6) :
    mulChecked h r ⟨r.x1 * 5#32, r.x2 * 5#32, r.x3 * 5#32, r.x4 * 5#32⟩ =
      some (mul h r ⟨r.x1 * 5#32, r.x2 * 5#32, r.x3 * 5#32, r.x4 * 5#32⟩) := by
  obtain ⟨r0, r1, r2, r3, r4⟩ := hr
  obtain ⟨x0, x1, x2, x3, x4⟩ := h
  obtain ⟨y0, y1, y2, y3, y4⟩ := r
  simp only at b0 b1 b2 b3 b4 r0 r1 r2 r3 r4
  have t1 := times5 r1
  have t2 := times5 r2
  have t3 := times5 r3
  have t4 := times5 r4
  simp only [mulChecked, mul]
  generalize y1 * 5#32 = s1 at *
  generalize y2 * 5#32 = s2 at *
  generalize y3 * 5#32 = s3 at *
  generalize y4 * 5#32 = s4 at *
  obtain ⟨c0, d0⟩ := crow_ok x0 y0 x1 s4 x2 s3 x3 s2 x4 s1 (by omega) 5 (by omega) (by omega)
  obtain ⟨c1, d1⟩ := crow_ok x0 y1 x1 y0 x2 s4 x3 s3 x4 s2 (by omega) 5 (by omega) (by omega)
  obtain ⟨c2, d2⟩ := crow_ok x0 y2 x1 y1 x2 y0 x3 s4 x4 s3 (by omega) 5 (by omega) (by omega)
  obtain ⟨c3, d3⟩ := crow_ok x0 y3 x1 y2 x2 y1 x3 y0 x4 s4 (by omega) 5 (by omega) (by omega)
  obtain ⟨c4, d4⟩ := crow_ok x0 y4 x1 y3 x2 y2 x3 y1 x4 y0 (by omega) 1 (by omega) (by omega)
  rw [c0, c1, c2, c3, c4]
  generalize mul32 x0 y0 + _ + _ + _ + _ = D0 at *
  generalize mul32 x0 y1 + _ + _ + _ + _ = D1 at *
  generalize mul32 x0 y2 + _ + _ + _ + _ = D2 at *
  generalize mul32 x0 y3 + _ + _ + _ + _ = D3 at *
  generalize mul32 x0 y4 + _ + _ + _ + _ = D4 at *
  simp only [Option.bind_eq_bind, Option.bind_some, Option.pure_def]
  have sh : ∀ x : BitVec 64, (x >>> 26).toNat = x.toNat / 2 ^ 26 := shr26_64
  obtain ⟨e1, v1⟩ := cadd_ok (a := D1) (b := D0 >>> 26) (by rw [sh]; omega)
  rw [e1]; rw [sh] at v1; simp only [Option.bind_some]
  generalize D1 + D0 >>> 26 = E1 at *
  obtain ⟨e2, v2⟩ := cadd_ok (a := D2) (b := E1 >>> 26) (by rw [sh]; omega)
  rw [e2]; rw [sh] at v2; simp only [Option.bind_some]
  generalize D2 + E1 >>> 26 = E2 at *
  obtain ⟨e3, v3⟩ := cadd_ok (a := D3) (b := E2 >>> 26) (by rw [sh]; omega)
  rw [e3]; rw [sh] at v3; simp only [Option.bind_some]
  generalize D3 + E2 >>> 26 = E3 at *
  obtain ⟨e4, v4⟩ := cadd_ok (a := D4) (b := E3 >>> 26) (by rw [sh]; omega)
  rw [e4]; rw [sh] at v4; simp only [Option.bind_some]
  generalize D4 + E3 >>> 26 = E4 at *
  have gc : ((E4 >>> 26).setWidth 32).toNat = E4.toNat / 2 ^ 26 := by
    rw [BitVec.toNat_setWidth, sh]; omega
  have hs : ∀ x : BitVec 64, ((x &&& 0x3ffffff#64).setWidth 32).toNat = x.toNat % 2 ^ 26 := by
    intro x
    rw [BitVec.toNat_setWidth, and_mask64]; omega
  have e5 : cmul ((E4 >>> 26).setWidth 32) 5#32 = some ((E4 >>> 26).setWidth 32 * 5#32) :=
    if_pos (by rw [gc]; simp only [BitVec.toNat_ofNat]; omega)
  have v5 : ((E4 >>> 26).setWidth 32 * 5#32 : BitVec 32).toNat = E4.toNat / 2 ^ 26 * 5 := by
    rw [BitVec.toNat_mul, gc]; simp only [BitVec.toNat_ofNat]; omega
  rw [e5]; simp only [Option.bind_some]
  obtain ⟨e6, v6⟩ := cadd_ok (a := (D0 &&& 0x3ffffff#64).setWidth 32)
    (b := (E4 >>> 26).setWidth 32 * 5#32) (by rw [hs, v5]; omega)
  rw [e6]; simp only [Option.bind_some]
  obtain ⟨e7, v7⟩ := cadd_ok (a := (E1 &&& 0x3ffffff#64).setWidth 32)
    (b := ((D0 &&& 0x3ffffff#64).setWidth 32 + (E4 >>> 26).setWidth 32 * 5#32) >>> 26)
    (by rw [hs, shr_32]; omega)
  rw [e7]; rfl

end Verif.Poly1305
