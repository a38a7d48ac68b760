import Verif.Proof.X86.Env
import Verif.Spec.Ed25519

/-!
One step of the reduction modulo the order of curve25519, as `bignum_mod_n25519` and `bignum_madd_n25519` do it.
-/
namespace Verif.X86.R25519
open Verif

/-- The order less `2^252`, in words. -/
def C0 : Word := 0x5812631a5cf5d3ed#64
def C1 : Word := 0x14def9dea2f79cd6#64
/-- The words of `q` times that. -/
def t0 (q : Word) : Word := mullo C0 q
def t1 (q : Word) : Word := adcv (mulhi C0 q) (mullo C1 q) false
def t2 (q : Word) : Word := adcv (mulhi C1 q) 0#64 (adcc (mulhi C0 q) (mullo C1 q) false)

section
variable (a b c d q : Word)
/-- The difference, and its borrows. -/
def b0 : Bool := sbbc a (t0 q) false
def b1 : Bool := sbbc b (t1 q) (b0 a q)
def b2 : Bool := sbbc c (t2 q) (b1 a b q)
def b3 : Bool := sbbc d 0#64 (b2 a b c q)
def d0 : Word := sbbv a (t0 q) false
def d1 : Word := sbbv b (t1 q) (b0 a q)
def d2 : Word := sbbv c (t2 q) (b1 a b q)
def d3 : Word := sbbv d 0#64 (b2 a b c q)
def m : Word := msk (b3 a b c d q)
/-- The order is added if the difference is negative. -/
def m0 : Word := C0 &&& m a b c d q
def m1 : Word := C1 &&& m a b c d q
def m3 : Word := 0x1000000000000000#64 &&& m0 a b c d q
def k0 : Bool := adcc (d0 a q) (m0 a b c d q) false
def k1 : Bool := adcc (d1 a b q) (m1 a b c d q) (k0 a b c d q)
def k2 : Bool := adcc (d2 a b c q) 0#64 (k1 a b c d q)
def e0 : Word := adcv (d0 a q) (m0 a b c d q) false
def e1 : Word := adcv (d1 a b q) (m1 a b c d q) (k0 a b c d q)
def e2 : Word := adcv (d2 a b c q) 0#64 (k1 a b c d q)
def e3 : Word := adcv (d3 a b c d q) (m3 a b c d q) (k2 a b c d q)
/-- The result. -/
def red : Words := [e0 a b c d q, e1 a b c d q, e2 a b c d q, e3 a b c d q]
end

/-- The order less `2^252`. -/
def cc : Nat := 0x14def9dea2f79cd65812631a5cf5d3ed

theorem times (q : Word) : (t0 q).toNat + 2 ^ 64 * (t1 q).toNat + 2 ^ 128 * (t2 q).toNat = q.toNat * cc := by
  have h0 := mul_val C0 q
  have h1 := mul_val C1 q
  have h2 := adc_val (mulhi C0 q) (mullo C1 q) false
  have h3 := adc_val (mulhi C1 q) 0#64 (adcc (mulhi C0 q) (mullo C1 q) false)
  rw [show C0.toNat = 0x5812631a5cf5d3ed from by decide] at h0
  rw [show C1.toNat = 0x14def9dea2f79cd6 from by decide] at h1
  rw [show (0#64 : Word).toNat = 0 from rfl] at h3
  rw [show Bool.toNat false = 0 from rfl] at h2
  show (mullo C0 q).toNat + 2 ^ 64 * (adcv (mulhi C0 q) (mullo C1 q) false).toNat + 2 ^ 128 * (adcv (mulhi C1 q) 0#64 _).toNat = _ * 0x14def9dea2f79cd65812631a5cf5d3ed
  generalize adcc (mulhi C0 q) (mullo C1 q) false = c1 at *
  generalize adcv (mulhi C0 q) (mullo C1 q) false = v1 at *
  generalize adcc (mulhi C1 q) 0#64 c1 = c2 at *
  generalize adcv (mulhi C1 q) 0#64 c1 = v2 at *
  generalize mullo C0 q = l0 at *
  generalize mullo C1 q = l1 at *
  generalize mulhi C0 q = g0 at *
  generalize mulhi C1 q = g1 at *
  have := q.isLt
  have := l0.isLt
  have := l1.isLt
  have := g0.isLt
  have := v1.isLt
  have := v2.isLt
  have := Bool.toNat_le c1
  have := Bool.toNat_le c2
  omega

theorem diff (a b c d q : Word) : val [d0 a q, d1 a b q, d2 a b c q, d3 a b c d q] + q.toNat * cc =
    val [a, b, c, d] + 2 ^ 256 * (b3 a b c d q).toNat := by
  have h0 : (d0 a q).toNat + (t0 q).toNat + 0 = a.toNat + 2 ^ 64 * (b0 a q).toNat := sbb_val a (t0 q) false
  have h1 : (d1 a b q).toNat + (t1 q).toNat + (b0 a q).toNat = b.toNat + 2 ^ 64 * (b1 a b q).toNat := sbb_val b (t1 q) (b0 a q)
  have h2 : (d2 a b c q).toNat + (t2 q).toNat + (b1 a b q).toNat = c.toNat + 2 ^ 64 * (b2 a b c q).toNat := sbb_val c (t2 q) (b1 a b q)
  have h3 : (d3 a b c d q).toNat + 0 + (b2 a b c q).toNat = d.toNat + 2 ^ 64 * (b3 a b c d q).toNat := sbb_val d 0#64 (b2 a b c q)
  have h := times q
  simp only [val]
  omega

theorem red_val (a b c d q : Word) (h : val [a, b, c, d] < q.toNat * cc + (2 ^ 252 + cc)) :
    val (red a b c d q) < 2 ^ 252 + cc ∧
      val (red a b c d q) + q.toNat * cc = val [a, b, c, d] + (2 ^ 252 + cc) * (b3 a b c d q).toNat := by
  have hd := diff a b c d q
  have h0 : (e0 a b c d q).toNat + 2 ^ 64 * (k0 a b c d q).toNat = (d0 a q).toNat + (m0 a b c d q).toNat + 0 := adc_val _ _ _
  have h1 : (e1 a b c d q).toNat + 2 ^ 64 * (k1 a b c d q).toNat = (d1 a b q).toNat + (m1 a b c d q).toNat + (k0 a b c d q).toNat := adc_val _ _ _
  have h2 : (e2 a b c d q).toNat + 2 ^ 64 * (k2 a b c d q).toNat = (d2 a b c q).toNat + 0 + (k1 a b c d q).toNat := adc_val _ _ _
  have h3 : (e3 a b c d q).toNat + 2 ^ 64 * (adcc (d3 a b c d q) (m3 a b c d q) (k2 a b c d q)).toNat =
    (d3 a b c d q).toNat + (m3 a b c d q).toNat + (k2 a b c d q).toNat := adc_val _ _ _
  have hq := q.isLt
  have i0 := (e0 a b c d q).isLt
  have i1 := (e1 a b c d q).isLt
  have i2 := (e2 a b c d q).isLt
  have i3 := (e3 a b c d q).isLt
  have hm : (m0 a b c d q).toNat + 2 ^ 64 * (m1 a b c d q).toNat + 2 ^ 192 * (m3 a b c d q).toNat =
      (2 ^ 252 + cc) * (b3 a b c d q).toNat := by
    unfold m3 m1 m0 m
    cases b3 a b c d q <;> decide +kernel
  have hk := Bool.toNat_le (adcc (d3 a b c d q) (m3 a b c d q) (k2 a b c d q))
  have hb := Bool.toNat_le (b3 a b c d q)
  generalize adcc (d3 a b c d q) (m3 a b c d q) (k2 a b c d q) = k3 at *
  have key : val (red a b c d q) + 2 ^ 256 * k3.toNat = val [d0 a q, d1 a b q, d2 a b c q, d3 a b c d q] +
      (2 ^ 252 + cc) * (b3 a b c d q).toNat := by
    rw [← hm]
    simp only [red, val]
    omega
  have hv : val (red a b c d q) < 2 ^ 256 := val_lt _
  have hv' : val [d0 a q, d1 a b q, d2 a b c q, d3 a b c d q] < 2 ^ 256 := val_lt _
  have hcc : q.toNat * cc < 2 ^ 190 := by
    have : q.toNat * cc < 2 ^ 64 * cc := Nat.mul_lt_mul_of_pos_right hq (by decide)
    exact Nat.lt_trans this (by decide +kernel)
  rw [show cc = 27742317777372353535851937790883648493 from rfl] at *
  clear h0 h1 h2 h3 hm i0 i1 i2 i3
  generalize val (red a b c d q) = r at *
  generalize val [d0 a q, d1 a b q, d2 a b c q, d3 a b c d q] = D at *
  generalize val [a, b, c, d] = N at *
  generalize b3 a b c d q = bb at *
  cases bb <;> cases k3 <;> simp only [Bool.toNat_true, Bool.toNat_false] at * <;> omega

/-- The remainder of `N + 2^252 q`. -/
theorem red_mod (a b c d q : Word) (h : val [a, b, c, d] < q.toNat * cc + (2 ^ 252 + cc)) :
    val (red a b c d q) = (val [a, b, c, d] + 2 ^ 252 * q.toNat) % Spec.Ed25519.L := by
  obtain ⟨h1, h2⟩ := red_val a b c d q h
  have hL : Spec.Ed25519.L = 2 ^ 252 + cc := by decide +kernel
  rw [hL]
  have e : val [a, b, c, d] + 2 ^ 252 * q.toNat + (2 ^ 252 + cc) * (b3 a b c d q).toNat = val (red a b c d q) + (2 ^ 252 + cc) * q.toNat := by
    rw [Nat.add_right_comm, ← h2]
    ring
  have := congrArg (· % (2 ^ 252 + cc)) e
  simp only [Nat.add_mul_mod_self_left] at this
  rw [this, Nat.mod_eq_of_lt h1]

/-! ### The quotient -/

theorem join4 (x y : Word) : ((x <<< 4) ||| (y >>> 60)).toNat = 16 * x.toNat % 2 ^ 64 + y.toNat / 2 ^ 60 := by
  have hy := y.isLt
  rw [BitVec.toNat_or, BitVec.toNat_shiftLeft, BitVec.toNat_ushiftRight, Nat.shiftRight_eq_div_pow, Nat.shiftLeft_eq,
    show x.toNat * 2 ^ 4 % 2 ^ 64 = (x.toNat % 2 ^ 60) <<< 4 by rw [Nat.shiftLeft_eq]; omega,
    ← Nat.shiftLeft_add_eq_or_of_lt (by omega), Nat.shiftLeft_eq]
  omega

theorem cut4 (y : Word) : ((y <<< 4) >>> 4).toNat = y.toNat % 2 ^ 60 := by
  rw [BitVec.toNat_ushiftRight, BitVec.toNat_shiftLeft, Nat.shiftRight_eq_div_pow, Nat.shiftLeft_eq]
  omega

theorem top4 (y : Word) : (y >>> 60).toNat = y.toNat / 2 ^ 60 := by
  rw [BitVec.toNat_ushiftRight, Nat.shiftRight_eq_div_pow]

theorem put4 (y h : Word) (hh : h.toNat < 16) : (((y <<< 4) >>> 4) ||| (h <<< 60)).toNat = y.toNat % 2 ^ 60 + 2 ^ 60 * h.toNat := by
  rw [BitVec.toNat_or, cut4, BitVec.toNat_shiftLeft, Nat.shiftLeft_eq, Nat.mod_eq_of_lt (a := h.toNat * 2 ^ 60) (by omega), Nat.or_comm, ← Nat.shiftLeft_eq,
    ← Nat.shiftLeft_add_eq_or_of_lt (by omega), Nat.shiftLeft_eq]
  omega

/-- The first step, on four words. -/
theorem first (a b c d : Word) : val (red a b c ((d <<< 4) >>> 4) (d >>> 60)) = val [a, b, c, d] % Spec.Ed25519.L := by
  have ha := a.isLt
  have hb := b.isLt
  have hc := c.isLt
  rw [red_mod]
  · congr 1
    simp only [val, cut4, top4]
    omega
  · simp only [val, cut4]
    have : cc = 27742317777372353535851937790883648493 := rfl
    omega

/-- A step with a further word. -/
theorem more (w a b c d : Word) (h : val [a, b, c, d] < Spec.Ed25519.L) :
    val (red w a b (((c <<< 4) >>> 4) ||| ((d >>> 60) <<< 60)) (sbbv ((d <<< 4) ||| (c >>> 60)) (d >>> 60) false)) =
      (w.toNat + 2 ^ 64 * val [a, b, c, d]) % Spec.Ed25519.L := by
  have hw := w.isLt
  have ha := a.isLt
  have hb := b.isLt
  have hc := c.isLt
  have hd := d.isLt
  have ht := top4 d
  have hp := put4 c (d >>> 60) (by rw [ht]; omega)
  have hj := join4 d c
  have hs := sbb_val ((d <<< 4) ||| (c >>> 60)) (d >>> 60) false
  have hbb := Bool.toNat_le (sbbc ((d <<< 4) ||| (c >>> 60)) (d >>> 60) false)
  have hq := (sbbv ((d <<< 4) ||| (c >>> 60)) (d >>> 60) false).isLt
  rw [show Bool.toNat false = 0 from rfl, hj, ht] at hs
  rw [ht] at hp
  rw [show Spec.Ed25519.L = 2 ^ 252 + 27742317777372353535851937790883648493 from rfl] at h
  simp only [val] at h
  generalize (((c <<< 4) >>> 4) ||| ((d >>> 60) <<< 60)) = c' at *
  generalize sbbv ((d <<< 4) ||| (c >>> 60)) (d >>> 60) false = q at *
  generalize (sbbc ((d <<< 4) ||| (c >>> 60)) (d >>> 60) false).toNat = bb at *
  have hdd : d.toNat < 2 ^ 60 ∨ (d.toNat = 2 ^ 60 ∧ c.toNat = 0) := by omega
  rw [red_mod]
  · congr 1
    simp only [val]
    rcases hdd with h1 | ⟨h1, h2⟩ <;> omega
  · simp only [val]
    rw [show cc = 27742317777372353535851937790883648493 from rfl]
    rcases hdd with h1 | ⟨h1, h2⟩
    · have : d.toNat / 2 ^ 60 = 0 := by omega
      have : c'.toNat < 2 ^ 60 := by omega
      clear h hs hp hj
      omega
    · have : q.toNat = 2 ^ 64 - 1 := by omega
      omega

end Verif.X86.R25519
