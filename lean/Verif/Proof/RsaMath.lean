import Verif.Spec.Rsa
import Mathlib.FieldTheory.Finite.Basic
import Mathlib.Data.Nat.ModEq
import Mathlib.Tactic.Ring

/-!
The number theory behind RSA.
-/
namespace Verif.RsaMath

theorem pow_cong {p : Nat} (hp : p.Prime) (x : Nat) {k : Nat} (h : k % (p - 1) = 1) : x ^ k ≡ x [MOD p] := by
  by_cases hx : p ∣ x
  · have h0 : x ≡ 0 [MOD p] := (Nat.modEq_zero_iff_dvd).2 hx
    have hk : k ≠ 0 := by rintro rfl; simp at h
    have := h0.pow k
    rw [zero_pow hk] at this
    exact this.trans h0.symm
  · have hc : Nat.Coprime x p := ((Nat.Prime.coprime_iff_not_dvd hp).2 hx).symm
    have hf := Nat.ModEq.pow_totient hc
    rw [Nat.totient_prime hp] at hf
    have e : x ^ k = (x ^ (p - 1)) ^ (k / (p - 1)) * x := by
      conv_lhs => rw [← Nat.div_add_mod k (p - 1), h]
      rw [pow_add, pow_mul, pow_one]
    rw [e]
    have := (hf.pow (k / (p - 1))).mul_right x
    rwa [one_pow, one_mul] at this

/-- Raising to `e` undoes raising to `d`. -/
theorem pow_pow {p e d : Nat} (hp : p.Prime) (h : e * d % (p - 1) = 1) (x : Nat) : (x ^ d) ^ e ≡ x [MOD p] := by
  rw [← pow_mul, Nat.mul_comm d e]; exact pow_cong hp x h

theorem pow_inj {p e d : Nat} (hp : p.Prime) (h : e * d % (p - 1) = 1) {x y : Nat} (hxy : x ^ e ≡ y ^ e [MOD p]) :
    x ≡ y [MOD p] := by
  have hx := pow_pow hp (show d * e % (p - 1) = 1 by rw [Nat.mul_comm]; exact h) x
  have hy := pow_pow hp (show d * e % (p - 1) = 1 by rw [Nat.mul_comm]; exact h) y
  exact hx.symm.trans ((hxy.pow d).trans hy)

theorem coprime_of {p q : Nat} (hp : p.Prime) (hq : q.Prime) (h : p ≠ q) : Nat.Coprime p q := (Nat.coprime_primes hp hq).2 h

/-- What steps i to iv of RSADP give. -/
theorem crt_value {p q m1 m2 h qInv : Nat} (hm2 : m2 < q) (hh : h < p) (hq : q * qInv % p = 1) (h1 : 1 < p) {s : Nat}
    (hs : s + m2 ≡ m1 [MOD p]) (hc : h ≡ s * qInv [MOD p]) :
    m2 + q * h < p * q ∧ m2 + q * h ≡ m1 [MOD p] ∧ m2 + q * h ≡ m2 [MOD q] := by
  refine ⟨?_, ?_, ?_⟩
  · have : q * h + q ≤ q * p := by rw [← Nat.mul_succ]; exact Nat.mul_le_mul_left q hh
    rw [Nat.mul_comm p q]; omega
  · have hq' : q * qInv ≡ 1 [MOD p] := by rw [Nat.ModEq, hq, Nat.mod_eq_of_lt h1]
    have a : q * h ≡ s [MOD p] := by
      refine (hc.mul_left q).trans ?_
      rw [show q * (s * qInv) = s * (q * qInv) by ring]
      simpa using hq'.mul_left s
    have := a.add_left m2
    rw [Nat.add_comm m2 s] at this
    exact this.trans hs
  · rw [Nat.ModEq, Nat.add_mul_mod_self_left]

/-- The same without the bound on `h`: only the residue. -/
theorem crt_residue {p q m2 h qInv : Nat} (hq : q * qInv % p = 1) (h1 : 1 < p) {s : Nat} (hc : h ≡ s * qInv [MOD p]) :
    m2 + q * h ≡ s + m2 [MOD p] := by
  have hq' : q * qInv ≡ 1 [MOD p] := by rw [Nat.ModEq, hq, Nat.mod_eq_of_lt h1]
  have a : q * h ≡ s [MOD p] := by
    refine (hc.mul_left q).trans ?_
    rw [show q * (s * qInv) = s * (q * qInv) by ring]
    simpa using hq'.mul_left s
  rw [Nat.add_comm s m2]
  exact a.add_left m2

/-- RSADP inverts RSAEP, and nothing else does. -/
theorem rsa_inverse {p q e dp dq c m : Nat} (hp : p.Prime) (hq : q.Prime) (hne : p ≠ q) (h1 : e * dp % (p - 1) = 1)
    (h2 : e * dq % (q - 1) = 1) (hc : c < p * q) (m1 : m ≡ c ^ dp [MOD p]) (m2 : m ≡ c ^ dq [MOD q]) :
    m ^ e % (p * q) = c ∧ ∀ x, x < p * q → x ^ e % (p * q) = c → x ≡ m [MOD p * q] := by
  have hco := coprime_of hp hq hne
  have key : m ^ e ≡ c [MOD p * q] := by
    rw [← Nat.modEq_and_modEq_iff_modEq_mul hco]
    exact ⟨(m1.pow e).trans (pow_pow hp h1 c), (m2.pow e).trans (pow_pow hq h2 c)⟩
  have e1 : m ^ e % (p * q) = c := by rw [key, Nat.mod_eq_of_lt hc]
  refine ⟨e1, ?_⟩
  intro x _ hxe
  have k2 : x ^ e ≡ m ^ e [MOD p * q] := by rw [Nat.ModEq, hxe, e1]
  rw [← Nat.modEq_and_modEq_iff_modEq_mul hco] at k2 ⊢
  exact ⟨pow_inj hp h1 k2.1, pow_inj hq h2 k2.2⟩

/-- Exponents modulo `p - 1` from one modulo the least common multiple. -/
theorem exp_of_lcm {e d a b : Nat} (ha : 1 < a) (h : e * d % Nat.lcm a b = 1) : e * d % a = 1 := by
  have hd : a ∣ Nat.lcm a b := Nat.dvd_lcm_left a b
  rw [← Nat.mod_mod_of_dvd (e * d) hd, h, Nat.mod_eq_of_lt ha]

end Verif.RsaMath
