import Verif.Model.Bignum
import Verif.Proof.Mont

/-!
A reference implementation that meets the contract of the multi-word primitives, so that the contract is not empty.
-/
namespace Verif.Bignum
open Verif

/-- `x / 2^e mod m` for odd `m`. -/
def divPow (x m e : Nat) : Nat := x * ((m + 1) / 2) ^ e % m
/-- `-1/x mod 2^e` for odd `x`. -/
def negInv (x e : Nat) : Nat := x ^ (2 ^ e - 1) * (2 ^ e - 1) % 2 ^ e
/-- `1/a mod b`, by search. -/
def invMod (a b : Nat) : Nat := ((List.range b).find? fun z => a * z % b == 1).getD 0

/-- The reference. -/
def ref : Asm where
  modadd x y m := toWords m.length ((val x + val y) % val m)
  montifier m := toWords m.length (2 ^ (128 * m.length) % val m)
  montmul x y m := toWords m.length (divPow (val x * val y) (val m) (64 * m.length))
  montsqr x m := toWords m.length (divPow (val x * val x) (val m) (64 * m.length))
  negmodinv x := toWords x.length (negInv (val x) (64 * x.length))
  emontredc8n z m _ :=
    let q := val z * negInv (val m) (64 * m.length) % 2 ^ (64 * m.length)
    (toWords z.length (val z + q * val m), BitVec.ofNat 64 ((val z + q * val m) / 2 ^ (64 * z.length)))
  montredc x m p := toWords m.length (divPow (val x) (val m) (64 * p))
  demont x m := toWords m.length (divPow (val x) (val m) (64 * m.length))
  modinv a b := toWords b.length (invMod (val a) (val b))

theorem divPow_ok (x e : Nat) {m : Nat} (h : m % 2 = 1) : divPow x m e < m ∧ divPow x m e * 2 ^ e % m = x % m := by
  refine ⟨Nat.mod_lt _ (by omega), ?_⟩
  rw [divPow, Nat.mod_mul_mod, Nat.mul_assoc, ← Nat.mul_pow, show (m + 1) / 2 * 2 = m + 1 by omega, Nat.mul_mod, Nat.pow_mod,
    Nat.add_mod_left]
  rcases Nat.lt_or_ge 1 m with h1 | h1
  · rw [Nat.mod_eq_of_lt h1, Nat.one_pow, Nat.mod_eq_of_lt h1, Nat.mul_one, Nat.mod_mod]
  · have : m = 1 := by omega
    subst this; simp [Nat.mod_one]

theorem pow_two_pow (x e : Nat) (h : x % 2 = 1) : x ^ 2 ^ e % 2 ^ e = 1 % 2 ^ e := by
  induction e with
  | zero => simp [Nat.mod_one]
  | succ e ih =>
    have hle : 1 ≤ x ^ 2 ^ e := Nat.one_le_pow _ _ (by omega)
    obtain ⟨t, ht⟩ : 2 ^ e ∣ x ^ 2 ^ e - 1 := (Nat.modEq_iff_dvd' hle).1 (Eq.symm ih)
    have e1 : x ^ 2 ^ e = 1 + 2 ^ e * t := by omega
    have hodd : (x ^ 2 ^ e) % 2 = 1 := by rw [Nat.pow_mod, h, Nat.one_pow]
    rw [show 2 ^ (e + 1) = 2 ^ e * 2 by ring, Nat.pow_mul, e1]
    rw [show (1 + 2 ^ e * t) ^ 2 = 1 + 2 ^ e * t * (1 + (1 + 2 ^ e * t)) by ring]
    have h3 : 2 ∣ 1 + (1 + 2 ^ e * t) := by rw [e1] at hodd; omega
    obtain ⟨s, hs⟩ := h3
    rw [hs, show 1 + 2 ^ e * t * (2 * s) = 1 + 2 ^ e * 2 * (t * s) by ring, Nat.add_mul_mod_self_left]

theorem negInv_ok {x e : Nat} (h : x % 2 = 1) : (x * negInv x e + 1) % 2 ^ e = 0 := by
  have hp := Nat.two_pow_pos e
  have h1 := pow_two_pow x e h
  rw [negInv, Nat.add_mod, Nat.mul_mod_mod, ← Nat.mul_assoc, ← Nat.pow_succ', show Nat.succ (2 ^ e - 1) = 2 ^ e by omega, Nat.mul_mod, h1,
    ← Nat.mul_mod, Nat.one_mul, ← Nat.add_mod, Nat.sub_add_cancel hp, Nat.mod_self]

theorem invMod_ok {a b : Nat} (hb : 1 < b) (hg : Nat.gcd a b = 1) : invMod a b < b ∧ a * invMod a b % b = 1 := by
  obtain ⟨m, hm, h⟩ := Nat.exists_mul_mod_eq_one_of_coprime hg hb
  rw [invMod]
  rcases hf : (List.range b).find? fun z => a * z % b == 1 with _ | z
  · have := List.find?_eq_none.1 hf m (by simpa using hm)
    simp [h] at this
  · have h1 := List.find?_some hf
    have h2 := List.mem_of_find?_eq_some hf
    simp at h1 h2
    exact ⟨h2, h1⟩

theorem ref_ok : ref.Ok where
  modadd_length _ _ _ := by simp [ref]
  montifier_length _ := by simp [ref]
  montmul_length _ _ _ := by simp [ref]
  montsqr_length _ _ := by simp [ref]
  negmodinv_length _ := by simp [ref]
  emontredc8n_length _ _ _ := by simp [ref]
  montredc_length _ _ _ := by simp [ref]
  demont_length _ _ := by simp [ref]
  modinv_length _ _ := by simp [ref]
  modadd x y m _ _ h1 h2 := by
    exact val_toWords_of_lt (Nat.lt_trans (Nat.mod_lt _ (by omega)) (val_lt m))
  montifier m h := val_toWords_of_lt (Nat.lt_trans (Nat.mod_lt _ (by omega)) (val_lt m))
  montmul x y m _ _ h _ := by
    obtain ⟨h1, h2⟩ := divPow_ok (val x * val y) (64 * m.length) h
    have e : val (ref.montmul x y m) = _ := val_toWords_of_lt (Nat.lt_trans h1 (val_lt m))
    rw [e]; exact ⟨h1, h2⟩
  montsqr x m _ h _ := by
    obtain ⟨h1, h2⟩ := divPow_ok (val x * val x) (64 * m.length) h
    have e : val (ref.montsqr x m) = _ := val_toWords_of_lt (Nat.lt_trans h1 (val_lt m))
    rw [e]; exact ⟨h1, h2⟩
  negmodinv x h := by
    have e : val (ref.negmodinv x) = _ := val_toWords_of_lt (Nat.mod_lt _ (Nat.two_pow_pos _))
    rw [e]; exact negInv_ok h
  emontredc8n z m w hl _ hw := by
    have ho : val m % 2 = 1 := by
      rcases Nat.mod_two_eq_zero_or_one (val m) with h | h
      · exfalso
        have h2 : 2 ∣ val m * w.toNat := Dvd.dvd.mul_right (Nat.dvd_of_mod_eq_zero h) _
        have : (val m * w.toNat + 1) % 2 = 0 := by omega
        omega
      · exact h
    refine ⟨val z * negInv (val m) (64 * m.length) % 2 ^ (64 * m.length), Nat.mod_lt _ (Nat.two_pow_pos _), ?_⟩
    simp only [ref]
    generalize hq : val z * negInv (val m) (64 * m.length) % 2 ^ (64 * m.length) = q
    have hqlt : q < 2 ^ (64 * m.length) := by rw [← hq]; exact Nat.mod_lt _ (Nat.two_pow_pos _)
    have hd : 2 ^ (64 * m.length) ∣ val z + q * val m := by
      apply Nat.dvd_of_mod_eq_zero
      rw [← hq, Nat.add_mod, Nat.mod_mul_mod, ← Nat.add_mod, Nat.mul_assoc,
        show val z + val z * (negInv (val m) (64 * m.length) * val m) = val z * (val m * negInv (val m) (64 * m.length) + 1) by ring,
        Nat.mul_mod, negInv_ok ho]; simp
    have hzlt := val_lt z
    have hmlt := val_lt m
    rw [hl] at hzlt
    have hsum : val z + q * val m < 2 * 2 ^ (64 * (2 * m.length)) := by
      have h1 : q * val m < 2 ^ (64 * m.length) * 2 ^ (64 * m.length) := Nat.mul_lt_mul'' hqlt hmlt
      rw [← Nat.pow_add, show 64 * m.length + 64 * m.length = 64 * (2 * m.length) by omega] at h1
      omega
    generalize val z + q * val m = S at *
    rw [val_drop _ _ (by simp; omega), val_toWords, hl]
    have hc : (BitVec.ofNat 64 (S / 2 ^ (64 * (2 * m.length)))).toNat = S / 2 ^ (64 * (2 * m.length)) := by
      rw [BitVec.toNat_ofNat]
      refine Nat.mod_eq_of_lt ?_
      have : S / 2 ^ (64 * (2 * m.length)) < 2 := Nat.div_lt_of_lt_mul (by omega)
      omega
    rw [hc]
    obtain ⟨t, rfl⟩ := hd
    rw [show 64 * (2 * m.length) = 64 * m.length + 64 * m.length by omega, Nat.pow_add]
    generalize 2 ^ (64 * m.length) = R at *
    have hR : 0 < R := by omega
    rw [Nat.mul_mod_mul_left, Nat.mul_div_cancel_left _ hR, Nat.mul_div_mul_left _ _ hR, Nat.mod_add_div]
  montredc x m p _ h _ := by
    obtain ⟨h1, h2⟩ := divPow_ok (val x) (64 * p) h
    have e : val (ref.montredc x m p) = _ := val_toWords_of_lt (Nat.lt_trans h1 (val_lt m))
    rw [e]; exact ⟨h1, h2⟩
  demont x m _ h := by
    obtain ⟨h1, h2⟩ := divPow_ok (val x) (64 * m.length) h
    have e : val (ref.demont x m) = _ := val_toWords_of_lt (Nat.lt_trans h1 (val_lt m))
    rw [e]; exact ⟨h1, h2⟩
  modinv a b _ _ h hg := by
    obtain ⟨h1, h2⟩ := invMod_ok h hg
    have e : val (ref.modinv a b) = _ := val_toWords_of_lt (Nat.lt_trans h1 (val_lt b))
    rw [e]; exact ⟨h1, h2⟩

end Verif.Bignum
