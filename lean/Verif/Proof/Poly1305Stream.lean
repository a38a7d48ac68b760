import Verif.Proof.Poly1305

/-!
Lemmas for C23: loading limbs, final reduction and output, and streaming.
-/
namespace Verif.Poly1305
open Verif Verif.Blockwise

theorem read32_eq (bs : Bytes) (i : Nat) : (read32 bs i).toNat = leNat bs / 256 ^ i % 2 ^ 32 := by
  rw [read32, BitVec.toNat_ofNat, leNat_slice]
  omega

/-- Masking by limbs is masking the number. -/
theorem and_split (x m k : Nat) :
    x &&& m = (x % 2 ^ k &&& m % 2 ^ k) + 2 ^ k * (x / 2 ^ k &&& m / 2 ^ k) := by
  rw [← Nat.and_mod_two_pow, ← Nat.and_div_two_pow, Nat.mod_add_div]

theorem clamp_nat (N : Nat) :
    (N / 256 ^ 0 % 2 ^ 32 &&& 0x3ffffff) + 2 ^ 26 * (N / 256 ^ 3 % 2 ^ 32 / 2 ^ 2 &&& 0x3ffff03)
      + 2 ^ 52 * (N / 256 ^ 6 % 2 ^ 32 / 2 ^ 4 &&& 0x3ffc0ff)
      + 2 ^ 78 * (N / 256 ^ 9 % 2 ^ 32 / 2 ^ 6 &&& 0x3f03fff)
      + 2 ^ 104 * (N / 256 ^ 12 % 2 ^ 32 / 2 ^ 8 &&& 0x00fffff)
    = N % 2 ^ 128 &&& 0x0ffffffc0ffffffc0ffffffc0fffffff := by
  rw [and_split (N % 2 ^ 128) _ 26]
  rw [and_split (N % 2 ^ 128 / 2 ^ 26) _ 26]
  rw [and_split (N % 2 ^ 128 / 2 ^ 26 / 2 ^ 26) _ 26]
  rw [and_split (N % 2 ^ 128 / 2 ^ 26 / 2 ^ 26 / 2 ^ 26) _ 26]
  have m (x a b : Nat) (k : Nat) (ha : a % 2 ^ k = b % 2 ^ k) (hx : x < 2 ^ k) : a &&& x = b &&& x := by
    have h1 : (a &&& x) % 2 ^ k = (b &&& x) % 2 ^ k := by
      rw [Nat.and_mod_two_pow, Nat.and_mod_two_pow, ha]
    rwa [Nat.mod_eq_of_lt (Nat.lt_of_le_of_lt Nat.and_le_right hx),
      Nat.mod_eq_of_lt (Nat.lt_of_le_of_lt Nat.and_le_right hx)] at h1
  have e0 := m 0x3ffffff (N / 256 ^ 0 % 2 ^ 32) (N % 2 ^ 128 % 2 ^ 26) 26 (by omega) (by omega)
  have e1 := m 0x3ffff03 (N / 256 ^ 3 % 2 ^ 32 / 2 ^ 2) (N % 2 ^ 128 / 2 ^ 26 % 2 ^ 26) 26 (by omega) (by omega)
  have e2 := m 0x3ffc0ff (N / 256 ^ 6 % 2 ^ 32 / 2 ^ 4) (N % 2 ^ 128 / 2 ^ 26 / 2 ^ 26 % 2 ^ 26) 26
    (by omega) (by omega)
  have e3 := m 0x3f03fff (N / 256 ^ 9 % 2 ^ 32 / 2 ^ 6) (N % 2 ^ 128 / 2 ^ 26 / 2 ^ 26 / 2 ^ 26 % 2 ^ 26) 26
    (by omega) (by omega)
  have e4 := m 0x00fffff (N / 256 ^ 12 % 2 ^ 32 / 2 ^ 8) (N % 2 ^ 128 / 2 ^ 26 / 2 ^ 26 / 2 ^ 26 / 2 ^ 26) 24
    (by omega) (by omega)
  rw [e0, e1, e2, e3, e4]
  rw [show 0x0ffffffc0ffffffc0ffffffc0fffffff % 2 ^ 26 = 0x3ffffff by decide,
    show 0x0ffffffc0ffffffc0ffffffc0fffffff / 2 ^ 26 % 2 ^ 26 = 0x3ffff03 by decide,
    show 0x0ffffffc0ffffffc0ffffffc0fffffff / 2 ^ 26 / 2 ^ 26 % 2 ^ 26 = 0x3ffc0ff by decide,
    show 0x0ffffffc0ffffffc0ffffffc0fffffff / 2 ^ 26 / 2 ^ 26 / 2 ^ 26 % 2 ^ 26 = 0x3f03fff by decide,
    show 0x0ffffffc0ffffffc0ffffffc0fffffff / 2 ^ 26 / 2 ^ 26 / 2 ^ 26 / 2 ^ 26 = 0x00fffff by decide]
  omega

/-- The clamped multiplier. -/
theorem new_r (key : Bytes) : (new key).r.val = Spec.Poly1305.r key ∧ Limbs (new key).r := by
  have h : ∀ (x : BitVec 32) (m : Nat), m < 2 ^ 26 → (x &&& BitVec.ofNat 32 m).toNat < 2 ^ 26 := by
    intro x m hm
    rw [BitVec.toNat_and, BitVec.toNat_ofNat]
    exact Nat.lt_of_le_of_lt Nat.and_le_right (by omega)
  constructor
  · simp only [new, L5.val, BitVec.toNat_and, shr_32, read32_eq, BitVec.toNat_ofNat]
    rw [Spec.Poly1305.r, leNat_take, show (256 : Nat) ^ 16 = 2 ^ 128 by decide]
    exact clamp_nat (leNat key)
  · exact ⟨h _ _ (by omega), h _ _ (by omega), h _ _ (by omega), h _ _ (by omega), h _ _ (by omega)⟩

/-- The limbs of 16 bytes, with the top limb given. -/
theorem load_ok (bs : Bytes) (top : BitVec 32) (extra : Nat) (hl : bs.length = 16)
    (ht : top.toNat = leNat bs / 2 ^ 104 + extra) (he : extra ≤ 2 ^ 24) :
    (L5.mk (read32 bs 0 &&& 0x3ffffff#32) ((read32 bs 3 >>> 2) &&& 0x3ffffff#32)
      ((read32 bs 6 >>> 4) &&& 0x3ffffff#32) ((read32 bs 9 >>> 6) &&& 0x3ffffff#32) top).val
      = leNat bs + 2 ^ 104 * extra ∧
    Limbs (L5.mk (read32 bs 0 &&& 0x3ffffff#32) ((read32 bs 3 >>> 2) &&& 0x3ffffff#32)
      ((read32 bs 6 >>> 4) &&& 0x3ffffff#32) ((read32 bs 9 >>> 6) &&& 0x3ffffff#32) top) := by
  have hb := leNat_lt bs
  rw [hl, show (256 : Nat) ^ 16 = 2 ^ 128 by decide] at hb
  constructor
  · simp only [L5.val, and_mask32, shr_32, read32_eq, ht]
    omega
  · refine ⟨?_, ?_, ?_, ?_, ?_⟩ <;> simp only [and_mask32, ht] <;> omega

theorem top_whole (bs : Bytes) (hl : bs.length = 16) :
    ((read32 bs 12 >>> 8) ||| (1#32 <<< 24)).toNat = leNat bs / 2 ^ 104 + 2 ^ 24 := by
  have hb := leNat_lt bs
  rw [hl, show (256 : Nat) ^ 16 = 2 ^ 128 by decide] at hb
  rw [BitVec.toNat_or, shr_32, read32_eq, show (1#32 <<< 24).toNat = 2 ^ 24 by decide]
  have : leNat bs / 256 ^ 12 % 2 ^ 32 / 2 ^ 8 < 2 ^ 24 := by omega
  rw [Nat.or_comm, show (2:Nat) ^ 24 = 1 <<< 24 by decide, ← Nat.shiftLeft_add_eq_or_of_lt this]
  omega

theorem top_last (bs : Bytes) (hl : bs.length = 16) :
    (read32 bs 12 >>> 8).toNat = leNat bs / 2 ^ 104 := by
  have hb := leNat_lt bs
  rw [hl, show (256 : Nat) ^ 16 = 2 ^ 128 by decide] at hb
  rw [shr_32, read32_eq]
  omega

/-- The `r5` field is five times `r`. -/
def Has5 (p : Poly1305) : Prop :=
  p.r5 = ⟨p.r.x1 * 5#32, p.r.x2 * 5#32, p.r.x3 * 5#32, p.r.x4 * 5#32⟩ ∧ Limbs p.r

theorem processBlock_ok (p : Poly1305) (b : L5) (h5 : Has5 p) (hh : Small p.h) (hb : Limbs b) :
    Small (processBlock p b).h ∧
    (processBlock p b).h.val % Spec.Poly1305.P = ((p.h.val + b.val) * p.r.val) % Spec.Poly1305.P := by
  obtain ⟨ha, b0, b1, b2, b3, b4⟩ := add_ok p.h b hh hb
  rw [processBlock, h5.1]
  have := mul_ok (add p.h b) p.r h5.2 b0 b1 b2 b3 b4
  rw [ha] at this
  exact this

/-! ### Reduction and output -/

theorem minReduce_ok (h : L5) (hs : Small h) :
    (minReduce h).val % Spec.Poly1305.P = h.val % Spec.Poly1305.P ∧ Limbs (minReduce h) := by
  obtain ⟨b0, b1, b2, b3, b4⟩ := hs
  obtain ⟨x0, x1, x2, x3, x4⟩ := h
  simp only at b0 b1 b2 b3 b4
  simp only [minReduce, L5.val, Spec.Poly1305.P]
  have g2 : (x2 + x1 >>> 26).toNat = x2.toNat + x1.toNat / 2 ^ 26 := by
    rw [BitVec.toNat_add, shr_32]; omega
  generalize x2 + x1 >>> 26 = E2 at *
  have g3 : (x3 + E2 >>> 26).toNat = x3.toNat + E2.toNat / 2 ^ 26 := by
    rw [BitVec.toNat_add, shr_32]; omega
  generalize x3 + E2 >>> 26 = E3 at *
  have g4 : (x4 + E3 >>> 26).toNat = x4.toNat + E3.toNat / 2 ^ 26 := by
    rw [BitVec.toNat_add, shr_32]; omega
  generalize x4 + E3 >>> 26 = E4 at *
  have g0 : (x0 + E4 >>> 26 * 5#32).toNat = x0.toNat + E4.toNat / 2 ^ 26 * 5 := by
    rw [BitVec.toNat_add, BitVec.toNat_mul, shr_32]
    simp only [BitVec.toNat_ofNat]
    omega
  generalize x0 + E4 >>> 26 * 5#32 = F0 at *
  have g1 : ((x1 &&& 0x3ffffff#32) + F0 >>> 26).toNat = x1.toNat % 2 ^ 26 + F0.toNat / 2 ^ 26 := by
    rw [BitVec.toNat_add, and_mask32, shr_32]; omega
  constructor
  · simp only [and_mask32, g1]
    have : x0.toNat + 2 ^ 26 * x1.toNat + 2 ^ 52 * x2.toNat + 2 ^ 78 * x3.toNat + 2 ^ 104 * x4.toNat
        = (F0.toNat % 2 ^ 26 + 2 ^ 26 * (x1.toNat % 2 ^ 26 + F0.toNat / 2 ^ 26)
          + 2 ^ 52 * (E2.toNat % 2 ^ 26) + 2 ^ 78 * (E3.toNat % 2 ^ 26) + 2 ^ 104 * (E4.toNat % 2 ^ 26))
          + (2 ^ 130 - 5) * (E4.toNat / 2 ^ 26) := by
      omega
    rw [this, Nat.add_mul_mod_self_left]
  · have hb1 : x1.toNat % 2 ^ 26 + F0.toNat / 2 ^ 26 < 2 ^ 26 := by
      by_cases hx : x1.toNat < 2 ^ 26
      · have : E2.toNat / 2 ^ 26 = 0 := by omega
        have : E3.toNat / 2 ^ 26 = 0 := by omega
        have : E4.toNat / 2 ^ 26 = 0 := by omega
        omega
      · have : E2.toNat / 2 ^ 26 ≤ 1 := by omega
        have : E3.toNat / 2 ^ 26 ≤ 1 := by omega
        have : E4.toNat / 2 ^ 26 ≤ 1 := by omega
        omega
    refine ⟨?_, ?_, ?_, ?_, ?_⟩ <;> simp only [and_mask32, g1] <;> omega

theorem equalMask_eq (x y : BitVec 32) : equalMask x y = if x = y then BitVec.allOnes 32 else 0#32 := by
  rw [equalMask]
  by_cases h : x = y
  · subst h
    simp
  · rw [if_neg h]
    have hd : x ^^^ y ≠ 0#32 := by
      intro e
      apply h
      have : x ^^^ y ^^^ y = 0#32 ^^^ y := by rw [e]
      simpa [BitVec.xor_assoc] using this
    generalize x ^^^ y = d at hd
    have hz : (~~~d &&& (d - 1#32)) >>> 31 = 0#32 := by
      apply BitVec.eq_of_toNat_eq
      rw [shr_32, BitVec.toNat_and, BitVec.toNat_not, BitVec.toNat_sub]
      have hdl := d.isLt
      have hpos : d.toNat ≠ 0 := by
        intro e; exact hd (BitVec.eq_of_toNat_eq (by simpa using e))
      simp only [BitVec.toNat_ofNat]
      by_cases hc : d.toNat < 2 ^ 31
      · have := @Nat.and_le_right (2 ^ 32 - 1 - d.toNat) ((2 ^ 32 - 1 % 2 ^ 32 + d.toNat) % 2 ^ 32)
        omega
      · have := @Nat.and_le_left (2 ^ 32 - 1 - d.toNat) ((2 ^ 32 - 1 % 2 ^ 32 + d.toNat) % 2 ^ 32)
        omega
    rw [hz]; decide

theorem maybeSub_ok (h : L5) (hl : Limbs h) :
    (maybeSub h).val = h.val % Spec.Poly1305.P ∧ Limbs (maybeSub h) := by
  obtain ⟨b0, b1, b2, b3, b4⟩ := hl
  obtain ⟨x0, x1, x2, x3, x4⟩ := h
  simp only at b0 b1 b2 b3 b4
  simp only [maybeSub]
  have g0 : (x0 + 5#32).toNat = x0.toNat + 5 := by
    rw [BitVec.toNat_add]; simp only [BitVec.toNat_ofNat]; omega
  generalize x0 + 5#32 = G0 at *
  have g1 : (x1 + G0 >>> 26).toNat = x1.toNat + G0.toNat / 2 ^ 26 := by
    rw [BitVec.toNat_add, shr_32]; omega
  generalize x1 + G0 >>> 26 = G1 at *
  have g2 : (x2 + G1 >>> 26).toNat = x2.toNat + G1.toNat / 2 ^ 26 := by
    rw [BitVec.toNat_add, shr_32]; omega
  generalize x2 + G1 >>> 26 = G2 at *
  have g3 : (x3 + G2 >>> 26).toNat = x3.toNat + G2.toNat / 2 ^ 26 := by
    rw [BitVec.toNat_add, shr_32]; omega
  generalize x3 + G2 >>> 26 = G3 at *
  have g4 : (x4 + G3 >>> 26 - 1#32 <<< 26).toNat
      = (2 ^ 32 - 2 ^ 26 + x4.toNat + G3.toNat / 2 ^ 26) % 2 ^ 32 := by
    rw [BitVec.toNat_sub, BitVec.toNat_add, shr_32, show (1#32 <<< 26).toNat = 2 ^ 26 by decide]; omega
  generalize x4 + G3 >>> 26 - 1#32 <<< 26 = G4 at *
  have hsign : (G4 &&& 0x80000000#32 = 0x80000000#32) ↔ 2 ^ 31 ≤ G4.toNat := by
    have hlt := G4.isLt
    have hand : (G4 &&& 0x80000000#32).toNat = 2 ^ 31 * (G4.toNat / 2 ^ 31) := by
      rw [BitVec.toNat_and]
      have := and_split G4.toNat (2 ^ 31) 31
      rw [show (0x80000000#32).toNat = 2 ^ 31 by decide, this]
      rw [Nat.mod_self, Nat.and_zero, Nat.div_self (by omega)]
      have h2 : G4.toNat / 2 ^ 31 < 2 := by omega
      rw [Nat.and_one_is_mod, Nat.mod_eq_of_lt h2]; omega
    constructor
    · intro e
      have := congrArg BitVec.toNat e
      rw [hand, show (0x80000000#32).toNat = 2 ^ 31 by decide] at this
      omega
    · intro e
      apply BitVec.eq_of_toNat_eq
      rw [hand, show (0x80000000#32).toNat = 2 ^ 31 by decide]
      omega
  rw [equalMask_eq]
  by_cases hc : 2 ^ 31 ≤ G4.toNat
  · rw [if_pos (hsign.2 hc)]
    simp only [BitVec.and_allOnes, BitVec.not_allOnes, BitVec.and_zero, BitVec.or_zero]
    refine ⟨?_, b0, b1, b2, b3, b4⟩
    simp only [L5.val, Spec.Poly1305.P]
    rw [Nat.mod_eq_of_lt (by omega)]
  · rw [if_neg (fun e => hc (hsign.1 e))]
    simp only [BitVec.and_zero, BitVec.not_zero, BitVec.and_allOnes, BitVec.zero_or]
    refine ⟨?_, ?_, ?_, ?_, ?_, ?_⟩
    · simp only [L5.val, Spec.Poly1305.P, and_mask32]
      have k4 : G4.toNat + 2 ^ 26 = x4.toNat + G3.toNat / 2 ^ 26 := by omega
      have big : x0.toNat + 2 ^ 26 * x1.toNat + 2 ^ 52 * x2.toNat + 2 ^ 78 * x3.toNat
          + 2 ^ 104 * x4.toNat = (G0.toNat % 2 ^ 26 + 2 ^ 26 * (G1.toNat % 2 ^ 26)
          + 2 ^ 52 * (G2.toNat % 2 ^ 26) + 2 ^ 78 * (G3.toNat % 2 ^ 26) + 2 ^ 104 * G4.toNat)
          + (2 ^ 130 - 5) := by
        clear hsign g4
        omega
      have lt : G0.toNat % 2 ^ 26 + 2 ^ 26 * (G1.toNat % 2 ^ 26)
          + 2 ^ 52 * (G2.toNat % 2 ^ 26) + 2 ^ 78 * (G3.toNat % 2 ^ 26) + 2 ^ 104 * G4.toNat
          < 2 ^ 130 - 5 := by
        have : x0.toNat + 2 ^ 26 * x1.toNat + 2 ^ 52 * x2.toNat + 2 ^ 78 * x3.toNat
          + 2 ^ 104 * x4.toNat < 2 ^ 130 := by clear big hsign g4; omega
        omega
      rw [big, Nat.add_mod_right, Nat.mod_eq_of_lt lt]
    all_goals simp only [and_mask32]
    all_goals omega

theorem fullReduce_ok (h : L5) (hs : Small h) :
    (fullReduce h).val = h.val % Spec.Poly1305.P ∧ Limbs (fullReduce h) := by
  obtain ⟨h1, h2⟩ := minReduce_ok h hs
  obtain ⟨h3, h4⟩ := maybeSub_ok _ h2
  exact ⟨by rw [fullReduce, h3, h1], h4⟩

theorem or_shl (a b : BitVec 32) (k j : Nat) (hkj : k + j = 32) (ha : a.toNat < 2 ^ k) :
    (a ||| (b <<< k)).toNat = a.toNat + 2 ^ k * (b.toNat % 2 ^ j) := by
  have e : (b <<< k).toNat = (b.toNat % 2 ^ j) <<< k := by
    rw [BitVec.toNat_shiftLeft, Nat.shiftLeft_eq, Nat.shiftLeft_eq,
      show (2 : Nat) ^ 32 = 2 ^ j * 2 ^ k by rw [← Nat.pow_add]; congr 1; omega, Nat.mul_mod_mul_right]
  rw [BitVec.toNat_or, e, Nat.or_comm, ← Nat.shiftLeft_add_eq_or_of_lt ha, Nat.shiftLeft_eq]
  rw [Nat.mul_comm, Nat.add_comm]

theorem add32_toNat (a b : BitVec 32) : (add32 a b).toNat = a.toNat + b.toNat := by
  have ha := a.isLt
  have hb := b.isLt
  rw [add32, BitVec.toNat_add, BitVec.toNat_setWidth, BitVec.toNat_setWidth]
  omega

theorem output_ok (h : L5) (s : L4) (hl : Limbs h) :
    output h s = toLE 16 (h.val + (s.x0.toNat + 2 ^ 32 * s.x1.toNat + 2 ^ 64 * s.x2.toNat
      + 2 ^ 96 * s.x3.toNat)) := by
  obtain ⟨b0, b1, b2, b3, b4⟩ := hl
  obtain ⟨x0, x1, x2, x3, x4⟩ := h
  obtain ⟨s0, s1, s2, s3⟩ := s
  simp only at b0 b1 b2 b3 b4
  simp only [output, le32, L5.val]
  have w0 := or_shl x0 x1 26 6 rfl b0
  have w1 := or_shl (x1 >>> 6) x2 20 12 rfl (by rw [shr_32]; omega)
  have w2 := or_shl (x2 >>> 12) x3 14 18 rfl (by rw [shr_32]; omega)
  have w3 := or_shl (x3 >>> 18) x4 8 24 rfl (by rw [shr_32]; omega)
  rw [shr_32] at w1 w2 w3
  generalize x0 ||| x1 <<< 26 = H0 at *
  generalize x1 >>> 6 ||| x2 <<< 20 = H1 at *
  generalize x2 >>> 12 ||| x3 <<< 14 = H2 at *
  generalize x3 >>> 18 ||| x4 <<< 8 = H3 at *
  have hs0 := s0.isLt
  have hs1 := s1.isLt
  have hs2 := s2.isLt
  have hs3 := s3.isLt
  have f0 := add32_toNat H0 s0
  generalize add32 H0 s0 = F0 at *
  have f1 : (add32 H1 s1 + F0 >>> 32).toNat = H1.toNat + s1.toNat + F0.toNat / 2 ^ 32 := by
    rw [BitVec.toNat_add, add32_toNat, BitVec.toNat_ushiftRight, Nat.shiftRight_eq_div_pow]; omega
  generalize add32 H1 s1 + F0 >>> 32 = F1 at *
  have f2 : (add32 H2 s2 + F1 >>> 32).toNat = H2.toNat + s2.toNat + F1.toNat / 2 ^ 32 := by
    rw [BitVec.toNat_add, add32_toNat, BitVec.toNat_ushiftRight, Nat.shiftRight_eq_div_pow]; omega
  generalize add32 H2 s2 + F1 >>> 32 = F2 at *
  have f3 : (add32 H3 s3 + F2 >>> 32).toNat = H3.toNat + s3.toNat + F2.toNat / 2 ^ 32 := by
    rw [BitVec.toNat_add, add32_toNat, BitVec.toNat_ushiftRight, Nat.shiftRight_eq_div_pow]; omega
  generalize add32 H3 s3 + F2 >>> 32 = F3 at *
  apply leNat_inj
  · simp [toLE_length]
  · simp only [leNat_append, leNat_toLE, toLE_length, List.length_append, BitVec.toNat_setWidth]
    have hH : H0.toNat + 2 ^ 32 * H1.toNat + 2 ^ 64 * H2.toNat + 2 ^ 96 * H3.toNat
        + 2 ^ 128 * (x4.toNat / 2 ^ 24) = x0.toNat + 2 ^ 26 * x1.toNat + 2 ^ 52 * x2.toNat
        + 2 ^ 78 * x3.toNat + 2 ^ 104 * x4.toNat := by omega
    have tot : x0.toNat + 2 ^ 26 * x1.toNat + 2 ^ 52 * x2.toNat + 2 ^ 78 * x3.toNat + 2 ^ 104 * x4.toNat
        + (s0.toNat + 2 ^ 32 * s1.toNat + 2 ^ 64 * s2.toNat + 2 ^ 96 * s3.toNat)
        = (F0.toNat % 2 ^ 32 + 2 ^ 32 * (F1.toNat % 2 ^ 32) + 2 ^ 64 * (F2.toNat % 2 ^ 32)
          + 2 ^ 96 * (F3.toNat % 2 ^ 32)) + 2 ^ 128 * (F3.toNat / 2 ^ 32 + x4.toNat / 2 ^ 24) := by
      rw [← hH]; clear hH; omega
    rw [tot, show (256 : Nat) ^ 16 = 2 ^ 128 by decide, Nat.add_mul_mod_self_left]
    clear tot hH f0 f1 f2 f3 w0 w1 w2 w3
    omega

/-! ### Streaming -/

/-- One whole block in the specification's accumulator. -/
def specStep (key : Bytes) (a : Nat) (b : Bytes) : Nat :=
  ((a + Spec.Poly1305.blockNum b) * Spec.Poly1305.r key) % Spec.Poly1305.P

/-- The authenticator keyed with `key` has absorbed `m`. -/
structure Absorbed (key : Bytes) (p : Poly1305) (m : Bytes) : Prop where
  r : p.r = (new key).r
  r5 : p.r5 = (new key).r5
  s : p.s = (new key).s
  bw : Holds 16 p.bw (chunksRem 16 m)
  small : Small p.h
  val : p.h.val % Spec.Poly1305.P = (chunksExact 16 m).foldl (specStep key) 0

theorem specStep_mod (key : Bytes) (a a' : Nat) (b : Bytes) (h : a % Spec.Poly1305.P = a') :
    ((a + Spec.Poly1305.blockNum b) * Spec.Poly1305.r key) % Spec.Poly1305.P = specStep key a' b := by
  rw [specStep, ← h, Nat.mul_mod, Nat.mul_mod (a % _ + _), Nat.mod_add_mod]

theorem whole_ok (key : Bytes) (p : Poly1305) (b : Bytes) (hb : b.length = 16)
    (hr : p.r = (new key).r) (hr5 : p.r5 = (new key).r5) (hs : Small p.h) (a : Nat)
    (hv : p.h.val % Spec.Poly1305.P = a) :
    (processWholeBlock p b).r = p.r ∧ (processWholeBlock p b).r5 = p.r5 ∧
    (processWholeBlock p b).s = p.s ∧ (processWholeBlock p b).bw = p.bw ∧
    Small (processWholeBlock p b).h ∧
    (processWholeBlock p b).h.val % Spec.Poly1305.P = specStep key a b := by
  obtain ⟨hl1, hl2⟩ := load_ok b _ (2 ^ 24) hb (top_whole b hb) (by omega)
  have h5 : Has5 p := ⟨by rw [hr5, hr]; rfl, by rw [hr]; exact (new_r key).2⟩
  obtain ⟨h1, h2⟩ := processBlock_ok p _ h5 hs hl2
  refine ⟨rfl, rfl, rfl, rfl, h1, ?_⟩
  rw [processWholeBlock, h2, hl1, hr, (new_r key).1]
  have : leNat b + 2 ^ 104 * 2 ^ 24 = Spec.Poly1305.blockNum b := by
    rw [Spec.Poly1305.blockNum, leNat_append, hb]; simp
  rw [this]
  exact specStep_mod key _ _ b hv

theorem fold_whole (key : Bytes) (bs : List Bytes) (hbs : ∀ b ∈ bs, b.length = 16) (p : Poly1305)
    (hr : p.r = (new key).r) (hr5 : p.r5 = (new key).r5) (hs : Small p.h) (a : Nat)
    (hv : p.h.val % Spec.Poly1305.P = a) :
    (bs.foldl processWholeBlock p).r = p.r ∧ (bs.foldl processWholeBlock p).r5 = p.r5 ∧
    (bs.foldl processWholeBlock p).s = p.s ∧ (bs.foldl processWholeBlock p).bw = p.bw ∧
    Small (bs.foldl processWholeBlock p).h ∧
    (bs.foldl processWholeBlock p).h.val % Spec.Poly1305.P = bs.foldl (specStep key) a := by
  induction bs generalizing p a with
  | nil => exact ⟨rfl, rfl, rfl, rfl, hs, hv⟩
  | cons b bs ih =>
    obtain ⟨e1, e2, e3, e4, e5, e6⟩ := whole_ok key p b (hbs b (by simp)) hr hr5 hs a hv
    obtain ⟨f1, f2, f3, f4, f5, f6⟩ := ih (fun x hx => hbs x (by simp [hx])) (processWholeBlock p b)
      (e1.trans hr) (e2.trans hr5) e5 _ e6
    exact ⟨f1.trans e1, f2.trans e2, f3.trans e3, f4.trans e4, f5, f6⟩

theorem rem_append_dvd {α : Type} {N : Nat} (hN : 0 < N) {a b : List α} (h : N ∣ a.length) :
    chunksRem N (a ++ b) = chunksRem N b := by
  obtain ⟨k, hk⟩ := h
  rw [chunksRem, chunksRem, List.length_append, hk, Nat.mul_add_div hN, Nat.mul_add, ← hk,
    ← List.drop_drop, List.drop_left' rfl]

theorem rem_short {α : Type} {N : Nat} {a : List α} (h : a.length < N) : chunksRem N a = a := by
  rw [chunksRem, Nat.div_eq_of_lt h]; simp

theorem addBytes_ok (key : Bytes) (p : Poly1305) (m bytes : Bytes) (h : Absorbed key p m) :
    ∃ p', addBytes p bytes = some p' ∧ Absorbed key p' (m ++ bytes) := by
  obtain ⟨hr, hr5, hs, hbw, hsm, hv⟩ := h
  have hrlt : (chunksRem 16 m).length < 16 := by
    rw [chunksRem_length]; exact Nat.mod_lt _ (by decide)
  have hmd : 16 ∣ (m.take (16 * (m.length / 16))).length := by
    rw [List.length_take, Nat.min_eq_left (Nat.mul_div_le _ _)]; exact Nat.dvd_mul_right _ _
  have hsplit : m = m.take (16 * (m.length / 16)) ++ chunksRem 16 m := (List.take_append_drop _ _).symm
  -- from a block boundary
  have tail : ∀ (p : Poly1305) (m rest : Bytes), 16 ∣ m.length → Absorbed key p m →
      ∃ p', (match addTrailing ((chunksExact 16 rest).foldl processWholeBlock p).bw (chunksRem 16 rest) with
        | none => none
        | some bw => some { (chunksExact 16 rest).foldl processWholeBlock p with bw := bw }) = some p' ∧
        Absorbed key p' (m ++ rest) := by
    intro p m rest hm hab
    have hr0 : chunksRem 16 m = [] :=
      List.eq_nil_of_length_eq_zero (by rw [chunksRem_length]; exact Nat.mod_eq_zero_of_dvd hm)
    obtain ⟨f1, f2, f3, f4, f5, f6⟩ := fold_whole key (chunksExact 16 rest)
      (fun b hb => chunksExact_length hb) p hab.r hab.r5 hab.small _ hab.val
    have hbw := hab.bw
    rw [hr0] at hbw
    rw [f4]
    obtain ⟨bw', e, hb'⟩ := addTrailing_ok hbw (t := chunksRem 16 rest) (by
      rw [chunksRem_length]; exact Nat.le_of_lt (Nat.mod_lt _ (by decide)))
    rw [e]
    refine ⟨_, rfl, f1.trans hab.r, f2.trans hab.r5, f3.trans hab.s, ?_, f5, ?_⟩
    · rw [rem_append_dvd (by decide) hm]; exact hb'
    · simp only []
      rw [f6, chunksExact_append (by decide) hm, List.foldl_append]
  rw [addBytes]
  by_cases hre : chunksRem 16 m = []
  · have hbw' := hbw
    rw [hre] at hbw'
    rw [addLeading_empty hbw']
    simp only []
    rw [take_part hbw' (by simp)]
    simp only []
    have hm : 16 ∣ m.length := by
      apply Nat.dvd_of_mod_eq_zero
      rw [← chunksRem_length, hre]; rfl
    exact tail p m bytes hm ⟨hr, hr5, hs, hbw, hsm, hv⟩
  · obtain ⟨bw1, e1, h1⟩ := addLeading_ok hbw hre bytes
    rw [e1]
    simp only []
    by_cases hfull : 16 - (chunksRem 16 m).length ≤ bytes.length
    · have hl : (chunksRem 16 m ++ bytes.take (16 - (chunksRem 16 m).length)).length = 16 := by
        rw [List.length_append, List.length_take, Nat.min_eq_left hfull]; omega
      obtain ⟨e2, h2⟩ := take_full h1 hl
      rw [e2]
      simp only []
      obtain ⟨w1, w2, w3, w4, w5, w6⟩ := whole_ok key { p with bw := ⟨bw1.buffer, 0⟩ } _ hl hr hr5 hsm _ hv
      have hdv : 16 ∣ (m ++ bytes.take (16 - (chunksRem 16 m).length)).length := by
        have e := congrArg List.length hsplit
        rw [List.length_append] at e
        rw [List.length_append] at hl
        rw [List.length_append, e, Nat.add_assoc, hl]
        exact Nat.dvd_add hmd (Nat.dvd_refl _)
      have hch : chunksExact 16 (m ++ bytes.take (16 - (chunksRem 16 m).length))
          = chunksExact 16 m ++ [chunksRem 16 m ++ bytes.take (16 - (chunksRem 16 m).length)] := by
        have e3 : m ++ bytes.take (16 - (chunksRem 16 m).length) = m.take (16 * (m.length / 16)) ++
            (chunksRem 16 m ++ bytes.take (16 - (chunksRem 16 m).length)) := by
          rw [← List.append_assoc, ← hsplit]
        rw [e3, chunksExact_append (by decide) hmd, chunksExact_take (by decide),
          chunksExact_single (by decide) hl]
      have hab : Absorbed key (processWholeBlock { p with bw := ⟨bw1.buffer, 0⟩ }
          (chunksRem 16 m ++ bytes.take (16 - (chunksRem 16 m).length)))
          (m ++ bytes.take (16 - (chunksRem 16 m).length)) := by
        refine ⟨w1.trans hr, w2.trans hr5, w3.trans hs, ?_, w5, ?_⟩
        · rw [w4, List.eq_nil_of_length_eq_zero (l := chunksRem 16 (m ++ bytes.take
            (16 - (chunksRem 16 m).length))) (by rw [chunksRem_length]; exact Nat.mod_eq_zero_of_dvd hdv)]
          exact h2
        · rw [w6, hch, List.foldl_append]; rfl
      obtain ⟨p', e3, h3⟩ := tail _ _ (bytes.drop (16 - (chunksRem 16 m).length)) hdv hab
      refine ⟨p', e3, ?_⟩
      rw [List.append_assoc, List.take_append_drop] at h3
      exact h3
    · have hlt : bytes.length < 16 - (chunksRem 16 m).length := by omega
      rw [List.take_of_length_le (Nat.le_of_lt hlt)] at h1
      rw [List.drop_of_length_le (Nat.le_of_lt hlt)]
      rw [take_part h1 (by rw [List.length_append]; omega)]
      simp only [chunksExact_short (l := ([] : Bytes)) (n := 16) (by decide), List.foldl_nil,
        rem_short (a := ([] : Bytes)) (N := 16) (by decide)]
      obtain ⟨bw2, e2, h2⟩ := addTrailing_nil h1
      rw [e2]
      have hshort : (chunksRem 16 m ++ bytes).length < 16 := by
        rw [List.length_append]; omega
      have e3 : m ++ bytes = m.take (16 * (m.length / 16)) ++ (chunksRem 16 m ++ bytes) := by
        rw [← List.append_assoc, ← hsplit]
      refine ⟨_, rfl, hr, hr5, hs, ?_, hsm, ?_⟩
      · rw [e3, rem_append_dvd (by decide) hmd, rem_short hshort]
        exact h2
      · rw [e3, chunksExact_append_short (by decide) hmd hshort, chunksExact_take (by decide)]
        exact hv

theorem absorbed_new (key : Bytes) : Absorbed key (new key) [] := by
  refine ⟨rfl, rfl, rfl, ?_, ?_, ?_⟩
  · rw [rem_short (by decide)]; exact holds_new 16
  · have z : (0#32).toNat < 2 ^ 26 := by decide
    exact ⟨z, Nat.lt_add_right _ z, z, z, z⟩
  · rw [chunksExact_short (by decide)]; rfl

theorem blockNum_padded (b : Bytes) (hb : b.length < 16) :
    leNat (b ++ [0x01#8] ++ List.replicate (15 - b.length) 0#8) = Spec.Poly1305.blockNum b := by
  have hz : ∀ n, leNat (List.replicate n 0#8) = 0 := by
    intro n
    induction n with
    | zero => rfl
    | succ n ih => simp [List.replicate_succ, ih]
  rw [leNat_append, hz]; rfl

theorem finish_ok (key : Bytes) (hk : key.length = 32) (p : Poly1305) (m : Bytes)
    (h : Absorbed key p m) : finish p = some (Spec.Poly1305.mac key m) := by
  obtain ⟨hr, hr5, hs, hbw, hsm, hv⟩ := h
  have hsval : p.s.x0.toNat + 2 ^ 32 * p.s.x1.toNat + 2 ^ 64 * p.s.x2.toNat + 2 ^ 96 * p.s.x3.toNat
      = leNat ((key.drop 16).take 16) := by
    rw [hs]
    simp only [new, read32_eq, leNat_slice]
    omega
  have hacc : Spec.Poly1305.acc key m
      = (chunks 16 m).foldl (specStep key) 0 := rfl
  rw [finish, peek_ok hbw]
  have fin : ∀ (h : L5), Small h → h.val % Spec.Poly1305.P = Spec.Poly1305.acc key m →
      output (fullReduce h) p.s = Spec.Poly1305.mac key m := by
    intro h hsm hv
    obtain ⟨h1, h2⟩ := fullReduce_ok h hsm
    rw [output_ok _ _ h2, h1, hv, hsval, Spec.Poly1305.mac]
  by_cases hre : chunksRem 16 m = []
  · simp only [if_pos hre]
    rw [fin p.h hsm (by rw [hacc, chunks_eq (by decide), if_pos hre, List.append_nil]; exact hv)]
  · simp only [if_neg hre]
    have hlt : (chunksRem 16 m).length < 16 := by
      rw [chunksRem_length]; exact Nat.mod_lt _ (by decide)
    rw [processLastBlock, if_pos hlt]
    simp only []
    have h5 : Has5 p := ⟨by rw [hr5, hr]; rfl, by rw [hr]; exact (new_r key).2⟩
    have hpl : (chunksRem 16 m ++ [0x01#8] ++ List.replicate (15 - (chunksRem 16 m).length) 0#8).length
        = 16 := by simp; omega
    obtain ⟨l1, l2⟩ := load_ok _ _ 0 hpl (by rw [top_last _ hpl]; rfl) (by omega)
    obtain ⟨q1, q2⟩ := processBlock_ok p _ h5 hsm l2
    rw [l1, blockNum_padded _ hlt, Nat.mul_zero, Nat.add_zero, hr, (new_r key).1,
      specStep_mod key _ _ _ hv] at q2
    have := fin _ q1 (by
      rw [q2, hacc, chunks_eq (by decide), if_neg hre, List.foldl_append]; rfl)
    rw [← this]
    rfl

end Verif.Poly1305
