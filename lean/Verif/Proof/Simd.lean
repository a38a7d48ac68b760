import Verif.Model.Simd

/-!
Lemmas about the vector instructions.
-/
namespace Verif.Simd
open Verif

theorem getLsbD_dwords (a b c d : BitVec 32) (i : Nat) : (dwords a b c d).getLsbD i =
    if i < 32 then a.getLsbD i else if i < 64 then b.getLsbD (i - 32)
    else if i < 96 then c.getLsbD (i - 64) else d.getLsbD (i - 96) := by
  simp only [dwords, BitVec.getLsbD_append]
  by_cases h1 : i < 32
  · simp [h1]
  · by_cases h2 : i < 64
    · simp [h1, h2, show i - 32 < 32 by omega]
    · by_cases h3 : i < 96
      · simp [h1, h2, h3, show ¬ i - 32 < 32 by omega, show i - 32 - 32 = i - 64 by omega,
          show i - 64 < 32 by omega]
      · simp [h1, h2, h3, show ¬ i - 32 < 32 by omega, show i - 32 - 32 = i - 64 by omega,
          show ¬ i - 64 < 32 by omega, show i - 64 - 32 = i - 96 by omega]

theorem getLsbD_dword (v : M128) (k i : Nat) (h : i < 32) : (dword v k).getLsbD i = v.getLsbD (32 * k + i) := by
  rw [dword, BitVec.getLsbD_extractLsb']; simp [h]

@[simp] theorem dword0 (a b c d : BitVec 32) : dword (dwords a b c d) 0 = a := by
  apply BitVec.eq_of_getLsbD_eq
  intro i hi
  rw [getLsbD_dword _ _ _ hi, getLsbD_dwords, if_pos (by omega)]; simp
@[simp] theorem dword1 (a b c d : BitVec 32) : dword (dwords a b c d) 1 = b := by
  apply BitVec.eq_of_getLsbD_eq
  intro i hi
  rw [getLsbD_dword _ _ _ hi, getLsbD_dwords, if_neg (by omega), if_pos (by omega),
    show 32 * 1 + i - 32 = i by omega]
@[simp] theorem dword2 (a b c d : BitVec 32) : dword (dwords a b c d) 2 = c := by
  apply BitVec.eq_of_getLsbD_eq
  intro i hi
  rw [getLsbD_dword _ _ _ hi, getLsbD_dwords, if_neg (by omega), if_neg (by omega), if_pos (by omega),
    show 32 * 2 + i - 64 = i by omega]
@[simp] theorem dword3 (a b c d : BitVec 32) : dword (dwords a b c d) 3 = d := by
  apply BitVec.eq_of_getLsbD_eq
  intro i hi
  rw [getLsbD_dword _ _ _ hi, getLsbD_dwords, if_neg (by omega), if_neg (by omega), if_neg (by omega),
    show 32 * 3 + i - 96 = i by omega]

theorem dwords_dword (v : M128) : dwords (dword v 0) (dword v 1) (dword v 2) (dword v 3) = v := by
  apply BitVec.eq_of_getLsbD_eq
  intro i hi
  rw [getLsbD_dwords]
  split
  · rw [getLsbD_dword _ _ _ (by omega)]; congr 1; omega
  · split
    · rw [getLsbD_dword _ _ _ (by omega)]; congr 1; omega
    · split
      · rw [getLsbD_dword _ _ _ (by omega)]; congr 1; omega
      · rw [getLsbD_dword _ _ _ (by omega)]; congr 1; omega

theorem halves (v : M128) : hi64 v ++ lo64 v = v := by
  apply BitVec.eq_of_getLsbD_eq
  intro i hi
  rw [BitVec.getLsbD_append, lo64, hi64, BitVec.getLsbD_extractLsb', BitVec.getLsbD_extractLsb']
  by_cases h : i < 64
  · simp [h]
  · rw [if_neg h]
    simp [show i - 64 < 64 by omega, show 64 + (i - 64) = i by omega]

theorem getLsbD_lo64 (v : M128) (i : Nat) (h : i < 64) : (lo64 v).getLsbD i = v.getLsbD i := by
  rw [lo64, BitVec.getLsbD_extractLsb']; simp [h]
theorem getLsbD_hi64 (v : M128) (i : Nat) (h : i < 64) : (hi64 v).getLsbD i = v.getLsbD (64 + i) := by
  rw [hi64, BitVec.getLsbD_extractLsb']; simp [h]

theorem swap_eq (v : M128) : shuffle32 v 0b01001110 = lo64 v ++ hi64 v := by
  apply BitVec.eq_of_getLsbD_eq
  intro i hi
  rw [shuffle32, getLsbD_dwords, BitVec.getLsbD_append]
  by_cases h1 : i < 32
  · rw [if_pos h1, if_pos (by omega), getLsbD_dword _ _ _ h1, getLsbD_hi64 _ _ (by omega)]
  · rw [if_neg h1]
    by_cases h2 : i < 64
    · rw [if_pos h2, if_pos h2, getLsbD_dword _ _ _ (by omega), getLsbD_hi64 _ _ (by omega)]
      congr 1; omega
    · rw [if_neg h2, if_neg h2, getLsbD_lo64 _ _ (by omega)]
      by_cases h3 : i < 96
      · rw [if_pos h3, getLsbD_dword _ _ _ (by omega)]; congr 1; omega
      · rw [if_neg h3, getLsbD_dword _ _ _ (by omega)]; congr 1; omega

theorem lo64_append (a b : BitVec 64) : lo64 (a ++ b) = b := by
  apply BitVec.eq_of_getLsbD_eq
  intro i hi
  rw [getLsbD_lo64 _ _ hi, BitVec.getLsbD_append, if_pos hi]
theorem hi64_append (a b : BitVec 64) : hi64 (a ++ b) = a := by
  apply BitVec.eq_of_getLsbD_eq
  intro i hi
  rw [getLsbD_hi64 _ _ hi, BitVec.getLsbD_append, if_neg (by omega), Nat.add_sub_cancel_left]

theorem sra31 (x : BitVec 32) : x.sshiftRight 31 = if x.getLsbD 31 then 0xffffffff#32 else 0#32 := by
  apply BitVec.eq_of_getLsbD_eq
  intro i hi
  rw [BitVec.getLsbD_sshiftRight]
  have hm : x.msb = x.getLsbD 31 := by simp [BitVec.msb_eq_getLsbD_last]
  have h32 : ¬ (32 ≤ i) := by omega
  cases hb : x.getLsbD 31
  · simp only [hm, hb, h32, decide_false, Bool.not_false, Bool.true_and, Bool.false_eq_true, if_false]
    by_cases h0 : i = 0
    · subst h0; simpa using hb
    · rw [if_neg (by omega)]; simp
  · simp only [hm, hb, h32, decide_false, Bool.not_false, Bool.true_and, if_true]
    have e : (0xffffffff#32).getLsbD i = true := by
      have : (0xffffffff#32) = BitVec.allOnes 32 := by decide
      rw [this, BitVec.getLsbD_allOnes]; simpa using hi
    rw [e]
    by_cases h0 : i = 0
    · subst h0; simpa using hb
    · rw [if_neg (by omega)]

theorem sra_dword (h : M128) (i : Nat) : (dword h i).sshiftRight 31 =
    if h.getLsbD (32 * i + 31) then 0xffffffff#32 else 0#32 := by
  rw [sra31, getLsbD_dword _ _ _ (by omega)]

theorem store_length (v : M128) : (store v).length = 16 := toLE_length _ _

theorem load_store (v : M128) : load (store v) = v := by
  apply BitVec.eq_of_toNat_eq
  rw [load, store, leNat_toLE, BitVec.toNat_ofNat]
  have := v.isLt
  omega

theorem store_load (b : Bytes) (h : b.length = 16) : store (load b) = b := by
  rw [store, load, BitVec.toNat_ofNat]
  have := leNat_lt b
  rw [h] at this
  rw [Nat.mod_eq_of_lt (by simpa using this), ← h, toLE_leNat]

end Verif.Simd
