import Verif.Proof.Simd
import Verif.Model.AesX86

/-!
AES-NI key expansion and block encryption against FIPS 197.
-/
namespace Verif.AesX86
open Verif Verif.Simd

/-! ### Bytes of vectors -/

theorem toLE_xor (n a b : Nat) : toLE n (a ^^^ b) = List.zipWith (· ^^^ ·) (toLE n a) (toLE n b) := by
  induction n generalizing a b with
  | zero => rfl
  | succ n ih =>
    simp only [toLE, List.zipWith_cons_cons]
    rw [show (a ^^^ b) / 256 = a / 256 ^^^ b / 256 from by
      rw [show 256 = 2 ^ 8 from rfl]; exact Nat.xor_div_two_pow, ih, BitVec.ofNat_xor]

theorem store_xor (a b : M128) : store (a ^^^ b) = Spec.Aes.xorBytes (store a) (store b) := by
  rw [store, BitVec.toNat_xor, toLE_xor]; rfl

/-- The bytes of a 32-bit element. -/
def wd (x : BitVec 32) : Bytes := toLE 4 x.toNat

theorem wd_length (x : BitVec 32) : (wd x).length = 4 := toLE_length _ _

theorem wd_xor (a b : BitVec 32) : wd (a ^^^ b) = Spec.Aes.xorBytes (wd a) (wd b) := by
  rw [wd, BitVec.toNat_xor, toLE_xor]; rfl

theorem ofNat_extract {n : Nat} (x : BitVec n) (k : Nat) : BitVec.ofNat 8 (x.toNat / 256 ^ k) = x.extractLsb' (8 * k) 8 := by
  apply BitVec.eq_of_toNat_eq
  rw [BitVec.toNat_ofNat, BitVec.extractLsb'_toNat, Nat.shiftRight_eq_div_pow, Nat.pow_mul]

theorem wd_eq (x : BitVec 32) :
    wd x = [x.extractLsb' 0 8, x.extractLsb' 8 8, x.extractLsb' 16 8, x.extractLsb' 24 8] := by
  have h0 := ofNat_extract x 0
  have h1 := ofNat_extract x 1
  have h2 := ofNat_extract x 2
  have h3 := ofNat_extract x 3
  rw [wd]
  simp only [toLE, Nat.div_div_eq_div_mul]
  simp at h0 h1 h2 h3
  simp [h0, h1, h2, h3]

theorem wd_inj {a b : BitVec 32} (h : wd a = wd b) : a = b := by
  have := congrArg leNat h
  rw [wd, wd, leNat_toLE, leNat_toLE] at this
  have h1 := a.isLt; have h2 := b.isLt
  apply BitVec.eq_of_toNat_eq
  omega

theorem wd_ofNat_leNat (b : Bytes) (h : b.length = 4) : wd (BitVec.ofNat 32 (leNat b)) = b := by
  rw [wd, BitVec.toNat_ofNat]
  have := leNat_lt b
  rw [h] at this
  rw [Nat.mod_eq_of_lt (by simpa using this), ← h, toLE_leNat]

theorem wd_subWord (x : BitVec 32) : wd (subWord32 x) = Spec.Aes.subWord (wd x) := by
  rw [subWord32, wd_ofNat_leNat _ (by simp)]; rfl

theorem wd_rotWord (x : BitVec 32) : wd (rotWord32 x) = Spec.Aes.rotWord (wd x) := by
  rw [wd_eq, wd_eq, rotWord32]
  simp only [Spec.Aes.rotWord, List.drop_succ_cons, List.drop_zero, List.take_succ_cons, List.take_zero,
    List.cons_append, List.nil_append, List.cons.injEq, and_true]
  refine ⟨?_, ?_, ?_, ?_⟩ <;>
  · apply BitVec.eq_of_getLsbD_eq
    intro i hi
    simp only [BitVec.getLsbD_extractLsb', BitVec.getLsbD_rotateRight, hi, decide_true, Bool.true_and]
    simp only [cond_eq_ite, decide_eq_true_eq]
    first
    | (rw [if_pos (by omega)]; congr 1; omega)
    | (rw [if_neg (by omega), show decide (24 + i < 32) = true from decide_eq_true (by omega), Bool.true_and]
       congr 1; omega)

theorem wd_rcon (r : Byte) : wd (r.setWidth 32) = [r, 0#8, 0#8, 0#8] := by
  rw [wd_eq]
  simp only [List.cons.injEq, and_true]
  refine ⟨?_, ?_, ?_, ?_⟩ <;>
  · apply BitVec.eq_of_getLsbD_eq
    intro i hi
    simp [hi, show i < 32 by omega]
    try (intro _; exact BitVec.getLsbD_of_ge _ _ (by omega))

theorem dwords_toNat (a b c d : BitVec 32) : (dwords a b c d).toNat =
    a.toNat + 2 ^ 32 * (b.toNat + 2 ^ 32 * (c.toNat + 2 ^ 32 * d.toNat)) := by
  have key : ∀ {m : Nat} (x : BitVec m) (y : BitVec 32), (x ++ y).toNat = y.toNat + 2 ^ 32 * x.toNat := by
    intro m x y
    rw [BitVec.toNat_append, ← Nat.shiftLeft_add_eq_or_of_lt y.isLt, Nat.shiftLeft_eq]; omega
  rw [dwords, key, key, key]

theorem store_dwords (a b c d : BitVec 32) : store (dwords a b c d) = wd a ++ (wd b ++ (wd c ++ wd d)) := by
  have step : ∀ (n : Nat) (x : BitVec 32) (v : Nat), toLE (4 + n) (x.toNat + 2 ^ 32 * v) = wd x ++ toLE n v := by
    intro n x v
    have hx := x.isLt
    rw [toLE_append]
    congr 1
    · rw [wd, ← toLE_mod 4 (x.toNat + 2 ^ 32 * v)]
      congr 1; omega
    · congr 1; omega
  rw [store, dwords_toNat, show 16 = 4 + (4 + (4 + 4)) from rfl, step, step, step]
  rfl

theorem load_words (a b c d : Bytes) (ha : a.length = 4) (hb : b.length = 4) (hc : c.length = 4) (hd : d.length = 4) :
    load (a ++ (b ++ (c ++ d))) = dwords (BitVec.ofNat 32 (leNat a)) (BitVec.ofNat 32 (leNat b))
      (BitVec.ofNat 32 (leNat c)) (BitVec.ofNat 32 (leNat d)) := by
  rw [← load_store (dwords _ _ _ _), store_dwords, wd_ofNat_leNat a ha, wd_ofNat_leNat b hb,
    wd_ofNat_leNat c hc, wd_ofNat_leNat d hd]

theorem dwords_xor (a b c d a' b' c' d' : BitVec 32) : dwords a b c d ^^^ dwords a' b' c' d' =
    dwords (a ^^^ a') (b ^^^ b') (c ^^^ c') (d ^^^ d') := by
  apply BitVec.eq_of_getLsbD_eq
  intro i hi
  rw [BitVec.getLsbD_xor, getLsbD_dwords, getLsbD_dwords, getLsbD_dwords]
  split
  · rw [BitVec.getLsbD_xor]
  · split
    · rw [BitVec.getLsbD_xor]
    · split <;> rw [BitVec.getLsbD_xor]

theorem slli4_dwords (a b c d : BitVec 32) : slli4 (dwords a b c d) = dwords 0#32 a b c := by
  apply BitVec.eq_of_getLsbD_eq
  intro i hi
  rw [slli4, BitVec.getLsbD_shiftLeft, getLsbD_dwords, getLsbD_dwords]
  by_cases h1 : i < 32
  · simp [h1]
  · rw [if_neg h1]
    simp only [hi, h1, decide_true, decide_false, Bool.not_false, Bool.true_and]
    by_cases h2 : i < 64
    · rw [if_pos h2, if_pos (by omega)]
    · rw [if_neg h2, if_neg (by omega)]
      by_cases h3 : i < 96
      · rw [if_pos h3, if_pos (by omega)]; rfl
      · rw [if_neg h3, if_neg (by omega), if_pos (by omega)]; rfl

/-! ### Key expansion -/

/-- `k` holds round key `r`. -/
def Rep (key : Bytes) (r : Nat) (k : M128) : Prop :=
  wd (dword k 0) = Spec.Aes.word key (4 * r) ∧ wd (dword k 1) = Spec.Aes.word key (4 * r + 1) ∧
  wd (dword k 2) = Spec.Aes.word key (4 * r + 2) ∧ wd (dword k 3) = Spec.Aes.word key (4 * r + 3)

theorem Rep.store {key : Bytes} {r : Nat} {k : M128} (h : Rep key r k) : store k = Spec.Aes.roundKey key r := by
  obtain ⟨h0, h1, h2, h3⟩ := h
  rw [← dwords_dword k, store_dwords, h0, h1, h2, h3, Spec.Aes.roundKey]
  simp only [List.append_assoc]

theorem chain (w k : BitVec 32) (t : M128) (a b c d : BitVec 32) (ht : t = dwords a b c d) (hk : k = w) :
    (t ^^^ slli4 t ^^^ slli4 (slli4 t) ^^^ slli4 (slli4 (slli4 t)) ^^^ dwords k k k k) =
      dwords (a ^^^ w) (b ^^^ (a ^^^ w)) (c ^^^ (b ^^^ (a ^^^ w))) (d ^^^ (c ^^^ (b ^^^ (a ^^^ w)))) := by
  subst ht hk
  rw [slli4_dwords, slli4_dwords, slli4_dwords, dwords_xor, dwords_xor, dwords_xor, dwords_xor]
  simp only [BitVec.xor_zero]
  congr 1
  · rw [← BitVec.xor_assoc]
  · rw [← BitVec.xor_assoc, ← BitVec.xor_assoc]
  · rw [← BitVec.xor_assoc, ← BitVec.xor_assoc, ← BitVec.xor_assoc]

/-- Words of the schedule that are just `w[i - nk] ⊕ w[i - 1]`. -/
theorem word_plain (key : Bytes) (i nk : Nat) (hn : key.length / 4 = nk) (hi : nk ≤ i) (h0 : i % nk ≠ 0)
    (h4 : ¬ (6 < nk ∧ i % nk = 4)) (hp : 0 < nk) :
    Spec.Aes.word key i = Spec.Aes.xorBytes (Spec.Aes.word key (i - nk)) (Spec.Aes.word key (i - 1)) := by
  rw [Spec.Aes.word]
  simp only [hn]
  rw [dif_neg (by omega), if_neg h0, if_neg h4]

theorem word_rcon (key : Bytes) (i nk : Nat) (hn : key.length / 4 = nk) (hi : nk ≤ i) (h0 : i % nk = 0)
    (hp : 0 < nk) :
    Spec.Aes.word key i = Spec.Aes.xorBytes (Spec.Aes.word key (i - nk))
      (Spec.Aes.xorBytes (Spec.Aes.subWord (Spec.Aes.rotWord (Spec.Aes.word key (i - 1))))
        (Spec.Aes.rcon (i / nk))) := by
  rw [Spec.Aes.word]
  simp only [hn]
  rw [dif_neg (by omega), if_pos h0]

theorem word_sub (key : Bytes) (i nk : Nat) (hn : key.length / 4 = nk) (hi : nk ≤ i) (h0 : i % nk ≠ 0)
    (h4 : 6 < nk ∧ i % nk = 4) :
    Spec.Aes.word key i = Spec.Aes.xorBytes (Spec.Aes.word key (i - nk))
      (Spec.Aes.subWord (Spec.Aes.word key (i - 1))) := by
  rw [Spec.Aes.word]
  simp only [hn]
  rw [dif_neg (by omega), if_neg h0, if_pos h4]

theorem sub_rot_comm (w : Bytes) : Spec.Aes.rotWord (Spec.Aes.subWord w) = Spec.Aes.subWord (Spec.Aes.rotWord w) := by
  simp [Spec.Aes.rotWord, Spec.Aes.subWord]

theorem wd_assist (x : BitVec 32) (rc : Byte) : wd (rotWord32 (subWord32 x) ^^^ rc.setWidth 32) =
    Spec.Aes.xorBytes (Spec.Aes.subWord (Spec.Aes.rotWord (wd x))) [rc, 0#8, 0#8, 0#8] := by
  rw [wd_xor, wd_rotWord, wd_subWord, sub_rot_comm, wd_rcon]

theorem shuffle_ff (a b c d : BitVec 32) : shuffle32 (dwords a b c d) 0b11111111 = dwords d d d d := by
  simp [shuffle32]
theorem shuffle_aa (a b c d : BitVec 32) : shuffle32 (dwords a b c d) 0b10101010 = dwords c c c c := by
  simp [shuffle32]

theorem expand128_ok (key : Bytes) (hk : key.length = 16) (r : Nat) (rc : Byte) (k : M128)
    (hrc : Spec.Aes.rcon (r + 1) = [rc, 0#8, 0#8, 0#8]) (h : Rep key r k) :
    Rep key (r + 1) (expand128 rc k) := by
  have hn : key.length / 4 = 4 := by omega
  obtain ⟨h0, h1, h2, h3⟩ := h
  rw [expand128]
  simp only [keygenassist]
  rw [shuffle_ff, chain _ _ k _ _ _ _ (dwords_dword k).symm rfl]
  have e0 : wd (dword k 0 ^^^ (rotWord32 (subWord32 (dword k 3)) ^^^ rc.setWidth 32)) =
      Spec.Aes.word key (4 * (r + 1)) := by
    rw [wd_xor, wd_assist, h0, h3, word_rcon key (4 * (r + 1)) 4 hn (by omega) (by omega) (by omega),
      show 4 * (r + 1) / 4 = r + 1 by omega, hrc, show 4 * (r + 1) - 4 = 4 * r by omega,
      show 4 * (r + 1) - 1 = 4 * r + 3 by omega]
  have e1 : wd (dword k 1 ^^^ (dword k 0 ^^^ (rotWord32 (subWord32 (dword k 3)) ^^^ rc.setWidth 32))) =
      Spec.Aes.word key (4 * (r + 1) + 1) := by
    rw [wd_xor, e0, h1, word_plain key (4 * (r + 1) + 1) 4 hn (by omega) (by omega) (by omega) (by omega),
      show 4 * (r + 1) + 1 - 4 = 4 * r + 1 by omega, Nat.add_sub_cancel]
  have e2 : wd (dword k 2 ^^^ (dword k 1 ^^^ (dword k 0 ^^^ (rotWord32 (subWord32 (dword k 3)) ^^^
      rc.setWidth 32)))) = Spec.Aes.word key (4 * (r + 1) + 2) := by
    rw [wd_xor, e1, h2, word_plain key (4 * (r + 1) + 2) 4 hn (by omega) (by omega) (by omega) (by omega),
      show 4 * (r + 1) + 2 - 4 = 4 * r + 2 by omega, show 4 * (r + 1) + 2 - 1 = 4 * (r + 1) + 1 by omega]
  have e3 : wd (dword k 3 ^^^ (dword k 2 ^^^ (dword k 1 ^^^ (dword k 0 ^^^ (rotWord32 (subWord32 (dword k 3))
      ^^^ rc.setWidth 32))))) = Spec.Aes.word key (4 * (r + 1) + 3) := by
    rw [wd_xor, e2, h3, word_plain key (4 * (r + 1) + 3) 4 hn (by omega) (by omega) (by omega) (by omega),
      show 4 * (r + 1) + 3 - 4 = 4 * r + 3 by omega, show 4 * (r + 1) + 3 - 1 = 4 * (r + 1) + 2 by omega]
  exact ⟨by rw [dword0]; exact e0, by rw [dword1]; exact e1, by rw [dword2]; exact e2,
    by rw [dword3]; exact e3⟩

theorem expand256Odd_ok (key : Bytes) (hk : key.length = 32) (m : Nat) (rc : Byte) (k l : M128)
    (hrc : Spec.Aes.rcon (m + 1) = [rc, 0#8, 0#8, 0#8]) (h : Rep key (2 * m) k) (hl : Rep key (2 * m + 1) l) :
    Rep key (2 * m + 2) (expand256Odd rc k l) := by
  have hn : key.length / 4 = 8 := by omega
  obtain ⟨h0, h1, h2, h3⟩ := h
  obtain ⟨_, _, _, l3⟩ := hl
  rw [expand256Odd]
  simp only [keygenassist]
  rw [shuffle_ff, chain _ _ k _ _ _ _ (dwords_dword k).symm rfl]
  have e0 : wd (dword k 0 ^^^ (rotWord32 (subWord32 (dword l 3)) ^^^ rc.setWidth 32)) =
      Spec.Aes.word key (4 * (2 * m + 2)) := by
    rw [wd_xor, wd_assist, h0, l3, word_rcon key (4 * (2 * m + 2)) 8 hn (by omega) (by omega) (by omega),
      show 4 * (2 * m + 2) / 8 = m + 1 by omega, hrc, show 4 * (2 * m + 2) - 8 = 4 * (2 * m) by omega,
      show 4 * (2 * m + 2) - 1 = 4 * (2 * m + 1) + 3 by omega]
  have e1 : wd (dword k 1 ^^^ (dword k 0 ^^^ (rotWord32 (subWord32 (dword l 3)) ^^^ rc.setWidth 32))) =
      Spec.Aes.word key (4 * (2 * m + 2) + 1) := by
    rw [wd_xor, e0, h1, word_plain key (4 * (2 * m + 2) + 1) 8 hn (by omega) (by omega) (by omega) (by omega),
      show 4 * (2 * m + 2) + 1 - 8 = 4 * (2 * m) + 1 by omega, Nat.add_sub_cancel]
  have e2 : wd (dword k 2 ^^^ (dword k 1 ^^^ (dword k 0 ^^^ (rotWord32 (subWord32 (dword l 3)) ^^^
      rc.setWidth 32)))) = Spec.Aes.word key (4 * (2 * m + 2) + 2) := by
    rw [wd_xor, e1, h2, word_plain key (4 * (2 * m + 2) + 2) 8 hn (by omega) (by omega) (by omega) (by omega),
      show 4 * (2 * m + 2) + 2 - 8 = 4 * (2 * m) + 2 by omega,
      show 4 * (2 * m + 2) + 2 - 1 = 4 * (2 * m + 2) + 1 by omega]
  have e3 : wd (dword k 3 ^^^ (dword k 2 ^^^ (dword k 1 ^^^ (dword k 0 ^^^ (rotWord32 (subWord32 (dword l 3))
      ^^^ rc.setWidth 32))))) = Spec.Aes.word key (4 * (2 * m + 2) + 3) := by
    rw [wd_xor, e2, h3, word_plain key (4 * (2 * m + 2) + 3) 8 hn (by omega) (by omega) (by omega) (by omega),
      show 4 * (2 * m + 2) + 3 - 8 = 4 * (2 * m) + 3 by omega,
      show 4 * (2 * m + 2) + 3 - 1 = 4 * (2 * m + 2) + 2 by omega]
  exact ⟨by rw [dword0]; exact e0, by rw [dword1]; exact e1, by rw [dword2]; exact e2,
    by rw [dword3]; exact e3⟩

theorem expand256Even_ok (key : Bytes) (hk : key.length = 32) (m : Nat) (k l : M128)
    (h : Rep key (2 * m + 1) k) (hl : Rep key (2 * m + 2) l) : Rep key (2 * m + 3) (expand256Even l k) := by
  have hn : key.length / 4 = 8 := by omega
  obtain ⟨h0, h1, h2, h3⟩ := h
  obtain ⟨_, _, _, l3⟩ := hl
  rw [expand256Even]
  simp only [keygenassist]
  rw [shuffle_aa, chain _ _ k _ _ _ _ (dwords_dword k).symm rfl]
  have e0 : wd (dword k 0 ^^^ subWord32 (dword l 3)) = Spec.Aes.word key (4 * (2 * m + 3)) := by
    rw [wd_xor, wd_subWord, h0, l3, word_sub key (4 * (2 * m + 3)) 8 hn (by omega) (by omega) (by omega),
      show 4 * (2 * m + 3) - 8 = 4 * (2 * m + 1) by omega,
      show 4 * (2 * m + 3) - 1 = 4 * (2 * m + 2) + 3 by omega]
  have e1 : wd (dword k 1 ^^^ (dword k 0 ^^^ subWord32 (dword l 3))) =
      Spec.Aes.word key (4 * (2 * m + 3) + 1) := by
    rw [wd_xor, e0, h1, word_plain key (4 * (2 * m + 3) + 1) 8 hn (by omega) (by omega) (by omega) (by omega),
      show 4 * (2 * m + 3) + 1 - 8 = 4 * (2 * m + 1) + 1 by omega, Nat.add_sub_cancel]
  have e2 : wd (dword k 2 ^^^ (dword k 1 ^^^ (dword k 0 ^^^ subWord32 (dword l 3)))) =
      Spec.Aes.word key (4 * (2 * m + 3) + 2) := by
    rw [wd_xor, e1, h2, word_plain key (4 * (2 * m + 3) + 2) 8 hn (by omega) (by omega) (by omega) (by omega),
      show 4 * (2 * m + 3) + 2 - 8 = 4 * (2 * m + 1) + 2 by omega,
      show 4 * (2 * m + 3) + 2 - 1 = 4 * (2 * m + 3) + 1 by omega]
  have e3 : wd (dword k 3 ^^^ (dword k 2 ^^^ (dword k 1 ^^^ (dword k 0 ^^^ subWord32 (dword l 3))))) =
      Spec.Aes.word key (4 * (2 * m + 3) + 3) := by
    rw [wd_xor, e2, h3, word_plain key (4 * (2 * m + 3) + 3) 8 hn (by omega) (by omega) (by omega) (by omega),
      show 4 * (2 * m + 3) + 3 - 8 = 4 * (2 * m + 1) + 3 by omega,
      show 4 * (2 * m + 3) + 3 - 1 = 4 * (2 * m + 3) + 2 by omega]
  exact ⟨by rw [dword0]; exact e0, by rw [dword1]; exact e1, by rw [dword2]; exact e2,
    by rw [dword3]; exact e3⟩

/-- The first words are the key itself. -/
theorem word_key (key : Bytes) (i : Nat) (h : i < key.length / 4) :
    Spec.Aes.word key i = (key.drop (4 * i)).take 4 := by
  rw [Spec.Aes.word, dif_pos (Or.inl h)]

theorem take16 (b : Bytes) (h : b.length = 16) :
    b = b.take 4 ++ ((b.drop 4).take 4 ++ ((b.drop 8).take 4 ++ (b.drop 12).take 4)) := by
  match b, h with
  | [a0, a1, a2, a3, a4, a5, a6, a7, a8, a9, a10, a11, a12, a13, a14, a15], _ => rfl

theorem rep_load (key : Bytes) (r : Nat) (h : 4 * r + 4 ≤ key.length / 4) :
    Rep key r (load ((key.drop (16 * r)).take 16)) := by
  have hl : ((key.drop (16 * r)).take 16).length = 16 := by rw [List.length_take, List.length_drop]; omega
  rw [take16 _ hl, load_words _ _ _ _ (by simp; omega) (by simp; omega) (by simp; omega) (by simp; omega)]
  refine ⟨?_, ?_, ?_, ?_⟩
  · rw [dword0, wd_ofNat_leNat _ (by simp; omega), word_key _ _ (by omega), List.take_take]
    congr 2; omega
  · rw [dword1, wd_ofNat_leNat _ (by simp; omega), word_key _ _ (by omega), List.drop_take, List.take_take,
      List.drop_drop]
    congr 2; omega
  · rw [dword2, wd_ofNat_leNat _ (by simp; omega), word_key _ _ (by omega), List.drop_take, List.take_take,
      List.drop_drop]
    congr 2; omega
  · rw [dword3, wd_ofNat_leNat _ (by simp; omega), word_key _ _ (by omega), List.drop_take, List.take_take,
      List.drop_drop]
    congr 2; omega

theorem aes128_rep (key : Bytes) (hk : key.length = 16) (r : Nat) (hr : r < 11) :
    Rep key r ((aes128Expand key).getD r 0#128) := by
  have k0 : Rep key 0 (load key) := by
    have := rep_load key 0 (by omega)
    rwa [Nat.mul_zero, List.drop_zero, List.take_of_length_le (by omega)] at this
  have k1 := expand128_ok key hk 0 0x01 _ (by decide +kernel) k0
  have k2 := expand128_ok key hk 1 0x02 _ (by decide +kernel) k1
  have k3 := expand128_ok key hk 2 0x04 _ (by decide +kernel) k2
  have k4 := expand128_ok key hk 3 0x08 _ (by decide +kernel) k3
  have k5 := expand128_ok key hk 4 0x10 _ (by decide +kernel) k4
  have k6 := expand128_ok key hk 5 0x20 _ (by decide +kernel) k5
  have k7 := expand128_ok key hk 6 0x40 _ (by decide +kernel) k6
  have k8 := expand128_ok key hk 7 0x80 _ (by decide +kernel) k7
  have k9 := expand128_ok key hk 8 0x1b _ (by decide +kernel) k8
  have k10 := expand128_ok key hk 9 0x36 _ (by decide +kernel) k9
  match r, hr with
  | 0, _ => exact k0
  | 1, _ => exact k1
  | 2, _ => exact k2
  | 3, _ => exact k3
  | 4, _ => exact k4
  | 5, _ => exact k5
  | 6, _ => exact k6
  | 7, _ => exact k7
  | 8, _ => exact k8
  | 9, _ => exact k9
  | 10, _ => exact k10

theorem aes256_rep (key : Bytes) (hk : key.length = 32) (r : Nat) (hr : r < 15) :
    Rep key r ((aes256Expand key).getD r 0#128) := by
  have k0 : Rep key 0 (load (key.take 16)) := by
    have := rep_load key 0 (by omega)
    rwa [Nat.mul_zero, List.drop_zero] at this
  have k1 : Rep key 1 (load ((key.drop 16).take 16)) := rep_load key 1 (by omega)
  have k2 := expand256Odd_ok key hk 0 0x01 _ _ (by decide +kernel) k0 k1
  have k3 := expand256Even_ok key hk 0 _ _ k1 k2
  have k4 := expand256Odd_ok key hk 1 0x02 _ _ (by decide +kernel) k2 k3
  have k5 := expand256Even_ok key hk 1 _ _ k3 k4
  have k6 := expand256Odd_ok key hk 2 0x04 _ _ (by decide +kernel) k4 k5
  have k7 := expand256Even_ok key hk 2 _ _ k5 k6
  have k8 := expand256Odd_ok key hk 3 0x08 _ _ (by decide +kernel) k6 k7
  have k9 := expand256Even_ok key hk 3 _ _ k7 k8
  have k10 := expand256Odd_ok key hk 4 0x10 _ _ (by decide +kernel) k8 k9
  have k11 := expand256Even_ok key hk 4 _ _ k9 k10
  have k12 := expand256Odd_ok key hk 5 0x20 _ _ (by decide +kernel) k10 k11
  have k13 := expand256Even_ok key hk 5 _ _ k11 k12
  have k14 := expand256Odd_ok key hk 6 0x40 _ _ (by decide +kernel) k12 k13
  match r, hr with
  | 0, _ => exact k0
  | 1, _ => exact k1
  | 2, _ => exact k2
  | 3, _ => exact k3
  | 4, _ => exact k4
  | 5, _ => exact k5
  | 6, _ => exact k6
  | 7, _ => exact k7
  | 8, _ => exact k8
  | 9, _ => exact k9
  | 10, _ => exact k10
  | 11, _ => exact k11
  | 12, _ => exact k12
  | 13, _ => exact k13
  | 14, _ => exact k14

/-- What `AesKey::new` builds: `rounds + 1` round keys, each the one FIPS 197 defines. -/
theorem new_ok (key : Bytes) (hk : key.length = 16 ∨ key.length = 32) :
    ∃ k, AesKey.new key = some k ∧ k.roundKeys.length = Spec.Aes.rounds key + 1 ∧
      ∀ r, r ≤ Spec.Aes.rounds key → store (k.roundKeys.getD r 0#128) = Spec.Aes.roundKey key r := by
  rcases hk with hk | hk
  · refine ⟨⟨aes128Expand key⟩, by simp only [AesKey.new, hk], by rw [Spec.Aes.rounds, hk]; rfl, ?_⟩
    intro r hr
    rw [Spec.Aes.rounds, hk] at hr
    exact (aes128_rep key hk r (by omega)).store
  · refine ⟨⟨aes256Expand key⟩, by simp only [AesKey.new, hk], by rw [Spec.Aes.rounds, hk]; rfl, ?_⟩
    intro r hr
    rw [Spec.Aes.rounds, hk] at hr
    exact (aes256_rep key hk r (by omega)).store

/-! ### The rounds -/

theorem subBytes_shiftRows (s : Bytes) (h : s.length = 16) :
    Spec.Aes.subBytes (Spec.Aes.shiftRows s) = Spec.Aes.shiftRows (Spec.Aes.subBytes s) := by
  match s, h with
  | [a0, a1, a2, a3, a4, a5, a6, a7, a8, a9, a10, a11, a12, a13, a14, a15], _ => rfl

theorem shiftRows_length (s : Bytes) : (Spec.Aes.shiftRows s).length = 16 := by simp [Spec.Aes.shiftRows]
theorem mixColumns_length (s : Bytes) : (Spec.Aes.mixColumns s).length = 16 := rfl

theorem aesenc_ok (a rk : M128) : store (aesenc a rk) = Spec.Aes.xorBytes
    (Spec.Aes.mixColumns (Spec.Aes.shiftRows (Spec.Aes.subBytes (store a)))) (store rk) := by
  rw [aesenc, store_xor, store_load _ (mixColumns_length _), subBytes_shiftRows _ (store_length a)]

theorem aesenclast_ok (a rk : M128) : store (aesenclast a rk) = Spec.Aes.xorBytes
    (Spec.Aes.shiftRows (Spec.Aes.subBytes (store a))) (store rk) := by
  rw [aesenclast, store_xor, store_load _ (by simp [Spec.Aes.subBytes, shiftRows_length]),
    subBytes_shiftRows _ (store_length a)]

theorem middle_eq (ks : List M128) (n : Nat) (h : ks.length = n + 2) :
    (ks.drop 1).dropLast = (List.range n).map fun r => ks.getD (r + 1) 0#128 := by
  apply List.ext_getElem
  · simp; omega
  · intro i h1 h2
    have hi : i < n := by simpa using h2
    rw [List.getElem_dropLast, List.getElem_drop, List.getElem_map, List.getElem_range,
      List.getD_eq_getElem?_getD, List.getElem?_eq_getElem (by omega)]
    simp only [Option.getD_some]
    congr 1; omega

theorem enc_ok (key : Bytes) (k : AesKey) (hr : 0 < Spec.Aes.rounds key)
    (hl : k.roundKeys.length = Spec.Aes.rounds key + 1)
    (hk : ∀ r, r ≤ Spec.Aes.rounds key → store (k.roundKeys.getD r 0#128) = Spec.Aes.roundKey key r)
    (b : M128) : store (k.enc b) = Spec.Aes.cipher key (store b) := by
  rw [AesKey.enc, AesKey.split]
  simp only []
  rw [aesenclast_ok, middle_eq k.roundKeys (Spec.Aes.rounds key - 1) (by omega), List.foldl_map,
    hl, Nat.add_sub_cancel, hk _ (Nat.le_refl _), Spec.Aes.cipher]
  congr 3
  have key0 : ∀ (n : Nat), n < Spec.Aes.rounds key → ∀ s, store ((List.range n).foldl (fun x y => aesenc x
      (k.roundKeys.getD (y + 1) 0#128)) s) = (List.range n).foldl (fun s r => Spec.Aes.xorBytes
        (Spec.Aes.mixColumns (Spec.Aes.shiftRows (Spec.Aes.subBytes s))) (Spec.Aes.roundKey key (r + 1)))
        (store s) := by
    intro n hn s
    induction n with
    | zero => rfl
    | succ n ih =>
      rw [List.range_succ, List.foldl_append, List.foldl_append, ← ih (by omega)]
      simp only [List.foldl_cons, List.foldl_nil]
      rw [aesenc_ok, hk _ (by omega)]
  rw [key0 _ (by omega), store_xor, hk 0 (by omega)]

/-- `AesKey::new` followed by block encryption is the AES of FIPS 197. -/
theorem aes_ok (key : Bytes) (hk : key.length = 16 ∨ key.length = 32) :
    ∃ k, AesKey.new key = some k ∧ (∀ b, store (k.enc b) = Spec.Aes.cipher key (store b)) ∧
      ∀ b, b.length = 16 → k.encryptBlock b = Spec.Aes.cipher key b := by
  obtain ⟨k, h1, h2, h3⟩ := new_ok key hk
  have h := enc_ok key k (by rw [Spec.Aes.rounds]; omega) h2 h3
  exact ⟨k, h1, h, fun b hb => by rw [AesKey.encryptBlock, h, store_load b hb]⟩

theorem foldl_lanes (rks : List M128) (v : M512) : (rks.map broadcast).foldl (lanes2 aesenc) v =
    ⟨rks.foldl aesenc v.l0, rks.foldl aesenc v.l1, rks.foldl aesenc v.l2, rks.foldl aesenc v.l3⟩ := by
  induction rks generalizing v with
  | nil => rfl
  | cons r rs ih => rw [List.map_cons, List.foldl_cons, ih]; rfl

theorem enc512_ok (k : AesKey) (v : M512) : k.enc512 v = lanes1 k.enc v := by
  rw [AesKey.enc512]
  simp only []
  rw [foldl_lanes]
  rfl

end Verif.AesX86
