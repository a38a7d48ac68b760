import Verif.Spec.ChaCha20
import Verif.Model.ChaCha20X86

/-!
Lemmas for C24 and C27: both ChaCha20 back ends compute RFC 8439.
-/
namespace Verif.ChaCha20
open Verif

def Z.toList (z : Z) : List Word :=
  [z.z0, z.z1, z.z2, z.z3, z.z4, z.z5, z.z6, z.z7, z.z8, z.z9, z.za, z.zb, z.zc, z.zd, z.ze, z.zf]

theorem qr_eq : Spec.ChaCha20.qr = quarter := rfl

section
attribute [local irreducible] quarter
theorem doubleRound_eq (z : Z) : Spec.ChaCha20.doubleRound z.toList = (loopBody z).toList := by
  simp only [Spec.ChaCha20.doubleRound, Spec.ChaCha20.positions, Spec.ChaCha20.quarterRound, qr_eq,
    List.foldl_cons, List.foldl_nil, Z.toList, loopBody, List.getD_cons_zero, List.getD_cons_succ,
    List.set_cons_zero, List.set_cons_succ]
end

theorem foldl_range_repeatN {α : Type} (f : α → α) (n : Nat) (s : α) :
    (List.range n).foldl (fun s _ => f s) s = repeatN n f s := by
  induction n generalizing s with
  | zero => rfl
  | succ n ih => rw [List.range_succ_eq_map, List.foldl_cons, List.foldl_map, ih]; rfl

theorem rounds_eq (z : Z) : Spec.ChaCha20.rounds z.toList = (repeatN 10 loopBody z).toList := by
  rw [Spec.ChaCha20.rounds, foldl_range_repeatN]
  generalize 10 = n
  induction n generalizing z with
  | zero => rfl
  | succ n ih => rw [repeatN, repeatN, doubleRound_eq, ih]

theorem words_cons (b : Bytes) (h : 4 ≤ b.length) :
    Spec.ChaCha20.words b = read32 b 0 :: Spec.ChaCha20.words (b.drop 4) := by
  rw [Spec.ChaCha20.words, chunksExact_cons (by decide) h]; rfl

theorem words_short (b : Bytes) (h : b.length < 4) : Spec.ChaCha20.words b = [] := by
  rw [Spec.ChaCha20.words, chunksExact_short h]; rfl

theorem read32_drop (b : Bytes) (i j : Nat) : read32 (b.drop i) j = read32 b (i + j) := by
  rw [read32, read32, List.drop_drop]

theorem read32_take (b : Bytes) (n i : Nat) (h : i + 4 ≤ n) : read32 (b.take n) i = read32 b i := by
  rw [read32, read32, List.drop_take, List.take_take, Nat.min_eq_left (by omega)]

def W4.toList (v : W4) : List Word := [v.a, v.b, v.c, v.d]

theorem words16 (b : Bytes) (h : b.length = 16) : Spec.ChaCha20.words b = (four b).toList := by
  rw [words_cons _ (by omega), words_cons _ (by simp; omega), words_cons _ (by simp; omega),
    words_cons _ (by simp; omega), words_short _ (by simp [h])]
  simp only [List.drop_drop, read32_drop]; rfl

theorem words12 (b : Bytes) (h : b.length = 12) :
    Spec.ChaCha20.words b = [read32 b 0, read32 b 4, read32 b 8] := by
  rw [words_cons _ (by omega), words_cons _ (by simp; omega), words_cons _ (by simp; omega),
    words_short _ (by simp [h])]
  simp only [List.drop_drop, read32_drop, Nat.add_zero]

theorem words32 (b : Bytes) (h : b.length = 32) :
    Spec.ChaCha20.words b = (four (b.take 16)).toList ++ (four ((b.drop 16).take 16)).toList := by
  have h16 : (b.take 16).length = 16 := by simp; omega
  rw [← words16 _ h16, List.take_of_length_le (l := b.drop 16) (by simp; omega),
    ← words16 _ (by simp; omega)]
  simp only [Spec.ChaCha20.words]
  rw [← List.map_append, ← chunksExact_append (by decide) (by rw [h16]; omega), List.take_append_drop]

theorem sigma_eq : Spec.ChaCha20.words Spec.ChaCha20.constant = SIGMA.toList := by
  rw [words16 _ (by decide)]; decide

/-- The state words at counter `ctr`. -/
def nonceAt (nonce : Bytes) (ctr : Word) : W4 := ⟨ctr, read32 nonce 0, read32 nonce 4, read32 nonce 8⟩

theorem block_eq (key nonce : Bytes) (ctr : Word) (hk : key.length = 32) (hn : nonce.length = 12) :
    core (four (key.take 16)) (four ((key.drop 16).take 16)) (nonceAt nonce ctr) =
      Spec.ChaCha20.block key ctr nonce := by
  have e : Spec.ChaCha20.words Spec.ChaCha20.constant ++ Spec.ChaCha20.words key ++ [ctr] ++
      Spec.ChaCha20.words nonce =
      (load (four (key.take 16)) (four ((key.drop 16).take 16)) (nonceAt nonce ctr)).toList := by
    rw [sigma_eq, words32 key hk, words12 nonce hn]; rfl
  rw [Spec.ChaCha20.block, e, rounds_eq, core]
  simp only [Z.toList, Spec.ChaCha20.serialize, List.zipWith_cons_cons, List.zipWith_nil_right,
    List.map_cons, List.map_nil, List.flatten_cons, List.flatten_nil, List.append_nil, List.append_assoc, le]

theorem le_length (w : Word) : (le w).length = 4 := toLE_length _ _

theorem core_length (a b c : W4) : (core a b c).length = 64 := by
  simp [core, le_length]

theorem block_length (key nonce : Bytes) (ctr : Word) (hk : key.length = 32) (hn : nonce.length = 12) :
    (Spec.ChaCha20.block key ctr nonce).length = 64 := by
  rw [← block_eq key nonce ctr hk hn, core_length]

/-! ### The stream -/

theorem encrypt_length (key nonce : Bytes) (ctr : Word) (d : Bytes) :
    (Spec.ChaCha20.encrypt key ctr nonce d).length = d.length := by
  rw [Spec.ChaCha20.encrypt, List.length_mapIdx]

theorem encrypt_nil (key nonce : Bytes) (ctr : Word) : Spec.ChaCha20.encrypt key ctr nonce [] = [] := rfl

theorem encrypt_append (key nonce : Bytes) (ctr : Word) (a b : Bytes) (h : 64 ∣ a.length) :
    Spec.ChaCha20.encrypt key ctr nonce (a ++ b) = Spec.ChaCha20.encrypt key ctr nonce a ++
      Spec.ChaCha20.encrypt key (ctr + BitVec.ofNat 32 (a.length / 64)) nonce b := by
  obtain ⟨q, hq⟩ := h
  rw [Spec.ChaCha20.encrypt, List.mapIdx_append]
  congr 1
  rw [Spec.ChaCha20.encrypt]
  congr 1
  funext i x
  rw [Spec.ChaCha20.keystream, Spec.ChaCha20.keystream, hq, Nat.mul_div_cancel_left _ (by decide),
    BitVec.add_assoc, ← BitVec.ofNat_add]
  rw [show (i + 64 * q) / 64 = q + i / 64 by omega, show (i + 64 * q) % 64 = i % 64 by omega]

theorem encrypt_single (key nonce : Bytes) (ctr : Word) (a : Bytes) (hk : key.length = 32)
    (hn : nonce.length = 12) (h : a.length ≤ 64) :
    Spec.ChaCha20.encrypt key ctr nonce a =
      List.zipWith (· ^^^ ·) a (Spec.ChaCha20.block key ctr nonce) := by
  have hb := block_length key nonce ctr hk hn
  apply List.ext_getElem
  · rw [encrypt_length, List.length_zipWith, hb]; omega
  · intro i h1 h2
    rw [encrypt_length] at h1
    simp only [Spec.ChaCha20.encrypt, List.getElem_mapIdx, List.getElem_zipWith]
    rw [Spec.ChaCha20.keystream, Nat.div_eq_of_lt (by omega), Nat.mod_eq_of_lt (by omega)]
    rw [show ctr + BitVec.ofNat 32 0 = ctr by simp]
    rw [List.getD_eq_getElem?_getD, List.getElem?_eq_getElem (by omega), Option.getD_some]

theorem encrypt_blocks (key nonce : Bytes) (hk : key.length = 32) (hn : nonce.length = 12) (m : Nat) :
    ∀ (ctr : Word) (a : Bytes), a.length ≤ 64 * m →
    Spec.ChaCha20.encrypt key ctr nonce a = List.zipWith (· ^^^ ·) a
      ((List.range m).map fun j => Spec.ChaCha20.block key (ctr + BitVec.ofNat 32 j) nonce).flatten := by
  induction m with
  | zero =>
    intro ctr a h
    rw [List.eq_nil_of_length_eq_zero (l := a) (by omega)]; rfl
  | succ m ih =>
    intro ctr a h
    rw [List.range_succ_eq_map, List.map_cons, List.flatten_cons, List.map_map]
    rw [show ctr + BitVec.ofNat 32 0 = ctr by simp]
    by_cases hl : a.length ≤ 64
    · rw [encrypt_single _ _ _ _ hk hn hl]
      apply List.ext_getElem
      · simp only [List.length_zipWith, List.length_append, block_length key nonce ctr hk hn]; omega
      · intro i h1 h2
        simp only [List.getElem_zipWith]
        rw [List.getElem_append_left]
    · have h64 : (a.take 64).length = 64 := by simp; omega
      have := ih (ctr + 1#32) (a.drop 64) (by simp; omega)
      conv => lhs; rw [← List.take_append_drop 64 a]
      rw [encrypt_append _ _ _ _ _ (by rw [h64]; exact Nat.dvd_refl _), h64]
      rw [show ctr + BitVec.ofNat 32 (64 / 64) = ctr + 1#32 from rfl, this]
      rw [encrypt_single _ _ _ _ hk hn (by omega)]
      conv => rhs; rw [← List.take_append_drop 64 a]
      rw [List.zipWith_append (by rw [h64, block_length key nonce ctr hk hn])]
      congr 3
      apply List.map_congr_left
      intro j _
      simp only [Function.comp]
      rw [BitVec.add_assoc, Nat.succ_eq_one_add, BitVec.ofNat_add]

/-! ### Portable back end -/

/-- The state for `key` and `nonce` at counter `ctr`. -/
def stateAt (key nonce : Bytes) (ctr : Word) : ChaCha20 :=
  ⟨four (key.take 16), four ((key.drop 16).take 16), nonceAt nonce ctr⟩

/-- Number of 64-byte blocks touched by a buffer. -/
def blocksOf (n : Nat) : Nat := (n + 63) / 64

theorem cipher_ok (key nonce : Bytes) (ctr : Word) (buf : Bytes) (hk : key.length = 32)
    (hn : nonce.length = 12) :
    cipher (stateAt key nonce ctr) buf =
      (stateAt key nonce (ctr + BitVec.ofNat 32 (blocksOf buf.length)),
        Spec.ChaCha20.encrypt key ctr nonce buf) := by
  rw [cipher]
  by_cases h : buf = []
  · subst h
    rw [chunks_nil, cipherBlocks, encrypt_nil]
    simp [blocksOf]
  · have hp := List.length_pos_iff.2 h
    rw [chunks_cons (by decide) h, cipherBlocks]
    have ih := cipher_ok key nonce (ctr + 1#32) (buf.drop 64) hk hn
    rw [cipher] at ih
    have hs : ({ stateAt key nonce ctr with
        nonce := { (stateAt key nonce ctr).nonce with a := (stateAt key nonce ctr).nonce.a + 1#32 } }
        : ChaCha20) = stateAt key nonce (ctr + 1#32) := rfl
    simp only []
    rw [hs, ih]
    have hc : core (stateAt key nonce ctr).key0 (stateAt key nonce ctr).key1 (stateAt key nonce ctr).nonce
        = Spec.ChaCha20.block key ctr nonce := block_eq key nonce ctr hk hn
    rw [hc]
    simp only [List.length_drop]
    rw [← encrypt_single _ _ _ _ hk hn (by simp; omega)]
    by_cases hl : buf.length ≤ 64
    · rw [List.drop_of_length_le hl, List.take_of_length_le hl, encrypt_nil, List.append_nil]
      rw [show blocksOf (buf.length - 64) = 0 by rw [blocksOf]; omega,
        show blocksOf buf.length = 1 by rw [blocksOf]; omega]
      simp
    · have h64 : (buf.take 64).length = 64 := by simp; omega
      have e := encrypt_append key nonce ctr (buf.take 64) (buf.drop 64) (by rw [h64]; exact Nat.dvd_refl _)
      rw [List.take_append_drop, h64] at e
      rw [e, BitVec.add_assoc, ← BitVec.ofNat_add]
      rw [show 1 + blocksOf (buf.length - 64) = blocksOf buf.length by rw [blocksOf, blocksOf]; omega]
termination_by buf.length
decreasing_by simp; omega

theorem new_ok (key nonce : Bytes) (ctr : Word) (hn : nonce.length = 12) :
    new key (toLE 4 ctr.toNat ++ nonce) = stateAt key nonce ctr := by
  have hl : (toLE 4 ctr.toNat).length = 4 := toLE_length _ _
  have h0 : read32 (toLE 4 ctr.toNat ++ nonce) 0 = ctr := by
    rw [read32, List.drop_zero, List.take_left' hl, leNat_toLE]
    apply BitVec.eq_of_toNat_eq
    have := ctr.isLt
    rw [BitVec.toNat_ofNat]; omega
  have h1 : ∀ i, read32 (toLE 4 ctr.toNat ++ nonce) (4 + i) = read32 nonce i := by
    intro i
    rw [← read32_drop, List.drop_left' hl]
  simp only [new, stateAt, nonceAt, four, h0]
  rw [h1 0, h1 4, h1 8]

/-! ### HChaCha20 -/

theorem read32_le (w : Word) (rest : Bytes) : read32 (le w ++ rest) 0 = w := by
  rw [read32, List.drop_zero, List.take_left' (le_length w), le, leNat_toLE]
  apply BitVec.eq_of_toNat_eq
  have := w.isLt
  rw [BitVec.toNat_ofNat]; omega

theorem read32_le_skip (w : Word) (rest : Bytes) (i : Nat) :
    read32 (le w ++ rest) (4 + i) = read32 rest i := by
  rw [← read32_drop, List.drop_left' (le_length w)]

theorem four_le (a b c d : Word) (rest : Bytes) :
    four (le a ++ (le b ++ (le c ++ (le d ++ rest)))) = ⟨a, b, c, d⟩ := by
  rw [four, read32_le, read32_le_skip a _ 0, read32_le_skip a _ 4, read32_le_skip a _ 8,
    read32_le_skip b _ 0, read32_le_skip b _ 4, read32_le_skip c _ 0, read32_le, read32_le, read32_le]

theorem four_take (b : Bytes) (n : Nat) (h : 16 ≤ n) : four (b.take n) = four b := by
  simp only [four]
  rw [read32_take _ _ _ (by omega), read32_take _ _ _ (by omega), read32_take _ _ _ (by omega),
    read32_take _ _ _ (by omega)]

theorem hchacha_ok (key input : Bytes) (hk : key.length = 32) (hi : input.length = 16) :
    hchacha (four (key.take 16)) (four ((key.drop 16).take 16)) (four input) =
      (four ((Spec.ChaCha20.hchacha key input).take 16),
        four (((Spec.ChaCha20.hchacha key input).drop 16).take 16)) ∧
    (Spec.ChaCha20.hchacha key input).length = 32 := by
  have e : Spec.ChaCha20.words Spec.ChaCha20.constant ++ Spec.ChaCha20.words key ++
      Spec.ChaCha20.words input =
      (load (four (key.take 16)) (four ((key.drop 16).take 16)) (four input)).toList := by
    rw [sigma_eq, words32 key hk, words16 input hi]; rfl
  rw [Spec.ChaCha20.hchacha, e, rounds_eq, hchacha]
  generalize repeatN 10 loopBody _ = z
  have es : Spec.ChaCha20.serialize (z.toList.take 4 ++ z.toList.drop 12) =
      le z.z0 ++ (le z.z1 ++ (le z.z2 ++ (le z.z3 ++ (le z.zc ++ (le z.zd ++ (le z.ze ++ (le z.zf ++ []))))))) := rfl
  rw [es]
  refine ⟨?_, by simp [le_length]⟩
  rw [four_take _ _ (by omega), four_take _ _ (by omega), four_le]
  have hd : (le z.z0 ++ (le z.z1 ++ (le z.z2 ++ (le z.z3 ++ (le z.zc ++ (le z.zd ++ (le z.ze ++
      (le z.zf ++ [])))))))).drop 16 = le z.zc ++ (le z.zd ++ (le z.ze ++ (le z.zf ++ []))) := by
    rw [show 16 = 4 + (4 + (4 + 4)) from rfl]
    rw [← List.drop_drop, ← List.drop_drop, ← List.drop_drop, List.drop_left' (le_length _),
      List.drop_left' (le_length _), List.drop_left' (le_length _), List.drop_left' (le_length _)]
  rw [hd, four_le]

theorem xnew_ok (key nonce : Bytes) (hk : key.length = 32) (hn : nonce.length = 24) :
    xnew key nonce = stateAt (Spec.ChaCha20.hchacha key (nonce.take 16))
      (List.replicate 4 0#8 ++ nonce.drop 16) 0#32 := by
  obtain ⟨h1, -⟩ := hchacha_ok key (nonce.take 16) hk (by simp; omega)
  rw [xnew, h1, stateAt, List.take_of_length_le (l := nonce.drop 16) (by simp; omega)]
  have : List.replicate 8 0#8 ++ nonce.drop 16 =
      toLE 4 (0#32).toNat ++ (List.replicate 4 0#8 ++ nonce.drop 16) := rfl
  rw [this]
  have := new_ok key (List.replicate 4 0#8 ++ nonce.drop 16) 0#32 (by simp; omega)
  exact congrArg _ (congrArg ChaCha20.nonce this)

end Verif.ChaCha20

namespace Verif.ChaCha20X86
open Verif Verif.ChaCha20

/-! ### Intrinsics -/

theorem rotl_toNat (w : Word) (r : Nat) (h : r < 32) :
    (w.rotateLeft r).toNat = w.toNat % 2 ^ (32 - r) * 2 ^ r + w.toNat / 2 ^ (32 - r) := by
  have hw := w.isLt
  rw [BitVec.toNat_rotateLeft, Nat.mod_eq_of_lt h, Nat.shiftRight_eq_div_pow]
  have e : w.toNat <<< r % 2 ^ 32 = (w.toNat % 2 ^ (32 - r)) <<< r := by
    rw [Nat.shiftLeft_eq, Nat.shiftLeft_eq,
      show (2 : Nat) ^ 32 = 2 ^ (32 - r) * 2 ^ r by rw [← Nat.pow_add]; congr 1; omega,
      Nat.mul_mod_mul_right]
  rw [e, ← Nat.shiftLeft_add_eq_or_of_lt, Nat.shiftLeft_eq]
  rw [Nat.div_lt_iff_lt_mul (Nat.two_pow_pos _), ← Nat.pow_add, show r + (32 - r) = 32 by omega]
  exact hw

theorem toLE4 (v : Nat) : toLE 4 v = [BitVec.ofNat 8 v, BitVec.ofNat 8 (v / 256),
    BitVec.ofNat 8 (v / 256 / 256), BitVec.ofNat 8 (v / 256 / 256 / 256)] := rfl

theorem rot8_word (w : Word) : BitVec.ofNat 32 (leNat [BitVec.ofNat 8 (w.toNat / 256 / 256 / 256),
    BitVec.ofNat 8 w.toNat, BitVec.ofNat 8 (w.toNat / 256), BitVec.ofNat 8 (w.toNat / 256 / 256)])
    = w.rotateLeft 8 := by
  apply BitVec.eq_of_toNat_eq
  have := w.isLt
  rw [rotl_toNat _ _ (by decide)]
  simp only [leNat_cons, leNat_nil, BitVec.toNat_ofNat, Nat.div_div_eq_div_mul]
  have h3 : w.toNat / (256 * 256 * 256) % 2 ^ 8 = w.toNat / 2 ^ (32 - 8) := by omega
  have h4 : w.toNat % 2 ^ (32 - 8) = w.toNat % 2 ^ 8 + 256 * (w.toNat / 256 % 2 ^ 8) +
    65536 * (w.toNat / (256 * 256) % 2 ^ 8) := by omega
  have h5 : w.toNat / 2 ^ (32 - 8) < 256 := by omega
  rw [h3, h4]
  generalize w.toNat / 2 ^ (32 - 8) = b3 at *
  rw [Nat.mod_eq_of_lt (by omega)]
  omega

theorem rot16_word (w : Word) : BitVec.ofNat 32 (leNat [BitVec.ofNat 8 (w.toNat / 256 / 256),
    BitVec.ofNat 8 (w.toNat / 256 / 256 / 256), BitVec.ofNat 8 w.toNat, BitVec.ofNat 8 (w.toNat / 256)])
    = w.rotateLeft 16 := by
  apply BitVec.eq_of_toNat_eq
  have := w.isLt
  rw [rotl_toNat _ _ (by decide)]
  simp only [leNat_cons, leNat_nil, BitVec.toNat_ofNat, Nat.div_div_eq_div_mul]
  have h3 : w.toNat / 2 ^ (32 - 16) = w.toNat / (256 * 256) % 2 ^ 8 +
    256 * (w.toNat / (256 * 256 * 256) % 2 ^ 8) := by omega
  have h4 : w.toNat % 2 ^ (32 - 16) = w.toNat % 2 ^ 8 + 256 * (w.toNat / 256 % 2 ^ 8) := by omega
  rw [h3, h4]
  generalize w.toNat / (256 * 256 * 256) = b3 at *
  generalize w.toNat / (256 * 256) = b2 at *
  generalize w.toNat / 256 = b1 at *
  rw [Nat.mod_eq_of_lt (by omega)]
  omega

theorem rotl128_8 (x : W4) : rotl128 x 8 =
    ⟨x.a.rotateLeft 8, x.b.rotateLeft 8, x.c.rotateLeft 8, x.d.rotateLeft 8⟩ := by
  rw [← rot8_word, ← rot8_word, ← rot8_word, ← rot8_word]; rfl

theorem rotl128_16 (x : W4) : rotl128 x 16 =
    ⟨x.a.rotateLeft 16, x.b.rotateLeft 16, x.c.rotateLeft 16, x.d.rotateLeft 16⟩ := by
  rw [← rot16_word, ← rot16_word, ← rot16_word, ← rot16_word]; rfl

theorem rotl128_12 (x : W4) : rotl128 x 12 =
    ⟨x.a.rotateLeft 12, x.b.rotateLeft 12, x.c.rotateLeft 12, x.d.rotateLeft 12⟩ := rfl

theorem rotl128_7 (x : W4) : rotl128 x 7 =
    ⟨x.a.rotateLeft 7, x.b.rotateLeft 7, x.c.rotateLeft 7, x.d.rotateLeft 7⟩ := rfl

/-- Rows as the sixteen variables. -/
def toZ (r : Rows W4) : Z :=
  ⟨r.z03.a, r.z03.b, r.z03.c, r.z03.d, r.z47.a, r.z47.b, r.z47.c, r.z47.d,
    r.z8b.a, r.z8b.b, r.z8b.c, r.z8b.d, r.zcf.a, r.zcf.b, r.zcf.c, r.zcf.d⟩

/-- Lane-wise view of a quarter round on rows. -/
theorem quarterRows_ok (r : Rows W4) : quarterRows ops128 r =
    (let a := quarter r.z03.a r.z47.a r.z8b.a r.zcf.a
     let b := quarter r.z03.b r.z47.b r.z8b.b r.zcf.b
     let c := quarter r.z03.c r.z47.c r.z8b.c r.zcf.c
     let d := quarter r.z03.d r.z47.d r.z8b.d r.zcf.d
     ⟨⟨a.1, b.1, c.1, d.1⟩, ⟨a.2.1, b.2.1, c.2.1, d.2.1⟩, ⟨a.2.2.1, b.2.2.1, c.2.2.1, d.2.2.1⟩,
      ⟨a.2.2.2, b.2.2.2, c.2.2.2, d.2.2.2⟩⟩) := by
  obtain ⟨r0, r1, r2, r3⟩ := r
  simp only [quarterRows, ops128, rotl128_8, rotl128_16, rotl128_12, rotl128_7]
  rfl

section
attribute [local irreducible] quarter
theorem bodyH_ok (r : Rows W4) : toZ (body ops128 r) = loopBody (toZ r) := by
  simp only [body, quarterRows_ok]
  rfl
end

theorem repeatN_comm {α β : Type} (g : α → β) (f : α → α) (f' : β → β) (h : ∀ x, g (f x) = f' (g x))
    (n : Nat) (x : α) : g (repeatN n f x) = repeatN n f' (g x) := by
  induction n generalizing x with
  | zero => rfl
  | succ n ih => rw [repeatN, repeatN, ih, h]

def loR (r : Rows V256) : Rows W4 := ⟨r.z03.lo, r.z47.lo, r.z8b.lo, r.zcf.lo⟩
def hiR (r : Rows V256) : Rows W4 := ⟨r.z03.hi, r.z47.hi, r.z8b.hi, r.zcf.hi⟩
def atR (i : Fin 4) (r : Rows A4) : Rows V256 := ⟨r.z03 i, r.z47 i, r.z8b i, r.zcf i⟩

/-- `g` maps the operations `o` to the operations `o'`. -/
structure Hom {V V' : Type} (o : Ops V) (o' : Ops V') (g : V → V') : Prop where
  add : ∀ x y, g (o.add x y) = o'.add (g x) (g y)
  xor : ∀ x y, g (o.xor x y) = o'.xor (g x) (g y)
  rotl : ∀ x n, g (o.rotl x n) = o'.rotl (g x) n
  shuf : ∀ x n, g (o.shuf x n) = o'.shuf (g x) n

def mapR {V V' : Type} (g : V → V') (r : Rows V) : Rows V' := ⟨g r.z03, g r.z47, g r.z8b, g r.zcf⟩

theorem quarterRows_hom {V V' : Type} {o : Ops V} {o' : Ops V'} {g : V → V'} (h : Hom o o' g) (r : Rows V) :
    mapR g (quarterRows o r) = quarterRows o' (mapR g r) := by
  obtain ⟨r0, r1, r2, r3⟩ := r
  simp only [mapR, quarterRows, h.add, h.xor, h.rotl]

theorem body_hom {V V' : Type} {o : Ops V} {o' : Ops V'} {g : V → V'} (h : Hom o o' g) (r : Rows V) :
    mapR g (body o r) = body o' (mapR g r) := by
  have hq := quarterRows_hom h
  unfold body
  rw [← hq]
  have h2 := hq ⟨(quarterRows o r).z03, o.shuf (quarterRows o r).z47 0b00_11_10_01,
    o.shuf (quarterRows o r).z8b 0b01_00_11_10, o.shuf (quarterRows o r).zcf 0b10_01_00_11⟩
  simp only [mapR, h.shuf] at h2 ⊢
  rw [← h2]

theorem hom_lo : Hom ops256 ops128 V256.lo :=
  ⟨fun _ _ => rfl, fun _ _ => rfl, fun x n => by
    show (rotl256 x n).lo = rotl128 x.lo n
    unfold rotl256 rotl128; split <;> rfl, fun _ _ => rfl⟩

theorem hom_hi : Hom ops256 ops128 V256.hi :=
  ⟨fun _ _ => rfl, fun _ _ => rfl, fun x n => by
    show (rotl256 x n).hi = rotl128 x.hi n
    unfold rotl256 rotl128; split <;> rfl, fun _ _ => rfl⟩

theorem hom_at (i : Fin 4) : Hom ops4x256 ops256 (fun a => a i) :=
  ⟨fun _ _ => rfl, fun _ _ => rfl, fun _ _ => rfl, fun _ _ => rfl⟩

theorem body2_lo (r : Rows V256) : loR (body ops256 r) = body ops128 (loR r) := body_hom hom_lo r
theorem body2_hi (r : Rows V256) : hiR (body ops256 r) = body ops128 (hiR r) := body_hom hom_hi r
theorem body8_at (i : Fin 4) (r : Rows A4) : atR i (body ops4x256 r) = body ops256 (atR i r) :=
  body_hom (hom_at i) r

/-- Row-wise final addition and serialisation of one block. -/
def rowsOut (x z : Rows W4) : Bytes :=
  bytes128 (add128 z.z03 x.z03) ++ bytes128 (add128 z.z47 x.z47) ++ bytes128 (add128 z.z8b x.z8b) ++
    bytes128 (add128 z.zcf x.zcf)

theorem rowsOut_eq (k0 k1 n : W4) :
    rowsOut ⟨ChaCha20.SIGMA, k0, k1, n⟩ (repeatN 10 (body ops128) ⟨ChaCha20.SIGMA, k0, k1, n⟩) = core k0 k1 n := by
  have := repeatN_comm toZ (body ops128) loopBody bodyH_ok 10 ⟨ChaCha20.SIGMA, k0, k1, n⟩
  rw [core, show load k0 k1 n = toZ ⟨ChaCha20.SIGMA, k0, k1, n⟩ from rfl, ← this]
  generalize repeatN 10 (body ops128) _ = z
  simp only [rowsOut, bytes128, add128, toZ, List.append_assoc, BitVec.add_comm]

theorem sigma_load : load128 SIGMA = ChaCha20.SIGMA := by decide

/-- A counter increment of the nonce row. -/
def bump (n : W4) (k : Word) : W4 := { n with a := n.a + k }

theorem add_bump (n : W4) (k : Word) : add128 n ⟨k, 0#32, 0#32, 0#32⟩ = bump n k := by
  simp [add128, bump]

/-! ### Slots -/

theorem xorSlot_mid (A B C : Bytes) (k : Nat) (v : V256) (hA : A.length = 32 * k) (hB : B.length = 32) :
    xorSlot (A ++ (B ++ C)) k v = A ++ List.zipWith (· ^^^ ·) B (bytes256 v) ++ C := by
  rw [xorSlot, List.take_left' hA, List.drop_left' hA, List.take_left' hB, ← List.drop_drop,
    List.drop_left' hA, List.drop_left' hB]

theorem bytes128_length (v : W4) : (bytes128 v).length = 16 := by simp [bytes128, le_length]
theorem bytes256_length (v : V256) : (bytes256 v).length = 32 := by simp [bytes256, bytes128_length]

def slots : Bytes → Nat → List V256 → Bytes
  | buf, _, [] => buf
  | buf, k, v :: vs => slots (xorSlot buf k v) (k + 1) vs

theorem slots_ok (vs : List V256) : ∀ (A B : Bytes) (k : Nat), A.length = 32 * k →
    B.length = 32 * vs.length →
    slots (A ++ B) k vs = A ++ List.zipWith (· ^^^ ·) B (vs.map bytes256).flatten := by
  induction vs with
  | nil =>
    intro A B k hA hB
    rw [List.eq_nil_of_length_eq_zero (l := B) (by simpa using hB)]; rfl
  | cons v vs ih =>
    intro A B k hA hB
    rw [List.length_cons] at hB
    have h32 : (B.take 32).length = 32 := by simp; omega
    rw [slots]
    conv => lhs; rw [← List.take_append_drop 32 B]
    rw [xorSlot_mid _ _ _ _ _ hA h32, ih _ _ _ (by
      simp only [List.length_append, List.length_zipWith, bytes256_length, h32]; omega) (by simp; omega)]
    conv => rhs; rw [← List.take_append_drop 32 B]
    rw [List.map_cons, List.flatten_cons, List.zipWith_append (by rw [h32, bytes256_length]),
      List.append_assoc]

theorem slots0 (vs : List V256) (B : Bytes) (h : B.length = 32 * vs.length) :
    slots B 0 vs = List.zipWith (· ^^^ ·) B (vs.map bytes256).flatten :=
  slots_ok vs [] B 0 rfl h

/-! ### Cores -/

/-- The state for portable state `c`. -/
def ofPortable (c : ChaCha20.ChaCha20) : ChaCha := ⟨⟨c.key0, ChaCha20.SIGMA⟩, ⟨c.nonce, c.key1⟩⟩

/-- The keystream of `m` consecutive blocks. -/
def ks (c : ChaCha20.ChaCha20) (m : Nat) : Bytes :=
  ((List.range m).map fun j => core c.key0 c.key1 (bump c.nonce (BitVec.ofNat 32 j))).flatten

theorem bump_zero (n : W4) : bump n 0#32 = n := by simp [bump]

theorem core2_vecs (k0 k1 n : W4) :
    let x : Rows V256 := ⟨⟨ChaCha20.SIGMA, ChaCha20.SIGMA⟩, ⟨k0, k0⟩, ⟨k1, k1⟩, ⟨bump n 1#32, n⟩⟩
    let z := repeatN 10 (body ops256) x
    bytes256 (permute2x128 (add256 z.z03 x.z03) (add256 z.z47 x.z47) 0b0011_0001) ++
    bytes256 (permute2x128 (add256 z.z8b x.z8b) (add256 z.zcf x.zcf) 0b0011_0001) = core k0 k1 n ∧
    bytes256 (permute2x128 (add256 z.z03 x.z03) (add256 z.z47 x.z47) 0b0010_0000) ++
    bytes256 (permute2x128 (add256 z.z8b x.z8b) (add256 z.zcf x.zcf) 0b0010_0000) =
      core k0 k1 (bump n 1#32) := by
  intro x z
  have hh := repeatN_comm hiR (body ops256) (body ops128) body2_hi 10 x
  have hl := repeatN_comm loR (body ops256) (body ops128) body2_lo 10 x
  rw [← rowsOut_eq k0 k1 n, ← rowsOut_eq k0 k1 (bump n 1#32)]
  rw [show (⟨ChaCha20.SIGMA, k0, k1, n⟩ : Rows W4) = hiR x from rfl,
    show (⟨ChaCha20.SIGMA, k0, k1, bump n 1#32⟩ : Rows W4) = loR x from rfl, ← hh, ← hl]
  change _ = rowsOut (hiR x) (hiR z) ∧ _ = rowsOut (loR x) (loR z)
  constructor
  · simp only [rowsOut, List.append_assoc, bytes256]; rfl
  · simp only [rowsOut, List.append_assoc, bytes256]; rfl

theorem zipWith_prefix (B K L : Bytes) (h : B.length ≤ K.length) :
    List.zipWith (· ^^^ ·) B (K ++ L) = List.zipWith (· ^^^ ·) B K := by
  apply List.ext_getElem
  · simp; omega
  · intro i h1 h2
    simp only [List.getElem_zipWith]
    rw [List.getElem_append_left]

theorem core2x_ok (c : ChaCha20.ChaCha20) (buf : Bytes) (h : buf.length ≤ 128) :
    core2x (ofPortable c).z07 (ofPortable c).z8f buf =
      ((ofPortable { c with nonce := bump c.nonce (if buf.length > 32 then 2#32 else 1#32) }).z8f,
        List.zipWith (· ^^^ ·) buf (ks c 2)) := by
  obtain ⟨k0, k1, n⟩ := c
  have hk : ks ⟨k0, k1, n⟩ 2 = core k0 k1 n ++ core k0 k1 (bump n 1#32) := by
    have : ks ⟨k0, k1, n⟩ 2 = core k0 k1 (bump n 0#32) ++ (core k0 k1 (bump n 1#32) ++ []) := rfl
    rw [this, bump_zero, List.append_nil]
  obtain ⟨v1, v2⟩ := core2_vecs k0 k1 n
  have hz : add256 (broadcast (extract (ofPortable ⟨k0, k1, n⟩).z8f 0)) (set256 0 0 0 0 0 0 0 1)
      = ⟨bump n 1#32, n⟩ := by
    simp [add256, broadcast, extract, ofPortable, set256, add128, bump]
  have h8 : add256 (ofPortable ⟨k0, k1, n⟩).z8f
      (set256 0 0 0 0 0 0 0 (if buf.length > 32 then 2#32 else 1#32)) =
      (ofPortable ⟨k0, k1, bump n (if buf.length > 32 then 2#32 else 1#32)⟩).z8f := by
    simp [add256, ofPortable, set256, add128, bump]
  rw [core2x]
  simp only []
  rw [hz, h8]
  simp only [] at v1 v2
  have e1 : broadcast (extract (ofPortable ⟨k0, k1, n⟩).z07 1) = ⟨ChaCha20.SIGMA, ChaCha20.SIGMA⟩ := rfl
  have e2 : broadcast (extract (ofPortable ⟨k0, k1, n⟩).z07 0) = ⟨k0, k0⟩ := rfl
  have e3 : broadcast (extract (ofPortable ⟨k0, k1, n⟩).z8f 1) = ⟨k1, k1⟩ := rfl
  rw [e1, e2, e3]
  congr 1
  rw [hk, ← v1, ← v2]
  by_cases h1 : buf.length = 128
  · rw [if_pos h1]
    refine (slots0 [_, _, _, _] buf (by simpa using h1)).trans ?_
    simp only [List.map_cons, List.map_nil, List.flatten_cons, List.flatten_nil, List.append_nil,
      List.append_assoc]
  · rw [if_neg h1]
    by_cases h2 : buf.length = 32
    · rw [if_pos h2]
      refine (slots0 [_] buf (by simpa using h2)).trans ?_
      simp only [List.map_cons, List.map_nil, List.flatten_cons, List.flatten_nil, List.append_assoc]
      rw [zipWith_prefix _ _ _ (by rw [bytes256_length]; omega),
        zipWith_prefix _ _ _ (by rw [bytes256_length]; omega)]
    · rw [if_neg h2]
      simp only [List.append_assoc]

theorem bump_bump (n : W4) (a b : Word) : bump (bump n a) b = bump n (a + b) := by
  simp [bump, BitVec.add_assoc]

theorem core8_vecs (i : Fin 4) (k0 k1 n : W4) (p q : Word) (x : Rows A4)
    (hx : atR i x = ⟨⟨ChaCha20.SIGMA, ChaCha20.SIGMA⟩, ⟨k0, k0⟩, ⟨k1, k1⟩, ⟨bump n q, bump n p⟩⟩) :
    let z := repeatN 10 (body ops4x256) x
    bytes256 (permute2x128 (add256 (z.z03 i) (x.z03 i)) (add256 (z.z47 i) (x.z47 i)) 0b0011_0001) ++
    bytes256 (permute2x128 (add256 (z.z8b i) (x.z8b i)) (add256 (z.zcf i) (x.zcf i)) 0b0011_0001)
      = core k0 k1 (bump n p) ∧
    bytes256 (permute2x128 (add256 (z.z03 i) (x.z03 i)) (add256 (z.z47 i) (x.z47 i)) 0b0010_0000) ++
    bytes256 (permute2x128 (add256 (z.z8b i) (x.z8b i)) (add256 (z.zcf i) (x.zcf i)) 0b0010_0000)
      = core k0 k1 (bump n q) := by
  intro z
  have ha := repeatN_comm (atR i) (body ops4x256) (body ops256) (body8_at i) 10 x
  have hh := repeatN_comm hiR (body ops256) (body ops128) body2_hi 10 (atR i x)
  have hl := repeatN_comm loR (body ops256) (body ops128) body2_lo 10 (atR i x)
  rw [← rowsOut_eq k0 k1 (bump n p), ← rowsOut_eq k0 k1 (bump n q)]
  rw [show (⟨ChaCha20.SIGMA, k0, k1, bump n p⟩ : Rows W4) = hiR (atR i x) by rw [hx]; rfl,
    show (⟨ChaCha20.SIGMA, k0, k1, bump n q⟩ : Rows W4) = loR (atR i x) by rw [hx]; rfl, ← hh, ← hl, ← ha]
  change _ = rowsOut (hiR (atR i x)) (hiR (atR i z)) ∧ _ = rowsOut (loR (atR i x)) (loR (atR i z))
  constructor
  · simp only [rowsOut, List.append_assoc, bytes256]; rfl
  · simp only [rowsOut, List.append_assoc, bytes256]; rfl

theorem add256_assoc (x y z : V256) : add256 (add256 x y) z = add256 x (add256 y z) := by
  simp [add256, add128, BitVec.add_assoc]

theorem adjust_add (z : A4) (s : V256) :
    adjust (each1 (add256 · s) z) = fun i => add256 (z i) (adjust (fun _ => s) i) := by
  funext i
  match i with
  | 0 => exact add256_assoc _ _ _
  | 1 => exact add256_assoc _ _ _
  | 2 => exact add256_assoc _ _ _
  | 3 => exact add256_assoc _ _ _

theorem slots16 (buf : Bytes) (a b c d e f g h i j k l m n o p : V256) :
    xorSlot (xorSlot (xorSlot (xorSlot (xorSlot (xorSlot (xorSlot (xorSlot (xorSlot (xorSlot (xorSlot
      (xorSlot (xorSlot (xorSlot (xorSlot (xorSlot buf 0 a) 1 b) 2 c) 3 d) 4 e) 5 f) 6 g) 7 h) 8 i) 9 j)
      10 k) 11 l) 12 m) 13 n) 14 o) 15 p = slots buf 0 [a, b, c, d, e, f, g, h, i, j, k, l, m, n, o, p] := rfl

theorem core8x_ok (c : ChaCha20.ChaCha20) (buf : Bytes) (h : buf.length = 512) :
    core8x (ofPortable c).z07 (ofPortable c).z8f buf =
      ((ofPortable { c with nonce := bump c.nonce 8#32 }).z8f,
        List.zipWith (· ^^^ ·) buf (ks c 8)) := by
  obtain ⟨k0, k1, n⟩ := c
  have h8 : add256 (ofPortable ⟨k0, k1, n⟩).z8f (set256 0 0 0 0 0 0 0 8) =
      (ofPortable ⟨k0, k1, bump n 8#32⟩).z8f := by
    simp [add256, ofPortable, set256, add128, bump]
  have e1 : broadcast (extract (ofPortable ⟨k0, k1, n⟩).z07 1) = ⟨ChaCha20.SIGMA, ChaCha20.SIGMA⟩ := rfl
  have e2 : broadcast (extract (ofPortable ⟨k0, k1, n⟩).z07 0) = ⟨k0, k0⟩ := rfl
  have e3 : broadcast (extract (ofPortable ⟨k0, k1, n⟩).z8f 1) = ⟨k1, k1⟩ := rfl
  have e4 : broadcast (extract (ofPortable ⟨k0, k1, n⟩).z8f 0) = ⟨n, n⟩ := rfl
  have hk : ks ⟨k0, k1, n⟩ 8 = core k0 k1 (bump n 0#32) ++ (core k0 k1 (bump n 1#32) ++
      (core k0 k1 (bump n 2#32) ++ (core k0 k1 (bump n 3#32) ++ (core k0 k1 (bump n 4#32) ++
      (core k0 k1 (bump n 5#32) ++ (core k0 k1 (bump n 6#32) ++ (core k0 k1 (bump n 7#32) ++ []))))))) := rfl
  simp only [core8x]
  rw [h8, e1, e2, e3, e4, adjust_add, slots16, slots0 _ buf (by simpa using h), hk]
  refine Prod.ext rfl (congrArg (List.zipWith _ buf) ?_)
  have ha : ∀ (i : Fin 4) (p q : Word), adjust (fun _ => ⟨n, n⟩) i = ⟨bump n q, bump n p⟩ →
      atR i ⟨fun _ => ⟨ChaCha20.SIGMA, ChaCha20.SIGMA⟩, fun _ => ⟨k0, k0⟩, fun _ => ⟨k1, k1⟩,
        adjust fun _ => ⟨n, n⟩⟩ =
        ⟨⟨ChaCha20.SIGMA, ChaCha20.SIGMA⟩, ⟨k0, k0⟩, ⟨k1, k1⟩, ⟨bump n q, bump n p⟩⟩ := by
    intro i p q e
    simp only [atR, e]
  obtain ⟨a0, b0⟩ := core8_vecs 0 k0 k1 n 0#32 4#32 _ (ha 0 0#32 4#32 (by
    simp [adjust, add256, add128, set256, bump]))
  obtain ⟨a1, b1⟩ := core8_vecs 1 k0 k1 n 1#32 5#32 _ (ha 1 1#32 5#32 (by
    simp [adjust, add256, add128, set256, bump]))
  obtain ⟨a2, b2⟩ := core8_vecs 2 k0 k1 n 2#32 6#32 _ (ha 2 2#32 6#32 (by
    simp [adjust, add256, add128, set256, bump]))
  obtain ⟨a3, b3⟩ := core8_vecs 3 k0 k1 n 3#32 7#32 _ (ha 3 3#32 7#32 (by
    simp [adjust, add256, add128, set256, bump]))
  rw [← a0, ← a1, ← a2, ← a3, ← b0, ← b1, ← b2, ← b3]
  simp only [List.map_cons, List.map_nil, List.flatten_cons, List.flatten_nil, List.append_nil,
    List.append_assoc, each1]

/-! ### The cipher -/

theorem ks_eq (key nonce : Bytes) (ctr : Word) (m : Nat) (hk : key.length = 32) (hn : nonce.length = 12) :
    ks (stateAt key nonce ctr) m =
      ((List.range m).map fun j => Spec.ChaCha20.block key (ctr + BitVec.ofNat 32 j) nonce).flatten := by
  rw [ks]
  congr 2
  funext j
  exact block_eq key nonce (ctr + BitVec.ofNat 32 j) hk hn

/-- The 8-block loop. -/
theorem over8_ok (key nonce : Bytes) (hk : key.length = 32) (hn : nonce.length = 12) (buf : Bytes) :
    ∀ ctr, 512 ∣ buf.length →
    overChunks core8x (ofPortable (stateAt key nonce ctr)).z07 (ofPortable (stateAt key nonce ctr)).z8f
      (chunksExact 512 buf) =
      ((ofPortable (stateAt key nonce (ctr + BitVec.ofNat 32 (blocksOf buf.length)))).z8f,
        Spec.ChaCha20.encrypt key ctr nonce buf) := by
  intro ctr hd
  by_cases h : buf = []
  · subst h
    rw [chunksExact_short (by decide), overChunks, encrypt_nil]
    simp [blocksOf]
  · have hp := List.length_pos_iff.2 h
    have h512 : 512 ≤ buf.length := Nat.le_of_dvd hp hd
    have ht : (buf.take 512).length = 512 := by simp; omega
    rw [chunksExact_cons (by decide) h512, overChunks]
    have ih := over8_ok key nonce hk hn (buf.drop 512) (ctr + 8#32) (by
      rw [List.length_drop]; exact Nat.dvd_sub hd (Nat.dvd_refl _))
    rw [core8x_ok _ _ ht, ks_eq _ _ _ _ hk hn, ← encrypt_blocks _ _ hk hn 8 ctr _ (by omega)]
    have hs : ({ stateAt key nonce ctr with nonce := bump (stateAt key nonce ctr).nonce 8#32 }
        : ChaCha20.ChaCha20) = stateAt key nonce (ctr + 8#32) := rfl
    simp only [hs]
    rw [show (ofPortable (stateAt key nonce ctr)).z07 = (ofPortable (stateAt key nonce (ctr + 8#32))).z07
      from rfl, ih]
    have e := encrypt_append key nonce ctr (buf.take 512) (buf.drop 512) (by rw [ht]; omega)
    rw [List.take_append_drop, ht] at e
    simp only [List.length_drop]
    rw [e, show BitVec.ofNat 32 (512 / 64) = 8#32 from rfl, BitVec.add_assoc,
      show (8#32 : Word) = BitVec.ofNat 32 8 from rfl, ← BitVec.ofNat_add]
    rw [show 8 + blocksOf (buf.length - 512) = blocksOf buf.length by rw [blocksOf, blocksOf]; omega]
termination_by buf.length
decreasing_by simp; omega

/-- What the vector code adds to the counter for a final partial chunk: one block too many when the
tail is 33 to 64 bytes. -/
def advance (n : Nat) : Nat := blocksOf n + if 32 < n % 128 ∧ n % 128 ≤ 64 then 1 else 0

/-- The 2-block loop. -/
theorem over2_ok (key nonce : Bytes) (hk : key.length = 32) (hn : nonce.length = 12) (buf : Bytes) :
    ∀ ctr,
    overChunks core2x (ofPortable (stateAt key nonce ctr)).z07 (ofPortable (stateAt key nonce ctr)).z8f
      (chunks 128 buf) =
      ((ofPortable (stateAt key nonce (ctr + BitVec.ofNat 32 (advance buf.length)))).z8f,
        Spec.ChaCha20.encrypt key ctr nonce buf) := by
  intro ctr
  by_cases h : buf = []
  · subst h
    rw [chunks_nil, overChunks, encrypt_nil]
    simp [advance, blocksOf]
  · have hp := List.length_pos_iff.2 h
    have ht : (buf.take 128).length ≤ 128 := by simp; omega
    rw [chunks_cons (by decide) h, overChunks, core2x_ok _ _ ht, ks_eq _ _ _ _ hk hn,
      ← encrypt_blocks _ _ hk hn 2 ctr _ (by omega)]
    have hs : ∀ k, ({ stateAt key nonce ctr with nonce := bump (stateAt key nonce ctr).nonce k }
        : ChaCha20.ChaCha20) = stateAt key nonce (ctr + k) := fun _ => rfl
    simp only [hs]
    by_cases hl : buf.length ≤ 128
    · rw [List.take_of_length_le hl, List.drop_of_length_le hl, chunks_nil, overChunks]
      simp only [List.append_nil]
      congr 5
      by_cases h32 : buf.length > 32
      · rw [if_pos h32, show advance buf.length = 2 by
          by_cases h128 : buf.length = 128
          · rw [h128]; rfl
          · rw [advance, Nat.mod_eq_of_lt (show buf.length < 128 by omega), blocksOf]
            split <;> omega]
      · rw [if_neg h32, show advance buf.length = 1 by
          rw [advance, Nat.mod_eq_of_lt (show buf.length < 128 by omega), blocksOf]
          split <;> omega]
    · have h128 : (buf.take 128).length = 128 := by simp; omega
      rw [h128, if_pos (by decide)]
      have ih := over2_ok key nonce hk hn (buf.drop 128) (ctr + 2#32)
      rw [show (ofPortable (stateAt key nonce ctr)).z07 = (ofPortable (stateAt key nonce (ctr + 2#32))).z07
        from rfl, ih]
      have e := encrypt_append key nonce ctr (buf.take 128) (buf.drop 128) (by rw [h128]; omega)
      rw [List.take_append_drop, h128] at e
      simp only [List.length_drop]
      rw [e, show BitVec.ofNat 32 (128 / 64) = 2#32 from rfl, BitVec.add_assoc,
        show (2#32 : Word) = BitVec.ofNat 32 2 from rfl, ← BitVec.ofNat_add]
      rw [show 2 + advance (buf.length - 128) = advance buf.length by
        rw [advance, advance, blocksOf, blocksOf, ← Nat.mod_eq_sub_mod (by omega)]; omega]
termination_by buf.length
decreasing_by simp; omega

theorem cipher_ok (key nonce : Bytes) (ctr : Word) (buf : Bytes) (hk : key.length = 32)
    (hn : nonce.length = 12) :
    cipher (ofPortable (stateAt key nonce ctr)) buf =
      (ofPortable (stateAt key nonce (ctr + BitVec.ofNat 32 (advance buf.length))),
        Spec.ChaCha20.encrypt key ctr nonce buf) := by
  have hm : 512 * (buf.length / 512) ≤ buf.length := Nat.mul_div_le _ _
  have hl : (buf.take (512 * (buf.length / 512))).length = 512 * (buf.length / 512) := by simp; omega
  have h8 := over8_ok key nonce hk hn (buf.take (512 * (buf.length / 512))) ctr
    (by rw [hl]; exact Nat.dvd_mul_right _ _)
  rw [chunksExact_take (by decide)] at h8
  rw [cipher, h8]
  have h2 := over2_ok key nonce hk hn (chunksRem 512 buf)
    (ctr + BitVec.ofNat 32 (blocksOf (buf.take (512 * (buf.length / 512))).length))
  simp only [show ∀ c, (ofPortable (stateAt key nonce c)).z07 =
    (ofPortable (stateAt key nonce 0)).z07 from fun _ => rfl] at h2 ⊢
  rw [h2]
  have e := encrypt_append key nonce ctr (buf.take (512 * (buf.length / 512))) (chunksRem 512 buf)
    (by rw [hl]; omega)
  rw [show buf.take (512 * (buf.length / 512)) ++ chunksRem 512 buf = buf from List.take_append_drop _ _]
    at e
  simp only []
  rw [e, hl, chunksRem_length, show blocksOf (512 * (buf.length / 512)) = 512 * (buf.length / 512) / 64 by
    rw [blocksOf]; omega]
  congr 1
  apply Eq.trans (b := ofPortable (stateAt key nonce (ctr + BitVec.ofNat 32 (512 * (buf.length / 512) / 64) +
    BitVec.ofNat 32 (advance (buf.length % 512))))) rfl
  congr 2
  rw [BitVec.add_assoc, ← BitVec.ofNat_add]
  congr 2
  rw [advance, advance, blocksOf, blocksOf, show buf.length % 512 % 128 = buf.length % 128 by omega]
  omega

theorem new_ok (key nonce : Bytes) (ctr : Word) (hn : nonce.length = 12) :
    new key (toLE 4 ctr.toNat ++ nonce) = ofPortable (stateAt key nonce ctr) := by
  rw [← ChaCha20.new_ok key nonce ctr hn, new, sigma_load]; rfl

theorem xnew_eq (key nonce : Bytes) : xnew key nonce = ofPortable (ChaCha20.xnew key nonce) := by
  rw [xnew, sigma_load]
  have := repeatN_comm toZ (body ops128) loopBody bodyH_ok 10 ⟨ChaCha20.SIGMA, load128 (key.take 16),
    load128 ((key.drop 16).take 16), load128 (nonce.take 16)⟩
  generalize repeatN 10 (body ops128) _ = z at *
  rw [ChaCha20.xnew, hchacha]
  have hl : load (four (key.take 16)) (four ((key.drop 16).take 16)) (four (nonce.take 16)) =
    toZ ⟨ChaCha20.SIGMA, load128 (key.take 16), load128 ((key.drop 16).take 16), load128 (nonce.take 16)⟩ := rfl
  rw [hl, ← this]
  rfl

end Verif.ChaCha20X86
