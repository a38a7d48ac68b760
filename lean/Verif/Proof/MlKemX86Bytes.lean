import Verif.Proof.MlKemX86Ntt

/-! The AVX2 encodings against the standard, and the contract. -/
namespace Verif.MlKem.X86
open Verif Verif.X86 Verif.Spec.MlKem

/-- Two bytes as a lane. -/
theorem lane_bit (B : Bytes) {i : Nat} (hi : 2 * i + 1 < B.length) (b : Nat) (hb : b < 16) :
    BitVec.getLsbD (w := 16) (B.getD (2 * i + 1) 0#8 ++ B.getD (2 * i) 0#8) b = (leNat B).testBit (16 * i + b) := by
  have e : BitVec.toNat (w := 16) (B.getD (2 * i + 1) 0#8 ++ B.getD (2 * i) 0#8) = leNat B / 2 ^ (16 * i) % 2 ^ 16 := by
    have hd := leNat_drop B (2 * i)
    rw [List.drop_eq_getElem_cons (by omega), List.drop_eq_getElem_cons (i := 2 * i + 1) (by omega), leNat_cons, leNat_cons] at hd
    have g0 : B.getD (2 * i) 0#8 = B[2 * i] := by rw [List.getD_eq_getElem?_getD, List.getElem?_eq_getElem (by omega)]; rfl
    have g1 : B.getD (2 * i + 1) 0#8 = B[2 * i + 1] := by rw [List.getD_eq_getElem?_getD, List.getElem?_eq_getElem hi]; rfl
    rw [show (2 : Nat) ^ (16 * i) = 256 ^ (2 * i) by rw [show 256 = 2 ^ 8 by rfl, ← pow_mul]; congr 1; ring, ← hd, g0, g1]
    show BitVec.toNat (w := 8 + 8) (B[2 * i + 1] ++ B[2 * i]) = _
    rw [BitVec.toNat_append, ← Nat.shiftLeft_add_eq_or_of_lt B[2 * i].isLt, Nat.shiftLeft_eq]
    have h0 := B[2 * i].isLt
    have h1 := B[2 * i + 1].isLt
    omega
  rw [← BitVec.testBit_toNat, e, Nat.testBit_mod_two_pow, Nat.testBit_div_two_pow, decide_eq_true hb, Bool.true_and, Nat.add_comm]

theorem raw_bit (B : Bytes) (hB : B.length = 384) {p : Nat} (hp : p < 256) : (rawDecode 12 B).getD p 0 = leNat B / 2 ^ (12 * p) % 2 ^ 12 := by
  rw [rawDecode_group 12 (by decide) 256 B (by rw [hB]), List.getD_eq_getElem?_getD, List.getElem?_map, List.getElem?_range hp]
  rfl

/-- Any lanes that are the words of the bytes. -/
def pick (b : Nat → Lane) (r : Nat) : Lane :=
  (if r = 0 then b 0 else if r = 1 then b 1 <<< 4 ||| b 0 >>> 12 else if r = 2 then b 2 <<< 8 ||| b 1 >>> 8 else b 2 >>> 4) &&& 4095#16

theorem mask_bit : ∀ b < 16, BitVec.getLsbD 4095#16 b = decide (b < 12) := by decide

theorem pick_bit (b : Nat → Lane) (N : Nat) (h : ∀ k < 3, ∀ i < 16, (b k).getLsbD i = N.testBit (16 * k + i)) {r : Nat} (hr : r < 4) :
    (pick b r).toNat = N / 2 ^ (12 * r) % 2 ^ 12 := by
  apply Nat.eq_of_testBit_eq
  intro i
  rw [Nat.testBit_mod_two_pow, Nat.testBit_div_two_pow, BitVec.testBit_toNat]
  by_cases hi : i < 16
  · unfold pick
    rw [BitVec.getLsbD_and, mask_bit i hi]
    by_cases h12 : i < 12
    · simp only [h12, decide_true, Bool.and_true, Bool.true_and]
      interval_cases r <;> simp only [if_true, if_false, Nat.reduceEqDiff, one_ne_zero, OfNat.ofNat_ne_zero, BitVec.getLsbD_or, BitVec.getLsbD_shiftLeft, BitVec.getLsbD_ushiftRight]
      · rw [h 0 (by omega) i hi]
        congr 1
        omega
      · by_cases h4 : i < 4
        · rw [h 0 (by omega) (12 + i) (by omega)]
          simp only [h4, decide_true, Bool.not_true, Bool.and_false, Bool.false_and, Bool.false_or]
          congr 1
          omega
        · rw [h 1 (by omega) (i - 4) (by omega), BitVec.getLsbD_of_ge _ (12 + i) (by omega)]
          simp only [hi, h4, decide_true, decide_false, Bool.not_false, Bool.true_and, Bool.or_false]
          congr 1
          omega
      · by_cases h8 : i < 8
        · rw [h 1 (by omega) (8 + i) (by omega)]
          simp only [h8, decide_true, Bool.not_true, Bool.and_false, Bool.false_and, Bool.false_or]
          congr 1
          omega
        · rw [h 2 (by omega) (i - 8) (by omega), BitVec.getLsbD_of_ge _ (8 + i) (by omega)]
          simp only [hi, h8, decide_true, decide_false, Bool.not_false, Bool.true_and, Bool.or_false]
          congr 1
          omega
      · rw [h 2 (by omega) (4 + i) (by omega)]
        congr 1
        omega
    · simp only [h12, decide_false, Bool.and_false, Bool.false_and]
  · rw [BitVec.getLsbD_of_ge _ _ (by omega), decide_eq_false (by omega), Bool.false_and]

theorem frombytesLane_eq (B : Bytes) (p : Nat) :
    frombytesLane B p = pick (fun k => B.getD (2 * (3 * (p / 4) + k) + 1) 0#8 ++ B.getD (2 * (3 * (p / 4) + k)) 0#8) (p % 4) := rfl

theorem raw_lane (B : Bytes) (hB : B.length = 384) {p : Nat} (hp : p < 256) : (frombytesLane B p).toNat = (rawDecode 12 B).getD p 0 := by
  rw [raw_bit B hB hp, frombytesLane_eq, pick_bit _ (leNat B / 2 ^ (48 * (p / 4))) _ (by omega), Nat.div_div_eq_div_mul, ← pow_add]
  · rw [show 48 * (p / 4) + 12 * (p % 4) = 12 * p by omega]
  · intro k hk i hi
    rw [lane_bit B (by omega) i hi, Nat.testBit_div_two_pow]
    congr 1
    ring

theorem frombytes_ok (B : Bytes) (hB : B.length = 384) : frombytes B = layL sigma (rawDecode 12 B) := by
  unfold frombytes layL arr
  refine List.ext_getElem (by rw [List.length_map, List.length_range, List.length_ofFn]) fun i h1 h2 => ?_
  have hi : i < 256 := by rwa [List.length_ofFn] at h2
  have hp : place i < 256 := (sigma ⟨i, hi⟩).isLt
  simp only [List.getElem_map, List.getElem_range, List.getElem_ofFn]
  have e := raw_lane B hB hp
  have hlt : (rawDecode 12 B).getD (place i) 0 < 4096 := by rw [raw_bit B hB hp]; exact Nat.mod_lt _ (by decide)
  show (frombytesLane B (place i)).toInt = (((rawDecode 12 B).getD (place i) 0 : Nat) : Int)
  rw [← e] at hlt ⊢
  exact BitVec.toInt_eq_toNat_of_lt (by omega)

/-! ### Writing -/

theorem tobytes_lane (a : Coeffs) {i : Nat} (hi : i < 192) :
    (tobytes a).length = 384 ∧ (tobytes a).getD (2 * i + 1) 0#8 ++ (tobytes a).getD (2 * i) 0#8 = tobytesLane a i := by
  have len : ∀ (n : Nat) (f : Nat → BitVec 16), ((List.range n).flatMap fun i => [(f i).setWidth 8, (f i >>> 8).setWidth 8]).length = 2 * n := by
    intro n f
    induction n with
    | zero => rfl
    | succ n ih =>
      rw [List.range_succ, List.flatMap_append, List.length_append, ih]
      rfl
  have key : ∀ (n : Nat) (f : Nat → BitVec 16) (i k : Nat), i < n → k < 2 →
      ((List.range n).flatMap fun i => [(f i).setWidth 8, (f i >>> 8).setWidth 8]).getD (2 * i + k) 0#8 =
        [(f i).setWidth 8, (f i >>> 8).setWidth 8].getD k 0#8 := by
    intro n
    induction n with
    | zero => intro f i k hi; omega
    | succ n ih =>
      intro f i k hi hk
      rw [List.range_succ_eq_map, List.flatMap_cons, List.flatMap_map]
      cases i with
      | zero => interval_cases k <;> rfl
      | succ i =>
        have := ih (fun i => f (i + 1)) i k (by omega) hk
        rw [show 2 * (i + 1) + k = (2 * i + k) + 1 + 1 by ring, List.cons_append, List.cons_append, List.nil_append, List.getD_cons_succ,
          List.getD_cons_succ]
        exact this
  refine ⟨len 192 _, ?_⟩
  unfold tobytes
  rw [key 192 (tobytesLane a) i 1 hi (by omega), show 2 * i = 2 * i + 0 from rfl, key 192 (tobytesLane a) i 0 hi (by omega)]
  show ((tobytesLane a i >>> 8).setWidth 8 ++ (tobytesLane a i).setWidth 8 : BitVec (8 + 8)) = tobytesLane a i
  generalize tobytesLane a i = x
  apply BitVec.eq_of_getLsbD_eq
  intro b hb
  simp only [BitVec.getLsbD_append, BitVec.getLsbD_setWidth, BitVec.getLsbD_ushiftRight]
  interval_cases b <;> rfl

/-- Three lanes made of four coefficients give them back. -/
theorem pick_pack (x : Nat → Lane) (h : ∀ k < 4, ∀ i, 12 ≤ i → (x k).getLsbD i = false) {r : Nat} (hr : r < 4) :
    pick (fun k => if k = 0 then x 0 ||| x 1 <<< 12 else if k = 1 then x 2 <<< 8 ||| x 1 >>> 4 else x 3 <<< 4 ||| x 2 >>> 8) r = x r := by
  apply BitVec.eq_of_getLsbD_eq
  intro i hi
  unfold pick
  rw [BitVec.getLsbD_and, mask_bit i hi]
  by_cases h12 : i < 12
  · have f0 : ∀ i (hi : i < 16), 12 ≤ i → (x 0)[i] = false := fun i hi h' => by rw [← BitVec.getLsbD_eq_getElem]; exact h 0 (by omega) i h'
    have f1 : ∀ i (hi : i < 16), 12 ≤ i → (x 1)[i] = false := fun i hi h' => by rw [← BitVec.getLsbD_eq_getElem]; exact h 1 (by omega) i h'
    have f2 : ∀ i (hi : i < 16), 12 ≤ i → (x 2)[i] = false := fun i hi h' => by rw [← BitVec.getLsbD_eq_getElem]; exact h 2 (by omega) i h'
    have f3 : ∀ i (hi : i < 16), 12 ≤ i → (x 3)[i] = false := fun i hi h' => by rw [← BitVec.getLsbD_eq_getElem]; exact h 3 (by omega) i h'
    interval_cases r <;> interval_cases i <;>
      simp [BitVec.getLsbD_or, BitVec.getLsbD_shiftLeft, BitVec.getLsbD_ushiftRight, f0, f1, f2, f3]
  · rw [h r hr i (by omega), decide_eq_false h12, Bool.and_false]

theorem tobytes_ok (l : List Nat) (hl : l.length = 256) (h : ∀ x ∈ l, x < 4096) : tobytes (layL sigma l) = byteEncode 12 l := by
  have hB := (tobytes_lane (layL sigma l) (i := 0) (by omega)).1
  have hlen : (rawDecode 12 (tobytes (layL sigma l))).length = 256 := rawDecode_length 12 (by decide) 256 _ (by rw [hB])
  have key : rawDecode 12 (tobytes (layL sigma l)) = l := by
    refine List.ext_getElem (by rw [hlen, hl]) fun p h1 h2 => ?_
    rw [hlen] at h1
    have e := raw_lane (tobytes (layL sigma l)) hB h1
    have el : ∀ p < 256, lanes (layL sigma l) (slot p) = BitVec.ofNat 16 (l.getD p 0) := by
      intro p hp
      obtain ⟨hs, e⟩ := slot_sigma ⟨p, hp⟩
      unfold lanes layL
      rw [List.getD_eq_getElem?_getD, List.getElem?_ofFn, dif_pos hs, Option.getD_some, e hs]
      rfl
    rw [List.getD_eq_getElem?_getD, List.getElem?_eq_getElem (by rw [hlen]; exact h1), Option.getD_some] at e
    rw [← e, frombytesLane_eq]
    have hpk : ∀ b b' : Nat → Lane, (∀ k < 3, b k = b' k) → pick b (p % 4) = pick b' (p % 4) := by
      intro b b' hb
      unfold pick
      rw [hb 0 (by omega), hb 1 (by omega), hb 2 (by omega)]
    rw [hpk _ (fun k => if k = 0 then (fun k => BitVec.ofNat 16 (l.getD (4 * (p / 4) + k) 0)) 0 ||| (fun k => BitVec.ofNat 16 (l.getD (4 * (p / 4) + k) 0)) 1 <<< 12
        else if k = 1 then (fun k => BitVec.ofNat 16 (l.getD (4 * (p / 4) + k) 0)) 2 <<< 8 ||| (fun k => BitVec.ofNat 16 (l.getD (4 * (p / 4) + k) 0)) 1 >>> 4
        else (fun k => BitVec.ofNat 16 (l.getD (4 * (p / 4) + k) 0)) 3 <<< 4 ||| (fun k => BitVec.ofNat 16 (l.getD (4 * (p / 4) + k) 0)) 2 >>> 8),
      pick_pack (fun k => BitVec.ofNat 16 (l.getD (4 * (p / 4) + k) 0)) _ (by omega)]
    · show (BitVec.ofNat 16 (l.getD (4 * (p / 4) + p % 4) 0)).toNat = _
      rw [Nat.div_add_mod, List.getD_eq_getElem?_getD, List.getElem?_eq_getElem h2, Option.getD_some, BitVec.toNat_ofNat, Nat.mod_eq_of_lt]
      have := h _ (List.getElem_mem h2)
      omega
    · intro k hk i hi
      show (BitVec.ofNat 16 (l.getD (4 * (p / 4) + k) 0)).getLsbD i = false
      have := h (l.getD (4 * (p / 4) + k) 0) (by
        rw [List.getD_eq_getElem?_getD, List.getElem?_eq_getElem (by omega)]
        exact List.getElem_mem _)
      rw [BitVec.getLsbD_ofNat, Nat.testBit_lt_two_pow (lt_of_lt_of_le this (show 4096 ≤ 2 ^ i from (Nat.pow_le_pow_right (n := 2) (by omega) hi))), Bool.and_false]
    · intro k hk
      refine ((tobytes_lane (layL sigma l) (i := 3 * (p / 4) + k) (by omega)).2).trans ?_
      unfold tobytesLane
      have e3 : (3 * (p / 4) + k) / 3 = p / 4 := by omega
      have e4 : (3 * (p / 4) + k) % 3 = k := by omega
      simp only [e3, e4]
      rw [el _ (by omega), el _ (by omega), el _ (by omega), el _ (by omega)]
  rw [← byteEncode_rawDecode 12 (by decide) (tobytes (layL sigma l)) (by rw [hB]; decide), key]

/-- The AVX2 routines satisfy the contract. -/
theorem x86_contract (rej : Bytes → Coeffs) (h : ∀ B : Bytes, B.length = 504 → rej B = ints ((accepted B).take 256)) :
    Contract (x86Asm rej) sigma :=
  ⟨ntt_ok, intt_ok, reduce_ok, tomont_ok, basemul_ok, unpack_ok, tobytes_ok, frombytes_ok, h⟩

end Verif.MlKem.X86
