import Verif.Proof.PosInt

/-!
`PosInt` and byte strings, and reduction modulo a possibly even number.
-/
namespace Verif.PosInt
open Verif Bignum

variable {N M : Nat} {A : Asm}

theorem pow256 (k : Nat) : 256 ^ k = 2 ^ (8 * k) := by
  rw [show (256 : Nat) = 2 ^ 8 by decide, ← Nat.pow_mul]

/-! ### Reading bytes -/

theorem beNat_trim (bs : Bytes) : beNat (trimLeadingZeroes bs) = beNat bs := by
  induction bs with
  | nil => rfl
  | cons b bs ih =>
    rw [trimLeadingZeroes]
    split
    · rename_i h; rw [ih, beNat_cons, h]; simp
    · rfl

/-- After trimming, the number needs all of the bytes. -/
theorem trim_length (bs : Bytes) (k : Nat) : (trimLeadingZeroes bs).length ≤ k ↔ beNat bs < 256 ^ k := by
  induction bs with
  | nil => simp [trimLeadingZeroes, beNat_nil, Nat.pow_pos]
  | cons b bs ih =>
    rw [trimLeadingZeroes]
    split
    · rename_i h; rw [ih, beNat_cons, h]; simp
    · rename_i h
      have hb : 0 < b.toNat := by
        rcases Nat.eq_zero_or_pos b.toNat with h' | h'
        · exact absurd (BitVec.eq_of_toNat_eq (by simpa using h')) h
        · exact h'
      have hlt := beNat_lt bs
      rw [beNat_cons, List.length_cons]
      constructor
      · intro hk
        have h1 : b.toNat * 256 ^ bs.length + beNat bs < 256 ^ (bs.length + 1) := by
          have := beNat_lt (b :: bs); rwa [beNat_cons, List.length_cons] at this
        exact Nat.lt_of_lt_of_le h1 (Nat.pow_le_pow_right (by omega) hk)
      · intro hk
        by_contra hc
        have h1 : 256 ^ k ≤ 256 ^ bs.length := Nat.pow_le_pow_right (by omega) (by omega)
        have h2 : 1 * 256 ^ bs.length ≤ b.toNat * 256 ^ bs.length := Nat.mul_le_mul_right _ hb
        omega

theorem toWords_eq_map (k n : Nat) : toWords k n = (List.range k).map fun i => BitVec.ofNat 64 (n / 2 ^ (64 * i)) := by
  induction k generalizing n with
  | zero => rfl
  | succ k ih =>
    rw [toWords, ih, List.range_succ_eq_map, List.map_cons, List.map_map]
    simp only [Nat.mul_zero, Nat.pow_zero, Nat.div_one, List.cons.injEq, true_and]
    apply List.map_congr_left
    intro i _
    simp only [Function.comp, Nat.succ_eq_add_one, pow_step, Nat.div_div_eq_div_mul]

theorem beNat_chunk (bs : Bytes) (i : Nat) (hi : 8 * (i + 1) ≤ bs.length) :
    BitVec.ofNat 64 (beNat ((bs.drop (bs.length - 8 * (i + 1))).take 8)) = BitVec.ofNat 64 (beNat bs / 2 ^ (64 * i)) := by
  have e : bs = bs.take (bs.length - 8 * (i + 1)) ++ ((bs.drop (bs.length - 8 * (i + 1))).take 8 ++ (bs.drop (bs.length - 8 * (i + 1))).drop 8) := by
    rw [List.take_append_drop, List.take_append_drop]
  have l1 : ((bs.drop (bs.length - 8 * (i + 1))).take 8).length = 8 := by rw [List.length_take, List.length_drop]; omega
  have l2 : ((bs.drop (bs.length - 8 * (i + 1))).drop 8).length = 8 * i := by rw [List.length_drop, List.length_drop]; omega
  generalize (bs.drop (bs.length - 8 * (i + 1))).take 8 = C at *
  generalize (bs.drop (bs.length - 8 * (i + 1))).drop 8 = D at *
  generalize bs.take (bs.length - 8 * (i + 1)) = B at *
  have hD := beNat_lt D
  rw [l2] at hD
  have hv : beNat bs / 2 ^ (64 * i) = beNat B * 2 ^ 64 + beNat C := by
    rw [e, beNat_append, beNat_append, List.length_append, l1, l2, show 64 * i = 8 * (8 * i) by omega, ← pow256, Nat.pow_add,
      ← Nat.mul_assoc, ← Nat.add_assoc, ← Nat.add_mul, Nat.mul_comm _ (256 ^ (8 * i)), Nat.mul_add_div (Nat.pow_pos (by omega)),
      Nat.div_eq_of_lt hD, show (256 : Nat) ^ 8 = 2 ^ 64 by decide, Nat.add_zero]
  rw [hv]
  apply BitVec.eq_of_toNat_eq
  simp only [BitVec.toNat_ofNat]
  rw [Nat.add_comm, Nat.add_mul_mod_self_right]

theorem rchunks8_words (bs : Bytes) : (rchunks8 bs).map (fun c => BitVec.ofNat 64 (beNat c)) = toWords (bs.length / 8) (beNat bs) := by
  rw [toWords_eq_map, rchunks8, List.map_map]
  apply List.map_congr_left
  intro i hi
  rw [List.mem_range] at hi
  exact beNat_chunk bs i (by omega)

theorem shl8_or (a : Word) (b : Byte) : ((a <<< 8) ||| b.zeroExtend 64).toNat = (a.toNat * 256 + b.toNat) % 2 ^ 64 := by
  have hb := b.isLt
  have ha := a.isLt
  have h1 : a.toNat * 256 % 2 ^ 64 = (a.toNat % 2 ^ 56) <<< 8 := by
    rw [Nat.shiftLeft_eq]; omega
  rw [BitVec.toNat_or, BitVec.toNat_shiftLeft, Nat.shiftLeft_eq, show (2 : Nat) ^ 8 = 256 by decide, h1]
  have h2 : (BitVec.zeroExtend 64 b).toNat = b.toNat := by
    show (BitVec.setWidth 64 b).toNat = _; rw [BitVec.toNat_setWidth]; omega
  rw [h2, ← Nat.shiftLeft_add_eq_or_of_lt (by omega), Nat.shiftLeft_eq]; omega

theorem finalWord_eq (l : Bytes) (acc : Word) : (l.foldl (fun (acc : Word) (b : Byte) => (acc <<< 8) ||| b.zeroExtend 64) acc).toNat =
    (acc.toNat * 256 ^ l.length + beNat l) % 2 ^ 64 := by
  induction l generalizing acc with
  | nil => simp [beNat_nil]; have := acc.isLt; omega
  | cons b l ih =>
    rw [List.foldl_cons, ih, shl8_or, beNat_cons, List.length_cons, Nat.pow_succ]
    rw [Nat.add_mod, Nat.mul_mod, Nat.mod_mod, ← Nat.mul_mod, ← Nat.add_mod]
    congr 1
    ring

theorem pushWords_ok (ws l : Words) (h : ws.length + l.length ≤ N) : pushWords (ofWords N ws) l = some (ofWords N (ws ++ l)) := by
  induction l generalizing ws with
  | nil => simp [pushWords]
  | cons w l ih =>
    rw [List.length_cons] at h
    have e : pushWord (ofWords N ws) w = some (ofWords N (ws ++ [w])) := by
      rw [pushWord, if_neg (by simp [ofWords]; omega)]
      congr 1
      simp only [ofWords, List.length_append, List.length_cons, List.length_nil, List.append_assoc]
      congr 1
      rw [List.set_append_right _ _ (Nat.le_refl _), Nat.sub_self, set_zero_eq (by omega),
        show N - ws.length - 1 = N - (ws.length + (0 + 1)) by omega]
      rfl
    rw [pushWords, e]
    dsimp only
    rw [ih (ws ++ [w]) (by simp; omega), List.append_assoc]
    rfl

theorem pushWord_ok (ws : Words) (w : Word) (h : ws.length < N) : pushWord (ofWords N ws) w = some (ofWords N (ws ++ [w])) := by
  have := pushWords_ok (N := N) ws [w] (by simp; omega)
  rw [pushWords] at this
  split at this
  · cases this
  · rename_i p hp; rw [pushWords] at this; rw [hp]; exact this

theorem zero_eq_ofWords : zero N = ofWords N [] := by simp [zero, ofWords]

theorem fromBytes_ok (bytes : Bytes) (h : beNat bytes < 2 ^ (64 * N)) :
    ∃ r, fromBytes N bytes = .ok r ∧ r.Inv ∧ r.value = beNat bytes ∧ ∀ k, r.used ≤ k ↔ beNat bytes < 2 ^ (64 * k) := by
  have hlen : ∀ k, (trimLeadingZeroes bytes).length ≤ 8 * k ↔ beNat bytes < 2 ^ (64 * k) := by
    intro k; rw [trim_length, pow256]; rw [show 8 * (8 * k) = 64 * k by omega]
  have hN := (hlen N).2 h
  rw [fromBytes]
  dsimp only
  rw [if_neg (by omega), rchunks8_words, beNat_trim, zero_eq_ofWords]
  generalize hT : trimLeadingZeroes bytes = T at *
  have hTv : beNat T = beNat bytes := by rw [← hT, beNat_trim]
  rw [pushWords_ok _ _ (by simp; omega), List.nil_append]
  dsimp only
  have hfw : ((T.take (T.length % 8)).foldl (fun (acc : Word) (b : Byte) => (acc <<< 8) ||| b.zeroExtend 64) 0#64).toNat =
      beNat bytes / 2 ^ (64 * (T.length / 8)) := by
    rw [finalWord_eq]
    have hd := beNat_append (T.take (T.length % 8)) (T.drop (T.length % 8))
    rw [List.take_append_drop, hTv, List.length_drop, show T.length - T.length % 8 = 8 * (T.length / 8) by omega] at hd
    have hlt := beNat_lt (T.drop (T.length % 8))
    rw [List.length_drop, show T.length - T.length % 8 = 8 * (T.length / 8) by omega] at hlt
    have hlt2 := beNat_lt (T.take (T.length % 8))
    rw [List.length_take] at hlt2
    have h56 : (256 : Nat) ^ min (T.length % 8) T.length ≤ 256 ^ 7 := Nat.pow_le_pow_right (by omega) (by omega)
    rw [show 64 * (T.length / 8) = 8 * (8 * (T.length / 8)) by omega, ← pow256, hd, Nat.mul_comm _ (256 ^ (8 * (T.length / 8))),
      Nat.mul_add_div (Nat.pow_pos (by omega)), Nat.div_eq_of_lt hlt]
    simp only [BitVec.toNat_ofNat, Nat.add_zero]
    omega
  generalize (T.take (T.length % 8)).foldl (fun (acc : Word) (b : Byte) => (acc <<< 8) ||| b.zeroExtend 64) 0#64 = fw at *
  by_cases hf : fw = 0#64
  · rw [if_neg (by simpa using hf)]
    rw [hf] at hfw
    have hlt : beNat bytes < 2 ^ (64 * (T.length / 8)) := by
      have := hfw.symm
      simp only [BitVec.toNat_ofNat, Nat.zero_mod] at this
      rcases Nat.div_eq_zero_iff.1 this with h | h
      · have := Nat.two_pow_pos (64 * (T.length / 8)); omega
      · exact h
    refine ⟨_, rfl, ofWords_inv (by simp; omega), ?_, ?_⟩
    · rw [ofWords_value, val_toWords_of_lt hlt]
    · intro k
      rw [← hlen]
      have := (hlen (T.length / 8)).2 hlt
      simp only [ofWords, toWords_length]; omega
  · rw [if_pos hf]
    have hnz : ¬ beNat bytes < 2 ^ (64 * (T.length / 8)) := by
      intro hlt
      rw [Nat.div_eq_of_lt hlt] at hfw
      exact hf (BitVec.eq_of_toNat_eq (by simpa using hfw))
    rw [← hlen] at hnz
    rw [pushWord_ok _ _ (by simp; omega)]
    refine ⟨_, rfl, ofWords_inv (by simp; omega), ?_, ?_⟩
    · rw [ofWords_value, val_append, toWords_length, val_toWords, val, hfw, val_nil, Nat.mul_zero, Nat.add_zero]
      exact Nat.mod_add_div _ _
    · intro k
      rw [← hlen]
      simp only [ofWords, List.length_append, toWords_length, List.length_cons, List.length_nil]; omega

theorem fromBytes_err (bytes : Bytes) (h : ¬ beNat bytes < 2 ^ (64 * N)) : fromBytes N bytes = .error .OutOfRange := by
  have hlen : (trimLeadingZeroes bytes).length ≤ 8 * N ↔ beNat bytes < 2 ^ (64 * N) := by
    rw [trim_length, pow256]; rw [show 8 * (8 * N) = 64 * N by omega]
  rw [← hlen] at h
  rw [fromBytes]
  dsimp only
  rw [if_pos (by omega)]

/-! ### Writing bytes -/

theorem words_bytes (ws : Words) : (ws.map fun w => toBE 8 w.toNat).reverse.flatten.length = 8 * ws.length ∧
    beNat (ws.map fun w => toBE 8 w.toNat).reverse.flatten = val ws := by
  induction ws with
  | nil => exact ⟨rfl, rfl⟩
  | cons w ws ih =>
    obtain ⟨h1, h2⟩ := ih
    rw [List.map_cons, List.reverse_cons, List.flatten_append]
    refine ⟨?_, ?_⟩
    · rw [List.length_append, h1]; simp; omega
    · rw [beNat_append, h2, val]
      simp only [List.flatten_cons, List.flatten_nil, List.append_nil, toBE_length, beNat_toBE]
      have := w.isLt
      rw [Nat.mod_eq_of_lt (by omega)]; omega

theorem beBytes_length {p : PosInt N} (h : p.Inv) : p.beBytes.length = 8 * p.used := by
  rw [beBytes, (words_bytes _).1, length_asWords h]

theorem beBytes_value (p : PosInt N) : beNat p.beBytes = p.value := (words_bytes _).2

theorem beBytes_eq {p : PosInt N} (h : p.Inv) : p.beBytes = toBE (8 * p.used) p.value := by
  rw [← beBytes_value, ← beBytes_length h, toBE_beNat]

/-! ### Reduction modulo a number that may be even -/

theorem reduceEvenBits_ok (hA : A.Ok) {m : PosInt M} (hm : m.Inv) (h2 : 1 < m.value) (word : Word) (b : Nat) (r : PosInt M) (hr : r.Inv)
    (hu : r.used = m.used) (P k : Nat) (hv : r.value = P / 2 ^ (k + b) % m.value)
    (hw : ∀ c, c < b → word.toNat / 2 ^ c % 2 = P / 2 ^ (k + c) % 2) :
    (reduceEvenBits A m word b r).Inv ∧ (reduceEvenBits A m word b r).used = m.used ∧
    (reduceEvenBits A m word b r).value = P / 2 ^ k % m.value := by
  induction b generalizing r with
  | zero => exact ⟨hr, hu, hv⟩
  | succ b ih =>
    rw [reduceEvenBits]
    have lm := length_asWords hm
    have lr : r.asWords.length = m.asWords.length := by rw [length_asWords hr, lm, hu]
    have hlt : r.value < m.value := by rw [hv]; exact Nat.mod_lt _ (by omega)
    have hmu : 0 < m.used := used_pos (by omega)
    have d1 := hA.modadd r.asWords r.asWords m.asWords lr lr hlt hlt
    change _ = (r.value + r.value) % m.value at d1
    have dl := hA.modadd_length r.asWords r.asWords m.asWords
    obtain ⟨ai, av⟩ := expand_one_inv (N := M) hmu hm.used (BitVec.ofNat 64 (word.toNat / 2 ^ b % 2))
    have av' : val (⟨(zero M).words.set 0 (BitVec.ofNat 64 (word.toNat / 2 ^ b % 2)), m.used⟩ : PosInt M).asWords =
        word.toNat / 2 ^ b % 2 := by
      rw [show val _ = PosInt.value _ from rfl, av, BitVec.toNat_ofNat]; omega
    have d2 := hA.modadd (A.modadd r.asWords r.asWords m.asWords)
      (⟨(zero M).words.set 0 (BitVec.ofNat 64 (word.toNat / 2 ^ b % 2)), m.used⟩ : PosInt M).asWords m.asWords dl
      (by rw [length_asWords ai, lm]) (by rw [d1]; exact Nat.mod_lt _ (by omega))
      (by rw [av']; show _ < m.value; omega)
    rw [av', d1] at d2
    rw [overwrite_asWords]
    have e2 : P / 2 ^ (k + b) = 2 * (P / 2 ^ (k + (b + 1))) + word.toNat / 2 ^ b % 2 := by
      rw [hw b (by omega), show k + (b + 1) = (k + b) + 1 by omega, Nat.pow_succ, ← Nat.div_div_eq_div_mul]; omega
    refine ih _ (overwrite_inv hr (by rw [hA.modadd_length, lm, hu])) (by show List.length _ = _; rw [hA.modadd_length, lm]) ?_
      (fun c hc => hw c (by omega))
    rw [overwrite_value, d2]
    show ((r.value + r.value) % m.value + _) % m.value = _
    rw [e2, hv, Nat.mod_add_mod, ← Nat.two_mul, Nat.add_mod, Nat.mul_mod_mod, ← Nat.add_mod]

theorem reduceEvenWords_ok (hA : A.Ok) {m : PosInt M} (hm : m.Inv) (h2 : 1 < m.value) (ws : Words) (j : Nat) (hj : j ≤ ws.length)
    (r : PosInt M) (hr : r.Inv) (hu : r.used = m.used) (hv : r.value = val ws / 2 ^ (64 * j) % m.value)
    (hb : ∀ w b, w < ws.length → b < 64 → (ws.getD w 0#64).toNat / 2 ^ b % 2 = val ws / 2 ^ (64 * w + b) % 2) :
    (reduceEvenWords A m ws j r).Inv ∧ (reduceEvenWords A m ws j r).used = m.used ∧
    (reduceEvenWords A m ws j r).value = val ws % m.value := by
  induction j generalizing r with
  | zero => refine ⟨hr, hu, ?_⟩; rw [reduceEvenWords, hv]; simp
  | succ j ih =>
    rw [reduceEvenWords]
    obtain ⟨i1, i2, i3⟩ := reduceEvenBits_ok hA hm h2 (ws.getD j 0#64) 64 r hr hu (val ws) (64 * j)
      (by rw [hv]; rfl) (fun c hc => hb j c (by omega) hc)
    exact ih (by omega) _ i1 i2 i3

theorem word_bit' (ws : Words) (w b : Nat) (hw : w < ws.length) (hb : b < 64) :
    (ws.getD w 0#64).toNat / 2 ^ b % 2 = val ws / 2 ^ (64 * w + b) % 2 := by
  rw [Nat.pow_add, ← Nat.div_div_eq_div_mul, ← val_drop ws w (by omega), List.drop_eq_getElem_cons hw, val,
    show ws.getD w 0#64 = ws[w] by simp [hw]]
  have : 2 ^ 64 * val (ws.drop (w + 1)) = 2 ^ b * (2 * (2 ^ (63 - b) * val (ws.drop (w + 1)))) := by
    rw [show 2 ^ 64 = 2 ^ b * (2 * 2 ^ (63 - b)) by
      rw [← Nat.pow_succ', ← Nat.pow_add]; congr 1; omega]
    ring
  rw [this, Nat.add_mul_div_left _ _ (Nat.two_pow_pos b), Nat.add_mul_mod_self_left]

/-- `m` greater than one with a non-zero top word. -/
theorem reduceEven_ok (hA : A.Ok) {p : PosInt N} {m : PosInt M} (hp : p.Inv) (hm : m.Inv) (hMN : M < N) (h2 : 1 < m.value)
    (htop : 2 ^ (64 * (m.used - 1)) ≤ m.value) (hlen : m.used - 1 ≤ p.used) :
    ∃ r, reduceEven A p m = some r ∧ r.Inv ∧ r.used = m.used ∧ r.value = p.value % m.value := by
  have hmu : 0 < m.used := used_pos (by omega)
  have hsl : ((p.words.take p.used).drop (p.used - (m.used - 1))).length = m.used - 1 := by
    rw [List.length_drop, List.length_take, hp.length]; have := hp.used; omega
  rw [reduceEven, if_neg (by omega)]
  dsimp only
  rw [if_neg (by omega)]
  refine ⟨_, rfl, ?_⟩
  generalize hsrc : (p.words.take p.used).drop (p.used - (m.used - 1)) = src at *
  have hsv : val src = p.value / 2 ^ (64 * (p.used - (m.used - 1))) := by
    rw [← hsrc, val_drop _ _ (by rw [List.length_take, hp.length]; have := hp.used; omega)]; rfl
  have hslt := val_lt src
  rw [hsl] at hslt
  have hmM := hm.used
  have hinv : (⟨src ++ List.replicate (M - (m.used - 1)) 0#64, m.used⟩ : PosInt M).Inv := by
    refine ⟨by simp [hsl]; omega, hmM, ?_⟩
    dsimp only
    rw [List.drop_append, List.drop_eq_nil_of_le (by omega), List.nil_append, List.drop_replicate, hsl]
    congr 1; omega
  have hval : (⟨src ++ List.replicate (M - (m.used - 1)) 0#64, m.used⟩ : PosInt M).value = val src := by
    rw [← val_words hinv]; dsimp only; rw [val_append, val_zeros]; omega
  have := reduceEvenWords_ok hA hm h2 p.words (p.used - (m.used - 1)) (by rw [hp.length]; have := hp.used; omega) _ hinv rfl
    (by rw [hval, val_words hp, ← hsv, Nat.mod_eq_of_lt (by omega)]) (word_bit' p.words)
  rw [val_words hp] at this
  exact this

/-- With fewer words in the value than in the modulus less one, the copy panics. -/
theorem reduceEven_panic {p : PosInt N} {m : PosInt M} (hp : p.Inv) (hlen : p.used < m.used - 1) : reduceEven A p m = none := by
  rw [reduceEven]
  split
  · rfl
  · dsimp only
    rw [if_pos]
    rw [List.length_drop, List.length_take, hp.length]; omega

end Verif.PosInt
