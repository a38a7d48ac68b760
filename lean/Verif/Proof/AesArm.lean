import Verif.Proof.Aes
import Verif.Model.AesArm

/-!
AES on aarch64: the key schedule against FIPS 197, and the rounds against those of the x86_64 model.
-/
namespace Verif.AesArm
open Verif Verif.Simd Verif.Neon Verif.AesX86

/-! ### Words in big-endian order -/

/-- The bytes of a word, most significant first. -/
def bw (x : BitVec 32) : Bytes := toBE 4 x.toNat

theorem bw_eq_wd (x : BitVec 32) : bw x = (wd x).reverse := rfl

theorem bw_length (x : BitVec 32) : (bw x).length = 4 := toBE_length _ _

theorem bw_xor (a b : BitVec 32) : bw (a ^^^ b) = Spec.Aes.xorBytes (bw a) (bw b) := by
  rw [bw_eq_wd, bw_eq_wd, bw_eq_wd, wd_xor, wd_eq, wd_eq]
  rfl

theorem bw_keyWord (key : Bytes) (i : Nat) (h : i < key.length / 4) :
    bw (keyWord key i) = Spec.Aes.word key i := by
  have hl : ((key.drop (4 * i)).take 4).length = 4 := by rw [List.length_take, List.length_drop]; omega
  rw [word_key key i h, keyWord, bw, BitVec.toNat_ofNat]
  have := beNat_lt ((key.drop (4 * i)).take 4)
  rw [hl] at this
  rw [Nat.mod_eq_of_lt (by simpa using this)]
  have h2 := toBE_beNat ((key.drop (4 * i)).take 4)
  rwa [hl] at h2

theorem bw_rot (x : BitVec 32) : bw (x.rotateLeft 8) = Spec.Aes.rotWord (bw x) := by
  rw [bw_eq_wd, bw_eq_wd, wd_eq, wd_eq]
  simp only [Spec.Aes.rotWord, List.reverse_cons, List.reverse_nil, List.nil_append, List.cons_append,
    List.drop_succ_cons, List.drop_zero, List.take_succ_cons, List.take_zero, List.cons.injEq, and_true]
  refine ⟨?_, ?_, ?_, ?_⟩ <;>
  · apply BitVec.eq_of_getLsbD_eq
    intro i hi
    simp only [BitVec.getLsbD_extractLsb', BitVec.getLsbD_rotateLeft]
    have : i = 0 ∨ i = 1 ∨ i = 2 ∨ i = 3 ∨ i = 4 ∨ i = 5 ∨ i = 6 ∨ i = 7 := by omega
    rcases this with h | h | h | h | h | h | h | h <;> subst h <;> simp

theorem wd_subWord (x : BitVec 32) : wd (subWord x) = (wd x).map Spec.Aes.sbox := by
  have e : store (vdupq32 x ^^^ 0#128) = wd x ++ (wd x ++ (wd x ++ wd x)) := by
    rw [BitVec.xor_zero, vdupq32, store_dwords]
  rw [subWord, vaeseq, e, wd_eq x]
  generalize x.extractLsb' 0 8 = a
  generalize x.extractLsb' 8 8 = b
  generalize x.extractLsb' 16 8 = c
  generalize x.extractLsb' 24 8 = d
  have e2 : Spec.Aes.subBytes (Spec.Aes.shiftRows ([a, b, c, d] ++ ([a, b, c, d] ++ ([a, b, c, d] ++ [a, b, c, d])))) =
      [a, b, c, d].map Spec.Aes.sbox ++ ([a, b, c, d].map Spec.Aes.sbox ++
        ([a, b, c, d].map Spec.Aes.sbox ++ [a, b, c, d].map Spec.Aes.sbox)) := rfl
  rw [e2, load_words _ _ _ _ rfl rfl rfl rfl, dword0, wd_ofNat_leNat _ rfl]

theorem bw_subWord (x : BitVec 32) : bw (subWord x) = Spec.Aes.subWord (bw x) := by
  rw [bw_eq_wd, wd_subWord, bw_eq_wd, Spec.Aes.subWord, List.map_reverse]

theorem bw_rcon (i : Nat) (h : i < 10) : bw (RCON.getD i 0#32 <<< 24) = Spec.Aes.rcon (i + 1) := by
  have : ∀ i : Fin 10, bw (RCON.getD i.val 0#32 <<< 24) = Spec.Aes.rcon (i.val + 1) := by decide +kernel
  exact this ⟨i, h⟩

/-! ### The key schedule -/

/-- The first `n` words of the expanded key. -/
structure Words (key : Bytes) (rk : List (BitVec 32)) (n : Nat) : Prop where
  len : rk.length = n
  word : ∀ i, i < n → bw (rk.getD i 0#32) = Spec.Aes.word key i

theorem Words.append {key : Bytes} {rk : List (BitVec 32)} {n : Nat} (h : Words key rk n) (c0 c1 c2 c3 : BitVec 32)
    (h0 : bw c0 = Spec.Aes.word key n) (h1 : bw c1 = Spec.Aes.word key (n + 1))
    (h2 : bw c2 = Spec.Aes.word key (n + 2)) (h3 : bw c3 = Spec.Aes.word key (n + 3)) :
    Words key (rk ++ [c0, c1, c2, c3]) (n + 4) := by
  refine ⟨by rw [List.length_append, h.len]; rfl, ?_⟩
  intro i hi
  by_cases hl : i < n
  · rw [List.getD_eq_getElem?_getD, List.getElem?_append_left (by rw [h.len]; exact hl), ← List.getD_eq_getElem?_getD]
    exact h.word i hl
  · rw [List.getD_eq_getElem?_getD, List.getElem?_append_right (by rw [h.len]; omega), h.len]
    have : i = n ∨ i = n + 1 ∨ i = n + 2 ∨ i = n + 3 := by omega
    rcases this with rfl | rfl | rfl | rfl
    · rw [Nat.sub_self]; exact h0
    · rw [Nat.add_sub_cancel_left]; exact h1
    · rw [Nat.add_sub_cancel_left]; exact h2
    · rw [Nat.add_sub_cancel_left]; exact h3

theorem xorBytes_comm (a b : Bytes) : Spec.Aes.xorBytes a b = Spec.Aes.xorBytes b a := by
  rw [Spec.Aes.xorBytes, Spec.Aes.xorBytes, List.zipWith_comm]
  congr 1
  funext x y
  exact BitVec.xor_comm _ _

theorem round128_ok (key : Bytes) (hk : key.length = 16) (rk : List (BitVec 32)) (r : Nat) (hr : 1 ≤ r) (hr2 : r ≤ 10)
    (h : Words key rk (4 * r)) : Words key (round128 rk r) (4 * (r + 1)) := by
  have hn : key.length / 4 = 4 := by omega
  have hp : ∀ j, j < 4 → bw (rk.getD ((r - 1) * 4 + j) 0#32) = Spec.Aes.word key (4 * r - 4 + j) := by
    intro j hj
    rw [h.word _ (by omega)]; congr 1; omega
  have e0 : bw (subWord ((rk.getD ((r - 1) * 4 + 3) 0#32).rotateLeft 8) ^^^ (RCON.getD (r - 1) 0#32 <<< 24) ^^^
      rk.getD ((r - 1) * 4 + 0) 0#32) = Spec.Aes.word key (4 * r) := by
    rw [bw_xor, bw_xor, bw_subWord, bw_rot, bw_rcon _ (by omega), hp 3 (by omega), hp 0 (by omega), xorBytes_comm,
      word_rcon key (4 * r) 4 hn (by omega) (by omega) (by omega), show 4 * r / 4 = r by omega,
      show r - 1 + 1 = r by omega, show 4 * r - 4 + 3 = 4 * r - 1 by omega]
    rfl
  have step : ∀ (c : BitVec 32) (j : Nat), j < 3 → bw c = Spec.Aes.word key (4 * r + j) →
      bw (c ^^^ rk.getD ((r - 1) * 4 + (j + 1)) 0#32) = Spec.Aes.word key (4 * r + (j + 1)) := by
    intro c j hj hc
    rw [bw_xor, hc, hp (j + 1) (by omega), word_plain key (4 * r + (j + 1)) 4 hn (by omega) (by omega) (by omega) (by omega),
      xorBytes_comm]
    congr 2 <;> omega
  have e1 := step _ 0 (by omega) e0
  have e2 := step _ 1 (by omega) e1
  have e3 := step _ 2 (by omega) e2
  exact h.append _ _ _ _ e0 e1 e2 e3

theorem round256_ok (key : Bytes) (hk : key.length = 32) (rk : List (BitVec 32)) (r : Nat) (hr : 2 ≤ r) (hr2 : r ≤ 14)
    (h : Words key rk (4 * r)) : Words key (round256 rk r) (4 * (r + 1)) := by
  have hn : key.length / 4 = 8 := by omega
  have hp : ∀ j, j < 8 → bw (rk.getD ((r - 2) * 4 + j) 0#32) = Spec.Aes.word key (4 * r - 8 + j) := by
    intro j hj
    rw [h.word _ (by omega)]; congr 1; omega
  have e0 : bw (if r % 2 = 1 then subWord (rk.getD ((r - 2) * 4 + 7) 0#32) ^^^ rk.getD ((r - 2) * 4 + 0) 0#32
      else subWord ((rk.getD ((r - 2) * 4 + 7) 0#32).rotateLeft 8) ^^^ (RCON.getD ((r - 1) / 2) 0#32 <<< 24) ^^^
        rk.getD ((r - 2) * 4 + 0) 0#32) = Spec.Aes.word key (4 * r) := by
    by_cases ho : r % 2 = 1
    · rw [if_pos ho, bw_xor, bw_subWord, hp 7 (by omega), hp 0 (by omega), xorBytes_comm,
        word_sub key (4 * r) 8 hn (by omega) (by omega) (by omega), show 4 * r - 8 + 7 = 4 * r - 1 by omega]
      rfl
    · rw [if_neg ho, bw_xor, bw_xor, bw_subWord, bw_rot, bw_rcon _ (by omega), hp 7 (by omega), hp 0 (by omega),
        xorBytes_comm, word_rcon key (4 * r) 8 hn (by omega) (by omega) (by omega),
        show 4 * r / 8 = (r - 1) / 2 + 1 by omega, show 4 * r - 8 + 7 = 4 * r - 1 by omega]
      rfl
  have step : ∀ (c : BitVec 32) (j : Nat), j < 3 → bw c = Spec.Aes.word key (4 * r + j) →
      bw (c ^^^ rk.getD ((r - 2) * 4 + (j + 1)) 0#32) = Spec.Aes.word key (4 * r + (j + 1)) := by
    intro c j hj hc
    rw [bw_xor, hc, hp (j + 1) (by omega), word_plain key (4 * r + (j + 1)) 8 hn (by omega) (by omega) (by omega) (by omega),
      xorBytes_comm]
    congr 2 <;> omega
  have e1 := step _ 0 (by omega) e0
  have e2 := step _ 1 (by omega) e1
  have e3 := step _ 2 (by omega) e2
  exact h.append _ _ _ _ e0 e1 e2 e3

theorem fold_words (key : Bytes) (f : List (BitVec 32) → Nat → List (BitVec 32)) (lim : Nat) (n : Nat) :
    ∀ (r : Nat) (rk : List (BitVec 32)),
    (∀ rk r', r ≤ r' → r' < lim → Words key rk (4 * r') → Words key (f rk r') (4 * (r' + 1))) → r + n ≤ lim →
    Words key rk (4 * r) → Words key ((List.range' r n).foldl f rk) (4 * (r + n)) := by
  induction n with
  | zero => intro r rk _ _ h; exact h
  | succ n ih =>
    intro r rk hf hl h
    rw [List.range'_succ, List.foldl_cons, show r + (n + 1) = r + 1 + n by omega]
    exact ih (r + 1) _ (fun rk r' h1 h2 h3 => hf rk r' (by omega) h2 h3) (by omega)
      (hf rk r (by omega) (by omega) h)

theorem words_init (key : Bytes) (n : Nat) (h : n ≤ key.length / 4) :
    Words key ((List.range n).map (keyWord key)) n := by
  refine ⟨by simp, ?_⟩
  intro i hi
  rw [List.getD_eq_getElem?_getD, List.getElem?_map, List.getElem?_range hi]
  exact bw_keyWord key i (by omega)

theorem vrev32q_words (a b c d : Bytes) (ha : a.length = 4) (hb : b.length = 4) (hc : c.length = 4) (hd : d.length = 4) :
    vrev32q (load (a ++ (b ++ (c ++ d)))) = load (a.reverse ++ (b.reverse ++ (c.reverse ++ d.reverse))) := by
  match a, ha, b, hb, c, hc, d, hd with
  | [a0, a1, a2, a3], _, [b0, b1, b2, b3], _, [c0, c1, c2, c3], _, [d0, d1, d2, d3], _ =>
    rw [vrev32q, store_load _ rfl]; rfl

theorem getD_drop_take4 (l : List (BitVec 32)) (i : Nat) (h : 4 * i + 4 ≤ l.length) :
    (l.drop (4 * i)).take 4 = [l.getD (4 * i) 0#32, l.getD (4 * i + 1) 0#32, l.getD (4 * i + 2) 0#32, l.getD (4 * i + 3) 0#32] := by
  apply List.ext_getElem
  · simp; omega
  · intro j h1 h2
    have hj : j < 4 := by simpa using h2
    rw [List.getElem_take, List.getElem_drop]
    have : j = 0 ∨ j = 1 ∨ j = 2 ∨ j = 3 := by omega
    rcases this with rfl | rfl | rfl | rfl <;>
      simp only [List.getElem_cons_zero, List.getElem_cons_succ, List.getD_eq_getElem?_getD] <;>
      rw [List.getElem?_eq_getElem (by omega)] <;> rfl

theorem roundKey_ok (key : Bytes) (rk : List (BitVec 32)) (n : Nat) (h : Words key rk (4 * n)) (i : Nat) (hi : i < n) :
    store ((toRoundKeys rk n).getD i 0#128) = Spec.Aes.roundKey key i := by
  have e : (toRoundKeys rk n).getD i 0#128 =
      vrev32q (vld1q (((rk.drop (4 * i)).take 4).flatMap fun w => toLE 4 w.toNat)) := by
    rw [toRoundKeys, List.getD_eq_getElem?_getD, List.getElem?_map, List.getElem?_range hi]; rfl
  rw [e, getD_drop_take4 _ _ (by rw [h.len]; omega), vld1q]
  simp only [List.flatMap_cons, List.flatMap_nil, List.append_nil]
  rw [vrev32q_words _ _ _ _ (toLE_length _ _) (toLE_length _ _) (toLE_length _ _) (toLE_length _ _),
    store_load _ (by simp), Spec.Aes.roundKey, ← h.word _ (by omega), ← h.word _ (by omega), ← h.word _ (by omega),
    ← h.word _ (by omega)]
  simp only [List.append_assoc]
  rfl

theorem toRoundKeys_length (rk : List (BitVec 32)) (n : Nat) : (toRoundKeys rk n).length = n := by
  simp [toRoundKeys]

theorem new128_ok (key : Bytes) (hk : key.length = 16) (r : Nat) (hr : r < 11) :
    store ((new128 key).getD r 0#128) = Spec.Aes.roundKey key r :=
  roundKey_ok key _ 11 (fold_words key round128 11 10 1 _
    (fun rk r' h1 h2 h3 => round128_ok key hk rk r' h1 (by omega) h3) (by omega) (words_init key 4 (by omega))) r hr

theorem new256_ok (key : Bytes) (hk : key.length = 32) (r : Nat) (hr : r < 15) :
    store ((new256 key).getD r 0#128) = Spec.Aes.roundKey key r :=
  roundKey_ok key _ 15 (fold_words key round256 15 13 2 _
    (fun rk r' h1 h2 h3 => round256_ok key hk rk r' h1 (by omega) h3) (by omega) (words_init key 8 (by omega))) r hr

theorem store_inj {a b : M128} (h : store a = store b) : a = b := by
  rw [← load_store a, h, load_store]

theorem keys_ext (l m : List M128) (n : Nat) (hl : l.length = n) (hm : m.length = n)
    (h : ∀ i, i < n → store (l.getD i 0#128) = store (m.getD i 0#128)) : l = m := by
  apply List.ext_getElem (by rw [hl, hm])
  intro i h1 h2
  have := store_inj (h i (by omega))
  simpa only [List.getD_eq_getElem?_getD, List.getElem?_eq_getElem h1, List.getElem?_eq_getElem h2,
    Option.getD_some] using this

/-- Both back ends expand a key into the same round keys. -/
theorem new128_eq (key : Bytes) (hk : key.length = 16) : new128 key = aes128Expand key :=
  keys_ext _ _ 11 (toRoundKeys_length _ _) rfl fun i hi => by
    rw [new128_ok key hk i hi, (aes128_rep key hk i hi).store]

theorem new256_eq (key : Bytes) (hk : key.length = 32) : new256 key = aes256Expand key :=
  keys_ext _ _ 15 (toRoundKeys_length _ _) rfl fun i hi => by
    rw [new256_ok key hk i hi, (aes256_rep key hk i hi).store]

/-! ### The rounds -/

theorem mc_aese (b k rk : M128) : vaesmcq (vaeseq b k) ^^^ rk = aesenc (b ^^^ k) rk := by
  rw [vaesmcq, vaeseq, store_load _ (by simp [Spec.Aes.subBytes, shiftRows_length]), aesenc]

theorem rounds_ok (rk : List M128) (n : Nat) (block : M128) :
    rounds rk n block ^^^ rk.getD n 0#128 =
      ((List.range n).map fun r => rk.getD (r + 1) 0#128).foldl aesenc (block ^^^ rk.getD 0 0#128) := by
  induction n with
  | zero => rfl
  | succ n ih =>
    rw [rounds, List.range_succ, List.foldl_append, List.map_append, List.foldl_append, ← ih]
    exact mc_aese _ _ _

theorem block_eq (rk : List M128) (n : Nat) (hl : rk.length = n + 2) (block : M128) :
    veorq (vaeseq (rounds rk n block) (rk.getD n 0#128)) (rk.getD (n + 1) 0#128) =
      AesX86.AesKey.enc ⟨rk⟩ block := by
  rw [AesX86.AesKey.enc, AesX86.AesKey.split]
  simp only []
  rw [middle_eq rk n hl, ← rounds_ok, show rk.length - 1 = n + 1 by omega]
  rfl

/-- The whole key object of one back end has the behaviour of the other's. -/
theorem new_eq (key : Bytes) (hk : key.length = 16 ∨ key.length = 32) :
    ∃ k kx, AesKey.new key = some k ∧ AesX86.AesKey.new key = some kx ∧ ∀ b, k.enc b = kx.enc b := by
  rcases hk with hk | hk
  · refine ⟨.aes128 (new128 key), ⟨aes128Expand key⟩, by simp only [AesKey.new, hk],
      by simp only [AesX86.AesKey.new, hk], fun b => ?_⟩
    rw [← new128_eq key hk]
    exact block_eq (new128 key) 9 (toRoundKeys_length _ _) b
  · refine ⟨.aes256 (new256 key), ⟨aes256Expand key⟩, by simp only [AesKey.new, hk],
      by simp only [AesX86.AesKey.new, hk], fun b => ?_⟩
    rw [← new256_eq key hk]
    exact block_eq (new256 key) 13 (toRoundKeys_length _ _) b

end Verif.AesArm
