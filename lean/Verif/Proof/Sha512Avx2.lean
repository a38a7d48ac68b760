import Verif.Model.Sha512Avx2
import Verif.Proof.Sha2
import Verif.Proof.AesGcm

/-! SHA-512 with AVX2 is SHA-512. -/
namespace Verif.Sha512Simd
open Verif Verif.Simd Verif.Spec.Sha2 Verif.Sha512Avx2

abbrev V := v512

/-- The working variables after `n` rounds. -/
def RT (b : Bytes) (H : St 64) (n : Nat) : St 64 := (List.range n).foldl (Spec.Sha2.round V b) H

theorem RT_succ (b : Bytes) (H : St 64) (n : Nat) : RT b H (n + 1) = Spec.Sha2.round V b (RT b H n) n := by
  rw [RT, List.range_succ, List.foldl_append]; rfl

/-- A round with the sum of the constant and the message word. -/
def step (s : St 64) (wk : BitVec 64) : St 64 :=
  let T1 := s.h + V.Sigma1 s.e + Ch s.e s.f s.g + wk
  let T2 := V.Sigma0 s.a + Maj s.a s.b s.c
  ⟨T1 + T2, s.a, s.b, s.c, s.d + T1, s.e, s.f, s.g⟩

theorem round_eq (b : Bytes) (s : St 64) (t : Nat) : Spec.Sha2.round V b s t = step s (W V b t + V.K t) := by
  have e : ∀ x y z : BitVec 64, x + y + z = x + (z + y) := by
    intro x y z; rw [BitVec.add_comm z y, BitVec.add_assoc]
  simp only [Spec.Sha2.round, step, e _ (V.K t) (W V b t)]

theorem RT_four (b : Bytes) (H : St 64) (t : Nat) : RT b H (t + 4) =
    step (step (step (step (RT b H t) (W V b t + V.K t)) (W V b (t + 1) + V.K (t + 1))) (W V b (t + 2) + V.K (t + 2)))
      (W V b (t + 3) + V.K (t + 3)) := by
  rw [RT_succ _ _ (t + 3), RT_succ _ _ (t + 2), RT_succ _ _ (t + 1), RT_succ _ _ t]
  simp only [round_eq]

theorem W_ge (b : Bytes) (t : Nat) :
    W V b (t + 16) = V.sigma1 (W V b (t + 14)) + W V b (t + 9) + V.sigma0 (W V b (t + 1)) + W V b t := by
  conv => lhs; rw [W]
  rw [dif_neg (by omega)]
  rfl

theorem word_W (b : Bytes) (t : Nat) (h : t < 16) : W V b t = BitVec.ofNat 64 (beNat ((b.drop (t * 8)).take 8)) := by
  rw [W, dif_pos h]; rfl

/-! ### Functions -/

theorem bsig0_eq (x : BitVec 64) : bsig0 x = V.Sigma0 x := by
  show x.rotateRight 34 ^^^ x.rotateRight 28 ^^^ x.rotateRight 39 = x.rotateRight 28 ^^^ x.rotateRight 34 ^^^ x.rotateRight 39
  rw [BitVec.xor_comm (x.rotateRight 34)]

theorem bsig1_eq (x : BitVec 64) : bsig1 x = V.Sigma1 x := by
  show x.rotateRight 18 ^^^ x.rotateRight 14 ^^^ x.rotateRight 41 = x.rotateRight 14 ^^^ x.rotateRight 18 ^^^ x.rotateRight 41
  rw [BitVec.xor_comm (x.rotateRight 18)]

theorem rotr_eq (x : BitVec 64) (n : Nat) (h0 : 0 < n) (h : n < 64) : x.rotateRight n = (x >>> n) ^^^ (x <<< (64 - n)) := by
  apply BitVec.eq_of_getLsbD_eq
  intro i hi
  rw [BitVec.getLsbD_rotateRight, BitVec.getLsbD_xor, BitVec.getLsbD_ushiftRight, BitVec.getLsbD_shiftLeft, Nat.mod_eq_of_lt h]
  by_cases hl : i < 64 - n
  · simp [hl]
  · rw [BitVec.getLsbD_of_ge x (n + i) (by omega)]
    simp [hl, hi]

theorem extract_add (a b : M256) (l : Nat) : extract (add a b) l = extract a l + extract b l := by
  match l with
  | 0 | 1 | 2 | n + 3 => rfl

theorem extract_map1 (f : BitVec 64 → BitVec 64) (a : M256) (l : Nat) : extract (map1 f a) l = f (extract a l) := by
  match l with
  | 0 | 1 | 2 | n + 3 => rfl

theorem sigma0_map (w : M256) : sigma0 w = map1 V.sigma0 w := by
  have e : ∀ x : BitVec 64, ((x >>> 7 ^^^ x >>> 8) ^^^ (x >>> 1 ^^^ x <<< 56)) ^^^ x <<< 63 = V.sigma0 x := by
    intro x
    show _ = x.rotateRight 1 ^^^ x.rotateRight 8 ^^^ (x >>> 7)
    rw [rotr_eq x 1 (by omega) (by omega), rotr_eq x 8 (by omega) (by omega)]
    have ac : ∀ a b c d e : BitVec 64, ((a ^^^ b) ^^^ (c ^^^ d)) ^^^ e = (c ^^^ e) ^^^ (b ^^^ d) ^^^ a := by intros; ac_rfl
    exact ac _ _ _ _ _
  have e' : V.sigma0 = _ := funext fun x => (e x).symm
  rw [e']
  rfl

theorem sigma1_map (w : M256) : sigma1 w = map1 V.sigma1 w := by
  have e : ∀ x : BitVec 64, ((x >>> 6 ^^^ x >>> 61) ^^^ (x >>> 19 ^^^ x <<< 3)) ^^^ x <<< 45 = V.sigma1 x := by
    intro x
    show _ = x.rotateRight 19 ^^^ x.rotateRight 61 ^^^ (x >>> 6)
    rw [rotr_eq x 19 (by omega) (by omega), rotr_eq x 61 (by omega) (by omega)]
    have ac : ∀ a b c d e : BitVec 64, ((a ^^^ b) ^^^ (c ^^^ d)) ^^^ e = (c ^^^ e) ^^^ (b ^^^ d) ^^^ a := by intros; ac_rfl
    exact ac _ _ _ _ _
  have e' : V.sigma1 = _ := funext fun x => (e x).symm
  rw [e']
  rfl

theorem K_ok (t : Nat) (h : t < 80) : Sha512Avx2.K.getD t 0#64 = V.K t := by
  have e : Sha512Avx2.K = Sha2.K512 := by decide +kernel
  rw [e]; exact Sha2.K512_ok t (List.mem_range.2 h)

theorem extract_k (t l : Nat) (h : t < 80) : extract (k t) l = V.K t := by
  rw [k, K_ok t h]
  match l with
  | 0 | 1 | 2 | n + 3 => rfl

/-- The names after four rounds. -/
def rot (s : St 64) : St 64 := ⟨s.e, s.f, s.g, s.h, s.a, s.b, s.c, s.d⟩

theorem roundsA_eq (s : St 64) (w0 w1 w2 w3 : BitVec 64) : roundsA s w0 w1 w2 w3 = rot (step (step (step (step s w0) w1) w2) w3) := by
  simp only [roundsA, Sha512Avx2.round, bsig0_eq, bsig1_eq]
  rfl

theorem roundsB_eq (s : St 64) (w0 w1 w2 w3 : BitVec 64) : roundsB (rot s) w0 w1 w2 w3 = step (step (step (step s w0) w1) w2) w3 := by
  simp only [roundsB, rot, Sha512Avx2.round, bsig0_eq, bsig1_eq]
  rfl

/-! ### Byte order -/

theorem epi64_eq : BSWAP.q1 ++ BSWAP.q0 = AesGcm.BYTESWAP_EPI64 ∧ BSWAP.q3 ++ BSWAP.q2 = AesGcm.BYTESWAP_EPI64 := by
  decide +kernel

theorem load_halves (x y : Bytes) (hx : x.length = 8) (hy : y.length = 8) :
    load (x ++ y) = BitVec.ofNat 64 (leNat y) ++ BitVec.ofNat 64 (leNat x) := by
  have h1 := leNat_lt x
  have h2 := leNat_lt y
  rw [hx, show (256 : Nat) ^ 8 = 2 ^ 64 from rfl] at h1
  rw [hy, show (256 : Nat) ^ 8 = 2 ^ 64 from rfl] at h2
  apply BitVec.eq_of_toNat_eq
  rw [BitVec.toNat_append, load, leNat_append, hx, BitVec.toNat_ofNat, BitVec.toNat_ofNat, BitVec.toNat_ofNat,
    Nat.mod_eq_of_lt h1, Nat.mod_eq_of_lt h2, ← Nat.shiftLeft_add_eq_or_of_lt h1, Nat.shiftLeft_eq,
    show (256 : Nat) ^ 8 = 2 ^ 64 from rfl, Nat.mod_eq_of_lt (by omega)]
  omega

theorem shuffle_halves (x y : Bytes) (hx : x.length = 8) (hy : y.length = 8) :
    Simd.shuffle8 (BitVec.ofNat 64 (leNat y) ++ BitVec.ofNat 64 (leNat x)) AesGcm.BYTESWAP_EPI64 =
      BitVec.ofNat 64 (beNat y) ++ BitVec.ofNat 64 (beNat x) := by
  rw [← load_halves x y hx hy, AesGcm.shuffle_epi64, store_load _ (by rw [List.length_append, hx, hy]), AesGcm.swap64,
    List.take_left' hx, List.drop_left' hx, load_halves _ _ (by rw [List.length_reverse, hx]) (by rw [List.length_reverse, hy]),
    beNat_eq_leNat_reverse, beNat_eq_leNat_reverse]

theorem shuffle_words (a b c d : Bytes) (ha : a.length = 8) (hb : b.length = 8) (hc : c.length = 8) (hd : d.length = 8) :
    Sha512Avx2.shuffle8 ⟨BitVec.ofNat 64 (leNat a), BitVec.ofNat 64 (leNat b), BitVec.ofNat 64 (leNat c), BitVec.ofNat 64 (leNat d)⟩
      BSWAP = ⟨BitVec.ofNat 64 (beNat a), BitVec.ofNat 64 (beNat b), BitVec.ofNat 64 (beNat c), BitVec.ofNat 64 (beNat d)⟩ := by
  rw [Sha512Avx2.shuffle8]
  simp only [epi64_eq.1, epi64_eq.2, shuffle_halves _ _ ha hb, shuffle_halves _ _ hc hd, lo64_append, hi64_append]

/-! ### One block -/

/-- Four message words. -/
def WQ (b : Bytes) (i : Nat) : M256 := ⟨W V b (4 * i), W V b (4 * i + 1), W V b (4 * i + 2), W V b (4 * i + 3)⟩
def WKQ (b : Bytes) (i : Nat) : M256 := ⟨W V b (4 * i) + V.K (4 * i), W V b (4 * i + 1) + V.K (4 * i + 1),
  W V b (4 * i + 2) + V.K (4 * i + 2), W V b (4 * i + 3) + V.K (4 * i + 3)⟩

theorem wk_eq (b : Bytes) (i : Nat) (h : i < 20) : add (WQ b i) (kload (4 * i)) = WKQ b i := by
  rw [kload, K_ok _ (by omega), K_ok _ (by omega), K_ok _ (by omega), K_ok _ (by omega)]; rfl

theorem input_eq (b : Bytes) (hb : b.length = 128) (i : Nat) (hi : i < 4) : input b i = (WQ b i, WKQ b i) := by
  have hl : ∀ j, j + 8 ≤ 128 → ((b.drop j).take 8).length = 8 := by
    intro j hj; simp; omega
  have e : Sha512Avx2.shuffle8 (loadu (b.drop (i * 32))) BSWAP = WQ b i := by
    rw [loadu]
    simp only [List.drop_drop]
    rw [shuffle_words _ _ _ _ (hl _ (by omega)) (hl _ (by omega)) (hl _ (by omega)) (hl _ (by omega)), WQ,
      word_W _ _ (by omega), word_W _ _ (by omega), word_W _ _ (by omega), word_W _ _ (by omega)]
    rw [show 4 * i * 8 = i * 32 by omega, show (4 * i + 1) * 8 = i * 32 + 8 by omega,
      show (4 * i + 2) * 8 = i * 32 + 16 by omega, show (4 * i + 3) * 8 = i * 32 + 24 by omega]
  rw [input]
  simp only [e]
  rw [Nat.mul_comm i 4, wk_eq b i (by omega)]

theorem WQ_four (b : Bytes) (i j : Nat) (h : j = 4 * i) :
    WQ b i = ⟨W V b j, W V b (j + 1), W V b (j + 2), W V b (j + 3)⟩ := by subst h; rfl

theorem schedule_eq (b : Bytes) (i : Nat) (hi : i < 16) :
    schedule (WQ b i) (WQ b (i + 1)) (WQ b (i + 2)) (WQ b (i + 3)) (kload (4 * (i + 4))) = (WQ b (i + 4), WKQ b (i + 4)) := by
  have key : (schedule (WQ b i) (WQ b (i + 1)) (WQ b (i + 2)) (WQ b (i + 3)) (kload (4 * (i + 4)))).1 = WQ b (i + 4) := by
    rw [WQ_four b (i + 1) (4 * i + 4) (by omega), WQ_four b (i + 2) (4 * i + 8) (by omega), WQ_four b (i + 3) (4 * i + 12) (by omega),
      WQ_four b (i + 4) (4 * i + 16) (by omega), WQ]
    have e : ∀ s1 w9 s0 w : BitVec 64, s1 + (w9 + (s0 + w)) = s1 + w9 + s0 + w := by intros; ac_rfl
    have h0 := W_ge b (4 * i)
    have h1 := W_ge b (4 * i + 1)
    have h2 := W_ge b (4 * i + 2)
    have h3 := W_ge b (4 * i + 3)
    simp only [Nat.add_assoc, Nat.reduceAdd] at h0 h1 h2 h3 ⊢
    simp only [schedule, sigma0_map, sigma1_map, map1, map2, add, permute2x128, alignr8, permute4x64, extract, e, Nat.reduceMod,
      Nat.reduceDiv]
    rw [← h0, ← h1, h2, h3]
  have snd : ∀ a b c d k, (schedule a b c d k).2 = add (schedule a b c d k).1 k := fun _ _ _ _ _ => rfl
  refine Prod.ext key ?_
  rw [snd, key, wk_eq b _ (by omega)]

theorem roundsA4_eq (b : Bytes) (H : St 64) (i : Nat) : roundsA4 (RT b H (4 * i)) (WKQ b i) = rot (RT b H (4 * (i + 1))) := by
  rw [roundsA4, roundsA_eq, show 4 * (i + 1) = 4 * i + 4 by omega, RT_four]; rfl

theorem roundsB4_eq (b : Bytes) (H : St 64) (i : Nat) : roundsB4 (rot (RT b H (4 * i))) (WKQ b i) = RT b H (4 * (i + 1)) := by
  rw [roundsB4, roundsB_eq, show 4 * (i + 1) = 4 * i + 4 by omega, RT_four]; rfl

theorem loopBody_eq (b : Bytes) (H : St 64) (j : Nat) (hj : j < 8) :
    loopBody (RT b H (16 + 8 * j), ⟨WQ b (2 * j), WQ b (2 * j + 1), WQ b (2 * j + 2), WQ b (2 * j + 3)⟩) (16 + 8 * j) =
      (RT b H (16 + 8 * (j + 1)), ⟨WQ b (2 * (j + 1)), WQ b (2 * (j + 1) + 1), WQ b (2 * (j + 1) + 2), WQ b (2 * (j + 1) + 3)⟩) := by
  have s1 := schedule_eq b (2 * j) (by omega)
  have s2 := schedule_eq b (2 * j + 1) (by omega)
  have r1 := roundsA4_eq b H (2 * j + 4)
  have r2 := roundsB4_eq b H (2 * j + 5)
  rw [show 4 * (2 * j + 4) = 16 + 8 * j by omega] at s1
  rw [show 4 * (2 * j + 1 + 4) = 16 + 8 * j + 4 by omega] at s2
  rw [show 4 * (2 * j + 4) = 16 + 8 * j by omega, show 4 * (2 * j + 4 + 1) = 4 * (2 * j + 5) by omega] at r1
  rw [show 4 * (2 * j + 5 + 1) = 16 + 8 * (j + 1) by omega] at r2
  simp only [Nat.add_assoc, Nat.reduceAdd] at s1 s2 r1 r2
  rw [loopBody]
  simp only [s1, Nat.add_assoc, Nat.reduceAdd, s2, r1, r2]
  rw [show 2 * (j + 1) = 2 * j + 2 by omega]

theorem compress1_eq (H : St 64) (b : Bytes) (hb : b.length = 128) : compress1 H b = compress V H b := by
  have r0 : roundsA4 H (WKQ b 0) = rot (RT b H 4) := roundsA4_eq b H 0
  have r1 : roundsB4 (rot (RT b H 4)) (WKQ b 1) = RT b H 8 := roundsB4_eq b H 1
  have r2 : roundsA4 (RT b H 8) (WKQ b 2) = rot (RT b H 12) := roundsA4_eq b H 2
  have r3 : roundsB4 (rot (RT b H 12)) (WKQ b 3) = RT b H 16 := roundsB4_eq b H 3
  have loop : ∀ j ≤ 8, ((List.range j).map (16 + 8 * ·)).foldl loopBody (RT b H 16, ⟨WQ b 0, WQ b 1, WQ b 2, WQ b 3⟩) =
      (RT b H (16 + 8 * j), ⟨WQ b (2 * j), WQ b (2 * j + 1), WQ b (2 * j + 2), WQ b (2 * j + 3)⟩) := by
    intro j
    induction j with
    | zero => intro _; rfl
    | succ j ih =>
      intro hj
      rw [List.range_succ, List.map_append, List.foldl_append, ih (by omega)]
      exact loopBody_eq b H j (by omega)
  have c : compress V H b = ⟨(RT b H 80).a + H.a, (RT b H 80).b + H.b, (RT b H 80).c + H.c, (RT b H 80).d + H.d,
    (RT b H 80).e + H.e, (RT b H 80).f + H.f, (RT b H 80).g + H.g, (RT b H 80).h + H.h⟩ := rfl
  rw [compress1]
  simp only [input_eq b hb 0 (by omega), input_eq b hb 1 (by omega), input_eq b hb 2 (by omega), input_eq b hb 3 (by omega),
    r0, r1, r2, r3]
  rw [loop 8 (by omega), c]
  simp only [BitVec.add_comm H.a, BitVec.add_comm H.b, BitVec.add_comm H.c, BitVec.add_comm H.d, BitVec.add_comm H.e,
    BitVec.add_comm H.f, BitVec.add_comm H.g, BitVec.add_comm H.h, Nat.reduceMul, Nat.reduceAdd]

/-! ### Four blocks -/

/-- The `l`-th of four blocks. -/
def blk (m : Bytes) (l : Nat) : Bytes := (m.drop (128 * l)).take 128

/-- After `n` schedule rounds. -/
structure Inv (m : Bytes) (n : Nat) (x : List M256 × List M256 × Nat) : Prop where
  i : x.2.2 = n
  lw : x.1.length = 16
  ls : x.2.1.length = 80
  w : ∀ s, n ≤ s → s < n + 16 → ∀ l < 4, extract (x.1.getD (s % 16) (k 0)) l = W V (blk m l) s
  sched : ∀ t < n, ∀ l < 4, extract (x.2.1.getD t (k 0)) l = W V (blk m l) t + V.K t

theorem getD_set {α : Type} (l : List α) (i j : Nat) (x d : α) (h : j < l.length) :
    (l.set j x).getD i d = if i = j then x else l.getD i d := by
  by_cases hij : i = j
  · subst hij; simp [List.getD_eq_getElem?_getD, h]
  · rw [if_neg hij, List.getD_eq_getElem?_getD, List.getElem?_set_ne (by omega), ← List.getD_eq_getElem?_getD]

theorem scheduleRound_inv (m : Bytes) (n : Nat) (hn : n < 80) (x : List M256 × List M256 × Nat) (h : Inv m n x) :
    Inv m (n + 1) (scheduleRound x ((n + 1) % 16, (n + 14) % 16, n % 16, (n + 9) % 16)) := by
  obtain ⟨w, sched, i⟩ := x
  obtain ⟨hi, lw, ls, hw, hs⟩ := h
  dsimp only at hi lw ls hw hs
  subst hi
  rw [scheduleRound]
  refine ⟨rfl, by simp [lw], by simp [ls], ?_, ?_⟩
  · intro s h1 h2 l hl
    dsimp only
    rw [getD_set _ _ _ _ _ (by rw [lw]; omega)]
    by_cases hsn : s = i + 16
    · subst hsn
      rw [if_pos (by omega), extract_add, extract_add, extract_add, sigma0_map, sigma1_map, extract_map1, extract_map1,
        hw i (by omega) (by omega) l hl, hw (i + 9) (by omega) (by omega) l hl, hw (i + 1) (by omega) (by omega) l hl,
        hw (i + 14) (by omega) (by omega) l hl, W_ge]
      ac_rfl
    · rw [if_neg (by omega)]
      exact hw s (by omega) (by omega) l hl
  · intro t ht l hl
    dsimp only
    rw [getD_set _ _ _ _ _ (by rw [ls]; omega)]
    by_cases hti : t = i
    · subst hti
      rw [if_pos rfl, extract_add, extract_k _ _ hn, hw t (by omega) (by omega) l hl]
    · rw [if_neg hti]
      exact hs t (by omega) l hl

theorem REGS_eq : REGS = (List.range 16).map fun j => ((j + 1) % 16, (j + 14) % 16, j % 16, (j + 9) % 16) := by decide

theorem pass_inv (m : Bytes) (n : Nat) (hn : n + 16 ≤ 80) (h16 : n % 16 = 0) (x : List M256 × List M256 × Nat) (h : Inv m n x) :
    Inv m (n + 16) (REGS.foldl scheduleRound x) := by
  rw [REGS_eq]
  have key : ∀ j ≤ 16, Inv m (n + j)
      (((List.range j).map fun j => ((j + 1) % 16, (j + 14) % 16, j % 16, (j + 9) % 16)).foldl scheduleRound x) := by
    intro j
    induction j with
    | zero => intro _; exact h
    | succ j ih =>
      intro hj
      have := scheduleRound_inv m (n + j) (by omega) _ (ih (by omega))
      rw [List.range_succ, List.map_append, List.foldl_append]
      rw [show (n + j + 1) % 16 = (j + 1) % 16 by omega, show (n + j + 14) % 16 = (j + 14) % 16 by omega,
        show (n + j) % 16 = j % 16 by omega, show (n + j + 9) % 16 = (j + 9) % 16 by omega] at this
      exact this
  exact key 16 (by omega)

theorem loop_inv (m : Bytes) (x : List M256 × List M256 × Nat) (h : Inv m 0 x) : Inv m 64 (scheduleLoop 5 x) := by
  have h1 := pass_inv m 0 (by omega) rfl x h
  have h2 := pass_inv m 16 (by omega) rfl _ h1
  have h3 := pass_inv m 32 (by omega) rfl _ h2
  have h4 := pass_inv m 48 (by omega) rfl _ h3
  have e : scheduleLoop 5 x = REGS.foldl scheduleRound (REGS.foldl scheduleRound (REGS.foldl scheduleRound
      (REGS.foldl scheduleRound x))) := by
    rw [scheduleLoop, if_pos (by rw [h.i]; omega), scheduleLoop, if_pos (by rw [h1.i]; omega), scheduleLoop,
      if_pos (by rw [h2.i]; omega), scheduleLoop, if_pos (by rw [h3.i]; omega), scheduleLoop, if_neg (by rw [h4.i]; omega)]
  rw [e]
  exact h4

theorem gathered_eq (m : Bytes) (hm : m.length = 512) (j : Nat) (hj : j < 16) (l : Nat) (hl : l < 4) :
    extract (gathered m j) l = W V (blk m l) j := by
  have hlen : ∀ i, i + 8 ≤ 512 → ((m.drop i).take 8).length = 8 := by
    intro i hi; simp; omega
  have hb : ∀ l, l < 4 → W V (blk m l) j = BitVec.ofNat 64 (beNat ((m.drop (8 * j + 8 * (16 * l))).take 8)) := by
    intro l hl
    rw [word_W _ _ hj, blk, List.drop_take, List.drop_drop, List.take_take, Nat.min_eq_left (by omega)]
    congr 4
    omega
  rw [gathered, gather]
  dsimp only
  rw [shuffle_words _ _ _ _ (hlen _ (by omega)) (hlen _ (by omega)) (hlen _ (by omega)) (hlen _ (by omega)), hb l hl]
  match l, hl with
  | 0, _ | 1, _ | 2, _ | 3, _ => rfl

theorem init_inv (m : Bytes) (hm : m.length = 512) :
    Inv m 0 ((List.range 16).map (gathered m), List.replicate 80 ⟨0#64, 0#64, 0#64, 0#64⟩, 0) := by
  refine ⟨rfl, by simp, by simp, ?_, fun t ht => by omega⟩
  intro s _ hs l hl
  dsimp only
  rw [Nat.mod_eq_of_lt (by omega), List.getD_eq_getElem?_getD, List.getElem?_map, List.getElem?_range (by omega)]
  exact gathered_eq m hm s (by omega) l hl

theorem quad_eq (m : Bytes) (hm : m.length = 512) : (quadSchedule m).length = 80 ∧
    ∀ t < 80, ∀ l < 4, extract ((quadSchedule m).getD t (k 0)) l = W V (blk m l) t + V.K t := by
  have h := loop_inv m _ (init_inv m hm)
  rw [quadSchedule]
  generalize scheduleLoop 5 ((List.range 16).map (gathered m), List.replicate 80 ⟨0#64, 0#64, 0#64, 0#64⟩, 0) = x at h
  obtain ⟨w, sched, i⟩ := x
  obtain ⟨_, lw, ls, hw, hs⟩ := h
  dsimp only at lw ls hw hs ⊢
  have key : ∀ j ≤ 16,
      ((List.range j).foldl (fun schedule j => schedule.set (64 + j) (add (w.getD j (k 0)) (k (64 + j)))) sched).length = 80 ∧
      ∀ t < 64 + j, ∀ l < 4, extract (((List.range j).foldl (fun schedule j => schedule.set (64 + j) (add (w.getD j (k 0)) (k (64 + j))))
        sched).getD t (k 0)) l = W V (blk m l) t + V.K t := by
    intro j
    induction j with
    | zero => intro _; exact ⟨ls, hs⟩
    | succ j ih =>
      intro hj
      obtain ⟨g1, g2⟩ := ih (by omega)
      rw [List.range_succ, List.foldl_append]
      simp only [List.foldl_cons, List.foldl_nil]
      refine ⟨by rw [List.length_set, g1], ?_⟩
      intro t ht l hl
      rw [getD_set _ _ _ _ _ (by rw [g1]; omega)]
      by_cases htj : t = 64 + j
      · subst htj
        have := hw (64 + j) (by omega) (by omega) l hl
        rw [show (64 + j) % 16 = j by omega] at this
        rw [if_pos rfl, extract_add, extract_k _ _ (by omega), this]
      · rw [if_neg htj]
        exact g2 t (by omega) l hl
  exact key 16 (Nat.le_refl _)

theorem chunks_map {α : Type} (n : Nat) (hn : 0 < n) (m : Nat) (l : List α) (h : l.length = n * m) :
    chunksExact n l = (List.range m).map fun c => (l.drop (n * c)).take n := by
  induction m generalizing l with
  | zero => rw [chunksExact_short (by simp at h; simp [h]; exact hn)]; rfl
  | succ m ih =>
    have : n * (m + 1) = n * m + n := Nat.mul_succ n m
    rw [chunksExact_cons hn (by omega), ih (l.drop n) (by rw [List.length_drop]; omega), List.range_succ_eq_map, List.map_cons,
      List.map_map]
    congr 1
    apply List.map_congr_left
    intro c _
    show ((l.drop n).drop (n * c)).take n = (l.drop (n * (c + 1))).take n
    rw [List.drop_drop, Nat.mul_succ, Nat.add_comm]

theorem rounds8_eq (b : Bytes) (H : St 64) (w : List M256) (hw : w.length = 80) (l : Nat)
    (h : ∀ t < 80, extract (w.getD t (k 0)) l = W V b t + V.K t) (c : Nat) (hc : c < 10) :
    rounds8 l (RT b H (8 * c)) ((w.drop (8 * c)).take 8) = RT b H (8 * (c + 1)) := by
  have g : ∀ j, j < 8 → extract (((w.drop (8 * c)).take 8).getD j (k 0)) l = W V b (8 * c + j) + V.K (8 * c + j) := by
    intro j hj
    rw [← h (8 * c + j) (by omega)]
    congr 1
    rw [List.getD_eq_getElem?_getD, List.getD_eq_getElem?_getD, List.getElem?_take_of_lt hj, List.getElem?_drop]
  rw [rounds8]
  simp only [g 0 (by omega), g 1 (by omega), g 2 (by omega), g 3 (by omega), g 4 (by omega), g 5 (by omega), g 6 (by omega),
    g 7 (by omega)]
  rw [roundsA_eq, roundsB_eq, show 8 * (c + 1) = 8 * c + 4 + 4 by omega, RT_four, RT_four]
  rfl

/-- The two registers of a state. -/
def P (s : St 64) : M256 × M256 := (⟨s.a, s.b, s.c, s.d⟩, ⟨s.e, s.f, s.g, s.h⟩)

theorem lane_eq (b : Bytes) (H : St 64) (w : List M256) (hw : w.length = 80) (l : Nat)
    (h : ∀ t < 80, extract (w.getD t (k 0)) l = W V b t + V.K t) : laneBlock w (P H) l = P (compress V H b) := by
  have key : ∀ c ≤ 10, ((List.range c).map fun c => (w.drop (8 * c)).take 8).foldl (rounds8 l) H = RT b H (8 * c) := by
    intro c
    induction c with
    | zero => intro _; rfl
    | succ c ih =>
      intro hc
      rw [List.range_succ, List.map_append, List.foldl_append, ih (by omega)]
      exact rounds8_eq b H w hw l h c (by omega)
  have e : (chunksExact 8 w).foldl (rounds8 l) H = RT b H 80 := by
    rw [chunks_map 8 (by omega) 10 w hw]; exact key 10 (by omega)
  have c : compress V H b = ⟨(RT b H 80).a + H.a, (RT b H 80).b + H.b, (RT b H 80).c + H.c, (RT b H 80).d + H.d,
    (RT b H 80).e + H.e, (RT b H 80).f + H.f, (RT b H 80).g + H.g, (RT b H 80).h + H.h⟩ := rfl
  show (let s := (chunksExact 8 w).foldl (rounds8 l) H; (add (P H).1 ⟨s.a, s.b, s.c, s.d⟩, add (P H).2 ⟨s.e, s.f, s.g, s.h⟩)) = _
  rw [e, c]
  simp only [P, add, map2, BitVec.add_comm H.a, BitVec.add_comm H.b, BitVec.add_comm H.c, BitVec.add_comm H.d, BitVec.add_comm H.e,
    BitVec.add_comm H.f, BitVec.add_comm H.g, BitVec.add_comm H.h]

theorem compress4_eq (H : St 64) (m : Bytes) (hm : m.length = 512) : compress4 H m = (chunksExact 128 m).foldl (compress V) H := by
  obtain ⟨q1, q2⟩ := quad_eq m hm
  have ln : ∀ l H, l < 4 → laneBlock (quadSchedule m) (P H) l = P (compress V H (blk m l)) := fun l H hl =>
    lane_eq (blk m l) H (quadSchedule m) q1 l fun t ht => q2 t ht l hl
  have e : compress4 H m = (let save := laneBlock (quadSchedule m) (laneBlock (quadSchedule m) (laneBlock (quadSchedule m)
      (laneBlock (quadSchedule m) (P H) 0) 1) 2) 3
      (⟨save.1.q0, save.1.q1, save.1.q2, save.1.q3, save.2.q0, save.2.q1, save.2.q2, save.2.q3⟩ : St 64)) := rfl
  rw [e, ln 0 _ (by omega), ln 1 _ (by omega), ln 2 _ (by omega), ln 3 _ (by omega), chunks_map 128 (by omega) 4 m hm]
  rfl

theorem foldl_compress4 (l : List Bytes) : ∀ (H : St 64), (∀ b ∈ l, b.length = 512) →
    l.foldl compress4 H = (chunksExact 128 l.flatten).foldl (compress V) H ∧ 128 ∣ l.flatten.length := by
  induction l with
  | nil =>
    intro H _
    refine ⟨?_, Nat.dvd_zero _⟩
    rw [List.flatten_nil, chunksExact_short (by simp), List.foldl_nil, List.foldl_nil]
  | cons b l ih =>
    intro H hl
    have hb := hl b List.mem_cons_self
    obtain ⟨i1, i2⟩ := ih (compress4 H b) fun x hx => hl x (List.mem_cons_of_mem _ hx)
    have hd : 128 ∣ b.length := by rw [hb]; decide
    refine ⟨?_, ?_⟩
    · rw [List.foldl_cons, i1, compress4_eq H b hb, List.flatten_cons, chunksExact_append (by omega) hd, List.foldl_append]
    · rw [List.flatten_cons, List.length_append]
      exact Nat.dvd_add hd i2

theorem foldl_compress1 (l : List Bytes) : ∀ (H : St 64), (∀ b ∈ l, b.length = 128) →
    l.foldl compress1 H = l.foldl (compress V) H := by
  induction l with
  | nil => intro H _; rw [List.foldl_nil, List.foldl_nil]
  | cons b l ih =>
    intro H hl
    rw [List.foldl_cons, List.foldl_cons, compress1_eq H b (hl b List.mem_cons_self)]
    exact ih _ fun x hx => hl x (List.mem_cons_of_mem _ hx)

theorem compressBlocks_eq (H : St 64) (bs : Bytes) :
    Sha512Avx2.compressBlocks H bs = (chunksExact 128 bs).foldl (compress V) H := by
  obtain ⟨e1, e2⟩ := foldl_compress4 (chunksExact 512 bs) H fun b hb => chunksExact_length hb
  have e3 := foldl_compress1 (chunksExact 128 (chunksRem 512 bs)) ((chunksExact 512 bs).foldl compress4 H)
    fun b hb => chunksExact_length hb
  have e4 : chunksExact 128 bs = chunksExact 128 (chunksExact 512 bs).flatten ++ chunksExact 128 (chunksRem 512 bs) := by
    rw [← chunksExact_append (by omega) e2, flatten_chunksExact (by omega)]
  rw [Sha512Avx2.compressBlocks, e3, e1, e4, List.foldl_append]

end Verif.Sha512Simd
