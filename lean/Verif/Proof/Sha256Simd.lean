import Verif.Model.Sha256Arm
import Verif.Model.Sha256Ni
import Verif.Proof.Sha2
import Verif.Proof.AesArm

/-! SHA-256 with the vector extensions is SHA-256. -/
namespace Verif.Sha256Simd
open Verif Verif.Simd Verif.Neon Verif.Spec.Sha2

abbrev V := v256

/-- The working variables after `n` rounds. -/
def RT (b : Bytes) (H : St 32) (n : Nat) : St 32 := (List.range n).foldl (round V b) H

theorem RT_succ (b : Bytes) (H : St 32) (n : Nat) : RT b H (n + 1) = round V b (RT b H n) n := by
  rw [RT, List.range_succ, List.foldl_append]; rfl

/-- A round with the sum of the constant and the message word. -/
def step (s : St 32) (wk : BitVec 32) : St 32 :=
  let T1 := s.h + V.Sigma1 s.e + Ch s.e s.f s.g + wk
  let T2 := V.Sigma0 s.a + Maj s.a s.b s.c
  ⟨T1 + T2, s.a, s.b, s.c, s.d + T1, s.e, s.f, s.g⟩

theorem round_eq (b : Bytes) (s : St 32) (t : Nat) : round V b s t = step s (W V b t + V.K t) := by
  have e : ∀ x y z : BitVec 32, x + y + z = x + (z + y) := by
    intro x y z; rw [BitVec.add_comm z y, BitVec.add_assoc]
  simp only [round, step, e _ (V.K t) (W V b t)]

/-- Four message words. -/
def WQ (b : Bytes) (i : Nat) : M128 := dwords (W V b (4 * i)) (W V b (4 * i + 1)) (W V b (4 * i + 2)) (W V b (4 * i + 3))

def WKQ (b : Bytes) (i : Nat) : M128 := dwords (W V b (4 * i) + V.K (4 * i)) (W V b (4 * i + 1) + V.K (4 * i + 1))
  (W V b (4 * i + 2) + V.K (4 * i + 2)) (W V b (4 * i + 3) + V.K (4 * i + 3))

theorem W_ge (b : Bytes) (t : Nat) :
    W V b (t + 16) = V.sigma1 (W V b (t + 14)) + W V b (t + 9) + V.sigma0 (W V b (t + 1)) + W V b t := by
  conv => lhs; rw [W]
  rw [dif_neg (by omega)]
  rfl

theorem WQ_four (b : Bytes) (i j : Nat) (h : j = 4 * i) :
    WQ b i = dwords (W V b j) (W V b (j + 1)) (W V b (j + 2)) (W V b (j + 3)) := by subst h; rfl

theorem drop_take (b : Bytes) (i n j m : Nat) (h : j + m ≤ n) :
    (((b.drop i).take n).drop j).take m = (b.drop (i + j)).take m := by
  rw [List.drop_take, List.take_take, List.drop_drop, Nat.min_eq_left (by omega)]

/-- Sixteen bytes in words. -/
theorem split16 (x : Bytes) : x.take 16 =
    (x.drop 0).take 4 ++ ((x.drop 4).take 4 ++ ((x.drop 8).take 4 ++ (x.drop 12).take 4)) := by
  have e : ∀ (n : Nat) (y : Bytes), y.take (4 + n) = y.take 4 ++ (y.drop 4).take n := fun n y => List.take_add
  rw [show (16 : Nat) = 4 + (4 + (4 + 4)) from rfl, e, e, e, List.drop_drop, List.drop_drop]
  rfl

theorem word_W (b : Bytes) (t : Nat) (h : t < 16) : W V b t = BitVec.ofNat 32 (beNat ((b.drop (t * 4)).take 4)) := by
  rw [W, dif_pos h]; rfl

theorem words_in (b : Bytes) (hb : b.length = 64) (i : Nat) (hi : i < 4) :
    WQ b i = load (((b.drop (16 * i)).take 4).reverse ++ (((b.drop (16 * i + 4)).take 4).reverse ++
      (((b.drop (16 * i + 8)).take 4).reverse ++ ((b.drop (16 * i + 12)).take 4).reverse))) := by
  have hl : ∀ j, j + 4 ≤ 64 → ((b.drop j).take 4).reverse.length = 4 := by
    intro j hj; simp; omega
  rw [AesX86.load_words _ _ _ _ (hl _ (by omega)) (hl _ (by omega)) (hl _ (by omega)) (hl _ (by omega))]
  simp only [← beNat_eq_leNat_reverse]
  rw [WQ, word_W _ _ (by omega), word_W _ _ (by omega), word_W _ _ (by omega), word_W _ _ (by omega)]
  rw [show 4 * i * 4 = 16 * i by omega, show (4 * i + 1) * 4 = 16 * i + 4 by omega,
    show (4 * i + 2) * 4 = 16 * i + 8 by omega, show (4 * i + 3) * 4 = 16 * i + 12 by omega]

/-! ### Arm -/
namespace Arm
open Verif.Sha256Arm

theorem choose_eq (x y z : BitVec 32) : shaChoose x y z = Ch x y z := by
  apply BitVec.eq_of_getLsbD_eq
  intro i hi
  simp only [shaChoose, Ch, BitVec.getLsbD_xor, BitVec.getLsbD_and, BitVec.getLsbD_not, hi, decide_true, Bool.true_and]
  cases x.getLsbD i <;> cases y.getLsbD i <;> cases z.getLsbD i <;> rfl

theorem majority_eq (x y z : BitVec 32) : shaMajority x y z = Maj x y z := by
  apply BitVec.eq_of_getLsbD_eq
  intro i hi
  simp only [shaMajority, Maj, BitVec.getLsbD_xor, BitVec.getLsbD_and, BitVec.getLsbD_or]
  cases x.getLsbD i <;> cases y.getLsbD i <;> cases z.getLsbD i <;> rfl

def P (s : St 32) : Q × Q := (dwords s.a s.b s.c s.d, dwords s.e s.f s.g s.h)

theorem hashStep_eq (s : St 32) (w : BitVec 32) : hashStep (P s) w = P (step s w) := by
  simp only [hashStep, P, step, dword0, dword1, dword2, dword3, choose_eq, majority_eq]
  rw [BitVec.add_comm s.d, BitVec.add_assoc _ (shaSIGMA0 s.a)]
  rfl

theorem K_ok : ∀ t ∈ List.range 64, Sha256Arm.K.getD t 0#32 = V.K t := by
  have e : Sha256Arm.K = Sha2.K256 := by decide +kernel
  rw [e]; exact Sha2.K256_ok

theorem k_eq (i : Nat) (h : i < 16) :
    k i = dwords (V.K (4 * i)) (V.K (4 * i + 1)) (V.K (4 * i + 2)) (V.K (4 * i + 3)) := by
  rw [k, K_ok _ (List.mem_range.2 (by omega)), K_ok _ (List.mem_range.2 (by omega)),
    K_ok _ (List.mem_range.2 (by omega)), K_ok _ (List.mem_range.2 (by omega))]

theorem wk_eq (b : Bytes) (i : Nat) (h : i < 16) : vaddq32 (WQ b i) (k i) = WKQ b i := by
  rw [k_eq i h, vaddq32, WQ, WKQ]
  simp only [dword0, dword1, dword2, dword3]

theorem rounds_eq (b : Bytes) (H : St 32) (i : Nat) (h : i < 16) :
    rounds (WQ b i) (P (RT b H (4 * i))).1 (P (RT b H (4 * i))).2 (k i) = P (RT b H (4 * (i + 1))) := by
  rw [rounds]
  rw [wk_eq b i h]
  have e : sha256hash (P (RT b H (4 * i))).1 (P (RT b H (4 * i))).2 (WKQ b i) = P (RT b H (4 * (i + 1))) := by
    rw [sha256hash, WKQ]
    simp only [dword0, dword1, dword2, dword3, List.foldl_cons, List.foldl_nil]
    rw [show ((P (RT b H (4 * i))).1, (P (RT b H (4 * i))).2) = P (RT b H (4 * i)) from rfl]
    simp only [hashStep_eq]
    rw [show 4 * (i + 1) = 4 * i + 1 + 1 + 1 + 1 by omega, RT_succ, RT_succ, RT_succ, RT_succ]
    simp only [round_eq]
  rw [vsha256hq, vsha256h2q, e]

theorem schedule_eq (b : Bytes) (i : Nat) : schedule (WQ b i) (WQ b (i + 1)) (WQ b (i + 2)) (WQ b (i + 3)) = WQ b (i + 4) := by
  rw [WQ_four b (i + 1) (4 * i + 4) (by omega), WQ_four b (i + 2) (4 * i + 8) (by omega), WQ_four b (i + 3) (4 * i + 12) (by omega),
    WQ_four b (i + 4) (4 * i + 16) (by omega), WQ]
  have e : ∀ s1 w9 s0 w : BitVec 32, s1 + (s0 + w) + w9 = s1 + w9 + s0 + w := by intros; ac_rfl
  have h0 := W_ge b (4 * i)
  have h1 := W_ge b (4 * i + 1)
  have h2 := W_ge b (4 * i + 2)
  have h3 := W_ge b (4 * i + 3)
  simp only [Nat.add_assoc, Nat.reduceAdd] at h0 h1 h2 h3 ⊢
  simp only [schedule, vsha256su1q, vsha256su0q, dword0, dword1, dword2, dword3, e]
  have r0 : su1Elt (W V b (4 * i + 14)) + W V b (4 * i + 9) + su0Elt (W V b (4 * i + 1)) + W V b (4 * i) = W V b (4 * i + 16) := h0.symm
  have r1 : su1Elt (W V b (4 * i + 15)) + W V b (4 * i + 10) + su0Elt (W V b (4 * i + 2)) + W V b (4 * i + 1) = W V b (4 * i + 17) :=
    h1.symm
  rw [r0, r1]
  rw [h2, h3]
  rfl

theorem input_eq (b : Bytes) (hb : b.length = 64) (i : Nat) (hi : i < 4) : input b (16 * i) = WQ b i := by
  have hl : ∀ j, j + 4 ≤ 64 → ((b.drop j).take 4).length = 4 := by
    intro j hj; simp; omega
  rw [input, vld1q, split16]
  simp only [List.drop_drop, Nat.add_zero]
  rw [AesArm.vrev32q_words _ _ _ _ (hl _ (by omega)) (hl _ (by omega)) (hl _ (by omega)) (hl _ (by omega)), words_in b hb i hi]

theorem block_eq (H : St 32) (b : Bytes) (hb : b.length = 64) : block (P H) b = P (compress V H b) := by
  have q : ∀ i, i < 4 → input b (16 * i) = WQ b i := input_eq b hb
  have i0 : input b 0 = WQ b 0 := q 0 (by omega)
  have i1 : input b 16 = WQ b 1 := q 1 (by omega)
  have i2 : input b 32 = WQ b 2 := q 2 (by omega)
  have i3 : input b 48 = WQ b 3 := q 3 (by omega)
  have s := schedule_eq b
  have r := rounds_eq b H
  have pe : ∀ n, (⟨(P (RT b H n)).1, (P (RT b H n)).2⟩ : Q × Q) = P (RT b H n) := fun _ => rfl
  have st0 : P H = P (RT b H (4 * 0)) := rfl
  rw [block, i0, i1, i2, i3, st0]
  simp only [round0, round1, round2, round3, r 0 (by omega), r 1 (by omega), r 2 (by omega), r 3 (by omega), r 4 (by omega),
    r 5 (by omega), r 6 (by omega), r 7 (by omega), r 8 (by omega), r 9 (by omega), r 10 (by omega), r 11 (by omega),
    r 12 (by omega), r 13 (by omega), r 14 (by omega), r 15 (by omega), s 0, s 1, s 2, s 3, s 4, s 5, s 6, s 7, s 8, s 9, s 10,
    s 11, Nat.reduceAdd]
  have c : compress V H b = ⟨(RT b H 64).a + H.a, (RT b H 64).b + H.b, (RT b H 64).c + H.c, (RT b H 64).d + H.d,
    (RT b H 64).e + H.e, (RT b H 64).f + H.f, (RT b H 64).g + H.g, (RT b H 64).h + H.h⟩ := rfl
  rw [c]
  simp only [Nat.reduceMul, P, vaddq32, dword0, dword1, dword2, dword3]
  rfl

theorem compressBlocks_eq (H : St 32) (bs : Bytes) :
    Sha256Arm.compressBlocks H bs = (chunksExact 64 bs).foldl (compress V) H := by
  have key : ∀ (l : List Bytes) (H : St 32), (∀ b ∈ l, b.length = 64) → l.foldl block (P H) = P (l.foldl (compress V) H) := by
    intro l
    induction l with
    | nil => intro H _; rfl
    | cons b l ih =>
      intro H hl
      rw [List.foldl_cons, List.foldl_cons, block_eq H b (hl b List.mem_cons_self)]
      exact ih _ fun x hx => hl x (List.mem_cons_of_mem _ hx)
  have := key (chunksExact 64 bs) H (fun b hb => chunksExact_length hb)
  rw [P] at this
  rw [Sha256Arm.compressBlocks]
  rw [this]
  simp only [P, dword0, dword1, dword2, dword3]

end Arm

/-! ### SHA-NI -/
namespace Ni
open Verif.Sha256Ni

def P (s : St 32) : M128 × M128 := (dwords s.f s.e s.b s.a, dwords s.h s.g s.d s.c)

theorem rnd_eq (s : St 32) (w : BitVec 32) : rnd s w = step s w := by
  have e1 : ∀ c s1 w h m s0 : BitVec 32, c + s1 + w + h + m + s0 = h + s1 + c + w + (s0 + m) := by intros; ac_rfl
  have e2 : ∀ c s1 w h d : BitVec 32, c + s1 + w + h + d = d + (h + s1 + c + w) := by intros; ac_rfl
  rw [rnd, e2 (ch s.e s.f s.g) (Sig1 s.e) w s.h s.d, e1 (ch s.e s.f s.g) (Sig1 s.e) w s.h (maj s.a s.b s.c)]
  rfl

theorem rnds2_eq (s : St 32) (k : M128) :
    rnds2 (P s).2 (P s).1 k = (P (step (step s (dword k 0)) (dword k 1))).1 := by
  simp only [rnds2, P, dword0, dword1, dword2, dword3, rnd_eq]

theorem step2 (s : St 32) (w w' : BitVec 32) : (P (step (step s w) w')).2 = (P s).1 := rfl

theorem K_ok : ∀ t ∈ List.range 64, Sha256Ni.K.getD t 0#32 = V.K t := by
  have e : Sha256Ni.K = Sha2.K256 := by decide +kernel
  rw [e]; exact Sha2.K256_ok

theorem k_eq (i : Nat) (h : i < 16) :
    k i = dwords (V.K (4 * i)) (V.K (4 * i + 1)) (V.K (4 * i + 2)) (V.K (4 * i + 3)) := by
  rw [k, K_ok _ (List.mem_range.2 (by omega)), K_ok _ (List.mem_range.2 (by omega)),
    K_ok _ (List.mem_range.2 (by omega)), K_ok _ (List.mem_range.2 (by omega))]

theorem wk_eq (b : Bytes) (i : Nat) (h : i < 16) : add32 (WQ b i) (k i) = WKQ b i := by
  rw [k_eq i h, add32, WQ, WKQ]
  simp only [dword0, dword1, dword2, dword3]

theorem rounds_eq (b : Bytes) (H : St 32) (i : Nat) (h : i < 16) :
    rounds (WQ b i) (P (RT b H (4 * i))).1 (P (RT b H (4 * i))).2 (k i) = P (RT b H (4 * (i + 1))) := by
  rw [rounds]
  rw [wk_eq b i h, rnds2_eq]
  have e1 : step (step (RT b H (4 * i)) (dword (WKQ b i) 0)) (dword (WKQ b i) 1) = RT b H (4 * i + 2) := by
    rw [WKQ, dword0, dword1, RT_succ, RT_succ, round_eq, round_eq]
  have e2 : step (step (RT b H (4 * i + 2)) (dword (WKQ b i) 2)) (dword (WKQ b i) 3) = RT b H (4 * (i + 1)) := by
    rw [WKQ, dword2, dword3, show 4 * (i + 1) = 4 * i + 2 + 1 + 1 by omega, RT_succ _ _ (4 * i + 2 + 1), RT_succ _ _ (4 * i + 2),
      round_eq, round_eq]
  have e3 : (P (RT b H (4 * i))).1 = (P (RT b H (4 * i + 2))).2 := by rw [← e1]; rfl
  have e4 : (P (RT b H (4 * i + 2))).1 = (P (RT b H (4 * (i + 1)))).2 := by rw [← e2]; rfl
  rw [e1, e3, rnds2_eq]
  have s0 : dword (shuffle32 (WKQ b i) 0b00001110) 0 = dword (WKQ b i) 2 := by rw [shuffle32, dword0]
  have s1 : dword (shuffle32 (WKQ b i) 0b00001110) 1 = dword (WKQ b i) 3 := by rw [shuffle32, dword1]
  rw [s0, s1, e2, e4]

/-- The partly updated message register: `W_t + σ0(W_{t+1})`. -/
def MQ (b : Bytes) (i : Nat) : M128 := msg1 (WQ b i) (WQ b (i + 1))

theorem next_eq (b : Bytes) (i : Nat) : next (WQ b (i + 3)) (WQ b (i + 2)) (MQ b i) = WQ b (i + 4) := by
  rw [MQ, WQ_four b (i + 1) (4 * i + 4) (by omega), WQ_four b (i + 2) (4 * i + 8) (by omega), WQ_four b (i + 3) (4 * i + 12) (by omega),
    WQ_four b (i + 4) (4 * i + 16) (by omega), WQ]
  have e : ∀ s1 w9 s0 w : BitVec 32, w + s0 + w9 + s1 = s1 + w9 + s0 + w := by intros; ac_rfl
  have h0 := W_ge b (4 * i)
  have h1 := W_ge b (4 * i + 1)
  have h2 := W_ge b (4 * i + 2)
  have h3 := W_ge b (4 * i + 3)
  simp only [Nat.add_assoc, Nat.reduceAdd] at h0 h1 h2 h3 ⊢
  simp only [next, msg1, msg2, add32, alignr4, dword0, dword1, dword2, dword3]
  have r0 : W V b (4 * i) + sig0 (W V b (4 * i + 1)) + W V b (4 * i + 9) + sig1 (W V b (4 * i + 14)) = W V b (4 * i + 16) :=
    (e _ _ _ _).trans h0.symm
  have r1 : W V b (4 * i + 1) + sig0 (W V b (4 * i + 2)) + W V b (4 * i + 10) + sig1 (W V b (4 * i + 15)) = W V b (4 * i + 17) :=
    (e _ _ _ _).trans h1.symm
  have r2 : W V b (4 * i + 2) + sig0 (W V b (4 * i + 3)) + W V b (4 * i + 11) + sig1 (W V b (4 * i + 16)) = W V b (4 * i + 18) :=
    (e _ _ _ _).trans h2.symm
  have r3 : W V b (4 * i + 3) + sig0 (W V b (4 * i + 4)) + W V b (4 * i + 12) + sig1 (W V b (4 * i + 17)) = W V b (4 * i + 19) :=
    (e _ _ _ _).trans h3.symm
  rw [r0, r1, r2, r3]

theorem store_shuffle : store SHUFFLE = [3#8, 2#8, 1#8, 0#8, 7#8, 6#8, 5#8, 4#8, 11#8, 10#8, 9#8, 8#8, 15#8, 14#8, 13#8, 12#8] := by
  decide +kernel

theorem shuffle_words (a b c d : Bytes) (ha : a.length = 4) (hb : b.length = 4) (hc : c.length = 4) (hd : d.length = 4) :
    shuffle8 (load (a ++ (b ++ (c ++ d)))) SHUFFLE = load (a.reverse ++ (b.reverse ++ (c.reverse ++ d.reverse))) := by
  match a, ha, b, hb, c, hc, d, hd with
  | [a0, a1, a2, a3], _, [b0, b1, b2, b3], _, [c0, c1, c2, c3], _, [d0, d1, d2, d3], _ =>
    rw [shuffle8, store_shuffle, store_load _ rfl]; rfl

theorem input_eq (b : Bytes) (hb : b.length = 64) (i : Nat) (hi : i < 4) : input b (16 * i) = WQ b i := by
  have hl : ∀ j, j + 4 ≤ 64 → ((b.drop j).take 4).length = 4 := by
    intro j hj; simp; omega
  rw [input, split16]
  simp only [List.drop_drop, Nat.add_zero]
  rw [shuffle_words _ _ _ _ (hl _ (by omega)) (hl _ (by omega)) (hl _ (by omega)) (hl _ (by omega)), words_in b hb i hi]

theorem block_eq (H : St 32) (b : Bytes) (hb : b.length = 64) : block (P H) b = P (compress V H b) := by
  have q : ∀ i, i < 4 → input b (16 * i) = WQ b i := input_eq b hb
  have i0 : input b 0 = WQ b 0 := q 0 (by omega)
  have i1 : input b 16 = WQ b 1 := q 1 (by omega)
  have i2 : input b 32 = WQ b 2 := q 2 (by omega)
  have i3 : input b 48 = WQ b 3 := q 3 (by omega)
  have s := next_eq b
  have r := rounds_eq b H
  have m : ∀ i, msg1 (WQ b i) (WQ b (i + 1)) = MQ b i := fun _ => rfl
  have st0 : P H = P (RT b H (4 * 0)) := rfl
  rw [block, i0, i1, i2, i3, st0]
  have ms := fun i => m i
  simp only [round0, round1, round2, round3, round1of2, round2of2, r 0 (by omega), r 1 (by omega), r 2 (by omega), r 3 (by omega),
    r 4 (by omega), r 5 (by omega), r 6 (by omega), r 7 (by omega), r 8 (by omega), r 9 (by omega), r 10 (by omega),
    r 11 (by omega), r 12 (by omega), r 13 (by omega), r 14 (by omega), r 15 (by omega), s 0, s 1, s 2, s 3, s 4, s 5, s 6, s 7,
    s 8, s 9, s 10, s 11, m 0, m 1, m 2, m 3, m 4, m 5, m 6, m 7, m 8, m 9, m 10, m 11, m 12, m 13, Nat.reduceAdd]
  have c : compress V H b = ⟨(RT b H 64).a + H.a, (RT b H 64).b + H.b, (RT b H 64).c + H.c, (RT b H 64).d + H.d,
    (RT b H 64).e + H.e, (RT b H 64).f + H.f, (RT b H 64).g + H.g, (RT b H 64).h + H.h⟩ := rfl
  rw [c]
  simp only [Nat.reduceMul, P, add32, dword0, dword1, dword2, dword3]
  rfl

theorem pack_eq (H : St 32) : pack (dwords H.a H.b H.c H.d) (dwords H.e H.f H.g H.h) = P H := by
  simp [pack, P, shuffle32, alignr8, blendF0]

theorem unpack_eq (H : St 32) : unpack (P H) = (dwords H.a H.b H.c H.d, dwords H.e H.f H.g H.h) := by
  simp [unpack, P, shuffle32, alignr8, blendF0]

theorem compressBlocks_eq (H : St 32) (bs : Bytes) :
    Sha256Ni.compressBlocks H bs = (chunksExact 64 bs).foldl (compress V) H := by
  have key : ∀ (l : List Bytes) (H : St 32), (∀ b ∈ l, b.length = 64) → l.foldl block (P H) = P (l.foldl (compress V) H) := by
    intro l
    induction l with
    | nil => intro H _; rfl
    | cons b l ih =>
      intro H hl
      rw [List.foldl_cons, List.foldl_cons, block_eq H b (hl b List.mem_cons_self)]
      exact ih _ fun x hx => hl x (List.mem_cons_of_mem _ hx)
  have := key (chunksExact 64 bs) H (fun b hb => chunksExact_length hb)
  rw [Sha256Ni.compressBlocks]
  rw [pack_eq, this, unpack_eq]
  simp only [dword0, dword1, dword2, dword3]

end Ni
end Verif.Sha256Simd
