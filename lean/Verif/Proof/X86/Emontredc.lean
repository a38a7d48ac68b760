import Verif.Proof.X86.EmMem

/-! `bignum_emontredc_8n`. -/
namespace Verif.X86.Sym
open Verif Verif.X86

set_option maxRecDepth 20000
set_option exponentiation.threshold 600

theorem em_len : Asm.bignumEmontredc8n.length = 532 := rfl

theorem pow512 (j : Nat) : 2 ^ (512 * (j + 1)) = 2 ^ 512 * 2 ^ (512 * j) := by
  rw [Nat.mul_succ, Nat.pow_add, Nat.mul_comm]

theorem val_app8 {a : Words} {j : Nat} (h : a.length = 8 * j) (c : Words) : val (a ++ c) = val a + 2 ^ (512 * j) * val c := by
  rw [val_append, h, show 64 * (8 * j) = 512 * j by omega]

theorem apart_sub {p q : Word} {k l d e : Nat} (h : Apart p k q l) (hd : d + 8 ≤ k) (he : e + 8 ≤ l) :
    Apart (word p d) 8 (word q e) 8 := by
  intro i hi j hj
  rw [X86.word_add, X86.word_add]
  exact h _ (by omega) _ (by omega)

theorem apart_self {p : Word} {d e : Nat} (h : d + 8 ≤ e ∨ e + 8 ≤ d) (hd : d + 8 < 2 ^ 61) (he : e + 8 < 2 ^ 61) :
    Apart (word p d) 8 (word p e) 8 := by
  intro i hi j hj heq
  rw [X86.word_add, X86.word_add] at heq
  have := word_inj (by omega) (by omega) heq
  omega

theorem owns_sub {s t : St} {p : Word} {k d : Nat} (h : s.Owns p k) (hw : t.wr = s.wr) (hd : d + 8 ≤ k) : t.Owns (word p d) 8 := by
  intro i hi
  rw [X86.word_add, hw]
  exact h _ (by omega)

theorem add64 (p : Word) (i : Nat) : word p i + 64#64 = word p (i + 8) := by
  rw [← X86.word_add]
  rfl

theorem adcv64 (p : Word) (i : Nat) : adcv (word p i) 64#64 false = word p (i + 8) := by
  rw [← add64]
  exact BitVec.add_zero _

theorem bytes_words (p : Word) (i j : Nat) : word p i + BitVec.ofNat 64 (64 * j) = word p (i + 8 * j) := by
  rw [← X86.word_add]
  unfold word
  rw [show 64 * j = 8 * (8 * j) by omega, BitVec.ofNat_mul 8]

theorem sub_words (p : Word) (j : Nat) : sbbv (word p (8 * j)) (BitVec.ofNat 64 (64 * j)) false = p := by
  have h := bytes_words p 0 j
  rw [word_zero, Nat.zero_add] at h
  rw [← h]
  have : ∀ a b : Word, sbbv a b false = a - b := fun a b => by
    show a - b - 0#64 = a - b
    exact BitVec.sub_zero _
  rw [this, BitVec.add_sub_cancel]

/-- What stays. -/
structure EmSt (s : St) (b : Word) (t : St) : Prop where
  rcx : t.rcx = s.rcx
  rsp : t.rsp = b
  wr : t.wr = s.wr

/-- Between two blocks: `dn` is the part of the number that this pass has rewritten, `td` the part to go. -/
structure EmIn (s : St) (n : Nat) (m : Words) (b : Word) (z : Words) (i j c Q Y M : Nat) (pre q dn td : Words) (t : St) : Prop where
  st : EmSt s b t
  rsi : t.rsi = word s.rsi (8 * i)
  rbp : t.rbp = word s.rsi (8 * (i + j))
  rdi : t.rdi = word s.rdx (8 * j)
  mem : EmMem s n m b (pre ++ (q ++ (dn ++ td))) (BitVec.ofNat 64 c) (BitVec.ofNat 64 (n - i)) t.mem
  lp : pre.length = 8 * i
  lq : q.length = 8
  ld : dn.length = 8 * j
  c1 : c ≤ 1
  hQ : Q < 2 ^ (512 * i)
  hV : val z + Q * val m = 2 ^ (512 * i) * (Y + 2 ^ 512 * 2 ^ (512 * j) * val td + 2 ^ (512 * n) * c)
  hM : val m = M + 2 ^ 512 * 2 ^ (512 * j) * val (m.drop (8 * (j + 1)))
  hY : Y + val q * M = 2 ^ 512 * (val dn + 2 ^ (512 * j) * num8 t)

/-- Between two passes. -/
structure EmOut (s : St) (n : Nat) (m : Words) (b : Word) (z : Words) (i c Q : Nat) (pre cur : Words) (t : St) : Prop where
  st : EmSt s b t
  rsi : t.rsi = word s.rsi (8 * i)
  mem : EmMem s n m b (pre ++ cur) (BitVec.ofNat 64 c) (BitVec.ofNat 64 (n - i)) t.mem
  lp : pre.length = 8 * i
  c1 : c ≤ 1
  hQ : Q < 2 ^ (512 * i)
  hV : val z + Q * val m = 2 ^ (512 * i) * (val cur + 2 ^ (512 * n) * c)

/-- The result. -/
def EmPost (s : St) (n : Nat) (m : Words) (b : Word) (z : Words) (s' : St) : Prop :=
  ∃ pre cur c q, Holds s'.mem s.rsi (pre ++ cur) ∧ pre.length = 8 * n ∧ cur.length = 8 * n ∧ q < 2 ^ (512 * n) ∧
    s'.rax = BitVec.ofNat 64 c ∧ c ≤ 1 ∧ val z + q * val m = 2 ^ (512 * n) * (val cur + 2 ^ (512 * n) * c) ∧
    ∀ a, (∀ i < 16 * n, a ≠ word s.rsi i) → (∀ i < 10, a ≠ word b i) → s'.mem a = s.mem a

theorem em_end {s n m b z c Q pre cur t} (O : EmOut s n m b z n c Q pre cur t) :
    From Asm.bignumEmontredc8n 524 t (EmPost s n m b z) := by
  have hc := O.mem.c
  obtain ⟨v4, h4⟩ := O.mem.st 4 (by omega) (by omega)
  obtain ⟨v5, h5⟩ := O.mem.st 5 (by omega) (by omega)
  obtain ⟨v6, h6⟩ := O.mem.st 6 (by omega) (by omega)
  obtain ⟨v7, h7⟩ := O.mem.st 7 (by omega) (by omega)
  obtain ⟨v8, h8⟩ := O.mem.st 8 (by omega) (by omega)
  obtain ⟨v9, h9⟩ := O.mem.st 9 (by omega) (by omega)
  have e1 : b = word b 0 := (word_zero b).symm
  have e2 : adcv (word b 1) 24#64 false = word b 4 := word_adc b 1 3
  have hl := O.mem.l
  rw [List.length_append, O.lp] at hl
  xstep [O.st.rsp.trans e1, hc, word_plus8]
  xstep [e2]
  xstep [h4, word_plus8]
  xstep [h5, word_plus8]
  xstep [h6, word_plus8]
  xstep [h7, word_plus8]
  xstep [h8, word_plus8]
  xstep [h9, word_plus8]
  exact From.halt rfl ⟨pre, cur, c, Q, O.mem.z, O.lp, by omega, O.hQ, rfl, O.c1, O.hV, O.mem.un⟩

/-- The end of a pass. -/
theorem em_tail {s n m b z i c Q Y M pre q dn td t} (C : EmCtx s n m b) (hi : i < n) (I : EmIn s n m b z i (n - 1) c Q Y M pre q dn td t)
    (hax : t.rax = BitVec.ofNat 64 (64 * (n - 1)))
    (ih : i + 1 < n → ∀ t' c Q pre cur, t'.rdi = s.rdx → EmOut s n m b z (i + 1) c Q pre cur t' →
      From Asm.bignumEmontredc8n 17 t' (EmPost s n m b z)) :
    From Asm.bignumEmontredc8n 507 t (EmPost s n m b z) := by
  have n1 := C.n1
  have n0 := C.n0
  obtain ⟨j, rfl⟩ : ∃ j, n = j + 1 := ⟨n - 1, by omega⟩
  rw [Nat.add_sub_cancel] at I hax
  have hl := I.mem.l
  simp only [List.length_append, I.lp, I.lq, I.ld] at hl
  obtain ⟨x, r, rfl, hx⟩ : ∃ x r, td = x ++ r ∧ x.length = 8 := ⟨td.take 8, td.drop 8, (List.take_append_drop 8 td).symm, by simp; omega⟩
  have e1 : b = word b 0 := (word_zero b).symm
  have e2 : word b 0 + 16#64 = word b 2 := by rw [word_zero]; rfl
  have hc := I.mem.c
  have hrb : ((BitVec.ofNat 64 c).toNat) = c := toNat_ofNat' (by have := I.c1; omega)
  have mem0 : EmMem s (j + 1) m b ((pre ++ (q ++ dn)) ++ (x ++ r)) (BitVec.ofNat 64 c) (BitVec.ofNat 64 (j + 1 - i)) t.mem := by
    have := I.mem
    simp only [List.append_assoc] at this ⊢
    exact this
  have la : (pre ++ (q ++ dn)).length = 8 * (i + j) + 8 := by
    simp only [List.length_append, I.lp, I.lq, I.ld]
    omega
  have step : ∀ t1 : St, EmSt s b t1 → t1.rsi = word s.rsi (8 * i) → t1.rbp = word s.rsi (8 * (i + j)) → t1.rdi = s.rdx →
      t1.rax = BitVec.ofNat 64 (64 * j) → t1.rbx = BitVec.ofNat 64 c → t1.mem = t.mem → num8 t1 = num8 t →
      From Asm.bignumEmontredc8n 509 t1 (EmPost s (j + 1) m b z) := by
    intro t1 S hsi hbp hdi hax hbx hmem hnum
    have ea : t1.rbp + 64#64 = word s.rsi (pre ++ (q ++ dn)).length := by rw [hbp, add64, la]
    obtain ⟨t2, y, d, h1, h2, h3, ⟨r1, r2, r3, r4⟩, ly, hy, hd, d1, hs⟩ := partC (t := t1) (z := x) hx (by rw [hbx, hrb]; exact I.c1)
      ⟨by
        intro B hB
        simp only [List.mem_cons, List.not_mem_nil, or_false] at hB
        subst hB
        refine ⟨fun _ => ?_, fun ws e => ?_, fun ws e => ?_⟩
        · dsimp only
          rw [ea, la]
          exact owns_sub C.oz S.wr (by omega)
        · cases e
          exact hx
        · cases e
          dsimp only
          rw [ea, hmem]
          exact Holds.sub mem0.z, List.pairwise_singleton _ _⟩
    rw [ea] at h2 hy
    rw [hbx, hrb, hnum] at hs
    rw [hmem] at h2
    obtain ⟨mem2, -⟩ := EmMem.block C mem0 hx ly hy h2
    have he : t1.rsi + t1.rax = t1.rbp := by rw [hsi, hax, bytes_words, hbp, Nat.mul_add]
    rw [← emC_eq he] at h1
    refine From.part (n := 11) (by rw [em_len]; omega) h1 ?_
    simp only [Nat.reduceAdd]
    have hcnt := mem2.cnt
    have mem3 := mem2.frame C (j := 0) (by omega) t2.rax
    have mem4 := mem3.frame C (j := 2) (by omega) (BitVec.ofNat 64 (j + 1 - i - 1))
    have hcnt' : sbbv (BitVec.ofNat 64 (j + 1 - i)) 1#64 false = BitVec.ofNat 64 (j + 1 - i - 1) := by
      have := dec_ofNat (j - i)
      rw [show j - i + 1 = j + 1 - i by omega] at this
      rw [this]
      congr 1
      omega
    have hM : M = val m := by
      have := I.hM
      rw [List.drop_of_length_le (by rw [C.m])] at this
      simp only [val, Nat.mul_zero, Nat.add_zero] at this
      exact this.symm
    have hV : val z + (Q + 2 ^ (512 * i) * val q) * val m =
        2 ^ (512 * (i + 1)) * (val (dn ++ (y ++ r)) + 2 ^ (512 * (j + 1)) * d) := by
      rw [val_app8 I.ld, val_app8 (j := 1) (by rw [ly]), pow512 i, pow512 j, Nat.mul_one, Nat.mul_comm (2 ^ 512) (2 ^ (512 * i))]
      refine pass_step (R := num8 t) (X := val x) (c := c) (Y := Y) ?_ (by rw [← hM]; exact I.hY) (by omega)
      have := I.hV
      rw [val_app8 (j := 1) (by rw [hx]), pow512 j, Nat.mul_one] at this
      exact this
    have hQ : Q + 2 ^ (512 * i) * val q < 2 ^ (512 * (i + 1)) := by
      have h1 := I.hQ
      have h2 := val_lt q
      rw [I.lq] at h2
      rw [pow512, Nat.mul_comm (2 ^ 512)]
      calc Q + 2 ^ (512 * i) * val q < 2 ^ (512 * i) * 1 + 2 ^ (512 * i) * val q := by omega
        _ = 2 ^ (512 * i) * (1 + val q) := by ring
        _ ≤ 2 ^ (512 * i) * 2 ^ 512 := Nat.mul_le_mul_left _ (by omega)
    have w0 := C.ob 0 (by omega)
    have w2 := C.ob 2 (by omega)
    have f2 : (if word b 2 = word b 0 then some t2.rax else t2.mem (word b 2)) = some (BitVec.ofNat 64 (j + 1 - i)) := by
      rw [if_neg (frame_ne (by omega) (by omega) (by omega))]
      exact hcnt
    have wr2 : t2.wr = s.wr := h3.trans S.wr
    have sp2 : t2.rsp = word b 0 := r4.trans (S.rsp.trans e1)
    have si2 : t2.rsi = word s.rsi (8 * i) := r2.trans hsi
    xstep [sp2, wr2, w0]
    xstep [si2, adcv64]
    xstep [sp2, e2, f2, hcnt', wr2, w2]
    have O : ∀ t', EmSt s b t' → t'.rsi = word s.rsi (8 * i + 8) → t'.mem = (fun a => if a = word b 2 then some (BitVec.ofNat 64 (j + 1 - i - 1))
        else if a = word b 0 then some t2.rax else t2.mem a) → EmOut s (j + 1) m b z (i + 1) d (Q + 2 ^ (512 * i) * val q) (pre ++ q) (dn ++ (y ++ r)) t' := by
      intro t' S' si' me'
      refine ⟨S', by rw [si']; rfl, ?_, by rw [List.length_append, I.lp, I.lq]; omega, d1, hQ, hV⟩
      rw [me', ← hd]
      simp only [List.append_assoc] at mem4 ⊢
      exact mem4
    by_cases hi' : i + 1 < j + 1
    · xtake [ofNat_beq_zero (i := j + 1 - i - 1) (by omega), decide_eq_false (show ¬ j + 1 - i - 1 = 0 by omega), Bool.not_false]
      exact ih hi' _ d _ _ _ (r3.trans hdi) (O _ ⟨r1.trans S.rcx, word_zero b, rfl⟩ rfl rfl)
    · xfall [ofNat_beq_zero (i := j + 1 - i - 1) (by omega), decide_eq_true (show j + 1 - i - 1 = 0 by omega), Bool.not_true]
      have e : i + 1 = j + 1 := by omega
      have fin : ∀ t', EmOut s (j + 1) m b z (i + 1) d (Q + 2 ^ (512 * i) * val q) (pre ++ q) (dn ++ (y ++ r)) t' →
          From Asm.bignumEmontredc8n 524 t' (EmPost s (j + 1) m b z) := by
        rw [e]
        exact fun t' => em_end
      exact fin _ (O _ ⟨r1.trans S.rcx, word_zero b, rfl⟩ rfl rfl)
  xstep [I.rdi, hax, sub_words]
  xstep [I.st.rsp.trans e1, hc]
  exact step _ ⟨I.st.rcx, by rw [← e1], I.st.wr⟩ I.rsi I.rbp rfl rfl rfl rfl rfl

/-- The blocks of a pass after the first. -/
theorem em_inner {s n m b z i c Q} (C : EmCtx s n m b) (hi : i < n)
    (ih : i + 1 < n → ∀ t' c Q pre cur, t'.rdi = s.rdx → EmOut s n m b z (i + 1) c Q pre cur t' →
      From Asm.bignumEmontredc8n 17 t' (EmPost s n m b z)) {pre q dn td Y M j t} (hj : j + 1 < n)
    (I : EmIn s n m b z i j c Q Y M pre q dn td t) (hin : t.mem (word b 1) = some (BitVec.ofNat 64 (64 * (n - 1 - j)))) :
    From Asm.bignumEmontredc8n 262 t (EmPost s n m b z) := by
  have n1 := C.n1
  have e1 : b = word b 0 := (word_zero b).symm
  have e8 : word b 0 + 8#64 = word b 1 := by rw [word_zero]; rfl
  have e24 : word b 0 + 24#64 = word b 3 := by rw [word_zero]; rfl
  refine From.loop (fun k t => ∃ j dn td Y M, k + j + 1 = n ∧ 0 < k ∧ EmIn s n m b z i j c Q Y M pre q dn td t ∧
    t.mem (word b 1) = some (BitVec.ofNat 64 (64 * (n - 1 - j)))) ?_ (n - 1 - j) t ⟨j, dn, td, Y, M, by omega, by omega, I, hin⟩
  clear hin I hj
  clear dn td Y M j t
  rintro k t ⟨j, dn, td, Y, M, hk, hk0, I, hin⟩ loop
  have hl := I.mem.l
  simp only [List.length_append, I.lp, I.lq, I.ld] at hl
  obtain ⟨x, r, rfl, hx⟩ : ∃ x r, td = x ++ r ∧ x.length = 8 := ⟨td.take 8, td.drop 8, (List.take_append_drop 8 td).symm, by simp; omega⟩
  obtain ⟨N, hN⟩ : ∃ N, N = (m.drop (8 * (j + 1))).take 8 := ⟨_, rfl⟩
  have hNl : N.length = 8 := by
    rw [hN, List.length_take, List.length_drop, C.m]
    omega
  have hmd : m.drop (8 * (j + 1)) = N ++ m.drop (8 * (j + 2)) := by
    rw [hN, show 8 * (j + 2) = 8 * (j + 1) + 8 by omega, ← List.drop_drop, List.take_append_drop]
  have hms : m = m.take (8 * (j + 1)) ++ (N ++ m.drop (8 * (j + 2))) := by rw [← hmd, List.take_append_drop]
  have hmt : (m.take (8 * (j + 1))).length = 8 * (j + 1) := by
    rw [List.length_take, C.m]
    omega
  have mem0 : EmMem s n m b ((pre ++ (q ++ dn)) ++ (x ++ r)) (BitVec.ofNat 64 c) (BitVec.ofNat 64 (n - i)) t.mem := by
    have := I.mem
    simp only [List.append_assoc] at this ⊢
    exact this
  have la : (pre ++ (q ++ dn)).length = 8 * (i + j) + 8 := by
    simp only [List.length_append, I.lp, I.lq, I.ld]
    omega
  have step : ∀ t1 : St, EmSt s b t1 → t1.rsi = word s.rsi (8 * i) → t1.rbp = word s.rsi (8 * (i + j) + 8) → t1.rdi = word s.rdx (8 * j + 8) →
      t1.mem = t.mem → num8 t1 = num8 t → From Asm.bignumEmontredc8n 264 t1 (EmPost s n m b z) := by
    intro t1 S hsi hbp hdi hmem hnum
    obtain ⟨t2, y, h1, h2, h3, ⟨r1, r2, r3, r4, r5⟩, ly, hy, hs⟩ := partB (t := t1) (z := x) (m := N) (q := q) hx hNl I.lq (by
      rw [hsi, hbp, hdi]
      refine ⟨?_, ?_⟩
      · intro B hB
        simp only [List.mem_cons, List.not_mem_nil, or_false] at hB
        rcases hB with rfl | rfl | rfl
        · refine ⟨fun _ => owns_sub C.oz S.wr (by omega), fun ws e => by cases e; exact hx, fun ws e => ?_⟩
          cases e
          rw [hmem]
          dsimp only
          rw [← la]
          exact Holds.sub mem0.z
        · refine ⟨fun e => (by cases e), fun ws e => by cases e; exact hNl, fun ws e => ?_⟩
          cases e
          rw [hmem]
          dsimp only
          have := I.mem.m
          rw [hms] at this
          have := Holds.sub this
          rw [hmt] at this
          exact this
        · refine ⟨fun e => (by cases e), fun ws e => by cases e; exact I.lq, fun ws e => ?_⟩
          cases e
          rw [hmem]
          dsimp only
          have := Holds.sub I.mem.z
          rw [I.lp] at this
          exact this
      · refine List.Pairwise.cons ?_ (List.Pairwise.cons ?_ (List.pairwise_singleton _ _))
        · intro B hB _
          simp only [List.mem_cons, List.not_mem_nil, or_false] at hB
          rcases hB with rfl | rfl
          · exact apart_sub C.zm (by omega) (by omega)
          · exact apart_self (by omega) (by omega) (by omega)
        · intro B hB h
          simp only [List.mem_cons, List.not_mem_nil, or_false] at hB
          subst hB
          rcases h with h | h <;> cases h)
    rw [hbp, ← la] at h2 hy
    rw [hmem] at h2
    rw [hnum] at hs
    obtain ⟨mem2, fr2⟩ := EmMem.block C mem0 hx ly hy h2
    refine From.part (n := 240) (by rw [em_len]; omega) h1 ?_
    simp only [Nat.reduceAdd]
    have sp2 : t2.rsp = word b 0 := r4.trans (S.rsp.trans e1)
    have wr2 : t2.wr = s.wr := h3.trans S.wr
    have w1 := C.ob 1 (by omega)
    have hin2 : t2.mem (word b 1) = some (BitVec.ofNat 64 (64 * (n - 1 - j))) := (fr2 1 (by omega)).trans hin
    have hsub : sbbv (BitVec.ofNat 64 (64 * (n - 1 - j))) 64#64 false = BitVec.ofNat 64 (64 * (n - 1 - (j + 1))) := by
      rw [show (64#64 : Word) = BitVec.ofNat 64 64 from rfl, sub_ofNat (by omega)]
      congr 1
      omega
    have mem3 := mem2.frame C (j := 1) (by omega) (BitVec.ofNat 64 (64 * (n - 1 - (j + 1))))
    xstep [sp2, e8, hin2, hsub, wr2, w1]
    have K : ∀ t' : St, EmSt s b t' → t'.rsi = word s.rsi (8 * i) → t'.rbp = word s.rsi (8 * (i + j) + 8) → t'.rdi = word s.rdx (8 * j + 8) →
        t'.mem = (fun a => if a = word b 1 then some (BitVec.ofNat 64 (64 * (n - 1 - (j + 1)))) else t2.mem a) → num8 t' = num8 t2 →
        EmIn s n m b z i (j + 1) c Q (Y + 2 ^ 512 * 2 ^ (512 * j) * val x) (M + 2 ^ 512 * 2 ^ (512 * j) * val N) pre q (dn ++ y) r t' := by
      intro t' S' si' bp' di' me' nu'
      refine ⟨S', si', by rw [bp']; rfl, by rw [di']; rfl, ?_, I.lp, I.lq, by rw [List.length_append, I.ld, ly]; omega, I.c1, I.hQ, ?_, ?_, ?_⟩
      · rw [me']
        simp only [List.append_assoc] at mem3 ⊢
        exact mem3
      · have := I.hV
        rw [val_app8 (j := 1) (by rw [hx])] at this
        rw [this, pow512 j]
        ring
      · have := I.hM
        rw [hmd, val_app8 (j := 1) (by rw [hNl])] at this
        rw [this, pow512 j]
        ring
      · rw [val_app8 I.ld, pow512 j, nu']
        exact block_step I.hY hs
    by_cases he : n - 1 - (j + 1) = 0
    · xfall [ofNat_beq_zero (i := 64 * (n - 1 - (j + 1))) (by omega), decide_eq_true (show 64 * (n - 1 - (j + 1)) = 0 by omega), Bool.not_true]
      have f3 : (if word b 3 = word b 1 then some (BitVec.ofNat 64 (64 * (n - 1 - (j + 1)))) else t2.mem (word b 3)) =
          some (BitVec.ofNat 64 (64 * (n - 1))) := by
        rw [if_neg (frame_ne (by omega) (by omega) (by omega))]
        exact mem2.len
      xstep [sp2, e24, f3]
      obtain rfl : n = j + 2 := by omega
      exact em_tail C hi (K _ ⟨r1.trans S.rcx, word_zero b, rfl⟩ (r2.trans hsi) (r5.trans hbp) (r3.trans hdi) rfl rfl) rfl ih
    · xtake [ofNat_beq_zero (i := 64 * (n - 1 - (j + 1))) (by omega), decide_eq_false (show ¬ 64 * (n - 1 - (j + 1)) = 0 by omega), Bool.not_false]
      exact loop (k - 1) (by omega) _ ⟨j + 1, _, _, _, _, by omega, by omega,
        K _ ⟨r1.trans S.rcx, word_zero b, rfl⟩ (r2.trans hsi) (r5.trans hbp) (r3.trans hdi) rfl rfl, if_pos rfl⟩
  xstep [I.rbp, adcv64]
  xstep [I.rdi, adcv64]
  exact step _ ⟨I.st.rcx, I.st.rsp, I.st.wr⟩ I.rsi rfl rfl rfl rfl

/-- All passes. -/
theorem em_outer {s n m b z} (C : EmCtx s n m b) (hw : ((wd m 0).toNat * s.rcx.toNat + 1) % 2 ^ 64 = 0) :
    ∀ (k i : Nat), k + i = n → 0 < k → ∀ t c Q pre cur, t.rdi = s.rdx → EmOut s n m b z i c Q pre cur t →
      From Asm.bignumEmontredc8n 17 t (EmPost s n m b z) := by
  intro k
  induction k with
  | zero =>
    intro i _ h
    omega
  | succ k ihk =>
    intro i hki _ t c Q pre cur hdi O
    have n1 := C.n1
    have ih : i + 1 < n → ∀ t' c Q pre cur, t'.rdi = s.rdx → EmOut s n m b z (i + 1) c Q pre cur t' →
        From Asm.bignumEmontredc8n 17 t' (EmPost s n m b z) := fun h => ihk (i + 1) (by omega) (by omega)
    have e1 : b = word b 0 := (word_zero b).symm
    have e8 : word b 0 + 8#64 = word b 1 := by rw [word_zero]; rfl
    have e24 : word b 0 + 24#64 = word b 3 := by rw [word_zero]; rfl
    have hl := O.mem.l
    simp only [List.length_append, O.lp] at hl
    obtain ⟨x, r, rfl, hx⟩ : ∃ x r, cur = x ++ r ∧ x.length = 8 := ⟨cur.take 8, cur.drop 8, (List.take_append_drop 8 cur).symm, by simp; omega⟩
    obtain ⟨N, hN⟩ : ∃ N, N = m.take 8 := ⟨_, rfl⟩
    have hNl : N.length = 8 := by
      rw [hN, List.length_take, C.m]
      omega
    have hms : m = N ++ m.drop 8 := by rw [hN, List.take_append_drop]
    have hw0 : wd N 0 = wd m 0 := by
      rw [wd_eq (by omega), wd_eq (by rw [C.m]; omega)]
      simp only [hN, List.getElem_take]
    obtain ⟨t2, q, h1, h2, h3, ⟨r1, r2, r3, r4⟩, lq, hq, hs⟩ := partA (t := t) (z := x) (m := N) hx hNl (by rw [hw0, O.st.rcx]; exact hw) (by
      rw [O.rsi, hdi]
      refine ⟨?_, ?_⟩
      · intro B hB
        simp only [List.mem_cons, List.not_mem_nil, or_false] at hB
        rcases hB with rfl | rfl
        · refine ⟨fun _ => owns_sub C.oz O.st.wr (by omega), fun ws e => by cases e; exact hx, fun ws e => ?_⟩
          cases e
          have := Holds.sub O.mem.z
          rw [O.lp] at this
          exact this
        · refine ⟨fun e => (by cases e), fun ws e => by cases e; exact hNl, fun ws e => ?_⟩
          cases e
          have := O.mem.m
          rw [hms] at this
          have := Holds.sub (a := []) this
          rw [List.length_nil, word_zero] at this
          exact this
      · refine List.Pairwise.cons ?_ (List.pairwise_singleton _ _)
        intro B hB _
        simp only [List.mem_cons, List.not_mem_nil, or_false] at hB
        subst hB
        have := apart_sub C.zm (d := 8 * i) (e := 0) (by omega) (by omega)
        rw [word_zero s.rdx] at this
        exact this)
    rw [O.rsi, ← O.lp] at h2 hq
    obtain ⟨mem2, -⟩ := EmMem.block C O.mem hx lq hq h2
    refine From.part (n := 240) (by rw [em_len]; omega) h1 ?_
    simp only [Nat.reduceAdd]
    have sp2 : t2.rsp = word b 0 := r4.trans (O.st.rsp.trans e1)
    have wr2 : t2.wr = s.wr := h3.trans O.st.wr
    have w1 := C.ob 1 (by omega)
    have hlen := mem2.len
    have K : ∀ t' : St, EmSt s b t' → t'.rsi = word s.rsi (8 * i) → t'.rbp = word s.rsi (8 * i) → t'.rdi = s.rdx →
        EmMem s n m b (pre ++ (q ++ r)) (BitVec.ofNat 64 c) (BitVec.ofNat 64 (n - i)) t'.mem → num8 t' = num8 t2 →
        EmIn s n m b z i 0 c Q (val x) (val N) pre q [] r t' := by
      intro t' S' si' bp' di' me' nu'
      refine ⟨S', si', bp', by rw [di', Nat.mul_zero, word_zero], me', O.lp, lq, rfl, O.c1, O.hQ, ?_, ?_, ?_⟩
      · have := O.hV
        rw [val_app8 (j := 1) (by rw [hx])] at this
        rw [this]
        simp
      · conv_lhs => rw [hms]
        rw [val_app8 (j := 1) (by rw [hNl])]
        simp
      · rw [nu', hs]
        simp [val]
    xstep [r2.trans O.rsi]
    xstep [sp2, e24, hlen]
    xstep []
    by_cases he : n = 1
    · xtake [ofNat_beq_zero (i := 64 * (n - 1)) (by omega), decide_eq_true (show 64 * (n - 1) = 0 by omega)]
      subst he
      exact em_tail C (by omega) (K _ ⟨r1.trans O.st.rcx, word_zero b, wr2⟩ rfl rfl (r3.trans hdi) mem2 rfl) rfl ih
    · xfall [ofNat_beq_zero (i := 64 * (n - 1)) (by omega), decide_eq_false (show ¬ 64 * (n - 1) = 0 by omega)]
      have mem3 := mem2.frame C (j := 1) (by omega) (BitVec.ofNat 64 (64 * (n - 1)))
      xstep [sp2, e8, wr2, w1]
      exact em_inner C (by omega) ih (j := 0) (by omega) (K _ ⟨r1.trans O.st.rcx, word_zero b, rfl⟩ rfl rfl (r3.trans hdi) mem3 rfl) (if_pos rfl)

theorem em_init {s n m b z μ} (C : EmCtx s n m b) (hz : Holds s.mem s.rsi z) (lz : z.length = 16 * n) (hm : Holds s.mem s.rdx m)
    (h0 : μ (word b 0) = some 0#64) (h2 : μ (word b 2) = some (BitVec.ofNat 64 n))
    (h3 : μ (word b 3) = some (BitVec.ofNat 64 (64 * (n - 1)))) (h4 : ∀ i < 10, 4 ≤ i → ∃ v, μ (word b i) = some v)
    (ho : ∀ a, (∀ i < 10, a ≠ word b i) → μ a = s.mem a) :
    EmMem s n m b ([] ++ z) (BitVec.ofNat 64 0) (BitVec.ofNat 64 (n - 0)) μ := by
  refine ⟨fun i hi => ?_, lz, fun i hi => ?_, h0, h2, h3, h4, fun a _ h => ho a h⟩
  · rw [ho _ fun j hj e => C.zb i (lz ▸ hi) j hj e]
    exact hz i hi
  · rw [ho _ fun j hj e => C.bm j hj i (C.m ▸ hi) e.symm]
    exact hm i hi

theorem em_shr (n : Nat) (h : 16 * n < 2 ^ 58) : BitVec.ofNat 64 (8 * n) >>> 3 = BitVec.ofNat 64 n := by
  apply BitVec.eq_of_toNat_eq
  rw [BitVec.toNat_ushiftRight, toNat_ofNat' (by omega), toNat_ofNat' (by omega), Nat.shiftRight_eq_div_pow]
  omega

theorem em_dec (n : Nat) (h : 0 < n) : BitVec.ofNat 64 n + 0xffffffffffffffff#64 = BitVec.ofNat 64 (n - 1) := by
  obtain ⟨k, rfl⟩ : ∃ k, n = k + 1 := ⟨n - 1, by omega⟩
  rw [BitVec.ofNat_add, BitVec.add_assoc, show 1#64 + 0xffffffffffffffff#64 = 0#64 from by decide, BitVec.add_zero, Nat.add_sub_cancel]

/-- The whole routine. -/
theorem em_ok (s : St) (m z : Words) (n : Nat) (C : EmCtx s n m (s.rsp - 80#64)) (hz : Holds s.mem s.rsi z) (lz : z.length = 16 * n)
    (hm : Holds s.mem s.rdx m) (hdi : s.rdi = BitVec.ofNat 64 (8 * n)) (hw : ((wd m 0).toNat * s.rcx.toNat + 1) % 2 ^ 64 = 0) :
    Runs Asm.bignumEmontredc8n s (EmPost s n m (s.rsp - 80#64) z) := by
  apply runs_of_from
  have hsp : s.rsp = word (s.rsp - 80#64) 10 := stack_top s 10
  have n0 := C.n0
  have n1 := C.n1
  generalize s.rsp - 80#64 = b at *
  have hS := C.ob
  have bw : ∀ i j, i < 10 → j < 10 → (word b i = word b j ↔ i = j) := by
    intro i j hi hj
    refine ⟨fun e => ?_, fun e => e ▸ rfl⟩
    by_contra h
    exact frame_ne hi hj h e
  have e0 : sbbv (word b 2) 16#64 false = word b 0 := by
    have e : sbbv (word b 2) 16#64 false = word b 2 - 16#64 := BitVec.sub_zero _
    rw [e, word_zero, word, show 8#64 * BitVec.ofNat 64 2 = 16#64 from by decide, BitVec.add_sub_cancel]
  have start : ∀ t : St, EmSt s b t → t.rsi = s.rsi → t.rdi = s.rdx →
      EmMem s n m b ([] ++ z) (BitVec.ofNat 64 0) (BitVec.ofNat 64 (n - 0)) t.mem → From Asm.bignumEmontredc8n 17 t (EmPost s n m b z) := by
    intro t S hsi hdi M
    refine em_outer C hw n 0 (by omega) n0 t 0 0 [] z hdi ⟨S, by rw [hsi, Nat.mul_zero, word_zero], M, rfl, by omega, by simp, by simp⟩
  xstep []
  xstep [hsp, word_sub8, hS 9 (by omega)]
  xstep [word_sub8, hS 8 (by omega)]
  xstep [word_sub8, hS 7 (by omega)]
  xstep [word_sub8, hS 6 (by omega)]
  xstep [word_sub8, hS 5 (by omega)]
  xstep [word_sub8, hS 4 (by omega)]
  xstep []
  xstep [hdi, St.shift, St.shiftFlags, BitVec.toNat_ofNat, Nat.reducePow, Nat.reduceMod, OfNat.ofNat_ne_zero, if_false, em_shr n n1]
  xfall [ofNat_beq_zero (i := n) (by omega), decide_eq_false (show ¬ n = 0 by omega)]
  xstep [em_dec n n0]
  xstep [St.shift, St.shiftFlags, BitVec.toNat_ofNat, Nat.reducePow, Nat.reduceMod, OfNat.ofNat_ne_zero, if_false, shl_ofNat]
  xstep [word_sub8, hS 3 (by omega)]
  xstep [word_sub8, hS 2 (by omega)]
  xstep [e0]
  xstep [hS 0 (by omega)]
  xstep []
  refine start _ ⟨rfl, word_zero b, rfl⟩ rfl rfl (em_init C hz lz hm ?_ ?_ ?_ ?_ ?_)
  · simp [bw]
  · simp [bw]
  · simp [bw]
  · intro i hi h4
    obtain rfl | rfl | rfl | rfl | rfl | rfl : i = 4 ∨ i = 5 ∨ i = 6 ∨ i = 7 ∨ i = 8 ∨ i = 9 := by omega
    all_goals simp [bw]
  · intro a h
    simp [h]

end Verif.X86.Sym
