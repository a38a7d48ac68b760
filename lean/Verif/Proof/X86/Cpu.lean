import Verif.Model.AsmX86.Cpu
import Verif.Model.Ct
import Verif.Proof.X86.RejLoop
import Verif.Proof.X86.Bits

/-! The `asm!` blocks of `cpu.rs`: clearing and comparing memory. -/
namespace Verif.X86.Cpu
open Verif Verif.X86 Verif.X86.Rej

theorem get_set_self (s : St) (r : Reg) (v : Word) : (s.set r v).get r = v := by rw [St.get_set', if_pos rfl]
theorem get_set_ne (s : St) {r q : Reg} (v : Word) (h : q ≠ r) : (s.set r v).get q = s.get q := by rw [St.get_set', if_neg h]

theorem get_flags (s : St) (c z g o : Option Bool) (q : Reg) : ({ s with cf := c, zf := z, sf := g, of := o } : St).get q = s.get q := by
  cases q <;> rfl

theorem set_flags (s : St) (r : Reg) (v : Word) : (s.set r v).cf = s.cf ∧ (s.set r v).zf = s.zf ∧ (s.set r v).sf = s.sf ∧ (s.set r v).of = s.of := by
  cases r <;> exact ⟨rfl, rfl, rfl, rfl⟩

theorem addR (s : St) (pc : Nat) (r : Reg) (v : Word) : ∃ s', (Instr.add (.reg r) (.imm v)).exec pc s = some (pc + 1, s') ∧
    s'.get r = s.get r + v ∧ ∀ q, q ≠ r → s'.get q = s.get q := by
  refine ⟨(s.addFlags (s.get r) v false).set r (adcv (s.get r) v false), rfl, ?_, fun q hq => ?_⟩
  · rw [get_set_self]
    exact BitVec.add_zero _
  · rw [get_set_ne _ _ hq]
    exact get_flags s _ _ _ _ q

theorem subR (s : St) (pc : Nat) (r : Reg) (v : Word) : ∃ s', (Instr.sub (.reg r) (.imm v)).exec pc s = some (pc + 1, s') ∧
    s'.get r = s.get r - v ∧ (∀ q, q ≠ r → s'.get q = s.get q) ∧ s'.sf = some (s.get r - v).msb ∧ s'.of = some (subo (s.get r) v (s.get r - v)) := by
  have e : sbbv (s.get r) v false = s.get r - v := BitVec.sub_zero _
  refine ⟨(s.subFlags (s.get r) v false).set r (sbbv (s.get r) v false), rfl, ?_, fun q hq => ?_, ?_, ?_⟩
  · rw [get_set_self, e]
  · rw [get_set_ne _ _ hq]
    exact get_flags s _ _ _ _ q
  · rw [(set_flags _ _ _).2.2.1, ← e]
    rfl
  · rw [(set_flags _ _ _).2.2.2, ← e]
    rfl

theorem cmpR (s : St) (pc : Nat) (r : Reg) (v : Word) : ∃ s', (Instr.cmp (.reg r) (.imm v)).exec pc s = some (pc + 1, s') ∧
    (∀ q, s'.get q = s.get q) ∧ s'.sf = some (s.get r - v).msb ∧ s'.of = some (subo (s.get r) v (s.get r - v)) ∧
    s'.zf = some (s.get r - v == 0#64) := by
  have e : sbbv (s.get r) v false = s.get r - v := BitVec.sub_zero _
  refine ⟨s.subFlags (s.get r) v false, rfl, fun q => get_flags s _ _ _ _ q, ?_, ?_, ?_⟩ <;> rw [← e] <;> rfl

/-- The signed comparison, for numbers below `2^63`. -/
theorem less {n k : Nat} (hn : n < 2 ^ 63) (hk : k < 2 ^ 63) : ((BitVec.ofNat 64 n - BitVec.ofNat 64 k).msb !=
    subo (BitVec.ofNat 64 n) (BitVec.ofNat 64 k) (BitVec.ofNat 64 n - BitVec.ofNat 64 k)) = decide (n < k) := by
  have m : ∀ j, j < 2 ^ 63 → (BitVec.ofNat 64 j).msb = false := fun j hj => by
    rw [BitVec.msb_eq_decide, BitVec.toNat_ofNat, Nat.mod_eq_of_lt (by omega)]
    exact decide_eq_false (by omega)
  unfold subo
  rw [m n hn, m k hk, bne_self_eq_false, Bool.false_and, Bool.bne_false, BitVec.msb_eq_decide, BitVec.toNat_sub, BitVec.toNat_ofNat,
    BitVec.toNat_ofNat, Nat.mod_eq_of_lt (a := n) (by omega), Nat.mod_eq_of_lt (a := k) (by omega)]
  refine decide_eq_decide.2 ?_
  omega

theorem jl_exec {t : BSt} {l pc : Nat} {x y : Bool} (hx : t.s.sf = some x) (hy : t.s.of = some y) :
    (BInstr.jl l).exec pc t = some (if x != y then l else pc + 1, t) := by
  show t.s.sf.bind _ = _
  rw [hx, hy]
  rfl

theorem sc_exec {i : Instr} {pc pc' : Nat} {t : BSt} {s' : St} (h : i.exec pc t.s = some (pc', s')) :
    (BInstr.sc i).exec pc t = some (pc', ⟨s', t.bm, t.bw, t.x⟩) := by
  simp only [BInstr.exec, h, Option.map_some]

theorem from_jl {P : BProg} {pc l : Nat} {t : BSt} {Q : BSt → Prop} (hi : P[pc]? = some (.jl l)) {x y b : Bool} (hx : t.s.sf = some x)
    (hy : t.s.of = some y) (hb : (x != y) = b) (h : BFrom P (if b then l else pc + 1) t Q) : BFrom P pc t Q := by
  subst hb
  exact BFrom.next hi (jl_exec hx hy) h

theorem ea_reg (s : St) (p : Reg) : s.ea ⟨some p, none, 0#64⟩ = s.get p := by
  show s.get p + 0#64 + 0#64 = _
  rw [BitVec.add_zero, BitVec.add_zero]

/-! ### Clearing -/

/-- What is left of clearing `n` bytes at `a`, from state `t`. -/
structure Cleared (z : Nat) (p l : Reg) (a : Word) (n : Nat) (t t' : BSt) : Prop where
  zero : ∀ i < n, t'.bm (badr a i) = some 0#8
  rest : ∀ b, ¬ InB a n b → t'.bm b = t.bm b
  regs : ∀ q, q ≠ p → q ≠ l → t'.s.get q = t.s.get q
  vecs : ∀ r, r ≠ z → t'.x r = t.x r

theorem Cleared.step {z : Nat} {p l : Reg} {a : Word} {n k : Nat} {t t1 t' : BSt} (hn : n + k < 2 ^ 64) (h : Cleared z p l (badr a k) n t1 t')
    (hm : t1.bm = fun b => if (b - a).toNat < k then some 0#8 else t.bm b) (hr : ∀ q, q ≠ p → q ≠ l → t1.s.get q = t.s.get q)
    (hv : ∀ r, r ≠ z → t1.x r = t.x r) : Cleared z p l a (k + n) t t' := by
  refine ⟨fun i hi => ?_, fun b hb => ?_, fun q h1 h2 => (h.regs q h1 h2).trans (hr q h1 h2), fun r h1 => (h.vecs r h1).trans (hv r h1)⟩
  · by_cases hk : i < k
    · rw [h.rest, hm]
      · show (if _ then _ else _) = _
        rw [badr_sub (by omega), if_pos hk]
      · rintro ⟨j, hj, e⟩
        rw [badr_badr] at e
        have := badr_inj (by omega) (by omega) e
        omega
    · have := h.zero (i - k) (by omega)
      rwa [badr_badr, show k + (i - k) = i by omega] at this
  · rw [h.rest, hm]
    · show (if _ then _ else _) = _
      rw [if_neg fun hlt => hb ⟨_, by omega, (badr_of_sub a b).symm⟩]
    · rintro ⟨j, hj, e⟩
      rw [badr_badr] at e
      exact hb ⟨k + j, by omega, e⟩

/-- The loop over single bytes. -/
theorem by1 (z : Nat) {p l : Reg} (hpl : p ≠ l) (n : Nat) : ∀ (t : BSt), n < 2 ^ 63 → t.s.get l = BitVec.ofNat 64 n →
    (∀ i < n, t.bw (badr (t.s.get p) i) = true) → BFrom (Asm.zeroBytes z p l) 7 t (Cleared z p l (t.s.get p) n t) := by
  induction n with
  | zero =>
    intro t hn hl hw
    obtain ⟨s1, e1, -, r1, f1, g1⟩ := subR t.s 7 l 1#64
    refine BFrom.sc (pc' := 8) rfl e1 ?_
    rw [hl] at f1 g1
    refine from_jl (b := true) rfl f1 g1 ?_ ?_
    · rw [less (n := 0) (k := 1) (by decide) (by decide)]
      rfl
    · exact BFrom.halt rfl ⟨fun i hi => absurd hi (Nat.not_lt_zero _), fun _ _ => rfl, fun q _ h2 => r1 q h2, fun _ _ => rfl⟩
  | succ n ih =>
    intro t hn hl hw
    obtain ⟨s1, e1, d1, r1, f1, g1⟩ := subR t.s 7 l 1#64
    refine BFrom.sc (pc' := 8) rfl e1 ?_
    rw [hl] at f1 g1
    have hp1 : s1.get p = t.s.get p := r1 p hpl
    refine from_jl (b := false) rfl f1 g1 ?_ ?_
    · rw [less (k := 1) (by omega) (by decide), decide_eq_false (by omega)]
    refine BFrom.next (pc' := 10) (t' := ⟨s1, fun b => if (b - t.s.get p).toNat < 1 then some 0#8 else t.bm b, t.bw, t.x⟩) rfl ?_ ?_
    · show (BInstr.eff (.stb _ _) _).map _ = _
      simp only [BInstr.eff]
      rw [ea_reg, hp1, store_eq (t := ⟨s1, t.bm, t.bw, t.x⟩) fun i hi => hw i (by omega)]
      rfl
    obtain ⟨s2, e2, d2, r2⟩ := addR s1 10 p 1#64
    refine BFrom.sc (pc' := 11) rfl e2 ?_
    refine BFrom.sc (pc' := 7) rfl rfl ?_
    have hp2 : s2.get p = badr (t.s.get p) 1 := by
      rw [d2, hp1]
      rfl
    have hl2 : s2.get l = BitVec.ofNat 64 n := by
      rw [r2 l hpl.symm, d1, hl, BitVec.ofNat_add, BitVec.add_sub_cancel]
    have := ih ⟨s2, fun b => if (b - t.s.get p).toNat < 1 then some 0#8 else t.bm b, t.bw, t.x⟩ (by omega) hl2
      (fun i hi => by
        show t.bw (badr (s2.get p) i) = true
        rw [hp2, badr_badr]
        exact hw _ (by omega))
    obtain ⟨f, t', e, q⟩ := this
    refine ⟨f, t', e, ?_⟩
    rw [show (BSt.mk s2 _ t.bw t.x).s.get p = badr (t.s.get p) 1 from hp2] at q
    have := q.step (t := t) (by omega) rfl (fun q h1 h2 => (r2 q h1).trans (r1 q h2)) fun _ _ => rfl
    rwa [Nat.add_comm] at this

/-- The loop over blocks of 32 bytes. -/
theorem by32 (z : Nat) {p l : Reg} (hpl : p ≠ l) (m : Nat) : ∀ (n : Nat) (t : BSt), n ≤ m → n < 2 ^ 63 → t.s.get l = BitVec.ofNat 64 n →
    (∀ i < n, t.bw (badr (t.s.get p) i) = true) → (∀ i, t.x z i = 0#8) → BFrom (Asm.zeroBytes z p l) 1 t (Cleared z p l (t.s.get p) n t) := by
  induction m with
  | zero =>
    intro n t hnm hn hl hw hz
    obtain ⟨s1, e1, r1, f1, g1, -⟩ := cmpR t.s 1 l 32#64
    refine BFrom.sc (pc' := 2) rfl e1 ?_
    rw [hl] at f1 g1
    refine from_jl (b := true) rfl f1 g1 ?_ ?_
    · rw [less (k := 32) hn (by decide), decide_eq_true (by omega)]
    have := by1 z hpl n ⟨s1, t.bm, t.bw, t.x⟩ hn ((r1 l).trans hl) fun i hi => by
      show t.bw (badr (s1.get p) i) = true
      rw [r1]
      exact hw i hi
    obtain ⟨f, t', e, q⟩ := this
    refine ⟨f, t', e, ?_⟩
    rw [show (BSt.mk s1 t.bm t.bw t.x).s.get p = t.s.get p from r1 p] at q
    exact ⟨q.zero, q.rest, fun r h1 h2 => (q.regs r h1 h2).trans (r1 r), q.vecs⟩
  | succ m ih =>
    intro n t hnm hn hl hw hz
    obtain ⟨s1, e1, r1, f1, g1, -⟩ := cmpR t.s 1 l 32#64
    refine BFrom.sc (pc' := 2) rfl e1 ?_
    rw [hl] at f1 g1
    by_cases h32 : n < 32
    · refine from_jl (b := true) rfl f1 g1 ?_ ?_
      · rw [less (k := 32) hn (by decide), decide_eq_true h32]
      have := by1 z hpl n ⟨s1, t.bm, t.bw, t.x⟩ hn ((r1 l).trans hl) fun i hi => by
        show t.bw (badr (s1.get p) i) = true
        rw [r1]
        exact hw i hi
      obtain ⟨f, t', e, q⟩ := this
      refine ⟨f, t', e, ?_⟩
      rw [show (BSt.mk s1 t.bm t.bw t.x).s.get p = t.s.get p from r1 p] at q
      exact ⟨q.zero, q.rest, fun r h1 h2 => (q.regs r h1 h2).trans (r1 r), q.vecs⟩
    refine from_jl (b := false) rfl f1 g1 ?_ ?_
    · rw [less (k := 32) hn (by decide), decide_eq_false h32]
    refine BFrom.next (pc' := 4) (t' := ⟨s1, fun b => if (b - t.s.get p).toNat < 32 then some 0#8 else t.bm b, t.bw, t.x⟩) rfl ?_ ?_
    · show (BInstr.eff (.vmovdquStY _ _) _).map _ = _
      simp only [BInstr.eff]
      rw [ea_reg, r1, store_eq (t := ⟨s1, t.bm, t.bw, t.x⟩) fun i hi => hw i (by omega)]
      simp only [hz]
      rfl
    obtain ⟨s2, e2, d2, r2⟩ := addR s1 4 p 32#64
    refine BFrom.sc (pc' := 5) rfl e2 ?_
    obtain ⟨s3, e3, d3, r3, -, -⟩ := subR s2 5 l 32#64
    refine BFrom.sc (pc' := 6) rfl e3 ?_
    refine BFrom.sc (pc' := 1) rfl rfl ?_
    have hp3 : s3.get p = badr (t.s.get p) 32 := by
      rw [r3 p hpl, d2, r1]
      rfl
    have hl3 : s3.get l = BitVec.ofNat 64 (n - 32) := by
      rw [d3, r2 l hpl.symm, r1, hl, BitVec.sub_eq_iff_eq_add, ← BitVec.ofNat_add]
      refine congrArg _ ?_
      omega
    have := ih (n - 32) ⟨s3, fun b => if (b - t.s.get p).toNat < 32 then some 0#8 else t.bm b, t.bw, t.x⟩ (by omega) (by omega) hl3
      (fun i hi => by
        show t.bw (badr (s3.get p) i) = true
        rw [hp3, badr_badr]
        exact hw _ (by omega)) hz
    obtain ⟨f, t', e, q⟩ := this
    refine ⟨f, t', e, ?_⟩
    rw [show (BSt.mk s3 _ t.bw t.x).s.get p = badr (t.s.get p) 32 from hp3] at q
    have := q.step (t := t) (by omega) rfl (fun q h1 h2 => ((r3 q h2).trans (r2 q h1)).trans (r1 q)) fun _ _ => rfl
    rwa [show 32 + (n - 32) = n by omega] at this

theorem zero_ok (z : Nat) {p l : Reg} (hpl : p ≠ l) (n : Nat) (t : BSt) (hn : n < 2 ^ 63) (hl : t.s.get l = BitVec.ofNat 64 n)
    (hw : ∀ i < n, t.bw (badr (t.s.get p) i) = true) : BRuns (Asm.zeroBytes z p l) t (Cleared z p l (t.s.get p) n t) := by
  refine BFrom.next (pc' := 1) (t' := t.setx z fun i => t.x z i ^^^ t.x z i) rfl rfl ?_
  obtain ⟨f, t', e, q⟩ := by32 z hpl n n (t.setx z fun i => t.x z i ^^^ t.x z i) le_rfl hn hl hw fun i => by
    show (if z = z then _ else _ : Xmm) i = _
    rw [if_pos rfl, BitVec.xor_self]
  exact ⟨f, t', e, q.zero, q.rest, q.regs, fun r hr => (q.vecs r hr).trans (if_neg hr)⟩

/-! ### Comparing -/

theorem getb_set_self (s : St) (r : Reg) (v : Byte) : (s.setb r v).getb r = v := by
  unfold St.getb St.setb
  rw [get_set_self]
  apply BitVec.eq_of_toNat_eq
  rw [BitVec.toNat_setWidth, BitVec.toNat_append, ← Nat.shiftLeft_add_eq_or_of_lt v.isLt, Nat.shiftLeft_eq]
  have := v.isLt
  omega

theorem getb_ne (s : St) {r q : Reg} (v : Byte) (h : q ≠ r) : (s.setb r v).get q = s.get q := get_set_ne _ _ h

theorem getb_of {s s' : St} {r : Reg} (h : s'.get r = s.get r) : s'.getb r = s.getb r := by
  unfold St.getb
  rw [h]

/-- The registers that the compiler chooses are all different. -/
structure Distinct (a b l c o : Reg) : Prop where
  ab : a ≠ b
  al : a ≠ l
  ac : a ≠ c
  ao : a ≠ o
  bl : b ≠ l
  bc : b ≠ c
  bo : b ≠ o
  lc : l ≠ c
  lo : l ≠ o
  co : c ≠ o

theorem compare_from {a b l c o : Reg} (d : Distinct a b l c o) (A : Bytes) : ∀ (B : Bytes) (t : BSt), A.length = B.length → A.length < 2 ^ 64 →
    t.s.get l = BitVec.ofNat 64 A.length → HoldsB t.bm (t.s.get a) A → HoldsB t.bm (t.s.get b) B →
    BFrom (Asm.ctCompareBytes a b l c o) 0 t fun t' => t'.s.getb o = Ct.compareLoop A.length A B (t.s.getb o) ∧ t'.bm = t.bm ∧ t'.x = t.x ∧
      ∀ q, q ≠ a → q ≠ b → q ≠ l → q ≠ c → q ≠ o → t'.s.get q = t.s.get q := by
  induction A with
  | nil =>
    intro B t hAB hn hl hA hB
    obtain ⟨s1, e1, r1, -, -, z1⟩ := cmpR t.s 0 l 0#64
    refine BFrom.sc (pc' := 1) rfl e1 ?_
    refine BFrom.sc (pc' := 9) rfl ((jcc_exec (b := true) ?_).trans rfl) ?_
    · show s1.zf = _
      rw [z1, hl]
      rfl
    · exact BFrom.halt rfl ⟨getb_of (r1 o), rfl, rfl, fun q _ _ _ _ _ => r1 q⟩
  | cons x A ih =>
    intro B t hAB hn hl hA hB
    match B, hAB with
    | y :: B, hAB =>
    rw [List.length_cons] at hn hl
    obtain ⟨s1, e1, r1, -, -, z1⟩ := cmpR t.s 0 l 0#64
    refine BFrom.sc (pc' := 1) rfl e1 ?_
    refine BFrom.sc (pc' := 2) rfl ((jcc_exec (b := false) ?_).trans rfl) ?_
    · show s1.zf = _
      rw [z1, hl, BitVec.sub_zero]
      refine congrArg some (beq_eq_false_iff_ne.2 fun h => ?_)
      have := congrArg BitVec.toNat h
      rw [BitVec.toNat_ofNat, Nat.mod_eq_of_lt hn] at this
      exact absurd this (Nat.succ_ne_zero _)
    have hx : t.bm (t.s.get a) = some x := by
      have := hA 0 (Nat.succ_pos _)
      rwa [badr, BitVec.add_zero] at this
    have hy : t.bm (t.s.get b) = some y := by
      have := hB 0 (Nat.succ_pos _)
      rwa [badr, BitVec.add_zero] at this
    refine BFrom.next (pc' := 3) (t' := ⟨s1.setb c x, t.bm, t.bw, t.x⟩) rfl ?_ ?_
    · show (BInstr.eff (.ldb _ _) _).map _ = _
      simp only [BInstr.eff]
      rw [ea_reg, r1, hx]
      rfl
    obtain ⟨s2, hs2⟩ : ∃ s2, s2 = ((s1.setb c x).logicFlagsb ((s1.setb c x).getb c ^^^ y)).setb c ((s1.setb c x).getb c ^^^ y) := ⟨_, rfl⟩
    have g2 : s2.getb c = x ^^^ y := by
      rw [hs2, getb_set_self, getb_set_self]
    have r2 : ∀ q, q ≠ c → s2.get q = t.s.get q := fun q hq => by
      rw [hs2, getb_ne _ _ hq, St.logicFlagsb, get_flags, getb_ne _ _ hq, r1]
    refine BFrom.next (pc' := 4) (t' := ⟨s2, t.bm, t.bw, t.x⟩) rfl ?_ ?_
    · show (BInstr.eff (.xorb _ _) _).map _ = _
      simp only [BInstr.eff]
      rw [ea_reg, getb_ne _ _ d.bc, r1, hy, hs2]
      rfl
    obtain ⟨s3, hs3⟩ : ∃ s3, s3 = (s2.logicFlagsb (s2.getb o ||| s2.getb c)).setb o (s2.getb o ||| s2.getb c) := ⟨_, rfl⟩
    have g3 : s3.getb o = t.s.getb o ||| (x ^^^ y) := by
      rw [hs3, getb_set_self, g2, getb_of (r2 o d.co.symm)]
    have r3 : ∀ q, q ≠ c → q ≠ o → s3.get q = t.s.get q := fun q h1 h2 => by
      rw [hs3, getb_ne _ _ h2, St.logicFlagsb, get_flags, r2 q h1]
    refine BFrom.next (pc' := 5) (t' := ⟨s3, t.bm, t.bw, t.x⟩) rfl (by rw [hs3]; rfl) ?_
    obtain ⟨s4, e4, d4, r4⟩ := addR s3 5 a 1#64
    refine BFrom.sc (pc' := 6) rfl e4 ?_
    obtain ⟨s5, e5, d5, r5⟩ := addR s4 6 b 1#64
    refine BFrom.sc (pc' := 7) rfl e5 ?_
    obtain ⟨s6, e6, d6, r6, -, -⟩ := subR s5 7 l 1#64
    refine BFrom.sc (pc' := 8) rfl e6 ?_
    refine BFrom.sc (pc' := 0) rfl rfl ?_
    have ha : s6.get a = badr (t.s.get a) 1 := by
      rw [r6 a d.al, r5 a d.ab, d4, r3 a d.ac d.ao]
      rfl
    have hb : s6.get b = badr (t.s.get b) 1 := by
      rw [r6 b d.bl, d5, r4 b d.ab.symm, r3 b d.bc d.bo]
      rfl
    have hl6 : s6.get l = BitVec.ofNat 64 A.length := by
      rw [d6, r5 l d.bl.symm, r4 l d.al.symm, r3 l d.lc d.lo, hl, BitVec.ofNat_add, BitVec.add_sub_cancel]
    have ho : s6.getb o = t.s.getb o ||| (x ^^^ y) := by
      rw [getb_of (r6 o d.lo.symm), getb_of (r5 o d.bo.symm), getb_of (r4 o d.ao.symm), g3]
    obtain ⟨f, t', e, q1, q2, q3, q4⟩ := ih B ⟨s6, t.bm, t.bw, t.x⟩ (Nat.succ.inj hAB) (by omega) hl6
      (fun i hi => by
        show t.bm (badr (s6.get a) i) = _
        rw [ha, badr_badr, Nat.add_comm]
        exact hA (i + 1) (Nat.succ_lt_succ hi))
      (fun i hi => by
        show t.bm (badr (s6.get b) i) = _
        rw [hb, badr_badr, Nat.add_comm]
        exact hB (i + 1) (Nat.succ_lt_succ hi))
    refine ⟨f, t', e, ?_, q2, q3, fun q h1 h2 h3 h4 h5 => ?_⟩
    · rw [q1]
      show Ct.compareLoop _ _ _ (s6.getb o) = _
      rw [ho]
      rfl
    · rw [q4 q h1 h2 h3 h4 h5]
      show s6.get q = _
      rw [r6 q h3, r5 q h2, r4 q h1, r3 q h4 h5]

/-! ### What is observed of a comparison -/

/-- Two states that differ at most in secrets, at position `pc`. -/
structure Alike (a b l : Reg) (pc : Nat) (t t' : BSt) : Prop where
  a : t.s.get a = t'.s.get a
  b : t.s.get b = t'.s.get b
  l : t.s.get l = t'.s.get l
  mem : ∀ w, (t.bm w).isSome = (t'.bm w).isSome
  zf : pc = 1 → t.s.zf = t'.s.zf

theorem alike_next {a b l : Reg} {pc pc' : Nat} {t t' : BSt} {s s' : St} (h : Alike a b l pc t t') (hpc : pc' ≠ 1)
    (ha : s.get a = s'.get a) (hb : s.get b = s'.get b) (hl : s.get l = s'.get l) :
    Alike a b l pc' ⟨s, t.bm, t.bw, t.x⟩ ⟨s', t'.bm, t'.bw, t'.x⟩ := ⟨ha, hb, hl, h.mem, fun e => absurd e hpc⟩

theorem trace_alike {a b l c o : Reg} (d : Distinct a b l c o) (f : Nat) : ∀ (pc : Nat) (t t' : BSt), Alike a b l pc t t' →
    btrace (Asm.ctCompareBytes a b l c o) f pc t = btrace (Asm.ctCompareBytes a b l c o) f pc t' := by
  induction f with
  | zero => exact fun _ _ _ _ => rfl
  | succ f ih =>
    intro pc t t' h
    have step : ∀ (i : BInstr) (pc' : Nat) (u u' : BSt), (Asm.ctCompareBytes a b l c o)[pc]? = some i → i.addrs t = i.addrs t' →
        i.exec pc t = some (pc', u) → i.exec pc t' = some (pc', u') → Alike a b l pc' u u' →
        btrace (Asm.ctCompareBytes a b l c o) (f + 1) pc t = btrace (Asm.ctCompareBytes a b l c o) (f + 1) pc t' := by
      intro i pc' u u' hi ha e e' hu
      simp only [btrace, hi, e, e', ha]
      rw [ih pc' u u' hu]
    have stop : ∀ (i : BInstr), (Asm.ctCompareBytes a b l c o)[pc]? = some i → i.addrs t = i.addrs t' → i.exec pc t = none → i.exec pc t' = none →
        btrace (Asm.ctCompareBytes a b l c o) (f + 1) pc t = btrace (Asm.ctCompareBytes a b l c o) (f + 1) pc t' := by
      intro i hi ha e e'
      simp only [btrace, hi, e, e', ha]
    match pc with
    | 0 =>
      obtain ⟨s1, e1, r1, -, -, z1⟩ := cmpR t.s 0 l 0#64
      obtain ⟨s2, e2, r2, -, -, z2⟩ := cmpR t'.s 0 l 0#64
      refine step _ 1 _ _ rfl rfl (sc_exec e1) (sc_exec e2) ⟨?_, ?_, ?_, h.mem, fun _ => ?_⟩
      · exact (r1 a).trans (h.a.trans (r2 a).symm)
      · exact (r1 b).trans (h.b.trans (r2 b).symm)
      · exact (r1 l).trans (h.l.trans (r2 l).symm)
      · show s1.zf = s2.zf
        rw [z1, z2, h.l]
    | 1 =>
      have hz := h.zf rfl
      cases e : t.s.zf with
      | none =>
        rw [e] at hz
        have n1 : ∀ u : BSt, u.s.zf = none → btrace (Asm.ctCompareBytes a b l c o) (f + 1) 1 u = [(1, [])] := fun u hu => by
          have : (BInstr.sc (.jcc .zr 9)).exec 1 u = none := by
            show ((u.s.zf).map _).map _ = none
            rw [hu]
            rfl
          simp only [btrace]
          show (1, []) :: (match (BInstr.sc (.jcc .zr 9)).exec 1 u with | none => [] | some (pc', t') => _) = _
          rw [this]
        rw [n1 t e, n1 t' hz.symm]
      | some v =>
        rw [e] at hz
        refine step (.sc (.jcc .zr 9)) (if v then 9 else 2) t t' rfl rfl (sc_exec (jcc_exec (c := .zr) (b := v) e))
          (sc_exec (jcc_exec (c := .zr) (b := v) hz.symm)) ⟨h.a, h.b, h.l, h.mem, ?_⟩
        · cases v <;> exact fun e => absurd e (by decide)
    | 2 =>
      have hm := h.mem (t.s.get a)
      have ha : (BInstr.ldb c ⟨some a, none, 0#64⟩).addrs t = (BInstr.ldb c ⟨some a, none, 0#64⟩).addrs t' := by
        show [(t.s.ea _, 1)] = [(t'.s.ea _, 1)]
        rw [ea_reg, ea_reg, h.a]
      have ex : ∀ (u : BSt) (v : Option Byte), u.bm (u.s.get a) = v → (BInstr.ldb c ⟨some a, none, 0#64⟩).exec 2 u =
          v.map fun v => (3, ⟨u.s.setb c v, u.bm, u.bw, u.x⟩) := fun u v hv => by
        show (BInstr.eff (.ldb _ _) _).map _ = _
        simp only [BInstr.eff]
        rw [ea_reg, hv]
        cases v <;> rfl
      cases e : t.bm (t.s.get a) with
      | none =>
        rw [e, h.a] at hm
        have e' : t'.bm (t'.s.get a) = none := Option.not_isSome_iff_eq_none.1 fun h => by rw [← hm] at h; exact absurd h (by decide)
        exact stop _ rfl ha (ex t _ e) (ex t' _ e')
      | some v =>
        rw [e, h.a] at hm
        obtain ⟨v', e'⟩ := Option.isSome_iff_exists.1 hm.symm
        exact step _ 3 _ _ rfl ha (ex t _ e) (ex t' _ e') (alike_next h (by decide) (by rw [getb_ne _ _ d.ac, getb_ne _ _ d.ac, h.a])
          (by rw [getb_ne _ _ d.bc, getb_ne _ _ d.bc, h.b]) (by rw [getb_ne _ _ d.lc, getb_ne _ _ d.lc, h.l]))
    | 3 =>
      have hm := h.mem (t.s.get b)
      have ha : (BInstr.xorb c ⟨some b, none, 0#64⟩).addrs t = (BInstr.xorb c ⟨some b, none, 0#64⟩).addrs t' := by
        show [(t.s.ea _, 1)] = [(t'.s.ea _, 1)]
        rw [ea_reg, ea_reg, h.b]
      have ex : ∀ (u : BSt) (v : Option Byte), u.bm (u.s.get b) = v → (BInstr.xorb c ⟨some b, none, 0#64⟩).exec 3 u =
          v.map fun v => (4, ⟨(u.s.logicFlagsb (u.s.getb c ^^^ v)).setb c (u.s.getb c ^^^ v), u.bm, u.bw, u.x⟩) := fun u v hv => by
        show (BInstr.eff (.xorb _ _) _).map _ = _
        simp only [BInstr.eff]
        rw [ea_reg, hv]
        cases v <;> rfl
      have g : ∀ (s : St) (w : Byte) (q : Reg), q ≠ c → ((s.logicFlagsb w).setb c w).get q = s.get q := fun s w q hq => by
        rw [getb_ne _ _ hq]
        exact get_flags s _ _ _ _ q
      cases e : t.bm (t.s.get b) with
      | none =>
        rw [e, h.b] at hm
        have e' : t'.bm (t'.s.get b) = none := Option.not_isSome_iff_eq_none.1 fun h => by rw [← hm] at h; exact absurd h (by decide)
        exact stop _ rfl ha (ex t _ e) (ex t' _ e')
      | some v =>
        rw [e, h.b] at hm
        obtain ⟨v', e'⟩ := Option.isSome_iff_exists.1 hm.symm
        exact step _ 4 _ _ rfl ha (ex t _ e) (ex t' _ e') (alike_next h (by decide) (by rw [g _ _ _ d.ac, g _ _ _ d.ac, h.a])
          (by rw [g _ _ _ d.bc, g _ _ _ d.bc, h.b]) (by rw [g _ _ _ d.lc, g _ _ _ d.lc, h.l]))
    | 4 =>
      have g : ∀ (s : St) (w : Byte) (q : Reg), q ≠ o → ((s.logicFlagsb w).setb o w).get q = s.get q := fun s w q hq => by
        rw [getb_ne _ _ hq]
        exact get_flags s _ _ _ _ q
      exact step (.orb o c) 5 ⟨_, t.bm, t.bw, t.x⟩ ⟨_, t'.bm, t'.bw, t'.x⟩ rfl rfl rfl rfl (alike_next h (by decide)
        (by rw [g _ _ _ d.ao, g _ _ _ d.ao, h.a]) (by rw [g _ _ _ d.bo, g _ _ _ d.bo, h.b]) (by rw [g _ _ _ d.lo, g _ _ _ d.lo, h.l]))
    | 5 =>
      obtain ⟨s1, e1, d1, r1⟩ := addR t.s 5 a 1#64
      obtain ⟨s2, e2, d2, r2⟩ := addR t'.s 5 a 1#64
      exact step _ 6 _ _ rfl rfl (sc_exec e1) (sc_exec e2) (alike_next h (by decide) (by rw [d1, d2, h.a])
        (by rw [r1 b d.ab.symm, r2 b d.ab.symm, h.b]) (by rw [r1 l d.al.symm, r2 l d.al.symm, h.l]))
    | 6 =>
      obtain ⟨s1, e1, d1, r1⟩ := addR t.s 6 b 1#64
      obtain ⟨s2, e2, d2, r2⟩ := addR t'.s 6 b 1#64
      exact step _ 7 _ _ rfl rfl (sc_exec e1) (sc_exec e2) (alike_next h (by decide) (by rw [r1 a d.ab, r2 a d.ab, h.a])
        (by rw [d1, d2, h.b]) (by rw [r1 l d.bl.symm, r2 l d.bl.symm, h.l]))
    | 7 =>
      obtain ⟨s1, e1, d1, r1, -, -⟩ := subR t.s 7 l 1#64
      obtain ⟨s2, e2, d2, r2, -, -⟩ := subR t'.s 7 l 1#64
      exact step _ 8 _ _ rfl rfl (sc_exec e1) (sc_exec e2) (alike_next h (by decide) (by rw [r1 a d.al, r2 a d.al, h.a])
        (by rw [r1 b d.bl, r2 b d.bl, h.b]) (by rw [d1, d2, h.l]))
    | 8 => exact step (.sc (.jmp 0)) 0 t t' rfl rfl rfl rfl ⟨h.a, h.b, h.l, h.mem, fun e => absurd e (by decide)⟩
    | n + 9 => rfl

end Verif.X86.Cpu
