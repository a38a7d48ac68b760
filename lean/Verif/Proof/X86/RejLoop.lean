import Verif.Proof.X86.RejRun

/-! `mlkem_rej_uniform_vartime`: the loop and the end. -/
namespace Verif.X86.Rej
open Verif Verif.X86 Verif.MlKem.X86 Verif.Spec.MlKem

/-- What is given. -/
structure Pre (t : BSt) (B : Bytes) : Prop where
  len : 12 ∣ B.length ∧ B.length < 2 ^ 63
  rdx : t.s.rdx = BitVec.ofNat 64 B.length
  buf : HoldsB t.bm t.s.rsi B
  tab : HoldsB t.bm t.s.rcx rejTable
  out : ∀ i < 512, t.bw (badr t.s.rdi i) = true
  stk : ∀ i < 528, t.bw (badr (t.s.rsp - 528#64) i) = true
  a1 : ApartB (t.s.rsp - 528#64) 528 t.s.rsi B.length
  a2 : ApartB (t.s.rsp - 528#64) 528 t.s.rcx 4096
  a3 : ApartB (t.s.rsp - 528#64) 528 t.s.rdi 512

/-- What is left. -/
def Post (t : BSt) (B : Bytes) (t' : BSt) : Prop :=
  t'.s.rax = BitVec.ofNat 64 ((accepted B).take 256).length ∧ HoldsB t'.bm t.s.rdi (bytes16 ((accepted B).take 256)) ∧
    (∀ a, ¬ InB t.s.rdi (2 * ((accepted B).take 256).length) a → ¬ InB (t.s.rsp - 528#64) 528 a → t'.bm a = t.bm a) ∧
    ∀ r, r ∉ Asm.mlkemRejUniformVartimeRegs → t'.s.get r = t.s.get r

/-- The registers that the loop does not touch. -/
def Calm (t : BSt) (s : St) : Prop :=
  s.rdi = t.s.rdi ∧ s.rsi = t.s.rsi ∧ s.rdx = t.s.rdx ∧ s.rcx = t.s.rcx ∧ s.rsp = t.s.rsp - 528#64 ∧ s.rbx = t.s.rbx ∧ s.rbp = t.s.rbp ∧
    s.r12 = t.s.r12 ∧ s.r13 = t.s.r13 ∧ s.r14 = t.s.r14 ∧ s.r15 = t.s.r15

theorem Calm.same {t : BSt} {s s' : St} (h : Calm t s) (h1 : s'.rdi = s.rdi) (h2 : s'.rsi = s.rsi) (h3 : s'.rdx = s.rdx) (h4 : s'.rcx = s.rcx)
    (h5 : s'.rsp = s.rsp) (h6 : s'.rbx = s.rbx) (h7 : s'.rbp = s.rbp) (h8 : s'.r12 = s.r12) (h9 : s'.r13 = s.r13) (h10 : s'.r14 = s.r14)
    (h11 : s'.r15 = s.r15) : Calm t s' := by
  unfold Calm
  rwa [h1, h2, h3, h4, h5, h6, h7, h8, h9, h10, h11]

theorem jcc_exec {c : Cond} {l pc : Nat} {s : St} {b : Bool} (h : s.cond c = some b) :
    (Instr.jcc c l).exec pc s = some (if b then l else pc + 1, s) := by
  show (s.cond c).map _ = _
  rw [h]
  rfl

theorem shl_ex (s : St) : ∃ f1 f2 f3 f4, (Instr.shl (.reg .rcx) (.imm 1#64)).exec 46 s =
    some (47, { s with rcx := s.rcx <<< 1, cf := f1, zf := f2, sf := f3, of := f4 }) := by
  refine ⟨some (s.rcx.getLsbD 63), some (s.rcx <<< 1 == 0#64), some (s.rcx <<< 1).msb, none, ?_⟩
  have e : ((1#64).toNat % 64 = 0) = False := by decide
  simp only [Instr.exec, Instr.eff, St.shift, St.val, St.put, St.get, St.set, St.shiftFlags, St.zs, Option.map_some, Option.bind_eq_bind, Option.bind_some, e, if_false]
  rfl

theorem add_ex (s : St) (n : Word) : ∃ f1 f2 f3 f4, (Instr.add (.reg .rsp) (.imm n)).exec 48 s =
    some (49, { s with rsp := s.rsp + n, cf := f1, zf := f2, sf := f3, of := f4 }) := by
  refine ⟨some (adcc s.rsp n false), some (s.rsp + n == 0#64), some (s.rsp + n).msb, some (addo s.rsp n (s.rsp + n)), ?_⟩
  simp only [Instr.exec, Instr.eff, St.val, St.put, St.get, St.set, St.addFlags, St.zs, Option.map_some, Option.bind_eq_bind, Option.bind_some]
  rw [show adcv s.rsp n false = s.rsp + n from BitVec.add_zero _]

/-- Instructions 41 to 48. -/
theorem tail_ok {t : BSt} {B : Bytes} (p : Pre t B) {s : St} {bm : Word → Option Byte} {x : Nat → Xmm} {a : List Nat}
    (hc : Calm t s) (hr : s.rax = BitVec.ofNat 64 a.length) (hl : a.length ≤ 264) (hm : HoldsB bm s.rsp (bytes16 a))
    (ho : ∀ b, ¬ InB (t.s.rsp - 528#64) 528 b → bm b = t.bm b) (ha : (accepted B).take 256 = a.take 256) :
    BFrom PR 41 ⟨s, bm, t.bw, x⟩ (Post t B) := by
  obtain ⟨c1, c2, c3, c4, c5, c6, c7, c8, c9, c10, c11⟩ := hc
  have hn : (a.take 256).length = min 256 a.length := List.length_take
  refine BFrom.sc rfl rfl ?_
  refine BFrom.sc rfl rfl ?_
  refine BFrom.sc (pc' := 44) (s' := { s with
    rcx := 256#64, rax := BitVec.ofNat 64 (a.take 256).length, cf := some (sbbc s.rax 256#64 false), zf := some (sbbv s.rax 256#64 false == 0#64),
    sf := some (sbbv s.rax 256#64 false).msb, of := some (subo s.rax 256#64 (sbbv s.rax 256#64 false)) }) rfl ?_ ?_
  · have e : (if !(sbbc s.rax 256#64 false || (sbbv s.rax 256#64 false == 0#64)) then 256#64 else s.rax) = BitVec.ofNat 64 (a.take 256).length := by
      rw [hr]
      have t1 : sbbc (BitVec.ofNat 64 a.length) 256#64 false = decide (a.length < 256) := by
        unfold sbbc
        rw [BitVec.toNat_ofNat, Nat.mod_eq_of_lt (by omega)]
        rfl
      have t2 : (sbbv (BitVec.ofNat 64 a.length) 256#64 false == 0#64) = decide (a.length = 256) := by
        rw [Bool.eq_iff_iff, beq_iff_eq, decide_eq_true_iff]
        unfold sbbv
        constructor
        · intro h
          have := congrArg BitVec.toNat h
          simp only [BitVec.toNat_sub, BitVec.toNat_ofNat, Bool.toNat_false] at this
          omega
        · intro h
          rw [h]
          rfl
      rw [t1, t2, hn]
      by_cases h1 : a.length < 256
      · rw [decide_eq_true h1, Bool.true_or, Bool.not_true, if_neg (by decide), show min 256 a.length = a.length by omega]
      · rw [decide_eq_false h1, Bool.false_or]
        by_cases h2 : a.length = 256
        · rw [decide_eq_true h2, Bool.not_true, if_neg (by decide), h2]
          rfl
        · rw [decide_eq_false h2, Bool.not_false, if_pos rfl, show min 256 a.length = 256 by omega]
    simp only [Instr.exec, Instr.eff, St.val, St.get, St.set, St.cond, St.subFlags, St.zs, Option.bind_eq_bind, Option.bind_some, Option.map_some]
    rw [e]
  refine BFrom.sc (pc' := 45) rfl rfl ?_
  refine BFrom.sc (pc' := 46) rfl rfl ?_
  obtain ⟨l, hla⟩ : ∃ l, l = a.take 256 := ⟨_, rfl⟩
  rw [← hla] at hn ha ⊢
  have hl2 : l.length ≤ 256 := by omega
  obtain ⟨f1, f2, f3, f4, e46⟩ := shl_ex { s with
      rsi := s.rsp, rcx := BitVec.ofNat 64 l.length, rax := BitVec.ofNat 64 l.length, cf := some (sbbc s.rax 256#64 false), zf := some (sbbv s.rax 256#64 false == 0#64),
      sf := some (sbbv s.rax 256#64 false).msb, of := some (subo s.rax 256#64 (sbbv s.rax 256#64 false)) }
  refine BFrom.sc (pc' := 47) rfl e46 ?_
  have hcx : (BitVec.ofNat 64 l.length <<< 1).toNat = 2 * l.length := by
    rw [BitVec.toNat_shiftLeft, BitVec.toNat_ofNat, Nat.mod_eq_of_lt (by omega), Nat.shiftLeft_eq]
    omega
  have hm' : HoldsB bm s.rsp (bytes16 l) := by
    rw [holds16_iff] at hm ⊢
    intro i hi
    rw [hm i (by omega)]
    refine congrArg some ?_
    unfold lb
    refine congrArg (fun v => BitVec.ofNat 8 (v / _)) ?_
    show a.getD _ 0 = l.getD _ 0
    rw [hla, List.getD_eq_getElem?_getD, List.getD_eq_getElem?_getD, List.getElem?_take_of_lt (by omega)]
  rw [holds16_iff] at hm'
  have hcopy := bcopy_eq (bw := t.bw) (2 * l.length) (by omega) s.rsp s.rdi bm (fun i => lb (fun j => l.getD j 0) i) hm'
    (fun i hi => by rw [c1]; exact p.out i (by omega)) (fun i hi j hj => by rw [c5, c1]; exact p.a3 i (by omega) j (by omega))
  refine BFrom.next (pc' := 48) rfl (t' := ⟨{ s with
      rdi := s.rdi + BitVec.ofNat 64 l.length <<< 1, rsi := s.rsp + BitVec.ofNat 64 l.length <<< 1, rcx := 0#64, rax := BitVec.ofNat 64 l.length, cf := f1, zf := f2, sf := f3, of := f4 },
      fun b => if (b - s.rdi).toNat < 2 * l.length then some (lb (fun j => l.getD j 0) (b - s.rdi).toNat) else bm b, t.bw, x⟩) ?_ ?_
  · show (BInstr.eff .repMovsb _).map _ = _
    simp only [BInstr.eff]
    rw [hcx, hcopy]
    rfl
  obtain ⟨g1, g2, g3, g4, e48⟩ := add_ex { s with
      rdi := s.rdi + BitVec.ofNat 64 l.length <<< 1, rsi := s.rsp + BitVec.ofNat 64 l.length <<< 1, rcx := 0#64, rax := BitVec.ofNat 64 l.length, cf := f1, zf := f2, sf := f3, of := f4 } 528#64
  refine BFrom.sc (pc' := 49) rfl e48 ?_
  refine BFrom.halt rfl ⟨?_, ?_, ?_, ?_⟩
  · rw [ha]
  · rw [ha, holds16_iff]
    intro i hi
    show (if (badr t.s.rdi i - s.rdi).toNat < _ then _ else _) = _
    rw [c1, badr_sub (by omega), if_pos hi]
  · intro b h1 h2
    rw [ha] at h1
    rw [inB_iff (by omega)] at h1
    show (if (b - s.rdi).toNat < _ then _ else _) = _
    rw [c1, if_neg h1, ho b h2]
  · intro r hr
    match r, hr with
    | .rbx, _ => exact c6
    | .rbp, _ => exact c7
    | .rsp, _ => exact (congrArg (· + 528#64) c5).trans (BitVec.sub_add_cancel _ _)
    | .r12, _ => exact c8
    | .r13, _ => exact c9
    | .r14, _ => exact c10
    | .r15, _ => exact c11
    | .rax, h | .rcx, h | .rdx, h | .rsi, h | .rdi, h | .r8, h | .r9, h | .r10, h | .r11, h => exact absurd h (by decide)

/-- The state at the head of the loop. -/
structure Head (t : BSt) (B : Bytes) (k : Nat) (s : St) (bm : Word → Option Byte) (x : Nat → Xmm) : Prop where
  lt : 12 * k < B.length
  consts : Consts x
  r9 : s.r9 = 0x5555#64
  r8 : s.r8 = BitVec.ofNat 64 (12 * k)
  calm : Calm t s
  rax : s.rax = BitVec.ofNat 64 (accepted (B.take (12 * k))).length
  few : (accepted (B.take (12 * k))).length < 256
  holds : HoldsB bm s.rsp (bytes16 (accepted (B.take (12 * k))))
  rest : ∀ b, ¬ InB (t.s.rsp - 528#64) 528 b → bm b = t.bm b

theorem sub12 (s : St) : ∃ f1 f2 f3 f4, (Instr.add (.reg .r8) (.imm 12#64)).exec 38 s =
    some (39, { s with r8 := s.r8 + 12#64, cf := f1, zf := f2, sf := f3, of := f4 }) := by
  refine ⟨some (adcc s.r8 12#64 false), some (s.r8 + 12#64 == 0#64), some (s.r8 + 12#64).msb, some (addo s.r8 12#64 (s.r8 + 12#64)), ?_⟩
  simp only [Instr.exec, Instr.eff, St.val, St.put, St.get, St.set, St.addFlags, St.zs, Option.map_some, Option.bind_eq_bind, Option.bind_some]
  rw [show adcv s.r8 12#64 false = s.r8 + 12#64 from BitVec.add_zero _]

theorem sbbc_ofNat {a b : Nat} (ha : a < 2 ^ 64) (hb : b < 2 ^ 64) : sbbc (BitVec.ofNat 64 a) (BitVec.ofNat 64 b) false = decide (a < b) := by
  unfold sbbc
  rw [BitVec.toNat_ofNat, BitVec.toNat_ofNat, Nat.mod_eq_of_lt ha, Nat.mod_eq_of_lt hb]
  rfl

theorem sbbv_ofNat {a b : Nat} (ha : a < 2 ^ 64) (hb : b < 2 ^ 64) :
    (sbbv (BitVec.ofNat 64 a) (BitVec.ofNat 64 b) false == 0#64) = decide (a = b) := by
  rw [Bool.eq_iff_iff, beq_iff_eq, decide_eq_true_iff]
  unfold sbbv
  constructor
  · intro h
    have := congrArg BitVec.toNat h
    simp only [BitVec.toNat_sub, BitVec.toNat_ofNat, Bool.toNat_false] at this
    omega
  · intro h
    rw [h, BitVec.sub_self]
    rfl

/-- Once round the loop, or out of it. -/
theorem loop_ok {t : BSt} {B : Bytes} (p : Pre t B) (n : Nat) : ∀ (k : Nat) (s : St) (bm : Word → Option Byte) (x : Nat → Xmm), B.length ≤ 12 * (k + n) →
    Head t B k s bm x → BFrom PR 18 ⟨s, bm, t.bw, x⟩ (Post t B) := by
  induction n with
  | zero => exact fun k s bm x hn h => absurd h.lt (by omega)
  | succ n ih =>
    intro k s bm x hn h
    have hlen := p.len
    have hk : 12 * (k + 1) ≤ B.length := by
      obtain ⟨⟨w, hw⟩, -⟩ := hlen
      have := h.lt
      omega
    obtain ⟨c1, c2, c3, c4, c5, c6, c7, c8, c9, c10, c11⟩ := h.calm
    have hfew := h.few
    have hax2 : s.rsp + 2#64 * s.rax = badr s.rsp (2 * (accepted (B.take (12 * k))).length) := by
      rw [h.rax]
      unfold badr
      rw [BitVec.ofNat_mul]
    refine body1 h.consts (C := fun i => B.getD (12 * k + i) 0#8) (fun i hi => ?_) fun x1 K1 e2 e1 => ?_
    · have e : badr (s.rsi + s.r8) i = badr t.s.rsi (12 * k + i) := by
        rw [c2, h.r8]
        exact badr_badr _ _ _
      rw [e, h.rest _ ?_, p.buf _ (by omega), List.getD_eq_getElem?_getD, List.getElem?_eq_getElem (by omega)]
      · rfl
      · rintro ⟨j, hj, e⟩
        exact p.a1 j hj (12 * k + i) (by omega) e.symm
    refine body2 K1 e2 e1 h.r9 (fun i hi => ?_) (fun i hi => ?_) fun x2 s2 y K2 hy hs hax => ?_
    · rw [c4, h.rest _ ?_]
      · exact p.tab i hi
      · rintro ⟨j, hj, e⟩
        exact p.a2 j hj i (lt_of_lt_of_eq hi (by decide +kernel)) e.symm
    · rw [hax2, badr_badr, c5]
      exact p.stk _ (by omega)
    rw [hax2]
    have hkl := kept_length fun i => B.getD (12 * k + i) 0#8
    have hnext := accepted_next B k hk
    have hnl := congrArg List.length hnext
    rw [List.length_append] at hnl
    have hax : s2.rax = BitVec.ofNat 64 (accepted (B.take (12 * (k + 1)))).length := by
      rw [hax, h.rax, hnl, BitVec.ofNat_add]
    have hsp : s2.rsp = s.rsp := hs .rsp (by decide) (by decide) (by decide)
    have hcalm : Calm t s2 := ⟨(hs .rdi (by decide) (by decide) (by decide)).trans c1, (hs .rsi (by decide) (by decide) (by decide)).trans c2,
      (hs .rdx (by decide) (by decide) (by decide)).trans c3, (hs .rcx (by decide) (by decide) (by decide)).trans c4, hsp.trans c5,
      (hs .rbx (by decide) (by decide) (by decide)).trans c6, (hs .rbp (by decide) (by decide) (by decide)).trans c7,
      (hs .r12 (by decide) (by decide) (by decide)).trans c8, (hs .r13 (by decide) (by decide) (by decide)).trans c9,
      (hs .r14 (by decide) (by decide) (by decide)).trans c10, (hs .r15 (by decide) (by decide) (by decide)).trans c11⟩
    have h9 : s2.r9 = 0x5555#64 := (hs .r9 (by decide) (by decide) (by decide)).trans h.r9
    have h8 : s2.r8 = BitVec.ofNat 64 (12 * k) := (hs .r8 (by decide) (by decide) (by decide)).trans h.r8
    have hold := holds16_store (y := y) (by omega) hkl h.holds hy
    rw [← hnext] at hold
    obtain ⟨bm2, hb2⟩ : ∃ m : Word → Option Byte, m = fun b => if (b - badr s.rsp (2 * (accepted (B.take (12 * k))).length)).toNat < 16
        then some (y (b - badr s.rsp (2 * (accepted (B.take (12 * k))).length)).toNat) else bm b := ⟨_, rfl⟩
    rw [← hb2] at hold ⊢
    have hrest : ∀ b, ¬ InB (t.s.rsp - 528#64) 528 b → bm2 b = t.bm b := fun b hb => by
      rw [hb2]
      show (if (b - badr s.rsp (2 * (accepted (B.take (12 * k))).length)).toNat < 16 then _ else _) = _
      rw [if_neg, h.rest b hb]
      intro hlt
      refine hb ⟨2 * (accepted (B.take (12 * k))).length + (b - badr s.rsp (2 * (accepted (B.take (12 * k))).length)).toNat, by omega, ?_⟩
      rw [← c5, ← badr_badr, badr_of_sub]
    rw [← hsp] at hold
    have hcmp := sbbc_ofNat (a := (accepted (B.take (12 * (k + 1)))).length) (b := 256) (by omega) (by omega)
    refine BFrom.sc (pc' := 37) (s' := s2.subFlags s2.rax 256#64 false) rfl rfl ?_
    by_cases hge : 256 ≤ (accepted (B.take (12 * (k + 1)))).length
    · refine BFrom.sc (pc' := 41) rfl ((jcc_exec (b := true) ?_).trans rfl) ?_
      · show some (!sbbc s2.rax 256#64 false) = _
        rw [hax, hcmp, decide_eq_false (by omega)]
        rfl
      · refine tail_ok p ?_ ?_ ?_ ?_ hrest (take_accepted B (k + 1) (.inl hge))
        · refine hcalm.same ?_ ?_ ?_ ?_ ?_ ?_ ?_ ?_ ?_ ?_ ?_ <;> simp only [St.subFlags, St.zs]
        · simpa only [St.subFlags, St.zs] using hax
        · omega
        · simpa only [St.subFlags, St.zs] using hold
    refine BFrom.sc (pc' := 38) rfl ((jcc_exec (b := false) ?_).trans rfl) ?_
    · show some (!sbbc s2.rax 256#64 false) = _
      rw [hax, hcmp, decide_eq_true (by omega)]
      rfl
    obtain ⟨f1, f2, f3, f4, e38⟩ := sub12 (s2.subFlags s2.rax 256#64 false)
    refine BFrom.sc (pc' := 39) rfl e38 ?_
    refine BFrom.sc (pc' := 40) rfl rfl ?_
    have h8' : s2.r8 + 12#64 = BitVec.ofNat 64 (12 * (k + 1)) := by
      rw [h8, Nat.mul_succ, BitVec.ofNat_add]
    have hdx : s2.rdx = BitVec.ofNat 64 B.length := hcalm.2.2.1.trans p.rdx
    have t1 := sbbc_ofNat (a := B.length) (b := 12 * (k + 1)) (by omega) (by omega)
    have t2 := sbbv_ofNat (a := B.length) (b := 12 * (k + 1)) (by omega) (by omega)
    by_cases hend : B.length = 12 * (k + 1)
    · refine BFrom.sc (pc' := 41) rfl ((jcc_exec (b := false) ?_).trans rfl) ?_
      · show some (!(sbbc s2.rdx (s2.r8 + 12#64) false || (sbbv s2.rdx (s2.r8 + 12#64) false == 0#64))) = _
        rw [h8', hdx, t1, t2, decide_eq_true hend, Bool.or_true]
        rfl
      · refine tail_ok p ?_ ?_ ?_ ?_ hrest (take_accepted B (k + 1) (.inr (by omega)))
        · refine hcalm.same ?_ ?_ ?_ ?_ ?_ ?_ ?_ ?_ ?_ ?_ ?_ <;> simp only [St.subFlags, St.zs]
        · simpa only [St.subFlags, St.zs] using hax
        · omega
        · simpa only [St.subFlags, St.zs] using hold
    · refine BFrom.sc (pc' := 18) rfl ((jcc_exec (b := true) ?_).trans rfl) ?_
      · show some (!(sbbc s2.rdx (s2.r8 + 12#64) false || (sbbv s2.rdx (s2.r8 + 12#64) false == 0#64))) = _
        rw [h8', hdx, t1, t2, decide_eq_false hend, decide_eq_false (by omega)]
        rfl
      · refine ih (k + 1) _ bm2 x2 (by omega) ⟨by omega, K2, ?_, ?_, ?_, ?_, by omega, ?_, hrest⟩
        · simpa only [St.subFlags, St.zs] using h9
        · simpa only [St.subFlags, St.zs] using h8'
        · refine hcalm.same ?_ ?_ ?_ ?_ ?_ ?_ ?_ ?_ ?_ ?_ ?_ <;> simp only [St.subFlags, St.zs]
        · simpa only [St.subFlags, St.zs] using hax
        · simpa only [St.subFlags, St.zs] using hold

theorem entry_ex (s : St) : ∃ f1 f2 f3 f4, (Instr.sub (.reg .rsp) (.imm 528#64)).exec 1 s =
    some (2, { s with rsp := s.rsp - 528#64, cf := f1, zf := f2, sf := f3, of := f4 }) := by
  refine ⟨some (sbbc s.rsp 528#64 false), some (s.rsp - 528#64 == 0#64), some (s.rsp - 528#64).msb, some (subo s.rsp 528#64 (s.rsp - 528#64)), ?_⟩
  simp only [Instr.exec, Instr.eff, St.val, St.put, St.get, St.set, St.subFlags, St.zs, Option.map_some, Option.bind_eq_bind, Option.bind_some]
  rw [show sbbv s.rsp 528#64 false = s.rsp - 528#64 from BitVec.sub_zero _]

theorem zero_ex (s : St) : (Instr.xor (.reg .rax) (.reg .rax)).exec 2 s =
    some (3, { s with rax := 0#64, cf := some false, zf := some true, sf := some false, of := some false }) := by
  simp only [Instr.exec, Instr.eff, St.val, St.put, St.get, St.set, St.logicFlags, St.zs, Option.map_some, Option.bind_eq_bind, Option.bind_some]
  rw [BitVec.xor_self]
  rfl

theorem accepted_nil : accepted [] = [] := by
  simp [accepted, chunksExact]

theorem run_ok {t : BSt} {B : Bytes} (p : Pre t B) : BRuns PR t (Post t B) := by
  show BFrom PR 0 ⟨t.s, t.bm, t.bw, t.x⟩ (Post t B)
  have hlen := p.len
  refine BFrom.sc (pc' := 1) rfl rfl ?_
  obtain ⟨f1, f2, f3, f4, e1⟩ := entry_ex t.s
  refine BFrom.sc (pc' := 2) rfl e1 ?_
  refine BFrom.sc (pc' := 3) rfl (zero_ex _) ?_
  refine BFrom.sc (pc' := 4) rfl rfl ?_
  by_cases h0 : B.length = 0
  · have hB : B = [] := List.length_eq_zero_iff.1 h0
    refine BFrom.sc (pc' := 48) rfl ((jcc_exec (b := true) ?_).trans rfl) ?_
    · show some (t.s.rdx &&& t.s.rdx == 0#64) = _
      rw [p.rdx, h0]
      rfl
    obtain ⟨g1, g2, g3, g4, e48⟩ := add_ex (St.logicFlags { t.s with rax := 0#64, rsp := t.s.rsp - 528#64, cf := some false, zf := some true, sf := some false, of := some false } (t.s.rdx &&& t.s.rdx)) 528#64
    refine BFrom.sc (pc' := 49) rfl e48 ?_
    have ha : (accepted B).take 256 = [] := by
      rw [hB, accepted_nil]
      rfl
    refine BFrom.halt rfl ⟨?_, ?_, ?_, ?_⟩
    · rw [ha]
      rfl
    · rw [ha, holds16_iff]
      exact fun i hi => absurd hi (Nat.not_lt_zero _)
    · exact fun _ _ _ => rfl
    · intro r hr
      match r, hr with
      | .rsp, _ => exact BitVec.sub_add_cancel _ _
      | .rbx, _ | .rbp, _ | .r12, _ | .r13, _ | .r14, _ | .r15, _ => rfl
      | .rax, h | .rcx, h | .rdx, h | .rsi, h | .rdi, h | .r8, h | .r9, h | .r10, h | .r11, h => exact absurd h (by decide)
  refine BFrom.sc (pc' := 5) rfl ((jcc_exec (b := false) ?_).trans rfl) ?_
  · show some (t.s.rdx &&& t.s.rdx == 0#64) = _
    rw [p.rdx, BitVec.and_self]
    refine congrArg some (beq_eq_false_iff_ne.2 fun h => h0 ?_)
    have := congrArg BitVec.toNat h
    rwa [BitVec.toNat_ofNat, Nat.mod_eq_of_lt (by omega)] at this
  refine BFrom.sc (pc' := 6) rfl rfl ?_
  refine BFrom.vec (d := 0) rfl rfl fun x1 e1 k1 => ?_
  refine BFrom.vec (d := 0) rfl rfl fun x2 e2 k2 => ?_
  refine BFrom.sc (pc' := 9) rfl rfl ?_
  refine BFrom.vec (d := 5) rfl rfl fun x3 e3 k3 => ?_
  refine BFrom.vec (d := 5) rfl rfl fun x4 e4 k4 => ?_
  refine BFrom.sc (pc' := 12) rfl rfl ?_
  refine BFrom.vec (d := 4) rfl rfl fun x5 e5 k5 => ?_
  refine BFrom.sc (pc' := 14) rfl rfl ?_
  refine BFrom.vec (d := 4) rfl rfl fun x6 e6 k6 => ?_
  refine BFrom.sc (pc' := 16) rfl rfl ?_
  refine BFrom.sc (pc' := 17) rfl rfl ?_
  refine BFrom.sc (pc' := 18) rfl rfl ?_
  have K : Consts x6 := by
    refine ⟨?_, ?_, ?_⟩
    · intro i hi
      rw [k6 0 (by decide), k5 0 (by decide), k4 0 (by decide), k3 0 (by decide), e2]
      show (if i / 8 = 1 % 2 then (0xd010d010d010d01#64).extractLsb' (8 * (i % 8)) 8 else x1 0 i) = _
      rw [e1]
      show (if i / 8 = 1 % 2 then (0xd010d010d010d01#64).extractLsb' (8 * (i % 8)) 8 else if i < 8 then (0xd010d010d010d01#64).extractLsb' (8 * i) 8 else 0#8) = _
      revert i
      decide
    · intro i hi
      rw [e6]
      show (if i / 8 = 1 % 2 then (0xb0a0a0908070706#64).extractLsb' (8 * (i % 8)) 8 else x5 4 i) = _
      rw [e5]
      show (if i / 8 = 1 % 2 then (0xb0a0a0908070706#64).extractLsb' (8 * (i % 8)) 8 else if i < 8 then (0x504040302010100#64).extractLsb' (8 * i) 8 else 0#8) = _
      revert i
      decide
    · intro i hi
      rw [k6 5 (by decide), k5 5 (by decide), e4]
      show (if i / 8 = 1 % 2 then (0xfff0fff0fff0fff#64).extractLsb' (8 * (i % 8)) 8 else x3 5 i) = _
      rw [e3]
      show (if i / 8 = 1 % 2 then (0xfff0fff0fff0fff#64).extractLsb' (8 * (i % 8)) 8 else if i < 8 then (0xfff0fff0fff0fff#64).extractLsb' (8 * i) 8 else 0#8) = _
      revert i
      decide
  have ha : accepted (B.take (12 * 0)) = [] := by
    rw [Nat.mul_zero, List.take_zero, accepted_nil]
  refine loop_ok p B.length 0 _ _ _ (by omega) ⟨by omega, K, rfl, rfl, ⟨rfl, rfl, rfl, rfl, rfl, rfl, rfl, rfl, rfl, rfl, rfl⟩, ?_, ?_, ?_, fun _ _ => rfl⟩
  · rw [ha]
    rfl
  · rw [ha]
    decide
  · rw [ha, holds16_iff]
    exact fun i hi => absurd hi (Nat.not_lt_zero _)

end Verif.X86.Rej
