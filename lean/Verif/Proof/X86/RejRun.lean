import Verif.Proof.X86.Rej

/-! `mlkem_rej_uniform_vartime`: the run. -/
namespace Verif.X86.Rej
open Verif Verif.X86 Verif.MlKem.X86 Verif.Spec.MlKem

theorem BFrom.vec {P : BProg} {pc : Nat} {s : St} {bm : Word → Option Byte} {bw : Word → Bool} {x : Nat → Xmm} {Q : BSt → Prop}
    {i : BInstr} (hi : P[pc]? = some i) {d : Nat} {v : Xmm} (he : i.exec pc ⟨s, bm, bw, x⟩ = some (pc + 1, BSt.setx ⟨s, bm, bw, x⟩ d v))
    (h : ∀ x' : Nat → Xmm, x' d = v → (∀ r, r ≠ d → x' r = x r) → BFrom P (pc + 1) ⟨s, bm, bw, x'⟩ Q) : BFrom P pc ⟨s, bm, bw, x⟩ Q :=
  BFrom.next hi he (h _ (if_pos rfl) fun _ hr => if_neg hr)

abbrev PR := Asm.mlkemRejUniformVartime

/-- The constants that the prologue puts into vector registers. -/
structure Consts (x : Nat → Xmm) : Prop where
  q : ∀ i < 16, x 0 i = lb (fun _ => 3329) i
  sh : ∀ i < 16, x 4 i = BitVec.ofNat 8 (sidx i)
  low : ∀ i < 16, x 5 i = lb (fun _ => 4095) i

theorem Consts.keep {x x' : Nat → Xmm} (K : Consts x) {d : Nat} (h : ∀ r, r ≠ d → x' r = x r) (hd : d ≠ 0 ∧ d ≠ 4 ∧ d ≠ 5) : Consts x' :=
  ⟨fun i hi => by rw [h 0 hd.1.symm]; exact K.q i hi, fun i hi => by rw [h 4 hd.2.1.symm]; exact K.sh i hi,
    fun i hi => by rw [h 5 hd.2.2.symm]; exact K.low i hi⟩

theorem sidx_lt : ∀ i < 16, sidx i < 12 ∧ (BitVec.ofNat 8 (sidx i)).getLsbD 7 = false ∧ (BitVec.ofNat 8 (sidx i)).toNat % 16 = sidx i := by
  decide

/-- Instructions 18 to 26: eight candidates, and which of them are below `q`. -/
theorem body1 {s : St} {bm : Word → Option Byte} {bw : Word → Bool} {x : Nat → Xmm} {Q : BSt → Prop} {C : Nat → Byte} (K : Consts x) (hC : ∀ i < 12, bm (badr (s.rsi + s.r8) i) = some (C i))
    (h : ∀ x' : Nat → Xmm, Consts x' → (∀ i < 16, x' 2 i = lb (cand C) i) →
      (∀ i < 16, (x' 1 i).getLsbD 7 = decide (cand C (i / 2) < 3329)) → BFrom PR 27 ⟨s, bm, bw, x'⟩ Q) : BFrom PR 18 ⟨s, bm, bw, x⟩ Q := by
  have a0 : s.ea ⟨some .rsi, some (.r8, 1#64), 0#64⟩ = s.rsi + s.r8 := by
    show s.rsi + 1#64 * s.r8 + 0#64 = _
    rw [BitVec.one_mul, BitVec.add_zero]
  have a8 : s.ea ⟨some .rsi, some (.r8, 1#64), 8#64⟩ = badr (s.rsi + s.r8) 8 := by
    show s.rsi + 1#64 * s.r8 + 8#64 = _
    rw [BitVec.one_mul]
    rfl
  refine BFrom.vec rfl (d := 2) (v := fun i => if i < 8 then C i else 0#8) ?_ fun x1 e1 k1 => ?_
  · show ((BSt.load ⟨s, bm, bw, x⟩ (s.ea _) 8).bind fun v => some (BSt.setx ⟨s, bm, bw, x⟩ 2 v)).map _ = _
    rw [a0, load_eq fun i hi => hC i (by omega)]
    rfl
  have K1 := K.keep k1 (by decide)
  refine BFrom.vec rfl (d := 2) (v := fun i => if i / 4 = 2 then C (8 + i % 4) else x1 2 i) ?_ fun x2 e2 k2 => ?_
  · show ((BSt.load ⟨s, bm, bw, x1⟩ (s.ea _) 4).bind fun v => some (BSt.setx ⟨s, bm, bw, x1⟩ 2 _)).map _ = _
    rw [a8, load_eq (f := fun i => C (8 + i)) fun i hi => by rw [badr_badr]; exact hC _ (by omega)]
    refine congrArg (fun v => some (20, BSt.setx ⟨s, bm, bw, x1⟩ 2 v)) (funext fun i => ?_)
    show (if i / 4 = 2 then (if i % 4 < 4 then C (8 + i % 4) else 0#8) else x1 2 i) = _
    rw [if_pos (show i % 4 < 4 by omega)]
  have K2 := K1.keep k2 (by decide)
  refine BFrom.vec rfl (v := fun i => if (x2 4 i).getLsbD 7 then 0#8 else x2 2 ((x2 4 i).toNat % 16)) rfl fun x3 e3 k3 => ?_
  have K3 := K2.keep k3 (by decide)
  have s3 : ∀ i < 16, x3 2 i = C (sidx i) := fun i hi => by
    obtain ⟨h1, h2, h3⟩ := sidx_lt i hi
    rw [e3]
    show (if (x2 4 i).getLsbD 7 then 0#8 else x2 2 ((x2 4 i).toNat % 16)) = _
    rw [K2.sh i hi, h2, if_neg (by decide), h3, e2]
    show (if sidx i / 4 = 2 then C (8 + sidx i % 4) else x1 2 (sidx i)) = _
    split
    · exact congrArg C (by omega)
    · rw [e1]
      exact if_pos (by omega)
  refine BFrom.vec rfl (v := x3 2) rfl fun x4 e4 k4 => ?_
  have K4 := K3.keep k4 (by decide)
  refine BFrom.vec rfl (v := xof fun i => xh (x4 3) i >>> 4) rfl fun x5 e5 k5 => ?_
  have K5 := K4.keep k5 (by decide)
  refine BFrom.vec rfl (v := xof fun i => if Nat.testBit 170 i then xh (x5 3) i else xh (x5 2) i) rfl fun x6 e6 k6 => ?_
  have K6 := K5.keep k6 (by decide)
  refine BFrom.vec rfl (v := fun i => x6 2 i &&& x6 5 i) rfl fun x7 e7 k7 => ?_
  have K7 := K6.keep k7 (by decide)
  have s7 : ∀ i < 16, x7 2 i = lb (cand C) i := fun i hi => by
    rw [e7, e6, e5, e4, k5 2 (by decide), k4 2 (by decide)]
    exact lanes_ok s3 K6.low i hi
  refine BFrom.vec rfl (v := x7 0) rfl fun x8 e8 k8 => ?_
  have K8 := K7.keep k8 (by decide)
  refine BFrom.vec rfl (v := xof fun i => if (xh (x8 2) i).toInt < (xh (x8 1) i).toInt then 0xffff#16 else 0#16) rfl fun x9 e9 k9 => ?_
  have s8 : ∀ i < 16, x8 2 i = lb (cand C) i := fun i hi => by rw [k8 2 (by decide)]; exact s7 i hi
  refine h x9 (K8.keep k9 (by decide)) (fun i hi => by rw [k9 2 (by decide)]; exact s8 i hi) fun i hi => ?_
  rw [e9]
  exact cmp_ok s8 (fun i hi => by rw [e8]; exact K7.q i hi) i hi

/-- The candidates that are kept. -/
def kept (C : Nat → Byte) : List Nat := ((List.range 8).map (cand C)).filter (· < 3329)

/-- Scalar steps change the general registers and the flags. -/
theorem BFrom.sc {P : BProg} {pc : Nat} {s : St} {bm : Word → Option Byte} {bw : Word → Bool} {x : Nat → Xmm} {Q : BSt → Prop}
    {i : Instr} (hi : P[pc]? = some (.sc i)) {pc' : Nat} {s' : St}
    (he : i.exec pc s = some (pc', s')) (h : BFrom P pc' ⟨s', bm, bw, x⟩ Q) : BFrom P pc ⟨s, bm, bw, x⟩ Q :=
  BFrom.next hi (by show (i.exec pc s).map _ = _; rw [he]; rfl) h

/-- Instructions 27 to 35: the kept candidates are stored, and counted. -/
theorem body2 {s : St} {bm : Word → Option Byte} {bw : Word → Bool} {x : Nat → Xmm} {Q : BSt → Prop} {C : Nat → Byte} (K : Consts x) (h2 : ∀ i < 16, x 2 i = lb (cand C) i)
    (h1 : ∀ i < 16, (x 1 i).getLsbD 7 = decide (cand C (i / 2) < 3329)) (h9 : s.r9 = 0x5555#64)
    (hT : HoldsB bm s.rcx rejTable) (hw : ∀ i < 16, bw (badr (s.rsp + 2#64 * s.rax) i) = true)
    (h : ∀ (x' : Nat → Xmm) (s' : St) (y : Nat → Byte), Consts x' → (∀ i < 2 * (kept C).length, y i = lb (fun j => (kept C).getD j 0) i) →
      (∀ r, r ≠ .rax → r ≠ .r10 → r ≠ .r11 → s'.get r = s.get r) → s'.rax = s.rax + BitVec.ofNat 64 (kept C).length →
      BFrom PR 36 ⟨s', fun b => if (b - (s.rsp + 2#64 * s.rax)).toNat < 16 then some (y (b - (s.rsp + 2#64 * s.rax)).toNat) else bm b,
        bw, x'⟩ Q) : BFrom PR 27 ⟨s, bm, bw, x⟩ Q := by
  obtain ⟨m, hm, em⟩ := exists_mask fun i => decide (cand C i < 3329)
  have kb : kept C = (bits m).map (cand C) := by
    unfold kept bits
    rw [List.filter_map]
    exact congrArg _ (List.filter_congr fun i hi => em i (List.mem_range.1 hi))
  have kl : (kept C).length = (bits m).length := by rw [kb, List.length_map]
  have sum : ((List.range 16).map fun i => if (x 1 i).getLsbD 7 then 2 ^ i else 0) =
      (List.range 16).map fun i => if m.testBit (i / 2) then 2 ^ i else 0 :=
    List.map_congr_left fun i hi => by
      have := List.mem_range.1 hi
      rw [h1 i this, em (i / 2) (by omega)]
  obtain ⟨W, hW, hp⟩ : ∃ W, BitVec.ofNat 64 (((List.range 16).map fun i => if (x 1 i).getLsbD 7 then 2 ^ i else 0).sum) = W ∧
      pextv W 0x5555#64 = BitVec.ofNat 64 m := ⟨_, congrArg (fun l => BitVec.ofNat 64 (List.sum l)) sum, pext_ok m hm⟩
  -- pmovmskb
  refine BFrom.next (pc' := 28) (t' := ⟨s.set .r11 W, bm, bw, x⟩) rfl (congrArg (fun w => some (28, BSt.mk (s.set .r11 w) bm bw x)) hW) ?_
  -- pext
  have ep : pextv W s.r9 = BitVec.ofNat 64 m := by rw [h9]; exact hp
  refine BFrom.next (pc' := 29) (t' := ⟨s.set .r11 (BitVec.ofNat 64 m), bm, bw, x⟩) rfl
    (congrArg (fun w => some (29, BSt.mk (s.set .r11 w) bm bw x)) ep) ?_
  -- mov r10, r11
  refine BFrom.sc rfl rfl ?_
  -- shl r10, 4
  refine BFrom.sc rfl (s' := ((((s.set .r11 (BitVec.ofNat 64 m)).set .r10 (BitVec.ofNat 64 m)).shiftFlags
    ((BitVec.ofNat 64 m).getLsbD (64 - 4)) (BitVec.ofNat 64 m <<< 4)).set .r10 (BitVec.ofNat 64 m <<< 4))) rfl ?_
  generalize hs4 : ((((s.set .r11 (BitVec.ofNat 64 m)).set .r10 (BitVec.ofNat 64 m)).shiftFlags
    ((BitVec.ofNat 64 m).getLsbD (64 - 4)) (BitVec.ofNat 64 m <<< 4)).set .r10 (BitVec.ofNat 64 m <<< 4)) = s4
  have g4 : ∀ r, r ≠ .rax → r ≠ .r10 → r ≠ .r11 → s4.get r = s.get r := fun r _ e1 e2 => by
    subst hs4
    cases r <;> first | exact (e1 rfl).elim | exact (e2 rfl).elim | simp only [St.get, St.set, St.shiftFlags, St.zs]
  have r10 : s4.r10 = BitVec.ofNat 64 (16 * m) := by
    subst hs4
    show BitVec.ofNat 64 m <<< 4 = _
    apply BitVec.eq_of_toNat_eq
    rw [BitVec.toNat_shiftLeft, BitVec.toNat_ofNat, BitVec.toNat_ofNat, Nat.shiftLeft_eq]
    omega
  have r11 : s4.r11 = BitVec.ofNat 64 m := by subst hs4; simp only [St.set, St.shiftFlags, St.zs]
  have rax : s4.rax = s.rax := by subst hs4; simp only [St.set, St.shiftFlags, St.zs]
  have ec : s4.ea ⟨some .rcx, some (.r10, 1#64), 0#64⟩ = badr s.rcx (16 * m) := by
    show s4.rcx + 1#64 * s4.r10 + 0#64 = _
    rw [r10, BitVec.one_mul, BitVec.add_zero, show s4.rcx = s.rcx from g4 .rcx (by decide) (by decide) (by decide)]
    rfl
  have es : s4.ea ⟨some .rsp, some (.rax, 2#64), 0#64⟩ = s.rsp + 2#64 * s.rax := by
    show s4.rsp + 2#64 * s4.rax + 0#64 = _
    rw [rax, BitVec.add_zero, show s4.rsp = s.rsp from g4 .rsp (by decide) (by decide) (by decide)]
  -- movdqu xmm3
  refine BFrom.vec rfl (d := 3) (v := fun i => if i < 16 then rejByte m i else 0#8) ?_ fun x1 e1 k1 => ?_
  · show ((BSt.load ⟨s4, bm, bw, x⟩ (s4.ea _) 16).bind fun v => some (BSt.setx ⟨s4, bm, bw, x⟩ 3 v)).map _ = _
    rw [ec, load_eq (f := rejByte m) fun i hi => ?_]
    · rfl
    · rw [badr_badr]
      have hl : rejTable.length = 4096 := by unfold rejTable; rw [List.length_map, List.length_range]
      have := hT (16 * m + i) (by omega)
      refine Eq.trans this (congrArg some ?_)
      unfold rejTable
      rw [List.getElem_map, List.getElem_range, show (16 * m + i) / 16 = m by omega, show (16 * m + i) % 16 = i by omega]
  have K1 := K.keep k1 (by decide)
  -- pshufb
  refine BFrom.vec rfl (v := fun i => if (x1 3 i).getLsbD 7 then 0#8 else x1 2 ((x1 3 i).toNat % 16)) rfl fun x2 e2 k2 => ?_
  have K2 := K1.keep k2 (by decide)
  -- movdqu to the stack
  refine BFrom.next (pc' := 34) (t' := ⟨s4, fun b => if (b - (s.rsp + 2#64 * s.rax)).toNat < 16 then some (x2 2 (b - (s.rsp + 2#64 * s.rax)).toNat)
    else bm b, bw, x2⟩) rfl ?_ ?_
  · show (BSt.store ⟨s4, bm, bw, x2⟩ (s4.ea _) 16 (x2 2)).map _ = _
    rw [es, store_eq hw]
    rfl
  -- popcnt, add
  refine BFrom.next rfl rfl ?_
  refine BFrom.sc rfl rfl ?_
  refine h _ _ _ K2 (fun i hi => ?_) (fun r e0 e1 e2 => ?_) ?_
  · rw [kl] at hi
    have hbl : (bits m).length ≤ 8 := (List.length_filter_le _ _).trans (by rw [List.length_range])
    obtain ⟨h7, h16⟩ := row_ok m hm i hi
    have e3 : x1 3 i = rejByte m i := by rw [e1]; exact if_pos (by omega)
    rw [e2]
    show (if (x1 3 i).getLsbD 7 then 0#8 else x1 2 ((x1 3 i).toNat % 16)) = _
    rw [e3, h7, if_neg (by decide), h16, k1 2 (by decide)]
    have hb := bits_lt m (i / 2)
    rw [h2 _ (by omega)]
    unfold lb
    rw [show (2 * (bits m).getD (i / 2) 0 + i % 2) / 2 = (bits m).getD (i / 2) 0 by omega,
      show (2 * (bits m).getD (i / 2) 0 + i % 2) % 2 = i % 2 by omega, kb]
    have : ((bits m).map (cand C)).getD (i / 2) 0 = cand C ((bits m).getD (i / 2) 0) := by
      rw [List.getD_eq_getElem?_getD, List.getD_eq_getElem?_getD, List.getElem?_map, List.getElem?_eq_getElem (by omega)]
      rfl
    exact congrArg (fun n => BitVec.ofNat 8 (n / 256 ^ (i % 2))) this.symm
  · rw [← g4 r e0 e1 e2]
    cases r <;> first | exact (e0 rfl).elim | exact (e1 rfl).elim | exact (e2 rfl).elim | simp only [St.get, St.set, St.addFlags, St.zs]
  · show adcv s4.rax (BitVec.ofNat 64 (popcount s4.r11)) false = _
    rw [rax, r11, popcount_ok m hm, kl]
    exact BitVec.add_zero _

/-! ### Memory and arrays of 16-bit numbers -/

theorem inB_iff {p : Word} {n : Nat} (hn : n ≤ 2 ^ 64) (b : Word) : InB p n b ↔ (b - p).toNat < n := by
  constructor
  · rintro ⟨i, hi, rfl⟩
    rw [badr_sub (by omega)]
    exact hi
  · exact fun h => ⟨_, h, (badr_of_sub p b).symm⟩

theorem holds16_iff {m : Word → Option Byte} {p : Word} {l : List Nat} :
    HoldsB m p (bytes16 l) ↔ ∀ i < 2 * l.length, m (badr p i) = some (lb (fun j => l.getD j 0) i) := by
  have hl : (bytes16 l).length = 2 * l.length := by unfold bytes16; rw [List.length_map, List.length_range]
  have hg : ∀ (i : Nat) (h : i < (bytes16 l).length), (bytes16 l)[i] = lb (fun j => l.getD j 0) i := fun i h => by
    simp only [bytes16, List.getElem_map, List.getElem_range, lb]
  constructor
  · intro h i hi
    rw [h i (by omega), hg]
  · intro h i hi
    rw [hg, h i (by omega)]

/-- Storing sixteen bytes after an array makes it longer. -/
theorem holds16_store {m : Word → Option Byte} {p : Word} {a b : List Nat} {y : Nat → Byte} (ha : 2 * a.length + 16 < 2 ^ 64) (hb : b.length ≤ 8)
    (h : HoldsB m p (bytes16 a)) (hy : ∀ i < 2 * b.length, y i = lb (fun j => b.getD j 0) i) :
    HoldsB (fun c => if (c - badr p (2 * a.length)).toNat < 16 then some (y (c - badr p (2 * a.length)).toNat) else m c) p (bytes16 (a ++ b)) := by
  rw [holds16_iff] at h ⊢
  intro i hi
  rw [List.length_append] at hi
  show (if (badr p i - badr p (2 * a.length)).toNat < 16 then _ else _) = _
  by_cases hl : i < 2 * a.length
  · have hne : ¬ (badr p i - badr p (2 * a.length)).toNat < 16 := by
      intro hc
      have := badr_of_sub (badr p (2 * a.length)) (badr p i)
      rw [badr_badr] at this
      have := badr_inj (by omega) (by omega) this
      omega
    rw [if_neg hne, h i hl]
    simp only [lb]
    rw [List.getD_eq_getElem?_getD, List.getD_eq_getElem?_getD, List.getElem?_append_left (by omega)]
  · obtain ⟨j, rfl⟩ : ∃ j, i = 2 * a.length + j := ⟨i - 2 * a.length, by omega⟩
    rw [← badr_badr, badr_sub (by omega), if_pos (by omega), hy j (by omega)]
    simp only [lb]
    rw [List.getD_eq_getElem?_getD, List.getD_eq_getElem?_getD, List.getElem?_append_right (by omega),
      show (2 * a.length + j) / 2 - a.length = j / 2 by omega, show (2 * a.length + j) % 2 = j % 2 by omega]

/-! ### The stream -/

theorem kept_eq (L : Bytes) (hL : L.length = 12) : accepted L = kept fun i => L.getD i 0#8 := by
  match L, hL with
  | [b0, b1, b2, b3, b4, b5, b6, b7, b8, b9, b10, b11], _ =>
    unfold accepted kept
    refine congrArg _ ?_
    have c3 : ∀ (x y z : Byte) (l : Bytes), chunksExact 3 (x :: y :: z :: l) = [x, y, z] :: chunksExact 3 l := fun x y z l => by
      rw [chunksExact, dif_pos ⟨by omega, by simp only [List.length_cons]; omega⟩]
      rfl
    have c0 : chunksExact 3 ([] : Bytes) = [] := by rw [chunksExact, dif_neg (by simp)]
    rw [c3, c3, c3, c3, c0]
    rfl

theorem kept_length (C : Nat → Byte) : (kept C).length ≤ 8 :=
  (List.length_filter_le _ _).trans (by rw [List.length_map, List.length_range])

theorem accepted_next (B : Bytes) (k : Nat) (hk : 12 * (k + 1) ≤ B.length) :
    accepted (B.take (12 * (k + 1))) = accepted (B.take (12 * k)) ++ kept fun i => B.getD (12 * k + i) 0#8 := by
  rw [show 12 * (k + 1) = 12 * k + 12 by ring, List.take_add, MlKem.accepted_append _ _ (by rw [List.length_take]; exact ⟨4 * k, by omega⟩),
    kept_eq ((B.drop (12 * k)).take 12) (by rw [List.length_take, List.length_drop]; omega)]
  unfold kept
  refine congrArg _ (congrArg _ (List.map_congr_left fun i hi => ?_))
  have hi := List.mem_range.1 hi
  have e : ∀ j < 12, ((B.drop (12 * k)).take 12).getD j 0#8 = B.getD (12 * k + j) 0#8 := fun j hj => by
    rw [List.getD_eq_getElem?_getD, List.getD_eq_getElem?_getD, List.getElem?_take, if_pos hj, List.getElem?_drop]
  simp only [cand]
  rw [e _ (by omega), e _ (by omega), e _ (by omega)]

theorem take_accepted (B : Bytes) (k : Nat) (h : 256 ≤ (accepted (B.take (12 * k))).length ∨ B.length ≤ 12 * k) :
    (accepted B).take 256 = (accepted (B.take (12 * k))).take 256 := by
  by_cases hl : B.length ≤ 12 * k
  · rw [List.take_of_length_le hl]
  · have h := h.resolve_right hl
    conv_lhs => rw [← List.take_append_drop (12 * k) B, MlKem.accepted_append _ _ (by rw [List.length_take]; exact ⟨4 * k, by omega⟩)]
    rw [List.take_append_of_le_length h]

end Verif.X86.Rej
