import Verif.Proof.X86.Vec
import Verif.Proof.X86.Keccak
import Verif.Model.AsmX86.Keccak4

/-! `sha3_keccak4_f1600_alt`: four states side by side, word `l` of a vector belonging to state `l`. -/
namespace Verif.X86
open Verif Verif.Spec.Keccak

/-- The lane that a register holds between rounds. -/
def regOf : List (Option Nat) :=
  [none, none, some 24, some 21, none, none, none, some 22, some 11, some 15, some 7, none, none, some 18, some 8, some 12]

/-- The lane that a slot of the frame holds between rounds. -/
def slotOf : List (Option Nat) :=
  [some 0, some 1, some 2, some 3, some 4, some 5, some 6, some 9, some 10, some 13, some 14, some 16, some 17, some 19, some 20, some 23]

/-- Whether a value is `o`, in family `l`. -/
def isE (l : Nat) : LV → Option BE → Bool
  | .e k x, some y => Nat.beq k l && x.same y
  | _, _ => false

def oIsE (l : Nat) : Option LV → Option BE → Bool
  | some v, o => isE l v o
  | none, _ => false

/-- Between rounds the lanes are `f`. -/
def k4At (f : Nat → Option BE) (σ : VS) : Bool :=
  (List.range 16).all (fun r => match regOf.getD r none with
    | none => true
    | some i => isE 0 (σ.get r).w0 (f i) && isE 1 (σ.get r).w1 (f i) && isE 2 (σ.get r).w2 (f i) && isE 3 (σ.get r).w3 (f i)) &&
  (List.range 64).all (fun j => match slotOf.getD (j / 4) none with
    | none => true
    | some i => oIsE (j % 4) (σ.at' j) (f i))

/-- In the array the lanes are the variables. -/
def k4Data (σ : VS) : Bool :=
  (List.range 100).all fun j => oIsE (j / 25) (σ.at' (96 + j)) (some (.var (j % 25)))

/-- The state with the lanes in the array. -/
def k4In : VS where
  k := false
  y := List.replicate 16 L4.tops
  c := List.replicate 96 none ++ (List.range 100).map fun j => some (.e (j / 25) (.var (j % 25)))

/-- The state between rounds. -/
def k4Mid (k : Bool) : VS where
  k := k
  y := regOf.map fun
    | some i => ⟨.e 0 (.var i), .e 1 (.var i), .e 2 (.var i), .e 3 (.var i)⟩
    | none => L4.tops
  c := ((List.range 64).map fun j => (slotOf.getD (j / 4) none).map fun i => .e (j % 4) (.var i)) ++ List.replicate 132 none

def k4Check (l : List VInstr) (σ : VS) (p : VS → Bool) : Bool :=
  match VS.run l σ with
  | some σ' => p σ'
  | none => false

theorem k4len : Asm.sha3Keccak4F1600Alt.length = 420 := by decide +kernel
theorem k4Check_in : k4Check ((Asm.sha3Keccak4F1600Alt.drop 4).take 95) k4In (k4At fun i => some (.var i)) = true := by decide +kernel
theorem k4Check_round :
    k4Check ((Asm.sha3Keccak4F1600Alt.drop 100).take 220) (k4Mid true) (k4At (symR fun _ => false)) = true := by decide +kernel
theorem k4Check_out : k4Check ((Asm.sha3Keccak4F1600Alt.drop 324).take 95) (k4Mid false) k4Data = true := by decide +kernel

/-! ### The run -/

/-- What is given. -/
structure K4Hyp (s : St) (b : Word) (rc : Words) : Prop where
  lrc : rc.length = 24
  ownS : s.Owns b 96
  ownD : s.Owns s.rdi 100
  sd : Apart b 96 s.rdi 100
  sr : Apart b 96 s.rsi 24
  dr : Apart s.rdi 100 s.rsi 24
  rc : Holds s.mem s.rsi rc
  m8 : Holds s.mem s.rdx rho8.words
  s8 : Apart b 96 s.rdx 4
  d8 : Apart s.rdi 100 s.rdx 4
  m56 : Holds s.mem s.rcx rho56.words
  s56 : Apart b 96 s.rcx 4
  d56 : Apart s.rdi 100 s.rcx 4

/-- What stays the same during the run. -/
structure K4F (s : St) (b : Word) (j : Nat) (t : VSt) : Prop where
  regs : ∀ r, r ≠ .rsp → r ≠ .r10 → r ≠ .r11 → r ≠ .rsi → t.s.get r = s.get r
  rsp : t.s.rsp = b
  r11 : t.s.r11 = s.rsp
  rsi : t.s.rsi = word s.rsi j
  wr : t.s.wr = s.wr
  un : ∀ a, (∀ i < 96, a ≠ word b i) → (∀ i < 100, a ≠ word s.rdi i) → t.s.mem a = s.mem a

/-- The lanes of the four states. -/
def k4rho (k : Lane) (a : Nat → Lanes) (l i : Nat) : Word := krho (fun _ => false) k (a l) i

theorem kept_false (a : Lanes) (i : Nat) : kept (fun _ => false) a i = a.getD i 0#64 := by
  unfold kept
  exact BitVec.zero_xor

theorem k4rho_lt (k : Lane) (a : Nat → Lanes) (l : Nat) {i : Nat} (hi : i < 25) : k4rho k a l i = (a l).getD i 0#64 := by
  unfold k4rho krho
  rw [if_neg (by omega), kept_false]

section
variable {s : St} {b : Word} {rc : Words} {j : Nat} {t : VSt}

theorem K4F.rdi (F : K4F s b j t) : t.s.rdi = s.rdi := F.regs .rdi (by decide) (by decide) (by decide) (by decide)
theorem K4F.rdx (F : K4F s b j t) : t.s.rdx = s.rdx := F.regs .rdx (by decide) (by decide) (by decide) (by decide)
theorem K4F.rcx (F : K4F s b j t) : t.s.rcx = s.rcx := F.regs .rcx (by decide) (by decide) (by decide) (by decide)

theorem K4F.cadr (F : K4F s b j t) (i : Nat) : cadr t.s i = if i < 96 then word b i else word s.rdi (i - 96) := by
  unfold X86.cadr
  rw [F.rsp, F.rdi]

theorem K4F.off (F : K4F s b j t) {p : Word} {n : Nat} (h1 : Apart b 96 p n) (h2 : Apart s.rdi 100 p n) {k : Nat} (hk : k < n) :
    ∀ i < 196, word p k ≠ X86.cadr t.s i := by
  intro i hi e
  rw [F.cadr] at e
  split at e
  · exact h1 i (by omega) k hk e.symm
  · exact h2 (i - 96) (by omega) k hk e.symm

theorem K4F.same (F : K4F s b j t) {p : Word} {n : Nat} (h1 : Apart b 96 p n) (h2 : Apart s.rdi 100 p n) {k : Nat} (hk : k < n) :
    t.s.mem (word p k) = s.mem (word p k) :=
  F.un _ (fun i hi e => h1 i hi k hk e.symm) fun i hi e => h2 i hi k hk e.symm

theorem K4F.ctx (H : K4Hyp s b rc) (F : K4F s b j t) (ρ : Nat → Nat → Word) : VCtx ρ t.s := by
  refine ⟨fun i hi => ?_, ?_, ?_, ?_, ?_, ?_⟩
  · rw [F.cadr, F.wr]
    split
    · exact H.ownS i (by omega)
    · exact H.ownD (i - 96) (by omega)
  · rw [F.rsp, F.rdi]
    exact H.sd
  · rw [F.rdx]
    exact fun i hi => (F.same H.s8 H.d8 (by simpa [V4.words] using hi)).trans (H.m8 i hi)
  · rw [F.rdx]
    exact fun i hi k hk => F.off H.s8 H.d8 hk i hi
  · rw [F.rcx]
    exact fun i hi => (F.same H.s56 H.d56 (by simpa [V4.words] using hi)).trans (H.m56 i hi)
  · rw [F.rcx]
    exact fun i hi k hk => F.off H.s56 H.d56 hk i hi

/-- After a stretch of vector code. -/
theorem K4F.after (F : K4F s b j t) {ρ : Nat → Nat → Word} {σ : VS} {u : VSt} (U : VRel ρ t.s σ u) : K4F s b j u := by
  have h : ∀ r, u.s.get r = t.s.get r := U.get
  refine ⟨fun r h1 h2 h3 h4 => (h r).trans (F.regs r h1 h2 h3 h4), (h .rsp).trans F.rsp, (h .r11).trans F.r11, (h .rsi).trans F.rsi,
    ?_, fun a h1 h2 => ?_⟩
  · rw [U.st]
    exact F.wr
  · rw [U.un a fun i hi => ?_]
    · exact F.un a h1 h2
    · rw [F.cadr]
      split
      · exact h1 i (by omega)
      · exact h2 (i - 96) (by omega)

/-- Between rounds: the states are `a`. -/
structure K4At (b : Word) (a : Nat → Lanes) (t : VSt) : Prop where
  reg : ∀ r i, regOf.getD r none = some i → ∀ l < 4, (t.y r).lane l = (a l).getD i 0#64
  mem : ∀ j < 64, ∀ i, slotOf.getD (j / 4) none = some i → t.s.mem (word b j) = some ((a (j % 4)).getD i 0#64)

theorem isE_is {ρ : Nat → Nat → Word} {l : Nat} {v : LV} {o : Option BE} (h : isE l v o = true) {w : Word} (hv : v.Is ρ w) :
    ∃ y, o = some y ∧ w = y.val (ρ l) := by
  unfold isE at h
  split at h
  · rename_i k x y
    rw [Bool.and_eq_true] at h
    obtain rfl := Nat.eq_of_beq_eq_true h.1
    exact ⟨y, rfl, (show w = x.val (ρ k) from hv).trans (BE.same_val h.2)⟩
  · cases h

theorem regOf_lt : ∀ r < 16, ∀ i, regOf.getD r none = some i → i < 25 := by decide +kernel
theorem slotOf_lt : ∀ r < 16, ∀ i, slotOf.getD r none = some i → i < 25 := by decide +kernel

/-- The lanes that the executor finds. -/
theorem K4F.at (F : K4F s b j t) {ρ : Nat → Nat → Word} {σ : VS} {u : VSt} (U : VRel ρ t.s σ u) {f : Nat → Option BE} {a : Nat → Lanes}
    (hf : ∀ i < 25, ∀ l < 4, ∀ x, f i = some x → x.val (ρ l) = (a l).getD i 0#64) (h : k4At f σ = true) : K4At b a u := by
  unfold k4At at h
  simp only [Bool.and_eq_true, List.all_eq_true, List.mem_range] at h
  constructor
  · intro r i hr l hl
    have r16 : r < 16 := by
      by_contra hc
      rw [List.getD_eq_getElem?_getD, List.getElem?_eq_none (by simp [regOf]; omega)] at hr
      cases hr
    have hi := regOf_lt r r16 i hr
    have := h.1 r r16
    rw [hr] at this
    simp only [Bool.and_eq_true] at this
    obtain ⟨⟨⟨g0, g1⟩, g2⟩, g3⟩ := this
    have Y := U.y r
    match l, hl with
    | 0, _ =>
      obtain ⟨y, e1, e2⟩ := isE_is g0 Y.w0
      exact e2.trans (hf i hi 0 (by omega) y e1)
    | 1, _ =>
      obtain ⟨y, e1, e2⟩ := isE_is g1 Y.w1
      exact e2.trans (hf i hi 1 (by omega) y e1)
    | 2, _ =>
      obtain ⟨y, e1, e2⟩ := isE_is g2 Y.w2
      exact e2.trans (hf i hi 2 (by omega) y e1)
    | 3, _ =>
      obtain ⟨y, e1, e2⟩ := isE_is g3 Y.w3
      exact e2.trans (hf i hi 3 (by omega) y e1)
  · intro k hk i hi
    have := h.2 k hk
    rw [hi] at this
    have hl := slotOf_lt (k / 4) (by omega) i hi
    cases hv : σ.at' k with
    | none => simp [hv, oIsE] at this
    | some v =>
      rw [hv] at this
      obtain ⟨w, g, gi⟩ := U.c k (by omega) v hv
      obtain ⟨y, e1, e2⟩ := isE_is this gi
      rw [F.cadr, if_pos (by omega)] at g
      rw [g, e2, hf i hl (k % 4) (by omega) y e1]

/-- The executor's state between rounds. -/
theorem K4F.mid (F : K4F s b j t) {a : Nat → Lanes} (A : K4At b a t) {k : Lane} {q : Bool}
    (hr : q = true → t.s.mem t.s.rsi = some k) (hA : q = true → ∀ i < 196, t.s.rsi ≠ X86.cadr t.s i) :
    VRel (k4rho k a) t.s (k4Mid q) t := by
  have hv : ∀ i < 25, ∀ l, ∀ w, w = (a l).getD i 0#64 → (LV.e l (.var i)).Is (k4rho k a) w := by
    intro i hi l w hw
    show w = (BE.var i).val _
    rw [BE.var_val, k4rho_lt _ _ _ hi, hw]
  refine ⟨rfl, rfl, rfl, fun r => ?_, fun i hi v h => ?_, fun _ _ => rfl, fun h l _ => hr h, hA⟩
  · unfold VS.get k4Mid
    rw [List.getD_eq_getElem?_getD, List.getElem?_map]
    by_cases r16 : r < 16
    · cases ho : regOf.getD r none with
      | none =>
        rw [List.getD_eq_getElem?_getD, List.getElem?_eq_getElem (by simpa [regOf] using r16)] at ho
        rw [List.getElem?_eq_getElem (by simpa [regOf] using r16), show regOf[r]'(by simpa [regOf] using r16) = none from ho]
        exact L4.tops_is _ _
      | some i =>
        have hi := regOf_lt r r16 i ho
        have A := A.reg r i ho
        rw [List.getD_eq_getElem?_getD, List.getElem?_eq_getElem (by simpa [regOf] using r16)] at ho
        rw [List.getElem?_eq_getElem (by simpa [regOf] using r16), show regOf[r]'(by simpa [regOf] using r16) = some i from ho]
        exact ⟨hv i hi 0 _ (A 0 (by omega)), hv i hi 1 _ (A 1 (by omega)), hv i hi 2 _ (A 2 (by omega)), hv i hi 3 _ (A 3 (by omega))⟩
    · rw [List.getElem?_eq_none (by simp [regOf]; omega)]
      exact L4.tops_is _ _
  · unfold VS.at' k4Mid at h
    rw [List.getD_eq_getElem?_getD] at h
    by_cases h64 : i < 64
    · rw [List.getElem?_append_left (by simpa using h64), List.getElem?_map, List.getElem?_range h64] at h
      simp only [Option.map_some, Option.getD_some, Option.map_eq_some_iff] at h
      obtain ⟨i', h1, rfl⟩ := h
      refine ⟨_, ?_, hv i' (slotOf_lt (i / 4) (by omega) i' h1) (i % 4) _ rfl⟩
      rw [F.cadr, if_pos (by omega)]
      exact A.mem i h64 i' h1
    · rw [List.getElem?_append_right (by simpa using h64), List.getElem?_replicate] at h
      split at h <;> cases h

end

/-- The rounds on each of the four states. -/
def rounds4 (rc : Words) (a : Nat → Lanes) (l : Nat) : Lanes := Spec.Keccak.rounds rc (a l)

/-- What is wanted. -/
structure K4Done (s : St) (b : Word) (a : Nat → Lanes) (t : VSt) : Prop where
  lanes : ∀ j < 100, t.s.mem (word s.rdi j) = some ((a (j / 25)).getD (j % 25) 0#64)
  regs : ∀ r, r ≠ .r10 → r ≠ .r11 → r ≠ .rsi → t.s.get r = s.get r
  un : ∀ a, (∀ i < 96, a ≠ word b i) → (∀ i < 100, a ≠ word s.rdi i) → t.s.mem a = s.mem a

theorem k4Check_some {l : List VInstr} {σ : VS} {p : VS → Bool} (h : k4Check l σ p = true) : ∃ σ', VS.run l σ = some σ' ∧ p σ' = true := by
  unfold k4Check at h
  split at h
  · exact ⟨_, by assumption, h⟩
  · cases h

section
variable {s : St} {b : Word} {rc : Words} (H : K4Hyp s b rc) {a : Nat → Lanes}
include H

theorem k4_out {t : VSt} (F : K4F s b 24 t) (A : K4At b a t) : VFrom Asm.sha3Keccak4F1600Alt 324 t (K4Done s b a) := by
  obtain ⟨σ, h1, h2⟩ := k4Check_some k4Check_out
  have R := F.mid A (k := 0#64) (q := false) (fun h => by cases h) fun h => by cases h
  refine VFrom.bits (F.ctx H _) (by rw [k4len]; omega) R h1 fun u U => ?_
  have G := F.after U
  refine VFrom.next (i := .sc (.mov (.reg .rsp) (.reg .r11))) (pc' := 420) (t' := { u with s := { u.s with rsp := u.s.r11 } }) rfl rfl ?_
  refine VFrom.halt k4len.symm ⟨fun j hj => ?_, fun r h1 h2 h3 => ?_, G.un⟩
  · unfold k4Data at h2
    simp only [List.all_eq_true, List.mem_range] at h2
    have := h2 j hj
    cases hv : σ.at' (96 + j) with
    | none => simp [hv, oIsE] at this
    | some v =>
      rw [hv] at this
      obtain ⟨w, g, gi⟩ := U.c (96 + j) (by omega) v hv
      obtain ⟨y, e1, e2⟩ := isE_is this gi
      cases e1
      rw [F.cadr, if_neg (by omega), show 96 + j - 96 = j by omega] at g
      show u.s.mem _ = _
      rw [g, e2, BE.var_val, k4rho_lt _ _ _ (by omega)]
  · by_cases hr : r = .rsp
    · subst hr
      exact G.r11
    · rw [← G.regs r hr h1 h2 h3]
      cases r <;> first | rfl | exact absurd rfl hr

theorem k4_loop {t : VSt} (F : K4F s b 0 t) (A : K4At b a t) (h10 : t.s.r10 = 0#64) :
    VFrom Asm.sha3Keccak4F1600Alt 100 t (K4Done s b (rounds4 rc a)) := by
  have key : ∀ n j t, j + n = 24 → 0 < n → K4F s b j t → K4At b (rounds4 (rc.take j) a) t → t.s.r10 = BitVec.ofNat 64 j →
      VFrom Asm.sha3Keccak4F1600Alt 100 t (K4Done s b (rounds4 rc a)) := by
    intro n
    induction n with
    | zero => intros; omega
    | succ n ih =>
      intro j t hj _ F A h10
      have hl := H.lrc
      obtain ⟨σ, h1, h2⟩ := k4Check_some k4Check_round
      have hrc : t.s.mem t.s.rsi = some (wd rc j) := by
        rw [F.rsi, F.same H.sr H.dr (by omega), H.rc j (by omega), wd_eq (by omega)]
      have R := F.mid A (k := wd rc j) (q := true) (fun _ => hrc) fun _ i hi => by
        rw [F.rsi]
        exact F.off H.sr H.dr (by omega) i hi
      refine VFrom.bits (F.ctx H _) (by rw [k4len]; omega) R h1 fun u U => ?_
      have G := F.after U
      have B : K4At b (rounds4 (rc.take (j + 1)) a) u := by
        refine F.at U (fun i hi l hl x hx => ?_) h2
        unfold k4rho
        rw [symR_val hi hx, kept_false]
        unfold rounds4
        rw [rounds_snoc _ _ (by omega)]
      have u10 : u.s.r10 = BitVec.ofNat 64 j := (U.get .r10).trans h10
      generalize hb' : word s.rsi (j + 1) = p
      have e1 : adcv u.s.rsi 8#64 false = p := by rw [G.rsi, word_add8, hb']
      have e2 : adcv u.s.r10 1#64 false = BitVec.ofNat 64 (j + 1) := by
        rw [u10]
        unfold adcv
        rw [BitVec.ofNat_add]
        exact BitVec.add_zero _
      refine VFrom.next (i := .sc (.add (.reg .rsi) (.imm 8#64))) (pc' := 321)
        (t' := { u with s := { u.s.addFlags u.s.rsi 8#64 false with rsi := p } }) rfl (by rw [← e1]; rfl) ?_
      generalize hf1 : u.s.addFlags u.s.rsi 8#64 false = u1
      have w1 : ∃ c z sf o, u1 = { u.s with cf := c, zf := z, sf := sf, of := o } := ⟨_, _, _, _, hf1.symm⟩
      obtain ⟨c1, z1, f1, o1, rfl⟩ := w1
      clear hf1
      refine VFrom.next (i := .sc (.add (.reg .r10) (.imm 1#64))) (pc' := 322)
        (t' := { u with s := { (({ u.s with cf := c1, zf := z1, sf := f1, of := o1, rsi := p } : St).addFlags u.s.r10 1#64 false) with
          r10 := BitVec.ofNat 64 (j + 1) } }) rfl (by rw [← e2]; rfl) ?_
      generalize hf2 : (({ u.s with cf := c1, zf := z1, sf := f1, of := o1, rsi := p } : St).addFlags u.s.r10 1#64 false) = u2
      have w2 : ∃ c z sf o, u2 = { u.s with cf := c, zf := z, sf := sf, of := o, rsi := p } := ⟨_, _, _, _, hf2.symm⟩
      obtain ⟨c2, z2, f2, o2, rfl⟩ := w2
      clear hf2
      refine VFrom.next (i := .sc (.cmp (.reg .r10) (.imm 24#64))) (pc' := 323)
        (t' := { u with s := { u.s with
          cf := some (sbbc (BitVec.ofNat 64 (j + 1)) 24#64 false), zf := some (sbbv (BitVec.ofNat 64 (j + 1)) 24#64 false == 0#64)
          sf := some (sbbv (BitVec.ofNat 64 (j + 1)) 24#64 false).msb
          of := some (subo (BitVec.ofNat 64 (j + 1)) 24#64 (sbbv (BitVec.ofNat 64 (j + 1)) 24#64 false))
          rsi := p, r10 := BitVec.ofNat 64 (j + 1) } }) rfl rfl ?_
      have hz : (sbbv (BitVec.ofNat 64 (j + 1)) 24#64 false == 0#64) = decide (j + 1 = 24) := by
        have : ∀ j < 24, (sbbv (BitVec.ofNat 64 (j + 1)) 24#64 false == 0#64) = decide (j + 1 = 24) := by decide +kernel
        exact this j (by omega)
      rw [hz]
      generalize sbbc (BitVec.ofNat 64 (j + 1)) 24#64 false = c3
      generalize (sbbv (BitVec.ofNat 64 (j + 1)) 24#64 false).msb = f3
      generalize subo (BitVec.ofNat 64 (j + 1)) 24#64 (sbbv (BitVec.ofNat 64 (j + 1)) 24#64 false) = o3
      have G' : K4F s b (j + 1) { u with s := { u.s with
          cf := some c3, zf := some (decide (j + 1 = 24)), sf := some f3, of := some o3, rsi := p, r10 := BitVec.ofNat 64 (j + 1) } } := by
        refine ⟨fun r h1 h2 h3 h4 => ?_, G.rsp, G.r11, hb'.symm, G.wr, G.un⟩
        rw [← G.regs r h1 h2 h3 h4]
        cases r <;> first | rfl | exact absurd rfl h2 | exact absurd rfl h4
      have B' : K4At b (rounds4 (rc.take (j + 1)) a) { u with s := { u.s with
          cf := some c3, zf := some (decide (j + 1 = 24)), sf := some f3, of := some o3, rsi := p, r10 := BitVec.ofNat 64 (j + 1) } } :=
        ⟨B.reg, B.mem⟩
      by_cases hd : j + 1 = 24
      · refine VFrom.next (i := .sc (.jcc .nz 100)) (pc' := 324) (t' := _) rfl (by simp [VInstr.exec, Instr.exec, St.cond, hd]; rfl) ?_
        rw [hd] at G' B'
        rw [List.take_of_length_le (by omega)] at B'
        exact k4_out H G' B'
      · refine VFrom.next (i := .sc (.jcc .nz 100)) (pc' := 100) (t' := _) rfl (by simp [VInstr.exec, Instr.exec, St.cond, hd]; rfl) ?_
        have := ih (j + 1) _ (by omega) (by omega) G' B' rfl
        rw [decide_eq_false hd] at this
        exact this
  exact key 24 0 t rfl (by omega) F (by rw [List.take_zero]; exact A) h10

/-- The whole routine. -/
theorem keccak4_ok {t : VSt} (ht : t.s = s) (hb : b = (s.rsp &&& 0xffffffffffffffe0#64) - 768#64)
    (hD : ∀ j < 100, s.mem (word s.rdi j) = some ((a (j / 25)).getD (j % 25) 0#64)) :
    VRuns Asm.sha3Keccak4F1600Alt t (K4Done s b (rounds4 rc a)) := by
  show VFrom Asm.sha3Keccak4F1600Alt 0 t _
  obtain ⟨s', y⟩ := t
  obtain rfl : s = s' := ht.symm
  refine VFrom.next (i := .sc .nop) (pc' := 1) (t' := ⟨s, y⟩) rfl rfl ?_
  refine VFrom.next (i := .sc (.mov (.reg .r11) (.reg .rsp))) (pc' := 2) (t' := ⟨{ s with r11 := s.rsp }, y⟩) rfl rfl ?_
  refine VFrom.next (i := .sc (.and (.reg .rsp) (.imm 0xffffffffffffffe0#64))) (pc' := 3)
    (t' := ⟨{ (({ s with r11 := s.rsp } : St).logicFlags (s.rsp &&& 0xffffffffffffffe0#64)) with
      rsp := s.rsp &&& 0xffffffffffffffe0#64 }, y⟩) rfl rfl ?_
  generalize hf1 : ({ s with r11 := s.rsp } : St).logicFlags (s.rsp &&& 0xffffffffffffffe0#64) = u1
  have w1 : ∃ c z sf o, u1 = { s with cf := c, zf := z, sf := sf, of := o, r11 := s.rsp } := ⟨_, _, _, _, hf1.symm⟩
  obtain ⟨c1, z1, f1, o1, rfl⟩ := w1
  clear hf1
  have e1 : sbbv (s.rsp &&& 0xffffffffffffffe0#64) 768#64 false = b := by
    rw [hb]
    exact BitVec.sub_zero _
  generalize s.rsp &&& 0xffffffffffffffe0#64 = q at *
  refine VFrom.next (i := .sc (.sub (.reg .rsp) (.imm 768#64))) (pc' := 4)
    (t' := ⟨{ (({ s with cf := c1, zf := z1, sf := f1, of := o1, r11 := s.rsp, rsp := q } : St).subFlags q 768#64 false) with
      rsp := b }, y⟩) rfl (by rw [← e1]; rfl) ?_
  generalize hf2 : (({ s with cf := c1, zf := z1, sf := f1, of := o1, r11 := s.rsp, rsp := q } : St).subFlags q 768#64 false) = u2
  have w2 : ∃ c z sf o, u2 = { s with cf := c, zf := z, sf := sf, of := o, r11 := s.rsp, rsp := q } := ⟨_, _, _, _, hf2.symm⟩
  obtain ⟨c2, z2, f2, o2, rfl⟩ := w2
  clear hf2
  have F : K4F s b 0 ⟨{ s with cf := c2, zf := z2, sf := f2, of := o2, r11 := s.rsp, rsp := b }, y⟩ := by
    refine ⟨fun r h1 h2 h3 h4 => ?_, rfl, rfl, (word_zero _).symm, rfl, fun _ _ _ => rfl⟩
    cases r <;> first | rfl | exact absurd rfl h1 | exact absurd rfl h3
  show VFrom _ 4 ⟨{ s with cf := c2, zf := z2, sf := f2, of := o2, r11 := s.rsp, rsp := b }, y⟩ _
  generalize ht : (⟨{ s with cf := c2, zf := z2, sf := f2, of := o2, r11 := s.rsp, rsp := b }, y⟩ : VSt) = t at *
  have hm : t.s.mem = s.mem := by rw [← ht]
  obtain ⟨σ, h1, h2⟩ := k4Check_some k4Check_in
  have R : VRel (k4rho 0#64 a) t.s k4In t := by
    refine ⟨rfl, rfl, rfl, fun r => ?_, fun i hi v h => ?_, fun _ _ => rfl, fun h => (by cases h), fun h => (by cases h)⟩
    · unfold VS.get k4In
      rw [List.getD_eq_getElem?_getD, List.getElem?_replicate]
      split <;> exact L4.tops_is _ _
    · unfold VS.at' k4In at h
      rw [List.getD_eq_getElem?_getD] at h
      by_cases h96 : i < 96
      · rw [List.getElem?_append_left (by simpa using h96), List.getElem?_replicate] at h
        split at h <;> cases h
      · rw [List.getElem?_append_right (by simpa using h96), List.length_replicate, List.getElem?_map,
          List.getElem?_range (by omega)] at h
        simp only [Option.map_some, Option.getD_some, Option.some.injEq] at h
        subst h
        refine ⟨(a ((i - 96) / 25)).getD ((i - 96) % 25) 0#64, ?_, ?_⟩
        · rw [F.cadr, if_neg h96, hm]
          exact hD (i - 96) (by omega)
        · show _ = _
          rw [BE.var_val, k4rho_lt _ _ _ (by omega)]
  refine VFrom.bits (F.ctx H _) (by rw [k4len]; omega) R h1 fun u U => ?_
  have G := F.after U
  have A : K4At b a u := by
    refine F.at U (fun i hi l hl x hx => ?_) h2
    cases hx
    rw [BE.var_val, k4rho_lt _ _ _ hi]
  refine VFrom.next (i := .sc (.mov (.reg .r10) (.imm 0#64))) (pc' := 100) (t' := { u with s := { u.s with r10 := 0#64 } }) rfl rfl ?_
  refine k4_loop H ⟨fun r h1 h2 h3 h4 => ?_, G.rsp, G.r11, G.rsi, G.wr, G.un⟩ ⟨A.reg, A.mem⟩ rfl
  rw [← G.regs r h1 h2 h3 h4]
  cases r <;> first | rfl | exact absurd rfl h2

end

/-- The frame lies in the 99 words below the stack pointer. -/
theorem k4_frame {p : Word} (h : p.toNat % 8 = 0) :
    ∃ k ≤ 3, (p &&& 0xffffffffffffffe0#64) - 768#64 = word (p - BitVec.ofNat 64 (8 * 99)) k := by
  have e : p &&& 0xffffffffffffffe0#64 = (p >>> 5) <<< 5 := by
    apply BitVec.eq_of_getLsbD_eq
    intro i hi
    simp only [BitVec.getLsbD_and, BitVec.getLsbD_shiftLeft, BitVec.getLsbD_ushiftRight]
    interval_cases i <;> simp
  refine ⟨3 - p.toNat % 32 / 8, by omega, ?_⟩
  apply BitVec.eq_of_toNat_eq
  have := p.isLt
  rw [e]
  unfold word
  simp only [BitVec.toNat_sub, BitVec.toNat_add, BitVec.toNat_mul, BitVec.toNat_ofNat, BitVec.toNat_shiftLeft, BitVec.toNat_ushiftRight,
    Nat.shiftLeft_eq, Nat.shiftRight_eq_div_pow]
  omega

end Verif.X86
