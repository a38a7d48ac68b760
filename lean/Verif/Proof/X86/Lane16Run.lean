import Verif.Proof.X86.Lane16

/-! The executor of `Lane16`: states, steps, soundness. -/
namespace Verif.X86.L16
open Verif Verif.X86

/-- An array: at the register `r`, `n` blocks of 32 bytes, whether it may be written, whether its address is a multiple of 32. -/
structure Arr where
  r : Reg
  n : Nat
  wr : Bool
  al : Bool

def cellIn : List Arr → Reg → Nat → Option Nat
  | [], _, _ => none
  | A :: W, r, q => bif decide (A.r = r) then (bif Nat.blt q A.n then some q else none) else (cellIn W r q).map fun i => A.n + i

def adr (s : St) : List Arr → Nat → Nat → Word
  | [], _, _ => 0#64
  | A :: W, i, k => if i < A.n then word (s.get A.r) (4 * i + k) else adr s W (i - A.n) k

def wrAt : List Arr → Nat → Bool
  | [], _ => false
  | A :: W, i => bif Nat.blt i A.n then A.wr else wrAt W (i - A.n)

def alAt : List Arr → Nat → Bool
  | [], _ => false
  | A :: W, i => bif Nat.blt i A.n then A.al else alAt W (i - A.n)

def size : List Arr → Nat
  | [] => 0
  | A :: W => A.n + size W

theorem cellIn_ok {s : St} : ∀ {W : List Arr} {r : Reg} {q i : Nat}, cellIn W r q = some i →
    i < size W ∧ (∀ k, adr s W i k = word (s.get r) (4 * q + k)) ∧ ∃ A ∈ W, A.r = r ∧ alAt W i = A.al
  | [], _, _, _, h => by cases h
  | A :: W, r, q, i, h => by
    unfold cellIn at h
    by_cases e : A.r = r
    · rw [decide_eq_true e, cond_true] at h
      cases hq : Nat.blt q A.n
      · rw [hq] at h
        cases h
      · rw [hq, cond_true, Option.some.injEq] at h
        subst h
        have hlt : q < A.n := by simpa using hq
        refine ⟨by unfold size; omega, fun k => ?_, A, by simp, e, ?_⟩
        · unfold adr
          rw [if_pos hlt, e]
        · unfold alAt
          rw [hq, cond_true]
    · rw [decide_eq_false e, cond_false, Option.map_eq_some_iff] at h
      obtain ⟨j, hj, rfl⟩ := h
      obtain ⟨h1, h2, B, h3, h4, h5⟩ := cellIn_ok (s := s) hj
      refine ⟨by unfold size; omega, fun k => ?_, B, by simp [h3], h4, ?_⟩
      · unfold adr
        rw [if_neg (by omega), Nat.add_sub_cancel_left, h2]
      · unfold alAt
        rw [show Nat.blt (A.n + j) A.n = false from by
          rw [Bool.eq_false_iff]
          intro h
          have : A.n + j < A.n := by simpa using h
          omega, cond_false, Nat.add_sub_cancel_left, h5]

/-- The block of a memory operand. -/
def cellOf (W : List Arr) : Addr → Option Nat
  | ⟨some r, none, d⟩ => bif Nat.beq (d.toNat % 32) 0 && decide (r ≠ .rax) then cellIn W r (d.toNat / 32) else none
  | _ => none

/-- The block of a memory operand of one word, and the number of the word in it. -/
def wordOf (W : List Arr) : Addr → Option (Nat × Nat)
  | ⟨some r, none, d⟩ => bif Nat.beq (d.toNat % 8) 0 && decide (r ≠ .rax) then
      (cellIn W r (d.toNat / 32)).map fun i => (i, d.toNat % 32 / 8) else none
  | _ => none

/-- What is known: `rax`, the registers, the blocks. -/
structure WS where
  ax : Option Nat
  y : List (List E)
  c : List (Option (List E))

def WS.get (σ : WS) (r : Nat) : Option (List E) := σ.y[r]?
def WS.set (σ : WS) (r : Nat) (v : List E) : WS := ⟨σ.ax, σ.y.set r v, σ.c⟩
def WS.at' (σ : WS) (i : Nat) : Option (List E) := σ.c.getD i none
def WS.put (σ : WS) (i : Nat) (v : List E) : WS := ⟨σ.ax, σ.y, σ.c.set i (some v)⟩

def WS.val (W : List Arr) (σ : WS) : VOpd → Option (List E)
  | .y r => σ.get r
  | .m a => (cellOf W a).bind σ.at'

def alignedOf (W : List Arr) : VOpd → Bool
  | .y _ => true
  | .m a => match cellOf W a with
    | some i => alAt W i
    | none => false

def WS.bin (W : List Arr) (σ : WS) (d a : Nat) (b : VOpd) (f : List E → List E → List E) : Option WS :=
  (σ.get a).bind fun l => (σ.val W b).bind fun m => some (σ.set d (f l m))

def WS.un (σ : WS) (d a : Nat) (f : List E → List E) : Option WS := (σ.get a).bind fun l => some (σ.set d (f l))

def movdLane (x : Nat) : Nat → E
  | 0 => .c (x % 65536)
  | 1 => .c (x / 65536 % 65536)
  | _ => .c 0

def WS.step (F : E → E) (W : List Arr) (i : VInstr) (σ : WS) : Option WS :=
  match i with
  | .sc .nop => some σ
  | .sc (.mov (.reg .rax) (.imm x)) => some ⟨some x.toNat, σ.y, σ.c⟩
  | .vmovd d .rax => σ.ax.bind fun x => some (σ.set d (gen (movdLane x)))
  | .movd d .rax => σ.ax.bind fun x => σ.un d d fun l => gen fun i => bif Nat.blt i 8 then movdLane x i else g l i
  | .mov d x => (σ.val W x).bind fun v => some (σ.set d v)
  | .movA d x => bif alignedOf W x then (σ.val W x).bind fun v => some (σ.set d v) else none
  | .st m x => (cellOf W m).bind fun i => bif wrAt W i then (σ.get x).bind fun l => some (σ.put i l) else none
  | .stA m x => bif alignedOf W (.m m) then
      (cellOf W m).bind fun i => bif wrAt W i then (σ.get x).bind fun l => some (σ.put i l) else none else none
  | .paddw d a b => σ.bin W d a b (List.zipWith fun p q => F (.add p q))
  | .psubw d a b => σ.bin W d a b (List.zipWith fun p q => F (.sub p q))
  | .pmullw d a b => σ.bin W d a b (List.zipWith fun p q => F (.mul p q))
  | .pmulhw d a b => σ.bin W d a b (List.zipWith fun p q => F (.mulh p q))
  | .pand d a b => σ.bin W d a b (List.zipWith fun p q => F (.and p q))
  | .por d a b => σ.bin W d a b (List.zipWith fun p q => F (.or p q))
  | .psraw d a n => σ.un d a (List.map fun p => F (.sra n p))
  | .psrlw d a n => σ.un d a (List.map fun p => F (.srl n p))
  | .psllw d a n => σ.un d a (List.map fun p => F (.sll n p))
  | .pbroadcastd d a => σ.un d a fun l => gen fun i => g l (i % 2)
  | .psrlq d a n => bif Nat.beq n 32 then
      σ.un d a fun l => gen fun i => bif Nat.blt (i % 4) 2 then g l (i + 2) else .c 0 else none
  | .psrld d a n => bif Nat.beq n 16 then
      σ.un d a fun l => gen fun i => bif Nat.beq (i % 2) 0 then g l (i + 1) else .c 0 else none
  | .pslld d a n => bif Nat.beq n 16 then
      σ.un d a fun l => gen fun i => bif Nat.beq (i % 2) 0 then .c 0 else g l (i - 1) else none
  | .movsldup d b => (σ.val W b).bind fun l => some (σ.set d (gen fun i => g l (i - i % 4 + i % 2)))
  | .pblendw d a b n => σ.bin W d a b fun l m => gen fun i => bif n.testBit (i % 8) then g m i else g l i
  | .pblendd d a b n => σ.bin W d a b fun l m => gen fun i => bif n.testBit (i / 2) then g m i else g l i
  | .permq d b n => (σ.val W b).bind fun l => some (σ.set d (gen fun i => g l (4 * (n / 4 ^ (i / 4) % 4) + i % 4)))
  | .punpcklqdq d a b => σ.bin W d a b fun l m => gen fun i => bif Nat.blt (i % 8) 4 then g l i else g m (i - 4)
  | .punpckhqdq d a b => σ.bin W d a b fun l m => gen fun i => bif Nat.blt (i % 8) 4 then g l (i + 4) else g m i
  | .perm2i128 d a b n =>
    bif Nat.beq n 32 then σ.bin W d a b fun l m => gen fun i => bif Nat.blt i 8 then g l i else g m (i - 8) else
    bif Nat.beq n 49 then σ.bin W d a b fun l m => gen fun i => bif Nat.blt i 8 then g l (i + 8) else g m i else none
  | .pbroadcastq d m => (wordOf W m).bind fun p => (σ.at' p.1).bind fun l => some (σ.set d (gen fun i => g l (4 * p.2 + i % 4)))
  | .pshufb d a b => (σ.get a).bind fun l => (σ.val W b).bind fun m => bif allSome (maskAt m) 16 then
      some (σ.set d (gen fun i => g l ((maskAt m i).getD 0))) else none
  | .permd d a b => (σ.get a).bind fun l => (σ.val W b).bind fun m => bif allSome (permAt l) 16 then
      some (σ.set d (gen fun i => g m ((permAt l i).getD 0))) else none
  | _ => none

def WS.run (F : E → E) (W : List Arr) : List VInstr → WS → Option WS
  | [], σ => some σ
  | i :: l, σ => (σ.step F W i).bind fun σ' => WS.run F W l σ'

/-! ### It is sound -/

/-- What holds at the start. -/
structure Ctx (W : List Arr) (s : St) : Prop where
  own : ∀ i < size W, wrAt W i = true → ∀ k < 4, s.wr (adr s W i k) = true
  inj : ∀ i < size W, ∀ j < size W, ∀ k < 4, ∀ l < 4, wrAt W i = true → adr s W i k = adr s W j l → i = j ∧ k = l
  al : ∀ A ∈ W, A.al = true → (s.get A.r).toNat % 32 = 0

/-- What the symbolic state says. -/
structure Rel (W : List Arr) (ρ : Nat → BitVec 16) (s : St) (σ : WS) (t : VSt) : Prop where
  lc : σ.c.length = size W
  st : t.s = { s with mem := t.s.mem, rax := t.s.rax }
  ax : ∀ x, σ.ax = some x → t.s.rax = BitVec.ofNat 64 x
  y : ∀ r l, σ.get r = some l → Is ρ l (t.y r)
  c : ∀ i < size W, ∀ l, σ.at' i = some l → ∃ w : V4, (∀ k < 4, t.s.mem (adr s W i k) = some (w.lane k)) ∧ Is ρ l w
  un : ∀ a, (∀ i < size W, wrAt W i = true → ∀ k < 4, a ≠ adr s W i k) → t.s.mem a = s.mem a

section
variable {F : E → E} {W : List Arr} {ρ : Nat → BitVec 16} {s : St} {σ σ' : WS} {t : VSt}

theorem Rel.set (R : Rel W ρ s σ t) {d : Nat} {v : List E} {w : V4} (hv : Is ρ v w) : Rel W ρ s (σ.set d v) (t.set d w) := by
  refine ⟨R.lc, R.st, R.ax, fun r l h => ?_, R.c, R.un⟩
  show Is ρ l (if r = d then w else t.y r)
  unfold WS.get WS.set at h
  simp only [List.getElem?_set] at h
  by_cases e : d = r
  · subst e
    rw [if_pos rfl]
    rw [if_pos rfl] at h
    split at h
    · cases h
      exact hv
    · cases h
  · rw [if_neg fun e' => e e'.symm]
    rw [if_neg e] at h
    exact R.y r l h

theorem Rel.get (R : Rel W ρ s σ t) {r : Reg} (hr : r ≠ .rax) : t.s.get r = s.get r := by
  rw [R.st]
  cases r <;> first | rfl | exact absurd rfl hr

theorem Rel.cellOf (C : Ctx W s) (R : Rel W ρ s σ t) {m : Addr} {i : Nat} (h : cellOf W m = some i) :
    i < size W ∧ (∀ k, word (t.s.ea m) k = adr s W i k) ∧ (alAt W i = true → (t.s.ea m).toNat % 32 = 0) := by
  unfold L16.cellOf at h
  split at h
  · rename_i r d
    obtain ⟨h0, h⟩ := cond_some h
    rw [Bool.and_eq_true] at h0
    have hd := Nat.eq_of_beq_eq_true h0.1
    have hr : r ≠ .rax := of_decide_eq_true h0.2
    obtain ⟨h1, h2, A, hA, hAr, hal⟩ := cellIn_ok (s := s) h
    have ea : t.s.ea ⟨some r, none, d⟩ = s.get r + d := by
      unfold St.ea
      simp only [BitVec.add_zero]
      rw [R.get hr]
    rw [ea]
    refine ⟨h1, fun k => ?_, fun ha => ?_⟩
    · rw [h2, word_disp (by omega)]
      unfold word
      rw [BitVec.add_assoc]
      congr 1
      apply BitVec.eq_of_toNat_eq
      simp
      omega
    · have := C.al A hA (hal ▸ ha)
      rw [hAr] at this
      rw [BitVec.toNat_add]
      omega
  · cases h

theorem Rel.load (R : Rel W ρ s σ t) {i : Nat} (hi : i < size W) {a : Word} (ha : ∀ k, word a k = adr s W i k)
    {l : List E} (hl : σ.at' i = some l) : ∃ w, t.load a = some w ∧ Is ρ l w := by
  obtain ⟨w, hw, hi⟩ := R.c i hi l hl
  refine ⟨w, ?_, hi⟩
  have e0 : a = adr s W i 0 := by
    rw [← ha 0]
    exact (BitVec.add_zero a).symm
  have e1 : a + 8#64 = adr s W i 1 := ha 1
  have e2 : a + 16#64 = adr s W i 2 := ha 2
  have e3 : a + 24#64 = adr s W i 3 := ha 3
  unfold VSt.load St.load
  rw [e1, e2, e3, e0, hw 0 (by omega), hw 1 (by omega), hw 2 (by omega), hw 3 (by omega)]
  rfl

theorem Rel.val (C : Ctx W s) (R : Rel W ρ s σ t) {o : VOpd} {l : List E} (hl : σ.val W o = some l) :
    ∃ w, t.val o = some w ∧ Is ρ l w := by
  cases o with
  | y r => exact ⟨_, rfl, R.y r l hl⟩
  | m a =>
    obtain ⟨i, h1, h2⟩ := bind_some' hl
    obtain ⟨g1, g2, _⟩ := R.cellOf C h1
    exact R.load g1 g2 h2

theorem Rel.aligned (C : Ctx W s) (R : Rel W ρ s σ t) {o : VOpd} (h : alignedOf W o = true) : t.aligned o = true := by
  cases o with
  | y r => rfl
  | m a =>
    unfold alignedOf at h
    simp only at h
    split at h
    · rename_i i hi
      obtain ⟨_, _, g3⟩ := R.cellOf C hi
      unfold VSt.aligned
      simp only [beq_iff_eq]
      exact g3 h
    · cases h

theorem Rel.store (C : Ctx W s) (R : Rel W ρ s σ t) {i : Nat} (hi : i < size W) (hw : wrAt W i = true) {a : Word}
    (ha : ∀ k, word a k = adr s W i k) {l : List E} {w : V4} (hl : Is ρ l w) :
    ∃ t', t.store a w = some t' ∧ Rel W ρ s (σ.put i l) t' := by
  have e0 : a = adr s W i 0 := by
    rw [← ha 0]
    exact (BitVec.add_zero a).symm
  have e1 : a + 8#64 = adr s W i 1 := ha 1
  have e2 : a + 16#64 = adr s W i 2 := ha 2
  have e3 : a + 24#64 = adr s W i 3 := ha 3
  have hwr : ∀ k < 4, t.s.wr (adr s W i k) = true := fun k hk => by
    rw [R.st]
    exact C.own i hi hw k hk
  have o0 := hwr 0 (by omega)
  have o1 := hwr 1 (by omega)
  have o2 := hwr 2 (by omega)
  have o3 := hwr 3 (by omega)
  have nk : ∀ k < 4, ∀ l < 4, k ≠ l → adr s W i k ≠ adr s W i l := fun k hk l hl hn e => hn (C.inj i hi i hi k hk l hl hw e).2
  refine ⟨_, by
    unfold VSt.store St.store
    rw [e1, e2, e3, e0]
    simp only [o0, o1, o2, o3, if_true, bind, Option.bind_some]
    rfl, ?_⟩
  refine ⟨by simp [WS.put, R.lc], ?_, R.ax, R.y, ?_, ?_⟩
  · conv_lhs => rw [R.st]
  · intro j hj m hm
    by_cases e : j = i
    · subst e
      simp [WS.at', WS.put, List.getD_eq_getElem?_getD, R.lc, hj] at hm
      subst hm
      refine ⟨w, fun k hk => ?_, hl⟩
      show (if adr s W j k = adr s W j 3 then some w.w3 else if adr s W j k = adr s W j 2 then some w.w2 else
        if adr s W j k = adr s W j 1 then some w.w1 else if adr s W j k = adr s W j 0 then some w.w0 else _) = _
      have : k = 0 ∨ k = 1 ∨ k = 2 ∨ k = 3 := by omega
      rcases this with rfl | rfl | rfl | rfl
      · rw [if_neg (nk 0 (by omega) 3 (by omega) (by omega)), if_neg (nk 0 (by omega) 2 (by omega) (by omega)),
          if_neg (nk 0 (by omega) 1 (by omega) (by omega)), if_pos rfl]
        rfl
      · rw [if_neg (nk 1 (by omega) 3 (by omega) (by omega)), if_neg (nk 1 (by omega) 2 (by omega) (by omega)), if_pos rfl]
        rfl
      · rw [if_neg (nk 2 (by omega) 3 (by omega) (by omega)), if_pos rfl]
        rfl
      · rw [if_pos rfl]
        rfl
    · have e' : i ≠ j := fun h => e h.symm
      obtain ⟨u, h1, h2⟩ := R.c j hj m (by simpa [WS.at', WS.put, List.getD_eq_getElem?_getD, e'] using hm)
      refine ⟨u, fun k hk => ?_, h2⟩
      have ne : ∀ l < 4, adr s W j k ≠ adr s W i l := fun l hl e2 => e' (C.inj i hi j hj l hl k hk hw e2.symm).1
      show (if adr s W j k = adr s W i 3 then some w.w3 else if adr s W j k = adr s W i 2 then some w.w2 else
        if adr s W j k = adr s W i 1 then some w.w1 else if adr s W j k = adr s W i 0 then some w.w0 else _) = _
      rw [if_neg (ne 3 (by omega)), if_neg (ne 2 (by omega)), if_neg (ne 1 (by omega)), if_neg (ne 0 (by omega))]
      exact h1 k hk
  · intro b hb
    have ne : ∀ l < 4, b ≠ adr s W i l := hb i hi hw
    show (if b = adr s W i 3 then some w.w3 else if b = adr s W i 2 then some w.w2 else
      if b = adr s W i 1 then some w.w1 else if b = adr s W i 0 then some w.w0 else _) = _
    rw [if_neg (ne 3 (by omega)), if_neg (ne 2 (by omega)), if_neg (ne 1 (by omega)), if_neg (ne 0 (by omega))]
    exact R.un b hb

theorem Rel.bin (C : Ctx W s) (R : Rel W ρ s σ t) {d a : Nat} {b : VOpd} {f : List E → List E → List E}
    (h : σ.bin W d a b f = some σ') (k : V4 → V4 → V4) (hk : ∀ l m v, Is ρ l (t.y a) → Is ρ m v → Is ρ (f l m) (k (t.y a) v)) :
    ∃ v, t.val b = some v ∧ Rel W ρ s σ' (t.set d (k (t.y a) v)) := by
  obtain ⟨l, h1, h⟩ := bind_some' h
  obtain ⟨m, h2, h⟩ := bind_some' h
  cases h
  obtain ⟨v, g1, g2⟩ := R.val C h2
  exact ⟨v, g1, R.set (hk l m v (R.y a l h1) g2)⟩

theorem Rel.un' (R : Rel W ρ s σ t) {d a : Nat} {f : List E → List E}
    (h : σ.un d a f = some σ') (k : V4 → V4) (hk : ∀ l, Is ρ l (t.y a) → Is ρ (f l) (k (t.y a))) :
    Rel W ρ s σ' (t.set d (k (t.y a))) := by
  obtain ⟨l, h1, h⟩ := bind_some' h
  cases h
  exact R.set (hk l (R.y a l h1))

theorem blt_f {a b : Nat} (h : ¬ a < b) : Nat.blt a b = false := by
  rw [Bool.eq_false_iff]
  intro e
  exact h (by simpa using e)

theorem beq_f {a b : Nat} (h : ¬ a = b) : Nat.beq a b = false := by
  rw [Bool.eq_false_iff]
  intro e
  exact h (Nat.eq_of_beq_eq_true e)

theorem zero_ext (k : Nat) : (0#64).extractLsb' k 16 = 0#16 := by
  apply BitVec.eq_of_getLsbD_eq
  intro b hb
  simp

theorem movd_is {x : Nat} {w : Word} (hw : w = BitVec.ofNat 64 x) (u v : Word) :
    ∀ i < 8, (movdLane x i).val ρ = (⟨(w.setWidth 32).setWidth 64, 0#64, u, v⟩ : V4).h i := by
  intro i hi
  subst hw
  have key : ∀ j < 4, (movdLane x j).val ρ = (((BitVec.ofNat 64 x).setWidth 32).setWidth 64).extractLsb' (16 * j) 16 := by
    intro j hj
    apply BitVec.eq_of_toNat_eq
    interval_cases j <;> simp [movdLane, E.val, Nat.shiftRight_eq_div_pow] <;> omega
  by_cases h4 : i < 4
  · rw [key i h4]
    unfold V4.h V4.lane
    rw [show i / 4 = 0 by omega, show i % 4 = i by omega]
    rfl
  · have e : (movdLane x i) = .c 0 := by
      have : 4 ≤ i := by omega
      interval_cases i <;> rfl
    rw [e]
    unfold V4.h V4.lane
    rw [show i / 4 = 1 by omega]
    exact (zero_ext _).symm

theorem movd_hi {x i : Nat} {w : Word} (h8 : ¬ i < 8) (hi : i < 16) : (movdLane x i).val ρ = (⟨w, 0#64, 0#64, 0#64⟩ : V4).h i := by
  have e : movdLane x i = .c 0 := by
    have : 8 ≤ i := by omega
    interval_cases i <;> rfl
  have e' : (⟨w, 0#64, 0#64, 0#64⟩ : V4).lane (i / 4) = 0#64 := by
    have : i / 4 = 2 ∨ i / 4 = 3 := by omega
    rcases this with h | h <;> rw [h] <;> rfl
  rw [e]
  unfold V4.h
  rw [e']
  exact (zero_ext _).symm

theorem srlq32_h {l : List E} {v : V4} (hl : Is ρ l v) {i : Nat} (hi : i < 16) :
    (bif Nat.blt (i % 4) 2 then g l (i + 2) else .c 0).val ρ = (V4.map (fun x => x >>> 32) v).h i := by
  have lo : ∀ (x : Word) (j : Nat), j < 2 → (x >>> 32).extractLsb' (16 * j) 16 = x.extractLsb' (16 * (j + 2)) 16 := by
    intro x j hj
    apply BitVec.eq_of_getLsbD_eq
    intro b hb
    simp only [BitVec.getLsbD_extractLsb', BitVec.getLsbD_ushiftRight]
    congr 2
    omega
  have hi' : ∀ (x : Word) (j : Nat), 2 ≤ j → (x >>> 32).extractLsb' (16 * j) 16 = 0#16 := by
    intro x j hj
    apply BitVec.eq_of_getLsbD_eq
    intro b hb
    simp only [BitVec.getLsbD_extractLsb', BitVec.getLsbD_ushiftRight]
    rw [BitVec.getLsbD_of_ge _ _ (by omega)]
    simp
  have e : (V4.map (fun x => x >>> 32) v).h i = (v.lane (i / 4) >>> 32).extractLsb' (16 * (i % 4)) 16 := by
    interval_cases i <;> rfl
  rw [e]
  by_cases h2 : i % 4 < 2
  · rw [show Nat.blt (i % 4) 2 = true by simpa using h2, cond_true, hl.2 _ (by omega), lo _ _ h2]
    unfold V4.h
    rw [show (i + 2) / 4 = i / 4 by omega, show (i + 2) % 4 = i % 4 + 2 by omega]
  · rw [blt_f h2, cond_false, hi' _ _ (by omega)]
    rfl

theorem srld16_h {l : List E} {v : V4} (hl : Is ρ l v) {i : Nat} (hi : i < 16) :
    (bif Nat.beq (i % 2) 0 then g l (i + 1) else .c 0).val ρ = (V4.of32 fun i => v.d i >>> 16).h i := by
  rw [of32_h _ hi]
  by_cases h2 : i % 2 = 0
  · rw [show Nat.beq (i % 2) 0 = true by simpa using h2, cond_true, hl.2 _ (by omega), h_d _ (by omega),
      show (i + 1) / 2 = i / 2 by omega, h2, show (i + 1) % 2 = 1 by omega]
    apply BitVec.eq_of_getLsbD_eq
    intro b hb
    simp only [BitVec.getLsbD_extractLsb', BitVec.getLsbD_ushiftRight]
    congr 2
    omega
  · rw [beq_f h2, cond_false, show i % 2 = 1 by omega]
    apply BitVec.eq_of_getLsbD_eq
    intro b hb
    simp only [BitVec.getLsbD_extractLsb', BitVec.getLsbD_ushiftRight]
    rw [BitVec.getLsbD_of_ge (v.d _) _ (by omega)]
    simp [E.val]

theorem slld16_h {l : List E} {v : V4} (hl : Is ρ l v) {i : Nat} (hi : i < 16) :
    (bif Nat.beq (i % 2) 0 then .c 0 else g l (i - 1)).val ρ = (V4.of32 fun i => v.d i <<< 16).h i := by
  rw [of32_h _ hi]
  by_cases h2 : i % 2 = 0
  · rw [show Nat.beq (i % 2) 0 = true by simpa using h2, cond_true, h2]
    apply BitVec.eq_of_getLsbD_eq
    intro b hb
    have : b < 16 := hb
    simp [E.val, BitVec.getLsbD_extractLsb', BitVec.getLsbD_shiftLeft, this]
  · rw [beq_f h2, cond_false, show i % 2 = 1 by omega, hl.2 _ (by omega), h_d _ (by omega),
      show (i - 1) / 2 = i / 2 by omega, show (i - 1) % 2 = 0 by omega]
    apply BitVec.eq_of_getLsbD_eq
    intro b hb
    have h3 : 16 + b < 32 := by omega
    have h4 : ¬ 16 + b < 16 := by omega
    simp only [BitVec.getLsbD_extractLsb', BitVec.getLsbD_shiftLeft, Nat.mul_one, h3, h4, decide_true, decide_false, Bool.true_and,
      Bool.not_false, Nat.mul_zero, Nat.add_sub_cancel_left, Nat.zero_add]

theorem permq_h {l : List E} {v : V4} (n : Nat) (hl : Is ρ l v) {i : Nat} (hi : i < 16) :
    (g l (4 * (n / 4 ^ (i / 4) % 4) + i % 4)).val ρ =
      (⟨v.lane (n % 4), v.lane (n / 4 % 4), v.lane (n / 16 % 4), v.lane (n / 64 % 4)⟩ : V4).h i := by
  rw [hl.2 _ (by omega)]
  unfold V4.h
  rw [show (4 * (n / 4 ^ (i / 4) % 4) + i % 4) / 4 = n / 4 ^ (i / 4) % 4 by omega,
    show (4 * (n / 4 ^ (i / 4) % 4) + i % 4) % 4 = i % 4 by omega]
  congr 1
  have : i / 4 < 4 := by omega
  generalize i / 4 = q at this
  interval_cases q
  · rw [Nat.pow_zero, Nat.div_one]
    rfl
  · rfl
  · rfl
  · rfl

theorem Rel.wordOf (R : Rel W ρ s σ t) {m : Addr} {p : Nat × Nat} (h : wordOf W m = some p) {l : List E} (hl : σ.at' p.1 = some l) :
    ∃ w x, t.s.load (t.s.ea m) = some x ∧ Is ρ l w ∧ p.2 < 4 ∧ x = w.lane p.2 := by
  unfold L16.wordOf at h
  split at h
  · rename_i r d
    obtain ⟨h0, h⟩ := cond_some h
    rw [Bool.and_eq_true] at h0
    have hd := Nat.eq_of_beq_eq_true h0.1
    have hr : r ≠ .rax := of_decide_eq_true h0.2
    obtain ⟨i, h1, h2⟩ := Option.map_eq_some_iff.1 h
    subst h2
    obtain ⟨g1, g2, _⟩ := cellIn_ok (s := s) h1
    obtain ⟨w, k1, k2⟩ := R.c i g1 l hl
    have hlt : d.toNat % 32 / 8 < 4 := by omega
    refine ⟨w, _, ?_, k2, hlt, rfl⟩
    rw [← k1 _ hlt, g2]
    show t.s.mem _ = _
    congr 1
    unfold St.ea
    simp only [BitVec.add_zero]
    rw [R.get hr, word_disp hd]
    congr 1
    omega
  · cases h

theorem mask_is {l m : List E} {a v : V4} (hm : Is ρ m v) (hl : Is ρ l a) {i x : Nat} (hi : i < 16) (hx : maskAt m i = some x) :
    (g l ((some x).getD 0)).val ρ = (V4.shuf a v).h i := by
  unfold maskAt at hx
  split at hx
  · rename_i c hc
    obtain ⟨h0, hx⟩ := cond_some hx
    cases hx
    simp only [Bool.and_eq_true] at h0
    obtain ⟨⟨⟨h1, h2⟩, h3⟩, h4⟩ := h0
    have h1 : c < 4096 := by simpa using h1
    have h2 := Nat.eq_of_beq_eq_true h2
    have h3 := Nat.eq_of_beq_eq_true h3
    have h4 : c % 256 < 16 := by simpa using h4
    have hv : v.h i = BitVec.ofNat 16 c := by
      rw [← hm.2 i hi, E.con_eq hc]
      rfl
    have b0 : v.byte (2 * i) = BitVec.ofNat 8 (c % 256) := by
      have := byte_h v hi
      rw [hv] at this
      have e := congrArg (fun z => BitVec.extractLsb' 0 8 z) this
      simp only [BitVec.extractLsb'_append_eq_right] at e
      rw [e]
      apply BitVec.eq_of_toNat_eq
      simp
    have b1 : v.byte (2 * i + 1) = BitVec.ofNat 8 (c % 256 + 1) := by
      have := byte_h v hi
      rw [hv] at this
      have e := congrArg (fun z => BitVec.extractLsb' 8 8 z) this
      simp only [BitVec.extractLsb'_append_eq_left] at e
      rw [e]
      have hc : c = 257 * (c % 256) + 256 := by omega
      generalize c % 256 = z at hc h4
      subst hc
      interval_cases z <;> rfl
    have key : ∀ k y, y < 16 → v.byte k = BitVec.ofNat 8 y → V4.shufb a v k = a.byte (16 * (k / 16) + y) := by
      intro k y hy e
      unfold V4.shufb
      rw [e]
      have t7 : (BitVec.ofNat 8 y).getLsbD 7 = false := by
        interval_cases y <;> rfl
      rw [t7, show (BitVec.ofNat 8 y).toNat % 16 = y by simp; omega]
      rfl
    rw [shuf_h _ _ hi, key _ _ (by omega) b1, key _ _ h4 b0, Option.getD_some, hl.2 _ (by omega), ← byte_h _ (by omega)]
    congr 2 <;> omega
  · cases hx

theorem perm_is {l m : List E} {a v : V4} (hm : Is ρ m v) (hl : Is ρ l a) {i x : Nat} (hi : i < 16) (hx : permAt l i = some x) :
    (g m ((some x).getD 0)).val ρ = (V4.of32 fun i => v.d ((a.d i).toNat % 8)).h i := by
  unfold permAt at hx
  split at hx
  · rename_i c hc
    obtain ⟨h0, hx⟩ := cond_some hx
    cases hx
    have h1 : c < 8 := by simpa using h0
    have ha : (a.d (i / 2)).extractLsb' 0 16 = BitVec.ofNat 16 c := by
      have := hl.2 (2 * (i / 2)) (by omega)
      rw [E.con_eq hc, h_d _ (by omega), show 2 * (i / 2) / 2 = i / 2 by omega, show 2 * (i / 2) % 2 = 0 by omega] at this
      exact this.symm
    have hc8 : (a.d (i / 2)).toNat % 8 = c := by
      have := congrArg BitVec.toNat ha
      simp at this
      omega
    rw [of32_h _ hi, hc8, Option.getD_some, hm.2 _ (by omega), h_d _ (by omega), show (2 * c + i % 2) / 2 = c by omega,
      show (2 * c + i % 2) % 2 = i % 2 by omega]
  · cases hx

theorem Rel.step (hF : ∀ e : E, (F e).val ρ = e.val ρ) (C : Ctx W s) (R : Rel W ρ s σ t) {i : VInstr} (hx : σ.step F W i = some σ')
    (pc : Nat) : ∃ t', i.exec pc t = some (pc + 1, t') ∧ Rel W ρ s σ' t' := by
  have vec : ∀ {i : VInstr} {t' : VSt}, i.eff t = some t' → Rel W ρ s σ' t' → i.exec pc t = some (pc + 1, t') ∧ Rel W ρ s σ' t' := by
    intro i t' h1 h2
    refine ⟨?_, h2⟩
    cases i with
    | sc i => cases h1
    | _ => simp only [VInstr.exec, h1, Option.map_some]
  have lb : ∀ (f : E → E → E) (f' : BitVec 16 → BitVec 16 → BitVec 16) (h : ∀ a b, (f a b).val ρ = f' (a.val ρ) (b.val ρ))
      (u v : V4) (l m : List E), Is ρ l u → Is ρ m v → Is ρ (l.zipWith (fun p q => F (f p q)) m) (V4.of16 fun i => f' (u.h i) (v.h i)) := by
    intro f f' h u v l m hl hm
    exact zip_is (fun a b => (hF _).trans (h a b)) hl hm fun i hi => of16_h _ hi
  have lu : ∀ (f : E → E) (f' : BitVec 16 → BitVec 16) (h : ∀ a, (f a).val ρ = f' (a.val ρ))
      (u : V4) (l : List E), Is ρ l u → Is ρ (l.map fun p => F (f p)) (V4.of16 fun i => f' (u.h i)) := by
    intro f f' h u l hl
    exact map_is (fun a => (hF _).trans (h a)) hl fun i hi => of16_h _ hi
  unfold WS.step at hx
  split at hx
  · cases hx
    exact ⟨t, rfl, R⟩
  · cases hx
    rename_i x
    refine ⟨{ t with s := t.s.set .rax x }, rfl, R.lc, ?_, ?_, R.y, R.c, R.un⟩
    · show t.s.set .rax x = _
      conv_lhs => rw [R.st]
      rfl
    · intro y hy
      cases hy
      show x = _
      rw [BitVec.ofNat_toNat, BitVec.setWidth_eq]
  · obtain ⟨x, h1, h2⟩ := bind_some' hx
    cases h2
    refine ⟨_, vec rfl (R.set (gen_is fun i hi => ?_))⟩
    have hr : t.s.get .rax = BitVec.ofNat 64 x := R.ax x h1
    by_cases h8 : i < 8
    · exact movd_is hr 0#64 0#64 i h8
    · exact movd_hi h8 hi
  · rename_i d
    obtain ⟨x, h1, h2⟩ := bind_some' hx
    have hr : t.s.get .rax = BitVec.ofNat 64 x := R.ax x h1
    refine ⟨_, vec rfl (R.un' h2 (fun v => ⟨((t.s.get .rax).setWidth 32).setWidth 64, 0#64, v.w2, v.w3⟩) fun l hl => gen_is fun i hi => ?_)⟩
    by_cases h8 : i < 8
    · rw [show Nat.blt i 8 = true by simpa using h8, cond_true]
      exact movd_is hr _ _ i h8
    · rw [blt_f h8, cond_false, hl.2 i hi]
      have : 8 ≤ i := by omega
      interval_cases i <;> rfl
  · obtain ⟨v, h1, h2⟩ := bind_some' hx
    cases h2
    obtain ⟨w, g1, g2⟩ := R.val C h1
    exact ⟨_, vec (by simp only [VInstr.eff, g1, bind, Option.bind_some]; try rfl) (R.set g2)⟩
  · obtain ⟨ha, hx⟩ := cond_some hx
    obtain ⟨v, h1, h2⟩ := bind_some' hx
    cases h2
    obtain ⟨w, g1, g2⟩ := R.val C h1
    exact ⟨_, vec (by simp only [VInstr.eff, g1, bind, Option.bind_some, R.aligned C ha, if_true]; try rfl) (R.set g2)⟩
  · obtain ⟨i, h1, hx⟩ := bind_some' hx
    obtain ⟨hw, hx⟩ := cond_some hx
    obtain ⟨l, h2, h3⟩ := bind_some' hx
    cases h3
    obtain ⟨b1, b2, _⟩ := R.cellOf C h1
    obtain ⟨t', g1, g2⟩ := R.store C b1 hw b2 (R.y _ _ h2)
    exact ⟨t', vec g1 g2⟩
  · obtain ⟨ha, hx⟩ := cond_some hx
    obtain ⟨i, h1, hx⟩ := bind_some' hx
    obtain ⟨hw, hx⟩ := cond_some hx
    obtain ⟨l, h2, h3⟩ := bind_some' hx
    cases h3
    obtain ⟨b1, b2, _⟩ := R.cellOf C h1
    obtain ⟨t', g1, g2⟩ := R.store C b1 hw b2 (R.y _ _ h2)
    exact ⟨t', vec (by simp only [VInstr.eff, R.aligned C ha, if_true]; exact g1) g2⟩
  · obtain ⟨v, g1, g2⟩ := R.bin C hx (fun u v => V4.of16 fun i => u.h i + v.h i) fun l m v hl hm => lb .add (fun x y => x + y) (fun _ _ => rfl) _ _ l m hl hm
    exact ⟨_, vec (by simp only [VInstr.eff, g1, bind, Option.bind_some]; try rfl) g2⟩
  · obtain ⟨v, g1, g2⟩ := R.bin C hx (fun u v => V4.of16 fun i => u.h i - v.h i) fun l m v hl hm => lb .sub (fun x y => x - y) (fun _ _ => rfl) _ _ l m hl hm
    exact ⟨_, vec (by simp only [VInstr.eff, g1, bind, Option.bind_some]; try rfl) g2⟩
  · obtain ⟨v, g1, g2⟩ := R.bin C hx (fun u v => V4.of16 fun i => u.h i * v.h i) fun l m v hl hm => lb .mul (fun x y => x * y) (fun _ _ => rfl) _ _ l m hl hm
    exact ⟨_, vec (by simp only [VInstr.eff, g1, bind, Option.bind_some]; try rfl) g2⟩
  · obtain ⟨v, g1, g2⟩ := R.bin C hx (fun u v => V4.of16 fun i => mulhi16 (u.h i) (v.h i)) fun l m v hl hm => lb .mulh (fun x y => mulhi16 x y) (fun _ _ => rfl) _ _ l m hl hm
    exact ⟨_, vec (by simp only [VInstr.eff, g1, bind, Option.bind_some]; try rfl) g2⟩
  · obtain ⟨v, g1, g2⟩ := R.bin C hx (V4.map2 fun x y => x &&& y) fun l m v hl hm =>
      zip_is (fun a b => hF _) hl hm fun i hi => map2_h and_ext _ _ hi
    exact ⟨_, vec (by simp only [VInstr.eff, g1, bind, Option.bind_some]; try rfl) g2⟩
  · obtain ⟨v, g1, g2⟩ := R.bin C hx (V4.map2 fun x y => x ||| y) fun l m v hl hm =>
      zip_is (fun a b => hF _) hl hm fun i hi => map2_h or_ext _ _ hi
    exact ⟨_, vec (by simp only [VInstr.eff, g1, bind, Option.bind_some]; try rfl) g2⟩
  · rename_i d a n
    exact ⟨_, vec rfl (R.un' hx (fun u => V4.of16 fun i => (u.h i).sshiftRight n) fun l hl => lu (.sra n) (fun x => x.sshiftRight n) (fun _ => rfl) _ l hl)⟩
  · rename_i d a n
    exact ⟨_, vec rfl (R.un' hx (fun u => V4.of16 fun i => u.h i >>> n) fun l hl => lu (.srl n) (fun x => x >>> n) (fun _ => rfl) _ l hl)⟩
  · rename_i d a n
    exact ⟨_, vec rfl (R.un' hx (fun u => V4.of16 fun i => u.h i <<< n) fun l hl => lu (.sll n) (fun x => x <<< n) (fun _ => rfl) _ l hl)⟩
  · refine ⟨_, vec rfl (R.un' hx (fun v => V4.of32 fun _ => v.d 0) fun l hl => gen_is fun i hi => ?_)⟩
    rw [of32_h _ hi, hl.2 _ (by omega), h_d _ (by omega), show i % 2 / 2 = 0 by omega, Nat.mod_mod]
  · obtain ⟨hn, hx⟩ := cond_some hx
    obtain rfl := Nat.eq_of_beq_eq_true hn
    refine ⟨_, vec rfl (R.un' hx (V4.map fun x => x >>> 32) fun l hl => gen_is fun i hi => ?_)⟩
    exact srlq32_h hl hi
  · obtain ⟨hn, hx⟩ := cond_some hx
    obtain rfl := Nat.eq_of_beq_eq_true hn
    refine ⟨_, vec rfl (R.un' hx (fun v => V4.of32 fun i => v.d i >>> 16) fun l hl => gen_is fun i hi => ?_)⟩
    exact srld16_h hl hi
  · obtain ⟨hn, hx⟩ := cond_some hx
    obtain rfl := Nat.eq_of_beq_eq_true hn
    refine ⟨_, vec rfl (R.un' hx (fun v => V4.of32 fun i => v.d i <<< 16) fun l hl => gen_is fun i hi => ?_)⟩
    exact slld16_h hl hi
  · obtain ⟨l, h1, h2⟩ := bind_some' hx
    cases h2
    obtain ⟨w, g1, g2⟩ := R.val C h1
    refine ⟨_, vec (by simp only [VInstr.eff, g1, bind, Option.bind_some]; try rfl) (R.set (gen_is fun i hi => ?_))⟩
    rw [of32_h _ hi, g2.2 _ (by omega), h_d _ (by omega), show (i - i % 4 + i % 2) / 2 = i / 2 - i / 2 % 2 by omega,
      show (i - i % 4 + i % 2) % 2 = i % 2 by omega]
  · rename_i d a b n
    obtain ⟨v, g1, g2⟩ := R.bin C hx (fun u v => V4.of16 fun i => if n.testBit (i % 8) then v.h i else u.h i) fun l m v hl hm =>
      gen_is fun i hi => by
        rw [of16_h _ hi]
        cases n.testBit (i % 8)
        · exact hl.2 i hi
        · exact hm.2 i hi
    exact ⟨_, vec (by simp only [VInstr.eff, g1, bind, Option.bind_some]; try rfl) g2⟩
  · rename_i d a b n
    obtain ⟨v, g1, g2⟩ := R.bin C hx (fun u v => V4.of32 fun i => if n.testBit i then v.d i else u.d i) fun l m v hl hm =>
      gen_is fun i hi => by
        rw [of32_h _ hi]
        cases n.testBit (i / 2)
        · exact (hl.2 i hi).trans (h_d _ hi)
        · exact (hm.2 i hi).trans (h_d _ hi)
    exact ⟨_, vec (by simp only [VInstr.eff, g1, bind, Option.bind_some]; try rfl) g2⟩
  · rename_i d b n
    obtain ⟨l, h1, h2⟩ := bind_some' hx
    cases h2
    obtain ⟨w, g1, g2⟩ := R.val C h1
    refine ⟨_, vec (by simp only [VInstr.eff, g1, bind, Option.bind_some]; try rfl) (R.set (gen_is fun i hi => ?_))⟩
    exact permq_h n g2 hi
  · obtain ⟨v, g1, g2⟩ := R.bin C hx (fun u v => ⟨u.w0, v.w0, u.w2, v.w2⟩) fun l m v hl hm => gen_is fun i hi => by
      have e1 := hl.2
      have e2 := hm.2
      interval_cases i <;> first | exact e1 _ (by omega) | exact e2 _ (by omega)
    exact ⟨_, vec (by simp only [VInstr.eff, g1, bind, Option.bind_some]; try rfl) g2⟩
  · obtain ⟨v, g1, g2⟩ := R.bin C hx (fun u v => ⟨u.w1, v.w1, u.w3, v.w3⟩) fun l m v hl hm => gen_is fun i hi => by
      have e1 := hl.2
      have e2 := hm.2
      interval_cases i <;> first | exact e1 _ (by omega) | exact e2 _ (by omega)
    exact ⟨_, vec (by simp only [VInstr.eff, g1, bind, Option.bind_some]; try rfl) g2⟩
  · rename_i d a b n
    cases h32 : Nat.beq n 32
    · rw [h32, cond_false] at hx
      obtain ⟨hn, hx⟩ := cond_some hx
      obtain rfl := Nat.eq_of_beq_eq_true hn
      obtain ⟨v, g1, g2⟩ := R.bin C hx (fun u v => ⟨u.w2, u.w3, v.w2, v.w3⟩) fun l m v hl hm => gen_is fun i hi => by
        have e1 := hl.2
        have e2 := hm.2
        interval_cases i <;> first | exact e1 _ (by omega) | exact e2 _ (by omega)
      exact ⟨_, vec (by simp only [VInstr.eff, g1, bind, Option.bind_some]; try rfl) g2⟩
    · rw [h32, cond_true] at hx
      obtain rfl := Nat.eq_of_beq_eq_true h32
      obtain ⟨v, g1, g2⟩ := R.bin C hx (fun u v => ⟨u.w0, u.w1, v.w0, v.w1⟩) fun l m v hl hm => gen_is fun i hi => by
        have e1 := hl.2
        have e2 := hm.2
        interval_cases i <;> first | exact e1 _ (by omega) | exact e2 _ (by omega)
      exact ⟨_, vec (by simp only [VInstr.eff, g1, bind, Option.bind_some]; try rfl) g2⟩
  · obtain ⟨p, h1, hx⟩ := bind_some' hx
    obtain ⟨l, h2, h3⟩ := bind_some' hx
    cases h3
    obtain ⟨w, x, g1, k, g2, g3⟩ := R.wordOf h1 h2
    refine ⟨_, vec (by simp only [VInstr.eff, g1, bind, Option.bind_some]; try rfl) (R.set (gen_is fun i hi => ?_))⟩
    rw [g3, k.2 _ (by omega)]
    have e : ∀ x : Word, (⟨x, x, x, x⟩ : V4).h i = x.extractLsb' (16 * (i % 4)) 16 := by
      intro x
      interval_cases i <;> rfl
    rw [e]
    unfold V4.h
    rw [show (4 * p.2 + i % 4) / 4 = p.2 by omega, show (4 * p.2 + i % 4) % 4 = i % 4 by omega]
  · rename_i d a b
    obtain ⟨l, h1, hx⟩ := bind_some' hx
    obtain ⟨m, h2, hx⟩ := bind_some' hx
    obtain ⟨ha, hx⟩ := cond_some hx
    cases hx
    obtain ⟨v, g1, g2⟩ := R.val C h2
    refine ⟨t.set d (V4.shuf (t.y a) v), vec (by simp only [VInstr.eff, g1, bind, Option.bind_some]; try rfl) (R.set (gen_is fun i hi => ?_))⟩
    obtain ⟨x, hx⟩ := allSome_get ha hi
    rw [hx]
    exact mask_is g2 (R.y a l h1) hi hx
  · rename_i d a b
    obtain ⟨l, h1, hx⟩ := bind_some' hx
    obtain ⟨m, h2, hx⟩ := bind_some' hx
    obtain ⟨ha, hx⟩ := cond_some hx
    cases hx
    obtain ⟨v, g1, g2⟩ := R.val C h2
    refine ⟨_, vec (by simp only [VInstr.eff, g1, bind, Option.bind_some]; try rfl) (R.set (gen_is fun i hi => ?_))⟩
    obtain ⟨x, hx⟩ := allSome_get ha hi
    rw [hx]
    exact perm_is g2 (R.y a l h1) hi hx
  · cases hx

/-- The program ends, and what the executor says holds. -/
theorem Rel.run (hF : ∀ e : E, (F e).val ρ = e.val ρ) (C : Ctx W s) {P : VProg} : ∀ (n pc : Nat) {σ : WS} {t : VSt}, pc + n = P.length →
    Rel W ρ s σ t → (WS.run F W (P.drop pc) σ = some σ') → VFrom P pc t (Rel W ρ s σ')
  | 0, pc, σ, t, hn, R, h => by
    rw [List.drop_eq_nil_of_le (by omega)] at h
    cases h
    exact VFrom.halt (by omega) R
  | n + 1, pc, σ, t, hn, R, h => by
    have hl : pc < P.length := by omega
    rw [List.drop_eq_getElem_cons hl] at h
    obtain ⟨σ1, h1, h2⟩ := bind_some' h
    obtain ⟨t1, g1, R1⟩ := R.step hF C h1 pc
    exact VFrom.next (List.getElem?_eq_getElem hl) g1 (Rel.run hF C n (pc + 1) (by omega) R1 h2)

theorem Rel.runs (hF : ∀ e : E, (F e).val ρ = e.val ρ) (C : Ctx W s) {P : VProg} (R : Rel W ρ s σ t) (h : WS.run F W P σ = some σ') :
    VRuns P t (Rel W ρ s σ') := Rel.run hF C P.length 0 (by omega) R (by rw [List.drop_zero]; exact h)

end

end Verif.X86.L16
