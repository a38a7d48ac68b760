import Verif.Model.X86Vec
import Verif.Proof.X86.Bits
import Mathlib.Tactic.IntervalCases

/-!
A symbolic executor for straight-line vector code, proved sound: bitwise operations, rotations and moves on the words of four
families of variables, with a block of 96 words at `rsp` and one of 100 at `rdi`.
-/
namespace Verif.X86
open Verif

/-! ### Running vector code -/

/-- From position `pc` the program ends in a state of which `Q` holds. -/
def VFrom (P : VProg) (pc : Nat) (t : VSt) (Q : VSt → Prop) : Prop := ∃ f t', vrun P f pc t = some t' ∧ Q t'

theorem VFrom.halt {P : VProg} {pc : Nat} {t : VSt} {Q : VSt → Prop} (h : pc = P.length) (hq : Q t) : VFrom P pc t Q :=
  ⟨1, t, by simp only [vrun, h, if_true], hq⟩

theorem VFrom.next {P : VProg} {pc : Nat} {t : VSt} {Q : VSt → Prop} {i : VInstr} (hi : P[pc]? = some i) {pc' : Nat} {t' : VSt}
    (he : i.exec pc t = some (pc', t')) (h : VFrom P pc' t' Q) : VFrom P pc t Q := by
  obtain ⟨f, u, hr, hq⟩ := h
  refine ⟨f + 1, u, ?_, hq⟩
  have hl : pc ≠ P.length := by
    intro hc
    rw [hc, List.getElem?_eq_none (Nat.le_refl _)] at hi
    cases hi
  simp only [vrun, hl, if_false, hi, he]
  exact hr

/-! ### Rotation of bytes -/

/-- The word of the bytes of `w`, moved up by one, cyclically. -/
theorem bytes_rot8 (w : Word) : ofBytes8 (fun i => w.extractLsb' (8 * ((i + 7) % 8)) 8) = w.rotateLeft 8 := by
  apply BitVec.eq_of_getLsbD_eq
  intro i hi
  rw [rot_bit _ _ hi]
  unfold ofBytes8
  simp only [BitVec.getLsbD_append, BitVec.getLsbD_extractLsb']
  interval_cases i <;> rfl

theorem bytes_rot56 (w : Word) : ofBytes8 (fun i => w.extractLsb' (8 * ((i + 1) % 8)) 8) = w.rotateLeft 56 := by
  apply BitVec.eq_of_getLsbD_eq
  intro i hi
  rw [rot_bit _ _ hi]
  unfold ofBytes8
  simp only [BitVec.getLsbD_append, BitVec.getLsbD_extractLsb']
  interval_cases i <;> rfl

/-- The value of `vpshufb`. -/
def V4.shuf (a m : V4) : V4 :=
  ⟨ofBytes8 (V4.shufb a m), ofBytes8 fun i => V4.shufb a m (8 + i), ofBytes8 fun i => V4.shufb a m (16 + i),
    ofBytes8 fun i => V4.shufb a m (24 + i)⟩

theorem shuf_rho8 (a : V4) : V4.shuf a rho8 = V4.map (fun w => w.rotateLeft 8) a := by
  have e : ∀ k < 32, (rho8.byte k).getLsbD 7 = false ∧ 16 * (k / 16) + (rho8.byte k).toNat % 16 = 8 * (k / 8) + (k % 8 + 7) % 8 := by
    decide +kernel
  have f : ∀ k < 32, V4.shufb a rho8 k = (a.lane (k / 8)).extractLsb' (8 * ((k % 8 + 7) % 8)) 8 := by
    intro k hk
    unfold V4.shufb V4.byte at *
    obtain ⟨h1, h2⟩ := e k hk
    rw [h1, h2, show (8 * (k / 8) + (k % 8 + 7) % 8) / 8 = k / 8 by omega,
      show (8 * (k / 8) + (k % 8 + 7) % 8) % 8 = (k % 8 + 7) % 8 by omega]
    rfl
  unfold V4.shuf V4.map
  simp only [← bytes_rot8]
  unfold ofBytes8
  simp only [f _ (show 0 < 32 by omega), f _ (show 1 < 32 by omega), f _ (show 2 < 32 by omega), f _ (show 3 < 32 by omega),
    f _ (show 4 < 32 by omega), f _ (show 5 < 32 by omega), f _ (show 6 < 32 by omega), f _ (show 7 < 32 by omega),
    Nat.reduceAdd, f _ (show 8 < 32 by omega), f _ (show 9 < 32 by omega), f _ (show 10 < 32 by omega), f _ (show 11 < 32 by omega),
    f _ (show 12 < 32 by omega), f _ (show 13 < 32 by omega), f _ (show 14 < 32 by omega), f _ (show 15 < 32 by omega),
    f _ (show 16 < 32 by omega), f _ (show 17 < 32 by omega), f _ (show 18 < 32 by omega), f _ (show 19 < 32 by omega),
    f _ (show 20 < 32 by omega), f _ (show 21 < 32 by omega), f _ (show 22 < 32 by omega), f _ (show 23 < 32 by omega),
    f _ (show 24 < 32 by omega), f _ (show 25 < 32 by omega), f _ (show 26 < 32 by omega), f _ (show 27 < 32 by omega),
    f _ (show 28 < 32 by omega), f _ (show 29 < 32 by omega), f _ (show 30 < 32 by omega), f _ (show 31 < 32 by omega)]
  rfl

theorem shuf_rho56 (a : V4) : V4.shuf a rho56 = V4.map (fun w => w.rotateLeft 56) a := by
  have e : ∀ k < 32, (rho56.byte k).getLsbD 7 = false ∧ 16 * (k / 16) + (rho56.byte k).toNat % 16 = 8 * (k / 8) + (k % 8 + 1) % 8 := by
    decide +kernel
  have f : ∀ k < 32, V4.shufb a rho56 k = (a.lane (k / 8)).extractLsb' (8 * ((k % 8 + 1) % 8)) 8 := by
    intro k hk
    unfold V4.shufb V4.byte at *
    obtain ⟨h1, h2⟩ := e k hk
    rw [h1, h2, show (8 * (k / 8) + (k % 8 + 1) % 8) / 8 = k / 8 by omega,
      show (8 * (k / 8) + (k % 8 + 1) % 8) % 8 = (k % 8 + 1) % 8 by omega]
    rfl
  unfold V4.shuf V4.map
  simp only [← bytes_rot56]
  unfold ofBytes8
  simp only [f _ (show 0 < 32 by omega), f _ (show 1 < 32 by omega), f _ (show 2 < 32 by omega), f _ (show 3 < 32 by omega),
    f _ (show 4 < 32 by omega), f _ (show 5 < 32 by omega), f _ (show 6 < 32 by omega), f _ (show 7 < 32 by omega),
    Nat.reduceAdd, f _ (show 8 < 32 by omega), f _ (show 9 < 32 by omega), f _ (show 10 < 32 by omega), f _ (show 11 < 32 by omega),
    f _ (show 12 < 32 by omega), f _ (show 13 < 32 by omega), f _ (show 14 < 32 by omega), f _ (show 15 < 32 by omega),
    f _ (show 16 < 32 by omega), f _ (show 17 < 32 by omega), f _ (show 18 < 32 by omega), f _ (show 19 < 32 by omega),
    f _ (show 20 < 32 by omega), f _ (show 21 < 32 by omega), f _ (show 22 < 32 by omega), f _ (show 23 < 32 by omega),
    f _ (show 24 < 32 by omega), f _ (show 25 < 32 by omega), f _ (show 26 < 32 by omega), f _ (show 27 < 32 by omega),
    f _ (show 28 < 32 by omega), f _ (show 29 < 32 by omega), f _ (show 30 < 32 by omega), f _ (show 31 < 32 by omega)]
  rfl

/-! ### Values -/

/-- What is known of a word: a value in the variables of family `l`, such a value shifted, nothing. -/
inductive LV where
  | e (l : Nat) (x : BE)
  | shl (l : Nat) (x : BE) (n : Nat)
  | shr (l : Nat) (x : BE) (n : Nat)
  | top

def LV.Is (ρ : Nat → Nat → Word) : LV → Word → Prop
  | .e l x, w => w = x.val (ρ l)
  | .shl l x n, w => w = x.val (ρ l) <<< n
  | .shr l x n, w => w = x.val (ρ l) >>> n
  | .top, _ => True

/-- A value that may be missing. -/
def LV.of (l : Nat) : Option BE → LV
  | some x => .e l x
  | none => .top

def LV.xor : LV → LV → LV
  | .e l x, .e k y => bif Nat.beq l k then .of l (x.xor y) else .top
  | _, _ => .top

def LV.andn : LV → LV → LV
  | .e l x, .e k y => bif Nat.beq l k then .of l (x.not.and y) else .top
  | _, _ => .top

def LV.or : LV → LV → LV
  | .shl l x n, .shr k y m => bif Nat.beq l k && Nat.beq (n + m) 64 && Nat.blt n 64 && x.same y then .of l (x.rot n) else .top
  | .shr k y m, .shl l x n => bif Nat.beq l k && Nat.beq (n + m) 64 && Nat.blt n 64 && x.same y then .of l (x.rot n) else .top
  | _, _ => .top

def LV.sll (n : Nat) : LV → LV
  | .e l x => .shl l x n
  | _ => .top

def LV.srl (n : Nat) : LV → LV
  | .e l x => .shr l x n
  | _ => .top

def LV.rot (n : Nat) : LV → LV
  | .e l x => .of l (x.rot n)
  | _ => .top

section
variable {ρ : Nat → Nat → Word}

theorem LV.of_is {l : Nat} {o : Option BE} {w : Word} (h : ∀ x, o = some x → w = x.val (ρ l)) : (LV.of l o).Is ρ w := by
  cases o with
  | none => trivial
  | some x => exact h x rfl

theorem LV.xor_is {a b : LV} {u v : Word} (ha : a.Is ρ u) (hb : b.Is ρ v) : (a.xor b).Is ρ (u ^^^ v) := by
  unfold LV.xor
  split
  · rename_i l x k y
    cases h : Nat.beq l k
    · trivial
    · obtain rfl := Nat.eq_of_beq_eq_true h
      refine LV.of_is fun z hz => ?_
      rw [BE.xor_val hz, show u = _ from ha, show v = _ from hb]
  · trivial

theorem LV.andn_is {a b : LV} {u v : Word} (ha : a.Is ρ u) (hb : b.Is ρ v) : (a.andn b).Is ρ (~~~ u &&& v) := by
  unfold LV.andn
  split
  · rename_i l x k y
    cases h : Nat.beq l k
    · trivial
    · obtain rfl := Nat.eq_of_beq_eq_true h
      refine LV.of_is fun z hz => ?_
      rw [BE.and_val hz, BE.not_val, show u = _ from ha, show v = _ from hb]
  · trivial

theorem shl_or_shr {w : Word} {n m : Nat} (h : n + m = 64) (hn : n < 64) : w <<< n ||| w >>> m = w.rotateLeft n := by
  rw [BitVec.rotateLeft_def, Nat.mod_eq_of_lt hn, show 64 - n = m by omega]

theorem LV.or_is {a b : LV} {u v : Word} (ha : a.Is ρ u) (hb : b.Is ρ v) : (a.or b).Is ρ (u ||| v) := by
  unfold LV.or
  split
  · rename_i l x n k y m
    cases h : (Nat.beq l k && Nat.beq (n + m) 64 && Nat.blt n 64 && x.same y)
    · trivial
    · simp only [Bool.and_eq_true] at h
      obtain ⟨⟨⟨h1, h2⟩, h3⟩, h4⟩ := h
      obtain rfl := Nat.eq_of_beq_eq_true h1
      refine LV.of_is fun z hz => ?_
      rw [BE.rot_val hz, show u = _ from ha, show v = _ from hb, ← BE.same_val h4]
      exact shl_or_shr (Nat.eq_of_beq_eq_true h2) (by simpa using h3)
  · rename_i k y m l x n
    cases h : (Nat.beq l k && Nat.beq (n + m) 64 && Nat.blt n 64 && x.same y)
    · trivial
    · simp only [Bool.and_eq_true] at h
      obtain ⟨⟨⟨h1, h2⟩, h3⟩, h4⟩ := h
      obtain rfl := Nat.eq_of_beq_eq_true h1
      refine LV.of_is fun z hz => ?_
      rw [BE.rot_val hz, show u = _ from ha, show v = _ from hb, ← BE.same_val h4, BitVec.or_comm]
      exact shl_or_shr (Nat.eq_of_beq_eq_true h2) (by simpa using h3)
  · trivial

theorem LV.sll_is {a : LV} {u : Word} (n : Nat) (ha : a.Is ρ u) : (a.sll n).Is ρ (u <<< n) := by
  unfold LV.sll
  split
  · show _ = _
    rw [show u = _ from ha]
  · trivial

theorem LV.srl_is {a : LV} {u : Word} (n : Nat) (ha : a.Is ρ u) : (a.srl n).Is ρ (u >>> n) := by
  unfold LV.srl
  split
  · show _ = _
    rw [show u = _ from ha]
  · trivial

theorem LV.rot_is {a : LV} {u : Word} (n : Nat) (ha : a.Is ρ u) : (a.rot n).Is ρ (u.rotateLeft n) := by
  unfold LV.rot
  split
  · refine LV.of_is fun z hz => ?_
    rw [BE.rot_val hz, show u = _ from ha]
  · trivial

end

/-- Four of them. -/
structure L4 where
  w0 : LV
  w1 : LV
  w2 : LV
  w3 : LV

def L4.map (f : LV → LV) (a : L4) : L4 := ⟨f a.w0, f a.w1, f a.w2, f a.w3⟩
def L4.map2 (f : LV → LV → LV) (a b : L4) : L4 := ⟨f a.w0 b.w0, f a.w1 b.w1, f a.w2 b.w2, f a.w3 b.w3⟩

/-- What they say. -/
structure L4.Is (ρ : Nat → Nat → Word) (a : L4) (v : V4) : Prop where
  w0 : a.w0.Is ρ v.w0
  w1 : a.w1.Is ρ v.w1
  w2 : a.w2.Is ρ v.w2
  w3 : a.w3.Is ρ v.w3

def L4.tops : L4 := ⟨.top, .top, .top, .top⟩

theorem L4.map_is {ρ : Nat → Nat → Word} {f : LV → LV} {g : Word → Word} (h : ∀ a u, a.Is ρ u → (f a).Is ρ (g u)) {a : L4} {v : V4}
    (ha : a.Is ρ v) : (a.map f).Is ρ (v.map g) := ⟨h _ _ ha.w0, h _ _ ha.w1, h _ _ ha.w2, h _ _ ha.w3⟩

theorem L4.map2_is {ρ : Nat → Nat → Word} {f : LV → LV → LV} {g : Word → Word → Word}
    (h : ∀ a b u v, a.Is ρ u → b.Is ρ v → (f a b).Is ρ (g u v)) {a b : L4} {v w : V4} (ha : a.Is ρ v) (hb : b.Is ρ w) :
    (a.map2 f b).Is ρ (v.map2 g w) :=
  ⟨h _ _ _ _ ha.w0 hb.w0, h _ _ _ _ ha.w1 hb.w1, h _ _ _ _ ha.w2 hb.w2, h _ _ _ _ ha.w3 hb.w3⟩

def L4.pick (a b : L4) : Nat → LV × LV
  | 0 => (a.w0, a.w1)
  | 1 => (a.w2, a.w3)
  | 2 => (b.w0, b.w1)
  | 3 => (b.w2, b.w3)
  | _ => (.top, .top)

theorem L4.pick_is {ρ : Nat → Nat → Word} {a b : L4} {u v : V4} (ha : a.Is ρ u) (hb : b.Is ρ v) (n : Nat) :
    (a.pick b n).1.Is ρ (V4.pick u v n).1 ∧ (a.pick b n).2.Is ρ (V4.pick u v n).2 := by
  unfold L4.pick
  split
  · exact ⟨ha.w0, ha.w1⟩
  · exact ⟨ha.w2, ha.w3⟩
  · exact ⟨hb.w0, hb.w1⟩
  · exact ⟨hb.w2, hb.w3⟩
  · exact ⟨trivial, trivial⟩

/-! ### The executor -/

/-- The sixteen registers, and the cells: 96 words at `rsp`, then 100 at `rdi`. -/
structure VS where
  /-- whether `rsi` points to a round constant -/
  k : Bool
  y : List L4
  c : List (Option LV)

def VS.get (σ : VS) (r : Nat) : L4 := σ.y.getD r L4.tops
def VS.set (σ : VS) (r : Nat) (v : L4) : VS := ⟨σ.k, σ.y.set r v, σ.c⟩

/-- The first cell of an operand of `n` words in memory. -/
def cell (n : Nat) : Addr → Option Nat
  | ⟨some .rsp, none, d⟩ => bif Nat.beq (d.toNat % 8) 0 && Nat.ble (d.toNat / 8 + n) 96 then some (d.toNat / 8) else none
  | ⟨some .rdi, none, d⟩ => bif Nat.beq (d.toNat % 8) 0 && Nat.ble (d.toNat / 8 + n) 100 then some (96 + d.toNat / 8) else none
  | _ => none

def VS.at' (σ : VS) (i : Nat) : Option LV := σ.c.getD i none

def VS.load4 (σ : VS) (i : Nat) : Option L4 :=
  match σ.at' i, σ.at' (i + 1), σ.at' (i + 2), σ.at' (i + 3) with
  | some a, some b, some c, some d => some ⟨a, b, c, d⟩
  | _, _, _, _ => none

def VS.put (σ : VS) (i : Nat) (v : LV) : VS := ⟨σ.k, σ.y, σ.c.set i (some v)⟩

def VS.val (σ : VS) : VOpd → Option L4
  | .y r => some (σ.get r)
  | .m a => (cell 4 a).bind σ.load4

/-- The rotation that a mask stands for. -/
def maskRot : VOpd → Option Nat
  | .m ⟨some .rdx, none, d⟩ => bif Nat.beq d.toNat 0 then some 8 else none
  | .m ⟨some .rcx, none, d⟩ => bif Nat.beq d.toNat 0 then some 56 else none
  | _ => none

/-- The round constant, in each family. -/
def bcast : Addr → Option L4
  | ⟨some .rsi, none, d⟩ =>
    bif Nat.beq d.toNat 0 then some ⟨.e 0 (.var 25), .e 1 (.var 25), .e 2 (.var 25), .e 3 (.var 25)⟩ else none
  | _ => none

def VS.step (i : VInstr) (σ : VS) : Option VS :=
  match i with
  | .mov d x => (σ.val x).bind fun v => some (σ.set d v)
  | .st m x => (cell 4 m).bind fun i =>
    some ((((σ.put i (σ.get x).w0).put (i + 1) (σ.get x).w1).put (i + 2) (σ.get x).w2).put (i + 3) (σ.get x).w3)
  | .pxor d a b => (σ.val b).bind fun v => some (σ.set d ((σ.get a).map2 LV.xor v))
  | .por d a b => (σ.val b).bind fun v => some (σ.set d ((σ.get a).map2 LV.or v))
  | .pandn d a b => (σ.val b).bind fun v => some (σ.set d ((σ.get a).map2 LV.andn v))
  | .psrlq d a n => some (σ.set d ((σ.get a).map (LV.srl n)))
  | .psllq d a n => some (σ.set d ((σ.get a).map (LV.sll n)))
  | .pshufb d a b => (maskRot b).bind fun n => some (σ.set d ((σ.get a).map (LV.rot n)))
  | .pbroadcastq d m => bif σ.k then (bcast m).bind fun v => some (σ.set d v) else none
  | .punpcklqdq d a b => (σ.val b).bind fun v => some (σ.set d ⟨(σ.get a).w0, v.w0, (σ.get a).w2, v.w2⟩)
  | .punpckhqdq d a b => (σ.val b).bind fun v => some (σ.set d ⟨(σ.get a).w1, v.w1, (σ.get a).w3, v.w3⟩)
  | .perm2i128 d a b n => (σ.val b).bind fun v =>
    some (σ.set d ⟨((σ.get a).pick v (n % 16)).1, ((σ.get a).pick v (n % 16)).2, ((σ.get a).pick v (n / 16)).1,
      ((σ.get a).pick v (n / 16)).2⟩)
  | .movqLd d m => (cell 1 m).bind fun i => (σ.at' i).bind fun v => some (σ.set d ⟨v, .top, .top, .top⟩)
  | .movqSt m x => (cell 1 m).bind fun i => some (σ.put i (σ.get x).w0)
  | .movhpdSt m x => (cell 1 m).bind fun i => some (σ.put i (σ.get x).w1)
  | .pinsrq d a m n => bif Nat.beq n 1 then
      (cell 1 m).bind fun i => (σ.at' i).bind fun v => some (σ.set d ⟨(σ.get a).w0, v, .top, .top⟩) else none
  | .inserti128 d a b n => bif Nat.beq n 1 then some (σ.set d ⟨(σ.get a).w0, (σ.get a).w1, (σ.get b).w0, (σ.get b).w1⟩) else none
  | .extracti128 d a n => bif Nat.beq n 1 then some (σ.set d ⟨(σ.get a).w2, (σ.get a).w3, .top, .top⟩) else none
  | _ => none

def VS.run : List VInstr → VS → Option VS
  | [], σ => some σ
  | i :: l, σ => (σ.step i).bind fun σ' => VS.run l σ'

/-! ### It is sound -/

/-- The address of cell `i`. -/
def cadr (s : St) (i : Nat) : Word := if i < 96 then word s.rsp i else word s.rdi (i - 96)

/-- What holds at the start of the stretch. -/
structure VCtx (ρ : Nat → Nat → Word) (s : St) : Prop where
  own : ∀ i < 196, s.wr (cadr s i) = true
  apart : Apart s.rsp 96 s.rdi 100
  m8 : Holds s.mem s.rdx rho8.words
  m8A : ∀ i < 196, ∀ j < 4, word s.rdx j ≠ cadr s i
  m56 : Holds s.mem s.rcx rho56.words
  m56A : ∀ i < 196, ∀ j < 4, word s.rcx j ≠ cadr s i

/-- What the symbolic state says. -/
structure VRel (ρ : Nat → Nat → Word) (s : St) (σ : VS) (t : VSt) : Prop where
  ly : σ.y.length = 16
  lc : σ.c.length = 196
  st : t.s = { s with mem := t.s.mem }
  y : ∀ r, (σ.get r).Is ρ (t.y r)
  c : ∀ i < 196, ∀ v, σ.at' i = some v → ∃ w, t.s.mem (cadr s i) = some w ∧ v.Is ρ w
  un : ∀ a, (∀ i < 196, a ≠ cadr s i) → t.s.mem a = s.mem a
  rc : σ.k = true → ∀ l < 4, s.mem s.rsi = some (ρ l 25)
  rcA : σ.k = true → ∀ i < 196, s.rsi ≠ cadr s i

theorem cadr_inj {s : St} (h : Apart s.rsp 96 s.rdi 100) {i j : Nat} (hi : i < 196) (hj : j < 196) (e : cadr s i = cadr s j) : i = j := by
  unfold cadr at e
  split at e
  · split at e
    · exact word_inj (by omega) (by omega) e
    · exact absurd e (h _ (by omega) _ (by omega))
  · split at e
    · exact absurd e.symm (h _ (by omega) _ (by omega))
    · have := word_inj (by omega) (by omega) e
      omega

theorem L4.tops_is (ρ : Nat → Nat → Word) (v : V4) : L4.tops.Is ρ v := ⟨trivial, trivial, trivial, trivial⟩

section
variable {ρ : Nat → Nat → Word} {s : St} {σ σ' : VS} {t : VSt}

theorem VS.get_set (h : σ.y.length = 16) {d : Nat} (v : L4) (r : Nat) :
    (σ.set d v).get r = if r = d then (if d < 16 then v else L4.tops) else σ.get r := by
  unfold VS.get VS.set
  simp only [List.getD_eq_getElem?_getD, List.getElem?_set]
  by_cases e : r = d
  · subst e
    by_cases hd : r < 16
    · simp [h, hd]
    · simp [h, hd]
  · have : d ≠ r := fun e' => e e'.symm
    simp [e, this]

theorem VRel.set (R : VRel ρ s σ t) {d : Nat} {v : L4} {w : V4} (hv : v.Is ρ w) : VRel ρ s (σ.set d v) (t.set d w) := by
  refine ⟨by simp [VS.set, R.ly], R.lc, R.st, fun r => ?_, R.c, R.un, R.rc, R.rcA⟩
  rw [VS.get_set R.ly]
  show L4.Is ρ _ (if r = d then w else t.y r)
  by_cases e : r = d
  · rw [if_pos e, if_pos e]
    split
    · exact hv
    · exact L4.tops_is ρ w
  · rw [if_neg e, if_neg e]
    exact R.y r

/-- The registers are those of the start. -/
theorem VRel.get (R : VRel ρ s σ t) (r : Reg) : t.s.get r = s.get r := by
  rw [R.st]
  cases r <;> rfl

theorem VRel.cell (R : VRel ρ s σ t) {n i : Nat} {m : Addr} (h : cell n m = some i) :
    i + n ≤ 196 ∧ ∀ k < n, t.s.ea m + 8#64 * BitVec.ofNat 64 k = cadr s (i + k) := by
  obtain ⟨mb, mi, d⟩ := m
  unfold X86.cell at h
  split at h
  · rename_i d' e
    obtain ⟨rfl, rfl, rfl⟩ : mb = some .rsp ∧ mi = none ∧ d = d' := by simpa using e
    cases hc : (Nat.beq (d.toNat % 8) 0 && Nat.ble (d.toNat / 8 + n) 96)
    · simp [hc] at h
    · rw [hc, cond_true, Option.some.injEq] at h
      subst h
      rw [Bool.and_eq_true] at hc
      have h1 := Nat.eq_of_beq_eq_true hc.1
      have h2 := Nat.le_of_ble_eq_true hc.2
      refine ⟨by omega, fun k hk => ?_⟩
      have : t.s.ea ⟨some .rsp, none, d⟩ = word s.rsp (d.toNat / 8) := by
        unfold St.ea
        simp only [BitVec.add_zero]
        rw [R.get, word_disp h1]
        rfl
      rw [this, word_fold, word_add]
      unfold cadr
      rw [if_pos (by omega)]
  · rename_i d' e
    obtain ⟨rfl, rfl, rfl⟩ : mb = some .rdi ∧ mi = none ∧ d = d' := by simpa using e
    cases hc : (Nat.beq (d.toNat % 8) 0 && Nat.ble (d.toNat / 8 + n) 100)
    · simp [hc] at h
    · rw [hc, cond_true, Option.some.injEq] at h
      subst h
      rw [Bool.and_eq_true] at hc
      have h1 := Nat.eq_of_beq_eq_true hc.1
      have h2 := Nat.le_of_ble_eq_true hc.2
      refine ⟨by omega, fun k hk => ?_⟩
      have : t.s.ea ⟨some .rdi, none, d⟩ = word s.rdi (d.toNat / 8) := by
        unfold St.ea
        simp only [BitVec.add_zero]
        rw [R.get, word_disp h1]
        rfl
      rw [this, word_fold, word_add]
      unfold cadr
      rw [if_neg (by omega)]
      congr 1
      omega
  · cases h

theorem VRel.load4 (R : VRel ρ s σ t) {i : Nat} (hi : i + 4 ≤ 196) {a : Word} (ha : ∀ k < 4, a + 8#64 * BitVec.ofNat 64 k = cadr s (i + k))
    {v : L4} (hv : σ.load4 i = some v) : ∃ w, t.load a = some w ∧ v.Is ρ w := by
  unfold VS.load4 at hv
  split at hv
  · rename_i a0 a1 a2 a3 h0 h1 h2 h3
    cases hv
    obtain ⟨w0, g0, i0⟩ := R.c i (by omega) a0 h0
    obtain ⟨w1, g1, i1⟩ := R.c (i + 1) (by omega) a1 h1
    obtain ⟨w2, g2, i2⟩ := R.c (i + 2) (by omega) a2 h2
    obtain ⟨w3, g3, i3⟩ := R.c (i + 3) (by omega) a3 h3
    refine ⟨⟨w0, w1, w2, w3⟩, ?_, i0, i1, i2, i3⟩
    have e0 : a = cadr s i := by
      rw [← Nat.add_zero i, ← ha 0 (by omega)]
      exact (BitVec.add_zero a).symm
    have e1 : a + 8#64 = cadr s (i + 1) := ha 1 (by omega)
    have e2 : a + 16#64 = cadr s (i + 2) := ha 2 (by omega)
    have e3 : a + 24#64 = cadr s (i + 3) := ha 3 (by omega)
    unfold VSt.load St.load
    rw [e1, e2, e3, e0, g0, g1, g2, g3]
    rfl
  · cases hv

theorem VRel.val (R : VRel ρ s σ t) {o : VOpd} {v : L4} (hv : σ.val o = some v) : ∃ w, t.val o = some w ∧ v.Is ρ w := by
  cases o with
  | y r =>
    cases hv
    exact ⟨_, rfl, R.y r⟩
  | m a =>
    have hv : (X86.cell 4 a).bind σ.load4 = some v := hv
    cases hc : X86.cell 4 a with
    | none => simp [hc] at hv
    | some i =>
      rw [hc, Option.bind_some] at hv
      obtain ⟨h1, h2⟩ := R.cell hc
      exact R.load4 h1 h2 hv

theorem VRel.put (C : VCtx ρ s) (R : VRel ρ s σ t) {i : Nat} (hi : i < 196) {v : LV} {w : Word} (hv : v.Is ρ w) :
    ∃ s', t.s.store (cadr s i) w = some s' ∧ VRel ρ s (σ.put i v) { t with s := s' } := by
  refine ⟨{ t.s with mem := fun b => if b = cadr s i then some w else t.s.mem b }, ?_, R.ly, by simp [VS.put, R.lc], ?_, R.y, ?_, ?_, R.rc, R.rcA⟩
  · unfold St.store
    rw [if_pos]
    rw [R.st]
    exact C.own i hi
  · show _ = ({ s with mem := _ } : St)
    conv_lhs => rw [R.st]
  · intro j hj u hu
    show ∃ x, (if cadr s j = cadr s i then some w else t.s.mem (cadr s j)) = some x ∧ _
    by_cases e : j = i
    · subst e
      rw [if_pos rfl]
      refine ⟨w, rfl, ?_⟩
      simp [VS.at', VS.put, List.getD_eq_getElem?_getD, R.lc, hj] at hu
      subst hu
      exact hv
    · rw [if_neg fun e' => e (cadr_inj C.apart hj hi e')]
      have e' : i ≠ j := fun h => e h.symm
      refine R.c j hj u ?_
      simpa [VS.at', VS.put, List.getD_eq_getElem?_getD, e'] using hu
  · intro a ha
    show (if a = cadr s i then some w else t.s.mem a) = _
    rw [if_neg (ha i hi)]
    exact R.un a ha

theorem VRel.store4 (C : VCtx ρ s) (R : VRel ρ s σ t) {i : Nat} (hi : i + 4 ≤ 196) {a : Word}
    (ha : ∀ k < 4, a + 8#64 * BitVec.ofNat 64 k = cadr s (i + k)) {v : L4} {w : V4} (hv : v.Is ρ w) :
    ∃ t', t.store a w = some t' ∧ VRel ρ s ((((σ.put i v.w0).put (i + 1) v.w1).put (i + 2) v.w2).put (i + 3) v.w3) t' := by
  obtain ⟨s0, g0, R0⟩ := R.put C (i := i) (by omega) hv.w0
  obtain ⟨s1, g1, R1⟩ := R0.put C (i := i + 1) (by omega) hv.w1
  obtain ⟨s2, g2, R2⟩ := R1.put C (i := i + 2) (by omega) hv.w2
  obtain ⟨s3, g3, R3⟩ := R2.put C (i := i + 3) (by omega) hv.w3
  refine ⟨_, ?_, R3⟩
  have e0 : a = cadr s i := by
    rw [← Nat.add_zero i, ← ha 0 (by omega)]
    exact (BitVec.add_zero a).symm
  have e1 : a + 8#64 = cadr s (i + 1) := ha 1 (by omega)
  have e2 : a + 16#64 = cadr s (i + 2) := ha 2 (by omega)
  have e3 : a + 24#64 = cadr s (i + 3) := ha 3 (by omega)
  have g1 : s0.store (cadr s (i + 1)) w.w1 = some s1 := g1
  have g2 : s1.store (cadr s (i + 2)) w.w2 = some s2 := g2
  have g3 : s2.store (cadr s (i + 3)) w.w3 = some s3 := g3
  unfold VSt.store
  rw [e1, e2, e3, e0, g0]
  simp only [bind, Option.bind_some, g1, g2, g3]

/-- A mask. -/
theorem VRel.mask (C : VCtx ρ s) (R : VRel ρ s σ t) {o : VOpd} {n : Nat} (h : maskRot o = some n) :
    ∃ m, t.val o = some m ∧ ∀ a, V4.shuf a m = V4.map (fun w => w.rotateLeft n) a := by
  have key : ∀ (r : Reg) (m : V4), Holds s.mem (s.get r) m.words → (∀ i < 196, ∀ j < 4, word (s.get r) j ≠ cadr s i) →
      t.val (.m ⟨some r, none, 0#64⟩) = some m := by
    intro r m hm hA
    have ea : t.s.ea ⟨some r, none, 0#64⟩ = s.get r := by
      unfold St.ea
      simp only [BitVec.add_zero]
      exact R.get r
    have h0 := (R.un _ fun i hi => hA i hi 0 (by omega)).trans (hm 0 (by simp [V4.words]))
    have h1 := (R.un _ fun i hi => hA i hi 1 (by omega)).trans (hm 1 (by simp [V4.words]))
    have h2 := (R.un _ fun i hi => hA i hi 2 (by omega)).trans (hm 2 (by simp [V4.words]))
    have h3 := (R.un _ fun i hi => hA i hi 3 (by omega)).trans (hm 3 (by simp [V4.words]))
    rw [word_zero] at h0
    show t.load (t.s.ea _) = _
    rw [ea]
    unfold VSt.load St.load
    rw [show s.get r + 8#64 = word (s.get r) 1 from rfl, show s.get r + 16#64 = word (s.get r) 2 from rfl,
      show s.get r + 24#64 = word (s.get r) 3 from rfl, h0, h1, h2, h3]
    rfl
  unfold maskRot at h
  split at h
  · rename_i d
    cases hd : Nat.beq d.toNat 0
    · simp [hd] at h
    · obtain rfl : d = 0#64 := BitVec.eq_of_toNat_eq (Nat.eq_of_beq_eq_true hd)
      rw [hd] at h
      cases h
      exact ⟨rho8, key .rdx rho8 C.m8 C.m8A, shuf_rho8⟩
  · rename_i d
    cases hd : Nat.beq d.toNat 0
    · simp [hd] at h
    · obtain rfl : d = 0#64 := BitVec.eq_of_toNat_eq (Nat.eq_of_beq_eq_true hd)
      rw [hd] at h
      cases h
      exact ⟨rho56, key .rcx rho56 C.m56 C.m56A, shuf_rho56⟩
  · cases h

theorem VRel.bcast (R : VRel ρ s σ t) (hk : σ.k = true) {m : Addr} {v : L4} (h : bcast m = some v) :
    ∃ w, t.s.load (t.s.ea m) = some w ∧ v.Is ρ ⟨w, w, w, w⟩ := by
  obtain ⟨mb, mi, d⟩ := m
  unfold X86.bcast at h
  split at h
  · rename_i d' e
    obtain ⟨rfl, rfl, rfl⟩ : mb = some .rsi ∧ mi = none ∧ d = d' := by simpa using e
    cases hd : Nat.beq d.toNat 0
    · simp [hd] at h
    · obtain rfl : d = 0#64 := BitVec.eq_of_toNat_eq (Nat.eq_of_beq_eq_true hd)
      rw [hd] at h
      cases h
      have ea : t.s.ea ⟨some .rsi, none, 0#64⟩ = s.rsi := by
        unfold St.ea
        simp only [BitVec.add_zero]
        exact R.get .rsi
      have g : ∀ l < 4, t.s.load (t.s.ea ⟨some .rsi, none, 0#64⟩) = some (ρ l 25) := by
        intro l hl
        rw [ea]
        unfold St.load
        rw [R.un _ (R.rcA hk), R.rc hk l hl]
      have q : ∀ l < 4, ρ 0 25 = ρ l 25 := fun l hl => Option.some.inj ((g 0 (by omega)).symm.trans (g l hl))
      have v : ∀ l < 4, (LV.e l (.var 25)).Is ρ (ρ 0 25) := fun l hl => by
        show _ = _
        rw [BE.var_val, q l hl]
      exact ⟨_, g 0 (by omega), v 0 (by omega), v 1 (by omega), v 2 (by omega), v 3 (by omega)⟩
  · cases h

theorem VRel.load1 (R : VRel ρ s σ t) {i : Nat} {m : Addr} (hc : X86.cell 1 m = some i) {v : LV} (hv : σ.at' i = some v) :
    ∃ w, t.s.load (t.s.ea m) = some w ∧ v.Is ρ w := by
  obtain ⟨h1, h2⟩ := R.cell hc
  obtain ⟨w, g, gi⟩ := R.c i (by omega) v hv
  refine ⟨w, ?_, gi⟩
  have e : t.s.ea m = cadr s i := by
    rw [← Nat.add_zero i, ← h2 0 (by omega)]
    exact (BitVec.add_zero _).symm
  rw [e]
  exact g

theorem VRel.store1 (C : VCtx ρ s) (R : VRel ρ s σ t) {i : Nat} {m : Addr} (hc : X86.cell 1 m = some i) {v : LV} {w : Word} (hv : v.Is ρ w) :
    ∃ s', t.s.store (t.s.ea m) w = some s' ∧ VRel ρ s (σ.put i v) { t with s := s' } := by
  obtain ⟨h1, h2⟩ := R.cell hc
  have e : t.s.ea m = cadr s i := by
    rw [← Nat.add_zero i, ← h2 0 (by omega)]
    exact (BitVec.add_zero _).symm
  rw [e]
  exact R.put C (by omega) hv

theorem bind_some' {α β : Type} {o : Option α} {f : α → Option β} {b : β} (h : o.bind f = some b) : ∃ a, o = some a ∧ f a = some b :=
  Option.bind_eq_some_iff.mp h

theorem cond_some {α : Type} {c : Bool} {o : Option α} {b : α} (h : (bif c then o else none) = some b) : c = true ∧ o = some b := by
  cases c with
  | false => cases h
  | true => exact ⟨rfl, h⟩

theorem VRel.step (C : VCtx ρ s) (R : VRel ρ s σ t) {i : VInstr} (hx : σ.step i = some σ') (pc : Nat) :
    ∃ t', i.exec pc t = some (pc + 1, t') ∧ VRel ρ s σ' t' := by
  suffices h : ∃ t', i.eff t = some t' ∧ VRel ρ s σ' t' by
    obtain ⟨t', h1, h2⟩ := h
    refine ⟨t', ?_, h2⟩
    cases i with
    | sc i => cases hx
    | _ => simp only [VInstr.exec, h1, Option.map_some]
  unfold VS.step at hx
  split at hx
  · obtain ⟨v, h1, h2⟩ := bind_some' hx
    cases h2
    obtain ⟨w, g, gi⟩ := R.val h1
    refine ⟨_, by simp only [VInstr.eff, g, bind, Option.bind_some]; rfl, R.set ?_⟩
    exact gi
  · obtain ⟨c, h1, h2⟩ := bind_some' hx
    cases h2
    obtain ⟨b1, b2⟩ := R.cell h1
    exact R.store4 C b1 b2 (R.y _)
  · obtain ⟨v, h1, h2⟩ := bind_some' hx
    cases h2
    obtain ⟨w, g, gi⟩ := R.val h1
    refine ⟨_, by simp only [VInstr.eff, g, bind, Option.bind_some]; rfl, R.set ?_⟩
    exact (L4.map2_is (fun _ _ _ _ => LV.xor_is) (R.y _) gi)
  · obtain ⟨v, h1, h2⟩ := bind_some' hx
    cases h2
    obtain ⟨w, g, gi⟩ := R.val h1
    refine ⟨_, by simp only [VInstr.eff, g, bind, Option.bind_some]; rfl, R.set ?_⟩
    exact (L4.map2_is (fun _ _ _ _ => LV.or_is) (R.y _) gi)
  · obtain ⟨v, h1, h2⟩ := bind_some' hx
    cases h2
    obtain ⟨w, g, gi⟩ := R.val h1
    refine ⟨_, by simp only [VInstr.eff, g, bind, Option.bind_some]; rfl, R.set ?_⟩
    exact (L4.map2_is (fun _ _ _ _ => LV.andn_is) (R.y _) gi)
  · cases hx
    exact ⟨_, rfl, R.set (L4.map_is (fun _ _ => LV.srl_is _) (R.y _))⟩
  · cases hx
    exact ⟨_, rfl, R.set (L4.map_is (fun _ _ => LV.sll_is _) (R.y _))⟩
  · rename_i d a b
    obtain ⟨n, h1, h2⟩ := bind_some' hx
    cases h2
    obtain ⟨m, g, gm⟩ := R.mask C h1
    refine ⟨_, by simp only [VInstr.eff, g, bind, Option.bind_some]; rfl, R.set ?_⟩
    have := L4.map_is (fun _ _ => LV.rot_is (ρ := ρ) n) (R.y a)
    rw [← gm] at this
    exact this
  · obtain ⟨hk, h0⟩ := cond_some hx
    obtain ⟨v, h1, h2⟩ := bind_some' h0
    cases h2
    obtain ⟨w, g, gi⟩ := R.bcast hk h1
    refine ⟨_, by simp only [VInstr.eff, g, bind, Option.bind_some]; rfl, R.set ?_⟩
    exact gi
  · obtain ⟨v, h1, h2⟩ := bind_some' hx
    cases h2
    obtain ⟨w, g, gi⟩ := R.val h1
    refine ⟨_, by simp only [VInstr.eff, g, bind, Option.bind_some]; rfl, R.set ?_⟩
    exact ⟨(R.y _).w0, gi.w0, (R.y _).w2, gi.w2⟩
  · obtain ⟨v, h1, h2⟩ := bind_some' hx
    cases h2
    obtain ⟨w, g, gi⟩ := R.val h1
    refine ⟨_, by simp only [VInstr.eff, g, bind, Option.bind_some]; rfl, R.set ?_⟩
    exact ⟨(R.y _).w1, gi.w1, (R.y _).w3, gi.w3⟩
  · obtain ⟨v, h1, h2⟩ := bind_some' hx
    cases h2
    obtain ⟨w, g, gi⟩ := R.val h1
    refine ⟨_, by simp only [VInstr.eff, g, bind, Option.bind_some]; rfl, R.set ?_⟩
    exact ⟨(L4.pick_is (R.y _) gi _).1, (L4.pick_is (R.y _) gi _).2, (L4.pick_is (R.y _) gi _).1, (L4.pick_is (R.y _) gi _).2⟩
  · obtain ⟨c, h1, h2⟩ := bind_some' hx
    obtain ⟨v, h3, h4⟩ := bind_some' h2
    cases h4
    obtain ⟨w, g, gi⟩ := R.load1 h1 h3
    refine ⟨_, by simp only [VInstr.eff, g, bind, Option.bind_some]; rfl, R.set ?_⟩
    exact ⟨gi, trivial, trivial, trivial⟩
  · rename_i m x
    obtain ⟨c, h1, h2⟩ := bind_some' hx
    cases h2
    obtain ⟨s', g, gi⟩ := R.store1 C h1 (R.y x).w0
    exact ⟨_, by simp only [VInstr.eff, g, bind, Option.bind_some], gi⟩
  · rename_i m x
    obtain ⟨c, h1, h2⟩ := bind_some' hx
    cases h2
    obtain ⟨s', g, gi⟩ := R.store1 C h1 (R.y x).w1
    exact ⟨_, by simp only [VInstr.eff, g, bind, Option.bind_some], gi⟩
  · obtain ⟨hn, h0⟩ := cond_some hx
    obtain rfl := Nat.eq_of_beq_eq_true hn
    obtain ⟨c, h1, h2⟩ := bind_some' h0
    obtain ⟨v, h3, h4⟩ := bind_some' h2
    cases h4
    obtain ⟨w, g, gi⟩ := R.load1 h1 h3
    refine ⟨_, by simp only [VInstr.eff, g, bind, Option.bind_some]; rfl, R.set ?_⟩
    exact ⟨(R.y _).w0, gi, trivial, trivial⟩
  · obtain ⟨hn, h0⟩ := cond_some hx
    obtain rfl := Nat.eq_of_beq_eq_true hn
    cases h0
    refine ⟨_, rfl, R.set ?_⟩
    exact ⟨(R.y _).w0, (R.y _).w1, (R.y _).w0, (R.y _).w1⟩
  · obtain ⟨hn, h0⟩ := cond_some hx
    obtain rfl := Nat.eq_of_beq_eq_true hn
    cases h0
    refine ⟨_, rfl, R.set ?_⟩
    exact ⟨(R.y _).w2, (R.y _).w3, trivial, trivial⟩
  · cases hx

/-- A stretch of code that the executor accepts. -/
theorem VFrom.bits (C : VCtx ρ s) {P : VProg} {Q : VSt → Prop} {n : Nat} {pc : Nat} (hn : pc + n ≤ P.length) (R : VRel ρ s σ t)
    (hx : VS.run ((P.drop pc).take n) σ = some σ') (hQ : ∀ t', VRel ρ s σ' t' → VFrom P (pc + n) t' Q) : VFrom P pc t Q := by
  induction n generalizing pc σ t with
  | zero =>
    simp only [List.take_zero, VS.run, Option.some.injEq] at hx
    subst hx
    exact hQ t R
  | succ n ih =>
    have hl : pc < P.length := by omega
    rw [List.drop_eq_getElem_cons hl, List.take_succ_cons, VS.run] at hx
    obtain ⟨σ1, h1, h2⟩ := bind_some' hx
    obtain ⟨t1, e, R1⟩ := R.step C h1 pc
    refine VFrom.next (List.getElem?_eq_getElem hl) e ?_
    exact ih (by omega) R1 h2 (by rw [show pc + 1 + n = pc + (n + 1) by omega]; exact hQ)

end

end Verif.X86
