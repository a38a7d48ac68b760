import Verif.Proof.X86.Ct
import Verif.Proof.X86.Env
import Verif.Proof.X86.Clobber

/-!
A symbolic executor for straight-line code of bitwise operations and rotations on words of two blocks of 25, proved sound.
A value is a constant (all zeros or all ones), exclusive-or rotated variables, exclusive-or at most one product of two such
sums.
-/
namespace Verif.X86
open Verif

/-- Variable `k / 64` rotated left by `k % 64`. -/
def kv (ρ : Nat → Word) (k : Nat) : Word := (ρ (k / 64)).rotateLeft (k % 64)

/-- Their sum. -/
def lv (ρ : Nat → Word) : List Nat → Word
  | [] => 0#64
  | k :: l => kv ρ k ^^^ lv ρ l

/-- Add `k`. -/
def tog (k : Nat) : List Nat → List Nat
  | [] => [k]
  | j :: l => bif Nat.blt k j then k :: j :: l else bif Nat.beq k j then l else j :: tog k l

theorem lv_tog (ρ : Nat → Word) (k : Nat) (l : List Nat) : lv ρ (tog k l) = kv ρ k ^^^ lv ρ l := by
  induction l with
  | nil => rfl
  | cons j l ih =>
    unfold tog
    cases h : Nat.blt k j
    · cases h2 : Nat.beq k j
      · simp only [cond_false, lv, ih]
        rw [← BitVec.xor_assoc, ← BitVec.xor_assoc, BitVec.xor_comm (kv ρ j)]
      · have := Nat.eq_of_beq_eq_true h2
        subst this
        simp only [cond_false, cond_true, lv]
        rw [← BitVec.xor_assoc, BitVec.xor_self, BitVec.zero_xor]
    · rfl

/-- Add two sums. -/
def xl : List Nat → List Nat → List Nat
  | [], b => b
  | k :: a, b => tog k (xl a b)

theorem lv_xl (ρ : Nat → Word) (a b : List Nat) : lv ρ (xl a b) = lv ρ a ^^^ lv ρ b := by
  induction a with
  | nil => simp [xl, lv]
  | cons k a ih => rw [xl, lv_tog, ih, lv, BitVec.xor_assoc]

/-- Rotate a sum. -/
def rl (n : Nat) : List Nat → List Nat
  | [] => []
  | k :: a => tog (64 * (k / 64) + (k % 64 + n) % 64) (rl n a)

theorem rot_xor (a b : Word) (n : Nat) : (a ^^^ b).rotateLeft n = a.rotateLeft n ^^^ b.rotateLeft n := by
  apply BitVec.eq_of_getLsbD_eq
  intro i hi
  simp only [BitVec.getLsbD_rotateLeft, BitVec.getLsbD_xor]
  cases decide (i < n % 64) <;> simp [hi]

theorem rot_not (a : Word) (n : Nat) : (~~~ a).rotateLeft n = ~~~ a.rotateLeft n := by
  apply BitVec.eq_of_getLsbD_eq
  intro i hi
  simp only [BitVec.getLsbD_rotateLeft, BitVec.getLsbD_not]
  have h : n % 64 < 64 := Nat.mod_lt _ (by omega)
  by_cases h1 : i < n % 64
  · simp [hi, h1]; omega
  · simp [hi, h1]; omega

theorem rot_bit (a : Word) (n : Nat) {i : Nat} (hi : i < 64) : (a.rotateLeft n).getLsbD i = a.getLsbD ((i + 64 - n % 64) % 64) := by
  simp only [BitVec.getLsbD_rotateLeft]
  have h1 : n % 64 < 64 := Nat.mod_lt _ (by omega)
  by_cases h : i < n % 64
  · simp only [h, decide_true, cond_true]
    congr 1
    omega
  · simp only [h, hi, decide_false, decide_true, cond_false, Bool.true_and]
    congr 1
    omega

theorem rot_rot (a : Word) (m n : Nat) : (a.rotateLeft m).rotateLeft n = a.rotateLeft ((m + n) % 64) := by
  apply BitVec.eq_of_getLsbD_eq
  intro i hi
  rw [rot_bit _ _ hi, rot_bit _ _ (Nat.mod_lt _ (by omega)), rot_bit _ _ hi]
  congr 1
  omega

theorem kv_rot (ρ : Nat → Word) (k n : Nat) : kv ρ (64 * (k / 64) + (k % 64 + n) % 64) = (kv ρ k).rotateLeft n := by
  unfold kv
  rw [rot_rot, show (64 * (k / 64) + (k % 64 + n) % 64) / 64 = k / 64 by omega,
    show (64 * (k / 64) + (k % 64 + n) % 64) % 64 = (k % 64 + n) % 64 by omega]

theorem lv_rl (ρ : Nat → Word) (n : Nat) (a : List Nat) : lv ρ (rl n a) = (lv ρ a).rotateLeft n := by
  induction a with
  | nil =>
    apply BitVec.eq_of_getLsbD_eq
    intro i hi
    rw [rot_bit _ _ hi]
    simp [rl, lv]
  | cons k a ih => rw [rl, lv_tog, kv_rot, ih, lv, rot_xor]

/-- Equality of sums. -/
def leq : List Nat → List Nat → Bool
  | [], [] => true
  | a :: l, b :: m => bif Nat.beq a b then leq l m else false
  | _, _ => false

theorem leq_eq {l m : List Nat} (h : leq l m = true) : l = m := by
  induction l generalizing m with
  | nil =>
    cases m with
    | nil => rfl
    | cons _ _ => simp [leq] at h
  | cons a l ih =>
    cases m with
    | nil => simp [leq] at h
    | cons b m =>
      unfold leq at h
      cases hb : Nat.beq a b
      · simp [hb] at h
      · rw [hb] at h
        rw [Nat.eq_of_beq_eq_true hb, ih h]

/-- A value. -/
structure BE where
  con : Bool
  lin : List Nat
  pr : Option (List Nat × List Nat)

def pv (ρ : Nat → Word) : Option (List Nat × List Nat) → Word
  | none => 0#64
  | some (a, b) => lv ρ a &&& lv ρ b

def cv : Bool → Word
  | false => 0#64
  | true => BitVec.allOnes 64

def BE.val (ρ : Nat → Word) (e : BE) : Word := cv e.con ^^^ lv ρ e.lin ^^^ pv ρ e.pr

/-- The sum of two products, if it is one. -/
def xp : Option (List Nat × List Nat) → Option (List Nat × List Nat) → Option (Option (List Nat × List Nat))
  | none, p => some p
  | some p, none => some (some p)
  | some (a, b), some (c, d) =>
    bif leq a c && leq b d then some none else bif leq a d && leq b c then some none else none

theorem pv_xp {ρ : Nat → Word} {p q r : Option (List Nat × List Nat)} (h : xp p q = some r) : pv ρ r = pv ρ p ^^^ pv ρ q := by
  cases p with
  | none =>
    cases h
    simp [pv]
  | some p =>
    cases q with
    | none =>
      cases h
      simp [pv]
    | some q =>
      obtain ⟨a, b⟩ := p
      obtain ⟨c, d⟩ := q
      simp only [xp] at h
      cases h1 : (leq a c && leq b d)
      · rw [h1] at h
        cases h2 : (leq a d && leq b c)
        · rw [h2] at h
          cases h
        · rw [h2] at h
          cases h
          rw [Bool.and_eq_true] at h2
          rw [leq_eq h2.1, leq_eq h2.2]
          simp only [pv]
          rw [BitVec.and_comm, BitVec.xor_self]
      · rw [h1] at h
        cases h
        rw [Bool.and_eq_true] at h1
        rw [leq_eq h1.1, leq_eq h1.2]
        simp only [pv]
        rw [BitVec.xor_self]

theorem cv_xor (a b : Bool) : cv (a ^^ b) = cv a ^^^ cv b := by cases a <;> cases b <;> decide

def BE.xor (a b : BE) : Option BE :=
  match xp a.pr b.pr with
  | none => none
  | some p => some ⟨a.con ^^ b.con, xl a.lin b.lin, p⟩

theorem BE.xor_val {ρ : Nat → Word} {a b c : BE} (h : a.xor b = some c) : c.val ρ = a.val ρ ^^^ b.val ρ := by
  unfold BE.xor at h
  split at h
  · cases h
  · rename_i p hp
    cases h
    unfold BE.val
    rw [pv_xp hp, lv_xl, cv_xor]
    ac_rfl

def BE.not (a : BE) : BE := ⟨!a.con, a.lin, a.pr⟩

theorem xor_ones (x : Word) : BitVec.allOnes 64 ^^^ x = ~~~ x := BitVec.allOnes_xor

theorem BE.not_val (ρ : Nat → Word) (a : BE) : a.not.val ρ = ~~~ a.val ρ := by
  rw [← xor_ones]
  unfold BE.val BE.not
  have : cv (!a.con) = BitVec.allOnes 64 ^^^ cv a.con := by cases a.con <;> decide
  rw [this]
  ac_rfl

/-- The product of two sums. -/
def mulp (a b : List Nat) : Option (List Nat × List Nat) :=
  match a, b with
  | [], _ => none
  | _, [] => none
  | a, b => some (a, b)

theorem pv_mulp (ρ : Nat → Word) (a b : List Nat) : pv ρ (mulp a b) = lv ρ a &&& lv ρ b := by
  unfold mulp
  split
  · simp [pv, lv]
  · simp [pv, lv]
  · rfl

def BE.and (a b : BE) : Option BE :=
  match a.pr, b.pr with
  | none, none => some ⟨a.con && b.con, xl (bif a.con then b.lin else []) (bif b.con then a.lin else []), mulp a.lin b.lin⟩
  | _, _ => none

theorem and_xor (x y z : Word) : x &&& (y ^^^ z) = (x &&& y) ^^^ (x &&& z) := by
  apply BitVec.eq_of_getLsbD_eq
  intro i _
  simp only [BitVec.getLsbD_and, BitVec.getLsbD_xor]
  cases x.getLsbD i <;> simp

theorem xor_and (x y z : Word) : (y ^^^ z) &&& x = (y &&& x) ^^^ (z &&& x) := by
  rw [BitVec.and_comm, and_xor, BitVec.and_comm, BitVec.and_comm x z]

theorem BE.and_val {ρ : Nat → Word} {a b c : BE} (h : a.and b = some c) : c.val ρ = a.val ρ &&& b.val ρ := by
  obtain ⟨ac, al, ap⟩ := a
  obtain ⟨bc, bl, bp⟩ := b
  unfold BE.and at h
  split at h
  · rename_i h1 h2
    cases h
    simp only at h1 h2
    subst h1 h2
    simp only [BE.val, pv_mulp, lv_xl]
    simp only [pv, BitVec.xor_zero]
    rw [xor_and, and_xor, and_xor]
    have e1 : cv (ac && bc) = cv ac &&& cv bc := by cases ac <;> cases bc <;> decide
    have e2 : lv ρ (bif ac then bl else []) = cv ac &&& lv ρ bl := by cases ac <;> simp [cv, lv, -BitVec.reduceAllOnes]
    have e3 : lv ρ (bif bc then al else []) = lv ρ al &&& cv bc := by cases bc <;> simp [cv, lv, -BitVec.reduceAllOnes]
    rw [e1, e2, e3]
    ac_rfl
  · cases h

def BE.or (a b : BE) : Option BE :=
  match a.xor b, a.and b with
  | some c, some d => c.xor d
  | _, _ => none

theorem BE.or_val {ρ : Nat → Word} {a b c : BE} (h : a.or b = some c) : c.val ρ = a.val ρ ||| b.val ρ := by
  unfold BE.or at h
  split at h
  · rename_i x y h1 h2
    rw [BE.xor_val h, BE.xor_val h1, BE.and_val h2]
    apply BitVec.eq_of_getLsbD_eq
    intro i _
    simp only [BitVec.getLsbD_and, BitVec.getLsbD_xor, BitVec.getLsbD_or]
    cases (BE.val ρ a).getLsbD i <;> cases (BE.val ρ b).getLsbD i <;> rfl
  · cases h

def BE.rot (n : Nat) (a : BE) : Option BE :=
  match a.pr with
  | none => some ⟨a.con, rl n a.lin, none⟩
  | some _ => none

theorem BE.rot_val {ρ : Nat → Word} {n : Nat} {a c : BE} (h : a.rot n = some c) : c.val ρ = (a.val ρ).rotateLeft n := by
  obtain ⟨ac, al, ap⟩ := a
  unfold BE.rot at h
  split at h
  · rename_i h1
    cases h
    simp only at h1
    subst h1
    simp only [BE.val, pv, BitVec.xor_zero]
    rw [lv_rl, rot_xor]
    congr 1
    cases ac
    · apply BitVec.eq_of_getLsbD_eq
      intro i hi
      rw [rot_bit _ _ hi]
      simp [cv]
    · apply BitVec.eq_of_getLsbD_eq
      intro i hi
      rw [rot_bit _ _ hi]
      simp only [cv, BitVec.getLsbD_allOnes, hi, Nat.mod_lt _ (show 64 > 0 by omega)]
  · cases h

/-- A variable. -/
def BE.var (i : Nat) : BE := ⟨false, [64 * i], none⟩

theorem BE.var_val (ρ : Nat → Word) (i : Nat) : (BE.var i).val ρ = ρ i := by
  simp [BE.var, BE.val, cv, lv, pv, kv, show 64 * i / 64 = i by omega, show 64 * i % 64 = 0 by omega]
  apply BitVec.eq_of_getLsbD_eq
  intro j hj
  rw [rot_bit _ _ hj]
  congr 1
  omega

/-- Whether two values are equal. -/
def BE.same (a b : BE) : Bool :=
  match a.xor b with
  | some ⟨false, [], none⟩ => true
  | _ => false

theorem BE.same_val {ρ : Nat → Word} {a b : BE} (h : a.same b = true) : a.val ρ = b.val ρ := by
  unfold BE.same at h
  split at h
  · rename_i h1
    have e := BE.xor_val (ρ := ρ) h1
    have e0 : (BE.mk false [] none).val ρ = 0#64 := by simp [BE.val, cv, lv, pv]
    rw [e0] at e
    have h2 : a.val ρ ^^^ b.val ρ ^^^ b.val ρ = 0#64 ^^^ b.val ρ := by rw [← e]
    rwa [BitVec.xor_assoc, BitVec.xor_self, BitVec.xor_zero, BitVec.zero_xor] at h2
  · cases h

/-! ### The machine -/

/-- What is known of a register: a value, the address of a block, nothing. -/
inductive BV where
  | e (x : BE)
  | ptr (b : Nat)
  | top

def BV.Is (ρ base : Nat → Word) : BV → Word → Prop
  | .e x, w => w = x.val ρ
  | .ptr b, w => w = base b
  | .top, _ => True

/-- The registers, and the 25 words of block 1.  Block 0 holds the variables 0 to 24, and block 2 one word, variable 25. -/
structure BS where
  regs : List BV
  dst : List (Option BE)

def BS.get (σ : BS) (r : Reg) : BV := σ.regs.getD r.idx .top
def BS.set (σ : BS) (r : Reg) (v : BV) : BS := ⟨σ.regs.set r.idx v, σ.dst⟩

/-- The block and index of an operand in memory. -/
def BS.cell (σ : BS) (m : Addr) : Option (Nat × Nat) :=
  match m.base, m.idx with
  | some r, none =>
    match σ.get r with
    | .ptr b => bif Nat.beq (m.disp.toNat % 8) 0 then some (b, m.disp.toNat / 8) else none
    | _ => none
  | _, _ => none

def BS.read (σ : BS) : Nat × Nat → Option BE
  | (0, i) => bif Nat.blt i 25 then some (BE.var i) else none
  | (1, i) => bif Nat.blt i 25 then σ.dst.getD i none else none
  | (2, 0) => some (BE.var 25)
  | _ => none

def BS.val (σ : BS) : Opd → Option BE
  | .reg r =>
    match σ.get r with
    | .e x => some x
    | _ => none
  | .mem m => (σ.cell m).bind σ.read
  | .imm _ => none

def BS.put (σ : BS) (d : Opd) (x : BE) : Option BS :=
  match d with
  | .reg r => some (σ.set r (.e x))
  | .mem m =>
    match σ.cell m with
    | some (1, i) => bif Nat.blt i 25 then some ⟨σ.regs, σ.dst.set i (some x)⟩ else none
    | _ => none
  | .imm _ => none

/-- A binary operation. -/
def BS.bin (σ : BS) (f : BE → BE → Option BE) (d x : Opd) : Option BS :=
  (σ.val d).bind fun a => (σ.val x).bind fun b => (f a b).bind fun c => σ.put d c

def BS.step (i : Instr) (σ : BS) : Option BS :=
  match i with
  | .mov d x => (σ.val x).bind fun v => σ.put d v
  | .xor d x => σ.bin BE.xor d x
  | .and d x => σ.bin BE.and d x
  | .or d x => σ.bin BE.or d x
  | .not d => (σ.val d).bind fun v => σ.put d v.not
  | .rol d n =>
    bif Nat.beq (n.toNat % 64) 0 then none else
      (σ.val (.reg d)).bind fun v => (v.rot (n.toNat % 64)).bind fun w => σ.put (.reg d) w
  | .xchg d x => some ((σ.set d (σ.get x)).set x (σ.get d))
  | .lea d ⟨some r, none, n⟩ => bif Nat.beq n.toNat 0 then some (σ.set d (σ.get r)) else none
  | _ => none

def BS.run : List Instr → BS → Option BS
  | [], σ => some σ
  | i :: l, σ => (σ.step i).bind fun σ' => BS.run l σ'

/-- Memory at the start. -/
structure BCtx (ρ base : Nat → Word) (m0 : Word → Option Word) (w0 : Word → Bool) : Prop where
  src : ∀ i < 25, m0 (word (base 0) i) = some (ρ i)
  rc : m0 (base 2) = some (ρ 25)
  a0 : Apart (base 1) 25 (base 0) 25
  a2 : Apart (base 1) 25 (base 2) 1
  own : ∀ i < 25, w0 (word (base 1) i) = true

/-- What the symbolic state says. -/
structure BRel (ρ base : Nat → Word) (m0 : Word → Option Word) (w0 : Word → Bool) (σ : BS) (t : St) : Prop where
  lr : σ.regs.length = 16
  ld : σ.dst.length = 25
  reg : ∀ r, (σ.get r).Is ρ base (t.get r)
  dst : ∀ i < 25, ∀ x, σ.dst.getD i none = some x → t.mem (word (base 1) i) = some (x.val ρ)
  wr : t.wr = w0
  un : OnlyAt (base 1) 25 m0 t.mem

theorem BRel.congr {ρ base : Nat → Word} {m0 : Word → Option Word} {w0 : Word → Bool} {σ : BS} {t u : St}
    (h : BRel ρ base m0 w0 σ t) (h1 : ∀ r, u.get r = t.get r) (h2 : u.mem = t.mem) (h3 : u.wr = t.wr) : BRel ρ base m0 w0 σ u :=
  ⟨h.lr, h.ld, fun r => by rw [h1]; exact h.reg r, by rw [h2]; exact h.dst, by rw [h3]; exact h.wr, by rw [h2]; exact h.un⟩

theorem Reg.idx_lt (r : Reg) : r.idx < 16 := by cases r <;> decide

theorem BS.get_set {σ : BS} (h : σ.regs.length = 16) (r q : Reg) (v : BV) :
    (σ.set r v).get q = if q = r then v else σ.get q := by
  unfold BS.get BS.set
  by_cases e : q = r
  · subst e
    rw [if_pos rfl]
    simp [List.getD_eq_getElem?_getD, h, Reg.idx_lt q]
  · rw [if_neg e]
    have : r.idx ≠ q.idx := fun e' => e (Reg.idx_inj e').symm
    simp [List.getD_eq_getElem?_getD, this]

theorem St.get_set' (t : St) (r q : Reg) (v : Word) : (t.set r v).get q = if q = r then v else t.get q := by
  by_cases e : q = r
  · subst e
    rw [if_pos rfl]
    cases q <;> rfl
  · rw [if_neg e, X86.get_set e]

theorem St.set_mem (t : St) (r : Reg) (v : Word) : (t.set r v).mem = t.mem := by cases r <;> rfl
theorem St.set_wr (t : St) (r : Reg) (v : Word) : (t.set r v).wr = t.wr := by cases r <;> rfl

theorem BRel.set {ρ base : Nat → Word} {m0 : Word → Option Word} {w0 : Word → Bool} {σ : BS} {t : St}
    (h : BRel ρ base m0 w0 σ t) {r : Reg} {v : BV} {w : Word} (hv : v.Is ρ base w) : BRel ρ base m0 w0 (σ.set r v) (t.set r w) := by
  refine ⟨by simp [BS.set, h.lr], h.ld, fun q => ?_, ?_, ?_, ?_⟩
  · rw [BS.get_set h.lr, St.get_set']
    by_cases e : q = r
    · rw [if_pos e, if_pos e]
      exact hv
    · rw [if_neg e, if_neg e]
      exact h.reg q
  · rw [St.set_mem]
    exact h.dst
  · rw [St.set_wr]
    exact h.wr
  · rw [St.set_mem]
    exact h.un

theorem word_disp {a d : Word} (h : d.toNat % 8 = 0) : a + d = word a (d.toNat / 8) := by
  unfold word
  congr 1
  apply BitVec.eq_of_toNat_eq
  have := d.isLt
  simp only [BitVec.toNat_mul, BitVec.toNat_ofNat]
  omega

theorem BRel.cell {ρ base : Nat → Word} {m0 : Word → Option Word} {w0 : Word → Bool} {σ : BS} {t : St}
    (h : BRel ρ base m0 w0 σ t) {m : Addr} {b i : Nat} (hc : σ.cell m = some (b, i)) : t.ea m = word (base b) i := by
  obtain ⟨mb, mi, md⟩ := m
  unfold BS.cell at hc
  split at hc
  · rename_i r e1 e2
    simp only at e1 e2
    subst e1 e2
    split at hc
    · rename_i b' hb
      cases h8 : Nat.beq (md.toNat % 8) 0
      · simp [h8] at hc
      · simp only [h8, cond_true, Option.some.injEq, Prod.mk.injEq] at hc
        obtain ⟨rfl, rfl⟩ := hc
        have hr := h.reg r
        rw [hb] at hr
        have hr : t.get r = base b' := hr
        unfold St.ea
        simp only [hr, BitVec.add_zero]
        exact word_disp (Nat.eq_of_beq_eq_true h8)
    · cases hc
  · cases hc

theorem BRel.read {ρ base : Nat → Word} {m0 : Word → Option Word} {w0 : Word → Bool} (C : BCtx ρ base m0 w0) {σ : BS} {t : St}
    (h : BRel ρ base m0 w0 σ t) {b i : Nat} {x : BE} (hx : σ.read (b, i) = some x) : t.mem (word (base b) i) = some (x.val ρ) := by
  unfold BS.read at hx
  split at hx
  · rename_i e
    cases e
    cases hi : Nat.blt i 25
    · simp [hi] at hx
    · simp only [hi, cond_true, Option.some.injEq] at hx
      subst hx
      have hi : i < 25 := by simpa using hi
      rw [h.un _ fun j hj e => C.a0 j hj i hi e.symm, C.src i hi, BE.var_val]
  · rename_i e
    cases e
    cases hi : Nat.blt i 25
    · simp [hi] at hx
    · simp only [hi, cond_true] at hx
      exact h.dst i (by simpa using hi) x hx
  · rename_i e
    cases e
    cases hx
    rw [h.un _ fun j hj e => C.a2 j hj 0 (by omega) e.symm, word_zero, C.rc, BE.var_val]
  · cases hx

theorem BRel.val {ρ base : Nat → Word} {m0 : Word → Option Word} {w0 : Word → Bool} (C : BCtx ρ base m0 w0) {σ : BS} {t : St}
    (h : BRel ρ base m0 w0 σ t) {o : Opd} {x : BE} (hx : σ.val o = some x) : t.val o = some (x.val ρ) := by
  unfold BS.val at hx
  split at hx
  · rename_i r
    split at hx
    · rename_i y hy
      cases hx
      have := h.reg r
      rw [hy] at this
      exact congrArg some this
    · cases hx
  · rename_i m
    cases hc : σ.cell m with
    | none => simp [hc] at hx
    | some p =>
      rw [hc] at hx
      show t.mem (t.ea m) = _
      rw [h.cell (b := p.1) (i := p.2) hc]
      exact h.read C hx
  · cases hx

theorem BRel.put {ρ base : Nat → Word} {m0 : Word → Option Word} {w0 : Word → Bool} (C : BCtx ρ base m0 w0) {σ σ' : BS} {t : St}
    (h : BRel ρ base m0 w0 σ t) {d : Opd} {x : BE} (hx : σ.put d x = some σ') {w : Word} (hw : w = x.val ρ) :
    ∃ t', t.put d w = some t' ∧ BRel ρ base m0 w0 σ' t' := by
  unfold BS.put at hx
  split at hx
  · cases hx
    exact ⟨_, rfl, h.set hw⟩
  · rename_i m
    split at hx
    · rename_i i hc
      cases hi : Nat.blt i 25
      · simp [hi] at hx
      · simp only [hi, cond_true, Option.some.injEq] at hx
        subst hx
        have hi : i < 25 := by simpa using hi
        refine ⟨{ t with mem := fun b => if b = word (base 1) i then some w else t.mem b }, ?_, h.lr, by simp [h.ld], h.reg, ?_, h.wr,
          h.un.store hi w⟩
        · show t.store (t.ea m) w = _
          rw [h.cell hc]
          unfold St.store
          rw [if_pos (by rw [h.wr]; exact C.own i hi)]
        · intro j hj y hy
          show (if word (base 1) j = word (base 1) i then some w else t.mem _) = _
          by_cases e : j = i
          · subst e
            rw [if_pos rfl]
            simp [List.getD_eq_getElem?_getD, h.ld, hj] at hy
            rw [hw, hy]
          · rw [if_neg fun e' => e (word_inj (by omega) (by omega) e')]
            have e' : i ≠ j := fun h => e h.symm
            simp only [List.getD_eq_getElem?_getD, List.getElem?_set, e', if_false] at hy
            exact h.dst j hj y (by rw [List.getD_eq_getElem?_getD]; exact hy)
    · cases hx
  · cases hx

theorem BRel.bin {ρ base : Nat → Word} {m0 : Word → Option Word} {w0 : Word → Bool} (C : BCtx ρ base m0 w0) {σ σ' : BS} {t : St}
    (h : BRel ρ base m0 w0 σ t) {f : BE → BE → Option BE} {g : Word → Word → Word}
    (hfg : ∀ a b c, f a b = some c → c.val ρ = g (a.val ρ) (b.val ρ)) {d x : Opd} (hx : σ.bin f d x = some σ') :
    ∃ t', (do
      let a ← t.val d
      let b ← t.val x
      (t.logicFlags (g a b)).put d (g a b)) = some t' ∧ BRel ρ base m0 w0 σ' t' := by
  unfold BS.bin at hx
  cases h1 : σ.val d with
  | none => simp [h1] at hx
  | some a =>
    cases h2 : σ.val x with
    | none => simp [h1, h2] at hx
    | some b =>
      cases h3 : f a b with
      | none => simp [h1, h2, h3] at hx
      | some c =>
        simp only [h1, h2, h3, Option.bind_some] at hx
        have F : BRel ρ base m0 w0 σ (t.logicFlags (g (a.val ρ) (b.val ρ))) :=
          h.congr (fun r => by cases r <;> rfl) rfl rfl
        obtain ⟨t', e, R⟩ := F.put C hx (w := g (a.val ρ) (b.val ρ)) (hfg a b c h3).symm
        refine ⟨t', ?_, R⟩
        simp only [h.val C h1, h.val C h2, bind, Option.bind_some]
        exact e

theorem BRel.step {ρ base : Nat → Word} {m0 : Word → Option Word} {w0 : Word → Bool} (C : BCtx ρ base m0 w0) {σ σ' : BS} {t : St}
    (h : BRel ρ base m0 w0 σ t) {i : Instr} (hx : σ.step i = some σ') (pc : Nat) :
    ∃ t', i.exec pc t = some (pc + 1, t') ∧ BRel ρ base m0 w0 σ' t' := by
  unfold BS.step at hx
  split at hx
  · rename_i d x
    cases h1 : σ.val x with
    | none => simp [h1] at hx
    | some a =>
      simp only [h1, Option.bind_some] at hx
      obtain ⟨t', e, R⟩ := h.put C hx rfl
      exact ⟨t', by simp [Instr.exec, Instr.eff, h.val C h1, e], R⟩
  · obtain ⟨t', e, R⟩ := h.bin C (g := fun a b => a ^^^ b) (fun _ _ _ h => BE.xor_val h) hx
    exact ⟨t', by simp only [Instr.exec, Instr.eff]; rw [e]; rfl, R⟩
  · obtain ⟨t', e, R⟩ := h.bin C (g := fun a b => a &&& b) (fun _ _ _ h => BE.and_val h) hx
    exact ⟨t', by simp only [Instr.exec, Instr.eff]; rw [e]; rfl, R⟩
  · obtain ⟨t', e, R⟩ := h.bin C (g := fun a b => a ||| b) (fun _ _ _ h => BE.or_val h) hx
    exact ⟨t', by simp only [Instr.exec, Instr.eff]; rw [e]; rfl, R⟩
  · rename_i d
    cases h1 : σ.val d with
    | none => simp [h1] at hx
    | some a =>
      simp only [h1, Option.bind_some] at hx
      obtain ⟨t', e, R⟩ := h.put C hx (w := ~~~ a.val ρ) (BE.not_val ρ a).symm
      exact ⟨t', by simp [Instr.exec, Instr.eff, h.val C h1, e], R⟩
  · rename_i d n
    cases h0 : Nat.beq (n.toNat % 64) 0
    · simp only [h0, cond_false] at hx
      have hn : n.toNat % 64 ≠ 0 := fun e => by simp [e] at h0
      cases h1 : σ.val (.reg d) with
      | none => simp [h1] at hx
      | some a =>
        cases h2 : a.rot (n.toNat % 64) with
        | none => simp [h1, h2] at hx
        | some c =>
          simp only [h1, h2, Option.bind_some, BS.put, Option.some.injEq] at hx
          subst hx
          have hv : t.get d = a.val ρ := by
            have := h.val C h1
            exact Option.some.inj this
          refine ⟨_, ?_, (h.set (r := d) (v := .e c) (w := (t.get d).rotateLeft (n.toNat % 64)) ?_).congr
            (u := { t.set d ((t.get d).rotateLeft (n.toNat % 64)) with
              cf := some (((t.get d).rotateLeft (n.toNat % 64)).getLsbD 0), of := none }) (fun r => by cases r <;> rfl) rfl rfl⟩
          · simp [Instr.exec, Instr.eff, hn]
          · show _ = c.val ρ
            rw [hv, BE.rot_val h2]
    · simp [h0] at hx
  · rename_i d x
    cases hx
    exact ⟨_, rfl, (h.set (h.reg x)).set (h.reg d)⟩
  · rename_i d r n
    cases h0 : Nat.beq n.toNat 0
    · simp [h0] at hx
    · simp only [h0, cond_true, Option.some.injEq] at hx
      subst hx
      refine ⟨_, rfl, h.set ?_⟩
      have : n = 0#64 := BitVec.eq_of_toNat_eq (Nat.eq_of_beq_eq_true h0)
      subst this
      simp only [St.ea, BitVec.add_zero]
      exact h.reg r
  · cases hx

/-- A stretch of code that the executor accepts. -/
theorem From.bits {ρ base : Nat → Word} {m0 : Word → Option Word} {w0 : Word → Bool} (C : BCtx ρ base m0 w0) {P : Prog}
    {Q : St → Prop} {n : Nat} {pc : Nat} {σ σ' : BS} {t : St} (hn : pc + n ≤ P.length) (h : BRel ρ base m0 w0 σ t)
    (hx : BS.run ((P.drop pc).take n) σ = some σ') (hQ : ∀ t', BRel ρ base m0 w0 σ' t' → From P (pc + n) t' Q) : From P pc t Q := by
  induction n generalizing pc σ t with
  | zero =>
    simp only [List.take_zero, BS.run, Option.some.injEq] at hx
    subst hx
    exact hQ t h
  | succ n ih =>
    have hl : pc < P.length := by omega
    rw [List.drop_eq_getElem_cons hl, List.take_succ_cons, BS.run] at hx
    cases h1 : σ.step P[pc] with
    | none => simp [h1] at hx
    | some σ1 =>
      rw [h1, Option.bind_some] at hx
      obtain ⟨t1, e, R⟩ := h.step C h1 pc
      refine From.next (List.getElem?_eq_getElem hl) ?_
      rw [e, then_some]
      exact ih (by omega) R hx (by rw [show pc + 1 + n = pc + (n + 1) by omega]; exact hQ)

end Verif.X86
