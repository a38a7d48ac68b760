import Verif.Proof.X86.MacSpec
import Verif.Proof.X86.Keep

/-!
Symbolic execution of straight-line programs of `Verif.X86`, and its soundness.

A word is followed as a polynomial, with integer coefficients and of degree at most two, in variables that stand for natural
numbers: the words of the inputs, the carries, and the upper halves of products.  The polynomial is an exact equation over the
integers, not one modulo `2^64`.  Where a carry is known to be zero because of the size of the numbers, a hint says from which
words this follows.
-/
namespace Verif.X86.Sym
open Verif Verif.X86

/-- Terms `(key, coefficient)`; the key of the product of variables `i ≤ j` is `2^20 i + j`, and variable 0 is one. -/
abbrev Poly := List (Nat × Int)

def mon (ρ : Nat → Nat) (k : Nat) : Int := (ρ (k / 1048576) : Int) * (ρ (k % 1048576) : Int)

/-- The value of a polynomial. -/
def ev (ρ : Nat → Nat) : Poly → Int
  | [] => 0
  | (k, a) :: p => a * mon ρ k + ev ρ p

def isZ : Int → Bool
  | .ofNat n => n.beq 0
  | .negSucc _ => false

def ins (k : Nat) (a : Int) (rest : Poly → Poly) (whole : Poly) : Poly → Poly
  | [] => whole
  | (l, b) :: q =>
    bif Nat.blt k l then (k, a) :: rest ((l, b) :: q)
    else bif Nat.blt l k then (l, b) :: ins k a rest whole q
    else bif isZ (a + b) then rest q else (k, a + b) :: rest q

def padd : Poly → Poly → Poly
  | [], q => q
  | (k, a) :: p, q => ins k a (padd p) ((k, a) :: p) q

def smul (c : Int) (p : Poly) : Poly := bif isZ c then [] else p.map fun x => (x.1, c * x.2)
def psub (p q : Poly) : Poly := padd p (smul (-1) q)
def con (n : Nat) : Poly := bif n.beq 0 then [] else [(0, .ofNat n)]
def vr (i : Nat) : Poly := [(i, 1)]

def lin (p : Poly) : Bool := p.all fun x => Nat.blt x.1 1048576
def key (i j : Nat) : Nat := bif Nat.blt i j then i * 1048576 + j else j * 1048576 + i
def mul1 (i : Nat) (a : Int) (q : Poly) : Poly := q.map fun x => (key i x.1, a * x.2)
def pmul : Poly → Poly → Poly
  | [], _ => []
  | (i, a) :: p, q => padd (mul1 i a q) (pmul p q)

/-- Odd variables are bits, the others words. -/
def ubv (i : Nat) : Nat := bif i.beq 0 then 1 else bif (i % 2).beq 1 then 1 else 0xffffffffffffffff

/-- A bound on the value. -/
def pmax : Poly → Nat
  | [] => 0
  | (k, .ofNat a) :: p => a * (ubv (k / 1048576) * ubv (k % 1048576)) + pmax p
  | (_, .negSucc _) :: p => pmax p

def asConst : Poly → Option Int
  | [] => some 0
  | [(0, a)] => some a
  | _ => none

/-- Valuations. -/
def Good (ρ : Nat → Nat) : Prop := ρ 0 = 1 ∧ ∀ i, ρ i ≤ ubv i

theorem isZ_eq {a : Int} : isZ a = true ↔ a = 0 := by
  cases a with
  | ofNat n =>
    constructor
    · intro h
      have := Nat.eq_of_beq_eq_true h
      subst this
      rfl
    · intro h
      cases h
      rfl
  | negSucc n =>
    constructor
    · intro h
      cases h
    · intro h
      cases h

theorem ev_ins {ρ k a rest whole} (hr : ∀ q, ev ρ (rest q) = ev ρ whole - a * mon ρ k + ev ρ q) :
    ∀ q, ev ρ (ins k a rest whole q) = ev ρ whole + ev ρ q
  | [] => by simp [ins, ev]
  | (l, b) :: q => by
    rw [ins]
    cases h1 : Nat.blt k l
    · cases h2 : Nat.blt l k
      · have e : k = l := by
          simp only [Nat.blt_eq, Bool.eq_false_iff, ne_eq] at h1 h2
          omega
        subst e
        cases h3 : isZ (a + b)
        · simp only [cond_false, ev, hr]
          have : (a + b) * mon ρ k = a * mon ρ k + b * mon ρ k := Int.add_mul ..
          omega
        · simp only [cond_false, cond_true, ev, hr]
          have h3 := isZ_eq.mp h3
          have : (a + b) * mon ρ k = a * mon ρ k + b * mon ρ k := Int.add_mul ..
          rw [h3] at this
          omega
      · simp only [cond_false, cond_true, ev, ev_ins hr q]
        omega
    · simp only [cond_true, ev, hr]
      omega

theorem ev_padd {ρ} : ∀ p q, ev ρ (padd p q) = ev ρ p + ev ρ q
  | [], q => by simp [padd, ev]
  | (k, a) :: p, q => by
    rw [padd]
    refine ev_ins ?_ q
    intro q
    rw [ev_padd p q]
    simp only [ev]
    omega

theorem ev_map {ρ} {c : Int} : ∀ p : Poly, ev ρ (p.map fun x => (x.1, c * x.2)) = c * ev ρ p
  | [] => by simp [ev]
  | (k, a) :: p => by
    rw [List.map_cons]
    simp only [ev]
    rw [ev_map p, Int.mul_add, Int.mul_assoc]

theorem ev_smul {ρ c p} : ev ρ (smul c p) = c * ev ρ p := by
  unfold smul
  cases h : isZ c
  · exact ev_map p
  · rw [isZ_eq.mp h]
    simp [ev]

theorem ev_psub {ρ p q} : ev ρ (psub p q) = ev ρ p - ev ρ q := by
  rw [psub, ev_padd, ev_smul]
  omega

theorem mon_zero {ρ} (h : Good ρ) : mon ρ 0 = 1 := by simp [mon, h.1]

theorem ev_con {ρ} (h : Good ρ) (n : Nat) : ev ρ (con n) = n := by
  unfold con
  cases e : n.beq 0
  · show Int.ofNat n * mon ρ 0 + 0 = n
    rw [mon_zero h]
    simp
  · rw [Nat.eq_of_beq_eq_true e]
    rfl

theorem mon_lin {ρ} (h : Good ρ) {i : Nat} (hi : i < 1048576) : mon ρ i = ρ i := by
  rw [mon, Nat.div_eq_of_lt hi, Nat.mod_eq_of_lt hi, h.1]
  simp

theorem ev_vr {ρ} (h : Good ρ) {i : Nat} (hi : i < 1048576) : ev ρ (vr i) = ρ i := by
  simp [vr, ev, mon_lin h hi]

theorem mon_key {ρ} {i j : Nat} (hi : i < 1048576) (hj : j < 1048576) : mon ρ (key i j) = ρ i * ρ j := by
  unfold key mon
  cases h : Nat.blt i j
  · rw [cond_false, show (j * 1048576 + i) / 1048576 = j by omega, show (j * 1048576 + i) % 1048576 = i by omega,
      Int.mul_comm]
  · rw [cond_true, show (i * 1048576 + j) / 1048576 = i by omega, show (i * 1048576 + j) % 1048576 = j by omega]

theorem ev_mul1 {ρ} (h : Good ρ) {i : Nat} {a : Int} (hi : i < 1048576) : ∀ {q : Poly}, lin q = true →
    ev ρ (mul1 i a q) = a * ρ i * ev ρ q
  | [], _ => by simp [mul1, ev]
  | (j, b) :: q, hl => by
    unfold lin at hl
    rw [List.all_cons, Bool.and_eq_true] at hl
    have hj : j < 1048576 := by simpa using hl.1
    have ih := ev_mul1 h hi (a := a) (q := q) hl.2
    unfold mul1 at ih ⊢
    rw [List.map_cons]
    simp only [ev]
    rw [ih, mon_key hi hj, mon_lin h hj, Int.mul_add]
    congr 1
    simp only [Int.mul_assoc, Int.mul_left_comm]

theorem ev_pmul {ρ} (h : Good ρ) {q : Poly} (hq : lin q = true) : ∀ {p : Poly}, lin p = true →
    ev ρ (pmul p q) = ev ρ p * ev ρ q
  | [], _ => by simp [pmul, ev]
  | (i, a) :: p, hl => by
    unfold lin at hl
    rw [List.all_cons, Bool.and_eq_true] at hl
    have hi : i < 1048576 := by simpa using hl.1
    rw [pmul, ev_padd, ev_mul1 h hi hq, ev_pmul h hq hl.2]
    simp only [ev]
    rw [mon_lin h hi, Int.add_mul]

theorem ev_le {ρ} (h : Good ρ) : ∀ p, ev ρ p ≤ pmax p
  | [] => by simp [ev, pmax]
  | (k, .ofNat a) :: p => by
    have ih := ev_le h p
    rw [ev, pmax]
    have h1 := h.2 (k / 1048576)
    have h2 := h.2 (k % 1048576)
    have h3 : ρ (k / 1048576) * ρ (k % 1048576) ≤ ubv (k / 1048576) * ubv (k % 1048576) := Nat.mul_le_mul h1 h2
    have h4 : a * (ρ (k / 1048576) * ρ (k % 1048576)) ≤ a * (ubv (k / 1048576) * ubv (k % 1048576)) := Nat.mul_le_mul_left a h3
    have h5 : Int.ofNat a * mon ρ k = ((a * (ρ (k / 1048576) * ρ (k % 1048576)) : Nat) : Int) := by
      rw [mon]
      push_cast
      rfl
    rw [h5]
    omega
  | (k, .negSucc a) :: p => by
    have ih := ev_le h p
    rw [ev, pmax]
    have h5 : mon ρ k = ((ρ (k / 1048576) * ρ (k % 1048576) : Nat) : Int) := by
      rw [mon]
      push_cast
      rfl
    have h6 : Int.negSucc a * mon ρ k ≤ 0 := by
      rw [h5]
      exact Int.mul_nonpos_of_nonpos_of_nonneg (by omega) (by omega)
    omega

theorem ev_const {ρ} (h : Good ρ) {p : Poly} {a : Int} (hp : asConst p = some a) : ev ρ p = a := by
  unfold asConst at hp
  split at hp
  · cases hp
    rfl
  · cases hp
    simp [ev, mon_zero h]
  · cases hp

/-! States -/

/-- What is known of a word: its polynomial, that it is `o` past pointer `b`, that it is the first value of a register,
nothing. -/
inductive SVal where
  | num (p : Poly)
  | ptr (b : Nat) (o : Word)
  | init (r : Reg)
  | empty

/-- A word of memory, `o` past pointer `b`; whether it may be written; what it holds. -/
structure Cell where
  b : Nat
  o : Word
  w : Bool
  v : SVal

/-- Facts that are not polynomial equations. -/
inductive Fact where
  | and (d a b : Poly)
  | or (d a b : Poly)
  | xor (d a b : Poly)
  | sel (d c a b : Poly)
  | selz (d z a b : Poly)
  | eq (d a : Poly)
  | lt (d : Poly) (k : Nat)
  | shr (d a : Poly) (k : Nat)
  | mac (k : Nat) (x y z : List Poly)
  deriving DecidableEq

/-- The number with these digits. -/
def evs (ρ : Nat → Nat) : List Poly → Nat
  | [] => 0
  | p :: l => (ev ρ p).toNat + 18446744073709551616 * evs ρ l

def Fact.holds (ρ : Nat → Nat) : Fact → Prop
  | .and d a b => ev ρ d = ((ev ρ a).toNat &&& (ev ρ b).toNat : Nat)
  | .or d a b => ev ρ d = ((ev ρ a).toNat ||| (ev ρ b).toNat : Nat)
  | .xor d a b => ev ρ d = ((ev ρ a).toNat ^^^ (ev ρ b).toNat : Nat)
  | .sel d c a b => ev ρ d = if ev ρ c = 1 then ev ρ a else ev ρ b
  | .selz d z a b => ev ρ d = if ev ρ z = 0 then ev ρ a else ev ρ b
  | .eq d a => ev ρ d = ev ρ a
  | .lt d k => ev ρ d < k
  | .shr d a k => ev ρ d = ((ev ρ a).toNat / 2 ^ k : Nat)
  | .mac k x y z => macSpec k (evs ρ x) (evs ρ y) (evs ρ z)

structure SSt where
  regs : List SVal
  cf : Option Poly
  of : Option Poly
  zf : Option Poly
  mem : List Cell
  nv : Nat
  words : List Poly
  facts : List Fact

def SSt.reg (σ : SSt) (r : Reg) : SVal := σ.regs.getD r.idx .empty
def SSt.setReg (σ : SSt) (r : Reg) (v : SVal) : SSt := { σ with regs := σ.regs.set r.idx v }

/-- A valuation that agrees with `ρ` on the variables in use. -/
def Al (nv : Nat) (ρ : Nat → Nat) (Q : (Nat → Nat) → Prop) : Prop := ∀ τ, Good τ → (∀ i < nv, τ i = ρ i) → Q τ

def SRep (B : Nat → Word) (s0 : St) (nv : Nat) (ρ : Nat → Nat) : SVal → Word → Prop
  | .num p, w => Al nv ρ fun τ => ev τ p = (w.toNat : Int)
  | .ptr b o, w => w = B b + o
  | .init r, w => w = s0.get r
  | .empty, _ => True

def Cell.addr (B : Nat → Word) (c : Cell) : Word := B c.b + c.o

def CRep (B : Nat → Word) (s0 : St) (nv : Nat) (ρ : Nat → Nat) (s : St) (c : Cell) : Prop :=
  match c.v with
  | .empty => True
  | v => ∃ w, s.mem (c.addr B) = some w ∧ SRep B s0 nv ρ v w

def FRep (nv : Nat) (ρ : Nat → Nat) (f : Option Poly) (x : Option Bool) : Prop :=
  ∀ p, f = some p → ∃ c : Bool, x = some c ∧ Al nv ρ fun τ => ev τ p = (c.toNat : Int)

def ZRep (nv : Nat) (ρ : Nat → Nat) (f : Option Poly) (x : Option Bool) : Prop :=
  ∀ p, f = some p → ∃ c : Bool, x = some c ∧ Al nv ρ fun τ => c = decide (ev τ p = 0)

/-- The symbolic state describes `s`, in a run from `s0`, under a valuation. -/
structure Rep (B : Nat → Word) (s0 : St) (ρ : Nat → Nat) (σ : SSt) (s : St) : Prop where
  good : Good ρ
  even : σ.nv % 2 = 0 ∧ 2 ≤ σ.nv
  len : σ.regs.length = 16
  regs : ∀ r, SRep B s0 σ.nv ρ (σ.reg r) (s.get r)
  cf : FRep σ.nv ρ σ.cf s.cf
  of : FRep σ.nv ρ σ.of s.of
  zf : ZRep σ.nv ρ σ.zf s.zf
  mem : ∀ c ∈ σ.mem, CRep B s0 σ.nv ρ s c
  wr : ∀ c ∈ σ.mem, c.w = true → s.wr (c.addr B) = true
  sep : ∀ c ∈ σ.mem, c.w = true → ∀ d ∈ σ.mem, (c.b ≠ d.b ∨ c.o ≠ d.o) → c.addr B ≠ d.addr B
  words : ∀ p ∈ σ.words, Al σ.nv ρ fun τ => 0 ≤ ev τ p ∧ ev τ p < 18446744073709551616
  facts : ∀ f ∈ σ.facts, Al σ.nv ρ fun τ => f.holds τ
  outside : ∀ a, (∀ c ∈ σ.mem, c.w = true → a ≠ c.addr B) → s.mem a = s0.mem a
  swr : s.wr = s0.wr

/-! Primitive steps -/

theorem Al.mono {nv mv ρ τ Q} (h : Al nv ρ Q) (hv : nv ≤ mv) (ha : ∀ i < nv, τ i = ρ i) : Al mv τ Q :=
  fun υ g hu => h υ g fun i hi => (hu i (by omega)).trans (ha i hi)

theorem SRep.mono {B s0 nv mv ρ τ v w} (h : SRep B s0 nv ρ v w) (hv : nv ≤ mv) (ha : ∀ i < nv, τ i = ρ i) :
    SRep B s0 mv τ v w := by
  cases v with
  | num p => exact Al.mono h hv ha
  | _ => exact h

theorem CRep.mono {B s0 nv mv ρ τ s c} (h : CRep B s0 nv ρ s c) (hv : nv ≤ mv) (ha : ∀ i < nv, τ i = ρ i) :
    CRep B s0 mv τ s c := by
  unfold CRep at *
  split at h
  · trivial
  · obtain ⟨w, h1, h2⟩ := h
    exact ⟨w, h1, h2.mono hv ha⟩

theorem FRep.mono {nv mv ρ τ f x} (h : FRep nv ρ f x) (hv : nv ≤ mv) (ha : ∀ i < nv, τ i = ρ i) : FRep mv τ f x := by
  intro p hp
  obtain ⟨c, h1, h2⟩ := h p hp
  exact ⟨c, h1, h2.mono hv ha⟩

theorem ZRep.mono {nv mv ρ τ f x} (h : ZRep nv ρ f x) (hv : nv ≤ mv) (ha : ∀ i < nv, τ i = ρ i) : ZRep mv τ f x := by
  intro p hp
  obtain ⟨c, h1, h2⟩ := h p hp
  exact ⟨c, h1, h2.mono hv ha⟩

/-- The value of a new variable. -/
def upd (ρ : Nat → Nat) (i v : Nat) : Nat → Nat := fun j => if j = i then v else ρ j

theorem Rep.fresh {B s0 ρ σ s} (h : Rep B s0 ρ σ s) {e v : Nat} (he : e < 2) (hv : v ≤ ubv (σ.nv + e)) :
    Rep B s0 (upd ρ (σ.nv + e) v) { σ with nv := σ.nv + 2 } s ∧ ∀ i < σ.nv, upd ρ (σ.nv + e) v i = ρ i := by
  have ha : ∀ i < σ.nv, upd ρ (σ.nv + e) v i = ρ i := fun i hi => if_neg (by omega)
  have hl : σ.nv ≤ σ.nv + 2 := by omega
  have h0 := h.even
  refine ⟨⟨⟨?_, ?_⟩, ?_, h.len, fun r => (h.regs r).mono hl ha, h.cf.mono hl ha, h.of.mono hl ha, h.zf.mono hl ha,
    fun c hc => (h.mem c hc).mono hl ha, h.wr, h.sep, fun p hp => (h.words p hp).mono hl ha,
    fun f hf => (h.facts f hf).mono hl ha, h.outside, h.swr⟩, ha⟩
  · rw [ha 0 (by omega)]
    exact h.good.1
  · intro i
    unfold upd
    split
    · rename_i e
      rw [e]
      exact hv
    · exact h.good.2 i
  · show (σ.nv + 2) % 2 = 0 ∧ 2 ≤ σ.nv + 2
    omega

theorem Rep.word {B s0 ρ σ s} (h : Rep B s0 ρ σ s) {p : Poly}
    (hp : Al σ.nv ρ fun τ => 0 ≤ ev τ p ∧ ev τ p < 18446744073709551616) :
    Rep B s0 ρ { σ with words := p :: σ.words } s :=
  ⟨h.good, h.even, h.len, h.regs, h.cf, h.of, h.zf, h.mem, h.wr, h.sep, fun q hq => by
    rcases List.mem_cons.mp hq with rfl | hq
    · exact hp
    · exact h.words q hq, h.facts, h.outside, h.swr⟩

theorem Rep.fact {B s0 ρ σ s} (h : Rep B s0 ρ σ s) {f : Fact} (hf : Al σ.nv ρ fun τ => f.holds τ) :
    Rep B s0 ρ { σ with facts := f :: σ.facts } s :=
  ⟨h.good, h.even, h.len, h.regs, h.cf, h.of, h.zf, h.mem, h.wr, h.sep, h.words, fun q hq => by
    rcases List.mem_cons.mp hq with rfl | hq
    · exact hf
    · exact h.facts q hq, h.outside, h.swr⟩

theorem reg_setReg {σ : SSt} (h : σ.regs.length = 16) (q r : Reg) (v : SVal) :
    (σ.setReg q v).reg r = if r = q then v else σ.reg r := by
  unfold SSt.reg SSt.setReg
  have hr : ∀ r : Reg, r.idx < 16 := by intro r; cases r <;> decide
  rw [List.getD_eq_getElem?_getD, List.getD_eq_getElem?_getD, List.getElem?_set]
  by_cases e : r = q
  · subst e
    simp [h, hr r]
  · have : q.idx ≠ r.idx := fun c => e (Reg.idx_inj c).symm
    simp [this, e]

theorem Rep.setReg {B s0 ρ σ s} (h : Rep B s0 ρ σ s) {r : Reg} {v : SVal} {w : Word} (hw : SRep B s0 σ.nv ρ v w) :
    Rep B s0 ρ (σ.setReg r v) (s.set r w) := by
  obtain ⟨c1, c2, c3, c4, c5, c6, c7⟩ := set_rest s r w
  refine ⟨h.good, h.even, ?_, ?_, ?_, ?_, ?_, ?_, ?_, h.sep, h.words, h.facts, ?_, ?_⟩
  · show (σ.regs.set _ _).length = 16
    rw [List.length_set]
    exact h.len
  · intro q
    rw [reg_setReg h.len, getset]
    split
    · exact hw
    · exact h.regs q
  · rw [c1]; exact h.cf
  · rw [c4]; exact h.of
  · rw [c2]; exact h.zf
  · intro c hc
    have := h.mem c hc
    unfold CRep at *
    rw [set_mem]
    exact this
  · intro c hc hw
    rw [show (s.set r w).wr = s.wr by cases r <;> rfl]
    exact h.wr c hc hw
  · intro a ha
    rw [set_mem]
    exact h.outside a ha
  · rw [show (s.set r w).wr = s.wr by cases r <;> rfl]
    exact h.swr

theorem Rep.flags {B s0 ρ σ s} (h : Rep B s0 ρ σ s) {cf of zf sf : Option Bool} {p q z : Option Poly} (h1 : FRep σ.nv ρ p cf)
    (h2 : FRep σ.nv ρ q of) (h3 : ZRep σ.nv ρ z zf) :
    Rep B s0 ρ { σ with cf := p, of := q, zf := z } { s with cf := cf, of := of, zf := zf, sf := sf } :=
  ⟨h.good, h.even, h.len, fun r => by
    have := h.regs r
    cases r <;> exact this, h1, h2, h3, h.mem, h.wr, h.sep, h.words, h.facts, h.outside, h.swr⟩

/-- Memory operands. -/
def SSt.key (σ : SSt) (m : Addr) : Option (Nat × Word) :=
  match m.base, m.idx with
  | some r, none =>
    match σ.reg r with
    | .ptr b o => some (b, o + m.disp)
    | _ => none
  | _, _ => none

def Cell.is (c : Cell) (k : Nat × Word) : Bool := c.b.beq k.1 && c.o == k.2

def SSt.load (σ : SSt) (k : Nat × Word) : Option SVal :=
  match σ.mem.find? fun c => c.is k with
  | none => none
  | some c => match c.v with
    | .empty => none
    | v => some v

def SSt.store (σ : SSt) (k : Nat × Word) (v : SVal) : Option SSt :=
  match σ.mem.find? fun c => c.is k with
  | none => none
  | some c =>
    if c.w = false then none else some { σ with mem := σ.mem.map fun c => bif c.is k then { c with v := v } else c }

def SSt.val (σ : SSt) : Opd → Option SVal
  | .reg r => some (σ.reg r)
  | .imm v => some (.num (con v.toNat))
  | .mem m => match σ.key m with
    | none => none
    | some k => σ.load k

def SSt.put (σ : SSt) (d : Opd) (v : SVal) : Option SSt :=
  match d with
  | .reg r => some (σ.setReg r v)
  | .imm _ => none
  | .mem m => match σ.key m with
    | none => none
    | some k => σ.store k v

theorem Rep.key {B s0 ρ σ s} (h : Rep B s0 ρ σ s) {m : Addr} {k} (hk : σ.key m = some k) : s.ea m = B k.1 + k.2 := by
  obtain ⟨base, idx, disp⟩ := m
  unfold SSt.key at hk
  cases base with
  | none => cases hk
  | some r =>
    cases idx with
    | some _ => cases hk
    | none =>
      dsimp only at hk
      split at hk
      · rename_i b o hr
        cases hk
        have := h.regs r
        rw [hr] at this
        have this : s.get r = B b + o := this
        show s.get r + 0#64 + disp = _
        rw [this, BitVec.add_zero, BitVec.add_assoc]
      · cases hk

theorem Cell.is_eq {c : Cell} {k} : c.is k = true ↔ c.b = k.1 ∧ c.o = k.2 := by
  unfold Cell.is
  rw [Bool.and_eq_true, Nat.beq_eq]
  simp

theorem Rep.load {B s0 ρ σ s} (h : Rep B s0 ρ σ s) {k v} (hv : σ.load k = some v) :
    ∃ w, s.mem (B k.1 + k.2) = some w ∧ SRep B s0 σ.nv ρ v w := by
  unfold SSt.load at hv
  split at hv
  · cases hv
  · rename_i c hc
    have h1 := List.mem_of_find?_eq_some hc
    have h2 := Cell.is_eq.mp (List.find?_some (p := fun c : Cell => c.is k) hc)
    have h3 := h.mem c h1
    unfold CRep Cell.addr at h3
    rw [h2.1, h2.2] at h3
    split at hv
    · cases hv
    · rename_i hne
      cases hv
      split at h3
      · rename_i e
        exact absurd e hne
      · exact h3

theorem Rep.val {B s0 ρ σ s} (h : Rep B s0 ρ σ s) {o : Opd} {v} (hv : σ.val o = some v) :
    ∃ w, s.val o = some w ∧ SRep B s0 σ.nv ρ v w := by
  cases o with
  | reg r =>
    cases hv
    exact ⟨_, rfl, h.regs r⟩
  | imm n =>
    cases hv
    refine ⟨n, rfl, fun τ g _ => ?_⟩
    exact ev_con g _
  | mem m =>
    simp only [SSt.val] at hv
    split at hv
    · cases hv
    · rename_i k hk
      obtain ⟨w, h1, h2⟩ := h.load hv
      refine ⟨w, ?_, h2⟩
      show s.mem (s.ea m) = _
      rw [h.key hk, h1]

theorem Rep.store {B s0 ρ σ s} (h : Rep B s0 ρ σ s) {k v σ'} (hv : σ.store k v = some σ') {w : Word}
    (hw : SRep B s0 σ.nv ρ v w) : ∃ s', s.store (B k.1 + k.2) w = some s' ∧ Rep B s0 ρ σ' s' := by
  unfold SSt.store at hv
  split at hv
  · cases hv
  · rename_i c hc
    have h1 := List.mem_of_find?_eq_some hc
    have h2 := Cell.is_eq.mp (List.find?_some (p := fun c : Cell => c.is k) hc)
    have haddr : c.addr B = B k.1 + k.2 := by rw [Cell.addr, h2.1, h2.2]
    split at hv
    · cases hv
    · rename_i hwr
      cases hv
      have hwr : c.w = true := by simpa using hwr
      have h3 := h.wr c h1 hwr
      rw [haddr] at h3
      refine ⟨_, by rw [St.store, if_pos h3], ?_⟩
      have cell : ∀ d ∈ σ.mem.map fun c => bif c.is k then { c with v := v } else c,
          ∃ c ∈ σ.mem, d.b = c.b ∧ d.o = c.o ∧ d.w = c.w ∧ d.v = bif c.is k then v else c.v := by
        intro d hd
        obtain ⟨c', hc', e⟩ := List.mem_map.mp hd
        refine ⟨c', hc', ?_⟩
        rw [← e]
        cases c'.is k <;> simp
      have ad : ∀ {d c : Cell}, d.b = c.b → d.o = c.o → d.addr B = c.addr B := by
        intro d c e1 e2
        rw [Cell.addr, Cell.addr, e1, e2]
      refine ⟨h.good, h.even, h.len, fun r => ?_, h.cf, h.of, h.zf, ?_, ?_, ?_, h.words, h.facts, ?_, h.swr⟩
      · have := h.regs r
        cases r <;> exact this
      · intro d hd
        obtain ⟨c', hc', e1, e2, e3, e4⟩ := cell d hd
        cases e : c'.is k
        · rw [e, cond_false] at e4
          have hm := h.mem c' hc'
          unfold CRep at hm ⊢
          rw [e4, ad e1 e2]
          have hne' : c'.addr B ≠ B k.1 + k.2 := by
            rw [← haddr]
            refine Ne.symm (h.sep c h1 hwr c' hc' ?_)
            have hx : ¬ (c'.b = k.1 ∧ c'.o = k.2) := fun z => by
              rw [Cell.is_eq.mpr z] at e
              cases e
            rw [h2.1, h2.2]
            by_cases z : c'.b = k.1
            · exact Or.inr fun y => hx ⟨z, y.symm⟩
            · exact Or.inl fun y => z y.symm
          split at hm
          · trivial
          · obtain ⟨w', m1, m2⟩ := hm
            refine ⟨w', ?_, m2⟩
            exact (if_neg hne').trans m1
        · rw [e, cond_true] at e4
          have e' := Cell.is_eq.mp e
          unfold CRep
          rw [e4]
          have hd' : d.addr B = B k.1 + k.2 := by rw [Cell.addr, e1, e2, e'.1, e'.2]
          split
          · trivial
          · refine ⟨w, ?_, hw⟩
            exact if_pos hd'
      · intro d hd hdw
        obtain ⟨c', hc', e1, e2, e3, -⟩ := cell d hd
        rw [ad e1 e2]
        exact h.wr c' hc' (e3 ▸ hdw)
      · intro d hd hdw d' hd' hne
        obtain ⟨c1, hc1, e1, e2, e3, -⟩ := cell d hd
        obtain ⟨c2, hc2, f1, f2, f3, -⟩ := cell d' hd'
        rw [ad e1 e2, ad f1 f2]
        refine h.sep c1 hc1 (e3 ▸ hdw) c2 hc2 ?_
        rw [← e1, ← e2, ← f1, ← f2]
        exact hne
      · intro a ha
        have hin : ∀ c' ∈ σ.mem, c'.w = true → a ≠ c'.addr B := by
          intro c' hc' hw'
          have := ha _ (List.mem_map_of_mem hc')
          cases e : c'.is k
          · rw [e] at this
            exact this hw'
          · rw [e] at this
            exact this hw'
        refine (if_neg ?_).trans (h.outside a hin)
        rw [← haddr]
        exact hin c h1 hwr

theorem Rep.put {B s0 ρ σ s} (h : Rep B s0 ρ σ s) {d : Opd} {v σ'} (hv : σ.put d v = some σ') {w : Word}
    (hw : SRep B s0 σ.nv ρ v w) : ∃ s', s.put d w = some s' ∧ Rep B s0 ρ σ' s' := by
  cases d with
  | reg r =>
    cases hv
    exact ⟨_, rfl, h.setReg hw⟩
  | imm n => cases hv
  | mem m =>
    simp only [SSt.put] at hv
    split at hv
    · cases hv
    · rename_i k hk
      obtain ⟨s', h1, h2⟩ := h.store hv hw
      refine ⟨s', ?_, h2⟩
      show s.store (s.ea m) w = _
      rw [h.key hk, h1]

end Verif.X86.Sym
