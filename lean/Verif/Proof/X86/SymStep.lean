import Verif.Proof.X86.Sym

/-! Symbolic execution: the instructions. -/
namespace Verif.X86.Sym
open Verif Verif.X86

/-- Advice for an instruction: words, with weights, from which it follows that there is no carry (a negative weight is one for
the difference of the word from the largest); whether the result is to become a variable. -/
structure Hint where
  w : Nat
  l : List (Nat × Int)
  atom : Bool

/-- Word number `i`, in the order in which they came. -/
def SSt.at' (σ : SSt) (i : Nat) : Poly := σ.words.getD (σ.words.length - 1 - i) []

/-- A number of words, or of their differences from the largest; words are counted from the last. -/
def SSt.part (σ : SSt) (i : Nat) (c : Int) : Poly :=
  match c with
  | .ofNat _ => smul c (σ.words.getD i [])
  | .negSucc n => padd (con ((n + 1) * 18446744073709551615)) (smul c (σ.words.getD i []))

def SSt.comb (σ : SSt) (l : List (Nat × Int)) (p : Poly) : Poly := l.foldl (fun q x => padd q (σ.part x.1 x.2)) p

/-- A sum of words with weights, and of `p` with weight `h.w`, is less than `h.w b`. -/
def SSt.small (σ : SSt) (h : Option Hint) (p : Poly) (b : Nat) : Bool :=
  match h with
  | none => false
  | some h => Nat.blt (pmax (σ.comb h.l (smul (.ofNat h.w) p))) (h.w * b)

def SSt.log (σ : SSt) (p q : Poly) : SSt := { σ with words := q :: p :: σ.words }
def SSt.log1 (σ : SSt) (p : Poly) : SSt := { σ with words := p :: σ.words }

def SSt.room (σ : SSt) : Bool := Nat.blt (σ.nv + 2) 1048576

def two64 : Nat := 18446744073709551616

/-- Sum and carry. -/
def addOp (h : Option Hint) (σ : SSt) (a b c : Poly) : Option (Poly × Poly × SSt) :=
  let S := padd (padd a b) c
  match asConst S with
  | some (.ofNat n) => some (con (n % two64), con (n / two64), σ.log (con (n % two64)) (con (n / two64)))
  | _ =>
    bif Nat.blt (pmax S) two64 || σ.small h S two64 then some (S, [], σ.log S [])
    else bif σ.room then
      let v := vr (σ.nv + 1)
      let r := psub S [(σ.nv + 1, 18446744073709551616)]
      some (r, v, { σ with nv := σ.nv + 2 }.log r v)
    else none

/-- Difference and borrow. -/
def subOp (h : Option Hint) (σ : SSt) (a b c : Poly) : Option (Poly × Poly × SSt) :=
  let E := psub a b
  let D := psub E c
  match asConst D with
  | some (.ofNat n) => some (con n, [], σ.log (con n) [])
  | some (.negSucc n) => some (con (two64 - (n + 1)), con 1, σ.log (con (two64 - (n + 1))) (con 1))
  | none =>
    bif E.isEmpty then
      let r := smul 18446744073709551615 c
      some (r, c, σ.log r c)
    else bif Nat.beq (pmax (smul (-1) D)) 0 || σ.small h (smul (-1) D) 1 then some (D, [], σ.log D [])
    else bif σ.room then
      let v := vr (σ.nv + 1)
      let r := padd D [(σ.nv + 1, 18446744073709551616)]
      some (r, v, { σ with nv := σ.nv + 2 }.log r v)
    else none

/-- The product of two polynomials, if it is one. -/
def prod (a b : Poly) : Option Poly :=
  match asConst a, asConst b with
  | some x, _ => some (smul x b)
  | _, some y => some (smul y a)
  | none, none => bif lin a && lin b then some (pmul a b) else none

/-- Lower and upper half of a product. -/
def mulOp (σ : SSt) (a b : Poly) : Option (Poly × Poly × SSt) :=
  match prod a b with
  | none => none
  | some P =>
    bif Nat.blt (pmax P) two64 then some (P, [], σ.log P [])
    else bif σ.room then
      let v := vr σ.nv
      let r := psub P [(σ.nv, 18446744073709551616)]
      some (r, v, { σ with nv := σ.nv + 2 }.log r v)
    else none

/-- A word of which nothing is known but the fact `f`. -/
def newOp (σ : SSt) (f : Poly → Fact) : Option (Poly × SSt) :=
  bif σ.room then some (vr σ.nv, { σ with nv := σ.nv + 2, words := vr σ.nv :: σ.words, facts := f (vr σ.nv) :: σ.facts }) else none

/-- The result as a variable, if so advised. -/
def atomOp (h : Option Hint) (p : Poly) (σ : SSt) : Option (Poly × SSt) :=
  match h with
  | some ⟨_, _, true⟩ => newOp σ fun v => .eq v p
  | _ => some (p, σ)

/-- The bit of which a word is the mask. -/
def asMask : Poly → Option Poly
  | [(k, .ofNat a)] => bif (k % 2).beq 1 && Nat.blt k 1048576 && a.beq 18446744073709551615 then some (vr k) else none
  | [(i, .ofNat a), (k, .negSucc b)] =>
    bif i.beq 0 && (k % 2).beq 1 && Nat.blt k 1048576 && a.beq 18446744073709551615 && b.beq 18446744073709551614 then
      some [(0, 1), (k, -1)] else none
  | _ => none

def andOp (σ : SSt) (a b : Poly) : Option (Poly × SSt) :=
  match asConst a, asConst b with
  | some x, some y => some (con (x.toNat &&& y.toNat), σ)
  | some 0, none => some ([], σ)
  | none, some 0 => some ([], σ)
  | _, _ =>
    match (asMask a).bind (prod b) with
    | some p => some (p, σ)
    | none => match (asMask b).bind (prod a) with
      | some p => some (p, σ)
      | none => newOp σ fun v => .and v a b

def orOp (σ : SSt) (a b : Poly) : Option (Poly × SSt) :=
  match asConst a, asConst b with
  | some x, some y => some (con (x.toNat ||| y.toNat), σ)
  | _, _ => newOp σ fun v => .or v a b

def xorOp (σ : SSt) (a b : Poly) : Option (Poly × SSt) :=
  match asConst a, asConst b with
  | some x, some y => some (con (x.toNat ^^^ y.toNat), σ)
  | _, _ => newOp σ fun v => .xor v a b

/-- If `c` is one then `a` else `b`. -/
def selOp (σ : SSt) (c a b : Poly) : Option (Poly × SSt) :=
  match asConst c with
  | some 0 => some (b, σ)
  | some 1 => some (a, σ)
  | _ => newOp σ fun v => .sel v c a b

def selzOp (σ : SSt) (z a b : Poly) : Option (Poly × SSt) := newOp σ fun v => .selz v z a b

/-- `a / 2^k`, which is looked up if it came before. -/
def shrOp (σ : SSt) (a : Poly) (k : Nat) : Option (Poly × SSt) :=
  match σ.facts.findSome? (fun f => match f with
    | .shr d b l => bif l.beq k && (psub a b).isEmpty then some d else none
    | _ => none) with
  | some d => some (d, σ)
  | none =>
    match newOp σ fun v => .shr v a k with
    | none => none
    | some (q, σ) =>
      some (q, σ.log (smul (.ofNat (2 ^ k)) q) (smul (.ofNat (2 ^ (64 - k))) (psub a (smul (.ofNat (2 ^ k)) q))))

def shlOp (σ : SSt) (a : Poly) (k : Nat) : Option (Poly × SSt) :=
  match shrOp σ a (64 - k) with
  | none => none
  | some (q, σ) => some (smul (.ofNat (2 ^ k)) (psub a (smul (.ofNat (2 ^ (64 - k))) q)), σ)

def shldOp (σ : SSt) (a x : Poly) (k : Nat) : Option (Poly × SSt) :=
  match shlOp σ a k with
  | none => none
  | some (p, σ) => match shrOp σ x (64 - k) with
    | none => none
    | some (q, σ) => some (padd p q, σ)

def shrdOp (σ : SSt) (a x : Poly) (k : Nat) : Option (Poly × SSt) :=
  match shlOp σ x (64 - k) with
  | none => none
  | some (p, σ) => match shrOp σ a k with
    | none => none
    | some (q, σ) => some (padd p q, σ)

/-! Soundness of the operations -/

abbrev Num (nv : Nat) (ρ : Nat → Nat) (p : Poly) (w : Word) : Prop := Al nv ρ fun τ => ev τ p = (w.toNat : Int)
abbrev Bit (nv : Nat) (ρ : Nat → Nat) (p : Poly) (c : Bool) : Prop := Al nv ρ fun τ => ev τ p = (c.toNat : Int)
/-- Variables in use keep their values. -/
structure GrowN (n : Nat) (ρ : Nat → Nat) (n' : Nat) (ρ' : Nat → Nat) : Prop where
  le : n ≤ n'
  eq : ∀ i < n, ρ' i = ρ i
abbrev Grow (σ : SSt) (ρ : Nat → Nat) (σ' : SSt) (ρ' : Nat → Nat) : Prop := GrowN σ.nv ρ σ'.nv ρ'

theorem GrowN.refl {σ ρ} : GrowN σ ρ σ ρ := ⟨Nat.le_refl _, fun _ _ => rfl⟩
theorem GrowN.trans {σ ρ σ1 ρ1 σ2 ρ2} (h : GrowN σ ρ σ1 ρ1) (g : GrowN σ1 ρ1 σ2 ρ2) : GrowN σ ρ σ2 ρ2 :=
  ⟨Nat.le_trans h.le g.le, fun i hi => (g.eq i (Nat.lt_of_lt_of_le hi h.le)).trans (h.eq i hi)⟩
theorem Al.grow {n n' ρ ρ' Q} (h : Al n ρ Q) (g : GrowN n ρ n' ρ') : Al n' ρ' Q := h.mono g.le g.eq

theorem adc_eq (a b : Word) (c : Bool) : ((adcv a b c).toNat : Int) + 18446744073709551616 * (adcc a b c).toNat =
    a.toNat + b.toNat + c.toNat := by
  unfold adcv adcc
  have ha := a.isLt
  have hb := b.isLt
  have hc : c.toNat ≤ 1 := by cases c <;> decide
  rw [BitVec.toNat_add, BitVec.toNat_add, BitVec.toNat_ofNat]
  by_cases h : 2 ^ 64 ≤ a.toNat + b.toNat + c.toNat
  · rw [decide_eq_true h]
    simp only [Bool.toNat_true]
    omega
  · rw [decide_eq_false h]
    simp only [Bool.toNat_false]
    omega

theorem sbb_eq (a b : Word) (c : Bool) : ((sbbv a b c).toNat : Int) =
    a.toNat - b.toNat - c.toNat + 18446744073709551616 * (sbbc a b c).toNat := by
  unfold sbbv sbbc
  have ha := a.isLt
  have hb := b.isLt
  have hc : c.toNat ≤ 1 := by cases c <;> decide
  rw [BitVec.toNat_sub, BitVec.toNat_sub, BitVec.toNat_ofNat]
  by_cases h : a.toNat < b.toNat + c.toNat
  · rw [decide_eq_true h]
    simp only [Bool.toNat_true]
    omega
  · rw [decide_eq_false h]
    simp only [Bool.toNat_false]
    omega

theorem mul_eq (a b : Word) : ((mullo a b).toNat : Int) + 18446744073709551616 * (mulhi a b).toNat = a.toNat * b.toNat := by
  unfold mullo mulhi
  have ha := a.isLt
  have hb := b.isLt
  have h : a.toNat * b.toNat < 2 ^ 64 * 2 ^ 64 := Nat.mul_lt_mul'' ha hb
  rw [BitVec.toNat_mul, BitVec.toNat_ofNat]
  have e : (a.toNat : Int) * b.toNat = ((a.toNat * b.toNat : Nat) : Int) := by push_cast; rfl
  rw [e]
  generalize a.toNat * b.toNat = m at h ⊢
  omega

theorem Rep.bit {B s0 ρ σ s} (h : Rep B s0 ρ σ s) (hr : σ.room = true) (c : Bool) :
    ∃ ρ', Rep B s0 ρ' { σ with nv := σ.nv + 2 } s ∧ Grow σ ρ { σ with nv := σ.nv + 2 } ρ' ∧
      Bit (σ.nv + 2) ρ' (vr (σ.nv + 1)) c := by
  have h0 := h.even
  have hr : σ.nv + 2 < 1048576 := by simpa [SSt.room] using hr
  have hu : ubv (σ.nv + 1) = 1 := by
    unfold ubv
    have h1 : (σ.nv + 1).beq 0 = false := rfl
    have h2 : (σ.nv + 1) % 2 = 1 := by omega
    rw [h1, h2]
    rfl
  obtain ⟨h1, h2⟩ := h.fresh (e := 1) (v := c.toNat) (by omega) (by rw [hu]; cases c <;> decide)
  refine ⟨_, h1, ⟨by show _ ≤ σ.nv + 2; omega, h2⟩, fun τ g ha => ?_⟩
  show ev τ (vr (σ.nv + 1)) = _
  rw [ev_vr g (by omega), ha (σ.nv + 1) (by omega)]
  simp [upd]

theorem Rep.wordVar {B s0 ρ σ s} (h : Rep B s0 ρ σ s) (hr : σ.room = true) (w : Word) :
    ∃ ρ', Rep B s0 ρ' { σ with nv := σ.nv + 2 } s ∧ Grow σ ρ { σ with nv := σ.nv + 2 } ρ' ∧
      Num (σ.nv + 2) ρ' (vr σ.nv) w := by
  have h0 := h.even
  have hr : σ.nv + 2 < 1048576 := by simpa [SSt.room] using hr
  have hu : ubv σ.nv = 0xffffffffffffffff := by
    unfold ubv
    have h1 : σ.nv.beq 0 = false := by
      cases e : σ.nv.beq 0
      · rfl
      · have := Nat.eq_of_beq_eq_true e
        omega
    rw [h1, h0.1]
    rfl
  obtain ⟨h1, h2⟩ := h.fresh (e := 0) (v := w.toNat) (by omega) (by rw [Nat.add_zero, hu]; have := w.isLt; omega)
  refine ⟨_, h1, ⟨by show _ ≤ σ.nv + 2; omega, h2⟩, fun τ g ha => ?_⟩
  show ev τ (vr σ.nv) = _
  rw [ev_vr g (by omega), ha σ.nv (by omega)]
  simp [upd]

theorem Rep.log {B s0 ρ σ s} (h : Rep B s0 ρ σ s) {p q : Poly} {w : Word} {c : Bool} (hp : Num σ.nv ρ p w) (hq : Bit σ.nv ρ q c) :
    Rep B s0 ρ (σ.log p q) s := by
  refine Rep.word (σ := { σ with words := p :: σ.words }) (h.word fun τ g ha => ?_) fun τ g ha => ?_
  · have := hp τ g ha
    dsimp only at this
    have := w.isLt
    omega
  · have := hq τ g ha
    dsimp only at this
    have : c.toNat ≤ 1 := by cases c <;> decide
    omega

theorem Rep.logw {B s0 ρ σ s} (h : Rep B s0 ρ σ s) {p q : Poly} {w x : Word} (hp : Num σ.nv ρ p w) (hq : Num σ.nv ρ q x) :
    Rep B s0 ρ (σ.log p q) s := by
  refine Rep.word (σ := { σ with words := p :: σ.words }) (h.word fun τ g ha => ?_) fun τ g ha => ?_
  · have := hp τ g ha
    dsimp only at this
    have := w.isLt
    omega
  · have := hq τ g ha
    dsimp only at this
    have := x.isLt
    omega

theorem Rep.small {B s0 ρ σ s} (h : Rep B s0 ρ σ s) {hint : Option Hint} {p : Poly} {b : Nat} (hs : σ.small hint p b = true) :
    Al σ.nv ρ fun τ => ev τ p < b := by
  intro τ g ha
  unfold SSt.small at hs
  split at hs
  · cases hs
  rename_i H
  rw [Nat.blt_eq] at hs
  have at0 : ∀ i, 0 ≤ ev τ (σ.words.getD i []) ∧ ev τ (σ.words.getD i []) < 18446744073709551616 := by
    intro i
    rw [List.getD_eq_getElem?_getD]
    cases e : σ.words[i]? with
    | none => simp [ev]
    | some q => exact h.words q (List.mem_of_getElem? e) τ g ha
  have part0 : ∀ i c, 0 ≤ ev τ (σ.part i c) := by
    intro i c
    unfold SSt.part
    have := at0 i
    split
    · rw [ev_smul]
      exact Int.mul_nonneg (by exact Int.natCast_nonneg _) this.1
    · rename_i n
      rw [ev_padd, ev_con g, ev_smul]
      have e : Int.negSucc n = -((n : Int) + 1) := by omega
      rw [e, Int.neg_mul]
      have h1 : ((n : Int) + 1) * ev τ (σ.words.getD i []) ≤ ((n : Int) + 1) * 18446744073709551615 :=
        Int.mul_le_mul_of_nonneg_left (by omega) (by omega)
      have h2 : (((n + 1) * 18446744073709551615 : Nat) : Int) = ((n : Int) + 1) * 18446744073709551615 := by
        rw [Int.natCast_mul, Int.natCast_add]
        rfl
      omega
  have key : ∀ (l : List (Nat × Int)) (q : Poly), ev τ q ≤ ev τ (σ.comb l q) := by
    intro l
    induction l with
    | nil => intro q; exact Int.le_refl _
    | cons x l ih =>
      intro q
      refine Int.le_trans ?_ (ih _)
      rw [ev_padd]
      have := part0 x.1 x.2
      omega
  have h1 := key H.l (smul (.ofNat H.w) p)
  have h2 := ev_le g (σ.comb H.l (smul (.ofNat H.w) p))
  rw [ev_smul] at h1
  have h3 : (H.w : Int) * ev τ p < H.w * b := by
    have : ((H.w * b : Nat) : Int) = (H.w : Int) * b := by push_cast; rfl
    have hw : Int.ofNat H.w * ev τ p = (H.w : Int) * ev τ p := rfl
    omega
  exact Int.lt_of_mul_lt_mul_left h3 (by omega)

theorem addOp_ok {B s0 ρ σ s} (h : Rep B s0 ρ σ s) {hint a b ci p q σ'} {x y : Word} {c : Bool} (ha : Num σ.nv ρ a x)
    (hb : Num σ.nv ρ b y) (hc : Bit σ.nv ρ ci c) (ho : addOp hint σ a b ci = some (p, q, σ')) :
    ∃ ρ', Rep B s0 ρ' σ' s ∧ Grow σ ρ σ' ρ' ∧ Num σ'.nv ρ' p (adcv x y c) ∧ Bit σ'.nv ρ' q (adcc x y c) := by
  have e := adc_eq x y c
  have hx := (adcv x y c).isLt
  have hq1 : (adcc x y c).toNat ≤ 1 := by cases adcc x y c <;> decide
  have hS : Al σ.nv ρ fun τ => ev τ (padd (padd a b) ci) = x.toNat + y.toNat + c.toNat := by
    intro τ g hag
    rw [ev_padd, ev_padd]
    have h1 := ha τ g hag
    have h2 := hb τ g hag
    have h3 := hc τ g hag
    dsimp only at h1 h2 h3
    omega
  unfold addOp at ho
  dsimp only at ho
  split at ho
  · rename_i n hn
    cases ho
    have hv : (n : Int) = x.toNat + y.toNat + c.toNat := by
      have h1 := hS ρ h.good fun _ _ => rfl
      have h2 := ev_const h.good hn
      dsimp only at h1
      rw [h2] at h1
      exact h1
    have h1 : Num σ.nv ρ (con (n % two64)) (adcv x y c) := by
      intro τ g _
      rw [ev_con g]
      unfold two64
      omega
    have h2 : Bit σ.nv ρ (con (n / two64)) (adcc x y c) := by
      intro τ g _
      rw [ev_con g]
      unfold two64
      omega
    exact ⟨ρ, h.log h1 h2, GrowN.refl, h1, h2⟩
  · cases hb : (Nat.blt (pmax (padd (padd a b) ci)) two64 || σ.small hint (padd (padd a b) ci) two64)
    · rw [hb, cond_false] at ho
      cases hr : σ.room
      · rw [hr] at ho
        cases ho
      · rw [hr, cond_true] at ho
        cases ho
        obtain ⟨ρ', h1, h2, h3⟩ := h.bit hr (adcc x y c)
        have h4 : Num (σ.nv + 2) ρ' (psub (padd (padd a b) ci) [(σ.nv + 1, 18446744073709551616)]) (adcv x y c) := by
          intro τ g hag
          have k1 := hS.grow h2 τ g hag
          have k2 := h3 τ g hag
          dsimp only at k1 k2
          have k3 : ev τ [(σ.nv + 1, 18446744073709551616)] = 18446744073709551616 * ev τ (vr (σ.nv + 1)) := by
            simp [ev, vr]
          rw [ev_psub, k1, k3, k2]
          omega
        exact ⟨ρ', h1.log h4 h3, h2, h4, h3⟩
    · rw [hb, cond_true] at ho
      cases ho
      have hlt : (x.toNat + y.toNat + c.toNat : Int) < 18446744073709551616 := by
        rw [Bool.or_eq_true] at hb
        have h1 := hS ρ h.good fun _ _ => rfl
        dsimp only at h1
        rcases hb with hb | hb
        · have h2 := ev_le h.good (padd (padd a b) ci)
          rw [Nat.blt_eq] at hb
          unfold two64 at hb
          omega
        · have h2 := h.small hb ρ h.good fun _ _ => rfl
          dsimp only at h2
          unfold two64 at h2
          omega
      have h1 : Num σ.nv ρ (padd (padd a b) ci) (adcv x y c) := by
        intro τ g hag
        have := hS τ g hag
        dsimp only at this
        rw [this]
        omega
      have h2 : Bit σ.nv ρ [] (adcc x y c) := by
        intro τ g hag
        simp only [ev]
        omega
      exact ⟨ρ, h.log h1 h2, GrowN.refl, h1, h2⟩

theorem subOp_ok {B s0 ρ σ s} (h : Rep B s0 ρ σ s) {hint a b ci p q σ'} {x y : Word} {c : Bool} (ha : Num σ.nv ρ a x)
    (hb : Num σ.nv ρ b y) (hc : Bit σ.nv ρ ci c) (ho : subOp hint σ a b ci = some (p, q, σ')) :
    ∃ ρ', Rep B s0 ρ' σ' s ∧ Grow σ ρ σ' ρ' ∧ Num σ'.nv ρ' p (sbbv x y c) ∧ Bit σ'.nv ρ' q (sbbc x y c) := by
  have e := sbb_eq x y c
  have hx := (sbbv x y c).isLt
  have hq1 : (sbbc x y c).toNat ≤ 1 := by cases sbbc x y c <;> decide
  have hD : Al σ.nv ρ fun τ => ev τ (psub (psub a b) ci) = x.toNat - y.toNat - c.toNat := by
    intro τ g hag
    rw [ev_psub, ev_psub]
    have h1 := ha τ g hag
    have h2 := hb τ g hag
    have h3 := hc τ g hag
    dsimp only at h1 h2 h3
    omega
  unfold subOp at ho
  dsimp only at ho
  have hD0 := hD ρ h.good fun _ _ => rfl
  dsimp only at hD0
  split at ho
  · rename_i n hn
    cases ho
    have h2 := ev_const h.good hn
    rw [h2] at hD0
    have hD0 : (n : Int) = x.toNat - y.toNat - c.toNat := hD0
    have h1 : Num σ.nv ρ (con n) (sbbv x y c) := by
      intro τ g _
      rw [ev_con g]
      omega
    have h2 : Bit σ.nv ρ [] (sbbc x y c) := by
      intro τ g _
      simp only [ev]
      omega
    exact ⟨ρ, h.log h1 h2, GrowN.refl, h1, h2⟩
  · rename_i n hn
    cases ho
    have h2 := ev_const h.good hn
    rw [h2] at hD0
    have hn : Int.negSucc n = -((n : Int) + 1) := by omega
    rw [hn] at hD0
    have hxl := x.isLt
    have hyl := y.isLt
    have h1 : Num σ.nv ρ (con (two64 - (n + 1))) (sbbv x y c) := by
      intro τ g _
      rw [ev_con g]
      unfold two64
      omega
    have h2 : Bit σ.nv ρ (con 1) (sbbc x y c) := by
      intro τ g _
      rw [ev_con g]
      omega
    exact ⟨ρ, h.log h1 h2, GrowN.refl, h1, h2⟩
  · cases hE : (psub a b).isEmpty
    · rw [hE, cond_false] at ho
      cases hb : (Nat.beq (pmax (smul (-1) (psub (psub a b) ci))) 0 || σ.small hint (smul (-1) (psub (psub a b) ci)) 1)
      · rw [hb, cond_false] at ho
        cases hr : σ.room
        · rw [hr] at ho
          cases ho
        · rw [hr, cond_true] at ho
          cases ho
          obtain ⟨ρ', h1, h2, h3⟩ := h.bit hr (sbbc x y c)
          have h4 : Num (σ.nv + 2) ρ' (padd (psub (psub a b) ci) [(σ.nv + 1, 18446744073709551616)]) (sbbv x y c) := by
            intro τ g hag
            have k1 := hD.grow h2 τ g hag
            have k2 := h3 τ g hag
            dsimp only at k1 k2
            have k3 : ev τ [(σ.nv + 1, 18446744073709551616)] = 18446744073709551616 * ev τ (vr (σ.nv + 1)) := by
              simp [ev, vr]
            rw [ev_padd, k1, k3, k2]
            omega
          exact ⟨ρ', h1.log h4 h3, h2, h4, h3⟩
      · rw [hb, cond_true] at ho
        cases ho
        have hge : (0 : Int) ≤ x.toNat - y.toNat - c.toNat := by
          rw [Bool.or_eq_true] at hb
          have h3 : ev ρ (smul (-1) (psub (psub a b) ci)) = -(x.toNat - y.toNat - c.toNat : Int) := by
            rw [ev_smul, hD0]
            omega
          rcases hb with hb | hb
          · have h2 := ev_le h.good (smul (-1) (psub (psub a b) ci))
            rw [Nat.eq_of_beq_eq_true hb] at h2
            omega
          · have h2 := h.small hb ρ h.good fun _ _ => rfl
            dsimp only at h2
            omega
        have h1 : Num σ.nv ρ (psub (psub a b) ci) (sbbv x y c) := by
          intro τ g hag
          have := hD τ g hag
          dsimp only at this
          rw [this]
          omega
        have h2 : Bit σ.nv ρ [] (sbbc x y c) := by
          intro τ g hag
          simp only [ev]
          omega
        exact ⟨ρ, h.log h1 h2, GrowN.refl, h1, h2⟩
    · rw [hE, cond_true] at ho
      cases ho
      have hxy : (x.toNat : Int) = y.toNat := by
        have h1 := ha ρ h.good fun _ _ => rfl
        have h2 := hb ρ h.good fun _ _ => rfl
        dsimp only at h1 h2
        have h3 : ev ρ (psub a b) = 0 := by
          rw [List.isEmpty_iff.mp hE]
          rfl
        rw [ev_psub] at h3
        omega
      have hcc : (sbbc x y c).toNat = c.toNat := by
        have : c.toNat ≤ 1 := by cases c <;> decide
        omega
      have h1 : Num σ.nv ρ (smul 18446744073709551615 ci) (sbbv x y c) := by
        intro τ g hag
        have := hc τ g hag
        dsimp only at this
        rw [ev_smul, this]
        omega
      have h2 : Bit σ.nv ρ ci (sbbc x y c) := by
        intro τ g hag
        rw [hcc]
        exact hc τ g hag
      exact ⟨ρ, h.log h1 h2, GrowN.refl, h1, h2⟩

theorem prod_ok {a b P : Poly} (h : prod a b = some P) {τ} (g : Good τ) : ev τ P = ev τ a * ev τ b := by
  unfold prod at h
  split at h
  · rename_i x hx
    cases h
    rw [ev_smul, ev_const g hx]
  · rename_i y hy _
    cases h
    rw [ev_smul, ev_const g hy, Int.mul_comm]
  · cases hl : (lin a && lin b)
    · rw [hl] at h
      cases h
    · rw [hl] at h
      cases h
      rw [Bool.and_eq_true] at hl
      exact ev_pmul g hl.2 hl.1

theorem mulOp_ok {B s0 ρ σ s} (h : Rep B s0 ρ σ s) {a b p q σ'} {x y : Word} (ha : Num σ.nv ρ a x)
    (hb : Num σ.nv ρ b y) (ho : mulOp σ a b = some (p, q, σ')) :
    ∃ ρ', Rep B s0 ρ' σ' s ∧ Grow σ ρ σ' ρ' ∧ Num σ'.nv ρ' p (mullo x y) ∧ Num σ'.nv ρ' q (mulhi x y) := by
  have e := mul_eq x y
  have hx := (mullo x y).isLt
  have hh := (mulhi x y).isLt
  unfold mulOp at ho
  split at ho
  · cases ho
  rename_i P hP
  have hS : Al σ.nv ρ fun τ => ev τ P = (x.toNat : Int) * y.toNat := by
    intro τ g hag
    have h1 := ha τ g hag
    have h2 := hb τ g hag
    dsimp only at h1 h2
    rw [prod_ok hP g, h1, h2]
  have hS0 := hS ρ h.good fun _ _ => rfl
  dsimp only at hS0
  generalize hg : pmax P = M at ho
  cases hb : Nat.blt M two64
  · rw [hb, cond_false] at ho
    cases hr : σ.room
    · rw [hr] at ho
      cases ho
    · rw [hr, cond_true] at ho
      cases ho
      obtain ⟨ρ', h1, h2, h3⟩ := h.wordVar hr (mulhi x y)
      have h4 : Num (σ.nv + 2) ρ' (psub P [(σ.nv, 18446744073709551616)]) (mullo x y) := by
        intro τ g hag
        have k1 := hS.grow h2 τ g hag
        have k2 := h3 τ g hag
        dsimp only at k1 k2
        have k3 : ev τ [(σ.nv, 18446744073709551616)] = 18446744073709551616 * ev τ (vr σ.nv) := by
          simp [ev, vr]
        rw [ev_psub, k1, k3, k2]
        omega
      exact ⟨ρ', h1.logw h4 h3, h2, h4, h3⟩
  · rw [hb, cond_true] at ho
    have hlt : (x.toNat : Int) * y.toNat < 18446744073709551616 := by
      have h2 := ev_le h.good P
      rw [hg] at h2
      rw [Nat.blt_eq] at hb
      unfold two64 at hb
      omega
    cases ho
    have h1 : Num σ.nv ρ p (mullo x y) := by
      intro τ g hag
      have := hS τ g hag
      dsimp only at this
      rw [this]
      omega
    have h2 : Num σ.nv ρ [] (mulhi x y) := by
      intro τ g hag
      simp only [ev]
      omega
    exact ⟨ρ, h.logw h1 h2, GrowN.refl, h1, h2⟩

theorem newOp_ok {B s0 ρ σ s} (h : Rep B s0 ρ σ s) {f p σ'} (w : Word) (ho : newOp σ f = some (p, σ'))
    (hf : ∀ mv τ q, Num mv τ q w → Grow σ ρ { σ with nv := mv } τ → Al mv τ fun υ => (f q).holds υ) :
    ∃ ρ', Rep B s0 ρ' σ' s ∧ Grow σ ρ σ' ρ' ∧ Num σ'.nv ρ' p w := by
  unfold newOp at ho
  cases hr : σ.room
  · rw [hr] at ho
    cases ho
  · rw [hr, cond_true] at ho
    cases ho
    obtain ⟨ρ', h1, h2, h3⟩ := h.wordVar hr w
    refine ⟨ρ', ?_, ⟨h2.le, h2.eq⟩, h3⟩
    have h4 := h1.word (p := vr σ.nv) fun τ g hag => by
      have := h3 τ g hag
      dsimp only at this
      have := w.isLt
      omega
    exact h4.fact (f := f (vr σ.nv)) (hf _ ρ' _ h3 ⟨h2.le, h2.eq⟩)

theorem atomOp_ok {B s0 ρ σ s} (h : Rep B s0 ρ σ s) {hint p q σ'} {w : Word} (hp : Num σ.nv ρ p w)
    (ho : atomOp hint p σ = some (q, σ')) : ∃ ρ', Rep B s0 ρ' σ' s ∧ Grow σ ρ σ' ρ' ∧ Num σ'.nv ρ' q w := by
  unfold atomOp at ho
  split at ho
  · refine newOp_ok h w ho fun mv τ q hq hg υ gυ hag => ?_
    have h1 := hq υ gυ hag
    have h2 := hp.mono hg.le hg.eq υ gυ hag
    dsimp only at h1 h2
    show ev υ q = ev υ p
    rw [h1, h2]
  · cases ho
    exact ⟨ρ, h, GrowN.refl, hp⟩

theorem Rep.log1 {B s0 ρ σ s} (h : Rep B s0 ρ σ s) {p : Poly} {w : Word} (hp : Num σ.nv ρ p w) :
    Rep B s0 ρ (σ.log1 p) s := by
  refine h.word fun τ g ha => ?_
  have := hp τ g ha
  dsimp only at this
  have := w.isLt
  omega

theorem asMask_ok {a q : Poly} (h : asMask a = some q) {τ} (g : Good τ) :
    ev τ a = 18446744073709551615 * ev τ q ∧ (ev τ q = 0 ∨ ev τ q = 1) := by
  have bit : ∀ k, (k % 2).beq 1 = true → τ k = 0 ∨ τ k = 1 := by
    intro k hk
    have h1 := g.2 k
    have h0 : k.beq 0 = false := by
      cases e : k.beq 0
      · rfl
      · rw [Nat.eq_of_beq_eq_true e] at hk
        cases hk
    unfold ubv at h1
    rw [h0, hk] at h1
    simp only [cond_true, cond_false] at h1
    omega
  unfold asMask at h
  split at h
  · rename_i k a
    cases hc : ((k % 2).beq 1 && Nat.blt k 1048576 && a.beq 18446744073709551615)
    · rw [hc] at h
      cases h
    · rw [hc, cond_true] at h
      cases h
      simp only [Bool.and_eq_true] at hc
      obtain ⟨⟨h1, h2⟩, h3⟩ := hc
      rw [Nat.blt_eq] at h2
      have h3 := Nat.eq_of_beq_eq_true h3
      subst h3
      have e := ev_vr g h2
      have : ev τ [(k, Int.ofNat 18446744073709551615)] = 18446744073709551615 * ev τ (vr k) := by
        simp [ev, vr]
      rw [this]
      refine ⟨rfl, ?_⟩
      rw [e]
      rcases bit k h1 with e | e <;> rw [e] <;> simp
  · rename_i i a k b
    cases hc : (i.beq 0 && (k % 2).beq 1 && Nat.blt k 1048576 && a.beq 18446744073709551615 && b.beq 18446744073709551614)
    · rw [hc] at h
      cases h
    · rw [hc, cond_true] at h
      cases h
      simp only [Bool.and_eq_true] at hc
      obtain ⟨⟨⟨⟨h0, h1⟩, h2⟩, h3⟩, h4⟩ := hc
      rw [Nat.blt_eq] at h2
      have h3 := Nat.eq_of_beq_eq_true h3
      have h4 := Nat.eq_of_beq_eq_true h4
      have h0 := Nat.eq_of_beq_eq_true h0
      subst h3 h4 h0
      have e := ev_vr g h2
      have e0 : ev τ [(0, (1 : Int))] = 1 := ev_con g 1
      have m0 : ev τ [(0, (1 : Int))] = mon τ 0 := by simp [ev]
      have m1 : ev τ (vr k) = mon τ k := by simp [ev, vr]
      have e1 : ev τ [(0, Int.ofNat 18446744073709551615), (k, Int.negSucc 18446744073709551614)] =
          18446744073709551615 - 18446744073709551615 * τ k := by
        rw [← e, m1]
        rw [m0] at e0
        simp only [ev, e0]
        have n : Int.negSucc 18446744073709551614 = -18446744073709551615 := rfl
        have n' : Int.ofNat 18446744073709551615 = 18446744073709551615 := rfl
        rw [n, n']
        omega
      have e2 : ev τ [(0, (1 : Int)), (k, -1)] = 1 - τ k := by
        rw [← e, m1]
        rw [m0] at e0
        simp only [ev, e0]
        omega
      rw [e1, e2]
      rcases bit k h1 with e | e <;> rw [e] <;> simp
  · cases h

theorem mask_and {a b : Poly} {x y : Word} {p} (h : (asMask a).bind (prod b) = some p) {τ} (g : Good τ)
    (ha : ev τ a = (x.toNat : Int)) (hb : ev τ b = (y.toNat : Int)) : ev τ p = ((x &&& y).toNat : Int) := by
  cases hm : asMask a with
  | none =>
    rw [hm] at h
    cases h
  | some q =>
    rw [hm] at h
    have hp : prod b q = some p := h
    have h1 := prod_ok hp g
    obtain ⟨h2, h3⟩ := asMask_ok hm g
    rw [h1, hb]
    rcases h3 with e | e
    · rw [e] at h2 ⊢
      have : x = 0#64 := by
        apply BitVec.eq_of_toNat_eq
        show x.toNat = 0
        omega
      subst this
      simp
    · rw [e] at h2 ⊢
      have : x = BitVec.allOnes 64 := by
        apply BitVec.eq_of_toNat_eq
        show x.toNat = 18446744073709551615
        omega
      subst this
      rw [BitVec.allOnes_and, Int.mul_one]

theorem andOp_ok {B s0 ρ σ s} (h : Rep B s0 ρ σ s) {a b p σ'} {x y : Word} (ha : Num σ.nv ρ a x) (hb : Num σ.nv ρ b y)
    (ho : andOp σ a b = some (p, σ')) : ∃ ρ', Rep B s0 ρ' σ' s ∧ Grow σ ρ σ' ρ' ∧ Num σ'.nv ρ' p (x &&& y) := by
  have ha0 := ha ρ h.good fun _ _ => rfl
  have hb0 := hb ρ h.good fun _ _ => rfl
  dsimp only at ha0 hb0
  unfold andOp at ho
  split at ho
  · rename_i n m h1 h2
    cases ho
    refine ⟨ρ, h, GrowN.refl, fun τ g _ => ?_⟩
    rw [ev_const h.good h1] at ha0
    rw [ev_const h.good h2] at hb0
    rw [ev_con g, BitVec.toNat_and, ha0, hb0]
    rfl
  · rename_i h1 _
    cases ho
    refine ⟨ρ, h, GrowN.refl, fun τ g _ => ?_⟩
    rw [ev_const h.good h1] at ha0
    have : x = 0#64 := BitVec.eq_of_toNat_eq (show x.toNat = 0 by omega)
    subst this
    simp [ev]
  · rename_i _ h1
    cases ho
    refine ⟨ρ, h, GrowN.refl, fun τ g _ => ?_⟩
    rw [ev_const h.good h1] at hb0
    have : y = 0#64 := BitVec.eq_of_toNat_eq (show y.toNat = 0 by omega)
    subst this
    simp [ev]
  · split at ho
    · rename_i q hq
      cases ho
      exact ⟨ρ, h, GrowN.refl, fun τ g hag => mask_and hq g (ha τ g hag) (hb τ g hag)⟩
    · split at ho
      · rename_i q hq
        cases ho
        refine ⟨ρ, h, GrowN.refl, fun τ g hag => ?_⟩
        rw [BitVec.and_comm]
        exact mask_and hq g (hb τ g hag) (ha τ g hag)
      · refine newOp_ok h _ ho fun mv τ q hq hg υ gυ hag => ?_
        have h1 := hq υ gυ hag
        have h2 := ha.mono hg.le hg.eq υ gυ hag
        have h3 := hb.mono hg.le hg.eq υ gυ hag
        dsimp only at h1 h2 h3
        show ev υ q = _
        rw [h1, h2, h3, BitVec.toNat_and]
        rfl

theorem orOp_ok {B s0 ρ σ s} (h : Rep B s0 ρ σ s) {a b p σ'} {x y : Word} (ha : Num σ.nv ρ a x) (hb : Num σ.nv ρ b y)
    (ho : orOp σ a b = some (p, σ')) : ∃ ρ', Rep B s0 ρ' σ' s ∧ Grow σ ρ σ' ρ' ∧ Num σ'.nv ρ' p (x ||| y) := by
  have ha0 := ha ρ h.good fun _ _ => rfl
  have hb0 := hb ρ h.good fun _ _ => rfl
  dsimp only at ha0 hb0
  unfold orOp at ho
  split at ho
  · rename_i n m h1 h2
    cases ho
    refine ⟨ρ, h, GrowN.refl, fun τ g _ => ?_⟩
    rw [ev_const h.good h1] at ha0
    rw [ev_const h.good h2] at hb0
    rw [ev_con g, BitVec.toNat_or, ha0, hb0]
    rfl
  · refine newOp_ok h _ ho fun mv τ q hq hg υ gυ hag => ?_
    have h1 := hq υ gυ hag
    have h2 := ha.mono hg.le hg.eq υ gυ hag
    have h3 := hb.mono hg.le hg.eq υ gυ hag
    dsimp only at h1 h2 h3
    show ev υ q = _
    rw [h1, h2, h3, BitVec.toNat_or]
    rfl

theorem xorOp_ok {B s0 ρ σ s} (h : Rep B s0 ρ σ s) {a b p σ'} {x y : Word} (ha : Num σ.nv ρ a x) (hb : Num σ.nv ρ b y)
    (ho : xorOp σ a b = some (p, σ')) : ∃ ρ', Rep B s0 ρ' σ' s ∧ Grow σ ρ σ' ρ' ∧ Num σ'.nv ρ' p (x ^^^ y) := by
  have ha0 := ha ρ h.good fun _ _ => rfl
  have hb0 := hb ρ h.good fun _ _ => rfl
  dsimp only at ha0 hb0
  unfold xorOp at ho
  split at ho
  · rename_i n m h1 h2
    cases ho
    refine ⟨ρ, h, GrowN.refl, fun τ g _ => ?_⟩
    rw [ev_const h.good h1] at ha0
    rw [ev_const h.good h2] at hb0
    rw [ev_con g, BitVec.toNat_xor, ha0, hb0]
    rfl
  · refine newOp_ok h _ ho fun mv τ q hq hg υ gυ hag => ?_
    have h1 := hq υ gυ hag
    have h2 := ha.mono hg.le hg.eq υ gυ hag
    have h3 := hb.mono hg.le hg.eq υ gυ hag
    dsimp only at h1 h2 h3
    show ev υ q = _
    rw [h1, h2, h3, BitVec.toNat_xor]
    rfl

theorem selOp_ok {B s0 ρ σ s} (h : Rep B s0 ρ σ s) {c a b p σ'} {x y : Word} {t : Bool} (hc : Bit σ.nv ρ c t)
    (ha : Num σ.nv ρ a x) (hb : Num σ.nv ρ b y) (ho : selOp σ c a b = some (p, σ')) :
    ∃ ρ', Rep B s0 ρ' σ' s ∧ Grow σ ρ σ' ρ' ∧ Num σ'.nv ρ' p (if t then x else y) := by
  have hc0 := hc ρ h.good fun _ _ => rfl
  dsimp only at hc0
  unfold selOp at ho
  split at ho
  · rename_i h1
    cases ho
    refine ⟨ρ, h, GrowN.refl, ?_⟩
    rw [ev_const h.good h1] at hc0
    cases t
    · exact hb
    · cases hc0
  · rename_i h1
    cases ho
    refine ⟨ρ, h, GrowN.refl, ?_⟩
    rw [ev_const h.good h1] at hc0
    cases t
    · cases hc0
    · exact ha
  · refine newOp_ok h _ ho fun mv τ q hq hg υ gυ hag => ?_
    have h1 := hq υ gυ hag
    have h2 := ha.mono hg.le hg.eq υ gυ hag
    have h3 := hb.mono hg.le hg.eq υ gυ hag
    have h4 := hc.mono hg.le hg.eq υ gυ hag
    dsimp only at h1 h2 h3 h4
    show ev υ q = if ev υ c = 1 then _ else _
    rw [h1, h2, h3, h4]
    cases t <;> simp

theorem selzOp_ok {B s0 ρ σ s} (h : Rep B s0 ρ σ s) {z a b p σ'} {x y : Word} {t : Bool}
    (hz : Al σ.nv ρ fun τ => t = decide (ev τ z = 0))
    (ha : Num σ.nv ρ a x) (hb : Num σ.nv ρ b y) (ho : selzOp σ z a b = some (p, σ')) :
    ∃ ρ', Rep B s0 ρ' σ' s ∧ Grow σ ρ σ' ρ' ∧ Num σ'.nv ρ' p (if t then x else y) := by
  refine newOp_ok h _ ho fun mv τ q hq hg υ gυ hag => ?_
  have h1 := hq υ gυ hag
  have h2 := ha.mono hg.le hg.eq υ gυ hag
  have h3 := hb.mono hg.le hg.eq υ gυ hag
  have h4 := hz.mono hg.le hg.eq υ gυ hag
  dsimp only at h1 h2 h3 h4
  show ev υ q = if ev υ z = 0 then _ else _
  rw [h1, h2, h3, h4]
  by_cases e : ev υ z = 0 <;> simp [e]

theorem shr_toNat (x : Word) (k : Nat) : (x >>> k).toNat = x.toNat / 2 ^ k := by
  rw [BitVec.toNat_ushiftRight, Nat.shiftRight_eq_div_pow]

theorem shl_toNat (x : Word) {k : Nat} (hk : k < 64) :
    ((x <<< k).toNat : Int) = 2 ^ k * (x.toNat - 2 ^ (64 - k) * (x.toNat / 2 ^ (64 - k) : Nat)) := by
  rw [BitVec.toNat_shiftLeft, Nat.shiftLeft_eq]
  have e : 2 ^ 64 = 2 ^ (64 - k) * 2 ^ k := by
    rw [← Nat.pow_add]
    congr 1
    omega
  rw [e, Nat.mul_mod_mul_right]
  have h := Nat.div_add_mod x.toNat (2 ^ (64 - k))
  have h : ((2 ^ (64 - k) * (x.toNat / 2 ^ (64 - k)) + x.toNat % 2 ^ (64 - k) : Nat) : Int) = x.toNat := by rw [h]
  push_cast at h ⊢
  rw [Int.mul_comm]
  congr 1
  omega

theorem shrOp_ok {B s0 ρ σ s} (h : Rep B s0 ρ σ s) {a p σ' k} {x : Word} (hk : 0 < k ∧ k < 64) (ha : Num σ.nv ρ a x)
    (ho : shrOp σ a k = some (p, σ')) : ∃ ρ', Rep B s0 ρ' σ' s ∧ Grow σ ρ σ' ρ' ∧ Num σ'.nv ρ' p (x >>> k) := by
  unfold shrOp at ho
  split at ho
  · rename_i d hd
    cases ho
    refine ⟨ρ, h, GrowN.refl, fun τ g hag => ?_⟩
    obtain ⟨f, hf, e⟩ := List.exists_of_findSome?_eq_some hd
    have hh := h.facts f hf τ g hag
    have hx := ha τ g hag
    dsimp only at hh hx
    split at e
    · rename_i d' b l
      cases hc : (l.beq k && (psub a b).isEmpty)
      · rw [hc] at e
        cases e
      · rw [hc, cond_true] at e
        cases e
        rw [Bool.and_eq_true] at hc
        have h1 := Nat.eq_of_beq_eq_true hc.1
        have h2 : ev τ (psub a b) = 0 := by
          rw [List.isEmpty_iff.mp hc.2]
          rfl
        rw [ev_psub] at h2
        have hh : ev τ p = _ := hh
        have e : ev τ b = x.toNat := by omega
        rw [hh, e, h1, shr_toNat]
        rfl
    · cases e
  · split at ho
    · cases ho
    · rename_i q σ1 hn
      cases ho
      obtain ⟨ρ', h1, h2, h3⟩ := newOp_ok h (x >>> k) hn fun mv τ q hq hg υ gυ hag => by
        have h1 := hq υ gυ hag
        have h2 := ha.mono hg.le hg.eq υ gυ hag
        dsimp only at h1 h2
        show ev υ q = _
        rw [h1, h2, shr_toNat]
        rfl
      have h4 : Num σ1.nv ρ' (smul (.ofNat (2 ^ k)) p) ((x >>> k) <<< k) := by
        intro τ g hag
        have k1 := h3 τ g hag
        dsimp only at k1
        rw [ev_smul, k1, BitVec.toNat_shiftLeft, Nat.shiftLeft_eq, shr_toNat, Nat.mod_eq_of_lt]
        · push_cast
          rw [Int.mul_comm]
          rfl
        · have := Nat.div_mul_le_self x.toNat (2 ^ k)
          have := x.isLt
          omega
      have h5 : Num σ1.nv ρ' (smul (.ofNat (2 ^ (64 - k))) (psub a (smul (.ofNat (2 ^ k)) p))) (x <<< (64 - k)) := by
        intro τ g hag
        have k1 := h3 τ g hag
        have k2 := ha.grow h2 τ g hag
        dsimp only at k1 k2
        rw [ev_smul, ev_psub, ev_smul, k1, k2, shl_toNat x (by omega), shr_toNat, show 64 - (64 - k) = k by omega]
        have e : ∀ n : Nat, Int.ofNat (2 ^ n) = 2 ^ n := fun n => by simp
        rw [e, e]
      exact ⟨ρ', h1.logw h4 h5, h2, h3⟩

theorem shlOp_ok {B s0 ρ σ s} (h : Rep B s0 ρ σ s) {a p σ' k} {x : Word} (hk : 0 < k ∧ k < 64) (ha : Num σ.nv ρ a x)
    (ho : shlOp σ a k = some (p, σ')) : ∃ ρ', Rep B s0 ρ' σ' s ∧ Grow σ ρ σ' ρ' ∧ Num σ'.nv ρ' p (x <<< k) := by
  unfold shlOp at ho
  split at ho
  · cases ho
  · rename_i q σ1 hs
    cases ho
    obtain ⟨ρ', h1, h2, h3⟩ := shrOp_ok h (by omega) ha hs
    refine ⟨ρ', h1, h2, fun τ g hag => ?_⟩
    have k1 := h3 τ g hag
    have k2 := ha.grow h2 τ g hag
    dsimp only at k1 k2 ⊢
    rw [ev_smul, ev_psub, ev_smul, k1, k2, shl_toNat x hk.2, shr_toNat]
    have e : ∀ n : Nat, Int.ofNat (2 ^ n) = 2 ^ n := fun n => by simp
    rw [e, e]

theorem or_toNat (x y : Word) {k : Nat} (hk : k < 64) : ((x <<< k) ||| (y >>> (64 - k))).toNat =
    (x <<< k).toNat + (y >>> (64 - k)).toNat := by
  rw [BitVec.toNat_or]
  have h1 : (y >>> (64 - k)).toNat < 2 ^ k := by
    rw [shr_toNat, Nat.div_lt_iff_lt_mul (Nat.two_pow_pos _), ← Nat.pow_add, show k + (64 - k) = 64 by omega]
    exact y.isLt
  have h2 : (x <<< k).toNat = (x.toNat % 2 ^ (64 - k)) <<< k := by
    rw [BitVec.toNat_shiftLeft, Nat.shiftLeft_eq, Nat.shiftLeft_eq]
    have e : 2 ^ 64 = 2 ^ (64 - k) * 2 ^ k := by
      rw [← Nat.pow_add]
      congr 1
      omega
    rw [e, Nat.mul_mod_mul_right]
  rw [h2, Nat.shiftLeft_add_eq_or_of_lt h1]

theorem shldOp_ok {B s0 ρ σ s} (h : Rep B s0 ρ σ s) {a b p σ' k} {x y : Word} (hk : 0 < k ∧ k < 64) (ha : Num σ.nv ρ a x)
    (hb : Num σ.nv ρ b y) (ho : shldOp σ a b k = some (p, σ')) :
    ∃ ρ', Rep B s0 ρ' σ' s ∧ Grow σ ρ σ' ρ' ∧ Num σ'.nv ρ' p ((x <<< k) ||| (y >>> (64 - k))) := by
  unfold shldOp at ho
  split at ho
  · cases ho
  · rename_i q σ1 hs
    obtain ⟨ρ1, h1, h2, h3⟩ := shlOp_ok h hk ha hs
    split at ho
    · cases ho
    · rename_i r σ2 hr
      cases ho
      obtain ⟨ρ2, h4, h5, h6⟩ := shrOp_ok h1 (by omega) (hb.grow h2) hr
      refine ⟨ρ2, h4, h2.trans h5, fun τ g hag => ?_⟩
      have k1 := h3.grow h5 τ g hag
      have k2 := h6 τ g hag
      dsimp only at k1 k2 ⊢
      rw [ev_padd, k1, k2, or_toNat x y hk.2]
      push_cast
      rfl

theorem shrdOp_ok {B s0 ρ σ s} (h : Rep B s0 ρ σ s) {a b p σ' k} {x y : Word} (hk : 0 < k ∧ k < 64) (ha : Num σ.nv ρ a x)
    (hb : Num σ.nv ρ b y) (ho : shrdOp σ a b k = some (p, σ')) :
    ∃ ρ', Rep B s0 ρ' σ' s ∧ Grow σ ρ σ' ρ' ∧ Num σ'.nv ρ' p ((x >>> k) ||| (y <<< (64 - k))) := by
  unfold shrdOp at ho
  split at ho
  · cases ho
  · rename_i q σ1 hs
    obtain ⟨ρ1, h1, h2, h3⟩ := shlOp_ok h (by omega) hb hs
    split at ho
    · cases ho
    · rename_i r σ2 hr
      cases ho
      obtain ⟨ρ2, h4, h5, h6⟩ := shrOp_ok h1 hk (ha.grow h2) hr
      refine ⟨ρ2, h4, h2.trans h5, fun τ g hag => ?_⟩
      have k1 := h3.grow h5 τ g hag
      have k2 := h6 τ g hag
      dsimp only at k1 k2 ⊢
      have e := or_toNat y x (k := 64 - k) (by omega)
      rw [show 64 - (64 - k) = k by omega] at e
      rw [ev_padd, k1, k2, BitVec.or_comm, e]
      push_cast
      rfl

end Verif.X86.Sym
