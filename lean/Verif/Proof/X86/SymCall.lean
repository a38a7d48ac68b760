import Verif.Proof.X86.SymRun
import Verif.Spec.AsmCall

/-! Symbolic execution of a routine from its entry. -/
namespace Verif.X86.Sym
open Verif Verif.X86

/-- A block of memory: it starts `sh` words below the address in a register. -/
structure Arg where
  reg : Reg
  len : Nat
  sh : Nat
  wr : Bool

def Arg.off (a : Arg) (j : Nat) : Word := 8#64 * BitVec.ofNat 64 j - BitVec.ofNat 64 (8 * a.sh)
def Arg.at' (a : Arg) (s : St) : Word := s.get a.reg - BitVec.ofNat 64 (8 * a.sh)

def baseOf (as : List Arg) (s : St) (b : Nat) : Word :=
  match as[b]? with
  | some a => s.get a.reg
  | none => 0#64

def allRegs : List Reg := [.rax, .rbx, .rcx, .rdx, .rsi, .rdi, .rbp, .rsp, .r8, .r9, .r10, .r11, .r12, .r13, .r14, .r15]

def regVal (r : Reg) : Nat → List Arg → SVal
  | _, [] => .init r
  | b, a :: as => bif a.reg.idx.beq r.idx then .ptr b 0#64 else regVal r (b + 1) as

def cellsFrom : Nat → List Arg → List Cell
  | _, [] => []
  | b, a :: as => (List.range a.len).map (fun j => ⟨b, a.off j, a.wr, .empty⟩) ++ cellsFrom (b + 1) as

/-- Nothing is known of the words in memory. -/
def start (as : List Arg) : SSt :=
  { regs := allRegs.map fun r => regVal r 0 as, cf := none, of := none, zf := none, mem := cellsFrom 0 as, nv := 2,
    words := [], facts := [] }

/-- A word of memory becomes a variable. -/
def learn (σ : SSt) (k : Nat × Word) : SSt :=
  { σ with
    nv := σ.nv + 2
    words := vr σ.nv :: σ.words
    mem := σ.mem.map fun c => bif c.is k then { c with v := .num (vr σ.nv) } else c }

def keysOf (as : List Arg) (b : Nat) : List (Nat × Word) :=
  match as[b]? with
  | some a => (List.range a.len).map fun j => (b, a.off j)
  | none => []

def entry (as : List Arg) (rd : List Nat) : SSt := (rd.flatMap (keysOf as)).foldl learn (start as)

/-! Certificates -/

def SSt.vec (σ : SSt) : Nat → List Nat → Poly
  | _, [] => []
  | c, i :: l => padd (smul (.ofNat c) (σ.at' i)) (σ.vec (c * two64) l)

/-- The number whose digits are the words with these numbers. -/
def vw (W : Nat → Nat) : List Nat → Nat
  | [] => 0
  | i :: l => W i + two64 * vw W l

inductive Term where
  | one (c : Int)
  | lin (c : Int) (a : List Nat)
  | mul (c : Int) (a b : List Nat)

def Term.poly (σ : SSt) : Term → Option Poly
  | .one c => some [(0, c)]
  | .lin c a => some (smul c (σ.vec 1 a))
  | .mul c a b =>
    bif Sym.lin (σ.vec 1 a) && Sym.lin (σ.vec 1 b) then some (smul c (pmul (σ.vec 1 a) (σ.vec 1 b))) else none

def Term.value (W : Nat → Nat) : Term → Int
  | .one c => c
  | .lin c a => c * vw W a
  | .mul c a b => c * (vw W a * vw W b)

def relPoly (σ : SSt) : List Term → Option Poly
  | [] => some []
  | t :: ts => match t.poly σ, relPoly σ ts with
    | some p, some q => some (padd p q)
    | _, _ => none

def relValue (W : Nat → Nat) : List Term → Int
  | [] => 0
  | t :: ts => t.value W + relValue W ts

def samePoly (p q : Poly) : Bool := (psub p q).isEmpty

/-- What is to be known of the words of a run. -/
inductive Claim where
  | rel (l : List Term)
  | sel (d : List Nat) (c : Nat) (a b : List Nat)
  | selz (d : List Nat) (z : Nat) (a b : List Nat)
  | or (d a b : Nat)
  | and (d a b : Nat)
  | andc (d a n : Nat)
  | shr (d a k : Nat)
  | le (i n : Nat)
  | out (b : Nat) (l : List Nat)
  | eq (d a : Nat)
  | selzc (d z m n : Nat)
  | selzw (d z m b : Nat)
  | selc (d c m n : Nat)
  | andk (d k c b : Nat)
  | selzk (d : List Nat) (k c : Nat) (a b : List Nat)
  | reg (l : List Reg) (d : List Nat)
  | mac (k : Nat) (x y z : List Nat)

def all2 {α β} (f : α → β → Bool) : List α → List β → Bool
  | [], [] => true
  | a :: l, b :: m => f a b && all2 f l m
  | _, _ => false

def all3 (f : Nat → Nat → Nat → Bool) : List Nat → List Nat → List Nat → Bool
  | [], [], [] => true
  | d :: ds, a :: as, b :: bs => f d a b && all3 f ds as bs
  | _, _, _ => false

def SSt.hasSel (σ : SSt) (d c a b : Nat) : Bool :=
  σ.facts.any fun f => match f with
    | .sel d' c' a' b' =>
      samePoly d' (σ.at' d) && samePoly c' (σ.at' c) && samePoly a' (σ.at' a) && samePoly b' (σ.at' b)
    | _ => false

def SSt.hasSelz (σ : SSt) (d c a b : Nat) : Bool :=
  σ.facts.any fun f => match f with
    | .selz d' c' a' b' =>
      samePoly d' (σ.at' d) && samePoly c' (σ.at' c) && samePoly a' (σ.at' a) && samePoly b' (σ.at' b)
    | _ => false

def SSt.hasSelzk (σ : SSt) (k d c a b : Nat) : Bool :=
  σ.facts.any fun f => match f with
    | .selz d' c' a' b' =>
      samePoly d' (σ.at' d) && samePoly c' (smul k (σ.at' c)) && samePoly a' (σ.at' a) && samePoly b' (σ.at' b)
    | _ => false

def outOk (σ : SSt) (as : List Arg) (b : Nat) : Nat → List Nat → Bool
  | _, [] => true
  | j, i :: l =>
    (match as[b]? with
      | none => false
      | some a => match σ.load (b, a.off j) with
        | some (.num p) => samePoly p (σ.at' i)
        | _ => false) && outOk σ as b (j + 1) l

def Claim.check (σ : SSt) (as : List Arg) : Claim → Bool
  | .rel l => match relPoly σ l with
    | some p => p.isEmpty
    | none => false
  | .sel d c a b => all3 (fun d a b => σ.hasSel d c a b) d a b
  | .selz d z a b => all3 (fun d a b => σ.hasSelz d z a b) d a b
  | .or d a b => σ.facts.any fun f => match f with
    | .or d' a' b' => samePoly d' (σ.at' d) && samePoly a' (σ.at' a) && samePoly b' (σ.at' b)
    | _ => false
  | .and d a b => σ.facts.any fun f => match f with
    | .and d' a' b' => samePoly d' (σ.at' d) && samePoly a' (σ.at' a) && samePoly b' (σ.at' b)
    | _ => false
  | .andc d a n => σ.facts.any fun f => match f with
    | .and d' a' b' => samePoly d' (σ.at' d) &&
      (samePoly a' (σ.at' a) && samePoly b' (con n) || samePoly b' (σ.at' a) && samePoly a' (con n))
    | _ => false
  | .shr d a k => σ.facts.any fun f => match f with
    | .shr d' a' k' => samePoly d' (σ.at' d) && samePoly a' (σ.at' a) && k'.beq k
    | _ => false
  | .le i n => Nat.ble (pmax (σ.at' i)) n
  | .out b l => outOk σ as b 0 l
  | .eq d a => σ.facts.any fun f => match f with
    | .eq d' a' => samePoly d' (σ.at' d) && samePoly a' (σ.at' a)
    | _ => false
  | .selzc d z m n => σ.facts.any fun f => match f with
    | .selz d' z' a' b' => samePoly d' (σ.at' d) && samePoly z' (σ.at' z) && samePoly a' (con m) && samePoly b' (con n)
    | _ => false
  | .selzw d z m b => σ.facts.any fun f => match f with
    | .selz d' z' a' b' => samePoly d' (σ.at' d) && samePoly z' (σ.at' z) && samePoly a' (con m) && samePoly b' (σ.at' b)
    | _ => false
  | .selc d c m n => σ.facts.any fun f => match f with
    | .sel d' c' a' b' => samePoly d' (σ.at' d) && samePoly c' (σ.at' c) && samePoly a' (con m) && samePoly b' (con n)
    | _ => false
  | .andk d k c b => σ.facts.any fun f => match f with
    | .and d' a' b' => samePoly d' (σ.at' d) && samePoly a' (smul k (σ.at' c)) && samePoly b' (σ.at' b)
    | _ => false
  | .selzk d k c a b => all3 (fun d a b => σ.hasSelzk k d c a b) d a b
  | .reg l d => all2 (fun r i => match σ.reg r with
    | .num p => samePoly p (σ.at' i)
    | _ => false) l d
  | .mac k x y z => σ.facts.any fun f => match f with
    | .mac k' x' y' z' => k'.beq k && all2 (fun p i => samePoly p (σ.at' i)) z' z &&
      all2 (fun p i => samePoly p (σ.at' i)) x' x && all2 (fun p i => samePoly p (σ.at' i)) y' y
    | _ => false

def Claim.Holds (s0 s : St) (as : List Arg) (W : Nat → Nat) : Claim → Prop
  | .rel l => relValue W l = 0
  | .sel d c a b => vw W d = if W c = 1 then vw W a else vw W b
  | .selz d z a b => vw W d = if W z = 0 then vw W a else vw W b
  | .or d a b => W d = W a ||| W b
  | .and d a b => W d = W a &&& W b
  | .andc d a n => W d = W a &&& n
  | .shr d a k => W d = W a / 2 ^ k
  | .le i n => W i ≤ n
  | .out b l => ∀ a, as[b]? = some a → X86.Holds s.mem (a.at' s0) (l.map fun i => BitVec.ofNat 64 (W i))
  | .eq d a => W d = W a
  | .selzc d z m n => W d = if W z = 0 then m else n
  | .selzw d z m b => W d = if W z = 0 then m else W b
  | .selc d c m n => W d = if W c = 1 then m else n
  | .andk d k c b => W d = (k * W c) &&& W b
  | .selzk d k c a b => vw W d = if k * W c = 0 then vw W a else vw W b
  | .reg l d => l.map s.get = d.map fun i => BitVec.ofNat 64 (W i)
  | .mac k x y z => macSpec k (vw W x) (vw W y) (vw W z)

def sameSkel : List Cell → List Cell → Bool
  | [], [] => true
  | c :: l, d :: m => c.is (d.b, d.o) && (!c.w || d.w) && sameSkel l m
  | _, _ => false

/-- The run ends in a state of which the claims hold. -/
def accept (as : List Arg) (rd : List Nat) (cs : List Claim) (r : Option SSt) : Bool :=
  match r with
  | none => false
  | some σ =>
    sameSkel σ.mem (cellsFrom 0 as) && (List.range (entry as rd).words.length).all (fun i => samePoly (σ.at' i) ((entry as rd).at' i)) &&
      cs.all fun c => c.check σ as

def verify (as : List Arg) (rd : List Nat) (hs : List (Nat × Hint)) (P : Prog) (cs : List Claim) : Bool :=
  accept as rd cs (runSym 0 hs P (entry as rd))

/-! Soundness -/

theorem regVal_ok {s : St} {r : Reg} (all : List Arg) : ∀ (as : List Arg) (b : Nat), (∀ i a, as[i]? = some a → all[b + i]? = some a) →
    SRep (baseOf all s) s nv ρ (regVal r b as) (s.get r)
  | [], _, _ => rfl
  | a :: as, b, h => by
    simp only [regVal]
    cases e : a.reg.idx.beq r.idx
    · exact regVal_ok all as (b + 1) fun i a' ha => by
        rw [show b + 1 + i = b + (i + 1) by omega]
        exact h (i + 1) a' ha
    · have h0 := h 0 a rfl
      show s.get r = baseOf all s b + 0#64
      have : baseOf all s b = s.get a.reg := by
        unfold baseOf
        rw [Nat.add_zero] at h0
        rw [h0]
      rw [this, BitVec.add_zero, Reg.idx_inj (Nat.eq_of_beq_eq_true e)]

theorem mem_cells {c : Cell} : ∀ (as : List Arg) (b : Nat), c ∈ cellsFrom b as →
    ∃ i a j, as[i]? = some a ∧ j < a.len ∧ c = ⟨b + i, a.off j, a.wr, .empty⟩
  | [], _, h => by cases h
  | a :: as, b, h => by
    rcases List.mem_append.mp h with h | h
    · obtain ⟨j, hj, rfl⟩ := List.mem_map.mp h
      exact ⟨0, a, j, rfl, List.mem_range.mp hj, rfl⟩
    · obtain ⟨i, a', j, h1, h2, h3⟩ := mem_cells as (b + 1) h
      exact ⟨i + 1, a', j, h1, h2, by rw [h3, show b + 1 + i = b + (i + 1) by omega]⟩

theorem cells_mem {as : List Arg} : ∀ {b i a j}, as[i]? = some a → j < a.len → (⟨b + i, a.off j, a.wr, .empty⟩ : Cell) ∈ cellsFrom b as := by
  induction as with
  | nil => intro b i a j h; cases h
  | cons x as ih =>
    intro b i a j h hj
    cases i with
    | zero =>
      cases h
      exact List.mem_append_left _ (List.mem_map.mpr ⟨j, List.mem_range.mpr hj, rfl⟩)
    | succ i =>
      refine List.mem_append_right _ ?_
      have := ih (b := b + 1) (i := i) h hj
      rw [show b + 1 + i = b + (i + 1) by omega] at this
      exact this

theorem addr_word (a : Arg) (s : St) (j : Nat) : s.get a.reg + a.off j = word (a.at' s) j := by
  unfold Arg.off Arg.at' word
  simp only [BitVec.sub_eq_add_neg, BitVec.add_assoc, BitVec.add_comm]

def blockOf (s : St) (a : Arg) (w : Option Words) : Block := ⟨a.at' s, a.len, a.wr, w⟩

theorem zip_get {α β} {l : List α} {m : List β} (h : l.length = m.length) {i : Nat} {a : α} (ha : l[i]? = some a) :
    ∃ b, (l.zip m)[i]? = some (a, b) := by
  have hi : i < l.length := by
    rcases Nat.lt_or_ge i l.length with h | h
    · exact h
    · rw [List.getElem?_eq_none h] at ha
      cases ha
  have hm : i < m.length := by omega
  refine ⟨m[i], ?_⟩
  rw [List.getElem?_eq_getElem (by rw [List.length_zip]; omega), List.getElem_zip]
  rw [List.getElem?_eq_getElem hi] at ha
  cases ha
  rfl

theorem start_rep {s : St} {as : List Arg} {ws : List (Option Words)} (hl : as.length = ws.length)
    (hs : ∀ a ∈ as, a.len < 2 ^ 60) (h : Ready s ((as.zip ws).map fun x => blockOf s x.1 x.2)) :
    Rep (baseOf as s) s (fun i => if i = 0 then 1 else 0) (start as) s := by
  have ad : ∀ {i a j}, as[i]? = some a → (⟨0 + i, Arg.off a j, a.wr, .empty⟩ : Cell).addr (baseOf as s) = word (a.at' s) j := by
    intro i a j e
    unfold Cell.addr baseOf
    rw [Nat.zero_add, e]
    exact addr_word a s j
  refine ⟨⟨rfl, fun i => ?_⟩, ⟨show 2 % 2 = 0 from rfl, Nat.le_refl _⟩, rfl, fun r => ?_, frep_none, frep_none, zrep_none, ?_, ?_, ?_, ?_, ?_, fun _ _ => rfl, rfl⟩
  · dsimp only
    split
    · rename_i e
      subst e
      decide
    · exact Nat.zero_le _
  · have : (start as).reg r = regVal r 0 as := by cases r <;> rfl
    rw [this]
    exact regVal_ok as as 0 fun i a e => by rw [Nat.zero_add]; exact e
  · intro c hc
    obtain ⟨i, a, j, h1, h2, rfl⟩ := mem_cells as 0 hc
    exact trivial
  · intro c hc hw
    obtain ⟨i, a, j, h1, h2, rfl⟩ := mem_cells as 0 hc
    rw [ad h1]
    obtain ⟨w, hz⟩ := zip_get hl h1
    exact (h.ok _ (List.mem_map.mpr ⟨_, List.mem_of_getElem? hz, rfl⟩)).owns hw j h2
  · intro c hc hw d hd hne
    obtain ⟨i, a, j, h1, h2, rfl⟩ := mem_cells as 0 hc
    obtain ⟨i', a', j', h1', h2', rfl⟩ := mem_cells as 0 hd
    rw [ad h1, ad h1']
    obtain ⟨w, hz⟩ := zip_get hl h1
    obtain ⟨w', hz'⟩ := zip_get hl h1'
    rcases Nat.lt_trichotomy i i' with e | e | e
    · have hp := List.pairwise_iff_getElem.mp h.apart i i' (by
          have := List.getElem?_eq_some_iff.mp hz; rw [List.length_map]; exact this.1) (by
          have := List.getElem?_eq_some_iff.mp hz'; rw [List.length_map]; exact this.1) e
      simp only [List.getElem_map] at hp
      rw [(List.getElem?_eq_some_iff.mp hz).2, (List.getElem?_eq_some_iff.mp hz').2] at hp
      exact hp (Or.inl hw) j h2 j' h2'
    · subst e
      rw [h1] at h1'
      cases h1'
      have hjj : j ≠ j' := by
        rintro rfl
        rcases hne with e | e <;> exact e rfl
      intro e
      unfold word at e
      have e : 8#64 * BitVec.ofNat 64 j = 8#64 * BitVec.ofNat 64 j' := by simpa using e
      have := congrArg BitVec.toNat e
      simp only [BitVec.toNat_mul, BitVec.toNat_ofNat] at this
      have hb := hs a (List.mem_of_getElem? h1)
      omega
    · have hp := List.pairwise_iff_getElem.mp h.apart i' i (by
          have := List.getElem?_eq_some_iff.mp hz'; rw [List.length_map]; exact this.1) (by
          have := List.getElem?_eq_some_iff.mp hz; rw [List.length_map]; exact this.1) e
      simp only [List.getElem_map] at hp
      rw [(List.getElem?_eq_some_iff.mp hz).2, (List.getElem?_eq_some_iff.mp hz').2] at hp
      exact (hp (Or.inr hw) j' h2' j h2).symm
  · intro p hp
    cases hp
  · intro f hf
    cases hf

theorem at_cons {σ : SSt} {p : Poly} {i : Nat} (h : i < σ.words.length) (σ' : SSt) (hw : σ'.words = p :: σ.words) :
    σ'.at' i = σ.at' i := by
  unfold SSt.at'
  rw [hw, List.length_cons, show σ.words.length + 1 - 1 - i = (σ.words.length - 1 - i) + 1 by omega]
  rfl

theorem learn_rep {B s0 ρ σ s} (h : Rep B s0 ρ σ s) {k : Nat × Word} {w : Word} (hm : s.mem (B k.1 + k.2) = some w)
    (hr : σ.room = true) : ∃ ρ', Rep B s0 ρ' (learn σ k) s ∧ Grow σ ρ (learn σ k) ρ' ∧ Num (learn σ k).nv ρ' ((learn σ k).at' σ.words.length) w := by
  obtain ⟨ρ', h1, h2, h3⟩ := h.wordVar hr w
  have hat : (learn σ k).at' σ.words.length = vr σ.nv := by
    unfold SSt.at' learn
    simp
  refine ⟨ρ', ?_, h2, ?_⟩
  · have ad : ∀ c : Cell, (bif c.is k then { c with v := .num (vr σ.nv) } else c : Cell).addr B = c.addr B := by
      intro c
      cases c.is k <;> rfl
    refine ⟨h1.good, h1.even, h1.len, h1.regs, h1.cf, h1.of, h1.zf, ?_, ?_, ?_, ?_, h1.facts, ?_, h1.swr⟩
    · intro c hc
      obtain ⟨d, hd, rfl⟩ := List.mem_map.mp hc
      cases e : d.is k
      · rw [cond_false]
        exact h1.mem d hd
      · rw [cond_true]
        have e := Cell.is_eq.mp e
        refine ⟨w, ?_, h3⟩
        show s.mem (B d.b + d.o) = _
        rw [e.1, e.2, hm]
    · intro c hc hw
      obtain ⟨d, hd, rfl⟩ := List.mem_map.mp hc
      rw [ad]
      refine h1.wr d hd ?_
      revert hw
      cases d.is k <;> exact id
    · intro c hc hw c' hc' hne
      obtain ⟨d, hd, rfl⟩ := List.mem_map.mp hc
      obtain ⟨d', hd', rfl⟩ := List.mem_map.mp hc'
      rw [ad, ad]
      refine h1.sep d hd ?_ d' hd' ?_
      · revert hw
        cases d.is k <;> exact id
      · revert hne
        cases d.is k <;> cases d'.is k <;> exact id
    · intro p hp
      rcases List.mem_cons.mp hp with rfl | hp
      · intro τ g hag
        have := h3 τ g hag
        dsimp only at this ⊢
        have := w.isLt
        omega
      · exact h1.words p hp
    · intro a ha
      refine h1.outside a fun c hc hw => ?_
      have := ha _ (List.mem_map.mpr ⟨c, hc, rfl⟩)
      rw [ad] at this
      refine this ?_
      revert hw
      cases c.is k <;> exact id
  · rw [hat]
    exact h3

/-- The words on entry. -/
def Known (σ : SSt) (ρ : Nat → Nat) (ins : Words) : Prop :=
  σ.words.length = ins.length ∧ ∀ i (h : i < ins.length), Num σ.nv ρ (σ.at' i) ins[i]

theorem learnAll_rep {B s0 s} : ∀ {ks : List (Nat × Word)} {ws : Words} {ρ σ ins}, Rep B s0 ρ σ s → Known σ ρ ins →
    ks.length = ws.length → (∀ i (h : i < ks.length) (h' : i < ws.length), s.mem (B ks[i].1 + ks[i].2) = some ws[i]) →
    σ.nv + 2 * ks.length < 1048576 - 2 → ∃ ρ', Rep B s0 ρ' (ks.foldl learn σ) s ∧ Known (ks.foldl learn σ) ρ' (ins ++ ws) := by
  intro ks
  induction ks with
  | nil =>
    intro ws ρ σ ins h hk hl _ _
    cases ws with
    | nil =>
      rw [List.append_nil]
      exact ⟨ρ, h, hk⟩
    | cons _ _ => cases hl
  | cons k ks ih =>
    intro ws ρ σ ins h hk hl hm hn
    cases ws with
    | nil => cases hl
    | cons w ws =>
      rw [List.length_cons] at hn
      obtain ⟨ρ1, h1, h2, h3⟩ := learn_rep h (hm 0 (by simp) (by simp)) (by
        unfold SSt.room
        rw [Nat.blt_eq]
        omega)
      have hk1 : Known (learn σ k) ρ1 (ins ++ [w]) := by
        refine ⟨by simp [learn, hk.1], fun i hi => ?_⟩
        by_cases hi' : i < ins.length
        · rw [List.getElem_append_left hi', at_cons (by rw [hk.1]; exact hi') (learn σ k) rfl]
          exact (hk.2 i hi').grow h2
        · have e : i = σ.words.length := by
            rw [hk.1]
            rw [List.length_append] at hi
            simp at hi
            omega
          subst e
          have : (ins ++ [w])[σ.words.length] = w := by simp [hk.1]
          rw [this]
          exact h3
      obtain ⟨ρ2, h4, h5⟩ := ih h1 hk1 (by simpa using hl) (fun i a b => hm (i + 1) (by simpa using a) (by simpa using b)) (by
        show σ.nv + 2 + _ < _
        omega)
      refine ⟨ρ2, h4, ?_⟩
      rw [show ins ++ w :: ws = (ins ++ [w]) ++ ws by simp]
      exact h5

/-! Certificates -/

/-- The value of a word. -/
def SSt.W (σ : SSt) (ρ : Nat → Nat) (i : Nat) : Nat := (ev ρ (σ.at' i)).toNat

theorem Rep.at_bound {B s0 ρ σ s} (h : Rep B s0 ρ σ s) (i : Nat) : 0 ≤ ev ρ (σ.at' i) ∧ ev ρ (σ.at' i) < 18446744073709551616 := by
  unfold SSt.at'
  rw [List.getD_eq_getElem?_getD]
  cases e : σ.words[σ.words.length - 1 - i]? with
  | none => exact ⟨Int.le_refl _, show (0 : Int) < _ by decide⟩
  | some p => exact h.words p (List.mem_of_getElem? e) ρ h.good fun _ _ => rfl

theorem Rep.W_eq {B s0 ρ σ s} (h : Rep B s0 ρ σ s) (i : Nat) : ev ρ (σ.at' i) = (σ.W ρ i : Int) := by
  unfold SSt.W
  have := (h.at_bound i).1
  omega

theorem Rep.vec_eq {B s0 ρ σ s} (h : Rep B s0 ρ σ s) : ∀ (l : List Nat) (c : Nat), ev ρ (σ.vec c l) = (c * vw (σ.W ρ) l : Nat)
  | [], c => by simp [SSt.vec, vw, ev]
  | i :: l, c => by
    rw [SSt.vec, ev_padd, ev_smul, h.W_eq, h.vec_eq l, vw]
    push_cast
    have e : Int.ofNat c = (c : Int) := rfl
    rw [e, Int.mul_add, Int.mul_assoc]

theorem Term.poly_eq {B s0 ρ σ s} (h : Rep B s0 ρ σ s) {t : Term} {p} (hp : t.poly σ = some p) : ev ρ p = t.value (σ.W ρ) := by
  cases t with
  | one c =>
    cases hp
    have := ev_const (p := [(0, c)]) h.good rfl
    exact this
  | lin c a =>
    cases hp
    rw [ev_smul, h.vec_eq, Nat.one_mul]
    rfl
  | mul c a b =>
    simp only [Term.poly] at hp
    cases hl : (Sym.lin (σ.vec 1 a) && Sym.lin (σ.vec 1 b))
    · rw [hl] at hp
      cases hp
    · rw [hl] at hp
      cases hp
      rw [Bool.and_eq_true] at hl
      rw [ev_smul, ev_pmul h.good hl.2 hl.1, h.vec_eq, h.vec_eq, Nat.one_mul, Nat.one_mul]
      rfl

theorem relPoly_eq {B s0 ρ σ s} (h : Rep B s0 ρ σ s) : ∀ {l : List Term} {p}, relPoly σ l = some p → ev ρ p = relValue (σ.W ρ) l
  | [], p, hp => by
    cases hp
    rfl
  | t :: l, p, hp => by
    simp only [relPoly] at hp
    split at hp
    · rename_i a b ha hb
      cases hp
      rw [ev_padd, Term.poly_eq h ha, relPoly_eq h hb]
      rfl
    · cases hp

theorem samePoly_ev {p q : Poly} (h : samePoly p q = true) (ρ : Nat → Nat) : ev ρ p = ev ρ q := by
  have : ev ρ (psub p q) = 0 := by
    rw [List.isEmpty_iff.mp h]
    rfl
  rw [ev_psub] at this
  omega

theorem vw_sel {W : Nat → Nat} {P : Bool} {f : Nat → Nat → Nat → Bool}
    (hf : ∀ d a b, f d a b = true → W d = if P then W a else W b) :
    ∀ (ds as bs : List Nat), all3 f ds as bs = true → vw W ds = if P then vw W as else vw W bs
  | [], [], [], _ => by simp [vw]
  | d :: ds, a :: as, b :: bs, h => by
    rw [all3, Bool.and_eq_true] at h
    rw [vw, hf _ _ _ h.1, vw_sel hf _ _ _ h.2, vw, vw]
    split <;> rfl
  | [], [], _ :: _, h | [], _ :: _, _, h | _ :: _, [], _, h | _ :: _, _ :: _, [], h => by cases h

theorem Rep.hasSel {B s0 ρ σ s} (h : Rep B s0 ρ σ s) {d c a b} (hh : σ.hasSel d c a b = true) :
    σ.W ρ d = if decide (σ.W ρ c = 1) = true then σ.W ρ a else σ.W ρ b := by
  obtain ⟨f, hf, e⟩ := List.any_eq_true.mp hh
  have hx := h.facts f hf ρ h.good fun _ _ => rfl
  split at e
  · simp only [Bool.and_eq_true] at e
    have hx : ev ρ _ = if ev ρ _ = 1 then ev ρ _ else ev ρ _ := hx
    rw [samePoly_ev e.1.1.1, samePoly_ev e.1.1.2, samePoly_ev e.1.2, samePoly_ev e.2, h.W_eq, h.W_eq, h.W_eq, h.W_eq] at hx
    simp only [decide_eq_true_eq]
    split at hx <;> split <;> omega
  · cases e

theorem Rep.hasSelz {B s0 ρ σ s} (h : Rep B s0 ρ σ s) {d c a b} (hh : σ.hasSelz d c a b = true) :
    σ.W ρ d = if decide (σ.W ρ c = 0) = true then σ.W ρ a else σ.W ρ b := by
  obtain ⟨f, hf, e⟩ := List.any_eq_true.mp hh
  have hx := h.facts f hf ρ h.good fun _ _ => rfl
  split at e
  · simp only [Bool.and_eq_true] at e
    have hx : ev ρ _ = if ev ρ _ = 0 then ev ρ _ else ev ρ _ := hx
    rw [samePoly_ev e.1.1.1, samePoly_ev e.1.1.2, samePoly_ev e.1.2, samePoly_ev e.2, h.W_eq, h.W_eq, h.W_eq, h.W_eq] at hx
    simp only [decide_eq_true_eq]
    split at hx <;> split <;> omega
  · cases e

theorem Rep.hasSelzk {B s0 ρ σ s} (h : Rep B s0 ρ σ s) {k d c a b} (hh : σ.hasSelzk k d c a b = true) :
    σ.W ρ d = if decide (k * σ.W ρ c = 0) = true then σ.W ρ a else σ.W ρ b := by
  obtain ⟨f, hf, e⟩ := List.any_eq_true.mp hh
  have hx := h.facts f hf ρ h.good fun _ _ => rfl
  split at e
  · simp only [Bool.and_eq_true] at e
    have hx : ev ρ _ = if ev ρ _ = 0 then ev ρ _ else ev ρ _ := hx
    rw [samePoly_ev e.1.1.1, samePoly_ev e.1.1.2, samePoly_ev e.1.2, samePoly_ev e.2, ev_smul, h.W_eq, h.W_eq, h.W_eq, h.W_eq] at hx
    simp only [decide_eq_true_eq]
    split at hx <;> split <;> omega
  · cases e

theorem Rep.outs {B s0 ρ σ s} (h : Rep B s0 ρ σ s) {as : List Arg} {b a} (ha : as[b]? = some a) :
    ∀ {l j}, outOk σ as b j l = true → ∀ i (hi : i < l.length), s.mem (B b + a.off (j + i)) = some (BitVec.ofNat 64 (σ.W ρ l[i])) := by
  intro l
  induction l with
  | nil => intro j _ i hi; cases hi
  | cons x l ih =>
    intro j ho i hi
    rw [outOk, Bool.and_eq_true, ha] at ho
    cases i with
    | zero =>
      obtain ⟨ho, _⟩ := ho
      dsimp only at ho
      split at ho
      · rename_i p hp
        obtain ⟨w, h1, h2⟩ := h.load hp
        rw [Nat.add_zero, h1]
        have h2 : Num σ.nv ρ p w := h2
        have h3 := h2 ρ h.good fun _ _ => rfl
        dsimp only at h3
        rw [samePoly_ev ho, h.W_eq] at h3
        congr 1
        apply BitVec.eq_of_toNat_eq
        rw [BitVec.toNat_ofNat]
        have := w.isLt
        show w.toNat = σ.W ρ x % 2 ^ 64
        omega
      · cases ho
    | succ i =>
      have := ih ho.2 i (by simpa using hi)
      rw [show j + 1 + i = j + (i + 1) by omega] at this
      exact this

theorem Claim.sound {s0 ρ σ s} {as : List Arg} (h : Rep (baseOf as s0) s0 ρ σ s) {c : Claim} (hc : c.check σ as = true) :
    c.Holds s0 s as (σ.W ρ) := by
  cases c with
  | rel l =>
    simp only [Claim.check] at hc
    split at hc
    · rename_i p hp
      have := relPoly_eq h hp
      rw [List.isEmpty_iff.mp hc] at this
      exact this.symm
    · cases hc
  | sel d c a b =>
    have := vw_sel (W := σ.W ρ) (P := decide (σ.W ρ c = 1)) (fun d a b hh => h.hasSel hh) d a b hc
    simpa only [Claim.Holds, decide_eq_true_eq] using this
  | selz d c a b =>
    have := vw_sel (W := σ.W ρ) (P := decide (σ.W ρ c = 0)) (fun d a b hh => h.hasSelz hh) d a b hc
    simpa only [Claim.Holds, decide_eq_true_eq] using this
  | or d a b =>
    obtain ⟨f, hf, e⟩ := List.any_eq_true.mp hc
    have hx := h.facts f hf ρ h.good fun _ _ => rfl
    split at e
    · simp only [Bool.and_eq_true] at e
      have hx : ev ρ _ = (((ev ρ _).toNat ||| (ev ρ _).toNat : Nat) : Int) := hx
      rw [samePoly_ev e.1.1, samePoly_ev e.1.2, samePoly_ev e.2, h.W_eq, h.W_eq, h.W_eq] at hx
      exact Int.ofNat.inj hx
    · cases e
  | and d a b =>
    obtain ⟨f, hf, e⟩ := List.any_eq_true.mp hc
    have hx := h.facts f hf ρ h.good fun _ _ => rfl
    split at e
    · simp only [Bool.and_eq_true] at e
      have hx : ev ρ _ = (((ev ρ _).toNat &&& (ev ρ _).toNat : Nat) : Int) := hx
      rw [samePoly_ev e.1.1, samePoly_ev e.1.2, samePoly_ev e.2, h.W_eq, h.W_eq, h.W_eq] at hx
      exact Int.ofNat.inj hx
    · cases e
  | andc d a n =>
    obtain ⟨f, hf, e⟩ := List.any_eq_true.mp hc
    have hx := h.facts f hf ρ h.good fun _ _ => rfl
    split at e
    · simp only [Bool.and_eq_true, Bool.or_eq_true] at e
      have hx : ev ρ _ = (((ev ρ _).toNat &&& (ev ρ _).toNat : Nat) : Int) := hx
      rcases e with ⟨e1, e2 | e2⟩
      · rw [samePoly_ev e1, samePoly_ev e2.1, samePoly_ev e2.2, h.W_eq, h.W_eq, ev_con h.good] at hx
        exact Int.ofNat.inj hx
      · rw [samePoly_ev e1, samePoly_ev e2.1, samePoly_ev e2.2, h.W_eq, h.W_eq, ev_con h.good] at hx
        rw [Nat.and_comm] at hx
        exact Int.ofNat.inj hx
    · cases e
  | shr d a k =>
    obtain ⟨f, hf, e⟩ := List.any_eq_true.mp hc
    have hx := h.facts f hf ρ h.good fun _ _ => rfl
    split at e
    · rename_i k'
      simp only [Bool.and_eq_true] at e
      have hx : ev ρ _ = (((ev ρ _).toNat / 2 ^ k' : Nat) : Int) := hx
      rw [samePoly_ev e.1.1, samePoly_ev e.1.2, h.W_eq, h.W_eq, Nat.eq_of_beq_eq_true e.2] at hx
      exact Int.ofNat.inj hx
    · cases e
  | le i n =>
    have h1 := Nat.le_of_ble_eq_true hc
    have h2 := ev_le h.good (σ.at' i)
    rw [h.W_eq] at h2
    show σ.W ρ i ≤ n
    omega
  | out b l =>
    intro a ha i hi
    rw [List.length_map] at hi
    have := h.outs ha hc i hi
    rw [Nat.zero_add] at this
    have hb : baseOf as s0 b = s0.get a.reg := by
      unfold baseOf
      rw [ha]
    rw [hb, addr_word] at this
    rw [this, List.getElem_map]
  | eq d a =>
    obtain ⟨f, hf, e⟩ := List.any_eq_true.mp hc
    have hx := h.facts f hf ρ h.good fun _ _ => rfl
    split at e
    · simp only [Bool.and_eq_true] at e
      have hx : ev ρ _ = ev ρ _ := hx
      rw [samePoly_ev e.1, samePoly_ev e.2, h.W_eq, h.W_eq] at hx
      exact Int.ofNat.inj hx
    · cases e
  | selzc d z m n =>
    obtain ⟨f, hf, e⟩ := List.any_eq_true.mp hc
    have hx := h.facts f hf ρ h.good fun _ _ => rfl
    split at e
    · simp only [Bool.and_eq_true] at e
      have hx : ev ρ _ = if ev ρ _ = 0 then ev ρ _ else ev ρ _ := hx
      rw [samePoly_ev e.1.1.1, samePoly_ev e.1.1.2, samePoly_ev e.1.2, samePoly_ev e.2, h.W_eq, h.W_eq, ev_con h.good,
        ev_con h.good] at hx
      show σ.W ρ d = if σ.W ρ z = 0 then m else n
      split at hx <;> split <;> omega
    · cases e
  | selzw d z m b =>
    obtain ⟨f, hf, e⟩ := List.any_eq_true.mp hc
    have hx := h.facts f hf ρ h.good fun _ _ => rfl
    split at e
    · simp only [Bool.and_eq_true] at e
      have hx : ev ρ _ = if ev ρ _ = 0 then ev ρ _ else ev ρ _ := hx
      rw [samePoly_ev e.1.1.1, samePoly_ev e.1.1.2, samePoly_ev e.1.2, samePoly_ev e.2, h.W_eq, h.W_eq, ev_con h.good, h.W_eq] at hx
      show σ.W ρ d = if σ.W ρ z = 0 then m else σ.W ρ b
      split at hx <;> split <;> omega
    · cases e
  | selc d c m n =>
    obtain ⟨f, hf, e⟩ := List.any_eq_true.mp hc
    have hx := h.facts f hf ρ h.good fun _ _ => rfl
    split at e
    · simp only [Bool.and_eq_true] at e
      have hx : ev ρ _ = if ev ρ _ = 1 then ev ρ _ else ev ρ _ := hx
      rw [samePoly_ev e.1.1.1, samePoly_ev e.1.1.2, samePoly_ev e.1.2, samePoly_ev e.2, h.W_eq, h.W_eq, ev_con h.good,
        ev_con h.good] at hx
      show σ.W ρ d = if σ.W ρ c = 1 then m else n
      split at hx <;> split <;> omega
    · cases e
  | andk d k c b =>
    obtain ⟨f, hf, e⟩ := List.any_eq_true.mp hc
    have hx := h.facts f hf ρ h.good fun _ _ => rfl
    split at e
    · simp only [Bool.and_eq_true] at e
      have hx : ev ρ _ = (((ev ρ _).toNat &&& (ev ρ _).toNat : Nat) : Int) := hx
      rw [samePoly_ev e.1.1, samePoly_ev e.1.2, samePoly_ev e.2, ev_smul, h.W_eq, h.W_eq, h.W_eq] at hx
      rw [← Int.natCast_mul] at hx
      exact Int.ofNat.inj hx
    · cases e
  | selzk d k c a b =>
    have := vw_sel (W := σ.W ρ) (P := decide (k * σ.W ρ c = 0)) (fun d a b hh => h.hasSelzk hh) d a b hc
    simpa only [Claim.Holds, decide_eq_true_eq] using this
  | reg l d =>
    show l.map s.get = d.map _
    have hc : all2 _ l d = true := hc
    induction l generalizing d with
    | nil =>
      cases d with
      | nil => rfl
      | cons b d => cases hc
    | cons r l ih =>
      cases d with
      | nil => cases hc
      | cons i d =>
        rw [all2, Bool.and_eq_true] at hc
        rw [List.map_cons, List.map_cons, ih d hc.2 hc.2]
        refine congrArg (· :: _) ?_
        have hc1 := hc.1
        split at hc1
        · rename_i p hp
          have hr := h.regs r
          rw [hp] at hr
          have hr := hr ρ h.good fun _ _ => rfl
          dsimp only at hr
          rw [samePoly_ev hc1, h.W_eq] at hr
          apply BitVec.eq_of_toNat_eq
          rw [BitVec.toNat_ofNat, Int.ofNat.inj hr, Nat.mod_eq_of_lt (BitVec.isLt _)]
        · cases hc1
  | mac k x y z =>
    obtain ⟨f, hf, e⟩ := List.any_eq_true.mp hc
    have hx := h.facts f hf ρ h.good fun _ _ => rfl
    have vs : ∀ (ps : List Poly) (l : List Nat), all2 (fun p i => samePoly p (σ.at' i)) ps l = true →
        evs ρ ps = vw (σ.W ρ) l := by
      intro ps
      induction ps with
      | nil =>
        intro l hl
        cases l with
        | nil => rfl
        | cons i l => cases hl
      | cons p ps ih =>
        intro l hl
        cases l with
        | nil => cases hl
        | cons i l =>
          rw [all2, Bool.and_eq_true] at hl
          rw [evs, vw, ih l hl.2, samePoly_ev hl.1, h.W_eq]
          rfl
    split at e
    · simp only [Bool.and_eq_true] at e
      have hx : macSpec _ (evs ρ _) (evs ρ _) (evs ρ _) := hx
      rw [Nat.eq_of_beq_eq_true e.1.1.1, vs _ _ e.1.1.2, vs _ _ e.1.2, vs _ _ e.2] at hx
      exact hx
    · cases e

theorem keys_holds {s : St} {as : List Arg} {b : Nat} {a : Arg} (ha : as[b]? = some a) {ws : Words} (hl : ws.length = a.len)
    (h : X86.Holds s.mem (a.at' s) ws) : (keysOf as b).length = ws.length ∧ ∀ i (hi : i < (keysOf as b).length) (h' : i < ws.length),
      s.mem (baseOf as s (keysOf as b)[i].1 + (keysOf as b)[i].2) = some ws[i] := by
  unfold keysOf
  rw [ha]
  refine ⟨by simp [hl], fun i hi h' => ?_⟩
  simp only [List.getElem_map, List.getElem_range]
  have hb : baseOf as s b = s.get a.reg := by
    unfold baseOf
    rw [ha]
  rw [hb, addr_word, h i h']

/-- The words of the blocks that are read. -/
def given (ws : List (Option Words)) (rd : List Nat) : Words := rd.flatMap fun b => (ws[b]?.getD none).getD []

theorem given_keys {s : St} {as : List Arg} {ws : List (Option Words)} (hl : as.length = ws.length)
    (h : Ready s ((as.zip ws).map fun x => blockOf s x.1 x.2)) : ∀ {rd : List Nat}, (∀ b ∈ rd, ∃ w, ws[b]? = some (some w)) →
    (rd.flatMap (keysOf as)).length = (given ws rd).length ∧
      ∀ i (hi : i < (rd.flatMap (keysOf as)).length) (h' : i < (given ws rd).length),
        s.mem (baseOf as s (rd.flatMap (keysOf as))[i].1 + (rd.flatMap (keysOf as))[i].2) = some (given ws rd)[i] := by
  intro rd
  induction rd with
  | nil => intro _; exact ⟨rfl, fun i hi => by cases hi⟩
  | cons b rd ih =>
    intro hrd
    obtain ⟨h1, h2⟩ := ih fun b hb => hrd b (List.mem_cons_of_mem _ hb)
    obtain ⟨w, hw⟩ := hrd b (List.mem_cons_self ..)
    have hb : b < as.length := by
      rw [hl]
      exact (List.getElem?_eq_some_iff.mp hw).1
    have ha : as[b]? = some as[b] := List.getElem?_eq_getElem hb
    obtain ⟨w', hz⟩ := zip_get hl ha
    have ew : w' = some w := by
      have e1 := (List.getElem?_eq_some_iff.mp hz).2
      rw [List.getElem_zip] at e1
      have e2 := (List.getElem?_eq_some_iff.mp hw).2
      have e1 := congrArg Prod.snd e1
      dsimp only at e1
      rw [← e1, e2]
    subst ew
    have hok := h.ok _ (List.mem_map.mpr ⟨_, List.mem_of_getElem? hz, rfl⟩)
    obtain ⟨k1, k2⟩ := keys_holds ha (hok.len w rfl) (hok.holds w rfl)
    have hg : given ws (b :: rd) = w ++ given ws rd := by
      unfold given
      rw [List.flatMap_cons, hw]
      rfl
    rw [hg]
    simp only [List.flatMap_cons]
    refine ⟨by rw [List.length_append, List.length_append, k1, h1], fun i hi h' => ?_⟩
    by_cases hi' : i < w.length
    · simp only [List.getElem_append_left (h := k1 ▸ hi'), List.getElem_append_left hi']
      exact k2 i (k1 ▸ hi') hi'
    · have hi2 : ¬ i < (keysOf as b).length := by rw [k1]; exact hi'
      simp only [List.getElem_append_right (Nat.le_of_not_lt hi2), List.getElem_append_right (Nat.le_of_not_lt hi'), k1]
      exact h2 _ _ _

theorem sameSkel_mem : ∀ {l m : List Cell}, sameSkel l m = true → ∀ c ∈ l, ∃ d ∈ m, c.b = d.b ∧ c.o = d.o ∧ (c.w = true → d.w = true)
  | [], _, _, c, hc => by cases hc
  | _ :: _, [], h, _, _ => by cases h
  | x :: l, d :: m, h, c, hc => by
    simp only [sameSkel, Bool.and_eq_true] at h
    rcases List.mem_cons.mp hc with rfl | hc
    · have e := Cell.is_eq.mp h.1.1
      refine ⟨d, List.mem_cons_self .., e.1, e.2, fun hw => ?_⟩
      have := h.1.2
      rw [hw] at this
      exact this
    · obtain ⟨d', h1, h2⟩ := sameSkel_mem h.2 c hc
      exact ⟨d', List.mem_cons_of_mem _ h1, h2⟩

/-- A routine whose run was verified. -/
theorem accept_sound {as : List Arg} {rd : List Nat} {P : Prog} {cs : List Claim} {r : Option SSt}
    (hv : accept as rd cs r = true) {s : St} {ws : List (Option Words)} (hl : as.length = ws.length)
    (hs : ∀ a ∈ as, a.len < 2 ^ 60) (hrd : ∀ b ∈ rd, ∃ w, ws[b]? = some (some w)) (hn : (given ws rd).length < 100000)
    (h : Ready s ((as.zip ws).map fun x => blockOf s x.1 x.2))
    (hrun : ∀ σ ρ, r = some σ → Rep (baseOf as s) s ρ (entry as rd) s →
      Follows (baseOf as s) s (entry as rd) ρ σ (effs P s)) :
    ∃ s' W, effs P s = some s' ∧ Untouched ((as.zip ws).map fun x => blockOf s x.1 x.2) s s' ∧
      (∀ i, W i < 2 ^ 64) ∧ (∀ i (hi : i < (given ws rd).length), W i = (given ws rd)[i].toNat) ∧
      ∀ c ∈ cs, c.Holds s s' as W := by
  unfold accept at hv
  split at hv
  · cases hv
  rename_i σ
  rw [Bool.and_eq_true, Bool.and_eq_true] at hv
  have h0 := start_rep hl hs h
  obtain ⟨k1, k2⟩ := given_keys hl h hrd
  obtain ⟨ρ1, h1, h2⟩ := learnAll_rep (ins := []) h0 ⟨rfl, fun i hi => by cases hi⟩ k1 k2 (by
    show 2 + _ < _
    omega)
  rw [List.nil_append] at h2
  obtain ⟨ρ2, s', e, h3, g⟩ := hrun σ ρ1 rfl h1
  refine ⟨s', σ.W ρ2, e, ?_, fun i => ?_, fun i hi => ?_, fun c hc => ?_⟩
  · intro a ha
    refine h3.outside a fun c hc hw => ?_
    obtain ⟨d, hd, e1, e2, e3⟩ := sameSkel_mem hv.1.1 c hc
    obtain ⟨i, x, j, i1, i2, rfl⟩ := mem_cells as 0 hd
    obtain ⟨w, hz⟩ := zip_get hl i1
    have := ha _ (List.mem_map.mpr ⟨_, List.mem_of_getElem? hz, rfl⟩) (e3 hw) j i2
    have hb : c.addr (baseOf as s) = word (x.at' s) j := by
      unfold Cell.addr
      rw [e1, e2]
      unfold baseOf
      rw [Nat.zero_add, i1]
      exact addr_word x s j
    rw [hb]
    exact this
  · unfold SSt.W
    have := h3.at_bound i
    omega
  · have h4 := (h2.2 i hi).grow g ρ2 h3.good fun _ _ => rfl
    dsimp only at h4
    have h5 := samePoly_ev (List.all_eq_true.mp hv.1.2 i (List.mem_range.mpr (by
      show i < (entry as rd).words.length
      rw [show (entry as rd).words.length = _ from h2.1]
      exact hi))) ρ2
    unfold SSt.W
    rw [h5]
    have h4 : ev ρ2 ((entry as rd).at' i) = _ := h4
    rw [h4]
    rfl
  · exact Claim.sound h3 (List.all_eq_true.mp hv.2 c hc)

theorem verify_effs {as : List Arg} {rd : List Nat} {hs : List (Nat × Hint)} {P : Prog} {cs : List Claim}
    (hv : verify as rd hs P cs = true) {s : St} {ws : List (Option Words)} (hl : as.length = ws.length)
    (hs : ∀ a ∈ as, a.len < 2 ^ 60) (hrd : ∀ b ∈ rd, ∃ w, ws[b]? = some (some w)) (hn : (given ws rd).length < 100000)
    (h : Ready s ((as.zip ws).map fun x => blockOf s x.1 x.2)) :
    ∃ s' W, effs P s = some s' ∧ Untouched ((as.zip ws).map fun x => blockOf s x.1 x.2) s s' ∧
      (∀ i, W i < 2 ^ 64) ∧ (∀ i (hi : i < (given ws rd).length), W i = (given ws rd)[i].toNat) ∧
      ∀ c ∈ cs, c.Holds s s' as W :=
  accept_sound hv hl hs hrd hn h fun _ _ hσ h1 => runSym_ok P h1 hσ

theorem verify_sound {as : List Arg} {rd : List Nat} {hs : List (Nat × Hint)} {P : Prog} {cs : List Claim}
    (hv : verify as rd hs P cs = true) {s : St} {ws : List (Option Words)} (hl : as.length = ws.length)
    (hs : ∀ a ∈ as, a.len < 2 ^ 60) (hrd : ∀ b ∈ rd, ∃ w, ws[b]? = some (some w)) (hn : (given ws rd).length < 100000)
    (h : Ready s ((as.zip ws).map fun x => blockOf s x.1 x.2)) :
    ∃ s' W, run P (P.length + 1) 0 s = some s' ∧ Untouched ((as.zip ws).map fun x => blockOf s x.1 x.2) s s' ∧
      (∀ i, W i < 2 ^ 64) ∧ (∀ i (hi : i < (given ws rd).length), W i = (given ws rd)[i].toNat) ∧
      ∀ c ∈ cs, c.Holds s s' as W := by
  obtain ⟨s', W, e, h1⟩ := verify_effs hv hl hs hrd hn h
  exact ⟨s', W, run_effs P P e [] rfl, h1⟩

end Verif.X86.Sym
