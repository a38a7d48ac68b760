import Verif.Proof.X86.SymStep

/-! Symbolic execution: steps and runs. -/
namespace Verif.X86.Sym
open Verif Verif.X86

def SSt.num (σ : SSt) (o : Opd) : Option Poly :=
  match σ.val o with
  | some (.num p) => some p
  | _ => none

def SSt.rnum (σ : SSt) (r : Reg) : Option Poly :=
  match σ.reg r with
  | .num p => some p
  | _ => none

/-- The end of an arithmetic instruction. -/
def SSt.fin (σ : SSt) (d : Opd) (p : Poly) (cf of zf : Option Poly) : Option SSt :=
  { σ with cf := cf, of := of, zf := zf }.put d (.num p)

/-- Sum, difference: flags and result. -/
def SSt.arith (h : Option Hint) (d : Opd) (r : Option (Poly × Poly × SSt)) (keep : Option (Option Poly)) : Option SSt :=
  match r with
  | none => none
  | some (p, q, σ) => match atomOp h p σ with
    | none => none
    | some (p, σ) => σ.fin d p (keep.getD (some q)) none (some p)

/-- Bitwise operations. -/
def SSt.logic (d : Opd) (r : Option (Poly × SSt)) : Option SSt :=
  match r with
  | none => none
  | some (p, σ) => σ.fin d p (some []) (some []) (some p)

/-- Shifts. -/
def SSt.shifted (h : Option Hint) (d : Opd) (r : Option (Poly × SSt)) : Option SSt :=
  match r with
  | none => none
  | some (p, σ) => match atomOp h p σ with
    | none => none
    | some (p, σ) => σ.fin d p none none (some p)

def sameReg : Opd → Opd → Bool
  | .reg a, .reg b => a.idx.beq b.idx
  | _, _ => false

/-- The shift count. -/
def count : Opd → Option Nat
  | .imm n => bif (n.toNat % 64).beq 0 then none else some (n.toNat % 64)
  | _ => none

def step (h : Option Hint) (i : Instr) (σ : SSt) : Option SSt :=
  match i with
  | .nop => some σ
  | .mov d x => match σ.val x with
    | none => none
    | some v => σ.put d v
  | .mov32 d x => match σ.rnum x with
    | none => none
    | some p => bif Nat.blt (pmax p) 4294967296 then some (σ.setReg d (.num p)) else none
  | .lea d m => match m.base, m.idx with
    | some r, none => match σ.reg r with
      | .ptr b o => some (σ.setReg d (.ptr b (o + m.disp)))
      | .num p => match asConst p with
        | some n => some (σ.setReg d (.num (con ((n.toNat + m.disp.toNat) % two64))))
        | none => none
      | _ => none
    | _, _ => none
  | .add d x => match σ.val d with
    | some (.num a) => match σ.num x with
      | some b => SSt.arith h d (addOp h σ a b []) none
      | none => none
    | some (.ptr b o) => match x with
      | .imm n => { σ with cf := none, of := none, zf := none }.put d (.ptr b (o + n))
      | _ => none
    | _ => none
  | .adc d x => match σ.num d, σ.num x, σ.cf with
    | some a, some b, some c => SSt.arith h d (addOp h σ a b c) none
    | _, _, _ => none
  | .sub d x => match σ.val d with
    | some (.num a) => match σ.num x with
      | some b => SSt.arith h d (subOp h σ a b []) none
      | none => none
    | some (.ptr b o) => match x with
      | .imm n => { σ with cf := none, of := none, zf := none }.put d (.ptr b (o - n))
      | _ => none
    | _ => none
  | .sbb d x =>
    match σ.cf with
    | none => none
    | some c =>
      bif sameReg d x then SSt.arith h d (subOp h σ [] [] c) none
      else match σ.num d, σ.num x with
      | some a, some b => SSt.arith h d (subOp h σ a b c) none
      | _, _ => none
  | .cmp d x => match σ.num d, σ.num x with
    | some a, some b => match subOp h σ a b [] with
      | none => none
      | some (p, q, σ) => some { σ with cf := some q, of := none, zf := some p }
    | _, _ => none
  | .and d x => match σ.num d, σ.num x with
    | some a, some b => SSt.logic d (andOp σ a b)
    | _, _ => none
  | .or d x => match σ.num d, σ.num x with
    | some a, some b => SSt.logic d (orOp σ a b)
    | _, _ => none
  | .xor d x =>
    bif sameReg d x then σ.fin d [] (some []) (some []) (some [])
    else match σ.num d, σ.num x with
    | some a, some b => SSt.logic d (xorOp σ a b)
    | _, _ => none
  | .test d x => match σ.num d with
    | some a => bif sameReg d x then some { σ with cf := some [], of := some [], zf := some a } else none
    | none => none
  | .not d => match σ.num d with
    | some a => σ.put d (.num (psub (con 18446744073709551615) a))
    | none => none
  | .neg d => match σ.num d with
    | some a => SSt.arith h d (subOp h σ [] a []) none
    | none => none
  | .inc d => match σ.num d with
    | some a => SSt.arith h d (addOp h σ a (con 1) []) (some σ.cf)
    | none => none
  | .dec d => match σ.num d with
    | some a => SSt.arith h d (subOp h σ a (con 1) []) (some σ.cf)
    | none => none
  | .mul x => match σ.rnum .rax, σ.num x with
    | some a, some b => match mulOp σ a b with
      | none => none
      | some (p, q, σ) => some { (σ.setReg .rax (.num p)).setReg .rdx (.num q) with cf := none, of := none, zf := none }
    | _, _ => none
  | .imul d x => match σ.rnum d, σ.num x with
    | some a, some b => match mulOp σ a b with
      | none => none
      | some (p, _, σ) => match atomOp h p σ with
        | none => none
        | some (p, σ) => some { σ.setReg d (.num p) with cf := none, of := none, zf := none }
    | _, _ => none
  | .mulx hi lo x => match σ.rnum .rdx, σ.num x with
    | some a, some b => match mulOp σ a b with
      | none => none
      | some (p, q, σ) => match atomOp h p σ with
        | none => none
        | some (p, σ) => some ((σ.setReg lo (.num p)).setReg hi (.num q))
    | _, _ => none
  | .adcx d x => match σ.rnum d, σ.num x, σ.cf with
    | some a, some b, some c => match addOp h σ a b c with
      | none => none
      | some (p, q, σ) => match atomOp h p σ with
        | none => none
        | some (p, σ) => some { σ.setReg d (.num p) with cf := some q }
    | _, _, _ => none
  | .adox d x => match σ.rnum d, σ.num x, σ.of with
    | some a, some b, some c => match addOp h σ a b c with
      | none => none
      | some (p, q, σ) => match atomOp h p σ with
        | none => none
        | some (p, σ) => some { σ.setReg d (.num p) with of := some q }
    | _, _, _ => none
  | .shl d n => match σ.num d, count n with
    | some a, some k => SSt.shifted h d (shlOp σ a k)
    | _, _ => none
  | .shr d n => match σ.num d, count n with
    | some a, some k => SSt.shifted h d (shrOp σ a k)
    | _, _ => none
  | .shld d x n => match σ.num d, σ.rnum x, count n with
    | some a, some b, some k => SSt.shifted h d (shldOp σ a b k)
    | _, _, _ => none
  | .shrd d x n => match σ.num d, σ.rnum x, count n with
    | some a, some b, some k => SSt.shifted h d (shrdOp σ a b k)
    | _, _, _ => none
  | .adc32 d x => match σ.rnum d, σ.rnum x, σ.cf with
    | some a, some b, some c =>
      bif Nat.blt (pmax a + pmax b + 1) 4294967296 then
        some { σ.setReg d (.num (padd (padd a b) c)) with cf := some [], of := none, zf := none }
      else none
    | _, _, _ => none
  | .cmov c d x => match σ.rnum d, σ.num x with
    | some a, some b =>
      match (match c with
        | .cy => match σ.cf with
          | some q => selOp σ q b a
          | none => none
        | .nc => match σ.cf with
          | some q => selOp σ q a b
          | none => none
        | .zr => match σ.zf with
          | some z => selzOp σ z b a
          | none => none
        | .nz => match σ.zf with
          | some z => selzOp σ z a b
          | none => none
        | .ab => match σ.cf, σ.zf with
          | some q, some z => match selOp σ q a b with
            | some (p, σ1) => selzOp σ1 z a p
            | none => none
          | _, _ => none
        | _ => none) with
      | none => none
      | some (p, σ) => some (σ.setReg d (.num p))
    | _, _ => none
  | .push r => match σ.reg .rsp with
    | .ptr b o => (σ.setReg .rsp (.ptr b (o - 8#64))).store (b, o - 8#64) (σ.reg r)
    | _ => none
  | .pop r => match σ.reg .rsp with
    | .ptr b o => match σ.load (b, o) with
      | none => none
      | some v => some ((σ.setReg .rsp (.ptr b (o + 8#64))).setReg r v)
    | _ => none
  | _ => none

/-- Consecutive instructions. -/
def effs : Prog → St → Option St
  | [], s => some s
  | i :: P, s => (i.eff s).bind (effs P)

/-- The advice for the instruction in position `pc`, and for those that follow. -/
def hintAt (pc : Nat) : List (Nat × Hint) → Option Hint × List (Nat × Hint)
  | [] => (none, [])
  | (n, h) :: l => bif n.beq pc then (some h, l) else (none, (n, h) :: l)

def runSym : Nat → List (Nat × Hint) → Prog → SSt → Option SSt
  | _, _, [], σ => some σ
  | pc, l, i :: P, σ =>
    match step (hintAt pc l).1 i σ with
    | none => none
    | some σ => runSym (pc + 1) (hintAt pc l).2 P σ

/-! Soundness -/

theorem Rep.num {B s0 ρ σ s} (h : Rep B s0 ρ σ s) {o : Opd} {p} (hv : σ.num o = some p) :
    ∃ w, s.val o = some w ∧ Num σ.nv ρ p w := by
  unfold SSt.num at hv
  split at hv
  · rename_i e
    cases hv
    exact h.val e
  · cases hv

theorem Rep.rnum {B s0 ρ σ s} (h : Rep B s0 ρ σ s) {r : Reg} {p} (hv : σ.rnum r = some p) : Num σ.nv ρ p (s.get r) := by
  unfold SSt.rnum at hv
  split at hv
  · rename_i e
    cases hv
    have := h.regs r
    rw [e] at this
    exact this
  · cases hv

theorem Num.zf {nv ρ p} {w : Word} (h : Num nv ρ p w) : ZRep nv ρ (some p) (some (w == 0#64)) := by
  intro q e
  cases e
  refine ⟨_, rfl, fun τ g ha => ?_⟩
  have := h τ g ha
  dsimp only at this ⊢
  rw [this, Bool.eq_iff_iff]
  simp only [beq_iff_eq, decide_eq_true_eq]
  constructor
  · rintro rfl
    rfl
  · intro e
    apply BitVec.eq_of_toNat_eq
    show w.toNat = 0
    omega

theorem Bit.cf {nv ρ p} {c : Bool} (h : Bit nv ρ p c) : FRep nv ρ (some p) (some c) := by
  intro q e
  cases e
  exact ⟨c, rfl, h⟩

theorem frep_none {nv ρ x} : FRep nv ρ none x := fun _ e => by cases e
theorem zrep_none {nv ρ x} : ZRep nv ρ none x := fun _ e => by cases e
theorem bit_false {nv ρ} : Bit nv ρ [] false := fun _ _ _ => rfl

theorem num_con {nv ρ} (w : Word) : Num nv ρ (con w.toNat) w := fun _ g _ => ev_con g _

theorem store_nv {σ σ' : SSt} {k v} (h : σ.store k v = some σ') : σ'.nv = σ.nv := by
  unfold SSt.store at h
  split at h
  · cases h
  · split at h
    · cases h
    · cases h
      rfl

theorem put_nv {σ σ' : SSt} {d v} (h : σ.put d v = some σ') : σ'.nv = σ.nv := by
  cases d with
  | reg r => cases h; rfl
  | imm n => cases h
  | mem m =>
    simp only [SSt.put] at h
    split at h
    · cases h
    · exact store_nv h

/-- The effect of an instruction is one of what the symbolic state describes. -/
def Follows (B : Nat → Word) (s0 : St) (σ : SSt) (ρ : Nat → Nat) (σ' : SSt) (r : Option St) : Prop :=
  ∃ ρ' s', r = some s' ∧ Rep B s0 ρ' σ' s' ∧ Grow σ ρ σ' ρ'

theorem fin_ok {B s0 ρ ρ1 σ σ1 s} (h : Rep B s0 ρ1 σ1 s) (hg : Grow σ ρ σ1 ρ1) {d p σ'} {cf of zf : Option Poly}
    {w : Word} {f o z sf : Option Bool} (hp : Num σ1.nv ρ1 p w) (h1 : FRep σ1.nv ρ1 cf f) (h2 : FRep σ1.nv ρ1 of o)
    (h3 : ZRep σ1.nv ρ1 zf z) (ho : σ1.fin d p cf of zf = some σ') :
    Follows B s0 σ ρ σ' (({ s with cf := f, of := o, zf := z, sf := sf } : St).put d w) := by
  have h6 := h.flags (sf := sf) h1 h2 h3
  obtain ⟨s', e, h7⟩ := h6.put ho hp
  refine ⟨ρ1, s', e, h7, ?_⟩
  have e2 : σ'.nv = σ1.nv := put_nv (σ := { σ1 with cf := cf, of := of, zf := zf }) ho
  show GrowN σ.nv ρ σ'.nv ρ1
  rw [e2]
  exact hg

/-- `keep`: the carry flag before. -/
theorem arith_ok {B s0 ρ ρ1 σ σ1 s} (h : Rep B s0 ρ1 σ1 s) (hg : Grow σ ρ σ1 ρ1) {hint d p q σ'} {keep : Option (Option Poly)}
    {w : Word} {c : Bool} {f o sf : Option Bool} (hp : Num σ1.nv ρ1 p w) (hq : Bit σ1.nv ρ1 q c)
    (hk : match keep with
      | none => f = some c
      | some k => FRep σ.nv ρ k f)
    (ho : SSt.arith hint d (some (p, q, σ1)) keep = some σ') :
    Follows B s0 σ ρ σ' (({ s with cf := f, of := o, zf := some (w == 0#64), sf := sf } : St).put d w) := by
  simp only [SSt.arith] at ho
  split at ho
  · cases ho
  · rename_i p2 σ2 h2
    obtain ⟨ρ2, h3, h4, h5⟩ := atomOp_ok h hp h2
    have hf : FRep σ2.nv ρ2 (keep.getD (some q)) f := by
      cases keep with
      | none =>
        dsimp only at hk
        subst hk
        exact Bit.cf (hq.grow h4)
      | some k => exact FRep.mono hk (hg.trans h4).le (hg.trans h4).eq
    exact fin_ok h3 (hg.trans h4) h5 hf frep_none h5.zf ho

theorem add_ok {B s0 ρ σ s} (h : Rep B s0 ρ σ s) {hint d a b ci σ'} {keep : Option (Option Poly)} {x y : Word} {c : Bool}
    {f o sf : Option Bool} (ha : Num σ.nv ρ a x) (hb : Num σ.nv ρ b y) (hc : Bit σ.nv ρ ci c)
    (hk : match keep with
      | none => f = some (adcc x y c)
      | some k => FRep σ.nv ρ k f)
    (ho : SSt.arith hint d (addOp hint σ a b ci) keep = some σ') :
    Follows B s0 σ ρ σ' (({ s with cf := f, of := o, zf := some (adcv x y c == 0#64), sf := sf } : St).put d (adcv x y c)) := by
  cases e : addOp hint σ a b ci with
  | none =>
    rw [e] at ho
    cases ho
  | some r =>
    obtain ⟨p, q, σ1⟩ := r
    rw [e] at ho
    obtain ⟨ρ1, h1, h2, h3, h4⟩ := addOp_ok h ha hb hc e
    exact arith_ok h1 h2 h3 h4 hk ho

theorem sub_ok {B s0 ρ σ s} (h : Rep B s0 ρ σ s) {hint d a b ci σ'} {keep : Option (Option Poly)} {x y : Word} {c : Bool}
    {f o sf : Option Bool} (ha : Num σ.nv ρ a x) (hb : Num σ.nv ρ b y) (hc : Bit σ.nv ρ ci c)
    (hk : match keep with
      | none => f = some (sbbc x y c)
      | some k => FRep σ.nv ρ k f)
    (ho : SSt.arith hint d (subOp hint σ a b ci) keep = some σ') :
    Follows B s0 σ ρ σ' (({ s with cf := f, of := o, zf := some (sbbv x y c == 0#64), sf := sf } : St).put d (sbbv x y c)) := by
  cases e : subOp hint σ a b ci with
  | none =>
    rw [e] at ho
    cases ho
  | some r =>
    obtain ⟨p, q, σ1⟩ := r
    rw [e] at ho
    obtain ⟨ρ1, h1, h2, h3, h4⟩ := subOp_ok h ha hb hc e
    exact arith_ok h1 h2 h3 h4 hk ho

theorem logic_ok {B s0 ρ σ s} {d r σ'} {w : Word} {sf : Option Bool}
    (hr : ∀ p σ1, r = some (p, σ1) → ∃ ρ', Rep B s0 ρ' σ1 s ∧ Grow σ ρ σ1 ρ' ∧ Num σ1.nv ρ' p w)
    (ho : SSt.logic d r = some σ') :
    Follows B s0 σ ρ σ' (({ s with cf := some false, of := some false, zf := some (w == 0#64), sf := sf } : St).put d w) := by
  unfold SSt.logic at ho
  split at ho
  · cases ho
  · obtain ⟨ρ1, h1, h2, h3⟩ := hr _ _ rfl
    exact fin_ok h1 h2 h3 bit_false.cf bit_false.cf h3.zf ho

theorem shifted_ok {B s0 ρ σ s} {hint d r σ'} {w : Word} {f sf : Option Bool}
    (hr : ∀ p σ1, r = some (p, σ1) → ∃ ρ', Rep B s0 ρ' σ1 s ∧ Grow σ ρ σ1 ρ' ∧ Num σ1.nv ρ' p w)
    (ho : SSt.shifted hint d r = some σ') :
    Follows B s0 σ ρ σ' (({ s with cf := f, of := none, zf := some (w == 0#64), sf := sf } : St).put d w) := by
  unfold SSt.shifted at ho
  split at ho
  · cases ho
  · obtain ⟨ρ1, h1, h2, h3⟩ := hr _ _ rfl
    split at ho
    · cases ho
    · rename_i p2 σ2 e
      obtain ⟨ρ2, h4, h5, h6⟩ := atomOp_ok h1 h3 e
      exact fin_ok h4 (h2.trans h5) h6 frep_none frep_none h6.zf ho

theorem sameReg_eq {d x : Opd} (h : sameReg d x = true) : ∃ r, d = .reg r ∧ x = .reg r := by
  unfold sameReg at h
  split at h
  · rename_i a b
    exact ⟨a, rfl, by rw [Reg.idx_inj (Nat.eq_of_beq_eq_true h)]⟩
  · cases h

theorem count_ok {n : Opd} {k} (h : count n = some k) (s : St) : ∃ v, s.val n = some v ∧ v.toNat % 64 = k ∧ 0 < k ∧ k < 64 := by
  unfold count at h
  split at h
  · rename_i v
    cases e : (v.toNat % 64).beq 0
    · rw [e, cond_false] at h
      cases h
      refine ⟨v, rfl, rfl, ?_, Nat.mod_lt _ (by decide)⟩
      rcases Nat.eq_zero_or_pos (v.toNat % 64) with z | z
      · rw [z] at e
        cases e
      · exact z
    · rw [e] at h
      cases h
  · cases h

theorem sbb_same (x : Word) (c : Bool) : sbbv x x c = sbbv 0#64 0#64 c ∧ sbbc x x c = sbbc 0#64 0#64 c := by
  constructor
  · unfold sbbv
    simp
  · unfold sbbc
    congr 1
    simp

/-- A state whose registers and flags change. -/
theorem Rep.flagcf {B s0 ρ σ s} (h : Rep B s0 ρ σ s) {cf : Option Bool} {p : Option Poly} (h1 : FRep σ.nv ρ p cf) :
    Rep B s0 ρ { σ with cf := p } { s with cf := cf } :=
  h.flags (sf := s.sf) h1 h.of h.zf

theorem Rep.flagof {B s0 ρ σ s} (h : Rep B s0 ρ σ s) {of : Option Bool} {p : Option Poly} (h1 : FRep σ.nv ρ p of) :
    Rep B s0 ρ { σ with of := p } { s with of := of } :=
  h.flags (sf := s.sf) h.cf h1 h.zf

theorem Num.zero {nv ρ} : Num nv ρ [] 0#64 := fun _ _ _ => rfl

theorem step_ok {B s0 ρ σ s} (h : Rep B s0 ρ σ s) {hint : Option Hint} {i : Instr} {σ'} (ho : step hint i σ = some σ') :
    Follows B s0 σ ρ σ' (i.eff s) := by
  cases i with
  | nop =>
    cases ho
    exact ⟨ρ, s, rfl, h, GrowN.refl⟩
  | mov d x =>
    simp only [step] at ho
    split at ho
    · cases ho
    · rename_i v hv
      obtain ⟨w, e, hw⟩ := h.val hv
      obtain ⟨s', e', h'⟩ := h.put ho hw
      refine ⟨ρ, s', ?_, h', ?_⟩
      · simp only [Instr.eff, e]
        exact e'
      · show GrowN σ.nv ρ σ'.nv ρ
        rw [put_nv ho]
        exact GrowN.refl
  | mov32 d x =>
    simp only [step] at ho
    split at ho
    · cases ho
    · rename_i p hp
      have hn := h.rnum hp
      cases hb : Nat.blt (pmax p) 4294967296
      · rw [hb] at ho
        cases ho
      · rw [hb] at ho
        cases ho
        rw [Nat.blt_eq] at hb
        have h0 := hn ρ h.good fun _ _ => rfl
        have hl := ev_le h.good p
        dsimp only at h0
        have e : BitVec.ofNat 64 ((s.get x).toNat % 2 ^ 32) = s.get x := by
          apply BitVec.eq_of_toNat_eq
          rw [BitVec.toNat_ofNat]
          have := (s.get x).isLt
          omega
        refine ⟨ρ, _, rfl, ?_, GrowN.refl⟩
        rw [e]
        exact h.setReg hn
  | lea d m =>
    simp only [step] at ho
    split at ho
    · rename_i r hb hi
      have hea : s.ea m = s.get r + m.disp := by
        obtain ⟨b, ix, dd⟩ := m
        dsimp only at hb hi
        subst hb hi
        show s.get r + 0#64 + dd = _
        rw [BitVec.add_zero]
      have hr := h.regs r
      split at ho
      · rename_i b o e
        cases ho
        rw [e] at hr
        refine ⟨ρ, _, rfl, h.setReg ?_, GrowN.refl⟩
        have hr : s.get r = B b + o := hr
        show s.ea m = B b + (o + m.disp)
        rw [hea, hr, BitVec.add_assoc]
      · rename_i p e
        rw [e] at hr
        split at ho
        · rename_i n hn
          cases ho
          refine ⟨ρ, _, rfl, h.setReg ?_, GrowN.refl⟩
          have hr : Num σ.nv ρ p (s.get r) := hr
          have h0 := hr ρ h.good fun _ _ => rfl
          dsimp only at h0
          rw [ev_const h.good hn] at h0
          show Num σ.nv ρ _ (s.ea m)
          intro τ g _
          rw [ev_con g, hea, BitVec.toNat_add, h0]
          rfl
        · cases ho
      · cases ho
    · cases ho
  | add d x =>
    simp only [step] at ho
    split at ho
    · rename_i a ha
      obtain ⟨w, e, hw⟩ := h.val ha
      split at ho
      · rename_i b hb
        obtain ⟨y, e', hy⟩ := h.num hb
        simp only [Instr.eff, e, e']
        exact add_ok h hw hy bit_false rfl ho
      · cases ho
    · rename_i b o ha
      obtain ⟨w, e, hw⟩ := h.val ha
      split at ho
      · rename_i n
        have hs : SRep B s0 σ.nv ρ (.ptr b (o + n)) (adcv w n false) := by
          have hw : w = B b + o := hw
          show adcv w n false = B b + (o + n)
          rw [hw]
          unfold adcv
          simp [BitVec.add_assoc]
        have h1 := h.flags (cf := some (adcc w n false)) (of := some (addo w n (adcv w n false)))
          (zf := some (adcv w n false == 0#64)) (sf := some (adcv w n false).msb) frep_none frep_none zrep_none
        obtain ⟨s', e', h'⟩ := h1.put ho hs
        refine ⟨ρ, s', ?_, h', ?_⟩
        · simp only [Instr.eff, e]
          exact e'
        · show GrowN σ.nv ρ σ'.nv ρ
          rw [put_nv ho]
          exact GrowN.refl
      · cases ho
    · cases ho
  | adc d x =>
    simp only [step] at ho
    split at ho
    · rename_i a b c ha hb hc
      obtain ⟨w, e, hw⟩ := h.num ha
      obtain ⟨y, e', hy⟩ := h.num hb
      obtain ⟨t, e'', ht⟩ := h.cf c hc
      simp only [Instr.eff, e, e', e'']
      exact add_ok h hw hy ht rfl ho
    · cases ho
  | sub d x =>
    simp only [step] at ho
    split at ho
    · rename_i a ha
      obtain ⟨w, e, hw⟩ := h.val ha
      split at ho
      · rename_i b hb
        obtain ⟨y, e', hy⟩ := h.num hb
        simp only [Instr.eff, e, e']
        exact sub_ok h hw hy bit_false rfl ho
      · cases ho
    · rename_i b o ha
      obtain ⟨w, e, hw⟩ := h.val ha
      split at ho
      · rename_i n
        have hs : SRep B s0 σ.nv ρ (.ptr b (o - n)) (sbbv w n false) := by
          have hw : w = B b + o := hw
          show sbbv w n false = B b + (o - n)
          rw [hw]
          unfold sbbv
          simp only [Bool.toNat_false, BitVec.sub_eq_add_neg, BitVec.add_assoc]
          simp
        have h1 := h.flags (cf := some (sbbc w n false)) (of := some (subo w n (sbbv w n false)))
          (zf := some (sbbv w n false == 0#64)) (sf := some (sbbv w n false).msb) frep_none frep_none zrep_none
        obtain ⟨s', e', h'⟩ := h1.put ho hs
        refine ⟨ρ, s', ?_, h', ?_⟩
        · simp only [Instr.eff, e]
          exact e'
        · show GrowN σ.nv ρ σ'.nv ρ
          rw [put_nv ho]
          exact GrowN.refl
      · cases ho
    · cases ho
  | sbb d x =>
    simp only [step] at ho
    split at ho
    · cases ho
    · rename_i c hc
      obtain ⟨t, e'', ht⟩ := h.cf c hc
      cases hs : sameReg d x
      · rw [hs, cond_false] at ho
        split at ho
        · rename_i a b ha hb
          obtain ⟨w, e, hw⟩ := h.num ha
          obtain ⟨y, e', hy⟩ := h.num hb
          simp only [Instr.eff, e, e', e'']
          exact sub_ok h hw hy ht rfl ho
        · cases ho
      · rw [hs, cond_true] at ho
        obtain ⟨r, rfl, rfl⟩ := sameReg_eq hs
        have e : s.val (.reg r) = some (s.get r) := rfl
        simp only [Instr.eff, e, e'']
        have h1 := sub_ok (f := some (sbbc 0#64 0#64 t)) (o := some (subo (s.get r) (s.get r) (sbbv (s.get r) (s.get r) t)))
          (sf := some (sbbv 0#64 0#64 t).msb) h Num.zero Num.zero ht rfl ho
        rw [← (sbb_same (s.get r) t).1, ← (sbb_same (s.get r) t).2] at h1
        exact h1
  | cmp d x =>
    simp only [step] at ho
    split at ho
    · rename_i a b ha hb
      obtain ⟨w, e, hw⟩ := h.num ha
      obtain ⟨y, e', hy⟩ := h.num hb
      split at ho
      · cases ho
      · rename_i p q σ1 hs
        cases ho
        obtain ⟨ρ1, h1, h2, h3, h4⟩ := subOp_ok h hw hy bit_false hs
        refine ⟨ρ1, _, by simp only [Instr.eff, e, e']; rfl, h1.flags h4.cf frep_none h3.zf, h2⟩
    · cases ho
  | and d x =>
    simp only [step] at ho
    split at ho
    · rename_i a b ha hb
      obtain ⟨w, e, hw⟩ := h.num ha
      obtain ⟨y, e', hy⟩ := h.num hb
      simp only [Instr.eff, e, e']
      exact logic_ok (s := s) (fun p σ1 hr => andOp_ok h hw hy hr) ho
    · cases ho
  | or d x =>
    simp only [step] at ho
    split at ho
    · rename_i a b ha hb
      obtain ⟨w, e, hw⟩ := h.num ha
      obtain ⟨y, e', hy⟩ := h.num hb
      simp only [Instr.eff, e, e']
      exact logic_ok (s := s) (fun p σ1 hr => orOp_ok h hw hy hr) ho
    · cases ho
  | xor d x =>
    simp only [step] at ho
    cases hs : sameReg d x
    · rw [hs, cond_false] at ho
      split at ho
      · rename_i a b ha hb
        obtain ⟨w, e, hw⟩ := h.num ha
        obtain ⟨y, e', hy⟩ := h.num hb
        simp only [Instr.eff, e, e']
        exact logic_ok (s := s) (fun p σ1 hr => xorOp_ok h hw hy hr) ho
      · cases ho
    · rw [hs, cond_true] at ho
      obtain ⟨r, rfl, rfl⟩ := sameReg_eq hs
      have e : s.val (.reg r) = some (s.get r) := rfl
      simp only [Instr.eff, e, Option.bind_eq_bind, Option.bind_some, BitVec.xor_self]
      exact fin_ok h GrowN.refl Num.zero bit_false.cf bit_false.cf (Num.zf Num.zero) ho
  | test d x =>
    simp only [step] at ho
    split at ho
    · rename_i a ha
      cases hs : sameReg d x
      · rw [hs] at ho
        cases ho
      · rw [hs, cond_true] at ho
        cases ho
        obtain ⟨r, rfl, rfl⟩ := sameReg_eq hs
        obtain ⟨w, e, hw⟩ := h.num ha
        refine ⟨ρ, _, by simp only [Instr.eff, e, Option.bind_eq_bind, Option.bind_some, BitVec.and_self]; rfl, ?_, GrowN.refl⟩
        exact h.flags bit_false.cf bit_false.cf hw.zf
    · cases ho
  | not d =>
    simp only [step] at ho
    split at ho
    · rename_i a ha
      obtain ⟨w, e, hw⟩ := h.num ha
      have hn : Num σ.nv ρ (psub (con 18446744073709551615) a) (~~~ w) := by
        intro τ g hag
        have := hw τ g hag
        dsimp only at this ⊢
        rw [ev_psub, ev_con g, this, BitVec.toNat_not]
        have := w.isLt
        omega
      obtain ⟨s', e', h'⟩ := h.put ho hn
      refine ⟨ρ, s', ?_, h', ?_⟩
      · simp only [Instr.eff, e]
        exact e'
      · show GrowN σ.nv ρ σ'.nv ρ
        rw [put_nv ho]
        exact GrowN.refl
    · cases ho
  | neg d =>
    simp only [step] at ho
    split at ho
    · rename_i a ha
      obtain ⟨w, e, hw⟩ := h.num ha
      simp only [Instr.eff, e]
      exact sub_ok h Num.zero hw bit_false rfl ho
    · cases ho
  | inc d =>
    simp only [step] at ho
    split at ho
    · rename_i a ha
      obtain ⟨w, e, hw⟩ := h.num ha
      simp only [Instr.eff, e]
      exact add_ok (keep := some σ.cf) (f := s.cf) h hw (num_con 1#64) bit_false h.cf ho
    · cases ho
  | dec d =>
    simp only [step] at ho
    split at ho
    · rename_i a ha
      obtain ⟨w, e, hw⟩ := h.num ha
      simp only [Instr.eff, e]
      exact sub_ok (keep := some σ.cf) (f := s.cf) h hw (num_con 1#64) bit_false h.cf ho
    · cases ho
  | mul x =>
    simp only [step] at ho
    split at ho
    · rename_i a b ha hb
      have hw := h.rnum ha
      obtain ⟨y, e', hy⟩ := h.num hb
      split at ho
      · cases ho
      · rename_i p q σ1 hs
        cases ho
        obtain ⟨ρ1, h1, h2, h3, h4⟩ := mulOp_ok h hw hy hs
        refine ⟨ρ1, _, by simp only [Instr.eff, e']; rfl, ?_, h2⟩
        have h5 := (h1.setReg (r := .rax) (v := .num p) h3).setReg (r := .rdx) (v := .num q) h4
        exact h5.flags frep_none frep_none zrep_none
    · cases ho
  | imul d x =>
    simp only [step] at ho
    split at ho
    · rename_i a b ha hb
      have hw := h.rnum ha
      obtain ⟨y, e', hy⟩ := h.num hb
      split at ho
      · cases ho
      · rename_i p q σ1 hs
        obtain ⟨ρ1, h1, h2, h3, h4⟩ := mulOp_ok h hw hy hs
        split at ho
        · cases ho
        · rename_i p2 σ2 h5
          cases ho
          obtain ⟨ρ2, h6, h7, h8⟩ := atomOp_ok h1 h3 h5
          refine ⟨ρ2, _, by simp only [Instr.eff, e']; rfl, ?_, h2.trans h7⟩
          exact (h6.setReg (r := d) (v := .num p2) h8).flags frep_none frep_none zrep_none
    · cases ho
  | mulx hi lo x =>
    simp only [step] at ho
    split at ho
    · rename_i a b ha hb
      have hw := h.rnum ha
      obtain ⟨y, e', hy⟩ := h.num hb
      split at ho
      · cases ho
      · rename_i p q σ1 hs
        obtain ⟨ρ1, h1, h2, h3, h4⟩ := mulOp_ok h hw hy hs
        split at ho
        · cases ho
        · rename_i p2 σ2 h5
          cases ho
          obtain ⟨ρ2, h6, h7, h8⟩ := atomOp_ok h1 h3 h5
          refine ⟨ρ2, _, by simp only [Instr.eff, e']; rfl, ?_, h2.trans h7⟩
          exact (h6.setReg (r := lo) (v := .num p2) h8).setReg (r := hi) (v := .num q) (h4.grow h7)
    · cases ho
  | adcx d x =>
    simp only [step] at ho
    split at ho
    · rename_i a b c ha hb hc
      have hw := h.rnum ha
      obtain ⟨y, e', hy⟩ := h.num hb
      obtain ⟨t, e'', ht⟩ := h.cf c hc
      split at ho
      · cases ho
      · rename_i p q σ1 hs
        obtain ⟨ρ1, h1, h2, h3, h4⟩ := addOp_ok h hw hy ht hs
        split at ho
        · cases ho
        · rename_i p2 σ2 h5
          cases ho
          obtain ⟨ρ2, h6, h7, h8⟩ := atomOp_ok h1 h3 h5
          refine ⟨ρ2, _, by simp only [Instr.eff, e', e'']; rfl, ?_, h2.trans h7⟩
          exact (h6.setReg (r := d) (v := .num p2) h8).flagcf (Bit.cf (h4.grow h7))
    · cases ho
  | adox d x =>
    simp only [step] at ho
    split at ho
    · rename_i a b c ha hb hc
      have hw := h.rnum ha
      obtain ⟨y, e', hy⟩ := h.num hb
      obtain ⟨t, e'', ht⟩ := h.of c hc
      split at ho
      · cases ho
      · rename_i p q σ1 hs
        obtain ⟨ρ1, h1, h2, h3, h4⟩ := addOp_ok h hw hy ht hs
        split at ho
        · cases ho
        · rename_i p2 σ2 h5
          cases ho
          obtain ⟨ρ2, h6, h7, h8⟩ := atomOp_ok h1 h3 h5
          refine ⟨ρ2, _, by simp only [Instr.eff, e', e'']; rfl, ?_, h2.trans h7⟩
          exact (h6.setReg (r := d) (v := .num p2) h8).flagof (Bit.cf (h4.grow h7))
    · cases ho
  | shl d n =>
    simp only [step] at ho
    split at ho
    · rename_i a k ha hk
      obtain ⟨w, e, hw⟩ := h.num ha
      obtain ⟨v, e', hv, k0, k1⟩ := count_ok hk s
      simp only [Instr.eff, St.shift, e, e', Option.bind_eq_bind, Option.bind_some, hv]
      rw [if_neg (by omega)]
      exact shifted_ok (s := s) (fun p σ1 hr => shlOp_ok h ⟨k0, k1⟩ hw hr) ho
    · cases ho
  | shr d n =>
    simp only [step] at ho
    split at ho
    · rename_i a k ha hk
      obtain ⟨w, e, hw⟩ := h.num ha
      obtain ⟨v, e', hv, k0, k1⟩ := count_ok hk s
      simp only [Instr.eff, St.shift, e, e', Option.bind_eq_bind, Option.bind_some, hv]
      rw [if_neg (by omega)]
      exact shifted_ok (s := s) (fun p σ1 hr => shrOp_ok h ⟨k0, k1⟩ hw hr) ho
    · cases ho
  | shld d x n =>
    simp only [step] at ho
    split at ho
    · rename_i a b k ha hb hk
      obtain ⟨w, e, hw⟩ := h.num ha
      have hy := h.rnum hb
      obtain ⟨v, e', hv, k0, k1⟩ := count_ok hk s
      simp only [Instr.eff, St.shift, e, e', Option.bind_eq_bind, Option.bind_some, hv]
      rw [if_neg (by omega)]
      exact shifted_ok (s := s) (fun p σ1 hr => shldOp_ok h ⟨k0, k1⟩ hw hy hr) ho
    · cases ho
  | shrd d x n =>
    simp only [step] at ho
    split at ho
    · rename_i a b k ha hb hk
      obtain ⟨w, e, hw⟩ := h.num ha
      have hy := h.rnum hb
      obtain ⟨v, e', hv, k0, k1⟩ := count_ok hk s
      simp only [Instr.eff, St.shift, e, e', Option.bind_eq_bind, Option.bind_some, hv]
      rw [if_neg (by omega)]
      exact shifted_ok (s := s) (fun p σ1 hr => shrdOp_ok h ⟨k0, k1⟩ hw hy hr) ho
    · cases ho
  | adc32 d x =>
    simp only [step] at ho
    split at ho
    · rename_i a b c ha hb hc
      have hw := h.rnum ha
      have hy := h.rnum hb
      obtain ⟨t, e'', ht⟩ := h.cf c hc
      cases hl : Nat.blt (pmax a + pmax b + 1) 4294967296
      · rw [hl] at ho
        cases ho
      · rw [hl, cond_true] at ho
        cases ho
        rw [Nat.blt_eq] at hl
        have w0 := hw ρ h.good fun _ _ => rfl
        have y0 := hy ρ h.good fun _ _ => rfl
        have la := ev_le h.good a
        have lb := ev_le h.good b
        dsimp only at w0 y0
        have t1 : t.toNat ≤ 1 := by cases t <;> decide
        have e1 : (s.get d).toNat % 2 ^ 32 + (s.get x).toNat % 2 ^ 32 + t.toNat = (s.get d).toNat + (s.get x).toNat + t.toNat := by
          omega
        refine ⟨ρ, _, by simp only [Instr.eff, e'']; rfl, ?_, GrowN.refl⟩
        refine (h.setReg (r := d) (v := .num (padd (padd a b) c)) ?_).flags ?_ frep_none zrep_none
        · intro τ g hag
          have w1 := hw τ g hag
          have y1 := hy τ g hag
          have z1 := ht τ g hag
          dsimp only at w1 y1 z1 ⊢
          rw [e1, ev_padd, ev_padd, w1, y1, z1, BitVec.toNat_ofNat]
          omega
        · rw [e1, decide_eq_false (by omega)]
          exact bit_false.cf
    · cases ho
  | cmov c d x =>
    simp only [step] at ho
    split at ho
    · rename_i a b ha hb
      have hw := h.rnum ha
      obtain ⟨y, e', hy⟩ := h.num hb
      split at ho
      · cases ho
      · rename_i p σ1 hs
        cases ho
        suffices hh : ∃ t, s.cond c = some t ∧ ∃ ρ', Rep B s0 ρ' σ1 s ∧ Grow σ ρ σ1 ρ' ∧ Num σ1.nv ρ' p (if t then y else s.get d) by
          obtain ⟨t, e, ρ1, h1, h2, h3⟩ := hh
          refine ⟨ρ1, _, by simp only [Instr.eff, e', e]; rfl, ?_, h2⟩
          exact h1.setReg (r := d) (v := .num p) h3
        have sw : ∀ t : Bool, (if t then s.get d else y) = if !t then y else s.get d := by intro t; cases t <;> rfl
        split at hs
        · split at hs
          · rename_i q hq
            obtain ⟨t, e, ht⟩ := h.cf q hq
            exact ⟨t, e, selOp_ok h ht hy hw hs⟩
          · cases hs
        · split at hs
          · rename_i q hq
            obtain ⟨t, e, ht⟩ := h.cf q hq
            refine ⟨!t, by simp [St.cond, e], ?_⟩
            rw [← sw]
            exact selOp_ok h ht hw hy hs
          · cases hs
        · split at hs
          · rename_i q hq
            obtain ⟨t, e, ht⟩ := h.zf q hq
            exact ⟨t, e, selzOp_ok h ht hy hw hs⟩
          · cases hs
        · split at hs
          · rename_i q hq
            obtain ⟨t, e, ht⟩ := h.zf q hq
            refine ⟨!t, by simp [St.cond, e], ?_⟩
            rw [← sw]
            exact selzOp_ok h ht hw hy hs
          · cases hs
        · split at hs
          · rename_i q z hq hz
            split at hs
            · rename_i p1 σ1 h1
              obtain ⟨t, e, ht⟩ := h.cf q hq
              obtain ⟨u, e2, hu⟩ := h.zf z hz
              obtain ⟨ρ1, g1, g2, g3⟩ := selOp_ok h ht hw hy h1
              obtain ⟨ρ2, k1, k2, k3⟩ := selzOp_ok g1 (hu.grow g2) (hw.grow g2) g3 hs
              refine ⟨!(t || u), by simp [St.cond, e, e2], ρ2, k1, g2.trans k2, ?_⟩
              have e3 : (if u then s.get d else if t then s.get d else y) = if !(t || u) then y else s.get d := by
                cases t <;> cases u <;> rfl
              rw [← e3]
              exact k3
            · cases hs
          · cases hs
        · cases hs
    · cases ho
  | push r =>
    simp only [step] at ho
    split at ho
    · rename_i b o e
      have hr := h.regs .rsp
      rw [e] at hr
      have hr : s.rsp = B b + o := hr
      have he : s.rsp - 8#64 = B b + (o - 8#64) := by
        rw [hr]
        simp only [BitVec.sub_eq_add_neg, BitVec.add_assoc]
      have h1 := h.setReg (r := .rsp) (v := .ptr b (o - 8#64)) (w := s.rsp - 8#64) he
      obtain ⟨s', e1, h2⟩ := h1.store (k := (b, o - 8#64)) ho (h.regs r)
      refine ⟨ρ, s', ?_, h2, ?_⟩
      · show (s.set .rsp (s.rsp - 8#64)).store (s.rsp - 8#64) (s.get r) = _
        rw [he] at e1 ⊢
        exact e1
      · show GrowN σ.nv ρ σ'.nv ρ
        rw [store_nv ho]
        exact GrowN.refl
    · cases ho
  | pop r =>
    simp only [step] at ho
    split at ho
    · rename_i b o e
      have hr := h.regs .rsp
      rw [e] at hr
      have hr : s.rsp = B b + o := hr
      split at ho
      · cases ho
      · rename_i v hv
        cases ho
        obtain ⟨w, e1, hw⟩ := h.load hv
        refine ⟨ρ, _, ?_, (h.setReg (r := .rsp) (v := .ptr b (o + 8#64)) (w := s.rsp + 8#64) ?_).setReg hw, GrowN.refl⟩
        · simp only [Instr.eff, St.load, hr, e1]
          rfl
        · show _ = _
          rw [hr, BitVec.add_assoc]
    · cases ho
  | _ => cases ho

theorem runSym_ok {B s0} (P : Prog) : ∀ {pc l ρ σ s σ'}, Rep B s0 ρ σ s → runSym pc l P σ = some σ' →
    Follows B s0 σ ρ σ' (effs P s) := by
  induction P with
  | nil =>
    intro pc l ρ σ s σ' h ho
    cases ho
    exact ⟨ρ, s, rfl, h, GrowN.refl⟩
  | cons i P ih =>
    intro pc l ρ σ s σ' h ho
    simp only [runSym] at ho
    split at ho
    · cases ho
    · rename_i σ1 h1
      obtain ⟨ρ1, s1, e1, h2, g1⟩ := step_ok h h1
      obtain ⟨ρ2, s2, e2, h3, g2⟩ := ih h2 ho
      refine ⟨ρ2, s2, ?_, h3, g1.trans g2⟩
      simp only [effs, e1]
      exact e2

theorem eff_exec {i : Instr} {s s' : St} (h : i.eff s = some s') (pc : Nat) : i.exec pc s = some (pc + 1, s') := by
  cases i <;> first | (simp only [Instr.exec, h]; rfl) | (cases h; rfl) | cases h

theorem run_effs (P Q : Prog) : ∀ {s s'}, effs Q s = some s' → ∀ R, P = R ++ Q → run P (Q.length + 1) R.length s = some s' := by
  induction Q with
  | nil =>
    intro s s' h R e
    cases h
    simp [run, e]
  | cons i Q ih =>
    intro s s' h R e
    simp only [effs] at h
    cases h1 : i.eff s with
    | none =>
      rw [h1] at h
      cases h
    | some s1 =>
      rw [h1] at h
      have h2 := ih h (R ++ [i]) (by simp [e])
      rw [List.length_append] at h2
      have hl : R.length ≠ P.length := by simp [e]
      have hi : P[R.length]? = some i := by simp [e]
      show run P (Q.length + 1 + 1) R.length s = _
      rw [run, if_neg hl, hi]
      simp only [eff_exec h1]
      exact h2

end Verif.X86.Sym
