import Verif.Proof.X86.SymLike

/-! Programs made of field operations: each operation is followed in one step. -/
namespace Verif.X86.Sym
open Verif Verif.X86

/-- A field operation: its number in `macSpec`, the number of words of its operands, its program on operands at the stack pointer
(the second after the first, and after both a word for its own use), the registers with the result, the registers it changes. -/
structure Mac where
  kind : Nat
  n1 : Nat
  n2 : Nat
  body : Prog
  outs : List Reg
  uses : List Reg

/-- The operation does what `macSpec` says. -/
def Mac.Ok (M : Mac) : Prop := ∀ (t : St) (x y : Words), x.length = M.n1 → y.length = M.n2 →
  t.Owns t.rsp (M.n1 + M.n2 + 1) → Holds t.mem t.rsp (x ++ y ++ [0#64]) →
  ∃ t', effs M.body t = some t' ∧ macSpec M.kind (val x) (val y) (val (M.outs.map t'.get))

/-- The `n` words from `d` on. -/
def offs (d : Word) (n : Nat) : List Word := (List.range n).map (word d)

/-- What is in the places `[r + d]`. -/
def SSt.take (σ : SSt) (r : Reg) : List Word → Option (List Poly)
  | [] => some []
  | d :: l => match σ.val (.mem ⟨some r, none, d⟩) with
    | some (.num p) => match σ.take r l with
      | some ps => some (p :: ps)
      | none => none
    | _ => none

def pairsOf (r : Reg) (d : Word) (n k : Nat) : List Pair :=
  (List.range n).map fun j => ⟨r, word d j, 8#64 * BitVec.ofNat 64 (k + j)⟩

/-- Forget these registers, the flags, and these words of memory. -/
def SSt.havoc (σ : SSt) (L : List Reg) (K : List (Nat × Word)) : SSt :=
  { L.foldl (fun σ r => σ.setReg r .empty) σ with
    cf := none, of := none, zf := none
    mem := σ.mem.map fun c => bif K.any (fun k => c.is k) then { c with v := .empty } else c }

/-- New variables in these words of memory. -/
def SSt.know : List (Nat × Word) → SSt → Option (List Poly × SSt)
  | [], σ => some ([], σ)
  | k :: ks, σ =>
    bif σ.room then
      match SSt.know ks { σ with
        nv := σ.nv + 2
        words := vr σ.nv :: σ.words
        mem := σ.mem.map fun c => bif c.is k then { c with v := .num (vr σ.nv) } else c } with
      | some (ps, σ') => some (vr σ.nv :: ps, σ')
      | none => none
    else none

/-- A copy `C` of the operation `M`, with the result at `p0` and the operands at `p1` and `p2`. -/
def SSt.mac (M : Mac) (p0 p1 p2 : Reg × Word) (C : Prog) (σ : SSt) : Option SSt :=
  match σ.take p1.1 (offs p1.2 M.n1), σ.take p2.1 (offs p2.2 M.n2), σ.reg p0.1 with
  | some xs, some ys, .ptr b o =>
    let ds := offs p0.2 M.outs.length
    let K := ds.map fun d => (b, o + d)
    bif likes p0.1 (pairsOf p1.1 p1.2 M.n1 0 ++ pairsOf p2.1 p2.2 M.n2 M.n1) ds (ds.zip M.outs) C M.body &&
        C.all (fun i => i.writes.all fun r => M.uses.any (Reg.is r)) &&
        K.all (fun k => σ.mem.any fun c => c.is k && c.w) && Nat.blt (M.n1 + M.n2) 1000 then
      match SSt.know K (σ.havoc M.uses K) with
      | some (zs, σ) => some { σ with facts := .mac M.kind xs ys zs :: σ.facts }
      | none => none
    else none
  | _, _, _ => none

/-! Soundness -/

def Nums (nv : Nat) (ρ : Nat → Nat) : List Poly → Words → Prop
  | [], [] => True
  | p :: ps, w :: ws => Num nv ρ p w ∧ Nums nv ρ ps ws
  | _, _ => False

theorem Nums.grow {n n' ρ ρ'} (g : GrowN n ρ n' ρ') : ∀ {ps ws}, Nums n ρ ps ws → Nums n' ρ' ps ws
  | [], [], _ => trivial
  | _ :: _, _ :: _, h => ⟨h.1.grow g, Nums.grow g h.2⟩

theorem Nums.evs {nv ρ} : ∀ {ps ws}, Nums nv ρ ps ws → Al nv ρ fun τ => evs τ ps = val ws
  | [], [], _ => fun _ _ _ => rfl
  | p :: ps, w :: ws, h => fun τ g ha => by
    have h1 := h.1 τ g ha
    have h2 := Nums.evs h.2 τ g ha
    dsimp only at h1 h2
    show (ev τ p).toNat + 18446744073709551616 * Sym.evs τ ps = w.toNat + 2 ^ 64 * val ws
    rw [h1, h2]
    rfl

theorem take_ok {B s0 ρ σ s} (h : Rep B s0 ρ σ s) {r : Reg} : ∀ {l ps}, σ.take r l = some ps →
    ∃ ws : Words, ws.length = l.length ∧ Nums σ.nv ρ ps ws ∧
      ∀ j (h1 : j < l.length) (h2 : j < ws.length), s.mem (s.get r + l[j]) = some ws[j]
  | [], ps, ht => by
    cases ht
    exact ⟨[], rfl, trivial, fun j h1 => by simp at h1⟩
  | d :: l, ps, ht => by
    unfold SSt.take at ht
    split at ht
    · rename_i p hp
      split at ht
      · rename_i qs hq
        cases ht
        obtain ⟨w, e, hw⟩ := h.val hp
        obtain ⟨ws, h1, h2, h3⟩ := take_ok h hq
        refine ⟨w :: ws, by simp [h1], ⟨hw, h2⟩, ?_⟩
        intro j j1 j2
        cases j with
        | zero =>
          have e : s.mem (s.get r + 0#64 + d) = some w := e
          rw [BitVec.add_zero] at e
          exact e
        | succ j => exact h3 j (by simpa using j1) (by simpa using j2)
      · cases ht
    · cases ht

theorem clear_reg {σ : SSt} : ∀ {L : List Reg}, σ.regs.length = 16 →
    (L.foldl (fun σ r => σ.setReg r .empty) σ).regs.length = 16 ∧
    ∀ q, (L.foldl (fun σ r => σ.setReg r .empty) σ).reg q = .empty ∨
      (q ∉ L ∧ (L.foldl (fun σ r => σ.setReg r .empty) σ).reg q = σ.reg q) := by
  intro L
  induction L generalizing σ with
  | nil => exact fun h => ⟨h, fun q => .inr ⟨List.not_mem_nil, rfl⟩⟩
  | cons r L ih =>
    intro h
    have h' : (σ.setReg r .empty).regs.length = 16 := by
      show (σ.regs.set _ _).length = 16
      rw [List.length_set]
      exact h
    obtain ⟨h1, h2⟩ := ih h'
    refine ⟨h1, fun q => ?_⟩
    rcases h2 q with h2 | ⟨h2, h3⟩
    · exact .inl h2
    · rw [reg_setReg h] at h3
      split at h3
      · exact .inl h3
      · rename_i hq
        exact .inr ⟨by simp [hq, h2], h3⟩

theorem clear_rest (L : List Reg) : ∀ σ : SSt, (L.foldl (fun σ r => σ.setReg r .empty) σ).nv = σ.nv ∧
    (L.foldl (fun σ r => σ.setReg r .empty) σ).words = σ.words ∧
    (L.foldl (fun σ r => σ.setReg r .empty) σ).facts = σ.facts := by
  induction L with
  | nil => exact fun σ => ⟨rfl, rfl, rfl⟩
  | cons r L ih => exact fun σ => ih _

theorem Rep.havoc {B s0 ρ σ s s'} (h : Rep B s0 ρ σ s) {L : List Reg} {K : List (Nat × Word)}
    (hr : ∀ r, r ∉ L → s'.get r = s.get r) (hw : s'.wr = s.wr) (hK : ∀ k ∈ K, ∃ c ∈ σ.mem, c.is k = true ∧ c.w = true)
    (hm : ∀ a, (∀ k ∈ K, a ≠ B k.1 + k.2) → s'.mem a = s.mem a) : Rep B s0 ρ (σ.havoc L K) s' := by
  obtain ⟨e1, e2, e3⟩ := clear_rest L σ
  obtain ⟨l1, l2⟩ := clear_reg (L := L) h.len
  have hc : ∀ c ∈ (σ.havoc L K).mem, ∃ d ∈ σ.mem, c.b = d.b ∧ c.o = d.o ∧ c.w = d.w ∧
      (c.v = .empty ∨ (c = d ∧ ∀ k ∈ K, d.is k = false)) := by
    intro c hc
    obtain ⟨d, hd, rfl⟩ := List.mem_map.mp hc
    refine ⟨d, hd, ?_⟩
    cases e : K.any fun k => d.is k
    · refine ⟨rfl, rfl, rfl, .inr ⟨rfl, fun k hk => ?_⟩⟩
      cases e' : d.is k
      · rfl
      · rw [List.any_eq_true.mpr ⟨k, hk, e'⟩] at e
        cases e
    · exact ⟨rfl, rfl, rfl, .inl rfl⟩
  have hback : ∀ d ∈ σ.mem, ∃ c ∈ (σ.havoc L K).mem, c.b = d.b ∧ c.o = d.o ∧ c.w = d.w := by
    intro d hd
    refine ⟨_, List.mem_map.mpr ⟨d, hd, rfl⟩, ?_⟩
    cases K.any fun k => d.is k <;> exact ⟨rfl, rfl, rfl⟩
  refine ⟨h.good, ?_, l1, ?_, frep_none, frep_none, zrep_none, ?_, ?_, ?_, ?_, ?_, ?_, hw.trans h.swr⟩
  · show (L.foldl _ σ).nv % 2 = 0 ∧ 2 ≤ (L.foldl _ σ).nv
    rw [e1]
    exact h.even
  · intro r
    show SRep B s0 (L.foldl _ σ).nv ρ ((L.foldl _ σ).reg r) (s'.get r)
    rw [e1]
    rcases l2 r with e | ⟨e, e'⟩
    · rw [e]
      trivial
    · rw [e', hr r e]
      exact h.regs r
  · intro c hcm
    obtain ⟨d, hd, -, -, -, e | ⟨rfl, e⟩⟩ := hc c hcm
    · unfold CRep
      rw [e]
      trivial
    · have h0 := h.mem c hd
      have hne : ∀ k ∈ K, c.addr B ≠ B k.1 + k.2 := by
        intro k hk
        obtain ⟨x, hx, hxk, hxw⟩ := hK k hk
        have hx' := Cell.is_eq.mp hxk
        have := h.sep x hx hxw c hd (by
          by_contra hn
          have : c.is k = true := Cell.is_eq.mpr (by rw [← hx'.1, ← hx'.2]; constructor <;> by_contra hh <;> exact hn (by tauto))
          rw [e k hk] at this
          cases this)
        rw [← hx'.1, ← hx'.2]
        exact Ne.symm this
      unfold CRep at *
      show match c.v with | .empty => True | v => ∃ w, s'.mem (c.addr B) = some w ∧ SRep B s0 (L.foldl _ σ).nv ρ v w
      rw [e1, hm _ hne]
      exact h0
  · intro c hcm hcw
    obtain ⟨d, hd, e1, e2, e3, -⟩ := hc c hcm
    have := h.wr d hd (e3 ▸ hcw)
    rw [hw]
    show s.wr (B c.b + c.o) = true
    rw [e1, e2]
    exact this
  · intro c hcm hcw x hxm hne
    obtain ⟨d, hd, e1, e2, e3, -⟩ := hc c hcm
    obtain ⟨y, hy, f1, f2, f3, -⟩ := hc x hxm
    have := h.sep d hd (e3 ▸ hcw) y hy (by rw [← e1, ← e2, ← f1, ← f2]; exact hne)
    show B c.b + c.o ≠ B x.b + x.o
    rw [e1, e2, f1, f2]
    exact this
  · intro p hp
    show Al (L.foldl _ σ).nv ρ _
    rw [e1]
    have hp : p ∈ (L.foldl _ σ).words := hp
    rw [e2] at hp
    exact h.words p hp
  · intro p hp
    show Al (L.foldl _ σ).nv ρ _
    rw [e1]
    have hp : p ∈ (L.foldl _ σ).facts := hp
    rw [e3] at hp
    exact h.facts p hp
  · intro a ha
    have ha' : ∀ d ∈ σ.mem, d.w = true → a ≠ d.addr B := by
      intro d hd hdw
      obtain ⟨c, hcm, e1, e2, e3⟩ := hback d hd
      have := ha c hcm (e3 ▸ hdw)
      show a ≠ B d.b + d.o
      rw [← e1, ← e2]
      exact this
    rw [hm a fun k hk => ?_, h.outside a ha']
    obtain ⟨x, hx, hxk, hxw⟩ := hK k hk
    have hx' := Cell.is_eq.mp hxk
    rw [← hx'.1, ← hx'.2]
    exact ha' x hx hxw

theorem Rep.cell {B s0 ρ σ s} (h : Rep B s0 ρ σ s) {k : Nat × Word} {p : Poly} {w : Word} (hp : Num σ.nv ρ p w)
    (hm : s.mem (B k.1 + k.2) = some w) :
    Rep B s0 ρ { σ with mem := σ.mem.map fun c => bif c.is k then { c with v := .num p } else c } s := by
  have hc : ∀ c ∈ (σ.mem.map fun c => bif c.is k then { c with v := .num p } else c), ∃ d ∈ σ.mem, c.b = d.b ∧ c.o = d.o ∧
      c.w = d.w ∧ ((d.is k = true ∧ c.v = .num p) ∨ c = d) := by
    intro c hc
    obtain ⟨d, hd, rfl⟩ := List.mem_map.mp hc
    refine ⟨d, hd, ?_⟩
    cases e : d.is k
    · exact ⟨rfl, rfl, rfl, .inr rfl⟩
    · exact ⟨rfl, rfl, rfl, .inl ⟨rfl, rfl⟩⟩
  have hback : ∀ d ∈ σ.mem, ∃ c ∈ (σ.mem.map fun c => bif c.is k then { c with v := .num p } else c), c.b = d.b ∧
      c.o = d.o ∧ c.w = d.w := by
    intro d hd
    refine ⟨_, List.mem_map.mpr ⟨d, hd, rfl⟩, ?_⟩
    cases d.is k <;> exact ⟨rfl, rfl, rfl⟩
  refine ⟨h.good, h.even, h.len, h.regs, h.cf, h.of, h.zf, ?_, ?_, ?_, h.words, h.facts, ?_, h.swr⟩
  · intro c hcm
    obtain ⟨d, hd, e1, e2, -, ⟨e, e'⟩ | rfl⟩ := hc c hcm
    · have := Cell.is_eq.mp e
      unfold CRep
      rw [e']
      refine ⟨w, ?_, hp⟩
      show s.mem (B c.b + c.o) = some w
      rw [e1, e2, this.1, this.2]
      exact hm
    · exact h.mem c hd
  · intro c hcm hcw
    obtain ⟨d, hd, e1, e2, e3, -⟩ := hc c hcm
    have := h.wr d hd (e3 ▸ hcw)
    show s.wr (B c.b + c.o) = true
    rw [e1, e2]
    exact this
  · intro c hcm hcw x hxm hne
    obtain ⟨d, hd, e1, e2, e3, -⟩ := hc c hcm
    obtain ⟨y, hy, f1, f2, f3, -⟩ := hc x hxm
    have := h.sep d hd (e3 ▸ hcw) y hy (by rw [← e1, ← e2, ← f1, ← f2]; exact hne)
    show B c.b + c.o ≠ B x.b + x.o
    rw [e1, e2, f1, f2]
    exact this
  · intro a ha
    refine h.outside a fun d hd hdw => ?_
    obtain ⟨c, hcm, e1, e2, e3⟩ := hback d hd
    have := ha c hcm (e3 ▸ hdw)
    show a ≠ B d.b + d.o
    rw [← e1, ← e2]
    exact this

theorem know_ok {B s0 s} : ∀ {K : List (Nat × Word)} {ρ σ zs σ'}, Rep B s0 ρ σ s → SSt.know K σ = some (zs, σ') →
    ∀ ws : Words, ws.length = K.length →
    (∀ j (h1 : j < K.length) (h2 : j < ws.length), s.mem (B K[j].1 + K[j].2) = some ws[j]) →
    ∃ ρ', Rep B s0 ρ' σ' s ∧ GrowN σ.nv ρ σ'.nv ρ' ∧ Nums σ'.nv ρ' zs ws
  | [], ρ, σ, zs, σ', h, ho, ws, hl, hm => by
    cases ho
    cases ws with
    | nil => exact ⟨ρ, h, GrowN.refl, trivial⟩
    | cons w ws => cases hl
  | k :: K, ρ, σ, zs, σ', h, ho, ws, hl, hm => by
    unfold SSt.know at ho
    cases hr : σ.room
    · rw [hr] at ho
      cases ho
    · rw [hr, cond_true] at ho
      split at ho
      · rename_i ps σ1 hk
        cases ho
        cases ws with
        | nil => cases hl
        | cons w ws =>
          obtain ⟨ρ1, h1, g1, n1⟩ := h.wordVar hr w
          have h2 := h1.word (p := vr σ.nv) fun τ g hag => by
            have := n1 τ g hag
            dsimp only at this
            have := w.isLt
            omega
          have h3 := h2.cell (k := k) (p := vr σ.nv) n1 (hm 0 (by simp) (by simp))
          obtain ⟨ρ2, r1, r2, r3⟩ := know_ok h3 hk ws (by simpa using hl) fun j j1 j2 =>
            hm (j + 1) (by simpa using j1) (by simpa using j2)
          exact ⟨ρ2, r1, GrowN.trans ⟨g1.le, g1.eq⟩ r2, n1.grow r2, r3⟩
      · cases ho

theorem word_add (p d : Word) (i : Nat) : p + word d i = word (p + d) i := by
  unfold word
  rw [BitVec.add_assoc]

/-- Memory with these words at `p`. -/
def memOf (p : Word) (l : Words) : Word → Option Word := fun a => l[(a - p).toNat / 8]?

theorem memOf_at {p : Word} {l : Words} {i : Nat} (hi : i < 2 ^ 60) : memOf p l (word p i) = l[i]? := by
  unfold memOf word
  have : (p + 8#64 * BitVec.ofNat 64 i - p).toNat = 8 * i := by
    rw [BitVec.add_comm, BitVec.add_sub_cancel, BitVec.toNat_mul, BitVec.toNat_ofNat, BitVec.toNat_ofNat]
    omega
  rw [this, Nat.mul_div_cancel_left _ (by omega)]

theorem pairs_ok {s : St} {r : Reg} {d : Word} {n k : Nat} {ws l : Words} (hw : ws.length = n) (hl : k + n < 1000)
    (hm : ∀ j (h1 : j < (offs d n).length) (h2 : j < ws.length), s.mem (s.get r + (offs d n)[j]) = some ws[j])
    (hk : ∀ j (h : j < ws.length), l[k + j]? = some ws[j]) : Pairs (pairsOf r d n k) (memOf s.rsp l) s := by
  intro p hp
  obtain ⟨j, hj, rfl⟩ := List.mem_map.mp hp
  rw [List.mem_range] at hj
  have h1 := hm j (by simp [offs, hj]) (by omega)
  have h2 : (offs d n)[j]'(by simp [offs, hj]) = word d j := by simp [offs]
  rw [h2] at h1
  show s.mem (s.get r + word d j) = memOf s.rsp l (word s.rsp (k + j))
  rw [h1, memOf_at (by omega), hk j (by omega)]

theorem mac_ok {B s0 ρ σ s} (h : Rep B s0 ρ σ s) {M : Mac} (hM : M.Ok) {p0 p1 p2 : Reg × Word} {C : Prog} {σ'}
    (ho : σ.mac M p0 p1 p2 C = some σ') : Follows B s0 σ ρ σ' (effs C s) := by
  unfold SSt.mac at ho
  split at ho
  · rename_i xs ys b o hx hy hb
    cases hc : likes p0.1 (pairsOf p1.1 p1.2 M.n1 0 ++ pairsOf p2.1 p2.2 M.n2 M.n1) (offs p0.2 M.outs.length)
      ((offs p0.2 M.outs.length).zip M.outs) C M.body &&
        C.all (fun i => i.writes.all fun r => M.uses.any (Reg.is r)) &&
        ((offs p0.2 M.outs.length).map fun d => (b, o + d)).all (fun k => σ.mem.any fun c => c.is k && c.w) &&
        Nat.blt (M.n1 + M.n2) 1000
    · simp only [hc] at ho
      cases ho
    · simp only [hc, cond_true] at ho
      simp only [Bool.and_eq_true] at hc
      obtain ⟨⟨⟨c1, c2⟩, c3⟩, c4⟩ := hc
      have c4 : M.n1 + M.n2 < 1000 := by simpa using c4
      obtain ⟨x, lx, nx, mx⟩ := take_ok h hx
      obtain ⟨y, ly, ny, my⟩ := take_ok h hy
      have lx : x.length = M.n1 := by rw [lx]; simp [offs]
      have ly : y.length = M.n2 := by rw [ly]; simp [offs]
      have hb : s.get p0.1 = B b + o := by
        have := h.regs p0.1
        rw [hb] at this
        exact this
      have hK : ∀ k ∈ (offs p0.2 M.outs.length).map fun d => (b, o + d), ∃ c ∈ σ.mem, c.is k = true ∧ c.w = true := by
        intro k hk
        obtain ⟨c, h1, h2⟩ := List.any_eq_true.mp (List.all_eq_true.mp c3 k hk)
        rw [Bool.and_eq_true] at h2
        exact ⟨c, h1, h2.1, h2.2⟩
      have hwr : ∀ d ∈ offs p0.2 M.outs.length, s.wr (s.get p0.1 + d) = true := by
        intro d hd
        obtain ⟨c, h1, h2, h3⟩ := hK _ (List.mem_map.mpr ⟨d, hd, rfl⟩)
        have := h.wr c h1 h3
        have e := Cell.is_eq.mp h2
        unfold Cell.addr at this
        rw [e.1, e.2] at this
        rw [hb, BitVec.add_assoc]
        exact this
      have hzip : ∀ p ∈ (offs p0.2 M.outs.length).zip M.outs, p.1 ∈ offs p0.2 M.outs.length :=
        fun p hp => (List.of_mem_zip hp).1
      obtain ⟨t', e', hspec⟩ := hM (over (memOf s.rsp (x ++ y ++ [0#64])) (fun _ => true) s) x y lx ly (fun _ _ => rfl)
        (by
          intro i hi
          show memOf s.rsp _ (word s.rsp i) = _
          rw [memOf_at (by simp at hi; omega), List.getElem?_eq_getElem hi])
      obtain ⟨s', r1, r2, r3, r4, r5, r6⟩ := likes_ok c1 (by
          intro p hp
          rcases List.mem_append.mp hp with hp | hp
          · refine pairs_ok lx (by omega) mx ?_ p hp
            intro j hj
            rw [Nat.zero_add, List.append_assoc, List.getElem?_append_left hj, List.getElem?_eq_getElem hj]
          · refine pairs_ok ly (by omega) my ?_ p hp
            intro j hj
            rw [List.append_assoc, List.getElem?_append_right (by omega), ← lx, Nat.add_sub_cancel_left,
              List.getElem?_append_left hj, List.getElem?_eq_getElem hj])
        hwr (fun p hp => hwr _ (hzip p hp)) e'
      have huse : ∀ r, r ∉ M.uses → s'.get r = s.get r := by
        intro r hr
        refine effs_get (fun i hi hw => ?_) r1
        obtain ⟨q, hq, e⟩ := List.any_eq_true.mp (List.all_eq_true.mp (List.all_eq_true.mp c2 i hi) r hw)
        cases Reg.is_eq e
        exact hr hq
      have h1 := h.havoc (s' := s') (L := M.uses) (K := (offs p0.2 M.outs.length).map fun d => (b, o + d)) huse r3 hK (by
        intro a ha
        have ha' : ∀ d ∈ offs p0.2 M.outs.length, a ≠ s.get p0.1 + d := by
          intro d hd
          rw [hb, BitVec.add_assoc]
          exact ha _ (List.mem_map.mpr ⟨d, hd, rfl⟩)
        exact r6 a ha' fun p hp => ha' _ (hzip p hp))
      split at ho
      · rename_i zs σ1 hk
        cases ho
        have hlen : (offs p0.2 M.outs.length).length = M.outs.length := by simp [offs]
        obtain ⟨ρ', q1, q2, q3⟩ := know_ok h1 hk (M.outs.map s'.get) (by simp [offs]) (by
          intro j j1 j2
          have j3 : j < M.outs.length := by simpa using j2
          have := r5 ((offs p0.2 M.outs.length)[j]'(by omega), M.outs[j]) (by
            rw [List.mem_iff_getElem]
            refine ⟨j, by rw [List.length_zip]; omega, ?_⟩
            rw [List.getElem_zip])
          rw [List.getElem_map, List.getElem_map]
          rw [hb, BitVec.add_assoc] at this
          exact this)
        have hnv : (σ.havoc M.uses ((offs p0.2 M.outs.length).map fun d => (b, o + d))).nv = σ.nv := (clear_rest M.uses σ).1
        rw [hnv] at q2
        refine ⟨ρ', s', r1, ?_, ⟨q2.le, q2.eq⟩⟩
        refine q1.fact fun τ g ha => ?_
        show macSpec _ (evs τ xs) (evs τ ys) (evs τ zs)
        rw [(nx.grow q2).evs τ g ha, (ny.grow q2).evs τ g ha, q3.evs τ g ha,
          List.map_congr_left fun r _ => r2 r]
        exact hspec
      · cases ho
  · cases ho

/-- A part of a program: instructions one by one, with advice; or an operation. -/
inductive Seg where
  | raw (n : Nat) (hs : List (Nat × Hint))
  | op (i n : Nat) (p0 p1 p2 : Reg × Word)

def runSegs (T : List Mac) : List Seg → Prog → SSt → Option SSt
  | [], P, σ => match P with
    | [] => some σ
    | _ => none
  | .raw n hs :: l, P, σ => match runSym 0 hs (P.take n) σ with
    | none => none
    | some σ => runSegs T l (P.drop n) σ
  | .op i n p0 p1 p2 :: l, P, σ => match T[i]? with
    | none => none
    | some M => match σ.mac M p0 p1 p2 (P.take n) with
      | none => none
      | some σ => runSegs T l (P.drop n) σ

theorem effs_append {P Q : Prog} : ∀ {s}, effs (P ++ Q) s = (effs P s).bind (effs Q) := by
  induction P with
  | nil => intro s; rfl
  | cons i P ih =>
    intro s
    rw [List.cons_append, effs, effs]
    cases i.eff s with
    | none => rfl
    | some t => exact ih

theorem runSegs_ok {B s0} {T : List Mac} (hT : ∀ M ∈ T, M.Ok) : ∀ {l : List Seg} {P : Prog} {ρ σ s σ'}, Rep B s0 ρ σ s →
    runSegs T l P σ = some σ' → Follows B s0 σ ρ σ' (effs P s) := by
  have next : ∀ {P : Prog} {n : Nat} {ρ σ s σ1 σ'}, Follows B s0 σ ρ σ1 (effs (P.take n) s) →
      (∀ ρ1 s1, Rep B s0 ρ1 σ1 s1 → Follows B s0 σ1 ρ1 σ' (effs (P.drop n) s1)) →
      Follows B s0 σ ρ σ' (effs P s) := by
    intro P n ρ σ s σ1 σ' h1 h2
    obtain ⟨ρ1, s1, e1, r1, g1⟩ := h1
    obtain ⟨ρ2, s2, e2, r2, g2⟩ := h2 ρ1 s1 r1
    refine ⟨ρ2, s2, ?_, r2, g1.trans g2⟩
    rw [← List.take_append_drop n P, effs_append, e1]
    exact e2
  intro l
  induction l with
  | nil =>
    intro P ρ σ s σ' h ho
    unfold runSegs at ho
    split at ho
    · cases ho
      exact ⟨ρ, s, rfl, h, GrowN.refl⟩
    · cases ho
  | cons a l ih =>
    intro P ρ σ s σ' h ho
    cases a with
    | raw n hs =>
      unfold runSegs at ho
      split at ho
      · cases ho
      · rename_i σ1 h1
        exact next (runSym_ok _ h h1) fun ρ1 s1 r1 => ih r1 ho
    | op i n p0 p1 p2 =>
      unfold runSegs at ho
      split at ho
      · cases ho
      · rename_i M hM
        split at ho
        · cases ho
        · rename_i σ1 h1
          exact next (mac_ok h (hT M (List.mem_of_getElem? hM)) h1) fun ρ1 s1 r1 => ih r1 ho

def verifySegs (T : List Mac) (as : List Arg) (rd : List Nat) (l : List Seg) (P : Prog) (cs : List Claim) : Bool :=
  accept as rd cs (runSegs T l P (entry as rd))

theorem verifySegs_sound {T : List Mac} (hT : ∀ M ∈ T, M.Ok) {as : List Arg} {rd : List Nat} {l : List Seg} {P : Prog}
    {cs : List Claim} (hv : verifySegs T as rd l P cs = true) {s : St} {ws : List (Option Words)} (hl : as.length = ws.length)
    (hs : ∀ a ∈ as, a.len < 2 ^ 60) (hrd : ∀ b ∈ rd, ∃ w, ws[b]? = some (some w)) (hn : (given ws rd).length < 100000)
    (h : Ready s ((as.zip ws).map fun x => blockOf s x.1 x.2)) :
    ∃ s' W, run P (P.length + 1) 0 s = some s' ∧ Untouched ((as.zip ws).map fun x => blockOf s x.1 x.2) s s' ∧
      (∀ i, W i < 2 ^ 64) ∧ (∀ i (hi : i < (given ws rd).length), W i = (given ws rd)[i].toNat) ∧
      ∀ c ∈ cs, c.Holds s s' as W := by
  obtain ⟨s', W, e, h1⟩ := accept_sound hv hl hs hrd hn h fun _ _ hσ h1 => runSegs_ok hT h1 hσ
  exact ⟨s', W, run_effs P P e [] rfl, h1⟩

end Verif.X86.Sym
