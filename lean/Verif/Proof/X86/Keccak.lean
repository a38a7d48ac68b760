import Verif.Proof.X86.KeccakRound
import Verif.Model.AsmX86.Keccak

/-! `sha3_keccak_f1600`: between rounds six lanes are kept complemented, and the state alternates between two blocks. -/
namespace Verif.X86
open Verif Verif.Spec.Keccak

/-- The lanes kept complemented. -/
def flipped (i : Nat) : Bool := Nat.beq i 1 || Nat.beq i 2 || Nat.beq i 8 || Nat.beq i 12 || Nat.beq i 17 || Nat.beq i 20

/-! ### The code of a round -/

/-- At the start of a round: the last row is in registers. -/
def kStart : BS where
  regs := [.e (.var 20), .e (.var 21), .e (.var 22), .e (.var 23), .ptr 2, .ptr 0, .e (.var 24), .ptr 3,
    .top, .top, .top, .top, .top, .top, .top, .ptr 1]
  dst := List.replicate 25 none

def BV.isPtr : BV → Nat → Bool
  | .ptr b, c => Nat.beq b c
  | _, _ => false

def osame : Option BE → Option BE → Bool
  | some a, some b => a.same b
  | _, _ => false

def BV.toE : BV → Option BE
  | .e x => some x
  | _ => none

/-- At its end. -/
def kEnd (σ : BS) : Bool :=
  (σ.get .rdi).isPtr 1 && (σ.get .r15).isPtr 0 && (σ.get .rsi).isPtr 2 && (σ.get .rsp).isPtr 3 &&
  (List.range 25).all (fun i => osame (σ.dst.getD i none) (symR flipped i)) &&
  osame (σ.get .rax).toE (symR flipped 20) && osame (σ.get .rbx).toE (symR flipped 21) && osame (σ.get .rcx).toE (symR flipped 22) &&
  osame (σ.get .rdx).toE (symR flipped 23) && osame (σ.get .rbp).toE (symR flipped 24)

def kCheck (l : List Instr) : Bool :=
  match BS.run l kStart with
  | some σ => kEnd σ
  | none => false

theorem klen : Asm.sha3KeccakF1600.length = 430 := by decide +kernel
theorem kCheck_1 : kCheck ((Asm.sha3KeccakF1600.drop 22).take 194) = true := by decide +kernel
theorem kCheck_2 : kCheck ((Asm.sha3KeccakF1600.drop 217).take 194) = true := by decide +kernel

/-- The state between rounds: `a` at `S`, its last row also in registers, and the other block at `D`. -/
structure KSt (S D R F : Word) (a : Lanes) (t : St) : Prop where
  rdi : t.rdi = S
  r15 : t.r15 = D
  rsi : t.rsi = R
  rsp : t.rsp = F
  rax : t.rax = kept flipped a 20
  rbx : t.rbx = kept flipped a 21
  rcx : t.rcx = kept flipped a 22
  rdx : t.rdx = kept flipped a 23
  rbp : t.rbp = kept flipped a 24
  mem : ∀ i < 25, t.mem (word S i) = some (kept flipped a i)

/-- The addresses of the blocks. -/
def kbase (S D R F : Word) : Nat → Word
  | 0 => S
  | 1 => D
  | 2 => R
  | _ => F

theorem isPtr_is {ρ base : Nat → Word} {v : BV} {b : Nat} {w : Word} (h : v.isPtr b = true) (hv : v.Is ρ base w) : w = base b := by
  cases v with
  | ptr c =>
    have : c = b := Nat.eq_of_beq_eq_true h
    subst this
    exact hv
  | e _ => simp [BV.isPtr] at h
  | top => simp [BV.isPtr] at h

theorem osame_val {ρ : Nat → Word} {x y : Option BE} (h : osame x y = true) : ∃ a b, x = some a ∧ y = some b ∧ a.val ρ = b.val ρ := by
  cases x with
  | none => simp [osame] at h
  | some a =>
    cases y with
    | none => simp [osame] at h
    | some b => exact ⟨a, b, rfl, rfl, BE.same_val h⟩

theorem toE_is {ρ base : Nat → Word} {v : BV} {y : Option BE} {w : Word} (h : osame v.toE y = true) (hv : v.Is ρ base w) :
    ∃ b, y = some b ∧ w = b.val ρ := by
  obtain ⟨a, b, h1, h2, h3⟩ := osame_val (ρ := ρ) h
  cases v with
  | ptr _ => simp [BV.toE] at h1
  | top => simp [BV.toE] at h1
  | e x =>
    obtain rfl : x = a := by simpa [BV.toE] using h1
    exact ⟨b, h2, (show w = x.val ρ from hv).trans h3⟩

/-- The code of a round does a round. -/
theorem kround_from {S D R F : Word} {a : Lanes} {k : Lane} {t : St} {Q : St → Prop} {pc : Nat} (hn : pc + 194 ≤ Asm.sha3KeccakF1600.length)
    (hc : kCheck ((Asm.sha3KeccakF1600.drop pc).take 194) = true) (K : KSt S D R F a t) (hr : t.mem R = some k)
    (a0 : Apart D 25 S 25) (a2 : Apart D 25 R 1) (ow : ∀ i < 25, t.wr (word D i) = true)
    (hQ : ∀ u, KSt D S R F (kround k a) u → OnlyAt D 25 t.mem u.mem → u.wr = t.wr → From Asm.sha3KeccakF1600 (pc + 194) u Q) :
    From Asm.sha3KeccakF1600 pc t Q := by
  have hrho : ∀ i < 25, krho flipped k a i = kept flipped a i := fun i hi => by unfold krho; rw [if_neg (by omega)]
  have C : BCtx (krho flipped k a) (kbase S D R F) t.mem t.wr :=
    ⟨fun i hi => by rw [hrho i hi]; exact K.mem i hi, by rw [show krho flipped k a 25 = k from rfl]; exact hr, a0, a2, ow⟩
  have H : BRel (krho flipped k a) (kbase S D R F) t.mem t.wr kStart t := by
    refine ⟨rfl, rfl, fun r => ?_, fun i hi x hx => ?_, rfl, OnlyAt.refl _ _ _⟩
    · have hv : ∀ i < 25, ∀ w, w = kept flipped a i → (BV.e (.var i)).Is (krho flipped k a) (kbase S D R F) w := by
        intro i hi w hw
        show w = (BE.var i).val _
        rw [BE.var_val, hrho i hi, hw]
      cases r
      · exact hv 20 (by omega) _ K.rax
      · exact hv 21 (by omega) _ K.rbx
      · exact hv 22 (by omega) _ K.rcx
      · exact hv 23 (by omega) _ K.rdx
      · exact K.rsi
      · exact K.rdi
      · exact hv 24 (by omega) _ K.rbp
      · exact K.rsp
      · trivial
      · trivial
      · trivial
      · trivial
      · trivial
      · trivial
      · trivial
      · exact K.r15
    · have : (List.replicate 25 (none : Option BE)).getD i none = none := by
        rw [List.getD_eq_getElem?_getD, List.getElem?_replicate]
        split <;> rfl
      rw [show kStart.dst = List.replicate 25 none from rfl, this] at hx
      cases hx
  unfold kCheck at hc
  split at hc
  · rename_i σ hσ
    refine From.bits C hn H hσ fun u U => ?_
    unfold kEnd at hc
    simp only [Bool.and_eq_true, List.all_eq_true, List.mem_range] at hc
    obtain ⟨⟨⟨⟨⟨⟨⟨⟨⟨c1, c2⟩, c3⟩, c4⟩, c5⟩, c6⟩, c7⟩, c8⟩, c9⟩, c10⟩ := hc
    have lane : ∀ {r : Reg} {i : Nat}, i < 25 → osame (σ.get r).toE (symR flipped i) = true → u.get r = kept flipped (kround k a) i := by
      intro r i hi h
      obtain ⟨b, h1, h2⟩ := toE_is h (U.reg r)
      rw [h2, symR_val hi h1]
    refine hQ u ⟨isPtr_is c1 (U.reg .rdi), isPtr_is c2 (U.reg .r15), isPtr_is c3 (U.reg .rsi), isPtr_is c4 (U.reg .rsp),
      lane (by omega) c6, lane (by omega) c7, lane (by omega) c8, lane (by omega) c9, lane (by omega) c10, fun i hi => ?_⟩ U.un U.wr
    obtain ⟨x, y, h1, h2, h3⟩ := osame_val (ρ := krho flipped k a) (c5 i hi)
    rw [← symR_val hi h2, ← h3]
    exact U.dst i hi x h1
  · cases hc

/-! ### Complementing lanes -/

theorem not_from {P : Prog} {pc i : Nat} {d S : Word} {w : Nat → Word} {t : St} {Q : St → Prop}
    (hp : P[pc]? = some (.not (.mem ⟨some .rdi, none, d⟩))) (hd : d = 8#64 * BitVec.ofNat 64 i) (hi : i < 25) (hdi : t.rdi = S)
    (hw : ∀ j < 25, t.mem (word S j) = some (w j)) (ow : ∀ j < 25, t.wr (word S j) = true)
    (hQ : ∀ m', (∀ j < 25, m' (word S j) = some (if j = i then ~~~ w j else w j)) → OnlyAt S 25 t.mem m' →
      From P (pc + 1) { t with mem := m' } Q) : From P pc t Q := by
  have ea : t.ea ⟨some .rdi, none, d⟩ = word S i := by
    simp only [St.ea, St.get, hdi, hd, BitVec.add_zero, word_fold]
  refine From.next hp ?_
  have e : Instr.exec (.not (.mem ⟨some .rdi, none, d⟩)) pc t =
      some (pc + 1, { t with mem := fun b => if b = word S i then some (~~~ w i) else t.mem b }) := by
    simp only [Instr.exec, Instr.eff, St.val, St.put, St.load, St.store, ea, hw i hi, ow i hi, if_true, bind, Option.bind_some,
      Option.map_some]
  rw [e, then_some]
  refine hQ _ (fun j hj => ?_) ((OnlyAt.refl S 25 t.mem).store hi _)
  show (if word S j = word S i then some (~~~ w i) else t.mem (word S j)) = _
  by_cases h : j = i
  · subst h
    rw [if_pos rfl, if_pos rfl]
  · rw [if_neg h, if_neg fun e => h (word_inj (by omega) (by omega) e), hw j hj]

theorem OnlyAt.trans {p : Word} {k : Nat} {m1 m2 m3 : Word → Option Word} (h1 : OnlyAt p k m1 m2) (h2 : OnlyAt p k m2 m3) :
    OnlyAt p k m1 m3 := fun a ha => (h2 a ha).trans (h1 a ha)

theorem nots_from {pc : Nat} {S : Word} {w : Nat → Word} {t : St} {Q : St → Prop} (hpc : pc = 8 ∨ pc = 417) (hdi : t.rdi = S)
    (hw : ∀ j < 25, t.mem (word S j) = some (w j)) (ow : ∀ j < 25, t.wr (word S j) = true)
    (hQ : ∀ m', (∀ j < 25, m' (word S j) = some (cv (flipped j) ^^^ w j)) → OnlyAt S 25 t.mem m' →
      From Asm.sha3KeccakF1600 (pc + 6) { t with mem := m' } Q) : From Asm.sha3KeccakF1600 pc t Q := by
  refine not_from (i := 1) (S := S) (w := w) (d := 8#64) (by rcases hpc with rfl | rfl <;> rfl) rfl (by omega) hdi hw ow fun m1 h1 o1 => ?_
  refine not_from (i := 2) (S := S) (d := 16#64) (by rcases hpc with rfl | rfl <;> rfl) rfl (by omega) hdi h1 ow fun m2 h2 o2 => ?_
  refine not_from (i := 8) (S := S) (d := 64#64) (by rcases hpc with rfl | rfl <;> rfl) rfl (by omega) hdi h2 ow fun m3 h3 o3 => ?_
  refine not_from (i := 12) (S := S) (d := 96#64) (by rcases hpc with rfl | rfl <;> rfl) rfl (by omega) hdi h3 ow fun m4 h4 o4 => ?_
  refine not_from (i := 17) (S := S) (d := 136#64) (by rcases hpc with rfl | rfl <;> rfl) rfl (by omega) hdi h4 ow fun m5 h5 o5 => ?_
  refine not_from (i := 20) (S := S) (d := 160#64) (by rcases hpc with rfl | rfl <;> rfl) rfl (by omega) hdi h5 ow fun m6 h6 o6 => ?_
  refine hQ m6 (fun j hj => ?_) (o1.trans (o2.trans (o3.trans (o4.trans (o5.trans o6)))))
  rw [h6 j hj]
  generalize w j = v
  congr 1
  have e0 : 0#64 ^^^ v = v := BitVec.zero_xor
  have e1 : BitVec.allOnes 64 ^^^ v = ~~~ v := xor_ones v
  have : ∀ j < 25, (flipped j = decide (j = 1 ∨ j = 2 ∨ j = 8 ∨ j = 12 ∨ j = 17 ∨ j = 20)) := by decide +kernel
  rw [this j hj]
  by_cases h : j = 1 ∨ j = 2 ∨ j = 8 ∨ j = 12 ∨ j = 17 ∨ j = 20
  · rw [decide_eq_true h]
    show _ = BitVec.allOnes 64 ^^^ v
    rw [e1]
    rcases h with rfl | rfl | rfl | rfl | rfl | rfl <;> simp
  · rw [decide_eq_false h]
    show _ = 0#64 ^^^ v
    rw [e0]
    simp only [not_or] at h
    simp [h]

/-! ### The whole -/

/-- Changes to the words of `Z` and the unprotected words of the frame. -/
theorem Env.over {m0 : Word → Option Word} {Z : Word} {k : Nat} {b : Word} {n lo : Nat} {ro : List (Word × Words)}
    {m m' : Word → Option Word} (h : Env m0 Z k b n lo ro m) (ha : ∀ p ∈ ro, Apart Z k p.1 p.2.length)
    (hb : ∀ p ∈ ro, Apart b n p.1 p.2.length) (hz : Apart Z k b n) (hn : n < 2 ^ 61) (hlo : lo ≤ n)
    (hm : ∀ a, (∀ i < k, a ≠ word Z i) → (∀ i < lo, a ≠ word b i) → m' a = m a) : Env m0 Z k b n lo ro m' := by
  refine ⟨fun p hp i hi => ?_, fun i hi hl => ?_, fun a h1 h2 => ?_⟩
  · rw [hm _ (fun j hj e => ha p hp j hj i hi e.symm) fun j hj e => hb p hp j (by omega) i hi e.symm]
    exact h.ro p hp i hi
  · rw [hm _ (fun j hj e => hz j hj i hi e.symm) fun j hj e => by
      have := word_inj (by omega) (by omega) e
      omega]
    exact h.st i hi hl
  · rw [hm _ h1 fun i hi => h2 i (by omega)]
    exact h.un a h1 h2

theorem rounds_snoc (ks : List Lane) (a : Lanes) {j : Nat} (hj : j < ks.length) :
    Spec.Keccak.rounds (ks.take (j + 1)) a = kround (wd ks j) (Spec.Keccak.rounds (ks.take j) a) := by
  unfold Spec.Keccak.rounds
  rw [List.take_succ_eq_append_getElem hj, List.foldl_append, wd_eq hj]
  rfl

theorem rounds_length (ks : List Lane) (a : Lanes) (ha : a.length = 25) : (Spec.Keccak.rounds ks a).length = 25 := by
  unfold Spec.Keccak.rounds
  induction ks generalizing a with
  | nil => exact ha
  | cons k ks ih => exact ih _ (by simp [iota, chi, mk])

/-- What is wanted. -/
def KDone (s : St) (a : Lanes) (rc : Words) (s' : St) : Prop :=
  Holds s'.mem s.rdi (Spec.Keccak.rounds rc a) ∧ Env s.mem s.rdi 25 (s.rsp - 256#64) 32 26 [(s.rsi, rc)] s'.mem

theorem keccak_ok (s : St) (a : Lanes) (rc : Words) (ha : a.length = 25) (hr : rc.length = 24)
    (hA : Holds s.mem s.rdi a) (hZ : s.Owns s.rdi 25) (hS : s.Owns (s.rsp - 256#64) 32)
    (hi : ∀ p ∈ [(s.rsi, rc)], Holds s.mem p.1 p.2) (h1 : ∀ p ∈ [(s.rsi, rc)], Apart s.rdi 25 p.1 p.2.length)
    (h2 : ∀ p ∈ [(s.rsi, rc)], Apart (s.rsp - 256#64) 32 p.1 p.2.length) (h3 : Apart s.rdi 25 (s.rsp - 256#64) 32) :
    Runs Asm.sha3KeccakF1600 s (KDone s a rc) := by
  generalize hb : s.rsp - 256#64 = b at *
  have h1' : Apart s.rdi 25 s.rsi rc.length := h1 (s.rsi, rc) (by simp)
  have h2' : Apart b 32 s.rsi rc.length := h2 (s.rsi, rc) (by simp)
  have finish : ∀ t, KSt s.rdi b (word s.rsi 24) b (Spec.Keccak.rounds rc a) t → t.wr = s.wr →
      Env s.mem s.rdi 25 b 32 26 [(s.rsi, rc)] t.mem → From Asm.sha3KeccakF1600 416 t (KDone s a rc) := by
    intro t K tw E
    xstep []
    refine nots_from (S := s.rdi) (w := kept flipped (Spec.Keccak.rounds rc a)) (Or.inr rfl) K.rdi K.mem (by rw [tw]; exact hZ) fun m' hm' o => ?_
    have E' : Env s.mem s.rdi 25 b 32 26 [(s.rsi, rc)] m' := E.over h1 h2 h3 (by omega) (by omega) fun x hx _ => o x hx
    have hh : Holds m' s.rdi (Spec.Keccak.rounds rc a) := by
      intro i hi
      have hl := rounds_length rc a ha
      rw [hm' i (by omega)]
      unfold kept
      rw [← BitVec.xor_assoc, BitVec.xor_self, BitVec.zero_xor, List.getD_eq_getElem?_getD, List.getElem?_eq_getElem hi]
      rfl
    obtain ⟨v0, g0⟩ := E'.st 26 (by omega) (by omega)
    obtain ⟨v1, g1⟩ := E'.st 27 (by omega) (by omega)
    obtain ⟨v2, g2⟩ := E'.st 28 (by omega) (by omega)
    obtain ⟨v3, g3⟩ := E'.st 29 (by omega) (by omega)
    obtain ⟨v4, g4⟩ := E'.st 30 (by omega) (by omega)
    obtain ⟨v5, g5⟩ := E'.st 31 (by omega) (by omega)
    have e26 : adcv b 208#64 false = word b 26 := by
      unfold adcv word
      exact BitVec.add_zero _
    xstep [K.rsp, e26]
    xstep [g0, word_plus8]
    xstep [g1, word_plus8]
    xstep [g2, word_plus8]
    xstep [g3, word_plus8]
    xstep [g4, word_plus8]
    xstep [g5, word_plus8]
    refine From.halt klen.symm ⟨hh, ?_⟩
    rw [hb]
    exact E'
  have loop : ∀ t, KSt s.rdi b s.rsi b a t → t.r8 = 0#64 → t.wr = s.wr → Env s.mem s.rdi 25 b 32 26 [(s.rsi, rc)] t.mem →
      From Asm.sha3KeccakF1600 21 t (KDone s a rc) := by
    intro t K t8 tw E
    refine From.loop (fun n t => ∃ j, j + n = 12 ∧ 0 < n ∧ KSt s.rdi b (word s.rsi (2 * j)) b (Spec.Keccak.rounds (rc.take (2 * j)) a) t ∧
        t.r8 = BitVec.ofNat 64 (2 * j) ∧ t.wr = s.wr ∧ Env s.mem s.rdi 25 b 32 26 [(s.rsi, rc)] t.mem) ?_ 12 t
      ⟨0, by omega, by omega, by rw [Nat.mul_zero, word_zero, List.take_zero]; exact K, t8, tw, E⟩
    rintro n t ⟨j, hj, hn, K, t8, tw, E⟩ ih
    have e25 : b + 200#64 = word b 25 := rfl
    have ow := hS 25 (by omega)
    xstep [K.rsp, e25, tw, ow]
    have E1 : Env s.mem s.rdi 25 b 32 26 [(s.rsi, rc)] (fun x => if x = word b 25 then some t.r8 else t.mem x) :=
      E.over h1 h2 h3 (by omega) (by omega) fun x _ hx => if_neg (hx 25 (by omega))
    have c25 : (fun x => if x = word b 25 then some t.r8 else t.mem x) (word b 25) = some (BitVec.ofNat 64 (2 * j)) := by
      rw [← t8]
      exact if_pos rfl
    have K1m : ∀ i < 25, (fun x => if x = word b 25 then some t.r8 else t.mem x) (word s.rdi i) =
        some (kept flipped (Spec.Keccak.rounds (rc.take (2 * j)) a) i) := fun i hi => by
      rw [← K.mem i hi]
      exact if_neg (h3 i hi 25 (by omega))
    generalize (fun x => if x = word b 25 then some t.r8 else t.mem x) = m1 at *
    have r1 := E1.get (p := s.rsi) (ws := rc) (by simp) (i := 2 * j) (by omega)
    refine kround_from (S := s.rdi) (D := b) (R := word s.rsi (2 * j)) (F := b) (by rw [klen]; omega) kCheck_1
      ⟨K.rdi, K.r15, K.rsi, rfl, K.rax, K.rbx, K.rcx, K.rdx, K.rbp, K1m⟩ r1
      (fun i hi k hk e => h3 k hk i (by omega) e.symm)
      (fun i hi k hk e => h2' i (by omega) (2 * j) (by omega) (by rw [e, word_add]; congr 1; omega))
      (fun i hi => hS i (by omega)) fun u U uo uw => ?_
    rw [← rounds_snoc _ _ (by omega)] at U
    have E2 : Env s.mem s.rdi 25 b 32 26 [(s.rsi, rc)] u.mem :=
      E1.over h1 h2 h3 (by omega) (by omega) fun x _ hx => uo x fun i hi => hx i (by omega)
    have d25 : u.mem (word b 25) = some (BitVec.ofNat 64 (2 * j)) := by
      rw [uo _ fun i hi e => by have := word_inj (by omega) (by omega) e; omega]
      exact c25
    have uw : u.wr = s.wr := uw
    have r2 := E2.get (p := s.rsi) (ws := rc) (by simp) (i := 2 * j + 1) (by omega)
    xstep [U.rsi, word_plus8]
    refine kround_from (S := b) (D := s.rdi) (R := word s.rsi (2 * j + 1)) (F := b) (by rw [klen]; omega) kCheck_2
      ⟨U.rdi, U.r15, rfl, U.rsp, U.rax, U.rbx, U.rcx, U.rdx, U.rbp, U.mem⟩ r2
      (fun i hi k hk e => h3 i hi k (by omega) e)
      (fun i hi k hk e => h1' i (by omega) (2 * j + 1) (by omega) (by rw [e, word_add]; congr 1; omega))
      (fun i hi => by show u.wr _ = _; rw [uw]; exact hZ i hi) fun v V vo vw => ?_
    rw [← rounds_snoc _ _ (by omega)] at V
    have vo : OnlyAt s.rdi 25 u.mem v.mem := vo
    have E3 : Env s.mem s.rdi 25 b 32 26 [(s.rsi, rc)] v.mem :=
      E2.over h1 h2 h3 (by omega) (by omega) fun x hx _ => vo x hx
    have f25 : v.mem (word b 25) = some (BitVec.ofNat 64 (2 * j)) := by
      rw [vo _ fun i hi e => h3 i hi 25 (by omega) e.symm]
      exact d25
    have vw : v.wr = s.wr := vw.trans uw
    have ad : adcv (BitVec.ofNat 64 (2 * j)) 2#64 false = BitVec.ofNat 64 (2 * (j + 1)) := by
      unfold adcv
      rw [Nat.mul_add, BitVec.ofNat_add]
      exact BitVec.add_zero _
    xstep [V.rsi, word_plus8]
    xstep [V.rsp, e25, f25]
    xstep [ad]
    xstep [sub_beq_zero]
    have K' : KSt s.rdi b (word s.rsi (2 * (j + 1))) b (Spec.Keccak.rounds (rc.take (2 * (j + 1))) a)
        { v with rsi := word s.rsi (2 * (j + 1)) } :=
      ⟨V.rdi, V.r15, rfl, V.rsp, V.rax, V.rbx, V.rcx, V.rdx, V.rbp, V.mem⟩
    by_cases hj' : j + 1 = 12
    · have : BitVec.ofNat 64 (2 * (j + 1)) = 24#64 := by rw [hj']
      xfall [decide_eq_true this, Bool.not_true]
      have e12 : 2 * (j + 1) = 24 := by omega
      rw [e12, List.take_of_length_le (by omega)] at K'
      exact finish _ ⟨K'.rdi, K'.r15, by show word s.rsi (2 * j + 1 + 1) = _; congr 1, V.rsp.symm ▸ rfl, K'.rax, K'.rbx, K'.rcx, K'.rdx, K'.rbp, K'.mem⟩ vw E3
    · have : BitVec.ofNat 64 (2 * (j + 1)) ≠ 24#64 := fun e => by
        have := (ofNat_inj (i := 2 * (j + 1)) (j := 24) (by omega) (by omega)).mp e
        omega
      xtake [decide_eq_false this, Bool.not_false]
      exact ih (n - 1) (by omega) _ ⟨j + 1, by omega, by omega,
        ⟨K'.rdi, K'.r15, rfl, V.rsp.symm ▸ rfl, K'.rax, K'.rbx, K'.rcx, K'.rdx, K'.rbp, K'.mem⟩, rfl, vw, E3⟩
  apply runs_of_from
  have hsp : s.rsp = word b 32 := by rw [← hb]; exact stack_top s 32
  have E6 := ((((((Env.init (Z := s.rdi) (k := 25) (b := b) (n := 32) hi).push h2 (by omega) s.rbx).push h2 (by omega) s.rbp).push
    h2 (by omega) s.r12).push h2 (by omega) s.r13).push h2 (by omega) s.r14).push h2 (by omega) s.r15
  have h3' : ∀ p ∈ [(s.rdi, a)], Apart b 32 p.1 p.2.length := by
    intro p hp i hi j hj e
    obtain rfl : p = (s.rdi, a) := by simpa using hp
    exact h3 j (by simpa [ha] using hj) i hi e.symm
  have A6 := ((((((Env.init (m0 := s.mem) (ro := [(s.rdi, a)]) (Z := s.rdi) (k := 0) (b := b) (n := 32) (by simpa using hA)).push h3'
    (by omega) s.rbx).push h3' (by omega) s.rbp).push h3' (by omega) s.r12).push h3' (by omega) s.r13).push h3' (by omega) s.r14).push
    h3' (by omega) s.r15
  have hA6 := fun j (hj : j < 25) => A6.get (p := s.rdi) (ws := a) (by simp) (i := j) (by omega)
  clear A6
  xstep []
  xstep [hsp, word_sub8, hS 31 (by omega)]
  xstep [word_sub8, hS 30 (by omega)]
  xstep [word_sub8, hS 29 (by omega)]
  xstep [word_sub8, hS 28 (by omega)]
  xstep [word_sub8, hS 27 (by omega)]
  xstep [word_sub8, hS 26 (by omega)]
  have e26 : sbbv (word b 26) 208#64 false = b := by
    unfold sbbv word
    have e : (8#64 * BitVec.ofNat 64 26 : Word) = 208#64 := rfl
    have e0 : BitVec.ofNat 64 false.toNat = 0#64 := rfl
    rw [e, e0, BitVec.sub_zero, BitVec.add_sub_cancel]
  xstep [e26]
  refine nots_from (S := s.rdi) (w := fun j => wd a j) (Or.inl rfl) rfl hA6 hZ fun m' hm' o => ?_
  have E' := E6.over (m' := m') h1 h2 h3 (by omega) (by omega) fun x hx _ => o x hx
  clear E6 hA6 o
  have g20 := hm' 20 (by omega)
  have g21 := hm' 21 (by omega)
  have g22 := hm' 22 (by omega)
  have g23 := hm' 23 (by omega)
  have g24 := hm' 24 (by omega)
  have ew : ∀ i, s.rdi + 8#64 * BitVec.ofNat 64 i = word s.rdi i := fun _ => rfl
  have e20 : s.rdi + 160#64 = word s.rdi 20 := rfl
  have e21 : s.rdi + 168#64 = word s.rdi 21 := rfl
  have e22 : s.rdi + 176#64 = word s.rdi 22 := rfl
  have e23 : s.rdi + 184#64 = word s.rdi 23 := rfl
  have e24 : s.rdi + 192#64 = word s.rdi 24 := rfl
  xstep []
  xstep [e20, g20]
  xstep [e21, g21]
  xstep [e22, g22]
  xstep [e23, g23]
  xstep [e24, g24]
  xstep []
  exact loop _ ⟨rfl, rfl, rfl, rfl, rfl, rfl, rfl, rfl, rfl, hm'⟩ rfl rfl E'

end Verif.X86
