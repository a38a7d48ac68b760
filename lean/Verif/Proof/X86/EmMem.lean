import Verif.Proof.X86.EmParts
import Verif.Proof.X86.Env
import Verif.Proof.X86.SymMac

/-! Memory during a run of `bignum_emontredc_8n`. -/
namespace Verif.X86.Sym
open Verif Verif.X86

/-- A stretch without jumps. -/
theorem From.part {P : Prog} {Φ : St → Prop} : ∀ {n pc : Nat} {t t' : St}, pc + n ≤ P.length →
    effs ((P.drop pc).take n) t = some t' → From P (pc + n) t' Φ → From P pc t Φ
  | 0, pc, t, t', _, h, hn => by
    cases h
    exact hn
  | n + 1, pc, t, t', hl, h, hn => by
    have hp : pc < P.length := by omega
    rw [List.drop_eq_getElem_cons hp, List.take_succ_cons, effs] at h
    cases h1 : P[pc].eff t with
    | none =>
      rw [h1] at h
      cases h
    | some t1 =>
      rw [h1, Option.bind_some] at h
      refine From.next (List.getElem?_eq_getElem hp) ?_
      rw [eff_exec h1, then_some]
      refine From.part (n := n) (by omega) h ?_
      rw [show pc + 1 + n = pc + (n + 1) by omega]
      exact hn

theorem effs_congr {I : St → Prop} : ∀ {P Q : Prog},
    List.Forall₂ (fun i j => ∀ s, I s → i.eff s = j.eff s ∧ ∀ s', j.eff s = some s' → I s') P Q → ∀ {s}, I s → effs P s = effs Q s := by
  intro P Q h
  induction h with
  | nil => intro s _; rfl
  | cons h1 _ ih =>
    intro s hs
    obtain ⟨e, hi⟩ := h1 s hs
    rw [effs, effs, e]
    rename_i i j P Q h2
    cases h3 : j.eff s with
    | none => rfl
    | some s1 => exact ih (hi s1 h3)

theorem adc_ea {s : St} (h : s.rsi + s.rax = s.rbp) (r : Reg) (d : Word) :
    Instr.eff (.adc (.mem ⟨some .rsi, some (.rax, 1#64), d⟩) (.reg r)) s = Instr.eff (.adc (.mem ⟨some .rbp, none, d⟩) (.reg r)) s := by
  have e : ∀ t : St, t.rsi + t.rax = t.rbp → t.ea ⟨some .rsi, some (.rax, 1#64), d⟩ = t.ea ⟨some .rbp, none, d⟩ := by
    intro t ht
    simp only [St.ea, St.get, BitVec.one_mul, BitVec.add_zero]
    rw [ht]
  have e2 : ∀ (t : St) (v : Word), t.rsi + t.rax = t.rbp →
      t.put (.mem ⟨some .rsi, some (.rax, 1#64), d⟩) v = t.put (.mem ⟨some .rbp, none, d⟩) v := by
    intro t v ht
    simp only [St.put, e t ht]
  simp only [Instr.eff, St.val, e s h]
  refine bind_congr fun x => bind_congr fun y => bind_congr fun c => ?_
  exact e2 _ _ h

theorem keep_ea {i : Instr} (h1 : Reg.rsi ∉ i.writes) (h2 : Reg.rax ∉ i.writes) (h3 : Reg.rbp ∉ i.writes) {s s' : St}
    (hs : s.rsi + s.rax = s.rbp) (h : i.eff s = some s') : s'.rsi + s'.rax = s'.rbp := by
  have e1 : s'.rsi = s.rsi := eff_get h h1
  have e2 : s'.rax = s.rax := eff_get h h2
  have e3 : s'.rbp = s.rbp := eff_get h h3
  rw [e1, e2, e3, hs]

/-- The same instructions with the addresses in the code. -/
def emCp : Prog := [.neg (.reg .rbx),
  .adc (.mem ⟨some .rsi, some (.rax, 1#64), 64#64⟩) (.reg .r8),
  .adc (.mem ⟨some .rsi, some (.rax, 1#64), 72#64⟩) (.reg .r9),
  .adc (.mem ⟨some .rsi, some (.rax, 1#64), 80#64⟩) (.reg .r10),
  .adc (.mem ⟨some .rsi, some (.rax, 1#64), 88#64⟩) (.reg .r11),
  .adc (.mem ⟨some .rsi, some (.rax, 1#64), 96#64⟩) (.reg .r12),
  .adc (.mem ⟨some .rsi, some (.rax, 1#64), 104#64⟩) (.reg .r13),
  .adc (.mem ⟨some .rsi, some (.rax, 1#64), 112#64⟩) (.reg .r14),
  .adc (.mem ⟨some .rsi, some (.rax, 1#64), 120#64⟩) (.reg .r15)]

set_option maxRecDepth 10000 in
theorem emC_at : (Asm.bignumEmontredc8n.drop 509).take 11 = emCp ++ emC.drop 9 := rfl

theorem emC_eq {t : St} (h : t.rsi + t.rax = t.rbp) : effs ((Asm.bignumEmontredc8n.drop 509).take 11) t = effs emC t := by
  have e2 : effs emC t = effs (emC.take 9 ++ emC.drop 9) t := rfl
  rw [emC_at, e2, effs_append, effs_append]
  refine congrArg (fun x => Option.bind x _) (effs_congr (I := fun s => s.rsi + s.rax = s.rbp) ?_ h)
  have k : ∀ (r : Reg) (d : Word), ∀ s : St, s.rsi + s.rax = s.rbp →
      Instr.eff (.adc (.mem ⟨some .rsi, some (.rax, 1#64), d⟩) (.reg r)) s = Instr.eff (.adc (.mem ⟨some .rbp, none, d⟩) (.reg r)) s ∧
      ∀ s', Instr.eff (.adc (.mem ⟨some .rbp, none, d⟩) (.reg r)) s = some s' → s'.rsi + s'.rax = s'.rbp := fun r d s hs =>
    ⟨adc_ea hs r d, fun s' h => keep_ea (by simp [Instr.writes, Opd.regs]) (by simp [Instr.writes, Opd.regs])
      (by simp [Instr.writes, Opd.regs]) hs h⟩
  show List.Forall₂ _ [_, _, _, _, _, _, _, _, _] [_, _, _, _, _, _, _, _, _]
  refine .cons (fun s hs => ⟨rfl, fun s' h => keep_ea (by decide) (by decide) (by decide) hs h⟩) ?_
  iterate 8 refine .cons (k _ _) ?_
  exact .nil

/-! Arrays -/

theorem Holds.sub {μ : Word → Option Word} {p : Word} {a x c : Words} (h : Holds μ p (a ++ (x ++ c))) : Holds μ (word p a.length) x := by
  intro i hi
  rw [X86.word_add, h (a.length + i) (by simp; omega), List.getElem_append_right (by omega)]
  simp only [Nat.add_sub_cancel_left]
  rw [List.getElem_append_left hi]

theorem Holds.put {μ μ' : Word → Option Word} {p : Word} {a x y c : Words} (h : Holds μ p (a ++ (x ++ c))) (hl : (a ++ (x ++ c)).length < 2 ^ 61)
    (hx : x.length = 8) (hy : y.length = 8) (hn : Holds μ' (word p a.length) y)
    (ho : ∀ b, (∀ i < 8, b ≠ word (word p a.length) i) → μ' b = μ b) : Holds μ' p (a ++ (y ++ c)) := by
  intro i hi
  simp only [List.length_append] at hi hl
  by_cases h1 : i < a.length
  · rw [ho _ fun j hj e => ?_, h i (by simp; omega), List.getElem_append_left h1, List.getElem_append_left h1]
    rw [X86.word_add] at e
    have := word_inj (by omega) (by omega) e
    omega
  · by_cases h2 : i < a.length + 8
    · have := hn (i - a.length) (by omega)
      rw [X86.word_add, show a.length + (i - a.length) = i by omega] at this
      rw [this, List.getElem_append_right (by omega), List.getElem_append_left]
    · rw [ho _ fun j hj e => ?_, h i (by simp; omega), List.getElem_append_right (by omega), List.getElem_append_right (by omega),
        List.getElem_append_right (by omega), List.getElem_append_right (by omega)]
      · simp only [hx, hy]
      · rw [X86.word_add] at e
        have := word_inj (by omega) (by omega) e
        omega

/-- The blocks of a call. -/
structure EmCtx (s : St) (n : Nat) (m : Words) (b : Word) : Prop where
  n0 : 0 < n
  n1 : 16 * n < 2 ^ 58
  m : m.length = 8 * n
  oz : s.Owns s.rsi (16 * n)
  ob : s.Owns b 10
  zm : Apart s.rsi (16 * n) s.rdx (8 * n)
  bm : Apart b 10 s.rdx (8 * n)
  zb : Apart s.rsi (16 * n) b 10

/-- Memory: the number, the modulus, the carry, the number of passes to go, the length. -/
structure EmMem (s : St) (n : Nat) (m : Words) (b : Word) (zs : Words) (c cnt : Word) (μ : Word → Option Word) : Prop where
  z : Holds μ s.rsi zs
  l : zs.length = 16 * n
  m : Holds μ s.rdx m
  c : μ (word b 0) = some c
  cnt : μ (word b 2) = some cnt
  len : μ (word b 3) = some (BitVec.ofNat 64 (64 * (n - 1)))
  st : ∀ i < 10, 4 ≤ i → ∃ v, μ (word b i) = some v
  un : ∀ a, (∀ i < 16 * n, a ≠ word s.rsi i) → (∀ i < 10, a ≠ word b i) → μ a = s.mem a

theorem EmMem.block {s n m b c cnt μ μ'} (C : EmCtx s n m b) {a x y d : Words} (h : EmMem s n m b (a ++ (x ++ d)) c cnt μ)
    (hx : x.length = 8) (hy : y.length = 8) (hn : Holds μ' (word s.rsi a.length) y)
    (ho : ∀ b, (∀ i < 8, b ≠ word (word s.rsi a.length) i) → μ' b = μ b) :
    EmMem s n m b (a ++ (y ++ d)) c cnt μ' ∧ ∀ i < 10, μ' (word b i) = μ (word b i) := by
  have hl := h.l
  simp only [List.length_append] at hl
  have n1 := C.n1
  have key : ∀ p, (∀ i < 16 * n, p ≠ word s.rsi i) → μ' p = μ p := by
    intro p hp
    refine ho p fun i hi => ?_
    rw [X86.word_add]
    exact hp _ (by omega)
  have kb : ∀ i < 10, μ' (word b i) = μ (word b i) := fun i hi => key _ fun j hj e => C.zb j hj i hi e.symm
  refine ⟨⟨Holds.put h.z (by rw [h.l]; omega) hx hy hn ho, ?_, fun i hi => ?_, ?_, ?_, ?_, fun i hi h4 => ?_, fun p h1 h2 => ?_⟩, kb⟩
  · simp only [List.length_append]
    omega
  · rw [key _ fun j hj e => C.zm j hj i (by rw [← C.m]; exact hi) e.symm]
    exact h.m i hi
  · rw [kb 0 (by omega)]
    exact h.c
  · rw [kb 2 (by omega)]
    exact h.cnt
  · rw [kb 3 (by omega)]
    exact h.len
  · rw [kb i hi]
    exact h.st i hi h4
  · rw [key p h1]
    exact h.un p h1 h2

theorem frame_ne {b : Word} {i j : Nat} (hi : i < 10) (hj : j < 10) (h : i ≠ j) : word b i ≠ word b j :=
  fun e => h (word_inj (by omega) (by omega) e)

/-- A store to the frame. -/
theorem EmMem.frame {s n m b zs c cnt μ} (C : EmCtx s n m b) (h : EmMem s n m b zs c cnt μ) {j : Nat} (hj : j < 3) (v : Word) :
    EmMem s n m b zs (if j = 0 then v else c) (if j = 2 then v else cnt) fun a => if a = word b j then some v else μ a := by
  have n1 := C.n1
  have kb : ∀ i < 10, i ≠ j → (if word b i = word b j then some v else μ (word b i)) = μ (word b i) := fun i hi hne =>
    if_neg (frame_ne hi (by omega) hne)
  refine ⟨fun i hi => ?_, h.l, fun i hi => ?_, ?_, ?_, ?_, fun i hi h4 => ?_, fun p h1 h2 => ?_⟩
  · rw [if_neg (C.zb i (by rw [← h.l]; exact hi) j (by omega))]
    exact h.z i hi
  · rw [if_neg fun e => C.bm j (by omega) i (by rw [← C.m]; exact hi) e.symm]
    exact h.m i hi
  · by_cases e : j = 0
    · subst e
      rw [if_pos rfl, if_pos rfl]
    · rw [if_neg e, kb 0 (by omega) (Ne.symm e)]
      exact h.c
  · by_cases e : j = 2
    · subst e
      rw [if_pos rfl, if_pos rfl]
    · rw [if_neg e, kb 2 (by omega) (Ne.symm e)]
      exact h.cnt
  · rw [kb 3 (by omega) (by omega)]
    exact h.len
  · rw [kb i hi (by omega)]
    exact h.st i hi h4
  · rw [if_neg (h2 j (by omega))]
    exact h.un p h1 h2

/-! Arithmetic -/

/-- A block more of the product. -/
theorem block_step {B P Y q M D R Z N Z' R' : Nat} (h : Y + q * M = B * (D + P * R)) (h1 : R + Z + q * N = Z' + B * R') :
    (Y + B * P * Z) + q * (M + B * P * N) = B * (D + P * Z' + B * P * R') := by
  calc (Y + B * P * Z) + q * (M + B * P * N) = (Y + q * M) + B * P * (Z + q * N) := by ring
    _ = B * (D + P * (R + Z + q * N)) := by rw [h]; ring
    _ = _ := by rw [h1]; ring

/-- The end of a pass: `T` is what the lower blocks took of the number, `X` the block that takes the rest. -/
theorem pass_step {A V Q m q B P Y D R X X' r c d : Nat} (h0 : V + Q * m = A * (Y + B * P * (X + B * r) + B * P * c))
    (h1 : Y + q * m = B * (D + P * R)) (h2 : X + R + c = X' + B * d) :
    V + (Q + A * q) * m = A * B * (D + P * (X' + B * r) + B * P * d) := by
  calc V + (Q + A * q) * m = (V + Q * m) + A * (q * m) := by ring
    _ = A * ((Y + q * m) + B * P * (X + c + B * r)) := by rw [h0]; ring
    _ = A * B * (D + P * (X + R + c) + B * P * r) := by rw [h1]; ring
    _ = _ := by rw [h2]; ring

end Verif.X86.Sym
