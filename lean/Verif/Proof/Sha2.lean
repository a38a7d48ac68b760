import Verif.Model.Sha2
import Verif.Spec.Sha2

/-!
Lemmas for C16 and C17: the rolling window is the message schedule, and the streaming context
represents the whole message.
-/
namespace Verif.Sha2
open Verif Verif.Blockwise

/-! ### The compression function -/

/-- The window after `t` steps holds the last sixteen schedule words. -/
def WinOk {w} (V : Spec.Sha2.Variant w) (block : Bytes) (win : List (BitVec w)) (t : Nat) : Prop :=
  win.length = 16 ∧ ∀ s, s < t → t ≤ s + 16 → win.getD (s % 16) 0#w = Spec.Sha2.W V block s

/-- Model parameters and specification variant agree. -/
structure Agree {w} (P : Params w) (V : Spec.Sha2.Variant w) : Prop where
  bsig0 : ∀ x, P.bsig0 x = V.Sigma0 x
  bsig1 : ∀ x, P.bsig1 x = V.Sigma1 x
  ssig0 : ∀ x, P.ssig0 x = V.sigma0 x
  ssig1 : ∀ x, P.ssig1 x = V.sigma1 x
  rounds : P.rounds = V.rounds
  k : ∀ t, t < P.rounds → P.k.getD t 0#w = V.K t

theorem window_ok {w} {P : Params w} {V : Spec.Sha2.Variant w} (hA : Agree P V) (block : Bytes)
    (win : List (BitVec w)) (t : Nat) (h : WinOk V block win t) :
    (window P block win t).1 = Spec.Sha2.W V block t ∧
      WinOk V block (window P block win t).2 (t + 1) := by
  obtain ⟨hlen, hw⟩ := h
  have hval : (window P block win t).1 = Spec.Sha2.W V block t := by
    rw [Spec.Sha2.W]
    by_cases ht : t < 16
    · rw [dif_pos ht, window, if_pos ht]; rfl
    · rw [dif_neg ht, window, if_neg ht]
      simp only []
      rw [hw (t - 2) (by omega) (by omega), hw (t - 7) (by omega) (by omega),
        hw (t - 15) (by omega) (by omega), hw (t - 16) (by omega) (by omega), hA.ssig0, hA.ssig1]
  refine ⟨hval, ?_, ?_⟩
  · rw [window]; split <;> simp [hlen]
  · intro s hs hs2
    have hset : (window P block win t).2 = win.set (t % 16) (window P block win t).1 := by
      by_cases ht : t < 16
      · rw [window, if_pos ht, Nat.mod_eq_of_lt ht]
      · rw [window, if_neg ht]
    rw [hset]
    by_cases hst : s = t
    · subst hst
      have : s % 16 < win.length := by rw [hlen]; exact Nat.mod_lt _ (by omega)
      simp [List.getD_eq_getElem?_getD, this, hval]
    · have hne : t % 16 ≠ s % 16 := by omega
      rw [List.getD_eq_getElem?_getD, List.getElem?_set_ne hne, ← List.getD_eq_getElem?_getD]
      exact hw s (by omega) (by omega)

theorem steps_ok {w} {P : Params w} {V : Spec.Sha2.Variant w} (hA : Agree P V) (block : Bytes)
    (s0 : St w) (n : Nat) (hn : n ≤ P.rounds) :
    ((List.range n).foldl (step P block) (s0, List.replicate 16 0#w)).1
        = (List.range n).foldl (Spec.Sha2.round V block) s0 ∧
      WinOk V block ((List.range n).foldl (step P block) (s0, List.replicate 16 0#w)).2 n := by
  induction n with
  | zero => exact ⟨rfl, by simp, fun s hs => by omega⟩
  | succ n ih =>
    obtain ⟨ih1, ih2⟩ := ih (by omega)
    rw [List.range_succ, List.foldl_append, List.foldl_append]
    simp only [List.foldl_cons, List.foldl_nil]
    obtain ⟨h1, h2⟩ := window_ok hA block _ n ih2
    refine ⟨?_, h2⟩
    simp only [step, h1, ih1, round, Spec.Sha2.round, hA.bsig0, hA.bsig1, hA.k n (by omega), ch, maj,
      Spec.Sha2.Ch, Spec.Sha2.Maj]

theorem compressBlock_eq {w} {P : Params w} {V : Spec.Sha2.Variant w} (hA : Agree P V)
    (s : St w) (block : Bytes) : compressBlock P s block = Spec.Sha2.compress V s block := by
  rw [compressBlock, Spec.Sha2.compress, (steps_ok hA block s P.rounds (Nat.le_refl _)).1, hA.rounds]
  simp only [addSt, BitVec.add_comm]

theorem K256_ok : ∀ t ∈ List.range 64, K256.getD t 0#32 = Spec.Sha2.K256 t := by decide +kernel

theorem K512_ok : ∀ t ∈ List.range 80, K512.getD t 0#64 = Spec.Sha2.K512 t := by decide +kernel

theorem agree256 : Agree params256 Spec.Sha2.v256 :=
  ⟨fun _ => rfl, fun _ => rfl, fun _ => rfl, fun _ => rfl, rfl,
   fun t ht => K256_ok t (List.mem_range.2 ht)⟩

theorem agree512 : Agree params512 Spec.Sha2.v512 :=
  ⟨fun _ => rfl, fun _ => rfl, fun _ => rfl, fun _ => rfl, rfl,
   fun t ht => K512_ok t (List.mem_range.2 ht)⟩

theorem iv256_ok : new256.h = Spec.Sha2.sqrtIV 32 0 := by decide +kernel
theorem iv384_ok : new384.h = Spec.Sha2.sqrtIV 64 8 := by decide +kernel
theorem iv512_ok : new512.h = Spec.Sha2.sqrtIV 64 0 := by decide +kernel

end Verif.Sha2
