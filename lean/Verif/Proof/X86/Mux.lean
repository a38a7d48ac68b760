import Verif.Proof.X86
import Verif.Model.AsmX86.Words
import Verif.Model.Bignum

/-! `bignum_mux`. -/
namespace Verif.X86
open Verif

structure MuxInv (s0 : St) (w : Words) (i n : Nat) (s : St) : Prop where
  pos : 0 < n
  le : i + n = w.length
  r9 : s.r9 = BitVec.ofNat 64 i
  rsi : s.rsi = BitVec.ofNat 64 n
  cf : s.cf = some (s0.rdi != 0#64)
  rcx : s.rcx = s0.rcx
  rdx : s.rdx = s0.rdx
  r8 : s.r8 = s0.r8
  wr : s.wr = s0.wr
  z : Holds s.mem s0.rdx (w.take i)
  only : OnlyAt s0.rdx w.length s0.mem s.mem

theorem mux_ok (s : St) (x y : Words) (k : Nat) (hx : x.length = k) (hy : y.length = k) (hk : k < 2 ^ 61)
   (hX : Holds s.mem s.rcx x) (hY : Holds s.mem s.r8 y) (hZ : s.Owns s.rdx k) (hr : s.rsi = BitVec.ofNat 64 k)
   (a1 : Apart s.rdx k s.rcx k) (a2 : Apart s.rdx k s.r8 k) :
   Runs Asm.bignumMux s fun s' => Holds s'.mem s.rdx (if s.rdi = 0#64 then y else x) ∧ OnlyAt s.rdx k s.mem s'.mem := by
  apply runs_of_from
  xstep []
  xstep [hr]
  have hb := ofNat_beq_zero (i := k) (by omega)
  generalize hw : (if s.rdi = 0#64 then y else x) = w
  have hwl : w.length = k := by rw [← hw]; split <;> assumption
  by_cases h0 : k = 0
  · xtake [hb, decide_eq_true h0]
    refine From.halt rfl ⟨?_, OnlyAt.refl _ _ _⟩
    rw [List.eq_nil_of_length_eq_zero (hwl.trans h0)]
    exact Holds.nil _ _
  xfall [hb, decide_eq_false h0, Bool.not_true]
  xstep []
  xstep [neg_cf]
  refine From.loop (fun n s' => ∃ i, MuxInv s w i n s') ?_ k _
    ⟨0, by omega, by omega, rfl, rfl, rfl, rfl, rfl, rfl, rfl, Holds.nil _ _, OnlyAt.refl _ _ _⟩
  rintro n t ⟨i, I⟩ ih
  obtain ⟨m, rfl⟩ : ∃ m, n = m + 1 := ⟨n - 1, by have := I.pos; omega⟩
  have hl := I.le
  have hX' := (I.only.holds (by rw [hx, hwl]; exact a1) hX).wd (i := i) (by omega)
  have hY' := (I.only.holds (by rw [hy, hwl]; exact a2) hY).wd (i := i) (by omega)
  have hwi : (if (!s.rdi != 0#64) = true then wd y i else wd x i) = wd w i := by
    subst hw; by_cases h : s.rdi = 0#64 <;> simp [h]
  xstep [I.r9, I.rcx, hX']
  xstep [I.r9, I.r8, hY']
  xstep [I.cf, hwi]
  xstep [I.rdx, I.wr, hZ i (by omega)]
  xstep []
  xstep [I.rsi]
  have hb := ofNat_beq_zero (i := m) (by omega)
  have hh := I.z.take_snoc (by omega) (by omega)
  have ho := I.only.store (i := i) (by omega) (wd w i)
  by_cases hm : m = 0
  · xfall [hb, decide_eq_true hm, Bool.not_true]
    refine From.halt rfl ⟨?_, hwl ▸ ho⟩
    rw [List.take_of_length_le (by omega)] at hh
    exact hh
  · xtake [hb, decide_eq_false hm, Bool.not_false]
    exact ih m (by omega) _ ⟨i + 1, by omega, by omega, rfl, rfl, rfl, rfl, rfl, rfl, rfl, hh, ho⟩

end Verif.X86
