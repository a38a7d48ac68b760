import Verif.Spec.AsmBytes
import Verif.Model.AsmX86.MlKemRej
import Verif.Model.MlKemRejTable
import Verif.Proof.MlKemSample
import Verif.Proof.X86
import Mathlib.Tactic.IntervalCases

/-! `mlkem_rej_uniform_vartime`. -/
namespace Verif.X86.Rej
open Verif Verif.X86 Verif.MlKem.X86 Verif.Spec.MlKem

/-! ### Runs -/

def BFrom (P : BProg) (pc : Nat) (t : BSt) (Q : BSt → Prop) : Prop := ∃ f t', brun P f pc t = some t' ∧ Q t'

theorem BFrom.halt {P : BProg} {pc : Nat} {t : BSt} {Q : BSt → Prop} (h : pc = P.length) (hq : Q t) : BFrom P pc t Q :=
  ⟨1, t, by simp only [brun, h, if_true], hq⟩

theorem BFrom.next {P : BProg} {pc : Nat} {t : BSt} {Q : BSt → Prop} {i : BInstr} (hi : P[pc]? = some i) {pc' : Nat} {t' : BSt}
    (he : i.exec pc t = some (pc', t')) (h : BFrom P pc' t' Q) : BFrom P pc t Q := by
  obtain ⟨f, u, hr, hq⟩ := h
  refine ⟨f + 1, u, ?_, hq⟩
  have hl : pc ≠ P.length := by
    intro hc
    rw [hc, List.getElem?_eq_none (Nat.le_refl _)] at hi
    cases hi
  simp only [brun, hl, if_false, hi, he]
  exact hr

/-! ### Memory -/

theorem badr_badr (p : Word) (i j : Nat) : badr (badr p i) j = badr p (i + j) := by
  unfold badr
  rw [BitVec.add_assoc, ← BitVec.ofNat_add]

theorem badr_inj {p : Word} {i j : Nat} (hi : i < 2 ^ 64) (hj : j < 2 ^ 64) (h : badr p i = badr p j) : i = j := by
  unfold badr at h
  have := congrArg BitVec.toNat ((BitVec.add_right_inj p).mp h)
  rw [BitVec.toNat_ofNat, BitVec.toNat_ofNat] at this
  omega

theorem badr_sub {p : Word} {i : Nat} (hi : i < 2 ^ 64) : (badr p i - p).toNat = i := by
  unfold badr
  rw [BitVec.add_comm, BitVec.add_sub_cancel, BitVec.toNat_ofNat, Nat.mod_eq_of_lt hi]

theorem badr_of_sub (p b : Word) : badr p (b - p).toNat = b := by
  unfold badr
  rw [BitVec.ofNat_toNat, BitVec.setWidth_eq, BitVec.add_comm, BitVec.sub_add_cancel]

theorem load_eq {t : BSt} {a : Word} {n : Nat} {f : Nat → Byte} (h : ∀ i < n, t.bm (badr a i) = some (f i)) :
    t.load a n = some fun i => if i < n then f i else 0#8 := by
  unfold BSt.load
  rw [if_pos fun i hi => by rw [h i hi]; rfl]
  refine congrArg some (funext fun i => ?_)
  split
  · rw [h i ‹_›]; rfl
  · rfl

theorem store_eq {t : BSt} {a : Word} {n : Nat} {v : Xmm} (h : ∀ i < n, t.bw (badr a i) = true) :
    t.store a n v = some { t with bm := fun b => if (b - a).toNat < n then some (v (b - a).toNat) else t.bm b } := by
  unfold BSt.store
  rw [if_pos h]

/-- What `rep movsb` leaves when source and destination are apart. -/
theorem bcopy_eq {bw : Word → Bool} (n : Nat) (hn : n < 2 ^ 64) (a d : Word) (m : Word → Option Byte) (f : Nat → Byte)
    (hm : ∀ i < n, m (badr a i) = some (f i)) (hw : ∀ i < n, bw (badr d i) = true) (ha : ∀ i < n, ∀ j < n, badr a i ≠ badr d j) :
    bcopy bw n a d m = some fun b => if (b - d).toNat < n then some (f (b - d).toNat) else m b := by
  induction n generalizing a d m f with
  | zero => exact congrArg some (funext fun b => by rw [if_neg (Nat.not_lt_zero _)])
  | succ n ih =>
    have e0 : ∀ p : Word, badr p 0 = p := fun p => BitVec.add_zero p
    have es : ∀ (p : Word) (i : Nat), badr (p + 1#64) i = badr p (i + 1) := fun p i => by
      show badr (badr p 1) i = _
      rw [badr_badr, Nat.add_comm]
    have h0 := hm 0 (by omega)
    have w0 := hw 0 (by omega)
    rw [e0] at h0 w0
    rw [bcopy, h0]
    simp only [Option.bind_eq_bind, Option.bind_some, w0, if_true]
    rw [ih (by omega) (a + 1#64) (d + 1#64) _ (fun i => f (i + 1)) (fun i hi => ?_) (fun i hi => by rw [es]; exact hw _ (by omega))
      (fun i hi j hj => by rw [es, es]; exact ha _ (by omega) _ (by omega))]
    · refine congrArg some (funext fun b => ?_)
      have hb : (b - (d + 1#64)) = (b - d) - 1#64 := by bv_omega
      rw [hb]
      by_cases hbd : b = d
      · subst hbd
        rw [BitVec.sub_self, if_neg (by
          have : (0#64 - 1#64).toNat = 2 ^ 64 - 1 := by decide
          omega), if_pos rfl, if_pos (by show 0 < n + 1; omega)]
        rfl
      · have hne : (b - d).toNat ≠ 0 := fun e => hbd (by rw [← badr_of_sub d b, e, e0])
        have hs : (b - d - 1#64).toNat = (b - d).toNat - 1 := by
          have := (b - d).isLt
          rw [BitVec.toNat_sub, show (1#64).toNat = 1 from rfl]
          omega
        rw [hs, if_neg hbd]
        by_cases hl : (b - d).toNat < n + 1
        · rw [if_pos hl, if_pos (by omega), show (b - d).toNat - 1 + 1 = (b - d).toNat by omega]
        · rw [if_neg hl, if_neg (by omega)]
    · show (if badr (a + 1#64) i = d then some (f 0) else m (badr (a + 1#64) i)) = _
      rw [es, if_neg (by have := ha (i + 1) (by omega) 0 (by omega); rwa [e0] at this), hm _ (by omega)]

/-! ### Lanes -/

/-- The eight candidates of twelve bytes. -/
def cand (C : Nat → Byte) (i : Nat) : Nat :=
  if i % 2 = 0 then (C (3 * (i / 2))).toNat + 256 * ((C (3 * (i / 2) + 1)).toNat % 16)
  else (C (3 * (i / 2) + 1)).toNat / 16 + 16 * (C (3 * (i / 2) + 2)).toNat

theorem cand_lt (C : Nat → Byte) (i : Nat) : cand C i < 4096 := by
  unfold cand
  have h0 := (C (3 * (i / 2))).isLt
  have h1 := (C (3 * (i / 2) + 1)).isLt
  have h2 := (C (3 * (i / 2) + 2)).isLt
  split <;> omega

/-- The bytes of lanes. -/
def lb (v : Nat → Nat) (i : Nat) : Byte := BitVec.ofNat 8 (v (i / 2) / 256 ^ (i % 2))

theorem and15 (b : Byte) : (b &&& 0x0f#8) = BitVec.ofNat 8 (b.toNat % 16) := by
  apply BitVec.eq_of_toNat_eq
  rw [BitVec.toNat_and, show (0x0f#8).toNat = 2 ^ 4 - 1 from rfl, Nat.and_two_pow_sub_one_eq_mod, BitVec.toNat_ofNat]
  omega

theorem and255 (b : Byte) : (b &&& 0xff#8) = b := by
  apply BitVec.eq_of_toNat_eq
  have := b.isLt
  rw [BitVec.toNat_and, show (0xff#8).toNat = 2 ^ 8 - 1 from rfl, Nat.and_two_pow_sub_one_eq_mod]
  omega

theorem app_toNat (c b : Byte) : (c ++ b).toNat = 256 * c.toNat + b.toNat := by
  have := b.isLt
  rw [BitVec.toNat_append, ← Nat.shiftLeft_add_eq_or_of_lt this, Nat.shiftLeft_eq]
  omega

theorem sh_lo (b c : Byte) : ((c ++ b) >>> 4).extractLsb' 0 8 = BitVec.ofNat 8 (b.toNat / 16 + 16 * c.toNat) := by
  apply BitVec.eq_of_toNat_eq
  rw [BitVec.extractLsb'_toNat, BitVec.toNat_ushiftRight, app_toNat, BitVec.toNat_ofNat, Nat.shiftRight_eq_div_pow,
    Nat.shiftRight_eq_div_pow]
  omega

theorem sh_hi (b c : Byte) : ((c ++ b) >>> 4).extractLsb' 8 8 = BitVec.ofNat 8 ((b.toNat / 16 + 16 * c.toNat) / 256) := by
  apply BitVec.eq_of_toNat_eq
  rw [BitVec.extractLsb'_toNat, BitVec.toNat_ushiftRight, app_toNat, BitVec.toNat_ofNat, Nat.shiftRight_eq_div_pow,
    Nat.shiftRight_eq_div_pow]
  omega

theorem un_lo (b c : Byte) : (c ++ b).extractLsb' 0 8 = b := by
  apply BitVec.eq_of_toNat_eq
  have := b.isLt
  rw [BitVec.extractLsb'_toNat, app_toNat, Nat.shiftRight_eq_div_pow]
  omega

theorem un_hi (b c : Byte) : (c ++ b).extractLsb' 8 8 = c := by
  apply BitVec.eq_of_toNat_eq
  have := b.isLt
  have := c.isLt
  rw [BitVec.extractLsb'_toNat, app_toNat, Nat.shiftRight_eq_div_pow]
  omega

theorem xh_xof (f : Nat → BitVec 16) (i : Nat) : xh (xof f) i = f i := by
  unfold xh xof
  rw [show (2 * i + 1) / 2 = i by omega, show (2 * i + 1) % 2 = 1 by omega, show 2 * i / 2 = i by omega, show 2 * i % 2 = 0 by omega]
  apply BitVec.eq_of_toNat_eq
  have := (f i).isLt
  rw [app_toNat, BitVec.extractLsb'_toNat, BitVec.extractLsb'_toNat, Nat.shiftRight_eq_div_pow, Nat.shiftRight_eq_div_pow]
  omega

/-- The byte that `pshufb` puts at place `i`. -/
def sidx (i : Nat) : Nat := 3 * (i / 4) + (i % 4 + 1) / 2

/-- Instructions 20 to 24. -/
theorem lanes_ok {C : Nat → Byte} {X X5 : Xmm} (hX : ∀ i < 16, X i = C (sidx i)) (h5 : ∀ i < 16, X5 i = lb (fun _ => 4095) i) :
    ∀ i < 16, (xof (fun i => if Nat.testBit 170 i then xh (xof fun i => xh X i >>> 4) i else xh X i) i &&& X5 i) = lb (cand C) i := by
  intro i hi
  rw [h5 i hi]
  have e : xof (fun i => if Nat.testBit 170 i then xh (xof fun i => xh X i >>> 4) i else xh X i) i =
      (if Nat.testBit 170 (i / 2) then xh X (i / 2) >>> 4 else xh X (i / 2)).extractLsb' (8 * (i % 2)) 8 := by
    show (if Nat.testBit 170 (i / 2) then xh (xof fun i => xh X i >>> 4) (i / 2) else xh X (i / 2)).extractLsb' (8 * (i % 2)) 8 = _
    rw [xh_xof]
  have hx : xh X (i / 2) = C (sidx (2 * (i / 2) + 1)) ++ C (sidx (2 * (i / 2))) := by
    unfold xh
    rw [hX _ (by omega), hX _ (by omega)]
  rw [e, hx]
  obtain ⟨j, hj, r, hr, rfl⟩ : ∃ j < 4, ∃ r < 4, i = 4 * j + r := ⟨i / 4, by omega, i % 4, by omega, by omega⟩
  have ht : ∀ k < 8, Nat.testBit 170 k = decide (k % 2 = 1) := by decide
  unfold lb cand
  rw [ht _ (by omega)]
  have s0 : sidx (4 * j) = 3 * j := by unfold sidx; omega
  have s1 : sidx (4 * j + 1) = 3 * j + 1 := by unfold sidx; omega
  have s2 : sidx (4 * j + 2) = 3 * j + 1 := by unfold sidx; omega
  have s3 : sidx (4 * j + 3) = 3 * j + 2 := by unfold sidx; omega
  have l0 := (C (3 * j)).isLt
  have l1 := (C (3 * j + 1)).isLt
  have l2 := (C (3 * j + 2)).isLt
  have k0 : BitVec.ofNat 8 (4095 / 256 ^ 0) = 0xff#8 := rfl
  have k1 : BitVec.ofNat 8 (4095 / 256 ^ 1) = 0x0f#8 := rfl
  have hr : r = 0 ∨ r = 1 ∨ r = 2 ∨ r = 3 := by omega
  rcases hr with rfl | rfl | rfl | rfl
  · rw [show (4 * j + 0) / 2 = 2 * j by omega, show (4 * j + 0) % 2 = 0 by omega, show 2 * (2 * j) = 4 * j by omega, s0, s1,
      show 2 * j % 2 = 0 by omega, show 2 * j / 2 = j by omega, decide_eq_false (by omega), if_neg (by decide), if_pos rfl, un_lo, k0, and255]
    apply BitVec.eq_of_toNat_eq
    rw [BitVec.toNat_ofNat]
    omega
  · rw [show (4 * j + 1) / 2 = 2 * j by omega, show (4 * j + 1) % 2 = 1 by omega, show 2 * (2 * j) = 4 * j by omega, s0, s1,
      show 2 * j % 2 = 0 by omega, show 2 * j / 2 = j by omega, decide_eq_false (by omega), if_neg (by decide), if_pos rfl, un_hi, k1, and15]
    apply BitVec.eq_of_toNat_eq
    rw [BitVec.toNat_ofNat, BitVec.toNat_ofNat]
    omega
  · rw [show (4 * j + 2) / 2 = 2 * j + 1 by omega, show (4 * j + 2) % 2 = 0 by omega, show 2 * (2 * j + 1) = 4 * j + 2 by omega, s2, s3,
      show (2 * j + 1) % 2 = 1 by omega, show (2 * j + 1) / 2 = j by omega, decide_eq_true rfl, if_pos rfl, if_neg (by omega), sh_lo, k0, and255,
      Nat.pow_zero, Nat.div_one]
  · rw [show (4 * j + 3) / 2 = 2 * j + 1 by omega, show (4 * j + 3) % 2 = 1 by omega, show 2 * (2 * j + 1) = 4 * j + 2 by omega, s2, s3,
      show (2 * j + 1) % 2 = 1 by omega, show (2 * j + 1) / 2 = j by omega, decide_eq_true rfl, if_pos rfl, if_neg (by omega), sh_hi, k1, and15]
    apply BitVec.eq_of_toNat_eq
    rw [BitVec.toNat_ofNat, BitVec.toNat_ofNat, BitVec.toNat_ofNat]
    omega

theorem xh_lb {X : Xmm} {v : Nat → Nat} (hX : ∀ i < 16, X i = lb v i) {i : Nat} (hi : i < 8) (hv : v i < 65536) :
    xh X i = BitVec.ofNat 16 (v i) := by
  unfold xh
  rw [hX _ (by omega), hX _ (by omega)]
  unfold lb
  rw [show (2 * i + 1) / 2 = i by omega, show (2 * i + 1) % 2 = 1 by omega, show 2 * i / 2 = i by omega, show 2 * i % 2 = 0 by omega]
  apply BitVec.eq_of_toNat_eq
  rw [app_toNat, BitVec.toNat_ofNat, BitVec.toNat_ofNat, BitVec.toNat_ofNat]
  omega

/-- Instruction 26. -/
theorem cmp_ok {C : Nat → Byte} {X X0 : Xmm} (hX : ∀ i < 16, X i = lb (cand C) i) (h0 : ∀ i < 16, X0 i = lb (fun _ => 3329) i) :
    ∀ i < 16, (xof (fun i => if (xh X i).toInt < (xh X0 i).toInt then 0xffff#16 else 0#16) i).getLsbD 7 = decide (cand C (i / 2) < 3329) := by
  intro i hi
  have hc := cand_lt C (i / 2)
  show ((if (xh X (i / 2)).toInt < (xh X0 (i / 2)).toInt then 0xffff#16 else 0#16).extractLsb' (8 * (i % 2)) 8).getLsbD 7 = _
  rw [xh_lb hX (by omega) (by omega), xh_lb h0 (by omega) (by omega)]
  have e : (BitVec.ofNat 16 (cand C (i / 2))).toInt = (cand C (i / 2) : Int) := by
    rw [BitVec.toInt_eq_toNat_of_lt (by rw [BitVec.toNat_ofNat]; omega), BitVec.toNat_ofNat, Nat.mod_eq_of_lt (by omega)]
  have e0 : (BitVec.ofNat 16 3329).toInt = (3329 : Int) := by decide
  rw [e, e0]
  have hm : i % 2 = 0 ∨ i % 2 = 1 := by omega
  by_cases h : cand C (i / 2) < 3329
  · rw [if_pos (by omega), decide_eq_true h]
    rcases hm with hm | hm <;> rw [hm] <;> decide
  · rw [if_neg (by omega), decide_eq_false h]
    rcases hm with hm | hm <;> rw [hm] <;> decide

/-! ### Masks -/

/-- The bits set among the low eight. -/
def bits (m : Nat) : List Nat := (List.range 8).filter fun i => m.testBit i

theorem exists_mask (p : Nat → Bool) : ∃ m < 256, ∀ i < 8, p i = m.testBit i := by
  have h : ∀ a b c d e f g h : Bool, ∃ m < 256, m.testBit 0 = a ∧ m.testBit 1 = b ∧ m.testBit 2 = c ∧ m.testBit 3 = d ∧ m.testBit 4 = e ∧
      m.testBit 5 = f ∧ m.testBit 6 = g ∧ m.testBit 7 = h := fun a b c d e f g h =>
    ⟨a.toNat + 2 * b.toNat + 4 * c.toNat + 8 * d.toNat + 16 * e.toNat + 32 * f.toNat + 64 * g.toNat + 128 * h.toNat, by
      revert a b c d e f g h
      decide +kernel⟩
  obtain ⟨m, hm, h0, h1, h2, h3, h4, h5, h6, h7⟩ := h (p 0) (p 1) (p 2) (p 3) (p 4) (p 5) (p 6) (p 7)
  refine ⟨m, hm, fun i hi => ?_⟩
  interval_cases i
  · exact h0.symm
  · exact h1.symm
  · exact h2.symm
  · exact h3.symm
  · exact h4.symm
  · exact h5.symm
  · exact h6.symm
  · exact h7.symm

theorem even_bits : (List.range 64).filter (fun i => (0x5555#64).getLsbD i) = [0, 2, 4, 6, 8, 10, 12, 14] := by decide +kernel

theorem pext_even : ∀ m < 256, ∀ j < 8,
    (((List.range 16).map fun i => if m.testBit (i / 2) then 2 ^ i else 0).sum).testBit (2 * j) = m.testBit j := by decide +kernel

theorem mask_sum : ∀ m < 256, ((([0, 2, 4, 6, 8, 10, 12, 14] : List Nat).zipIdx.map fun p => if m.testBit (p.1 / 2) then 2 ^ p.2 else 0).sum) = m := by
  decide +kernel

theorem pext_ok (m : Nat) (hm : m < 256) :
    pextv (BitVec.ofNat 64 (((List.range 16).map fun i => if m.testBit (i / 2) then 2 ^ i else 0).sum)) 0x5555#64 = BitVec.ofNat 64 m := by
  unfold pextv
  rw [even_bits]
  refine congrArg (BitVec.ofNat 64) (Eq.trans (congrArg List.sum (List.map_congr_left fun p hp => ?_)) (mask_sum m hm))
  have hq : ∃ j < 8, p.1 = 2 * j := by
    have : ∀ p ∈ ([0, 2, 4, 6, 8, 10, 12, 14] : List Nat).zipIdx, ∃ j < 8, p.1 = 2 * j := by decide
    exact this p hp
  obtain ⟨j, hj, e⟩ := hq
  rw [BitVec.getLsbD_ofNat, e, pext_even m hm j hj, decide_eq_true (by omega), Bool.true_and, show 2 * j / 2 = j by omega]

theorem popcount_ok : ∀ m < 256, popcount (BitVec.ofNat 64 m) = (bits m).length := by decide +kernel

theorem rows_ok : ∀ m < 256, (rejRows.getD m []).take (2 * (bits m).length) =
    (List.range (2 * (bits m).length)).map fun i => 2 * (bits m).getD (i / 2) 0 + i % 2 := by decide +kernel

theorem bits_lt (m i : Nat) : (bits m).getD i 0 < 8 := by
  by_cases h : i < (bits m).length
  · rw [List.getD_eq_getElem?_getD, List.getElem?_eq_getElem h]
    exact List.mem_range.1 (List.mem_filter.1 (List.getElem_mem h)).1
  · rw [List.getD_eq_getElem?_getD, List.getElem?_eq_none (by omega)]
    decide

theorem row_ok (m : Nat) (hm : m < 256) (i : Nat) (hi : i < 2 * (bits m).length) :
    (rejByte m i).getLsbD 7 = false ∧ (rejByte m i).toNat % 16 = 2 * (bits m).getD (i / 2) 0 + i % 2 := by
  have h := congrArg (fun l => l.getD i 0) (rows_ok m hm)
  simp only [List.getD_eq_getElem?_getD, List.getElem?_take, if_pos hi, List.getElem?_map, List.getElem?_range hi, Option.map_some,
    Option.getD_some] at h
  simp only [← List.getD_eq_getElem?_getD] at h
  have hb := bits_lt m (i / 2)
  unfold rejByte
  rw [h]
  generalize (bits m).getD (i / 2) 0 = b at *
  have : ∀ b < 8, ∀ r < 2, (BitVec.ofNat 8 (2 * b + r)).getLsbD 7 = false ∧ (BitVec.ofNat 8 (2 * b + r)).toNat % 16 = 2 * b + r := by decide
  exact this b hb (i % 2) (by omega)

end Verif.X86.Rej
