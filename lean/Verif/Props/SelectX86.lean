import Verif.Proof.EcPoint
import Verif.Proof.MontExp
import Verif.Proof.SelectX86

/-!
C67: table lookups with a secret index, as done on x86_64 with AVX2.  A table is the concatenation of its rows.  The lookup reads all of them, masks
each with a comparison of a counter with the index, and adds up; the theorems say that this gives the row asked for.
-/
namespace Verif.Props
open Verif Verif.SelectX86

/-- The row with this index, and zeros if there is none. -/
def rowOrZeros (w : Nat) (rows : List Words) (index : Nat) : Words :=
  if h : index < rows.length then rows[index] else List.replicate w 0#64

theorem getD_rowOrZeros (w : Nat) (rows : List Words) (i : Nat) : rows.getD i (List.replicate w 0#64) = rowOrZeros w rows i := by
  unfold rowOrZeros
  rw [List.getD_eq_getElem?_getD]
  split
  · rename_i h
    rw [List.getElem?_eq_getElem h, Option.getD_some]
  · rename_i h
    rw [List.getElem?_eq_none (by omega), Option.getD_none]

/-- **C67** The lookup in the table of powers of a modular exponentiation: whatever the width of a row and whatever was in the output, the output is
the row asked for. -/
theorem C67_row (w : Nat) (hw : 0 < w) (z : Words) (hz : z.length = w) (rows : List Words) (hr : ∀ r ∈ rows, r.length = w)
    (hn : rows.length < 2 ^ 64) (index : Word) :
    copyRowMux z rows.flatten rows.length w index = rowOrZeros w rows index.toNat := by
  unfold copyRowMux
  rw [← getD_rowOrZeros]
  split
  · rename_i h
    subst h
    exact copyRow16_eq rows hr hn index
  · split
    · rename_i h
      exact copyRow8n_eq hw h z hz rows hr hn index
    · unfold Bignum.copyRow
      rw [getD_rowOrZeros, rowOrZeros]
      split
      · rename_i h
        exact PosInt.flatten_row rows hr index.toNat h
      · rfl

/-- **C67** So the exponentiation of C47, whose model looks up with `Bignum.copyRow`, is the one that runs on x86_64. -/
theorem C67_row_model (w : Nat) (hw : 0 < w) (z : Words) (hz : z.length = w) (rows : List Words) (hr : ∀ r ∈ rows, r.length = w)
    (hn : rows.length < 2 ^ 64) (index : Word) :
    copyRowMux z rows.flatten rows.length w index = Bignum.copyRow rows.flatten rows.length w index.toNat := by
  rw [C67_row w hw z hz rows hr hn index, rowOrZeros, Bignum.copyRow]
  split
  · rename_i h
    exact (PosInt.flatten_row rows hr index.toNat h).symm
  · rfl

/-- **C67** The lookup of an affine point of P-256: point number `index`, counted from one, and zeros (the point at infinity) for index zero. -/
theorem C67_affine_p256 (points : List Words) (hp : ∀ p ∈ points, p.length = 8) (hn : points.length < 2 ^ 32) (index : BitVec 8) :
    selectAffP256 points.flatten index =
      if index = 0#8 then List.replicate 8 0#64 else rowOrZeros 8 points (index.toNat - 1) := by
  rw [aff_eq points hp hn index, getD_rowOrZeros]
  by_cases h : index = 0#8
  · rw [if_pos h, h]
    rfl
  · rw [if_neg h, if_neg fun g => h (BitVec.eq_of_toNat_eq (by rw [Nat.lt_one_iff.1 g]; rfl))]

/-- **C67** The lookup of a Jacobian point of P-256. -/
theorem C67_jacobian_p256 (points : List Words) (hp : ∀ p ∈ points, p.length = 12) (hn : points.length < 2 ^ 32) (index : BitVec 8) :
    selectJacP256 points.flatten index =
      if index = 0#8 then List.replicate 12 0#64 else rowOrZeros 12 points (index.toNat - 1) := by
  rw [jac_eq points hp hn index, getD_rowOrZeros]
  by_cases h : index = 0#8
  · rw [if_pos h, h]
    rfl
  · rw [if_neg h, if_neg fun g => h (BitVec.eq_of_toNat_eq (by rw [Nat.lt_one_iff.1 g]; rfl))]

/-- **C67** The lookup of a Jacobian point of P-384, whose 18 words are not a whole number of vectors. -/
theorem C67_jacobian_p384 (points : List Words) (hp : ∀ p ∈ points, p.length = 18) (hn : points.length < 2 ^ 32) (index : BitVec 8) :
    selectJacP384 points.flatten index =
      if index = 0#8 then List.replicate 18 0#64 else rowOrZeros 18 points (index.toNat - 1) := by
  rw [jac384_eq points hp hn index, getD_rowOrZeros]
  by_cases h : index = 0#8
  · rw [if_pos h, h]
    rfl
  · rw [if_neg h, if_neg fun g => h (BitVec.eq_of_toNat_eq (by rw [Nat.lt_one_iff.1 g]; rfl))]

/-- The affine point in these words. -/
def affOf (N : Nat) (p : Words) : Ec.Aff N := ⟨Ec.ofWords N (p.take N), Ec.ofWords N (p.drop N)⟩
/-- The Jacobian point in these words. -/
def jacOf (N : Nat) (p : Words) : Ec.Jac N :=
  ⟨Ec.ofWords N (p.take N), Ec.ofWords N ((p.drop N).take N), Ec.ofWords N (p.drop (2 * N))⟩

/-- **C67** So the scalar multiplications of C33, whose models look points up with `Ec.selectAff` and `Ec.selectJac`, are those that run on x86_64. -/
theorem C67_point_model (index : BitVec 8) :
    (∀ points : List Words, (∀ p ∈ points, p.length = 8) → points.length < 2 ^ 16 →
      affOf 4 (selectAffP256 points.flatten index) = Ec.selectAff (points.map (affOf 4)) index) ∧
    (∀ points : List Words, (∀ p ∈ points, p.length = 12) → points.length < 2 ^ 16 →
      jacOf 4 (selectJacP256 points.flatten index) = Ec.selectJac (points.map (jacOf 4)) index) ∧
    (∀ points : List Words, (∀ p ∈ points, p.length = 18) → points.length < 2 ^ 16 →
      jacOf 6 (selectJacP384 points.flatten index) = Ec.selectJac (points.map (jacOf 6)) index) := by
  refine ⟨fun points hp hn => ?_, fun points hp hn => ?_, fun points hp hn => ?_⟩
  · rw [aff_eq points hp (by omega) index, Ec.selectAff_eq _ _ (by rw [List.length_map]; exact hn),
      show (⟨0, 0⟩ : Ec.Aff 4) = affOf 4 (List.replicate 8 0#64) by decide]
    simp only [List.getD_eq_getElem?_getD, List.getElem?_map, Option.getD_map, apply_ite (affOf 4)]
  · rw [jac_eq points hp (by omega) index, Ec.selectJac_eq _ _ (by rw [List.length_map]; exact hn),
      show (⟨0, 0, 0⟩ : Ec.Jac 4) = jacOf 4 (List.replicate 12 0#64) by decide]
    simp only [List.getD_eq_getElem?_getD, List.getElem?_map, Option.getD_map, apply_ite (jacOf 4)]
  · rw [jac384_eq points hp (by omega) index, Ec.selectJac_eq _ _ (by rw [List.length_map]; exact hn),
      show (⟨0, 0, 0⟩ : Ec.Jac 6) = jacOf 6 (List.replicate 18 0#64) by decide]
    simp only [List.getD_eq_getElem?_getD, List.getElem?_map, Option.getD_map, apply_ite (jacOf 6)]

/-! ### Tables for which the hypotheses hold -/

example := C67_row 24 (by decide) (List.replicate 24 5#64) List.length_replicate ((List.range 16).map fun i => List.replicate 24 (BitVec.ofNat 64 i))
  (fun r h => by
    obtain ⟨i, _, rfl⟩ := List.mem_map.1 h
    exact List.length_replicate)
  (by rw [List.length_map, List.length_range]; decide) 11#64

example : copyRowMux (List.replicate 16 9#64) (((List.range 16).map fun i => List.replicate 16 (BitVec.ofNat 64 (7 * i))).flatten) 16 16 15#64 =
    List.replicate 16 105#64 := by
  have h := C67_row 16 (by decide) (List.replicate 16 9#64) List.length_replicate ((List.range 16).map fun i => List.replicate 16 (BitVec.ofNat 64 (7 * i)))
    (fun r h => by
      obtain ⟨i, _, rfl⟩ := List.mem_map.1 h
      exact List.length_replicate)
    (by rw [List.length_map, List.length_range]; decide) 15#64
  rw [List.length_map, List.length_range] at h
  rw [h]
  decide

example := C67_jacobian_p384 ((List.range 16).map fun i => List.replicate 18 (BitVec.ofNat 64 i))
  (fun r h => by
    obtain ⟨i, _, rfl⟩ := List.mem_map.1 h
    exact List.length_replicate)
  (by rw [List.length_map, List.length_range]; decide) 16#8

example := (C67_point_model 3#8).1 [List.replicate 8 1#64, List.replicate 8 2#64, List.replicate 8 3#64]
  (fun r h => by
    simp only [List.mem_cons, List.not_mem_nil, or_false] at h
    rcases h with rfl | rfl | rfl <;> rfl)
  (by decide)

end Verif.Props
