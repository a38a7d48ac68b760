import Verif.Model.MlKemX86
import Verif.Proof.MlKemContract
import Mathlib.Tactic.IntervalCases
import Mathlib.Tactic.LinearCombination
import Mathlib.Tactic.Linarith

/-! The arithmetic of the AVX2 ML-KEM routines: residues and bounds. -/
namespace Verif.MlKem.X86
open Verif Verif.X86 Verif.Spec.MlKem

/-! ### Lanes as numbers -/

theorem toInt_rng (x : Lane) : -32768 ≤ x.toInt ∧ x.toInt ≤ 32767 := by
  have h1 := BitVec.le_toInt x
  have h2 := BitVec.toInt_lt (x := x)
  norm_num at h1 h2
  omega

theorem toInt_of {v : Int} (h : -32768 ≤ v ∧ v ≤ 32767) : (BitVec.ofInt 16 v).toInt = v := by
  rw [BitVec.toInt_ofInt, Int.bmod_eq_of_le] <;> norm_num <;> omega

theorem add_val {x y : Lane} (h : -32768 ≤ x.toInt + y.toInt ∧ x.toInt + y.toInt ≤ 32767) : (x + y).toInt = x.toInt + y.toInt := by
  rw [BitVec.toInt_add, Int.bmod_eq_of_le] <;> norm_num <;> omega

theorem sub_val {x y : Lane} (h : -32768 ≤ x.toInt - y.toInt ∧ x.toInt - y.toInt ≤ 32767) : (x - y).toInt = x.toInt - y.toInt := by
  rw [BitVec.toInt_sub, Int.bmod_eq_of_le] <;> norm_num <;> omega

theorem neg_val {x : Lane} (h : -32768 ≤ -x.toInt ∧ -x.toInt ≤ 32767) : (-x).toInt = -x.toInt := by
  rw [BitVec.toInt_neg, Int.bmod_eq_of_le] <;> norm_num <;> omega

theorem prod_rng (x y : Lane) : -1073741824 ≤ x.toInt * y.toInt ∧ x.toInt * y.toInt ≤ 1073741824 := by
  have hx := toInt_rng x
  have hy := toInt_rng y
  constructor <;> nlinarith

theorem mulhi_val (x y : Lane) : (mulhi16 x y).toInt = x.toInt * y.toInt / 65536 := by
  have := prod_rng x y
  unfold mulhi16
  exact toInt_of (by omega)

/-- Montgomery multiplication. -/
theorem mont_eq (x z : Lane) : ∃ k : Int, -32768 ≤ k ∧ k ≤ 32767 ∧ 65536 * (mont x z).toInt = x.toInt * z.toInt - 3329 * k := by
  have hp := prod_rng x z
  have hk := toInt_rng (x * (z * 62209#16))
  refine ⟨(x * (z * 62209#16)).toInt, hk.1, hk.2, ?_⟩
  have hm : ∃ c : Int, (x * (z * 62209#16)).toInt = x.toInt * z.toInt * 62209 + 65536 * c := by
    rw [BitVec.toInt_mul, BitVec.toInt_mul]
    have e1 : ∀ v : Int, ∃ c : Int, v.bmod (2 ^ 16) = v + 65536 * c := fun v => by
      rw [Int.bmod_def, show (((2 ^ 16 : Nat) : Int)) = 65536 by norm_num]
      split
      · exact ⟨-(v / 65536), by omega⟩
      · exact ⟨-(v / 65536) - 1, by omega⟩
    obtain ⟨c1, h1⟩ := e1 (z.toInt * (62209#16 : BitVec 16).toInt)
    rw [h1]
    obtain ⟨c2, h2⟩ := e1 (x.toInt * (z.toInt * (62209#16 : BitVec 16).toInt + 65536 * c1))
    rw [h2, show (62209#16 : BitVec 16).toInt = 62209 - 65536 by decide]
    exact ⟨c2 + x.toInt * c1 - x.toInt * z.toInt, by ring⟩
  have hr : (mont x z).toInt = x.toInt * z.toInt / 65536 - (x * (z * 62209#16)).toInt * 3329 / 65536 := by
    unfold mont
    have e : (mulhi16 (x * (z * 62209#16)) 3329#16).toInt = (x * (z * 62209#16)).toInt * 3329 / 65536 := by
      rw [mulhi_val]
      rfl
    rw [sub_val, mulhi_val, e]
    rw [mulhi_val, e]
    omega
  rw [hr]
  obtain ⟨c, hc⟩ := hm
  rw [hc] at hk ⊢
  generalize x.toInt * z.toInt = p at hp hk ⊢
  omega

/-- A bound by the second factor. -/
theorem mont_bound (x z : Lane) {B : Int} (h : -B ≤ z.toInt ∧ z.toInt ≤ B) :
    -(B + 3330) ≤ 2 * (mont x z).toInt ∧ 2 * (mont x z).toInt ≤ B + 3330 := by
  obtain ⟨k, h1, h2, h3⟩ := mont_eq x z
  have hx := toInt_rng x
  have : -(32768 * B) ≤ x.toInt * z.toInt ∧ x.toInt * z.toInt ≤ 32768 * B := by
    have hB : 0 ≤ B := by omega
    constructor <;> nlinarith
  omega

theorem q_dvd_cast (k : Int) : ((3329 * k : Int) : Fq) = 0 := by
  push_cast
  rw [show (3329 : Fq) = 0 from by decide, zero_mul]

theorem mont_cast (x z : Lane) : (2 ^ 16 : Fq) * ((mont x z).toInt : Fq) = (x.toInt : Fq) * (z.toInt : Fq) := by
  obtain ⟨k, _, _, h3⟩ := mont_eq x z
  have := congrArg (Int.cast (R := Fq)) h3
  rw [Int.cast_sub, q_dvd_cast, sub_zero, Int.cast_mul, Int.cast_mul] at this
  rw [← this]
  norm_num

theorem two16_inv : (2 ^ 16 : Fq) * 169 = 1 := by decide

/-- Multiplication by a constant in the table. -/
theorem mont_const_cast (x : Lane) {z : Lane} {w : Fq} (h : (z.toInt : Fq) = w * 2 ^ 16) : ((mont x z).toInt : Fq) = w * (x.toInt : Fq) := by
  have := mont_cast x z
  rw [h] at this
  linear_combination (169 : Fq) * this + (w * (x.toInt : Fq) - ((mont x z).toInt : Fq)) * two16_inv

theorem barrett_val (x : Lane) : 0 ≤ (barrett x).toInt ∧ (barrett x).toInt ≤ 3329 ∧ ∃ k : Int, (barrett x).toInt = x.toInt - 3329 * k := by
  have hx := toInt_rng x
  have e : barrett x = BitVec.ofInt 16 (x.toInt - x.toInt * 20159 / 65536 / 1024 * 3329) := by
    unfold barrett
    rw [Int.sub_eq_add_neg, BitVec.ofInt_add, BitVec.ofInt_neg, BitVec.ofInt_mul, BitVec.ofInt_toInt, ← BitVec.sub_eq_add_neg]
    congr 2
    apply BitVec.eq_of_toInt_eq
    rw [BitVec.toInt_sshiftRight, mulhi_val, toInt_of, show (20159#16 : BitVec 16).toInt = 20159 by decide]
    · exact Int.shiftRight_eq_div_pow _ _
    · omega
  have hb : 0 ≤ x.toInt - x.toInt * 20159 / 65536 / 1024 * 3329 ∧ x.toInt - x.toInt * 20159 / 65536 / 1024 * 3329 ≤ 3329 := by
    omega
  rw [e, toInt_of (by omega)]
  exact ⟨hb.1, hb.2, x.toInt * 20159 / 65536 / 1024, by ring⟩

theorem canon_val (x : Lane) : 0 ≤ (canon x).toInt ∧ (canon x).toInt < 3329 ∧ ∃ k : Int, (canon x).toInt = x.toInt - 3329 * k := by
  obtain ⟨h1, h2, k, h3⟩ := barrett_val x
  have ey : (barrett x - 3329#16).toInt = (barrett x).toInt - 3329 := by
    rw [sub_val] <;> rw [show (3329#16 : BitVec 16).toInt = 3329 by decide]
    omega
  unfold canon
  simp only
  generalize barrett x - 3329#16 = y at ey
  by_cases hy : y.toInt < 0
  · have em : y.sshiftRight 15 = BitVec.allOnes 16 := by
      apply BitVec.eq_of_toInt_eq
      rw [BitVec.toInt_sshiftRight, Int.shiftRight_eq_div_pow, show (BitVec.allOnes 16).toInt = -1 by decide]
      omega
    rw [em, BitVec.allOnes_and, add_val] <;> rw [show (3329#16 : BitVec 16).toInt = 3329 by decide]
    · exact ⟨by omega, by omega, k, by omega⟩
    · omega
  · have em : y.sshiftRight 15 = 0#16 := by
      apply BitVec.eq_of_toInt_eq
      rw [BitVec.toInt_sshiftRight, Int.shiftRight_eq_div_pow, show (0#16 : BitVec 16).toInt = 0 by decide]
      have := toInt_rng y
      omega
    rw [em, BitVec.zero_and, BitVec.add_zero]
    exact ⟨by omega, by omega, k + 1, by omega⟩

/-! ### Arrays -/

theorem arr_get (n : Nat) (f : Nat → Lane) {i : Nat} (h : i < n) : (arr n f).getD i 0 = (f i).toInt := by
  unfold arr
  rw [List.getD_eq_getElem?_getD, List.getElem?_map, List.getElem?_range h]
  rfl

theorem arr_length (n : Nat) (f : Nat → Lane) : (arr n f).length = n := by
  unfold arr
  rw [List.length_map, List.length_range]

theorem arr_mem {n : Nat} {f : Nat → Lane} {x : Int} (h : x ∈ arr n f) : ∃ i < n, x = (f i).toInt := by
  unfold arr at h
  obtain ⟨i, hi, rfl⟩ := List.mem_map.1 h
  exact ⟨i, List.mem_range.1 hi, rfl⟩

theorem toPoly_arr256 (f : Nat → Lane) : toPoly (arr 256 f) = fun i => ((f i.val).toInt : Fq) := by
  funext i
  unfold toPoly
  rw [arr_get 256 f i.isLt]

theorem arr_i16 (f : Nat → Lane) : I16 (arr 256 f) :=
  ⟨arr_length 256 f, fun x hx => by
    obtain ⟨i, _, rfl⟩ := arr_mem hx
    exact toInt_rng _⟩

theorem lanes_val {a : Coeffs} (h : I16 a) {i : Nat} (hi : i < 256) : (lanes a i).toInt = a.getD i 0 :=
  toInt_of (h.2 _ (getD_mem (by rw [h.1]; exact hi)))

/-- The order of the transformed coefficients. -/
def sigma (m : Fin 256) : Fin 256 := ⟨place m.val, by have := m.isLt; unfold place; omega⟩

theorem reduce_ok (a : Coeffs) (h : I16 a) : Uns 3329 (reduce a) ∧ toPoly (reduce a) = toPoly a := by
  refine ⟨⟨arr_length _ _, fun x hx => ?_⟩, ?_⟩
  · obtain ⟨i, _, rfl⟩ := arr_mem hx
    obtain ⟨h1, h2, _⟩ := canon_val (lanes a i)
    exact ⟨h1, h2⟩
  · unfold reduce
    rw [toPoly_arr256]
    funext i
    obtain ⟨_, _, k, e⟩ := canon_val (lanes a i.val)
    show (((canon (lanes a i.val)).toInt : Int) : Fq) = ((a.getD i.val 0 : Int) : Fq)
    rw [e, Int.cast_sub, q_dvd_cast, sub_zero, lanes_val h i.isLt]

theorem tomont_ok (a : Coeffs) (h : I16 a) : Bnd 3329 (tomont a) ∧ toPoly (tomont a) = fun i => 2 ^ 16 * toPoly a i := by
  refine ⟨⟨arr_length _ _, fun x hx => ?_⟩, ?_⟩
  · obtain ⟨i, _, rfl⟩ := arr_mem hx
    have := mont_bound (lanes a i) 1353#16 (B := 1353) (by decide)
    omega
  · unfold tomont
    rw [toPoly_arr256]
    funext i
    show ((mont (lanes a i.val) 1353#16).toInt : Fq) = 2 ^ 16 * ((a.getD i.val 0 : Int) : Fq)
    rw [mont_const_cast _ (w := 2 ^ 16) (by decide), lanes_val h i.isLt]

theorem unpack_ok (l : List Nat) (hl : l.length = 256) (h : ∀ x ∈ l, x < 4096) : unpack (ints l) = layL sigma l := by
  unfold unpack layL arr
  refine List.ext_getElem (by rw [List.length_map, List.length_range, List.length_ofFn]) fun i h1 h2 => ?_
  have hi : i < 256 := by rwa [List.length_ofFn] at h2
  have hp : place i < 256 := (sigma ⟨i, hi⟩).isLt
  simp only [List.getElem_map, List.getElem_range, List.getElem_ofFn]
  have hx := h (l.getD (place i) 0) (by
    rw [List.getD_eq_getElem?_getD, List.getElem?_eq_getElem (by omega)]
    exact List.getElem_mem _)
  have e : (ints l).getD (place i) 0 = ((l.getD (place i) 0 : Nat) : Int) := by
    unfold ints
    rw [List.getD_eq_getElem?_getD, List.getD_eq_getElem?_getD, List.getElem?_map]
    cases l[place i]? <;> rfl
  unfold lanes
  rw [e, toInt_of (by omega)]
  rfl

end Verif.MlKem.X86
