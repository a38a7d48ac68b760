import Verif.Proof.EcPoint
import Verif.Proof.Booth
import Mathlib.Tactic.Linarith

/-!
Scalar multiplication: the windowed loops compute the multiple in the group.
-/
namespace Verif.Ec

open Bignum Spec.Nist EcGroup EcCard

variable {N : Nat} {D : Params} [Fact D.p.Prime] [Fact D.n.Prime]

omit [Fact D.n.Prime] in
theorem zz (a c : Int) (P : D.Pt) : a • c • P = (a * c) • P := (mul_zsmul P a c).symm

omit [Fact D.n.Prime] in
theorem nn (a c : Nat) (P : D.Pt) : a • c • P = (a * c) • P := (mul_nsmul' P a c).symm

/-- A row of the 7-bit table: the multiples 1 to 64 of `B`. -/
def RowW7 (B : D.Pt) (row : List (Aff N)) : Prop :=
  row.length = 64 ∧ ∀ j < 64, ARep ((j + 1) • B) (row.getD j ⟨0, 0⟩)

/-- The 5-bit table: the multiples 1 to 16 of `B`. -/
def TableW5 (B : D.Pt) (table : List (Jac N)) : Prop :=
  table.length = 16 ∧ ∀ j < 16, JRep ((j + 1) • B) (table.getD j ⟨0, 0, 0⟩)

section

variable {A : Asm N} (hA : A.Ok D.p D.n) (hg : Good D) {C : Curve N} (hC : ConstOk D C)
include hA hg hC

theorem termW7_rep (secret : Bool) {B : D.Pt} {row : List (Aff N)} (hrow : RowW7 B row) (v : Nat) (hv : v < 256) :
    OptRep (sd 7 v • B) (termW7 A secret row (recodeW7 (BitVec.ofNat 8 v)).1 (recodeW7 (BitVec.ofNat 8 v)).2) := by
  obtain ⟨e, hle⟩ := recodeW7_eq v hv
  rw [e]
  generalize hd : (sd 7 v).natAbs = d at *
  have hdn : (BitVec.ofNat 8 d).toNat = d := by rw [BitVec.toNat_ofNat]; exact Nat.mod_eq_of_lt (by omega)
  have hsel : (Aff.lookupW7 row (BitVec.ofNat 8 d) = if d = 0 then ⟨0, 0⟩ else row.getD (d - 1) ⟨0, 0⟩) := by
    rw [Aff.lookupW7, selectAff_eq _ _ (by rw [hrow.1]; decide), hdn]
    by_cases h : d = 0
    · rw [if_pos h, if_pos (by omega)]
    · rw [if_neg h, if_neg (by omega)]
  have hpub : (Aff.publicLookupW7 row (BitVec.ofNat 8 d) = if d = 0 then ⟨0, 0⟩ else row.getD (d - 1) ⟨0, 0⟩) := by
    rw [Aff.publicLookupW7, hdn]
    by_cases h : d = 0
    · subst h; rw [if_pos rfl, if_neg (by decide)]; rfl
    · rw [if_neg h, if_pos (by rw [GT.gt, BitVec.lt_def, hdn]; simpa using Nat.pos_of_ne_zero h)]; rfl
  have hneg0 := neg_zero_elt hA hg
  by_cases h : d = 0
  · rw [if_pos h] at hsel hpub
    have h0 : sd 7 v = 0 := Int.natAbs_eq_zero.1 (hd.trans h)
    refine .inl ⟨by rw [h0, zero_zsmul], ?_⟩
    rw [termW7, hsel, hpub]
    cases secret
    · simp only [Bool.false_eq_true, if_false]
      split
      · exact congrArg (Aff.mk 0) hneg0
      · rfl
    · simp only [if_true]
      rw [Aff.maybeNegateY, feSelect]
      dsimp only
      rw [hneg0, ite_self]
  · rw [if_neg h] at hsel hpub
    refine .inr ?_
    have hr := hrow.2 (d - 1) (by omega)
    rw [show d - 1 + 1 = d by omega] at hr
    rw [termW7, hsel, hpub]
    by_cases hs : sd 7 v < 0
    · have hB : sd 7 v • B = -(d • B) := by
        rw [show sd 7 v = -(d : Int) by omega, neg_zsmul, natCast_zsmul]
      have e1 : (if sd 7 v < 0 ∨ v = 255 then (1 : BitVec 8) else 0) = 1 := if_pos (.inl hs)
      rw [e1, hB]
      have := hr.negateY hA hg
      cases secret
      · exact this
      · exact this
    · have hB : sd 7 v • B = d • B := by rw [show sd 7 v = (d : Int) by omega, natCast_zsmul]
      have hv' : v ≠ 255 := by
        rintro rfl
        apply h
        rw [← hd]
        decide
      have e1 : (if sd 7 v < 0 ∨ v = 255 then (1 : BitVec 8) else 0) = 0 := if_neg (by tauto)
      rw [e1, hB]
      cases secret
      · exact hr
      · exact hr

theorem lookupW5_rep (secret : Bool) {B : D.Pt} {table : List (Jac N)} (ht : TableW5 B table) (d : Nat) (hd : d ≤ 16) :
    JRep (d • B) (if secret then Jac.lookupW5 table (BitVec.ofNat 8 d) else Jac.publicLookupW5 table (BitVec.ofNat 8 d)) := by
  have hdn : (BitVec.ofNat 8 d).toNat = d := by rw [BitVec.toNat_ofNat]; exact Nat.mod_eq_of_lt (by omega)
  rw [Jac.lookupW5, selectJac_eq _ _ (by rw [ht.1]; decide), Jac.publicLookupW5, hdn]
  by_cases h : d = 0
  · subst h
    rw [if_pos Nat.zero_lt_one, zero_nsmul, if_neg (c := (0#8 : BitVec 8) > 0) (by decide)]
    cases secret
    · exact JRep.infinity hg
    · exact JRep.zero hg red_zero red_zero rfl
  · have hr := ht.2 (d - 1) (by omega)
    rw [show d - 1 + 1 = d by omega] at hr
    rw [if_neg (c := d < 1) (by omega), if_pos (c := BitVec.ofNat 8 d > 0) (by rw [GT.gt, BitVec.lt_def, hdn]; simpa using Nat.pos_of_ne_zero h)]
    have hl : d - 1 < table.length := by rw [ht.1]; omega
    have e : table.getD (d - 1) (Jac.infinity N) = table.getD (d - 1) ⟨0, 0, 0⟩ := by
      rw [List.getD_eq_getElem?_getD, List.getD_eq_getElem?_getD, List.getElem?_eq_getElem hl]; rfl
    rw [e, ite_self]
    exact hr

theorem termW5_rep (secret : Bool) {B : D.Pt} {table : List (Jac N)} (ht : TableW5 B table) (v : Nat) (hv : v < 64) :
    JRep (sd 5 v • B) (termW5 A secret table (recodeW5 (BitVec.ofNat 8 v)).1 (recodeW5 (BitVec.ofNat 8 v)).2) := by
  obtain ⟨e, hle⟩ := recodeW5_eq v hv
  rw [e]
  generalize hd : (sd 5 v).natAbs = d at *
  have hr := lookupW5_rep hA hg hC secret ht d hle
  rw [termW5]
  by_cases hs : sd 5 v < 0 ∨ v = 63
  · have hB : sd 5 v • B = -(d • B) := by
      rcases hs with hs | hs
      · rw [show sd 5 v = -(d : Int) by omega, neg_zsmul, natCast_zsmul]
      · subst hs
        rw [show sd 5 63 = 0 by decide] at hd ⊢
        rw [← hd]
        simp
    rw [if_pos hs, hB]
    have := hr.negateY hA hg
    cases secret
    · exact this
    · exact this
  · have hB : sd 5 v • B = d • B := by rw [show sd 5 v = (d : Int) by omega, natCast_zsmul]
    rw [if_neg hs, hB]
    cases secret
    · exact hr
    · exact hr

/-! ### 5-bit windows -/

omit hA hC in
/-- The sum of one step is never a doubling, except of the point at infinity. -/
theorem stepW5_ne (hn : 16 < D.n % 32) (hbig : 2 ^ 100 < D.n) {B : D.Pt} (hB : B ≠ 0) (k i : Nat) (hk : k < D.n) :
    ((32 * bq 5 k (i + 1) : Nat) : Int) • B ≠ sd 5 (bw 5 k i) • B ∨ ((32 * bq 5 k (i + 1) : Nat) : Int) • B = 0 := by
  by_cases h : ((32 * bq 5 k (i + 1) : Nat) : Int) • B = sd 5 (bw 5 k i) • B
  · right
    rw [zsmul_eq_iff hg hB] at h
    have hsd := sd_eq 5 k i
    have hle : (sd 5 (bw 5 k i)).natAbs ≤ 16 := (recodeW5_eq _ (bw_lt 5 k i)).2
    have hlt : bq 5 k i ≤ k := by
      rcases Nat.eq_zero_or_pos i with h0 | h0
      · subst h0; rw [bq_zero]
      · rw [bq]
        have : 2 ^ 5 ≤ 2 ^ (5 * i) := Nat.pow_le_pow_right (by decide) (by omega)
        have h1 : 2 * k / 2 ^ (5 * i) ≤ 2 * k / 2 ^ 5 := Nat.div_le_div_left this (by decide)
        omega
    have hsmall : i ≠ 0 → bq 5 k i ≤ k / 16 + 1 := by
      intro h0
      rw [bq]
      have : 2 ^ 5 ≤ 2 ^ (5 * i) := Nat.pow_le_pow_right (by decide) (by omega)
      have h1 : 2 * k / 2 ^ (5 * i) ≤ 2 * k / 2 ^ 5 := Nat.div_le_div_left this (by decide)
      omega
    have h00 : bq 5 k 0 = k := bq_zero 5 k
    generalize sd 5 (bw 5 k i) = s at *
    generalize bq 5 k (i + 1) = q at *
    have hq : q = 0 := by
      obtain ⟨m, hm⟩ := h
      clear hB hg
      have hP : D.n.Prime := Fact.out
      generalize D.n = n at hn hbig hk hm
      have hm0 : 0 ≤ m := by
        by_contra hc
        have : (n : Int) * m ≤ n * (-1) := Int.mul_le_mul_of_nonneg_left (by omega) (by omega)
        omega
      have hm1 : m < 2 := by
        by_contra hc
        have : (n : Int) * 2 ≤ n * m := Int.mul_le_mul_of_nonneg_left (by omega) (by omega)
        omega
      have : m = 0 ∨ m = 1 := by omega
      rcases this with rfl | rfl
      · omega
      · exfalso
        by_cases hi : i = 0
        · subst hi
          rw [h00] at hsd
          omega
        · have := hsmall hi
          omega
    rw [hq]; simp
  · exact .inl h

theorem loopW5_rep (secret : Bool) (hn : 16 < D.n % 32) (hbig : 2 ^ 100 < D.n) {B : D.Pt} (hB : B ≠ 0)
    {table : List (Jac N)} (ht : TableW5 B table) (k i : Nat) (hk : k < D.n) {J : Jac N}
    (hJ : JRep (((32 * bq 5 k (i + 1) : Nat) : Int) • B) J) : JRep (k • B) (loopW5 A secret table (digitsW5 k i) J) := by
  induction i generalizing J with
  | zero =>
    rw [digitsW5, loopW5]
    simp only [if_true]
    rw [loopW5]
    have := add_rep hA hg hC hJ (termW5_rep hA hg hC secret ht (bw 5 k 0) (bw_lt 5 k 0)) (stepW5_ne hg hn hbig hB k 0 hk)
    rw [← add_zsmul, sd_eq, bq_zero] at this
    rw [← natCast_zsmul]
    convert this using 2
    push_cast
    ring
  | succ i ih =>
    rw [digitsW5, loopW5]
    simp only [Bool.false_eq_true, if_false]
    apply ih
    have := add_rep hA hg hC hJ (termW5_rep hA hg hC secret ht (bw 5 k (i + 1)) (bw_lt 5 k (i + 1)))
      (stepW5_ne hg hn hbig hB k (i + 1) hk)
    rw [← add_zsmul, sd_eq] at this
    have := doubleN_rep hA hg hC this 5
    rw [← natCast_zsmul, zz] at this
    convert this using 2
    push_cast
    ring

/-- `_multiply_w5` computes the multiple. -/
theorem multiplyW5_rep (secret : Bool) (hn : 16 < D.n % 32) (hbig : 2 ^ 100 < D.n) {t : Nat} (h0 : C.w5Start = 5 * (t + 1))
    (htop : D.n < 2 ^ (5 * (t + 1) + 4)) {B : D.Pt} (hB : B ≠ 0) {table : List (Jac N)} (ht : TableW5 B table)
    (s : Scalar N) (hs : s.toNat < D.n) : JRep (s.toNat • B) (multiplyW5 C A secret s table) := by
  rw [multiplyW5, reversedBoothRecodedW5_eq C s _ h0]
  generalize s.toNat = k at *
  have hw : 2 * k / 2 ^ (5 * (t + 1)) < 32 := by
    rw [Nat.div_lt_iff_lt_mul (Nat.two_pow_pos _)]
    rw [Nat.pow_add] at htop
    omega
  have hbw : bw 5 k (t + 1) < 32 := by
    rw [bw, Nat.mod_eq_of_lt (by omega)]; exact hw
  have hq : bq 5 k (t + 2) = 0 := by
    rw [bq, show 5 * (t + 2) = 5 * (t + 1) + 5 by omega, Nat.pow_add, ← Nat.div_div_eq_div_mul]
    generalize 2 * k / 2 ^ (5 * (t + 1)) = u at *
    omega
  have hsd := sd_eq 5 k (t + 1)
  rw [hq] at hsd
  have e : (recodeW5 (BitVec.ofNat 8 (bw 5 k (t + 1)))).1 = BitVec.ofNat 8 (bq 5 k (t + 1)) ∧ bq 5 k (t + 1) ≤ 16 := by
    obtain ⟨e1, e2⟩ := recodeW5_eq _ (bw_lt 5 k (t + 1))
    have : (sd 5 (bw 5 k (t + 1))).natAbs = bq 5 k (t + 1) := by rw [hsd]; simp
    rw [e1, ← this]
    exact ⟨rfl, e2⟩
  rw [digitsW5]
  dsimp only
  rw [e.1]
  apply loopW5_rep hA hg hC secret hn hbig hB ht k t hs
  have := doubleN_rep hA hg hC (lookupW5_rep hA hg hC secret ht _ e.2) 5
  rw [nn] at this
  rw [natCast_zsmul]
  exact this

/-! ### The table of a public key -/

theorem publicPrecompW5_rep (hbig : 2 ^ 100 < D.n) {B : D.Pt} {K : Aff N} (h : ARep B K) :
    TableW5 B (K.publicPrecompW5 C A) := by
  have hB : B ≠ 0 := h.2.2.ne_zero
  have h1 : JRep (1 • B) (Jac.fromAffine C K) := by rw [one_nsmul]; exact JRep.fromAffine hg hC h
  have dbl : ∀ {m : Nat} {J : Jac N}, JRep (m • B) J → JRep ((2 * m) • B) (J.double A) := by
    intro m J hJ
    rw [two_mul, add_nsmul]
    exact double_rep hA hg hC hJ
  have inc : ∀ {m : Nat} {J : Jac N}, 1 < m → m ≤ 16 → JRep (m • B) J →
      JRep ((1 + m) • B) ((Jac.fromAffine C K).add A J) := by
    intro m J hm hm' hJ
    rw [add_nsmul]
    refine add_rep hA hg hC h1 hJ (.inl ?_)
    rw [← natCast_zsmul B 1, ← natCast_zsmul B m, Ne, zsmul_eq_iff hg hB]
    rintro ⟨c, hc⟩
    have : (D.n : Int) ∣ ((m - 1 : Nat) : Int) := ⟨-c, by push_cast [Nat.cast_sub hm.le]; rw [Int.mul_neg, ← hc]; push_cast; ring⟩
    rw [Int.natCast_dvd_natCast] at this
    have := Nat.le_of_dvd (by omega) this
    omega
  rw [Aff.publicPrecompW5]
  have h2 := dbl h1
  have h3 := inc (by decide) (by decide) h2
  have h4 := dbl h2
  have h5 := inc (by decide) (by decide) h4
  have h6 := dbl h3
  have h7 := inc (by decide) (by decide) h6
  have h8 := dbl h4
  have h9 := inc (by decide) (by decide) h8
  have h10 := dbl h5
  have h11 := inc (by decide) (by decide) h10
  have h12 := dbl h6
  have h13 := inc (by decide) (by decide) h12
  have h14 := dbl h7
  have h15 := inc (by decide) (by decide) h14
  have h16 := dbl h8
  refine ⟨rfl, fun j hj => ?_⟩
  have hj' : j = 0 ∨ j = 1 ∨ j = 2 ∨ j = 3 ∨ j = 4 ∨ j = 5 ∨ j = 6 ∨ j = 7 ∨ j = 8 ∨ j = 9 ∨ j = 10 ∨ j = 11 ∨ j = 12 ∨
      j = 13 ∨ j = 14 ∨ j = 15 := by omega
  rcases hj' with rfl | rfl | rfl | rfl | rfl | rfl | rfl | rfl | rfl | rfl | rfl | rfl | rfl | rfl | rfl | rfl
  · exact h1
  · exact h2
  · exact h3
  · exact h4
  · exact h5
  · exact h6
  · exact h7
  · exact h8
  · exact h9
  · exact h10
  · exact h11
  · exact h12
  · exact h13
  · exact h14
  · exact h15
  · exact h16

/-! ### 7-bit windows -/

/-- The 7-bit table for the base point. -/
def TableW7 (rows : List (List (Aff N))) : Prop :=
  rows.length = 37 ∧ ∀ i < 37, RowW7 ((128 ^ i) • D.G) (rows.getD i [])

/-- The partial sum before digit `i`. -/
def psum (k i : Nat) : Int := k - 128 ^ i * bq 7 k i

omit hA hC [Fact D.p.Prime] [Fact D.n.Prime] hg in
theorem psum_succ (k i : Nat) : psum k (i + 1) = psum k i + sd 7 (bw 7 k i) * 128 ^ i := by
  rw [psum, psum, sd_eq, pow_succ]
  norm_num
  ring

omit hA hC in
/-- One step never adds equal points. -/
theorem stepW7_ne (hlo : 2 ^ 256 - 2 ^ 224 ≤ D.n) (hhi : D.n < 2 ^ 256) (k i : Nat) (hk : k < 2 ^ 256) (hi : i < 37) :
    psum k i • D.G ≠ (sd 7 (bw 7 k i) * 128 ^ i) • D.G ∨ (sd 7 (bw 7 k i) * 128 ^ i : Int) • D.G = 0 := by
  by_cases hs0 : sd 7 (bw 7 k i) = 0
  · right; rw [hs0]; simp
  left
  rw [Ne, zsmul_eq_iff hg (G_ne hg)]
  have hle : (sd 7 (bw 7 k i)).natAbs ≤ 64 := (recodeW7_eq _ (bw_lt 7 k i)).2
  have hsd := sd_eq 7 k i
  obtain ⟨b1, b2⟩ := bq_bounds 7 k i
  have e128 : (128 : Nat) ^ i = 2 ^ (7 * i) := by rw [Nat.pow_mul]
  have e128' : (128 : Int) ^ i = ((2 ^ (7 * i) : Nat) : Int) := by rw [← e128]; push_cast; rfl
  by_cases hi36 : i = 36
  · subst hi36
    have hq : bq 7 k 37 = 0 := by rw [bq]; omega
    rw [hq] at hsd
    rw [psum, hsd, e128']
    rw [hsd] at hs0
    generalize hqq : bq 7 k 36 = q at *
    rw [show 2 ^ (7 * 36) = 2 ^ 252 by rfl] at *
    rintro ⟨m, hm⟩
    have hq16 : q ≤ 16 := by omega
    have hm0 : m < 1 := by
      by_contra hc
      have : (D.n : Int) * 1 ≤ D.n * m := Int.mul_le_mul_of_nonneg_left (by omega) (by omega)
      omega
    have hm1 : -2 < m := by
      by_contra hc
      have : (D.n : Int) * m ≤ D.n * (-2) := Int.mul_le_mul_of_nonneg_left (by omega) (by omega)
      omega
    have : m = 0 ∨ m = -1 := by omega
    rcases this with rfl | rfl <;> omega
  · have hpow : 2 ^ (7 * i) ≤ 2 ^ 245 := Nat.pow_le_pow_right (by decide) (by omega)
    have hpos : 0 < 2 ^ (7 * i) := Nat.two_pow_pos _
    rw [psum, e128']
    generalize sd 7 (bw 7 k i) = s at *
    generalize 2 ^ (7 * i) = T at *
    clear hsd e128' e128
    rintro ⟨m, hm⟩
    have h1 : s * (T : Int) ≤ 64 * T := Int.mul_le_mul_of_nonneg_right (by omega) (by omega)
    have h2 : -64 * (T : Int) ≤ s * T := Int.mul_le_mul_of_nonneg_right (by omega) (by omega)
    have h3 : s * (T : Int) ≤ -1 * T ∨ 1 * (T : Int) ≤ s * T := by
      rcases Int.lt_or_gt_of_ne hs0 with h | h
      · exact .inl (Int.mul_le_mul_of_nonneg_right (by omega) (by omega))
      · exact .inr (Int.mul_le_mul_of_nonneg_right (by omega) (by omega))
    have b1' : 2 * ((T : Int) * bq 7 k i) ≤ 2 * k + T := by exact_mod_cast b1
    have b2' : 2 * (k : Int) < 2 * (T * bq 7 k i) + T := by exact_mod_cast b2
    generalize (T : Int) * bq 7 k i = X at *
    generalize s * (T : Int) = Y at *
    have hm0 : m < 1 := by
      by_contra hc
      have : (D.n : Int) * 1 ≤ D.n * m := Int.mul_le_mul_of_nonneg_left (by omega) (by omega)
      omega
    have hm1 : -1 < m := by
      by_contra hc
      have : (D.n : Int) * m ≤ D.n * (-1) := Int.mul_le_mul_of_nonneg_left (by omega) (by omega)
      omega
    have : m = 0 := by omega
    subst this
    omega

theorem loopW7_rep (secret : Bool) (hlo : 2 ^ 256 - 2 ^ 224 ≤ D.n) (hhi : D.n < 2 ^ 256) (k : Nat) (hk : k < 2 ^ 256)
    (m i : Nat) (him : i + m = 37) (rows : List (List (Aff N))) (hlen : rows.length = m)
    (hrows : ∀ j < m, RowW7 ((128 ^ (i + j)) • D.G) (rows.getD j [])) {J : Jac N} (hJ : JRep (psum k i • D.G) J) :
    JRep (psum k 37 • D.G)
      (loopW7 C A secret rows ((List.range' i m).map fun j => recodeW7 (BitVec.ofNat 8 (bw 7 k j))) J) := by
  induction m generalizing i rows J with
  | zero =>
    have : i = 37 := by omega
    subst this
    cases rows with
    | nil => exact hJ
    | cons => simp at hlen
  | succ m ih =>
    match rows, hlen with
    | row :: rows, hlen =>
      rw [List.range'_succ, List.map_cons]
      rw [loopW7]
      refine ih (i + 1) (by omega) rows (by simpa using hlen) ?_ ?_
      · intro j hj
        have := hrows (j + 1) (by omega)
        rw [show i + (j + 1) = i + 1 + j by omega] at this
        simpa using this
      · have hrow := hrows 0 (by omega)
        rw [Nat.add_zero, show (row :: rows).getD 0 [] = row by rfl] at hrow
        have ht := termW7_rep hA hg hC secret hrow (bw 7 k i) (bw_lt 7 k i)
        have e : sd 7 (bw 7 k i) • (128 ^ i) • D.G = (sd 7 (bw 7 k i) * 128 ^ i) • D.G := by
          rw [← natCast_zsmul, zz]; push_cast; rfl
        rw [e] at ht
        rw [psum_succ, add_zsmul]
        exact addAffine_rep hA hg hC hJ ht (stepW7_ne hg hlo hhi k i hk (by omega))

/-- `multiply_w7` computes the multiple of the base point. -/
theorem multiplyW7_rep (secret : Bool) (hlo : 2 ^ 256 - 2 ^ 224 ≤ D.n) (hhi : D.n < 2 ^ 256) {rows : List (List (Aff N))}
    (ht : TableW7 (D := D) rows) (s : Scalar N) (hs : s.toNat < 2 ^ 256) :
    JRep (s.toNat • D.G) (multiplyW7 C A secret s rows) := by
  unfold multiplyW7
  rw [boothRecodedW7_eq]
  generalize s.toNat = k at *
  have hend : psum k 37 = k := by
    have : bq 7 k 37 = 0 := by rw [bq]; omega
    rw [psum, this]; simp
  match rows, ht with
  | [], ht => exact absurd ht.1 (by simp)
  | row :: rows, ht =>
    rw [show List.range' 0 37 = 0 :: List.range' 1 36 from List.range'_succ, List.map_cons]
    dsimp only
    rw [← natCast_zsmul, ← hend]
    refine loopW7_rep hA hg hC secret hlo hhi k hs 36 1 rfl rows (by simpa using ht.1) ?_ ?_
    · intro j hj
      have := ht.2 (j + 1) (by omega)
      rw [Nat.add_comm 1 j]
      simpa using this
    · have hrow := ht.2 0 (by decide)
      rw [show (row :: rows).getD 0 [] = row by rfl, pow_zero, one_nsmul] at hrow
      have hT := termW7_rep hA hg hC secret hrow (bw 7 k 0) (bw_lt 7 k 0)
      rw [psum_succ, show psum k 0 = 0 by rw [psum, bq_zero]; simp, zero_add, pow_zero, mul_one]
      obtain ⟨e, hle⟩ := recodeW7_eq (bw 7 k 0) (bw_lt 7 k 0)
      have hdig : (recodeW7 (BitVec.ofNat 8 (bw 7 k 0))).1 = 0 ↔ sd 7 (bw 7 k 0) = 0 := by
        rw [e]
        dsimp only
        rw [← Int.natAbs_eq_zero, ← BitVec.toNat_inj, BitVec.toNat_ofNat, Nat.mod_eq_of_lt (by omega)]
        rfl
      generalize hTT : termW7 A secret row _ _ = T at *
      rw [feSelect]
      by_cases h0 : sd 7 (bw 7 k 0) = 0
      · rw [if_neg (by rw [not_not]; exact hdig.2 h0)]
        rw [h0, zero_zsmul] at hT ⊢
        rcases hT with ⟨-, rfl⟩ | hT
        · exact JRep.zero hg red_zero red_zero rfl
        · exact absurd rfl hT.2.2.ne_zero
      · rw [if_pos (fun h => h0 (hdig.1 h))]
        rcases hT with ⟨hz, rfl⟩ | hT
        · exfalso
          rw [zsmul_zero_iff hg (G_ne hg)] at hz
          have := Int.natAbs_dvd_natAbs.2 hz
          have := Nat.le_of_dvd (by omega) this
          simp only [Int.natAbs_natCast] at this
          omega
        · exact JRep.fromAffine hg hC hT

end

end Verif.Ec
