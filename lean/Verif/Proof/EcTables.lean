import Verif.Model.EcCurves
import Verif.Proof.EcMult

/-!
The precomputed tables are the tables of the multiples of the base point: a check of every entry by the kernel.
-/
namespace Verif.Ec

open Bignum Spec.Nist EcGroup EcCard

section check

variable (p : Nat)

/-- `u = s + t` by the chord. -/
def chordOk (s t u : Nat × Nat) : Bool :=
  let d := sb p t.1 s.1
  let e := sb p t.2 s.2
  d % p ≠ 0 ∧ (u.1 + s.1 + t.1) * (d * d) % p = e * e % p ∧ (u.2 + s.2) * d % p = e * sb p s.1 u.1 % p

/-- `u = 2 t` by the tangent. -/
def dblOk (t u : Nat × Nat) : Bool :=
  let w := sb p (3 * (t.1 * t.1)) 3
  t.2 % p ≠ 0 ∧ (u.1 + 2 * t.1) * (4 * (t.2 * t.2)) % p = w * w % p ∧ (u.2 + t.2) * (2 * t.2) % p = w * sb p t.1 u.1 % p

/-- Each entry is the one before it plus `t`. -/
def addsOk (t : Nat × Nat) : Nat × Nat → List (Nat × Nat) → Bool
  | _, [] => true
  | s, u :: rest => chordOk p s t u && addsOk t u rest

/-- A row of multiples of its first entry. -/
def rowOk : List (Nat × Nat) → Bool
  | t :: u :: rest => dblOk p t u && addsOk p t u rest
  | _ => false

/-- The rows; each begins with the double of the last entry of the row before. -/
def rowsOk : List (List (Nat × Nat)) → Bool
  | [] => true
  | [r] => r.length == 64 && rowOk p r
  | r :: s :: rest => r.length == 64 && rowOk p r && dblOk p (r.getD 63 (0, 0)) (s.getD 0 (0, 0)) && rowsOk (s :: rest)

end check

section sound

variable {p : Nat} [Fact p.Prime] {b : ZMod p}

theorem dblOk_pt (h2 : (2 : ZMod p) ≠ 0) {P : (W b).Point} {t u : Nat × Nat} (h : IsPt P (t.1 : ZMod p) (t.2 : ZMod p))
    (hc : dblOk p t u = true) : IsPt (P + P) (u.1 : ZMod p) (u.2 : ZMod p) := by
  rw [dblOk, decide_eq_true_eq] at hc
  obtain ⟨c1, c2, c3⟩ := hc
  have c2 := (ZMod.natCast_eq_natCast_iff' _ _ p).2 c2
  have c3 := (ZMod.natCast_eq_natCast_iff' _ _ p).2 c3
  push_cast [sb_cast] at c2 c3
  exact h.dbl h2 (cast_eq_zero c1) (by linear_combination c2) (by linear_combination c3)

theorem chordOk_pt {P Q : (W b).Point} {s t u : Nat × Nat} (h : IsPt P (s.1 : ZMod p) (s.2 : ZMod p))
    (h' : IsPt Q (t.1 : ZMod p) (t.2 : ZMod p)) (hc : chordOk p s t u = true) :
    IsPt (P + Q) (u.1 : ZMod p) (u.2 : ZMod p) := by
  rw [chordOk, decide_eq_true_eq] at hc
  obtain ⟨c1, c2, c3⟩ := hc
  have c1 := cast_eq_zero c1
  have c2 := (ZMod.natCast_eq_natCast_iff' _ _ p).2 c2
  have c3 := (ZMod.natCast_eq_natCast_iff' _ _ p).2 c3
  push_cast [sb_cast] at c1 c2 c3
  exact h.add h' (fun e => c1 (by rw [e]; ring)) (by linear_combination c2) (by linear_combination c3)

/-- The entries of a row are the multiples of `B`. -/
def RowPt (B : (W b).Point) (row : List (Nat × Nat)) : Prop :=
  ∀ j < row.length, IsPt ((j + 1) • B) ((row.getD j (0, 0)).1 : ZMod p) ((row.getD j (0, 0)).2 : ZMod p)

theorem addsOk_pt {B : (W b).Point} {t : Nat × Nat} (ht : IsPt B (t.1 : ZMod p) (t.2 : ZMod p)) (s : Nat × Nat)
    (rest : List (Nat × Nat)) (m : Nat) (hs : IsPt (m • B) (s.1 : ZMod p) (s.2 : ZMod p)) (hc : addsOk p t s rest = true)
    (j : Nat) (hj : j < rest.length) :
    IsPt ((m + 1 + j) • B) ((rest.getD j (0, 0)).1 : ZMod p) ((rest.getD j (0, 0)).2 : ZMod p) := by
  induction rest generalizing s m j with
  | nil => simp at hj
  | cons u rest ih =>
    rw [addsOk, Bool.and_eq_true] at hc
    have hu := chordOk_pt hs ht hc.1
    have e : m • B + B = (m + 1) • B := (succ_nsmul B m).symm
    rw [e] at hu
    cases j with
    | zero => exact hu
    | succ j =>
      have := ih u (m + 1) hu hc.2 j (by simpa using hj)
      rw [show m + 1 + (j + 1) = m + 1 + 1 + j by omega]
      exact this

theorem rowOk_pt (h2 : (2 : ZMod p) ≠ 0) {B : (W b).Point} {row : List (Nat × Nat)}
    (ht : IsPt B ((row.getD 0 (0, 0)).1 : ZMod p) ((row.getD 0 (0, 0)).2 : ZMod p)) (hc : rowOk p row = true) :
    RowPt B row := by
  match row, hc with
  | t :: u :: rest, hc =>
    rw [rowOk, Bool.and_eq_true] at hc
    have ht : IsPt B (t.1 : ZMod p) (t.2 : ZMod p) := ht
    have hu := dblOk_pt h2 ht hc.1
    have e : B + B = 2 • B := (two_nsmul B).symm
    rw [e] at hu
    intro j hj
    match j with
    | 0 => rw [zero_add, one_nsmul]; exact ht
    | 1 => exact hu
    | j + 2 =>
      have := addsOk_pt ht u rest 2 hu hc.2 j (by simpa using hj)
      rw [show j + 2 + 1 = 2 + 1 + j by omega]
      exact this

theorem rowsOk_pt (h2 : (2 : ZMod p) ≠ 0) (rows : List (List (Nat × Nat))) {B : (W b).Point}
    (ht : IsPt B (((rows.getD 0 []).getD 0 (0, 0)).1 : ZMod p) (((rows.getD 0 []).getD 0 (0, 0)).2 : ZMod p))
    (hc : rowsOk p rows = true) (i : Nat) (hi : i < rows.length) :
    (rows.getD i []).length = 64 ∧ RowPt ((128 ^ i) • B) (rows.getD i []) := by
  induction rows generalizing B i with
  | nil => simp at hi
  | cons r rows ih =>
    have ht : IsPt B ((r.getD 0 (0, 0)).1 : ZMod p) ((r.getD 0 (0, 0)).2 : ZMod p) := ht
    cases rows with
    | nil =>
      rw [rowsOk, Bool.and_eq_true] at hc
      have : i = 0 := by simpa using hi
      subst this
      rw [pow_zero, one_nsmul]
      exact ⟨by simpa using hc.1, rowOk_pt h2 ht hc.2⟩
    | cons s rest =>
      rw [rowsOk, Bool.and_eq_true, Bool.and_eq_true, Bool.and_eq_true] at hc
      obtain ⟨⟨⟨hl, hr⟩, hd⟩, hc⟩ := hc
      have hl : r.length = 64 := by simpa using hl
      have hrow : RowPt B r := rowOk_pt h2 ht hr
      cases i with
      | zero => rw [pow_zero, one_nsmul]; exact ⟨hl, hrow⟩
      | succ i =>
        have h63 := dblOk_pt h2 (hrow 63 (by omega)) hd
        have := ih h63 hc i (by simpa using hi)
        have e : (128 ^ (i + 1)) • B = (128 ^ i) • ((63 + 1) • B + (63 + 1) • B) := by
          rw [← add_nsmul, ← mul_nsmul', pow_succ]
        rw [e]
        exact this

end sound

/-! ### P-256 -/

/-- The table without the Montgomery factor. -/
def plainRows (p ri : Nat) (rows : List (List (Nat × Nat))) : List (List (Nat × Nat)) :=
  rows.map fun r => r.map fun t => (t.1 * ri % p, t.2 * ri % p)

/-- `2^-256` modulo the field prime. -/
def ri256 : Nat := 0xfffffffe00000003fffffffd0000000200000001fffffffe0000000300000000

theorem p256_rows_ok : rowsOk p256.p (plainRows p256.p ri256 P256Precomp.rows) = true := by decide +kernel

theorem p256_rows_red : P256Precomp.rows.all (fun r => r.all fun t => t.1 < p256.p && t.2 < p256.p) = true := by
  decide +kernel

theorem p256_rows_first : ((plainRows p256.p ri256 P256Precomp.rows).getD 0 []).getD 0 (0, 0) = (p256.gx, p256.gy) := by
  decide +kernel

theorem p256_rows_length : P256Precomp.rows.length = 37 := by decide +kernel

theorem fe_ofNat {p : Nat} [Fact p.Prime] {N a ri : Nat} (ha : a < 2 ^ (64 * N)) (hr : ri * 2 ^ (64 * N) % p = 1 % p) :
    fe p (BitVec.ofNat (64 * N) a) = ((a * ri % p : Nat) : ZMod p) := by
  have hr := (ZMod.natCast_eq_natCast_iff' _ _ p).2 hr
  push_cast at hr
  rw [fe, BitVec.toNat_ofNat, Nat.mod_eq_of_lt ha, ZMod.natCast_mod, Nat.cast_mul]
  congr 1
  exact (eq_inv_of_mul_eq_one_left hr).symm

theorem map_getD {α β : Type} (f : α → β) (l : List α) (j : Nat) (h : j < l.length) (d : α) (d' : β) :
    (l.map f).getD j d' = f (l.getD j d) := by
  rw [List.getD_eq_getElem?_getD, List.getD_eq_getElem?_getD, List.getElem?_map, List.getElem?_eq_getElem h]
  rfl

theorem getD_mem' {α : Type} (l : List α) (j : Nat) (h : j < l.length) (d : α) : l.getD j d ∈ l := by
  rw [List.getD_eq_getElem?_getD, List.getElem?_eq_getElem h]
  exact List.getElem_mem h

theorem tableW7_p256 : TableW7 (D := p256) P256Precomp.table := by
  have hlen := p256_rows_length
  refine ⟨by rw [P256Precomp.table, List.length_map]; exact hlen, fun i hi => ?_⟩
  have hfirst := p256_rows_first
  obtain ⟨h1, h2⟩ := rowsOk_pt good_p256.two (plainRows p256.p ri256 P256Precomp.rows) (B := p256.G)
    (by rw [hfirst]; exact good_p256.G_pt) p256_rows_ok i (by rw [plainRows, List.length_map, hlen]; exact hi)
  have e1 : (plainRows p256.p ri256 P256Precomp.rows).getD i [] =
      (P256Precomp.rows.getD i []).map fun t => (t.1 * ri256 % p256.p, t.2 * ri256 % p256.p) :=
    map_getD _ _ _ (by rw [hlen]; exact hi) _ _
  have e2 : P256Precomp.table.getD i [] =
      (P256Precomp.rows.getD i []).map fun t => (⟨BitVec.ofNat _ t.1, BitVec.ofNat _ t.2⟩ : Aff 4) :=
    map_getD _ _ _ (by rw [hlen]; exact hi) _ _
  have hred := List.all_eq_true.1 p256_rows_red _ (getD_mem' P256Precomp.rows i (by rw [hlen]; exact hi) [])
  rw [e1] at h1 h2
  rw [e2]
  generalize P256Precomp.rows.getD i [] = r at *
  rw [List.length_map] at h1
  refine ⟨by rw [List.length_map]; exact h1, fun j hj => ?_⟩
  have h3 := h2 j (by rw [List.length_map, h1]; exact hj)
  rw [map_getD _ _ _ (by omega) (0, 0)] at h3
  rw [map_getD _ _ _ (by omega) (0, 0)]
  have hr := List.all_eq_true.1 hred _ (getD_mem' r j (by omega) (0, 0))
  generalize r.getD j (0, 0) = t at *
  rw [Bool.and_eq_true, decide_eq_true_eq, decide_eq_true_eq] at hr
  have hp : p256.p < 2 ^ (64 * 4) := by decide
  have hinv : ri256 * 2 ^ (64 * 4) % p256.p = 1 % p256.p := by decide +kernel
  refine ⟨?_, ?_, ?_⟩
  · show (BitVec.ofNat (64 * 4) t.1).toNat < p256.p
    rw [BitVec.toNat_ofNat, Nat.mod_eq_of_lt (hr.1.trans hp)]; exact hr.1
  · show (BitVec.ofNat (64 * 4) t.2).toNat < p256.p
    rw [BitVec.toNat_ofNat, Nat.mod_eq_of_lt (hr.2.trans hp)]; exact hr.2
  · show IsPt _ (fe p256.p (BitVec.ofNat (64 * 4) t.1)) (fe p256.p (BitVec.ofNat (64 * 4) t.2))
    rw [fe_ofNat (hr.1.trans hp) hinv, fe_ofNat (hr.2.trans hp) hinv]
    exact h3

/-! ### P-384 -/

/-- The same point in Jacobian coordinates. -/
def jeq (p : Nat) (s t : Nat × Nat × Nat) : Bool :=
  s.2.2 % p ≠ 0 ∧ t.2.2 % p ≠ 0 ∧ s.1 * t.2.2 ^ 2 % p = t.1 * s.2.2 ^ 2 % p ∧ s.2.1 * t.2.2 ^ 3 % p = t.2.1 * s.2.2 ^ 3 % p

theorem jeq_rep {p : Nat} [Fact p.Prime] {b : ZMod p} {P : (W b).Point} {s t : Nat × Nat × Nat}
    (h : Rep P (s.1 : ZMod p) (s.2.1 : ZMod p) (s.2.2 : ZMod p)) (hc : jeq p s t = true) :
    Rep P (t.1 : ZMod p) (t.2.1 : ZMod p) (t.2.2 : ZMod p) := by
  rw [jeq, decide_eq_true_eq] at hc
  obtain ⟨c1, c2, c3, c4⟩ := hc
  have c1 := cast_eq_zero c1
  have c2 := cast_eq_zero c2
  have c3 := (ZMod.natCast_eq_natCast_iff' _ _ p).2 c3
  have c4 := (ZMod.natCast_eq_natCast_iff' _ _ p).2 c4
  push_cast at c3 c4
  rcases h with ⟨h, -⟩ | ⟨-, x, y, hP, e1, e2⟩
  · exact absurd h c1
  · refine .inr ⟨c2, x, y, hP, ?_, ?_⟩
    · apply mul_right_cancel₀ (pow_ne_zero 2 c1)
      rw [← c3, e1]; ring
    · apply mul_right_cancel₀ (pow_ne_zero 3 c1)
      rw [← c4, e2]; ring

/-- Each entry is the one before it plus the base point. -/
def jaddsOk (p gx gy : Nat) : Nat × Nat × Nat → List (Nat × Nat × Nat) → Bool
  | _, [] => true
  | s, t :: rest =>
    match jadd p gx gy s with
    | none => false
    | some u => jeq p u t && jaddsOk p gx gy t rest

/-- The multiples from 1 on. -/
def jtableOk (p gx gy : Nat) : List (Nat × Nat × Nat) → Bool
  | s :: t :: rest => jeq p (gx, gy, 1) s && jeq p (jdbl p (gx, gy, 1)) t && jaddsOk p gx gy t rest
  | _ => false

theorem jaddsOk_rep {p : Nat} [Fact p.Prime] {b : ZMod p} {G : (W b).Point} {gx gy : Nat}
    (hG : IsPt G (gx : ZMod p) (gy : ZMod p)) (s : Nat × Nat × Nat) (rest : List (Nat × Nat × Nat)) (m : Nat)
    (hs : Rep (m • G) (s.1 : ZMod p) (s.2.1 : ZMod p) (s.2.2 : ZMod p)) (hc : jaddsOk p gx gy s rest = true) (j : Nat)
    (hj : j < rest.length) :
    Rep ((m + 1 + j) • G) ((rest.getD j (0, 0, 0)).1 : ZMod p) ((rest.getD j (0, 0, 0)).2.1 : ZMod p)
      ((rest.getD j (0, 0, 0)).2.2 : ZMod p) := by
  induction rest generalizing s m j with
  | nil => simp at hj
  | cons t rest ih =>
    rw [jaddsOk] at hc
    split at hc
    · cases hc
    rename_i u hu
    rw [Bool.and_eq_true] at hc
    have h1 := jeq_rep (jadd_rep hG hs hu) hc.1
    have e : m • G + G = (m + 1) • G := (succ_nsmul G m).symm
    rw [e] at h1
    cases j with
    | zero => exact h1
    | succ j =>
      have := ih t (m + 1) h1 hc.2 j (by simpa using hj)
      rw [show m + 1 + (j + 1) = m + 1 + 1 + j by omega]
      exact this

theorem jtableOk_rep {p : Nat} [Fact p.Prime] {b : ZMod p} (h2 : (2 : ZMod p) ≠ 0) {G : (W b).Point} {gx gy : Nat}
    (hG : IsPt G (gx : ZMod p) (gy : ZMod p)) (l : List (Nat × Nat × Nat)) (hc : jtableOk p gx gy l = true) (j : Nat)
    (hj : j < l.length) :
    Rep ((j + 1) • G) ((l.getD j (0, 0, 0)).1 : ZMod p) ((l.getD j (0, 0, 0)).2.1 : ZMod p)
      ((l.getD j (0, 0, 0)).2.2 : ZMod p) := by
  match l, hc with
  | s :: t :: rest, hc =>
    rw [jtableOk, Bool.and_eq_true, Bool.and_eq_true] at hc
    have h1 : Rep G (((gx, gy, 1) : Nat × Nat × Nat).1 : ZMod p) (((gx, gy, 1) : Nat × Nat × Nat).2.1 : ZMod p)
        (((gx, gy, 1) : Nat × Nat × Nat).2.2 : ZMod p) := by
      rw [Nat.cast_one]; exact Rep.of_affine hG
    have hs := jeq_rep h1 hc.1.1
    have ht := jeq_rep (jdbl_rep h2 h1) hc.1.2
    have e : G + G = 2 • G := (two_nsmul G).symm
    rw [e] at ht
    match j with
    | 0 => rw [zero_add, one_nsmul]; exact hs
    | 1 => exact ht
    | j + 2 =>
      have := jaddsOk_rep hG t rest 2 ht hc.2 j (by simpa using hj)
      rw [show j + 2 + 1 = 2 + 1 + j by omega]
      exact this

/-- `2^-384` modulo the field prime. -/
def ri384 : Nat := 0x14000000140000000c00000002fffffffcfffffffafffffffbfffffffdffffffebffffffd8ffffffe100000006

/-- The table without the Montgomery factor. -/
def plainPoints (p ri : Nat) (l : List (Nat × Nat × Nat)) : List (Nat × Nat × Nat) :=
  l.map fun t => (t.1 * ri % p, t.2.1 * ri % p, t.2.2 * ri % p)

theorem p384_table_ok : jtableOk p384.p p384.gx p384.gy (plainPoints p384.p ri384 P384Precomp.points) = true := by
  decide +kernel

theorem p384_points_red : P384Precomp.points.all (fun t => t.1 < p384.p && t.2.1 < p384.p && t.2.2 < p384.p) = true := by
  decide +kernel

theorem p384_points_length : P384Precomp.points.length = 16 := by decide +kernel

theorem tableW5_p384 : TableW5 (D := p384) p384.G P384Precomp.table := by
  have hlen := p384_points_length
  refine ⟨by rw [P384Precomp.table, List.length_map]; exact hlen, fun j hj => ?_⟩
  have h := jtableOk_rep good_p384.two good_p384.G_pt _ p384_table_ok j (by rw [plainPoints, List.length_map, hlen]; exact hj)
  rw [plainPoints, map_getD _ _ _ (by rw [hlen]; exact hj) (0, 0, 0)] at h
  rw [P384Precomp.table, map_getD _ _ _ (by rw [hlen]; exact hj) (0, 0, 0)]
  have hr := List.all_eq_true.1 p384_points_red _ (getD_mem' _ j (by rw [hlen]; exact hj) (0, 0, 0))
  generalize P384Precomp.points.getD j (0, 0, 0) = t at *
  rw [Bool.and_eq_true, Bool.and_eq_true, decide_eq_true_eq, decide_eq_true_eq, decide_eq_true_eq] at hr
  obtain ⟨⟨r1, r2⟩, r3⟩ := hr
  have hp : p384.p < 2 ^ (64 * 6) := by decide
  have hinv : ri384 * 2 ^ (64 * 6) % p384.p = 1 % p384.p := by decide +kernel
  have red : ∀ {a : Nat}, a < p384.p → Red p384.p (BitVec.ofNat (64 * 6) a : Elt 6) := by
    intro a ha
    show (BitVec.ofNat (64 * 6) a).toNat < p384.p
    rw [BitVec.toNat_ofNat, Nat.mod_eq_of_lt (ha.trans hp)]; exact ha
  refine ⟨red r1, red r2, red r3, ?_⟩
  show Rep _ (fe p384.p (BitVec.ofNat (64 * 6) t.1)) (fe p384.p (BitVec.ofNat (64 * 6) t.2.1))
    (fe p384.p (BitVec.ofNat (64 * 6) t.2.2))
  rw [fe_ofNat (r1.trans hp) hinv, fe_ofNat (r2.trans hp) hinv, fe_ofNat (r3.trans hp) hinv]
  exact h

/-! ### The constants -/

theorem fe_const {p : Nat} [Fact p.Prime] {N : Nat} {v : Elt N} {a : Nat} (h2 : (2 : ZMod p) ≠ 0)
    (h : v.toNat % p = a * 2 ^ (64 * N) % p) : fe p v = a := by
  apply fe_eq_of h2
  have := (ZMod.natCast_eq_natCast_iff' _ _ p).2 h
  rw [this]; push_cast; rfl

theorem fe_const_neg {p : Nat} [Fact p.Prime] {N : Nat} {v : Elt N} {a : Nat} (h2 : (2 : ZMod p) ≠ 0)
    (h : (v.toNat + a * 2 ^ (64 * N)) % p = 0 % p) : fe p v = -a := by
  apply fe_eq_of h2
  have := (ZMod.natCast_eq_natCast_iff' _ _ p).2 h
  push_cast at this
  linear_combination this

theorem constOk_p256 : ConstOk p256 curveP256 where
  a_red := by show _ < _; decide +kernel
  a := by exact_mod_cast fe_const_neg (a := 3) good_p256.two (by decide +kernel)
  b_red := by show _ < _; decide +kernel
  b := fe_const good_p256.two (by decide +kernel)
  one_red := by show _ < _; decide +kernel
  one := by exact_mod_cast fe_const (a := 1) good_p256.two (by decide +kernel)
  ord := ⟨by decide +kernel, by decide +kernel, by decide +kernel, by decide +kernel⟩
  p_lt := by decide

theorem constOk_p384 : ConstOk p384 curveP384 where
  a_red := by show _ < _; decide +kernel
  a := by exact_mod_cast fe_const_neg (a := 3) good_p384.two (by decide +kernel)
  b_red := by show _ < _; decide +kernel
  b := fe_const good_p384.two (by decide +kernel)
  one_red := by show _ < _; decide +kernel
  one := by exact_mod_cast fe_const (a := 1) good_p384.two (by decide +kernel)
  ord := ⟨by decide +kernel, by decide +kernel, by decide +kernel, by decide +kernel⟩
  p_lt := by decide

/-- What the rest of the proofs needs of a curve and of its constants. -/
structure CurveOk (D : Params) [Fact D.p.Prime] [Fact D.n.Prime] {N : Nat} (C : Curve N) : Prop where
  good : Good D
  const : ConstOk D C
  n_mod : 16 < D.n % 32
  n_big : 2 ^ 100 < D.n
  n_top : ∃ t, C.w5Start = 5 * (t + 1) ∧ D.n < 2 ^ (5 * (t + 1) + 4)
  base : ∀ A : Asm N, A.Ok D.p D.n → ∀ (secret : Bool) (s : Scalar N), s.toNat < D.n →
    JRep (s.toNat • D.G) (baseMultiply C A secret s)

theorem curveOk_p256 : CurveOk p256 curveP256 where
  good := good_p256
  const := constOk_p256
  n_mod := by decide
  n_big := by decide
  n_top := ⟨50, rfl, by decide⟩
  base := fun _ hA secret s _ =>
    multiplyW7_rep hA good_p256 constOk_p256 secret (by decide) (by decide) tableW7_p256 s s.isLt

theorem curveOk_p384 : CurveOk p384 curveP384 where
  good := good_p384
  const := constOk_p384
  n_mod := by decide
  n_big := by decide
  n_top := ⟨75, rfl, by decide⟩
  base := fun _ hA secret s hs =>
    multiplyW5_rep hA good_p384 constOk_p384 secret (by decide) (by decide) (t := 75) rfl (by decide) (G_ne good_p384)
      tableW5_p384 s hs

end Verif.Ec
