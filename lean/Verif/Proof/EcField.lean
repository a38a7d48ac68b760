import Verif.Model.Ec
import Verif.Proof.EcGroup

/-!
The field element a reduced Montgomery representation stands for, and what the point routines compute under the contracts of
the field operations.
-/
namespace Verif.Ec

open Verif.Spec.Nist Verif.EcGroup

variable {N : Nat} (p : Nat) [Fact p.Prime]

/-- The field element that `v` represents: `v / 2^(64N)`. -/
def fe (v : Elt N) : ZMod p := (v.toNat : ZMod p) * ((2 : ZMod p) ^ (64 * N))⁻¹

/-- Reduced. -/
def Red (v : Elt N) : Prop := v.toNat < p

variable {p}

section

variable (h2 : (2 : ZMod p) ≠ 0)
include h2

theorem R_ne (N : Nat) : (2 : ZMod p) ^ (64 * N) ≠ 0 := pow_ne_zero _ h2

theorem fe_mul_R (v : Elt N) : fe p v * (2 : ZMod p) ^ (64 * N) = v.toNat := by
  rw [fe, inv_mul_cancel_right₀ (R_ne h2 N)]

theorem fe_eq_of {v : Elt N} {a : ZMod p} (h : (v.toNat : ZMod p) = a * 2 ^ (64 * N)) : fe p v = a := by
  rw [fe, h, mul_inv_cancel_right₀ (R_ne h2 N)]

theorem fe_inj {u v : Elt N} (hu : Red p u) (hv : Red p v) (h : fe p u = fe p v) : u = v := by
  have e : (u.toNat : ZMod p) = v.toNat := by rw [← fe_mul_R h2, h, fe_mul_R h2]
  rw [ZMod.natCast_eq_natCast_iff', Nat.mod_eq_of_lt hu, Nat.mod_eq_of_lt hv] at e
  exact BitVec.eq_of_toNat_eq e

omit h2 in
theorem fe_zero : fe p (0 : Elt N) = 0 := by simp [fe]

omit h2 in
theorem red_zero : Red p (0 : Elt N) := by
  have := (Fact.out : p.Prime).pos
  simpa [Red] using this

theorem fe_eq_zero {v : Elt N} (hv : Red p v) : fe p v = 0 ↔ v = 0 := by
  constructor
  · intro h
    exact fe_inj h2 hv red_zero (h.trans fe_zero.symm)
  · rintro rfl; exact fe_zero

end

theorem cast_of_mod {a b : Nat} (h : a % p = b % p) : (a : ZMod p) = b := (ZMod.natCast_eq_natCast_iff' a b p).2 h

section ops

variable {f : FieldAsm N} (hf : f.Ok p) (h2 : (2 : ZMod p) ≠ 0)
include hf h2

theorem montmul_of {x y : Elt N} (h : x.toNat * y.toNat ≤ 2 ^ (64 * N) * p) :
    Red p (f.montmul x y) ∧ fe p (f.montmul x y) = fe p x * fe p y := by
  obtain ⟨h1, h3⟩ := hf.montmul x y h
  refine ⟨h1, fe_eq_of h2 ?_⟩
  have := cast_of_mod h3
  push_cast at this
  rw [← fe_mul_R h2 x, ← fe_mul_R h2 y] at this
  exact mul_right_cancel₀ (R_ne h2 N) (by rw [this]; ring)

theorem mmr {x y : Elt N} (hy : Red p y) : Red p (f.montmul x y) ∧ fe p (f.montmul x y) = fe p x * fe p y :=
  montmul_of hf h2 (Nat.mul_le_mul x.isLt.le (Nat.le_of_lt hy))

theorem mml {x y : Elt N} (hx : Red p x) : Red p (f.montmul x y) ∧ fe p (f.montmul x y) = fe p x * fe p y :=
  montmul_of hf h2 (by rw [Nat.mul_comm]; exact Nat.mul_le_mul y.isLt.le (Nat.le_of_lt hx))

theorem msq {x : Elt N} (hx : Red p x) : Red p (f.montsqr x) ∧ fe p (f.montsqr x) = fe p x ^ 2 := by
  obtain ⟨h1, h3⟩ := hf.montsqr x (Nat.mul_le_mul x.isLt.le (Nat.le_of_lt hx))
  refine ⟨h1, fe_eq_of h2 ?_⟩
  have := cast_of_mod h3
  push_cast at this
  rw [← fe_mul_R h2 x] at this
  exact mul_right_cancel₀ (R_ne h2 N) (by rw [this]; ring)

theorem amsq (x : Elt N) : fe p (f.amontsqr x) = fe p x ^ 2 := by
  apply fe_eq_of h2
  have := cast_of_mod (hf.amontsqr x)
  push_cast at this
  rw [← fe_mul_R h2 x] at this
  exact mul_right_cancel₀ (R_ne h2 N) (by rw [this]; ring)

theorem fsub {x y : Elt N} (hx : Red p x) (hy : Red p y) : Red p (f.sub x y) ∧ fe p (f.sub x y) = fe p x - fe p y := by
  obtain ⟨h1, h3⟩ := hf.sub x y hx hy
  refine ⟨h1, fe_eq_of h2 ?_⟩
  rw [← Nat.mod_eq_of_lt hx] at h3
  have := cast_of_mod h3
  push_cast at this
  rw [sub_mul, fe_mul_R h2, fe_mul_R h2]
  linear_combination this

theorem fadd {x y : Elt N} (hx : Red p x) (hy : Red p y) : Red p (f.add x y) ∧ fe p (f.add x y) = fe p x + fe p y := by
  have h3 := hf.add x y hx hy
  refine ⟨by rw [Red, h3]; exact Nat.mod_lt _ (Fact.out : p.Prime).pos, fe_eq_of h2 ?_⟩
  rw [h3, add_mul, fe_mul_R h2, fe_mul_R h2, ZMod.natCast_mod]
  push_cast; rfl

theorem fweakadd {x y : Elt N} (hx : Red p x) (hy : Red p y) : fe p (f.weakadd x y) = fe p x + fe p y := by
  apply fe_eq_of h2
  have := cast_of_mod (hf.weakadd x y hx hy)
  rw [add_mul, fe_mul_R h2, fe_mul_R h2, this]
  push_cast; rfl

theorem fcmsub129 {x y : Elt N} (hx : Red p x) (hy : Red p y) :
    Red p (f.cmsub129 x y) ∧ fe p (f.cmsub129 x y) = 12 * fe p x - 9 * fe p y := by
  obtain ⟨h1, h3⟩ := hf.cmsub129 x y hx hy
  refine ⟨h1, fe_eq_of h2 ?_⟩
  have := cast_of_mod h3
  push_cast at this
  rw [sub_mul, mul_assoc, mul_assoc, fe_mul_R h2, fe_mul_R h2]
  linear_combination this

theorem fcmsub41 {x y : Elt N} (hx : Red p x) (hy : Red p y) :
    Red p (f.cmsub41 x y) ∧ fe p (f.cmsub41 x y) = 4 * fe p x - fe p y := by
  obtain ⟨h1, h3⟩ := hf.cmsub41 x y hx hy
  refine ⟨h1, fe_eq_of h2 ?_⟩
  have := cast_of_mod h3
  push_cast at this
  rw [sub_mul, mul_assoc, fe_mul_R h2, fe_mul_R h2]
  linear_combination this

theorem fcmsub38 {x y : Elt N} (hx : Red p x) (hy : Red p y) :
    Red p (f.cmsub38 x y) ∧ fe p (f.cmsub38 x y) = 3 * fe p x - 8 * fe p y := by
  obtain ⟨h1, h3⟩ := hf.cmsub38 x y hx hy
  refine ⟨h1, fe_eq_of h2 ?_⟩
  have := cast_of_mod h3
  push_cast at this
  rw [sub_mul, mul_assoc, mul_assoc, fe_mul_R h2, fe_mul_R h2]
  linear_combination this

theorem fneg {x : Elt N} (hx : Red p x) : Red p (f.neg x) ∧ fe p (f.neg x) = -fe p x := by
  have h3 := hf.neg x hx
  refine ⟨by rw [Red, h3]; exact Nat.mod_lt _ (Fact.out : p.Prime).pos, fe_eq_of h2 ?_⟩
  rw [h3, ZMod.natCast_mod, Nat.cast_sub (Nat.le_of_lt hx), ZMod.natCast_self, neg_mul, fe_mul_R h2]
  ring

theorem ftomont (x : Elt N) : Red p (f.tomont x) ∧ fe p (f.tomont x) = x.toNat := by
  have h3 := hf.tomont x
  refine ⟨by rw [Red, h3]; exact Nat.mod_lt _ (Fact.out : p.Prime).pos, fe_eq_of h2 ?_⟩
  rw [h3, ZMod.natCast_mod]
  push_cast; rfl

theorem fdemont {x : Elt N} (hx : Red p x) : Red p (f.demont x) ∧ ((f.demont x).toNat : ZMod p) = fe p x := by
  obtain ⟨h1, h3⟩ := hf.demont x hx
  refine ⟨h1, ?_⟩
  rw [← Nat.mod_eq_of_lt hx] at h3
  have := cast_of_mod h3
  push_cast at this
  rw [fe, ← this, mul_inv_cancel_right₀ (R_ne h2 N)]

omit h2 in
theorem finv (x : Elt N) : Red p (f.inv x) ∧ ((f.inv x).toNat : ZMod p) = ((x.toNat : ZMod p))⁻¹ := by
  obtain ⟨h1, h3⟩ := hf.inv x
  by_cases h : x.toNat % p = 0
  · have e : (x.toNat : ZMod p) = 0 := (ZMod.natCast_eq_zero_iff _ _).2 (Nat.dvd_of_mod_eq_zero h)
    rw [Red, h3 h, e]
    refine ⟨(Fact.out : p.Prime).pos, by simp⟩
  · obtain ⟨k1, k2⟩ := h1 h
    refine ⟨k1, ?_⟩
    have : ((x.toNat * (f.inv x).toNat : Nat) : ZMod p) = (1 : Nat) := cast_of_mod (by
      rw [k2, Nat.mod_eq_of_lt (Fact.out : p.Prime).one_lt])
    push_cast at this
    exact (eq_inv_of_mul_eq_one_right this)

end ops

/-! ### Points -/

variable {b : ZMod p}

/-- The Jacobian triple is reduced and stands for the point `P`. -/
def JRep (P : (W b).Point) (J : Jac N) : Prop :=
  Red p J.x ∧ Red p J.y ∧ Red p J.z ∧ Rep P (fe p J.x) (fe p J.y) (fe p J.z)

/-- The affine pair is reduced and stands for the finite point `P`. -/
def ARep (P : (W b).Point) (A : Aff N) : Prop := Red p A.x ∧ Red p A.y ∧ IsPt P (fe p A.x) (fe p A.y)

section points

variable {f : FieldAsm N} (hf : f.Ok p) (h2 : (2 : ZMod p) ≠ 0)
include hf h2

omit hf in
theorem JRep.z_zero {P : (W b).Point} {J : Jac N} (h : JRep P J) : J.z = 0 ↔ P = 0 := by
  rw [← fe_eq_zero h2 h.2.2.1, h.2.2.2.zero_iff]

theorem montjadd_rep {P Q : (W b).Point} {J K : Jac N} (hP : JRep P J) (hQ : JRep Q K) (hne : P ≠ Q ∨ P = 0) :
    JRep (P + Q) (montjadd f J K) := by
  obtain ⟨x1, y1, z1, r1⟩ := hP
  obtain ⟨x2, y2, z2, r2⟩ := hQ
  have hz1 := (fe_eq_zero h2 z1).symm.trans r1.zero_iff
  have hz2 := (fe_eq_zero h2 z2).symm.trans r2.zero_iff
  rw [montjadd]
  by_cases c1 : J.z ≠ 0 ∧ K.z = 0
  · rw [if_pos c1, hz2.1 c1.2, add_zero]
    exact ⟨x1, y1, z1, r1⟩
  by_cases c2 : J.z = 0 ∧ K.z ≠ 0
  · rw [if_neg c1, if_pos c2, hz1.1 c2.1, zero_add]
    exact ⟨x2, y2, z2, r2⟩
  rw [if_neg c1, if_neg c2]
  have a1 := amsq hf h2 J.z
  have a2 := amsq hf h2 K.z
  obtain ⟨c1', d1⟩ := mml hf h2 (x := K.z) (y := J.y) z2
  obtain ⟨c2', d2⟩ := mml hf h2 (x := J.z) (y := K.y) z1
  obtain ⟨c3, d3⟩ := mmr hf h2 (x := f.amontsqr J.z) (y := K.x) x2
  obtain ⟨c4, d4⟩ := mmr hf h2 (x := f.amontsqr K.z) (y := J.x) x1
  obtain ⟨c5, d5⟩ := mmr hf h2 (x := f.amontsqr J.z) c2'
  obtain ⟨c6, d6⟩ := mmr hf h2 (x := f.amontsqr K.z) c1'
  rw [a1] at d3 d5
  rw [a2] at d4 d6
  rw [d2] at d5
  rw [d1] at d6
  generalize f.montmul (f.amontsqr J.z) K.x = x2a at *
  generalize f.montmul (f.amontsqr K.z) J.x = x1a at *
  generalize f.montmul (f.amontsqr J.z) (f.montmul J.z K.y) = y2a at *
  generalize f.montmul (f.amontsqr K.z) (f.montmul K.z J.y) = y1a at *
  obtain ⟨c7, d7⟩ := fsub hf h2 c3 c4
  obtain ⟨c8, d8⟩ := fsub hf h2 c5 c6
  generalize f.sub x2a x1a = xd at *
  generalize f.sub y2a y1a = yd at *
  have a3 := amsq hf h2 xd
  obtain ⟨c9, d9⟩ := msq hf h2 c8
  obtain ⟨c10, d10⟩ := mmr hf h2 (x := f.amontsqr xd) c4
  obtain ⟨c11, d11⟩ := mmr hf h2 (x := f.amontsqr xd) c3
  rw [a3] at d10 d11
  generalize f.montmul (f.amontsqr xd) x1a = zzx1 at *
  generalize f.montmul (f.amontsqr xd) x2a = zzx2 at *
  generalize f.montsqr yd = ww at *
  obtain ⟨c12, d12⟩ := fsub hf h2 c9 c10
  obtain ⟨c13, d13⟩ := fsub hf h2 c11 c10
  obtain ⟨c14, d14⟩ := mml hf h2 (y := J.z) c7
  obtain ⟨c15, d15⟩ := fsub hf h2 c12 c11
  obtain ⟨c16, d16⟩ := fsub hf h2 c10 c15
  obtain ⟨c17, d17⟩ := mml hf h2 (y := y1a) c13
  obtain ⟨c18, d18⟩ := mml hf h2 (y := K.z) c14
  obtain ⟨c19, d19⟩ := mml hf h2 (y := f.sub zzx1 (f.sub (f.sub ww zzx1) zzx2)) c8
  obtain ⟨c20, d20⟩ := fsub hf h2 c19 c17
  refine ⟨c15, c20, c18, ?_⟩
  dsimp only
  rw [d20, d19, d17, d16, d13, d18, d14]
  have dX : fe p (f.sub (f.sub ww zzx1) zzx2) = fe p yd ^ 2 - fe p xd ^ 2 * fe p x1a - fe p xd ^ 2 * fe p x2a := by
    rw [d15, d12, d9, d10, d11]
  rw [d10, d11]
  by_cases hz : J.z = 0
  · have hKz : K.z = 0 := by
      by_contra hc; exact c2 ⟨hz, hc⟩
    rw [hz1.1 hz, hz2.1 hKz, add_zero, hz, fe_zero, mul_zero, zero_mul]
    exact Rep.of_zero _ _
  · have hKz : K.z ≠ 0 := by
      intro hc; exact c1 ⟨hz, hc⟩
    have hne' : P ≠ Q := by
      rcases hne with h | h
      · exact h
      · exact absurd (hz1.2 h) hz
    exact r1.add r2 (fun h => hz ((fe_eq_zero h2 z1).1 h)) (fun h => hKz ((fe_eq_zero h2 z2).1 h)) hne'
      (by rw [d4]; ring) (by rw [d3]; ring) (by rw [d6]; ring) (by rw [d5]; ring) d7 d8 dX

theorem montjdouble_rep {P : (W b).Point} {J : Jac N} (hP : JRep P J) : JRep (P + P) (montjdouble f J) := by
  obtain ⟨x1, y1, z1, r1⟩ := hP
  rw [montjdouble]
  obtain ⟨c1, d1⟩ := msq hf h2 z1
  obtain ⟨c2, d2⟩ := msq hf h2 y1
  obtain ⟨c3, d3⟩ := fsub hf h2 x1 c1
  have d4 := fweakadd hf h2 x1 c1
  obtain ⟨c5, d5⟩ := mmr hf h2 (x := f.weakadd J.x (f.montsqr J.z)) c3
  obtain ⟨c6, d6⟩ := fadd hf h2 y1 z1
  obtain ⟨c7, d7⟩ := mmr hf h2 (x := J.x) c2
  obtain ⟨c8, d8⟩ := msq hf h2 c5
  obtain ⟨c9, d9⟩ := msq hf h2 c6
  obtain ⟨c10, d10⟩ := fcmsub129 hf h2 c7 c8
  obtain ⟨c11, d11⟩ := fsub hf h2 c9 c1
  obtain ⟨c12, d12⟩ := msq hf h2 c2
  obtain ⟨c13, d13⟩ := mmr hf h2 (x := f.cmsub129 (f.montmul J.x (f.montsqr J.y))
    (f.montsqr (f.montmul (f.weakadd J.x (f.montsqr J.z)) (f.sub J.x (f.montsqr J.z))))) c5
  obtain ⟨c14, d14⟩ := fsub hf h2 c11 c2
  obtain ⟨c15, d15⟩ := fcmsub41 hf h2 c7 c10
  obtain ⟨c16, d16⟩ := fcmsub38 hf h2 c13 c12
  refine ⟨c15, c16, c14, ?_⟩
  dsimp only
  rw [d4, d3, d1] at d5
  refine r1.dbl h2 (x2p := fe p J.x ^ 2 - fe p J.z ^ 4) ?_ (hd := rfl) ?_ ?_ ?_
  · rfl
  · rw [d15, d10, d8, d7, d5, d2]; ring
  · rw [d16, d13, d12, d10, d8, d7, d5, d2]; ring
  · rw [d14, d11, d9, d6, d2, d1]; ring

theorem montjmixadd_rep {P Q : (W b).Point} {J : Jac N} {K : Aff N} {one : Elt N} (hone : Red p one) (hone' : fe p one = 1)
    (hP : JRep P J) (hQ : ARep Q K) (hne : P ≠ Q) : JRep (P + Q) (montjmixadd f one J K) := by
  obtain ⟨x1, y1, z1, r1⟩ := hP
  obtain ⟨x2, y2, r2⟩ := hQ
  have hz1 := (fe_eq_zero h2 z1).symm.trans r1.zero_iff
  rw [montjmixadd]
  by_cases hz : J.z = 0
  · rw [if_pos hz, hz1.1 hz, zero_add]
    refine ⟨x2, y2, hone, ?_⟩
    dsimp only
    rw [hone']
    exact Rep.of_affine r2
  rw [if_neg hz]
  have a1 := amsq hf h2 J.z
  obtain ⟨c2', d2⟩ := mml hf h2 (x := J.z) (y := K.y) z1
  obtain ⟨c3, d3⟩ := mmr hf h2 (x := f.amontsqr J.z) (y := K.x) x2
  obtain ⟨c5, d5⟩ := mmr hf h2 (x := f.amontsqr J.z) c2'
  rw [a1] at d3 d5
  rw [d2] at d5
  generalize f.montmul (f.amontsqr J.z) K.x = x2a at *
  generalize f.montmul (f.amontsqr J.z) (f.montmul J.z K.y) = y2a at *
  obtain ⟨c7, d7⟩ := fsub hf h2 c3 x1
  obtain ⟨c8, d8⟩ := fsub hf h2 c5 y1
  generalize f.sub x2a J.x = xd at *
  generalize f.sub y2a J.y = yd at *
  have a3 := amsq hf h2 xd
  obtain ⟨c9, d9⟩ := msq hf h2 c8
  obtain ⟨c10, d10⟩ := mmr hf h2 (x := f.amontsqr xd) x1
  obtain ⟨c11, d11⟩ := mmr hf h2 (x := f.amontsqr xd) c3
  rw [a3] at d10 d11
  generalize f.montmul (f.amontsqr xd) J.x = zzx1 at *
  generalize f.montmul (f.amontsqr xd) x2a = zzx2 at *
  generalize f.montsqr yd = ww at *
  obtain ⟨c12, d12⟩ := fsub hf h2 c9 c10
  obtain ⟨c13, d13⟩ := fsub hf h2 c11 c10
  obtain ⟨c14, d14⟩ := mml hf h2 (y := J.z) c7
  obtain ⟨c15, d15⟩ := fsub hf h2 c12 c11
  obtain ⟨c16, d16⟩ := fsub hf h2 c10 c15
  obtain ⟨c17, d17⟩ := mml hf h2 (y := J.y) c13
  obtain ⟨c19, d19⟩ := mml hf h2 (y := f.sub zzx1 (f.sub (f.sub ww zzx1) zzx2)) c8
  obtain ⟨c20, d20⟩ := fsub hf h2 c19 c17
  refine ⟨c15, c20, c14, ?_⟩
  dsimp only
  rw [d20, d19, d17, d16, d13, d14]
  have dX : fe p (f.sub (f.sub ww zzx1) zzx2) = fe p yd ^ 2 - fe p xd ^ 2 * fe p J.x - fe p xd ^ 2 * fe p x2a := by
    rw [d15, d12, d9, d10, d11]
  rw [d10, d11]
  exact r1.mixadd r2 (fun h => hz ((fe_eq_zero h2 z1).1 h)) hne (by rw [d3]; ring) (by rw [d5]; ring) d7 d8 dX

end points

end Verif.Ec
