import Verif.Model.Ec
import Verif.Base.Words
import Verif.Spec.NistCurves

/-! Points of the NIST curves in memory. -/
namespace Verif.X86
open Verif Verif.Ec

/-- A field element as words. -/
def eltWords {N : Nat} (x : Elt N) : Words := toWords N x.toNat
/-- A point in Jacobian coordinates as words. -/
def jacWords {N : Nat} (p : Jac N) : Words := eltWords p.x ++ (eltWords p.y ++ eltWords p.z)
/-- A point in affine coordinates as words. -/
def affWords {N : Nat} (p : Aff N) : Words := eltWords p.x ++ eltWords p.y

/-- The coordinates are reduced. -/
structure JacRed {N : Nat} (p : Nat) (a : Jac N) : Prop where
  x : a.x.toNat < p
  y : a.y.toNat < p
  z : a.z.toNat < p
structure AffRed {N : Nat} (p : Nat) (a : Aff N) : Prop where
  x : a.x.toNat < p
  y : a.y.toNat < p

variable (D : Spec.Nist.Params) [Fact D.p.Prime]

/-- The residue that the Montgomery form `v`, of `N` words, stands for: `v · 2^{-64 N}`. -/
def ofMont (N v : Nat) : ZMod D.p := (v : ZMod D.p) * ((2 : ZMod D.p) ^ (64 * N))⁻¹

/-- The numbers `x`, `y`, `z` are reduced, and the Montgomery forms of Jacobian coordinates of the point `P`: either `z` stands
for zero and `P` is the point at infinity, or `P` has the affine coordinates `X / Z²`, `Y / Z³`. -/
def IsJac (N : Nat) (P : D.Pt) (x y z : Nat) : Prop :=
  (x < D.p ∧ y < D.p ∧ z < D.p) ∧
  ((ofMont D N z = 0 ∧ P = 0) ∨ (ofMont D N z ≠ 0 ∧
    ∃ h, P = .some (ofMont D N x / ofMont D N z ^ 2) (ofMont D N y / ofMont D N z ^ 3) h))

/-- The numbers `x`, `y` are reduced, and the Montgomery forms of the affine coordinates of `P`. -/
def IsAff (N : Nat) (P : D.Pt) (x y : Nat) : Prop :=
  (x < D.p ∧ y < D.p) ∧ ∃ h, P = .some (ofMont D N x) (ofMont D N y) h

end Verif.X86
