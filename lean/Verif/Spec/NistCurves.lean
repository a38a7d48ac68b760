import Mathlib.AlgebraicGeometry.EllipticCurve.Affine.Point
import Mathlib.Data.ZMod.Basic
import Mathlib.Algebra.Field.ZMod

/-!
The curves P-256 and P-384 of SP 800-186, section 3.2.1, over Mathlib's group of points of a Weierstrass curve.
-/
namespace Verif.Spec.Nist

/-- The domain parameters of a curve `y² = x³ - 3x + b` of prime order: `p`, `n`, `b`, and the base point. -/
structure Params where
  p : Nat
  n : Nat
  b : Nat
  gx : Nat
  gy : Nat

/-- P-256, SP 800-186, section 3.2.1.3. -/
def p256 : Params where
  p := 0xffffffff00000001000000000000000000000000ffffffffffffffffffffffff
  n := 0xffffffff00000000ffffffffffffffffbce6faada7179e84f3b9cac2fc632551
  b := 0x5ac635d8aa3a93e7b3ebbd55769886bc651d06b0cc53b0f63bce3c3e27d2604b
  gx := 0x6b17d1f2e12c4247f8bce6e563a440f277037d812deb33a0f4a13945d898c296
  gy := 0x4fe342e2fe1a7f9b8ee7eb4a7c0f9e162bce33576b315ececbb6406837bf51f5

/-- P-384, SP 800-186, section 3.2.1.4. -/
def p384 : Params where
  p := 0xfffffffffffffffffffffffffffffffffffffffffffffffffffffffffffffffeffffffff0000000000000000ffffffff
  n := 0xffffffffffffffffffffffffffffffffffffffffffffffffc7634d81f4372ddf581a0db248b0a77aecec196accc52973
  b := 0xb3312fa7e23ee7e4988e056be3f82d19181d9c6efe8141120314088f5013875ac656398d8a2ed19d2a85c8edd3ec2aef
  gx := 0xaa87ca22be8b05378eb1c71ef320ad746e1d3b628ba79b9859f741e082542a385502f25dbf55296c3a545e3872760ab7
  gy := 0x3617de4a96262c6f5d9e98bf9292dc29f8f41dbd289a147ce9da3113b5f0b8c00a60b1ce1d7e819d7a431d7c90ea0e5f

/-- The curve `y² = x³ - 3x + b`. -/
def W {F : Type} [Field F] (b : F) : WeierstrassCurve.Affine F := { a₁ := 0, a₂ := 0, a₃ := 0, a₄ := -3, a₆ := b }

variable (D : Params) [Fact D.p.Prime]

/-- The group of points of the curve. -/
abbrev Params.Pt : Type := (W (D.b : ZMod D.p)).Point

/-- `P` is the finite point whose coordinates are the residues of `x` and `y`. -/
def Params.Coords (P : D.Pt) (x y : Nat) : Prop := ∃ h, P = .some (x : ZMod D.p) (y : ZMod D.p) h

open Classical in
/-- The base point. -/
noncomputable def Params.G : D.Pt :=
  if h : (W (D.b : ZMod D.p)).Nonsingular (D.gx : ZMod D.p) (D.gy : ZMod D.p) then .some _ _ h else 0

end Verif.Spec.Nist
