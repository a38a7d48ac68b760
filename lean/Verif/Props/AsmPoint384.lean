import Verif.Proof.X86.PointP384
import Verif.Props.AsmPoint

/-!
C62: the x86-64 machine code of the point routines of P-384, as in `Props/AsmPoint.lean`.
-/
namespace Verif.Props
open Verif Verif.X86 Verif.X86.Sym Verif.Ec Verif.EcGroup Verif.EcCard
open Verif.Spec.Nist (p384)

set_option exponentiation.threshold 400

/-- `p384_montjadd`: the sum of two points, which are different unless both are the point at infinity. -/
theorem C62_montjadd_p384 (s : St) (P Q : p384.Pt) (hne : P ≠ Q ∨ P = 0) (x y z x' y' z' : Nat)
    (hP : IsJac p384 6 P x y z) (hQ : IsJac p384 6 Q x' y' z')
    (h : Ready s [stackBlock s 50, outBlock s.rdi 18, inBlock s.rsi (jw 6 x y z), inBlock s.rdx (jw 6 x' y' z')]) :
    Runs Asm.p384Montjadd s fun s' =>
      (∃ x y z, IsJac p384 6 (P + Q) x y z ∧ Holds s'.mem s.rdi (jw 6 x y z)) ∧
      Untouched [stackBlock s 50, outBlock s.rdi 18, inBlock s.rsi (jw 6 x y z), inBlock s.rdx (jw 6 x' y' z')] s s' := by
  obtain ⟨J, hJ, rfl, rfl, rfl⟩ := hP.model (by decide)
  obtain ⟨K, hK, rfl, rfl, rfl⟩ := hQ.model (by decide)
  obtain ⟨n, s', hr, hh, hu⟩ := Jadd384.ok refP384.f s J K (JRep.red hJ) (JRep.red hK) h
  exact ⟨n, s', hr, ⟨_, _, _, .of (montjadd_rep refP384.f good_p384.two hJ hK hne), hh⟩, hu⟩

/-- `p384_montjdouble`: the double of a point. -/
theorem C62_montjdouble_p384 (s : St) (P : p384.Pt) (x y z : Nat) (hP : IsJac p384 6 P x y z)
    (h : Ready s [stackBlock s 49, outBlock s.rdi 18, inBlock s.rsi (jw 6 x y z)]) :
    Runs Asm.p384Montjdouble s fun s' =>
      (∃ x y z, IsJac p384 6 (P + P) x y z ∧ Holds s'.mem s.rdi (jw 6 x y z)) ∧
      Untouched [stackBlock s 49, outBlock s.rdi 18, inBlock s.rsi (jw 6 x y z)] s s' := by
  obtain ⟨J, hJ, rfl, rfl, rfl⟩ := hP.model (by decide)
  obtain ⟨n, s', hr, hh, hu⟩ := Jdbl384.ok refP384.f s J (JRep.red hJ) h
  exact ⟨n, s', hr, ⟨_, _, _, .of (montjdouble_rep refP384.f good_p384.two hJ), hh⟩, hu⟩

/-- The two routines compute what the model of the field-operation sequences says, on all reduced coordinates. -/
theorem C62_p384_points (f : FieldAsm 6) (hf : f.Ok p384.p) (s : St) (J K : Jac 6) (hJ : JacRed p384.p J) (hK : JacRed p384.p K) :
    (Ready s [stackBlock s 50, outBlock s.rdi 18, inBlock s.rsi (jacWords J), inBlock s.rdx (jacWords K)] →
      Runs Asm.p384Montjadd s fun s' => Holds s'.mem s.rdi (jacWords (montjadd f J K))) ∧
    (Ready s [stackBlock s 49, outBlock s.rdi 18, inBlock s.rsi (jacWords J)] →
      Runs Asm.p384Montjdouble s fun s' => Holds s'.mem s.rdi (jacWords (montjdouble f J))) := by
  refine ⟨fun h => ?_, fun h => ?_⟩
  · obtain ⟨n, s', hr, hh, -⟩ := Jadd384.ok hf s J K hJ hK h
    exact ⟨n, s', hr, hh⟩
  · obtain ⟨n, s', hr, hh, -⟩ := Jdbl384.ok hf s J hJ h
    exact ⟨n, s', hr, hh⟩

/-! States in which the hypotheses hold: the base point, its negative, and the point at infinity. -/

theorem ofMont_mont384 (v : Nat) : ofMont p384 6 (v * 2 ^ (64 * 6) % p384.p) = v := by
  rw [ofMont, ZMod.natCast_mod, Nat.cast_mul, Nat.cast_pow, Nat.cast_ofNat]
  exact mul_inv_cancel_right₀ (pow_ne_zero _ good_p384.two) _

/-- Montgomery forms of the coordinates of the base point. -/
def gxM384 : Nat := p384.gx * 2 ^ (64 * 6) % p384.p
def gyM384 : Nat := p384.gy * 2 ^ (64 * 6) % p384.p
def oneM384 : Nat := 1 * 2 ^ (64 * 6) % p384.p

theorem gxM_eq384 : ofMont p384 6 gxM384 = p384.gx := ofMont_mont384 _
theorem gyM_eq384 : ofMont p384 6 gyM384 = p384.gy := ofMont_mont384 _

theorem isAff_G384 : IsAff p384 6 p384.G gxM384 gyM384 := by
  refine ⟨by decide, ?_⟩
  rw [gxM_eq384, gyM_eq384]
  exact good_p384.G_pt

theorem isJac_of_aff384 {P : p384.Pt} {x y : Nat} (h : IsAff p384 6 P x y) : IsJac p384 6 P x y oneM384 := by
  refine ⟨⟨h.1.1, h.1.2, by decide⟩, .inr ?_⟩
  have e : ofMont p384 6 oneM384 = 1 := by rw [oneM384, ofMont_mont384]; exact Nat.cast_one
  rw [e, one_pow, one_pow, div_one, div_one]
  exact ⟨one_ne_zero, h.2⟩

theorem isAff_negG384 : ∃ Q : p384.Pt, p384.G ≠ Q ∧ IsAff p384 6 Q gxM384 (p384.p - gyM384) := by
  have e : ofMont p384 6 (p384.p - gyM384) = -(p384.gy : ZMod p384.p) := by
    have : p384.p - gyM384 = (p384.p - p384.gy) * 2 ^ (64 * 6) % p384.p := by decide
    rw [this, ofMont_mont384, Nat.cast_sub (by decide), ZMod.natCast_self, zero_sub]
  obtain ⟨Q, hQ⟩ := exists_of_eqn (b := (p384.b : ZMod p384.p)) good_p384.two good_p384.three good_p384.b_sq
    (x := p384.gx) (y := -p384.gy) (by rw [neg_sq]; exact good_p384.G_pt.eqn)
  refine ⟨Q, ?_, by decide, ?_⟩
  · rintro rfl
    have := (good_p384.G_pt.inj hQ).2
    have h2 : (2 : ZMod p384.p) * p384.gy = 0 := by rw [two_mul]; nth_rewrite 1 [this]; exact neg_add_cancel _
    rcases mul_eq_zero.1 h2 with h | h
    · exact good_p384.two h
    · exact absurd ((ZMod.natCast_eq_zero_iff _ _).1 h) (by decide)
  · rw [gxM_eq384, e]
    exact hQ

theorem isJac_zero384 : IsJac p384 6 0 oneM384 oneM384 0 :=
  ⟨by decide, .inl ⟨by rw [ofMont, Nat.cast_zero, zero_mul], rfl⟩⟩

example : ∃ Q : p384.Pt, Q ≠ 0 ∧ p384.G ≠ Q ∧ Runs Asm.p384Montjadd (callSt (jw 6 gxM384 gyM384 oneM384) (jw 6 gxM384 (p384.p - gyM384) oneM384)) fun s' =>
    ∃ x y z, IsJac p384 6 (p384.G + Q) x y z ∧ Holds s'.mem 0x1000 (jw 6 x y z) := by
  obtain ⟨Q, h1, h2⟩ := isAff_negG384
  obtain ⟨n, s', hr, h, -⟩ := C62_montjadd_p384 _ _ _ (.inl h1) _ _ _ _ _ _ (isJac_of_aff384 isAff_G384) (isJac_of_aff384 h2)
    (callSt_two _ _ (by decide) (by decide) (by decide) (by decide)).1
  exact ⟨Q, IsPt.ne_zero h2.2, h1, n, s', hr, h⟩
example := C62_montjadd_p384 _ _ _ (.inr rfl) _ _ _ _ _ _ isJac_zero384 (isJac_of_aff384 isAff_G384)
    (callSt_two _ _ (by decide) (by decide) (by decide) (by decide)).1
example := C62_montjdouble_p384 _ _ _ _ _ (isJac_of_aff384 isAff_G384) (callSt_one _ _ (by decide) (by decide) (by decide)).1
example : ∃ f : FieldAsm 6, f.Ok p384.p ∧ JacRed p384.p (⟨3, 4, 5⟩ : Jac 6) :=
  ⟨_, refP384.f, ⟨by decide, by decide, by decide⟩⟩

end Verif.Props
