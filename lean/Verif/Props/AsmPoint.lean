import Verif.Proof.X86.PointP256
import Verif.Proof.X86.PointGroup
import Verif.Proof.X86.ReadyOf
import Verif.Props.EcKeys

/-!
C62: the x86-64 machine code of the point routines of P-256.  `Asm.p256MontjX` is the `asm!` block of `p256_montjx.rs`, instruction by
instruction, with its macros expanded.

`IsJac p256 4 P x y z` and `IsAff p256 4 P x y` (`Spec/AsmPoint.lean`): the reduced numbers are Montgomery forms of Jacobian or of affine
coordinates of the point `P` of the curve, an element of Mathlib's group of points.  `Ready`, `Runs` and `Untouched` are as in
`Props/AsmField.lean`.
-/
namespace Verif.Props
open Verif Verif.X86 Verif.X86.Sym Verif.Ec Verif.EcGroup Verif.EcCard
open Verif.Spec.Nist (p256)

/-- The words of Jacobian coordinates. -/
abbrev jw (N x y z : Nat) : Words := toWords N x ++ (toWords N y ++ toWords N z)

/-- `p256_montjadd`: the sum of two points, which are different unless both are the point at infinity. -/
theorem C62_montjadd_p256 (s : St) (P Q : p256.Pt) (hne : P ≠ Q ∨ P = 0) (x y z x' y' z' : Nat)
    (hP : IsJac p256 4 P x y z) (hQ : IsJac p256 4 Q x' y' z')
    (h : Ready s [stackBlock s 34, outBlock s.rdi 12, inBlock s.rsi (jw 4 x y z), inBlock s.rdx (jw 4 x' y' z')]) :
    Runs Asm.p256Montjadd s fun s' =>
      (∃ x y z, IsJac p256 4 (P + Q) x y z ∧ Holds s'.mem s.rdi (jw 4 x y z)) ∧
      Untouched [stackBlock s 34, outBlock s.rdi 12, inBlock s.rsi (jw 4 x y z), inBlock s.rdx (jw 4 x' y' z')] s s' := by
  obtain ⟨J, hJ, rfl, rfl, rfl⟩ := hP.model (by decide)
  obtain ⟨K, hK, rfl, rfl, rfl⟩ := hQ.model (by decide)
  obtain ⟨n, s', hr, hh, hu⟩ := Jadd256.ok refP256.f s J K (JRep.red hJ) (JRep.red hK) h
  exact ⟨n, s', hr, ⟨_, _, _, .of (montjadd_rep refP256.f good_p256.two hJ hK hne), hh⟩, hu⟩

/-- `p256_montjdouble`: the double of a point. -/
theorem C62_montjdouble_p256 (s : St) (P : p256.Pt) (x y z : Nat) (hP : IsJac p256 4 P x y z)
    (h : Ready s [stackBlock s 30, outBlock s.rdi 12, inBlock s.rsi (jw 4 x y z)]) :
    Runs Asm.p256Montjdouble s fun s' =>
      (∃ x y z, IsJac p256 4 (P + P) x y z ∧ Holds s'.mem s.rdi (jw 4 x y z)) ∧
      Untouched [stackBlock s 30, outBlock s.rdi 12, inBlock s.rsi (jw 4 x y z)] s s' := by
  obtain ⟨J, hJ, rfl, rfl, rfl⟩ := hP.model (by decide)
  obtain ⟨n, s', hr, hh, hu⟩ := Jdbl256.ok refP256.f s J (JRep.red hJ) h
  exact ⟨n, s', hr, ⟨_, _, _, .of (montjdouble_rep refP256.f good_p256.two hJ), hh⟩, hu⟩

/-- `p256_montjmixadd`: the sum of a point and a finite point in affine coordinates, different from the first. -/
theorem C62_montjmixadd_p256 (s : St) (P Q : p256.Pt) (hne : P ≠ Q) (x y z x' y' : Nat)
    (hP : IsJac p256 4 P x y z) (hQ : IsAff p256 4 Q x' y')
    (h : Ready s [stackBlock s 30, outBlock s.rdi 12, inBlock s.rsi (jw 4 x y z), inBlock s.rdx (toWords 4 x' ++ toWords 4 y')]) :
    Runs Asm.p256Montjmixadd s fun s' =>
      (∃ x y z, IsJac p256 4 (P + Q) x y z ∧ Holds s'.mem s.rdi (jw 4 x y z)) ∧
      Untouched [stackBlock s 30, outBlock s.rdi 12, inBlock s.rsi (jw 4 x y z), inBlock s.rdx (toWords 4 x' ++ toWords 4 y')]
        s s' := by
  obtain ⟨J, hJ, rfl, rfl, rfl⟩ := hP.model (by decide)
  obtain ⟨K, hK, rfl, rfl⟩ := hQ.model (by decide)
  obtain ⟨n, s', hr, hh, hu⟩ := Jmix256.ok refP256.f s J K (JRep.red hJ) (ARep.red hK) h
  refine ⟨n, s', hr, ⟨_, _, _, .of (montjmixadd_rep refP256.f good_p256.two (show one256.toNat < p256.p by decide) ?_ hJ hK hne), hh⟩, hu⟩
  have e : ((one256.toNat : Nat) : ZMod p256.p) = 2 ^ (64 * 4) := by
    have := (ZMod.natCast_eq_natCast_iff one256.toNat (2 ^ (64 * 4)) p256.p).2 (by unfold Nat.ModEq; decide)
    rw [this, Nat.cast_pow, Nat.cast_ofNat]
  rw [fe, e]
  exact mul_inv_cancel₀ (pow_ne_zero _ good_p256.two)

/-- The three routines compute what the model of the field-operation sequences says, on all reduced coordinates. -/
theorem C62_p256_points (f : FieldAsm 4) (hf : f.Ok p256.p) (s : St) (J K : Jac 4) (A : Aff 4) (hJ : JacRed p256.p J)
    (hK : JacRed p256.p K) (hA : AffRed p256.p A) :
    (Ready s [stackBlock s 34, outBlock s.rdi 12, inBlock s.rsi (jacWords J), inBlock s.rdx (jacWords K)] →
      Runs Asm.p256Montjadd s fun s' => Holds s'.mem s.rdi (jacWords (montjadd f J K))) ∧
    (Ready s [stackBlock s 30, outBlock s.rdi 12, inBlock s.rsi (jacWords J)] →
      Runs Asm.p256Montjdouble s fun s' => Holds s'.mem s.rdi (jacWords (montjdouble f J))) ∧
    (Ready s [stackBlock s 30, outBlock s.rdi 12, inBlock s.rsi (jacWords J), inBlock s.rdx (affWords A)] →
      Runs Asm.p256Montjmixadd s fun s' => Holds s'.mem s.rdi (jacWords (montjmixadd f curveP256.oneMont J A))) := by
  refine ⟨fun h => ?_, fun h => ?_, fun h => ?_⟩
  · obtain ⟨n, s', hr, hh, -⟩ := Jadd256.ok hf s J K hJ hK h
    exact ⟨n, s', hr, hh⟩
  · obtain ⟨n, s', hr, hh, -⟩ := Jdbl256.ok hf s J hJ h
    exact ⟨n, s', hr, hh⟩
  · obtain ⟨n, s', hr, hh, -⟩ := Jmix256.ok hf s J A hJ hA h
    exact ⟨n, s', hr, hh⟩

/-! States in which the hypotheses hold: the base point, its negative, and the point at infinity. -/

theorem ofMont_mont (v : Nat) : ofMont p256 4 (v * 2 ^ (64 * 4) % p256.p) = v := by
  rw [ofMont, ZMod.natCast_mod, Nat.cast_mul, Nat.cast_pow, Nat.cast_ofNat]
  exact mul_inv_cancel_right₀ (pow_ne_zero _ good_p256.two) _

/-- Montgomery forms of the coordinates of the base point. -/
def gxM : Nat := p256.gx * 2 ^ (64 * 4) % p256.p
def gyM : Nat := p256.gy * 2 ^ (64 * 4) % p256.p
def oneM : Nat := 1 * 2 ^ (64 * 4) % p256.p

theorem gxM_eq : ofMont p256 4 gxM = p256.gx := ofMont_mont _
theorem gyM_eq : ofMont p256 4 gyM = p256.gy := ofMont_mont _

theorem isAff_G : IsAff p256 4 p256.G gxM gyM := by
  refine ⟨by decide, ?_⟩
  rw [gxM_eq, gyM_eq]
  exact good_p256.G_pt

theorem isJac_of_aff {P : p256.Pt} {x y : Nat} (h : IsAff p256 4 P x y) : IsJac p256 4 P x y oneM := by
  refine ⟨⟨h.1.1, h.1.2, by decide⟩, .inr ?_⟩
  have e : ofMont p256 4 oneM = 1 := by rw [oneM, ofMont_mont]; exact Nat.cast_one
  rw [e, one_pow, one_pow, div_one, div_one]
  exact ⟨one_ne_zero, h.2⟩

theorem isAff_negG : ∃ Q : p256.Pt, p256.G ≠ Q ∧ IsAff p256 4 Q gxM (p256.p - gyM) := by
  have e : ofMont p256 4 (p256.p - gyM) = -(p256.gy : ZMod p256.p) := by
    have : p256.p - gyM = (p256.p - p256.gy) * 2 ^ (64 * 4) % p256.p := by decide
    rw [this, ofMont_mont, Nat.cast_sub (by decide), ZMod.natCast_self, zero_sub]
  obtain ⟨Q, hQ⟩ := exists_of_eqn (b := (p256.b : ZMod p256.p)) good_p256.two good_p256.three good_p256.b_sq
    (x := p256.gx) (y := -p256.gy) (by rw [neg_sq]; exact good_p256.G_pt.eqn)
  refine ⟨Q, ?_, by decide, ?_⟩
  · rintro rfl
    have := (good_p256.G_pt.inj hQ).2
    have h2 : (2 : ZMod p256.p) * p256.gy = 0 := by rw [two_mul]; nth_rewrite 1 [this]; exact neg_add_cancel _
    rcases mul_eq_zero.1 h2 with h | h
    · exact good_p256.two h
    · exact absurd ((ZMod.natCast_eq_zero_iff _ _).1 h) (by decide)
  · rw [gxM_eq, e]
    exact hQ

theorem isJac_zero : IsJac p256 4 0 oneM oneM 0 :=
  ⟨by decide, .inl ⟨by rw [ofMont, Nat.cast_zero, zero_mul], rfl⟩⟩

example : ∃ Q : p256.Pt, Q ≠ 0 ∧ p256.G ≠ Q ∧ Runs Asm.p256Montjadd (callSt (jw 4 gxM gyM oneM) (jw 4 gxM (p256.p - gyM) oneM)) fun s' =>
    ∃ x y z, IsJac p256 4 (p256.G + Q) x y z ∧ Holds s'.mem 0x1000 (jw 4 x y z) := by
  obtain ⟨Q, h1, h2⟩ := isAff_negG
  obtain ⟨n, s', hr, h, -⟩ := C62_montjadd_p256 _ _ _ (.inl h1) _ _ _ _ _ _ (isJac_of_aff isAff_G) (isJac_of_aff h2)
    (callSt_two _ _ (by decide) (by decide) (by decide) (by decide)).1
  exact ⟨Q, IsPt.ne_zero h2.2, h1, n, s', hr, h⟩
example := C62_montjadd_p256 _ _ _ (.inr rfl) _ _ _ _ _ _ isJac_zero (isJac_of_aff isAff_G)
    (callSt_two _ _ (by decide) (by decide) (by decide) (by decide)).1
example := C62_montjdouble_p256 _ _ _ _ _ (isJac_of_aff isAff_G) (callSt_one _ _ (by decide) (by decide) (by decide)).1
example := C62_montjmixadd_p256 _ _ _ (IsPt.ne_zero isAff_G.2).symm _ _ _ _ _ isJac_zero isAff_G
    (callSt_two _ _ (by decide) (by decide) (by decide) (by decide)).1
example : ∃ f : FieldAsm 4, f.Ok p256.p ∧ JacRed p256.p (⟨3, 4, 5⟩ : Jac 4) ∧ AffRed p256.p (⟨3, 4⟩ : Aff 4) :=
  ⟨_, refP256.f, ⟨by decide, by decide, by decide⟩, ⟨by decide, by decide⟩⟩

end Verif.Props
