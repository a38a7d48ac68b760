import Verif.Spec.AsmPoint
import Verif.Proof.EcField

/-! The points of `Spec/AsmPoint.lean`, and those of the model. -/
namespace Verif.X86
open Verif Verif.Ec Verif.EcGroup

variable {D : Spec.Nist.Params} [Fact D.p.Prime] {N : Nat}

theorem IsJac.model (hN : D.p < 2 ^ (64 * N)) {P : D.Pt} {x y z : Nat} (h : IsJac D N P x y z) :
    ∃ J : Jac N, JRep P J ∧ J.x.toNat = x ∧ J.y.toNat = y ∧ J.z.toNat = z := by
  obtain ⟨⟨hx, hy, hz⟩, h⟩ := h
  have e : ∀ v, v < D.p → (BitVec.ofNat (64 * N) v).toNat = v := fun v hv => by
    rw [BitVec.toNat_ofNat, Nat.mod_eq_of_lt (hv.trans hN)]
  refine ⟨⟨BitVec.ofNat _ x, BitVec.ofNat _ y, BitVec.ofNat _ z⟩, ⟨?_, ?_, ?_, ?_⟩, e _ hx, e _ hy, e _ hz⟩
  · rwa [Red, e _ hx]
  · rwa [Red, e _ hy]
  · rwa [Red, e _ hz]
  · simp only [fe, e _ hx, e _ hy, e _ hz]
    rcases h with ⟨h1, h2⟩ | ⟨h1, h2, h3⟩
    · exact .inl ⟨h1, h2⟩
    · exact .inr ⟨h1, _, _, ⟨h2, h3⟩, (div_mul_cancel₀ _ (pow_ne_zero _ h1)).symm, (div_mul_cancel₀ _ (pow_ne_zero _ h1)).symm⟩

theorem IsJac.of {P : D.Pt} {J : Jac N} (h : JRep P J) : IsJac D N P J.x.toNat J.y.toNat J.z.toNat := by
  obtain ⟨hx, hy, hz, h⟩ := h
  refine ⟨⟨hx, hy, hz⟩, ?_⟩
  rcases h with ⟨h1, h2⟩ | ⟨h1, x, y, h2, h3, h4⟩
  · exact .inl ⟨h1, h2⟩
  · refine .inr ⟨h1, ?_⟩
    have e1 : ofMont D N J.x.toNat / ofMont D N J.z.toNat ^ 2 = x := by
      change fe D.p J.x / fe D.p J.z ^ 2 = x
      rw [h3]; field_simp
    have e2 : ofMont D N J.y.toNat / ofMont D N J.z.toNat ^ 3 = y := by
      change fe D.p J.y / fe D.p J.z ^ 3 = y
      rw [h4]; field_simp
    rw [e1, e2]
    exact h2

theorem IsAff.model (hN : D.p < 2 ^ (64 * N)) {P : D.Pt} {x y : Nat} (h : IsAff D N P x y) :
    ∃ A : Aff N, ARep P A ∧ A.x.toNat = x ∧ A.y.toNat = y := by
  obtain ⟨⟨hx, hy⟩, h⟩ := h
  have e : ∀ v, v < D.p → (BitVec.ofNat (64 * N) v).toNat = v := fun v hv => by
    rw [BitVec.toNat_ofNat, Nat.mod_eq_of_lt (hv.trans hN)]
  refine ⟨⟨BitVec.ofNat _ x, BitVec.ofNat _ y⟩, ⟨?_, ?_, ?_⟩, e _ hx, e _ hy⟩
  · rwa [Red, e _ hx]
  · rwa [Red, e _ hy]
  · simp only [fe, e _ hx, e _ hy]
    exact h

theorem JRep.red {P : D.Pt} {J : Jac N} (h : JRep P J) : JacRed D.p J := ⟨h.1, h.2.1, h.2.2.1⟩
theorem ARep.red {P : D.Pt} {J : Aff N} (h : ARep P J) : AffRed D.p J := ⟨h.1, h.2.1⟩

end Verif.X86
