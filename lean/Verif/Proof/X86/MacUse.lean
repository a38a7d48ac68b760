import Verif.Proof.X86.SymMac
import Verif.Proof.X86.SymUse

/-! Field operations: from the verdict of the symbolic executor to what they compute. -/
namespace Verif.X86.Sym
open Verif Verif.X86

theorem val_words {W : Nat → Nat} (h : ∀ i, W i < 2 ^ 64) : ∀ l : List Nat, val (l.map fun i => BitVec.ofNat 64 (W i)) = vw W l
  | [] => rfl
  | i :: l => by
    have h1 := h i
    rw [List.map_cons, val, val_words h l, vw, BitVec.toNat_ofNat, Nat.mod_eq_of_lt h1]
    rfl

/-- The words of the operands of an operation. -/
def macX (n1 : Nat) : List Nat := List.range' 0 n1
def macY (n1 n2 : Nat) : List Nat := List.range' n1 n2

theorem Mac.of (M : Mac) {hs : List (Nat × Hint)} {cs : List Claim} {Z : List Nat}
    (hv : verify [⟨.rsp, M.n1 + M.n2 + 1, 0, true⟩] [0] hs M.body cs = true)
    (hz : Claim.reg M.outs Z ∈ cs)
    (h : ∀ (s s' : St) (W : Nat → Nat), (∀ i, W i < 2 ^ 64) →
      (∀ c ∈ cs, c.Holds s s' [⟨.rsp, M.n1 + M.n2 + 1, 0, true⟩] W) →
      macSpec M.kind (vw W (macX M.n1)) (vw W (macY M.n1 M.n2)) (vw W Z))
    (hn : M.n1 + M.n2 + 1 < 100 := by decide) : M.Ok := by
  intro t x y hx hy ho hh
  have hl : (x ++ y ++ [0#64]).length = M.n1 + M.n2 + 1 := by
    simp only [List.length_append, List.length_cons, List.length_nil, hx, hy]
  have e : ((List.zip [(⟨.rsp, M.n1 + M.n2 + 1, 0, true⟩ : Arg)] [some (x ++ y ++ [0#64])]).map fun x => blockOf t x.1 x.2) =
      [⟨t.rsp, M.n1 + M.n2 + 1, true, some (x ++ y ++ [0#64])⟩] := by
    simp only [List.zip_cons_cons, List.zip_nil_left, List.map_cons, List.map_nil, blockOf, Arg.at']
    refine congrArg (· :: []) (congrArg (Block.mk · _ _ _) ?_)
    show t.rsp - 0#64 = _
    simp
  obtain ⟨t', W, h1, -, h3, h4, h5⟩ := verify_effs hv (s := t) (ws := [some (x ++ y ++ [0#64])]) rfl
    (by intro a ha; simp only [List.mem_cons, List.not_mem_nil, or_false] at ha; subst ha; dsimp only; omega)
    (by intro b hb; simp only [List.mem_cons, List.not_mem_nil, or_false] at hb; subst hb; exact ⟨_, rfl⟩)
    (by simp only [given, List.flatMap_cons, List.flatMap_nil, List.append_nil, List.getElem?_cons_zero, Option.getD_some, hl]; omega)
    (by
      rw [e]
      refine ⟨fun b hb => ?_, List.pairwise_singleton ..⟩
      simp only [List.mem_cons, List.not_mem_nil, or_false] at hb
      subst hb
      refine ⟨fun _ => ho, ?_, ?_⟩
      · rintro ws ⟨⟩
        exact hl
      · rintro ws ⟨⟩
        exact hh)
  have hg : given [some (x ++ y ++ [0#64])] [0] = x ++ y ++ [0#64] := by simp [given]
  have hX : vw W (macX M.n1) = val x := by
    rw [macX, ← hx]
    refine vw_val x 0 fun i hi => ?_
    rw [Nat.zero_add, h4 i (by rw [hg, hl]; omega)]
    simp only [hg]
    rw [List.getElem_append_left (by simp; omega), List.getElem_append_left hi]
  have hY : vw W (macY M.n1 M.n2) = val y := by
    rw [macY, ← hy]
    refine vw_val y M.n1 fun i hi => ?_
    rw [h4 (M.n1 + i) (by rw [hg, hl]; omega)]
    simp only [hg]
    rw [List.getElem_append_left (by simp; omega), List.getElem_append_right (by omega)]
    simp [hx]
  refine ⟨t', h1, ?_⟩
  have hz := h5 _ hz
  rw [show M.outs.map t'.get = Z.map fun i => BitVec.ofNat 64 (W i) from hz, val_words h3, ← hX, ← hY]
  exact h t t' W h3 h5

end Verif.X86.Sym
