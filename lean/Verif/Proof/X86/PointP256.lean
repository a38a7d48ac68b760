import Verif.Proof.X86.SymPoint256
import Verif.Proof.X86.PointUse
import Verif.Proof.X86.FieldP256

/-! Generated by tools/gen_plan.py: the point routines of P-256 compute what the model says, operation by operation. -/
namespace Verif.X86.Sym
open Verif Verif.X86 Verif.Ec

set_option linter.unusedSimpArgs false

local notation "P256" => Spec.Nist.p256.p
local notation "R256" => 2 ^ 256

theorem mac256 {k a b z : Nat} (hk : k < 16) (h : macSpec k a b z) : opSpec P256 R256 k a b z := by
  rw [macSpec, if_pos hk] at h
  exact h

theorem fok256 : 2 ^ (64 * 4) = R256 ∧ Nat.gcd P256 R256 = 1 ∧ P256 < R256 := by decide

/-- One in Montgomery form, p256_montjmixadd.rs:571-579. -/
def one256 : Elt 4 := 0xfffffffeffffffffffffffffffffffff000000000000000000000001

theorem Jadd256.ok {f : FieldAsm 4} (hf : f.Ok P256) (s : St) (p1 : Jac 4) (p2 : Jac 4) (h1 : JacRed P256 p1) (h2 : JacRed P256 p2)
    (h : Ready s [stackBlock s 34, outBlock s.rdi 12, inBlock s.rsi (jacWords p1), inBlock s.rdx (jacWords p2)]) :
    Runs Asm.p256Montjadd s fun s' => Holds s'.mem s.rdi (jacWords (montjadd f p1 p2)) ∧
      Untouched [stackBlock s 34, outBlock s.rdi 12, inBlock s.rsi (jacWords p1), inBlock s.rdx (jacWords p2)] s s' := by
  have F : FOk f P256 R256 := ⟨hf, fok256.1, fok256.2.1, fok256.2.2⟩
  obtain ⟨s', W, hr, hu, hb, hi, hc⟩ := callSegs2 table256_ok Jadd256.verified (jacWords_length p1) (jacWords_length p2) h
  refine ⟨_, s', hr, ?_, hu⟩
  have p1x : Ex P256 (vw W [0, 1, 2, 3]) p1.x := in_ex (k := 0) hi ([]) (eltWords p1.y ++ eltWords p1.z ++ eltWords p2.x ++ eltWords p2.y ++ eltWords p2.z) (by simp only [jacWords, affWords, List.append_assoc, List.nil_append, List.append_nil])
    (by simp [eltWords]) h1.x
  have p1y : Ex P256 (vw W [4, 5, 6, 7]) p1.y := in_ex (k := 4) hi (eltWords p1.x) (eltWords p1.z ++ eltWords p2.x ++ eltWords p2.y ++ eltWords p2.z) (by simp only [jacWords, affWords, List.append_assoc, List.nil_append, List.append_nil])
    (by simp [eltWords]) h1.y
  have p1z : Ex P256 (vw W [8, 9, 10, 11]) p1.z := in_ex (k := 8) hi (eltWords p1.x ++ eltWords p1.y) (eltWords p2.x ++ eltWords p2.y ++ eltWords p2.z) (by simp only [jacWords, affWords, List.append_assoc, List.nil_append, List.append_nil])
    (by simp [eltWords]) h1.z
  have p2x : Ex P256 (vw W [12, 13, 14, 15]) p2.x := in_ex (k := 12) hi (eltWords p1.x ++ eltWords p1.y ++ eltWords p1.z) (eltWords p2.y ++ eltWords p2.z) (by simp only [jacWords, affWords, List.append_assoc, List.nil_append, List.append_nil])
    (by simp [eltWords]) h2.x
  have p2y : Ex P256 (vw W [16, 17, 18, 19]) p2.y := in_ex (k := 16) hi (eltWords p1.x ++ eltWords p1.y ++ eltWords p1.z ++ eltWords p2.x) (eltWords p2.z) (by simp only [jacWords, affWords, List.append_assoc, List.nil_append, List.append_nil])
    (by simp [eltWords]) h2.y
  have p2z : Ex P256 (vw W [20, 21, 22, 23]) p2.z := in_ex (k := 20) hi (eltWords p1.x ++ eltWords p1.y ++ eltWords p1.z ++ eltWords p2.x ++ eltWords p2.y) ([]) (by simp only [jacWords, affWords, List.append_assoc, List.nil_append, List.append_nil])
    (by simp [eltWords]) h2.z
  simp only [Jadd256.claims, List.forall_mem_cons, Claim.Holds, relValue, Term.value, vw_one] at hc
  obtain ⟨c0, c1, c2, c3, c4, c5, c6, c7, c8, c9, c10, c11, c12, c13, c14, c15, c16, c17, c18, c19, c20, c21, c22, g1, g2, g3, r1, g4, g5, g6, r2, rD, x1, x2, x3, y1, y2, y3, z1, z2, ho, l1, l2, l3, -⟩ := hc
  have v0 := F.amo p1z (mac256 (by decide) c0) (vw_lt4 hb _ rfl)
  have v1 := F.amo p2z (mac256 (by decide) c1) (vw_lt4 hb _ rfl)
  have v2 := F.mul (p2z.cg F.lt) p1y (mac256 (by decide) c2)
  have v3 := F.mul (p1z.cg F.lt) p2y (mac256 (by decide) c3)
  have v4 := F.mul v0 p2x (mac256 (by decide) c4)
  have v5 := F.mul v1 p1x (mac256 (by decide) c5)
  have v6 := F.mul v0 v3 (mac256 (by decide) c6)
  have v7 := F.mul v1 v2 (mac256 (by decide) c7)
  have v8 := F.sub v4 v5 (mac256 (by decide) c8)
  have v9 := F.sub v6 v7 (mac256 (by decide) c9)
  have v10 := F.amo v8 (mac256 (by decide) c10) (vw_lt4 hb _ rfl)
  have v11 := F.sqr v9 (mac256 (by decide) c11)
  have v12 := F.mul v10 v5 (mac256 (by decide) c12)
  have v13 := F.mul v10 v4 (mac256 (by decide) c13)
  have v14 := F.sub v11 v12 (mac256 (by decide) c14)
  have v15 := F.sub v13 v12 (mac256 (by decide) c15)
  have v16 := F.mul (v8.cg F.lt) p1z (mac256 (by decide) c16)
  have v17 := F.sub v14 v13 (mac256 (by decide) c17)
  have v18 := F.sub v12 v17 (mac256 (by decide) c18)
  have v19 := F.mul (v15.cg F.lt) v7 (mac256 (by decide) c19)
  have v20 := F.mul (v16.cg F.lt) p2z (mac256 (by decide) c20)
  have v21 := F.mul (v9.cg F.lt) v18 (mac256 (by decide) c21)
  have v22 := F.sub v21 v19 (mac256 (by decide) c22)
  have e1 : W Jadd256.O1 = 0 ↔ vw W [8, 9, 10, 11] = 0 := by
    rw [g3, g1, g2]
    simp only [Nat.or_eq_zero_iff, vw, two64]
    omega
  have e2 : W Jadd256.O2 = 0 ↔ vw W [20, 21, 22, 23] = 0 := by
    rw [g6, g4, g5]
    simp only [Nat.or_eq_zero_iff, vw, two64]
    omega
  have t1 : W Jadd256.N1 + W Jadd256.O1 = 18446744073709551616 * W Jadd256.n1 := by zify; linarith only [r1]
  have t2 : W Jadd256.N2 + W Jadd256.O2 = 18446744073709551616 * W Jadd256.n2 := by zify; linarith only [r2]
  have tD : W Jadd256.D + 18446744073709551615 * W Jadd256.n1 = 18446744073709551615 * W Jadd256.n2 + 18446744073709551616 * W Jadd256.v := by zify; linarith only [rD]
  obtain ⟨hx, hy, hz⟩ := jadd_end p1x p1y p1z p2x p2y p2z v17 v22 v20 e1 e2 (hb _) (hb _) (hb _) (hb _) (hb _) l1 l2 l3
    t1 t2 tD x1 x2 x3 y1 y2 y3 z1 z2
  exact out_jac (k := 12) hb rfl ho rfl rfl rfl hx hy hz

theorem Jdbl256.ok {f : FieldAsm 4} (hf : f.Ok P256) (s : St) (p1 : Jac 4) (h1 : JacRed P256 p1)
    (h : Ready s [stackBlock s 30, outBlock s.rdi 12, inBlock s.rsi (jacWords p1)]) :
    Runs Asm.p256Montjdouble s fun s' => Holds s'.mem s.rdi (jacWords (montjdouble f p1)) ∧
      Untouched [stackBlock s 30, outBlock s.rdi 12, inBlock s.rsi (jacWords p1)] s s' := by
  have F : FOk f P256 R256 := ⟨hf, fok256.1, fok256.2.1, fok256.2.2⟩
  obtain ⟨s', W, hr, hu, hb, hi, hc⟩ := callSegs1 table256_ok Jdbl256.verified (jacWords_length p1) h
  refine ⟨_, s', hr, ?_, hu⟩
  have p1x : Ex P256 (vw W [0, 1, 2, 3]) p1.x := in_ex (k := 0) hi ([]) (eltWords p1.y ++ eltWords p1.z) (by simp only [jacWords, affWords, List.append_assoc, List.nil_append, List.append_nil])
    (by simp [eltWords]) h1.x
  have p1y : Ex P256 (vw W [4, 5, 6, 7]) p1.y := in_ex (k := 4) hi (eltWords p1.x) (eltWords p1.z) (by simp only [jacWords, affWords, List.append_assoc, List.nil_append, List.append_nil])
    (by simp [eltWords]) h1.y
  have p1z : Ex P256 (vw W [8, 9, 10, 11]) p1.z := in_ex (k := 8) hi (eltWords p1.x ++ eltWords p1.y) ([]) (by simp only [jacWords, affWords, List.append_assoc, List.nil_append, List.append_nil])
    (by simp [eltWords]) h1.z
  simp only [Jdbl256.claims, List.forall_mem_cons, Claim.Holds, relValue, Term.value, vw_one] at hc
  obtain ⟨c0, c1, c2, c3, c4, c5, c6, c7, c8, c9, c10, c11, c12, c13, c14, c15, ho, -⟩ := hc
  have v0 := F.sqr p1z (mac256 (by decide) c0)
  have v1 := F.sqr p1y (mac256 (by decide) c1)
  have v2 := F.sub p1x v0 (mac256 (by decide) c2)
  have v3 := F.wad p1x v0 (mac256 (by decide) c3) (vw_lt4 hb _ rfl)
  have v4 := F.mul v3 v2 (mac256 (by decide) c4)
  have v5 := F.add p1y p1z (mac256 (by decide) c5)
  have v6 := F.mul (p1x.cg F.lt) v1 (mac256 (by decide) c6)
  have v7 := F.sqr v4 (mac256 (by decide) c7)
  have v8 := F.sqr v5 (mac256 (by decide) c8)
  have v9 := F.c129 v6 v7 (mac256 (by decide) c9)
  have v10 := F.sub v8 v0 (mac256 (by decide) c10)
  have v11 := F.sqr v1 (mac256 (by decide) c11)
  have v12 := F.mul (v9.cg F.lt) v4 (mac256 (by decide) c12)
  have v13 := F.sub v10 v1 (mac256 (by decide) c13)
  have v14 := F.c41 v6 v9 (mac256 (by decide) c14)
  have v15 := F.c38 v12 v11 (mac256 (by decide) c15)
  exact out_jac (k := 12) hb rfl ho rfl rfl rfl v14.eq v15.eq v13.eq

theorem Jmix256.ok {f : FieldAsm 4} (hf : f.Ok P256) (s : St) (p1 : Jac 4) (p2 : Aff 4) (h1 : JacRed P256 p1) (h2 : AffRed P256 p2)
    (h : Ready s [stackBlock s 30, outBlock s.rdi 12, inBlock s.rsi (jacWords p1), inBlock s.rdx (affWords p2)]) :
    Runs Asm.p256Montjmixadd s fun s' => Holds s'.mem s.rdi (jacWords (montjmixadd f one256 p1 p2)) ∧
      Untouched [stackBlock s 30, outBlock s.rdi 12, inBlock s.rsi (jacWords p1), inBlock s.rdx (affWords p2)] s s' := by
  have F : FOk f P256 R256 := ⟨hf, fok256.1, fok256.2.1, fok256.2.2⟩
  obtain ⟨s', W, hr, hu, hb, hi, hc⟩ := callSegs2 table256_ok Jmix256.verified (jacWords_length p1) (affWords_length p2) h
  refine ⟨_, s', hr, ?_, hu⟩
  have p1x : Ex P256 (vw W [0, 1, 2, 3]) p1.x := in_ex (k := 0) hi ([]) (eltWords p1.y ++ eltWords p1.z ++ eltWords p2.x ++ eltWords p2.y) (by simp only [jacWords, affWords, List.append_assoc, List.nil_append, List.append_nil])
    (by simp [eltWords]) h1.x
  have p1y : Ex P256 (vw W [4, 5, 6, 7]) p1.y := in_ex (k := 4) hi (eltWords p1.x) (eltWords p1.z ++ eltWords p2.x ++ eltWords p2.y) (by simp only [jacWords, affWords, List.append_assoc, List.nil_append, List.append_nil])
    (by simp [eltWords]) h1.y
  have p1z : Ex P256 (vw W [8, 9, 10, 11]) p1.z := in_ex (k := 8) hi (eltWords p1.x ++ eltWords p1.y) (eltWords p2.x ++ eltWords p2.y) (by simp only [jacWords, affWords, List.append_assoc, List.nil_append, List.append_nil])
    (by simp [eltWords]) h1.z
  have p2x : Ex P256 (vw W [12, 13, 14, 15]) p2.x := in_ex (k := 12) hi (eltWords p1.x ++ eltWords p1.y ++ eltWords p1.z) (eltWords p2.y) (by simp only [jacWords, affWords, List.append_assoc, List.nil_append, List.append_nil])
    (by simp [eltWords]) h2.x
  have p2y : Ex P256 (vw W [16, 17, 18, 19]) p2.y := in_ex (k := 16) hi (eltWords p1.x ++ eltWords p1.y ++ eltWords p1.z ++ eltWords p2.x) ([]) (by simp only [jacWords, affWords, List.append_assoc, List.nil_append, List.append_nil])
    (by simp [eltWords]) h2.y
  simp only [Jmix256.claims, List.forall_mem_cons, Claim.Holds, relValue, Term.value, vw_one] at hc
  obtain ⟨c0, c1, c2, c3, c4, c5, c6, c7, c8, c9, c10, c11, c12, c13, c14, c15, c16, c17, g1, g2, g3, x3, y3, k0, k1, k2, k3, ho, -⟩ := hc
  have v0 := F.amo p1z (mac256 (by decide) c0) (vw_lt4 hb _ rfl)
  have v1 := F.mul (p1z.cg F.lt) p2y (mac256 (by decide) c1)
  have v2 := F.mul v0 p2x (mac256 (by decide) c2)
  have v3 := F.mul v0 v1 (mac256 (by decide) c3)
  have v4 := F.sub v2 p1x (mac256 (by decide) c4)
  have v5 := F.sub v3 p1y (mac256 (by decide) c5)
  have v6 := F.amo v4 (mac256 (by decide) c6) (vw_lt4 hb _ rfl)
  have v7 := F.sqr v5 (mac256 (by decide) c7)
  have v8 := F.mul v6 p1x (mac256 (by decide) c8)
  have v9 := F.mul v6 v2 (mac256 (by decide) c9)
  have v10 := F.sub v7 v8 (mac256 (by decide) c10)
  have v11 := F.sub v9 v8 (mac256 (by decide) c11)
  have v12 := F.mul (v4.cg F.lt) p1z (mac256 (by decide) c12)
  have v13 := F.sub v10 v9 (mac256 (by decide) c13)
  have v14 := F.sub v8 v13 (mac256 (by decide) c14)
  have v15 := F.mul (v11.cg F.lt) p1y (mac256 (by decide) c15)
  have v16 := F.mul (v5.cg F.lt) v14 (mac256 (by decide) c16)
  have v17 := F.sub v16 v15 (mac256 (by decide) c17)
  have e : W Jmix256.O = 0 ↔ vw W [8, 9, 10, 11] = 0 := by
    rw [g3, g1, g2]
    simp only [Nat.or_eq_zero_iff, vw, two64]
    omega
  have hz : vw W Jmix256.oz = if W Jmix256.O = 0 then one256.toNat else vw W [68, 69, 70, 71] := by
    simp only [Jmix256.oz, vw, two64, k0, k1, k2, k3]
    split <;> rfl
  obtain ⟨hx, hy, hz⟩ := jmix_end p1z p2x p2y v13 v17 v12 e x3 y3 hz
  exact out_jac (k := 12) hb rfl ho rfl rfl rfl hx hy hz

end Verif.X86.Sym
