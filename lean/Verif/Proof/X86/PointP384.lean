import Verif.Proof.X86.SymPoint384
import Verif.Proof.X86.PointUse
import Verif.Proof.X86.FieldP384

/-! Generated by tools/gen_plan.py: the point routines of P-384 compute what the model says, operation by operation. -/
namespace Verif.X86.Sym
open Verif Verif.X86 Verif.Ec

set_option linter.unusedSimpArgs false

local notation "P384" => Spec.Nist.p384.p
local notation "R384" => 0x1000000000000000000000000000000000000000000000000000000000000000000000000000000000000000000000000

theorem mac384 {k a b z : Nat} (hk : k < 16) (h : macSpec (k + 16) a b z) : opSpec P384 R384 k a b z := by
  rw [macSpec, if_neg (by omega), Nat.add_sub_cancel, r384] at h
  exact h

theorem fok384 : 2 ^ (64 * 6) = R384 ∧ Nat.gcd P384 R384 = 1 ∧ P384 < R384 := by
  refine ⟨r384, ?_, ?_⟩ <;> decide

theorem Jadd384.ok {f : FieldAsm 6} (hf : f.Ok P384) (s : St) (p1 : Jac 6) (p2 : Jac 6) (h1 : JacRed P384 p1) (h2 : JacRed P384 p2)
    (h : Ready s [stackBlock s 50, outBlock s.rdi 18, inBlock s.rsi (jacWords p1), inBlock s.rdx (jacWords p2)]) :
    Runs Asm.p384Montjadd s fun s' => Holds s'.mem s.rdi (jacWords (montjadd f p1 p2)) ∧
      Untouched [stackBlock s 50, outBlock s.rdi 18, inBlock s.rsi (jacWords p1), inBlock s.rdx (jacWords p2)] s s' := by
  have F : FOk f P384 R384 := ⟨hf, fok384.1, fok384.2.1, fok384.2.2⟩
  obtain ⟨s', W, hr, hu, hb, hi, hc⟩ := callSegs2 table384_ok Jadd384.verified (jacWords_length p1) (jacWords_length p2) h
  refine ⟨_, s', hr, ?_, hu⟩
  have p1x : Ex P384 (vw W [0, 1, 2, 3, 4, 5]) p1.x := in_ex (k := 0) hi ([]) (eltWords p1.y ++ eltWords p1.z ++ eltWords p2.x ++ eltWords p2.y ++ eltWords p2.z) (by simp only [jacWords, affWords, List.append_assoc, List.nil_append, List.append_nil])
    (by simp [eltWords]) h1.x
  have p1y : Ex P384 (vw W [6, 7, 8, 9, 10, 11]) p1.y := in_ex (k := 6) hi (eltWords p1.x) (eltWords p1.z ++ eltWords p2.x ++ eltWords p2.y ++ eltWords p2.z) (by simp only [jacWords, affWords, List.append_assoc, List.nil_append, List.append_nil])
    (by simp [eltWords]) h1.y
  have p1z : Ex P384 (vw W [12, 13, 14, 15, 16, 17]) p1.z := in_ex (k := 12) hi (eltWords p1.x ++ eltWords p1.y) (eltWords p2.x ++ eltWords p2.y ++ eltWords p2.z) (by simp only [jacWords, affWords, List.append_assoc, List.nil_append, List.append_nil])
    (by simp [eltWords]) h1.z
  have p2x : Ex P384 (vw W [18, 19, 20, 21, 22, 23]) p2.x := in_ex (k := 18) hi (eltWords p1.x ++ eltWords p1.y ++ eltWords p1.z) (eltWords p2.y ++ eltWords p2.z) (by simp only [jacWords, affWords, List.append_assoc, List.nil_append, List.append_nil])
    (by simp [eltWords]) h2.x
  have p2y : Ex P384 (vw W [24, 25, 26, 27, 28, 29]) p2.y := in_ex (k := 24) hi (eltWords p1.x ++ eltWords p1.y ++ eltWords p1.z ++ eltWords p2.x) (eltWords p2.z) (by simp only [jacWords, affWords, List.append_assoc, List.nil_append, List.append_nil])
    (by simp [eltWords]) h2.y
  have p2z : Ex P384 (vw W [30, 31, 32, 33, 34, 35]) p2.z := in_ex (k := 30) hi (eltWords p1.x ++ eltWords p1.y ++ eltWords p1.z ++ eltWords p2.x ++ eltWords p2.y) ([]) (by simp only [jacWords, affWords, List.append_assoc, List.nil_append, List.append_nil])
    (by simp [eltWords]) h2.z
  simp only [Jadd384.claims, List.forall_mem_cons, Claim.Holds] at hc
  obtain ⟨c0, c1, c2, c3, c4, c5, c6, c7, c10, c11, c12, c13, c16, c19, c20, c21, r8, s8, t8, u8, a8, r9, s9, t9, u9, a9, r14, s14, t14, u14, a14, r15, s15, t15, u15, a15, r17, s17, t17, u17, a17, r18, s18, t18, u18, a18, r22, s22, t22, u22, a22, g1, g2, g3, g4, g5, r2, g6, g7, g8, g9, g10, r1, rD, x1, x2, x3, y1, y2, y3, z1, z2, ho, lb8, le8, lf8, lb9, le9, lf9, lb14, le14, lf14, lb15, le15, lf15, lb17, le17, lf17, lb18, le18, lf18, lb22, le22, lf22, l2, l1, l3, -⟩ := hc
  have v0 := F.amo p1z (mac384 (by decide) c0) (vw_lt6 hb _ rfl)
  have v1 := F.amo p2z (mac384 (by decide) c1) (vw_lt6 hb _ rfl)
  have v2 := F.mul (p2z.cg F.lt) p1y (mac384 (by decide) c2)
  have v3 := F.mul (p1z.cg F.lt) p2y (mac384 (by decide) c3)
  have v4 := F.mul v0 p2x (mac384 (by decide) c4)
  have v5 := F.mul v1 p1x (mac384 (by decide) c5)
  have v6 := F.mul v0 v3 (mac384 (by decide) c6)
  have v7 := F.mul v1 v2 (mac384 (by decide) c7)
  have v8 := F.sub v4 v5 (sub384_op hb rfl rfl lb8 le8 lf8 r8 s8 t8 u8 a8)
  have v9 := F.sub v6 v7 (sub384_op hb rfl rfl lb9 le9 lf9 r9 s9 t9 u9 a9)
  have v10 := F.amo v8 (mac384 (by decide) c10) (vw_lt6 hb _ rfl)
  have v11 := F.sqr v9 (mac384 (by decide) c11)
  have v12 := F.mul v10 v5 (mac384 (by decide) c12)
  have v13 := F.mul v10 v4 (mac384 (by decide) c13)
  have v14 := F.sub v11 v12 (sub384_op hb rfl rfl lb14 le14 lf14 r14 s14 t14 u14 a14)
  have v15 := F.sub v13 v12 (sub384_op hb rfl rfl lb15 le15 lf15 r15 s15 t15 u15 a15)
  have v16 := F.mul (v8.cg F.lt) p1z (mac384 (by decide) c16)
  have v17 := F.sub v14 v13 (sub384_op hb rfl rfl lb17 le17 lf17 r17 s17 t17 u17 a17)
  have v18 := F.sub v12 v17 (sub384_op hb rfl rfl lb18 le18 lf18 r18 s18 t18 u18 a18)
  have v19 := F.mul (v15.cg F.lt) v7 (mac384 (by decide) c19)
  have v20 := F.mul (v16.cg F.lt) p2z (mac384 (by decide) c20)
  have v21 := F.mul (v9.cg F.lt) v18 (mac384 (by decide) c21)
  have v22 := F.sub v21 v19 (sub384_op hb rfl rfl lb22 le22 lf22 r22 s22 t22 u22 a22)
  have e1 : W Jadd384.O1 = 0 ↔ vw W [12, 13, 14, 15, 16, 17] = 0 := by
    rw [g10, g8, g9, g6, g7]
    simp only [Nat.or_eq_zero_iff, vw, two64]
    omega
  have e2 : W Jadd384.O2 = 0 ↔ vw W [30, 31, 32, 33, 34, 35] = 0 := by
    rw [g5, g3, g1, g4, g2]
    simp only [Nat.or_eq_zero_iff, vw, two64]
    omega
  simp only [relValue, Term.value, vw_one] at r1 r2 rD
  have t1 : W Jadd384.N1 + W Jadd384.O1 = 18446744073709551616 * W Jadd384.n1 := by zify; linarith only [r1]
  have t2 : W Jadd384.N2 + W Jadd384.O2 = 18446744073709551616 * W Jadd384.n2 := by zify; linarith only [r2]
  have tD : W Jadd384.D + 18446744073709551615 * W Jadd384.n1 = 18446744073709551615 * W Jadd384.n2 + 18446744073709551616 * W Jadd384.v := by zify; linarith only [rD]
  obtain ⟨hx, hy, hz⟩ := jadd_endk p1x p1y p1z p2x p2y p2z v17 v22 v20 e1 e2 (hb _) (hb _) (hb _) (hb _) (hb _) l1 l2 l3
    t1 t2 tD x1 x2 x3 y1 y2 y3 z1 z2
  exact out_jac (k := 18) hb rfl ho rfl rfl rfl hx hy hz

theorem Jdbl384.ok {f : FieldAsm 6} (hf : f.Ok P384) (s : St) (p1 : Jac 6) (h1 : JacRed P384 p1)
    (h : Ready s [stackBlock s 49, outBlock s.rdi 18, inBlock s.rsi (jacWords p1)]) :
    Runs Asm.p384Montjdouble s fun s' => Holds s'.mem s.rdi (jacWords (montjdouble f p1)) ∧
      Untouched [stackBlock s 49, outBlock s.rdi 18, inBlock s.rsi (jacWords p1)] s s' := by
  have F : FOk f P384 R384 := ⟨hf, fok384.1, fok384.2.1, fok384.2.2⟩
  obtain ⟨s', W, hr, hu, hb, hi, hc⟩ := callSegs1 table384_ok Jdbl384.verified (jacWords_length p1) h
  refine ⟨_, s', hr, ?_, hu⟩
  have p1x : Ex P384 (vw W [0, 1, 2, 3, 4, 5]) p1.x := in_ex (k := 0) hi ([]) (eltWords p1.y ++ eltWords p1.z) (by simp only [jacWords, affWords, List.append_assoc, List.nil_append, List.append_nil])
    (by simp [eltWords]) h1.x
  have p1y : Ex P384 (vw W [6, 7, 8, 9, 10, 11]) p1.y := in_ex (k := 6) hi (eltWords p1.x) (eltWords p1.z) (by simp only [jacWords, affWords, List.append_assoc, List.nil_append, List.append_nil])
    (by simp [eltWords]) h1.y
  have p1z : Ex P384 (vw W [12, 13, 14, 15, 16, 17]) p1.z := in_ex (k := 12) hi (eltWords p1.x ++ eltWords p1.y) ([]) (by simp only [jacWords, affWords, List.append_assoc, List.nil_append, List.append_nil])
    (by simp [eltWords]) h1.z
  simp only [Jdbl384.claims, List.forall_mem_cons, Claim.Holds] at hc
  obtain ⟨c0, c1, c2, c4, c5, c6, c7, c8, c9, c11, c13, c14, c15, r3, s3, t3, u3, a3, r10, s10, t10, u10, a10, r12, s12, t12, u12, a12, ho, lb3, le3, lf3, lb10, le10, lf10, lb12, le12, lf12, -⟩ := hc
  have v0 := F.sqr p1z (mac384 (by decide) c0)
  have v1 := F.sqr p1y (mac384 (by decide) c1)
  have v2 := F.wad p1x v0 (mac384 (by decide) c2) (vw_lt6 hb _ rfl)
  have v3 := F.sub p1x v0 (sub384_op hb rfl rfl lb3 le3 lf3 r3 s3 t3 u3 a3)
  have v4 := F.mul v2 v3 (mac384 (by decide) c4)
  have v5 := F.add p1y p1z (mac384 (by decide) c5)
  have v6 := F.sqr v4 (mac384 (by decide) c6)
  have v7 := F.mul (p1x.cg F.lt) v1 (mac384 (by decide) c7)
  have v8 := F.sqr v5 (mac384 (by decide) c8)
  have v9 := F.c129 v7 v6 (mac384 (by decide) c9)
  have v10 := F.sub v8 v0 (sub384_op hb rfl rfl lb10 le10 lf10 r10 s10 t10 u10 a10)
  have v11 := F.sqr v1 (mac384 (by decide) c11)
  have v12 := F.sub v10 v1 (sub384_op hb rfl rfl lb12 le12 lf12 r12 s12 t12 u12 a12)
  have v13 := F.mul (v9.cg F.lt) v4 (mac384 (by decide) c13)
  have v14 := F.c41 v7 v9 (mac384 (by decide) c14)
  have v15 := F.c38 v13 v11 (mac384 (by decide) c15)
  exact out_jac (k := 18) hb rfl ho rfl rfl rfl v14.eq v15.eq v12.eq

end Verif.X86.Sym
