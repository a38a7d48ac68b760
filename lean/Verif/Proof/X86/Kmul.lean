import Verif.Proof.X86.SymRsa

/-! `bignum_kmul_16_32` and `bignum_ksqr_16_32`. -/
namespace Verif.X86.Sym
open Verif Verif.X86

theorem sq_lt {v n : Nat} (h : v < 2 ^ (64 * n)) : v * v < 2 ^ (64 * (2 * n)) := by
  rw [show 64 * (2 * n) = 64 * n + 64 * n by omega, Nat.pow_add]
  exact Nat.mul_lt_mul'' h h

/-- A carry that would exceed the whole is zero. -/
theorem lost {z c x N : Nat} {M : Int} (e : 1 * (z : Int) + (M * c + (-1 * ((x : Int) * (x : Int)) + 0)) = 0) (hM : M = N) (h : x * x < N) :
    z = x * x := by
  subst hM
  rw [← Int.natCast_mul x x] at e
  generalize x * x = v at *
  rcases Nat.eq_zero_or_pos c with rfl | hc
  · simp at e
    omega
  · have : N * 1 ≤ N * c := Nat.mul_le_mul_left _ hc
    have e' : z + N * c = v := by
      rw [← Int.natCast_mul] at e
      omega
    omega

theorem kmul16_ok (s : St) (x y : Words) (hx : x.length = 16) (hy : y.length = 16)
    (h : Ready s [stackBlock s 6, outBlock s.rdi 32, inBlock s.rsi x, inBlock s.rdx y]) :
    Runs Asm.bignumKmul1632 s fun s' => Holds s'.mem s.rdi (toWords 32 (val x * val y)) ∧
      Untouched [stackBlock s 6, outBlock s.rdi 32, inBlock s.rsi x, inBlock s.rdx y] s s' := by
  obtain ⟨s', W, hr, hu, hb, hX, hY, hc⟩ := call2 Kmul1632.verified hx hy h
  refine ⟨_, s', hr, ?_, hu⟩
  simp only [Kmul1632.claims, List.forall_mem_cons, Claim.Holds, relValue, Term.value] at hc
  obtain ⟨r1, ho, -⟩ := hc
  rw [show vw W Kmul1632.X = val x from hX, show vw W Kmul1632.Y = val y from hY] at r1
  refine out_holds hb rfl ho rfl ?_
  generalize vw W Kmul1632.Z = z at r1
  rw [← Int.natCast_mul] at r1
  omega

theorem ksqr16_ok (s : St) (x : Words) (hx : x.length = 16)
    (h : Ready s [stackBlock s 6, outBlock s.rdi 32, inBlock s.rsi x]) :
    Runs Asm.bignumKsqr1632 s fun s' => Holds s'.mem s.rdi (toWords 32 (val x * val x)) ∧
      Untouched [stackBlock s 6, outBlock s.rdi 32, inBlock s.rsi x] s s' := by
  obtain ⟨s', W, hr, hu, hb, hX, hc⟩ := call1 Ksqr1632.verified hx h
  refine ⟨_, s', hr, ?_, hu⟩
  simp only [Ksqr1632.claims, List.forall_mem_cons, Claim.Holds, relValue, Term.value, vw_one] at hc
  obtain ⟨r1, ho, -⟩ := hc
  rw [show vw W Ksqr1632.X = val x from hX] at r1
  refine out_holds hb rfl ho rfl ?_
  have hl := sq_lt (val_lt x)
  rw [hx] at hl
  exact lost r1 (by decide +kernel) hl

end Verif.X86.Sym
