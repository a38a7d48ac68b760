import Verif.Proof.X86.SymP256
import Verif.Proof.X86.MontEnd

/-! The routines for the field and the order of P-256. -/
namespace Verif.X86.Sym
open Verif Verif.X86

local notation "p256" => 0xffffffff00000001000000000000000000000000ffffffffffffffffffffffff
local notation "n256" => 0xffffffff00000000ffffffffffffffffbce6faada7179e84f3b9cac2fc632551

theorem vw_lt4 {W : Nat → Nat} (h : ∀ i, W i < 2 ^ 64) (l : List Nat) (hl : l.length = 4) : vw W l < 2 ^ 256 := by
  have := vw_lt h l
  rw [hl] at this
  exact this
theorem val_lt4 {x : Words} (hl : x.length = 4) : val x < 2 ^ 256 := by
  have := val_lt x
  rw [hl] at this
  exact this

theorem addP256_ok (s : St) (x y : Words) (hx : x.length = 4) (hy : y.length = 4) (xr : val x < p256) (yr : val y < p256)
    (h : Ready s [outBlock s.rdi 4, inBlock s.rsi x, inBlock s.rdx y]) :
    Runs Asm.bignumAddP256 s fun s' => Holds s'.mem s.rdi (toWords 4 ((val x + val y) % p256)) ∧
      Untouched [outBlock s.rdi 4, inBlock s.rsi x, inBlock s.rdx y] s s' := by
  obtain ⟨s', W, hr, hu, hb, hX, hY, hc⟩ := call2 AddP256.verified hx hy (Ready.stack0 h)
  refine ⟨_, s', hr, ?_, Untouched.stack0 hu⟩
  simp only [AddP256.claims, List.forall_mem_cons, Claim.Holds, relValue, Term.value, vw_one] at hc
  obtain ⟨r1, r2, a1, a2, ho, l1, l2, -⟩ := hc
  refine out_holds hb rfl ho rfl ?_
  rw [show vw W AddP256.X = val x from hX, show vw W AddP256.Y = val y from hY] at r1
  have hZ := vw_lt4 hb AddP256.Z rfl
  have hU := vw_lt4 hb AddP256.U rfl
  have hD := hb AddP256.D
  clear h hu hr ho hX hY
  by_cases e : W AddP256.D = 0
  · rw [e, Nat.zero_and] at a1 a2
    omega
  · have e : W AddP256.D = 18446744073709551615 := by omega
    rw [e, and_ones (by decide)] at a1 a2
    omega

theorem negP256_ok (s : St) (x : Words) (hx : x.length = 4) (xr : val x < p256)
    (h : Ready s [outBlock s.rdi 4, inBlock s.rsi x]) :
    Runs Asm.bignumNegP256 s fun s' => Holds s'.mem s.rdi (toWords 4 ((p256 - val x) % p256)) ∧
      Untouched [outBlock s.rdi 4, inBlock s.rsi x] s s' := by
  obtain ⟨s', W, hr, hu, hb, hX, hc⟩ := call1 NegP256.verified hx (Ready.stack0 h)
  refine ⟨_, s', hr, ?_, Untouched.stack0 hu⟩
  simp only [NegP256.claims, List.forall_mem_cons, Claim.Holds, relValue, Term.value, vw_one] at hc
  obtain ⟨o1, o2, o3, r1, r2, ho, l1, l2, -⟩ := hc
  refine out_holds hb rfl ho rfl ?_
  have hX : vw W NegP256.X = val x := hX
  have hz : W NegP256.O = 0 ↔ val x = 0 := by
    rw [o3, o2, o1, ← hX]
    simp only [Nat.or_eq_zero_iff, NegP256.X, vw, two64]
    omega
  rw [hX] at r2
  have hZ := vw_lt4 hb NegP256.Z rfl
  have hO := hb NegP256.O
  have hN := hb NegP256.N
  clear h hu hr ho hX o1 o2 o3
  by_cases e : val x = 0
  · rw [hz.mpr e] at r1
    omega
  · have : ¬ W NegP256.O = 0 := fun h => e (hz.mp h)
    omega

theorem modN256_ok (s : St) (x : Words) (hx : x.length = 4)
    (h : Ready s [outBlock s.rdi 4, inBlock s.rsi x]) :
    Runs Asm.bignumModN256 s fun s' => Holds s'.mem s.rdi (toWords 4 (val x % n256)) ∧
      Untouched [outBlock s.rdi 4, inBlock s.rsi x] s s' := by
  obtain ⟨s', W, hr, hu, hb, hX, hc⟩ := call1 ModN256.verified hx (Ready.stack0 h)
  refine ⟨_, s', hr, ?_, Untouched.stack0 hu⟩
  simp only [ModN256.claims, List.forall_mem_cons, Claim.Holds, relValue, Term.value, vw_one] at hc
  obtain ⟨r1, r2, ho, l1, l2, -⟩ := hc
  refine out_holds hb rfl ho rfl ?_
  rw [show vw W ModN256.X = val x from hX] at r1
  have hZ := vw_lt4 hb ModN256.Z rfl
  have hU := vw_lt4 hb ModN256.U rfl
  have hx := val_lt4 hx
  clear h hu hr ho hX
  by_cases e : W ModN256.c = 0
  · rw [e] at r1 r2
    omega
  · have e : W ModN256.c = 1 := by omega
    rw [e] at r1 r2
    omega

theorem demontP256_ok (s : St) (x : Words) (hx : x.length = 4) (xr : val x < p256)
    (h : Ready s [stackBlock s 1, outBlock s.rdi 4, inBlock s.rsi x]) :
    Runs Asm.bignumDemontP256 s fun s' => (∃ z, Holds s'.mem s.rdi (toWords 4 z) ∧ z < p256 ∧ z * 2 ^ 256 % p256 = val x) ∧
      Untouched [stackBlock s 1, outBlock s.rdi 4, inBlock s.rsi x] s s' := by
  obtain ⟨s', W, hr, hu, hb, hX, hc⟩ := call1 DemontP256.verified hx h
  refine ⟨_, s', hr, ?_, hu⟩
  simp only [DemontP256.claims, List.forall_mem_cons, Claim.Holds, relValue, Term.value] at hc
  obtain ⟨r1, ho, -⟩ := hc
  rw [show vw W DemontP256.X = val x from hX] at r1
  have hZ := vw_lt4 hb DemontP256.Z rfl
  have hM := vw_lt4 hb DemontP256.M rfl
  refine ⟨vw W DemontP256.Z, out_holds (n := 4) (r := .rdi) hb rfl ho rfl rfl, ?_⟩
  have e : 2 ^ 256 * vw W DemontP256.Z = val x + p256 * vw W DemontP256.M := by
    zify
    linarith only [r1]
  refine ⟨by linarith only [e, xr, hM], ?_⟩
  rw [Nat.mul_comm, e, Nat.add_mul_mod_self_left, Nat.mod_eq_of_lt xr]

theorem tomontP256_ok (s : St) (x : Words) (hx : x.length = 4)
    (h : Ready s [stackBlock s 4, outBlock s.rdi 4, inBlock s.rsi x]) :
    Runs Asm.bignumTomontP256 s fun s' => Holds s'.mem s.rdi (toWords 4 (val x * 2 ^ 256 % p256)) ∧
      Untouched [stackBlock s 4, outBlock s.rdi 4, inBlock s.rsi x] s s' := by
  obtain ⟨s', W, hr, hu, hb, hX, hc⟩ := call1 TomontP256.verified hx h
  refine ⟨_, s', hr, ?_, hu⟩
  simp only [TomontP256.claims, List.forall_mem_cons, Claim.Holds, relValue, Term.value, vw_one] at hc
  obtain ⟨r1, r2, r3, a1, a2, ho, l1, l2, -⟩ := hc
  refine out_holds hb rfl ho rfl ?_
  rw [show vw W TomontP256.X = val x from hX] at r1
  have hZ := vw_lt4 hb TomontP256.Z rfl
  have hU := vw_lt4 hb TomontP256.U rfl
  have hV := vw_lt4 hb TomontP256.V rfl
  have hM := vw_lt4 hb TomontP256.M rfl
  have hD := hb TomontP256.D
  have hx := val_lt4 hx
  clear h hu hr ho hX
  have e : (2 ^ 256 * (vw W TomontP256.V + 2 ^ 256 * W TomontP256.t) : Nat) =
      val x * 0x4fffffffdfffffffffffffffefffffffbffffffff0000000000000003 + p256 * vw W TomontP256.M := by
    zify
    linarith only [r1]
  have h2 : vw W TomontP256.V + 2 ^ 256 * W TomontP256.t < 2 * p256 := by linarith only [e, hx, hM]
  have e2 := mont_end e (z := vw W TomontP256.Z) (by
    clear e r1 hM hx
    split
    · have : W TomontP256.D = 18446744073709551615 := by clear r3; omega
      rw [this, and_ones (by decide)] at a1 a2
      omega
    · have : W TomontP256.D = 0 := by clear r3; omega
      rw [this, Nat.zero_and] at a1 a2
      omega) h2
  exact tomont_end (by decide) rfl e2.1 e2.2

theorem montP256_num {X Y V t M U D c Z : Nat} (hn : X * Y ≤ 2 ^ 256 * p256) (hV : V < 2 ^ 256) (hM : M < 2 ^ 256) (hU : U < 2 ^ 256) (hD : D < 2 ^ 64)
    (hc : c ≤ 1)
    (r1 : 2 ^ 256 * (V + 2 ^ 256 * t) = X * Y + p256 * M)
    (r2 : U + 2 ^ 256 * D + 2 ^ 256 * 2 ^ 64 * c + p256 = 2 ^ 256 * 2 ^ 64 + (V + 2 ^ 256 * t))
    (hz : Z = if c = 1 then U else V) : Z < p256 ∧ Z * 2 ^ 256 % p256 = X * Y % p256 := by
  generalize X * Y = N at *
  have h2 : V + 2 ^ 256 * t < 2 * p256 := by linarith only [r1, hn, hM]
  refine mont_end r1 ?_ h2
  clear r1 hn hM
  split at hz <;> split <;> omega

theorem montmulP256_ok (s : St) (x y : Words) (hx : x.length = 4) (hy : y.length = 4) (hn : val x * val y ≤ 2 ^ 256 * p256)
    (h : Ready s [stackBlock s 5, outBlock s.rdi 4, inBlock s.rsi x, inBlock s.rdx y]) :
    Runs Asm.bignumMontmulP256 s fun s' =>
      (∃ z, Holds s'.mem s.rdi (toWords 4 z) ∧ z < p256 ∧ z * 2 ^ 256 % p256 = val x * val y % p256) ∧
      Untouched [stackBlock s 5, outBlock s.rdi 4, inBlock s.rsi x, inBlock s.rdx y] s s' := by
  obtain ⟨s', W, hr, hu, hb, hX, hY, hc⟩ := call2 MontmulP256.verified hx hy h
  refine ⟨_, s', hr, ?_, hu⟩
  simp only [MontmulP256.claims, List.forall_mem_cons, Claim.Holds, relValue, Term.value, vw_one] at hc
  obtain ⟨r1, r2, hs, ho, l1, -⟩ := hc
  rw [show vw W MontmulP256.X = val x from hX, show vw W MontmulP256.Y = val y from hY] at r1
  exact ⟨_, out_holds (n := 4) (r := .rdi) hb rfl ho rfl rfl, montP256_num (t := W MontmulP256.t) hn (vw_lt4 hb MontmulP256.V rfl) (vw_lt4 hb MontmulP256.M rfl)
    (vw_lt4 hb MontmulP256.U rfl) (hb MontmulP256.D) l1 (by zify; linarith only [r1]) (by zify; linarith only [r2]) hs⟩

theorem montsqrP256_ok (s : St) (x : Words) (hx : x.length = 4) (hn : val x * val x ≤ 2 ^ 256 * p256)
    (h : Ready s [stackBlock s 6, outBlock s.rdi 4, inBlock s.rsi x]) :
    Runs Asm.bignumMontsqrP256 s fun s' =>
      (∃ z, Holds s'.mem s.rdi (toWords 4 z) ∧ z < p256 ∧ z * 2 ^ 256 % p256 = val x * val x % p256) ∧
      Untouched [stackBlock s 6, outBlock s.rdi 4, inBlock s.rsi x] s s' := by
  obtain ⟨s', W, hr, hu, hb, hX, hc⟩ := call1 MontsqrP256.verified hx h
  refine ⟨_, s', hr, ?_, hu⟩
  simp only [MontsqrP256.claims, List.forall_mem_cons, Claim.Holds, relValue, Term.value, vw_one] at hc
  obtain ⟨r1, r2, hs, ho, l1, -⟩ := hc
  rw [show vw W MontsqrP256.X = val x from hX] at r1
  exact ⟨_, out_holds (n := 4) (r := .rdi) hb rfl ho rfl rfl, montP256_num (t := W MontsqrP256.t) hn (vw_lt4 hb MontsqrP256.V rfl) (vw_lt4 hb MontsqrP256.M rfl)
    (vw_lt4 hb MontsqrP256.U rfl) (hb MontsqrP256.D) l1 (by zify; linarith only [r1]) (by zify; linarith only [r2]) hs⟩

end Verif.X86.Sym
