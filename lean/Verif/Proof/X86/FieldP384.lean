import Verif.Proof.X86.SymP384
import Verif.Proof.X86.MontEnd

/-! The routines for the field and the order of P-384. -/
namespace Verif.X86.Sym
open Verif Verif.X86

local notation "p384" => 0xfffffffffffffffffffffffffffffffffffffffffffffffffffffffffffffffeffffffff0000000000000000ffffffff
local notation "n384" => 0xffffffffffffffffffffffffffffffffffffffffffffffffc7634d81f4372ddf581a0db248b0a77aecec196accc52973
local notation "R384" => 0x1000000000000000000000000000000000000000000000000000000000000000000000000000000000000000000000000

set_option exponentiation.threshold 400 in
theorem r384 : 2 ^ 384 = R384 := by decide
set_option exponentiation.threshold 400 in
theorem vw_lt6 {W : Nat → Nat} (h : ∀ i, W i < 2 ^ 64) (l : List Nat) (hl : l.length = 6) : vw W l < R384 := by
  have := vw_lt h l
  rw [hl] at this
  exact this
set_option exponentiation.threshold 400 in
theorem val_lt6 {x : Words} (hl : x.length = 6) : val x < R384 := by
  have := val_lt x
  rw [hl] at this
  exact this

theorem addP384_ok (s : St) (x y : Words) (hx : x.length = 6) (hy : y.length = 6) (xr : val x < p384) (yr : val y < p384)
    (h : Ready s [outBlock s.rdi 6, inBlock s.rsi x, inBlock s.rdx y]) :
    Runs Asm.bignumAddP384 s fun s' => Holds s'.mem s.rdi (toWords 6 ((val x + val y) % p384)) ∧
      Untouched [outBlock s.rdi 6, inBlock s.rsi x, inBlock s.rdx y] s s' := by
  obtain ⟨s', W, hr, hu, hb, hX, hY, hc⟩ := call2 AddP384.verified hx hy (Ready.stack0 h)
  refine ⟨_, s', hr, ?_, Untouched.stack0 hu⟩
  simp only [AddP384.claims, List.forall_mem_cons, Claim.Holds, relValue, Term.value, vw_one] at hc
  obtain ⟨r1, r2, r3, r4, a1, a2, ho, l1, l2, l3, l4, l5, -⟩ := hc
  refine out_holds hb rfl ho rfl ?_
  rw [show vw W AddP384.X = val x from hX, show vw W AddP384.Y = val y from hY] at r1
  have hZ := vw_lt6 hb AddP384.Z rfl
  have hU := vw_lt6 hb AddP384.U rfl
  have hD := hb AddP384.D
  have hA := hb AddP384.A
  have hS := hb AddP384.S
  have hN := hb AddP384.N
  have e3 : W AddP384.b2 = W AddP384.b3 := by
    clear r1 r2 r4 a1 a2 h
    omega
  rw [e3] at r4
  clear h hu hr ho hX hY r3 e3
  by_cases e : W AddP384.D = 0
  · rw [e, Nat.zero_and] at a1
    have : W AddP384.S = 0 := by clear r1 r4; omega
    rw [a1, Nat.zero_and] at a2
    rw [e] at r1
    omega
  · have e : W AddP384.D = 18446744073709551615 := by clear r4; omega
    rw [e, and_ones (by decide)] at a1
    have : W AddP384.S = 0xffffffff00000001 := by clear r1 r4; omega
    rw [a1, this] at a2
    have a2 : W AddP384.A2 = 1 := a2
    rw [e] at r1
    omega

theorem negP384_ok (s : St) (x : Words) (hx : x.length = 6) (xr : val x < p384)
    (h : Ready s [outBlock s.rdi 6, inBlock s.rsi x]) :
    Runs Asm.bignumNegP384 s fun s' => Holds s'.mem s.rdi (toWords 6 ((p384 - val x) % p384)) ∧
      Untouched [outBlock s.rdi 6, inBlock s.rsi x] s s' := by
  obtain ⟨s', W, hr, hu, hb, hX, hc⟩ := call1 NegP384.verified hx (Ready.stack0 h)
  refine ⟨_, s', hr, ?_, Untouched.stack0 hu⟩
  simp only [NegP384.claims, List.forall_mem_cons, Claim.Holds, relValue, Term.value, vw_one] at hc
  obtain ⟨o1, o2, o3, o4, o5, r1, r2, ho, l1, l2, -⟩ := hc
  refine out_holds hb rfl ho rfl ?_
  have hX : vw W NegP384.X = val x := hX
  have hz : W NegP384.O = 0 ↔ val x = 0 := by
    rw [o5, o4, o3, o2, o1, ← hX]
    simp only [Nat.or_eq_zero_iff, NegP384.X, vw, two64]
    omega
  rw [hX] at r2
  have hZ := vw_lt6 hb NegP384.Z rfl
  have hO := hb NegP384.O
  have hN := hb NegP384.N
  clear h hu hr ho hX o1 o2 o3 o4 o5
  by_cases e : val x = 0
  · rw [hz.mpr e] at r1
    omega
  · have : ¬ W NegP384.O = 0 := fun h => e (hz.mp h)
    omega

theorem modN384_ok (s : St) (x : Words) (hx : x.length = 6)
    (h : Ready s [outBlock s.rdi 6, inBlock s.rsi x]) :
    Runs Asm.bignumModN384 s fun s' => Holds s'.mem s.rdi (toWords 6 (val x % n384)) ∧
      Untouched [outBlock s.rdi 6, inBlock s.rsi x] s s' := by
  obtain ⟨s', W, hr, hu, hb, hX, hc⟩ := call1 ModN384.verified hx (Ready.stack0 h)
  refine ⟨_, s', hr, ?_, Untouched.stack0 hu⟩
  simp only [ModN384.claims, List.forall_mem_cons, Claim.Holds, relValue, Term.value, vw_one] at hc
  obtain ⟨r1, r2, r3, r4, ho, l1, l2, l3, l4, l5, l6, -⟩ := hc
  refine out_holds hb rfl ho rfl ?_
  rw [show vw W ModN384.X = val x from hX] at r1
  have hZ := vw_lt6 hb ModN384.Z rfl
  have hU := vw_lt6 hb ModN384.U rfl
  have hN1 := hb ModN384.N1
  have hN2 := hb ModN384.N2
  have hx := val_lt6 hx
  have e1 : W ModN384.b1 = W ModN384.b2 := by
    clear r1 r3 r4 h
    omega
  have e2 : W ModN384.b3 = W ModN384.b4 := by
    clear r1 r2 r4 h
    omega
  rw [e1, e2] at r4
  clear h hu hr ho hX r2 r3 e1 e2
  by_cases e : W ModN384.c = 0
  · rw [e] at r1 r4
    omega
  · have e : W ModN384.c = 1 := by clear r1 r4; omega
    rw [e] at r1 r4
    omega

theorem demontP384_ok (s : St) (x : Words) (hx : x.length = 6) (xr : val x < p384)
    (h : Ready s [stackBlock s 2, outBlock s.rdi 6, inBlock s.rsi x]) :
    Runs Asm.bignumDemontP384 s fun s' => (∃ z, Holds s'.mem s.rdi (toWords 6 z) ∧ z < p384 ∧ z * 2 ^ 384 % p384 = val x) ∧
      Untouched [stackBlock s 2, outBlock s.rdi 6, inBlock s.rsi x] s s' := by
  obtain ⟨s', W, hr, hu, hb, hX, hc⟩ := call1 DemontP384.verified hx h
  refine ⟨_, s', hr, ?_, hu⟩
  rw [DemontP384.claims, List.forall_mem_append] at hc
  obtain ⟨hs, hc⟩ := hc
  have hs : vw W DemontP384.L = vw W DemontP384.E := steps_ok hb hs
  simp only [List.forall_mem_cons, Claim.Holds, relValue, Term.value] at hc
  obtain ⟨r1, ho, -⟩ := hc
  rw [show vw W DemontP384.X = val x from hX, hs] at r1
  have hM := vw_lt6 hb DemontP384.M rfl
  refine ⟨vw W DemontP384.Z, out_holds (n := 6) (r := .rdi) hb rfl ho rfl rfl, ?_⟩
  have e : R384 * vw W DemontP384.Z = val x + p384 * vw W DemontP384.M := by
    zify
    linarith only [r1]
  refine ⟨by linarith only [e, xr, hM], ?_⟩
  rw [Nat.mul_comm, r384, e, Nat.add_mul_mod_self_left, Nat.mod_eq_of_lt xr]

theorem tomontP384_ok (s : St) (x : Words) (hx : x.length = 6)
    (h : Ready s [stackBlock s 5, outBlock s.rdi 6, inBlock s.rsi x]) :
    Runs Asm.bignumTomontP384 s fun s' => Holds s'.mem s.rdi (toWords 6 (val x * 2 ^ 384 % p384)) ∧
      Untouched [stackBlock s 5, outBlock s.rdi 6, inBlock s.rsi x] s s' := by
  obtain ⟨s', W, hr, hu, hb, hX, hc⟩ := call1 TomontP384.verified hx h
  refine ⟨_, s', hr, ?_, hu⟩
  rw [TomontP384.claims, List.forall_mem_append] at hc
  obtain ⟨hs, hc⟩ := hc
  have hs : vw W TomontP384.L = vw W TomontP384.E := steps_ok hb hs
  simp only [List.forall_mem_cons, Claim.Holds, relValue, Term.value, vw_one] at hc
  obtain ⟨r1, r2, r3, r4, a1, a2, a3, ho, l1, l2, l3, -⟩ := hc
  refine out_holds hb rfl ho rfl ?_
  rw [show vw W TomontP384.X = val x from hX, hs] at r1
  have hZ := vw_lt6 hb TomontP384.Z rfl
  have hU := vw_lt6 hb TomontP384.U rfl
  have hV := vw_lt6 hb TomontP384.V rfl
  have hM := vw_lt6 hb TomontP384.M rfl
  have hD := hb TomontP384.D
  have hN := hb TomontP384.N
  have hx := val_lt6 hx
  clear h hu hr ho hX
  have e : R384 * (vw W TomontP384.V + R384 * W TomontP384.t) = val x * 0x10000000200000000fffffffe000000000000000200000000fffffffe00000001 + p384 * vw W TomontP384.M := by
    zify
    linarith only [r1]
  have h2 : vw W TomontP384.V + R384 * W TomontP384.t < 2 * p384 := by linarith only [e, hx, hM]
  have e2 := mont_end e (z := vw W TomontP384.Z) (by
    clear e r1 hM hx
    split
    · have : W TomontP384.D = 1 := by clear r3 r4; omega
      have : W TomontP384.N = 18446744073709551615 := by clear r2 r4; omega
      rw [this, and_ones (by decide)] at a1 a2 a3
      clear r3
      omega
    · have : W TomontP384.D = 0 := by clear r3 r4; omega
      have : W TomontP384.N = 0 := by clear r2 r4; omega
      rw [this, Nat.zero_and] at a1 a2 a3
      clear r3
      omega) h2
  exact r384 ▸ tomont_end (by decide) rfl e2.1 e2.2

theorem montP384_num {X Y V t M U D c Z : Nat} (hn : X * Y ≤ R384 * p384) (hV : V < R384) (hM : M < R384) (hU : U < R384)
    (hD : D < 2 ^ 64) (r1 : R384 * (V + R384 * t) = X * Y + p384 * M)
    (r2 : U + R384 * D + R384 * 2 ^ 64 * c + p384 = R384 + (V + R384 * t))
    (hz : Z = if D = 0 then V else U) : Z < p384 ∧ Z * 2 ^ 384 % p384 = X * Y % p384 := by
  rw [r384]
  generalize X * Y = N at *
  have h2 : V + R384 * t < 2 * p384 := by linarith only [r1, hn, hM]
  refine mont_end r1 ?_ h2
  clear r1 hn hM
  split at hz <;> split <;> omega

theorem montmulP384_ok (s : St) (x y : Words) (hx : x.length = 6) (hy : y.length = 6) (hn : val x * val y ≤ 2 ^ 384 * p384)
    (h : Ready s [stackBlock s 6, outBlock s.rdi 6, inBlock s.rsi x, inBlock s.rdx y]) :
    Runs Asm.bignumMontmulP384 s fun s' =>
      (∃ z, Holds s'.mem s.rdi (toWords 6 z) ∧ z < p384 ∧ z * 2 ^ 384 % p384 = val x * val y % p384) ∧
      Untouched [stackBlock s 6, outBlock s.rdi 6, inBlock s.rsi x, inBlock s.rdx y] s s' := by
  rw [r384] at hn
  obtain ⟨s', W, hr, hu, hb, hX, hY, hc⟩ := call2 MontmulP384.verified hx hy h
  refine ⟨_, s', hr, ?_, hu⟩
  rw [MontmulP384.claims, List.forall_mem_append] at hc
  obtain ⟨hs, hc⟩ := hc
  have hs : vw W MontmulP384.L = vw W MontmulP384.E := steps_ok hb hs
  simp only [List.forall_mem_cons, Claim.Holds, relValue, Term.value, vw_one] at hc
  obtain ⟨r1, r2, hz, ho, l1, -⟩ := hc
  rw [show vw W MontmulP384.X = val x from hX, show vw W MontmulP384.Y = val y from hY, hs] at r1
  exact ⟨_, out_holds (n := 6) (r := .rdi) hb rfl ho rfl rfl, montP384_num (t := W MontmulP384.t) (c := W MontmulP384.c) hn
    (vw_lt6 hb MontmulP384.V rfl) (vw_lt6 hb MontmulP384.M rfl) (vw_lt6 hb MontmulP384.U rfl) (hb MontmulP384.D)
    (by zify; linarith only [r1]) (by zify; linarith only [r2]) hz⟩

theorem montsqrP384_ok (s : St) (x : Words) (hx : x.length = 6) (hn : val x * val x ≤ 2 ^ 384 * p384)
    (h : Ready s [stackBlock s 6, outBlock s.rdi 6, inBlock s.rsi x]) :
    Runs Asm.bignumMontsqrP384 s fun s' =>
      (∃ z, Holds s'.mem s.rdi (toWords 6 z) ∧ z < p384 ∧ z * 2 ^ 384 % p384 = val x * val x % p384) ∧
      Untouched [stackBlock s 6, outBlock s.rdi 6, inBlock s.rsi x] s s' := by
  rw [r384] at hn
  obtain ⟨s', W, hr, hu, hb, hX, hc⟩ := call1 MontsqrP384.verified hx h
  refine ⟨_, s', hr, ?_, hu⟩
  rw [MontsqrP384.claims, List.forall_mem_append] at hc
  obtain ⟨hs, hc⟩ := hc
  have hs : vw W MontsqrP384.L = vw W MontsqrP384.E := steps_ok hb hs
  simp only [List.forall_mem_cons, Claim.Holds, relValue, Term.value, vw_one] at hc
  obtain ⟨r1, r2, hz, ho, l1, -⟩ := hc
  rw [show vw W MontsqrP384.X = val x from hX, hs] at r1
  exact ⟨_, out_holds (n := 6) (r := .rdi) hb rfl ho rfl rfl, montP384_num (t := W MontsqrP384.t) (c := W MontsqrP384.c) hn
    (vw_lt6 hb MontsqrP384.V rfl) (vw_lt6 hb MontsqrP384.M rfl) (vw_lt6 hb MontsqrP384.U rfl) (hb MontsqrP384.D)
    (by zify; linarith only [r1]) (by zify; linarith only [r2]) hz⟩

end Verif.X86.Sym
