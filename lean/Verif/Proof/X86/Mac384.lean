import Verif.Proof.X86.SymMac384
import Verif.Proof.X86.MacUse
import Verif.Proof.X86.FieldP384

/-! What the field operations of the P-384 point routines compute. -/
namespace Verif.X86.Sym
open Verif Verif.X86

set_option exponentiation.threshold 400

local notation "p384" => Spec.Nist.p384.p
local notation "R384" => 0x1000000000000000000000000000000000000000000000000000000000000000000000000000000000000000000000000
local notation "P" => 0xfffffffffffffffffffffffffffffffffffffffffffffffffffffffffffffffeffffffff0000000000000000ffffffff

/-- The macros for P-384. -/
theorem macSpec384 {k x y z : Nat} (h : opSpec P R384 k x y z) : macSpec (k + 16) x y z := by
  rw [macSpec, if_neg (by omega), Nat.add_sub_cancel, r384]
  exact h

theorem Mul384.ok : Mac.Ok Mul384.mac := by
  refine Mac.of _ Mul384.verified (Z := Mul384.Z) (by simp [Mul384.claims, Mul384.mac]) ?_
  intro s s' W hb hc
  refine macSpec384 (k := 0) ?_
  show vw W Mul384.X * vw W Mul384.Y ≤ R384 * P →
    vw W Mul384.Z < P ∧ vw W Mul384.Z * R384 % P = vw W Mul384.X * vw W Mul384.Y % P
  intro hn
  rw [Mul384.claims, List.forall_mem_append] at hc
  obtain ⟨hs, hc⟩ := hc
  have hs : vw W Mul384.L = vw W Mul384.E := steps_ok hb hs
  simp only [List.forall_mem_cons, Claim.Holds, relValue, Term.value, vw_one] at hc
  obtain ⟨r1, r2, hz, -, l1, -⟩ := hc
  rw [hs] at r1
  rw [← r384]
  exact montP384_num (t := W Mul384.t) (c := W Mul384.c) hn (vw_lt6 hb Mul384.V rfl) (vw_lt6 hb Mul384.M rfl)
    (vw_lt6 hb Mul384.U rfl) (hb Mul384.D) (by zify; linarith only [r1]) (by zify; linarith only [r2]) hz

theorem Sqr384.ok : Mac.Ok Sqr384.mac := by
  refine Mac.of _ Sqr384.verified (Z := Sqr384.Z) (by simp [Sqr384.claims, Sqr384.mac]) ?_
  intro s s' W hb hc
  refine macSpec384 (k := 1) ?_
  show vw W Sqr384.X * vw W Sqr384.X ≤ R384 * P →
    vw W Sqr384.Z < P ∧ vw W Sqr384.Z * R384 % P = vw W Sqr384.X * vw W Sqr384.X % P
  intro hn
  rw [Sqr384.claims, List.forall_mem_append] at hc
  obtain ⟨hs, hc⟩ := hc
  have hs : vw W Sqr384.L = vw W Sqr384.E := steps_ok hb hs
  simp only [List.forall_mem_cons, Claim.Holds, relValue, Term.value, vw_one] at hc
  obtain ⟨r1, r2, hz, -, l1, -⟩ := hc
  rw [hs] at r1
  rw [← r384]
  exact montP384_num (t := W Sqr384.t) (c := W Sqr384.c) hn (vw_lt6 hb Sqr384.V rfl) (vw_lt6 hb Sqr384.M rfl)
    (vw_lt6 hb Sqr384.U rfl) (hb Sqr384.D) (by zify; linarith only [r1]) (by zify; linarith only [r2]) hz

theorem Sqs384.ok : Mac.Ok Sqs384.mac := by
  refine Mac.of _ Sqs384.verified (Z := Sqs384.Z) (by simp [Sqs384.claims, Sqs384.mac]) ?_
  intro s s' W hb hc
  refine macSpec384 (k := 1) ?_
  show vw W Sqs384.X * vw W Sqs384.X ≤ R384 * P →
    vw W Sqs384.Z < P ∧ vw W Sqs384.Z * R384 % P = vw W Sqs384.X * vw W Sqs384.X % P
  intro hn
  rw [Sqs384.claims, List.forall_mem_append] at hc
  obtain ⟨hs, hc⟩ := hc
  have hs : vw W Sqs384.L = vw W Sqs384.E := steps_ok hb hs
  simp only [List.forall_mem_cons, Claim.Holds, relValue, Term.value, vw_one] at hc
  obtain ⟨r1, r2, hz, -, l1, -⟩ := hc
  rw [hs] at r1
  rw [← r384]
  exact montP384_num (t := W Sqs384.t) (c := W Sqs384.c) hn (vw_lt6 hb Sqs384.V rfl) (vw_lt6 hb Sqs384.M rfl)
    (vw_lt6 hb Sqs384.U rfl) (hb Sqs384.D) (by zify; linarith only [r1]) (by zify; linarith only [r2]) hz

theorem amont384_num {X V t M K c Z : Nat} (hX : X < R384) (hV : V < R384) (hM : M < R384) (hZ : Z < R384)
    (r1 : R384 * (V + R384 * t) = X * X + P * M) (r2 : Z + R384 * c = V + K) (ht : t ≤ 1)
    (hk : K = if t = 1 then R384 - P else 0) : Z * R384 % P = X * X % P := by
  have hN : X * X ≤ R384 * 0xffffffffffffffffffffffffffffffffffffffffffffffffffffffffffffffffffffffffffffffffffffffffffffffff :=
    Nat.mul_le_mul (by omega) (by omega)
  generalize X * X = N at *
  have h2 : V + R384 * t < R384 + P := by linarith only [r1, hN, hM]
  have : Z + P * t = V + R384 * t := by
    clear r1 hN hM
    split at hk <;> omega
  have e : Z * R384 + P * (t * R384) = N + P * M := by
    rw [← r1, ← this]
    ring
  rw [← Nat.add_mul_mod_self_left (Z * R384) P (t * R384), e, Nat.add_mul_mod_self_left]

theorem Ams384.ok : Mac.Ok Ams384.mac := by
  refine Mac.of _ Ams384.verified (Z := Ams384.Z) (by simp [Ams384.claims, Ams384.mac]) ?_
  intro s s' W hb hc
  refine macSpec384 (k := 2) ?_
  show vw W Ams384.Z * R384 % P = vw W Ams384.X * vw W Ams384.X % P
  rw [Ams384.claims, List.forall_mem_append] at hc
  obtain ⟨hs, hc⟩ := hc
  have hs : vw W Ams384.L = vw W Ams384.E := steps_ok hb hs
  simp only [List.forall_mem_cons, Claim.Holds, relValue, Term.value, vw_one] at hc
  obtain ⟨r1, r2, k1, k2, k3, -, l1, -⟩ := hc
  rw [hs] at r1
  refine amont384_num (t := W Ams384.t) (K := vw W Ams384.K) (c := W Ams384.c) (vw_lt6 hb Ams384.X rfl) (vw_lt6 hb Ams384.V rfl) (vw_lt6 hb Ams384.M rfl)
    (vw_lt6 hb Ams384.Z rfl) (by zify; linarith only [r1]) (by zify; linarith only [r2]) l1 ?_
  simp only [Ams384.K, vw, two64, k1, k2, k3]
  split <;> rfl

theorem Wad384.ok : Mac.Ok Wad384.mac := by
  refine Mac.of _ Wad384.verified (Z := Wad384.Z) (by simp [Wad384.claims, Wad384.mac]) ?_
  intro s s' W hb hc
  refine macSpec384 (k := 5) ?_
  show vw W Wad384.X < P → vw W Wad384.Y < P → vw W Wad384.Z % P = (vw W Wad384.X + vw W Wad384.Y) % P
  intro xr yr
  simp only [Wad384.claims, List.forall_mem_cons, Claim.Holds, relValue, Term.value, vw_one] at hc
  obtain ⟨r1, r2, r3, -, l1, l2, l3, -⟩ := hc
  have hZ := vw_lt6 hb Wad384.Z rfl
  have hU := vw_lt6 hb Wad384.U rfl
  have hS := hb Wad384.S
  by_cases e : W Wad384.b = 0
  · rw [e] at r1 r2 r3
    omega
  · have e : W Wad384.b = 1 := by omega
    rw [e] at r1 r2 r3
    omega

theorem Add384.ok : Mac.Ok Add384.mac := by
  refine Mac.of _ Add384.verified (Z := Add384.Z) (by simp [Add384.claims, Add384.mac]) ?_
  intro s s' W hb hc
  refine macSpec384 (k := 4) ?_
  show vw W Add384.X < P → vw W Add384.Y < P → vw W Add384.Z = (vw W Add384.X + vw W Add384.Y) % P
  intro xr yr
  simp only [Add384.claims, List.forall_mem_cons, Claim.Holds, relValue, Term.value, vw_one] at hc
  obtain ⟨r1, r2, r3, a1, a2, -, l1, l2, l3, -⟩ := hc
  have hZ := vw_lt6 hb Add384.Z rfl
  have hU := vw_lt6 hb Add384.U rfl
  have hD := hb Add384.D
  have hS := hb Add384.S
  by_cases e : W Add384.D = 0
  · rw [e, Nat.zero_and] at a1 a2
    have : W Add384.S = 0 := by clear r1 r3; omega
    rw [e] at r1
    omega
  · have e : W Add384.D = 18446744073709551615 := by clear r3; omega
    rw [e, and_ones (by decide)] at a1 a2
    have : W Add384.S = 0xffffffff00000001 := by clear r1 r3; omega
    rw [e] at r1
    omega

/-- The difference of two numbers, word for word, in `sub_p384!`. -/
theorem sub384_num {X Y U b S d A2 b2 N b3 Z c : Nat} (xr : X < P) (yr : Y < P) (hU : U < R384) (hZ : Z < R384) (hS : S < 2 ^ 64) (hN : N < 2 ^ 64)
    (lb : b ≤ 1) (l2 : b2 ≤ 1) (l3 : b3 ≤ 1)
    (r1 : U + Y = X + R384 * b) (r2 : S + 0xffffffff * b = 2 ^ 64 * d) (r3 : N + 0xffffffffffffffff * b2 = 2 ^ 64 * b3)
    (r4 : Z + S + 2 ^ 64 * 0xffffffff * b + 2 ^ 128 * A2 + 2 ^ 128 * b3 = U + R384 * c + 2 ^ 128 * b2)
    (ha : A2 = (0xffffffff * b) &&& S) : Z < P ∧ (Z + Y) % P = X := by
  have e3 : b2 = b3 := by
    clear r1 r2 r4 ha
    omega
  subst e3
  have r4 : Z + S + 2 ^ 64 * 0xffffffff * b + 2 ^ 128 * A2 = U + R384 * c := by omega
  rcases (by omega : b = 0 ∨ b = 1) with rfl | rfl
  · have e : S = 0 := by omega
    subst e
    have ha : A2 = 0 := ha
    omega
  · have e : S = 0xffffffff00000001 := by omega
    subst e
    have ha : A2 = 1 := ha
    omega

/-- The words of a difference. -/
theorem sub384_op {W : Nat → Nat} (hb : ∀ i, W i < 2 ^ 64) {X Y U Z : List Nat} {b S d A e N f c : Nat}
    (hU : U.length = 6) (hZ : Z.length = 6) (lb : W b ≤ 1) (le : W e ≤ 1) (lf : W f ≤ 1)
    (r1 : relValue W [.lin 1 U, .lin 1 Y, .lin (-1) X, .lin (-R384) [b]] = 0)
    (r2 : relValue W [.lin 1 [S], .lin 0xffffffff [b], .lin (-0x10000000000000000) [d]] = 0)
    (r3 : relValue W [.lin 1 [N], .lin 0xffffffffffffffff [e], .lin (-0x10000000000000000) [f]] = 0)
    (r4 : relValue W [.lin 1 Z, .lin 1 [S], .lin 0xffffffff0000000000000000 [b], .lin 0x100000000000000000000000000000000 [A],
      .lin 0x100000000000000000000000000000000 [f], .lin (-1) U, .lin (-R384) [c], .lin (-0x100000000000000000000000000000000) [e]] = 0)
    (ha : W A = (0xffffffff * W b) &&& W S) : opSpec P R384 3 (vw W X) (vw W Y) (vw W Z) := by
  intro xr yr
  simp only [relValue, Term.value, vw_one] at r1 r2 r3 r4
  refine sub384_num xr yr (vw_lt6 hb U hU) (vw_lt6 hb Z hZ) (hb S) (hb N) lb le lf (d := W d) (c := W c) ?_ ?_ ?_ ?_ ha
  · zify; linarith only [r1]
  · zify; linarith only [r2]
  · zify; linarith only [r3]
  · zify; linarith only [r4]


/-- The estimate of a quotient, the difference and the correction. -/
theorem cms384_num {T E q U D b1 A A2 S d Z c : Nat} (hE : E < R384) (hU : U < R384) (hD : D < 2 ^ 64) (hZ : Z < R384) (hS : S < 2 ^ 64)
    (hT : E + R384 * q = T) (h1 : R384 - P < T) (h2 : T < R384 * 30)
    (r1 : U + R384 * D + R384 = E + (R384 - P) * q + R384 * 2 ^ 64 * b1)
    (r2 : S + A = 2 ^ 64 * d) (r3 : Z + S + 2 ^ 64 * A + 2 ^ 128 * A2 = U + R384 * c) (ha : A = D &&& 0xffffffff)
    (ha2 : A2 = D &&& 1) :
    Z < P ∧ ∃ k, Z + R384 + P * q = T + P * k := by
  have hq : q < 30 := by omega
  have v1 : R384 + P * q ≤ T + P := by
    clear r1 r2 r3
    by_cases hq : q = 0
    · subst hq
      omega
    · omega
  have v2 : T < R384 + P * q + P := by
    clear r1 r2 r3
    omega
  have r1 : U + R384 * D + R384 + P * q = T + R384 * 2 ^ 64 * b1 := by
    rw [← hT]
    clear r2 r3 v1 v2 h1 h2 hT
    linarith only [r1]
  clear hT hE h1 h2 hq
  generalize P * q = Q at *
  rcases Nat.lt_or_ge T (R384 + Q) with h | h
  · obtain ⟨w, hw⟩ : ∃ w, T + w = R384 + Q := ⟨R384 + Q - T, by omega⟩
    have e1 : U + R384 * D + w = R384 * 2 ^ 64 * b1 := by omega
    have e2 : w ≤ P := by omega
    have e3 : 0 < w := by omega
    have e : D = 18446744073709551615 := by clear r1 r2 r3 hw v1 v2 h; omega
    rw [e, and_ones (by decide)] at ha ha2
    have eS : S = 0xffffffff00000001 := by omega
    have eU : U + w = R384 := by omega
    have eZ : Z + w = P := by
      clear r1 e1 hw v1 v2 h
      omega
    refine ⟨by omega, 1, by omega⟩
  · obtain ⟨w, hw⟩ : ∃ w, T = R384 + Q + w := ⟨T - (R384 + Q), by omega⟩
    have e1 : U + R384 * D = R384 * 2 ^ 64 * b1 + w := by omega
    have e2 : w < P := by omega
    have e : D = 0 := by clear r1 r2 r3 hw v1 v2 h; omega
    rw [e, Nat.zero_and] at ha ha2
    have eS : S = 0 := by omega
    have eZ : Z = w := by
      clear r1 hw v1 v2 h
      omega
    refine ⟨by omega, 0, by omega⟩

theorem Cms384.ok : Mac.Ok Cms384.mac := by
  refine Mac.of _ Cms384.verified (Z := Cms384.Z) (by simp [Cms384.claims, Cms384.mac]) ?_
  intro s s' W hb hc
  refine macSpec384 (k := 6) ?_
  show vw W Cms384.X < P → vw W Cms384.Y < P →
    vw W Cms384.Z < P ∧ (vw W Cms384.Z + 9 * vw W Cms384.Y) % P = 12 * vw W Cms384.X % P
  intro xr yr
  simp only [Cms384.claims, List.forall_mem_cons, Claim.Holds, relValue, Term.value, vw_one] at hc
  obtain ⟨r0, r1, r2, r3, r4, ha, ha2, -, l0, -⟩ := hc
  have hN := vw_lt6 hb Cms384.N rfl
  have hE := vw_lt6 hb Cms384.E rfl
  have hq := hb Cms384.q
  have e0 : vw W Cms384.N + vw W Cms384.Y = P := by clear r1 r2 r3 r4 hE hq; omega
  have t1 : vw W Cms384.E + R384 * W Cms384.q = 12 * vw W Cms384.X + 9 * vw W Cms384.N + R384 := by zify; linarith only [r1]
  obtain ⟨h1, k, h2⟩ := cms384_num (T := 12 * vw W Cms384.X + 9 * vw W Cms384.N + R384) (q := W Cms384.q) (b1 := W Cms384.b1) (d := W Cms384.d) (c := W Cms384.c)
    hE (vw_lt6 hb Cms384.U rfl) (hb Cms384.D) (vw_lt6 hb Cms384.Z rfl) (hb Cms384.S)
    t1 (by clear r0 r1 r2 r3 r4; omega) (by clear r0 r1 r2 r3 r4; omega)
    (by zify; linarith only [r2]) (by zify; linarith only [r3]) (by zify; linarith only [r4]) ha ha2
  refine ⟨h1, ?_⟩
  have e : vw W Cms384.Z + 9 * vw W Cms384.Y + P * W Cms384.q = 12 * vw W Cms384.X + P * (9 + k) := by
    clear r0 r1 r2 r3 r4
    linarith only [h2, e0]
  rw [← Nat.add_mul_mod_self_left _ P (W Cms384.q), e, Nat.add_mul_mod_self_left]

theorem Cmt384.ok : Mac.Ok Cmt384.mac := by
  refine Mac.of _ Cmt384.verified (Z := Cmt384.Z) (by simp [Cmt384.claims, Cmt384.mac]) ?_
  intro s s' W hb hc
  refine macSpec384 (k := 8) ?_
  show vw W Cmt384.X < P → vw W Cmt384.Y < P →
    vw W Cmt384.Z < P ∧ (vw W Cmt384.Z + 8 * vw W Cmt384.Y) % P = 3 * vw W Cmt384.X % P
  intro xr yr
  simp only [Cmt384.claims, List.forall_mem_cons, Claim.Holds, relValue, Term.value, vw_one] at hc
  obtain ⟨r0, r1, r2, r3, r4, ha, ha2, -, l0, k0, k1, k2, -⟩ := hc
  have hN := vw_lt6 hb Cmt384.N rfl
  have hE := vw_lt6 hb Cmt384.E rfl
  have hq := hb Cmt384.q
  have e0 : vw W Cmt384.N + vw W Cmt384.Y = P := by clear r1 r2 r3 r4 hE hq; omega
  have t1 : vw W Cmt384.E + R384 * W Cmt384.q = 3 * vw W Cmt384.X + 8 * vw W Cmt384.N + R384 := by clear r0 r2 r3 r4; omega
  obtain ⟨h1, k, h2⟩ := cms384_num (T := 3 * vw W Cmt384.X + 8 * vw W Cmt384.N + R384) (q := W Cmt384.q) (b1 := W Cmt384.b1) (d := W Cmt384.d) (c := W Cmt384.c)
    hE (vw_lt6 hb Cmt384.U rfl) (hb Cmt384.D) (vw_lt6 hb Cmt384.Z rfl) (hb Cmt384.S)
    t1 (by clear r0 r1 r2 r3 r4; omega) (by clear r0 r1 r2 r3 r4; omega)
    (by zify; linarith only [r2]) (by zify; linarith only [r3]) (by zify; linarith only [r4]) ha ha2
  refine ⟨h1, ?_⟩
  have e : vw W Cmt384.Z + 8 * vw W Cmt384.Y + P * W Cmt384.q = 3 * vw W Cmt384.X + P * (8 + k) := by
    clear r0 r1 r2 r3 r4
    linarith only [h2, e0]
  rw [← Nat.add_mul_mod_self_left _ P (W Cmt384.q), e, Nat.add_mul_mod_self_left]

theorem Cmf384.ok : Mac.Ok Cmf384.mac := by
  refine Mac.of _ Cmf384.verified (Z := Cmf384.Z) (by simp [Cmf384.claims, Cmf384.mac]) ?_
  intro s s' W hb hc
  refine macSpec384 (k := 7) ?_
  show vw W Cmf384.X < P → vw W Cmf384.Y < P →
    vw W Cmf384.Z < P ∧ (vw W Cmf384.Z + vw W Cmf384.Y) % P = 4 * vw W Cmf384.X % P
  intro xr yr
  simp only [Cmf384.claims, List.forall_mem_cons, Claim.Holds, relValue, Term.value, vw_one] at hc
  obtain ⟨r1, r2, r3, r4, ha, ha2, -, k1, k2, -⟩ := hc
  obtain ⟨T, hT⟩ : ∃ T, T + vw W Cmf384.Y = 4 * vw W Cmf384.X + R384 := ⟨4 * vw W Cmf384.X + R384 - vw W Cmf384.Y, by omega⟩
  have hE := vw_lt6 hb Cmf384.E rfl
  have hq := hb Cmf384.q
  have t1 : vw W Cmf384.E + R384 * W Cmf384.q = T := by clear r2 r3 r4; omega
  obtain ⟨h1, k, h2⟩ := cms384_num (T := T) (q := W Cmf384.q) (b1 := W Cmf384.b1) (d := W Cmf384.d) (c := W Cmf384.c)
    hE (vw_lt6 hb Cmf384.U rfl) (hb Cmf384.D) (vw_lt6 hb Cmf384.Z rfl) (hb Cmf384.S)
    t1 (by clear r1 r2 r3 r4; omega) (by clear r1 r2 r3 r4; omega)
    (by zify; linarith only [r2]) (by zify; linarith only [r3]) (by zify; linarith only [r4]) ha ha2
  refine ⟨h1, ?_⟩
  have e : vw W Cmf384.Z + vw W Cmf384.Y + P * W Cmf384.q = 4 * vw W Cmf384.X + P * k := by
    clear r1 r2 r3 r4
    linarith only [h2, hT]
  rw [← Nat.add_mul_mod_self_left _ P (W Cmf384.q), e, Nat.add_mul_mod_self_left]

end Verif.X86.Sym
