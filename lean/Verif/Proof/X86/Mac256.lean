import Verif.Proof.X86.SymMac256
import Verif.Proof.X86.MacUse
import Verif.Proof.X86.FieldP256

/-! What the field operations of the P-256 point routines compute. -/
namespace Verif.X86.Sym
open Verif Verif.X86

local notation "p256" => 0xffffffff00000001000000000000000000000000ffffffffffffffffffffffff

theorem Mul256.ok : Mac.Ok Mul256.mac := by
  refine Mac.of _ Mul256.verified (Z := Mul256.Z) (by simp [Mul256.claims, Mul256.mac]) ?_
  intro s s' W hb hc
  show vw W Mul256.X * vw W Mul256.Y ≤ 2 ^ 256 * p256 →
    vw W Mul256.Z < p256 ∧ vw W Mul256.Z * 2 ^ 256 % p256 = vw W Mul256.X * vw W Mul256.Y % p256
  intro hn
  simp only [Mul256.claims, List.forall_mem_cons, Claim.Holds, relValue, Term.value, vw_one] at hc
  obtain ⟨r1, r2, hs, -, l1, -⟩ := hc
  exact montP256_num (t := W Mul256.t) hn (vw_lt4 hb Mul256.V rfl) (vw_lt4 hb Mul256.M rfl)
    (vw_lt4 hb Mul256.U rfl) (hb Mul256.D) l1 (by zify; linarith only [r1]) (by zify; linarith only [r2]) hs

theorem Sqr256.ok : Mac.Ok Sqr256.mac := by
  refine Mac.of _ Sqr256.verified (Z := Sqr256.Z) (by simp [Sqr256.claims, Sqr256.mac]) ?_
  intro s s' W hb hc
  show vw W Sqr256.X * vw W Sqr256.X ≤ 2 ^ 256 * p256 →
    vw W Sqr256.Z < p256 ∧ vw W Sqr256.Z * 2 ^ 256 % p256 = vw W Sqr256.X * vw W Sqr256.X % p256
  intro hn
  simp only [Sqr256.claims, List.forall_mem_cons, Claim.Holds, relValue, Term.value, vw_one] at hc
  obtain ⟨r1, r2, hs, -, l1, -⟩ := hc
  exact montP256_num (t := W Sqr256.t) hn (vw_lt4 hb Sqr256.V rfl) (vw_lt4 hb Sqr256.M rfl)
    (vw_lt4 hb Sqr256.U rfl) (hb Sqr256.D) l1 (by zify; linarith only [r1]) (by zify; linarith only [r2]) hs

theorem Sqs256.ok : Mac.Ok Sqs256.mac := by
  refine Mac.of _ Sqs256.verified (Z := Sqs256.Z) (by simp [Sqs256.claims, Sqs256.mac]) ?_
  intro s s' W hb hc
  show vw W Sqs256.X * vw W Sqs256.X ≤ 2 ^ 256 * p256 →
    vw W Sqs256.Z < p256 ∧ vw W Sqs256.Z * 2 ^ 256 % p256 = vw W Sqs256.X * vw W Sqs256.X % p256
  intro hn
  simp only [Sqs256.claims, List.forall_mem_cons, Claim.Holds, relValue, Term.value, vw_one] at hc
  obtain ⟨r1, r2, hs, -, l1, -⟩ := hc
  exact montP256_num (t := W Sqs256.t) hn (vw_lt4 hb Sqs256.V rfl) (vw_lt4 hb Sqs256.M rfl)
    (vw_lt4 hb Sqs256.U rfl) (hb Sqs256.D) l1 (by zify; linarith only [r1]) (by zify; linarith only [r2]) hs

theorem amont256_num {X V t M K c Z : Nat} (hX : X < 2 ^ 256) (hV : V < 2 ^ 256) (hM : M < 2 ^ 256) (hZ : Z < 2 ^ 256)
    (r1 : 2 ^ 256 * (V + 2 ^ 256 * t) = X * X + p256 * M) (r2 : Z + 2 ^ 256 * c = V + K)
    (hk : K = if t = 0 then 0 else 2 ^ 256 - p256) : Z * 2 ^ 256 % p256 = X * X % p256 := by
  have hN : X * X ≤ 2 ^ 256 * 0xffffffffffffffffffffffffffffffffffffffffffffffffffffffffffffffff := Nat.mul_le_mul (by omega) (by omega)
  generalize X * X = N at *
  have h2 : V + 2 ^ 256 * t < 2 ^ 256 + p256 := by linarith only [r1, hN, hM]
  have : Z + p256 * t = V + 2 ^ 256 * t := by
    clear r1 hN hM
    split at hk <;> omega
  have e : Z * 2 ^ 256 + p256 * (t * 2 ^ 256) = N + p256 * M := by
    rw [← r1, ← this]
    ring
  rw [← Nat.add_mul_mod_self_left (Z * 2 ^ 256) p256 (t * 2 ^ 256), e, Nat.add_mul_mod_self_left]

theorem Ams256.ok : Mac.Ok Ams256.mac := by
  refine Mac.of _ Ams256.verified (Z := Ams256.Z) (by simp [Ams256.claims, Ams256.mac]) ?_
  intro s s' W hb hc
  show vw W Ams256.Z * 2 ^ 256 % p256 = vw W Ams256.X * vw W Ams256.X % p256
  simp only [Ams256.claims, List.forall_mem_cons, Claim.Holds, relValue, Term.value, vw_one] at hc
  obtain ⟨r1, r2, k1, k2, k3, k4, -⟩ := hc
  refine amont256_num (t := W Ams256.t) (K := vw W Ams256.K) (c := W Ams256.c) (vw_lt4 hb Ams256.X rfl) (vw_lt4 hb Ams256.V rfl) (vw_lt4 hb Ams256.M rfl)
    (vw_lt4 hb Ams256.Z rfl) (by zify; linarith only [r1]) (by zify; linarith only [r2]) ?_
  simp only [Ams256.K, vw, two64, k1, k2, k3, k4]
  split <;> rfl

theorem Sub256.ok : Mac.Ok Sub256.mac := by
  refine Mac.of _ Sub256.verified (Z := Sub256.Z) (by simp [Sub256.claims, Sub256.mac]) ?_
  intro s s' W hb hc
  show vw W Sub256.X < p256 → vw W Sub256.Y < p256 → vw W Sub256.Z < p256 ∧ (vw W Sub256.Z + vw W Sub256.Y) % p256 = vw W Sub256.X
  intro xr yr
  simp only [Sub256.claims, List.forall_mem_cons, Claim.Holds, relValue, Term.value, vw_one] at hc
  obtain ⟨r1, r2, r3, -, l1, l2, l3, -⟩ := hc
  have hZ := vw_lt4 hb Sub256.Z rfl
  have hU := vw_lt4 hb Sub256.U rfl
  have hS := hb Sub256.S
  by_cases e : W Sub256.b = 0
  · rw [e] at r1 r2 r3
    omega
  · have e : W Sub256.b = 1 := by omega
    rw [e] at r1 r2 r3
    omega

theorem Wad256.ok : Mac.Ok Wad256.mac := by
  refine Mac.of _ Wad256.verified (Z := Wad256.Z) (by simp [Wad256.claims, Wad256.mac]) ?_
  intro s s' W hb hc
  show vw W Wad256.X < p256 → vw W Wad256.Y < p256 → vw W Wad256.Z % p256 = (vw W Wad256.X + vw W Wad256.Y) % p256
  intro xr yr
  simp only [Wad256.claims, List.forall_mem_cons, Claim.Holds, relValue, Term.value, vw_one] at hc
  obtain ⟨r1, r2, r3, -, l1, l2, l3, -⟩ := hc
  have hZ := vw_lt4 hb Wad256.Z rfl
  have hU := vw_lt4 hb Wad256.U rfl
  have hS := hb Wad256.S
  by_cases e : W Wad256.b = 0
  · rw [e] at r1 r2 r3
    omega
  · have e : W Wad256.b = 1 := by omega
    rw [e] at r1 r2 r3
    omega

theorem Add256.ok : Mac.Ok Add256.mac := by
  refine Mac.of _ Add256.verified (Z := Add256.Z) (by simp [Add256.claims, Add256.mac]) ?_
  intro s s' W hb hc
  show vw W Add256.X < p256 → vw W Add256.Y < p256 → vw W Add256.Z = (vw W Add256.X + vw W Add256.Y) % p256
  intro xr yr
  simp only [Add256.claims, List.forall_mem_cons, Claim.Holds, relValue, Term.value, vw_one] at hc
  obtain ⟨r1, r2, a1, a2, -, l1, l2, -⟩ := hc
  have hZ := vw_lt4 hb Add256.Z rfl
  have hU := vw_lt4 hb Add256.U rfl
  have hD := hb Add256.D
  by_cases e : W Add256.D = 0
  · rw [e, Nat.zero_and] at a1 a2
    omega
  · have e : W Add256.D = 18446744073709551615 := by omega
    rw [e, and_ones (by decide)] at a1 a2
    omega

/-- The estimate of a quotient, the difference and the correction. -/
theorem cms256_num {T E q U D b1 b2 A S d Z c : Nat} (hE : E < 2 ^ 256) (hU : U < 2 ^ 256) (hD : D < 2 ^ 64) (hZ : Z < 2 ^ 256) (hS : S < 2 ^ 64)
    (hT : E + 2 ^ 256 * q = T) (h1 : 2 ^ 256 - p256 < T) (h2 : T < 2 ^ 256 * 30)
    (r1 : U + 2 ^ 256 * D + 2 ^ 256 + p256 * q = E + 2 ^ 256 * q + 2 ^ 256 * 2 ^ 64 * b1 + 2 ^ 256 * 2 ^ 64 * b2)
    (r2 : S + A = 2 ^ 64 * d) (r3 : Z + 2 ^ 256 * c = U + D + 2 ^ 64 * A + 2 ^ 192 * S) (ha : A = D &&& 0xffffffff) :
    Z < p256 ∧ ∃ k, Z + 2 ^ 256 + p256 * q = T + p256 * k := by
  have hq : q < 30 := by omega
  have v1 : 2 ^ 256 + p256 * q ≤ T + p256 := by
    clear r1 r2 r3
    by_cases hq : q = 0
    · subst hq
      omega
    · omega
  have v2 : T < 2 ^ 256 + p256 * q + p256 := by
    clear r1 r2 r3
    omega
  rw [hT] at r1
  clear hT hE h1 h2 hq
  generalize p256 * q = Q at *
  rcases Nat.lt_or_ge T (2 ^ 256 + Q) with h | h
  · obtain ⟨w, hw⟩ : ∃ w, T + w = 2 ^ 256 + Q := ⟨2 ^ 256 + Q - T, by omega⟩
    have e1 : U + 2 ^ 256 * D + w = 2 ^ 256 * 2 ^ 64 * (b1 + b2) := by omega
    have e2 : w ≤ p256 := by omega
    have e3 : 0 < w := by omega
    have e : D = 18446744073709551615 := by clear r1 r2 r3 hw v1 v2 h; omega
    rw [e, and_ones (by decide)] at ha
    have eS : S = 0xffffffff00000001 := by omega
    have eU : U + w = 2 ^ 256 := by omega
    have eZ : Z + w = p256 := by
      clear r1 e1 hw v1 v2 h
      omega
    refine ⟨by omega, 1, by omega⟩
  · obtain ⟨w, hw⟩ : ∃ w, T = 2 ^ 256 + Q + w := ⟨T - (2 ^ 256 + Q), by omega⟩
    have e1 : U + 2 ^ 256 * D = 2 ^ 256 * 2 ^ 64 * (b1 + b2) + w := by omega
    have e2 : w < p256 := by omega
    have e : D = 0 := by clear r1 r2 r3 hw v1 v2 h; omega
    rw [e, Nat.zero_and] at ha
    have eS : S = 0 := by omega
    have eZ : Z = w := by
      clear r1 hw v1 v2 h
      omega
    refine ⟨by omega, 0, by omega⟩

theorem Cms256.ok : Mac.Ok Cms256.mac := by
  refine Mac.of _ Cms256.verified (Z := Cms256.Z) (by simp [Cms256.claims, Cms256.mac]) ?_
  intro s s' W hb hc
  show vw W Cms256.X < p256 → vw W Cms256.Y < p256 →
    vw W Cms256.Z < p256 ∧ (vw W Cms256.Z + 9 * vw W Cms256.Y) % p256 = 12 * vw W Cms256.X % p256
  intro xr yr
  simp only [Cms256.claims, List.forall_mem_cons, Claim.Holds, relValue, Term.value, vw_one] at hc
  obtain ⟨r0, r1, r2, r3, r4, ha, -, l0, -⟩ := hc
  have hN := vw_lt4 hb Cms256.N rfl
  have e0 : vw W Cms256.N + vw W Cms256.Y = p256 := by clear r1 r2 r3 r4; omega
  obtain ⟨h1, k, h2⟩ := cms256_num (T := 12 * vw W Cms256.X + 9 * vw W Cms256.N + 2 ^ 256) (q := W Cms256.q) (b1 := W Cms256.b1) (b2 := W Cms256.b2) (d := W Cms256.d) (c := W Cms256.c)
    (vw_lt4 hb Cms256.E rfl) (vw_lt4 hb Cms256.U rfl) (hb Cms256.D) (vw_lt4 hb Cms256.Z rfl) (hb Cms256.S)
    (by zify; linarith only [r1]) (by omega) (by omega)
    (by zify; linarith only [r2]) (by zify; linarith only [r3]) (by zify; linarith only [r4]) ha
  refine ⟨h1, ?_⟩
  have e : vw W Cms256.Z + 9 * vw W Cms256.Y + p256 * W Cms256.q = 12 * vw W Cms256.X + p256 * (9 + k) := by
    clear r0 r1 r2 r3 r4
    linarith only [h2, e0]
  rw [← Nat.add_mul_mod_self_left _ p256 (W Cms256.q), e, Nat.add_mul_mod_self_left]

theorem Cmt256.ok : Mac.Ok Cmt256.mac := by
  refine Mac.of _ Cmt256.verified (Z := Cmt256.Z) (by simp [Cmt256.claims, Cmt256.mac]) ?_
  intro s s' W hb hc
  show vw W Cmt256.X < p256 → vw W Cmt256.Y < p256 →
    vw W Cmt256.Z < p256 ∧ (vw W Cmt256.Z + 8 * vw W Cmt256.Y) % p256 = 3 * vw W Cmt256.X % p256
  intro xr yr
  simp only [Cmt256.claims, List.forall_mem_cons, Claim.Holds, relValue, Term.value, vw_one] at hc
  obtain ⟨r0, r1, r2, r3, r4, ha, -, l0, k1, k2, -⟩ := hc
  have hN := vw_lt4 hb Cmt256.N rfl
  have e0 : vw W Cmt256.N + vw W Cmt256.Y = p256 := by clear r1 r2 r3 r4; omega
  obtain ⟨h1, k, h2⟩ := cms256_num (T := 3 * vw W Cmt256.X + 8 * vw W Cmt256.N + 2 ^ 256) (q := W Cmt256.q) (b1 := W Cmt256.b1) (b2 := W Cmt256.b2) (d := W Cmt256.d) (c := W Cmt256.c)
    (vw_lt4 hb Cmt256.E rfl) (vw_lt4 hb Cmt256.U rfl) (hb Cmt256.D) (vw_lt4 hb Cmt256.Z rfl) (hb Cmt256.S)
    (by clear r0 r2 r3 r4; omega) (by omega) (by omega)
    (by zify; linarith only [r2]) (by zify; linarith only [r3]) (by zify; linarith only [r4]) ha
  refine ⟨h1, ?_⟩
  have e : vw W Cmt256.Z + 8 * vw W Cmt256.Y + p256 * W Cmt256.q = 3 * vw W Cmt256.X + p256 * (8 + k) := by
    clear r0 r1 r2 r3 r4
    linarith only [h2, e0]
  rw [← Nat.add_mul_mod_self_left _ p256 (W Cmt256.q), e, Nat.add_mul_mod_self_left]

theorem Cmf256.ok : Mac.Ok Cmf256.mac := by
  refine Mac.of _ Cmf256.verified (Z := Cmf256.Z) (by simp [Cmf256.claims, Cmf256.mac]) ?_
  intro s s' W hb hc
  show vw W Cmf256.X < p256 → vw W Cmf256.Y < p256 →
    vw W Cmf256.Z < p256 ∧ (vw W Cmf256.Z + vw W Cmf256.Y) % p256 = 4 * vw W Cmf256.X % p256
  intro xr yr
  simp only [Cmf256.claims, List.forall_mem_cons, Claim.Holds, relValue, Term.value, vw_one] at hc
  obtain ⟨r1, r2, r3, r4, ha, -, k1, k2, -⟩ := hc
  obtain ⟨T, hT⟩ : ∃ T, T + vw W Cmf256.Y = 4 * vw W Cmf256.X + 2 ^ 256 := ⟨4 * vw W Cmf256.X + 2 ^ 256 - vw W Cmf256.Y, by omega⟩
  have hE := vw_lt4 hb Cmf256.E rfl
  have hq := hb Cmf256.q
  obtain ⟨h1, k, h2⟩ := cms256_num (T := T) (q := W Cmf256.q) (b1 := W Cmf256.b1) (b2 := W Cmf256.b2) (d := W Cmf256.d) (c := W Cmf256.c)
    hE (vw_lt4 hb Cmf256.U rfl) (hb Cmf256.D) (vw_lt4 hb Cmf256.Z rfl) (hb Cmf256.S)
    (by clear r2 r3 r4; omega) (by omega) (by omega)
    (by zify; linarith only [r2]) (by zify; linarith only [r3]) (by zify; linarith only [r4]) ha
  refine ⟨h1, ?_⟩
  have e : vw W Cmf256.Z + vw W Cmf256.Y + p256 * W Cmf256.q = 4 * vw W Cmf256.X + p256 * k := by
    clear r1 r2 r3 r4
    linarith only [h2, hT]
  rw [← Nat.add_mul_mod_self_left _ p256 (W Cmf256.q), e, Nat.add_mul_mod_self_left]

end Verif.X86.Sym
