import Verif.Props.Ecdsa

/-!
C31 and C36 for two further entry points: scalars from arrays, and generation of ECDSA keys.
-/
namespace Verif.Props
open Verif Verif.Ec Verif.Spec.Nist Verif.EcCard
variable {N : Nat} {D : Params} [Fact D.p.Prime] [Fact D.n.Prime] {C : Curve N} {A : Ec.Asm N}

/-- **C31** An array of the full width is a scalar if and only if it denotes one of `1 … n-1`. -/
theorem C31_array (_h : Nist D C) (hA : A.Ok D.p D.n) (array : Bytes) (hl : array.length = N * 8) :
    (1 ≤ beNat array ∧ beNat array < D.n → ∃ d, Scalar.fromArrayChecked A array = .ok d ∧ d.toNat = beNat array) ∧
    (beNat array = 0 ∨ D.n ≤ beNat array → Scalar.fromArrayChecked A array = .error (.err .OutOfRange)) := by
  have hpos : 0 < D.n := (Fact.out : D.n.Prime).pos
  have hv := beArrayTo_toNat (N := N) hl
  rw [Scalar.fromArrayChecked, intoRangeCheck_eq hA hpos, hv]
  constructor
  · rintro ⟨h1, h2⟩
    rw [if_neg (by omega)]
    exact ⟨_, rfl, hv⟩
  · intro h
    rw [if_pos h]

example : ∃ d, Scalar.fromArrayChecked (refAsm 6 p384.p p384.n) (List.replicate 47 0#8 ++ [9#8]) = .ok d ∧ d.toNat = 9 := by
  have e : beNat (List.replicate 47 0#8 ++ [9#8]) = 9 := by decide +kernel
  have := (C31_array (D := p384) .p384 refP384 (List.replicate 47 0#8 ++ [9#8]) (by decide)).1
    (by rw [e]; exact ⟨by decide, by decide +kernel⟩)
  rwa [e] at this

/-- **C36** An ECDSA key is generated from the first suitable candidate of the source, starting at its first call; if there is none
among 64, or the source fails before, there is an error. -/
theorem C36_ecdsa_generate (h : Nist D C) (hA : A.Ok D.p D.n) (rng : RandomSource) :
    (∀ j < 64, (∀ j' < j, Unsuitable D.n (N * 8) rng 0 j') → ∀ b, rng j (N * 8) = .ok b → 1 ≤ beNat b → beNat b < D.n →
      ∃ d, Ecdsa.generate A rng = .ok d ∧ d.toNat = beNat b) ∧
    (∀ j < 64, (∀ j' < j, Unsuitable D.n (N * 8) rng 0 j') → ∀ err, rng j (N * 8) = .error err →
      Ecdsa.generate A rng = .error (.err err)) ∧
    ((∀ j < 64, Unsuitable D.n (N * 8) rng 0 j) → Ecdsa.generate A rng = .error (.err .RngFailed)) := by
  refine ⟨fun j hj hu b hb h1 h2 => ?_, fun j hj hu err hb => ?_, fun hu => ?_⟩
  · obtain ⟨d, e1, e2⟩ := C36_first_suitable h hA rng 0 j hj hu b (by rwa [Nat.zero_add]) h1 h2
    exact ⟨d, by rw [Ecdsa.generate, e1]; rfl, e2⟩
  · rw [Ecdsa.generate, C36_source_fails h hA rng 0 j hj hu err (by rwa [Nat.zero_add])]; rfl
  · rw [Ecdsa.generate, C36_gives_up h hA rng 0 hu]; rfl

example : ∃ d, Ecdsa.generate (refAsm 4 p256.p p256.n) (fun _ n => .ok (List.replicate (n - 1) 0#8 ++ [5#8])) = .ok d ∧ d.toNat = 5 := by
  have e : beNat (List.replicate (32 - 1) 0#8 ++ [5#8]) = 5 := by decide +kernel
  have := (C36_ecdsa_generate (D := p256) .p256 refP256 (fun _ n => .ok (List.replicate (n - 1) 0#8 ++ [5#8]))).1 0 (by decide)
    (fun j' hj => absurd hj (by omega)) _ rfl (by rw [e]; decide) (by rw [e]; decide +kernel)
  rwa [e] at this

end Verif.Props
