/-!
The Miller-Rabin test of FIPS 186-5, B.3.1.
-/
namespace Verif.Spec.MillerRabin

/-- Steps 1, 2 and 4.3 to 4.6: the base `b` does not show that `w` is composite.  Here `w - 1 = 2^a * m` with `m` odd. -/
def Passes (w b : Nat) : Prop :=
  ∃ a m, w - 1 = 2 ^ a * m ∧ m % 2 = 1 ∧ (b ^ m % w = 1 ∨ ∃ j, j < a ∧ b ^ (2 ^ j * m) % w = w - 1)

/-- Step 4.2: the base may be used. -/
def Suitable (w b : Nat) : Prop := 1 < b ∧ b < w - 1

end Verif.Spec.MillerRabin
