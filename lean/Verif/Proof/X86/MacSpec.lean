import Verif.Spec.NistCurves

/-! What the macros of the point routines compute. -/
namespace Verif.X86.Sym

/-- Macro `k` for the prime `p` and the radix `R`: inputs `x` and `y`, output `z`. -/
def opSpec (p R k x y z : Nat) : Prop :=
  match k with
  | 0 => x * y ≤ R * p → z < p ∧ z * R % p = x * y % p
  | 1 => x * x ≤ R * p → z < p ∧ z * R % p = x * x % p
  | 2 => z * R % p = x * x % p
  | 3 => x < p → y < p → z < p ∧ (z + y) % p = x
  | 4 => x < p → y < p → z = (x + y) % p
  | 5 => x < p → y < p → z % p = (x + y) % p
  | 6 => x < p → y < p → z < p ∧ (z + 9 * y) % p = 12 * x % p
  | 7 => x < p → y < p → z < p ∧ (z + y) % p = 4 * x % p
  | 8 => x < p → y < p → z < p ∧ (z + 8 * y) % p = 3 * x % p
  | _ => True

/-- The macros for P-256, then those for P-384. -/
def macSpec (k x y z : Nat) : Prop :=
  if k < 16 then opSpec Spec.Nist.p256.p (2 ^ 256) k x y z else opSpec Spec.Nist.p384.p (2 ^ 384) (k - 16) x y z

end Verif.X86.Sym
