import Verif.Proof.Primes25519
import Verif.Spec.Sha2
import Mathlib.Data.ZMod.Basic
import Mathlib.Algebra.Field.ZMod

/-!
Ed25519, RFC 8032, section 5.1.
-/
namespace Verif.Spec.Ed25519

/-- The field prime. -/
def p : Nat := 2 ^ 255 - 19

/-- The order of the base point. -/
def L : Nat := 2 ^ 252 + 27742317777372353535851937790883648493

instance : Fact p.Prime := ⟨Pratt25519.prime_p25519⟩
instance : Fact L.Prime := ⟨Pratt25519.prime_n25519⟩

abbrev F := ZMod p

/-- The curve's constant. -/
def d : F := -121665 / 121666

abbrev Point := F × F

/-- The curve `-x² + y² = 1 + d x² y²`. -/
def OnCurve (P : Point) : Prop := -P.1 ^ 2 + P.2 ^ 2 = 1 + d * P.1 ^ 2 * P.2 ^ 2

/-- Addition of points, section 5.1.4. -/
def add (P Q : Point) : Point :=
  ((P.1 * Q.2 + Q.1 * P.2) / (1 + d * P.1 * Q.1 * P.2 * Q.2), (P.2 * Q.2 + P.1 * Q.1) / (1 - d * P.1 * Q.1 * P.2 * Q.2))

/-- The neutral element. -/
def zero : Point := (0, 1)

def neg (P : Point) : Point := (-P.1, P.2)

/-- `[n]P`. -/
def mul : Nat → Point → Point
  | 0, _ => zero
  | n + 1, P => add (mul n P) P

/-- The base point, section 5.1. -/
def B : Point := (15112221349535400772501151409588531511454012693041857206046113283949847762202,
  46316835694926478169428394003475163141307993866256225615783033603165251855960)

/-- Section 5.1.2: `y` in 255 bits, little-endian, and above it the lowest bit of `x`. -/
def encode (P : Point) : Bytes := toLE 32 (P.2.val + 2 ^ 255 * (P.1.val % 2))

/-- Section 5.1.3: decoding succeeds for the encodings of points of the curve. -/
def Decodes (b : Bytes) (P : Point) : Prop := OnCurve P ∧ encode P = b

/-- Section 5.1.5, step 2: the lowest three bits cleared, bit 255 cleared, bit 254 set. -/
def clamp (n : Nat) : Nat := 2 ^ 254 + 8 * (n / 8 % 2 ^ 251)

/-- Section 5.1.5. -/
def secretScalar (seed : Bytes) : Nat := clamp (leNat ((Sha2.sha512 seed).take 32))

/-- Section 5.1.5. -/
def publicKey (seed : Bytes) : Bytes := encode (mul (secretScalar seed) B)

/-- The hash of the commitment, the public key and the message, as an integer. -/
def challenge (r pk msg : Bytes) : Nat := leNat (Sha2.sha512 (r ++ pk ++ msg))

/-- Section 5.1.6. -/
def sign (seed msg : Bytes) : Bytes :=
  let prefix' := (Sha2.sha512 seed).drop 32
  let r := leNat (Sha2.sha512 (prefix' ++ msg)) % L
  let R := encode (mul r B)
  let k := challenge R (publicKey seed) msg % L
  R ++ toLE 32 ((r + k * secretScalar seed) % L)

/-- Section 5.1.7 with the equation `[S]B = R + [k]A`; `reduce` says that `k` is taken modulo `L`. -/
def Valid (reduce : Bool) (pk msg sig : Bytes) : Prop :=
  sig.length = 64 ∧ leNat (sig.drop 32) < L ∧ ∃ A R, Decodes pk A ∧ Decodes (sig.take 32) R ∧
    let k := challenge (sig.take 32) pk msg
    mul (leNat (sig.drop 32)) B = add R (mul (if reduce then k % L else k) A)

/-- Section 5.1.7 with the equation `[8][S]B = [8]R + [8][k]A`. -/
def ValidCofactor (pk msg sig : Bytes) : Prop :=
  sig.length = 64 ∧ leNat (sig.drop 32) < L ∧ ∃ A R, Decodes pk A ∧ Decodes (sig.take 32) R ∧
    mul 8 (mul (leNat (sig.drop 32)) B) = add (mul 8 R) (mul 8 (mul (challenge (sig.take 32) pk msg) A))

end Verif.Spec.Ed25519
