import Verif.Base.Bytes
import Verif.Spec.Hmac
import Verif.Spec.NistCurves

/-!
Point encoding of SEC 1, ECDSA of FIPS 186-5, section 6.4, over the curves of `Verif.Spec.NistCurves`, and the choice of its
per-message secret by RFC 6979.
-/
namespace Verif.Spec.Nist

variable (D : Params) [Fact D.p.Prime]

/-- The affine coordinates of a finite point, as integers below `p`. -/
def Params.At (P : D.Pt) (x y : Nat) : Prop := x < D.p ∧ y < D.p ∧ D.Coords P x y

/-- SEC 1, section 2.3.3, without compression; `len` is the number of bytes of a coordinate. -/
def encodePoint (len x y : Nat) : Bytes := 0x04#8 :: (toBE len x ++ toBE len y)

/-- The curve equation on integers, `y² + 3x = x³ + b` modulo `p`. -/
def Params.OnCurve (x y : Nat) : Prop := (y ^ 2 + 3 * x) % D.p = (x ^ 3 + D.b) % D.p

/-- FIPS 186-5, section 6.4.1, steps 1 and 2 (6.4.2, steps 2 and 3): the integer of the leftmost bits of a hash.  `len` is the
length of `n` in bytes; the `n` of both curves fills all of its bits. -/
def hashInt (len : Nat) (h : Bytes) : Nat := beNat (h.take len)

/-- FIPS 186-5, section 6.4.1, steps 4 to 10: `(r, s)` is what the private key `d` gives for the hash `e` and the per-message
secret `k`. -/
def Params.Signs (d e k r s : Nat) : Prop :=
  (∃ x y, D.At (k • D.G) x y ∧ r = x % D.n) ∧ s < D.n ∧ k * s % D.n = (e + r * d) % D.n

/-- FIPS 186-5, section 6.4.2: `(r, s)` is a valid signature of the hash `e` under the public key `Q`. -/
def Params.Verifies (Q : D.Pt) (e r s : Nat) : Prop :=
  1 ≤ r ∧ r < D.n ∧ 1 ≤ s ∧ s < D.n ∧
    ∃ w x y, s * w % D.n = 1 ∧ D.At ((e * w % D.n) • D.G + (r * w % D.n) • Q) x y ∧ x % D.n = r

/-- The state of HMAC_DRBG after `j` requests for `len` bytes. -/
def drbgAfter (mac : Bytes → Bytes → Bytes) (outlen len : Nat) (start : Bytes × Bytes) : Nat → Bytes × Bytes
  | 0 => start
  | j + 1 =>
    let st := drbgAfter mac outlen len start j
    (Hmac.drbgGenerate mac outlen st.1 st.2 len).2

omit [Fact D.p.Prime] in
/-- RFC 6979, sections 3.2 and 3.6: candidate number `j` for the per-message secret, where `mac` is HMAC with the hash of the
message and `outlen` its length, `len` the length of `n`, `d` the private key, `e` the integer of the hash and `extra` the
additional data. -/
def Params.candidate (mac : Bytes → Bytes → Bytes) (outlen len d e : Nat) (extra : Bytes) (j : Nat) : Nat :=
  let st := drbgAfter mac outlen len (Hmac.drbgInstantiate mac outlen (toBE len d) (toBE len (e % D.n)) extra) j
  beNat (Hmac.drbgGenerate mac outlen st.1 st.2 len).1

/-- RFC 6979, section 3.2, step h.3: the candidate is in `1 … n-1` and gives an `r` other than 0. -/
def Params.Suitable (k : Nat) : Prop := 1 ≤ k ∧ k < D.n ∧ ∃ x y, D.At (k • D.G) x y ∧ x % D.n ≠ 0

end Verif.Spec.Nist
