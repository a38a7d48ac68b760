import Mathlib.Data.Nat.Prime.Defs
import Verif.Spec.PkixDer

/-!
RSA, RFC 8017, in numbers.
-/
namespace Verif.Spec.Rsa

/-- RSAEP, RSAVP1 (RFC 8017, 5.1.1 and 5.2.2): the representative must be below the modulus. -/
def publicOp (n e c : Nat) : Option Nat := if c < n then some (c ^ e % n) else none

/-- A valid two-prime RSA key (RFC 8017, 3.1 and 3.2): distinct odd primes, their product as modulus, and exponents and
coefficient that match. -/
structure ValidKey (n e d p q dp dq qInv : Nat) : Prop where
  primeP : p.Prime
  primeQ : q.Prime
  oddP : p % 2 = 1
  oddQ : q % 2 = 1
  distinct : p ≠ q
  modulus : n = p * q
  expD : e * d % Nat.lcm (p - 1) (q - 1) = 1
  expP : e * dp % (p - 1) = 1
  expQ : e * dq % (q - 1) = 1
  coeff : q * qInv % p = 1
  dp_lt : dp < p
  dq_lt : dq < q
  qInv_lt : qInv < p

open Verif.Spec.Der in
/-- RSAPublicKey (RFC 8017, A.1.1). -/
def publicKeyDer (n e : Nat) : Bytes := seq [natInt n, natInt e]

open Verif.Spec.Der in
/-- RSAPrivateKey, two primes (RFC 8017, A.1.2). -/
def privateKeyDer (n e d p q dp dq qInv : Nat) : Bytes :=
  seq [natInt 0, natInt n, natInt e, natInt d, natInt p, natInt q, natInt dp, natInt dq, natInt qInv]

open Verif.Spec.Der in
/-- SubjectPublicKeyInfo of an RSA key (RFC 3279, 2.3.1): rsaEncryption, NULL parameters. -/
def spkiDer (n e : Nat) : Bytes :=
  seq [seq [tlv 0x06#8 (oidBytes 1 2 [840, 113549, 1, 1, 1]), null], tlv 0x03#8 (0#8 :: publicKeyDer n e)]

end Verif.Spec.Rsa
