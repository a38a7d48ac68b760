import Verif.Spec.Rsa
import Verif.Spec.Pkcs1
import Verif.Spec.Ecdsa
import Verif.Spec.Ed25519
import Verif.Spec.Sha2
import Verif.Proof.EcCard

/-!
Signature schemes of TLS (RFC 8446, 4.2.3) and the signature algorithms of X.509 they use, down to the equations of RFC 8017,
FIPS 186-5 and RFC 8032.  (`Verif.Proof.EcCard` is needed only for the primality of the moduli of the two curves.)
-/
namespace Verif.Spec.TlsScheme
open Verif Verif.Spec.Der

inductive Hash
  | sha256 | sha384 | sha512
deriving DecidableEq

def Hash.fn : Hash → Bytes → Bytes
  | .sha256 => Sha2.sha256
  | .sha384 => Sha2.sha384
  | .sha512 => Sha2.sha512

/-- Length of the result in octets. -/
def Hash.len : Hash → Nat
  | .sha256 => 32
  | .sha384 => 48
  | .sha512 => 64

/-- The object identifiers 2.16.840.1.101.3.4.2.x, after the first two arcs. -/
def Hash.arcs : Hash → List Nat
  | .sha256 => [840, 1, 101, 3, 4, 2, 1]
  | .sha384 => [840, 1, 101, 3, 4, 2, 2]
  | .sha512 => [840, 1, 101, 3, 4, 2, 3]

/-- What a signature algorithm is: a kind of key, for RSA a padding, and a hash. -/
inductive Alg
  | rsaPkcs1 (h : Hash)
  | rsaPss (h : Hash)
  | ecdsaP256 (h : Hash)
  | ecdsaP384 (h : Hash)
  | ed25519
deriving DecidableEq

/-- The number of octets of a modulus. -/
def Octets (n k : Nat) : Prop := 256 ^ (k - 1) ≤ n ∧ n < 256 ^ k

/-- Signature verification with the public key in the form it has inside a certificate.  Two points are laxer than the standards,
as the library is (C09, C35): an RSA signature is a number, however many zeros precede it (PSS: no longer than the modulus), and a
coordinate of a public key may be written unreduced. -/
def Alg.Valid (pk msg sig : Bytes) : Alg → Prop
  | .rsaPkcs1 h => ∃ n e k, pk = Rsa.publicKeyDer n e ∧ Octets n k ∧ beNat sig < n ∧
      Pkcs1.emsaPkcs1 k (Pkcs1.digestInfo h.arcs (h.fn msg)) = some (toBE k (beNat sig ^ e % n))
  | .rsaPss h => ∃ n e k, pk = Rsa.publicKeyDer n e ∧ Octets n k ∧ sig.length ≤ k ∧ beNat sig < n ∧
      ∃ salt, salt.length = h.len ∧ toBE k (beNat sig ^ e % n) = Pkcs1.emsaPss h.fn h.len (8 * k - 1) (h.fn msg) salt
  | .ecdsaP256 h => ∃ xb yb Q r s, pk = 0x04#8 :: (xb ++ yb) ∧ xb.length = 32 ∧ yb.length = 32 ∧
      Nist.p256.OnCurve (beNat xb) (beNat yb) ∧ Nist.p256.At Q (beNat xb % Nist.p256.p) (beNat yb % Nist.p256.p) ∧
      sig = seq [natInt r, natInt s] ∧ Nist.p256.Verifies Q (Nist.hashInt 32 (h.fn msg)) r s
  | .ecdsaP384 h => ∃ xb yb Q r s, pk = 0x04#8 :: (xb ++ yb) ∧ xb.length = 48 ∧ yb.length = 48 ∧
      Nist.p384.OnCurve (beNat xb) (beNat yb) ∧ Nist.p384.At Q (beNat xb % Nist.p384.p) (beNat yb % Nist.p384.p) ∧
      sig = seq [natInt r, natInt s] ∧ Nist.p384.Verifies Q (Nist.hashInt 48 (h.fn msg)) r s
  | .ed25519 => Ed25519.Valid true pk msg sig

end Verif.Spec.TlsScheme
