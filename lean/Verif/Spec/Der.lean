import Verif.Base.Bytes

/-!
Specification of DER (X.690) for the subset used, independent of the code:
tag-length-value framing, two's complement INTEGER contents, OBJECT IDENTIFIER contents.
-/
namespace Verif.Spec.Der
open Verif

/-- Minimal big-endian digits, base 256; no digits for 0. -/
def natBytes (n : Nat) : Bytes :=
  if n = 0 then [] else natBytes (n / 256) ++ [BitVec.ofNat 8 n]
termination_by n

/-- X.690 8.1.3 / 10.1: definite length in the fewest octets. -/
def lenOctets (n : Nat) : Bytes :=
  if n < 128 then [BitVec.ofNat 8 n]
  else BitVec.ofNat 8 (128 + (natBytes n).length) :: natBytes n

/-- Tag, length, contents. -/
def tlv (tag : Byte) (body : Bytes) : Bytes := tag :: (lenOctets body.length ++ body)

/-- The integer denoted by two's complement contents octets (X.690 8.3.3). -/
def twosComp : Bytes → Int
  | [] => 0
  | b :: bs => (beNat (b :: bs) : Int) - (if b.toNat ≥ 128 then (256 ^ (bs.length + 1) : Nat) else 0)

/-- Contents octets are minimal when no non-empty shorter string denotes the same integer
(X.690 8.3.2 in semantic form). -/
def MinimalInt (bs : Bytes) : Prop :=
  bs ≠ [] ∧ ∀ bs', bs' ≠ [] → twosComp bs' = twosComp bs → bs.length ≤ bs'.length

/-- Contents octets of a natural number: its bits after at least one zero bit, in whole octets. -/
def natOctets (v : Nat) : Bytes := toBE ((if v = 0 then 0 else v.log2 + 1) / 8 + 1) v

/-- The INTEGER of a natural number. -/
def natInt (v : Nat) : Bytes := tlv 0x02#8 (natOctets v)

/-- Minimal base-128 digits of `n`, most significant first; no digits for 0. -/
def digits128 (n : Nat) : List Nat :=
  if n = 0 then [] else digits128 (n / 128) ++ [n % 128]
termination_by n

/-- X.690 8.19.2: a subidentifier; every octet but the last has bit 8 set. -/
def subidentifier (n : Nat) : Bytes :=
  ((digits128 (n / 128)).map fun d => BitVec.ofNat 8 (128 + d)) ++ [BitVec.ofNat 8 (n % 128)]

/-- X.690 8.19.4: contents octets of an object identifier with at least two arcs. -/
def oidBytes (a b : Nat) (rest : List Nat) : Bytes :=
  subidentifier (40 * a + b) ++ (rest.map subidentifier).flatten

/-- Decoder for a sequence of subidentifiers: `acc` holds the digits of the one being read. -/
def decodeSubs (acc : Nat) : Bytes → List Nat
  | [] => []
  | b :: bs =>
    if b.toNat < 128 then (acc * 128 + b.toNat) :: decodeSubs 0 bs
    else decodeSubs (acc * 128 + (b.toNat - 128)) bs

/-- X.690 8.19.4, reading direction: the first subidentifier holds two arcs. -/
def decodeOid (bs : Bytes) : List Nat :=
  match decodeSubs 0 bs with
  | [] => []
  | x :: rest => min (x / 40) 2 :: (x - 40 * min (x / 40) 2) :: rest

end Verif.Spec.Der
