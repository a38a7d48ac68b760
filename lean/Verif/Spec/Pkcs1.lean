import Verif.Spec.PkixDer

/-!
The RSA signature encodings of RFC 8017, section 9, and MGF1 (appendix B.2.1).
-/
namespace Verif.Spec.Pkcs1
open Verif

/-- 9.2: `EM = 00 ‖ 01 ‖ PS ‖ 00 ‖ T`, where `PS` is at least eight octets of `ff`; `none`: too short. -/
def emsaPkcs1 (emLen : Nat) (T : Bytes) : Option Bytes :=
  if emLen < T.length + 11 then none
  else some ([0x00#8, 0x01#8] ++ List.replicate (emLen - T.length - 3) 0xff#8 ++ [0x00#8] ++ T)

/-- 9.2, note 1: the DER of `DigestInfo`, with the algorithm identified by an OID below 2.16 and `NULL` parameters. -/
def digestInfo (arcs : List Nat) (hash : Bytes) : Bytes :=
  Der.seq [Der.seq [Der.tlv 0x06#8 (Der.oidBytes 2 16 arcs), Der.tlv 0x05#8 []], Der.tlv 0x04#8 hash]

/-- B.2.1. -/
def mgf1 (H : Bytes → Bytes) (hLen : Nat) (seed : Bytes) (maskLen : Nat) : Bytes :=
  ((List.range ((maskLen + hLen - 1) / hLen)).flatMap fun i => H (seed ++ toBE 4 i)).take maskLen

/-- Set the leftmost `n` bits of the leftmost octet to zero. -/
def clearBits (n : Nat) : Bytes → Bytes
  | [] => []
  | b :: bs => (b &&& (0xff#8 >>> n)) :: bs

/-- 9.1.1 with a given salt (for a modulus of `emBits + 1` bits). -/
def emsaPss (H : Bytes → Bytes) (hLen emBits : Nat) (mHash salt : Bytes) : Bytes :=
  let emLen := (emBits + 7) / 8
  let M' := List.replicate 8 0#8 ++ mHash ++ salt
  let h := H M'
  let PS := List.replicate (emLen - salt.length - hLen - 2) 0#8
  let DB := PS ++ [0x01#8] ++ salt
  let dbMask := mgf1 H hLen h (emLen - hLen - 1)
  let maskedDB := clearBits (8 * emLen - emBits) (List.zipWith (· ^^^ ·) DB dbMask)
  maskedDB ++ h ++ [0xbc#8]

end Verif.Spec.Pkcs1
