import Verif.Base.Chunks

/-!
Poly1305 as in RFC 8439, 2.5: arithmetic on natural numbers modulo 2^130 - 5.
-/
namespace Verif.Spec.Poly1305
open Verif

/-- The prime 2^130 - 5. -/
def P : Nat := 2 ^ 130 - 5

/-- The clamped multiplier: RFC 8439, 2.5.1. -/
def r (key : Bytes) : Nat := leNat (key.take 16) &&& 0x0ffffffc0ffffffc0ffffffc0fffffff

/-- One block (of at most 16 bytes) with the added one byte, as a number. -/
def blockNum (b : Bytes) : Nat := leNat (b ++ [1#8])

/-- `acc := (acc + block) * r mod P` over the 16-byte blocks of the message, the last one possibly
shorter. -/
def acc (key m : Bytes) : Nat :=
  (chunks 16 m).foldl (fun a b => ((a + blockNum b) * r key) % P) 0

/-- The tag: the low 128 bits of `acc + s`. -/
def mac (key m : Bytes) : Bytes := toLE 16 (acc key m + leNat ((key.drop 16).take 16))

end Verif.Spec.Poly1305
