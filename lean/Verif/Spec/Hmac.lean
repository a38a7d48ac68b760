import Verif.Base.Bytes

/-!
HMAC (FIPS 198-1) and HMAC_DRBG (SP 800-90A, 10.1.2) over an arbitrary hash function.
-/
namespace Verif.Spec.Hmac
open Verif

/-- FIPS 198-1, table 1, steps 1-3: the block-sized key. -/
def blockKey (H : Bytes → Bytes) (B : Nat) (key : Bytes) : Bytes :=
  let k := if key.length ≤ B then key else H key
  k ++ List.replicate (B - k.length) 0#8

/-- FIPS 198-1: `H((K0 ⊕ opad) ‖ H((K0 ⊕ ipad) ‖ text))`. -/
def hmac (H : Bytes → Bytes) (B : Nat) (key text : Bytes) : Bytes :=
  let K0 := blockKey H B key
  H (K0.map (· ^^^ 0x5c#8) ++ H (K0.map (· ^^^ 0x36#8) ++ text))

/-- SP 800-90A, 10.1.2.2: HMAC_DRBG_Update on `(Key, V)`; `none` is a null `provided_data`. -/
def drbgUpdate (mac : Bytes → Bytes → Bytes) (K V : Bytes) (data : Option Bytes) : Bytes × Bytes :=
  let d := data.getD []
  let K := mac K (V ++ [0#8] ++ d)
  let V := mac K V
  match data with
  | none => (K, V)
  | some _ =>
    let K := mac K (V ++ [1#8] ++ d)
    let V := mac K V
    (K, V)

/-- SP 800-90A, 10.1.2.3: instantiate. -/
def drbgInstantiate (mac : Bytes → Bytes → Bytes) (outlen : Nat) (entropy nonce pers : Bytes) :
    Bytes × Bytes :=
  drbgUpdate mac (List.replicate outlen 0#8) (List.replicate outlen 1#8) (some (entropy ++ nonce ++ pers))

/-- `n` successive values `V := mac K V`. -/
def vs (mac : Bytes → Bytes → Bytes) (K V : Bytes) : Nat → List Bytes
  | 0 => []
  | n + 1 => mac K V :: vs mac K (mac K V) n

/-- SP 800-90A, 10.1.2.5, without additional input: the requested bytes are the leftmost of
the concatenated `V`s, and the new state follows from the last `V`. -/
def drbgGenerate (mac : Bytes → Bytes → Bytes) (outlen : Nat) (K V : Bytes) (n : Nat) :
    Bytes × (Bytes × Bytes) :=
  let blocks := vs mac K V ((n + outlen - 1) / outlen)
  (blocks.flatten.take n, drbgUpdate mac K (blocks.getLastD V) none)

end Verif.Spec.Hmac
