import Verif.Model.Hmac
import Verif.Model.Rng
import Verif.Base.Chunks

/-!
Model of `graviola/src/high/pkcs1.rs`: the two signature paddings.
-/
namespace Verif.Pkcs1
open Verif Verif.Hmac

/-- `encode_pkcs1_sig`, pkcs1.rs:17-57, into a buffer of `emLen` bytes; `none` is the assertion. -/
def encodePkcs1Sig (emLen : Nat) (digestInfo hash : Bytes) : Option Bytes :=
  let tLen := digestInfo.length + hash.length
  if emLen < tLen + 11 then none
  else
    let paddingLen := emLen - tLen
    let psLen := paddingLen - 3
    some ([0x00#8] ++ [0x01#8] ++ List.replicate psLen 0xff#8 ++ [0x00#8] ++ digestInfo ++ hash)

/-- `DIGESTINFO_SHA256`, pkcs1.rs:59-62. -/
def DIGESTINFO_SHA256 : Bytes := [
  0x30#8, 0x31#8, 0x30#8, 0x0d#8, 0x06#8, 0x09#8, 0x60#8, 0x86#8, 0x48#8, 0x01#8, 0x65#8, 0x03#8, 0x04#8, 0x02#8, 0x01#8, 0x05#8,
  0x00#8, 0x04#8, 0x20#8]
/-- `DIGESTINFO_SHA384`, pkcs1.rs:64-67. -/
def DIGESTINFO_SHA384 : Bytes := [
  0x30#8, 0x41#8, 0x30#8, 0x0d#8, 0x06#8, 0x09#8, 0x60#8, 0x86#8, 0x48#8, 0x01#8, 0x65#8, 0x03#8, 0x04#8, 0x02#8, 0x02#8, 0x05#8,
  0x00#8, 0x04#8, 0x30#8]
/-- `DIGESTINFO_SHA512`, pkcs1.rs:69-72. -/
def DIGESTINFO_SHA512 : Bytes := [
  0x30#8, 0x51#8, 0x30#8, 0x0d#8, 0x06#8, 0x09#8, 0x60#8, 0x86#8, 0x48#8, 0x01#8, 0x65#8, 0x03#8, 0x04#8, 0x02#8, 0x03#8, 0x05#8,
  0x00#8, 0x04#8, 0x40#8]

/-- `H::new()`, one `update` per part, `finish()`. -/
def hashParts (F : HashFn) (parts : List Bytes) : Option Bytes := (parts.foldlM F.update F.new).bind F.finish

/-- `for (out, t) in chunk.iter_mut().zip(term) { *out ^= *t; }`, pkcs1.rs:240-242. -/
def xorInto (chunk term : Bytes) : Bytes := List.zipWith (· ^^^ ·) chunk term ++ chunk.drop term.length

/-- The loop of `mgf1_xor`, pkcs1.rs:234-243, from counter `i` on.  The counter is a `u32` range that cannot pass its end. -/
def mgf1Loop (F : HashFn) (seed : Bytes) : List Bytes → Nat → Option Bytes
  | [], _ => some []
  | c :: cs, i =>
    if 2 ^ 32 ≤ i + 1 then none
    else do
      let term ← hashParts F [seed, toBE 4 i]
      let rest ← mgf1Loop F seed cs (i + 1)
      pure (xorInto c term ++ rest)

/-- `mgf1_xor`, pkcs1.rs:233-244; `chunks_mut(0)` panics. -/
def mgf1Xor (F : HashFn) (seed : Bytes) (hLen : Nat) (out : Bytes) : Option Bytes :=
  if hLen = 0 then none else mgf1Loop F seed (chunks hLen out) 0

/-- `db[0] &= 0x7f`. -/
def clearTop : Bytes → Option Bytes
  | [] => none
  | b :: bs => some ((b &&& 0x7f#8) :: bs)

/-- `encode_pss_sig` after the salt is known, pkcs1.rs:105-141. -/
def pssBlock (F : HashFn) (emLen : Nat) (hash salt : Bytes) : Option Bytes := do
  let sLen := hash.length
  let hLen := hash.length
  let h ← hashParts F [List.replicate 8 0#8, hash, salt]
  if h.length ≠ hLen then none
  else if salt.length ≠ sLen then none
  else do
    let db := List.replicate (emLen - sLen - hLen - 2) 0#8 ++ [0x01#8] ++ salt
    let db ← mgf1Xor F h hLen db
    let db ← clearTop db
    pure (db ++ h ++ [0xbc#8])

/-- `encode_pss_sig`, pkcs1.rs:81-144, into a buffer of `emLen` bytes; `i` is the number of the call to the source. -/
def encodePssSig (F : HashFn) (emLen : Nat) (rng : RandomSource) (i : Nat) (hash : Bytes) : GR Bytes :=
  if emLen < hash.length + hash.length + 2 then .error .panic
  else if F.outLen ≠ hash.length then .error .panic
  else match rng i F.outLen with
    | .error e => .error (.err e)
    | .ok salt => match pssBlock F emLen hash salt with
      | none => .error .panic
      | some em => .ok em

/-- `verify_pss_sig` after the checks of the trailer and the top bit, pkcs1.rs:184-229: `some true` is `Ok`. -/
def pssCheck (F : HashFn) (emLen : Nat) (maskedDb h mHash : Bytes) : Option Bool := do
  let hLen := mHash.length
  let sLen := hLen
  let db ← mgf1Xor F h hLen maskedDb
  let db ← clearTop db
  let zeroes := db.take (emLen - hLen - sLen - 2)
  let oneSalt := db.drop (emLen - hLen - sLen - 2)
  match oneSalt with
  | [] => none
  | one :: salt =>
    if zeroes.any (· != 0x00#8) || one != 0x01#8 then pure false
    else do
      let h' ← hashParts F [List.replicate 8 0#8, mHash, salt]
      pure (Ct.ctEqual h' h)

/-- `verify_pss_sig`, pkcs1.rs:155-230. -/
def verifyPssSig (F : HashFn) (em mHash : Bytes) : GR Unit :=
  let emLen := em.length
  let hLen := mHash.length
  let sLen := hLen
  if emLen < hLen + sLen + 2 then .error (.err .BadSignature)
  else if em.getLastD 0#8 ≠ 0xbc#8 then .error (.err .BadSignature)
  else
    let em := em.dropLast
    let maskedDb := em.take (emLen - hLen - 1)
    let h := em.drop (emLen - hLen - 1)
    if maskedDb.headD 0#8 &&& 0x80#8 ≠ 0x00#8 then .error (.err .BadSignature)
    else match pssCheck F emLen maskedDb h mHash with
      | none => .error .panic
      | some true => .ok ()
      | some false => .error (.err .BadSignature)

end Verif.Pkcs1
