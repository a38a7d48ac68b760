import Verif.Spec.X25519
import Verif.Model.LeWords
import Verif.Model.Rng

/-!
Model of `graviola/src/mid/x25519.rs`.

Simplified: an array of four `u64` is a bit vector, words in little-endian order; marking values secret or public and erasing them
has no effect on values and is left out.  The curve routines are assembly: parameters with contracts (`Asm.Ok`).
-/
namespace Verif.X25519
open Verif Verif.Ec Bignum
open Verif.Spec.Ed25519 (F clamp)

/-- The assembly routines. -/
structure Asm where
  /-- `curve25519_x25519` -/
  x25519 : (scalar point : Elt 4) → Elt 4
  /-- `curve25519_x25519base` -/
  x25519base : (scalar : Elt 4) → Elt 4

/-- What the comments of the routines promise: the function of RFC 7748, section 5, with "both n and X inputs first slightly
modified/mangled as specified in the relevant RFC". -/
structure Asm.Ok (A : Asm) : Prop where
  x25519 : ∀ n u, (A.x25519 n u).toNat = (Spec.X25519.scalarMult (clamp n.toNat) ((u.toNat % 2 ^ 255 : Nat) : F)).val
  x25519base : ∀ n, (A.x25519base n).toNat = (Spec.X25519.scalarMult (clamp n.toNat) 9).val

/-- `PrivateKey`, x25519.rs:15. -/
structure PrivateKey where
  words : Elt 4

/-- `PublicKey`, x25519.rs:137. -/
structure PublicKey where
  words : Elt 4

/-- `StaticPrivateKey`, x25519.rs:76. -/
structure StaticPrivateKey where
  key : PrivateKey

/-- `SharedSecret`, x25519.rs:166. -/
structure SharedSecret where
  bytes : Bytes

/-- `ZERO`, x25519.rs:68. -/
def ZERO : Words := [0#64, 0#64, 0#64, 0#64]

/-- `PrivateKey::new_random`, x25519.rs:23-29, with call `i` of the random source. -/
def PrivateKey.newRandom (rng : RandomSource) (i : Nat) : Except GError PrivateKey := do
  let r ← rng i 32
  return ⟨leArrayTo 4 r⟩

/-- `PrivateKey::public_key`, x25519.rs:32-37. -/
def PrivateKey.publicKey (A : Asm) (k : PrivateKey) : PublicKey := ⟨A.x25519base k.words⟩

/-- `PrivateKey::diffie_hellman`, x25519.rs:48-59. -/
def PrivateKey.diffieHellman (A : Asm) (k : PrivateKey) (peer : PublicKey) : Except GError SharedSecret :=
  let res := A.x25519 k.words peer.words
  if Bignum.eq (Ec.words res) ZERO then .error .NotOnCurve
  else .ok ⟨toLittleEndian res⟩

/-- `StaticPrivateKey::try_from_slice`, x25519.rs:84-90. -/
def StaticPrivateKey.tryFromSlice (b : Bytes) : Except GError StaticPrivateKey :=
  match leSliceTo 4 b with
  | some w => .ok ⟨⟨w⟩⟩
  | none => .error .WrongLength

/-- `StaticPrivateKey::from_array`, x25519.rs:93-97; `b` has 32 bytes. -/
def StaticPrivateKey.fromArray (b : Bytes) : StaticPrivateKey := ⟨⟨leArrayTo 4 b⟩⟩

/-- `StaticPrivateKey::as_bytes`, x25519.rs:100-105. -/
def StaticPrivateKey.asBytes (k : StaticPrivateKey) : Bytes := toLittleEndian k.key.words

/-- `StaticPrivateKey::new_random`, x25519.rs:110-113. -/
def StaticPrivateKey.newRandom (rng : RandomSource) (i : Nat) : Except GError StaticPrivateKey :=
  (PrivateKey.newRandom rng i).map (⟨·⟩)

/-- `StaticPrivateKey::public_key`, x25519.rs:116-119. -/
def StaticPrivateKey.publicKey (A : Asm) (k : StaticPrivateKey) : PublicKey := k.key.publicKey A

/-- `StaticPrivateKey::diffie_hellman`, x25519.rs:130-133. -/
def StaticPrivateKey.diffieHellman (A : Asm) (k : StaticPrivateKey) (peer : PublicKey) : Except GError SharedSecret :=
  PrivateKey.diffieHellman A ⟨k.key.words⟩ peer

/-- `PublicKey::try_from_slice`, x25519.rs:145-150. -/
def PublicKey.tryFromSlice (b : Bytes) : Except GError PublicKey :=
  match leSliceTo 4 b with
  | some w => .ok ⟨w⟩
  | none => .error .WrongLength

/-- `PublicKey::from_array`, x25519.rs:153-156; `b` has 32 bytes. -/
def PublicKey.fromArray (b : Bytes) : PublicKey := ⟨leArrayTo 4 b⟩

/-- `PublicKey::as_bytes`, x25519.rs:159-162. -/
def PublicKey.asBytes (k : PublicKey) : Bytes := toLittleEndian k.words

/-- `SharedSecret::as_bytes`, x25519.rs:170-174. -/
def SharedSecret.asBytes (s : SharedSecret) : Bytes := s.bytes

end Verif.X25519
