import Verif.Spec.Ed25519
import Verif.Model.LeWords
import Verif.Model.Pkcs1
import Verif.Model.Pkcs8
import Verif.Model.Hmac

/-!
Model of `graviola/src/mid/ed25519.rs` and `graviola/src/high/ed25519.rs`.

Simplified: an array of `u64` is a bit vector, words in little-endian order, and the array of eight words of a point is a pair of
such vectors; marking values secret or public and erasing them has no effect on values and is left out.  The curve and scalar
routines are assembly: parameters with contracts (`Asm.Ok`).
-/
namespace Verif.Ed25519
open Verif Verif.Ec Verif.Asn1 Bignum

/-- `EdwardsPoint`, ed25519.rs:171. -/
structure Pt where
  x : Elt 4
  y : Elt 4

/-- The assembly routines; the number in each contract is in the comment at the head of its file. -/
structure Asm where
  /-- `edwards25519_scalarmulbase` -/
  scalarmulbase : (scalar : Elt 4) → Pt
  /-- `edwards25519_scalarmuldouble` -/
  scalarmuldouble : (scalar : Elt 4) → (point : Pt) → (bscalar : Elt 4) → Pt
  /-- `edwards25519_decode`: the point, and whether decoding succeeded -/
  decode : (c : Bytes) → Pt × Bool
  /-- `bignum_neg_p25519` -/
  negP : (x : Elt 4) → Elt 4
  /-- `bignum_mod_n25519` -/
  modN : (x : Elt 8) → Elt 4
  /-- `bignum_madd_n25519` -/
  maddN : (x y c : Elt 4) → Elt 4

/-- The stored coordinates are those of the point `Q`, reduced. -/
def Pt.Is (P : Pt) (Q : Spec.Ed25519.Point) : Prop := P.x.toNat = Q.1.val ∧ P.y.toNat = Q.2.val

/-- What the comments of the routines promise. -/
structure Asm.Ok (A : Asm) : Prop where
  /-- "Given a scalar n, returns point (X,Y) = n * B" -/
  scalarmulbase : ∀ n, (A.scalarmulbase n).Is (Spec.Ed25519.mul n.toNat Spec.Ed25519.B)
  /-- "Given scalar = n, point = P and bscalar = m, returns in res the point (X,Y) = n * P + m * B" -/
  scalarmuldouble : ∀ n P m Q, Spec.Ed25519.OnCurve Q → P.Is Q →
    (A.scalarmuldouble n P m).Is (Spec.Ed25519.add (Spec.Ed25519.mul n.toNat Q) (Spec.Ed25519.mul m.toNat Spec.Ed25519.B))
  /-- "interprets the input byte string as a little-endian number representing a point (x,y) on the edwards25519 curve, encoded
  as 2^255 * x_0 + y where x_0 is the least significant bit of x" -/
  decode_ok : ∀ c Q, Spec.Ed25519.Decodes c Q → (A.decode c).2 = true ∧ (A.decode c).1.Is Q
  /-- "1 for failure, which means that the input does not correspond to the encoding of any edwards25519 point" -/
  decode_fail : ∀ c, c.length = 32 → (∀ Q, ¬Spec.Ed25519.Decodes c Q) → (A.decode c).2 = false
  /-- "z := (-x) mod p_25519, assuming x reduced" -/
  negP : ∀ x, x.toNat < Spec.Ed25519.p → (A.negP x).toNat = (Spec.Ed25519.p - x.toNat) % Spec.Ed25519.p
  /-- "z := x mod n_25519" -/
  modN : ∀ x, (A.modN x).toNat = x.toNat % Spec.Ed25519.L
  /-- "z := (x * y + c) mod n_25519" -/
  maddN : ∀ x y c, (A.maddN x y c).toNat = (x.toNat * y.toNat + c.toNat) % Spec.Ed25519.L

/-! ### mid/ed25519.rs -/

/-- `ORDER`, ed25519.rs:10-15. -/
def ORDER : Words := [0x5812631a5cf5d3ed#64, 0x14def9dea2f79cd6#64, 0x0000000000000000#64, 0x1000000000000000#64]

/-- `VerifyingKey`, ed25519.rs:109-113. -/
structure VerifyingKey where
  bytes : Bytes
  point : Pt

/-- `SigningKey`, ed25519.rs:17-22. -/
structure SigningKey where
  seed : Bytes
  s : Elt 4
  pfx : Bytes
  verifyingKey : VerifyingKey

/-- A panic of the hash function. -/
def hashed : Option Bytes → GR Bytes
  | some h => .ok h
  | none => .error .panic

/-- `ed25519_digest`, ed25519.rs:337-343. -/
def digest (x1 x2 x3 : Bytes) : GR Bytes := hashed (Pkcs1.hashParts Hmac.sha512 [x1, x2, x3])

/-- `EdwardsPoint::negate`, ed25519.rs:214-224. -/
def negate (A : Asm) (P : Pt) : Pt := ⟨A.negP P.x, P.y⟩

/-- `EdwardsPoint::decompress_from`, ed25519.rs:230-237. -/
def decompressFrom (A : Asm) (c : Bytes) : GR Pt :=
  if (A.decode c).2 then .ok (A.decode c).1 else .error (.err .NotOnCurve)

/-- `EdwardsPoint::compress`, ed25519.rs:240-264. -/
def compress (P : Pt) : Bytes :=
  let xb := (words P.x)[0]!
  let y0 := (words P.y)[0]!
  let y1 := (words P.y)[1]!
  let y2 := (words P.y)[2]!
  let y3 := (words P.y)[3]!
  let y3 := (y3 &&& 0x7fffffffffffffff#64) ||| (xb <<< 63)
  toLE 8 y0.toNat ++ toLE 8 y1.toNat ++ toLE 8 y2.toNat ++ toLE 8 y3.toNat

/-- `UnreducedScalar::clamp_from_le_bytes`, ed25519.rs:272-283. -/
def clampFromLeBytes (x : Bytes) : Elt 4 :=
  let x := x.set 0 (x[0]! &&& 0b11111000#8)
  let x := x.set 31 (x[31]! &&& 0b01111111#8)
  let x := x.set 31 (x[31]! ||| 0b01000000#8)
  leArrayTo 4 x

/-- `Scalar::try_from_le_bytes`, ed25519.rs:300-304. -/
def tryFromLeBytes (x : Bytes) : Option (Elt 4) :=
  let s := leArrayTo 4 x
  if cmpLt (words s) ORDER ≠ 0#64 then some s else none

/-- `Scalar::reduce_from_le_bytes`, ed25519.rs:307-311. -/
def reduceFromLeBytes (A : Asm) (x : Bytes) : Elt 4 := A.modN (leArrayTo 8 x)

/-- `SigningKey::from_seed`, ed25519.rs:25-52. -/
def fromSeed (A : Asm) (seed : Bytes) : GR SigningKey := do
  let h ← hashed (Pkcs1.hashParts Hmac.sha512 [seed])
  let s := clampFromLeBytes (h.take 32)
  let pfx := (h.drop 32).take 32
  let point := A.scalarmulbase s
  let bytes := compress point
  .ok { seed := seed, pfx := pfx, s := s, verifyingKey := ⟨bytes, point⟩ }

/-- `SigningKey::sign`, ed25519.rs:55-87. -/
def sign (A : Asm) (key : SigningKey) (msg : Bytes) : GR Bytes := do
  let r ← digest key.pfx msg []
  let r := reduceFromLeBytes A r
  let rb := A.scalarmulbase r
  let sigR := compress rb
  let k ← digest sigR key.verifyingKey.bytes msg
  let k := reduceFromLeBytes A k
  let s := A.maddN k key.s r
  .ok (sigR ++ toLittleEndian s)

/-- `VerifyingKey::from_bytes`, ed25519.rs:116-125. -/
def VerifyingKey.fromBytes (A : Asm) (bytes : Bytes) : GR VerifyingKey :=
  if bytes.length = 32 then do
    let point ← decompressFrom A bytes
    .ok ⟨bytes, point⟩
  else .error (.err .WrongLength)

/-- `Scalar::try_from_le_bytes(s).ok_or(Error::BadSignature)?`, ed25519.rs:137. -/
def scalarOrBad : Option (Elt 4) → GR (Elt 4)
  | some s => .ok s
  | none => .error (.err .BadSignature)

/-- `VerifyingKey::verify`, ed25519.rs:128-155, for a signature of 64 bytes. -/
def VerifyingKey.verifyArray (A : Asm) (key : VerifyingKey) (sig msg : Bytes) : GR Unit := do
  let rSig := sig.take 32
  let s ← scalarOrBad (tryFromLeBytes (sig.drop 32))
  let k ← digest rSig key.bytes msg
  let k := reduceFromLeBytes A k
  let r := compress (A.scalarmuldouble k (negate A key.point) s)
  if rSig = r then .ok () else .error (.err .BadSignature)

/-! ### high/ed25519.rs -/

/-- `Ed25519VerifyingKey::from_spki_der`, high/ed25519.rs:18-27. -/
def VerifyingKey.fromSpkiDer (A : Asm) (bytes : Bytes) : GR VerifyingKey := do
  let decoded ← Pkcs8.liftAsn1 (subjectPublicKeyInfoCodec.fromBytes bytes)
  if decoded.algorithm.algorithm ≠ id_ed25519 then .error (.err (.KeyFormatError .MismatchedSpkiAlgorithm))
  else VerifyingKey.fromBytes A decoded.subjectPublicKey.octets

/-- `.map_err(|_| Error::WrongLength)`, high/ed25519.rs:47. -/
def orWrongLength {α : Type} : Asn1.R α → GR α
  | .ok v => .ok v
  | .error (.err _) => .error (.err .WrongLength)
  | .error .panic => .error .panic

/-- `Ed25519VerifyingKey::to_spki_der`, high/ed25519.rs:34-49: the used prefix of the buffer. -/
def VerifyingKey.toSpkiDer (key : VerifyingKey) (output : Bytes) : GR Bytes := do
  let spki : SubjectPublicKeyInfo := ⟨⟨id_ed25519, none⟩, ⟨key.bytes⟩⟩
  let (len, out) ← orWrongLength (subjectPublicKeyInfoCodec.encodeInto spki output)
  if len ≤ out.length then .ok (out.take len) else .error .panic

/-- `Ed25519VerifyingKey::as_bytes`, high/ed25519.rs:58-60. -/
def VerifyingKey.asBytes (key : VerifyingKey) : Bytes := key.bytes

/-- `Ed25519VerifyingKey::verify`, high/ed25519.rs:67-74. -/
def VerifyingKey.verify (A : Asm) (key : VerifyingKey) (sig msg : Bytes) : GR Unit :=
  if sig.length = 64 then key.verifyArray A sig msg else .error (.err .BadSignature)

/-- `SystemRandom.fill(&mut seed)?`. -/
def filled : Except GError Bytes → GR Bytes
  | .ok b => .ok b
  | .error e => .error (.err e)

/-- `Ed25519SigningKey::generate`, high/ed25519.rs:82-89, with call `i` of the random source. -/
def SigningKey.generate (A : Asm) (rng : RandomSource) (i : Nat) : GR SigningKey := do
  let seed ← filled (rng i 32)
  fromSeed A seed

/-- `Ed25519SigningKey::public_key`, high/ed25519.rs:98-101. -/
def SigningKey.publicKey (key : SigningKey) : VerifyingKey := key.verifyingKey

/-- `Ed25519SigningKey::from_bytes`, high/ed25519.rs:161-166. -/
def SigningKey.fromBytes (A : Asm) (seed : Bytes) : GR SigningKey :=
  if seed.length = 32 then fromSeed A seed else .error (.err .WrongLength)

/-- `Ed25519SigningKey::as_seed`, high/ed25519.rs:169-171. -/
def SigningKey.asSeed (key : SigningKey) : Bytes := key.seed

/-- `if let Some(alleged_pub_key) = ..`, high/ed25519.rs:116-121. -/
def checkPublic (key : SigningKey) : Option Bytes → GR SigningKey
  | some alleged =>
    if alleged ≠ key.publicKey.asBytes then .error (.err (.KeyFormatError .MismatchedPkcs8PublicKey)) else .ok key
  | none => .ok key

/-- `Ed25519SigningKey::from_pkcs8_der`, high/ed25519.rs:107-124. -/
def SigningKey.fromPkcs8Der (A : Asm) (bytes : Bytes) : GR SigningKey := do
  let p8 ← Pkcs8.decode bytes id_ed25519 none
  let pk ← Pkcs8.liftAsn1 (octetStringCodec.fromBytes (Pkcs8.privateKey p8))
  let key ← SigningKey.fromBytes A pk.octets
  checkPublic key (Pkcs8.publicKey p8)

/-- The buffer after `OctetString::encode` and the `assert_eq!`, high/ed25519.rs:136-140. -/
def seedOctets (seed : Bytes) : GR Bytes := do
  let (len, out) ← Pkcs8.liftAsn1 (octetStringCodec.encodeInto ⟨seed⟩ (List.replicate 34 0#8))
  if len = out.length then .ok out else .error .panic

/-- `Ed25519SigningKey::to_pkcs8_der`, high/ed25519.rs:133-158. -/
def SigningKey.toPkcs8Der (key : SigningKey) (output : Bytes) : GR Bytes := do
  let priv ← seedOctets key.seed
  Pkcs8.encode (Pkcs8.construct priv (some key.publicKey.asBytes) id_ed25519 none) output

end Verif.Ed25519
