import Verif.Model.PosInt
import Verif.Model.Pkcs1
import Verif.Model.Pkcs8

/-!
Model of `graviola/src/mid/rsa_pub.rs`, `graviola/src/mid/rsa_priv.rs` and `graviola/src/high/rsa.rs`.  Key generation is in
`Verif.Model.RsaGen`.  Zeroing of buffers, the `ct` markers and `Entry` are not modelled.
-/
namespace Verif.Rsa
open Verif Verif.Bignum Verif.Asn1

/-- A mid-level or integer `Result` seen as an outcome. -/
def lift {α : Type} : Except GError α → GR α
  | .ok v => .ok v
  | .error e => .error (.err e)
/-- `.map_err(|_| e)`. -/
def mapErr {α : Type} (e : GError) : GR α → GR α
  | .error (.err _) => .error (.err e)
  | r => r
/-- A call that panics on `none`. -/
def orPanic {α : Type} : Option α → GR α
  | some v => .ok v
  | none => .error .panic

/-! ### mid/rsa_pub.rs -/

/-- `RsaPublicKey`, rsa_pub.rs:7-15. -/
structure PublicKey where
  n : PosInt 128
  e : BitVec 32
  montifier : PosInt 128
  one : PosInt 128
  n0 : Word
  deriving DecidableEq

/-- `MIN_PUBLIC_MODULUS_BYTES` and `MAX_PUBLIC_MODULUS_BYTES`, rsa_pub.rs:85-90. -/
def MIN_PUBLIC_MODULUS_BYTES : Nat := 2048 / 8
def MAX_PUBLIC_MODULUS_BYTES : Nat := 8192 / 8

/-- `RsaPublicKey::new`, rsa_pub.rs:18-43. -/
def PublicKey.new (A : Asm) (n : PosInt 128) (e : BitVec 32) : Except GError PublicKey :=
  let nLen := n.lenBytes
  if n.isEven || !(decide (MIN_PUBLIC_MODULUS_BYTES ≤ nLen) && decide (nLen ≤ MAX_PUBLIC_MODULUS_BYTES)) || e == 0#32 then
    .error .OutOfRange
  else
    let montifier := n.montifier A
    let n0 := n.montNegInverse A
    .ok ⟨n, e, montifier, n.fixedOne.montMul A montifier n n0, n0⟩

/-- `modulus_len_bytes`, rsa_pub.rs:45-47. -/
def PublicKey.modulusLenBytes (k : PublicKey) : Nat := k.n.lenBytes

/-- One turn of the loop of `public_op`, rsa_pub.rs:63-77; the state is `first` and `accum`. -/
def publicStep (A : Asm) (k : PublicKey) (cMont : PosInt 128) (s : Bool × PosInt 128) (bit : Nat) : Bool × PosInt 128 :=
  let tmp := if s.1 then s.2 else s.2.montSqr A k.n k.n0
  let mask := 1#32 <<< bit
  if k.e &&& mask = mask then (false, tmp.montMul A cMont k.n k.n0) else (false, tmp)

/-- `public_op`, rsa_pub.rs:50-82. -/
def publicOp (A : Asm) (k : PublicKey) (c : PosInt 128) : Except GError (PosInt 128) :=
  if c.lessThan k.n = false then .error .OutOfRange
  else
    let c := c.expand k.n
    let cMont := c.toMontgomery A k.montifier k.n
    let s := (List.range (Nat.log2 k.e.toNat + 1)).reverse.foldl (publicStep A k cMont) (true, k.one)
    .ok (s.2.fromMontgomery A k.n)

/-! ### mid/rsa_priv.rs -/

/-- `RsaPrivateKey`, rsa_priv.rs:12-27. -/
structure PrivateKey where
  pub : PublicKey
  p : PosInt 64
  q : PosInt 64
  d : PosInt 128
  dp : PosInt 64
  dq : PosInt 64
  iqmp : PosInt 64
  iqmpMont : PosInt 64
  pMontifier : PosInt 64
  qMontifier : PosInt 64
  p0 : Word
  q0 : Word
  deriving DecidableEq

/-- `MIN_PRIVATE_MODULUS_BYTES` and `MAX_PRIVATE_MODULUS_BYTES`, rsa_priv.rs:229-234. -/
def MIN_PRIVATE_MODULUS_BYTES : Nat := 1024 / 8
def MAX_PRIVATE_MODULUS_BYTES : Nat := 4096 / 8

/-- `RsaPrivateKey::new`, rsa_priv.rs:30-76. -/
def PrivateKey.new (A : Asm) (p q : PosInt 64) (d : PosInt 128) (dp dq iqmp : PosInt 64) (n : PosInt 128) (e : BitVec 32) :
    Except GError PrivateKey :=
  let pLen := p.lenBytes
  if p.isEven || q.isEven || !(decide (MIN_PRIVATE_MODULUS_BYTES ≤ pLen) && decide (pLen ≤ MAX_PRIVATE_MODULUS_BYTES)) then
    .error .OutOfRange
  else match PublicKey.new A n e with
    | .error e => .error e
    | .ok pub =>
      let pMontifier := p.montifier A
      .ok {
        pub, p, q, d, dp, dq, iqmp
        iqmpMont := iqmp.toMontgomery A pMontifier p
        pMontifier
        qMontifier := q.montifier A
        p0 := p.montNegInverse A
        q0 := q.montNegInverse A }

/-- Steps i to iv of `private_op`, rsa_priv.rs:158-173. -/
def crt (A : Asm) (k : PrivateKey) (c : PosInt 128) : Option (PosInt 128) := do
  let cmp ← c.reduce A k.p k.pMontifier
  let m1 ← cmp.modExp A k.dp k.p k.pMontifier k.p0
  let cmq ← c.reduce A k.q k.qMontifier
  let m2 ← cmq.modExp A k.dq k.q k.qMontifier k.q0
  let h := (m1.subMod m2 k.p).montMul A k.iqmpMont k.p k.p0
  let w ← m2.widen 128
  let qh ← PosInt.mul 128 k.q h
  pure (w.add qh)

/-- `private_op`, rsa_priv.rs:141-184. -/
def privateOp (A : Asm) (k : PrivateKey) (c : PosInt 128) : GR (PosInt 128) :=
  if c.lessThan k.pub.n = false then .error (.err .OutOfRange)
  else match crt A k c with
    | none => .error .panic
    | some m => match publicOp A k.pub m with
      | .error e => .error (.err e)
      | .ok c2 => if c2.equals c then .ok m else .error (.err .DecryptFailed)

/-- `RsaComponents`, rsa_priv.rs:194-203. -/
structure Components where
  publicModulus : Bytes
  publicExponent : Bytes
  p : Bytes
  q : Bytes
  d : Bytes
  dp : Bytes
  dq : Bytes
  iqmp : Bytes

/-- `encode_components`, rsa_priv.rs:94-136. -/
def encodeComponents (k : PrivateKey) : Except GError Components := do
  let publicModulus ← k.pub.n.toBytesAsn1 (MAX_PUBLIC_MODULUS_BYTES + 1)
  let publicExponent := toBE 4 k.pub.e.toNat
  let p ← k.p.toBytesAsn1 (MAX_PRIVATE_MODULUS_BYTES + 1)
  let q ← k.q.toBytesAsn1 (MAX_PRIVATE_MODULUS_BYTES + 1)
  let d ← k.d.toBytesAsn1 (MAX_PUBLIC_MODULUS_BYTES + 1)
  let dp ← k.dp.toBytesAsn1 (MAX_PRIVATE_MODULUS_BYTES + 1)
  let dq ← k.dq.toBytesAsn1 (MAX_PRIVATE_MODULUS_BYTES + 1)
  let iqmp ← k.iqmp.toBytesAsn1 (MAX_PRIVATE_MODULUS_BYTES + 1)
  pure { publicModulus, publicExponent, p, q, d, dp, dq, iqmp }

/-! ### high/rsa.rs: keys -/

/-- `as_usize()` and `try_into::<u32>()`, rsa.rs:38-43 and 288-293. -/
def exponentOf (i : Integer) : GR (BitVec 32) := do
  let e ← Pkcs8.liftAsn1 i.asUsize
  if e < 2 ^ 32 then .ok (BitVec.ofNat 32 e) else .error (.err .OutOfRange)

/-- `VerifyingKey::from_pkcs1_der` after the DER is decoded, rsa.rs:34-46. -/
def importPublic (A : Asm) (decoded : RSAPublicKey) : GR PublicKey :=
  if decoded.modulus.isNegative then .error (.err .OutOfRange)
  else do
    let n ← lift (PosInt.fromBytes 128 decoded.modulus.twosComplement)
    let e ← exponentOf decoded.publicExponent
    lift (PublicKey.new A n e)

/-- `VerifyingKey::from_pkcs1_der`, rsa.rs:29-47. -/
def verifyingFromPkcs1 (A : Asm) (bytes : Bytes) : GR PublicKey := do
  let decoded ← Pkcs8.liftAsn1 (rsaPublicKeyCodec.fromBytes bytes)
  importPublic A decoded

/-- `VerifyingKey::to_pkcs1_der`, rsa.rs:83-101: the used part of the buffer. -/
def verifyingToPkcs1 (k : PublicKey) (output : Bytes) : GR Bytes := do
  let publicModulus ← lift (k.n.toBytesAsn1 (MAX_PUBLIC_MODULUS_BYTES + 1))
  let pubKey : RSAPublicKey := ⟨Integer.new publicModulus, Integer.new (toBE 4 k.e.toNat)⟩
  let (used, out) ← Pkcs8.liftAsn1 (rsaPublicKeyCodec.encodeInto pubKey output)
  if used ≤ out.length then .ok (out.take used) else .error .panic

/-- `VerifyingKey::to_spki_der`, rsa.rs:57-77. -/
def verifyingToSpki (k : PublicKey) (output : Bytes) : GR Bytes := do
  let pub ← verifyingToPkcs1 k (List.replicate (MAX_PUBLIC_MODULUS_BYTES + 64) 0#8)
  let spki : SubjectPublicKeyInfo := ⟨⟨id_rsaEncryption, some (.Null ⟨⟩)⟩, ⟨pub⟩⟩
  let (used, out) ← Pkcs8.liftAsn1 (subjectPublicKeyInfoCodec.encodeInto spki output)
  if used ≤ out.length then .ok (out.take used) else .error .panic

/-- `SigningKey::from_pkcs1_der` after the DER is decoded, rsa.rs:280-302. -/
def importPrivate (A : Asm) (decoded : RSAPrivateKey) : GR PrivateKey :=
  if decoded.version ≠ .two_prime then .error (.err .OutOfRange)
  else if decoded.modulus.isNegative then .error (.err .OutOfRange)
  else do
    let n ← lift (PosInt.fromBytes 128 decoded.modulus.twosComplement)
    let e ← exponentOf decoded.publicExponent
    let p ← lift (PosInt.fromBytes 64 decoded.prime1.twosComplement)
    let q ← lift (PosInt.fromBytes 64 decoded.prime2.twosComplement)
    let d ← lift (PosInt.fromBytes 128 decoded.privateExponent.twosComplement)
    let dp ← lift (PosInt.fromBytes 64 decoded.exponent1.twosComplement)
    let dq ← lift (PosInt.fromBytes 64 decoded.exponent2.twosComplement)
    let iqmp ← lift (PosInt.fromBytes 64 decoded.coefficient.twosComplement)
    lift (PrivateKey.new A p q d dp dq iqmp n e)

/-- `SigningKey::from_pkcs1_der`, rsa.rs:274-303. -/
def signingFromPkcs1 (A : Asm) (bytes : Bytes) : GR PrivateKey := do
  let decoded ← Pkcs8.liftAsn1 (rsaPrivateKeyCodec.fromBytes bytes)
  importPrivate A decoded

/-- `SigningKey::to_pkcs1_der`, rsa.rs:310-332. -/
def signingToPkcs1 (k : PrivateKey) (output : Bytes) : GR Bytes := do
  let c ← lift (encodeComponents k)
  let key : RSAPrivateKey := {
    version := .two_prime
    modulus := Integer.new c.publicModulus
    publicExponent := Integer.new c.publicExponent
    prime1 := Integer.new c.p
    prime2 := Integer.new c.q
    privateExponent := Integer.new c.d
    exponent1 := Integer.new c.dp
    exponent2 := Integer.new c.dq
    coefficient := Integer.new c.iqmp }
  let (used, out) ← Pkcs8.liftAsn1 (rsaPrivateKeyCodec.encodeInto key output)
  if used ≤ out.length then .ok (out.take used) else .error (.err .WrongLength)

/-- `MAX_PKCS1_BUFFER_LEN`, rsa.rs:334, with `RsaComponentsBuffer::LEN`, rsa_priv.rs:208-214. -/
def MAX_PKCS1_BUFFER_LEN : Nat :=
  (MAX_PUBLIC_MODULUS_BYTES + 1) * 2 + 4 + (MAX_PRIVATE_MODULUS_BYTES + 1) * 5 + 128

/-- `SigningKey::to_pkcs8_der`, rsa.rs:342-359. -/
def signingToPkcs8 (k : PrivateKey) (output : Bytes) : GR Bytes := do
  let der ← signingToPkcs1 k (List.replicate MAX_PKCS1_BUFFER_LEN 0#8)
  Pkcs8.encode (Pkcs8.construct der none id_rsaEncryption (some (.Null ⟨⟩))) output

/-- `SigningKey::from_pkcs8_der`, rsa.rs:367-376. -/
def signingFromPkcs8 (A : Asm) (bytes : Bytes) : GR PrivateKey := do
  let k ← Pkcs8.decode bytes id_rsaEncryption (some (.Null ⟨⟩))
  signingFromPkcs1 A (Pkcs8.privateKey k)

/-! ### high/rsa.rs: signatures -/

/-- `H::hash(message)`. -/
def hashOf (F : Hmac.HashFn) (message : Bytes) : GR Bytes := orPanic (Pkcs1.hashParts F [message])

/-- `_verify_pkcs1`, rsa.rs:136-156. -/
def verifyPkcs1Hash (A : Asm) (k : PublicKey) (signature digestInfo hash : Bytes) : GR Unit := do
  let c ← mapErr .BadSignature (lift (PosInt.fromBytes 128 signature))
  let m ← mapErr .BadSignature (lift (publicOp A k c))
  let mBytes ← lift (m.toBytes MAX_PUBLIC_MODULUS_BYTES)
  let actual ← orPanic (Pkcs1.encodePkcs1Sig k.modulusLenBytes digestInfo hash)
  if actual = mBytes then .ok () else .error (.err .BadSignature)

/-- `verify_pkcs1_sha256`, rsa.rs:106-110, and its siblings for SHA-384 and SHA-512, :118-134. -/
def verifyPkcs1 (A : Asm) (F : Hmac.HashFn) (digestInfo : Bytes) (k : PublicKey) (signature message : Bytes) : GR Unit := do
  let hash ← hashOf F message
  verifyPkcs1Hash A k signature digestInfo hash

/-- `_verify_pss`, rsa.rs:212-226, called by `verify_pss_sha256` and its siblings, :171-210. -/
def verifyPss (A : Asm) (F : Hmac.HashFn) (k : PublicKey) (signature message : Bytes) : GR Unit := do
  let hash ← hashOf F message
  if signature.length > k.modulusLenBytes then .error (.err .BadSignature)
  else
    let c ← mapErr .BadSignature (lift (PosInt.fromBytes 128 signature))
    let m ← mapErr .BadSignature (lift (publicOp A k c))
    let mBytes ← lift (m.toBytes MAX_PUBLIC_MODULUS_BYTES)
    Pkcs1.verifyPssSig F mBytes hash

/-- `_sign_pkcs1`, rsa.rs:509-526, into a buffer of `sigLen` bytes. -/
def signPkcs1Hash (A : Asm) (k : PrivateKey) (sigLen : Nat) (digestInfo hash : Bytes) : GR Bytes :=
  if sigLen < k.pub.modulusLenBytes then .error (.err .OutOfRange)
  else do
    let em ← orPanic (Pkcs1.encodePkcs1Sig k.pub.modulusLenBytes digestInfo hash)
    let m ← lift (PosInt.fromBytes 128 em)
    let c ← mapErr .BadSignature (privateOp A k m)
    lift (c.toBytes sigLen)

/-- `sign_pkcs1_sha256`, rsa.rs:398-406, and its siblings, :417-444. -/
def signPkcs1 (A : Asm) (F : Hmac.HashFn) (digestInfo : Bytes) (k : PrivateKey) (sigLen : Nat) (message : Bytes) : GR Bytes := do
  let hash ← hashOf F message
  signPkcs1Hash A k sigLen digestInfo hash

/-- `_sign_pss`, rsa.rs:528-548, called by `sign_pss_sha256` and its siblings, :458-507.  `rng` stands for `SystemRandom`. -/
def signPss (A : Asm) (F : Hmac.HashFn) (rng : RandomSource) (k : PrivateKey) (sigLen : Nat) (message : Bytes) : GR Bytes :=
  if sigLen < k.pub.modulusLenBytes then .error (.err .OutOfRange)
  else do
    let hash ← hashOf F message
    let em ← Pkcs1.encodePssSig F k.pub.modulusLenBytes rng 0 hash
    let m ← lift (PosInt.fromBytes 128 em)
    let c ← mapErr .BadSignature (privateOp A k m)
    lift (c.toBytes sigLen)

end Verif.Rsa
