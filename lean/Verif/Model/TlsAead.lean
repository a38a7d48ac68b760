import Verif.Model.ChaChaPoly
import Verif.Model.AesGcm

/-!
Model of `rustls-graviola/src/aead.rs`: protection of TLS 1.2 and TLS 1.3 records.

The helpers of rustls that it calls are not part of the repository; the first section models them from rustls 0.23
(`crypto/cipher.rs`, `msgs/message/inbound.rs`).  In an `Option (Except ..)` the outer `none` is a panic.  A payload in several
chunks is modelled by their concatenation.
-/
namespace Verif.TlsAead
open Verif

/-! ### rustls -/

inductive TlsError
  | DecryptError
  | PeerSentOversizedRecord
  /-- `PeerMisbehaved::IllegalTlsInnerPlaintext` -/
  | IllegalTlsInnerPlaintext
deriving DecidableEq

/-- `OutboundPlainMessage`, `OutboundOpaqueMessage`, `InboundOpaqueMessage` and `InboundPlainMessage` of rustls: type, version and
payload. -/
structure Message where
  typ : Byte
  version : BitVec 16
  payload : Bytes
deriving DecidableEq

/-- `ContentType::ApplicationData` and the two versions. -/
def applicationData : Byte := 23#8
def tls12 : BitVec 16 := 0x0303#16
def tls13 : BitVec 16 := 0x0304#16

/-- `Nonce::new`. -/
def nonceNew (iv : Bytes) (seq : BitVec 64) : Bytes :=
  List.zipWith (· ^^^ ·) iv (List.replicate 4 0#8 ++ toBE 8 seq.toNat)

/-- `make_tls13_aad`. -/
def makeTls13Aad (payloadLen : Nat) : Bytes := [applicationData] ++ toBE 2 tls12.toNat ++ toBE 2 payloadLen

/-- `make_tls12_aad`. -/
def makeTls12Aad (seq : BitVec 64) (typ : Byte) (version : BitVec 16) (len : Nat) : Bytes :=
  toBE 8 seq.toNat ++ [typ] ++ toBE 2 version.toNat ++ toBE 2 len

/-- `unpad_tls13_payload` on the reversed payload: pop zeros, then the type; type 0 for a payload without one. -/
def unpadRev : Bytes → Byte × Bytes
  | [] => (0#8, [])
  | b :: bs => if b = 0#8 then unpadRev bs else (b, bs)

/-- `InboundOpaqueMessage::into_tls13_unpadded_message`. -/
def intoTls13Unpadded (m : Message) : Except TlsError Message :=
  if m.payload.length > 16384 + 1 then .error .PeerSentOversizedRecord
  else
    let (typ, rev) := unpadRev m.payload.reverse
    if typ = 0#8 then .error .IllegalTlsInnerPlaintext
    else if rev.length > 16384 then .error .PeerSentOversizedRecord
    else .ok ⟨typ, tls13, rev.reverse⟩

/-! ### aead.rs -/

/-- `ChaCha20Poly1305` or `AesGcm` of graviola. -/
structure Cipher where
  encrypt : Bytes → Bytes → Bytes → Option (Bytes × Bytes)
  decrypt : Bytes → Bytes → Bytes → Bytes → Option (Except GError Unit × Bytes)

/-- `ChaCha20Poly1305::new(key.as_ref().try_into().unwrap())`, aead.rs:15, 22, 43, 50. -/
def chacha (S : ChaChaPoly.Stream) (key : Bytes) : Option Cipher :=
  if key.length = 32 then some ⟨ChaChaPoly.encrypt S key, ChaChaPoly.decrypt S key⟩ else none

/-- `AesGcm::new(key.as_ref())`, aead.rs:189, 193, 221, 226. -/
def gcm (w : Bool) (key : Bytes) : Option Cipher :=
  (AesGcm.AesGcm.new w key).map fun g => ⟨fun n a p => some (g.encrypt n a p), fun n a c t => some (g.decrypt n a c t)⟩

/-- `gcm_iv`, aead.rs:383-399; `copy_from_slice` panics for other lengths. -/
def gcmIv (writeIv explicit : Bytes) : Option Bytes :=
  if writeIv.length = 4 ∧ explicit.length = 8 then some (writeIv ++ explicit) else none

/-- `.map_err(|_| rustls::Error::DecryptError)?` after `decrypt`, and the rest of the function on the decrypted bytes. -/
def andThen (r : Option (Except GError Unit × Bytes)) (f : Bytes → Except TlsError Message) : Option (Except TlsError Message) :=
  r.map fun r => match r with
    | (.ok _, plain) => f plain
    | (.error _, _) => .error .DecryptError

/-- `ChaChaTls13Cipher::encrypt`, aead.rs:81-104. -/
def chachaTls13Encrypt (A : Cipher) (iv : Bytes) (m : Message) (seq : BitVec 64) : Option Message :=
  let totalLen := m.payload.length + 1 + 16
  let payload := m.payload ++ [m.typ]
  let nonce := nonceNew iv seq
  let aad := makeTls13Aad totalLen
  (A.encrypt nonce aad payload).map fun r => ⟨applicationData, tls12, r.1 ++ r.2⟩

/-- `ChaChaTls13Cipher::decrypt`, aead.rs:112-131. -/
def chachaTls13Decrypt (A : Cipher) (iv : Bytes) (m : Message) (seq : BitVec 64) : Option (Except TlsError Message) :=
  let nonce := nonceNew iv seq
  let aad := makeTls13Aad m.payload.length
  if m.payload.length < 16 then some (.error .DecryptError)
  else
    let cipherLen := m.payload.length - 16
    let payload := m.payload.take cipherLen
    let tag := m.payload.drop cipherLen
    andThen (A.decrypt nonce aad payload tag) fun plain => intoTls13Unpadded { m with payload := plain }

/-- `ChaChaTls12Cipher::encrypt`, aead.rs:137-154. -/
def chachaTls12Encrypt (A : Cipher) (iv : Bytes) (m : Message) (seq : BitVec 64) : Option Message :=
  let nonce := nonceNew iv seq
  let aad := makeTls12Aad seq m.typ m.version m.payload.length
  (A.encrypt nonce aad m.payload).map fun r => ⟨m.typ, m.version, r.1 ++ r.2⟩

/-- `ChaChaTls12Cipher::decrypt`, aead.rs:162-182. -/
def chachaTls12Decrypt (A : Cipher) (iv : Bytes) (m : Message) (seq : BitVec 64) : Option (Except TlsError Message) :=
  let nonce := nonceNew iv seq
  if m.payload.length < 16 then some (.error .DecryptError)
  else
    let cipherLen := m.payload.length - 16
    let aad := makeTls12Aad seq m.typ m.version cipherLen
    let payload := m.payload.take cipherLen
    let tag := m.payload.drop cipherLen
    andThen (A.decrypt nonce aad payload tag) fun plain => .ok { m with payload := plain }

/-- `GcmTls12MessageDecrypter::decrypt`, aead.rs:257-291; `salt` is the four-byte array. -/
def gcmTls12Decrypt (A : Cipher) (salt : Bytes) (m : Message) (seq : BitVec 64) : Option (Except TlsError Message) :=
  if m.payload.length < 24 then some (.error .DecryptError)
  else
    let nonce := salt ++ m.payload.take 8
    let plainLen := m.payload.length - 24
    let aad := makeTls12Aad seq m.typ m.version plainLen
    let cipher := m.payload.drop 8
    let tag := cipher.drop (cipher.length - 16)
    let cipher := cipher.take (cipher.length - 16)
    andThen (A.decrypt nonce aad cipher tag) fun plain =>
      if plainLen > 16384 then .error .PeerSentOversizedRecord
      else
        -- the payload with its middle decrypted in place, and the range 8..8 + plain_len of it
        let payload := m.payload.take 8 ++ plain ++ tag
        .ok { m with payload := (payload.drop 8).take plainLen }

/-- `GcmTls12MessageEncrypter::encrypt`, aead.rs:297-320. -/
def gcmTls12Encrypt (A : Cipher) (iv : Bytes) (m : Message) (seq : BitVec 64) : Option Message :=
  let nonce := nonceNew iv seq
  let aad := makeTls12Aad seq m.typ m.version m.payload.length
  (A.encrypt nonce aad m.payload).map fun r => ⟨m.typ, m.version, nonce.drop 4 ++ r.1 ++ r.2⟩

/-- `GcmTls13Cipher::encrypt`, aead.rs:330-352. -/
def gcmTls13Encrypt (A : Cipher) (iv : Bytes) (m : Message) (seq : BitVec 64) : Option Message :=
  let totalLen := m.payload.length + 1 + 16
  let nonce := nonceNew iv seq
  let aad := makeTls13Aad totalLen
  let payload := m.payload ++ [m.typ]
  (A.encrypt nonce aad payload).map fun r => ⟨applicationData, tls12, r.1 ++ r.2⟩

/-- `GcmTls13Cipher::decrypt`, aead.rs:360-380. -/
def gcmTls13Decrypt (A : Cipher) (iv : Bytes) (m : Message) (seq : BitVec 64) : Option (Except TlsError Message) :=
  if m.payload.length < 16 then some (.error .DecryptError)
  else
    let nonce := nonceNew iv seq
    let aad := makeTls13Aad m.payload.length
    let plainLen := m.payload.length - 16
    let cipher := m.payload.take plainLen
    let tag := m.payload.drop plainLen
    andThen (A.decrypt nonce aad cipher tag) fun plain => intoTls13Unpadded { m with payload := plain }

end Verif.TlsAead
