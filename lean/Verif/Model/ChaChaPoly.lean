import Verif.Model.ChaCha20X86
import Verif.Model.Poly1305
import Verif.Model.Ct
import Verif.Model.Error

/-!
Model of `graviola/src/mid/chacha20poly1305.rs` and `graviola/src/mid/xchacha20poly1305.rs`.
`none` is a panic.  `Entry` and `Drop` (register and key clearing) are not modelled.
-/
namespace Verif.ChaChaPoly
open Verif

/-- The ChaCha20 implementation selected at build time: `low::chacha20::{ChaCha20, XChaCha20}`. -/
structure Stream where
  St : Type
  new : Bytes → Bytes → St
  xnew : Bytes → Bytes → St
  cipher : St → Bytes → St × Bytes

/-- low/generic/chacha20.rs. -/
def Stream.portable : Stream := ⟨_, ChaCha20.new, ChaCha20.xnew, ChaCha20.cipher⟩
/-- low/x86_64/chacha20.rs. -/
def Stream.avx2 : Stream := ⟨_, ChaCha20X86.new, ChaCha20X86.xnew, ChaCha20X86.cipher⟩

/-- The local function `pad`, chacha20poly1305.rs:93-99. -/
def pad (poly : Poly1305.Poly1305) (len : Nat) : Option Poly1305.Poly1305 :=
  let pad_len := 16 - (len &&& 0xf)
  if pad_len ≠ 16 then Poly1305.addBytes poly ((List.replicate 16 0#8).take pad_len) else some poly

/-- The common part of `cipher` after the stream cipher is set up: chacha20poly1305.rs:85-119 and
xchacha20poly1305.rs:83-117.  Returns the buffer and the tag. -/
def cipherWith (S : Stream) (chacha : S.St) (aad inout : Bytes) (encrypt : Bool) :
    Option (Bytes × Bytes) := do
  let (chacha, polykey) := S.cipher chacha (List.replicate 32 0#8)
  let poly := Poly1305.new polykey
  let poly ← Poly1305.addBytes poly aad
  let poly ← pad poly aad.length
  let (poly, out) ←
    if encrypt then do
      let out := (S.cipher chacha inout).2
      let poly ← Poly1305.addBytes poly out
      pure (poly, out)
    else do
      let poly ← Poly1305.addBytes poly inout
      let out := (S.cipher chacha inout).2
      pure (poly, out)
  let poly ← pad poly out.length
  let poly ← Poly1305.addBytes poly (toLE 8 aad.length)
  let poly ← Poly1305.addBytes poly (toLE 8 out.length)
  let tag ← Poly1305.finish poly
  pure (out, tag)

/-- `ChaCha20Poly1305::cipher`, chacha20poly1305.rs:73-120. -/
def cipher (S : Stream) (key nonce aad inout : Bytes) (encrypt : Bool) : Option (Bytes × Bytes) :=
  cipherWith S (S.new key (List.replicate 4 0#8 ++ nonce)) aad inout encrypt

/-- `XChaCha20Poly1305::cipher`, xchacha20poly1305.rs:73-118. -/
def xcipher (S : Stream) (key nonce aad inout : Bytes) (encrypt : Bool) : Option (Bytes × Bytes) :=
  cipherWith S (S.xnew key nonce) aad inout encrypt

/-- The end of `decrypt`, chacha20poly1305.rs:62-69: the result and the buffer afterwards. -/
def checkTag (tag : Bytes) (r : Bytes × Bytes) : Except GError Unit × Bytes :=
  if Ct.ctEqual r.2 tag then (.ok (), r.1) else (.error .DecryptFailed, List.replicate r.1.length 0#8)

/-- `ChaCha20Poly1305::encrypt`, chacha20poly1305.rs:30-39: buffer and tag. -/
def encrypt (S : Stream) (key nonce aad inout : Bytes) : Option (Bytes × Bytes) :=
  cipher S key nonce aad inout true

/-- `ChaCha20Poly1305::decrypt`, chacha20poly1305.rs:53-70: result and buffer. -/
def decrypt (S : Stream) (key nonce aad inout tag : Bytes) : Option (Except GError Unit × Bytes) :=
  (cipher S key nonce aad inout false).map (checkTag tag)

/-- `XChaCha20Poly1305::encrypt`, xchacha20poly1305.rs:30-39. -/
def xencrypt (S : Stream) (key nonce aad inout : Bytes) : Option (Bytes × Bytes) :=
  xcipher S key nonce aad inout true

/-- `XChaCha20Poly1305::decrypt`, xchacha20poly1305.rs:53-70. -/
def xdecrypt (S : Stream) (key nonce aad inout tag : Bytes) : Option (Except GError Unit × Bytes) :=
  (xcipher S key nonce aad inout false).map (checkTag tag)

end Verif.ChaChaPoly
