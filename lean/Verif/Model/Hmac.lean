import Verif.Model.Sha2
import Verif.Model.Ct

/-!
Models of `high/hash.rs` (the `Hash` trait and its three implementations), `high/hmac.rs` and
`high/hmac_drbg.rs`.  `none` is a panic.
-/
namespace Verif.Hmac
open Verif

/-- The `Hash` and `HashContext` traits, hash.rs:103-137.  `HashOutput` is its bytes (`as_ref`). -/
structure HashFn where
  Ctx : Type
  new : Ctx
  update : Ctx → Bytes → Option Ctx
  finish : Ctx → Option Bytes
  /-- `zeroed_block().len()` -/
  blockLen : Nat
  /-- `zeroed_output().as_ref().len()` -/
  outLen : Nat

/-- `impl Hash for Sha256`, hash.rs:145-180. -/
def sha256 : HashFn :=
  ⟨Sha2.Ctx 32, Sha2.new256, Sha2.update Sha2.alg256, Sha2.finish256 Sha2.alg256, 64, 32⟩
/-- `impl Hash for Sha384`, hash.rs:188-223. -/
def sha384 : HashFn :=
  ⟨Sha2.Ctx 64, Sha2.new384, Sha2.update Sha2.alg512, Sha2.finish384 Sha2.alg512, 128, 48⟩
/-- `impl Hash for Sha512`, hash.rs:231-266. -/
def sha512 : HashFn :=
  ⟨Sha2.Ctx 64, Sha2.new512, Sha2.update Sha2.alg512, Sha2.finish512 Sha2.alg512, 128, 64⟩

/-- `H::hash`, hash.rs:152-156 and the other two. -/
def HashFn.hash (H : HashFn) (bytes : Bytes) : Option Bytes :=
  (H.update H.new bytes).bind H.finish

/-- `key_block[..src.len()].copy_from_slice(src)` into a zeroed block, hmac.rs:21-31. -/
def keyBlock (blockLen : Nat) (src : Bytes) : Option Bytes :=
  Blockwise.copyInto (List.replicate blockLen 0#8) 0 src

/-- `Hmac<H>`, hmac.rs:13-16. -/
structure Hmac (H : HashFn) where
  inner : H.Ctx
  outer : H.Ctx

/-- Filling the key block, hmac.rs:21-31: a key longer than a block is hashed first. -/
def loadKey (H : HashFn) (key : Bytes) : Option Bytes :=
  if H.blockLen < key.length then (do keyBlock H.blockLen (← H.hash key))
  else keyBlock H.blockLen key

/-- `Hmac::new`, hmac.rs:20-48. -/
def new (H : HashFn) (key : Bytes) : Option (Hmac H) := do
  let block ← loadKey H key
  let block := block.map (· ^^^ 0x36#8)
  let inner ← H.update H.new block
  let block := block.map (· ^^^ (0x5c#8 ^^^ 0x36#8))
  let outer ← H.update H.new block
  pure ⟨inner, outer⟩

/-- `Hmac::update`, hmac.rs:51-53. -/
def update {H : HashFn} (s : Hmac H) (bytes : Bytes) : Option (Hmac H) := do
  let inner ← H.update s.inner bytes
  pure { s with inner }

/-- `Hmac::finish`, hmac.rs:58-62. -/
def finish {H : HashFn} (s : Hmac H) : Option Bytes := do
  let innerOutput ← H.finish s.inner
  let outer ← H.update s.outer innerOutput
  H.finish outer

/-- `Hmac::verify`, hmac.rs:67-73: `true` is `Ok(())`, `false` is `Err(BadSignature)`. -/
def verify {H : HashFn} (s : Hmac H) (expectedTag : Bytes) : Option Bool := do
  let got ← finish s
  pure (Ct.ctEqual got expectedTag)

/-! ### high/hmac_drbg.rs -/

/-- `HmacDrbg<H>`, hmac_drbg.rs:12-17. -/
structure Drbg where
  k : Bytes
  v : Bytes
  reseedCounter : Nat

/-- `Hmac::new(key)`, an `update` per part, `finish`: the pattern used four times below. -/
def macParts (H : HashFn) (key : Bytes) (parts : List Bytes) : Option Bytes := do
  let ctx ← new H key
  let ctx ← parts.foldlM update ctx
  finish ctx

/-- `HmacDrbg::update`, hmac_drbg.rs:43-82. -/
def drbgUpdate (H : HashFn) (s : Drbg) (additionalInput : List Bytes) : Option Drbg := do
  let k ← macParts H s.k ([s.v, [0#8]] ++ additionalInput)
  let v ← macParts H k [s.v]
  let s := { k := k, v := v, reseedCounter := s.reseedCounter + 1 : Drbg }
  if additionalInput.isEmpty then pure s
  else do
    let k ← macParts H s.k ([s.v, [1#8]] ++ additionalInput)
    let v ← macParts H k [s.v]
    pure { s with k := k, v := v }

/-- `HmacDrbg::new`, hmac_drbg.rs:20-41. -/
def drbgNew (H : HashFn) (entropyInput nonce personalization : Bytes) : Option Drbg :=
  drbgUpdate H ⟨List.replicate H.outLen 0#8, List.replicate H.outLen 1#8, 0⟩
    [entropyInput, nonce, personalization]

/-- `HmacDrbg::generate_block`, hmac_drbg.rs:84-89. -/
def generateBlock (H : HashFn) (s : Drbg) : Option Drbg := do
  let v ← macParts H s.k [s.v]
  pure { s with v := v }

/-- The loop of `fill`, hmac_drbg.rs:106-109, over the lengths of the chunks of `out`. -/
def fillChunks (H : HashFn) : List Nat → Drbg → Option (Drbg × Bytes)
  | [], s => some (s, [])
  | len :: lens, s => do
    let s ← generateBlock H s
    if s.v.length < len then none  -- slice index panic
    else do
      let (s', rest) ← fillChunks H lens s
      pure (s', s.v.take len ++ rest)

/-- The lengths of `out.chunks_mut(hashlen)` for a buffer of `n` bytes. -/
def chunkLens (hashlen n : Nat) : List Nat :=
  (chunks hashlen (List.replicate n ())).map List.length

/-- `HmacDrbg::fill`, hmac_drbg.rs:93-117, for an output buffer of `n` bytes: new state and output. -/
def fill (H : HashFn) (s : Drbg) (n : Nat) : Option (Drbg × Bytes) := do
  let hashlen := s.v.length
  if s.reseedCounter < 0x1_0000_0000_0000 then do
    if hashlen = 0 then none  -- `chunks_mut(0)` panics
    else do
      let (s, out) ← fillChunks H (chunkLens hashlen n) s
      let s ← drbgUpdate H s []
      pure (s, out)
  else none

end Verif.Hmac
