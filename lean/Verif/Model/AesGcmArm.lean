import Verif.Model.AesArm
import Verif.Model.GhashArm
import Verif.Model.Ct
import Verif.Model.Error

/-!
Model of `graviola/src/low/aarch64/aes_gcm.rs`, and of `graviola/src/mid/aes_gcm.rs` on top of it.
A buffer that is overwritten in place is an input and a result.  Prefetching is left out.
-/
namespace Verif.AesGcmArm
open Verif Verif.Simd Verif.Neon Verif.AesArm Verif.GhashArm

/-- `inc`, aes_gcm.rs:48-49. -/
def inc : Q := vrev32q (vsetq8 1#8 0#128 15)

/-- `counter = vaddq_u32(counter, inc)` and the block made of it, e.g. aes_gcm.rs:55-56. -/
def next (counter : Q) : Q × Q :=
  let counter := vaddq32 counter inc
  (counter, vrev32q counter)

/-- The variables of `_cipher`: the counter, `ghash.current`, and the output so far. -/
structure St where
  counter : Q
  current : Q
  out : Bytes

/-- One iteration of the by-8 loop, aes_gcm.rs:53-134. -/
def by8 (enc : Bool) (key : AesKey) (t : GhashTable) (s : St) (cipher8 : Bytes) : St :=
  let (counter, b0) := next s.counter
  let (counter, b1) := next counter
  let (counter, b2) := next counter
  let (counter, b3) := next counter
  let (counter, b4) := next counter
  let (counter, b5) := next counter
  let (counter, b6) := next counter
  let (counter, b7) := next counter
  let b0 := key.enc b0
  let b1 := key.enc b1
  let b2 := key.enc b2
  let b3 := key.enc b3
  let b4 := key.enc b4
  let b5 := key.enc b5
  let b6 := key.enc b6
  let b7 := key.enc b7
  let a0 := vld1q (cipher8.take 16)
  let a1 := vld1q ((cipher8.drop 16).take 16)
  let a2 := vld1q ((cipher8.drop 32).take 16)
  let a3 := vld1q ((cipher8.drop 48).take 16)
  let a4 := vld1q ((cipher8.drop 64).take 16)
  let a5 := vld1q ((cipher8.drop 80).take 16)
  let a6 := vld1q ((cipher8.drop 96).take 16)
  let a7 := vld1q ((cipher8.drop 112).take 16)
  let current := if enc then s.current else addEightBlocks t s.current a0 a1 a2 a3 a4 a5 a6 a7
  let b0 := veorq a0 b0
  let b1 := veorq a1 b1
  let b2 := veorq a2 b2
  let b3 := veorq a3 b3
  let b4 := veorq a4 b4
  let b5 := veorq a5 b5
  let b6 := veorq a6 b6
  let b7 := veorq a7 b7
  let out := vst1q b0 ++ vst1q b1 ++ vst1q b2 ++ vst1q b3 ++ vst1q b4 ++ vst1q b5 ++ vst1q b6 ++ vst1q b7
  let current := if enc then addEightBlocks t current b0 b1 b2 b3 b4 b5 b6 b7 else current
  ⟨counter, current, s.out ++ out⟩

/-- One iteration of the `singles` loop, aes_gcm.rs:138-164. -/
def single (enc : Bool) (key : AesKey) (t : GhashTable) (s : St) (cipher : Bytes) : St :=
  let input_block := vld1q cipher
  let current := if enc then s.current else addBlock t s.current input_block
  let (counter, block) := next s.counter
  let block := key.enc block
  let block := veorq input_block block
  let current := if enc then addBlock t current block else current
  ⟨counter, current, s.out ++ vst1q block⟩

/-- The last, short block, aes_gcm.rs:166-200. -/
def last (enc : Bool) (key : AesKey) (t : GhashTable) (s : St) (cipher_inout : Bytes) : St :=
  if cipher_inout.isEmpty then s
  else
    let current := if enc then s.current else GhashArm.add t s.current cipher_inout
    let len := cipher_inout.length
    let cipher := cipher_inout ++ List.replicate (16 - len) 0#8
    let (counter, block) := next s.counter
    let block := key.enc block
    let block := veorq (vld1q cipher) block
    let cipher := vst1q block
    let out := cipher.take len
    let current := if enc then GhashArm.add t current out else current
    ⟨counter, current, s.out ++ out⟩

/-- `encrypt`, `decrypt` and `_cipher`, aes_gcm.rs:10-201: `ghash.current` and the buffer afterwards. -/
def cipher (enc : Bool) (key : AesKey) (t : GhashTable) (current : Q) (initialCounter aad inout : Bytes) :
    Q × Bytes :=
  let current := GhashArm.add t current aad
  let counter := vrev32q (vld1q initialCounter)
  let s := (chunksExact 128 inout).foldl (by8 enc key t) ⟨counter, current, []⟩
  let rem := chunksRem 128 inout
  let s := (chunksExact 16 rem).foldl (single enc key t) s
  let s := last enc key t s (chunksRem 16 rem)
  (s.current, s.out)

/-- `AesGcm`, mid/aes_gcm.rs:19-22, on aarch64. -/
structure AesGcm where
  key : AesKey
  gh : GhashTable

/-- `AesGcm::new`, mid/aes_gcm.rs:31-41. -/
def AesGcm.new (key : Bytes) : Option AesGcm := do
  let key ← AesKey.new key
  let h := key.encryptBlock (List.replicate 16 0#8)
  let h := Ghash.fromBE h
  pure ⟨key, GhashTable.new h⟩

/-- `nonce_to_y0`, mid/aes_gcm.rs:129-134. -/
def nonceToY0 (nonce : Bytes) : Bytes := nonce ++ [0#8, 0#8, 0#8, 1#8]

/-- The common part of `encrypt` and `decrypt`, mid/aes_gcm.rs:57-79 and 100-118: buffer and tag. -/
def AesGcm.run (enc : Bool) (g : AesGcm) (nonce aad inout : Bytes) : Bytes × Bytes :=
  let counter := nonceToY0 nonce
  let e_y0 := g.key.encryptBlock counter
  let (current, out) := cipher enc g.key g.gh 0#128 counter aad inout
  let lengths := toBE 8 (aad.length * 8) ++ toBE 8 (out.length * 8)
  let current := GhashArm.add g.gh current lengths
  let final_xi := GhashArm.intoBytes current
  (out, List.zipWith (· ^^^ ·) final_xi e_y0)

/-- `AesGcm::encrypt`, mid/aes_gcm.rs:50-80: buffer and tag. -/
def AesGcm.encrypt (g : AesGcm) (nonce aad inout : Bytes) : Bytes × Bytes := g.run true nonce aad inout

/-- `AesGcm::decrypt`, mid/aes_gcm.rs:93-127: result and buffer. -/
def AesGcm.decrypt (g : AesGcm) (nonce aad inout tag : Bytes) : Except GError Unit × Bytes :=
  let (out, actual_tag) := g.run false nonce aad inout
  if Ct.ctEqual actual_tag tag then (.ok (), out)
  else (.error .DecryptFailed, List.replicate out.length 0#8)

end Verif.AesGcmArm
