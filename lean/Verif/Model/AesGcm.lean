import Verif.Model.AesX86
import Verif.Model.GhashX86
import Verif.Model.Ct
import Verif.Model.Error

/-!
Model of `graviola/src/low/x86_64/aes_gcm.rs` and `graviola/src/mid/aes_gcm.rs`.  Buffers changed in place
are returned.  Prefetching, `Entry` and `Drop` are not modelled.  `none` is a panic.
-/
namespace Verif.AesGcm
open Verif Verif.Simd Verif.AesX86 Verif.GhashX86

/-- `BYTESWAP_EPI64`, aes_gcm.rs:469-470. -/
def BYTESWAP_EPI64 : M128 := 0x08090a0b0c0d0e0f0001020304050607#128
/-- `COUNTER_1`, aes_gcm.rs:454. -/
def COUNTER_1 : M128 := 1#128 <<< 64
/-- `COUNTER_512_4`, aes_gcm.rs:457-464. -/
def COUNTER_512_4 : M512 := broadcast (4#128 <<< 64)
/-- `BYTESWAP_512`, aes_gcm.rs:473-480. -/
def BYTESWAP_512 : M512 :=
  ⟨0x000102030405060708090a0b0c0d0e0f#128, 0x101112131415161718191a1b1c1d1e1f#128,
    0x202122232425262728292a2b2c2d2e2f#128, 0x303132333435363738393a3b3c3d3e3f#128⟩
/-- `BYTESWAP_512_EPI64`, aes_gcm.rs:483-490. -/
def BYTESWAP_512_EPI64 : M512 :=
  ⟨0x08090a0b0c0d0e0f0001020304050607#128, 0x18191a1b1c1d1e1f1011121314151617#128,
    0x28292a2b2c2d2e2f2021222324252627#128, 0x38393a3b3c3d3e3f3031323334353637#128⟩

/-- `Counter::new`, aes_gcm.rs:434-441. -/
def counterNew (bytes : Bytes) : M128 := add32 (shuffle8 (load bytes) BYTESWAP_EPI64) COUNTER_1

/-- `Counter::next`, aes_gcm.rs:446-450: the new state and the block. -/
def next (c : M128) : M128 × M128 := (add32 c COUNTER_1, shuffle8 c BYTESWAP_EPI64)

/-- `Counter512::new`, aes_gcm.rs:393-409. -/
def counter512New (bytes : Bytes) : M512 :=
  let cnt := counterNew bytes
  let (cnt, a) := next cnt
  let (cnt, b) := next cnt
  let (cnt, c) := next cnt
  let (_, d) := next cnt
  ⟨shuffle8 a BYTESWAP_EPI64, shuffle8 b BYTESWAP_EPI64, shuffle8 c BYTESWAP_EPI64,
    shuffle8 d BYTESWAP_EPI64⟩

/-- `Counter512::into_128`, aes_gcm.rs:414-416. -/
def into128 (c : M512) : M128 := c.l0

/-- `Counter512::next4`, aes_gcm.rs:421-425. -/
def next4 (c : M512) : M512 × M512 :=
  (add64_512 c COUNTER_512_4, shuffle8_512 c BYTESWAP_512_EPI64)

/-- State of a cipher loop: counter, `ghash.current`, output so far. -/
structure St (C : Type) where
  counter : C
  current : M128
  out : Bytes

/-- One iteration of the by-8 loop, aes_gcm.rs:69-161. -/
def by8 (enc : Bool) (key : AesKey) (t : TableAvx) (s : St M128) (blocks : Bytes) : St M128 :=
  let (counter, c1) := next s.counter
  let (counter, c2) := next counter
  let (counter, c3) := next counter
  let (counter, c4) := next counter
  let (counter, c5) := next counter
  let (counter, c6) := next counter
  let (counter, c7) := next counter
  let (counter, c8) := next counter
  let c1 := key.enc c1
  let c2 := key.enc c2
  let c3 := key.enc c3
  let c4 := key.enc c4
  let c5 := key.enc c5
  let c6 := key.enc c6
  let c7 := key.enc c7
  let c8 := key.enc c8
  let p1 := load (blocks.take 16)
  let p2 := load ((blocks.drop 16).take 16)
  let p3 := load ((blocks.drop 32).take 16)
  let p4 := load ((blocks.drop 48).take 16)
  let p5 := load ((blocks.drop 64).take 16)
  let p6 := load ((blocks.drop 80).take 16)
  let p7 := load ((blocks.drop 96).take 16)
  let p8 := load ((blocks.drop 112).take 16)
  let c1 := c1 ^^^ p1
  let c2 := c2 ^^^ p2
  let c3 := c3 ^^^ p3
  let c4 := c4 ^^^ p4
  let c5 := c5 ^^^ p5
  let c6 := c6 ^^^ p6
  let c7 := c7 ^^^ p7
  let c8 := c8 ^^^ p8
  let out := store c1 ++ store c2 ++ store c3 ++ store c4 ++ store c5 ++ store c6 ++ store c7 ++ store c8
  let a1 := if enc then c1 else p1
  let a2 := if enc then c2 else p2
  let a3 := if enc then c3 else p3
  let a4 := if enc then c4 else p4
  let a5 := if enc then c5 else p5
  let a6 := if enc then c6 else p6
  let a7 := if enc then c7 else p7
  let a8 := if enc then c8 else p8
  let a1 := shuffle8 a1 BYTESWAP
  let a2 := shuffle8 a2 BYTESWAP
  let a3 := shuffle8 a3 BYTESWAP
  let a4 := shuffle8 a4 BYTESWAP
  let a5 := shuffle8 a5 BYTESWAP
  let a6 := shuffle8 a6 BYTESWAP
  let a7 := shuffle8 a7 BYTESWAP
  let a8 := shuffle8 a8 BYTESWAP
  let a1 := s.current ^^^ a1
  ⟨counter, mul8 t a1 a2 a3 a4 a5 a6 a7 a8, s.out ++ out⟩

/-- One iteration of the by-16 loop, aes_gcm.rs:253-313. -/
def by16 (enc : Bool) (key : AesKey) (t : TableAvx512) (s : St M512) (blocks : Bytes) : St M512 :=
  let (counter, c0123) := next4 s.counter
  let (counter, c4567) := next4 counter
  let (counter, c89ab) := next4 counter
  let (counter, ccdef) := next4 counter
  let c0123 := key.enc512 c0123
  let c4567 := key.enc512 c4567
  let c89ab := key.enc512 c89ab
  let ccdef := key.enc512 ccdef
  let p0123 := load512 (blocks.take 64)
  let p4567 := load512 ((blocks.drop 64).take 64)
  let p89ab := load512 ((blocks.drop 128).take 64)
  let pcdef := load512 ((blocks.drop 192).take 64)
  let c0123 := xor512 c0123 p0123
  let c4567 := xor512 c4567 p4567
  let c89ab := xor512 c89ab p89ab
  let ccdef := xor512 ccdef pcdef
  let out := store512 c0123 ++ store512 c4567 ++ store512 c89ab ++ store512 ccdef
  let a0123 := if enc then c0123 else p0123
  let a4567 := if enc then c4567 else p4567
  let a89ab := if enc then c89ab else p89ab
  let acdef := if enc then ccdef else pcdef
  ⟨counter, absorb16 BYTESWAP_512 t s.current a0123 a4567 a89ab acdef, s.out ++ out⟩

/-- One 16-byte block of the tail, aes_gcm.rs:172-189 and 323-342. -/
def tailBlock (key : AesKey) (s : M128 × Bytes) (block : Bytes) : M128 × Bytes :=
  let (counter, c1) := next s.1
  let c1 := key.enc c1 ^^^ load block
  (counter, s.2 ++ store c1)

/-- The tail after the wide loop, aes_gcm.rs:170-218 and 320-372: whole blocks, then a zero-padded one. -/
def tail (key : AesKey) (counter : M128) (inout : Bytes) : Bytes :=
  let (counter, out) := (chunksExact 16 inout).foldl (tailBlock key) (counter, [])
  let rem := chunksRem 16 inout
  if rem.isEmpty then out
  else
    let len := rem.length
    let block := rem ++ List.replicate (16 - len) 0#8
    let (_, c1) := next counter
    let c1 := key.enc c1 ^^^ load block
    out ++ (store c1).take len

/-- `_cipher`, aes_gcm.rs:53-224: `ghash.current` and the buffer afterwards. -/
def cipher (enc : Bool) (key : AesKey) (t : Table) (current : M128) (initialCounter aad inout : Bytes) :
    M128 × Bytes :=
  let current := GhashX86.add t current aad
  let s := (chunksExact 128 inout).foldl (by8 enc key t.toAvx) ⟨counterNew initialCounter, current, []⟩
  let rem := chunksRem 128 inout
  let current := if enc then s.current else GhashX86.add t s.current rem
  let out := tail key s.counter rem
  let current := if enc then GhashX86.add t current out else current
  (current, s.out ++ out)

/-- `_cipher_avx512`, aes_gcm.rs:226-379; the table is the one `Ghash::table` must hold. -/
def cipherAvx512 (enc : Bool) (key : AesKey) (t : TableAvx512) (current : M128)
    (initialCounter aad inout : Bytes) : M128 × Bytes :=
  let current := GhashX86.add (.avx512 t) current aad
  let s := (chunksExact 256 inout).foldl (by16 enc key t) ⟨counter512New initialCounter, current, []⟩
  let rem := chunksRem 256 inout
  let counter := into128 s.counter
  let current := if enc then s.current else GhashX86.add (.avx512 t) s.current rem
  let out := tail key counter rem
  let current := if enc then GhashX86.add (.avx512 t) current out else current
  (current, s.out ++ out)

/-- `encrypt` and `decrypt`, aes_gcm.rs:14-51: the choice of path. -/
def lowCipher (enc : Bool) (key : AesKey) (t : Table) (current : M128) (initialCounter aad inout : Bytes) :
    M128 × Bytes :=
  match t with
  | .avx512 t512 =>
    if inout.length ≥ 256 then cipherAvx512 enc key t512 current initialCounter aad inout
    else cipher enc key t current initialCounter aad inout
  | .avx _ => cipher enc key t current initialCounter aad inout

/-- `AesGcm`, mid/aes_gcm.rs:19-22. -/
structure AesGcm where
  key : AesKey
  gh : Table

/-- `AesGcm::new`, mid/aes_gcm.rs:31-41; `avx512` is the outcome of the CPU feature check. -/
def AesGcm.new (avx512 : Bool) (key : Bytes) : Option AesGcm := do
  let key ← AesKey.new key
  let h := key.encryptBlock (List.replicate 16 0#8)
  let h := Ghash.fromBE h
  pure ⟨key, Table.new avx512 h⟩

/-- `nonce_to_y0`, mid/aes_gcm.rs:129-134. -/
def nonceToY0 (nonce : Bytes) : Bytes := nonce ++ [0#8, 0#8, 0#8, 1#8]

/-- The common part of `encrypt` and `decrypt`, mid/aes_gcm.rs:57-79 and 100-118: buffer and tag. -/
def AesGcm.run (enc : Bool) (g : AesGcm) (nonce aad inout : Bytes) : Bytes × Bytes :=
  let counter := nonceToY0 nonce
  let e_y0 := g.key.encryptBlock counter
  let (current, out) := lowCipher enc g.key g.gh 0#128 counter aad inout
  let lengths := toBE 8 (aad.length * 8) ++ toBE 8 (out.length * 8)
  let current := GhashX86.add g.gh current lengths
  let final_xi := GhashX86.intoBytes current
  (out, List.zipWith (· ^^^ ·) final_xi e_y0)

/-- `AesGcm::encrypt`, mid/aes_gcm.rs:50-80: buffer and tag. -/
def AesGcm.encrypt (g : AesGcm) (nonce aad inout : Bytes) : Bytes × Bytes := g.run true nonce aad inout

/-- `AesGcm::decrypt`, mid/aes_gcm.rs:93-127: result and buffer. -/
def AesGcm.decrypt (g : AesGcm) (nonce aad inout tag : Bytes) : Except GError Unit × Bytes :=
  let (out, actual_tag) := g.run false nonce aad inout
  if Ct.ctEqual actual_tag tag then (.ok (), out)
  else (.error .DecryptFailed, List.replicate out.length 0#8)

end Verif.AesGcm
