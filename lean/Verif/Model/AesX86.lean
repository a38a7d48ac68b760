import Verif.Model.Simd
import Verif.Spec.Aes

/-!
Model of `graviola/src/low/x86_64/aes.rs`.  The AES-NI instructions are given the meaning Intel documents
for them, in terms of the FIPS 197 transformations of `Spec/Aes.lean`.  `none` is a panic.
-/
namespace Verif.AesX86
open Verif Verif.Simd

/-- `_mm_aesenc_si128`: ShiftRows, SubBytes, MixColumns, then exclusive or with the round key. -/
def aesenc (a rk : M128) : M128 :=
  load (Spec.Aes.mixColumns (Spec.Aes.subBytes (Spec.Aes.shiftRows (store a)))) ^^^ rk

/-- `_mm_aesenclast_si128`: the same without MixColumns. -/
def aesenclast (a rk : M128) : M128 :=
  load (Spec.Aes.subBytes (Spec.Aes.shiftRows (store a))) ^^^ rk

/-- SubWord of a 32-bit element: the S-box on each byte. -/
def subWord32 (x : BitVec 32) : BitVec 32 := BitVec.ofNat 32 (leNat ((toLE 4 x.toNat).map Spec.Aes.sbox))

/-- RotWord of a 32-bit element: `[a3, a2, a1, a0]` becomes `[a0, a3, a2, a1]`. -/
def rotWord32 (x : BitVec 32) : BitVec 32 := x.rotateRight 8

/-- `_mm_aeskeygenassist_si128`. -/
def keygenassist (a : M128) (rcon : Byte) : M128 :=
  let x1 := dword a 1
  let x3 := dword a 3
  dwords (subWord32 x1) (rotWord32 (subWord32 x1) ^^^ rcon.setWidth 32)
    (subWord32 x3) (rotWord32 (subWord32 x3) ^^^ rcon.setWidth 32)

/-- `expand_128!`, aes.rs:165-188: the next `t1` (also stored to `out`). -/
def expand128 (rcon : Byte) (t1 : M128) : M128 :=
  let t2 := keygenassist t1 rcon
  let t2 := shuffle32 t2 0b11111111
  let t3 := slli4 t1
  let t1 := t1 ^^^ t3
  let t3 := slli4 t3
  let t1 := t1 ^^^ t3
  let t3 := slli4 t3
  let t1 := t1 ^^^ t3
  t1 ^^^ t2

/-- `aes128_expand`, aes.rs:191-206. -/
def aes128Expand (key : Bytes) : List M128 :=
  let k0 := load key
  let k1 := expand128 0x01 k0
  let k2 := expand128 0x02 k1
  let k3 := expand128 0x04 k2
  let k4 := expand128 0x08 k3
  let k5 := expand128 0x10 k4
  let k6 := expand128 0x20 k5
  let k7 := expand128 0x40 k6
  let k8 := expand128 0x80 k7
  let k9 := expand128 0x1b k8
  let k10 := expand128 0x36 k9
  [k0, k1, k2, k3, k4, k5, k6, k7, k8, k9, k10]

/-- `expand_256!(Odd, ..)`, aes.rs:209-226: the next `t1`. -/
def expand256Odd (rcon : Byte) (t1 t3 : M128) : M128 :=
  let t2 := keygenassist t3 rcon
  let t2 := shuffle32 t2 0b11111111
  let t3 := slli4 t1
  let t1 := t1 ^^^ t3
  let t3 := slli4 t3
  let t1 := t1 ^^^ t3
  let t3 := slli4 t3
  let t1 := t1 ^^^ t3
  t1 ^^^ t2

/-- `expand_256!(Even, ..)`, aes.rs:227-242: the next `t3`. -/
def expand256Even (t1 t3 : M128) : M128 :=
  let t4 := keygenassist t1 0
  let t2 := shuffle32 t4 0b10101010
  let t4 := slli4 t3
  let t3 := t3 ^^^ t4
  let t4 := slli4 t4
  let t3 := t3 ^^^ t4
  let t4 := slli4 t4
  let t3 := t3 ^^^ t4
  t3 ^^^ t2

/-- `aes256_expand`, aes.rs:245-271. -/
def aes256Expand (key : Bytes) : List M128 :=
  let k0 := load (key.take 16)
  let k1 := load ((key.drop 16).take 16)
  let k2 := expand256Odd 0x01 k0 k1
  let k3 := expand256Even k2 k1
  let k4 := expand256Odd 0x02 k2 k3
  let k5 := expand256Even k4 k3
  let k6 := expand256Odd 0x04 k4 k5
  let k7 := expand256Even k6 k5
  let k8 := expand256Odd 0x08 k6 k7
  let k9 := expand256Even k8 k7
  let k10 := expand256Odd 0x10 k8 k9
  let k11 := expand256Even k10 k9
  let k12 := expand256Odd 0x20 k10 k11
  let k13 := expand256Even k12 k11
  let k14 := expand256Odd 0x40 k12 k13
  [k0, k1, k2, k3, k4, k5, k6, k7, k8, k9, k10, k11, k12, k13, k14]

/-- `AesKey`, aes.rs:12-15: the eleven or fifteen round keys. -/
structure AesKey where
  roundKeys : List M128
  deriving DecidableEq

/-- `AesKey::new`, aes.rs:21-28. -/
def AesKey.new (key : Bytes) : Option AesKey :=
  match key.length with
  | 16 => some ⟨aes128Expand key⟩
  | 32 => some ⟨aes256Expand key⟩
  | 24 => none
  | _ => none

/-- `AesKey::round_keys`, aes.rs:38-51: first, middle, last. -/
def AesKey.split (k : AesKey) : M128 × List M128 × M128 :=
  (k.roundKeys.getD 0 0#128, (k.roundKeys.drop 1).dropLast, k.roundKeys.getD (k.roundKeys.length - 1) 0#128)

/-- The rounds as written in `aes128_block` (aes.rs:274-290), `aes256_block` (aes.rs:293-313) and for each
counter block in aes_gcm.rs: xor with the first key, `aesenc` with each middle key, `aesenclast`. -/
def AesKey.enc (k : AesKey) (block : M128) : M128 :=
  let (first, rks, last) := k.split
  aesenclast (rks.foldl aesenc (block ^^^ first)) last

/-- `AesKey::encrypt_block`, aes.rs:30-35. -/
def AesKey.encryptBlock (k : AesKey) (inout : Bytes) : Bytes := store (k.enc (load inout))

/-- `AesKey::round_keys_512` and `RoundKeys512::split`, aes.rs:53-117, followed by the rounds on a 512-bit
register (`_mm512_aesenc_epi128` and `_mm512_aesenclast_epi128` act on lanes), aes_gcm.rs:262-281. -/
def AesKey.enc512 (k : AesKey) (block : M512) : M512 :=
  let (first, rks, last) := k.split
  lanes2 aesenclast ((rks.map broadcast).foldl (lanes2 aesenc) (xor512 block (broadcast first))) (broadcast last)

end Verif.AesX86
