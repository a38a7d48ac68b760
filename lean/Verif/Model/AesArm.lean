import Verif.Model.Neon

/-!
Model of `graviola/src/low/aarch64/aes.rs`.  `none` is a panic.
-/
namespace Verif.AesArm
open Verif Verif.Simd Verif.Neon

/-- `RCON`, aes.rs:166. -/
def RCON : List (BitVec 32) := [0x01, 0x02, 0x04, 0x08, 0x10, 0x20, 0x40, 0x80, 0x1b, 0x36]

/-- `sub_word` and `_sub_word`, aes.rs:144-164: AESE with a zero key on four copies of the word, lane 0. -/
def subWord (w : BitVec 32) : BitVec 32 :=
  let t2 := vdupq32 w
  let z := 0#128
  let t2 := vaeseq t2 z
  dword t2 0

/-- `u32::from_be_bytes(key[4 * i..4 * i + 4])`. -/
def keyWord (key : Bytes) (i : Nat) : BitVec 32 := BitVec.ofNat 32 (beNat ((key.drop (4 * i)).take 4))

/-- The last three assignments of either loop, aes.rs:67-69 and 114-116, and the words appended to `rk32`.
The preallocated `rk32` array is modelled as the list of the words written so far. -/
def appendRound (rk32 : List (BitVec 32)) (c0 p1 p2 p3 : BitVec 32) : List (BitVec 32) :=
  let c1 := c0 ^^^ p1
  let c2 := c1 ^^^ p2
  let c3 := c2 ^^^ p3
  rk32 ++ [c0, c1, c2, c3]

/-- One iteration of the loop of `AesKey128::new`, aes.rs:64-70; `prev` starts at word `(r - 1) * 4`. -/
def round128 (rk32 : List (BitVec 32)) (r : Nat) : List (BitVec 32) :=
  let prev := fun j => rk32.getD ((r - 1) * 4 + j) 0#32
  let c0 := subWord ((prev 3).rotateLeft 8) ^^^ (RCON.getD (r - 1) 0#32 <<< 24) ^^^ prev 0
  appendRound rk32 c0 (prev 1) (prev 2) (prev 3)

/-- One iteration of the loop of `AesKey256::new`, aes.rs:106-117; `prev` starts at word `(r - 2) * 4`. -/
def round256 (rk32 : List (BitVec 32)) (r : Nat) : List (BitVec 32) :=
  let prev := fun j => rk32.getD ((r - 2) * 4 + j) 0#32
  let c0 :=
    if r % 2 = 1 then subWord (prev 7) ^^^ prev 0
    else subWord ((prev 7).rotateLeft 8) ^^^ (RCON.getD ((r - 1) / 2) 0#32 <<< 24) ^^^ prev 0
  appendRound rk32 c0 (prev 1) (prev 2) (prev 3)

/-- The final loop of both constructors, aes.rs:73-76 and 120-123: four words of little-endian memory are
loaded as bytes, and `vrev32q_u8` restores the order of the bytes in each word. -/
def toRoundKeys (rk32 : List (BitVec 32)) (n : Nat) : List Q :=
  (List.range n).map fun i =>
    vrev32q (vld1q (((rk32.drop (4 * i)).take 4).flatMap fun w => toLE 4 w.toNat))

/-- `AesKey128::new`, aes.rs:54-79. -/
def new128 (key : Bytes) : List Q :=
  let rk32 := (List.range 4).map (keyWord key)
  let rk32 := (List.range' 1 10).foldl round128 rk32
  toRoundKeys rk32 11

/-- `AesKey256::new`, aes.rs:95-127. -/
def new256 (key : Bytes) : List Q :=
  let rk32 := (List.range 8).map (keyWord key)
  let rk32 := (List.range' 2 13).foldl round256 rk32
  toRoundKeys rk32 15

/-- `AesKey`, aes.rs:15-18. -/
inductive AesKey
  | aes128 (roundKeys : List Q)
  | aes256 (roundKeys : List Q)
  deriving DecidableEq

/-- `AesKey::new`, aes.rs:24-31. -/
def AesKey.new (key : Bytes) : Option AesKey :=
  match key.length with
  | 16 => some (.aes128 (new128 key))
  | 32 => some (.aes256 (new256 key))
  | 24 => none
  | _ => none

/-- `n` rounds of AESE with `round_keys[r]` then AESMC, as unrolled in the functions below. -/
def rounds (roundKeys : List Q) (n : Nat) (block : Q) : Q :=
  (List.range n).foldl (fun block r => vaesmcq (vaeseq block (roundKeys.getD r 0#128))) block

/-- `_aes128_block`, aes.rs:179-200; also each block of `_aes128_8_blocks`, aes.rs:226-274, whose macro
`round_8!` does the same steps on eight blocks in turn. -/
def aes128Block (rk : List Q) (block : Q) : Q :=
  let block := rounds rk 9 block
  let block := vaeseq block (rk.getD 9 0#128)
  veorq block (rk.getD 10 0#128)

/-- `_aes256_block`, aes.rs:287-317; also each block of `_aes256_8_blocks`, aes.rs:320-374. -/
def aes256Block (rk : List Q) (block : Q) : Q :=
  let block := rounds rk 13 block
  let block := vaeseq block (rk.getD 13 0#128)
  veorq block (rk.getD 14 0#128)

/-- The `match key` on each block in aes_gcm.rs. -/
def AesKey.enc : AesKey → Q → Q
  | .aes128 rk => aes128Block rk
  | .aes256 rk => aes256Block rk

/-- `AesKey::encrypt_block`, aes.rs:33-38, with `aes128_block` and `aes256_block`, aes.rs:169-176 and 277-284. -/
def AesKey.encryptBlock (k : AesKey) (inout : Bytes) : Bytes := vst1q (k.enc (vld1q inout))

end Verif.AesArm
