import Verif.Base.Chunks

/-!
Model of `graviola/src/low/generic/chacha20.rs`, the portable ChaCha20 (used on aarch64).
-/
namespace Verif.ChaCha20
open Verif

/-- `u32`. -/
abbrev Word := BitVec 32

/-- `[u32; 4]`, and four 32-bit lanes of a vector register (lane 0 first). -/
structure W4 where
  a : Word
  b : Word
  c : Word
  d : Word
  deriving DecidableEq

/-- `u32::from_le_bytes(b[i..i + 4])`. -/
def read32 (b : Bytes) (i : Nat) : Word := BitVec.ofNat 32 (leNat ((b.drop i).take 4))

/-- `four`, chacha20.rs:11-18. -/
def four (b : Bytes) : W4 := ⟨read32 b 0, read32 b 4, read32 b 8, read32 b 12⟩

/-- `ChaCha20`, chacha20.rs:5-9. -/
structure ChaCha20 where
  key0 : W4
  key1 : W4
  nonce : W4

/-- `SIGMA`, chacha20.rs:172. -/
def SIGMA : W4 := ⟨0x61707865, 0x3320646e, 0x79622d32, 0x6b206574⟩

/-- `ChaCha20::new`, chacha20.rs:21-27. -/
def new (key nonce : Bytes) : ChaCha20 :=
  ⟨four (key.take 16), four ((key.drop 16).take 16), four nonce⟩

/-- The macro `quarter!`, chacha20.rs:77-88 and 143-154. -/
def quarter (a b c d : Word) : Word × Word × Word × Word :=
  let a := a + b
  let d := (d ^^^ a).rotateLeft 16
  let c := c + d
  let b := (b ^^^ c).rotateLeft 12
  let a := a + b
  let d := (d ^^^ a).rotateLeft 8
  let c := c + d
  let b := (b ^^^ c).rotateLeft 7
  (a, b, c, d)

/-- The sixteen local variables `z0` .. `zf`. -/
structure Z where
  z0 : Word
  z1 : Word
  z2 : Word
  z3 : Word
  z4 : Word
  z5 : Word
  z6 : Word
  z7 : Word
  z8 : Word
  z9 : Word
  za : Word
  zb : Word
  zc : Word
  zd : Word
  ze : Word
  zf : Word

/-- The body of the loop of ten, chacha20.rs:90-99 and 156-165. -/
def loopBody : Z → Z := fun ⟨z0, z1, z2, z3, z4, z5, z6, z7, z8, z9, za, zb, zc, zd, ze, zf⟩ =>
  let (z0, z4, z8, zc) := quarter z0 z4 z8 zc
  let (z1, z5, z9, zd) := quarter z1 z5 z9 zd
  let (z2, z6, za, ze) := quarter z2 z6 za ze
  let (z3, z7, zb, zf) := quarter z3 z7 zb zf
  let (z0, z5, za, zf) := quarter z0 z5 za zf
  let (z1, z6, zb, zc) := quarter z1 z6 zb zc
  let (z2, z7, z8, zd) := quarter z2 z7 z8 zd
  let (z3, z4, z9, ze) := quarter z3 z4 z9 ze
  ⟨z0, z1, z2, z3, z4, z5, z6, z7, z8, z9, za, zb, zc, zd, ze, zf⟩

/-- `for _ in 0..n { body }`. -/
def repeatN {α : Type} : Nat → (α → α) → α → α
  | 0, _, s => s
  | n + 1, f, s => repeatN n f (f s)

/-- The initial variables, chacha20.rs:69-72 and 138-141. -/
def load (k0 k1 n : W4) : Z :=
  ⟨SIGMA.a, SIGMA.b, SIGMA.c, SIGMA.d, k0.a, k0.b, k0.c, k0.d, k1.a, k1.b, k1.c, k1.d,
    n.a, n.b, n.c, n.d⟩

/-- `w.to_le_bytes()`. -/
def le (w : Word) : Bytes := toLE 4 w.toNat

/-- `core`, chacha20.rs:68-135; the 64 output bytes. -/
def core (key0 key1 nonce : W4) : Bytes :=
  let x := load key0 key1 nonce
  let z := repeatN 10 loopBody x
  le (x.z0 + z.z0) ++ le (x.z1 + z.z1) ++ le (x.z2 + z.z2) ++ le (x.z3 + z.z3) ++
  le (x.z4 + z.z4) ++ le (x.z5 + z.z5) ++ le (x.z6 + z.z6) ++ le (x.z7 + z.z7) ++
  le (x.z8 + z.z8) ++ le (x.z9 + z.z9) ++ le (x.za + z.za) ++ le (x.zb + z.zb) ++
  le (x.zc + z.zc) ++ le (x.zd + z.zd) ++ le (x.ze + z.ze) ++ le (x.zf + z.zf)

/-- The loop of `ChaCha20::cipher` over the 64-byte chunks, chacha20.rs:30-38. -/
def cipherBlocks (c : ChaCha20) : List Bytes → ChaCha20 × Bytes
  | [] => (c, [])
  | block :: rest =>
    let out := List.zipWith (· ^^^ ·) block (core c.key0 c.key1 c.nonce)
    let r := cipherBlocks { c with nonce := { c.nonce with a := c.nonce.a + 1#32 } } rest
    (r.1, out ++ r.2)

/-- `ChaCha20::cipher`, chacha20.rs:29-39: the new state and the buffer afterwards. -/
def cipher (c : ChaCha20) (buffer : Bytes) : ChaCha20 × Bytes := cipherBlocks c (chunks 64 buffer)

/-- `hchacha`, chacha20.rs:137-169; the new `key0` and `key1`. -/
def hchacha (key0 key1 nonce : W4) : W4 × W4 :=
  let z := repeatN 10 loopBody (load key0 key1 nonce)
  (⟨z.z0, z.z1, z.z2, z.z3⟩, ⟨z.zc, z.zd, z.ze, z.zf⟩)

/-- `XChaCha20::new`, chacha20.rs:45-61 (the newtype is dropped; `XChaCha20::cipher` is `cipher`). -/
def xnew (key nonce : Bytes) : ChaCha20 :=
  let hchacha_nonce := four (nonce.take 16)
  let k := hchacha (four (key.take 16)) (four ((key.drop 16).take 16)) hchacha_nonce
  let chacha_nonce := List.replicate 8 0#8 ++ (nonce.drop 16).take 8
  ⟨k.1, k.2, four chacha_nonce⟩

end Verif.ChaCha20
