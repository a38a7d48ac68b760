import Verif.Model.Rsa
import Verif.Model.Rng

/-!
Model of `graviola/src/mid/rsa_priv/generate.rs` and `SigningKey::generate` of `graviola/src/high/rsa.rs`.

The loops of this file have no bound: each is given `fuel` turns and gives `none` when it would go on.  A random source is
called with the number of its earlier calls, which is threaded through.  Zeroing of buffers is not modelled.
-/
namespace Verif.RsaGen
open Verif Verif.Bignum Verif.Rsa

/-- `KeySize`, generate.rs:18-29. -/
inductive KeySize
  | Rsa2048 | Rsa3072 | Rsa4096 | Rsa6144 | Rsa8192
  deriving DecidableEq

/-- `public_modulus_size_bits`, generate.rs:32-40. -/
def KeySize.publicModulusSizeBits : KeySize → Nat
  | .Rsa2048 => 2048
  | .Rsa3072 => 3072
  | .Rsa4096 => 4096
  | .Rsa6144 => 6144
  | .Rsa8192 => 8192
/-- `private_prime_size_bits`, generate.rs:42-44. -/
def KeySize.privatePrimeSizeBits (s : KeySize) : Nat := s.publicModulusSizeBits / 2
/-- `miller_rabin_rounds`, generate.rs:46-55. -/
def KeySize.millerRabinRounds : KeySize → Nat
  | .Rsa2048 => 5
  | .Rsa3072 => 4
  | .Rsa4096 => 4
  | .Rsa6144 => 4
  | .Rsa8192 => 4
/-- `TryFrom<usize>`, generate.rs:58-71. -/
def KeySize.tryFrom (value : Nat) : Except GError KeySize :=
  match value with
  | 2048 => .ok .Rsa2048
  | 3072 => .ok .Rsa3072
  | 4096 => .ok .Rsa4096
  | 6144 => .ok .Rsa6144
  | 8192 => .ok .Rsa8192
  | _ => .error .OutOfRange

/-- `MillerRabinParams`, generate.rs:217-226. -/
structure MrParams where
  w : PosInt 64
  w1 : PosInt 64
  a : Nat
  m : PosInt 64
  w0 : Word
  wMontifier : PosInt 64
  montW1 : PosInt 64
  montOne : PosInt 64

/-- `MillerRabinParams::new`, generate.rs:229-253. -/
def MrParams.new (A : Asm) (w : PosInt 64) : MrParams :=
  let w1 := w.sub (PosInt.word 64 1#64)
  let a := w1.countTrailingZeroes
  let m := w1.shiftRightVartime a
  let wMontifier := w.montifier A
  let w0 := w.montNegInverse A
  let montW1 := w1.toMontgomery A wMontifier w
  let montOne := w.fixedOne.montMul A wMontifier w w0
  { w, w1, a, m, w0, wMontifier, montW1, montOne }

/-- `MillerRabinResult`, generate.rs:296-300. -/
inductive MrResult
  | UnsuitableBase | PossiblyPrime | Composite
  deriving DecidableEq

/-- The loop at generate.rs:275-288, `turns` of it left. -/
def checkLoop (A : Asm) (P : MrParams) : Nat → PosInt 64 → MrResult
  | 0, _ => .Composite
  | turns + 1, z =>
    let z := z.montSqr A P.w P.w0
    if z.equals P.montW1 then .PossiblyPrime
    else if z.equals P.montOne then .Composite
    else checkLoop A P turns z

/-- `check_base`, generate.rs:255-292. -/
def checkBase (A : Asm) (P : MrParams) (b : PosInt 64) : Option MrResult :=
  if b.lenBits ≤ 1 || !b.lessThan P.w1 then some .UnsuitableBase
  else do
    let z ← (b.toMontgomery A P.wMontifier P.w).montExp A P.montOne P.m P.w P.w0
    if z.equals P.montOne || z.equals P.montW1 then some .PossiblyPrime
    else some (checkLoop A P (P.a - 1) z)

/-- The buffer after generate.rs:195-197: the excess high bits of the first byte are cleared. -/
def maskBase (wLen : Nat) (buffer : Bytes) : Bytes :=
  if wLen % 8 ≠ 0 then buffer.modifyHead (· &&& BitVec.ofNat 8 (2 ^ (wLen % 8) - 1)) else buffer

/-- The loop of `miller_rabin`, generate.rs:187-214: `left` values remain in `iter`, `k` calls have been made to the source.
The buffer has 512 bytes and `w` at most 4096 bits, so the slice is in range. -/
def mrLoop (A : Asm) (P : MrParams) (wLen : Nat) (rng : RandomSource) : Nat → Nat → Nat → Option (GR Bool × Nat)
  | 0, _, _ => none
  | fuel + 1, left, k =>
    match rng k ((wLen + 7) / 8) with
    | .error e => some (.error (.err e), k + 1)
    | .ok buffer => match PosInt.fromBytes 64 (maskBase wLen buffer) with
      | .error e => some (.error (.err e), k + 1)
      | .ok b => match checkBase A P b with
        | none => some (.error .panic, k + 1)
        | some .UnsuitableBase => mrLoop A P wLen rng fuel left (k + 1)
        | some .Composite => some (.ok false, k + 1)
        | some .PossiblyPrime =>
          if left = 0 then some (.ok true, k + 1) else mrLoop A P wLen rng fuel (left - 1) (k + 1)

/-- `miller_rabin`, generate.rs:177-215. -/
def millerRabin (A : Asm) (fuel : Nat) (w : PosInt 64) (size : KeySize) (rng : RandomSource) (k : Nat) : Option (GR Bool × Nat) :=
  mrLoop A (MrParams.new A w) w.lenBits rng fuel size.millerRabinRounds k

/-- `PRODUCT_OF_SMALL_PRIMES`, generate.rs:311-320. -/
def PRODUCT_OF_SMALL_PRIMES : Bytes := [
  0x02, 0xc8, 0x5f, 0xf8, 0x70, 0xf2, 0x4b, 0xe8, 0x0f, 0x62, 0xb1, 0xba, 0x6c, 0x20, 0xbd, 0x72,
  0xb8, 0x37, 0xef, 0xdf, 0x12, 0x12, 0x06, 0xd8, 0x7d, 0xb5, 0x6b, 0x7d, 0x69, 0xfa, 0x4c, 0x02,
  0x1c, 0x10, 0x7c, 0x3c, 0xa2, 0x06, 0xfe, 0x8f, 0xa7, 0x08, 0x0e, 0xf5, 0x76, 0xef, 0xfc, 0x82,
  0xf9, 0xb1, 0x0f, 0x57, 0x50, 0x65, 0x6b, 0x77, 0x94, 0xb1, 0x6a, 0xfd, 0x70, 0x99, 0x6e, 0x91,
  0xae, 0xf6, 0xe0, 0xad, 0x15, 0xe9, 0x1b, 0x07, 0x1a, 0xc9, 0xb2, 0x4d, 0x98, 0xb2, 0x33, 0xad,
  0x86, 0xee, 0x05, 0x55, 0x18, 0xe5, 0x8e, 0x56, 0x63, 0x8e, 0xf1, 0x8b, 0xac, 0x5c, 0x74, 0xcb,
  0x35, 0xbb, 0xb6, 0xe5, 0xda, 0xe2, 0x78, 0x3d, 0xd1, 0xc0, 0xce, 0x7d, 0xec, 0x4f, 0xc7, 0x0e,
  0x51, 0x86, 0xd4, 0x11, 0xdf, 0x36, 0x36, 0x8f, 0x06, 0x1a, 0xa3, 0x60, 0x11, 0xf3, 0x01, 0x79]

/-- The body of `is_prime`, generate.rs:168-174, for a given product of small primes. -/
def isPrimeWith (product : Bytes) (A : Asm) (fuel : Nat) (candidate : PosInt 64) (size : KeySize) (rng : RandomSource) (k : Nat) :
    Option (GR Bool × Nat) :=
  match PosInt.fromBytes 64 product with
  | .error _ => some (.error .panic, k)
  | .ok smallPrimes =>
    if candidate.isCoprime smallPrimes = false then some (.ok false, k)
    else millerRabin A fuel candidate size rng k
/-- `is_prime`, generate.rs:163-175. -/
def isPrime (A : Asm) (fuel : Nat) (candidate : PosInt 64) (size : KeySize) (rng : RandomSource) (k : Nat) :
    Option (GR Bool × Nat) := isPrimeWith PRODUCT_OF_SMALL_PRIMES A fuel candidate size rng k

/-- How often the source of candidates and the source of Miller-Rabin bases have been called. -/
structure Calls where
  cand : Nat
  check : Nat
  deriving DecidableEq

/-- The candidate buffer after generate.rs:145-149. -/
def candidateBytes (buffer : Bytes) : Bytes :=
  let b := buffer.modifyHead (· ||| 0b1100_0000#8)
  b.modify (b.length - 1) (· ||| 0b0000_0001#8)

/-- `random_prime_one`, generate.rs:136-161. -/
def randomPrimeOne (A : Asm) (fuel : Nat) (size : KeySize) (cr kr : RandomSource) (s : Calls) :
    Option (GR (Option (PosInt 64)) × Calls) :=
  let bytes := size.privatePrimeSizeBits / 8
  match cr s.cand bytes with
  | .error e => some (.error (.err e), { s with cand := s.cand + 1 })
  | .ok buffer =>
    let s := { s with cand := s.cand + 1 }
    match PosInt.fromBytes 64 (candidateBytes buffer) with
    | .error e => some (.error (.err e), s)
    | .ok candidate => match isPrime A fuel candidate size kr s.check with
      | none => none
      | some (.error f, k) => some (.error f, { s with check := k })
      | some (.ok true, k) => some (.ok (some candidate), { s with check := k })
      | some (.ok false, k) => some (.ok none, { s with check := k })

/-- `random_prime`, generate.rs:122-134, at most `n` turns. -/
def randomPrime (A : Asm) (fuel : Nat) (size : KeySize) (cr kr : RandomSource) : Nat → Calls → Option (GR (PosInt 64) × Calls)
  | 0, _ => none
  | n + 1, s => match randomPrimeOne A fuel size cr kr s with
    | none => none
    | some (.ok (some candidate), s) => some (.ok candidate, s)
    | some (.ok none, s) => randomPrime A fuel size cr kr n s
    | some (.error e, s) => some (.error e, s)

/-- `PUBLIC_EXPONENT`, generate.rs:120. -/
def PUBLIC_EXPONENT : BitVec 32 := 0x10001#32

/-- The body of the loop of `generate_key` after the primes are chosen, generate.rs:83-115.  `some none` is `continue`. -/
def assemble (A : Asm) (fuel : Nat) (p q : PosInt 64) : Option (Option (GR PrivateKey)) :=
  if p.equals q then some (some (.error (.err .RngFailed)))
  else
    let (p, q) := if q.lessThan p then (p, q) else (q, p)
    match PosInt.mul 128 p q with
    | none => some (some (.error .panic))
    | some n =>
      let e := PosInt.word 128 (PUBLIC_EXPONENT.zeroExtend 64)
      let one := PosInt.one 64
      let p1 := p.sub one
      let q1 := q.sub one
      match PosInt.mul 128 p1 q1 with
      | none => some (some (.error .panic))
      | some phi => match e.invertVartime A fuel phi with
        | .panic => some (some (.error .panic))
        | .running => none
        | .done none => some none
        | .done (some d) =>
          let iqmp := q.modInverse A p
          match d.reduceEven A p1, d.reduceEven A q1 with
          | some dp, some dq => some (some (lift (PrivateKey.new A p q d dp dq iqmp n PUBLIC_EXPONENT)))
          | _, _ => some (some (.error .panic))

/-- `generate_key`, generate.rs:74-117, at most `n` turns; `RsaPrivateKey::generate`, rsa_priv.rs:78-84, and
`SigningKey::generate`, high/rsa.rs:263-267, which passes the system's source twice. -/
def generateKey (A : Asm) (fuel : Nat) (size : KeySize) (cr kr : RandomSource) : Nat → Calls → Option (GR PrivateKey × Calls)
  | 0, _ => none
  | n + 1, s => match randomPrime A fuel size cr kr fuel s with
    | none => none
    | some (.error e, s) => some (.error e, s)
    | some (.ok p, s) => match randomPrime A fuel size cr kr fuel s with
      | none => none
      | some (.error e, s) => some (.error e, s)
      | some (.ok q, s) => match assemble A fuel p q with
        | none => none
        | some (some r) => some (r, s)
        | some none => generateKey A fuel size cr kr n s

end Verif.RsaGen
