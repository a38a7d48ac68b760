import Verif.Base.Words

/-!
Model of the `bignum_*` functions of `graviola/src/low/{x86_64,aarch64}` that `posint.rs` calls.  They are assembly from
s2n-bignum; here they are functions on word lists.  (For those of x86_64 listed in `Props/AsmX86.lean` the machine code is proved
to compute these functions.)  Each is described by the comment that heads its file: a function
whose comment fixes the result for all arguments is defined here; one whose comment has an assumption is a field of `Asm`, and
`Asm.Ok` says what the comment promises, under the stated assumption only.

Line numbers are of the x86_64 files.  Slices have the lengths the `debug_assert!`s in the wrappers demand; the contracts in
`Asm.Ok` assume that, so a proof that uses one proves that the assertion holds.
-/
namespace Verif.Bignum
open Verif

/-- `bignum_bitsize`, bignum_bitsize.rs:54-62. -/
def bitsize (x : Words) : Nat := if val x = 0 then 0 else Nat.log2 (val x) + 1
/-- `bignum_digitsize`, bignum_digitsize.rs:46-51. -/
def digitsize (x : Words) : Nat := (bitsize x + 63) / 64
/-- Trailing zero bits of a number below `2^f`; `f` for zero. -/
def trailingZeros : Nat → Nat → Nat
  | 0, _ => 0
  | f + 1, n => if n % 2 = 1 then 0 else trailingZeros f (n / 2) + 1
/-- `bignum_ctz`, bignum_ctz.rs:56-65. -/
def ctz (x : Words) : Nat := trailingZeros (64 * x.length) (val x)
/-- `bignum_coprime`, bignum_coprime.rs:255-266. -/
def coprime (x y : Words) : Bool := Nat.gcd (val x) (val y) == 1
/-- `bignum_eq`, bignum_eq.rs:51-54. -/
def eq (x y : Words) : Bool := val x == val y
/-- `bignum_cmp_lt`, bignum_cmp_lt.rs:56-59. -/
def cmpLt (x y : Words) : Word := if val x < val y then 1#64 else 0#64
/-- `bignum_shr_small`, bignum_shr_small.rs:76-83: `k` words of output. -/
def shrSmall (k : Nat) (x : Words) (c : Nat) : Words := toWords k (val x / 2 ^ (c % 64))
/-- `bignum_add`, bignum_add.rs:70-77: `p` words of output, and the carry. -/
def add (p : Nat) (x y : Words) : Words × Word :=
  let s := val (x.take p) + val (y.take p)
  (toWords p s, BitVec.ofNat 64 (s / 2 ^ (64 * p)))
/-- `bignum_mul`, bignum_mul.rs:96-102. -/
def mul (k : Nat) (x y : Words) : Words := toWords k (val x * val y)
/-- `bignum_kmul_16_32` (bignum_kmul_16_32.rs:24-30) and `bignum_kmul_32_64`. -/
def kmul (k : Nat) (x y : Words) : Words := toWords k (val x * val y)
/-- `bignum_ksqr_16_32` (bignum_ksqr_16_32.rs:23-29) and `bignum_ksqr_32_64`. -/
def ksqr (k : Nat) (x : Words) : Words := toWords k (val x * val x)
/-- `bignum_optsub`, bignum_optsub.rs:69-75: it reads `k` words of `x` and of `y`, and wraps. -/
def optsub (k : Nat) (x y : Words) (p : Word) : Words :=
  if p = 0#64 then toWords k (val (x.take k)) else toWords k (val (x.take k) + 2 ^ (64 * k) - val (y.take k))
/-- `bignum_modsub`, bignum_modsub.rs: the two loops at lines 83-108, subtract, and on borrow add the modulus; it reads `k`
words of each argument.  This is `x - y mod m` for reduced `x` and `y`. -/
def modsub (k : Nat) (x y m : Words) : Words :=
  let d := val (x.take k) + 2 ^ (64 * k) - val (y.take k)
  if val (x.take k) < val (y.take k) then toWords k (d + val (m.take k)) else toWords k d
/-- `bignum_copy_row_from_table`, bignum_copy_row_from_table.rs:59-110. -/
def copyRow (table : Words) (height width index : Nat) : Words :=
  if index < height then (table.drop (index * width)).take width else List.replicate width 0#64

/-- The functions whose comment makes an assumption about the arguments.  The length of the output slice is that of the
modulus in each case (`emontredc_8n`: of the input). -/
structure Asm where
  /-- `bignum_modadd`, bignum_modadd.rs:65-68. -/
  modadd : (x y m : Words) → Words
  /-- `bignum_montifier`, bignum_montifier.rs:139-147. -/
  montifier : (m : Words) → Words
  /-- `bignum_montmul`, bignum_montmul.rs:140-146. -/
  montmul : (x y m : Words) → Words
  /-- `bignum_montsqr`, bignum_montsqr.rs:125-131. -/
  montsqr : (x m : Words) → Words
  /-- `bignum_negmodinv`, bignum_negmodinv.rs:93-102. -/
  negmodinv : (x : Words) → Words
  /-- `bignum_emontredc_8n`, bignum_emontredc_8n.rs:22-28. -/
  emontredc8n : (z m : Words) → (w : Word) → Words × Word
  /-- `bignum_montredc`, bignum_montredc.rs:142-150. -/
  montredc : (x m : Words) → (p : Nat) → Words
  /-- `bignum_demont`, bignum_demont.rs:115-122. -/
  demont : (x m : Words) → Words
  /-- `bignum_modinv`, bignum_modinv.rs:260-267. -/
  modinv : (a b : Words) → Words

/-- What the comments promise.  `z := (x / 2^{64p}) mod m` is the number below `m` that times `2^{64p}` is congruent to `x`. -/
structure Asm.Ok (A : Asm) : Prop where
  modadd_length : ∀ x y m, (A.modadd x y m).length = m.length
  montifier_length : ∀ m, (A.montifier m).length = m.length
  montmul_length : ∀ x y m, (A.montmul x y m).length = m.length
  montsqr_length : ∀ x m, (A.montsqr x m).length = m.length
  negmodinv_length : ∀ x, (A.negmodinv x).length = x.length
  emontredc8n_length : ∀ z m w, (A.emontredc8n z m w).1.length = z.length
  montredc_length : ∀ x m p, (A.montredc x m p).length = m.length
  demont_length : ∀ x m, (A.demont x m).length = m.length
  modinv_length : ∀ a b, (A.modinv a b).length = b.length
  /-- "z := (x + y) mod m, assuming x and y reduced" -/
  modadd : ∀ x y m, x.length = m.length → y.length = m.length → val x < val m → val y < val m →
    val (A.modadd x y m) = (val x + val y) % val m
  /-- "z := 2^{128k} mod m", for the odd `m` of Montgomery arithmetic -/
  montifier : ∀ m, val m % 2 = 1 → val (A.montifier m) = 2 ^ (128 * m.length) % val m
  /-- "z := (x * y / 2^{64k}) mod m, assuming x * y <= 2^{64k} * m" -/
  montmul : ∀ x y m, x.length = m.length → y.length = m.length → val m % 2 = 1 →
    val x * val y ≤ 2 ^ (64 * m.length) * val m →
    val (A.montmul x y m) < val m ∧ val (A.montmul x y m) * 2 ^ (64 * m.length) % val m = val x * val y % val m
  /-- "z := (x^2 / 2^{64k}) mod m, assuming x^2 <= 2^{64k} * m" -/
  montsqr : ∀ x m, x.length = m.length → val m % 2 = 1 → val x * val x ≤ 2 ^ (64 * m.length) * val m →
    val (A.montsqr x m) < val m ∧ val (A.montsqr x m) * 2 ^ (64 * m.length) % val m = val x * val x % val m
  /-- "x * z + 1 == 0 (mod 2^{64 * k})", for odd `x` -/
  negmodinv : ∀ x, val x % 2 = 1 → (val x * val (A.negmodinv x) + 1) % 2 ^ (64 * x.length) = 0
  /-- Extended Montgomery reduction: a multiple of `m` with factor below `2^{64k}` is added that makes the low half vanish;
  the high half and the returned bit are the sum divided by `2^{64k}`. -/
  emontredc8n : ∀ z m w, z.length = 2 * m.length → m.length % 8 = 0 → (val m * w.toNat + 1) % 2 ^ 64 = 0 →
    ∃ q, q < 2 ^ (64 * m.length) ∧
      val z + q * val m = 2 ^ (64 * m.length) * (val ((A.emontredc8n z m w).1.drop m.length) +
        2 ^ (64 * m.length) * (A.emontredc8n z m w).2.toNat)
  /-- "z := (x' / 2^{64p}) mod m where x' = x if n <= p + k …, assuming x' <= 2^{64p} * m" -/
  montredc : ∀ x m p, x.length ≤ p + m.length → val m % 2 = 1 → val x ≤ 2 ^ (64 * p) * val m →
    val (A.montredc x m p) < val m ∧ val (A.montredc x m p) * 2 ^ (64 * p) % val m = val x % val m
  /-- "z := (x / 2^{64k}) mod m … any k-digit bignum" -/
  demont : ∀ x m, x.length = m.length → val m % 2 = 1 →
    val (A.demont x m) < val m ∧ val (A.demont x m) * 2 ^ (64 * m.length) % val m = val x % val m
  /-- "z = (1/a) mod b, assuming b is an odd number > 1, coprime a" -/
  modinv : ∀ a b, a.length = b.length → val b % 2 = 1 → 1 < val b → Nat.gcd (val a) (val b) = 1 →
    val (A.modinv a b) < val b ∧ val a * val (A.modinv a b) % val b = 1

end Verif.Bignum
