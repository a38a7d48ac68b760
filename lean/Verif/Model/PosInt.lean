import Verif.Model.Bignum
import Verif.Model.Error

/-!
Model of `graviola/src/low/posint.rs`.  `none` is a panic.  The assembly it calls is `Verif.Model.Bignum`.
-/
namespace Verif
open Bignum

/-- `PosInt<N>`, posint.rs:9-13. -/
structure PosInt (N : Nat) where
  words : Words
  used : Nat
  deriving DecidableEq

namespace PosInt
variable {N M : Nat}

/-- The type's invariant: `N` words, of which those from `used` on are zero (posint.rs:48-51, 279-282). -/
structure Inv (p : PosInt N) : Prop where
  length : p.words.length = N
  used : p.used ≤ N
  zero : p.words.drop p.used = List.replicate (N - p.used) 0#64

/-- `as_words`, posint.rs:271-273. -/
def asWords (p : PosInt N) : Words := p.words.take p.used
/-- The number a `PosInt` holds. -/
def value (p : PosInt N) : Nat := val p.asWords
/-- `as_words_with_len_of`, posint.rs:283-285. -/
def asWordsWithLenOf (p len : PosInt N) : Words := p.words.take len.used

/-- `zero`, posint.rs:17-22. -/
def zero (N : Nat) : PosInt N := ⟨List.replicate N 0#64, 0⟩
/-- A `zero()` whose `used` was set to the length of `ws`, filled with `ws` through `as_mut_words` (posint.rs:275-277).  The
functions below use it where `used` is taken from a value of the same type. -/
def ofWords (N : Nat) (ws : Words) : PosInt N := ⟨ws ++ List.replicate (N - ws.length) 0#64, ws.length⟩
/-- `push_word`, posint.rs:59-67; `none` is `Err(OutOfRange)`. -/
def pushWord (p : PosInt N) (w : Word) : Option (PosInt N) :=
  if p.used = N then none else some ⟨p.words.set p.used w, p.used + 1⟩
/-- `word`, posint.rs:25-29; the `unwrap` panics for `N = 0` only. -/
def word (N : Nat) (w : Word) : PosInt N := ⟨(zero N).words.set 0 w, 1⟩
/-- `one`, posint.rs:32-37. -/
def one (N : Nat) : PosInt N := ⟨(zero N).words.set 0 1#64, 1⟩
/-- `expand`, posint.rs:47-53. -/
def expand (p other : PosInt N) : PosInt N := ⟨p.words, other.used⟩
/-- `fixed_one`, posint.rs:40-44. -/
def fixedOne (p : PosInt N) : PosInt N := (one N).expand p

/-- `trim_leading_zeroes`, posint.rs:900-910. -/
def trimLeadingZeroes : Bytes → Bytes
  | [] => []
  | b :: bs => if b = 0#8 then trimLeadingZeroes bs else b :: bs
/-- `rchunks_exact(8)`: blocks of eight from the end. -/
def rchunks8 (bs : Bytes) : List Bytes :=
  (List.range (bs.length / 8)).map fun i => (bs.drop (bs.length - 8 * (i + 1))).take 8
/-- The loop at posint.rs:80-82. -/
def pushWords (p : PosInt N) : List Word → Option (PosInt N)
  | [] => some p
  | w :: ws => match p.pushWord w with | none => none | some p => pushWords p ws
/-- `from_bytes`, posint.rs:69-95. -/
def fromBytes (N : Nat) (bytes : Bytes) : Except GError (PosInt N) :=
  let bytes := trimLeadingZeroes bytes
  if bytes.length > N * 8 then .error .OutOfRange
  else match pushWords (zero N) ((rchunks8 bytes).map fun c => BitVec.ofNat 64 (beNat c)) with
    | none => .error .OutOfRange
    | some r =>
      let finalWord := (bytes.take (bytes.length % 8)).foldl (fun (acc : Word) (b : Byte) => (acc <<< 8) ||| b.zeroExtend 64) 0#64
      if finalWord ≠ 0#64 then
        match r.pushWord finalWord with | none => .error .OutOfRange | some r => .ok r
      else .ok r

/-- The big-endian bytes of the used words. -/
def beBytes (p : PosInt N) : Bytes := (p.asWords.map fun w => toBE 8 w.toNat).reverse.flatten
/-- `to_bytes`, posint.rs:97-106, into a buffer of `outLen` bytes. -/
def toBytes (p : PosInt N) (outLen : Nat) : Except GError Bytes :=
  if outLen < p.used * 8 then .error .OutOfRange else .ok p.beBytes
/-- `to_bytes_asn1`, posint.rs:112-126. -/
def toBytesAsn1 (p : PosInt N) (outLen : Nat) : Except GError Bytes :=
  if outLen < p.used * 8 + 1 then .error .OutOfRange else .ok (0x00#8 :: p.beBytes)

/-- `len_bits`, posint.rs:143-145. -/
def lenBits (p : PosInt N) : Nat := bitsize p.asWords
/-- `len_bytes`, posint.rs:139-141. -/
def lenBytes (p : PosInt N) : Nat := (p.lenBits + 7) / 8
/-- `count_trailing_zeroes`, posint.rs:147-149. -/
def countTrailingZeroes (p : PosInt N) : Nat := ctz p.asWords
/-- `is_even`, posint.rs:151-153. -/
def isEven (p : PosInt N) : Bool := (p.words.headD 0#64).toNat % 2 == 0
/-- `is_odd`, posint.rs:155-157. -/
def isOdd (p : PosInt N) : Bool := !p.isEven
/-- `is_zero`, posint.rs:159-161. -/
def isZero (p : PosInt N) : Bool := p.lenBits == 0
/-- `is_coprime`, posint.rs:164-167. -/
def isCoprime (p other : PosInt N) : Bool := coprime p.asWords other.asWords
/-- `equals`, posint.rs:288-290. -/
def equals (p other : PosInt N) : Bool := eq p.asWords other.asWords
/-- `less_than`, posint.rs:318-320. -/
def lessThan (p other : PosInt N) : Bool := cmpLt p.asWords other.asWords != 0#64

/-- `shift_right_vartime`, posint.rs:251-261. -/
def shiftRightVartime (p : PosInt N) (shift : Nat) : PosInt N :=
  let bits := shift % 64
  let words := (shift - bits) / 64
  ofWords N (shrSmall (p.used - words) (p.asWords.drop words) bits)
/-- `shift_right_1`, posint.rs:264-269. -/
def shiftRight1 (p : PosInt N) : PosInt N := ofWords N (shrSmall p.used p.asWords 1)

/-- `montifier`, posint.rs:324-335. -/
def montifier (A : Asm) (p : PosInt N) : PosInt N := ofWords N (A.montifier p.asWords)
/-- `to_montgomery`, posint.rs:339-349. -/
def toMontgomery (A : Asm) (p montifier n : PosInt N) : PosInt N :=
  ofWords N (A.montmul (p.asWordsWithLenOf n) (montifier.asWordsWithLenOf n) n.asWords)
/-- `mont_neg_inverse`, posint.rs:352-357. -/
def montNegInverse (A : Asm) (p : PosInt N) : Word := (ofWords N (A.negmodinv p.asWords)).words.headD 0#64

/-- The words computed by `mont_reduce8`, posint.rs:479-489, and by `mont_reduce8_in_place`, posint.rs:493-500. -/
def montReduce8 (A : Asm) (product : Words) (n : PosInt N) (n0 : Word) : Words :=
  let r := A.emontredc8n product n.asWords n0
  let reduced := r.1.drop (product.length / 2)
  optsub n.used reduced n.asWords (r.2 ||| cmpLt n.asWords reduced)
/-- `mont_sqr`, posint.rs:363-378, with `mont_sqr_1024` (:439-445) and `mont_sqr_2048` (:458-464). -/
def montSqr (A : Asm) (p n : PosInt N) (n0 : Word) : PosInt N :=
  if p.used = 16 ∧ n.used = 16 then ofWords N (montReduce8 A (ksqr 32 p.asWords) n n0)
  else if p.used = 32 ∧ n.used = 32 then ofWords N (montReduce8 A (ksqr 64 p.asWords) n n0)
  else ofWords N (A.montsqr (p.asWordsWithLenOf n) n.asWords)
/-- Writing through `as_mut_words` after setting `used`: the words above stay. -/
def overwrite (p : PosInt N) (ws : Words) : PosInt N := ⟨ws ++ p.words.drop ws.length, ws.length⟩
/-- `mont_sqr_in_place`, posint.rs:382-397, with `mont_sqr_1024_in_place` (:449-455) and `mont_sqr_2048_in_place` (:468-474). -/
def montSqrInPlace (A : Asm) (p n : PosInt N) (n0 : Word) : PosInt N :=
  if p.used = 16 ∧ n.used = 16 then p.overwrite (montReduce8 A (ksqr 32 p.asWords) n n0)
  else if p.used = 32 ∧ n.used = 32 then p.overwrite (montReduce8 A (ksqr 64 p.asWords) n n0)
  else ofWords N (A.montsqr (p.asWordsWithLenOf n) n.asWords)
/-- `mont_mul`, posint.rs:403-418, with `mont_mul_1024` (:421-427) and `mont_mul_2048` (:430-436). -/
def montMul (A : Asm) (p v n : PosInt N) (n0 : Word) : PosInt N :=
  if p.used = 16 ∧ v.used = 16 ∧ n.used = 16 then ofWords N (montReduce8 A (kmul 32 p.asWords v.asWords) n n0)
  else if p.used = 32 ∧ v.used = 32 ∧ n.used = 32 then ofWords N (montReduce8 A (kmul 64 p.asWords v.asWords) n n0)
  else ofWords N (A.montmul (p.asWordsWithLenOf n) (v.asWordsWithLenOf n) n.asWords)
/-- `mont_redc`, posint.rs:503-513. -/
def montRedc (A : Asm) (p : PosInt N) (n : PosInt M) : PosInt M := ofWords M (A.montredc p.asWords n.asWords n.asWords.length)
/-- `reduce`, posint.rs:520-528. -/
def reduce (A : Asm) (p : PosInt N) (n nMontifier : PosInt M) : Option (PosInt M) :=
  if M < N then some ((p.montRedc A n).toMontgomery A nMontifier n) else none
/-- `from_montgomery`, posint.rs:533-538. -/
def fromMontgomery (A : Asm) (p n : PosInt N) : PosInt N := ofWords N (A.demont p.asWords n.asWords)
/-- `mul`, posint.rs:542-548. -/
def mul (M : Nat) (a b : PosInt N) : Option (PosInt M) :=
  if N + N ≤ M then some (ofWords M (Bignum.mul (a.used + b.used) a.asWords b.asWords)) else none

/-- `BitsMsbFirstIter`, posint.rs:863-868. -/
structure Bits where
  words : Words
  bit : Nat
  word : Nat
/-- `BitsMsbFirstIter::next`, posint.rs:884-897. -/
def Bits.next (s : Bits) : Option (Nat × Bits) :=
  if s.bit = 0 ∧ s.word = 0 then none
  else
    let s' : Bits := if s.bit = 0 then ⟨s.words, 63, s.word - 1⟩ else ⟨s.words, s.bit - 1, s.word⟩
    some ((s'.words.getD s'.word 0#64).toNat / 2 ^ s'.bit % 2, s')
/-- All items of the iterator, in order, at most `fuel`. -/
def Bits.collect : Nat → Bits → List Nat
  | 0, _ => []
  | fuel + 1, s => match s.next with | none => [] | some (b, s) => b :: collect fuel s
/-- `BitsMsbFirstIter::new`, posint.rs:871-878, and running it to the end.  For no words, `words.len() - 1` wraps in a release
build, and the first `next` is out of bounds: a panic in any build. -/
def bitsMsbFirst (words : Words) : Option (List Nat) :=
  if words = [] then none else some (Bits.collect (64 * words.length + 1) ⟨words, 64, words.length - 1⟩)

/-- The table of `mont_exp`, posint.rs:586-639. -/
def expTable (A : Asm) (t1 oneMont n : PosInt N) (n0 : Word) : Words :=
  let t2 := t1.montSqr A n n0
  let t3 := t2.montMul A t1 n n0
  let t4 := t2.montSqr A n n0
  let t5 := t4.montMul A t1 n n0
  let t6 := t3.montSqr A n n0
  let t7 := t6.montMul A t1 n n0
  let t8 := t4.montSqr A n n0
  let t9 := t8.montMul A t1 n n0
  let t10 := t5.montSqr A n n0
  let t11 := t10.montMul A t1 n n0
  let t12 := t6.montSqr A n n0
  let t13 := t12.montMul A t1 n n0
  let t14 := t7.montSqr A n n0
  let t15 := t14.montMul A t1 n n0
  oneMont.asWords ++ t1.asWords ++ t2.asWords ++ t3.asWords ++ t4.asWords ++ t5.asWords ++ t6.asWords ++ t7.asWords ++
    t8.asWords ++ t9.asWords ++ t10.asWords ++ t11.asWords ++ t12.asWords ++ t13.asWords ++ t14.asWords ++ t15.asWords

/-- The loop variables of `mont_exp`. -/
structure ExpState (N : Nat) where
  first : Bool
  wcount : Nat
  window : Nat
  accum : PosInt N

/-- One turn of the loop, posint.rs:649-678. -/
def expStep (A : Asm) (table : Words) (n : PosInt N) (n0 : Word) (s : ExpState N) (bit : Nat) : ExpState N :=
  let accum := if s.first then s.accum else s.accum.montSqrInPlace A n n0
  let window := 2 * s.window + bit
  let wcount := s.wcount + 1
  if wcount = 4 then
    ⟨false, 0, 0, accum.montMul A (ofWords N (copyRow table 16 n.used window)) n n0⟩
  else ⟨false, wcount, window, accum⟩

/-- `mont_exp`, posint.rs:575-683. -/
def montExp (A : Asm) (p oneMont e n : PosInt N) (n0 : Word) : Option (PosInt N) :=
  match bitsMsbFirst e.asWords with
  | none => none
  | some bits => some (bits.foldl (expStep A (expTable A p oneMont n n0) n n0) ⟨true, 0, 0, oneMont⟩).accum

/-- `mod_exp`, posint.rs:559-564. -/
def modExp (A : Asm) (p e n nMontifier : PosInt N) (n0 : Word) : Option (PosInt N) :=
  let oneMont := n.fixedOne.montMul A nMontifier n n0
  let selfMont := p.toMontgomery A nMontifier n
  (selfMont.montExp A oneMont e n n0).map (·.fromMontgomery A n)

/-- `mod_inverse`, posint.rs:690-701. -/
def modInverse (A : Asm) (p n : PosInt N) : PosInt N := ofWords N (A.modinv (p.asWordsWithLenOf n) n.asWords)

/-- The inner loop of `reduce_even`, posint.rs:725-746: the low `b` bits of `word`, from the top. -/
def reduceEvenBits (A : Asm) (m : PosInt M) (word : Word) : Nat → PosInt M → PosInt M
  | 0, r => r
  | b + 1, r =>
    let bit := word.toNat / 2 ^ b % 2
    let next := r.overwrite (A.modadd r.asWords r.asWords m.asWords)
    let addend : PosInt M := ⟨(zero M).words.set 0 (BitVec.ofNat 64 bit), m.used⟩
    reduceEvenBits A m word b (r.overwrite (A.modadd next.asWords addend.asWords m.asWords))
/-- The outer loop, posint.rs:722-747: words `i - 1` down to `0`. -/
def reduceEvenWords (A : Asm) (m : PosInt M) (ws : Words) : Nat → PosInt M → PosInt M
  | 0, r => r
  | j + 1, r => reduceEvenWords A m ws j (reduceEvenBits A m (ws.getD j 0#64) 64 r)
/-- `reduce_even`, posint.rs:707-750.  `copy_from_slice` panics when the lengths differ. -/
def reduceEven (A : Asm) (p : PosInt N) (m : PosInt M) : Option (PosInt M) :=
  if ¬ M < N then none
  else
    let limit := m.used - 1
    let i := p.used - limit
    let src := (p.words.take p.used).drop i
    if src.length ≠ limit then none
    else some (reduceEvenWords A m p.words i ⟨src ++ List.replicate (M - limit) 0#64, m.used⟩)

/-- `add`, posint.rs:754-759. -/
def add (p b : PosInt N) : PosInt N :=
  let ws := (Bignum.add N p.asWords b.asWords).1
  ⟨ws, digitsize ws⟩
/-- `add_shift_right_1`, posint.rs:763-776.  For a zero sum `r.used - 1` is out of range. -/
def addShiftRight1 (p b : PosInt N) : Option (PosInt N) :=
  let s := Bignum.add N p.asWords b.asWords
  let used := digitsize s.1
  let r := shrSmall N (s.1.take used) 1
  if used = 0 then none
  else some ⟨r.set (used - 1) (r.getD (used - 1) 0#64 ||| s.2 <<< 63), used⟩
/-- `add_mod`, posint.rs:780-791. -/
def addMod (A : Asm) (p b m : PosInt N) : PosInt N :=
  let ws := (ofWords N (A.modadd (p.asWordsWithLenOf m) (b.asWordsWithLenOf m) m.asWords)).words
  ⟨ws, digitsize ws⟩
/-- `sub`, posint.rs:795-801.  `bignum_optsub` reads `self.used` words at `b`. -/
def sub (p b : PosInt N) : PosInt N := ofWords N (optsub p.used p.asWords b.words 1#64)
/-- `sub_mod`, posint.rs:805-815.  `bignum_modsub` reads `p.used` words at each pointer; debug builds demand that the three
`used` are equal. -/
def subMod (p b m : PosInt N) : PosInt N := ofWords N (modsub m.used p.words b.words m.words)
/-- `widen`, posint.rs:819-825. -/
def widen (M : Nat) (p : PosInt N) : Option (PosInt M) := if N ≤ M then some (ofWords M p.asWords) else none

/-- The loop variables of `invert_vartime`. -/
structure InvState (N : Nat) where
  u : PosInt N
  v : PosInt N
  a : PosInt N
  b : PosInt N
  c : PosInt N
  d : PosInt N

/-- The subtraction at posint.rs:202-212. -/
def invSub (A : Asm) (x y : PosInt N) (s : InvState N) : InvState N :=
  if s.u.isOdd && s.v.isOdd then
    if s.v.lessThan s.u then { s with u := s.u.sub s.v, a := s.a.addMod A s.c y, b := s.b.addMod A s.d x }
    else { s with v := s.v.sub s.u, c := s.c.addMod A s.a y, d := s.d.addMod A s.b x }
  else s
/-- Halving a pair of coefficients, posint.rs:219-225 and 229-235. -/
def invHalf (x y a b : PosInt N) : Option (PosInt N × PosInt N) :=
  if a.isOdd || b.isOdd then
    match a.addShiftRight1 y, b.addShiftRight1 x with
    | some a, some b => some (a, b)
    | _, _ => none
  else some (a.shiftRight1, b.shiftRight1)
/-- The rest of the loop body up to the test, posint.rs:214-236. -/
def invShift (x y : PosInt N) (s : InvState N) : Option (InvState N) :=
  if (s.u.isEven || s.v.isEven) = false then none
  else if s.u.isEven then
    match invHalf x y s.a s.b with
    | none => none
    | some (a, b) => some { s with u := s.u.shiftRight1, a := a, b := b }
  else
    match invHalf x y s.c s.d with
    | none => none
    | some (c, d) => some { s with v := s.v.shiftRight1, c := c, d := d }
/-- Outcome of the loop: it panics, goes on past `fuel` turns, or returns. -/
inductive InvOut (N : Nat)
  | panic
  | running
  | done (r : Option (PosInt N))
  deriving DecidableEq
/-- The loop, posint.rs:201-244, at most `fuel` turns. -/
def invLoop (A : Asm) (x y : PosInt N) : Nat → InvState N → InvOut N
  | 0, _ => .running
  | fuel + 1, s =>
    match invShift x y (invSub A x y s) with
    | none => .panic
    | some s =>
      if s.v.isZero then .done (if s.u.lenBits = 1 then some s.a else none)
      else invLoop A x y fuel s
/-- `invert_vartime`, posint.rs:174-245. -/
def invertVartime (A : Asm) (fuel : Nat) (x y : PosInt N) : InvOut N :=
  if x.isZero || y.isZero || (x.isEven && y.isEven) then .done none
  else invLoop A x y fuel
    ⟨x, y, (one N).expand y, (zero N).expand x, (zero N).expand y, (one N).expand x⟩

end PosInt
end Verif
