import Verif.Base.Words
import Verif.Base.Chunks
import Verif.Model.Error
import Verif.Model.Rng
import Verif.Model.Bignum

/-!
Model of `graviola/src/mid/p256.rs`, `graviola/src/mid/p384.rs`, the big-endian half of `graviola/src/mid/util.rs`, the point
selection of `graviola/src/low/x86_64/bignum_point_select_p256.rs` and `_p384.rs`, and the field-operation sequences of
`p256_montjadd.rs`, `p256_montjdouble.rs`, `p256_montjmixadd.rs`, `p384_montjadd.rs`, `p384_montjdouble.rs` in the same directory.

The two files of `mid` are the same program for 4 and 6 words, except that multiplication of the base point uses a table of
affine points and 7-bit windows for P-256 and a table of Jacobian points and 5-bit windows for P-384.  They are modelled once,
for `N` words; line numbers `a / b` cite p256.rs and p384.rs.

Simplified: an array `[u64; N]` is one bit vector of `64 N` bits, words in little-endian order; points are structures of
coordinates instead of slices of one array, and a table is a list of points; moving `low::Entry`, `low::ct::into_secret`,
`into_public` and zeroisation around has no effect on values and is left out.  The field operations are assembly: they are
parameters with contracts (`FieldAsm.Ok`), and so are the routines on scalars (`Bignum.Asm`, `Scal.Ok`).
The stack slots of the assembly point routines, some of which share storage, are modelled as separate variables.
-/
namespace Verif.Ec

open Bignum

/-- `[u64; N]`. -/
abbrev Elt (N : Nat) := BitVec (64 * N)

/-- The array with these words. -/
def ofWords (N : Nat) (ws : Words) : Elt N := BitVec.ofNat _ (val ws)

/-- The words of an array. -/
def words {N : Nat} (v : Elt N) : Words := toWords N v.toNat

/-! ### mid/util.rs, big-endian conversions -/

/-- `$fn_array_to`, util.rs:53-59. -/
def beArrayTo (N : Nat) (b : Bytes) : Elt N :=
  ofWords N ((chunksExact 8 b).reverse.map fun c => BitVec.ofNat 64 (beNat c))

/-- `$fn_slice_to`, util.rs:61-64. -/
def beSliceTo (N : Nat) (b : Bytes) : Option (Elt N) := if b.length = N * 8 then some (beArrayTo N b) else none

/-- `remove_leading_zeroes`, util.rs:78-91. -/
def removeLeadingZeroes (N : Nat) : Bytes → Option (Elt N)
  | [] => none
  | first :: remain =>
    if first = 0x00#8 then
      if remain.length = N * 8 then some (beArrayTo N remain) else removeLeadingZeroes N remain
    else none

/-- `$fn_slice_any_size_to`, util.rs:66-98. -/
def beSliceAnySizeTo (N : Nat) (b : Bytes) : Option (Elt N) :=
  if b.length = N * 8 then some (beArrayTo N b)
  else if b.length < N * 8 then some (beArrayTo N (List.replicate (N * 8 - b.length) 0#8 ++ b))
  else removeLeadingZeroes N b

/-- `$fn_to_bytes`, util.rs:100-106. -/
def toBigEndian {N : Nat} (v : Elt N) : Bytes := ((words v).map fun w => toBE 8 w.toNat).reverse.flatten

/-! ### Assembly and constants -/

/-- The routines on field elements: `bignum_montmul_p256`, `bignum_montsqr_p256`, `bignum_add_p256`, `bignum_neg_p256`,
`bignum_tomont_p256`, `bignum_demont_p256`, `bignum_inv_p256` and the macros of the point routines
(p256_montjadd.rs:71-440, p256_montjdouble.rs:71-577), and the same for P-384. -/
structure FieldAsm (N : Nat) where
  montmul : (x y : Elt N) → Elt N
  montsqr : (x : Elt N) → Elt N
  /-- `amontsqr_p256!`: "almost-Montgomery" -/
  amontsqr : (x : Elt N) → Elt N
  sub : (x y : Elt N) → Elt N
  add : (x y : Elt N) → Elt N
  /-- `weakadd_p256!`: "a weak version of add that only guarantees sum in 4 digits" -/
  weakadd : (x y : Elt N) → Elt N
  /-- `cmsub_p256!` with the constants 12 and 9 -/
  cmsub129 : (x y : Elt N) → Elt N
  cmsub41 : (x y : Elt N) → Elt N
  cmsub38 : (x y : Elt N) → Elt N
  neg : (x : Elt N) → Elt N
  tomont : (x : Elt N) → Elt N
  demont : (x : Elt N) → Elt N
  inv : (x : Elt N) → Elt N

/-- What the comments of the routines promise, for the prime `p`. -/
structure FieldAsm.Ok {N : Nat} (f : FieldAsm N) (p : Nat) : Prop where
  /-- "z := (2^{-256} * x * y) mod p_256, assuming that x * y <= 2^256 * p_256" -/
  montmul : ∀ x y, x.toNat * y.toNat ≤ 2 ^ (64 * N) * p →
    (f.montmul x y).toNat < p ∧ (f.montmul x y).toNat * 2 ^ (64 * N) % p = x.toNat * y.toNat % p
  /-- "z := (x^2 / 2^256) mod p_256, assuming x^2 <= 2^256 * p_256" -/
  montsqr : ∀ x, x.toNat * x.toNat ≤ 2 ^ (64 * N) * p →
    (f.montsqr x).toNat < p ∧ (f.montsqr x).toNat * 2 ^ (64 * N) % p = x.toNat * x.toNat % p
  /-- The result is only congruent; it need not be reduced. -/
  amontsqr : ∀ x, (f.amontsqr x).toNat * 2 ^ (64 * N) % p = x.toNat * x.toNat % p
  /-- "z := (x - y) mod p_256, assuming x and y reduced" -/
  sub : ∀ x y, x.toNat < p → y.toNat < p → (f.sub x y).toNat < p ∧ ((f.sub x y).toNat + y.toNat) % p = x.toNat
  /-- "z := (x + y) mod p_256, assuming x and y reduced" -/
  add : ∀ x y, x.toNat < p → y.toNat < p → (f.add x y).toNat = (x.toNat + y.toNat) % p
  weakadd : ∀ x y, x.toNat < p → y.toNat < p → (f.weakadd x y).toNat % p = (x.toNat + y.toNat) % p
  /-- "P0 = C * P1 - D * P2" -/
  cmsub129 : ∀ x y, x.toNat < p → y.toNat < p →
    (f.cmsub129 x y).toNat < p ∧ ((f.cmsub129 x y).toNat + 9 * y.toNat) % p = 12 * x.toNat % p
  /-- "P0 = 4 * P1 - P2" -/
  cmsub41 : ∀ x y, x.toNat < p → y.toNat < p →
    (f.cmsub41 x y).toNat < p ∧ ((f.cmsub41 x y).toNat + y.toNat) % p = 4 * x.toNat % p
  /-- "P0 = 3 * P1 - 8 * P2" -/
  cmsub38 : ∀ x y, x.toNat < p → y.toNat < p →
    (f.cmsub38 x y).toNat < p ∧ ((f.cmsub38 x y).toNat + 8 * y.toNat) % p = 3 * x.toNat % p
  /-- "z := (-x) mod p_256, assuming x reduced" -/
  neg : ∀ x, x.toNat < p → (f.neg x).toNat = (p - x.toNat) % p
  /-- "z := (2^256 * x) mod p_256" -/
  tomont : ∀ x, (f.tomont x).toNat = x.toNat * 2 ^ (64 * N) % p
  /-- "z := (x / 2^256) mod p_256, assuming x reduced" -/
  demont : ∀ x, x.toNat < p → (f.demont x).toNat < p ∧ (f.demont x).toNat * 2 ^ (64 * N) % p = x.toNat
  /-- "If x is not divisible by p_256, returns z < p_256 such that x * z == 1 (mod p_256). x does not need to be reduced.
  If the input is divisible, z = 0 is returned." -/
  inv : ∀ x, (x.toNat % p ≠ 0 → (f.inv x).toNat < p ∧ x.toNat * (f.inv x).toNat % p = 1) ∧
    (x.toNat % p = 0 → (f.inv x).toNat = 0)

/-- `AffineMontPoint`, p256.rs:241-244 / p384.rs:241-244. -/
structure Aff (N : Nat) where
  x : Elt N
  y : Elt N
  deriving DecidableEq

/-- `JacobianMontPoint`, p256.rs:452-455 / p384.rs:371-374. -/
structure Jac (N : Nat) where
  x : Elt N
  y : Elt N
  z : Elt N
  deriving DecidableEq

/-- `AffineMontPoint::default()`, derived, p256.rs:241. -/
def Aff.default (N : Nat) : Aff N := ⟨0, 0⟩

/-- The constants of one of the two files. -/
structure Curve (N : Nat) where
  /-- `CURVE_A_MONT`, p256.rs:1069-1074 / p384.rs:899-906 -/
  aMont : Elt N
  /-- `CURVE_B_MONT`, p256.rs:1076-1081 / p384.rs:908-915 -/
  bMont : Elt N
  /-- `CURVE_ONE_MONT`, p256.rs:1083-1088 / p384.rs:917-924 -/
  oneMont : Elt N
  /-- `CURVE_ORDER`, p256.rs:1090-1095 / p384.rs:926-933 -/
  order : Elt N
  /-- `CURVE_ORDER_MM`, p256.rs:1097-1102 / p384.rs:935-942 -/
  orderMM : Elt N
  /-- first index of `BoothRecodeW5`, p256.rs:1015 / p384.rs:850 -/
  w5Start : Nat
  /-- the table for the base point: `CURVE_GENERATOR_PRECOMP_W7` of p256/precomp.rs or `CURVE_GENERATOR_PRECOMP_W5` of
  p384/precomp.rs -/
  baseTable : List (List (Aff N)) ⊕ List (Jac N)

/-- The assembly a curve is used with; `modN` is `bignum_mod_n256` or `bignum_mod_n384`. -/
structure Asm (N : Nat) where
  f : FieldAsm N
  modN : Elt N → Elt N
  bn : Bignum.Asm

/-- Contracts of all of the assembly: "z := x mod n_256" for `modN`. -/
structure Asm.Ok {N : Nat} (A : Asm N) (p n : Nat) : Prop where
  f : A.f.Ok p
  modN : ∀ x, (A.modN x).toNat = x.toNat % n
  bn : A.bn.Ok

variable {N : Nat}

/-! ### Point selection, bignum_point_select_p256.rs and bignum_point_select_p384.rs -/

/-- `_mm256_cmpeq_epi32(index, desired_index)`: all lanes hold the same index, so the mask is all ones or zero. -/
def eqMask (N : Nat) (index desired : BitVec 32) : Elt N := if index = desired then BitVec.allOnes _ else 0

/-- The loop of `_select_aff_p256`, bignum_point_select_p256.rs:39-56, from the counter `index` on. -/
def selectAffLoop (desired : BitVec 32) : BitVec 32 → List (Aff N) → Aff N → Aff N
  | _, [], acc => acc
  | index, point :: rest, acc =>
    let mask := eqMask N index desired
    selectAffLoop desired (index + 1) rest ⟨acc.x ^^^ (point.x &&& mask), acc.y ^^^ (point.y &&& mask)⟩

/-- `bignum_aff_point_select_p256`, bignum_point_select_p256.rs:12-15, 26-63. -/
def selectAff (table : List (Aff N)) (index : BitVec 8) : Aff N :=
  selectAffLoop (index.setWidth 32) 1 table ⟨0, 0⟩

/-- The loop of `_select_jac_p256`, bignum_point_select_p256.rs:80-101, and of `_select_jac_p384`,
bignum_point_select_p384.rs:32-64. -/
def selectJacLoop (desired : BitVec 32) : BitVec 32 → List (Jac N) → Jac N → Jac N
  | _, [], acc => acc
  | index, point :: rest, acc =>
    let mask := eqMask N index desired
    selectJacLoop desired (index + 1) rest
      ⟨acc.x ^^^ (point.x &&& mask), acc.y ^^^ (point.y &&& mask), acc.z ^^^ (point.z &&& mask)⟩

/-- `bignum_jac_point_select_p256`, bignum_point_select_p256.rs:20-23, 66-108, and `bignum_jac_point_select_p384`,
bignum_point_select_p384.rs:9-79. -/
def selectJac (table : List (Jac N)) (index : BitVec 8) : Jac N :=
  selectJacLoop (index.setWidth 32) 1 table ⟨0, 0, 0⟩

/-! ### Point routines -/

/-- `p256_montjadd`, p256_montjadd.rs:526-604, and `p384_montjadd`, p384_montjadd.rs:966-1060: the field operations in their
order, then the selection by `z_1`, `z_2`. -/
def montjadd (f : FieldAsm N) (p1 p2 : Jac N) : Jac N :=
  let z1sq := f.amontsqr p1.z
  let z2sq := f.amontsqr p2.z
  let y1a := f.montmul p2.z p1.y
  let y2a := f.montmul p1.z p2.y
  let x2a := f.montmul z1sq p2.x
  let x1a := f.montmul z2sq p1.x
  let y2a := f.montmul z1sq y2a
  let y1a := f.montmul z2sq y1a
  let xd := f.sub x2a x1a
  let yd := f.sub y2a y1a
  let zz := f.amontsqr xd
  let ww := f.montsqr yd
  let zzx1 := f.montmul zz x1a
  let zzx2 := f.montmul zz x2a
  let resx := f.sub ww zzx1
  let t1 := f.sub zzx2 zzx1
  let xd := f.montmul xd p1.z
  let resx := f.sub resx zzx2
  let t2 := f.sub zzx1 resx
  let t1 := f.montmul t1 y1a
  let resz := f.montmul xd p2.z
  let t2 := f.montmul yd t2
  let resy := f.sub t2 t1
  if p1.z ≠ 0 ∧ p2.z = 0 then p1
  else if p1.z = 0 ∧ p2.z ≠ 0 then p2
  else ⟨resx, resy, resz⟩

/-- `p256_montjdouble`, p256_montjdouble.rs:596-645, and `p384_montjdouble`, p384_montjdouble.rs:971-1020. -/
def montjdouble (f : FieldAsm N) (p1 : Jac N) : Jac N :=
  let z2 := f.montsqr p1.z
  let y2 := f.montsqr p1.y
  let t2 := f.sub p1.x z2
  let t1 := f.weakadd p1.x z2
  let x2p := f.montmul t1 t2
  let t1 := f.add p1.y p1.z
  let xy2 := f.montmul p1.x y2
  let x4p := f.montsqr x2p
  let t1 := f.montsqr t1
  let d := f.cmsub129 xy2 x4p
  let t1 := f.sub t1 z2
  let y4 := f.montsqr y2
  let dx2 := f.montmul d x2p
  let z3 := f.sub t1 y2
  let x3 := f.cmsub41 xy2 d
  let y3 := f.cmsub38 dx2 y4
  ⟨x3, y3, z3⟩

/-- `p256_montjmixadd`, p256_montjmixadd.rs:527-583; `one` is the constant written at 571-579. -/
def montjmixadd (f : FieldAsm N) (one : Elt N) (p1 : Jac N) (p2 : Aff N) : Jac N :=
  let zp2 := f.amontsqr p1.z
  let y2a := f.montmul p1.z p2.y
  let x2a := f.montmul zp2 p2.x
  let y2a := f.montmul zp2 y2a
  let xd := f.sub x2a p1.x
  let yd := f.sub y2a p1.y
  let zz := f.amontsqr xd
  let ww := f.montsqr yd
  let zzx1 := f.montmul zz p1.x
  let zzx2 := f.montmul zz x2a
  let resx := f.sub ww zzx1
  let t1 := f.sub zzx2 zzx1
  let resz := f.montmul xd p1.z
  let resx := f.sub resx zzx2
  let t2 := f.sub zzx1 resx
  let t1 := f.montmul t1 p1.y
  let t2 := f.montmul yd t2
  let resy := f.sub t2 t1
  if p1.z = 0 then ⟨p2.x, p2.y, one⟩ else ⟨resx, resy, resz⟩

/-! ### `Scalar` -/

/-- `Scalar`, p256.rs:776 / p384.rs:657. -/
abbrev Scalar (N : Nat) := Elt N

/-- `Scalar::reduce_mod_n`, p256.rs:836-840 / p384.rs:729-733. -/
def Scalar.reduceModN (A : Asm N) (s : Scalar N) : Scalar N := A.modN s

/-- `Scalar::is_zero`, p256.rs:821-823 / p384.rs:714-716. -/
def Scalar.isZero (s : Scalar N) : Bool := s = 0

/-- `Scalar::into_range_check`, p256.rs:801-809 / p384.rs:694-702. -/
def Scalar.intoRangeCheck (A : Asm N) (s : Scalar N) : GR (Scalar N) :=
  let reduced := Scalar.reduceModN A s
  if reduced ≠ s ∨ Scalar.isZero s then .error (.err .OutOfRange) else .ok s

/-- `Scalar::from_bytes_checked`, p256.rs:788-792 / p384.rs:671-675. -/
def Scalar.fromBytesChecked (A : Asm N) (bytes : Bytes) : GR (Scalar N) :=
  match beSliceAnySizeTo N bytes with
  | none => .error (.err .WrongLength)
  | some full => Scalar.intoRangeCheck A full

/-- `Scalar::from_array_checked`, p384.rs:681-685. -/
def Scalar.fromArrayChecked (A : Asm N) (array : Bytes) : GR (Scalar N) :=
  Scalar.intoRangeCheck A (beArrayTo N array)

/-- `Scalar::from_bytes_reduced`, p256.rs:794-799 / p384.rs:687-692. -/
def Scalar.fromBytesReduced (A : Asm N) (bytes : Bytes) : GR (Scalar N) :=
  match beSliceAnySizeTo N bytes with
  | none => .error (.err .WrongLength)
  | some full => .ok (Scalar.reduceModN A full)

/-- `Scalar::as_bytes`, p256.rs:811-813 / p384.rs:704-706. -/
def Scalar.asBytes (s : Scalar N) : Bytes := toBigEndian s

/-- `Scalar::demont`, p256.rs:843-847 / p384.rs:736-740. -/
def Scalar.demont (C : Curve N) (A : Asm N) (s : Scalar N) : Scalar N := ofWords N (A.bn.demont (words s) (words C.order))

/-- `Scalar::as_mont`, p256.rs:850-854 / p384.rs:743-747. -/
def Scalar.asMont (C : Curve N) (A : Asm N) (s : Scalar N) : Scalar N :=
  ofWords N (A.bn.montmul (words s) (words C.orderMM) (words C.order))

/-- `Scalar::mont_mul`, p256.rs:869-873 / p384.rs:762-766. -/
def Scalar.montMul (C : Curve N) (A : Asm N) (s other : Scalar N) : Scalar N :=
  ofWords N (A.bn.montmul (words s) (words other) (words C.order))

/-- `Scalar::inv`, p256.rs:876-881 / p384.rs:769-774. -/
def Scalar.inv (C : Curve N) (A : Asm N) (s : Scalar N) : Scalar N := ofWords N (A.bn.modinv (words s) (words C.order))

/-- `Scalar::add`, p256.rs:884-888 / p384.rs:777-781. -/
def Scalar.add (C : Curve N) (A : Asm N) (s other : Scalar N) : Scalar N :=
  ofWords N (A.bn.modadd (words s) (words other) (words C.order))

/-! ### Booth recoding -/

/-- The `bytes` of `BoothRecodeW7` and `BoothRecodeW5`, p256.rs:953-958, 1008-1013 / p384.rs:841-848. -/
def boothBytes (s : Scalar N) : Bytes := ((words s).map fun w => toLE 8 w.toNat).flatten ++ [0#8]

/-- `(bytes[offset] | bytes[offset + 1] << 8) >> shift) as u8`, p256.rs:986-989, 1038-1042. -/
def boothWindow (bytes : Bytes) (index : Nat) : BitVec 8 :=
  let offset := (index - 1) / 8
  let shift := (index - 1) % 8
  ((((bytes.getD offset 0).setWidth 16 ||| ((bytes.getD (offset + 1) 0).setWidth 16 <<< 8)) >>> shift).setWidth 8 : BitVec 8)

/-- `BoothRecodeW7::recode`, p256.rs:963-973. -/
def recodeW7 (v : BitVec 8) : BitVec 8 × BitVec 8 :=
  let sign := ~~~((v >>> 7) - 1)
  let d := (((1#16 <<< 8) - v.setWidth 16) - 1).setWidth 8
  let d := (d &&& sign) ||| (v &&& ~~~sign)
  let d := (d >>> 1) + (d &&& 1)
  (d, sign &&& 1)

/-- `BoothRecodeW7::next`, p256.rs:979-997: the item and the new index. -/
def nextW7 (bytes : Bytes) (index : Nat) : Option ((BitVec 8 × BitVec 8) × Nat) :=
  if index = 0 then some (recodeW7 (bytes.getD 0 0 <<< 1), index + 7)
  else if 7 ≤ index ∧ index ≤ 252 then some (recodeW7 (boothWindow bytes index), index + 7)
  else none

/-- All items of `BoothRecodeW7` from an index on; `fuel` bounds their number. -/
def itemsW7 (bytes : Bytes) : (fuel : Nat) → (index : Nat) → List (BitVec 8 × BitVec 8)
  | 0, _ => []
  | fuel + 1, index =>
    match nextW7 bytes index with
    | none => []
    | some (item, index) => item :: itemsW7 bytes fuel index

/-- `Scalar::booth_recoded_w7`, p256.rs:901-903; at most 38 items, since the index grows by 7. -/
def boothRecodedW7 (s : Scalar N) : List (BitVec 8 × BitVec 8) := itemsW7 (boothBytes s) 38 0

/-- `BoothRecodeW5::recode`, p256.rs:1018-1028 / p384.rs:853-863. -/
def recodeW5 (v : BitVec 8) : BitVec 8 × BitVec 8 :=
  let sign := ~~~((v >>> 5) - 1)
  let d := (((1#16 <<< 6) - v.setWidth 16) - 1).setWidth 8
  let d := (d &&& sign) ||| (v &&& ~~~sign)
  let d := (d >>> 1) + (d &&& 1)
  (d, sign &&& 1)

/-- `BoothRecodeW5::next`, p256.rs:1034-1058 / p384.rs:869-893: the item and the new index; `none` for the index is
`usize::MAX`. -/
def nextW5 (C : Curve N) (bytes : Bytes) (index : Option Nat) : Option ((BitVec 8 × BitVec 8 × Bool) × Option Nat) :=
  match index with
  | none => none
  | some index =>
    if 5 ≤ index ∧ index ≤ C.w5Start then
      let value := boothWindow bytes index &&& 63
      let (digit, sign) := recodeW5 value
      some ((digit, sign, false), some (index - 5))
    else if index = 0 then
      let value := (bytes.getD 0 0 <<< 1) &&& 63
      let (digit, sign) := recodeW5 value
      some ((digit, sign, true), none)
    else none

/-- All items of `BoothRecodeW5` from an index on; `fuel` bounds their number. -/
def itemsW5 (C : Curve N) (bytes : Bytes) : (fuel : Nat) → (index : Option Nat) → List (BitVec 8 × BitVec 8 × Bool)
  | 0, _ => []
  | fuel + 1, index =>
    match nextW5 C bytes index with
    | none => []
    | some (item, index) => item :: itemsW5 C bytes fuel index

/-- `Scalar::reversed_booth_recoded_w5`, p256.rs:906-908 / p384.rs:794-796. -/
def reversedBoothRecodedW5 (C : Curve N) (s : Scalar N) : List (BitVec 8 × BitVec 8 × Bool) :=
  itemsW5 C (boothBytes s) (C.w5Start / 5 + 2) (some C.w5Start)

/-! ### `FieldElement` and the points -/

/-- `FieldElement::select`, p256.rs:767-772 / p384.rs:648-653; `bignum_mux` takes its first argument if the condition is not
zero. -/
def feSelect (p0 p1 : Elt N) (select : BitVec 8) : Elt N := if select ≠ 0 then p1 else p0

/-- `AffineMontPoint::on_curve`, p256.rs:296-313 / p384.rs:296-313. -/
def Aff.onCurve (C : Curve N) (A : Asm N) (P : Aff N) : Bool :=
  let rhs := A.f.montsqr P.x
  let rhs := A.f.add rhs C.aMont
  let rhs := A.f.montmul rhs P.x
  let rhs := A.f.add rhs C.bMont
  let lhs := A.f.montsqr P.y
  lhs = rhs

/-- `AffineMontPoint::from_x962_uncompressed`, p256.rs:250-274 / p384.rs:250-274. -/
def Aff.fromX962Uncompressed (C : Curve N) (A : Asm N) (bytes : Bytes) : GR (Aff N) :=
  match bytes with
  | [] => .error (.err .WrongLength)
  | first :: xy =>
    if first ≠ 0x04#8 then .error (.err .NotUncompressed)
    else if bytes.length ≠ 1 + N * 8 + N * 8 then .error (.err .WrongLength)
    else
      match beSliceTo N (xy.take (N * 8)), beSliceTo N (xy.drop (N * 8)) with
      | some x, some y =>
        let point : Aff N := ⟨A.f.tomont x, A.f.tomont y⟩
        if !point.onCurve C A then .error (.err .NotOnCurve) else .ok point
      | _, _ => .error .panic

/-- `AffineMontPoint::as_bytes_uncompressed`, p256.rs:315-324 / p384.rs:315-324. -/
def Aff.asBytesUncompressed (A : Asm N) (P : Aff N) : Bytes :=
  [0x04#8] ++ toBigEndian (A.f.demont P.x) ++ toBigEndian (A.f.demont P.y)

/-- `AffineMontPoint::x_scalar`, p256.rs:276-279 / p384.rs:276-279. -/
def Aff.xScalar (A : Asm N) (P : Aff N) : GR (Scalar N) :=
  match Scalar.fromBytesReduced A ((P.asBytesUncompressed A).extract 1 (1 + N * 8)) with
  | .ok s => .ok s
  | .error _ => .error .panic

/-- `AffineMontPoint::negate_y`, p256.rs:341-344. -/
def Aff.negateY (A : Asm N) (P : Aff N) : Aff N := { P with y := A.f.neg P.y }

/-- `AffineMontPoint::maybe_negate_y`, p256.rs:346-351. -/
def Aff.maybeNegateY (A : Asm N) (P : Aff N) (sign : BitVec 8) : Aff N :=
  { P with y := feSelect P.y (A.f.neg P.y) sign }

/-- `AffineMontPoint::lookup_w7`, p256.rs:424-428. -/
def Aff.lookupW7 (table : List (Aff N)) (index : BitVec 8) : Aff N := selectAff table index

/-- `AffineMontPoint::public_lookup_w7`, p256.rs:433-440; the index is at most 64, the number of points. -/
def Aff.publicLookupW7 (table : List (Aff N)) (index : BitVec 8) : Aff N :=
  if index > 0 then table.getD (index.toNat - 1) (Aff.default N) else Aff.default N

/-- `AffineMontPoint::is_infinity`, p256.rs:446-449. -/
def Aff.isInfinity (P : Aff N) : Bool := P = Aff.default N

/-- `JacobianMontPoint::infinity`, p256.rs:463-467 / p384.rs:397-401. -/
def Jac.infinity (N : Nat) : Jac N := ⟨1, 1, 0⟩

/-- `JacobianMontPoint::public_is_infinity`, p256.rs:469-471 / p384.rs:403-405. -/
def Jac.publicIsInfinity (P : Jac N) : Bool := P.z = 0

/-- `JacobianMontPoint::from_affine`, p256.rs:587-592 / p384.rs:475-480. -/
def Jac.fromAffine (C : Curve N) (P : Aff N) : Jac N := ⟨P.x, P.y, C.oneMont⟩

/-- `JacobianMontPoint::as_affine`, p256.rs:594-608 / p384.rs:482-496. -/
def Jac.asAffine (A : Asm N) (P : Jac N) : Aff N :=
  let z2 := A.f.montsqr P.z
  let z3 := A.f.montmul P.z z2
  let z2Inv := A.f.tomont (A.f.inv (A.f.demont z2))
  let z3Inv := A.f.tomont (A.f.inv (A.f.demont z3))
  ⟨A.f.montmul P.x z2Inv, A.f.montmul P.y z3Inv⟩

/-- `JacobianMontPoint::public_eq`, p256.rs:610-624 / p384.rs:498-512. -/
def Jac.publicEq (A : Asm N) (P other : Jac N) : Bool :=
  let a := P.asAffine A
  let bz2 := A.f.montsqr other.z
  let bz3 := A.f.montmul other.z bz2
  let ax := A.f.montmul a.x bz2
  let ay := A.f.montmul a.y bz3
  ax = other.x ∧ ay = other.y

/-- `JacobianMontPoint::x_scalar`, p256.rs:626-632 / p384.rs:514-520. -/
def Jac.xScalar (A : Asm N) (P : Jac N) : GR (Scalar N) :=
  let z2 := A.f.montsqr P.z
  let z2Inv := A.f.tomont (A.f.inv (A.f.demont z2))
  let x := A.f.demont (A.f.montmul P.x z2Inv)
  match Scalar.fromBytesReduced A (toBigEndian x) with
  | .ok s => .ok s
  | .error _ => .error .panic

/-- `JacobianMontPoint::double`, p256.rs:635-639 / p384.rs:523-527. -/
def Jac.double (A : Asm N) (P : Jac N) : Jac N := montjdouble A.f P

/-- `JacobianMontPoint::double_inplace_n`, p256.rs:641-646 / p384.rs:529-534. -/
def Jac.doubleN (A : Asm N) (P : Jac N) : Nat → Jac N
  | 0 => P
  | n + 1 => Jac.doubleN A (montjdouble A.f P) n

/-- `JacobianMontPoint::add` and `add_inplace`, p256.rs:648-652, 663-667 / p384.rs:536-547. -/
def Jac.add (A : Asm N) (P Q : Jac N) : Jac N := montjadd A.f P Q

/-- `JacobianMontPoint::add_inplace_affine`, p256.rs:654-660. -/
def Jac.addAffine (C : Curve N) (A : Asm N) (P : Jac N) (Q : Aff N) : Jac N :=
  let r := montjmixadd A.f C.oneMont P Q
  if Q.isInfinity then P else r

/-- `JacobianMontPoint::lookup_w5`, p256.rs:679-683 / p384.rs:560-564. -/
def Jac.lookupW5 (table : List (Jac N)) (index : BitVec 8) : Jac N := selectJac table index

/-- `JacobianMontPoint::public_lookup_w5`, p256.rs:686-693 / p384.rs:567-574; the index is at most 16, the number of points. -/
def Jac.publicLookupW5 (table : List (Jac N)) (index : BitVec 8) : Jac N :=
  if index > 0 then table.getD (index.toNat - 1) (Jac.infinity N) else Jac.infinity N

/-- `JacobianMontPoint::negate_y`, p256.rs:695-698 / p384.rs:576-579. -/
def Jac.negateY (A : Asm N) (P : Jac N) : Jac N := { P with y := A.f.neg P.y }

/-- `JacobianMontPoint::maybe_negate_y`, p256.rs:700-705 / p384.rs:581-586. -/
def Jac.maybeNegateY (A : Asm N) (P : Jac N) (sign : BitVec 8) : Jac N :=
  { P with y := feSelect P.y (A.f.neg P.y) sign }

/-- `AffineMontPoint::public_precomp_w5`, p256.rs:385-421 / p384.rs:333-369. -/
def Aff.publicPrecompW5 (C : Curve N) (A : Asm N) (P : Aff N) : List (Jac N) :=
  let r1 := Jac.fromAffine C P
  let r2 := r1.double A
  let r3 := r1.add A r2
  let r4 := r2.double A
  let r5 := r1.add A r4
  let r6 := r3.double A
  let r7 := r1.add A r6
  let r8 := r4.double A
  let r9 := r1.add A r8
  let r10 := r5.double A
  let r11 := r1.add A r10
  let r12 := r6.double A
  let r13 := r1.add A r12
  let r14 := r7.double A
  let r15 := r1.add A r14
  let r16 := r8.double A
  [r1, r2, r3, r4, r5, r6, r7, r8, r9, r10, r11, r12, r13, r14, r15, r16]

/-- The selection of one term, p256.rs:505-516, 526-537. -/
def termW7 (A : Asm N) (secret : Bool) (row : List (Aff N)) (digit sign : BitVec 8) : Aff N :=
  if secret then (Aff.lookupW7 row digit).maybeNegateY A sign
  else if sign > 0 then (Aff.publicLookupW7 row digit).negateY A else Aff.publicLookupW7 row digit

/-- The loop of `multiply_w7`, p256.rs:525-540; row and digit numbers advance together. -/
def loopW7 (C : Curve N) (A : Asm N) (secret : Bool) : List (List (Aff N)) → List (BitVec 8 × BitVec 8) → Jac N → Jac N
  | row :: rows, (digit, sign) :: terms, result =>
    loopW7 C A secret rows terms (result.addAffine C A (termW7 A secret row digit sign))
  | _, _, result => result

/-- `JacobianMontPoint::multiply_w7`, p256.rs:501-541; there are 37 rows and 37 terms. -/
def multiplyW7 (C : Curve N) (A : Asm N) (secret : Bool) (s : Scalar N) (precomp : List (List (Aff N))) : Jac N :=
  match precomp, boothRecodedW7 s with
  | row :: rows, (digit, sign) :: terms =>
    let tmp := termW7 A secret row digit sign
    let result := { Jac.fromAffine C tmp with z := feSelect 0 C.oneMont digit }
    loopW7 C A secret rows terms result
  | _, _ => Jac.infinity N

/-- The selection of one term, p256.rs:566-577 / p384.rs:454-465. -/
def termW5 (A : Asm N) (secret : Bool) (table : List (Jac N)) (digit sign : BitVec 8) : Jac N :=
  if secret then (Jac.lookupW5 table digit).maybeNegateY A sign
  else if sign > 0 then (Jac.publicLookupW5 table digit).negateY A else Jac.publicLookupW5 table digit

/-- The loop of `_multiply_w5`, p256.rs:565-583 / p384.rs:453-471. -/
def loopW5 (A : Asm N) (secret : Bool) (table : List (Jac N)) : List (BitVec 8 × BitVec 8 × Bool) → Jac N → Jac N
  | [], result => result
  | (digit, sign, last) :: terms, result =>
    let result := result.add A (termW5 A secret table digit sign)
    loopW5 A secret table terms (if last then result else result.doubleN A 5)

/-- `JacobianMontPoint::_multiply_w5`, p256.rs:551-585 / p384.rs:439-473. -/
def multiplyW5 (C : Curve N) (A : Asm N) (secret : Bool) (s : Scalar N) (table : List (Jac N)) : Jac N :=
  match reversedBoothRecodedW5 C s with
  | (digit, _, _) :: terms =>
    let result := if secret then Jac.lookupW5 table digit else Jac.publicLookupW5 table digit
    loopW5 A secret table terms (result.doubleN A 5)
  | [] => Jac.infinity N

/-- `JacobianMontPoint::base_multiply` and `public_base_multiply`, p256.rs:493-499 / p384.rs:423-429. -/
def baseMultiply (C : Curve N) (A : Asm N) (secret : Bool) (s : Scalar N) : Jac N :=
  match C.baseTable with
  | .inl rows => multiplyW7 C A secret s rows
  | .inr table => multiplyW5 C A secret s table

/-! ### Keys -/

/-- `PublicKey`, p256.rs:16-19 / p384.rs:16-19. -/
structure PublicKey (N : Nat) where
  point : Aff N
  precompW5 : List (Jac N)

/-- `PublicKey::from_affine`, p256.rs:41-46 / p384.rs:41-46. -/
def PublicKey.fromAffine (C : Curve N) (A : Asm N) (P : Aff N) : PublicKey N := ⟨P, P.publicPrecompW5 C A⟩

/-- `PublicKey::from_x962_uncompressed`, p256.rs:29-33 / p384.rs:29-33. -/
def PublicKey.fromX962Uncompressed (C : Curve N) (A : Asm N) (bytes : Bytes) : GR (PublicKey N) := do
  let point ← Aff.fromX962Uncompressed C A bytes
  .ok (PublicKey.fromAffine C A point)

/-- `PublicKey::as_bytes_uncompressed`, p256.rs:36-39 / p384.rs:36-39. -/
def PublicKey.asBytesUncompressed (A : Asm N) (K : PublicKey N) : Bytes := K.point.asBytesUncompressed A

/-- `PublicKey::raw_ecdsa_verify`, p256.rs:48-80 / p384.rs:48-80. -/
def PublicKey.rawEcdsaVerify (C : Curve N) (A : Asm N) (K : PublicKey N) (r s e : Scalar N) : GR Unit := do
  let sInv := (s.inv C A).asMont C A
  let u1 := (sInv.montMul C A (e.asMont C A)).demont C A
  let u2 := (sInv.montMul C A (r.asMont C A)).demont C A
  let lhs := baseMultiply C A false u1
  let rhs := multiplyW5 C A false u2 K.precompW5
  let point := if lhs.publicEq A rhs then lhs.double A else lhs.add A rhs
  if point.publicIsInfinity then .error (.err .BadSignature)
  else
    let v ← point.xScalar A
    if v = r then .ok () else .error (.err .BadSignature)

/-- `PrivateKey::from_bytes` and `StaticPrivateKey::from_bytes`, p256.rs:143-147, 176-179 / p384.rs:143-147, 177-180; a
private key is its scalar. -/
def privateFromBytes (A : Asm N) (bytes : Bytes) : GR (Scalar N) := Scalar.fromBytesChecked A bytes

/-- The attempts of `PrivateKey::generate`, p256.rs:132-138 / p384.rs:133-139, from call number `i` of the source on; returns
also the number of the next call. -/
def generateLoop (A : Asm N) (rng : RandomSource) : (attempts : Nat) → (i : Nat) → GR (Scalar N × Nat)
  | 0, _ => .error (.err .RngFailed)
  | n + 1, i =>
    match rng i (N * 8) with
    | .error e => .error (.err e)
    | .ok r =>
      match privateFromBytes A r with
      | .ok p => .ok (p, i + 1)
      | .error _ => generateLoop A rng n (i + 1)

/-- `PrivateKey::generate`, p256.rs:130-141 / p384.rs:131-141. -/
def generate (A : Asm N) (rng : RandomSource) (i : Nat) : GR (Scalar N × Nat) := generateLoop A rng 64 i

/-- `PrivateKey::public_point`, p256.rs:121-128 / p384.rs:122-129. -/
def publicPoint (C : Curve N) (A : Asm N) (d : Scalar N) : GR (Aff N) :=
  let point := (baseMultiply C A true d).asAffine A
  if point.onCurve C A then .ok point else .error .panic

/-- `PrivateKey::public_key_uncompressed`, `StaticPrivateKey::public_key_uncompressed`, p256.rs:99-102, 189-192 /
p384.rs:100-103, 190-193. -/
def publicKeyUncompressed (C : Curve N) (A : Asm N) (d : Scalar N) : GR Bytes := do
  let point ← publicPoint C A d
  .ok (point.asBytesUncompressed A)

/-- `StaticPrivateKey::as_bytes`, p256.rs:182-185 / p384.rs:183-186. -/
def privateAsBytes (d : Scalar N) : Bytes := d.asBytes

/-- `PrivateKey::diffie_hellman`, `StaticPrivateKey::diffie_hellman`, p256.rs:110-119, 200-206 / p384.rs:111-120, 201-207. -/
def diffieHellman (C : Curve N) (A : Asm N) (d : Scalar N) (peer : PublicKey N) : GR Bytes :=
  let result := (multiplyW5 C A true d peer.precompW5).asAffine A
  if result.onCurve C A then .ok (toBigEndian (A.f.demont result.x)) else .error (.err .NotOnCurve)

/-- `StaticPrivateKey::public_key_x_scalar`, p256.rs:213-216 / p384.rs:209-212. -/
def publicKeyXScalar (C : Curve N) (A : Asm N) (d : Scalar N) : GR (Scalar N) := do
  let point ← publicPoint C A d
  point.xScalar A

/-- `StaticPrivateKey::raw_ecdsa_sign`, p256.rs:218-229 / p384.rs:218-229. -/
def rawEcdsaSign (C : Curve N) (A : Asm N) (d k e r : Scalar N) : Scalar N :=
  let lhsMont := ((((d.asMont C A).montMul C A (r.asMont C A)).demont C A).add C A e).asMont C A
  (k.inv C A).montMul C A lhsMont

end Verif.Ec
