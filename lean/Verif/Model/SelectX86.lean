import Verif.Base.Chunks
import Verif.Model.Bignum

/-!
Selection of a table entry with AVX2: `graviola/src/low/x86_64/bignum_copy_row_from_table_16_avx2.rs`, `_8n_avx2.rs` and the dispatch in
`bignum_copy_row_from_table_mux.rs`; `bignum_point_select_p256.rs` and `_p384.rs`.  A `__m256i` is a 256-bit vector; each function below named after
an intrinsic is that intrinsic.  `super::cpu::prefetch` has no effect on results and is left out.
-/
namespace Verif.SelectX86

abbrev M256 := BitVec 256

/-- 64-bit lane `i`. -/
def qword (v : M256) (i : Nat) : Word := v.extractLsb' (64 * i) 64
/-- 32-bit lane `i`. -/
def dword (v : M256) (i : Nat) : BitVec 32 := v.extractLsb' (32 * i) 32
/-- The vector with these 64-bit lanes. -/
def qwords (f : Nat → Word) : M256 := f 3 ++ f 2 ++ f 1 ++ f 0
/-- The vector with these 32-bit lanes. -/
def dwords (f : Nat → BitVec 32) : M256 := f 7 ++ f 6 ++ f 5 ++ f 4 ++ f 3 ++ f 2 ++ f 1 ++ f 0

/-- `_mm_set1_epi64x`. -/
def set1_64 (x : Word) : BitVec 128 := x ++ x
/-- `_mm_set1_epi32`. -/
def set1_32 (x : BitVec 32) : BitVec 128 := x ++ x ++ x ++ x
/-- `_mm256_setr_m128i(lo, hi)`. -/
def setr (lo hi : BitVec 128) : M256 := hi ++ lo
/-- `_mm256_cmpeq_epi64`. -/
def cmpeq64 (a b : M256) : M256 := qwords fun i => if qword a i = qword b i then BitVec.allOnes 64 else 0#64
/-- `_mm256_cmpeq_epi32`. -/
def cmpeq32 (a b : M256) : M256 := dwords fun i => if dword a i = dword b i then BitVec.allOnes 32 else 0#32
/-- `_mm256_add_epi64`. -/
def add64 (a b : M256) : M256 := qwords fun i => qword a i + qword b i
/-- `_mm256_add_epi32`. -/
def add32 (a b : M256) : M256 := dwords fun i => dword a i + dword b i
/-- `_mm256_loadu_si256(p.as_ptr().add(k).cast())`.  Where it is used the slice has at least `k + 4` words. -/
def loadu (p : Words) (k : Nat) : M256 := qwords fun i => p.getD (k + i) 0#64
/-- The four words that `_mm256_storeu_si256` writes. -/
def storeu (v : M256) : Words := [qword v 0, qword v 1, qword v 2, qword v 3]

/-- The loop of `_bignum_copy_row_from_table_16_avx2`, bignum_copy_row_from_table_16_avx2.rs:37-60. -/
def row16Loop (desired ones : M256) : M256 → List Words → M256 × M256 × M256 × M256 → M256 × M256 × M256 × M256
  | _, [], acc => acc
  | index, row :: rest, (acc0, acc1, acc2, acc3) =>
    let mask := cmpeq64 index desired
    let index := add64 index ones
    let row0 := loadu row 0
    let row1 := loadu row 4
    let row2 := loadu row 8
    let row3 := loadu row 12
    row16Loop desired ones index rest
      ((row0 &&& mask) ^^^ acc0, (row1 &&& mask) ^^^ acc1, (row2 &&& mask) ^^^ acc2, (row3 &&& mask) ^^^ acc3)

/-- `bignum_copy_row_from_table_16_avx2`, bignum_copy_row_from_table_16_avx2.rs:6-69: the 16 words written to `z`. -/
def copyRow16 (table : Words) (index : Word) : Words :=
  let desired := setr (set1_64 index) (set1_64 index)
  let start := setr (set1_64 0#64) (set1_64 0#64)
  let ones := setr (set1_64 1#64) (set1_64 1#64)
  let acc := row16Loop desired ones start (chunksExact 16 table) (0#256, 0#256, 0#256, 0#256)
  storeu acc.1 ++ storeu acc.2.1 ++ storeu acc.2.2.1 ++ storeu acc.2.2.2

/-- The inner loop of `_bignum_copy_row_from_table_8n_avx2`, bignum_copy_row_from_table_8n_avx2.rs:40-67, over the chunks of `z` from number
`i` on: the new contents of these chunks. -/
def row8Inner (mask : M256) (row : Words) : Nat → List Words → Words
  | _, [] => []
  | i, zz :: rest =>
    let row0 := loadu row (i * 8) &&& mask
    let row1 := loadu row (i * 8 + 4) &&& mask
    storeu (loadu zz 0 ^^^ row0) ++ storeu (loadu zz 4 ^^^ row1) ++ row8Inner mask row (i + 1) rest

/-- The outer loop, bignum_copy_row_from_table_8n_avx2.rs:36-68.  The words of `z` past the last chunk of eight stay. -/
def row8Loop (desired ones : M256) : M256 → List Words → Words → Words
  | _, [], z => z
  | index, row :: rest, z =>
    let mask := cmpeq64 index desired
    row8Loop desired ones (add64 index ones) rest (row8Inner mask row 0 (chunksExact 8 z) ++ chunksRem 8 z)

/-- `bignum_copy_row_from_table_8n_avx2`, bignum_copy_row_from_table_8n_avx2.rs:6-69: the contents of `z` afterwards. -/
def copyRow8n (z table : Words) (width : Nat) (index : Word) : Words :=
  let desired := setr (set1_64 index) (set1_64 index)
  let start := setr (set1_64 0#64) (set1_64 0#64)
  let ones := setr (set1_64 1#64) (set1_64 1#64)
  row8Loop desired ones start (chunksExact width table) (List.replicate z.length 0#64)

/-- `bignum_copy_row_from_table`, bignum_copy_row_from_table_mux.rs:6-26: the contents of `z` afterwards.  The last case is the assembly routine, as
in `Bignum.copyRow` (C60_copy_row). -/
def copyRowMux (z table : Words) (height width : Nat) (index : Word) : Words :=
  if width = 16 then copyRow16 table index
  else if width % 8 = 0 then copyRow8n z table width index
  else Bignum.copyRow table height width index.toNat

/-- The loop of `_select_aff_p256`, bignum_point_select_p256.rs:40-57. -/
def affLoop (desired ones : M256) : M256 → List Words → M256 × M256 → M256 × M256
  | _, [], acc => acc
  | index, point :: rest, (acc0, acc1) =>
    let row0 := loadu point 0
    let row1 := loadu point 4
    let mask := cmpeq32 index desired
    affLoop desired ones (add32 index ones) rest (acc0 ^^^ (row0 &&& mask), acc1 ^^^ (row1 &&& mask))

/-- `bignum_aff_point_select_p256`, bignum_point_select_p256.rs:12-15, 26-64: the eight words written to `z`. -/
def selectAffP256 (table : Words) (index : BitVec 8) : Words :=
  let desired := setr (set1_32 (index.setWidth 32)) (set1_32 (index.setWidth 32))
  let start := setr (set1_32 1#32) (set1_32 1#32)
  let acc := affLoop desired start start (chunksExact 8 table) (0#256, 0#256)
  storeu acc.1 ++ storeu acc.2

/-- The loop of `_select_jac_p256`, bignum_point_select_p256.rs:82-102. -/
def jacLoop (desired ones : M256) : M256 → List Words → M256 × M256 × M256 → M256 × M256 × M256
  | _, [], acc => acc
  | index, point :: rest, (acc0, acc1, acc2) =>
    let row0 := loadu point 0
    let row1 := loadu point 4
    let row2 := loadu point 8
    let mask := cmpeq32 index desired
    jacLoop desired ones (add32 index ones) rest (acc0 ^^^ (row0 &&& mask), acc1 ^^^ (row1 &&& mask), acc2 ^^^ (row2 &&& mask))

/-- `bignum_jac_point_select_p256`, bignum_point_select_p256.rs:20-23, 66-110: the twelve words written to `z`. -/
def selectJacP256 (table : Words) (index : BitVec 8) : Words :=
  let desired := setr (set1_32 (index.setWidth 32)) (set1_32 (index.setWidth 32))
  let start := setr (set1_32 1#32) (set1_32 1#32)
  let acc := jacLoop desired start start (chunksExact 12 table) (0#256, 0#256, 0#256)
  storeu acc.1 ++ storeu acc.2.1 ++ storeu acc.2.2

/-- The loop of `_select_jac_p384`, bignum_point_select_p384.rs:32-62.  `tmp` is the last two words of the point and two zeros. -/
def jac384Loop (desired ones : M256) : M256 → List Words → M256 × M256 × M256 × M256 × M256 → M256 × M256 × M256 × M256 × M256
  | _, [], acc => acc
  | index, point :: rest, (acc0, acc1, acc2, acc3, acc4) =>
    let row0 := loadu point 0
    let row1 := loadu point 4
    let row2 := loadu point 8
    let row3 := loadu point 12
    let tmp := (point.drop 16).take 2 ++ [0#64, 0#64]
    let row4 := loadu tmp 0
    let mask := cmpeq32 index desired
    jac384Loop desired ones (add32 index ones) rest
      (acc0 ^^^ (row0 &&& mask), acc1 ^^^ (row1 &&& mask), acc2 ^^^ (row2 &&& mask), acc3 ^^^ (row3 &&& mask), acc4 ^^^ (row4 &&& mask))

/-- `bignum_jac_point_select_p384`, bignum_point_select_p384.rs:9-76: the eighteen words written to `z`. -/
def selectJacP384 (table : Words) (index : BitVec 8) : Words :=
  let desired := setr (set1_32 (index.setWidth 32)) (set1_32 (index.setWidth 32))
  let start := setr (set1_32 1#32) (set1_32 1#32)
  let acc := jac384Loop desired start start (chunksExact 18 table) (0#256, 0#256, 0#256, 0#256, 0#256)
  storeu acc.1 ++ storeu acc.2.1 ++ storeu acc.2.2.1 ++ storeu acc.2.2.2.1 ++ (storeu acc.2.2.2.2).take 2

end Verif.SelectX86
