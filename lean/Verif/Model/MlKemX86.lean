import Verif.Model.MlKem
import Verif.Model.X86Vec

/-!
What the AVX2 routines of `low/x86_64/mlkem_*.rs` compute, lane by lane on 16-bit numbers: `x86Asm` is the `Asm` of
`Model/MlKem` on x86_64 (`mlkem_rej_uniform_vartime.rs` is a parameter, see C65).  The theorems of C64 say that the machine code
(`Model/AsmX86/MlKem`) computes exactly this, and that this satisfies what `Model/MlKem` needs.

Simplification: the routines work on blocks of sixteen lanes and interleave their instructions; here a coefficient is followed
through them.
-/
namespace Verif.MlKem.X86
open Verif Verif.X86

/-- A lane. -/
abbrev Lane := BitVec 16

/-- The coefficients of an array of `i16` as lanes. -/
def lanes (a : Coeffs) (i : Nat) : Lane := BitVec.ofInt 16 (a.getD i 0)
/-- `n` lanes as an array of `i16`. -/
def arr (n : Nat) (f : Nat → Lane) : Coeffs := (List.range n).map fun i => (f i).toInt

/-- low/x86_64/mlkem.rs:32-76: `Q_DATA`, in rows of sixteen. -/
def qRows : List (List Int) := [
  [3854, 3340, 2826, 2312, 1798, 1284, 770, 256, 3854, 3340, 2826, 2312, 1798, 1284, 770, 256],
  [7, 0, 6, 0, 5, 0, 4, 0, 3, 0, 2, 0, 1, 0, 0, 0],
  [31498, 31498, 31498, 31498, -758, -758, -758, -758, 0, 0, 0, 0, 0, 0, 0, 0],
  [14745, 14745, 14745, 14745, 14745, 14745, 14745, 14745, 14745, 14745, 14745, 14745, 14745, 14745, 14745, 14745],
  [-359, -359, -359, -359, -359, -359, -359, -359, -359, -359, -359, -359, -359, -359, -359, -359],
  [13525, 13525, 13525, 13525, 13525, 13525, 13525, 13525, -12402, -12402, -12402, -12402, -12402, -12402, -12402, -12402],
  [1493, 1493, 1493, 1493, 1493, 1493, 1493, 1493, 1422, 1422, 1422, 1422, 1422, 1422, 1422, 1422],
  [-20907, -20907, -20907, -20907, 27758, 27758, 27758, 27758, -3799, -3799, -3799, -3799, -15690, -15690, -15690, -15690],
  [-171, -171, -171, -171, 622, 622, 622, 622, 1577, 1577, 1577, 1577, 182, 182, 182, 182],
  [-5827, -5827, 17363, 17363, -26360, -26360, -29057, -29057, 5571, 5571, -1102, -1102, 21438, 21438, -26242, -26242],
  [573, 573, -1325, -1325, 264, 264, 383, 383, -829, -829, 1458, 1458, -1602, -1602, -130, -130],
  [-5689, -6516, 1496, 30967, -23565, 20179, 20710, 25080, -12796, 26616, 16064, -12442, 9134, -650, -25986, 27837],
  [1223, 652, -552, 1015, -1293, 1491, -282, -1544, 516, -8, -320, -666, -1618, -1162, 126, 1469],
  [-335, -11477, -32227, 20494, -27738, 945, -14883, 6182, 32010, 10631, 29175, -28762, -18486, 17560, -14430, -5276],
  [-1103, 555, -1251, 1550, 422, 177, -291, 1574, -246, 1159, -777, -602, -1590, -872, 418, -156],
  [11182, 13387, -14233, -21655, 13131, -4587, 23092, 5493, -32502, 30317, -18741, 12639, 20100, 18525, 19529, -12619],
  [430, 843, 871, 105, 587, -235, -460, 1653, 778, -147, 1483, 1119, 644, 349, 329, -75],
  [787, 787, 787, 787, 787, 787, 787, 787, 787, 787, 787, 787, 787, 787, 787, 787],
  [-1517, -1517, -1517, -1517, -1517, -1517, -1517, -1517, -1517, -1517, -1517, -1517, -1517, -1517, -1517, -1517],
  [28191, 28191, 28191, 28191, 28191, 28191, 28191, 28191, -16694, -16694, -16694, -16694, -16694, -16694, -16694, -16694],
  [287, 287, 287, 287, 287, 287, 287, 287, 202, 202, 202, 202, 202, 202, 202, 202],
  [10690, 10690, 10690, 10690, 1358, 1358, 1358, 1358, -11202, -11202, -11202, -11202, 31164, 31164, 31164, 31164],
  [962, 962, 962, 962, -1202, -1202, -1202, -1202, -1474, -1474, -1474, -1474, 1468, 1468, 1468, 1468],
  [-28073, -28073, 24313, 24313, -10532, -10532, 8800, 8800, 18426, 18426, 8859, 8859, 26675, 26675, -16163, -16163],
  [-681, -681, 1017, 1017, 732, 732, 608, 608, -1542, -1542, 411, 411, -205, -205, -1571, -1571],
  [19883, -28250, -15887, -8898, -28309, 9075, -30199, 18249, 13426, 14017, -29156, -12757, 16832, 4311, -24155, -17915],
  [-853, -90, -271, 830, 107, -1421, -247, -951, -398, 961, -1508, -725, 448, -1065, 677, -1275],
  [-31183, 25435, -7382, 24391, -20927, 10946, 24214, 16989, 10335, -7934, -22502, 10906, 31636, 28644, 23998, -17422],
  [817, 603, 1322, -1465, -1215, 1218, -874, -1187, -1185, -1278, -1510, -870, -108, 996, 958, 1522],
  [20297, 2146, 15355, -32384, -6280, -14903, -11044, 14469, -21498, -20198, 23210, -17442, -23860, -20257, 7756, 23132],
  [1097, 610, -1285, 384, -136, -1335, 220, -1659, -1530, 794, -854, 478, -308, 991, -1460, 1628],
  [-1103, 555, -1251, 1550, 422, 177, -291, 1574, -246, 1159, -777, -602, -1590, -872, 418, -156],
  [430, 843, 871, 105, 587, -235, -460, 1653, 778, -147, 1483, 1119, 644, 349, 329, -75],
  [817, 603, 1322, -1465, -1215, 1218, -874, -1187, -1185, -1278, -1510, -870, -108, 996, 958, 1522],
  [1097, 610, -1285, 384, -136, -1335, 220, -1659, -1530, 794, -854, 478, -308, 991, -1460, 1628],
  [-335, -11477, -32227, 20494, -27738, 945, -14883, 6182, 32010, 10631, 29175, -28762, -18486, 17560, -14430, -5276],
  [11182, 13387, -14233, -21655, 13131, -4587, 23092, 5493, -32502, 30317, -18741, 12639, 20100, 18525, 19529, -12619],
  [-31183, 25435, -7382, 24391, -20927, 10946, 24214, 16989, 10335, -7934, -22502, 10906, 31636, 28644, 23998, -17422],
  [20297, 2146, 15355, -32384, -6280, -14903, -11044, 14469, -21498, -20198, 23210, -17442, -23860, -20257, 7756, 23132]]
/-- `Q_DATA`. -/
def qdata : Coeffs := qRows.flatten

/-- Montgomery multiplication as the routines do it, for example mlkem_ntt.rs:49-78: the upper half of the product minus the upper half
of `q` times the lower half of the product times `q^-1`.  (Where a factor is a constant the code has its product with 62209 in a
table.) -/
def mont (x y : Lane) : Lane := mulhi16 x y - mulhi16 (x * (y * 62209#16)) 3329#16

/-- Barrett reduction, for example mlkem_reduce.rs:60-63. -/
def barrett (x : Lane) : Lane := x - (mulhi16 x 20159#16).sshiftRight 10 * 3329#16

/-- mlkem_reduce.rs:60-63,93-96: Barrett reduction, then `q` off and on again if that was negative. -/
def canon (x : Lane) : Lane :=
  let y := barrett x - 3329#16
  y + (y.sshiftRight 15 &&& 3329#16)

/-- The powers of 17 that the transforms use, times `2^16`, in the order of use by `mlkem_ntt`; they stand in `Q_DATA` from
position 32. -/
def zetas : List Int := [
  0, -758, -359, -1517, 1493, 1422, 287, 202, -171, 622, 1577, 182, 962, -1202, -1474, 1468,
  573, -1325, 264, 383, -829, 1458, -1602, -130, -681, 1017, 732, 608, -1542, 411, -205, -1571,
  1223, 652, -552, 1015, -1293, 1491, -282, -1544, 516, -8, -320, -666, -1618, -1162, 126, 1469,
  -853, -90, -271, 830, 107, -1421, -247, -951, -398, 961, -1508, -725, 448, -1065, 677, -1275,
  -1103, 430, 555, 843, -1251, 871, 1550, 105, 422, 587, 177, -235, -291, -460, 1574, 1653,
  -246, 778, 1159, -147, -777, 1483, -602, 1119, -1590, 644, -872, 349, 418, 329, -156, -75,
  817, 1097, 603, 610, 1322, -1285, -1465, 384, -1215, -136, 1218, -1335, -874, 220, -1187, -1659,
  -1185, -1530, -1278, 794, -1510, -854, -870, 478, -108, -308, 996, 991, 958, -1460, 1522, 1628]
def zetaL (i : Nat) : Lane := BitVec.ofInt 16 (zetas.getD i 0)

/-- The place of a transformed polynomial that slot `m` of an array holds: the order of `mlkem_unpack` (mlkem_unpack.rs:29-173). -/
def place (m : Nat) : Nat := 128 * (m / 128) + 8 * (m % 16) + m % 128 / 16
/-- The slot that holds place `p`. -/
def slot (p : Nat) : Nat := 128 * (p / 128) + 16 * (p % 8) + p % 128 / 8

/-- mlkem_ntt.rs:37-648, layer `l` of seven, span `128 / 2^l`. -/
def nttStep (l : Nat) (f : Nat → Lane) (j : Nat) : Lane :=
  let len := 128 / 2 ^ l
  let z := zetaL (2 ^ l + j / (2 * len))
  if j % (2 * len) < len then f j + mont (f (j + len)) z else f (j - len) - mont (f j) z
/-- The first `l` layers. -/
def nttIter (f : Nat → Lane) : Nat → Nat → Lane
  | 0 => f
  | l + 1 => nttStep l (nttIter f l)
/-- mlkem_ntt.rs:32-650. -/
def ntt (a : Coeffs) : Coeffs := arr 256 fun m => nttIter (lanes a) 7 (place m)

/-- mlkem_intt.rs:39-727: where a sum is reduced after layer `t`. -/
def reduced (t j : Nat) : Bool := 2 ≤ t && t ≤ 5 && j % 2 ^ (t + 2) < 2 ^ (t - 1)
/-- mlkem_intt.rs:39-727, layer `t` of seven, span `2^(t+1)`. -/
def inttStep (t : Nat) (f : Nat → Lane) (j : Nat) : Lane :=
  let len := 2 ^ (t + 1)
  let z := zetaL (256 / len - 1 - j / (2 * len))
  if j % (2 * len) < len then (if reduced t j then barrett (f j + f (j + len)) else f j + f (j + len))
  else mont (f j - f (j - len)) z
/-- The multiplication by `2^32 / 128`, then the first `t` layers. -/
def inttIter (f : Nat → Lane) : Nat → Nat → Lane
  | 0 => fun j => mont (f j) 1441#16
  | t + 1 => inttStep t (inttIter f t)
/-- mlkem_intt.rs:34-729. -/
def intt (a : Coeffs) : Coeffs := arr 256 (inttIter (fun p => lanes a (slot p)) 7)

/-- mlkem_reduce.rs:32-236. -/
def reduce (a : Coeffs) : Coeffs := arr 256 fun m => canon (lanes a m)
/-- mlkem_tomont.rs:31-165. -/
def tomont (a : Coeffs) : Coeffs := arr 256 fun m => mont (lanes a m) 1353#16
/-- mlkem_unpack.rs:26-175. -/
def unpack (a : Coeffs) : Coeffs := arr 256 fun m => lanes a (place m)

/-- mlkem_mulcache_compute.rs:46-131: the odd places times their power of 17, the table at position 496 of `Q_DATA`. -/
def mulcache (a : Coeffs) : Coeffs := arr 128 fun i =>
  mont (lanes a (32 * (i / 16) + 16 + i % 16)) (BitVec.ofInt 16 (qdata.getD (496 + 16 * (i / 32) + i % 16) 0))

/-- One of the three products at slot `m` of `mlkem_basemul_k3`; the caches of odd blocks have the wrong sign. -/
def basemul1 (a b c : Coeffs) (m : Nat) : Lane :=
  let e := 32 * (m / 32) + m % 16
  let o := e + 16
  if m / 16 % 2 = 0 then
    let h := mont (lanes c (16 * (m / 32) + m % 16)) (lanes a o)
    (if m / 32 % 2 = 0 then h else -h) + mont (lanes b e) (lanes a e)
  else mont (lanes b e) (lanes a o) + mont (lanes b o) (lanes a e)
/-- mlkem_basemul_k3.rs:56-810. -/
def basemul (a b c : List Coeffs) : Coeffs := arr 256 fun m =>
  basemul1 (a.getD 0 []) (b.getD 0 []) (c.getD 0 []) m + basemul1 (a.getD 1 []) (b.getD 1 []) (c.getD 1 []) m +
    basemul1 (a.getD 2 []) (b.getD 2 []) (c.getD 2 []) m

/-- mlkem_tobytes.rs:34-189: the `i`-th of 192 lanes, from places `4 * (i / 3)` on. -/
def tobytesLane (a : Coeffs) (i : Nat) : Lane :=
  let x k := lanes a (slot (4 * (i / 3) + k))
  if i % 3 = 0 then x 0 ||| x 1 <<< 12 else if i % 3 = 1 then x 2 <<< 8 ||| x 1 >>> 4 else x 3 <<< 4 ||| x 2 >>> 8
/-- mlkem_tobytes.rs:30-191. -/
def tobytes (a : Coeffs) : Bytes := (List.range 192).flatMap fun i =>
  [(tobytesLane a i).setWidth 8, (tobytesLane a i >>> 8).setWidth 8]

/-- mlkem_frombytes.rs:31-202: place `p`, from the lanes `3 * (p / 4)` to `3 * (p / 4) + 2` of the bytes. -/
def frombytesLane (B : Bytes) (p : Nat) : Lane :=
  let b k : Lane := B.getD (2 * (3 * (p / 4) + k) + 1) 0#8 ++ B.getD (2 * (3 * (p / 4) + k)) 0#8
  (if p % 4 = 0 then b 0 else if p % 4 = 1 then b 1 <<< 4 ||| b 0 >>> 12 else
    if p % 4 = 2 then b 2 <<< 8 ||| b 1 >>> 8 else b 2 >>> 4) &&& 4095#16
/-- mlkem_frombytes.rs:28-204. -/
def frombytes (B : Bytes) : Coeffs := arr 256 fun m => frombytesLane B (place m)

/-- The assembly on x86_64. -/
def x86Asm (rej : Bytes → Coeffs) : Asm :=
  { ntt, intt, reduce, tomont, unpack, mulcache, basemul, tobytes, frombytes, rej }

end Verif.MlKem.X86
