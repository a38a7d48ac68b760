import Verif.Proof.Ghash
import Verif.Spec.Ghash

/-!
Both GHASH back ends compute the GHASH of SP 800-38D.
-/
namespace Verif.GhashX86
open Verif Verif.Simd Verif.Gf2 Polynomial

set_option maxRecDepth 8000

noncomputable section

/-! ### The specification's product, on classes -/

theorem cls_shr1 {n : Nat} (v : BitVec n) :
    cls v = (if v.getLsbD 0 then (1 : K) else 0) + y * cls (v >>> 1) := by
  have := congrArg mk (tp_shr1 v)
  rw [map_add, map_mul] at this
  rw [cls, this]
  congr 1
  split <;> simp

theorem y_R : y * cls Spec.Ghash.R = 1 := by
  have : Spec.Ghash.R = ((1#1).setWidth 128 <<< 127) ^^^ ((1#1).setWidth 128 <<< 126) ^^^
    ((1#1).setWidth 128 <<< 125) ^^^ ((1#1).setWidth 128 <<< 120) := by decide
  rw [this, cls_xor, cls_xor, cls_xor, cls, cls, cls, cls, tp_bit 127 (by omega), tp_bit 126 (by omega),
    tp_bit 125 (by omega), tp_bit 120 (by omega), map_pow, map_pow, map_pow, map_pow]
  change y * (y ^ 127 + y ^ 126 + y ^ 125 + y ^ 120) = 1
  linear_combination P_cls - two_eq

theorem y_double (V : BitVec 128) :
    y * cls (if V.getLsbD 0 then (V >>> 1) ^^^ Spec.Ghash.R else V >>> 1) = cls V := by
  rw [cls_shr1 V]
  cases V.getLsbD 0
  · simp
  · simp only [if_true]
    rw [cls_xor, mul_add, y_R, add_comm]

theorem yi_double (V : BitVec 128) :
    cls (if V.getLsbD 0 then (V >>> 1) ^^^ Spec.Ghash.R else V >>> 1) = yi * cls V := by
  rw [← y_double V, ← mul_assoc, mul_comm yi, y_yi, one_mul]

theorem mulFold (X Y : BitVec 128) (n : Nat) :
    let r := (List.range n).foldl (Spec.Ghash.mulStep X) (0#128, Y)
    cls r.2 = yi ^ n * cls Y ∧
      cls r.1 = (∑ j ∈ Finset.range n, if X.getMsbD j then yi ^ j else 0) * cls Y := by
  induction n with
  | zero => simp [cls_zero]
  | succ n ih =>
    simp only [List.range_succ, List.foldl_append, List.foldl_cons, List.foldl_nil]
    obtain ⟨h1, h2⟩ := ih
    constructor
    · rw [Spec.Ghash.mulStep]
      simp only []
      rw [yi_double, h1]; ring
    · rw [Spec.Ghash.mulStep, Finset.sum_range_succ, add_mul, ← h2]
      cases X.getMsbD n
      · simp
      · simp only [if_true]
        rw [cls_xor, h1]

theorem cls_sum {n : Nat} (v : BitVec n) :
    cls v = ∑ i ∈ Finset.range n, if v.getLsbD i then y ^ i else 0 := by
  rw [cls, tp, map_sum]
  refine Finset.sum_congr rfl fun i _ => ?_
  split
  · rw [map_pow]; rfl
  · rw [map_zero]

theorem yi_split (j : Nat) (h : j ≤ 127) : yi ^ 127 * y ^ (127 - j) = yi ^ j := by
  have e : yi ^ 127 = yi ^ j * yi ^ (127 - j) := by rw [← pow_add]; congr 1; omega
  rw [e, mul_assoc, ← mul_pow, mul_comm yi y, y_yi, one_pow, mul_one]

theorem sum_msb (X : BitVec 128) :
    (∑ j ∈ Finset.range 128, if X.getMsbD j then yi ^ j else 0) = yi ^ 127 * cls X := by
  rw [cls_sum, ← Finset.sum_range_reflect, Finset.mul_sum]
  refine Finset.sum_congr rfl fun j hj => ?_
  have hj := Finset.mem_range.1 hj
  rw [BitVec.getMsbD_eq_getLsbD]
  have h1 : 128 - 1 - (128 - 1 - j) = j := by omega
  rw [h1, show decide (128 - 1 - j < 128) = true from decide_eq_true (by omega), Bool.true_and]
  split
  · rw [← yi_split (128 - 1 - j) (by omega)]
    congr 2
  · rw [mul_zero]

theorem spec_mul (X Y : BitVec 128) : cls (Spec.Ghash.mul X Y) = yi ^ 127 * cls X * cls Y := by
  rw [Spec.Ghash.mul, (mulFold X Y 128).2, sum_msb]

theorem spec_mul_comm (X Y : BitVec 128) : Spec.Ghash.mul X Y = Spec.Ghash.mul Y X := by
  apply cls_inj
  rw [spec_mul, spec_mul]; ring

/-- The multiplier that stands for `h`. -/
def g (h : BitVec 128) : K := yi ^ 127 * cls h

theorem spec_mul_g (X h : BitVec 128) : cls (Spec.Ghash.mul X h) = cls X * g h := by
  rw [spec_mul, g]; ring

/-! ### The portable product -/

theorem neg_bit (a : BitVec 128) : -(a &&& 1#128) = if a.getLsbD 0 then BitVec.allOnes 128 else 0#128 := by
  have : a &&& 1#128 = if a.getLsbD 0 then 1#128 else 0#128 := by
    apply BitVec.eq_of_getLsbD_eq
    intro i hi
    rw [BitVec.getLsbD_and, BitVec.getLsbD_one]
    by_cases h : i = 0
    · subst h; cases a.getLsbD 0 <;> simp
    · cases a.getLsbD 0 <;> simp [h, BitVec.getLsbD_one]
  rw [this]
  cases a.getLsbD 0 <;> decide

theorem double_eq (V : BitVec 128) :
    Ghash.double V = if V.getLsbD 0 then (V >>> 1) ^^^ Spec.Ghash.R else V >>> 1 := by
  rw [Ghash.double, neg_bit]
  have : Ghash.R = Spec.Ghash.R := by decide
  rw [this]
  cases V.getLsbD 0 <;> simp [-BitVec.reduceAllOnes]

theorem select_eq (z v : BitVec 128) (b : Bool) :
    ((z &&& ~~~(if b then BitVec.allOnes 128 else 0#128)) |||
      ((z ^^^ v) &&& (if b then BitVec.allOnes 128 else 0#128))) = if b then z ^^^ v else z := by
  cases b <;> simp [-BitVec.reduceAllOnes]

theorem generic_mul (a b : BitVec 128) : Ghash.mul a b = Spec.Ghash.mul b a := by
  rw [Ghash.mul, Spec.Ghash.mul]
  congr 1
  apply List.foldl_ext
  intro s i hi
  have hi := List.mem_range.1 hi
  obtain ⟨z, v⟩ := s
  rw [Spec.Ghash.mulStep]
  simp only []
  rw [neg_bit, select_eq, double_eq, BitVec.getLsbD_ushiftRight, BitVec.getMsbD_eq_getLsbD]
  have : (decide (i < 128) && b.getLsbD (128 - 1 - i)) = b.getLsbD (127 - i + 0) := by simp [hi]
  rw [this]

/-! ### The carry-less multiplication product -/

theorem mul_y (p : M128) (a b : K) (h : y ^ 128 * cls p = a * (y ^ 128 * b)) : cls p = a * b :=
  cancel 128 _ _ (by rw [h]; ring)

theorem key_ok (h : BitVec 128) : cls (gf128BigEndian h) = y ^ 128 * g h := by
  rw [gf128BigEndian_ok, g]
  have := yi_split 127 (by omega)
  have e : y ^ 127 * yi ^ 127 = 1 := by rw [← mul_pow, y_yi, one_pow]
  linear_combination (-y * cls h) * e

theorem mul_key (a p : M128) (k : K) (h : cls p = y ^ 128 * k) : cls (mul a p) = cls a * k :=
  mul_y _ _ _ (by rw [mul_ok, h])

theorem powers_ok (h : BitVec 128) (n : Nat) : ∀ (p : M128) (k i : Nat), cls p = y ^ 128 * g h ^ k → i < n →
    cls ((powersFrom (gf128BigEndian h) p n).getD i 0#128) = y ^ 128 * g h ^ (k + i + 1) := by
  induction n with
  | zero => intro p k i _ hi; omega
  | succ n ih =>
    intro p k i hp hi
    rw [powersFrom]
    have h1 : cls (mul p (gf128BigEndian h)) = y ^ 128 * g h ^ (k + 1) := by
      rw [mul_key _ _ _ (key_ok h), hp]; ring
    cases i with
    | zero => rw [List.getD_cons_zero, h1]
    | succ i =>
      rw [List.getD_cons_succ, ih _ (k + 1) i h1 (by omega)]
      congr 2; omega

theorem p_ok (h : BitVec 128) (i : Nat) (hi : i < 8) : cls ((TableAvx.new h).p i) = y ^ 128 * g h ^ (i + 1) := by
  rw [TableAvx.p, TableAvx.new]
  cases i with
  | zero => simp only [List.getD_cons_zero]; rw [key_ok]; ring
  | succ i =>
    simp only [List.getD_cons_succ]
    rw [powers_ok h 7 _ 1 i (by rw [key_ok]; ring) (by omega)]
    congr 2; omega

theorem powersFrom_length (h p : M128) (n : Nat) : (powersFrom h p n).length = n := by
  induction n generalizing p with
  | zero => rfl
  | succ n ih => rw [powersFrom, List.length_cons, ih]

theorem px_ok (h : BitVec 128) (i : Nat) (hi : i < 8) :
    (TableAvx.new h).px i = xorHalves ((TableAvx.new h).p i) := by
  have hl : i < (TableAvx.new h).powers.length := by
    simp only [TableAvx.new, List.length_cons, powersFrom_length]; omega
  rw [TableAvx.px, TableAvx.p]
  simp only [TableAvx.new] at hl ⊢
  rw [List.getD_eq_getElem?_getD, List.getD_eq_getElem?_getD, List.getElem?_map, List.getElem?_eq_getElem hl]
  rfl

theorem acc_ok (s : Acc) (v : K) (hs : val s = v) (h : BitVec 128) (x : M128) (i : Nat) (hi : i < 8) :
    val (mulAcc s x ((TableAvx.new h).p i) ((TableAvx.new h).px i)) = v + cls x * (y ^ 128 * g h ^ (i + 1)) := by
  rw [px_ok h i hi, mulAcc_ok, hs, p_ok h i hi]

theorem mul8_ok (h : BitVec 128) (x1 x2 x3 x4 x5 x6 x7 x8 : M128) :
    mul8 (TableAvx.new h) x1 x2 x3 x4 x5 x6 x7 x8 =
      Spec.Ghash.absorb h 0#128 [x1, x2, x3, x4, x5, x6, x7, x8] := by
  apply cls_inj
  apply cancel 128
  rw [mul8, reduce_ok]
  rw [acc_ok _ _ (acc_ok _ _ (acc_ok _ _ (acc_ok _ _ (acc_ok _ _ (acc_ok _ _ (acc_ok _ _ (acc_ok _ 0
    (by simp [val, cls_zero]) h x1 7 (by omega)) h x2 6 (by omega)) h x3 5 (by omega)) h x4 4 (by omega))
    h x5 3 (by omega)) h x6 2 (by omega)) h x7 1 (by omega)) h x8 0 (by omega)]
  simp only [Spec.Ghash.absorb, List.foldl_cons, List.foldl_nil, spec_mul_g, cls_xor, cls_zero]
  ring

/-- What one lane of `_mul16` computes. -/
def lane16 (a b c d ha hb hc hd : M128) : M128 :=
  let lo := clmulepi64 c hc 0x00 ^^^ clmulepi64 d hd 0x00 ^^^ (clmulepi64 a ha 0x00 ^^^ clmulepi64 b hb 0x00)
  let mi := clmulepi64 d hd 0x10 ^^^ (clmulepi64 a ha 0x01 ^^^ clmulepi64 b hb 0x01 ^^^ clmulepi64 c hc 0x01
    ^^^ clmulepi64 d hd 0x01 ^^^ clmulepi64 a ha 0x10 ^^^ clmulepi64 b hb 0x10 ^^^ clmulepi64 c hc 0x10)
  let m1 := clmulepi64 POLY_LO lo 0x01 ^^^ shuffle32 lo 0b01001110 ^^^ mi
  let hi := clmulepi64 a ha 0x11 ^^^ clmulepi64 b hb 0x11 ^^^ clmulepi64 c hc 0x11 ^^^ clmulepi64 d hd 0x11
  clmulepi64 POLY_LO m1 0x01 ^^^ shuffle32 m1 0b01001110 ^^^ hi

theorem mul16_lanes (t : TableAvx512) (x y z w : M512) : mul16 t x y z w =
    lane16 x.l0 y.l0 z.l0 w.l0 t.q3.l0 t.q2.l0 t.q1.l0 t.q0.l0 ^^^
    lane16 x.l1 y.l1 z.l1 w.l1 t.q3.l1 t.q2.l1 t.q1.l1 t.q0.l1 ^^^
    lane16 x.l2 y.l2 z.l2 w.l2 t.q3.l2 t.q2.l2 t.q1.l2 t.q0.l2 ^^^
    lane16 x.l3 y.l3 z.l3 w.l3 t.q3.l3 t.q2.l3 t.q1.l3 t.q0.l3 := rfl

theorem H_poly : H POLY_LO = q := by
  rw [← q_poly]; exact congrArg cls (by decide)

theorem lane16_ok (a b c d ha hb hc hd : M128) : y ^ 128 * cls (lane16 a b c d ha hb hc hd) =
    cls a * cls ha + cls b * cls hb + cls c * cls hc + cls d * cls hd := by
  rw [lane16]
  generalize hlo : clmulepi64 c hc 0x00 ^^^ clmulepi64 d hd 0x00 ^^^
    (clmulepi64 a ha 0x00 ^^^ clmulepi64 b hb 0x00) = lo
  generalize hmi : clmulepi64 d hd 0x10 ^^^ (clmulepi64 a ha 0x01 ^^^ clmulepi64 b hb 0x01 ^^^
    clmulepi64 c hc 0x01 ^^^ clmulepi64 d hd 0x01 ^^^ clmulepi64 a ha 0x10 ^^^ clmulepi64 b hb 0x10 ^^^
    clmulepi64 c hc 0x10) = mi
  generalize hhi : clmulepi64 a ha 0x11 ^^^ clmulepi64 b hb 0x11 ^^^ clmulepi64 c hc 0x11 ^^^
    clmulepi64 d hd 0x11 = hi
  have elo : cls lo = L a * L ha + L b * L hb + L c * L hc + L d * L hd := by
    rw [← hlo]; simp only [cls_xor, clmul00]; ring
  have emi : cls mi = H a * L ha + H b * L hb + H c * L hc + H d * L hd + L a * H ha + L b * H hb +
      L c * H hc + L d * H hd := by
    rw [← hmi]; simp only [cls_xor, clmul01, clmul10]; ring
  have ehi : cls hi = H a * H ha + H b * H hb + H c * H hc + H d * H hd := by
    rw [← hhi]; simp only [cls_xor, clmul11]
  have := fold_core lo mi hi (clmulepi64 POLY_LO lo 0x01 ^^^ shuffle32 lo 0b01001110 ^^^ mi) _
    (by rw [cls_xor, cls_xor, clmul01, cls_swap, H_poly]; ring) rfl
  rw [cls_xor, cls_xor, clmul01 POLY_LO, cls_swap, H_poly]
  rw [show ∀ m1 : M128, q * L m1 + (H m1 + y ^ 64 * L m1) + cls hi =
    cls hi + (H m1 + y ^ 64 * L m1) + q * L m1 from fun _ => by ring, this, elo, emi, ehi,
    cls_halves a, cls_halves b, cls_halves c, cls_halves d, cls_halves ha, cls_halves hb, cls_halves hc,
    cls_halves hd]
  ring

/-- The sixteen powers of the wide table. -/
def p16 (h : BitVec 128) (i : Nat) : M128 :=
  ((TableAvx.new h).powers ++ powersFrom ((TableAvx.new h).p 0) ((TableAvx.new h).p 7) 8).getD i 0#128

theorem p16_ok (h : BitVec 128) (i : Nat) (hi : i < 16) : cls (p16 h i) = y ^ 128 * g h ^ (i + 1) := by
  have hl : (TableAvx.new h).powers.length = 8 := by
    simp only [TableAvx.new, List.length_cons, powersFrom_length]
  rw [p16]
  by_cases h8 : i < 8
  · rw [List.getD_eq_getElem?_getD, List.getElem?_append_left (by omega), ← List.getD_eq_getElem?_getD]
    exact p_ok h i h8
  · rw [List.getD_eq_getElem?_getD, List.getElem?_append_right (by omega), ← List.getD_eq_getElem?_getD, hl]
    have : (TableAvx.new h).p 0 = gf128BigEndian h := rfl
    rw [this, powers_ok h 8 _ 8 (i - 8) (p_ok h 7 (by omega)) (by omega)]
    congr 2; omega

theorem mul16_ok (h : BitVec 128) (a b c d : M512) : mul16 (TableAvx512.new h) a b c d =
    Spec.Ghash.absorb h 0#128 [a.l0, a.l1, a.l2, a.l3, b.l0, b.l1, b.l2, b.l3, c.l0, c.l1, c.l2, c.l3,
      d.l0, d.l1, d.l2, d.l3] := by
  apply cls_inj
  apply cancel 128
  have e3 : (TableAvx512.new h).q3 = ⟨p16 h 15, p16 h 14, p16 h 13, p16 h 12⟩ := rfl
  have e2 : (TableAvx512.new h).q2 = ⟨p16 h 11, p16 h 10, p16 h 9, p16 h 8⟩ := rfl
  have e1 : (TableAvx512.new h).q1 = ⟨p16 h 7, p16 h 6, p16 h 5, p16 h 4⟩ := rfl
  have e0 : (TableAvx512.new h).q0 = ⟨p16 h 3, p16 h 2, p16 h 1, p16 h 0⟩ := rfl
  rw [mul16_lanes, e3, e2, e1, e0]
  simp only []
  rw [cls_xor, cls_xor, cls_xor, mul_add, mul_add, mul_add, lane16_ok, lane16_ok, lane16_ok, lane16_ok]
  rw [p16_ok h 0 (by omega), p16_ok h 1 (by omega), p16_ok h 2 (by omega), p16_ok h 3 (by omega),
    p16_ok h 4 (by omega), p16_ok h 5 (by omega), p16_ok h 6 (by omega), p16_ok h 7 (by omega),
    p16_ok h 8 (by omega), p16_ok h 9 (by omega), p16_ok h 10 (by omega), p16_ok h 11 (by omega),
    p16_ok h 12 (by omega), p16_ok h 13 (by omega), p16_ok h 14 (by omega), p16_ok h 15 (by omega)]
  simp only [Spec.Ghash.absorb, List.foldl_cons, List.foldl_nil, spec_mul_g, cls_xor, cls_zero]
  ring

theorem mul_h (t : TableAvx) (h : BitVec 128) (ht : t = TableAvx.new h) (a : M128) :
    mul a (t.p 0) = Spec.Ghash.mul a h := by
  subst ht
  apply cls_inj
  rw [mul_key a _ (g h) (by rw [p_ok h 0 (by omega)]; ring), spec_mul_g]

end

/-! ### Bytes -/

theorem bytes16 (b : Bytes) (h : b.length = 16) : ∃ a0 a1 a2 a3 a4 a5 a6 a7 a8 a9 a10 a11 a12 a13 a14 a15,
    b = [a0, a1, a2, a3, a4, a5, a6, a7, a8, a9, a10, a11, a12, a13, a14, a15] := by
  match b, h with
  | [a0, a1, a2, a3, a4, a5, a6, a7, a8, a9, a10, a11, a12, a13, a14, a15], _ => exact ⟨_, _, _, _, _, _, _, _, _, _, _, _, _, _, _, _, rfl⟩

theorem store_bswap : store BYTESWAP = [15#8, 14#8, 13#8, 12#8, 11#8, 10#8, 9#8, 8#8, 7#8, 6#8, 5#8, 4#8,
    3#8, 2#8, 1#8, 0#8] := by decide +kernel

theorem bswap_store (v : M128) : shuffle8 v BYTESWAP = load (store v).reverse := by
  rw [shuffle8, store_bswap]
  obtain ⟨a0, a1, a2, a3, a4, a5, a6, a7, a8, a9, a10, a11, a12, a13, a14, a15, h⟩ := bytes16 (store v) (store_length v)
  rw [h]
  rfl

theorem bswap_load (b : Bytes) (h : b.length = 16) : shuffle8 (load b) BYTESWAP = Ghash.fromBE b := by
  rw [bswap_store, store_load b h, load, Ghash.fromBE]
  rw [beNat_eq_leNat_reverse]

theorem intoBytes_ok (v : M128) : intoBytes v = toBE 16 v.toNat := by
  rw [intoBytes, bswap_store, store_load _ (by rw [List.length_reverse, store_length]), store, toBE]

end Verif.GhashX86
