import Verif.Proof.MlKemX86

/-! The AVX2 transforms and products against the standard. -/
namespace Verif.MlKem.X86
open Verif Verif.X86 Verif.Spec.MlKem

theorem cast_dvd {x y : Int} (h : (x - y) % 3329 = 0) : (x : Fq) = (y : Fq) := by
  have e : x = y + 3329 * ((x - y) / 3329) := by omega
  rw [e, Int.cast_add, q_dvd_cast, add_zero]

/-- The table holds the powers of 17 in bit-reversed order. -/
theorem zeta_table : ∀ i < 128, 1 ≤ i → (zetas.getD i 0 - 17 ^ bitRev7 i * 65536) % 3329 = 0 ∧ -1664 ≤ zetas.getD i 0 ∧ zetas.getD i 0 ≤ 1664 := by
  decide +kernel

theorem zetaL_ok {i : Nat} (h : i < 128) (h1 : 1 ≤ i) :
    ((zetaL i).toInt : Fq) = zeta ^ bitRev7 i * 2 ^ 16 ∧ -1664 ≤ (zetaL i).toInt ∧ (zetaL i).toInt ≤ 1664 := by
  obtain ⟨e, l, u⟩ := zeta_table i h h1
  unfold zetaL
  rw [toInt_of (by omega)]
  refine ⟨?_, l, u⟩
  rw [cast_dvd e]
  push_cast
  unfold zeta
  norm_num

theorem addB {x y : Lane} {B C : Int} (hx : -B ≤ x.toInt ∧ x.toInt ≤ B) (hy : -C ≤ y.toInt ∧ y.toInt ≤ C) (h : B + C ≤ 32767) :
    (x + y).toInt = x.toInt + y.toInt ∧ -(B + C) ≤ (x + y).toInt ∧ (x + y).toInt ≤ B + C := by
  have e := add_val (x := x) (y := y) (by omega)
  omega

theorem subB {x y : Lane} {B C : Int} (hx : -B ≤ x.toInt ∧ x.toInt ≤ B) (hy : -C ≤ y.toInt ∧ y.toInt ≤ C) (h : B + C ≤ 32767) :
    (x - y).toInt = x.toInt - y.toInt ∧ -(B + C) ≤ (x - y).toInt ∧ (x - y).toInt ≤ B + C := by
  have e := sub_val (x := x) (y := y) (by omega)
  omega

theorem montB (x : Lane) {z : Lane} (h : -1664 ≤ z.toInt ∧ z.toInt ≤ 1664) : -2497 ≤ (mont x z).toInt ∧ (mont x z).toInt ≤ 2497 := by
  have := mont_bound x z h
  omega

theorem idx_val {i : Nat} (h : i < 256) : (idx i).val = i := Nat.mod_eq_of_lt h

/-! ### The forward transform -/

theorem spanPos {l : Nat} (hl : l < 7) : 2 ≤ 128 / 2 ^ l ∧ 128 / (128 / 2 ^ l) = 2 ^ l ∧ 2 ^ l * (2 * (128 / 2 ^ l)) = 256 := by
  interval_cases l <;> decide

theorem up_lt {l j : Nat} (hl : l < 7) (hj : j < 256) (h : j % (2 * (128 / 2 ^ l)) < 128 / 2 ^ l) : j + 128 / 2 ^ l < 256 := by
  interval_cases l <;> norm_num at h ⊢ <;> omega

theorem zidx {l j : Nat} (hl : l < 7) (hj : j < 256) : 1 ≤ 2 ^ l + j / (2 * (128 / 2 ^ l)) ∧ 2 ^ l + j / (2 * (128 / 2 ^ l)) < 128 := by
  interval_cases l <;> norm_num <;> omega

/-- The standard's first `l` layers. -/
def specIter (g : Poly) : Nat → Poly
  | 0 => g
  | l + 1 => nttLayer (128 / 2 ^ l) (specIter g l)

theorem nttIter_ok {f : Nat → Lane} {g : Poly} (h0 : ∀ j : Fin 256, ((f j.val).toInt : Fq) = g j)
    (hb : ∀ j < 256, -3328 ≤ (f j).toInt ∧ (f j).toInt ≤ 3328) : ∀ l ≤ 7, (∀ j : Fin 256, ((nttIter f l j.val).toInt : Fq) = specIter g l j) ∧
      ∀ j < 256, -(3328 + 2497 * l : Int) ≤ (nttIter f l j).toInt ∧ (nttIter f l j).toInt ≤ 3328 + 2497 * l := by
  intro l
  induction l with
  | zero => exact fun _ => ⟨h0, fun j hj => by have := hb j hj; simpa [nttIter] using this⟩
  | succ l ih =>
    intro hl
    obtain ⟨i1, i2⟩ := ih (by omega)
    obtain ⟨s1, s2, s3⟩ := spanPos (l := l) (by omega)
    have key : ∀ j : Fin 256, ((nttIter f (l + 1) j.val).toInt : Fq) = specIter g (l + 1) j ∧
        -(3328 + 2497 * (l + 1 : Nat) : Int) ≤ (nttIter f (l + 1) j.val).toInt ∧ (nttIter f (l + 1) j.val).toInt ≤ 3328 + 2497 * (l + 1 : Nat) := by
      intro j
      obtain ⟨z1, z2⟩ := zidx (l := l) (j := j.val) (by omega) j.isLt
      obtain ⟨zc, zl, zu⟩ := zetaL_ok z2 z1
      have mb : ∀ x, -2497 ≤ (mont x (zetaL (2 ^ l + j.val / (2 * (128 / 2 ^ l))))).toInt ∧ (mont x (zetaL (2 ^ l + j.val / (2 * (128 / 2 ^ l))))).toInt ≤ 2497 :=
        fun x => montB x ⟨zl, zu⟩
      show ((nttStep l (nttIter f l) j.val).toInt : Fq) = nttLayer (128 / 2 ^ l) (specIter g l) j ∧ _ ≤ (nttStep l (nttIter f l) j.val).toInt ∧
        (nttStep l (nttIter f l) j.val).toInt ≤ _
      unfold nttStep nttLayer
      simp only [s2]
      by_cases hu : j.val % (2 * (128 / 2 ^ l)) < 128 / 2 ^ l
      · rw [if_pos hu, if_pos hu]
        have hj := up_lt (by omega) j.isLt hu
        have b1 := i2 j.val j.isLt
        have b2 := mb (nttIter f l (j.val + 128 / 2 ^ l))
        obtain ⟨es, lo, hi⟩ := addB b1 b2 (by omega)
        rw [show (3328 + 2497 * (l + 1 : Nat) : Int) = 3328 + 2497 * l + 2497 by push_cast; ring]
        refine ⟨?_, lo, hi⟩
        rw [es]
        have := i1 (idx (j.val + 128 / 2 ^ l))
        rw [idx_val hj] at this
        rw [Int.cast_add, i1 j, mont_const_cast _ zc, this]
      · rw [if_neg hu, if_neg hu]
        have b1 := i2 (j.val - 128 / 2 ^ l) (by omega)
        have b2 := mb (nttIter f l j.val)
        obtain ⟨es, lo, hi⟩ := subB b1 b2 (by omega)
        rw [show (3328 + 2497 * (l + 1 : Nat) : Int) = 3328 + 2497 * l + 2497 by push_cast; ring]
        refine ⟨?_, lo, hi⟩
        rw [es]
        have := i1 (idx (j.val - 128 / 2 ^ l))
        rw [idx_val (by omega)] at this
        rw [Int.cast_sub, this, mont_const_cast _ zc, i1 j]
    exact ⟨fun j => (key j).1, fun j hj => (key ⟨j, hj⟩).2⟩

theorem spec_ntt (g : Poly) : specIter g 7 = Spec.MlKem.ntt g := rfl

theorem ntt_ok (a : Coeffs) (h : Bnd 3329 a) : Bnd 26632 (ntt a) ∧ toPoly (ntt a) = lay sigma (Spec.MlKem.ntt (toPoly a)) := by
  have hi := h.i16 (by decide)
  have key := nttIter_ok (f := lanes a) (g := toPoly a) (fun j => by rw [lanes_val hi j.isLt]; rfl)
    (fun j hj => by
      rw [lanes_val hi hj]
      have := h.2 _ (getD_mem (a := a) (i := j) (by rw [h.1]; exact hj))
      omega) 7 (le_refl _)
  refine ⟨⟨arr_length _ _, fun x hx => ?_⟩, ?_⟩
  · obtain ⟨i, hi, rfl⟩ := arr_mem hx
    have := key.2 (place i) (sigma ⟨i, hi⟩).isLt
    push_cast at this
    omega
  · unfold ntt
    rw [toPoly_arr256]
    funext i
    exact key.1 (sigma i)

/-! ### The inverse transform -/

/-- Bounds on the values of the inverse transform. -/
def bdI : Nat → Nat → Nat
  | 0, _ => 2497
  | t + 1, j => if j % (2 * 2 ^ (t + 1)) < 2 ^ (t + 1) then (if reduced t j then 3329 else bdI t j + bdI t (j + 2 ^ (t + 1))) else 2497

theorem bdI_ok : ∀ t < 7, ∀ j < 256, j % (2 * 2 ^ (t + 1)) < 2 ^ (t + 1) → j + 2 ^ (t + 1) < 256 ∧ bdI t j + bdI t (j + 2 ^ (t + 1)) ≤ 19984 := by
  decide +kernel

theorem bdI_fin : ∀ j < 256, bdI 7 j ≤ 19984 := by decide +kernel

theorem izidx (t : Nat) (ht : t < 7) (j : Nat) (hj : j < 256) :
    1 ≤ 256 / 2 ^ (t + 1) - 1 - j / (2 * 2 ^ (t + 1)) ∧ 256 / 2 ^ (t + 1) - 1 - j / (2 * 2 ^ (t + 1)) < 128 := by
  interval_cases t <;> norm_num <;> omega

def specInv (g : Poly) : Nat → Poly
  | 0 => g
  | t + 1 => inttLayer (2 ^ (t + 1)) (specInv g t)

theorem inttIter_ok {f : Nat → Lane} {g : Poly} (h0 : ∀ j : Fin 256, ((f j.val).toInt : Fq) = g j) :
    ∀ t ≤ 7, (∀ j : Fin 256, ((inttIter f t j.val).toInt : Fq) = 2 ^ 16 * (3303 * specInv g t j)) ∧
      ∀ j < 256, -(bdI t j : Int) ≤ (inttIter f t j).toInt ∧ (inttIter f t j).toInt ≤ bdI t j := by
  intro t
  induction t with
  | zero =>
    refine fun _ => ⟨fun j => ?_, fun j hj => ?_⟩
    · show ((mont (f j.val) 1441#16).toInt : Fq) = _
      rw [mont_const_cast _ (w := 2 ^ 16 * 3303) (by decide), h0]
      show _ = 2 ^ 16 * (3303 * g j)
      ring
    · have := mont_bound (f j) 1441#16 (B := 1441) (by decide)
      show -((2497 : Nat) : Int) ≤ (mont (f j) 1441#16).toInt ∧ (mont (f j) 1441#16).toInt ≤ ((2497 : Nat) : Int)
      omega
  | succ t ih =>
    intro ht
    obtain ⟨i1, i2⟩ := ih (by omega)
    have key : ∀ j : Fin 256, ((inttIter f (t + 1) j.val).toInt : Fq) = 2 ^ 16 * (3303 * specInv g (t + 1) j) ∧
        -(bdI (t + 1) j.val : Int) ≤ (inttIter f (t + 1) j.val).toInt ∧ (inttIter f (t + 1) j.val).toInt ≤ bdI (t + 1) j.val := by
      intro j
      obtain ⟨z1, z2⟩ := izidx t (by omega) j.val j.isLt
      obtain ⟨zc, zl, zu⟩ := zetaL_ok z2 z1
      show ((inttStep t (inttIter f t) j.val).toInt : Fq) = 2 ^ 16 * (3303 * inttLayer (2 ^ (t + 1)) (specInv g t) j) ∧
        -(bdI (t + 1) j.val : Int) ≤ (inttStep t (inttIter f t) j.val).toInt ∧ (inttStep t (inttIter f t) j.val).toInt ≤ bdI (t + 1) j.val
      unfold inttStep inttLayer bdI
      simp only
      by_cases hu : j.val % (2 * 2 ^ (t + 1)) < 2 ^ (t + 1)
      · obtain ⟨hj, hs⟩ := bdI_ok t (by omega) j.val j.isLt hu
        simp only [if_pos hu]
        have b1 := i2 j.val j.isLt
        have b2 := i2 _ hj
        have e := i1 (idx (j.val + 2 ^ (t + 1)))
        rw [idx_val hj] at e
        have es : (inttIter f t j.val + inttIter f t (j.val + 2 ^ (t + 1))).toInt = (inttIter f t j.val).toInt + (inttIter f t (j.val + 2 ^ (t + 1))).toInt :=
          add_val (by omega)
        have ec : ((inttIter f t j.val + inttIter f t (j.val + 2 ^ (t + 1))).toInt : Fq) =
            2 ^ 16 * (3303 * (specInv g t j + specInv g t (idx (j.val + 2 ^ (t + 1))))) := by
          rw [es, Int.cast_add, i1 j, e]
          ring
        cases hr : reduced t j.val
        · simp only [Bool.false_eq_true, if_false]
          rw [ec, es]
          push_cast
          exact ⟨rfl, by omega, by omega⟩
        · simp only [if_true]
          obtain ⟨l, u, k, ek⟩ := barrett_val (inttIter f t j.val + inttIter f t (j.val + 2 ^ (t + 1)))
          refine ⟨?_, by push_cast; omega, by push_cast; omega⟩
          rw [ek, Int.cast_sub, q_dvd_cast, sub_zero, ec]
      · simp only [if_neg hu]
        have hle : 2 ^ (t + 1) ≤ j.val := by
          by_contra hn
          rw [Nat.mod_eq_of_lt (by omega)] at hu
          omega
        have hu' : (j.val - 2 ^ (t + 1)) % (2 * 2 ^ (t + 1)) < 2 ^ (t + 1) := by
          have h1 := Nat.div_add_mod j.val (2 * 2 ^ (t + 1))
          have h2 := Nat.mod_lt j.val (show 2 * 2 ^ (t + 1) > 0 by positivity)
          have e : j.val - 2 ^ (t + 1) = 2 * 2 ^ (t + 1) * (j.val / (2 * 2 ^ (t + 1))) + (j.val % (2 * 2 ^ (t + 1)) - 2 ^ (t + 1)) := by omega
          rw [e, Nat.mul_add_mod, Nat.mod_eq_of_lt (by omega)]
          omega
        obtain ⟨hj, hs⟩ := bdI_ok t (by omega) (j.val - 2 ^ (t + 1)) (by omega) hu'
        rw [Nat.sub_add_cancel hle] at hs
        have b1 := i2 j.val j.isLt
        have b2 := i2 (j.val - 2 ^ (t + 1)) (by omega)
        have e := i1 (idx (j.val - 2 ^ (t + 1)))
        rw [idx_val (by omega)] at e
        have es : (inttIter f t j.val - inttIter f t (j.val - 2 ^ (t + 1))).toInt = (inttIter f t j.val).toInt - (inttIter f t (j.val - 2 ^ (t + 1))).toInt :=
          sub_val (by omega)
        refine ⟨?_, montB (inttIter f t j.val - inttIter f t (j.val - 2 ^ (t + 1))) ⟨zl, zu⟩⟩
        rw [mont_const_cast _ zc, es, Int.cast_sub, i1 j, e]
        ring
    exact ⟨fun j => (key j).1, fun j hj => (key ⟨j, hj⟩).2⟩

theorem slot_sigma (j : Fin 256) : slot j.val < 256 ∧ ∀ h : slot j.val < 256, sigma ⟨slot j.val, h⟩ = j := by
  revert j
  decide +kernel

theorem intt_ok (a : Coeffs) (g : Poly) (h : I16 a) (hg : toPoly a = lay sigma g) :
    Bnd 26632 (intt a) ∧ toPoly (intt a) = fun i => 2 ^ 16 * Spec.MlKem.intt g i := by
  have key := inttIter_ok (f := fun p => lanes a (slot p)) (g := g) (fun j => by
    obtain ⟨hs, e⟩ := slot_sigma j
    show ((lanes a (slot j.val)).toInt : Fq) = g j
    rw [lanes_val h hs]
    have := congrFun hg ⟨slot j.val, hs⟩
    unfold lay at this
    rw [e hs] at this
    exact this) 7 (le_refl _)
  refine ⟨⟨arr_length _ _, fun x hx => ?_⟩, ?_⟩
  · obtain ⟨i, hi, rfl⟩ := arr_mem hx
    have b := key.2 i hi
    have := bdI_fin i hi
    omega
  · unfold intt
    rw [toPoly_arr256]
    funext i
    exact key.1 i

/-! ### Products -/

/-- The table of `mulcache`: the power of 17 of a pair of places, negated in odd blocks. -/
theorem cache_table : ∀ m < 256, m / 16 % 2 = 0 →
    (qdata.getD (496 + 16 * ((16 * (m / 32) + m % 16) / 32) + (16 * (m / 32) + m % 16) % 16) 0 -
      (if m / 32 % 2 = 0 then 1 else -1) * (17 ^ (2 * bitRev7 (place m / 2) + 1) * 65536)) % 3329 = 0 ∧
    -32768 ≤ qdata.getD (496 + 16 * ((16 * (m / 32) + m % 16) / 32) + (16 * (m / 32) + m % 16) % 16) 0 ∧
    qdata.getD (496 + 16 * ((16 * (m / 32) + m % 16) / 32) + (16 * (m / 32) + m % 16) % 16) 0 ≤ 32767 := by
  decide +kernel

theorem place_pair : ∀ m < 256, m / 16 % 2 = 0 → 32 * (m / 32) + m % 16 = m ∧ place m % 2 = 0 ∧ m + 16 < 256 ∧ place (m + 16) = place m + 1 ∧
    32 * ((16 * (m / 32) + m % 16) / 16) + 16 + (16 * (m / 32) + m % 16) % 16 = m + 16 ∧ 16 * (m / 32) + m % 16 < 128 := by
  decide +kernel

theorem place_odd : ∀ m < 256, m / 16 % 2 ≠ 0 → 32 * (m / 32) + m % 16 + 16 = m ∧ place m % 2 = 1 ∧
    place (32 * (m / 32) + m % 16) = place m - 1 := by
  decide +kernel

theorem montA (x : Lane) {z : Lane} (h : 0 ≤ z.toInt ∧ z.toInt < 4096) : -3713 ≤ (mont x z).toInt ∧ (mont x z).toInt ≤ 3713 := by
  have := mont_bound x z (B := 4095) (by omega)
  omega

/-- One product. -/
theorem basemul1_ok {a b : Coeffs} {f g : Poly} (ha : Uns 4096 a) (hb : I16 b) (ea : toPoly a = lay sigma f) (eb : toPoly b = lay sigma g)
    (m : Fin 256) : -7426 ≤ (basemul1 a b (mulcache b) m.val).toInt ∧ (basemul1 a b (mulcache b) m.val).toInt ≤ 7426 ∧
      2 ^ 16 * ((basemul1 a b (mulcache b) m.val).toInt : Fq) = mulNTT f g (sigma m) := by
  have hai := ha.i16 (by decide)
  have A : ∀ i : Fin 256, ((lanes a i.val).toInt : Fq) = f (sigma i) := fun i => by
    rw [lanes_val hai i.isLt]
    exact congrFun ea i
  have B : ∀ i : Fin 256, ((lanes b i.val).toInt : Fq) = g (sigma i) := fun i => by
    rw [lanes_val hb i.isLt]
    exact congrFun eb i
  have U : ∀ i < 256, 0 ≤ (lanes a i).toInt ∧ (lanes a i).toInt < 4096 := fun i hi => by
    rw [lanes_val hai hi]
    exact ha.2 _ (getD_mem (by rw [ha.1]; exact hi))
  obtain ⟨m, hm⟩ := m
  unfold basemul1 mulNTT
  simp only
  by_cases hp : m / 16 % 2 = 0
  · obtain ⟨p1, p2, p3, p4, p5, p6⟩ := place_pair m hm hp
    obtain ⟨q1, q2, q3⟩ := cache_table m hm hp
    rw [if_pos hp, p1, if_pos (show (sigma ⟨m, hm⟩).val % 2 = 0 from p2)]
    have s0 : idx (2 * ((sigma ⟨m, hm⟩).val / 2)) = sigma ⟨m, hm⟩ := Fin.ext (by
      rw [idx_val (by have := (sigma ⟨m, hm⟩).isLt; omega)]
      show 2 * (place m / 2) = place m
      omega)
    have s1 : idx (2 * ((sigma ⟨m, hm⟩).val / 2) + 1) = sigma ⟨m + 16, p3⟩ := Fin.ext (by
      have h1 := (sigma ⟨m + 16, p3⟩).isLt
      have h2 : (sigma ⟨m + 16, p3⟩).val = place m + 1 := p4
      have h3 : (sigma ⟨m, hm⟩).val = place m := rfl
      rw [idx_val (by omega), h2, h3]
      omega)
    rw [s0, s1]
    have b1 := montA (lanes (mulcache b) (16 * (m / 32) + m % 16)) (U (m + 16) p3)
    have b2 := montA (lanes b m) (U m hm)
    have e1 := mont_cast (lanes (mulcache b) (16 * (m / 32) + m % 16)) (lanes a (m + 16))
    have e2 := mont_cast (lanes b m) (lanes a m)
    have ec : ((lanes (mulcache b) (16 * (m / 32) + m % 16)).toInt : Fq) =
        (if m / 32 % 2 = 0 then 1 else -1) * zeta ^ (2 * bitRev7 ((sigma ⟨m, hm⟩).val / 2) + 1) * g (sigma ⟨m + 16, p3⟩) := by
      unfold lanes mulcache
      rw [arr_get 128 _ p6, BitVec.ofInt_toInt, p5]
      rw [mont_const_cast (w := (if m / 32 % 2 = 0 then 1 else -1) * zeta ^ (2 * bitRev7 ((sigma ⟨m, hm⟩).val / 2) + 1))]
      · rw [B ⟨m + 16, p3⟩]
      · rw [toInt_of ⟨q2, q3⟩, cast_dvd q1]
        have h3 : (sigma ⟨m, hm⟩).val = place m := rfl
        rw [h3]
        unfold zeta
        split <;> push_cast <;> norm_num
    rw [A ⟨m + 16, p3⟩, ec] at e1
    rw [A ⟨m, hm⟩, B ⟨m, hm⟩] at e2
    generalize mont (lanes (mulcache b) (16 * (m / 32) + m % 16)) (lanes a (m + 16)) = x at b1 e1
    generalize mont (lanes b m) (lanes a m) = y at b2 e2
    by_cases hs : m / 32 % 2 = 0
    · simp only [if_pos hs] at e1 ⊢
      obtain ⟨es, lo, hi⟩ := addB b1 b2 (by decide)
      refine ⟨lo, hi, ?_⟩
      rw [es, Int.cast_add]
      linear_combination e1 + e2
    · simp only [if_neg hs] at e1 ⊢
      have en := neg_val (x := x) (by omega)
      obtain ⟨es, lo, hi⟩ := addB (x := -x) (B := 3713) (by omega) b2 (by decide)
      refine ⟨lo, hi, ?_⟩
      rw [es, en, Int.cast_add, Int.cast_neg]
      linear_combination -e1 + e2
  · obtain ⟨p1, p2, p3⟩ := place_odd m hm hp
    have hn : 32 * (m / 32) + m % 16 < 256 := by omega
    rw [if_neg hp, p1, if_neg (show ¬(sigma ⟨m, hm⟩).val % 2 = 0 by show ¬place m % 2 = 0; omega)]
    generalize hn' : 32 * (m / 32) + m % 16 = n at hn p1 p3
    have s1 : idx (2 * ((sigma ⟨m, hm⟩).val / 2) + 1) = sigma ⟨m, hm⟩ := Fin.ext (by
      have h3 : (sigma ⟨m, hm⟩).val = place m := rfl
      have := (sigma ⟨m, hm⟩).isLt
      rw [idx_val (by omega), h3]
      omega)
    have s0 : idx (2 * ((sigma ⟨m, hm⟩).val / 2)) = sigma ⟨n, hn⟩ := Fin.ext (by
      have h2 : (sigma ⟨n, hn⟩).val = place m - 1 := p3
      have h3 : (sigma ⟨m, hm⟩).val = place m := rfl
      have := (sigma ⟨m, hm⟩).isLt
      rw [idx_val (by omega), h2, h3]
      omega)
    rw [s0, s1]
    obtain ⟨es, lo, hi⟩ := addB (montA (lanes b n) (U m hm)) (montA (lanes b m) (U n hn)) (by decide)
    refine ⟨lo, hi, ?_⟩
    rw [es, Int.cast_add, mul_add, mont_cast, mont_cast, A ⟨m, hm⟩, A ⟨n, hn⟩, B ⟨m, hm⟩, B ⟨n, hn⟩]
    ring

theorem basemul_ok (a0 a1 a2 b0 b1 b2 : Coeffs) (f g : Vec) (ha0 : Uns 4096 a0) (ha1 : Uns 4096 a1) (ha2 : Uns 4096 a2) (hb0 : I16 b0)
    (hb1 : I16 b1) (hb2 : I16 b2) (e0 : toPoly a0 = lay sigma (f 0)) (e1 : toPoly a1 = lay sigma (f 1)) (e2 : toPoly a2 = lay sigma (f 2))
    (d0 : toPoly b0 = lay sigma (g 0)) (d1 : toPoly b1 = lay sigma (g 1)) (d2 : toPoly b2 = lay sigma (g 2)) :
    I16 (basemul [a0, a1, a2] [b0, b1, b2] [mulcache b0, mulcache b1, mulcache b2]) ∧
    (fun i => 2 ^ 16 * toPoly (basemul [a0, a1, a2] [b0, b1, b2] [mulcache b0, mulcache b1, mulcache b2]) i) = lay sigma (dot f g) := by
  refine ⟨arr_i16 _, ?_⟩
  unfold basemul
  rw [toPoly_arr256]
  funext i
  obtain ⟨l0, u0, c0⟩ := basemul1_ok ha0 hb0 e0 d0 i
  obtain ⟨l1, u1, c1⟩ := basemul1_ok ha1 hb1 e1 d1 i
  obtain ⟨l2, u2, c2⟩ := basemul1_ok ha2 hb2 e2 d2 i
  show 2 ^ 16 * (((basemul1 a0 b0 (mulcache b0) i.val + basemul1 a1 b1 (mulcache b1) i.val + basemul1 a2 b2 (mulcache b2) i.val).toInt : Int) : Fq) =
    mulNTT (f 0) (g 0) (sigma i) + mulNTT (f 1) (g 1) (sigma i) + mulNTT (f 2) (g 2) (sigma i)
  obtain ⟨s1, r1, r2⟩ := addB ⟨l0, u0⟩ ⟨l1, u1⟩ (by decide)
  obtain ⟨s2, -, -⟩ := addB ⟨r1, r2⟩ ⟨l2, u2⟩ (by decide)
  rw [s2, s1, ← c0, ← c1, ← c2]
  push_cast
  ring

end Verif.MlKem.X86
