import Verif.Proof.MlKemSample

/-!
What is assumed of the ML-KEM assembly, stated against the standard's definitions, and what follows for the
arithmetic of `mid/mlkem768.rs`.

The bounds are those under which the assembly is specified by its authors (s2n-bignum and mlkem-native): a forward
transform of coefficients below `q` in absolute value gives coefficients below `8q`, an inverse transform always gives
coefficients below `8q`, `tomont` gives coefficients below `q`, `basemul` takes an unsigned 12-bit first operand.
`sigma` is the order in which a back end keeps the coefficients of a transform (the identity on aarch64, a fixed
permutation on x86_64).
-/
namespace Verif.MlKem
open Verif Verif.Spec.MlKem

/-- The residues of a coefficient array. -/
def toPoly (a : Coeffs) : Poly := fun i => ((a.getD i.val 0 : Int) : Fq)
/-- A polynomial in a back end's order. -/
def lay (σ : Fin 256 → Fin 256) (f : Poly) : Poly := fun i => f (σ i)
/-- A list of numbers in a back end's order. -/
def layL (σ : Fin 256 → Fin 256) (l : List Nat) : Coeffs := List.ofFn fun i => ((l.getD (σ i).val 0 : Nat) : Int)

/-- 256 coefficients strictly between `-B` and `B`. -/
def Bnd (B : Int) (a : Coeffs) : Prop := a.length = 256 ∧ ∀ x ∈ a, -B < x ∧ x < B
/-- 256 coefficients in `[0, B)`. -/
def Uns (B : Int) (a : Coeffs) : Prop := a.length = 256 ∧ ∀ x ∈ a, 0 ≤ x ∧ x < B
/-- 256 `i16`s. -/
def I16 (a : Coeffs) : Prop := a.length = 256 ∧ ∀ x ∈ a, -32768 ≤ x ∧ x ≤ 32767

/-- The assumptions on the assembly. -/
structure Contract (A : Asm) (σ : Fin 256 → Fin 256) : Prop where
  ntt : ∀ a, Bnd 3329 a → Bnd 26632 (A.ntt a) ∧ toPoly (A.ntt a) = lay σ (Spec.MlKem.ntt (toPoly a))
  intt : ∀ a g, I16 a → toPoly a = lay σ g →
    Bnd 26632 (A.intt a) ∧ toPoly (A.intt a) = fun i => 2 ^ 16 * Spec.MlKem.intt g i
  reduce : ∀ a, I16 a → Uns 3329 (A.reduce a) ∧ toPoly (A.reduce a) = toPoly a
  tomont : ∀ a, I16 a → Bnd 3329 (A.tomont a) ∧ toPoly (A.tomont a) = fun i => 2 ^ 16 * toPoly a i
  basemul : ∀ (a0 a1 a2 b0 b1 b2 : Coeffs) (f g : Vec), Uns 4096 a0 → Uns 4096 a1 → Uns 4096 a2 → I16 b0 → I16 b1 →
    I16 b2 → toPoly a0 = lay σ (f 0) → toPoly a1 = lay σ (f 1) → toPoly a2 = lay σ (f 2) → toPoly b0 = lay σ (g 0) →
    toPoly b1 = lay σ (g 1) → toPoly b2 = lay σ (g 2) →
    I16 (A.basemul [a0, a1, a2] [b0, b1, b2] [A.mulcache b0, A.mulcache b1, A.mulcache b2]) ∧
    (fun i => 2 ^ 16 * toPoly (A.basemul [a0, a1, a2] [b0, b1, b2] [A.mulcache b0, A.mulcache b1, A.mulcache b2]) i) =
      lay σ (dot f g)
  unpack : ∀ l : List Nat, l.length = 256 → (∀ x ∈ l, x < 4096) → A.unpack (ints l) = layL σ l
  tobytes : ∀ l : List Nat, l.length = 256 → (∀ x ∈ l, x < 4096) → A.tobytes (layL σ l) = byteEncode 12 l
  frombytes : ∀ B : Bytes, B.length = 384 → A.frombytes B = layL σ (rawDecode 12 B)
  rej : RejOk A

/-! ### Lists and polynomials -/

theorem getD_mem {a : Coeffs} {i : Nat} (h : i < a.length) : a.getD i 0 ∈ a := by
  rw [List.getD_eq_getElem?_getD, List.getElem?_eq_getElem h]
  exact List.getElem_mem h

theorem layL_uns (σ : Fin 256 → Fin 256) (l : List Nat) (B : Nat) (hl : l.length = 256) (h : ∀ x ∈ l, x < B) :
    Uns B (layL σ l) := by
  refine ⟨List.length_ofFn, fun x hx => ?_⟩
  rw [layL, List.mem_ofFn] at hx
  obtain ⟨i, rfl⟩ := hx
  have := h (l.getD (σ i).val 0) (by
    rw [List.getD_eq_getElem?_getD, List.getElem?_eq_getElem (by rw [hl]; exact (σ i).isLt)]
    exact List.getElem_mem _)
  omega

theorem toPoly_layL (σ : Fin 256 → Fin 256) (l : List Nat) : toPoly (layL σ l) = lay σ (ofCoeffs l) := by
  funext i
  simp only [toPoly, layL, lay, ofCoeffs]
  rw [List.getD_eq_getElem?_getD, List.getElem?_ofFn, dif_pos i.isLt]
  simp

theorem toPoly_ints (l : List Nat) : toPoly (ints l) = ofCoeffs l := by
  funext i
  simp only [toPoly, ints, ofCoeffs]
  rw [List.getD_eq_getElem?_getD, List.getD_eq_getElem?_getD, List.getElem?_map]
  cases l[i.val]? <;> simp

theorem coeffs_length (f : Poly) : (coeffs f).length = 256 := List.length_ofFn
theorem coeffs_lt (f : Poly) : ∀ x ∈ coeffs f, x < 3329 := by
  intro x hx
  rw [coeffs, List.mem_ofFn] at hx
  obtain ⟨i, rfl⟩ := hx
  exact ZMod.val_lt _

theorem ofCoeffs_coeffs (f : Poly) : ofCoeffs (coeffs f) = f := by
  funext i
  rw [ofCoeffs, coeffs, List.getD_eq_getElem?_getD, List.getElem?_ofFn, dif_pos i.isLt]
  simp

/-- A reduced array is determined by its residues. -/
theorem uns_ext {a b : Coeffs} (ha : Uns 3329 a) (hb : Uns 3329 b) (h : toPoly a = toPoly b) : a = b := by
  refine List.ext_getElem (ha.1.trans hb.1.symm) fun i h1 h2 => ?_
  have hi : i < 256 := by rw [← ha.1]; exact h1
  have e := congrFun h ⟨i, hi⟩
  simp only [toPoly] at e
  rw [List.getD_eq_getElem?_getD, List.getElem?_eq_getElem h1, List.getD_eq_getElem?_getD, List.getElem?_eq_getElem h2] at e
  simp only [Option.getD_some] at e
  have e' := (ZMod.intCast_eq_intCast_iff_dvd_sub _ _ 3329).1 e
  have ra := ha.2 _ (List.getElem_mem h1)
  have rb := hb.2 _ (List.getElem_mem h2)
  push_cast at e'
  omega

theorem uns_layL {σ : Fin 256 → Fin 256} {a : Coeffs} {g : Poly} (ha : Uns 3329 a) (h : toPoly a = lay σ g) :
    a = layL σ (coeffs g) :=
  uns_ext ha (by exact_mod_cast layL_uns σ _ 3329 (coeffs_length g) (coeffs_lt g)) (by
    rw [h, toPoly_layL, ofCoeffs_coeffs])

/-- A reduced array in natural order. -/
theorem uns_coeffs {a : Coeffs} (ha : Uns 3329 a) : a.map Int.toNat = coeffs (toPoly a) := by
  refine List.ext_getElem (by rw [List.length_map, ha.1, coeffs_length]) fun i h1 h2 => ?_
  rw [List.length_map] at h1
  simp only [List.getElem_map, coeffs, List.getElem_ofFn, toPoly]
  rw [List.getD_eq_getElem?_getD, List.getElem?_eq_getElem h1, Option.getD_some]
  have ra := ha.2 _ (List.getElem_mem h1)
  have e : ((a[i] : Int) : Fq) = ((a[i].toNat : Nat) : Fq) := by
    rw [← Int.cast_natCast, Int.toNat_of_nonneg ra.1]
  rw [e, ZMod.val_natCast, Nat.mod_eq_of_lt (by omega)]

theorem Uns.red {a : Coeffs} (h : Uns 3329 a) : Red a := h.2
theorem Uns.i16 {B : Int} {a : Coeffs} (h : Uns B a) (hB : B ≤ 32768) : I16 a :=
  ⟨h.1, fun x hx => by have := h.2 x hx; omega⟩
theorem Uns.mono {B C : Int} {a : Coeffs} (h : Uns B a) (hB : B ≤ C) : Uns C a :=
  ⟨h.1, fun x hx => by have := h.2 x hx; omega⟩
theorem Uns.bnd {B : Int} {a : Coeffs} (h : Uns B a) : Bnd B a := ⟨h.1, fun x hx => by have := h.2 x hx; omega⟩
theorem Bnd.i16 {B : Int} {a : Coeffs} (h : Bnd B a) (hB : B ≤ 32768) : I16 a :=
  ⟨h.1, fun x hx => by have := h.2 x hx; omega⟩
theorem Bnd.mono {B C : Int} {a : Coeffs} (h : Bnd B a) (hB : B ≤ C) : Bnd C a :=
  ⟨h.1, fun x hx => by have := h.2 x hx; omega⟩

/-! ### Additions that stay in range -/

theorem mapM_i16 (op : Int → Int → Int) (l : List (Int × Int)) (h : ∀ p ∈ l, -32768 ≤ op p.1 p.2 ∧ op p.1 p.2 ≤ 32767) :
    (l.mapM fun (p : Int × Int) => i16 (op p.1 p.2)) = some (l.map fun p => op p.1 p.2) := by
  induction l with
  | nil => rfl
  | cons p l ih =>
    rw [List.mapM_cons, ih fun q hq => h q (by simp [hq]), i16, if_pos (h p (by simp))]
    rfl

theorem zip_mem {a b : Coeffs} {p : Int × Int} (h : p ∈ a.zip b) : p.1 ∈ a ∧ p.2 ∈ b := List.of_mem_zip h

theorem toPoly_zip (op : Int → Int → Int) (op' : Fq → Fq → Fq) (hop : ∀ x y : Int, ((op x y : Int) : Fq) = op' x y) (a b : Coeffs)
    (ha : a.length = 256) (hb : b.length = 256) :
    toPoly ((a.zip b).map fun p => op p.1 p.2) = fun i => op' (toPoly a i) (toPoly b i) := by
  funext i
  have h1 : i.val < a.length := by rw [ha]; exact i.isLt
  have h2 : i.val < b.length := by rw [hb]; exact i.isLt
  simp only [toPoly]
  rw [List.getD_eq_getElem?_getD, List.getD_eq_getElem?_getD, List.getD_eq_getElem?_getD,
    List.getElem?_eq_getElem (by rw [List.length_map, List.length_zip]; omega), List.getElem?_eq_getElem h1,
    List.getElem?_eq_getElem h2]
  simp [hop]

theorem addInto_ok {a b : Coeffs} (ha : a.length = 256) (hb : b.length = 256)
    (h : ∀ x ∈ a, ∀ y ∈ b, -32768 ≤ x + y ∧ x + y ≤ 32767) :
    ∃ r, addInto a b = some r ∧ I16 r ∧ toPoly r = toPoly a + toPoly b := by
  refine ⟨(a.zip b).map fun p => p.1 + p.2, ?_, ⟨?_, ?_⟩, ?_⟩
  · exact mapM_i16 (· + ·) _ fun p hp => h _ (zip_mem hp).1 _ (zip_mem hp).2
  · rw [List.length_map, List.length_zip, ha, hb]; rfl
  · intro x hx
    rw [List.mem_map] at hx
    obtain ⟨p, hp, rfl⟩ := hx
    exact h _ (zip_mem hp).1 _ (zip_mem hp).2
  · exact toPoly_zip (· + ·) (· + ·) (by intros; push_cast; rfl) a b ha hb

theorem subFrom_ok {a b : Coeffs} (ha : a.length = 256) (hb : b.length = 256)
    (h : ∀ x ∈ a, ∀ y ∈ b, -32768 ≤ x - y ∧ x - y ≤ 32767) :
    ∃ r, subFrom a b = some r ∧ I16 r ∧ toPoly r = toPoly a - toPoly b := by
  refine ⟨(a.zip b).map fun p => p.1 - p.2, ?_, ⟨?_, ?_⟩, ?_⟩
  · exact mapM_i16 (· - ·) _ fun p hp => h _ (zip_mem hp).1 _ (zip_mem hp).2
  · rw [List.length_map, List.length_zip, ha, hb]; rfl
  · intro x hx
    rw [List.mem_map] at hx
    obtain ⟨p, hp, rfl⟩ := hx
    exact h _ (zip_mem hp).1 _ (zip_mem hp).2
  · exact toPoly_zip (· - ·) (· - ·) (by intros; push_cast; rfl) a b ha hb

theorem addBnd {a b : Coeffs} {B C : Int} (ha : Bnd B a) (hb : Bnd C b) (h : B + C ≤ 32769) :
    ∃ r, addInto a b = some r ∧ I16 r ∧ toPoly r = toPoly a + toPoly b :=
  addInto_ok ha.1 hb.1 fun x hx y hy => by
    have := ha.2 x hx
    have := hb.2 y hy
    omega

/-! ### The transforms are linear -/

theorem inttLayer_smul (c : Fq) (len : Nat) (f : Poly) : inttLayer len (fun i => c * f i) = fun i => c * inttLayer len f i := by
  funext j
  simp only [inttLayer]
  split
  · ring
  · ring

theorem intt_smul (c : Fq) (f : Poly) : Spec.MlKem.intt (fun i => c * f i) = fun i => c * Spec.MlKem.intt f i := by
  funext j
  simp only [Spec.MlKem.intt, List.foldl_cons, List.foldl_nil, inttLayer_smul]
  ring

theorem pow16_inv : (2 ^ 16 : Fq) * 169 = 1 := by decide

/-! ### The arithmetic of the code -/

section
variable {A : Asm} {σ : Fin 256 → Fin 256} (h : Contract A σ)
include h

/-- What a back end holds for the transform `g`, reduced. -/
theorem reduce_layL {a : Coeffs} {g : Poly} (ha : I16 a) (e : toPoly a = lay σ g) : A.reduce a = layL σ (coeffs g) := by
  obtain ⟨h1, h2⟩ := h.reduce a ha
  exact uns_layL h1 (h2.trans e)

theorem layL_coeffs (g : Poly) : Uns 3329 (layL σ (coeffs g)) ∧ toPoly (layL σ (coeffs g)) = lay σ g :=
  ⟨by exact_mod_cast layL_uns σ _ 3329 (coeffs_length g) (coeffs_lt g), by rw [toPoly_layL, ofCoeffs_coeffs]⟩

/-- The product of reduced transforms and 16-bit transforms. -/
theorem basemul_ok (f g : Vec) (b0 b1 b2 : Coeffs) (h0 : I16 b0) (h1 : I16 b1) (h2 : I16 b2)
    (e0 : toPoly b0 = lay σ (g 0)) (e1 : toPoly b1 = lay σ (g 1)) (e2 : toPoly b2 = lay σ (g 2)) :
    I16 (A.basemul [layL σ (coeffs (f 0)), layL σ (coeffs (f 1)), layL σ (coeffs (f 2))] [b0, b1, b2] (mulCache A [b0, b1, b2])) ∧
    toPoly (A.basemul [layL σ (coeffs (f 0)), layL σ (coeffs (f 1)), layL σ (coeffs (f 2))] [b0, b1, b2]
      (mulCache A [b0, b1, b2])) = lay σ fun i => 169 * dot f g i := by
  obtain ⟨u0, p0⟩ := layL_coeffs h (f 0)
  obtain ⟨u1, p1⟩ := layL_coeffs h (f 1)
  obtain ⟨u2, p2⟩ := layL_coeffs h (f 2)
  obtain ⟨r1, r2⟩ := h.basemul _ _ _ b0 b1 b2 f g (u0.mono (by decide)) (u1.mono (by decide)) (u2.mono (by decide)) h0 h1 h2
    p0 p1 p2 e0 e1 e2
  refine ⟨r1, ?_⟩
  funext i
  have e := congrFun r2 i
  simp only [lay] at e ⊢
  rw [← e]
  show _ = 169 * (2 ^ 16 * toPoly (A.basemul _ _ [_, _, _]) i)
  rw [← mul_assoc, mul_comm (169 : Fq), pow16_inv, one_mul]
  rfl

/-- One row of `mul_add`. -/
theorem mulAddRow_ok (f g : Vec) (b0 b1 b2 : Coeffs) (h0 : I16 b0) (h1 : I16 b1) (h2 : I16 b2)
    (e0 : toPoly b0 = lay σ (g 0)) (e1 : toPoly b1 = lay σ (g 1)) (e2 : toPoly b2 = lay σ (g 2)) (rr : Coeffs) (e : Poly)
    (hr : Bnd 26632 rr) (er : toPoly rr = lay σ e) :
    ∃ r, mulAddRow A [b0, b1, b2] [layL σ (coeffs (f 0)), layL σ (coeffs (f 1)), layL σ (coeffs (f 2))] rr = some r ∧
      I16 r ∧ toPoly r = lay σ (dot f g + e) := by
  obtain ⟨m1, m2⟩ := basemul_ok h f g b0 b1 b2 h0 h1 h2 e0 e1 e2
  obtain ⟨t1, t2⟩ := h.tomont _ m1
  obtain ⟨r, r1, r2, r3⟩ := addBnd hr t1 (by decide)
  refine ⟨r, r1, r2, ?_⟩
  rw [r3, t2, m2, er]
  funext i
  simp only [Pi.add_apply, lay]
  rw [← mul_assoc, pow16_inv, one_mul, add_comm]

/-- A product brought back by the inverse transform. -/
theorem vecMulIntt_ok (f g : Vec) (b0 b1 b2 : Coeffs) (h0 : I16 b0) (h1 : I16 b1) (h2 : I16 b2)
    (e0 : toPoly b0 = lay σ (g 0)) (e1 : toPoly b1 = lay σ (g 1)) (e2 : toPoly b2 = lay σ (g 2)) :
    Bnd 26632 (vecMulIntt A [layL σ (coeffs (f 0)), layL σ (coeffs (f 1)), layL σ (coeffs (f 2))] [b0, b1, b2]) ∧
    toPoly (vecMulIntt A [layL σ (coeffs (f 0)), layL σ (coeffs (f 1)), layL σ (coeffs (f 2))] [b0, b1, b2]) =
      Spec.MlKem.intt (dot f g) := by
  obtain ⟨m1, m2⟩ := basemul_ok h f g b0 b1 b2 h0 h1 h2 e0 e1 e2
  obtain ⟨r1, r2⟩ := h.intt _ _ m1 m2
  refine ⟨r1, ?_⟩
  rw [vecMulIntt, r2, intt_smul]
  funext i
  rw [← mul_assoc, pow16_inv, one_mul]

/-- The same with the reduction of the matrix form. -/
theorem rowMulIntt_ok (f g : Vec) (b0 b1 b2 : Coeffs) (h0 : I16 b0) (h1 : I16 b1) (h2 : I16 b2)
    (e0 : toPoly b0 = lay σ (g 0)) (e1 : toPoly b1 = lay σ (g 1)) (e2 : toPoly b2 = lay σ (g 2)) :
    ∃ r, addInto (List.replicate N 0) (A.basemul [layL σ (coeffs (f 0)), layL σ (coeffs (f 1)), layL σ (coeffs (f 2))]
        [b0, b1, b2] (mulCache A [b0, b1, b2])) = some r ∧
      Bnd 26632 (A.intt (A.reduce r)) ∧ toPoly (A.intt (A.reduce r)) = Spec.MlKem.intt (dot f g) := by
  obtain ⟨m1, m2⟩ := basemul_ok h f g b0 b1 b2 h0 h1 h2 e0 e1 e2
  obtain ⟨r, r1, r2, r3⟩ := addInto_ok (a := List.replicate N 0) (List.length_replicate ..) m1.1 (by
    intro x hx y hy
    rw [List.mem_replicate] at hx
    have := m1.2 y hy
    omega)
  obtain ⟨q1, q2⟩ := h.reduce r r2
  have z : toPoly (List.replicate N 0) = 0 := by
    funext i
    rw [toPoly, List.getD_eq_getElem?_getD, List.getElem?_replicate, if_pos (show i.val < N from i.isLt)]
    exact Int.cast_zero
  obtain ⟨s1, s2⟩ := h.intt (A.reduce r) (fun i => 169 * dot f g i) (q1.i16 (by decide)) (by rw [q2, r3, z, zero_add, m2])
  refine ⟨r, r1, s1, ?_⟩
  rw [s2, intt_smul]
  funext i
  rw [← mul_assoc, pow16_inv, one_mul]

/-- `add`. -/
theorem add_ok {a b : Coeffs} {B C : Int} (ha : Bnd B a) (hb : Bnd C b) (hBC : B + C ≤ 32769) :
    ∃ r, add A a b = some r ∧ Uns 3329 r ∧ toPoly r = toPoly a + toPoly b := by
  obtain ⟨r, r1, r2, r3⟩ := addBnd ha hb hBC
  obtain ⟨q1, q2⟩ := h.reduce r r2
  exact ⟨_, by rw [add, r1]; rfl, q1, q2.trans r3⟩

theorem sub_ok {a b : Coeffs} {B C : Int} (ha : Bnd B a) (hb : Bnd C b) (hBC : B + C ≤ 32769) :
    ∃ r, sub A a b = some r ∧ Uns 3329 r ∧ toPoly r = toPoly a - toPoly b := by
  obtain ⟨r, r1, r2, r3⟩ := subFrom_ok ha.1 hb.1 fun x hx y hy => by
    have := ha.2 x hx
    have := hb.2 y hy
    omega
  obtain ⟨q1, q2⟩ := h.reduce r r2
  exact ⟨_, by rw [sub, r1]; rfl, q1, q2.trans r3⟩

/-- Reading twelve-bit fields: the standard's decoding, in the back end's order and reduced. -/
theorem frombytes_ok (B : Bytes) (hB : B.length = 384) :
    A.reduce (A.frombytes B) = layL σ (coeffs (ofCoeffs (byteDecode 12 B))) := by
  have hl : (rawDecode 12 B).length = 256 := rawDecode_length 12 (by decide) 256 B (by rw [hB])
  have hu := layL_uns σ _ 4096 hl (rawDecode_lt 12 B)
  rw [h.frombytes B hB]
  refine reduce_layL h (hu.i16 (by decide)) ?_
  rw [toPoly_layL, byteDecode_raw]
  congr 1
  funext i
  rw [ofCoeffs, ofCoeffs, List.getD_eq_getElem?_getD, List.getD_eq_getElem?_getD, List.getElem?_map]
  cases (rawDecode 12 B)[i.val]? with
  | none => rfl
  | some x => exact (ZMod.natCast_mod x 3329).symm

/-- Writing a reduced transform. -/
theorem tobytes_ok (g : Poly) : A.tobytes (layL σ (coeffs g)) = byteEncode 12 (coeffs g) :=
  h.tobytes _ (coeffs_length g) fun x hx => Nat.lt_trans (coeffs_lt g x hx) (by decide)

end

end Verif.MlKem
