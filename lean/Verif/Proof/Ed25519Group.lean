import Verif.Spec.Ed25519
import Verif.Proof.Edwards
import Mathlib.GroupTheory.OrderOfElement
import Mathlib.Data.Fintype.Option
import Mathlib.Data.Fintype.Prod
import Mathlib.FieldTheory.Finite.Basic

/-!
The points of edwards25519 form a group with `8 L` elements, in which the base point has order `L`.
-/
namespace Verif.Ed25519Group

open Verif.Spec.Ed25519 Verif.Mg Verif.Edwards

def dN : Nat := 37095705934669439343138083508754565189542113879843219016388785533085940283555
def iN : Nat := 19681161376707505956807079304988542015446066515923890162744021073123829784752
def cN : Nat := 6853475219497561581579357271197624642482790079785650197046958215289687604742

abbrev A : F := 486662
abbrev c : F := (cN : Nat)

theorem cast_eq {a b : Nat} (h : a % p = b % p) : (a : F) = b := (ZMod.natCast_eq_natCast_iff' a b p).2 h

theorem cast_ne {a b : Nat} (h : a % p ≠ b % p) : (a : F) ≠ b := fun e => h ((ZMod.natCast_eq_natCast_iff' a b p).1 e)

theorem d_eq : d = (dN : Nat) := by
  have h1 : ((121666 : Nat) : F) ≠ ((0 : Nat) : F) := cast_ne (by decide +kernel)
  have h2 : ((dN * 121666 + 121665 : Nat) : F) = ((0 : Nat) : F) := cast_eq (by decide +kernel)
  push_cast at h1 h2
  rw [d, div_eq_iff h1]
  linear_combination -h2

theorem d_ns (t : F) : t ^ 2 ≠ d := by
  intro e
  have h1 : ((dN ^ ((p - 1) / 2) : Nat) : F) ≠ ((1 : Nat) : F) := by
    refine cast_ne ?_
    have hp : Pratt.powMod dN p 255 ((p - 1) / 2) ≠ 1 := by decide +kernel
    rw [Pratt.powMod_eq _ _ _ _ (by decide +kernel)] at hp
    rwa [show 1 % p = 1 by decide +kernel]
  have ht : t ≠ 0 := by
    rintro rfl
    have : ((dN : Nat) : F) ≠ ((0 : Nat) : F) := cast_ne (by decide +kernel)
    rw [← d_eq, ← e] at this
    simp at this
  apply h1
  have := ZMod.pow_card_sub_one_eq_one ht
  rw [Nat.cast_pow, ← d_eq, ← e, ← pow_mul, show 2 * ((p - 1) / 2) = p - 1 by decide +kernel, this, Nat.cast_one]

theorem ok : Edwards.Ok A c d where
  two := by
    have : ((2 : Nat) : F) ≠ ((0 : Nat) : F) := cast_ne (by decide +kernel)
    exact_mod_cast this
  c2 := by
    have : ((cN ^ 2 + 486664 : Nat) : F) = ((0 : Nat) : F) := cast_eq (by decide +kernel)
    push_cast at this
    linear_combination this
  hd := by
    have : ((dN * 486664 + 486660 : Nat) : F) = ((0 : Nat) : F) := cast_eq (by decide +kernel)
    push_cast at this
    rw [d_eq]
    linear_combination this
  ne := by
    have : ((486664 : Nat) : F) ≠ ((0 : Nat) : F) := cast_ne (by decide +kernel)
    push_cast at this
    intro e
    exact this (by linear_combination e)
  ns := d_ns
  i := ⟨(iN : Nat), by
    have : ((iN ^ 2 + 1 : Nat) : F) = ((0 : Nat) : F) := cast_eq (by decide +kernel)
    push_cast at this
    linear_combination this⟩

/-- The group. -/
abbrev G := (M A).Point

/-- `Q` is the pair of coordinates of the element `P` of the group. -/
def Is (P : G) (Q : Point) : Prop := IsEd c P Q.1 Q.2

theorem Is.on {P : G} {Q : Point} (h : Is P Q) : OnCurve Q := IsEd.on ok h
theorem Is.exists (P : G) : ∃ Q, Is P Q := by
  obtain ⟨x, y, h⟩ := IsEd.exists ok P
  exact ⟨(x, y), h⟩
theorem Is.of_on {Q : Point} (h : OnCurve Q) : ∃ P, Is P Q := IsEd.of_on ok h
theorem Is.inj {P : G} {Q Q' : Point} (h : Is P Q) (h' : Is P Q') : Q = Q' := by
  obtain ⟨a, b⟩ := IsEd.inj ok h h'
  exact Prod.ext a b
theorem Is.ext {P P' : G} {Q : Point} (h : Is P Q) (h' : Is P' Q) : P = P' := IsEd.ext ok h h'
theorem Is.zero : Is 0 Spec.Ed25519.zero := .inl ⟨rfl, rfl, rfl⟩
theorem Is.neg {P : G} {Q : Point} (h : Is P Q) : Is (-P) (neg Q) := IsEd.neg h
theorem Is.add {P P' : G} {Q Q' : Point} (h : Is P Q) (h' : Is P' Q') : Is (P + P') (add Q Q') := IsEd.add ok h h'
theorem Is.mul {P : G} {Q : Point} (h : Is P Q) : ∀ n : Nat, Is (n • P) (mul n Q)
  | 0 => by rw [zero_nsmul]; exact Is.zero
  | n + 1 => by rw [add_nsmul, one_nsmul]; exact (Is.mul h n).add h

/-! ### Arithmetic on natural numbers -/

def sb (a b : Nat) : Nat := (a + (p - b % p)) % p

theorem sb_cast (a b : Nat) : ((sb a b : Nat) : F) = a - b := by
  have h : b % p ≤ p := (Nat.mod_lt _ (by decide +kernel)).le
  rw [sb, ZMod.natCast_mod, Nat.cast_add, Nat.cast_sub h, ZMod.natCast_self, ZMod.natCast_mod]
  ring

/-- Addition in projective coordinates. -/
def padd (P Q : Nat × Nat × Nat) : Nat × Nat × Nat :=
  let a := P.2.2 * Q.2.2 % p
  let b := a * a % p
  let c := P.1 * Q.1 % p
  let e := P.2.1 * Q.2.1 % p
  let f := dN * c % p * e % p
  let g := sb b f
  let h := b + f
  (a * g % p * (P.1 * Q.2.1 + Q.1 * P.2.1) % p, a * h % p * (e + c) % p, g * h % p)

/-- Projective coordinates of a point. -/
def Rep (P : G) (T : Nat × Nat × Nat) : Prop := ((T.2.2 : Nat) : F) ≠ 0 ∧ Is P ((T.1 : F) / (T.2.2 : F), (T.2.1 : F) / (T.2.2 : F))

theorem Rep.add {P Q : G} {S T : Nat × Nat × Nat} (h : Rep P S) (h' : Rep Q T) : Rep (P + Q) (padd S T) := by
  obtain ⟨X, Y, Z⟩ := S
  obtain ⟨X', Y', Z'⟩ := T
  obtain ⟨hz, h⟩ := h
  obtain ⟨hz', h'⟩ := h'
  dsimp only at hz hz' h h'
  have o1 := h.on
  have o2 := h'.on
  have hda := ok.den_add o1 o2
  have hds := ok.den_sub o1 o2
  have hs := h.add h'
  dsimp only at hda hds
  simp only [Spec.Ed25519.add] at hs
  have ea : d * ((X : F) / Z) * (X' / Z') * (Y / Z) * (Y' / Z') = d * X * X' * Y * Y' / (Z * Z') ^ 2 := by
    field_simp
  rw [ea] at hda hds hs
  have hzz : ((Z : F) * Z') ^ 2 ≠ 0 := pow_ne_zero 2 (mul_ne_zero hz hz')
  have hg : ((Z : F) * Z') ^ 2 - d * X * X' * Y * Y' ≠ 0 := by
    intro e
    apply hds
    rw [sub_eq_zero, eq_comm, div_eq_one_iff_eq hzz]
    linear_combination -e
  have hh : ((Z : F) * Z') ^ 2 + d * X * X' * Y * Y' ≠ 0 := by
    intro e
    apply hda
    field_simp
    linear_combination e
  simp only [Rep, padd]
  simp only [Nat.cast_mul, Nat.cast_add, sb_cast, ZMod.natCast_mod]
  rw [← d_eq]
  have e1 : (Z : F) * Z' * (Z * Z') - d * (X * X') * (Y * Y') = ((Z : F) * Z') ^ 2 - d * X * X' * Y * Y' := by ring
  have e2 : (Z : F) * Z' * (Z * Z') + d * (X * X') * (Y * Y') = ((Z : F) * Z') ^ 2 + d * X * X' * Y * Y' := by ring
  rw [e1, e2]
  refine ⟨mul_ne_zero hg hh, ?_⟩
  have k1 : 1 + d * (X : F) * X' * Y * Y' / ((Z : F) * Z') ^ 2 = (((Z : F) * Z') ^ 2 + d * X * X' * Y * Y') / ((Z : F) * Z') ^ 2 := by
    field_simp
  have k2 : 1 - d * (X : F) * X' * Y * Y' / ((Z : F) * Z') ^ 2 = (((Z : F) * Z') ^ 2 - d * X * X' * Y * Y') / ((Z : F) * Z') ^ 2 := by
    field_simp
  rw [k1, k2] at hs
  generalize ((Z : F) * Z') ^ 2 - d * X * X' * Y * Y' = u at *
  generalize ((Z : F) * Z') ^ 2 + d * X * X' * Y * Y' = v at *
  convert hs using 2
  · field_simp
  · field_simp

/-- Double-and-add over the bits of `k`, most significant first. -/
def chain (S : Nat × Nat × Nat) (k : Nat) : Nat → Nat × Nat × Nat → Nat × Nat × Nat
  | 0, T => T
  | i + 1, T => chain S k i (if k / 2 ^ i % 2 = 1 then padd (padd T T) S else padd T T)

theorem chain_rep {P : G} {S : Nat × Nat × Nat} (hS : Rep P S) (k : Nat) : ∀ (i m : Nat) (T : Nat × Nat × Nat), Rep (m • P) T →
    Rep ((m * 2 ^ i + k % 2 ^ i) • P) (chain S k i T)
  | 0, m, T, h => by
    rw [chain, pow_zero, Nat.mod_one, mul_one, add_zero]
    exact h
  | i + 1, m, T, h => by
    rw [chain]
    have e : m * 2 ^ (i + 1) + k % 2 ^ (i + 1) = (2 * m + k / 2 ^ i % 2) * 2 ^ i + k % 2 ^ i := by
      rw [Nat.pow_succ, Nat.mod_mul]; ring
    rw [e]
    have hd := h.add h
    rw [← add_nsmul, ← two_mul] at hd
    apply chain_rep hS
    by_cases hb : k / 2 ^ i % 2 = 1
    · rw [if_pos hb, hb, add_nsmul, one_nsmul]
      exact hd.add hS
    · rw [if_neg hb, show k / 2 ^ i % 2 = 0 by omega, add_zero]
      exact hd

def bx : Nat := 15112221349535400772501151409588531511454012693041857206046113283949847762202
def by' : Nat := 46316835694926478169428394003475163141307993866256225615783033603165251855960

theorem onCurve_of {x y : Nat} (h : (y * y) % p = (1 + x * x + dN * (x * x) * (y * y)) % p) : OnCurve ((x : F), (y : F)) := by
  have := cast_eq h
  push_cast at this
  rw [OnCurve, d_eq]
  dsimp only
  linear_combination this

theorem B_eq : B = (((bx : Nat) : F), ((by' : Nat) : F)) := by
  unfold B bx by'
  norm_cast

theorem B_on : OnCurve B := by
  rw [B_eq]
  exact onCurve_of (by decide +kernel)

/-- The base point as an element of the group. -/
noncomputable def g : G := (Is.of_on B_on).choose
theorem is_g : Is g B := (Is.of_on B_on).choose_spec

theorem Rep.of_affine {P : G} {x y : Nat} (h : Is P ((x : F), (y : F))) : Rep P (x, y, 1) := by
  refine ⟨by simp, ?_⟩
  simpa using h

theorem Rep.zero_of {P : G} {T : Nat × Nat × Nat} (h : Rep P T) (h1 : T.1 = 0) (h2 : T.2.1 = T.2.2) : P = 0 := by
  obtain ⟨hz, h⟩ := h
  rw [h1, h2, Nat.cast_zero, zero_div, div_self hz] at h
  exact h.ext Is.zero

theorem chain_L : (fun T : Nat × Nat × Nat => T.1 = 0 ∧ T.2.1 = T.2.2) (chain (bx, by', 1) L 252 (bx, by', 1)) := by
  decide +kernel

theorem L_smul_g : L • g = 0 := by
  have hg := is_g
  rw [B_eq] at hg
  have hr := Rep.of_affine hg
  have := chain_rep hr L 252 1 _ (by rw [one_nsmul]; exact hr)
  rw [show 1 * 2 ^ 252 + L % 2 ^ 252 = L by decide +kernel] at this
  exact this.zero_of chain_L.1 chain_L.2

theorem g_ne : g ≠ 0 := by
  intro e
  have h := is_g
  rw [e] at h
  have := h.inj Is.zero
  rw [B_eq, Spec.Ed25519.zero] at this
  have h2 := congrArg Prod.fst this
  have : ((bx : Nat) : F) ≠ ((0 : Nat) : F) := cast_ne (by decide +kernel)
  exact this (by simpa using h2)

theorem order_g : addOrderOf g = L := addOrderOf_eq_prime L_smul_g g_ne

theorem smul_g_inj {a b : Nat} (ha : a < L) (hb : b < L) (h : a • g = b • g) : a = b := by
  have := (nsmul_inj_mod (x := g) (n := a) (m := b)).1 h
  rw [order_g, Nat.mod_eq_of_lt ha, Nat.mod_eq_of_lt hb] at this
  exact this

theorem mod_smul_g (a : Nat) : (a % L) • g = a • g := by
  rw [← order_g]; exact mod_addOrderOf_nsmul g a

/-! ### The number of points -/

def qx : Nat := 43496726750457979451437558183816721346016168361625936758514574428539776020131
def qy : Nat := 2707385501144840649318225287225658788936804267575313519463743609750303402022

theorem exists_order_eight : ∃ Q : G, addOrderOf Q = 8 := by
  obtain ⟨Q, hQ⟩ := Is.of_on (onCurve_of (x := qx) (y := qy) (by decide +kernel))
  have hr := Rep.of_affine hQ
  have h4 := chain_rep hr 4 2 1 _ (by rw [one_nsmul]; exact hr)
  have h8 := chain_rep hr 8 3 1 _ (by rw [one_nsmul]; exact hr)
  refine ⟨Q, ?_⟩
  have : Fact (Nat.Prime 2) := ⟨Nat.prime_two⟩
  refine addOrderOf_eq_prime_pow (p := 2) (n := 2) ?_ ?_
  · intro e
    rw [show 2 ^ 2 = 1 * 2 ^ 2 + 4 % 2 ^ 2 by decide] at e
    rw [e] at h4
    have hz := h4.1
    have := congrArg Prod.snd (h4.2.inj Is.zero)
    dsimp only [Spec.Ed25519.zero] at this
    rw [div_eq_one_iff_eq hz] at this
    exact cast_ne (by decide +kernel) this
  · exact (show (2 ^ (2 + 1) : Nat) = 1 * 2 ^ 3 + 8 % 2 ^ 3 by decide) ▸ h8.zero_of (by decide +kernel) (by decide +kernel)

open Classical in
/-- A finite point is known by its first coordinate and a bit. -/
noncomputable def code (P : G) : Option (F × Bool) :=
  if h : P ≠ 0 then
    let x := (exists_isPt h).choose
    let y := (exists_isPt h).choose_spec.choose
    some (x, if hx : ∃ y', y' ^ 2 = x ^ 3 + A * x ^ 2 + x then decide (y = hx.choose) else true)
  else none

theorem code_injective : Function.Injective code := by
  intro P Q h
  by_cases hP : P = 0
  · by_cases hQ : Q = 0
    · rw [hP, hQ]
    · simp [code, hP, hQ] at h
  by_cases hQ : Q = 0
  · simp [code, hP, hQ] at h
  have h1 := (exists_isPt hP).choose_spec.choose_spec
  have h2 := (exists_isPt hQ).choose_spec.choose_spec
  rw [code, code, dif_pos hP, dif_pos hQ] at h
  dsimp only at h
  generalize (exists_isPt hP).choose_spec.choose = y1 at *
  generalize (exists_isPt hQ).choose_spec.choose = y2 at *
  generalize (exists_isPt hP).choose = x1 at *
  generalize (exists_isPt hQ).choose = x2 at *
  obtain ⟨e, h⟩ := Prod.ext_iff.1 (Option.some.inj h)
  dsimp only at e h
  subst e
  have hx : ∃ y', y' ^ 2 = x1 ^ 3 + A * x1 ^ 2 + x1 := ⟨y1, h1.eqn⟩
  rw [dif_pos hx, dif_pos hx] at h
  have hs := hx.choose_spec
  generalize hx.choose = s at *
  have e1 := h1.eqn
  have e2 := h2.eqn
  have k1 : y1 = s ∨ y1 = -s := sq_eq_sq_iff_eq_or_eq_neg.1 (by rw [e1, hs])
  have k2 : y2 = s ∨ y2 = -s := sq_eq_sq_iff_eq_or_eq_neg.1 (by rw [e2, hs])
  have hiff : y1 = s ↔ y2 = s := by simpa using h
  have : y1 = y2 := by
    rcases k1 with k1 | k1
    · rw [k1, hiff.1 k1]
    · rcases k2 with k2 | k2
      · rw [k2, hiff.2 k2]
      · rw [k1, k2]
  subst this
  exact h1.ext h2

instance : Finite G := Finite.of_injective _ code_injective

theorem card_le : Nat.card G ≤ 2 * p + 1 := by
  have := Nat.card_le_card_of_injective _ code_injective
  refine this.trans ?_
  rw [Nat.card_eq_fintype_card, Fintype.card_option, Fintype.card_prod, ZMod.card, Fintype.card_bool, mul_comm]

/-- The group has `8 L` elements. -/
theorem card_eq : Nat.card G = 8 * L := by
  obtain ⟨Q, hQ⟩ := exists_order_eight
  have h8 : 8 ∣ Nat.card G := hQ ▸ addOrderOf_dvd_natCard Q
  have hL : L ∣ Nat.card G := order_g ▸ addOrderOf_dvd_natCard g
  have hco : Nat.Coprime 8 L := by decide +kernel
  obtain ⟨m, hm⟩ := hco.mul_dvd_of_dvd_of_dvd h8 hL
  have hle := card_le
  have hpos : 0 < Nat.card G := Nat.card_pos
  have hm2 : m < 2 := by
    have : 2 * p + 1 < 8 * L * 2 := by decide +kernel
    rw [hm] at hle
    exact Nat.lt_of_mul_lt_mul_left (hle.trans_lt this)
  have : m ≠ 0 := by rintro rfl; rw [hm] at hpos; exact absurd hpos (by simp)
  rw [hm, show m = 1 by omega, mul_one]

theorem smul_card (P : G) : (8 * L) • P = 0 := by
  rw [← card_eq]; exact card_nsmul_eq_zero'

end Verif.Ed25519Group
