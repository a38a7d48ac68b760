import Verif.Proof.EcGroup
import Verif.Proof.EcPrimes
import Mathlib.GroupTheory.Perm.Cycle.Type
import Mathlib.FieldTheory.Finite.Basic

/-!
The groups of P-256 and P-384 have exactly `n` points, a prime number: every point is a multiple of the base point.

`(n-1)·G = -G` and the absence of points of order two are found by evaluating arithmetic on natural numbers in the kernel;
the number of points is at most `2p + 1 < 3n`.
-/
namespace Verif.EcCard

open WeierstrassCurve Verif.Spec.Nist Verif.EcGroup

section arith

variable {p : Nat}

/-- Subtraction of residues on natural numbers. -/
def sb (p a b : Nat) : Nat := (a + (p - b % p)) % p

theorem sb_cast [NeZero p] (a b : Nat) : (sb p a b : ZMod p) = a - b := by
  have h : b % p ≤ p := (Nat.mod_lt _ (NeZero.pos p)).le
  rw [sb, ZMod.natCast_mod, Nat.cast_add, Nat.cast_sub h, ZMod.natCast_self, ZMod.natCast_mod]
  ring

theorem cast_eq_zero [NeZero p] {a : Nat} (h : a % p ≠ 0) : (a : ZMod p) ≠ 0 := by
  intro e
  rw [ZMod.natCast_eq_zero_iff] at e
  exact h (Nat.mod_eq_zero_of_dvd e)

/-- Jacobian doubling on natural numbers. -/
def jdbl (p : Nat) (P : Nat × Nat × Nat) : Nat × Nat × Nat :=
  let X := P.1; let Y := P.2.1; let Z := P.2.2
  let y2 := Y * Y % p
  let z2 := Z * Z % p
  let x2p := sb p (X * X) (z2 * z2)
  let xy2 := X * y2 % p
  let d := sb p (12 * xy2) (9 * (x2p * x2p % p))
  (sb p (4 * xy2) d, sb p (3 * (d * x2p)) (8 * (y2 * y2)), 2 * Y * Z % p)

/-- Addition of an affine point on natural numbers; `none` if an exception of the formulas might arise. -/
def jadd (p x2 y2 : Nat) (P : Nat × Nat × Nat) : Option (Nat × Nat × Nat) :=
  let X := P.1; let Y := P.2.1; let Z := P.2.2
  let z2 := Z * Z % p
  let u2 := x2 * z2 % p
  let s2 := y2 * (z2 * Z % p) % p
  let xd := sb p u2 X
  let yd := sb p s2 Y
  if Z % p = 0 ∨ xd % p = 0 then none
  else
    let xx := xd * xd % p
    let a := xx * X % p
    let c := xx * u2 % p
    let X3 := sb p (sb p (yd * yd) a) c
    some (X3, sb p (yd * sb p a X3) (sb p c a * Y), xd * Z % p)

/-- Double-and-add over the bits of `k`, most significant first. -/
def chain (p x2 y2 : Nat) (k : Nat) : Nat → Nat × Nat × Nat → Option (Nat × Nat × Nat)
  | 0, P => some P
  | i + 1, P => if k / 2 ^ i % 2 = 1 then (jadd p x2 y2 (jdbl p P)).bind (chain p x2 y2 k i) else chain p x2 y2 k i (jdbl p P)

variable [Fact p.Prime] {b : ZMod p}

theorem jdbl_rep (h2 : (2 : ZMod p) ≠ 0) {P : (W b).Point} {T : Nat × Nat × Nat}
    (h : Rep P (T.1 : ZMod p) T.2.1 T.2.2) :
    Rep (P + P) ((jdbl p T).1 : ZMod p) (jdbl p T).2.1 (jdbl p T).2.2 := by
  refine h.dbl h2 (x2p := (T.1 : ZMod p) ^ 2 - (T.2.2 : ZMod p) ^ 4)
    (d := 12 * ((T.1 : ZMod p) * (T.2.1 : ZMod p) ^ 2) - 9 * ((T.1 : ZMod p) ^ 2 - (T.2.2 : ZMod p) ^ 4) ^ 2) rfl rfl ?_ ?_ ?_
  · simp only [jdbl, sb_cast, Nat.cast_mul, ZMod.natCast_mod, Nat.cast_ofNat]; ring
  · simp only [jdbl, sb_cast, Nat.cast_mul, ZMod.natCast_mod, Nat.cast_ofNat]; ring
  · simp only [jdbl, sb_cast, Nat.cast_mul, ZMod.natCast_mod, Nat.cast_ofNat]

theorem jadd_rep {P Q : (W b).Point} {x2 y2 : Nat} (hQ : IsPt Q (x2 : ZMod p) y2) {T T' : Nat × Nat × Nat}
    (h : Rep P (T.1 : ZMod p) T.2.1 T.2.2) (he : jadd p x2 y2 T = some T') :
    Rep (P + Q) (T'.1 : ZMod p) T'.2.1 T'.2.2 := by
  rw [jadd] at he
  dsimp only at he
  split at he
  · cases he
  rename_i hc
  simp only [not_or] at hc
  obtain ⟨hz, hx⟩ := hc
  have hz' : (T.2.2 : ZMod p) ≠ 0 := cast_eq_zero hz
  have hx' := cast_eq_zero hx
  simp only [sb_cast, Nat.cast_mul, ZMod.natCast_mod] at hx'
  have hne : P ≠ Q := by
    rintro rfl
    rcases h with ⟨h, -⟩ | ⟨-, x, y, hP, e1, e2⟩
    · exact hz' h
    · obtain ⟨e3, -⟩ := hP.inj hQ
      apply hx'
      rw [e1, e3]; ring
  have := h.mixadd hQ hz' hne (u2 := x2 * (T.2.2 : ZMod p) ^ 2) (s2 := y2 * (T.2.2 : ZMod p) ^ 3) rfl rfl rfl rfl rfl
  cases he
  simp only [sb_cast, Nat.cast_mul, ZMod.natCast_mod]
  convert this using 1 <;> ring

theorem chain_rep (h2 : (2 : ZMod p) ≠ 0) {G : (W b).Point} {x y : Nat} (hG : IsPt G (x : ZMod p) y) (k i : Nat) (m : Nat)
    (T T' : Nat × Nat × Nat) (hT : Rep (m • G) (T.1 : ZMod p) T.2.1 T.2.2) (he : chain p x y k i T = some T') :
    Rep ((m * 2 ^ i + k % 2 ^ i) • G) (T'.1 : ZMod p) T'.2.1 T'.2.2 := by
  induction i generalizing m T with
  | zero =>
    rw [chain] at he
    cases he
    simpa [Nat.mod_one] using hT
  | succ i ih =>
    rw [chain] at he
    have hd := jdbl_rep h2 hT
    have hmod : k % 2 ^ (i + 1) = k % 2 ^ i + 2 ^ i * (k / 2 ^ i % 2) := by
      rw [pow_succ, Nat.mod_mul]
    split at he
    · rename_i hb
      obtain ⟨U, hU, he⟩ := Option.bind_eq_some_iff.1 he
      have ha := jadd_rep hG hd hU
      have e : m • G + m • G + G = (2 * m + 1) • G := by rw [add_smul, mul_smul, two_smul, one_smul]
      rw [e] at ha
      have := ih _ _ ha he
      rw [hmod, hb]
      rwa [show m * 2 ^ (i + 1) + (k % 2 ^ i + 2 ^ i * 1) = (2 * m + 1) * 2 ^ i + k % 2 ^ i by ring]
    · rename_i hb
      have hb : k / 2 ^ i % 2 = 0 := by omega
      have e : m • G + m • G = (2 * m) • G := by rw [mul_smul, two_smul]
      rw [e] at hd
      have := ih _ _ hd he
      rw [hmod, hb]
      rwa [show m * 2 ^ (i + 1) + (k % 2 ^ i + 2 ^ i * 0) = (2 * m) * 2 ^ i + k % 2 ^ i by ring]

/-- `n·G = 0` if the chain for `n - 1` ends in `-G`. -/
theorem order_of_chain (h2 : (2 : ZMod p) ≠ 0) {G : (W b).Point} {x y : Nat} (hG : IsPt G (x : ZMod p) y) {n i : Nat}
    (hi : 1 * 2 ^ i + (n - 1) % 2 ^ i = n - 1) (hn : 0 < n) {X Y Z : Nat}
    (hc : chain p x y (n - 1) i (x, y, 1) = some (X, Y, Z)) (hZ : Z % p ≠ 0)
    (hX : X % p = x * Z ^ 2 % p) (hY : (Y + y * Z ^ 3) % p = 0) : n • G = 0 := by
  have h1 : Rep (1 • G) ((x : Nat) : ZMod p) y ((1 : Nat) : ZMod p) := by
    rw [one_smul, Nat.cast_one]; exact Rep.of_affine hG
  have := chain_rep h2 hG (n - 1) i 1 (x, y, 1) (X, Y, Z) h1 hc
  rw [hi] at this
  have hz' : (Z : ZMod p) ≠ 0 := cast_eq_zero hZ
  have hX' : (X : ZMod p) = x * Z ^ 2 := by
    have := (ZMod.natCast_eq_natCast_iff' X (x * Z ^ 2) p).2 hX
    simpa using this
  have hY' : (Y : ZMod p) + y * Z ^ 3 = 0 := by
    have := (ZMod.natCast_eq_zero_iff (Y + y * Z ^ 3) p).2 (Nat.dvd_of_mod_eq_zero hY)
    simpa using this
  rcases this with ⟨h, -⟩ | ⟨-, x', y', hP, e1, e2⟩
  · exact absurd h hz'
  rw [hX'] at e1
  have ex : x' = x := (mul_right_cancel₀ (pow_ne_zero 2 hz') e1).symm
  have ey : y' = -y := by
    apply mul_right_cancel₀ (pow_ne_zero 3 hz')
    rw [← e2]; linear_combination hY'
  rw [ex, ey] at hP
  have e := hP.ext hG.neg
  have : n • G = (n - 1) • G + G := by
    conv_lhs => rw [← Nat.sub_add_cancel hn]
    rw [add_smul]; exact congrArg _ (one_smul ℕ G)
  rw [this, e]
  exact neg_add_cancel G

/-! ### No points of order two -/

/-- Multiplication of `c0 + c1 r + c2 r²` and `d0 + d1 r + d2 r²` where `r³ = 3r - b`. -/
def mulF (p b : Nat) (c d : Nat × Nat × Nat) : Nat × Nat × Nat :=
  let e3 := (c.2.1 * d.2.2 + c.2.2 * d.2.1) % p
  let e4 := c.2.2 * d.2.2 % p
  (sb p (c.1 * d.1) (e3 * b), sb p (c.1 * d.2.1 + c.2.1 * d.1 + 3 * e3) (e4 * b),
    (c.1 * d.2.2 + c.2.1 * d.2.1 + c.2.2 * d.1 + 3 * e4) % p)

/-- The value at `r`. -/
def evF (r : ZMod p) (c : Nat × Nat × Nat) : ZMod p := c.1 + c.2.1 * r + c.2.2 * r ^ 2

theorem mulF_eval {bn : Nat} {r : ZMod p} (hr : r ^ 3 = 3 * r - bn) (c d : Nat × Nat × Nat) :
    evF r (mulF p bn c d) = evF r c * evF r d := by
  simp only [evF, mulF, sb_cast, Nat.cast_mul, Nat.cast_add, ZMod.natCast_mod, Nat.cast_ofNat]
  linear_combination (-((c.2.1 : ZMod p) * d.2.2 + c.2.2 * d.2.1) - c.2.2 * d.2.2 * r) * hr

/-- `r^k`, over the bits of `k`. -/
def powF (p b k : Nat) : Nat → Nat × Nat × Nat → Nat × Nat × Nat
  | 0, c => c
  | i + 1, c =>
    let s := mulF p b c c
    powF p b k i (if k / 2 ^ i % 2 = 1 then mulF p b s (0, 1, 0) else s)

theorem powF_eval {bn : Nat} {r : ZMod p} (hr : r ^ 3 = 3 * r - bn) (k i m : Nat) (c : Nat × Nat × Nat)
    (hc : evF r c = r ^ m) : evF r (powF p bn k i c) = r ^ (m * 2 ^ i + k % 2 ^ i) := by
  induction i generalizing m c with
  | zero => simpa [powF, Nat.mod_one] using hc
  | succ i ih =>
    rw [powF]
    have hmod : k % 2 ^ (i + 1) = k % 2 ^ i + 2 ^ i * (k / 2 ^ i % 2) := by
      rw [pow_succ, Nat.mod_mul]
    by_cases hb : k / 2 ^ i % 2 = 1
    · rw [if_pos hb, ih (2 * m + 1)]
      · rw [hmod, hb]; congr 1; ring
      · rw [mulF_eval hr, mulF_eval hr, hc]; simp only [evF]; push_cast; ring
    · rw [if_neg hb, ih (2 * m)]
      · have hb : k / 2 ^ i % 2 = 0 := by omega
        rw [hmod, hb]; congr 1; ring
      · rw [mulF_eval hr, hc]; ring

/-- `x³ - 3x + b` has no root: `x^p - x`, reduced, has an inverse modulo `x³ - 3x + b`. -/
theorem no_root {bn i : Nat} (hi : 1 * 2 ^ i + p % 2 ^ i = p) {c v : Nat × Nat × Nat}
    (hc : powF p bn p i (0, 1, 0) = c) (hv : mulF p bn v (c.1, sb p c.2.1 1, c.2.2) = (1, 0, 0)) (x : ZMod p) :
    x ^ 3 - 3 * x + bn ≠ 0 := by
  intro h
  have hr : x ^ 3 = 3 * x - bn := by linear_combination h
  have h1 := powF_eval hr p i 1 (0, 1, 0) (by simp [evF])
  rw [hi, ZMod.pow_card, hc] at h1
  have h2 := mulF_eval hr v (c.1, sb p c.2.1 1, c.2.2)
  rw [hv] at h2
  have h3 : evF x (c.1, sb p c.2.1 1, c.2.2) = 0 := by
    simp only [evF, sb_cast] at h1 ⊢
    push_cast
    linear_combination h1
  rw [h3, mul_zero] at h2
  simp [evF] at h2

end arith

/-! ### The number of points -/

section card

variable {p : Nat} [Fact p.Prime] {b : ZMod p}

open Classical in
/-- The point determined by `x` and one bit. -/
noncomputable def code (P : (W b).Point) : Option (ZMod p × Bool) :=
  if h : P ≠ 0 then
    let x := (exists_isPt h).choose
    let y := (exists_isPt h).choose_spec.choose
    some (x, if hx : ∃ y', y' ^ 2 = x ^ 3 - 3 * x + b then decide (y = hx.choose) else true)
  else none

theorem code_injective : Function.Injective (code (b := b)) := by
  intro P Q h
  by_cases hP : P = 0
  · by_cases hQ : Q = 0
    · rw [hP, hQ]
    · simp [code, hP, hQ] at h
  by_cases hQ : Q = 0
  · simp [code, hP, hQ] at h
  have h1 := (exists_isPt hP).choose_spec.choose_spec
  have h2 := (exists_isPt hQ).choose_spec.choose_spec
  rw [code, code, dif_pos hP, dif_pos hQ] at h
  dsimp only at h
  generalize (exists_isPt hP).choose_spec.choose = y1 at *
  generalize (exists_isPt hQ).choose_spec.choose = y2 at *
  generalize (exists_isPt hP).choose = x1 at *
  generalize (exists_isPt hQ).choose = x2 at *
  injection h with h
  injection h with e h
  subst e
  have hx : ∃ y', y' ^ 2 = x1 ^ 3 - 3 * x1 + b := ⟨y1, h1.eqn⟩
  rw [dif_pos hx, dif_pos hx] at h
  have hs := hx.choose_spec
  generalize hx.choose = s at *
  have e1 := h1.eqn
  have e2 := h2.eqn
  have k1 : y1 = s ∨ y1 = -s := sq_eq_sq_iff_eq_or_eq_neg.1 (by rw [e1, hs])
  have k2 : y2 = s ∨ y2 = -s := sq_eq_sq_iff_eq_or_eq_neg.1 (by rw [e2, hs])
  have hiff : y1 = s ↔ y2 = s := by simpa using h
  have : y1 = y2 := by
    rcases k1 with k1 | k1
    · rw [k1, hiff.1 k1]
    · rcases k2 with k2 | k2
      · rw [k2, hiff.2 k2]
      · rw [k1, k2]
  subst this
  exact h1.ext h2

instance : Finite (W b).Point := Finite.of_injective _ code_injective

theorem card_le : Nat.card (W b).Point ≤ 2 * p + 1 := by
  have := Nat.card_le_card_of_injective _ (code_injective (b := b))
  refine this.trans ?_
  rw [Nat.card_eq_fintype_card, Fintype.card_option, Fintype.card_prod, ZMod.card, Fintype.card_bool]
  omega

/-- The number of points of a curve with a point of prime order `n > (2p+1)/3` and none of order two. -/
theorem card_eq (h2 : (2 : ZMod p) ≠ 0) {n : Nat} (hn : n.Prime) (hn3 : 2 * p + 1 < 3 * n) (hn2 : n ≠ 2)
    {G : (W b).Point} (hG0 : G ≠ 0) (hG : n • G = 0) (hroot : ∀ x : ZMod p, x ^ 3 - 3 * x + b ≠ 0) :
    Nat.card (W b).Point = n := by
  have : Fact n.Prime := ⟨hn⟩
  have ho : addOrderOf G = n := addOrderOf_eq_prime hG hG0
  have hd : n ∣ Nat.card (W b).Point := ho ▸ addOrderOf_dvd_natCard G
  obtain ⟨m, hm⟩ := hd
  have hle := card_le (b := b)
  have hpos : 0 < Nat.card (W b).Point := Nat.card_pos
  have hm2 : m ≠ 2 := by
    rintro rfl
    have : Fact (Nat.Prime 2) := ⟨Nat.prime_two⟩
    obtain ⟨P, hP⟩ := exists_prime_addOrderOf_dvd_card' (G := (W b).Point) 2 (by rw [hm]; exact dvd_mul_left _ _)
    have hP0 : P ≠ 0 := by
      rintro rfl
      rw [addOrderOf_zero] at hP
      omega
    have h2P : 2 • P = 0 := by rw [← hP]; exact addOrderOf_nsmul_eq_zero P
    rw [two_smul] at h2P
    obtain ⟨x, y, hxy⟩ := exists_isPt hP0
    have e : P = -P := eq_neg_of_add_eq_zero_left h2P
    have hneg := hxy.neg
    rw [← e] at hneg
    have hy := (hxy.inj hneg).2
    have : y = 0 := by
      have : 2 * y = 0 := by linear_combination hy
      exact (mul_eq_zero.1 this).resolve_left h2
    apply hroot x
    rw [← hxy.eqn, this]; ring
  have hm3 : m < 3 := by
    rw [hm] at hle
    have : n * m < n * 3 := by omega
    exact Nat.lt_of_mul_lt_mul_left this
  have hm0 : m ≠ 0 := by
    rintro rfl
    rw [hm] at hpos; omega
  have : m = 1 := by omega
  rw [hm, this, mul_one]

end card

/-- What is needed of a curve. -/
structure Good (D : Params) [Fact D.p.Prime] [Fact D.n.Prime] : Prop where
  two : (2 : ZMod D.p) ≠ 0
  three : (3 : ZMod D.p) ≠ 0
  b_sq : (D.b : ZMod D.p) ^ 2 ≠ 4
  n_odd : D.n ≠ 2
  G_pt : IsPt D.G (D.gx : ZMod D.p) (D.gy : ZMod D.p)
  card : Nat.card D.Pt = D.n
  no_root : ∀ x : ZMod D.p, x ^ 3 - 3 * x + D.b ≠ 0

theorem good_of {D : Params} [Fact D.p.Prime] [Fact D.n.Prime] (h2 : (2 : ZMod D.p) ≠ 0) (h3 : (3 : ZMod D.p) ≠ 0)
    (hb : (D.b : ZMod D.p) ^ 2 ≠ 4) (hG : (D.gy ^ 2 + 3 * D.gx) % D.p = (D.gx ^ 3 + D.b) % D.p) {i X Y Z : Nat}
    (hn3 : 2 * D.p + 1 < 3 * D.n) (hn2 : D.n ≠ 2)
    (hi : 1 * 2 ^ i + (D.n - 1) % 2 ^ i = D.n - 1)
    (hc : chain D.p D.gx D.gy (D.n - 1) i (D.gx, D.gy, 1) = some (X, Y, Z)) (hZ : Z % D.p ≠ 0)
    (hX : X % D.p = D.gx * Z ^ 2 % D.p) (hY : (Y + D.gy * Z ^ 3) % D.p = 0)
    {j : Nat} (hj : 1 * 2 ^ j + D.p % 2 ^ j = D.p) {c v : Nat × Nat × Nat}
    (hc' : powF D.p D.b D.p j (0, 1, 0) = c) (hv : mulF D.p D.b v (c.1, sb D.p c.2.1 1, c.2.2) = (1, 0, 0)) : Good D := by
  have hpt : IsPt D.G (D.gx : ZMod D.p) (D.gy : ZMod D.p) := by
    have e : (D.gy : ZMod D.p) ^ 2 = (D.gx : ZMod D.p) ^ 3 - 3 * D.gx + D.b := by
      have := (ZMod.natCast_eq_natCast_iff' _ _ D.p).2 hG
      push_cast at this
      linear_combination this
    obtain ⟨P, h, rfl⟩ := exists_of_eqn h2 h3 hb e
    refine ⟨h, ?_⟩
    rw [Params.G, dif_pos h]
  have hroot := no_root (p := D.p) hj hc' hv
  exact ⟨h2, h3, hb, hn2, hpt, card_eq h2 Fact.out hn3 hn2 hpt.ne_zero
    (order_of_chain h2 hpt hi (Fact.out : D.n.Prime).pos hc hZ hX hY) hroot, hroot⟩

/-! ### P-256 -/

theorem chain_p256 : chain p256.p p256.gx p256.gy (p256.n - 1) 255 (p256.gx, p256.gy, 1) =
    some (0x45318b1a864a922062c539fa26eaaf4f4cfb387b5dcad47ecd4315b77ba92dff, 0x2ffac199942c77c21d1ce70d9b770adad1aebc11c4495667eb7ff3b9295eee4c, 0xba53691477f7ce7abcaea93b68b911436bfaecb1b29425ecbe031e316bf77d4a) := by
  decide +kernel

theorem pow_p256 : powF p256.p p256.b p256.p 255 (0, 1, 0) =
    (0x92e088642d3312c097d5943a147b76e7b494e0924f03d682e5350a345a27381d, 0x1b6b65e0dba268d6bf72f99fba65e1bf30f126868605e87e9d516f57ef5dd84c, 0x368fbbcd696676a0341535e2f5c2448c25b58fb7587e14be8d657ae5d2ec63f1) := by
  decide +kernel

instance : Fact p256.p.Prime := ⟨Pratt.prime_p256⟩
instance : Fact p256.n.Prime := ⟨Pratt.prime_n256⟩

theorem good_p256 : Good p256 := by
  have h2 : (2 : ZMod p256.p) ≠ 0 := by
    have := cast_eq_zero (p := p256.p) (a := 2) (by decide +kernel)
    simpa using this
  have h3 : (3 : ZMod p256.p) ≠ 0 := by
    have := cast_eq_zero (p := p256.p) (a := 3) (by decide +kernel)
    simpa using this
  have hb : (p256.b : ZMod p256.p) ^ 2 ≠ 4 := by
    intro e
    have : ((p256.b ^ 2 : Nat) : ZMod p256.p) = (4 : Nat) := by rw [Nat.cast_pow, e]; rfl
    rw [ZMod.natCast_eq_natCast_iff'] at this
    revert this
    decide +kernel
  exact good_of h2 h3 hb (by decide +kernel) (by decide +kernel) (by decide +kernel) (by decide +kernel) chain_p256
    (by decide +kernel) (by decide +kernel) (by decide +kernel) (by decide +kernel) pow_p256
    (v := (0xa969487079f1744798bf0de6fded091b66e9d328eb0645fe5d979d1339b7f47f, 0xa4a08891884100c13323460107a8d28eede4387fa3e6e9bfebec9f6d72d0b5cc, 0x4cde11cf86cb876cd59cf0115813c55af0ecd3cda667d98bb9a347a56aa74a6d))
    (by decide +kernel)

/-! ### P-384 -/

theorem chain_p384 : chain p384.p p384.gx p384.gy (p384.n - 1) 383 (p384.gx, p384.gy, 1) =
    some (0xa6b01361909b56eb8f0fb8d44ad3a042af90f5b8727f2c64e691b66e422db42d4275c6e05ae93a8b19ac5457295859ee, 0x119088c4598d2c8194b144a44be5c45c8bb6aa717aa82bdf3fd87d679afa206dcbf9bd9d44511f463150fd1214918c04, 0xc4ed670a6fdb0fcf861ead39d9afae7a517159ede039cde82938e800711e6e822515bb8fa20d3798ca9aeb6f60f9dfae) := by
  decide +kernel

theorem pow_p384 : powF p384.p p384.b p384.p 383 (0, 1, 0) =
    (0x35ee9aec5294d58b89a8381d0568388a2c5a3ba167941adb0288b9412af8ecad6e929c7b6e55fb52a805656a9a91d9cb, 0xecd5182549221b8603468a475156cd2da7ce40cb70f0f35282dd73976104ba9d6a8e21d8cc1f482a7710677e562ec48a, 0x6508b289d6b5953a3b2be3f17d4be3bae9d2e22f4c35f2927ebba35f6a8389a8c8b6b1c1c8d50256abfd4d4b32b7131a) := by
  decide +kernel

instance : Fact p384.p.Prime := ⟨Pratt.prime_p384⟩
instance : Fact p384.n.Prime := ⟨Pratt.prime_n384⟩

theorem good_p384 : Good p384 := by
  have h2 : (2 : ZMod p384.p) ≠ 0 := by
    have := cast_eq_zero (p := p384.p) (a := 2) (by decide +kernel)
    simpa using this
  have h3 : (3 : ZMod p384.p) ≠ 0 := by
    have := cast_eq_zero (p := p384.p) (a := 3) (by decide +kernel)
    simpa using this
  have hb : (p384.b : ZMod p384.p) ^ 2 ≠ 4 := by
    intro e
    have : ((p384.b ^ 2 : Nat) : ZMod p384.p) = (4 : Nat) := by rw [Nat.cast_pow, e]; rfl
    rw [ZMod.natCast_eq_natCast_iff'] at this
    revert this
    decide +kernel
  exact good_of h2 h3 hb (by decide +kernel) (by decide +kernel) (by decide +kernel) (by decide +kernel) chain_p384
    (by decide +kernel) (by decide +kernel) (by decide +kernel) (by decide +kernel) pow_p384
    (v := (0x95adec811ebe8d4b9e2b41150d78f91a619189a415583b8f5e01888da3353b61765cde8cd6c12846310c3f0c10aae682, 0x3581b884702fb0931c541a5cacefbe3bea864db86e01e048170560418dca3aa8689f246d9d11ccd2e145532dd48491af, 0x4efcebfdccd7cb25d1b864228f0c32d3a83ec026134ae4753bdff5d3f1fa20b278b31dc3487beb792024fe436f36b43a))
    (by decide +kernel)

end Verif.EcCard
