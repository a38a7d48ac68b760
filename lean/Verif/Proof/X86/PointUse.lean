import Verif.Proof.X86.MacUse
import Verif.Proof.X86.MontEnd
import Verif.Spec.AsmPoint

/-! Point routines: from what their field operations compute to the routines of the model. -/
namespace Verif.X86.Sym
open Verif Verif.X86 Verif.Ec

/-- A routine with one input. -/
theorem callSegs1 {T : List Mac} (hT : ∀ M ∈ T, M.Ok) {n k m : Nat} {l : List Seg} {P : Prog} {cs : List Claim} {s : St}
    (hv : verifySegs T [⟨.rsp, n, n, true⟩, ⟨.rdi, k, 0, true⟩, ⟨.rsi, m, 0, false⟩] [2] l P cs = true)
    {x : Words} (hx : x.length = m) (h : Ready s [stackBlock s n, outBlock s.rdi k, inBlock s.rsi x])
    (hn : n < 10000 := by decide) (hk : k < 10000 := by decide) (hm : m < 10000 := by decide) :
    ∃ s' W, run P (P.length + 1) 0 s = some s' ∧ Untouched [stackBlock s n, outBlock s.rdi k, inBlock s.rsi x] s s' ∧
      (∀ i, W i < 2 ^ 64) ∧ (∀ i (hi : i < x.length), W i = x[i].toNat) ∧
      ∀ c ∈ cs, c.Holds s s' [⟨.rsp, n, n, true⟩, ⟨.rdi, k, 0, true⟩, ⟨.rsi, m, 0, false⟩] W := by
  subst hx
  have e : [stackBlock s n, outBlock s.rdi k, inBlock s.rsi x] =
      (List.zip [⟨.rsp, n, n, true⟩, ⟨.rdi, k, 0, true⟩, ⟨.rsi, x.length, 0, false⟩] [none, none, some x]).map
        fun x => blockOf s x.1 x.2 := by
    simp only [List.zip_cons_cons, List.zip_nil_left, List.map_cons, List.map_nil, block_out, block_in]
    rfl
  rw [e] at h ⊢
  have hg : given [none, none, some x] [2] = x := by simp [given]
  obtain ⟨s', W, h1, h2, h3, h4, h5⟩ := verifySegs_sound hT hv rfl (by
      intro a ha
      simp only [List.mem_cons, List.not_mem_nil, or_false] at ha
      rcases ha with rfl | rfl | rfl <;> dsimp only <;> omega)
    (by
      intro b hb
      simp only [List.mem_cons, List.not_mem_nil, or_false] at hb
      subst hb
      exact ⟨x, rfl⟩) (by rw [hg]; omega) h
  refine ⟨s', W, h1, h2, h3, fun i hi => ?_, h5⟩
  rw [h4 i (by rw [hg]; exact hi)]
  simp only [hg]

/-- A routine with two inputs. -/
theorem callSegs2 {T : List Mac} (hT : ∀ M ∈ T, M.Ok) {n k m q : Nat} {l : List Seg} {P : Prog} {cs : List Claim} {s : St}
    (hv : verifySegs T [⟨.rsp, n, n, true⟩, ⟨.rdi, k, 0, true⟩, ⟨.rsi, m, 0, false⟩, ⟨.rdx, q, 0, false⟩] [2, 3] l P cs = true)
    {x y : Words} (hx : x.length = m) (hy : y.length = q)
    (h : Ready s [stackBlock s n, outBlock s.rdi k, inBlock s.rsi x, inBlock s.rdx y])
    (hn : n < 10000 := by decide) (hk : k < 10000 := by decide) (hm : m < 10000 := by decide) (hl : q < 10000 := by decide) :
    ∃ s' W, run P (P.length + 1) 0 s = some s' ∧
      Untouched [stackBlock s n, outBlock s.rdi k, inBlock s.rsi x, inBlock s.rdx y] s s' ∧
      (∀ i, W i < 2 ^ 64) ∧ (∀ i (hi : i < (x ++ y).length), W i = (x ++ y)[i].toNat) ∧
      ∀ c ∈ cs, c.Holds s s' [⟨.rsp, n, n, true⟩, ⟨.rdi, k, 0, true⟩, ⟨.rsi, m, 0, false⟩, ⟨.rdx, q, 0, false⟩] W := by
  subst hx hy
  have e : [stackBlock s n, outBlock s.rdi k, inBlock s.rsi x, inBlock s.rdx y] =
      (List.zip [⟨.rsp, n, n, true⟩, ⟨.rdi, k, 0, true⟩, ⟨.rsi, x.length, 0, false⟩, ⟨.rdx, y.length, 0, false⟩]
        [none, none, some x, some y]).map fun x => blockOf s x.1 x.2 := by
    simp only [List.zip_cons_cons, List.zip_nil_left, List.map_cons, List.map_nil, block_out, block_in]
    rfl
  rw [e] at h ⊢
  have hg : given [none, none, some x, some y] [2, 3] = x ++ y := by simp [given]
  obtain ⟨s', W, h1, h2, h3, h4, h5⟩ := verifySegs_sound hT hv rfl (by
      intro a ha
      simp only [List.mem_cons, List.not_mem_nil, or_false] at ha
      rcases ha with rfl | rfl | rfl | rfl <;> dsimp only <;> omega)
    (by
      intro b hb
      simp only [List.mem_cons, List.not_mem_nil, or_false] at hb
      rcases hb with rfl | rfl
      · exact ⟨x, rfl⟩
      · exact ⟨y, rfl⟩) (by rw [hg, List.length_append]; omega) h
  refine ⟨s', W, h1, h2, h3, fun i hi => ?_, h5⟩
  rw [h4 i (by rw [hg]; exact hi)]
  simp only [hg]

theorem vw_part {W : Nat → Nat} {l : Words} (h : ∀ i (hi : i < l.length), W i = l[i].toNat) {u v w : Words} (e : l = u ++ (v ++ w))
    {k n : Nat} (hk : u.length = k) (hn : v.length = n) : vw W (List.range' k n) = val v := by
  subst e hk hn
  refine vw_val v u.length fun i hi => ?_
  rw [h (u.length + i) (by simp; omega), List.getElem_append_right (by omega)]
  rw [List.getElem_append_left (by simpa using hi)]
  simp

section
variable {N : Nat} {f : FieldAsm N} {p R : Nat}

/-- The number `a` is the reduced element `v`. -/
structure Ex (p a : Nat) (v : Elt N) : Prop where
  eq : a = v.toNat
  lt : a < p

/-- The number `a` is congruent to the element `v`. -/
structure Cg (p R a : Nat) (v : Elt N) : Prop where
  md : a % p = v.toNat % p
  lt : a < R

/-- The routines of a field, the prime and the radix. -/
structure FOk (f : FieldAsm N) (p R : Nat) : Prop where
  ok : f.Ok p
  rad : 2 ^ (64 * N) = R
  cop : Nat.gcd p R = 1
  lt : p < R

theorem Ex.cg {a : Nat} {v : Elt N} (h : Ex p a v) (hp : p < R) : Cg p R a v := ⟨by rw [h.eq], Nat.lt_trans h.lt hp⟩

theorem elt_lt (F : FOk f p R) (x : Elt N) : x.toNat < R := F.rad ▸ x.isLt

theorem same_of (F : FOk f p R) {z w m n : Nat} (hz : z < p) (hw : w < p) (h1 : z * R % p = m % p) (h2 : w * R % p = n % p)
    (h : m % p = n % p) : z = w := by
  have e : Nat.ModEq p (z * R) (w * R) := by
    show _ % p = _ % p
    rw [h1, h2, h]
  have := Nat.ModEq.cancel_right_of_coprime F.cop e
  rw [← Nat.mod_eq_of_lt hz, ← Nat.mod_eq_of_lt hw]
  exact this

theorem FOk.mul (F : FOk f p R) {a b z : Nat} {x y : Elt N} (hx : Cg p R a x) (hy : Ex p b y) (h : opSpec p R 0 a b z) :
    Ex p z (f.montmul x y) := by
  have h := h (Nat.mul_le_mul (Nat.le_of_lt hx.lt) (Nat.le_of_lt hy.lt))
  have g := F.ok.montmul x y (by
    rw [F.rad]
    exact Nat.mul_le_mul (Nat.le_of_lt (elt_lt F x)) (Nat.le_of_lt (hy.eq ▸ hy.lt)))
  rw [F.rad] at g
  have e := same_of F h.1 g.1 h.2 g.2 (by rw [hy.eq, Nat.mul_mod, hx.md, ← Nat.mul_mod])
  exact ⟨e, h.1⟩

theorem FOk.sqr (F : FOk f p R) {a b z : Nat} {x : Elt N} (hx : Ex p a x) (h : opSpec p R 1 a b z) :
    Ex p z (f.montsqr x) := by
  have h := h (Nat.mul_le_mul (Nat.le_of_lt (Nat.lt_trans hx.lt F.lt)) (Nat.le_of_lt hx.lt))
  have g := F.ok.montsqr x (by
    rw [F.rad]
    exact Nat.mul_le_mul (Nat.le_of_lt (elt_lt F x)) (Nat.le_of_lt (hx.eq ▸ hx.lt)))
  rw [F.rad] at g
  have e := same_of F h.1 g.1 h.2 g.2 (by rw [hx.eq])
  exact ⟨e, h.1⟩

theorem FOk.amo (F : FOk f p R) {a b z : Nat} {x : Elt N} (hx : Ex p a x) (h : opSpec p R 2 a b z) (hz : z < R) :
    Cg p R z (f.amontsqr x) := by
  have g := F.ok.amontsqr x
  rw [F.rad] at g
  refine ⟨?_, hz⟩
  have e : Nat.ModEq p (z * R) ((f.amontsqr x).toNat * R) := by
    show _ % p = _ % p
    rw [show z * R % p = a * a % p from h, g, hx.eq]
  exact Nat.ModEq.cancel_right_of_coprime F.cop e

theorem same_sub {p z w m : Nat} (hz : z < p) (hw : w < p) (h : (z + m) % p = (w + m) % p) : z = w := by
  have := Nat.ModEq.add_right_cancel' m h
  rw [← Nat.mod_eq_of_lt hz, ← Nat.mod_eq_of_lt hw]
  exact this

theorem FOk.sub (F : FOk f p R) {a b z : Nat} {x y : Elt N} (hx : Ex p a x) (hy : Ex p b y) (h : opSpec p R 3 a b z) :
    Ex p z (f.sub x y) := by
  have h := h hx.lt hy.lt
  have g := F.ok.sub x y (hx.eq ▸ hx.lt) (hy.eq ▸ hy.lt)
  refine ⟨same_sub h.1 g.1 (m := b) ?_, h.1⟩
  rw [h.2, hy.eq, g.2, hx.eq]

theorem FOk.add (F : FOk f p R) {a b z : Nat} {x y : Elt N} (hx : Ex p a x) (hy : Ex p b y) (h : opSpec p R 4 a b z) :
    Ex p z (f.add x y) := by
  have h : z = _ := h hx.lt hy.lt
  have g := F.ok.add x y (hx.eq ▸ hx.lt) (hy.eq ▸ hy.lt)
  have e : z = (f.add x y).toNat := by rw [h, g, hx.eq, hy.eq]
  exact ⟨e, h ▸ Nat.mod_lt _ (Nat.lt_of_le_of_lt (Nat.zero_le _) hx.lt)⟩

theorem FOk.wad (F : FOk f p R) {a b z : Nat} {x y : Elt N} (hx : Ex p a x) (hy : Ex p b y) (h : opSpec p R 5 a b z) (hz : z < R) :
    Cg p R z (f.weakadd x y) := by
  have h : z % p = _ := h hx.lt hy.lt
  have g := F.ok.weakadd x y (hx.eq ▸ hx.lt) (hy.eq ▸ hy.lt)
  exact ⟨by rw [h, g, hx.eq, hy.eq], hz⟩

theorem FOk.c129 (F : FOk f p R) {a b z : Nat} {x y : Elt N} (hx : Ex p a x) (hy : Ex p b y) (h : opSpec p R 6 a b z) :
    Ex p z (f.cmsub129 x y) := by
  have h := h hx.lt hy.lt
  have g := F.ok.cmsub129 x y (hx.eq ▸ hx.lt) (hy.eq ▸ hy.lt)
  refine ⟨same_sub h.1 g.1 (m := 9 * b) ?_, h.1⟩
  rw [h.2, hy.eq, g.2, hx.eq]

theorem FOk.c41 (F : FOk f p R) {a b z : Nat} {x y : Elt N} (hx : Ex p a x) (hy : Ex p b y) (h : opSpec p R 7 a b z) :
    Ex p z (f.cmsub41 x y) := by
  have h := h hx.lt hy.lt
  have g := F.ok.cmsub41 x y (hx.eq ▸ hx.lt) (hy.eq ▸ hy.lt)
  refine ⟨same_sub h.1 g.1 (m := b) ?_, h.1⟩
  rw [h.2, hy.eq, g.2, hx.eq]

theorem FOk.c38 (F : FOk f p R) {a b z : Nat} {x y : Elt N} (hx : Ex p a x) (hy : Ex p b y) (h : opSpec p R 8 a b z) :
    Ex p z (f.cmsub38 x y) := by
  have h := h hx.lt hy.lt
  have g := F.ok.cmsub38 x y (hx.eq ▸ hx.lt) (hy.eq ▸ hy.lt)
  refine ⟨same_sub h.1 g.1 (m := 8 * b) ?_, h.1⟩
  rw [h.2, hy.eq, g.2, hx.eq]

end

theorem in_ex {N p k : Nat} {W : Nat → Nat} {l : Words} (h : ∀ i (hi : i < l.length), W i = l[i].toNat) (u w : Words) {v : Elt N}
    (e : l = u ++ (eltWords v ++ w)) (hk : u.length = k) (hv : v.toNat < p) : Ex p (vw W (List.range' k N)) v := by
  have : vw W (List.range' k N) = v.toNat := by
    rw [vw_part h e hk (toWords_length ..), eltWords, val_toWords_of_lt v.isLt]
  exact ⟨this, this ▸ hv⟩

theorem out_jac {W : Nat → Nat} (hb : ∀ i, W i < 2 ^ 64) {s s' : St} {as : List Arg} {k N : Nat} {ox oy oz : List Nat} {P : Jac N}
    (ha : as[1]? = some ⟨.rdi, k, 0, true⟩) (ho : (Claim.out 1 (ox ++ (oy ++ oz))).Holds s s' as W)
    (lx : ox.length = N) (ly : oy.length = N) (lz : oz.length = N)
    (hx : vw W ox = P.x.toNat) (hy : vw W oy = P.y.toNat) (hz : vw W oz = P.z.toNat) :
    Holds s'.mem s.rdi (jacWords P) := by
  have := ho _ ha
  rw [List.map_append, List.map_append, vw_words hb, vw_words hb, vw_words hb, hx, hy, hz, lx, ly, lz] at this
  simp only [Arg.at', Nat.mul_zero, BitVec.ofNat_eq_ofNat, BitVec.sub_zero] at this
  exact this

theorem zero_iff {N : Nat} {a : Nat} {v : Elt N} (h : a = v.toNat) : a = 0 ↔ v = 0 := by
  rw [h]
  exact ⟨fun e => BitVec.eq_of_toNat_eq (by simpa using e), fun e => by simp [e]⟩

/-- The flags after the comparison of the two masks. -/
theorem jadd_sel {O1 N1 n1 O2 N2 n2 D v : Nat} (h1 : O1 < 2 ^ 64) (h2 : N1 < 2 ^ 64) (h3 : O2 < 2 ^ 64) (h4 : N2 < 2 ^ 64) (h5 : D < 2 ^ 64)
    (l1 : n1 ≤ 1) (l2 : n2 ≤ 1) (l3 : v ≤ 1)
    (r1 : N1 + O1 = 18446744073709551616 * n1) (r2 : N2 + O2 = 18446744073709551616 * n2)
    (rD : D + 18446744073709551615 * n1 = 18446744073709551615 * n2 + 18446744073709551616 * v) :
    (O1 ≠ 0 ∧ O2 = 0 → v = 1 ∧ D ≠ 0) ∧ (O1 = 0 ∧ O2 ≠ 0 → v = 0 ∧ D ≠ 0) ∧ (¬ (O1 ≠ 0 ∧ O2 = 0) → ¬ (O1 = 0 ∧ O2 ≠ 0) → D = 0 ∧ v = 0) := by
  have a1 : n1 = 0 ∨ n1 = 1 := by omega
  have a2 : n2 = 0 ∨ n2 = 1 := by omega
  have a3 : v = 0 ∨ v = 1 := by omega
  rcases a1 with rfl | rfl <;> rcases a2 with rfl | rfl <;> rcases a3 with rfl | rfl <;>
    (refine ⟨fun h => ⟨?_, ?_⟩, fun h => ⟨?_, ?_⟩, fun h h' => ⟨?_, ?_⟩⟩ <;> omega)

/-- What the last part of an addition selects. -/
theorem jadd_pick {N : Nat} {O1 O2 D v : Nat} {p1 p2 q : Jac N}
    (e1 : O1 = 0 ↔ p1.z = 0) (e2 : O2 = 0 ↔ p2.z = 0)
    (h : (O1 ≠ 0 ∧ O2 = 0 → v = 1 ∧ D ≠ 0) ∧ (O1 = 0 ∧ O2 ≠ 0 → v = 0 ∧ D ≠ 0) ∧
      (¬ (O1 ≠ 0 ∧ O2 = 0) → ¬ (O1 = 0 ∧ O2 ≠ 0) → D = 0 ∧ v = 0))
    {ox oy oz cx dx cy dy cz : Nat}
    (x1 : cx = if v = 1 then p1.x.toNat else q.x.toNat) (x2 : dx = if v = 1 then cx else p2.x.toNat) (x3 : ox = if D = 0 then cx else dx)
    (y1 : cy = if v = 1 then p1.y.toNat else q.y.toNat) (y2 : dy = if v = 1 then cy else p2.y.toNat) (y3 : oy = if D = 0 then cy else dy)
    (z1 : cz = if v = 1 then p1.z.toNat else p2.z.toNat) (z2 : oz = if D = 0 then q.z.toNat else cz) :
    let r := if p1.z ≠ 0 ∧ p2.z = 0 then p1 else if p1.z = 0 ∧ p2.z ≠ 0 then p2 else q
    ox = r.x.toNat ∧ oy = r.y.toNat ∧ oz = r.z.toNat := by
  intro r
  obtain ⟨h1, h2, h3⟩ := h
  simp only [Ne, e1, e2] at h1 h2 h3
  by_cases g1 : p1.z ≠ 0 ∧ p2.z = 0
  · obtain ⟨hv, hd⟩ := h1 g1
    simp only [hv, hd, if_true, if_false] at x1 x2 x3 y1 y2 y3 z1 z2
    simp only [r, if_pos g1]
    exact ⟨by omega, by omega, by omega⟩
  · by_cases g2 : p1.z = 0 ∧ p2.z ≠ 0
    · obtain ⟨hv, hd⟩ := h2 g2
      simp only [hv, hd, if_false, Nat.zero_ne_one] at x1 x2 x3 y1 y2 y3 z1 z2
      simp only [r, if_neg g1, if_pos g2]
      exact ⟨by omega, by omega, by omega⟩
    · obtain ⟨hd, hv⟩ := h3 g1 g2
      simp only [hv, hd, if_true, if_false, Nat.zero_ne_one] at x1 x2 x3 y1 y2 y3 z1 z2
      simp only [r, if_neg g1, if_neg g2]
      exact ⟨by omega, by omega, by omega⟩

/-- The same, for the numbers that the words hold. -/
theorem jadd_end {N p : Nat} {p1 p2 : Jac N} {qx qy qz : Elt N} {a1 b1 c1 a2 b2 c2 a b c : Nat}
    (x1 : Ex p a1 p1.x) (y1 : Ex p b1 p1.y) (z1 : Ex p c1 p1.z) (x2 : Ex p a2 p2.x) (y2 : Ex p b2 p2.y) (z2 : Ex p c2 p2.z)
    (x : Ex p a qx) (y : Ex p b qy) (z : Ex p c qz) {O1 N1 n1 O2 N2 n2 D v : Nat} (e1 : O1 = 0 ↔ c1 = 0) (e2 : O2 = 0 ↔ c2 = 0)
    (h1 : O1 < 2 ^ 64) (h2 : N1 < 2 ^ 64) (h3 : O2 < 2 ^ 64) (h4 : N2 < 2 ^ 64) (h5 : D < 2 ^ 64)
    (l1 : n1 ≤ 1) (l2 : n2 ≤ 1) (l3 : v ≤ 1)
    (r1 : N1 + O1 = 18446744073709551616 * n1) (r2 : N2 + O2 = 18446744073709551616 * n2)
    (rD : D + 18446744073709551615 * n1 = 18446744073709551615 * n2 + 18446744073709551616 * v)
    {ox oy oz cx dx cy dy cz : Nat}
    (k1 : cx = if v = 1 then a1 else a) (k2 : dx = if v = 1 then cx else a2) (k3 : ox = if D = 0 then cx else dx)
    (m1 : cy = if v = 1 then b1 else b) (m2 : dy = if v = 1 then cy else b2) (m3 : oy = if D = 0 then cy else dy)
    (n1' : cz = if v = 1 then c1 else c2) (n2' : oz = if D = 0 then c else cz) :
    let r := if p1.z ≠ 0 ∧ p2.z = 0 then p1 else if p1.z = 0 ∧ p2.z ≠ 0 then p2 else ⟨qx, qy, qz⟩
    ox = r.x.toNat ∧ oy = r.y.toNat ∧ oz = r.z.toNat := by
  rw [x1.eq, x.eq] at k1
  rw [x2.eq] at k2
  rw [y1.eq, y.eq] at m1
  rw [y2.eq] at m2
  rw [z1.eq, z2.eq] at n1'
  rw [z.eq] at n2'
  exact jadd_pick (e1.trans (zero_iff z1.eq)) (e2.trans (zero_iff z2.eq)) (jadd_sel h1 h2 h3 h4 h5 l1 l2 l3 r1 r2 rD) k1 k2 k3 m1 m2 m3 n1' n2'

/-- The same, where the third coordinate is selected by the second mask (p384_montjadd.rs). -/
theorem jadd_endk {N p : Nat} {p1 p2 : Jac N} {qx qy qz : Elt N} {a1 b1 c1 a2 b2 c2 a b c : Nat}
    (x1 : Ex p a1 p1.x) (y1 : Ex p b1 p1.y) (z1 : Ex p c1 p1.z) (x2 : Ex p a2 p2.x) (y2 : Ex p b2 p2.y) (z2 : Ex p c2 p2.z)
    (x : Ex p a qx) (y : Ex p b qy) (z : Ex p c qz) {O1 N1 n1 O2 N2 n2 D v : Nat} (e1 : O1 = 0 ↔ c1 = 0) (e2 : O2 = 0 ↔ c2 = 0)
    (h1 : O1 < 2 ^ 64) (h2 : N1 < 2 ^ 64) (h3 : O2 < 2 ^ 64) (h4 : N2 < 2 ^ 64) (h5 : D < 2 ^ 64)
    (l1 : n1 ≤ 1) (l2 : n2 ≤ 1) (l3 : v ≤ 1)
    (r1 : N1 + O1 = 18446744073709551616 * n1) (r2 : N2 + O2 = 18446744073709551616 * n2)
    (rD : D + 18446744073709551615 * n1 = 18446744073709551615 * n2 + 18446744073709551616 * v)
    {ox oy oz cx dx cy dy cz : Nat}
    (k1 : cx = if v = 1 then a1 else a) (k2 : dx = if v = 1 then cx else a2) (k3 : ox = if D = 0 then cx else dx)
    (m1 : cy = if v = 1 then b1 else b) (m2 : dy = if v = 1 then cy else b2) (m3 : oy = if D = 0 then cy else dy)
    (n1' : cz = if 0xffffffffffffffff * n2 = 0 then c1 else c2) (n2' : oz = if D = 0 then c else cz) :
    let r := if p1.z ≠ 0 ∧ p2.z = 0 then p1 else if p1.z = 0 ∧ p2.z ≠ 0 then p2 else ⟨qx, qy, qz⟩
    ox = r.x.toNat ∧ oy = r.y.toNat ∧ oz = r.z.toNat := by
  refine jadd_end x1 y1 z1 x2 y2 z2 x y z e1 e2 h1 h2 h3 h4 h5 l1 l2 l3 r1 r2 rD k1 k2 k3 m1 m2 m3 (cz := if v = 1 then c1 else c2) rfl ?_
  rw [n2', n1']
  by_cases hD : D = 0
  · rw [if_pos hD, if_pos hD]
  · rw [if_neg hD, if_neg hD]
    rcases (by omega : n2 = 0 ∨ n2 = 1) with rfl | rfl
    · rw [if_pos rfl, if_pos (by omega)]
    · rw [if_neg (by decide), if_neg (by omega)]

theorem jmix_end {N p : Nat} {p1 : Jac N} {p2 : Aff N} {one qx qy qz : Elt N} {c1 a2 b2 a b c : Nat}
    (z1 : Ex p c1 p1.z) (x2 : Ex p a2 p2.x) (y2 : Ex p b2 p2.y) (x : Ex p a qx) (y : Ex p b qy) (z : Ex p c qz)
    {O : Nat} (e1 : O = 0 ↔ c1 = 0) {ox oy oz : Nat} (k1 : ox = if O = 0 then a2 else a) (k2 : oy = if O = 0 then b2 else b)
    (k3 : oz = if O = 0 then one.toNat else c) :
    let r := if p1.z = 0 then ⟨p2.x, p2.y, one⟩ else (⟨qx, qy, qz⟩ : Jac N)
    ox = r.x.toNat ∧ oy = r.y.toNat ∧ oz = r.z.toNat := by
  intro r
  rw [x2.eq, x.eq] at k1
  rw [y2.eq, y.eq] at k2
  rw [z.eq] at k3
  have e := e1.trans (zero_iff z1.eq)
  by_cases h : p1.z = 0
  · simp only [r, if_pos h]
    rw [if_pos (e.mpr h)] at k1 k2 k3
    exact ⟨k1, k2, k3⟩
  · simp only [r, if_neg h]
    rw [if_neg fun g => h (e.mp g)] at k1 k2 k3
    exact ⟨k1, k2, k3⟩

theorem jacWords_length {N : Nat} (p : Jac N) : (jacWords p).length = 3 * N := by
  simp only [jacWords, eltWords, List.length_append, toWords_length]
  omega
theorem affWords_length {N : Nat} (p : Aff N) : (affWords p).length = 2 * N := by
  simp only [affWords, eltWords, List.length_append, toWords_length]
  omega

end Verif.X86.Sym
