import Verif.Proof.PosInt

/-!
Montgomery arithmetic and exponentiation over `PosInt`.
-/
namespace Verif.PosInt
open Verif Bignum

variable {N M : Nat} {A : Asm}

theorem coprime_two_pow {n : Nat} (h : n % 2 = 1) (k : Nat) : Nat.gcd n (2 ^ k) = 1 :=
  Nat.Coprime.pow_right k (by rw [Nat.Coprime, Nat.gcd_comm, Nat.gcd_rec, h]; rfl)

theorem or_eq_zero (a b : Word) : a ||| b = 0#64 ↔ a = 0#64 ∧ b = 0#64 := by
  constructor
  · intro h
    constructor <;> (apply BitVec.eq_of_getLsbD_eq; intro i hi; have := congrArg (·.getLsbD i) h; simp at this; simp [this])
  · rintro ⟨rfl, rfl⟩; rfl

/-- A modulus for Montgomery arithmetic: odd, with the negated inverse modulo `2^64`. -/
structure Ctx (n : PosInt N) (n0 : Word) : Prop where
  inv : n.Inv
  odd : n.value % 2 = 1
  n0 : (n.value * n0.toNat + 1) % 2 ^ 64 = 0

theorem montNegInverse_ok (hA : A.Ok) {n : PosInt N} (hn : n.Inv) (ho : n.value % 2 = 1) : Ctx n (n.montNegInverse A) := by
  refine ⟨hn, ho, ?_⟩
  have hu : 0 < n.used := used_pos (by omega)
  have h := hA.negmodinv n.asWords ho
  have hl := hA.negmodinv_length n.asWords
  rw [length_asWords hn] at h hl
  rw [montNegInverse]
  rcases hz : A.negmodinv n.asWords with _ | ⟨w, ws⟩
  · rw [hz] at hl; simp at hl; omega
  · rw [hz] at h
    simp only [ofWords, List.cons_append, List.headD_cons]
    have hd : 2 ^ 64 ∣ 2 ^ (64 * n.used) := Nat.pow_dvd_pow _ (by omega)
    have h2 : 2 ^ 64 ∣ n.value * val (w :: ws) + 1 := Nat.dvd_trans hd (Nat.dvd_of_mod_eq_zero h)
    have h3 : n.value * val (w :: ws) + 1 = (n.value * w.toNat + 1) + 2 ^ 64 * (n.value * val ws) := by
      rw [val]; ring
    rw [h3] at h2
    exact Nat.mod_eq_zero_of_dvd ((Nat.dvd_add_left (Nat.dvd_mul_right _ _)).1 h2)

theorem montReduce8_ok (hA : A.Ok) {n : PosInt N} {n0 : Word} (c : Ctx n n0) (h8 : n.used % 8 = 0) (product : Words)
    (hl : product.length = 2 * n.used) (hb : val product ≤ 2 ^ (64 * n.used) * n.value) :
    (montReduce8 A product n n0).length = n.used ∧ val (montReduce8 A product n n0) ≤ n.value ∧
    val (montReduce8 A product n n0) * 2 ^ (64 * n.used) ≡ val product [MOD n.value] ∧
    (val product = 0 → val (montReduce8 A product n n0) = 0) := by
  have hlen := length_asWords c.inv
  obtain ⟨q, hq, e⟩ := hA.emontredc8n product n.asWords n0 (by rw [hlen]; exact hl) (by rw [hlen]; exact h8) c.n0
  rw [hlen] at hq e
  have hzl := hA.emontredc8n_length product n.asWords n0
  simp only [montReduce8, show product.length / 2 = n.used by omega]
  generalize hz : A.emontredc8n product n.asWords n0 = z at *
  obtain ⟨zs, cy⟩ := z
  dsimp only at e hzl ⊢
  have hrl : (zs.drop n.used).length = n.used := by rw [List.length_drop]; omega
  generalize zs.drop n.used = red at *
  have hred := val_lt red
  rw [hrl] at hred
  have hn := value_lt c.inv
  have hnpos : 0 < n.value := by have := c.odd; omega
  change val product + q * n.value = _ at e
  generalize hR : 2 ^ (64 * n.used) = R at *
  have hRpos : 0 < R := by omega
  obtain ⟨t, ht⟩ : ∃ t, t = val red + R * cy.toNat := ⟨_, rfl⟩
  rw [← ht] at e
  have ht2 : t < 2 * n.value := by
    have h1 : q * n.value + n.value ≤ R * n.value := by
      have := Nat.mul_le_mul_right n.value (Nat.succ_le_of_lt hq)
      rw [Nat.succ_mul] at this; exact this
    have h2 : R * t < R * (2 * n.value) := by
      rw [← e]; have : R * (2 * n.value) = R * n.value + R * n.value := by ring
      omega
    exact Nat.lt_of_mul_lt_mul_left h2
  have hcong : t * R ≡ val product [MOD n.value] := by
    rw [Nat.mul_comm, ← e, Nat.ModEq, Nat.add_mul_mod_self_right]
  have hcy : cy.toNat ≤ 1 := by
    by_contra hc
    have : R * 2 ≤ R * cy.toNat := Nat.mul_le_mul_left _ (by omega)
    omega
  have hres : (optsub n.used red n.asWords (cy ||| cmpLt n.asWords red)).length = n.used ∧
      val (optsub n.used red n.asWords (cy ||| cmpLt n.asWords red)) = if cy.toNat = 1 ∨ n.value < val red then t - n.value else t := by
    have h1 : val (red.take n.used) = val red := by rw [List.take_of_length_le (by omega)]
    have h2 : val (n.asWords.take n.used) = n.value := by rw [List.take_of_length_le (by omega)]; rfl
    refine ⟨by simp only [optsub]; split <;> simp, ?_⟩
    rw [optsub, h1, h2]
    have hcm : cmpLt n.asWords red = 0#64 ↔ ¬ n.value < val red := by
      rw [cmpLt]; show (if n.value < val red then _ else _) = _ ↔ _
      split <;> simp_all
    have hc0 : cy = 0#64 ↔ ¬ cy.toNat = 1 := by
      constructor
      · rintro rfl; simp
      · intro h; apply BitVec.eq_of_toNat_eq; simp; omega
    by_cases hc : cy ||| cmpLt n.asWords red = 0#64
    · rw [if_pos hc]
      rw [or_eq_zero, hcm, hc0] at hc
      rw [if_neg (by tauto), val_toWords_of_lt (by rw [hR]; exact hred)]
      have : cy.toNat = 0 := by omega
      rw [ht, this]; simp
    · rw [if_neg hc]
      rw [or_eq_zero, hcm, hc0] at hc
      have hor : cy.toNat = 1 ∨ n.value < val red := by tauto
      rw [if_pos hor, val_toWords, hR]
      rcases Nat.lt_or_ge cy.toNat 1 with h0 | h0
      · have h00 : cy.toNat = 0 := by omega
        rw [h00, Nat.mul_zero, Nat.add_zero] at ht
        have : n.value < val red := by omega
        rw [show val red + R - n.value = (t - n.value) + R by omega, Nat.add_mod_right, Nat.mod_eq_of_lt (by omega)]
      · have h00 : cy.toNat = 1 := by omega
        rw [h00, Nat.mul_one] at ht
        rw [← ht, Nat.mod_eq_of_lt (by omega)]
  obtain ⟨r1, r2⟩ := hres
  refine ⟨r1, ?_, ?_, ?_⟩
  · rw [r2]; split
    · omega
    · rename_i h
      have : cy.toNat = 0 := by omega
      rw [this, Nat.mul_zero, Nat.add_zero] at ht
      omega
  · rw [r2]; split
    · rename_i h
      have hle : n.value ≤ t := by
        rcases h with h | h
        · rw [h, Nat.mul_one] at ht; omega
        · omega
      refine Nat.ModEq.trans (Nat.ModEq.mul_right _ ?_) hcong
      have h3 : t - n.value + n.value ≡ t - n.value [MOD n.value] := by simp [Nat.ModEq]
      rw [Nat.sub_add_cancel hle] at h3
      exact h3.symm
    · exact hcong
  · intro h0
    have hq0 : q = 0 := by
      rw [h0, Nat.zero_add] at e
      have hd : R ∣ q * n.value := ⟨t, e⟩
      have hd2 : R ∣ q := by
        refine Nat.Coprime.dvd_of_dvd_mul_right ?_ hd
        rw [← hR, Nat.Coprime, Nat.gcd_comm]; exact coprime_two_pow c.odd _
      exact Nat.eq_zero_of_dvd_of_lt hd2 hq
    have ht0 : t = 0 := by
      rw [h0, hq0] at e
      simp at e; omega
    rw [r2, ht0]; simp

/-- What a Montgomery product is. -/
structure IsProd (n r : PosInt N) (x : Nat) : Prop where
  inv : r.Inv
  used : r.used = n.used
  le : r.value ≤ n.value
  cong : r.value * 2 ^ (64 * n.used) ≡ x [MOD n.value]
  zero : x = 0 → r.value = 0

theorem isProd_ofWords {n : PosInt N} (hn : n.Inv) {ws : Words} {x : Nat} (h1 : ws.length = n.used) (h2 : val ws ≤ n.value)
    (h3 : val ws * 2 ^ (64 * n.used) ≡ x [MOD n.value]) (h4 : x = 0 → val ws = 0) : IsProd n (ofWords N ws) x := by
  refine ⟨ofWords_inv (by rw [h1]; exact hn.used), h1, ?_, ?_, ?_⟩ <;> rw [ofWords_value] <;> assumption

theorem isProd_overwrite {n p : PosInt N} (hp : p.Inv) (hu : p.used = n.used) {ws : Words} {x : Nat} (h1 : ws.length = n.used)
    (h2 : val ws ≤ n.value) (h3 : val ws * 2 ^ (64 * n.used) ≡ x [MOD n.value]) (h4 : x = 0 → val ws = 0) :
    IsProd n (p.overwrite ws) x := by
  refine ⟨overwrite_inv hp (by rw [h1, hu]), h1, ?_, ?_, ?_⟩ <;> rw [overwrite_value] <;> assumption

theorem zero_of_lt {n r k : Nat} (ho : n % 2 = 1) (hlt : r < n) (h : r * 2 ^ k ≡ 0 [MOD n]) : r = 0 := by
  have hd : n ∣ r * 2 ^ k := (Nat.modEq_zero_iff_dvd).1 h
  exact Nat.eq_zero_of_dvd_of_lt (Nat.Coprime.dvd_of_dvd_mul_right (coprime_two_pow ho k) hd) hlt

theorem montMul_raw (hA : A.Ok) {n a b : PosInt N} {n0 : Word} (c : Ctx n n0) (ha : a.Inv) (hb : b.Inv) (hua : a.used = n.used)
    (hub : b.used = n.used) (hbd : a.value * b.value ≤ 2 ^ (64 * n.used) * n.value) :
    IsProd n (a.montMul A b n n0) (a.value * b.value) := by
  have la := length_asWords ha
  have lb := length_asWords hb
  have ln := length_asWords c.inv
  have k : ∀ m, n.used = m → m % 8 = 0 → IsProd n (ofWords N (montReduce8 A (kmul (2 * m) a.asWords b.asWords) n n0)) (a.value * b.value) := by
    intro m hm h8
    have hv : val (kmul (2 * m) a.asWords b.asWords) = a.value * b.value := by
      rw [kmul, val_toWords_of_lt]
      · rfl
      · rw [show 64 * (2 * m) = 64 * m + 64 * m by omega, Nat.pow_add]
        have h1 := val_lt a.asWords; have h2 := val_lt b.asWords
        rw [la, hua, hm] at h1; rw [lb, hub, hm] at h2
        exact Nat.mul_lt_mul'' h1 h2
    obtain ⟨r1, r2, r3, r4⟩ := montReduce8_ok hA c (by rw [hm]; exact h8) (kmul (2 * m) a.asWords b.asWords)
      (by simp [kmul, hm]) (by rw [hv]; exact hbd)
    rw [hv] at r3 r4
    exact isProd_ofWords c.inv r1 r2 r3 r4
  rw [montMul]
  split
  · exact k 16 (by tauto) (by decide)
  split
  · exact k 32 (by tauto) (by decide)
  have wa : a.asWordsWithLenOf n = a.asWords := by rw [asWordsWithLenOf, asWords, hua]
  have wb : b.asWordsWithLenOf n = b.asWords := by rw [asWordsWithLenOf, asWords, hub]
  rw [wa, wb]
  obtain ⟨r1, r2⟩ := hA.montmul a.asWords b.asWords n.asWords (by rw [la, ln, hua]) (by rw [lb, ln, hub]) c.odd
    (by rw [ln]; exact hbd)
  rw [ln] at r2
  refine isProd_ofWords c.inv (by rw [hA.montmul_length, ln]) (Nat.le_of_lt r1) r2 ?_
  intro h0
  refine zero_of_lt c.odd r1 ?_ (k := 64 * n.used)
  have r3 : _ ≡ a.value * b.value [MOD n.value] := r2
  rw [h0] at r3; exact r3

theorem montSqr_core (hA : A.Ok) {n a : PosInt N} {n0 : Word} (c : Ctx n n0) (ha : a.Inv) (hua : a.used = n.used)
    (hbd : a.value * a.value ≤ 2 ^ (64 * n.used) * n.value) :
    IsProd n (a.montSqr A n n0) (a.value * a.value) ∧ IsProd n (a.montSqrInPlace A n n0) (a.value * a.value) := by
  have la := length_asWords ha
  have ln := length_asWords c.inv
  have k : ∀ m, n.used = m → m % 8 = 0 → IsProd n (ofWords N (montReduce8 A (ksqr (2 * m) a.asWords) n n0)) (a.value * a.value) ∧
      IsProd n (a.overwrite (montReduce8 A (ksqr (2 * m) a.asWords) n n0)) (a.value * a.value) := by
    intro m hm h8
    have hv : val (ksqr (2 * m) a.asWords) = a.value * a.value := by
      rw [ksqr, val_toWords_of_lt]
      · rfl
      · rw [show 64 * (2 * m) = 64 * m + 64 * m by omega, Nat.pow_add]
        have h1 := val_lt a.asWords
        rw [la, hua, hm] at h1
        exact Nat.mul_lt_mul'' h1 h1
    obtain ⟨r1, r2, r3, r4⟩ := montReduce8_ok hA c (by rw [hm]; exact h8) (ksqr (2 * m) a.asWords)
      (by simp [ksqr, hm]) (by rw [hv]; exact hbd)
    rw [hv] at r3 r4
    exact ⟨isProd_ofWords c.inv r1 r2 r3 r4, isProd_overwrite ha hua r1 r2 r3 r4⟩
  rw [montSqr, montSqrInPlace]
  split
  · exact k 16 (by tauto) (by decide)
  split
  · exact k 32 (by tauto) (by decide)
  have wa : a.asWordsWithLenOf n = a.asWords := by rw [asWordsWithLenOf, asWords, hua]
  rw [wa]
  obtain ⟨r1, r2⟩ := hA.montsqr a.asWords n.asWords (by rw [la, ln, hua]) c.odd (by rw [ln]; exact hbd)
  rw [ln] at r2
  have := isProd_ofWords c.inv (by rw [hA.montsqr_length, ln]) (Nat.le_of_lt r1) r2 (by
    intro h0
    refine zero_of_lt c.odd r1 ?_ (k := 64 * n.used)
    have r3 : _ ≡ a.value * a.value [MOD n.value] := r2
    change a.value * a.value = 0 at h0
    rw [h0] at r3; exact r3)
  exact ⟨this, this⟩

/-- `a` holds `x` in the Montgomery domain, not necessarily below the modulus but at most the modulus. -/
structure Rep (n a : PosInt N) (x : Nat) : Prop where
  inv : a.Inv
  used : a.used = n.used
  le : a.value ≤ n.value
  cong : a.value ≡ x * 2 ^ (64 * n.used) [MOD n.value]

theorem Rep.of_cong {n a : PosInt N} {x y : Nat} (h : Rep n a x) (e : x ≡ y [MOD n.value]) : Rep n a y :=
  ⟨h.inv, h.used, h.le, h.cong.trans (e.mul_right _)⟩

theorem sq_le {n a b : PosInt N} (hn : n.Inv) (h1 : a.value ≤ n.value) (h2 : b.value ≤ n.value) :
    a.value * b.value ≤ 2 ^ (64 * n.used) * n.value :=
  Nat.mul_le_mul (Nat.le_trans h1 (Nat.le_of_lt (value_lt hn))) h2

theorem IsProd.rep {n r : PosInt N} {n0 : Word} (c : Ctx n n0) {x y : Nat} (h : IsProd n r x)
    (hx : x ≡ y * 2 ^ (64 * n.used) * 2 ^ (64 * n.used) [MOD n.value]) : Rep n r y :=
  ⟨h.inv, h.used, h.le, Nat.ModEq.cancel_right_of_coprime (coprime_two_pow c.odd _) (h.cong.trans hx)⟩

theorem montMul_rep (hA : A.Ok) {n a b : PosInt N} {n0 : Word} (c : Ctx n n0) {x y : Nat} (ha : Rep n a x) (hb : Rep n b y) :
    Rep n (a.montMul A b n n0) (x * y) := by
  refine (montMul_raw hA c ha.inv hb.inv ha.used hb.used (sq_le c.inv ha.le hb.le)).rep c ?_
  refine (ha.cong.mul hb.cong).trans ?_
  rw [show x * 2 ^ (64 * n.used) * (y * 2 ^ (64 * n.used)) = x * y * 2 ^ (64 * n.used) * 2 ^ (64 * n.used) by ring]

theorem montSqr_rep (hA : A.Ok) {n a : PosInt N} {n0 : Word} (c : Ctx n n0) {x : Nat} (ha : Rep n a x) :
    Rep n (a.montSqr A n n0) (x * x) ∧ Rep n (a.montSqrInPlace A n n0) (x * x) := by
  obtain ⟨h1, h2⟩ := montSqr_core hA c ha.inv ha.used (sq_le c.inv ha.le ha.le)
  have e := ha.cong.mul ha.cong
  rw [show x * 2 ^ (64 * n.used) * (x * 2 ^ (64 * n.used)) = x * x * 2 ^ (64 * n.used) * 2 ^ (64 * n.used) by ring] at e
  exact ⟨h1.rep c e, h2.rep c e⟩

theorem montifier_ok (hA : A.Ok) {n : PosInt N} (hn : n.Inv) (ho : n.value % 2 = 1) :
    (n.montifier A).Inv ∧ (n.montifier A).used = n.used ∧ (n.montifier A).value < n.value ∧
    (n.montifier A).value ≡ 2 ^ (64 * n.used) * 2 ^ (64 * n.used) [MOD n.value] := by
  have hl : (A.montifier n.asWords).length = n.used := by rw [hA.montifier_length, length_asWords hn]
  have hv : (n.montifier A).value = 2 ^ (128 * n.used) % n.value := by
    have := hA.montifier n.asWords ho
    rw [length_asWords hn] at this
    rw [montifier, ofWords_value, this]; rfl
  refine ⟨ofWords_inv (by rw [hl]; exact hn.used), hl, ?_, ?_⟩
  · rw [hv]; exact Nat.mod_lt _ (by omega)
  · rw [hv, ← Nat.pow_add, show 64 * n.used + 64 * n.used = 128 * n.used by omega]
    exact Nat.mod_modEq _ _

/-- A montifier: any value congruent to `R^2`, below the modulus. -/
structure IsMontifier (n m : PosInt N) : Prop where
  inv : m.Inv
  used : m.used = n.used
  lt : m.value < n.value
  cong : m.value ≡ 2 ^ (64 * n.used) * 2 ^ (64 * n.used) [MOD n.value]

theorem isMontifier (hA : A.Ok) {n : PosInt N} (hn : n.Inv) (ho : n.value % 2 = 1) : IsMontifier n (n.montifier A) := by
  obtain ⟨h1, h2, h3, h4⟩ := montifier_ok hA hn ho
  exact ⟨h1, h2, h3, h4⟩

theorem toMontgomery_ok (hA : A.Ok) {n m p : PosInt N} {n0 : Word} (c : Ctx n n0) (hm : IsMontifier n m) (hp : p.Inv)
    (hlt : p.value < 2 ^ (64 * n.used)) : Rep n (p.toMontgomery A m n) p.value ∧ (p.toMontgomery A m n).value < n.value := by
  have ln := length_asWords c.inv
  have v1 : val (p.asWordsWithLenOf n) = p.value := val_take_words hp hlt
  have v2 : val (m.asWordsWithLenOf n) = m.value := val_take_words hm.inv (Nat.lt_trans hm.lt (value_lt c.inv))
  obtain ⟨r1, r2⟩ := hA.montmul (p.asWordsWithLenOf n) (m.asWordsWithLenOf n) n.asWords
    (by rw [asWordsWithLenOf, length_take_words hp c.inv.used, ln])
    (by rw [asWordsWithLenOf, length_take_words hm.inv c.inv.used, ln]) c.odd
    (by rw [v1, v2, ln]; exact Nat.mul_le_mul (Nat.le_of_lt hlt) (Nat.le_of_lt hm.lt))
  rw [ln, v1, v2] at r2
  have r2' : _ * 2 ^ (64 * n.used) ≡ p.value * m.value [MOD n.value] := r2
  have hl : (A.montmul (p.asWordsWithLenOf n) (m.asWordsWithLenOf n) n.asWords).length = n.used := by rw [hA.montmul_length, ln]
  refine ⟨⟨ofWords_inv (by rw [hl]; exact c.inv.used), hl, ?_, ?_⟩, ?_⟩
  · rw [toMontgomery, ofWords_value]; exact Nat.le_of_lt r1
  · rw [toMontgomery, ofWords_value]
    refine Nat.ModEq.cancel_right_of_coprime (coprime_two_pow c.odd (64 * n.used)) (r2'.trans ?_)
    rw [Nat.mul_assoc]
    exact hm.cong.mul_left _
  · rw [toMontgomery, ofWords_value]; exact r1

theorem fixedOne_ok {n : PosInt N} (hn : n.Inv) (h : n.value ≠ 0) :
    n.fixedOne.Inv ∧ n.fixedOne.used = n.used ∧ n.fixedOne.value = 1 := by
  obtain ⟨h1, h2⟩ := expand_one_inv (used_pos h) hn.used 1#64
  exact ⟨h1, rfl, h2⟩

theorem oneMont_ok (hA : A.Ok) {n m : PosInt N} {n0 : Word} (c : Ctx n n0) (hm : IsMontifier n m) :
    Rep n (n.fixedOne.montMul A m n n0) 1 := by
  have hn0 : n.value ≠ 0 := by have := c.odd; omega
  obtain ⟨h1, h2, h3⟩ := fixedOne_ok c.inv hn0
  refine (montMul_raw hA c h1 hm.inv h2 hm.used ?_).rep c ?_
  · rw [h3, Nat.one_mul]
    exact Nat.le_trans (Nat.le_of_lt hm.lt) (Nat.le_mul_of_pos_left _ (Nat.two_pow_pos _))
  · rw [h3, Nat.one_mul, Nat.one_mul]; exact hm.cong

theorem fromMontgomery_ok (hA : A.Ok) {n a : PosInt N} {n0 : Word} (c : Ctx n n0) {x : Nat} (ha : Rep n a x) :
    (a.fromMontgomery A n).Inv ∧ (a.fromMontgomery A n).used = n.used ∧ (a.fromMontgomery A n).value = x % n.value := by
  have ln := length_asWords c.inv
  obtain ⟨r1, r2⟩ := hA.demont a.asWords n.asWords (by rw [length_asWords ha.inv, ln, ha.used]) c.odd
  rw [ln] at r2
  have hl : (A.demont a.asWords n.asWords).length = n.used := by rw [hA.demont_length, ln]
  refine ⟨ofWords_inv (by rw [hl]; exact c.inv.used), hl, ?_⟩
  rw [fromMontgomery, ofWords_value]
  have r3 : val (A.demont a.asWords n.asWords) * 2 ^ (64 * n.used) ≡ a.value [MOD n.value] := r2
  have := Nat.ModEq.cancel_right_of_coprime (coprime_two_pow c.odd (64 * n.used)) (r3.trans ha.cong)
  rw [← this]
  exact (Nat.mod_eq_of_lt r1).symm

/-- Reduction of a wider number. -/
theorem reduce_ok (hA : A.Ok) {p : PosInt N} {n m : PosInt M} {n0 : Word} (c : Ctx n n0) (hm : IsMontifier n m) (hp : p.Inv)
    (hMN : M < N) (hlen : p.used ≤ 2 * n.used) (hle : p.value ≤ 2 ^ (64 * n.used) * n.value) :
    ∃ r : PosInt M, p.reduce A n m = some r ∧ r.Inv ∧ r.used = n.used ∧ r.value = p.value % n.value := by
  refine ⟨_, if_pos hMN, ?_⟩
  have ln := length_asWords c.inv
  obtain ⟨r1, r2⟩ := hA.montredc p.asWords n.asWords n.used (by rw [length_asWords hp, ln]; omega) c.odd hle
  have hl : (A.montredc p.asWords n.asWords n.used).length = n.used := by rw [hA.montredc_length, ln]
  have e : p.montRedc A n = ofWords M (A.montredc p.asWords n.asWords n.used) := by rw [montRedc, ln]
  have hi : (p.montRedc A n).Inv := by rw [e]; exact ofWords_inv (by rw [hl]; exact c.inv.used)
  have hv : (p.montRedc A n).value = val (A.montredc p.asWords n.asWords n.used) := by rw [e, ofWords_value]
  have hlt : (p.montRedc A n).value < n.value := by rw [hv]; exact r1
  obtain ⟨t1, t2⟩ := toMontgomery_ok hA c hm hi (Nat.lt_trans hlt (value_lt c.inv))
  refine ⟨t1.inv, t1.used, ?_⟩
  have t3 := t1.cong
  rw [hv] at t3
  have r3 : val (A.montredc p.asWords n.asWords n.used) * 2 ^ (64 * n.used) ≡ p.value [MOD n.value] := r2
  have := t3.trans r3
  rw [← this]
  exact (Nat.mod_eq_of_lt t2).symm

end Verif.PosInt
