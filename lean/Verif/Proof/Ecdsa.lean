import Verif.Model.Ecdsa
import Verif.Proof.EcKeys
import Verif.Proof.Hmac
import Verif.Proof.Pkcs1

/-!
Lemmas on the model of `high/ecdsa.rs`.
-/
namespace Verif.Ecdsa

open Verif.Ec Verif.Spec.Nist Verif.EcCard Verif.Hmac

variable {N : Nat} {D : Params} [Fact D.p.Prime] [Fact D.n.Prime] {C : Ec.Curve N} {A : Ec.Asm N}
variable {F : HashFn} {H : Bytes → Bytes} {limit : Nat}

section
variable (hA : A.Ok D.p D.n) (hC : CurveOk D C)
include hA hC

theorem hashToScalar_eq (h : Bytes) :
    ∃ e : Scalar N, hashToScalar A h = .ok e ∧ e.toNat = hashInt (N * 8) h % D.n ∧ e.toNat < D.n := by
  have hlt := hC.const.ord.lt
  have hpos : 0 < D.n := (Fact.out : D.n.Prime).pos
  have ht : (if h.length > N * 8 then h.take (N * 8) else h) = h.take (N * 8) := by
    split
    · rfl
    · rw [List.take_of_length_le (by omega)]
  have hb : beNat (h.take (N * 8)) < 2 ^ (64 * N) := by
    rw [← pow8]
    refine Nat.lt_of_lt_of_le (beNat_lt _) (Nat.pow_le_pow_right (by omega) ?_)
    rw [List.length_take]; omega
  have hm := Nat.mod_lt (beNat (h.take (N * 8))) hpos
  have e : hashToScalar A h = .ok (BitVec.ofNat _ (beNat (h.take (N * 8)) % D.n)) := by
    unfold hashToScalar
    dsimp only
    rw [ht, fromBytesReduced, Ec.fromBytesReduced_eq hA _ hb]
  refine ⟨_, e, ?_, ?_⟩
  · rw [BitVec.toNat_ofNat, Nat.mod_eq_of_lt (by omega), hashInt]
  · rw [BitVec.toNat_ofNat, Nat.mod_eq_of_lt (by omega)]; exact hm

end

theorem verifies_mod {Q : D.Pt} {e r s : Nat} : D.Verifies Q (e % D.n) r s ↔ D.Verifies Q e r s := by
  have : ∀ w, e % D.n * w % D.n = e * w % D.n := fun w => Nat.mod_mul_mod e w D.n
  simp only [Params.Verifies, this]

theorem signs_mod {d e k r s : Nat} : D.Signs d (e % D.n) k r s ↔ D.Signs d e k r s := by
  have : (e % D.n + r * d) % D.n = (e + r * d) % D.n := Nat.mod_add_mod e D.n _
  simp only [Params.Signs, this]

/-! ### The nonce -/

section
variable (mac : Bytes → Bytes → Bytes) (o len : Nat) (start : Bytes × Bytes)

/-- The bytes of request number `j`. -/
def out (j : Nat) : Nat :=
  beNat (Spec.Hmac.drbgGenerate mac o (drbgAfter mac o len start j).1 (drbgAfter mac o len start j).2 len).1
end

/-- The state of the model is that of the specification after `j` requests. -/
def Rel (F : HashFn) (H : Bytes → Bytes) (len : Nat) (start : Bytes × Bytes) (s : Drbg) (j : Nat) : Prop :=
  (s.k, s.v) = drbgAfter (mac F H) F.outLen len start j ∧ s.reseedCounter = j + 1 ∧ s.k.length = F.outLen ∧
    s.v.length = F.outLen

variable (hA : A.Ok D.p D.n) (hC : CurveOk D C) (CF : Correct F H limit) (hl : F.blockLen + F.outLen + 1 < limit)

include CF hl in
theorem fill_rel {len : Nat} {start : Bytes × Bytes} {s : Drbg} {j : Nat} (h : Rel F H len start s j) (hj : j + 1 < 2 ^ 48) :
    ∃ s' b, fill F s len = some (s', b) ∧ beNat b = out (mac F H) F.outLen len start j ∧ Rel F H len start s' (j + 1) := by
  obtain ⟨h1, h2, h3, h4⟩ := h
  obtain ⟨s', e, c, k, v, st⟩ := fill_ok CF s len h3 h4 hl (by omega)
  refine ⟨s', _, e, ?_, ?_, by omega, k, v⟩
  · rw [out, ← h1]
  · rw [st, drbgAfter, ← h1]

include hA hC CF hl in
theorem generateDrbg_eq {start : Bytes × Bytes} (m : Nat) : ∀ {s : Drbg} {j : Nat}, Rel F H (N * 8) start s j → j + m < 2 ^ 48 →
    let c := out (mac F H) F.outLen (N * 8) start
    (∃ i k s', j ≤ i ∧ (∀ t, j ≤ t → t < i → ¬ (1 ≤ c t ∧ c t < D.n)) ∧ 1 ≤ c i ∧ c i < D.n ∧
      generateDrbg A F m s = .ok (k, s') ∧ k.toNat = c i ∧ Rel F H (N * 8) start s' (i + 1) ∧ i < j + m) ∨
    ((∀ t, j ≤ t → t < j + m → ¬ (1 ≤ c t ∧ c t < D.n)) ∧ generateDrbg A F m s = .error (.err .RngFailed)) := by
  have hpos : 0 < D.n := (Fact.out : D.n.Prime).pos
  have hlt := hC.const.ord.lt
  induction m with
  | zero => intro s j _ _; exact .inr ⟨fun t _ _ => by omega, rfl⟩
  | succ m ih =>
    intro s j h hj c
    obtain ⟨s', b, e, hb, hr⟩ := fill_rel CF hl h (by omega)
    have hb' : beNat b = c j := hb
    by_cases hk : 1 ≤ c j ∧ c j < D.n
    · refine .inl ⟨j, BitVec.ofNat _ (beNat b), s', Nat.le_refl _, fun t _ _ => by omega, hk.1, hk.2, ?_, ?_, hr, by omega⟩
      · rw [generateDrbg, e]
        dsimp only
        rw [privateFromBytes, Ec.fromBytesChecked_eq hA hpos, if_neg (by omega), if_neg (by omega)]
      · rw [BitVec.toNat_ofNat, hb, Nat.mod_eq_of_lt (hk.2.trans hlt)]
    · have hstep : generateDrbg A F (m + 1) s = generateDrbg A F m s' := by
        rw [generateDrbg, e]
        dsimp only
        rw [privateFromBytes, Ec.fromBytesChecked_eq hA hpos]
        by_cases h1 : 2 ^ (64 * N) ≤ beNat b
        · rw [if_pos h1]
        · rw [if_neg h1, if_pos (by omega)]
      rw [hstep]
      rcases ih hr (by omega) with ⟨i, k, s2, h1, h2, h3, h4, h5, h6, h7, h8⟩ | ⟨h1, h2⟩
      · refine .inl ⟨i, k, s2, by omega, ?_, h3, h4, h5, h6, h7, by omega⟩
        intro t ht ht'
        by_cases htj : t = j
        · rw [htj]; exact hk
        · exact h2 t (by omega) ht'
      · refine .inr ⟨?_, h2⟩
        intro t ht ht'
        by_cases htj : t = j
        · rw [htj]; exact hk
        · exact h1 t (by omega) (by omega)

include hA hC CF hl in
/-- The loop takes the first suitable candidate; it fails only after 64 candidates in a row that are out of range. -/
theorem nonceLoop_eq {start : Bytes × Bytes} (fuel : Nat) : ∀ {s : Drbg} {j : Nat}, Rel F H (N * 8) start s j →
    j + 64 * fuel < 2 ^ 48 →
    let c := out (mac F H) F.outLen (N * 8) start
    (∃ i k r, j ≤ i ∧ (∀ t, j ≤ t → t < i → ¬ D.Suitable (c t)) ∧ D.Suitable (c i) ∧
      nonceLoop C A F fuel s = some (.ok (k, r)) ∧ k.toNat = c i ∧ ∃ x y, D.At (k.toNat • D.G) x y ∧ r.toNat = x % D.n) ∨
    (∃ i, j ≤ i ∧ (∀ t, j ≤ t → t < i → ¬ D.Suitable (c t)) ∧ (∀ t, i ≤ t → t < i + 64 → ¬ (1 ≤ c t ∧ c t < D.n)) ∧
      nonceLoop C A F fuel s = some (.error (.err .RngFailed))) ∨
    (∃ i, j + fuel ≤ i ∧ (∀ t, j ≤ t → t < i → ¬ D.Suitable (c t)) ∧ nonceLoop C A F fuel s = none) := by
  have hpos : 0 < D.n := (Fact.out : D.n.Prime).pos
  have hlt := hC.const.ord.lt
  induction fuel with
  | zero => intro s j _ _; exact .inr (.inr ⟨j, by omega, fun t _ _ => by omega, rfl⟩)
  | succ fuel ih =>
    intro s j h hj c
    rw [nonceLoop]
    rcases generateDrbg_eq hA hC CF hl 64 h (by omega) with ⟨i, k, s', h1, h2, h3, h4, h5, h6, h7, h8⟩ | ⟨h1, h2⟩
    · have hbefore : ∀ t, j ≤ t → t < i → ¬ D.Suitable (c t) := fun t a b hs => h2 t a b ⟨hs.1, hs.2.1⟩
      rw [h5]
      dsimp only
      have hk0 : k.toNat ≠ 0 := by omega
      have hkn : k.toNat < D.n := by omega
      obtain ⟨x, y, hat⟩ := at_exists (nsmul_ne hC.good (G_ne hC.good) hk0 hkn)
      rw [publicKeyXScalar_eq hA hC hk0 hkn hat]
      dsimp only
      have hm := Nat.mod_lt x hpos
      have hx : (BitVec.ofNat (64 * N) (x % D.n)).toNat = x % D.n := by
        rw [BitVec.toNat_ofNat, Nat.mod_eq_of_lt (by omega)]
      by_cases hz : x % D.n = 0
      · have hns : ¬ D.Suitable (c i) := by
          rintro ⟨-, -, x', y', hat', hne⟩
          have e6 : k.toNat = c i := h6
          rw [← e6] at hat'
          obtain ⟨rfl, -⟩ := at_inj hat' hat
          exact hne hz
        rw [if_pos (by rw [Scalar.isZero, decide_eq_true_eq]; apply BitVec.eq_of_toNat_eq; rw [hx, hz]; rfl)]
        have hb2 : ∀ t, j ≤ t → t < i + 1 → ¬ D.Suitable (c t) := by
          intro t a b
          by_cases ht : t = i
          · rw [ht]; exact hns
          · exact hbefore t a (by omega)
        rcases ih h7 (by omega) with ⟨i', k', r', g1, g2, g⟩ | ⟨i', g1, g2, g⟩ | ⟨i', g1, g2, g⟩
        · refine .inl ⟨i', k', r', by omega, ?_, g⟩
          intro t a b
          by_cases ht : t < i + 1
          · exact hb2 t a ht
          · exact g2 t (by omega) b
        · refine .inr (.inl ⟨i', by omega, ?_, g⟩)
          intro t a b
          by_cases ht : t < i + 1
          · exact hb2 t a ht
          · exact g2 t (by omega) b
        · refine .inr (.inr ⟨i', by omega, ?_, g⟩)
          intro t a b
          by_cases ht : t < i + 1
          · exact hb2 t a ht
          · exact g2 t (by omega) b
      · rw [if_neg (by
          rw [Scalar.isZero, decide_eq_true_eq]; intro hc; apply hz; rw [← hx, hc]; rfl)]
        refine .inl ⟨i, k, _, h1, hbefore, ⟨h3, h4, x, y, ?_, hz⟩, rfl, h6, x, y, hat, hx⟩
        have e6 : k.toNat = c i := h6
        rw [← e6]; exact hat
    · rw [h2]
      exact .inr (.inl ⟨j, Nat.le_refl _, fun t _ _ => by omega, h1, rfl⟩)

/-! ### Signing and verifying -/

include hA hC CF in
theorem verify_eq {Q : D.Pt} {K : PublicKey N} (hK : PubRep Q K) (msg : List Bytes) (hm : msg.flatten.length < limit)
    (sig : Bytes) (hs : sig.length = N * 8 * 2) :
    (D.Verifies Q (hashInt (N * 8) (H msg.flatten)) (beNat (sig.take (N * 8))) (beNat (sig.drop (N * 8))) ∧
      verify C A F K msg sig = .ok ()) ∨
    (¬ D.Verifies Q (hashInt (N * 8) (H msg.flatten)) (beNat (sig.take (N * 8))) (beNat (sig.drop (N * 8))) ∧
      verify C A F K msg sig = .error (.err .BadSignature)) := by
  have hpos : 0 < D.n := (Fact.out : D.n.Prime).pos
  have hlt := hC.const.ord.lt
  have hlen : ∀ b : Bytes, b.length = N * 8 → beNat b < 2 ^ (64 * N) := fun b hb => by
    rw [← pow8, ← hb]; exact beNat_lt b
  have hr := hlen (sig.take (N * 8)) (by rw [List.length_take]; omega)
  have hs' := hlen (sig.drop (N * 8)) (by rw [List.length_drop]; omega)
  obtain ⟨e, he, he1, he2⟩ := hashToScalar_eq hA hC (H msg.flatten)
  rw [← verifies_mod, ← he1]
  have hv : verify C A F K msg sig = (do
      let r ← badSignature (Scalar.fromBytesChecked A (sig.take (N * 8)))
      let s ← badSignature (Scalar.fromBytesChecked A (sig.drop (N * 8)))
      let hash ← hashMessage F msg
      let e ← hashToScalar A hash
      K.rawEcdsaVerify C A r s e) := by
    unfold verify
    rw [if_neg (by omega)]
  rw [hv, Ec.fromBytesChecked_eq hA hpos, Ec.fromBytesChecked_eq hA hpos]
  generalize beNat (sig.take (N * 8)) = r at hr
  generalize beNat (sig.drop (N * 8)) = s at hs'
  rw [if_neg (c := 2 ^ (64 * N) ≤ r) (by omega), if_neg (c := 2 ^ (64 * N) ≤ s) (by omega)]
  have hrn : (BitVec.ofNat (64 * N) r).toNat = r := by rw [BitVec.toNat_ofNat, Nat.mod_eq_of_lt hr]
  have hsn : (BitVec.ofNat (64 * N) s).toNat = s := by rw [BitVec.toNat_ofNat, Nat.mod_eq_of_lt hs']
  by_cases c1 : r = 0 ∨ D.n ≤ r
  · refine .inr ⟨fun hv => ?_, ?_⟩
    · obtain ⟨a, b, -⟩ := hv; omega
    · rw [if_pos c1]; rfl
  rw [if_neg c1]
  by_cases c2 : s = 0 ∨ D.n ≤ s
  · refine .inr ⟨fun hv => ?_, ?_⟩
    · obtain ⟨-, -, a, b, -⟩ := hv; omega
    · rw [if_pos c2]; rfl
  rw [if_neg c2]
  have hh : hashMessage F msg = .ok (H msg.flatten) := by rw [hashMessage, Pkcs1.hashParts_ok CF msg hm]
  have hstep : (do
      let r ← badSignature (.ok (BitVec.ofNat (64 * N) r) : GR (Scalar N))
      let s ← badSignature (.ok (BitVec.ofNat (64 * N) s) : GR (Scalar N))
      let hash ← hashMessage F msg
      let e ← hashToScalar A hash
      K.rawEcdsaVerify C A r s e) = K.rawEcdsaVerify C A (BitVec.ofNat (64 * N) r) (BitVec.ofNat (64 * N) s) e := by
    rw [hh]
    simp only [badSignature, bind, Except.bind, he]
  have := rawEcdsaVerify_eq hA hC hK (r := BitVec.ofNat (64 * N) r) (s := BitVec.ofNat (64 * N) s) (e := e)
    (by omega) (by omega) (by omega) (by omega) he2
  rw [hrn, hsn] at this
  rw [← hstep] at this
  exact this

include hA hC CF hl in
theorem rfc6979_eq (hN : N ≤ 6) (d : Scalar N) (hd : d.toNat < D.n) (msg : List Bytes) (hm : msg.flatten.length < limit)
    (random : Bytes) (hr : F.blockLen + F.outLen + 1 + (96 + random.length) < limit) (fuel : Nat) (hf : 64 * fuel < 2 ^ 48)
    (sigLen : Nat) (hs : N * 8 * 2 ≤ sigLen) :
    let e := hashInt (N * 8) (H msg.flatten)
    let c := D.candidate (mac F H) F.outLen (N * 8) d.toNat e random
    let res := rfc6979SignWithRandom C A F fuel d msg random sigLen
    (∃ j r s, (∀ i < j, ¬ D.Suitable (c i)) ∧ D.Suitable (c j) ∧ D.Signs d.toNat e (c j) r s ∧
      res = some (.ok (toBE (N * 8) r ++ toBE (N * 8) s))) ∨
    (∃ j, (∀ i < j, ¬ D.Suitable (c i)) ∧ (∀ i, j ≤ i → i < j + 64 → ¬ (1 ≤ c i ∧ c i < D.n)) ∧
      res = some (.error (.err .RngFailed))) ∨
    (∃ j, fuel ≤ j ∧ (∀ i < j, ¬ D.Suitable (c i)) ∧ res = none) := by
  intro e0 c res
  obtain ⟨e, he, he1, he2⟩ := hashToScalar_eq hA hC (H msg.flatten)
  have hh : hashMessage F msg = .ok (H msg.flatten) := by rw [hashMessage, Pkcs1.hashParts_ok CF msg hm]
  obtain ⟨s0, es, hc0, hk0, hv0, hst⟩ := drbgUpdate_ok CF
    ⟨List.replicate F.outLen 0#8, List.replicate F.outLen 1#8, 0⟩ [privateAsBytes d, e.asBytes, random]
    (by simp) (by simp) (by
      simp only [privateAsBytes, Scalar.asBytes, toBigEndian_eq, List.flatten_cons, List.flatten_nil, List.length_append,
        toBE_length, List.length_nil]
      omega)
  have hprep : prepare A F d msg random = .ok (e, s0) := by
    unfold prepare
    have h1 : encode MAX_SCALAR_LEN d = .ok (privateAsBytes d) := by rw [encode, if_pos (by rw [MAX_SCALAR_LEN]; omega)]
    rw [hh, h1]
    simp only [bind, Except.bind, he]
    rw [drbgNew, es]
  have hres : res = match nonceLoop C A F fuel s0 with
      | none => none
      | some (.error err) => some (.error err)
      | some (.ok (k, r)) => some (.ok (r.asBytes ++ (rawEcdsaSign C A d k e r).asBytes)) := by
    show rfc6979SignWithRandom C A F fuel d msg random sigLen = _
    unfold rfc6979SignWithRandom
    rw [if_neg (by omega)]
    simp only [hprep]
    cases nonceLoop C A F fuel s0 with
    | none => rfl
    | some v => cases v <;> rfl
  let start := Spec.Hmac.drbgInstantiate (mac F H) F.outLen (toBE (N * 8) d.toNat) (toBE (N * 8) (e0 % D.n)) random
  have hrel : Rel F H (N * 8) start s0 0 := by
    refine ⟨?_, by rw [hc0], hk0, hv0⟩
    rw [hst, drbgAfter]
    show _ = start
    simp only [start, Spec.Hmac.drbgInstantiate, privateAsBytes, Scalar.asBytes, toBigEndian_eq, he1]
    simp [e0]
  have hc : out (mac F H) F.outLen (N * 8) start = c := rfl
  rcases nonceLoop_eq hA hC CF hl fuel hrel (by omega) with
    ⟨i, k, r, h1, h2, h3, h4, h5, x, y, h6, h7⟩ | ⟨i, h1, h2, h3, h4⟩ | ⟨i, h1, h2, h4⟩
  · rw [hc] at h2 h3 h5
    refine .inl ⟨i, r.toNat, (rawEcdsaSign C A d k e r).toNat, fun t ht => h2 t (by omega) ht, h3, ?_, ?_⟩
    · have hk1 := h3.1
      have hk2 := h3.2.1
      have := rawEcdsaSign_signs hA hC hd (k := k) (e := e) (r := r) (by omega) (by omega) he2 h6 h7
      rw [he1, signs_mod, h5] at this
      exact this
    · rw [hres, h4]
      simp only [Scalar.asBytes, toBigEndian_eq]
  · rw [hc] at h2 h3
    refine .inr (.inl ⟨i, fun t ht => h2 t (by omega) ht, h3, ?_⟩)
    rw [hres, h4]
  · rw [hc] at h2
    refine .inr (.inr ⟨i, by omega, fun t ht => h2 t (by omega) ht, ?_⟩)
    rw [hres, h4]

end Verif.Ecdsa
