import Verif.Props.Ecdsa

/-!
Concrete cases that meet the hypotheses of the theorems of `Verif.Props.Ecdsa`.
-/
namespace Verif.Props

open Verif.Ec Verif.Ecdsa Verif.Asn1 Verif.Spec.Nist Verif.Spec.Der Verif.EcCard Verif.EcGroup

theorem same_x {k1 k2 x y1 y2 : Nat} (h1 : p256.At (k1 • p256.G) x y1) (h2 : p256.At (k2 • p256.G) x y2) :
    (p256.n : Int) ∣ (k2 : Int) - k1 ∨ (p256.n : Int) ∣ (k2 : Int) - (-k1) := by
  have hG := G_ne good_p256
  have a1 := (at_iff.1 h1).2.2
  have a2 := (at_iff.1 h2).2.2
  rcases a1.eq_or_neg a2 with e | e
  · refine .inl ((zsmul_eq_iff good_p256 hG _ _).1 ?_)
    rw [natCast_zsmul, natCast_zsmul, e]
  · refine .inr ((zsmul_eq_iff good_p256 hG _ _).1 ?_)
    rw [neg_zsmul, natCast_zsmul, natCast_zsmul, e]

/-- Of three numbers that are different up to sign, one is suitable: only two `x` coordinates are multiples of `n`. -/
theorem one_of_three {k1 k2 k3 : Nat} (a1 : 1 ≤ k1 ∧ k1 < p256.n) (a2 : 1 ≤ k2 ∧ k2 < p256.n) (a3 : 1 ≤ k3 ∧ k3 < p256.n)
    (b1 : k1 ≠ k2) (b2 : k1 ≠ k3) (b3 : k2 ≠ k3) (c1 : k1 + k2 ≠ p256.n) (c2 : k1 + k3 ≠ p256.n) (c3 : k2 + k3 ≠ p256.n) :
    p256.Suitable k1 ∨ p256.Suitable k2 ∨ p256.Suitable k3 := by
  have hG := G_ne good_p256
  have hp : p256.p < 2 * p256.n := by decide
  have key : ∀ k, 1 ≤ k → k < p256.n → ¬ p256.Suitable k → ∃ x y, p256.At (k • p256.G) x y ∧ (x = 0 ∨ x = p256.n) := by
    intro k h1 h2 hs
    obtain ⟨x, y, hat⟩ := at_exists (nsmul_ne good_p256 hG (k := k) (by omega) h2)
    refine ⟨x, y, hat, ?_⟩
    have hx : x % p256.n = 0 := by
      by_contra hc
      exact hs ⟨h1, h2, x, y, hat, hc⟩
    have hxp := Nat.lt_trans hat.1 hp
    clear hat hs hp
    generalize p256.n = n at *
    have := Nat.div_add_mod x n
    rw [hx] at this
    have hd : x / n < 2 := (Nat.div_lt_iff_lt_mul (by omega)).2 hxp
    have h01 : x / n = 0 ∨ x / n = 1 := by
      generalize x / n = q at hd
      omega
    rcases h01 with e | e
    · rw [e] at this; exact .inl (by simpa using this.symm)
    · rw [e] at this; exact .inr (by simpa using this.symm)
  have pair : ∀ k k' x y x' y', 1 ≤ k → k < p256.n → 1 ≤ k' → k' < p256.n → k ≠ k' → k + k' ≠ p256.n →
      p256.At (k • p256.G) x y → p256.At (k' • p256.G) x' y' → x ≠ x' := by
    rintro k k' x y x' y' h1 h2 h3 h4 h5 h6 g1 g2 rfl
    have := same_x g1 g2
    generalize p256.n = n at *
    rcases this with ⟨q, hq⟩ | ⟨q, hq⟩
    · have : q = 0 := by
        by_contra hne
        rcases Int.lt_or_gt_of_ne hne with hl | hl <;> nlinarith
      subst this; omega
    · have : q = 1 := by
        have h7 : 0 < q := by by_contra hne; nlinarith
        have h8 : q < 2 := by by_contra hne; nlinarith
        omega
      subst this; omega
  by_contra hcon
  push Not at hcon
  obtain ⟨x1, y1, g1, e1⟩ := key k1 a1.1 a1.2 hcon.1
  obtain ⟨x2, y2, g2, e2⟩ := key k2 a2.1 a2.2 hcon.2.1
  obtain ⟨x3, y3, g3, e3⟩ := key k3 a3.1 a3.2 hcon.2.2
  have p1 := pair k1 k2 _ _ _ _ a1.1 a1.2 a2.1 a2.2 b1 c1 g1 g2
  have p2 := pair k1 k3 _ _ _ _ a1.1 a1.2 a3.1 a3.2 b2 c2 g1 g3
  have p3 := pair k2 k3 _ _ _ _ a2.1 a2.2 a3.1 a3.2 b3 c3 g2 g3
  omega

def exRandom : Bytes := List.replicate 16 0#8
def exK (j : Nat) : Nat := [59872201260038456955293238020432909652865623456512218882453188544409974868652,
    43052889201801946590023902261170157054900218040264200328670726115300378699588,
    72513361495524064576873811899677433177938306029590552607397475744638287742790].getD j 0
def exHash : Nat := 0xe3b0c44298fc1c149afbf4c8996fb92427ae41e4649b934ca495991b7852b855

theorem exHash_eq : hashInt 32 (Spec.Sha2.sha256 []) = exHash := by
  have h1 : runHash Hmac.sha256 [] = some (Spec.Sha2.sha256 []) := (C16_sha256 []).trans (if_pos (by decide))
  have h2 : (runHash Hmac.sha256 []).map (hashInt 32) = some exHash := by decide +kernel
  rw [h1] at h2
  injection h2

set_option maxRecDepth 10000 in
theorem exHistory : ((Hmac.drbgNew Hmac.sha256 (toBE 32 1) (toBE 32 exHash) exRandom).bind
    (fun s => drbgHistory Hmac.sha256 s [32, 32, 32])).map (·.map beNat) = some [exK 0, exK 1, exK 2] := by decide +kernel

/-- The first candidates for the private key 1, the empty message and random bytes that are all zero. -/
theorem exCandidates (j : Nat) (hj : j < 3) : candidates p256 Spec.Sha2.sha256 64 32 32 1 [] exRandom j = exK j := by
  have h := exHistory
  rw [C19_drbg .sha256 _ _ _ _ (by decide) (by decide)] at h
  have he : exHash % p256.n = exHash := by decide
  have hc : ∀ i, candidates p256 Spec.Sha2.sha256 64 32 32 1 [] exRandom i = beNat (Spec.Hmac.drbgGenerate
      (Spec.Hmac.hmac Spec.Sha2.sha256 64) 32 (drbgAfter (Spec.Hmac.hmac Spec.Sha2.sha256 64) 32 32
        (Spec.Hmac.drbgInstantiate (Spec.Hmac.hmac Spec.Sha2.sha256 64) 32 (toBE 32 1) (toBE 32 exHash) exRandom) i).1
      (drbgAfter (Spec.Hmac.hmac Spec.Sha2.sha256 64) 32 32
        (Spec.Hmac.drbgInstantiate (Spec.Hmac.hmac Spec.Sha2.sha256 64) 32 (toBE 32 1) (toBE 32 exHash) exRandom) i).2 32).1 := by
    intro i
    rw [candidates, Params.candidate, List.flatten_nil, exHash_eq, he]
  rw [hc]
  generalize Spec.Hmac.drbgInstantiate (Spec.Hmac.hmac Spec.Sha2.sha256 64) 32 (toBE 32 1) (toBE 32 exHash) exRandom = st at h
  obtain ⟨K, V⟩ := st
  generalize Spec.Hmac.hmac Spec.Sha2.sha256 64 = mac at h
  simp only [specHistory, Option.map_some, List.map_cons, List.map_nil] at h
  injection h with h
  injection h with h0 h
  injection h with h1 h
  injection h with h2 h
  match j, hj with
  | 0, _ => exact h0
  | 1, _ => exact h1
  | 2, _ => exact h2

/-- Signing succeeds for a concrete key and message. -/
theorem exSigns : ∃ sig, sign curveP256 (refAsm 4 p256.p p256.n) Hmac.sha256 64 (fun _ n => .ok (List.replicate n 0#8)) 1 [] 64 =
    some (.ok sig) := by
  have hs : ∃ j < 3, p256.Suitable (candidates p256 Spec.Sha2.sha256 64 32 32 1 [] exRandom j) := by
    have := one_of_three (k1 := exK 0) (k2 := exK 1) (k3 := exK 2) (by decide +kernel) (by decide +kernel) (by decide +kernel)
      (by decide +kernel) (by decide +kernel) (by decide +kernel) (by decide +kernel) (by decide +kernel) (by decide +kernel)
    rcases this with h | h | h
    · exact ⟨0, by decide, by rw [exCandidates 0 (by decide)]; exact h⟩
    · exact ⟨1, by decide, by rw [exCandidates 1 (by decide)]; exact h⟩
    · exact ⟨2, by decide, by rw [exCandidates 2 (by decide)]; exact h⟩
  have h1 : (1 : Scalar 4).toNat = 1 := by decide
  rcases C34_sign .p256 refP256 .sha256 (1 : Scalar 4) (by decide) [] (by decide) (fun _ n => .ok (List.replicate n 0#8)) exRandom
    rfl (by decide) 64 (by decide) 64 (by decide) with ⟨j, r, s, -, -, -, e⟩ | ⟨j', g1, g2, -⟩ | ⟨g, -⟩
  · exact ⟨_, e⟩
  · rw [h1] at g1 g2
    obtain ⟨j, hj, hs⟩ := hs
    exfalso
    by_cases hjj : j < j'
    · exact g1 _ hjj hs
    · exact g2 j (by omega) (by omega) ⟨hs.1, hs.2.1⟩
  · rw [h1] at g
    obtain ⟨j, hj, hs⟩ := hs
    exact absurd hs (g j (by omega))

/-- A concrete signature that is accepted: with the secret 1, for the private key 1 or 2. -/
theorem exVerifies : ∃ (d : Scalar 4) (K : PublicKey 4) (sig : Bytes), (d.toNat = 1 ∨ d.toNat = 2) ∧
    IsPublicKey curveP256 (refAsm 4 p256.p p256.n) (d.toNat • p256.G) K ∧
    verify curveP256 (refAsm 4 p256.p p256.n) Hmac.sha256 K [] sig = .ok () := by
  let r := p256.gx % p256.n
  have main : ∀ d : Scalar 4, 1 ≤ d.toNat → d.toNat < p256.n → (exHash + r * d.toNat) % p256.n ≠ 0 →
      ∃ (K : PublicKey 4) (sig : Bytes), IsPublicKey curveP256 (refAsm 4 p256.p p256.n) (d.toNat • p256.G) K ∧
        verify curveP256 (refAsm 4 p256.p p256.n) Hmac.sha256 K [] sig = .ok () := by
    intro d h1 h2 hne
    obtain ⟨-, K, -, -, hK, -⟩ := C35_own_key .p256 refP256 d h1 h2
    have hs : p256.Signs d.toNat exHash 1 r ((exHash + r * d.toNat) % p256.n) := by
      refine ⟨⟨p256.gx, p256.gy, ?_, rfl⟩, Nat.mod_lt _ (by decide), ?_⟩
      · rw [one_nsmul]; exact at_G .p256
      · rw [Nat.one_mul, Nat.mod_mod]
    have hv := signs_verifies curveOk_p256 hs (by decide) hne
    have hlt : p256.n < 256 ^ 32 := by decide
    have e1 : beNat (toBE 32 r) = r := by decide +kernel
    have e2 : beNat (toBE 32 ((exHash + r * d.toNat) % p256.n)) = (exHash + r * d.toNat) % p256.n := by
      rw [beNat_toBE, Nat.mod_eq_of_lt ((Nat.mod_lt _ (by decide)).trans hlt)]
    refine ⟨K, toBE 32 r ++ toBE 32 ((exHash + r * d.toNat) % p256.n), hK, ?_⟩
    refine (((C34_verify .p256 refP256 .sha256 _ K hK [] (by decide) _).2 _ _ rfl (by simp) (by simp)).1).2 ?_
    rw [e1, e2, List.flatten_nil, exHash_eq]
    exact hv
  obtain ⟨K, sig, h⟩ := main 1 (by decide) (by decide) (by decide +kernel)
  exact ⟨1, K, sig, .inl (by decide), h⟩

/-- Exports exist. -/
theorem exExport : ∃ out, toPkcs8Der suiteP256 (refAsm 4 p256.p p256.n) 5 (List.replicate 1000 0#8) = .ok out ∧
    fromPkcs8Der suiteP256 (refAsm 4 p256.p p256.n) out = .ok 5 := by
  obtain ⟨x, y, hat, e⟩ := C39_pkcs8_export .p256 refP256 (5 : Scalar 4) (by decide) (by decide) (List.replicate 1000 0#8)
  have hl := sec1Der_length (priv := toBE 32 (5 : Scalar 4).toNat) (params := none) (pub := some (encodePoint 32 x y))
    (by rw [toBE_length]; omega) (by rintro o ho; cases ho) (by rintro p hp; cases hp; rw [encodePoint_length]; omega)
  have hsmall : (ecPkcs8Der (oidBytes 1 2 [840, 10045, 3, 1, 7]) (sec1Der (toBE 32 (5 : Scalar 4).toNat) none
      (some (encodePoint 32 x y))) none).length ≤ 1000 := by
    generalize sec1Der _ _ _ = sec1 at hl
    have e1 : tlv 0x02#8 [if (none : Option Bytes).isSome then 1#8 else 0#8] = [0x02#8, 0x01#8, 0x00#8] := by decide +kernel
    have e2 : (seq [tlv 0x06#8 ecAlgorithm, tlv 0x06#8 (oidBytes 1 2 [840, 10045, 3, 1, 7])]).length = 21 := by decide +kernel
    have a3 := tlv_length_le 0x04#8 sec1 (by omega)
    rw [ecPkcs8Der, seq, e1]
    have b : [[0x02#8, 0x01#8, 0x00#8], seq [tlv 0x06#8 ecAlgorithm, tlv 0x06#8 (oidBytes 1 2 [840, 10045, 3, 1, 7])],
        tlv 0x04#8 sec1, Spec.Der.optional (fun p => tlv 0x81#8 (0#8 :: p)) (none : Option Bytes)].flatten.length ≤ 300 := by
      simp only [List.flatten_cons, List.flatten_nil, List.length_append, e2, Spec.Der.optional, List.length_nil, List.length_cons]
      omega
    have a6 := tlv_length_le 0x30#8 _ (Nat.lt_of_le_of_lt b (by decide))
    omega
  dsimp only at e
  rw [if_pos (by rw [List.length_replicate]; exact hsmall)] at e
  exact ⟨_, e, C39_pkcs8_round_trip .p256 refP256 5 (by decide) (by decide) _ _ (by rw [List.length_replicate]; omega) e⟩

end Verif.Props
