import Verif.Props.MlKem
import Verif.Proof.MlKemNtt
import Mathlib.Data.ZMod.ValMinAbs

/-!
C46: when does ML-KEM decrypt correctly?  Exactly when every coefficient of the accumulated error is below the decoding
threshold.  The error is stated in the ring `Z_q[X]/(X^256+1)`, with the product `polyMul` and without the transform.
-/
namespace Verif.Props
open Verif Verif.MlKem Verif.Spec.MlKem Verif.Sha3

/-! ### The accumulated error -/

/-- What compressing to `d` bits and decompressing adds. -/
def rounding (d : Nat) (f : Poly) : Poly := fun i => ((decompress d (compress d (f i).val) : Nat) : Fq) - f i

/-- The inner product over the ring. -/
def inner (a b : Vec) : Poly := polyMul (a 0) (b 0) + polyMul (a 1) (b 1) + polyMul (a 2) (b 2)

/-- The secret vectors of one key pair and one encryption. -/
structure Noise where
  s : Vec
  e : Vec
  y : Vec
  e1 : Vec
  e2 : Poly

/-- `ByteEncode` of the secret; `t̂ = Â ŝ + ê`. -/
def tHatOf (A : Mat) (n : Noise) : Vec := fun i => mulVec A (fun i => ntt (n.s i)) i + ntt (n.e i)
/-- `u = Aᵀ y + e₁`. -/
def uOf (A : Mat) (n : Noise) : Vec := fun i => intt (mulVec (transpose A) (fun i => ntt (n.y i)) i) + n.e1 i
/-- `v = tᵀ y + e₂ + μ`. -/
def vOf (A : Mat) (n : Noise) (m : Bytes) : Poly :=
  intt (dot (tHatOf A n) fun i => ntt (n.y i)) + n.e2 + decodeDecompress 1 m
/-- The ciphertext. -/
def cipherOf (A : Mat) (n : Noise) (m : Bytes) : Bytes :=
  compressEncode 10 (uOf A n 0) ++ compressEncode 10 (uOf A n 1) ++ compressEncode 10 (uOf A n 2) ++ compressEncode 4 (vOf A n m)

/-- The accumulated error: `eᵀy + e₂ + c_v − sᵀ(e₁ + c_u)`, where `c_u` and `c_v` come from compressing the ciphertext. -/
def errorOf (A : Mat) (n : Noise) (m : Bytes) : Poly :=
  inner n.e n.y + n.e2 + rounding 4 (vOf A n m) - inner n.s (fun i => n.e1 i + rounding 10 (uOf A n i))

/-- The decoding threshold: between `-q/4` and `q/4`; on the upper side a one bit has slightly less room. -/
def Below (bit : Nat) (x : Fq) : Prop := -832 ≤ x.valMinAbs ∧ x.valMinAbs ≤ (if bit = 0 then 832 else 831)

instance (bit : Nat) (x : Fq) : Decidable (Below bit x) := inferInstanceAs (Decidable (_ ∧ _))

/-- Bit `i` of a message. -/
def msgBit (m : Bytes) (i : Nat) : Nat := (byteDecode 1 m).getD i 0

/-! ### Lemmas -/

theorem decode_encode (d : Nat) (hd : d = 1 ∨ d = 4 ∨ d = 10) (f : Poly) :
    decodeDecompress d (compressEncode d f) = f + rounding d f := by
  rw [decodeDecompress, compressEncode, (C41_inverse d hd).1 _ (by rw [List.length_map, coeffs_length])]
  · funext i
    rw [ofCoeffs, List.map_map, coeffs, List.getD_eq_getElem?_getD, List.getElem?_map, List.getElem?_ofFn, dif_pos i.isLt]
    simp only [Option.map_some, Option.getD_some, Function.comp, Pi.add_apply, rounding, Fin.eta]
    ring
  · intro x hx
    rw [List.mem_map] at hx
    obtain ⟨y, _, rfl⟩ := hx
    exact compress_lt d y

theorem intt_dot (a : Vec) (b : Vec) : intt (dot (fun i => ntt (a i)) fun i => ntt (b i)) = inner a b := by
  have d : ∀ a b : Vec, dot a b = mulNTT (a 0) (b 0) + mulNTT (a 1) (b 1) + mulNTT (a 2) (b 2) := fun _ _ => rfl
  rw [d, intt_add, intt_add, intt_mulNTT, intt_mulNTT, intt_mulNTT, inner]

theorem compressEncode_length (d : Nat) (f : Poly) : (compressEncode d f).length = 32 * d :=
  byteEncode_length d (32 * d) _ (by rw [List.length_map, coeffs_length]; ring)

theorem decode_encodeVec12 (v : Vec) : decodeVec12 (encodeVec12 v) = v := by
  funext i
  rw [decodeVec12, encodeVec12]
  have l := fun f => encode12_length f
  have key : ((byteEncode 12 (coeffs (v 0)) ++ byteEncode 12 (coeffs (v 1)) ++ byteEncode 12 (coeffs (v 2))).drop
      (384 * i.val)).take 384 = byteEncode 12 (coeffs (v i)) := by
    match i with
    | 0 => rw [show 384 * ((0 : Fin 3).val) = 0 from rfl, List.drop_zero, List.append_assoc, List.take_left' (l _)]
    | 1 => rw [show 384 * ((1 : Fin 3).val) = 384 from rfl, List.append_assoc, List.drop_left' (l _), List.take_left' (l _)]
    | 2 => rw [show 384 * ((2 : Fin 3).val) = 768 from rfl, List.drop_left' (by rw [List.length_append, l, l]),
        List.take_of_length_le (by rw [l])]
  rw [key, C41_inverse12 _ (coeffs_length _) (coeffs_lt _), ofCoeffs_coeffs]

/-- Decryption computes the message plus the error. -/
theorem decrypt_eq (A : Mat) (n : Noise) (m : Bytes) :
    kpkeDecrypt (encodeVec12 fun i => ntt (n.s i)) (cipherOf A n m) =
      compressEncode 1 (decodeDecompress 1 m + errorOf A n m) := by
  have l10 := fun f => compressEncode_length 10 f
  have hu : (fun i : Fin 3 => decodeDecompress 10 (((cipherOf A n m).drop (320 * i.val)).take 320)) =
      fun i => uOf A n i + rounding 10 (uOf A n i) := by
    funext i
    rw [cipherOf, ← decode_encode 10 (Or.inr (Or.inr rfl))]
    congr 1
    match i with
    | 0 => rw [show 320 * ((0 : Fin 3).val) = 0 from rfl, List.drop_zero, List.append_assoc, List.append_assoc,
        List.take_left' (l10 _)]
    | 1 => rw [show 320 * ((1 : Fin 3).val) = 320 from rfl, List.append_assoc, List.append_assoc, List.drop_left' (l10 _),
        List.take_left' (l10 _)]
    | 2 => rw [show 320 * ((2 : Fin 3).val) = 640 from rfl, List.append_assoc,
        List.drop_left' (by rw [List.length_append, l10, l10]), List.take_left' (l10 _)]
  have hv : decodeDecompress 4 (((cipherOf A n m).drop 960).take 128) = vOf A n m + rounding 4 (vOf A n m) := by
    rw [cipherOf, ← decode_encode 4 (Or.inr (Or.inl rfl)), List.drop_left' (by
      rw [List.length_append, List.length_append, l10, l10, l10]), List.take_of_length_le (by rw [compressEncode_length])]
  rw [Spec.MlKem.kpkeDecrypt]
  dsimp only
  rw [decode_encodeVec12, hv]
  have hu' : ∀ i, decodeDecompress 10 (((cipherOf A n m).drop (320 * i.val)).take 320) =
      uOf A n i + rounding 10 (uOf A n i) := fun i => congrFun hu i
  simp only [hu']
  congr 1
  have e1 : (fun i => ntt (uOf A n i + rounding 10 (uOf A n i))) =
      mulVec (transpose A) (fun i => ntt (n.y i)) + (fun i => ntt (n.e1 i + rounding 10 (uOf A n i))) := by
    funext i
    show _ = mulVec (transpose A) (fun i => ntt (n.y i)) i + ntt (n.e1 i + rounding 10 (uOf A n i))
    generalize rounding 10 (uOf A n i) = c
    rw [uOf, add_assoc, ntt_add, ntt_intt]
  have e2 : tHatOf A n = mulVec A (fun i => ntt (n.s i)) + fun i => ntt (n.e i) := rfl
  have e3 : vOf A n m = intt (dot (fun i => ntt (n.s i)) (mulVec (transpose A) fun i => ntt (n.y i))) + inner n.e n.y + n.e2 +
      decodeDecompress 1 m := by
    rw [vOf, e2, dot_comm, dot_add, intt_add, dot_comm, dot_mulVec, dot_comm _ fun i => ntt (n.e i), intt_dot]
  rw [e1, dot_add, intt_add, intt_dot, errorOf]
  generalize rounding 4 (vOf A n m) = cv
  rw [e3]
  abel

theorem recover (b : Nat) (hb : b < 2) (x : Fq) : compress 1 (((decompress 1 b : Nat) : Fq) + x).val = b ↔ Below b x := by
  have hx := ZMod.val_lt x
  have hm : x.valMinAbs = if x.val ≤ 1664 then (x.val : Int) else x.val - 3329 := ZMod.valMinAbs_def_pos x
  have hc := fun y => compress_nat 1 y
  obtain ⟨d0, d1⟩ := C40_decompress1
  rcases (by omega : b = 0 ∨ b = 1) with rfl | rfl
  · rw [d0, Nat.cast_zero, zero_add, Below, hm, if_pos rfl, hc]
    split <;> omega
  · have hv : (((1665 : Nat) : Fq) + x).val = (1665 + x.val) % 3329 := by rw [ZMod.val_add]; rfl
    rw [d1, hv, Below, hm, hc, if_neg (show ¬ (1 = 0) by decide)]
    generalize x.val = k at *
    clear hv hm
    split <;> omega

theorem msgBit_lt (m : Bytes) (i : Nat) : msgBit m i < 2 := by
  rw [msgBit, byteDecode_eq_raw 1 (by decide), List.getD_eq_getElem?_getD]
  rcases h : (rawDecode 1 m)[i]? with _ | x
  · simp
  · exact rawDecode_lt 1 m x (List.mem_of_getElem? h)

theorem msgBits_eq (m : Bytes) (hm : m.length = 32) : byteDecode 1 m = List.ofFn fun i : Fin 256 => msgBit m i.val := by
  have hl : (byteDecode 1 m).length = 256 := by
    rw [byteDecode_eq_raw 1 (by decide)]; exact rawDecode_length 1 (by decide) 256 m (by rw [hm])
  apply List.ext_getElem
  · rw [hl, List.length_ofFn]
  · intro i h1 h2
    rw [List.getElem_ofFn, msgBit, List.getD_eq_getElem?_getD, List.getElem?_eq_getElem h1, Option.getD_some]

theorem encode_message (m : Bytes) (hm : m.length = 32) (w : Poly) :
    compressEncode 1 w = m ↔ ∀ i : Fin 256, compress 1 (w i).val = msgBit m i.val := by
  have lt : ∀ x ∈ (coeffs w).map (compress 1), x < 2 ^ 1 := by
    intro x hx
    rw [List.mem_map] at hx
    obtain ⟨y, _, rfl⟩ := hx
    exact compress_lt 1 y
  obtain ⟨inv1, inv2⟩ := C41_inverse 1 (Or.inl rfl)
  have step : compressEncode 1 w = m ↔ (coeffs w).map (compress 1) = byteDecode 1 m := by
    constructor
    · intro h
      rw [← h, compressEncode, inv1 _ (by rw [List.length_map, coeffs_length]) lt]
    · intro h
      rw [compressEncode, h, inv2 m (by rw [hm])]
  rw [step, msgBits_eq m hm, coeffs, List.map_ofFn, List.ofFn_inj, funext_iff]
  rfl

/-! ### Decryption -/

/-- **C46** For every matrix, every secret and noise vectors and every message, decrypting the ciphertext returns the message
exactly when every coefficient of the accumulated error is below the decoding threshold. -/
theorem C46_decrypt (A : Mat) (n : Noise) (m : Bytes) (hm : m.length = 32) :
    kpkeDecrypt (encodeVec12 fun i => ntt (n.s i)) (cipherOf A n m) = m ↔
      ∀ i : Fin 256, Below (msgBit m i.val) (errorOf A n m i) := by
  rw [decrypt_eq, encode_message m hm]
  refine forall_congr' fun i => ?_
  have : (decodeDecompress 1 m) i = ((decompress 1 (msgBit m i.val) : Nat) : Fq) := by
    rw [decodeDecompress, ofCoeffs, msgBits_eq m hm, List.map_ofFn, List.getD_eq_getElem?_getD, List.getElem?_ofFn,
      dif_pos i.isLt]
    rfl
  rw [Pi.add_apply, this, recover _ (msgBit_lt m i.val)]

/-- The noise of the key pair from the seed `sigma` and of an encryption with the randomness `r`. -/
def noiseOf (sigma r : Bytes) : Noise :=
  { s := fun i => samplePolyCBD (PRF sigma (byte i.val))
    e := fun i => samplePolyCBD (PRF sigma (byte (3 + i.val)))
    y := fun i => samplePolyCBD (PRF r (byte i.val))
    e1 := fun i => samplePolyCBD (PRF r (byte (3 + i.val)))
    e2 := samplePolyCBD (PRF r (byte 6)) }

/-- The error of encapsulating `m` to the key pair from `d` is below the threshold. -/
def Decodes (limit : Nat) (d ek m : Bytes) : Prop :=
  ∀ A, sampleMat limit (G (d ++ [3#8])).1 = some A →
    ∀ i : Fin 256, Below (msgBit m i.val) (errorOf A (noiseOf (G (d ++ [3#8])).2 (G (m ++ H ek)).2) m i)

theorem keyGen_eq (limit : Nat) (d z r : Bytes) : keyGenInternal limit d z =
    (sampleMat limit (G (d ++ [3#8])).1).map fun A =>
      let ek := encodeVec12 (tHatOf A (noiseOf (G (d ++ [3#8])).2 r)) ++ (G (d ++ [3#8])).1
      (ek, encodeVec12 (fun i => ntt ((noiseOf (G (d ++ [3#8])).2 r).s i)) ++ ek ++ H ek ++ z) := by
  rw [keyGenInternal, kpkeKeyGen]
  generalize G (d ++ [3#8]) = g
  obtain ⟨rho, sigma⟩ := g
  dsimp only
  rw [Option.map_map]
  rfl

theorem encrypt_eq (limit : Nat) (A : Mat) (ek m sigma r : Bytes)
    (ht : ek.take 1152 = encodeVec12 (tHatOf A (noiseOf sigma r))) (hA : sampleMat limit ((ek.drop 1152).take 32) = some A) :
    Spec.MlKem.kpkeEncrypt limit ek m r = some (cipherOf A (noiseOf sigma r) m) := by
  rw [Spec.MlKem.kpkeEncrypt, ht, hA, decode_encodeVec12]
  rfl

theorem encrypt_length {limit : Nat} {ek m r c : Bytes} (h : Spec.MlKem.kpkeEncrypt limit ek m r = some c) :
    c.length = 1088 := by
  rw [Spec.MlKem.kpkeEncrypt] at h
  dsimp only at h
  rcases hM : sampleMat limit ((ek.drop 1152).take 32) with _ | M
  · rw [hM] at h; cases h
  rw [hM, Option.map_some, Option.some.injEq] at h
  rw [← h]
  simp only [List.length_append, compressEncode_length]

theorem G_fst_length (b : Bytes) : (G b).1.length = 32 := by
  have := sha3_512_length b
  simp only [G]
  rw [List.length_take]; omega

/-- **C46** FIPS 203: decapsulating an encapsulation gives the same key when the error is below the threshold. -/
theorem C46_spec (limit : Nat) (d z m ek dk K c : Bytes) (hm : m.length = 32) (hz : z.length = 32)
    (hk : keyGenInternal limit d z = some (ek, dk)) (he : Spec.MlKem.encapsInternal limit ek m = some (K, c))
    (hs : Decodes limit d ek m) : Spec.MlKem.decapsInternal limit dk c = some K := by
  rw [keyGen_eq limit d z (G (m ++ H ek)).2] at hk
  rw [Decodes] at hs
  rw [Spec.MlKem.encapsInternal] at he
  have hrl := G_fst_length (d ++ [3#8])
  generalize G (d ++ [3#8]) = g at *
  obtain ⟨rho, sigma⟩ := g
  dsimp only at hk hs hrl
  rw [Spec.MlKem.decapsInternal]
  generalize hr' : G (m ++ H ek) = kr at *
  obtain ⟨K', r⟩ := kr
  dsimp only at hk hs he
  rcases hM : sampleMat limit rho with _ | A
  · rw [hM] at hk; cases hk
  rw [hM, Option.map_some, Option.some.injEq, Prod.mk.injEq] at hk
  obtain ⟨hek, hdk⟩ := hk
  have dec := (C46_decrypt A (noiseOf sigma r) m hm).2 (hs A hM)
  have hdkl := encodeVec12_length (fun i => ntt ((noiseOf sigma r).s i))
  generalize hS : encodeVec12 (fun i => ntt ((noiseOf sigma r).s i)) = S at *
  have htl := encodeVec12_length (tHatOf A (noiseOf sigma r))
  have enc := encrypt_eq limit A ek m sigma r (by rw [← hek]; exact List.take_left' htl) (by
    rw [← hek, List.drop_left' htl, List.take_of_length_le (by rw [hrl]), hM])
  have hekl : ek.length = 1184 := by
    rw [← hek, List.length_append, htl, hrl]
  rw [enc, Option.map_some, Option.some.injEq, Prod.mk.injEq] at he
  obtain ⟨hK, hc⟩ := he
  rw [hek] at hdk
  have hHl : (H ek).length = 32 := sha3_256_length ek
  have t1 : dk.take 1152 = S := by
    rw [← hdk, List.append_assoc, List.append_assoc, List.take_left' hdkl]
  have t2 : (dk.drop 1152).take 1184 = ek := by
    rw [← hdk, List.append_assoc, List.append_assoc, List.drop_left' hdkl, List.take_left' hekl]
  have t3 : (dk.drop 2336).take 32 = H ek := by
    rw [← hdk, List.append_assoc, List.drop_left' (by rw [List.length_append, hdkl, hekl]), List.take_left' hHl]
  rw [hc] at dec enc
  rw [t1, t2, t3, dec, hr']
  dsimp only
  rw [enc, Option.map_some, if_pos rfl, hK]

/-- **C46** The code: decapsulating what was encapsulated to the key's public half gives the encapsulated key when the error
is below the threshold. -/
theorem C46_decaps {A : Asm} {σ : Fin 256 → Fin 256} (h : Contract A σ) (Gu : Lanes → Lanes) (fuel : Nat)
    (d z m K c : Bytes) (hd : d.length = 32) (hz : z.length = 32) (hm : m.length = 32) (dk : DecapKey)
    (hk : keygenInternal A Gu fuel (d ++ z) = some dk) (he : MlKem.encapsInternal A Gu dk.ekPke m = some (K, c))
    (hs : Decodes (168 * (3 + fuel)) d (encapAsBytes dk.ekPke) m) :
    MlKem.decapsInternal A Gu dk c = some K := by
  obtain ⟨k1, k2⟩ := C43_keygen h Gu fuel d z hd hz
  have hv := k2 dk hk
  rw [hk, Option.map_some] at k1
  obtain ⟨r, e1, e2⟩ := C43_encaps h Gu fuel dk.ekPke hv.1 m hm
  rw [he, Option.some.injEq] at e1
  subst e1
  have hc : c.length = 1088 := by
    rw [Spec.MlKem.encapsInternal] at e2
    generalize G (m ++ H (encapAsBytes dk.ekPke)) = kr at e2
    obtain ⟨K', r⟩ := kr
    dsimp only at e2
    rcases hE : Spec.MlKem.kpkeEncrypt (168 * (3 + fuel)) (encapAsBytes dk.ekPke) m r with _ | c'
    · rw [hE] at e2; cases e2
    rw [hE, Option.map_some, Option.some.injEq, Prod.mk.injEq] at e2
    rw [← e2.2]
    exact encrypt_length hE
  rw [C43_decaps_spec h Gu fuel dk hv c hc]
  exact C46_spec _ d z m _ _ K c hm hz k1.symm e2 hs

/-! ### The threshold is met and missed -/

/-- Without noise the only error is that of compressing `v`, and it is always below the threshold. -/
example (A : Mat) (m : Bytes) (hm : m.length = 32) :
    kpkeDecrypt (encodeVec12 fun i => ntt ((⟨0, 0, 0, 0, 0⟩ : Noise).s i)) (cipherOf A ⟨0, 0, 0, 0, 0⟩ m) = m := by
  rw [C46_decrypt A _ m hm]
  intro i
  have pz : ∀ g : Poly, polyMul 0 g = 0 := by
    intro g; funext n; simp [polyMul]
  have iz : ∀ b : Vec, inner 0 b = 0 := by
    intro b
    simp only [inner, Pi.zero_apply, pz, add_zero]
  have e : errorOf A ⟨0, 0, 0, 0, 0⟩ m = rounding 4 (vOf A ⟨0, 0, 0, 0, 0⟩ m) := by
    simp only [errorOf, iz, zero_add, sub_zero]
  rw [e, rounding]
  generalize vOf A ⟨0, 0, 0, 0, 0⟩ m i = x
  have hx := ZMod.val_lt x
  have key := check_q (fun k => Below 1 ((((2 * (3329 * ((2 * (2 ^ 4 * k) + 3329) / 6658 % 2 ^ 4)) + 2 ^ 4) / (2 * 2 ^ 4) : Nat) :
    Fq) - (k : Fq))) (by decide +kernel) x.val hx
  have key' : Below 1 (((decompress 4 (compress 4 x.val) : Nat) : Fq) - x) := by
    rw [decompress_nat, compress_nat]
    simpa using key
  obtain ⟨k1, k2⟩ := key'
  refine ⟨k1, ?_⟩
  rw [if_neg (by decide)] at k2
  split <;> omega

/-- The threshold is sharp on both sides. -/
example : Below 0 832 ∧ ¬ Below 0 833 ∧ Below 1 831 ∧ ¬ Below 1 832 ∧ Below 0 (-832) ∧ ¬ Below 0 (-833) := by decide +kernel

end Verif.Props
