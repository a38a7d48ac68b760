import Verif.Proof.MlKemContract
import Verif.Props.Sha2

/-!
K-PKE and ML-KEM as a whole: the code computes the standard's functions.
-/
namespace Verif.MlKem
open Verif Verif.Spec.MlKem Verif.Sha3 Verif.Props

/-! ### Hashes -/

theorem sha3_512_ok (parts : List Bytes) : sha3 SHA3_512_R 64 parts = some (Spec.Keccak.sha3_512 parts.flatten) :=
  C20_sha3_512 parts
theorem sha3_256_ok (parts : List Bytes) : sha3 SHA3_256_R 32 parts = some (Spec.Keccak.sha3_256 parts.flatten) :=
  C20_sha3_256 parts

theorem shake256_ok (parts : List Bytes) (n : Nat) : shake256 parts n = some (Spec.Keccak.shake256 parts.flatten n) := by
  obtain ⟨outs, e, _, h⟩ := C21_shake256 parts [n]
  rw [runShake] at e
  rw [shake256]
  cases hk : shakeNew (keccak RC) SHAKE_256_R parts with
  | none => rw [hk] at e; simp at e
  | some k =>
    rw [hk] at e
    simp only [Option.bind_eq_bind, Option.bind_some, readAll] at e ⊢
    cases hr : shakeRead (keccak RC) SHAKE_256_R k n with
    | none => rw [hr] at e; simp at e
    | some p =>
      obtain ⟨k', o⟩ := p
      rw [hr] at e
      simp only [Option.bind_some, Option.pure_def, Option.some.injEq] at e
      subst e
      simp only [List.flatten_cons, List.flatten_nil, List.append_nil, List.sum_cons, List.sum_nil, Nat.add_zero] at h
      simp only [Option.bind_some, Option.pure_def, h]

theorem sha3_512_length (m : Bytes) : (Spec.Keccak.sha3_512 m).length = 64 := by
  rw [Spec.Keccak.sha3_512, Spec.Keccak.sponge, Spec.Keccak.squeeze]; simp
theorem sha3_256_length (m : Bytes) : (Spec.Keccak.sha3_256 m).length = 32 := by
  rw [Spec.Keccak.sha3_256, Spec.Keccak.sponge, Spec.Keccak.squeeze]; simp

/-! ### Noise -/

theorem chunksExact_getElem? {α : Type} (n : Nat) (hn : 0 < n) (l : List α) (i : Nat) (h : n * (i + 1) ≤ l.length) :
    (chunksExact n l)[i]? = some ((l.drop (n * i)).take n) := by
  induction i generalizing l with
  | zero => rw [chunksExact_cons hn (by omega)]; simp
  | succ i ih =>
    rw [Nat.mul_add, Nat.mul_one] at h
    rw [chunksExact_cons hn (by omega), List.getElem?_cons_succ, ih _ (by rw [List.length_drop]; omega), List.drop_drop]
    congr 3
    ring

theorem toPoly_noise (seed : Bytes) (b : Byte) : toPoly (noise seed b) = samplePolyCBD (PRF seed b) := by
  funext i
  have hl : (bytesToBits (PRF seed b)).length = 1024 := by rw [bytesToBits_length, PRF, shake_length]
  rw [noise, sampleCbd2_ok _ (by rw [PRF, shake_length]; decide)]
  simp only [toPoly, samplePolyCBD]
  generalize bytesToBits (PRF seed b) = bits at *
  have hi := i.isLt
  rw [List.getD_eq_getElem?_getD, List.getElem?_map, chunksExact_getElem? 4 (by decide) bits i.val (by omega)]
  simp only [Option.map_some, Option.getD_some]
  have g : ∀ k, k < 4 → ((bits.drop (4 * i.val)).take 4).getD k false = bits.getD (4 * i.val + k) false := by
    intro k hk
    rw [List.getD_eq_getElem?_getD, List.getD_eq_getElem?_getD, List.getElem?_take_of_lt hk, List.getElem?_drop]
  rw [cbdBits, g 0 (by decide), g 1 (by decide), g 2 (by decide), g 3 (by decide)]
  push_cast
  rfl

theorem noise_bnd (seed : Bytes) (b : Byte) : Bnd 3 (noise seed b) :=
  ⟨noise_length seed b, fun x hx => by have := noise_range seed b x hx; omega⟩

/-! ### The matrix -/

/-- The nine polynomials of a matrix, row by row, as a back end holds them. -/
def rowsOf (σ : Fin 256 → Fin 256) (M : Mat) : List Coeffs :=
  [layL σ (coeffs (M 0 0)), layL σ (coeffs (M 0 1)), layL σ (coeffs (M 0 2)),
    layL σ (coeffs (M 1 0)), layL σ (coeffs (M 1 1)), layL σ (coeffs (M 1 2)),
    layL σ (coeffs (M 2 0)), layL σ (coeffs (M 2 1)), layL σ (coeffs (M 2 2))]

theorem coeffs_ofCoeffs (l : List Nat) (hl : l.length = 256) (h : ∀ x ∈ l, x < 3329) : coeffs (ofCoeffs l) = l := by
  refine List.ext_getElem (by rw [coeffs_length, hl]) fun i h1 h2 => ?_
  simp only [coeffs, List.getElem_ofFn, ofCoeffs]
  rw [List.getD_eq_getElem?_getD, List.getElem?_eq_getElem h2, Option.getD_some, ZMod.val_natCast,
    Nat.mod_eq_of_lt (h _ (List.getElem_mem h2))]

theorem sampled_ok {A : Asm} {σ : Fin 256 → Fin 256} (h : Contract A σ) (limit : Nat) (B : Bytes) :
    (sampled limit B).map A.unpack = (sampleNTT limit B).map fun f => layL σ (coeffs f) := by
  rw [sampled, takeAll, sampleNTT]
  have ha := accepted_lt (Spec.Keccak.shake128 B limit)
  generalize accepted (Spec.Keccak.shake128 B limit) = a at *
  split
  case isTrue hl =>
    have l1 : (a.take 256).length = 256 := by rw [List.length_take]; omega
    have l2 : ∀ x ∈ a.take 256, x < 3329 := fun x hx => ha x (List.mem_of_mem_take hx)
    simp only [Option.map_some]
    rw [h.unpack _ l1 (fun x hx => Nat.lt_trans (l2 x hx) (by decide)), coeffs_ofCoeffs _ l1 l2]
  case isFalse => rfl

theorem map_mapM {α β γ : Type} (f : α → Option β) (g : β → γ) (l : List α) :
    Option.map (List.map g) (l.mapM f) = l.mapM fun x => (f x).map g := by
  induction l with
  | nil => rfl
  | cons x l ih =>
    rw [List.mapM_cons, List.mapM_cons, ← ih]
    cases f x with
    | none => rfl
    | some y => cases l.mapM f <;> rfl

theorem rows_mapM (σ : Fin 256 → Fin 256) (m : Fin 3 → Fin 3 → Option Poly) :
    ((if ∀ i j, (m i j).isSome then some fun i j => (m i j).getD 0 else none).map (rowsOf σ)) =
      [(0, 0), (0, 1), (0, 2), (1, 0), (1, 1), (1, 2), (2, 0), (2, 1), (2, 2)].mapM
        fun p : Fin 3 × Fin 3 => (m p.1 p.2).map fun f => layL σ (coeffs f) := by
  have no : ∀ i j, m i j = none → ¬ ∀ i j, (m i j).isSome := by
    intro i j e hh
    have := hh i j
    rw [e] at this
    cases this
  simp only [List.mapM_cons, List.mapM_nil]
  cases h00 : m 0 0 with
  | none => rw [if_neg (no _ _ h00)]; rfl
  | some a =>
  cases h01 : m 0 1 with
  | none => rw [if_neg (no _ _ h01)]; rfl
  | some b =>
  cases h02 : m 0 2 with
  | none => rw [if_neg (no _ _ h02)]; rfl
  | some c =>
  cases h10 : m 1 0 with
  | none => rw [if_neg (no _ _ h10)]; rfl
  | some d =>
  cases h11 : m 1 1 with
  | none => rw [if_neg (no _ _ h11)]; rfl
  | some e =>
  cases h12 : m 1 2 with
  | none => rw [if_neg (no _ _ h12)]; rfl
  | some f =>
  cases h20 : m 2 0 with
  | none => rw [if_neg (no _ _ h20)]; rfl
  | some g =>
  cases h21 : m 2 1 with
  | none => rw [if_neg (no _ _ h21)]; rfl
  | some i =>
  cases h22 : m 2 2 with
  | none => rw [if_neg (no _ _ h22)]; rfl
  | some j =>
  rw [if_pos ?_]
  · simp only [Option.map_some, rowsOf, h00, h01, h02, h10, h11, h12, h20, h21, h22, Option.getD_some, Option.bind_eq_bind,
      Option.bind_some, Option.pure_def]
  · intro i j
    fin_cases i <;> fin_cases j <;> simp [h00, h01, h02, h10, h11, h12, h20, h21, h22]

theorem sampleMat_transpose (limit : Nat) (rho : Bytes) :
    (sampleMat limit rho).map transpose =
      (if ∀ i j : Fin 3, (sampleNTT limit (rho ++ [byte i.val, byte j.val])).isSome then
        some fun i j : Fin 3 => (sampleNTT limit (rho ++ [byte i.val, byte j.val])).getD 0 else none) := by
  rw [sampleMat]
  simp only []
  by_cases h : ∀ i j : Fin 3, (sampleNTT limit (rho ++ [byte i.val, byte j.val])).isSome
  · rw [if_pos h, if_pos fun i j => h j i]; rfl
  · rw [if_neg h, if_neg fun hh => h fun i j => hh j i]; rfl

/-- The matrix and its transpose, from the same seed: entry `(i, j)` is the standard's. -/
theorem samplePoly_mat {A : Asm} {σ : Fin 256 → Fin 256} (h : Contract A σ) (fuel : Nat) (rho : Bytes) (hr : rho.length = 32) :
    samplePoly A fuel false rho = (sampleMat (168 * (3 + fuel)) rho).map (rowsOf σ) ∧
    samplePoly A fuel true rho = (sampleMat (168 * (3 + fuel)) rho).map fun M => rowsOf σ (transpose M) := by
  have e2 := sampleMat_transpose (168 * (3 + fuel)) rho
  constructor
  · rw [samplePoly_ok A h.rej fuel false rho hr, map_mapM, sampleMat, rows_mapM]
    simp only [sampled_ok h]
    rfl
  · rw [samplePoly_ok A h.rej fuel true rho hr, map_mapM,
      show (sampleMat (168 * (3 + fuel)) rho).map (fun M => rowsOf σ (transpose M)) =
        ((sampleMat (168 * (3 + fuel)) rho).map transpose).map (rowsOf σ) by rw [Option.map_map]; rfl, e2, rows_mapM]
    simp only [sampled_ok h]
    rfl

theorem transpose_nine (a b c d e f g i j : Coeffs) : transposeCoeffs [a, b, c, d, e, f, g, i, j] = [a, d, g, b, e, i, c, f, j] :=
  rfl
theorem transposeCoeffs_rows (σ : Fin 256 → Fin 256) (M : Mat) : transposeCoeffs (rowsOf σ M) = rowsOf σ (transpose M) :=
  transpose_nine ..

/-! ### Keys in bytes -/

theorem chunks3 (n : Nat) (hn : 0 < n) (B : Bytes) (h : B.length = 3 * n) :
    chunksExact n B = [B.take n, (B.drop n).take n, (B.drop (2 * n)).take n] := by
  rw [chunksExact_cons hn (by omega), chunksExact_cons hn (by rw [List.length_drop]; omega),
    chunksExact_cons hn (by rw [List.length_drop, List.length_drop]; omega),
    chunksExact_short (by rw [List.length_drop, List.length_drop, List.length_drop]; omega), List.drop_drop,
    show n + n = 2 * n by ring]

theorem fromBytes12_ok {A : Asm} {σ : Fin 256 → Fin 256} (h : Contract A σ) (B : Bytes) (hB : B.length = 1152) :
    fromBytes12 A B = [layL σ (coeffs (decodeVec12 B 0)), layL σ (coeffs (decodeVec12 B 1)),
      layL σ (coeffs (decodeVec12 B 2))] := by
  rw [fromBytes12, chunks3 384 (by decide) B (by omega)]
  simp only [List.map_cons, List.map_nil]
  rw [frombytes_ok h _ (by rw [List.length_take]; omega),
    frombytes_ok h _ (by rw [List.length_take, List.length_drop]; omega),
    frombytes_ok h _ (by rw [List.length_take, List.length_drop]; omega)]
  rfl

theorem toBytes12_ok {A : Asm} {σ : Fin 256 → Fin 256} (h : Contract A σ) (v : Vec) :
    toBytes12 A [layL σ (coeffs (v 0)), layL σ (coeffs (v 1)), layL σ (coeffs (v 2))] = encodeVec12 v := by
  rw [toBytes12]
  simp only [List.flatMap_cons, List.flatMap_nil, List.append_nil, tobytes_ok h]
  rw [encodeVec12, List.append_assoc]

theorem encode12_length (f : Poly) : (byteEncode 12 (coeffs f)).length = 384 :=
  byteEncode_length 12 384 _ (by rw [coeffs_length])

theorem encodeVec12_length (v : Vec) : (encodeVec12 v).length = 1152 := by
  rw [encodeVec12, List.length_append, List.length_append, encode12_length, encode12_length, encode12_length]

/-! ### Compressed polynomials -/

theorem compressEncode_eq {a : Coeffs} (d : Nat) (ha : Uns 3329 a) :
    byteEncode d (a.map fun x => compress d x.toNat) = compressEncode d (toPoly a) := by
  rw [compressEncode, ← uns_coeffs ha, List.map_map]; rfl

theorem du_ok {a : Coeffs} (ha : Uns 3329 a) : compressDu10 a = some (compressEncode 10 (toPoly a)) := by
  rw [compressDu10_ok a (by rw [ha.1]; decide) ha.red, compressEncode_eq 10 ha]
theorem dv_ok {a : Coeffs} (ha : Uns 3329 a) : compressDv4 a = some (compressEncode 4 (toPoly a)) := by
  rw [compressDv4_ok a (by rw [ha.1]; decide) ha.red, compressEncode_eq 4 ha]
theorem msg_ok {a : Coeffs} (ha : Uns 3329 a) : toMessageBits a = some (compressEncode 1 (toPoly a)) := by
  rw [toMessageBits_ok a (by rw [ha.1]; decide) ha.red, compressEncode_eq 1 ha]

theorem decompress_lt (d y : Nat) (hd : d = 1 ∨ d = 4 ∨ d = 10) (hy : y < 2 ^ d) : decompress d y < 3329 := by
  rw [decompress_nat]
  rcases hd with rfl | rfl | rfl <;> omega

theorem decode_ok (d : Nat) (hd : d = 1 ∨ d = 4 ∨ d = 10) (B : Bytes) (hB : 8 * B.length = d * 256) (a : Coeffs)
    (e : a = (byteDecode d B).map fun y => ((decompress d y : Nat) : Int)) :
    Uns 3329 a ∧ toPoly a = decodeDecompress d B := by
  have e' : a = ints ((byteDecode d B).map (decompress d)) := by rw [e, ints, List.map_map]; rfl
  have hd0 : 0 < d ∧ d ≠ 12 := by rcases hd with rfl | rfl | rfl <;> decide
  refine ⟨⟨?_, ?_⟩, ?_⟩
  · rw [e, List.length_map, byteDecode_eq_raw d hd0.2, rawDecode_length d hd0.1 256 B hB]
  · intro x hx
    rw [e, List.mem_map] at hx
    obtain ⟨y, hy, rfl⟩ := hx
    rw [byteDecode_eq_raw d hd0.2] at hy
    have := decompress_lt d y hd (rawDecode_lt d B y hy)
    omega
  · rw [e', toPoly_ints]; rfl

/-! ### Encryption and decryption -/

section
variable {A : Asm} {σ : Fin 256 → Fin 256} (h : Contract A σ)
include h

/-- The transform of a noise polynomial. -/
theorem ntt_noise (seed : Bytes) (b : Byte) :
    Bnd 26632 (A.ntt (noise seed b)) ∧ toPoly (A.ntt (noise seed b)) = lay σ (Spec.MlKem.ntt (samplePolyCBD (PRF seed b))) := by
  have := h.ntt _ ((noise_bnd seed b).mono (by decide))
  rwa [toPoly_noise] at this

theorem kpkeKeygen_ok (Gu : Lanes → Lanes) (fuel : Nat) (d : Bytes) :
    kpkeKeygen A Gu fuel d =
      (sampleMat (168 * (3 + fuel)) (G (d ++ [3#8])).1).bind fun M =>
        (Spec.MlKem.kpkeKeyGen (168 * (3 + fuel)) d).map fun k =>
          (⟨k.1.take 1152, (G (d ++ [3#8])).1, rowsOf σ (transpose M)⟩, k.2) := by
  rw [kpkeKeygen, sha3_512_ok]
  simp only [Option.bind_eq_bind, Option.bind_some, List.flatten_cons, List.flatten_nil, List.append_nil]
  rw [Spec.MlKem.kpkeKeyGen]
  simp only [G]
  have hl := sha3_512_length (d ++ [3#8])
  generalize Spec.Keccak.sha3_512 (d ++ [3#8]) = g at *
  have hr : (g.take 32).length = 32 := by rw [List.length_take]; omega
  have hs : (g.drop 32).length = 32 := by rw [List.length_drop]; omega
  rw [(samplePoly_mat h fuel _ hr).1, samplePolyCbdDual_ok Gu _ hs]
  cases sampleMat (168 * (3 + fuel)) (g.take 32) with
  | none => rfl
  | some M =>
    simp only [Option.map_some, Option.bind_some]
    generalize g.drop 32 = sg at *
    generalize g.take 32 = rho at *
    obtain ⟨s0, p0⟩ := ntt_noise h sg 0#8
    obtain ⟨s1, p1⟩ := ntt_noise h sg 1#8
    obtain ⟨s2, p2⟩ := ntt_noise h sg 2#8
    obtain ⟨t0, q0⟩ := ntt_noise h sg 3#8
    obtain ⟨t1, q1⟩ := ntt_noise h sg 4#8
    obtain ⟨t2, q2⟩ := ntt_noise h sg 5#8
    have i0 := s0.i16 (by decide)
    have i1 := s1.i16 (by decide)
    have i2 := s2.i16 (by decide)
    let sHat : Vec := fun i => Spec.MlKem.ntt (samplePolyCBD (PRF sg (byte i.val)))
    obtain ⟨r0, a0, b0, c0⟩ := mulAddRow_ok h (M 0) sHat _ _ _ i0 i1 i2 p0 p1 p2 _ _ t0 q0
    obtain ⟨r1, a1, b1, c1⟩ := mulAddRow_ok h (M 1) sHat _ _ _ i0 i1 i2 p0 p1 p2 _ _ t1 q1
    obtain ⟨r2, a2, b2, c2⟩ := mulAddRow_ok h (M 2) sHat _ _ _ i0 i1 i2 p0 p1 p2 _ _ t2 q2
    have hm : mulAdd A (rowsOf σ M) ([noise sg 0#8, noise sg 1#8, noise sg 2#8].map A.ntt)
        ([noise sg 3#8, noise sg 4#8, noise sg 5#8].map A.ntt) = some [A.reduce r0, A.reduce r1, A.reduce r2] := by
      have hc : chunksExact K (rowsOf σ M) = [[layL σ (coeffs (M 0 0)), layL σ (coeffs (M 0 1)), layL σ (coeffs (M 0 2))],
          [layL σ (coeffs (M 1 0)), layL σ (coeffs (M 1 1)), layL σ (coeffs (M 1 2))],
          [layL σ (coeffs (M 2 0)), layL σ (coeffs (M 2 1)), layL σ (coeffs (M 2 2))]] := by
        rw [K, rowsOf]
        rw [chunksExact_cons (by decide) (by simp), chunksExact_cons (by decide) (by simp),
          chunksExact_cons (by decide) (by simp), chunksExact_short (by simp)]
        rfl
      rw [mulAdd, hc]
      simp only [List.map_cons, List.map_nil, List.zip_cons_cons, List.zip_nil_right, List.mapM_cons, List.mapM_nil, a0,
        a1, a2]
      rfl
    rw [hm]
    simp only [Option.bind_some, Option.pure_def, Option.some.injEq, Prod.mk.injEq, transposeCoeffs_rows]
    have tb := toBytes12_ok h fun i => mulVec M sHat i + Spec.MlKem.ntt (samplePolyCBD (PRF sg (byte (3 + i.val))))
    rw [reduce_layL h b0 c0, reduce_layL h b1 c1, reduce_layL h b2 c2]
    have hsb := toBytes12_ok h sHat
    simp only [List.map_cons, List.map_nil]
    rw [reduce_layL h i0 p0, reduce_layL h i1 p1, reduce_layL h i2 p2]
    constructor
    · rw [List.take_left' (encodeVec12_length _)]
      exact congrArg (fun t => EncapKey.mk t rho (rowsOf σ (transpose M))) tb
    · exact hsb

/-- A valid encapsulation key: its sizes, and its matrix is the one of its seed. -/
def Valid (A : Asm) (fuel : Nat) (ek : EncapKey) : Prop :=
  ek.tHat.length = 1152 ∧ ek.rho.length = 32 ∧ samplePoly A fuel true ek.rho = some ek.transposeAHat

theorem kpkeEncrypt_ok (Gu : Lanes → Lanes) (fuel : Nat) (ek : EncapKey) (hv : Valid A fuel ek) (m r : Bytes)
    (hm : m.length = 32) (hr : r.length = 32) :
    ∃ c, kpkeEncrypt A Gu ek m r = some c ∧ Spec.MlKem.kpkeEncrypt (168 * (3 + fuel)) (encapAsBytes ek) m r = some c := by
  obtain ⟨v1, v2, v3⟩ := hv
  rw [(samplePoly_mat h fuel _ v2).2] at v3
  rw [Spec.MlKem.kpkeEncrypt, encapAsBytes, List.take_left' v1, List.drop_left' v1,
    List.take_of_length_le (by omega)]
  cases hM : sampleMat (168 * (3 + fuel)) ek.rho with
  | none => rw [hM] at v3; cases v3
  | some M =>
  rw [hM] at v3
  simp only [Option.map_some, Option.some.injEq] at v3 ⊢
  rw [kpkeEncrypt, ← v3, fromBytes12_ok h _ v1, samplePolyCbdDual_ok Gu r hr, shake256_ok]
  simp only [Option.bind_eq_bind, Option.bind_some, List.flatten_cons, List.flatten_nil, List.append_nil]
  obtain ⟨s0, p0⟩ := ntt_noise h r 0#8
  obtain ⟨s1, p1⟩ := ntt_noise h r 1#8
  obtain ⟨s2, p2⟩ := ntt_noise h r 2#8
  have i0 := s0.i16 (by decide)
  have i1 := s1.i16 (by decide)
  have i2 := s2.i16 (by decide)
  let yHat : Vec := fun i => Spec.MlKem.ntt (samplePolyCBD (PRF r (byte i.val)))
  obtain ⟨r0, a0, b0, c0⟩ := rowMulIntt_ok h (transpose M 0) yHat _ _ _ i0 i1 i2 p0 p1 p2
  obtain ⟨r1, a1, b1, c1⟩ := rowMulIntt_ok h (transpose M 1) yHat _ _ _ i0 i1 i2 p0 p1 p2
  obtain ⟨r2, a2, b2, c2⟩ := rowMulIntt_ok h (transpose M 2) yHat _ _ _ i0 i1 i2 p0 p1 p2
  have hmat : matMulIntt A (rowsOf σ (transpose M)) ([noise r 0#8, noise r 1#8, noise r 2#8].map A.ntt) =
      some [A.intt (A.reduce r0), A.intt (A.reduce r1), A.intt (A.reduce r2)] := by
    have hc : chunksExact K (rowsOf σ (transpose M)) =
        [[layL σ (coeffs (transpose M 0 0)), layL σ (coeffs (transpose M 0 1)), layL σ (coeffs (transpose M 0 2))],
        [layL σ (coeffs (transpose M 1 0)), layL σ (coeffs (transpose M 1 1)), layL σ (coeffs (transpose M 1 2))],
        [layL σ (coeffs (transpose M 2 0)), layL σ (coeffs (transpose M 2 1)), layL σ (coeffs (transpose M 2 2))]] := by
      rw [K, rowsOf]
      rw [chunksExact_cons (by decide) (by simp), chunksExact_cons (by decide) (by simp),
        chunksExact_cons (by decide) (by simp), chunksExact_short (by simp)]
      rfl
    rw [matMulIntt, hc]
    simp only [List.map_cons, List.map_nil, List.mapM_cons, List.mapM_nil, a0, a1, a2]
    rfl
  obtain ⟨u0, d0, e0, f0⟩ := add_ok h b0 (noise_bnd r 3#8) (by decide)
  obtain ⟨u1, d1, e1, f1⟩ := add_ok h b1 (noise_bnd r 4#8) (by decide)
  obtain ⟨u2, d2, e2, f2⟩ := add_ok h b2 (noise_bnd r 5#8) (by decide)
  have hu : addVec A [A.intt (A.reduce r0), A.intt (A.reduce r1), A.intt (A.reduce r2)]
      [noise r 3#8, noise r 4#8, noise r 5#8] = some [u0, u1, u2] := by
    rw [addVec]
    simp only [List.zip_cons_cons, List.zip_nil_right, List.mapM_cons, List.mapM_nil, d0, d1, d2]
    rfl
  obtain ⟨w1, w2⟩ := vecMulIntt_ok h (decodeVec12 ek.tHat) yHat _ _ _ i0 i1 i2 p0 p1 p2
  obtain ⟨v, x1, x2, x3⟩ := add_ok h w1 (noise_bnd r 6#8) (by decide)
  obtain ⟨m1, m2⟩ := decode_ok 1 (.inl rfl) m (by rw [hm]) _ (fromMessageBits_ok m)
  obtain ⟨v', y1, y2, y3⟩ := add_ok h x2.bnd m1.bnd (by decide)
  have x1' : add A (vecMulIntt A [layL σ (coeffs (decodeVec12 ek.tHat 0)), layL σ (coeffs (decodeVec12 ek.tHat 1)),
      layL σ (coeffs (decodeVec12 ek.tHat 2))] ([noise r 0#8, noise r 1#8, noise r 2#8].map A.ntt))
      (sampleCbd2 (Spec.Keccak.shake256 (r ++ [6#8]) 128)) = some v := x1
  rw [hmat]
  simp only [Option.bind_some, hu, x1', y1, List.mapM_cons, List.mapM_nil, du_ok e0, du_ok e1, du_ok e2, dv_ok y2,
    Option.bind_eq_bind, Option.pure_def, List.flatten_cons, List.flatten_nil, List.append_nil]
  refine ⟨_, rfl, ?_⟩
  rw [f0, f1, f2, y3, x3, m2, w2, c0, c1, c2]
  simp only [toPoly_noise, List.append_assoc]
  rfl

theorem kpkeDecrypt_ok (dkPke c : Bytes) (hd : dkPke.length = 1152) (hc : c.length = 1088) :
    kpkeDecrypt A dkPke c = some (Spec.MlKem.kpkeDecrypt dkPke c) := by
  have hc1 : (c.take 960).length = 960 := by rw [List.length_take]; omega
  rw [kpkeDecrypt, chunks3 320 (by decide) _ hc1, fromBytes12_ok h _ hd]
  simp only [List.map_cons, List.map_nil]
  have t0 : (c.take 960).take 320 = (c.drop (320 * 0)).take 320 := by rw [List.take_take]; rfl
  have t1 : ((c.take 960).drop 320).take 320 = (c.drop (320 * 1)).take 320 := by
    rw [List.drop_take, List.take_take]; rfl
  have t2 : ((c.take 960).drop (2 * 320)).take 320 = (c.drop (320 * 2)).take 320 := by
    rw [List.drop_take, List.take_take]; rfl
  rw [t0, t1, t2]
  have dec : ∀ i, i < 3 → Uns 3329 (decompressDu10 ((c.drop (320 * i)).take 320)) ∧
      toPoly (decompressDu10 ((c.drop (320 * i)).take 320)) = decodeDecompress 10 ((c.drop (320 * i)).take 320) := by
    intro i hi
    have hl : ((c.drop (320 * i)).take 320).length = 320 := by rw [List.length_take, List.length_drop]; omega
    exact decode_ok 10 (.inr (.inr rfl)) _ (by rw [hl]) _ (decompressDu10_ok _ (by rw [hl]; decide))
  obtain ⟨g0, k0⟩ := dec 0 (by decide)
  obtain ⟨g1, k1⟩ := dec 1 (by decide)
  obtain ⟨g2, k2⟩ := dec 2 (by decide)
  obtain ⟨s0, p0⟩ := h.ntt _ g0.bnd
  obtain ⟨s1, p1⟩ := h.ntt _ g1.bnd
  obtain ⟨s2, p2⟩ := h.ntt _ g2.bnd
  rw [k0] at p0
  rw [k1] at p1
  rw [k2] at p2
  let uHat : Vec := fun i => Spec.MlKem.ntt (decodeDecompress 10 ((c.drop (320 * i.val)).take 320))
  obtain ⟨w1, w2⟩ := vecMulIntt_ok h (decodeVec12 dkPke) uHat _ _ _ (s0.i16 (by decide)) (s1.i16 (by decide))
    (s2.i16 (by decide)) p0 p1 p2
  have hv : (c.drop 960).length = 128 := by rw [List.length_drop]; omega
  obtain ⟨v1, v2⟩ := decode_ok 4 (.inr (.inl rfl)) _ (by rw [hv]) _ (decompressDv4_ok (c.drop 960))
  obtain ⟨w, x1, x2, x3⟩ := sub_ok h v1.bnd w1 (by decide)
  rw [x1]
  simp only [Option.bind_eq_bind, Option.bind_some]
  rw [msg_ok x2, x3, v2, w2, Spec.MlKem.kpkeDecrypt, List.take_of_length_le (l := c.drop 960) (by omega)]

end

end Verif.MlKem
