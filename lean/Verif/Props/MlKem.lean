import Verif.Proof.MlKemKem

/-!
C40 to C45: ML-KEM-768 compression, packing, key checking, sampling, encapsulation and decapsulation.

The assembly is a parameter.  Theorems about whole operations hold for every assembly that meets `Contract`
(`Proof/MlKemContract`); `refAsm_contract` at the end shows that the contract can be met.
-/
namespace Verif.Props
open Verif Verif.MlKem Verif.Spec.MlKem Verif.Sha3

/-! ### C40 -/

/-- **C40** For every reduced coefficient, four-bit compression is the standard's. -/
theorem C40_compress4 (x : Int) (h : 0 ≤ x ∧ x < 3329) : compress4 x = some (compress 4 x.toNat) := compress4_ok x h
/-- **C40** Ten bits. -/
theorem C40_compress10 (x : Int) (h : 0 ≤ x ∧ x < 3329) : compress10 x = some (compress 10 x.toNat) := compress10_ok x h
/-- **C40** One bit, eight coefficients to a byte, the first in the least significant bit. -/
theorem C40_compress1 (cs : List Int) (hl : cs.length = 8) (h : ∀ x ∈ cs, 0 ≤ x ∧ x < 3329) :
    ∃ b, compress1x8 cs = some b ∧ ∀ i < 8, b.getLsbD i = decide (compress 1 (cs.getD i 0).toNat = 1) := by
  obtain ⟨b, e1, e2⟩ := compress1Loop_ok cs 0#8 0 h (by omega) (by decide)
  refine ⟨b, e1, ?_⟩
  rw [show (0#8).toNat = 0 from rfl, Nat.zero_add, Nat.pow_zero, Nat.one_mul] at e2
  have c : ∀ x, compress 1 x < 2 := fun x => compress_lt 1 x
  have key : ∀ (l : List Nat), (∀ x ∈ l, x < 2) → ∀ i, (fieldsNat 1 l).testBit i = decide (l.getD i 0 = 1) := by
    intro l
    induction l with
    | nil => intro _ i; simp [fieldsNat]
    | cons y l ih =>
      intro hy i
      have hy0 := hy y (by simp)
      rw [fieldsNat]
      cases i with
      | zero =>
        rw [Nat.testBit_zero, List.getD_cons_zero]
        congr 1
        rw [eq_iff_iff]; omega
      | succ i =>
        rw [Nat.testBit_succ, List.getD_cons_succ, ← ih (fun x hx => hy x (by simp [hx])) i]
        congr 1; omega
  intro i hi
  have := key (cs.map fun x => compress 1 x.toNat) (by
    intro x hx; rw [List.mem_map] at hx; obtain ⟨_, _, rfl⟩ := hx; exact c _) i
  rw [← e2] at this
  rw [BitVec.getLsbD, this]
  rw [List.getD_eq_getElem?_getD, List.getD_eq_getElem?_getD, List.getElem?_map,
    List.getElem?_eq_getElem (by omega)]
  rfl

/-- **C40** Decompression is the standard's, for every compressed value. -/
theorem C40_decompress4 (y : Nat) : decompress4 y = (decompress 4 y : Nat) := decompress4_ok y
theorem C40_decompress10 (y : Nat) : decompress10 y = (decompress 10 y : Nat) := decompress10_ok y
/-- **C40** The constant used for message bits is `Decompress_1`. -/
theorem C40_decompress1 : decompress 1 0 = 0 ∧ decompress 1 1 = 1665 := by
  constructor <;> rw [decompress_nat] <;> norm_num

/-- Distance modulo `q`. -/
def qDist (a b : Nat) : Nat := min ((a + 3329 - b) % 3329) ((b + 3329 - a) % 3329)

/-- **C40** Decompression after compression is off by at most `⌈q / 2^(d+1)⌋` (modulo `q`): 832, 104 and 2. -/
theorem C40_error (x : Nat) (h : x < 3329) :
    qDist (decompress 1 (compress 1 x)) x ≤ 832 ∧ qDist (decompress 4 (compress 4 x)) x ≤ 104 ∧
      qDist (decompress 10 (compress 10 x)) x ≤ 2 := by
  simp only [decompress_nat, compress_nat]
  exact ⟨check_q (fun x => qDist ((2 * (3329 * ((2 * (2 ^ 1 * x) + 3329) / 6658 % 2 ^ 1)) + 2 ^ 1) / (2 * 2 ^ 1)) x ≤ 832)
      (by decide +kernel) x h,
    check_q (fun x => qDist ((2 * (3329 * ((2 * (2 ^ 4 * x) + 3329) / 6658 % 2 ^ 4)) + 2 ^ 4) / (2 * 2 ^ 4)) x ≤ 104)
      (by decide +kernel) x h,
    check_q (fun x => qDist ((2 * (3329 * ((2 * (2 ^ 10 * x) + 3329) / 6658 % 2 ^ 10)) + 2 ^ 10) / (2 * 2 ^ 10)) x ≤ 2)
      (by decide +kernel) x h⟩

/-- **C40** Compression undoes decompression. -/
theorem C40_compress_decompress : (∀ y < 2, compress 1 (decompress 1 y) = y) ∧ (∀ y < 16, compress 4 (decompress 4 y) = y) ∧
    (∀ y < 1024, compress 10 (decompress 10 y) = y) := by
  simp only [decompress_nat, compress_nat]
  refine ⟨by decide +kernel, by decide +kernel, ?_⟩
  have key : ∀ i < 32, ∀ j < 32, (2 * (2 ^ 10 * ((2 * (3329 * (32 * i + j)) + 2 ^ 10) / (2 * 2 ^ 10))) + 3329) / 6658 % 2 ^ 10 =
      32 * i + j := by decide +kernel
  intro y hy
  have := key (y / 32) (by omega) (y % 32) (Nat.mod_lt _ (by decide))
  rwa [show 32 * (y / 32) + y % 32 = y by omega] at this

/-! ### C41 -/

/-- **C41** Packing of reduced polynomials: the standard's `ByteEncode_d(Compress_d(·))` for one, four and ten bits. -/
theorem C41_pack (f : List Int) (hl : f.length = 256) (h : ∀ x ∈ f, 0 ≤ x ∧ x < 3329) :
    toMessageBits f = some (byteEncode 1 (f.map fun x => compress 1 x.toNat)) ∧
    compressDv4 f = some (byteEncode 4 (f.map fun x => compress 4 x.toNat)) ∧
    compressDu10 f = some (byteEncode 10 (f.map fun x => compress 10 x.toNat)) :=
  ⟨toMessageBits_ok f (by rw [hl]; decide) h, compressDv4_ok f (by rw [hl]; decide) h,
    compressDu10_ok f (by rw [hl]; decide) h⟩

/-- **C41** Unpacking: the standard's `Decompress_d(ByteDecode_d(·))`, for every byte string of the right size. -/
theorem C41_unpack (m v u : Bytes) (_ : m.length = 32) (_ : v.length = 128) (hu : u.length = 320) :
    fromMessageBits m = ints ((byteDecode 1 m).map (decompress 1)) ∧
    decompressDv4 v = ints ((byteDecode 4 v).map (decompress 4)) ∧
    decompressDu10 u = ints ((byteDecode 10 u).map (decompress 10)) := by
  refine ⟨?_, ?_, ?_⟩
  · rw [fromMessageBits_ok, ints, List.map_map]; rfl
  · rw [decompressDv4_ok, ints, List.map_map]; rfl
  · rw [decompressDu10_ok u (by rw [hu]; decide), ints, List.map_map]; rfl

/-- **C41** The standard's `ByteEncode_d` and `ByteDecode_d` are inverse to each other, on all values and on all byte
strings (for twelve bits, on all values below `q`; C42 says which byte strings those give). -/
theorem C41_inverse (d : Nat) (hd : d = 1 ∨ d = 4 ∨ d = 10) :
    (∀ F : List Nat, F.length = 256 → (∀ x ∈ F, x < 2 ^ d) → byteDecode d (byteEncode d F) = F) ∧
    (∀ B : Bytes, B.length = 32 * d → byteEncode d (byteDecode d B) = B) := by
  have hd0 : 0 < d ∧ d ≠ 12 := by rcases hd with rfl | rfl | rfl <;> decide
  constructor
  · intro F hF hx
    rw [byteDecode_eq_raw d hd0.2, rawDecode_byteEncode d hd0.1 F (by rw [hF]; exact ⟨d * 32, by ring⟩) hx]
  · intro B hB
    rw [byteDecode_eq_raw d hd0.2, byteEncode_rawDecode d hd0.1 B (by rw [hB]; exact ⟨256, by ring⟩)]

theorem C41_inverse12 (F : List Nat) (hF : F.length = 256) (hx : ∀ x ∈ F, x < 3329) :
    byteDecode 12 (byteEncode 12 F) = F := by
  rw [byteDecode_raw, rawDecode_byteEncode 12 (by decide) F (by rw [hF]; decide) (fun x h => Nat.lt_trans (hx x h) (by decide))]
  conv => rhs; rw [← List.map_id F]
  refine List.map_congr_left fun x h => ?_
  exact Nat.mod_eq_of_lt (hx x h)

/-- **C41** Round trips of the code: unpacking a ciphertext part and packing it again gives the same bytes. -/
theorem C41_repack (m v u : Bytes) (hm : m.length = 32) (hv : v.length = 128) (hu : u.length = 320) :
    toMessageBits (fromMessageBits m) = some m ∧ compressDv4 (decompressDv4 v) = some v ∧
      compressDu10 (decompressDu10 u) = some u := by
  obtain ⟨c1, c4, c10⟩ := C40_compress_decompress
  have go : ∀ (d : Nat) (hd : d = 1 ∨ d = 4 ∨ d = 10) (B : Bytes) (hB : B.length = 32 * d)
      (_ : ∀ y < 2 ^ d, compress d (decompress d y) = y) (a : Coeffs)
      (e : a = (byteDecode d B).map fun y => ((decompress d y : Nat) : Int)),
      Uns 3329 a ∧ byteEncode d (a.map fun x => compress d x.toNat) = B := by
    intro d hd B hB hc a e
    have hd0 : 0 < d ∧ d ≠ 12 := by rcases hd with rfl | rfl | rfl <;> decide
    refine ⟨(decode_ok d hd B (by rw [hB]; ring) a e).1, ?_⟩
    have : (a.map fun x => compress d x.toNat) = byteDecode d B := by
      rw [e, List.map_map]
      conv => rhs; rw [← List.map_id (byteDecode d B)]
      refine List.map_congr_left fun y hy => ?_
      rw [byteDecode_eq_raw d hd0.2] at hy
      exact hc y (rawDecode_lt d B y hy)
    rw [this, (C41_inverse d hd).2 B hB]
  obtain ⟨u1, e1⟩ := go 1 (.inl rfl) m hm c1 _ (fromMessageBits_ok m)
  obtain ⟨u4, e4⟩ := go 4 (.inr (.inl rfl)) v hv c4 _ (decompressDv4_ok v)
  obtain ⟨u10, e10⟩ := go 10 (.inr (.inr rfl)) u hu c10 _ (decompressDu10_ok u (by rw [hu]; decide))
  refine ⟨?_, ?_, ?_⟩
  · rw [(C41_pack _ u1.1 u1.2).1, e1]
  · rw [(C41_pack _ u4.1 u4.2).2.1, e4]
  · rw [(C41_pack _ u10.1 u10.2).2.2, e10]

/-- **C41** Twelve bits: writing then reading a reduced transform gives it back, and the bytes are `ByteEncode_12`. -/
theorem C41_twelve {A : Asm} {σ : Fin 256 → Fin 256} (h : Contract A σ) (g : Poly) :
    A.tobytes (layL σ (coeffs g)) = byteEncode 12 (coeffs g) ∧
    A.reduce (A.frombytes (A.tobytes (layL σ (coeffs g)))) = layL σ (coeffs g) := by
  refine ⟨tobytes_ok h g, ?_⟩
  rw [tobytes_ok h g, frombytes_ok h _ (encode12_length g), C41_inverse12 _ (coeffs_length g) (coeffs_lt g), ofCoeffs_coeffs]

/-- **C41** The portable twelve-bit reader used on aarch64 reads the fields of the little-endian bit string. -/
theorem C41_frombytes_portable (B : Bytes) (hB : B.length = 384) :
    frombytesGeneric B = (List.range 256).map fun i => ((leNat B / 2 ^ (12 * i) % 2 ^ 12 : Nat) : Int) := by
  have e : frombytesGeneric B = ints (rawDecode 12 B) := by
    refine groups_ind 3 (P := fun B => frombytesGeneric B = ints (rawDecode 12 B)) ?_ ?_ B (by rw [hB]; decide)
    · rw [frombytesGeneric, chunksExact_short (by simp), rawDecode_nil 12 (by decide)]; rfl
    · intro c b hc _ ih
      rw [frombytesGeneric] at ih ⊢
      rw [chunksExact_block_append (by omega) hc, List.flatMap_cons, ih,
        rawDecode_append 12 (by decide) _ _ (by rw [hc]; decide), ints_append,
        rawDecode_group 12 (by decide) 2 c (by rw [hc])]
      congr 1
      match c, hc with
      | [x, y, z], _ =>
        simp only [List.getD_cons_zero, List.getD_cons_succ, leNat, List.range, List.range.loop, List.map_cons, List.map_nil,
          ints]
        have hx := x.isLt
        have hy := y.isLt
        have hz := z.isLt
        have w : ∀ v : BitVec 8, (v.setWidth 16).toNat = v.toNat := by
          intro v; rw [BitVec.toNat_setWidth]; have := v.isLt; omega
        have n1 : ((x.setWidth 16) ||| ((y.setWidth 16 &&& 0x0f#16) <<< 8)).toNat = y.toNat % 16 * 2 ^ 8 + x.toNat := by
          rw [BitVec.toNat_or, BitVec.toNat_shiftLeft, BitVec.toNat_and, w, w, show (15#16).toNat = 2 ^ 4 - 1 from rfl,
            Nat.and_two_pow_sub_one_eq_mod, Nat.mod_eq_of_lt (by rw [Nat.shiftLeft_eq]; omega), or_shift _ _ _ (by omega)]
        have n2 : ((y.setWidth 16 >>> 4) ||| (z.setWidth 16 <<< 4)).toNat = z.toNat * 2 ^ 4 + y.toNat / 16 := by
          rw [BitVec.toNat_or, BitVec.toNat_shiftLeft, BitVec.toNat_ushiftRight, w, w,
            Nat.mod_eq_of_lt (by rw [Nat.shiftLeft_eq]; omega), Nat.shiftRight_eq_div_pow, or_shift _ _ _ (by omega)]
        rw [BitVec.toInt_eq_toNat_of_lt (by rw [n1]; omega), BitVec.toInt_eq_toNat_of_lt (by rw [n2]; omega), n1, n2]
        simp only [List.cons.injEq, and_true]
        constructor <;> congr 1 <;> omega
  rw [e, rawDecode_group 12 (by decide) 256 B (by rw [hB]), ints, List.map_map]
  rfl

/-! ### C42 -/

theorem modulus_check (C : Bytes) (hC : C.length = 384) :
    byteEncode 12 (coeffs (ofCoeffs (byteDecode 12 C))) = C ↔ ∀ x ∈ rawDecode 12 C, x < 3329 := by
  have hl : (rawDecode 12 C).length = 256 := rawDecode_length 12 (by decide) 256 C (by rw [hC])
  have e : coeffs (ofCoeffs (byteDecode 12 C)) = byteDecode 12 C := by
    refine coeffs_ofCoeffs _ ?_ ?_
    · rw [byteDecode_raw, List.length_map, hl]
    · intro x hx
      rw [byteDecode_raw, List.mem_map] at hx
      obtain ⟨y, _, rfl⟩ := hx
      exact Nat.mod_lt _ (by decide)
  have hb := byteEncode_rawDecode 12 (by decide) C (by rw [hC]; decide)
  rw [e, byteDecode_raw]
  constructor
  · intro h
    have h2 := congrArg (rawDecode 12) h
    rw [rawDecode_byteEncode 12 (by decide) _ (by rw [List.length_map, hl]; decide) (by
      intro x hx
      rw [List.mem_map] at hx
      obtain ⟨y, _, rfl⟩ := hx
      exact Nat.lt_trans (Nat.mod_lt _ (by decide)) (by decide))] at h2
    intro x hx
    rw [← h2, List.mem_map] at hx
    obtain ⟨y, _, rfl⟩ := hx
    exact Nat.mod_lt _ (by decide)
  · intro h
    have : (rawDecode 12 C).map (· % (if 12 = 12 then 3329 else 2 ^ 12)) = rawDecode 12 C := by
      conv => rhs; rw [← List.map_id (rawDecode 12 C)]
      exact List.map_congr_left fun x hx => Nat.mod_eq_of_lt (h x hx)
    rw [this, hb]

theorem fields_split (B : Bytes) (hB : B.length = 1152) :
    rawDecode 12 B = rawDecode 12 (B.take 384) ++ (rawDecode 12 ((B.drop 384).take 384) ++ rawDecode 12 ((B.drop 768).take 384)) := by
  have l1 : (B.take 384).length = 384 := by rw [List.length_take]; omega
  have l2 : ((B.drop 384).take 384).length = 384 := by rw [List.length_take, List.length_drop]; omega
  have e : B = B.take 384 ++ ((B.drop 384).take 384 ++ (B.drop 768).take 384) := by
    have h3 : (B.drop 768).take 384 = B.drop 768 := List.take_of_length_le (by rw [List.length_drop]; omega)
    rw [h3, show B.drop 768 = (B.drop 384).drop 384 by rw [List.drop_drop], List.take_append_drop, List.take_append_drop]
  conv => lhs; rw [e]
  rw [rawDecode_append 12 (by decide) _ _ (by rw [l1]; decide), rawDecode_append 12 (by decide) _ _ (by rw [l2]; decide)]

theorem check_iff {A : Asm} {σ : Fin 256 → Fin 256} (h : Contract A σ) (B : Bytes) (hB : B.length = 1152) :
    B = toBytes12 A (fromBytes12 A B) ↔ ∀ x ∈ rawDecode 12 B, x < 3329 := by
  have l1 : (B.take 384).length = 384 := by rw [List.length_take]; omega
  have l2 : ((B.drop 384).take 384).length = 384 := by rw [List.length_take, List.length_drop]; omega
  have l3 : ((B.drop 768).take 384).length = 384 := by rw [List.length_take, List.length_drop]; omega
  have e : B = B.take 384 ++ ((B.drop 384).take 384 ++ (B.drop 768).take 384) := by
    have h3 : (B.drop 768).take 384 = B.drop 768 := List.take_of_length_le (by rw [List.length_drop]; omega)
    rw [h3, show B.drop 768 = (B.drop 384).drop 384 by rw [List.drop_drop], List.take_append_drop, List.take_append_drop]
  rw [fromBytes12_ok h B hB, toBytes12_ok h, encodeVec12, fields_split B hB]
  have m1 := modulus_check _ l1
  have m2 := modulus_check _ l2
  have m3 := modulus_check _ l3
  simp only [List.forall_mem_append]
  rw [← m1, ← m2, ← m3]
  have d0 : decodeVec12 B 0 = ofCoeffs (byteDecode 12 (B.take 384)) := rfl
  have d1 : decodeVec12 B 1 = ofCoeffs (byteDecode 12 ((B.drop 384).take 384)) := rfl
  have d2 : decodeVec12 B 2 = ofCoeffs (byteDecode 12 ((B.drop 768).take 384)) := rfl
  rw [d0, d1, d2, List.append_assoc]
  constructor
  · intro hh
    have hh' := e.symm.trans hh
    have a := List.append_inj hh' (by rw [l1, encode12_length])
    have b := List.append_inj a.2 (by rw [l2, encode12_length])
    exact ⟨a.1.symm, b.1.symm, b.2.symm⟩
  · rintro ⟨a, b, c⟩
    rw [a, b, c]
    exact e

/-- **C42** Importing an encapsulation key fails with `OutOfRange` exactly when one of the 768 twelve-bit fields is not
below `q`.  Otherwise (unless the rejection sampling of the matrix outlasts `fuel` further blocks) it succeeds with a
valid key that exports as the same bytes. -/
theorem C42_from_bytes {A : Asm} {σ : Fin 256 → Fin 256} (h : Contract A σ) (fuel : Nat) (input : Bytes)
    (hl : input.length = 1184) :
    (encapFromBytes A fuel input = some none ↔
      ¬ ∀ i < 768, leNat (input.take 1152) / 2 ^ (12 * i) % 2 ^ 12 < 3329) ∧
    ((∀ i < 768, leNat (input.take 1152) / 2 ^ (12 * i) % 2 ^ 12 < 3329) →
      (sampleMat (168 * (3 + fuel)) (input.drop 1152)).isSome →
      ∃ ek, encapFromBytes A fuel input = some (some ek) ∧ encapAsBytes ek = input ∧ Valid A fuel ek) := by
  have l1 : (input.take 1152).length = 1152 := by rw [List.length_take]; omega
  have l2 : (input.drop 1152).length = 32 := by rw [List.length_drop]; omega
  have hf : (∀ x ∈ rawDecode 12 (input.take 1152), x < 3329) ↔
      ∀ i < 768, leNat (input.take 1152) / 2 ^ (12 * i) % 2 ^ 12 < 3329 := by
    rw [rawDecode_group 12 (by decide) 768 _ (by rw [l1])]
    simp only [List.mem_map, List.mem_range]
    constructor
    · intro hh i hi; exact hh _ ⟨i, hi, rfl⟩
    · rintro hh x ⟨i, hi, rfl⟩; exact hh i hi
  have hc := check_iff h _ l1
  rw [hf] at hc
  have sp := (samplePoly_mat h fuel _ l2).2
  have hK : K * 384 = 1152 := rfl
  constructor
  · rw [encapFromBytes, hK]
    by_cases hh : input.take 1152 = toBytes12 A (fromBytes12 A (input.take 1152))
    · rw [if_neg (fun hn => hn hh)]
      constructor
      · intro e
        cases hs : samplePoly A fuel true (input.drop 1152) with
        | none => rw [hs] at e; cases e
        | some t => rw [hs] at e; cases e
      · intro hn; exact absurd (hc.1 hh) hn
    · rw [if_pos hh]
      exact ⟨fun _ hn => hh (hc.2 hn), fun _ => rfl⟩
  · intro hh hs
    obtain ⟨M, hM⟩ := Option.isSome_iff_exists.1 hs
    rw [hM] at sp
    refine ⟨⟨input.take 1152, input.drop 1152, rowsOf σ (transpose M)⟩, ?_, List.take_append_drop .., l1, l2, sp⟩
    rw [encapFromBytes, hK, if_neg (fun hn => hn (hc.2 hh)), sp]
    rfl

/-! ### C43 -/

/-- The decapsulation key is one that key generation or the standard's encoding could have produced: sizes, and the
matrix is that of the seed. -/
def ValidDk (A : Asm) (fuel : Nat) (dk : DecapKey) : Prop :=
  Valid A fuel dk.ekPke ∧ dk.dkPke.length = 1152 ∧ dk.hEk.length = 32 ∧ dk.z.length = 32

/-- **C43** Key generation is the standard's (the private and public keys as bytes), fails exactly when the sampling
needs more than the allowed output, and gives a valid key. -/
theorem C43_keygen {A : Asm} {σ : Fin 256 → Fin 256} (h : Contract A σ) (Gu : Lanes → Lanes) (fuel : Nat) (d z : Bytes)
    (hd : d.length = 32) (hz : z.length = 32) :
    (keygenInternal A Gu fuel (d ++ z)).map (fun dk => (encapAsBytes dk.ekPke, decapAsBytes dk)) =
      Spec.MlKem.keyGenInternal (168 * (3 + fuel)) d z ∧
    ∀ dk, keygenInternal A Gu fuel (d ++ z) = some dk → ValidDk A fuel dk := by
  rw [keygenInternal, List.take_left' hd, List.drop_left' hd, kpkeKeygen_ok h, Spec.MlKem.keyGenInternal,
    Spec.MlKem.kpkeKeyGen]
  simp only [G]
  have hl := sha3_512_length (d ++ [3#8])
  generalize Spec.Keccak.sha3_512 (d ++ [3#8]) = g at *
  have hr : (g.take 32).length = 32 := by rw [List.length_take]; omega
  have sp := (samplePoly_mat h fuel _ hr).2
  cases hM : sampleMat (168 * (3 + fuel)) (g.take 32) with
  | none => exact ⟨rfl, fun dk e => by cases e⟩
  | some M =>
    rw [hM] at sp
    simp only [Option.bind_eq_bind, Option.bind_some, Option.map_some, sha3_256_ok, Option.pure_def, List.flatten_cons,
      List.flatten_nil, List.append_nil]
    rw [List.take_left' (encodeVec12_length _)]
    constructor
    · simp only [encapAsBytes, decapAsBytes, Option.some.injEq, Prod.mk.injEq, true_and, H, List.append_assoc]
    · intro dk e
      rw [Option.some.injEq] at e
      subst e
      refine ⟨⟨?_, hr, sp⟩, ?_, ?_, hz⟩
      · dsimp only
        rw [encodeVec12_length]
      · dsimp only
        rw [encodeVec12_length]
      · dsimp only
        rw [sha3_256_length]

/-- **C43** Encapsulation to a valid key never fails and is the standard's, for every message. -/
theorem C43_encaps {A : Asm} {σ : Fin 256 → Fin 256} (h : Contract A σ) (Gu : Lanes → Lanes) (fuel : Nat)
    (ek : EncapKey) (hv : Valid A fuel ek) (m : Bytes) (hm : m.length = 32) :
    ∃ r, encapsInternal A Gu ek m = some r ∧ Spec.MlKem.encapsInternal (168 * (3 + fuel)) (encapAsBytes ek) m = some r := by
  rw [MlKem.encapsInternal, sha3_256_ok]
  simp only [Option.bind_eq_bind, Option.bind_some, sha3_512_ok, List.flatten_cons, List.flatten_nil, List.append_nil]
  rw [Spec.MlKem.encapsInternal]
  simp only [G, H, encapAsBytes]
  have hl := sha3_512_length (m ++ Spec.Keccak.sha3_256 (ek.tHat ++ ek.rho))
  generalize Spec.Keccak.sha3_512 (m ++ Spec.Keccak.sha3_256 (ek.tHat ++ ek.rho)) = kr at *
  obtain ⟨c, e1, e2⟩ := kpkeEncrypt_ok h Gu fuel ek hv m (kr.drop 32) hm (by rw [List.length_drop]; omega)
  rw [encapAsBytes] at e2
  refine ⟨(kr.take 32, c), ?_, ?_⟩
  · rw [e1]; rfl
  · rw [e2]; rfl

/-- **C43** Decapsulation of any 1088-byte string with any valid key never fails, and returns the re-derived key when
re-encryption reproduces the string and the rejection key otherwise.  Here `m'` is the standard's decryption,
`(K', r') = G(m' ‖ h)` and the rejection key is `J(z ‖ c)`. -/
theorem C43_decaps {A : Asm} {σ : Fin 256 → Fin 256} (h : Contract A σ) (Gu : Lanes → Lanes) (fuel : Nat)
    (dk : DecapKey) (hv : ValidDk A fuel dk) (c : Bytes) (hc : c.length = 1088) :
    ∃ c', Spec.MlKem.kpkeEncrypt (168 * (3 + fuel)) (encapAsBytes dk.ekPke) (Spec.MlKem.kpkeDecrypt dk.dkPke c)
        (G (Spec.MlKem.kpkeDecrypt dk.dkPke c ++ dk.hEk)).2 = some c' ∧
      decapsInternal A Gu dk c =
        some (if c = c' then (G (Spec.MlKem.kpkeDecrypt dk.dkPke c ++ dk.hEk)).1 else J (dk.z ++ c)) := by
  obtain ⟨v1, v2, v3, v4⟩ := hv
  rw [MlKem.decapsInternal, kpkeDecrypt_ok h dk.dkPke c v2 hc]
  have hm : (Spec.MlKem.kpkeDecrypt dk.dkPke c).length = 32 := by
    rw [Spec.MlKem.kpkeDecrypt, compressEncode]
    exact byteEncode_length 1 32 _ (by rw [List.length_map, coeffs_length])
  generalize Spec.MlKem.kpkeDecrypt dk.dkPke c = m at *
  simp only [Option.bind_eq_bind, Option.bind_some, sha3_512_ok, shake256_ok, List.flatten_cons, List.flatten_nil,
    List.append_nil, G]
  have hl := sha3_512_length (m ++ dk.hEk)
  generalize Spec.Keccak.sha3_512 (m ++ dk.hEk) = kr at *
  obtain ⟨c', e1, e2⟩ := kpkeEncrypt_ok h Gu fuel dk.ekPke v1 m (kr.drop 32) hm (by rw [List.length_drop]; omega)
  refine ⟨c', e2, ?_⟩
  rw [e1]
  simp only [Option.bind_some, Option.pure_def]
  rw [C53_ct_copy _ _ _ (by rw [shake_length, List.length_take]; omega), J]
  congr 1
  by_cases e : c = c'
  · rw [if_pos ((C53_ct_equal c c').2 e), if_pos e]
  · rw [if_neg fun hn => e ((C53_ct_equal c c').1 hn), if_neg e]

/-- **C43** The same against the whole of algorithm 18, on the key's encoding. -/
theorem C43_decaps_spec {A : Asm} {σ : Fin 256 → Fin 256} (h : Contract A σ) (Gu : Lanes → Lanes) (fuel : Nat)
    (dk : DecapKey) (hv : ValidDk A fuel dk) (c : Bytes) (hc : c.length = 1088) :
    decapsInternal A Gu dk c = Spec.MlKem.decapsInternal (168 * (3 + fuel)) (decapAsBytes dk) c := by
  obtain ⟨c', e1, e2⟩ := C43_decaps h Gu fuel dk hv c hc
  obtain ⟨⟨v0, v1, _⟩, v2, v3, v4⟩ := hv
  rw [e2, Spec.MlKem.decapsInternal, decapAsBytes]
  have t1 : (dk.dkPke ++ dk.ekPke.tHat ++ dk.ekPke.rho ++ dk.hEk ++ dk.z).take 1152 = dk.dkPke := by
    rw [List.append_assoc, List.append_assoc, List.append_assoc, List.take_left' v2]
  have t2 : ((dk.dkPke ++ dk.ekPke.tHat ++ dk.ekPke.rho ++ dk.hEk ++ dk.z).drop 1152).take 1184 = encapAsBytes dk.ekPke := by
    rw [List.append_assoc, List.append_assoc, List.append_assoc, List.drop_left' v2, ← List.append_assoc,
      List.take_left' (by rw [List.length_append, v0, v1]), encapAsBytes]
  have t3 : ((dk.dkPke ++ dk.ekPke.tHat ++ dk.ekPke.rho ++ dk.hEk ++ dk.z).drop 2336).take 32 = dk.hEk := by
    rw [List.append_assoc, List.drop_left' (by simp [v0, v1, v2]), List.take_left' v3]
  have t4 : ((dk.dkPke ++ dk.ekPke.tHat ++ dk.ekPke.rho ++ dk.hEk ++ dk.z).drop 2368).take 32 = dk.z := by
    rw [List.drop_left' (by simp [v0, v1, v2, v3]), List.take_of_length_le (by omega)]
  simp only [t1, t2, t3, t4]
  rw [e1]
  rfl

/-! ### C44 -/

/-- **C44** The noise sampler: coefficient `i` of the polynomial of 128 bytes is the difference of the sums of bits
`4i, 4i+1` and `4i+2, 4i+3` of the little-endian bit string. -/
theorem C44_cbd (buf : Bytes) (hl : buf.length = 128) :
    sampleCbd2 buf = (List.range 256).map fun i =>
      let b (k : Nat) : Int := ((bytesToBits buf).getD k false).toNat
      (b (4 * i) + b (4 * i + 1)) - (b (4 * i + 2) + b (4 * i + 3)) := by
  have hb : (bytesToBits buf).length = 1024 := by rw [bytesToBits_length, hl]
  rw [sampleCbd2_ok buf (by rw [hl]; decide)]
  refine List.ext_getElem? fun i => ?_
  by_cases hi : i < 256
  · rw [List.getElem?_map, List.getElem?_map, List.getElem?_range hi, chunksExact_getElem? 4 (by decide) _ i (by omega)]
    simp only [Option.map_some, Option.some.injEq]
    have g : ∀ k, k < 4 → (((bytesToBits buf).drop (4 * i)).take 4).getD k false = (bytesToBits buf).getD (4 * i + k) false := by
      intro k hk
      rw [List.getD_eq_getElem?_getD, List.getD_eq_getElem?_getD, List.getElem?_take_of_lt hk, List.getElem?_drop]
    rw [cbdBits, g 0 (by decide), g 1 (by decide), g 2 (by decide), g 3 (by decide)]
    rfl
  · rw [List.getElem?_eq_none (by rw [List.length_map, length_chunksExact (by decide), hb]; omega),
      List.getElem?_eq_none (by rw [List.length_map, List.length_range]; omega)]

/-- **C44** The six noise polynomials of a seed are those of `PRF(seed, 0)` to `PRF(seed, 5)`, in that order, for every
seed and whatever the batched permutation leaves in unused lanes. -/
theorem C44_dual (Gu : Lanes → Lanes) (sigma : Bytes) (h : sigma.length = 32) :
    samplePolyCbdDual Gu sigma = some
      ((List.range 3).map fun i => sampleCbd2 (PRF sigma (BitVec.ofNat 8 i)),
        (List.range 3).map fun i => sampleCbd2 (PRF sigma (BitVec.ofNat 8 (3 + i)))) :=
  samplePolyCbdDual_ok Gu sigma h

/-! ### C45 -/

/-- **C45** One polynomial: bulk sampling of three blocks and then one block at a time gives the first 256 values below
`q` of the stream, for every stream and every number of further blocks; nothing is returned exactly when the allowed
output holds fewer than 256. -/
theorem C45_sample (A : Asm) (hA : RejOk A) (fuel : Nat) (seed : List Bytes) :
    ((newForMessage (keccak RC) SHAKE_128_R SHAKE_PAD seed).bind fun s => sampleInto A fuel s) =
      let a := accepted (Spec.Keccak.shake128 seed.flatten (168 * (3 + fuel)))
      if 256 ≤ a.length then some (ints (a.take 256)) else none :=
  sampleInto_ok A hA fuel seed

/-- **C45** Allowing more output does not change a result. -/
theorem C45_sample_mono (limit more : Nat) (h : 3 ∣ limit) (B : Bytes) (f : Poly) (e : sampleNTT limit B = some f) :
    sampleNTT (limit + more) B = some f := by
  rw [sampleNTT] at e ⊢
  have hp : Spec.Keccak.shake128 B (limit + more) = Spec.Keccak.shake128 B limit ++
      (Spec.Keccak.shake128 B (limit + more)).drop limit := by
    have := C21_spec_prefix Spec.Keccak.keccakF 168 Spec.Keccak.shakeSuffix B limit (limit + more)
    have h2 : (Spec.Keccak.shake128 B (limit + more)).take limit = Spec.Keccak.shake128 B limit := by
      rw [Spec.Keccak.shake128, Spec.Keccak.shake128, Spec.Keccak.sponge, Spec.Keccak.sponge, Spec.Keccak.squeeze,
        Spec.Keccak.squeeze, ← List.map_take, List.take_range, Nat.min_eq_left (Nat.le_add_right _ _)]
    rw [← h2, List.take_append_drop]
  have hl : (Spec.Keccak.shake128 B limit).length = limit := by
    rw [Spec.Keccak.shake128, Spec.Keccak.sponge, Spec.Keccak.squeeze]; simp
  rw [hp, accepted_append _ _ (by rw [hl]; exact h)]
  generalize accepted (Spec.Keccak.shake128 B limit) = a at *
  split at e
  case isTrue ha =>
    rw [if_pos (by rw [List.length_append]; omega), List.take_append_of_le_length ha]
    exact e
  case isFalse => cases e

/-- **C45** The matrix of key generation and the transposed one of encapsulation: entry `(i, j)` is sampled from
`ρ ‖ j ‖ i`, respectively `ρ ‖ i ‖ j`; either all nine exist or nothing is returned. -/
theorem C45_matrix {A : Asm} {σ : Fin 256 → Fin 256} (h : Contract A σ) (fuel : Nat) (rho : Bytes) (hr : rho.length = 32) :
    samplePoly A fuel false rho = (sampleMat (168 * (3 + fuel)) rho).map (rowsOf σ) ∧
    samplePoly A fuel true rho = (sampleMat (168 * (3 + fuel)) rho).map fun M => rowsOf σ (transpose M) :=
  samplePoly_mat h fuel rho hr

/-! ### The contract can be met -/

/-- An array of reduced coefficients. -/
def arr (f : Poly) : Coeffs := ints (coeffs f)

theorem arr_uns (f : Poly) : Uns 3329 (arr f) :=
  ⟨by rw [arr, ints_length, coeffs_length], fun x hx => by
    rw [arr, ints, List.mem_map] at hx
    obtain ⟨y, hy, rfl⟩ := hx
    have := coeffs_lt f y hy
    omega⟩

theorem toPoly_arr (f : Poly) : toPoly (arr f) = f := by rw [arr, toPoly_ints, ofCoeffs_coeffs]

/-- The standard's operations on arrays in natural order, with the portable reader. -/
def refAsm : Asm where
  ntt a := arr (Spec.MlKem.ntt (toPoly a))
  intt a := arr fun i => 2 ^ 16 * Spec.MlKem.intt (toPoly a) i
  reduce a := arr (toPoly a)
  tomont a := arr fun i => 2 ^ 16 * toPoly a i
  unpack := unpackGeneric
  mulcache _ := []
  basemul a b _ := arr fun i => 169 * dot (fun k => toPoly (a.getD k.val [])) (fun k => toPoly (b.getD k.val [])) i
  tobytes a := byteEncode 12 (a.map Int.toNat)
  frombytes := frombytesGeneric
  rej B := ints ((accepted B).take 256)

theorem layL_id (l : List Nat) (h : l.length = 256) : layL id l = ints l := by
  refine List.ext_getElem (by rw [layL, List.length_ofFn, ints_length, h]) fun i h1 h2 => ?_
  rw [ints_length] at h2
  simp only [layL, ints, List.getElem_ofFn, List.getElem_map, id]
  rw [List.getD_eq_getElem?_getD, List.getElem?_eq_getElem h2]
  rfl

theorem ref_basemul (a0 a1 a2 b0 b1 b2 : Coeffs) (c : List Coeffs) (f g : Vec) (e0 : toPoly a0 = f 0) (e1 : toPoly a1 = f 1)
    (e2 : toPoly a2 = f 2) (d0 : toPoly b0 = g 0) (d1 : toPoly b1 = g 1) (d2 : toPoly b2 = g 2) :
    I16 (refAsm.basemul [a0, a1, a2] [b0, b1, b2] c) ∧
      (fun i => 2 ^ 16 * toPoly (refAsm.basemul [a0, a1, a2] [b0, b1, b2] c) i) = dot f g := by
  have hf : (fun k : Fin 3 => toPoly ([a0, a1, a2].getD k.val [])) = f := by
    funext k
    match k with
    | ⟨0, _⟩ => exact e0
    | ⟨1, _⟩ => exact e1
    | ⟨2, _⟩ => exact e2
  have hg : (fun k : Fin 3 => toPoly ([b0, b1, b2].getD k.val [])) = g := by
    funext k
    match k with
    | ⟨0, _⟩ => exact d0
    | ⟨1, _⟩ => exact d1
    | ⟨2, _⟩ => exact d2
  simp only [refAsm]
  refine ⟨(arr_uns _).i16 (by decide), ?_⟩
  rw [toPoly_arr, hf, hg]
  funext i
  rw [← mul_assoc, pow16_inv, one_mul]

theorem ref_tobytes (l : List Nat) (hl : l.length = 256) : refAsm.tobytes (layL id l) = byteEncode 12 l := by
  rw [layL_id l hl]
  simp only [refAsm]
  congr 1
  rw [ints, List.map_map]
  conv => rhs; rw [← List.map_id l]
  exact List.map_congr_left fun x _ => Int.toNat_natCast x

theorem ref_frombytes (B : Bytes) (hB : B.length = 384) : refAsm.frombytes B = layL id (rawDecode 12 B) := by
  have hr : (rawDecode 12 B).length = 256 := rawDecode_length 12 (by decide) 256 B (by rw [hB])
  rw [layL_id _ hr]
  simp only [refAsm]
  rw [C41_frombytes_portable B hB, rawDecode_group 12 (by decide) 256 B (by rw [hB]), ints, List.map_map]
  rfl

theorem lay_id (f : Poly) : lay id f = f := rfl

theorem refAsm_contract : Contract refAsm id := by
  refine ⟨?_, ?_, ?_, ?_, ?_, ?_, ?_, ?_, ?_⟩
  · intro a _
    simp only [refAsm]
    exact ⟨(arr_uns _).bnd.mono (by decide), toPoly_arr _⟩
  · intro a g _ e
    rw [lay_id] at e
    simp only [refAsm]
    rw [e]
    exact ⟨(arr_uns _).bnd.mono (by decide), toPoly_arr _⟩
  · intro a _
    simp only [refAsm]
    exact ⟨arr_uns _, toPoly_arr _⟩
  · intro a _
    simp only [refAsm]
    exact ⟨(arr_uns _).bnd, toPoly_arr _⟩
  · intro a0 a1 a2 b0 b1 b2 f g _ _ _ _ _ _ e0 e1 e2 d0 d1 d2
    rw [lay_id] at *
    exact ref_basemul a0 a1 a2 b0 b1 b2 _ f g e0 e1 e2 d0 d1 d2
  · intro l hl _
    rw [layL_id l hl]
    simp only [refAsm, unpackGeneric]
  · intro l hl _
    exact ref_tobytes l hl
  · exact ref_frombytes
  · intro B _
    simp only [refAsm]

/-- A key with every field in range, and one without. -/
example : ∃ B : Bytes, B.length = 1184 ∧ ∀ i < 768, leNat (B.take 1152) / 2 ^ (12 * i) % 2 ^ 12 < 3329 := by
  refine ⟨List.replicate 1184 0#8, List.length_replicate .., fun i _ => ?_⟩
  have : ∀ n, leNat (List.replicate n 0#8) = 0 := by
    intro n
    induction n with
    | zero => rfl
    | succ n ih => rw [List.replicate_succ, leNat, ih]; rfl
  rw [List.take_replicate, this]
  simp
example : ¬ ∀ i < 768, leNat ((List.replicate 1184 0xff#8).take 1152) / 2 ^ (12 * i) % 2 ^ 12 < 3329 := by
  intro h
  have := h 0 (by decide)
  revert this
  decide +kernel

end Verif.Props
