import Verif.Spec.MlKem
import Verif.Model.MlKem

/-!
Bit strings, ByteEncode and ByteDecode for C41.
-/
namespace Verif.MlKem
open Verif Verif.Spec.MlKem

theorem bitsNat_append (a b : List Bool) : bitsNat (a ++ b) = bitsNat a + 2 ^ a.length * bitsNat b := by
  induction a with
  | nil => simp [bitsNat]
  | cons x xs ih => rw [List.cons_append, bitsNat, bitsNat, ih, List.length_cons, Nat.pow_succ]; ring

theorem bitsNat_lt (a : List Bool) : bitsNat a < 2 ^ a.length := by
  induction a with
  | nil => simp [bitsNat]
  | cons x xs ih => rw [bitsNat, List.length_cons, Nat.pow_succ]; cases x <;> simp <;> omega

theorem natBits_length (d x : Nat) : (natBits d x).length = d := by simp [natBits]

theorem natBits_succ (d x : Nat) : natBits (d + 1) x = (decide (x % 2 = 1)) :: natBits d (x / 2) := by
  rw [natBits, List.range_succ_eq_map, List.map_cons, List.map_map, natBits]
  congr 1
  · simp [Nat.testBit_zero]
  · refine List.map_congr_left fun j _ => ?_
    simp only [Function.comp, Nat.succ_eq_add_one, Nat.testBit_succ]

theorem bitsNat_natBits (d x : Nat) : bitsNat (natBits d x) = x % 2 ^ d := by
  induction d generalizing x with
  | zero => simp [natBits, bitsNat, Nat.mod_one]
  | succ d ih =>
    rw [natBits_succ, bitsNat, ih, Nat.pow_succ, Nat.mul_comm (2 ^ d) 2, Nat.mod_mul]
    rcases Nat.mod_two_eq_zero_or_one x with h | h <;> simp [h]

theorem natBits_bitsNat (l : List Bool) : natBits l.length (bitsNat l) = l := by
  induction l with
  | nil => rfl
  | cons b bs ih =>
    rw [List.length_cons, natBits_succ, bitsNat]
    congr 1
    · cases b <;> simp
    · rw [show (b.toNat + 2 * bitsNat bs) / 2 = bitsNat bs by cases b <;> simp <;> omega, ih]

theorem bits_ext {a b : List Bool} (hl : a.length = b.length) (h : bitsNat a = bitsNat b) : a = b := by
  rw [← natBits_bitsNat a, ← natBits_bitsNat b, hl, h]

theorem byteBits (b : Byte) : ((List.range 8).map fun j => b.getLsbD j) = natBits 8 b.toNat := rfl

theorem bytesToBits_nil : bytesToBits [] = [] := rfl
theorem bytesToBits_cons (b : Byte) (B : Bytes) : bytesToBits (b :: B) = natBits 8 b.toNat ++ bytesToBits B := by
  rw [bytesToBits, List.flatMap_cons]; rfl
theorem bytesToBits_append (A B : Bytes) : bytesToBits (A ++ B) = bytesToBits A ++ bytesToBits B := by
  rw [bytesToBits, List.flatMap_append]; rfl

theorem bytesToBits_length (B : Bytes) : (bytesToBits B).length = 8 * B.length := by
  induction B with
  | nil => rfl
  | cons b B ih => rw [bytesToBits_cons, List.length_append, natBits_length, ih, List.length_cons]; omega

theorem bitsNat_bytesToBits (B : Bytes) : bitsNat (bytesToBits B) = leNat B := by
  induction B with
  | nil => rfl
  | cons b B ih =>
    rw [bytesToBits_cons, bitsNat_append, natBits_length, ih, bitsNat_natBits, leNat,
      Nat.mod_eq_of_lt (show b.toNat < 2 ^ 8 from b.isLt)]; rfl

theorem bitsToBytes_nil : bitsToBytes [] = [] := by rw [bitsToBytes, chunksExact_short (by simp)]; rfl

theorem bitsToBytes_cons (c b : List Bool) (h : c.length = 8) :
    bitsToBytes (c ++ b) = BitVec.ofNat 8 (bitsNat c) :: bitsToBytes b := by
  rw [bitsToBytes, chunksExact_block_append (by omega) h]; rfl

/-- Induction over whole groups of `n`. -/
theorem groups_ind {α : Type} (n : Nat) {P : List α → Prop} (h0 : P []) (h1 : ∀ c b, c.length = n → n ∣ b.length → P b → P (c ++ b)) :
    ∀ b : List α, n ∣ b.length → P b := by
  have : ∀ (m : Nat) (b : List α), b.length = n * m → P b := by
    intro m
    induction m with
    | zero => intro b hb; rw [List.eq_nil_of_length_eq_zero hb]; exact h0
    | succ m ih =>
      intro b hb
      have hb' : b.length = n * m + n := by rw [hb, Nat.mul_succ]
      rw [← List.take_append_drop n b]
      refine h1 _ _ (by rw [List.length_take]; omega) ⟨m, by rw [List.length_drop]; omega⟩ (ih _ (by rw [List.length_drop]; omega))
  intro b ⟨n, hn⟩
  exact this n b hn

theorem bitsToBytes_append (a b : List Bool) (h : 8 ∣ a.length) : bitsToBytes (a ++ b) = bitsToBytes a ++ bitsToBytes b := by
  rw [bitsToBytes, chunksExact_append (by omega) h, List.map_append]; rfl

theorem bitsToBytes_bytesToBits (B : Bytes) : bitsToBytes (bytesToBits B) = B := by
  induction B with
  | nil => exact bitsToBytes_nil
  | cons b B ih =>
    rw [bytesToBits_cons, bitsToBytes_cons _ _ (natBits_length _ _), ih, bitsNat_natBits,
      Nat.mod_eq_of_lt (show b.toNat < 2 ^ 8 from b.isLt), BitVec.ofNat_toNat, BitVec.setWidth_eq]

theorem bytesToBits_bitsToBytes (b : List Bool) (h : 8 ∣ b.length) : bytesToBits (bitsToBytes b) = b := by
  refine groups_ind 8 (P := fun b => bytesToBits (bitsToBytes b) = b) ?_ ?_ b h
  · rw [bitsToBytes_nil]; rfl
  · intro c b hc _ ih
    have := bitsNat_lt c
    rw [hc] at this
    rw [bitsToBytes_cons c b hc, bytesToBits_cons, ih, BitVec.toNat_ofNat, Nat.mod_eq_of_lt this]
    congr 1
    have := natBits_bitsNat c
    rwa [hc] at this

theorem bitsToBytes_eq (b : List Bool) (n : Nat) (h : b.length = 8 * n) : bitsToBytes b = toLE n (bitsNat b) := by
  have h1 := bytesToBits_bitsToBytes b ⟨n, h⟩
  have h2 := congrArg List.length h1
  rw [bytesToBits_length, h] at h2
  have h3 := bitsNat_bytesToBits (bitsToBytes b)
  rw [h1] at h3
  rw [h3, show n = (bitsToBytes b).length by omega, toLE_leNat]

/-! ### ByteEncode -/

/-- `Σ F_i 2^(d i)`. -/
def fieldsNat (d : Nat) : List Nat → Nat
  | [] => 0
  | x :: xs => x + 2 ^ d * fieldsNat d xs

theorem flatMap_natBits_length (d : Nat) (F : List Nat) : (F.flatMap (natBits d)).length = d * F.length := by
  induction F with
  | nil => simp
  | cons x xs ih => rw [List.flatMap_cons, List.length_append, ih, natBits_length, List.length_cons, Nat.mul_succ]; omega

theorem bitsNat_fields (d : Nat) (F : List Nat) (h : ∀ x ∈ F, x < 2 ^ d) :
    bitsNat (F.flatMap (natBits d)) = fieldsNat d F := by
  induction F with
  | nil => rfl
  | cons x xs ih =>
    rw [List.flatMap_cons, bitsNat_append, natBits_length, ih (fun y hy => h y (by simp [hy])), bitsNat_natBits,
      Nat.mod_eq_of_lt (h x (by simp)), fieldsNat]

/-- A group of coefficients filling whole bytes. -/
theorem byteEncode_append (d : Nat) (F G : List Nat) (h : 8 ∣ d * F.length) :
    byteEncode d (F ++ G) = byteEncode d F ++ byteEncode d G := by
  rw [byteEncode, List.flatMap_append, bitsToBytes_append _ _ (by rw [flatMap_natBits_length]; exact h)]; rfl

theorem byteEncode_group (d n : Nat) (F : List Nat) (h : d * F.length = 8 * n) (hx : ∀ x ∈ F, x < 2 ^ d) :
    byteEncode d F = toLE n (fieldsNat d F) := by
  rw [byteEncode, bitsToBytes_eq _ n (by rw [flatMap_natBits_length]; exact h), bitsNat_fields d F hx]

theorem byteEncode_nil (d : Nat) : byteEncode d [] = [] := bitsToBytes_nil

theorem byteEncode_length (d n : Nat) (F : List Nat) (h : d * F.length = 8 * n) : (byteEncode d F).length = n := by
  rw [byteEncode, bitsToBytes_eq _ n (by rw [flatMap_natBits_length]; exact h), toLE_length]

/-! ### ByteDecode -/

/-- Fields of `d` bits before any reduction. -/
def rawDecode (d : Nat) (B : Bytes) : List Nat := (chunksExact d (bytesToBits B)).map bitsNat

theorem byteDecode_raw (d : Nat) (B : Bytes) :
    byteDecode d B = (rawDecode d B).map (· % (if d = 12 then 3329 else 2 ^ d)) := by
  rw [byteDecode, rawDecode, List.map_map]; rfl

theorem rawDecode_lt (d : Nat) (B : Bytes) : ∀ x ∈ rawDecode d B, x < 2 ^ d := by
  intro x hx
  rw [rawDecode, List.mem_map] at hx
  obtain ⟨c, hc, rfl⟩ := hx
  have := bitsNat_lt c
  rwa [chunksExact_length hc] at this

theorem byteDecode_eq_raw (d : Nat) (hd : d ≠ 12) (B : Bytes) : byteDecode d B = rawDecode d B := by
  rw [byteDecode_raw, if_neg hd]
  conv => rhs; rw [← List.map_id (rawDecode d B)]
  exact List.map_congr_left fun x hx => Nat.mod_eq_of_lt (rawDecode_lt d B x hx)

theorem rawDecode_append (d : Nat) (h0 : 0 < d) (A B : Bytes) (h : d ∣ 8 * A.length) :
    rawDecode d (A ++ B) = rawDecode d A ++ rawDecode d B := by
  rw [rawDecode, bytesToBits_append, chunksExact_append h0 (by rw [bytesToBits_length]; exact h), List.map_append]; rfl

theorem rawDecode_nil (d : Nat) (h0 : 0 < d) : rawDecode d [] = [] := by
  rw [rawDecode, bytesToBits_nil, chunksExact_short (by simpa using h0)]; rfl

theorem fields_range (d : Nat) (h0 : 0 < d) (m : Nat) (bits : List Bool) (h : bits.length = d * m) :
    (chunksExact d bits).map bitsNat = (List.range m).map fun i => bitsNat bits / 2 ^ (d * i) % 2 ^ d := by
  induction m generalizing bits with
  | zero =>
    rw [List.eq_nil_of_length_eq_zero h, chunksExact_short (by simpa using h0)]; rfl
  | succ m ih =>
    rw [Nat.mul_succ] at h
    have hc : (bits.take d).length = d := by rw [List.length_take]; omega
    have hlt := bitsNat_lt (bits.take d)
    rw [hc] at hlt
    have e : bits = bits.take d ++ bits.drop d := (List.take_append_drop d bits).symm
    have hval : bitsNat bits = bitsNat (bits.take d) + 2 ^ d * bitsNat (bits.drop d) := by
      conv => lhs; rw [e, bitsNat_append, hc]
    conv => lhs; rw [e]
    rw [chunksExact_block_append h0 hc, List.map_cons, ih _ (by rw [List.length_drop]; omega),
      List.range_succ_eq_map, List.map_cons, List.map_map, hval]
    congr 1
    · rw [Nat.mul_zero, Nat.pow_zero, Nat.div_one, Nat.add_mul_mod_self_left, Nat.mod_eq_of_lt hlt]
    · refine List.map_congr_left fun i _ => ?_
      simp only [Function.comp, Nat.succ_eq_add_one]
      rw [Nat.mul_succ, Nat.pow_add, Nat.mul_comm (2 ^ (d * i)), ← Nat.div_div_eq_div_mul,
        Nat.add_mul_div_left _ _ (Nat.two_pow_pos d), Nat.div_eq_of_lt hlt, Nat.zero_add]

theorem rawDecode_group (d : Nat) (h0 : 0 < d) (m : Nat) (B : Bytes) (h : 8 * B.length = d * m) :
    rawDecode d B = (List.range m).map fun i => leNat B / 2 ^ (d * i) % 2 ^ d := by
  rw [rawDecode, fields_range d h0 m _ (by rw [bytesToBits_length]; exact h), bitsNat_bytesToBits]

theorem rawDecode_length (d : Nat) (h0 : 0 < d) (m : Nat) (B : Bytes) (h : 8 * B.length = d * m) :
    (rawDecode d B).length = m := by rw [rawDecode_group d h0 m B h]; simp

/-- Decoding is inverse to encoding, for coefficients that fit. -/
theorem rawDecode_byteEncode (d : Nat) (h0 : 0 < d) (F : List Nat) (h8 : 8 ∣ d * F.length) (hx : ∀ x ∈ F, x < 2 ^ d) :
    rawDecode d (byteEncode d F) = F := by
  rw [rawDecode, byteEncode, bytesToBits_bitsToBytes _ (by rw [flatMap_natBits_length]; exact h8)]
  clear h8
  induction F with
  | nil => rw [List.flatMap_nil, chunksExact_short (by simpa using h0)]; rfl
  | cons x xs ih =>
    rw [List.flatMap_cons, chunksExact_block_append h0 (natBits_length d x), List.map_cons, ih (fun y hy => hx y (by simp [hy])),
      bitsNat_natBits, Nat.mod_eq_of_lt (hx x (by simp))]

/-- Encoding is inverse to decoding into fields. -/
theorem byteEncode_rawDecode (d : Nat) (h0 : 0 < d) (B : Bytes) (h : d ∣ 8 * B.length) :
    byteEncode d (rawDecode d B) = B := by
  rw [byteEncode, rawDecode, List.flatMap_map]
  have : (chunksExact d (bytesToBits B)).flatMap (fun a => natBits d (bitsNat a)) = bytesToBits B := by
    have h2 : d ∣ (bytesToBits B).length := by rw [bytesToBits_length]; exact h
    refine groups_ind d (P := fun b => (chunksExact d b).flatMap (fun a => natBits d (bitsNat a)) = b) ?_ ?_ _ h2
    · rw [chunksExact_short (by simpa using h0)]; rfl
    · intro c b hc _ ih
      rw [chunksExact_block_append h0 hc, List.flatMap_cons, ih]
      congr 1
      have := natBits_bitsNat c
      rwa [hc] at this
  rw [this, bitsToBytes_bytesToBits]

end Verif.MlKem
