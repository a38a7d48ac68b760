import Verif.Proof.MlKemBits
import Mathlib.Tactic.FieldSimp
import Mathlib.Tactic.NormNum

/-!
Compression, packing and noise sampling for C40, C41 and C44.
-/
namespace Verif.MlKem
open Verif Verif.Spec.MlKem

/-! ### Rounding -/

theorem round_div (a b : Nat) (hb : 0 < b) : (round ((a : ℚ) / b)).toNat = (2 * a + b) / (2 * b) := by
  rw [round_eq]
  have hb' : (b : ℚ) ≠ 0 := by exact_mod_cast hb.ne'
  have : ((a : ℚ) / b + 1 / 2) = ((2 * a + b : ℕ) : ℚ) / ((2 * b : ℕ) : ℚ) := by
    push_cast
    field_simp
  rw [this, Rat.floor_natCast_div_natCast]
  exact_mod_cast Int.toNat_natCast _

theorem compress_nat (d x : Nat) : compress d x = (2 * (2 ^ d * x) + 3329) / 6658 % 2 ^ d := by
  have : (2 ^ d / 3329 : ℚ) * x = ((2 ^ d * x : ℕ) : ℚ) / ((3329 : ℕ) : ℚ) := by push_cast; ring
  rw [compress, this, round_div _ _ (by decide)]

theorem decompress_nat (d y : Nat) : decompress d y = (2 * (3329 * y) + 2 ^ d) / (2 * 2 ^ d) := by
  have : (3329 / 2 ^ d : ℚ) * y = ((3329 * y : ℕ) : ℚ) / ((2 ^ d : ℕ) : ℚ) := by push_cast; ring
  rw [decompress, this, round_div _ _ (Nat.two_pow_pos d)]

theorem compress_lt (d x : Nat) : compress d x < 2 ^ d := Nat.mod_lt _ (Nat.two_pow_pos d)

theorem toNat_lt {x : Int} (h : 0 ≤ x ∧ x < Q) : x.toNat < 3329 := by rw [Q] at h; omega

/-- A finite check, split so that neither quantifier is deep. -/
theorem check_q (P : Nat → Prop) (h : ∀ i < 58, ∀ j < 58, 58 * i + j < 3329 → P (58 * i + j)) (x : Nat) (hx : x < 3329) :
    P x := by
  have := h (x / 58) (by omega) (x % 58) (Nat.mod_lt _ (by decide)) (by omega)
  rwa [show 58 * (x / 58) + x % 58 = x by omega] at this

theorem compress4_ok (x : Int) (h : 0 ≤ x ∧ x < Q) : compress4 x = some (compress 4 x.toNat) := by
  rw [compress4, if_pos h, compress_nat]
  have key := check_q (fun x => (((x <<< 4) + Q_HALF) * 80635) >>> 28 &&& 0xf = (2 * (2 ^ 4 * x) + 3329) / 6658 % 2 ^ 4) (by decide +kernel)
  exact congrArg some (key _ (toNat_lt h))

theorem compress10_ok (x : Int) (h : 0 ≤ x ∧ x < Q) : compress10 x = some (compress 10 x.toNat) := by
  rw [compress10, if_pos h, compress_nat]
  have key := check_q (fun x => (((x <<< 10) + Q_HALF) * 1290167) >>> 32 &&& 0x3ff = (2 * (2 ^ 10 * x) + 3329) / 6658 % 2 ^ 10) (by decide +kernel)
  exact congrArg some (key _ (toNat_lt h))

theorem compress1_ok (x : Nat) (h : x < 3329) : (((x <<< 1) + Q_HALF) * 80635) >>> 28 &&& 1 = compress 1 x := by
  rw [compress_nat]
  have key := check_q (fun x => (((x <<< 1) + Q_HALF) * 80635) >>> 28 &&& 1 = (2 * (2 ^ 1 * x) + 3329) / 6658 % 2 ^ 1) (by decide +kernel)
  exact key x h

theorem decompress4_ok (y : Nat) : decompress4 y = (decompress 4 y : Nat) := by
  rw [decompress4, decompress_nat, Nat.shiftRight_eq_div_pow]
  congr 1; omega

theorem decompress10_ok (y : Nat) : decompress10 y = (decompress 10 y : Nat) := by
  rw [decompress10, decompress_nat, Nat.shiftRight_eq_div_pow]
  congr 1; omega

/-! ### Coefficient lists -/

/-- Every coefficient is in `[0, q)`. -/
def Red (f : Coeffs) : Prop := ∀ x ∈ f, 0 ≤ x ∧ x < Q

theorem Red.append {a b : Coeffs} (h : Red (a ++ b)) : Red a ∧ Red b :=
  ⟨fun x hx => h x (by simp [hx]), fun x hx => h x (by simp [hx])⟩

theorem or_shift (a b i : Nat) (h : b < 2 ^ i) : b ||| (a <<< i) = a * 2 ^ i + b := by
  rw [Nat.or_comm, ← Nat.shiftLeft_add_eq_or_of_lt h, Nat.shiftLeft_eq]

theorem four_list {α : Type} (l : List α) (h : l.length = 4) : ∃ a b c d, l = [a, b, c, d] := by
  match l, h with
  | [a, b, c, d], _ => exact ⟨a, b, c, d, rfl⟩

theorem five_list {α : Type} (l : List α) (h : l.length = 5) : ∃ a b c d e, l = [a, b, c, d, e] := by
  match l, h with
  | [a, b, c, d, e], _ => exact ⟨a, b, c, d, e, rfl⟩

theorem byte_eq (a b : Nat) (h : a % 256 = b % 256) : BitVec.ofNat 8 a = BitVec.ofNat 8 b :=
  BitVec.eq_of_toNat_eq (by rw [BitVec.toNat_ofNat, BitVec.toNat_ofNat]; exact h)

theorem pack10_ok (quad : Coeffs) (hl : quad.length = 4) (h : Red quad) :
    pack10 quad = some (byteEncode 10 (quad.map fun x => compress 10 x.toNat)) := by
  obtain ⟨a, b, c, d, rfl⟩ := four_list quad hl
  have ha := h a (by simp)
  have hb := h b (by simp)
  have hc := h c (by simp)
  have hd := h d (by simp)
  rw [pack10, byteEncode_group 10 5 _ (by simp) (by
    intro x hx; rw [List.mem_map] at hx; obtain ⟨_, _, rfl⟩ := hx; exact compress_lt 10 _)]
  simp only [List.getD_cons_zero, List.getD_cons_succ, compress10_ok a ha, compress10_ok b hb, compress10_ok c hc,
    compress10_ok d hd, List.map_cons, List.map_nil, Option.bind_eq_bind, Option.bind_some, Option.pure_def, fieldsNat]
  have l0 := compress_lt 10 a.toNat
  have l1 := compress_lt 10 b.toNat
  have l2 := compress_lt 10 c.toNat
  have l3 := compress_lt 10 d.toNat
  generalize compress 10 a.toNat = t0 at *
  generalize compress 10 b.toNat = t1 at *
  generalize compress 10 c.toNat = t2 at *
  generalize compress 10 d.toNat = t3 at *
  simp only [toLE]
  rw [or_shift _ _ _ (by rw [Nat.shiftRight_eq_div_pow]; omega), or_shift _ _ _ (by rw [Nat.shiftRight_eq_div_pow]; omega),
    or_shift _ _ _ (by rw [Nat.shiftRight_eq_div_pow]; omega)]
  simp only [Nat.shiftRight_eq_div_pow]
  simp only [Option.some.injEq, List.cons.injEq, and_true]
  refine ⟨byte_eq _ _ ?_, byte_eq _ _ ?_, byte_eq _ _ ?_, byte_eq _ _ ?_, byte_eq _ _ ?_⟩
  all_goals omega

theorem compressDu10_ok (f : Coeffs) (hl : 4 ∣ f.length) (h : Red f) :
    compressDu10 f = some (byteEncode 10 (f.map fun x => compress 10 x.toNat)) := by
  revert h
  refine groups_ind 4 (P := fun f => Red f → compressDu10 f = some (byteEncode 10 (f.map fun x => compress 10 x.toNat)))
    ?_ ?_ f hl
  · intro _
    rw [compressDu10, chunksExact_short (by simp)]
    rw [List.map_nil, byteEncode_nil]; rfl
  · intro c b hc _ ih h
    have h1 := h.append
    have e := ih h1.2
    rw [compressDu10] at e ⊢
    rw [chunksExact_block_append (by omega) hc, List.mapM_cons, pack10_ok c hc h1.1]
    rw [List.map_append, byteEncode_append _ _ _ (by rw [List.length_map, hc]; decide)]
    cases hm : (chunksExact 4 b).mapM pack10 with
    | none => rw [hm] at e; simp at e
    | some bs =>
      rw [hm] at e
      simp only [Option.map_some, Option.some.injEq] at e
      simp [e]

theorem unpack10_ok (inp : Bytes) (hl : inp.length = 5) :
    unpack10 inp = (rawDecode 10 inp).map fun y => ((decompress 10 y : Nat) : Int) := by
  obtain ⟨a, b, c, d, e, rfl⟩ := five_list inp hl
  rw [rawDecode_group 10 (by decide) 4 _ (by simp)]
  simp only [unpack10, List.getD_cons_zero, List.getD_cons_succ, leNat, decompress10_ok]
  have la := a.isLt
  have lb := b.isLt
  have lc := c.isLt
  have ld := d.isLt
  have le := e.isLt
  generalize a.toNat = a at *
  generalize b.toNat = b at *
  generalize c.toNat = c at *
  generalize d.toNat = d at *
  generalize e.toNat = e at *
  rw [show (3 : Nat) = 2 ^ 2 - 1 from rfl, show (0xf : Nat) = 2 ^ 4 - 1 from rfl, show (0x3f : Nat) = 2 ^ 6 - 1 from rfl,
    Nat.and_two_pow_sub_one_eq_mod, Nat.and_two_pow_sub_one_eq_mod, Nat.and_two_pow_sub_one_eq_mod,
    or_shift _ _ _ (by omega), or_shift _ _ _ (by rw [Nat.shiftRight_eq_div_pow]; omega),
    or_shift _ _ _ (by rw [Nat.shiftRight_eq_div_pow]; omega), or_shift _ _ _ (by rw [Nat.shiftRight_eq_div_pow]; omega)]
  simp only [Nat.shiftRight_eq_div_pow, List.range, List.range.loop, List.map_cons, List.map_nil]
  simp only [List.cons.injEq, and_true]
  refine ⟨congrArg (fun n => ((decompress 10 n : Nat) : Int)) ?_, congrArg (fun n => ((decompress 10 n : Nat) : Int)) ?_,
    congrArg (fun n => ((decompress 10 n : Nat) : Int)) ?_, congrArg (fun n => ((decompress 10 n : Nat) : Int)) ?_⟩
  all_goals omega

theorem decompressDu10_ok (c : Bytes) (hl : 5 ∣ c.length) :
    decompressDu10 c = (byteDecode 10 c).map fun y => ((decompress 10 y : Nat) : Int) := by
  rw [byteDecode_eq_raw 10 (by decide)]
  refine groups_ind 5 (P := fun c => decompressDu10 c = (rawDecode 10 c).map fun y => ((decompress 10 y : Nat) : Int))
    ?_ ?_ c hl
  · rw [decompressDu10, chunksExact_short (by simp), rawDecode_nil 10 (by decide)]; rfl
  · intro c b hc _ ih
    rw [decompressDu10] at ih ⊢
    rw [chunksExact_block_append (by omega) hc, List.flatMap_cons, ih, unpack10_ok c hc,
      rawDecode_append 10 (by decide) _ _ (by rw [hc]; decide), List.map_append]

/-! Four bits. -/

theorem pack4_ok (pair : Coeffs) (hl : pair.length = 2) (h : Red pair) :
    (pack4 pair).map (fun b => [b]) = some (byteEncode 4 (pair.map fun x => compress 4 x.toNat)) := by
  match pair, hl with
  | [a, b], _ =>
    have ha := h a (by simp)
    have hb := h b (by simp)
    rw [pack4, byteEncode_group 4 1 _ (by simp) (by
      intro x hx; rw [List.mem_map] at hx; obtain ⟨_, _, rfl⟩ := hx; exact compress_lt 4 _)]
    simp only [List.getD_cons_zero, List.getD_cons_succ, compress4_ok a ha, compress4_ok b hb,
      List.map_cons, List.map_nil, Option.bind_eq_bind, Option.bind_some, Option.pure_def, fieldsNat]
    have l0 := compress_lt 4 a.toNat
    have l1 := compress_lt 4 b.toNat
    generalize compress 4 a.toNat = t0 at *
    generalize compress 4 b.toNat = t1 at *
    simp only [toLE, Option.map_some, Option.some.injEq, List.cons.injEq, and_true]
    refine BitVec.eq_of_toNat_eq ?_
    rw [BitVec.toNat_or, BitVec.toNat_shiftLeft, BitVec.toNat_ofNat, BitVec.toNat_ofNat, BitVec.toNat_ofNat,
      Nat.mod_eq_of_lt (show t0 < 2 ^ 8 by omega), Nat.mod_eq_of_lt (show t1 < 2 ^ 8 by omega),
      Nat.mod_eq_of_lt (show t1 <<< 4 < 2 ^ 8 by rw [Nat.shiftLeft_eq]; omega), or_shift _ _ _ (by omega)]
    omega

theorem compressDv4_ok (f : Coeffs) (hl : 2 ∣ f.length) (h : Red f) :
    compressDv4 f = some (byteEncode 4 (f.map fun x => compress 4 x.toNat)) := by
  revert h
  refine groups_ind 2 (P := fun f => Red f → compressDv4 f = some (byteEncode 4 (f.map fun x => compress 4 x.toNat)))
    ?_ ?_ f hl
  · intro _
    rw [compressDv4, chunksExact_short (by simp)]
    rw [List.map_nil, byteEncode_nil]; rfl
  · intro c b hc _ ih h
    have h1 := h.append
    have e := ih h1.2
    have p := pack4_ok c hc h1.1
    rw [compressDv4] at e ⊢
    rw [chunksExact_block_append (by omega) hc, List.mapM_cons, e, List.map_append,
      byteEncode_append _ _ _ (by rw [List.length_map, hc])]
    cases hm : pack4 c with
    | none => rw [hm] at p; simp at p
    | some b =>
      rw [hm] at p
      simp only [Option.map_some, Option.some.injEq] at p
      simp [← p]

theorem decompressDv4_ok (c : Bytes) :
    decompressDv4 c = (byteDecode 4 c).map fun y => ((decompress 4 y : Nat) : Int) := by
  rw [byteDecode_eq_raw 4 (by decide)]
  induction c with
  | nil => rw [decompressDv4, rawDecode_nil 4 (by decide)]; rfl
  | cons b c ih =>
    rw [decompressDv4] at ih ⊢
    rw [List.flatMap_cons, ih, show b :: c = [b] ++ c from rfl, rawDecode_append 4 (by decide) _ _ ⟨2, by simp⟩,
      List.map_append]
    congr 1
    rw [rawDecode_group 4 (by decide) 2 _ (by simp)]
    simp only [decompress4_ok, List.range, List.range.loop, List.map_cons, List.map_nil, leNat]
    have hb := b.isLt
    simp only [List.cons.injEq, and_true]
    rw [BitVec.toNat_and, BitVec.toNat_ushiftRight, show (15#8).toNat = 2 ^ 4 - 1 from rfl,
      Nat.and_two_pow_sub_one_eq_mod, Nat.shiftRight_eq_div_pow]
    exact ⟨congrArg (fun n => ((decompress 4 n : Nat) : Int)) (by omega),
      congrArg (fun n => ((decompress 4 n : Nat) : Int)) (by omega)⟩

/-! Messages. -/

theorem ofNat_bit_or (r : Byte) (i : Nat) (x : Nat) (hi : i < 8) (hr : r.toNat < 2 ^ i) (hx : x < 2) :
    (r ||| (BitVec.ofNat 8 x <<< i)).toNat = r.toNat + 2 ^ i * x := by
  have h1 : x * 2 ^ i < 2 ^ 8 := by
    calc x * 2 ^ i ≤ 1 * 2 ^ i := Nat.mul_le_mul_right _ (by omega)
      _ < 2 ^ 8 := by rw [Nat.one_mul]; exact Nat.pow_lt_pow_right (by decide) hi
  rw [BitVec.toNat_or, BitVec.toNat_shiftLeft, BitVec.toNat_ofNat, Nat.mod_eq_of_lt (show x < 2 ^ 8 by omega),
    Nat.shiftLeft_eq, Nat.mod_eq_of_lt h1, ← Nat.shiftLeft_eq, or_shift _ _ _ hr]
  ring

theorem compress1Loop_ok (cs : Coeffs) (r : Byte) (i : Nat) (h : Red cs) (hi : i + cs.length ≤ 8) (hr : r.toNat < 2 ^ i) :
    ∃ b, compress1Loop r i cs = some b ∧
      b.toNat = r.toNat + 2 ^ i * fieldsNat 1 (cs.map fun x => compress 1 x.toNat) := by
  induction cs generalizing r i with
  | nil => exact ⟨r, rfl, by simp [fieldsNat]⟩
  | cons x xs ih =>
    have hx := h x (by simp)
    rw [List.length_cons] at hi
    rw [compress1Loop, if_pos hx]
    simp only []
    rw [compress1_ok _ (toNat_lt hx)]
    have hc := compress_lt 1 x.toNat
    have hb := ofNat_bit_or r i (compress 1 x.toNat) (by omega) hr (by simpa using hc)
    obtain ⟨b, e1, e2⟩ := ih (r ||| (BitVec.ofNat 8 (compress 1 x.toNat) <<< i)) (i + 1)
      (fun y hy => h y (by simp [hy])) (by omega) (by
        rw [hb, Nat.pow_succ]
        have : compress 1 x.toNat ≤ 1 := by omega
        calc r.toNat + 2 ^ i * compress 1 x.toNat < 2 ^ i + 2 ^ i * 1 :=
              Nat.add_lt_add_of_lt_of_le hr (Nat.mul_le_mul_left _ this)
          _ = 2 ^ i * 2 := by ring)
    refine ⟨b, e1, ?_⟩
    rw [e2, hb, List.map_cons, fieldsNat, Nat.pow_succ]
    ring

theorem compress1x8_ok (cs : Coeffs) (hl : cs.length = 8) (h : Red cs) :
    (compress1x8 cs).map (fun b => [b]) = some (byteEncode 1 (cs.map fun x => compress 1 x.toNat)) := by
  obtain ⟨b, e1, e2⟩ := compress1Loop_ok cs 0#8 0 h (by omega) (by decide)
  rw [compress1x8, e1, byteEncode_group 1 1 _ (by simp [hl]) (by
    intro x hx; rw [List.mem_map] at hx; obtain ⟨_, _, rfl⟩ := hx; exact compress_lt 1 _)]
  rw [show (0#8).toNat = 0 from rfl, Nat.zero_add, Nat.pow_zero, Nat.one_mul] at e2
  rw [← e2]
  simp [toLE]

theorem toMessageBits_ok (f : Coeffs) (hl : 8 ∣ f.length) (h : Red f) :
    toMessageBits f = some (byteEncode 1 (f.map fun x => compress 1 x.toNat)) := by
  revert h
  refine groups_ind 8 (P := fun f => Red f → toMessageBits f = some (byteEncode 1 (f.map fun x => compress 1 x.toNat)))
    ?_ ?_ f hl
  · intro _
    rw [toMessageBits, chunksExact_short (by simp)]
    rw [List.map_nil, byteEncode_nil]; rfl
  · intro c b hc _ ih h
    have h1 := h.append
    have e := ih h1.2
    have p := compress1x8_ok c hc h1.1
    rw [toMessageBits] at e ⊢
    rw [chunksExact_block_append (by omega) hc, List.mapM_cons, e, List.map_append,
      byteEncode_append _ _ _ (by rw [List.length_map, hc])]
    cases hm : compress1x8 c with
    | none => rw [hm] at p; simp at p
    | some b =>
      rw [hm] at p
      simp only [Option.map_some, Option.some.injEq] at p
      simp [← p]

theorem fromMessageBits_ok (m : Bytes) :
    fromMessageBits m = (byteDecode 1 m).map fun y => ((decompress 1 y : Nat) : Int) := by
  rw [byteDecode_eq_raw 1 (by decide)]
  induction m with
  | nil => rw [fromMessageBits, rawDecode_nil 1 (by decide)]; rfl
  | cons b c ih =>
    rw [fromMessageBits] at ih ⊢
    rw [List.flatMap_cons, ih, show b :: c = [b] ++ c from rfl, rawDecode_append 1 (by decide) _ _ ⟨8, by simp⟩,
      List.map_append]
    congr 1
    rw [rawDecode_group 1 (by decide) 8 _ (by simp), List.map_map]
    refine List.map_congr_left fun i hi => ?_
    have hi : i < 8 := by simpa using hi
    simp only [Function.comp, decompress_nat, leNat, Nat.mul_zero, Nat.add_zero, Nat.one_mul]
    have key : ∀ (i : Fin 8) (b : BitVec 8), (Ct.ctSelectI16 ((b >>> i.val) &&& 1#8) (BitVec.ofNat 16 Q_HALF) 0#16).toInt =
        ((2 * (3329 * (b.toNat / 2 ^ i.val % 2 ^ 1)) + 2 ^ 1) / (2 * 2 ^ 1) : Nat) := by decide +kernel
    exact key ⟨i, hi⟩ b

/-! ### Noise -/

theorem and_step (n t m M : Nat) (hn : n < 16) (hm : m < 16) :
    (n + 16 * t) &&& (m + 16 * M) = (n &&& m) + 16 * (t &&& M) := by
  have h1 : ((n + 16 * t) &&& (m + 16 * M)) % 16 = n &&& m := by
    rw [show (16 : Nat) = 2 ^ 4 from rfl, Nat.and_mod_two_pow]
    congr 1 <;> omega
  have h2 : ((n + 16 * t) &&& (m + 16 * M)) / 16 = t &&& M := by
    rw [show (16 : Nat) = 2 ^ 4 from rfl, Nat.and_div_two_pow]
    congr 1 <;> omega
  omega

/-- `0x55…5`, `k` nibbles. -/
def fives : Nat → Nat
  | 0 => 0
  | k + 1 => 5 + 16 * fives k

/-- The two-bit counts of `k` nibbles. -/
def pairs (k t : Nat) : Nat := (t &&& fives k) + ((t >>> 1) &&& fives k)

def nib (n : Nat) : Nat := (n &&& 5) + ((n >>> 1) &&& 5)

theorem nib_lt (n : Nat) (h : n < 16) : nib n < 11 := by
  have : ∀ n < 16, nib n < 11 := by decide
  exact this n h

theorem pairs_step (k n t : Nat) (hn : n < 16) : pairs (k + 1) (n + 16 * t) = nib n + 16 * pairs k t := by
  have h2 : (n + 16 * t) >>> 1 = (n / 2 + 8 * (t % 2)) + 16 * (t / 2) := by
    rw [Nat.shiftRight_eq_div_pow]; omega
  rw [pairs, fives, and_step n t 5 _ hn (by decide), h2, and_step _ _ 5 _ (by omega) (by decide), pairs, nib,
    Nat.shiftRight_eq_div_pow, Nat.shiftRight_eq_div_pow]
  have h3 : (n / 2 + 8 * (t % 2)) &&& 5 = n / 2 &&& 5 := by
    have : ∀ a < 8, ∀ b < 2, (a + 8 * b) &&& 5 = a &&& 5 := by decide
    exact this _ (by omega) _ (by omega)
  rw [h3]
  simp only [Nat.pow_one]
  ring

/-- Field `j` of the counts is that of nibble `j`. -/
theorem pairs_field (k : Nat) (t : Nat) (j : Nat) (hj : j < k) :
    (pairs k t >>> (4 * j)) % 16 = nib (t / 16 ^ j % 16) := by
  induction k generalizing t j with
  | zero => omega
  | succ k ih =>
    have ht : t = t % 16 + 16 * (t / 16) := by omega
    have hl := nib_lt (t % 16) (Nat.mod_lt _ (by decide))
    have e : pairs (k + 1) t = nib (t % 16) + 16 * pairs k (t / 16) := by
      conv => lhs; rw [ht]
      exact pairs_step k _ _ (Nat.mod_lt _ (by decide))
    rw [e]
    cases j with
    | zero =>
      rw [Nat.mul_zero, Nat.shiftRight_zero, Nat.pow_zero, Nat.div_one]; omega
    | succ j =>
      rw [show 4 * (j + 1) = 4 + 4 * j by ring, Nat.shiftRight_add, Nat.shiftRight_eq_div_pow _ 4,
        show (nib (t % 16) + 16 * pairs k (t / 16)) / 2 ^ 4 = pairs k (t / 16) by omega, ih _ _ (by omega), Nat.pow_succ,
        Nat.mul_comm (16 ^ j), Nat.div_div_eq_div_mul]

theorem cbd_nib (n : Nat) (h : n < 16) :
    ((nib n &&& 3 : Nat) : Int) - ((nib n >>> 2 &&& 3 : Nat) : Int) =
      (((n.testBit 0).toNat : Nat) + (n.testBit 1).toNat : Int) - ((n.testBit 2).toNat + (n.testBit 3).toNat) := by
  have : ∀ n < 16, ((nib n &&& 3 : Nat) : Int) - ((nib n >>> 2 &&& 3 : Nat) : Int) =
      (((n.testBit 0).toNat : Nat) + (n.testBit 1).toNat : Int) - ((n.testBit 2).toNat + (n.testBit 3).toNat) := by decide
  exact this n h

/-- The coefficient of four bits of the stream. -/
def cbdBits (b : List Bool) : Int :=
  (((b.getD 0 false).toNat : Int) + ((b.getD 1 false).toNat : Int)) -
    (((b.getD 2 false).toNat : Int) + ((b.getD 3 false).toNat : Int))

theorem natBits4_getD (n j : Nat) (hj : j < 4) : (natBits 4 n).getD j false = n.testBit j := by
  rw [natBits, List.getD_eq_getElem?_getD, List.getElem?_map, List.getElem?_range hj]; rfl

theorem cbdWord_ok (inp : Bytes) (hl : inp.length = 4) :
    cbdWord inp = (chunksExact 4 (bytesToBits inp)).map cbdBits := by
  have e : (chunksExact 4 (bytesToBits inp)).map cbdBits =
      ((chunksExact 4 (bytesToBits inp)).map bitsNat).map fun n => cbdBits (natBits 4 n) := by
    rw [List.map_map]
    refine List.map_congr_left fun c hc => ?_
    have := natBits_bitsNat c
    rw [chunksExact_length hc] at this
    simp only [Function.comp, this]
  rw [e, fields_range 4 (by decide) 8 _ (by rw [bytesToBits_length, hl]), bitsNat_bytesToBits, cbdWord]
  simp only [List.map_map]
  refine List.map_congr_left fun j hj => ?_
  have hj : j < 8 := by simpa using hj
  have hp : (leNat inp &&& 0x55555555) + ((leNat inp >>> 1) &&& 0x55555555) = pairs 8 (leNat inp) := rfl
  rw [hp]
  have hf := pairs_field 8 (leNat inp) j hj
  have h1 : (pairs 8 (leNat inp) >>> (4 * j)) &&& 3 = nib (leNat inp / 16 ^ j % 16) &&& 3 := by
    rw [← hf, show (3 : Nat) = 2 ^ 2 - 1 from rfl, Nat.and_two_pow_sub_one_eq_mod, Nat.and_two_pow_sub_one_eq_mod]; omega
  have h2 : (pairs 8 (leNat inp) >>> (4 * j + 2)) &&& 3 = nib (leNat inp / 16 ^ j % 16) >>> 2 &&& 3 := by
    rw [← hf, Nat.shiftRight_add, show (3 : Nat) = 2 ^ 2 - 1 from rfl, Nat.and_two_pow_sub_one_eq_mod,
      Nat.and_two_pow_sub_one_eq_mod, Nat.shiftRight_eq_div_pow _ 2, Nat.shiftRight_eq_div_pow _ 2]; omega
  rw [h1, h2, cbd_nib _ (Nat.mod_lt _ (by decide))]
  simp only [Function.comp, cbdBits]
  rw [natBits4_getD _ 0 (by decide), natBits4_getD _ 1 (by decide), natBits4_getD _ 2 (by decide),
    natBits4_getD _ 3 (by decide), Nat.pow_mul]
  rfl

theorem sampleCbd2_ok (buf : Bytes) (hl : 4 ∣ buf.length) :
    sampleCbd2 buf = (chunksExact 4 (bytesToBits buf)).map cbdBits := by
  refine groups_ind 4 (P := fun buf => sampleCbd2 buf = (chunksExact 4 (bytesToBits buf)).map cbdBits) ?_ ?_ buf hl
  · rw [sampleCbd2, chunksExact_short (by simp), bytesToBits_nil, chunksExact_short (by simp)]; rfl
  · intro c b hc _ ih
    rw [sampleCbd2] at ih ⊢
    rw [chunksExact_block_append (by omega) hc, List.flatMap_cons, ih, cbdWord_ok c hc, bytesToBits_append,
      chunksExact_append (by omega) (by rw [bytesToBits_length, hc]; decide), List.map_append]

/-! ### Twelve-bit samples -/

theorem twelveBit_ok (bytes : Bytes) (_ : 3 ∣ bytes.length) :
    twelveBit bytes = ((chunksExact 3 bytes).flatMap candidates).map (Nat.cast : Nat → Int) := by
  rw [twelveBit, List.map_flatMap]
  refine congrArg (fun f => List.flatMap f (chunksExact 3 bytes)) (funext fun buf => ?_)
  simp only [candidates, List.map_cons, List.map_nil]
  generalize buf.getD 0 0#8 = a
  generalize buf.getD 1 0#8 = b
  generalize buf.getD 2 0#8 = c
  have ha := a.isLt
  have hb := b.isLt
  have hc := c.isLt
  have happ : ∀ x y : BitVec 8, (y ++ x : BitVec 16).toNat = y.toNat * 256 + x.toNat := by
    intro x y
    rw [BitVec.toNat_append, Nat.shiftLeft_eq, ← Nat.shiftLeft_eq, ← Nat.shiftLeft_add_eq_or_of_lt x.isLt,
      Nat.shiftLeft_eq]
  have e1 : ((b ++ a : BitVec 16) &&& 0xfff#16).toNat = a.toNat + 256 * (b.toNat % 16) := by
    rw [BitVec.toNat_and, happ, show (0xfff#16).toNat = 2 ^ 12 - 1 from rfl, Nat.and_two_pow_sub_one_eq_mod]; omega
  have e2 : ((c ++ b : BitVec 16) >>> 4).toNat = b.toNat / 16 + 16 * c.toNat := by
    rw [BitVec.toNat_ushiftRight, happ, Nat.shiftRight_eq_div_pow]; omega
  rw [BitVec.toInt_eq_toNat_of_lt (by rw [e1]; omega), BitVec.toInt_eq_toNat_of_lt (by rw [e2]; omega), e1, e2]

end Verif.MlKem
