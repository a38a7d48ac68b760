import Verif.Proof.Asn1Codec

/-! INTEGER contents: value, minimality, uniqueness. -/
namespace Verif.Asn1
open Verif.Spec.Der

theorem beNat_singleton (b : Byte) : beNat [b] = b.toNat := by simp [beNat]

theorem twosComp_cons (b : Byte) (bs : Bytes) :
    twosComp (b :: bs) = (b.toNat * 256 ^ bs.length + beNat bs : Nat) -
      (if b.toNat ≥ 128 then (256 ^ (bs.length + 1) : Nat) else 0 : Nat) := by
  rw [twosComp, beNat_cons]

/-- Bounds on the value of a non-empty string. -/
theorem twosComp_bounds (b : Byte) (bs : Bytes) :
    -(128 * 256 ^ bs.length : Nat) ≤ twosComp (b :: bs) ∧
      twosComp (b :: bs) < (128 * 256 ^ bs.length : Nat) := by
  rw [twosComp_cons]
  have h1 := beNat_lt bs
  have h2 := b.isLt
  rw [Nat.pow_succ]
  generalize 256 ^ bs.length = P at *
  split
  · have h3 : 128 * P ≤ b.toNat * P := Nat.mul_le_mul_right _ (by omega)
    have h4 : b.toNat * P ≤ 255 * P := Nat.mul_le_mul_right _ (by omega)
    omega
  · have h4 : b.toNat * P ≤ 127 * P := Nat.mul_le_mul_right _ (by omega)
    omega

theorem twosComp_inj {a b : Bytes} (hl : a.length = b.length) (h : twosComp a = twosComp b) :
    a = b := by
  cases a with
  | nil => exact (List.length_eq_zero_iff.1 (by simpa using hl.symm)).symm
  | cons x xs =>
    cases b with
    | nil => simp at hl
    | cons y ys =>
      apply beNat_inj hl
      have hx := beNat_lt (x :: xs)
      have hy := beNat_lt (y :: ys)
      have hl' : xs.length = ys.length := by simpa using hl
      simp only [twosComp, hl'] at h
      simp only [List.length_cons, hl'] at hx hy
      generalize 256 ^ (ys.length + 1) = P at *
      split at h <;> split at h <;> omega

theorem minimal_unique {a b : Bytes} (ha : MinimalInt a) (hb : MinimalInt b)
    (h : twosComp a = twosComp b) : a = b := by
  apply twosComp_inj _ h
  have := ha.2 b hb.1 h.symm
  have := hb.2 a ha.1 h
  omega

theorem minimal_singleton (b : Byte) : MinimalInt [b] := by
  refine ⟨by simp, fun bs' h _ => ?_⟩
  cases bs' with
  | nil => exact absurd rfl h
  | cons => simp

/-- Two leading bytes that cannot be shortened give a value no shorter string reaches. -/
theorem minimal_of_leading {a b : Byte} {rest : Bytes}
    (h1 : ¬ (a.toNat = 255 ∧ 128 ≤ b.toNat)) (h2 : ¬ (a.toNat = 0 ∧ b.toNat < 128)) :
    MinimalInt (a :: b :: rest) := by
  refine ⟨by simp, fun bs' hne heq => ?_⟩
  cases bs' with
  | nil => exact absurd rfl hne
  | cons x xs =>
    apply Classical.byContradiction
    intro hlt
    simp only [List.length_cons] at hlt
    have hb := twosComp_bounds x xs
    rw [heq, twosComp_cons, beNat_cons] at hb
    simp only [List.length_cons] at hb
    have hm : 256 ^ xs.length ≤ 256 ^ rest.length := Nat.pow_le_pow_right (by decide) (by omega)
    have hr := beNat_lt rest
    simp only [Nat.pow_succ] at hb
    generalize 256 ^ rest.length = P at *
    generalize 256 ^ xs.length = Q at *
    generalize beNat rest = c at *
    have ha := a.isLt
    have hb' := b.isLt
    generalize a.toNat = a at *
    generalize b.toNat = b at *
    have hbP : b * P ≤ 255 * P := Nat.mul_le_mul_right _ (by omega)
    rw [show a * (P * 256) = (a * P) * 256 by rw [Nat.mul_assoc]] at hb
    split at hb
    · by_cases h : a = 255
      · subst h
        have hbP : b * P ≤ 127 * P := Nat.mul_le_mul_right _ (by omega)
        omega
      · have haP : a * P ≤ 254 * P := Nat.mul_le_mul_right _ (by omega)
        omega
    · by_cases h : a = 0
      · subst h
        have hbP : 128 * P ≤ b * P := Nat.mul_le_mul_right _ (by omega)
        omega
      · have haP : 1 * P ≤ a * P := Nat.mul_le_mul_right _ (by omega)
        omega

theorem strip_step00 {b : Byte} {rest : Bytes} (h : b.toNat < 128) :
    twosComp (0#8 :: b :: rest) = twosComp (b :: rest) := by
  simp only [twosComp, beNat_cons (0#8)]
  rw [if_neg (by simp), if_neg (by omega)]
  simp

theorem strip_stepFF {b : Byte} {rest : Bytes} (h : 128 ≤ b.toNat) :
    twosComp (0xff#8 :: b :: rest) = twosComp (b :: rest) := by
  simp only [twosComp, beNat_cons (0xff#8)]
  rw [if_pos (by decide), if_pos h]
  simp only [List.length_cons, BitVec.toNat_ofNat]
  rw [Nat.pow_succ 256 (rest.length + 1)]
  generalize 256 ^ (rest.length + 1) = P
  omega

theorem minCheck_iff (bs : Bytes) :
    Integer.minimumMagnitudeCheck bs = .ok ⟨bs⟩ ↔ MinimalInt bs := by
  match bs with
  | [] => simp [Integer.minimumMagnitudeCheck, MinimalInt]
  | [b] => simp [Integer.minimumMagnitudeCheck, minimal_singleton]
  | a :: b :: rest =>
    simp only [Integer.minimumMagnitudeCheck]
    have t := topSet_iff b
    split
    case isTrue h =>
      simp only [Bool.and_eq_true, beq_iff_eq] at h
      obtain ⟨ha, hb⟩ := h
      simp only [reduceCtorEq, false_iff]
      intro hm
      have := hm.2 (b :: rest) (by simp) (by rw [ha]; exact (strip_stepFF (t.1 hb)).symm)
      simp at this; omega
    case isFalse h1 =>
    split
    case isTrue h =>
      simp only [Bool.and_eq_true, beq_iff_eq, Bool.not_eq_true'] at h
      obtain ⟨ha, hb⟩ := h
      simp only [reduceCtorEq, false_iff]
      intro hm
      have hb : b.toNat < 128 := by
        have : ¬ (128 ≤ b.toNat) := by rw [← t, hb]; simp
        omega
      have := hm.2 (b :: rest) (by simp) (by rw [ha]; exact (strip_step00 hb).symm)
      simp at this; omega
    case isFalse h2 =>
      simp only [true_iff]
      apply minimal_of_leading
      · rintro ⟨ha, hb⟩
        apply h1
        have : a = 0xff#8 := BitVec.eq_of_toNat_eq ha
        simp [this, t.2 hb]
      · rintro ⟨ha, hb⟩
        apply h2
        have : a = 0#8 := BitVec.eq_of_toNat_eq ha
        have : topSet b = false := by
          rw [← Bool.not_eq_true, t]; omega
        simp_all

theorem integer_ok_iff (i : Integer) : i.ok ↔ MinimalInt i.twosComplement :=
  minCheck_iff i.twosComplement

theorem strip00_spec (b : Byte) (bs : Bytes) (hb : b.toNat < 128) :
    twosComp (strip00 (b :: bs)) = twosComp (b :: bs) ∧ MinimalInt (strip00 (b :: bs)) := by
  induction bs generalizing b with
  | nil => exact ⟨rfl, minimal_singleton b⟩
  | cons x xs ih =>
    rw [strip00]
    split
    case isTrue h =>
      simp only [Bool.and_eq_true, beq_iff_eq, Bool.not_eq_true'] at h
      obtain ⟨h1, h2⟩ := h
      have hx : x.toNat < 128 := by
        have : ¬ (128 ≤ x.toNat) := by rw [← topSet_iff, h2]; simp
        omega
      rw [h1, strip_step00 hx]
      exact ih x hx
    case isFalse h =>
      refine ⟨rfl, minimal_of_leading (by omega) ?_⟩
      rintro ⟨ha, hx⟩
      apply h
      have h0 : b = 0#8 := BitVec.eq_of_toNat_eq ha
      have : topSet x = false := by rw [← Bool.not_eq_true, topSet_iff]; omega
      simp [h0, this]

theorem stripFF_spec (b : Byte) (bs : Bytes) (hb : 128 ≤ b.toNat) :
    twosComp (stripFF (b :: bs)) = twosComp (b :: bs) ∧ MinimalInt (stripFF (b :: bs)) := by
  induction bs generalizing b with
  | nil => exact ⟨rfl, minimal_singleton b⟩
  | cons x xs ih =>
    rw [stripFF]
    split
    case isTrue h =>
      simp only [Bool.and_eq_true, beq_iff_eq] at h
      obtain ⟨h1, h2⟩ := h
      have hx := (topSet_iff x).1 h2
      rw [h1, strip_stepFF hx]
      exact ih x hx
    case isFalse h =>
      refine ⟨rfl, minimal_of_leading ?_ (by omega)⟩
      rintro ⟨ha, hx⟩
      apply h
      have h0 : b = 0xff#8 := BitVec.eq_of_toNat_eq ha
      simp [h0, (topSet_iff x).2 hx]

theorem all_zero_eq (bs : Bytes) (h : bs.all (· == 0#8) = true) :
    bs = List.replicate bs.length 0#8 := by
  rw [List.eq_replicate_iff]
  exact ⟨rfl, by simpa using h⟩

theorem twosComp_zero : twosComp [0#8] = 0 := by decide

theorem new_spec (bytes : Bytes) :
    twosComp (Integer.new bytes).twosComplement = twosComp bytes ∧
      MinimalInt (Integer.new bytes).twosComplement := by
  unfold Integer.new
  cases bytes with
  | nil => exact ⟨rfl, minimal_singleton _⟩
  | cons b bs =>
    split
    case isTrue h =>
      refine ⟨?_, minimal_singleton _⟩
      simp only [List.isEmpty_cons, Bool.false_or] at h
      rw [all_zero_eq _ h]
      simp only [List.length_cons, List.replicate_succ, twosComp]
      rw [if_neg (by simp), ← List.replicate_succ, beNat_replicate_zero]
      rfl
    case isFalse h =>
      by_cases h1 : topSet b = true
      · simp only [List.headD_cons, h1, if_true]
        exact stripFF_spec b bs ((topSet_iff b).1 h1)
      · simp only [List.headD_cons, h1]
        apply strip00_spec b bs
        rw [topSet_iff] at h1; omega

theorem stripZeros_spec (bs : Bytes) :
    ∃ n, bs = List.replicate n 0#8 ++ stripZeros bs ∧ ∀ b ∈ (stripZeros bs).head?, b ≠ 0#8 := by
  induction bs with
  | nil => exact ⟨0, rfl, by simp [stripZeros]⟩
  | cons b bs ih =>
    by_cases h : b = 0#8
    · subst h
      obtain ⟨n, h1, h2⟩ := ih
      refine ⟨n + 1, ?_, ?_⟩
      · simp only [stripZeros, List.dropWhile_cons, beq_self_eq_true, if_true,
          List.replicate_succ, List.cons_append]
        rw [← stripZeros, ← h1]
      · simpa [stripZeros] using h2
    · refine ⟨0, ?_, ?_⟩
      · simp [stripZeros, h]
      · simp [stripZeros, h]

theorem beNat_stripZeros (bs : Bytes) : beNat (stripZeros bs) = beNat bs := by
  obtain ⟨n, h, _⟩ := stripZeros_spec bs
  conv => rhs; rw [h, beNat_zeros_append]

theorem stripZeros_length_le (bs : Bytes) : (stripZeros bs).length ≤ bs.length := by
  obtain ⟨n, h, _⟩ := stripZeros_spec bs
  have := congrArg List.length h
  simp at this; omega

/-- The bytes `new_positive` produces. -/
def positiveBytes (value : Bytes) : Bytes :=
  match stripZeros value with
  | [] => [0#8]
  | b :: rest => if topSet b then 0#8 :: b :: rest else b :: rest

theorem newPositive_eq (n : Nat) (value : Bytes) :
    Integer.newPositive n value =
      if (positiveBytes value).length ≤ n then .ok ⟨positiveBytes value⟩ else .error .panic := rfl

theorem positiveBytes_length (value : Bytes) : (positiveBytes value).length ≤ value.length + 1 := by
  have h := stripZeros_length_le value
  unfold positiveBytes
  split
  · simp
  case h_2 b rest heq =>
    rw [heq] at h
    simp only [List.length_cons] at h
    split <;> simp only [List.length_cons] <;> omega

theorem positiveBytes_spec (value : Bytes) :
    twosComp (positiveBytes value) = beNat value ∧ MinimalInt (positiveBytes value) := by
  rw [← beNat_stripZeros]
  obtain ⟨n, h, hz⟩ := stripZeros_spec value
  unfold positiveBytes
  split
  case h_1 heq => rw [heq]; exact ⟨rfl, minimal_singleton _⟩
  case h_2 b rest heq =>
    rw [heq]
    rw [heq] at hz
    simp only [List.head?_cons, Option.mem_def, Option.some.injEq, forall_eq'] at hz
    split
    case isTrue ht =>
      have ht := (topSet_iff b).1 ht
      constructor
      · rw [twosComp, if_neg (by simp), beNat_cons]; simp
      · exact minimal_of_leading (by simp) (by omega)
    case isFalse ht =>
      have ht' : b.toNat < 128 := by rw [topSet_iff] at ht; omega
      constructor
      · rw [twosComp, if_neg (by omega)]; simp
      · cases rest with
        | nil => exact minimal_singleton _
        | cons x xs =>
          apply minimal_of_leading (by omega)
          rintro ⟨h0, _⟩
          exact hz (BitVec.eq_of_toNat_eq h0)

theorem isNegative_iff (i : Integer) : i.isNegative = true ↔ twosComp i.twosComplement < 0 := by
  unfold Integer.isNegative
  split
  case h_1 heq => rw [heq]; simp [twosComp]
  case h_2 b bs heq =>
    rw [heq, topSet_iff, twosComp]
    have h := beNat_lt (b :: bs)
    rw [List.length_cons] at h
    split <;> omega

theorem twosComp_nonneg {i : Integer} (h : i.isNegative = false) :
    twosComp i.twosComplement = beNat i.twosComplement := by
  unfold Integer.isNegative at h
  split at h
  case h_1 heq => rw [heq]; rfl
  case h_2 b bs heq =>
    rw [heq, twosComp, if_neg]
    · simp
    · have := topSet_iff b
      rw [h] at this
      simp at this
      omega

theorem asUsize_ok {i : Integer} {n : Nat} :
    i.asUsize = .ok n ↔ twosComp i.twosComplement = n ∧ i.twosComplement.length ≤ 8 := by
  unfold Integer.asUsize
  rw [beNat_zeros_append]
  split
  case isTrue h =>
    simp only [Bool.or_eq_true, decide_eq_true_eq] at h
    simp only [reduceCtorEq, false_iff, not_and]
    rcases h with h | h
    · have := (isNegative_iff i).1 h
      omega
    · omega
  case isFalse h =>
    simp only [Bool.or_eq_true, decide_eq_true_eq, not_or, Bool.not_eq_true] at h
    rw [twosComp_nonneg h.1]
    have : i.twosComplement.length ≤ 8 := by omega
    simp [this]
    omega

/-! ### Enums -/

theorem toBE8_toNat {n : Nat} (h : n < 2 ^ 63) :
    twosComp (toBE 8 n) = n := by
  cases hb : toBE 8 n with
  | nil =>
    have := congrArg List.length hb
    simp at this
  | cons b bs =>
    have hl : bs.length = 7 := by
      have := congrArg List.length hb
      simpa using this.symm
    have hv : beNat (b :: bs) = n := by
      rw [← hb, beNat_toBE, Nat.mod_eq_of_lt]
      exact Nat.lt_trans h (by decide)
    rw [twosComp, hv, if_neg]
    · simp
    · rw [beNat_cons, hl] at hv
      have := beNat_lt bs
      rw [hl] at this
      omega

theorem new_length_le (bs : Bytes) : (Integer.new bs).twosComplement.length ≤ max 1 bs.length := by
  cases bs with
  | nil => decide
  | cons b bs =>
    have := (new_spec (b :: bs)).2.2 (b :: bs) (by simp) (new_spec (b :: bs)).1.symm
    omega

theorem enum_lawful {T : Type} {num : T → Nat} {ofNum : Nat → Option T}
    (h1 : ∀ v, ofNum (num v) = some v) (h2 : ∀ n v, ofNum n = some v → num v = n)
    (hlt : ∀ v, num v < 2 ^ 63) (t : Tag) :
    Lawful (enumCodec num ofNum) t
      (fun v => tlv t (Integer.new (toBE 8 (num v))).twosComplement) (fun _ => True)
      (fun _ => True) free where
  enc_ok v e h1 h2 := (integer_lawful t).enc_ok _ e h1 h2
  enc_err v e h1 h2 := (integer_lawful t).enc_err _ e h1 h2
  len v h := (integer_lawful t).len _ h
  parse_der v rest _ _ _ := by
    have hl := new_length_le (toBE 8 (num v))
    simp at hl
    have hs := new_spec (toBE 8 (num v))
    have := (integer_lawful t).parse_der (Integer.new (toBE 8 (num v))) rest
      ((integer_ok_iff _).2 hs.2) (by omega) trivial
    simp only [enumCodec, this, ok_bind]
    have ha : (Integer.new (toBE 8 (num v))).asUsize = .ok (num v) := by
      rw [asUsize_ok, hs.1, toBE8_toNat (hlt v)]
      exact ⟨rfl, by omega⟩
    simp only [ha, ok_bind, h1]
  canon inp v rest h := by
    simp only [enumCodec, bind_eq_ok] at h
    obtain ⟨⟨i, p⟩, h3, n, h4, h5⟩ := h
    obtain ⟨a, b, c, d⟩ := (integer_lawful t).canon _ _ _ h3
    simp only at h5
    split at h5
    case h_1 x hx =>
      injection h5 with h5; injection h5 with h5 h6; subst h5 h6
      have hn := h2 _ _ hx
      refine ⟨?_, trivial, trivial, trivial⟩
      have hs := new_spec (toBE 8 (num x))
      have : i.twosComplement = (Integer.new (toBE 8 (num x))).twosComplement := by
        apply minimal_unique ((integer_ok_iff _).1 b) hs.2
        rw [hs.1, toBE8_toNat (hlt x), (asUsize_ok.1 h4).1, hn]
      rw [a, this]
    · simp at h5
  fits_of_len _ _ := trivial
  total inp := by
    refine bind_total ((integer_lawful t).total _) fun a _ => bind_total ?_ fun n _ => ?_
    · unfold Integer.asUsize; split <;> simp
    · split <;> simp

end Verif.Asn1
