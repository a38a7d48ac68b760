import Verif.Proof.Asn1

/-! Object identifier contents. -/
namespace Verif.Asn1
open Verif.Spec.Der

theorem digits128_zero : digits128 0 = [] := by unfold digits128; simp
theorem digits128_pos {n : Nat} (h : n ≠ 0) : digits128 n = digits128 (n / 128) ++ [n % 128] := by
  conv => lhs; unfold digits128
  simp [h]

theorem cont_byte (b : Byte) : b ||| 0x80#8 = BitVec.ofNat 8 (128 + b.toNat % 128) := by
  revert b; decide

theorem cont_byte' (x : Nat) : BitVec.ofNat 8 x ||| 0x80#8 = BitVec.ofNat 8 (128 + x % 128) := by
  rw [cont_byte]; simp only [BitVec.toNat_ofNat]
  congr 2; omega

/-- The continuation bytes of `oidChunks`. -/
def contBytes (item : Nat) : Nat → Bytes
  | 0 => []
  | c + 1 => (BitVec.ofNat 8 (item >>> ((c + 1) * 7)) ||| 0x80#8) :: contBytes item c

theorem oidChunks_eq (item c : Nat) :
    oidChunks item c = contBytes item c ++ [BitVec.ofNat 8 (item % 128)] := by
  induction c with
  | zero => rfl
  | succ c ih => simp [oidChunks, contBytes, ih]

theorem contBytes_succ (item c : Nat) : contBytes item (c + 1) =
    contBytes (item / 128) c ++ [BitVec.ofNat 8 (item >>> 7) ||| 0x80#8] := by
  induction c with
  | zero => simp [contBytes]
  | succ c ih =>
    rw [contBytes, ih]
    conv => rhs; rw [contBytes]
    simp only [List.cons_append]
    congr 3
    rw [Nat.shiftRight_eq_div_pow, Nat.shiftRight_eq_div_pow, show 128 = 2 ^ 7 by rfl,
      Nat.div_div_eq_div_mul, ← Nat.pow_add]
    congr 2; omega

theorem contBytes_eq {c item : Nat} (h1 : item < 128 ^ (c + 1)) (h2 : c = 0 ∨ 128 ^ c ≤ item) :
    contBytes item c = (digits128 (item / 128)).map fun d => BitVec.ofNat 8 (128 + d) := by
  induction c generalizing item with
  | zero =>
    rw [show item / 128 = 0 by omega, digits128_zero]; rfl
  | succ c ih =>
    rw [contBytes_succ, ih, digits128_pos (n := item / 128)]
    · simp only [List.map_append, List.map_cons, List.map_nil]
      rw [cont_byte', Nat.shiftRight_eq_div_pow]
    · have := Nat.pow_pos (n := c) (show 0 < 128 by decide)
      rcases h2 with h2 | h2
      · omega
      · rw [Nat.pow_succ] at h2; omega
    · rw [Nat.pow_succ] at h1; omega
    · cases c with
      | zero => left; rfl
      | succ c =>
        right
        rcases h2 with h2 | h2
        · omega
        · rw [Nat.pow_succ] at h2; omega

theorem oidArc_eq (item : Nat) : oidArc item = subidentifier item := by
  unfold oidArc subidentifier
  split
  case isTrue h =>
    rw [show item / 128 = 0 by omega, digits128_zero, Nat.mod_eq_of_lt (by omega)]; rfl
  case isFalse h =>
    have h0 : item ≠ 0 := by omega
    have h1 := Nat.log2_self_le h0
    have h2 := Nat.lt_log2_self (n := item)
    have h6 : 6 ≤ item.log2 := by
      rw [Nat.le_log2 h0]; omega
    have e : ∀ k, 128 ^ k = 2 ^ (7 * k) := fun k => by rw [Nat.pow_mul]
    rw [oidChunks_eq, contBytes_eq]
    · rw [e]
      exact Nat.lt_of_lt_of_le h2 (Nat.pow_le_pow_right (by decide) (by omega))
    · right
      rw [e]
      exact Nat.le_trans (Nat.pow_le_pow_right (by decide) (by omega)) h1

/-! ### Decoding -/

theorem decodeSubs_digits (n acc : Nat) (rest : Bytes) :
    decodeSubs acc (((digits128 n).map fun d => BitVec.ofNat 8 (128 + d)) ++ rest) =
      decodeSubs (acc * 128 ^ (digits128 n).length + n) rest := by
  induction n using Nat.strongRecOn generalizing acc rest with
  | ind n ih =>
    by_cases h : n = 0
    · subst h; simp [digits128_zero]
    · rw [digits128_pos h]
      simp only [List.map_append, List.append_assoc, List.map_cons, List.map_nil, List.cons_append,
        List.nil_append, List.length_append, List.length_singleton]
      rw [ih (n / 128) (by omega), decodeSubs]
      have hb : (BitVec.ofNat 8 (128 + n % 128)).toNat = 128 + n % 128 := by
        simp only [BitVec.toNat_ofNat]; omega
      rw [hb, if_neg (by omega)]
      have e : (acc * 128 ^ (digits128 (n / 128)).length + n / 128) * 128 + (128 + n % 128 - 128) =
          acc * 128 ^ ((digits128 (n / 128)).length + 1) + n := by
        rw [Nat.pow_succ, ← Nat.mul_assoc]
        generalize acc * 128 ^ (digits128 (n / 128)).length = q
        omega
      rw [e]

theorem decodeSubs_sub (n : Nat) (rest : Bytes) :
    decodeSubs 0 (subidentifier n ++ rest) = n :: decodeSubs 0 rest := by
  unfold subidentifier
  rw [List.append_assoc, decodeSubs_digits]
  simp only [Nat.zero_mul, Nat.zero_add, List.cons_append, List.nil_append, decodeSubs]
  have hb : (BitVec.ofNat 8 (n % 128)).toNat = n % 128 := by
    simp only [BitVec.toNat_ofNat]; omega
  rw [hb, if_pos (by omega)]
  congr 1; omega

theorem decodeSubs_subs (l : List Nat) : decodeSubs 0 (l.map subidentifier).flatten = l := by
  induction l with
  | nil => rfl
  | cons x xs ih => simp only [List.map_cons, List.flatten_cons, decodeSubs_sub, ih]

theorem decodeOid_oidBytes {a b : Nat} {rest : List Nat} (ha : a ≤ 2) (hb : a < 2 → b < 40) :
    decodeOid (oidBytes a b rest) = a :: b :: rest := by
  unfold decodeOid oidBytes
  rw [decodeSubs_sub, decodeSubs_subs]
  simp only
  have : min ((40 * a + b) / 40) 2 = a := by omega
  rw [this]
  congr 2; omega

theorem oidPathBytes_eq {a b : Nat} {rest : List Nat} (h : 40 * a + b < 128) :
    oidPathBytes (a :: b :: rest) = .ok (oidBytes a b rest) := by
  unfold oidPathBytes oidBytes
  have ha : a % 256 = a := by omega
  have hb : b % 256 = b := by omega
  simp only [ha, hb]
  rw [if_pos (by omega)]
  have : subidentifier (40 * a + b) = [BitVec.ofNat 8 (a * 40 + b)] := by
    unfold subidentifier
    rw [show (40 * a + b) / 128 = 0 by omega, digits128_zero, Nat.mod_eq_of_lt h, Nat.mul_comm]; rfl
  rw [this, show oidArc = subidentifier from funext oidArc_eq]
  rfl

end Verif.Asn1
