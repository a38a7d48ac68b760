import Verif.Spec.PkixDer
import Verif.Proof.Asn1Integer
import Mathlib.Tactic.Ring

/-!
`natOctets v` are the shortest contents octets of `v`.
-/
namespace Verif.Spec.Der
open Verif Verif.Asn1

/-- The number of octets of `natOctets v` is at most `l + 1` exactly when `v` has at most `8l + 7` bits. -/
theorem natOctets_length (v l : Nat) : (natOctets v).length ≤ l + 1 ↔ v < 2 ^ (8 * l + 7) := by
  rw [natOctets, toBE_length]
  split
  · rename_i h; subst h; simp
  · rename_i h
    have := Nat.log2_lt h (k := 8 * l + 7)
    rw [← this]; omega

theorem pow256' (k : Nat) : 256 ^ k = 2 ^ (8 * k) := by rw [show (256 : Nat) = 2 ^ 8 from rfl, ← Nat.pow_mul]

theorem natOctets_pos (v : Nat) : ∃ l, (natOctets v).length = l + 1 := ⟨_, by rw [natOctets, toBE_length]⟩

theorem natOctets_beNat (v : Nat) : beNat (natOctets v) = v := by
  obtain ⟨l, hl⟩ := natOctets_pos v
  have h := (natOctets_length v l).1 (by omega)
  rw [natOctets, toBE_length] at hl
  rw [natOctets, beNat_toBE, hl, Nat.mod_eq_of_lt]
  rw [pow256']
  exact Nat.lt_of_lt_of_le h (Nat.pow_le_pow_right (by omega) (by omega))

theorem natOctets_twosComp (v : Nat) : twosComp (natOctets v) = v := by
  obtain ⟨l, hl⟩ := natOctets_pos v
  have h := (natOctets_length v l).1 (by omega)
  have hb := natOctets_beNat v
  rcases ho : natOctets v with _ | ⟨b, bs⟩
  · rw [ho] at hl; simp at hl
  · rw [ho] at hb hl
    rw [twosComp, hb, if_neg]
    · simp
    · intro hge
      rw [beNat_cons] at hb
      have hlen : bs.length = l := by simpa using hl
      rw [hlen, pow256'] at hb
      have : 128 * 2 ^ (8 * l) ≤ b.toNat * 2 ^ (8 * l) := Nat.mul_le_mul_right _ hge
      rw [Nat.pow_add] at h
      omega

theorem natOctets_minimal (v : Nat) : MinimalInt (natOctets v) := by
  refine ⟨by intro h; obtain ⟨l, hl⟩ := natOctets_pos v; rw [h] at hl; simp at hl, ?_⟩
  intro bs' hne he
  rw [natOctets_twosComp] at he
  rcases bs' with _ | ⟨b, bs⟩
  · exact absurd rfl hne
  · have := (twosComp_bounds b bs).2
    rw [he] at this
    have h2 : v < 128 * 256 ^ bs.length := by exact_mod_cast this
    rw [List.length_cons, natOctets_length]
    rw [pow256'] at h2
    rw [Nat.pow_add]; omega

/-- An INTEGER with shortest contents and a non-negative value is `natOctets` of its unsigned reading. -/
theorem natOctets_of_minimal {i : Integer} (h : MinimalInt i.twosComplement) (hn : i.isNegative = false) :
    i = ⟨natOctets (beNat i.twosComplement)⟩ := by
  have := minimal_unique h (natOctets_minimal (beNat i.twosComplement)) (by rw [natOctets_twosComp, twosComp_nonneg hn])
  cases i; simp only at this; rw [← this]

theorem natOctets_nonneg (v : Nat) : (⟨natOctets v⟩ : Integer).isNegative = false := by
  rw [← Bool.not_eq_true, isNegative_iff]
  show ¬ twosComp (natOctets v) < 0
  rw [natOctets_twosComp]; omega

/-- `Integer::new` of bytes that start with a zero bit. -/
theorem integer_new_eq {bs : Bytes} {v : Nat} (h : twosComp bs = v) : Integer.new bs = ⟨natOctets v⟩ := by
  obtain ⟨h1, h2⟩ := new_spec bs
  have := minimal_unique h2 (natOctets_minimal v) (by rw [natOctets_twosComp, h1, h])
  cases hi : Integer.new bs
  rw [hi] at this; simp only at this; rw [← this]

/-- A string one octet longer than needed denotes its unsigned reading. -/
theorem twosComp_toBE {k v : Nat} (h : v < 2 ^ (8 * k + 7)) : twosComp (toBE (k + 1) v) = v := by
  have hb : beNat (toBE (k + 1) v) = v := by
    rw [beNat_toBE, Nat.mod_eq_of_lt]
    rw [pow256']
    exact Nat.lt_of_lt_of_le h (Nat.pow_le_pow_right (by omega) (by omega))
  have hl : (toBE (k + 1) v).length = k + 1 := toBE_length _ _
  rcases ho : toBE (k + 1) v with _ | ⟨b, bs⟩
  · rw [ho] at hl; simp at hl
  · rw [ho] at hb hl
    rw [twosComp, hb, if_neg]
    · simp
    · intro hge
      rw [beNat_cons] at hb
      have hlen : bs.length = k := by simpa using hl
      rw [hlen, pow256'] at hb
      have : 128 * 2 ^ (8 * k) ≤ b.toNat * 2 ^ (8 * k) := Nat.mul_le_mul_right _ hge
      rw [Nat.pow_add] at h
      omega

theorem natBytes_length : ∀ (k n : Nat), n < 256 ^ k → (natBytes n).length ≤ k := by
  intro k
  induction k with
  | zero => intro n h; have : n = 0 := by simpa using h
            subst this; rw [natBytes]; simp
  | succ k ih =>
    intro n h
    rw [natBytes]
    split
    · simp
    · have := ih (n / 256) (Nat.div_lt_of_lt_mul (by rw [Nat.pow_succ] at h; omega))
      simp; exact this

theorem tlv_length_le (tag : Byte) (body : Bytes) (h : body.length < 65536) : (tlv tag body).length ≤ body.length + 4 := by
  rw [tlv, List.length_cons, List.length_append, lenOctets]
  split
  · simp; omega
  · have := natBytes_length 2 body.length (by simpa using h)
    simp; omega

theorem natInt_length_le {v l : Nat} (h : v < 2 ^ (8 * l + 7)) (hl : l < 65535) : (natInt v).length ≤ l + 5 := by
  have h1 := (natOctets_length v l).2 h
  have := tlv_length_le 0x02#8 (natOctets v) (by omega)
  rw [natInt]; omega

end Verif.Spec.Der
