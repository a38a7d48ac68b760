import Verif.Model.Sha3
import Verif.Proof.Blockwise

/-!
Lemmas for C20-C22: the sponge of `Model/Sha3.lean` is the one of FIPS 202, over any permutation.
-/
namespace Verif.Sha3
open Verif Verif.Blockwise

abbrev bytesOf := Spec.Keccak.bytesOf
abbrev lanesOf := Spec.Keccak.lanesOf

/-! ### Lanes and bytes -/

theorem toLE_xor (n a b : Nat) : toLE n (a ^^^ b) = List.zipWith (· ^^^ ·) (toLE n a) (toLE n b) := by
  induction n generalizing a b with
  | zero => rfl
  | succ n ih =>
    simp only [toLE, List.zipWith_cons_cons]
    rw [show (a ^^^ b) / 256 = a / 256 ^^^ b / 256 from by
      rw [show (256 : Nat) = 2 ^ 8 from rfl, ← Nat.shiftRight_eq_div_pow, ← Nat.shiftRight_eq_div_pow,
        ← Nat.shiftRight_eq_div_pow, Nat.shiftRight_xor_distrib], ih, BitVec.ofNat_xor]

theorem bytesOf_cons (l : BitVec 64) (ls : Lanes) : bytesOf (l :: ls) = toLE 8 l.toNat ++ bytesOf ls := by
  simp [bytesOf, Spec.Keccak.bytesOf]
theorem bytesOf_nil : bytesOf [] = [] := rfl

theorem bytesOf_append (a b : Lanes) : bytesOf (a ++ b) = bytesOf a ++ bytesOf b := by
  simp [bytesOf, Spec.Keccak.bytesOf]

theorem bytesOf_length (a : Lanes) : (bytesOf a).length = 8 * a.length := by
  induction a with
  | nil => rfl
  | cons l ls ih => rw [bytesOf_cons, List.length_append, toLE_length, ih, List.length_cons]; omega

theorem lanesOf_cons (c b : Bytes) (h : c.length = 8) :
    lanesOf (c ++ b) = BitVec.ofNat 64 (leNat c) :: lanesOf b := by
  rw [lanesOf, Spec.Keccak.lanesOf, chunksExact_block_append (by omega) h]; rfl

theorem lanesOf_nil : lanesOf [] = [] := by
  rw [lanesOf, Spec.Keccak.lanesOf, chunksExact_short (by simp)]; rfl

theorem lanesOf_bytesOf (a : Lanes) : lanesOf (bytesOf a) = a := by
  induction a with
  | nil => exact lanesOf_nil
  | cons l ls ih =>
    rw [bytesOf_cons, lanesOf_cons _ _ (by simp), ih, leNat_toLE, show (256 : Nat) ^ 8 = 2 ^ 64 from rfl,
      Nat.mod_eq_of_lt l.isLt, BitVec.ofNat_toNat, BitVec.setWidth_eq]

/-- Induction over whole words. -/
theorem words_ind {P : Bytes → Prop} (h0 : P []) (h1 : ∀ c b, c.length = 8 → P b → P (c ++ b)) :
    ∀ b : Bytes, 8 ∣ b.length → P b := by
  have : ∀ (n : Nat) (b : Bytes), b.length = 8 * n → P b := by
    intro n
    induction n with
    | zero => intro b hb; rw [List.eq_nil_of_length_eq_zero hb]; exact h0
    | succ n ih =>
      intro b hb
      rw [← List.take_append_drop 8 b]
      exact h1 _ _ (by rw [List.length_take]; omega) (ih _ (by rw [List.length_drop]; omega))
  intro b ⟨n, hn⟩
  exact this n b hn

theorem toLE_word (c : Bytes) (h : c.length = 8) : toLE 8 (BitVec.ofNat 64 (leNat c)).toNat = c := by
  have := toLE_leNat c
  rw [h] at this
  have hl := leNat_lt c
  rw [h] at hl
  rw [BitVec.toNat_ofNat, Nat.mod_eq_of_lt hl, this]

theorem bytesOf_lanesOf (b : Bytes) (h : 8 ∣ b.length) : bytesOf (lanesOf b) = b := by
  refine words_ind (P := fun b => bytesOf (lanesOf b) = b) ?_ ?_ b h
  · rw [lanesOf_nil]; rfl
  · intro c b hc ih
    rw [lanesOf_cons _ _ hc, bytesOf_cons, ih, toLE_word c hc]

theorem lanesOf_length (b : Bytes) (h : 8 ∣ b.length) : (lanesOf b).length = b.length / 8 := by
  have := bytesOf_length (lanesOf b)
  rw [bytesOf_lanesOf b h] at this
  omega

theorem zipWith_zeros (a : Bytes) (n : Nat) (h : a.length = n) :
    List.zipWith (· ^^^ ·) a (List.replicate n 0#8) = a := by
  subst h
  induction a with
  | nil => rfl
  | cons x xs ih => rw [List.length_cons, List.replicate_succ, List.zipWith_cons_cons, ih, BitVec.xor_zero]

/-- Lane-wise xor of a block is byte-wise xor of the block followed by zeros. -/
theorem xorLanes_ok (p : Bytes) (hp : 8 ∣ p.length) : ∀ a : Lanes, p.length ≤ 8 * a.length →
    bytesOf (List.zipWith (· ^^^ ·) a (lanesOf p) ++ a.drop (lanesOf p).length) =
      List.zipWith (· ^^^ ·) (bytesOf a) (p ++ List.replicate (8 * a.length - p.length) 0#8) := by
  refine words_ind (P := fun p => ∀ a : Lanes, p.length ≤ 8 * a.length →
    bytesOf (List.zipWith (· ^^^ ·) a (lanesOf p) ++ a.drop (lanesOf p).length) =
      List.zipWith (· ^^^ ·) (bytesOf a) (p ++ List.replicate (8 * a.length - p.length) 0#8)) ?_ ?_ p hp
  · intro a _
    rw [lanesOf_nil, List.zipWith_nil_right, List.nil_append, List.nil_append, List.length_nil, List.drop_zero]
    rw [show List.length ([] : Bytes) = 0 from rfl, Nat.sub_zero, zipWith_zeros _ _ (bytesOf_length a)]
  · intro c b hc ih a ha
    rw [List.length_append, hc] at ha
    cases a with
    | nil => simp at ha
    | cons l ls =>
      rw [List.length_cons] at ha
      rw [lanesOf_cons _ _ hc, List.zipWith_cons_cons, List.length_cons, List.drop_succ_cons, List.cons_append,
        bytesOf_cons, bytesOf_cons, ih ls (by omega), List.append_assoc,
        List.zipWith_append (by rw [toLE_length, hc]), BitVec.toNat_xor, toLE_xor, toLE_word c hc]
      congr 4
      simp only [List.length_append, List.length_cons]; omega

/-! ### Absorbing -/

/-- The permutation keeps the shape of the state. -/
def Shape (F : Lanes → Lanes) : Prop := ∀ s, s.length = 25 → (F s).length = 25

theorem absorbBlock_length {F : Lanes → Lanes} (hF : Shape F) (s : Lanes) (b : Bytes) (hs : s.length = 25) (h8 : 8 ∣ b.length) (hb : b.length ≤ 200) :
    (absorbBlock F s b).length = 25 := by
  refine hF _ ?_
  have := lanesOf_length b h8
  simp only [lanesOf, Spec.Keccak.lanesOf] at this
  rw [List.length_append, List.length_zipWith, List.length_drop, this, hs]
  omega

theorem onBytes_ok (F : Lanes → Lanes) (s : Lanes) : Spec.Keccak.onBytes F (bytesOf s) = bytesOf (F s) := by
  rw [Spec.Keccak.onBytes]
  show bytesOf (F (lanesOf (bytesOf s))) = _
  rw [lanesOf_bytesOf]

theorem absorbBlock_ok (F : Lanes → Lanes) (s : Lanes) (p : Bytes) (hs : s.length = 25) (h8 : 8 ∣ p.length)
    (hp : p.length ≤ 200) : bytesOf (absorbBlock F s p) =
      Spec.Keccak.onBytes F (List.zipWith (· ^^^ ·) (bytesOf s) (p ++ List.replicate (200 - p.length) 0#8)) := by
  have h := xorLanes_ok p h8 s (by omega)
  rw [hs] at h
  rw [← h, onBytes_ok]
  rfl

/-- Blocks absorbed by the model, and by the standard. -/
theorem absorbBlocks_ok {F : Lanes → Lanes} (hF : Shape F) (R : Nat) (h8 : 8 ∣ R) (hR : R ≤ 200)
    (ps : List Bytes) (hp : ∀ p ∈ ps, p.length = R) (s : Lanes) (hs : s.length = 25) :
    (ps.foldl (absorbBlock F) s).length = 25 ∧
    bytesOf (ps.foldl (absorbBlock F) s) = ps.foldl (fun S p => Spec.Keccak.onBytes F
      (List.zipWith (· ^^^ ·) S (p ++ List.replicate (200 - R) 0#8))) (bytesOf s) := by
  induction ps generalizing s with
  | nil => exact ⟨hs, rfl⟩
  | cons p ps ih =>
    have hpl := hp p (by simp)
    rw [List.foldl_cons, List.foldl_cons]
    have := ih (fun p' h' => hp p' (by simp [h'])) (absorbBlock F s p)
      (absorbBlock_length hF s p hs (by rw [hpl]; exact h8) (by omega))
    rw [absorbBlock_ok F s p hs (by rw [hpl]; exact h8) (by omega), hpl] at this
    exact this

/-- The sponge has been given `m`: whole blocks are in the state, the rest in the buffer. -/
structure Rel (F : Lanes → Lanes) (R : Nat) (c : Sponge) (m : Bytes) : Prop where
  split : ∃ pre r, m = pre ++ r ∧ R ∣ pre.length ∧ r.length < R ∧ Holds R c.buffer r ∧
    c.s = (chunksExact R pre).foldl (absorbBlock F) (List.replicate 25 0#64)

theorem rel_new (F : Lanes → Lanes) (R : Nat) (h : 0 < R) : Rel F R (Sponge.new R) [] :=
  ⟨[], [], rfl, ⟨0, by simp⟩, h, holds_new R, by rw [chunksExact_short (by simpa using h)]; rfl⟩

/-- Absorbing with an empty buffer. -/
theorem absorb_aligned (F : Lanes → Lanes) (R : Nat) (h0 : 0 < R) (pre : Bytes) (hd : R ∣ pre.length) (b : Blockwise)
    (hb : Holds R b []) (bytes : Bytes) :
    ∃ b', addTrailing b (chunksRem R bytes) = some b' ∧
      Rel F R ⟨(chunksExact R bytes).foldl (absorbBlock F)
        ((chunksExact R pre).foldl (absorbBlock F) (List.replicate 25 0#64)), b'⟩ (pre ++ bytes) := by
  have hl : (chunksRem R bytes).length < R := by rw [chunksRem_length]; exact Nat.mod_lt _ h0
  obtain ⟨b', e, hb'⟩ := addTrailing_ok hb (t := chunksRem R bytes) (by omega)
  refine ⟨b', e, pre ++ (chunksExact R bytes).flatten, chunksRem R bytes, ?_, ?_, hl, hb', ?_⟩
  · rw [List.append_assoc, flatten_chunksExact h0]
  · rw [List.length_append]
    refine Nat.dvd_add hd ?_
    have := congrArg List.length (flatten_chunksExact h0 bytes)
    rw [List.length_append, chunksRem_length] at this
    refine Nat.dvd_of_mod_eq_zero ?_
    have h2 : (chunksExact R bytes).flatten.length = bytes.length - bytes.length % R := by omega
    rw [h2]
    exact Nat.mod_eq_zero_of_dvd (Nat.dvd_sub_mod _)
  · show _ = (chunksExact R (pre ++ _)).foldl _ _
    rw [chunksExact_append h0 hd, List.foldl_append]
    congr 1
    have := chunksExact_take h0 bytes
    have h2 := flatten_chunksExact h0 bytes
    have h3 : chunksExact R ((chunksExact R bytes).flatten ++ chunksRem R bytes) =
        chunksExact R (chunksExact R bytes).flatten := by
      refine chunksExact_append_short h0 ?_ hl
      have := congrArg List.length h2
      rw [List.length_append, chunksRem_length] at this
      refine Nat.dvd_of_mod_eq_zero ?_
      have h2 : (chunksExact R bytes).flatten.length = bytes.length - bytes.length % R := by omega
      rw [h2]
      exact Nat.mod_eq_zero_of_dvd (Nat.dvd_sub_mod _)
    rw [h2] at h3
    rw [← h3]

theorem absorb_ok (F : Lanes → Lanes) (R : Nat) (h0 : 0 < R) (c : Sponge) (m bytes : Bytes) (h : Rel F R c m) :
    ∃ c', absorb F R c bytes = some c' ∧ Rel F R c' (m ++ bytes) := by
  obtain ⟨pre, r, hm, hd, hr, hb, hs⟩ := h
  rw [absorb]
  by_cases hr0 : r = []
  · subst hr0
    obtain ⟨b', e, hrel⟩ := absorb_aligned F R h0 pre hd c.buffer hb bytes
    rw [addLeading_empty hb]
    simp only [Option.bind_eq_bind, Option.bind_some]
    rw [take_part hb (by simp; omega)]
    simp only []
    rw [e]
    refine ⟨_, rfl, ?_⟩
    rw [hm, List.append_nil, hs]
    exact hrel
  · obtain ⟨b1, e1, hb1⟩ := addLeading_ok hb hr0 bytes
    rw [e1]
    simp only [Option.bind_eq_bind, Option.bind_some]
    by_cases hfull : (r ++ bytes.take (R - r.length)).length = R
    · obtain ⟨e2, hb2⟩ := take_full hb1 hfull
      rw [e2]
      simp only []
      have hd2 : R ∣ (pre ++ (r ++ bytes.take (R - r.length))).length := by
        rw [List.length_append, hfull]; exact Nat.dvd_add hd ⟨1, by simp⟩
      obtain ⟨b', e, hrel⟩ := absorb_aligned F R h0 _ hd2 _ hb2 (bytes.drop (R - r.length))
      rw [e]
      refine ⟨_, rfl, ?_⟩
      rw [chunksExact_append h0 hd, chunksExact_single h0 hfull, List.foldl_append, List.foldl_cons,
        List.foldl_nil, ← hs, List.append_assoc pre, List.append_assoc r, List.take_append_drop, ← List.append_assoc,
        ← hm] at hrel
      exact hrel
    · rw [take_part hb1 hfull]
      simp only []
      rw [List.length_append, List.length_take] at hfull
      have hshort : bytes.length < R - r.length := by omega
      rw [List.drop_of_length_le (by omega)]
      obtain ⟨b2, e2, hb2⟩ := addTrailing_nil hb1
      rw [show chunksRem R ([] : Bytes) = [] by simp [chunksRem], e2, chunksExact_short (by simpa using h0)]
      refine ⟨_, rfl, pre, r ++ bytes, by rw [hm, List.append_assoc], hd, ?_, ?_, hs⟩
      · rw [List.length_append]; omega
      · rw [List.take_of_length_le (by omega)] at hb2
        exact hb2

theorem absorbAll_ok (F : Lanes → Lanes) (R : Nat) (h0 : 0 < R) (ms : List Bytes) (c : Sponge) (m : Bytes)
    (h : Rel F R c m) : ∃ c', ms.foldlM (absorb F R) c = some c' ∧ Rel F R c' (m ++ ms.flatten) := by
  induction ms generalizing c m with
  | nil => exact ⟨c, rfl, by simpa using h⟩
  | cons b bs ih =>
    obtain ⟨c1, e1, h1⟩ := absorb_ok F R h0 c m b h
    obtain ⟨c2, e2, h2⟩ := ih c1 _ h1
    refine ⟨c2, ?_, by simpa using h2⟩
    rw [List.foldlM_cons, e1]; exact e2

/-! ### Padding -/

/-- What `absorb_final` adds after `k` buffered bytes. -/
def padBytes (R : Nat) (PAD : Byte) (k : Nat) : Bytes :=
  if R - k = 1 then [PAD ||| 0x80#8] else PAD :: (List.replicate (R - k - 2) 0#8 ++ [0x80#8])

theorem padBytes_length (R : Nat) (PAD : Byte) (k : Nat) (h : k < R) : (padBytes R PAD k).length = R - k := by
  rw [padBytes]
  split
  · simp; omega
  · simp; omega

theorem add_ok {N : Nat} {s : Blockwise} {r : Bytes} (h : Holds N s r) (b : Byte) (hr : r.length < N) :
    ∃ s', add N s [b] = some s' ∧ Holds N s' (r ++ [b]) := by
  by_cases h0 : r = []
  · subst h0
    rw [add, if_pos (by simpa using h.used)]
    exact addTrailing_ok h (by simp; omega)
  · have := List.length_pos_iff.2 h0
    rw [add, if_neg (by rw [h.used]; omega)]
    obtain ⟨s', e, h'⟩ := addLeading_ok h h0 [b]
    rw [e]
    refine ⟨s', rfl, ?_⟩
    rw [List.take_of_length_le (by simp; omega)] at h'
    exact h'

theorem lead_ok {N : Nat} {s : Blockwise} {r : Bytes} (h : Holds N s r) (h0 : r ≠ []) (b : Bytes)
    (hr : r.length + b.length ≤ N) : ∃ s' x, addLeading N s b = some (s', x) ∧ Holds N s' (r ++ b) := by
  obtain ⟨s', e, h'⟩ := addLeading_ok h h0 b
  rw [List.take_of_length_le (by omega)] at h'
  exact ⟨s', _, e, h'⟩

theorem padBuffer_ok (R : Nat) (h3 : 3 ≤ R) (hR : R ≤ SHAKE_128_R) (PAD : Byte) (b : Blockwise) (r : Bytes)
    (h : Holds R b r) (hr : r.length < R) :
    ∃ b', padBuffer R PAD b = some b' ∧ Holds R b' (r ++ padBytes R PAD r.length) := by
  have hu := h.used
  rw [padBuffer, if_neg (by omega), hu]
  rcases hn : R - r.length with _ | _ | _ | n
  · omega
  · obtain ⟨s', x, e, h'⟩ := lead_ok h (by intro e; rw [e] at hn; simp at hn; omega) [PAD ||| 0x80#8] (by simp; omega)
    simp only [Nat.reduceAdd, e]
    exact ⟨s', rfl, by rw [padBytes, if_pos (by omega)]; exact h'⟩
  · obtain ⟨s', x, e, h'⟩ := lead_ok h (by intro e; rw [e] at hn; simp at hn; omega) [PAD, 0x80#8] (by simp; omega)
    simp only [Nat.reduceAdd, e]
    exact ⟨s', rfl, by rw [padBytes, if_neg (by omega), hn]; exact h'⟩
  · obtain ⟨s1, e1, h1⟩ := add_ok h PAD hr
    obtain ⟨s2, x2, e2, h2⟩ := lead_ok h1 (by simp) (List.replicate (n + 1) 0#8) (by simp; omega)
    obtain ⟨s3, x3, e3, h3⟩ := lead_ok h2 (by simp) [0x80#8] (by simp; omega)
    rw [e1]
    simp only [Option.bind_eq_bind, Option.bind_some]
    rw [if_neg (by omega), show n + 1 + 1 + 1 - 2 = n + 1 by omega, e2]
    simp only [Option.bind_some, e3]
    refine ⟨s3, rfl, ?_⟩
    rw [padBytes, if_neg (by omega), hn, show n + 1 + 1 + 1 - 2 = n + 1 by omega]
    simpa using h3

theorem absorbFinal_ok (F : Lanes → Lanes) (R : Nat) (h3 : 3 ≤ R) (hR : R ≤ SHAKE_128_R) (PAD : Byte) (c : Sponge)
    (m : Bytes) (h : Rel F R c m) :
    absorbFinal F R PAD c = some ((chunksExact R (m ++ padBytes R PAD (m.length % R))).foldl (absorbBlock F)
      (List.replicate 25 0#64)) := by
  obtain ⟨pre, r, hm, hd, hr, hb, hs⟩ := h
  obtain ⟨b', e, hb'⟩ := padBuffer_ok R h3 hR PAD c.buffer r hb hr
  have hk : m.length % R = r.length := by
    rw [hm, List.length_append, Nat.add_mod, Nat.mod_eq_zero_of_dvd hd, Nat.zero_add, Nat.mod_mod, Nat.mod_eq_of_lt hr]
  have hl : (r ++ padBytes R PAD r.length).length = R := by
    rw [List.length_append, padBytes_length _ _ _ hr]; omega
  rw [absorbFinal, e]
  simp only [Option.bind_eq_bind, Option.bind_some]
  rw [(take_full hb' hl).1, hk, hm, List.append_assoc, chunksExact_append (by omega) hd,
    chunksExact_single (by omega) hl, List.foldl_append, ← hs]
  rfl

/-- The standard's bit string is the code's bytes. -/
structure Domain (suffix : List Bool) (PAD : Byte) : Prop where
  len : suffix.length ≤ 4
  one : Spec.Keccak.byteOf (suffix ++ [true] ++ List.replicate (6 - suffix.length) false ++ [true]) = PAD ||| 0x80#8
  two : Spec.Keccak.byteOf (suffix ++ [true] ++ List.replicate (7 - suffix.length) false) = PAD

theorem domain_sha3 : Domain Spec.Keccak.sha3Suffix SHA_PAD := ⟨by decide, by decide, by decide⟩
theorem domain_shake : Domain Spec.Keccak.shakeSuffix SHAKE_PAD := ⟨by decide, by decide, by decide⟩

theorem byteOf_bitsOf (b : Byte) : Spec.Keccak.byteOf (Spec.Keccak.bitsOf b) = b := by
  have : ∀ b : BitVec 8, Spec.Keccak.byteOf (Spec.Keccak.bitsOf b) = b := by decide +kernel
  exact this b

theorem ofBits_cons (c rest : List Bool) (h : c.length = 8) :
    Spec.Keccak.ofBits (c ++ rest) = Spec.Keccak.byteOf c :: Spec.Keccak.ofBits rest := by
  rw [Spec.Keccak.ofBits, chunks_cons (by omega) (by intro e; rw [List.append_eq_nil_iff] at e; rw [e.1] at h; simp at h),
    List.take_left' h, List.drop_left' h]
  rfl

theorem ofBits_nil : Spec.Keccak.ofBits [] = [] := by rw [Spec.Keccak.ofBits, chunks_nil]; rfl

theorem ofBits_bytes (M : Bytes) (rest : List Bool) :
    Spec.Keccak.ofBits (M.flatMap Spec.Keccak.bitsOf ++ rest) = M ++ Spec.Keccak.ofBits rest := by
  induction M with
  | nil => rfl
  | cons b bs ih =>
    rw [List.flatMap_cons, List.append_assoc, ofBits_cons _ _ (by simp [Spec.Keccak.bitsOf]), ih, byteOf_bitsOf]; rfl

theorem flatMap_bits_length (M : Bytes) : (M.flatMap Spec.Keccak.bitsOf).length = 8 * M.length := by
  induction M with
  | nil => rfl
  | cons b bs ih =>
    rw [List.flatMap_cons, List.length_append, ih, List.length_cons]
    simp only [Spec.Keccak.bitsOf, List.length_map, List.length_range]; omega

theorem ofBits_zeros (n : Nat) (rest : List Bool) :
    Spec.Keccak.ofBits (List.replicate (8 * n) false ++ rest) = List.replicate n 0#8 ++ Spec.Keccak.ofBits rest := by
  induction n with
  | zero => rfl
  | succ n ih =>
    rw [Nat.mul_succ, Nat.add_comm, ← List.replicate_append_replicate, List.append_assoc, ofBits_cons _ _ (by simp), ih,
      List.replicate_succ]
    rfl

theorem padded_ok (R : Nat) (h3 : 3 ≤ R) {suffix : List Bool} {PAD : Byte} (hd : Domain suffix PAD) (M : Bytes) :
    Spec.Keccak.padded R suffix M = M ++ padBytes R PAD (M.length % R) := by
  have hs := hd.len
  have hk : M.length % R < R := Nat.mod_lt _ (by omega)
  have hmod : (8 * M.length + suffix.length + 2) % (8 * R) = 8 * (M.length % R) + suffix.length + 2 := by
    conv => lhs; rw [← Nat.div_add_mod M.length R]
    rw [show 8 * (R * (M.length / R) + M.length % R) + suffix.length + 2 =
      (8 * (M.length % R) + suffix.length + 2) + 8 * R * (M.length / R) by
        rw [Nat.mul_add, Nat.mul_assoc]; omega, Nat.add_mul_mod_self_left, Nat.mod_eq_of_lt (by omega)]
  rw [Spec.Keccak.padded]
  rw [Spec.Keccak.pad101, List.length_append, flatMap_bits_length]
  rw [hmod, Nat.mod_eq_of_lt (by omega), List.append_assoc, ofBits_bytes]
  congr 1
  generalize M.length % R = k at hk ⊢
  rw [padBytes]
  by_cases h1 : R - k = 1
  · rw [if_pos h1, show 8 * R - (8 * k + suffix.length + 2) = 6 - suffix.length by omega,
      show suffix ++ ([true] ++ List.replicate (6 - suffix.length) false ++ [true]) =
        (suffix ++ [true] ++ List.replicate (6 - suffix.length) false ++ [true]) ++ [] by simp,
      ofBits_cons _ _ (by simp; omega), hd.one, ofBits_nil]
  · rw [if_neg h1, show 8 * R - (8 * k + suffix.length + 2) = (7 - suffix.length) + (8 * (R - k - 2) + 7) by omega,
      show suffix ++ ([true] ++ List.replicate ((7 - suffix.length) + (8 * (R - k - 2) + 7)) false ++ [true]) =
        (suffix ++ [true] ++ List.replicate (7 - suffix.length) false) ++
          (List.replicate (8 * (R - k - 2)) false ++ (List.replicate 7 false ++ [true] ++ [])) by
        rw [← List.replicate_append_replicate, ← List.replicate_append_replicate]; simp,
      ofBits_cons _ _ (by simp; omega), hd.two, ofBits_zeros, ofBits_cons _ _ (by simp), ofBits_nil]
    rfl

/-- Absorbing a message and finishing gives the standard's state. -/
theorem newForMessage_ok {F : Lanes → Lanes} (hF : Shape F) (R : Nat) (h3 : 3 ≤ R) (h8 : 8 ∣ R) (hR : R ≤ SHAKE_128_R)
    {suffix : List Bool} {PAD : Byte} (hd : Domain suffix PAD) (c : Sponge) (m : Bytes) (h : Rel F R c m) :
    ∃ s, absorbFinal F R PAD c = some s ∧ s.length = 25 ∧
      bytesOf s = Spec.Keccak.absorb (Spec.Keccak.onBytes F) R (Spec.Keccak.padded R suffix m) := by
  have hR2 : R ≤ 200 := Nat.le_trans hR (by decide)
  obtain ⟨h1, h2⟩ := absorbBlocks_ok hF R h8 hR2 (chunksExact R (m ++ padBytes R PAD (m.length % R)))
    (fun p hp => chunksExact_length hp) (List.replicate 25 0#64) (by simp)
  refine ⟨_, absorbFinal_ok F R h3 hR PAD c m h, h1, ?_⟩
  rw [h2, Spec.Keccak.absorb, padded_ok R h3 hd,
    show bytesOf (List.replicate 25 0#64) = List.replicate 200 0#8 by decide +kernel]

/-! ### Squeezing -/

theorem squeezeCurrent_ok (s : Lanes) (n : Nat) (h : n ≤ 8 * s.length) :
    squeezeCurrent s n = some ((bytesOf s).take n) := by
  induction s generalizing n with
  | nil =>
    have : n = 0 := by simpa using h
    subst this; rfl
  | cons l ls ih =>
    cases n with
    | zero => rfl
    | succ n =>
      rw [List.length_cons] at h
      rw [squeezeCurrent, ih _ (by omega), Option.map_some, bytesOf_cons, List.take_append, toLE_length]
      congr 2
      · by_cases h8 : 8 ≤ n + 1
        · rw [Nat.min_eq_left h8, List.take_of_length_le (by simp), List.take_of_length_le (by simp; omega)]
        · rw [Nat.min_eq_right (by omega)]
      · congr 1; omega

/-- `F` applied `n` times. -/
def iterL (F : Lanes → Lanes) : Nat → Lanes → Lanes
  | 0, s => s
  | n + 1, s => iterL F n (F s)

theorem iterL_length {F : Lanes → Lanes} (hF : Shape F) (n : Nat) (s : Lanes) (hs : s.length = 25) :
    (iterL F n s).length = 25 := by
  induction n generalizing s with
  | zero => exact hs
  | succ n ih => exact ih (F s) (hF s hs)

theorem iterL_succ (F : Lanes → Lanes) (n : Nat) (s : Lanes) : iterL F (n + 1) s = F (iterL F n s) := by
  induction n generalizing s with
  | zero => rfl
  | succ n ih => rw [iterL, ih]; rfl

theorem iter_ok (F : Lanes → Lanes) (n : Nat) (s : Lanes) :
    Spec.Keccak.iter (Spec.Keccak.onBytes F) n (bytesOf s) = bytesOf (iterL F n s) := by
  induction n generalizing s with
  | zero => rfl
  | succ n ih => rw [Spec.Keccak.iter, onBytes_ok, ih]; rfl

/-- Bytes `p` to `p + n` of the output stream. -/
def seg (F : Lanes → Lanes) (R : Nat) (s0 : Lanes) (p n : Nat) : Bytes :=
  (List.range n).map fun i => Spec.Keccak.streamByte (Spec.Keccak.onBytes F) R (bytesOf s0) (p + i)

theorem seg_length (F : Lanes → Lanes) (R : Nat) (s0 : Lanes) (p n : Nat) : (seg F R s0 p n).length = n := by
  simp [seg]

theorem seg_append (F : Lanes → Lanes) (R : Nat) (s0 : Lanes) (p a b : Nat) :
    seg F R s0 p a ++ seg F R s0 (p + a) b = seg F R s0 p (a + b) := by
  rw [seg, seg, seg, List.range_add, List.map_append, List.map_map]
  congr 1
  refine List.map_congr_left fun i _ => ?_
  simp only [Function.comp, Nat.add_assoc]

theorem seg_take (F : Lanes → Lanes) (R : Nat) (s0 : Lanes) (p a b : Nat) (h : a ≤ b) :
    (seg F R s0 p b).take a = seg F R s0 p a := by
  obtain ⟨c, rfl⟩ := Nat.le.dest h
  rw [← seg_append, List.take_left' (seg_length ..)]

theorem seg_drop (F : Lanes → Lanes) (R : Nat) (s0 : Lanes) (p a b : Nat) (h : a ≤ b) :
    (seg F R s0 p b).drop a = seg F R s0 (p + a) (b - a) := by
  obtain ⟨c, rfl⟩ := Nat.le.dest h
  rw [← seg_append, List.drop_left' (seg_length ..), Nat.add_sub_cancel_left]

/-- The stream from a block boundary is the stream of the state there. -/
theorem seg_block (F : Lanes → Lanes) (R : Nat) (h0 : 0 < R) (s0 : Lanes) (j n : Nat) :
    seg F R s0 (R * j) n = seg F R (iterL F j s0) 0 n := by
  rw [seg, seg]
  refine List.map_congr_left fun i _ => ?_
  rw [Spec.Keccak.streamByte, Spec.Keccak.streamByte, iter_ok, iter_ok, Nat.zero_add, Nat.mul_add_div h0,
    Nat.mul_add_mod]
  congr 2
  clear h0
  generalize i / R = k
  induction j generalizing s0 with
  | zero => rw [Nat.zero_add]; rfl
  | succ j ih => rw [show j + 1 + k = (j + k) + 1 by omega, iterL, ih]; rfl

theorem seg_first (F : Lanes → Lanes) (R : Nat) (s : Lanes) (n : Nat) (hn : n ≤ R) (hs : s.length = 25)
    (hR : R ≤ 200) : seg F R s 0 n = (bytesOf s).take n := by
  have hl := bytesOf_length s
  refine List.ext_getElem (by rw [seg_length, List.length_take]; omega) fun i h1 h2 => ?_
  rw [seg_length] at h1
  rw [List.getElem_take]
  simp only [seg, List.getElem_map, List.getElem_range, Nat.zero_add]
  rw [Spec.Keccak.streamByte, Nat.div_eq_of_lt (by omega), Nat.mod_eq_of_lt (by omega)]
  show (bytesOf s).getD i 0#8 = _
  rw [List.getD_eq_getElem?_getD, List.getElem?_eq_getElem (by omega)]
  rfl

/-- `squeeze` gives the stream and moves to the state after the blocks it started. -/
theorem squeeze_ok {F : Lanes → Lanes} (hF : Shape F) (R : Nat) (h0 : 0 < R) (hR : R ≤ 200) (n : Nat) (s : Lanes)
    (hs : s.length = 25) :
    squeeze F R s n = some (iterL F ((n + R - 1) / R) s, seg F R s 0 n) := by
  induction n using Nat.strongRecOn generalizing s with
  | _ n ih =>
    rw [squeeze, if_neg (by omega)]
    by_cases hn : n = 0
    · subst hn
      rw [if_pos rfl, Nat.zero_add, Nat.div_eq_of_lt (by omega)]
      rfl
    · rw [if_neg hn, squeezeCurrent_ok s _ (by omega)]
      simp only [Option.bind_eq_bind, Option.bind_some]
      rw [ih (n - min R n) (by omega) (F s) (hF s hs)]
      simp only [Option.bind_some, Option.pure_def, Option.some.injEq, Prod.mk.injEq]
      constructor
      · rw [show (n + R - 1) / R = (n - min R n + R - 1) / R + 1 from ?_]
        · rfl
        · by_cases h : R ≤ n
          · rw [Nat.min_eq_left h, show n + R - 1 = (n - R + R - 1) + R by omega, Nat.add_div_right _ h0]
          · rw [Nat.min_eq_right (by omega), Nat.sub_self, Nat.zero_add, Nat.div_eq_of_lt (show R - 1 < R by omega),
              show n + R - 1 = (n - 1) + R by omega, Nat.add_div_right _ h0, Nat.div_eq_of_lt (by omega)]
      · rw [← seg_first F R s _ (Nat.min_le_left R n) hs hR]
        have e2 : seg F R (F s) 0 (n - min R n) = seg F R s (0 + min R n) (n - min R n) := by
          by_cases h : R ≤ n
          · rw [Nat.min_eq_left h, Nat.zero_add]
            have := seg_block F R h0 s 1 (n - R)
            rw [Nat.mul_one] at this
            rw [this]; rfl
          · rw [Nat.min_eq_right (by omega), Nat.sub_self]; rfl
        rw [e2, seg_append]
        congr 1; omega

/-! ### Reading -/

/-- `p` bytes of the stream of `s0` have been read. -/
structure At (F : Lanes → Lanes) (R : Nat) (s0 : Lanes) (k : Shake) (p : Nat) : Prop where
  le : k.offset ≤ R
  len : k.buffer.length = R
  state : ∃ j, p + (R - k.offset) = R * j ∧ k.s = iterL F j s0
  buf : k.buffer.drop k.offset = seg F R s0 p (R - k.offset)

theorem at_new (F : Lanes → Lanes) (R : Nat) (s0 : Lanes) : At F R s0 ⟨s0, List.replicate R 0#8, R⟩ 0 :=
  ⟨Nat.le_refl _, by simp, ⟨0, by simp, rfl⟩, by simp [seg]⟩

theorem fromBuffer_ok (F : Lanes → Lanes) (R : Nat) (s0 : Lanes) (k : Shake) (p n : Nat) (h : At F R s0 k p) :
    ∃ k' m, fromBuffer R k n = some (k', seg F R s0 p m) ∧ m ≤ n ∧ At F R s0 k' (p + m) ∧
      (m < n → k'.offset = R) := by
  obtain ⟨h1, h2, ⟨j, h3, h4⟩, h5⟩ := h
  rw [fromBuffer]
  by_cases ho : k.offset = k.buffer.length
  · rw [if_pos ho]
    exact ⟨k, 0, rfl, by omega, ⟨h1, h2, ⟨j, h3, h4⟩, h5⟩, fun _ => by omega⟩
  · rw [if_neg ho, if_neg (by omega), if_pos (by omega)]
    refine ⟨{ k with offset := k.offset + min (R - k.offset) n }, min (R - k.offset) n, ?_, by omega, ⟨?_, h2, ⟨j, ?_, h4⟩, ?_⟩, ?_⟩
    · rw [h5, seg_take _ _ _ _ _ _ (by omega)]
    · show k.offset + min (R - k.offset) n ≤ R
      omega
    · show p + min (R - k.offset) n + (R - (k.offset + min (R - k.offset) n)) = R * j
      rw [← h3]; omega
    · show k.buffer.drop (k.offset + min (R - k.offset) n) = _
      rw [← List.drop_drop, h5, seg_drop _ _ _ _ _ _ (by omega), Nat.sub_sub]
    · intro h
      show k.offset + min (R - k.offset) n = R
      omega

theorem shakeRead_ok {F : Lanes → Lanes} (hF : Shape F) (R : Nat) (h0 : 0 < R) (hR : R ≤ 200) (s0 : Lanes)
    (hs : s0.length = 25) (k : Shake) (p n : Nat) (h : At F R s0 k p) :
    ∃ k', shakeRead F R k n = some (k', seg F R s0 p n) ∧ At F R s0 k' (p + n) := by
  obtain ⟨k1, m, e1, hm, hk1, hoff⟩ := fromBuffer_ok F R s0 k p n h
  rw [shakeRead, e1]
  simp only [Option.bind_eq_bind, Option.bind_some, seg_length]
  by_cases hz : n - m = 0
  · have : m = n := by omega
    subst this
    rw [if_pos hz]
    exact ⟨k1, rfl, hk1⟩
  · rw [if_neg hz]
    have ho := hoff (by omega)
    obtain ⟨h1, h2, ⟨j, h3, h4⟩, h5⟩ := hk1
    rw [ho, Nat.sub_self, Nat.add_zero] at h3
    have hmod : n - m = R * ((n - m) / R) + (n - m) % R := (Nat.div_add_mod _ _).symm
    have hlt : (n - m) % R < R := Nat.mod_lt _ h0
    have hsl := iterL_length hF j s0 hs
    rw [h4, squeeze_ok hF R h0 hR _ _ hsl]
    simp only [Option.bind_some]
    rw [Nat.mul_comm ((n - m) / R) R]
    generalize hw : (n - m) / R = w at *
    generalize ht : (n - m) % R = t at *
    have hdiv : (R * w + R - 1) / R = w := by
      rw [show R * w + R - 1 = R * w + (R - 1) by omega, Nat.mul_add_div h0, Nat.div_eq_of_lt (by omega), Nat.add_zero]
    rw [hdiv, show n - m - R * w = t by omega]
    have hit : ∀ a b, iterL F a (iterL F b s0) = iterL F (b + a) s0 := by
      intro a b
      induction b generalizing s0 with
      | zero => rw [Nat.zero_add]; rfl
      | succ b ih =>
        rw [show b + 1 + a = (b + a) + 1 by omega]
        have gen : ∀ (b : Nat) (s : Lanes), iterL F a (iterL F b s) = iterL F (b + a) s := by
          intro b
          induction b with
          | zero => intro s; rw [Nat.zero_add]; rfl
          | succ b ih => intro s; rw [show b + 1 + a = (b + a) + 1 by omega]; exact ih (F s)
        exact gen b (F s0)
    rw [hit w j]
    have hmid : seg F R (iterL F j s0) 0 (R * w) = seg F R s0 (p + m) (R * w) := by
      rw [h3, seg_block F R h0]
    rw [hmid]
    have hpos : p + m + R * w = R * (j + w) := by rw [h3, Nat.mul_add]
    rw [throughBuffer]
    by_cases htz : t = 0
    · rw [if_pos htz]
      subst htz
      refine ⟨{ k1 with s := iterL F (j + w) s0 }, ?_, h1, h2, ⟨j + w, ?_, rfl⟩, ?_⟩
      · simp only [Option.bind_some, List.append_nil, Option.pure_def, Option.some.injEq, Prod.mk.injEq, true_and]
        rw [seg_append]; congr 1; omega
      · show p + n + (R - k1.offset) = _
        rw [ho, Nat.sub_self, Nat.add_zero, ← hpos]; omega
      · show k1.buffer.drop k1.offset = _
        rw [h5, ho, Nat.sub_self]; rfl
    · rw [if_neg htz]
      simp only [h2]
      rw [squeeze_ok hF R h0 hR _ _ (iterL_length hF _ s0 hs)]
      simp only [Option.bind_some, Option.bind_eq_bind, Option.pure_def]
      rw [Nat.min_eq_right (by omega), show (R + R - 1) / R = 1 by
        rw [show R + R - 1 = (R - 1) + R by omega, Nat.add_div_right _ h0, Nat.div_eq_of_lt (by omega)],
        hit 1 (j + w), ← seg_block F R h0 s0 (j + w), ← hpos]
      refine ⟨⟨iterL F (j + w + 1) s0, seg F R s0 (p + m + R * w) R, t⟩, ?_, ?_, ?_, ⟨j + w + 1, ?_, rfl⟩, ?_⟩
      · rw [seg_take _ _ _ _ _ _ (by omega), seg_append, Nat.add_assoc p m, seg_append, show m + R * w + t = n by omega, Nat.add_assoc j]
      · show t ≤ R
        omega
      · show (seg F R s0 _ R).length = R
        exact seg_length ..
      · show p + n + (R - t) = R * (j + w + 1)
        rw [Nat.mul_succ, ← hpos]; omega
      · show (seg F R s0 (p + m + R * w) R).drop t = _
        rw [seg_drop _ _ _ _ _ _ (by omega), show p + m + R * w + t = p + n by omega]

/-! ### The permutation -/

theorem RC_ok : RC = (List.range 24).map Spec.Keccak.roundConstant := by decide +kernel

theorem keccak_ok : keccak RC = Spec.Keccak.keccakF := by
  funext a
  rw [keccak, RC_ok]; rfl

theorem rounds_length (ks : List (BitVec 64)) (a : Lanes) (h : a.length = 25) :
    (Spec.Keccak.rounds ks a).length = 25 := by
  rw [Spec.Keccak.rounds]
  induction ks generalizing a with
  | nil => exact h
  | cons k ks ih => exact ih _ (by simp [Spec.Keccak.iota, Spec.Keccak.chi, Spec.Keccak.mk])

theorem shape_keccak : Shape (keccak RC) := fun s hs => rounds_length _ _ hs

/-! ### Sponges from start to end -/

theorem sponge_eq (F : Lanes → Lanes) (R : Nat) (suffix : List Bool) (m : Bytes) (d : Nat) (s : Lanes)
    (h : bytesOf s = Spec.Keccak.absorb (Spec.Keccak.onBytes F) R (Spec.Keccak.padded R suffix m)) :
    Spec.Keccak.sponge F R suffix m d = seg F R s 0 d := by
  rw [Spec.Keccak.sponge, Spec.Keccak.squeeze, seg, h]
  simp only [Nat.zero_add]

/-- A state from which squeezing gives the output of the standard's sponge for `m`. -/
def Absorbed (F : Lanes → Lanes) (R : Nat) (suffix : List Bool) (m : Bytes) (s : Lanes) : Prop :=
  s.length = 25 ∧ bytesOf s = Spec.Keccak.absorb (Spec.Keccak.onBytes F) R (Spec.Keccak.padded R suffix m)

theorem shakeNew_ok {F : Lanes → Lanes} (hF : Shape F) (R : Nat) (h3 : 3 ≤ R) (h8 : 8 ∣ R) (hR : R ≤ SHAKE_128_R)
    (message : List Bytes) : ∃ k s0, shakeNew F R message = some k ∧
      Absorbed F R Spec.Keccak.shakeSuffix message.flatten s0 ∧ At F R s0 k 0 := by
  obtain ⟨c, e1, h1⟩ := absorbAll_ok F R (by omega) message _ _ (rel_new F R (by omega))
  obtain ⟨s, e2, h2, h4⟩ := newForMessage_ok hF R h3 h8 hR domain_shake c _ h1
  refine ⟨⟨s, List.replicate R 0#8, R⟩, s, ?_, ⟨h2, h4⟩, at_new F R s⟩
  rw [shakeNew, newForMessage, e1]
  simp only [Option.bind_eq_bind, Option.bind_some, e2]
  rfl

/-! ### Batches -/

theorem setLanes_eq (s : Lanes) (b : Bytes) : setLanes s b = lanesOf b ++ s.drop (lanesOf b).length := rfl

theorem setLanes_setLanes (s : Lanes) (a b : Bytes) (ha : a.length = 40) (hb : b.length = 40) :
    setLanes (setLanes s a) b = setLanes s b := by
  have la : (lanesOf a).length = 5 := by rw [lanesOf_length a ⟨5, by omega⟩, ha]
  have lb : (lanesOf b).length = 5 := by rw [lanesOf_length b ⟨5, by omega⟩, hb]
  rw [setLanes_eq, setLanes_eq s a, setLanes_eq s b, la, lb, List.drop_left' la]

theorem setLanes_length (s : Lanes) (b : Bytes) (hb : b.length = 40) (hs : s.length = 25) : (setLanes s b).length = 25 := by
  have lb : (lanesOf b).length = 5 := by rw [lanesOf_length b ⟨5, by omega⟩, hb]
  rw [setLanes_eq, List.length_append, List.length_drop, lb, hs]

theorem bytesOf_drop (s : Lanes) (n : Nat) : bytesOf (s.drop n) = (bytesOf s).drop (8 * n) := by
  induction n generalizing s with
  | zero => rfl
  | succ n ih =>
    cases s with
    | nil => simp [bytesOf_nil]
    | cons l ls =>
      rw [List.drop_succ_cons, ih, bytesOf_cons, Nat.mul_succ, Nat.add_comm, ← List.drop_drop,
        List.drop_left' (by simp)]

theorem bytesOf_inj {a b : Lanes} (h : bytesOf a = bytesOf b) : a = b := by
  rw [← lanesOf_bytesOf a, h, lanesOf_bytesOf]

theorem zeros_zipWith (a : Bytes) (n : Nat) (h : a.length = n) :
    List.zipWith (· ^^^ ·) (List.replicate n 0#8) a = a := by
  subst h
  induction a with
  | nil => rfl
  | cons x xs ih => rw [List.length_cons, List.replicate_succ, List.zipWith_cons_cons, ih, BitVec.zero_xor]

/-- A single short block laid out by hand is the padded message. -/
theorem setLanes_ok {F : Lanes → Lanes} (hF : Shape F) (R : Nat) (hR : R = 136 ∨ R = 168) (m i : Bytes) (hm : m.length ≤ 38)
    (hi : i = m ++ SHAKE_PAD :: List.replicate (39 - m.length) 0#8) :
    Absorbed F R Spec.Keccak.shakeSuffix m (F (setLanes (endBit R) i)) := by
  have hil : i.length = 40 := by rw [hi]; simp; omega
  have hel : (endBit R).length = 25 := by simp [endBit]
  have li : (lanesOf i).length = 5 := by rw [lanesOf_length i ⟨5, by omega⟩, hil]
  refine ⟨hF _ (setLanes_length _ _ hil hel), ?_⟩
  have hR3 : 3 ≤ R := by omega
  have hp : Spec.Keccak.padded R Spec.Keccak.shakeSuffix m =
      i ++ (List.replicate (R - 41) 0#8 ++ [0x80#8]) := by
    rw [padded_ok R hR3 domain_shake, Nat.mod_eq_of_lt (by omega), padBytes, if_neg (by omega), hi,
      show R - m.length - 2 = (39 - m.length) + (R - 41) by omega, ← List.replicate_append_replicate,
      List.append_assoc, List.append_assoc, List.cons_append]
  have hpl : (i ++ (List.replicate (R - 41) 0#8 ++ [0x80#8])).length = R := by simp; omega
  rw [hp, Spec.Keccak.absorb, chunksExact_single (by omega) hpl, List.foldl_cons, List.foldl_nil, zeros_zipWith _ _ (by
    rw [List.length_append, hpl, List.length_replicate]; omega), ← onBytes_ok]
  congr 1
  have he : (bytesOf (endBit R)).drop 40 = List.replicate (R - 41) 0#8 ++ [0x80#8] ++ List.replicate (200 - R) 0#8 := by
    rcases hR with rfl | rfl <;> decide +kernel
  rw [setLanes_eq, bytesOf_append, bytesOf_lanesOf i ⟨5, by omega⟩, bytesOf_drop, li, he]
  simp

theorem seg_current {F : Lanes → Lanes} (R n : Nat) (s : Lanes) (hn : n ≤ R) (hR : R ≤ 200) (hs : s.length = 25) :
    squeezeCurrent s n = some (seg F R s 0 n) := by
  rw [squeezeCurrent_ok s n (by omega), seg_first F R s n hn hs hR]

end Verif.Sha3
