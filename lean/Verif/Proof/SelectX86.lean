import Verif.Model.SelectX86

/-! Selection of a table entry with AVX2. -/
namespace Verif.SelectX86

/-! ### Lanes -/

theorem append_hi {n m : Nat} (x : BitVec n) (y : BitVec m) (k w : Nat) : (x ++ y).extractLsb' (m + k) w = x.extractLsb' k w := by
  apply BitVec.eq_of_getLsbD_eq
  intro j hj
  rw [BitVec.getLsbD_extractLsb', BitVec.getLsbD_extractLsb', BitVec.getLsbD_append, if_neg (by omega)]
  congr 2
  omega

theorem append_lo {n m : Nat} (x : BitVec n) (y : BitVec m) (k w : Nat) (h : k + w ≤ m) : (x ++ y).extractLsb' k w = y.extractLsb' k w := by
  apply BitVec.eq_of_getLsbD_eq
  intro j hj
  rw [BitVec.getLsbD_extractLsb', BitVec.getLsbD_extractLsb', BitVec.getLsbD_append, if_pos (by omega)]

theorem append_at {n m : Nat} (x : BitVec n) (y : BitVec m) : (x ++ y).extractLsb' 0 m = y := by
  rw [append_lo _ _ _ _ (by omega), BitVec.extractLsb'_eq_self]

theorem qword_qwords (f : Nat → Word) (i : Nat) (h : i < 4) : qword (qwords f) i = f i := by
  unfold qword qwords
  match i, h with
  | 0, _ => exact append_at _ _
  | 1, _ => exact (append_hi _ _ 0 64).trans (append_at _ _)
  | 2, _ => exact (append_hi _ _ 64 64).trans ((append_hi _ _ 0 64).trans (append_at _ _))
  | 3, _ => exact (append_hi _ _ 128 64).trans ((append_hi _ _ 64 64).trans ((append_hi _ _ 0 64).trans BitVec.extractLsb'_eq_self))

theorem dword_dwords (f : Nat → BitVec 32) (i : Nat) (h : i < 8) : dword (dwords f) i = f i := by
  unfold dword dwords
  have s0 {n : Nat} (x : BitVec n) (y : BitVec 32) (k : Nat) : (x ++ y).extractLsb' (32 + k) 32 = x.extractLsb' k 32 := append_hi x y k 32
  match i, h with
  | 0, _ => exact append_at _ _
  | 1, _ => exact (s0 _ _ 0).trans (append_at _ _)
  | 2, _ => exact (s0 _ _ 32).trans ((s0 _ _ 0).trans (append_at _ _))
  | 3, _ => exact (s0 _ _ 64).trans ((s0 _ _ 32).trans ((s0 _ _ 0).trans (append_at _ _)))
  | 4, _ => exact (s0 _ _ 96).trans ((s0 _ _ 64).trans ((s0 _ _ 32).trans ((s0 _ _ 0).trans (append_at _ _))))
  | 5, _ => exact (s0 _ _ 128).trans ((s0 _ _ 96).trans ((s0 _ _ 64).trans ((s0 _ _ 32).trans ((s0 _ _ 0).trans (append_at _ _)))))
  | 6, _ =>
    exact (s0 _ _ 160).trans ((s0 _ _ 128).trans ((s0 _ _ 96).trans ((s0 _ _ 64).trans ((s0 _ _ 32).trans ((s0 _ _ 0).trans (append_at _ _))))))
  | 7, _ =>
    exact (s0 _ _ 192).trans ((s0 _ _ 160).trans ((s0 _ _ 128).trans ((s0 _ _ 96).trans ((s0 _ _ 64).trans ((s0 _ _ 32).trans
      ((s0 _ _ 0).trans BitVec.extractLsb'_eq_self))))))

theorem qwords_congr {f g : Nat → Word} (h : ∀ i < 4, f i = g i) : qwords f = qwords g := by
  unfold qwords
  rw [h 0 (by decide), h 1 (by decide), h 2 (by decide), h 3 (by decide)]

theorem dwords_congr {f g : Nat → BitVec 32} (h : ∀ i < 8, f i = g i) : dwords f = dwords g := by
  unfold dwords
  rw [h 0 (by decide), h 1 (by decide), h 2 (by decide), h 3 (by decide), h 4 (by decide), h 5 (by decide), h 6 (by decide), h 7 (by decide)]

theorem setr64 (x : Word) : setr (set1_64 x) (set1_64 x) = qwords fun _ => x := by
  unfold setr set1_64 qwords
  exact (BitVec.append_assoc (x₁ := x ++ x) (x₂ := x) (x₃ := x)).symm

theorem append_assoc_nat {n m k : Nat} (a : BitVec n) (b : BitVec m) (c : BitVec k) : (a ++ (b ++ c)).toNat = (a ++ b ++ c).toNat := by
  rw [BitVec.toNat_append, BitVec.toNat_append, BitVec.toNat_append, BitVec.toNat_append, Nat.shiftLeft_or_distrib, ← Nat.shiftLeft_add, Nat.or_assoc]

theorem append_congr_nat {n m k : Nat} {a : BitVec n} {b : BitVec m} (c : BitVec k) (h : a.toNat = b.toNat) : (a ++ c).toNat = (b ++ c).toNat := by
  rw [BitVec.toNat_append, BitVec.toNat_append, h]

theorem setr32 (x : BitVec 32) : setr (set1_32 x) (set1_32 x) = dwords fun _ => x := by
  unfold setr set1_32 dwords
  apply BitVec.eq_of_toNat_eq
  exact (append_assoc_nat _ _ _).trans (append_congr_nat _ ((append_assoc_nat _ _ _).trans (append_congr_nat _ (append_assoc_nat _ _ _))))

/-! ### Counters and masks -/

theorem add64_bcast (a b : Word) : add64 (qwords fun _ => a) (qwords fun _ => b) = qwords fun _ => a + b :=
  qwords_congr fun i h => by rw [qword_qwords _ i h, qword_qwords _ i h]

theorem add32_bcast (a b : BitVec 32) : add32 (dwords fun _ => a) (dwords fun _ => b) = dwords fun _ => a + b :=
  dwords_congr fun i h => by rw [dword_dwords _ i h, dword_dwords _ i h]

theorem cmpeq64_bcast (a b : Word) : cmpeq64 (qwords fun _ => a) (qwords fun _ => b) = if a = b then BitVec.allOnes 256 else 0#256 := by
  have e : cmpeq64 (qwords fun _ => a) (qwords fun _ => b) = qwords fun _ => if a = b then BitVec.allOnes 64 else 0#64 :=
    qwords_congr fun i h => by rw [qword_qwords _ i h, qword_qwords _ i h]
  rw [e]
  split
  · decide
  · decide

theorem cmpeq32_bcast (a b : BitVec 32) : cmpeq32 (dwords fun _ => a) (dwords fun _ => b) = if a = b then BitVec.allOnes 256 else 0#256 := by
  have e : cmpeq32 (dwords fun _ => a) (dwords fun _ => b) = dwords fun _ => if a = b then BitVec.allOnes 32 else 0#32 :=
    dwords_congr fun i h => by rw [dword_dwords _ i h, dword_dwords _ i h]
  rw [e]
  split
  · decide
  · decide

theorem xor_mask (acc row : M256) (c : Prop) [Decidable c] :
    acc ^^^ (row &&& if c then BitVec.allOnes 256 else 0#256) = if c then acc ^^^ row else acc := by
  split
  · rw [BitVec.and_allOnes]
  · rw [BitVec.and_zero, BitVec.xor_zero]

theorem storeu_xor (a : M256) (p : Words) (k : Nat) (h : k + 4 ≤ p.length) :
    storeu (a ^^^ loadu p k) = List.zipWith (· ^^^ ·) (storeu a) ((p.drop k).take 4) := by
  have q (i : Nat) (hi : i < 4) : qword (a ^^^ loadu p k) i = qword a i ^^^ p[k + i] := by
    have : qword (a ^^^ loadu p k) i = qword a i ^^^ qword (loadu p k) i := BitVec.extractLsb'_xor
    rw [this, loadu, qword_qwords _ i hi, List.getD_eq_getElem?_getD, List.getElem?_eq_getElem (by omega), Option.getD_some]
  have e : (p.drop k).take 4 = [p[k + 0], p[k + 1], p[k + 2], p[k + 3]] := by
    apply List.ext_getElem
    · rw [List.length_take, List.length_drop]
      simp only [List.length_cons, List.length_nil]
      omega
    · intro i h1 h2
      rw [List.getElem_take, List.getElem_drop]
      match i, h2 with
      | 0, _ | 1, _ | 2, _ | 3, _ => rfl
  rw [e, storeu, storeu, q 0 (by decide), q 1 (by decide), q 2 (by decide), q 3 (by decide)]
  rfl

/-! ### Selection as a fold -/

/-- What all the loops do to the words of their accumulators: `i` counts the rows. -/
def pick (d : Nat) : Nat → List Words → Words → Words
  | _, [], acc => acc
  | i, r :: rs, acc => pick d (i + 1) rs (if i = d then List.zipWith (· ^^^ ·) acc r else acc)

theorem pick_eq (d : Nat) (rows : List Words) : ∀ (i : Nat) (acc : Words), pick d i rows acc =
    if d < i then acc else match rows[d - i]? with
      | some r => List.zipWith (· ^^^ ·) acc r
      | none => acc := by
  induction rows with
  | nil =>
    intro i acc
    rw [List.getElem?_nil]
    split <;> rfl
  | cons r rs ih =>
    intro i acc
    rw [pick, ih]
    by_cases h : d < i
    · rw [if_pos (by omega), if_neg (by omega), if_pos h]
    · by_cases e : i = d
      · subst e
        rw [if_pos (by omega), if_pos rfl, if_neg h, Nat.sub_self]
        rfl
      · rw [if_neg (by omega), if_neg e, if_neg h, show d - i = d - (i + 1) + 1 by omega, List.getElem?_cons_succ]

theorem zero_xor (r : Words) : List.zipWith (· ^^^ ·) (List.replicate r.length 0#64) r = r := by
  induction r with
  | nil => rfl
  | cons x r ih =>
    rw [List.length_cons, List.replicate_succ, List.zipWith_cons_cons, ih, BitVec.zero_xor]

theorem chunks_flatten {w : Nat} (hw : 0 < w) (rows : List Words) (h : ∀ r ∈ rows, r.length = w) : chunksExact w rows.flatten = rows := by
  induction rows with
  | nil => exact chunksExact_short hw
  | cons r rs ih =>
    rw [List.flatten_cons, chunksExact_block_append hw (h r List.mem_cons_self), ih fun r hr => h r (List.mem_cons_of_mem _ hr)]

/-- The entry asked for, or zeros. -/
theorem pick_rows {w : Nat} (rows : List Words) (h : ∀ r ∈ rows, r.length = w) (d i : Nat) : pick d i rows (List.replicate w 0#64) =
    if d < i then List.replicate w 0#64 else rows.getD (d - i) (List.replicate w 0#64) := by
  rw [pick_eq, List.getD_eq_getElem?_getD]
  split
  · rfl
  · cases e : rows[d - i]? with
    | none => rfl
    | some r =>
      have := zero_xor r
      rw [h r (List.mem_of_getElem? e)] at this
      exact this

theorem storeu_xor_append (a : M256) (p : Words) (k : Nat) (h : k + 4 ≤ p.length) (A : Words) :
    storeu (a ^^^ loadu p k) ++ List.zipWith (· ^^^ ·) A (p.drop (k + 4)) = List.zipWith (· ^^^ ·) (storeu a ++ A) (p.drop k) := by
  rw [storeu_xor a p k h]
  have e : p.drop k = (p.drop k).take 4 ++ p.drop (k + 4) := by
    rw [← List.drop_drop, List.take_append_drop]
  conv => rhs; rw [e]
  rw [List.zipWith_append]
  rw [List.length_take, List.length_drop]
  show 4 = _
  omega

theorem ofNat_eq_iff {w : Nat} (i : Nat) (hi : i < 2 ^ w) (d : BitVec w) : BitVec.ofNat w i = d ↔ i = d.toNat := by
  constructor
  · intro h
    rw [← h, BitVec.toNat_ofNat, Nat.mod_eq_of_lt hi]
  · intro h
    rw [h, BitVec.ofNat_toNat, BitVec.setWidth_eq]

/-! ### The loops -/

theorem row16Loop_eq (d : Word) (rows : List Words) (hr : ∀ r ∈ rows, r.length = 16) : ∀ (i : Nat) (acc : M256 × M256 × M256 × M256),
    i + rows.length ≤ 2 ^ 64 → ∀ res, res = row16Loop (qwords fun _ => d) (qwords fun _ => 1#64) (qwords fun _ => BitVec.ofNat 64 i) rows acc →
    storeu res.1 ++ (storeu res.2.1 ++ (storeu res.2.2.1 ++ (storeu res.2.2.2 ++ []))) =
      pick d.toNat i rows (storeu acc.1 ++ (storeu acc.2.1 ++ (storeu acc.2.2.1 ++ (storeu acc.2.2.2 ++ [])))) := by
  induction rows with
  | nil =>
    intro i acc hi res e
    rw [e]
    rfl
  | cons r rs ih =>
    intro i ⟨a0, a1, a2, a3⟩ hi res e
    have hl : r.length = 16 := hr r List.mem_cons_self
    rw [List.length_cons] at hi
    rw [row16Loop, cmpeq64_bcast, add64_bcast, show BitVec.ofNat 64 i + 1#64 = BitVec.ofNat 64 (i + 1) from BitVec.ofNat_add_ofNat _ _] at e
    simp only [BitVec.xor_comm (_ &&& _), xor_mask] at e
    rw [ih (fun r h => hr r (List.mem_cons_of_mem _ h)) (i + 1) _ (by omega) res e, pick]
    congr 1
    by_cases c : i = d.toNat
    · simp only [if_pos ((ofNat_eq_iff i (by omega) d).2 c), if_pos c]
      have e4 := storeu_xor_append a3 r 12 (by omega) []
      have e3 := storeu_xor_append a2 r 8 (by omega) (storeu a3 ++ [])
      have e2 := storeu_xor_append a1 r 4 (by omega) (storeu a2 ++ (storeu a3 ++ []))
      have e1 := storeu_xor_append a0 r 0 (by omega) (storeu a1 ++ (storeu a2 ++ (storeu a3 ++ [])))
      rw [List.zipWith_nil_left] at e4
      rw [List.drop_zero] at e1
      rw [e4, e3, e2, e1]
    · simp only [if_neg fun h => c ((ofNat_eq_iff i (by omega) d).1 h), if_neg c]

theorem affLoop_eq (d : BitVec 32) (rows : List Words) (hr : ∀ r ∈ rows, r.length = 8) : ∀ (i : Nat) (acc : M256 × M256),
    i + rows.length ≤ 2 ^ 32 → ∀ res, res = affLoop (dwords fun _ => d) (dwords fun _ => 1#32) (dwords fun _ => BitVec.ofNat 32 i) rows acc →
    storeu res.1 ++ (storeu res.2 ++ []) = pick d.toNat i rows (storeu acc.1 ++ (storeu acc.2 ++ [])) := by
  induction rows with
  | nil =>
    intro i acc hi res e
    rw [e]
    rfl
  | cons r rs ih =>
    intro i ⟨a0, a1⟩ hi res e
    have hl : r.length = 8 := hr r List.mem_cons_self
    rw [List.length_cons] at hi
    rw [affLoop, cmpeq32_bcast, add32_bcast, show BitVec.ofNat 32 i + 1#32 = BitVec.ofNat 32 (i + 1) from BitVec.ofNat_add_ofNat _ _] at e
    simp only [xor_mask] at e
    rw [ih (fun r h => hr r (List.mem_cons_of_mem _ h)) (i + 1) _ (by omega) res e, pick]
    congr 1
    by_cases c : i = d.toNat
    · simp only [if_pos ((ofNat_eq_iff i (by omega) d).2 c), if_pos c]
      have e2 := storeu_xor_append a1 r 4 (by omega) []
      have e1 := storeu_xor_append a0 r 0 (by omega) (storeu a1 ++ [])
      rw [List.zipWith_nil_left] at e2
      rw [List.drop_zero] at e1
      rw [e2, e1]
    · simp only [if_neg fun h => c ((ofNat_eq_iff i (by omega) d).1 h), if_neg c]

theorem jacLoop_eq (d : BitVec 32) (rows : List Words) (hr : ∀ r ∈ rows, r.length = 12) : ∀ (i : Nat) (acc : M256 × M256 × M256),
    i + rows.length ≤ 2 ^ 32 → ∀ res, res = jacLoop (dwords fun _ => d) (dwords fun _ => 1#32) (dwords fun _ => BitVec.ofNat 32 i) rows acc →
    storeu res.1 ++ (storeu res.2.1 ++ (storeu res.2.2 ++ [])) =
      pick d.toNat i rows (storeu acc.1 ++ (storeu acc.2.1 ++ (storeu acc.2.2 ++ []))) := by
  induction rows with
  | nil =>
    intro i acc hi res e
    rw [e]
    rfl
  | cons r rs ih =>
    intro i ⟨a0, a1, a2⟩ hi res e
    have hl : r.length = 12 := hr r List.mem_cons_self
    rw [List.length_cons] at hi
    rw [jacLoop, cmpeq32_bcast, add32_bcast, show BitVec.ofNat 32 i + 1#32 = BitVec.ofNat 32 (i + 1) from BitVec.ofNat_add_ofNat _ _] at e
    simp only [xor_mask] at e
    rw [ih (fun r h => hr r (List.mem_cons_of_mem _ h)) (i + 1) _ (by omega) res e, pick]
    congr 1
    by_cases c : i = d.toNat
    · simp only [if_pos ((ofNat_eq_iff i (by omega) d).2 c), if_pos c]
      have e3 := storeu_xor_append a2 r 8 (by omega) []
      have e2 := storeu_xor_append a1 r 4 (by omega) (storeu a2 ++ [])
      have e1 := storeu_xor_append a0 r 0 (by omega) (storeu a1 ++ (storeu a2 ++ []))
      rw [List.zipWith_nil_left] at e3
      rw [List.drop_zero] at e1
      rw [e3, e2, e1]
    · simp only [if_neg fun h => c ((ofNat_eq_iff i (by omega) d).1 h), if_neg c]

/-- The last two words of a point of P-384, selected by way of a vector whose other half is zero. -/
theorem storeu_xor_tail (a : M256) (p : Words) (h : p.length = 18) : (storeu (a ^^^ loadu ((p.drop 16).take 2 ++ [0#64, 0#64]) 0)).take 2 =
    List.zipWith (· ^^^ ·) ((storeu a).take 2) (p.drop 16) := by
  have hl : (p.drop 16).length = 2 := by rw [List.length_drop]; omega
  rw [List.take_of_length_le (l := p.drop 16) (by omega), storeu_xor _ _ _ (by rw [List.length_append, hl]; decide), List.drop_zero, List.take_zipWith,
    List.take_take, show min 2 4 = 2 from rfl, List.take_left' hl]

theorem jac384Loop_eq (d : BitVec 32) (rows : List Words) (hr : ∀ r ∈ rows, r.length = 18) : ∀ (i : Nat) (acc : M256 × M256 × M256 × M256 × M256),
    i + rows.length ≤ 2 ^ 32 → ∀ res, res = jac384Loop (dwords fun _ => d) (dwords fun _ => 1#32) (dwords fun _ => BitVec.ofNat 32 i) rows acc →
    storeu res.1 ++ (storeu res.2.1 ++ (storeu res.2.2.1 ++ (storeu res.2.2.2.1 ++ (storeu res.2.2.2.2).take 2))) =
      pick d.toNat i rows (storeu acc.1 ++ (storeu acc.2.1 ++ (storeu acc.2.2.1 ++ (storeu acc.2.2.2.1 ++ (storeu acc.2.2.2.2).take 2)))) := by
  induction rows with
  | nil =>
    intro i acc hi res e
    rw [e]
    rfl
  | cons r rs ih =>
    intro i ⟨a0, a1, a2, a3, a4⟩ hi res e
    have hl : r.length = 18 := hr r List.mem_cons_self
    rw [List.length_cons] at hi
    rw [jac384Loop, cmpeq32_bcast, add32_bcast, show BitVec.ofNat 32 i + 1#32 = BitVec.ofNat 32 (i + 1) from BitVec.ofNat_add_ofNat _ _] at e
    simp only [xor_mask] at e
    rw [ih (fun r h => hr r (List.mem_cons_of_mem _ h)) (i + 1) _ (by omega) res e, pick]
    congr 1
    by_cases c : i = d.toNat
    · simp only [if_pos ((ofNat_eq_iff i (by omega) d).2 c), if_pos c]
      have e5 := storeu_xor_tail a4 r hl
      have e4 := storeu_xor_append a3 r 12 (by omega) ((storeu a4).take 2)
      have e3 := storeu_xor_append a2 r 8 (by omega) (storeu a3 ++ (storeu a4).take 2)
      have e2 := storeu_xor_append a1 r 4 (by omega) (storeu a2 ++ (storeu a3 ++ (storeu a4).take 2))
      have e1 := storeu_xor_append a0 r 0 (by omega) (storeu a1 ++ (storeu a2 ++ (storeu a3 ++ (storeu a4).take 2)))
      rw [List.drop_zero] at e1
      rw [e5, e4, e3, e2, e1]
    · simp only [if_neg fun h => c ((ofNat_eq_iff i (by omega) d).1 h), if_neg c]

/-! The inner loop of the routine for widths divisible by eight. -/

theorem storeu_loadu (p : Words) (k : Nat) (h : k + 4 ≤ p.length) : storeu (loadu p k) = (p.drop k).take 4 := by
  have := storeu_xor 0#256 p k h
  rw [BitVec.zero_xor] at this
  rw [this]
  have hl : ((p.drop k).take 4).length = 4 := by rw [List.length_take, List.length_drop]; omega
  have z := zero_xor ((p.drop k).take 4)
  rw [hl] at z
  exact z

theorem row8Inner_eq (c : Prop) [Decidable c] (row : Words) (zs : List Words) : ∀ (i : Nat), (∀ zz ∈ zs, zz.length = 8) →
    i * 8 + zs.length * 8 ≤ row.length →
    row8Inner (if c then BitVec.allOnes 256 else 0#256) row i zs =
      if c then List.zipWith (· ^^^ ·) zs.flatten (row.drop (i * 8)) else zs.flatten := by
  induction zs with
  | nil =>
    intro i _ _
    split <;> rfl
  | cons zz zs ih =>
    intro i hz hl
    rw [List.length_cons] at hl
    have h8 : zz.length = 8 := hz zz List.mem_cons_self
    have s0 : storeu (loadu zz 0) ++ storeu (loadu zz 4) = zz := by
      rw [storeu_loadu _ _ (by omega), storeu_loadu _ _ (by omega), List.drop_zero,
        List.take_of_length_le (l := zz.drop 4) (by rw [List.length_drop]; omega), List.take_append_drop]
    rw [row8Inner, xor_mask, xor_mask, ih (i + 1) (fun z h => hz z (List.mem_cons_of_mem _ h)) (by omega)]
    by_cases h : c
    · simp only [if_pos h]
      rw [List.append_assoc, show (i + 1) * 8 = i * 8 + 4 + 4 by omega, storeu_xor_append _ _ _ (by omega), storeu_xor_append _ _ _ (by omega),
        ← List.append_assoc, s0, List.flatten_cons]
    · simp only [if_neg h]
      rw [s0, List.flatten_cons]

theorem row8Loop_eq (d : Word) {w : Nat} (hw : w % 8 = 0) (rows : List Words) (hr : ∀ r ∈ rows, r.length = w) : ∀ (i : Nat) (z : Words),
    z.length = w → i + rows.length ≤ 2 ^ 64 →
    row8Loop (qwords fun _ => d) (qwords fun _ => 1#64) (qwords fun _ => BitVec.ofNat 64 i) rows z = pick d.toNat i rows z := by
  induction rows with
  | nil =>
    intro i z _ _
    rfl
  | cons r rs ih =>
    intro i z hz hi
    have hl : r.length = w := hr r List.mem_cons_self
    have hc := length_chunksExact (n := 8) (by decide) z
    have hrem : chunksRem 8 z = [] := List.eq_nil_of_length_eq_zero (by rw [chunksRem_length]; omega)
    have hf := flatten_chunksExact (n := 8) (by decide) z
    rw [hrem, List.append_nil] at hf
    rw [List.length_cons] at hi
    rw [row8Loop, cmpeq64_bcast, add64_bcast, show BitVec.ofNat 64 i + 1#64 = BitVec.ofNat 64 (i + 1) from BitVec.ofNat_add_ofNat _ _,
      row8Inner_eq _ _ _ _ (fun zz h => chunksExact_length h) (by omega), hf, hrem, List.append_nil, Nat.zero_mul, List.drop_zero, pick]
    by_cases c : i = d.toNat
    · simp only [if_pos ((ofNat_eq_iff i (by omega) d).2 c), if_pos c]
      exact ih (fun r h => hr r (List.mem_cons_of_mem _ h)) (i + 1) _ (by rw [List.length_zipWith]; omega) (by omega)
    · simp only [if_neg fun h => c ((ofNat_eq_iff i (by omega) d).1 h), if_neg c]
      exact ih (fun r h => hr r (List.mem_cons_of_mem _ h)) (i + 1) _ hz (by omega)

/-! ### The routines -/

theorem zeros_storeu : storeu 0#256 = List.replicate 4 0#64 := by decide

theorem copyRow16_eq (rows : List Words) (hr : ∀ r ∈ rows, r.length = 16) (h : rows.length < 2 ^ 64) (d : Word) :
    copyRow16 rows.flatten d = rows.getD d.toNat (List.replicate 16 0#64) := by
  have l := row16Loop_eq d rows hr 0 (0#256, 0#256, 0#256, 0#256) (by omega) _ rfl
  have e := pick_rows rows hr d.toNat 0
  rw [if_neg (by omega), Nat.sub_zero] at e
  rw [← e]
  unfold copyRow16
  rw [setr64, setr64, setr64, chunks_flatten (by decide) rows hr]
  simp only [List.append_assoc]
  simp only [zeros_storeu, List.append_nil] at l
  exact l

theorem copyRow8n_eq {w : Nat} (hw : 0 < w) (h8 : w % 8 = 0) (z : Words) (hz : z.length = w) (rows : List Words) (hr : ∀ r ∈ rows, r.length = w)
    (h : rows.length < 2 ^ 64) (d : Word) : copyRow8n z rows.flatten w d = rows.getD d.toNat (List.replicate w 0#64) := by
  have e := pick_rows rows hr d.toNat 0
  rw [if_neg (by omega), Nat.sub_zero] at e
  rw [← e]
  unfold copyRow8n
  rw [setr64, setr64, setr64, hz, chunks_flatten hw rows hr]
  exact row8Loop_eq d h8 _ hr 0 _ List.length_replicate (by omega)

theorem aff_eq (rows : List Words) (hr : ∀ r ∈ rows, r.length = 8) (h : rows.length < 2 ^ 32) (k : BitVec 8) :
    selectAffP256 rows.flatten k = if k.toNat < 1 then List.replicate 8 0#64 else rows.getD (k.toNat - 1) (List.replicate 8 0#64) := by
  have l := affLoop_eq (k.setWidth 32) rows hr 1 (0#256, 0#256) (by omega) _ rfl
  have hk : (k.setWidth 32).toNat = k.toNat := by rw [BitVec.toNat_setWidth]; have := k.isLt; omega
  rw [← pick_rows rows hr k.toNat 1]
  unfold selectAffP256
  rw [setr32, setr32, chunks_flatten (by decide) rows hr]
  simp only [List.append_assoc]
  simp only [zeros_storeu, List.append_nil, hk] at l
  exact l

theorem jac_eq (rows : List Words) (hr : ∀ r ∈ rows, r.length = 12) (h : rows.length < 2 ^ 32) (k : BitVec 8) :
    selectJacP256 rows.flatten k = if k.toNat < 1 then List.replicate 12 0#64 else rows.getD (k.toNat - 1) (List.replicate 12 0#64) := by
  have l := jacLoop_eq (k.setWidth 32) rows hr 1 (0#256, 0#256, 0#256) (by omega) _ rfl
  have hk : (k.setWidth 32).toNat = k.toNat := by rw [BitVec.toNat_setWidth]; have := k.isLt; omega
  rw [← pick_rows rows hr k.toNat 1]
  unfold selectJacP256
  rw [setr32, setr32, chunks_flatten (by decide) rows hr]
  simp only [List.append_assoc]
  simp only [zeros_storeu, List.append_nil, hk] at l
  exact l

theorem jac384_eq (rows : List Words) (hr : ∀ r ∈ rows, r.length = 18) (h : rows.length < 2 ^ 32) (k : BitVec 8) :
    selectJacP384 rows.flatten k = if k.toNat < 1 then List.replicate 18 0#64 else rows.getD (k.toNat - 1) (List.replicate 18 0#64) := by
  have l := jac384Loop_eq (k.setWidth 32) rows hr 1 (0#256, 0#256, 0#256, 0#256, 0#256) (by omega) _ rfl
  have hk : (k.setWidth 32).toNat = k.toNat := by rw [BitVec.toNat_setWidth]; have := k.isLt; omega
  rw [← pick_rows rows hr k.toNat 1]
  unfold selectJacP384
  rw [setr32, setr32, chunks_flatten (by decide) rows hr]
  simp only [List.append_assoc]
  simp only [zeros_storeu, List.append_nil, hk] at l
  exact l

end Verif.SelectX86
