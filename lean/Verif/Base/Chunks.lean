import Verif.Base.Bytes

/-!
`slice::chunks_exact`, its `remainder`, and `slice::chunks`, with the facts used about them.
-/
namespace Verif

variable {α : Type}

/-- `l.chunks_exact(n)`: the consecutive chunks of exactly `n` elements. -/
def chunksExact (n : Nat) (l : List α) : List (List α) :=
  if h : 0 < n ∧ n ≤ l.length then l.take n :: chunksExact n (l.drop n) else []
termination_by l.length
decreasing_by simp only [List.length_drop]; omega

/-- `l.chunks_exact(n).remainder()`. -/
def chunksRem (n : Nat) (l : List α) : List α := l.drop (n * (l.length / n))

/-- `l.chunks(n)`: as `chunks_exact`, with a shorter last chunk if elements remain. -/
def chunks (n : Nat) (l : List α) : List (List α) :=
  if h : 0 < n ∧ l ≠ [] then l.take n :: chunks n (l.drop n) else []
termination_by l.length
decreasing_by
  obtain ⟨h1, h2⟩ := h
  have := List.length_pos_iff.2 h2
  simp only [List.length_drop]; omega

theorem chunksExact_short {n : Nat} {l : List α} (h : l.length < n) : chunksExact n l = [] := by
  rw [chunksExact, dif_neg (by omega)]

theorem chunksExact_cons {n : Nat} {l : List α} (hn : 0 < n) (h : n ≤ l.length) :
    chunksExact n l = l.take n :: chunksExact n (l.drop n) := by
  rw [chunksExact, dif_pos ⟨hn, h⟩]

theorem chunksExact_block_append {n : Nat} {a b : List α} (hn : 0 < n) (h : a.length = n) :
    chunksExact n (a ++ b) = a :: chunksExact n b := by
  rw [chunksExact_cons hn (by simp; omega), List.take_left' h, List.drop_left' h]

theorem chunksExact_single {n : Nat} {a : List α} (hn : 0 < n) (h : a.length = n) :
    chunksExact n a = [a] := by
  have := chunksExact_block_append (b := []) hn h
  rw [List.append_nil] at this
  rw [this, chunksExact_short (by simpa using hn)]

theorem chunksExact_append {n : Nat} {a b : List α} (hn : 0 < n) (h : n ∣ a.length) :
    chunksExact n (a ++ b) = chunksExact n a ++ chunksExact n b := by
  by_cases ha : a.length = 0
  · have : a = [] := List.eq_nil_of_length_eq_zero ha
    subst this
    rw [chunksExact_short (l := []) (by simpa using hn)]; simp
  · have hge : n ≤ a.length := Nat.le_of_dvd (by omega) h
    have hd : n ∣ (a.drop n).length := by
      rw [List.length_drop]; exact Nat.dvd_sub h (Nat.dvd_refl n)
    have ih := chunksExact_append (b := b) hn hd
    rw [chunksExact_cons hn hge, chunksExact_cons hn (by simp; omega),
      List.take_append_of_le_length hge, List.drop_append_of_le_length hge, ih, List.cons_append]
termination_by a.length
decreasing_by simp only [List.length_drop]; omega

theorem chunksExact_append_short {n : Nat} {a b : List α} (hn : 0 < n) (h : n ∣ a.length)
    (hb : b.length < n) : chunksExact n (a ++ b) = chunksExact n a := by
  rw [chunksExact_append hn h, chunksExact_short hb, List.append_nil]

theorem chunksExact_length {n : Nat} {l c : List α} (hc : c ∈ chunksExact n l) : c.length = n := by
  by_cases h : 0 < n ∧ n ≤ l.length
  · rw [chunksExact, dif_pos h] at hc
    rcases List.mem_cons.1 hc with h' | h'
    · subst h'; simp; omega
    · exact chunksExact_length h'
  · rw [chunksExact, dif_neg h] at hc; cases hc
termination_by l.length
decreasing_by simp only [List.length_drop]; omega

theorem length_chunksExact {n : Nat} (hn : 0 < n) (l : List α) :
    (chunksExact n l).length = l.length / n := by
  by_cases h : n ≤ l.length
  · rw [chunksExact_cons hn h, List.length_cons, length_chunksExact hn, List.length_drop]
    rw [Nat.div_eq_sub_div hn h]
  · rw [chunksExact_short (by omega), List.length_nil, Nat.div_eq_of_lt (by omega)]
termination_by l.length
decreasing_by simp only [List.length_drop]; omega

theorem chunksRem_length {n : Nat} (l : List α) : (chunksRem n l).length = l.length % n := by
  rw [chunksRem, List.length_drop]
  have := Nat.div_add_mod l.length n
  omega

theorem chunksExact_take {n : Nat} (hn : 0 < n) (l : List α) :
    chunksExact n (l.take (n * (l.length / n))) = chunksExact n l := by
  have hm : n * (l.length / n) ≤ l.length := Nat.mul_div_le _ _
  conv => rhs; rw [← List.take_append_drop (n * (l.length / n)) l]
  rw [chunksExact_append_short hn]
  · rw [List.length_take, Nat.min_eq_left hm]; exact Nat.dvd_mul_right _ _
  · have := chunksRem_length (n := n) l
    rw [chunksRem] at this
    rw [this]; exact Nat.mod_lt _ hn

theorem flatten_chunksExact {n : Nat} (hn : 0 < n) (l : List α) :
    (chunksExact n l).flatten ++ chunksRem n l = l := by
  by_cases h : n ≤ l.length
  · rw [chunksExact_cons hn h, List.flatten_cons, List.append_assoc]
    have := flatten_chunksExact hn (l.drop n)
    have e : chunksRem n l = chunksRem n (l.drop n) := by
      rw [chunksRem, chunksRem, List.drop_drop, List.length_drop]
      rw [Nat.div_eq_sub_div hn h, Nat.mul_add, Nat.mul_one, Nat.add_comm]
    rw [e, this, List.take_append_drop]
  · rw [chunksExact_short (by omega), chunksRem, Nat.div_eq_of_lt (by omega)]; simp
termination_by l.length
decreasing_by simp only [List.length_drop]; omega

theorem chunks_nil {n : Nat} : chunks n ([] : List α) = [] := by
  rw [chunks, dif_neg (by simp)]

theorem chunks_cons {n : Nat} {l : List α} (hn : 0 < n) (h : l ≠ []) :
    chunks n l = l.take n :: chunks n (l.drop n) := by
  rw [chunks, dif_pos ⟨hn, h⟩]

theorem flatten_chunks {n : Nat} (hn : 0 < n) (l : List α) : (chunks n l).flatten = l := by
  by_cases h : l = []
  · subst h; rw [chunks_nil]; rfl
  · have := List.length_pos_iff.2 h
    rw [chunks_cons hn h, List.flatten_cons, flatten_chunks hn, List.take_append_drop]
termination_by l.length
decreasing_by simp only [List.length_drop]; omega

theorem chunks_append {n : Nat} {a b : List α} (hn : 0 < n) (h : n ∣ a.length) :
    chunks n (a ++ b) = chunks n a ++ chunks n b := by
  by_cases ha : a = []
  · subst ha; rw [chunks_nil]; simp
  · have hp := List.length_pos_iff.2 ha
    have hge : n ≤ a.length := Nat.le_of_dvd hp h
    have hd : n ∣ (a.drop n).length := by
      rw [List.length_drop]; exact Nat.dvd_sub h (Nat.dvd_refl n)
    rw [chunks_cons hn ha, chunks_cons hn (by simp [ha]),
      List.take_append_of_le_length hge, List.drop_append_of_le_length hge, chunks_append hn hd,
      List.cons_append]
termination_by a.length
decreasing_by simp only [List.length_drop]; omega

theorem chunks_eq {n : Nat} (hn : 0 < n) (l : List α) :
    chunks n l = chunksExact n l ++ (if chunksRem n l = [] then [] else [chunksRem n l]) := by
  conv => lhs; rw [← flatten_chunksExact hn l]
  have hrem : (chunksRem n l).length < n := by rw [chunksRem_length]; exact Nat.mod_lt _ hn
  have key : ∀ (cs : List (List α)) (r : List α), (∀ c ∈ cs, c.length = n) → r.length < n →
      chunks n (cs.flatten ++ r) = cs ++ (if r = [] then [] else [r]) := by
    intro cs r hcs hr
    induction cs with
    | nil =>
      by_cases h : r = []
      · subst h; simp [chunks_nil]
      · simp only [List.flatten_nil, List.nil_append, if_neg h]
        rw [chunks_cons hn h, List.take_of_length_le (by omega), List.drop_of_length_le (by omega),
          chunks_nil]
    | cons c cs ih =>
      have hc := hcs c (by simp)
      rw [List.flatten_cons, List.append_assoc, chunks_append hn (by rw [hc]; exact Nat.dvd_refl n),
        ih (fun x hx => hcs x (by simp [hx]))]
      have hne : c ≠ [] := by intro h; subst h; simp at hc; omega
      rw [chunks_cons hn hne, List.take_of_length_le (by omega), List.drop_of_length_le (by omega),
        chunks_nil]; rfl
  exact key _ _ (fun c hc => chunksExact_length hc) hrem

theorem chunks_mem_length {n : Nat} (hn : 0 < n) {l c : List α} (hc : c ∈ chunks n l) :
    0 < c.length ∧ c.length ≤ n := by
  rw [chunks_eq hn] at hc
  rcases List.mem_append.1 hc with h | h
  · rw [chunksExact_length h]; omega
  · by_cases e : chunksRem n l = []
    · simp [e] at h
    · rw [if_neg e] at h
      simp only [List.mem_singleton] at h
      subst h
      have := Nat.mod_lt l.length hn
      have h2 := chunksRem_length (n := n) l
      have := List.length_pos_iff.2 e
      omega

end Verif
