import Verif.Proof.X86.SymCall

/-! From the verdict of the symbolic executor to statements about numbers. -/
namespace Verif.X86.Sym
open Verif Verif.X86

theorem vw_lt {W : Nat → Nat} (h : ∀ i, W i < 2 ^ 64) : ∀ l : List Nat, vw W l < 2 ^ (64 * l.length)
  | [] => by simp [vw]
  | i :: l => by
    have h1 := h i
    have h2 := vw_lt h l
    rw [vw, List.length_cons, pow_step]
    unfold two64
    have : 2 ^ 64 * (vw W l + 1) ≤ 2 ^ 64 * 2 ^ (64 * l.length) := Nat.mul_le_mul_left _ h2
    omega

theorem vw_words {W : Nat → Nat} (h : ∀ i, W i < 2 ^ 64) : ∀ l : List Nat,
    (l.map fun i => BitVec.ofNat 64 (W i)) = toWords l.length (vw W l)
  | [] => rfl
  | i :: l => by
    have h1 := h i
    rw [List.map_cons, List.length_cons, vw, toWords, vw_words h l]
    unfold two64
    refine congr (congrArg _ ?_) (congrArg _ ?_)
    · apply BitVec.eq_of_toNat_eq
      simp only [BitVec.toNat_ofNat]
      omega
    · omega

theorem vw_val {W : Nat → Nat} : ∀ (x : Words) (k : Nat), (∀ i (hi : i < x.length), W (k + i) = x[i].toNat) →
    vw W (List.range' k x.length) = val x
  | [], _, _ => rfl
  | w :: x, k, h => by
    rw [List.length_cons, List.range'_succ, vw, val, vw_val x (k + 1) fun i hi => by
      rw [show k + 1 + i = k + (i + 1) by omega]
      exact h (i + 1) (by simpa using hi)]
    have := h 0 (by simp)
    simp only [Nat.add_zero, List.getElem_cons_zero] at this
    rw [this]
    rfl

theorem block_out (s : St) (r : Reg) (k : Nat) : blockOf s ⟨r, k, 0, true⟩ none = outBlock (s.get r) k := by
  simp [blockOf, outBlock, Arg.at']
theorem block_in (s : St) (r : Reg) (x : Words) : blockOf s ⟨r, x.length, 0, false⟩ (some x) = inBlock (s.get r) x := by
  simp [blockOf, inBlock, Arg.at']

theorem Ready.stack0 {s : St} {bs : List Block} (h : Ready s bs) : Ready s (stackBlock s 0 :: bs) := by
  refine ⟨fun b hb => ?_, List.pairwise_cons.mpr ⟨fun b _ _ i hi => ?_, h.apart⟩⟩
  · rcases List.mem_cons.mp hb with rfl | hb
    · exact ⟨fun _ i hi => absurd hi (Nat.not_lt_zero i), (by intro ws h; cases h), (by intro ws h; cases h)⟩
    · exact h.ok b hb
  · exact absurd hi (Nat.not_lt_zero i)

theorem Untouched.stack0 {s s' : St} {bs : List Block} (h : Untouched (stackBlock s 0 :: bs) s s') : Untouched bs s s' := by
  intro a ha
  refine h a fun b hb hw i hi => ?_
  rcases List.mem_cons.mp hb with rfl | hb
  · exact absurd hi (Nat.not_lt_zero i)
  · exact ha b hb hw i hi

/-- A routine with one input. -/
theorem call1 {n k m : Nat} {hs : List (Nat × Hint)} {P : Prog} {cs : List Claim} {s : St}
    (hv : verify [⟨.rsp, n, n, true⟩, ⟨.rdi, k, 0, true⟩, ⟨.rsi, m, 0, false⟩] [2] hs P cs = true)
    {x : Words} (hx : x.length = m) (h : Ready s [stackBlock s n, outBlock s.rdi k, inBlock s.rsi x])
    (hn : n < 10000 := by decide) (hk : k < 10000 := by decide) (hm : m < 10000 := by decide) :
    ∃ s' W, run P (P.length + 1) 0 s = some s' ∧ Untouched [stackBlock s n, outBlock s.rdi k, inBlock s.rsi x] s s' ∧
      (∀ i, W i < 2 ^ 64) ∧ vw W (List.range' 0 m) = val x ∧
      ∀ c ∈ cs, c.Holds s s' [⟨.rsp, n, n, true⟩, ⟨.rdi, k, 0, true⟩, ⟨.rsi, m, 0, false⟩] W := by
  subst hx
  have e : [stackBlock s n, outBlock s.rdi k, inBlock s.rsi x] =
      (List.zip [⟨.rsp, n, n, true⟩, ⟨.rdi, k, 0, true⟩, ⟨.rsi, x.length, 0, false⟩] [none, none, some x]).map
        fun x => blockOf s x.1 x.2 := by
    simp only [List.zip_cons_cons, List.zip_nil_left, List.map_cons, List.map_nil, block_out, block_in]
    rfl
  rw [e] at h ⊢
  have hg : given [none, none, some x] [2] = x := by simp [given]
  obtain ⟨s', W, h1, h2, h3, h4, h5⟩ := verify_sound hv rfl (by
      intro a ha
      simp only [List.mem_cons, List.not_mem_nil, or_false] at ha
      rcases ha with rfl | rfl | rfl <;> dsimp only <;> omega)
    (by
      intro b hb
      simp only [List.mem_cons, List.not_mem_nil, or_false] at hb
      subst hb
      exact ⟨x, rfl⟩) (by rw [hg]; omega) h
  refine ⟨s', W, h1, h2, h3, vw_val x 0 fun i hi => ?_, h5⟩
  rw [Nat.zero_add, h4 i (by rw [hg]; exact hi)]
  simp only [hg]

/-- A routine with two inputs. -/
theorem call2 {n k m l : Nat} {hs : List (Nat × Hint)} {P : Prog} {cs : List Claim} {s : St}
    (hv : verify [⟨.rsp, n, n, true⟩, ⟨.rdi, k, 0, true⟩, ⟨.rsi, m, 0, false⟩, ⟨.rdx, l, 0, false⟩] [2, 3] hs P cs = true)
    {x y : Words} (hx : x.length = m) (hy : y.length = l)
    (h : Ready s [stackBlock s n, outBlock s.rdi k, inBlock s.rsi x, inBlock s.rdx y])
    (hn : n < 10000 := by decide) (hk : k < 10000 := by decide) (hm : m < 10000 := by decide) (hl : l < 10000 := by decide) :
    ∃ s' W, run P (P.length + 1) 0 s = some s' ∧
      Untouched [stackBlock s n, outBlock s.rdi k, inBlock s.rsi x, inBlock s.rdx y] s s' ∧
      (∀ i, W i < 2 ^ 64) ∧ vw W (List.range' 0 m) = val x ∧ vw W (List.range' m l) = val y ∧
      ∀ c ∈ cs, c.Holds s s' [⟨.rsp, n, n, true⟩, ⟨.rdi, k, 0, true⟩, ⟨.rsi, m, 0, false⟩, ⟨.rdx, l, 0, false⟩] W := by
  subst hx hy
  have e : [stackBlock s n, outBlock s.rdi k, inBlock s.rsi x, inBlock s.rdx y] =
      (List.zip [⟨.rsp, n, n, true⟩, ⟨.rdi, k, 0, true⟩, ⟨.rsi, x.length, 0, false⟩, ⟨.rdx, y.length, 0, false⟩]
        [none, none, some x, some y]).map fun x => blockOf s x.1 x.2 := by
    simp only [List.zip_cons_cons, List.zip_nil_left, List.map_cons, List.map_nil, block_out, block_in]
    rfl
  rw [e] at h ⊢
  have hg : given [none, none, some x, some y] [2, 3] = x ++ y := by simp [given]
  obtain ⟨s', W, h1, h2, h3, h4, h5⟩ := verify_sound hv rfl (by
      intro a ha
      simp only [List.mem_cons, List.not_mem_nil, or_false] at ha
      rcases ha with rfl | rfl | rfl | rfl <;> dsimp only <;> omega)
    (by
      intro b hb
      simp only [List.mem_cons, List.not_mem_nil, or_false] at hb
      rcases hb with rfl | rfl
      · exact ⟨x, rfl⟩
      · exact ⟨y, rfl⟩) (by rw [hg, List.length_append]; omega) h
  refine ⟨s', W, h1, h2, h3, vw_val x 0 fun i hi => ?_, vw_val y x.length fun i hi => ?_, h5⟩
  · rw [Nat.zero_add, h4 i (by rw [hg, List.length_append]; omega)]
    simp only [hg]
    rw [List.getElem_append_left hi]
  · rw [h4 (x.length + i) (by rw [hg, List.length_append]; omega)]
    simp only [hg]
    rw [List.getElem_append_right (by omega)]
    simp

/-- Where the output is. -/
theorem out_holds {W : Nat → Nat} (hb : ∀ i, W i < 2 ^ 64) {s s' : St} {as : List Arg} {l : List Nat} {n : Nat}
    {r : Reg} {b k : Nat} {w : Bool} (ha : as[b]? = some ⟨r, k, 0, w⟩) (h : (Claim.out b l).Holds s s' as W) (hl : l.length = n)
    {z : Nat} (hw : vw W l = z) : Holds s'.mem (s.get r) (toWords n z) := by
  have := h _ ha
  rw [vw_words hb, hw, hl] at this
  simpa [Arg.at'] using this

theorem vw_one (W : Nat → Nat) (i : Nat) : vw W [i] = W i := by simp [vw]

theorem and_ones {n : Nat} (h : n < 18446744073709551616) : 18446744073709551615 &&& n = n := by
  rw [Nat.and_comm]
  exact (Nat.and_two_pow_sub_one_eq_mod n 64).trans (Nat.mod_eq_of_lt h)

/-- A step of a reduction modulo the prime of P-384: from the lowest word `d` the factor `w` is computed as `(2^32 + 1) d`, with
carries `q` and `c` lost, and multiplied by `0xffffffff00000001`, with low word `l` and high word `h`. -/
structure Step where
  w : Nat
  d : Nat
  q : Nat
  c : Nat
  h : Nat
  l : Nat

def Step.claims (t : Step) : List Claim := [
  .rel [.lin 1 [t.w], .lin (-0x100000001) [t.d], .lin 0x10000000000000000 [t.q], .lin 0x10000000000000000 [t.c]],
  .rel [.lin 0xffffffff00000001 [t.w], .lin (-0x10000000000000000) [t.h], .lin (-1) [t.l]]]

/-- The low word of the product is `d`. -/
theorem Step.ok {W : Nat → Nat} (hb : ∀ i, W i < 2 ^ 64) {s s' : St} {as : List Arg} {t : Step}
    (h : ∀ c ∈ t.claims, c.Holds s s' as W) : W t.l = W t.d := by
  simp only [Step.claims, List.forall_mem_cons, Claim.Holds, relValue, Term.value, vw_one] at h
  obtain ⟨r1, r2, -⟩ := h
  have h1 := hb t.l
  have h2 := hb t.d
  omega

theorem steps_ok {W : Nat → Nat} (hb : ∀ i, W i < 2 ^ 64) {s s' : St} {as : List Arg} : ∀ {ts : List Step},
    (∀ c ∈ ts.flatMap Step.claims, c.Holds s s' as W) → vw W (ts.map Step.l) = vw W (ts.map Step.d)
  | [], _ => rfl
  | t :: ts, h => by
    simp only [List.map_cons, vw]
    rw [Step.ok hb fun c hc => h c (List.mem_flatMap.mpr ⟨t, List.mem_cons_self .., hc⟩),
      steps_ok hb fun c hc => h c (by
        obtain ⟨u, hu, hc⟩ := List.mem_flatMap.mp hc
        exact List.mem_flatMap.mpr ⟨u, List.mem_cons_of_mem _ hu, hc⟩)]

end Verif.X86.Sym
