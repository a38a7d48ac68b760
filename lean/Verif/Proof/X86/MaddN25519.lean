import Verif.Proof.X86.SymN25519
import Verif.Proof.X86.EmMem
import Verif.Proof.X86.ModN25519

/-!
`bignum_madd_n25519`: the product of two numbers of four words and a third, modulo the order of curve25519.
-/
namespace Verif.X86.Sym
open Verif Verif.X86 R25519

/-- The part before the reduction. -/
theorem maddProd_ok {t : St} {x y : Words} (hx : x.length = 4) (hy : y.length = 4)
    (h : Ready t [⟨t.rsi, 4, false, some x⟩, ⟨t.rcx, 4, false, some y⟩]) :
    ∃ t', effs maddProd t = some t' ∧ t'.mem = t.mem ∧ t'.wr = t.wr ∧ (t'.rdi = t.rdi ∧ t'.rsp = t.rsp) ∧
      val [t.r8, t.r9, t.r10, t.r11] + val x * val y = num8 t' := by
  have e0 : t.rsi = (⟨.rsi, 4, 0, false⟩ : Arg).at' t := by simp [Arg.at']; rfl
  have e1 : t.rcx = (⟨.rcx, 4, 0, false⟩ : Arg).at' t := by simp [Arg.at']; rfl
  have hg : given [some x, some y] [0, 1] = x ++ y := by simp [given]
  obtain ⟨t', W, h1, h2, h3, h4, h5, h6⟩ := verifyR_effs Madd.verified (ws := [some x, some y]) rfl (by
      intro a ha
      simp only [List.mem_cons, List.not_mem_nil, or_false] at ha
      rcases ha with rfl | rfl <;> dsimp only <;> omega)
    (by
      intro b hb
      simp only [List.mem_cons, List.not_mem_nil, or_false] at hb
      rcases hb with rfl | rfl
      · exact ⟨x, rfl⟩
      · exact ⟨y, rfl⟩) (by rw [hg, List.length_append]; omega) (by decide) (s := t) (by
      simp only [List.zip_cons_cons, List.zip_nil_left, List.map_cons, List.map_nil, blockOf, ← e0, ← e1]
      exact h)
  simp only [List.zip_cons_cons, List.zip_nil_left, List.map_cons, List.map_nil, blockOf, ← e0, ← e1] at h2
  rw [hg] at h5
  have hX : vw W Madd.X = val x := by
    rw [← vw_val (W := W) x 0 fun i hi => ?_, hx]
    · rfl
    · rw [Nat.zero_add, h5 i (by simp; omega)]
      rw [List.getElem_append_left (by simp; omega), List.getElem_append_left hi]
  have hY : vw W Madd.Y = val y := by
    rw [← vw_val (W := W) y 4 fun i hi => ?_, hy]
    · rfl
    · rw [h5 (4 + i) (by simp; omega)]
      rw [List.getElem_append_left (by simp; omega), List.getElem_append_right (by omega)]
      simp [hx]
  have hC : vw W Madd.C = val [t.r8, t.r9, t.r10, t.r11] := by
    rw [← vw_val (W := W) _ 8 fun i hi => ?_]
    · rfl
    · rw [h5 (8 + i) (by simp at hi ⊢; omega)]
      rw [List.getElem_append_right (by simp; omega)]
      simp only [List.length_append, hx, hy, show 8 + i - (4 + 4) = i by omega]
      rfl
  simp only [Madd.claims, List.forall_mem_cons, Claim.Holds, relValue, Term.value] at h6
  obtain ⟨r1, hr, -⟩ := h6
  refine ⟨t', h1, funext fun a => h2 a ?_, h3, ⟨?_, ?_⟩, ?_⟩
  · intro b hb hw i hi
    simp only [List.mem_cons, List.not_mem_nil, or_false] at hb
    rcases hb with rfl | rfl <;> cases hw
  · exact effs_get (r := .rdi) (by decide +kernel) h1
  · exact effs_get (r := .rsp) (by decide +kernel) h1
  · have hr : regs8.map t'.get = _ := hr
    rw [show num8 t' = val (regs8.map t'.get) from rfl, hr, val_vw h4, ← hX, ← hY, ← hC]
    rw [← Int.natCast_mul] at r1
    generalize vw W Madd.X * vw W Madd.Y = p at *
    omega

/-- What stays the same during the run. -/
structure MaFr (s : St) (b : Word) (ro : List (Word × Words)) (t : St) : Prop where
  rdi : t.rdi = s.rdi
  rsp : t.rsp = word b 0
  wr : t.wr = s.wr
  env : Env s.mem s.rdi 4 b 6 0 ro t.mem

/-- The result. -/
def MaPost (s : St) (b : Word) (ro : List (Word × Words)) (v : Nat) (s' : St) : Prop :=
  Holds s'.mem s.rdi (toWords 4 (v % Spec.Ed25519.L)) ∧ Env s.mem s.rdi 4 b 6 0 ro s'.mem

theorem ma_end {s t : St} {b : Word} {ro : List (Word × Words)} {v : Nat} (F : MaFr s b ro t) (ho : s.Owns s.rdi 4)
    (ha : ∀ p ∈ ro, Apart s.rdi 4 p.1 p.2.length) (hz : Apart s.rdi 4 b 6)
    (hv : val [t.r8, t.r9, t.r10, t.r11] = v % Spec.Ed25519.L) : From Asm.bignumMaddN25519 215 t (MaPost s b ro v) := by
  have w0 := ho 0 (by decide)
  have w1 := ho 1 (by decide)
  have w2 := ho 2 (by decide)
  have w3 := ho 3 (by decide)
  obtain ⟨v0, p0⟩ := F.env.st 0 (by omega) (by omega)
  obtain ⟨v1, p1⟩ := F.env.st 1 (by omega) (by omega)
  obtain ⟨v2, p2⟩ := F.env.st 2 (by omega) (by omega)
  obtain ⟨v3, p3⟩ := F.env.st 3 (by omega) (by omega)
  obtain ⟨v4, p4⟩ := F.env.st 4 (by omega) (by omega)
  obtain ⟨v5, p5⟩ := F.env.st 5 (by omega) (by omega)
  have E := (((F.env.store ha (i := 0) (by omega) t.r8).store ha (i := 1) (by omega) t.r9).store ha (i := 2) (by omega) t.r10).store ha
    (i := 3) (by omega) t.r11
  have H := ((((Holds.nil t.mem s.rdi).snoc (by simp) (i := 0) rfl t.r8).snoc (by simp) (i := 1) rfl t.r9).snoc (by simp) (i := 2) rfl
    t.r10).snoc (by simp) (i := 3) rfl t.r11
  rw [word_zero] at w0 E H
  have z0 := hz 0 (by omega)
  rw [word_zero] at z0
  have z1 := hz 1 (by omega)
  have z2 := hz 2 (by omega)
  have z3 := hz 3 (by omega)
  have q : ∀ j < 6, ∀ v, t.mem (word b j) = some v → (if word b j = word s.rdi 3 then some t.r11 else if word b j = word s.rdi 2 then some t.r10 else
      if word b j = word s.rdi 1 then some t.r9 else if word b j = s.rdi then some t.r8 else t.mem (word b j)) = some v := by
    intro j hj v hv
    rw [if_neg (z3 j hj).symm, if_neg (z2 j hj).symm, if_neg (z1 j hj).symm, if_neg (z0 j hj).symm, hv]
  xstep [F.rdi, F.wr, w0]
  xstep [word_8, w1]
  xstep [word_16, w2]
  xstep [word_24, w3]
  xstep [F.rsp, q 0 (by omega) v0 p0, word_plus8]
  xstep [q 1 (by omega) v1 p1, word_plus8]
  xstep [q 2 (by omega) v2 p2, word_plus8]
  xstep [q 3 (by omega) v3 p3, word_plus8]
  xstep [q 4 (by omega) v4 p4, word_plus8]
  xstep [q 5 (by omega) v5 p5, word_plus8]
  refine From.halt rfl ⟨?_, E⟩
  rw [← hv]
  have := toWords_val [t.r8, t.r9, t.r10, t.r11]
  rw [show [t.r8, t.r9, t.r10, t.r11].length = 4 from rfl] at this
  rw [this]
  exact H

theorem more_mod (w v L : Nat) : (w + 2 ^ 64 * (v % L)) % L = (w + 2 ^ 64 * v) % L := by
  rw [Nat.add_mod, Nat.mul_mod, Nat.mod_mod, ← Nat.mul_mod, ← Nat.add_mod]

/-- The reduction of the highest four words. -/
theorem ma_4 {s t : St} {b : Word} {ro : List (Word × Words)} {Q : St → Prop} (F : MaFr s b ro t)
    (next : ∀ t', MaFr s b ro t' → t'.r8 = t.r8 → t'.r9 = t.r9 → t'.r10 = t.r10 → t'.r11 = t.r11 →
      val [t'.r12, t'.r13, t'.r14, t'.r15] = val [t.r12, t.r13, t.r14, t.r15] % Spec.Ed25519.L → From Asm.bignumMaddN25519 99 t' Q) :
    From Asm.bignumMaddN25519 72 t Q := by
  have hm := first t.r12 t.r13 t.r14 t.r15
  xstep []
  xshift
  xshift
  xshift
  iterate 12 xstep []
  xstep [sbb_self]
  iterate 10 xstep []
  exact next _ ⟨F.rdi, F.rsp, F.wr, F.env⟩ rfl rfl rfl rfl hm

/-- The reduction with the word in `r11`. -/
theorem ma_3 {s t : St} {b : Word} {ro : List (Word × Words)} {Q : St → Prop} {v : Nat} (F : MaFr s b ro t)
    (hv : val [t.r12, t.r13, t.r14, t.r15] = v % Spec.Ed25519.L)
    (next : ∀ t', MaFr s b ro t' → t'.r8 = t.r8 → t'.r9 = t.r9 → t'.r10 = t.r10 →
      val [t'.r11, t'.r12, t'.r13, t'.r14] = (t.r11.toNat + 2 ^ 64 * v) % Spec.Ed25519.L → From Asm.bignumMaddN25519 128 t' Q) :
    From Asm.bignumMaddN25519 99 t Q := by
  have hm := more t.r11 t.r12 t.r13 t.r14 t.r15 (by rw [hv]; exact Nat.mod_lt _ (by decide))
  rw [hv, more_mod] at hm
  xstep []
  xshift
  xshift
  xstep []
  xshift
  xshift
  iterate 12 xstep []
  xstep [sbb_self]
  iterate 10 xstep []
  exact next _ ⟨F.rdi, F.rsp, F.wr, F.env⟩ rfl rfl rfl hm

/-- The reduction with the word in `r10`. -/
theorem ma_2 {s t : St} {b : Word} {ro : List (Word × Words)} {Q : St → Prop} {v : Nat} (F : MaFr s b ro t)
    (hv : val [t.r11, t.r12, t.r13, t.r14] = v % Spec.Ed25519.L)
    (next : ∀ t', MaFr s b ro t' → t'.r8 = t.r8 → t'.r9 = t.r9 →
      val [t'.r10, t'.r11, t'.r12, t'.r13] = (t.r10.toNat + 2 ^ 64 * v) % Spec.Ed25519.L → From Asm.bignumMaddN25519 157 t' Q) :
    From Asm.bignumMaddN25519 128 t Q := by
  have hm := more t.r10 t.r11 t.r12 t.r13 t.r14 (by rw [hv]; exact Nat.mod_lt _ (by decide))
  rw [hv, more_mod] at hm
  xstep []
  xshift
  xshift
  xstep []
  xshift
  xshift
  iterate 12 xstep []
  xstep [sbb_self]
  iterate 10 xstep []
  exact next _ ⟨F.rdi, F.rsp, F.wr, F.env⟩ rfl rfl hm

/-- The reduction with the word in `r9`. -/
theorem ma_1 {s t : St} {b : Word} {ro : List (Word × Words)} {Q : St → Prop} {v : Nat} (F : MaFr s b ro t)
    (hv : val [t.r10, t.r11, t.r12, t.r13] = v % Spec.Ed25519.L)
    (next : ∀ t', MaFr s b ro t' → t'.r8 = t.r8 →
      val [t'.r9, t'.r10, t'.r11, t'.r12] = (t.r9.toNat + 2 ^ 64 * v) % Spec.Ed25519.L → From Asm.bignumMaddN25519 186 t' Q) :
    From Asm.bignumMaddN25519 157 t Q := by
  have hm := more t.r9 t.r10 t.r11 t.r12 t.r13 (by rw [hv]; exact Nat.mod_lt _ (by decide))
  rw [hv, more_mod] at hm
  xstep []
  xshift
  xshift
  xstep []
  xshift
  xshift
  iterate 12 xstep []
  xstep [sbb_self]
  iterate 10 xstep []
  exact next _ ⟨F.rdi, F.rsp, F.wr, F.env⟩ rfl hm

/-- The reduction with the word in `r8`. -/
theorem ma_0 {s t : St} {b : Word} {ro : List (Word × Words)} {Q : St → Prop} {v : Nat} (F : MaFr s b ro t)
    (hv : val [t.r9, t.r10, t.r11, t.r12] = v % Spec.Ed25519.L)
    (next : ∀ t', MaFr s b ro t' →
      val [t'.r8, t'.r9, t'.r10, t'.r11] = (t.r8.toNat + 2 ^ 64 * v) % Spec.Ed25519.L → From Asm.bignumMaddN25519 215 t' Q) :
    From Asm.bignumMaddN25519 186 t Q := by
  have hm := more t.r8 t.r9 t.r10 t.r11 t.r12 (by rw [hv]; exact Nat.mod_lt _ (by decide))
  rw [hv, more_mod] at hm
  xstep []
  xshift
  xshift
  xstep []
  xshift
  xshift
  iterate 12 xstep []
  xstep [sbb_self]
  iterate 10 xstep []
  exact next _ ⟨F.rdi, F.rsp, F.wr, F.env⟩ hm

/-- The whole routine. -/
theorem maddN25519_ok (s : St) (x y c : Words) (hx : x.length = 4) (hy : y.length = 4) (hc : c.length = 4) (ho : s.Owns s.rdi 4)
    (hS : s.Owns (s.rsp - 48#64) 6) (hi : ∀ p ∈ [(s.rsi, x), (s.rdx, y), (s.rcx, c)], Holds s.mem p.1 p.2)
    (ha : ∀ p ∈ [(s.rsi, x), (s.rdx, y), (s.rcx, c)], Apart s.rdi 4 p.1 p.2.length)
    (hb : ∀ p ∈ [(s.rsi, x), (s.rdx, y), (s.rcx, c)], Apart (s.rsp - 48#64) 6 p.1 p.2.length)
    (hz : Apart s.rdi 4 (s.rsp - 48#64) 6) :
    Runs Asm.bignumMaddN25519 s (MaPost s (s.rsp - 48#64) [(s.rsi, x), (s.rdx, y), (s.rcx, c)] (val x * val y + val c)) := by
  apply runs_of_from
  have hsp : s.rsp = word (s.rsp - 48#64) 6 := stack_top s 6
  have E6 := (((((((Env.init (Z := s.rdi) (k := 4) (b := s.rsp - 48#64) (n := 6) hi).push hb (by omega) s.rbx).push hb (by omega) s.rbp).push hb (by omega) s.r12).push hb (by omega) s.r13).push hb (by omega) s.r14).push hb (by omega) s.r15)
  generalize s.rsp - 48#64 = b at *
  have red : ∀ t : St, MaFr s b [(s.rsi, x), (s.rdx, y), (s.rcx, c)] t → num8 t = val x * val y + val c →
      From Asm.bignumMaddN25519 72 t (MaPost s b [(s.rsi, x), (s.rdx, y), (s.rcx, c)] (val x * val y + val c)) := by
    intro t F hv
    refine ma_4 F fun t4 F4 a0 a1 a2 a3 h4 => ?_
    refine ma_3 F4 h4 fun t3 F3 b0 b1 b2 h3 => ?_
    refine ma_2 F3 h3 fun t2 F2 c0 c1 h2 => ?_
    refine ma_1 F2 h2 fun t1 F1 d0 h1 => ?_
    refine ma_0 F1 h1 fun t0 F0 h0 => ?_
    refine ma_end F0 ho ha hz ?_
    rw [h0, ← hv, d0, c0, c1, b0, b1, b2, a0, a1, a2, a3]
    rfl
  have prod : ∀ t : St, MaFr s b [(s.rsi, x), (s.rdx, y), (s.rcx, c)] t → t.rsi = s.rsi → t.rcx = s.rdx →
      val [t.r8, t.r9, t.r10, t.r11] = val c →
      From Asm.bignumMaddN25519 12 t (MaPost s b [(s.rsi, x), (s.rdx, y), (s.rcx, c)] (val x * val y + val c)) := by
    intro t F hsi hcx hv
    obtain ⟨t', h1, h2, h3, ⟨h4, h5⟩, h6⟩ := maddProd_ok (t := t) hx hy (by
      rw [hsi, hcx]
      refine ⟨fun B hB => ?_, List.Pairwise.cons (fun B hB h => ?_) (List.pairwise_singleton _ _)⟩
      · simp only [List.mem_cons, List.not_mem_nil, or_false] at hB
        rcases hB with rfl | rfl
        · exact ⟨fun e => (by cases e), fun ws e => by cases e; exact hx, fun ws e => by cases e; exact F.env.ro (s.rsi, x) (by simp)⟩
        · exact ⟨fun e => (by cases e), fun ws e => by cases e; exact hy, fun ws e => by cases e; exact F.env.ro (s.rdx, y) (by simp)⟩
      · simp only [List.mem_cons, List.not_mem_nil, or_false] at hB
        subst hB
        rcases h with h | h <;> cases h)
    refine From.part (n := 60) (by rw [show Asm.bignumMaddN25519.length = 225 from rfl]; omega) h1 ?_
    refine red t' ⟨h4.trans F.rdi, h5.trans F.rsp, h3.trans F.wr, h2 ▸ F.env⟩ ?_
    rw [← h6, hv, Nat.add_comm]
  have load : ∀ t : St, MaFr s b [(s.rsi, x), (s.rdx, y), (s.rcx, c)] t → t.rsi = s.rsi → t.rdx = s.rdx → t.rcx = s.rcx →
      From Asm.bignumMaddN25519 7 t (MaPost s b [(s.rsi, x), (s.rdx, y), (s.rcx, c)] (val x * val y + val c)) := by
    intro t F hsi hdx hcx
    have g0 := F.env.get (p := s.rcx) (ws := c) (by simp) (i := 0) (by omega)
    have g1 := F.env.get (p := s.rcx) (ws := c) (by simp) (i := 1) (by omega)
    have g2 := F.env.get (p := s.rcx) (ws := c) (by simp) (i := 2) (by omega)
    have g3 := F.env.get (p := s.rcx) (ws := c) (by simp) (i := 3) (by omega)
    rw [word_zero] at g0
    have hv : val [wd c 0, wd c 1, wd c 2, wd c 3] = val c := by
      match c, hc with
      | [c0, c1, c2, c3], _ => rfl
    xstep [hcx, g0]
    xstep [word_8, g1]
    xstep [word_16, g2]
    xstep [word_24, g3]
    xstep [hdx]
    exact prod _ ⟨F.rdi, F.rsp, F.wr, F.env⟩ hsi rfl hv
  xstep []
  xstep [hsp, word_sub8, hS 5 (by omega)]
  xstep [word_sub8, hS 4 (by omega)]
  xstep [word_sub8, hS 3 (by omega)]
  xstep [word_sub8, hS 2 (by omega)]
  xstep [word_sub8, hS 1 (by omega)]
  xstep [word_sub8, hS 0 (by omega)]
  exact load _ ⟨rfl, rfl, rfl, E6⟩ rfl rfl rfl

end Verif.X86.Sym
