import Verif.Proof.X86.SymEm
import Verif.Proof.X86.SymLike

/-! What the parts of `bignum_emontredc_8n` compute. -/
namespace Verif.X86.Sym
open Verif Verif.X86

theorem Row.low {a q m w h lo hi L c : Nat} (h1 : q + 2 ^ 64 * h = a * w) (h2 : lo + 2 ^ 64 * hi = q * m) (h3 : L + 2 ^ 64 * c = a + lo)
    (hw : (m * w + 1) % 2 ^ 64 = 0) (hL : L < 2 ^ 64) : L = 0 := by
  obtain ⟨k, hk⟩ := Nat.dvd_of_mod_eq_zero hw
  have e : L + 2 ^ 64 * (c + hi + h * m) = 2 ^ 64 * (a * k) := by
    calc L + 2 ^ 64 * (c + hi + h * m) = (L + 2 ^ 64 * c) + 2 ^ 64 * hi + 2 ^ 64 * h * m := by ring
      _ = a + (lo + 2 ^ 64 * hi) + 2 ^ 64 * h * m := by rw [h3]; ring
      _ = a + (q + 2 ^ 64 * h) * m := by rw [h2]; ring
      _ = a * (m * w + 1) := by rw [h1]; ring
      _ = 2 ^ 64 * (a * k) := by rw [hk]; ring
  omega

/-- One row: a multiple of `M` is added that clears the lowest word, and the number moves down by a word. -/
theorem Row.ok {s s' as W M w} {r : Row} (hb : ∀ i, W i < 2 ^ 64) (lA : r.A.length = 8) (lB : r.B.length = 8) (lM : M.length = 8)
    (hw : (W (M.headD 0) * W w + 1) % 2 ^ 64 = 0) (hc : ∀ c ∈ r.claims M w, c.Holds s s' as W) :
    vw W r.A + W r.q * vw W M = 2 ^ 64 * vw W (r.b :: r.B.tail) := by
  simp only [Row.claims, List.forall_mem_cons, Claim.Holds, relValue, Term.value, vw_one] at hc
  obtain ⟨e1, e2, e3, e4, e5, e6, -⟩ := hc
  have hB : vw W (r.b :: r.B.tail) = vw W r.B := by
    cases h : r.B with
    | nil => rw [h] at lB; cases lB
    | cons b B =>
      rw [h] at e2
      rw [vw, vw, e2]
      rfl
  have hL : W r.L = 0 := by
    refine Row.low (a := W (r.A.headD 0)) (q := W r.q) (w := W w) (h := W r.h) (lo := W r.lo) (hi := W r.hi) (c := W r.c) ?_ ?_ ?_ hw (hb _)
    · rw [e1]
      rw [← Int.natCast_mul] at e3
      omega
    · rw [← Int.natCast_mul] at e4
      omega
    · omega
  rw [hB]
  have b1 := vw_lt hb r.A
  have b2 := vw_lt hb M
  rw [lA] at b1
  rw [lM] at b2
  have b3 : W r.q * vw W M ≤ (2 ^ 64 - 1) * (2 ^ (64 * 8) - 1) := Nat.mul_le_mul (by have := hb r.q; omega) (by omega)
  rw [hL, ← Int.natCast_mul] at e6
  generalize W r.q * vw W M = p at *
  generalize vw W r.A = x at *
  generalize vw W r.B = y at *
  generalize W r.v1 = u at *
  generalize W r.v2 = v at *
  omega

/-- Each row begins with the number that the one before left. -/
def Row.chain : List Nat → List Row → List Nat → Bool
  | A, [], R => A == R
  | A, r :: rs, R => r.A == A && r.A.length == 8 && r.B.length == 8 && Row.chain (r.b :: r.B.tail) rs R

theorem Row.sum {s s' as W M w} (hb : ∀ i, W i < 2 ^ 64) (lM : M.length = 8) (hw : (W (M.headD 0) * W w + 1) % 2 ^ 64 = 0) :
    ∀ {rs : List Row} {A R : List Nat}, Row.chain A rs R = true → (∀ c ∈ rs.flatMap (Row.claims M w), c.Holds s s' as W) →
      vw W A + vw W (rs.map Row.q) * vw W M = 2 ^ (64 * rs.length) * vw W R
  | [], A, R, h, _ => by
    have : A = R := eq_of_beq h
    subst this
    simp [vw]
  | r :: rs, A, R, h, hc => by
    simp only [Row.chain, Bool.and_eq_true, beq_iff_eq] at h
    obtain ⟨⟨⟨h1, h2⟩, h3⟩, h4⟩ := h
    rw [List.flatMap_cons] at hc
    have i1 := Row.ok hb h2 h3 lM hw fun c h => hc c (List.mem_append_left _ h)
    have i2 := Row.sum hb lM hw h4 fun c h => hc c (List.mem_append_right _ h)
    rw [h1] at i1
    rw [List.map_cons, vw, List.length_cons, pow_step, Nat.mul_assoc, ← i2, two64]
    calc vw W A + (W r.q + 18446744073709551616 * vw W (rs.map Row.q)) * vw W M
        = (vw W A + W r.q * vw W M) + 2 ^ 64 * (vw W (rs.map Row.q) * vw W M) := by ring
      _ = _ := by rw [i1]; ring

/-- The eight registers that hold a number. -/
def regs8 : List Reg := [.r8, .r9, .r10, .r11, .r12, .r13, .r14, .r15]
def num8 (t : St) : Nat := val (regs8.map t.get)

theorem val_vw {W : Nat → Nat} (h : ∀ i, W i < 2 ^ 64) (l : List Nat) : val (l.map fun i => BitVec.ofNat 64 (W i)) = vw W l := by
  rw [vw_words h, val_toWords, Nat.mod_eq_of_lt (vw_lt h l)]

theorem partA {t : St} {z m : Words} (hz : z.length = 8) (hm : m.length = 8) (hw : ((wd m 0).toNat * t.rcx.toNat + 1) % 2 ^ 64 = 0)
    (h : Ready t [⟨t.rsi, 8, true, some z⟩, ⟨t.rdi, 8, false, some m⟩]) :
    ∃ t' q, effs emA t = some t' ∧ (∀ a, (∀ i < 8, a ≠ word t.rsi i) → t'.mem a = t.mem a) ∧ t'.wr = t.wr ∧
      (t'.rcx = t.rcx ∧ t'.rsi = t.rsi ∧ t'.rdi = t.rdi ∧ t'.rsp = t.rsp) ∧ q.length = 8 ∧ Holds t'.mem t.rsi q ∧
      val z + val q * val m = 2 ^ 512 * num8 t' := by
  have e0 : t.rsi = (⟨.rsi, 8, 0, true⟩ : Arg).at' t := by simp [Arg.at']; rfl
  have e1 : t.rdi = (⟨.rdi, 8, 0, false⟩ : Arg).at' t := by simp [Arg.at']; rfl
  have hg : given [some z, some m] [0, 1] = z ++ m := by simp [given]
  obtain ⟨t', W, h1, h2, h3, h4, h5, h6⟩ := verifyR_effs EmA.verified (ws := [some z, some m]) rfl (by
      intro a ha
      simp only [List.mem_cons, List.not_mem_nil, or_false] at ha
      rcases ha with rfl | rfl <;> dsimp only <;> omega)
    (by
      intro b hb
      simp only [List.mem_cons, List.not_mem_nil, or_false] at hb
      rcases hb with rfl | rfl
      · exact ⟨z, rfl⟩
      · exact ⟨m, rfl⟩) (by rw [hg, List.length_append]; omega) (by decide) (s := t) (by
      simp only [List.zip_cons_cons, List.zip_nil_left, List.map_cons, List.map_nil, blockOf, ← e0, ← e1]
      exact h)
  simp only [List.zip_cons_cons, List.zip_nil_left, List.map_cons, List.map_nil, blockOf, ← e0, ← e1] at h2
  rw [hg] at h5
  have hZ : vw W EmA.Z = val z := by
    rw [← vw_val (W := W) z 0 fun i hi => ?_, hz]
    · rfl
    · rw [Nat.zero_add, h5 i (by simp; omega)]
      rw [List.getElem_append_left (by simp; omega), List.getElem_append_left hi]
  have hM : vw W EmA.M = val m := by
    rw [← vw_val (W := W) m 8 fun i hi => ?_, hm]
    · rfl
    · rw [h5 (8 + i) (by simp; omega)]
      rw [List.getElem_append_left (by simp; omega), List.getElem_append_right (by omega)]
      simp [hz]
  have hm0 : W (EmA.M.headD 0) = (wd m 0).toNat := by
    rw [show EmA.M.headD 0 = 8 from rfl, h5 8 (by simp; omega), wd_eq (by omega)]
    rw [List.getElem_append_left (by simp; omega), List.getElem_append_right (by omega)]
    simp [hz]
  have hW : W EmA.w = t.rcx.toNat := by
    rw [show EmA.w = 16 from rfl, h5 16 (by simp; omega)]
    rw [List.getElem_append_right (by simp; omega)]
    simp [hz, hm]
    rfl
  rw [EmA.claims] at h6
  have hs := Row.sum (M := EmA.M) (w := EmA.w) (rs := EmA.rows) (A := EmA.Z) (R := EmA.R) h4 rfl (by rw [hm0, hW]; exact hw) rfl
    fun c hc => h6 c (List.mem_append_left _ hc)
  have ho := h6 (.out 0 EmA.Q) (by simp)
  have hr := h6 (.reg regs8 EmA.R) (by simp [regs8])
  refine ⟨t', EmA.Q.map fun i => BitVec.ofNat 64 (W i), h1, fun a ha => h2 a ?_, h3, ⟨?_, ?_, ?_, ?_⟩, rfl, ?_, ?_⟩
  · intro b hb hw i hi
    simp only [List.mem_cons, List.not_mem_nil, or_false] at hb
    rcases hb with rfl | rfl
    · exact ha i hi
    · cases hw
  · exact effs_get (r := .rcx) (by decide +kernel) h1
  · exact effs_get (r := .rsi) (by decide +kernel) h1
  · exact effs_get (r := .rdi) (by decide +kernel) h1
  · exact effs_get (r := .rsp) (by decide +kernel) h1
  · rw [e0]
    exact ho _ rfl
  · have hr : regs8.map t'.get = _ := hr
    rw [val_vw h4, num8, hr, val_vw h4, ← hZ, ← hM]
    set_option exponentiation.threshold 600 in exact hs

theorem partB {t : St} {z m q : Words} (hz : z.length = 8) (hm : m.length = 8) (hq : q.length = 8)
    (h : Ready t [⟨t.rbp, 8, true, some z⟩, ⟨t.rdi, 8, false, some m⟩, ⟨t.rsi, 8, false, some q⟩]) :
    ∃ t' z', effs emB t = some t' ∧ (∀ a, (∀ i < 8, a ≠ word t.rbp i) → t'.mem a = t.mem a) ∧ t'.wr = t.wr ∧
      (t'.rcx = t.rcx ∧ t'.rsi = t.rsi ∧ t'.rdi = t.rdi ∧ t'.rsp = t.rsp ∧ t'.rbp = t.rbp) ∧ z'.length = 8 ∧ Holds t'.mem t.rbp z' ∧
      num8 t + val z + val q * val m = val z' + 2 ^ 512 * num8 t' := by
  have e0 : t.rbp = (⟨.rbp, 8, 0, true⟩ : Arg).at' t := by simp [Arg.at']; rfl
  have e1 : t.rdi = (⟨.rdi, 8, 0, false⟩ : Arg).at' t := by simp [Arg.at']; rfl
  have e2 : t.rsi = (⟨.rsi, 8, 0, false⟩ : Arg).at' t := by simp [Arg.at']; rfl
  have hg : given [some z, some m, some q] [0, 1, 2] = z ++ m ++ q := by simp [given]
  obtain ⟨t', W, h1, h2, h3, h4, h5, h6⟩ := verifyR_effs EmB.verified (ws := [some z, some m, some q]) rfl (by
      intro a ha
      simp only [List.mem_cons, List.not_mem_nil, or_false] at ha
      rcases ha with rfl | rfl | rfl <;> dsimp only <;> omega)
    (by
      intro b hb
      simp only [List.mem_cons, List.not_mem_nil, or_false] at hb
      rcases hb with rfl | rfl | rfl
      · exact ⟨z, rfl⟩
      · exact ⟨m, rfl⟩
      · exact ⟨q, rfl⟩) (by rw [hg, List.length_append, List.length_append]; omega) (by decide) (s := t) (by
      simp only [List.zip_cons_cons, List.zip_nil_left, List.map_cons, List.map_nil, blockOf, ← e0, ← e1, ← e2]
      exact h)
  simp only [List.zip_cons_cons, List.zip_nil_left, List.map_cons, List.map_nil, blockOf, ← e0, ← e1, ← e2] at h2
  rw [hg] at h5
  have hZ : vw W EmB.Z = val z := by
    rw [← vw_val (W := W) z 0 fun i hi => ?_, hz]
    · rfl
    · rw [Nat.zero_add, h5 i (by simp; omega)]
      rw [List.getElem_append_left (by simp; omega), List.getElem_append_left (by simp; omega), List.getElem_append_left hi]
  have hM : vw W EmB.M = val m := by
    rw [← vw_val (W := W) m 8 fun i hi => ?_, hm]
    · rfl
    · rw [h5 (8 + i) (by simp; omega)]
      rw [List.getElem_append_left (by simp; omega), List.getElem_append_left (by simp; omega), List.getElem_append_right (by omega)]
      simp [hz]
  have hQ : vw W EmB.Q = val q := by
    rw [← vw_val (W := W) q 16 fun i hi => ?_, hq]
    · rfl
    · rw [h5 (16 + i) (by simp; omega)]
      rw [List.getElem_append_left (by simp; omega), List.getElem_append_right (by simp; omega)]
      simp [hz, hm]
  have hR : vw W EmB.R = num8 t := by
    rw [num8, ← vw_val (W := W) _ 24 fun i hi => ?_]
    · rfl
    · rw [h5 (24 + i) (by have : regs8.length = 8 := rfl; simp at hi ⊢; omega)]
      rw [List.getElem_append_right (by simp; omega)]
      simp only [List.length_append, hz, hm, hq, show 24 + i - (8 + 8 + 8) = i by omega]
      rfl
  simp only [EmB.claims, List.forall_mem_cons, Claim.Holds, relValue, Term.value] at h6
  obtain ⟨r1, ho, hr, -⟩ := h6
  refine ⟨t', EmB.Z1.map fun i => BitVec.ofNat 64 (W i), h1, fun a ha => h2 a ?_, h3, ⟨?_, ?_, ?_, ?_, ?_⟩, rfl, ?_, ?_⟩
  · intro b hb hw i hi
    simp only [List.mem_cons, List.not_mem_nil, or_false] at hb
    rcases hb with rfl | rfl | rfl
    · exact ha i hi
    · cases hw
    · cases hw
  · exact effs_get (r := .rcx) (by decide +kernel) h1
  · exact effs_get (r := .rsi) (by decide +kernel) h1
  · exact effs_get (r := .rdi) (by decide +kernel) h1
  · exact effs_get (r := .rsp) (by decide +kernel) h1
  · exact effs_get (r := .rbp) (by decide +kernel) h1
  · rw [e0]
    exact ho _ rfl
  · have hr : regs8.map t'.get = _ := hr
    rw [val_vw h4, show num8 t' = val (regs8.map t'.get) from rfl, hr, val_vw h4, ← hZ, ← hM, ← hQ, ← hR]
    rw [← Int.natCast_mul] at r1
    generalize vw W EmB.Q * vw W EmB.M = p at *
    omega

theorem partC {t : St} {z : Words} (hz : z.length = 8) (hc : t.rbx.toNat ≤ 1) (h : Ready t [⟨t.rbp + 64#64, 8, true, some z⟩]) :
    ∃ t' z' d, effs emC t = some t' ∧ (∀ a, (∀ i < 8, a ≠ word (t.rbp + 64#64) i) → t'.mem a = t.mem a) ∧ t'.wr = t.wr ∧
      (t'.rcx = t.rcx ∧ t'.rsi = t.rsi ∧ t'.rdi = t.rdi ∧ t'.rsp = t.rsp) ∧ z'.length = 8 ∧ Holds t'.mem (t.rbp + 64#64) z' ∧
      t'.rax = BitVec.ofNat 64 d ∧ d ≤ 1 ∧ val z + num8 t + t.rbx.toNat = val z' + 2 ^ 512 * d := by
  have e0 : t.rbp + 64#64 = (⟨.rbp, 8, 2305843009213693944, true⟩ : Arg).at' t := by
    simp only [Arg.at', BitVec.sub_eq_add_neg]
    rfl
  have hg : given [some z] [0] = z := by simp [given]
  obtain ⟨t', W, h1, h2, h3, h4, h5, h6⟩ := verifyR_effs EmC.verified (ws := [some z]) rfl (by
      intro a ha
      simp only [List.mem_cons, List.not_mem_nil, or_false] at ha
      subst ha
      dsimp only
      omega)
    (by
      intro b hb
      simp only [List.mem_cons, List.not_mem_nil, or_false] at hb
      subst hb
      exact ⟨z, rfl⟩) (by rw [hg]; omega) (by decide) (s := t) (by
      simp only [List.zip_cons_cons, List.zip_nil_left, List.map_cons, List.map_nil, blockOf, ← e0]
      exact h)
  simp only [List.zip_cons_cons, List.zip_nil_left, List.map_cons, List.map_nil, blockOf, ← e0] at h2
  rw [hg] at h5
  have hZ : vw W EmC.Z = val z := by
    rw [← vw_val (W := W) z 0 fun i hi => ?_, hz]
    · rfl
    · rw [Nat.zero_add, h5 i (by simp; omega)]
      rw [List.getElem_append_left hi]
  have hC : W EmC.c = t.rbx.toNat := by
    rw [show EmC.c = 8 from rfl, h5 8 (by simp [hz])]
    rw [List.getElem_append_right (by omega)]
    simp [hz]
    rfl
  have hR : vw W EmC.R = num8 t := by
    rw [num8, ← vw_val (W := W) _ 9 fun i hi => ?_]
    · rfl
    · rw [h5 (9 + i) (by have : regs8.length = 8 := rfl; simp at hi ⊢; omega)]
      rw [List.getElem_append_right (by omega)]
      simp only [hz, show 9 + i - 8 = i + 1 by omega, List.map_cons, List.getElem_cons_succ]
      rfl
  simp only [EmC.claims, List.forall_mem_cons, Claim.Holds, relValue, Term.value, vw_one] at h6
  obtain ⟨r1, r2, ho, hr, -⟩ := h6
  have hN := h4 EmC.N
  have hb : W EmC.b = t.rbx.toNat := by
    rw [← hC] at hc ⊢
    omega
  have hr : [t'.rax] = [BitVec.ofNat 64 (W EmC.d)] := hr
  have v1 := vw_lt h4 EmC.Z
  have v2 := vw_lt h4 EmC.R
  simp only [show EmC.Z.length = 8 from rfl, show EmC.R.length = 8 from rfl] at v1 v2
  refine ⟨t', EmC.Z1.map fun i => BitVec.ofNat 64 (W i), W EmC.d, h1, fun a ha => h2 a ?_, h3, ⟨?_, ?_, ?_, ?_⟩, rfl, ?_, ?_, ?_, ?_⟩
  · intro b hb hw i hi
    simp only [List.mem_cons, List.not_mem_nil, or_false] at hb
    subst hb
    exact ha i hi
  · exact effs_get (r := .rcx) (by decide +kernel) h1
  · exact effs_get (r := .rsi) (by decide +kernel) h1
  · exact effs_get (r := .rdi) (by decide +kernel) h1
  · exact effs_get (r := .rsp) (by decide +kernel) h1
  · rw [e0]
    exact ho _ rfl
  · exact List.head_eq_of_cons_eq hr
  · rw [hb] at r2
    omega
  · rw [val_vw h4, ← hZ, ← hR, ← hb]
    omega

end Verif.X86.Sym
