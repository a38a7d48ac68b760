import Verif.Props.AsmX86
import Verif.Spec.AsmCall
import Verif.Proof.X86.Demont
import Verif.Proof.X86.Montmul
import Verif.Proof.X86.Montsqr
import Verif.Proof.X86.Montredc
import Verif.Proof.X86.Negmodinv
import Verif.Proof.X86.Mul

/-!
C60, continued: multiplication and Montgomery arithmetic for numbers of any length.  These save registers on the stack, so the
words below the stack pointer are one of the blocks that they may write.  `Ready` and `Untouched` (Spec/AsmCall.lean) say
which memory is given and which is left alone.
-/
namespace Verif.X86
open Verif

/-- The hypotheses of the lemmas about single programs. -/
theorem Ready.parts {s : St} {n k : Nat} {Z : Word} {ro : List (Word × Words)}
    (h : Ready s (stackBlock s n :: outBlock Z k :: ro.map fun p => inBlock p.1 p.2)) :
    s.Owns Z k ∧ s.Owns (s.rsp - BitVec.ofNat 64 (8 * n)) n ∧ (∀ p ∈ ro, Holds s.mem p.1 p.2) ∧
      (∀ p ∈ ro, Apart Z k p.1 p.2.length) ∧ (∀ p ∈ ro, Apart (s.rsp - BitVec.ofNat 64 (8 * n)) n p.1 p.2.length) ∧
      Apart Z k (s.rsp - BitVec.ofNat 64 (8 * n)) n := by
  obtain ⟨ok, ap⟩ := h
  rw [List.pairwise_cons, List.pairwise_cons] at ap
  obtain ⟨h1, h2, -⟩ := ap
  refine ⟨(ok (outBlock Z k) (by simp)).owns rfl, (ok (stackBlock s n) (by simp)).owns rfl, fun p hp => ?_, fun p hp => ?_,
    fun p hp => ?_, ?_⟩
  · exact (ok (inBlock p.1 p.2) (List.mem_cons_of_mem _ (List.mem_cons_of_mem _ (List.mem_map_of_mem hp)))).holds p.2 rfl
  · exact h2 (inBlock p.1 p.2) (List.mem_map_of_mem hp) (Or.inl rfl)
  · exact h1 (inBlock p.1 p.2) (List.mem_cons_of_mem _ (List.mem_map_of_mem hp)) (Or.inl rfl)
  · have := h1 (outBlock Z k) (by simp) (Or.inl rfl)
    intro i hi j hj e
    exact this j hj i hi e.symm

theorem Env.untouched {s s' : St} {n k lo : Nat} {Z : Word} {ro ro' : List (Word × Words)}
    (h : Env s.mem Z k (s.rsp - BitVec.ofNat 64 (8 * n)) n lo ro' s'.mem) :
    Untouched (stackBlock s n :: outBlock Z k :: ro.map fun p => inBlock p.1 p.2) s s' := by
  intro a ha
  exact h.un a (ha (outBlock Z k) (by simp) rfl) (ha (stackBlock s n) (by simp) rfl)

end Verif.X86

namespace Verif.Props
open Verif Verif.X86

/-- `bignum_mul`: the product, in `p` words, for slices of any lengths. -/
theorem C60_mul (s : St) (x y : Words) (p : Nat) (hp : p < 2 ^ 61) (hkx : x.length < 2 ^ 61) (hky : y.length < 2 ^ 61)
    (rp : s.rdi = BitVec.ofNat 64 p) (rm : s.rdx = BitVec.ofNat 64 x.length) (rn : s.r8 = BitVec.ofNat 64 y.length)
    (h : Ready s [stackBlock s 6, outBlock s.rsi p, inBlock s.rcx x, inBlock s.r9 y]) :
    Runs Asm.bignumMul s fun s' => Holds s'.mem s.rsi (toWords p (val x * val y)) ∧
      Untouched [stackBlock s 6, outBlock s.rsi p, inBlock s.rcx x, inBlock s.r9 y] s s' := by
  obtain ⟨h1, h2, h3, h4, h5, -⟩ := Ready.parts (ro := [(s.rcx, x), (s.r9, y)]) h
  obtain ⟨f, s', hr, hh, he⟩ := mul_ok s x y p hp hkx hky rp rm rn h1 h2 h3 h4 h5
  exact ⟨f, s', hr, hh, Env.untouched (ro := [(s.rcx, x), (s.r9, y)]) (n := 6) he⟩

/-- `bignum_montmul`: `z` below `m` with `z * 2^(64 k)` congruent to `x * y` modulo `m`, for odd `m` and `x * y <= 2^(64 k) * m`. -/
theorem C60_montmul (s : St) (x y m : Words) (k : Nat) (hk : k < 2 ^ 61) (hx : x.length = k) (hy : y.length = k)
    (hm : m.length = k) (ho : val m % 2 = 1) (hxy : val x * val y ≤ 2 ^ (64 * k) * val m) (rk : s.rdi = BitVec.ofNat 64 k)
    (h : Ready s [stackBlock s 7, outBlock s.rsi k, inBlock s.rdx x, inBlock s.rcx y, inBlock s.r8 m]) :
    Runs Asm.bignumMontmul s fun s' => (∃ z : Words, z.length = k ∧ Holds s'.mem s.rsi z ∧ val z < val m ∧
        val z * 2 ^ (64 * k) % val m = val x * val y % val m) ∧
      Untouched [stackBlock s 7, outBlock s.rsi k, inBlock s.rdx x, inBlock s.rcx y, inBlock s.r8 m] s s' := by
  obtain ⟨h1, h2, h3, h4, h5, h6⟩ := Ready.parts (ro := [(s.rdx, x), (s.rcx, y), (s.r8, m)]) h
  obtain ⟨f, s', hr, ⟨z, a, b, c, d⟩, he⟩ := montmul_ok s x y m k hk hx hy hm ho hxy rk h1 h2 h3 h4 h5 h6
  exact ⟨f, s', hr, ⟨z, b, a, c, d⟩, Env.untouched (ro := [(s.rdx, x), (s.rcx, y), (s.r8, m)]) (n := 7) he⟩

/-- `bignum_montsqr`: the same for a square. -/
theorem C60_montsqr (s : St) (x m : Words) (k : Nat) (hk : k < 2 ^ 61) (hx : x.length = k) (hm : m.length = k)
    (ho : val m % 2 = 1) (hxx : val x * val x ≤ 2 ^ (64 * k) * val m) (rk : s.rdi = BitVec.ofNat 64 k)
    (h : Ready s [stackBlock s 6, outBlock s.rsi k, inBlock s.rdx x, inBlock s.rcx m]) :
    Runs Asm.bignumMontsqr s fun s' => (∃ z : Words, z.length = k ∧ Holds s'.mem s.rsi z ∧ val z < val m ∧
        val z * 2 ^ (64 * k) % val m = val x * val x % val m) ∧
      Untouched [stackBlock s 6, outBlock s.rsi k, inBlock s.rdx x, inBlock s.rcx m] s s' := by
  obtain ⟨h1, h2, h3, h4, h5, -⟩ := Ready.parts (ro := [(s.rdx, x), (s.rcx, m)]) h
  obtain ⟨f, s', hr, ⟨z, a, b, c, d⟩, he⟩ := montsqr_ok s x m k hk hx hm ho hxx rk h1 h2 h3 h4 h5
  exact ⟨f, s', hr, ⟨z, b, a, c, d⟩, Env.untouched (ro := [(s.rdx, x), (s.rcx, m)]) (n := 6) he⟩

/-- `bignum_montredc`: `z` below `m` with `z * 2^(64 p)` congruent to `x` modulo `m`, for odd `m`, and an `x` of up to `p + k`
words with `x <= 2^(64 p) * m`. -/
theorem C60_montredc (s : St) (x m : Words) (k p : Nat) (hk : k < 2 ^ 61) (hx : x.length < 2 ^ 61) (hp : p < 2 ^ 61)
    (hn : x.length ≤ p + k) (hm : m.length = k) (ho : val m % 2 = 1) (hxm : val x ≤ 2 ^ (64 * p) * val m)
    (rk : s.rdi = BitVec.ofNat 64 k) (rn : s.rdx = BitVec.ofNat 64 x.length) (rp : s.r9 = BitVec.ofNat 64 p)
    (h : Ready s [stackBlock s 7, outBlock s.rsi k, inBlock s.rcx x, inBlock s.r8 m]) :
    Runs Asm.bignumMontredc s fun s' => (∃ z : Words, z.length = k ∧ Holds s'.mem s.rsi z ∧ val z < val m ∧
        val z * 2 ^ (64 * p) % val m = val x % val m) ∧
      Untouched [stackBlock s 7, outBlock s.rsi k, inBlock s.rcx x, inBlock s.r8 m] s s' := by
  obtain ⟨h1, h2, h3, h4, h5, h6⟩ := Ready.parts (ro := [(s.rcx, x), (s.r8, m)]) h
  obtain ⟨f, s', hr, ⟨z, a, b, c, d⟩, he⟩ := montredc_ok s x m k p hk hx hp hn hm ho hxm rk rn rp h1 h2 h3 h4 h5 h6
  exact ⟨f, s', hr, ⟨z, b, a, c, d⟩, Env.untouched (ro := [(s.rcx, x), (s.r8, m)]) (n := 7) he⟩

/-- `bignum_demont`: out of Montgomery form, for odd `m` and any `x` of `k` words. -/
theorem C60_demont (s : St) (x m : Words) (k : Nat) (hk : k < 2 ^ 61) (hx : x.length = k) (hm : m.length = k)
    (ho : val m % 2 = 1) (rk : s.rdi = BitVec.ofNat 64 k)
    (h : Ready s [stackBlock s 3, outBlock s.rsi k, inBlock s.rdx x, inBlock s.rcx m]) :
    Runs Asm.bignumDemont s fun s' => (∃ z : Words, z.length = k ∧ Holds s'.mem s.rsi z ∧ val z < val m ∧
        val z * 2 ^ (64 * k) % val m = val x % val m) ∧
      Untouched [stackBlock s 3, outBlock s.rsi k, inBlock s.rdx x, inBlock s.rcx m] s s' := by
  obtain ⟨h1, h2, h3, h4, h5, -⟩ := Ready.parts (ro := [(s.rdx, x), (s.rcx, m)]) h
  simp only [List.mem_cons, List.not_mem_nil, or_false, forall_eq_or_imp, forall_eq, hx, hm] at h3 h4 h5
  obtain ⟨f, s', hr, ⟨z, a, b, c, d⟩, he⟩ := demont_ok s x m k hk hx hm ho rk h1 h2 h3.1 h3.2 h4.1 h4.2 h5.1 h5.2
  exact ⟨f, s', hr, ⟨z, b, a, c, d⟩, Env.untouched (ro := [(s.rdx, x), (s.rcx, m)]) (n := 3) he⟩

/-- `bignum_negmodinv`: `z` with `x * z` congruent to `-1` modulo `2^(64 k)`, for odd `x`. -/
theorem C60_negmodinv (s : St) (x : Words) (k : Nat) (hk : k < 2 ^ 61) (hx : x.length = k) (ho : val x % 2 = 1)
    (rk : s.rdi = BitVec.ofNat 64 k) (h : Ready s [stackBlock s 2, outBlock s.rsi k, inBlock s.rdx x]) :
    Runs Asm.bignumNegmodinv s fun s' => (∃ z : Words, z.length = k ∧ Holds s'.mem s.rsi z ∧
        (val x * val z + 1) % 2 ^ (64 * k) = 0) ∧
      Untouched [stackBlock s 2, outBlock s.rsi k, inBlock s.rdx x] s s' := by
  obtain ⟨h1, h2, h3, h4, h5, -⟩ := Ready.parts (ro := [(s.rdx, x)]) h
  obtain ⟨f, s', hr, ⟨z, a, b, c⟩, he⟩ := negmodinv_ok s x k hk hx ho rk h1 h2 h3 h4 h5
  exact ⟨f, s', hr, ⟨z, b, a, c⟩, Env.untouched (ro := [(s.rdx, x)]) (n := 2) he⟩

/-! A state in which the hypotheses hold: the one of `C60_modadd`, with a stack that ends at 0x900. -/

/-- The state. -/
def vSt : St := { wSt with rsp := 0x900#64, wr := fun a => a.ult 0x1010#64 }

theorem v_ready {s : St} {n : Nat} {ro : List (Word × Words)} (hn : n ≤ 8) (hp : s.rsp = 0x900#64) (hw : s.wr = vSt.wr)
    (hm : s.mem = wMem) (hr : ∀ p ∈ ro, p ∈ [(0x2000#64, wX), (0x3000#64, wY), (0x4000#64, wM)]) :
    Ready s (stackBlock s n :: outBlock 0x1000#64 2 :: ro.map fun p => inBlock p.1 p.2) := by
  have a1 : ∀ n ≤ 8, ∀ p ∈ [(0x2000#64, wX), (0x3000#64, wY), (0x4000#64, wM)],
      Apart (0x900#64 - BitVec.ofNat 64 (8 * n)) n p.1 p.2.length := by unfold Apart; decide +kernel
  have a2 : ∀ p ∈ [(0x2000#64, wX), (0x3000#64, wY), (0x4000#64, wM)], Apart 0x1000#64 2 p.1 p.2.length := by
    unfold Apart; decide +kernel
  have a3 : ∀ n ≤ 8, Apart (0x900#64 - BitVec.ofNat 64 (8 * n)) n 0x1000#64 2 := by unfold Apart; decide +kernel
  have a4 : ∀ p ∈ [(0x2000#64, wX), (0x3000#64, wY), (0x4000#64, wM)], Holds wMem p.1 p.2 := by unfold Holds; decide +kernel
  have o1 : ∀ n ≤ 8, vSt.Owns (0x900#64 - BitVec.ofNat 64 (8 * n)) n := by unfold St.Owns; decide +kernel
  have o2 : vSt.Owns 0x1000#64 2 := by unfold St.Owns; decide +kernel
  unfold St.Owns at o1 o2
  rw [← hw] at o1 o2
  refine ⟨fun b hb => ?_, ?_⟩
  · rcases List.mem_cons.mp hb with rfl | hb
    · exact ⟨fun _ => by show s.Owns (s.rsp - _) n; rw [hp]; exact o1 n hn, fun _ e => by simp [stackBlock] at e,
        fun _ e => by simp [stackBlock] at e⟩
    · rcases List.mem_cons.mp hb with rfl | hb
      · exact ⟨fun _ => o2, fun _ e => by simp [outBlock] at e, fun _ e => by simp [outBlock] at e⟩
      · obtain ⟨p, hq, rfl⟩ := List.mem_map.mp hb
        refine ⟨fun e => by simp [inBlock] at e, fun ws e => ?_, fun ws e => ?_⟩
        · obtain rfl : p.2 = ws := by simpa [inBlock] using e
          rfl
        · obtain rfl : p.2 = ws := by simpa [inBlock] using e
          rw [hm]
          exact a4 p (hr p hq)
  · rw [List.pairwise_cons, List.pairwise_cons]
    refine ⟨fun b hb _ => ?_, fun b hb _ => ?_, ?_⟩
    · show Apart (s.rsp - _) n _ _
      rw [hp]
      rcases List.mem_cons.mp hb with rfl | hb
      · exact a3 n hn
      · obtain ⟨p, hq, rfl⟩ := List.mem_map.mp hb
        exact a1 n hn p (hr p hq)
    · obtain ⟨p, hq, rfl⟩ := List.mem_map.mp hb
      exact a2 p (hr p hq)
    · rw [List.pairwise_map]
      exact List.Pairwise.imp_of_mem (R := fun _ _ => True) (fun _ _ _ h => by simp [inBlock] at h) (List.pairwise_of_forall fun _ _ => trivial)

example := C60_mul { vSt with rdx := 2#64, r8 := 2#64, r9 := 0x4000#64 } wY wM 2 (by decide) (by decide) (by decide) rfl rfl rfl
  (v_ready (ro := [(0x3000#64, wY), (0x4000#64, wM)]) (by decide) rfl rfl rfl (by decide +kernel))
example :=
  C60_montmul vSt wX wY wM 2 (by decide) rfl rfl rfl (by decide +kernel) (by decide +kernel) rfl
    (v_ready (ro := [(0x2000#64, wX), (0x3000#64, wY), (0x4000#64, wM)]) (by decide) rfl rfl rfl (by decide +kernel))
example := C60_montsqr { vSt with rcx := 0x4000#64 } wX wM 2 (by decide) rfl rfl (by decide +kernel) (by decide +kernel) rfl
  (v_ready (ro := [(0x2000#64, wX), (0x4000#64, wM)]) (by decide) rfl rfl rfl (by decide +kernel))
example := C60_montredc { vSt with rdx := 2#64, r9 := 1#64 } wY wM 2 1 (by decide) (by decide) (by decide) (by decide) rfl
  (by decide +kernel) (by decide +kernel) rfl rfl rfl
  (v_ready (ro := [(0x3000#64, wY), (0x4000#64, wM)]) (by decide) rfl rfl rfl (by decide +kernel))
example := C60_demont { vSt with rcx := 0x4000#64 } wX wM 2 (by decide) rfl rfl (by decide +kernel) rfl
  (v_ready (ro := [(0x2000#64, wX), (0x4000#64, wM)]) (by decide) rfl rfl rfl (by decide +kernel))
example := C60_negmodinv vSt wX 2 (by decide) rfl (by decide +kernel) rfl
  (v_ready (ro := [(0x2000#64, wX)]) (by decide) rfl rfl rfl (by decide +kernel))

end Verif.Props
