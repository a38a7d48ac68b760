import Verif.Proof.X86.Emontredc
import Verif.Proof.X86.ReadyOf

/-!
C60, continued: the Montgomery reduction that RSA uses, for a modulus of any multiple of eight words.
-/
namespace Verif.Props
open Verif X86 X86.Sym

theorem low_word {m : Words} {w : Word} (h : (val m * w.toNat + 1) % 2 ^ 64 = 0) :
    0 < m.length ∧ ((wd m 0).toNat * w.toNat + 1) % 2 ^ 64 = 0 := by
  cases m with
  | nil => simp [val] at h
  | cons a m =>
    refine ⟨Nat.succ_pos _, ?_⟩
    have e : val (a :: m) * w.toNat + 1 = (a.toNat * w.toNat + 1) + 2 ^ 64 * (val m * w.toNat) := by
      rw [val]
      ring
    rw [e, Nat.add_mul_mod_self_left] at h
    exact h

/-- `bignum_emontredc_8n`: a multiple `q * m` with `q < 2^(64 k)` is added to `z` that makes the sum a multiple of `2^(64 k)`; the
high half of the array and the carry returned are the sum divided by `2^(64 k)`.  `w` is the negated inverse of `m` modulo `2^64`. -/
theorem C60_emontredc_8n (s : St) (z m : Words) (k : Nat) (hk : k < 2 ^ 57) (h8 : k % 8 = 0) (hm : m.length = k)
    (hz : z.length = 2 * k) (hw : (val m * s.rcx.toNat + 1) % 2 ^ 64 = 0) (rk : s.rdi = BitVec.ofNat 64 k)
    (h : Ready s [stackBlock s 10, ⟨s.rsi, 2 * k, true, some z⟩, inBlock s.rdx m]) :
    Runs Asm.bignumEmontredc8n s fun s' => (∃ (lo hi : Words) (q c : Nat), lo.length = k ∧ hi.length = k ∧
        Holds s'.mem s.rsi (lo ++ hi) ∧ s'.rax = BitVec.ofNat 64 c ∧ c ≤ 1 ∧ q < 2 ^ (64 * k) ∧
        val z + q * val m = 2 ^ (64 * k) * (val hi + 2 ^ (64 * k) * c)) ∧
      Untouched [stackBlock s 10, ⟨s.rsi, 2 * k, true, some z⟩, inBlock s.rdx m] s s' := by
  obtain ⟨hl, hw0⟩ := low_word hw
  obtain ⟨n, rfl⟩ : ∃ n, k = 8 * n := ⟨k / 8, by omega⟩
  have e16 : 2 * (8 * n) = 16 * n := by omega
  have e64 : 64 * (8 * n) = 512 * n := by omega
  rw [e16] at h hz ⊢
  rw [e64]
  have o1 := (h.ok _ (List.mem_cons_self ..)).owns rfl
  have o2 := h.ok _ (List.mem_cons_of_mem _ (List.mem_cons_self ..))
  have o3 := h.ok _ (List.mem_cons_of_mem _ (List.mem_cons_of_mem _ (List.mem_cons_self ..)))
  have a := List.pairwise_cons.mp h.apart
  have a12 := a.1 _ (List.mem_cons_self ..) (Or.inl rfl)
  have a13 := a.1 _ (List.mem_cons_of_mem _ (List.mem_cons_self ..)) (Or.inl rfl)
  have a23 := (List.pairwise_cons.mp a.2).1 _ (List.mem_cons_self ..) (Or.inl rfl)
  have C : EmCtx s n m (s.rsp - 80#64) := by
    refine ⟨by omega, by omega, hm, o2.owns rfl, o1, ?_, ?_, fun i hi j hj e => a12 j hj i hi e.symm⟩
    · rw [← hm]
      exact a23
    · rw [← hm]
      exact a13
  obtain ⟨f, s', hr, lo, hi, c, q, e1, e2, e3, e4, e5, e6, e7, e8⟩ := em_ok s m z n C (o2.holds _ rfl) hz (o3.holds _ rfl) rk hw0
  refine ⟨f, s', hr, ⟨lo, hi, q, c, e2, e3, e1, e5, e6, e4, e7⟩, fun p hp => e8 p (fun i hi => ?_) fun i hi => ?_⟩
  · exact hp _ (List.mem_cons_of_mem _ (List.mem_cons_self ..)) rfl i hi
  · exact hp _ (List.mem_cons_self ..) rfl i hi

/-! A state in which the hypotheses hold: a modulus of 1024 bits, all ones, and its negated inverse, which is one. -/

def emM : Words := List.replicate 16 0xffffffffffffffff#64
def emZ : Words := (List.range 32).map fun i => BitVec.ofNat 64 (7919 * i + 1)
def emS : St := { callSt emM emZ with rdi := 16#64, rsi := 0x1000#64, rdx := 0x2000#64, rcx := 1#64,
                                      mem := fun a => if 0x1000 ≤ a.toNat ∧ a.toNat < 0x1100 ∧ a.toNat % 8 = 0 then emZ[(a.toNat - 0x1000) / 8]?
                                        else (callSt emM emZ).mem a }

theorem em_ready : Ready emS [stackBlock emS 10, ⟨emS.rsi, 32, true, some emZ⟩, inBlock emS.rdx emM] := by
  have o1 : emS.Owns (0x800#64 - 80#64) 10 := by unfold St.Owns; decide +kernel
  have o2 : emS.Owns 0x1000#64 32 := by unfold St.Owns; decide +kernel
  have m2 : Holds emS.mem 0x1000#64 emZ := by unfold Holds; decide +kernel
  have m3 : Holds emS.mem 0x2000#64 emM := by unfold Holds; decide +kernel
  have a1 : Apart (0x800#64 - 80#64) 10 0x1000#64 32 := by unfold Apart; decide +kernel
  have a2 : Apart (0x800#64 - 80#64) 10 0x2000#64 16 := by unfold Apart; decide +kernel
  have a3 : Apart 0x1000#64 32 0x2000#64 16 := by unfold Apart; decide +kernel
  refine ⟨fun b hb => ?_, ?_⟩
  · simp only [List.mem_cons, List.not_mem_nil, or_false] at hb
    rcases hb with rfl | rfl | rfl
    · exact ⟨fun _ => o1, fun _ e => (by cases e), fun _ e => (by cases e)⟩
    · exact ⟨fun _ => o2, fun _ e => (by cases e; rfl), fun _ e => (by cases e; exact m2)⟩
    · exact ⟨fun e => (by cases e), fun _ e => (by cases e; rfl), fun _ e => (by cases e; exact m3)⟩
  · refine List.Pairwise.cons ?_ (List.Pairwise.cons ?_ (List.pairwise_singleton _ _))
    · intro B hB _
      simp only [List.mem_cons, List.not_mem_nil, or_false] at hB
      rcases hB with rfl | rfl
      · exact a1
      · exact a2
    · intro B hB _
      simp only [List.mem_cons, List.not_mem_nil, or_false] at hB
      subst hB
      exact a3

example := C60_emontredc_8n emS emZ emM 16 (by decide) rfl rfl rfl (by decide +kernel) rfl em_ready

end Verif.Props
