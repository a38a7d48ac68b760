import Verif.Proof.Ct
import Verif.Proof.X86.Cpu
import Verif.Props.AsmX86

/-!
C66: the machine code that clears secrets (`_zero_bytes`, behind every `zeroise`) and that compares secrets (`ct_compare_bytes`, behind `ct_equal`),
low/x86_64/cpu.rs.  `Asm.zeroBytes` and `Asm.ctCompareBytes` are the `asm!` blocks, for every choice of registers by the compiler.
-/
namespace Verif.Props
open Verif Verif.X86

/-- **C66** Clearing `n` bytes ends with zero in each of them, and changes no other memory, no general register but the two given to it and no
vector register but the one given to it.  (`n` below `2^63`, as the size of any Rust object is.) -/
theorem C66_zero (z : Nat) (p l : Reg) (hpl : p ≠ l) (n : Nat) (hn : n < 2 ^ 63) (t : BSt) (hl : t.s.get l = BitVec.ofNat 64 n)
    (hw : ∀ i < n, t.bw (badr (t.s.get p) i) = true) :
    BRuns (Asm.zeroBytes z p l) t fun t' => (∀ i < n, t'.bm (badr (t.s.get p) i) = some 0#8) ∧
      (∀ a, ¬ InB (t.s.get p) n a → t'.bm a = t.bm a) ∧ (∀ q, q ≠ p → q ≠ l → t'.s.get q = t.s.get q) ∧ ∀ r, r ≠ z → t'.x r = t.x r := by
  obtain ⟨f, t', e, q⟩ := Cpu.zero_ok z hpl n t hn hl hw
  exact ⟨f, t', e, q.zero, q.rest, q.regs, q.vecs⟩

/-- **C66** Comparing two strings of any one length reads them without a fault, and gives zero exactly if they are equal.  Memory, vector registers
and all general registers but those given to it stay as they were. -/
theorem C66_compare (a b l c o : Reg) (hd : [a, b, l, c, o].Nodup) (A B : Bytes) (hAB : A.length = B.length) (hn : A.length < 2 ^ 64) (t : BSt)
    (hl : t.s.get l = BitVec.ofNat 64 A.length) (ho : t.s.getb o = 0#8) (hA : HoldsB t.bm (t.s.get a) A) (hB : HoldsB t.bm (t.s.get b) B) :
    BRuns (Asm.ctCompareBytes a b l c o) t fun t' => (t'.s.getb o = 0#8 ↔ A = B) ∧ t'.bm = t.bm ∧ t'.x = t.x ∧
      ∀ q, q ∉ [a, b, l, c, o] → t'.s.get q = t.s.get q := by
  have hd : Cpu.Distinct a b l c o := by
    simp only [List.nodup_cons, List.mem_cons, List.not_mem_nil, or_false, not_or, List.nodup_nil, not_false_eq_true, and_true] at hd
    obtain ⟨⟨h1, h2, h3, h4⟩, ⟨h5, h6, h7⟩, ⟨h8, h9⟩, h10⟩ := hd
    exact ⟨h1, h2, h3, h4, h5, h6, h7, h8, h9, h10⟩
  obtain ⟨f, t', e, q1, q2, q3, q4⟩ := Cpu.compare_from hd A B t hAB hn hl hA hB
  refine ⟨f, t', e, ?_, q2, q3, fun q hq => ?_⟩
  · rw [q1, ho, Ct.compareLoop_zero A B _ hAB]
    exact ⟨fun h => h.2, fun h => ⟨rfl, h⟩⟩
  · simp only [List.mem_cons, List.not_mem_nil, or_false, not_or] at hq
    exact q4 q hq.1 hq.2.1 hq.2.2.1 hq.2.2.2.1 hq.2.2.2.2

/-- **C66** What an observer sees of a comparison (the instructions executed and the addresses read) does not depend on the strings compared, nor on
anything else in memory or in the other registers: not even on where the strings first differ. -/
theorem C66_compare_constant_time (a b l c o : Reg) (hd : [a, b, l, c, o].Nodup) (t t' : BSt) (ha : t.s.get a = t'.s.get a)
    (hb : t.s.get b = t'.s.get b) (hl : t.s.get l = t'.s.get l) (hm : ∀ w, (t.bm w).isSome = (t'.bm w).isSome) (fuel : Nat) :
    btrace (Asm.ctCompareBytes a b l c o) fuel 0 t = btrace (Asm.ctCompareBytes a b l c o) fuel 0 t' := by
  have hd : Cpu.Distinct a b l c o := by
    simp only [List.nodup_cons, List.mem_cons, List.not_mem_nil, or_false, not_or, List.nodup_nil, not_false_eq_true, and_true] at hd
    obtain ⟨⟨h1, h2, h3, h4⟩, ⟨h5, h6, h7⟩, ⟨h8, h9⟩, h10⟩ := hd
    exact ⟨h1, h2, h3, h4, h5, h6, h7, h8, h9, h10⟩
  exact Cpu.trace_alike hd fuel 0 t t' ⟨ha, hb, hl, hm, fun e => absurd e (by decide)⟩

/-! ### States in which the hypotheses hold -/

/-- 70 writable bytes at address 64, other memory not writable. -/
def wipeSt : BSt where
  s := { wSt with rdi := 64#64, rsi := 70#64 }
  bm a := if a.toNat < 1024 then some (BitVec.ofNat 8 (a.toNat + 1)) else none
  bw a := 64 ≤ a.toNat && a.toNat < 134
  x _ _ := 0x5a#8

example := C66_zero 3 .rdi .rsi (by decide) 70 (by decide) wipeSt rfl fun i hi => by
  show (decide (64 ≤ (badr 64#64 i).toNat) && decide ((badr 64#64 i).toNat < 134)) = true
  have : (badr 64#64 i).toNat = 64 + i := by
    unfold badr
    rw [BitVec.toNat_add, BitVec.toNat_ofNat, BitVec.toNat_ofNat]
    omega
  rw [this, Bool.and_eq_true, decide_eq_true_iff, decide_eq_true_iff]
  omega

/-- Two strings of three bytes, at 16 and at 32, that differ in the last. -/
def cmpSt (v : Byte) : BSt where
  s := { wSt with rdi := 16#64, rsi := 32#64, rdx := 3#64, rax := 0#64, rcx := 0#64 }
  bm a := ([1#8, 2#8, 3#8][a.toNat - 16]?).or ([1#8, 2#8, v][a.toNat - 32]?)
  bw _ := false
  x _ _ := 0x5a#8

example (v : Byte) := C66_compare .rdi .rsi .rdx .rcx .rax (by decide) [1#8, 2#8, 3#8] [1#8, 2#8, v] rfl (by decide) (cmpSt v) rfl rfl
  (fun i hi => by
    match i, hi with
    | 0, _ | 1, _ | 2, _ => rfl)
  (fun i hi => by
    match i, hi with
    | 0, _ | 1, _ | 2, _ => rfl)

example (v w : Byte) := C66_compare_constant_time .rdi .rsi .rdx .rcx .rax (by decide) (cmpSt v) (cmpSt w) rfl rfl rfl
  fun a => by
    show (Option.or _ _).isSome = (Option.or _ _).isSome
    rw [Option.isSome_or, Option.isSome_or]
    refine congrArg (_ || ·) ?_
    generalize a.toNat - 32 = i
    match i with
    | 0 | 1 | 2 | n + 3 => rfl

end Verif.Props
