import Verif.Spec.AsmCall

/-! States that meet the hypotheses of the theorems about calls. -/
namespace Verif.X86
open Verif

/-- The inputs at 0x2000 and 0x3000, the output at 0x1000, the stack below 0x800; what is below 0x2000 may be written. -/
def callSt (x y : Words) : St where
  rax := 0#64
  rbx := 0#64
  rcx := 0#64
  rdx := 0x3000#64
  rsi := 0x2000#64
  rdi := 0x1000#64
  rbp := 0#64
  rsp := 0x800#64
  r8 := 0#64
  r9 := 0#64
  r10 := 0#64
  r11 := 0#64
  r12 := 0#64
  r13 := 0#64
  r14 := 0#64
  r15 := 0#64
  cf := none
  zf := none
  sf := none
  of := none
  mem := fun a =>
    if a.toNat % 8 ≠ 0 then none else if a.toNat < 0x2000 then some 0#64 else
    if a.toNat < 0x3000 then x[(a.toNat - 0x2000) / 8]? else y[(a.toNat - 0x3000) / 8]?
  wr := fun a => a.toNat < 0x2000
  junk := 0#64
  sym := fun _ => 0#64

theorem word_num {p i : Nat} (h : p + 8 * i < 2 ^ 64) : (word (BitVec.ofNat 64 p) i).toNat = p + 8 * i := by
  simp only [word, BitVec.toNat_add, BitVec.toNat_mul, BitVec.toNat_ofNat]
  omega

theorem apart_num {p k q l : Nat} (hp : p + 8 * k < 2 ^ 64) (hq : q + 8 * l < 2 ^ 64) (h : p + 8 * k ≤ q ∨ q + 8 * l ≤ p) :
    Apart (BitVec.ofNat 64 p) k (BitVec.ofNat 64 q) l := by
  intro i hi j hj e
  have := congrArg BitVec.toNat e
  rw [word_num (by omega), word_num (by omega)] at this
  omega

theorem callSt_owns (x y : Words) {p k : Nat} (h : p + 8 * k ≤ 0x2000) : (callSt x y).Owns (BitVec.ofNat 64 p) k := by
  intro i hi
  show decide _ = true
  rw [word_num (by omega), decide_eq_true_eq]
  omega

theorem callSt_x {x y : Words} (h : x.length ≤ 512) : Holds (callSt x y).mem 0x2000#64 x := by
  intro i hi
  show (if _ then _ else _) = _
  rw [word_num (by omega), if_neg (by omega), if_neg (by omega), if_pos (by omega),
    show (0x2000 + 8 * i - 0x2000) / 8 = i by omega, List.getElem?_eq_getElem hi]

theorem callSt_y {x y : Words} (h : y.length ≤ 512) : Holds (callSt x y).mem 0x3000#64 y := by
  intro i hi
  show (if _ then _ else _) = _
  rw [word_num (by omega), if_neg (by omega), if_neg (by omega), if_neg (by omega),
    show (0x3000 + 8 * i - 0x3000) / 8 = i by omega, List.getElem?_eq_getElem hi]

theorem stack_at {n : Nat} (h : n ≤ 256) : 0x800#64 - BitVec.ofNat 64 (8 * n) = BitVec.ofNat 64 (0x800 - 8 * n) := by
  apply BitVec.eq_of_toNat_eq
  simp only [BitVec.toNat_sub, BitVec.toNat_ofNat]
  omega

theorem callSt_two {x y : Words} (n k : Nat) (hx : x.length ≤ 512) (hy : y.length ≤ 512) (hn : n ≤ 256) (hk : k ≤ 512) :
    Ready (callSt x y) [stackBlock (callSt x y) n, outBlock (callSt x y).rdi k, inBlock (callSt x y).rsi x,
      inBlock (callSt x y).rdx y] ∧
    Ready (callSt x y) [outBlock (callSt x y).rdi k, inBlock (callSt x y).rsi x, inBlock (callSt x y).rdx y] := by
  have main : Ready (callSt x y) [stackBlock (callSt x y) n, outBlock (callSt x y).rdi k, inBlock (callSt x y).rsi x,
      inBlock (callSt x y).rdx y] := by
    have e : stackBlock (callSt x y) n = ⟨BitVec.ofNat 64 (0x800 - 8 * n), n, true, none⟩ := by
      rw [← stack_at hn]
      rfl
    rw [e]
    constructor
    · simp only [List.forall_mem_cons]
      refine ⟨⟨fun _ => callSt_owns x y (by dsimp only; omega), (by intro ws h; cases h), by intro ws h; cases h⟩,
        ⟨fun _ => callSt_owns x y (p := 0x1000) (by dsimp only [outBlock]; omega), (by intro ws h; cases h),
          by intro ws h; cases h⟩,
        ⟨(by intro h; cases h), (by intro ws h; cases h; rfl), by intro ws h; cases h; exact callSt_x hx⟩,
        ⟨(by intro h; cases h), (by intro ws h; cases h; rfl), by intro ws h; cases h; exact callSt_y hy⟩, ?_⟩
      intro b hb
      cases hb
    · simp only [List.pairwise_cons, List.forall_mem_cons, outBlock, inBlock]
      refine ⟨⟨fun _ => apart_num (q := 0x1000) (by omega) (by omega) (by omega),
        fun _ => apart_num (q := 0x2000) (by omega) (by omega) (by omega),
        fun _ => apart_num (q := 0x3000) (by omega) (by omega) (by omega), by intro b hb; cases hb⟩,
        ⟨fun _ => apart_num (p := 0x1000) (q := 0x2000) (by omega) (by omega) (by omega),
        fun _ => apart_num (p := 0x1000) (q := 0x3000) (by omega) (by omega) (by omega), by intro b hb; cases hb⟩,
        ⟨?_, by intro b hb; cases hb⟩, (by intro b hb; cases hb), List.Pairwise.nil⟩
      intro h
      simp at h
  exact ⟨main, fun b hb => main.ok b (List.mem_cons_of_mem _ hb), (List.pairwise_cons.mp main.apart).2⟩

theorem callSt_one {x : Words} (n k : Nat) (hx : x.length ≤ 512) (hn : n ≤ 256) (hk : k ≤ 512) :
    Ready (callSt x []) [stackBlock (callSt x []) n, outBlock (callSt x []).rdi k, inBlock (callSt x []).rsi x] ∧
    Ready (callSt x []) [outBlock (callSt x []).rdi k, inBlock (callSt x []).rsi x] := by
  have main := callSt_two (x := x) (y := []) n k hx (by decide) hn hk
  constructor
  · refine ⟨fun b hb => main.1.ok b ?_, List.Pairwise.sublist ?_ main.1.apart⟩
    · exact (List.Sublist.subset (by exact .cons_cons _ (.cons_cons _ (.cons_cons _ (.cons _ .slnil)))) : _ ⊆ _) hb
    · exact .cons_cons _ (.cons_cons _ (.cons_cons _ (.cons _ .slnil)))
  · refine ⟨fun b hb => main.2.ok b ?_, List.Pairwise.sublist ?_ main.2.apart⟩
    · exact (List.Sublist.subset (by exact .cons_cons _ (.cons_cons _ (.cons _ .slnil))) : _ ⊆ _) hb
    · exact .cons_cons _ (.cons_cons _ (.cons _ .slnil))

end Verif.X86
