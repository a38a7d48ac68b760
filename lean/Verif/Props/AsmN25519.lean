import Verif.Proof.X86.Neg25519
import Verif.Proof.X86.MaddN25519
import Verif.Proof.X86.ReadyOf
import Verif.Props.AsmMont
import Verif.Model.Ed25519

/-!
C69: the machine code that Ed25519 uses beside the multiplications of points: the negative in the field, and the
arithmetic of scalars modulo the order of the group.
-/
namespace Verif.Props
open Verif X86

/-- `bignum_neg_p25519`: the negative of a reduced number modulo the prime of the field. -/
theorem C69_neg_p25519 (s : X86.St) (x : Words) (hx : x.length = 4) (xr : val x < Spec.Ed25519.p)
    (h : Ready s [outBlock s.rdi 4, inBlock s.rsi x]) :
    Runs Asm.bignumNegP25519 s fun s' => Holds s'.mem s.rdi (toWords 4 ((Spec.Ed25519.p - val x) % Spec.Ed25519.p)) ∧
      Untouched [outBlock s.rdi 4, inBlock s.rsi x] s s' :=
  negP25519_ok s x hx xr h

/-- `bignum_mod_n25519`: the remainder modulo the order of the group, of a number of any length. -/
theorem C69_mod_n25519 (s : X86.St) (x : Words) (hk : x.length < 2 ^ 61) (rn : s.rsi = BitVec.ofNat 64 x.length)
    (h : Ready s [stackBlock s 3, outBlock s.rdi 4, inBlock s.rdx x]) :
    Runs Asm.bignumModN25519 s fun s' => Holds s'.mem s.rdi (toWords 4 (val x % Spec.Ed25519.L)) ∧
      Untouched [stackBlock s 3, outBlock s.rdi 4, inBlock s.rdx x] s s' := by
  obtain ⟨h1, h2, h3, h4, h5, h6⟩ := Ready.parts (ro := [(s.rdx, x)]) h
  obtain ⟨f, s', hr, hh, he⟩ := modN25519_ok s x hk rn h1 h2 h3 h4 h5 h6
  exact ⟨f, s', hr, hh, Env.untouched (ro := [(s.rdx, x)]) (n := 3) he⟩

/-- `bignum_madd_n25519`: a product and a sum modulo the order of the group, for any numbers of four words. -/
theorem C69_madd_n25519 (s : X86.St) (x y c : Words) (hx : x.length = 4) (hy : y.length = 4) (hc : c.length = 4)
    (h : Ready s [stackBlock s 6, outBlock s.rdi 4, inBlock s.rsi x, inBlock s.rdx y, inBlock s.rcx c]) :
    Runs Asm.bignumMaddN25519 s fun s' => Holds s'.mem s.rdi (toWords 4 ((val x * val y + val c) % Spec.Ed25519.L)) ∧
      Untouched [stackBlock s 6, outBlock s.rdi 4, inBlock s.rsi x, inBlock s.rdx y, inBlock s.rcx c] s s' := by
  obtain ⟨h1, h2, h3, h4, h5, h6⟩ := Ready.parts (ro := [(s.rsi, x), (s.rdx, y), (s.rcx, c)]) h
  obtain ⟨f, s', hr, hh, he⟩ := Sym.maddN25519_ok s x y c hx hy hc h1 h2 h3 h4 h5 h6
  exact ⟨f, s', hr, hh, Env.untouched (ro := [(s.rsi, x), (s.rdx, y), (s.rcx, c)]) (n := 6) he⟩

/-- The words of a number of `N` words. -/
def eltWords {N : Nat} (v : Ec.Elt N) : Words := toWords N v.toNat

theorem eltWords_length {N : Nat} (v : Ec.Elt N) : (eltWords v).length = N := toWords_length _ _
theorem eltWords_val {N : Nat} (v : Ec.Elt N) : val (eltWords v) = v.toNat := val_toWords_of_lt v.isLt

/-- The machine code computes the functions about which the theorems on Ed25519 (C38) make assumptions. -/
theorem C69_contract (A : Ed25519.Asm) (hA : A.Ok) :
    (∀ (s : X86.St) (x : Ec.Elt 4), x.toNat < Spec.Ed25519.p → Ready s [outBlock s.rdi 4, inBlock s.rsi (eltWords x)] →
      Runs Asm.bignumNegP25519 s fun s' => Holds s'.mem s.rdi (eltWords (A.negP x))) ∧
    (∀ (s : X86.St) (x : Ec.Elt 8), s.rsi = 8#64 → Ready s [stackBlock s 3, outBlock s.rdi 4, inBlock s.rdx (eltWords x)] →
      Runs Asm.bignumModN25519 s fun s' => Holds s'.mem s.rdi (eltWords (A.modN x))) ∧
    ∀ (s : X86.St) (x y c : Ec.Elt 4),
      Ready s [stackBlock s 6, outBlock s.rdi 4, inBlock s.rsi (eltWords x), inBlock s.rdx (eltWords y), inBlock s.rcx (eltWords c)] →
      Runs Asm.bignumMaddN25519 s fun s' => Holds s'.mem s.rdi (eltWords (A.maddN x y c)) := by
  refine ⟨fun s x hx h => ?_, fun s x hs h => ?_, fun s x y c h => ?_⟩
  · obtain ⟨f, s', hr, hh, -⟩ := C69_neg_p25519 s (eltWords x) (eltWords_length x) (by rwa [eltWords_val]) h
    refine ⟨f, s', hr, ?_⟩
    rwa [eltWords_val, ← hA.negP x hx] at hh
  · obtain ⟨f, s', hr, hh, -⟩ := C69_mod_n25519 s (eltWords x) (by rw [eltWords_length]; decide) (by rw [eltWords_length]; exact hs) h
    refine ⟨f, s', hr, ?_⟩
    rwa [eltWords_val, ← hA.modN x] at hh
  · obtain ⟨f, s', hr, hh, -⟩ := C69_madd_n25519 s (eltWords x) (eltWords y) (eltWords c) (eltWords_length x) (eltWords_length y)
      (eltWords_length c) h
    refine ⟨f, s', hr, ?_⟩
    rwa [eltWords_val, eltWords_val, eltWords_val, ← hA.maddN x y c] at hh

/-! States in which the hypotheses hold, for each reduced number, each number of up to 512 words, and each three numbers. -/

example (x : Words) (hx : x.length = 4) (xr : val x < Spec.Ed25519.p) :=
  C69_neg_p25519 (callSt x []) x hx xr (callSt_one 0 4 (by omega) (by decide) (by decide)).2

example (y : Words) (hy : y.length ≤ 512) :=
  have h := (callSt_two (x := []) 3 4 (by simp) hy (by decide) (by decide)).1
  C69_mod_n25519 { callSt [] y with rsi := BitVec.ofNat 64 y.length } y (by omega) rfl
    ⟨fun b hb => have k := h.ok b (by revert hb; simp only [List.mem_cons]; rintro (e | e | e | e) <;> simp_all [stackBlock, callSt])
      ⟨k.owns, k.len, k.holds⟩,
     h.apart.sublist (((List.Sublist.refl _).cons _).cons_cons _ |>.cons_cons _)⟩

example (x y : Words) (hx : x.length = 4) (hy : y.length = 4) :=
  have h := (callSt_two (x := x) (y := y) 6 4 (by omega) (by omega) (by decide) (by decide)).1
  C69_madd_n25519 { callSt x y with rcx := 0x3000#64 } x y y hx hy hy
    ⟨fun b hb => have k := h.ok b (by revert hb; simp only [List.mem_cons]; rintro (e | e | e | e | e | e) <;> simp_all [stackBlock, callSt])
      ⟨k.owns, k.len, k.holds⟩, by
      have a := h.apart
      simp only [List.pairwise_cons, List.mem_cons, List.not_mem_nil, or_false, forall_eq_or_imp, forall_eq] at a ⊢
      obtain ⟨⟨a1, a2, a3⟩, ⟨a4, a5⟩, -⟩ := a
      refine ⟨⟨a1, a2, a3, a3⟩, ⟨a4, a5, a5⟩, ⟨?_, ?_⟩, ?_, ?_⟩ <;> simp [inBlock]⟩

end Verif.Props
