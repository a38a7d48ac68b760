import Verif.Model.AsmX86.N25519
import Verif.Proof.X86.Env
import Verif.Spec.AsmCall

/-!
`bignum_neg_p25519`: the negative modulo the prime of curve25519.
-/
namespace Verif.X86
open Verif

theorem or_zero {a b : Word} : a ||| b = 0#64 ↔ a = 0#64 ∧ b = 0#64 := BitVec.or_eq_zero_iff

theorem clear_top (a : Word) : (a &&& ~~~ (1#64 <<< 63)).toNat = a.toNat % 2 ^ 63 := by
  have : (~~~ (1#64 <<< 63) : Word) = BitVec.ofNat 64 (2 ^ 63 - 1) := by decide
  rw [this, BitVec.toNat_and, toNat_ofNat' (by decide), Nat.and_two_pow_sub_one_eq_mod]

/-- The words that are stored. -/
def neg25519 (a b c d : Word) : Words :=
  let m := msk (sbbc 0#64 (a ||| b ||| c ||| d) false)
  let u := 0xffffffffffffffed#64 &&& m
  [sbbv u a false, sbbv m b (sbbc u a false), sbbv m c (sbbc m b (sbbc u a false)),
    sbbv m d (sbbc m c (sbbc m b (sbbc u a false))) &&& ~~~ (1#64 <<< 63)]

theorem neg25519_val (a b c d : Word) (h : val [a, b, c, d] < 2 ^ 255 - 19) :
    val (neg25519 a b c d) = (2 ^ 255 - 19 - val [a, b, c, d]) % (2 ^ 255 - 19) := by
  by_cases z : a ||| b ||| c ||| d = 0#64
  · obtain ⟨z1, hd⟩ := or_zero.mp z
    obtain ⟨z2, hc⟩ := or_zero.mp z1
    obtain ⟨ha, hb⟩ := or_zero.mp z2
    subst ha hb hc hd
    clear z z1 z2 h
    decide +kernel
  · have hm : msk (sbbc 0#64 (a ||| b ||| c ||| d) false) = 0xffffffffffffffff#64 := by
      have : sbbc 0#64 (a ||| b ||| c ||| d) false = true := by
        unfold sbbc
        rw [decide_eq_true_eq]
        have : (a ||| b ||| c ||| d).toNat ≠ 0 := fun e => z (BitVec.eq_of_toNat_eq e)
        show 0 < _ + 0
        omega
      rw [this]
      rfl
    have hv : 0 < val [a, b, c, d] := by
      by_contra h0
      simp only [val] at h0
      have ha : a = 0#64 := BitVec.eq_of_toNat_eq (by show a.toNat = 0; omega)
      have hb : b = 0#64 := BitVec.eq_of_toNat_eq (by show b.toNat = 0; omega)
      have hc : c = 0#64 := BitVec.eq_of_toNat_eq (by show c.toNat = 0; omega)
      have hd : d = 0#64 := BitVec.eq_of_toNat_eq (by show d.toNat = 0; omega)
      subst ha hb hc hd
      exact z rfl
    have hu : (0xffffffffffffffed#64 &&& 0xffffffffffffffff#64 : Word) = 0xffffffffffffffed#64 := by decide
    rw [Nat.mod_eq_of_lt (by omega)]
    simp only [neg25519, hm, hu, val, clear_top] at h hv ⊢
    have e0 := sbb_val 0xffffffffffffffed#64 a false
    have e1 := sbb_val 0xffffffffffffffff#64 b (sbbc 0xffffffffffffffed#64 a false)
    generalize sbbc 0xffffffffffffffed#64 a false = b0 at *
    have e2 := sbb_val 0xffffffffffffffff#64 c (sbbc 0xffffffffffffffff#64 b b0)
    generalize sbbc 0xffffffffffffffff#64 b b0 = b1 at *
    have e3 := sbb_val 0xffffffffffffffff#64 d (sbbc 0xffffffffffffffff#64 c b1)
    generalize sbbc 0xffffffffffffffff#64 c b1 = b2 at *
    generalize sbbc 0xffffffffffffffff#64 d b2 = b3 at *
    generalize sbbv 0xffffffffffffffed#64 a false = d0 at *
    generalize sbbv 0xffffffffffffffff#64 b b0 = d1 at *
    generalize sbbv 0xffffffffffffffff#64 c b1 = d2 at *
    generalize sbbv 0xffffffffffffffff#64 d b2 = d3 at *
    rw [show (0xffffffffffffffed#64 : Word).toNat = 2 ^ 64 - 19 from by decide] at e0
    rw [show (0xffffffffffffffff#64 : Word).toNat = 2 ^ 64 - 1 from by decide] at e1 e2 e3
    rw [show Bool.toNat false = 0 from rfl] at e0
    have := d0.isLt
    have := d1.isLt
    have := d2.isLt
    have := d3.isLt
    have := Bool.toNat_le b0
    have := Bool.toNat_le b1
    have := Bool.toNat_le b2
    have := Bool.toNat_le b3
    omega

/-- The run. -/
theorem neg25519_run (s : St) (a b c d : Word) (hi : Holds s.mem s.rsi [a, b, c, d]) (ho : s.Owns s.rdi 4) :
    Runs Asm.bignumNegP25519 s fun s' => Holds s'.mem s.rdi (neg25519 a b c d) ∧ OnlyAt s.rdi 4 s.mem s'.mem := by
  apply runs_of_from
  have l0 : s.mem (word s.rsi 0) = some a := hi 0 (by simp)
  have l1 : s.mem (word s.rsi 1) = some b := hi 1 (by simp)
  have l2 : s.mem (word s.rsi 2) = some c := hi 2 (by simp)
  have l3 : s.mem (word s.rsi 3) = some d := hi 3 (by simp)
  have w0 := ho 0 (by decide)
  have w1 := ho 1 (by decide)
  have w2 := ho 2 (by decide)
  have w3 := ho 3 (by decide)
  rw [word_zero] at l0 w0
  have a1 : ∀ p : Word, p + 8#64 = word p 1 := fun _ => rfl
  have a2 : ∀ p : Word, p + 16#64 = word p 2 := fun _ => rfl
  have a3 : ∀ p : Word, p + 24#64 = word p 3 := fun _ => rfl
  xstep []
  xstep [l0]
  xstep []
  xstep [a1, l1]
  xstep []
  xstep [a2, l2]
  xstep []
  xstep [a3, l3]
  xstep []
  xstep []
  xstep [sbb_self]
  xstep []
  xstep []
  xstep []
  xstep [w0]
  xstep []
  xstep []
  xstep [a1, w1]
  xstep []
  xstep []
  xstep [a2, w2]
  xstep []
  xstep []
  xstep [a3, w3]
  refine From.halt rfl ⟨?_, ?_⟩
  · have i0 := (Holds.nil s.mem s.rdi).snoc (by decide) (i := 0) rfl (sbbv (0xffffffffffffffed#64 &&& msk (sbbc 0#64 (a ||| b ||| c ||| d) false)) a false)
    rw [word_zero] at i0
    exact ((i0.snoc (by simp) (i := 1) rfl _).snoc (by simp) (i := 2) rfl _).snoc (by simp) (i := 3) rfl _
  · intro p hp
    have h0 := hp 0 (by decide)
    rw [word_zero] at h0
    simp [h0, hp 1 (by decide), hp 2 (by decide), hp 3 (by decide)]

/-- The whole routine. -/
theorem negP25519_ok (s : St) (x : Words) (hx : x.length = 4) (xr : val x < 2 ^ 255 - 19)
    (h : Ready s [outBlock s.rdi 4, inBlock s.rsi x]) :
    Runs Asm.bignumNegP25519 s fun s' => Holds s'.mem s.rdi (toWords 4 ((2 ^ 255 - 19 - val x) % (2 ^ 255 - 19))) ∧
      Untouched [outBlock s.rdi 4, inBlock s.rsi x] s s' := by
  obtain ⟨a, b, c, d, rfl⟩ : ∃ a b c d, x = [a, b, c, d] := by
    match x, hx with
    | [a, b, c, d], _ => exact ⟨a, b, c, d, rfl⟩
  have o1 := (h.ok _ (List.mem_cons_self ..)).owns rfl
  have o2 := (h.ok _ (List.mem_cons_of_mem _ (List.mem_cons_self ..))).holds _ rfl
  obtain ⟨f, s', hr, h1, h2⟩ := neg25519_run s a b c d o2 o1
  refine ⟨f, s', hr, ?_, fun p hp => h2 p fun i hi => hp _ (List.mem_cons_self ..) rfl i hi⟩
  rw [← neg25519_val a b c d xr]
  have := toWords_val (neg25519 a b c d)
  rw [show (neg25519 a b c d).length = 4 from rfl] at this
  rw [this]
  exact h1

end Verif.X86
