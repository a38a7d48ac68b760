import Verif.Model.AsmX86.N25519
import Verif.Proof.X86.Red25519

/-!
`bignum_mod_n25519`: the remainder modulo the order of curve25519 of a number of any length.
-/
namespace Verif.X86
open Verif R25519

/-- What stays the same during the run. -/
structure MnFr (s : St) (b : Word) (x : Words) (t : St) : Prop where
  rdi : t.rdi = s.rdi
  rsp : t.rsp = word b 0
  wr : t.wr = s.wr
  env : Env s.mem s.rdi 4 b 3 0 [(s.rdx, x)] t.mem

/-- The result. -/
def MnPost (s : St) (b : Word) (x : Words) (s' : St) : Prop :=
  Holds s'.mem s.rdi (toWords 4 (val x % Spec.Ed25519.L)) ∧ Env s.mem s.rdi 4 b 3 0 [(s.rdx, x)] s'.mem

theorem word_8 (p : Word) : p + 8#64 = word p 1 := rfl
theorem word_16 (p : Word) : p + 16#64 = word p 2 := rfl
theorem word_24 (p : Word) : p + 24#64 = word p 3 := rfl

theorem mn_end {s t : St} {b : Word} {x : Words} (F : MnFr s b x t) (ho : s.Owns s.rdi 4) (ha : ∀ p ∈ [(s.rdx, x)], Apart s.rdi 4 p.1 p.2.length)
    (hz : Apart s.rdi 4 b 3)
    (hv : val [t.r8, t.r9, t.r10, t.r11] = val x % Spec.Ed25519.L) : From Asm.bignumModN25519 91 t (MnPost s b x) := by
  have w0 := ho 0 (by decide)
  have w1 := ho 1 (by decide)
  have w2 := ho 2 (by decide)
  have w3 := ho 3 (by decide)
  obtain ⟨v0, p0⟩ := F.env.st 0 (by omega) (by omega)
  obtain ⟨v1, p1⟩ := F.env.st 1 (by omega) (by omega)
  obtain ⟨v2, p2⟩ := F.env.st 2 (by omega) (by omega)
  have E := (((F.env.store ha (i := 0) (by omega) t.r8).store ha (i := 1) (by omega) t.r9).store ha (i := 2) (by omega) t.r10).store ha
    (i := 3) (by omega) t.r11
  have H := ((((Holds.nil t.mem s.rdi).snoc (by simp) (i := 0) rfl t.r8).snoc (by simp) (i := 1) rfl t.r9).snoc (by simp) (i := 2) rfl
    t.r10).snoc (by simp) (i := 3) rfl t.r11
  rw [word_zero] at w0 E H
  have z0 := hz 0 (by omega)
  rw [word_zero] at z0
  have z1 := hz 1 (by omega)
  have z2 := hz 2 (by omega)
  have z3 := hz 3 (by omega)
  have q : ∀ j < 3, ∀ v, t.mem (word b j) = some v → (if word b j = word s.rdi 3 then some t.r11 else if word b j = word s.rdi 2 then some t.r10 else
      if word b j = word s.rdi 1 then some t.r9 else if word b j = s.rdi then some t.r8 else t.mem (word b j)) = some v := by
    intro j hj v hv
    rw [if_neg (z3 j hj).symm, if_neg (z2 j hj).symm, if_neg (z1 j hj).symm, if_neg (z0 j hj).symm, hv]
  xstep [F.rdi, F.wr, w0]
  xstep [word_8, w1]
  xstep [word_16, w2]
  xstep [word_24, w3]
  xstep [F.rsp, q 0 (by omega) v0 p0, word_plus8]
  xstep [q 1 (by omega) v1 p1, word_plus8]
  xstep [q 2 (by omega) v2 p2, word_plus8]
  refine From.halt rfl ⟨?_, E⟩
  rw [← hv]
  have := toWords_val [t.r8, t.r9, t.r10, t.r11]
  rw [show [t.r8, t.r9, t.r10, t.r11].length = 4 from rfl] at this
  rw [this]
  exact H

/-- A shift by a constant. -/
macro "xshift" : tactic =>
  `(tactic| xstep [St.shift, St.shiftFlags, BitVec.toNat_ofNat, Nat.reducePow, Nat.reduceMod, Nat.reduceSub, OfNat.ofNat_ne_zero, if_false])

/-- The loop over the words below the highest four. -/
theorem mn_loop {s t : St} {b : Word} {x : Words} (ho : s.Owns s.rdi 4) (ha : ∀ p ∈ [(s.rdx, x)], Apart s.rdi 4 p.1 p.2.length)
    (hz : Apart s.rdi 4 b 3) (hl : x.length < 2 ^ 61) {i : Nat} (hi : i + 1 < x.length) (F : MnFr s b x t) (hc : t.rcx = s.rdx)
    (hs : t.rsi = BitVec.ofNat 64 (i + 1)) (hv : val [t.r8, t.r9, t.r10, t.r11] = val (x.drop (i + 1)) % Spec.Ed25519.L) :
    From Asm.bignumModN25519 41 t (MnPost s b x) := by
  refine From.loop (fun n t => ∃ i, i = n ∧ i + 1 < x.length ∧ MnFr s b x t ∧ t.rcx = s.rdx ∧ t.rsi = BitVec.ofNat 64 (i + 1) ∧
    val [t.r8, t.r9, t.r10, t.r11] = val (x.drop (i + 1)) % Spec.Ed25519.L) ?_ i t ⟨i, rfl, hi, F, hc, hs, hv⟩
  clear hv hs hc F hi i t
  rintro _ t ⟨i, rfl, hi, F, hc, hs, hv⟩ ih
  have hX := F.env.get (p := s.rdx) (ws := x) (by simp) (i := i) (by omega)
  have hd : val (x.drop i) = (wd x i).toNat + 2 ^ 64 * val (x.drop (i + 1)) := by
    rw [List.drop_eq_getElem_cons (by omega), val, wd_eq (by omega)]
  have hlt : val [t.r8, t.r9, t.r10, t.r11] < Spec.Ed25519.L := by
    rw [hv]
    exact Nat.mod_lt _ (by decide)
  have hm := more (wd x i) t.r8 t.r9 t.r10 t.r11 hlt
  rw [hv] at hm
  have hr : ((wd x i).toNat + 2 ^ 64 * (val (x.drop (i + 1)) % Spec.Ed25519.L)) % Spec.Ed25519.L = val (x.drop i) % Spec.Ed25519.L := by
    rw [hd, Nat.add_mod, Nat.mul_mod, Nat.mod_mod, ← Nat.mul_mod, ← Nat.add_mod]
  rw [hr] at hm
  have tail : ∀ t' : St, MnFr s b x t' → t'.rcx = s.rdx → t'.rsi = BitVec.ofNat 64 (i + 1) →
      val [t'.r8, t'.r9, t'.r10, t'.r11] = val (x.drop i) % Spec.Ed25519.L → From Asm.bignumModN25519 75 t' (MnPost s b x) := by
    intro t' F' hc' hs' hv'
    xstep [hs', ofNat_beq_zero (i := i) (by omega)]
    by_cases h0 : i = 0
    · xfall [decide_eq_true h0, Bool.not_true]
      subst h0
      xstep []
      exact mn_end ⟨F'.rdi, F'.rsp, F'.wr, F'.env⟩ ho ha hz hv'
    · xtake [decide_eq_false h0, Bool.not_false]
      obtain ⟨j, rfl⟩ : ∃ j, i = j + 1 := ⟨i - 1, by omega⟩
      exact ih j (by omega) _ ⟨j, rfl, by omega, ⟨F'.rdi, F'.rsp, F'.wr, F'.env⟩, hc', rfl, hv'⟩
  clear ih
  xstep []
  xshift
  xshift
  xstep []
  xshift
  xshift
  iterate 8 xstep []
  xstep [hc, hs, word_pred, hX]
  iterate 4 xstep []
  xstep [sbb_self]
  iterate 14 xstep []
  exact tail _ ⟨F.rdi, F.rsp, F.wr, F.env⟩ rfl rfl hm

theorem word_p (p : Word) (i j : Nat) : word p i + 8#64 * BitVec.ofNat 64 j = word p (i + j) := by
  rw [← word_adc]
  exact (BitVec.add_zero _).symm

/-- The whole routine. -/
theorem modN25519_ok (s : St) (x : Words) (hl : x.length < 2 ^ 61) (hn : s.rsi = BitVec.ofNat 64 x.length) (ho : s.Owns s.rdi 4)
    (hS : s.Owns (s.rsp - 24#64) 3) (hi : ∀ p ∈ [(s.rdx, x)], Holds s.mem p.1 p.2)
    (ha : ∀ p ∈ [(s.rdx, x)], Apart s.rdi 4 p.1 p.2.length) (hb : ∀ p ∈ [(s.rdx, x)], Apart (s.rsp - 24#64) 3 p.1 p.2.length)
    (hz : Apart s.rdi 4 (s.rsp - 24#64) 3) : Runs Asm.bignumModN25519 s (MnPost s (s.rsp - 24#64) x) := by
  have small : x.length < 4 → val x % Spec.Ed25519.L = val x := by
    intro h
    refine Nat.mod_eq_of_lt (Nat.lt_of_lt_of_le (val_lt x) ?_)
    exact Nat.le_trans (Nat.pow_le_pow_right (by decide) (show 64 * x.length ≤ 192 by omega)) (by decide +kernel)
  apply runs_of_from
  have hsp : s.rsp = word (s.rsp - 24#64) 3 := stack_top s 3
  have E3 := ((((Env.init (Z := s.rdi) (k := 4) (b := s.rsp - 24#64) (n := 3) hi).push hb (by omega) s.rbx).push hb
    (by omega) s.rbp).push hb (by omega) s.r12)
  generalize s.rsp - 24#64 = b at *
  have big : ∀ t : St, 4 ≤ x.length → MnFr s b x t → t.rdx = s.rdx → t.rsi = BitVec.ofNat 64 x.length →
      From Asm.bignumModN25519 6 t (MnPost s b x) := by
    intro t h4 F hd hs
    obtain ⟨n, hn'⟩ : ∃ n, x.length = n + 4 := ⟨x.length - 4, by omega⟩
    have h0 := F.env.get (p := s.rdx) (ws := x) (by simp) (i := n) (by omega)
    have h1 := F.env.get (p := s.rdx) (ws := x) (by simp) (i := n + 1) (by omega)
    have h2 := F.env.get (p := s.rdx) (ws := x) (by simp) (i := n + 2) (by omega)
    have h3 := F.env.get (p := s.rdx) (ws := x) (by simp) (i := n + 3) (by omega)
    have es : sbbv (BitVec.ofNat 64 x.length) 4#64 false = BitVec.ofNat 64 n := by
      rw [hn', show (4#64 : Word) = BitVec.ofNat 64 4 from rfl, sub_ofNat (by omega), Nat.add_sub_cancel]
    have hd4 : val (x.drop n) = val [wd x n, wd x (n + 1), wd x (n + 2), wd x (n + 3)] := by
      rw [List.drop_eq_getElem_cons (by omega), List.drop_eq_getElem_cons (by omega), List.drop_eq_getElem_cons (by omega),
        List.drop_eq_getElem_cons (by omega), List.drop_of_length_le (by omega), wd_eq (by omega), wd_eq (by omega), wd_eq (by omega),
        wd_eq (by omega)]
    have hf := first (wd x n) (wd x (n + 1)) (wd x (n + 2)) (wd x (n + 3))
    rw [← hd4] at hf
    have tail : ∀ t' : St, MnFr s b x t' → t'.rcx = s.rdx → t'.rsi = BitVec.ofNat 64 n →
        val [t'.r8, t'.r9, t'.r10, t'.r11] = val (x.drop n) % Spec.Ed25519.L → From Asm.bignumModN25519 39 t' (MnPost s b x) := by
      intro t' F' hc' hs' hv'
      xstep [hs', ofNat_beq_zero (i := n) (by omega)]
      by_cases h0 : n = 0
      · xtake [decide_eq_true h0]
        subst h0
        exact mn_end ⟨F'.rdi, F'.rsp, F'.wr, F'.env⟩ ho ha hz hv'
      · xfall [decide_eq_false h0]
        obtain ⟨j, rfl⟩ : ∃ j, n = j + 1 := ⟨n - 1, by omega⟩
        exact mn_loop ho ha hz hl (i := j) (by omega) ⟨F'.rdi, F'.rsp, F'.wr, F'.env⟩ hc' rfl hv'
    have p1 : word s.rdx n + 8#64 = word s.rdx (n + 1) := word_p _ _ 1
    have p2 : word s.rdx n + 16#64 = word s.rdx (n + 2) := word_p _ _ 2
    have p3 : word s.rdx n + 24#64 = word s.rdx (n + 3) := word_p _ _ 3
    xstep [hs, es]
    xstep [hd, p3, h3]
    xstep [p2, h2]
    xstep [p1, h1]
    xstep [h0]
    xstep []
    xstep []
    xshift
    xshift
    xshift
    iterate 12 xstep []
    xstep [sbb_self]
    iterate 10 xstep []
    exact tail _ ⟨F.rdi, F.rsp, F.wr, F.env⟩ rfl rfl hf
  have few : ∀ t : St, x.length < 4 → MnFr s b x t → t.rdx = s.rdx → t.rsi = BitVec.ofNat 64 x.length →
      From Asm.bignumModN25519 78 t (MnPost s b x) := by
    intro t h4 F hd hs
    have hv := small h4
    have hG : ∀ i (h : i < x.length), t.mem (word s.rdx i) = some (wd x i) := fun i h => F.env.get (p := s.rdx) (ws := x) (by simp) (i := i) h
    xstep []
    xstep []
    xstep []
    xstep []
    xstep [hs, ofNat_beq_zero (i := x.length) (by omega)]
    by_cases n0 : x.length = 0
    · xtake [decide_eq_true n0]
      refine mn_end ⟨F.rdi, F.rsp, F.wr, F.env⟩ ho ha hz ?_
      rw [hv, List.length_eq_zero_iff.mp n0]
      rfl
    xfall [decide_eq_false n0]
    have g0 := hG 0 (by omega)
    rw [word_zero] at g0
    have dec : ∀ i : Nat, 0 < i → i < 4 → sbbv (BitVec.ofNat 64 i) 1#64 false = BitVec.ofNat 64 (i - 1) := fun i h _ => sub_ofNat h
    xstep [hd, g0]
    xstep [dec x.length (by omega) h4, ofNat_beq_zero (i := x.length - 1) (by omega)]
    by_cases n1 : x.length - 1 = 0
    · xtake [decide_eq_true n1]
      refine mn_end ⟨F.rdi, F.rsp, F.wr, F.env⟩ ho ha hz ?_
      rw [hv]
      match x, (show x.length = 1 by omega) with
      | [a], _ => rfl
    xfall [decide_eq_false n1]
    have g1 := hG 1 (by omega)
    xstep [word_8, g1]
    xstep [dec (x.length - 1) (by omega) (by omega), ofNat_beq_zero (i := x.length - 1 - 1) (by omega)]
    by_cases n2 : x.length - 1 - 1 = 0
    · xtake [decide_eq_true n2]
      refine mn_end ⟨F.rdi, F.rsp, F.wr, F.env⟩ ho ha hz ?_
      rw [hv]
      match x, (show x.length = 2 by omega) with
      | [a, b], _ => rfl
    xfall [decide_eq_false n2]
    have g2 := hG 2 (by omega)
    xstep [word_16, g2]
    refine mn_end ⟨F.rdi, F.rsp, F.wr, F.env⟩ ho ha hz ?_
    rw [hv]
    match x, (show x.length = 3 by omega) with
    | [a, b, c], _ => rfl
  have cm : sbbc (BitVec.ofNat 64 x.length) 4#64 false = decide (x.length < 4) := sub_lt_ofNat (i := x.length) (j := 4) (by omega) (by omega)
  xstep []
  xstep [hsp, word_sub8, hS 2 (by omega)]
  xstep [word_sub8, hS 1 (by omega)]
  xstep [word_sub8, hS 0 (by omega)]
  xstep [hn, cm]
  by_cases h : x.length < 4
  · xtake [decide_eq_true h]
    exact few _ h ⟨rfl, rfl, rfl, E3⟩ rfl rfl
  · xfall [decide_eq_false h]
    exact big _ (by omega) ⟨rfl, rfl, rfl, E3⟩ rfl rfl

end Verif.X86
