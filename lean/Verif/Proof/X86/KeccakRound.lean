import Verif.Proof.X86.Bits
import Verif.Spec.Keccak

/-! `sha3_keccak_f1600`: between rounds six lanes are kept fl complemented, and the state alternates between two blocks. -/
namespace Verif.X86
open Verif Verif.Spec.Keccak

/-! ### A round of the standard, on values -/

theorem at_mk (f : Nat → Nat → Lane) (x y : Nat) : at' (mk f) x y = f (x % 5) (y % 5) := by
  unfold at' mk
  have h : x % 5 + 5 * (y % 5) < 25 := by omega
  rw [List.getD_eq_getElem?_getD, List.getElem?_map, List.getElem?_range h]
  simp only [Option.map_some, Option.getD_some]
  congr 1 <;> omega

/-- A state as it is kept. -/
def kept (fl : Nat → Bool) (a : Lanes) (i : Nat) : Word := cv (fl i) ^^^ a.getD i 0#64

/-- The variables. -/
def krho (fl : Nat → Bool) (k : Lane) (a : Lanes) (i : Nat) : Word := if i = 25 then k else kept fl a i

/-- Lane `i` of the state. -/
def symA (fl : Nat → Bool) (i : Nat) : BE := ⟨fl i, [64 * i], none⟩

theorem symA_val {fl : Nat → Bool} (k : Lane) (a : Lanes) {i : Nat} (hi : i < 25) : (symA fl i).val (krho fl k a) = a.getD i 0#64 := by
  have h := BE.var_val (krho fl k a) i
  unfold BE.var BE.val at h
  unfold symA BE.val
  simp only [cv, pv, BitVec.xor_zero, BitVec.zero_xor] at h ⊢
  rw [h]
  unfold krho kept
  rw [if_neg (by omega)]
  generalize a.getD i 0#64 = w
  cases fl i <;> simp [cv, ← BitVec.xor_assoc]

def xor3 (a b c : Option BE) : Option BE := a.bind fun a => b.bind fun b => c.bind fun c => (a.xor b).bind fun d => d.xor c

/-- The parity of column `x`. -/
def symC (fl : Nat → Bool) (x : Nat) : Option BE :=
  xor3 (xor3 (some (symA fl (x % 5))) (some (symA fl (x % 5 + 5))) (some (symA fl (x % 5 + 10)))) (some (symA fl (x % 5 + 15))) (some (symA fl (x % 5 + 20)))

/-- Theta of lane `j`. -/
def symT (fl : Nat → Bool) (j : Nat) : Option BE := xor3 (some (symA fl j)) (symC fl (j % 5 + 4)) ((symC fl (j % 5 + 1)).bind (BE.rot 1))

/-- Lane `i` after theta, rho and pi. -/
def symB (fl : Nat → Bool) (i : Nat) : Option BE :=
  (symT fl ((i % 5 + 3 * (i / 5)) % 5 + 5 * (i % 5))).bind (BE.rot (rhoOffset ((i % 5 + 3 * (i / 5)) % 5) (i % 5)))

theorem xor3_val {ρ : Nat → Word} {a b c : Option BE} {d : BE} (h : xor3 a b c = some d) {u v w : Word}
    (ha : ∀ e, a = some e → e.val ρ = u) (hb : ∀ e, b = some e → e.val ρ = v) (hc : ∀ e, c = some e → e.val ρ = w) :
    d.val ρ = u ^^^ v ^^^ w := by
  unfold xor3 at h
  cases a with
  | none => simp at h
  | some a =>
    cases b with
    | none => simp at h
    | some b =>
      cases c with
      | none => simp at h
      | some c =>
        simp only [Option.bind_some] at h
        cases hx : a.xor b with
        | none => simp [hx] at h
        | some x =>
          rw [hx, Option.bind_some] at h
          rw [BE.xor_val h, BE.xor_val hx, ha a rfl, hb b rfl, hc c rfl]

theorem symC_val {fl : Nat → Bool} {k : Lane} {a : Lanes} {x : Nat} {e : BE} (h : symC fl x = some e) :
    e.val (krho fl k a) = at' a x 0 ^^^ at' a x 1 ^^^ at' a x 2 ^^^ at' a x 3 ^^^ at' a x 4 := by
  have hx : x % 5 < 5 := Nat.mod_lt _ (by omega)
  have key : ∀ i (j : Nat), i < 25 → i = x % 5 + 5 * (j % 5) → ∀ e, some (symA fl i) = some e → e.val (krho fl k a) = at' a x j := by
    intro i j hi hj e he
    cases he
    rw [symA_val k a hi, hj]
    rfl
  refine xor3_val h (fun e he => xor3_val he (key _ 0 (by omega) (by omega)) (key _ 1 (by omega) (by omega))
    (key _ 2 (by omega) (by omega))) (key _ 3 (by omega) (by omega)) (key _ 4 (by omega) (by omega))

theorem symT_val {fl : Nat → Bool} {k : Lane} {a : Lanes} {x y : Nat} (hx : x < 5) (hy : y < 5) {e : BE} (h : symT fl (x + 5 * y) = some e) :
    e.val (krho fl k a) = at' (theta a) x y := by
  unfold symT at h
  have e5 : (x + 5 * y) % 5 = x := by omega
  rw [e5] at h
  have := xor3_val (ρ := krho fl k a) h (u := at' a x y)
    (v := at' a (x + 4) 0 ^^^ at' a (x + 4) 1 ^^^ at' a (x + 4) 2 ^^^ at' a (x + 4) 3 ^^^ at' a (x + 4) 4)
    (w := (at' a (x + 1) 0 ^^^ at' a (x + 1) 1 ^^^ at' a (x + 1) 2 ^^^ at' a (x + 1) 3 ^^^ at' a (x + 1) 4).rotateLeft 1)
    (fun e he => by
      cases he
      rw [symA_val k a (by omega)]
      unfold at'
      rw [Nat.mod_eq_of_lt hx, Nat.mod_eq_of_lt hy]) (fun e he => symC_val he) (fun e he => by
      cases hc : symC fl (x + 1) with
      | none => simp [hc] at he
      | some c =>
        rw [hc, Option.bind_some] at he
        rw [BE.rot_val he, symC_val hc])
  rw [this]
  unfold theta
  simp only [at_mk, Nat.mod_eq_of_lt hx, Nat.mod_eq_of_lt hy, BitVec.xor_assoc]

theorem symB_val {fl : Nat → Bool} {k : Lane} {a : Lanes} {x y : Nat} (hx : x < 5) (hy : y < 5) {e : BE} (h : symB fl (x + 5 * y) = some e) :
    e.val (krho fl k a) = at' (pi (rho (theta a))) x y := by
  unfold symB at h
  have e5 : (x + 5 * y) % 5 = x := by omega
  have e6 : (x + 5 * y) / 5 = y := by omega
  rw [e5, e6] at h
  cases ht : symT fl ((x + 3 * y) % 5 + 5 * x) with
  | none => simp [ht] at h
  | some t =>
    rw [ht, Option.bind_some] at h
    rw [BE.rot_val h, symT_val (Nat.mod_lt _ (by omega)) hx ht]
    unfold pi rho
    simp only [at_mk, Nat.mod_eq_of_lt hx, Nat.mod_eq_of_lt hy]

/-- Lane `i` after the round, as it is kept. -/
def symR (fl : Nat → Bool) (i : Nat) : Option BE :=
  (symB fl i).bind fun b0 => (symB fl ((i % 5 + 1) % 5 + 5 * (i / 5))).bind fun b1 => (symB fl ((i % 5 + 2) % 5 + 5 * (i / 5))).bind fun b2 =>
    (b1.not.and b2).bind fun p => (b0.xor p).bind fun q =>
      (q.xor ⟨fl i, [], none⟩).bind fun r => if i = 0 then r.xor (BE.var 25) else some r

theorem at_idx (a : Lanes) {i : Nat} (hi : i < 25) : a.getD i 0#64 = at' a (i % 5) (i / 5) := by
  unfold at'
  congr 1
  omega

theorem mk_getD (f : Nat → Nat → Lane) {i : Nat} (hi : i < 25) : (mk f).getD i 0#64 = f (i % 5) (i / 5) := by
  rw [at_idx _ hi, at_mk]
  congr 1 <;> omega

theorem iota_getD (k : Lane) (a : Lanes) (ha : a.length = 25) (i : Nat) :
    (iota k a).getD i 0#64 = a.getD i 0#64 ^^^ if i = 0 then k else 0#64 := by
  unfold iota
  by_cases h : i = 0
  · subst h
    simp [List.getD_eq_getElem?_getD, ha]
  · have h' : 0 ≠ i := fun e => h e.symm
    simp [List.getD_eq_getElem?_getD, h, h']

/-- One round. -/
def kround (k : Lane) (a : Lanes) : Lanes := iota k (chi (pi (rho (theta a))))

theorem symR_val {fl : Nat → Bool} {k : Lane} {a : Lanes} {i : Nat} (hi : i < 25) {e : BE} (h : symR fl i = some e) :
    e.val (krho fl k a) = kept fl (kround k a) i := by
  unfold symR at h
  simp only [Option.bind_eq_some_iff] at h
  obtain ⟨b0, h0, b1, h1, b2, h2, p, hp, q, hq, r, hr, he⟩ := h
  have g0 := symB_val (k := k) (a := a) (x := i % 5) (y := i / 5) (by omega) (by omega) (by rw [show i % 5 + 5 * (i / 5) = i by omega]; exact h0)
  have g1 := symB_val (k := k) (a := a) (x := (i % 5 + 1) % 5) (y := i / 5) (by omega) (by omega) h1
  have g2 := symB_val (k := k) (a := a) (x := (i % 5 + 2) % 5) (y := i / 5) (by omega) (by omega) h2
  have gr : r.val (krho fl k a) = cv (fl i) ^^^ (chi (pi (rho (theta a)))).getD i 0#64 := by
    rw [BE.xor_val hr, BE.xor_val hq, BE.and_val hp, BE.not_val, g0, g1, g2]
    unfold chi
    rw [mk_getD _ hi]
    have ef : (BE.mk (fl i) [] none).val (krho fl k a) = cv (fl i) := by simp [BE.val, lv, pv]
    rw [ef, BitVec.xor_comm]
    congr 3
    · unfold at'; simp
    · unfold at'; simp
  have hl : (chi (pi (rho (theta a)))).length = 25 := by simp [chi, mk]
  unfold kept kround
  rw [iota_getD _ _ hl]
  by_cases hz : i = 0
  · rw [if_pos hz] at he ⊢
    rw [BE.xor_val he, gr, BE.var_val]
    unfold krho
    rw [if_pos rfl, BitVec.xor_assoc]
  · rw [if_neg hz] at he ⊢
    cases he
    rw [gr, BitVec.xor_zero]

end Verif.X86
