import Verif.Proof.X86.Vec
import Verif.Proof.X86.SymMac

/-!
A symbolic executor for straight-line vector code on lanes of 16 bits, proved sound.  Memory is a list of arrays at registers, cut
into blocks of 32 bytes.
-/
namespace Verif.X86.L16
open Verif Verif.X86

/-! ### Lanes -/

theorem ofLanes4_bit (f : Nat → BitVec 16) (n : Nat) : (ofLanes4 f).getLsbD n =
    bif decide (n < 16) then (f 0).getLsbD n else bif decide (n - 16 < 16) then (f 1).getLsbD (n - 16) else
      bif decide (n - 16 - 16 < 16) then (f 2).getLsbD (n - 16 - 16) else (f 3).getLsbD (n - 16 - 16 - 16) := by
  show BitVec.getLsbD (w := 16 + 16 + 16 + 16) (f 3 ++ f 2 ++ f 1 ++ f 0) n = _
  simp only [BitVec.getLsbD_append, Bool.cond_decide]

theorem app2_bit (x y : BitVec 32) (n : Nat) : BitVec.getLsbD (w := 64) (x ++ y) n =
    bif decide (n < 32) then y.getLsbD n else x.getLsbD (n - 32) := by
  show BitVec.getLsbD (w := 32 + 32) (x ++ y) n = _
  simp only [BitVec.getLsbD_append, Bool.cond_decide]

theorem ofLanes4_h (f : Nat → BitVec 16) {j : Nat} (hj : j < 4) : (ofLanes4 f).extractLsb' (16 * j) 16 = f j := by
  apply BitVec.eq_of_getLsbD_eq
  intro b hb
  simp only [BitVec.getLsbD_extractLsb', ofLanes4_bit]
  interval_cases j <;> interval_cases b <;> rfl

theorem of16_h (f : Nat → BitVec 16) {i : Nat} (hi : i < 16) : (V4.of16 f).h i = f i := by
  have e : (V4.of16 f).h i = (ofLanes4 fun k => f (4 * (i / 4) + k)).extractLsb' (16 * (i % 4)) 16 := by
    unfold V4.h
    congr 1
    have : i / 4 < 4 := by omega
    generalize i / 4 = q at this
    interval_cases q
    · show ofLanes4 _ = _
      congr 1
      funext k
      rw [Nat.mul_zero, Nat.zero_add]
    · rfl
    · rfl
    · rfl
  rw [e, ofLanes4_h _ (by omega)]
  congr 1
  omega

theorem of32_d (f : Nat → BitVec 32) {i : Nat} (hi : i < 8) : (V4.of32 f).d i = f i := by
  have lo : ∀ x y : BitVec 32, ((x ++ y : Word)).extractLsb' 0 32 = y := by
    intro x y
    apply BitVec.eq_of_getLsbD_eq
    intro b hb
    simp only [BitVec.getLsbD_extractLsb', app2_bit]
    interval_cases b <;> rfl
  have hi' : ∀ x y : BitVec 32, ((x ++ y : Word)).extractLsb' 32 32 = x := by
    intro x y
    apply BitVec.eq_of_getLsbD_eq
    intro b hb
    simp only [BitVec.getLsbD_extractLsb', app2_bit]
    interval_cases b <;> rfl
  unfold V4.d V4.of32
  interval_cases i
  · exact lo _ _
  · exact hi' _ _
  · exact lo _ _
  · exact hi' _ _
  · exact lo _ _
  · exact hi' _ _
  · exact lo _ _
  · exact hi' _ _

theorem h_d (v : V4) {i : Nat} (hi : i < 16) : v.h i = (v.d (i / 2)).extractLsb' (16 * (i % 2)) 16 := by
  unfold V4.d V4.h
  apply BitVec.eq_of_getLsbD_eq
  intro b hb
  have : b < 16 := hb
  have h2 : 16 + b < 32 := by omega
  have h3 : b < 32 := by omega
  interval_cases i <;> simp [BitVec.getLsbD_extractLsb', this, h2, h3] <;> congr 1 <;> omega

theorem of32_h (f : Nat → BitVec 32) {i : Nat} (hi : i < 16) : (V4.of32 f).h i = (f (i / 2)).extractLsb' (16 * (i % 2)) 16 := by
  rw [h_d _ hi, of32_d _ (by omega)]

theorem map2_h {f : Word → Word → Word} {g : BitVec 16 → BitVec 16 → BitVec 16}
    (h : ∀ x y : Word, ∀ k, (f x y).extractLsb' k 16 = g (x.extractLsb' k 16) (y.extractLsb' k 16)) (a b : V4) {i : Nat} (hi : i < 16) :
    (V4.map2 f a b).h i = g (a.h i) (b.h i) := by
  unfold V4.h
  rw [← h]
  congr 1
  unfold V4.map2 V4.lane
  interval_cases i <;> rfl

theorem and_ext (x y : Word) (k : Nat) : (x &&& y).extractLsb' k 16 = x.extractLsb' k 16 &&& y.extractLsb' k 16 := by
  apply BitVec.eq_of_getLsbD_eq
  intro b hb
  simp [hb]

theorem or_ext (x y : Word) (k : Nat) : (x ||| y).extractLsb' k 16 = x.extractLsb' k 16 ||| y.extractLsb' k 16 := by
  apply BitVec.eq_of_getLsbD_eq
  intro b hb
  simp [hb]

/-- The words of a vector are made of its lanes. -/
theorem lane_h (v : V4) {k : Nat} (hk : k < 4) : v.lane k = ofLanes4 fun i => v.h (4 * k + i) := by
  apply BitVec.eq_of_getLsbD_eq
  intro b hb
  rw [ofLanes4_bit]
  unfold V4.h
  simp only [BitVec.getLsbD_extractLsb']
  interval_cases k <;> interval_cases b <;> rfl

/-! ### Expressions -/

/-- The value of a lane. -/
inductive E where
  | v (n : Nat)
  | c (x : Nat)
  | add (a b : E)
  | sub (a b : E)
  | mul (a b : E)
  | mulh (a b : E)
  | and (a b : E)
  | or (a b : E)
  | sra (n : Nat) (a : E)
  | srl (n : Nat) (a : E)
  | sll (n : Nat) (a : E)

def E.val (ρ : Nat → BitVec 16) : E → BitVec 16
  | .v n => ρ n
  | .c x => BitVec.ofNat 16 x
  | .add a b => a.val ρ + b.val ρ
  | .sub a b => a.val ρ - b.val ρ
  | .mul a b => a.val ρ * b.val ρ
  | .mulh a b => mulhi16 (a.val ρ) (b.val ρ)
  | .and a b => a.val ρ &&& b.val ρ
  | .or a b => a.val ρ ||| b.val ρ
  | .sra n a => (a.val ρ).sshiftRight n
  | .srl n a => a.val ρ >>> n
  | .sll n a => a.val ρ <<< n

def E.same : E → E → Bool
  | .v n, .v m => Nat.beq n m
  | .c n, .c m => Nat.beq n m
  | .add a b, .add p q => a.same p && b.same q
  | .sub a b, .sub p q => a.same p && b.same q
  | .mul a b, .mul p q => a.same p && b.same q
  | .mulh a b, .mulh p q => a.same p && b.same q
  | .and a b, .and p q => a.same p && b.same q
  | .or a b, .or p q => a.same p && b.same q
  | .sra n a, .sra m b => Nat.beq n m && a.same b
  | .srl n a, .srl m b => Nat.beq n m && a.same b
  | .sll n a, .sll m b => Nat.beq n m && a.same b
  | _, _ => false

theorem E.same_eq : ∀ {a b : E}, a.same b = true → a = b := by
  intro a
  induction a with
  | v n =>
    intro b h
    cases b <;> first | cases h | exact congrArg _ (Nat.eq_of_beq_eq_true h)
  | c n =>
    intro b h
    cases b <;> first | cases h | exact congrArg _ (Nat.eq_of_beq_eq_true h)
  | sra n a ih | srl n a ih | sll n a ih =>
    intro b h
    cases b <;> first
      | cases h
      | (rw [E.same, Bool.and_eq_true] at h
         rw [Nat.eq_of_beq_eq_true h.1, ih h.2])
  | add a b iha ihb | sub a b iha ihb | mul a b iha ihb | mulh a b iha ihb | and a b iha ihb | or a b iha ihb =>
    intro b h
    cases b <;> first
      | cases h
      | (rw [E.same, Bool.and_eq_true] at h
         rw [iha h.1, ihb h.2])

/-- All lists are the same. -/
def sameL : List E → List E → Bool
  | [], [] => true
  | a :: l, b :: m => a.same b && sameL l m
  | _, _ => false

theorem sameL_eq : ∀ {a b : List E}, sameL a b = true → a = b
  | [], [], _ => rfl
  | a :: l, b :: m, h => by
    rw [sameL, Bool.and_eq_true] at h
    rw [E.same_eq h.1, sameL_eq h.2]
  | [], _ :: _, h => by cases h
  | _ :: _, [], h => by cases h

/-! ### Vectors -/

def gen (f : Nat → E) : List E :=
  [f 0, f 1, f 2, f 3, f 4, f 5, f 6, f 7, f 8, f 9, f 10, f 11, f 12, f 13, f 14, f 15]

def g (l : List E) (i : Nat) : E := l.getD i (.c 0)

theorem gen_g (f : Nat → E) {i : Nat} (hi : i < 16) : g (gen f) i = f i := by
  unfold gen g
  interval_cases i <;> rfl

/-- What a list of sixteen lanes says of a register. -/
def Is (ρ : Nat → BitVec 16) (l : List E) (v : V4) : Prop := l.length = 16 ∧ ∀ i < 16, (g l i).val ρ = v.h i

section
variable {ρ : Nat → BitVec 16}

theorem gen_is {f : Nat → E} {v : V4} (h : ∀ i < 16, (f i).val ρ = v.h i) : Is ρ (gen f) v :=
  ⟨rfl, fun i hi => by rw [gen_g f hi]; exact h i hi⟩

theorem map_is {F : E → E} {f : BitVec 16 → BitVec 16} (h : ∀ a, (F a).val ρ = f (a.val ρ)) {l : List E} {v w : V4} (hl : Is ρ l v)
    (hw : ∀ i < 16, w.h i = f (v.h i)) : Is ρ (l.map F) w := by
  refine ⟨by rw [List.length_map, hl.1], fun i hi => ?_⟩
  have e : g (l.map F) i = F (g l i) := by
    unfold g
    rw [List.getD_eq_getElem?_getD, List.getElem?_map, List.getD_eq_getElem?_getD, List.getElem?_eq_getElem (by rw [hl.1]; exact hi)]
    rfl
  rw [e, h, hl.2 i hi, hw i hi]

theorem zip_is {F : E → E → E} {f : BitVec 16 → BitVec 16 → BitVec 16} (h : ∀ a b, (F a b).val ρ = f (a.val ρ) (b.val ρ))
    {l m : List E} {u v w : V4} (hl : Is ρ l u) (hm : Is ρ m v) (hw : ∀ i < 16, w.h i = f (u.h i) (v.h i)) :
    Is ρ (l.zipWith F m) w := by
  refine ⟨by rw [List.length_zipWith, hl.1, hm.1]; rfl, fun i hi => ?_⟩
  have e : g (l.zipWith F m) i = F (g l i) (g m i) := by
    unfold g
    rw [List.getD_eq_getElem?_getD, List.getElem?_zipWith, List.getD_eq_getElem?_getD, List.getD_eq_getElem?_getD,
      List.getElem?_eq_getElem (by rw [hl.1]; exact hi), List.getElem?_eq_getElem (by rw [hm.1]; exact hi)]
    rfl
  rw [e, h, hl.2 i hi, hm.2 i hi, hw i hi]

end

/-- The constant in a lane. -/
def E.con : E → Option Nat
  | .c x => some x
  | _ => none

theorem E.con_eq {e : E} {x : Nat} (h : e.con = some x) : e = .c x := by
  cases e <;> cases h
  rfl

/-- The lanes of `m` are those of a mask of `vpshufb` that moves lanes of 16 bits; lane `8 * h + i` of the result is lane
`8 * h + p i`. -/
def maskAt (m : List E) (i : Nat) : Option Nat :=
  match (g m i).con with
  | some x => bif Nat.blt x 4096 && Nat.beq (x % 256 % 2) 0 && Nat.beq (x / 256) (x % 256 + 1) && Nat.blt (x % 256) 16 then
      some (8 * (i / 8) + x % 256 / 2) else none
  | none => none

/-- Lane `i` of the result of `vpermd` is lane `permAt i` of the operand. -/
def permAt (m : List E) (i : Nat) : Option Nat :=
  match (g m (2 * (i / 2))).con with
  | some x => bif Nat.blt x 8 then some (2 * x + i % 2) else none
  | none => none

def allSome (f : Nat → Option Nat) : Nat → Bool
  | 0 => true
  | n + 1 => (f n).isSome && allSome f n

theorem allSome_get {f : Nat → Option Nat} : ∀ {n i : Nat}, allSome f n = true → i < n → ∃ x, f i = some x
  | n + 1, i, h, hi => by
    rw [allSome, Bool.and_eq_true] at h
    rcases Nat.lt_succ_iff_lt_or_eq.1 hi with hi | rfl
    · exact allSome_get h.2 hi
    · exact Option.isSome_iff_exists.1 h.1

theorem ofBytes8_h (f : Nat → Byte) {j : Nat} (hj : j < 4) :
    (ofBytes8 f).extractLsb' (16 * j) 16 = f (2 * j + 1) ++ f (2 * j) := by
  unfold ofBytes8
  apply BitVec.eq_of_getLsbD_eq
  intro b hb
  simp only [BitVec.getLsbD_append, BitVec.getLsbD_extractLsb']
  interval_cases j <;> interval_cases b <;> rfl

theorem byte_h (v : V4) {i : Nat} (hi : i < 16) : v.byte (2 * i + 1) ++ v.byte (2 * i) = v.h i := by
  unfold V4.byte V4.h
  apply BitVec.eq_of_getLsbD_eq
  intro b hb
  simp only [BitVec.getLsbD_append, BitVec.getLsbD_extractLsb']
  interval_cases i <;> interval_cases b <;> rfl

theorem shuf_h (a m : V4) {i : Nat} (hi : i < 16) : (V4.shuf a m).h i = V4.shufb a m (2 * i + 1) ++ V4.shufb a m (2 * i) := by
  have e : (V4.shuf a m).h i = (ofBytes8 fun k => V4.shufb a m (8 * (i / 4) + k)).extractLsb' (16 * (i % 4)) 16 := by
    unfold V4.h
    congr 1
    have : i / 4 < 4 := by omega
    generalize i / 4 = q at this
    interval_cases q
    · show ofBytes8 _ = _
      congr 1
      funext k
      rw [Nat.mul_zero, Nat.zero_add]
    · rfl
    · rfl
    · rfl
  rw [e, ofBytes8_h _ (by omega)]
  congr 2 <;> omega

end Verif.X86.L16
