import Verif.Model.X86

/-! Rules to reason about programs of `Verif.X86`, and lemmas on its arithmetic. -/
namespace Verif.X86
open Verif

/-- From position `pc` in state `s` the program ends in a state of which `Q` holds. -/
def From (P : Prog) (pc : Nat) (s : St) (Q : St → Prop) : Prop := ∃ f s', run P f pc s = some s' ∧ Q s'

/-- The same after one instruction. -/
def Then (P : Prog) (o : Option (Nat × St)) (Q : St → Prop) : Prop := ∃ p, o = some p ∧ From P p.1 p.2 Q

theorem runs_of_from {P : Prog} {s : St} {Q : St → Prop} (h : From P 0 s Q) : Runs P s Q := h

theorem From.halt {P : Prog} {pc : Nat} {s : St} {Q : St → Prop} (h : pc = P.length) (hq : Q s) : From P pc s Q :=
  ⟨1, s, by simp only [run, h, if_true], hq⟩

theorem From.next {P : Prog} {pc : Nat} {s : St} {Q : St → Prop} {i : Instr} (hi : P[pc]? = some i)
    (h : Then P (i.exec pc s) Q) : From P pc s Q := by
  obtain ⟨⟨pc', s''⟩, he, f, s', hr, hq⟩ := h
  refine ⟨f + 1, s', ?_, hq⟩
  have hl : pc ≠ P.length := by
    intro hc
    rw [hc, List.getElem?_eq_none (Nat.le_refl _)] at hi
    cases hi
  simp only [run, hl, if_false, hi, he]
  exact hr

theorem From.jccT {P : Prog} {pc l : Nat} {s : St} {Q : St → Prop} {c : Cond} (hi : P[pc]? = some (.jcc c l))
    (hc : s.cond c = some true) (h : From P l s Q) : From P pc s Q :=
  From.next hi ⟨(l, s), by simp only [Instr.exec, hc, Option.map, if_true], h⟩

theorem From.jccF {P : Prog} {pc l : Nat} {s : St} {Q : St → Prop} {c : Cond} (hi : P[pc]? = some (.jcc c l))
    (hc : s.cond c = some false) (h : From P (pc + 1) s Q) : From P pc s Q :=
  From.next hi ⟨(pc + 1, s), by simp only [Instr.exec, hc, Option.map, if_false, Bool.false_eq_true], h⟩

theorem then_some (P : Prog) (pc : Nat) (s : St) (Q : St → Prop) : Then P (some (pc, s)) Q = From P pc s Q := by
  apply propext
  constructor
  · rintro ⟨p, hp, h⟩
    cases hp
    exact h
  · intro h
    exact ⟨_, rfl, h⟩

/-- Induction over the passes of a loop. -/
theorem From.loop {P : Prog} {pc : Nat} {Q : St → Prop} (I : Nat → St → Prop)
    (h : ∀ n s, I n s → (∀ m < n, ∀ s', I m s' → From P pc s' Q) → From P pc s Q) (n : Nat) (s : St) (hi : I n s) :
    From P pc s Q := by
  induction n using Nat.strongRecOn generalizing s with
  | ind n ih => exact h n s hi fun m hm s' hs' => ih m hm s' hs'

theorem From.mono {P : Prog} {pc : Nat} {s : St} {Q R : St → Prop} (h : From P pc s Q) (hqr : ∀ s, Q s → R s) :
    From P pc s R := by
  obtain ⟨f, s', hr, hq⟩ := h
  exact ⟨f, s', hr, hqr _ hq⟩

/-! ### Counters -/

theorem inc_ofNat (i : Nat) : adcv (BitVec.ofNat 64 i) 1#64 false = BitVec.ofNat 64 (i + 1) := by
  apply BitVec.eq_of_toNat_eq
  simp [adcv]

theorem dec_ofNat (i : Nat) : sbbv (BitVec.ofNat 64 (i + 1)) 1#64 false = BitVec.ofNat 64 i := by
  apply BitVec.eq_of_toNat_eq
  simp [sbbv]
  omega

theorem ofNat_beq_zero {i : Nat} (h : i < 2 ^ 64) : (BitVec.ofNat 64 i == 0#64) = decide (i = 0) := by
  rw [Bool.eq_iff_iff, beq_iff_eq, decide_eq_true_iff]
  constructor
  · intro hh
    have := congrArg BitVec.toNat hh
    simp only [BitVec.toNat_ofNat, Nat.zero_mod] at this
    rwa [Nat.mod_eq_of_lt h] at this
  · rintro rfl
    rfl

theorem toNat_ofNat' {i : Nat} (h : i < 2 ^ 64) : (BitVec.ofNat 64 i).toNat = i := by
  rw [BitVec.toNat_ofNat, Nat.mod_eq_of_lt h]

/-! ### Arrays -/

theorem word_inj {p : Word} {i j : Nat} (hi : i < 2 ^ 61) (hj : j < 2 ^ 61) (h : word p i = word p j) : i = j := by
  unfold word at h
  have h := (BitVec.add_right_inj p).mp h
  have := congrArg BitVec.toNat h
  simp only [BitVec.toNat_mul, BitVec.toNat_ofNat] at this
  omega

theorem word_fold (p : Word) (i : Nat) : p + 8#64 * BitVec.ofNat 64 i = word p i := rfl

theorem word_pred (p : Word) (i : Nat) :
    word p (i + 1) + 0xfffffffffffffff8#64 = word p i := by
  unfold word
  have h : BitVec.ofNat 64 (i + 1) = BitVec.ofNat 64 i + 1#64 := BitVec.ofNat_add i 1
  rw [h, BitVec.mul_add, BitVec.add_assoc, BitVec.add_assoc]
  have h2 : 8#64 * 1#64 + 0xfffffffffffffff8#64 = 0#64 := by decide
  rw [h2, BitVec.add_zero]

theorem OnlyAt.refl (p : Word) (k : Nat) (m : Word → Option Word) : OnlyAt p k m m := fun _ _ => rfl

theorem OnlyAt.store {p : Word} {k : Nat} {m m' : Word → Option Word} (h : OnlyAt p k m m') {i : Nat} (hi : i < k) (v : Word) :
    OnlyAt p k m fun b => if b = word p i then some v else m' b := by
  intro a ha
  show (if a = word p i then some v else m' a) = m a
  rw [if_neg (ha i hi), h a ha]

theorem OnlyAt.holds {p q : Word} {k : Nat} {m m' : Word → Option Word} {ws : Words} (h : OnlyAt p k m m')
    (ha : Apart p k q ws.length) (hh : Holds m q ws) : Holds m' q ws := by
  intro i hi
  rw [h _ fun j hj he => ha j hj i hi he.symm]
  exact hh i hi

theorem Holds.nil (m : Word → Option Word) (p : Word) : Holds m p [] := fun i h => absurd h (Nat.not_lt_zero i)

theorem Holds.snoc {m : Word → Option Word} {p : Word} {ws : Words} (h : Holds m p ws) (hk : ws.length < 2 ^ 61) {i : Nat}
    (hi : i = ws.length) (v : Word) :
    Holds (fun b => if b = word p i then some v else m b) p (ws ++ [v]) := by
  subst hi
  intro j hj
  rw [List.length_append, List.length_singleton] at hj
  show (if word p j = word p ws.length then some v else m (word p j)) = _
  by_cases hjl : j = ws.length
  · subst hjl
    rw [if_pos rfl, List.getElem_append_right (Nat.le_refl _)]
    simp only [Nat.sub_self, List.getElem_cons_zero]
  · have hlt : j < ws.length := by omega
    rw [if_neg fun he => hjl (word_inj (by omega) hk he), List.getElem_append_left hlt]
    exact h j hlt

/-- Word `i` of an array; zero past its end. -/
def wd (ws : Words) (i : Nat) : Word := ws.getD i 0#64

theorem wd_eq {ws : Words} {i : Nat} (h : i < ws.length) : wd ws i = ws[i] := by
  unfold wd
  rw [List.getD_eq_getElem?_getD, List.getElem?_eq_getElem h]
  rfl

theorem Holds.wd {mem : Word → Option Word} {p : Word} {ws : Words} (h : Holds mem p ws) {i : Nat} (hi : i < ws.length) :
    mem (word p i) = some (wd ws i) := by
  rw [wd_eq hi]
  exact h i hi

theorem take_succ {ws : Words} {i : Nat} (h : i < ws.length) : ws.take (i + 1) = ws.take i ++ [wd ws i] := by
  rw [wd_eq h]
  exact (List.take_append_getElem h).symm

theorem Holds.take_snoc {m : Word → Option Word} {p : Word} {ws : Words} {i : Nat} (h : Holds m p (ws.take i))
    (hi : i < ws.length) (hk : ws.length < 2 ^ 61) :
    Holds (fun b => if b = word p i then some (X86.wd ws i) else m b) p (ws.take (i + 1)) := by
  rw [take_succ hi]
  exact h.snoc (by rw [List.length_take]; omega) (by rw [List.length_take]; omega) _

theorem neg_cf (p : Word) : sbbc 0#64 p false = (p != 0#64) := by
  unfold sbbc
  rw [Bool.eq_iff_iff, decide_eq_true_iff, bne_iff_ne]
  have : p = 0#64 ↔ p.toNat = 0 := by rw [← BitVec.toNat_inj]; rfl
  rw [Ne, this]
  simp only [BitVec.toNat_ofNat, Bool.toNat_false]
  omega

/-! ### Carries -/

theorem adc_val (a b : Word) (c : Bool) :
    (adcv a b c).toNat + 2 ^ 64 * (adcc a b c).toNat = a.toNat + b.toNat + c.toNat := by
  unfold adcv adcc
  have ha := a.isLt
  have hb := b.isLt
  simp only [BitVec.toNat_add, BitVec.toNat_ofNat]
  cases c <;> simp only [Bool.toNat_true, Bool.toNat_false] <;>
    by_cases h : 2 ^ 64 ≤ a.toNat + b.toNat + 1 <;> by_cases h' : 2 ^ 64 ≤ a.toNat + b.toNat + 0 <;>
    simp only [h, h', decide_true, decide_false, Bool.toNat_true, Bool.toNat_false] <;> omega

theorem sbb_val (a b : Word) (c : Bool) :
    (sbbv a b c).toNat + b.toNat + c.toNat = a.toNat + 2 ^ 64 * (sbbc a b c).toNat := by
  unfold sbbv sbbc
  have ha := a.isLt
  have hb := b.isLt
  simp only [BitVec.toNat_sub, BitVec.toNat_ofNat]
  cases c <;> simp only [Bool.toNat_true, Bool.toNat_false] <;>
    by_cases h : a.toNat < b.toNat + 1 <;> by_cases h' : a.toNat < b.toNat + 0 <;>
    simp only [h, h', decide_true, decide_false, Bool.toNat_true, Bool.toNat_false] <;> omega

theorem bool_toNat_le (c : Bool) : c.toNat ≤ 1 := by cases c <;> decide

theorem val_snoc (ws : Words) (w : Word) : val (ws ++ [w]) = val ws + 2 ^ (64 * ws.length) * w.toNat := by
  rw [val_append]
  simp only [val, Nat.mul_zero, Nat.add_zero]

theorem val_take_succ {ws : Words} {i : Nat} (h : i < ws.length) :
    val (ws.take (i + 1)) = val (ws.take i) + 2 ^ (64 * i) * (wd ws i).toNat := by
  rw [take_succ h, val_snoc, List.length_take, Nat.min_eq_left (by omega)]

theorem sub_beq_zero (a b : Word) : (sbbv a b false == 0#64) = decide (a = b) := by
  have h : sbbv a b false = a - b := by
    unfold sbbv
    exact BitVec.sub_zero _
  rw [h, Bool.eq_iff_iff, beq_iff_eq, decide_eq_true_iff]
  constructor
  · intro hh
    have := congrArg (· + b) hh
    simpa only [BitVec.sub_add_cancel, BitVec.zero_add] using this
  · rintro rfl
    exact BitVec.sub_self _

theorem ofNat_inj {i j : Nat} (hi : i < 2 ^ 64) (hj : j < 2 ^ 64) : BitVec.ofNat 64 i = BitVec.ofNat 64 j ↔ i = j := by
  constructor
  · intro h
    have := congrArg BitVec.toNat h
    rwa [toNat_ofNat' hi, toNat_ofNat' hj] at this
  · rintro rfl
    rfl

theorem wd_ge {ws : Words} {i : Nat} (h : ws.length ≤ i) : wd ws i = 0#64 := by
  unfold wd
  rw [List.getD_eq_getElem?_getD, List.getElem?_eq_none h]
  rfl

theorem val_take_succ' (ws : Words) (i : Nat) :
    val (ws.take (i + 1)) = val (ws.take i) + 2 ^ (64 * i) * (wd ws i).toNat := by
  by_cases h : i < ws.length
  · exact val_take_succ h
  · rw [wd_ge (by omega), List.take_of_length_le (by omega), List.take_of_length_le (by omega)]
    rfl

theorem val_take_lt (ws : Words) (i : Nat) : val (ws.take i) < 2 ^ (64 * i) := by
  rw [val_take]
  exact Nat.mod_lt _ (Nat.two_pow_pos _)

theorem sub_ofNat {i j : Nat} (h : j ≤ i) : sbbv (BitVec.ofNat 64 i) (BitVec.ofNat 64 j) false = BitVec.ofNat 64 (i - j) := by
  obtain ⟨d, rfl⟩ := Nat.exists_eq_add_of_le h
  have hs : sbbv (BitVec.ofNat 64 (j + d)) (BitVec.ofNat 64 j) false = BitVec.ofNat 64 (j + d) - BitVec.ofNat 64 j :=
    BitVec.sub_zero _
  rw [hs, BitVec.ofNat_add, BitVec.add_comm, BitVec.add_sub_cancel, Nat.add_sub_cancel_left]

theorem sub_lt_ofNat {i j : Nat} (hi : i < 2 ^ 64) (hj : j < 2 ^ 64) :
    sbbc (BitVec.ofNat 64 i) (BitVec.ofNat 64 j) false = decide (i < j) := by
  unfold sbbc
  rw [toNat_ofNat' hi, toNat_ofNat' hj]
  rfl

theorem add_sub_back (a b : Word) : adcv (sbbv a b false) b false = a := by
  have h1 : sbbv a b false = a - b := BitVec.sub_zero _
  have h2 : adcv (a - b) b false = a - b + b := BitVec.add_zero _
  rw [h1, h2, BitVec.sub_add_cancel]

/-- All ones, or zero. -/
def msk (c : Bool) : Word := if c then 0xffffffffffffffff#64 else 0#64

theorem sbb_self (a : Word) (c : Bool) : sbbv a a c = msk c := by
  unfold sbbv
  rw [BitVec.sub_self]
  cases c <;> rfl

theorem sbbc_self (a : Word) (c : Bool) : sbbc a a c = c := by
  unfold sbbc
  cases c <;> simp

theorem neg_mask (c : Bool) : sbbv 0#64 (msk c) false = if c then 1#64 else 0#64 := by
  cases c <;> rfl

theorem msk_ne (c : Bool) : (msk c != 0#64) = c := by cases c <;> rfl

/-- The array, or nothing. -/
def opt (c : Bool) (ws : Words) : Words := if c then ws else []

theorem wd_opt (c : Bool) (ws : Words) (i : Nat) : wd (opt c ws) i = wd ws i &&& msk c := by
  cases c
  · simp [opt, msk, wd]
  · show wd ws i = wd ws i &&& BitVec.allOnes 64
    rw [BitVec.and_allOnes]

/-- The borrow of a comparison from the low end. -/
theorem lt_step (x y : Words) (i : Nat) :
    sbbc (wd x i) (wd y i) (decide (val (x.take i) < val (y.take i))) =
      decide (val (x.take (i + 1)) < val (y.take (i + 1))) := by
  have hx := val_take_lt x i
  have hy := val_take_lt y i
  unfold sbbc
  rw [val_take_succ', val_take_succ', decide_eq_decide]
  generalize 2 ^ (64 * i) = B at *
  generalize val (x.take i) = X at *
  generalize val (y.take i) = Y at *
  generalize (wd x i).toNat = a
  generalize (wd y i).toNat = b
  rcases Nat.lt_trichotomy a b with h | h | h
  · have : B * (a + 1) ≤ B * b := Nat.mul_le_mul_left _ h
    rw [Nat.mul_add, Nat.mul_one] at this
    constructor <;> intro _ <;> omega
  · subst h
    by_cases hxy : X < Y <;> simp only [hxy, decide_true, decide_false, Bool.toNat_true, Bool.toNat_false] <;> omega
  · have : B * (b + 1) ≤ B * a := Nat.mul_le_mul_left _ h
    rw [Nat.mul_add, Nat.mul_one] at this
    have := bool_toNat_le (decide (X < Y))
    constructor <;> intro _ <;> omega

/-! ### Sums and differences, word by word -/

theorem carry_step {B Z c w c' X Y a b : Nat} (h1 : Z + B * c = X + Y) (h2 : w + 2 ^ 64 * c' = a + b + c) :
    Z + B * w + 2 ^ 64 * B * c' = X + B * a + (Y + B * b) := by
  have h := congrArg (B * ·) h2
  simp only [Nat.mul_add] at h
  have e : B * (2 ^ 64 * c') = 2 ^ 64 * B * c' := by rw [← Nat.mul_assoc, Nat.mul_comm B]
  omega

theorem words_of_val {zs : Words} {c n : Nat} (h : val zs + 2 ^ (64 * zs.length) * c = n) :
    zs = toWords zs.length n ∧ c = n / 2 ^ (64 * zs.length) := by
  have hl := val_lt zs
  constructor
  · apply val_inj (by simp)
    rw [val_toWords, ← h, Nat.add_mul_mod_self_left, Nat.mod_eq_of_lt hl]
  · rw [← h, Nat.add_mul_div_left _ _ (Nat.two_pow_pos _), Nat.div_eq_of_lt hl, Nat.zero_add]

theorem borrow_step {B Z c w c' X Y a b : Nat} (h1 : Z + Y = X + B * c) (h2 : w + b + c = a + 2 ^ 64 * c') :
    Z + B * w + (Y + B * b) = X + B * a + 2 ^ 64 * B * c' := by
  have h := congrArg (B * ·) h2
  simp only [Nat.mul_add] at h
  have e : B * (2 ^ 64 * c') = 2 ^ 64 * B * c' := by rw [← Nat.mul_assoc, Nat.mul_comm B]
  omega

/-- `zs` is the low `i` words of a sum, with carry `c`. -/
structure SumOf (x y : Words) (i : Nat) (zs : Words) (c : Bool) : Prop where
  len : zs.length = i
  sum : val zs + 2 ^ (64 * i) * c.toNat = val (x.take i) + val (y.take i)

/-- `zs` is the low `i` words of a difference, with borrow `c`. -/
structure DiffOf (x y : Words) (i : Nat) (zs : Words) (c : Bool) : Prop where
  len : zs.length = i
  sum : val zs + val (y.take i) = val (x.take i) + 2 ^ (64 * i) * c.toNat

theorem SumOf.init (x y : Words) : SumOf x y 0 [] false := ⟨rfl, rfl⟩
theorem DiffOf.init (x y : Words) : DiffOf x y 0 [] false := ⟨rfl, rfl⟩

theorem SumOf.step {x y : Words} {i : Nat} {zs : Words} {c : Bool} (h : SumOf x y i zs c) :
    SumOf x y (i + 1) (zs ++ [adcv (wd x i) (wd y i) c]) (adcc (wd x i) (wd y i) c) := by
  refine ⟨by rw [List.length_append, h.len]; rfl, ?_⟩
  rw [val_snoc, h.len, val_take_succ', val_take_succ', pow_step]
  exact carry_step h.sum (adc_val _ _ _)

theorem DiffOf.step {x y : Words} {i : Nat} {zs : Words} {c : Bool} (h : DiffOf x y i zs c) :
    DiffOf x y (i + 1) (zs ++ [sbbv (wd x i) (wd y i) c]) (sbbc (wd x i) (wd y i) c) := by
  refine ⟨by rw [List.length_append, h.len]; rfl, ?_⟩
  rw [val_snoc, h.len, val_take_succ', val_take_succ', pow_step]
  exact borrow_step h.sum (sbb_val _ _ _)

theorem adcv_comm (a b : Word) (c : Bool) : adcv a b c = adcv b a c := by
  unfold adcv
  rw [BitVec.add_comm a]

theorem adcc_comm (a b : Word) (c : Bool) : adcc a b c = adcc b a c := by
  unfold adcc
  rw [Nat.add_comm a.toNat]

theorem cmov_min {i j : Nat} (hi : i < 2 ^ 64) (hj : j < 2 ^ 64) :
    (if sbbc (BitVec.ofNat 64 i) (BitVec.ofNat 64 j) false = true then BitVec.ofNat 64 i else BitVec.ofNat 64 j) =
      BitVec.ofNat 64 (min i j) := by
  rw [sub_lt_ofNat hi hj]
  by_cases h : i < j
  · simp [h, Nat.min_eq_left (Nat.le_of_lt h)]
  · simp [h, Nat.min_eq_right (Nat.le_of_not_lt h)]

theorem Holds.take {m : Word → Option Word} {p : Word} {ws : Words} (h : Holds m p ws) (k : Nat) : Holds m p (ws.take k) := by
  intro i hi
  rw [List.length_take] at hi
  rw [h i (by omega), List.getElem_take]

theorem Apart.mono {p q : Word} {k l l' : Nat} (h : Apart p k q l) (hl : l' ≤ l) : Apart p k q l' :=
  fun i hi j hj => h i hi j (by omega)

theorem Apart.symm {p q : Word} {k l : Nat} (h : Apart p k q l) : Apart q l p k :=
  fun i hi j hj he => h j hj i hi he.symm

theorem Holds.set {m : Word → Option Word} {p : Word} {ws : Words} (h : Holds m p ws) (hk : ws.length < 2 ^ 61) {i : Nat}
    (hi : i < ws.length) (v : Word) : Holds (fun b => if b = word p i then some v else m b) p (ws.set i v) := by
  intro j hj
  rw [List.length_set] at hj
  show (if word p j = word p i then some v else m (word p j)) = _
  by_cases hji : j = i
  · subst hji
    rw [if_pos rfl, List.getElem_set_self]
  · rw [if_neg fun he => hji (word_inj (by omega) (by omega) he), List.getElem_set_ne (Ne.symm hji)]
    exact h j hj

/-- Storing the next word of an array that is rewritten in place. -/
theorem Holds.over {m : Word → Option Word} {p : Word} {us old : Words} {i : Nat} (h : Holds m p (us ++ old.drop i))
    (hu : us.length = i) (hi : i < old.length) (hk : old.length < 2 ^ 61) (v : Word) :
    Holds (fun b => if b = word p i then some v else m b) p ((us ++ [v]) ++ old.drop (i + 1)) := by
  have hl : (us ++ old.drop i).length = old.length := by
    rw [List.length_append, List.length_drop]
    omega
  have := h.set (by omega) (i := i) (by omega) v
  rw [List.set_append_right _ _ (by omega), hu, Nat.sub_self, List.drop_eq_getElem_cons hi] at this
  rw [List.append_assoc]
  exact this

theorem Holds.over_wd {m : Word → Option Word} {p : Word} {us old : Words} {i : Nat} (h : Holds m p (us ++ old.drop i))
    (hu : us.length = i) (hi : i < old.length) : m (word p i) = some (X86.wd old i) := by
  have hl : (us ++ old.drop i).length = old.length := by
    rw [List.length_append, List.length_drop]
    omega
  rw [h i (by omega), List.getElem_append_right (by omega), wd_eq hi]
  simp only [hu, Nat.sub_self, List.getElem_drop, Nat.add_zero]

theorem add_ofNat (i j : Nat) : adcv (BitVec.ofNat 64 i) (BitVec.ofNat 64 j) false = BitVec.ofNat 64 (i + j) := by
  rw [BitVec.ofNat_add]
  exact BitVec.add_zero _

theorem shl_ofNat (i n : Nat) : BitVec.ofNat 64 i <<< n = BitVec.ofNat 64 (2 ^ n * i) := by
  apply BitVec.eq_of_toNat_eq
  rw [BitVec.toNat_shiftLeft, BitVec.toNat_ofNat, BitVec.toNat_ofNat, Nat.shiftLeft_eq, Nat.mod_mul_mod, Nat.mul_comm]

theorem word_add8 (p : Word) (i : Nat) : adcv (word p i) 8#64 false = word p (i + 1) := by
  have : adcv (word p i) 8#64 false = word p i + 8#64 := BitVec.add_zero _
  rw [this]
  unfold word
  have h : BitVec.ofNat 64 (i + 1) = BitVec.ofNat 64 i + 1#64 := BitVec.ofNat_add i 1
  rw [h, BitVec.mul_add, ← BitVec.add_assoc]
  rfl

theorem word_add (p : Word) (i j : Nat) : word (word p i) j = word p (i + j) := by
  unfold word
  rw [BitVec.ofNat_add, BitVec.mul_add, ← BitVec.add_assoc]

theorem word_adc (p : Word) (i j : Nat) : adcv (word p i) (8#64 * BitVec.ofNat 64 j) false = word p (i + j) := by
  rw [← word_add]
  exact BitVec.add_zero _

theorem word_zero (p : Word) : word p 0 = p := by
  unfold word
  exact BitVec.add_zero _

theorem val_drop_step (x : Words) (i : Nat) : val (x.drop i) = (wd x i).toNat + 2 ^ 64 * val (x.drop (i + 1)) := by
  by_cases h : i < x.length
  · rw [List.drop_eq_getElem_cons h, val, wd_eq h]
  · rw [wd_ge (by omega), List.drop_of_length_le (by omega), List.drop_of_length_le (by omega)]
    rfl

/-- Run one instruction. -/
macro "xstep" "[" hs:Lean.Parser.Tactic.simpLemma,* "]" : tactic =>
  `(tactic| (refine From.next rfl ?_
             simp only [Instr.exec, Instr.eff, St.val, St.get, St.put, St.set, St.load, St.store, St.ea, St.cond,
               St.zs, St.addFlags, St.subFlags, St.logicFlags, Option.map, Option.bind, Option.bind_some, bind, pure,
               then_some, Nat.reduceAdd, BitVec.add_zero, BitVec.zero_add, BitVec.and_self, BitVec.xor_self, word_fold,
               inc_ofNat, dec_ofNat, if_true, $hs,*]))

/-- A conditional jump that is taken. -/
macro "xtake" "[" hs:Lean.Parser.Tactic.simpLemma,* "]" : tactic =>
  `(tactic| refine From.jccT rfl (by simp only [St.cond, Option.map, $hs,*]) ?_)

/-- A conditional jump that is not taken. -/
macro "xfall" "[" hs:Lean.Parser.Tactic.simpLemma,* "]" : tactic =>
  `(tactic| (refine From.jccF rfl (by simp only [St.cond, Option.map, $hs,*]) ?_; simp only [Nat.reduceAdd]))

end Verif.X86
