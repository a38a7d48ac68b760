import Verif.Proof.X86.MlKemRun

/-! The machine code of the two transforms: each butterfly is recognised and named by its layer and place. -/
namespace Verif.X86.L16
open Verif Verif.X86 Verif.MlKem Verif.MlKem.X86

/-- A power of 17 as a constant, and its product with 62209. -/
def zNat (i : Nat) : Nat := (zetas.getD i 0 % 65536).toNat
def zNat' (i : Nat) : Nat := zNat i * 62209 % 65536

theorem zNat_val (i : Nat) : BitVec.ofNat 16 (zNat i) = zetaL i := by
  unfold zNat zetaL
  generalize zetas.getD i 0 = x
  apply BitVec.eq_of_toNat_eq
  rw [BitVec.toNat_ofNat, BitVec.toNat_ofInt]
  omega

theorem zNat'_val (i : Nat) : BitVec.ofNat 16 (zNat' i) = BitVec.ofNat 16 (zNat i) * 62209#16 := by
  unfold zNat'
  apply BitVec.eq_of_toNat_eq
  rw [BitVec.toNat_mul]
  simp only [BitVec.toNat_ofNat]
  omega

/-! ### The forward transform -/

def spanN (a : Nat) : Nat := 128 / 2 ^ (a / 256)
def zIdxN (a : Nat) : Nat := 2 ^ (a / 256) + a % 256 / (2 * spanN a)
/-- The name `a` is that of an upper place of a butterfly. -/
def upN (a : Nat) : Bool := Nat.blt a 1792 && Nat.blt (a % 256 % (2 * spanN a)) (spanN a)

def sumN (a : Nat) : E :=
  .sub (.add (.v a) (.mulh (.v (a + spanN a)) (.c (zNat (zIdxN a))))) (.mulh (.mul (.v (a + spanN a)) (.c (zNat' (zIdxN a)))) (.c 3329))
def difN (a : Nat) : E :=
  .add (.sub (.v a) (.mulh (.v (a + spanN a)) (.c (zNat (zIdxN a))))) (.mulh (.mul (.v (a + spanN a)) (.c (zNat' (zIdxN a)))) (.c 3329))

def foldN : E → E
  | .sub (.add (.v a) x) y => bif upN a && (E.sub (.add (.v a) x) y).same (sumN a) then .v (a + 256) else .sub (.add (.v a) x) y
  | .add (.sub (.v a) x) y => bif upN a && (E.add (.sub (.v a) x) y).same (difN a) then .v (a + 256 + spanN a) else .add (.sub (.v a) x) y
  | e => e

set_option maxRecDepth 1000000 in
theorem ntt_check : check foldN [(⟨.rdi, 16, true, true⟩, some fun m => .v (0 + m)), (⟨.rsi, 39, false, true⟩, some qE)] Asm.mlkemNtt 16
    (fun m => .v (1792 + place m)) = true := by
  decide +kernel

/-- What the names stand for. -/
def nameN (f : Nat → Lane) (n : Nat) : Lane := nttIter f (n / 256) (n % 256)

theorem arithN : ∀ a < 1792, upN a = true → (a + spanN a) / 256 = a / 256 ∧ (a + spanN a) % 256 = a % 256 + spanN a ∧
    (a + 256 + spanN a) / 256 = a / 256 + 1 ∧ (a + 256 + spanN a) % 256 = a % 256 + spanN a ∧
    (a % 256 + spanN a) % (2 * spanN a) = a % 256 % (2 * spanN a) + spanN a ∧ (a % 256 + spanN a) / (2 * spanN a) = a % 256 / (2 * spanN a) := by
  decide +kernel

theorem foldN_ok (t : VSt) (f : Nat → Lane) (e : E) : (foldN e).val (env t (nameN f)) = e.val (env t (nameN f)) := by
  have hup : ∀ {a}, upN a = true → a < 1792 ∧ a % 256 % (2 * spanN a) < spanN a := by
    intro a h
    unfold upN at h
    rw [Bool.and_eq_true, Nat.blt_eq, Nat.blt_eq] at h
    exact h
  have hmont : ∀ {a}, a < 1792 → upN a = true → (montE (.v (a + spanN a)) (zNat (zIdxN a)) (zNat' (zIdxN a))).val (env t (nameN f)) =
      mont (nttIter f (a / 256) (a % 256 + spanN a)) (zetaL (zIdxN a)) := by
    intro a h1 hu
    have ar := arithN a h1 hu
    rw [mont_const _ _ (zNat'_val _), zNat_val]
    show mont (env t (nameN f) (a + spanN a)) _ = _
    rw [env_lo _ _ (by unfold spanN; have := Nat.div_le_self 128 (2 ^ (a / 256)); omega)]
    unfold nameN
    rw [ar.1, ar.2.1]
  unfold foldN
  split
  · rename_i a x y
    cases h : upN a && (E.sub (.add (.v a) x) y).same (sumN a)
    · rfl
    · rw [Bool.and_eq_true] at h
      obtain ⟨h1, h2⟩ := hup h.1
      rw [E.same_eq h.2, cond_true]
      have ar := arithN a h1 h.1
      show env t (nameN f) (a + 256) = env t (nameN f) a + mulhi16 _ _ - mulhi16 _ _
      rw [add_sub_assoc]
      refine Eq.trans ?_ (congrArg _ (hmont h1 h.1).symm)
      rw [env_lo _ _ (by omega), env_lo _ _ (by omega)]
      show nttIter f ((a + 256) / 256) ((a + 256) % 256) = _
      rw [show (a + 256) / 256 = a / 256 + 1 by omega, Nat.add_mod_right]
      show nttStep _ _ _ = _
      unfold nttStep
      exact if_pos h2
  · rename_i a x y
    cases h : upN a && (E.add (.sub (.v a) x) y).same (difN a)
    · rfl
    · rw [Bool.and_eq_true] at h
      obtain ⟨h1, h2⟩ := hup h.1
      rw [E.same_eq h.2, cond_true]
      have ar := arithN a h1 h.1
      show env t (nameN f) (a + 256 + spanN a) = env t (nameN f) a - mulhi16 _ _ + mulhi16 _ _
      rw [sub_add]
      refine Eq.trans ?_ (congrArg _ (hmont h1 h.1).symm)
      rw [env_lo _ _ (by unfold spanN; have := Nat.div_le_self 128 (2 ^ (a / 256)); omega), env_lo _ _ (by omega)]
      show nttIter f ((a + 256 + spanN a) / 256) ((a + 256 + spanN a) % 256) = _
      rw [ar.2.2.1, ar.2.2.2.1]
      show nttStep _ _ _ = _
      unfold nttStep
      show (if (a % 256 + spanN a) % (2 * spanN a) < spanN a then _ else nttIter f (a / 256) (a % 256 + spanN a - spanN a) -
        mont (nttIter f (a / 256) (a % 256 + spanN a)) (zetaL (2 ^ (a / 256) + (a % 256 + spanN a) / (2 * spanN a)))) = _
      rw [if_neg (by omega), ar.2.2.2.2.2, Nat.add_sub_cancel]
      rfl
  · rfl

theorem ntt_run {t : VSt} {a : Coeffs} (ha : a.length = 256) (hr : Ready t.s [ioBlock t.s.rdi (words16 a), inBlock t.s.rsi (words16 qdata)])
    (hal : Aligned32 t.s.rdi ∧ Aligned32 t.s.rsi) :
    VRuns Asm.mlkemNtt t (Ends t [ioBlock t.s.rdi (words16 a), inBlock t.s.rsi (words16 qdata)] t.s.rdi (words16 (ntt a))) := by
  have h := check_sound (A := ⟨.rdi, 16, true, true⟩) (b := nameN (lanes a)) (t := t) (foldN_ok t (lanes a)) ntt_check hr
    (.cons (fits_io (by
        rw [words16_eq (n := 64) ha]
        exact names (n := 16) (by omega) fun m hm => by
          rw [Nat.zero_add]
          unfold nameN
          rw [Nat.div_eq_of_lt (by omega), Nat.mod_eq_of_lt (by omega)]
          rfl))
      (.cons (fits_in (by rw [words16_eq (n := 156) (by decide +kernel)]; exact laneWords_congr fun m _ => (qE_val _ m).symm)) .nil))
    (by simp [arrs]) (by simpa [arrs] using (show Aligned32 (t.s.get .rdi) ∧ Aligned32 (t.s.get .rsi) from hal))
  rw [show ntt a = arr (4 * 64) fun m => nttIter (lanes a) 7 (place m) from rfl, words16_arr]
  rw [show laneWords (4 * (⟨.rdi, 16, true, true⟩ : Arr).n) (fun m => (E.v (1792 + place m)).val (env t (nameN (lanes a)))) =
      laneWords 64 fun m => nttIter (lanes a) 7 (place m) from
    laneWords_congr fun m hm => by
      have hp := place_lt (m := m) hm
      show env _ _ _ = _
      rw [env_lo _ _ (by omega)]
      unfold nameN
      rw [show (1792 + place m) / 256 = 7 by omega, show (1792 + place m) % 256 = place m by omega]] at h
  exact h

/-! ### The inverse transform -/

def spanI (a : Nat) : Nat := 2 ^ (a / 256)
def zIdxI (a : Nat) : Nat := 256 / spanI a - 1 - a % 256 / (2 * spanI a)
/-- The name `a` is that of an upper place of a butterfly. -/
def upI (a : Nat) : Bool := Nat.ble 256 a && Nat.blt a 2048 && Nat.blt (a % 256 % (2 * spanI a)) (spanI a)

def barrettE (x : E) : E := .sub x (.mul (.sra 10 (.mulh x (.c 20159))) (.c 3329))
theorem barrettE_val (ρ : Nat → BitVec 16) (x : E) : (barrettE x).val ρ = barrett (x.val ρ) := rfl
theorem inttIter_succ (f : Nat → Lane) (k : Nat) : inttIter f (k + 1) = inttStep k (inttIter f k) := rfl
theorem v_val (ρ : Nat → BitVec 16) (n : Nat) : (E.v n).val ρ = ρ n := rfl
def difI (a : Nat) : E := montE (.sub (.v (a + spanI a)) (.v a)) (zNat (zIdxI a)) (zNat' (zIdxI a))

def foldI : E → E
  | .add (.v a) (.v b) => bif upI a && Nat.beq b (a + spanI a) then
      (bif reduced (a / 256 - 1) (a % 256) then .v (a + 256 + 4096) else .v (a + 256)) else .add (.v a) (.v b)
  | .sub (.v a) x => bif Nat.ble 4096 a && Nat.blt a 8192 && (E.sub (.v a) x).same (barrettE (.v a)) && reduced ((a - 4096) / 256 - 2) (a % 256) then .v (a - 4096)
      else .sub (.v a) x
  | .sub (.mulh (.v a) x) y => bif Nat.blt a 256 && (E.sub (.mulh (.v a) x) y).same (montE (.v a) 1441 (1441 * 62209 % 65536)) then .v (a + 256)
      else .sub (.mulh (.v a) x) y
  | .sub (.mulh (.sub (.v b) (.v a)) x) y => bif upI a && (E.sub (.mulh (.sub (.v b) (.v a)) x) y).same (difI a) then .v (a + 256 + spanI a)
      else .sub (.mulh (.sub (.v b) (.v a)) x) y
  | e => e

set_option maxRecDepth 1000000 in
theorem intt_check : check foldI [(⟨.rdi, 16, true, true⟩, some fun m => .v (place m)), (⟨.rsi, 39, false, true⟩, some qE)] Asm.mlkemIntt 16
    (fun m => .v (2048 + m)) = true := by
  decide +kernel

/-- What the names stand for: below 4096 the values, above the sums that are reduced. -/
def nameI (f : Nat → Lane) (n : Nat) : Lane :=
  if n < 256 then f n else if n < 4096 then inttIter f (n / 256 - 1) (n % 256) else
    inttIter f ((n - 4096) / 256 - 2) (n % 256) + inttIter f ((n - 4096) / 256 - 2) (n % 256 + 2 ^ ((n - 4096) / 256 - 2 + 1))

set_option maxRecDepth 100000 in
theorem arithI : ∀ a < 2048, upI a = true → (a + spanI a) / 256 = a / 256 ∧ (a + spanI a) % 256 = a % 256 + spanI a ∧
    (a + 256 + spanI a) / 256 = a / 256 + 1 ∧ (a + 256 + spanI a) % 256 = a % 256 + spanI a ∧
    (a % 256 + spanI a) % (2 * spanI a) = a % 256 % (2 * spanI a) + spanI a ∧ (a % 256 + spanI a) / (2 * spanI a) = a % 256 / (2 * spanI a) ∧
    2 ^ (a / 256 - 1 + 1) = spanI a ∧ spanI a ≤ 128 := by
  decide +kernel

theorem arithB (a : Nat) (h : reduced (a / 256 - 2) (a % 256) = true) : 4 ≤ a / 256 ∧ a / 256 ≤ 7 ∧
    a % 256 % (2 * 2 ^ (a / 256 - 2 + 1)) < 2 ^ (a / 256 - 2 + 1) := by
  unfold reduced at h
  simp only [Bool.and_eq_true, decide_eq_true_eq] at h
  obtain ⟨⟨h1, h2⟩, h3⟩ := h
  refine ⟨by omega, by omega, ?_⟩
  generalize a / 256 - 2 = k at h1 h2 h3
  interval_cases k <;> omega

theorem foldI_ok (t : VSt) (f : Nat → Lane) (e : E) : (foldI e).val (env t (nameI f)) = e.val (env t (nameI f)) := by
  have hup : ∀ {a}, upI a = true → 256 ≤ a ∧ a < 2048 ∧ a % 256 % (2 * spanI a) < spanI a := by
    intro a h
    unfold upI at h
    rw [Bool.and_eq_true, Bool.and_eq_true, Nat.ble_eq, Nat.blt_eq, Nat.blt_eq] at h
    exact ⟨h.1.1, h.1.2, h.2⟩
  have hlo : ∀ {a}, 256 ≤ a → a < 4096 → env t (nameI f) a = inttIter f (a / 256 - 1) (a % 256) := by
    intro a h1 h2
    rw [env_lo _ _ (by omega)]
    unfold nameI
    rw [if_neg (by omega), if_pos h2]
  have hval : ∀ {a}, upI a = true → env t (nameI f) a = inttIter f (a / 256 - 1) (a % 256) ∧
      env t (nameI f) (a + spanI a) = inttIter f (a / 256 - 1) (a % 256 + spanI a) := by
    intro a h
    obtain ⟨h0, h1, h2⟩ := hup h
    have ar := arithI a h1 h
    refine ⟨hlo h0 (by omega), ?_⟩
    rw [hlo (by omega) (by omega), ar.1, ar.2.1]
  unfold foldI
  split
  · rename_i a b
    cases h : upI a && Nat.beq b (a + spanI a)
    · rfl
    · rw [Bool.and_eq_true] at h
      obtain ⟨h0, h1, h2⟩ := hup h.1
      have ar := arithI a h1 h.1
      have e2 : b = a + spanI a := Nat.eq_of_beq_eq_true h.2
      subst e2
      rw [cond_true]
      show _ = env t (nameI f) a + env t (nameI f) (a + spanI a)
      rw [(hval h.1).1, (hval h.1).2]
      cases hr : reduced (a / 256 - 1) (a % 256)
      · rw [cond_false]
        show env t (nameI f) (a + 256) = _
        rw [hlo (by omega) (by omega), show (a + 256) / 256 - 1 = (a / 256 - 1) + 1 by omega, Nat.add_mod_right]
        show inttStep _ _ _ = _
        unfold inttStep
        simp only [hr, ar.2.2.2.2.2.2.1]
        rw [if_pos h2]
        rfl
      · rw [cond_true]
        show env t (nameI f) (a + 256 + 4096) = _
        rw [env_lo _ _ (by omega)]
        unfold nameI
        rw [if_neg (by omega), if_neg (by omega), Nat.add_sub_cancel, show (a + 256) / 256 - 2 = a / 256 - 1 by omega,
          show (a + 256 + 4096) % 256 = a % 256 by omega, ar.2.2.2.2.2.2.1]
  · rename_i a x
    cases h : Nat.ble 4096 a && Nat.blt a 8192 && (E.sub (.v a) x).same (barrettE (.v a)) && reduced ((a - 4096) / 256 - 2) (a % 256)
    · rfl
    · rw [Bool.and_eq_true, Bool.and_eq_true, Bool.and_eq_true, Nat.ble_eq, Nat.blt_eq] at h
      obtain ⟨⟨⟨h0, h1⟩, h2⟩, h3⟩ := h
      rw [E.same_eq h2, cond_true]
      have hn : nameI f a = inttIter f ((a - 4096) / 256 - 2) (a % 256) +
          inttIter f ((a - 4096) / 256 - 2) (a % 256 + 2 ^ ((a - 4096) / 256 - 2 + 1)) := by
        unfold nameI
        rw [if_neg (by omega), if_neg (by omega)]
      have em : a % 256 = (a - 4096) % 256 := by omega
      have hs := hlo (a := a - 4096)
      rw [barrettE_val, v_val, v_val]
      rw [env_lo t (nameI f) (n := a) (by omega), hn]
      clear hn h2
      rw [em] at h3 ⊢
      have hb : a - 4096 < 4096 := by omega
      generalize a - 4096 = b at hs h3 hb
      have ar := arithB b h3
      rw [hs (by omega) hb, show b / 256 - 1 = (b / 256 - 2) + 1 by omega, inttIter_succ]
      unfold inttStep
      simp only [h3]
      rw [if_pos ar.2.2]
      rfl
  · rename_i a x y
    cases h : Nat.blt a 256 && (E.sub (.mulh (.v a) x) y).same (montE (.v a) 1441 (1441 * 62209 % 65536))
    · rfl
    · rw [Bool.and_eq_true, Nat.blt_eq] at h
      rw [E.same_eq h.2, cond_true, mont_const _ _ (by decide)]
      show env t (nameI f) (a + 256) = mont (env t (nameI f) a) _
      rw [hlo (by omega) (by omega), env_lo _ _ (by omega)]
      unfold nameI
      rw [if_pos h.1, show (a + 256) / 256 - 1 = 0 by omega, show (a + 256) % 256 = a by omega]
      rfl
  · rename_i b a x y
    cases h : upI a && (E.sub (.mulh (.sub (.v b) (.v a)) x) y).same (difI a)
    · rfl
    · rw [Bool.and_eq_true] at h
      obtain ⟨h0, h1, h2⟩ := hup h.1
      rw [E.same_eq h.2, cond_true]
      have ar := arithI a h1 h.1
      unfold difI
      rw [mont_const _ _ (zNat'_val _), zNat_val]
      show env t (nameI f) (a + 256 + spanI a) = mont (env t (nameI f) (a + spanI a) - env t (nameI f) a) _
      rw [(hval h.1).1, (hval h.1).2, hlo (by omega) (by omega), ar.2.2.1, ar.2.2.2.1, show a / 256 + 1 - 1 = (a / 256 - 1) + 1 by omega]
      show inttStep _ _ _ = _
      unfold inttStep
      simp only [ar.2.2.2.2.2.2.1]
      rw [if_neg (by omega), ar.2.2.2.2.2.1, Nat.add_sub_cancel]
      rfl
  · rfl

theorem intt_run {t : VSt} {a : Coeffs} (ha : a.length = 256) (hr : Ready t.s [ioBlock t.s.rdi (words16 a), inBlock t.s.rsi (words16 qdata)])
    (hal : Aligned32 t.s.rdi ∧ Aligned32 t.s.rsi) :
    VRuns Asm.mlkemIntt t (Ends t [ioBlock t.s.rdi (words16 a), inBlock t.s.rsi (words16 qdata)] t.s.rdi (words16 (intt a))) := by
  have h := check_sound (A := ⟨.rdi, 16, true, true⟩) (b := nameI fun p => lanes a (slot p)) (t := t) (foldI_ok t fun p => lanes a (slot p)) intt_check hr
    (.cons (fits_io (by
        rw [words16_eq (n := 64) ha]
        exact laneWords_congr fun m hm => by
          have hp := place_lt (m := m) hm
          show _ = env _ _ (place m)
          rw [env_lo _ _ (by omega)]
          unfold nameI
          rw [if_pos hp]
          show lanes a m = lanes a (slot (place m))
          rw [slot_place hm]))
      (.cons (fits_in (by rw [words16_eq (n := 156) (by decide +kernel)]; exact laneWords_congr fun m _ => (qE_val _ m).symm)) .nil))
    (by simp [arrs]) (by simpa [arrs] using (show Aligned32 (t.s.get .rdi) ∧ Aligned32 (t.s.get .rsi) from hal))
  rw [show intt a = arr (4 * 64) (inttIter (fun p => lanes a (slot p)) 7) from rfl, words16_arr]
  rw [show laneWords (4 * (⟨.rdi, 16, true, true⟩ : Arr).n) (fun m => (E.v (2048 + m)).val (env t (nameI fun p => lanes a (slot p)))) =
      laneWords 64 (inttIter (fun p => lanes a (slot p)) 7) from
    laneWords_congr fun m hm => by
      have hm : m < 256 := hm
      show env _ _ _ = _
      rw [env_lo _ _ (by omega)]
      unfold nameI
      rw [if_neg (by omega), if_pos (by omega), show (2048 + m) / 256 - 1 = 7 by omega, show (2048 + m) % 256 = m by omega]] at h
  exact h

end Verif.X86.L16
