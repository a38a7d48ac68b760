import Verif.Proof.Hmac
import Verif.Proof.Ct
import Verif.Model.Pkcs1
import Verif.Spec.Pkcs1

/-!
MGF1 and EMSA-PSS.
-/
namespace Verif.Pkcs1
open Verif Verif.Hmac Verif.Spec.Pkcs1

variable {F : HashFn} {H : Bytes → Bytes} {limit : Nat}

theorem hashParts_ok (C : Correct F H limit) (parts : List Bytes) (hl : parts.flatten.length < limit) :
    hashParts F parts = some (H parts.flatten) := by
  have key : ∀ (cs : List Bytes) (c : F.Ctx) (m : Bytes), C.Rel c m →
      ∃ c', cs.foldlM F.update c = some c' ∧ C.Rel c' (m ++ cs.flatten) := by
    intro cs
    induction cs with
    | nil => intro c m h; exact ⟨c, rfl, by simpa using h⟩
    | cons b bs ih =>
      intro c m h
      obtain ⟨c1, e1, h1⟩ := C.update c m b h
      obtain ⟨c2, e2, h2⟩ := ih c1 _ h1
      refine ⟨c2, ?_, by simpa using h2⟩
      rw [List.foldlM_cons, e1]; exact e2
  obtain ⟨c, e, h⟩ := key parts F.new [] C.new
  rw [hashParts, e, Option.bind_some, C.finish c _ h, List.nil_append, if_pos hl]

theorem zipWith_append_cut {α : Type} (f : α → α → α) (a b t r : List α) (h : a.length ≤ t.length)
    (hb : a.length < t.length → b = []) :
    List.zipWith f (a ++ b) (t ++ r) = List.zipWith f a t ++ List.zipWith f b r := by
  rcases Nat.lt_or_ge a.length t.length with h' | h'
  · rw [hb h', List.append_nil, List.zipWith_nil_left, List.append_nil]
    clear hb
    induction a generalizing t with
    | nil => simp
    | cons x xs ih =>
      cases t with
      | nil => simp at h
      | cons y ys =>
        simp only [List.length_cons] at h h'
        simp only [List.cons_append, List.zipWith_cons_cons]
        rw [ih ys (by omega) (by omega)]
  · exact List.zipWith_append (by omega)

/-- The mask with counters from `i` on, `k` blocks. -/
def mask (H : Bytes → Bytes) (seed : Bytes) (i k : Nat) : Bytes := (List.range' i k).flatMap fun i => H (seed ++ toBE 4 i)

theorem ceil_step (n h : Nat) (hh : 0 < h) (hn : 0 < n) : (n + h - 1) / h = (n - h + h - 1) / h + 1 := by
  rcases Nat.lt_or_ge n h with hlt | hge
  · have e1 : (n - h + h - 1) / h = 0 := Nat.div_eq_of_lt (by omega)
    rw [e1, show n + h - 1 = n - 1 + h by omega, Nat.add_div_right _ hh, Nat.div_eq_of_lt (by omega)]
  · rw [show n + h - 1 = n - h + h - 1 + h by omega, Nat.add_div_right _ hh]

theorem mgf1Loop_ok (C : Correct F H limit) (seed : Bytes) (hs : seed.length + 4 < limit) :
    ∀ (n : Nat) (out : Bytes) (i : Nat), out.length ≤ n → i + out.length < 2 ^ 32 →
      mgf1Loop F seed (chunks F.outLen out) i =
        some (List.zipWith (· ^^^ ·) out (mask H seed i ((out.length + F.outLen - 1) / F.outLen))) := by
  have hp := C.pos
  intro n
  induction n with
  | zero =>
    intro out i hn _
    have : out = [] := List.length_eq_zero_iff.1 (by omega)
    subst this
    rw [chunks_nil]
    rfl
  | succ n ih =>
    intro out i hn hi
    by_cases ho : out = []
    · subst ho
      rw [chunks_nil]
      rfl
    · have hpos : 0 < out.length := List.length_pos_iff.2 ho
      rw [chunks_cons hp ho, mgf1Loop, if_neg (by omega), hashParts_ok C [seed, toBE 4 i] (by simp; omega)]
      simp only [List.flatten_cons, List.flatten_nil, List.append_nil, Option.bind_eq_bind, Option.bind_some]
      rw [ih (out.drop F.outLen) (i + 1) (by rw [List.length_drop]; omega) (by rw [List.length_drop]; omega)]
      simp only [Option.bind_some, Option.pure_def, Option.some.injEq]
      have hH := C.outLen (seed ++ toBE 4 i)
      have hk : (out.length + F.outLen - 1) / F.outLen =
          ((out.drop F.outLen).length + F.outLen - 1) / F.outLen + 1 := by
        rw [List.length_drop]; exact ceil_step _ _ hp hpos
      rw [hk]
      generalize ((out.drop F.outLen).length + F.outLen - 1) / F.outLen = k
      rw [mask, mask, List.range'_succ, List.flatMap_cons]
      conv => rhs; arg 2; rw [← List.take_append_drop F.outLen out]
      rw [zipWith_append_cut]
      · rw [xorInto, List.drop_of_length_le (by rw [hH, List.length_take]; omega), List.append_nil]
      · rw [hH, List.length_take]; omega
      · intro h
        rw [hH, List.length_take] at h
        exact List.drop_of_length_le (by omega)

theorem zipWith_take_right {α : Type} (f : α → α → α) (a b : List α) :
    List.zipWith f a (b.take a.length) = List.zipWith f a b := by
  induction a generalizing b with
  | nil => simp
  | cons x xs ih =>
    cases b with
    | nil => simp
    | cons y ys => simp [ih]

theorem mgf1Xor_ok (C : Correct F H limit) (seed out : Bytes) (hs : seed.length + 4 < limit) (ho : out.length < 2 ^ 32) :
    mgf1Xor F seed F.outLen out = some (List.zipWith (· ^^^ ·) out (mgf1 H F.outLen seed out.length)) := by
  have hp := C.pos
  rw [mgf1Xor, if_neg (by omega), mgf1Loop_ok C seed hs out.length out 0 (Nat.le_refl _) (by omega), mgf1, zipWith_take_right,
    mask, List.range_eq_range']

theorem mgf1_length (C : Correct F H limit) (seed : Bytes) (n : Nat) : (mgf1 H F.outLen seed n).length = n := by
  have hp := C.pos
  rw [mgf1, List.length_take, List.length_flatMap]
  have : (List.map (fun i => (H (seed ++ toBE 4 i)).length) (List.range ((n + F.outLen - 1) / F.outLen))).sum =
      (n + F.outLen - 1) / F.outLen * F.outLen := by
    simp only [C.outLen]
    induction (n + F.outLen - 1) / F.outLen with
    | zero => simp
    | succ k ih => rw [List.range_succ, List.map_append, List.sum_append, ih]; simp [Nat.add_mul]
  rw [this]
  have h1 := Nat.div_add_mod (n + F.outLen - 1) F.outLen
  have h2 := Nat.mod_lt (n + F.outLen - 1) hp
  rw [Nat.mul_comm] at h1
  omega

/-! ### Bytes -/

theorem clear_eq (b : Bytes) (h : b ≠ []) : clearTop b = some (clearBits 1 b) := by
  cases b with
  | nil => exact absurd rfl h
  | cons x xs => rfl

theorem clearBits_length (n : Nat) (b : Bytes) : (clearBits n b).length = b.length := by
  cases b <;> rfl

theorem xor_xor_zip (a m : Bytes) (h : a.length = m.length) :
    List.zipWith (· ^^^ ·) (List.zipWith (· ^^^ ·) a m) m = a := by
  induction a generalizing m with
  | nil => simp
  | cons x xs ih =>
    cases m with
    | nil => simp at h
    | cons y ys =>
      simp only [List.zipWith_cons_cons, List.length_cons, Nat.add_right_cancel_iff] at h ⊢
      rw [ih ys h, BitVec.xor_assoc, BitVec.xor_self, BitVec.xor_zero]

theorem byte_clear (x y : Byte) : (((x ^^^ y) &&& (0xff#8 >>> 1)) ^^^ y) &&& (0xff#8 >>> 1) = x &&& (0xff#8 >>> 1) := by
  apply BitVec.eq_of_getLsbD_eq
  intro i hi
  simp only [BitVec.getLsbD_and, BitVec.getLsbD_xor]
  cases x.getLsbD i <;> cases y.getLsbD i <;> cases (0xff#8 >>> 1).getLsbD i <;> rfl

/-- Masking twice gives the block back, except for the cleared bit. -/
theorem clear_xor_clear (a m : Bytes) (h : a.length = m.length) :
    clearBits 1 (List.zipWith (· ^^^ ·) (clearBits 1 (List.zipWith (· ^^^ ·) a m)) m) = clearBits 1 a := by
  cases a with
  | nil => simp [clearBits]
  | cons x xs =>
    cases m with
    | nil => simp at h
    | cons y ys =>
      simp only [List.length_cons, Nat.add_right_cancel_iff] at h
      simp only [List.zipWith_cons_cons, clearBits, xor_xor_zip xs ys h, byte_clear]

theorem byte_top (x : Byte) : x &&& 0x80#8 = 0x00#8 ↔ x &&& (0xff#8 >>> 1) = x := by
  revert x; decide

/-- The structure of an encoded block. -/
structure Parts (em : Bytes) (hLen : Nat) where
  db : Bytes
  h : Bytes
  eq : ∀ t, em.getLastD 0#8 = t → em = db ++ h ++ [t]
  hdb : db.length = em.length - hLen - 1
  hh : h.length = hLen
  edb : em.dropLast.take (em.length - hLen - 1) = db
  eh : em.dropLast.drop (em.length - hLen - 1) = h

def parts (em : Bytes) (hLen : Nat) (h : hLen + 1 ≤ em.length) : Parts em hLen where
  db := em.dropLast.take (em.length - hLen - 1)
  h := em.dropLast.drop (em.length - hLen - 1)
  eq := by
    intro t ht
    rw [List.take_append_drop, ← ht]
    have hne : em ≠ [] := by intro e; rw [e] at h; simp at h
    rw [List.getLastD_eq_getLast?, List.getLast?_eq_some_getLast hne, Option.getD_some, List.dropLast_concat_getLast]
  hdb := by rw [List.length_take, List.length_dropLast]; omega
  hh := by rw [List.length_drop, List.length_dropLast]; omega
  edb := rfl
  eh := rfl

/-! ### Encoding -/

theorem pssBlock_ok (C : Correct F H limit) (emLen : Nat) (hash salt : Bytes) (hh : hash.length = F.outLen)
    (hs : salt.length = F.outLen) (he : F.outLen + F.outLen + 2 ≤ emLen) (h32 : emLen < 2 ^ 32)
    (hl : 8 + 2 * F.outLen < limit) (hl2 : F.outLen + 4 < limit) :
    pssBlock F emLen hash salt = some (emsaPss H F.outLen (8 * emLen - 1) hash salt) := by
  have e1 : hashParts F [List.replicate 8 0#8, hash, salt] = some (H (List.replicate 8 0#8 ++ hash ++ salt)) := by
    rw [hashParts_ok C _ (by simp; omega)]
    simp
  have ho := C.outLen (List.replicate 8 0#8 ++ hash ++ salt)
  have hne : 8 * emLen - 1 + 7 = emLen * 8 + 6 := by omega
  rw [pssBlock, emsaPss, e1]
  simp only [Option.bind_eq_bind, Option.bind_some]
  generalize H (List.replicate 8 0#8 ++ hash ++ salt) = h at *
  have e2 : (8 * emLen - 1 + 7) / 8 = emLen := by omega
  rw [if_neg (by rw [ho, hh]; simp), if_neg (by rw [hs, hh]; simp), e2, show 8 * emLen - (8 * emLen - 1) = 1 by omega, hs, hh]
  have hdl : (List.replicate (emLen - F.outLen - F.outLen - 2) 0#8 ++ [0x01#8] ++ salt).length = emLen - F.outLen - 1 := by
    simp; omega
  rw [mgf1Xor_ok C h _ (by omega) (by omega), hdl, Option.bind_some, clear_eq, Option.bind_some]
  · rfl
  · intro e
    have := congrArg List.length e
    rw [List.length_zipWith, hdl, mgf1_length C] at this
    simp at this
    omega

/-! ### Verification -/

theorem verify_ok (C : Correct F H limit) (em mHash : Bytes) (hh : mHash.length = F.outLen) (h32 : em.length < 2 ^ 32)
    (hl : 8 + 2 * F.outLen < limit) (hl2 : F.outLen + 4 < limit) :
    verifyPssSig F em mHash = .ok () ∨ verifyPssSig F em mHash = .error (.err .BadSignature) := by
  have hp := C.pos
  rw [verifyPssSig]
  simp only [hh]
  split
  · exact Or.inr rfl
  rename_i h1
  split
  · exact Or.inr rfl
  obtain ⟨db, h, _, hdb, hhl, edb, eh⟩ := parts em F.outLen (by omega)
  rw [edb, eh]
  split
  · exact Or.inr rfl
  rw [pssCheck, hh, mgf1Xor_ok C h db (by omega) (by omega)]
  simp only [Option.bind_eq_bind, Option.bind_some]
  have hz : (List.zipWith (· ^^^ ·) db (mgf1 H F.outLen h db.length)).length = db.length := by
    rw [List.length_zipWith, mgf1_length C, Nat.min_self]
  rw [clear_eq _ (by intro e; rw [e] at hz; simp at hz; omega)]
  simp only [Option.bind_some]
  have hz2 := clearBits_length 1 (List.zipWith (· ^^^ ·) db (mgf1 H F.outLen h db.length))
  rw [hz] at hz2
  generalize clearBits 1 (List.zipWith (· ^^^ ·) db (mgf1 H F.outLen h db.length)) = d at *
  rcases hd : d.drop (em.length - F.outLen - F.outLen - 2) with _ | ⟨one, salt⟩
  · have := congrArg List.length hd
    simp at this
    omega
  · have hsl : salt.length = F.outLen := by
      have := congrArg List.length hd
      simp at this
      omega
    simp only []
    by_cases hc : (((d.take (em.length - F.outLen - F.outLen - 2)).any fun x => x != 0#8) || one != 1#8) = true
    · rw [if_pos hc]; exact Or.inr rfl
    · rw [if_neg hc, hashParts_ok C _ (by simp; omega)]
      simp only [Option.bind_some, Option.pure_def]
      cases Ct.ctEqual (H [List.replicate 8 0#8, mHash, salt].flatten) h
      · exact Or.inr rfl
      · exact Or.inl rfl

theorem verify_iff (C : Correct F H limit) (em mHash : Bytes) (hh : mHash.length = F.outLen) (h32 : em.length < 2 ^ 32)
    (hl : 8 + 2 * F.outLen < limit) (hl2 : F.outLen + 4 < limit) :
    verifyPssSig F em mHash = .ok () ↔
      F.outLen + F.outLen + 2 ≤ em.length ∧
        ∃ salt, salt.length = F.outLen ∧ em = emsaPss H F.outLen (8 * em.length - 1) mHash salt := by
  have hp := C.pos
  rw [verifyPssSig]
  simp only [hh]
  by_cases h1 : em.length < F.outLen + F.outLen + 2
  · rw [if_pos h1]
    constructor
    · intro h; cases h
    · intro ⟨h, _⟩; omega
  rw [if_neg h1]
  obtain ⟨db, h, heq, hdb, hhl, edb, eh⟩ := parts em F.outLen (by omega)
  rw [edb, eh]
  have e2 : (8 * em.length - 1 + 7) / 8 = em.length := by omega
  have e3 : 8 * em.length - (8 * em.length - 1) = 1 := by omega
  -- what the specification's block looks like
  have spec : ∀ salt, salt.length = F.outLen → (em = emsaPss H F.outLen (8 * em.length - 1) mHash salt ↔
      em.getLastD 0#8 = 0xbc#8 ∧ h = H (List.replicate 8 0#8 ++ mHash ++ salt) ∧
      db = clearBits 1 (List.zipWith (· ^^^ ·) (List.replicate (em.length - F.outLen - F.outLen - 2) 0#8 ++ [0x01#8] ++ salt)
        (mgf1 H F.outLen h db.length))) := by
    intro salt hs
    have ho := C.outLen (List.replicate 8 0#8 ++ mHash ++ salt)
    rw [emsaPss]
    simp only [e2, e3, hs, ← hdb]
    generalize H (List.replicate 8 0#8 ++ mHash ++ salt) = h' at *
    have hdl : (List.replicate (em.length - F.outLen - F.outLen - 2) 0#8 ++ [0x01#8] ++ salt).length = db.length := by
      simp; omega
    have hml : (clearBits 1 (List.zipWith (· ^^^ ·) (List.replicate (em.length - F.outLen - F.outLen - 2) 0#8 ++ [0x01#8] ++ salt)
        (mgf1 H F.outLen h' db.length))).length = db.length := by
      rw [clearBits_length, List.length_zipWith, hdl, mgf1_length C, Nat.min_self]
    constructor
    · intro e
      have hlast : em.getLastD 0#8 = 0xbc#8 := by
        rw [e, List.getLastD_eq_getLast?, List.getLast?_concat]; rfl
      have e' := heq _ hlast
      rw [e'] at e
      have l1 := List.append_inj' e rfl
      have l2 := List.append_inj' l1.1 (by rw [hhl, ho])
      have hdb' : (db ++ h ++ [188#8]).length = em.length := by rw [← e']
      rw [hdb'] at l2
      refine ⟨hlast, l2.2, ?_⟩
      rw [l2.2]; exact l2.1
    · intro ⟨hlast, hh', hd⟩
      rw [← hh', ← hd]
      exact heq _ hlast
  by_cases hb : em.getLastD 0#8 = 0xbc#8
  rotate_left
  · rw [if_pos hb]
    constructor
    · intro h; cases h
    · intro ⟨_, salt, hs, e⟩
      exact absurd ((spec salt hs).1 e).1 hb
  rw [if_neg (by simpa using hb)]
  rcases hdc : db with _ | ⟨d0, ds⟩
  · rw [hdc] at hdb; simp at hdb; omega
  rw [← hdc]
  have hhd : db.headD 0#8 = d0 := by rw [hdc]; rfl
  rw [hhd]
  by_cases ht : d0 &&& 0x80#8 = 0x00#8
  rotate_left
  · rw [if_pos ht]
    constructor
    · intro h; cases h
    · intro ⟨_, salt, hs, e⟩
      have := ((spec salt hs).1 e).2.2
      rw [hdc] at this
      refine absurd ((byte_top d0).2 ?_) ht
      have ne : ∀ l : Bytes, d0 :: ds = clearBits 1 l → d0 &&& (0xff#8 >>> 1) = d0 := by
        intro l hl
        cases l with
        | nil => cases hl
        | cons x xs =>
          injection hl with hx _
          rw [hx, BitVec.and_assoc, BitVec.and_self]
      exact ne _ this
  rw [if_neg (by simpa using ht)]
  have hclr : clearBits 1 db = db := by rw [hdc, clearBits, (byte_top d0).1 ht]
  rw [pssCheck, hh, mgf1Xor_ok C h db (by omega) (by omega)]
  simp only [Option.bind_eq_bind, Option.bind_some]
  have hml := mgf1_length C h db.length
  generalize hm : mgf1 H F.outLen h db.length = M at *
  have hz : (List.zipWith (· ^^^ ·) db M).length = db.length := by rw [List.length_zipWith, hml, Nat.min_self]
  rw [clear_eq _ (by intro e; rw [e] at hz; simp at hz; omega)]
  simp only [Option.bind_some]
  have hz2 := clearBits_length 1 (List.zipWith (· ^^^ ·) db M)
  rw [hz] at hz2
  have back : ∀ x : Bytes, x.length = db.length → clearBits 1 x = x →
      (clearBits 1 (List.zipWith (· ^^^ ·) db M) = x ↔ db = clearBits 1 (List.zipWith (· ^^^ ·) x M)) := by
    intro x hx hc
    constructor
    · intro e
      have := clear_xor_clear db M (by rw [hml])
      rw [e, hclr] at this
      exact this.symm
    · intro e
      have := clear_xor_clear x M (by rw [hx, hml])
      rw [← e, hc] at this
      exact this
  generalize hD : clearBits 1 (List.zipWith (· ^^^ ·) db M) = d at *
  have hsplit := List.take_append_drop (em.length - F.outLen - F.outLen - 2) d
  have hzl : (d.take (em.length - F.outLen - F.outLen - 2)).length = em.length - F.outLen - F.outLen - 2 := by
    rw [List.length_take]; omega
  generalize d.take (em.length - F.outLen - F.outLen - 2) = z at *
  rcases hd : d.drop (em.length - F.outLen - F.outLen - 2) with _ | ⟨one, salt⟩
  · have := congrArg List.length hd
    simp at this
    omega
  have hsl : salt.length = F.outLen := by
    have := congrArg List.length hd
    simp at this
    omega
  rw [hd] at hsplit
  have clrDB : ∀ s : Bytes, s.length = F.outLen →
      clearBits 1 (List.replicate (em.length - F.outLen - F.outLen - 2) 0#8 ++ [0x01#8] ++ s) =
        List.replicate (em.length - F.outLen - F.outLen - 2) 0#8 ++ [0x01#8] ++ s := by
    intro s _
    cases em.length - F.outLen - F.outLen - 2 with
    | zero => rfl
    | succ k => rfl
  have dbLen : ∀ s : Bytes, s.length = F.outLen →
      (List.replicate (em.length - F.outLen - F.outLen - 2) 0#8 ++ [0x01#8] ++ s).length = db.length := by
    intro s hs
    simp; omega
  simp only []
  have hzero : (z.any (· != 0x00#8) || one != 0x01#8) = false ↔
      z = List.replicate (em.length - F.outLen - F.outLen - 2) 0#8 ∧ one = 0x01#8 := by
    rw [Bool.or_eq_false_iff, List.any_eq_false, List.eq_replicate_iff]
    simp [hzl]
  by_cases hc : (z.any (· != 0x00#8) || one != 0x01#8) = false
  rotate_left
  · rw [if_pos (eq_true_of_ne_false hc)]
    constructor
    · intro h; cases h
    · intro ⟨_, s, hs, e⟩
      have := ((spec s hs).1 e).2.2
      have := (back _ (dbLen s hs) (clrDB s hs)).2 this
      rw [this] at hsplit
      rw [hzero] at hc
      rw [List.append_assoc] at hsplit
      have l1 := List.append_inj hsplit (by rw [hzl, List.length_replicate])
      have l2 := l1.2
      injection l2 with l3 _
      exact absurd ⟨l1.1, l3⟩ hc
  rw [if_neg (by rw [hc]; simp), hashParts_ok C _ (by simp; omega)]
  obtain ⟨z1, z2⟩ := hzero.1 hc
  simp only [Option.bind_some, Option.pure_def, Ct.ctEqual_eq, List.flatten_cons, List.flatten_nil, List.append_nil]
  have hdd : d = List.replicate (em.length - F.outLen - F.outLen - 2) 0#8 ++ [0x01#8] ++ salt := by
    rw [← hsplit, z1, z2, List.append_assoc]; rfl
  by_cases hhh : H (List.replicate 8 0#8 ++ (mHash ++ salt)) = h
  · rw [decide_eq_true hhh]
    refine ⟨fun _ => ⟨by omega, salt, hsl, (spec salt hsl).2 ⟨hb, ?_, ?_⟩⟩, fun _ => rfl⟩
    · rw [List.append_assoc, hhh]
    · exact (back _ (dbLen salt hsl) (clrDB salt hsl)).1 hdd
  · rw [decide_eq_false hhh]
    constructor
    · intro h; cases h
    · intro ⟨_, s, hs, e⟩
      obtain ⟨_, a2, a3⟩ := (spec s hs).1 e
      have := (back _ (dbLen s hs) (clrDB s hs)).2 a3
      rw [hdd] at this
      have hse := (List.append_inj this rfl).2
      rw [hse, ← List.append_assoc] at hhh
      exact absurd a2.symm hhh

end Verif.Pkcs1
