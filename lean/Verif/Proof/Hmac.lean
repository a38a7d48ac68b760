import Verif.Model.Hmac
import Verif.Spec.Hmac
import Verif.Proof.Sha2Stream
import Verif.Proof.Ct

/-!
Lemmas for C18 and C19.
-/
namespace Verif.Hmac
open Verif

/-- What HMAC needs from a hash implementation: it computes `H` of everything it was given,
below `limit` bytes. -/
structure Correct (F : HashFn) (H : Bytes → Bytes) (limit : Nat) where
  Rel : F.Ctx → Bytes → Prop
  new : Rel F.new []
  update : ∀ c m b, Rel c m → ∃ c', F.update c b = some c' ∧ Rel c' (m ++ b)
  finish : ∀ c m, Rel c m → F.finish c = if m.length < limit then some (H m) else none
  outLen : ∀ m, (H m).length = F.outLen
  le : F.outLen ≤ F.blockLen
  pos : 0 < F.outLen

theorem toBytes_length {w : Nat} (s : St w) : (Spec.Sha2.output s).length = 8 * (w / 8) := by
  simp [Spec.Sha2.output, toBE_length]; omega

def correct256 : Correct sha256 Spec.Sha2.sha256 (2 ^ 61) where
  Rel := Sha2.Absorbed Sha2.alg256 Sha2.new256.h
  new := Sha2.absorbed_new _ _ (by decide)
  update c m b h := Sha2.update_ok (by decide) h b
  finish c m h := Sha2.finish256_ok h
  outLen m := by rw [Spec.Sha2.sha256, toBytes_length]; rfl
  le := by decide
  pos := by decide

def correct512 : Correct sha512 Spec.Sha2.sha512 (2 ^ 64) where
  Rel := Sha2.Absorbed Sha2.alg512 Sha2.new512.h
  new := Sha2.absorbed_new _ _ (by decide)
  update c m b h := Sha2.update_ok (by decide) h b
  finish c m h := by
    have := Sha2.finish512_ok h
    rw [Sha2.iv512_ok] at this
    exact this
  outLen m := by rw [Spec.Sha2.sha512, toBytes_length]; rfl
  le := by decide
  pos := by decide

def correct384 : Correct sha384 Spec.Sha2.sha384 (2 ^ 64) where
  Rel := Sha2.Absorbed Sha2.alg512 Sha2.new384.h
  new := Sha2.absorbed_new _ _ (by decide)
  update c m b h := Sha2.update_ok (by decide) h b
  finish c m h := by
    have := Sha2.finish512_ok h
    rw [Sha2.iv384_ok] at this
    show (Sha2.finish512 Sha2.alg512 c).map (·.take 48) = _
    rw [this]
    split <;> rfl
  outLen m := by rw [Spec.Sha2.sha384, List.length_take, toBytes_length]; rfl
  le := by decide
  pos := by decide

variable {F : HashFn} {H : Bytes → Bytes} {limit : Nat}

theorem hash_ok (C : Correct F H limit) (m : Bytes) :
    F.hash m = if m.length < limit then some (H m) else none := by
  obtain ⟨c, e, h⟩ := C.update F.new [] m C.new
  rw [HashFn.hash, e]
  simpa using C.finish c _ h

theorem keyBlock_ok {B : Nat} {src : Bytes} (h : src.length ≤ B) :
    keyBlock B src = some (src ++ List.replicate (B - src.length) 0#8) := by
  rw [keyBlock, Blockwise.copyInto, if_pos (by simpa using h)]
  simp

theorem blockKey_length (hl : ∀ m, (H m).length = F.outLen) (hle : F.outLen ≤ F.blockLen) (key : Bytes) :
    (Spec.Hmac.blockKey H F.blockLen key).length = F.blockLen := by
  rw [Spec.Hmac.blockKey]
  by_cases h : key.length ≤ F.blockLen
  · simp only [if_pos h, List.length_append, List.length_replicate]; omega
  · simp only [if_neg h, List.length_append, List.length_replicate, hl]; omega

/-- The HMAC context has absorbed `m` under `key`. -/
structure Keyed (C : Correct F H limit) (s : Hmac F) (key m : Bytes) : Prop where
  inner : C.Rel s.inner ((Spec.Hmac.blockKey H F.blockLen key).map (· ^^^ 0x36#8) ++ m)
  outer : C.Rel s.outer ((Spec.Hmac.blockKey H F.blockLen key).map (· ^^^ 0x5c#8))

theorem xor36_5c (b : Byte) : b ^^^ 0x36#8 ^^^ (0x5c#8 ^^^ 0x36#8) = b ^^^ 0x5c#8 := by
  revert b; decide

theorem new_ok (C : Correct F H limit) (key : Bytes) (hk : key.length < limit) :
    ∃ s, new F key = some s ∧ Keyed C s key [] := by
  have hblock : loadKey F key = some (Spec.Hmac.blockKey H F.blockLen key) := by
    rw [loadKey]
    by_cases h : F.blockLen < key.length
    · rw [if_pos h, hash_ok C, if_pos hk]
      show keyBlock F.blockLen (H key) = _
      rw [keyBlock_ok (by rw [C.outLen]; exact C.le), Spec.Hmac.blockKey, if_neg (by omega)]
    · rw [if_neg h, keyBlock_ok (by omega), Spec.Hmac.blockKey, if_pos (by omega)]
  obtain ⟨i, ei, hi⟩ := C.update _ _
    ((Spec.Hmac.blockKey H F.blockLen key).map (· ^^^ 0x36#8)) C.new
  obtain ⟨o, eo, ho⟩ := C.update _ _
    ((Spec.Hmac.blockKey H F.blockLen key).map (· ^^^ 0x5c#8)) C.new
  have hm : ((Spec.Hmac.blockKey H F.blockLen key).map (· ^^^ 0x36#8)).map
      (· ^^^ (0x5c#8 ^^^ 0x36#8)) = (Spec.Hmac.blockKey H F.blockLen key).map (· ^^^ 0x5c#8) := by
    rw [List.map_map]
    apply List.map_congr_left
    intro b _
    exact xor36_5c b
  refine ⟨⟨i, o⟩, ?_, ⟨by simpa using hi, by simpa using ho⟩⟩
  rw [new, hblock]
  simp only [Option.bind_eq_bind, Option.bind_some, ei, hm, eo]
  rfl

theorem update_keyed (C : Correct F H limit) {s : Hmac F} {key m : Bytes} (h : Keyed C s key m)
    (b : Bytes) : ∃ s', update s b = some s' ∧ Keyed C s' key (m ++ b) := by
  obtain ⟨i, ei, hi⟩ := C.update _ _ b h.inner
  refine ⟨⟨i, s.outer⟩, ?_, ⟨by simpa using hi, h.outer⟩⟩
  rw [update, ei]; rfl

theorem updates_keyed (C : Correct F H limit) (bs : List Bytes) {s : Hmac F} {key m : Bytes}
    (h : Keyed C s key m) : ∃ s', bs.foldlM update s = some s' ∧ Keyed C s' key (m ++ bs.flatten) := by
  induction bs generalizing s m with
  | nil => exact ⟨s, rfl, by simpa using h⟩
  | cons b bs ih =>
    obtain ⟨s1, e1, h1⟩ := update_keyed C h b
    obtain ⟨s2, e2, h2⟩ := ih h1
    refine ⟨s2, ?_, by simpa using h2⟩
    rw [List.foldlM_cons, e1]; exact e2

theorem finish_ok (C : Correct F H limit) {s : Hmac F} {key m : Bytes} (h : Keyed C s key m)
    (hm : F.blockLen + m.length < limit) (ho : F.blockLen + F.outLen < limit) :
    finish s = some (Spec.Hmac.hmac H F.blockLen key m) := by
  have hbl := blockKey_length (F := F) C.outLen C.le key
  rw [finish, C.finish _ _ h.inner, if_pos (by simp [hbl]; omega)]
  obtain ⟨o, eo, ho'⟩ := C.update _ _ (H ((Spec.Hmac.blockKey H F.blockLen key).map (· ^^^ 0x36#8) ++ m))
    h.outer
  simp only [Option.bind_eq_bind, Option.bind_some, eo]
  rw [C.finish _ _ ho', if_pos (by simp [hbl, C.outLen]; omega)]
  rfl

theorem macParts_ok (C : Correct F H limit) (key : Bytes) (parts : List Bytes)
    (hk : key.length < limit) (hm : F.blockLen + parts.flatten.length < limit)
    (ho : F.blockLen + F.outLen < limit) :
    macParts F key parts = some (Spec.Hmac.hmac H F.blockLen key parts.flatten) := by
  obtain ⟨s, e, h⟩ := new_ok C key hk
  obtain ⟨s', e', h'⟩ := updates_keyed C parts h
  rw [macParts, e]
  simp only [Option.bind_eq_bind, Option.bind_some, e']
  rw [List.nil_append] at h'
  exact finish_ok C h' hm ho

/-! ### DRBG -/

/-- The specification's MAC over this hash. -/
abbrev mac (F : HashFn) (H : Bytes → Bytes) : Bytes → Bytes → Bytes := Spec.Hmac.hmac H F.blockLen

theorem mac_length (C : Correct F H limit) (k m : Bytes) : (mac F H k m).length = F.outLen :=
  C.outLen _

theorem drbgUpdate_ok (C : Correct F H limit) (s : Drbg) (data : List Bytes)
    (hk : s.k.length = F.outLen) (hv : s.v.length = F.outLen)
    (hl : F.blockLen + F.outLen + 1 + data.flatten.length < limit) :
    ∃ s', drbgUpdate F s data = some s' ∧ s'.reseedCounter = s.reseedCounter + 1 ∧
      s'.k.length = F.outLen ∧ s'.v.length = F.outLen ∧
      (s'.k, s'.v) = Spec.Hmac.drbgUpdate (mac F H) s.k s.v
        (if data = [] then none else some data.flatten) := by
  have ho : F.blockLen + F.outLen < limit := by omega
  have e1 := macParts_ok C s.k ([s.v, [0#8]] ++ data) (by omega) (by simp [hv]; simp at hl; omega) ho
  have e2 := macParts_ok C (mac F H s.k ([s.v, [0#8]] ++ data).flatten) [s.v]
    (by rw [mac_length C]; omega) (by simp [hv]; omega) ho
  simp only [drbgUpdate, Option.bind_eq_bind, e1, Option.bind_some, e2]
  cases data with
  | nil =>
    refine ⟨_, rfl, rfl, mac_length C _ _, mac_length C _ _, ?_⟩
    simp [Spec.Hmac.drbgUpdate]
  | cons d ds =>
    have e3 := macParts_ok C (mac F H s.k ([s.v, [0#8]] ++ d :: ds).flatten)
      ([mac F H (mac F H s.k ([s.v, [0#8]] ++ d :: ds).flatten) [s.v].flatten, [1#8]] ++ d :: ds)
      (by rw [mac_length C]; omega)
      (by simp [C.outLen, Spec.Hmac.hmac]; simp at hl; omega) ho
    have e4 := macParts_ok C (mac F H (mac F H s.k ([s.v, [0#8]] ++ d :: ds).flatten)
        ([mac F H (mac F H s.k ([s.v, [0#8]] ++ d :: ds).flatten) [s.v].flatten, [1#8]] ++ d :: ds).flatten)
      [mac F H (mac F H s.k ([s.v, [0#8]] ++ d :: ds).flatten) [s.v].flatten]
      (by rw [mac_length C]; omega)
      (by simp only [List.flatten_cons, List.flatten_nil, List.append_nil]; rw [mac_length C]; omega) ho
    simp only [List.isEmpty_cons, Bool.false_eq_true, if_false, e3, Option.bind_some, e4]
    refine ⟨_, rfl, rfl, mac_length C _ _, mac_length C _ _, ?_⟩
    simp [Spec.Hmac.drbgUpdate]

theorem generateBlock_ok (C : Correct F H limit) (s : Drbg)
    (hk : s.k.length = F.outLen) (hv : s.v.length = F.outLen)
    (hl : F.blockLen + F.outLen + 1 < limit) :
    generateBlock F s = some { s with v := mac F H s.k s.v } := by
  have e := macParts_ok C s.k [s.v] (by omega) (by simp [hv]; omega) (by omega)
  rw [generateBlock, e]
  simp

/-- The loop over whole chunks followed by an optional short one. -/
theorem fillChunks_ok (C : Correct F H limit) (lens : List Nat) (s : Drbg)
    (hk : s.k.length = F.outLen) (hv : s.v.length = F.outLen)
    (hl : F.blockLen + F.outLen + 1 < limit) (hlens : ∀ n ∈ lens, n ≤ F.outLen) :
    ∃ out, fillChunks F lens s = some (⟨s.k,
        (Spec.Hmac.vs (mac F H) s.k s.v lens.length).getLastD s.v, s.reseedCounter⟩, out) ∧
      out = (List.zipWith List.take lens (Spec.Hmac.vs (mac F H) s.k s.v lens.length)).flatten := by
  induction lens generalizing s with
  | nil => exact ⟨[], rfl, rfl⟩
  | cons n ns ih =>
    have hn := hlens n (by simp)
    obtain ⟨out, e, ho⟩ := ih { s with v := mac F H s.k s.v } hk (mac_length C _ _)
      (fun x hx => hlens x (by simp [hx]))
    rw [fillChunks, generateBlock_ok C s hk hv hl]
    simp only [Option.bind_eq_bind, Option.bind_some]
    rw [if_neg (by rw [mac_length C]; omega), e]
    refine ⟨(mac F H s.k s.v).take n ++ out, ?_, ?_⟩
    · simp only [List.length_cons, Spec.Hmac.vs, List.getLastD_cons]; rfl
    · simp [Spec.Hmac.vs, ho]

theorem vs_length (m : Bytes → Bytes → Bytes) (K V : Bytes) (n : Nat) :
    (Spec.Hmac.vs m K V n).length = n := by
  induction n generalizing V with
  | zero => rfl
  | succ n ih => simp [Spec.Hmac.vs, ih]

theorem vs_mem_length (C : Correct F H limit) (K V : Bytes) (n : Nat) :
    ∀ x ∈ Spec.Hmac.vs (mac F H) K V n, x.length = F.outLen := by
  induction n generalizing V with
  | zero => intro x hx; cases hx
  | succ n ih =>
    intro x hx
    rcases List.mem_cons.1 hx with h | h
    · rw [h]; exact mac_length C _ _
    · exact ih _ x h

theorem chunkLens_eq (h n : Nat) (hh : 0 < h) :
    chunkLens h n = List.replicate (n / h) h ++ (if n % h = 0 then [] else [n % h]) := by
  rw [chunkLens, chunks_eq hh, List.map_append]
  congr 1
  · apply List.ext_getElem
    · simp [length_chunksExact hh]
    · intro i h1 h2
      simp only [List.getElem_map, List.getElem_replicate]
      exact chunksExact_length (List.getElem_mem _)
  · have hl := chunksRem_length (n := h) (List.replicate n ())
    rw [List.length_replicate] at hl
    by_cases hz : n % h = 0
    · rw [hz] at hl
      rw [List.eq_nil_of_length_eq_zero hl]; simp [hz]
    · rw [if_neg (by intro e; rw [e] at hl; simp at hl; omega), if_neg hz]
      simp [hl]

/-- Taking `n` bytes of the concatenation is taking chunk by chunk. -/
theorem zip_take (h : Nat) (hh : 0 < h) (blocks : List Bytes) (hb : ∀ x ∈ blocks, x.length = h) (n : Nat)
    (hlen : blocks.length = (n + h - 1) / h) :
    (List.zipWith List.take (chunkLens h n) blocks).flatten = blocks.flatten.take n := by
  rw [chunkLens_eq h n hh]
  induction blocks generalizing n with
  | nil =>
    simp only [List.length_nil] at hlen
    have hn : n = 0 := by
      rcases Nat.eq_zero_or_pos n with h0 | h0
      · exact h0
      · have : 0 < (n + h - 1) / h := Nat.div_pos (by omega) hh
        omega
    subst hn; simp
  | cons b bs ih =>
    have hbl := hb b (by simp)
    by_cases hn : h ≤ n
    · have e1 : n / h = (n - h) / h + 1 := by rw [Nat.div_eq_sub_div hh hn]
      have e2 : n % h = (n - h) % h := by rw [Nat.mod_eq_sub_mod hn]
      have e3 : bs.length = (n - h + h - 1) / h := by
        simp only [List.length_cons] at hlen
        have : (n + h - 1) / h = (n - h + h - 1) / h + 1 := by
          rw [show n + h - 1 = (n - h + h - 1) + h by omega, Nat.add_div_right _ hh]
        omega
      have := ih (fun x hx => hb x (by simp [hx])) (n - h) e3
      rw [e1, e2, List.replicate_succ, List.cons_append, List.zipWith_cons_cons, List.flatten_cons,
        this, List.flatten_cons, List.take_append, hbl, List.take_of_length_le (by omega),
        List.take_of_length_le (l := b) (by omega)]
    · have hlt : n < h := by omega
      rw [Nat.div_eq_of_lt hlt, Nat.mod_eq_of_lt hlt]
      have hn0 : n ≠ 0 := by
        intro h0; subst h0
        rw [Nat.zero_add, Nat.div_eq_of_lt (by omega)] at hlen
        simp at hlen
      have hbs : bs = [] := by
        have : (n + h - 1) / h = 1 := by
          rw [show n + h - 1 = (n - 1) + h by omega, Nat.add_div_right _ hh,
            Nat.div_eq_of_lt (by omega)]
        rw [this] at hlen
        simpa using hlen
      subst hbs
      simp [hn0]

theorem fill_ok (C : Correct F H limit) (s : Drbg) (n : Nat)
    (hk : s.k.length = F.outLen) (hv : s.v.length = F.outLen)
    (hl : F.blockLen + F.outLen + 1 < limit) (hr : s.reseedCounter < 2 ^ 48) :
    ∃ s', fill F s n = some (s', (Spec.Hmac.drbgGenerate (mac F H) F.outLen s.k s.v n).1) ∧
      s'.reseedCounter = s.reseedCounter + 1 ∧ s'.k.length = F.outLen ∧ s'.v.length = F.outLen ∧
      (s'.k, s'.v) = (Spec.Hmac.drbgGenerate (mac F H) F.outLen s.k s.v n).2 := by
  have hp := C.pos
  have hlensle : ∀ x ∈ chunkLens F.outLen n, x ≤ F.outLen := by
    rw [chunkLens_eq _ _ hp]
    intro x hx
    have := Nat.mod_lt n hp
    rcases List.mem_append.1 hx with h | h
    · rw [(List.mem_replicate.1 h).2]; exact Nat.le_refl _
    · split at h
      · cases h
      · rw [List.mem_singleton.1 h]; omega
  have hcount : (chunkLens F.outLen n).length = (n + F.outLen - 1) / F.outLen := by
    rw [chunkLens_eq _ _ hp]
    have hdm := Nat.div_add_mod n F.outLen
    have hlt := Nat.mod_lt n hp
    by_cases hz : n % F.outLen = 0
    · rw [if_pos hz]
      rw [show n + F.outLen - 1 = F.outLen * (n / F.outLen) + (F.outLen - 1) by omega,
        Nat.mul_add_div hp, Nat.div_eq_of_lt (show F.outLen - 1 < F.outLen by omega)]
      simp
    · rw [if_neg hz]
      rw [show n + F.outLen - 1 = F.outLen * (n / F.outLen + 1) + (n % F.outLen - 1) by
          rw [Nat.mul_add]; omega,
        Nat.mul_add_div hp, Nat.div_eq_of_lt (show n % F.outLen - 1 < F.outLen by omega)]
      simp
  obtain ⟨out, e, ho⟩ := fillChunks_ok C (chunkLens F.outLen n) s hk hv hl hlensle
  have hlast : ((Spec.Hmac.vs (mac F H) s.k s.v (chunkLens F.outLen n).length).getLastD s.v).length
      = F.outLen := by
    generalize hvs : Spec.Hmac.vs (mac F H) s.k s.v (chunkLens F.outLen n).length = l
    have hm := vs_mem_length C s.k s.v (chunkLens F.outLen n).length
    rw [hvs] at hm
    cases l with
    | nil => simpa using hv
    | cons a as => rw [List.getLastD_cons, List.getLastD_eq_getLast?]
                   cases hg : as.getLast? with
                   | none => simpa using hm a (by simp)
                   | some z => exact hm z (by simp [List.mem_of_getLast? hg])
  obtain ⟨s', e', hc', hk', hv', hs'⟩ := drbgUpdate_ok C ⟨s.k,
        (Spec.Hmac.vs (mac F H) s.k s.v (chunkLens F.outLen n).length).getLastD s.v,
        s.reseedCounter⟩ [] hk hlast (by simpa using hl)
  refine ⟨s', ?_, hc', hk', hv', ?_⟩
  · rw [fill]
    simp only [hv]
    rw [if_pos (by omega), if_neg (by omega), e]
    simp only [Option.bind_eq_bind, Option.bind_some, e']
    rw [ho, zip_take F.outLen hp _ (vs_mem_length C _ _ _) n (by rw [vs_length]; exact hcount),
      hcount]
    rfl
  · rw [hs', hcount]; rfl

end Verif.Hmac
