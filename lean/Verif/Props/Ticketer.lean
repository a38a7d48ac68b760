import Verif.Model.Ticketer
import Verif.Props.ChaCha

/-!
C50: session tickets (`rustls-graviola/src/ticketer.rs`), for every sequence of steps of every number of concurrent calls.
-/
namespace Verif.Props
open Verif Verif.Ticketer

/-- What `new` makes. -/
theorem C50_new (rng : RandomSource) (hr : rng.Fills) (i : Nat) (t : Ticketer) (h : Ticketer.new rng i = .ok t) :
    rng i 32 = .ok t.key ∧ rng (i + 1) 16 = .ok t.keyName ∧ t.key.length = 32 ∧ t.keyName.length = 16 ∧
      t.lifetime = 21600 := by
  unfold Ticketer.new at h
  cases h1 : rng i 32 with
  | error e => rw [h1] at h; cases h
  | ok k =>
    cases h2 : rng (i + 1) 16 with
    | error e => rw [h1, h2] at h; cases h
    | ok n =>
      rw [h1, h2] at h
      cases h
      exact ⟨rfl, rfl, hr _ _ _ h1, hr _ _ _ h2, rfl⟩

/-- A ticket is key name, nonce, XChaCha20-Poly1305 ciphertext and tag, with the key name as associated data. -/
theorem C50_ticket (b : Backend) (t : Ticketer) (nonce m : Bytes) (hk : t.key.length = 32) (hn : nonce.length = 24) :
    let r := Spec.ChaChaPoly.sealed (Spec.ChaChaPoly.subkey t.key nonce) (Spec.ChaChaPoly.subnonce nonce) t.keyName m
    Ticketer.sealed b.stream t nonce m = some (t.keyName ++ nonce ++ r.1 ++ r.2) ∧
      r.1.length = m.length ∧ r.2.length = 16 := by
  obtain ⟨ct, tag, h1, h2, h3, _⟩ := C25_xchacha b b t.key nonce t.keyName m hk hn
  have h := C27_xchacha_seal b t.key nonce t.keyName m hk hn
  have e : Spec.ChaChaPoly.sealed (Spec.ChaChaPoly.subkey t.key nonce) (Spec.ChaChaPoly.subnonce nonce) t.keyName m =
      (ct, tag) := by
    rw [h1] at h
    exact (Option.some.inj h).symm
  dsimp only
  rw [e]
  exact ⟨by rw [Ticketer.sealed, h1]; rfl, h2, h3⟩

theorem sealed_length (b : Backend) (t : Ticketer) (nonce m c : Bytes) (hk : t.key.length = 32)
    (hl : t.keyName.length = 16) (hn : nonce.length = 24) (h : Ticketer.sealed b.stream t nonce m = some c) :
    c.length = m.length + 56 := by
  obtain ⟨h1, h2, h3⟩ := C50_ticket b t nonce m hk hn
  rw [h1] at h
  cases h
  simp only [List.length_append]
  omega

/-- Take a ticket apart. -/
theorem decrypt_parts (b : Backend) (t : Ticketer) (max : Nat) (nonce ct tag : Bytes) (hk : t.key.length = 32)
    (hn : nonce.length = 24) (hct : 0 < ct.length) (htag : tag.length = 16) (hl : t.keyName.length = 16)
    (hmax : ct.length + 56 ≤ max) :
    Ticketer.decrypt b.stream t max (t.keyName ++ nonce ++ ct ++ tag) =
      some (if tag = Spec.ChaChaPoly.tag (Spec.ChaChaPoly.subkey t.key nonce) (Spec.ChaChaPoly.subnonce nonce) t.keyName ct
        then some (Spec.ChaChaPoly.opened (Spec.ChaChaPoly.subkey t.key nonce) (Spec.ChaChaPoly.subnonce nonce) ct)
        else none) := by
  have len : (t.keyName ++ nonce ++ ct ++ tag).length = ct.length + 56 := by
    simp only [List.length_append]; omega
  have e1 : (t.keyName ++ nonce ++ ct ++ tag).take t.keyName.length = t.keyName := by
    simp only [List.append_assoc, List.take_left]
  have e2 : (t.keyName ++ nonce ++ ct ++ tag).drop t.keyName.length = nonce ++ (ct ++ tag) := by
    simp only [List.append_assoc, List.drop_left]
  have e3 : ct.length + 56 - (t.keyName.length + 24 + 16) = ct.length := by omega
  unfold Ticketer.decrypt
  dsimp only
  rw [len, if_neg (by omega), e3, if_neg (by omega), e1, e2, if_neg (by simp),
    List.take_left' hn, List.drop_left' hn, List.take_left, List.drop_left,
    C26_xchacha b t.key nonce t.keyName ct tag hk hn]
  change some (opened (if tag = Spec.ChaChaPoly.tag (Spec.ChaChaPoly.subkey t.key nonce) (Spec.ChaChaPoly.subnonce nonce)
    t.keyName ct then _ else _)) = _
  by_cases h : tag = Spec.ChaChaPoly.tag (Spec.ChaChaPoly.subkey t.key nonce) (Spec.ChaChaPoly.subnonce nonce) t.keyName ct
  · rw [if_pos h, if_pos h]; rfl
  · rw [if_neg h, if_neg h]; rfl

/-- **C50** `decrypt` never panics, and yields a message exactly for the tickets `encrypt` makes of non-empty messages, up to
the longest issued. -/
theorem C50_decrypt (b : Backend) (t : Ticketer) (max : Nat) (c : Bytes) (hk : t.key.length = 32)
    (hl : t.keyName.length = 16) :
    ∃ r, Ticketer.decrypt b.stream t max c = some r ∧
      ∀ m, r = some m ↔ c.length ≤ max ∧ m ≠ [] ∧
        ∃ nonce : Bytes, nonce.length = 24 ∧ Ticketer.sealed b.stream t nonce m = some c := by
  -- the two directions on tickets of the right shape
  have back : ∀ m (nonce : Bytes), m ≠ [] → nonce.length = 24 → Ticketer.sealed b.stream t nonce m = some c →
      c.length ≤ max → Ticketer.decrypt b.stream t max c = some (some m) := by
    intro m nonce hm hn hs hle
    have len := sealed_length b t nonce m c hk hl hn hs
    obtain ⟨h1, h2, h3⟩ := C50_ticket b t nonce m hk hn
    obtain ⟨ct, tag, g1, g2, g3, g4⟩ := C25_xchacha b b t.key nonce t.keyName m hk hn
    rw [h1] at hs
    cases hs
    have hpos : 0 < m.length := List.length_pos_iff.2 hm
    rw [decrypt_parts b t max nonce _ _ hk hn (by omega) h3 hl (by omega)]
    have g := C26_xchacha b t.key nonce t.keyName ct tag hk hn
    have e := C27_xchacha_seal b t.key nonce t.keyName m hk hn
    rw [g1] at e
    have e' := Option.some.inj e
    rw [g4] at g
    have g' := Option.some.inj g
    split at g'
    · rename_i htag
      have := (Prod.ext_iff.1 g').2
      have ee : Spec.ChaChaPoly.sealed (Spec.ChaChaPoly.subkey t.key nonce) (Spec.ChaChaPoly.subnonce nonce) t.keyName m =
        (ct, tag) := e'.symm
      rw [ee]
      refine (congrArg some (if_pos htag)).trans ?_
      exact congrArg (fun x => some (some x)) this.symm
    · exact absurd (Prod.ext_iff.1 g').1 (by simp)
  by_cases hlen : c.length > max
  · refine ⟨none, by rw [Ticketer.decrypt, if_pos hlen], fun m => ⟨fun h => (by cases h), fun h => ?_⟩⟩
    omega
  by_cases hz : c.length - (t.keyName.length + 24 + 16) = 0
  · refine ⟨none, by rw [Ticketer.decrypt, if_neg hlen]; exact if_pos hz, fun m => ⟨fun h => (by cases h), fun h => ?_⟩⟩
    obtain ⟨_, hm, nonce, hn, hs⟩ := h
    have := sealed_length b t nonce m c hk hl hn hs
    have := List.length_pos_iff.2 hm
    omega
  by_cases hname : c.take t.keyName.length ≠ t.keyName
  · refine ⟨none, ?_, fun m => ⟨fun h => (by cases h), fun h => ?_⟩⟩
    · rw [Ticketer.decrypt, if_neg hlen]
      dsimp only
      rw [if_neg hz, if_pos hname]
    · obtain ⟨_, hm, nonce, hn, hs⟩ := h
      rw [(C50_ticket b t nonce m hk hn).1] at hs
      cases hs
      exact absurd (by simp only [List.append_assoc, List.take_left]) hname
  have hname := Decidable.not_not.1 hname
  obtain ⟨ct, tag, nonce, hcc, hn, hct, htag⟩ : ∃ ct tag nonce : Bytes, c = t.keyName ++ nonce ++ ct ++ tag ∧
      nonce.length = 24 ∧ 0 < ct.length ∧ tag.length = 16 := by
    refine ⟨((c.drop 16).drop 24).take (c.length - 56), ((c.drop 16).drop 24).drop (c.length - 56), (c.drop 16).take 24,
      ?_, ?_, ?_, ?_⟩
    · rw [List.append_assoc, List.append_assoc, List.take_append_drop, List.take_append_drop]
      rw [hl] at hname
      rw [← hname, List.take_append_drop]
    · simp only [List.length_take, List.length_drop]; omega
    · simp only [List.length_take, List.length_drop]; omega
    · simp only [List.length_drop]; omega
  have hlen' : ct.length + 56 ≤ max := by
    have : c.length = ct.length + 56 := by
      rw [hcc]; simp only [List.length_append]; omega
    omega
  have hd := decrypt_parts b t max nonce ct tag hk hn hct htag hl hlen'
  rw [← hcc] at hd
  refine ⟨_, hd, fun m => ⟨fun h => ?_, fun ⟨h1, h2, n, h3, h4⟩ => ?_⟩⟩
  · split at h
    · rename_i ht
      refine ⟨by omega, ?_, nonce, hn, ?_⟩
      · intro hm
        rw [hm] at h
        have := congrArg List.length (Option.some.inj h)
        rw [Spec.ChaChaPoly.opened, ChaCha20.encrypt_length] at this
        simp at this
        rw [this] at hct
        simp at hct
      · rw [(C50_ticket b t nonce m hk hn).1, hcc]
        have e1 : (Spec.ChaChaPoly.sealed (Spec.ChaChaPoly.subkey t.key nonce) (Spec.ChaChaPoly.subnonce nonce)
            t.keyName m) = (ct, tag) := by
          have hx : Spec.ChaCha20.encrypt (Spec.ChaChaPoly.subkey t.key nonce) 1#32 (Spec.ChaChaPoly.subnonce nonce) m =
              ct := by
            rw [← Option.some.inj h, Spec.ChaChaPoly.opened]
            exact ChaChaPoly.encrypt_involutive _ _ _ _
          rw [Spec.ChaChaPoly.sealed, hx, ht]
        rw [e1]
    · cases h
  · have := back m n h2 h3 h4 h1
    rw [hd] at this
    exact Option.some.inj this

/-- **C50** Anything else is refused: another length, key name, or tag. -/
theorem C50_refused (b : Backend) (t : Ticketer) (max : Nat) (c : Bytes) (hk : t.key.length = 32)
    (hl : t.keyName.length = 16)
    (h : c.length ≤ 56 ∨ c.length > max ∨ c.take 16 ≠ t.keyName ∨
      c.drop (c.length - 16) ≠ Spec.ChaChaPoly.tag (Spec.ChaChaPoly.subkey t.key ((c.drop 16).take 24))
        (Spec.ChaChaPoly.subnonce ((c.drop 16).take 24)) (c.take 16) ((c.take (c.length - 16)).drop 40)) :
    Ticketer.decrypt b.stream t max c = some none := by
  obtain ⟨r, h1, h2⟩ := C50_decrypt b t max c hk hl
  cases r with
  | none => exact h1
  | some m =>
    obtain ⟨g1, g2, nonce, g3, g4⟩ := (h2 m).1 rfl
    have len := sealed_length b t nonce m c hk hl g3 g4
    have := List.length_pos_iff.2 g2
    obtain ⟨e1, e2, e3⟩ := C50_ticket b t nonce m hk g3
    rw [e1] at g4
    have g5 := (Option.some.inj g4).symm
    rcases h with h | h | h | h
    · omega
    · omega
    · refine absurd ?_ h
      rw [g5, List.append_assoc, List.append_assoc, List.take_left' hl]
    · refine absurd ?_ h
      have x1 : c.take 16 = t.keyName := by rw [g5, List.append_assoc, List.append_assoc, List.take_left' hl]
      have x2 : (c.drop 16).take 24 = nonce := by
        rw [g5, List.append_assoc, List.append_assoc, List.drop_left' hl, List.take_left' g3]
      rw [x1, x2, g5, List.take_left' (by simp only [List.length_append] at g5 ⊢; omega),
        List.drop_left' (by simp only [List.length_append] at g5 ⊢; omega),
        List.drop_left' (by simp only [List.length_append] at g5 ⊢; omega)]
      rfl

/-- A ticket for the empty message is issued but never accepted. -/
theorem C50_empty (b : Backend) (t : Ticketer) (nonce : Bytes) (max : Nat) (hk : t.key.length = 32)
    (hl : t.keyName.length = 16) (hn : nonce.length = 24) :
    ∃ c, Ticketer.sealed b.stream t nonce [] = some c ∧ Ticketer.decrypt b.stream t max c = some none := by
  obtain ⟨e1, e2, e3⟩ := C50_ticket b t nonce [] hk hn
  refine ⟨_, e1, C50_refused b t max _ hk hl (.inl ?_)⟩
  have := sealed_length b t nonce [] _ hk hl hn e1
  simp only [List.length_nil] at this
  omega

/-! ### Concurrent calls -/

/-- What holds of each call made so far. -/
def CallOk (b : Backend) (t : Ticketer) (rng : RandomSource) (max : Nat) : Call → Prop
  | .encStart _ => True
  | .encSealed m c => ∃ nonce : Bytes, nonce.length = 24 ∧ Ticketer.sealed b.stream t nonce m = some c
  | .encDone m (some c) => c.length ≤ max ∧ ∃ nonce : Bytes, nonce.length = 24 ∧ Ticketer.sealed b.stream t nonce m = some c
  | .encDone _ none => ∃ i e, rng i 24 = .error e
  | .decStart _ => True
  | .decLoaded _ _ => True
  | .decDone _ none => True
  | .decDone c (some m) => ∃ nonce : Bytes, nonce.length = 24 ∧ Ticketer.sealed b.stream t nonce m = some c
  | .panicked => False

theorem CallOk.mono {b : Backend} {t : Ticketer} {rng : RandomSource} {x y : Nat} (h : x ≤ y) :
    ∀ {c : Call}, CallOk b t rng x c → CallOk b t rng y c
  | .encStart _, _ => trivial
  | .encSealed _ _, hc => hc
  | .encDone _ (some _), hc => ⟨Nat.le_trans hc.1 h, hc.2⟩
  | .encDone _ none, hc => hc
  | .decStart _, _ => trivial
  | .decLoaded _ _, _ => trivial
  | .decDone _ none, _ => trivial
  | .decDone _ (some _), hc => hc
  | .panicked, hc => hc

theorem step_le (S : ChaChaPoly.Stream) (t : Ticketer) (rng : RandomSource) (max draws : Nat) (c : Call) :
    max ≤ (c.step S t rng max draws).2.1 := by
  cases c with
  | encSealed m r => exact Nat.le_max_left _ _
  | encStart m =>
    simp only [Call.step]
    split
    · exact Nat.le_refl _
    · split <;> exact Nat.le_refl _
  | decLoaded c m =>
    simp only [Call.step]
    split <;> exact Nat.le_refl _
  | _ => exact Nat.le_refl _

theorem step_ok (b : Backend) (t : Ticketer) (rng : RandomSource) (hr : rng.Fills) (hk : t.key.length = 32)
    (hl : t.keyName.length = 16) (max draws : Nat) (c : Call) (h : CallOk b t rng max c) :
    CallOk b t rng (c.step b.stream t rng max draws).2.1 (c.step b.stream t rng max draws).1 := by
  cases c with
  | encStart m =>
    simp only [Call.step]
    cases hd : rng draws 24 with
    | error e => exact ⟨_, _, hd⟩
    | ok nonce =>
      have hs := (C50_ticket b t nonce m hk (hr _ _ _ hd)).1
      dsimp only
      rw [hs]
      exact ⟨nonce, hr _ _ _ hd, hs⟩
  | encSealed m r => exact ⟨Nat.le_max_right _ _, h⟩
  | encDone m r => exact h
  | decStart c => trivial
  | decLoaded c m =>
    simp only [Call.step]
    obtain ⟨r, h1, h2⟩ := C50_decrypt b t m c hk hl
    rw [h1]
    cases r with
    | none => trivial
    | some x => exact ((h2 x).1 rfl).2.2
  | decDone c r => exact h
  | panicked => exact h

theorem steps_le (S : ChaChaPoly.Stream) (t : Ticketer) (rng : RandomSource) {s s' : Shared} (h : Steps S t rng s s') :
    s.max ≤ s'.max := by
  induction h with
  | refl => exact Nat.le_refl _
  | tail _ hs ih =>
    cases hs with
    | encrypt _ => exact ih
    | decrypt _ => exact ih
    | run i c hc => exact Nat.le_trans ih (step_le _ _ _ _ _ _)

/-- **C50** In every interleaving no call panics; every result of `decrypt` is a message whose ticket is the one given; an
issued ticket is never longer than the cut-off; `encrypt` fails only when the random source does. -/
theorem C50_invariant (b : Backend) (t : Ticketer) (rng : RandomSource) (hr : rng.Fills) (hk : t.key.length = 32)
    (hl : t.keyName.length = 16) {s : Shared} (h : Steps b.stream t rng .init s) :
    ∀ c ∈ s.calls, CallOk b t rng s.max c := by
  generalize hi : Shared.init = s0 at h
  induction h with
  | refl => subst hi; intro c hc; exact absurd hc (by simp [Shared.init])
  | tail _ hs ih =>
    cases hs with
    | encrypt m =>
      intro c hc
      rcases List.mem_append.1 hc with hc | hc
      · exact ih c hc
      · rw [List.mem_singleton.1 hc]; trivial
    | decrypt m =>
      intro c hc
      rcases List.mem_append.1 hc with hc | hc
      · exact ih c hc
      · rw [List.mem_singleton.1 hc]; trivial
    | run i c hc =>
      intro x hx
      rcases List.mem_or_eq_of_mem_set hx with hx | hx
      · exact (ih x hx).mono (step_le _ _ _ _ _ _)
      · rw [hx]
        exact step_ok b t rng hr hk hl _ _ _ (ih c (List.mem_of_getElem? hc))

/-- The states a call `decrypt(ticket)` goes through. -/
def Opens (n : Nat) (ticket m : Bytes) : Call → Prop
  | .decStart c => c = ticket
  | .decLoaded c max => c = ticket ∧ n ≤ max
  | .decDone c r => c = ticket ∧ r = some m
  | _ => False

/-- **C50** A ticket for a non-empty message, once returned by `encrypt`, is decrypted to that message by every later call, for
every interleaving with other calls before, between and after. -/
theorem C50_issued (b : Backend) (t : Ticketer) (rng : RandomSource) (hr : rng.Fills) (hk : t.key.length = 32)
    (hl : t.keyName.length = 16) {s1 s2 s3 : Shared} {i : Nat} {m ticket : Bytes}
    (h1 : Steps b.stream t rng .init s1) (hi : s1.calls[i]? = some (.encDone m (some ticket))) (hm : m ≠ [])
    (h2 : Steps b.stream t rng s1 s2)
    (h3 : Steps b.stream t rng { s2 with calls := s2.calls ++ [.decStart ticket] } s3) :
    ∃ c, s3.calls[s2.calls.length]? = some c ∧ c ≠ .panicked ∧ ∀ x r, c = .decDone x r → r = some m := by
  obtain ⟨hlen, nonce, hn, hs⟩ : CallOk b t rng s1.max (.encDone m (some ticket)) :=
    C50_invariant b t rng hr hk hl h1 _ (List.mem_of_getElem? hi)
  have hle : ticket.length ≤ s2.max := Nat.le_trans hlen (steps_le _ _ _ h2)
  suffices H : ∃ c, s3.calls[s2.calls.length]? = some c ∧ Opens ticket.length ticket m c by
    obtain ⟨c, hc, ho⟩ := H
    refine ⟨c, hc, ?_, ?_⟩
    · rintro rfl; exact ho
    · rintro x r rfl; exact ho.2
  generalize hs0 : ({ s2 with calls := s2.calls ++ [.decStart ticket] } : Shared) = s0 at h3
  have hmax : ticket.length ≤ s0.max := by rw [← hs0]; exact hle
  induction h3 with
  | refl =>
    subst hs0
    exact ⟨.decStart ticket, by simp, rfl⟩
  | tail h hst ih =>
    obtain ⟨c, hc, ho⟩ := ih
    have hmax' := Nat.le_trans hmax (steps_le _ _ _ h)
    have hlt := (List.getElem?_eq_some_iff.1 hc).1
    cases hst with
    | encrypt m => exact ⟨c, by rw [← hc]; exact List.getElem?_append_left hlt, ho⟩
    | decrypt m => exact ⟨c, by rw [← hc]; exact List.getElem?_append_left hlt, ho⟩
    | run j d hd =>
      by_cases hj : j = s2.calls.length
      · subst hj
        rw [hc] at hd
        cases hd
        refine ⟨_, List.getElem?_set_self hlt, ?_⟩
        cases c with
        | decStart c => exact ⟨ho, hmax'⟩
        | decLoaded c max =>
          obtain ⟨rfl, hmx⟩ := ho
          obtain ⟨r, g1, g2⟩ := C50_decrypt b t max c hk hl
          have := (g2 m).2 ⟨hmx, hm, nonce, hn, hs⟩
          subst this
          simp only [Call.step]
          rw [g1]
          exact ⟨rfl, rfl⟩
        | decDone c r => exact ho
        | _ => exact ho.elim
      · exact ⟨c, by rw [← hc]; exact List.getElem?_set_ne hj, ho⟩

/-! ### A concrete history -/

def exTicketer : Ticketer := ⟨List.replicate 32 7#8, List.replicate 16 1#8, 21600⟩
/-- Call `i` of this source gives bytes `i`. -/
def exSource : RandomSource := fun i n => .ok (List.replicate n (BitVec.ofNat 8 i))
theorem exSource_fills : exSource.Fills := by
  intro i n b h; cases h; simp

/-- Two calls of `encrypt` run together, the second with the longer message; then both tickets are decrypted. -/
def ticketHistory : List (Shared → Shared) :=
  let add (c : Call) (s : Shared) : Shared := { s with calls := s.calls ++ [c] }
  let run (i : Nat) (s : Shared) : Shared :=
    match s.calls[i]? with
    | none => s
    | some c =>
      let r := c.step Backend.portable.stream exTicketer exSource s.max s.draws
      ⟨r.2.1, r.2.2, s.calls.set i r.1⟩
  [add (.encStart [1, 2, 3]), add (.encStart (List.replicate 70 9)), run 0, run 1, run 1, run 0]

def exState : Shared := ticketHistory.foldl (fun s f => f s) .init

theorem run_steps {S : ChaChaPoly.Stream} {t : Ticketer} {rng : RandomSource} {s0 s : Shared} (i : Nat)
    (h : Steps S t rng s0 s) : Steps S t rng s0 (match s.calls[i]? with
      | none => s
      | some c =>
        let r := c.step S t rng s.max s.draws
        ⟨r.2.1, r.2.2, s.calls.set i r.1⟩) := by
  cases hc : s.calls[i]? with
  | none => exact h
  | some c => exact .tail h (.run s i c hc)

theorem exState_steps : Steps Backend.portable.stream exTicketer exSource .init exState :=
  run_steps 0 (run_steps 1 (run_steps 1 (run_steps 0 (.tail (.tail (.refl _) (.encrypt _ _)) (.encrypt _ _)))))

/-- Both calls have returned; the tickets are 59 and 126 bytes long. -/
example : (exState.calls.map fun c => match c with | .encDone m (some c) => (m.length, c.length) | _ => (0, 0)) =
    [(3, 59), (70, 126)] ∧ exState.max = 126 ∧ exState.draws = 2 := by decide +kernel

/-- `C50_issued` applies to the first ticket. -/
example (ticket : Bytes) (h : exState.calls[0]? = some (.encDone [1, 2, 3] (some ticket))) (s3 : Shared)
    (h3 : Steps Backend.portable.stream exTicketer exSource
      { exState with calls := exState.calls ++ [.decStart ticket] } s3) :
    ∃ c, s3.calls[2]? = some c ∧ c ≠ .panicked ∧ ∀ x r, c = .decDone x r → r = some [1, 2, 3] :=
  C50_issued .portable exTicketer exSource exSource_fills rfl rfl exState_steps h (by simp) (.refl _) h3

/-- The first ticket is accepted, and refused with a bit of its tag flipped. -/
example : (match (exState.calls[0]? : Option Call) with
    | some (.encDone _ (some c)) =>
      (Ticketer.decrypt Backend.portable.stream exTicketer exState.max c,
        Ticketer.decrypt Backend.portable.stream exTicketer exState.max (c.set 58 (c.getD 58 0 ^^^ 1)))
    | _ => (none, none)) = (some (some [1, 2, 3]), some none) := by decide +kernel

end Verif.Props
