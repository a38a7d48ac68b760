import Verif.Props.AsmMont
import Verif.Proof.X86.Keccak4
import Verif.Proof.Sha3

/-!
C63: the x86-64 machine code of the Keccak permutation.  `Asm.sha3KeccakF1600` is the `asm!` block of `sha3_keccak_f1600.rs`;
`rdi` points to the 25 lanes of the state, `rsi` to the 24 round constants.  `Asm.sha3Keccak4F1600Alt` is that of
`sha3_keccak4_f1600_alt.rs`: `rdi` points to four states, and `rdx` and `rcx` to the constants of `sha3_keccak4_f1600_shim.rs`.
-/
namespace Verif.Props
open Verif Verif.X86

/-- An array that is read and written. -/
def inOutBlock (p : Word) (ws : Words) : Block := ⟨p, ws.length, true, some ws⟩

/-- The routine leaves in place of the state `a` the state after the rounds of FIPS 202 with the constants `rc`. -/
theorem C63_rounds (s : St) (a : Spec.Keccak.Lanes) (rc : Words) (ha : a.length = 25) (hr : rc.length = 24)
    (h : Ready s [stackBlock s 32, inOutBlock s.rdi a, inBlock s.rsi rc]) :
    Runs Asm.sha3KeccakF1600 s fun s' => Holds s'.mem s.rdi (Spec.Keccak.rounds rc a) ∧
      Untouched [stackBlock s 32, inOutBlock s.rdi a, inBlock s.rsi rc] s s' := by
  have ok1 := h.ok (stackBlock s 32) (by simp)
  have ok2 := h.ok (inOutBlock s.rdi a) (by simp)
  have ok3 := h.ok (inBlock s.rsi rc) (by simp)
  have ap := h.apart
  simp only [List.pairwise_cons, List.mem_cons, List.not_mem_nil, or_false, forall_eq_or_imp, forall_eq] at ap
  have p12 : Apart (s.rsp - 256#64) 32 s.rdi a.length := ap.1.1 (Or.inl rfl)
  have p13 : Apart (s.rsp - 256#64) 32 s.rsi rc.length := ap.1.2 (Or.inl rfl)
  have p23 : Apart s.rdi a.length s.rsi rc.length := ap.2.1 (Or.inl rfl)
  have o2 : s.Owns s.rdi a.length := ok2.owns rfl
  rw [ha] at p12 p23 o2
  obtain ⟨f, s', hr', hh, he⟩ := keccak_ok s a rc ha hr (ok2.holds a rfl) o2 (ok1.owns rfl)
    (by have e : Holds s.mem s.rsi rc := ok3.holds rc rfl; simpa using e) (by simpa using p23) (by simpa using p13) fun i hi j hj e => p12 j hj i hi e.symm
  refine ⟨f, s', hr', hh, fun x hx => he.un x (fun i hi => ?_) fun i hi => ?_⟩
  · exact hx (inOutBlock s.rdi a) (by simp) rfl i (by show i < a.length; omega)
  · exact hx (stackBlock s 32) (by simp) rfl i hi

/-- With the constants of the crate it is KECCAK-f[1600]. -/
theorem C63_keccak_f (s : St) (a : Spec.Keccak.Lanes) (ha : a.length = 25)
    (h : Ready s [stackBlock s 32, inOutBlock s.rdi a, inBlock s.rsi Sha3.RC]) :
    Runs Asm.sha3KeccakF1600 s fun s' => Holds s'.mem s.rdi (Spec.Keccak.keccakF a) ∧
      Untouched [stackBlock s 32, inOutBlock s.rdi a, inBlock s.rsi Sha3.RC] s s' := by
  rw [← Sha3.keccak_ok]
  exact C63_rounds s a Sha3.RC ha rfl h

/-- No register changes for good but those that the operands of the block name: see `C61`. -/
example : (Asm.sha3KeccakF1600.length, Asm.sha3KeccakF1600Regs.length) = (430, 13) := by decide +kernel

/-! A state in which the hypotheses hold. -/

/-- Lanes 0 to 24 are 7, 8, …. -/
def kA : Words := (List.range 25).map fun i => BitVec.ofNat 64 (i + 7)

/-- The state at 0x1000, the constants at 0x2000, the stack below 0x900. -/
def kSt : St :=
  { wSt with
    rdi := 0x1000#64, rsi := 0x2000#64, rsp := 0x900#64, wr := fun a => a.ult 0x2000#64
    mem := fun a =>
      if a.ult 0x1000#64 then none else if a.ult 0x10c8#64 then kA[(a.toNat - 0x1000) / 8]?
      else if a.ult 0x2000#64 then none else Sha3.RC[(a.toNat - 0x2000) / 8]? }

theorem k_ready : Ready kSt [stackBlock kSt 32, inOutBlock kSt.rdi kA, inBlock kSt.rsi Sha3.RC] := by
  have o1 : kSt.Owns (0x900#64 - 256#64) 32 := by unfold St.Owns; decide +kernel
  have o2 : kSt.Owns 0x1000#64 25 := by unfold St.Owns; decide +kernel
  have m2 : Holds kSt.mem 0x1000#64 kA := by unfold Holds; decide +kernel
  have m3 : Holds kSt.mem 0x2000#64 Sha3.RC := by unfold Holds; decide +kernel
  have a1 : Apart (0x900#64 - 256#64) 32 0x1000#64 25 := by unfold Apart; decide +kernel
  have a2 : Apart (0x900#64 - 256#64) 32 0x2000#64 24 := by unfold Apart; decide +kernel
  have a3 : Apart 0x1000#64 25 0x2000#64 24 := by unfold Apart; decide +kernel
  refine ⟨fun b hb => ?_, ?_⟩
  · simp only [List.mem_cons, List.not_mem_nil, or_false] at hb
    rcases hb with rfl | rfl | rfl
    · exact ⟨fun _ => o1, fun _ e => (by cases e), fun _ e => (by cases e)⟩
    · exact ⟨fun _ => o2, fun _ e => (by cases e; rfl), fun _ e => (by cases e; exact m2)⟩
    · exact ⟨fun e => (by cases e), fun _ e => (by cases e; rfl), fun _ e => (by cases e; exact m3)⟩
  · simp only [List.pairwise_cons, List.mem_cons, List.not_mem_nil, or_false, forall_eq_or_imp, forall_eq]
    exact ⟨⟨fun _ => a1, fun _ => a2⟩, fun _ => a3, by simp⟩

example := C63_keccak_f kSt kA (by decide) k_ready

/-! ### Four states at once -/

/-- The blocks of memory that the routine uses: 99 words below the stack pointer, the four states, and the constants. -/
def k4Blocks (s : St) (a : Words) (rc : Words) : List Block :=
  [stackBlock s 99, inOutBlock s.rdi a, inBlock s.rsi rc, inBlock s.rdx rho8.words, inBlock s.rcx rho56.words]

theorem apart_flip {p q : Word} {k l : Nat} (h : Apart p k q l) : Apart q l p k := fun i hi j hj e => h j hj i hi e.symm

/-- The routine for four states applies the rounds to each, and gives back the stack pointer and all registers that the operands of the
block do not name. -/
theorem C63_rounds4 (t : VSt) (a b c d : Spec.Keccak.Lanes) (rc : Words) (ha : a.length = 25) (hb : b.length = 25)
    (hc : c.length = 25) (hd : d.length = 25) (hr : rc.length = 24) (hs : t.s.rsp.toNat % 8 = 0)
    (h : Ready t.s (k4Blocks t.s (a ++ b ++ c ++ d) rc)) :
    VRuns Asm.sha3Keccak4F1600Alt t fun t' =>
      Holds t'.s.mem t.s.rdi (Spec.Keccak.rounds rc a ++ Spec.Keccak.rounds rc b ++ Spec.Keccak.rounds rc c ++ Spec.Keccak.rounds rc d) ∧
      Untouched (k4Blocks t.s (a ++ b ++ c ++ d) rc) t.s t'.s ∧
      ∀ r, r ∉ Asm.sha3Keccak4F1600AltRegs → t'.s.get r = t.s.get r := by
  obtain ⟨s, y⟩ := t
  simp only at hs h ⊢
  have ok1 : s.Owns (s.rsp - BitVec.ofNat 64 (8 * 99)) 99 := (h.ok (stackBlock s 99) (by simp [k4Blocks])).owns rfl
  have ok2 := h.ok (inOutBlock s.rdi (a ++ b ++ c ++ d)) (by simp [k4Blocks])
  have hl : (a ++ b ++ c ++ d).length = 100 := by simp [ha, hb, hc, hd]
  have o2 : s.Owns s.rdi (a ++ b ++ c ++ d).length := ok2.owns rfl
  have ap := h.apart
  unfold k4Blocks at ap
  simp only [List.pairwise_cons, List.mem_cons, List.not_mem_nil, or_false, forall_eq_or_imp, forall_eq] at ap
  have p12 : Apart (s.rsp - BitVec.ofNat 64 (8 * 99)) 99 s.rdi (a ++ b ++ c ++ d).length := ap.1.1 (Or.inl rfl)
  have p13 : Apart (s.rsp - BitVec.ofNat 64 (8 * 99)) 99 s.rsi rc.length := ap.1.2.1 (Or.inl rfl)
  have p14 : Apart (s.rsp - BitVec.ofNat 64 (8 * 99)) 99 s.rdx 4 := ap.1.2.2.1 (Or.inl rfl)
  have p15 : Apart (s.rsp - BitVec.ofNat 64 (8 * 99)) 99 s.rcx 4 := ap.1.2.2.2 (Or.inl rfl)
  have p23 : Apart s.rdi (a ++ b ++ c ++ d).length s.rsi rc.length := ap.2.1.1 (Or.inl rfl)
  have p24 : Apart s.rdi (a ++ b ++ c ++ d).length s.rdx 4 := ap.2.1.2.1 (Or.inl rfl)
  have p25 : Apart s.rdi (a ++ b ++ c ++ d).length s.rcx 4 := ap.2.1.2.2 (Or.inl rfl)
  rw [hl] at o2 p12 p23 p24 p25
  rw [hr] at p13 p23
  obtain ⟨k, hk, ek⟩ := k4_frame hs
  generalize hB : s.rsp - BitVec.ofNat 64 (8 * 99) = B at *
  generalize hb' : (s.rsp &&& 0xffffffffffffffe0#64) - 768#64 = b' at *
  have fr : ∀ {q : Word} {n : Nat}, Apart B 99 q n → Apart b' 96 q n := by
    intro q n hq i hi j hj
    rw [ek, word_add]
    exact hq (k + i) (by omega) j hj
  have H : K4Hyp s b' rc :=
    { lrc := hr
      ownS := fun i hi => by rw [ek, word_add]; exact ok1 (k + i) (by omega)
      ownD := o2
      sd := fr p12, sr := fr p13, dr := p23
      rc := (h.ok (inBlock s.rsi rc) (by simp [k4Blocks])).holds rc rfl
      m8 := (h.ok (inBlock s.rdx rho8.words) (by simp [k4Blocks])).holds _ rfl
      s8 := fr p14, d8 := p24
      m56 := (h.ok (inBlock s.rcx rho56.words) (by simp [k4Blocks])).holds _ rfl
      s56 := fr p15, d56 := p25 }
  have lanes : ∀ (f : Spec.Keccak.Lanes → Spec.Keccak.Lanes), (∀ x, x.length = 25 → (f x).length = 25) → ∀ j < 100,
      (f a ++ f b ++ f c ++ f d)[j]? =
        some ((f ((fun l => [a, b, c, d].getD l []) (j / 25))).getD (j % 25) 0#64) := by
    intro f hf j hj
    have la := hf a ha
    have lb := hf b hb
    have lc := hf c hc
    have ld := hf d hd
    have g : ∀ (x : Words) (n : Nat), x.length = 25 → n < 25 → x[n]? = some (x.getD n 0#64) := by
      intro x n hx hn
      rw [List.getD_eq_getElem?_getD, List.getElem?_eq_getElem (by omega)]
      rfl
    by_cases h1 : j < 25
    · rw [List.getElem?_append_left (by simp; omega), List.getElem?_append_left (by simp; omega), List.getElem?_append_left (by omega),
        show j / 25 = 0 by omega, show j % 25 = j by omega]
      exact g _ _ la h1
    · by_cases h2 : j < 50
      · rw [List.getElem?_append_left (by simp; omega), List.getElem?_append_left (by simp; omega), List.getElem?_append_right (by omega),
          show j / 25 = 1 by omega, show j % 25 = j - 25 by omega, la]
        exact g _ _ lb (by omega)
      · by_cases h3 : j < 75
        · rw [List.getElem?_append_left (by simp; omega), List.getElem?_append_right (by simp; omega),
            show j / 25 = 2 by omega, show j % 25 = j - 50 by omega, List.length_append, la, lb]
          exact g _ _ lc (by omega)
        · rw [List.getElem?_append_right (by simp; omega), show j / 25 = 3 by omega, show j % 25 = j - 75 by omega,
            List.length_append, List.length_append, la, lb, lc]
          exact g _ _ ld (by omega)
  have hD : ∀ j < 100, s.mem (word s.rdi j) = some (((fun l => [a, b, c, d].getD l []) (j / 25)).getD (j % 25) 0#64) := by
    intro j hj
    have e := lanes id (fun _ h => h) j hj
    simp only [id] at e
    have m : Holds s.mem s.rdi (a ++ b ++ c ++ d) := ok2.holds _ rfl
    rw [← e, m j (by omega), List.getElem?_eq_getElem (by omega)]
  obtain ⟨f, t', hr', K⟩ := keccak4_ok H (a := fun l => [a, b, c, d].getD l []) (t := ⟨s, y⟩) rfl hb'.symm hD
  refine ⟨f, t', hr', fun j hj => ?_, fun x hx => K.un x (fun i hi e => ?_) fun i hi => ?_, fun r hr => K.regs r ?_ ?_ ?_⟩
  · have l100 : j < 100 := by
      have := hj
      simp only [List.length_append, rounds_length rc _ ha, rounds_length rc _ hb, rounds_length rc _ hc, rounds_length rc _ hd] at this
      omega
    rw [K.lanes j l100, ← List.getElem?_eq_getElem hj]
    exact (lanes (Spec.Keccak.rounds rc) (fun x hx => rounds_length rc x hx) j l100).symm
  · refine hx (stackBlock s 99) (by simp [k4Blocks]) rfl (k + i) (by show k + i < 99; omega) ?_
    show x = word (s.rsp - BitVec.ofNat 64 (8 * 99)) (k + i)
    rw [hB, e, ek, word_add]
  · exact hx (inOutBlock s.rdi (a ++ b ++ c ++ d)) (by simp [k4Blocks]) rfl i (by show i < (a ++ b ++ c ++ d).length; omega)
  · rintro rfl
    exact hr (by decide)
  · rintro rfl
    exact hr (by decide)
  · rintro rfl
    exact hr (by decide)

/-- With the constants of the crate it is KECCAK-f[1600] on each of the four states. -/
theorem C63_keccak4_f (t : VSt) (a b c d : Spec.Keccak.Lanes) (ha : a.length = 25) (hb : b.length = 25)
    (hc : c.length = 25) (hd : d.length = 25) (hs : t.s.rsp.toNat % 8 = 0)
    (h : Ready t.s (k4Blocks t.s (a ++ b ++ c ++ d) Sha3.RC)) :
    VRuns Asm.sha3Keccak4F1600Alt t fun t' =>
      Holds t'.s.mem t.s.rdi (Spec.Keccak.keccakF a ++ Spec.Keccak.keccakF b ++ Spec.Keccak.keccakF c ++ Spec.Keccak.keccakF d) ∧
      Untouched (k4Blocks t.s (a ++ b ++ c ++ d) Sha3.RC) t.s t'.s ∧
      ∀ r, r ∉ Asm.sha3Keccak4F1600AltRegs → t'.s.get r = t.s.get r := by
  rw [← Sha3.keccak_ok]
  exact C63_rounds4 t a b c d Sha3.RC ha hb hc hd rfl hs h

/-! A state in which the hypotheses hold. -/

/-- Four states, of lanes 7, 8, …, of lanes 1000, …, of 2000, … and of 3000, …. -/
def k4A (n : Nat) : Words := (List.range 25).map fun i => BitVec.ofNat 64 (i + n)

/-- The states at 0x1000, the constants at 0x2000, 0x3000 and 0x4000, the stack below 0x900. -/
def k4St : VSt where
  y := fun _ => ⟨1#64, 2#64, 3#64, 4#64⟩
  s := { wSt with
    rdi := 0x1000#64, rsi := 0x2000#64, rdx := 0x3000#64, rcx := 0x4000#64, rsp := 0x908#64, wr := fun a => a.ult 0x2000#64
    mem := fun a =>
      if a.ult 0x1000#64 then none
      else if a.ult 0x2000#64 then (k4A 7 ++ k4A 1000 ++ k4A 2000 ++ k4A 3000)[(a.toNat - 0x1000) / 8]?
      else if a.ult 0x3000#64 then Sha3.RC[(a.toNat - 0x2000) / 8]?
      else if a.ult 0x4000#64 then rho8.words[(a.toNat - 0x3000) / 8]?
      else rho56.words[(a.toNat - 0x4000) / 8]? }

theorem k4_ready : Ready k4St.s (k4Blocks k4St.s (k4A 7 ++ k4A 1000 ++ k4A 2000 ++ k4A 3000) Sha3.RC) := by
  have o1 : k4St.s.Owns (0x908#64 - 792#64) 99 := by unfold St.Owns; decide +kernel
  have o2 : k4St.s.Owns 0x1000#64 100 := by unfold St.Owns; decide +kernel
  have m2 : Holds k4St.s.mem 0x1000#64 (k4A 7 ++ k4A 1000 ++ k4A 2000 ++ k4A 3000) := by unfold Holds; decide +kernel
  have m3 : Holds k4St.s.mem 0x2000#64 Sha3.RC := by unfold Holds; decide +kernel
  have m4 : Holds k4St.s.mem 0x3000#64 rho8.words := by unfold Holds; decide +kernel
  have m5 : Holds k4St.s.mem 0x4000#64 rho56.words := by unfold Holds; decide +kernel
  have a12 : Apart (0x908#64 - 792#64) 99 0x1000#64 100 := by unfold Apart; decide +kernel
  have a13 : Apart (0x908#64 - 792#64) 99 0x2000#64 24 := by unfold Apart; decide +kernel
  have a14 : Apart (0x908#64 - 792#64) 99 0x3000#64 4 := by unfold Apart; decide +kernel
  have a15 : Apart (0x908#64 - 792#64) 99 0x4000#64 4 := by unfold Apart; decide +kernel
  have a23 : Apart 0x1000#64 100 0x2000#64 24 := by unfold Apart; decide +kernel
  have a24 : Apart 0x1000#64 100 0x3000#64 4 := by unfold Apart; decide +kernel
  have a25 : Apart 0x1000#64 100 0x4000#64 4 := by unfold Apart; decide +kernel
  unfold k4Blocks
  refine ⟨fun b hb => ?_, ?_⟩
  · simp only [List.mem_cons, List.not_mem_nil, or_false] at hb
    rcases hb with rfl | rfl | rfl | rfl | rfl
    · exact ⟨fun _ => o1, fun _ e => (by cases e), fun _ e => (by cases e)⟩
    · exact ⟨fun _ => o2, fun _ e => (by cases e; rfl), fun _ e => (by cases e; exact m2)⟩
    · exact ⟨fun e => (by cases e), fun _ e => (by cases e; rfl), fun _ e => (by cases e; exact m3)⟩
    · exact ⟨fun e => (by cases e), fun _ e => (by cases e; rfl), fun _ e => (by cases e; exact m4)⟩
    · exact ⟨fun e => (by cases e), fun _ e => (by cases e; rfl), fun _ e => (by cases e; exact m5)⟩
  · simp only [List.pairwise_cons, List.mem_cons, List.not_mem_nil, or_false, forall_eq_or_imp, forall_eq]
    refine ⟨⟨fun _ => a12, fun _ => a13, fun _ => a14, fun _ => a15⟩, ⟨fun _ => a23, fun _ => a24, fun _ => a25⟩, ⟨?_, ?_⟩, ?_, ?_⟩ <;>
      first
        | (rintro (e | e) <;> cases e)
        | simp

example := C63_keccak4_f k4St (k4A 7) (k4A 1000) (k4A 2000) (k4A 3000) (by decide) (by decide) (by decide) (by decide) (by decide) k4_ready

end Verif.Props
