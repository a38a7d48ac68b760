import Verif.Model.Entry
import Verif.Model.CpuFeatures

/-!
C71: on aarch64 all computation on secret data runs with data-independent timing, and the mode of the caller is restored; vector registers are cleared when
a function for secret data ends.  The latter holds for all registers of aarch64, and on x86_64 for the registers 0 to 15.
Neither holds for HMAC.
-/
namespace Verif.Entry

theorem ditRead_eq (c : Cpu) : ditRead c = if c.dit then 1 else 0 := by
  unfold ditRead mrsDit; cases c.dit <;> rfl

/-- What an entry does to the timing mode, and what its drop undoes. -/
theorem new_drop {m : Machine} {b : Bool} {c c1 : Cpu} {g : Guard} (h : Guard.new m b c = some (g, c1)) :
    (∀ d : Cpu, d.dit = c1.dit → (g.drop m d).dit = c.dit) ∧ (c.dit = true → c1.dit = true) ∧
    (m.arch = .aarch64 → m.hasDit = true → b = true → c1.dit = true) ∧ g.secret = b := by
  obtain ⟨arch, dit, ok⟩ := m
  obtain ⟨cd, v⟩ := c
  cases ok
  · simp [Guard.new] at h
  cases b
  · simp only [Guard.new, if_true, Bool.false_eq_true, if_false, Option.some.injEq, Prod.mk.injEq] at h
    obtain ⟨rfl, rfl⟩ := h
    simp [Guard.drop]
  · cases arch <;> cases dit <;> cases cd <;>
      simp [Guard.new, enterCpuState, maybeEnable, ditRead_eq, ditWrite] at h <;> obtain ⟨rfl, rfl⟩ := h <;>
      simp [Guard.drop, leaveCpuState, maybeDisable, ditWrite]

theorem exec_dit (m : Machine) (p : Code) : ∀ (s : Bool) (c : Cpu), (exec m s p c).cpu.dit = c.dit := by
  induction p with
  | done => intro s c; rfl
  | panic => intro s c; rfl
  | work f rest ih => intro s c; exact ih s _
  | call b body rest ih1 ih2 =>
    intro s c
    simp only [exec]
    cases hg : Guard.new m b c with
    | none => rfl
    | some x =>
      obtain ⟨g, c1⟩ := x
      have hd := (new_drop hg).1 _ (ih1 (s || b) c1)
      dsimp only
      split
      · exact hd
      · exact (ih2 s _).trans hd

theorem exec_seen {m : Machine} (ha : m.arch = .aarch64) (hm : m.hasDit = true) (p : Code) : ∀ (s : Bool) (c : Cpu), (s = true → c.dit = true) →
    ∀ o ∈ (exec m s p c).seen, o.secret = true → o.dit = true := by
  induction p with
  | done => intro s c _ o ho; cases ho
  | panic => intro s c _ o ho; cases ho
  | work f rest ih =>
    intro s c h o ho
    simp only [exec, List.mem_cons] at ho
    rcases ho with rfl | ho
    · exact h
    · exact ih s { c with v := f c.v } h o ho
  | call b body rest ih1 ih2 =>
    intro s c h o ho
    simp only [exec] at ho
    cases hg : Guard.new m b c with
    | none => rw [hg] at ho; cases ho
    | some x =>
      obtain ⟨g, c1⟩ := x
      rw [hg] at ho
      obtain ⟨n1, n2, n3, -⟩ := new_drop hg
      have hb : (s || b) = true → c1.dit = true := by
        intro e
        rcases Bool.or_eq_true_iff.mp e with e | e
        · exact n2 (h e)
        · exact n3 ha hm e
      have hd := n1 _ (exec_dit m body (s || b) c1)
      dsimp only at ho
      split at ho
      · exact ih1 _ _ hb o ho
      · rcases List.mem_append.mp ho with ho | ho
        · exact ih1 _ _ hb o ho
        · exact ih2 s _ (fun e => hd.trans (h e)) o ho

theorem zeroNeon_ok (v : Regs) : ∀ r, zeroNeon.foldl (fun v o => eor o.1 o.2.1 o.2.2 v) v r = 0 := by
  have same : ∀ o ∈ zeroNeon, o.2.1 = o.2.2 := by decide
  have all : ∀ r : Fin 32, r ∈ zeroNeon.map (·.1) := by decide
  have key : ∀ (l : List (Fin 32 × Fin 32 × Fin 32)) (v : Regs) (r : Fin 32), (∀ o ∈ l, o.2.1 = o.2.2) → (r ∈ l.map (·.1) ∨ v r = 0) →
      l.foldl (fun v o => eor o.1 o.2.1 o.2.2 v) v r = 0 := by
    intro l
    induction l with
    | nil => intro v r _ h; simpa using h
    | cons o l ih =>
      intro v r hs h
      refine ih _ r (fun o ho => hs o (List.mem_cons_of_mem _ ho)) ?_
      by_cases hr : r = o.1
      · right; simp [eor, hr, hs o List.mem_cons_self]
      · rcases h with h | h
        · left; simpa [hr] using h
        · right; simp [eor, hr, h]
  exact fun r => key _ v r same (.inl (all r))

/-- The end of a function for secret data. -/
theorem call_end {m : Machine} (hv : m.verified = true) (body : Code) (s : Bool) (c : Cpu) :
    ∃ (old : Nat) (d : Cpu), (exec m s (.call true body .done) c).cpu = leaveCpuState m old d := by
  simp only [exec]
  cases hg : Guard.new m true c with
  | none => simp [Guard.new, hv] at hg
  | some x =>
    obtain ⟨g, c1⟩ := x
    refine ⟨g.cpuState, (exec m (s || true) body c1).cpu, ?_⟩
    have := (new_drop hg).2.2.2
    dsimp only
    split <;> simp [Guard.drop, this]

end Verif.Entry

namespace Verif.Props
open Verif.Entry

/-- C71: whatever functions of the library do and however they call each other, when one ends, by returning or by a panic, the timing mode of the processor
is what it was. -/
theorem C71_mode_restored (m : Machine) (p : Code) (s : Bool) (c : Entry.Cpu) : (exec m s p c).cpu.dit = c.dit := exec_dit m p s c

/-- C71: on an aarch64 processor with data-independent timing, every computation made while a function for secret data is active, itself or in a function it
calls, is made in that mode. -/
theorem C71_mode_on {m : Machine} (ha : m.arch = .aarch64) (hm : m.hasDit = true) (p : Code) (c : Entry.Cpu) :
    ∀ o ∈ (exec m false p c).seen, o.secret = true → o.dit = true := exec_seen ha hm p false c (fun h => by cases h)

/-- C71: on aarch64, when a function for secret data ends, by returning or by a panic, all vector registers are zero. -/
theorem C71_registers_aarch64 {m : Machine} (ha : m.arch = .aarch64) (hv : m.verified = true) (body : Code) (s : Bool) (c : Entry.Cpu) (r : Fin 32) :
    (exec m s (.call true body .done) c).cpu.v r = 0 := by
  obtain ⟨old, d, h⟩ := call_end hv body s c
  rw [h]; simp only [leaveCpuState, ha]; exact zeroNeon_ok _ r

/-- C71: on x86_64 the same for the registers 0 to 15.  Missing: the registers 16 to 31 that AVX-512 adds. -/
theorem C71_registers_x86_64_partial {m : Machine} (ha : m.arch = .x86_64) (hv : m.verified = true) (body : Code) (s : Bool) (c : Entry.Cpu) (r : Fin 32)
    (hr : r.val < 16) : (exec m s (.call true body .done) c).cpu.v r = 0 := by
  obtain ⟨old, d, h⟩ := call_end hv body s c
  rw [h]; simp only [leaveCpuState, ha, vzeroall, hr, if_true]

/-- C71 fails for the registers 16 to 31 of x86_64: what a function for secret data leaves there stays.  Such functions do use AVX-512: AES-GCM does when the
processor has it, and there are processors that have all that the library asks for. -/
theorem C71_registers_x86_64_kept : (∀ (m : Machine), m.arch = .x86_64 → m.verified = true → ∀ (x : BitVec 512) (s : Bool) (c : Entry.Cpu) (r : Fin 32),
      16 ≤ r.val → (exec m s (.call true (.work (fun _ _ => x) .done) .done) c).cpu.v r = x) ∧
    ∃ cpu : X86.Cpu, cpu.Sane ∧ X86.verifyCpuFeatures false false (fun _ => false) cpu = true ∧ X86.haveAvx512ForAesGcm false (fun _ => false) cpu = true := by
  refine ⟨?_, fun _ => true, by constructor <;> simp, rfl, rfl⟩
  intro m ha hv x s c r hr
  have : ¬ r.val < 16 := by omega
  simp [exec, Guard.new, hv, ha, enterCpuState, Guard.drop, leaveCpuState, vzeroall, this]

/-- C71 fails for HMAC, whose key is secret: its operations make no entry, so they run in the mode of the caller, which is off by default, and what they leave in
vector registers stays. -/
theorem C71_hmac_unguarded (m : Machine) (f : Regs → Regs) (c : Entry.Cpu) (h : c.dit = false) :
    (∀ o ∈ (exec m false (operation hmacEntry (.work f .done)) c).seen, o.dit = false) ∧
    (exec m false (operation hmacEntry (.work f .done)) c).cpu.v = f c.v := by
  simp [operation, hmacEntry, exec, h]

/-- Encryption with AES-GCM has the mode on. -/
example : (exec ⟨.aarch64, true, true⟩ false (operation aesGcmEncryptEntry (.work id .done)) ⟨false, fun _ => 1⟩).seen = [⟨true, true⟩] := by decide +kernel

/-! A function for secret data that calls a public one and one for secret data, which panics; and the same without the panic. -/

/-- An aarch64 processor with the mode. -/
def someArm : Machine := ⟨.aarch64, true, true⟩
/-- Nested calls, with a given end of the innermost. -/
def someCode (e : Code) : Code := .call true (.work (fun _ _ => 5) (.call false (.work id .done) (.call true (.work id e) (.work id .done)))) (.work id .done)

example : (exec someArm false (someCode .done) ⟨false, fun _ => 1⟩).seen = [⟨true, true⟩, ⟨true, true⟩, ⟨true, true⟩, ⟨true, true⟩, ⟨false, false⟩] := by
  decide +kernel
example : (exec someArm false (someCode .panic) ⟨false, fun _ => 1⟩).seen = [⟨true, true⟩, ⟨true, true⟩, ⟨true, true⟩] ∧
    (exec someArm false (someCode .panic) ⟨false, fun _ => 1⟩).panicked = true := by
  decide +kernel
/-- A caller that has the mode on keeps it. -/
example : (exec someArm false (someCode .done) ⟨true, fun _ => 1⟩).cpu.dit = true := by decide +kernel

end Verif.Props
