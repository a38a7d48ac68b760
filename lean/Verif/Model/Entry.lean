/-!
Entering and leaving the library: `graviola/src/low/entry.rs` and the functions on the state of the processor that it uses, from
`graviola/src/low/x86_64/cpu.rs` and `graviola/src/low/aarch64/cpu.rs`.

Every public function of the library that computes anything, but those of `graviola::hashing` and the hidden `…_internal` of ML-KEM, begins with `let _entry = Entry::new_public()` or `let _entry = Entry::new_secret()`, so that the
value is dropped when the function returns or unwinds.  Library functions call each other, so these calls nest.

Simplified: the two architectures share one type of state, with 32 vector registers of 512 bits; aarch64 uses 128 bits of each.  Features of the processor do
not change while the program runs (a debug build reads the environment each time).  What the compiler does with vector registers between the drop of
`_entry` and the return is not modelled.
-/
namespace Verif.Entry

inductive Arch | x86_64 | aarch64
  deriving DecidableEq

/-- The processor and the build: the architecture, whether `have_cpu_feature!("dit")` holds, and whether `verify_cpu_features`
(x86_64/cpu.rs:226-264, aarch64/cpu.rs:207-224) returns rather than panics. -/
structure Machine where
  arch : Arch
  hasDit : Bool
  verified : Bool

abbrev Regs := Fin 32 → BitVec 512

/-- The state of the processor that outlives a call: data-independent timing (`PSTATE.DIT`), and the vector registers. -/
structure Cpu where
  dit : Bool
  v : Regs

/-- `mrs r, DIT`: the bit is number 24. -/
def mrsDit (c : Cpu) : BitVec 64 := if c.dit then 0x01000000#64 else 0#64

/-- aarch64/cpu.rs:252-265, `dit::read`. -/
def ditRead (c : Cpu) : Nat := if mrsDit c &&& 0x01000000#64 == 0x01000000#64 then 1 else 0

/-- aarch64/cpu.rs:267-276, `dit::write`. -/
def ditWrite (on : Nat) (c : Cpu) : Cpu := if on > 0 then { c with dit := true } else { c with dit := false }

/-- aarch64/cpu.rs:227-243, `dit::maybe_enable`. -/
def maybeEnable (m : Machine) (c : Cpu) : Nat × Cpu :=
  if m.hasDit then
    match ditRead c with
    | 0 => (1, ditWrite 1 c)
    | _ => (0, c)
  else (0, c)

/-- aarch64/cpu.rs:245-250, `dit::maybe_disable`. -/
def maybeDisable (weEnabled : Nat) (c : Cpu) : Cpu := if weEnabled > 0 then ditWrite 0 c else c

/-- `eor vd.16b, vn.16b, vm.16b`: clears the bits above the 128. -/
def eor (d n m : Fin 32) (v : Regs) : Regs := fun r => if r = d then ((v n ^^^ v m).setWidth 128).setWidth 512 else v r

/-- aarch64/cpu.rs:15-88, `zero_neon_registers`: the operands of its instructions. -/
def zeroNeon : List (Fin 32 × Fin 32 × Fin 32) := [
  (0, 0, 0), (1, 1, 1), (2, 2, 2), (3, 3, 3), (4, 4, 4), (5, 5, 5), (6, 6, 6), (7, 7, 7), (8, 8, 8), (9, 9, 9), (10, 10, 10), (11, 11, 11), (12, 12, 12),
  (13, 13, 13), (14, 14, 14), (15, 15, 15), (16, 16, 16), (17, 17, 17), (18, 18, 18), (19, 19, 19), (20, 20, 20), (21, 21, 21), (22, 22, 22),
  (23, 23, 23), (24, 24, 24), (25, 25, 25), (26, 26, 26), (27, 27, 27), (28, 28, 28), (29, 29, 29), (30, 30, 30), (31, 31, 31)]

/-- `vzeroall`: registers 0 to 15 in full width; registers 16 to 31 of AVX-512 keep their values (Intel SDM, VZEROALL). -/
def vzeroall (v : Regs) : Regs := fun r => if r.val < 16 then 0 else v r

/-- x86_64/cpu.rs:6-11 and aarch64/cpu.rs:4-6, `enter_cpu_state`. -/
def enterCpuState (m : Machine) (c : Cpu) : Nat × Cpu :=
  match m.arch with
  | .x86_64 => (0, c)
  | .aarch64 => maybeEnable m c

/-- x86_64/cpu.rs:13-42 and aarch64/cpu.rs:8-13, `leave_cpu_state`. -/
def leaveCpuState (m : Machine) (old : Nat) (c : Cpu) : Cpu :=
  match m.arch with
  | .x86_64 => { c with v := vzeroall c.v }
  | .aarch64 =>
    let c := maybeDisable old c
    { c with v := zeroNeon.foldl (fun v o => eor o.1 o.2.1 o.2.2 v) c.v }

/-- entry.rs:10-13, `Entry`. -/
structure Guard where
  secret : Bool
  cpuState : Nat

/-- entry.rs:19-27 and 33-42, `Entry::new_public` and `Entry::new_secret`; `none` is a panic. -/
def Guard.new (m : Machine) (secret : Bool) (c : Cpu) : Option (Guard × Cpu) :=
  if m.verified then
    if secret then
      let (cpuState, c) := enterCpuState m c
      some (⟨true, cpuState⟩, c)
    else some (⟨false, 0⟩, c)
  else none

/-- entry.rs:45-51, `Drop for Entry`. -/
def Guard.drop (m : Machine) (g : Guard) (c : Cpu) : Cpu := if g.secret then leaveCpuState m g.cpuState c else c

/-- What a function does, as far as it matters here: computations that put anything into vector registers, calls of functions with an `Entry`
(for secret data or not), a panic, the end. -/
inductive Code where
  | done
  | panic
  | work (f : Regs → Regs) (rest : Code)
  | call (secret : Bool) (body rest : Code)

/-- What is seen of one computation: whether a function for secret data is active, and whether timing was data-independent. -/
structure Seen where
  secret : Bool
  dit : Bool
  deriving DecidableEq

/-- How a piece of code ends: whether by a panic, the state, and what was seen on the way. -/
structure End where
  panicked : Bool
  cpu : Cpu
  seen : List Seen

/-- The execution of a function; a panic unwinds through the callers and drops their entries.  `secret`: a function for secret data is active. -/
def exec (m : Machine) : (secret : Bool) → Code → Cpu → End
  | _, .done, c => ⟨false, c, []⟩
  | _, .panic, c => ⟨true, c, []⟩
  | s, .work f rest, c =>
    let e := exec m s rest { c with v := f c.v }
    { e with seen := ⟨s, c.dit⟩ :: e.seen }
  | s, .call b body rest, c =>
    match Guard.new m b c with
    | none => ⟨true, c, []⟩
    | some (g, c) =>
      let e := exec m (s || b) body c
      let c := g.drop m e.cpu
      if e.panicked then ⟨true, c, e.seen⟩
      else
        let e' := exec m s rest c
        { e' with seen := e.seen ++ e'.seen }

/-- A public operation: with `Entry::new_secret()`, with `Entry::new_public()`, or without an entry. -/
def operation : Option Bool → Code → Code
  | some b, body => .call b body .done
  | none, body => body

/-- `Hmac::new`, `update`, `finish` and `verify` (high/hmac.rs:20-74), like all of `graviola::hashing` (high/hash.rs, mid/sha2.rs, mid/sha3.rs), make no
`Entry`. -/
def hmacEntry : Option Bool := none
/-- mid/aes_gcm.rs:57, `AesGcm::encrypt`, for comparison. -/
def aesGcmEncryptEntry : Option Bool := some true

end Verif.Entry
