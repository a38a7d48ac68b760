import Verif.Model.AsmX86.Mont
import Verif.Model.AsmX86.Rsa
import Verif.Model.AsmX86.P256
import Verif.Model.AsmX86.P384
import Verif.Model.AsmX86.P256Point
import Verif.Model.AsmX86.P384Add
import Verif.Model.AsmX86.P384Double
import Verif.Model.AsmX86.N25519
import Verif.Model.AsmX86.X25519
import Verif.Model.AsmX86.X25519Base
import Verif.Model.AsmX86.Ed25519Base
import Verif.Model.AsmX86.Keccak
import Verif.Proof.X86.KeepData
import Verif.Props.ConstTime

/-!
C61: a routine gives the stack pointer and every register that its `asm!` block does not name as an output back as it found
them.  The routines of `Props/AsmX86.lean`, which save nothing, are in `C60_clobbers`.

The frame of an entry is the words, relative to the stack pointer at the start, in which the routine saves registers; it is
assumed that no write through a pointer falls on them (the slices a routine is given are not in its frame).
-/
namespace Verif.Props
open Verif Verif.X86

/-- A program, the registers that the operands of its `asm!` block name as changed, and the words in which it saves others. -/
structure KeepProg where
  prog : Prog
  regs : List Reg
  frame : List Word

/-- However a run ends, the stack pointer and the registers not named are as at the start. -/
def KeepProg.Keeps (e : KeepProg) : Prop :=
  ∀ (f : Nat) (s s' : St), Clear e.frame s.rsp e.prog f 0 s → run e.prog f 0 s = some s' →
    s'.rsp = s.rsp ∧ ∀ r, r ∉ e.regs → s'.get r = s.get r

theorem keep_all {l : List KeepProg} (as : List (List (Nat × Kp)))
    (h : (as.length == l.length && (l.zip as).all fun x =>
      keeps x.1.frame x.2 (.but x.1.regs) x.1.prog.length x.1.prog 0 (some (.but []))) = true) : ∀ e ∈ l, e.Keeps := by
  intro e he f s s' hc hr
  rw [Bool.and_eq_true, List.all_eq_true] at h
  obtain ⟨h1, h2⟩ := h
  have h1 : as.length = l.length := by simpa using h1
  obtain ⟨i, hi, rfl⟩ := List.getElem_of_mem he
  have hz : i < (l.zip as).length := by rw [List.length_zip]; omega
  have := h2 _ (List.getElem_mem hz)
  rw [List.getElem_zip] at this
  exact keeps_sound this hc hr

/-- The routines for Montgomery arithmetic on word arrays. -/
def keepMont : List KeepProg := [
  ⟨Asm.bignumNegmodinv, Asm.bignumNegmodinvRegs, [-8#64]⟩,
  ⟨Asm.bignumMul, Asm.bignumMulRegs, [-16#64, -8#64]⟩,
  ⟨Asm.bignumDemont, Asm.bignumDemontRegs, [-16#64, -8#64]⟩,
  ⟨Asm.bignumMontmul, Asm.bignumMontmulRegs, [-16#64, -8#64]⟩,
  ⟨Asm.bignumMontsqr, Asm.bignumMontsqrRegs, [-16#64, -8#64]⟩,
  ⟨Asm.bignumMontredc, Asm.bignumMontredcRegs, [-16#64, -8#64]⟩]
/-- They keep the stack pointer and the registers they do not name. -/
theorem C61_mont : ∀ e ∈ keepMont, e.Keeps :=
  keep_all [Keep.bignumNegmodinvAnn, Keep.bignumMulAnn, Keep.bignumDemontAnn, Keep.bignumMontmulAnn, Keep.bignumMontsqrAnn, Keep.bignumMontredcAnn] (by decide +kernel)

/-- The routines for RSA and its key generation. -/
def keepRsa : List KeepProg := [
  ⟨Asm.bignumEmontredc8n, Asm.bignumEmontredc8nRegs, [-16#64, -8#64]⟩,
  ⟨Asm.bignumKmul1632, Asm.bignumKmul1632Regs, [-16#64, -8#64]⟩,
  ⟨Asm.bignumKsqr1632, Asm.bignumKsqr1632Regs, [-8#64]⟩,
  ⟨Asm.bignumMontifier, Asm.bignumMontifierRegs, [-16#64, -8#64]⟩,
  ⟨Asm.bignumModinv, Asm.bignumModinvRegs, [-16#64, -8#64]⟩,
  ⟨Asm.bignumCoprime, Asm.bignumCoprimeRegs, [-16#64, -8#64]⟩]
/-- They keep the stack pointer and the registers they do not name. -/
theorem C61_rsa : ∀ e ∈ keepRsa, e.Keeps :=
  keep_all [Keep.bignumEmontredc8nAnn, Keep.bignumKmul1632Ann, Keep.bignumKsqr1632Ann, Keep.bignumMontifierAnn, Keep.bignumModinvAnn, Keep.bignumCoprimeAnn] (by decide +kernel)

/-- The routines for the field of P-256. -/
def keepP256 : List KeepProg := [
  ⟨Asm.bignumAddP256, Asm.bignumAddP256Regs, []⟩,
  ⟨Asm.bignumNegP256, Asm.bignumNegP256Regs, []⟩,
  ⟨Asm.bignumModN256, Asm.bignumModN256Regs, []⟩,
  ⟨Asm.bignumDemontP256, Asm.bignumDemontP256Regs, [-8#64]⟩,
  ⟨Asm.bignumTomontP256, Asm.bignumTomontP256Regs, []⟩,
  ⟨Asm.bignumMontmulP256, Asm.bignumMontmulP256Regs, [-8#64]⟩,
  ⟨Asm.bignumMontsqrP256, Asm.bignumMontsqrP256Regs, [-16#64, -8#64]⟩,
  ⟨Asm.bignumInvP256, Asm.bignumInvP256Regs, [-16#64, -8#64]⟩]
/-- They keep the stack pointer and the registers they do not name. -/
theorem C61_p256 : ∀ e ∈ keepP256, e.Keeps :=
  keep_all [Keep.bignumAddP256Ann, Keep.bignumNegP256Ann, Keep.bignumModN256Ann, Keep.bignumDemontP256Ann, Keep.bignumTomontP256Ann, Keep.bignumMontmulP256Ann, Keep.bignumMontsqrP256Ann, Keep.bignumInvP256Ann] (by decide +kernel)

/-- The routines for the field of P-384. -/
def keepP384 : List KeepProg := [
  ⟨Asm.bignumAddP384, Asm.bignumAddP384Regs, []⟩,
  ⟨Asm.bignumNegP384, Asm.bignumNegP384Regs, []⟩,
  ⟨Asm.bignumModN384, Asm.bignumModN384Regs, []⟩,
  ⟨Asm.bignumDemontP384, Asm.bignumDemontP384Regs, []⟩,
  ⟨Asm.bignumTomontP384, Asm.bignumTomontP384Regs, [-8#64]⟩,
  ⟨Asm.bignumMontmulP384, Asm.bignumMontmulP384Regs, [-16#64, -8#64]⟩,
  ⟨Asm.bignumMontsqrP384, Asm.bignumMontsqrP384Regs, [-16#64, -8#64]⟩,
  ⟨Asm.bignumInvP384, Asm.bignumInvP384Regs, [-16#64, -8#64]⟩]
/-- They keep the stack pointer and the registers they do not name. -/
theorem C61_p384 : ∀ e ∈ keepP384, e.Keeps :=
  keep_all [Keep.bignumAddP384Ann, Keep.bignumNegP384Ann, Keep.bignumModN384Ann, Keep.bignumDemontP384Ann, Keep.bignumTomontP384Ann, Keep.bignumMontmulP384Ann, Keep.bignumMontsqrP384Ann, Keep.bignumInvP384Ann] (by decide +kernel)

/-- The routines for points of P-256. -/
def keepP256Point : List KeepProg := [
  ⟨Asm.p256Montjadd, Asm.p256MontjaddRegs, [-16#64, -8#64]⟩,
  ⟨Asm.p256Montjdouble, Asm.p256MontjdoubleRegs, [-16#64, -8#64]⟩,
  ⟨Asm.p256Montjmixadd, Asm.p256MontjmixaddRegs, [-16#64, -8#64]⟩]
/-- They keep the stack pointer and the registers they do not name. -/
theorem C61_p256_point : ∀ e ∈ keepP256Point, e.Keeps :=
  keep_all [Keep.p256MontjaddAnn, Keep.p256MontjdoubleAnn, Keep.p256MontjmixaddAnn] (by decide +kernel)

/-- The routines for points of P-384. -/
def keepP384Point : List KeepProg := [
  ⟨Asm.p384Montjadd, Asm.p384MontjaddRegs, [-16#64, -8#64]⟩,
  ⟨Asm.p384Montjdouble, Asm.p384MontjdoubleRegs, [-16#64, -8#64]⟩]
/-- They keep the stack pointer and the registers they do not name. -/
theorem C61_p384_point : ∀ e ∈ keepP384Point, e.Keeps :=
  keep_all [Keep.p384MontjaddAnn, Keep.p384MontjdoubleAnn] (by decide +kernel)

/-- The routines for the scalars of edwards25519. -/
def keepN25519 : List KeepProg := [
  ⟨Asm.bignumNegP25519, Asm.bignumNegP25519Regs, []⟩,
  ⟨Asm.bignumModN25519, Asm.bignumModN25519Regs, [-16#64, -8#64]⟩,
  ⟨Asm.bignumMaddN25519, Asm.bignumMaddN25519Regs, [-16#64, -8#64]⟩]
/-- They keep the stack pointer and the registers they do not name. -/
theorem C61_n25519 : ∀ e ∈ keepN25519, e.Keeps :=
  keep_all [Keep.bignumNegP25519Ann, Keep.bignumModN25519Ann, Keep.bignumMaddN25519Ann] (by decide +kernel)

/-- The routines for X25519. -/
def keepX25519 : List KeepProg := [
  ⟨Asm.curve25519X25519, Asm.curve25519X25519Regs, [-16#64, -8#64]⟩,
  ⟨Asm.curve25519X25519base, Asm.curve25519X25519baseRegs, [-16#64, -8#64]⟩]
/-- They keep the stack pointer and the registers they do not name. -/
theorem C61_x25519 : ∀ e ∈ keepX25519, e.Keeps :=
  keep_all [Keep.curve25519X25519Ann, Keep.curve25519X25519baseAnn] (by decide +kernel)

/-- The routines for the base point of edwards25519. -/
def keepEd25519 : List KeepProg := [
  ⟨Asm.edwards25519Scalarmulbase, Asm.edwards25519ScalarmulbaseRegs, [-16#64, -8#64]⟩]
/-- They keep the stack pointer and the registers they do not name. -/
theorem C61_ed25519 : ∀ e ∈ keepEd25519, e.Keeps :=
  keep_all [Keep.edwards25519ScalarmulbaseAnn] (by decide +kernel)

/-- The routines for Keccak. -/
def keepKeccak : List KeepProg := [
  ⟨Asm.sha3KeccakF1600, Asm.sha3KeccakF1600Regs, [-16#64, -8#64]⟩]
/-- They keep the stack pointer and the registers they do not name. -/
theorem C61_keccak : ∀ e ∈ keepKeccak, e.Keeps :=
  keep_all [Keep.sha3KeccakF1600Ann] (by decide +kernel)

/-! A run of `bignum_emontredc_8n` on eight words, with 5 in `rbx` and `rbp`. -/

example : ∃ s', run Asm.bignumEmontredc8n 1000 0 (ctSt8 3#64 5#64) = some s' ∧ s'.rsp = 0x8000#64 ∧ s'.rbx = 5#64 ∧
    s'.rbp = 5#64 := by
  have hc : Clear [-16#64, -8#64] 0x8000#64 Asm.bignumEmontredc8n 1000 0 (ctSt8 3#64 5#64) := clear_of (by decide +kernel)
  have hs : (run Asm.bignumEmontredc8n 1000 0 (ctSt8 3#64 5#64)).isSome = true := by decide +kernel
  obtain ⟨s', h⟩ := Option.isSome_iff_exists.mp hs
  have k := C61_rsa _ List.mem_cons_self 1000 _ s' hc h
  exact ⟨s', h, k.1, k.2 .rbx (by decide), k.2 .rbp (by decide)⟩

end Verif.Props
