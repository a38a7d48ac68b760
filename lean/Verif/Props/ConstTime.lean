import Verif.Model.AsmX86.Words
import Verif.Model.AsmX86.Mont
import Verif.Model.AsmX86.Rsa
import Verif.Model.AsmX86.P256
import Verif.Model.AsmX86.P384
import Verif.Model.AsmX86.P256Point
import Verif.Model.AsmX86.P384Add
import Verif.Model.AsmX86.P384Double
import Verif.Model.AsmX86.N25519
import Verif.Model.AsmX86.X25519
import Verif.Model.AsmX86.X25519Base
import Verif.Model.AsmX86.Ed25519Base
import Verif.Model.AsmX86.Keccak
import Verif.Proof.X86.CtData

/-!
C55 for the scalar x86-64 machine code.  A program is given with the registers that hold public values at its start (pointers,
lengths, the stack pointer; `bignum_shr_small`'s count; the shape of a table); all other registers and all of memory are secret.

`ConstTime`: two runs from states that agree on what is public execute the same instructions in the same order and touch the
same addresses, for as long as they run.  The third part of an entry lists words of the stack frame, relative to the stack
pointer, in which the program keeps public values; it is assumed that the program does not write them through a pointer (the
slices it is given are not in its frame).
-/
namespace Verif.Props
open Verif Verif.X86

/-- A program with its public registers and the words of its frame that hold public values. -/
structure CtProg where
  prog : Prog
  pub : List Reg
  frame : List Word

/-- The trace does not depend on secrets. -/
def CtProg.ConstTime (e : CtProg) : Prop :=
  ∀ (fuel : Nat) (s t : St), Agree e.pub s t → Clear e.frame s.rsp e.prog fuel 0 s →
    trace e.prog fuel 0 s = trace e.prog fuel 0 t

theorem ct_all {l : List CtProg} (as : List (List (Nat × Ab)))
    (h : (as.length == l.length && (l.zip as).all fun x => x.1.pub.contains .rsp &&
      flow x.1.frame x.2 x.1.prog.length x.1.prog 0 (some (.start x.1.pub))) = true) : ∀ e ∈ l, e.ConstTime := by
  intro e he fuel s t ha hc
  rw [Bool.and_eq_true, List.all_eq_true] at h
  obtain ⟨h1, h2⟩ := h
  have h1 : as.length = l.length := by simpa using h1
  obtain ⟨i, hi, rfl⟩ := List.getElem_of_mem he
  have hz : i < (l.zip as).length := by rw [List.length_zip]; omega
  have := h2 _ (List.getElem_mem hz)
  rw [List.getElem_zip, Bool.and_eq_true] at this
  exact ct_sound (by simpa using this.1) this.2 fuel s t ha hc

/-- Without such words there is nothing to assume. -/
theorem clear_nil (b : Word) (P : Prog) : ∀ (f pc : Nat) (s : St), Clear [] b P f pc s := by
  intro f
  induction f with
  | zero => intros; trivial
  | succ f ih =>
    intro pc s
    rw [Clear]
    split
    · trivial
    · refine ⟨by simp, ?_⟩
      split
      · trivial
      · exact ih _ _

/-- The word-array routines. -/
def ctWords : List CtProg := [
  ⟨Asm.bignumMux, [.rsi, .rdx, .rcx, .r8, .rsp], []⟩,
  ⟨Asm.bignumEq, [.rdi, .rsi, .rdx, .rcx, .rsp], []⟩,
  ⟨Asm.bignumCmpLt, [.rdi, .rsi, .rdx, .rcx, .rsp], []⟩,
  ⟨Asm.bignumDigitsize, [.rdi, .rsi, .rsp], []⟩,
  ⟨Asm.bignumBitsize, [.rdi, .rsi, .rsp], []⟩,
  ⟨Asm.bignumCtz, [.rdi, .rsi, .rsp], []⟩,
  ⟨Asm.bignumAdd, [.rdi, .rsi, .rdx, .rcx, .r8, .r9, .rsp], []⟩,
  ⟨Asm.bignumModadd, [.rdi, .rsi, .rdx, .rcx, .r8, .rsp], []⟩,
  ⟨Asm.bignumModsub, [.rdi, .rsi, .rdx, .rcx, .r8, .rsp], []⟩,
  ⟨Asm.bignumOptsub, [.rdi, .rsi, .rdx, .r8, .rsp], []⟩,
  ⟨Asm.bignumShrSmall, [.rdi, .rsi, .rdx, .rcx, .r8, .rsp], []⟩,
  ⟨Asm.bignumCopyRowFromTable, [.rdi, .rsi, .rdx, .rcx, .rsp], []⟩]

/-- No branch and no address of the word-array routines depends on a secret. -/
theorem C55_x86_words : ∀ e ∈ ctWords, e.ConstTime :=
  ct_all [Ct.bignumMuxAnn, Ct.bignumEqAnn, Ct.bignumCmpLtAnn, Ct.bignumDigitsizeAnn, Ct.bignumBitsizeAnn, Ct.bignumCtzAnn, Ct.bignumAddAnn, Ct.bignumModaddAnn, Ct.bignumModsubAnn, Ct.bignumOptsubAnn, Ct.bignumShrSmallAnn, Ct.bignumCopyRowFromTableAnn] (by decide +kernel)

/-- Multiplication and Montgomery arithmetic of any length. -/
def ctMont : List CtProg := [
  ⟨Asm.bignumNegmodinv, [.rdi, .rsi, .rdx, .rsp], []⟩,
  ⟨Asm.bignumMul, [.rdi, .rsi, .rdx, .rcx, .r8, .r9, .rsp], []⟩,
  ⟨Asm.bignumDemont, [.rdi, .rsi, .rdx, .rcx, .rsp], []⟩,
  ⟨Asm.bignumMontmul, [.rdi, .rsi, .rdx, .rcx, .r8, .rsp], []⟩,
  ⟨Asm.bignumMontsqr, [.rdi, .rsi, .rdx, .rcx, .rsp], []⟩,
  ⟨Asm.bignumMontredc, [.rdi, .rsi, .rdx, .rcx, .r8, .r9, .rsp], []⟩]

/-- No branch and no address of multiplication and Montgomery arithmetic of any length depends on a secret. -/
theorem C55_x86_mont : ∀ e ∈ ctMont, e.ConstTime :=
  ct_all [Ct.bignumNegmodinvAnn, Ct.bignumMulAnn, Ct.bignumDemontAnn, Ct.bignumMontmulAnn, Ct.bignumMontsqrAnn, Ct.bignumMontredcAnn] (by decide +kernel)

/-- The fixed-size and other routines that RSA uses. -/
def ctRsa : List CtProg := [
  ⟨Asm.bignumEmontredc8n, [.rdi, .rsi, .rdx, .rsp], [-72#64, -64#64, -56#64]⟩,
  ⟨Asm.bignumKmul1632, [.rdi, .rsi, .rdx, .rcx, .rsp], []⟩,
  ⟨Asm.bignumKsqr1632, [.rdi, .rsi, .rdx, .rsp], []⟩,
  ⟨Asm.bignumMontifier, [.rdi, .rsi, .rdx, .rcx, .rsp], []⟩,
  ⟨Asm.bignumModinv, [.rdi, .rsi, .rdx, .rcx, .r8, .rsp], [-120#64, -112#64, -96#64, -80#64, -72#64, -64#64, -56#64]⟩,
  ⟨Asm.bignumCoprime, [.rdi, .rsi, .rdx, .rcx, .r8, .rsp], [-96#64, -88#64, -80#64, -72#64, -64#64]⟩]

/-- No branch and no address of the fixed-size and other routines that RSA uses depends on a secret. -/
theorem C55_x86_rsa : ∀ e ∈ ctRsa, e.ConstTime :=
  ct_all [Ct.bignumEmontredc8nAnn, Ct.bignumKmul1632Ann, Ct.bignumKsqr1632Ann, Ct.bignumMontifierAnn, Ct.bignumModinvAnn, Ct.bignumCoprimeAnn] (by decide +kernel)

/-- Field and scalar arithmetic of P-256. -/
def ctP256 : List CtProg := [
  ⟨Asm.bignumAddP256, [.rdi, .rsi, .rdx, .rsp], []⟩,
  ⟨Asm.bignumNegP256, [.rdi, .rsi, .rsp], []⟩,
  ⟨Asm.bignumModN256, [.rdi, .rsi, .rsp], []⟩,
  ⟨Asm.bignumDemontP256, [.rdi, .rsi, .rsp], []⟩,
  ⟨Asm.bignumTomontP256, [.rdi, .rsi, .rsp], []⟩,
  ⟨Asm.bignumMontmulP256, [.rdi, .rsi, .rdx, .rsp], []⟩,
  ⟨Asm.bignumMontsqrP256, [.rdi, .rsi, .rsp], []⟩,
  ⟨Asm.bignumInvP256, [.rdi, .rsi, .rsp], [-112#64, -64#64]⟩]

/-- No branch and no address of field and scalar arithmetic of P-256 depends on a secret. -/
theorem C55_x86_p256 : ∀ e ∈ ctP256, e.ConstTime :=
  ct_all [Ct.bignumAddP256Ann, Ct.bignumNegP256Ann, Ct.bignumModN256Ann, Ct.bignumDemontP256Ann, Ct.bignumTomontP256Ann, Ct.bignumMontmulP256Ann, Ct.bignumMontsqrP256Ann, Ct.bignumInvP256Ann] (by decide +kernel)

/-- Field and scalar arithmetic of P-384. -/
def ctP384 : List CtProg := [
  ⟨Asm.bignumAddP384, [.rdi, .rsi, .rdx, .rsp], []⟩,
  ⟨Asm.bignumNegP384, [.rdi, .rsi, .rsp], []⟩,
  ⟨Asm.bignumModN384, [.rdi, .rsi, .rsp], []⟩,
  ⟨Asm.bignumDemontP384, [.rdi, .rsi, .rsp], []⟩,
  ⟨Asm.bignumTomontP384, [.rdi, .rsi, .rsp], []⟩,
  ⟨Asm.bignumMontmulP384, [.rdi, .rsi, .rdx, .rsp], []⟩,
  ⟨Asm.bignumMontsqrP384, [.rdi, .rsi, .rsp], []⟩,
  ⟨Asm.bignumInvP384, [.rdi, .rsi, .rsp], [-112#64, -64#64]⟩]

/-- No branch and no address of field and scalar arithmetic of P-384 depends on a secret. -/
theorem C55_x86_p384 : ∀ e ∈ ctP384, e.ConstTime :=
  ct_all [Ct.bignumAddP384Ann, Ct.bignumNegP384Ann, Ct.bignumModN384Ann, Ct.bignumDemontP384Ann, Ct.bignumTomontP384Ann, Ct.bignumMontmulP384Ann, Ct.bignumMontsqrP384Ann, Ct.bignumInvP384Ann] (by decide +kernel)

/-- Point operations of P-256. -/
def ctP256Point : List CtProg := [
  ⟨Asm.p256Montjadd, [.rdi, .rsi, .rdx, .rsp], []⟩,
  ⟨Asm.p256Montjdouble, [.rdi, .rsi, .rsp], []⟩,
  ⟨Asm.p256Montjmixadd, [.rdi, .rsi, .rdx, .rsp], []⟩]

/-- No branch and no address of point operations of P-256 depends on a secret. -/
theorem C55_x86_p256_point : ∀ e ∈ ctP256Point, e.ConstTime :=
  ct_all [Ct.p256MontjaddAnn, Ct.p256MontjdoubleAnn, Ct.p256MontjmixaddAnn] (by decide +kernel)

/-- Point operations of P-384. -/
def ctP384Point : List CtProg := [
  ⟨Asm.p384Montjadd, [.rdi, .rsi, .rdx, .rsp], [-64#64, -56#64]⟩,
  ⟨Asm.p384Montjdouble, [.rdi, .rsi, .rsp], [-56#64]⟩]

/-- No branch and no address of point operations of P-384 depends on a secret. -/
theorem C55_x86_p384_point : ∀ e ∈ ctP384Point, e.ConstTime :=
  ct_all [Ct.p384MontjaddAnn, Ct.p384MontjdoubleAnn] (by decide +kernel)

/-- Field and scalar arithmetic of edwards25519. -/
def ctN25519 : List CtProg := [
  ⟨Asm.bignumNegP25519, [.rdi, .rsi, .rsp], []⟩,
  ⟨Asm.bignumModN25519, [.rdi, .rsi, .rdx, .rsp], []⟩,
  ⟨Asm.bignumMaddN25519, [.rdi, .rsi, .rdx, .rcx, .rsp], []⟩]

/-- No branch and no address of field and scalar arithmetic of edwards25519 depends on a secret. -/
theorem C55_x86_n25519 : ∀ e ∈ ctN25519, e.ConstTime :=
  ct_all [Ct.bignumNegP25519Ann, Ct.bignumModN25519Ann, Ct.bignumMaddN25519Ann] (by decide +kernel)

/-- X25519 and its multiplication of the base point. -/
def ctX25519 : List CtProg := [
  ⟨Asm.curve25519X25519, [.rdi, .rsi, .rdx, .rsp], [-320#64, -272#64, -80#64, -72#64]⟩,
  ⟨Asm.curve25519X25519base, [.rdi, .rsi, .rsp], [-392#64, -344#64, -88#64, -80#64, -56#64]⟩]

/-- No branch and no address of X25519 and its multiplication of the base point depends on a secret. -/
theorem C55_x86_x25519 : ∀ e ∈ ctX25519, e.ConstTime :=
  ct_all [Ct.curve25519X25519Ann, Ct.curve25519X25519baseAnn] (by decide +kernel)

/-- Multiplication of the base point of edwards25519. -/
def ctEd25519 : List CtProg := [
  ⟨Asm.edwards25519Scalarmulbase, [.rdi, .rsi, .rsp], [-392#64, -344#64, -88#64, -80#64, -56#64]⟩]

/-- No branch and no address of multiplication of the base point of edwards25519 depends on a secret. -/
theorem C55_x86_ed25519 : ∀ e ∈ ctEd25519, e.ConstTime :=
  ct_all [Ct.edwards25519ScalarmulbaseAnn] (by decide +kernel)

/-- The Keccak permutation. -/
def ctKeccak : List CtProg := [
  ⟨Asm.sha3KeccakF1600, [.rdi, .rsi, .rsp], [-56#64]⟩]

/-- No branch and no address of the Keccak permutation depends on a secret. -/
theorem C55_x86_keccak : ∀ e ∈ ctKeccak, e.ConstTime :=
  ct_all [Ct.sha3KeccakF1600Ann] (by decide +kernel)

/-! Two states with different secrets for `bignum_mux`: another choice, another memory. -/

/-- Registers of a call with slices of two words at 0x1000, 0x2000 and 0x3000. -/
def ctSt (choice : Word) (fill : Word) : St where
  rax := fill
  rbx := fill
  rcx := 0x2000#64
  rdx := 0x1000#64
  rsi := 2#64
  rdi := choice
  rbp := fill
  rsp := 0x8000#64
  r8 := 0x3000#64
  r9 := fill
  r10 := fill
  r11 := fill
  r12 := fill
  r13 := fill
  r14 := fill
  r15 := fill
  cf := none
  zf := none
  sf := none
  of := none
  mem := fun a => if a.toNat % 8 = 0 ∧ 0x1000 ≤ a.toNat ∧ a.toNat < 0x8000 then some (fill + a) else none
  wr := fun a => decide (a.toNat % 8 = 0 ∧ (0x1000 ≤ a.toNat ∧ a.toNat < 0x2000 ∨ 0x7000 ≤ a.toNat ∧ a.toNat < 0x8000))
  junk := fill
  sym := fun _ => 0#64

theorem ctSt_agree {pub : List Reg} (c d f g : Word)
    (h : ∀ r ∈ pub, r ∈ [Reg.rcx, .rdx, .rsi, .rsp, .r8]) : Agree pub (ctSt c f) (ctSt d g) := by
  constructor
  · intro r hr
    have := h r hr
    simp only [List.mem_cons, List.not_mem_nil, or_false] at this
    rcases this with rfl | rfl | rfl | rfl | rfl <;> rfl
  · intro a
    show (if _ then some (f + a) else none).isSome = (if _ then some (g + a) else none).isSome
    split <;> rfl
  all_goals rfl

example : trace Asm.bignumMux 100 0 (ctSt 0#64 5#64) = trace Asm.bignumMux 100 0 (ctSt 1#64 77#64) :=
  C55_x86_words _ (List.mem_cons_self) 100 _ _ (ctSt_agree _ _ _ _ (by decide)) (clear_nil _ _ _ _ _)
example : (trace Asm.bignumMux 100 0 (ctSt 0#64 5#64)).length = 19 := by decide +kernel

/-- Whether `Clear` holds, computed. -/
def clearB (frame : List Word) (b : Word) (P : Prog) : Nat → Nat → St → Bool
  | 0, _, _ => true
  | f + 1, pc, s =>
    match P[pc]? with
    | none => true
    | some i => ((i.blind s).all fun a => frame.all fun o => a != b + o) &&
      match i.exec pc s with
      | none => true
      | some (pc', s') => clearB frame b P f pc' s'

theorem clear_of {frame : List Word} {b : Word} {P : Prog} : ∀ {f pc : Nat} {s : St}, clearB frame b P f pc s = true →
    Clear frame b P f pc s := by
  intro f
  induction f with
  | zero => intros; trivial
  | succ f ih =>
    intro pc s h
    rw [clearB] at h
    rw [Clear]
    split at h
    · simp [*]
    · rename_i i hi
      rw [Bool.and_eq_true] at h
      rw [hi]
      dsimp only
      refine ⟨fun a ha o ho => ?_, ?_⟩
      · have := List.all_eq_true.mp (List.all_eq_true.mp h.1 a ha) o ho
        simpa using this
      · have h2 := h.2
        cases he : i.exec pc s with
        | none => trivial
        | some x =>
          rw [he] at h2
          exact ih h2

/-! `bignum_emontredc_8n` keeps a length and two pointers in its frame.  A run on eight words, with two different memories. -/

/-- Registers of a call: eight words of modulus at 0x2000, sixteen words at 0x1000. -/
def ctSt8 (w fill : Word) : St := { ctSt w fill with rdi := 8#64, rsi := 0x1000#64, rdx := 0x2000#64, rcx := w }

example : trace Asm.bignumEmontredc8n 600 0 (ctSt8 3#64 5#64) = trace Asm.bignumEmontredc8n 600 0 (ctSt8 9#64 77#64) := by
  refine C55_x86_rsa _ (List.mem_cons_self) 600 _ _ ?_ (clear_of (by decide +kernel))
  constructor
  · intro r hr
    simp only [List.mem_cons, List.not_mem_nil, or_false] at hr
    rcases hr with rfl | rfl | rfl | rfl <;> rfl
  · intro a
    show (if _ then some (5#64 + a) else none).isSome = (if _ then some (77#64 + a) else none).isSome
    split <;> rfl
  all_goals rfl
example : ((trace Asm.bignumEmontredc8n 600 0 (ctSt8 3#64 5#64)).getLast?.map Prod.fst) = some 531 := by decide +kernel

end Verif.Props
