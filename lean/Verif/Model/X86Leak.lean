import Verif.Model.X86

/-!
What an observer of the machine of `Model/X86.lean` sees: for each instruction executed its position, and the addresses of
memory it reads or writes.  This is the usual model of constant-time code: no branch and no address depends on a secret.  That
the time of an instruction does not depend on the values of its operands is outside the model (no division occurs).
-/
namespace Verif.X86
open Verif

/-- The addresses an operand touches. -/
def Opd.addrs (s : St) : Opd → List Word
  | .mem m => [s.ea m]
  | _ => []

/-- The addresses an instruction touches. -/
def Instr.addrs (s : St) : Instr → List Word
  | .nop | .mov32 _ _ | .lea _ _ | .jmp _ | .jcc _ _ | .btr _ _ | .bts _ _ | .btc _ _ | .adc32 _ _ | .rol _ _ | .ror _ _
  | .xchg _ _ | .leaSym _ _ => []
  | .mov d x | .add d x | .adc d x | .sub d x | .sbb d x | .cmp d x | .and d x | .or d x | .xor d x | .test d x
  | .shl d x | .shr d x | .sar d x | .shld d _ x | .shrd d _ x => d.addrs s ++ x.addrs s
  | .not d | .neg d | .inc d | .dec d | .bt d _ => d.addrs s
  | .mul x | .imul _ x | .mulx _ _ x | .adcx _ x | .adox _ x | .bsf _ x | .bsr _ x | .cmov _ _ x | .imul3 _ x _
  | .imul1 x => x.addrs s
  | .push _ | .call _ => [s.rsp - 8#64]
  | .pop _ | .ret => [s.rsp]

/-- What is observed of the first `fuel` instructions from position `pc`. -/
def trace (P : Prog) : Nat → Nat → St → List (Nat × List Word)
  | 0, _, _ => []
  | f + 1, pc, s =>
    match P[pc]? with
    | none => []
    | some i => (pc, i.addrs s) ::
      match i.exec pc s with
      | none => []
      | some (pc', s') => trace P f pc' s'

/-- Whether a memory operand is a fixed word of the stack frame: `[rsp + disp]`. -/
def Addr.fixed (m : Addr) : Bool := m.base == some .rsp && m.idx.isNone

/-- The address written by an instruction, unless it is a fixed word of the stack frame. -/
def Instr.blind (s : St) : Instr → List Word
  | .mov (.mem m) _ | .add (.mem m) _ | .adc (.mem m) _ | .sub (.mem m) _ | .sbb (.mem m) _ | .and (.mem m) _ | .or (.mem m) _
  | .xor (.mem m) _ | .not (.mem m) | .neg (.mem m) | .inc (.mem m) | .dec (.mem m) | .shl (.mem m) _ | .shr (.mem m) _
  | .sar (.mem m) _ | .shld (.mem m) _ _ | .shrd (.mem m) _ _ => if m.fixed then [] else [s.ea m]
  | _ => []

/-- In the first `fuel` instructions no write through a pointer falls on one of the words at `b + o`, for the offsets `o` of
`frame`. -/
def Clear (frame : List Word) (b : Word) (P : Prog) : Nat → Nat → St → Prop
  | 0, _, _ => True
  | f + 1, pc, s =>
    match P[pc]? with
    | none => True
    | some i => (∀ a ∈ i.blind s, ∀ o ∈ frame, a ≠ b + o) ∧
      match i.exec pc s with
      | none => True
      | some (pc', s') => Clear frame b P f pc' s'

/-- Two states that differ in the values of memory and of registers other than those in `pub`; the same addresses are mapped
and writable, the same flags are undefined. -/
structure Agree (pub : List Reg) (s t : St) : Prop where
  regs : ∀ r ∈ pub, s.get r = t.get r
  mapped : ∀ a, (s.mem a).isSome = (t.mem a).isSome
  writable : s.wr = t.wr
  tables : s.sym = t.sym
  cf : s.cf.isSome = t.cf.isSome
  zf : s.zf.isSome = t.zf.isSome
  sf : s.sf.isSome = t.sf.isSome
  of : s.of.isSome = t.of.isSome

end Verif.X86
