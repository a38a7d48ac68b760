import Verif.Model.X86Leak
import Verif.Model.X86Vec

/-!
What an observer of the machine with vectors (`Model/X86Vec.lean`) sees, as `Model/X86Leak.lean` for the scalar machine: for each instruction executed
its position, and the addresses of memory it reads or writes with the number of bytes.
-/
namespace Verif.X86

/-- The addresses a vector operand touches. -/
def VOpd.addrs (t : VSt) : VOpd → List (Word × Nat)
  | .y _ => []
  | .m a => [(t.s.ea a, 32)]

/-- The addresses an instruction touches. -/
def VInstr.addrs (t : VSt) : VInstr → List (Word × Nat)
  | .sc i => (i.addrs t.s).map fun a => (a, 8)
  | .st m _ | .stA m _ => [(t.s.ea m, 32)]
  | .pbroadcastq _ m | .movqLd _ m | .movqSt m _ | .movhpdSt m _ | .pinsrq _ _ m _ => [(t.s.ea m, 8)]
  | .mov _ x | .movA _ x | .movsldup _ x | .permq _ x _ => x.addrs t
  | .pxor _ _ x | .por _ _ x | .pandn _ _ x | .pshufb _ _ x | .punpcklqdq _ _ x | .punpckhqdq _ _ x | .perm2i128 _ _ x _ | .pand _ _ x
  | .paddw _ _ x | .psubw _ _ x | .pmullw _ _ x | .pmulhw _ _ x | .pblendw _ _ x _ | .pblendd _ _ x _ | .permd _ _ x => x.addrs t
  | .psrlq _ _ _ | .psllq _ _ _ | .inserti128 _ _ _ _ | .extracti128 _ _ _ | .vmovd _ _ | .movd _ _ | .pbroadcastd _ _ | .psraw _ _ _
  | .psrlw _ _ _ | .psllw _ _ _ | .psrld _ _ _ | .pslld _ _ _ => []

/-- What is observed of the first `fuel` instructions from position `pc`. -/
def vtrace (P : VProg) : Nat → Nat → VSt → List (Nat × List (Word × Nat))
  | 0, _, _ => []
  | f + 1, pc, t =>
    match P[pc]? with
    | none => []
    | some i => (pc, i.addrs t) ::
      match i.exec pc t with
      | none => []
      | some (pc', t') => vtrace P f pc' t'

end Verif.X86
