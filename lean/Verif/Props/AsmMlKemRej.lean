import Verif.Proof.X86.RejLoop
import Verif.Props.AsmMlKem
import Verif.Props.MlKem

/-!
C65: `Asm.mlkemRejUniformVartime` is the `asm!` block of `low/x86_64/mlkem_rej_uniform_vartime.rs`, which picks the
numbers below `q` out of a stream of bytes.  Memory is made of bytes here (`Model/X86Byte`, `Spec/AsmBytes`); `rejTable` is `MLKEM_REJ_UNIFORM_TABLE`, and
`accepted` is the loop of SampleNTT of FIPS 203.
-/
namespace Verif.Props
open Verif Verif.X86 Verif.MlKem Verif.MlKem.X86 Verif.Spec.MlKem

/-- On any byte string of a length that is a multiple of 12 the code ends, returns how many numbers SampleNTT accepts (at most 256), leaves
these numbers in order at `rdi`, and changes no byte other than those and 528 below the stack pointer, and no register that the `asm!` block
does not declare.  Neither the output nor the stack need hold anything before, and the output may lie anywhere but in these 528 bytes. -/
theorem C65_rej (t : BSt) (B : Bytes) (hl : 12 ∣ B.length ∧ B.length < 2 ^ 63) (hdx : t.s.rdx = BitVec.ofNat 64 B.length)
    (hbuf : HoldsB t.bm t.s.rsi B) (htab : HoldsB t.bm t.s.rcx rejTable)
    (hout : ∀ i < 512, t.bw (badr t.s.rdi i) = true) (hstk : ∀ i < 528, t.bw (badr (t.s.rsp - 528#64) i) = true)
    (h1 : ApartB (t.s.rsp - 528#64) 528 t.s.rsi B.length) (h2 : ApartB (t.s.rsp - 528#64) 528 t.s.rcx 4096)
    (h3 : ApartB (t.s.rsp - 528#64) 528 t.s.rdi 512) :
    BRuns Asm.mlkemRejUniformVartime t fun t' =>
      t'.s.rax = BitVec.ofNat 64 ((accepted B).take 256).length ∧ HoldsB t'.bm t.s.rdi (bytes16 ((accepted B).take 256)) ∧
        (∀ a, ¬ InB t.s.rdi (2 * ((accepted B).take 256).length) a → ¬ InB (t.s.rsp - 528#64) 528 a → t'.bm a = t.bm a) ∧
        ∀ r, r ∉ Asm.mlkemRejUniformVartimeRegs → t'.s.get r = t.s.get r :=
  Rej.run_ok ⟨hl, hdx, hbuf, htab, hout, hstk, h1, h2, h3⟩

/-- With this sampler the ten routines are all that the theorems about ML-KEM (C41 to C46) assume of the assembly. -/
theorem C65_contract : Contract (x86Asm fun B => ints ((accepted B).take 256)) sigma := C64_contract_partial _ fun _ _ => rfl

/-- The routines of x86_64. -/
def x86Routines : MlKem.Asm := x86Asm fun B => ints ((accepted B).take 256)

/-- So key generation on x86_64 is that of FIPS 203, with nothing assumed of the assembly. -/
theorem C65_keygen (Gu : Sha3.Lanes → Sha3.Lanes) (fuel : Nat) (d z : Bytes) (hd : d.length = 32) (hz : z.length = 32) :
    (keygenInternal x86Routines Gu fuel (d ++ z)).map (fun dk => (encapAsBytes dk.ekPke, decapAsBytes dk)) =
      Spec.MlKem.keyGenInternal (168 * (3 + fuel)) d z ∧
    ∀ dk, keygenInternal x86Routines Gu fuel (d ++ z) = some dk → ValidDk x86Routines fuel dk := C43_keygen C65_contract Gu fuel d z hd hz

/-- So is encapsulation. -/
theorem C65_encaps (Gu : Sha3.Lanes → Sha3.Lanes) (fuel : Nat) (ek : EncapKey) (hv : Valid x86Routines fuel ek) (m : Bytes) (hm : m.length = 32) :
    ∃ r, MlKem.encapsInternal x86Routines Gu ek m = some r ∧ Spec.MlKem.encapsInternal (168 * (3 + fuel)) (encapAsBytes ek) m = some r :=
  C43_encaps C65_contract Gu fuel ek hv m hm

/-- And decapsulation. -/
theorem C65_decaps (Gu : Sha3.Lanes → Sha3.Lanes) (fuel : Nat) (dk : DecapKey) (hv : ValidDk x86Routines fuel dk) (c : Bytes)
    (hc : c.length = 1088) :
    MlKem.decapsInternal x86Routines Gu dk c = Spec.MlKem.decapsInternal (168 * (3 + fuel)) (decapAsBytes dk) c :=
  C43_decaps_spec C65_contract Gu fuel dk hv c hc

/-- Keys from key generation are such keys, so the three join. -/
example (Gu : Sha3.Lanes → Sha3.Lanes) (fuel : Nat) (dk : DecapKey)
    (h : keygenInternal x86Routines Gu fuel (List.replicate 32 7#8 ++ List.replicate 32 9#8) = some dk) (c : Bytes) (hc : c.length = 1088) :=
  C65_decaps Gu fuel dk ((C65_keygen Gu fuel (List.replicate 32 7#8) (List.replicate 32 9#8) List.length_replicate List.length_replicate).2 dk h) c hc

/-! ### A state in which the hypotheses hold -/

/-- 504 bytes, as for one call of `rej_uniform`. -/
def rejB : Bytes := (List.range 504).map fun i => BitVec.ofNat 8 (i * i + 7 * i)

/-- The output at 0x1000, the bytes at 0x2000, the table at 0x4000, the stack below 0x8210. -/
def rejSt : BSt where
  s := { wSt with rdi := 0x1000#64, rsi := 0x2000#64, rdx := 504#64, rcx := 0x4000#64, rsp := 0x8210#64 }
  bm a := if a.toNat < 0x4000 then rejB[a.toNat - 0x2000]? else rejTable[a.toNat - 0x4000]?
  bw a := a.toNat < 0x2000 || 0x8000 ≤ a.toNat
  x _ _ := 0x5a#8

theorem rej_badr {p i : Nat} (hp : p < 2 ^ 32) (hi : i < 2 ^ 32) : (badr (BitVec.ofNat 64 p) i).toNat = p + i := by
  unfold badr
  rw [BitVec.toNat_add, BitVec.toNat_ofNat, BitVec.toNat_ofNat]
  omega

theorem rej_apart {p m q n : Nat} (hp : p < 2 ^ 32) (hm : m < 2 ^ 31) (hq : q < 2 ^ 32) (hn : n < 2 ^ 31) (h : p + m ≤ q ∨ q + n ≤ p) :
    ApartB (BitVec.ofNat 64 p) m (BitVec.ofNat 64 q) n := fun i hi j hj e => by
  have := congrArg BitVec.toNat e
  rw [rej_badr hp (by omega), rej_badr hq (by omega)] at this
  omega

theorem rejTable_len : rejTable.length = 4096 := by decide +kernel
theorem rejB_len : rejB.length = 504 := by rw [rejB, List.length_map, List.length_range]

example := C65_rej rejSt rejB (by rw [rejB_len]; decide) (by rw [rejB_len]; rfl)
  (fun i h => by
    rw [rejB_len] at h
    show (if (badr (BitVec.ofNat 64 0x2000) i).toNat < 0x4000 then rejB[(badr (BitVec.ofNat 64 0x2000) i).toNat - 0x2000]? else _) = _
    rw [rej_badr (by decide) (by omega), if_pos (by omega), Nat.add_sub_cancel_left, List.getElem?_eq_getElem])
  (fun i h => by
    rw [rejTable_len] at h
    show (if (badr (BitVec.ofNat 64 0x4000) i).toNat < 0x4000 then _ else rejTable[(badr (BitVec.ofNat 64 0x4000) i).toNat - 0x4000]?) = _
    rw [rej_badr (by decide) (by omega), if_neg (by omega), Nat.add_sub_cancel_left, List.getElem?_eq_getElem])
  (fun i h => by
    show (decide ((badr (BitVec.ofNat 64 0x1000) i).toNat < 0x2000) || _) = true
    rw [rej_badr (by decide) (by omega), decide_eq_true (by omega), Bool.true_or])
  (fun i h => by
    show (decide ((badr (BitVec.ofNat 64 0x8000) i).toNat < 0x2000) || decide (0x8000 ≤ (badr (BitVec.ofNat 64 0x8000) i).toNat)) = true
    rw [rej_badr (by decide) (by omega), Bool.or_eq_true, decide_eq_true_iff, decide_eq_true_iff]
    omega)
  (rej_apart (p := 0x8000) (q := 0x2000) (by decide) (by decide) (by decide) (by rw [rejB_len]; decide) (by rw [rejB_len]; decide))
  (rej_apart (p := 0x8000) (q := 0x4000) (by decide) (by decide) (by decide) (by decide) (by decide))
  (rej_apart (p := 0x8000) (q := 0x1000) (by decide) (by decide) (by decide) (by decide) (by decide))

end Verif.Props
