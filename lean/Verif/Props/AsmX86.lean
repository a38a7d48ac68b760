import Verif.Model.Bignum
import Verif.Proof.X86.Mux
import Verif.Proof.X86.Size
import Verif.Proof.X86.Compare
import Verif.Proof.X86.Add
import Verif.Proof.X86.Mod
import Verif.Proof.X86.Shift
import Verif.Proof.X86.Row
import Verif.Proof.X86.Clobber

/-!
C60: the x86-64 machine code of the word-array functions.  `Asm.bignumX` is the `asm!` block of `bignum_x.rs`, instruction by
instruction; `Runs` says that it ends, without touching memory it may not touch and without reading a flag that is undefined.
The registers at the start are what the operands of the block say: a length as a number of words, a pointer.

`Holds mem p ws`: the words `ws` are in memory at `p`.  `Owns`: the output slice may be written.  `Apart`: a `&mut` slice does
not overlap another slice.  `OnlyAt p k`: no word of memory changed but the `k` at `p`.  A slice in memory has fewer than `2^61`
words.
-/
namespace Verif.Props
open Verif Verif.X86

/-- `bignum_mux`: copies `x` if `p` is not zero, else `y`. -/
theorem C60_mux (s : St) (x y : Words) (k : Nat) (hx : x.length = k) (hy : y.length = k) (hk : k < 2 ^ 61)
    (rk : s.rsi = BitVec.ofNat 64 k) (hX : Holds s.mem s.rcx x) (hY : Holds s.mem s.r8 y) (hZ : s.Owns s.rdx k)
    (a1 : Apart s.rdx k s.rcx k) (a2 : Apart s.rdx k s.r8 k) :
    Runs Asm.bignumMux s fun s' => Holds s'.mem s.rdx (if s.rdi = 0#64 then y else x) ∧ OnlyAt s.rdx k s.mem s'.mem :=
  mux_ok s x y k hx hy hk hX hY hZ rk a1 a2

/-- `bignum_eq`: whether the two numbers are equal, for slices of any lengths. -/
theorem C60_eq (s : St) (x y : Words) (hkx : x.length < 2 ^ 61) (hky : y.length < 2 ^ 61)
    (rm : s.rdi = BitVec.ofNat 64 x.length) (hX : Holds s.mem s.rsi x)
    (rn : s.rdx = BitVec.ofNat 64 y.length) (hY : Holds s.mem s.rcx y) :
    Runs Asm.bignumEq s fun s' => s'.rax = (if val x = val y then 1#64 else 0#64) ∧ s'.mem = s.mem := by
  obtain ⟨f, s', h1, h2, h3⟩ := eq_ok s x y hkx hky rm hX rn hY
  exact ⟨f, s', h1, by rw [h2]; simp [Bignum.eq], h3⟩

/-- `bignum_cmp_lt`: whether the first number is below the second, for slices of any lengths. -/
theorem C60_cmp_lt (s : St) (x y : Words) (hkx : x.length < 2 ^ 61) (hky : y.length < 2 ^ 61)
    (rm : s.rdi = BitVec.ofNat 64 x.length) (hX : Holds s.mem s.rsi x)
    (rn : s.rdx = BitVec.ofNat 64 y.length) (hY : Holds s.mem s.rcx y) :
    Runs Asm.bignumCmpLt s fun s' => s'.rax = (if val x < val y then 1#64 else 0#64) ∧ s'.mem = s.mem :=
  cmpLt_ok s x y hkx hky rm hX rn hY

/-- `bignum_digitsize`: the number of words up to the top one that is not zero. -/
theorem C60_digitsize (s : St) (x : Words) (hk : x.length < 2 ^ 61) (rk : s.rdi = BitVec.ofNat 64 x.length)
    (hX : Holds s.mem s.rsi x) :
    Runs Asm.bignumDigitsize s fun s' => s'.rax = BitVec.ofNat 64 (Bignum.digitsize x) ∧ s'.mem = s.mem :=
  digitsize_ok s x hk rk hX

/-- `bignum_bitsize`: the number of bits. -/
theorem C60_bitsize (s : St) (x : Words) (hk : x.length < 2 ^ 58) (rk : s.rdi = BitVec.ofNat 64 x.length)
    (hX : Holds s.mem s.rsi x) :
    Runs Asm.bignumBitsize s fun s' => s'.rax = BitVec.ofNat 64 (Bignum.bitsize x) ∧ s'.mem = s.mem :=
  bitsize_ok s x hk rk hX

/-- `bignum_ctz`: the number of trailing zero bits, and for zero the number of bits of the slice. -/
theorem C60_ctz (s : St) (x : Words) (hk : x.length < 2 ^ 58) (rk : s.rdi = BitVec.ofNat 64 x.length)
    (hX : Holds s.mem s.rsi x) :
    Runs Asm.bignumCtz s fun s' => s'.rax = BitVec.ofNat 64 (Bignum.ctz x) ∧ s'.mem = s.mem :=
  ctz_ok s x hk rk hX

/-- `bignum_add`: the sum in `p` words, and the carry, for slices of any lengths. -/
theorem C60_add (s : St) (x y : Words) (p : Nat) (hp : p < 2 ^ 61) (hkx : x.length < 2 ^ 61) (hky : y.length < 2 ^ 61)
    (rp : s.rdi = BitVec.ofNat 64 p) (hZ : s.Owns s.rsi p)
    (rm : s.rdx = BitVec.ofNat 64 x.length) (hX : Holds s.mem s.rcx x)
    (rn : s.r8 = BitVec.ofNat 64 y.length) (hY : Holds s.mem s.r9 y)
    (a1 : Apart s.rsi p s.rcx x.length) (a2 : Apart s.rsi p s.r9 y.length) :
    Runs Asm.bignumAdd s fun s' =>
      Holds s'.mem s.rsi (toWords p (val (x.take p) + val (y.take p))) ∧
      s'.rax = BitVec.ofNat 64 ((val (x.take p) + val (y.take p)) / 2 ^ (64 * p)) ∧ OnlyAt s.rsi p s.mem s'.mem :=
  add_ok s x y p hp hkx hky rp hZ rm hX rn hY a1 a2

/-- `bignum_modadd`: the sum modulo `m` of reduced numbers. -/
theorem C60_modadd (s : St) (x y m : Words) (k : Nat) (hk : k < 2 ^ 61) (hx : x.length = k) (hy : y.length = k)
    (hm : m.length = k) (rk : s.rdi = BitVec.ofNat 64 k) (hZ : s.Owns s.rsi k) (hX : Holds s.mem s.rdx x)
    (hY : Holds s.mem s.rcx y) (hM : Holds s.mem s.r8 m)
    (a1 : Apart s.rsi k s.rdx k) (a2 : Apart s.rsi k s.rcx k) (a3 : Apart s.rsi k s.r8 k)
    (xr : val x < val m) (yr : val y < val m) :
    Runs Asm.bignumModadd s fun s' =>
      Holds s'.mem s.rsi (toWords k ((val x + val y) % val m)) ∧ OnlyAt s.rsi k s.mem s'.mem :=
  modadd_ok s x y m k hk hx hy hm rk hZ hX hY hM a1 a2 a3 xr yr

/-- `bignum_modsub`: the difference, with `m` added once if it is negative; for reduced numbers, the difference modulo `m`. -/
theorem C60_modsub (s : St) (x y m : Words) (k : Nat) (hk : k < 2 ^ 61) (hx : x.length = k) (hy : y.length = k)
    (hm : m.length = k) (rk : s.rdi = BitVec.ofNat 64 k) (hZ : s.Owns s.rsi k) (hX : Holds s.mem s.rdx x)
    (hY : Holds s.mem s.rcx y) (hM : Holds s.mem s.r8 m)
    (a1 : Apart s.rsi k s.rdx k) (a2 : Apart s.rsi k s.rcx k) (a3 : Apart s.rsi k s.r8 k) :
    Runs Asm.bignumModsub s fun s' => Holds s'.mem s.rsi (Bignum.modsub k x y m) ∧
      (val x < val m → val y < val m → Holds s'.mem s.rsi (toWords k ((val x + (val m - val y)) % val m))) ∧
      OnlyAt s.rsi k s.mem s'.mem := by
  obtain ⟨f, s', h1, h2, h3⟩ := modsub_ok s x y m k hk hx hy hm rk hZ hX hY hM a1 a2 a3
  refine ⟨f, s', h1, h2, fun xr yr => ?_, h3⟩
  have hml := val_lt m
  rw [hm] at hml
  suffices e : toWords k ((val x + (val m - val y)) % val m) = Bignum.modsub k x y m by rwa [e]
  unfold Bignum.modsub
  rw [List.take_of_length_le (l := x) (i := k) (by omega), List.take_of_length_le (l := y) (i := k) (by omega),
    List.take_of_length_le (l := m) (i := k) (by omega)]
  have key : ∀ n, toWords k (n + 2 ^ (64 * k)) = toWords k n := by
    intro n
    apply val_inj (by simp)
    rw [val_toWords, val_toWords, Nat.add_mod_right]
  split
  · rename_i hlt
    rw [Nat.mod_eq_of_lt (by omega), ← key]
    congr 1
    omega
  · rename_i hlt
    rw [show val x + (val m - val y) = (val x - val y) + val m from by omega, Nat.add_mod_right,
      Nat.mod_eq_of_lt (by omega), ← key]
    congr 1
    omega

/-- `bignum_optsub`: `x`, less `y` if `p` is not zero, in `k` words; and the borrow. -/
theorem C60_optsub (s : St) (x y : Words) (k : Nat) (hk : k < 2 ^ 61) (hx : x.length = k) (hy : y.length = k)
    (rk : s.rdi = BitVec.ofNat 64 k) (hZ : s.Owns s.rsi k) (hX : Holds s.mem s.rdx x) (hY : Holds s.mem s.r8 y)
    (a1 : Apart s.rsi k s.rdx k) (a2 : Apart s.rsi k s.r8 k) :
    Runs Asm.bignumOptsub s fun s' => Holds s'.mem s.rsi (Bignum.optsub k x y s.rcx) ∧
      s'.rax = (if s.rcx ≠ 0#64 ∧ val x < val y then 1#64 else 0#64) ∧ OnlyAt s.rsi k s.mem s'.mem :=
  optsub_ok s x y k hk hx hy rk hZ hX hY a1 a2

/-- `bignum_shr_small`: the quotient by `2^(c mod 64)`, in `k` words, for slices of any lengths. -/
theorem C60_shr_small (s : St) (x : Words) (k : Nat) (hk : k < 2 ^ 61) (hkx : x.length < 2 ^ 61)
    (rk : s.rdi = BitVec.ofNat 64 k) (hZ : s.Owns s.rsi k) (rn : s.rdx = BitVec.ofNat 64 x.length)
    (hX : Holds s.mem s.rcx x) (a1 : Apart s.rsi k s.rcx x.length) :
    Runs Asm.bignumShrSmall s fun s' => Holds s'.mem s.rsi (toWords k (val x / 2 ^ (s.r8.toNat % 64))) ∧
      s'.rax = BitVec.ofNat 64 (val x % 2 ^ (s.r8.toNat % 64)) ∧ OnlyAt s.rsi k s.mem s'.mem :=
  shrSmall_ok s x k hk hkx rk hZ rn hX a1

/-- `bignum_copy_row_from_table`: row `index` of the table, and zeros for an index past its end. -/
theorem C60_copy_row (s : St) (table : Words) (h w : Nat) (hh : 0 < h) (ht : table.length = h * w) (hk : h * w < 2 ^ 61)
    (hh61 : h < 2 ^ 61) (hw61 : w < 2 ^ 61) (rh : s.rdx = BitVec.ofNat 64 h) (rw : s.rcx = BitVec.ofNat 64 w)
    (hT : Holds s.mem s.rsi table) (hZ : s.Owns s.rdi w) (ha : Apart s.rdi w s.rsi (h * w)) :
    Runs Asm.bignumCopyRowFromTable s fun s' =>
      Holds s'.mem s.rdi
        (if s.r8.toNat < h then (table.drop (s.r8.toNat * w)).take w else List.replicate w 0#64) ∧
      OnlyAt s.rdi w s.mem s'.mem :=
  copyRow_ok s table h w hh ht hk hh61 rh rw hT hZ hw61 ha

/-- The programs above with the registers that the operands of each `asm!` block name as changed. -/
def wordProgs : List (Prog × List Reg) := [
  (Asm.bignumMux, Asm.bignumMuxRegs), (Asm.bignumEq, Asm.bignumEqRegs), (Asm.bignumCmpLt, Asm.bignumCmpLtRegs),
  (Asm.bignumDigitsize, Asm.bignumDigitsizeRegs), (Asm.bignumBitsize, Asm.bignumBitsizeRegs),
  (Asm.bignumCtz, Asm.bignumCtzRegs), (Asm.bignumAdd, Asm.bignumAddRegs), (Asm.bignumModadd, Asm.bignumModaddRegs),
  (Asm.bignumModsub, Asm.bignumModsubRegs), (Asm.bignumOptsub, Asm.bignumOptsubRegs),
  (Asm.bignumShrSmall, Asm.bignumShrSmallRegs), (Asm.bignumCopyRowFromTable, Asm.bignumCopyRowFromTableRegs)]

/-- No register changes but those that the operands of the `asm!` block tell the compiler about. -/
theorem C60_clobbers : ∀ P ∈ wordProgs, ∀ (f : Nat) (s s' : St), run P.1 f 0 s = some s' →
    ∀ r, r ∉ P.2 → s'.get r = s.get r := by
  intro P hP f s s' h r hr
  refine run_get (P := P.1) ?_ h
  have all : ∀ P ∈ wordProgs, ∀ i ∈ P.1, ∀ q ∈ i.writes, q ∈ P.2 := by decide +kernel
  exact fun i hi hw => hr (all P hP i hi r hw)

/-! A state in which the hypotheses hold: three numbers of two words, and room for one. -/

/-- The numbers. -/
def wX : Words := [0xffffffffffffffff#64, 1#64]
/-- The second. -/
def wY : Words := [3#64, 1#64]
/-- The modulus. -/
def wM : Words := [1#64, 2#64]

/-- Two writable words at 0x1000, `wX` at 0x2000, `wY` at 0x3000, `wM` at 0x4000. -/
def wMem : Word → Option Word := fun a =>
  if a = 0x1000#64 then some 0#64 else if a = 0x1008#64 then some 0#64 else
  if a = 0x2000#64 then some wX[0] else if a = 0x2008#64 then some wX[1] else
  if a = 0x3000#64 then some wY[0] else if a = 0x3008#64 then some wY[1] else
  if a = 0x4000#64 then some wM[0] else if a = 0x4008#64 then some wM[1] else none

/-- The state: its registers are as for `bignum_modadd`. -/
def wSt : St where
  rax := 0#64
  rbx := 0#64
  rcx := 0x3000#64
  rdx := 0x2000#64
  rsi := 0x1000#64
  rdi := 2#64
  rbp := 0#64
  rsp := 0#64
  r8 := 0x4000#64
  r9 := 0#64
  r10 := 0#64
  r11 := 0#64
  r12 := 0#64
  r13 := 0#64
  r14 := 0#64
  r15 := 0#64
  cf := none
  zf := none
  sf := none
  of := none
  mem := wMem
  wr := fun a => a == 0x1000#64 || a == 0x1008#64
  junk := 0#64
  sym := fun _ => 0#64

theorem wX_holds : Holds wMem 0x2000#64 wX := by unfold Holds; decide +kernel
theorem wY_holds : Holds wMem 0x3000#64 wY := by unfold Holds; decide +kernel
theorem wM_holds : Holds wMem 0x4000#64 wM := by unfold Holds; decide +kernel
theorem w_owns (s : St) (h : s.wr = wSt.wr) : s.Owns 0x1000#64 2 := by unfold St.Owns; rw [h]; decide +kernel
theorem w_apart : Apart 0x1000#64 2 0x2000#64 2 ∧ Apart 0x1000#64 2 0x3000#64 2 ∧ Apart 0x1000#64 2 0x4000#64 2 := by
  unfold Apart
  decide +kernel

example : Runs Asm.bignumModadd wSt fun s' =>
    Holds s'.mem 0x1000#64 (toWords 2 ((val wX + val wY) % val wM)) ∧ OnlyAt 0x1000#64 2 wMem s'.mem :=
  C60_modadd wSt wX wY wM 2 (by decide) rfl rfl rfl rfl (w_owns _ rfl) wX_holds wY_holds wM_holds w_apart.1 w_apart.2.1
    w_apart.2.2 (by decide +kernel) (by decide +kernel)
example := C60_modsub wSt wX wY wM 2 (by decide) rfl rfl rfl rfl (w_owns _ rfl) wX_holds wY_holds wM_holds w_apart.1
  w_apart.2.1 w_apart.2.2
example := C60_optsub wSt wX wM 2 (by decide) rfl rfl rfl (w_owns _ rfl) wX_holds wM_holds w_apart.1 w_apart.2.2
example := C60_mux { wSt with rdi := 1#64, rsi := 2#64, rdx := 0x1000#64 } wY wM 2 rfl rfl (by decide) rfl wY_holds wM_holds
  (w_owns _ rfl) w_apart.2.1 w_apart.2.2
example := C60_eq { wSt with rsi := 0x2000#64, rdx := 2#64 } wX wY (by decide) (by decide) rfl wX_holds rfl wY_holds
example := C60_cmp_lt { wSt with rsi := 0x2000#64, rdx := 2#64 } wX wY (by decide) (by decide) rfl wX_holds rfl wY_holds
example := C60_digitsize { wSt with rsi := 0x2000#64 } wX (by decide) rfl wX_holds
example := C60_bitsize { wSt with rsi := 0x2000#64 } wX (by decide) rfl wX_holds
example := C60_ctz { wSt with rsi := 0x2000#64 } wX (by decide) rfl wX_holds
example := C60_add { wSt with rdx := 2#64, r8 := 2#64, r9 := 0x4000#64 } wY wM 2 (by decide) (by decide) (by decide) rfl
  (w_owns _ rfl) rfl wY_holds rfl wM_holds w_apart.2.1 w_apart.2.2
example := C60_shr_small { wSt with rdx := 2#64, r8 := 7#64 } wY 2 (by decide) (by decide) rfl (w_owns _ rfl) rfl wY_holds
  w_apart.2.1
example := C60_copy_row { wSt with rdi := 0x1000#64, rsi := 0x3000#64, rdx := 1#64, rcx := 2#64, r8 := 0#64 } wY 1 2
  (by decide) rfl (by decide) (by decide) (by decide) rfl rfl wY_holds (w_owns _ rfl) w_apart.2.1
example : run Asm.bignumBitsize 100 0 { wSt with rsi := 0x2000#64 } ≠ none := by decide +kernel

end Verif.Props
