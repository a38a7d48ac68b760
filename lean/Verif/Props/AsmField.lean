import Verif.Proof.X86.FieldP256
import Verif.Proof.X86.FieldP384
import Verif.Proof.X86.ReadyOf
import Verif.Spec.NistCurves
import Verif.Proof.EcBytes
import Verif.Props.EcKeys

/-!
C62: the x86-64 machine code of the routines for the fields of P-256 and P-384 computes what the comments of its files promise.
`Asm.bignumX` is the `asm!` block of `bignum_x.rs`, instruction by instruction, with its macros expanded.

`Ready s bs` (`Spec/AsmCall.lean`): the blocks of memory `bs` are as described, and one that is written overlaps no other.
`stackBlock s n` is the `n` words below the stack pointer.  `Untouched bs s s'`: no word of memory changed but in the blocks
that may be written.  `Runs`: the code ends, without a fault and without reading a flag that is undefined.
-/
namespace Verif.Props
open Verif Verif.X86 Verif.X86.Sym Verif.Ec

set_option exponentiation.threshold 400

/-- `bignum_add_p256`: the sum of two reduced numbers, modulo the prime. -/
theorem C62_add_p256 (s : St) (x y : Words) (hx : x.length = 4) (hy : y.length = 4)
    (xr : val x < Spec.Nist.p256.p) (yr : val y < Spec.Nist.p256.p)
    (h : Ready s [outBlock s.rdi 4, inBlock s.rsi x, inBlock s.rdx y]) :
    Runs Asm.bignumAddP256 s fun s' => Holds s'.mem s.rdi (toWords 4 ((val x + val y) % Spec.Nist.p256.p)) ∧
      Untouched [outBlock s.rdi 4, inBlock s.rsi x, inBlock s.rdx y] s s' :=
  addP256_ok s x y hx hy xr yr h

/-- `bignum_neg_p256`: the negative of a reduced number. -/
theorem C62_neg_p256 (s : St) (x : Words) (hx : x.length = 4) (xr : val x < Spec.Nist.p256.p)
    (h : Ready s [outBlock s.rdi 4, inBlock s.rsi x]) :
    Runs Asm.bignumNegP256 s fun s' => Holds s'.mem s.rdi (toWords 4 ((Spec.Nist.p256.p - val x) % Spec.Nist.p256.p)) ∧
      Untouched [outBlock s.rdi 4, inBlock s.rsi x] s s' :=
  negP256_ok s x hx xr h

/-- `bignum_mod_n256`: reduces modulo the order of the curve. -/
theorem C62_mod_n256 (s : St) (x : Words) (hx : x.length = 4)
    (h : Ready s [outBlock s.rdi 4, inBlock s.rsi x]) :
    Runs Asm.bignumModN256 s fun s' => Holds s'.mem s.rdi (toWords 4 (val x % Spec.Nist.p256.n)) ∧
      Untouched [outBlock s.rdi 4, inBlock s.rsi x] s s' :=
  modN256_ok s x hx h

/-- `bignum_tomont_p256`: into Montgomery form. -/
theorem C62_tomont_p256 (s : St) (x : Words) (hx : x.length = 4)
    (h : Ready s [stackBlock s 4, outBlock s.rdi 4, inBlock s.rsi x]) :
    Runs Asm.bignumTomontP256 s fun s' => Holds s'.mem s.rdi (toWords 4 (val x * 2 ^ 256 % Spec.Nist.p256.p)) ∧
      Untouched [stackBlock s 4, outBlock s.rdi 4, inBlock s.rsi x] s s' :=
  tomontP256_ok s x hx h

/-- `bignum_demont_p256`: out of Montgomery form. -/
theorem C62_demont_p256 (s : St) (x : Words) (hx : x.length = 4) (xr : val x < Spec.Nist.p256.p)
    (h : Ready s [stackBlock s 1, outBlock s.rdi 4, inBlock s.rsi x]) :
    Runs Asm.bignumDemontP256 s fun s' => 
      (∃ z, Holds s'.mem s.rdi (toWords 4 z) ∧ z < Spec.Nist.p256.p ∧ z * 2 ^ 256 % Spec.Nist.p256.p = val x) ∧
      Untouched [stackBlock s 1, outBlock s.rdi 4, inBlock s.rsi x] s s' :=
  demontP256_ok s x hx xr h

/-- `bignum_montmul_p256`: the Montgomery product. -/
theorem C62_montmul_p256 (s : St) (x y : Words) (hx : x.length = 4) (hy : y.length = 4)
    (hn : val x * val y ≤ 2 ^ 256 * Spec.Nist.p256.p)
    (h : Ready s [stackBlock s 5, outBlock s.rdi 4, inBlock s.rsi x, inBlock s.rdx y]) :
    Runs Asm.bignumMontmulP256 s fun s' => 
      (∃ z, Holds s'.mem s.rdi (toWords 4 z) ∧ z < Spec.Nist.p256.p ∧ z * 2 ^ 256 % Spec.Nist.p256.p = val x * val y % Spec.Nist.p256.p) ∧
      Untouched [stackBlock s 5, outBlock s.rdi 4, inBlock s.rsi x, inBlock s.rdx y] s s' :=
  montmulP256_ok s x y hx hy hn h

/-- `bignum_montsqr_p256`: the Montgomery square. -/
theorem C62_montsqr_p256 (s : St) (x : Words) (hx : x.length = 4)
    (hn : val x * val x ≤ 2 ^ 256 * Spec.Nist.p256.p)
    (h : Ready s [stackBlock s 6, outBlock s.rdi 4, inBlock s.rsi x]) :
    Runs Asm.bignumMontsqrP256 s fun s' => 
      (∃ z, Holds s'.mem s.rdi (toWords 4 z) ∧ z < Spec.Nist.p256.p ∧ z * 2 ^ 256 % Spec.Nist.p256.p = val x * val x % Spec.Nist.p256.p) ∧
      Untouched [stackBlock s 6, outBlock s.rdi 4, inBlock s.rsi x] s s' :=
  montsqrP256_ok s x hx hn h

/-- `bignum_add_p384`: the sum of two reduced numbers, modulo the prime. -/
theorem C62_add_p384 (s : St) (x y : Words) (hx : x.length = 6) (hy : y.length = 6)
    (xr : val x < Spec.Nist.p384.p) (yr : val y < Spec.Nist.p384.p)
    (h : Ready s [outBlock s.rdi 6, inBlock s.rsi x, inBlock s.rdx y]) :
    Runs Asm.bignumAddP384 s fun s' => Holds s'.mem s.rdi (toWords 6 ((val x + val y) % Spec.Nist.p384.p)) ∧
      Untouched [outBlock s.rdi 6, inBlock s.rsi x, inBlock s.rdx y] s s' :=
  addP384_ok s x y hx hy xr yr h

/-- `bignum_neg_p384`: the negative of a reduced number. -/
theorem C62_neg_p384 (s : St) (x : Words) (hx : x.length = 6) (xr : val x < Spec.Nist.p384.p)
    (h : Ready s [outBlock s.rdi 6, inBlock s.rsi x]) :
    Runs Asm.bignumNegP384 s fun s' => Holds s'.mem s.rdi (toWords 6 ((Spec.Nist.p384.p - val x) % Spec.Nist.p384.p)) ∧
      Untouched [outBlock s.rdi 6, inBlock s.rsi x] s s' :=
  negP384_ok s x hx xr h

/-- `bignum_mod_n384`: reduces modulo the order of the curve. -/
theorem C62_mod_n384 (s : St) (x : Words) (hx : x.length = 6)
    (h : Ready s [outBlock s.rdi 6, inBlock s.rsi x]) :
    Runs Asm.bignumModN384 s fun s' => Holds s'.mem s.rdi (toWords 6 (val x % Spec.Nist.p384.n)) ∧
      Untouched [outBlock s.rdi 6, inBlock s.rsi x] s s' :=
  modN384_ok s x hx h

/-- `bignum_tomont_p384`: into Montgomery form. -/
theorem C62_tomont_p384 (s : St) (x : Words) (hx : x.length = 6)
    (h : Ready s [stackBlock s 5, outBlock s.rdi 6, inBlock s.rsi x]) :
    Runs Asm.bignumTomontP384 s fun s' => Holds s'.mem s.rdi (toWords 6 (val x * 2 ^ 384 % Spec.Nist.p384.p)) ∧
      Untouched [stackBlock s 5, outBlock s.rdi 6, inBlock s.rsi x] s s' :=
  tomontP384_ok s x hx h

/-- `bignum_demont_p384`: out of Montgomery form. -/
theorem C62_demont_p384 (s : St) (x : Words) (hx : x.length = 6) (xr : val x < Spec.Nist.p384.p)
    (h : Ready s [stackBlock s 2, outBlock s.rdi 6, inBlock s.rsi x]) :
    Runs Asm.bignumDemontP384 s fun s' => 
      (∃ z, Holds s'.mem s.rdi (toWords 6 z) ∧ z < Spec.Nist.p384.p ∧ z * 2 ^ 384 % Spec.Nist.p384.p = val x) ∧
      Untouched [stackBlock s 2, outBlock s.rdi 6, inBlock s.rsi x] s s' :=
  demontP384_ok s x hx xr h

/-- `bignum_montmul_p384`: the Montgomery product. -/
theorem C62_montmul_p384 (s : St) (x y : Words) (hx : x.length = 6) (hy : y.length = 6)
    (hn : val x * val y ≤ 2 ^ 384 * Spec.Nist.p384.p)
    (h : Ready s [stackBlock s 6, outBlock s.rdi 6, inBlock s.rsi x, inBlock s.rdx y]) :
    Runs Asm.bignumMontmulP384 s fun s' => 
      (∃ z, Holds s'.mem s.rdi (toWords 6 z) ∧ z < Spec.Nist.p384.p ∧ z * 2 ^ 384 % Spec.Nist.p384.p = val x * val y % Spec.Nist.p384.p) ∧
      Untouched [stackBlock s 6, outBlock s.rdi 6, inBlock s.rsi x, inBlock s.rdx y] s s' :=
  montmulP384_ok s x y hx hy hn h

/-- `bignum_montsqr_p384`: the Montgomery square. -/
theorem C62_montsqr_p384 (s : St) (x : Words) (hx : x.length = 6)
    (hn : val x * val x ≤ 2 ^ 384 * Spec.Nist.p384.p)
    (h : Ready s [stackBlock s 6, outBlock s.rdi 6, inBlock s.rsi x]) :
    Runs Asm.bignumMontsqrP384 s fun s' => 
      (∃ z, Holds s'.mem s.rdi (toWords 6 z) ∧ z < Spec.Nist.p384.p ∧ z * 2 ^ 384 % Spec.Nist.p384.p = val x * val x % Spec.Nist.p384.p) ∧
      Untouched [stackBlock s 6, outBlock s.rdi 6, inBlock s.rsi x] s s' :=
  montsqrP384_ok s x hx hn h

/-! The same for the field operations of `Model/Ec.lean`. -/

theorem mont_unique {p k z w : Nat} (hc : Nat.Coprime p 2) (hz : z < p) (hw : w < p) (h : z * 2 ^ k % p = w * 2 ^ k % p) :
    z = w := by
  have h1 : Nat.ModEq p z w := Nat.ModEq.cancel_right_of_coprime (hc.pow_right k) h
  rwa [Nat.ModEq, Nat.mod_eq_of_lt hz, Nat.mod_eq_of_lt hw] at h1

/-- The machine code of the routines for P-256 computes the operations of `f`, on the inputs for which these are specified. -/
structure Computes256 (f : Ec.FieldAsm 4) : Prop where
  add : ∀ (s : St) (x y : Ec.Elt 4), x.toNat < Spec.Nist.p256.p → y.toNat < Spec.Nist.p256.p → Ready s [outBlock s.rdi 4, inBlock s.rsi (words x), inBlock s.rdx (words y)] →
    Runs Asm.bignumAddP256 s fun s' => Holds s'.mem s.rdi (words (f.add x y))
  neg : ∀ (s : St) (x : Ec.Elt 4), x.toNat < Spec.Nist.p256.p → Ready s [outBlock s.rdi 4, inBlock s.rsi (words x)] →
    Runs Asm.bignumNegP256 s fun s' => Holds s'.mem s.rdi (words (f.neg x))
  tomont : ∀ (s : St) (x : Ec.Elt 4), Ready s [stackBlock s 4, outBlock s.rdi 4, inBlock s.rsi (words x)] →
    Runs Asm.bignumTomontP256 s fun s' => Holds s'.mem s.rdi (words (f.tomont x))
  demont : ∀ (s : St) (x : Ec.Elt 4), x.toNat < Spec.Nist.p256.p → Ready s [stackBlock s 1, outBlock s.rdi 4, inBlock s.rsi (words x)] →
    Runs Asm.bignumDemontP256 s fun s' => Holds s'.mem s.rdi (words (f.demont x))
  montmul : ∀ (s : St) (x y : Ec.Elt 4), x.toNat * y.toNat ≤ 2 ^ 256 * Spec.Nist.p256.p → Ready s [stackBlock s 5, outBlock s.rdi 4, inBlock s.rsi (words x), inBlock s.rdx (words y)] →
    Runs Asm.bignumMontmulP256 s fun s' => Holds s'.mem s.rdi (words (f.montmul x y))
  montsqr : ∀ (s : St) (x : Ec.Elt 4), x.toNat * x.toNat ≤ 2 ^ 256 * Spec.Nist.p256.p → Ready s [stackBlock s 6, outBlock s.rdi 4, inBlock s.rsi (words x)] →
    Runs Asm.bignumMontsqrP256 s fun s' => Holds s'.mem s.rdi (words (f.montsqr x))

/-- Whatever field arithmetic the properties of P-256 keys are proved for, the machine code computes it. -/
theorem C62_p256_computes (f : Ec.FieldAsm 4) (hf : f.Ok Spec.Nist.p256.p) : Computes256 f where
  add s x y hx hy h := by
    have hX := val_words x
    have hY := val_words y
    obtain ⟨n, s', hr, hz, -⟩ := C62_add_p256 s (words x) (words y) (words_length _) (words_length _) (by rwa [hX]) (by rwa [hY]) h
    refine ⟨n, s', hr, ?_⟩
    rwa [hX, hY, ← hf.add x y hx hy] at hz
  neg s x hx h := by
    have hX := val_words x
    obtain ⟨n, s', hr, hz, -⟩ := C62_neg_p256 s (words x) (words_length _) (by rwa [hX]) h
    refine ⟨n, s', hr, ?_⟩
    rwa [hX, ← hf.neg x hx] at hz
  tomont s x h := by
    have hX := val_words x
    obtain ⟨n, s', hr, hz, -⟩ := C62_tomont_p256 s (words x) (words_length _) h
    refine ⟨n, s', hr, ?_⟩
    rwa [hX, ← hf.tomont x] at hz
  demont s x hx h := by
    have hX := val_words x
    obtain ⟨n, s', hr, ⟨z, hz, z1, z2⟩, -⟩ := C62_demont_p256 s (words x) (words_length _) (by rwa [hX]) h
    refine ⟨n, s', hr, ?_⟩
    obtain ⟨e1, e2⟩ := hf.demont x hx
    rwa [mont_unique (p := Spec.Nist.p256.p) (k := 256) (by decide) z1 e1 (by rw [z2, e2, hX])] at hz
  montmul s x y hn h := by
    have hX := val_words x
    have hY := val_words y
    obtain ⟨n, s', hr, ⟨z, hz, z1, z2⟩, -⟩ :=
      C62_montmul_p256 s (words x) (words y) (words_length _) (words_length _) (by rwa [hX, hY]) h
    refine ⟨n, s', hr, ?_⟩
    obtain ⟨e1, e2⟩ := hf.montmul x y hn
    rwa [mont_unique (p := Spec.Nist.p256.p) (k := 256) (by decide) z1 e1 (by rw [z2, e2, hX, hY])] at hz
  montsqr s x hn h := by
    have hX := val_words x
    obtain ⟨n, s', hr, ⟨z, hz, z1, z2⟩, -⟩ := C62_montsqr_p256 s (words x) (words_length _) (by rwa [hX]) h
    refine ⟨n, s', hr, ?_⟩
    obtain ⟨e1, e2⟩ := hf.montsqr x hn
    rwa [mont_unique (p := Spec.Nist.p256.p) (k := 256) (by decide) z1 e1 (by rw [z2, e2, hX])] at hz

/-- The machine code of the routines for P-384 computes the operations of `f`, on the inputs for which these are specified. -/
structure Computes384 (f : Ec.FieldAsm 6) : Prop where
  add : ∀ (s : St) (x y : Ec.Elt 6), x.toNat < Spec.Nist.p384.p → y.toNat < Spec.Nist.p384.p → Ready s [outBlock s.rdi 6, inBlock s.rsi (words x), inBlock s.rdx (words y)] →
    Runs Asm.bignumAddP384 s fun s' => Holds s'.mem s.rdi (words (f.add x y))
  neg : ∀ (s : St) (x : Ec.Elt 6), x.toNat < Spec.Nist.p384.p → Ready s [outBlock s.rdi 6, inBlock s.rsi (words x)] →
    Runs Asm.bignumNegP384 s fun s' => Holds s'.mem s.rdi (words (f.neg x))
  tomont : ∀ (s : St) (x : Ec.Elt 6), Ready s [stackBlock s 5, outBlock s.rdi 6, inBlock s.rsi (words x)] →
    Runs Asm.bignumTomontP384 s fun s' => Holds s'.mem s.rdi (words (f.tomont x))
  demont : ∀ (s : St) (x : Ec.Elt 6), x.toNat < Spec.Nist.p384.p → Ready s [stackBlock s 2, outBlock s.rdi 6, inBlock s.rsi (words x)] →
    Runs Asm.bignumDemontP384 s fun s' => Holds s'.mem s.rdi (words (f.demont x))
  montmul : ∀ (s : St) (x y : Ec.Elt 6), x.toNat * y.toNat ≤ 2 ^ 384 * Spec.Nist.p384.p → Ready s [stackBlock s 6, outBlock s.rdi 6, inBlock s.rsi (words x), inBlock s.rdx (words y)] →
    Runs Asm.bignumMontmulP384 s fun s' => Holds s'.mem s.rdi (words (f.montmul x y))
  montsqr : ∀ (s : St) (x : Ec.Elt 6), x.toNat * x.toNat ≤ 2 ^ 384 * Spec.Nist.p384.p → Ready s [stackBlock s 6, outBlock s.rdi 6, inBlock s.rsi (words x)] →
    Runs Asm.bignumMontsqrP384 s fun s' => Holds s'.mem s.rdi (words (f.montsqr x))

/-- Whatever field arithmetic the properties of P-384 keys are proved for, the machine code computes it. -/
theorem C62_p384_computes (f : Ec.FieldAsm 6) (hf : f.Ok Spec.Nist.p384.p) : Computes384 f where
  add s x y hx hy h := by
    have hX := val_words x
    have hY := val_words y
    obtain ⟨n, s', hr, hz, -⟩ := C62_add_p384 s (words x) (words y) (words_length _) (words_length _) (by rwa [hX]) (by rwa [hY]) h
    refine ⟨n, s', hr, ?_⟩
    rwa [hX, hY, ← hf.add x y hx hy] at hz
  neg s x hx h := by
    have hX := val_words x
    obtain ⟨n, s', hr, hz, -⟩ := C62_neg_p384 s (words x) (words_length _) (by rwa [hX]) h
    refine ⟨n, s', hr, ?_⟩
    rwa [hX, ← hf.neg x hx] at hz
  tomont s x h := by
    have hX := val_words x
    obtain ⟨n, s', hr, hz, -⟩ := C62_tomont_p384 s (words x) (words_length _) h
    refine ⟨n, s', hr, ?_⟩
    rwa [hX, ← hf.tomont x] at hz
  demont s x hx h := by
    have hX := val_words x
    obtain ⟨n, s', hr, ⟨z, hz, z1, z2⟩, -⟩ := C62_demont_p384 s (words x) (words_length _) (by rwa [hX]) h
    refine ⟨n, s', hr, ?_⟩
    obtain ⟨e1, e2⟩ := hf.demont x hx
    rwa [mont_unique (p := Spec.Nist.p384.p) (k := 384) (by decide) z1 e1 (by rw [z2, e2, hX])] at hz
  montmul s x y hn h := by
    have hX := val_words x
    have hY := val_words y
    obtain ⟨n, s', hr, ⟨z, hz, z1, z2⟩, -⟩ :=
      C62_montmul_p384 s (words x) (words y) (words_length _) (words_length _) (by rwa [hX, hY]) h
    refine ⟨n, s', hr, ?_⟩
    obtain ⟨e1, e2⟩ := hf.montmul x y hn
    rwa [mont_unique (p := Spec.Nist.p384.p) (k := 384) (by decide) z1 e1 (by rw [z2, e2, hX, hY])] at hz
  montsqr s x hn h := by
    have hX := val_words x
    obtain ⟨n, s', hr, ⟨z, hz, z1, z2⟩, -⟩ := C62_montsqr_p384 s (words x) (words_length _) (by rwa [hX]) h
    refine ⟨n, s', hr, ?_⟩
    obtain ⟨e1, e2⟩ := hf.montsqr x hn
    rwa [mont_unique (p := Spec.Nist.p384.p) (k := 384) (by decide) z1 e1 (by rw [z2, e2, hX])] at hz

/-! A state in which the hypotheses hold. -/

/-- A number of four words. -/
def fX : Words := [0xfffffffffffffffe#64, 0xffffffff#64, 0#64, 0xffffffff00000001#64]
/-- A number of six words. -/
def fY : Words := [1#64, 2#64, 3#64, 4#64, 5#64, 0xffffffffffffffff#64]

example (f : FieldAsm 4) (hf : f.Ok Spec.Nist.p256.p) := (C62_p256_computes f hf).montmul
example : ∃ f : FieldAsm 4, Computes256 f := ⟨_, C62_p256_computes _ refP256.f⟩
example := C62_add_p256 (callSt fX fX) fX fX rfl rfl (by decide) (by decide) (callSt_two 0 4 (by decide) (by decide) (by decide) (by decide)).2
example := C62_montmul_p256 (callSt fX fX) fX fX rfl rfl (by decide) (callSt_two _ _ (by decide) (by decide) (by decide) (by decide)).1
example := C62_montsqr_p256 (callSt fX []) fX rfl (by decide) (callSt_one _ _ (by decide) (by decide) (by decide)).1
example := C62_demont_p256 (callSt fX []) fX rfl (by decide) (callSt_one _ _ (by decide) (by decide) (by decide)).1
example := C62_tomont_p256 (callSt fX []) fX rfl (callSt_one _ _ (by decide) (by decide) (by decide)).1
example := C62_neg_p256 (callSt fX []) fX rfl (by decide) (callSt_one 0 _ (by decide) (by decide) (by decide)).2
example := C62_mod_n256 (callSt fX []) fX rfl (callSt_one 0 _ (by decide) (by decide) (by decide)).2
example := C62_add_p384 (callSt fY fY) fY fY rfl rfl (by decide) (by decide) (callSt_two 0 _ (by decide) (by decide) (by decide) (by decide)).2
example := C62_montmul_p384 (callSt fY fY) fY fY rfl rfl (by decide) (callSt_two _ _ (by decide) (by decide) (by decide) (by decide)).1
example := C62_montsqr_p384 (callSt fY []) fY rfl (by decide) (callSt_one _ _ (by decide) (by decide) (by decide)).1
example := C62_demont_p384 (callSt fY []) fY rfl (by decide) (callSt_one _ _ (by decide) (by decide) (by decide)).1
example := C62_tomont_p384 (callSt fY []) fY rfl (callSt_one _ _ (by decide) (by decide) (by decide)).1
example := C62_neg_p384 (callSt fY []) fY rfl (by decide) (callSt_one 0 _ (by decide) (by decide) (by decide)).2
example := C62_mod_n384 (callSt fY []) fY rfl (callSt_one 0 _ (by decide) (by decide) (by decide)).2

end Verif.Props
