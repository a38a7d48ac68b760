def ops(N, bits, stk):
    P=f"P{bits}"; c=f"Spec.Nist.p{bits}"
    out=[]
    def thm(doc,name,ps,stack,ins,concl,prog,lemma,args):
        blocks=[]
        if stack: blocks.append(f"stackBlock s {stack}")
        blocks.append(f"outBlock s.rdi {N}"); blocks.append("inBlock s.rsi x")
        if ins==2: blocks.append("inBlock s.rdx y")
        b="["+", ".join(blocks)+"]"
        xs="(x y : Words) (hx : x.length = N) (hy : y.length = N)" if ins==2 else "(x : Words) (hx : x.length = N)"
        xs=xs.replace("N",str(N))
        out.append(f"""/-- {doc} -/
theorem C62_{name} (s : St) {xs}{ps}
    (h : Ready s {b}) :
    Runs Asm.{prog} s fun s' => {concl} ∧
      Untouched {b} s s' :=
  {lemma} s x{' y' if ins==2 else ''} hx{' hy' if ins==2 else ''} {args}h
""")
    H=f"Holds s'.mem s.rdi (toWords {N} "
    E=64*N
    thm(f"`bignum_add_p{bits}`: the sum of two reduced numbers, modulo the prime.",f"add_p{bits}",f"\n    (xr : val x < {c}.p) (yr : val y < {c}.p)",0,2,
        H+f"((val x + val y) % {c}.p))",f"bignumAdd{P}",f"add{P}_ok","xr yr ")
    thm(f"`bignum_neg_p{bits}`: the negative of a reduced number.",f"neg_p{bits}",f" (xr : val x < {c}.p)",0,1,
        H+f"(({c}.p - val x) % {c}.p))",f"bignumNeg{P}",f"neg{P}_ok","xr ")
    thm(f"`bignum_mod_n{bits}`: reduces modulo the order of the curve.",f"mod_n{bits}","",0,1,
        H+f"(val x % {c}.n))",f"bignumModN{bits}",f"modN{bits}_ok","")
    thm(f"`bignum_tomont_p{bits}`: into Montgomery form.",f"tomont_p{bits}","",stk['to'],1,
        H+f"(val x * 2 ^ {E} % {c}.p))",f"bignumTomont{P}",f"tomont{P}_ok","")
    thm(f"`bignum_demont_p{bits}`: out of Montgomery form.",f"demont_p{bits}",f" (xr : val x < {c}.p)",stk['de'],1,
        f"\n      (∃ z, {H}z) ∧ z < {c}.p ∧ z * 2 ^ {E} % {c}.p = val x)",f"bignumDemont{P}",f"demont{P}_ok","xr ")
    thm(f"`bignum_montmul_p{bits}`: the Montgomery product.",f"montmul_p{bits}",f"\n    (hn : val x * val y ≤ 2 ^ {E} * {c}.p)",stk['mul'],2,
        f"\n      (∃ z, {H}z) ∧ z < {c}.p ∧ z * 2 ^ {E} % {c}.p = val x * val y % {c}.p)",f"bignumMontmul{P}",f"montmul{P}_ok","hn ")
    thm(f"`bignum_montsqr_p{bits}`: the Montgomery square.",f"montsqr_p{bits}",f"\n    (hn : val x * val x ≤ 2 ^ {E} * {c}.p)",stk['sqr'],1,
        f"\n      (∃ z, {H}z) ∧ z < {c}.p ∧ z * 2 ^ {E} % {c}.p = val x * val x % {c}.p)",f"bignumMontsqr{P}",f"montsqr{P}_ok","hn ")
    return "\n".join(out)
import re
src=open('/verif/lean/Verif/Proof/X86/FieldP256.lean').read()
def st(name):
    m=re.search(name+r"_ok.*?Ready s \[(.*?)\]",src,re.S); k=re.search(r"stackBlock s (\d+)",m.group(1)); return int(k.group(1)) if k else 0
s256=dict(to=st("tomontP256"),de=st("demontP256"),mul=st("montmulP256"),sqr=st("montsqrP256"))
s384=dict(to=5,de=2,mul=6,sqr=6)
print(s256)
def impl(N,bits,stk):
    P=f"P{bits}"; c=f"Spec.Nist.p{bits}"
    def b(st,two):
        l=([f"stackBlock s {st}"] if st else [])+[f"outBlock s.rdi {N}","inBlock s.rsi (words x)"]+(["inBlock s.rdx (words y)"] if two else [])
        return "["+", ".join(l)+"]"
    def fld(nm,two,hyp,st,prog):
        return f"""  {nm} : ∀ (s : St) (x{' y' if two else ''} : Ec.Elt {N}), {hyp}Ready s {b(st,two)} →
    Runs Asm.{prog} s fun s' => Holds s'.mem s.rdi (words (f.{nm} x{' y' if two else ''}))
"""
    rx=f"x.toNat < {c}.p → "
    s=f"""/-- The machine code of the routines for P-{bits} computes the operations of `f`, on the inputs for which these are specified. -/
structure Computes{bits} (f : Ec.FieldAsm {N}) : Prop where
"""
    s+=fld("add",1,rx+f"y.toNat < {c}.p → ",0,f"bignumAdd{P}")
    s+=fld("neg",0,rx,0,f"bignumNeg{P}")
    s+=fld("tomont",0,"",stk['to'],f"bignumTomont{P}")
    s+=fld("demont",0,rx,stk['de'],f"bignumDemont{P}")
    s+=fld("montmul",1,f"x.toNat * y.toNat ≤ 2 ^ {64*N} * {c}.p → ",stk['mul'],f"bignumMontmul{P}")
    s+=fld("montsqr",0,f"x.toNat * x.toNat ≤ 2 ^ {64*N} * {c}.p → ",stk['sqr'],f"bignumMontsqr{P}")
    s+=f"""
/-- Whatever field arithmetic the properties of P-{bits} keys are proved for, the machine code computes it. -/
theorem C62_p{bits}_computes (f : Ec.FieldAsm {N}) (hf : f.Ok {c}.p) : Computes{bits} f where
  add s x y hx hy h := by
    have hX := val_words x
    have hY := val_words y
    obtain ⟨n, s', hr, hz, -⟩ := C62_add_p{bits} s (words x) (words y) (words_length _) (words_length _) (by rwa [hX]) (by rwa [hY]) h
    refine ⟨n, s', hr, ?_⟩
    rwa [hX, hY, ← hf.add x y hx hy] at hz
  neg s x hx h := by
    have hX := val_words x
    obtain ⟨n, s', hr, hz, -⟩ := C62_neg_p{bits} s (words x) (words_length _) (by rwa [hX]) h
    refine ⟨n, s', hr, ?_⟩
    rwa [hX, ← hf.neg x hx] at hz
  tomont s x h := by
    have hX := val_words x
    obtain ⟨n, s', hr, hz, -⟩ := C62_tomont_p{bits} s (words x) (words_length _) h
    refine ⟨n, s', hr, ?_⟩
    rwa [hX, ← hf.tomont x] at hz
  demont s x hx h := by
    have hX := val_words x
    obtain ⟨n, s', hr, ⟨z, hz, z1, z2⟩, -⟩ := C62_demont_p{bits} s (words x) (words_length _) (by rwa [hX]) h
    refine ⟨n, s', hr, ?_⟩
    obtain ⟨e1, e2⟩ := hf.demont x hx
    rwa [mont_unique (p := {c}.p) (k := {64*N}) (by decide) z1 e1 (by rw [z2, e2, hX])] at hz
  montmul s x y hn h := by
    have hX := val_words x
    have hY := val_words y
    obtain ⟨n, s', hr, ⟨z, hz, z1, z2⟩, -⟩ :=
      C62_montmul_p{bits} s (words x) (words y) (words_length _) (words_length _) (by rwa [hX, hY]) h
    refine ⟨n, s', hr, ?_⟩
    obtain ⟨e1, e2⟩ := hf.montmul x y hn
    rwa [mont_unique (p := {c}.p) (k := {64*N}) (by decide) z1 e1 (by rw [z2, e2, hX, hY])] at hz
  montsqr s x hn h := by
    have hX := val_words x
    obtain ⟨n, s', hr, ⟨z, hz, z1, z2⟩, -⟩ := C62_montsqr_p{bits} s (words x) (words_length _) (by rwa [hX]) h
    refine ⟨n, s', hr, ?_⟩
    obtain ⟨e1, e2⟩ := hf.montsqr x hn
    rwa [mont_unique (p := {c}.p) (k := {64*N}) (by decide) z1 e1 (by rw [z2, e2, hX])] at hz
"""
    return s
t="""import Verif.Proof.X86.FieldP256
import Verif.Proof.X86.FieldP384
import Verif.Proof.X86.ReadyOf
import Verif.Spec.NistCurves
import Verif.Proof.EcBytes
import Verif.Props.EcKeys

/-!
C62: the x86-64 machine code of the routines for the fields of P-256 and P-384 computes what the comments of its files promise.
`Asm.bignumX` is the `asm!` block of `bignum_x.rs`, instruction by instruction, with its macros expanded.

`Ready s bs` (`Spec/AsmCall.lean`): the blocks of memory `bs` are as described, and one that is written overlaps no other.
`stackBlock s n` is the `n` words below the stack pointer.  `Untouched bs s s'`: no word of memory changed but in the blocks
that may be written.  `Runs`: the code ends, without a fault and without reading a flag that is undefined.
-/
namespace Verif.Props
open Verif Verif.X86 Verif.X86.Sym Verif.Ec

set_option exponentiation.threshold 400

"""+ops(4,256,s256)+"\n"+ops(6,384,s384)+"""
/-! The same for the field operations of `Model/Ec.lean`. -/

theorem mont_unique {p k z w : Nat} (hc : Nat.Coprime p 2) (hz : z < p) (hw : w < p) (h : z * 2 ^ k % p = w * 2 ^ k % p) :
    z = w := by
  have h1 : Nat.ModEq p z w := Nat.ModEq.cancel_right_of_coprime (hc.pow_right k) h
  rwa [Nat.ModEq, Nat.mod_eq_of_lt hz, Nat.mod_eq_of_lt hw] at h1

"""+impl(4,256,s256)+"\n"+impl(6,384,s384)+"""
/-! A state in which the hypotheses hold. -/

/-- A number of four words. -/
def fX : Words := [0xfffffffffffffffe#64, 0xffffffff#64, 0#64, 0xffffffff00000001#64]
/-- A number of six words. -/
def fY : Words := [1#64, 2#64, 3#64, 4#64, 5#64, 0xffffffffffffffff#64]

example (f : FieldAsm 4) (hf : f.Ok Spec.Nist.p256.p) := (C62_p256_computes f hf).montmul
example : ∃ f : FieldAsm 4, Computes256 f := ⟨_, C62_p256_computes _ refP256.f⟩
example := C62_add_p256 (callSt fX fX) fX fX rfl rfl (by decide) (by decide) (callSt_two 0 4 (by decide) (by decide) (by decide) (by decide)).2
example := C62_montmul_p256 (callSt fX fX) fX fX rfl rfl (by decide) (callSt_two _ _ (by decide) (by decide) (by decide) (by decide)).1
example := C62_montsqr_p256 (callSt fX []) fX rfl (by decide) (callSt_one _ _ (by decide) (by decide) (by decide)).1
example := C62_demont_p256 (callSt fX []) fX rfl (by decide) (callSt_one _ _ (by decide) (by decide) (by decide)).1
example := C62_tomont_p256 (callSt fX []) fX rfl (callSt_one _ _ (by decide) (by decide) (by decide)).1
example := C62_neg_p256 (callSt fX []) fX rfl (by decide) (callSt_one 0 _ (by decide) (by decide) (by decide)).2
example := C62_mod_n256 (callSt fX []) fX rfl (callSt_one 0 _ (by decide) (by decide) (by decide)).2
example := C62_add_p384 (callSt fY fY) fY fY rfl rfl (by decide) (by decide) (callSt_two 0 _ (by decide) (by decide) (by decide) (by decide)).2
example := C62_montmul_p384 (callSt fY fY) fY fY rfl rfl (by decide) (callSt_two _ _ (by decide) (by decide) (by decide) (by decide)).1
example := C62_montsqr_p384 (callSt fY []) fY rfl (by decide) (callSt_one _ _ (by decide) (by decide) (by decide)).1
example := C62_demont_p384 (callSt fY []) fY rfl (by decide) (callSt_one _ _ (by decide) (by decide) (by decide)).1
example := C62_tomont_p384 (callSt fY []) fY rfl (callSt_one _ _ (by decide) (by decide) (by decide)).1
example := C62_neg_p384 (callSt fY []) fY rfl (by decide) (callSt_one 0 _ (by decide) (by decide) (by decide)).2
example := C62_mod_n384 (callSt fY []) fY rfl (callSt_one 0 _ (by decide) (by decide) (by decide)).2

end Verif.Props
"""
open('/verif/lean/Verif/Props/AsmField.lean','w').write(t)
