import Verif.Model.Ec
import Verif.Proof.EcScalar
import Verif.Proof.BignumRef
import Mathlib.Tactic.FieldSimp
import Mathlib.Tactic.Ring

/-!
A reference instance of the assembly of `Verif.Model.Ec`: the contracts `Asm.Ok` can be met.
-/
namespace Verif.Ec

open Bignum

variable {N : Nat} {p n : Nat} [Fact p.Prime]

/-- A residue as an array. -/
def mk (N : Nat) {p : Nat} (v : ZMod p) : Elt N := BitVec.ofNat _ v.val

/-- Arithmetic modulo `p` in Montgomery form. -/
def refField (N p : Nat) : FieldAsm N where
  montmul x y := mk N (p := p) ((x.toNat : ZMod p) * (y.toNat : ZMod p) * ((2 : ZMod p) ^ (64 * N))⁻¹)
  montsqr x := mk N (p := p) ((x.toNat : ZMod p) * (x.toNat : ZMod p) * ((2 : ZMod p) ^ (64 * N))⁻¹)
  amontsqr x := mk N (p := p) ((x.toNat : ZMod p) * (x.toNat : ZMod p) * ((2 : ZMod p) ^ (64 * N))⁻¹)
  sub x y := mk N (p := p) ((x.toNat : ZMod p) - (y.toNat : ZMod p))
  add x y := mk N (p := p) ((x.toNat : ZMod p) + (y.toNat : ZMod p))
  weakadd x y := mk N (p := p) ((x.toNat : ZMod p) + (y.toNat : ZMod p))
  cmsub129 x y := mk N (p := p) (12 * (x.toNat : ZMod p) - 9 * (y.toNat : ZMod p))
  cmsub41 x y := mk N (p := p) (4 * (x.toNat : ZMod p) - (y.toNat : ZMod p))
  cmsub38 x y := mk N (p := p) (3 * (x.toNat : ZMod p) - 8 * (y.toNat : ZMod p))
  neg x := mk N (p := p) (-(x.toNat : ZMod p))
  tomont x := mk N (p := p) ((x.toNat : ZMod p) * 2 ^ (64 * N))
  demont x := mk N (p := p) ((x.toNat : ZMod p) * ((2 : ZMod p) ^ (64 * N))⁻¹)
  inv x := mk N (p := p) ((x.toNat : ZMod p)⁻¹)

theorem mk_toNat (hp : p < 2 ^ (64 * N)) (v : ZMod p) : (mk N v).toNat = v.val := by
  rw [mk, BitVec.toNat_ofNat, Nat.mod_eq_of_lt ((ZMod.val_lt v).trans hp)]

theorem mk_cast (hp : p < 2 ^ (64 * N)) (v : ZMod p) : ((mk N v).toNat : ZMod p) = v := by
  rw [mk_toNat hp, ZMod.natCast_val, ZMod.cast_id]

theorem mk_lt (hp : p < 2 ^ (64 * N)) (v : ZMod p) : (mk N v).toNat < p := by rw [mk_toNat hp]; exact ZMod.val_lt v

theorem refField_ok (h2 : (2 : ZMod p) ≠ 0) (hp : p < 2 ^ (64 * N)) : (refField N p).Ok p := by
  have hR : ((2 : ZMod p) ^ (64 * N)) ≠ 0 := pow_ne_zero _ h2
  have mods : ∀ a b : Nat, (a : ZMod p) = b → a % p = b % p := fun a b h => (ZMod.natCast_eq_natCast_iff' a b p).1 h
  have mods' : ∀ a b : Nat, b < p → (a : ZMod p) = b → a % p = b := fun a b hb h => by
    rw [mods a b h, Nat.mod_eq_of_lt hb]
  have lt := fun v : ZMod p => mk_lt (N := N) hp v
  have cst := fun v : ZMod p => mk_cast (N := N) hp v
  constructor
  · intro x y _
    refine ⟨lt _, mods _ _ ?_⟩
    push_cast [refField, cst]; field_simp
  · intro x _
    refine ⟨lt _, mods _ _ ?_⟩
    push_cast [refField, cst]; field_simp
  · intro x
    refine mods _ _ ?_
    push_cast [refField, cst]; field_simp
  · intro x y hx _
    refine ⟨lt _, mods' _ _ hx ?_⟩
    push_cast [refField, cst]; ring
  · intro x y _ _
    refine (Nat.mod_eq_of_lt (lt ((x.toNat : ZMod p) + y.toNat))).symm.trans ?_
    refine mods _ _ ?_
    push_cast [refField, cst]; ring
  · intro x y _ _
    refine mods _ _ ?_
    push_cast [refField, cst]; ring
  · intro x y _ _
    refine ⟨lt _, mods _ _ ?_⟩
    push_cast [refField, cst]; ring
  · intro x y _ _
    refine ⟨lt _, mods _ _ ?_⟩
    push_cast [refField, cst]; ring
  · intro x y _ _
    refine ⟨lt _, mods _ _ ?_⟩
    push_cast [refField, cst]; ring
  · intro x hx
    refine (Nat.mod_eq_of_lt (lt (-(x.toNat : ZMod p)))).symm.trans ?_
    refine mods _ _ ?_
    push_cast [refField, cst, Nat.cast_sub hx.le]; simp
  · intro x
    refine (Nat.mod_eq_of_lt (lt ((x.toNat : ZMod p) * 2 ^ (64 * N)))).symm.trans ?_
    refine mods _ _ ?_
    push_cast [refField, cst]; ring
  · intro x hx
    refine ⟨lt _, mods' _ _ hx ?_⟩
    push_cast [refField, cst]; field_simp
  · intro x
    constructor
    · intro h
      have h0 : (x.toNat : ZMod p) ≠ 0 := by
        rw [Ne, ZMod.natCast_eq_zero_iff, Nat.dvd_iff_mod_eq_zero]; exact h
      refine ⟨lt _, mods' _ _ (Fact.out : p.Prime).one_lt ?_⟩
      push_cast [refField, cst]; field_simp
    · intro h
      have h0 : (x.toNat : ZMod p) = 0 := by
        rw [ZMod.natCast_eq_zero_iff, Nat.dvd_iff_mod_eq_zero]; exact h
      simp [refField, h0, mk]

/-- The reference assembly. -/
def refAsm (N p n : Nat) : Asm N where
  f := refField N p
  modN x := BitVec.ofNat _ (x.toNat % n)
  bn := Bignum.ref

theorem refAsm_ok (h2 : (2 : ZMod p) ≠ 0) (hp : p < 2 ^ (64 * N)) (hn : n < 2 ^ (64 * N)) (h0 : 0 < n) : (refAsm N p n).Ok p n where
  f := refField_ok h2 hp
  modN x := by
    rw [refAsm, BitVec.toNat_ofNat, Nat.mod_eq_of_lt ((Nat.mod_lt _ h0).trans hn)]
  bn := Bignum.ref_ok

end Verif.Ec
