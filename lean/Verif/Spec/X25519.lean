import Verif.Spec.Ed25519

/-!
X25519, RFC 7748, section 5.
-/
namespace Verif.Spec.X25519
open Verif.Spec.Ed25519 (p F clamp)

/-- The variables of the loop: `x_2`, `z_2`, `x_3`, `z_3`. -/
structure Vars (R : Type) where
  x2 : R
  z2 : R
  x3 : R
  z3 : R

/-- `cswap` of both pairs. -/
def Vars.swap {R : Type} (s : Bool) (v : Vars R) : Vars R := if s then ⟨v.x3, v.z3, v.x2, v.z2⟩ else v

/-- The body of the loop between the conditional swap and the next iteration, with `a24 = 121665`; over any ring. -/
def Vars.step {R : Type} [CommRing R] (x1 : R) (v : Vars R) : Vars R :=
  let A := v.x2 + v.z2
  let AA := A ^ 2
  let B := v.x2 - v.z2
  let BB := B ^ 2
  let E := AA - BB
  let C := v.x3 + v.z3
  let D := v.x3 - v.z3
  let DA := D * A
  let CB := C * B
  ⟨AA * BB, E * (AA + 121665 * E), (DA + CB) ^ 2, x1 * (DA - CB) ^ 2⟩

/-- `For t = bits-1 down to 0`, for the iterations `t = n-1, …, 0`, starting from the variables `v` and the variable `swap`. -/
def loop {R : Type} [CommRing R] (x1 : R) (k : Nat) : Nat → Bool → Vars R → Vars R
  | 0, swap, v => v.swap swap
  | n + 1, swap, v =>
    let kt := k.testBit n
    loop x1 k n kt ((v.swap (swap ^^ kt)).step x1)

/-- The variables after the loop and the last conditional swap, for `bits = 255`. -/
def ladder {R : Type} [CommRing R] (k : Nat) (u : R) : Vars R := loop u k 255 false ⟨1, 0, u, 1⟩

/-- `Return x_2 * (z_2^(p - 2))`. -/
def scalarMult (k : Nat) (u : F) : F :=
  let v := ladder k u
  v.x2 * v.z2 ^ (p - 2)

/-- `decodeScalar25519`: the lowest three bits cleared, bit 255 cleared, bit 254 set. -/
def decodeScalar (k : Bytes) : Nat := clamp (leNat k)

/-- `decodeUCoordinate`: the most significant bit of the last byte is masked; non-canonical values are reduced. -/
def decodeU (u : Bytes) : F := ((leNat u % 2 ^ 255 : Nat) : F)

/-- `encodeUCoordinate`. -/
def encodeU (u : F) : Bytes := toLE 32 u.val

/-- The function X25519. -/
def x25519 (k u : Bytes) : Bytes := encodeU (scalarMult (decodeScalar k) (decodeU u))

/-- Section 6.1: the public key of a private key is `X25519(k, 9)`. -/
def base : Bytes := toLE 32 9

end Verif.Spec.X25519
