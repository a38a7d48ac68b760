import Verif.Base.Chunks

/-!
GHASH, from NIST SP 800-38D: multiplication on blocks (6.3) and the GHASH function (6.4).
A block is a string of 128 bits; `BitVec.getMsbD b i` is its bit `i` counted from the left.
-/
namespace Verif.Spec.Ghash
open Verif

/-- `R = 11100001 ‖ 0^120`. -/
def R : BitVec 128 := 0xe1#8 ++ 0#120

/-- One step of algorithm 1: `(Z, V)` to the next, given bit `x_i`. -/
def mulStep (X : BitVec 128) (s : BitVec 128 × BitVec 128) (i : Nat) : BitVec 128 × BitVec 128 :=
  let Z := if X.getMsbD i then s.1 ^^^ s.2 else s.1
  let V := if s.2.getLsbD 0 then (s.2 >>> 1) ^^^ R else s.2 >>> 1
  (Z, V)

/-- `X • Y`. -/
def mul (X Y : BitVec 128) : BitVec 128 := ((List.range 128).foldl (mulStep X) (0#128, Y)).1

/-- Absorb blocks: `Y_i = (Y_{i-1} ⊕ X_i) • H`. -/
def absorb (H : BitVec 128) : BitVec 128 → List (BitVec 128) → BitVec 128 :=
  List.foldl (fun Y X => mul (Y ^^^ X) H)

/-- `GHASH_H`. -/
def ghash (H : BitVec 128) (blocks : List (BitVec 128)) : BitVec 128 := absorb H 0#128 blocks

/-- A byte string, zero-padded on the right to whole blocks. -/
def blocksOf (data : Bytes) : List (BitVec 128) :=
  (chunks 16 data).map fun c => BitVec.ofNat 128 (beNat (c ++ List.replicate (16 - c.length) 0#8))

end Verif.Spec.Ghash
