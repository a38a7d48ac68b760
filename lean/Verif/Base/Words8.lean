/-!
Eight machine words, the state of a SHA-2 compression function.
-/
namespace Verif

/-- `[uW; 8]`, the chaining state, and also the working variables `a..h`. -/
structure St (w : Nat) where
  a : BitVec w
  b : BitVec w
  c : BitVec w
  d : BitVec w
  e : BitVec w
  f : BitVec w
  g : BitVec w
  h : BitVec w
  deriving DecidableEq

end Verif
