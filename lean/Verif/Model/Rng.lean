import Verif.Model.Error

/-!
Model of `graviola/src/mid/rng.rs`: the `RandomSource` trait.
-/
namespace Verif

/-- `RandomSource`, rng.rs:11-13: what call number `i`, asking for `n` bytes, gives; the history of a source is the
function, so statements for every `RandomSource` hold for every history.  A panic in a caller's source is not modelled. -/
abbrev RandomSource := Nat → Nat → Except GError Bytes

/-- A source fills the slice it is given. -/
def RandomSource.Fills (r : RandomSource) : Prop := ∀ i n b, r i n = .ok b → b.length = n

end Verif
