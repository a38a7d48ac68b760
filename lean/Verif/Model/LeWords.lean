import Verif.Base.Chunks
import Verif.Model.Ec

/-!
Model of the little-endian half of `graviola/src/mid/util.rs`.
-/
namespace Verif.Ec
open Bignum

/-- `$fn_array_to` of `little_endian!`, util.rs:9-15. -/
def leArrayTo (N : Nat) (b : Bytes) : Elt N := ofWords N ((chunksExact 8 b).map fun c => BitVec.ofNat 64 (leNat c))

/-- `$fn_slice_to` of `little_endian!`, util.rs:18-21. -/
def leSliceTo (N : Nat) (b : Bytes) : Option (Elt N) := if b.length = N * 8 then some (leArrayTo N b) else none

/-- `$fn_to_bytes` of `little_endian!`, util.rs:24-30. -/
def toLittleEndian {N : Nat} (v : Elt N) : Bytes := ((words v).map fun w => toLE 8 w.toNat).flatten

end Verif.Ec
