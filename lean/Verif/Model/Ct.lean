import Verif.Base.Bytes

/-!
Models of the constant-time helpers `low/generic/ct_equal.rs`, `low/generic/ct_copy.rs`, and of the
inline assembly of `low/x86_64/cpu.rs` and `low/aarch64/cpu.rs` they use.

The assembly loops are modelled as recursion over the memory they traverse.
`core::hint::black_box` is the identity.
-/
namespace Verif.Ct

/-- The loop of `ct_compare_bytes`, x86_64/cpu.rs:93-116 and aarch64/cpu.rs:131-153:
`acc |= a[i] ^ b[i]` for each of the `len` positions. -/
def compareLoop : Nat → Bytes → Bytes → Byte → Byte
  | 0, _, _, acc => acc
  | n + 1, a :: as, b :: bs, acc => compareLoop n as bs (acc ||| (a ^^^ b))
  -- reading past the end: excluded by the callers (see `ctEqual`)
  | _ + 1, _, _, acc => acc

/-- `ct_equal`, ct_equal.rs:6-14. -/
def ctEqual (a b : Bytes) : Bool :=
  if a.length ≠ b.length then false
  else compareLoop a.length a b 0#8 == 0#8

/-- The mask of `ct_copy`, ct_copy.rs:8: `((-(cond as i16)) >> 8) as u8`, an arithmetic shift. -/
def copyMask (cond : Bool) : Byte :=
  ((-(if cond then 1#16 else 0#16)).sshiftRight 8).setWidth 8

/-- `ct_copy`, ct_copy.rs:7-12: the new value of `output`. -/
def ctCopy (cond : Bool) (output ifFalse : Bytes) : Bytes :=
  let mask := copyMask cond
  (output.zip ifFalse).map (fun (out, ff) => ff ^^^ (mask &&& (out ^^^ ff)))

/-- `ct_select_i16`, ct_copy.rs:15-20. -/
def ctSelectI16 (bit : Byte) (ifSet ifUnset : BitVec 16) : BitVec 16 :=
  let mask : BitVec 16 := ((-(bit.setWidth 32)).sshiftRight 16).setWidth 16
  ifUnset ^^^ (mask &&& (ifSet ^^^ ifUnset))

/-- The by-1 loop of `zero_bytes`, x86_64/cpu.rs:71-76; aarch64/cpu.rs:106-109. -/
def zeroBy1 : Nat → Bytes → Bytes
  | 0, mem => mem
  | _ + 1, [] => []
  | n + 1, _ :: mem => 0#8 :: zeroBy1 n mem

/-- `_zero_bytes`, x86_64/cpu.rs:56-83 (`stride = 32`), and `zero_bytes`, aarch64/cpu.rs:95-120
(`stride = 16`): `len` bytes from the start of `mem`, by blocks of `stride` while that many remain,
then one by one.  `len` is below `2^63`, so the signed comparison is the unsigned one. -/
def zeroBytes (stride len : Nat) (mem : Bytes) : Bytes :=
  if 0 < stride ∧ stride ≤ len then
    List.replicate stride 0#8 ++ zeroBytes stride (len - stride) (mem.drop stride)
  else zeroBy1 len mem
termination_by len
decreasing_by omega

end Verif.Ct
