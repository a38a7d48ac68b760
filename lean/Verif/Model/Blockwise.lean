import Verif.Base.Chunks

/-!
Model of `graviola/src/low/generic/blockwise.rs`: the buffer used by SHA-2, Poly1305 and the sponge.

A function taking `&mut self` returns the new value.  `none` is a panic (slice index out of range,
`unwrap` of `None`, or `usize` subtraction below zero).
-/
namespace Verif.Blockwise

/-- `Blockwise<N>`, blockwise.rs:5-8.  `buffer` has `N` elements in every reachable state. -/
structure Blockwise where
  buffer : Bytes
  used : Nat

/-- `self.buffer[start..start + src.len()].copy_from_slice(src)`; panics if out of range. -/
def copyInto (buffer : Bytes) (start : Nat) (src : Bytes) : Option Bytes :=
  if start + src.length ≤ buffer.length then
    some (buffer.take start ++ src ++ buffer.drop (start + src.length))
  else none

/-- `Blockwise::<N>::new`, blockwise.rs:11-16. -/
def new (N : Nat) : Blockwise := ⟨List.replicate N 0#8, 0⟩

/-- `add_leading`, blockwise.rs:30-41: new state and the bytes not consumed. -/
def addLeading (N : Nat) (s : Blockwise) (bytes : Bytes) : Option (Blockwise × Bytes) :=
  if s.used = 0 then some (s, bytes)
  else if N < s.used then none
  else
    let space := N - s.used
    let take := min bytes.length space
    match copyInto s.buffer s.used (bytes.take take) with
    | none => none
    | some b => some (⟨b, s.used + take⟩, bytes.drop take)

/-- `take`, blockwise.rs:43-50. -/
def take (N : Nat) (s : Blockwise) : Blockwise × Option Bytes :=
  if s.used = N then (⟨s.buffer, 0⟩, some s.buffer) else (s, none)

/-- `peek_remaining`, blockwise.rs:52-58. -/
def peekRemaining (s : Blockwise) : Option Bytes :=
  if 0 < s.used then some (s.buffer.take s.used) else none

/-- `add_trailing`, blockwise.rs:60-63. -/
def addTrailing (s : Blockwise) (trailing : Bytes) : Option Blockwise :=
  match copyInto s.buffer 0 trailing with
  | none => none
  | some b => some ⟨b, s.used + trailing.length⟩

/-- `add`, blockwise.rs:22-28. -/
def add (N : Nat) (s : Blockwise) (bytes : Bytes) : Option Blockwise :=
  if s.used = 0 then addTrailing s bytes
  else (addLeading N s bytes).map (·.1)

/-- `md_pad_with_length` followed by `FinalBlocks::as_ref`, blockwise.rs:65-89, 97-104: the one or
two final blocks, concatenated.  The updated buffer is dropped: both callers own the context. -/
def mdPadWithLength (N : Nat) (s : Blockwise) (lengthBits : Bytes) : Option Bytes :=
  if N < s.used then none
  else
    let space := N - s.used
    let required := 1 + lengthBits.length
    if space < required then
      -- two block case, blockwise.rs:71-78
      match addLeading N s [0x80#8] with
      | none => none
      | some (s1, _) =>
        match addLeading N s1 (List.replicate N 0#8) with
        | none => none
        | some (s2, _) =>
          match take N s2 with
          | (_, none) => none
          | (_, some first) =>
            if N < lengthBits.length then none
            else some (first ++ (List.replicate (N - lengthBits.length) 0#8 ++ lengthBits))
    else
      -- one block case, blockwise.rs:80-87
      let trailerLen := s.buffer.length - s.used
      let zeroes := trailerLen - lengthBits.length - 1
      some (s.buffer.take s.used ++ ([0x80#8] ++ List.replicate zeroes 0#8 ++ lengthBits))

end Verif.Blockwise
