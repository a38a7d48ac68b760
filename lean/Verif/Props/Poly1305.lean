import Verif.Proof.Poly1305Stream

/-!
C23: Poly1305 (`Spec/Poly1305.lean` is RFC 8439, 2.5).  `none` is a panic.
-/
namespace Verif.Props
open Verif

/-- Run the authenticator: `new`, one `add_bytes` per element, `finish`. -/
def runPoly (key : Bytes) (parts : List Bytes) : Option Bytes :=
  (parts.foldlM Poly1305.addBytes (Poly1305.new key)).bind Poly1305.finish

theorem polyParts_ok (key : Bytes) (parts : List Bytes) (p : Poly1305.Poly1305) (m : Bytes)
    (h : Poly1305.Absorbed key p m) :
    ∃ p', parts.foldlM Poly1305.addBytes p = some p' ∧ Poly1305.Absorbed key p' (m ++ parts.flatten) := by
  induction parts generalizing p m with
  | nil => exact ⟨p, rfl, by simpa using h⟩
  | cons b bs ih =>
    obtain ⟨p1, e1, h1⟩ := Poly1305.addBytes_ok key p m b h
    obtain ⟨p2, e2, h2⟩ := ih p1 _ h1
    refine ⟨p2, ?_, by simpa using h2⟩
    rw [List.foldlM_cons, e1]; exact e2

/-- **C23** For every key, message and split of the message, the tag is RFC 8439's; no panic. -/
theorem C23_poly1305 (key : Bytes) (hk : key.length = 32) (parts : List Bytes) :
    runPoly key parts = some (Spec.Poly1305.mac key parts.flatten) := by
  obtain ⟨p, e, h⟩ := polyParts_ok key parts _ [] (Poly1305.absorbed_new key)
  rw [runPoly, e]
  exact Poly1305.finish_ok key hk p _ h

/-- **C23** After any calls, processing any further block (16 bytes, or a shorter last one padded
with the one byte) overflows nowhere: a build with overflow checks computes the same accumulator. -/
theorem C23_no_overflow (key : Bytes) (parts : List Bytes) (block : Bytes) (hb : block.length = 16) :
    ∃ p, parts.foldlM Poly1305.addBytes (Poly1305.new key) = some p ∧
      (∀ top : BitVec 32, top = (Poly1305.read32 block 12 >>> 8) ||| (1#32 <<< 24) ∨
          top = Poly1305.read32 block 12 >>> 8 →
        let x : Poly1305.L5 := ⟨Poly1305.read32 block 0 &&& 0x3ffffff#32,
          (Poly1305.read32 block 3 >>> 2) &&& 0x3ffffff#32,
          (Poly1305.read32 block 6 >>> 4) &&& 0x3ffffff#32,
          (Poly1305.read32 block 9 >>> 6) &&& 0x3ffffff#32, top⟩
        Poly1305.mulChecked (Poly1305.add p.h x) p.r p.r5 = some (Poly1305.processBlock p x).h) ∧
      -- and the multiples of `r` computed by `new` are exact
      p.r5.x0.toNat = 5 * p.r.x1.toNat ∧ p.r5.x1.toNat = 5 * p.r.x2.toNat ∧
      p.r5.x2.toNat = 5 * p.r.x3.toNat ∧ p.r5.x3.toNat = 5 * p.r.x4.toNat := by
  obtain ⟨p, e, h⟩ := polyParts_ok key parts _ [] (Poly1305.absorbed_new key)
  have hl : Poly1305.Limbs p.r := by rw [h.r]; exact (Poly1305.new_r key).2
  have h5 : p.r5 = ⟨p.r.x1 * 5#32, p.r.x2 * 5#32, p.r.x3 * 5#32, p.r.x4 * 5#32⟩ := by
    rw [h.r5, h.r]; rfl
  refine ⟨p, e, ?_, ?_⟩
  · intro top ht
    simp only []
    have hx : ∃ ex ≤ 2 ^ 24, top.toNat = leNat block / 2 ^ 104 + ex := by
      rcases ht with ht | ht
      · exact ⟨2 ^ 24, by omega, by rw [ht]; exact Poly1305.top_whole block hb⟩
      · exact ⟨0, by omega, by rw [ht]; exact Poly1305.top_last block hb⟩
    obtain ⟨ex, hex, ht2⟩ := hx
    obtain ⟨-, lx⟩ := Poly1305.load_ok block top ex hb ht2 hex
    obtain ⟨-, b0, b1, b2, b3, b4⟩ := Poly1305.add_ok p.h _ h.small lx
    rw [Poly1305.processBlock, h5]
    exact Poly1305.mulChecked_ok _ p.r hl b0 b1 b2 b3 b4
  · obtain ⟨-, l1, l2, l3, l4⟩ := hl
    rw [h5]
    simp only [Poly1305.times5 l1, Poly1305.times5 l2, Poly1305.times5 l3, Poly1305.times5 l4]
    omega

/-! ### Concrete cases -/

/-- The RFC-style key used in the crate's own test. -/
def polyKey : Bytes := [0x74, 0x68, 0x69, 0x73, 0x20, 0x69, 0x73, 0x20, 0x33, 0x32, 0x2d, 0x62, 0x79,
  0x74, 0x65, 0x20, 0x6b, 0x65, 0x79, 0x20, 0x66, 0x6f, 0x72, 0x20, 0x50, 0x6f, 0x6c, 0x79,
  0x31, 0x33, 0x30, 0x35]

example : runPoly polyKey [List.replicate 5 0#8, List.replicate 27 0#8] =
    some [0x49, 0xec, 0x78, 0x09, 0x0e, 0x48, 0x1e, 0xc6, 0xc2, 0x6b, 0x33, 0xb9, 0x1c, 0xcc,
      0x03, 0x07] := by
  rw [C23_poly1305 polyKey (by decide)]; decide +kernel

end Verif.Props
