import Verif.Proof.MlKemPack
import Verif.Props.Sha3

/-!
Sampling: the noise polynomials (C44) and the matrix (C45).
-/
namespace Verif.MlKem
open Verif Verif.Spec.MlKem Verif.Sha3 Verif.Props

theorem batchBuf_eq (seed index : Bytes) : batchBuf seed index = batchInput (seed ++ index) := by
  rw [batchBuf, batchInput, List.length_append, Nat.sub_sub]; rfl

theorem accepted_append (a b : Bytes) (h : 3 ∣ a.length) : accepted (a ++ b) = accepted a ++ accepted b := by
  rw [accepted, accepted, accepted, chunksExact_append (by decide) h, List.flatMap_append, List.filter_append]

theorem accepted_nil : accepted [] = [] := by
  rw [accepted, chunksExact_short (by simp)]; rfl

theorem accepted_lt (a : Bytes) : ∀ x ∈ accepted a, x < 3329 := by
  intro x hx
  rw [accepted, List.mem_filter] at hx
  simpa using hx.2

/-- The integers of a list of numbers. -/
def ints (l : List Nat) : Coeffs := l.map (Nat.cast : Nat → Int)

theorem ints_append (a b : List Nat) : ints (a ++ b) = ints a ++ ints b := List.map_append
theorem ints_length (a : List Nat) : (ints a).length = a.length := List.length_map ..
theorem ints_take (a : List Nat) (n : Nat) : (ints a).take n = ints (a.take n) := List.map_take.symm

theorem filter_ok (bytes : Bytes) (h : 3 ∣ bytes.length) :
    ((twelveBit bytes).filter fun f => f < Q) = ints (accepted bytes) := by
  rw [twelveBit_ok bytes h, accepted, ints, List.filter_map]
  refine congrArg (List.map _) (List.filter_congr fun x _ => ?_)
  have e : ((x : Int) < Q) ↔ x < 3329 := by rw [Q]; omega
  rw [Bool.eq_iff_iff]
  simp only [Function.comp, decide_eq_true_eq]
  exact e

/-- The first `need` of a list, if there are that many. -/
def takeAll (need : Nat) (a : List Nat) : Option Coeffs := if need ≤ a.length then some (ints (a.take need)) else none

theorem takeAll_zero (a : List Nat) : takeAll 0 a = some [] := by simp [takeAll, ints]

theorem takeAll_append (need : Nat) (a b : List Nat) :
    takeAll need (a ++ b) = (takeAll (need - a.length) b).map fun r => ints (a.take need) ++ r := by
  rw [takeAll, takeAll, List.length_append]
  by_cases h : need ≤ a.length + b.length
  · rw [if_pos h, if_pos (by omega), Option.map_some, List.take_append, ints_append]
  · rw [if_neg h, if_neg (by omega), Option.map_none]

theorem tailCase_ok (fuel : Nat) (s : Lanes) (hs : s.length = 25) (need : Nat) :
    tailCase (keccak RC) fuel s need = takeAll need (accepted (seg (keccak RC) 168 s 0 (168 * fuel))) := by
  induction fuel generalizing s need with
  | zero =>
    rw [Nat.mul_zero, show seg (keccak RC) 168 s 0 0 = [] from rfl, accepted_nil]
    cases need with
    | zero => rw [tailCase]; rfl
    | succ n => rw [tailCase]; rfl
  | succ fuel ih =>
    cases need with
    | zero => rw [takeAll_zero, tailCase]
    | succ need =>
      rw [tailCase, show SHAKE_128_R = 168 from rfl,
        squeeze_ok shape_keccak 168 (by decide) (by decide) 168 s hs, show (168 + 168 - 1) / 168 = 1 from rfl]
      simp only [Option.bind_eq_bind, Option.bind_some]
      rw [filter_ok _ (by rw [seg_length]; decide), ih _ (iterL_length shape_keccak 1 s hs), ints_take, ints_length,
        ← seg_block (keccak RC) 168 (by decide) s 1, show 168 * (fuel + 1) = 168 + 168 * fuel by ring,
        ← seg_append, accepted_append _ _ (by rw [seg_length]; decide), takeAll_append, List.length_take, Nat.mul_one,
        Nat.zero_add]
      generalize accepted (seg (keccak RC) 168 s 0 168) = a
      rw [show need + 1 - min (need + 1) a.length = need + 1 - a.length by omega]
      cases takeAll (need + 1 - a.length) (accepted (seg (keccak RC) 168 s 168 (168 * fuel))) <;> rfl

/-- The contract of the vectorised rejection sampler. -/
def RejOk (A : Asm) : Prop := ∀ B : Bytes, B.length = 504 → A.rej B = ints ((accepted B).take 256)

/-- Bulk output, then the tail: the first 256 accepted values of the whole stream. -/
theorem sample_ok (A : Asm) (hA : RejOk A) (fuel : Nat) (s : Lanes) (hs : s.length = 25) :
    (tailCase (keccak RC) fuel (iterL (keccak RC) 3 s) (N - (A.rej (seg (keccak RC) 168 s 0 504)).length)).map
        (fun t => A.rej (seg (keccak RC) 168 s 0 504) ++ t) =
      takeAll 256 (accepted (seg (keccak RC) 168 s 0 (168 * (3 + fuel)))) := by
  rw [tailCase_ok _ _ (iterL_length shape_keccak 3 s hs), hA _ (seg_length ..), ints_length, List.length_take,
    ← seg_block (keccak RC) 168 (by decide) s 3, show 168 * (3 + fuel) = 504 + 168 * fuel by ring, ← seg_append,
    accepted_append _ _ (by rw [seg_length]; decide), takeAll_append, show 0 + 504 = 168 * 3 from rfl]
  rw [show N - min 256 (accepted (seg (keccak RC) 168 s 0 504)).length =
    256 - (accepted (seg (keccak RC) 168 s 0 504)).length by rw [N]; omega]

/-- What a sampler with `limit` bytes of output returns for a 34-byte seed. -/
def sampled (limit : Nat) (B : Bytes) : Option Coeffs := takeAll 256 (accepted (Spec.Keccak.shake128 B limit))

theorem sampleInto_ok (A : Asm) (hA : RejOk A) (fuel : Nat) (parts : List Bytes) :
    ((newForMessage (keccak RC) SHAKE_128_R SHAKE_PAD parts).bind fun s => sampleInto A fuel s) =
      sampled (168 * (3 + fuel)) parts.flatten := by
  obtain ⟨c, e1, h1⟩ := absorbAll_ok (keccak RC) 168 (by decide) parts _ _ (rel_new (keccak RC) 168 (by decide))
  obtain ⟨s, e2, h2, h4⟩ := newForMessage_ok shape_keccak 168 (by decide) (by decide) (by decide) domain_shake c _ h1
  have hs : ∀ d, Spec.Keccak.shake128 parts.flatten d = seg (keccak RC) 168 s 0 d := by
    intro d
    rw [Spec.Keccak.shake128, ← keccak_ok]
    exact sponge_eq _ 168 _ _ d s h4
  rw [newForMessage, show SHAKE_128_R = 168 from rfl, e1]
  simp only [Option.bind_eq_bind, Option.bind_some, e2]
  rw [sampleInto, show SHAKE_128_R = 168 from rfl, squeeze_ok shape_keccak 168 (by decide) (by decide) _ s h2]
  rw [sampled, hs, ← sample_ok A hA fuel s h2]
  simp only [Option.bind_eq_bind, Option.bind_some]
  rw [show (168 * 3 + 168 - 1) / 168 = 3 from rfl, show 168 * 3 = 504 from rfl]
  cases tailCase (keccak RC) fuel (iterL (keccak RC) 3 s) (N - (A.rej (seg (keccak RC) 168 s 0 504)).length) <;> rfl

theorem sampleLane_ok (A : Asm) (hA : RejOk A) (fuel : Nat) (m : Bytes) (s : Lanes) (hs : s.length = 25)
    (hm : ∀ d, Spec.Keccak.shake128 m d = seg (keccak RC) 168 s 0 d) :
    sampleLane A fuel (Spec.Keccak.shake128 m 504) (keccak RC (keccak RC s)) = sampled (168 * (3 + fuel)) m := by
  rw [sampled, hm (168 * (3 + fuel)), ← sample_ok A hA fuel s hs, sampleLane, restitute, hm, iterL_three]
  cases tailCase (keccak RC) fuel (keccak RC (keccak RC (keccak RC s)))
    (N - (A.rej (seg (keccak RC) 168 s 0 504)).length) <;> rfl

theorem samplePolyQuad_ok (A : Asm) (hA : RejOk A) (fuel : Nat) (rho i0 i1 i2 i3 : Bytes) (hr : rho.length = 32)
    (l0 : i0.length = 2) (l1 : i1.length = 2) (l2 : i2.length = 2) (l3 : i3.length = 2) :
    samplePolyQuad A fuel rho i0 i1 i2 i3 = (do
      let o0 ← sampled (168 * (3 + fuel)) (rho ++ i0)
      let o1 ← sampled (168 * (3 + fuel)) (rho ++ i1)
      let o2 ← sampled (168 * (3 + fuel)) (rho ++ i2)
      let o3 ← sampled (168 * (3 + fuel)) (rho ++ i3)
      pure [o0, o1, o2, o3]) := by
  have h0 : (rho ++ i0).length = 34 := by rw [List.length_append, hr, l0]
  have h1 : (rho ++ i1).length = 34 := by rw [List.length_append, hr, l1]
  have h2 : (rho ++ i2).length = 34 := by rw [List.length_append, hr, l2]
  have h3 : (rho ++ i3).length = 34 := by rw [List.length_append, hr, l3]
  have l : ∀ m : Bytes, m.length = 34 → (batchInput m).length = 40 := fun m h => batchInput_length m (by omega)
  rw [samplePolyQuad, batchBuf_eq, batchBuf_eq, batchBuf_eq, batchBuf_eq, new4x]
  generalize rho ++ i0 = m0 at *
  generalize rho ++ i1 = m1 at *
  generalize rho ++ i2 = m2 at *
  generalize rho ++ i3 = m3 at *
  simp only [four, setLanes_setLanes _ _ _ (l _ h0) (l _ h1), setLanes_setLanes _ _ _ (l _ h1) (l _ h2),
    setLanes_setLanes _ _ _ (l _ h2) (l _ h3)]
  obtain ⟨a0, a1, a2, a3, a4⟩ := lane_ok m0 h0 _ rfl
  obtain ⟨b0, b1, b2, b3, b4⟩ := lane_ok m1 h1 _ rfl
  obtain ⟨c0, c1, c2, c3, c4⟩ := lane_ok m2 h2 _ rfl
  obtain ⟨d0, d1, d2, d3, d4⟩ := lane_ok m3 h3 _ rfl
  generalize keccak RC (setLanes (endBit SHAKE_128_R) (batchInput m0)) = sa at *
  generalize keccak RC (setLanes (endBit SHAKE_128_R) (batchInput m1)) = sb at *
  generalize keccak RC (setLanes (endBit SHAKE_128_R) (batchInput m2)) = sc at *
  generalize keccak RC (setLanes (endBit SHAKE_128_R) (batchInput m3)) = sd at *
  have e : squeeze4x (keccak RC) ⟨sa, sb, sc, sd⟩ = some
      (⟨keccak RC (keccak RC sa), keccak RC (keccak RC sb), keccak RC (keccak RC sc), keccak RC (keccak RC sd)⟩,
        [m0, m1, m2, m3].map fun m => Spec.Keccak.shake128 m 504) := by
    rw [squeeze4x]
    simp only [squeezeRate, four, SHAKE_128_R] at *
    simp only [a1, a2, a3, b1, b2, b3, c1, c2, c3, d1, d2, d3, Option.bind_eq_bind, Option.bind_some, Option.pure_def,
      List.zipWith_cons_cons, List.zipWith_nil_right, List.map_cons, List.map_nil, lane_join, a4, b4, c4, d4]
  simp only [e, Option.bind_eq_bind, Option.bind_some, List.map_cons, List.map_nil, List.getD_cons_zero,
    List.getD_cons_succ, sampleLane_ok A hA fuel m0 sa a0 a4, sampleLane_ok A hA fuel m1 sb b0 b4,
    sampleLane_ok A hA fuel m2 sc c0 c4, sampleLane_ok A hA fuel m3 sd d0 d4]

theorem sampled_length (limit : Nat) (B : Bytes) (c : Coeffs) (h : sampled limit B = some c) : c.length = 256 := by
  rw [sampled, takeAll] at h
  split at h
  · cases h; rw [ints_length, List.length_take]; omega
  · cases h

/-- The nine polynomials in row order. -/
theorem samplePoly_ok (A : Asm) (hA : RejOk A) (fuel : Nat) (tr : Bool) (rho : Bytes) (hr : rho.length = 32) :
    samplePoly A fuel tr rho = Option.map (List.map A.unpack)
      (SAMPLE_POLY_WORK.mapM fun w => sampled (168 * (3 + fuel)) (rho ++ indexBytes tr w)) := by
  have li : ∀ w, (indexBytes tr w).length = 2 := by intro w; cases tr <;> rfl
  have c4 : chunksExact 4 SAMPLE_POLY_WORK = [[(0#8, 0#8, 0), (0#8, 1#8, 1), (0#8, 2#8, 2), (1#8, 0#8, 3)],
      [(1#8, 1#8, 4), (1#8, 2#8, 5), (2#8, 0#8, 6), (2#8, 1#8, 7)]] := by decide +kernel
  have cr : chunksRem 4 SAMPLE_POLY_WORK = [(2#8, 2#8, 8)] := by decide +kernel
  rw [samplePoly, c4, cr]
  simp only [sampleFours, sampleRest, List.getD_cons_zero, List.getD_cons_succ,
    samplePolyQuad_ok A hA fuel rho _ _ _ _ hr (li _) (li _) (li _) (li _), SAMPLE_POLY_WORK, List.mapM_cons,
    List.mapM_nil]
  have hs := sampleInto_ok A hA fuel [rho, indexBytes tr (2#8, 2#8, 8)]
  rw [List.flatten_cons, List.flatten_cons, List.flatten_nil, List.append_nil] at hs
  simp only [Option.bind_eq_bind] at *
  rw [← hs]
  generalize sampled (168 * (3 + fuel)) (rho ++ indexBytes tr (0#8, 0#8, 0)) = o0
  generalize sampled (168 * (3 + fuel)) (rho ++ indexBytes tr (0#8, 1#8, 1)) = o1
  generalize sampled (168 * (3 + fuel)) (rho ++ indexBytes tr (0#8, 2#8, 2)) = o2
  generalize sampled (168 * (3 + fuel)) (rho ++ indexBytes tr (1#8, 0#8, 3)) = o3
  generalize sampled (168 * (3 + fuel)) (rho ++ indexBytes tr (1#8, 1#8, 4)) = o4
  generalize sampled (168 * (3 + fuel)) (rho ++ indexBytes tr (1#8, 2#8, 5)) = o5
  generalize sampled (168 * (3 + fuel)) (rho ++ indexBytes tr (2#8, 0#8, 6)) = o6
  generalize sampled (168 * (3 + fuel)) (rho ++ indexBytes tr (2#8, 1#8, 7)) = o7
  cases o0; · rfl
  cases o1; · rfl
  cases o2; · rfl
  cases o3; · rfl
  cases o4; · rfl
  cases o5; · rfl
  cases o6; · rfl
  cases o7; · rfl
  simp only [Option.bind_some, Option.pure_def]
  cases newForMessage (keccak RC) SHAKE_128_R SHAKE_PAD [rho, indexBytes tr (2#8, 2#8, 8)] with
  | none => rfl
  | some s =>
    simp only [Option.bind_some]
    cases sampleInto A fuel s <;> rfl

/-! ### Noise -/

/-- A noise polynomial of a 32-byte seed. -/
def noise (seed : Bytes) (b : Byte) : Coeffs := sampleCbd2 (PRF seed b)

theorem samplePolyCbdDual_ok (Gu : Lanes → Lanes) (sigma : Bytes) (h : sigma.length = 32) :
    samplePolyCbdDual Gu sigma = some ([noise sigma 0#8, noise sigma 1#8, noise sigma 2#8],
      [noise sigma 3#8, noise sigma 4#8, noise sigma 5#8]) := by
  have l : ∀ b : Byte, (sigma ++ [b]).length = 33 := by intro b; rw [List.length_append, h]; rfl
  rw [samplePolyCbdDual]
  simp only [batchBuf_eq]
  rw [C22_sextet Gu _ _ _ _ _ _ (l _) (l _) (l _) (l _) (l _) (l _)]
  rfl

theorem cbdBits_range (b : List Bool) : -2 ≤ cbdBits b ∧ cbdBits b ≤ 2 := by
  rw [cbdBits]
  have h : ∀ x : Bool, x.toNat ≤ 1 := Bool.toNat_le
  have h0 := h (b.getD 0 false)
  have h1 := h (b.getD 1 false)
  have h2 := h (b.getD 2 false)
  have h3 := h (b.getD 3 false)
  omega

theorem shake_length (m : Bytes) (d : Nat) : (Spec.Keccak.shake256 m d).length = d := by
  rw [Spec.Keccak.shake256, Spec.Keccak.sponge, Spec.Keccak.squeeze]; simp

theorem noise_length (seed : Bytes) (b : Byte) : (noise seed b).length = 256 := by
  rw [noise, sampleCbd2_ok _ (by rw [PRF, shake_length]; decide), List.length_map,
    length_chunksExact (by decide), bytesToBits_length, PRF, shake_length]

theorem noise_range (seed : Bytes) (b : Byte) : ∀ x ∈ noise seed b, -2 ≤ x ∧ x ≤ 2 := by
  intro x hx
  rw [noise, sampleCbd2_ok _ (by rw [PRF, shake_length]; decide), List.mem_map] at hx
  obtain ⟨c, _, rfl⟩ := hx
  exact cbdBits_range c

end Verif.MlKem
