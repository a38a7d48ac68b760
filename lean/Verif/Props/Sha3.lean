import Verif.Proof.Sha3

/-!
C20, C21 and C22: SHA-3, SHAKE and their batched forms against FIPS 202 (`Spec/Keccak.lean`).
-/
namespace Verif.Props
open Verif Verif.Sha3

/-- `Sha3_256Context::new`, any sequence of `update`s, `finish`. -/
def runSha3 (R outputSz : Nat) (ms : List Bytes) : Option Bytes := do
  let c ← ms.foldlM (sha3Update R) (Sponge.new R)
  sha3Finish R outputSz c

theorem sha3_finish (R outputSz : Nat) (h3 : 3 ≤ R) (h8 : 8 ∣ R) (hR : R ≤ SHAKE_128_R) (ho : outputSz < R)
    (ms : List Bytes) : runSha3 R outputSz ms =
      some (Spec.Keccak.sponge Spec.Keccak.keccakF R Spec.Keccak.sha3Suffix ms.flatten outputSz) := by
  have hR2 : R ≤ 200 := Nat.le_trans hR (by decide)
  obtain ⟨c, e1, h1⟩ := absorbAll_ok (keccak RC) R (by omega) ms _ _ (rel_new _ R (by omega))
  obtain ⟨s, e2, h2, h4⟩ := newForMessage_ok shape_keccak R h3 h8 hR domain_sha3 c _ h1
  rw [runSha3]
  have e1' : ms.foldlM (sha3Update R) (Sponge.new R) = some c := e1
  rw [e1']
  simp only [Option.bind_eq_bind, Option.bind_some, sha3Finish, e2, intoSingleSqueeze, if_pos ho]
  rw [seg_current (F := keccak RC) R outputSz s (by omega) hR2 h2]
  rw [List.nil_append] at h4
  rw [← sponge_eq _ R _ _ outputSz s h4, keccak_ok]

/-- **C20** SHA3-256 of any sequence of updates is SHA3-256 of their concatenation. -/
theorem C20_sha3_256 (ms : List Bytes) :
    runSha3 SHA3_256_R 32 ms = some (Spec.Keccak.sha3_256 ms.flatten) :=
  sha3_finish 136 32 (by decide) (by decide) (by decide) (by decide) ms

/-- **C20** SHA3-512 of any sequence of updates is SHA3-512 of their concatenation. -/
theorem C20_sha3_512 (ms : List Bytes) :
    runSha3 SHA3_512_R 64 ms = some (Spec.Keccak.sha3_512 ms.flatten) :=
  sha3_finish 72 64 (by decide) (by decide) (by decide) (by decide) ms

/-- **C20** After any pieces and the final padding, the sponge state is the standard's: the padded, domain-separated
concatenation absorbed block by block.  `PAD` is 0x06 for SHA-3 and 0x1f for SHAKE. -/
theorem C20_state (R : Nat) (h8 : 8 ∣ R) (h3 : 3 ≤ R) (hR : R ≤ 168) (suffix : List Bool) (PAD : Byte)
    (hd : (suffix, PAD) = ([false, true], 0x06#8) ∨ (suffix, PAD) = ([true, true, true, true], 0x1f#8))
    (ms : List Bytes) :
    (newForMessage (keccak RC) R PAD ms).map Spec.Keccak.bytesOf =
      some (Spec.Keccak.absorb (Spec.Keccak.onBytes Spec.Keccak.keccakF) R
        (Spec.Keccak.padded R suffix ms.flatten)) := by
  have hd' : Domain suffix PAD := by
    rcases hd with h | h <;> (cases h; constructor <;> decide)
  obtain ⟨c, e1, h1⟩ := absorbAll_ok (keccak RC) R (by omega) ms _ _ (rel_new _ R (by omega))
  obtain ⟨s, e2, _, h4⟩ := newForMessage_ok shape_keccak R h3 h8 hR hd' c _ h1
  rw [newForMessage, e1]
  simp only [Option.bind_eq_bind, Option.bind_some, e2, Option.map_some]
  rw [← keccak_ok]
  exact congrArg some h4

/-- A history of reads from one SHAKE instance: the output of each. -/
def readAll (F : Lanes → Lanes) (R : Nat) (k : Shake) : List Nat → Option (List Bytes)
  | [] => some []
  | n :: ns => do
    let (k, o) ← shakeRead F R k n
    let os ← readAll F R k ns
    pure (o :: os)

/-- `Shake128::new` or `Shake256::new` on pieces, then reads. -/
def runShake (R : Nat) (message : List Bytes) (reads : List Nat) : Option (List Bytes) := do
  let k ← shakeNew (keccak RC) R message
  readAll (keccak RC) R k reads

theorem readAll_ok {F : Lanes → Lanes} (hF : Shape F) (R : Nat) (h0 : 0 < R) (hR : R ≤ 200) (s0 : Lanes)
    (hs : s0.length = 25) (ns : List Nat) (k : Shake) (p : Nat) (h : At F R s0 k p) :
    ∃ outs, readAll F R k ns = some outs ∧ outs.map List.length = ns ∧ outs.flatten = seg F R s0 p ns.sum := by
  induction ns generalizing k p with
  | nil => exact ⟨[], rfl, rfl, rfl⟩
  | cons n ns ih =>
    obtain ⟨k1, e1, h1⟩ := shakeRead_ok hF R h0 hR s0 hs k p n h
    obtain ⟨outs, e2, h2, h3⟩ := ih k1 _ h1
    refine ⟨seg F R s0 p n :: outs, ?_, ?_, ?_⟩
    · rw [readAll, e1]
      simp only [Option.bind_eq_bind, Option.bind_some, e2]
      rfl
    · rw [List.map_cons, h2, seg_length]
    · rw [List.flatten_cons, h3, seg_append, List.sum_cons]

theorem shake_reads (R : Nat) (h3 : 3 ≤ R) (h8 : 8 ∣ R) (hR : R ≤ SHAKE_128_R) (message : List Bytes)
    (reads : List Nat) : ∃ outs, runShake R message reads = some outs ∧ outs.map List.length = reads ∧
      outs.flatten = Spec.Keccak.sponge Spec.Keccak.keccakF R Spec.Keccak.shakeSuffix message.flatten reads.sum := by
  have hR2 : R ≤ 200 := Nat.le_trans hR (by decide)
  obtain ⟨k, s0, e, ⟨hs, ha⟩, hk⟩ := shakeNew_ok shape_keccak R h3 h8 hR message
  obtain ⟨outs, e2, h1, h2⟩ := readAll_ok shape_keccak R (by omega) hR2 s0 hs reads k 0 hk
  refine ⟨outs, ?_, h1, ?_⟩
  · rw [runShake, e]; exact e2
  · rw [h2, ← keccak_ok, sponge_eq _ R _ _ _ s0 ha]

/-- **C21** SHAKE128: whatever the read lengths, and whatever the split of the input, no read fails, each read fills
its buffer, and the outputs joined are SHAKE128 of the message at the total length. -/
theorem C21_shake128 (message : List Bytes) (reads : List Nat) :
    ∃ outs, runShake SHAKE_128_R message reads = some outs ∧ outs.map List.length = reads ∧
      outs.flatten = Spec.Keccak.shake128 message.flatten reads.sum :=
  shake_reads 168 (by decide) (by decide) (by decide) message reads

/-- **C21** SHAKE256, likewise. -/
theorem C21_shake256 (message : List Bytes) (reads : List Nat) :
    ∃ outs, runShake SHAKE_256_R message reads = some outs ∧ outs.map List.length = reads ∧
      outs.flatten = Spec.Keccak.shake256 message.flatten reads.sum :=
  shake_reads 136 (by decide) (by decide) (by decide) message reads

/-- **C21** The specification itself is consistent: a longer output extends a shorter one. -/
theorem C21_spec_prefix (f : Lanes → Lanes) (r : Nat) (suffix : List Bool) (M : Bytes) (a b : Nat) :
    (Spec.Keccak.sponge f r suffix M (a + b)).take a = Spec.Keccak.sponge f r suffix M a := by
  rw [Spec.Keccak.sponge, Spec.Keccak.squeeze, List.range_add, List.map_append, List.take_left' (by simp)]
  rfl

/-- The 40-byte form of a short SHAKE input that the batched functions take: the message, the domain byte, zeros. -/
def batchInput (m : Bytes) : Bytes := m ++ 0x1f#8 :: List.replicate (39 - m.length) 0#8

theorem sextet_state (m : Bytes) (h : m.length = 33) :
    squeezeCurrent (keccak RC (setLanes (endBit SHAKE_256_R) (batchInput m))) 128 =
      some (Spec.Keccak.shake256 m 128) := by
  obtain ⟨h1, h2⟩ := setLanes_ok shape_keccak 136 (.inl rfl) m (batchInput m) (by omega) rfl
  have := sponge_eq _ 136 _ _ 128 _ h2
  rw [show SHAKE_256_R = 136 from rfl, seg_current (F := keccak RC) 136 128 _ (by decide) (by decide) h1, ← this,
    Spec.Keccak.shake256, keccak_ok]

theorem batchInput_length (m : Bytes) (h : m.length ≤ 38) : (batchInput m).length = 40 := by
  simp [batchInput]; omega

/-- **C22** Six batched SHAKE256 outputs are the six separate ones, whatever the two-of-four permutation leaves in the
states it does not use. -/
theorem C22_sextet (G : Lanes → Lanes) (m0 m1 m2 m3 m4 m5 : Bytes) (h0 : m0.length = 33) (h1 : m1.length = 33)
    (h2 : m2.length = 33) (h3 : m3.length = 33) (h4 : m4.length = 33) (h5 : m5.length = 33) :
    oneShotSextet (keccak RC) G (batchInput m0) (batchInput m1) (batchInput m2) (batchInput m3) (batchInput m4)
      (batchInput m5) = some ([m0, m1, m2, m3, m4, m5].map fun m => Spec.Keccak.shake256 m 128) := by
  have l : ∀ m : Bytes, m.length = 33 → (batchInput m).length = 40 := fun m h => batchInput_length m (by omega)
  rw [oneShotSextet]
  simp only [four, twoOfFour, setLanes_setLanes _ _ _ (l _ h0) (l _ h1), setLanes_setLanes _ _ _ (l _ h1) (l _ h2),
    setLanes_setLanes _ _ _ (l _ h2) (l _ h3), setLanes_setLanes _ _ _ (l _ h3) (l _ h4),
    setLanes_setLanes _ _ _ (l _ h4) (l _ h5), sextet_state _ h0, sextet_state _ h1, sextet_state _ h2,
    sextet_state _ h3, sextet_state _ h4, sextet_state _ h5]
  rfl

/-- One of the four sponges: three blocks, each after the first preceded by a permutation. -/
theorem lane_ok (m : Bytes) (h : m.length = 34) (s : Lanes) (hs : s = keccak RC (setLanes (endBit SHAKE_128_R) (batchInput m))) :
    s.length = 25 ∧
    squeezeCurrent s 168 = some (seg (keccak RC) 168 s 0 168) ∧
    squeezeCurrent (keccak RC s) 168 = some (seg (keccak RC) 168 s 168 168) ∧
    squeezeCurrent (keccak RC (keccak RC s)) 168 = some (seg (keccak RC) 168 s 336 168) ∧
    ∀ d, Spec.Keccak.shake128 m d = seg (keccak RC) 168 s 0 d := by
  obtain ⟨h1, h2⟩ := setLanes_ok shape_keccak 168 (.inr rfl) m (batchInput m) (by omega) rfl
  have e : keccak RC (setLanes (endBit 168) (batchInput m)) = s := hs.symm
  rw [e] at h1 h2
  have b1 := seg_block (keccak RC) 168 (by decide) s 1 168
  have b2 := seg_block (keccak RC) 168 (by decide) s 2 168
  refine ⟨h1, seg_current 168 168 _ (by decide) (by decide) h1, ?_, ?_, ?_⟩
  · rw [seg_current (F := keccak RC) 168 168 _ (by decide) (by decide) (shape_keccak _ h1)]
    exact congrArg some b1.symm
  · rw [seg_current (F := keccak RC) 168 168 _ (by decide) (by decide) (shape_keccak _ (shape_keccak _ h1))]
    exact congrArg some b2.symm
  · intro d
    rw [Spec.Keccak.shake128, ← keccak_ok]
    exact sponge_eq _ 168 _ _ d s h2

theorem lane_join (s : Lanes) : seg (keccak RC) 168 s 0 168 ++ seg (keccak RC) 168 s 168 168 ++
    seg (keccak RC) 168 s 336 168 = seg (keccak RC) 168 s 0 504 := by
  rw [show (168 : Nat) = 0 + 168 from rfl, seg_append, show (336 : Nat) = 0 + (168 + 168) from rfl]
  exact seg_append (keccak RC) 168 s 0 336 168

/-- Further whole blocks from a single sponge: a history of `squeeze` calls. -/
def squeezeAll (F : Lanes → Lanes) (R : Nat) (s : Lanes) : List Nat → Option (List Bytes)
  | [] => some []
  | w :: ws => do
    let (s, o) ← squeeze F R s (R * w)
    let os ← squeezeAll F R s ws
    pure (o :: os)

theorem iterL_add (F : Lanes → Lanes) (a b : Nat) (s : Lanes) : iterL F a (iterL F b s) = iterL F (b + a) s := by
  induction b generalizing s with
  | zero => rw [Nat.zero_add]; rfl
  | succ b ih => rw [show b + 1 + a = (b + a) + 1 by omega]; exact ih (F s)

theorem iterL_three (F : Lanes → Lanes) (s : Lanes) : iterL F 3 s = F (F (F s)) := rfl

theorem squeezeAll_ok {F : Lanes → Lanes} (hF : Shape F) (R : Nat) (h0 : 0 < R) (hR : R ≤ 200) (s0 : Lanes)
    (hs : s0.length = 25) (ws : List Nat) (j : Nat) :
    ∃ outs, squeezeAll F R (iterL F j s0) ws = some outs ∧ outs.map List.length = ws.map (R * ·) ∧
      outs.flatten = seg F R s0 (R * j) (R * ws.sum) := by
  induction ws generalizing j with
  | nil => exact ⟨[], rfl, rfl, rfl⟩
  | cons w ws ih =>
    obtain ⟨outs, e, h1, h2⟩ := ih (j + w)
    refine ⟨seg F R s0 (R * j) (R * w) :: outs, ?_, ?_, ?_⟩
    · rw [squeezeAll, squeeze_ok hF R h0 hR _ _ (iterL_length hF _ _ hs)]
      have : (R * w + R - 1) / R = w := by
        rw [show R * w + R - 1 = R * w + (R - 1) by omega, Nat.mul_add_div h0, Nat.div_eq_of_lt (by omega),
          Nat.add_zero]
      simp only [Option.bind_eq_bind, Option.bind_some, this, iterL_add, e, ← seg_block F R h0]
      rfl
    · rw [List.map_cons, h1, seg_length]; rfl
    · rw [List.flatten_cons, h2, Nat.mul_add R j, seg_append, List.sum_cons, Nat.mul_add]

/-- **C22** Four batched SHAKE128 sponges: the three blocks of each are the first 504 bytes of its own output, and
paying the owed permutation of any of them leaves a single sponge that goes on from byte 504, for every number of
further squeezes. -/
theorem C22_four (m0 m1 m2 m3 : Bytes) (h0 : m0.length = 34) (h1 : m1.length = 34) (h2 : m2.length = 34)
    (h3 : m3.length = 34) :
    ∃ q, squeeze4x (keccak RC) (new4x (keccak RC) (batchInput m0) (batchInput m1) (batchInput m2) (batchInput m3)) =
        some (q, [m0, m1, m2, m3].map fun m => Spec.Keccak.shake128 m 504) ∧
      ∀ p ∈ [(m0, q.a), (m1, q.b), (m2, q.c), (m3, q.d)], ∀ ws, ∃ outs,
        squeezeAll (keccak RC) SHAKE_128_R (restitute (keccak RC) p.2) ws = some outs ∧
        outs.map List.length = ws.map (168 * ·) ∧
        outs.flatten = (Spec.Keccak.shake128 p.1 (504 + 168 * ws.sum)).drop 504 := by
  have l : ∀ m : Bytes, m.length = 34 → (batchInput m).length = 40 := fun m h => batchInput_length m (by omega)
  rw [new4x]
  simp only [four, setLanes_setLanes _ _ _ (l _ h0) (l _ h1), setLanes_setLanes _ _ _ (l _ h1) (l _ h2),
    setLanes_setLanes _ _ _ (l _ h2) (l _ h3)]
  obtain ⟨a0, a1, a2, a3, a4⟩ := lane_ok m0 h0 _ rfl
  obtain ⟨b0, b1, b2, b3, b4⟩ := lane_ok m1 h1 _ rfl
  obtain ⟨c0, c1, c2, c3, c4⟩ := lane_ok m2 h2 _ rfl
  obtain ⟨d0, d1, d2, d3, d4⟩ := lane_ok m3 h3 _ rfl
  generalize keccak RC (setLanes (endBit SHAKE_128_R) (batchInput m0)) = sa at *
  generalize keccak RC (setLanes (endBit SHAKE_128_R) (batchInput m1)) = sb at *
  generalize keccak RC (setLanes (endBit SHAKE_128_R) (batchInput m2)) = sc at *
  generalize keccak RC (setLanes (endBit SHAKE_128_R) (batchInput m3)) = sd at *
  have rest : ∀ (m : Bytes) (s : Lanes), s.length = 25 → (∀ d, Spec.Keccak.shake128 m d = seg (keccak RC) 168 s 0 d) →
      ∀ ws, ∃ outs, squeezeAll (keccak RC) 168 (restitute (keccak RC) (keccak RC (keccak RC s))) ws = some outs ∧
        outs.map List.length = ws.map (168 * ·) ∧
        outs.flatten = (Spec.Keccak.shake128 m (504 + 168 * ws.sum)).drop 504 := by
    intro m s hs hm ws
    obtain ⟨outs, e, g1, g2⟩ := squeezeAll_ok shape_keccak 168 (by decide) (by decide) s hs ws 3
    rw [iterL_three] at e
    rw [restitute]
    refine ⟨outs, e, g1, ?_⟩
    rw [g2, hm, seg_drop _ _ _ _ _ _ (by omega), Nat.add_sub_cancel_left, Nat.zero_add]
  refine ⟨⟨keccak RC (keccak RC sa), keccak RC (keccak RC sb), keccak RC (keccak RC sc), keccak RC (keccak RC sd)⟩, ?_, ?_⟩
  · rw [squeeze4x]
    simp only [squeezeRate, four, SHAKE_128_R] at *
    simp only [a1, a2, a3, b1, b2, b3, c1, c2, c3, d1, d2, d3, Option.bind_eq_bind, Option.bind_some, Option.pure_def,
      List.zipWith_cons_cons, List.zipWith_nil_right, List.map_cons, List.map_nil, lane_join, a4, b4, c4, d4]
  · intro p hp
    simp only [List.mem_cons, List.not_mem_nil, or_false] at hp
    rcases hp with rfl | rfl | rfl | rfl
    · exact rest _ _ a0 a4
    · exact rest _ _ b0 b4
    · exact rest _ _ c0 c4
    · exact rest _ _ d0 d4

/-! ### The hypotheses are met by concrete cases -/

example : ∃ m : Bytes, m.length = 33 := ⟨List.replicate 33 7#8, by decide⟩
example : ∃ m : Bytes, m.length = 34 := ⟨List.replicate 34 7#8, by decide⟩

/-- Reads that cross block boundaries in every way. -/
example : ∃ outs, runShake SHAKE_128_R [[1#8], [], [2#8]] [0, 5, 163, 0, 336, 1, 167] = some outs ∧
    outs.flatten.length = 672 := by
  obtain ⟨outs, e, h, _⟩ := C21_shake128 [[1#8], [], [2#8]] [0, 5, 163, 0, 336, 1, 167]
  refine ⟨outs, e, ?_⟩
  rw [List.length_flatten, h]; rfl

end Verif.Props
