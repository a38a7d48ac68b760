import Verif.Proof.Hmac

/-!
C16-C19, C53: SHA-2, HMAC, HMAC-DRBG and the constant-time helpers.

The specifications are `Spec/Sha2.lean` (FIPS 180-4) and `Spec/Hmac.lean` (FIPS 198-1, SP 800-90A).
`none` on the model side is a panic.
-/
namespace Verif.Props
open Verif

/-- Run a hash: `new`, one `update` per element, `finish`. -/
def runHash (F : Hmac.HashFn) (chunks : List Bytes) : Option Bytes :=
  (chunks.foldlM F.update F.new).bind F.finish

theorem runHash_ok {F : Hmac.HashFn} {H : Bytes → Bytes} {limit : Nat} (C : Hmac.Correct F H limit)
    (chunks : List Bytes) :
    runHash F chunks = if chunks.flatten.length < limit then some (H chunks.flatten) else none := by
  have key : ∀ (cs : List Bytes) (c : F.Ctx) (m : Bytes), C.Rel c m →
      ∃ c', cs.foldlM F.update c = some c' ∧ C.Rel c' (m ++ cs.flatten) := by
    intro cs
    induction cs with
    | nil => intro c m h; exact ⟨c, rfl, by simpa using h⟩
    | cons b bs ih =>
      intro c m h
      obtain ⟨c1, e1, h1⟩ := C.update c m b h
      obtain ⟨c2, e2, h2⟩ := ih c1 _ h1
      refine ⟨c2, ?_, by simpa using h2⟩
      rw [List.foldlM_cons, e1]; exact e2
  obtain ⟨c, e, h⟩ := key chunks F.new [] C.new
  rw [runHash, e]
  exact C.finish c _ h

/-- **C16** SHA-256 of any sequence of updates is the FIPS 180-4 digest of the concatenation.  At
2^61 bytes or more (the standard's limit) `finish` panics rather than return a wrong digest. -/
theorem C16_sha256 (chunks : List Bytes) :
    runHash Hmac.sha256 chunks =
      if chunks.flatten.length < 2 ^ 61 then some (Spec.Sha2.sha256 chunks.flatten) else none :=
  runHash_ok Hmac.correct256 chunks

/-- **C16** SHA-384; panics at 2^64 bytes, where the byte count no longer fits `usize`. -/
theorem C16_sha384 (chunks : List Bytes) :
    runHash Hmac.sha384 chunks =
      if chunks.flatten.length < 2 ^ 64 then some (Spec.Sha2.sha384 chunks.flatten) else none :=
  runHash_ok Hmac.correct384 chunks

/-- **C16** SHA-512. -/
theorem C16_sha512 (chunks : List Bytes) :
    runHash Hmac.sha512 chunks =
      if chunks.flatten.length < 2 ^ 64 then some (Spec.Sha2.sha512 chunks.flatten) else none :=
  runHash_ok Hmac.correct512 chunks

/-- **C16** The one-shot function is the streaming one with a single update. -/
theorem C16_one_shot (F : Hmac.HashFn) (m : Bytes) : F.hash m = runHash F [m] := by
  rw [Hmac.HashFn.hash, runHash]
  simp only [List.foldlM_cons, List.foldlM_nil]
  cases F.update F.new m <;> rfl

/-- **C17** One block through the rolling-window SHA-256 compression function is the standard's
compression, whose schedule is the recursive `W_t` and whose constants are cube-root fractions. -/
theorem C17_sha256_block (state : St 32) (block : Bytes) :
    Sha2.compressBlock Sha2.params256 state block = Spec.Sha2.compress Spec.Sha2.v256 state block :=
  Sha2.compressBlock_eq Sha2.agree256 state block

/-- **C17** The same for SHA-512. -/
theorem C17_sha512_block (state : St 64) (block : Bytes) :
    Sha2.compressBlock Sha2.params512 state block = Spec.Sha2.compress Spec.Sha2.v512 state block :=
  Sha2.compressBlock_eq Sha2.agree512 state block

/-- **C17** The rolling window: at each round `t` the word used is `W_t`. -/
theorem C17_schedule_word (block : Bytes) (s0 : St 32) (t : Nat) (ht : t < 64) :
    (Sha2.window Sha2.params256 block ((List.range t).foldl (Sha2.step Sha2.params256 block)
        (s0, List.replicate 16 0#32)).2 t).1 = Spec.Sha2.W Spec.Sha2.v256 block t :=
  (Sha2.window_ok Sha2.agree256 block _ t
    (Sha2.steps_ok Sha2.agree256 block s0 t (Nat.le_of_lt ht)).2).1

/-- `iroot` in the specification is the integer root: `r^n ≤ x < (r+1)^n`. -/
theorem irootAux_spec (n x k r : Nat) (h1 : r ^ n ≤ x) (h2 : x < (r + 2 ^ k) ^ n) :
    (Spec.Sha2.irootAux n x k r) ^ n ≤ x ∧ x < (Spec.Sha2.irootAux n x k r + 1) ^ n := by
  induction k generalizing r with
  | zero => exact ⟨h1, h2⟩
  | succ k ih =>
    rw [Spec.Sha2.irootAux]
    by_cases h : (r + 2 ^ k) ^ n ≤ x
    · rw [if_pos h]
      exact ih _ h (by rw [Nat.add_assoc, ← Nat.two_mul, ← Nat.pow_succ']; exact h2)
    · rw [if_neg h]
      exact ih _ h1 (by omega)

/-- **C17** The round constants and initial values are what the standard says they are: `k` is the
first 32 (64) bits of the fractional part of the cube (square) root of the `t`-th prime.
Here for SHA-512, from which the other tables follow the same way: with `c` the integer part,
`c·2^64 + k` is the integer cube root of `p·2^192`. -/
theorem C17_constants (t : Nat) (ht : t < 80) :
    ∃ c, (c * 2 ^ 64 + (Sha2.K512.getD t 0#64).toNat) ^ 3 ≤ Spec.Sha2.primes.getD t 0 * 2 ^ 192 ∧
      Spec.Sha2.primes.getD t 0 * 2 ^ 192 < (c * 2 ^ 64 + (Sha2.K512.getD t 0#64).toNat + 1) ^ 3 := by
  have hp : ∀ t ∈ List.range 80, Spec.Sha2.primes.getD t 0 < 410 := by decide +kernel
  have hk := Sha2.K512_ok t (List.mem_range.2 ht)
  have hb := hp t (List.mem_range.2 ht)
  have hs := irootAux_spec 3 (Spec.Sha2.primes.getD t 0 * 2 ^ 192) 80 0 (by simp) (by
    rw [Nat.zero_add]; omega)
  refine ⟨Spec.Sha2.iroot 3 (Spec.Sha2.primes.getD t 0 * 2 ^ 192) / 2 ^ 64, ?_⟩
  have hv : (Sha2.K512.getD t 0#64).toNat
      = Spec.Sha2.iroot 3 (Spec.Sha2.primes.getD t 0 * 2 ^ 192) % 2 ^ 64 := by
    rw [hk, Spec.Sha2.K512, Spec.Sha2.rootFrac, BitVec.toNat_ofNat]
    exact Nat.mod_mod _ _
  rw [hv, Nat.mul_comm _ (2 ^ 64), Nat.div_add_mod]
  exact hs

/-- Run HMAC: `new(key)`, one `update` per element, `finish`. -/
def runHmac (F : Hmac.HashFn) (key : Bytes) (chunks : List Bytes) : Option Bytes :=
  Hmac.macParts F key chunks

/-- The three hash functions, with what they compute, their block length and the largest input. -/
inductive IsHash : Hmac.HashFn → (Bytes → Bytes) → (block out limit : Nat) → Prop
  | sha256 : IsHash Hmac.sha256 Spec.Sha2.sha256 64 32 (2 ^ 61)
  | sha384 : IsHash Hmac.sha384 Spec.Sha2.sha384 128 48 (2 ^ 64)
  | sha512 : IsHash Hmac.sha512 Spec.Sha2.sha512 128 64 (2 ^ 64)

theorem isHash_correct {F H b o l} (h : IsHash F H b o l) :
    Nonempty (Hmac.Correct F H l) ∧ F.blockLen = b ∧ F.outLen = o ∧ b + o < l := by
  cases h
  · exact ⟨⟨Hmac.correct256⟩, rfl, rfl, by decide⟩
  · exact ⟨⟨Hmac.correct384⟩, rfl, rfl, by decide⟩
  · exact ⟨⟨Hmac.correct512⟩, rfl, rfl, by decide⟩

/-- **C18** HMAC with any key and any sequence of updates is FIPS 198-1 HMAC of the concatenation. -/
theorem C18_hmac {F H b o l} (hF : IsHash F H b o l) (key : Bytes) (chunks : List Bytes)
    (hk : key.length < l) (hm : b + chunks.flatten.length < l) :
    runHmac F key chunks = some (Spec.Hmac.hmac H b key chunks.flatten) := by
  obtain ⟨⟨C⟩, rfl, rfl, ho⟩ := isHash_correct hF
  exact Hmac.macParts_ok C key chunks hk hm ho

/-- **C18** Verification accepts exactly the full, untruncated tag. -/
theorem C18_verify {F H b o l} (hF : IsHash F H b o l) (key : Bytes) (chunks : List Bytes) (tag : Bytes)
    (hk : key.length < l) (hm : b + chunks.flatten.length < l) :
    ∃ s, (Hmac.new F key).bind (fun s => chunks.foldlM Hmac.update s) = some s ∧
      Hmac.verify s tag = some (decide (tag = Spec.Hmac.hmac H b key chunks.flatten)) := by
  obtain ⟨⟨C⟩, rfl, rfl, ho⟩ := isHash_correct hF
  obtain ⟨s, e, h⟩ := Hmac.new_ok C key hk
  obtain ⟨s', e', h'⟩ := Hmac.updates_keyed C chunks h
  rw [List.nil_append] at h'
  refine ⟨s', by rw [e]; exact e', ?_⟩
  rw [Hmac.verify, Hmac.finish_ok C h' hm ho]
  simp only [Option.bind_eq_bind, Option.bind_some, Ct.ctEqual_eq, Option.pure_def, Option.some.injEq]
  exact decide_eq_decide.2 ⟨fun h => h.symm, fun h => h.symm⟩

/-- A history of DRBG requests: the output of each `fill`, in order. -/
def drbgHistory (F : Hmac.HashFn) : Hmac.Drbg → List Nat → Option (List Bytes)
  | _, [] => some []
  | s, n :: ns => do
    let (s', out) ← Hmac.fill F s n
    let rest ← drbgHistory F s' ns
    pure (out :: rest)

/-- The specification's outputs for a history of requests. -/
def specHistory (mac : Bytes → Bytes → Bytes) (outlen : Nat) : Bytes × Bytes → List Nat → List Bytes
  | _, [] => []
  | (K, V), n :: ns =>
    let g := Spec.Hmac.drbgGenerate mac outlen K V n
    g.1 :: specHistory mac outlen g.2 ns

/-- **C19** Every history of fewer than 2^48 - 1 requests, of any sizes, after instantiation from any
seed material, returns exactly the bytes of SP 800-90A HMAC_DRBG. -/
theorem C19_drbg {F H b o l} (hF : IsHash F H b o l) (entropy nonce pers : Bytes) (requests : List Nat)
    (hlen : b + o + 1 + (entropy ++ nonce ++ pers).length < l) (hr : requests.length < 2 ^ 48 - 1) :
    (Hmac.drbgNew F entropy nonce pers).bind (fun s => drbgHistory F s requests) =
      some (specHistory (Spec.Hmac.hmac H b) o
        (Spec.Hmac.drbgInstantiate (Spec.Hmac.hmac H b) o entropy nonce pers) requests) := by
  obtain ⟨⟨C⟩, rfl, rfl, ho⟩ := isHash_correct hF
  obtain ⟨s, e, hc, hk, hv, hs⟩ := Hmac.drbgUpdate_ok C
    ⟨List.replicate F.outLen 0#8, List.replicate F.outLen 1#8, 0⟩ [entropy, nonce, pers]
    (by simp) (by simp) (by simp at hlen ⊢; omega)
  rw [Hmac.drbgNew, e]
  have hinst : (s.k, s.v) = Spec.Hmac.drbgInstantiate (Spec.Hmac.hmac H F.blockLen) F.outLen
      entropy nonce pers := by
    rw [hs, Spec.Hmac.drbgInstantiate]
    simp [Hmac.mac]
  rw [← hinst]
  have key : ∀ (ns : List Nat) (s : Hmac.Drbg), s.k.length = F.outLen → s.v.length = F.outLen →
      s.reseedCounter + ns.length < 2 ^ 48 →
      drbgHistory F s ns = some (specHistory (Spec.Hmac.hmac H F.blockLen) F.outLen (s.k, s.v) ns) := by
    intro ns
    induction ns with
    | nil => intro s _ _ _; rfl
    | cons n ns ih =>
      intro s hk hv hr
      simp only [List.length_cons] at hr
      obtain ⟨s', e', hc', hk', hv', hs'⟩ := Hmac.fill_ok C s n hk hv (by omega) (by omega)
      rw [drbgHistory, e']
      simp only [Option.bind_eq_bind, Option.bind_some]
      rw [ih s' hk' hv' (by omega), hs']
      rfl
  exact key requests s hk hv (by rw [hc]; simp; omega)

/-- **C53** Constant-time comparison is equality of length and content. -/
theorem C53_ct_equal (a b : Bytes) : Ct.ctEqual a b = true ↔ a = b := Ct.ctEqual_iff a b

/-- **C53** Conditional copy keeps the destination when the condition holds and replaces all of it
otherwise. -/
theorem C53_ct_copy (cond : Bool) (output ifFalse : Bytes) (h : output.length = ifFalse.length) :
    Ct.ctCopy cond output ifFalse = if cond then output else ifFalse := by
  have ht : ∀ a b : Byte, b ^^^ (Ct.copyMask true &&& (a ^^^ b)) = a := by
    intro a b
    rw [show Ct.copyMask true = 255#8 by decide, show (255#8 : Byte) = BitVec.allOnes 8 by decide,
      BitVec.allOnes_and, BitVec.xor_comm a b, ← BitVec.xor_assoc]; simp
  have hf : ∀ a b : Byte, b ^^^ (Ct.copyMask false &&& (a ^^^ b)) = b := by
    intro a b
    rw [show Ct.copyMask false = 0#8 by decide]; simp
  rw [Ct.ctCopy]
  induction output generalizing ifFalse with
  | nil => cases ifFalse with
    | nil => simp
    | cons => simp at h
  | cons x xs ih => cases ifFalse with
    | nil => simp at h
    | cons y ys =>
      have := ih ys (by simpa using h)
      simp only [List.zip_cons_cons, List.map_cons, this]
      cases cond
      · simp only [hf, Bool.false_eq_true, if_false]
      · simp only [ht, if_true]

/-- **C53** Conditional select: the first argument when the selector byte is non-zero. -/
theorem C53_ct_select (bit : Byte) (s u : BitVec 16) :
    Ct.ctSelectI16 bit s u = if bit = 0#8 then u else s := by
  have hm : ∀ bit : Byte, ((-(bit.setWidth 32)).sshiftRight 16).setWidth 16
      = if bit = 0#8 then 0#16 else BitVec.allOnes 16 := by decide
  rw [Ct.ctSelectI16]
  simp only [hm]
  by_cases h : bit = 0#8
  · simp [h]
  · simp only [if_neg h, BitVec.allOnes_and]
    rw [BitVec.xor_comm s u, ← BitVec.xor_assoc]; simp

theorem zeroBy1_eq (n : Nat) (mem : Bytes) (h : n ≤ mem.length) :
    Ct.zeroBy1 n mem = List.replicate n 0#8 ++ mem.drop n := by
  induction n generalizing mem with
  | zero => simp [Ct.zeroBy1]
  | succ n ih => cases mem with
    | nil => simp at h
    | cons x xs => simp [Ct.zeroBy1, ih xs (by simpa using h), List.replicate_succ]

/-- **C53** Zeroisation clears exactly the first `len` bytes, on both architectures. -/
theorem C53_zero_bytes (stride len : Nat) (mem : Bytes) (h : len ≤ mem.length) :
    Ct.zeroBytes stride len mem = List.replicate len 0#8 ++ mem.drop len := by
  rw [Ct.zeroBytes]
  by_cases hc : 0 < stride ∧ stride ≤ len
  · rw [if_pos hc, C53_zero_bytes stride (len - stride) _ (by simp; omega), List.drop_drop,
      ← List.append_assoc, List.replicate_append_replicate]
    congr 2 <;> omega
  · rw [if_neg hc, zeroBy1_eq len mem h]
termination_by len
decreasing_by omega

/-! ### The hypotheses are met by concrete cases -/

/-- SHA-256("abc") through two updates. -/
example : runHash Hmac.sha256 [[0x61#8], [0x62#8, 0x63#8]] =
    some (Spec.Sha2.sha256 [0x61#8, 0x62#8, 0x63#8]) :=
  (C16_sha256 [[0x61#8], [0x62#8, 0x63#8]]).trans (if_pos (by decide))

example : (Spec.Sha2.sha256 []).length = 32 := Hmac.correct256.outLen _

example : ∃ out, runHmac Hmac.sha384 (List.replicate 200 7#8) [[1#8], [], [2#8]] = some out :=
  ⟨_, C18_hmac .sha384 _ _ (by rw [List.length_replicate]; omega) (by decide)⟩

example : ∃ outs, (Hmac.drbgNew Hmac.sha256 [1#8] [2#8] []).bind
    (fun s => drbgHistory Hmac.sha256 s [5, 0, 33]) = some outs :=
  ⟨_, C19_drbg .sha256 _ _ _ _ (by decide) (by decide)⟩

/-- The block function on a known block (padded "abc"), computed by the kernel. -/
example : (Sha2.compressBlock Sha2.params256 Sha2.new256.h
    ([0x61#8, 0x62#8, 0x63#8, 0x80#8] ++ List.replicate 59 0#8 ++ [0x18#8])).a = 0xba7816bf#32 := by
  decide +kernel

end Verif.Props
