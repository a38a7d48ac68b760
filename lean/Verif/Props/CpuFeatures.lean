import Verif.Model.CpuFeatures

/-!
C70: the library executes only instructions that the processor has.  The check at every entry to the library (`verify_cpu_features`) and the tokens
cover all functions with intrinsics; of the machine code they cover all but `mulx` and `pext` (BMI2) and `popcnt`, which nothing checks.
-/
namespace Verif.Props
open Verif Verif.X86 Verif.X86.Asm

/-- The processor has all extensions that the text of a program uses. -/
def CpuHasAll {ι : Type} (needs : ι → Option Feature) (c : Cpu) (P : List ι) : Prop := ∀ i ∈ P, ∀ x, needs i = some x → c x = true

theorem runOn_eq {c : Cpu} {P : Prog} (h : CpuHasAll Instr.needs c P) (f pc : Nat) (s : X86.St) : runOn c P f pc s = run P f pc s := by
  induction f generalizing pc s with
  | zero => rfl
  | succ f ih =>
    simp only [runOn, run]
    split
    · rfl
    · cases hi : P[pc]? with
      | none => rfl
      | some i =>
        have hk : c.knows i.needs = true := by
          cases hn : i.needs with
          | none => rfl
          | some x => exact h i (List.mem_of_getElem? hi) x hn
        simp only [hk, if_true, ih]
        rfl

theorem vrunOn_eq {c : Cpu} {P : VProg} (h : CpuHasAll VInstr.needs c P) (f pc : Nat) (s : VSt) : vrunOn c P f pc s = vrun P f pc s := by
  induction f generalizing pc s with
  | zero => rfl
  | succ f ih =>
    simp only [vrunOn, vrun]
    split
    · rfl
    · cases hi : P[pc]? with
      | none => rfl
      | some i =>
        have hk : c.knows i.needs = true := by
          cases hn : i.needs with
          | none => rfl
          | some x => exact h i (List.mem_of_getElem? hi) x hn
        simp only [hk, if_true, ih]
        rfl

theorem brunOn_eq {c : Cpu} {P : BProg} (h : CpuHasAll BInstr.needs c P) (f pc : Nat) (s : BSt) : brunOn c P f pc s = brun P f pc s := by
  induction f generalizing pc s with
  | zero => rfl
  | succ f ih =>
    simp only [brunOn, brun]
    split
    · rfl
    · cases hi : P[pc]? with
      | none => rfl
      | some i =>
        have hk : c.knows i.needs = true := by
          cases hn : i.needs with
          | none => rfl
          | some x => exact h i (List.mem_of_getElem? hi) x hn
        simp only [hk, if_true, ih]
        rfl

/-- All instructions of a program are of the base or of these extensions. -/
def onlyNeeds {ι : Type} (needs : ι → Option Feature) (xs : List Feature) (P : List ι) : Bool :=
  P.all fun i => match needs i with | none => true | some x => xs.contains x

theorem hasAll_of {ι : Type} {needs : ι → Option Feature} {xs : List Feature} {P : List ι} {c : Cpu} (h : onlyNeeds needs xs P = true)
    (hc : ∀ x ∈ xs, c x = true) : CpuHasAll needs c P := by
  intro i hi x hx
  have := List.all_eq_true.mp h i hi
  simp only [hx] at this
  exact hc x (by simpa using this)

/-- The files of the scalar code that runs without BMI2. -/
def plainFiles : List String := [
  "bignum_add.rs", "bignum_add_p256.rs", "bignum_add_p384.rs", "bignum_bitsize.rs", "bignum_cmp_lt.rs", "bignum_coprime.rs",
  "bignum_copy_row_from_table.rs", "bignum_ctz.rs", "bignum_demont.rs", "bignum_digitsize.rs", "bignum_eq.rs", "bignum_inv_p256.rs",
  "bignum_inv_p384.rs", "bignum_mod_n25519.rs", "bignum_mod_n256.rs", "bignum_mod_n384.rs", "bignum_modadd.rs", "bignum_modinv.rs",
  "bignum_modsub.rs", "bignum_montifier.rs", "bignum_montmul.rs", "bignum_montredc.rs", "bignum_montsqr.rs", "bignum_mul.rs", "bignum_mux.rs",
  "bignum_neg_p25519.rs", "bignum_neg_p256.rs", "bignum_neg_p384.rs", "bignum_negmodinv.rs", "bignum_optsub.rs", "bignum_shr_small.rs",
  "sha3_keccak_f1600.rs"]

theorem have_true {debug : Bool} {off : Feature → Bool} {c : Cpu} {x : Feature} (h : haveCpuFeature debug off c x = true) : c x = true := by
  simp only [haveCpuFeature] at h
  split at h
  · cases h
  · exact h

theorem verified {valgrind debug : Bool} {off : Feature → Bool} {c : Cpu} (h : verifyCpuFeatures valgrind debug off c = true) :
    c .aes = true ∧ c .pclmulqdq = true ∧ c .bmi1 = true ∧ (c .adx = true ∨ valgrind = true) ∧ c .avx = true ∧ c .avx2 = true := by
  simp only [verifyCpuFeatures, Bool.and_eq_true, Bool.or_eq_true] at h
  obtain ⟨⟨⟨⟨⟨h1, h2⟩, h3⟩, h4⟩, h5⟩, h6⟩ := h
  exact ⟨have_true h1, have_true h2, have_true h3, h4.imp have_true id, h5, have_true h6⟩

/-- C70: on a processor that the check at the library's entry lets through, whatever the build and the environment, each function with
intrinsics that can be called (the caller can have its token) has every extension it was compiled for. -/
theorem C70_intrinsics {valgrind debug : Bool} {off : Feature → Bool} {c : Cpu} (hs : c.Sane) (hv : verifyCpuFeatures valgrind debug off c = true)
    (m : Marked) (hm : m ∈ marked) (ht : m.token.given debug off c = true) : ∀ x ∈ m.enable, c x = true := by
  obtain ⟨v1, v2, v3, -, v5, v6⟩ := verified hv
  have s1 := hs.sse41 v5
  have s2 := hs.ssse3 s1
  have s3 := hs.sse3 s2
  have s4 := hs.sse2
  have key : ∀ m ∈ marked, m.token.given debug off c = true → ∀ x ∈ m.enable, c x = true := by
    have a : ∀ t : Token, t.given debug off c = true →
        (t = .avx512ForAesGcm → c .avx512f = true ∧ c .avx512bw = true ∧ c .avx512vl = true ∧ c .vpclmulqdq = true ∧ c .vaes = true) ∧
        (t = .sha256 → c .sha = true) ∧ (t = .bmi2 → c .bmi2 = true) := by
      intro t h
      cases t with
      | none => exact ⟨(by intro e; cases e), (by intro e; cases e), (by intro e; cases e)⟩
      | avx512ForAesGcm =>
        simp only [Token.given, haveAvx512ForAesGcm, Bool.and_eq_true] at h
        exact ⟨fun _ => ⟨have_true h.1.1.1.1, have_true h.1.1.1.2, have_true h.1.1.2, have_true h.1.2, have_true h.2⟩, (by intro e; cases e),
          (by intro e; cases e)⟩
      | sha256 => exact ⟨(by intro e; cases e), fun _ => have_true h, (by intro e; cases e)⟩
      | bmi2 => exact ⟨(by intro e; cases e), (by intro e; cases e), fun _ => have_true h⟩
    intro m hm ht
    obtain ⟨a1, a2, a3⟩ := a m.token ht
    have tab : ∀ m ∈ marked, ∀ x ∈ m.enable,
        x ∈ [Feature.aes, .pclmulqdq, .bmi1, .avx, .avx2, .sse41, .ssse3, .sse3, .sse2] ∨
        (m.token = .avx512ForAesGcm ∧ x ∈ [Feature.avx512f, .avx512bw, .avx512vl, .vpclmulqdq, .vaes]) ∨
        (m.token = .sha256 ∧ x = .sha) ∨ (m.token = .bmi2 ∧ x = .bmi2) := by decide +kernel
    intro x hx
    rcases tab m hm x hx with h | ⟨e, h⟩ | ⟨e, h⟩ | ⟨e, h⟩
    · simp only [List.mem_cons, List.not_mem_nil, or_false] at h
      rcases h with h | h | h | h | h | h | h | h | h <;> subst h <;> assumption
    · obtain ⟨b1, b2, b3, b4, b5⟩ := a1 e
      simp only [List.mem_cons, List.not_mem_nil, or_false] at h
      rcases h with h | h | h | h | h <;> subst h <;> assumption
    · subst h; exact a2 e
    · subst h; exact a3 e
  exact key m hm ht

/-- C70, the part that holds of the machine code: on a processor that the check lets through (the library built in the usual way), the code
without `mulx`, all vector code and the code that clears and compares bytes run as on a processor that has every extension. -/
theorem C70_machine_code_partial {debug : Bool} {off : Feature → Bool} {c : Cpu} (hs : c.Sane) (hv : verifyCpuFeatures false debug off c = true) :
    (∀ p ∈ scalarCode, p.1 ∈ plainFiles → ∀ f pc s, runOn c p.2 f pc s = run p.2 f pc s) ∧
    (∀ p ∈ vectorCode, ∀ f pc s, vrunOn c p.2 f pc s = vrun p.2 f pc s) ∧
    (∀ z p l f pc s, brunOn c (zeroBytes z p l) f pc s = brun (zeroBytes z p l) f pc s) ∧
    (∀ a b l x o f pc s, brunOn c (ctCompareBytes a b l x o) f pc s = brun (ctCompareBytes a b l x o) f pc s) := by
  obtain ⟨-, -, -, v4, v5, v6⟩ := verified hv
  have v4 : c .adx = true := by simpa using v4
  refine ⟨fun p hp hn => runOn_eq (hasAll_of (xs := [.adx]) ?_ (by simp [v4])),
    fun p hp => vrunOn_eq (hasAll_of (xs := [.avx, .avx2, .sse2]) ?_ (by simp [v5, v6, hs.sse2])),
    fun z p l => brunOn_eq (hasAll_of (xs := [.avx, .avx2]) rfl (by simp [v5, v6])), fun a b l x o => brunOn_eq (hasAll_of (xs := []) rfl (by simp))⟩
  · have : ∀ p ∈ scalarCode, p.1 ∈ plainFiles → onlyNeeds Instr.needs [.adx] p.2 = true := by decide +kernel
    exact this p hp hn
  · have : ∀ p ∈ vectorCode, onlyNeeds VInstr.needs [.avx, .avx2, .sse2] p.2 = true := by decide +kernel
    exact this p hp

/-- All the files named are in the table, and no other file does without `mulx`. -/
example : plainFiles = (scalarCode.filter fun p => p.2.all fun i => i.needs != some .bmi2).map (·.1) := by decide +kernel

/-- A processor as sold since 2014 (Broadwell): AES, PCLMULQDQ, BMI, ADX, AVX2, and no AVX-512 and no SHA. -/
def broadwell : Cpu := fun x => x ∈ [.aes, .pclmulqdq, .bmi1, .bmi2, .adx, .avx, .avx2, .sse2, .sse3, .ssse3, .sse41, .popcnt]
example : broadwell.Sane := ⟨rfl, fun _ => rfl, fun _ => rfl, fun _ => rfl, fun _ => rfl⟩
example : verifyCpuFeatures false false (fun _ => false) broadwell = true := rfl
example : Token.bmi2.given false (fun _ => false) broadwell = true := rfl
example : Token.sha256.given false (fun _ => false) broadwell = false := rfl
/-- With a variable in the environment a debug build stops. -/
example : verifyCpuFeatures false true (· == .adx) broadwell = false := rfl

/-- C70, with BMI2 and POPCNT (all processors with ADX have had them): then all the machine code runs. -/
theorem C70_machine_code_bmi2_partial {debug : Bool} {off : Feature → Bool} {c : Cpu} (hs : c.Sane) (hv : verifyCpuFeatures false debug off c = true)
    (hb : c .bmi2 = true) (hp : c .popcnt = true) :
    (∀ p ∈ scalarCode, ∀ f pc s, runOn c p.2 f pc s = run p.2 f pc s) ∧
    (∀ f pc s, brunOn c mlkemRejUniformVartime f pc s = brun mlkemRejUniformVartime f pc s) := by
  obtain ⟨-, -, -, v4, v5, -⟩ := verified hv
  have v4 : c .adx = true := by simpa using v4
  have s1 := hs.sse41 v5
  have s2 := hs.ssse3 s1
  refine ⟨fun p h => runOn_eq (hasAll_of (xs := [.adx, .bmi2]) ?_ (by simp [v4, hb])),
    brunOn_eq (hasAll_of (xs := [.bmi2, .popcnt, .sse2, .sse41, .ssse3]) (by decide +kernel) (by simp [hb, hp, hs.sse2, s1, s2]))⟩
  have : ∀ p ∈ scalarCode, onlyNeeds Instr.needs [.adx, .bmi2] p.2 = true := by decide +kernel
  exact this p h

/-- An instruction that goes on to the next, or faults. -/
def fallsThrough : Instr → Bool
  | .jmp _ | .jcc _ _ | .call _ | .ret => false
  | _ => true

theorem exec_falls {i : Instr} (h : fallsThrough i = true) {pc pc' : Nat} {s s' : X86.St} (he : i.exec pc s = some (pc', s')) : pc' = pc + 1 := by
  cases i <;> simp only [fallsThrough, Bool.false_eq_true] at h <;> simp only [Instr.exec, Option.map_eq_some_iff, Prod.mk.injEq] at he <;>
    (obtain ⟨_, _, e, _⟩ := he; exact e.symm)

/-- A program whose first instruction that the processor lacks comes before any jump does not end on it. -/
theorem runOn_none {c : Cpu} {P : Prog} {k : Nat} {j : Instr} (hj : P[k]? = some j) (hk : c.knows j.needs = false)
    (hf : (P.take k).all fallsThrough = true) (f pc : Nat) (hpc : pc ≤ k) (s : X86.St) : runOn c P f pc s = none := by
  induction f generalizing pc s with
  | zero => rfl
  | succ f ih =>
    have hkl : k < P.length := (List.getElem?_eq_some_iff.mp hj).1
    have hlt : pc < P.length := by omega
    simp only [runOn, if_neg (Nat.ne_of_lt hlt)]
    rcases Nat.lt_or_eq_of_le hpc with h | h
    · rw [List.getElem?_eq_getElem hlt]
      have hi : fallsThrough P[pc] = true := by
        refine List.all_eq_true.mp hf _ ?_
        rw [List.mem_take_iff_getElem]
        exact ⟨pc, by omega, rfl⟩
      dsimp only
      split
      · cases he : P[pc].exec pc s with
        | none => rfl
        | some q =>
          obtain ⟨pc', s'⟩ := q
          exact ih _ (by rw [exec_falls hi he]; omega) _
      · rfl
    · subst h
      simp [hj, hk]

/-- C70 fails for `mulx`: there is a processor, with ADX and without BMI2, that the check lets through, and on which the products modulo the
prime of P-256 (and so ECDSA, ECDH and every TLS handshake with them) never end but by an invalid opcode, whatever the operands. -/
theorem C70_mulx_unchecked : ∃ c : Cpu, c.Sane ∧ verifyCpuFeatures false false (fun _ => false) c = true ∧
    ∀ f s, runOn c bignumMontmulP256 f 0 s = none ∧ runOn c bignumMontsqrP256 f 0 s = none := by
  refine ⟨fun x => decide (x ≠ .bmi2), ⟨rfl, fun _ => rfl, fun _ => rfl, fun _ => rfl, fun _ => rfl⟩, rfl, fun f s => ⟨?_, ?_⟩⟩
  · have h : ∃ k j, bignumMontmulP256[k]? = some j ∧ j.needs = some .bmi2 ∧ (bignumMontmulP256.take k).all fallsThrough = true :=
      ⟨9, _, rfl, rfl, by decide +kernel⟩
    obtain ⟨k, j, hj, hn, hf⟩ := h
    exact runOn_none hj (by rw [hn]; rfl) hf f 0 (Nat.zero_le _) s
  · have h : ∃ k j, bignumMontsqrP256[k]? = some j ∧ j.needs = some .bmi2 ∧ (bignumMontsqrP256.take k).all fallsThrough = true :=
      ⟨8, _, rfl, rfl, by decide +kernel⟩
    obtain ⟨k, j, hj, hn, hf⟩ := h
    exact runOn_none hj (by rw [hn]; rfl) hf f 0 (Nat.zero_le _) s

/-- The functions with intrinsics that hashing may call: sha256_mux.rs and sha512_mux.rs, each behind its token.  The operations of
`graviola::hashing` (high/hash.rs, high/hmac.rs, mid/sha2.rs) do not begin with an `Entry`, so `verify_cpu_features` has not run. -/
def hashingCalls (debug : Bool) (off : Feature → Bool) (c : Cpu) : List Marked :=
  marked.filter fun m => (m.token == .sha256 || m.token == .bmi2) && m.token.given debug off c

/-- C70, the part that holds of hashing, for which no check runs: on a processor with AVX2 it calls only functions whose extensions are there. -/
theorem C70_hashing_partial {debug : Bool} {off : Feature → Bool} {c : Cpu} (hs : c.Sane) (h2 : c .avx2 = true) :
    ∀ m ∈ hashingCalls debug off c, ∀ x ∈ m.enable, c x = true := by
  intro m hm x hx
  simp only [hashingCalls, List.mem_filter, Bool.and_eq_true, Bool.or_eq_true, beq_iff_eq] at hm
  obtain ⟨hm, ht, hg⟩ := hm
  have s0 := hs.avx h2
  have s1 := hs.sse41 s0
  have s2 := hs.ssse3 s1
  have tab : ∀ m ∈ marked, (m.token = .sha256 → ∀ x ∈ m.enable, x = .sha ∨ x ∈ [Feature.sse41, .ssse3]) ∧
      (m.token = .bmi2 → ∀ x ∈ m.enable, x = .bmi2 ∨ x ∈ [Feature.avx, .avx2]) := by decide +kernel
  rcases ht with ht | ht
  · rw [ht] at hg
    rcases (tab m hm).1 ht x hx with rfl | h
    · exact have_true hg
    · simp only [List.mem_cons, List.not_mem_nil, or_false] at h
      rcases h with rfl | rfl <;> assumption
  · rw [ht] at hg
    rcases (tab m hm).2 ht x hx with rfl | h
    · exact have_true hg
    · simp only [List.mem_cons, List.not_mem_nil, or_false] at h
      rcases h with rfl | rfl <;> assumption

/-- C70 fails for SHA-384 and SHA-512 (and HMAC with them): on a processor with BMI2 and without AVX and AVX2 (or where the operating system does
not enable these), which the check would refuse, hashing, which does not check, calls the functions compiled for AVX2. -/
theorem C70_hashing_unchecked : ∃ c : Cpu, c.Sane ∧ verifyCpuFeatures false false (fun _ => false) c = false ∧
    ∃ m ∈ hashingCalls false (fun _ => false) c, .avx2 ∈ m.enable ∧ c .avx2 = false := by
  refine ⟨fun x => decide (x ≠ .avx ∧ x ≠ .avx2), ⟨rfl, fun _ => rfl, fun _ => rfl, fun _ => rfl, fun h => by cases h⟩, by decide, ?_⟩
  have h : ∃ m ∈ hashingCalls false (fun _ => false) (fun x => decide (x ≠ .avx ∧ x ≠ .avx2)), Feature.avx2 ∈ m.enable := by decide +kernel
  obtain ⟨m, h1, h2⟩ := h
  exact ⟨m, h1, h2, by decide⟩

/-- On `broadwell` hashing calls the five functions of sha512.rs. -/
example : (hashingCalls false (fun _ => false) broadwell).map (·.place) =
    ["sha512.rs:65", "sha512.rs:77", "sha512.rs:107", "sha512.rs:195", "sha512.rs:404"] := by decide +kernel

end Verif.Props
