import Verif.Proof.ChaChaPoly

/-!
C24-C27: ChaCha20, ChaCha20-Poly1305 and XChaCha20-Poly1305 against `Spec/ChaCha20.lean` (RFC 8439,
2.1-2.4; draft-irtf-cfrg-xchacha) and `Spec/ChaChaPoly.lean` (RFC 8439, 2.8), for the portable and the
AVX2 stream cipher.
-/
namespace Verif.Props
open Verif

/-- Call `cipher` on each buffer in turn, collecting what each call leaves in its buffer. -/
def cipherCalls (S : ChaChaPoly.Stream) : S.St → List Bytes → List Bytes
  | _, [] => []
  | st, b :: bs => (S.cipher st b).2 :: cipherCalls S (S.cipher st b).1 bs

/-- What RFC 8439 gives: each call starts at the first block no earlier call used. -/
def specCalls (key nonce : Bytes) : BitVec 32 → List Bytes → List Bytes
  | _, [] => []
  | ctr, b :: bs => Spec.ChaCha20.encrypt key ctr nonce b ::
      specCalls key nonce (ctr + BitVec.ofNat 32 ((b.length + 63) / 64)) bs

/-- **C24** Portable back end: every sequence of calls, of every length, from every counter. -/
theorem C24_portable (key nonce : Bytes) (hk : key.length = 32) (hn : nonce.length = 12)
    (ctr : BitVec 32) (bufs : List Bytes) :
    cipherCalls .portable (ChaCha20.new key (toLE 4 ctr.toNat ++ nonce)) bufs =
      specCalls key nonce ctr bufs := by
  rw [ChaCha20.new_ok key nonce ctr hn]
  induction bufs generalizing ctr with
  | nil => rfl
  | cons b bs ih =>
    have h := ChaCha20.cipher_ok key nonce ctr b hk hn
    rw [specCalls]
    show (ChaCha20.cipher _ _).2 :: cipherCalls .portable (ChaCha20.cipher _ _).1 bs = _
    rw [h, ih]; rfl

/-- **C24** AVX2 back end, one call: the same bytes as the RFC for every length. -/
theorem C24_avx2 (key nonce : Bytes) (hk : key.length = 32) (hn : nonce.length = 12)
    (ctr : BitVec 32) (buf : Bytes) :
    (ChaCha20X86.cipher (ChaCha20X86.new key (toLE 4 ctr.toNat ++ nonce)) buf).2 =
      Spec.ChaCha20.encrypt key ctr nonce buf := by
  rw [ChaCha20X86.new_ok key nonce ctr hn, ChaCha20X86.cipher_ok key nonce ctr buf hk hn]

/-- **C24** AVX2 back end, sequences of calls, provided no call but the last leaves a tail of 33 to 64
bytes after whole 128-byte groups.  Missing: sequences with such a tail, for which the property is
false (`C24_avx2_sequence_wrong`). -/
theorem C24_avx2_sequence_partial (key nonce : Bytes) (hk : key.length = 32) (hn : nonce.length = 12)
    (ctr : BitVec 32) (bufs : List Bytes)
    (hb : ∀ b ∈ bufs.dropLast, b.length % 128 ≤ 32 ∨ 64 < b.length % 128) :
    cipherCalls .avx2 (ChaCha20X86.new key (toLE 4 ctr.toNat ++ nonce)) bufs =
      specCalls key nonce ctr bufs := by
  rw [ChaCha20X86.new_ok key nonce ctr hn]
  induction bufs generalizing ctr with
  | nil => rfl
  | cons b bs ih =>
    have h := ChaCha20X86.cipher_ok key nonce ctr b hk hn
    rw [specCalls]
    show (ChaCha20X86.cipher _ _).2 :: cipherCalls .avx2 (ChaCha20X86.cipher _ _).1 bs = _
    rw [h]
    cases bs with
    | nil => rfl
    | cons c cs =>
      have h1 := hb b (by simp)
      have h2 : ChaCha20X86.advance b.length = (b.length + 63) / 64 := by
        rw [ChaCha20X86.advance, if_neg (by omega)]; rfl
      rw [h2, ih _ (fun b' hb' => hb b' (by simp [hb']))]

/-- **C24** is false of the AVX2 back end over call sequences: after a call on 33 bytes the next call
skips a block, so the two back ends give different bytes. -/
theorem C24_avx2_sequence_wrong :
    ∃ (key nonce : Bytes) (bufs : List Bytes), key.length = 32 ∧ nonce.length = 12 ∧
      cipherCalls .avx2 (ChaCha20X86.new key (toLE 4 0 ++ nonce)) bufs ≠ specCalls key nonce 0#32 bufs := by
  refine ⟨List.replicate 32 0#8, List.replicate 12 0#8, [List.replicate 33 0#8, [0#8]], rfl, rfl, ?_⟩
  have h0 := ChaCha20X86.new_ok (List.replicate 32 0#8) (List.replicate 12 0#8) 0#32 rfl
  have h1 := ChaCha20X86.cipher_ok (List.replicate 32 0#8) (List.replicate 12 0#8) 0#32
    (List.replicate 33 0#8) rfl rfl
  have h2 := ChaCha20X86.cipher_ok (List.replicate 32 0#8) (List.replicate 12 0#8) 2#32 [0#8] rfl rfl
  have e : cipherCalls .avx2 (ChaCha20X86.new (List.replicate 32 0#8) (toLE 4 0 ++ List.replicate 12 0#8))
      [List.replicate 33 0#8, [0#8]] =
      [Spec.ChaCha20.encrypt (List.replicate 32 0#8) 0#32 (List.replicate 12 0#8) (List.replicate 33 0#8),
       Spec.ChaCha20.encrypt (List.replicate 32 0#8) 2#32 (List.replicate 12 0#8) [0#8]] := by
    rw [show ChaCha20X86.new (List.replicate 32 0#8) (toLE 4 0 ++ List.replicate 12 0#8) = _ from h0]
    show [(ChaCha20X86.cipher _ _).2, (ChaCha20X86.cipher (ChaCha20X86.cipher _ _).1 _).2] = _
    rw [h1]
    show [_, (ChaCha20X86.cipher (ChaCha20X86.ofPortable (ChaCha20.stateAt _ _ 2#32)) _).2] = _
    rw [h2]
  rw [e]
  intro h
  have := congrArg (fun l => l.getD 1 []) h
  revert this
  decide +kernel

/-- **C24** Applying the cipher twice from the same state restores the buffer (either back end). -/
theorem C24_involution (key nonce : Bytes) (hk : key.length = 32) (hn : nonce.length = 12)
    (ctr : BitVec 32) (buf : Bytes) :
    (ChaCha20.cipher (ChaCha20.new key (toLE 4 ctr.toNat ++ nonce))
      (ChaCha20.cipher (ChaCha20.new key (toLE 4 ctr.toNat ++ nonce)) buf).2).2 = buf ∧
    (ChaCha20X86.cipher (ChaCha20X86.new key (toLE 4 ctr.toNat ++ nonce))
      (ChaCha20X86.cipher (ChaCha20X86.new key (toLE 4 ctr.toNat ++ nonce)) buf).2).2 = buf := by
  constructor
  · rw [ChaCha20.new_ok key nonce ctr hn, ChaCha20.cipher_ok key nonce ctr buf hk hn,
      ChaCha20.cipher_ok key nonce ctr _ hk hn]
    exact ChaChaPoly.encrypt_involutive key nonce ctr buf
  · rw [C24_avx2 key nonce hk hn, C24_avx2 key nonce hk hn]
    exact ChaChaPoly.encrypt_involutive key nonce ctr buf

/-! ### The AEADs -/

/-- The two stream ciphers the crate can be built with. -/
inductive Backend | portable | avx2
def Backend.stream : Backend → ChaChaPoly.Stream
  | .portable => .portable
  | .avx2 => .avx2
def Backend.correct : (b : Backend) → ChaChaPoly.Correct b.stream
  | .portable => ChaChaPoly.correctPortable
  | .avx2 => ChaChaPoly.correctAvx2

/-- `encrypt` is RFC 8439's AEAD and does not panic. -/
theorem C25_chacha_seal (b : Backend) (key nonce aad pt : Bytes) (hk : key.length = 32)
    (hn : nonce.length = 12) :
    ChaChaPoly.encrypt b.stream key nonce aad pt = some (Spec.ChaChaPoly.sealed key nonce aad pt) :=
  ChaChaPoly.cipherWith_ok b.correct _ key nonce aad pt true hk hn (b.correct.new key nonce hk hn)

/-- `decrypt`, for every offered tag of every length: it succeeds exactly when the tag is RFC 8439's
tag of this key, nonce, associated data and ciphertext, and then gives the plaintext; otherwise it
reports `DecryptFailed` and the buffer is all zeros. -/
theorem C26_chacha (b : Backend) (key nonce aad ct tag : Bytes) (hk : key.length = 32)
    (hn : nonce.length = 12) :
    ChaChaPoly.decrypt b.stream key nonce aad ct tag =
      some (if tag = Spec.ChaChaPoly.tag key nonce aad ct
        then (.ok (), Spec.ChaChaPoly.opened key nonce ct)
        else (.error .DecryptFailed, List.replicate ct.length 0#8)) := by
  rw [ChaChaPoly.decrypt, ChaChaPoly.cipher,
    ChaChaPoly.cipherWith_ok b.correct _ key nonce aad ct false hk hn (b.correct.new key nonce hk hn),
    Option.map_some, ChaChaPoly.checkTag_eq]
  simp only [ChaCha20.encrypt_length, Bool.false_eq_true, if_false]
  rfl

/-- **C25** What `encrypt` produced, `decrypt` accepts and restores; the sender and the receiver may
run on different back ends. -/
theorem C25_chacha (b b' : Backend) (key nonce aad pt : Bytes) (hk : key.length = 32)
    (hn : nonce.length = 12) :
    ∃ ct tag, ChaChaPoly.encrypt b.stream key nonce aad pt = some (ct, tag) ∧
      ct.length = pt.length ∧ tag.length = 16 ∧
      ChaChaPoly.decrypt b'.stream key nonce aad ct tag = some (.ok (), pt) := by
  refine ⟨_, _, C25_chacha_seal b key nonce aad pt hk hn, ChaCha20.encrypt_length _ _ _ _, ?_, ?_⟩
  · simp [Spec.ChaChaPoly.tag, Spec.Poly1305.mac]
  · rw [C26_chacha b' key nonce aad _ _ hk hn]
    simp only [if_true]
    rw [Spec.ChaChaPoly.opened, ChaChaPoly.encrypt_involutive]

/-- **C27** XChaCha20-Poly1305 `encrypt` is the RFC 8439 AEAD under the HChaCha20 subkey of the first
16 nonce bytes, with nonce `0^4 ‖` the last 8. -/
theorem C27_xchacha_seal (b : Backend) (key nonce aad pt : Bytes) (hk : key.length = 32)
    (hn : nonce.length = 24) :
    ChaChaPoly.xencrypt b.stream key nonce aad pt =
      some (Spec.ChaChaPoly.sealed (Spec.ChaCha20.hchacha key (nonce.take 16))
        ([0, 0, 0, 0] ++ nonce.drop 16) aad pt) :=
  ChaChaPoly.cipherWith_ok b.correct _ _ _ aad pt true (ChaChaPoly.subkey_length key nonce hk hn)
    (ChaChaPoly.subnonce_length nonce hn) (b.correct.xnew key nonce hk hn)

/-- **C27** The same, in terms of the crate's two AEADs. -/
theorem C27_xchacha_is_chacha (b : Backend) (key nonce aad buf tag : Bytes) (hk : key.length = 32)
    (hn : nonce.length = 24) :
    let k := Spec.ChaCha20.hchacha key (nonce.take 16)
    let n := [0, 0, 0, 0] ++ nonce.drop 16
    ChaChaPoly.xencrypt b.stream key nonce aad buf = ChaChaPoly.encrypt b.stream k n aad buf ∧
    ChaChaPoly.xdecrypt b.stream key nonce aad buf tag = ChaChaPoly.decrypt b.stream k n aad buf tag := by
  have hk' := ChaChaPoly.subkey_length key nonce hk hn
  have hn' := ChaChaPoly.subnonce_length nonce hn
  refine ⟨(C27_xchacha_seal b key nonce aad buf hk hn).trans (C25_chacha_seal b _ _ aad buf hk' hn').symm, ?_⟩
  refine Eq.trans ?_ (C26_chacha b _ _ aad buf tag hk' hn').symm
  rw [ChaChaPoly.xdecrypt, ChaChaPoly.xcipher,
    ChaChaPoly.cipherWith_ok b.correct _ _ _ aad buf false hk' hn' (b.correct.xnew key nonce hk hn),
    Option.map_some, ChaChaPoly.checkTag_eq]
  simp only [ChaCha20.encrypt_length, Bool.false_eq_true, if_false]
  rfl

/-- **C26** for XChaCha20-Poly1305. -/
theorem C26_xchacha (b : Backend) (key nonce aad ct tag : Bytes) (hk : key.length = 32)
    (hn : nonce.length = 24) :
    let k := Spec.ChaCha20.hchacha key (nonce.take 16)
    let n := [0, 0, 0, 0] ++ nonce.drop 16
    ChaChaPoly.xdecrypt b.stream key nonce aad ct tag =
      some (if tag = Spec.ChaChaPoly.tag k n aad ct
        then (.ok (), Spec.ChaChaPoly.opened k n ct)
        else (.error .DecryptFailed, List.replicate ct.length 0#8)) :=
  (C27_xchacha_is_chacha b key nonce aad ct tag hk hn).2.trans
    (C26_chacha b _ _ aad ct tag (ChaChaPoly.subkey_length key nonce hk hn)
      (ChaChaPoly.subnonce_length nonce hn))

/-- **C25** for XChaCha20-Poly1305. -/
theorem C25_xchacha (b b' : Backend) (key nonce aad pt : Bytes) (hk : key.length = 32)
    (hn : nonce.length = 24) :
    ∃ ct tag, ChaChaPoly.xencrypt b.stream key nonce aad pt = some (ct, tag) ∧
      ct.length = pt.length ∧ tag.length = 16 ∧
      ChaChaPoly.xdecrypt b'.stream key nonce aad ct tag = some (.ok (), pt) := by
  obtain ⟨ct, tag, h1, h2, h3, h4⟩ := C25_chacha b b' _ _ aad pt
    (ChaChaPoly.subkey_length key nonce hk hn) (ChaChaPoly.subnonce_length nonce hn)
  exact ⟨ct, tag, (C27_xchacha_is_chacha b key nonce aad pt tag hk hn).1.trans h1, h2, h3,
    (C27_xchacha_is_chacha b' key nonce aad ct tag hk hn).2.trans h4⟩

/-! ### Concrete cases -/

/-- RFC 8439, A.1 vector 1: the first keystream bytes of the zero key; 200 bytes cross both the
64-byte and the 128-byte boundary. -/
example : ((ChaCha20X86.cipher (ChaCha20X86.new (List.replicate 32 0) (toLE 4 0 ++ List.replicate 12 0))
    (List.replicate 200 0)).2).take 8 = [0x76, 0xb8, 0xe0, 0xad, 0xa0, 0xf1, 0x3d, 0x90] := by
  rw [show toLE 4 0 = toLE 4 (0#32).toNat from rfl,
    C24_avx2 (List.replicate 32 0) (List.replicate 12 0) rfl rfl 0#32]; decide +kernel

/-- An empty tag is refused and the buffer cleared. -/
example : ChaChaPoly.decrypt .portable (List.replicate 32 7) (List.replicate 12 1) [1, 2, 3] [4, 5, 6] [] =
    some (.error .DecryptFailed, [0, 0, 0]) := by
  have h := C26_chacha .portable (List.replicate 32 7) (List.replicate 12 1) [1, 2, 3] [4, 5, 6] [] rfl rfl
  rw [if_neg (by simp [Spec.ChaChaPoly.tag, Spec.Poly1305.mac, toLE])] at h
  exact h

end Verif.Props
