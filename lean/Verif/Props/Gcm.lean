import Verif.Proof.AesGcm
import Verif.Proof.Ct

/-!
C28, C29, C30, and C25 and C26 for AES-GCM.

`w` says which of the two x86_64 configurations is meant: `false` is AES-NI with PCLMULQDQ (blocks hashed and
encrypted eight at a time), `true` adds the AVX-512 forms (sixteen at a time).
-/
namespace Verif.Props
open Verif

/-! ### The field of AES -/

/-- The specification's `ginv` is the inverse in GF(2^8): it inverts every non-zero byte. -/
theorem C30_spec_inverse (b : Byte) (h : b ≠ 0#8) : Spec.Aes.gmul b (Spec.Aes.ginv b) = 1#8 := by
  have : ∀ b : BitVec 8, b ≠ 0#8 → Spec.Aes.gmul b (Spec.Aes.ginv b) = 1#8 := by decide +kernel
  exact this b h

/-- **C30** `AesKey::new` on a 16 or 32 byte key gives the 11 or 15 round keys of FIPS 197's key expansion, in
order; on any other length it panics. -/
theorem C30_round_keys (key : Bytes) :
    ((key.length = 16 ∨ key.length = 32) →
      ∃ k, AesX86.AesKey.new key = some k ∧ k.roundKeys.length = key.length / 4 + 7 ∧
        ∀ r, r ≤ key.length / 4 + 6 → Simd.store (k.roundKeys.getD r 0#128) = Spec.Aes.roundKey key r) ∧
    (key.length ≠ 16 → key.length ≠ 32 → AesX86.AesKey.new key = none) := by
  refine ⟨AesX86.new_ok key, fun h1 h2 => ?_⟩
  rw [AesX86.AesKey.new]
  split <;> first | contradiction | rfl

/-- **C30** Block encryption with those keys is the AES cipher of FIPS 197. -/
theorem C30_block (key : Bytes) (hk : key.length = 16 ∨ key.length = 32) :
    ∃ k, AesX86.AesKey.new key = some k ∧
      ∀ b, b.length = 16 → k.encryptBlock b = Spec.Aes.cipher key b := by
  obtain ⟨k, h1, _, h3⟩ := AesX86.aes_ok key hk
  exact ⟨k, h1, h3⟩

/-- FIPS 197, appendix B: the standard's example, through the model. -/
example : (AesX86.AesKey.new
      [0x2b, 0x7e, 0x15, 0x16, 0x28, 0xae, 0xd2, 0xa6, 0xab, 0xf7, 0x15, 0x88, 0x09, 0xcf, 0x4f, 0x3c]).map
      (fun k => k.encryptBlock
        [0x32, 0x43, 0xf6, 0xa8, 0x88, 0x5a, 0x30, 0x8d, 0x31, 0x31, 0x98, 0xa2, 0xe0, 0x37, 0x07, 0x34]) =
    some [0x39, 0x25, 0x84, 0x1d, 0x02, 0xdc, 0x09, 0xfb, 0xdc, 0x11, 0x85, 0x97, 0x19, 0x6a, 0x0b, 0x32] := by
  decide +kernel

/-! ### GHASH -/

/-- The operations a caller makes on a GHASH state: byte strings added one after the other (each one
zero-padded to whole blocks), then the value. -/
def ghashX86 (w : Bool) (h : BitVec 128) (adds : List Bytes) : Bytes :=
  GhashX86.intoBytes (adds.foldl (GhashX86.add (GhashX86.Table.new w h)) 0#128)
def ghashGeneric (h : BitVec 128) (adds : List Bytes) : Bytes :=
  Ghash.intoBytes (adds.foldl (Ghash.add h) 0#128)

theorem foldl_absorb (f : BitVec 128 → Bytes → BitVec 128) (h : BitVec 128)
    (hf : ∀ c b, f c b = Spec.Ghash.absorb h c (Spec.Ghash.blocksOf b)) (adds : List Bytes) (c : BitVec 128) :
    adds.foldl f c = Spec.Ghash.absorb h c (adds.flatMap Spec.Ghash.blocksOf) := by
  induction adds generalizing c with
  | nil => rfl
  | cons a as ih => rw [List.foldl_cons, hf, ih, List.flatMap_cons, GhashX86.absorb_append]

/-- **C29** For every hash key and every sequence of additions of any length, the carry-less-multiply GHASH
(both table kinds) is SP 800-38D's GHASH of the padded blocks. -/
theorem C29_clmul (w : Bool) (h : BitVec 128) (adds : List Bytes) :
    ghashX86 w h adds = toBE 16 (Spec.Ghash.ghash h (adds.flatMap Spec.Ghash.blocksOf)).toNat := by
  rw [ghashX86, foldl_absorb _ h (GhashX86.add_ok w h), GhashX86.intoBytes_ok]; rfl

/-- **C29** The same for the portable code, so all implementations agree. -/
theorem C29_generic (h : BitVec 128) (adds : List Bytes) :
    ghashGeneric h adds = toBE 16 (Spec.Ghash.ghash h (adds.flatMap Spec.Ghash.blocksOf)).toNat := by
  rw [ghashGeneric, foldl_absorb _ h (GhashX86.generic_add_ok h)]; rfl

/-- **C29** One multiplication: the Karatsuba multiply and folding reduction against a table entry is the
bit-by-bit product, for all operands. -/
theorem C29_mul (h a : BitVec 128) :
    GhashX86.mul a (GhashX86.gf128BigEndian h) = Spec.Ghash.mul a h := by
  have := GhashX86.mul_h (GhashX86.TableAvx.new h) h rfl a
  exact this

/-- The specification's product is commutative with identity `0x80…0` (the block of the polynomial 1), and
distributes over xor, so it is a sensible field multiplication. -/
theorem C29_spec_comm (a b : BitVec 128) : Spec.Ghash.mul a b = Spec.Ghash.mul b a :=
  GhashX86.spec_mul_comm a b

/-- SP 800-38D test case 2 (GCM spec): `H` of the zero AES-128 key and its GHASH. -/
example : ghashX86 true 0x66e94bd4ef8a2c3b884cfa59ca342b2e#128
    [[], [0x03, 0x88, 0xda, 0xce, 0x60, 0xb6, 0xa3, 0x92, 0xf3, 0x28, 0xc2, 0xb9, 0x71, 0xb2, 0xfe, 0x78],
     toBE 8 0 ++ toBE 8 128] =
    [0xf3, 0x8c, 0xbb, 0x1a, 0xd6, 0x92, 0x23, 0xdc, 0xc3, 0x45, 0x7a, 0xe5, 0xb6, 0xb0, 0xf8, 0x85] := by
  rw [C29_clmul]; decide +kernel

/-! ### GCM -/

/-- What a caller of the AEAD can do: make a key, then encrypt. -/
def gcmSeal (w : Bool) (key nonce aad pt : Bytes) : Option (Bytes × Bytes) :=
  (AesGcm.AesGcm.new w key).map fun g => g.encrypt nonce aad pt
def gcmOpen (w : Bool) (key nonce aad ct tag : Bytes) : Option (Except GError Unit × Bytes) :=
  (AesGcm.AesGcm.new w key).map fun g => g.decrypt nonce aad ct tag

/-- **C28** `encrypt` is SP 800-38D's GCM-AE with AES, for both x86_64 paths and every message up to GCM's own
limit of 2^32 - 2 blocks (the eight-at-a-time path needs no limit: its counter wraps as the standard's does). -/
theorem C28_gcm (w : Bool) (key nonce aad pt : Bytes) (hk : key.length = 16 ∨ key.length = 32)
    (hn : nonce.length = 12) (hlen : w = true → pt.length ≤ 16 * (2 ^ 32 - 2)) :
    gcmSeal w key nonce aad pt = some (Spec.Gcm.sealed (Spec.Aes.cipher key) nonce aad pt) := by
  obtain ⟨g, h1, h2⟩ := AesGcm.run_ok w key hk
  rw [gcmSeal, h1, Option.map_some, AesGcm.AesGcm.encrypt, h2 true nonce aad pt hn hlen]
  rfl

/-- **C28** Block by block: 16 bytes of ciphertext at block index `i` are the plaintext there xor the encryption
of `nonce ‖ (i + 2 mod 2^32)`. -/
theorem C28_counter (w : Bool) (key nonce aad pt : Bytes) (hk : key.length = 16 ∨ key.length = 32)
    (hn : nonce.length = 12) (hlen : w = true → pt.length ≤ 16 * (2 ^ 32 - 2)) :
    ∃ ct tag, gcmSeal w key nonce aad pt = some (ct, tag) ∧ ct.length = pt.length ∧
      ∀ i, (ct.drop (16 * i)).take 16 = List.zipWith (· ^^^ ·) ((pt.drop (16 * i)).take 16)
        (Spec.Aes.cipher key (nonce ++ toBE 4 ((i + 2) % 2 ^ 32))) := by
  refine ⟨_, _, C28_gcm w key nonce aad pt hk hn hlen, AesGcm.crypt_length key hk nonce pt hn, fun i => ?_⟩
  rw [AesGcm.crypt_block key hk nonce pt hn i]

/-- **C28** Any other key length panics when the key is made. -/
theorem C28_key_length (w : Bool) (key : Bytes) (h1 : key.length ≠ 16) (h2 : key.length ≠ 32) :
    AesGcm.AesGcm.new w key = none := by
  rw [AesGcm.AesGcm.new, (C30_round_keys key).2 h1 h2]; rfl

/-- **C26** `decrypt` for AES-GCM, for every offered tag of every length: it succeeds exactly when the tag is
GCM's tag of this key, nonce, associated data and ciphertext, and then gives the plaintext; otherwise it
reports `DecryptFailed` and the buffer is all zeros. -/
theorem C26_gcm (w : Bool) (key nonce aad ct tag : Bytes) (hk : key.length = 16 ∨ key.length = 32)
    (hn : nonce.length = 12) (hlen : w = true → ct.length ≤ 16 * (2 ^ 32 - 2)) :
    gcmOpen w key nonce aad ct tag =
      some (if tag = Spec.Gcm.tag (Spec.Aes.cipher key) nonce aad ct
        then (.ok (), Spec.Gcm.crypt (Spec.Aes.cipher key) nonce ct)
        else (.error .DecryptFailed, List.replicate ct.length 0#8)) := by
  obtain ⟨g, h1, h2⟩ := AesGcm.run_ok w key hk
  rw [gcmOpen, h1, Option.map_some, AesGcm.AesGcm.decrypt, h2 false nonce aad ct hn hlen]
  simp only [AesGcm.sel, Bool.false_eq_true, if_false, AesGcm.crypt_length key hk nonce ct hn]
  by_cases h : tag = Spec.Gcm.tag (Spec.Aes.cipher key) nonce aad ct
  · rw [if_pos h, if_pos ((Ct.ctEqual_iff _ _).2 h.symm)]
  · rw [if_neg h, if_neg (fun h' => h ((Ct.ctEqual_iff _ _).1 h').symm)]

/-- **C25** What AES-GCM's `encrypt` produced, `decrypt` accepts and restores, whichever path each side runs. -/
theorem C25_gcm (w w' : Bool) (key nonce aad pt : Bytes) (hk : key.length = 16 ∨ key.length = 32)
    (hn : nonce.length = 12) (hlen : pt.length ≤ 16 * (2 ^ 32 - 2)) :
    ∃ ct tag, gcmSeal w key nonce aad pt = some (ct, tag) ∧ ct.length = pt.length ∧ tag.length = 16 ∧
      gcmOpen w' key nonce aad ct tag = some (.ok (), pt) := by
  have hl := AesGcm.crypt_length key hk nonce pt hn
  refine ⟨_, _, C28_gcm w key nonce aad pt hk hn (fun _ => hlen), hl, AesGcm.tag_length key hk _ _ _ hn, ?_⟩
  rw [C26_gcm w' key nonce aad _ _ hk hn (fun _ => by rw [hl]; exact hlen)]
  simp only [if_true]
  rw [AesGcm.crypt_crypt key hk nonce pt hn]

/-- A 300-byte message takes the sixteen-block loop and the tail; the theorem applies to it. -/
example (w : Bool) : ∃ ct tag, gcmSeal w (List.replicate 16 0) (List.replicate 12 0) [9] (List.replicate 300 7) =
    some (ct, tag) ∧ ct.length = 300 ∧ tag.length = 16 := by
  obtain ⟨ct, tag, h1, h2, h3, _⟩ := C25_gcm w w (List.replicate 16 0) (List.replicate 12 0) [9]
    (List.replicate 300 7) (Or.inl rfl) rfl (by rw [List.length_replicate]; omega)
  rw [List.length_replicate] at h2
  exact ⟨ct, tag, h1, h2, h3⟩

/-- A truncated tag is refused and the buffer cleared; 300 bytes take the sixteen-block loop. -/
example (key nonce tag : Bytes) (hk : key.length = 32) (hn : nonce.length = 12) (ht : tag.length = 15) :
    gcmOpen true key nonce [1, 2, 3] (List.replicate 300 7) tag =
      some (.error .DecryptFailed, List.replicate 300 0#8) := by
  rw [C26_gcm true key nonce _ _ _ (Or.inr hk) hn (fun _ => by rw [List.length_replicate]; omega), if_neg]
  · rw [List.length_replicate]
  · intro h
    have := AesGcm.tag_length key (Or.inr hk) nonce [1, 2, 3] (List.replicate 300 7) hn
    rw [← h, ht] at this
    omega

end Verif.Props
