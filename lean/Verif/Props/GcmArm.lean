import Verif.Proof.AesGcmArm
import Verif.Props.Gcm

/-!
C28, C29, C30, and C25 and C26 for AES-GCM, on aarch64 (NEON with the AES and PMULL instructions).
-/
namespace Verif.Props
open Verif

/-- The round keys a key object holds. -/
def armRoundKeys : AesArm.AesKey → List Neon.Q
  | .aes128 rk => rk
  | .aes256 rk => rk

/-- **C30** On aarch64 too, `AesKey::new` on a 16 or 32 byte key gives the 11 or 15 round keys of FIPS 197's key
expansion, in order; on any other length it panics. -/
theorem C30_arm_round_keys (key : Bytes) :
    ((key.length = 16 ∨ key.length = 32) →
      ∃ k, AesArm.AesKey.new key = some k ∧ (armRoundKeys k).length = key.length / 4 + 7 ∧
        ∀ r, r ≤ key.length / 4 + 6 → Neon.vst1q ((armRoundKeys k).getD r 0#128) = Spec.Aes.roundKey key r) ∧
    (key.length ≠ 16 → key.length ≠ 32 → AesArm.AesKey.new key = none) := by
  refine ⟨?_, fun h1 h2 => ?_⟩
  · rintro (hk | hk)
    · refine ⟨.aes128 (AesArm.new128 key), by simp only [AesArm.AesKey.new, hk], ?_, ?_⟩
      · rw [hk]; exact AesArm.toRoundKeys_length _ _
      · intro r hr
        exact AesArm.new128_ok key hk r (by omega)
    · refine ⟨.aes256 (AesArm.new256 key), by simp only [AesArm.AesKey.new, hk], ?_, ?_⟩
      · rw [hk]; exact AesArm.toRoundKeys_length _ _
      · intro r hr
        exact AesArm.new256_ok key hk r (by omega)
  · rw [AesArm.AesKey.new]
    split <;> first | contradiction | rfl

/-- **C30** Block encryption on aarch64 is the AES cipher of FIPS 197. -/
theorem C30_arm_block (key : Bytes) (hk : key.length = 16 ∨ key.length = 32) :
    ∃ k, AesArm.AesKey.new key = some k ∧
      ∀ b, b.length = 16 → k.encryptBlock b = Spec.Aes.cipher key b := by
  obtain ⟨k, kx, h1, h2, h3⟩ := AesArm.new_eq key hk
  obtain ⟨kx', h2', h4⟩ := C30_block key hk
  rw [h2] at h2'
  obtain rfl := Option.some.inj h2'
  refine ⟨k, h1, fun b hb => ?_⟩
  rw [← h4 b hb, AesArm.AesKey.encryptBlock, Neon.vld1q, h3]
  rfl

/-- FIPS 197, appendix B: the standard's example, through the model. -/
example : (AesArm.AesKey.new
      [0x2b, 0x7e, 0x15, 0x16, 0x28, 0xae, 0xd2, 0xa6, 0xab, 0xf7, 0x15, 0x88, 0x09, 0xcf, 0x4f, 0x3c]).map
      (fun k => k.encryptBlock
        [0x32, 0x43, 0xf6, 0xa8, 0x88, 0x5a, 0x30, 0x8d, 0x31, 0x31, 0x98, 0xa2, 0xe0, 0x37, 0x07, 0x34]) =
    some [0x39, 0x25, 0x84, 0x1d, 0x02, 0xdc, 0x09, 0xfb, 0xdc, 0x11, 0x85, 0x97, 0x19, 0x6a, 0x0b, 0x32] := by
  decide +kernel

/-- Byte strings added one after the other to an aarch64 GHASH state, then the value. -/
def ghashArm (h : BitVec 128) (adds : List Bytes) : Bytes :=
  GhashArm.intoBytes (adds.foldl (GhashArm.add (GhashArm.GhashTable.new h)) 0#128)

/-- **C29** For every hash key and every sequence of additions of any length, aarch64's GHASH is SP 800-38D's
GHASH of the padded blocks. -/
theorem C29_arm (h : BitVec 128) (adds : List Bytes) :
    ghashArm h adds = toBE 16 (Spec.Ghash.ghash h (adds.flatMap Spec.Ghash.blocksOf)).toNat := by
  rw [ghashArm, foldl_absorb _ h (GhashArm.add_ok h)]; rfl

/-- **C29** So the three implementations agree on all inputs. -/
theorem C29_all_agree (w : Bool) (h : BitVec 128) (adds : List Bytes) :
    ghashArm h adds = ghashX86 w h adds ∧ ghashArm h adds = ghashGeneric h adds := by
  rw [C29_arm, C29_clmul, C29_generic]; exact ⟨rfl, rfl⟩

/-- **C29** One multiplication on aarch64 against a table entry is the bit-by-bit product, for all operands. -/
theorem C29_arm_mul (h a : BitVec 128) :
    GhashArm.mul a (GhashArm.gf128BigEndian h) = Spec.Ghash.mul a h := by
  rw [GhashArm.mul_eq, GhashArm.gf128_eq, C29_mul]

/-- SP 800-38D test case 2, as for x86_64. -/
example : ghashArm 0x66e94bd4ef8a2c3b884cfa59ca342b2e#128
    [[], [0x03, 0x88, 0xda, 0xce, 0x60, 0xb6, 0xa3, 0x92, 0xf3, 0x28, 0xc2, 0xb9, 0x71, 0xb2, 0xfe, 0x78],
     toBE 8 0 ++ toBE 8 128] =
    [0xf3, 0x8c, 0xbb, 0x1a, 0xd6, 0x92, 0x23, 0xdc, 0xc3, 0x45, 0x7a, 0xe5, 0xb6, 0xb0, 0xf8, 0x85] := by
  rw [C29_arm]; decide +kernel

/-! ### GCM -/

/-- What a caller of the AEAD can do on aarch64: make a key, then encrypt or decrypt. -/
def gcmSealArm (key nonce aad pt : Bytes) : Option (Bytes × Bytes) :=
  (AesGcmArm.AesGcm.new key).map fun g => g.encrypt nonce aad pt
def gcmOpenArm (key nonce aad ct tag : Bytes) : Option (Except GError Unit × Bytes) :=
  (AesGcmArm.AesGcm.new key).map fun g => g.decrypt nonce aad ct tag

/-- **C28** On aarch64 `encrypt` is SP 800-38D's GCM-AE with AES, for messages of every length. -/
theorem C28_arm_gcm (key nonce aad pt : Bytes) (hk : key.length = 16 ∨ key.length = 32)
    (hn : nonce.length = 12) :
    gcmSealArm key nonce aad pt = some (Spec.Gcm.sealed (Spec.Aes.cipher key) nonce aad pt) := by
  rw [← C28_gcm false key nonce aad pt hk hn (by simp)]
  obtain ⟨g, gx, h1, h2, h3⟩ := AesGcmArm.run_eq key hk
  rw [gcmSealArm, gcmSeal, h1, h2, Option.map_some, Option.map_some, AesGcmArm.AesGcm.encrypt,
    AesGcm.AesGcm.encrypt, h3 true nonce aad pt hn]

/-- **C28** Block by block: 16 bytes of ciphertext at block index `i` are the plaintext there xor the encryption
of `nonce ‖ (i + 2 mod 2^32)`. -/
theorem C28_arm_counter (key nonce aad pt : Bytes) (hk : key.length = 16 ∨ key.length = 32)
    (hn : nonce.length = 12) :
    ∃ ct tag, gcmSealArm key nonce aad pt = some (ct, tag) ∧ ct.length = pt.length ∧
      ∀ i, (ct.drop (16 * i)).take 16 = List.zipWith (· ^^^ ·) ((pt.drop (16 * i)).take 16)
        (Spec.Aes.cipher key (nonce ++ toBE 4 ((i + 2) % 2 ^ 32))) := by
  refine ⟨_, _, C28_arm_gcm key nonce aad pt hk hn, AesGcm.crypt_length key hk nonce pt hn, fun i => ?_⟩
  rw [AesGcm.crypt_block key hk nonce pt hn i]

/-- **C28** Any other key length panics when the key is made. -/
theorem C28_arm_key_length (key : Bytes) (h1 : key.length ≠ 16) (h2 : key.length ≠ 32) :
    AesGcmArm.AesGcm.new key = none := by
  rw [AesGcmArm.AesGcm.new, (C30_arm_round_keys key).2 h1 h2]; rfl

/-- **C28** All three code paths produce the same ciphertext and tag. -/
theorem C28_paths_agree (w : Bool) (key nonce aad pt : Bytes) (hk : key.length = 16 ∨ key.length = 32)
    (hn : nonce.length = 12) (hlen : w = true → pt.length ≤ 16 * (2 ^ 32 - 2)) :
    gcmSealArm key nonce aad pt = gcmSeal w key nonce aad pt := by
  rw [C28_arm_gcm key nonce aad pt hk hn, C28_gcm w key nonce aad pt hk hn hlen]

/-- **C26** `decrypt` on aarch64, for every offered tag of every length. -/
theorem C26_arm_gcm (key nonce aad ct tag : Bytes) (hk : key.length = 16 ∨ key.length = 32)
    (hn : nonce.length = 12) :
    gcmOpenArm key nonce aad ct tag =
      some (if tag = Spec.Gcm.tag (Spec.Aes.cipher key) nonce aad ct
        then (.ok (), Spec.Gcm.crypt (Spec.Aes.cipher key) nonce ct)
        else (.error .DecryptFailed, List.replicate ct.length 0#8)) := by
  rw [← C26_gcm false key nonce aad ct tag hk hn (by simp)]
  obtain ⟨g, gx, h1, h2, h3⟩ := AesGcmArm.run_eq key hk
  rw [gcmOpenArm, gcmOpen, h1, h2, Option.map_some, Option.map_some, AesGcmArm.AesGcm.decrypt,
    AesGcm.AesGcm.decrypt, h3 false nonce aad ct hn]

/-- **C25** What aarch64's `encrypt` produced, `decrypt` accepts and restores; and a peer on x86_64 does too. -/
theorem C25_arm_gcm (w : Bool) (key nonce aad pt : Bytes) (hk : key.length = 16 ∨ key.length = 32)
    (hn : nonce.length = 12) (hlen : pt.length ≤ 16 * (2 ^ 32 - 2)) :
    ∃ ct tag, gcmSealArm key nonce aad pt = some (ct, tag) ∧ gcmSeal w key nonce aad pt = some (ct, tag) ∧
      ct.length = pt.length ∧ tag.length = 16 ∧
      gcmOpenArm key nonce aad ct tag = some (.ok (), pt) ∧
      gcmOpen w key nonce aad ct tag = some (.ok (), pt) := by
  obtain ⟨ct, tag, h1, h2, h3, h4⟩ := C25_gcm w w key nonce aad pt hk hn hlen
  have h5 := C28_paths_agree w key nonce aad pt hk hn (fun _ => hlen)
  refine ⟨ct, tag, by rw [h5, h1], h1, h2, h3, ?_, h4⟩
  rw [C26_arm_gcm key nonce aad ct tag hk hn, ← C26_gcm w key nonce aad ct tag hk hn (fun _ => by omega), h4]

/-- 300 bytes: two by-8 steps, two single blocks and a short one, and a truncated tag is refused. -/
example (key nonce tag : Bytes) (hk : key.length = 32) (hn : nonce.length = 12) (ht : tag.length = 15) :
    (∃ ct t, gcmSealArm key nonce [9] (List.replicate 300 7) = some (ct, t) ∧ ct.length = 300 ∧ t.length = 16) ∧
    gcmOpenArm key nonce [1, 2, 3] (List.replicate 300 7) tag =
      some (.error .DecryptFailed, List.replicate 300 0#8) := by
  constructor
  · obtain ⟨ct, t, h1, _, h2, h3, _⟩ := C25_arm_gcm true key nonce [9] (List.replicate 300 7) (Or.inr hk) hn
      (by rw [List.length_replicate]; omega)
    rw [List.length_replicate] at h2
    exact ⟨ct, t, h1, h2, h3⟩
  · rw [C26_arm_gcm key nonce _ _ _ (Or.inr hk) hn, if_neg]
    · rw [List.length_replicate]
    · intro h
      have := AesGcm.tag_length key (Or.inr hk) nonce [1, 2, 3] (List.replicate 300 7) hn
      rw [← h, ht] at this
      omega

end Verif.Props
