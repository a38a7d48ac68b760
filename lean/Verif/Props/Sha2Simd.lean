import Verif.Proof.Sha256Simd
import Verif.Proof.Sha512Avx2
import Verif.Props.Sha2

/-!
C17 for the vector implementations of the SHA-2 compression functions: SHA-NI and AVX2 on x86_64, the cryptographic extension on
aarch64.  `Spec.Sha2.compress` is the standard's compression of one block.
-/
namespace Verif.Props
open Verif

/-- **C17** SHA-NI: every state and every string of whole blocks is compressed as the standard says, block by block. -/
theorem C17_sha256_shani (H : St 32) (blocks : Bytes) :
    Sha256Ni.compressBlocks H blocks = (chunksExact 64 blocks).foldl (Spec.Sha2.compress Spec.Sha2.v256) H :=
  Sha256Simd.Ni.compressBlocks_eq H blocks

/-- **C17** The same for aarch64. -/
theorem C17_sha256_armv8 (H : St 32) (blocks : Bytes) :
    Sha256Arm.compressBlocks H blocks = (chunksExact 64 blocks).foldl (Spec.Sha2.compress Spec.Sha2.v256) H :=
  Sha256Simd.Arm.compressBlocks_eq H blocks

/-- **C17** SHA-512 with AVX2, which takes four blocks at a time as long as it can and the others one by one. -/
theorem C17_sha512_avx2 (H : St 64) (blocks : Bytes) :
    Sha512Avx2.compressBlocks H blocks = (chunksExact 128 blocks).foldl (Spec.Sha2.compress Spec.Sha2.v512) H :=
  Sha512Simd.compressBlocks_eq H blocks

/-- **C17** The four-block and the one-block path of AVX2 separately. -/
theorem C17_sha512_avx2_paths (H : St 64) (b0 b1 b2 b3 : Bytes) (h0 : b0.length = 128) (h1 : b1.length = 128) (h2 : b2.length = 128)
    (h3 : b3.length = 128) :
    Sha512Avx2.compress1 H b0 = Spec.Sha2.compress Spec.Sha2.v512 H b0 ∧
    Sha512Avx2.compress4 H (b0 ++ (b1 ++ (b2 ++ b3))) =
      [b0, b1, b2, b3].foldl (Spec.Sha2.compress Spec.Sha2.v512) H := by
  refine ⟨Sha512Simd.compress1_eq H b0 h0, ?_⟩
  rw [Sha512Simd.compress4_eq H _ (by simp [h0, h1, h2, h3]), chunksExact_block_append (by omega) h0,
    chunksExact_block_append (by omega) h1, chunksExact_block_append (by omega) h2, chunksExact_single (by omega) h3]

/-- **C17** Every implementation that can be chosen at run time is the same function as the portable one, so the digests of C16 and
all that is built on them do not depend on the processor. -/
theorem C17_implementations_agree :
    (∀ haveSha256, Sha256Ni.mux haveSha256 = Sha2.compressBlocks Sha2.params256 64) ∧
    Sha256Arm.compressBlocks = Sha2.compressBlocks Sha2.params256 64 ∧
    ∀ haveBmi2, Sha512Avx2.mux haveBmi2 = Sha2.compressBlocks Sha2.params512 128 := by
  have p256 : Sha2.compressBlocks Sha2.params256 64 = fun H bs => (chunksExact 64 bs).foldl (Spec.Sha2.compress Spec.Sha2.v256) H := by
    funext H bs
    rw [Sha2.compressBlocks, show Sha2.compressBlock Sha2.params256 = Spec.Sha2.compress Spec.Sha2.v256 from
      funext fun s => funext fun b => Sha2.compressBlock_eq Sha2.agree256 s b]
  have p512 : Sha2.compressBlocks Sha2.params512 128 = fun H bs => (chunksExact 128 bs).foldl (Spec.Sha2.compress Spec.Sha2.v512) H := by
    funext H bs
    rw [Sha2.compressBlocks, show Sha2.compressBlock Sha2.params512 = Spec.Sha2.compress Spec.Sha2.v512 from
      funext fun s => funext fun b => Sha2.compressBlock_eq Sha2.agree512 s b]
  refine ⟨fun hs => ?_, ?_, fun hb => ?_⟩
  · funext H bs
    unfold Sha256Ni.mux
    cases hs
    · rfl
    · rw [if_pos rfl, C17_sha256_shani, p256]
  · funext H bs
    rw [C17_sha256_armv8, p256]
  · funext H bs
    unfold Sha512Avx2.mux
    cases hb
    · rfl
    · rw [if_pos rfl, C17_sha512_avx2, p512]

/-- The blocks of "abc", compressed by each implementation: the well-known digests. -/
def abc256 : Bytes := [0x61#8, 0x62#8, 0x63#8, 0x80#8] ++ List.replicate 59 0#8 ++ [0x18#8]
def abc512 : Bytes := [0x61#8, 0x62#8, 0x63#8, 0x80#8] ++ List.replicate 123 0#8 ++ [0x18#8]

example : (Sha256Ni.compressBlocks Sha2.new256.h abc256).a = 0xba7816bf#32 := by decide +kernel
example : (Sha256Arm.compressBlocks Sha2.new256.h abc256).h = 0xf20015ad#32 := by decide +kernel
example : (Sha512Avx2.compressBlocks Sha2.new512.h abc512).a = 0xddaf35a193617aba#64 := by decide +kernel
/-- Five blocks go through both paths of AVX2. -/
example : (chunksExact 512 (List.replicate 640 7#8)).length = 1 ∧ (chunksRem 512 (List.replicate 640 (7#8 : Byte))).length = 128 := by
  decide +kernel

end Verif.Props
