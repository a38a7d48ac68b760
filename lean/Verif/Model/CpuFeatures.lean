import Verif.Model.AsmX86.Cpu
import Verif.Model.AsmX86.Ed25519Base
import Verif.Model.AsmX86.Keccak
import Verif.Model.AsmX86.Keccak4
import Verif.Model.AsmX86.MlKem
import Verif.Model.AsmX86.MlKemRej
import Verif.Model.AsmX86.Mont
import Verif.Model.AsmX86.N25519
import Verif.Model.AsmX86.P256
import Verif.Model.AsmX86.P256Point
import Verif.Model.AsmX86.P384
import Verif.Model.AsmX86.P384Add
import Verif.Model.AsmX86.P384Double
import Verif.Model.AsmX86.Rsa
import Verif.Model.AsmX86.Words
import Verif.Model.AsmX86.X25519
import Verif.Model.AsmX86.X25519Base

/-!
Model of the checks of processor features in `low/x86_64/cpu.rs`, of the choices that depend on them, and of a processor that has some features and
not others: there an instruction that belongs to a missing feature is an invalid opcode, which ends the process.
-/
namespace Verif.X86

/-- Extensions of the x86-64 instruction set, named as by `is_x86_feature_detected!`. -/
inductive Feature
  | aes | vaes | pclmulqdq | vpclmulqdq | bmi1 | bmi2 | adx | avx | avx2 | avx512f | avx512bw | avx512vl | sha
  | sse2 | sse3 | ssse3 | sse41 | popcnt
deriving DecidableEq

/-- A processor: which extensions it has, as `is_x86_feature_detected!` tells. -/
abbrev Cpu := Feature → Bool

/-- What holds for all x86-64 processors: SSE2 is part of the base, and each generation of vector instructions comes with those before
(cpu.rs:262-263, "ssse3 is implied by avx"). -/
structure Cpu.Sane (c : Cpu) : Prop where
  sse2 : c .sse2 = true
  sse3 : c .ssse3 = true → c .sse3 = true
  ssse3 : c .sse41 = true → c .ssse3 = true
  sse41 : c .avx = true → c .sse41 = true
  avx : c .avx2 = true → c .avx = true

/-- `have_cpu_feature!`, cpu.rs:118-160, with `test_toggle`, cpu.rs:211-224: `off` are the extensions for which the environment has a variable
`GRAVIOLA_CPU_DISABLE_…`, of which only a build with `debug_assertions` takes notice. -/
def haveCpuFeature (debug : Bool) (off : Feature → Bool) (c : Cpu) (x : Feature) : Bool := if debug && off x then false else c x

/-- `verify_cpu_features`, cpu.rs:226-264: `true` if it returns, `false` if it panics.  `valgrind`: whether the library was built with
`VALGRIND_BUG_494162`. -/
def verifyCpuFeatures (valgrind debug : Bool) (off : Feature → Bool) (c : Cpu) : Bool :=
  haveCpuFeature debug off c .aes && haveCpuFeature debug off c .pclmulqdq && haveCpuFeature debug off c .bmi1 &&
  (haveCpuFeature debug off c .adx || valgrind) && c .avx && haveCpuFeature debug off c .avx2

/-- `HaveAvx512ForAesGcm::check`, cpu.rs:169-180. -/
def haveAvx512ForAesGcm (debug : Bool) (off : Feature → Bool) (c : Cpu) : Bool :=
  haveCpuFeature debug off c .avx512f && haveCpuFeature debug off c .avx512bw && haveCpuFeature debug off c .avx512vl &&
  haveCpuFeature debug off c .vpclmulqdq && haveCpuFeature debug off c .vaes
/-- `HaveSha256::check`, cpu.rs:189-195. -/
def haveSha256 (debug : Bool) (off : Feature → Bool) (c : Cpu) : Bool := haveCpuFeature debug off c .sha
/-- `HaveBmi2::check`, cpu.rs:204-209. -/
def haveBmi2 (debug : Bool) (off : Feature → Bool) (c : Cpu) : Bool := haveCpuFeature debug off c .bmi2

/-! ### The functions with intrinsics -/

/-- The tokens that a function may ask for. -/
inductive Token | none | avx512ForAesGcm | sha256 | bmi2
deriving DecidableEq

/-- Whether a caller can have the token. -/
def Token.given (debug : Bool) (off : Feature → Bool) (c : Cpu) : Token → Bool
  | .none => true
  | .avx512ForAesGcm => haveAvx512ForAesGcm debug off c
  | .sha256 => haveSha256 debug off c
  | .bmi2 => haveBmi2 debug off c

/-- A function marked `#[target_feature(enable = …)]`: where it is, the features, and the token without which it is not called. -/
structure Marked where
  place : String
  enable : List Feature
  token : Token

open Feature in
/-- All functions of low/x86_64 with `#[target_feature]`, at the lines named, without `prefetch` (cpu.rs:273, SSE).  The tokens: aes_gcm.rs:235
for `_cipher_avx512` and the counters it uses (392-424) and for `round_keys_512` (aes.rs:52), which only it calls; ghash.rs:26-31 and 120-124
for the wide GHASH; sha256.rs:9; sha512.rs:467. -/
def marked : List Marked := [
  ⟨"chacha20.rs:99", [ssse3, avx2], .none⟩,
  ⟨"chacha20.rs:117", [avx2], .none⟩,
  ⟨"chacha20.rs:360", [avx2], .none⟩,
  ⟨"chacha20.rs:469", [ssse3, avx2], .none⟩,
  ⟨"sha512.rs:65", [avx, avx2], .bmi2⟩,
  ⟨"sha512.rs:77", [avx, avx2], .bmi2⟩,
  ⟨"sha512.rs:107", [avx, avx2, bmi2], .bmi2⟩,
  ⟨"sha512.rs:195", [avx, avx2, bmi2], .bmi2⟩,
  ⟨"sha512.rs:404", [avx, avx2, bmi2], .bmi2⟩,
  ⟨"sha256.rs:51", [sha, sse41, ssse3], .sha256⟩,
  ⟨"bignum_copy_row_from_table_8n_avx2.rs:21", [avx, avx2], .none⟩,
  ⟨"bignum_copy_row_from_table_16_avx2.rs:19", [avx, avx2], .none⟩,
  ⟨"bignum_point_select_p256.rs:25", [avx, avx2], .none⟩,
  ⟨"bignum_point_select_p256.rs:66", [avx, avx2], .none⟩,
  ⟨"bignum_point_select_p384.rs:14", [avx, avx2], .none⟩,
  ⟨"cpu.rs:55", [avx, avx2], .none⟩,
  ⟨"ghash.rs:151", [vpclmulqdq, avx512bw, avx512f, avx512vl], .avx512ForAesGcm⟩,
  ⟨"ghash.rs:227", [sse2, ssse3], .none⟩,
  ⟨"ghash.rs:288", [pclmulqdq, avx], .none⟩,
  ⟨"ghash.rs:298", [pclmulqdq, avx], .none⟩,
  ⟨"ghash.rs:323", [vpclmulqdq, avx512f, avx512vl], .avx512ForAesGcm⟩,
  ⟨"ghash.rs:380", [avx], .none⟩,
  ⟨"ghash.rs:391", [avx], .none⟩,
  ⟨"ghash.rs:404", [avx512f], .avx512ForAesGcm⟩,
  ⟨"aes_gcm.rs:53", [aes, ssse3, pclmulqdq, avx], .none⟩,
  ⟨"aes_gcm.rs:226", [aes, avx, avx2, avx512bw, avx512f, avx512vl, sse3, ssse3, pclmulqdq, vaes, vpclmulqdq], .avx512ForAesGcm⟩,
  ⟨"aes_gcm.rs:392", [sse3, ssse3, avx, avx2, avx512f], .avx512ForAesGcm⟩,
  ⟨"aes_gcm.rs:410", [avx512f], .avx512ForAesGcm⟩,
  ⟨"aes_gcm.rs:417", [sse3, ssse3, avx, avx2, avx512f, avx512bw], .avx512ForAesGcm⟩,
  ⟨"aes_gcm.rs:433", [sse2, sse3, ssse3], .none⟩,
  ⟨"aes_gcm.rs:443", [sse2, ssse3], .none⟩,
  ⟨"aes.rs:52", [avx512f], .avx512ForAesGcm⟩,
  ⟨"aes.rs:190", [aes, avx], .none⟩,
  ⟨"aes.rs:244", [aes, avx], .none⟩,
  ⟨"aes.rs:273", [aes, avx], .none⟩,
  ⟨"aes.rs:292", [aes, avx], .none⟩]

/-! ### The machine code -/

/-- The extension that a scalar instruction belongs to (Intel's manual, volume 2: "CPUID feature flag"). -/
def Instr.needs : Instr → Option Feature
  | .mulx _ _ _ => some .bmi2
  | .adcx _ _ | .adox _ _ => some .adx
  | _ => none

/-- The same for the vector instructions: those with whole numbers in `ymm` registers are AVX2, moves and `xmm` registers AVX. -/
def VInstr.needs : VInstr → Option Feature
  | .sc i => i.needs
  | .mov _ _ | .st _ _ | .movA _ _ | .stA _ _ | .movqLd _ _ | .movqSt _ _ | .movhpdSt _ _ | .pinsrq _ _ _ _ | .vmovd _ _ | .movsldup _ _ => some .avx
  | .movd _ _ => some .sse2
  | _ => some .avx2

/-- The same for the machine with bytes. -/
def BInstr.needs : BInstr → Option Feature
  | .sc i => i.needs
  | .movqR _ _ | .movqM _ _ | .movdqa _ _ | .psrlw _ _ | .pand _ _ | .pcmpgtw _ _ | .pmovmskb _ _ | .movdquLd _ _ | .movdquSt _ _ => some .sse2
  | .pinsrqR _ _ _ | .pinsrdM _ _ _ | .pblendw _ _ _ => some .sse41
  | .pshufb _ _ => some .ssse3
  | .pext _ _ _ => some .bmi2
  | .popcnt _ _ => some .popcnt
  | .vpxorY _ _ _ => some .avx2
  | .vmovdquStY _ _ => some .avx
  | .repMovsb | .jl _ | .ldb _ _ | .xorb _ _ | .orb _ _ | .stb _ _ => none

/-- Whether the processor knows an instruction. -/
def Cpu.knows (c : Cpu) : Option Feature → Bool
  | none => true
  | some x => c x

/-- `run` on a processor: an instruction it does not know is a fault. -/
def runOn (c : Cpu) (P : Prog) : Nat → Nat → St → Option St
  | 0, _, _ => none
  | f + 1, pc, s =>
    if pc = P.length then some s else
      match P[pc]? with
      | none => none
      | some i =>
        if c.knows i.needs then
          match i.exec pc s with
          | none => none
          | some (pc', s') => runOn c P f pc' s'
        else none

/-- `vrun` on a processor. -/
def vrunOn (c : Cpu) (P : VProg) : Nat → Nat → VSt → Option VSt
  | 0, _, _ => none
  | f + 1, pc, s =>
    if pc = P.length then some s else
      match P[pc]? with
      | none => none
      | some i =>
        if c.knows i.needs then
          match i.exec pc s with
          | none => none
          | some (pc', s') => vrunOn c P f pc' s'
        else none

/-- `brun` on a processor. -/
def brunOn (c : Cpu) (P : BProg) : Nat → Nat → BSt → Option BSt
  | 0, _, _ => none
  | f + 1, pc, s =>
    if pc = P.length then some s else
      match P[pc]? with
      | none => none
      | some i =>
        if c.knows i.needs then
          match i.exec pc s with
          | none => none
          | some (pc', s') => brunOn c P f pc' s'
        else none

open Asm

/-- The `asm!` blocks of low/x86_64 that the model has, by file. -/
def scalarCode : List (String × Prog) := [
  ("bignum_add.rs", bignumAdd), ("bignum_add_p256.rs", bignumAddP256), ("bignum_add_p384.rs", bignumAddP384),
  ("bignum_bitsize.rs", bignumBitsize), ("bignum_cmp_lt.rs", bignumCmpLt), ("bignum_coprime.rs", bignumCoprime),
  ("bignum_copy_row_from_table.rs", bignumCopyRowFromTable), ("bignum_ctz.rs", bignumCtz), ("bignum_demont.rs", bignumDemont),
  ("bignum_demont_p256.rs", bignumDemontP256), ("bignum_demont_p384.rs", bignumDemontP384), ("bignum_digitsize.rs", bignumDigitsize),
  ("bignum_emontredc_8n.rs", bignumEmontredc8n), ("bignum_eq.rs", bignumEq), ("bignum_inv_p256.rs", bignumInvP256),
  ("bignum_inv_p384.rs", bignumInvP384), ("bignum_kmul_16_32.rs", bignumKmul1632), ("bignum_ksqr_16_32.rs", bignumKsqr1632),
  ("bignum_madd_n25519.rs", bignumMaddN25519), ("bignum_mod_n25519.rs", bignumModN25519), ("bignum_mod_n256.rs", bignumModN256),
  ("bignum_mod_n384.rs", bignumModN384), ("bignum_modadd.rs", bignumModadd), ("bignum_modinv.rs", bignumModinv),
  ("bignum_modsub.rs", bignumModsub), ("bignum_montifier.rs", bignumMontifier), ("bignum_montmul.rs", bignumMontmul),
  ("bignum_montmul_p256.rs", bignumMontmulP256), ("bignum_montmul_p384.rs", bignumMontmulP384), ("bignum_montredc.rs", bignumMontredc),
  ("bignum_montsqr.rs", bignumMontsqr), ("bignum_montsqr_p256.rs", bignumMontsqrP256), ("bignum_montsqr_p384.rs", bignumMontsqrP384),
  ("bignum_mul.rs", bignumMul), ("bignum_mux.rs", bignumMux), ("bignum_neg_p25519.rs", bignumNegP25519),
  ("bignum_neg_p256.rs", bignumNegP256), ("bignum_neg_p384.rs", bignumNegP384), ("bignum_negmodinv.rs", bignumNegmodinv),
  ("bignum_optsub.rs", bignumOptsub), ("bignum_shr_small.rs", bignumShrSmall), ("bignum_tomont_p256.rs", bignumTomontP256),
  ("bignum_tomont_p384.rs", bignumTomontP384), ("curve25519_x25519.rs", curve25519X25519), ("curve25519_x25519base.rs", curve25519X25519base),
  ("edwards25519_scalarmulbase.rs", edwards25519Scalarmulbase), ("p256_montjadd.rs", p256Montjadd), ("p256_montjdouble.rs", p256Montjdouble),
  ("p256_montjmixadd.rs", p256Montjmixadd), ("p384_montjadd.rs", p384Montjadd), ("p384_montjdouble.rs", p384Montjdouble),
  ("sha3_keccak_f1600.rs", sha3KeccakF1600)]

/-- The blocks with vector instructions. -/
def vectorCode : List (String × VProg) := [
  ("mlkem_basemul_k3.rs", mlkemBasemulK3), ("mlkem_frombytes.rs", mlkemFrombytes), ("mlkem_intt.rs", mlkemIntt),
  ("mlkem_mulcache_compute.rs", mlkemMulcacheCompute), ("mlkem_ntt.rs", mlkemNtt), ("mlkem_reduce.rs", mlkemReduce),
  ("mlkem_tobytes.rs", mlkemTobytes), ("mlkem_tomont.rs", mlkemTomont), ("mlkem_unpack.rs", mlkemUnpack),
  ("sha3_keccak4_f1600_alt.rs", sha3Keccak4F1600Alt)]

end Verif.X86
