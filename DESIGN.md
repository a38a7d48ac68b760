# Formal model of graviola

The code is in `/repo` (not changed, not run). The model is in `lean/Verif`.
This file says what is modelled, how each property is proved, and what is trusted.

## Layout

* `lean/Verif/Base/*` – bytes, big/little-endian numbers, chunking; shared lemmas.
* `lean/Verif/Model/*` – the model. One file per Rust file (or part of one). Every
  definition cites the Rust file and lines and says where it simplifies.
* `lean/Verif/Spec/*` – small independent specifications (FIPS/RFC text or plain
  mathematics) that do not use the model's helpers.
* `lean/Verif/Proof/*` – helper lemmas.
* `lean/Verif/Props/*` – the property theorems, named `C01_...` and so on, each with an
  `example` showing that its hypotheses are met by a concrete non-trivial case.

## Conventions

* A byte is `BitVec 8`, machine words are `BitVec n`; big numbers whose overflow is not at
  issue are `Nat`. Wrap-around is modelled where the code wraps or could overflow.
* `&mut` arguments become returned values. `Result` is `Except`, `Option` is `Option`.
  A Rust panic (slice index, `unwrap`, `assert!`, overflow in checked arithmetic) is an
  explicit error value in the result, so "does not panic" is a theorem.
* Loops are structural recursion or folds over the same sequence of values as in Rust.

## Trusted base

* Lean 4.33.0's kernel, and the axioms `propext`, `Classical.choice`, `Quot.sound` (at most).
  No axioms of our own, no `sorry`, `native_decide` or `bv_decide`.
* Faithfulness of the reading of the Rust source (citations beside each definition).
* Parts represented by their documented contract. The contract is a hypothesis of the theorem
  (a structure of equations), and each contract is shown to be met by a reference
  implementation, so that no theorem is vacuous:
  - `Bignum.Asm.Ok` (Model/PosInt, Proof/Mont): the s2n-bignum routines called by `posint.rs`. On x86_64 the contracts of
    modadd, montmul, montsqr, montredc, demont, negmodinv, emontredc_8n and the products of sixteen words are proved of the machine code (C60); montifier and
    modinv remain assumed.
  - `FieldAsm.Ok` (Proof/EcField): field arithmetic and `bignum_mod_n`/`inv` of P-256, P-384.
  - `X25519.Asm.Ok` (Model/X25519): the two routines compute the function X25519 of RFC 7748, section 5. What that function does is proved.
  - `Ed25519.Asm.Ok` (Model/Ed25519): scalar multiplication, point decoding and scalar arithmetic of edwards25519; the scalar arithmetic and the negative are proved of the machine code of x86_64 (C69). The group law, its order 8L and the order of the base point are proved, not assumed.
    The *sequences* of field operations in `p256_montjdouble` and its like are modelled; that
    the stack slots they use do not alias is trusted.
  - Keccak-f in assembly: equal to the portable permutation. For x86_64, one state and four states, this is C63; for aarch64 it is assumed.
  - ML-KEM assembly (NTT, inverse NTT, base multiplication, reduction, 12-bit packing):
    `Proof/MlKemContract.lean`. For x86_64 this is C64 and, for the rejection sampler, C65; for aarch64 it is assumed.
  - CPU intrinsics used by the modelled SIMD code (AVX2 ChaCha20, AVX2 table lookups, PCLMUL GHASH, AES-NI,
    AES-GCM, SHA-NI, AVX2 SHA-512, and their Neon counterparts) are modelled by their documented semantics on bit vectors.
* Machine code of the x86_64 routines written with scalar instructions and without calls (`Model/AsmX86`; twenty-one of them in theorems C60, nineteen in C62, three in C69, all in C55): the semantics of the instructions
  (`Model/X86.lean`, from Intel's manual) and the translation of the `asm!` text by `tools/gen_asm.py` are trusted; each
  generated line carries the source line beside it. That operands are bound to registers as the `asm!` operands say is
  part of the statements.
* Machine code of `sha3_keccak4_f1600_alt` (`Model/X86Vec`, `Model/AsmX86/Keccak4`): the same trust in the AVX and AVX2 instructions in it.
* Machine code of `mlkem_rej_uniform_vartime` (`Model/X86Byte`, `Model/AsmX86/MlKemRej`): the same trust in the SSE instructions, `pext`, `popcnt` and `rep movsb` in it, on memory made of bytes. Its table is `Model/MlKemRejTable` (written by `tools/gen_rej.py` from the Rust array).
* Machine code of `zero_bytes` and `ct_compare_bytes` (`Model/X86Byte`, `Model/AsmX86/Cpu`): the same trust in the instructions in it. The compiler picks the registers, so they are parameters; that it honours the declared operands is trusted.
* Observations of a run (`Model/X86Leak.lean`, C55): the position of each instruction and the addresses it touches. That an
  instruction takes the same time for all operand values is trusted. The slices a routine is given are assumed not to overlap
  the words of its stack frame in which it keeps public values.
* Not modelled: time itself, memory zeroisation beyond the buffers named in properties, the operating system
  random source (an arbitrary function from call numbers to answers), `rustls` itself. The
  helpers of rustls that the glue calls (nonce, additional data, content type and padding,
  default trait methods) are modelled from their documentation in Model/TlsAead, Model/Kx and Model/TlsSign.
* Machine facts used by the model: `usize` is 64 bits, slices are shorter than 2^63.

## Plan per property

| id | what is modelled, how it is proved |
|----|------------------------------------|
| C01-C04 | `high/asn1.rs` parser and encoder as functions on byte lists, with the encoder's real buffer/offset state. Round trip by case analysis on the length form; structures as generic combinators following `asn1_struct!`, instantiated for each PKIX type. |
| C05 | `Integer::new`, `new_positive`; spec is the two's complement value of a byte list and minimality. |
| C06 | `ObjectId::from_path`; spec is a base-128 decoder. |
| C07 | `fixed_to_asn1`, `write_fixed`, `verify_asn1` on top of C01/C02. |
| C08 | `pkcs8::Key`; negative theorem for trailing bytes. |
| C09, C10 | `high/pkcs1.rs` over an arbitrary hash function; spec follows RFC 8017 9.1/9.2. |
| C11-C13 | `rsa_priv`, `rsa_pub`, `high/rsa.rs` signing and verifying over `Nat`; fault check gives C11; CRT via Mathlib for C12. |
| C14 | `generate_key` over arbitrary random streams for candidates and bases, with the primality test, the inversion and the reductions in the model; loops take fuel. |
| C15 | key import/export on top of C01 and C48. |
| C16 | `Blockwise` and the SHA-2 contexts with an arbitrary compression function; refinement to fold over padded blocks. |
| C17 | generic SHA-256/512 compression, rolling window invariant; SHA-NI, the Arm SHA-256 instructions and AVX2 SHA-512 (one and four blocks) on vectors, each refined to the standard's compression. |
| C18, C19 | `Hmac`, `HmacDrbg` over an arbitrary hash. |
| C20-C22 | `Sponge` family over an arbitrary permutation of 25-word states. |
| C23 | limb code with explicit 32/64-bit wrap; refinement to arithmetic mod 2^130-5. |
| C24, C27 | generic ChaCha20 and the AVX2 2x/8x code on lanes. |
| C25, C26 | AEAD modes over the models above; AES as arbitrary block function. |
| C28 | counter and batching logic of the three AES-GCM paths. |
| C29 | carry-less multiply on bit vectors, polynomials over GF(2) for the proof. |
| C30 | key expansion over an arbitrary S-box. |
| C31, C36 | scalar parsing and generation with byte-level model. |
| C32, C33 | Booth recoders on bytes; multiplication loops over an arbitrary additive group. |
| C34 | signing and verifying over the NIST curves; see Spec/Ecdsa. |
| C38 | signing and verifying as in RFC 8032 (Spec/Ed25519) over the actual curve. |
| C35 | point import/export with field arithmetic mod p; negative theorem for x >= p. |
| C37 | byte handling and zero check; the specification is the ladder of RFC 7748, proved to multiply points (over the algebraic closure, so for the twist too), to commute, and to give 0 exactly for five coordinates. The RFC's first test vector is checked on the specification. |
| C39 | key containers on top of C01/C08. |
| C40-C45 | ML-KEM helpers on `Nat`/`BitVec`; whole-range facts by kernel computation over the full finite table where the domain is finite. |
| C46 | K-PKE algebra over an arbitrary commutative ring action, rounding bound from C40. |
| C47-C49 | `PosInt` at the level of values with widths; window loop by induction. |
| C50 | ticketer as a transition system with atomic steps, arbitrary interleavings. |
| C51, C59 | `kx.rs`, `kx/hybrid.rs`, `kx/mlkem.rs`: the groups as records of functions, the hybrid over any two of them, then the actual ones. |
| C52 | record protection of `aead.rs`, with the helpers of rustls it calls. |
| C54 | `sign.rs`, `verify.rs`: choice of scheme, key loading, the table of verifiers. |
| C53 | byte loop models. |
| C55 | time cannot be expressed; its usual stand-in can, for machine code: what is observed of a run is the positions executed and the addresses touched. A taint analysis of instruction lists, proved sound against the machine of C60 and evaluated by the kernel on each program. For the AVX2 code (`Props/ConstTimeVec`): the same with the public registers given at each position; two runs that agree on the pointers stay in step. The Rust code, its intrinsics and aarch64 are not covered. |
| C57 | `is_prime`, `miller_rabin` against FIPS 186-5 B.3.1, over every stream of bases. |
| C60 | a machine with registers, flags and partial memory; the `asm!` blocks as instruction lists; loop invariants over the words done. |
| C61 | an analysis of which register or saved word holds which register of the caller, proved sound against the machine of C60 and evaluated by the kernel on each program. For the AVX2 code of ML-KEM, which saves nothing, it is enough to see which registers are written (`Props/SavedRegsVec`). |
| C62 | a symbolic executor for code without loops, proved sound against the machine of C60, shows relations between numbers in memory (sums of words times powers of 2^64, products, carries); the rest is arithmetic on those numbers. The point routines are long chains of a few macros: each macro body is verified once, a lockstep check shows that every occurrence is a copy up to addresses and register names, and the routine is run with one step per occurrence. |
| C63 | a second symbolic executor, for code of exclusive-ors, complements, ands, ors and rotations: each lane becomes an exclusive-or of rotated inputs and of pairs joined by and, with a sign; the code of one round is checked against one round of FIPS 202, and induction over the loop does the rest. The routine for four states runs on a machine with the vector registers and the AVX2 instructions it uses (`Model/X86Vec`); its executor follows each word of a vector together with the state it belongs to, so that transpositions, rounds and the way back are checked by one procedure. The property is stated for x86-64; the routines of aarch64 are not modelled. |
| C64 | a third symbolic executor, for straight AVX2 code on 16-bit lanes: every lane becomes an expression over input lanes, kept in a table with shared parts, and the table is checked against the table that `Model/MlKemX86` gives; the checker is proved sound. That model, a few lines per routine, is then related to FIPS 203: each layer of the transform by the algebra of Montgomery and Barrett products over the integers modulo q, ranges by bounds kept with every layer, byte packing by bit identities. |
| C65 | a machine whose memory is made of bytes, with the SSE instructions the sampler uses. One round of the loop is followed instruction by instruction: the lanes are the eight candidates of FIPS 203, the mask is the set of those below q, and the 256 rows of the table are checked to compact any such set (`decide +kernel` over the whole table). Induction over the rounds, with the accepted numbers so far as the invariant, then the cut at 256 and the copy. |
| C66 | the two `asm!` blocks as instruction lists on the machine of C65, with the operand registers as parameters. Erasing: strong induction on the length, one theorem for the loop by 32 bytes and one for the loop by bytes. Comparing: induction over the strings. Secrecy: the observations of two runs that agree on pointers, length and readable addresses are equal, by induction over the steps. |
| C67 | the routines over 256-bit vectors, with the intrinsics as functions on lanes (`Model/SelectX86`). A broadcast counter stays a broadcast, so each mask is all ones or zero; the loops are one fold over the rows, in which at most one row counts. Refinement to the lookups of C47 and C33. |
| C68 | the suites as records of hash, HMAC, AEAD, limit and schemes (`Model/TlsSuites`) against a table of what the names mean (`Spec/TlsSuites`). Histories of hash contexts: simulation with contexts that keep all their input. Records by C52, HMAC by C24, choice of a signer by C54. **Fails in part**: no TLS 1.2 suite lists Ed25519, so an Ed25519 key never signs there (`C68_ed25519_tls12`). |
| C69 | the loop of the reduction by induction over the words; one step is a function on words, proved to be the remainder (`Proof/X86/Red25519`); the product before it by the symbolic executor of C62. |
| C70 | a processor is a set of extensions; `runOn` faults at an instruction of an extension that is missing, and equals `run` if the text of the program uses only what is there (induction over the steps; the texts are checked whole by the kernel). The functions with intrinsics are a table of all `#[target_feature]` attributes. False for `mulx`: `C70_mulx_unchecked`. |
| C71 | `Model/Entry`: the guard at library entry points, with the processor state it changes; executions are trees of nested guarded calls, computations and panics. Induction on the tree. x86_64 does not clear registers 16 to 31, and HMAC has no guard: the negations are proved. |
| C56 | each `Drop` implementation as a function on the storage of its type; the RSA case rests on the invariant that words beyond `used` are zero. When a drop runs, and copies left by moves, are outside the model. |

## Where the code disagrees with a property

Each of these is a theorem (a witness or an exact characterisation); the property is then
proved in the weaker form that holds.

| property | what happens | theorem |
|----------|--------------|---------|
| C06 | `ObjectId::from_path` encodes a first pair with `40a+b >= 128` wrongly | see MANIFEST, C06 |
| C08 | bytes after a PKCS#8 container are ignored | C08_trailing_ignored |
| C11 | PKCS#1 v1.5 verification never succeeds, and full-length PSS signatures are refused, when the modulus' length in octets is not a multiple of eight | C11_pkcs1_odd_length, C11_pss_odd_length |
| C12 | the private operation fails for some inputs whenever p < q | C12_larger_q_fails, C12_succeeds_iff |
| C12 | dp = 0 or dq = 0 is accepted on import and panics on use | C12_panics_iff |
| C14 | one Miller-Rabin base more than asked for is drawn; a source that only gives unsuitable bases never ends | C14_tested |
| C15 | a public exponent of 2^31 or more exports as a negative INTEGER | C15_large_exponent_not_reimported |
| C24 | the two-block AVX2 ChaCha20 path skips a block after a tail of 33..64 octets | see MANIFEST, C24 |
| C34 | signing does not check s = 0; the signature is then always refused | C34_zero_s, C34_range |
| C35 | uncompressed points with coordinates not below p are accepted and reduced | C35_unreduced_p256, C35_unreduced_p384 |
| C50 | tickets for the empty message are issued but never accepted | C50_empty |
| C52 | the TLS 1.2 ChaCha20-Poly1305 decrypter does not enforce the plaintext limit of 2^14 octets, the others do | C52_chacha12_oversized |
| C54 | the RSA signer of the TLS provider returns its whole buffer although the library reports a shorter signature when the top 64-bit word is zero; the octets are then shifted to the left and the signature is invalid | C54_rsa_short |
| C54 | a SEC 1 key without curve parameters and public key whose length fits P-256 is taken as P-256 whatever curve was meant | C54_load_sec1_bare |
| C68 | no cipher suite of TLS 1.2 lists Ed25519 among its signature schemes, so an Ed25519 key, which the provider loads, never signs in TLS 1.2; conversely ECDSA with P-521 is listed, for which the provider has neither keys nor a verifier | C68_ed25519_tls12 |
| C56 | HMAC contexts and the HMAC-DRBG state (which hold keys), ChaCha20 states and the K-PKE randomness have no `Drop` and are not erased | by reading; the types have no drop to model |
| C39 | a too short output buffer gives `Asn1Error(UnexpectedEof)`, the documentation says `WrongLength` | C39_sec1_export, C39_pkcs8_export, C07_sign_asn1 |
| C39 | ECDSA PKCS#8 import ignores a public key outside the inner structure | C39_pkcs8_import |
| C39 | Ed25519 SPKI import ignores the algorithm parameters, which RFC 8410 requires to be absent | C39_ed25519_spki_import, C39_ed25519_spki_null_parameters |
| C47 | a zero exponent read from octets panics | C47_zero_exponent_panics |
| C49 | `invert_vartime` is wrong for an operand above the modulus, and panics in one case | C49_invert_large_operand_wrong, C49_invert_panics |

Noticed while reading, not stated as theorems: `PosInt::sub` and `sub_mod` hand slices to
assembly that may be shorter than it reads (the lengths differ only for primes of different
word lengths); the AVX-512 GCM counter is advanced with 64-bit additions (right because the
upper half of each lane is zero in the increment); private RSA components may be negative on
import; `bignum_copy_row_from_table` leaves its output as it was for a table without rows (C60_copy_row asks for one);
`bignum_shr_small` passes `as_ptr()` of a slice it writes; an encoder can emit lengths of 65536 and more that the parser refuses.
