NOTES = {
    "C01": ("proved", "All 17 supported types; limit of 65535 content bytes is exact (C01_size_limit)."),
    "C02": ("proved", "All 17 supported types."),
    "C03": ("proved", "Encodings below 4 GiB; beyond that encoded_len panics by design (unimplemented!)."),
    "C04": ("proved", "Totality, prefix behaviour, truncation and trailing data for all 17 types."),
    "C05": ("proved", "Shortest is stated semantically: no shorter non-empty string denotes the same integer."),
    "C06": ("partial", "Holds when 40a+b < 128, as for every OID in the crate. For larger first subidentifiers the code is wrong: C06_large_first_arc_wrong."),
    "C16": ("proved", "Portable compression function; usize is 64 bits. Panics exactly at the length limit."),
    "C17": ("proved", "All back ends: portable, SHA-NI, Arm SHA-256 instructions, AVX2 SHA-512. The specification computes its constants from roots of primes."),
    "C18": ("proved", "All three hash functions; bounds are the hash functions' own input limits."),
    "C19": ("proved", "Any history of requests for the DRBG. Nonce determinism: see the ECDSA theorems."),
    "C53": ("proved", "Assembly loops modelled as recursion over the memory they traverse."),
    "C55": ("partial", "For the x86_64 machine code without calls, scalar and (C55_x86_vector) AVX2: branches and addresses do not depend on secrets. For the AVX2 routines the pointer arguments (and for Keccak the stack pointer) are public, and memory, vector registers and all other registers are secret; the rejection sampling, whose input is public, is left out. Missing: the Rust code and its intrinsics, four routines with calls, aarch64, the time of single instructions."),
    "C23": ("proved", "Includes absence of overflow in checked builds."),
    "C24": ("partial", "Portable back end: proved for all call sequences. AVX2 back end: each call is correct, but a call leaving a 33..64 byte tail skips a block (C24_avx2_sequence_wrong); the type is crate-private and the AEADs are not affected."),
    "C25": ("proved", "ChaCha20-Poly1305 and XChaCha20-Poly1305 (portable and AVX2), AES-GCM (x86_64, both paths, and aarch64). AES-GCM up to the GCM length limit."),
    "C26": ("proved", "ChaCha20-Poly1305 and XChaCha20-Poly1305 (portable and AVX2), AES-GCM (x86_64, both paths, and aarch64)."),
    "C28": ("proved", "Both x86_64 paths and the aarch64 path; all three agree."),
    "C29": ("proved", "x86_64 (both table kinds), aarch64 and portable code; all agree."),
    "C30": ("proved", "x86_64 and aarch64; AESKEYGENASSIST, AESENC, AESENCLAST, AESE and AESMC by their documented meaning."),
    "C27": ("proved", "Both back ends."),
    "C20": ("proved", "Over the FIPS 202 permutation, the contract of the assembly; the round constants given to it are proved right."),
    "C21": ("proved", "SHAKE128 and SHAKE256, every history of reads."),
    "C22": ("proved", "The batched assembly permutations are by contract independent single ones."),
    "C40": ("proved", "Every coefficient below q, for 1, 4 and 10 bits; the standard's definition is rounding of rationals."),
    "C41": ("proved", "1, 4 and 10 bits in Rust code; 12 bits for the portable reader, and for the assembly by contract (proved for x86_64 in C64)."),
    "C42": ("proved", "Over the contract of the assembly (12-bit unpack and pack), proved for x86_64 in C64."),
    "C43": ("proved", "Key generation, encapsulation and decapsulation equal FIPS 203, over the contract of the assembly (Proof/MlKemContract.lean), proved for x86_64 in C64 and C65."),
    "C44": ("proved", "For every seed and counter, both squeezed halves."),
    "C45": ("proved", "Every entry of the matrix and its transpose; the XOF limit is the specification's parameter."),
    "C46": ("proved", "Exact threshold, for every matrix, noise and message; the error is stated in the ring, without the transform. How likely a large error is lies outside the model."),
    "C08": ("partial", "Everything but 'as a whole', which is false of the code: bytes after the key are ignored (C08_trailing_ignored)."),
    "C09": ("partial", "The encoding is exact for all lengths. Verification is exact for moduli of a whole number of 64-bit words; for other moduli it never succeeds (C13/C11 theorems), and the signature's length is not checked (C09_length_unchecked)."),
    "C14": ("partial", "For 8192-bit keys nothing is proved about d, dp, dq: the inversion modulo a number filling all words is not right for all values."),
    "C57": ("proved", "Modular exponentiation through the Montgomery model of C49; assembly by contract."),
    "C10": ("proved", "SHA-256, SHA-384 and SHA-512, blocks below 4 GiB. C10_verify_signature_partial lifts it to signatures, for moduli of a multiple of eight octets."),
    "C47": ("proved", "Odd moduli, bases that fit the modulus' words, exponents with at least one word; a zero exponent read from bytes panics (C47_zero_exponent_panics). Relative to the documented contract of the s2n-bignum assembly."),
    "C48": ("proved", "Reading, writing, comparing."),
    "C49": ("partial", "Inversion: odd operands between 1 and the modulus, modulus with a spare bit, which covers key generation up to 6144 bits. Outside: C49_invert_panics and C49_invert_large_operand_wrong. Reduction: proved; short operands panic (C49_reduce_even_short_panics)."),
    "C11": ("partial", "Proved for every accepted key, consistent or not, when the modulus is a multiple of eight octets long. For other lengths it is false: C11_pkcs1_odd_length, C11_pss_odd_length. With a conventional key signing always succeeds (C11_*_signs_partial)."),
    "C12": ("partial", "Proved for q < p with primes of the same word length; C12_succeeds_iff is exact for p < q, where the claim is false (C12_larger_q_fails). Primes of different word lengths are outside the contract of the assembly. C12_never_wrong holds for every key."),
    "C13": ("proved", "Over the documented contracts of the s2n-bignum routines."),
    "C15": ("partial", "Exact import and export. The round trip fails for public exponents of 2^31 or more: C15_large_exponent_not_reimported."),
    "C31": ("proved", "Both curves; bignum_mod_n by contract."),
    "C32": ("proved", "All scalars of the full word width, not only those below n."),
    "C33": ("proved", "Field arithmetic by contract (FieldAsm.Ok); the sequences of field operations of the assembly point routines, table selection, every entry of the precomputed tables, the primality of p and n and the order of the curves are modelled and proved. The curve group is Mathlib's."),
    "C35": ("partial", "Acceptance is characterised exactly; coordinates not below p are accepted and reduced, so the round trip of bytes only holds below p (C35_unreduced_p256, C35_unreduced_p384 are witnesses)."),
    "C36": ("proved", "Random source as an arbitrary function of the call number."),
    "C58": ("proved", "Field arithmetic by contract."),
    "C34": ("proved", "Verification accepts exactly the pairs of FIPS 186-5, signing is RFC 6979 with the random octets as additional input; every failure of signing is characterised. Signing does not check s = 0; C34_zero_s shows that this happens for some hash, and C34_range that such a signature is refused. Field arithmetic by contract."),
    "C07": ("proved", "Both directions, for both curves, all lengths of buffer."),
    "C39": ("proved", "ECDSA and Ed25519. Import ignores bytes after the PKCS#8 container (also C08), for ECDSA a public key outside the inner structure (C39_pkcs8_import), for Ed25519 public keys the algorithm parameters (C39_ed25519_spki_import)."),
    "C37": ("proved", "The RFC 7748 ladder is proved to be multiplication of points, commutativity is proved for all keys and starting values, and failure is proved to happen exactly for the five small-order coordinates (orders of the curve and its twist proved). Assembly by contract (X25519.Asm.Ok = the RFC 7748 function)."),
    "C38": ("proved", "Signing is RFC 8032 5.1.6, verification accepts exactly the cofactorless equation with the challenge reduced modulo L, which implies the cofactored one. The group and its order are proved; the assembly is by contract (Ed25519.Asm.Ok)."),
    "C50": ("proved", "Every interleaving of issuing and opening from shared tickers. Tickets for the empty message are issued but never accepted (C50_empty)."),
    "C51": ("proved", "For any two component groups, and for X25519MLKEM768 itself over the contracts of the assembly. The ML-KEM part agrees whenever decryption succeeds (C46)."),
    "C52": ("proved", "TLS 1.2 and 1.3, ChaCha20-Poly1305 and AES-GCM. The helpers of rustls are modelled from its documentation. The TLS 1.2 ChaCha20-Poly1305 decrypter does not enforce the plaintext limit (C52_chacha12_oversized)."),
    "C59": ("proved", "X25519, P-256, P-384 and ML-KEM-768; exact sets of accepted shares."),
    "C54": ("partial", "Choice of scheme, key loading, every verifier of the tables and every signer. Missing: RSA verifiers and signers are related to RFC 8017 only for moduli within the limits of the library and of a length that is a multiple of 8 octets. RSA signing is wrong when the signature has a zero top word (C54_rsa_short); a bare SEC 1 key that fits both curves is taken as P-256 (C54_load_sec1_bare)."),
    "C56": ("partial", "Every Drop implementation of x86_64 and the common code clears the whole storage of its secret fields; for RSA this uses that unused words are zero. Missing: when the compiler runs a drop, copies left by moves, registers, and secrets in types without Drop (HMAC and hash contexts, the HMAC-DRBG state, cipher states, K-PKE randomness, plain PosInt intermediates)."),
    "C60": ("partial", "Twenty-one routines of x86_64, at the level of instructions: mux, eq, cmp_lt, digitsize, bitsize, ctz, add, modadd, modsub, optsub, shr_small, copy_row_from_table, mul, montmul, montsqr, montredc, demont, negmodinv, kmul_16_32, ksqr_16_32, emontredc_8n. Missing: montifier, modinv, the Karatsuba routines for thirty-two words, and aarch64."),
    "C61": ("partial", "The x86_64 routines in scalar instructions and without calls, for which writes through pointers are assumed not to fall on the words in which registers are saved, and the AVX2 routines of ML-KEM without that assumption (C61_mlkem). The rejection sampling of ML-KEM and the Keccak permutation of four states have this in C65_rej and C63_keccak4_f. Missing: routines with calls, and aarch64."),
    "C62": ("partial", "The fourteen field routines of x86_64 at the level of instructions, and that they compute the field operations the theorems about keys assume. The five point routines of P-256 and P-384: the machine code adds and doubles points of the curve. Missing: the inverses bignum_inv_p256 and bignum_inv_p384, and aarch64."),
    "C63": ("proved", "Both routines of x86_64 at the level of instructions: the one for a single state and the AVX2 one for four states, which the routine for two of four calls."),
    "C64": ("proved", "All nine AVX2 routines named by the property, at the level of instructions. C64_contract_partial joins them into the contract that C41 to C46 assume; it takes any correct rejection sampler, and C65 supplies the one in the code. aarch64 is not covered."),
    "C65": ("proved", "The whole routine at the level of instructions, for any number of groups. C65_contract is the contract that C41 to C46 assume, with nothing left open on x86_64; aarch64 is not covered."),
    "C66": ("proved", "Both asm! blocks of low/x86_64/cpu.rs at the level of instructions, for any length and any choice of registers by the compiler. The other assembly of aarch64 is not covered."),
    "C67": ("proved", "All five AVX2 routines and the dispatch on the width, at the level of the intrinsics they are written with. C67_row_model and C67_point_model tie them to the lookups in the models of C47 and C33. aarch64 is not covered."),
    "C68": ("partial", "All nine suites, the transcript hashes under any history of calls, HMAC, record protection, limits and the choice of a signer. The choice fails for Ed25519 (C68_ed25519_tls12): no TLS 1.2 suite lists it, so such a key never signs there though RFC 8422 admits it with the ECDSA suites; C68_signers_partial covers all other keys."),
    "C69": ("proved", "bignum_mod_n25519, bignum_madd_n25519 and bignum_neg_p25519 of x86_64 at the level of instructions. C69_contract ties them to the functions about which C38 makes assumptions. The multiplications of points and the decoding are not covered."),
    "C70": ("partial", "False of the code: verify_cpu_features asks for BMI1 and ADX and not for BMI2, to which mulx belongs (C70_mulx_unchecked: on a processor with ADX and without BMI2 the check passes and the P-256 product is an invalid opcode). Proved: all functions with intrinsics are covered by the check and the tokens (C70_intrinsics); so is the machine code without mulx, pext and popcnt (C70_machine_code_partial), and all of the modelled machine code if BMI2 and POPCNT are there (C70_machine_code_bmi2_partial). A build with VALGRIND_BUG_494162 does not ask for ADX either. Hashing does not run the check at all: C70_hashing_unchecked (SHA-512 on a processor with BMI2 and without AVX2); C70_hashing_partial covers processors with AVX2. That all other public functions begin with the check was read, not proved."),
    "C71": ("partial", "Timing mode: proved for every nesting of calls and every panic. Registers: proved for aarch64 and for registers 0 to 15 of x86_64; false for registers 16 to 31 of AVX-512 (C71_registers_x86_64_kept), which AES-GCM may use and vzeroall leaves alone. False for HMAC and the hashes, which make no entry (C71_hmac_unguarded). Missing: what the compiler puts into registers after the guard is dropped."),
}
