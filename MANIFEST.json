{
 "claims": [
  {
   "property": "C01",
   "status": "proved",
   "theorems": [
    "Verif.Props.C01_encode_then_parse",
    "Verif.Props.C01_wire_format",
    "Verif.Props.C01_size_limit"
   ],
   "note": "All 17 supported types; limit of 65535 content bytes is exact (C01_size_limit)."
  },
  {
   "property": "C02",
   "status": "proved",
   "theorems": [
    "Verif.Props.C02_parse_then_encode",
    "Verif.Props.C02_unique_encoding"
   ],
   "note": "All 17 supported types."
  },
  {
   "property": "C03",
   "status": "proved",
   "theorems": [
    "Verif.Props.C03_encode_exact",
    "Verif.Props.C03_encoded_len"
   ],
   "note": "Encodings below 4 GiB; beyond that encoded_len panics by design (unimplemented!)."
  },
  {
   "property": "C04",
   "status": "proved",
   "theorems": [
    "Verif.Props.C04_total",
    "Verif.Props.C04_prefix",
    "Verif.Props.C04_trailing_rejected",
    "Verif.Props.C04_truncated_rejected"
   ],
   "note": "Totality, prefix behaviour, truncation and trailing data for all 17 types."
  },
  {
   "property": "C05",
   "status": "proved",
   "theorems": [
    "Verif.Props.C05_new_positive",
    "Verif.Props.C05_new",
    "Verif.Props.C05_minimality_check",
    "Verif.Props.C05_unique",
    "Verif.Props.C05_sign_and_usize"
   ],
   "note": "Shortest is stated semantically: no shorter non-empty string denotes the same integer."
  },
  {
   "property": "C06",
   "status": "partial",
   "theorems": [
    "Verif.Props.C06_oid_encoding_partial",
    "Verif.Props.C06_oid_decodes",
    "Verif.Props.C06_oid_injective",
    "Verif.Props.C06_large_first_arc_wrong",
    "Verif.Props.C06_registered"
   ],
   "note": "Holds when 40a+b < 128, as for every OID in the crate. For larger first subidentifiers the code is wrong: C06_large_first_arc_wrong."
  },
  {
   "property": "C07",
   "status": "proved",
   "theorems": [
    "Verif.Props.C07_sign_asn1",
    "Verif.Props.C07_sign_asn1_errors",
    "Verif.Props.C07_verify_asn1",
    "Verif.Props.C07_sign_verifies"
   ],
   "note": "Both directions, for both curves, all lengths of buffer."
  },
  {
   "property": "C08",
   "status": "partial",
   "theorems": [
    "Verif.Props.C08_round_trip",
    "Verif.Props.C08_decode",
    "Verif.Props.C08_rejects",
    "Verif.Props.C08_trailing_ignored",
    "Verif.Props.C08_total"
   ],
   "note": "Everything but 'as a whole', which is false of the code: bytes after the key are ignored (C08_trailing_ignored)."
  },
  {
   "property": "C09",
   "status": "partial",
   "theorems": [
    "Verif.Props.C09_digest_info",
    "Verif.Props.C09_encode",
    "Verif.Props.C09_shape",
    "Verif.Props.C09_injective",
    "Verif.Props.C09_verify_partial",
    "Verif.Props.C09_length_unchecked"
   ],
   "note": "The encoding is exact for all lengths. Verification is exact for moduli of a whole number of 64-bit words; for other moduli it never succeeds (C13/C11 theorems), and the signature's length is not checked (C09_length_unchecked)."
  },
  {
   "property": "C10",
   "status": "proved",
   "theorems": [
    "Verif.Props.C10_encode",
    "Verif.Props.C10_verify",
    "Verif.Props.C10_round_trip",
    "Verif.Props.C10_verify_signature_partial"
   ],
   "note": "SHA-256, SHA-384 and SHA-512, blocks below 4 GiB. C10_verify_signature_partial lifts it to signatures, for moduli of a multiple of eight octets."
  },
  {
   "property": "C11",
   "status": "partial",
   "theorems": [
    "Verif.Props.C11_pkcs1_partial",
    "Verif.Props.C11_pss_partial",
    "Verif.Props.C11_pkcs1_odd_length",
    "Verif.Props.C11_pss_odd_length",
    "Verif.Props.C11_pkcs1_signs_partial",
    "Verif.Props.C11_pss_signs_partial",
    "Verif.Props.C11_pkcs1_form",
    "Verif.Props.C11_pss_form"
   ],
   "note": "Proved for every accepted key, consistent or not, when the modulus is a multiple of eight octets long. For other lengths it is false: C11_pkcs1_odd_length, C11_pss_odd_length. With a conventional key signing always succeeds (C11_*_signs_partial)."
  },
  {
   "property": "C12",
   "status": "partial",
   "theorems": [
    "Verif.Props.C12_never_wrong",
    "Verif.Props.C12_range",
    "Verif.Props.C12_panics_iff",
    "Verif.Props.C12_private_op_partial",
    "Verif.Props.C12_succeeds_iff",
    "Verif.Props.C12_larger_q_fails"
   ],
   "note": "Proved for q < p with primes of the same word length; C12_succeeds_iff is exact for p < q, where the claim is false (C12_larger_q_fails). Primes of different word lengths are outside the contract of the assembly. C12_never_wrong holds for every key."
  },
  {
   "property": "C13",
   "status": "proved",
   "theorems": [
    "Verif.Props.C13_public_op",
    "Verif.Props.C13_accepts"
   ],
   "note": "Over the documented contracts of the s2n-bignum routines."
  },
  {
   "property": "C14",
   "status": "partial",
   "theorems": [
    "Verif.Props.C14_sizes",
    "Verif.Props.C14_generated_partial",
    "Verif.Props.C14_tested",
    "Verif.Props.C14_no_key_after_failure",
    "Verif.Props.C14_errors_partial",
    "Verif.Props.C14_valid_partial",
    "Verif.Props.C14_generates_partial"
   ],
   "note": "For 8192-bit keys nothing is proved about d, dp, dq: the inversion modulo a number filling all words is not right for all values."
  },
  {
   "property": "C15",
   "status": "partial",
   "theorems": [
    "Verif.Props.C15_export_public_partial",
    "Verif.Props.C15_import_public",
    "Verif.Props.C15_round_trip_public_partial",
    "Verif.Props.C15_large_exponent_not_reimported",
    "Verif.Props.C15_export_private_partial",
    "Verif.Props.C15_import_private",
    "Verif.Props.C15_import_private_der",
    "Verif.Props.C15_round_trip_private_partial",
    "Verif.Props.C15_reexport_private_partial",
    "Verif.Props.C15_pkcs8_partial",
    "Verif.Props.C15_import_pkcs8",
    "Verif.Props.C15_spki_partial"
   ],
   "note": "Exact import and export. The round trip fails for public exponents of 2^31 or more: C15_large_exponent_not_reimported."
  },
  {
   "property": "C16",
   "status": "proved",
   "theorems": [
    "Verif.Props.C16_sha256",
    "Verif.Props.C16_sha384",
    "Verif.Props.C16_sha512",
    "Verif.Props.C16_one_shot"
   ],
   "note": "Portable compression function; usize is 64 bits. Panics exactly at the length limit."
  },
  {
   "property": "C17",
   "status": "proved",
   "theorems": [
    "Verif.Props.C17_sha256_block",
    "Verif.Props.C17_sha512_block",
    "Verif.Props.C17_schedule_word",
    "Verif.Props.C17_constants",
    "Verif.Props.C17_sha256_shani",
    "Verif.Props.C17_sha256_armv8",
    "Verif.Props.C17_sha512_avx2",
    "Verif.Props.C17_sha512_avx2_paths",
    "Verif.Props.C17_implementations_agree"
   ],
   "note": "All back ends: portable, SHA-NI, Arm SHA-256 instructions, AVX2 SHA-512. The specification computes its constants from roots of primes."
  },
  {
   "property": "C18",
   "status": "proved",
   "theorems": [
    "Verif.Props.C18_hmac",
    "Verif.Props.C18_verify"
   ],
   "note": "All three hash functions; bounds are the hash functions' own input limits."
  },
  {
   "property": "C19",
   "status": "proved",
   "theorems": [
    "Verif.Props.C19_drbg"
   ],
   "note": "Any history of requests for the DRBG. Nonce determinism: see the ECDSA theorems."
  },
  {
   "property": "C20",
   "status": "proved",
   "theorems": [
    "Verif.Props.C20_sha3_256",
    "Verif.Props.C20_sha3_512",
    "Verif.Props.C20_state"
   ],
   "note": "Over the FIPS 202 permutation, the contract of the assembly; the round constants given to it are proved right."
  },
  {
   "property": "C21",
   "status": "proved",
   "theorems": [
    "Verif.Props.C21_shake128",
    "Verif.Props.C21_shake256",
    "Verif.Props.C21_spec_prefix"
   ],
   "note": "SHAKE128 and SHAKE256, every history of reads."
  },
  {
   "property": "C22",
   "status": "proved",
   "theorems": [
    "Verif.Props.C22_sextet",
    "Verif.Props.C22_four"
   ],
   "note": "The batched assembly permutations are by contract independent single ones."
  },
  {
   "property": "C23",
   "status": "proved",
   "theorems": [
    "Verif.Props.C23_poly1305",
    "Verif.Props.C23_no_overflow"
   ],
   "note": "Includes absence of overflow in checked builds."
  },
  {
   "property": "C24",
   "status": "partial",
   "theorems": [
    "Verif.Props.C24_portable",
    "Verif.Props.C24_avx2",
    "Verif.Props.C24_avx2_sequence_partial",
    "Verif.Props.C24_avx2_sequence_wrong",
    "Verif.Props.C24_involution"
   ],
   "note": "Portable back end: proved for all call sequences. AVX2 back end: each call is correct, but a call leaving a 33..64 byte tail skips a block (C24_avx2_sequence_wrong); the type is crate-private and the AEADs are not affected."
  },
  {
   "property": "C25",
   "status": "proved",
   "theorems": [
    "Verif.Props.C25_chacha_seal",
    "Verif.Props.C25_chacha",
    "Verif.Props.C25_xchacha",
    "Verif.Props.C25_gcm",
    "Verif.Props.C25_arm_gcm"
   ],
   "note": "ChaCha20-Poly1305 and XChaCha20-Poly1305 (portable and AVX2), AES-GCM (x86_64, both paths, and aarch64). AES-GCM up to the GCM length limit."
  },
  {
   "property": "C26",
   "status": "proved",
   "theorems": [
    "Verif.Props.C26_chacha",
    "Verif.Props.C26_xchacha",
    "Verif.Props.C26_gcm",
    "Verif.Props.C26_arm_gcm"
   ],
   "note": "ChaCha20-Poly1305 and XChaCha20-Poly1305 (portable and AVX2), AES-GCM (x86_64, both paths, and aarch64)."
  },
  {
   "property": "C27",
   "status": "proved",
   "theorems": [
    "Verif.Props.C27_xchacha_seal",
    "Verif.Props.C27_xchacha_is_chacha"
   ],
   "note": "Both back ends."
  },
  {
   "property": "C28",
   "status": "proved",
   "theorems": [
    "Verif.Props.C28_gcm",
    "Verif.Props.C28_counter",
    "Verif.Props.C28_key_length",
    "Verif.Props.C28_arm_gcm",
    "Verif.Props.C28_arm_counter",
    "Verif.Props.C28_arm_key_length",
    "Verif.Props.C28_paths_agree"
   ],
   "note": "Both x86_64 paths and the aarch64 path; all three agree."
  },
  {
   "property": "C29",
   "status": "proved",
   "theorems": [
    "Verif.Props.C29_clmul",
    "Verif.Props.C29_generic",
    "Verif.Props.C29_mul",
    "Verif.Props.C29_spec_comm",
    "Verif.Props.C29_arm",
    "Verif.Props.C29_all_agree",
    "Verif.Props.C29_arm_mul"
   ],
   "note": "x86_64 (both table kinds), aarch64 and portable code; all agree."
  },
  {
   "property": "C30",
   "status": "proved",
   "theorems": [
    "Verif.Props.C30_spec_inverse",
    "Verif.Props.C30_round_keys",
    "Verif.Props.C30_block",
    "Verif.Props.C30_arm_round_keys",
    "Verif.Props.C30_arm_block"
   ],
   "note": "x86_64 and aarch64; AESKEYGENASSIST, AESENC, AESENCLAST, AESE and AESMC by their documented meaning."
  },
  {
   "property": "C31",
   "status": "proved",
   "theorems": [
    "Verif.Props.C31_import",
    "Verif.Props.C31_round_trip",
    "Verif.Props.C31_array"
   ],
   "note": "Both curves; bignum_mod_n by contract."
  },
  {
   "property": "C32",
   "status": "proved",
   "theorems": [
    "Verif.Props.C32_w7",
    "Verif.Props.C32_w5"
   ],
   "note": "All scalars of the full word width, not only those below n."
  },
  {
   "property": "C33",
   "status": "proved",
   "theorems": [
    "Verif.Props.C33_base_multiply",
    "Verif.Props.C33_point_multiply",
    "Verif.Props.C33_public_key"
   ],
   "note": "Field arithmetic by contract (FieldAsm.Ok); the sequences of field operations of the assembly point routines, table selection, every entry of the precomputed tables, the primality of p and n and the order of the curves are modelled and proved. The curve group is Mathlib's."
  },
  {
   "property": "C34",
   "status": "proved",
   "theorems": [
    "Verif.Props.C34_verify",
    "Verif.Props.C34_range",
    "Verif.Props.C34_sign",
    "Verif.Props.C34_sign_succeeds",
    "Verif.Props.C34_sign_errors",
    "Verif.Props.C34_sign_verifies",
    "Verif.Props.C34_zero_s"
   ],
   "note": "Verification accepts exactly the pairs of FIPS 186-5, signing is RFC 6979 with the random octets as additional input; every failure of signing is characterised. Signing does not check s = 0; C34_zero_s shows that this happens for some hash, and C34_range that such a signature is refused. Field arithmetic by contract."
  },
  {
   "property": "C35",
   "status": "partial",
   "theorems": [
    "Verif.Props.C35_accepts",
    "Verif.Props.C35_errors",
    "Verif.Props.C35_meaning",
    "Verif.Props.C35_round_trip_partial",
    "Verif.Props.C35_own_key",
    "Verif.Props.C35_unreduced_p256",
    "Verif.Props.C35_unreduced_p384"
   ],
   "note": "Acceptance is characterised exactly; coordinates not below p are accepted and reduced, so the round trip of bytes only holds below p (C35_unreduced_p256, C35_unreduced_p384 are witnesses)."
  },
  {
   "property": "C36",
   "status": "proved",
   "theorems": [
    "Verif.Props.C36_first_suitable",
    "Verif.Props.C36_source_fails",
    "Verif.Props.C36_gives_up",
    "Verif.Props.C36_cases",
    "Verif.Props.C36_in_range",
    "Verif.Props.C36_ecdsa_generate"
   ],
   "note": "Random source as an arbitrary function of the call number."
  },
  {
   "property": "C37",
   "status": "proved",
   "theorems": [
    "Verif.Props.C37_private_round_trip",
    "Verif.Props.C37_public_round_trip",
    "Verif.Props.C37_new_random",
    "Verif.Props.C37_public_key",
    "Verif.Props.C37_diffie_hellman",
    "Verif.Props.C37_nonzero",
    "Verif.Props.C37_multiplication",
    "Verif.Props.C37_commutes",
    "Verif.Props.C37_small_order",
    "Verif.Props.C37_agreement",
    "Verif.Props.C37_agreement_any"
   ],
   "note": "The RFC 7748 ladder is proved to be multiplication of points, commutativity is proved for all keys and starting values, and failure is proved to happen exactly for the five small-order coordinates (orders of the curve and its twist proved). Assembly by contract (X25519.Asm.Ok = the RFC 7748 function)."
  },
  {
   "property": "C38",
   "status": "proved",
   "theorems": [
    "Verif.Props.C38_signing_key",
    "Verif.Props.C38_verifying_key",
    "Verif.Props.C38_generate",
    "Verif.Props.C38_sign",
    "Verif.Props.C38_s_range",
    "Verif.Props.C38_length",
    "Verif.Props.C38_verify",
    "Verif.Props.C38_sign_verifies",
    "Verif.Props.C38_s_unique",
    "Verif.Props.C38_cofactored",
    "Verif.Props.C38_prime_order",
    "Verif.Props.C38_derived_order"
   ],
   "note": "Signing is RFC 8032 5.1.6, verification accepts exactly the cofactorless equation with the challenge reduced modulo L, which implies the cofactored one. The group and its order are proved; the assembly is by contract (Ed25519.Asm.Ok)."
  },
  {
   "property": "C39",
   "status": "proved",
   "theorems": [
    "Verif.Props.C39_sec1_export",
    "Verif.Props.C39_sec1_import",
    "Verif.Props.C39_sec1_errors",
    "Verif.Props.C39_sec1_round_trip",
    "Verif.Props.C39_pkcs8_export",
    "Verif.Props.C39_pkcs8_import",
    "Verif.Props.C39_pkcs8_round_trip",
    "Verif.Props.C39_spki_export",
    "Verif.Props.C39_ed25519_spki_export",
    "Verif.Props.C39_ed25519_spki_import",
    "Verif.Props.C39_ed25519_spki_round_trip",
    "Verif.Props.C39_ed25519_spki_algorithm",
    "Verif.Props.C39_ed25519_spki_null_parameters",
    "Verif.Props.C39_ed25519_pkcs8_export",
    "Verif.Props.C39_ed25519_pkcs8_import",
    "Verif.Props.C39_ed25519_pkcs8_round_trip",
    "Verif.Props.C39_ed25519_pkcs8_mismatch"
   ],
   "note": "ECDSA and Ed25519. Import ignores bytes after the PKCS#8 container (also C08), for ECDSA a public key outside the inner structure (C39_pkcs8_import), for Ed25519 public keys the algorithm parameters (C39_ed25519_spki_import)."
  },
  {
   "property": "C40",
   "status": "proved",
   "theorems": [
    "Verif.Props.C40_compress4",
    "Verif.Props.C40_compress10",
    "Verif.Props.C40_compress1",
    "Verif.Props.C40_decompress4",
    "Verif.Props.C40_decompress10",
    "Verif.Props.C40_decompress1",
    "Verif.Props.C40_error",
    "Verif.Props.C40_compress_decompress"
   ],
   "note": "Every coefficient below q, for 1, 4 and 10 bits; the standard's definition is rounding of rationals."
  },
  {
   "property": "C41",
   "status": "proved",
   "theorems": [
    "Verif.Props.C41_pack",
    "Verif.Props.C41_unpack",
    "Verif.Props.C41_inverse",
    "Verif.Props.C41_inverse12",
    "Verif.Props.C41_repack",
    "Verif.Props.C41_twelve",
    "Verif.Props.C41_frombytes_portable"
   ],
   "note": "1, 4 and 10 bits in Rust code; 12 bits for the portable reader, and for the assembly by contract (proved for x86_64 in C64)."
  },
  {
   "property": "C42",
   "status": "proved",
   "theorems": [
    "Verif.Props.C42_own_key",
    "Verif.Props.C42_from_bytes"
   ],
   "note": "Over the contract of the assembly (12-bit unpack and pack), proved for x86_64 in C64."
  },
  {
   "property": "C43",
   "status": "proved",
   "theorems": [
    "Verif.Props.C43_keygen",
    "Verif.Props.C43_encaps",
    "Verif.Props.C43_decaps",
    "Verif.Props.C43_decaps_spec"
   ],
   "note": "Key generation, encapsulation and decapsulation equal FIPS 203, over the contract of the assembly (Proof/MlKemContract.lean), proved for x86_64 in C64 and C65."
  },
  {
   "property": "C44",
   "status": "proved",
   "theorems": [
    "Verif.Props.C44_cbd",
    "Verif.Props.C44_dual"
   ],
   "note": "For every seed and counter, both squeezed halves."
  },
  {
   "property": "C45",
   "status": "proved",
   "theorems": [
    "Verif.Props.C45_sample",
    "Verif.Props.C45_sample_mono",
    "Verif.Props.C45_matrix"
   ],
   "note": "Every entry of the matrix and its transpose; the XOF limit is the specification's parameter."
  },
  {
   "property": "C46",
   "status": "proved",
   "theorems": [
    "Verif.Props.C46_decrypt",
    "Verif.Props.C46_spec",
    "Verif.Props.C46_decaps"
   ],
   "note": "Exact threshold, for every matrix, noise and message; the error is stated in the ring, without the transform. How likely a large error is lies outside the model."
  },
  {
   "property": "C47",
   "status": "proved",
   "theorems": [
    "Verif.Props.C47_mod_exp",
    "Verif.Props.C47_zero_exponent_panics"
   ],
   "note": "Odd moduli, bases that fit the modulus' words, exponents with at least one word; a zero exponent read from bytes panics (C47_zero_exponent_panics). Relative to the documented contract of the s2n-bignum assembly."
  },
  {
   "property": "C48",
   "status": "proved",
   "theorems": [
    "Verif.Props.C48_read",
    "Verif.Props.C48_write",
    "Verif.Props.C48_round_trip",
    "Verif.Props.C48_write_read",
    "Verif.Props.C48_compare"
   ],
   "note": "Reading, writing, comparing."
  },
  {
   "property": "C49",
   "status": "partial",
   "theorems": [
    "Verif.Props.C49_invert_partial",
    "Verif.Props.C49_invert_panics",
    "Verif.Props.C49_invert_large_operand_wrong",
    "Verif.Props.C49_reduce_even",
    "Verif.Props.C49_reduce_even_short_panics"
   ],
   "note": "Inversion: odd operands between 1 and the modulus, modulus with a spare bit, which covers key generation up to 6144 bits. Outside: C49_invert_panics and C49_invert_large_operand_wrong. Reduction: proved; short operands panic (C49_reduce_even_short_panics)."
  },
  {
   "property": "C50",
   "status": "proved",
   "theorems": [
    "Verif.Props.C50_new",
    "Verif.Props.C50_ticket",
    "Verif.Props.C50_decrypt",
    "Verif.Props.C50_refused",
    "Verif.Props.C50_empty",
    "Verif.Props.C50_invariant",
    "Verif.Props.C50_issued"
   ],
   "note": "Every interleaving of issuing and opening from shared tickers. Tickets for the empty message are issued but never accepted (C50_empty)."
  },
  {
   "property": "C51",
   "status": "proved",
   "theorems": [
    "Verif.Props.C51_split",
    "Verif.Props.C51_split_length",
    "Verif.Props.C51_start",
    "Verif.Props.C51_server",
    "Verif.Props.C51_client",
    "Verif.Props.C51_wrong_length",
    "Verif.Props.C51_agree",
    "Verif.Props.C51_x25519mlkem768"
   ],
   "note": "For any two component groups, and for X25519MLKEM768 itself over the contracts of the assembly. The ML-KEM part agrees whenever decryption succeeds (C46)."
  },
  {
   "property": "C52",
   "status": "proved",
   "theorems": [
    "Verif.Props.C52_nonce_unique",
    "Verif.Props.C52_tls13_encrypt",
    "Verif.Props.C52_tls13_decrypt",
    "Verif.Props.C52_tls13_round_trip",
    "Verif.Props.C52_chacha12_encrypt",
    "Verif.Props.C52_chacha12_decrypt",
    "Verif.Props.C52_chacha12_round_trip",
    "Verif.Props.C52_chacha12_oversized",
    "Verif.Props.C52_gcm_iv",
    "Verif.Props.C52_gcm12_encrypt",
    "Verif.Props.C52_gcm12_decrypt",
    "Verif.Props.C52_gcm12_round_trip"
   ],
   "note": "TLS 1.2 and 1.3, ChaCha20-Poly1305 and AES-GCM. The helpers of rustls are modelled from its documentation. The TLS 1.2 ChaCha20-Poly1305 decrypter does not enforce the plaintext limit (C52_chacha12_oversized)."
  },
  {
   "property": "C53",
   "status": "proved",
   "theorems": [
    "Verif.Props.C53_ct_equal",
    "Verif.Props.C53_ct_copy",
    "Verif.Props.C53_ct_select",
    "Verif.Props.C53_zero_bytes"
   ],
   "note": "Assembly loops modelled as recursion over the memory they traverse."
  },
  {
   "property": "C54",
   "status": "partial",
   "theorems": [
    "Verif.Props.C54_algorithm",
    "Verif.Props.C54_public_key_p256",
    "Verif.Props.C54_public_key_p384",
    "Verif.Props.C54_public_key_ed25519",
    "Verif.Props.C54_public_key_rsa_partial",
    "Verif.Props.C54_choose",
    "Verif.Props.C54_choose_none",
    "Verif.Props.C54_choose_order",
    "Verif.Props.C54_load_pkcs8",
    "Verif.Props.C54_load_pkcs1",
    "Verif.Props.C54_load_sec1",
    "Verif.Props.C54_load_sec1_p384",
    "Verif.Props.C54_load_sec1_bare",
    "Verif.Props.C54_all_partial",
    "Verif.Props.C54_ids",
    "Verif.Props.C54_mapping_partial",
    "Verif.Props.C54_mapping_complete",
    "Verif.Props.C54_rsa_keys",
    "Verif.Props.C54_sign_p256",
    "Verif.Props.C54_sign_p384",
    "Verif.Props.C54_sign_ed25519",
    "Verif.Props.C54_sign_rsa_partial",
    "Verif.Props.C54_rsa_short"
   ],
   "note": "Choice of scheme, key loading, every verifier of the tables and every signer. Missing: RSA verifiers and signers are related to RFC 8017 only for moduli within the limits of the library and of a length that is a multiple of 8 octets. RSA signing is wrong when the signature has a zero top word (C54_rsa_short); a bare SEC 1 key that fits both curves is taken as P-256 (C54_load_sec1_bare)."
  },
  {
   "property": "C55",
   "status": "partial",
   "theorems": [
    "Verif.Props.C55_x86_words",
    "Verif.Props.C55_x86_mont",
    "Verif.Props.C55_x86_rsa",
    "Verif.Props.C55_x86_p256",
    "Verif.Props.C55_x86_p384",
    "Verif.Props.C55_x86_p256_point",
    "Verif.Props.C55_x86_p384_point",
    "Verif.Props.C55_x86_n25519",
    "Verif.Props.C55_x86_x25519",
    "Verif.Props.C55_x86_ed25519",
    "Verif.Props.C55_x86_keccak",
    "Verif.Props.C55_x86_vector"
   ],
   "note": "For the x86_64 machine code without calls, scalar and (C55_x86_vector) AVX2: branches and addresses do not depend on secrets. For the AVX2 routines the pointer arguments (and for Keccak the stack pointer) are public, and memory, vector registers and all other registers are secret; the rejection sampling, whose input is public, is left out. Missing: the Rust code and its intrinsics, four routines with calls, aarch64, the time of single instructions."
  },
  {
   "property": "C56",
   "status": "partial",
   "theorems": [
    "Verif.Props.C56_rsa_imported_partial",
    "Verif.Props.C56_rsa_generated_partial",
    "Verif.Props.C56_nist_partial",
    "Verif.Props.C56_x25519_partial",
    "Verif.Props.C56_ed25519_partial",
    "Verif.Props.C56_mlkem_partial",
    "Verif.Props.C56_bytes_partial",
    "Verif.Props.C56_aes_gcm_partial"
   ],
   "note": "Every Drop implementation of x86_64 and the common code clears the whole storage of its secret fields; for RSA this uses that unused words are zero. Missing: when the compiler runs a drop, copies left by moves, registers, and secrets in types without Drop (HMAC and hash contexts, the HMAC-DRBG state, cipher states, K-PKE randomness, plain PosInt intermediates)."
  },
  {
   "property": "C57",
   "status": "proved",
   "theorems": [
    "Verif.Props.C57_accepts",
    "Verif.Props.C57_rejects",
    "Verif.Props.C57_base",
    "Verif.Props.C57_errors"
   ],
   "note": "Modular exponentiation through the Montgomery model of C49; assembly by contract."
  },
  {
   "property": "C58",
   "status": "proved",
   "theorems": [
    "Verif.Props.C58_shared_secret",
    "Verif.Props.C58_agreement"
   ],
   "note": "Field arithmetic by contract."
  },
  {
   "property": "C59",
   "status": "proved",
   "theorems": [
    "Verif.Props.C59_x25519_complete",
    "Verif.Props.C59_x25519_start",
    "Verif.Props.C59_ec_start",
    "Verif.Props.C59_ec_complete",
    "Verif.Props.C59_agree",
    "Verif.Props.C59_mlkem",
    "Verif.Props.C59_mlkem_server_refuses",
    "Verif.Props.C59_mlkem_client",
    "Verif.Props.C59_offered"
   ],
   "note": "X25519, P-256, P-384 and ML-KEM-768; exact sets of accepted shares."
  },
  {
   "property": "C60",
   "status": "partial",
   "theorems": [
    "Verif.Props.C60_emontredc_8n",
    "Verif.Props.C60_kmul_16",
    "Verif.Props.C60_ksqr_16",
    "Verif.Props.C60_mul",
    "Verif.Props.C60_montmul",
    "Verif.Props.C60_montsqr",
    "Verif.Props.C60_montredc",
    "Verif.Props.C60_demont",
    "Verif.Props.C60_negmodinv",
    "Verif.Props.C60_mux",
    "Verif.Props.C60_eq",
    "Verif.Props.C60_cmp_lt",
    "Verif.Props.C60_digitsize",
    "Verif.Props.C60_bitsize",
    "Verif.Props.C60_ctz",
    "Verif.Props.C60_add",
    "Verif.Props.C60_modadd",
    "Verif.Props.C60_modsub",
    "Verif.Props.C60_optsub",
    "Verif.Props.C60_shr_small",
    "Verif.Props.C60_copy_row",
    "Verif.Props.C60_clobbers"
   ],
   "note": "Twenty-one routines of x86_64, at the level of instructions: mux, eq, cmp_lt, digitsize, bitsize, ctz, add, modadd, modsub, optsub, shr_small, copy_row_from_table, mul, montmul, montsqr, montredc, demont, negmodinv, kmul_16_32, ksqr_16_32, emontredc_8n. Missing: montifier, modinv, the Karatsuba routines for thirty-two words, and aarch64."
  },
  {
   "property": "C61",
   "status": "partial",
   "theorems": [
    "Verif.Props.C61_mont",
    "Verif.Props.C61_rsa",
    "Verif.Props.C61_p256",
    "Verif.Props.C61_p384",
    "Verif.Props.C61_p256_point",
    "Verif.Props.C61_p384_point",
    "Verif.Props.C61_n25519",
    "Verif.Props.C61_x25519",
    "Verif.Props.C61_ed25519",
    "Verif.Props.C61_keccak",
    "Verif.Props.C61_mlkem"
   ],
   "note": "The x86_64 routines in scalar instructions and without calls, for which writes through pointers are assumed not to fall on the words in which registers are saved, and the AVX2 routines of ML-KEM without that assumption (C61_mlkem). The rejection sampling of ML-KEM and the Keccak permutation of four states have this in C65_rej and C63_keccak4_f. Missing: routines with calls, and aarch64."
  },
  {
   "property": "C62",
   "status": "partial",
   "theorems": [
    "Verif.Props.C62_add_p256",
    "Verif.Props.C62_neg_p256",
    "Verif.Props.C62_mod_n256",
    "Verif.Props.C62_tomont_p256",
    "Verif.Props.C62_demont_p256",
    "Verif.Props.C62_montmul_p256",
    "Verif.Props.C62_montsqr_p256",
    "Verif.Props.C62_add_p384",
    "Verif.Props.C62_neg_p384",
    "Verif.Props.C62_mod_n384",
    "Verif.Props.C62_tomont_p384",
    "Verif.Props.C62_demont_p384",
    "Verif.Props.C62_montmul_p384",
    "Verif.Props.C62_montsqr_p384",
    "Verif.Props.C62_p256_computes",
    "Verif.Props.C62_p384_computes",
    "Verif.Props.C62_montjadd_p256",
    "Verif.Props.C62_montjdouble_p256",
    "Verif.Props.C62_montjmixadd_p256",
    "Verif.Props.C62_p256_points",
    "Verif.Props.C62_montjadd_p384",
    "Verif.Props.C62_montjdouble_p384",
    "Verif.Props.C62_p384_points"
   ],
   "note": "The fourteen field routines of x86_64 at the level of instructions, and that they compute the field operations the theorems about keys assume. The five point routines of P-256 and P-384: the machine code adds and doubles points of the curve. Missing: the inverses bignum_inv_p256 and bignum_inv_p384, and aarch64."
  },
  {
   "property": "C63",
   "status": "proved",
   "theorems": [
    "Verif.Props.C63_rounds",
    "Verif.Props.C63_keccak_f",
    "Verif.Props.C63_rounds4",
    "Verif.Props.C63_keccak4_f"
   ],
   "note": "Both routines of x86_64 at the level of instructions: the one for a single state and the AVX2 one for four states, which the routine for two of four calls."
  },
  {
   "property": "C64",
   "status": "proved",
   "theorems": [
    "Verif.Props.C64_ntt_exact",
    "Verif.Props.C64_intt_exact",
    "Verif.Props.C64_mulcache_exact",
    "Verif.Props.C64_basemul_exact",
    "Verif.Props.C64_order",
    "Verif.Props.C64_ntt",
    "Verif.Props.C64_intt",
    "Verif.Props.C64_reduce",
    "Verif.Props.C64_tomont",
    "Verif.Props.C64_basemul",
    "Verif.Props.C64_unpack",
    "Verif.Props.C64_tobytes",
    "Verif.Props.C64_frombytes",
    "Verif.Props.C64_contract_partial"
   ],
   "note": "All nine AVX2 routines named by the property, at the level of instructions. C64_contract_partial joins them into the contract that C41 to C46 assume; it takes any correct rejection sampler, and C65 supplies the one in the code. aarch64 is not covered."
  },
  {
   "property": "C65",
   "status": "proved",
   "theorems": [
    "Verif.Props.C65_rej",
    "Verif.Props.C65_contract",
    "Verif.Props.C65_keygen",
    "Verif.Props.C65_encaps",
    "Verif.Props.C65_decaps"
   ],
   "note": "The whole routine at the level of instructions, for any number of groups. C65_contract is the contract that C41 to C46 assume, with nothing left open on x86_64; aarch64 is not covered."
  },
  {
   "property": "C66",
   "status": "proved",
   "theorems": [
    "Verif.Props.C66_zero",
    "Verif.Props.C66_compare",
    "Verif.Props.C66_compare_constant_time"
   ],
   "note": "Both asm! blocks of low/x86_64/cpu.rs at the level of instructions, for any length and any choice of registers by the compiler. The other assembly of aarch64 is not covered."
  },
  {
   "property": "C67",
   "status": "proved",
   "theorems": [
    "Verif.Props.C67_row",
    "Verif.Props.C67_row_model",
    "Verif.Props.C67_affine_p256",
    "Verif.Props.C67_jacobian_p256",
    "Verif.Props.C67_jacobian_p384",
    "Verif.Props.C67_point_model"
   ],
   "note": "All five AVX2 routines and the dispatch on the width, at the level of the intrinsics they are written with. C67_row_model and C67_point_model tie them to the lookups in the models of C47 and C33. aarch64 is not covered."
  },
  {
   "property": "C68",
   "status": "partial",
   "theorems": [
    "Verif.Props.C68_transcript",
    "Verif.Props.C68_hmac",
    "Verif.Props.C68_suites",
    "Verif.Props.C68_distinct",
    "Verif.Props.C68_signers_partial",
    "Verif.Props.C68_signers_same",
    "Verif.Props.C68_ed25519_tls12"
   ],
   "note": "All nine suites, the transcript hashes under any history of calls, HMAC, record protection, limits and the choice of a signer. The choice fails for Ed25519 (C68_ed25519_tls12): no TLS 1.2 suite lists it, so such a key never signs there though RFC 8422 admits it with the ECDSA suites; C68_signers_partial covers all other keys."
  },
  {
   "property": "C69",
   "status": "proved",
   "theorems": [
    "Verif.Props.C69_neg_p25519",
    "Verif.Props.C69_mod_n25519",
    "Verif.Props.C69_madd_n25519",
    "Verif.Props.C69_contract"
   ],
   "note": "bignum_mod_n25519, bignum_madd_n25519 and bignum_neg_p25519 of x86_64 at the level of instructions. C69_contract ties them to the functions about which C38 makes assumptions. The multiplications of points and the decoding are not covered."
  },
  {
   "property": "C70",
   "status": "partial",
   "theorems": [
    "Verif.Props.C70_intrinsics",
    "Verif.Props.C70_machine_code_partial",
    "Verif.Props.C70_machine_code_bmi2_partial",
    "Verif.Props.C70_mulx_unchecked",
    "Verif.Props.C70_hashing_partial",
    "Verif.Props.C70_hashing_unchecked"
   ],
   "note": "False of the code: verify_cpu_features asks for BMI1 and ADX and not for BMI2, to which mulx belongs (C70_mulx_unchecked: on a processor with ADX and without BMI2 the check passes and the P-256 product is an invalid opcode). Proved: all functions with intrinsics are covered by the check and the tokens (C70_intrinsics); so is the machine code without mulx, pext and popcnt (C70_machine_code_partial), and all of the modelled machine code if BMI2 and POPCNT are there (C70_machine_code_bmi2_partial). A build with VALGRIND_BUG_494162 does not ask for ADX either. Hashing does not run the check at all: C70_hashing_unchecked (SHA-512 on a processor with BMI2 and without AVX2); C70_hashing_partial covers processors with AVX2. That all other public functions begin with the check was read, not proved."
  },
  {
   "property": "C71",
   "status": "partial",
   "theorems": [
    "Verif.Props.C71_mode_restored",
    "Verif.Props.C71_mode_on",
    "Verif.Props.C71_registers_aarch64",
    "Verif.Props.C71_registers_x86_64_partial",
    "Verif.Props.C71_registers_x86_64_kept",
    "Verif.Props.C71_hmac_unguarded"
   ],
   "note": "Timing mode: proved for every nesting of calls and every panic. Registers: proved for aarch64 and for registers 0 to 15 of x86_64; false for registers 16 to 31 of AVX-512 (C71_registers_x86_64_kept), which AES-GCM may use and vzeroall leaves alone. False for HMAC and the hashes, which make no entry (C71_hmac_unguarded). Missing: what the compiler puts into registers after the guard is dropped."
  }
 ]
}