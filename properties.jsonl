{"id": "C01", "title": "DER encode then parse returns the value", "statement": "Encoding any supported ASN.1 value (INTEGER, OCTET STRING, BIT STRING, NULL, OBJECT IDENTIFIER, and each PKIX structure built from them) into a large enough buffer and parsing the bytes written gives back exactly that value and consumes every byte, provided every nested object is shorter than 65536 bytes.", "quantifier": "every well-formed value, every body length up to the parser's limit, any bytes following the object", "why_tests_cant": "The length-of-length boundaries (127/128, 255/256, 65535) interact with nesting; tests sample a few sizes and fixed keys.", "anchors": ["graviola/src/high/asn1.rs: Type::parse, Type::encode, Parser::take, Encoder::begin", "graviola/src/high/asn1/pkix.rs"]}
{"id": "C02", "title": "DER parsing is canonical", "statement": "If parsing accepts a byte string as one complete object then re-encoding the parsed value yields exactly those bytes; so no two different byte strings parse to the same value, and non-minimal lengths or integers are never accepted.", "quantifier": "every byte string", "why_tests_cant": "Malleability is about the absence of any second accepted spelling among all byte strings.", "anchors": ["graviola/src/high/asn1.rs: Parser::take_len, Integer::minimum_magnitude_check, BitString::parse_with_tag, asn1_struct!"]}
{"id": "C03", "title": "DER encoding writes exactly the predicted number of bytes or fails without overrun", "statement": "Encoding a value succeeds exactly when the output buffer has at least encoded_len bytes, returns encoded_len, writes nothing past that point, and otherwise returns an error (never panics or writes out of bounds).", "quantifier": "every value and every buffer length", "why_tests_cant": "Nested sub-encoders share an absolute offset; off-by-one errors only appear for particular nesting and buffer sizes.", "anchors": ["graviola/src/high/asn1.rs: Encoder::{push,append_slice,split,begin,finish}, encoded_length_for, Type::encoded_len"]}
{"id": "C04", "title": "DER parsing only consumes a prefix and is total", "statement": "For every input the parser returns either an error or a value together with the exact unread suffix of the input; nested objects never read outside their declared body; unread trailing bytes inside a SEQUENCE or after a whole object are an error for every from_bytes entry point.", "quantifier": "every byte string and every object type", "why_tests_cant": "Out-of-bounds and trailing-data bugs sit on attacker-chosen length fields.", "anchors": ["graviola/src/high/asn1.rs: Parser, Type::from_bytes, asn1_struct!"]}
{"id": "C05", "title": "INTEGER construction is minimal and value preserving", "statement": "Building an INTEGER from unsigned big-endian bytes gives the shortest two's-complement encoding of the same non-negative number; building from signed bytes gives the shortest encoding of the same signed number; both always pass the parser's minimality check.", "quantifier": "every byte string, any number of leading zero or 0xff bytes", "why_tests_cant": "Leading-byte stripping has edge cases (all zeros, 0x00 0x80, 0xff 0x7f) for every length.", "anchors": ["graviola/src/high/asn1.rs: Integer::new, Integer::new_positive, Integer::minimum_magnitude_check"]}
{"id": "C06", "title": "Object identifier encoding is the standard base-128 encoding and is injective", "statement": "Encoding an OID path gives first byte 40*a+b followed by each arc in minimal base-128 with continuation bits; decoding that encoding gives the path back, so two different paths never share an encoding.", "quantifier": "every path with first arc <= 2, second arc < 40 and u32-sized arcs that fits the 16-byte buffer", "why_tests_cant": "Arc boundaries (127/128, 16383/16384, ...) multiply with position; tests have eight fixed OIDs.", "anchors": ["graviola/src/high/asn1.rs: ObjectId::from_path", "graviola/src/high/asn1/oid.rs"]}
{"id": "C07", "title": "ECDSA fixed and ASN.1 signatures are interchangeable", "statement": "sign_asn1 output is the DER encoding of exactly the (r,s) of the fixed-length signature; verify_asn1 accepts a byte string iff it is the canonical DER of a pair (r,s) of non-negative integers no wider than the curve size and verify accepts the corresponding fixed-length signature.", "quantifier": "every signature, every byte string offered to verify_asn1, both curve sizes", "why_tests_cant": "Leading zero stripping and padding only matter for rare r or s values with high zero bytes or set top bits.", "anchors": ["graviola/src/high/ecdsa.rs: fixed_to_asn1, write_fixed, verify_asn1, sign_asn1"]}
{"id": "C08", "title": "PKCS#8 wrapping is consistent", "statement": "A key encoded as PKCS#8 decodes to the same private and public key bytes; decode rejects any other algorithm or parameters; version 0 is accepted only without, and version 1 only with, an embedded public key; the documented claim that the slice is decoded as a whole (no trailing bytes) is checked.", "quantifier": "every private key string, optional public key string and every byte string offered to decode", "why_tests_cant": "The version/public-key cross check and trailing bytes need all combinations.", "anchors": ["graviola/src/high/pkcs8.rs: Key::decode, Key::encode, Key::construct", "graviola/src/high/asn1/pkix.rs: OneAsymmetricKey"]}
{"id": "C09", "title": "PKCS#1 v1.5 signature padding is exact", "statement": "The encoded message is 00 01, at least eight FF bytes, 00, the DER DigestInfo of the hash algorithm, and the hash, filling the modulus length; verification accepts iff the recovered block equals that encoding in every byte; the embedded DigestInfo constants are the DER encodings of the right OIDs with the right digest length.", "quantifier": "every modulus length, every hash value, every recovered block", "why_tests_cant": "Bleichenbacher-style forgeries exploit any byte that is not compared.", "anchors": ["graviola/src/high/pkcs1.rs: encode_pkcs1_sig, DIGESTINFO_SHA256/384/512", "graviola/src/high/rsa.rs: _verify_pkcs1"]}
{"id": "C10", "title": "PSS encode and verify are inverse, and verify is strict", "statement": "verify_pss accepts every block made by encode_pss for the same message hash and rejects when the trailer byte, zero padding, separator byte, top bits or recomputed hash differ: acceptance holds iff the block is the RFC 8017 encoding of the message hash under some salt of hash length.", "quantifier": "every message hash, every salt, every modulus length, any hash function of the stated output length", "why_tests_cant": "The masked fields make a wrong comparison invisible except for adversarial blocks.", "anchors": ["graviola/src/high/pkcs1.rs: encode_pss_sig, verify_pss_sig, mgf1_xor"]}
{"id": "C11", "title": "A returned RSA signature always verifies under the same key's public key", "statement": "Whenever sign_pkcs1_* or sign_pss_* returns Ok, the signature verifies with the matching verify function of public_key(), even if the private key components were corrupted or inconsistent (fault attack resistance); otherwise an error is returned.", "quantifier": "every private key accepted on import (valid or not), every message, every salt", "why_tests_cant": "Needs all inconsistent component tuples; a fault leaking p or q appears only for those.", "anchors": ["graviola/src/mid/rsa_priv.rs: private_op", "graviola/src/high/rsa.rs: _sign_pkcs1, _sign_pss, _verify_pkcs1, _verify_pss"]}
{"id": "C12", "title": "RSA private operation equals c^d mod n for consistent keys", "statement": "For a key with distinct primes p, q, n = p*q, and CRT exponents and coefficient consistent with e, the private operation never reports a fault and returns the unique m < n with m^e = c mod n.", "quantifier": "every consistent key (any prime sizes in range) and every c < n", "why_tests_cant": "CRT recombination has sign/ordering cases (m1 < m2, q > p) that random keys rarely hit.", "anchors": ["graviola/src/mid/rsa_priv.rs: private_op"]}
{"id": "C13", "title": "RSA public operation is modular exponentiation", "statement": "The public operation returns c^e mod n for c < n and rejects c >= n.", "quantifier": "every modulus, every exponent from 1 to 2^32-1, every c", "why_tests_cant": "Square-and-multiply skips the leading bit; errors appear for particular exponents.", "anchors": ["graviola/src/mid/rsa_pub.rs: RsaPublicKey::public_op"]}
{"id": "C14", "title": "RSA key generation yields a key of the requested size with consistent components", "statement": "If generation succeeds, the modulus has exactly the requested number of bits, p and q are distinct odd numbers of half the size with q < p, n = p*q, e*d = 1 mod (p-1)(q-1), dp, dq and iqmp are the matching reductions; generation fails if the random source fails.", "quantifier": "every stream of random bytes and every supported size", "why_tests_cant": "The exact bit length claim and the retry logic depend on all prime pairs.", "anchors": ["graviola/src/mid/rsa_priv/generate.rs: generate_key, random_prime_one"]}
{"id": "C15", "title": "RSA key export and import are inverse", "statement": "Importing the exported PKCS#1 or PKCS#8 form of a key gives a key with the same components; a public key exported as PKCS#1 imports to the same modulus and exponent; keys outside the size limits or with even modulus, zero exponent or negative modulus are rejected.", "quantifier": "every key within the supported sizes", "why_tests_cant": "Leading-zero handling depends on the top bits of each of eight components.", "anchors": ["graviola/src/high/rsa.rs: from_pkcs1_der, to_pkcs1_der, from_pkcs8_der, to_pkcs8_der", "graviola/src/mid/rsa_pub.rs: RsaPublicKey::new", "graviola/src/mid/rsa_priv.rs: RsaPrivateKey::new"]}
{"id": "C16", "title": "SHA-2 streaming does not depend on how the input is split", "statement": "For SHA-256, SHA-384 and SHA-512, any sequence of update calls followed by finish returns the digest of the concatenation, which is the Merkle-Damgard iteration of the compression function over the FIPS 180-4 padded message.", "quantifier": "every sequence of update calls of any lengths, including empty ones", "why_tests_cant": "Buffering has cases for every buffer fill and input length; the product with padding boundaries is unbounded.", "anchors": ["graviola/src/mid/sha2.rs", "graviola/src/low/generic/blockwise.rs"]}
{"id": "C17", "title": "The SHA-2 compression function follows the FIPS 180-4 message schedule", "statement": "The rolling 16-word schedule computes for every round t exactly the W_t of the standard's 64- or 80-entry schedule, so one-block compression equals the standard's. The vector implementations chosen at run time compute the same function.", "quantifier": "every chaining value, every string of blocks, every implementation the processor can select", "why_tests_cant": "Circular-buffer index errors can be masked in specific blocks.", "anchors": ["graviola/src/low/generic/sha256.rs", "graviola/src/low/generic/sha512.rs", "graviola/src/low/x86_64/sha256.rs", "graviola/src/low/x86_64/sha256_mux.rs", "graviola/src/low/x86_64/sha512.rs", "graviola/src/low/x86_64/sha512_mux.rs", "graviola/src/low/aarch64/sha256.rs"]}
{"id": "C18", "title": "HMAC follows FIPS 198-1 for every key length and split", "statement": "HMAC of a message equals H((K' xor opad) || H((K' xor ipad) || m)) with K' the zero-padded key or its hash when longer than a block, whatever the update splits; verify succeeds iff the tag equals it.", "quantifier": "every key length, every message, every split into updates, every offered tag", "why_tests_cant": "Key lengths at block size boundaries and update splits form an infinite product.", "anchors": ["graviola/src/high/hmac.rs", "graviola/src/high/hash.rs: HashOutput::ct_equal"]}
{"id": "C19", "title": "HMAC-DRBG follows SP 800-90A and ECDSA nonces are deterministic", "statement": "The DRBG state after instantiate, and each generate, equals the standard's HMAC_DRBG (K,V) recurrence, output being the concatenated V values truncated to the request; ECDSA nonce derivation depends only on key, message hash and supplied entropy.", "quantifier": "every entropy, nonce, personalisation, any sequence of generate calls with any lengths", "why_tests_cant": "State evolution over arbitrary call histories.", "anchors": ["graviola/src/high/hmac_drbg.rs", "graviola/src/high/ecdsa.rs: rfc6979_sign_with_random"]}
{"id": "C20", "title": "SHA-3 and SHAKE absorb any split of the input as the FIPS 202 padded message", "statement": "Any sequence of absorb/update calls then finalisation puts the sponge in the state given by absorbing the pad10*1 padded, domain-separated concatenation block by block.", "quantifier": "every sequence of input pieces, each rate and domain byte", "why_tests_cant": "Padding has one-byte and two-byte-left special cases for each fill.", "anchors": ["graviola/src/mid/sha3.rs: Sponge::absorb, Sponge::absorb_final"]}
{"id": "C21", "title": "SHAKE output does not depend on how it is read", "statement": "Reading output in any sequence of pieces gives the same bytes as reading it at once: consecutive segments of the infinite squeeze stream.", "quantifier": "every sequence of read lengths", "why_tests_cant": "Offset bookkeeping across blocks depends on the whole history of reads.", "anchors": ["graviola/src/mid/sha3.rs: SqueezingSponge::squeeze, shake_read"]}
{"id": "C22", "title": "Batched Keccak equals independent single sponges", "statement": "The four-way and six-message batched SHAKE computations give each lane exactly what a single sponge over that lane's input would, including when the permutation is delayed between squeezes.", "quantifier": "every set of inputs and number of squeezes", "why_tests_cant": "Lane mix-ups are invisible when tests use symmetric inputs.", "anchors": ["graviola/src/mid/sha3.rs: one_shot_sextet, SqueezingSponge4xShake128"]}
{"id": "C23", "title": "Poly1305 computes the RFC 8439 polynomial for every key, message and split", "statement": "The tag is ((sum of padded little-endian blocks times powers of clamped r) mod 2^130-5 + s) mod 2^128, with no arithmetic overflow in the 26-bit limb code, for any split into add_bytes calls.", "quantifier": "every 32-byte key, every message, every split", "why_tests_cant": "Carry bugs in limb code occur with probability about 2^-26 or less per random input.", "anchors": ["graviola/src/low/generic/poly1305.rs"]}
{"id": "C24", "title": "ChaCha20 keystream is the RFC 8439 block sequence on every code path", "statement": "Encrypting a buffer xors it with consecutive keystream blocks starting at the current counter; the vector path (2 and 8 blocks at a time) gives the same bytes as the portable one for every length; applying it twice from the same state restores the buffer.", "quantifier": "every key, nonce, buffer length; every sequence of calls", "why_tests_cant": "Block-count bookkeeping across the 512/128/64 byte boundaries.", "anchors": ["graviola/src/low/generic/chacha20.rs", "graviola/src/low/x86_64/chacha20.rs: cipher, core_8x, core_2x"]}
{"id": "C25", "title": "AEAD open inverts seal", "statement": "For ChaCha20-Poly1305, XChaCha20-Poly1305 and AES-GCM, decrypting the output of encrypt with the same key, nonce and associated data succeeds and restores the plaintext.", "quantifier": "every key, nonce, associated data, plaintext of any length", "why_tests_cant": "Lengths relative to 16/64/128/256/512-byte batches form an unbounded space.", "anchors": ["graviola/src/mid/chacha20poly1305.rs", "graviola/src/mid/xchacha20poly1305.rs", "graviola/src/mid/aes_gcm.rs"]}
{"id": "C26", "title": "AEAD rejection releases no plaintext", "statement": "decrypt succeeds iff the offered tag has the right length and equals the tag of (key, nonce, aad, ciphertext); otherwise it returns DecryptFailed and every byte of the in/out buffer is zero.", "quantifier": "every key, nonce, aad, ciphertext and every tag byte string of any length", "why_tests_cant": "Quantifies over all forged tags, including empty and truncated ones.", "anchors": ["graviola/src/mid/chacha20poly1305.rs: decrypt", "graviola/src/mid/aes_gcm.rs: decrypt", "graviola/src/low/generic/ct_equal.rs"]}
{"id": "C27", "title": "XChaCha20-Poly1305 is HChaCha20 key derivation plus ChaCha20-Poly1305", "statement": "Encrypting with a 24-byte nonce equals ChaCha20-Poly1305 under the HChaCha20 subkey of the first 16 nonce bytes and the nonce 0^4 || last 8 bytes.", "quantifier": "every key, nonce, aad and plaintext", "why_tests_cant": "Nonce word placement mistakes need inputs that distinguish all words.", "anchors": ["graviola/src/mid/xchacha20poly1305.rs", "graviola/src/low/generic/chacha20.rs: XChaCha20::new, hchacha"]}
{"id": "C28", "title": "AES-GCM uses the SP 800-38D counter sequence and tag on every code path", "statement": "The by-8 AVX, by-16 AVX512 and by-8 Neon paths encrypt block i with counter block nonce || (i+2 mod 2^32) and hash the same ciphertext blocks as the specification, for messages up to the GCM limit of 2^32-2 blocks.", "quantifier": "every nonce, aad, message length up to the limit, any block cipher", "why_tests_cant": "Batch remainders and 32-bit versus 64-bit counter increments differ only at extreme lengths.", "anchors": ["graviola/src/low/x86_64/aes_gcm.rs: _cipher, _cipher_avx512, Counter, Counter512", "graviola/src/low/aarch64/aes_gcm.rs", "graviola/src/mid/aes_gcm.rs"]}
{"id": "C29", "title": "Carry-less-multiply GHASH equals the bitwise definition", "statement": "The Karatsuba multiply-and-reduce used on x86_64 and aarch64, with 8 or 16 blocks folded against precomputed key powers, yields the same GHASH value as the specification's bit-by-bit multiplication, for data of any length.", "quantifier": "every hash key and every byte string", "why_tests_cant": "2^256 operand pairs; reduction errors can depend on single high bits.", "anchors": ["graviola/src/low/x86_64/ghash.rs", "graviola/src/low/aarch64/ghash.rs", "graviola/src/low/generic/ghash.rs"]}
{"id": "C30", "title": "AES key expansion follows FIPS 197", "statement": "The AES-128 and AES-256 round keys produced with the key-generation-assist instruction are the words of the FIPS 197 key schedule.", "quantifier": "every key", "why_tests_cant": "2^128 or 2^256 keys.", "anchors": ["graviola/src/low/x86_64/aes.rs: aes128_expand, aes256_expand"]}
{"id": "C31", "title": "Private scalars are accepted exactly when they denote 1..n-1", "statement": "Loading a private scalar from bytes succeeds iff the big-endian number is between 1 and n-1 (any number of leading zero bytes allowed), and exporting it gives the fixed-width encoding of the same number.", "quantifier": "every byte string of any length, both curves", "why_tests_cant": "Boundary values and over-long encodings.", "anchors": ["graviola/src/mid/p256.rs: Scalar::from_bytes_checked, into_range_check", "graviola/src/mid/p384.rs", "graviola/src/mid/util.rs: big_endian_slice_any_size"]}
{"id": "C32", "title": "Booth recoding represents every scalar exactly", "statement": "The signed digits produced by the width-5 and width-7 recoders satisfy sum digit_i * 2^(w*i) = scalar, and each digit's magnitude indexes inside the precomputed table.", "quantifier": "every 256-bit (P-256) and 384-bit (P-384) scalar", "why_tests_cant": "Carries out of each window and the top window depend on all scalar bits.", "anchors": ["graviola/src/mid/p256.rs: BoothRecodeW7, BoothRecodeW5", "graviola/src/mid/p384.rs: BoothRecodeW5"]}
{"id": "C33", "title": "Windowed scalar multiplication computes exactly k*P", "statement": "Multiplying the base point (with the precomputed tables) or any public key point by a scalar k < n gives exactly k times that point in the group of the curve, in both timing variants, although the point addition used is not valid for equal operands; the public key of a private key d is the encoding of d*G.", "quantifier": "every scalar below n, every point of P-256 and P-384", "why_tests_cant": "Needs all digit sequences, every table entry and the absence of exceptional additions.", "anchors": ["graviola/src/mid/p256.rs: multiply_w7, _multiply_w5, public_precomp_w5", "graviola/src/mid/p384.rs"]}
{"id": "C34", "title": "An ECDSA signature made by a key verifies under its public key", "statement": "For a group of prime order n, whenever signing returns a signature with s nonzero, verify with the matching public key and same hash accepts it; verify rejects r or s outside 1..n-1 and any signature of wrong length.", "quantifier": "every private key, message, entropy; every offered signature", "why_tests_cant": "Algebraic identity over the whole group and scalar field.", "anchors": ["graviola/src/high/ecdsa.rs: rfc6979_sign_with_random, VerifyingKey::verify", "graviola/src/mid/p256.rs: raw_ecdsa_sign, raw_ecdsa_verify"]}
{"id": "C35", "title": "Uncompressed public keys round-trip and are validated", "statement": "Parsing an uncompressed point succeeds only for prefix 04, the exact length and coordinates satisfying the curve equation, and exporting returns the same bytes; whether coordinates not reduced modulo p are rejected is settled.", "quantifier": "every byte string", "why_tests_cant": "Invalid-curve and non-canonical encodings are adversarial.", "anchors": ["graviola/src/mid/p256.rs: PublicKey::from_x962_uncompressed, as_bytes_uncompressed", "graviola/src/mid/p384.rs"]}
{"id": "C36", "title": "EC private key generation returns only in-range keys and bounds its retries", "statement": "Generation draws at most 64 candidates, returns the first one in 1..n-1, propagates a random source failure, and reports RngFailed if all 64 are out of range.", "quantifier": "every sequence of random source answers", "why_tests_cant": "Histories of the random source.", "anchors": ["graviola/src/mid/p256.rs: PrivateKey::generate", "graviola/src/mid/p384.rs: PrivateKey::generate"]}
{"id": "C37", "title": "X25519 key handling", "statement": "32-byte keys round-trip through import/export, other lengths are rejected, a shared secret of all zeros is reported as an error, and both sides of an exchange agree. An exchange fails only for public keys of small order, whatever the private key.", "quantifier": "every byte string and key pair", "why_tests_cant": "All low-order points and lengths.", "anchors": ["graviola/src/mid/x25519.rs"]}
{"id": "C38", "title": "Ed25519 signatures verify and are not malleable in S", "statement": "Every signature produced for a message verifies under the derived public key; verification rejects any S not below the group order, so adding the order to S never gives a second accepted signature; signing is deterministic.", "quantifier": "every seed, message, offered signature; any group with the base point's order", "why_tests_cant": "Algebraic identity modulo L; adversarial S.", "anchors": ["graviola/src/mid/ed25519.rs: SigningKey::sign, VerifyingKey::verify, clamp", "graviola/src/high/ed25519.rs"]}
{"id": "C39", "title": "Ed25519 and ECDSA key containers round-trip", "statement": "Exporting a private key to PKCS#8 or SEC1 and importing it gives the same key; importing rejects an embedded public key that does not match the private key and, for SEC1, parameters naming another curve.", "quantifier": "every private key; every mismatching public key", "why_tests_cant": "Quantifies over all wrong embedded public keys.", "anchors": ["graviola/src/high/ed25519.rs: from_pkcs8_der, to_pkcs8_der", "graviola/src/high/ecdsa.rs: from_sec1_der, to_sec1_der, from_pkcs8_der, to_pkcs8_der"]}
{"id": "C40", "title": "ML-KEM compression matches the rational rounding of FIPS 203", "statement": "The multiply-and-shift compression for 1, 4 and 10 bits equals round(2^d/q * x) mod 2^d for every coefficient, decompression equals round(q/2^d * y), and decompress after compress is within the standard's error bound.", "quantifier": "every coefficient 0..3328 and every compressed value", "why_tests_cant": "Division by multiplication is off by one only for specific inputs; a proof covers the whole range at once.", "anchors": ["graviola/src/mid/mlkem768.rs: compress_4, compress_10, compress_1_x8, decompress_4, decompress_10"]}
{"id": "C41", "title": "ML-KEM byte packing is inverse to unpacking", "statement": "Packing 256 coefficients of 1, 4, 10 or 12 bits and unpacking gives them back, and the packed form is the little-endian bit string of FIPS 203 ByteEncode.", "quantifier": "every coefficient vector; every byte string", "why_tests_cant": "2^2560 inputs.", "anchors": ["graviola/src/mid/mlkem768.rs: du_10 and dv_4 packing, message bits", "graviola/src/low/generic/mlkem.rs: mlkem_frombytes"]}
{"id": "C42", "title": "ML-KEM encapsulation keys are accepted iff every coefficient is reduced", "statement": "from_bytes on an encapsulation key succeeds iff each of the 768 twelve-bit fields is below q=3329, and re-exporting gives the same bytes.", "quantifier": "every 1184-byte string", "why_tests_cant": "The check is by re-encoding; equivalence needs all fields.", "anchors": ["graviola/src/mid/mlkem768.rs: EncapKey::from_bytes"]}
{"id": "C43", "title": "ML-KEM decapsulation implicitly rejects", "statement": "Decapsulation returns the re-derived key iff re-encryption reproduces the ciphertext exactly and otherwise the pseudo-random key derived from the rejection secret and the ciphertext; it never errors.", "quantifier": "every decapsulation key and every ciphertext", "why_tests_cant": "All malformed ciphertexts.", "anchors": ["graviola/src/mid/mlkem768.rs: decaps_internal", "graviola/src/low/generic/ct_copy.rs"]}
{"id": "C44", "title": "ML-KEM noise sampling is the centred binomial distribution map", "statement": "Sampling from 128 bytes gives for every coefficient the difference of the two-bit sums at the FIPS 203 bit positions.", "quantifier": "every byte string", "why_tests_cant": "Bit-position errors hide behind symmetric distributions.", "anchors": ["graviola/src/mid/mlkem768.rs: sample_cbd2, sample_poly_cbd_dual"]}
{"id": "C45", "title": "ML-KEM matrix sampling equals SampleNTT for any output stream", "statement": "Bulk rejection sampling over the first squeezed blocks continued by the 12-bit iterator yields the first 256 values below q of the stream parsed as FIPS 203 prescribes, with each matrix entry seeded with the right index order.", "quantifier": "every XOF output stream, including ones needing more than the bulk blocks", "why_tests_cant": "The tail path is reached with tiny probability per key.", "anchors": ["graviola/src/mid/mlkem768.rs: sample_poly, Shake128ForMlKem, Shake128TwelveBitIterator, SAMPLE_POLY_WORK"]}
{"id": "C46", "title": "ML-KEM decryption recovers the message whenever the noise is small", "statement": "If every coefficient of the accumulated error is below the decoding threshold, decrypting an encryption returns the message, so decapsulation returns the encapsulated key.", "quantifier": "every key, message and noise within the bound; any commutative ring structure", "why_tests_cant": "Failure probability 2^-164 is out of reach of tests; the implication needs algebra.", "anchors": ["graviola/src/mid/mlkem768.rs: kpke_encrypt, kpke_decrypt, encaps_internal, decaps_internal"]}
{"id": "C47", "title": "Windowed Montgomery exponentiation computes the power", "statement": "Fixed 4-bit window exponentiation returns base^exponent mod modulus for every exponent and odd modulus.", "quantifier": "every base, exponent and modulus", "why_tests_cant": "Window boundaries and leading zero windows.", "anchors": ["graviola/src/low/posint.rs: mod_exp, mont_exp, BitsMsbFirstIter"]}
{"id": "C48", "title": "Big integers round-trip through bytes and compare by value", "statement": "Reading big-endian bytes and writing them back gives the same number with leading zeros removed or padded; comparison and equality agree with the numeric value independent of representation width.", "quantifier": "every byte string up to the capacity; every pair of values", "why_tests_cant": "Word-boundary and leading-zero cases at each length.", "anchors": ["graviola/src/low/posint.rs: PosInt::from_bytes, to_bytes, to_bytes_asn1, equals, less_than"]}
{"id": "C49", "title": "Modular inversion and reduction in key generation are correct", "statement": "The binary inversion returns the inverse when it exists and none otherwise; reduction modulo an even number equals the mathematical remainder.", "quantifier": "every pair of operands meeting the documented preconditions", "why_tests_cant": "Euclid-style loops have data-dependent paths.", "anchors": ["graviola/src/low/posint.rs: invert_vartime, reduce_even, add_shift_right_1"]}
{"id": "C50", "title": "Session tickets decrypt to what was encrypted, under any interleaving", "statement": "Any non-empty ticket returned by encrypt is decrypted to the original by the same ticketer at any later time under any interleaving of other encrypt/decrypt calls; anything not of the right key name, length or tag yields None; the length cut-off never rejects an issued ticket.", "quantifier": "every history and interleaving of encrypt/decrypt calls from any number of threads", "why_tests_cant": "Schedules over the shared atomic length bound.", "anchors": ["rustls-graviola/src/ticketer.rs: XChaCha20Ticketer::encrypt, decrypt"]}
{"id": "C51", "title": "Hybrid key exchange splits and joins shares consistently", "statement": "Client and server derive the same combined secret when both components agree; shares of any other total length are rejected; the post-quantum and classical parts are never swapped.", "quantifier": "every layout (either order, any lengths) and every share", "why_tests_cant": "All layouts and lengths.", "anchors": ["rustls-graviola/src/kx/hybrid.rs: Layout, Hybrid, ActiveHybrid"]}
{"id": "C52", "title": "TLS record protection round-trips and never reuses a nonce", "statement": "Decrypting an encrypted TLS 1.2 or 1.3 record with the same sequence number returns the payload and content type; records shorter than the overhead are rejected; two different sequence numbers under one key never use the same nonce.", "quantifier": "every payload, content type, IV and pair of 64-bit sequence numbers", "why_tests_cant": "Nonce uniqueness is over all pairs of sequence numbers.", "anchors": ["rustls-graviola/src/aead.rs"]}
{"id": "C53", "title": "Constant-time helpers compute equality and selection", "statement": "The comparison returns true iff the slices have the same length and bytes; conditional copy leaves or replaces the whole destination according to the condition.", "quantifier": "every pair of slices", "why_tests_cant": "All single-bit differences at all lengths.", "anchors": ["graviola/src/low/generic/ct_equal.rs", "graviola/src/low/generic/ct_copy.rs", "graviola/src/low/x86_64/cpu.rs: ct_compare_bytes, _zero_bytes"]}
{"id": "C54", "title": "TLS signing and verification scheme selection is sound", "statement": "A signing key only ever picks a scheme that the peer offered and that matches its key type, picks the most preferred such scheme, and returns none only if no compatible scheme was offered; the verification table maps each scheme to algorithms with that scheme's hash.", "quantifier": "every list of offered schemes and every key type", "why_tests_cant": "All subsets and orders of offered schemes.", "anchors": ["rustls-graviola/src/sign.rs: choose_scheme, load_pkcs8", "rustls-graviola/src/verify.rs: ALGORITHMS"]}
{"id": "C55", "title": "Secret-dependent timing is constant", "statement": "Operations on secret data take time independent of the secret: which instructions run, and which addresses they touch, is the same for any two secrets when the public inputs (pointers, lengths, counts) are the same.", "quantifier": "every pair of secrets, every public input, every length of run", "why_tests_cant": "A property of pairs of runs of machine code; a timing test samples a few secrets on one machine.", "anchors": ["graviola/src/low/ct.rs", "graviola/src/low/inline_assembly_safety.rs", "graviola/src/low/x86_64/*.rs (asm! blocks)"]}
{"id": "C56", "title": "Secrets are erased when dropped", "statement": "When a key or intermediate secret is dropped its storage is overwritten with zeros.", "quantifier": "every execution path including early error returns", "why_tests_cant": "All early-return paths.", "anchors": ["graviola/src/low/generic/zeroise.rs", "graviola/src/low/entry.rs"]}
{"id": "C57", "title": "The primality test follows FIPS 186-5 and never rejects a prime", "statement": "A candidate accepted by the primality test has no prime factor below 743 and passes the Miller-Rabin test of FIPS 186-5 B.3.1 for at least the required number of independently drawn bases; a rejected candidate is composite; the only error is that of the random source.", "quantifier": "every odd candidate, every stream of random bases, every key size", "why_tests_cant": "Strong pseudoprimes and rejected primes are far too rare to hit.", "anchors": ["graviola/src/mid/rsa_priv/generate.rs: is_prime, miller_rabin, MillerRabinParams", "graviola/src/low/posint.rs: PosInt::invert_vartime, mod_exp"]}
{"id": "C58", "title": "ECDH computes the x-coordinate of d*Q and both sides agree", "statement": "For every private key and every public key that was read successfully, Diffie-Hellman returns the fixed-width x-coordinate of d*Q, without error or panic; two parties that exchange encoded public keys derive the same secret.", "quantifier": "every pair of private keys, every readable public key, both curves", "why_tests_cant": "Quantifies over all pairs of keys and all points.", "anchors": ["graviola/src/mid/p256.rs: PrivateKey::diffie_hellman, PublicKey::from_x962_uncompressed", "graviola/src/mid/p384.rs"]}
{"id": "C59", "title": "Every offered key exchange group agrees and refuses malformed shares", "statement": "For each key exchange group of the provider, a client that offers its share and a server that completes with it derive the same secret; a peer share that is not a valid public value is refused as an invalid key share; nothing panics.", "quantifier": "every random source, every pair of ephemeral keys and every peer share", "why_tests_cant": "Agreement ranges over all pairs of keys, refusal over all byte strings.", "anchors": ["rustls-graviola/src/kx.rs", "rustls-graviola/src/kx/hybrid.rs", "rustls-graviola/src/kx/mlkem.rs"]}
{"id": "C60", "title": "The machine code of multi-word arithmetic computes what it documents", "statement": "Each assembly routine for multi-word integers, run on the processor with any operands that meet its documented preconditions, ends without a fault, leaves the documented result in its output and in its return value, and changes no other memory and no register that the surrounding code was not told about.", "quantifier": "every length of the operands, every content of memory, every initial register and flag", "why_tests_cant": "Carries and borrows that reach across many words occur on a vanishing fraction of operands, lengths are unbounded, and a clobbered register shows only in callers that keep a value there.", "anchors": ["graviola/src/low/x86_64/bignum_mux.rs", "graviola/src/low/x86_64/bignum_eq.rs", "graviola/src/low/x86_64/bignum_cmp_lt.rs", "graviola/src/low/x86_64/bignum_digitsize.rs", "graviola/src/low/x86_64/bignum_bitsize.rs", "graviola/src/low/x86_64/bignum_ctz.rs", "graviola/src/low/x86_64/bignum_add.rs", "graviola/src/low/x86_64/bignum_modadd.rs", "graviola/src/low/x86_64/bignum_modsub.rs", "graviola/src/low/x86_64/bignum_optsub.rs", "graviola/src/low/x86_64/bignum_shr_small.rs", "graviola/src/low/x86_64/bignum_copy_row_from_table.rs", "graviola/src/low/x86_64/bignum_mul.rs", "graviola/src/low/x86_64/bignum_montmul.rs", "graviola/src/low/x86_64/bignum_montsqr.rs", "graviola/src/low/x86_64/bignum_montredc.rs", "graviola/src/low/x86_64/bignum_demont.rs", "graviola/src/low/x86_64/bignum_negmodinv.rs"]}
{"id": "C61", "title": "Machine code gives registers back as it found them", "statement": "An assembly routine, however it was entered, leaves with the stack pointer it was given, and with every register that its operand list does not name as changed as it was on entry, even though it uses most of them for its work.", "quantifier": "every assembly routine, every initial state, every run that reaches the end", "why_tests_cant": "A register that is not given back shows only in a caller that the compiler let keep a value there, which depends on inlining and optimisation.", "anchors": ["graviola/src/low/x86_64/bignum_montmul.rs", "graviola/src/low/x86_64/bignum_kmul_16_32.rs", "graviola/src/low/x86_64/bignum_montmul_p256.rs", "graviola/src/low/x86_64/bignum_montmul_p384.rs", "graviola/src/low/x86_64/p256_montjadd.rs", "graviola/src/low/x86_64/curve25519_x25519.rs", "graviola/src/low/x86_64/sha3_keccak_f1600.rs"]}
{"id": "C62", "title": "The machine code for the fields of P-256 and P-384 computes what it documents", "statement": "Each assembly routine for numbers modulo the prime or the order of P-256 and P-384 (sum, negative, reduction, into and out of Montgomery form, Montgomery product and square) and for points of these curves, run on the processor with any operands in its documented range, ends without a fault, leaves the documented result in its output, reduced, and changes no other memory but the stack below the stack pointer.", "quantifier": "every operand in range, every content of memory, every initial register and flag", "why_tests_cant": "A carry lost in the final correction occurs for one operand in 2^32 or fewer, and the wrong result is then a wrong shared secret, a signature that does not verify, or a leak of the key through an adversary's choice of point.", "anchors": ["graviola/src/low/x86_64/bignum_add_p256.rs", "graviola/src/low/x86_64/bignum_neg_p256.rs", "graviola/src/low/x86_64/bignum_mod_n256.rs", "graviola/src/low/x86_64/bignum_tomont_p256.rs", "graviola/src/low/x86_64/bignum_demont_p256.rs", "graviola/src/low/x86_64/bignum_montmul_p256.rs", "graviola/src/low/x86_64/bignum_montsqr_p256.rs", "graviola/src/low/x86_64/bignum_add_p384.rs", "graviola/src/low/x86_64/bignum_neg_p384.rs", "graviola/src/low/x86_64/bignum_mod_n384.rs", "graviola/src/low/x86_64/bignum_tomont_p384.rs", "graviola/src/low/x86_64/bignum_demont_p384.rs", "graviola/src/low/x86_64/bignum_montmul_p384.rs", "graviola/src/low/x86_64/bignum_montsqr_p384.rs", "graviola/src/low/x86_64/p256_montjadd.rs", "graviola/src/low/x86_64/p256_montjdouble.rs", "graviola/src/low/x86_64/p256_montjmixadd.rs", "graviola/src/low/x86_64/p384_montjadd.rs", "graviola/src/low/x86_64/p384_montjdouble.rs"]}
{"id": "C63", "title": "The machine code of the Keccak permutation is KECCAK-f[1600]", "statement": "On x86-64, the assembly routines that SHA-3, SHAKE and ML-KEM use for the Keccak permutation, run on the processor with any state and any content of the registers, end without a fault, leave in place of the state its image under KECCAK-f[1600] of FIPS 202, and change no other memory but the stack below the stack pointer.", "quantifier": "every state of 25 lanes, every content of memory, every initial register and flag", "why_tests_cant": "The routine keeps some lanes complemented and moves rotations between rounds; a wrong lane, rotation or complement can cancel on the states that test vectors reach.", "anchors": ["graviola/src/low/x86_64/sha3_keccak_f1600.rs", "graviola/src/low/x86_64/sha3_keccak4_f1600_alt.rs", "graviola/src/low/x86_64/sha3_keccak4_f1600_shim.rs", "graviola/src/low/x86_64/sha3_keccak2of4_f1600.rs", "graviola/src/mid/sha3.rs"]}
{"id": "C64", "title": "The machine code of the ML-KEM arithmetic computes the transforms and products of FIPS 203", "statement": "The AVX2 assembly routines that ML-KEM uses for polynomials, run on the processor with any coefficients of the documented range, end without a fault and leave: the number-theoretic transform of FIPS 203, its inverse times 2^16, the inner product of three transformed pairs times 2^-16, each coefficient reduced into [0, q) or multiplied by 2^16, the coefficients reordered, or their encoding in 12 bits and back. The results stand in one fixed order, stay in the range the callers rely on, and no other memory, no general register but one and no flag changes.", "quantifier": "every array of 256 signed 16-bit coefficients in the documented range, every 384 bytes, every content of memory, every initial register and flag", "why_tests_cant": "Reductions are lazy, so a coefficient may overflow 16 bits only for rare combinations of inputs, and a wrong lane in a shuffle shows only where the coefficients differ; there are 2^4096 inputs.", "anchors": ["graviola/src/low/x86_64/mlkem_ntt.rs", "graviola/src/low/x86_64/mlkem_intt.rs", "graviola/src/low/x86_64/mlkem_basemul_k3.rs", "graviola/src/low/x86_64/mlkem_mulcache_compute.rs", "graviola/src/low/x86_64/mlkem_reduce.rs", "graviola/src/low/x86_64/mlkem_tomont.rs", "graviola/src/low/x86_64/mlkem_unpack.rs", "graviola/src/low/x86_64/mlkem_tobytes.rs", "graviola/src/low/x86_64/mlkem_frombytes.rs"]}
{"id": "C65", "title": "The machine code that samples polynomials picks exactly the numbers that FIPS 203 accepts", "statement": "The x86-64 assembly routine that ML-KEM uses for rejection sampling, run on the processor with any byte string whose length is a multiple of 12, ends without a fault. It returns how many of the 12-bit numbers in the bytes are below q, at most 256, and leaves exactly these numbers, in their order, in the output. No other memory except 528 bytes below the stack pointer changes, and no register the compiler relies on. With it, the ten assembly routines of ML-KEM on x86_64 are everything that the conformance of key generation, encapsulation and decapsulation to FIPS 203 rests on.", "quantifier": "every byte string of a length divisible by 12 (the library passes 504 bytes), every content of memory, every initial register and flag, every placement of the buffers clear of the 528 stack bytes", "why_tests_cant": "Each group of eight candidates is compacted by one of 256 table rows, the output is written past its end into a scratch area and cut off at 256, and the loop may leave at any group; there are 2^4032 inputs of the length used.", "anchors": ["graviola/src/low/x86_64/mlkem_rej_uniform_vartime.rs", "graviola/src/low/x86_64/mlkem.rs: mlkem_rej_uniform_vartime, MLKEM_REJ_UNIFORM_TABLE", "graviola/src/mid/mlkem768.rs: low::mlkem_rej_uniform_vartime"]}
{"id": "C66", "title": "Clearing a secret clears every byte of it, and comparing secrets is exact and reveals only their length", "statement": "On x86_64, erasing a buffer leaves zero in every byte of the buffer, whatever its length, and changes no byte outside it. Comparing two byte strings of the same length reports equality exactly when they are equal; the instructions executed and the addresses read are the same for all contents, wherever the first difference lies.", "quantifier": "every length of buffer (below 2^63 for erasing, 2^64 for comparing), every content of memory, every register the compiler may choose for the operands, every initial register and flag", "why_tests_cant": "Erasing goes by 32 bytes, then by single bytes, with two exits: an error may show for one length or one alignment only, and a byte too many destroys a neighbour no test looks at. That a comparison does not leak is a statement about pairs of runs.", "anchors": ["graviola/src/low/x86_64/cpu.rs: zero_bytes, _zero_bytes, ct_compare_bytes", "graviola/src/low/generic/zeroise.rs", "graviola/src/low/generic/ct_equal.rs"]}
{"id": "C67", "title": "Looking up a table entry by a secret index gives that entry", "statement": "The x86_64 code that picks a power from the table of a modular exponentiation, or a point from the table of a scalar multiplication, gives exactly the entry asked for, bit by bit, and zeros if the table has no such entry. This holds for rows of any width, whichever of the three implementations that width selects, and whatever the output held before. So the lookups assumed by the theorems on RSA exponentiation and on P-256 and P-384 are those that run.", "quantifier": "every table content and number of rows (below 2^64, for points 2^32), every row width, every index, every earlier content of the output", "why_tests_cant": "The vector code adds up all rows under masks made of a lane-wise comparison with a counter; an error in one lane, one row or one width shows only for the index, width and content that meet it, and wrong words in a table of powers give a wrong signature for some exponents only.", "anchors": ["graviola/src/low/x86_64/bignum_copy_row_from_table_mux.rs", "graviola/src/low/x86_64/bignum_copy_row_from_table_16_avx2.rs", "graviola/src/low/x86_64/bignum_copy_row_from_table_8n_avx2.rs", "graviola/src/low/x86_64/bignum_point_select_p256.rs", "graviola/src/low/x86_64/bignum_point_select_p384.rs", "graviola/src/low/posint.rs: mont_exp", "graviola/src/mid/p256.rs", "graviola/src/mid/p384.rs"]}
{"id": "C68", "title": "Every TLS cipher suite of the provider does what its name says", "statement": "Each cipher suite that the rustls provider offers is one that the RFCs define, listed once, and uses that suite's hash for the transcript, HMAC with that hash for the key schedule, that AEAD with keys of that length and records of that version of TLS, and no more records under one key than RFC 8446 allows. Transcript hashes stay right however rustls updates, forks and finishes its hash contexts. Under a TLS 1.2 suite a key signs exactly when the peer offers a scheme that suits both the key and the suite.", "quantifier": "every suite offered; every history of calls on any number of hash contexts; every HMAC key and message in any pieces; every traffic key, IV, record and sequence number; every list of schemes offered by the peer and every loaded key", "why_tests_cant": "A suite with a wrong hash, key length or limit still completes handshakes with itself; forked hash contexts go wrong only for some interleavings of calls at some buffer fill; and which key may sign depends on the whole list that the peer sends.", "anchors": ["rustls-graviola/src/suites.rs: ALL_CIPHER_SUITES", "rustls-graviola/src/hash.rs", "rustls-graviola/src/hmac.rs", "rustls-graviola/src/aead.rs", "rustls-graviola/src/sign.rs: choose_scheme", "rustls-graviola/src/lib.rs: default_provider"]}
{"id": "C69", "title": "The machine code for Ed25519's scalars and negatives computes what it documents", "statement": "On x86-64, the assembly routines with which Ed25519 reduces a hash modulo the group order, multiplies and adds scalars modulo that order, and negates a coordinate modulo the field prime, run on the processor with any operands in their documented range, end without a fault, leave the exact result, fully reduced, in their output, and change no other memory but the stack below the stack pointer.", "quantifier": "every operand in range (for the reduction, of every length), every content of memory, every initial register and flag", "why_tests_cant": "The reduction estimates a quotient that is wrong by one for very few inputs, and the correction that follows adds the order under a mask made from one carry; a fault there shows for one hash in 2^60 or fewer and then gives a signature that does not verify, or, worse, one whose scalar is not reduced and relates to the secret key.", "anchors": ["graviola/src/low/x86_64/bignum_mod_n25519.rs", "graviola/src/low/x86_64/bignum_madd_n25519.rs", "graviola/src/low/x86_64/bignum_neg_p25519.rs"]}
{"id": "C70", "title": "The library executes only instructions that the processor has", "statement": "On x86-64, after the check of processor features with which every entry to the library begins has passed, no call executes an instruction of an extension that the processor lacks: neither in the functions compiled for extensions (which also undefined behaviour would follow from) nor in the assembly routines.", "quantifier": "every set of extensions a processor may have, release and debug builds, every setting of the variables that disable extensions, every operand and content of memory", "why_tests_cant": "Tests run on the processors at hand, which have nearly all extensions; a missing check shows only on a processor, or a virtual machine with a masked feature, that lacks just the one extension.", "anchors": ["graviola/src/low/inline_assembly_safety.rs", "graviola/src/low/x86_64/cpu.rs: verify_cpu_features, have_cpu_feature, HaveAvx512ForAesGcm, HaveSha256, HaveBmi2", "graviola/src/low/entry.rs", "graviola/src/low/x86_64/sha512_mux.rs", "graviola/src/low/x86_64/sha256_mux.rs", "graviola/src/low/x86_64/bignum_montmul_p256.rs"]}
{"id": "C71", "title": "Operations on secrets run in data-independent timing mode and leave nothing in vector registers", "statement": "On aarch64 with data-independent timing, every computation made during an operation on secret data is made with that mode on, also in operations it calls; when an operation ends, by returning or by a panic, the mode is what the caller had. When an operation on secret data ends, all vector registers of the processor hold zero.", "quantifier": "every nesting and sequence of library operations, every panic, every content of registers, both architectures", "why_tests_cant": "The mode is a bit of processor state that changes no result; an inner call that switches it off, or an error path that leaves it on, shows in no output.", "anchors": ["graviola/src/low/entry.rs: Entry", "graviola/src/low/aarch64/cpu.rs: enter_cpu_state, leave_cpu_state, zero_neon_registers, dit", "graviola/src/low/x86_64/cpu.rs: enter_cpu_state, leave_cpu_state", "graviola/src/high/hmac.rs: Hmac"]}
