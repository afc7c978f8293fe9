{"id": "C01", "title": "Every honest detached signature verifies", "statement": "For a key pair produced by crypto_sign_seed_keypair, crypto_sign_signature returns 0 and crypto_sign_verify on the resulting (signature, length, message, public key) returns 0.", "quantifier": "every seed of 3n bytes, every message (length below 2^60 bytes), every value returned by randombytes, every shipped parameter set and thash variant, every prior content of the output buffers and of uninitialised stack memory", "why_tests_cant": "The test signs a handful of random messages per parameter set; the path taken depends on a 60+ bit tree index, on leaf parities at every layer and on every WOTS digit, so the input space cannot be enumerated.", "anchors": ["ref/sign.c:crypto_sign_seed_keypair", "ref/sign.c:crypto_sign_signature", "ref/sign.c:crypto_sign_verify"]}
{"id": "C02", "title": "Attached sign/open round trip", "statement": "crypto_sign followed by crypto_sign_open under the matching public key returns 0, reports the original message length and reproduces the original message bytes; the signed message is the detached signature followed by the message.", "quantifier": "every seed, message, randomness, parameter set, with disjoint buffers", "why_tests_cant": "Holds for all messages and lengths only by an argument about offsets; tests use one length.", "anchors": ["ref/sign.c:crypto_sign", "ref/sign.c:crypto_sign_open"]}
{"id": "C03", "title": "Signatures have exactly the advertised length and are written completely", "statement": "crypto_sign_signature reports a length equal to crypto_sign_bytes(), writes every one of those bytes (the result does not depend on what the buffer held before) and writes no byte outside that range; crypto_sign reports smlen = mlen + crypto_sign_bytes().", "quantifier": "every key, message, randomness, previous buffer content, parameter set", "why_tests_cant": "A missing or extra byte write at one index can hide behind whatever the buffer contained in the test run.", "anchors": ["ref/sign.c:crypto_sign_signature", "ref/sign.c:crypto_sign", "ref/params"]}
{"id": "C04", "title": "A signature of any other length is rejected", "statement": "crypto_sign_verify called with siglen different from crypto_sign_bytes() returns -1, whatever the pointers' contents and without reading the signature.", "quantifier": "every siglen, message, key, and content", "why_tests_cant": "There are 2^64-1 wrong lengths.", "anchors": ["ref/sign.c:crypto_sign_verify"]}
{"id": "C05", "title": "Opening a too short signed message fails closed", "statement": "crypto_sign_open with smlen < crypto_sign_bytes() returns -1, sets *mlen to 0, zeroes exactly the first smlen bytes of m and touches no other memory (no byte of sm or pk is even read).", "quantifier": "every smlen below the signature size, every memory content, every pointer placement", "why_tests_cant": "Quantifies over all lengths and all surrounding memory.", "anchors": ["ref/sign.c:crypto_sign_open"]}
{"id": "C06", "title": "Opening an invalid signed message never releases message bytes", "statement": "If crypto_sign_open returns nonzero then *mlen is 0 and all smlen bytes at m are zero; nothing outside m[0..smlen) has changed.", "quantifier": "every public key, every byte string sm, every overlap of m with sm, every memory content", "why_tests_cant": "Requires reasoning about every rejected input and every aliasing of m and sm.", "anchors": ["ref/sign.c:crypto_sign_open"]}
{"id": "C07", "title": "crypto_sign_open accepts exactly the detached-valid pairs", "statement": "crypto_sign_open returns 0 if and only if smlen >= crypto_sign_bytes() and crypto_sign_verify accepts the first crypto_sign_bytes() bytes as a signature of the rest; then *mlen = smlen - crypto_sign_bytes() and m holds exactly that suffix of the original sm.", "quantifier": "every public key, every byte string sm", "why_tests_cant": "An equivalence over all inputs.", "anchors": ["ref/sign.c:crypto_sign_open", "ref/sign.c:crypto_sign_verify"]}
{"id": "C08", "title": "In-place and overlapping open is safe", "statement": "The result of crypto_sign_open (return value, *mlen and the bytes at m) is the same for every placement of m relative to sm, including m == sm and partial overlap, as for disjoint buffers.", "quantifier": "every pair of pointers m, sm whose buffers lie in allocated memory, every content", "why_tests_cant": "Tests try a single aliasing (m == sm).", "anchors": ["ref/sign.c:crypto_sign_open", "ref/test/spx.c"]}
{"id": "C09", "title": "Which overlaps crypto_sign tolerates", "statement": "crypto_sign produces the signature of the original message followed by the message when the message buffer is disjoint from the output signature area, in particular for the in-place layout m == sm + crypto_sign_bytes(); it does NOT when m == sm (the message is overwritten before it is hashed a second time), so callers must not sign in place at the start of the buffer.", "quantifier": "every key, message, randomness, every placement of m relative to sm", "why_tests_cant": "Aliasing cases are not enumerable and the failing one silently yields an unverifiable signed message.", "anchors": ["ref/sign.c:crypto_sign", "ref/sign.c:crypto_sign_signature"]}
{"id": "C10", "title": "Key format and seed determinism", "statement": "crypto_sign_seed_keypair returns 0 and produces sk = SK_SEED || SK_PRF || PUB_SEED || root and pk = PUB_SEED || root where SK_SEED || SK_PRF || PUB_SEED is the seed and root is the root of the top subtree; the outputs are a function of the seed only, independent of the previous contents of pk, sk and of stack garbage (although the code reads the uninitialised root bytes).", "quantifier": "every seed, every previous memory content, every parameter set", "why_tests_cant": "The dependence on uninitialised memory is invisible to a test run with one memory content.", "anchors": ["ref/sign.c:crypto_sign_seed_keypair", "ref/merkle.c:merkle_gen_root"]}
{"id": "C11", "title": "Signing is a stateless function of key, message and randomness", "statement": "Two calls of crypto_sign_signature with the same key, message and randombytes output give identical signatures whatever happened before or between, and the secret key is never modified.", "quantifier": "every history of API calls, every key, message and randomness", "why_tests_cant": "Quantifies over histories and memory contents.", "anchors": ["ref/sign.c:crypto_sign_signature"]}
{"id": "C12", "title": "Verification depends only on public key, message and signature, and always returns", "statement": "crypto_sign_verify terminates with 0 or -1, with no out-of-bounds access or undefined shift, on every public key, message and signature of the right size, including adversarial ones; the answer does not depend on the uninitialised sk_seed in its context or on stack garbage.", "quantifier": "every pk, message, signature bytes (attacker controlled), every garbage content", "why_tests_cant": "Adversarial inputs cover the whole space.", "anchors": ["ref/sign.c:crypto_sign_verify", "ref/fors.c:fors_pk_from_sig", "ref/wots.c:wots_pk_from_sig"]}
{"id": "C13", "title": "The signature is the one prescribed by the SPHINCS+ specification", "statement": "The byte string produced by crypto_sign_signature equals R || FORS signature || for each layer (WOTS signature || authentication path) as defined recursively by the specification from the key, the message and the randomness, and crypto_sign_verify computes exactly the specification's verification predicate.", "quantifier": "every key, message, randomness, parameter set", "why_tests_cant": "Functional equivalence over an unbounded domain.", "anchors": ["ref/sign.c", "ref/fors.c", "ref/wotsx1.c", "ref/merkle.c"]}
{"id": "C14", "title": "Tree hashing yields the Merkle root and authentication path", "statement": "treehashx1 returns the root of the full binary hash tree over the leaves it is given and the sibling nodes on the path from the chosen leaf; with the no-path leaf index ~0 it returns the same root and leaves the path buffer unchanged.", "quantifier": "every tree height from 1 to 30, every leaf index, index offset, every leaf generator", "why_tests_cant": "Heights and leaf positions are far too many to enumerate; tests exercise whatever indices the hash happens to pick.", "anchors": ["ref/utilsx1.c:treehashx1", "ref/merkle.c:merkle_sign"]}
{"id": "C15", "title": "Recomputing the root from leaf and path inverts tree hashing", "statement": "compute_root applied to a leaf and the authentication path that treehashx1 output for it returns the root treehashx1 returned.", "quantifier": "every tree height from 1 to 30, leaf index, index offset, leaf generator", "why_tests_cant": "Same as C14.", "anchors": ["ref/utils.c:compute_root", "ref/utilsx1.c:treehashx1"]}
{"id": "C16", "title": "The two tree hashing routines agree", "statement": "The exported stack-based treehash returns the same root and authentication path as treehashx1.", "quantifier": "every tree height, leaf index, index offset and leaf generator", "why_tests_cant": "treehash is not called by the library or the tests at all.", "anchors": ["ref/utils.c:treehash", "ref/utilsx1.c:treehashx1"]}
{"id": "C17", "title": "WOTS chain lengths are the base-w digits of message and checksum", "statement": "chain_lengths writes SPX_WOTS_LEN values, each below w; the first len1 are the base-w digits of the message most significant first and the last len2 the base-w digits of the sum of (w-1-digit), which always fits.", "quantifier": "every message of n bytes, w in {16,256}, every n from 1 to 256", "why_tests_cant": "2^128 or more messages.", "anchors": ["ref/wots.c:base_w", "ref/wots.c:wots_checksum", "ref/wots.c:chain_lengths"]}
{"id": "C18", "title": "The WOTS checksum prevents forging by advancing chains", "statement": "For two different n-byte messages there is always a chain whose length for the second message is strictly smaller than for the first, so a signature of one cannot be turned into a signature of the other by hashing forward.", "quantifier": "every pair of distinct messages", "why_tests_cant": "Quantifies over pairs of messages; a single collision breaks unforgeability.", "anchors": ["ref/wots.c:chain_lengths"]}
{"id": "C19", "title": "FORS indices are exactly the digest bits", "statement": "The FORS index of tree i is the integer whose j-th bit is bit i*a+j of the digest (bits numbered least significant first in each byte); it is always below 2^a, no byte outside the FORS digest is read, and different digests (on the used bits) give different index vectors.", "quantifier": "every digest, every parameter set", "why_tests_cant": "2^(k*a) digests.", "anchors": ["ref/fors.c:message_to_indices"]}
{"id": "C20", "title": "Tree and leaf indices derived from the message are in range", "statement": "hash_message yields a tree index below 2^(h - h/d), a leaf index below 2^(h/d) and the prescribed number of digest bytes, with no undefined shift even when the tree index has exactly 64 bits.", "quantifier": "every R, public key, message, parameter set", "why_tests_cant": "An out-of-range value for rare digests would only show in rare runs.", "anchors": ["ref/hash_sha2.c:hash_message", "ref/hash_shake.c:hash_message", "ref/hash_haraka.c:hash_message"]}
{"id": "C21", "title": "Hash addresses are pairwise distinct (domain separation)", "statement": "The bytes that the tweakable hash reads from an address determine layer, tree, type, key pair, chain or height, and hash or index fields, for both byte layouts (32 bytes and 22 bytes), and each setter changes its own field and no other; hence any two hash calls made at different positions of the scheme use different addresses.", "quantifier": "all field values in range, both layouts", "why_tests_cant": "An overlap of two fields for particular values would not make any round-trip test fail.", "anchors": ["ref/address.c", "ref/sha2_offsets.h", "ref/shake_offsets.h", "ref/haraka_offsets.h"]}
{"id": "C22", "title": "Integer and byte-string conversions are inverse", "statement": "bytes_to_ull reads back what ull_to_bytes wrote modulo 256^len, ull_to_bytes writes back what bytes_to_ull read, u32_to_bytes is the 4-byte case, and the load/store helpers of the hash primitives are mutually inverse.", "quantifier": "every length 0..8 and every 64-bit value", "why_tests_cant": "2^64 values.", "anchors": ["ref/utils.c:ull_to_bytes", "ref/utils.c:bytes_to_ull", "ref/utils.c:u32_to_bytes"]}
{"id": "C23", "title": "SHA-256 incremental API equals the standard hash", "statement": "sha256 and any sequence init, blocks (any split into whole blocks), finalize produce the FIPS 180-4 SHA-256 of the concatenated input.", "quantifier": "every input of fewer than 2^61 bytes and every split", "why_tests_cant": "Padding has boundary cases at every length modulo 64; splits are unbounded.", "anchors": ["ref/sha2.c:sha256", "ref/sha2.c:sha256_inc_blocks", "ref/sha2.c:sha256_inc_finalize"]}
{"id": "C24", "title": "SHA-512 incremental API equals the standard hash", "statement": "sha512 and any sequence init, blocks, finalize produce the FIPS 180-4 SHA-512 of the concatenated input.", "quantifier": "every input of fewer than 2^64 bytes and every split", "why_tests_cant": "As C23, boundaries modulo 128.", "anchors": ["ref/sha2.c:sha512", "ref/sha2.c:sha512_inc_blocks", "ref/sha2.c:sha512_inc_finalize"]}
{"id": "C25", "title": "MGF1 output is the standard counter-mode stream", "statement": "mgf1_256 and mgf1_512 fill exactly outlen bytes with the prefix of Hash(in || 0) || Hash(in || 1) || ...; a shorter request is a prefix of a longer one.", "quantifier": "every input and every output length below 2^32 blocks", "why_tests_cant": "Unbounded lengths.", "anchors": ["ref/sha2.c:mgf1_256", "ref/sha2.c:mgf1_512"]}
{"id": "C26", "title": "SHAKE256 incremental API is independent of chunking", "statement": "Absorbing a message in any sequence of chunks, finalizing and squeezing in any sequence of requests yields the same stream as the one-shot shake256, which is the FIPS 202 sponge.", "quantifier": "every message, every way of cutting it and every way of cutting the output", "why_tests_cant": "Chunkings are unbounded; state position wraps at the 136-byte rate.", "anchors": ["ref/fips202.c:shake256_inc_absorb", "ref/fips202.c:shake256_inc_squeeze", "ref/fips202.c:shake256"]}
{"id": "C27", "title": "The Keccak permutation is Keccak-f[1600]", "statement": "The unrolled KeccakF1600_StatePermute computes the 24-round permutation of FIPS 202 on every state.", "quantifier": "every 1600-bit state", "why_tests_cant": "2^1600 states.", "anchors": ["ref/fips202.c:KeccakF1600_StatePermute"]}
{"id": "C28", "title": "Haraka-S incremental API is independent of chunking", "statement": "Absorbing and squeezing in any chunks yields the same stream as the one-shot haraka_S.", "quantifier": "every message, context and chunking", "why_tests_cant": "Unbounded chunkings.", "anchors": ["ref/haraka.c:haraka_S_inc_absorb", "ref/haraka.c:haraka_S_inc_squeeze", "ref/haraka.c:haraka_S"]}
{"id": "C29", "title": "The bitsliced Haraka core computes AES rounds", "statement": "haraka512, haraka256 and haraka512_perm compute the AES-round based permutations of the Haraka specification for every input and round constants.", "quantifier": "every input and every set of round constants", "why_tests_cant": "2^512 inputs; a wrong gate can affect few inputs.", "anchors": ["ref/haraka.c:haraka512_perm", "ref/haraka.c:haraka512", "ref/haraka.c:haraka256"]}
{"id": "C30", "title": "Tweakable hash and PRF equal their definition", "statement": "thash and prf_addr, which start from precomputed seeded states and use bitmask and buffer layouts of their own, return the first n bytes of the hash of the documented input string for the simple and robust variants of each hash family.", "quantifier": "every public seed, secret seed, address, input and number of input blocks", "why_tests_cant": "Unbounded inputs; block boundaries vary with the number of input blocks.", "anchors": ["ref/thash_sha2_simple.c", "ref/thash_sha2_robust.c", "ref/thash_shake_simple.c", "ref/thash_shake_robust.c", "ref/thash_haraka_simple.c", "ref/thash_haraka_robust.c", "ref/sha2.c:seed_state"]}
{"id": "C31", "title": "The message randomizer is the specified PRF for every message length", "statement": "gen_message_random returns the first n bytes of HMAC-SHA2 (key sk_prf, data optrand || m) for SHA2 sets and of the XOF of sk_prf || optrand || m for SHAKE and Haraka sets, on both sides of the block-length branch.", "quantifier": "every key, optrand and message length", "why_tests_cant": "The short/long branch and padding have boundary lengths tests do not visit.", "anchors": ["ref/hash_sha2.c:gen_message_random", "ref/hash_shake.c:gen_message_random", "ref/hash_haraka.c:gen_message_random"]}
{"id": "C32", "title": "The message digest is the specified hash for every message length", "statement": "hash_message hashes R || pk || m (for Haraka R || root || m) with the family's XOF or MGF1 construction for every message length, on both sides of the block-length branch, and splits the output as specified.", "quantifier": "every R, pk, message length", "why_tests_cant": "As C31.", "anchors": ["ref/hash_sha2.c:hash_message", "ref/hash_shake.c:hash_message", "ref/hash_haraka.c:hash_message"]}
{"id": "C33", "title": "randombytes fills the buffer exactly", "statement": "randombytes fills exactly xlen bytes at x, in order, for every sequence of short or empty reads, and touches nothing else. When read() fails (-1) the code as written instead moves the pointer back one byte and asks for one more, so a failed read leads to a write before the buffer.", "quantifier": "every request length, every history of read() results", "why_tests_cant": "Depends on operating system behaviour that tests cannot provoke.", "anchors": ["ref/randombytes.c:randombytes"]}
{"id": "C34", "title": "The seed expander is a prefix-consistent stream with a hard limit", "statement": "Successful seedexpander calls return consecutive pieces of one stream independent of how requests are cut; a request that would reach the declared maximum is refused without changing the state; the counter never repeats within the limit.", "quantifier": "every seed, diversifier, limit below 2^32 and every sequence of requests", "why_tests_cant": "Histories are unbounded.", "anchors": ["ref/rng.c:seedexpander_init", "ref/rng.c:seedexpander"]}
{"id": "C35", "title": "The deterministic generator fills exactly the request and advances", "statement": "The KAT randombytes fills exactly xlen bytes with consecutive counter-mode blocks, then re-keys; the output and next state are a function of the previous state and xlen only.", "quantifier": "every state and request length below 2^31", "why_tests_cant": "Unbounded histories.", "anchors": ["ref/rng.c:randombytes", "ref/rng.c:AES256_CTR_DRBG_Update", "ref/rng.c:randombytes_init"]}
{"id": "C36", "title": "Accepted signatures show the owner's values, an explicit second preimage, or a hidden chain value", "statement": "If crypto_sign_verify accepts a signature under an honestly generated public key, then after its first n bytes it is exactly what the owner would produce for the same digest, or one of the tweakable-hash calls made by verification is a second preimage of the owner's input at the same address, or the signature shows a WOTS chain value from before the one the owner releases at that position. In particular a valid signature cannot be modified after R without one of the last two, and a change in the top layer alone always gives a second preimage.", "quantifier": "every key, message and signature", "why_tests_cant": "A universally quantified security reduction.", "anchors": ["ref/sign.c:crypto_sign_verify"]}
{"id": "C37", "title": "Every one-time key only ever signs one value", "statement": "For a fixed key pair, over any number of signing calls on any messages, the value signed by the WOTS key at a given layer, tree and leaf is always the same.", "quantifier": "every history of signing calls, every message and randomness", "why_tests_cant": "Quantifies over histories; reuse with two values would reveal secrets but no test would fail.", "anchors": ["ref/sign.c:crypto_sign_signature", "ref/merkle.c:merkle_sign"]}
{"id": "C38", "title": "The parallel implementations equal the reference", "statement": "The 2-, 4- and 8-way tree hashing, WOTS leaf and signature, WOTS verification chains and FORS leaf code of the optimised implementations return the same bytes as the one-way reference code, including when lanes hold uninitialised garbage.", "quantifier": "every input, every lane content, heights at least log2(lanes)", "why_tests_cant": "Counting-sort orders, partially filled lanes and garbage lanes depend on the message digits.", "anchors": ["shake-avx2/utilsx4.c", "sha2-avx2/utilsx8.c", "shake-a64/utilsx2.c", "shake-avx2/wots.c", "sha2-avx2/wots.c", "shake-a64/wots.c", "shake-avx2/fors.c"]}
{"id": "C39", "title": "No out-of-bounds access or undefined shift in key generation, signing and verification", "statement": "With buffers of the documented sizes, none of the reads, writes and shifts performed by key generation, signing, verification and the hash code leaves its buffer or its defined range.", "quantifier": "every input content, every message length, every parameter set", "why_tests_cant": "Requires all index computations to be in range for all inputs.", "anchors": ["ref/sign.c", "ref/utils.c", "ref/utilsx1.c", "ref/wots.c", "ref/wotsx1.c", "ref/fors.c", "ref/hash_sha2.c", "ref/sha2.c", "ref/fips202.c"]}
{"id": "C40", "title": "Advertised sizes are the true sizes for all parameter sets", "statement": "crypto_sign_bytes, crypto_sign_publickeybytes, crypto_sign_secretkeybytes and crypto_sign_seedbytes return 7856/17088/16224/35664/29792/49856, 2n, 4n and 3n for the 128s/128f/192s/192f/256s/256f sets of each hash, and equal the lengths actually produced.", "quantifier": "all 18 parameter files", "why_tests_cant": "The link between the reported and the produced length is a theorem about all runs.", "anchors": ["ref/sign.c:crypto_sign_bytes", "ref/params", "README.md"]}
{"id": "C41", "title": "Shipped parameters satisfy every assumption of the code", "statement": "All 18 parameter files satisfy the #error checks and the unchecked assumptions (checksum length formula, byte-sized layer, chain and height fields, index ranges below 2^32, 64-bit tree index, shift amounts below 31).", "quantifier": "all parameter files and, for the checksum length table, every n from 1 to 256", "why_tests_cant": "The unchecked assumptions are invisible to tests unless violated on the tested path.", "anchors": ["ref/params", "ref/address.c:set_tree_addr"]}
{"id": "C42", "title": "The tweakable hash may be computed in place", "statement": "thash with any overlap of its n-byte output with its input returns the same bytes as with disjoint buffers, as gen_chain, compute_root, treehash and the FORS leaf code require.", "quantifier": "every input, every placement of out relative to in", "why_tests_cant": "Aliasing placements are unbounded and depend on N and block counts.", "anchors": ["ref/thash_sha2_simple.c", "ref/wots.c:gen_chain", "ref/utils.c:compute_root", "ref/fors.c:fors_gen_leafx1"]}
{"id": "C43", "title": "The two- and four-state Keccak permutations are Keccak-f[1600] on every state", "statement": "f1600x2 of shake-a64 (NEON SHA-3 instructions) and KeccakP1600times4_PermuteAll_24rounds of shake-avx2 (AVX2) apply exactly Keccak-f[1600] to each of the interleaved states, with no influence between the states.", "quantifier": "all 2^3200 (2^6400) contents of the states", "why_tests_cant": "Known-answer tests run the lanes on equal or a few inputs; a wrong rotation or register in one lane can hide behind particular values and the state space is beyond enumeration.", "anchors": ["shake-a64/f1600x2.s", "shake-avx2/keccak4x/KeccakP-1600-times4-SIMD256.c"]}
{"id": "C44", "title": "The multi-lane SHAKE256 functions are SHAKE256 in every lane", "statement": "shake256x2 and shake256x4 write to each output buffer exactly the requested number of bytes of SHAKE256 of that lane's input, for any input and output length, reading and writing nothing else.", "quantifier": "all lane inputs, all input and output lengths", "why_tests_cant": "Lengths and contents are unbounded; block-boundary errors appear only at particular lengths that the library itself rarely uses.", "anchors": ["shake-a64/fips202x2.c", "shake-avx2/fips202x4.c"]}
{"id": "C45", "title": "The multi-lane SHAKE hash functions equal the one-way functions lane by lane", "statement": "prf_addrx2/prf_addrx4 and thashx2/thashx4 (simple and robust, including the hand-built state for one and two blocks and the general case) return in every lane what the one-way prf_addr and thash return for that lane's input and address; thash of shake-a64 equals the reference thash.", "quantifier": "all SHAKE parameter sets, all contexts, inputs, addresses, block counts, contents of uninitialised memory", "why_tests_cant": "A state that is filled with one word too few, or that is not cleared, gives right results for most inputs or memory contents.", "anchors": ["shake-a64/thash_shake_simplex2.c", "shake-a64/thash_shake_robustx2.c", "shake-a64/hash_shakex2.c", "shake-avx2/thash_shake_simplex4.c", "shake-avx2/thash_shake_robustx4.c", "shake-avx2/hash_shakex4.c"]}
{"id": "C46", "title": "The shake-a64 and shake-avx2 libraries behave exactly as the reference library", "statement": "Key generation, signing, verification, crypto_sign and crypto_sign_open of the two optimised SHAKE libraries give the same keys, signatures, verdicts and memory contents as the reference library, from their actual hash code down to the vector instructions.", "quantifier": "all SHAKE parameter sets, seeds, keys, messages below 2^60 bytes, signatures, memory layouts, contents of uninitialised memory", "why_tests_cant": "Interoperability tests compare a handful of key pairs and messages.", "anchors": ["shake-a64", "shake-avx2"]}
{"id": "C47", "title": "The AES-NI Haraka permutations are Haraka, one-way and four-way", "statement": "haraka512_perm, haraka512 and haraka256 of haraka-aesni, built from aesenc, unpack and xor instructions, compute the Haraka v2 functions with the round constants of the context; haraka512_perm_x4, haraka512x4 and haraka256x4 compute them on each of the four blocks of the input independently.", "quantifier": "all inputs, all 640-byte round constants", "why_tests_cant": "The input space has 2^512 points per lane and the constants vary with the key; crossing two lanes or columns shows up only for inputs that differ there.", "anchors": ["haraka-aesni/haraka.c"]}
{"id": "C48", "title": "The AES-NI Haraka-S sponge and constant handling are the specified ones", "statement": "haraka_S and haraka_Sx4 write exactly the requested number of bytes of Haraka-S of each input; the incremental interface gives the same stream for every cut of input and output; load_haraka_constants loads the published constants and tweak_constants derives the round constants from the public seed, changing nothing else.", "quantifier": "all inputs, input and output lengths, cuts, public seeds, contents of uninitialised memory", "why_tests_cant": "Lengths and cuts are unbounded; the library uses only a few of them.", "anchors": ["haraka-aesni/haraka.c"]}
{"id": "C49", "title": "The haraka-aesni library behaves exactly as the reference library", "statement": "prf_addrx4 and thashx4 of haraka-aesni (simple and robust, one block, two blocks, general) return in every lane what the reference functions return for that lane, and key generation, signing, verification, crypto_sign and crypto_sign_open give the same keys, signatures, verdicts and memory contents as the reference library, down to the instructions used.", "quantifier": "all Haraka parameter sets, seeds, keys, messages, signatures, memory layouts, contents of uninitialised memory", "why_tests_cant": "Interoperability tests compare a handful of key pairs and messages.", "anchors": ["haraka-aesni", "haraka-aesni/thash_haraka_robustx4.c", "haraka-aesni/thash_haraka_simplex4.c", "haraka-aesni/hash_harakax4.c"]}
{"id": "C50", "title": "The AVX2 SHA-256 and SHA-512 functions are SHA-256 and SHA-512 in every lane", "statement": "sha256_transform8x and sha512_transform4x compute in every lane the block function of FIPS 180-4 of that lane's state and block. sha256x8 and the four-way SHA-512 return the digest of each lane's input; sha256x8_seeded and sha512x4_seeded return the digest of the bytes already absorbed by the portable incremental code followed by the lane's input. For the four-way SHA-512 the input is below 2^32 bytes; from there on its loop does not terminate.", "quantifier": "all states, blocks, inputs, input lengths (below 2^61 bytes, four-way SHA-512 below 2^32), all previously absorbed blocks, contents of uninitialised memory", "why_tests_cant": "The state space is beyond enumeration, a wrong shuffle or register shows only for inputs that differ between lanes, and padding errors only at particular lengths; the length at which the counter wraps is too large to test.", "anchors": ["sha2-avx2/sha256avx.c", "sha2-avx2/sha256x8.c", "sha2-avx2/sha512x4.c"]}
{"id": "C51", "title": "The multi-lane MGF1 functions are MGF1 in every lane", "statement": "mgf1x8 and mgf1x4_512 fill the output buffer with the MGF1-SHA-256 or MGF1-SHA-512 masks of the lanes, one after the other, for every mask and seed length, writing nothing else.", "quantifier": "all seeds, seed lengths, output lengths, contents of uninitialised memory", "why_tests_cant": "Lengths are unbounded; errors in the last partial block or in the stride of the lanes appear only for particular lengths.", "anchors": ["sha2-avx2/sha256x8.c", "sha2-avx2/sha512x4.c"]}
{"id": "C52", "title": "The sha2-avx2 library behaves exactly as the reference library", "statement": "prf_addrx8 and thashx8 of sha2-avx2 (simple and robust, with SHA-256 and with SHA-512) return in every lane what the reference functions return for that lane, and key generation, signing, verification, crypto_sign and crypto_sign_open give the same keys, signatures, verdicts and memory contents as the reference library, down to the instructions used.", "quantifier": "all SHA-2 parameter sets, seeds, keys, messages, signatures, memory layouts, contents of uninitialised memory", "why_tests_cant": "Interoperability tests compare a handful of key pairs and messages.", "anchors": ["sha2-avx2", "sha2-avx2/hash_sha2x8.c", "sha2-avx2/thash_sha2_simplex8.c", "sha2-avx2/thash_sha2_robustx8.c"]}
{"id": "C53", "title": "The parallel tweakable hashes may be computed in place", "statement": "thashx2 of shake-a64, thashx4 of shake-avx2 and haraka-aesni and thashx8 of sha2-avx2 write to every output that no later lane overwrites the tweakable hash of the bytes that were at the input of that lane when the function was called, wherever outputs and inputs overlap, and change no byte outside the outputs; when several lanes share one output the last lane's hash remains. In particular the tree code may hash the nodes of stack and current buffer into the current buffer, and thash of shake-a64 may be called in place.", "quantifier": "all parameter sets, addresses, input contents, block counts, placements of the outputs and inputs in memory, contents of uninitialised memory", "why_tests_cant": "Tests run the few pointer patterns of the callers; a write of one lane before the read of another shows only for particular overlaps.", "anchors": ["shake-a64/thash_shake_simplex2.c", "shake-avx2/thash_shake_robustx4.c", "haraka-aesni/thash_haraka_simplex4.c", "sha2-avx2/thash_sha2_robustx8.c", "shake-avx2/utilsx4.c", "shake-avx2/wots.c"]}
{"id": "C54", "title": "The multi-lane SHAKE128 computes SHAKE128 in every lane", "statement": "shake128x2 of shake-a64 and shake128x4 of shake-avx2 write to each of their two or four output buffers the first outlen bytes of SHAKE128 (FIPS 202) of the inlen bytes of the input of that lane, write nothing behind them and read nothing outside the inputs, whatever the uninitialised state and block buffers contained.", "quantifier": "all inputs, input and output lengths, buffer contents, contents of uninitialised memory", "why_tests_cant": "No test of the repository calls these functions.", "anchors": ["shake-a64/fips202x2.c", "shake-avx2/fips202x4.c"]}
{"id": "C55", "title": "The fields of the known-answer files are written and read back correctly", "statement": "FindMarker reads a file exactly to the end of the first occurrence of the marker (of its first 49 characters) and otherwise reports failure with the file read to the end; ReadHex stores the hexadecimal field behind the marker big-endian in the array, keeping the last digits that fit and writing nothing behind it; what fprintBstr writes, ReadHex reads back, and what %d and %llu print, fscanf reads back.", "quantifier": "all file contents, markers, labels, array lengths, array contents, byte strings, numbers", "why_tests_cant": "The generator only ever reads files of the one shape it writes itself; overlapping partial matches, long markers and other files are never exercised.", "anchors": ["ref/PQCgenKAT_sign.c"]}
{"id": "C56", "title": "The known-answer program writes exactly the known-answer files of the scheme", "statement": "PQCgenKAT_sign, linked with the reference library or any of the optimised libraries, creates the request file with 100 seeds and messages from CTR_DRBG seeded with 00..2f and the response file with the key pairs and signed messages the SPHINCS+ specification gives for the randomness CTR_DRBG produces from each seed, in the NIST format, changes no other file and returns 0 without undefined behaviour; when a file cannot be opened it returns -1 and the files are as far as written.", "quantifier": "all parameter sets and libraries, block ciphers, previous file contents, placements of arrays and heap objects, contents of uninitialised memory", "why_tests_cant": "A test compares one run with recorded files, which come from the same program.", "anchors": ["ref/PQCgenKAT_sign.c", "ref/rng.c", "ref/sign.c"]}
{"id": "C57", "title": "The test programs report success exactly when they should", "statement": "thashx4 of shake-avx2 and thashx8 of sha2-avx2 (test programs) return 0 on every run. The test program spx returns 0 exactly if the scheme rejects the message with its last bit flipped under the signature with its first 32 bytes overwritten by the message (its in-place check has overwritten them), with the reference library and with every optimised library. The test program thashx2 of shake-a64 writes behind its input array on every run; on an array of the right size its comparison succeeds.", "quantifier": "all parameter sets of the families concerned, all bytes the random generator may deliver, contents of uninitialised memory, placements of the objects", "why_tests_cant": "A test program is run on one sample of randomness; whether it can fail on correct code, or checks what it says, is not seen from its passing.", "anchors": ["shake-avx2/test/thashx4.c", "sha2-avx2/test/thashx8.c", "shake-a64/test/thashx2.c", "ref/test/spx.c"]}
{"id": "C58", "title": "The hash functions access memory and branch independently of their inputs", "statement": "initialize_hash_function, prf_addr, thash (simple and robust), gen_message_random and hash_message of the SHA-2, SHAKE and Haraka reference code make the same sequence of memory accesses (offset and length), form the same pointers, take the same branches and run their loops equally often for any two inputs of the same lengths. In particular no table is indexed by a secret.", "quantifier": "all parameter sets (also hypothetical ones), seeds, keys, randomness, addresses, inputs and messages of equal length, contents of uninitialised memory", "why_tests_cant": "A measurement compares the running time of a few inputs on one machine; a rare data-dependent branch or table index stays unnoticed.", "anchors": ["ref/haraka.c", "ref/hash_haraka.c", "ref/thash_haraka_robust.c", "ref/sha2.c", "ref/hash_sha2.c", "ref/thash_sha2_robust.c", "ref/fips202.c", "ref/hash_shake.c", "ref/thash_shake_robust.c"]}
{"id": "C59", "title": "Key generation accesses memory and branches independently of the seed", "statement": "crypto_sign_seed_keypair makes the same sequence of memory accesses, takes the same branches and runs its loops equally often for every seed, whatever the output buffers and uninitialised memory contained.", "quantifier": "all parameter sets, pairs of seeds, buffer contents, contents of uninitialised memory", "why_tests_cant": "Two seeds with different behaviour may exist among 2^384 although no measurement finds them.", "anchors": ["ref/sign.c", "ref/merkle.c", "ref/wotsx1.c", "ref/utilsx1.c"]}
{"id": "C60", "title": "FORS and Merkle signing depend on what they sign and on no secret", "statement": "The memory accesses, branches and loop counts of fors_sign are determined by the digest signed, those of merkle_sign by the value signed and the leaf index, and those of merkle_gen_root by nothing: seeds, addresses, buffers and uninitialised memory have no influence.", "quantifier": "all parameter sets, pairs of contexts with arbitrary seeds, addresses, buffer contents, contents of uninitialised memory", "why_tests_cant": "Absence of a dependence on a secret is a statement about all pairs of secrets.", "anchors": ["ref/fors.c", "ref/merkle.c", "ref/wotsx1.c", "ref/utilsx1.c", "ref/wots.c"]}
{"id": "C61", "title": "Whoever sees the signature learns nothing more from the memory accesses and branches of signing", "statement": "The sequence of memory accesses, branches and loop counts of crypto_sign_signature can be computed from the public key, the message and the signature it outputs, by an explicit program that is given nothing else; so two runs with the same public key, message and signature behave the same whatever the secret key and randomness.", "quantifier": "all parameter sets, secret keys, messages below 2^60 bytes, randomness, buffer contents, contents of uninitialised memory", "why_tests_cant": "It is a statement about all secret keys and about the existence of a simulator.", "anchors": ["ref/sign.c", "ref/fors.c", "ref/merkle.c", "ref/wotsx1.c"]}
{"id": "C62", "title": "Every forgery after any number of signatures breaks a stated property of the hash functions", "statement": "Let a key pair come from crypto_sign_seed_keypair and let Q be any finite collection of messages with signatures that crypto_sign_signature made for them under this key. If crypto_sign_verify accepts a signature for a message and this pair is not in Q, then the signature contains a second preimage of the tweakable hash at an address of the scheme, or the owner's value of a WOTS+ chain at a step before every step released by Q, or the owner's FORS secret value of a leaf not selected by Q, or its randomizer and message are not among those of Q but their digest selects a FORS key and leaves all of which are selected by digests of Q.", "quantifier": "all 36 parameter sets, seeds, query collections of any size, randomness, messages below 2^60 bytes, candidate signatures, contents of uninitialised memory", "why_tests_cant": "It is a statement about every possible forgery, none of which a test can produce.", "anchors": ["ref/sign.c", "ref/fors.c", "ref/wots.c", "ref/merkle.c"]}
{"id": "C63", "title": "FORS signing and verification agree on address buffers of any content; the FORS test program always returns 0", "statement": "For every content of the 32-byte address buffer, and not only for the addresses crypto_sign_signature makes, fors_sign succeeds and the signature it writes leads fors_pk_from_sig to the public key it wrote; the parallel fors_sign gives the same bytes. Consequently ref/test/fors.c returns 0 in each of the implementations, whatever bytes randombytes delivers.", "quantifier": "all parameter sets, initialised contexts, message digests, address buffers, contents of uninitialised memory, all implementations", "why_tests_cant": "The test program tries one random address and digest per run.", "anchors": ["ref/test/fors.c", "ref/fors.c", "shake-avx2/fors.c", "sha2-avx2/fors.c", "shake-a64/fors.c", "ref/address.c"]}
{"id": "C64", "title": "Memory accesses and branches of the vectorised hash functions do not depend on the data", "statement": "In shake-a64, shake-avx2, haraka-aesni and sha2-avx2 the sequence of memory accesses, branches and loop counts of initialize_hash_function, prf_addr, thash, gen_message_random, hash_message, prf_addrx2/x4/x8 and thashx2/x4/x8 is the same for all contents of keys, seeds, addresses and inputs of the same lengths.", "quantifier": "all four optimised implementations, parameter sets, contexts, addresses, inputs, contents of uninitialised memory", "why_tests_cant": "A test compares finitely many pairs of inputs; timing tests are statistical.", "anchors": ["shake-a64/thash_shake_simplex2.c", "shake-avx2/thash_shake_simplex4.c", "haraka-aesni/haraka.c", "sha2-avx2/sha256avx.c", "sha2-avx2/sha512x4.c"]}
{"id": "C65", "title": "Key generation of the optimised implementations behaves the same for all seeds", "statement": "The sequence of memory accesses, branches and loop counts of crypto_sign_seed_keypair with the parallel tree code is the same for all seeds and previous contents of the buffers.", "quantifier": "all four optimised implementations, parameter sets, pairs of seeds, buffer contents, contents of uninitialised memory", "why_tests_cant": "It is a statement about all pairs of seeds.", "anchors": ["shake-a64/merkle.c", "shake-avx2/merkle.c", "sha2-avx2/wots.c", "haraka-aesni/merkle.c", "ref/sign.c"]}
{"id": "C66", "title": "The parallel FORS and Merkle tree code reveals only what it signs", "statement": "The sequence of memory accesses, branches and loop counts of the parallel fors_sign depends only on the digest signed, that of the parallel merkle_sign only on the value signed and the leaf index, and that of merkle_gen_root on nothing, for all contexts and addresses.", "quantifier": "all four optimised implementations, parameter sets, contexts, addresses, digests, indices, buffer contents", "why_tests_cant": "It is a statement about all pairs of secret seeds.", "anchors": ["shake-avx2/fors.c", "shake-avx2/merkle.c", "shake-avx2/utilsx4.c", "sha2-avx2/utilsx8.c", "shake-a64/utilsx2.c"]}
{"id": "C67", "title": "Whoever sees the signature learns nothing more from the memory accesses and branches of the optimised signing code", "statement": "The sequence of memory accesses, branches and loop counts of crypto_sign_signature in each optimised implementation can be computed from the public key, the message and the signature, by an explicit program that is given nothing else; so two runs with the same public key, message and signature behave the same whatever the secret key and randomness.", "quantifier": "all four optimised implementations, parameter sets of their hash family, secret keys, messages below 2^60 bytes, randomness, buffer contents, contents of uninitialised memory", "why_tests_cant": "It is a statement about all secret keys and about the existence of a simulator.", "anchors": ["ref/sign.c", "shake-a64/fors.c", "shake-avx2/merkle.c", "haraka-aesni/wots.c", "sha2-avx2/wots.c"]}
{"id": "C68", "title": "The benchmark prints numbers with a comma before every third digit", "statement": "printfcomma(n) prints the decimal digits of n with a comma before every group of three digits counted from the right and nowhere else, and no comma in front; there is exactly one such text.", "quantifier": "all n", "why_tests_cant": "There are 2^64 numbers.", "anchors": ["ref/test/benchmark.c"]}
{"id": "C69", "title": "The benchmark aligns its numbers", "statement": "printfalignedcomma(n, len) prints the text of printfcomma padded with blanks on the left to len + 2 columns, without overflow; with len = 12 every number below 10^11 takes up 14 columns and any number at most 26.", "quantifier": "all 64-bit n, all len for which the counters do not overflow", "why_tests_cant": "It covers all numbers and widths.", "anchors": ["ref/test/benchmark.c"]}
{"id": "C70", "title": "The benchmark shows the median of the cycles measured", "statement": "median returns a median of its array if no two values add up to more than 2^64 (and wraps around otherwise); delta computes the differences of consecutive readings; MEASURE prints a median of the cycles spent in the ten calls; MEASURT prints a value that is within one cycle per call on either side of at least four of the nine reliable samples, because its last sample is not divided by the number of repetitions.", "quantifier": "all arrays, all readings of a counter that does not run backwards, all standard-conforming qsort", "why_tests_cant": "The statement is about all sequences of readings.", "anchors": ["ref/test/benchmark.c"]}
{"id": "C71", "title": "The factors printed by the benchmark are the numbers of WOTS+ key generations", "statement": "In ref, shake-a64, shake-avx2 and sha2-avx2 the factor times the number of public keys generated per measured call is the number of leaves of the top tree resp. of all trees on the path; in haraka-aesni it is four times that.", "quantifier": "all shipped parameter sets", "why_tests_cant": "A test would check one parameter set.", "anchors": ["ref/test/benchmark.c", "shake-avx2/test/benchmark.c", "haraka-aesni/test/benchmark.c", "sha2-avx2/test/benchmark.c", "shake-a64/test/benchmark.c"]}
{"id": "C72", "title": "The benchmark programs run without undefined behaviour and print what they measure", "statement": "main of the benchmark of ref and of the four optimised implementations runs without out-of-bounds access or overflow whatever is in the uninitialised context, blocks and address, returns 0, prints the parameters, one row with the median per measurement and the sizes, and leaves the key pair of the last seed, a signed message which was opened successfully, and the message.", "quantifier": "all shipped parameter sets, contents of uninitialised memory, layouts, randomness, readings of the counter", "why_tests_cant": "The program itself never looks at the results of the calls it measures.", "anchors": ["ref/test/benchmark.c", "shake-avx2/test/benchmark.c", "haraka-aesni/test/benchmark.c", "sha2-avx2/test/benchmark.c", "shake-a64/test/benchmark.c"]}
{"id": "C73", "title": "Key generation and signing call each hash function a fixed number of times", "statement": "For every function of the hash library, crypto_sign_seed_keypair calls it exactly as often as it takes to compute the topmost subtree, and crypto_sign_signature exactly as often as it takes to compute all FORS trees and one subtree per layer; the numbers do not depend on keys, messages or randomness.", "quantifier": "all shipped parameter sets, seeds, keys, messages, randomness, buffers, uninitialised memory, hash functions", "why_tests_cant": "A test measures some runs; extra or missing calls for particular leaves or digests change only the time.", "anchors": ["ref/sign.c:crypto_sign_signature", "ref/utilsx1.c:treehashx1", "ref/wotsx1.c:wots_gen_leafx1", "ref/fors.c:fors_sign", "ref/merkle.c"]}
{"id": "C74", "title": "Verification makes exactly the calls the signature asks for", "statement": "crypto_sign_verify calls the tweakable hash as often as the specification takes to follow the signature: one leaf and one authentication path per FORS tree, and on each layer the rest of the chains, their compression and the authentication path. It is at most k + d len (w-1) calls on one block, no function which needs a secret is called, and a signature of a wrong length is refused without a call.", "quantifier": "all shipped parameter sets, messages, public keys and signatures, valid or not", "why_tests_cant": "The worst case over all signatures cannot be found by trying some.", "anchors": ["ref/sign.c:crypto_sign_verify", "ref/wots.c:wots_pk_from_sig", "ref/fors.c:fors_pk_from_sig", "ref/utils.c:compute_root"]}
{"id": "C75", "title": "The optimised implementations call the vectorised hash functions a fixed number of times", "statement": "Key generation and signing in shake-a64, shake-avx2, haraka-aesni and sha2-avx2 compute each tree with one call of the vectorised functions for all lanes and finish the last levels one call per level; the numbers of calls do not depend on keys, messages or randomness.", "quantifier": "all shipped parameter sets of the family, the four implementations, seeds, keys, messages, randomness, buffers", "why_tests_cant": "As for C73.", "anchors": ["shake-avx2/utilsx4.c:treehashx4", "sha2-avx2/utilsx8.c:treehashx8", "shake-a64/utilsx2.c:treehashx2", "haraka-aesni/utilsx4.c:treehashx4"]}
{"id": "C76", "title": "The optimised verification completes the chains in groups, longest first", "statement": "crypto_sign_verify of the optimised implementations sorts the WOTS+ chains of a layer by what is left of them and completes 2^lg at a time; it calls the vectorised hash as often as the longest chain of each group needs, and the other functions as often as the reference implementation does. A signature of a wrong length is refused without a call.", "quantifier": "all shipped parameter sets of the family, the four implementations, messages, public keys and signatures, valid or not", "why_tests_cant": "A grouping by a wrong order gives the same public key and costs only time.", "anchors": ["shake-avx2/wots.c:gen_chains", "sha2-avx2/wots.c:gen_chains", "shake-a64/wots.c:gen_chains", "haraka-aesni/wots.c:gen_chains"]}
{"id": "C77", "title": "One signature accepted for two messages shows a collision", "statement": "If crypto_sign_verify accepts, under one public key, two signatures that agree after R for messages m and m', then two of the tweakable hash calls it makes collide (different address or input, same length, same output), or a WOTS+ chain returns to the value in the signature, or the two digests select the same FORS key and leaves. The public key may be any string, also one not made by key generation.", "quantifier": "all shipped parameter sets, public keys, messages below 2^60 bytes, signatures, contents of uninitialised memory", "why_tests_cant": "Nobody can produce the two signatures for a test, and the key may be chosen with malice.", "anchors": ["ref/sign.c:crypto_sign_verify", "ref/fors.c:fors_pk_from_sig", "ref/wots.c:wots_pk_from_sig", "ref/utils.c:compute_root"]}
{"id": "C78", "title": "Exactly how many compression functions and permutations the operations compute", "statement": "Every function of the hash library computes exactly as many SHA-256 or SHA-512 compressions, Keccak permutations or Haraka permutations as the padding of its input, HMAC, MGF1 and the length of its output require (FIPS 180-4, FIPS 202, section 7.2 of the submission), whatever the bytes are. Key generation computes exactly those of one subtree, signing those of FORS and d subtrees, so the number depends on the parameter set and the length of the message only, and verification those of the authentication paths and the rests of the chains, never more than when all chains run from end to end.", "quantifier": "all shipped parameter sets, seeds, keys, messages below 2^60 bytes, signatures valid or not, contents of uninitialised memory, and each primitive", "why_tests_cant": "A count read off from some runs does not say that no input takes one more block; an extra or missing block at some message length would show in no test of the result.", "anchors": ["ref/sha2.c:crypto_hashblocks_sha256", "ref/sha2.c:sha256_inc_finalize", "ref/sha2.c:mgf1_256", "ref/fips202.c:keccak_inc_absorb", "ref/fips202.c:shake256", "ref/haraka.c:haraka_S", "ref/haraka.c:haraka_S_inc_absorb", "ref/hash_sha2.c:gen_message_random", "ref/hash_sha2.c:hash_message", "ref/sign.c:crypto_sign_signature"]}
{"id": "C79", "title": "Exactly how many vectorised compressions and permutations the optimised implementations compute", "statement": "In shake-a64, shake-avx2, haraka-aesni and sha2-avx2 every function of the hash library, for one lane and for several, computes exactly the stated number of scalar and of vectorised compressions or permutations, whatever the bytes are; so do key generation and signing, whose numbers depend on the parameter set and the length of the message only, and verification, never more than when all chains run from end to end. Where the robust thashx8 of sha2-avx2 uses SHA-256, it computes one hash more than MGF1 needs if and only if the length of the mask is a multiple of 32.", "quantifier": "the four optimised implementations, all shipped parameter sets of their family, seeds, keys, messages below 2^60 bytes, signatures valid or not, contents of uninitialised memory, and each primitive", "why_tests_cant": "The tests of the optimised code compare results with the reference code only; a superfluous call of a primitive never shows, and the one of mgf1x8 went unnoticed.", "anchors": ["sha2-avx2/sha256x8.c:mgf1x8", "sha2-avx2/sha512x4.c:mgf1x4_512", "sha2-avx2/thash_sha2_robustx8.c:thashx8", "sha2-avx2/hash_sha2x8.c:prf_addrx8", "shake-avx2/fips202x4.c:shake256x4", "shake-a64/fips202x2.c:shake256x2", "haraka-aesni/haraka.c:haraka_Sx4", "haraka-aesni/thash_haraka_robustx4.c:thashx4", "sha2-avx2/wots.c:wots_pk_from_sig"]}
{"id": "C80", "title": "Every FORS key and every combination of leaves is selected equally often", "statement": "Among all strings of the length of the message digest, every choice of a tree, a leaf and k FORS leaf indices in range is selected by exactly the same number of strings, so for a uniform digest the selections are uniform and independent; and hash_message together with message_to_indices computes this selection of the specified digest.", "quantifier": "all parameters; for the code all 36 parameter sets, randomizers, keys, messages below 2^60 bytes", "why_tests_cant": "A bias of the index derivation, such as a reused or dropped bit, does not make any signature invalid and would need astronomically many samples to show.", "anchors": ["ref/hash_sha2.c:hash_message", "ref/hash_shake.c:hash_message", "ref/hash_haraka.c:hash_message", "ref/fors.c:message_to_indices", "ref/utils.c:bytes_to_ull"]}
{"id": "C81", "title": "The bit security stated in README.md bounds the chance of a covered digest", "statement": "Let up to 2^64 signatures and t attempts have independent uniform digests. The probability that one of the attempts selects a FORS key and only leaves of it that were opened by the signatures, the last outcome of C62, is at most t / 2^b, where b is the column 'bit security' of the table in README.md: 133, 128, 193, 194, 255 and 255 for 128s, 128f, 192s, 192f, 256s and 256f. As long as no FORS key has been used twice, q signatures cover exactly q of the 2^(ak+h) selections.", "quantifier": "all 36 parameter sets, all numbers of signatures up to 2^64, all numbers of attempts; a general bound for all parameters and numbers of signatures", "why_tests_cant": "The probabilities are far below anything that can be sampled; the claim of the documentation is a statement about the parameters as a whole.", "anchors": ["README.md", "ref/params", "ref/fors.c:message_to_indices", "ref/hash_sha2.c:hash_message"]}
{"id": "C82", "title": "Adaptive attackers hit a covered digest with the documented probability", "statement": "Let the message hash be a uniformly random function and the randomisers of signatures uniformly random. An attacker who may know everything else, asks for up to q <= 2^64 signatures of messages of its choice and computes up to t digests, in any order and depending on all answers, ends with a pair of randomiser and message that was not signed but whose digest selects one FORS key and only leaves of it opened by the signatures, with probability at most t / 2^b if t <= 2^(8n-6), and at most t / 2^b (1 + t / 2^(8n))^k for any t, b being the bit security of README.md. This event contains the last outcome of C62 for a forgery. A general bound holds for all parameters.", "quantifier": "all 36 parameter sets, all adaptive attackers, all finite sets of messages, all q <= 2^64, all t; the general bound for all parameters, q and t", "why_tests_cant": "The statement is about all strategies and about probabilities far below anything that can be sampled.", "anchors": ["README.md", "ref/params", "ref/fors.c:message_to_indices", "ref/hash_sha2.c:hash_message", "ref/sign.c:crypto_sign_signature"]}
{"id": "C83", "title": "A forger breaks one of the other hash functions or is bounded by the bit security", "statement": "For arbitrary other hash functions and any key, with a random function as message hash and random randomisers: the probability that an adaptive forger, after at most q <= 2^64 signatures and t <= 2^(8n-6) digests, ends with an accepted message and signature that it was not given, is at most the probability that it does so and shows a second preimage or a secret value not contained in the signatures, plus t / 2^b, b being the bit security of README.md; for any t the last term is t / 2^b (1 + t / 2^(8n))^k. Key generation, signing and verification of the library, with hash_message and gen_message_random replaced by these ideal functions, are exactly the functions of this game.", "quantifier": "all 36 parameter sets, all forgers, all keys, all tweakable hash functions and pseudorandom functions of the right output length, all q <= 2^64, all t; for the code all messages below 2^60 bytes", "why_tests_cant": "No test can try all forgers, and the probabilities cannot be sampled.", "anchors": ["ref/sign.c:crypto_sign_seed_keypair", "ref/sign.c:crypto_sign_signature", "ref/sign.c:crypto_sign_verify", "ref/hash_sha2.c:hash_message", "ref/hash_sha2.c:gen_message_random", "README.md"]}
{"id": "C84", "title": "With random hash functions a forger succeeds only with the probability allowed by n and the bit security", "statement": "If tweakable hash, pseudorandom function and message hash are random functions and the randomisers are random, then any adaptive forger who is given the public key, asks for at most q <= 2^64 signatures, computes at most t <= 2^(8n-6) digests and computes the tweakable hash at most u times, ends with an accepted message and signature that it was not given with probability at most t / 2^b + 2 (u + v) / 2^(8n). Here b is the bit security of README.md and v the largest number of calls of the tweakable hash in a verification; for any t the first term is t / 2^b (1 + t / 2^(8n))^k. Key generation, signing and verification of the library, with thash, prf_addr, hash_message and gen_message_random replaced by such functions, thash and prf_addr depending on the bytes of the address, are exactly the functions of this game.", "quantifier": "all 36 parameter sets, all forgers, all seeds, all q <= 2^64, all t and u; for the code all messages below 2^60 bytes and all functions", "why_tests_cant": "No test can try all forgers, and probabilities as small as 2^-128 cannot be sampled.", "anchors": ["ref/sign.c:crypto_sign_seed_keypair", "ref/sign.c:crypto_sign_signature", "ref/sign.c:crypto_sign_verify", "ref/thash_sha2_simple.c:thash", "ref/hash_sha2.c:prf_addr", "ref/hash_sha2.c:hash_message", "ref/hash_sha2.c:gen_message_random", "ref/address.c", "README.md"]}
{"id": "C85", "title": "The bound for forgers holds for any choice of the optional randomness", "statement": "If all four hash functions are random functions, the one for randomisers a function of optional randomness and message that the forger cannot compute itself, then any adaptive forger who is given the public key, asks for at most q <= 2^64 signatures of messages and with optional randomness of its choice (also always the same), computes at most t <= 2^(8n-6) digests and computes the tweakable hash at most u times, ends with an accepted message and signature that it was not given with probability at most t / 2^b + 2 (u + v) / 2^(8n), with b and v as in C84; for any t the first term is t / 2^b (1 + t / 2^(8n))^k. Key generation, signing with any optrand and verification of the library, with its hash functions replaced by such functions, are exactly the functions of this game.", "quantifier": "all 36 parameter sets, all forgers, all seeds, all q <= 2^64, all t and u; for the code all messages below 2^60 bytes, all optrand and all functions", "why_tests_cant": "No test can try all forgers and all ways to choose optrand, and probabilities as small as 2^-128 cannot be sampled.", "anchors": ["ref/sign.c:crypto_sign_seed_keypair", "ref/sign.c:crypto_sign_signature", "ref/sign.c:crypto_sign_verify", "ref/hash_sha2.c:gen_message_random", "ref/hash_sha2.c:hash_message", "README.md"]}
{"id": "C86", "title": "vectors.py accepts exactly the implementations whose response files have the listed sums", "statement": "For every instance and every implementation that supports it, the Makefile compiles exactly the files of that instance. Without arguments vectors.py writes one line for each of the 36 instances with the SHA-256 sum of the response file that the competition defines for it, sorted. With the name of an instance and an implementation it ends with status 0 if the sum of that response file is listed for this name in SHA256SUMS and with status 2 otherwise; a sum listed for another instance, or a part of a line, is never accepted. Every implementation is accepted against the sums generated from the reference code. For other names the status is 1. The file SHA256SUMS has exactly one well-formed line for each instance.", "quantifier": "all 36 instances, all five implementations, all block ciphers, all files of sums, all names, all compilers that turn the needed files into the program, all addresses and uninitialised memory of that program", "why_tests_cant": "Running the script shows one outcome; that it rejects every wrong sum, and reads the file that belongs to the instance, is a statement about all contents of SHA256SUMS and all programs.", "anchors": ["vectors.py", "SHA256SUMS", "ref/Makefile", "haraka-aesni/Makefile", "sha2-avx2/Makefile", "shake-a64/Makefile", "shake-avx2/Makefile", "ref/PQCgenKAT_sign.c:main"]}
{"id": "C87", "title": "Attacking many keys at once helps a forger no more than the sum of the single bounds", "statement": "If the hash functions of each of finitely many owners are independent random functions, then any adaptive forger who is given all public keys, asks each owner i for at most q_i <= 2^64 signatures of messages and with optional randomness of its choice, and for the key of i computes at most t_i <= 2^(8n-6) digests and the tweakable hash at most u_i times, ends with an owner, a message and an accepted signature that it was not given for them with probability at most the sum over all i of t_i / 2^b + 2 (u_i + v) / 2^(8n), with b and v as in C84. With the same limits for N keys this is N times the bound for one key.", "quantifier": "all 36 parameter sets, all finite numbers of keys, all forgers, all seeds, all limits with q_i <= 2^64", "why_tests_cant": "No test can try all forgers and all numbers of keys, and probabilities as small as 2^-128 cannot be sampled.", "anchors": ["ref/sign.c:crypto_sign_seed_keypair", "ref/sign.c:crypto_sign_signature", "ref/sign.c:crypto_sign_verify", "ref/context.h", "README.md"]}
{"id": "C88", "title": "Timing behaviour of crypto_sign_keypair and crypto_sign as a whole, with their random bytes, hides all secrets", "statement": "For the reference implementation and the four optimised ones: which memory randombytes, crypto_sign_keypair and crypto_sign access and which branches they take depends on the answers of the operating system only through which calls fail and how many bytes the others deliver, never on the bytes. Two runs of crypto_sign_keypair on answers that look alike have the same trace. Two runs of crypto_sign on answers that look alike, with the same public key, message and outcome, have the same trace, whatever the secret seeds and the randomness are. This holds also when reads fail or the call is still waiting. When the random bytes are delivered, the functions give the key pair and the signed message that the scheme prescribes for them.", "quantifier": "all 36 parameter sets (optimised: those of the implementation), all histories of open and read, all keys, messages shorter than 2^60 bytes, all contents of buffers and uninitialised memory", "why_tests_cant": "Tests measure single runs; equality of all accesses and branches for all secrets and all behaviours of the operating system is a statement about pairs of runs.", "anchors": ["ref/randombytes.c:randombytes", "ref/sign.c:crypto_sign_keypair", "ref/sign.c:crypto_sign_signature", "ref/sign.c:crypto_sign"]}
{"id": "C89", "title": "The number of attacked keys does not weaken the hash functions: one common limit for all keys", "statement": "In the setting of C87, let the tweakable hash be computed at most u times for all keys together, where the forger decides during the attack for which keys. Then it forges for any of the keys with probability at most the sum over all i of t_i / 2^b, plus 2 (u + v) / 2^(8n). The second term does not depend on the number of keys, and the calls v of a verification count once. Limits for each key as in C87 are a common limit, so C87 follows with a better bound.", "quantifier": "all 36 parameter sets, all finite numbers of keys, all forgers, all seeds, all limits with q_i <= 2^64", "why_tests_cant": "No test can try all forgers and all numbers of keys, and probabilities as small as 2^-128 cannot be sampled.", "anchors": ["ref/sign.c:crypto_sign_seed_keypair", "ref/sign.c:crypto_sign_signature", "ref/sign.c:crypto_sign_verify", "ref/context.h", "README.md"]}
{"id": "C90", "title": "One set of hash functions for all keys: forgers who also guess secret seeds", "statement": "Let the tweakable hash and the message hash be random functions that depend on the public seed, the pseudorandom function one that depends on public and secret seed, and PRFmsg one that depends on its key. They are common to all N owners, whose seeds are random. A forger is given all public keys, asks owner i for at most q_i <= 2^64 signatures with messages and optional randomness of its choice, and computes all functions with seeds of its choice: at most t digests for each public seed, the tweakable hash at most u times, the pseudorandom function at most g times and PRFmsg at most g' times. It forges for any of the keys with probability at most N t / 2^b + (2 (u + v) + g + N g' + 2 N^2) / 2^(8n). The library with these functions is the scheme of the game for every seed.", "quantifier": "all 36 parameter sets, all finite numbers of keys, all forgers, all limits with q_i <= 2^64", "why_tests_cant": "No test can try all forgers, functions and seeds, and probabilities as small as 2^-128 cannot be sampled.", "anchors": ["ref/sign.c:crypto_sign_seed_keypair", "ref/sign.c:crypto_sign_signature", "ref/sign.c:crypto_sign_verify", "ref/context.h", "ref/hash.h", "ref/thash.h", "README.md"]}
{"id": "C91", "title": "The workflows and benchmark.py", "statement": "The 72 jobs of the four workflows test each implementation except shake-a64 with each instance it is for, one job per pair. From any state of the directories a job runs only programs that were built for its instance, in order, stops at the first failure, and passes exactly if all programs compile, all tests return 0 and vectors.py returns 0. It changes no other directory. If the compiler is right and the tests return 0, all jobs pass exactly if SHA256SUMS lists the sum of the specified response file for every instance. benchmark.py announces each of the 72 pairs once and then runs the program built for this pair, never a stale one.", "quantifier": "all initial contents of the directories, all compilers and test results, all jobs", "why_tests_cant": "A run of the workflows starts from one checkout with one compiler; it does not show what happens if programs for another instance are there, or if any of the commands fails.", "anchors": [".github/workflows/test-ref.yml", ".github/workflows/test-haraka-aesni.yml", ".github/workflows/test-sha2-avx2.yml", ".github/workflows/test-shake-avx2.yml", "benchmark.py", "vectors.py:check_sum", "ref/Makefile", "haraka-aesni/Makefile", "sha2-avx2/Makefile", "shake-avx2/Makefile", "SHA256SUMS"]}
