{
 "claims": [
  {
   "property": "C01",
   "status": "proved",
   "theorems": [
    "Spx.C01_honest_signature_verifies",
    "Spx.C01_honest_signature_verifies_mem"
   ],
   "note": "All 18 parameter files, both thash variants; messages below 2^60 bytes (the length counters of the hash code are bounded)."
  },
  {
   "property": "C02",
   "status": "proved",
   "theorems": [
    "Spx.C02_sign_open_round_trip"
   ],
   "note": "The buffer of the opened message may overlap anything."
  },
  {
   "property": "C03",
   "status": "proved",
   "theorems": [
    "Spx.C03_signature_length_and_extent",
    "Spx.C03_writes_nothing_else"
   ],
   "note": ""
  },
  {
   "property": "C04",
   "status": "proved",
   "theorems": [
    "Spx.C04_wrong_length_rejected"
   ],
   "note": "The memory version holds with no memory allocated at all."
  },
  {
   "property": "C05",
   "status": "proved",
   "theorems": [
    "Spx.C05_short_open_fails_closed"
   ],
   "note": "Only m is allocated in the hypotheses, so sm and pk are provably not read."
  },
  {
   "property": "C06",
   "status": "proved",
   "theorems": [
    "Spx.C06_failed_open_releases_nothing"
   ],
   "note": ""
  },
  {
   "property": "C07",
   "status": "proved",
   "theorems": [
    "Spx.C07_open_iff_verify"
   ],
   "note": ""
  },
  {
   "property": "C08",
   "status": "proved",
   "theorems": [
    "Spx.C08_overlapping_open"
   ],
   "note": "Compares two memories with arbitrary placements."
  },
  {
   "property": "C09",
   "status": "proved",
   "theorems": [
    "Spx.C09_tolerated_overlap",
    "Spx.C09_in_place_at_start_broken"
   ],
   "note": "Positive theorem for every layout with the message off the signature area; negative theorem for m == sm, for every key."
  },
  {
   "property": "C10",
   "status": "proved",
   "theorems": [
    "Spx.C10_key_format"
   ],
   "note": "api.h describes the public key in the other order; the code order is what is proved."
  },
  {
   "property": "C11",
   "status": "proved",
   "theorems": [
    "Spx.C11_key_never_modified",
    "Spx.C11_stateless_signing"
   ],
   "note": "Histories of signature, verify, crypto_sign and crypto_sign_open calls with arbitrary overlaps except on the key."
  },
  {
   "property": "C12",
   "status": "proved",
   "theorems": [
    "Spx.C12_verify_total",
    "Spx.C12_verify_depends_only_on_bytes"
   ],
   "note": ""
  },
  {
   "property": "C13",
   "status": "proved",
   "theorems": [
    "Spx.C13_equals_specification"
   ],
   "note": "Spec/Sphincs.lean and the hash specifications are written independently of the model."
  },
  {
   "property": "C14",
   "status": "proved",
   "theorems": [
    "Spx.C14_treehashx1",
    "Spx.C14_no_path"
   ],
   "note": ""
  },
  {
   "property": "C15",
   "status": "proved",
   "theorems": [
    "Spx.C15_compute_root_inverts"
   ],
   "note": ""
  },
  {
   "property": "C16",
   "status": "partial",
   "theorems": [
    "Spx.C16_treehash_agrees_partial",
    "Spx.C16_treehash_overrun",
    "Spx.C16_treehash_behind"
   ],
   "note": "Proved for leaf_idx < 2^tree_height and for leaf_idx >= 2^(tree_height+1). For every other leaf_idx (leaf_idx >> tree_height == 1) and every height the property is false, and what happens there is proved too: the legacy function writes the root one node past the authentication path. With a path buffer shorter than (tree_height+1)*n it goes out of bounds while treehashx1 succeeds (C16_treehash_overrun); with a longer one the roots agree and exactly those n bytes differ (C16_treehash_behind)."
  },
  {
   "property": "C17",
   "status": "proved",
   "theorems": [
    "Spx.C17_chain_lengths"
   ],
   "note": ""
  },
  {
   "property": "C18",
   "status": "proved",
   "theorems": [
    "Spx.C18_checksum_protects"
   ],
   "note": ""
  },
  {
   "property": "C19",
   "status": "proved",
   "theorems": [
    "Spx.C19_fors_indices",
    "Spx.C19_fors_indices_injective"
   ],
   "note": ""
  },
  {
   "property": "C20",
   "status": "proved",
   "theorems": [
    "Spx.C20_index_ranges"
   ],
   "note": ""
  },
  {
   "property": "C21",
   "status": "proved",
   "theorems": [
    "Spx.C21_address_bytes_injective",
    "Spx.C21_setters",
    "Spx.C21_positions_separated",
    "Spx.C21_positions_are_used",
    "Spx.C21_code_uses_only_positions"
   ],
   "note": "Injectivity, setters as record updates, separation of all positions of the scheme, and: key generation, signing and verification are unchanged if the hash code is replaced at every other address, on other lengths and by kind, so the code makes no other hash call that matters."
  },
  {
   "property": "C22",
   "status": "proved",
   "theorems": [
    "Spx.C22_ull_roundtrip",
    "Spx.C22_bytes_roundtrip",
    "Spx.C22_ull_to_bytes_digits",
    "Spx.C22_u32_is_four_bytes",
    "Spx.C22_sha2_words",
    "Spx.C22_keccak_words",
    "Spx.C22_haraka_words",
    "Spx.C22_haraka_ranges"
   ],
   "note": "All lengths up to 8 for the integer codecs; all words for the hash helpers."
  },
  {
   "property": "C23",
   "status": "proved",
   "theorems": [
    "Spx.C23_sha256_incremental",
    "Spx.C23_sha256"
   ],
   "note": "Messages below 2^61 bytes (bit counter of the code); any split into whole-block updates."
  },
  {
   "property": "C24",
   "status": "proved",
   "theorems": [
    "Spx.C24_sha512_incremental",
    "Spx.C24_sha512"
   ],
   "note": "Messages below 2^61 bytes; any split into whole-block updates."
  },
  {
   "property": "C25",
   "status": "proved",
   "theorems": [
    "Spx.C25_mgf1_256",
    "Spx.C25_mgf1_512",
    "Spx.C25_mgf1_prefix",
    "Spx.C25_mgf1_stream"
   ],
   "note": "Output lengths up to 2^32 hash blocks, the range of the 32-bit counter."
  },
  {
   "property": "C26",
   "status": "proved",
   "theorems": [
    "Spx.C26_shake256_incremental",
    "Spx.C26_shake256"
   ],
   "note": "Any sequence of absorb and squeeze lengths."
  },
  {
   "property": "C27",
   "status": "proved",
   "theorems": [
    "Spx.C27_keccak_f1600"
   ],
   "note": "All states; equality of permutations, with known-answer example."
  },
  {
   "property": "C28",
   "status": "proved",
   "theorems": [
    "Spx.Haraka.C28_haraka_S_incremental",
    "Spx.Haraka.C28_haraka_S"
   ],
   "note": "Any sequence of absorb and squeeze lengths."
  },
  {
   "property": "C29",
   "status": "proved",
   "theorems": [
    "Spx.Haraka.C29_haraka512_perm",
    "Spx.Haraka.C29_haraka512",
    "Spx.Haraka.C29_haraka256",
    "Spx.Haraka.C29_standard_constants",
    "Spx.Haraka.C29_tweaked_constants"
   ],
   "note": "The bitsliced AES layer equals four AES rounds on every state; standard and tweaked constants; published test vectors evaluated in the kernel."
  },
  {
   "property": "C30",
   "status": "proved",
   "theorems": [
    "Spx.C30_thash",
    "Spx.C30_prf_addr",
    "Spx.C30_every_buffer",
    "Spx.C30_thash_sha2_simple",
    "Spx.C30_thash_sha2_robust",
    "Spx.C30_thash_shake_simple",
    "Spx.C30_thash_shake_robust",
    "Spx.C30_thash_haraka_simple",
    "Spx.C30_thash_haraka_robust",
    "Spx.C30_prf_addr_sha2",
    "Spx.C30_prf_addr_shake",
    "Spx.C30_prf_addr_haraka"
   ],
   "note": "Each hash family, simple and robust thash, and prf_addr, for every content of the 32-byte address buffer (not only addresses the code forms); the last ten bytes do not matter for SHA-2."
  },
  {
   "property": "C31",
   "status": "proved",
   "theorems": [
    "Spx.C31_gen_message_random",
    "Spx.C31_gen_message_random_sha2",
    "Spx.C31_gen_message_random_shake",
    "Spx.C31_gen_message_random_haraka"
   ],
   "note": "Messages below 2^60 bytes."
  },
  {
   "property": "C32",
   "status": "proved",
   "theorems": [
    "Spx.C32_hash_message",
    "Spx.C32_hash_message_sha2",
    "Spx.C32_hash_message_shake",
    "Spx.C32_hash_message_haraka"
   ],
   "note": "Messages below 2^60 bytes. The Haraka variant hashes R, root and message as the code does."
  },
  {
   "property": "C33",
   "status": "proved",
   "theorems": [
    "Spx.Randombytes.C33_fill",
    "Spx.Randombytes.C33_randombytes",
    "Spx.Randombytes.C33_open",
    "Spx.Randombytes.C33_failed_read",
    "Spx.Randombytes.C33_failed_read_out_of_bounds",
    "Spx.Randombytes.C33_failed_read_corrupts"
   ],
   "note": "Positive theorem for every sequence of non-negative read() results; the failed read of the code as written is proved to leave the buffer (C33_failed_read*), as the property says."
  },
  {
   "property": "C34",
   "status": "proved",
   "theorems": [
    "Spx.Rng.C34_refused",
    "Spx.Rng.C34_init_refused",
    "Spx.Rng.C34_history",
    "Spx.Rng.C34_cut_independent",
    "Spx.Rng.C34_counter_blocks_distinct"
   ],
   "note": "AES-ECB is an abstract 32-byte-key, 16-byte-block function; AES-256 is shown to be one."
  },
  {
   "property": "C35",
   "status": "proved",
   "theorems": [
    "Spx.Rng.C35_randombytes",
    "Spx.Rng.C35_randombytes_init",
    "Spx.Rng.C35_history"
   ],
   "note": "As C34. Requests below 2^31 bytes and call counter below 2^31: beyond these the int variables of the code overflow."
  },
  {
   "property": "C36",
   "status": "proved",
   "theorems": [
    "Spx.C36_scheme",
    "Spx.C36_accepted_signature",
    "Spx.C36_modified_signature",
    "Spx.C36_calls",
    "Spx.C36_modified_top_layer"
   ],
   "note": "The second preimage is a member of the explicit list of calls made by verification, proved complete. The hidden-value alternative cannot be dropped: whoever knows the secret key can re-sign a changed subtree root."
  },
  {
   "property": "C37",
   "status": "proved",
   "theorems": [
    "Spx.C37_one_value_per_key",
    "Spx.C37_same_key_same_bytes"
   ],
   "note": ""
  },
  {
   "property": "C38",
   "status": "proved",
   "theorems": [
    "Spx.C38_treehash_same",
    "Spx.C38_wots_leaf_same",
    "Spx.C38_wots_pk_from_sig_same",
    "Spx.C38_fors_leaf_same",
    "Spx.C38_merkle_sign_same",
    "Spx.C38_merkle_gen_root_same",
    "Spx.C38_fors_sign_same",
    "Spx.C38_keypair_same",
    "Spx.C38_signature_same",
    "Spx.C38_verify_same",
    "Spx.C38_crypto_sign_same",
    "Spx.C38_crypto_sign_open_same"
   ],
   "note": "One model with 2^lg lanes covers the 2-, 4- and 8-way copies. The lane hash functions enter as a hypothesis: each lane returns what the one-way function returns (LaneWise), for all contents of the other lanes. Uninitialised lanes are arbitrary."
  },
  {
   "property": "C39",
   "status": "proved",
   "theorems": [
    "Spx.C39_no_undefined_behaviour",
    "Spx.C39_no_undefined_behaviour_mem"
   ],
   "note": "Relative to the buffers of the model; every read, write and shift of the model is checked."
  },
  {
   "property": "C40",
   "status": "proved",
   "theorems": [
    "Spx.C40_advertised_sizes",
    "Spx.C40_sizes_are_true"
   ],
   "note": ""
  },
  {
   "property": "C41",
   "status": "proved",
   "theorems": [
    "Spx.C41_shipped_parameters_valid",
    "Spx.C41_len2_table"
   ],
   "note": ""
  },
  {
   "property": "C42",
   "status": "proved",
   "theorems": [
    "Spx.C42_thash_any_overlap",
    "Spx.C42_thash_overlap_irrelevant",
    "Spx.C42_gen_chain_in_place"
   ],
   "note": "Flat memory model of all six thash variants; every placement of out relative to in. Every address buffer content."
  },
  {
   "property": "C43",
   "status": "proved",
   "theorems": [
    "Spx.C43_f1600x2",
    "Spx.C43_f1600x4"
   ],
   "note": "Instruction semantics of the NEON SHA-3 and AVX2 intrinsics used are part of the model."
  },
  {
   "property": "C44",
   "status": "proved",
   "theorems": [
    "Spx.C44_shake256x2",
    "Spx.C44_shake256x4"
   ],
   "note": "All input and output lengths."
  },
  {
   "property": "C45",
   "status": "proved",
   "theorems": [
    "Spx.C45_a64_lanes",
    "Spx.C45_avx2_lanes",
    "Spx.C45_a64_thash"
   ],
   "note": "Discharges the LaneWise hypothesis of C38 for the SHAKE builds. The address buffers are arbitrary."
  },
  {
   "property": "C46",
   "status": "proved",
   "theorems": [
    "Spx.C46_a64_same",
    "Spx.C46_avx2_same"
   ],
   "note": "All 12 SHAKE parameter files and variants; no hypothesis on the lane functions is left."
  },
  {
   "property": "C47",
   "status": "proved",
   "theorems": [
    "Spx.C47_haraka512_perm",
    "Spx.C47_haraka512",
    "Spx.C47_haraka256",
    "Spx.C47_haraka512_perm_x4",
    "Spx.C47_haraka512x4",
    "Spx.C47_haraka256x4"
   ],
   "note": "All inputs and constants; the meaning of aesenc, unpacklo/hi, xor, load and store is given in Model/AesNi.lean."
  },
  {
   "property": "C48",
   "status": "proved",
   "theorems": [
    "Spx.C48_haraka_S",
    "Spx.C48_haraka_Sx4",
    "Spx.C48_haraka_S_incremental",
    "Spx.C48_tweak_constants",
    "Spx.C48_standard_constants"
   ],
   "note": "All lengths and cuts."
  },
  {
   "property": "C49",
   "status": "proved",
   "theorems": [
    "Spx.C49_aesni_lanes",
    "Spx.C49_aesni_same"
   ],
   "note": "All 12 Haraka parameter files and variants; no hypothesis on the lane functions is left. The address buffers are arbitrary."
  },
  {
   "property": "C50",
   "status": "proved",
   "theorems": [
    "Spx.C50_transform8x",
    "Spx.C50_transform4x",
    "Spx.C50_sha256x8",
    "Spx.C50_sha512x4",
    "Spx.C50_sha512x4_endless",
    "Spx.C50_sha256x8_seeded",
    "Spx.C50_sha512x4_seeded"
   ],
   "note": "All lanes and lengths; C50_sha512x4_endless shows that the bound on the four-way SHA-512 is sharp. The meaning of the AVX2 instructions is given in Model/Sha2X.lean."
  },
  {
   "property": "C51",
   "status": "proved",
   "theorems": [
    "Spx.C51_mgf1x8",
    "Spx.C51_mgf1x4_512"
   ],
   "note": "All lengths."
  },
  {
   "property": "C52",
   "status": "proved",
   "theorems": [
    "Spx.C52_avx2_lanes",
    "Spx.C52_avx2_same"
   ],
   "note": "All 12 SHA-2 parameter files and variants; no hypothesis on the lane functions is left. The address buffers are arbitrary."
  },
  {
   "property": "C53",
   "status": "proved",
   "theorems": [
    "Spx.C53_a64_thashx2",
    "Spx.C53_shake_avx2_thashx4",
    "Spx.C53_sha2_avx2_thashx8",
    "Spx.C53_aesni_thashx4",
    "Spx.C53_a64_thash",
    "Spx.C53_level_in_place"
   ],
   "note": "All four optimised libraries, simple and robust. The final memory is also shown to be what writing the hashes lane by lane gives when outputs coincide or are disjoint, which is how the callers in the list model use the results. The address buffers are arbitrary."
  },
  {
   "property": "C54",
   "status": "proved",
   "theorems": [
    "Spx.C54_shake128x2",
    "Spx.C54_shake128x4"
   ],
   "note": "SHAKE128 is the sponge at rate 168 over Keccak-f[1600]. Nothing in the repository calls the two functions; they are exported by the libraries."
  },
  {
   "property": "C55",
   "status": "proved",
   "theorems": [
    "Spx.C55_FindMarker",
    "Spx.C55_ReadHex",
    "Spx.C55_ReadHex_zero",
    "Spx.C55_roundtrip",
    "Spx.C55_decimal",
    "Spx.C55_decimal_u"
   ],
   "note": "Markers are strings without NUL. ReadHex for positive lengths; for length 0 it writes one byte (C55_ReadHex_zero), which the program never asks for."
  },
  {
   "property": "C56",
   "status": "proved",
   "theorems": [
    "Spx.C56_main",
    "Spx.C56_main_opt",
    "Spx.C56_same_files",
    "Spx.C56_open_fails"
   ],
   "note": "AES is any function from 32-byte keys and 16-byte blocks to 16-byte blocks. Files are contents by name, only fopen can fail, calloc succeeds. The arrays and heap objects do not overlap."
  },
  {
   "property": "C57",
   "status": "proved",
   "theorems": [
    "Spx.C57_thashx4",
    "Spx.C57_thashx8",
    "Spx.C57_thashx2_overruns",
    "Spx.C57_thashx2_comparison",
    "Spx.C57_spx",
    "Spx.C57_spx_opt"
   ],
   "note": "malloc succeeds and the objects of spx.c do not overlap; the printed lines are not modelled; SPX_TEST_INVALIDSIG is not defined. thashx2.c is proved to write out of bounds on every run. The benchmarks are C68-C72."
  },
  {
   "property": "C58",
   "status": "proved",
   "theorems": [
    "Spx.Leak.C58_same_programs",
    "Spx.Leak.C58_traces_tell_apart",
    "Spx.Leak.C58_traces_compose",
    "Spx.Leak.C58_trace_of_loop",
    "Spx.Leak.C58_initialize_trace",
    "Spx.Leak.C58_prf_addr_trace",
    "Spx.Leak.C58_thash_trace",
    "Spx.Leak.C58_gen_message_random_trace",
    "Spx.Leak.C58_hash_message_trace"
   ],
   "note": "About the source-level trace: offsets and lengths of memory accesses, pointers, branches, loop counts. Arithmetic and shifts (by public amounts) leave no trace; the compiler and instruction timing are not covered. Reference code; the optimised code is C64."
  },
  {
   "property": "C59",
   "status": "proved",
   "theorems": [
    "Spx.Leak.C59_keypair_trace"
   ],
   "note": "crypto_sign_keypair calls randombytes for the seed and is not included."
  },
  {
   "property": "C60",
   "status": "proved",
   "theorems": [
    "Spx.Leak.C60_fors_sign_trace",
    "Spx.Leak.C60_merkle_sign_trace",
    "Spx.Leak.C60_merkle_gen_root_trace"
   ],
   "note": "For the shipped parameter sets."
  },
  {
   "property": "C61",
   "status": "proved",
   "theorems": [
    "Spx.Leak.C61_sign_trace",
    "Spx.Leak.C61_same_signature_same_trace"
   ],
   "note": "The simulator is Model/Simulate.lean: the signing code run on a zero secret key, with R taken from the signature and the layer roots recomputed from it. crypto_sign adds a memmove and is not included."
  },
  {
   "property": "C62",
   "status": "proved",
   "theorems": [
    "Spx.C62_scheme",
    "Spx.C62_forgery",
    "Spx.C62_no_queries"
   ],
   "note": "Strong unforgeability in the form of an explicit extraction; no probabilities are modelled."
  },
  {
   "property": "C63",
   "status": "proved",
   "theorems": [
    "Spx.C63_any_address",
    "Spx.C63_parallel",
    "Spx.C63_fors",
    "Spx.C63_fors_opt"
   ],
   "note": "The lines printed are not modelled."
  },
  {
   "property": "C64",
   "status": "proved",
   "theorems": [
    "Spx.Leak.C64_same_programs",
    "Spx.Leak.C64_hash_trace",
    "Spx.Leak.C64_lanes_trace"
   ],
   "note": "As C58: source-level traces. Vector instructions on registers leave no trace, vector loads and stores do; accesses of the lanes are recorded lane after lane. shake-avx2 and sha2-avx2 use the one-way functions of the reference code."
  },
  {
   "property": "C65",
   "status": "proved",
   "theorems": [
    "Spx.Leak.C65_keypair_trace"
   ],
   "note": "For every shipped parameter set; crypto_sign_keypair calls randombytes for the seed and is not included."
  },
  {
   "property": "C66",
   "status": "proved",
   "theorems": [
    "Spx.Leak.C66_fors_sign_trace",
    "Spx.Leak.C66_merkle_sign_trace",
    "Spx.Leak.C66_merkle_gen_root_trace"
   ],
   "note": "For the shipped parameter sets."
  },
  {
   "property": "C67",
   "status": "proved",
   "theorems": [
    "Spx.Leak.C67_sign_trace",
    "Spx.Leak.C67_same_signature_same_trace"
   ],
   "note": "The simulator is the parallel signing code run on a zero secret key, with R taken from the signature and the layer roots recomputed from it."
  },
  {
   "property": "C68",
   "status": "proved",
   "theorems": [
    "Spx.C68_printfcomma"
   ],
   "note": "Uniqueness of the text is Spec.Bench.Grouped.unique."
  },
  {
   "property": "C69",
   "status": "proved",
   "theorems": [
    "Spx.C69_aligned",
    "Spx.C69_width"
   ],
   "note": "The bounds on len are those below which the counters do not overflow an int."
  },
  {
   "property": "C70",
   "status": "proved",
   "theorems": [
    "Spx.C70_median",
    "Spx.C70_median_wraps",
    "Spx.C70_delta",
    "Spx.C70_measure",
    "Spx.C70_measure1000",
    "Spx.C70_last_sample"
   ],
   "note": "qsort is any function with the behaviour the C standard requires. The property of MEASURT is weaker because its last reading is not divided (C70_last_sample)."
  },
  {
   "property": "C71",
   "status": "proved",
   "theorems": [
    "Spx.C71_factors",
    "Spx.C71_aesni"
   ],
   "note": "haraka-aesni keeps the factors of ref although it generates four keys per call, so it shows four times too many cycles (C71_aesni)."
  },
  {
   "property": "C72",
   "status": "proved",
   "theorems": [
    "Spx.C72_ref",
    "Spx.C72_avx",
    "Spx.C72_a64"
   ],
   "note": "malloc succeeds, the objects do not overlap, and what printf makes of a double is given text. Uninitialised unsigned char arrays hold arbitrary bytes."
  },
  {
   "property": "C73",
   "status": "proved",
   "theorems": [
    "Spx.C73_same_programs",
    "Spx.C73_keypair_calls",
    "Spx.C73_sign_calls"
   ],
   "note": "Calls are recorded by the trace semantics of Model/Leak*.lean with hash functions that record their call (Model/Count.lean)."
  },
  {
   "property": "C74",
   "status": "proved",
   "theorems": [
    "Spx.C74_verify_calls",
    "Spx.C74_wrong_length_no_calls",
    "Spx.C74_verify_bounds"
   ],
   "note": "The number of chain steps is that of Spec.verifyCost: it depends on the signature only through the values the chains start from."
  },
  {
   "property": "C75",
   "status": "proved",
   "theorems": [
    "Spx.C75_same_programs",
    "Spx.C75_keypair_calls",
    "Spx.C75_sign_calls"
   ],
   "note": "In calls, not lanes: one call of a vectorised function computes 2^lg results."
  },
  {
   "property": "C76",
   "status": "proved",
   "theorems": [
    "Spx.C76_verify_calls",
    "Spx.C76_verify_bounds",
    "Spx.C76_wrong_length_no_calls"
   ],
   "note": "The groups are those of the list sorted by mergeSort; C75_same_programs says that the counted programs compute what those of C46, C49 and C52 compute."
  },
  {
   "property": "C77",
   "status": "proved",
   "theorems": [
    "Spx.C77_scheme",
    "Spx.C77_two_messages"
   ],
   "note": "Outcomes in Spec/Bound.lean; an address counts as part of the hashed input. Also proved over any hash functions with n-byte outputs."
  },
  {
   "property": "C78",
   "status": "proved",
   "theorems": [
    "Spx.C78_hash_prims",
    "Spx.C78_keypair_prims",
    "Spx.C78_sign_prims",
    "Spx.C78_verify_prims",
    "Spx.C78_verify_bound"
   ],
   "note": "The primitives record their calls in the traces of Model/Leak*.lean; the expected numbers are those of Spec/Prims.lean, weighted with Spec/Cost.lean. Primitive call means one compression or permutation, not one round."
  },
  {
   "property": "C79",
   "status": "proved",
   "theorems": [
    "Spx.C79_lane_prims",
    "Spx.C79_hash_prims",
    "Spx.C79_keypair_prims",
    "Spx.C79_sign_prims",
    "Spx.C79_verify_prims",
    "Spx.C79_verify_bound",
    "Spx.C79_mgf_excess"
   ],
   "note": "A vectorised primitive counts once whatever its number of lanes; the expected numbers are those of Spec/Prims.lean, weighted with Spec/Cost.lean. Verification through C76 weighted likewise."
  },
  {
   "property": "C80",
   "status": "proved",
   "theorems": [
    "Spx.C80_uniform",
    "Spx.C80_code"
   ],
   "note": "Counts over byte strings of the digest length; the code is tied to the selection by C80_code."
  },
  {
   "property": "C81",
   "status": "proved",
   "theorems": [
    "Spx.C81_any_parameters",
    "Spx.C81_bit_security",
    "Spx.C81_fresh_keys",
    "Spx.C81_forgery"
   ],
   "note": "Probability expressed as a count over lists of digests. Uniformity and independence of digests is the model, not a theorem about Hmsg. C81_forgery connects the event with the last outcome of C62."
  },
  {
   "property": "C82",
   "status": "proved",
   "theorems": [
    "Spx.C82_any_parameters",
    "Spx.C82_bit_security",
    "Spx.C82_interactive",
    "Spx.C82_forgery"
   ],
   "note": "Random-oracle model for the message hash; the model is the assumption, the bound is proved. C82_forgery connects the event with the last outcome of C62."
  },
  {
   "property": "C83",
   "status": "proved",
   "theorems": [
    "Spx.C83_forger",
    "Spx.C83_any_forger",
    "Spx.C83_code"
   ],
   "note": "Random-oracle model for the message hash and uniform randomisers; the other hash functions are arbitrary. C83_code shows that the library code with those two functions replaced is the scheme of the game."
  },
  {
   "property": "C84",
   "status": "proved",
   "theorems": [
    "Spx.C84_random_oracle",
    "Spx.C84_any_number",
    "Spx.C84_code"
   ],
   "note": "Random-oracle model for all hash functions, single key, classical forgers. C84_code shows that the library code with these functions replaced is the scheme of the game."
  },
  {
   "property": "C85",
   "status": "proved",
   "theorems": [
    "Spx.C85_chosen_randomness",
    "Spx.C85_any_number",
    "Spx.C85_code"
   ],
   "note": "Random-oracle model for all hash functions including PRFmsg, single key, classical forgers who choose optrand. C85_code shows that the library code with these functions replaced is the scheme of the game."
  },
  {
   "property": "C86",
   "status": "proved",
   "theorems": [
    "Spx.Vectors.C86_instances",
    "Spx.Vectors.C86_makefiles",
    "Spx.Vectors.C86_generate",
    "Spx.Vectors.C86_check",
    "Spx.Vectors.C86_agree",
    "Spx.Vectors.C86_unknown",
    "Spx.Vectors.C86_sums_file",
    "Spx.Vectors.C86_shipped_file"
   ],
   "note": "The compiler and hashlib are assumptions on the surroundings (Right, shown to be satisfiable by world_right). That the sums in SHA256SUMS are those of the response files is not computed."
  },
  {
   "property": "C87",
   "status": "proved",
   "theorems": [
    "Spx.C87_many_keys",
    "Spx.C87_any_number",
    "Spx.C87_same_limits"
   ],
   "note": "Random-oracle model with independent functions for each owner. Limits are per key; adaptive division of a common budget costs the factor N (C87_same_limits)."
  },
  {
   "property": "C88",
   "status": "proved",
   "theorems": [
    "Spx.Leak.C88_same_program",
    "Spx.Leak.C88_randombytes_trace",
    "Spx.Leak.C88_random",
    "Spx.Leak.C88_keypair_result",
    "Spx.Leak.C88_keypair_result_opt",
    "Spx.Leak.C88_keypair_trace",
    "Spx.Leak.C88_keypair_trace_opt",
    "Spx.Leak.C88_sign_result",
    "Spx.Leak.C88_sign_result_opt",
    "Spx.Leak.C88_sign_trace",
    "Spx.Leak.C88_sign_trace_opt",
    "Spx.Leak.C88_sign_order"
   ],
   "note": "Traces as in C58-C67 (offsets, lengths, branches, iterations). The array that randombytes fills is in a memory of its own; all other buffers are separate objects. Closes the gap of C59/C61/C65/C67, which take the random bytes as an argument."
  },
  {
   "property": "C89",
   "status": "proved",
   "theorems": [
    "Spx.C89_shared_limit",
    "Spx.C89_any_number",
    "Spx.C89_sum_of_limits"
   ],
   "note": "Random-oracle model with independent functions for each owner, as in C87. The limits for signatures and digests are still per key: a forger can look which key has the most favourable signatures before it spends its digests."
  },
  {
   "property": "C90",
   "status": "proved",
   "theorems": [
    "Spx.C90_common_functions",
    "Spx.C90_any_number",
    "Spx.C90_code"
   ],
   "note": "Random-oracle model with functions common to all owners and random seeds. The message hash does not depend on the root. Digests are limited for each public seed, signatures for each owner. Domain separation between the functions is assumed by having four random functions."
  },
  {
   "property": "C91",
   "status": "proved",
   "theorems": [
    "Spx.Ci.C91_jobs",
    "Spx.Ci.C91_own_programs",
    "Spx.Ci.C91_all_pass",
    "Spx.Ci.C91_benchmark"
   ],
   "note": "The compiler and what the tests return are given (Tools). The fourth command of test-ref.yml gives no PARAMS, so it always compiles sphincs-haraka-128f (katConf); vectors.py compiles again, so nothing is checked with the wrong program. shake-a64 is neither tested nor measured by these scripts."
  }
 ]
}