# Formal model of SPHINCS+ (sphincs/sphincsplus, C reference code)

## What is here

* `properties.jsonl` – the properties, in terms of the API.
* `lean/Verif/Base*` – the small C execution monad and buffers.
* `lean/Verif/Model/*` – the C code, function by function, every definition with
  its file and line numbers in /repo.
* `lean/Verif/Spec/*` – independent specifications (SPHINCS+ as recursive
  mathematical functions, FIPS 180-4, FIPS 202, HMAC, MGF1, AES-round Haraka,
  addresses, byte codecs).  No Spec file imports a Model file.
* `lean/Verif/Proof/*` – helper lemmas.
* `lean/Verif/Props/*` – the property theorems and, next to each, an `example`
  or theorem showing that the hypotheses are satisfied by a concrete case.
* `MANIFEST.json` – property → theorem names and status.
* `seeded/LOG.jsonl` – what happened when the model was broken on purpose.

## Trusted base

* Lean 4.33.0 kernel.  No axioms of our own; every theorem depends at most on
  `propext`, `Classical.choice`, `Quot.sound` (checked by `#print axioms`).
  No `sorry`, `native_decide`, `bv_decide`.
* The hand translation of the C text into `Verif/Model`.
* The statements in `Verif/Props` and definitions in `Verif/Spec`.

## Validation of the specification

This is a test, not a proof.  It guards against a specification and a model
that agree with each other but not with SPHINCS+.  The definitions of
`Verif/Spec` (compiled, in a scratch copy, with C stand-ins for the SHA-2 hash,
SHAKE256, the Haraka permutations and sponge, the AES S-box and key expansion,
`toBE`, and a memoised WOTS public key, because the definitions are written for
proofs and far too slow) were run to produce the complete
`PQCsignKAT` response files of `Spec.Kat`; their SHA-256 hashes were compared
with the `SHA256SUMS` file of the repository, which comes from the C code.
Equal for: all eighteen `f` parameter sets (128f, 192f and 256f with sha2, shake
and haraka, simple and robust), all nine `s` parameter sets with simple, and
128s-robust with sha2 and shake; the other seven had not finished.

## How C is modelled

* A C function is a total Lean function into `C α = Except UB α`.  `UB` has
  separate outcomes for out-of-bounds access, undefined shift, signed overflow
  (only where the code keeps a length in an `int`), and running out of loop fuel.  Theorems of the form `f x = .ok y` therefore include memory
  safety (relative to the buffers of the model) and termination.
* `unsigned char` is `BitVec 8`; a buffer is a list of bytes.  Reading and
  writing is bounds-checked.  `uint32_t`/`uint64_t` used as indices are `Nat`
  with explicit reduction modulo 2^32/2^64 where the C code can wrap; words in
  hash primitives are `BitVec 32`/`BitVec 64`.
* `for` loops with a fixed bound are `forRange`; `for (;;)` loops and `while`
  loops use fuel, and running out of fuel is an error proved unreachable.
* Uninitialised locals have contents supplied by an arbitrary "garbage"
  argument `g`, and theorems hold for all of it.
* A pointer into the middle of a buffer (`sig += k`) is the rest of the buffer;
  the callee's result is spliced back.
* Function pointer callbacks (`gen_leaf`) are function arguments threading the
  `info` object.
* `randombytes` in signing is an explicit argument `optrand`; its own code is
  modelled separately (C33, C35).
* API functions with pointer arguments that may overlap (crypto_sign,
  crypto_sign_open, thash, thashx2/x4/x8) are additionally modelled over a flat memory
  `Nat → Option Byte`, where unallocated addresses are UB.
* Compile-time configuration: `Params` holds the six `#define`s of a params
  header plus hash family, thash variant and SPX_SHA512; the derived macros are
  functions of it.

### Traces

Model/Leak*.lean is the code of the reference implementation and of the four
optimised ones that touches secrets (hash functions, tree code, key generation, signing) once more, in a monad which
records every memory access (offset and length), every pointer formed, the
outcome of every branch and the number of iterations of every loop.  Erasing the
traces gives exactly the definitions of Model (C58_same_programs, C64_same_programs), so all other
theorems apply to it.  C58_traces_tell_apart, C58_traces_compose and C58_trace_of_loop
say that the traces do record offsets, lengths, conditions and loop counts.  The theorems C58-C61 (reference) and C64-C67 (optimised)
are about these traces.

* Arithmetic, comparisons whose result is only used as a value, and shifts leave
  no trace.  (All shift amounts in the code are public.)
* Events carry the offset in the buffer accessed, not the identity of the buffer;
  which buffer it is follows from the position in the program, which the
  trace fixes.
* `memcpy` and `memset` are one access each.  The arrays `q[8]` of the bit-sliced
  AES in haraka.c are accessed at constant positions and are unrolled.
* The traces are those of the C source.  What a compiler makes of it, instructions
  of varying duration and speculation are not covered.
* Vector instructions on registers leave no trace; vector loads and stores do.
  Where the model works lane after lane (`lanes`, `wrLanes`), the accesses are
  recorded lane after lane, also where the C code interleaves them.
* The compression functions and permutations also record their name when they are called (`prim`, Model/LeakBase.lean);
  C78 and C79 count these events.
* Verification is not included in the theorems about secrets: all its inputs are
  public.  Its trace (Model/LeakVerify.lean) is used to count calls (C74).

### Not modelled

* The compiler, integer promotion other than noted, data types' alignment,
  strict aliasing of `uint32_t addr[8]` accessed as bytes.
* The vector code of shake-a64, shake-avx2, haraka-aesni and sha2-avx2 is
  modelled; the meaning of the instructions used (EOR3, BCAX, RAX1, XAR, EOR,
  LD1R; _mm256_xor, and, andnot, or, add, slli, srli, shuffle_epi8, unpack,
  permute2x128, broadcast, set; _mm_aesenc, unpacklo/hi_epi32, xor, load, store)
  is given in Model/KeccakX.lean, Model/AesNi.lean and Model/Sha2X.lean and
  trusted.  OpenSSL's AES in rng.c is an uninterpreted function.
* Cryptographic hardness: unforgeability is represented by the combinatorial
  facts it rests on (C18, C21, C36, C37, C62, C77).  The probabilistic statements are C81, about uniform digests, C82 and C83, where
  the message hash is a random function and the randomisers are random, and C84, C85, C87, C89 and C90, where all hash functions are random
  functions.
* In the parallel code, `uint32_t addrx[L*8]` is a list of `L` addresses and an
  `L`-way hash call takes the lists of its inputs and returns the list of its
  outputs (see Model/Parallel.lean for the list of simplifications).
* Of the Makefiles the compiler flags, of the workflows the checkout, the Apple variant of cycles.c, test/haraka.c (see the findings).
* In the benchmarks, the text `printf` makes of a `double` and the readings of
  clock and cycle counter are given; reading an uninitialised `unsigned char`
  gives an arbitrary byte (Model/Bench.lean).
* In PQCgenKAT_sign.c, standard output and failures of file operations other
  than `fopen`.  A file system is a map from names to contents; `calloc`
  succeeds (the code does not check it); `printf` and `scanf` conversions follow
  the C standard (Model/Kat.lean).

## Property plan

| id | what is modelled and how it is proved |
|----|----|
| C01 | sign.c over an abstract hash interface; sign and verify are each proved equal to the recursive spec (C13), the spec satisfies sign→verify by induction over layers; instantiated for the concrete hash families |
| C02 | crypto_sign/crypto_sign_open over flat memory, from C01 and frame lemmas |
| C03 | result equation `out = spec signature ++ rest of buffer` with length lemma |
| C04 | unfolding the length check, for any memory |
| C05–C08 | crypto_sign_open over flat memory, memmove/memset semantics, all overlaps |
| C09 | crypto_sign over flat memory; positive theorem for disjoint signature area, negative witness for `m == sm` with a concrete hash |
| C10 | seed_keypair equation with arbitrary garbage; treehash invariant with leaf index 2^32-1 |
| C11 | corollary of C13 over histories of calls in flat memory |
| C12 | verify always `.ok`, equal to spec predicate |
| C13 | refinement, function by function (chains, WOTS leaf, treehash, FORS, hypertree) |
| C14–C16 | loop invariant "stack[h] is the left node at height h iff bit h of idx is set" |
| C17–C19, C22 | arithmetic on digits, induction |
| C18 | digit-sum argument |
| C20 | masks are `mod 2^k` |
| C21 | injectivity of the two encodings, setters as record updates; the three API functions are unchanged when the hash code is replaced outside the positions (Model/OnlyPositions) |
| C23–C25, C27 | word-level code equal to the standards' definitions, padding by case split on length mod block, induction over blocks |
| C26, C28 | sponge state invariant: state = absorb of all complete blocks plus partial block |
| C29 | bitslice correctness: linear layers by bit index, S-box circuit by lifting from a single-bit evaluation over all 256 bytes |
| C30–C32 | buffer layout equations composed with C23–C28; for C30 the address buffer is arbitrary and the address is what its bytes encode |
| C33 | randombytes loop with a list of read() results; positive theorem for non-error reads, negative witness for -1 |
| C34–C35 | state machine over abstract AES-ECB; stream position invariant |
| C36 | the calls made by verification and the owner's inputs are listed explicitly in Spec/Forge.lean; where the two evaluations meet there is a second preimage, by induction along chains, paths and layers |
| C37 | the signed value is a function of position: by construction of the spec and C13 |
| C38 | generic L-lane model (L = 2,4,8) of utilsxL.c, wots.c, merkle.c, fors.c; each function proved to compute the same specification value as the reference.  sign.c is modelled once over a record `TreeCode` of the four functions it calls, so the API theorems follow for every `TreeCode` satisfying `TreeCodeOK`.  The lane hash functions enter through the hypothesis `LaneWise` (each lane equals the one-way function) |
| C39 | no `.error` outcome: corollary of all `.ok` equations |
| C40–C41 | kernel evaluation over all 18 parameter files; LEN2 for all n ≤ 256 by arithmetic |
| C42 | flat-memory thash |
| C43 | the permutation code is translated mechanically from the text into straight-line Lean over registers; symbolic execution per round, then induction over rounds |
| C44 | absorb and squeeze loops over interleaved states against the sponge specification |
| C45 | hand-built first block equals the padded block of the message, word by word |
| C46 | C45 discharges the hypothesis of C38 (`LaneWise`), generic theorem `sameScheme` |
| C47 | one AESENC is one AES round; macros AES2, AES4, MIX2, MIX4 as functions on registers, lane by lane |
| C48 | one sponge model over a `k`-lane permutation, instantiated with k = 1 and 4 |
| C49 | as C45 and C46; the contexts of the two libraries differ only in how the constants are computed, so both are compared with the specification |
| C50 | byte swap and transposition by whole-table evaluation over lane and byte positions; the unrolled rounds as a list of operations generated from the text, symbolic lane-wise execution; absorbing and padding by case split on the length |
| C51 | as C25, for the interleaved counter and output buffers |
| C52 | buffer layout of the lanes composed with C50 and C51, then as C46 |
| C53 | flat-memory versions of the lane hashes; a successful run of the list version (C45, C49, C52) is followed step by step, with an invariant for the partially written outputs |
| C54 | the absorb and squeeze loops of C44 at rate 168 |
| C55 | invariants for the sliding window and for the shifted array of `ReadHex`; the spec is the first occurrence of a substring and the value of a digit string |
| C56 | the request loop by induction over records with the generator state of C35; each record is found behind the end of the previous one (C55) and its crypto calls give what C01, C02 and C46, C49, C52 say, over flat memory with the heap objects of the record |
| C57 | the comparisons of the thash tests by C45 and C52 on arbitrary address buffers; spx.c step by step over flat memory with the two cases of `crypto_sign_open` |
| C58 | two runs of the same program related by equal traces and equal lengths (Proof/LeakBase), through all three hash families |
| C59 | the same relation through `merkle_gen_root`; no leaf is signed, so the mask makes the chain comparison fail whatever the digits are |
| C60 | the same relation; equal digests give equal FORS indices and equal roots equal chain lengths by the functional theorems about them |
| C61 | the run is related to the run of Model/Simulate, which has no secrets; the roots are equal because verification of an honest signature recomputes them (the lemmas of C01) |
| C62 | from C36 (what an accepted signature shows) and C37 (every WOTS+ key signs one value): the owner's digit is the one every signature of Q shows, and the owner's bytes contain the FORS secret values; a pair with R and message of Q and the owner's bytes is that signature of Q |
| C63 | the bytes before the tree field reach only the hash functions: the run on any buffer is step by step the run on the buffer with these bytes zero, with hash functions that put them in, and these again implement a tuple of functions, so that the FORS lemmas behind C01 apply |
| C64 | the relation of C58 through the AES-NI, NEON and AVX2 hash functions; the number of blocks absorbed depends on lengths only |
| C65 | as C59, through the parallel tree code |
| C66 | as C60; the lane holding the leaf to sign is chosen by the index, which is public |
| C67 | as C61; the simulator runs the parallel tree code on zero secrets |
| C68 | induction over n / 1000; the spec fixes digits and positions of commas, and is shown to determine the text |
| C69 | the number of digits as the invariant of the while loop |
| C70 | the spec of a median counts the values on either side; qsort is any sorting function allowed by the C standard |
| C71 | table over the shipped parameter sets |
| C72 | the six measurements as steps over flat memory with the invariants "there is a key pair", "there is a signed message", "it has been opened"; C45, C46, C49, C52 for the calls measured |
| C73 | the programs of Model/Leak*.lean with hash functions that record their calls; a weakest-precondition calculus for "ends normally with so many calls"; the inner nodes of a tree are counted by the trailing ones of the leaf index |
| C74 | the same for verification (Model/LeakVerify.lean), with the loop invariant of C13, which says where the chains of each layer start |
| C75 | the same for the parallel tree code, with a count of 2^(h - lg) - 1 + lg calls for the inner nodes |
| C76 | the trace of gen_chains (Model/LeakVerifyX.lean); the lane watched has the fewest steps left of those not complete; a sorted permutation is unique |
| C77 | two climbs with one path meet only in a collision or in the same leaf, two chains from one value only in a collision or where the first returns to that value; down the layers the tree and leaf indices of the two messages agree (Proof/Bound.lean). For a malicious key the signature of a message is not unique, as the owner can sign two roots with one WOTS+ key; only the message is bound |
| C78 | the proofs of C73 and C74 hold for any hash functions whose functions contain a fixed number of the calls counted (`HashCost`, Proof/CountTree.lean); the numbers of the three families by invariants of the sponge and block loops (Proof/CountShake.lean, CountSha2.lean, CountHaraka.lean). In the incremental functions the position kept in the state fixes the number of permutations |
| C79 | as C78, with the functions on several lanes (Proof/CountShakeX.lean, CountAesNi.lean, CountSha2X.lean); one event `keccakx`, `haraka512x`, `haraka256x`, `sha256x`, `sha512x` per call of the vectorised primitive, whatever the number of lanes. `C79_mgf_excess` states by how much sha2-avx2 exceeds the reference numbers |
| C80 | digests ≃ selection × unused bits: the map is injective (digits and quotients determine a number) and both sides have the same cardinality (Proof/Selection.lean) |
| C81 | union bound over the functions from the `k` trees to the `q` signatures; a function with `j` values contributes `2^-(ak + hj)`; the sum over all functions by recursion on `k` (`Cov.Φ`, Proof/Coverage.lean), evaluated by the kernel for the six shapes of parameters. The randomness is that of the digests only: they are assumed uniform and independent, which is the usual model of `Hmsg`, not proved of it |
| C82 | the attacker is a tree of hashing, signing and forging; the random function is sampled lazily (`Rom.over`). The potential (`Rom.potential`, Proof/Sharp.lean) is the expected number of ways to cover one of the digests, written as a coefficient of a product of polynomials with one variable per FORS tree (Proof/Cone.lean): signed pairs have weight 1, pairs hashed but not signed the probability `q / N` that they will be signed, so randomisers that the attacker has guessed need no separate term. Every move of the attacker decreases it (`Rom.G_sharp`). For uniform digests the polynomials are explicit (Proof/SharpCover.lean) and the coefficient is at most `coverings` (Proof/SharpCount.lean), evaluated by the kernel at `2^64 (1 + 1/64)` signatures for the shipped sets. Idealisation: `Hmsg` for the one public key is a uniform random function of randomiser and message, and the randomisers are uniform (the code computes them with `PRFmsg`) |
| C83 | the forger is turned into an attacker of C82 (`Game.toAttacker`, Proof/Game.lean): a signature is a function of randomiser, digest and message once the other hash functions and the seed are fixed. An accepted forgery is analysed with C62. `C83_code` instantiates the generic correctness theorems of the code with the two ideal functions |
| C84 | for fixed tweakable hash, a forgery shows a covered digest (C82) or a call of the tweakable hash that is a second preimage of the owner's value or has an unreleased value as input (Proof/Breach.lean). For fixed message hash and randomisers, the values of the owner at all positions (WOTS+ chains, trees, FORS) are uniform and independent, and the rest of the random function is uniform and independent of them (`Rom.resample`, Proof/Resample.lean; the graph of positions in Proof/Values.lean). The forger becomes an attacker who is told the values that signatures contain or allow to compute, and asks for the rest (Proof/Seek.lean); each question finds a collision or an untold value with probability at most `2 / 2^(8n)` (`Rom.find_bound`). The calls of the final verification are counted as questions, since each is determined by the answers before it (Proof/Checked.lean). Idealisation: tweakable hash and pseudorandom function, for the one public seed and secret seed, are independent uniform functions of address and input (the forger cannot evaluate the pseudorandom function), the message hash as in C82; single key, classical computations. `C84_code` as `C83_code`, with `thash` and `prf_addr` functions of the address bytes |
| C85 | a forger who chooses the optional randomness becomes one of C84 that remembers the signatures it was given and asks once for each pair of optional randomness and message (`Chosen.plain`); as the values of a random function at new points are new random values, both succeed with the same probability (`chosen_chance`). Idealisation as in C84, and `PRFmsg`, for the one secret key, is an independent uniform function of optional randomness and message that the forger cannot evaluate. `C85_code` as `C84_code` |
| C86 | the loops of the script are reduced to one statement about 36 combinations (`Proof/VectorsScript`); what the program writes is C56, for the optimised implementations through C46, C49, C52; the lists of sources and the names are finite tables (`decide +kernel`); a search for a line finds exactly the lines of the file, since a sum has 64 characters and names have no blanks (`findstring_line`). Assumed about the surroundings (`Right`): hashlib computes SHA-256, and from the files named by a separate list per implementation (`needed`) the compiler makes the program of C56. That the listed sums are those of the response files is not proved: this would be 3600 signatures computed in the kernel |
| C87 | for each owner the forger becomes one of C85 that plays all other owners itself (`Many.only`, `only_run`); the chances are added (`Many.many_bound`). Idealisation as in C85, with independent functions for each owner, since public and secret seeds, which differ, are inputs of all hash functions. The limits are for each key; a forger who divides its computations among the keys only while it runs is covered by giving each key all of them (`C87_same_limits`) |
| C88 | the traced `randombytes` runs in lock step on answers that look alike (`low_fill`); its call splits the trace of `crypto_sign_signature` in two (`sign_split`). The part before has a constant trace (`low_sign_begin`), the part after is what remains of the trace of C61 and C67 (`low_crypto_sign`). Spec/Answers.lean says what looking alike means |
| C89 | the attacker who looks for values plays against the functions of all owners at once (`seekAll`, `startAll`), so that a single limit counts; the verification is carried out for the one owner of the forgery (`checkedAll`). Covered digests are bounded for each owner with `Many.only` and C82 (`coveredMany_bound`). A common limit for digests would not give the same bound: the forger may first compare the signatures of all owners, then attack the key whose signatures cover most |
| C90 | key generation, signing and verification use the functions only with the seeds of the key (Proof/KeyCongr.lean); if all public seeds and all keys of `PRFmsg` are different, the functions of the owners are independent (`resamples_patch`); a forger who makes the other computations itself is one of C89 (`reduce`); it differs from the real one only if it uses a secret seed, which is independent of its run (`run_unless`, `guess_pair`, `guess_any`) |
| C91 | Model/Ci.lean: the rules of the Makefiles for tests and benchmarks with the programs that are in the directories, the jobs of the workflows, benchmark.py. Proof/CiJobs.lean. All pairs of implementation and instance but those of shake-a64 are tested and measured, each once, with programs built for them, from any state of the directories; when a job passes. Finding: one command of test-ref.yml lacks PARAMS and compiles sphincs-haraka-128f in all 36 jobs; harmless, since vectors.py starts with `make clean`. |

## Disagreements between documentation/intent and code

* `randombytes` (ref/randombytes.c:34-41): the result of `read` is stored in an
  unsigned variable, so the retry test `i < 1` catches 0 but not -1; after a
  failed read the pointer moves back by one and the count grows by one (C33).
* `crypto_sign` with `m == sm`: the message is overwritten by R before it is
  hashed for the second time (C09).
* `api.h` documents pk as `[root || PUB_SEED]`; the code produces
  `[PUB_SEED || root]` (C10).
* The legacy `treehash` (ref/utils.c:105-154) compares `leaf_idx >> heights` with
  siblings up to the root, so for `leaf_idx >> tree_height == 1` it writes one
  node past the authentication path, at every height: out of bounds if the buffer
  ends there (C16_treehash_overrun), over the next n bytes otherwise
  (C16_treehash_behind).  `treehashx1` checks for the root first and is not affected.
* `seedexpander` refuses a request equal to the remaining length, so the last
  byte of the declared maximum is never delivered (C34, as the code has it).
* The generator in rng.c keeps the output position in an `int`; a request of
  2^31 bytes or more overflows it.  The model makes this the outcome `overflow`
  and C35 is stated below that bound.
* C50: `_sha512x4` (sha2-avx2/sha512x4.c:282) counts bytes in an `unsigned int`
  while its length is an `unsigned long long`.  For inputs of 2^32 bytes or more
  the loop never ends (`C50_sha512x4_endless`).  The library only calls it with
  short inputs (C52), so the theorems about it carry the bound.
* C57: shake-a64/test/thashx2.c fills `4*SPX_N` bytes into an array of `2*SPX_N`.
* ref/test/haraka.c calls `haraka_S`, `haraka512` and so on without the `ctx` argument which ref/haraka.h requires, so it
  does not compile; it is not among the TESTS of the Makefile.
* ref/test/spx.c opens the signed message in place (line 80), which overwrites
  the first 32 bytes of the signature; the check that a flipped message bit
  invalidates the signature (line 91) then runs on a destroyed signature and
  would pass even if the message were ignored.
* `mgf1x8` (sha2-avx2/sha256x8.c:178-194) hashes once more after the last whole block even if the mask is complete, and
  then copies zero bytes.  The result is right (C52), but with n = 32 and the robust construction `thashx8` on one block
  takes five compressions instead of three (C79_mgf_excess).
* The benchmarks (C68-C72): `median` adds the two middle values in 64 bits and
  wraps if the sum is 2^64 or more (C70_median_wraps).  MEASURT divides every
  reading of the counter by 1000 except the last, so the tenth sample is the
  reading itself minus a thousandth of it (C70_last_sample); the median is then
  only approximately that of the cycles per call.  haraka-aesni multiplies the
  cycles for four WOTS+ keys by the number of leaves instead of a quarter of it
  (C71_aesni).  `printfalignedcomma` pads to two columns more than asked for.
  The context passed to `thash`, `wots_gen_leafx1` and `fors_sign` is never
  initialised.

## Further assumptions of the memory model

* The length objects `siglen`, `smlen`, `mlen` are separate from the buffers.
* Messages are shorter than 2^60 bytes (C01 and its relatives).
