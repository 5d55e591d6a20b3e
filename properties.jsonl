{"id": "C01", "title": "Sign/verify round trip", "statement": "For every supported parameter set, if ts_gen_key succeeds, then for every message, the bytes produced by ts_init_sign followed by any sequence of ts_sign calls that drains the signature are accepted: feeding those bytes to ts_init_verify/ts_update_verify with the public key, in any chunking, makes ts_verify return 1.", "quantifier": "every parameter set and build configuration supporting it, every key-generation randomness, every signing randomness (or none, or a failing RNG), every message, every chunking on the signing side and on the verifying side, every prior content of the contexts", "why_tests_cant": "keys, messages, randomness and chunkings are unbounded; the regression test tries one key, one message and a handful of chunk sizes per set", "anchors": ["key_gen.c:ts_gen_key", "tiny_sphincs.c:ts_init_sign", "tiny_sphincs.c:ts_sign", "verify.c:ts_init_verify", "verify.c:ts_update_verify", "verify.c:ts_verify"]}
{"id": "C02", "title": "Signature bytes are the SPHINCS+ signature", "statement": "The concatenation of the bytes returned by ts_sign equals, byte for byte, the signature that the (NIST draft / FIPS 205 style) SPHINCS+ signing algorithm defines for the private key, the message and opt_rand.", "quantifier": "every supported parameter set/config, private key, message, opt_rand, chunking", "why_tests_cant": "the test vectors fix one key, message and opt_rand per parameter set", "anchors": ["tiny_sphincs.c:ts_init_sign", "tiny_sphincs.c:ts_sign", "tiny_sphincs.c:ts_merkle_path", "tiny_sphincs.c:ts_wots_leaf"]}
{"id": "C03", "title": "Signing is chunk-size independent", "statement": "ts_sign is a cursor over one fixed byte string: for any sequence of requested sizes m1, m2, ... (including 0 and sizes larger than what is left) the i-th call returns exactly the next min(mi, remaining) bytes, so any two request sequences yield the same stream.", "quantifier": "every list of request sizes, after ts_init_sign with any arguments", "why_tests_cant": "there are unboundedly many request sequences", "anchors": ["tiny_sphincs.c:ts_sign"]}
{"id": "C04", "title": "Exact signature length", "statement": "The total number of bytes ts_sign ever delivers after one ts_init_sign is exactly ts_size_signature(ps); every later call returns 0 and writes nothing.", "quantifier": "every supported parameter set, key, message, randomness, request sequence", "why_tests_cant": "only a few request sequences are tested", "anchors": ["size.c:ts_size_signature", "tiny_sphincs.c:ts_sign"]}
{"id": "C05", "title": "Verifier accepts exactly the SPHINCS+-valid signatures", "statement": "After ts_init_verify(message, ps, public_key) and any sequence of ts_update_verify calls, ts_verify returns 1 if and only if the concatenation of the bytes fed has length ts_size_signature(ps) and the SPHINCS+ verification algorithm accepts it for that public key and message.", "quantifier": "every public key (honest or not), message, byte string fed, chunking", "why_tests_cant": "byte strings and chunkings are unbounded; soundness ranges over all invalid inputs", "anchors": ["verify.c:ts_update_verify", "verify.c:ts_verify", "verify.c:next_auth_path"]}
{"id": "C06", "title": "Verification is chunk-size independent", "statement": "The result of ts_verify depends only on the concatenation of the bytes fed to ts_update_verify, not on how they were split into calls (empty calls included).", "quantifier": "every two chunkings of the same byte string", "why_tests_cant": "exponentially many chunkings", "anchors": ["verify.c:ts_update_verify", "verify.c:ts_verify"]}
{"id": "C07", "title": "Truncated and over-long signatures are rejected", "statement": "If the number of bytes fed differs from ts_size_signature(ps) - too few, or any number of extra bytes, in the same or in later calls - ts_verify returns 0.", "quantifier": "every byte string of the wrong length, every chunking, every key and message", "why_tests_cant": "the test tries length-1 and length+1 in a single call", "anchors": ["verify.c:ts_update_verify", "verify.c:ts_verify"]}
{"id": "C08", "title": "Ignoring intermediate failures is safe", "statement": "Once a ts_update_verify call has returned 0, every later ts_update_verify on that context returns 0 and ts_verify returns 0, whatever is fed afterwards, until the context is re-initialised.", "quantifier": "every history of calls on a verification context", "why_tests_cant": "ranges over all continuations of all failing histories", "anchors": ["verify.c:ts_update_verify", "verify.c:ts_verify"]}
{"id": "C09", "title": "No false early failure", "statement": "While fewer than ts_size_signature(ps) bytes have been fed, ts_update_verify returns 1 (it never rejects a proper prefix); the call that delivers exactly the last byte returns 1 iff the signature is valid; a call that runs past the end of the signature returns 0.", "quantifier": "every prefix of every byte string, every chunking", "why_tests_cant": "all prefixes of all inputs", "anchors": ["verify.c:ts_update_verify"]}
{"id": "C10", "title": "Contexts need no initialisation", "statement": "The results of signing and verifying are independent of what the ts_context contained before ts_init_sign / ts_init_verify (including leftovers of an earlier sign or verify session).", "quantifier": "every initial content of the context structure", "why_tests_cant": "the context has hundreds of bytes of arbitrary prior content", "anchors": ["tiny_sphincs.c:ts_init_sign", "verify.c:ts_init_verify", "tiny_sphincs.h:struct ts_context"]}
{"id": "C11", "title": "Contexts of the wrong kind are refused", "statement": "ts_sign on a context set up for verification returns 0, writes nothing and leaves the context unchanged; ts_update_verify on a context set up for signing returns 0 and leaves it unchanged; ts_verify on a signing context returns 0 - in every state either session can reach.", "quantifier": "every reachable state of a signing or verification session", "why_tests_cant": "reachable session states are unbounded in data", "anchors": ["tiny_sphincs.c:ts_sign", "verify.c:ts_update_verify", "verify.c:ts_verify"]}
{"id": "C12", "title": "Key generation produces the SPHINCS+ key pair", "statement": "On success ts_gen_key returns 1 and leaves private_key = SK.seed||SK.prf||PK.seed||PK.root, where the first 3n bytes are exactly what the RNG supplied and PK.root is the SPHINCS+ hypertree root for those seeds; if public_key is non-NULL it receives PK.seed||PK.root, and no other memory changes.", "quantifier": "every parameter set/config, every RNG output, with and without a public_key buffer, every prior memory content", "why_tests_cant": "RNG outputs are 2^(24n) many", "anchors": ["key_gen.c:ts_gen_key"]}
{"id": "C13", "title": "Key generation failure modes", "statement": "ts_gen_key returns 0 if private_key, ps or random_function is NULL or if the RNG reports failure, and in those cases computes no root and never writes public_key; a NULL public_key is not an error.", "quantifier": "every argument combination and RNG behaviour", "why_tests_cant": "ranges over all RNG behaviours including partial writes before failing", "anchors": ["key_gen.c:ts_gen_key"]}
{"id": "C14", "title": "Deterministic signing and RNG failure fallback", "statement": "With a NULL RNG, or an RNG that reports failure (whatever it scribbled), the signature is the deterministic SPHINCS+ signature (opt_rand = PK.seed); in all cases the signature is a function of private key, message and opt_rand only, and at most one RNG request of exactly n bytes is made.", "quantifier": "every RNG behaviour, key, message", "why_tests_cant": "all failing RNG behaviours", "anchors": ["tiny_sphincs.c:ts_init_sign"]}
{"id": "C15", "title": "Verification needs only the public key", "statement": "Verification reads nothing but the 2n public-key bytes, the message and the signature: with a memory in which only those are mapped, no call faults; hence the verifier never touches memory in front of the public key, where the private seeds would be.", "quantifier": "every public key, message, byte string fed, chunking, history", "why_tests_cant": "absence of an access on every path", "anchors": ["internal.h:CONVERT_PUBLIC_KEY_TO_SEC_SEED", "verify.c:ts_update_verify"]}
{"id": "C16", "title": "Memory safety and absence of undefined behaviour", "statement": "In every build configuration of tune.h, for every parameter set that configuration supports, no API call performs an out-of-bounds access of any array of ts_context (including the overlaid union members and the FORS/Merkle stacks), a bad shift, an overflowing int computation, or an endless loop.", "quantifier": "every configuration, parameter set, key, message, history of API calls", "why_tests_cant": "every path, every configuration of the array-sizing macros", "anchors": ["tiny_sphincs.h:struct ts_context", "tune.h", "tiny_sphincs.c", "verify.c", "key_gen.c"]}
{"id": "C17", "title": "TS_SHA2_OPTIMIZATION is transparent", "statement": "Signatures, keys and verification verdicts of SHA2 parameter sets are identical with TS_SHA2_OPTIMIZATION 0 and 1.", "quantifier": "every SHA2 parameter set, key, message, randomness, signature", "why_tests_cant": "equality over all inputs", "anchors": ["tune.h:TS_SHA2_OPTIMIZATION", "sha256_hash.c:ts_sha256_init_ctx", "sha512_hash.c:ts_sha512_init_ctx", "sha256_L1_hash_simple.c:ts_sha2_L1_prehash", "sha512_L35_hash_simple.c:ts_sha2_L35_prehash"]}
{"id": "C18", "title": "The three Keccak implementations agree and are Keccak-f[1600]", "statement": "For every 1600-bit state the permutations selected by TS_SHAKE256_OPT 0, 1 and 2 return the same state, namely the Keccak-f[1600] permutation of FIPS 202 (bit-level definition, round constants from the LFSR, offsets from the rho walk).", "quantifier": "all 2^1600 states", "why_tests_cant": "state space is astronomically large; the three variants are never built together by the tests", "anchors": ["fips202.c:KeccakF1600_StatePermute"]}
{"id": "C19", "title": "SHA-256 streaming correctness", "statement": "init, any sequence of updates, final yields the FIPS 180-4 SHA-256 digest of the concatenation of the updates.", "quantifier": "every list of chunks with total length below 2^61 bytes, every prior context content", "why_tests_cant": "all messages and chunkings", "anchors": ["sha256.c:ts_SHA256_init", "sha256.c:ts_SHA256_update", "sha256.c:ts_SHA256_final", "sha256.c:compress"]}
{"id": "C20", "title": "SHA-512 streaming correctness", "statement": "init, any sequence of updates, final yields the FIPS 180-4 SHA-512 digest of the concatenation of the updates.", "quantifier": "every list of chunks with total length below 2^61 bytes, every prior context content", "why_tests_cant": "all messages and chunkings", "anchors": ["sha512.c:ts_SHA512_init", "sha512.c:ts_SHA512_update", "sha512.c:ts_SHA512_final", "sha512.c:sha512_compress"]}
{"id": "C21", "title": "SHAKE256 streaming correctness", "statement": "inc_init, any sequence of absorbs, finalize, any sequence of squeezes yields consecutive pieces of the FIPS 202 SHAKE256 output for the concatenation of the absorbed chunks.", "quantifier": "every list of input chunks (each below 2^63 bytes), every list of output sizes", "why_tests_cant": "all messages, chunkings and output lengths", "anchors": ["fips202.c:ts_shake256_inc_init", "fips202.c:ts_shake256_inc_absorb", "fips202.c:ts_shake256_inc_finalize", "fips202.c:ts_shake256_inc_squeeze"]}
{"id": "C22", "title": "Truncated finals return a digest prefix and touch nothing else", "statement": "ts_SHA256_final_trunc / ts_SHA512_final_trunc with n a multiple of the word size write exactly the first n bytes of the full digest and no byte beyond.", "quantifier": "every message, chunking and admissible n, every destination content", "why_tests_cant": "all messages", "anchors": ["sha256.c:ts_SHA256_final_trunc", "sha512.c:ts_SHA512_final_trunc"]}
{"id": "C23", "title": "Hash state save/restore", "statement": "Saving the hash state after exactly one block (64 / 128 bytes) and restoring it into any context, then continuing, gives the digest of the whole input.", "quantifier": "every block, every continuation, every content of the target context", "why_tests_cant": "all inputs and contexts", "anchors": ["sha256.c:ts_SHA256_save_state", "sha256.c:ts_SHA256_restore_state_after_64", "sha512.c:ts_SHA512_save_state", "sha512.c:ts_SHA512_restore_state_after_128"]}
{"id": "C24", "title": "WOTS+ checksum: no digit vector dominates another", "statement": "The digits signed by each WOTS+ signature are 2n base-16 digits of the value plus 3 checksum digits, all below 16; for two different n-byte values neither digit vector is pointwise >= the other, so a WOTS+ signature can never be turned into one for another value by only advancing chains.", "quantifier": "every pair of n-byte values, every supported n", "why_tests_cant": "2^(8n) values squared", "anchors": ["tiny_sphincs.c:compute_wots_digits"]}
{"id": "C25", "title": "Hash address domain separation", "statement": "The address block prepared for a hash call determines the role (WOTS chain step, WOTS key compression, tree node, FORS node, FORS root compression, WOTS PRF, FORS PRF) and the position (layer, tree, key pair, chain, height, index, step): two calls with different role or position use different address bytes, in both the 32-byte and the compressed 22-byte format.", "quantifier": "every pair of in-range positions and roles, every prior address content", "why_tests_cant": "2^64 trees times positions", "anchors": ["tiny_sphincs.c:set_layer_adr", "tiny_sphincs.c:ts_set_merkle_adr", "tiny_sphincs.c:ts_set_wots_f_adr", "tiny_sphincs.c:set_fors_prf_adr"]}
{"id": "C26", "title": "Message digest to FORS/hypertree position", "statement": "The message digest is decoded as SPHINCS+ prescribes: k consecutive a-bit big-endian indices, then the tree index and the leaf index from the following whole bytes reduced modulo the tree/leaf count; all results are in range and at most m <= 49 digest bytes are inspected.", "quantifier": "every digest and parameter set", "why_tests_cant": "all digests", "anchors": ["tiny_sphincs.c:ts_convert_message_hash_to_hypertree_position", "tiny_sphincs.c:extract_int_from_hash"]}
{"id": "C27", "title": "Declared sizes", "statement": "ts_size_private_key, ts_size_public_key, ts_size_signature return 4n, 2n and n(1+k(a+1)+h+d*len), the values of the SPHINCS+ parameter table, and these are the sizes of the objects the other calls actually produce/consume; each parameter set carries the standard parameters.", "quantifier": "all 12 parameter sets (finite) combined with all produced objects", "why_tests_cant": "relation to all produced objects cannot be sampled", "anchors": ["size.c:ts_size_private_key", "size.c:ts_size_public_key", "size.c:ts_size_signature", "sha2_128f_simple.c", "shake256_256s_simple.c"]}
{"id": "C28", "title": "Build configuration transparency", "statement": "Keys, signatures and verification verdicts of a parameter set are the same in every tune.h configuration that supports it (which other sets are enabled, array sizes, TS_SHA2_OPTIMIZATION, TS_SHAKE256_OPT), on 32-bit and 64-bit, little-endian and big-endian machines.", "quantifier": "every pair of configurations supporting the set and of machines (byte order, pointer width), all inputs", "why_tests_cant": "configurations are built separately, inputs unbounded", "anchors": ["tune.h", "tiny_sphincs.h", "internal.h"]}
{"id": "C29", "title": "Message buffer lifetime", "statement": "After ts_init_sign returns the message buffer is never read again (it may be reused); in verification the message is not read after the first n signature bytes have been consumed.", "quantifier": "every history; every content of the message memory afterwards", "why_tests_cant": "absence of an access on every path", "anchors": ["read.me", "tiny_sphincs.c:ts_sign", "verify.c:ts_update_verify"]}
{"id": "C30", "title": "Any history of calls behaves like the abstract session", "statement": "For every sequence of API calls on a context that starts with an init call, the observable results equal those of an abstract session: a read cursor over the SPHINCS+ signature (signing) or an append-only byte log with a verdict (verification); re-initialisation starts afresh.", "quantifier": "every finite sequence of ts_init_sign/ts_sign/ts_init_verify/ts_update_verify/ts_verify calls with any arguments", "why_tests_cant": "histories are unbounded", "anchors": ["tiny_sphincs.h"]}
{"id": "C31", "title": "Independent contexts do not interfere", "statement": "Interleaving calls on several contexts in any order gives each context the same results as if its calls had been made alone.", "quantifier": "every interleaving of every set of histories", "why_tests_cant": "exponentially many schedules", "anchors": ["tiny_sphincs.h"]}
{"id": "C32", "title": "ts_verify is a pure query", "statement": "ts_verify does not change the context: repeated calls return the same value and interspersed ts_verify calls never change later results; it returns 0 before the signature is complete and may return to 0 if more bytes are fed after acceptance.", "quantifier": "every history with ts_verify calls inserted anywhere", "why_tests_cant": "all insertions in all histories", "anchors": ["verify.c:ts_verify"]}
{"id": "C33", "title": "One-time keys never sign two different values", "statement": "Two signatures made with the same private key (any two messages, any randomness, any builds) that use the same one-time key pair in some hypertree layer are byte-for-byte identical from that layer's part on; two that select the same few-time key and the same index in one of its trees have identical parts for that tree. So no one-time key ever releases chain values for two different messages.", "quantifier": "every private key, every pair of messages and random values, every layer, every pair of builds", "why_tests_cant": "all pairs of signatures under a key; collisions in the upper layers only show across many messages", "anchors": ["tiny_sphincs.c:ts_sign", "tiny_sphincs.c:ts_init_sign"]}
{"id": "C34", "title": "Accepted signatures are the key owner's, or exhibit a hash break", "statement": "If any bytes are accepted under a public key from ts_gen_key as a signature of any message, they are exactly what the owner of the private key produces for that message with the randomizer they begin with; or one of the hash calls made to check them agrees with the owner's call at the same address on another input (a second preimage); or they show a one-time chain value preceding the one the owner publishes. In particular a changed signature with the same first n bytes is rejected, barring such a break.", "quantifier": "every generated key, every message, every byte string, every split into ts_update_verify calls, every build", "why_tests_cant": "forgeries cannot be enumerated; a test only rejects a few corrupted signatures", "anchors": ["verify.c:ts_update_verify", "verify.c:ts_verify", "key_gen.c:ts_gen_key"]}
{"id": "C35", "title": "Signing reads only the key and the message, and later only the two seeds", "statement": "ts_init_sign reads no memory but the 4n bytes of the private key and the message; ts_sign reads only SK.seed and PK.seed, so SK.prf, PK.root and the message may be erased or unmapped after ts_init_sign without changing the signature.", "quantifier": "every signing job, every request sequence, every content (or absence) of the other memory", "why_tests_cant": "absence of an access on every path", "anchors": ["tiny_sphincs.c:ts_init_sign", "tiny_sphincs.c:ts_sign"]}
{"id": "C36", "title": "The bundled client programs end and get the standard's values", "statement": "The programs of the repository that use the API (the RAM measurement get_space/get_space2 and the known-answer test) never fault and end: the key generation run leaves the standard's key for the bytes 3n-1, ..., 1, 0 of its generator, the preparation of the verification run leaves the standard's public key and signature for that generator, the byte-by-byte signing loop delivers exactly the bytes of the standard's signature and stops, verification of the signature just made always reports acceptance, and the test of a vector passes exactly if the vector holds the standard's public key and the SHA-256 hash of the standard's signature.", "quantifier": "every parameter set, message, vector, buffer size, memory layout, leftover context content", "why_tests_cant": "the programs are only ever run with one message and the vectors shipped", "anchors": ["get_space2.c:run_keygen", "get_space2.c:run_sign", "get_space2.c:run_verify", "get_space.c", "test_testvector.c:test_testvector"]}
{"id": "C37", "title": "The verification test passes unless the scheme is broken", "statement": "test_verify never faults and ends. Its checks of acceptance, truncation, extension and all chunk sizes always pass; it reports a failure only if the standard itself accepts one of the modified signatures or the wrong message it tries, and each such case exhibits a hash second preimage, an unpublished chain value, or two randomizers or messages with the same signature.", "quantifier": "every message pair, parameter set, mode, memory layout, leftover context content", "why_tests_cant": "the test cannot test itself", "anchors": ["test_verify.c:do_test", "test_verify.c:test_verify"]}
{"id": "C38", "title": "The hash tests decide equality with the standard hash", "statement": "The SHA-512 and SHAKE256 tests never fault and end, and pass for a vector exactly if the expected value is the standard's hash (SHAKE: for a non-empty message; with an empty message nothing is checked and the test passes). All shipped vectors pass, whatever is left on the stack, for every SHAKE implementation.", "quantifier": "every expected value and message, every leftover context content", "why_tests_cant": "they are the tests", "anchors": ["test_sha512.c:test", "test_sha512.c:test_sha512", "test_shake.c:test", "test_shake.c:test_shake256"]}
{"id": "C39", "title": "The test program's exit status", "statement": "The test program exits with success exactly if all arguments are known, at least one test is asked for and every test asked for passes; without -f it stops at the first failure, with -f it runs all tests asked for, in order.", "quantifier": "every argument list, every combination of test results", "why_tests_cant": "argument lists are unbounded", "anchors": ["test_sphincs.c:main", "test_sphincs.c:run_tests"]}
{"id": "C40", "title": "SHA-2 is right on every platform, although it works in place", "statement": "Streaming SHA-256 and SHA-512 yield the standard digest whatever the byte order in which the platform stores words, although a full buffer is compressed in the same memory that receives the message schedule: no input byte is overwritten before it is read.", "quantifier": "every bijective-on-image word representation, every message and split into chunks, every truncation length, every leftover context content", "why_tests_cant": "tests run on one platform and with few splits", "anchors": ["sha256.c:compress", "sha256.c:ts_SHA256_update", "sha256.c:ts_SHA256_final_trunc", "sha512.c:sha512_compress", "sha512.c:ts_SHA512_update", "sha512.c:ts_SHA512_final_trunc", "sha2.h"]}
{"id": "C41", "title": "Key generation leaks nothing through control flow and addresses", "statement": "Which way every branch goes, how often every loop runs, every array index, every address of the caller's memory and every variable shift count during ts_gen_key are determined by the parameter set, the addresses given and the return value of the random number generator: they do not depend on the random bytes, the keys or uninitialised memory.", "quantifier": "every parameter set and configuration, all random bytes, all memory contents, every leftover stack content", "why_tests_cant": "a statement about pairs of runs for all secrets", "anchors": ["key_gen.c:ts_gen_key", "tiny_sphincs.c:ts_merkle_path", "tiny_sphincs.c:ts_wots_leaf", "sha256.c", "sha512.c", "fips202.c"]}
{"id": "C42", "title": "Signing leaks nothing through control flow and addresses beyond the signature", "statement": "Which way every branch goes, how often every loop runs, every array index, every address of the caller's memory and every variable shift count during ts_init_sign and ts_sign can be computed from the public key, the message, the signature, the addresses and sizes given and the return value of the random number generator: a program without access to the secret seeds, the randomness and uninitialised memory produces the same sequence of events.", "quantifier": "every parameter set and configuration, all private keys, messages, random bytes, all sequences of calls, every leftover context content", "why_tests_cant": "a statement about all secrets, and about what is not observable", "anchors": ["tiny_sphincs.c:ts_init_sign", "tiny_sphincs.c:ts_sign", "tiny_sphincs.c:ts_merkle_path", "tiny_sphincs.c:ts_set_up_wots_signature", "tiny_sphincs.c:compute_wots_digits"]}
{"id": "C43", "title": "Size and layout of a context", "statement": "sizeof(struct ts_context), which the caller allocates, is what ramspace.out publishes for each parameter set; it is never more than 1136 bytes nor less than 452, and both sizes occur; supporting fewer parameter sets or optimisations never makes it larger; the SHA-2 optimisation costs exactly 32 or 96 bytes; and in every configuration the members are aligned, disjoint and inside the object.", "quantifier": "every combination of TS_SUPPORT_* and TS_SHA2_OPTIMIZATION, 32- and 64-bit machines, uint64_t aligned to 4 or 8", "why_tests_cant": "a test sees the one configuration and machine it is compiled for", "anchors": ["tiny_sphincs.h:struct ts_context", "sha2.h", "fips202.h", "ramspace.py", "ramspace.out"]}
{"id": "C44", "title": "How much work key generation and signing are", "statement": "Counted in calls of the hash functions, ts_gen_key does the work of one tree of 2^h' WOTS+ keys (nothing if the random number generator fails); ts_init_sign and any sequence of ts_sign calls do exactly the work of those blocks of the signature of which a byte has been delivered, however the bytes are asked for, and a drained signature costs a closed formula in the parameters plus the sum of the WOTS+ digits; a single call for m bytes does at most ceil(m/n) times the work of the most expensive block.", "quantifier": "every parameter set, configuration, key, message and randomness, every sequence of ts_sign calls of any sizes", "why_tests_cant": "work is a property of every run; a test measures some runs and cannot bound the others", "anchors": ["key_gen.c:ts_gen_key", "tiny_sphincs.c:ts_init_sign", "tiny_sphincs.c:ts_sign", "tiny_sphincs.c:ts_merkle_path", "tiny_sphincs.c:ts_wots_leaf", "tiny_sphincs.c:generate_next_wots_hash"]}
{"id": "C45", "title": "Work of verification is exactly predictable", "statement": "ts_init_verify followed by any calls of ts_update_verify makes exactly as many calls of each hash function of the parameter set (hash_msg, F, T pieces; never PRF or PRF_msg) as the blocks of the signature that have arrived completely require, whether the signature is valid or not and however it is cut into pieces: for a whole signature one digest, k FORS leaves with a nodes each, k roots hashed, and per layer len ends of chains, h' nodes and the missing steps of the chains, of which there are at most 15*len*d. Bytes after the end of a signature cause no work. One call with m bytes does the work of at most ceil(m/n) blocks.", "quantifier": "every parameter set and configuration, public key, message, sequence of calls and bytes fed (valid, invalid, too short or too long)", "why_tests_cant": "the count has to be right for every signature and every way to cut it into pieces; a test measures some runs", "anchors": ["verify.c:ts_init_verify", "verify.c:ts_update_verify", "verify.c:ts_verify"]}
{"id": "C46", "title": "Whole programs: one memory, several contexts, copied contexts", "statement": "A program that mixes ts_gen_key, ts_init_sign, ts_sign, ts_init_verify, ts_update_verify and ts_verify on any number of contexts, with keys, messages and signatures in one memory (output of one call may be input of another) and contexts copied by assignment at any time, returns from every call, and leaves at every address of memory, what a simple abstract machine says; in particular a copy made in the middle of a signature continues independently with the same remaining bytes. The result is the same in every build and on every machine.", "quantifier": "every program (any finite sequence of statements, addresses, sizes) that keeps the documented rules, every initial memory and content of the contexts, every configuration", "why_tests_cant": "programs, interleavings, copies and memory layouts are unbounded; tests use one fixed program with separate buffers", "anchors": ["key_gen.c:ts_gen_key", "tiny_sphincs.c:ts_init_sign", "tiny_sphincs.c:ts_sign", "verify.c:ts_init_verify", "verify.c:ts_update_verify", "verify.c:ts_verify", "tiny_sphincs.h:struct ts_context"]}
{"id": "C47", "title": "No recursion, bounded nesting and stack", "statement": "Every call of ts_gen_key, ts_init_sign, ts_sign, ts_init_verify and ts_update_verify, with any arguments and any contents of memory and context, calls functions only along the static call graph, never recursively, never more than eight deep, and has returned from all of them when it ends; so the stack it uses never exceeds the longest path of the call graph, whatever the sizes of the frames. With the declared parameters and variables, context included, this is less than 2 kB on every machine, in every configuration and for every parameter set, and at most 1017 bytes for SHA2-128f in the configuration of ramspace.py (the README says 1k), a figure that is reached.", "quantifier": "every call with every argument, every moment during it, every machine word size, configuration, parameter set and assignment of frame sizes", "why_tests_cant": "a measurement of the stack (ramspace) sees the paths that the measured inputs take; that no input, no parameter set and no configuration makes the code nest deeper is a statement about all runs", "anchors": ["tiny_sphincs.c:ts_init_sign", "tiny_sphincs.c:ts_sign", "tiny_sphincs.c:ts_merkle_path", "key_gen.c:ts_gen_key", "verify.c:ts_update_verify", "sha256_L1_hash.c:ts_sha2_L1_hash_msg", "ramspace.out", "README.md"]}
{"id": "C48", "title": "Compressions and permutations of key generation and signing, and what TS_SHA2_OPTIMIZATION saves", "statement": "Counted in calls of the compression functions of SHA-256 and SHA-512 and of the Keccak permutation (where the time goes), ts_gen_key, ts_init_sign and any sequence of ts_sign calls take exactly as many as the blocks of the padded inputs of the hash functions of FIPS 205 require, for a message of any length; a whole signature is a closed formula of the parameter set, the length of the message and the sum of the WOTS+ digits, and at most that with all digits 15; a single ts_sign call for m bytes takes at most ceil(m/n) times the work of the most expensive block, for which there are figures, and a one-byte call can take that much; a set never calls a primitive of another family; and TS_SHA2_OPTIMIZATION saves exactly one compression per call of PRF, F and T in SHA-2 sets at the price of one (level 1) or two, and nothing in SHAKE sets.", "quantifier": "every parameter set, configuration, key, message of any length and randomness, every sequence of ts_sign calls of any sizes", "why_tests_cant": "a count for every message length (blocks are crossed at every boundary) and every digit; a test measures some runs", "anchors": ["key_gen.c:ts_gen_key", "tiny_sphincs.c:ts_init_sign", "tiny_sphincs.c:ts_sign", "sha256.c", "sha512.c", "fips202.c", "sha256_L1_hash.c", "sha256_L1_hash_simple.c", "sha512_L35_hash_simple.c", "shake256_simple.c", "sha2_simple.c", "README.md"]}
{"id": "C49", "title": "Compressions and permutations of verification", "statement": "Counted in calls of the compression functions of SHA-256 and SHA-512 and of the Keccak permutation, ts_init_verify and any calls of ts_update_verify take exactly as many as the blocks of the signature that have arrived completely require, whether the signature is valid or not and however it is cut into pieces, for a message of any length; a whole signature takes a closed formula of the parameter set, the length of the message and the WOTS+ digits; there is a bound for all inputs and one for a single call with m bytes (with the message hashed in the call that completes the first n bytes); a set never calls a primitive of another family; and TS_SHA2_OPTIMIZATION saves exactly one compression per call of F and T in SHA-2 sets at the price of one (level 1) or two.", "quantifier": "every parameter set, configuration, public key, message of any length, sequence of calls and bytes fed (valid, invalid, too short or too long)", "why_tests_cant": "a count for every message length, signature and way to cut it into pieces; a test measures some runs", "anchors": ["verify.c:ts_init_verify", "verify.c:ts_update_verify", "sha256.c", "sha512.c", "fips202.c", "sha256_L1_hash_simple.c", "sha512_L35_hash_simple.c", "shake256_simple.c", "sha2_simple.c"]}
{"id": "C50", "title": "RAM figures do not depend on the data, and what the measurement reports", "statement": "With the sizes of the declared variables, every successful ts_gen_key, every complete signature operation and every verification given at least n bytes (valid or not) has exactly the same peak of stack in use, a number determined by machine, configuration and parameter set alone: not by keys, message, random bytes, sizes of requests and chunks, earlier content of context and memory (get_space.c: 'the values don't change the amount of RAM used'). init_stack/measure_stack never report more than the peak of the routine between them and report exactly that peak if the last byte in use is left different from the pattern; the 10000 bytes of their array are always enough; in the configurations of ramspace.py the peaks are 36 given numbers within 80 bytes of ramspace.out. For key generation equality of the peaks holds for any frame sizes. The advice of read.me on which sets use less RAM holds on every machine modelled.", "quantifier": "every key, message, randomness, sequence of requests or chunks, content of context, memory and stack, every machine word size, configuration and parameter set, every sequence of stores of the measured routine", "why_tests_cant": "the repository measures one key and one message per parameter set; that no other input takes more, or less, and that the measurement cannot overstate it, is a statement about all runs", "anchors": ["stack.c:init_stack", "stack.c:measure_stack", "get_space.c", "get_space2.c", "key_gen.c:ts_gen_key", "tiny_sphincs.c:ts_init_sign", "tiny_sphincs.c:ts_sign", "verify.c:ts_update_verify", "ramspace.out"]}
{"id": "C51", "title": "The known-answer test passes in every build, and the specification reproduces the reference code's answers", "statement": "test_testvector (the twelve vectors of testvector.h, obtained from the SPHINCS+ reference code) returns 1: for each vector ts_gen_key with the random bytes 0, 1, 2, ... gives the vector's public key, and the signature of 'abc' with the vector's opt_rand, produced 42 bytes at a time, has the vector's SHA-256 hash and verifies. This holds in every configuration that has all the parameter sets, on machines of either byte order, wherever the buffers are and whatever the uninitialised variables, contexts included, contain. The same answers follow from the formal statement of the standard on which the other properties rest, so that statement agrees with the reference code on them.", "quantifier": "every configuration with all parameter sets, every placement of the key buffers and the message, every content of the uninitialised contexts, buffers and memory, in each of the twelve rounds", "why_tests_cant": "a test runs in one build on one machine with one content of the stack; that uninitialised memory, placement and build options do not matter is a statement about all of them; and a test cannot show that a formal specification is the standard's", "anchors": ["test_testvector.c:test_testvector", "testvector.h", "key_gen.c:ts_gen_key", "tiny_sphincs.c:ts_sign", "verify.c:ts_verify"]}
{"id": "C52", "title": "Forgery after any number of signatures", "statement": "After a successful ts_gen_key, let the owner sign any number of messages with the key (any builds, any randomness, any sizes of the ts_sign calls). If a verification accepts a pair of message and bytes that is not one of those pairs, then the bytes exhibit a break: a second preimage of one of the owner's hash inputs, or a one-time chain value before the published one, or a secret few-time (FORS) value that none of the signatures shows, or the pair of randomizer and message is new and its digest selects, for every FORS tree, a value of the same FORS key that some signature shows. Each signature shows exactly the FORS values its digest selects.", "quantifier": "every key, every finite history of signature operations, every message and byte string presented to verification in any pieces", "why_tests_cant": "forgeries are chosen by an adversary and histories are unbounded; a test tries a few changes of one signature", "anchors": ["key_gen.c:ts_gen_key", "tiny_sphincs.c:ts_init_sign", "tiny_sphincs.c:ts_sign", "verify.c:ts_init_verify", "verify.c:ts_update_verify", "verify.c:ts_verify"]}
{"id": "C53", "title": "Heap of the test and measurement programs, and the report of ramspace", "statement": "The verification test and the measurement of verification end without a fault, read and write only the block of malloc and only until it is freed, free it exactly once on every path and leave the heap as it was, whatever the library returns (right or wrong), whichever check fails first, and whether malloc succeeds or not (if it does not, they report a failure). With this library and memory the test has the result of C37 and the measurement reports what was measured. ramspace appends to the file named in its first argument, and to no other, one line whose words are the name of the set and the four figures in order (*FAILED* exactly if the last is 0), in fixed columns for figures below 100000; with this library it never writes *FAILED*; if the file cannot be opened it changes nothing and exits with a failure; started without a name it calls fopen with NULL.", "quantifier": "every behaviour of the library, every result of malloc, content of the block and of the heap, every parameter set, all figures", "why_tests_cant": "a test run takes the one path on which all checks pass and malloc succeeds; the paths that free and return early are taken only if the library is wrong", "anchors": ["test_verify.c:do_test", "get_space.c:get_ver_space", "get_space2.c:get_sig_and_public_key", "get_space2.c:run_verify", "ramspace.c:main", "ramspace.out"]}
{"id": "C54", "title": "What signing leaves in the context", "statement": "After ts_init_sign and any calls of ts_sign, everything in the context can be computed by somebody who cannot read the private key, from the public key, the message, what the context held before, the elements of the signature computed so far (those of which a byte has been delivered, at least the randomizer) and the images of the secret values under the one-way functions (leaves of the FORS trees, ends of the WOTS+ chains). The one exception is the scratch hash state, and only while the last element computed belongs to a WOTS+ signature. So after ts_init_sign, and after a complete signature, a context that is copied, leaked or freed without being cleared gives away neither SK.seed nor SK.prf nor any secret value that the signature does not show.", "quantifier": "every parameter set, configuration, private key, message, randomness, content of the context before, sequence of ts_sign calls, and every memory that holds public key and message", "why_tests_cant": "that secrets are absent from memory is a statement about all secrets and all moments; a test can look for known patterns only", "anchors": ["tiny_sphincs.c:ts_init_sign", "tiny_sphincs.c:ts_sign", "tiny_sphincs.c:ts_merkle_path", "tiny_sphincs.c:ts_wots_leaf", "tiny_sphincs.c:generate_next_wots_hash", "sha256.c:ts_SHA256_final_trunc", "sha512.c", "fips202.c", "tiny_sphincs.h:struct ts_context"]}
