# Formal model of low-ram-sphincsplus in Lean 4 — design

(The first version was written and committed before the proofs; it is kept current. `MANIFEST.json` has the
exact theorem names, `properties.jsonl` the English properties.)

## Layers

1. `Verif/Spec/*` — small, independent specifications, written from the standards, not from the C code:
   * `Bytes` byte strings, big-endian integers, `base_2b`, blocks;
   * `Sha2` FIPS 180-4 SHA-256 / SHA-512 (padding, message schedule as a list of 64/80 words, constants as integer
     square/cube roots of primes);
   * `Keccak` FIPS 202 Keccak-f[1600] on bits `A[x,y,z]`, LFSR round constants, rho walk, sponge with pad10*1,
     SHAKE256 = KECCAK[512](M‖1111, d);
   * `Hash` HMAC, MGF1, the SPHINCS+ "simple" hash families, the 12 parameter sets;
   * `Slh` SPHINCS+ (the internal functions of FIPS 205): WOTS+, XMSS, hypertree, FORS, keygen, sign, verify, as
     recursive functions on byte lists (algorithm numbers in the comments);
   * `Session` the abstract API session (read cursor / append-only log);
   * `Trace` the hash calls of a verification, and what the owner of a key hashes at each address (for C34).
2. `Verif/Model/*` — the C code, function by function, each definition citing file:lines. Every C function becomes a
   function into `C = Except Fault`. `Contract` says what a caller has to provide ("jobs" and legal histories),
   `Names` which standard instance a parameter set is meant to be, `Api` runs histories of calls. `Clients` are the
   example programs of the repository.
3. `Verif/Proof/*` — lemmas.
4. `Verif/Properties/*` — the property theorems and, beside them, examples that their hypotheses can be met.

## Modelling decisions

* **Outcomes.** `Fault` is `oob` (access outside an array), `unmapped` (access to memory the caller did not provide),
  `badShift` (shift count too large, or left shift that overflows `int`) or `diverge` (the fuel of a loop without a
  syntactic bound is used up). Nothing is assumed away: C16 and all other API theorems show the outcome `.ok`.
* **Integers.** Bytes are `UInt8`, hash words `UInt32`/`UInt64` (wrap-around as in C). The small C integers in
  `ts_context` (`unsigned char`, `unsigned short`, `uint64_t`) are `Nat`s truncated explicitly
  (`% 256`, `% 65536`, `% 2^64`) at each assignment; `unsigned` subtraction wraps (`usub`). Values that C converts
  `int` → `unsigned` are modelled where both agree.
* **Arrays** are lists with their C length; every read and write checks the bounds.
* **The union `x`** of `ts_context` is one byte array with the C layout, so the overlap between `fors`, `wots`, `merkle`, `verify` is in the model.
* **Machines.** `Config.arch` has the byte order and the width (4 or 8 bytes) of pointers and `size_t`; the layout of the union
  and the bytes that SHA-2 leaves in its contexts follow from it. All theorems hold for each of the four machines; C28 relates runs on different ones. `int` has 32 bits and
  `unsigned short` 16 (with a 16-bit `int` the shifts of tiny_sphincs.c would overflow).
* **`union t_iterator`** is the member last written. Reading it as another member gives *arbitrary* content
  (`Env.pun*`, universally quantified, with the right array lengths), not a fault: the proofs show that the code
  never depends on it.
* **Uninitialised locals** have arbitrary content (`Env.junk`, universally quantified). An uninitialised `ts_context`
  is a universally quantified argument with arrays of the C lengths (`Shape`).
* **Memory of the caller** (keys, message) is a partial map `Nat → Option UInt8`, given at every call, so it may change
  between calls; an access to an unmapped address faults. That signing and verifying do not write to it is visible in
  the types of the model (they return no memory); `ts_gen_key` returns the changed memory. Buffers `dest` are passed
  and returned by value, buffers `sig` are passed by value: aliasing between them and the context is excluded. In C46 they are in
  the caller's memory; there the rule that the private key is in place before and after a call of `ts_sign` implies that it was in place
  all the time, since every byte of `dest` is written at most once.
* **Function pointers** of a parameter set are enumerations of the C function names plus a dispatcher.
* **The RNG** is an arbitrary function of the number of bytes requested, returning success and what it wrote;
  on failure it may have written anything up to that length. The log of the requests is returned.
* **Configuration** (`tune.h`) is a value `Config`; all array sizes and `#if` choices derive from it. Theorems hold for
  all values (with the sanity check of tune.h, which follows from `supported`).
* **Loops** with a syntactic bound use `loop`; others (`ts_sign`, `ts_update_verify`, squeezing, clients) have fuel and
  end in `diverge` when it is used up.
* `compress` of sha256.c/sha512.c expands the schedule inside the message buffer `ctx->data`. The model follows the code (16
  words, circular), including the fact that the buffer is overwritten.

### The leakage model (C41, C42) and the cost models (C44, C45, C48, C49)

`Model/Leak*.lean` repeats the functions of key generation, signing and (for the count only, `Model/LeakVerify.lean`, erased by `Proof/LeakVerifyErase.lean`) verification (with all hash functions below them) in a monad that
records events: outcome of every branch and loop test, index of every array access, offset and length of every block copy,
address and length of every access to the caller's memory, amount of every variable shift, target of every function pointer,
calls of the random number generator with their return value. Not recorded: `#if` choices, null tests of the pointer
arguments, arithmetic on words (taken as constant time), the array an index belongs to (determined by the place in the
code). `Proof/LeakErase.lean` proves for each function that forgetting the events gives the function of the model proper; that
each branch and access of the C code has its event is by inspection (in `Model/Leak*` conditionals other than the
recording `lif`/`select` are on the configuration or on pointers being null, or guards of undefined behaviour).
Compilers may introduce or remove branches; that is outside.

Calls through the pointers of the parameter set (`prf_msg`, `hash_msg`, `prf`, `f`, `init_t`, `next_t`, `final_t`) and calls of
the compression functions and of the Keccak permutation are events too (`Ev.call`, `Ev.perm`). C44 and C45 count the former, C48 and C49 the latter: time is
counted in calls of hash functions, compressions and permutations, not in instructions.

### The stack model (C47, C50)

Every function of the library that calls another one (and some that do not) records that it is entered and left (`Ev.enter`, `Ev.leave`);
these events too are erased by `Proof/LeakErase.lean`. `Spec/Stack.lean` reads the running functions off a log. `Model/Stack.lean` transcribes the
call graph (which functions are named in which body) and the declarations of parameters and local variables. That logs follow the call graph is proved
(`C47_nesting`); that each body is marked as a frame, and the table of declarations, are by inspection. Functions that call nothing
(`ts_ull_to_bytes`, `RORc`, `ROL`, `my_memcmp`, …) have no events; their frames are added as `leaf` of the functions that call them. Not counted: results of
functions, temporaries, saved registers, padding of frames, `memcpy`/`memset`, the caller's random number generator. `C47_stack` holds for any sizes of frames, so that
figures from a compiler (`-fstack-usage`) can be put in.

`Model/Measure.lean` models `stack.c`: the bytes below the frame of the measuring function, the filled array, the stores of the routine under test (any sequence of stores, each
to a byte that is in use at some moment of the log) and the scan. That the array of `measure_stack`, which is uninitialised in C, still has those bytes is the assumption of the file.

### Limits of the statements

* Messages for SHA-2 are below 2^61 bytes (2^60 in the API theorems): the C code has a 64-bit bit counter
  for both SHA-256 and SHA-512. Message pointers and lengths given to
  `ts_init_verify` fit the machine's words (`Config.Fits`), in which the union stores them.
* `unsigned` lengths given to `ts_sign`/`ts_update_verify` are any naturals: the model is more general than C there.
* `memcpy`/`memset` with length 0 are no-ops whatever the pointer.
* Verification with `len_message = 0` and a NULL message is covered (nothing is read).
* In `ts_gen_key` the regions of the two keys are disjoint (as `memcpy` demands).

### Not modelled

Run time in instructions, `printf` and progress output except the line of `ramspace.c` (C53), `ramspace.py`, failures of `fprintf`, 16-bit `int`, aliasing between caller buffers and the context.

### The known answers (C51)

A signature takes up to some millions of hash calls, too many to evaluate the specification as it stands in the kernel. `Verif/Kat` evaluates it in another way, proved equal to it:

* `Pack`, `Sha256*`, `Sha512*`, `Keccak*`: many hash calls of one shape are computed at once. The same word of each of the calls is a lane of one large natural number, so that additions, xors and
  shifts of all calls are single operations on `Nat`, for which the kernel has GMP. The theorems say that the lanes of the result are the values of the standard's compression function or permutation.
* `Eng`, `Xmss`, `Sign`, `Sub`: chains, WOTS+ keys, Merkle trees (leaves of a tree are lanes; trees of height 9 and more are cut into subtrees) and FORS, over any such implementation of the hash functions (`Sound`).
* `Ops256`, `Ops512`, `OpsK`, `Hash256`, `Hash512`, `Chunk`, `Final`: the hash families, the message hash, the SHA-256 hash of the signature in pieces.
* `Kat/<set>/P*.lean`, `Answer.lean`: the steps for one vector with the intermediate values as literals. They are written by `tools/katgen.py` (with `tools/kat.sh`), which is not trusted: each step is an equation that the
  kernel checks (`Eq.refl`, see `krfl`). The modules form two chains by imports so that at most two run at a time; they take about 12 minutes and 2 GB each.

### `krfl`

`Proof/KRfl.lean` defines a tactic that closes `a = b` with the term `Eq.refl a` without asking the elaborator
to check it. The kernel checks it when the theorem is added, as for any other proof; nothing is trusted. It is
used to run heavy symbolic computation (25 lanes of Keccak, 64/80 rounds of SHA-2) and the steps of C51 in the kernel.

## Properties → model → proof

| id | theorems (`Properties.*`) | model and proof |
|---|---|---|
| C01 | `C01_round_trip` | keygen + sign + verify in any builds, chunkings, junk; C02 + C05 + C12 and `verify (sign M) = true` for the specification |
| C02 | `C02_signature` | `ts_init_sign`, `ts_sign`; phase invariant of the signing loop: the next block written is the next block of `Slh.sign` |
| C03 | `C03_cursor`, `C03_chunking` | cursor theorem: request `i` gets exactly piece `i` of the signature |
| C04 | `C04_exact_length` | corollary of the cursor theorem |
| C05 | `C05_verdict` | `ts_init_verify`, `ts_update_verify`, `ts_verify`; phase invariant with the continuation of `Slh.verify` |
| C06 | `C06_chunking` | corollary of the log theorem |
| C07 | `C07_wrong_length` | corollary |
| C08 | `C08_failure_is_final` | corollary |
| C09 | `C09_prefix`, `C09_last`, `C09_extra` | corollary: exact return values |
| C10 | `C10_sign`, `C10_verify` | two runs from arbitrary contexts and junk agree |
| C11 | `C11_sign`, `C11_verify` | guards of the functions, on reachable contexts |
| C12 | `C12_keygen` | `ts_gen_key` over memory: treehash lemma + frame |
| C13 | `C13_null`, `C13_rng_failure`, `C13_null_public` | case analysis, with the whole memory in the statement |
| C14 | `C14_fallback`, `C14_random`, `C14_requests`, `C10_sign` | `ts_init_sign` with an arbitrary RNG |
| C15 | `C15_public_only` | memory containing nothing but public key and message |
| C16 | `C16_no_fault`, `C16_no_fault_keygen` | every legal history ends in `.ok` |
| C17 | `C17_sha2_optimization`, `C17_keygen` | prehash restored = block absorbed |
| C18 | `C18_keccak_f`, `C18_implementations_agree` | three permutations against the bit-level definition, all states |
| C19, C20 | `C19_sha256_streaming`, `C20_sha512_streaming` | invariant "the context has absorbed M" |
| C21 | `C21_shake256_streaming` | invariant "state = absorbed blocks xor pending", squeezing in pieces |
| C22 | `C22_sha256_final_trunc`, `C22_sha512_final_trunc` | the same invariants; rest of the buffer unchanged |
| C23 | `C23_sha256_save_restore`, `C23_sha512_save_restore` | the same invariants |
| C24 | `C24_digits`, `C24_no_domination` | `compute_wots_digits`; arithmetic on digit sums |
| C25 | `C25_domain_separation`, `C25_encoding` | address setters; encoding + injectivity |
| C26 | `C26_decoding`, `C26_prefix` | bit cursor invariant |
| C27 | `C27_table`, `C27_formulas`, `C27_objects`, `C04_exact_length` | size functions, parameter tables |
| C28 | `C28_configuration`, `C28_keygen` | two runs in different builds agree |
| C29 | `C29_sign`, `C29_verify` | memory may change after init / after the first n bytes |
| C30 | `C30_abstract_session` | histories of calls refine `Spec.Session`; induction over the history |
| C31 | `C31_contexts` | interleavings of calls on many contexts |
| C32 | `C32_query`, `C32_after_acceptance` | `ts_verify` as a query |
| C33 | `C33_one_time`, `C33_fors` | two signing runs with one key; structure of the signature |
| C34 | `C34_accepted`, `C34_tampering`, `C34_published`, `C34_all_calls` | backwards induction over climb, chains, layers; C24 for the chains |
| C35 | `C35_sign_reads`, `C35_sign_frame` | memory with only the key and message; after init only the two seeds |
| C36 | `C36_run_keygen`, `C36_run_sign`, `C36_get_sig_space`, `C36_get_sig_and_public_key`, `C36_get_ver_space`, `C36_vectors` | get_space.c, get_space2.c, test_testvector.c modelled in `Model/Clients.lean`; induction over the client loops on top of C02, C05, C12 |
| C37 | `C37_do_test`, `C37_failure`, `C37_test_verify` | test_verify.c modelled; the loops over chunks, offsets, bits by induction; failures reduced to C34's hash breaks |
| C38 | `C38_sha512_vector`, `C38_shake_vector`, `C38_shake_empty`, `C38_test_sha512`, `C38_test_shake256` | test_sha512.c, test_shake.c modelled with their vectors (`Model/HashVectors.lean`); C20–C23; the shipped vectors are evaluated by the kernel through the model and carried to the standard's functions by C20, C21 |
| C39 | `C39_status`, `C39_ran` | test_sphincs.c: argument loop and `run_tests`, induction over arguments and tests |
| C40 | `C40_sha256_in_place`, `C40_sha512_in_place`, `C40_sha256_model`, `C40_sha512_model` | `Model/InPlace.lean`: the union as bytes, word representation a parameter; simulation of the schedule window, then the streaming induction of C19/C20. `_model`: the functions used in the model of the API (which read a block before they write the schedule) are equal to those that work in place, contexts included, on a machine of either byte order |
| C41 | `C41_keygen`, `C41_outcome`, `C41_same` | leakage model (below); relational proof against the run of the same code on all-zero secrets |
| C42 | `C42_sign`, `C42_sign_any`, `C42_outcome`, `C42_same` | leakage model; simulator `Model/LeakSim.lean` that has only public data; relational proof (`LeakRel` … `LeakStrict`) that the digest and the digits computed from the signature (`Spec/Public.lean`) are those the code branches on |
| C43 | `C43_published`, `C43_members`, `C43_union`, `C43_optimization`, `C43_monotone`, `C43_largest`, `C43_smallest` | `Model/Layout.lean`: layout rules of C compilers over the declarations; general lemmas on offsets, the finitely many values of the size flags by kernel evaluation over all of them; the union's offsets are those of the byte model |
| C44 | `C44_keygen`, `C44_sign`, `C44_sign_all`, `C44_sign_bound`, `C44_latency` | the calls of the hash functions are events of the leakage model; `Spec/Cost.lean` gives the work of each block of a signature; a logic for costs (`Proof/Cost*.lean`): costs of leaves, nodes, authentication paths, of one step of the state machine, of the loop of `ts_sign` over the position in the signature, by induction |
| C45 | `C45_outcome`, `C45_verify`, `C45_verify_all`, `C45_verify_bound`, `C45_no_secret`, `C45_latency` | verification in the monad of events; the loop invariant of verification (`Proof/Verify*.lean`) extended by the position in the signature; cost logic (`Proof/CostVerify.lean`), sums (`Proof/CostVerifyTotal.lean`) |
| C46 | `C46_program`, `C46_portable`, `C46_fork` | `Model/Machine.lean`: programs over one memory and many contexts; refinement of `Spec/Machine.lean` statement by statement (C30, C12, C13), `C46_fork` is a concrete program |
| C47 | `C47_nesting`, `C47_stack`, `C47_sign`, `C47_verify`, `C47_two_kilobytes`, `C47_one_kilobyte`, `C47_measured`, `C47_critical` | stack model; a logic (`Proof/Stack*.lean`) in which every function, in any state, makes only calls of its callees and returns from all; ranks of functions give depth and absence of recursion; longest paths bound chains; the figures by kernel evaluation of the longest paths, for all configurations by monotonicity |
| C48 | `C48_keygen`, `C48_sign`, `C48_sign_all`, `C48_sign_bound`, `C48_keygen_saving`, `C48_sign_saving`, `C48_family`, `C48_latency`, `C48_figures`, `C48_attained` | `Spec/Work.lean` gives the number of blocks of each hash function from the lengths of its inputs; the cost logic again, for events weighted by a meter (`Proof/Work*.lean`), with the position in the block as part of the state of an iterated hash; the saving by linearity in the prices |
| C49 | `C49_verify`, `C49_verify_all`, `C49_verify_bound`, `C49_verify_saving`, `C49_family`, `C49_latency` | `Spec/WorkVerify.lean`; as C45 with the prices of C48 (`Proof/WorkVerify*.lean`) |
| C50 | `C50_keygen`, `C50_sign`, `C50_verify`, `C50_keygen_any`, `C50_report`, `C50_array`, `C50_same_report`, `C50_figures`, `C50_advice` | stack model of C47 and `Model/Measure.lean` (stack.c); a logic (`Proof/StackHit*.lean`) of chains of calls that occur in every successful run, for signing and verification with the invariants of C01 and C05; that these chains are the longest paths of the call graph is computed for every configuration |
| C51 | `C51_test_testvector`, `C51_standard` | `Model/TestVectors.lean`: the vectors of testvector.h and the loop of test_testvector; the round of C36 reduces it to the standard's key and signature; those are computed by the kernel (below) |
| C52 | `C52_forgery`, `C52_shown` | C34 (acceptance means a signature the owner would make, or a break) with the history: `Signed` is a whole signature operation of the model; if the accepted bytes are what the owner would make, the FORS values they show are compared with those of the history |
| C53 | `C53_do_test`, `C53_same`, `C53_get_ver_space`, `C53_measured`, `C53_line`, `C53_columns`, `C53_file`, `C53_no_name`, `C53_never_failed` | `Model/Heap.lean`: test_verify.c, get_space.c and get_space2.c with `malloc`/`free` on an explicit heap and an arbitrary library (`Calls`), ramspace.c with its formats; invariant "one block besides the initial heap, or given up and the initial heap"; simulation of C37's model by the one with the heap |
| C54 | `C54_left_in_context`, `C54_after_signature`, `C54_after_init` | `Model/Observer.lean`: the signer's code with every call of PRF and PRF_msg replaced by look-ups in tables of images and in the signature; `Spec/Residue.lean` defines the tables and the positions; forward simulation signer → observer, contexts equal up to the scratch iterator, which every complete hash computation overwrites with a value that depends on the hashed data only (`ResidueHash`). Not modelled: bytes of the union of hash states beyond the member last written (in particular the tail of a SHA-512 context after a SHA-256 computation), the four padding bytes of `SHA512_CTX` on machines that align `uint64_t` to 8, and what the functions leave on the stack |

No property is inexpressible in the model. Instruction latencies and what compilers add are outside.

## Trusted base

* Lean's kernel. Every theorem listed in `MANIFEST.json` depends on no axioms other than `propext`,
  `Classical.choice` and `Quot.sound` (checked with `#print axioms`); there are no axioms of our own, no compiled code
  is trusted.
* The reading of the C code recorded in the comments of `Verif/Model` (files: endian.c, sha256.c, sha512.c, fips202.c,
  sha256_hash.c, sha256_L1_hash.c, sha256_L1_hash_simple.c, sha512_hash.c, sha512_L35_hash_simple.c, sha2_simple.c,
  shake256_hash.c, shake256_simple.c, the 12 parameter set files, key_gen.c, size.c, tiny_sphincs.c, verify.c, and
  the types of tiny_sphincs.h, internal.h, tune.h). C51 proves that the specification, and
  with it the model, gives the answers of the repository's test vectors (all twelve sets), so a slip in reading a constant or the order of two
  inputs in `Verif/Spec` would have shown.
* The specifications in `Verif/Spec` and the contracts in `Verif/Model/Contract.lean`, which occur in the statements.

## Testing the theorems

`seeded/LOG.jsonl` has one line per wrong program tried: the definition of the model that was edited, the edit, the claim it
breaks, and the theorems that could no longer be proved.
