{
 "claims": [
  {
   "property": "C01",
   "status": "proved",
   "theorems": [
    "Properties.C01_round_trip"
   ],
   "note": ""
  },
  {
   "property": "C02",
   "status": "proved",
   "theorems": [
    "Properties.C02_signature"
   ],
   "note": ""
  },
  {
   "property": "C03",
   "status": "proved",
   "theorems": [
    "Properties.C03_cursor",
    "Properties.C03_chunking"
   ],
   "note": ""
  },
  {
   "property": "C04",
   "status": "proved",
   "theorems": [
    "Properties.C04_exact_length"
   ],
   "note": ""
  },
  {
   "property": "C05",
   "status": "proved",
   "theorems": [
    "Properties.C05_verdict"
   ],
   "note": ""
  },
  {
   "property": "C06",
   "status": "proved",
   "theorems": [
    "Properties.C06_chunking"
   ],
   "note": ""
  },
  {
   "property": "C07",
   "status": "proved",
   "theorems": [
    "Properties.C07_wrong_length"
   ],
   "note": ""
  },
  {
   "property": "C08",
   "status": "proved",
   "theorems": [
    "Properties.C08_failure_is_final"
   ],
   "note": ""
  },
  {
   "property": "C09",
   "status": "proved",
   "theorems": [
    "Properties.C09_prefix",
    "Properties.C09_last",
    "Properties.C09_extra"
   ],
   "note": ""
  },
  {
   "property": "C10",
   "status": "proved",
   "theorems": [
    "Properties.C10_sign",
    "Properties.C10_verify"
   ],
   "note": ""
  },
  {
   "property": "C11",
   "status": "proved",
   "theorems": [
    "Properties.C11_sign",
    "Properties.C11_verify"
   ],
   "note": ""
  },
  {
   "property": "C12",
   "status": "proved",
   "theorems": [
    "Properties.C12_keygen"
   ],
   "note": ""
  },
  {
   "property": "C13",
   "status": "proved",
   "theorems": [
    "Properties.C13_null",
    "Properties.C13_rng_failure",
    "Properties.C13_null_public"
   ],
   "note": ""
  },
  {
   "property": "C14",
   "status": "proved",
   "theorems": [
    "Properties.C14_fallback",
    "Properties.C14_random",
    "Properties.C14_requests",
    "Properties.C10_sign"
   ],
   "note": ""
  },
  {
   "property": "C15",
   "status": "proved",
   "theorems": [
    "Properties.C15_public_only"
   ],
   "note": ""
  },
  {
   "property": "C16",
   "status": "proved",
   "theorems": [
    "Properties.C16_no_fault",
    "Properties.C16_no_fault_keygen"
   ],
   "note": ""
  },
  {
   "property": "C17",
   "status": "proved",
   "theorems": [
    "Properties.C17_sha2_optimization",
    "Properties.C17_keygen"
   ],
   "note": ""
  },
  {
   "property": "C18",
   "status": "proved",
   "theorems": [
    "Properties.C18_keccak_f",
    "Properties.C18_implementations_agree"
   ],
   "note": "all three permutation implementations, every state, against the bit-level FIPS 202 definition"
  },
  {
   "property": "C19",
   "status": "proved",
   "theorems": [
    "Properties.C19_sha256_streaming"
   ],
   "note": "total length below 2^61 bytes, the range of the 64-bit bit counter"
  },
  {
   "property": "C20",
   "status": "proved",
   "theorems": [
    "Properties.C20_sha512_streaming"
   ],
   "note": "total length below 2^61 bytes: the code keeps a 64-bit bit counter"
  },
  {
   "property": "C21",
   "status": "proved",
   "theorems": [
    "Properties.C21_shake256_streaming"
   ],
   "note": ""
  },
  {
   "property": "C22",
   "status": "proved",
   "theorems": [
    "Properties.C22_sha256_final_trunc",
    "Properties.C22_sha512_final_trunc"
   ],
   "note": ""
  },
  {
   "property": "C23",
   "status": "proved",
   "theorems": [
    "Properties.C23_sha256_save_restore",
    "Properties.C23_sha512_save_restore"
   ],
   "note": ""
  },
  {
   "property": "C24",
   "status": "proved",
   "theorems": [
    "Properties.C24_digits",
    "Properties.C24_no_domination"
   ],
   "note": "stated on compute_wots_digits; that the signature is made from these digits is C02"
  },
  {
   "property": "C25",
   "status": "proved",
   "theorems": [
    "Properties.C25_domain_separation",
    "Properties.C25_encoding"
   ],
   "note": "stated on every address setter sequence of the code; that each hash call uses the right one is C02/C05"
  },
  {
   "property": "C26",
   "status": "proved",
   "theorems": [
    "Properties.C26_decoding",
    "Properties.C26_prefix"
   ],
   "note": ""
  },
  {
   "property": "C27",
   "status": "proved",
   "theorems": [
    "Properties.C27_table",
    "Properties.C27_formulas",
    "Properties.C27_objects",
    "Properties.C04_exact_length"
   ],
   "note": ""
  },
  {
   "property": "C28",
   "status": "proved",
   "theorems": [
    "Properties.C28_configuration",
    "Properties.C28_keygen"
   ],
   "note": ""
  },
  {
   "property": "C29",
   "status": "proved",
   "theorems": [
    "Properties.C29_sign",
    "Properties.C29_verify"
   ],
   "note": ""
  },
  {
   "property": "C30",
   "status": "proved",
   "theorems": [
    "Properties.C30_abstract_session"
   ],
   "note": ""
  },
  {
   "property": "C31",
   "status": "proved",
   "theorems": [
    "Properties.C31_contexts"
   ],
   "note": ""
  },
  {
   "property": "C32",
   "status": "proved",
   "theorems": [
    "Properties.C32_query",
    "Properties.C32_after_acceptance"
   ],
   "note": ""
  },
  {
   "property": "C33",
   "status": "proved",
   "theorems": [
    "Properties.C33_one_time",
    "Properties.C33_fors"
   ],
   "note": "the key pair used is read off the digest that a verifier computes"
  },
  {
   "property": "C34",
   "status": "proved",
   "theorems": [
    "Properties.C34_accepted",
    "Properties.C34_tampering",
    "Properties.C34_published",
    "Properties.C34_all_calls"
   ],
   "note": "the break is explicit: the second preimage is among the listed hash calls of the check (Spec/Trace.lean), the chain value is a block of the signature; no computational assumption is made"
  },
  {
   "property": "C35",
   "status": "proved",
   "theorems": [
    "Properties.C35_sign_reads",
    "Properties.C35_sign_frame"
   ],
   "note": ""
  },
  {
   "property": "C36",
   "status": "proved",
   "theorems": [
    "Properties.C36_run_keygen",
    "Properties.C36_run_sign",
    "Properties.C36_get_sig_space",
    "Properties.C36_get_sig_and_public_key",
    "Properties.C36_get_ver_space",
    "Properties.C36_vectors"
   ],
   "note": ""
  },
  {
   "property": "C37",
   "status": "proved",
   "theorems": [
    "Properties.C37_do_test",
    "Properties.C37_failure",
    "Properties.C37_test_verify"
   ],
   "note": ""
  },
  {
   "property": "C38",
   "status": "proved",
   "theorems": [
    "Properties.C38_sha512_vector",
    "Properties.C38_shake_vector",
    "Properties.C38_shake_empty",
    "Properties.C38_test_sha512",
    "Properties.C38_test_shake256"
   ],
   "note": ""
  },
  {
   "property": "C39",
   "status": "proved",
   "theorems": [
    "Properties.C39_status",
    "Properties.C39_ran"
   ],
   "note": ""
  },
  {
   "property": "C40",
   "status": "proved",
   "theorems": [
    "Properties.C40_sha256_in_place",
    "Properties.C40_sha512_in_place",
    "Properties.C40_sha256_model",
    "Properties.C40_sha512_model"
   ],
   "note": "_model: the hash functions in the model of the API equal the ones that work in place, contexts included, for the byte order of the machine"
  },
  {
   "property": "C41",
   "status": "proved",
   "theorems": [
    "Properties.C41_keygen",
    "Properties.C41_outcome",
    "Properties.C41_same"
   ],
   "note": "leakage model: program counter, indices, addresses, variable shifts; not instruction latencies"
  },
  {
   "property": "C42",
   "status": "proved",
   "theorems": [
    "Properties.C42_sign",
    "Properties.C42_sign_any",
    "Properties.C42_outcome",
    "Properties.C42_same"
   ],
   "note": "leakage model: program counter, indices, addresses, variable shifts; not instruction latencies"
  },
  {
   "property": "C43",
   "status": "proved",
   "theorems": [
    "Properties.C43_published",
    "Properties.C43_members",
    "Properties.C43_union",
    "Properties.C43_optimization",
    "Properties.C43_monotone",
    "Properties.C43_largest",
    "Properties.C43_smallest"
   ],
   "note": "The C layout rules applied to the declarations; C43_union ties them to the byte-level model of the union x."
  },
  {
   "property": "C44",
   "status": "proved",
   "theorems": [
    "Properties.C44_keygen",
    "Properties.C44_sign",
    "Properties.C44_sign_all",
    "Properties.C44_sign_bound",
    "Properties.C44_latency"
   ],
   "note": "Calls of prf_msg, hash_msg, prf, f, init_t, next_t, final_t as events of the leakage model."
  },
  {
   "property": "C45",
   "status": "proved",
   "theorems": [
    "Properties.C45_outcome",
    "Properties.C45_verify",
    "Properties.C45_verify_all",
    "Properties.C45_verify_bound",
    "Properties.C45_no_secret",
    "Properties.C45_latency"
   ],
   "note": "Exact number of calls of each hash function by verification of any bytes in any pieces, closed form for a whole signature, bound, latency of one call. Calls of the functions of the parameter set are counted, not instructions."
  },
  {
   "property": "C46",
   "status": "proved",
   "theorems": [
    "Properties.C46_program",
    "Properties.C46_portable",
    "Properties.C46_fork"
   ],
   "note": "step-by-step refinement of Spec/Machine.lean; the buffers of ts_sign are in memory; contexts may be copied"
  },
  {
   "property": "C47",
   "status": "proved",
   "theorems": [
    "Properties.C47_nesting",
    "Properties.C47_stack",
    "Properties.C47_sign",
    "Properties.C47_verify",
    "Properties.C47_two_kilobytes",
    "Properties.C47_one_kilobyte",
    "Properties.C47_measured",
    "Properties.C47_critical"
   ],
   "note": "call graph and sizes of declarations are transcribed; what the compiler adds to frames is not counted (C47_stack is for any sizes of frames)"
  },
  {
   "property": "C48",
   "status": "proved",
   "theorems": [
    "Properties.C48_keygen",
    "Properties.C48_sign",
    "Properties.C48_sign_all",
    "Properties.C48_sign_bound",
    "Properties.C48_keygen_saving",
    "Properties.C48_sign_saving",
    "Properties.C48_family",
    "Properties.C48_latency",
    "Properties.C48_figures",
    "Properties.C48_attained"
   ],
   "note": "Calls of the compression functions and the permutation as events of the leakage model."
  },
  {
   "property": "C49",
   "status": "proved",
   "theorems": [
    "Properties.C49_verify",
    "Properties.C49_verify_all",
    "Properties.C49_verify_bound",
    "Properties.C49_verify_saving",
    "Properties.C49_family",
    "Properties.C49_latency"
   ],
   "note": "Calls of the compression functions and the permutation as events of the leakage model."
  },
  {
   "property": "C50",
   "status": "proved",
   "theorems": [
    "Properties.C50_keygen",
    "Properties.C50_sign",
    "Properties.C50_verify",
    "Properties.C50_keygen_any",
    "Properties.C50_report",
    "Properties.C50_array",
    "Properties.C50_same_report",
    "Properties.C50_figures",
    "Properties.C50_advice"
   ],
   "note": "Sizes of declarations as in C47; that the array of measure_stack still has the bytes the routine left is what stack.c assumes (undefined behaviour in C)."
  },
  {
   "property": "C51",
   "status": "proved",
   "theorems": [
    "Properties.C51_test_testvector",
    "Properties.C51_standard"
   ],
   "note": "The known answers are computed by the kernel (Verif/Kat): 12 key generations and signatures, each hash checked in packed arithmetic against the standard of Verif/Spec; the certificates come from an untrusted generator (tools/katgen.py). fast_flag and the printed lines are not modelled."
  },
  {
   "property": "C52",
   "status": "proved",
   "theorems": [
    "Properties.C52_forgery",
    "Properties.C52_shown"
   ],
   "note": "the break is explicit, as in C34; no computational assumption is made, and no probability is attached to the last case (that is the security analysis of FORS)"
  },
  {
   "property": "C53",
   "status": "proved",
   "theorems": [
    "Properties.C53_do_test",
    "Properties.C53_same",
    "Properties.C53_get_ver_space",
    "Properties.C53_measured",
    "Properties.C53_line",
    "Properties.C53_columns",
    "Properties.C53_file",
    "Properties.C53_no_name",
    "Properties.C53_never_failed"
   ],
   "note": "the library is a parameter (functions that do not fault) in C53_do_test and C53_get_ver_space, and the model of this repository in the others; fopen, fprintf and fclose are assumed not to fail after a successful open"
  },
  {
   "property": "C54",
   "status": "proved",
   "theorems": [
    "Properties.C54_left_in_context",
    "Properties.C54_after_signature",
    "Properties.C54_after_init"
   ],
   "note": "the observer (Model/Observer.lean) is the signer without its calls of PRF and PRF_msg; it is given tables of images instead, so it cannot depend on the private key otherwise. Bytes of the union of hash states beyond the member last written, padding inside SHA512_CTX, and the stack are not part of the modelled context"
  }
 ]
}