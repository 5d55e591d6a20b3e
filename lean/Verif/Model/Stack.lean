import Verif.Model.LeakBasic
import Verif.Model.Layout
/-!
# Which function calls which, and what they declare

The static call graph of the library, and the parameters and local variables of its functions.
-/
namespace Model.Stack
open Leak (CFn)
open Model.Layout

/-- The hash family of a parameter set: the functions named in `sha2_*_simple.c:7-28`, `shake256_*_simple.c:7-24`. -/
def famOf : PsName → Fam
  | .sha2_128f | .sha2_128s => .sha2L1
  | .sha2_192f | .sha2_192s | .sha2_256f | .sha2_256s => .sha2L35
  | .shake_128f | .shake_128s | .shake_192f | .shake_192s | .shake_256f | .shake_256s => .shake

/-- `ps->prf_msg`, internal.h:31-33. -/
def prf_msg : Fam → CFn
  | .shake => .ts_shake256_prf_msg | .sha2L1 => .ts_sha2_L1_prf_msg | .sha2L35 => .ts_sha2_L35_prf_msg
/-- `ps->hash_msg`, internal.h:34-37. -/
def hash_msg : Fam → CFn
  | .shake => .ts_shake256_hash_msg | .sha2L1 => .ts_sha2_L1_hash_msg | .sha2L35 => .ts_sha2_L35_hash_msg
/-- `ps->prf`, internal.h:38. -/
def prf : Fam → CFn
  | .shake => .ts_shake256_prf | .sha2L1 | .sha2L35 => .ts_sha2_prf
/-- `ps->f`, internal.h:39-41. -/
def f : Fam → CFn
  | .shake => .ts_shake256_f_simple | .sha2L1 | .sha2L35 => .ts_sha2_f_simple
/-- `ps->init_t`, internal.h:48. -/
def init_t : Fam → CFn
  | .shake => .ts_shake256_init_t_simple | .sha2L1 => .ts_sha2_L1_init_t_simple | .sha2L35 => .ts_sha2_L35_init_t_simple
/-- `ps->next_t`, internal.h:49-50. -/
def next_t : Fam → CFn
  | .shake => .ts_shake256_next_t_simple | .sha2L1 => .ts_sha2_L1_next_t_simple | .sha2L35 => .ts_sha2_L35_next_t_simple
/-- `ps->final_t`, internal.h:51-52. -/
def final_t : Fam → CFn
  | .shake => .ts_shake256_final_t_simple | .sha2L1 => .ts_sha2_L1_final_t_simple | .sha2L35 => .ts_sha2_L35_final_t_simple
/-- `ps->compute_prehash`, if `TS_SHA2_OPTIMIZATION` is on, internal.h:57. -/
def prehash (opt : Bool) : Fam → List CFn
  | .shake => []
  | .sha2L1 => if opt then [.ts_sha2_L1_prehash] else []
  | .sha2L35 => if opt then [.ts_sha2_L35_prehash] else []

/-- The setters of the fields of the address, tiny_sphincs.c:24-77. -/
def adrSetters : List CFn := [.set_layer_adr, .set_tree_adr, .set_type_adr, .set_keypair_adr, .set_tree_height_adr, .set_tree_index_adr]

/-- The functions (those in `CFn`) whose calls appear in the body of a function; the pointers of the parameter set point to the functions of the family `F`;
`opt` is `TS_SHA2_OPTIMIZATION`. File and lines are at the cases. -/
def callees (opt : Bool) (F : Fam) : CFn → List CFn
  -- sha256.c:53-185
  | .compress => []
  | .ts_SHA256_update => [.compress]
  | .ts_SHA256_final => [.ts_SHA256_final_trunc]
  | .ts_SHA256_final_trunc => [.ts_SHA256_update]
  -- sha512.c:76-205
  | .sha512_compress => []
  | .ts_SHA512_update => [.sha512_compress]
  | .ts_SHA512_final => [.ts_SHA512_final_trunc]
  | .ts_SHA512_final_trunc => [.ts_SHA512_update]
  -- fips202.c:67-570
  | .KeccakF1600_StatePermute => []
  | .keccak_inc_absorb => [.KeccakF1600_StatePermute]
  | .keccak_inc_squeeze => [.KeccakF1600_StatePermute]
  | .ts_shake256_inc_init => []
  | .ts_shake256_inc_absorb => [.keccak_inc_absorb]
  | .ts_shake256_inc_finalize => []
  | .ts_shake256_inc_squeeze => [.keccak_inc_squeeze]
  -- sha256_hash.c:19-55, sha2_simple.c:14-25
  | .ts_sha256_init_ctx => if opt then [] else [.ts_SHA256_update]
  | .ts_sha2_prf => [.ts_sha256_init_ctx, .ts_SHA256_update, .ts_SHA256_final_trunc]
  | .ts_sha2_f_simple => [.ts_sha256_init_ctx, .ts_SHA256_update, .ts_SHA256_final_trunc]
  -- sha256_L1_hash.c:16-92, sha256_L1_hash_simple.c:29-71
  | .ts_sha2_L1_prf_msg => [.ts_SHA256_update, .ts_SHA256_final, .ts_SHA256_final_trunc]
  | .ts_sha2_L1_hash_msg => [.ts_SHA256_update, .ts_SHA256_final]
  | .ts_sha2_L1_init_t_simple => [.ts_sha256_init_ctx, .ts_SHA256_update]
  | .ts_sha2_L1_next_t_simple => [.ts_SHA256_update]
  | .ts_sha2_L1_final_t_simple => [.ts_SHA256_final_trunc]
  | .ts_sha2_L1_prehash => [.ts_SHA256_update]
  -- sha512_hash.c:10-93, sha512_L35_hash_simple.c:28-76
  | .ts_sha512_init_ctx => if opt then [] else [.ts_SHA512_update]
  | .ts_sha2_L35_prf_msg => [.ts_SHA512_update, .ts_SHA512_final, .ts_SHA512_final_trunc]
  | .ts_sha2_L35_hash_msg => [.ts_SHA512_update, .ts_SHA512_final]
  | .ts_sha2_L35_init_t_simple => [.ts_sha512_init_ctx, .ts_SHA512_update]
  | .ts_sha2_L35_next_t_simple => [.ts_SHA512_update]
  | .ts_sha2_L35_final_t_simple => [.ts_SHA512_final_trunc]
  | .ts_sha2_L35_prehash => [.ts_sha2_L1_prehash, .ts_SHA512_update]
  -- shake256_hash.c:17-77, shake256_simple.c:17-62
  | .ts_shake256_prf_msg | .ts_shake256_hash_msg | .ts_shake256_prf =>
    [.ts_shake256_inc_init, .ts_shake256_inc_absorb, .ts_shake256_inc_finalize, .ts_shake256_inc_squeeze]
  | .ts_shake256_f_simple => [.ts_shake256_init_t_simple, .ts_shake256_next_t_simple, .ts_shake256_final_t_simple]
  | .ts_shake256_init_t_simple => [.ts_shake256_inc_init, .ts_shake256_inc_absorb]
  | .ts_shake256_next_t_simple => [.ts_shake256_inc_absorb]
  | .ts_shake256_final_t_simple => [.ts_shake256_inc_finalize, .ts_shake256_inc_squeeze]
  -- tiny_sphincs.c:24-158
  | .set_layer_adr | .set_tree_adr | .set_type_adr | .set_keypair_adr | .set_tree_height_adr | .set_tree_index_adr => []
  | .set_fors_prf_adr | .ts_set_fors_leaf_adr | .set_wots_prf_adr | .ts_set_wots_f_adr | .ts_set_merkle_adr | .ts_set_fors_root_adr
  | .ts_set_wots_header_adr => adrSetters
  -- tiny_sphincs.c:163-260
  | .fors_prf => [.set_fors_prf_adr, prf F]
  | .wots_prf => [.set_wots_prf_adr, prf F]
  | .fors_leaf => [.set_fors_prf_adr, prf F, .set_type_adr, f F]
  | .ts_merkle_path => [.fors_leaf, .ts_wots_leaf, .ts_set_merkle_adr, init_t F, next_t F, final_t F]
  -- tiny_sphincs.c:266-434
  | .ts_convert_message_hash => []
  | .ts_init_sign => prehash opt F ++ [prf_msg F, hash_msg F, .ts_convert_message_hash, .ts_set_fors_root_adr, init_t F]
  | .ts_set_up_wots_signature => []
  | .generate_next_wots_hash => [.wots_prf, .ts_set_wots_f_adr, f F]
  | .ts_wots_leaf => [.ts_set_wots_header_adr, init_t F, .wots_prf, .ts_set_wots_f_adr, f F, next_t F, final_t F]
  -- tiny_sphincs.c:441-542
  | .ts_sign => [.fors_prf, .fors_leaf, .ts_merkle_path, next_t F, final_t F, .ts_set_up_wots_signature, .generate_next_wots_hash, .ts_wots_leaf]
  -- key_gen.c:9-68
  | .ts_gen_key => prehash opt F ++ [.ts_wots_leaf, .ts_merkle_path]
  -- verify.c:30-237
  | .ts_init_verify => prehash opt F
  | .next_auth_path => [.ts_set_merkle_adr, init_t F, next_t F, final_t F]
  | .set_up_wots_verify_signature => [.ts_set_up_wots_signature, .ts_set_wots_header_adr, init_t F]
  | .ts_update_verify => [hash_msg F, .ts_convert_message_hash, .ts_set_fors_root_adr, init_t F, .ts_set_fors_leaf_adr, f F, .next_auth_path, next_t F, final_t F,
      .set_up_wots_verify_signature, .ts_set_wots_f_adr]

/-- The functions of the API that are in `CFn` (`ts_verify`, verify.c:243-245, calls nothing). -/
def api : List CFn := [.ts_gen_key, .ts_init_sign, .ts_sign, .ts_init_verify, .ts_update_verify]

/-- `ts_ull_to_bytes`, endian.c:19-24: `p`, `val`, `n`, `i`. -/
def ull_to_bytes (a : Abi) : List Ty := [a.word, a.u64, int, int]
/-- `ts_bytes_to_ull`, endian.c:7-13: `p`, `n`, `res`, `i`. -/
def bytes_to_ull (a : Abi) : List Ty := [a.word, int, a.u64, int]

/-- Parameters and local variables of a function, in the order of their declaration, those of inner blocks included. Return values, temporaries and saved registers, which the
compiler adds, are not included. File and lines are at the cases. -/
def declared (a : Abi) (c : Config) : CFn → List Ty
  -- sha256.c:53-58: ctx, buf, S0-S7 t0 t1 t, i, p
  | .compress => [a.word, a.word] ++ List.replicate 11 int ++ [int, a.word]
  -- sha256.c:122-130: ctx, src, input_count, p, this_step, this_block
  | .ts_SHA256_update => [a.word, a.word, a.u64, a.word, int, a.word]
  | .ts_SHA256_final => [a.word, a.word]
  -- sha256.c:158-175: digest, ctx, n, finalcount, i
  | .ts_SHA256_final_trunc => [a.word, a.word, int, char.array 8, int]
  -- sha512.c:76-90: ctx, buf, S, t0, t1, i, p
  | .sha512_compress => [a.word, a.word, a.u64.array 8, a.u64, a.u64, int, a.word]
  | .ts_SHA512_update => [a.word, a.word, a.u64, a.word, int, a.word]
  | .ts_SHA512_final => [a.word, a.word]
  | .ts_SHA512_final_trunc => [a.word, a.word, int, char.array 16, int]
  -- fips202.c:67-114 (BC, D, E, and A if TS_SHAKE256_OPT is 0), 369-391: st; i, j, r, t, bc
  | .KeccakF1600_StatePermute =>
    if c.shakeOpt = 2 then [a.word, int, int, int, a.u64, a.u64.array 5]
    else [a.word, int] ++ List.replicate 35 a.u64 ++ (if c.shakeOpt = 1 then [] else List.replicate 25 a.u64)
  -- fips202.c:464-467: ctx, r, m, mlen, s_inc, i
  | .keccak_inc_absorb => [a.word, int, a.word, a.word, a.word, a.word]
  -- fips202.c:525-528: h, outlen, ctx, r, s_inc, i
  | .keccak_inc_squeeze => [a.word, a.word, a.word, int, a.word, a.word]
  | .ts_shake256_inc_init => [a.word]
  | .ts_shake256_inc_absorb => [a.word, a.word, a.word]
  | .ts_shake256_inc_finalize => [a.word]
  | .ts_shake256_inc_squeeze => [a.word, a.word, a.word]
  -- sha256_hash.c:19-55: output, sc, n, ctx; ctx, sc, n, i (the last two without TS_SHA2_OPTIMIZATION)
  | .ts_sha256_init_ctx => [a.word, a.word] ++ if c.sha2opt then [] else [int, int]
  | .ts_sha2_prf => [a.word, a.word, int, a.word]
  -- sha2_simple.c:14-18: output, inblock, sc, ctx, n
  | .ts_sha2_f_simple => [a.word, a.word, a.word, a.word, int]
  -- sha256_L1_hash.c:16-43: output, opt_buffer, message, len_message, sc, n, public_key, ctx, block, hash_output, i, i
  | .ts_sha2_L1_prf_msg => [a.word, a.word, a.word, a.word, a.word, int, a.word, a.word, char.array 64, char.array 32, int, int]
  -- sha256_L1_hash.c:51-85: output, len_output, randomness, message, len_message, sc, n, public_key, ctx, msg_hash, i, buffer, bytes
  | .ts_sha2_L1_hash_msg => [a.word, a.word, a.word, a.word, a.word, a.word, int, a.word, a.word, char.array (2 * c.MAX_HASH + 32 + 4), int, char.array 32, int]
  -- sha256_L1_hash_simple.c:29-71: t, ctx; t, input, ctx, n; output, t, ctx, n; sc, n, ctx, i
  | .ts_sha2_L1_init_t_simple => [a.word, a.word]
  | .ts_sha2_L1_next_t_simple => [a.word, a.word, a.word, int]
  | .ts_sha2_L1_final_t_simple => [a.word, a.word, a.word, int]
  | .ts_sha2_L1_prehash => [a.word, int, a.word, int]
  -- sha512_hash.c:10-93
  | .ts_sha512_init_ctx => [a.word, a.word] ++ if c.sha2opt then [] else [int, int]
  | .ts_sha2_L35_prf_msg => [a.word, a.word, a.word, a.word, a.word, int, a.word, a.word, char.array 128, char.array 64, int, int]
  | .ts_sha2_L35_hash_msg => [a.word, a.word, a.word, a.word, a.word, a.word, int, a.word, a.word, char.array (2 * c.MAX_HASH + 64 + 4), int, char.array 64, int]
  -- sha512_L35_hash_simple.c:28-76
  | .ts_sha2_L35_init_t_simple => [a.word, a.word]
  | .ts_sha2_L35_next_t_simple => [a.word, a.word, a.word, int]
  | .ts_sha2_L35_final_t_simple => [a.word, a.word, a.word, int]
  | .ts_sha2_L35_prehash => [a.word, int, a.word, int]
  -- shake256_hash.c:17-66: output, opt_rand, message, len_message, sc, n, public_key, ctx; output, len_output, randomness, message, len_message, sc, n, public_key, ctx, pk_seed,
  -- pk_root; output, sc, n, ctx
  | .ts_shake256_prf_msg => [a.word, a.word, a.word, a.word, a.word, int, a.word, a.word]
  | .ts_shake256_hash_msg => [a.word, a.word, a.word, a.word, a.word, a.word, int, a.word, a.word, a.word, a.word]
  | .ts_shake256_prf => [a.word, a.word, int, a.word]
  -- shake256_simple.c:17-57: output, inblock, ctx, t; t, ctx, n, public_key, iter; t, input, ctx, n, iter; output, t, ctx, n, iter
  | .ts_shake256_f_simple => [a.word, a.word, a.word, a.word]
  | .ts_shake256_init_t_simple => [a.word, a.word, int, a.word, a.word]
  | .ts_shake256_next_t_simple => [a.word, a.word, a.word, int, a.word]
  | .ts_shake256_final_t_simple => [a.word, a.word, a.word, int, a.word]
  -- tiny_sphincs.c:24-77: the value and ctx
  | .set_tree_adr => [a.u64, a.word]
  | .set_layer_adr | .set_type_adr | .set_keypair_adr | .set_tree_height_adr | .set_tree_index_adr => [int, a.word]
  -- tiny_sphincs.c:85-158: ctx and one, two or three numbers
  | .set_fors_prf_adr | .ts_set_fors_leaf_adr => [a.word, int]
  | .set_wots_prf_adr => [a.word, int, int]
  | .ts_set_wots_f_adr => [a.word, int, int, int]
  | .ts_set_merkle_adr => [a.word, int, int, int]
  | .ts_set_fors_root_adr => [a.word]
  | .ts_set_wots_header_adr => [int, a.word]
  -- tiny_sphincs.c:163-188: output, one or two numbers, ctx
  | .fors_prf | .fors_leaf => [a.word, int, a.word]
  | .wots_prf => [a.word, int, int, a.word]
  -- tiny_sphincs.c:204-249: gen_leaf, ctx, typecode, stack, n, h, size_h, node, i, k, nod, t, t
  | .ts_merkle_path => [a.word, a.word, int, a.word, int, int, int, int, int, int, int, a.word, a.word]
  -- tiny_sphincs.c:266-280: ctx, message_hash, ps, hash_offset, bit_so_far, k, this_index, t, bit
  | .ts_convert_message_hash => [a.word, a.word, a.word, int, int, int, int, int, int]
  -- tiny_sphincs.c:313-343: ctx, message, len_message, ps, private_key, random_function, n, randomness, opt_buffer, message_hash
  | .ts_init_sign => [a.word, a.word, a.word, a.word, a.word, a.word, int, a.word, char.array c.MAX_HASH, char.array MAX_MESSAGE_HASH]
  -- tiny_sphincs.c:391-434: ctx, next_leaf; ctx, digit, i; output, leaf_index, ctx, d, i
  | .ts_set_up_wots_signature => [a.word, int]
  | .generate_next_wots_hash => [a.word, int, int]
  | .ts_wots_leaf => [a.word, int, a.word, int, int]
  -- tiny_sphincs.c:441-504: dest, m, ctx, orig_m, n, remain, node, d
  | .ts_sign => [a.word, int, a.word, int, int, int, int, int]
  -- key_gen.c:9-52: private_key, public_key, ps, random_function, n, ctx, pub, i
  | .ts_gen_key => [a.word, a.word, a.word, a.word, int, ts_context a c, a.word, int]
  -- verify.c:30-33: ctx, message, len_message, ps, public_key
  | .ts_init_verify => [a.word, a.word, a.word, a.word, a.word]
  -- verify.c:55-63: ctx, typecode, h, size_h, t
  | .next_auth_path => [a.word, int, int, int, a.word]
  | .set_up_wots_verify_signature => [a.word, int]
  -- verify.c:101-210: sig, m, ctx, n, buffer_offset, remain, digit, i, d, next_leaf
  | .ts_update_verify => [a.word, int, a.word, int, int, int, int, int, int, int]

/-- The functions that call nothing and that `g` calls, as the lists of their parameters and local variables. File and lines are at the cases. -/
def leaves (a : Abi) (c : Config) : CFn → List (List Ty)
  -- `ts_bytes_to_ull`, and `RORc`, sha256.c:40-45: x, rot, right, left (`unsigned long`, taken to be as wide as a pointer)
  | .compress => [bytes_to_ull a, [int, int, a.word, a.word]]
  | .sha512_compress => [bytes_to_ull a]
  | .ts_SHA256_final_trunc | .ts_SHA512_final_trunc => [ull_to_bytes a]
  -- `ROL`, fips202.c:35-37: a, offset
  | .KeccakF1600_StatePermute => [[a.u64, int]]
  -- `keccak_inc_init`, fips202.c:440: s_inc, i; `keccak_inc_finalize`, fips202.c:501: ctx, r, p, s_inc
  | .ts_shake256_inc_init => [[a.word, a.word]]
  | .ts_shake256_inc_finalize => [[a.word, int, char, a.word]]
  -- `ts_SHA256_restore_state_after_64` and `ts_SHA256_save_state`: ctx, s, i; `ts_SHA256_init`: ctx
  | .ts_sha256_init_ctx | .ts_sha512_init_ctx => if c.sha2opt then [[a.word, a.word, int]] else [[a.word]]
  | .ts_sha2_L1_prehash | .ts_sha2_L35_prehash => [[a.word], [a.word, a.word, int]]
  | .ts_sha2_L1_prf_msg | .ts_sha2_L35_prf_msg => [[a.word]]
  | .ts_sha2_L1_hash_msg | .ts_sha2_L35_hash_msg => [[a.word], ull_to_bytes a]
  | .set_layer_adr | .set_tree_adr | .set_type_adr | .set_keypair_adr | .set_tree_height_adr | .set_tree_index_adr => [ull_to_bytes a]
  -- `extract_int_from_hash`, tiny_sphincs.c:11-14: hash, hash_offset, num_bits, sum, i
  | .ts_convert_message_hash => [[a.word, a.word, int, a.u64, int]]
  -- `compute_wots_digits`, tiny_sphincs.c:369-376: digits, hash, n, sum, i, byte, d
  | .ts_set_up_wots_signature => [[a.word, a.word, int, int, int, char, int]]
  -- `my_memcmp`, verify.c:17-19: a, b, n
  | .ts_update_verify => [[a.word, a.word, int]]
  | _ => []

/-- The bytes of some objects, without padding. (Semantics of C; no line of the code.) -/
def total (ts : List Ty) : Nat := (ts.map Ty.size).sum

/-- The frame of a function: a return address, its parameters and its local variables. (Stack frames; no line of the code.) -/
def frame (a : Abi) (c : Config) (g : CFn) : Nat := a.arch.word + total (declared a c g)

/-- The largest frame of the functions that call nothing and that `g` calls. (Stack frames; no line of the code.) -/
def leaf (a : Abi) (c : Config) (g : CFn) : Nat := ((leaves a c g).map fun ts => a.arch.word + total ts).foldr max 0

end Model.Stack
