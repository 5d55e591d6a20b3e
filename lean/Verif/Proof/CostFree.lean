import Verif.Proof.CostBasic
/-!
# The calls made by the hash functions of a parameter set and by the address functions: none
-/
namespace Leak
open Model

@[fr] theorem free_regGet (r : Region) (ctx : Ctx) (i len : Nat) : Free (regGet r ctx i len) := fun _ => rfl
@[fr] theorem free_regPut (r : Region) (ctx : Ctx) (i : Nat) (v : Bytes) : Free (regPut r ctx i v) := fun _ => rfl
@[fr] theorem free_getForsNode (E : Env) (x : Bytes) (k : Nat) : Free (getForsNode E x k) := fun _ => rfl
@[fr] theorem free_setForsNode (E : Env) (x : Bytes) (k v : Nat) : Free (setForsNode E x k v) := fun _ => rfl
@[fr] theorem free_getWotsDigit (E : Env) (c : Ctx) (i : Nat) : Free (getWotsDigit E c i) := fun _ => rfl
@[fr] theorem free_primShift (s : Nat) (r : C α) : Free (prim [.shift s] r) := fun _ => rfl
@[fr] theorem free_secSeed (mem : Mem) (pk n : Nat) : Free (secSeed mem pk n) := by unfold secSeed; free
@[fr] theorem free_secPrf (mem : Mem) (pk n : Nat) : Free (secPrf mem pk n) := by unfold secPrf; free
@[fr] theorem free_pubSeed (mem : Mem) (pk n : Nat) : Free (pubSeed mem pk n) := by unfold pubSeed; free
@[fr] theorem free_pubRoot (mem : Mem) (pk n : Nat) : Free (pubRoot mem pk n) := by unfold pubRoot; free
@[fr] theorem free_ts_sha256_init_ctx (E : Env) (mem : Mem) (ctx : Sha256.Ctx) (sc : Ctx) :
    Free (ts_sha256_init_ctx E mem ctx sc) := by unfold ts_sha256_init_ctx; free
@[fr] theorem free_ts_sha2_prf (E : Env) (mem : Mem) (output : Bytes) (sc : Ctx) :
    Free (ts_sha2_prf E mem output sc) := by unfold ts_sha2_prf; free
@[fr] theorem free_ts_sha2_f_simple (E : Env) (mem : Mem) (output inblock : Bytes) (sc : Ctx) :
    Free (ts_sha2_f_simple E mem output inblock sc) := by unfold ts_sha2_f_simple; free
@[fr] theorem free_hmacBlock (block key : Bytes) (pad : UInt8) (n : Nat) :
    Free (hmacBlock block key pad n) := by unfold hmacBlock; free
@[fr] theorem free_ts_sha2_L1_prf_msg (E : Env) (mem : Mem) (output opt_buffer : Bytes) (message len_message : Nat) (sc : Ctx) :
    Free (ts_sha2_L1_prf_msg E mem output opt_buffer message len_message sc) := by unfold ts_sha2_L1_prf_msg; free
@[fr] theorem free_mgf1Loop256 (E : Env) (n fuel i : Nat) (msg_hash output : Bytes) (off len_output : Nat) (c : Sha256.Ctx) : Free (mgf1Loop256 E n fuel i msg_hash output off len_output c) := by
  induction fuel generalizing i msg_hash output off len_output c with
  | zero => unfold mgf1Loop256; free
  | succ fuel ih => unfold mgf1Loop256; free; exact ih _ _ _ _ _ _
@[fr] theorem free_ts_sha2_L1_hash_msg (E : Env) (mem : Mem) (output : Bytes) (len_output : Nat) (randomness : Bytes) (message len_message : Nat) (sc : Ctx) :
    Free (ts_sha2_L1_hash_msg E mem output len_output randomness message len_message sc) := by unfold ts_sha2_L1_hash_msg; free
@[fr] theorem free_ts_sha2_L1_init_t_simple (E : Env) (mem : Mem) (t : TIter) (ctx : Ctx) :
    Free (ts_sha2_L1_init_t_simple E mem t ctx) := by unfold ts_sha2_L1_init_t_simple; free
@[fr] theorem free_ts_sha2_L1_next_t_simple (E : Env) (t : TIter) (input : Bytes) (ctx : Ctx) :
    Free (ts_sha2_L1_next_t_simple E t input ctx) := by unfold ts_sha2_L1_next_t_simple; free
@[fr] theorem free_ts_sha2_L1_final_t_simple (E : Env) (output : Bytes) (t : TIter) (ctx : Ctx) :
    Free (ts_sha2_L1_final_t_simple E output t ctx) := by unfold ts_sha2_L1_final_t_simple; free
@[fr] theorem free_ts_sha2_L1_prehash (E : Env) (mem : Mem) (sc : Ctx) :
    Free (ts_sha2_L1_prehash E mem sc) := by unfold ts_sha2_L1_prehash; free
@[fr] theorem free_ts_sha512_init_ctx (E : Env) (mem : Mem) (ctx : Sha512.Ctx) (sc : Ctx) :
    Free (ts_sha512_init_ctx E mem ctx sc) := by unfold ts_sha512_init_ctx; free
@[fr] theorem free_ts_sha2_L35_prf_msg (E : Env) (mem : Mem) (output opt_buffer : Bytes) (message len_message : Nat) (sc : Ctx) :
    Free (ts_sha2_L35_prf_msg E mem output opt_buffer message len_message sc) := by unfold ts_sha2_L35_prf_msg; free
@[fr] theorem free_mgf1Loop512 (E : Env) (n fuel i : Nat) (msg_hash output : Bytes) (off len_output : Nat) (c : Sha512.Ctx) : Free (mgf1Loop512 E n fuel i msg_hash output off len_output c) := by
  induction fuel generalizing i msg_hash output off len_output c with
  | zero => unfold mgf1Loop512; free
  | succ fuel ih => unfold mgf1Loop512; free; exact ih _ _ _ _ _ _
@[fr] theorem free_ts_sha2_L35_hash_msg (E : Env) (mem : Mem) (output : Bytes) (len_output : Nat) (randomness : Bytes) (message len_message : Nat) (sc : Ctx) :
    Free (ts_sha2_L35_hash_msg E mem output len_output randomness message len_message sc) := by unfold ts_sha2_L35_hash_msg; free
@[fr] theorem free_ts_sha2_L35_init_t_simple (E : Env) (mem : Mem) (t : TIter) (ctx : Ctx) :
    Free (ts_sha2_L35_init_t_simple E mem t ctx) := by unfold ts_sha2_L35_init_t_simple; free
@[fr] theorem free_ts_sha2_L35_next_t_simple (E : Env) (t : TIter) (input : Bytes) (ctx : Ctx) :
    Free (ts_sha2_L35_next_t_simple E t input ctx) := by unfold ts_sha2_L35_next_t_simple; free
@[fr] theorem free_ts_sha2_L35_final_t_simple (E : Env) (output : Bytes) (t : TIter) (ctx : Ctx) :
    Free (ts_sha2_L35_final_t_simple E output t ctx) := by unfold ts_sha2_L35_final_t_simple; free
@[fr] theorem free_ts_sha2_L35_prehash (E : Env) (mem : Mem) (sc : Ctx) :
    Free (ts_sha2_L35_prehash E mem sc) := by unfold ts_sha2_L35_prehash; free
@[fr] theorem free_ts_shake256_prf_msg (E : Env) (mem : Mem) (output opt_rand : Bytes) (message len_message : Nat) (sc : Ctx) :
    Free (ts_shake256_prf_msg E mem output opt_rand message len_message sc) := by unfold ts_shake256_prf_msg; free
@[fr] theorem free_ts_shake256_hash_msg (E : Env) (mem : Mem) (output : Bytes) (len_output : Nat) (randomness : Bytes) (message len_message : Nat) (sc : Ctx) :
    Free (ts_shake256_hash_msg E mem output len_output randomness message len_message sc) := by unfold ts_shake256_hash_msg; free
@[fr] theorem free_ts_shake256_prf (E : Env) (mem : Mem) (output : Bytes) (sc : Ctx) :
    Free (ts_shake256_prf E mem output sc) := by unfold ts_shake256_prf; free
@[fr] theorem free_ts_shake256_init_t_simple (E : Env) (mem : Mem) (t : TIter) (ctx : Ctx) :
    Free (ts_shake256_init_t_simple E mem t ctx) := by unfold ts_shake256_init_t_simple; free
@[fr] theorem free_ts_shake256_next_t_simple (E : Env) (t : TIter) (input : Bytes) (ctx : Ctx) :
    Free (ts_shake256_next_t_simple E t input ctx) := by unfold ts_shake256_next_t_simple; free
@[fr] theorem free_ts_shake256_final_t_simple (E : Env) (output : Bytes) (t : TIter) (ctx : Ctx) :
    Free (ts_shake256_final_t_simple E output t ctx) := by unfold ts_shake256_final_t_simple; free
@[fr] theorem free_ts_shake256_f_simple (E : Env) (mem : Mem) (output inblock : Bytes) (ctx : Ctx) :
    Free (ts_shake256_f_simple E mem output inblock ctx) := by unfold ts_shake256_f_simple; free
@[fr] theorem free_extract_int_from_hash (hash : Bytes) (hash_offset num_bits : Nat) :
    Free (extract_int_from_hash hash hash_offset num_bits) := by unfold extract_int_from_hash; free
@[fr] theorem free_set_layer_adr (E : Env) (layer : Nat) (ctx : Ctx) :
    Free (set_layer_adr E layer ctx) := by unfold set_layer_adr; free
@[fr] theorem free_set_tree_adr (E : Env) (tree : Nat) (ctx : Ctx) :
    Free (set_tree_adr E tree ctx) := by unfold set_tree_adr; free
@[fr] theorem free_set_type_adr (E : Env) (type : Nat) (ctx : Ctx) :
    Free (set_type_adr E type ctx) := by unfold set_type_adr; free
@[fr] theorem free_set_keypair_adr (E : Env) (keypair : Nat) (ctx : Ctx) :
    Free (set_keypair_adr E keypair ctx) := by unfold set_keypair_adr; free
@[fr] theorem free_set_tree_height_adr (E : Env) (h : Nat) (ctx : Ctx) :
    Free (set_tree_height_adr E h ctx) := by unfold set_tree_height_adr; free
@[fr] theorem free_set_tree_index_adr (E : Env) (i : Nat) (ctx : Ctx) :
    Free (set_tree_index_adr E i ctx) := by unfold set_tree_index_adr; free
@[fr] theorem free_set_fors_prf_adr (E : Env) (ctx : Ctx) (leaf_index : Nat) :
    Free (set_fors_prf_adr E ctx leaf_index) := by unfold set_fors_prf_adr; free
@[fr] theorem free_ts_set_fors_leaf_adr (E : Env) (ctx : Ctx) (leaf_index : Nat) :
    Free (ts_set_fors_leaf_adr E ctx leaf_index) := by unfold ts_set_fors_leaf_adr; free
@[fr] theorem free_set_wots_prf_adr (E : Env) (ctx : Ctx) (tree_index leaf_index : Nat) :
    Free (set_wots_prf_adr E ctx tree_index leaf_index) := by unfold set_wots_prf_adr; free
@[fr] theorem free_ts_set_wots_f_adr (E : Env) (ctx : Ctx) (tree_index leaf_index hash_address : Nat) :
    Free (ts_set_wots_f_adr E ctx tree_index leaf_index hash_address) := by unfold ts_set_wots_f_adr; free
@[fr] theorem free_ts_set_merkle_adr (E : Env) (ctx : Ctx) (node level typecode : Nat) :
    Free (ts_set_merkle_adr E ctx node level typecode) := by unfold ts_set_merkle_adr; free
@[fr] theorem free_ts_set_fors_root_adr (E : Env) (ctx : Ctx) :
    Free (ts_set_fors_root_adr E ctx) := by unfold ts_set_fors_root_adr; free
@[fr] theorem free_ts_set_wots_header_adr (E : Env) (merkle_leaf : Nat) (ctx : Ctx) :
    Free (ts_set_wots_header_adr E merkle_leaf ctx) := by unfold ts_set_wots_header_adr; free
@[fr] theorem free_nextBit (s : Cursor × Nat) :
    Free (nextBit s) := by unfold nextBit; free
@[fr] theorem free_ts_convert_message_hash (ctx : Ctx) (message_hash : Bytes) :
    Free (ts_convert_message_hash E ctx message_hash) := by unfold ts_convert_message_hash; free
@[fr] theorem free_askRng (opt_buffer : Bytes) (n : Nat) (random_function : Option Rng) :
    Free (askRng opt_buffer n random_function) := by unfold askRng; free
@[fr] theorem free_fillOptBuffer (E : Env) (mem : Mem) (public_key n : Nat) (random_function : Option Rng) :
    Free (fillOptBuffer E mem public_key n random_function) := by unfold fillOptBuffer; free
@[fr] theorem free_compute_wots_digits (digits hash : Bytes) (n : Nat) :
    Free (compute_wots_digits digits hash n) := by unfold compute_wots_digits; free
@[fr] theorem free_ts_set_up_wots_signature (E : Env) (ctx : Ctx) (next_leaf : Nat) :
    Free (ts_set_up_wots_signature E ctx next_leaf) := by unfold ts_set_up_wots_signature; free

end Leak
