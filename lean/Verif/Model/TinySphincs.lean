import Verif.Model.HashFns
/-!
# Model of tiny_sphincs.c (the signer and the logic shared by signer, key generation and verifier)
-/
namespace Model

variable (E : Env) (mem : Mem)

/-- `int` addition of non-negative values; overflow is undefined behaviour. (Semantics of C; no line of the code.) -/
def addInt (a b : Nat) : C Nat := if a + b < 2 ^ 31 then .ok (a + b) else .error .badShift

/-- Passing an `unsigned` where an `int` is expected: only values that fit are accepted. (Semantics of C; no line of the code.) The calls at tiny_sphincs.c:222. -/
def asInt (a : Nat) : C Nat := if a < 2 ^ 31 then .ok a else .error .badShift

/-- `extract_int_from_hash(hash, &hash_offset, num_bits)`, tiny_sphincs.c:11-18; returns the value and
the new offset. -/
def extract_int_from_hash (hash : Bytes) (hash_offset num_bits : Nat) : C (Nat × Nat) := do
  let (sum, off) ← loop (fun _ (s : Nat × Nat) => do
      let b ← rd hash (s.2 + 1)
      .ok ((256 * s.1 + b.toNat) % 2 ^ 64, s.2 + 1)) ((num_bits + 7) / 8) 0 (0, hash_offset)
  let sh := usub 64 num_bits
  if sh < 64 then .ok (sum &&& ((2 ^ 64 - 1) >>> sh), off) else .error .badShift

/-! ## ADR setters, tiny_sphincs.c:24-77; offsets from internal.h:96-107 -/

/-- The test `!TS_SUPPORT_SHAKE || ctx->ps->sha2`, tiny_sphincs.c:25, 34, 43, 52, 61, 71. -/
def sha2Adr (ctx : Ctx) : Bool := !E.cfg.shake || ctx.ps.sha2

/-- `set_layer_adr`, tiny_sphincs.c:24-30. -/
def set_layer_adr (layer : Nat) (ctx : Ctx) : C Ctx := do
  if sha2Adr E ctx then .ok { ctx with adr := ← wr ctx.adr 0 (UInt8.ofNat layer) }
  else .ok { ctx with adr := ← ts_ull_to_bytes ctx.adr 0 layer 4 }

/-- `set_tree_adr`, tiny_sphincs.c:32-39. -/
def set_tree_adr (tree : Nat) (ctx : Ctx) : C Ctx := do
  if sha2Adr E ctx then .ok { ctx with adr := ← ts_ull_to_bytes ctx.adr 1 tree 8 }
  else .ok { ctx with adr := ← ts_ull_to_bytes ctx.adr 4 tree 12 }

/-- `set_type_adr`, tiny_sphincs.c:41-48. -/
def set_type_adr (type : Nat) (ctx : Ctx) : C Ctx := do
  if sha2Adr E ctx then .ok { ctx with adr := ← wr ctx.adr 9 (UInt8.ofNat type) }
  else .ok { ctx with adr := ← ts_ull_to_bytes ctx.adr 16 type 4 }

/-- `set_keypair_adr`, tiny_sphincs.c:50-57. -/
def set_keypair_adr (keypair : Nat) (ctx : Ctx) : C Ctx := do
  if sha2Adr E ctx then .ok { ctx with adr := ← ts_ull_to_bytes ctx.adr 10 keypair 4 }
  else .ok { ctx with adr := ← ts_ull_to_bytes ctx.adr 20 keypair 4 }

/-- `set_tree_height_adr` (and `set_chain_adr`), tiny_sphincs.c:59-67. -/
def set_tree_height_adr (h : Nat) (ctx : Ctx) : C Ctx := do
  if sha2Adr E ctx then .ok { ctx with adr := ← ts_ull_to_bytes ctx.adr 14 h 4 }
  else .ok { ctx with adr := ← ts_ull_to_bytes ctx.adr 24 h 4 }

/-- `set_tree_index_adr` (and `set_hash_adr`), tiny_sphincs.c:69-77. -/
def set_tree_index_adr (i : Nat) (ctx : Ctx) : C Ctx := do
  if sha2Adr E ctx then .ok { ctx with adr := ← ts_ull_to_bytes ctx.adr 18 i 4 }
  else .ok { ctx with adr := ← ts_ull_to_bytes ctx.adr 28 i 4 }

/-! `enum hash_reason`, internal.h:78-86. -/
/-- `ADR_TYPE_WOTS`, internal.h:79. -/
def ADR_TYPE_WOTS : Nat := 0
/-- `ADR_TYPE_WOTSPK`, internal.h:80. -/
def ADR_TYPE_WOTSPK : Nat := 1
/-- `ADR_TYPE_HASHTREE`, internal.h:81. -/
def ADR_TYPE_HASHTREE : Nat := 2
/-- `ADR_TYPE_FORSTREE`, internal.h:82. -/
def ADR_TYPE_FORSTREE : Nat := 3
/-- `ADR_TYPE_FORSPK`, internal.h:83. -/
def ADR_TYPE_FORSPK : Nat := 4
/-- `ADR_TYPE_WOTS_PRF`, internal.h:84. -/
def ADR_TYPE_WOTS_PRF : Nat := 5
/-- `ADR_TYPE_FORS_PRF`, internal.h:85. -/
def ADR_TYPE_FORS_PRF : Nat := 6

/-- `set_fors_prf_adr`, tiny_sphincs.c:84-93. -/
def set_fors_prf_adr (ctx : Ctx) (leaf_index : Nat) : C Ctx := do
  let ctx ← set_layer_adr E 0 ctx
  let ctx ← set_tree_adr E ctx.tree_address ctx
  let ctx ← set_type_adr E ADR_TYPE_FORS_PRF ctx
  let ctx ← set_keypair_adr E ctx.fors_keypair_addr ctx
  let ctx ← set_tree_height_adr E 0 ctx
  let i ← addInt (← shlInt ctx.fors_tree ctx.ps.t) leaf_index
  set_tree_index_adr E i ctx

/-- `ts_set_fors_leaf_adr`, tiny_sphincs.c:95-104. -/
def ts_set_fors_leaf_adr (ctx : Ctx) (leaf_index : Nat) : C Ctx := do
  let ctx ← set_layer_adr E 0 ctx
  let ctx ← set_tree_adr E ctx.tree_address ctx
  let ctx ← set_type_adr E ADR_TYPE_FORSTREE ctx
  let ctx ← set_keypair_adr E ctx.fors_keypair_addr ctx
  let ctx ← set_tree_height_adr E 0 ctx
  let i ← addInt (← shlInt ctx.fors_tree ctx.ps.t) leaf_index
  set_tree_index_adr E i ctx

/-- `set_wots_prf_adr`, tiny_sphincs.c:107-115. -/
def set_wots_prf_adr (ctx : Ctx) (tree_index leaf_index : Nat) : C Ctx := do
  let ctx ← set_layer_adr E ctx.hypertree_level ctx
  let ctx ← set_tree_adr E ctx.tree_address ctx
  let ctx ← set_type_adr E ADR_TYPE_WOTS_PRF ctx
  let ctx ← set_keypair_adr E tree_index ctx
  let ctx ← set_tree_height_adr E leaf_index ctx
  set_tree_index_adr E 0 ctx

/-- `ts_set_wots_f_adr`, tiny_sphincs.c:117-125. -/
def ts_set_wots_f_adr (ctx : Ctx) (tree_index leaf_index hash_address : Nat) : C Ctx := do
  let ctx ← set_layer_adr E ctx.hypertree_level ctx
  let ctx ← set_tree_adr E ctx.tree_address ctx
  let ctx ← set_type_adr E ADR_TYPE_WOTS ctx
  let ctx ← set_keypair_adr E tree_index ctx
  let ctx ← set_tree_height_adr E leaf_index ctx
  set_tree_index_adr E hash_address ctx

/-- `ts_set_merkle_adr`, tiny_sphincs.c:127-136. -/
def ts_set_merkle_adr (ctx : Ctx) (node level typecode : Nat) : C Ctx := do
  let ctx ← set_layer_adr E ctx.hypertree_level ctx
  let ctx ← set_tree_adr E ctx.tree_address ctx
  let ctx ← set_type_adr E typecode ctx
  let ctx ← set_keypair_adr E ctx.fors_keypair_addr ctx
  let ctx ← set_tree_height_adr E (level + 1) ctx
  let i ← shrU32 (((← shlInt ctx.fors_tree ctx.ps.t) + node) % 2 ^ 32) (level + 1)
  set_tree_index_adr E i ctx

/-- `ts_set_fors_root_adr`, tiny_sphincs.c:138-145. -/
def ts_set_fors_root_adr (ctx : Ctx) : C Ctx := do
  let ctx ← set_layer_adr E 0 ctx
  let ctx ← set_tree_adr E ctx.tree_address ctx
  let ctx ← set_type_adr E ADR_TYPE_FORSPK ctx
  let ctx ← set_keypair_adr E ctx.fors_keypair_addr ctx
  let ctx ← set_tree_height_adr E 0 ctx
  set_tree_index_adr E 0 ctx

/-- `ts_set_wots_header_adr`, tiny_sphincs.c:147-155. -/
def ts_set_wots_header_adr (merkle_leaf : Nat) (ctx : Ctx) : C Ctx := do
  let ctx ← set_layer_adr E ctx.hypertree_level ctx
  let ctx ← set_tree_adr E ctx.tree_address ctx
  let ctx ← set_type_adr E ADR_TYPE_WOTSPK ctx
  let ctx ← set_keypair_adr E merkle_leaf ctx
  let ctx ← set_tree_height_adr E 0 ctx
  set_tree_index_adr E 0 ctx

/-! ## Leaves -/

/-- `fors_prf`, tiny_sphincs.c:160-164. -/
def fors_prf (output : Bytes) (leaf_index : Nat) (ctx : Ctx) : C (Bytes × Ctx) := do
  let ctx ← set_fors_prf_adr E ctx leaf_index
  call_prf E mem output ctx

/-- `wots_prf`, tiny_sphincs.c:169-173. -/
def wots_prf (output : Bytes) (tree_index digit_index : Nat) (ctx : Ctx) : C (Bytes × Ctx) := do
  let ctx ← set_wots_prf_adr E ctx tree_index digit_index
  call_prf E mem output ctx

/-- `fors_leaf`, tiny_sphincs.c:178-185. -/
def fors_leaf (output : Bytes) (leaf_index : Nat) (ctx : Ctx) : C (Bytes × Ctx) := do
  let ctx ← set_fors_prf_adr E ctx leaf_index
  let (output, ctx) ← call_prf E mem output ctx
  let ctx ← set_type_adr E ADR_TYPE_FORSTREE ctx
  call_f E mem output output ctx

/-- `ts_wots_leaf`, tiny_sphincs.c:419-434; `x.merkle.buffer` is extracted from and
stored back into the union. -/
def ts_wots_leaf (output : Bytes) (leaf_index : Nat) (ctx : Ctx) : C (Bytes × Ctx) := do
  let ctx ← ts_set_wots_header_adr E leaf_index ctx
  let t ← call_init_t E mem ctx.big_iter ctx
  let ctx := { ctx with big_iter := t }
  let ctx ← loop (fun d ctx => do
      let buffer ← rdSlice ctx.x Config.merkleBufferOff E.cfg.MAX_HASH
      let (buffer, ctx) ← wots_prf E mem buffer leaf_index d ctx
      let (buffer, ctx) ← loop (fun i (s : Bytes × Ctx) => do
          let (buffer, ctx) := s
          let ctx ← ts_set_wots_f_adr E ctx leaf_index d i
          call_f E mem buffer buffer ctx) 15 0 (buffer, ctx)
      let ctx := { ctx with x := ← wrSlice ctx.x Config.merkleBufferOff buffer }
      let t ← call_next_t E ctx.big_iter buffer ctx
      .ok { ctx with big_iter := t }) (2 * ctx.ps.n + 3) 0 ctx
  let (output, t) ← call_final_t E output ctx.big_iter ctx
  .ok (output, { ctx with big_iter := t })

/-! ## Authentication paths -/

/-- The member array `stack` given to `ts_merkle_path`: its offset in the union and its size. tiny_sphincs.c:209. -/
structure Region where
  (off size : Nat)

/-- Read `stack[i .. i+len)`. tiny_sphincs.c:230. -/
def Region.get (r : Region) (ctx : Ctx) (i len : Nat) : C Bytes :=
  if i + len ≤ r.size then rdSlice ctx.x (r.off + i) len else .error .oob

/-- `memcpy(&stack[i], v, ..)`. tiny_sphincs.c:238. -/
def Region.put (r : Region) (ctx : Ctx) (i : Nat) (v : Bytes) : C Ctx := do
  if i + v.length ≤ r.size then .ok { ctx with x := ← wrSlice ctx.x (r.off + i) v }
  else .error .oob

/-- Combine two nodes through `small_iter`: `init_t; next_t(a); next_t(b); final_t(output)`,
tiny_sphincs.c:229-232, 250-258 and verify.c:64-76. -/
def combine (output a b : Bytes) (ctx : Ctx) : C (Bytes × Ctx) := do
  let t ← call_init_t E mem ctx.small_iter ctx
  let t ← call_next_t E t a ctx
  let t ← call_next_t E t b ctx
  let (output, t) ← call_final_t E output t ctx
  .ok (output, { ctx with small_iter := t })

/-- The inner loop of `ts_merkle_path`, tiny_sphincs.c:226-233: `nod` and `k` are the loop variables,
`leaf` is `node+i`. Returns the final `k`. -/
def pathInner (stack : Region) (typecode leaf : Nat) :
    (fuel nod k : Nat) → Ctx → C (Nat × Ctx)
  | 0, _, _, _ => .error .diverge
  | fuel + 1, nod, k, ctx =>
    if nod &&& 1 ≠ 0 then do
      let n := ctx.ps.n
      let ctx ← ts_set_merkle_adr E ctx leaf k typecode
      let a ← stack.get ctx (k * n) n
      let (b, ctx) ← combine E mem ctx.buffer a ctx.buffer ctx
      let ctx := { ctx with buffer := b }
      pathInner stack typecode leaf fuel (nod >>> 1) (k + 1) ctx
    else .ok (k, ctx)

/-- `ts_merkle_path`, tiny_sphincs.c:204-260. -/
def ts_merkle_path (gen_leaf : Bytes → Nat → Ctx → C (Bytes × Ctx)) (ctx : Ctx) (typecode : Nat)
    (stack : Region) : C Ctx := do
  let n := ctx.ps.n
  let h := ctx.merkle_level
  let ctx := { ctx with merkle_level := (ctx.merkle_level + 1) % 256 }
  let size_h ← shlInt 1 h
  let node := ctx.auth_path_node ^^^ size_h
  let node := node &&& (2 ^ 32 - 1 - usub size_h 1)
  let ctx ← loop (fun i ctx => do
      let leaf := (node + i) % 2 ^ 32
      let (b, ctx) ← gen_leaf ctx.buffer (← asInt leaf) ctx
      let ctx := { ctx with buffer := b }
      let (k, ctx) ← pathInner E mem stack typecode leaf (i + 1) i 0 ctx
      if k < h then stack.put ctx (k * n) (← rdSlice ctx.buffer 0 n) else .ok ctx) size_h 0 ctx
  let ctx := { ctx with buffer_offset := 0 }
  let ctx ← ts_set_merkle_adr E ctx node h typecode
  let (a, ctx) ← if ctx.auth_path_node &&& size_h ≠ 0
    then combine E mem ctx.auth_path_buffer ctx.buffer ctx.auth_path_buffer ctx
    else combine E mem ctx.auth_path_buffer ctx.auth_path_buffer ctx.buffer ctx
  .ok { ctx with auth_path_buffer := a }

/-! ## Message digest -/

/-- `ctx->x.fors.fors_node[k] = v` (`unsigned short`, 2 bytes in the byte order of the machine). tiny_sphincs.c:297. -/
def setForsNode (x : Bytes) (k v : Nat) : C Bytes :=
  if k < MAX_FORS then
    wrSlice x (Config.forsNodeOff k) (E.cfg.arch.bytes 2 v)
  else .error .oob

/-- `ctx->x.fors.fors_node[k]`, tiny_sphincs.c:469, verify.c:153. -/
def getForsNode (x : Bytes) (k : Nat) : C Nat := do
  if k < MAX_FORS then
    .ok (E.cfg.arch.value (← rdSlice x (Config.forsNodeOff k) 2))
  else .error .oob

/-- State of the bit cursor: `message_hash`, `hash_offset`, `bit_so_far`. tiny_sphincs.c:268-271. -/
abbrev Cursor := Bytes × Nat × Nat

/-- One iteration of the bit loop, tiny_sphincs.c:275-296. -/
def nextBit (s : Cursor × Nat) : C (Cursor × Nat) := do
  let ((message_hash, hash_offset, bit_so_far), this_index) := s
  let (hash_offset, bit_so_far) := if bit_so_far = 8 then (hash_offset + 1, 0)
    else (hash_offset, bit_so_far)
  let bit ← rd message_hash hash_offset
  let message_hash ← wr message_hash hash_offset (bit <<< 1)
  let bit := bit.toNat >>> 7
  .ok ((message_hash, hash_offset, bit_so_far + 1), (2 * this_index + (bit &&& 1)) % 2 ^ 32)

/-- `ts_convert_message_hash_to_hypertree_position`, tiny_sphincs.c:266-305; returns the context and the
modified `message_hash` array. -/
def ts_convert_message_hash (ctx : Ctx) (message_hash : Bytes) : C (Ctx × Bytes) := do
  let ps := ctx.ps
  let (cur, ctx) ← loop (fun k (s : Cursor × Ctx) => do
      let (cur, ctx) := s
      let (cur, this_index) ← loop (fun _ s => nextBit s) ps.t 0 (cur, 0)
      .ok (cur, { ctx with x := ← setForsNode E ctx.x k (this_index % 65536) })) ps.k 0
    ((message_hash, 0, 0), ctx)
  let (message_hash, hash_offset, _) := cur
  let (tree, hash_offset) ← extract_int_from_hash message_hash hash_offset (usub ps.h ps.merkle_h)
  let (leaf, _) ← extract_int_from_hash message_hash hash_offset ps.merkle_h
  .ok ({ ctx with tree_address := tree, fors_keypair_addr := leaf % 65536 }, message_hash)

/-! ## Signing -/

/-- A random number generator: given the number of bytes wanted it returns whether it claims success, and
the bytes it wrote at the start of the buffer. The type of the argument at tiny_sphincs.c:317. -/
abbrev Rng := Nat → Bool × Bytes

/-- `!random_function || !random_function(opt_buffer, n)`, tiny_sphincs.c:333: whether the generator
delivered, the buffer, and the requests made to it. -/
def askRng (opt_buffer : Bytes) (n : Nat) (random_function : Option Rng) : C (Bool × Bytes × List Nat) :=
  match random_function with
  | none => .ok (false, opt_buffer, [])
  | some f => do .ok ((f n).1, ← wrSlice opt_buffer 0 (f n).2, [n])

/-- The local `opt_buffer` of `ts_init_sign` after tiny_sphincs.c:332-337, and the requests made to the
generator. -/
def fillOptBuffer (public_key n : Nat) (random_function : Option Rng) : C (Bytes × List Nat) := do
  let opt_buffer := E.local 9 E.cfg.MAX_HASH
  let (ok, opt_buffer, reqs) ← askRng opt_buffer n random_function
  if ok then .ok (opt_buffer, reqs)
  else do .ok (← wrSlice opt_buffer 0 (← pubSeed mem public_key n), reqs)

/-- `ts_init_sign`, tiny_sphincs.c:313-364; returns the context and the sizes of the requests made to the
random number generator. -/
def ts_init_sign (ctx : Ctx) (message len_message : Nat) (ps : ParamSet) (private_key : Nat)
    (random_function : Option Rng) : C (Ctx × List Nat) := do
  let n := ps.n
  let ctx := { ctx with ps := ps, public_key := private_key + 2 * n }
  let ctx ← call_prehash E mem ctx
  -- Step 1: generate the randomness
  let (opt_buffer, reqs) ← fillOptBuffer E mem ctx.public_key n random_function
  let (b, ctx) ← call_prf_msg E mem ctx.buffer opt_buffer message len_message ctx
  let ctx := { ctx with buffer := b }
  -- Step 2: hash the message
  let (message_hash, ctx) ← call_hash_msg E mem (E.local 10 MAX_MESSAGE_HASH) MAX_MESSAGE_HASH
    ctx.buffer message len_message ctx
  -- Step 3: convert the hash
  let (ctx, _) ← ts_convert_message_hash E ctx message_hash
  let ctx := { ctx with buffer_offset := 0, state := .fors_leaf, fors_tree := 0,
                        merkle_level := 0, hypertree_level := 0 }
  let ctx ← ts_set_fors_root_adr E ctx
  let t ← call_init_t E mem ctx.big_iter ctx
  .ok ({ ctx with big_iter := t }, reqs)

/-- `compute_wots_digits(digits, hash, n)`, tiny_sphincs.c:369-383; returns the `digits` array. -/
def compute_wots_digits (digits hash : Bytes) (n : Nat) : C Bytes := do
  let (digits, sum) ← loop (fun i (s : Bytes × Nat) => do
      let (digits, sum) := s
      let byte ← rd hash i
      let d := byte >>> 4
      let digits ← wr digits (2 * i) d
      let sum := usub sum d.toNat
      let d := byte &&& 0xf
      let digits ← wr digits (2 * i + 1) d
      .ok (digits, usub sum d.toNat)) n 0 (digits, 2 * 15 * n)
  let digits ← wr digits (2 * n) (UInt8.ofNat ((sum >>> 8) &&& 0xf))
  let digits ← wr digits (2 * n + 1) (UInt8.ofNat ((sum >>> 4) &&& 0xf))
  wr digits (2 * n + 2) (UInt8.ofNat (sum &&& 0xf))

/-- `ts_set_up_wots_signature`, tiny_sphincs.c:391-400. -/
def ts_set_up_wots_signature (ctx : Ctx) (next_leaf : Nat) : C Ctx := do
  let x ← wr ctx.x Config.wotsDigitOff 0
  let digits ← rdSlice x Config.wotsDigitsOff E.cfg.MAX_WOTS_DIGITS
  let digits ← compute_wots_digits digits ctx.auth_path_buffer ctx.ps.n
  let x ← wrSlice x Config.wotsDigitsOff digits
  .ok { ctx with state := .wots, x := x, auth_path_node := next_leaf % 65536,
                 fors_keypair_addr := 0 }

/-- `ctx->x.wots.digits[i]`, tiny_sphincs.c:409, verify.c:185. -/
def getWotsDigit (ctx : Ctx) (i : Nat) : C Nat := do
  if i < E.cfg.MAX_WOTS_DIGITS then .ok (← rd ctx.x (Config.wotsDigitsOff + i)).toNat
  else .error .oob

/-- `generate_next_wots_hash`, tiny_sphincs.c:405-414. -/
def generate_next_wots_hash (ctx : Ctx) : C Ctx := do
  let digit ← rd ctx.x Config.wotsDigitOff
  let ctx := { ctx with x := ← wr ctx.x Config.wotsDigitOff (digit + 1) }
  let digit := digit.toNat
  let (b, ctx) ← wots_prf E mem ctx.buffer ctx.auth_path_node digit ctx
  let cnt ← getWotsDigit E ctx digit
  let (b, ctx) ← loop (fun i (s : Bytes × Ctx) => do
      let (b, ctx) := s
      let ctx ← ts_set_wots_f_adr E ctx ctx.auth_path_node digit i
      call_f E mem b b ctx) cnt 0 (b, ctx)
  .ok { ctx with buffer := b, buffer_offset := 0 }

/-- `case ts_fors_leaf`, tiny_sphincs.c:468-479. -/
def signForsLeaf (ctx : Ctx) : C Ctx := do
  let node ← getForsNode E ctx.x ctx.fors_tree
  let ctx := { ctx with auth_path_node := node }
  let (b, ctx) ← fors_prf E mem ctx.buffer node ctx
  let ctx := { ctx with buffer := b, buffer_offset := 0, merkle_level := 0, state := .fors }
  let (a, ctx) ← fors_leaf E mem ctx.auth_path_buffer node ctx
  .ok { ctx with auth_path_buffer := a }

/-- `case ts_fors`, tiny_sphincs.c:480-501. -/
def signFors (ctx : Ctx) : C Ctx := do
  let ctx ← ts_merkle_path E mem (fors_leaf E mem) ctx ADR_TYPE_FORSTREE
    ⟨Config.forsStackOff, E.cfg.forsStackSize⟩
  if ctx.merkle_level = ctx.ps.t then do
    let t ← call_next_t E ctx.big_iter ctx.auth_path_buffer ctx
    let ctx := { ctx with big_iter := t, state := .fors_leaf, fors_tree := (ctx.fors_tree + 1) % 256 }
    if ctx.fors_tree = ctx.ps.k then do
      let (a, t) ← call_final_t E ctx.auth_path_buffer ctx.big_iter ctx
      let ctx := { ctx with auth_path_buffer := a, big_iter := t, fors_tree := 0 }
      ts_set_up_wots_signature E ctx ctx.fors_keypair_addr
    else .ok ctx
  else .ok ctx

/-- `case ts_wots`, tiny_sphincs.c:502-513. -/
def signWots (ctx : Ctx) : C Ctx := do
  let ctx ← generate_next_wots_hash E mem ctx
  let d ← rd ctx.x Config.wotsDigitOff
  if d.toNat = 2 * ctx.ps.n + 3 then do
    let ctx := { ctx with state := .merkle, merkle_level := 0 }
    let (a, ctx) ← ts_wots_leaf E mem ctx.auth_path_buffer ctx.auth_path_node ctx
    .ok { ctx with auth_path_buffer := a }
  else .ok ctx

/-- `case ts_merkle`, tiny_sphincs.c:514-534. -/
def signMerkle (ctx : Ctx) : C Ctx := do
  let ctx ← ts_merkle_path E mem (ts_wots_leaf E mem) ctx ADR_TYPE_HASHTREE
    ⟨E.cfg.merkleStackOff, E.cfg.merkleStackSize⟩
  if ctx.merkle_level = ctx.ps.merkle_h then do
    let ctx := { ctx with hypertree_level := (ctx.hypertree_level + 1) % 256 }
    if ctx.hypertree_level = ctx.ps.d then .ok { ctx with state := .done }
    else do
      let msk ← shlInt 1 ctx.ps.merkle_h
      let ctx := { ctx with auth_path_node := (ctx.tree_address &&& (msk - 1)) % 65536,
                            tree_address := ctx.tree_address >>> ctx.ps.merkle_h }
      ts_set_up_wots_signature E ctx ctx.auth_path_node
  else .ok ctx

/-- The `switch (ctx->state)` of `ts_sign`, tiny_sphincs.c:467-538; `none` leaves the loop. -/
def signStep (ctx : Ctx) : C (Option Ctx) := do
  match ctx.state with
  | .fors_leaf => .ok (some (← signForsLeaf E mem ctx))
  | .fors => .ok (some (← signFors E mem ctx))
  | .wots => .ok (some (← signWots E mem ctx))
  | .merkle => .ok (some (← signMerkle E mem ctx))
  | _ => .ok none

/-- The `while (m)` loop of `ts_sign`, tiny_sphincs.c:452-539. `off` is `dest` as an offset into the
caller's array; returns the remaining `m`. -/
def signLoop : (fuel : Nat) → (dest : Bytes) → (off m : Nat) → Ctx → C (Nat × Bytes × Ctx)
  | 0, _, _, _, _ => .error .diverge
  | fuel + 1, dest, off, m, ctx =>
    if m = 0 then .ok (m, dest, ctx)
    else do
      let remain := usub ctx.ps.n ctx.buffer_offset
      if remain > 0 then do
        let remain := if remain > m then m else remain
        let dest ← wrSlice dest off (← rdSlice ctx.buffer ctx.buffer_offset remain)
        let ctx := { ctx with buffer_offset := (ctx.buffer_offset + remain) % 256 }
        signLoop fuel dest (off + remain) (m - remain) ctx
      else do
        match ← signStep E mem ctx with
        | none => .ok (m, dest, ctx)
        | some ctx => signLoop fuel dest off m ctx

/-- `ts_sign(dest, m, ctx)`, tiny_sphincs.c:441-542: returns the return value, the array `dest` and the
context. -/
def ts_sign (dest : Bytes) (m : Nat) (ctx : Ctx) : C (Nat × Bytes × Ctx) :=
  if ctx.state.num ≤ St.sign_state.num ∨ ctx.state.num ≥ St.verify_state.num then
    .ok (0, dest, ctx)
  else do
    let (m', dest, ctx) ← signLoop E mem (2 * m + 2) dest 0 m ctx
    .ok (m - m', dest, ctx)

end Model
