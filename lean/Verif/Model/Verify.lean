import Verif.Model.TinySphincs
/-!
# Model of verify.c, key_gen.c and size.c
-/
namespace Model

variable (E : Env) (mem : Mem)

/-- `my_memcmp(a, b, n)`, verify.c:17-25; `a` is an address in the caller's memory, `b + off` points
into the context. -/
def my_memcmp (a : Nat) (b : Bytes) (off : Nat) : (n : Nat) → C Nat
  | 0 => .ok 0
  | n + 1 => do
    let x ← mem.read a 1
    let y ← rd b off
    if x ≠ [y] then .ok 1 else my_memcmp (a + 1) b (off + 1) n

/-- `ts_init_verify`, verify.c:30-44. -/
def ts_init_verify (ctx : Ctx) (message len_message : Nat) (ps : ParamSet) (public_key : Nat) :
    C Ctx := do
  let x ← wrSlice ctx.x Config.verifyMessageOff (E.cfg.arch.bytes E.cfg.arch.word message)
  let x ← wrSlice x E.cfg.verifyLenOff (E.cfg.arch.bytes E.cfg.arch.word len_message)
  let ctx := { ctx with ps := ps, public_key := public_key, state := .verify_init,
                        buffer_offset := 0, x := x }
  call_prehash E mem ctx

/-- `next_auth_path`, verify.c:55-77. -/
def next_auth_path (ctx : Ctx) (typecode : Nat) : C Ctx := do
  let h := ctx.merkle_level
  let size_h ← shlInt 1 h
  let ctx := { ctx with merkle_level := (ctx.merkle_level + 1) % 256 }
  let ctx ← ts_set_merkle_adr E ctx ctx.auth_path_node h typecode
  let (a, ctx) ← if ctx.auth_path_node &&& size_h ≠ 0
    then combine E mem ctx.auth_path_buffer ctx.buffer ctx.auth_path_buffer ctx
    else combine E mem ctx.auth_path_buffer ctx.auth_path_buffer ctx.buffer ctx
  .ok { ctx with auth_path_buffer := a }

/-- `set_up_wots_verify_signature`, verify.c:82-94. -/
def set_up_wots_verify_signature (ctx : Ctx) (next_leaf : Nat) : C Ctx := do
  let ctx ← ts_set_up_wots_signature E ctx next_leaf
  let ctx := { ctx with state := .verify_wots }
  let ctx ← ts_set_wots_header_adr E next_leaf ctx
  let t ← call_init_t E mem ctx.big_iter ctx
  .ok { ctx with big_iter := t, merkle_level := 0 }

/-- `case ts_verify_init`, verify.c:129-151. The message pointer and length are arguments of `hash_msg`,
read from the union before its `fors.stack` is overwritten. -/
def verInit (ctx : Ctx) : C Ctx := do
  let message := E.cfg.arch.value (← rdSlice ctx.x Config.verifyMessageOff E.cfg.arch.word)
  let len_message := E.cfg.arch.value (← rdSlice ctx.x E.cfg.verifyLenOff E.cfg.arch.word)
  let stack ← rdSlice ctx.x Config.forsStackOff E.cfg.forsStackSize
  let (stack, ctx) ← call_hash_msg E mem stack MAX_MESSAGE_HASH ctx.buffer message len_message ctx
  let ctx := { ctx with x := ← wrSlice ctx.x Config.forsStackOff stack }
  let (ctx, stack) ← ts_convert_message_hash E ctx stack
  let ctx := { ctx with x := ← wrSlice ctx.x Config.forsStackOff stack,
                        state := .verify_fors_leaf, fors_tree := 0, merkle_level := 0,
                        hypertree_level := 0 }
  let ctx ← ts_set_fors_root_adr E ctx
  let t ← call_init_t E mem ctx.big_iter ctx
  .ok { ctx with big_iter := t }

/-- `case ts_verify_fors_leaf`, verify.c:152-158. -/
def verForsLeaf (ctx : Ctx) : C Ctx := do
  let ctx := { ctx with auth_path_node := ← getForsNode E ctx.x ctx.fors_tree, merkle_level := 0 }
  let ctx ← ts_set_fors_leaf_adr E ctx ctx.auth_path_node
  let (a, ctx) ← call_f E mem ctx.auth_path_buffer ctx.buffer ctx
  .ok { ctx with auth_path_buffer := a, state := .verify_fors }

/-- `case ts_verify_fors`, verify.c:159-177. -/
def verFors (ctx : Ctx) : C Ctx := do
  let ctx ← next_auth_path E mem ctx ADR_TYPE_FORSTREE
  if ctx.merkle_level = ctx.ps.t then do
    let t ← call_next_t E ctx.big_iter ctx.auth_path_buffer ctx
    let ctx := { ctx with big_iter := t, state := .verify_fors_leaf,
                          fors_tree := (ctx.fors_tree + 1) % 256 }
    if ctx.fors_tree = ctx.ps.k then do
      let (a, t) ← call_final_t E ctx.auth_path_buffer ctx.big_iter ctx
      let ctx := { ctx with auth_path_buffer := a, big_iter := t, fors_tree := 0 }
      set_up_wots_verify_signature E mem ctx ctx.fors_keypair_addr
    else .ok ctx
  else .ok ctx

/-- `case ts_verify_wots`, verify.c:178-200. -/
def verWots (ctx : Ctx) : C Ctx := do
  let digit ← rd ctx.x Config.wotsDigitOff
  let ctx := { ctx with x := ← wr ctx.x Config.wotsDigitOff (digit + 1) }
  let digit := digit.toNat
  let start ← getWotsDigit E ctx digit
  let (b, ctx) ← loop (fun i (s : Bytes × Ctx) => do
      let (b, ctx) := s
      let ctx ← ts_set_wots_f_adr E ctx ctx.auth_path_node digit i
      call_f E mem b b ctx) (15 - start) start (ctx.buffer, ctx)
  let ctx := { ctx with buffer := b }
  let t ← call_next_t E ctx.big_iter ctx.buffer ctx
  let ctx := { ctx with big_iter := t }
  let d ← rd ctx.x Config.wotsDigitOff
  if d.toNat ≠ 2 * ctx.ps.n + 3 then .ok ctx
  else do
    let (a, t) ← call_final_t E ctx.auth_path_buffer ctx.big_iter ctx
    .ok { ctx with auth_path_buffer := a, big_iter := t, state := .verify_merkle }

/-- `case ts_verify_merkle`, verify.c:201-230; `m` is the number of bytes left in this call. The result is
`some r` if the function returns `r`. -/
def verMerkle (m : Nat) (ctx : Ctx) : C (Option Nat × Ctx) := do
  let ctx ← next_auth_path E mem ctx ADR_TYPE_HASHTREE
  if ctx.merkle_level ≠ ctx.ps.merkle_h then .ok (none, ctx)
  else do
    let ctx := { ctx with hypertree_level := (ctx.hypertree_level + 1) % 256 }
    if ctx.hypertree_level < ctx.ps.d then do
      let msk ← shlInt 1 ctx.ps.merkle_h
      let next_leaf := (ctx.tree_address &&& (msk - 1)) % 2 ^ 32
      let ctx := { ctx with tree_address := ctx.tree_address >>> ctx.ps.merkle_h }
      .ok (none, ← set_up_wots_verify_signature E mem ctx next_leaf)
    else do
      let n := ctx.ps.n
      let good ← if m = 0 then do
          let r ← my_memcmp mem (ctx.public_key + n) ctx.auth_path_buffer 0 n
          .ok (r = 0 : Bool)
        else .ok false
      if good then .ok (some 1, { ctx with state := .verify_success })
      else .ok (some 0, { ctx with state := .verify_fail })

/-- The `switch` of `ts_update_verify`, verify.c:128-235. -/
def verStep (m : Nat) (ctx : Ctx) : C (Option Nat × Ctx) := do
  match ctx.state with
  | .verify_init => .ok (none, ← verInit E mem ctx)
  | .verify_fors_leaf => .ok (none, ← verForsLeaf E mem ctx)
  | .verify_fors => .ok (none, ← verFors E mem ctx)
  | .verify_wots => .ok (none, ← verWots E mem ctx)
  | .verify_merkle => verMerkle E mem m ctx
  | _ => .ok (some 0, { ctx with state := .verify_fail })

/-- The `for (;;)` loop of `ts_update_verify`, verify.c:112-236; `sig` is the unread input. -/
def verLoop : (fuel : Nat) → (sig : Bytes) → Ctx → C (Nat × Ctx)
  | 0, _, _ => .error .diverge
  | fuel + 1, sig, ctx => do
    let m := sig.length
    let n := ctx.ps.n
    let buffer_offset := ctx.buffer_offset
    let remain := usub n buffer_offset
    let remain := if remain > m then m else remain
    let ctx := { ctx with buffer := ← wrSlice ctx.buffer buffer_offset (← rdSlice sig 0 remain) }
    let sig := sig.drop remain
    let buffer_offset := buffer_offset + remain
    let m := m - remain
    if buffer_offset < n then .ok (1, { ctx with buffer_offset := buffer_offset % 256 })
    else do
      let ctx := { ctx with buffer_offset := 0 }
      match ← verStep E mem m ctx with
      | (some r, ctx) => .ok (r, ctx)
      | (none, ctx) => verLoop fuel sig ctx

/-- `ts_update_verify(sig, m, ctx)`, verify.c:101-237; `sig` carries exactly the `m` bytes. -/
def ts_update_verify (sig : Bytes) (ctx : Ctx) : C (Nat × Ctx) :=
  if ctx.state.num ≤ St.verify_state.num ∨ ctx.state.num ≥ St.verify_fail.num then .ok (0, ctx)
  else verLoop E mem (sig.length + 2) sig ctx

/-- `ts_verify`, verify.c:243-251. -/
def ts_verify (ctx : Ctx) : Nat :=
  if ctx.state = .verify_success ∧ ctx.buffer_offset = 0 then 1 else 0

/-! ## key_gen.c -/

/-- The zeroed context of key_gen.c:30-31. -/
def zeroCtx (ps : ParamSet) : Ctx :=
  { ps := ps, public_key := 0, state := .sign_state,
    buffer := List.replicate E.cfg.MAX_HASH 0, buffer_offset := 0, hypertree_level := 0,
    fors_tree := 0, merkle_level := 0, adr := List.replicate E.cfg.ADR_SIZE 0, auth_path_node := 0,
    fors_keypair_addr := 0, tree_address := 0,
    auth_path_buffer := List.replicate E.cfg.MAX_HASH 0, big_iter := .raw 0, small_iter := .raw 0,
    prehash_sha256 := ⟨0, 0, 0, 0, 0, 0, 0, 0⟩, prehash_sha512 := ⟨0, 0, 0, 0, 0, 0, 0, 0⟩,
    x := List.replicate E.cfg.xSize 0 }

/-- The computation of the root in `ts_gen_key`, key_gen.c:30-55: the context is a local; the result is its
`auth_path_buffer`. -/
def gen_root (ps : ParamSet) (pub : Nat) : C Bytes := do
  let ctx := { zeroCtx E ps with public_key := pub }
  let ctx ← call_prehash E mem ctx
  let ctx := { ctx with buffer_offset := ps.n, hypertree_level := usub ps.d 1 % 256, tree_address := 0,
                        auth_path_node := 0, merkle_level := 0 }
  let (a, ctx) ← ts_wots_leaf E mem ctx.auth_path_buffer ctx.auth_path_node ctx
  let ctx := { ctx with auth_path_buffer := a }
  let ctx ← loop (fun _ ctx => ts_merkle_path E mem (ts_wots_leaf E mem) ctx ADR_TYPE_HASHTREE
    ⟨E.cfg.merkleStackOff, E.cfg.merkleStackSize⟩) ps.merkle_h 0 ctx
  .ok ctx.auth_path_buffer

/-- `if (public_key) memcpy(public_key, pub, 2*n)`, key_gen.c:62-65. The two buffers are assumed not to overlap. -/
def copy_public (public_key : Option Nat) (pub n : Nat) : C Mem :=
  match public_key with
  | none => .ok mem
  | some pk => do mem.write pk (← mem.read pub (2 * n))

/-- `ts_gen_key`, key_gen.c:9-68; `none` is a null pointer; returns the return value, the memory and the sizes of the
requests made to the random number generator. -/
def ts_gen_key (mem : Mem) (private_key public_key : Option Nat) (ps : Option ParamSet)
    (random_function : Option Rng) : C (Nat × Mem × List Nat) :=
  match random_function, private_key, ps with
  | some f, some private_key, some ps => do
    let n := ps.n
    let (ok, bytes) := f (3 * n)
    let mem ← mem.write private_key bytes
    if !ok then .ok (0, mem, [3 * n])
    else do
      let pub := private_key + 2 * n
      let a ← gen_root E mem ps pub
      let mem ← mem.write (pub + n) (← rdSlice a 0 n)
      let mem ← copy_public mem public_key pub n
      .ok (1, mem, [3 * n])
  | _, _, _ => .ok (0, mem, [])

/-! ## size.c -/

/-- `ts_size_private_key`, size.c:9-11. -/
def ts_size_private_key (ps : ParamSet) : Nat := 4 * ps.n
/-- `ts_size_public_key`, size.c:13-15. -/
def ts_size_public_key (ps : ParamSet) : Nat := 2 * ps.n
/-- `ts_size_signature`, size.c:16-21. -/
def ts_size_signature (ps : ParamSet) : Nat :=
  ps.n * (1 + (ps.t + 1) * ps.k + ps.d * (2 * ps.n + 3) + ps.h)

end Model
