import Verif.Model.LeakSign
import Verif.Model.Api
import Verif.Model.Contract
/-!
# Leakage of verify.c
-/
namespace Leak
open Model

variable (E : Env) (mem : Mem)

/-- `my_memcmp(a, b, n)`, verify.c:17-25; `a` is an address in the caller's memory, `b + off` points
into the context. -/
def my_memcmp (a : Nat) (b : Bytes) (off : Nat) : (n : Nat) → L Nat
  | 0 => do tick (.br false); .ok 0
  | n + 1 => do
    tick (.br true)
    let x ← memRead mem a 1
    let y ← rd b off
    lif x ≠ [y] then .ok 1 else my_memcmp (a + 1) b (off + 1) n

/-- `ts_init_verify`, verify.c:30-44. -/
def ts_init_verify (ctx : Ctx) (message len_message : Nat) (ps : ParamSet) (public_key : Nat) :
    L Ctx := frame .ts_init_verify do
  let x ← wrSlice ctx.x Config.verifyMessageOff (E.cfg.arch.bytes E.cfg.arch.word message)
  let x ← wrSlice x E.cfg.verifyLenOff (E.cfg.arch.bytes E.cfg.arch.word len_message)
  let ctx := { ctx with ps := ps, public_key := public_key, state := .verify_init,
                        buffer_offset := 0, x := x }
  call_prehash E mem ctx

/-- `next_auth_path`, verify.c:55-77. -/
def next_auth_path (ctx : Ctx) (typecode : Nat) : L Ctx := frame .next_auth_path do
  let h := ctx.merkle_level
  let size_h ← shlInt 1 h
  let ctx := { ctx with merkle_level := (ctx.merkle_level + 1) % 256 }
  let ctx ← ts_set_merkle_adr E ctx ctx.auth_path_node h typecode
  let (a, ctx) ← lif ctx.auth_path_node &&& size_h ≠ 0
    then combine E mem ctx.auth_path_buffer ctx.buffer ctx.auth_path_buffer ctx
    else combine E mem ctx.auth_path_buffer ctx.auth_path_buffer ctx.buffer ctx
  .ok { ctx with auth_path_buffer := a }

/-- `set_up_wots_verify_signature`, verify.c:82-94. -/
def set_up_wots_verify_signature (ctx : Ctx) (next_leaf : Nat) : L Ctx := frame .set_up_wots_verify_signature do
  let ctx ← ts_set_up_wots_signature E ctx next_leaf
  let ctx := { ctx with state := .verify_wots }
  let ctx ← ts_set_wots_header_adr E next_leaf ctx
  let t ← call_init_t E mem ctx.big_iter ctx
  .ok { ctx with big_iter := t, merkle_level := 0 }

/-- `case ts_verify_init`, verify.c:129-151. The message pointer and length are arguments of `hash_msg`,
read from the union before its `fors.stack` is overwritten. -/
def verInit (ctx : Ctx) : L Ctx := do
  let message := E.cfg.arch.value (← rdSlice ctx.x Config.verifyMessageOff E.cfg.arch.word)
  let len_message := E.cfg.arch.value (← rdSlice ctx.x E.cfg.verifyLenOff E.cfg.arch.word)
  let stack ← rdSlice ctx.x Config.forsStackOff E.cfg.forsStackSize
  let (stack, ctx) ← call_hash_msg E mem stack MAX_MESSAGE_HASH ctx.buffer message len_message ctx
  let ctx := { ctx with x := ← wrSlice ctx.x Config.forsStackOff stack }
  let (ctx, stack) ← ts_convert_message_hash E ctx stack
  let ctx := { ctx with x := ← wrSlice ctx.x Config.forsStackOff stack,
                        state := .verify_fors_leaf, fors_tree := 0, merkle_level := 0,
                        hypertree_level := 0 }
  let ctx ← ts_set_fors_root_adr E ctx
  let t ← call_init_t E mem ctx.big_iter ctx
  .ok { ctx with big_iter := t }

/-- `case ts_verify_fors_leaf`, verify.c:152-158. -/
def verForsLeaf (ctx : Ctx) : L Ctx := do
  let ctx := { ctx with auth_path_node := ← getForsNode E ctx.x ctx.fors_tree, merkle_level := 0 }
  let ctx ← ts_set_fors_leaf_adr E ctx ctx.auth_path_node
  let (a, ctx) ← call_f E mem ctx.auth_path_buffer ctx.buffer ctx
  .ok { ctx with auth_path_buffer := a, state := .verify_fors }

/-- `case ts_verify_fors`, verify.c:159-177. -/
def verFors (ctx : Ctx) : L Ctx := do
  let ctx ← next_auth_path E mem ctx ADR_TYPE_FORSTREE
  lif ctx.merkle_level = ctx.ps.t then do
    let t ← call_next_t E ctx.big_iter ctx.auth_path_buffer ctx
    let ctx := { ctx with big_iter := t, state := .verify_fors_leaf,
                          fors_tree := (ctx.fors_tree + 1) % 256 }
    lif ctx.fors_tree = ctx.ps.k then do
      let (a, t) ← call_final_t E ctx.auth_path_buffer ctx.big_iter ctx
      let ctx := { ctx with auth_path_buffer := a, big_iter := t, fors_tree := 0 }
      set_up_wots_verify_signature E mem ctx ctx.fors_keypair_addr
    else .ok ctx
  else .ok ctx

/-- `case ts_verify_wots`, verify.c:178-200. -/
def verWots (ctx : Ctx) : L Ctx := do
  let digit ← rd ctx.x Config.wotsDigitOff
  let ctx := { ctx with x := ← wr ctx.x Config.wotsDigitOff (digit + 1) }
  let digit := digit.toNat
  let start ← getWotsDigit E ctx digit
  let (b, ctx) ← loop (fun i (s : Bytes × Ctx) => do
      let (b, ctx) := s
      let ctx ← ts_set_wots_f_adr E ctx ctx.auth_path_node digit i
      call_f E mem b b ctx) (15 - start) start (ctx.buffer, ctx)
  let ctx := { ctx with buffer := b }
  let t ← call_next_t E ctx.big_iter ctx.buffer ctx
  let ctx := { ctx with big_iter := t }
  let d ← rd ctx.x Config.wotsDigitOff
  lif d.toNat ≠ 2 * ctx.ps.n + 3 then .ok ctx
  else do
    let (a, t) ← call_final_t E ctx.auth_path_buffer ctx.big_iter ctx
    .ok { ctx with auth_path_buffer := a, big_iter := t, state := .verify_merkle }

/-- `case ts_verify_merkle`, verify.c:201-230; `m` is the number of bytes left in this call. The result is
`some r` if the function returns `r`. -/
def verMerkle (m : Nat) (ctx : Ctx) : L (Option Nat × Ctx) := do
  let ctx ← next_auth_path E mem ctx ADR_TYPE_HASHTREE
  lif ctx.merkle_level ≠ ctx.ps.merkle_h then .ok (none, ctx)
  else do
    let ctx := { ctx with hypertree_level := (ctx.hypertree_level + 1) % 256 }
    lif ctx.hypertree_level < ctx.ps.d then do
      let msk ← shlInt 1 ctx.ps.merkle_h
      let next_leaf := (ctx.tree_address &&& (msk - 1)) % 2 ^ 32
      let ctx := { ctx with tree_address := ctx.tree_address >>> ctx.ps.merkle_h }
      .ok (none, ← set_up_wots_verify_signature E mem ctx next_leaf)
    else do
      let n := ctx.ps.n
      let good ← lif m = 0 then do
          let r ← my_memcmp mem (ctx.public_key + n) ctx.auth_path_buffer 0 n
          .ok (r = 0 : Bool)
        else .ok false
      lif good then .ok (some 1, { ctx with state := .verify_success })
      else .ok (some 0, { ctx with state := .verify_fail })

/-- The `switch` of `ts_update_verify`, verify.c:128-235. -/
def verStep (m : Nat) (ctx : Ctx) : L (Option Nat × Ctx) :=
  select ctx.state.num <| match ctx.state with
  | .verify_init => do .ok (none, ← verInit E mem ctx)
  | .verify_fors_leaf => do .ok (none, ← verForsLeaf E mem ctx)
  | .verify_fors => do .ok (none, ← verFors E mem ctx)
  | .verify_wots => do .ok (none, ← verWots E mem ctx)
  | .verify_merkle => verMerkle E mem m ctx
  | _ => .ok (some 0, { ctx with state := .verify_fail })

/-- The `for (;;)` loop of `ts_update_verify`, verify.c:112-236; `sig` is the unread input. -/
def verLoop : (fuel : Nat) → (sig : Bytes) → Ctx → L (Nat × Ctx)
  | 0, _, _ => .error .diverge
  | fuel + 1, sig, ctx => do
    let m := sig.length
    let n := ctx.ps.n
    let buffer_offset := ctx.buffer_offset
    let remain := usub n buffer_offset
    let remain ← lif remain > m then .ok m else .ok remain
    let ctx := { ctx with buffer := ← wrSlice ctx.buffer buffer_offset (← rdSlice sig 0 remain) }
    let sig := sig.drop remain
    let buffer_offset := buffer_offset + remain
    let m := m - remain
    lif buffer_offset < n then .ok (1, { ctx with buffer_offset := buffer_offset % 256 })
    else do
      let ctx := { ctx with buffer_offset := 0 }
      match ← verStep E mem m ctx with
      | (some r, ctx) => .ok (r, ctx)
      | (none, ctx) => verLoop fuel sig ctx

/-- `ts_update_verify(sig, m, ctx)`, verify.c:101-237; `sig` carries exactly the `m` bytes. -/
def ts_update_verify (sig : Bytes) (ctx : Ctx) : L (Nat × Ctx) :=
  frame .ts_update_verify <| lif ctx.state.num ≤ St.verify_state.num ∨ ctx.state.num ≥ St.verify_fail.num then .ok (0, ctx)
  else verLoop E mem (sig.length + 2) sig ctx

/-- `Model.updateCalls`: successive calls of `ts_update_verify`. (A caller of verify.c:101-237.) -/
def updateCalls (E : Env) (mem : Mem) : Ctx → List Bytes → L (List Nat × Ctx)
  | c, [] => .ok ([], c)
  | c, t :: ts => do
    let (r, c) ← ts_update_verify E mem t c
    let (rs, c) ← updateCalls E mem c ts
    .ok (r :: rs, c)

/-- A verification: `ts_init_verify`, then calls of `ts_update_verify`. The results are the return values of these, and the context. (A caller of verify.c:30-237.) -/
def verifyRun (J : VerifyJob) (ts : List Bytes) : L (List Nat × Ctx) := do
  let c ← ts_init_verify J.E J.mem J.c0 J.msg J.M.length (ps J.E.cfg J.x) J.pub
  updateCalls J.E J.mem c ts

end Leak
