import Verif.Model.Contract
import Verif.Spec.Residue
/-!
# An observer's version of the signer

What somebody without the private key can compute. The observer runs the signer on a memory that need not contain the private key; where
the signer calls a pseudo-random function (the only places where it reads `SK.seed` or `SK.prf`), the observer takes a value from tables of
public data instead: the elements of the signature delivered so far, the leaves of the FORS trees, and the ends of the WOTS+ hash chains
(the images of the secret values under the one-way functions). Nothing here is code of the repository; each function is the signer's
function of the same name with the calls of the pseudo-random functions (and, for images, the hashing of their results) left out.
-/
namespace Model.Observer

/-- What the observer knows. (The observer; no line of the code.) -/
structure Known where
  /-- the beginning of the signature -/
  sig : Bytes
  /-- FORS leaves by their index in the forest -/
  forsLeaf : Nat → Bytes
  /-- last values of the WOTS+ chains, by layer, key pair and chain -/
  chainEnd : Nat → Nat → Nat → Bytes

variable (E : Env) (mem : Mem) (K : Known)

/-- `ts_init_sign` (tiny_sphincs.c:313-364), with the randomizer taken from the signature. -/
def ts_init_sign (ctx : Ctx) (message len_message : Nat) (ps : ParamSet) (private_key : Nat) : C Ctx := do
  let n := ps.n
  let ctx := { ctx with ps := ps, public_key := private_key + 2 * n }
  let ctx ← call_prehash E mem ctx
  let b ← wrSlice ctx.buffer 0 (K.sig.take n)
  let ctx := { ctx with buffer := b }
  let (message_hash, ctx) ← call_hash_msg E mem (E.local 10 MAX_MESSAGE_HASH) MAX_MESSAGE_HASH
    ctx.buffer message len_message ctx
  let (ctx, _) ← ts_convert_message_hash E ctx message_hash
  let ctx := { ctx with buffer_offset := 0, state := .fors_leaf, fors_tree := 0,
                        merkle_level := 0, hypertree_level := 0 }
  let ctx ← ts_set_fors_root_adr E ctx
  let t ← call_init_t E mem ctx.big_iter ctx
  .ok { ctx with big_iter := t }

/-- `fors_leaf` (tiny_sphincs.c:178-185), with the leaf taken from the table. -/
def fors_leaf (output : Bytes) (leaf_index : Nat) (ctx : Ctx) : C (Bytes × Ctx) := do
  let ctx ← set_fors_prf_adr E ctx leaf_index
  let ctx ← set_type_adr E ADR_TYPE_FORSTREE ctx
  let output ← wrSlice output 0 (K.forsLeaf (ctx.fors_tree * 2 ^ ctx.ps.t + leaf_index))
  .ok (output, ctx)

/-- `ts_wots_leaf` (tiny_sphincs.c:419-434), with the chain ends taken from the table. -/
def ts_wots_leaf (output : Bytes) (leaf_index : Nat) (ctx : Ctx) : C (Bytes × Ctx) := do
  let ctx ← ts_set_wots_header_adr E leaf_index ctx
  let t ← call_init_t E mem ctx.big_iter ctx
  let ctx := { ctx with big_iter := t }
  let ctx ← loop (fun d ctx => do
      let buffer ← rdSlice ctx.x Config.merkleBufferOff E.cfg.MAX_HASH
      let ctx ← set_wots_prf_adr E ctx leaf_index d
      let ctx ← loop (fun i ctx => ts_set_wots_f_adr E ctx leaf_index d i) 15 0 ctx
      let buffer ← wrSlice buffer 0 (K.chainEnd ctx.hypertree_level leaf_index d)
      let ctx := { ctx with x := ← wrSlice ctx.x Config.merkleBufferOff buffer }
      let t ← call_next_t E ctx.big_iter buffer ctx
      .ok { ctx with big_iter := t }) (2 * ctx.ps.n + 3) 0 ctx
  let (output, t) ← call_final_t E output ctx.big_iter ctx
  .ok (output, { ctx with big_iter := t })

/-- `case ts_fors_leaf` (tiny_sphincs.c:468-479); the secret value is in the signature (`elem`), and is hashed as the signer does it. -/
def signForsLeaf (elem : Bytes) (ctx : Ctx) : C Ctx := do
  let node ← getForsNode E ctx.x ctx.fors_tree
  let ctx := { ctx with auth_path_node := node }
  let ctx ← set_fors_prf_adr E ctx node
  let b ← wrSlice ctx.buffer 0 elem
  let ctx := { ctx with buffer := b, buffer_offset := 0, merkle_level := 0, state := .fors }
  let ctx ← set_fors_prf_adr E ctx node
  let a ← wrSlice ctx.auth_path_buffer 0 elem
  let ctx ← set_type_adr E ADR_TYPE_FORSTREE ctx
  let (a, ctx) ← call_f E mem a a ctx
  .ok { ctx with auth_path_buffer := a }

/-- `case ts_fors` (tiny_sphincs.c:480-501) with the observer's leaves. -/
def signFors (ctx : Ctx) : C Ctx := do
  let ctx ← ts_merkle_path E mem (fors_leaf E K) ctx ADR_TYPE_FORSTREE ⟨Config.forsStackOff, E.cfg.forsStackSize⟩
  if ctx.merkle_level = ctx.ps.t then do
    let t ← call_next_t E ctx.big_iter ctx.auth_path_buffer ctx
    let ctx := { ctx with big_iter := t, state := .fors_leaf, fors_tree := (ctx.fors_tree + 1) % 256 }
    if ctx.fors_tree = ctx.ps.k then do
      let (a, t) ← call_final_t E ctx.auth_path_buffer ctx.big_iter ctx
      let ctx := { ctx with auth_path_buffer := a, big_iter := t, fors_tree := 0 }
      ts_set_up_wots_signature E ctx ctx.fors_keypair_addr
    else .ok ctx
  else .ok ctx

/-- `case ts_wots` (tiny_sphincs.c:502-513, 405-414); the value in the chain is in the signature (`elem`). -/
def signWots (elem : Bytes) (ctx : Ctx) : C Ctx := do
  let digit ← rd ctx.x Config.wotsDigitOff
  let ctx := { ctx with x := ← wr ctx.x Config.wotsDigitOff (digit + 1) }
  let digit := digit.toNat
  let ctx ← set_wots_prf_adr E ctx ctx.auth_path_node digit
  let cnt ← getWotsDigit E ctx digit
  let ctx ← loop (fun i ctx => ts_set_wots_f_adr E ctx ctx.auth_path_node digit i) cnt 0 ctx
  let b ← wrSlice ctx.buffer 0 elem
  let ctx := { ctx with buffer := b, buffer_offset := 0 }
  let d ← rd ctx.x Config.wotsDigitOff
  if d.toNat = 2 * ctx.ps.n + 3 then do
    let ctx := { ctx with state := .merkle, merkle_level := 0 }
    let (a, ctx) ← ts_wots_leaf E mem K ctx.auth_path_buffer ctx.auth_path_node ctx
    .ok { ctx with auth_path_buffer := a }
  else .ok ctx

/-- `case ts_merkle` (tiny_sphincs.c:514-534) with the observer's leaves. -/
def signMerkle (ctx : Ctx) : C Ctx := do
  let ctx ← ts_merkle_path E mem (ts_wots_leaf E mem K) ctx ADR_TYPE_HASHTREE ⟨E.cfg.merkleStackOff, E.cfg.merkleStackSize⟩
  if ctx.merkle_level = ctx.ps.merkle_h then do
    let ctx := { ctx with hypertree_level := (ctx.hypertree_level + 1) % 256 }
    if ctx.hypertree_level = ctx.ps.d then .ok { ctx with state := .done }
    else do
      let msk ← shlInt 1 ctx.ps.merkle_h
      let ctx := { ctx with auth_path_node := (ctx.tree_address &&& (msk - 1)) % 65536,
                            tree_address := ctx.tree_address >>> ctx.ps.merkle_h }
      ts_set_up_wots_signature E ctx ctx.auth_path_node
  else .ok ctx

/-- The `switch (ctx->state)` of `ts_sign` (tiny_sphincs.c:467-538) when element number `p` of the signature is produced. -/
def signStep (p : Nat) (ctx : Ctx) : C (Option Ctx) := do
  let elem := (K.sig.drop (p * ctx.ps.n)).take ctx.ps.n
  match ctx.state with
  | .fors_leaf => .ok (some (← signForsLeaf E mem elem ctx))
  | .fors => .ok (some (← signFors E mem K ctx))
  | .wots => .ok (some (← signWots E mem K elem ctx))
  | .merkle => .ok (some (← signMerkle E mem K ctx))
  | _ => .ok none

/-- The loop of `ts_sign` (tiny_sphincs.c:452-539); `p` counts the elements of the signature. -/
def signLoop : (fuel : Nat) → (dest : Bytes) → (off m : Nat) → (p : Nat) → Ctx → C (Nat × Bytes × Nat × Ctx)
  | 0, _, _, _, _, _ => .error .diverge
  | fuel + 1, dest, off, m, p, ctx =>
    if m = 0 then .ok (m, dest, p, ctx)
    else do
      let remain := usub ctx.ps.n ctx.buffer_offset
      if remain > 0 then do
        let remain := if remain > m then m else remain
        let dest ← wrSlice dest off (← rdSlice ctx.buffer ctx.buffer_offset remain)
        let ctx := { ctx with buffer_offset := (ctx.buffer_offset + remain) % 256 }
        signLoop fuel dest (off + remain) (m - remain) p ctx
      else do
        match ← signStep E mem K p ctx with
        | none => .ok (m, dest, p, ctx)
        | some ctx => signLoop fuel dest off m (p + 1) ctx

/-- `ts_sign` (tiny_sphincs.c:441-542). -/
def ts_sign (dest : Bytes) (m : Nat) (p : Nat) (ctx : Ctx) : C (Nat × Bytes × Nat × Ctx) :=
  if ctx.state.num ≤ St.sign_state.num ∨ ctx.state.num ≥ St.verify_state.num then .ok (0, dest, p, ctx)
  else do
    let (m', dest, p, ctx) ← signLoop E mem K (2 * m + 2) dest 0 m p ctx
    .ok (m - m', dest, p, ctx)

/-- Successive calls of `ts_sign`. (The observer; no line of the code.) -/
def signCalls : Ctx → Nat → List (Bytes × Nat) → C (List (Nat × Bytes) × Ctx)
  | c, _, [] => .ok ([], c)
  | c, p, (dest, m) :: rs => do
    let (r, dest, p, c) ← ts_sign E mem K dest m p c
    let (os, c) ← signCalls c p rs
    .ok ((r, dest) :: os, c)

/-- A session: `ts_init_sign` and calls of `ts_sign`. (The observer; no line of the code.) -/
def session (c0 : Ctx) (message len_message : Nat) (ps : ParamSet) (private_key : Nat) (rs : List (Bytes × Nat)) : C (List (Nat × Bytes) × Ctx) := do
  let c ← ts_init_sign E mem K c0 message len_message ps private_key
  signCalls E mem K c 1 rs

end Model.Observer

namespace Model

/-- What the observer of a signing job knows when `e` elements of the signature have been computed: these elements and the images of the
secret values. (The observer; no line of the code.) -/
def SignJob.known (J : SignJob) (e : Nat) : Observer.Known where
  sig := J.signature.take (e * J.x.P.n)
  forsLeaf := Spec.Residue.forsLeaf J.x.P J.x.fns J.sk (Spec.Residue.digest J.x.P J.x.fns J.sk (J.signature.take J.x.P.n) J.M)
  chainEnd := Spec.Residue.chainEnd J.x.P J.x.fns J.sk (Spec.Residue.digest J.x.P J.x.fns J.sk (J.signature.take J.x.P.n) J.M)

end Model
