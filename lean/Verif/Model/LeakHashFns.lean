import Verif.Model.LeakHash
/-!
# Leakage model of the hash functions of the signature scheme (the files listed in `Verif/Model/HashFns.lean`)
-/
namespace Leak
open Model

variable (E : Env) (mem : Mem)

/-- Which function a pointer selects. internal.h:31-57. -/
def famNum : Fam → Nat
  | .shake => 0
  | .sha2L1 => 1
  | .sha2L35 => 2

/-- `CONVERT_PUBLIC_KEY_TO_SEC_SEED`, internal.h:71, dereferenced for `n` bytes. -/
def secSeed (pk n : Nat) : L Bytes := do memRead mem (← ptrSub pk (2 * n)) n

/-- `CONVERT_PUBLIC_KEY_TO_PRF`, internal.h:72. -/
def secPrf (pk n : Nat) : L Bytes := do memRead mem (← ptrSub pk n) n

/-- `CONVERT_PUBLIC_KEY_TO_PUB_SEED`, internal.h:73. -/
def pubSeed (pk n : Nat) : L Bytes := memRead mem pk n

/-- `CONVERT_PUBLIC_KEY_TO_ROOT`, internal.h:74. -/
def pubRoot (pk n : Nat) : L Bytes := memRead mem (pk + n) n

/-- `ts_sha256_init_ctx`, sha256_hash.c:35-55. -/
def ts_sha256_init_ctx (ctx : Sha256.Ctx) (sc : Ctx) : L Sha256.Ctx :=
  frame .ts_sha256_init_ctx <| if E.cfg.sha2opt then .ok (Sha256.restore_state ctx sc.prehash_sha256)
  else do
    let ctx := Sha256.init ctx
    let n := sc.ps.n
    let ctx ← Sha256.update ctx (← pubSeed mem sc.public_key n)
    loop (fun _ ctx => Sha256.update ctx [0]) (64 - n) n ctx

/-- `ts_sha2_prf`, sha256_hash.c:19-29. -/
def ts_sha2_prf (output : Bytes) (sc : Ctx) : L (Bytes × Ctx) := frame .ts_sha2_prf do
  let n := sc.ps.n
  let ctx ← ts_sha256_init_ctx E mem (E.as256 sc.small_iter) sc
  let ctx ← Sha256.update ctx (← rdSlice sc.adr 0 SHA2_ADR_SIZE)
  let ctx ← Sha256.update ctx (← secSeed mem sc.public_key n)
  let (output, ctx) ← Sha256.final_trunc output ctx n
  .ok (output, { sc with small_iter := .sha256 ctx })

/-- `ts_sha2_f_simple`, sha2_simple.c:14-25. -/
def ts_sha2_f_simple (output inblock : Bytes) (sc : Ctx) : L (Bytes × Ctx) := frame .ts_sha2_f_simple do
  let n := sc.ps.n
  let ctx ← ts_sha256_init_ctx E mem (E.as256 sc.small_iter) sc
  let ctx ← Sha256.update ctx (← rdSlice sc.adr 0 SHA2_ADR_SIZE)
  let ctx ← Sha256.update ctx (← rdSlice inblock 0 n)
  let (output, ctx) ← Sha256.final_trunc output ctx n
  .ok (output, { sc with small_iter := .sha256 ctx })

/-- The HMAC key block: `for (i<n) block[i] = pad ^ prf[i]; memset(&block[n], pad, size-n)`,
sha256_L1_hash.c:31-34, 42-45 and sha512_hash.c:22-25, 33-36. -/
def hmacBlock (block key : Bytes) (pad : UInt8) (n : Nat) : L Bytes := do
  let block ← loop (fun i block => do
      let k ← rd key i
      wr block i (pad ^^^ k)) n 0 block
  wrSlice block n (List.replicate (block.length - n) pad)

/-- `ts_sha2_L1_prf_msg`, sha256_L1_hash.c:16-49. -/
def ts_sha2_L1_prf_msg (output opt_buffer : Bytes) (message len_message : Nat) (sc : Ctx) :
    L (Bytes × Ctx) := frame .ts_sha2_L1_prf_msg do
  let n := sc.ps.n
  let prf ← secPrf mem sc.public_key n
  let ctx := Sha256.init (E.as256 sc.small_iter)
  let block ← hmacBlock (E.local 1 64) prf 0x36 n
  let ctx ← Sha256.update ctx block
  let ctx ← Sha256.update ctx (← rdSlice opt_buffer 0 n)
  let ctx ← Sha256.update ctx (← memRead mem message len_message)
  let (hash_output, ctx) ← Sha256.final (E.local 2 32) ctx
  let ctx := Sha256.init ctx
  let block ← hmacBlock block prf 0x5c n
  let ctx ← Sha256.update ctx block
  let ctx ← Sha256.update ctx hash_output
  let (output, ctx) ← Sha256.final_trunc output ctx n
  .ok (output, { sc with small_iter := .sha256 ctx })

/-- The MGF1 loop, sha256_L1_hash.c:70-91. `off` is `output` as an offset. -/
def mgf1Loop256 (n : Nat) : (fuel i : Nat) → (msg_hash output : Bytes) → (off len_output : Nat) →
    Sha256.Ctx → L (Bytes × Sha256.Ctx)
  | 0, _, _, _, _, _, _ => .error .diverge
  | fuel + 1, i, msg_hash, output, off, len_output, ctx =>
    lif len_output = 0 then .ok (output, ctx)
    else do
      let msg_hash ← ts_ull_to_bytes msg_hash (2 * n + 32) i 4
      let ctx := Sha256.init ctx
      let ctx ← Sha256.update ctx (← rdSlice msg_hash 0 (2 * n + 32 + 4))
      let (buffer, ctx) ← Sha256.final (E.local 4 32) ctx
      let bytes ← lif len_output ≥ 32 then .ok 32 else .ok len_output
      let output ← wrSlice output off (← rdSlice buffer 0 bytes)
      mgf1Loop256 n fuel (i + 1) msg_hash output (off + bytes) (len_output - bytes) ctx

/-- `ts_sha2_L1_hash_msg`, sha256_L1_hash.c:51-92. -/
def ts_sha2_L1_hash_msg (output : Bytes) (len_output : Nat) (randomness : Bytes)
    (message len_message : Nat) (sc : Ctx) : L (Bytes × Ctx) := frame .ts_sha2_L1_hash_msg do
  let n := sc.ps.n
  let msg_hash := E.local 3 (2 * E.cfg.MAX_HASH + 32 + 4)
  let ctx := Sha256.init (E.as256 sc.small_iter)
  let r ← rdSlice randomness 0 n
  let ctx ← Sha256.update ctx r
  let seed ← pubSeed mem sc.public_key n
  let ctx ← Sha256.update ctx seed
  let ctx ← Sha256.update ctx (← pubRoot mem sc.public_key n)
  let ctx ← Sha256.update ctx (← memRead mem message len_message)
  -- `ts_SHA256_final(&msg_hash[2*n], ctx)` writes 32 bytes there
  let (dig, ctx) ← Sha256.final (← rdSlice msg_hash (2 * n) 32) ctx
  let msg_hash ← wrSlice msg_hash (2 * n) dig
  let msg_hash ← wrSlice msg_hash 0 r
  let msg_hash ← wrSlice msg_hash n seed
  let (output, ctx) ← mgf1Loop256 E n (len_output + 1) 0 msg_hash output 0 len_output ctx
  .ok (output, { sc with small_iter := .sha256 ctx })

/-- `ts_sha2_L1_init_t_simple`, sha256_L1_hash_simple.c:29-34. -/
def ts_sha2_L1_init_t_simple (t : TIter) (ctx : Ctx) : L TIter := frame .ts_sha2_L1_init_t_simple do
  let s ← ts_sha256_init_ctx E mem (E.as256 t) ctx
  let s ← Sha256.update s (← rdSlice ctx.adr 0 SHA2_ADR_SIZE)
  .ok (.sha256 s)

/-- `ts_sha2_L1_next_t_simple`, sha256_L1_hash_simple.c:37-41. -/
def ts_sha2_L1_next_t_simple (t : TIter) (input : Bytes) (ctx : Ctx) : L TIter := frame .ts_sha2_L1_next_t_simple do
  let s ← Sha256.update (E.as256 t) (← rdSlice input 0 ctx.ps.n)
  .ok (.sha256 s)

/-- `ts_sha2_L1_final_t_simple`, sha256_L1_hash_simple.c:45-49. -/
def ts_sha2_L1_final_t_simple (output : Bytes) (t : TIter) (ctx : Ctx) : L (Bytes × TIter) := frame .ts_sha2_L1_final_t_simple do
  let (output, s) ← Sha256.final_trunc output (E.as256 t) ctx.ps.n
  .ok (output, .sha256 s)

/-- `ts_sha2_L1_prehash`, sha256_L1_hash_simple.c:59-71. -/
def ts_sha2_L1_prehash (sc : Ctx) : L Ctx := frame .ts_sha2_L1_prehash do
  let n := sc.ps.n
  let ctx := Sha256.init (E.as256 sc.small_iter)
  let ctx ← Sha256.update ctx (← pubSeed mem sc.public_key n)
  let ctx ← loop (fun _ ctx => Sha256.update ctx [0]) (64 - n) n ctx
  .ok { sc with prehash_sha256 := Sha256.save_state ctx, small_iter := .sha256 ctx }

/-- `ts_sha512_init_ctx`, sha512_hash.c:79-93. -/
def ts_sha512_init_ctx (ctx : Sha512.Ctx) (sc : Ctx) : L Sha512.Ctx :=
  frame .ts_sha512_init_ctx <| if E.cfg.sha2opt then .ok (Sha512.restore_state ctx sc.prehash_sha512)
  else do
    let ctx := Sha512.init ctx
    let n := sc.ps.n
    let ctx ← Sha512.update ctx (← pubSeed mem sc.public_key n)
    loop (fun _ ctx => Sha512.update ctx [0]) (128 - n) n ctx

/-- `ts_sha2_L35_prf_msg`, sha512_hash.c:10-40. -/
def ts_sha2_L35_prf_msg (output opt_buffer : Bytes) (message len_message : Nat) (sc : Ctx) :
    L (Bytes × Ctx) := frame .ts_sha2_L35_prf_msg do
  let n := sc.ps.n
  let prf ← secPrf mem sc.public_key n
  let ctx := Sha512.init (E.as512 sc.small_iter)
  let block ← hmacBlock (E.local 5 128) prf 0x36 n
  let ctx ← Sha512.update ctx block
  let ctx ← Sha512.update ctx (← rdSlice opt_buffer 0 n)
  let ctx ← Sha512.update ctx (← memRead mem message len_message)
  let (hash_output, ctx) ← Sha512.final (E.local 6 64) ctx
  let ctx := Sha512.init ctx
  let block ← hmacBlock block prf 0x5c n
  let ctx ← Sha512.update ctx block
  let ctx ← Sha512.update ctx hash_output
  let (output, ctx) ← Sha512.final_trunc output ctx n
  .ok (output, { sc with small_iter := .sha512 ctx })

/-- The MGF1 loop, sha512_hash.c:61-76. -/
def mgf1Loop512 (n : Nat) : (fuel i : Nat) → (msg_hash output : Bytes) → (off len_output : Nat) →
    Sha512.Ctx → L (Bytes × Sha512.Ctx)
  | 0, _, _, _, _, _, _ => .error .diverge
  | fuel + 1, i, msg_hash, output, off, len_output, ctx =>
    lif len_output = 0 then .ok (output, ctx)
    else do
      let msg_hash ← ts_ull_to_bytes msg_hash (2 * n + 64) i 4
      let ctx := Sha512.init ctx
      let ctx ← Sha512.update ctx (← rdSlice msg_hash 0 (2 * n + 64 + 4))
      let (buffer, ctx) ← Sha512.final (E.local 8 64) ctx
      let bytes ← lif len_output ≥ 64 then .ok 64 else .ok len_output
      let output ← wrSlice output off (← rdSlice buffer 0 bytes)
      mgf1Loop512 n fuel (i + 1) msg_hash output (off + bytes) (len_output - bytes) ctx

/-- `ts_sha2_L35_hash_msg`, sha512_hash.c:42-77. -/
def ts_sha2_L35_hash_msg (output : Bytes) (len_output : Nat) (randomness : Bytes)
    (message len_message : Nat) (sc : Ctx) : L (Bytes × Ctx) := frame .ts_sha2_L35_hash_msg do
  let n := sc.ps.n
  let msg_hash := E.local 7 (2 * E.cfg.MAX_HASH + 64 + 4)
  let ctx := Sha512.init (E.as512 sc.small_iter)
  let r ← rdSlice randomness 0 n
  let ctx ← Sha512.update ctx r
  let seed ← pubSeed mem sc.public_key n
  let ctx ← Sha512.update ctx seed
  let ctx ← Sha512.update ctx (← pubRoot mem sc.public_key n)
  let ctx ← Sha512.update ctx (← memRead mem message len_message)
  let (dig, ctx) ← Sha512.final (← rdSlice msg_hash (2 * n) 64) ctx
  let msg_hash ← wrSlice msg_hash (2 * n) dig
  let msg_hash ← wrSlice msg_hash 0 r
  let msg_hash ← wrSlice msg_hash n seed
  let (output, ctx) ← mgf1Loop512 E n (len_output + 1) 0 msg_hash output 0 len_output ctx
  .ok (output, { sc with small_iter := .sha512 ctx })

/-- `ts_sha2_L35_init_t_simple`, sha512_L35_hash_simple.c:28-32. -/
def ts_sha2_L35_init_t_simple (t : TIter) (ctx : Ctx) : L TIter := frame .ts_sha2_L35_init_t_simple do
  let s ← ts_sha512_init_ctx E mem (E.as512 t) ctx
  let s ← Sha512.update s (← rdSlice ctx.adr 0 SHA2_ADR_SIZE)
  .ok (.sha512 s)

/-- `ts_sha2_L35_next_t_simple`, sha512_L35_hash_simple.c:35-39. -/
def ts_sha2_L35_next_t_simple (t : TIter) (input : Bytes) (ctx : Ctx) : L TIter := frame .ts_sha2_L35_next_t_simple do
  let s ← Sha512.update (E.as512 t) (← rdSlice input 0 ctx.ps.n)
  .ok (.sha512 s)

/-- `ts_sha2_L35_final_t_simple`, sha512_L35_hash_simple.c:43-47. -/
def ts_sha2_L35_final_t_simple (output : Bytes) (t : TIter) (ctx : Ctx) : L (Bytes × TIter) := frame .ts_sha2_L35_final_t_simple do
  let (output, s) ← Sha512.final_trunc output (E.as512 t) ctx.ps.n
  .ok (output, .sha512 s)

/-- `ts_sha2_L35_prehash`, sha512_L35_hash_simple.c:60-76. -/
def ts_sha2_L35_prehash (sc : Ctx) : L Ctx := frame .ts_sha2_L35_prehash do
  let sc ← ts_sha2_L1_prehash E mem sc
  let n := sc.ps.n
  let ctx := Sha512.init (E.as512 sc.small_iter)
  let ctx ← Sha512.update ctx (← pubSeed mem sc.public_key n)
  let ctx ← loop (fun _ ctx => Sha512.update ctx [0]) (128 - n) n ctx
  .ok { sc with prehash_sha512 := Sha512.save_state ctx, small_iter := .sha512 ctx }

/-- `ts_shake256_prf_msg`, shake256_hash.c:17-32. -/
def ts_shake256_prf_msg (output opt_rand : Bytes) (message len_message : Nat) (sc : Ctx) :
    L (Bytes × Ctx) := frame .ts_shake256_prf_msg do
  let n := sc.ps.n
  let ctx ← Shake.inc_init (E.asShake sc.small_iter)
  let ctx ← Shake.inc_absorb E.cfg.shakeOpt ctx (← secPrf mem sc.public_key n)
  let ctx ← Shake.inc_absorb E.cfg.shakeOpt ctx (← rdSlice opt_rand 0 n)
  let ctx ← Shake.inc_absorb E.cfg.shakeOpt ctx (← memRead mem message len_message)
  let ctx ← Shake.inc_finalize ctx
  let (output, ctx) ← Shake.inc_squeeze E.cfg.shakeOpt output 0 n ctx
  .ok (output, { sc with small_iter := .shake ctx })

/-- `ts_shake256_hash_msg`, shake256_hash.c:37-58. -/
def ts_shake256_hash_msg (output : Bytes) (len_output : Nat) (randomness : Bytes)
    (message len_message : Nat) (sc : Ctx) : L (Bytes × Ctx) := frame .ts_shake256_hash_msg do
  let n := sc.ps.n
  let ctx ← Shake.inc_init (E.asShake sc.small_iter)
  let ctx ← Shake.inc_absorb E.cfg.shakeOpt ctx (← rdSlice randomness 0 n)
  let ctx ← Shake.inc_absorb E.cfg.shakeOpt ctx (← pubSeed mem sc.public_key n)
  let ctx ← Shake.inc_absorb E.cfg.shakeOpt ctx (← pubRoot mem sc.public_key n)
  let ctx ← Shake.inc_absorb E.cfg.shakeOpt ctx (← memRead mem message len_message)
  let ctx ← Shake.inc_finalize ctx
  let (output, ctx) ← Shake.inc_squeeze E.cfg.shakeOpt output 0 len_output ctx
  .ok (output, { sc with small_iter := .shake ctx })

/-- `ts_shake256_prf`, shake256_hash.c:63-77. -/
def ts_shake256_prf (output : Bytes) (sc : Ctx) : L (Bytes × Ctx) := frame .ts_shake256_prf do
  let n := sc.ps.n
  let ctx ← Shake.inc_init (E.asShake sc.small_iter)
  let ctx ← Shake.inc_absorb E.cfg.shakeOpt ctx (← pubSeed mem sc.public_key n)
  let ctx ← Shake.inc_absorb E.cfg.shakeOpt ctx (← rdSlice sc.adr 0 E.cfg.ADR_SIZE)
  let ctx ← Shake.inc_absorb E.cfg.shakeOpt ctx (← secSeed mem sc.public_key n)
  let ctx ← Shake.inc_finalize ctx
  let (output, ctx) ← Shake.inc_squeeze E.cfg.shakeOpt output 0 n ctx
  .ok (output, { sc with small_iter := .shake ctx })

/-- `ts_shake256_init_t_simple`, shake256_simple.c:32-42. -/
def ts_shake256_init_t_simple (t : TIter) (ctx : Ctx) : L TIter := frame .ts_shake256_init_t_simple do
  let iter ← Shake.inc_init (E.asShake t)
  let iter ← Shake.inc_absorb E.cfg.shakeOpt iter (← pubSeed mem ctx.public_key ctx.ps.n)
  let iter ← Shake.inc_absorb E.cfg.shakeOpt iter (← rdSlice ctx.adr 0 E.cfg.ADR_SIZE)
  .ok (.shake iter)

/-- `ts_shake256_next_t_simple`, shake256_simple.c:45-50. -/
def ts_shake256_next_t_simple (t : TIter) (input : Bytes) (ctx : Ctx) : L TIter := frame .ts_shake256_next_t_simple do
  let iter ← Shake.inc_absorb E.cfg.shakeOpt (E.asShake t) (← rdSlice input 0 ctx.ps.n)
  .ok (.shake iter)

/-- `ts_shake256_final_t_simple`, shake256_simple.c:54-62. -/
def ts_shake256_final_t_simple (output : Bytes) (t : TIter) (ctx : Ctx) : L (Bytes × TIter) := frame .ts_shake256_final_t_simple do
  let iter ← Shake.inc_finalize (E.asShake t)
  let (output, iter) ← Shake.inc_squeeze E.cfg.shakeOpt output 0 ctx.ps.n iter
  .ok (output, .shake iter)

/-- `ts_shake256_f_simple`, shake256_simple.c:17-28. -/
def ts_shake256_f_simple (output inblock : Bytes) (ctx : Ctx) : L (Bytes × Ctx) := frame .ts_shake256_f_simple do
  let t ← ts_shake256_init_t_simple E mem ctx.small_iter ctx
  let t ← ts_shake256_next_t_simple E t inblock ctx
  let (output, t) ← ts_shake256_final_t_simple E output t ctx
  .ok (output, { ctx with small_iter := t })

/-- `(ctx->ps->prf_msg)(...)`, internal.h:31-33. -/
def call_prf_msg (output opt : Bytes) (message len_message : Nat) (ctx : Ctx) : L (Bytes × Ctx) :=
  calling .prf_msg (famNum ctx.ps.prf_msg) <| match ctx.ps.prf_msg with
  | .shake => ts_shake256_prf_msg E mem output opt message len_message ctx
  | .sha2L1 => ts_sha2_L1_prf_msg E mem output opt message len_message ctx
  | .sha2L35 => ts_sha2_L35_prf_msg E mem output opt message len_message ctx

/-- `(ctx->ps->hash_msg)(...)`, internal.h:34-37. -/
def call_hash_msg (output : Bytes) (len_output : Nat) (randomness : Bytes)
    (message len_message : Nat) (ctx : Ctx) : L (Bytes × Ctx) :=
  calling .hash_msg (famNum ctx.ps.hash_msg) <| match ctx.ps.hash_msg with
  | .shake => ts_shake256_hash_msg E mem output len_output randomness message len_message ctx
  | .sha2L1 => ts_sha2_L1_hash_msg E mem output len_output randomness message len_message ctx
  | .sha2L35 => ts_sha2_L35_hash_msg E mem output len_output randomness message len_message ctx

/-- `(ctx->ps->prf)(output, ctx)`, internal.h:38. -/
def call_prf (output : Bytes) (ctx : Ctx) : L (Bytes × Ctx) :=
  calling .prf (famNum ctx.ps.prf) <| match ctx.ps.prf with
  | .shake => ts_shake256_prf E mem output ctx
  | .sha2L1 | .sha2L35 => ts_sha2_prf E mem output ctx

/-- `(ctx->ps->f)(output, inblock, ctx)`, internal.h:39-41. -/
def call_f (output inblock : Bytes) (ctx : Ctx) : L (Bytes × Ctx) :=
  calling .f (famNum ctx.ps.f) <| match ctx.ps.f with
  | .shake => ts_shake256_f_simple E mem output inblock ctx
  | .sha2L1 | .sha2L35 => ts_sha2_f_simple E mem output inblock ctx

/-- `ctx->ps->init_t(t, ctx)`, internal.h:48. -/
def call_init_t (t : TIter) (ctx : Ctx) : L TIter :=
  calling .init_t (famNum ctx.ps.init_t) <| match ctx.ps.init_t with
  | .shake => ts_shake256_init_t_simple E mem t ctx
  | .sha2L1 => ts_sha2_L1_init_t_simple E mem t ctx
  | .sha2L35 => ts_sha2_L35_init_t_simple E mem t ctx

/-- `ctx->ps->next_t(t, input, ctx)`, internal.h:49-50. -/
def call_next_t (t : TIter) (input : Bytes) (ctx : Ctx) : L TIter :=
  calling .next_t (famNum ctx.ps.next_t) <| match ctx.ps.next_t with
  | .shake => ts_shake256_next_t_simple E t input ctx
  | .sha2L1 => ts_sha2_L1_next_t_simple E t input ctx
  | .sha2L35 => ts_sha2_L35_next_t_simple E t input ctx

/-- `ctx->ps->final_t(output, t, ctx)`, internal.h:51-52. -/
def call_final_t (output : Bytes) (t : TIter) (ctx : Ctx) : L (Bytes × TIter) :=
  calling .final_t (famNum ctx.ps.final_t) <| match ctx.ps.final_t with
  | .shake => ts_shake256_final_t_simple E output t ctx
  | .sha2L1 => ts_sha2_L1_final_t_simple E output t ctx
  | .sha2L35 => ts_sha2_L35_final_t_simple E output t ctx

/-- `#if TS_SHA2_OPTIMIZATION  if (ps->compute_prehash) ps->compute_prehash(ctx);`,
tiny_sphincs.c:323-325, verify.c:41-43, key_gen.c:36-38. -/
def call_prehash (ctx : Ctx) : L Ctx :=
  if E.cfg.sha2opt then
    branch (ctx.ps.compute_prehash = none) (.ok ctx) <|
    match ctx.ps.compute_prehash with
    | none => .ok ctx
    | some .sha2L1 => ts_sha2_L1_prehash E mem ctx
    | some .sha2L35 => ts_sha2_L35_prehash E mem ctx
    | some .shake => .error .unmapped
  else .ok ctx

end Leak
