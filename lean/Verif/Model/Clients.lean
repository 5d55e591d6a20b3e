import Verif.Model.Api
/-!
# Model of the programs of the repository that use the library

get_space.c and get_space2.c (the operations whose stack usage is measured; the measuring itself is in
Model/Measure.lean), test_testvector.c, test_verify.c, test_sha512.c, test_shake.c, test_sphincs.c.

The local and static buffers of these programs (keys, messages) are at addresses of `Mem` given as arguments;
a local `struct ts_context` and one that was filled by `memset` has arbitrary content, given as an argument. `printf`, the
progress report and `malloc` failure are left out.
-/
namespace Model

/-! ## Random number generators of the clients -/

/-- `while (n--) *s++ = n;`, get_space2.c:27-29. -/
def countdown : Nat → Bytes
  | 0 => []
  | n + 1 => UInt8.ofNat n :: countdown n

/-- `fake_rand`, get_space2.c:26-31. -/
def fake_rand : Rng := fun n => (true, countdown n)

/-- `while (n--) *s++ = n+1;`, get_space.c:28-30. -/
def countdown1 : Nat → Bytes
  | 0 => []
  | n + 1 => UInt8.ofNat (n + 1) :: countdown1 n

/-- `fake_rand`, get_space.c:27-32. -/
def fake_rand1 : Rng := fun n => (true, countdown1 n)

/-- `fixed_rand`, test_testvector.c:86-91. -/
def fixed_rand : Rng := fun n => (true, (List.range n).map UInt8.ofNat)

/-- `optrand_rng`, test_testvector.c:96-99, with the content of `optrand_buffer`. -/
def optrand_rng (optrand_buffer : Bytes) : Rng := fun n => (true, optrand_buffer.take n)

/-- The loop of `local_rand`, test_verify.c:8-15. -/
def localLoop : Nat → UInt32 → Bytes
  | 0, _ => []
  | n + 1, r =>
    let r := r + ((r * r) ||| 5)
    UInt8.ofNat (r >>> 8).toNat :: localLoop n r

/-- `local_rand`, test_verify.c:8-15. -/
def local_rand : Rng := fun n => (true, localLoop n 0x1234)

section
variable (E : Env)

/-! ## get_space2.c -/

/-- `run_keygen`, get_space2.c:38-42. -/
def run_keygen (mem : Mem) (private_key : Nat) (ps : ParamSet) : C Mem := do
  let (_, mem, _) ← ts_gen_key E mem (some private_key) none (some ps) (some fake_rand)
  .ok mem

/-- The `for (;;)` of `run_sign`, get_space2.c:50-54. The result (not in C) lists the values that `c` took. -/
def run_sign_loop (mem : Mem) : (fuel : Nat) → (c : UInt8) → Ctx → C Bytes
  | 0, _, _ => .error .diverge
  | fuel + 1, c, ctx => do
    let (r, dest, ctx) ← ts_sign E mem [c] 1 ctx
    if 1 ≠ r then .ok []
    else do
      let c ← rd dest 0
      let cs ← run_sign_loop mem fuel c ctx
      .ok (c :: cs)

/-- `run_sign`, get_space2.c:47-55; the message is the string "abc" there. `c0` is the content of the static `c`. -/
def run_sign (fuel : Nat) (mem : Mem) (c0 : UInt8) (ctx : Ctx) (message len_message : Nat) (ps : ParamSet) (priv_key : Nat) : C Bytes := do
  let (ctx, _) ← ts_init_sign E mem ctx message len_message ps priv_key none
  run_sign_loop E mem fuel c0 ctx

/-- `run_verify`, get_space2.c:61-71; `sig` carries the `len_sig` bytes. -/
def run_verify (mem : Mem) (ctx : Ctx) (ps : ParamSet) (public_key message len_message : Nat) (sig : Bytes) : C Nat := do
  let ctx ← ts_init_verify E mem ctx message len_message ps public_key
  let (_, ctx) ← ts_update_verify E mem sig ctx
  .ok (ts_verify ctx)

/-- `get_sig_and_public_key`, get_space2.c:82-97; the malloced buffer has arbitrary content. -/
def get_sig_and_public_key (mem : Mem) (private_key : Nat) (ctx : Ctx) (ps : ParamSet) (public_key message len_message : Nat) : C (Bytes × Mem) := do
  let (_, mem, _) ← ts_gen_key E mem (some private_key) (some public_key) (some ps) (some fake_rand)
  let sig_len := ts_size_signature ps
  let sig := E.local 100 sig_len
  let (ctx, _) ← ts_init_sign E mem ctx message len_message ps private_key (some fake_rand)
  let (_, sig, _) ← ts_sign E mem sig sig_len ctx
  .ok (sig, mem)

/-! ## get_space.c (`init_stack` and `measure_stack` are in Model/Measure.lean) -/

/-- `get_sig_space`, get_space.c:46-55. -/
def get_sig_space (fuel : Nat) (mem : Mem) (private_key : Nat) (c0 : UInt8) (ctx : Ctx) (message len_message : Nat) (ps : ParamSet) : C Bytes := do
  let (_, mem, _) ← ts_gen_key E mem (some private_key) none (some ps) (some fake_rand1)
  run_sign E fuel mem c0 ctx message len_message ps private_key

/-- `get_ver_space`, get_space.c:60-79: the value of `success`, which decides whether a result is reported. -/
def get_ver_space (mem : Mem) (private_key : Nat) (ctx ctx' : Ctx) (ps : ParamSet) (public_key message len_message : Nat) : C Nat := do
  let (sig, mem) ← get_sig_and_public_key E mem private_key ctx ps public_key message len_message
  let sig_len := ts_size_signature ps
  run_verify E mem ctx' ps public_key message len_message (← rdSlice sig 0 sig_len)

/-! ## test_testvector.c -/

/-- `lookup_parameter_set`, test_testvector.c:52-82. -/
def lookup_parameter_set (name : String) : Option PsName :=
  if name = "sha2_128f_simple" then some .sha2_128f
  else if name = "shake_128f_simple" then some .shake_128f
  else if name = "sha2_128s_simple" then some .sha2_128s
  else if name = "shake_128s_simple" then some .shake_128s
  else if name = "sha2_192f_simple" then some .sha2_192f
  else if name = "shake_192f_simple" then some .shake_192f
  else if name = "sha2_192s_simple" then some .sha2_192s
  else if name = "shake_192s_simple" then some .shake_192s
  else if name = "sha2_256f_simple" then some .sha2_256f
  else if name = "shake_256f_simple" then some .shake_256f
  else if name = "sha2_256s_simple" then some .sha2_256s
  else if name = "shake_256s_simple" then some .shake_256s
  else none

/-- `struct v`, test_testvector.c:38-47. -/
structure TestVector where
  parameter_set_name : String
  public_key : Bytes
  optrand : Bytes
  hash_sig : Bytes

/-- The `for (;;)` loop of `test_testvector`, test_testvector.c:157-173: sign `buffer.length` bytes (42 in C), hash them, verify them.
`none` is `return 0`. -/
def vectorLoop (mem : Mem) : (fuel : Nat) → (buffer : Bytes) → (ctx verify_ctx : Ctx) → (hash_ctx : Sha256.Ctx) → C (Option (Ctx × Sha256.Ctx))
  | 0, _, _, _, _ => .error .diverge
  | fuel + 1, buffer, ctx, verify_ctx, hash_ctx => do
    let (n, buffer, ctx) ← ts_sign E mem buffer buffer.length ctx
    if n = 0 then .ok (some (verify_ctx, hash_ctx))
    else do
      let piece ← rdSlice buffer 0 n
      let hash_ctx ← Sha256.update hash_ctx piece
      let (r, verify_ctx) ← ts_update_verify E mem piece verify_ctx
      if 1 ≠ r then .ok none
      else vectorLoop mem fuel buffer ctx verify_ctx hash_ctx

/-- What is left of the loop body after key generation, test_testvector.c:136-191. -/
def vectorSign (fuel : Nat) (mem : Mem) (private_key public_key : Nat) (ctx verify_ctx : Ctx) (hash_ctx : Sha256.Ctx) (buffer : Bytes) (message len_message : Nat)
    (ps : ParamSet) (v : TestVector) : C Nat := do
  let (ctx, _) ← ts_init_sign E mem ctx message len_message ps private_key (some (optrand_rng v.optrand))
  let hash_ctx := Sha256.init hash_ctx
  let verify_ctx ← ts_init_verify E mem verify_ctx message len_message ps public_key
  match ← vectorLoop E mem fuel buffer ctx verify_ctx hash_ctx with
  | none => .ok 0
  | some (verify_ctx, hash_ctx) => do
    let (hash, _) ← Sha256.final (E.local 101 32) hash_ctx
    if v.hash_sig ≠ hash then .ok 0
    else if 1 ≠ ts_verify verify_ctx then .ok 0
    else .ok 1

/-- The body of the loop of `test_testvector` for one vector, test_testvector.c:110-194: 1 if it gets to the end, else 0. The contexts and
the buffer are uninitialised locals. -/
def vectorTest (fuel : Nat) (mem : Mem) (private_key public_key : Nat) (ctx verify_ctx : Ctx) (hash_ctx : Sha256.Ctx) (buffer : Bytes) (message len_message : Nat)
    (v : TestVector) : C Nat :=
  match lookup_parameter_set v.parameter_set_name with
  | none => .ok 0
  | some x => do
    let ps := ps E.cfg x
    let (ok, mem, _) ← ts_gen_key E mem (some private_key) (some public_key) (some ps) (some fixed_rand)
    if ok = 0 then .ok 0
    else do
      let len_public_key := ts_size_public_key ps
      let a ← rdSlice v.public_key 0 len_public_key
      let b ← mem.read public_key len_public_key
      if a ≠ b then .ok 0
      else vectorSign E fuel mem private_key public_key ctx verify_ctx hash_ctx buffer message len_message ps v

/-! ## test_verify.c -/

/-- `ts_init_verify`, one `ts_update_verify`, `ts_verify`: the pattern of test_verify.c:76-79 and others. The results are the two return values. -/
def verifyOnce (mem : Mem) (ctx : Ctx) (ps : ParamSet) (public_key message len_message : Nat) (sig : Bytes) : C (Nat × Nat) := do
  let ctx ← ts_init_verify E mem ctx message len_message ps public_key
  let (r, ctx) ← ts_update_verify E mem sig ctx
  .ok (r, ts_verify ctx)

/-- `for (unsigned i=0; i<len_signature; i+=a)`, test_verify.c:111-119; `none` is `return 0`. -/
def chunkLoop (mem : Mem) (s : Bytes) (len_signature a : Nat) : (fuel i : Nat) → Ctx → C (Option Ctx)
  | 0, _, _ => .error .diverge
  | fuel + 1, i, ctx =>
    if i < len_signature then do
      let chunk := len_signature - i
      let chunk := if chunk > a then a else chunk
      let piece ← rdSlice s i chunk
      let (r, ctx) ← ts_update_verify E mem piece ctx
      if 1 ≠ r then .ok none
      else chunkLoop mem s len_signature a fuel (i + a) ctx
    else .ok (some ctx)

/-- `for (; a < len_signature; t=a, a=a+b, b=t)`, test_verify.c:107-126; `fill b` is the context after `memset(&ctx, b, sizeof ctx)`;
the result is 0 for `return 0`, 1 if the loop ends. -/
def fibLoop (mem : Mem) (fill : Nat → Ctx) (ps : ParamSet) (public_key message len_message : Nat) (s : Bytes) (len_signature : Nat) :
    (fuel a b : Nat) → C Nat
  | 0, _, _ => .error .diverge
  | fuel + 1, a, b =>
    if a < len_signature then do
      let ctx ← ts_init_verify E mem (fill b) message len_message ps public_key
      match ← chunkLoop E mem s len_signature a (len_signature + 1) 0 ctx with
      | none => .ok 0
      | some ctx =>
        if 1 ≠ ts_verify ctx then .ok 0
        else fibLoop mem fill ps public_key message len_message s len_signature fuel (a + b) a
    else .ok 1

/-- `for (unsigned bit = 0; bit < 8; bit += bit_increment)`, test_verify.c:146-161; the result is `s`, `none` is `return 0`. -/
def bitLoop (mem : Mem) (fill : Nat → Ctx) (ps : ParamSet) (public_key message len_message len_signature offset bit_increment : Nat) :
    (fuel bit : Nat) → (s : Bytes) → C (Option Bytes)
  | 0, _, _ => .error .diverge
  | fuel + 1, bit, s =>
    if bit < 8 then do
      let v ← rd s offset
      let s ← wr s offset (v ^^^ UInt8.ofNat (1 <<< bit))
      let sig ← rdSlice s 0 len_signature
      let (r, r') ← verifyOnce E mem (fill (offset + bit)) ps public_key message len_message sig
      if 0 ≠ r ∨ 0 ≠ r' then .ok none
      else do
        let v ← rd s offset
        let s ← wr s offset (v ^^^ UInt8.ofNat (1 <<< bit))
        bitLoop mem fill ps public_key message len_message len_signature offset bit_increment fuel (bit + bit_increment) s
    else .ok (some s)

/-- `for (size_t offset = 0; offset < len_signature; offset += increment)`, test_verify.c:133-162. -/
def flipLoop (mem : Mem) (fill : Nat → Ctx) (ps : ParamSet) (public_key message len_message len_signature increment bit_increment : Nat) :
    (fuel offset : Nat) → (s : Bytes) → C (Option Bytes)
  | 0, _, _ => .error .diverge
  | fuel + 1, offset, s =>
    if offset < len_signature then do
      match ← bitLoop E mem fill ps public_key message len_message len_signature offset bit_increment 9 0 s with
      | none => .ok none
      | some s => flipLoop mem fill ps public_key message len_message len_signature increment bit_increment fuel (offset + increment) s
    else .ok (some s)

/-- test_verify.c:128-182: flipped bits, the unmodified signature, the wrong message. -/
def negativeTests (fast_flag : Bool) (mem : Mem) (fill : Nat → Ctx) (ctx : Ctx) (ps : ParamSet) (public_key message len_message wrong_message len_wrong_message : Nat)
    (s : Bytes) (len_signature : Nat) : C Nat := do
  let increment := if fast_flag then 5 else 1
  let bit_increment := if fast_flag then 8 else 1
  match ← flipLoop E mem fill ps public_key message len_message len_signature increment bit_increment (len_signature + 1) 0 s with
  | none => .ok 0
  | some s => do
    let sig ← rdSlice s 0 len_signature
    let (r, r') ← verifyOnce E mem ctx ps public_key message len_message sig
    if 1 ≠ r ∨ 1 ≠ r' then .ok 0
    else do
      let (r, r') ← verifyOnce E mem ctx ps public_key wrong_message len_wrong_message sig
      if 0 ≠ r ∨ 0 ≠ r' then .ok 0
      else .ok 1

/-- test_verify.c:75-126: the unmodified, too short, too long signature, and chunks. -/
def positiveTests (mem : Mem) (fill : Nat → Ctx) (ps : ParamSet) (public_key message len_message : Nat) (s : Bytes) (len_signature : Nat) : C Nat := do
  let (r, r') ← verifyOnce E mem (fill 63) ps public_key message len_message (← rdSlice s 0 len_signature)
  if 1 ≠ r ∨ 1 ≠ r' then .ok 0
  else do
    let (r, r') ← verifyOnce E mem (fill 33) ps public_key message len_message (← rdSlice s 0 (len_signature - 1))
    if 1 ≠ r ∨ 0 ≠ r' then .ok 0
    else do
      let (r, r') ← verifyOnce E mem (fill 64) ps public_key message len_message (← rdSlice s 0 (len_signature + 1))
      if 0 ≠ r ∨ 0 ≠ r' then .ok 0
      else fibLoop E mem fill ps public_key message len_message s len_signature (len_signature + 1) 1 1

/-- `do_test` from the generation of the key on, test_verify.c:51-185. -/
def do_test_body (fast_flag : Bool) (mem : Mem) (private_key public_key message len_message wrong_message len_wrong_message : Nat) (fill : Nat → Ctx) (ctx : Ctx)
    (ps : ParamSet) : C Nat := do
  let len_signature := ts_size_signature ps
  let (ok, mem, _) ← ts_gen_key E mem (some private_key) (some public_key) (some ps) (some local_rand)
  if ok = 0 then .ok 0
  else do
    let s := E.local 102 (len_signature + 1)
    let (c, _) ← ts_init_sign E mem ctx message len_message ps private_key none
    let (r, s, _) ← ts_sign E mem s (len_signature + 1) c
    if len_signature ≠ r then .ok 0
    else do
      let r ← positiveTests E mem fill ps public_key message len_message s len_signature
      if r = 0 then .ok 0
      else negativeTests E fast_flag mem fill ctx ps public_key message len_message wrong_message len_wrong_message s len_signature

/-- `do_test`, test_verify.c:20-186. -/
def do_test (always fast_flag : Bool) (iter : Nat) (mem : Mem) (private_key public_key message len_message wrong_message len_wrong_message : Nat) (fill : Nat → Ctx)
    (ctx : Ctx) (ps : ParamSet) : C Nat :=
  if fast_flag && !always then .ok 1
  else if iter = 0 then .ok 1
  else do_test_body E fast_flag mem private_key public_key message len_message wrong_message len_wrong_message fill ctx ps

end

/-! ## test_sha512.c -/

/-- `for (unsigned j=0; j<len_message; j+=n)` with `ts_SHA512_update`, test_sha512.c:31-35. -/
def sha512Pieces (message : Bytes) (n : Nat) : (fuel j : Nat) → Sha512.Ctx → C Sha512.Ctx
  | 0, _, _ => .error .diverge
  | fuel + 1, j, ctx =>
    if j < message.length then do
      let this_len := message.length - j
      let this_len := if this_len > n then n else this_len
      let piece ← rdSlice message j this_len
      let ctx ← Sha512.update ctx piece
      sha512Pieces message n fuel (j + n) ctx
    else .ok ctx

/-- `for (unsigned n = 1; n <= len_message; n++)`, test_sha512.c:28-43: 0 for `return 0`, 1 if the loop ends. -/
def sha512Sizes (expected_result message : Bytes) : (fuel n : Nat) → Sha512.Ctx → C Nat
  | 0, _, _ => .error .diverge
  | fuel + 1, n, ctx =>
    if n ≤ message.length then do
      let ctx ← sha512Pieces message n (message.length + 1) 0 (Sha512.init ctx)
      let (actual_result, ctx) ← Sha512.final (List.replicate 64 0) ctx
      if (← rdSlice expected_result 0 64) ≠ actual_result then .ok 0
      else sha512Sizes expected_result message fuel (n + 1) ctx
    else .ok 1

/-- `for (int n=8; n<=64; n+=8)`, test_sha512.c:46-62; `fill n` is the context after `memset(&ctx, n, sizeof ctx)`. -/
def sha512Truncs (expected_result message : Bytes) (fill : Nat → Sha512.Ctx) : (fuel n : Nat) → C Nat
  | 0, _ => .error .diverge
  | fuel + 1, n =>
    if n ≤ 64 then do
      let ctx ← Sha512.update (Sha512.init (fill n)) message
      let (actual_result, _) ← Sha512.final_trunc (List.replicate 64 0) ctx n
      if (← rdSlice expected_result 0 n) ≠ (← rdSlice actual_result 0 n) then .ok 0
      else if (actual_result.drop n).any (fun b => b ≠ 0) then .ok 0
      else sha512Truncs expected_result message fill fuel (n + 8)
    else .ok 1

/-- test_sha512.c:65-81, the save and restore API; `other` is `restore_ctx` after `memset(&restore_ctx, 42, …)`. -/
def sha512SaveRestore (expected_result message : Bytes) (ctx other : Sha512.Ctx) : C Nat :=
  if message.length ≥ 128 then do
    let ctx ← Sha512.update (Sha512.init ctx) (← rdSlice message 0 128)
    let save_state := Sha512.save_state ctx
    let restore_ctx := Sha512.restore_state other save_state
    let restore_ctx ← Sha512.update restore_ctx (← rdSlice message 128 (message.length - 128))
    let (actual_result, _) ← Sha512.final (List.replicate 64 0) restore_ctx
    if (← rdSlice expected_result 0 64) ≠ actual_result then .ok 0
    else .ok 1
  else .ok 1

/-- `test`, test_sha512.c:23-84. -/
def sha512Test (ctx other : Sha512.Ctx) (fill : Nat → Sha512.Ctx) (expected_result message : Bytes) : C Nat := do
  let r ← sha512Sizes expected_result message (message.length + 1) 1 ctx
  if r = 0 then .ok 0
  else do
    let r ← sha512Truncs expected_result message fill 9 8
    if r = 0 then .ok 0
    else sha512SaveRestore expected_result message ctx other

/-! ## test_shake.c -/

/-- `for (unsigned j=0; j<len_message; j+=n)` with `ts_shake256_inc_absorb`, test_shake.c:35-39. -/
def shakePieces (opt : Nat) (message : Bytes) (n : Nat) : (fuel j : Nat) → Shake.Ctx → C Shake.Ctx
  | 0, _, _ => .error .diverge
  | fuel + 1, j, ctx =>
    if j < message.length then do
      let this_len := message.length - j
      let this_len := if this_len > n then n else this_len
      let piece ← rdSlice message j this_len
      let ctx ← Shake.inc_absorb opt ctx piece
      shakePieces opt message n fuel (j + n) ctx
    else .ok ctx

/-- `for (unsigned j=0; j<len_expected_result; j += this_len)`, test_shake.c:47-55: 0 for `return 0`, 1 if the loop ends. -/
def shakeOutputs (opt : Nat) (expected_result : Bytes) (max_out_len : Nat) : (fuel j : Nat) → (actual_result : Bytes) → Shake.Ctx → C (Nat × Shake.Ctx)
  | 0, _, _, _ => .error .diverge
  | fuel + 1, j, actual_result, ctx =>
    if j < expected_result.length then do
      let this_len := expected_result.length - j
      let this_len := if this_len > max_out_len then max_out_len else this_len
      let (actual_result, ctx) ← Shake.inc_squeeze opt actual_result 0 this_len ctx
      if (← rdSlice expected_result j this_len) ≠ (← rdSlice actual_result 0 this_len) then .ok (0, ctx)
      else shakeOutputs opt expected_result max_out_len fuel (j + this_len) actual_result ctx
    else .ok (1, ctx)

/-- `for (unsigned n = 1; n <= len_message; n++)`, test_shake.c:32-56. -/
def shakeSizes (opt : Nat) (expected_result message : Bytes) : (fuel n : Nat) → Shake.Ctx → C Nat
  | 0, _, _ => .error .diverge
  | fuel + 1, n, ctx =>
    if n ≤ message.length then do
      let ctx ← Shake.inc_init ctx
      let ctx ← shakePieces opt message n (message.length + 1) 0 ctx
      let ctx ← Shake.inc_finalize ctx
      let max_out_len := if n > 128 then 128 else n
      let (r, ctx) ← shakeOutputs opt expected_result max_out_len (expected_result.length + 1) 0 (List.replicate 128 0) ctx
      if r = 0 then .ok 0
      else shakeSizes opt expected_result message fuel (n + 1) ctx
    else .ok 1

/-- `test`, test_shake.c:26-59. -/
def shakeTest (opt : Nat) (ctx : Shake.Ctx) (expected_result message : Bytes) : C Nat :=
  shakeSizes opt expected_result message (message.length + 1) 1 ctx

/-! ## Lists of tests -/

/-- Run tests one after the other; stop with 0 at the first that returns 0 (test_testvector.c:109-196, the macro `RUN_TEST` of
test_verify.c:188-194, the sequence of `if (!test( … )) return 0;` in test_sha512.c:86-180 and test_shake.c:61-200). -/
def testAll (test : α → C Nat) : List α → C Nat
  | [] => .ok 1
  | a :: as => do
    let r ← test a
    if r = 0 then .ok 0 else testAll test as

/-- The parameter sets and the flag `always` of test_verify.c:209-224. -/
def verifySets : List (PsName × Bool) :=
  [(.sha2_128s, true), (.sha2_128f, true), (.shake_128s, true), (.shake_128f, false),
   (.sha2_192s, true), (.sha2_192f, false), (.shake_192s, true), (.shake_192f, false),
   (.sha2_256s, true), (.sha2_256f, false), (.shake_256s, true), (.shake_256f, false)]

/-- `test_verify`, test_verify.c:196-228, given `do_test` by parameter set, `always` and `iter`. -/
def test_verify (doTest : PsName → Bool → Nat → C Nat) : C Nat :=
  testAll (fun iter => testAll (fun (x, always) => doTest x always iter) verifySets) [0, 1]

/-! ## test_sphincs.c -/

/-- The loop of `run_tests`, test_sphincs.c:32-58, over the return values of the test routines of `test_list` (all are enabled: `test_enabled` is
null in every entry); `tests` is the bitmap. The result is the exit status, 0 for `EXIT_SUCCESS` and 1 for `EXIT_FAILURE`, and (not in C)
the list of the tests that were run. -/
def run_tests (tests : Nat) (force_tests : Bool) : (results : List Nat) → (i success_flag : Nat) → Nat × List Nat
  | [], _, success_flag => (success_flag, [])
  | test_passed :: rs, i, success_flag =>
    if 0 = tests &&& (1 <<< i) then run_tests tests force_tests rs (i + 1) success_flag
    else if test_passed ≠ 0 then
      let (s, l) := run_tests tests force_tests rs (i + 1) success_flag
      (s, i :: l)
    else if !force_tests then (1, [i])
    else
      let (s, l) := run_tests tests force_tests rs (i + 1) 1
      (s, i :: l)

/-- The state of the argument loop of `main`, test_sphincs.c:76-80 (without the noise level). -/
structure MainArgs where
  tests_to_run : Nat
  force_tests : Bool
  fast_flag : Bool
deriving DecidableEq, Repr

/-- The keywords of `test_list`, test_sphincs.c:13-26. -/
def testKeywords : List String := ["sha512", "shake256", "testvector", "verify"]

/-- The argument loop of `main`, test_sphincs.c:81-110; `none` is `return EXIT_FAILURE`. -/
def parseArgs : List String → MainArgs → Option MainArgs
  | [], s => some s
  | test :: args, s =>
    match testKeywords.findIdx? (· == test) with
    | some j => parseArgs args { s with tests_to_run := s.tests_to_run ||| (1 <<< j) }
    | none =>
      if test = "all" then parseArgs args { s with tests_to_run := 2 ^ 32 - 1 }
      else if test = "-f" then parseArgs args { s with force_tests := true }
      else if test = "-full" then parseArgs args { s with fast_flag := false }
      else if test = "-q" then parseArgs args s
      else if test = "-v" then parseArgs args s
      else none

/-- `main`, test_sphincs.c:75-117, for the arguments after the program name; `results fast_flag` are the return values that the test routines would
give. The result is the exit status and the list of the tests that were run. -/
def testMain (results : Bool → List Nat) (args : List String) : Nat × List Nat :=
  match parseArgs args ⟨0, false, true⟩ with
  | none => (1, [])
  | some s =>
    if s.tests_to_run = 0 then (1, [])
    else run_tests s.tests_to_run s.force_tests (results s.fast_flag) 0 0

end Model
