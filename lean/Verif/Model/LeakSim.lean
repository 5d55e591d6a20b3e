import Verif.Model.LeakApi
import Verif.Spec.Public
/-!
# A simulator for the leakage

A program without secrets that is claimed to produce the same events: it runs the leakage model on a context, a memory, a
random number generator and uninitialised arrays all of whose bytes are zero, and is given

* the configuration and the parameter set,
* the addresses of the private key and the message, the length of the message, and which addresses are mapped,
* what the random number generator returns and how many bytes it writes, and the sizes of the calls of `ts_sign`,
* the public key, the message and the signature.

The last three are used to compute the digest of the message and the base-16 digits that the WOTS+ keys sign, as anybody who
checks the signature does; these values replace those that the all-zero run would produce.
-/
namespace Leak
open Model

/-- Uninitialised memory full of zeros. (The simulator; no line of the code.) -/
def zeroEnv (cfg : Config) : Env where
  cfg := cfg
  pun256 := fun _ => ⟨⟨0, 0, 0, 0, 0, 0, 0, 0⟩, 0, 0, List.replicate 64 0, false⟩
  pun512 := fun _ => ⟨⟨0, 0, 0, 0, 0, 0, 0, 0⟩, 0, 0, List.replicate 128 0, false⟩
  punShake := fun _ => List.replicate 26 0
  pun256_len := fun _ => List.length_replicate
  pun512_len := fun _ => List.length_replicate
  punShake_len := fun _ => List.length_replicate
  junk := fun _ _ => 0

/-- Which addresses are mapped. (The simulator; no line of the code.) -/
def mapped (m : Mem) (a : Nat) : Bool := (m a).isSome

/-- What a random number generator returns when asked for `n` bytes, and how many bytes it writes. (The simulator; no line of the code.) -/
def rngShape (n : Nat) : Option Rng → Option (Bool × Nat) := Option.map fun f => ((f n).1, (f n).2.length)

/-- A memory of zeros. (The simulator; no line of the code.) -/
def zeroMem (mapped : Nat → Bool) : Mem := fun a => if mapped a then some 0 else none

/-- A generator delivering zeros. (The simulator; no line of the code.) -/
def zeroRng : Option (Bool × Nat) → Option Rng := Option.map fun p _ => (p.1, List.replicate p.2 0)

/-- Public digits are put in place of those of a freshly started WOTS+ signature. (The simulator; no line of the code.) -/
def patch (digits : Nat → Bytes) (c : Ctx) : Ctx :=
  if c.state = .wots then
    { c with x := c.x.take 1 ++ digits c.hypertree_level ++ c.x.drop (1 + (digits c.hypertree_level).length) }
  else c

/-- `signLoop` with public digits. (The simulator; no line of the code.) -/
def simLoop (E : Env) (mem : Mem) (digits : Nat → Bytes) : (fuel : Nat) → (dest : Bytes) → (off m : Nat) → Ctx → L (Nat × Bytes × Ctx)
  | 0, _, _, _, _ => .error .diverge
  | fuel + 1, dest, off, m, ctx =>
    lif m = 0 then .ok (m, dest, ctx)
    else do
      let remain := usub ctx.ps.n ctx.buffer_offset
      lif remain > 0 then do
        let remain ← lif remain > m then .ok m else .ok remain
        let dest ← wrSlice dest off (← rdSlice ctx.buffer ctx.buffer_offset remain)
        let ctx := { ctx with buffer_offset := (ctx.buffer_offset + remain) % 256 }
        simLoop E mem digits fuel dest (off + remain) (m - remain) ctx
      else do
        match ← signStep E mem ctx with
        | none => .ok (m, dest, ctx)
        | some ctx => simLoop E mem digits fuel dest off m (patch digits ctx)

/-- `ts_sign` with public digits. (The simulator; no line of the code.) -/
def simSign (E : Env) (mem : Mem) (digits : Nat → Bytes) (dest : Bytes) (m : Nat) (ctx : Ctx) : L (Nat × Bytes × Ctx) :=
  frame .ts_sign <| lif ctx.state.num ≤ St.sign_state.num ∨ ctx.state.num ≥ St.verify_state.num then
    .ok (0, dest, ctx)
  else do
    let (m', dest, ctx) ← simLoop E mem digits (2 * m + 2) dest 0 m ctx
    .ok (m - m', dest, ctx)

/-- Calls of `ts_sign` with public digits, given by the sizes of the destination and of the request. (The simulator; no line of the code.) -/
def simCalls (E : Env) (mem : Mem) (digits : Nat → Bytes) : Ctx → List (Nat × Nat) → L Unit
  | _, [] => .ok ()
  | c, (size, m) :: rs => do
    let (_, _, c) ← simSign E mem digits (List.replicate size 0) m c
    simCalls E mem digits c rs

/-- The first half of `ts_init_sign`, up to the hash of the message (tiny_sphincs.c:318-349): the hash, the context, and the
requests made to the random number generator. -/
def initHash (E : Env) (mem : Mem) (ctx : Ctx) (message len_message : Nat) (ps : ParamSet) (private_key : Nat)
    (random_function : Option Rng) : L ((Bytes × Ctx) × List Nat) := do
  let n := ps.n
  let ctx := { ctx with ps := ps, public_key := private_key + 2 * n }
  let ctx ← call_prehash E mem ctx
  let (opt_buffer, reqs) ← fillOptBuffer E mem ctx.public_key n random_function
  let (b, ctx) ← call_prf_msg E mem ctx.buffer opt_buffer message len_message ctx
  let ctx := { ctx with buffer := b }
  let r ← call_hash_msg E mem (E.local 10 MAX_MESSAGE_HASH) MAX_MESSAGE_HASH ctx.buffer message len_message ctx
  .ok (r, reqs)

/-- The second half of `ts_init_sign` (tiny_sphincs.c:351-364). -/
def initRest (E : Env) (mem : Mem) (r : (Bytes × Ctx) × List Nat) : L (Ctx × List Nat) := do
  let (ctx, _) ← ts_convert_message_hash E r.1.2 r.1.1
  let ctx := { ctx with buffer_offset := 0, state := .fors_leaf, fors_tree := 0,
                        merkle_level := 0, hypertree_level := 0 }
  let ctx ← ts_set_fors_root_adr E ctx
  let t ← call_init_t E mem ctx.big_iter ctx
  .ok ({ ctx with big_iter := t }, r.2)

/-- The digest of a signed message, all of its 49 bytes. (The simulator; no line of the code.) -/
def pubDigest (x : PsName) (pk M sig : Bytes) : Bytes :=
  x.fns.Hmsg (sig.take x.P.n) (pk.take x.P.n) ((pk.drop x.P.n).take x.P.n) M MAX_MESSAGE_HASH

/-- The digits of the value signed in layer `j`. (The simulator; no line of the code.) -/
def pubDigits (x : PsName) (pk M sig : Bytes) (j : Nat) : Bytes :=
  (Spec.Slh.wotsDigits x.P ((Spec.Slh.signedValues x.P x.fns pk M sig).getD j [])).map UInt8.ofNat

/-- A signature operation without secrets. (The simulator; no line of the code.) -/
def simSignRun (cfg : Config) (x : PsName) (priv msg : Nat) (mapped : Nat → Bool) (rng : Option (Bool × Nat)) (pk M sig : Bytes)
    (sizes : List (Nat × Nat)) : L Unit := do
  let E := zeroEnv cfg
  let mem := zeroMem mapped
  let (c, _) ← frame .ts_init_sign do
    let ((_, c), reqs) ← initHash E mem (zeroCtx E (ps cfg x)) msg M.length (ps cfg x) priv (zeroRng rng)
    initRest E mem ((pubDigest x pk M sig, c), reqs)
  simCalls E mem (pubDigits x pk M sig) c sizes

/-- Key generation without secrets. (The simulator; no line of the code.) -/
def simGenKey (cfg : Config) (x : Option PsName) (priv pub : Option Nat) (mapped : Nat → Bool) (rng : Option (Bool × Nat)) : L Unit := do
  let _ ← ts_gen_key (zeroEnv cfg) (zeroMem mapped) priv pub (x.map (ps cfg)) (zeroRng rng)
  .ok ()

end Leak
