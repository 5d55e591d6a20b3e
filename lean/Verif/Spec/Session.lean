import Verif.Spec.Hash
/-!
# The abstract session: what a user of the API may rely on

A context is either signing (a read cursor over the bytes of one signature) or verifying (an append-only log of
the bytes fed, with a flag that is set once a call has reported failure). No pointers, no internal state.
-/
namespace Spec.Session
open Spec.Slh

/-- Is `sig` a valid signature of `M` under `pk`? -/
abbrev valid (x : Instance) (pk M sig : Bytes) : Bool := verify x.params x.fns pk M sig

/-- The signature of `M`. -/
abbrev signature (x : Instance) (sk optRand M : Bytes) : Bytes := Slh.sign x.params x.fns sk optRand M

inductive State
  /-- never initialised -/
  | fresh
  /-- `rest`: bytes of the signature not yet delivered -/
  | signing (rest : Bytes)
  /-- `log`: all bytes fed so far -/
  | verifying (x : Instance) (pk M : Bytes) (log : Bytes) (failed : Bool)

inductive Call
  | initSign (x : Instance) (sk optRand M : Bytes)
  /-- ask for `m` bytes; `dest` is the content of the caller's buffer -/
  | sign (dest : Bytes) (m : Nat)
  | initVerify (x : Instance) (pk M : Bytes)
  | update (piece : Bytes)
  | verify
deriving DecidableEq

inductive Out
  /-- a `void` function returned -/
  | unit
  /-- return value of `ts_sign` and the content of the caller's buffer afterwards -/
  | signed (count : Nat) (dest : Bytes)
  /-- return value of `ts_update_verify` or `ts_verify` -/
  | ret (r : Nat)
deriving DecidableEq, Repr

/-- Does feeding `piece` after `log` succeed? A proper prefix of a signature is never refused; the piece that
completes the signature is accepted iff the signature is valid; running past the end in the same call is
refused; later calls may add less than `n` bytes before they are refused. -/
def feed (x : Instance) (pk M log piece : Bytes) : Bool :=
  let L := x.params.sigBytes
  let log' := log ++ piece
  if log.length < L then
    if log'.length < L then true else if log'.length = L then valid x pk M log' else false
  else decide (log'.length < L + x.params.n)

/-- One call. -/
def step : State → Call → State × Out
  | _, .initSign x sk opt M => (.signing (signature x sk opt M), .unit)
  | _, .initVerify x pk M => (.verifying x pk M [] false, .unit)
  | .signing rest, .sign dest m =>
    let out := rest.take m
    (.signing (rest.drop m), .signed out.length (out ++ dest.drop out.length))
  | s, .sign dest _ => (s, .signed 0 dest)
  | .verifying x pk M log failed, .update piece =>
    let ok := !failed && feed x pk M log piece
    (.verifying x pk M (log ++ piece) (!ok), .ret (if ok then 1 else 0))
  | s, .update _ => (s, .ret 0)
  | .verifying x pk M log failed, .verify => (.verifying x pk M log failed, .ret (if valid x pk M log then 1 else 0))
  | s, .verify => (s, .ret 0)

/-- A sequence of calls. -/
def run : State → List Call → List Out
  | _, [] => []
  | s, c :: cs => (step s c).2 :: run (step s c).1 cs

/-- Signing requests are given by the destination buffer and the size asked for. The piece of the stream `σ` due
to request number `i`: the next bytes after those due to the earlier requests, as many as asked for or as are left. -/
def piece (σ : Bytes) (reqs : List (Bytes × Nat)) (i : Nat) : Bytes :=
  (σ.drop ((reqs.take i).map Prod.snd).sum).take ((reqs[i]?.map Prod.snd).getD 0)

end Spec.Session
