import Verif.Model.Names
import Verif.Spec.Session
/-!
# Histories of API calls

An `Op` is one call as the caller makes it. The byte strings `M`, `sk`, `pk` are what the caller says is stored
at the pointers it passes; the code only gets the pointers (and the length of `M`).
-/
namespace Model
open Spec.Session (Out)

/-- One call of a function of tiny_sphincs.h on a context. Declarations: tiny_sphincs.h:209-267. -/
inductive Op
  /-- `ts_init_sign(ctx, msg, len, ps, priv, rng)` -/
  | initSign (x : PsName) (msg : Nat) (M : Bytes) (priv : Nat) (sk : Bytes) (rng : Option Rng)
  /-- `ts_sign(dest, m, ctx)`; `dest` is the content of the buffer -/
  | sign (dest : Bytes) (m : Nat)
  /-- `ts_init_verify(ctx, msg, len, ps, pub)` -/
  | initVerify (x : PsName) (msg : Nat) (M : Bytes) (pub : Nat) (pk : Bytes)
  /-- `ts_update_verify(sig, m, ctx)` -/
  | update (sig : Bytes)
  /-- `ts_verify(ctx)` -/
  | verify

/-- Run one call on a context, with the given content of the caller's memory. Dispatch to the functions of tiny_sphincs.c:313-542 and verify.c:30-251. -/
def Op.exec (E : Env) (mem : Mem) (c : Ctx) : Op → C (Out × Ctx)
  | .initSign x msg M priv _ rng => do
    let (c, _) ← ts_init_sign E mem c msg M.length (ps E.cfg x) priv rng
    .ok (.unit, c)
  | .sign dest m => do
    let (r, dest, c) ← ts_sign E mem dest m c
    .ok (.signed r dest, c)
  | .initVerify x msg M pub _ => do
    let c ← ts_init_verify E mem c msg M.length (ps E.cfg x) pub
    .ok (.unit, c)
  | .update sig => do
    let (r, c) ← ts_update_verify E mem sig c
    .ok (.ret r, c)
  | .verify => .ok (.ret (ts_verify c), c)

/-- Run a history; the caller may change its memory between calls. (A caller; no line of the code.) -/
def execAll (E : Env) : Ctx → List (Mem × Op) → C (List Out × Ctx)
  | c, [] => .ok ([], c)
  | c, (mem, op) :: ops => do
    let (o, c) ← op.exec E mem c
    let (os, c) ← execAll E c ops
    .ok (o :: os, c)

/-- Successive calls `ts_sign(dest, m, ctx)`, given by the content of `dest` and by `m`; the results are the return
values and the contents of `dest` afterwards. (A caller of tiny_sphincs.c:441-542.) -/
def signCalls (E : Env) (mem : Mem) : Ctx → List (Bytes × Nat) → C (List (Nat × Bytes) × Ctx)
  | c, [] => .ok ([], c)
  | c, (dest, m) :: rs => do
    let (r, dest, c) ← ts_sign E mem dest m c
    let (os, c) ← signCalls E mem c rs
    .ok ((r, dest) :: os, c)

/-- Successive calls `ts_update_verify(piece, |piece|, ctx)`; the results are the return values. (A caller of verify.c:101-237.) -/
def updateCalls (E : Env) (mem : Mem) : Ctx → List Bytes → C (List Nat × Ctx)
  | c, [] => .ok ([], c)
  | c, t :: ts => do
    let (r, c) ← ts_update_verify E mem t c
    let (rs, c) ← updateCalls E mem c ts
    .ok (r :: rs, c)

end Model
