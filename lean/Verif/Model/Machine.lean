import Verif.Model.Contract
import Verif.Spec.Machine
/-!
# Programs that use the library

The statements of `Spec/Machine.lean`, executed by the functions of the model. Buffers are in the caller's memory: `ts_sign` gets
what is at `dst` and its result is written back there; `ts_update_verify` gets the bytes at `src`.
-/
namespace Model
open Spec.Machine (Stmt Memory Rules)

/-- The parameter set of an instance (tiny_sphincs.h:279-317). -/
def psOf : Spec.Instance → PsName
  | .sha2_128f => .sha2_128f | .sha2_128s => .sha2_128s
  | .sha2_192f => .sha2_192f | .sha2_192s => .sha2_192s
  | .sha2_256f => .sha2_256f | .sha2_256s => .sha2_256s
  | .shake_128f => .shake_128f | .shake_128s => .shake_128s
  | .shake_192f => .shake_192f | .shake_192s => .shake_192s
  | .shake_256f => .shake_256f | .shake_256s => .shake_256s

/-- The contexts with number `i` replaced. (A caller; no line of the code.) -/
def setCtx (cs : Nat → Ctx) (i : Nat) (c : Ctx) : Nat → Ctx := fun j => if j = i then c else cs j

/-- One statement: result, contexts and memory afterwards. `edit` is the caller's own code, `copy` a struct assignment, the others are calls of
the functions declared in tiny_sphincs.h:187-267. -/
def stmtExec (E : Env) (cs : Nat → Ctx) (mem : Mem) : Stmt → C (Option Nat × (Nat → Ctx) × Mem)
  | .edit f => .ok (none, cs, f mem)
  | .copy i j => .ok (none, setCtx cs j (cs i), mem)
  | .genKey priv pub x rng => do
    let (r, mem, _) ← ts_gen_key E mem priv pub (x.map fun x => ps E.cfg (psOf x)) rng
    .ok (some r, cs, mem)
  | .initSign i msg len x priv rng => do
    let (c, _) ← ts_init_sign E mem (cs i) msg len (ps E.cfg (psOf x)) priv rng
    .ok (none, setCtx cs i c, mem)
  | .sign i dst m => do
    let dest ← mem.read dst m
    let (r, dest, c) ← ts_sign E mem dest m (cs i)
    let mem ← mem.write dst dest
    .ok (some r, setCtx cs i c, mem)
  | .initVerify i msg len x pub => do
    let c ← ts_init_verify E mem (cs i) msg len (ps E.cfg (psOf x)) pub
    .ok (none, setCtx cs i c, mem)
  | .update i src m => do
    let sig ← mem.read src m
    let (r, c) ← ts_update_verify E mem sig (cs i)
    .ok (some r, setCtx cs i c, mem)
  | .verify i => .ok (some (ts_verify (cs i)), cs, mem)

/-- A program. (A caller; no line of the code.) -/
def progExec (E : Env) : (Nat → Ctx) → Mem → List Stmt → C (List (Option Nat) × (Nat → Ctx) × Mem)
  | cs, mem, [] => .ok ([], cs, mem)
  | cs, mem, s :: ss => do
    let (o, cs, mem) ← stmtExec E cs mem s
    let (os, cs, mem) ← progExec E cs mem ss
    .ok (o :: os, cs, mem)

/-- The rules for a build. (A caller; no line of the code.) -/
def rulesOf (c : Config) : Rules := ⟨fun x => supported c (psOf x), c.sizeMax⟩

end Model
