import Verif.Model.LeakSign
import Verif.Model.Contract
import Verif.Model.Api
/-!
# Leakage of whole signature operations
-/
namespace Leak
open Model

/-- `Model.signCalls`: successive calls of `ts_sign`. (A caller of tiny_sphincs.c:441-542.) -/
def signCalls (E : Env) (mem : Mem) : Ctx → List (Bytes × Nat) → L (List (Nat × Bytes) × Ctx)
  | c, [] => .ok ([], c)
  | c, (dest, m) :: rs => do
    let (r, dest, c) ← ts_sign E mem dest m c
    let (os, c) ← signCalls E mem c rs
    .ok ((r, dest) :: os, c)

/-- A signature operation: `ts_init_sign`, then calls of `ts_sign`. The results are the sizes of the requests made to the random
number generator, and the return values and destinations of the calls of `ts_sign`. (A caller of tiny_sphincs.c:313-542.) -/
def signRun (J : SignJob) (rs : List (Bytes × Nat)) : L (List Nat × List (Nat × Bytes)) := do
  let (c, reqs) ← ts_init_sign J.E J.mem J.c0 J.msg J.M.length (ps J.E.cfg J.x) J.priv J.rng
  let (os, _) ← signCalls J.E J.mem c rs
  .ok (reqs, os)

end Leak
