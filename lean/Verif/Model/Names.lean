import Verif.Model.Verify
import Verif.Spec.Hash
/-!
# Which standard instance each parameter set of the library is meant to be

The correspondence is by name: `ts_ps_sha2_128f_simple` is SLH-DSA/SPHINCS+ "SHA2-128f", and so on.
-/
namespace Model

/-- The standard instance named by a parameter set. tiny_sphincs.h:279-317. -/
def PsName.inst : PsName → Spec.Instance
  | .sha2_128f => .sha2_128f | .sha2_128s => .sha2_128s
  | .sha2_192f => .sha2_192f | .sha2_192s => .sha2_192s
  | .sha2_256f => .sha2_256f | .sha2_256s => .sha2_256s
  | .shake_128f => .shake_128f | .shake_128s => .shake_128s
  | .shake_192f => .shake_192f | .shake_192s => .shake_192s
  | .shake_256f => .shake_256f | .shake_256s => .shake_256s

/-- Its parameters. (Specification; no line of the code.) -/
abbrev PsName.P (x : PsName) : Spec.Params := x.inst.params
/-- Its hash functions. (Specification; no line of the code.) -/
abbrev PsName.fns (x : PsName) : Spec.HashFns := x.inst.fns

end Model
