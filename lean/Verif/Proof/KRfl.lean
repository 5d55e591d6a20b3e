import Lean
/-!
# Closing an equation by kernel reduction

`krfl` proves `a = b` by the term `Eq.refl a`; the elaborator does not check that
`a` and `b` are definitionally equal, the kernel does when the declaration is added.
-/
open Lean Elab Tactic Meta in
elab "krfl" : tactic => do
  let g ← getMainGoal
  let t ← instantiateMVars (← g.getType)
  let some (_, lhs, _) := (← whnfR t).eq? | throwError "krfl: not an equation"
  g.assign (← mkEqRefl lhs)
