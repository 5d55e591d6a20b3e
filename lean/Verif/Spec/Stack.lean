import Verif.Model.LeakBasic
/-!
# Which functions are running

The log of a computation says when each function is entered and left. From it we read off, at any moment, the functions that are running,
and from sizes of stack frames how much stack they occupy together.
-/
namespace Spec.Stack
open Leak (Ev CFn)

/-- What an event does to the list of the running functions (the innermost first). -/
def step (σ : List CFn) : Ev → List CFn
  | .enter g => g :: σ
  | .leave _ => σ.tail
  | _ => σ

/-- The functions that are running after the events of the log, the innermost first. -/
def active (log : List Ev) : List CFn := log.foldl step []

/-- `σ` is a chain of calls: the outermost function is one of `roots`, every other one is among the callees of the one that called it. -/
def Chain (roots : List CFn) (callees : CFn → List CFn) : List CFn → Prop
  | [] => True
  | [g] => g ∈ roots
  | h :: g :: σ => h ∈ callees g ∧ Chain roots callees (g :: σ)

/-- The largest of some numbers; 0 if there are none. -/
def largest (l : List Nat) : Nat := l.foldr max 0

/-- The stack that the running functions occupy, if `frame` gives the size of their frames and `leaf` the space that a function needs for calls of
functions that call nothing themselves. -/
def occupied (frame leaf : CFn → Nat) : List CFn → Nat
  | [] => 0
  | g :: σ => leaf g + frame g + (σ.map frame).sum

/-- The most stack that a call of `g` can need according to the call graph: the longest of the chains with at most `depth` functions. -/
def need (callees : CFn → List CFn) (frame leaf : CFn → Nat) : (depth : Nat) → CFn → Nat
  | 0, _ => 0
  | depth + 1, g => frame g + max (leaf g) (largest ((callees g).map (need callees frame leaf depth)))

end Spec.Stack
