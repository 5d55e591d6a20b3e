import Verif.Spec.Stack
/-!
# Model of stack.c

The stack grows downward (stack.c:3-5). `Area` gives the bytes below the frame of the function (one of get_space.c) that calls `init_stack`, the routine under test
and `measure_stack`, by their distance from that frame. The array is in the same place in `init_stack` and in `measure_stack` (stack.c:31-32): its end is at distance `o`,
which covers what the compiler puts above it (return address, saved registers, `i`). That the uninitialised array of `measure_stack` still has the bytes that
the routine left there is undefined behaviour in C (stack.c:3); the model takes it as the file does.
-/
namespace Model.Measure
open Spec.Stack

/-- Bytes by their distance from the frame of the caller. stack.c:26, 33. -/
abbrev Area := Nat → UInt8

/-- `N`, stack.c:20. -/
def N : Nat := 10000

/-- `'x'`, stack.c:27, 35. -/
def pattern : UInt8 := 120

/-- The distance of `array[i]`. stack.c:27, 35. -/
def place (o i : Nat) : Nat := o + (N - 1 - i)

/-- A store. (Semantics of C; no line of the code.) -/
def store (s : Area) (d : Nat) (v : UInt8) : Area := fun e => if e = d then v else s e

/-- The loop of `init_stack`, stack.c:27, from `i` on, with `fuel` iterations to go. -/
def fill (o : Nat) : (fuel i : Nat) → Area → Area
  | 0, _, s => s
  | fuel + 1, i, s => fill o fuel (i + 1) (store s (place o i) pattern)

/-- `init_stack`, stack.c:23-28. -/
def init_stack (o : Nat) (s : Area) : Area := fill o N 0 s

/-- The loop of `measure_stack`, stack.c:35: the final value of `i`. -/
def scan (o : Nat) (s : Area) : (fuel i : Nat) → Nat
  | 0, i => i
  | fuel + 1, i => if s (place o i) ≠ pattern then i else scan o s fuel (i + 1)

/-- `measure_stack`, stack.c:30-38. -/
def measure_stack (o : Nat) (s : Area) : Nat := N - scan o s N 0

/-- The stores of a routine, in their order. (The routine under test.) -/
def stores (s : Area) : List (Nat × UInt8) → Area
  | [] => s
  | w :: ws => stores (store s w.1 w.2) ws

/-- The calls between `init_stack` and the return of `measure_stack` in get_space.c:38-40, 52-54 and 70-72: what is reported, if the routine makes the stores `ws`. -/
def report (o : Nat) (s : Area) (ws : List (Nat × UInt8)) : Nat := measure_stack o (stores (init_stack o s) ws)

end Model.Measure
