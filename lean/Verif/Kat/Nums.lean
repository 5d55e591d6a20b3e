import Verif.Kat.Sign
/-!
# Lists of words written as one number
-/
noncomputable section
namespace Kat

/-- `c` words of `B` bits, the last one lowest. -/
def numsA (B : Nat) : Nat → Nat → List Nat → List Nat
  | 0, _, acc => acc
  | c + 1, N, acc => force (Nat.mod N (Nat.pow 2 B)) fun w => force (Nat.shiftRight N B) fun N' => numsA B c N' (w :: acc)

def nums (B c N : Nat) : List Nat := numsA B c N []

/-- `c` blocks of `nw` words. -/
def blksA (B nw : Nat) : Nat → Nat → List (List Nat) → List (List Nat)
  | 0, _, acc => acc
  | c + 1, N, acc => force (Nat.mod N (Nat.pow 2 (Nat.mul B nw))) fun w => force (Nat.shiftRight N (Nat.mul B nw)) fun N' => blksA B nw c N' (nums B nw w :: acc)

def blks (B nw c N : Nat) : List (List Nat) := blksA B nw c N []

end Kat
