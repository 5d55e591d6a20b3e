import Verif.Spec.Work
/-!
# How many compressions and permutations verification takes

The blocks of a signature are numbered from 0; the randomizer is block 0.
-/
namespace Spec.Work.Verify
open Spec.Cost (sum)

variable (c : Price)

/-- The randomizer: the digest, which costs `hm`, and the start of the hash of the FORS roots. -/
def first (hm : Nat) : Nat := hm + c.init

/-- A secret value of FORS: the leaf is its hash. -/
def forsSecret : Nat := c.f

/-- The block at level `l` of the authentication path of FORS tree `τ`: one node. The root is input `τ` of the hash of the roots; with the last root this hash ends,
and the hash of the ends of the first WOTS+ chains begins. -/
def forsAuth (P : Params) (τ l : Nat) : Nat :=
  T c 2 + (if l + 1 = P.a then c.next τ + (if τ + 1 = P.k then c.final P.k + c.init else 0) else 0)

/-- The block `i` of a WOTS+ signature: the rest of the chain; its end is input `i` of the hash of the ends. -/
def wots (P : Params) (digit i : Nat) : Nat :=
  (15 - digit) * c.f + c.next i + (if i + 1 = P.len then c.final P.len else 0)

/-- The block at level `l` of the authentication path of layer `j`: one node. If there is a layer above, the hash of the ends of its chains begins with the root. -/
def merkle (P : Params) (j l : Nat) : Nat := T c 2 + (if l + 1 = P.hp ∧ j + 1 < P.d then c.init else 0)

/-- The work for block `i`, where `digit j q` is digit `q` of the value signed in layer `j`. -/
def block (hm : Nat) (P : Params) (digit : Nat → Nat → Nat) : (i : Nat) → Nat
  | 0 => first c hm
  | i + 1 =>
    if i < P.k * (P.a + 1) then
      (if i % (P.a + 1) = 0 then forsSecret c else forsAuth c P (i / (P.a + 1)) (i % (P.a + 1) - 1))
    else
      let q := i - P.k * (P.a + 1)
      let j := q / (P.len + P.hp)
      let r := q % (P.len + P.hp)
      if r < P.len then wots c P (digit j r) r else merkle c P j (r - P.len)

/-- The work for the first `i` blocks. -/
def upTo (hm : Nat) (P : Params) (digit : Nat → Nat → Nat) (i : Nat) : Nat := sum (block c hm P digit) i

/-- A whole signature, apart from the chains and the digest: `k` FORS leaves with `a` nodes above each, the hash of the `k` roots, and in each of the `d` layers
the hash of `len` ends and `h'` nodes. -/
def nodes (P : Params) : Nat :=
  P.k * (c.f + P.a * T c 2) + T c P.k + P.d * (T c P.len + P.hp * T c 2)

/-- The most expensive block apart from the randomizer, if every digit is 0. -/
def worst (P : Params) : Nat :=
  max (max (forsSecret c) (top (fun τ => top (forsAuth c P τ) P.a) P.k)) (max (top (wots c P 0) P.len) (top (fun j => top (merkle c P j) P.hp) P.d))

end Spec.Work.Verify
