import Verif.Spec.Cost
/-!
# How much work verification is

The blocks of a signature are numbered from 0; the randomizer is block 0.
-/
namespace Spec.Cost.Verify
open Leak (Fn)

/-- The randomizer: the digest, and the start of the hash of the FORS roots. -/
def first : Cost := fun f => one .hash_msg f + one .init_t f

/-- A secret value of FORS: the leaf is its hash. -/
def forsSecret : Cost := one .f

/-- The block at level `l` of the authentication path of FORS tree `τ`: one node. The root goes into the hash of the roots; with the last root this hash ends,
and the hash of the ends of the first WOTS+ chains begins. -/
def forsAuth (P : Params) (τ l : Nat) : Cost := fun f =>
  node f + (if l + 1 = P.a then one .next_t f + (if τ + 1 = P.k then one .final_t f + one .init_t f else 0) else 0)

/-- The block `i` of a WOTS+ signature: the rest of the chain; its end goes into the hash of the ends. -/
def wots (P : Params) (digit i : Nat) : Cost := fun f =>
  (15 - digit) * one .f f + one .next_t f + (if i + 1 = P.len then one .final_t f else 0)

/-- The block at level `l` of the authentication path of layer `j`: one node. If there is a layer above, the hash of the ends of its chains begins with the root. -/
def merkle (P : Params) (j l : Nat) : Cost := fun f => node f + (if l + 1 = P.hp ∧ j + 1 < P.d then one .init_t f else 0)

/-- The work for block `i`, where `digit j q` is digit `q` of the value signed in layer `j`. -/
def block (P : Params) (digit : Nat → Nat → Nat) : (i : Nat) → Cost
  | 0 => first
  | i + 1 =>
    if i < P.k * (P.a + 1) then
      (if i % (P.a + 1) = 0 then forsSecret else forsAuth P (i / (P.a + 1)) (i % (P.a + 1) - 1))
    else
      let q := i - P.k * (P.a + 1)
      let j := q / (P.len + P.hp)
      let r := q % (P.len + P.hp)
      if r < P.len then wots P (digit j r) r else merkle P j (r - P.len)

/-- The work for the first `i` blocks. -/
def upTo (P : Params) (digit : Nat → Nat → Nat) (i : Nat) : Cost := fun f => sum (fun q => block P digit q f) i

/-- A whole signature, apart from the chains: the digest, `k` FORS leaves with `a` nodes above each, the hash of the `k` roots, and in each of the `d` layers
the hash of `len` ends and `h'` nodes. -/
def nodes (P : Params) : Cost := fun f =>
  one .hash_msg f +
  (one .init_t f + P.k * (one .f f + P.a * node f + one .next_t f) + one .final_t f) +
  P.d * (one .init_t f + P.len * one .next_t f + one .final_t f + P.hp * node f)

/-- The number of steps in all chains. -/
def chainSteps (P : Params) (digit : Nat → Nat → Nat) : Nat := sum (fun j => sum (fun q => 15 - digit j q) P.len) P.d

/-- At least the work for any block. -/
def worst : Cost := fun f =>
  max (first f) (max (node f + one .next_t f + one .final_t f + one .init_t f) (15 * one .f f + one .next_t f + one .final_t f))

end Spec.Cost.Verify
