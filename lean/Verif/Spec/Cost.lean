import Verif.Model.LeakBasic
import Verif.Spec.Public
/-!
# How much work the operations are

Counted in calls of the hash functions of the parameter set: `prf_msg`, `hash_msg`, `prf`, `f`, and `init_t`, `next_t`, `final_t`, by
which the code hashes two or more blocks (`init_t` once, `next_t` for each block, `final_t` once).
-/
namespace Leak
/-- Whether an event is a call of `f`. -/
def isCall (f : Fn) : Ev → Bool
  | .call g _ => g == f
  | _ => false

/-- How often `f` is called. -/
def calls (f : Fn) (log : List Ev) : Nat := log.countP (isCall f)

end Leak

namespace Spec.Cost
open Leak (Fn)

/-- How often each function is called. -/
abbrev Cost := Fn → Nat

/-- One call of `g`. -/
def one (g : Fn) : Cost := fun f => if f = g then 1 else 0

/-- A leaf of a FORS tree: the secret value and its hash. -/
def forsLeaf : Cost
  | .prf => 1 | .f => 1 | _ => 0

/-- An inner node of a tree: the hash of its two children. -/
def node : Cost
  | .init_t => 1 | .next_t => 2 | .final_t => 1 | _ => 0

/-- A leaf of a hypertree layer: the WOTS+ public key, that is `len` chains of length 15 and the hash of their ends. -/
def wotsLeaf (P : Params) : Cost
  | .prf => P.len | .f => 15 * P.len | .init_t => 1 | .next_t => P.len | .final_t => 1 | _ => 0

/-- Key generation: a tree with `2 ^ h'` leaves and all its inner nodes. -/
def keygen (P : Params) : Cost := fun f => 2 ^ P.hp * wotsLeaf P f + (2 ^ P.hp - 1) * node f

/-- `ts_init_sign`: the randomizer, the digest, and the start of the hash of the FORS roots. -/
def init : Cost
  | .prf_msg => 1 | .hash_msg => 1 | .init_t => 1 | _ => 0

/-- The block of the signature that is the secret value of a FORS tree; the leaf is computed along with it. -/
def forsSecret : Cost := fun f => one .prf f + forsLeaf f

/-- The block at level `l` of the authentication path of FORS tree `τ`: a subtree with `2 ^ l` leaves and `2 ^ l - 1` inner nodes, and one node of the
path from the leaf to the root. The root goes into the hash of the roots, which ends with the last tree. -/
def forsAuth (P : Params) (τ l : Nat) : Cost := fun f =>
  2 ^ l * (forsLeaf f + node f) + (if l + 1 = P.a then one .next_t f + (if τ + 1 = P.k then one .final_t f else 0) else 0)

/-- The block `i` of a WOTS+ signature with the given digit; with the last block comes the leaf of the tree above. -/
def wots (P : Params) (digit i : Nat) : Cost := fun f =>
  one .prf f + digit * one .f f + (if i + 1 = P.len then wotsLeaf P f else 0)

/-- The block at level `l` of the authentication path of a layer of the hypertree. -/
def merkle (P : Params) (l : Nat) : Cost := fun f => 2 ^ l * (wotsLeaf P f + node f)

/-- The work for block `i + 1` of a signature (block 0, the randomizer, is there after `ts_init_sign`). `digit j q` is digit `q` of the value signed in layer `j`. -/
def block (P : Params) (digit : Nat → Nat → Nat) (i : Nat) : Cost :=
  if i < P.k * (P.a + 1) then
    (if i % (P.a + 1) = 0 then forsSecret else forsAuth P (i / (P.a + 1)) (i % (P.a + 1) - 1))
  else
    let q := i - P.k * (P.a + 1)
    let r := q % (P.len + P.hp)
    if r < P.len then wots P (digit (q / (P.len + P.hp)) r) r else merkle P (r - P.len)

/-- `c 0 + ... + c (n - 1)` -/
def sum (c : Nat → Nat) : Nat → Nat
  | 0 => 0
  | n + 1 => sum c n + c n

/-- The work for the first `i` blocks after the randomizer. -/
def upTo (P : Params) (digit : Nat → Nat → Nat) (i : Nat) : Cost := fun f => sum (fun q => block P digit q f) i

/-- The digits of the values signed in the layers of a hypertree, as everybody can compute them from the signature. -/
def digits (P : Params) (hf : HashFns) (pk M sig : Bytes) (j q : Nat) : Nat :=
  (Slh.wotsDigits P ((Slh.signedValues P hf pk M sig).getD j [])).getD q 0

/-- How many blocks after the randomizer have been begun when `t` bytes of a signature have been delivered in blocks of `n` bytes. -/
def begun (n t : Nat) : Nat := (t + n - 1) / n - 1

/-- A whole signature, apart from the chains of the WOTS+ signatures: `k` FORS trees with `2 ^ a` leaves each, whose roots are hashed, and `d` trees with
`2 ^ h'` leaves each. -/
def trees (P : Params) : Cost := fun f =>
  P.k * (one .prf f + 2 ^ P.a * forsLeaf f + (2 ^ P.a - 1) * node f + one .next_t f) + one .final_t f +
    P.d * (P.len * one .prf f + 2 ^ P.hp * wotsLeaf P f + (2 ^ P.hp - 1) * node f)

/-- The sum of all digits of the WOTS+ signatures. -/
def chainSteps (P : Params) (digit : Nat → Nat → Nat) : Nat := sum (fun j => sum (fun q => digit j q) P.len) P.d

/-- The most expensive of the four kinds of blocks, each at its worst. -/
def worst (P : Params) : Cost := fun f =>
  max (max (forsSecret f) (2 ^ (P.a - 1) * (forsLeaf f + node f) + one .next_t f + one .final_t f))
    (max (one .prf f + 15 * one .f f + wotsLeaf P f) (2 ^ (P.hp - 1) * (wotsLeaf P f + node f)))

end Spec.Cost
