import Verif.Spec.CostVerify
import Verif.Spec.Hash
/-!
# How many compressions and permutations the operations take

The time the library takes is spent in three functions: the compression functions of SHA-256 and SHA-512 and the permutation of Keccak.
This file says how often each of them is called. First in terms of what the hash functions cost, then what they cost.
-/
namespace Leak
/-- Whether an event is a call of the compression function or permutation `p`. -/
def isPerm (p : Prim) : Ev → Bool
  | .perm q _ => q == p
  | _ => false

/-- How often `p` is called. -/
def perms (p : Prim) (log : List Ev) : Nat := log.countP (isPerm p)

end Leak

namespace Spec.Work
open Leak (Prim)
open Spec.Cost (sum)

/-- What the hash functions of a parameter set cost: the functions `PRF` and `F`, and the parts of a tweakable hash function of several inputs,
`init` before the inputs, `next i` for input `i`, and `final i` at the end, after `i` inputs. -/
structure Price where
  prf : Nat
  f : Nat
  init : Nat
  next : Nat → Nat
  final : Nat → Nat

variable (c : Price)

/-- A tweakable hash function of `l` inputs. -/
def T (l : Nat) : Nat := c.init + sum c.next l + c.final l

/-- A leaf of a FORS tree: the secret value and its hash. -/
def forsLeaf : Nat := c.prf + c.f

/-- A leaf of a hypertree layer: the WOTS+ public key, that is `len` chains of length 15 and the hash of their ends. -/
def wotsLeaf (P : Params) : Nat := P.len * (c.prf + 15 * c.f) + T c P.len

/-- The tree of key generation, with `2 ^ h'` leaves and all inner nodes. -/
def tree (P : Params) : Nat := 2 ^ P.hp * wotsLeaf c P + (2 ^ P.hp - 1) * T c 2

/-- The block of the signature that is the secret value of a FORS tree; the leaf is computed along with it. -/
def forsSecret : Nat := c.prf + forsLeaf c

/-- The block at level `l` of the authentication path of FORS tree `τ`: a subtree with `2 ^ l` leaves and `2 ^ l - 1` inner nodes, and one node of the
path from the leaf to the root. The root is input `τ` of the hash of the roots, which ends with the last tree. -/
def forsAuth (P : Params) (τ l : Nat) : Nat :=
  2 ^ l * (forsLeaf c + T c 2) + (if l + 1 = P.a then c.next τ + (if τ + 1 = P.k then c.final P.k else 0) else 0)

/-- The block `i` of a WOTS+ signature with the given digit; with the last block comes the leaf of the tree above. -/
def wots (P : Params) (digit i : Nat) : Nat := c.prf + digit * c.f + (if i + 1 = P.len then wotsLeaf c P else 0)

/-- The block at level `l` of the authentication path of a layer of the hypertree. -/
def merkle (P : Params) (l : Nat) : Nat := 2 ^ l * (wotsLeaf c P + T c 2)

/-- The work for block `i + 1` of a signature (block 0, the randomizer, is there after `ts_init_sign`). `digit j q` is digit `q` of the value signed in layer `j`. -/
def block (P : Params) (digit : Nat → Nat → Nat) (i : Nat) : Nat :=
  if i < P.k * (P.a + 1) then
    (if i % (P.a + 1) = 0 then forsSecret c else forsAuth c P (i / (P.a + 1)) (i % (P.a + 1) - 1))
  else
    let q := i - P.k * (P.a + 1)
    let r := q % (P.len + P.hp)
    if r < P.len then wots c P (digit (q / (P.len + P.hp)) r) r else merkle c P (r - P.len)

/-- The work for the first `i` blocks after the randomizer. -/
def upTo (P : Params) (digit : Nat → Nat → Nat) (i : Nat) : Nat := sum (block c P digit) i

/-- A whole signature, apart from the chains of the WOTS+ signatures: `k` FORS trees with `2 ^ a` leaves each, whose roots are hashed, and `d` trees with
`2 ^ h'` leaves each. -/
def trees (P : Params) : Nat :=
  P.k * (c.prf + 2 ^ P.a * forsLeaf c + (2 ^ P.a - 1) * T c 2) + T c P.k +
    P.d * (P.len * c.prf + tree c P)

/-- The greatest of the first `n` values of `g`. -/
def top (g : Nat → Nat) : (n : Nat) → Nat
  | 0 => 0
  | n + 1 => max (top g n) (g n)

/-- The most expensive block, if every digit is 15. -/
def worst (P : Params) : Nat :=
  max (max (forsSecret c) (top (fun τ => top (forsAuth c P τ) P.a) P.k)) (max (top (wots c P 15) P.len) (top (merkle c P) P.hp))

/-! ## Hash functions in terms of blocks -/

/-- The number of bytes a primitive takes in at a time. -/
def rate : Prim → Nat
  | .sha256 => 64 | .sha512 => 128 | .keccak => 136

/-- The number of bytes the padding takes, in addition to one: SHA-2 adds the length of the message. -/
def pad : Prim → Nat
  | .sha256 => 8 | .sha512 => 16 | .keccak => 0

/-- The number of blocks that are complete when `m` bytes of input are there. -/
def full (p : Prim) (m : Nat) : Nat := m / rate p

/-- The number of blocks of a padded message of `m` bytes. -/
def whole (p : Prim) (m : Nat) : Nat := (m + pad p) / rate p + 1

/-- The kinds of parameter sets: SHAKE, SHA-2 with `n = 16` and SHA-2 with `n > 16` (FIPS 205, sections 11.1, 11.2.1 and 11.2.2). -/
inductive Kind
  | shake | sha2L1 | sha2L35
deriving DecidableEq, Repr

/-- The kind of a parameter set. -/
def kind : Instance → Kind
  | .shake_128s | .shake_128f | .shake_192s | .shake_192f | .shake_256s | .shake_256f => .shake
  | .sha2_128s | .sha2_128f => .sha2L1
  | .sha2_192s | .sha2_192f | .sha2_256s | .sha2_256f => .sha2L35

/-- The primitive for `PRF` and `F`. -/
def Kind.small : Kind → Prim
  | .shake => .keccak | .sha2L1 => .sha256 | .sha2L35 => .sha256

/-- The primitive for the other hash functions. -/
def Kind.big : Kind → Prim
  | .shake => .keccak | .sha2L1 => .sha256 | .sha2L35 => .sha512

/-- The number of bytes before the inputs: the public seed (SHA-2: padded to a block) and the address (SHA-2: compressed). -/
def head (p : Prim) (n : Nat) : Nat :=
  match p with
  | .keccak => n + 32
  | p => rate p + 22

/-- What is saved if the state after the block with the seed is kept instead of recomputed: one block of SHA-2. -/
def saved (opt : Bool) : Prim → Nat
  | .keccak => 0
  | _ => if opt then 1 else 0

/-- What `q` costs in calls of `p`. -/
def only (p q : Prim) (v : Nat) : Nat := if q = p then v else 0

/-- The price of the hash functions in calls of `p`. -/
def price (opt : Bool) (kind : Kind) (n : Nat) (p : Prim) : Price where
  prf := only p kind.small (whole kind.small (head kind.small n + n) - saved opt kind.small)
  f := only p kind.small (whole kind.small (head kind.small n + n) - saved opt kind.small)
  init := only p kind.big (full kind.big (head kind.big n) - saved opt kind.big)
  next i := only p kind.big (full kind.big (head kind.big n + (i + 1) * n) - full kind.big (head kind.big n + i * n))
  final i := only p kind.big (whole kind.big (head kind.big n + i * n) - full kind.big (head kind.big n + i * n))

/-- Keeping the state after the block with the seed takes one compression for each of the functions that use it. -/
def prehash (opt : Bool) : Kind → Prim → Nat
  | .shake, _ => 0
  | .sha2L1, p => if opt then only p .sha256 1 else 0
  | .sha2L35, p => if opt then only p .sha256 1 + only p .sha512 1 else 0

/-- The output of a SHA-2 function. -/
def out : Prim → Nat
  | .sha256 => 32 | .sha512 => 64 | .keccak => 0

/-- `PRF_msg` for a message of `m` bytes: HMAC, or one hash. -/
def prfMsg (kind : Kind) (n m : Nat) (p : Prim) : Nat :=
  match kind with
  | .shake => only p .keccak (whole .keccak (2 * n + m))
  | k => only p k.big (whole k.big (rate k.big + n + m) + whole k.big (rate k.big + out k.big))

/-- The digest of a message of `m` bytes, where the code always computes `len` bytes: MGF1, or one hash. -/
def hashMsg (kind : Kind) (n m len : Nat) (p : Prim) : Nat :=
  match kind with
  | .shake => only p .keccak (whole .keccak (3 * n + m))
  | k => only p k.big (whole k.big (3 * n + m) + (len + out k.big - 1) / out k.big * whole k.big (2 * n + out k.big + 4))

end Spec.Work
