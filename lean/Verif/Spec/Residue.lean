import Verif.Spec.Slh
/-!
# What everybody may know while a signature is made

The images of the secret values under the one-way functions of SLH-DSA, for the FORS key pair and the trees that a message selects, and the
number of elements of a signature that have been computed when some of its bytes have been delivered.
-/
namespace Spec.Residue
open Spec.Slh
variable (P : Params) (hf : HashFns)

/-- How many elements of `n` bytes have been computed when `T` bytes of a signature have been delivered; the first element, the randomizer,
is computed before anything is delivered. -/
def elements (n T : Nat) : Nat := max 1 ((T + n - 1) / n)

/-- Are `e` elements of a signature the randomizer, all FORS elements, some layers and 1 to `len` elements of a WOTS+ signature? -/
def EndsInWots (e : Nat) : Prop :=
  ∃ j i, j < P.d ∧ i < P.len ∧ e = 1 + P.k * (P.a + 1) + j * (P.len + P.hp) + i + 1

/-- The digest of the message `M` signed with the private key `sk` and randomizer `R`. -/
def digest (sk R M : Bytes) : Bytes := hf.Hmsg R ((sk.drop (2 * P.n)).take P.n) ((sk.drop (3 * P.n)).take P.n) M P.m

/-- The leaves of the FORS trees that the digest selects: `F` of the secret values. -/
def forsLeaf (sk dig : Bytes) (i : Nat) : Bytes :=
  forsNode hf (sk.take P.n) ((sk.drop (2 * P.n)).take P.n) (treeIdx P dig) (leafIdx P dig) i 0

/-- The ends of the WOTS+ chains in the trees on the way from the selected key pair to the root: 15 times `F` of the secret values. -/
def chainEnd (sk dig : Bytes) (layer kp i : Nat) : Bytes :=
  chain hf ((sk.drop (2 * P.n)).take P.n) layer (treeIdx P dig / 2 ^ (P.hp * layer)) kp i
    (wotsSk hf (sk.take P.n) ((sk.drop (2 * P.n)).take P.n) layer (treeIdx P dig / 2 ^ (P.hp * layer)) kp i) 0 15

end Spec.Residue
