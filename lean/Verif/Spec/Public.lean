import Verif.Spec.Slh
/-!
# What everybody can compute from a signature

The positions a signature is made at, and the values that the WOTS+ keys on the way to the root sign, computed from public key,
message and signature as in the verification algorithm.
-/
namespace Spec.Slh
variable (P : Params) (hf : HashFns)

/-- The values signed in layers `j`, `j+1`, ... as Algorithm 13 `ht_verify` computes them; `r` layers left. -/
def layerValues (pkSeed : Bytes) : (r j tree leaf : Nat) → (sig : List Bytes) → (M : Bytes) → List Bytes
  | 0, _, _, _, _, _ => []
  | r + 1, j, tree, leaf, sig, M =>
    M :: layerValues pkSeed r (j + 1) (tree / 2 ^ P.hp) (tree % 2 ^ P.hp) (sig.drop (P.len + P.hp))
      (xmssPkFromSig P hf pkSeed j tree leaf (sig.take (P.len + P.hp)) M)

/-- The values signed in the layers of the hypertree, from layer 0 on, as Algorithm 20 `slh_verify_internal` computes them. -/
def signedValues (pk M sig : Bytes) : List Bytes :=
  let pkSeed := pk.take P.n
  let bs := blocks P.n sig
  let digest := hf.Hmsg (bs.headD []) pkSeed ((pk.drop P.n).take P.n) M P.m
  let tree := treeIdx P digest
  let leaf := leafIdx P digest
  layerValues P hf pkSeed P.d 0 tree leaf (bs.tail.drop (P.k * (P.a + 1)))
    (forsPkFromSig P hf pkSeed tree leaf (mdIndices P digest) (bs.tail.take (P.k * (P.a + 1))))

end Spec.Slh
