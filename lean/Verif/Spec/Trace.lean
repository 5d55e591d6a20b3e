import Verif.Spec.Slh
/-!
# The hash calls made when a signature is checked

`F` and `T` (the latter standing for `H` and all `T_l`) are called with `PK.seed`, an address and an input. The
address determines which of them is called, and, for a given key, what the key's owner calls it with.
-/
namespace Spec.Slh

/-- Does the standard use `F` at this address (steps of WOTS+ chains; leaves of FORS trees)? -/
def usesF (A : Adrs) : Bool := A.type == 0 || (A.type == 3 && A.w2 == 0)

/-- The hash of `X` at address `A`. -/
def hashAt (hf : HashFns) (pkSeed : Bytes) (A : Adrs) (X : Bytes) : Bytes := if usesF A then hf.F pkSeed A X else hf.T pkSeed A X

variable (P : Params) (hf : HashFns) (skSeed pkSeed : Bytes)

/-! ## The inputs of the owner of the key -/

/-- What the owner of the key `(skSeed, pkSeed)` hashes at address `A`: chain values, chain ends, pairs of siblings, FORS secret
values and FORS roots. -/
def ownInput (A : Adrs) : Bytes :=
  match A.type with
  | 0 => chain hf pkSeed A.layer A.tree A.w1 A.w2 (wotsSk hf skSeed pkSeed A.layer A.tree A.w1 A.w2) 0 A.w3
  | 1 => ((List.range P.len).map fun i => chain hf pkSeed A.layer A.tree A.w1 i (wotsSk hf skSeed pkSeed A.layer A.tree A.w1 i) 0 15).flatten
  | 2 => xmssNode P hf skSeed pkSeed A.layer A.tree (2 * A.w3) (A.w2 - 1) ++ xmssNode P hf skSeed pkSeed A.layer A.tree (2 * A.w3 + 1) (A.w2 - 1)
  | 3 =>
    if A.w2 = 0 then forsSk hf skSeed pkSeed A.tree A.w1 A.w3
    else forsNode hf skSeed pkSeed A.tree A.w1 (2 * A.w3) (A.w2 - 1) ++ forsNode hf skSeed pkSeed A.tree A.w1 (2 * A.w3 + 1) (A.w2 - 1)
  | 4 => ((List.range P.k).map fun i => forsNode hf skSeed pkSeed A.tree A.w1 i P.a).flatten
  | _ => []

/-- `X` is a second preimage, at address `A`, of what the owner of the key hashes there. -/
def SecondPreimage (A : Adrs) (X : Bytes) : Prop :=
  X ≠ ownInput P hf skSeed pkSeed A ∧ X.length = (ownInput P hf skSeed pkSeed A).length ∧
    hashAt hf pkSeed A X = hashAt hf pkSeed A (ownInput P hf skSeed pkSeed A)

/-- The value that WOTS+ key pair `kp` of tree `tree` of layer `layer` signs: a FORS public key in layer 0, else the root of a
tree of the layer below. -/
def signedValue (layer tree kp : Nat) : Bytes :=
  match layer with
  | 0 => hf.T pkSeed (Adrs.forsRoots tree kp) ((List.range P.k).map fun i => forsNode hf skSeed pkSeed tree kp i P.a).flatten
  | l + 1 => xmssNode P hf skSeed pkSeed l (tree * 2 ^ P.hp + kp) 0 P.hp

/-! ## The calls made by the verification algorithm, as address and input -/

/-- Algorithm 5 `chain`. -/
def chainCalls (layer tree kp c : Nat) (X : Bytes) (i : Nat) : Nat → List (Adrs × Bytes)
  | 0 => []
  | s + 1 => chainCalls layer tree kp c X i s ++ [(Adrs.wotsHash layer tree kp c (i + s), chain hf pkSeed layer tree kp c X i s)]

/-- Algorithm 8 `wots_pkFromSig`. -/
def wotsCalls (layer tree kp : Nat) (sig : List Bytes) (M : Bytes) : List (Adrs × Bytes) :=
  ((List.range P.len).flatMap fun i =>
    let d := (wotsDigits P M).getD i 0
    chainCalls hf pkSeed layer tree kp i (sig.getD i []) d (15 - d)) ++
  [(Adrs.wotsPk layer tree kp, ((List.range P.len).map fun i =>
    let d := (wotsDigits P M).getD i 0
    chain hf pkSeed layer tree kp i (sig.getD i []) d (15 - d)).flatten)]

/-- The climb along an authentication path (Algorithms 11 and 17). -/
def climbCalls (adr : Nat → Nat → Adrs) (idx : Nat) : Nat → Bytes → List Bytes → List (Adrs × Bytes)
  | _, _, [] => []
  | k, v, a :: as =>
    let adrs := adr (k + 1) (idx / 2 ^ (k + 1))
    let input := if (idx / 2 ^ k) % 2 = 0 then v ++ a else a ++ v
    (adrs, input) :: climbCalls adr idx (k + 1) (hf.T pkSeed adrs input) as

/-- Algorithm 11 `xmss_pkFromSig`. -/
def xmssCalls (layer tree idx : Nat) (sig : List Bytes) (M : Bytes) : List (Adrs × Bytes) :=
  wotsCalls P hf pkSeed layer tree idx (sig.take P.len) M ++
    climbCalls hf pkSeed (Adrs.treeNode layer tree) idx 0 (wotsPkFromSig P hf pkSeed layer tree idx (sig.take P.len) M) (sig.drop P.len)

/-- Algorithm 13 `ht_verify`. -/
def htCalls : (r j tree leaf : Nat) → (sig : List Bytes) → (M : Bytes) → List (Adrs × Bytes)
  | 0, _, _, _, _, _ => []
  | r + 1, j, tree, leaf, sig, M =>
    xmssCalls P hf pkSeed j tree leaf (sig.take (P.len + P.hp)) M ++
      htCalls r (j + 1) (tree / 2 ^ P.hp) (tree % 2 ^ P.hp) (sig.drop (P.len + P.hp))
        (xmssPkFromSig P hf pkSeed j tree leaf (sig.take (P.len + P.hp)) M)

/-- One tree of Algorithm 17 `fors_pkFromSig`. -/
def forsTreeCalls (tree kp i idx : Nat) (sig : List Bytes) : List (Adrs × Bytes) :=
  (Adrs.forsTree tree kp 0 (i * 2 ^ P.a + idx), sig.headD []) ::
    climbCalls hf pkSeed (Adrs.forsTree tree kp) (i * 2 ^ P.a + idx) 0
      (hf.F pkSeed (Adrs.forsTree tree kp 0 (i * 2 ^ P.a + idx)) (sig.headD [])) sig.tail

/-- Algorithm 17 `fors_pkFromSig`. -/
def forsCalls (tree kp : Nat) (indices : List Nat) (sig : List Bytes) : List (Adrs × Bytes) :=
  ((List.range P.k).flatMap fun i => forsTreeCalls P hf pkSeed tree kp i (indices.getD i 0) ((sig.drop (i * (P.a + 1))).take (P.a + 1))) ++
  [(Adrs.forsRoots tree kp, ((List.range P.k).map fun i =>
      forsTreeRoot P hf pkSeed tree kp i (indices.getD i 0) ((sig.drop (i * (P.a + 1))).take (P.a + 1))).flatten)]

/-- Algorithm 20 `slh_verify_internal`, on blocks. -/
def verifyBlocksCalls (pkRoot : Bytes) (M : Bytes) (sig : List Bytes) : List (Adrs × Bytes) :=
  let digest := hf.Hmsg (sig.headD []) pkSeed pkRoot M P.m
  let tree := treeIdx P digest
  let leaf := leafIdx P digest
  let rest := sig.tail
  let pkFors := forsPkFromSig P hf pkSeed tree leaf (mdIndices P digest) (rest.take (P.k * (P.a + 1)))
  forsCalls P hf pkSeed tree leaf (mdIndices P digest) (rest.take (P.k * (P.a + 1))) ++
    htCalls P hf pkSeed P.d 0 tree leaf (rest.drop (P.k * (P.a + 1))) pkFors

/-- The calls of `F` and `T` made to check the signature `sig` of `M` under the public key `pk`. -/
def verifyCalls (pk : Bytes) (M sig : Bytes) : List (Adrs × Bytes) :=
  verifyBlocksCalls P hf (pk.take P.n) ((pk.drop P.n).take P.n) M (blocks P.n sig)

/-- The signature that the owner of `sk` gives `M` with randomizer `R` (Algorithm 19 from line 5 on). -/
def signWith (sk R M : Bytes) : Bytes :=
  let pkSeed := (sk.drop (2 * P.n)).take P.n
  let digest := hf.Hmsg R pkSeed ((sk.drop (3 * P.n)).take P.n) M P.m
  let tree := treeIdx P digest
  let leaf := leafIdx P digest
  let fs := forsSign P hf (sk.take P.n) pkSeed tree leaf (mdIndices P digest)
  ([R] ++ fs ++ htSign P hf (sk.take P.n) pkSeed tree leaf
    (forsPkFromSig P hf pkSeed tree leaf (mdIndices P digest) fs)).flatten

end Spec.Slh
