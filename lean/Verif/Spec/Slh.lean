import Verif.Spec.Bytes
/-!
# SPHINCS+ ("simple" instances) as in FIPS 205, internal functions

Written from FIPS 205 (sections 4 to 9); the code under study implements the NIST draft of it. Signatures
are lists of `n`-byte blocks, flattened at the end.
-/
namespace Spec

/-- Parameters of an instance (FIPS 205 Table 2); `lg_w = 4`, `len_2 = 3` throughout. -/
structure Params where
  (n h d hp a k : Nat)
deriving DecidableEq, Repr

namespace Params
/-- `len = len_1 + len_2 = 2n + 3`. -/
def len (P : Params) : Nat := 2 * P.n + 3
/-- Bytes of the message digest holding the FORS indices, the tree index, the leaf index. -/
def mdBytes (P : Params) : Nat := (P.k * P.a + 7) / 8
def treeBytes (P : Params) : Nat := (P.h - P.hp + 7) / 8
def leafBytes (P : Params) : Nat := (P.hp + 7) / 8
/-- `m`, the digest length in bytes. -/
def m (P : Params) : Nat := P.mdBytes + P.treeBytes + P.leafBytes
/-- Number of `n`-byte blocks of a signature. -/
def sigBlocks (P : Params) : Nat := 1 + P.k * (1 + P.a) + P.h + P.d * P.len
/-- Bytes of a signature. -/
def sigBytes (P : Params) : Nat := P.sigBlocks * P.n
end Params

/-- An address (FIPS 205 section 4.2): layer, tree, type and three type-dependent words. -/
structure Adrs where
  (layer tree type w1 w2 w3 : Nat)
deriving DecidableEq, Repr

namespace Adrs
/-- The 32-byte encoding (Figure 2). -/
def enc (a : Adrs) : Bytes :=
  toByte a.layer 4 ++ toByte a.tree 12 ++ toByte a.type 4 ++ toByte a.w1 4 ++ toByte a.w2 4
    ++ toByte a.w3 4
/-- The compressed 22-byte address `ADRS^c` (section 11.2):
`ADRS[3] ‖ ADRS[8:16] ‖ ADRS[19] ‖ ADRS[20:32]`. -/
def encc (a : Adrs) : Bytes :=
  let e := a.enc
  (e.drop 3).take 1 ++ (e.drop 8).take 8 ++ (e.drop 19).take 1 ++ (e.drop 20).take 12

/-! Type codes: WOTS_HASH 0, WOTS_PK 1, TREE 2, FORS_TREE 3, FORS_ROOTS 4, WOTS_PRF 5, FORS_PRF 6. -/
/-- WOTS_HASH: key pair, chain, hash address. -/
def wotsHash (layer tree kp chain hash : Nat) : Adrs := ⟨layer, tree, 0, kp, chain, hash⟩
/-- WOTS_PK: key pair. -/
def wotsPk (layer tree kp : Nat) : Adrs := ⟨layer, tree, 1, kp, 0, 0⟩
/-- TREE: tree height, tree index. -/
def treeNode (layer tree height index : Nat) : Adrs := ⟨layer, tree, 2, 0, height, index⟩
/-- FORS_TREE: key pair, tree height, tree index (layer 0). -/
def forsTree (tree kp height index : Nat) : Adrs := ⟨0, tree, 3, kp, height, index⟩
/-- FORS_ROOTS: key pair. -/
def forsRoots (tree kp : Nat) : Adrs := ⟨0, tree, 4, kp, 0, 0⟩
/-- WOTS_PRF: key pair, chain. -/
def wotsPrf (layer tree kp chain : Nat) : Adrs := ⟨layer, tree, 5, kp, chain, 0⟩
/-- FORS_PRF: key pair, tree index. -/
def forsPrf (tree kp index : Nat) : Adrs := ⟨0, tree, 6, kp, 0, index⟩
end Adrs

/-- The hash functions of an instance (FIPS 205 section 4.1). `T` covers `H` and all `T_l`. -/
structure HashFns where
  /-- `F(PK.seed, ADRS, M)`, one block. -/
  F : Bytes → Adrs → Bytes → Bytes
  /-- `H` / `T_l (PK.seed, ADRS, M)`, two or more blocks. -/
  T : Bytes → Adrs → Bytes → Bytes
  /-- `PRF(PK.seed, SK.seed, ADRS)`. -/
  PRF : Bytes → Bytes → Adrs → Bytes
  /-- `PRF_msg(SK.prf, opt_rand, M)`. -/
  PRFmsg : Bytes → Bytes → Bytes → Bytes
  /-- `H_msg(R, PK.seed, PK.root, M)`, of the given length. -/
  Hmsg : Bytes → Bytes → Bytes → Bytes → Nat → Bytes

namespace Slh

variable (P : Params) (hf : HashFns) (skSeed pkSeed : Bytes)

/-! ## WOTS+ (section 5) -/

/-- Algorithm 5 `chain(X, i, s)` at the given chain address. -/
def chain (layer tree kp c : Nat) (X : Bytes) (i : Nat) : Nat → Bytes
  | 0 => X
  | s + 1 => hf.F pkSeed (Adrs.wotsHash layer tree kp c (i + s)) (chain layer tree kp c X i s)

/-- The `len` base-16 digits signed for the `n`-byte value `M`: message digits, then the checksum
(Algorithm 7, lines 1-7). -/
def wotsDigits (M : Bytes) : List Nat :=
  let msg := base2b M 4 (2 * P.n)
  let csum := (msg.map fun d => 15 - d).sum
  msg ++ base2b (toByte (csum * 2 ^ 4) 2) 4 3

/-- Secret chain start `i` of key pair `kp`. -/
def wotsSk (layer tree kp i : Nat) : Bytes := hf.PRF pkSeed skSeed (Adrs.wotsPrf layer tree kp i)

/-- Algorithm 6 `wots_pkGen`. -/
def wotsPkGen (layer tree kp : Nat) : Bytes :=
  hf.T pkSeed (Adrs.wotsPk layer tree kp)
    ((List.range P.len).map fun i =>
      chain hf pkSeed layer tree kp i (wotsSk hf skSeed pkSeed layer tree kp i) 0 15).flatten

/-- Algorithm 7 `wots_sign`. -/
def wotsSign (layer tree kp : Nat) (M : Bytes) : List Bytes :=
  (List.range P.len).map fun i =>
    chain hf pkSeed layer tree kp i (wotsSk hf skSeed pkSeed layer tree kp i) 0
      ((wotsDigits P M).getD i 0)

/-- Algorithm 8 `wots_pkFromSig`. -/
def wotsPkFromSig (layer tree kp : Nat) (sig : List Bytes) (M : Bytes) : Bytes :=
  hf.T pkSeed (Adrs.wotsPk layer tree kp)
    ((List.range P.len).map fun i =>
      let d := (wotsDigits P M).getD i 0
      chain hf pkSeed layer tree kp i (sig.getD i []) d (15 - d)).flatten

/-! ## XMSS (section 6) -/

/-- Algorithm 9 `xmss_node(i, z)`. -/
def xmssNode (layer tree : Nat) (i : Nat) : Nat → Bytes
  | 0 => wotsPkGen P hf skSeed pkSeed layer tree i
  | z + 1 => hf.T pkSeed (Adrs.treeNode layer tree (z + 1) i)
      (xmssNode layer tree (2 * i) z ++ xmssNode layer tree (2 * i + 1) z)

/-- The authentication path of leaf `idx`. -/
def xmssAuth (layer tree idx : Nat) : List Bytes :=
  (List.range P.hp).map fun j => xmssNode P hf skSeed pkSeed layer tree ((idx / 2 ^ j) ^^^ 1) j

/-- Algorithm 10 `xmss_sign`. -/
def xmssSign (layer tree idx : Nat) (M : Bytes) : List Bytes :=
  wotsSign P hf skSeed pkSeed layer tree idx M ++ xmssAuth P hf skSeed pkSeed layer tree idx

/-- Climb an authentication path: at level `k` combine with the sibling, left or right according
to bit `k` of `idx` (Algorithms 11 and 17, inner loop). `adr height index` is the node address. -/
def climb (adr : Nat → Nat → Adrs) (idx : Nat) : Nat → Bytes → List Bytes → Bytes
  | _, v, [] => v
  | k, v, a :: as =>
    let adrs := adr (k + 1) (idx / 2 ^ (k + 1))
    climb adr idx (k + 1)
      (if (idx / 2 ^ k) % 2 = 0 then hf.T pkSeed adrs (v ++ a) else hf.T pkSeed adrs (a ++ v)) as

/-- Algorithm 11 `xmss_pkFromSig`. -/
def xmssPkFromSig (layer tree idx : Nat) (sig : List Bytes) (M : Bytes) : Bytes :=
  climb hf pkSeed (Adrs.treeNode layer tree) idx 0
    (wotsPkFromSig P hf pkSeed layer tree idx (sig.take P.len) M) (sig.drop P.len)

/-! ## Hypertree (section 7) -/

/-- Algorithm 12 `ht_sign`, from layer `j`, with `r` layers left. -/
def htSignFrom : (r j tree leaf : Nat) → (M : Bytes) → List Bytes
  | 0, _, _, _, _ => []
  | r + 1, j, tree, leaf, M =>
    let sig := xmssSign P hf skSeed pkSeed j tree leaf M
    sig ++ htSignFrom r (j + 1) (tree / 2 ^ P.hp) (tree % 2 ^ P.hp)
      (xmssPkFromSig P hf pkSeed j tree leaf sig M)

def htSign (tree leaf : Nat) (M : Bytes) : List Bytes :=
  htSignFrom P hf skSeed pkSeed P.d 0 tree leaf M

/-- Algorithm 13 `ht_verify`: the root computed from the signature, from layer `j`, `r` layers left. -/
def htRootFrom : (r j tree leaf : Nat) → (sig : List Bytes) → (M : Bytes) → Bytes
  | 0, _, _, _, _, M => M
  | r + 1, j, tree, leaf, sig, M =>
    htRootFrom r (j + 1) (tree / 2 ^ P.hp) (tree % 2 ^ P.hp) (sig.drop (P.len + P.hp))
      (xmssPkFromSig P hf pkSeed j tree leaf (sig.take (P.len + P.hp)) M)

/-! ## FORS (section 8) -/

/-- Algorithm 14 `fors_skGen`. -/
def forsSk (tree kp idx : Nat) : Bytes := hf.PRF pkSeed skSeed (Adrs.forsPrf tree kp idx)

/-- Algorithm 15 `fors_node(i, z)`. -/
def forsNode (tree kp : Nat) (i : Nat) : Nat → Bytes
  | 0 => hf.F pkSeed (Adrs.forsTree tree kp 0 i) (forsSk hf skSeed pkSeed tree kp i)
  | z + 1 => hf.T pkSeed (Adrs.forsTree tree kp (z + 1) i)
      (forsNode tree kp (2 * i) z ++ forsNode tree kp (2 * i + 1) z)

/-- One tree of Algorithm 16: secret value and authentication path of leaf `idx` of tree `i`. -/
def forsTreeSig (tree kp i idx : Nat) : List Bytes :=
  forsSk hf skSeed pkSeed tree kp (i * 2 ^ P.a + idx) ::
    (List.range P.a).map fun j =>
      forsNode hf skSeed pkSeed tree kp (i * 2 ^ (P.a - j) + ((idx / 2 ^ j) ^^^ 1)) j

/-- Algorithm 16 `fors_sign`, for the already extracted indices. -/
def forsSign (tree kp : Nat) (indices : List Nat) : List Bytes :=
  (List.range P.k).flatMap fun i => forsTreeSig P hf skSeed pkSeed tree kp i (indices.getD i 0)

/-- Root of FORS tree `i` from its part of the signature. -/
def forsTreeRoot (tree kp i idx : Nat) (sig : List Bytes) : Bytes :=
  climb hf pkSeed (Adrs.forsTree tree kp) (i * 2 ^ P.a + idx) 0
    (hf.F pkSeed (Adrs.forsTree tree kp 0 (i * 2 ^ P.a + idx)) (sig.headD [])) sig.tail

/-- Algorithm 17 `fors_pkFromSig`. -/
def forsPkFromSig (tree kp : Nat) (indices : List Nat) (sig : List Bytes) : Bytes :=
  hf.T pkSeed (Adrs.forsRoots tree kp)
    ((List.range P.k).map fun i =>
      forsTreeRoot P hf pkSeed tree kp i (indices.getD i 0)
        ((sig.drop (i * (P.a + 1))).take (P.a + 1))).flatten

/-! ## Message digest and top-level functions (section 9) -/

/-- FORS indices encoded in a digest. -/
def mdIndices (digest : Bytes) : List Nat := base2b (digest.take P.mdBytes) P.a P.k
/-- Tree index encoded in a digest. -/
def treeIdx (digest : Bytes) : Nat :=
  toInt ((digest.drop P.mdBytes).take P.treeBytes) % 2 ^ (P.h - P.hp)
/-- Leaf index encoded in a digest. -/
def leafIdx (digest : Bytes) : Nat :=
  toInt ((digest.drop (P.mdBytes + P.treeBytes)).take P.leafBytes) % 2 ^ P.hp

/-- `PK.root` (Algorithm 18): root of the single tree at layer `d - 1`. -/
def pkRoot : Bytes := xmssNode P hf skSeed pkSeed (P.d - 1) 0 0 P.hp

/-- Algorithm 18 `slh_keygen_internal`: the private key bytes; its last `2n` bytes are the public key. -/
def keygen (skSeed skPrf pkSeed : Bytes) : Bytes :=
  skSeed ++ skPrf ++ pkSeed ++ pkRoot P hf skSeed pkSeed

/-- Algorithm 19 `slh_sign_internal`, as a list of blocks. -/
def signBlocks (skPrf pkRoot : Bytes) (optRand M : Bytes) : List Bytes :=
  let R := hf.PRFmsg skPrf optRand M
  let digest := hf.Hmsg R pkSeed pkRoot M P.m
  let tree := treeIdx P digest
  let leaf := leafIdx P digest
  let fs := forsSign P hf skSeed pkSeed tree leaf (mdIndices P digest)
  let pkFors := forsPkFromSig P hf pkSeed tree leaf (mdIndices P digest) fs
  [R] ++ fs ++ htSign P hf skSeed pkSeed tree leaf pkFors

/-- Algorithm 19 with the private key as a byte string `SK.seed ‖ SK.prf ‖ PK.seed ‖ PK.root`. -/
def sign (sk : Bytes) (optRand M : Bytes) : Bytes :=
  (signBlocks P hf (sk.take P.n) ((sk.drop (2 * P.n)).take P.n) ((sk.drop P.n).take P.n)
    ((sk.drop (3 * P.n)).take P.n) optRand M).flatten

/-- Algorithm 20 `slh_verify_internal` on the blocks of a signature of the right length. -/
def verifyBlocks (pkSeed pkRoot : Bytes) (M : Bytes) (sig : List Bytes) : Bool :=
  let R := sig.headD []
  let digest := hf.Hmsg R pkSeed pkRoot M P.m
  let tree := treeIdx P digest
  let leaf := leafIdx P digest
  let rest := sig.tail
  let pkFors := forsPkFromSig P hf pkSeed tree leaf (mdIndices P digest)
    (rest.take (P.k * (P.a + 1)))
  htRootFrom P hf pkSeed P.d 0 tree leaf (rest.drop (P.k * (P.a + 1))) pkFors == pkRoot

/-- Algorithm 20 `slh_verify_internal`, public key `PK.seed ‖ PK.root`. -/
def verify (pk : Bytes) (M sig : Bytes) : Bool :=
  sig.length == P.sigBytes &&
    verifyBlocks P hf (pk.take P.n) ((pk.drop P.n).take P.n) M (blocks P.n sig)

end Slh
end Spec
