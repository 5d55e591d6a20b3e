import Verif.Proof.SignLoop
import Verif.Spec.Public
/-!
# Verification as a block-by-block computation (specification side)
-/
namespace Model
open Spec Spec.Slh

namespace SignData
variable {S : Sess} (D : SignData S)

/-- Root from the signatures of the layers from `j` on. -/
def vHt (j : Nat) (M : Bytes) (sig : List Bytes) : Bytes :=
  htRootFrom S.P S.hf S.pkSeed (S.P.d - j) j (D.treeAt j) (D.leafAt j) sig M
/-- The values signed in the layers from `j` on. -/
def lHt (j : Nat) (M : Bytes) (sig : List Bytes) : List Bytes :=
  layerValues S.P S.hf S.pkSeed (S.P.d - j) j (D.treeAt j) (D.leafAt j) sig M
/-- End of chain `i`. -/
def vChain (j : Nat) (M : Bytes) (i : Nat) (b : Bytes) : Bytes :=
  chain S.hf S.pkSeed j (D.treeAt j) (D.leafAt j) i b ((wotsDigits S.P M).getD i 0) (15 - (wotsDigits S.P M).getD i 0)

section
variable {β : Type} (g : Nat → Bytes → List Bytes → β)

/-- `g`, evaluated from inside the authentication path of layer `j` at the layer above. -/
def gMerkle (j l : Nat) (v : Bytes) (sig : List Bytes) : β :=
  g (j + 1) (climb S.hf S.pkSeed (Adrs.treeNode j (D.treeAt j)) (D.leafAt j) l v (sig.take (S.P.hp - l))) (sig.drop (S.P.hp - l))
/-- The same, inside the WOTS signature of layer `j`. -/
def gWots (j i : Nat) (M acc : Bytes) (sig : List Bytes) : β :=
  D.gMerkle g j 0 (S.hf.T S.pkSeed (Adrs.wotsPk j (D.treeAt j) (D.leafAt j))
    (acc ++ ((List.range (S.P.len - i)).map fun q => D.vChain j M (i + q) (sig.getD q [])).flatten)) (sig.drop (S.P.len - i))
/-- The same, in front of FORS tree `τ`. -/
def gFors (τ : Nat) (roots : Bytes) (sig : List Bytes) : β :=
  g 0 (S.hf.T S.pkSeed (Adrs.forsRoots D.tree D.leaf)
    (roots ++ ((List.range (S.P.k - τ)).map fun q => forsTreeRoot S.P S.hf S.pkSeed D.tree D.leaf (τ + q) (D.idx.getD (τ + q) 0)
      ((sig.drop (q * (S.P.a + 1))).take (S.P.a + 1))).flatten)) (sig.drop ((S.P.k - τ) * (S.P.a + 1)))
/-- The same, inside FORS tree `τ`. -/
def gForsIn (τ l : Nat) (roots v : Bytes) (sig : List Bytes) : β :=
  D.gFors g (τ + 1) (roots ++ climb S.hf S.pkSeed (Adrs.forsTree D.tree D.leaf) (τ * 2 ^ S.P.a + D.idx.getD τ 0) l v
    (sig.take (S.P.a - l))) (sig.drop (S.P.a - l))
end

theorem vHt_wots (j : Nat) (hj : j < S.P.d) (M : Bytes) (sig : List Bytes) : D.vHt j M sig = D.gWots D.vHt j 0 M [] sig := by
  unfold gWots gMerkle
  conv => lhs; unfold vHt
  rw [show S.P.d - j = S.P.d - (j + 1) + 1 by omega, htRootFrom, vHt, ← D.treeAt_succ j]
  unfold xmssPkFromSig wotsPkFromSig
  rw [List.take_take, Nat.min_eq_left (by omega), List.drop_take, List.drop_drop]
  simp only [Nat.sub_zero, Nat.zero_add, List.nil_append]
  rw [show S.P.len + S.P.hp - S.P.len = S.P.hp by omega]
  congr 4
  apply List.map_congr_left
  intro i hi
  rw [List.mem_range] at hi
  unfold vChain
  congr 1
  simp [List.getD_eq_getElem?_getD, hi]

theorem lHt_wots (j : Nat) (hj : j < S.P.d) (M : Bytes) (sig : List Bytes) : D.lHt j M sig = M :: D.gWots D.lHt j 0 M [] sig := by
  unfold gWots gMerkle
  conv => lhs; unfold lHt
  rw [show S.P.d - j = S.P.d - (j + 1) + 1 by omega, layerValues, lHt, ← D.treeAt_succ j]
  unfold xmssPkFromSig wotsPkFromSig
  rw [List.take_take, Nat.min_eq_left (by omega), List.drop_take, List.drop_drop]
  simp only [Nat.sub_zero, Nat.zero_add, List.nil_append]
  rw [show S.P.len + S.P.hp - S.P.len = S.P.hp by omega]
  congr 5
  apply List.map_congr_left
  intro i hi
  rw [List.mem_range] at hi
  unfold vChain
  congr 1
  simp [List.getD_eq_getElem?_getD, hi]

theorem vHt_end (M : Bytes) (sig : List Bytes) : D.vHt S.P.d M sig = M := by
  unfold vHt; rw [Nat.sub_self]; rfl

section
variable {β : Type} (g : Nat → Bytes → List Bytes → β)

theorem gWots_step (j i : Nat) (hi : i < S.P.len) (M acc b : Bytes) (rest : List Bytes) :
    D.gWots g j i M acc (b :: rest) = D.gWots g j (i + 1) M (acc ++ D.vChain j M i b) rest := by
  unfold gWots
  rw [show S.P.len - i = S.P.len - (i + 1) + 1 by omega, List.drop_succ_cons, List.range_succ_eq_map, List.map_cons,
    List.flatten_cons, List.map_map, List.append_assoc]
  congr 5
  apply List.map_congr_left
  intro q _
  simp only [Function.comp]
  rw [show i + q.succ = i + 1 + q by omega]
  rfl

theorem gWots_end (j : Nat) (M acc : Bytes) (sig : List Bytes) :
    D.gWots g j S.P.len M acc sig = D.gMerkle g j 0 (S.hf.T S.pkSeed (Adrs.wotsPk j (D.treeAt j) (D.leafAt j)) acc) sig := by
  unfold gWots; rw [Nat.sub_self]; simp

theorem gMerkle_step (j l : Nat) (hl : l < S.P.hp) (v b : Bytes) (rest : List Bytes) :
    D.gMerkle g j l v (b :: rest) = D.gMerkle g j (l + 1)
      (if (D.leafAt j / 2 ^ l) % 2 = 0 then S.hf.T S.pkSeed (Adrs.treeNode j (D.treeAt j) (l + 1) (D.leafAt j / 2 ^ (l + 1))) (v ++ b)
        else S.hf.T S.pkSeed (Adrs.treeNode j (D.treeAt j) (l + 1) (D.leafAt j / 2 ^ (l + 1))) (b ++ v)) rest := by
  unfold gMerkle
  rw [show S.P.hp - l = S.P.hp - (l + 1) + 1 by omega, List.drop_succ_cons, List.take_succ_cons, climb]

theorem gMerkle_end (j : Nat) (v : Bytes) (sig : List Bytes) : D.gMerkle g j S.P.hp v sig = g (j + 1) v sig := by
  unfold gMerkle; rw [Nat.sub_self]; rfl

theorem gForsIn_step (τ l : Nat) (hl : l < S.P.a) (roots v b : Bytes) (rest : List Bytes) :
    D.gForsIn g τ l roots v (b :: rest) = D.gForsIn g τ (l + 1) roots
      (if ((τ * 2 ^ S.P.a + D.idx.getD τ 0) / 2 ^ l) % 2 = 0
        then S.hf.T S.pkSeed (Adrs.forsTree D.tree D.leaf (l + 1) ((τ * 2 ^ S.P.a + D.idx.getD τ 0) / 2 ^ (l + 1))) (v ++ b)
        else S.hf.T S.pkSeed (Adrs.forsTree D.tree D.leaf (l + 1) ((τ * 2 ^ S.P.a + D.idx.getD τ 0) / 2 ^ (l + 1))) (b ++ v)) rest := by
  unfold gForsIn
  rw [show S.P.a - l = S.P.a - (l + 1) + 1 by omega, List.drop_succ_cons, List.take_succ_cons, climb]

theorem gForsIn_end (τ : Nat) (roots v : Bytes) (sig : List Bytes) :
    D.gForsIn g τ S.P.a roots v sig = D.gFors g (τ + 1) (roots ++ v) sig := by
  unfold gForsIn; rw [Nat.sub_self]; rfl

theorem gFors_end (roots : Bytes) (sig : List Bytes) :
    D.gFors g S.P.k roots sig = g 0 (S.hf.T S.pkSeed (Adrs.forsRoots D.tree D.leaf) roots) sig := by
  unfold gFors; rw [Nat.sub_self]; simp

theorem gFors_step (τ : Nat) (hτ : τ < S.P.k) (roots b : Bytes) (rest : List Bytes) :
    D.gFors g τ roots (b :: rest) = D.gForsIn g τ 0 roots
      (S.hf.F S.pkSeed (Adrs.forsTree D.tree D.leaf 0 (τ * 2 ^ S.P.a + D.idx.getD τ 0)) b) rest := by
  unfold gForsIn gFors
  rw [show S.P.k - τ = S.P.k - (τ + 1) + 1 by omega, List.range_succ_eq_map, List.map_cons, List.flatten_cons, List.map_map,
    List.append_assoc, Nat.zero_mul, List.drop_zero, Nat.sub_zero, List.drop_drop, Nat.add_mul, Nat.one_mul,
    show (S.P.k - (τ + 1)) * (S.P.a + 1) + (S.P.a + 1) = S.P.a + (S.P.k - (τ + 1)) * (S.P.a + 1) + 1 by omega, List.drop_succ_cons]
  congr 4
  congr 1
  apply List.map_congr_left
  intro q _
  simp only [Function.comp]
  rw [show τ + q.succ = τ + 1 + q by omega, Nat.succ_mul, ← Nat.add_assoc, List.drop_succ_cons, List.drop_drop, Nat.add_comm S.P.a (q * _)]

end
end SignData

end Model
