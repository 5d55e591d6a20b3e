import Verif.Proof.WorkHash
/-!
# Work is linear in the prices
-/
namespace Leak.Work
open Model Spec Spec.Work
open Spec.Cost (sum)
open Leak (Fn)

/-- What `PRF`, `F` and the start of the other hash functions cost more. -/
def extra (c : Price) (a b : Nat) : Price := { c with prf := c.prf + a, f := c.f + a, init := c.init + b }

variable {c : Price} {a b : Nat} {P : Params}

/-- `a` for each call of `prf` or `f` and `b` for each call of `init_t`. -/
def count (a b : Nat) (g : Fn → Nat) : Nat := a * (g .prf + g .f) + b * g .init_t

theorem T_extra (l : Nat) : T (extra c a b) l = T c l + b := by
  unfold T extra
  dsimp only
  omega

theorem forsLeaf_extra : Spec.Work.forsLeaf (extra c a b) = Spec.Work.forsLeaf c + count a b Spec.Cost.forsLeaf := by
  unfold Spec.Work.forsLeaf extra count Spec.Cost.forsLeaf
  dsimp only
  omega

theorem node_extra : T (extra c a b) 2 = T c 2 + count a b Spec.Cost.node := by
  rw [T_extra]
  unfold count Spec.Cost.node
  dsimp only
  omega

theorem wotsLeaf_extra : Spec.Work.wotsLeaf (extra c a b) P = Spec.Work.wotsLeaf c P + count a b (Spec.Cost.wotsLeaf P) := by
  unfold Spec.Work.wotsLeaf
  rw [T_extra]
  unfold count Spec.Cost.wotsLeaf extra
  dsimp only
  have h1 : P.len * (c.prf + a + 15 * (c.f + a)) = P.len * (c.prf + 15 * c.f) + 16 * (P.len * a) := by
    rw [show c.prf + a + 15 * (c.f + a) = (c.prf + 15 * c.f) + 16 * a by omega, Nat.mul_add, Nat.mul_left_comm]
  have h2 : a * (P.len + 15 * P.len) = 16 * (P.len * a) := by
    rw [show P.len + 15 * P.len = 16 * P.len by omega, Nat.mul_left_comm, Nat.mul_comm a]
  omega

theorem count_add (g h : Fn → Nat) : count a b (fun f => g f + h f) = count a b g + count a b h := by
  unfold count
  dsimp only
  rw [show g .prf + h .prf + (g .f + h .f) = (g .prf + g .f) + (h .prf + h .f) by omega, Nat.mul_add, Nat.mul_add b]
  omega

theorem count_mul (m : Nat) (g : Fn → Nat) : count a b (fun f => m * g f) = m * count a b g := by
  unfold count
  dsimp only
  rw [← Nat.mul_add, Nat.mul_left_comm a, Nat.mul_left_comm b, ← Nat.mul_add]

theorem tree_extra : tree (extra c a b) P = tree c P + count a b (Spec.Cost.keygen P) := by
  unfold tree Spec.Cost.keygen
  rw [wotsLeaf_extra, node_extra, count_add, count_mul, count_mul, Nat.mul_add, Nat.mul_add]
  omega

theorem count_one (g : Fn) : count a b (Spec.Cost.one g) = match g with | .prf => a | .f => a | .init_t => b | _ => 0 := by
  cases g <;> simp [count, Spec.Cost.one]

theorem count_zero : count a b (fun _ => 0) = 0 := by simp [count]

theorem block_extra (dg : Nat → Nat → Nat) (i : Nat) : block (extra c a b) P dg i = block c P dg i + count a b (Spec.Cost.block P dg i) := by
  unfold block Spec.Cost.block
  dsimp only
  split
  · split
    · unfold Spec.Work.forsSecret Spec.Cost.forsSecret
      rw [count_add, forsLeaf_extra, count_one]
      show c.prf + a + _ = _
      dsimp only
      omega
    · unfold Spec.Work.forsAuth Spec.Cost.forsAuth
      rw [count_add, count_mul, count_add, forsLeaf_extra, node_extra]
      have e1 : (extra c a b).next = c.next := rfl
      have e2 : (extra c a b).final = c.final := rfl
      rw [e1, e2]
      have hz : ∀ (q r : Prop) [Decidable q] [Decidable r], count a b (fun f => if q then Spec.Cost.one .next_t f + (if r then Spec.Cost.one .final_t f else 0) else 0) = 0 := by
        intro q r _ _
        unfold count Spec.Cost.one
        split <;> (try split) <;> simp
      rw [hz, Nat.add_zero]
      rw [show ∀ u v w x : Nat, u + v + (w + x) = (u + w) + (v + x) by intros; omega, Nat.mul_add]
      omega
  · split
    · unfold Spec.Work.wots Spec.Cost.wots
      rw [count_add, count_add, count_mul, count_one, count_one, wotsLeaf_extra]
      have hi : ∀ (q : Prop) [Decidable q], count a b (fun f => if q then Spec.Cost.wotsLeaf P f else 0) = if q then count a b (Spec.Cost.wotsLeaf P) else 0 := by
        intro q _
        split
        · rfl
        · exact count_zero
      rw [hi]
      show c.prf + a + _ * (c.f + a) + _ = _
      rw [Nat.mul_add]
      dsimp only
      split <;> omega
    · unfold Spec.Work.merkle Spec.Cost.merkle
      rw [count_mul, count_add, wotsLeaf_extra, node_extra]
      rw [show ∀ u v w x : Nat, u + v + (w + x) = (u + w) + (v + x) by intros; omega, Nat.mul_add]

theorem upTo_extra (dg : Nat → Nat → Nat) (i : Nat) : upTo (extra c a b) P dg i = upTo c P dg i + count a b (Spec.Cost.upTo P dg i) := by
  unfold upTo Spec.Cost.upTo
  induction i with
  | zero => simp [sum, count]
  | succ i ih =>
    unfold sum
    rw [count_add, ih, block_extra]
    omega

/-- Without the optimisation each start of a SHA-2 computation costs one compression more. -/
theorem price_extra (kd : Kind) (n : Nat) (p : Prim) :
    price false kd n p = extra (price true kd n p) (only p kd.small (saved true kd.small)) (only p kd.big (saved true kd.big)) := by
  have h : ∀ (q : Prim) (v : Nat), saved true q ≤ v → only p q (v - saved false q) = only p q (v - saved true q) + only p q (saved true q) := by
    intro q v hv
    have : saved false q = 0 := by cases q <;> rfl
    rw [this]
    unfold only
    split <;> omega
  unfold price extra
  have hw : ∀ q m, saved true q ≤ whole q m := fun q m => Nat.le_trans (saved_le _ _) (Nat.le_add_left _ _)
  have hf : saved true kd.big ≤ full kd.big (head kd.big n) := by
    cases kd <;> simp only [Kind.big, saved, full, head, rate] <;> simp
  dsimp only
  rw [h _ _ (hw _ _), h _ _ hf]

end Leak.Work
