import Verif.Kat.Pack
import Verif.Proof.VerifyLoop
/-!
# Words and bytes
-/
noncomputable section
namespace Kat
open Spec

theorem toInt_toByte (n x : Nat) : toInt (toByte x n) = x % 256 ^ n := by
  induction n generalizing x with
  | zero => simp [toByte, toInt, Nat.mod_one]
  | succ n ih =>
    rw [toByte, Model.toInt_append, ih, Nat.pow_succ, Nat.mul_comm (256 ^ n), Nat.mod_mul]
    have : (UInt8.ofNat x).toNat = x % 256 := by simp
    rw [this]; omega

theorem toByte_mod (n x : Nat) : toByte (x % 256 ^ n) n = toByte x n := by
  induction n generalizing x with
  | zero => rfl
  | succ n ih =>
    rw [toByte, toByte, Nat.pow_succ, Nat.mul_comm (256 ^ n), Nat.mod_mul_right_div_self, ih]
    congr 2
    apply UInt8.toNat_inj.1
    simp [Nat.mod_mul]

theorem toByte_congr {n x y : Nat} (h : x % 256 ^ n = y % 256 ^ n) : toByte x n = toByte y n := by
  rw [← toByte_mod, h, toByte_mod]

/-- Two encodings one after the other. -/
theorem toByte_append (x y a b : Nat) : toByte x a ++ toByte y b = toByte (x * 256 ^ b + y % 256 ^ b) (a + b) := by
  have hp : 0 < 256 ^ b := Nat.pos_of_ne_zero (by simp)
  have e : (x * 256 ^ b + y % 256 ^ b) / 256 ^ b = x := by
    rw [Nat.mul_comm, Nat.mul_add_div hp, Nat.div_eq_of_lt (Nat.mod_lt _ hp), Nat.add_zero]
  rw [Model.toByte_add, e]
  congr 1
  apply toByte_congr
  rw [Nat.mul_comm, Nat.mul_add_mod, Nat.mod_mod]

theorem flatten_len (k : Nat) (ws : List Nat) : (ws.flatMap fun w => toByte w k).length = ws.length * k := by
  induction ws with
  | nil => simp
  | cons w ws ih => rw [List.flatMap_cons, List.length_append, ih, Model.length_toByte, List.length_cons, Nat.succ_mul]; omega

theorem take_words (k m : Nat) (ws : List Nat) : (ws.flatMap fun w => toByte w k).take (m * k) = (ws.take m).flatMap fun w => toByte w k := by
  induction ws generalizing m with
  | nil => simp
  | cons w ws ih =>
    cases m with
    | zero => simp
    | succ m =>
      rw [List.flatMap_cons, List.take_succ_cons, List.flatMap_cons, ← ih, List.take_append, Model.length_toByte,
        List.take_of_length_le (by rw [Model.length_toByte, Nat.succ_mul]; omega), Nat.succ_mul, Nat.add_sub_cancel]

/-- The `k`-byte words of a string. -/
def wordsOf (k : Nat) (B : Bytes) : List Nat := (blocks k B).map toInt

theorem toInt_lt (b : Bytes) : toInt b < 256 ^ b.length := by
  have := toInt_toByte b.length (toInt b)
  rw [Model.toByte_toInt] at this
  rw [this]
  exact Nat.mod_lt _ (Nat.pos_of_ne_zero (by simp))

theorem wordsOf_lt (k : Nat) (B : Bytes) : ∀ w ∈ wordsOf k B, w < 256 ^ k := by
  intro w hw
  obtain ⟨b, hb, rfl⟩ := List.mem_map.1 hw
  refine Nat.lt_of_lt_of_le (toInt_lt b) (Nat.pow_le_pow_right (by omega) ?_)
  unfold blocks at hb
  obtain ⟨i, -, rfl⟩ := List.mem_map.1 hb
  rw [List.length_take]; omega

theorem wordsOf_bytes (k : Nat) (hk : 0 < k) (m : Nat) (B : Bytes) (h : B.length = m * k) : (wordsOf k B).flatMap (fun w => toByte w k) = B := by
  induction m generalizing B with
  | zero =>
    have : B = [] := List.length_eq_zero_iff.1 (by omega)
    subst this; simp [wordsOf, blocks]
  | succ m ih =>
    rw [Nat.succ_mul] at h
    have e := Model.blocks_cons k hk (B.take k) (B.drop k) (by rw [List.length_take]; omega)
    rw [List.take_append_drop] at e
    have hd : (B.drop k).length = m * k := by rw [List.length_drop]; omega
    have := ih _ hd
    unfold wordsOf at this ⊢
    rw [e, List.map_cons, List.flatMap_cons, this]
    have := Model.toByte_toInt (B.take k)
    rw [List.length_take, Nat.min_eq_left (by omega)] at this
    rw [this, List.take_append_drop]

end Kat
