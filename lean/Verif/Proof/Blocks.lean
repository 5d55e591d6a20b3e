import Verif.Proof.Basic
/-!
# Splitting byte strings into blocks
-/
namespace Model
open Spec (blocks)

theorem length_blocks (n : Nat) (l : Bytes) : (blocks n l).length = l.length / n := by
  simp [blocks]

theorem blocks_append_lt (n : Nat) (M q : Bytes) (h : M.length % n + q.length < n) :
    blocks n (M ++ q) = blocks n M := by
  have hn : 0 < n := by omega
  have e : (M ++ q).length / n = M.length / n := by
    rw [List.length_append]
    have := Nat.div_add_mod M.length n
    rw [Nat.div_eq_iff hn]
    constructor
    · rw [Nat.mul_comm]; omega
    · rw [Nat.mul_comm]; omega
  unfold blocks
  rw [e]
  apply List.map_congr_left
  intro i hi
  have hi : i < M.length / n := by simpa using hi
  have h2 : (i + 1) * n ≤ M.length := by
    calc (i + 1) * n ≤ (M.length / n) * n := Nat.mul_le_mul_right _ hi
      _ ≤ _ := Nat.div_mul_le_self _ _
  rw [Nat.add_mul, Nat.one_mul] at h2
  rw [List.drop_append_of_le_length (by omega), List.take_append_of_le_length (by simp; omega)]

theorem blocks_append_eq (n : Nat) (hn : 0 < n) (M q : Bytes) (h : M.length % n + q.length = n) :
    blocks n (M ++ q) = blocks n M ++ [M.drop (n * (M.length / n)) ++ q] := by
  have e : (M ++ q).length / n = M.length / n + 1 := by
    rw [List.length_append]
    have := Nat.div_add_mod M.length n
    rw [show M.length + q.length = n + n * (M.length / n) by omega]
    rw [Nat.add_mul_div_left _ _ hn, Nat.div_self hn, Nat.add_comm]
  unfold blocks
  rw [e, List.range_succ, List.map_append]
  congr 1
  · apply List.map_congr_left
    intro i hi
    have hi : i < M.length / n := by simpa using hi
    have h2 : (i + 1) * n ≤ M.length := by
      calc (i + 1) * n ≤ (M.length / n) * n := Nat.mul_le_mul_right _ hi
        _ ≤ _ := Nat.div_mul_le_self _ _
    rw [Nat.add_mul, Nat.one_mul] at h2
    rw [List.drop_append_of_le_length (by omega), List.take_append_of_le_length (by simp; omega)]
  · simp only [List.map_cons, List.map_nil]
    have h2 := Nat.div_mul_le_self M.length n
    have h3 := Nat.div_add_mod M.length n
    rw [Nat.mul_comm] at h3
    rw [List.drop_append_of_le_length h2, Nat.mul_comm n]
    rw [List.take_of_length_le (by simp; omega)]

end Model
