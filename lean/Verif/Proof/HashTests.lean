import Verif.Model.HashVectors
import Verif.Proof.Sha512
import Verif.Proof.Shake
/-!
# Lemmas about test_sha512.c and test_shake.c
-/
namespace Model

theorem min_if (a b : Nat) : (if b > a then a else b) = min a b := by split <;> omega

theorem take_min_drop (M : Bytes) (j n : Nat) : (M.drop j).take (min n (M.length - j)) = (M.drop j).take n := by
  rw [← List.take_take, List.take_of_length_le (i := M.length - j) (by rw [List.length_drop])]

theorem sha512Pieces_ok (M : Bytes) (n : Nat) (hn : 0 < n) :
    ∀ (fuel j : Nat) (c : Sha512.Ctx), M.length - j < fuel → Sha512.Abs c (M.take j) →
      ∃ c', sha512Pieces M n fuel j c = .ok c' ∧ Sha512.Abs c' M := by
  intro fuel
  induction fuel with
  | zero => intro j c hf _; omega
  | succ fuel ih =>
    intro j c hf a
    unfold sha512Pieces
    by_cases hj : j < M.length
    · rw [if_pos hj]
      simp only
      rw [min_if, rdSlice_ok (by omega), ok_bind, take_min_drop]
      obtain ⟨c1, e1, a1⟩ := Sha512.update_ok c _ ((M.drop j).take n) a
      rw [e1, ok_bind]
      rw [← List.take_add] at a1
      exact ih (j + n) c1 (by omega) a1
    · rw [if_neg hj]
      rw [List.take_of_length_le (by omega)] at a
      exact ⟨c, rfl, a⟩

theorem sha512Sizes_ok (X M : Bytes) (hX : X.length = 64) (hM : M.length < 2 ^ 60) :
    ∀ (fuel n : Nat) (c : Sha512.Ctx), 0 < n → M.length + 1 - n < fuel → c.data.length = 128 →
      sha512Sizes X M fuel n c = .ok (if n ≤ M.length ∧ X ≠ Spec.Sha512.hash M then 0 else 1) := by
  intro fuel
  induction fuel with
  | zero => intro n c _ hf; omega
  | succ fuel ih =>
    intro n c hn hf hc
    unfold sha512Sizes
    by_cases h : n ≤ M.length
    · rw [if_pos h]
      obtain ⟨c1, e1, a1⟩ := sha512Pieces_ok M n hn (M.length + 1) 0 (Sha512.init c) (by omega) (Sha512.init_abs c hc)
      obtain ⟨c2, e2, l2⟩ := Sha512.final_ok (List.replicate 64 0) c1 M a1 (by omega) (by simp)
      rw [e1, ok_bind, e2, ok_bind]
      simp only
      rw [rdSlice_ok (by omega), ok_bind, List.drop_zero, List.take_of_length_le (by omega)]
      by_cases hx : X = Spec.Sha512.hash M
      · rw [if_neg (not_not.2 hx), ih (n + 1) c2 (by omega) (by omega) l2, if_neg (fun h => h.2 hx), if_neg (fun h => h.2 hx)]
      · rw [if_pos hx, if_pos ⟨h, hx⟩]
    · rw [if_neg h, if_neg (fun h' => h h'.1)]

theorem sha512Truncs_ok (X M : Bytes) (hX : X.length = 64) (hM : M.length < 2 ^ 60) (fill : Nat → Sha512.Ctx) (hfill : ∀ n, (fill n).data.length = 128) :
    ∀ (fuel n : Nat), n % 8 = 0 → 72 - n < 8 * fuel →
      sha512Truncs X M fill fuel n = .ok (if n ≤ 64 ∧ X ≠ Spec.Sha512.hash M then 0 else 1) := by
  intro fuel
  induction fuel with
  | zero => intro n _ hf; omega
  | succ fuel ih =>
    intro n h8 hf
    unfold sha512Truncs
    by_cases h : n ≤ 64
    · rw [if_pos h]
      obtain ⟨c1, e1, a1⟩ := Sha512.update_ok _ _ M (Sha512.init_abs (fill n) (hfill n))
      rw [List.nil_append] at a1
      obtain ⟨c2, e2, -⟩ := Sha512.final_trunc_ok (List.replicate 64 0) c1 M n a1 (by omega) h h8 (by simpa using h)
      have hl := Sha512.length_hash M
      have ht : ((Spec.Sha512.hash M).take n).length = n := by rw [List.length_take]; omega
      rw [e1, ok_bind, e2, ok_bind]
      simp only
      rw [rdSlice_ok (by omega), ok_bind, rdSlice_ok (by rw [List.length_append]; omega), ok_bind, List.drop_zero, List.drop_zero, List.take_left' ht, List.drop_left' ht]
      by_cases hx : X = Spec.Sha512.hash M
      · rw [if_neg (not_not.2 (by rw [hx])), if_neg, ih (n + 8) (by omega) (by omega), if_neg (fun h => h.2 hx), if_neg (fun h => h.2 hx)]
        rw [List.drop_replicate, List.any_replicate]
        split <;> simp
      · by_cases hxt : X.take n = (Spec.Sha512.hash M).take n
        · have hn : n + 8 ≤ 64 := by
            by_contra hcon
            have : n = 64 := by omega
            rw [this, List.take_of_length_le (by omega), List.take_of_length_le (by omega)] at hxt
            exact hx hxt
          rw [if_neg (not_not.2 hxt), if_neg, ih (n + 8) (by omega) (by omega), if_pos ⟨hn, hx⟩, if_pos ⟨h, hx⟩]
          rw [List.drop_replicate, List.any_replicate]
          split <;> simp
        · rw [if_pos hxt, if_pos ⟨h, hx⟩]
    · rw [if_neg h, if_neg (fun h' => h h'.1)]

theorem sha512SaveRestore_ok (X M : Bytes) (hX : X.length = 64) (hM : M.length < 2 ^ 60) (c other : Sha512.Ctx) (hc : c.data.length = 128) (ho : other.data.length = 128) :
    sha512SaveRestore X M c other = .ok (if 128 ≤ M.length ∧ X ≠ Spec.Sha512.hash M then 0 else 1) := by
  unfold sha512SaveRestore
  by_cases h : 128 ≤ M.length
  · rw [if_pos h, rdSlice_ok (by omega), ok_bind, List.drop_zero]
    obtain ⟨c1, e1, a1⟩ := Sha512.update_ok _ _ (M.take 128) (Sha512.init_abs c hc)
    rw [e1, ok_bind]
    simp only
    rw [rdSlice_ok (by omega), ok_bind, List.take_of_length_le (by rw [List.length_drop])]
    have hb : (M.take 128).length = 128 := by rw [List.length_take]; omega
    obtain ⟨c2, e2, a2⟩ := Sha512.update_ok _ _ (M.drop 128) (Sha512.restore_abs other ho (M.take 128) hb)
    have hs : Sha512.save_state c1 = Sha512.chain (M.take 128) := a1.h
    rw [hs, e2, ok_bind]
    rw [List.take_append_drop] at a2
    obtain ⟨c3, e3, -⟩ := Sha512.final_ok (List.replicate 64 0) c2 M a2 (by omega) (by simp)
    rw [e3, ok_bind]
    simp only
    rw [rdSlice_ok (by omega), ok_bind, List.drop_zero, List.take_of_length_le (by omega)]
    by_cases hx : X = Spec.Sha512.hash M
    · rw [if_neg (not_not.2 hx), if_neg (fun h => h.2 hx)]
    · rw [if_pos hx, if_pos ⟨h, hx⟩]
  · rw [if_neg h, if_neg (fun h' => h h'.1)]

theorem shakePieces_ok (opt : Nat) (M : Bytes) (hM : M.length < 2 ^ 60) (n : Nat) (hn : 0 < n) :
    ∀ (fuel j : Nat) (c : Shake.Ctx), M.length - j < fuel → Shake.AbsK c (M.take j) →
      ∃ c', shakePieces opt M n fuel j c = .ok c' ∧ Shake.AbsK c' M := by
  intro fuel
  induction fuel with
  | zero => intro j c hf _; omega
  | succ fuel ih =>
    intro j c hf a
    unfold shakePieces
    by_cases hj : j < M.length
    · rw [if_pos hj]
      simp only
      rw [min_if, rdSlice_ok (by omega), ok_bind, take_min_drop]
      obtain ⟨c1, e1, a1⟩ := Shake.inc_absorb_ok opt c _ ((M.drop j).take n) (by
        simp only [List.length_take, List.length_drop]; omega) a
      rw [e1, ok_bind]
      rw [← List.take_add] at a1
      exact ih (j + n) c1 (by omega) a1
    · rw [if_neg hj]
      rw [List.take_of_length_le (by omega)] at a
      exact ⟨c, rfl, a⟩

theorem shake_take_le (M : Bytes) (k n : Nat) (h : k ≤ n) : (Spec.Keccak.shake256 M n).take k = Spec.Keccak.shake256 M k := by
  rw [Shake.shake256_bytes, Shake.shake256_bytes, ← List.map_take, List.take_range, Nat.min_eq_left h]

theorem shakeOutputs_ok (opt : Nat) (X M : Bytes) (m : Nat) (hm : 0 < m) (hm' : m ≤ 128) :
    ∀ (fuel j : Nat) (act : Bytes) (c : Shake.Ctx), X.length - j < fuel → j ≤ X.length → act.length = 128 → Shake.SqK c M j →
      X.take j = Spec.Keccak.shake256 M j →
      ∃ c', shakeOutputs opt X m fuel j act c = .ok (if X = Spec.Keccak.shake256 M X.length then 1 else 0, c') ∧ c'.length = 26 := by
  intro fuel
  induction fuel with
  | zero => intro j act c hf _; omega
  | succ fuel ih =>
    intro j act c hf hjl ha s hpre
    unfold shakeOutputs
    by_cases hj : j < X.length
    · rw [if_pos hj]
      simp only
      rw [min_if]
      generalize hd : min m (X.length - j) = d
      have hdle : j + d ≤ X.length := by omega
      obtain ⟨c1, e1, s1⟩ := Shake.inc_squeeze_ok opt act 0 d j c M (by omega) s
      rw [e1, ok_bind]
      simp only [List.take_zero, List.nil_append]
      have hl : ((Spec.Keccak.shake256 M (j + d)).drop j).length = d := by rw [List.length_drop, Shake.length_shake256]; omega
      rw [rdSlice_ok (by omega), ok_bind, rdSlice_ok (by rw [List.length_append]; omega), ok_bind, List.drop_zero, List.take_left' hl]
      by_cases hx : (X.drop j).take d = (Spec.Keccak.shake256 M (j + d)).drop j
      · rw [if_neg (not_not.2 hx)]
        refine ih (j + d) _ c1 (by omega) hdle ?_ s1 ?_
        · rw [List.length_append, hl, List.length_drop]; omega
        · rw [List.take_add, hpre, hx]
          have := List.take_append_drop j (Spec.Keccak.shake256 M (j + d))
          rwa [shake_take_le _ _ _ (by omega)] at this
      · rw [if_pos hx, if_neg]
        · exact ⟨c1, rfl, s1.len⟩
        · intro hcon
          apply hx
          rw [← shake_take_le M (j + d) X.length hdle, ← hcon, List.drop_take]
          congr 1
          omega
    · rw [if_neg hj]
      have : j = X.length := by omega
      rw [this, List.take_of_length_le (by omega)] at hpre
      rw [if_pos hpre]
      exact ⟨c, rfl, s.len⟩

theorem shakeSizes_ok (opt : Nat) (X M : Bytes) (hM : M.length < 2 ^ 60) :
    ∀ (fuel n : Nat) (c : Shake.Ctx), 0 < n → M.length + 1 - n < fuel → c.length = 26 →
      shakeSizes opt X M fuel n c = .ok (if n ≤ M.length ∧ X ≠ Spec.Keccak.shake256 M X.length then 0 else 1) := by
  intro fuel
  induction fuel with
  | zero => intro n c _ hf; omega
  | succ fuel ih =>
    intro n c hn hf hc
    unfold shakeSizes
    by_cases h : n ≤ M.length
    · rw [if_pos h]
      obtain ⟨c0, e0, a0⟩ := Shake.inc_init_ok c hc
      obtain ⟨c1, e1, a1⟩ := shakePieces_ok opt M hM n hn (M.length + 1) 0 c0 (by omega) a0
      obtain ⟨c2, e2, s2⟩ := Shake.inc_finalize_ok c1 M a1
      rw [e0, ok_bind, e1, ok_bind, e2, ok_bind]
      simp only
      rw [min_if]
      have hz : X.take 0 = Spec.Keccak.shake256 M 0 := (List.eq_nil_of_length_eq_zero (Shake.length_shake256 M 0)).symm
      obtain ⟨c3, e3, l3⟩ := shakeOutputs_ok opt X M (min 128 n) (by omega) (by omega) (X.length + 1) 0 (List.replicate 128 0) c2 (by omega) (by omega) (by simp) s2 hz
      rw [e3, ok_bind]
      simp only
      by_cases hx : X = Spec.Keccak.shake256 M X.length
      · rw [if_pos hx, if_neg (by decide), ih (n + 1) c3 (by omega) (by omega) l3, if_neg (fun h => h.2 hx), if_neg (fun h => h.2 hx)]
      · rw [if_neg hx, if_pos rfl, if_pos ⟨h, hx⟩]
    · rw [if_neg h, if_neg (fun h' => h h'.1)]

end Model
