import Verif.Proof.Basic
/-!
# Extending a list by a recurrence (SHA-2 message schedules)
-/
namespace Model

/-- `k` extension steps of the list `M`. -/
def ext (g : List α → Nat → α) (M : List α) (k : Nat) : List α :=
  (List.range k).foldl (fun W i => W ++ [g W (i + 16)]) M

theorem ext_succ (g : List α → Nat → α) (M : List α) (k : Nat) :
    ext g M (k + 1) = ext g M k ++ [g (ext g M k) (k + 16)] := by
  simp [ext, List.range_succ]

theorem ext_length (g : List α → Nat → α) (M : List α) (k : Nat) :
    (ext g M k).length = M.length + k := by
  induction k with
  | zero => simp [ext]
  | succ k ih => rw [ext_succ]; simp [ih]; omega

theorem ext_getD_stable (g : List α → Nat → α) (M : List α) (k j i : Nat) (d : α)
    (hi : i < M.length + k) : (ext g M (k + j)).getD i d = (ext g M k).getD i d := by
  induction j with
  | zero => rfl
  | succ j ih =>
    rw [← Nat.add_assoc, ext_succ, ← ih]
    simp only [List.getD_eq_getElem?_getD]
    rw [List.getElem?_append_left (by rw [ext_length]; omega)]

theorem ext_getD_new (g : List α → Nat → α) (M : List α) (k n : Nat) (d : α) (hk : k < n) :
    (ext g M n).getD (M.length + k) d = g (ext g M k) (k + 16) := by
  obtain ⟨j, rfl⟩ : ∃ j, n = (k + 1) + j := ⟨n - (k + 1), by omega⟩
  rw [ext_getD_stable _ _ _ _ _ _ (by omega), ext_succ]
  simp only [List.getD_eq_getElem?_getD]
  rw [List.getElem?_append_right (by rw [ext_length]; omega)]
  simp [ext_length]

theorem ext_getD_old (g : List α → Nat → α) (M : List α) (n i : Nat) (d : α) (hi : i < M.length) :
    (ext g M n).getD i d = M.getD i d := by
  have := ext_getD_stable g M 0 n i d (by omega)
  simpa [ext] using this

/-- A recurrence of the SHA-2 kind. -/
theorem ext_rec (s0 s1 : α → α) (add : α → α → α) (z : α) (M : List α) (n t : Nat) (hM : M.length = 16)
    (h1 : 16 ≤ t) (h2 : t < 16 + n) :
    let S := ext (fun W t => add (add (add (s1 (W.getD (t - 2) z)) (W.getD (t - 7) z))
      (s0 (W.getD (t - 15) z))) (W.getD (t - 16) z)) M n
    S.getD t z = add (add (add (s1 (S.getD (t - 2) z)) (S.getD (t - 7) z))
      (s0 (S.getD (t - 15) z))) (S.getD (t - 16) z) := by
  intro S
  obtain ⟨k, rfl⟩ : ∃ k, t = 16 + k := ⟨t - 16, by omega⟩
  have e := ext_getD_new (fun W t => add (add (add (s1 (W.getD (t - 2) z)) (W.getD (t - 7) z))
      (s0 (W.getD (t - 15) z))) (W.getD (t - 16) z)) M k n z (by omega)
  rw [hM] at e
  have st : ∀ i, i < 16 + k → S.getD i z = (ext (fun W t => add (add (add (s1 (W.getD (t - 2) z))
      (W.getD (t - 7) z)) (s0 (W.getD (t - 15) z))) (W.getD (t - 16) z)) M k).getD i z := by
    intro i hi
    have := ext_getD_stable (fun W t => add (add (add (s1 (W.getD (t - 2) z)) (W.getD (t - 7) z))
      (s0 (W.getD (t - 15) z))) (W.getD (t - 16) z)) M k (n - k) i z (by omega)
    rw [show k + (n - k) = n by omega] at this
    exact this
  show S.getD (16 + k) z = _
  rw [show S.getD (16 + k) z = _ from e, st _ (by omega), st _ (by omega), st _ (by omega),
    st _ (by omega)]
  simp only [show k + 16 = 16 + k by omega]

end Model
