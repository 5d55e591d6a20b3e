import Verif.Model.Measure
/-!
# What the measurement of the stack finds
-/
namespace Model.Measure

theorem fill_in (o : Nat) : ∀ (fuel i : Nat) (s : Area) (d : Nat), i + fuel ≤ N →
    fill o fuel i s d = if o + (N - (i + fuel)) ≤ d ∧ d < o + (N - i) then pattern else s d := by
  intro fuel
  induction fuel with
  | zero => intro i s d h; rw [if_neg (by omega)]; rfl
  | succ fuel ih =>
    intro i s d h
    rw [fill, ih _ _ _ (by omega)]
    unfold store place
    by_cases h1 : d = o + (N - 1 - i)
    · rw [if_pos h1, ite_self, if_pos (by omega)]
    · rw [if_neg h1]
      by_cases h2 : o + (N - (i + 1 + fuel)) ≤ d ∧ d < o + (N - (i + 1))
      · rw [if_pos h2, if_pos (by omega)]
      · rw [if_neg h2, if_neg (by omega)]

theorem init_stack_in (o : Nat) (s : Area) (d : Nat) : init_stack o s d = if o ≤ d ∧ d < o + N then pattern else s d := by
  unfold init_stack
  rw [fill_in o N 0 s d (by omega)]
  by_cases h : o ≤ d ∧ d < o + N
  · rw [if_pos h, if_pos (by omega)]
  · rw [if_neg h, if_neg (by omega)]

theorem scan_in (o : Nat) (s : Area) : ∀ fuel i, i + fuel = N →
    i ≤ scan o s fuel i ∧ scan o s fuel i ≤ N ∧ (∀ j, i ≤ j → j < scan o s fuel i → s (place o j) = pattern) ∧ (scan o s fuel i < N → s (place o (scan o s fuel i)) ≠ pattern) := by
  intro fuel
  induction fuel with
  | zero => intro i h; exact ⟨Nat.le_refl _, by show i ≤ N; omega, fun j h1 h2 => absurd h1 (by have : scan o s 0 i = i := rfl; omega), fun h' => absurd h' (by show ¬ i < N; omega)⟩
  | succ fuel ih =>
    intro i h
    by_cases hp : s (place o i) ≠ pattern
    · have e : scan o s (fuel + 1) i = i := if_pos hp
      rw [e]
      exact ⟨Nat.le_refl _, by omega, fun j h1 h2 => absurd h1 (by omega), fun _ => hp⟩
    · have e : scan o s (fuel + 1) i = scan o s fuel (i + 1) := if_neg hp
      rw [e]
      obtain ⟨h1, h2, h3, h4⟩ := ih (i + 1) (by omega)
      refine ⟨by omega, h2, fun j hj hlt => ?_, h4⟩
      by_cases hij : j = i
      · subst hij; exact Decidable.of_not_not hp
      · exact h3 j (by omega) hlt

/-- The result is the extent of the bytes of the array that differ from the pattern. -/
theorem measure_in (o : Nat) (s : Area) :
    measure_stack o s ≤ N ∧ (∀ d, measure_stack o s ≤ d → d < N → s (o + d) = pattern) ∧ (0 < measure_stack o s → s (o + (measure_stack o s - 1)) ≠ pattern) := by
  obtain ⟨-, h2, h3, h4⟩ := scan_in o s N 0 (Nat.zero_add N)
  unfold measure_stack
  refine ⟨Nat.sub_le _ _, fun d h5 h6 => ?_, fun h => ?_⟩
  · have := h3 (N - 1 - d) (Nat.zero_le _) (by omega)
    unfold place at this
    rwa [show N - 1 - (N - 1 - d) = d by omega] at this
  · have := h4 (by omega)
    unfold place at this
    rwa [show N - 1 - scan o s N 0 = N - scan o s N 0 - 1 by omega] at this

theorem stores_in (ws : List (Nat × UInt8)) : ∀ (s : Area) (d : Nat), (∀ w ∈ ws, w.1 ≠ d) → stores s ws d = s d := by
  induction ws with
  | nil => intro s d _; rfl
  | cons w ws ih =>
    intro s d h
    rw [stores, ih _ _ fun w' hw' => h w' (List.mem_cons_of_mem _ hw')]
    unfold store
    rw [if_neg fun e => h w List.mem_cons_self e.symm]

end Model.Measure
