import Verif.Proof.CostSign
/-!
# Sums of the costs of blocks
-/
namespace Leak
open Model Spec Spec.Cost Spec.Slh

variable {f : Fn} {S : Sess}

theorem sum_add (g : Nat → Nat) (a b : Nat) : sum g (a + b) = sum g a + sum (fun i => g (a + i)) b := by
  induction b with
  | zero => rfl
  | succ b ih => rw [← Nat.add_assoc, sum, ih, sum]; omega

theorem sum_mul (g : Nat → Nat) (a b : Nat) : sum g (a * b) = sum (fun i => sum (fun r => g (i * b + r)) b) a := by
  induction a with
  | zero => rw [Nat.zero_mul]; rfl
  | succ a ih => rw [Nat.succ_mul, sum_add, ih, sum]

theorem sum_fun_add (g h : Nat → Nat) (n : Nat) : sum (fun i => g i + h i) n = sum g n + sum h n := by
  induction n with
  | zero => rfl
  | succ n ih => rw [sum, sum, sum, ih]; omega

theorem sum_const (v n : Nat) : sum (fun _ => v) n = n * v := by
  induction n with
  | zero => rw [Nat.zero_mul]; rfl
  | succ n ih => rw [sum, ih, Nat.succ_mul]

theorem sum_mul_const (g : Nat → Nat) (v n : Nat) : sum (fun i => g i * v) n = sum g n * v := by
  induction n with
  | zero => rw [sum, sum, Nat.zero_mul]
  | succ n ih => rw [sum, sum, ih, Nat.add_mul]

theorem sum_pow (n : Nat) : sum (fun i => 2 ^ i) n = 2 ^ n - 1 := by
  induction n with
  | zero => rfl
  | succ n ih =>
    have := Nat.pow_pos (n := n) (show 0 < 2 by omega)
    rw [sum, ih, Nat.pow_succ]; omega

/-- One term among many. -/
theorem sum_last (v n : Nat) (hn : 0 < n) : sum (fun i => if i + 1 = n then v else 0) n = v := by
  obtain ⟨m, rfl⟩ : ∃ m, n = m + 1 := ⟨n - 1, by omega⟩
  rw [sum, if_pos rfl, sum_congr (g' := fun _ => 0) (fun i hi => if_neg (by omega)), sum_const]
  omega

theorem sum_mono {g h : Nat → Nat} {n : Nat} (hle : ∀ i, i < n → g i ≤ h i) : sum g n ≤ sum h n := by
  induction n with
  | zero => exact Nat.le_refl _
  | succ n ih =>
    rw [sum, sum]
    have := ih fun i hi => hle i (by omega)
    have := hle n (by omega)
    omega

theorem total_fors (dg : Nat → Nat → Nat) {τ : Nat} (hτ : τ < S.P.k) :
    sum (fun r => block S.P dg (τ * (S.P.a + 1) + r) f) (S.P.a + 1) =
      one .prf f + 2 ^ S.P.a * forsLeaf f + (2 ^ S.P.a - 1) * node f + one .next_t f + (if τ + 1 = S.P.k then one .final_t f else 0) := by
  have ha := S.facts.tge
  rw [sum_congr (g' := fun r => if r = 0 then forsSecret f else forsAuth S.P τ (r - 1) f) (fun r hr => by
    rw [block_fors dg hτ (by omega)]; split <;> rfl)]
  rw [show S.P.a + 1 = 1 + S.P.a by omega, sum_add]
  rw [sum_congr (g := fun i => if 1 + i = 0 then _ else _) (g' := fun i => 2 ^ i * (forsLeaf f + node f) +
    (if i + 1 = S.P.a then one .next_t f + (if τ + 1 = S.P.k then one .final_t f else 0) else 0)) (fun i hi => by
      rw [if_neg (by omega), show 1 + i - 1 = i by omega]; rfl)]
  rw [sum_fun_add, sum_last _ _ (by omega), sum_mul_const, sum_pow]
  show 0 + (if 0 = 0 then forsSecret f else _) + _ = _
  rw [if_pos rfl, forsSecret, Nat.zero_add]
  have := Nat.pow_pos (n := S.P.a) (show 0 < 2 by omega)
  generalize 2 ^ S.P.a = N at this
  obtain ⟨N, rfl⟩ : ∃ m, N = m + 1 := ⟨N - 1, by omega⟩
  rw [Nat.add_sub_cancel, Nat.succ_mul, Nat.mul_add]
  omega

theorem total_layer (dg : Nat → Nat → Nat) (j : Nat) :
    sum (fun r => block S.P dg (S.P.k * (S.P.a + 1) + (j * (S.P.len + S.P.hp) + r)) f) (S.P.len + S.P.hp) =
      S.P.len * one .prf f + 2 ^ S.P.hp * wotsLeaf S.P f + (2 ^ S.P.hp - 1) * node f + sum (fun q => dg j q) S.P.len * one .f f := by
  have hlen : S.P.len = 2 * S.n + 3 := rfl
  rw [sum_congr (g' := fun r => if r < S.P.len then Spec.Cost.wots S.P (dg j r) r f else merkle S.P (r - S.P.len) f) (fun r hr => by
    rw [block_ht dg hr]; split <;> rfl)]
  rw [sum_add]
  rw [sum_congr (n := S.P.len) (g' := fun r => one .prf f + dg j r * one .f f + (if r + 1 = S.P.len then wotsLeaf S.P f else 0)) (fun r hr => by
    rw [if_pos hr]; rfl)]
  rw [sum_congr (n := S.P.hp) (g' := fun r => 2 ^ r * (wotsLeaf S.P f + node f)) (fun r hr => by
    rw [if_neg (by omega), Nat.add_sub_cancel_left]; rfl)]
  rw [sum_fun_add, sum_fun_add, sum_const, sum_mul_const, sum_last _ _ (by omega), sum_mul_const, sum_pow]
  have := Nat.pow_pos (n := S.P.hp) (show 0 < 2 by omega)
  generalize 2 ^ S.P.hp = N at this
  obtain ⟨N, rfl⟩ : ∃ m, N = m + 1 := ⟨N - 1, by omega⟩
  rw [Nat.add_sub_cancel, Nat.succ_mul, Nat.mul_add, show (fun q => dg j q) = dg j from rfl]
  omega

/-- All blocks. -/
theorem total_all (dg : Nat → Nat → Nat) : upTo S.P dg (tot S) f = trees S.P f + chainSteps S.P dg * one .f f := by
  unfold upTo tot
  have hk := S.facts.kge
  rw [sum_add, sum_mul, sum_mul]
  rw [sum_congr (n := S.P.k) (fun τ hτ => total_fors dg hτ), sum_congr (n := S.P.d) (fun j _ => total_layer dg j)]
  rw [sum_fun_add, sum_const, sum_last _ _ (by omega), sum_fun_add, sum_const, sum_mul_const]
  unfold trees chainSteps
  omega

/-- No block costs more than the worst. -/
theorem block_le_worst (dg : Nat → Nat → Nat) {i : Nat} (hi : i < tot S) (hd : ∀ j, j < S.P.d → ∀ q, dg j q ≤ 15) : block S.P dg i f ≤ worst S.P f := by
  have ha := S.facts.tge
  have hh := S.facts.hge
  unfold worst
  by_cases h : i < S.P.k * (S.P.a + 1)
  · refine Nat.le_trans ?_ (Nat.le_max_left _ _)
    have hm := Nat.div_add_mod i (S.P.a + 1)
    have hτ : i / (S.P.a + 1) < S.P.k := by rwa [Nat.div_lt_iff_lt_mul (by omega)]
    have hr := Nat.mod_lt i (show 0 < S.P.a + 1 by omega)
    rw [← hm, Nat.mul_comm, block_fors dg hτ (by omega)]
    split
    · exact Nat.le_max_left _ _
    · refine Nat.le_trans ?_ (Nat.le_max_right _ _)
      unfold forsAuth
      have hp : 2 ^ (i % (S.P.a + 1) - 1) ≤ 2 ^ (S.P.a - 1) := Nat.pow_le_pow_right (by omega) (by omega)
      have := Nat.mul_le_mul_right (forsLeaf f + node f) hp
      split
      · split <;> omega
      · omega
  · refine Nat.le_trans ?_ (Nat.le_max_right _ _)
    obtain ⟨q, rfl⟩ : ∃ q, i = S.P.k * (S.P.a + 1) + q := ⟨i - S.P.k * (S.P.a + 1), by omega⟩
    have hm := Nat.div_add_mod q (S.P.len + S.P.hp)
    have hr := Nat.mod_lt q (show 0 < S.P.len + S.P.hp by omega)
    have hj : q / (S.P.len + S.P.hp) < S.P.d := by
      rw [Nat.div_lt_iff_lt_mul (by omega)]
      unfold tot at hi
      omega
    rw [← hm, Nat.mul_comm (S.P.len + S.P.hp), block_ht dg hr]
    split
    · refine Nat.le_trans ?_ (Nat.le_max_left _ _)
      unfold Spec.Cost.wots
      have := Nat.mul_le_mul_right (one .f f) (hd _ hj (q % (S.P.len + S.P.hp)))
      split <;> omega
    · refine Nat.le_trans ?_ (Nat.le_max_right _ _)
      unfold merkle
      exact Nat.mul_le_mul_right _ (Nat.pow_le_pow_right (by omega) (by omega))

/-- A call for `m` bytes begins at most `⌈m / n⌉` blocks. -/
theorem begun_add (n t m B : Nat) (hn : 0 < n) : begun n (min (t + m) B) ≤ begun n (min t B) + (m + n - 1) / n := by
  unfold begun
  have h1 : (min (t + m) B + n - 1) / n ≤ (min t B + n - 1 + m) / n := Nat.div_le_div_right (by omega)
  have h2 : (min t B + n - 1 + m) / n ≤ (min t B + n - 1) / n + (m + n - 1) / n := by
    generalize hA : min t B + n - 1 = A
    rw [← Nat.div_add_mod A n, Nat.add_assoc, Nat.mul_add_div hn, Nat.mul_add_div hn, Nat.div_eq_of_lt (Nat.mod_lt A hn), Nat.add_zero]
    have := Nat.mod_lt A hn
    exact Nat.add_le_add_left (Nat.div_le_div_right (by omega)) _
  generalize (min (t + m) B + n - 1) / n = X at *
  generalize (min t B + n - 1) / n = Y at *
  generalize (m + n - 1) / n = Z at *
  omega

end Leak
