import Verif.Proof.CostVerify
/-!
# The cost of verifying a whole signature
-/
namespace Leak
open Model Spec Spec.Cost Spec.Slh

variable {f : Fn} {S : Sess}

theorem vtotal_fors (dg : Nat → Nat → Nat) {τ : Nat} (hτ : τ < S.P.k) :
    sum (fun r => Verify.block S.P dg (τ * (S.P.a + 1) + r + 1) f) (S.P.a + 1) =
      one .f f + S.P.a * node f + one .next_t f + (if τ + 1 = S.P.k then one .final_t f + one .init_t f else 0) := by
  have ha := S.facts.tge
  rw [sum_congr (g' := fun r => if r = 0 then one .f f else Verify.forsAuth S.P τ (r - 1) f) fun r hr => by
    rw [vblock_fors dg hτ (by omega)]; split <;> rfl]
  rw [show S.P.a + 1 = 1 + S.P.a by omega, sum_add]
  rw [sum_congr (n := S.P.a) (g' := fun i => node f + if i + 1 = S.P.a then one .next_t f + (if τ + 1 = S.P.k then one .final_t f + one .init_t f else 0) else 0) fun i hi => by
    rw [if_neg (by omega), show 1 + i - 1 = i by omega]; rfl]
  rw [sum_fun_add, sum_const, sum_last _ _ (by omega)]
  show 0 + (if 0 = 0 then one .f f else _) + _ = _
  rw [if_pos rfl]
  omega

theorem vtotal_layer (dg : Nat → Nat → Nat) (j : Nat) :
    sum (fun r => Verify.block S.P dg (S.P.k * (S.P.a + 1) + (j * (S.P.len + S.P.hp) + r) + 1) f) (S.P.len + S.P.hp) =
      (S.P.len * one .next_t f + one .final_t f + S.P.hp * node f + (if j + 1 < S.P.d then one .init_t f else 0)) + sum (fun q => 15 - dg j q) S.P.len * one .f f := by
  have hh := S.facts.hge
  rw [sum_add]
  rw [sum_congr (n := S.P.len) (g' := fun r => (15 - dg j r) * one .f f + one .next_t f + (if r + 1 = S.P.len then one .final_t f else 0)) fun r hr => by
    rw [vblock_ht dg (by omega), if_pos hr]; rfl]
  rw [sum_congr (n := S.P.hp) (g' := fun i => node f + if i + 1 = S.P.hp then (if j + 1 < S.P.d then one .init_t f else 0) else 0) fun i hi => by
    rw [vblock_ht dg (by omega), if_neg (by omega), show S.P.len + i - S.P.len = i by omega]
    unfold Verify.merkle
    congr 1
    by_cases h1 : i + 1 = S.P.hp <;> by_cases h2 : j + 1 < S.P.d <;> simp [h1, h2]]
  rw [sum_fun_add, sum_fun_add, sum_mul_const, sum_const, sum_fun_add, sum_const, sum_last _ _ (by unfold Spec.Params.len; omega), sum_last _ _ (by omega)]
  omega

theorem sum_but_last (v d : Nat) (hd : 0 < d) : sum (fun j => if j + 1 < d then v else 0) d = (d - 1) * v := by
  obtain ⟨d, rfl⟩ : ∃ m, d = m + 1 := ⟨d - 1, by omega⟩
  rw [sum, if_neg (by omega), sum_congr (g' := fun _ => v) fun i hi => if_pos (by omega), sum_const]
  rfl

theorem vtotal_all (dg : Nat → Nat → Nat) : Verify.upTo S.P dg S.P.sigBlocks f = Verify.nodes S.P f + Verify.chainSteps S.P dg * one .f f := by
  unfold Verify.upTo
  have hk := S.facts.kge
  have hd := S.facts.dge
  rw [sigBlocks_tot, show tot S + 1 = 1 + tot S by omega, sum_add]
  unfold tot
  rw [sum_add, sum_mul, sum_mul]
  rw [sum_congr (n := S.P.k) (g' := fun τ => (one .f f + S.P.a * node f + one .next_t f) + if τ + 1 = S.P.k then one .final_t f + one .init_t f else 0) fun τ hτ => by
    rw [← vtotal_fors dg hτ]; exact sum_congr fun r _ => by rw [Nat.add_comm 1]]
  rw [sum_congr (n := S.P.d) (g' := fun j => (S.P.len * one .next_t f + one .final_t f + S.P.hp * node f + (if j + 1 < S.P.d then one .init_t f else 0)) + sum (fun q => 15 - dg j q) S.P.len * one .f f) fun j _ => by
    rw [← vtotal_layer dg j]; exact sum_congr fun r _ => by rw [Nat.add_comm 1]]
  rw [sum_fun_add, sum_const, sum_last _ _ (by omega), sum_fun_add, sum_fun_add, sum_const, sum_but_last _ _ (by omega), sum_mul_const]
  unfold Verify.nodes Verify.chainSteps
  show 0 + (one .hash_msg f + one .init_t f) + _ = _
  obtain ⟨d, hd'⟩ : ∃ m, S.P.d = m + 1 := ⟨S.P.d - 1, by omega⟩
  rw [hd', Nat.add_sub_cancel]
  simp only [Nat.succ_mul, Nat.mul_add]
  omega

theorem vblock_le_worst (dg : Nat → Nat → Nat) (i : Nat) : Verify.block S.P dg i f ≤ Verify.worst f := by
  unfold Verify.worst
  cases i with
  | zero => show Verify.first f ≤ _; omega
  | succ i =>
    have h15 (a : Nat) : (15 - a) * one .f f ≤ 15 * one .f f := Nat.mul_le_mul_right _ (by omega)
    show (if i < S.P.k * (S.P.a + 1) then (if i % (S.P.a + 1) = 0 then Verify.forsSecret else Verify.forsAuth S.P (i / (S.P.a + 1)) (i % (S.P.a + 1) - 1))
      else if (i - S.P.k * (S.P.a + 1)) % (S.P.len + S.P.hp) < S.P.len then
        Verify.wots S.P (dg ((i - S.P.k * (S.P.a + 1)) / (S.P.len + S.P.hp)) ((i - S.P.k * (S.P.a + 1)) % (S.P.len + S.P.hp))) ((i - S.P.k * (S.P.a + 1)) % (S.P.len + S.P.hp))
      else Verify.merkle S.P ((i - S.P.k * (S.P.a + 1)) / (S.P.len + S.P.hp)) ((i - S.P.k * (S.P.a + 1)) % (S.P.len + S.P.hp) - S.P.len)) f ≤ _
    split
    · split
      · unfold Verify.forsSecret; omega
      · unfold Verify.forsAuth
        split
        · split <;> omega
        · omega
    · split
      · unfold Verify.wots
        have := h15 (dg ((i - S.P.k * (S.P.a + 1)) / (S.P.len + S.P.hp)) ((i - S.P.k * (S.P.a + 1)) % (S.P.len + S.P.hp)))
        split <;> omega
      · unfold Verify.merkle
        split <;> omega

end Leak
