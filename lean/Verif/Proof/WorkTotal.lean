import Verif.Proof.WorkSign
/-!
# Sums of the work for blocks
-/
namespace Leak.Work
open Model Spec Spec.Work Spec.Slh
open Spec.Cost (sum begun chainSteps)

variable {p : Price} {S : Sess}

theorem total_fors (dg : Nat → Nat → Nat) {τ : Nat} (hτ : τ < S.P.k) :
    sum (fun r => block p S.P dg (τ * (S.P.a + 1) + r)) (S.P.a + 1) =
      p.prf + 2 ^ S.P.a * forsLeaf p + (2 ^ S.P.a - 1) * T p 2 + (p.next τ + (if τ + 1 = S.P.k then p.final S.P.k else 0)) := by
  have ha := S.facts.tge
  rw [sum_congr (g' := fun r => if r = 0 then forsSecret p else forsAuth p S.P τ (r - 1)) (fun r hr => by
    rw [block_fors dg hτ (by omega)])]
  rw [show S.P.a + 1 = 1 + S.P.a by omega, sum_add]
  rw [sum_congr (g := fun i => if 1 + i = 0 then _ else _) (g' := fun i => 2 ^ i * (forsLeaf p + T p 2) +
    (if i + 1 = S.P.a then p.next τ + (if τ + 1 = S.P.k then p.final S.P.k else 0) else 0)) (fun i hi => by
      rw [if_neg (by omega), show 1 + i - 1 = i by omega]; rfl)]
  rw [sum_fun_add, sum_last _ _ (by omega), sum_mul_const, sum_pow]
  show 0 + (if 0 = 0 then forsSecret p else _) + _ = _
  rw [if_pos rfl, forsSecret, Nat.zero_add]
  have := Nat.pow_pos (n := S.P.a) (show 0 < 2 by omega)
  generalize 2 ^ S.P.a = N at this
  obtain ⟨N, rfl⟩ : ∃ m, N = m + 1 := ⟨N - 1, by omega⟩
  rw [Nat.add_sub_cancel, Nat.succ_mul, Nat.mul_add]
  omega

theorem total_layer (dg : Nat → Nat → Nat) (j : Nat) :
    sum (fun r => block p S.P dg (S.P.k * (S.P.a + 1) + (j * (S.P.len + S.P.hp) + r))) (S.P.len + S.P.hp) =
      S.P.len * p.prf + tree p S.P + sum (fun q => dg j q) S.P.len * p.f := by
  have hlen : S.P.len = 2 * S.n + 3 := rfl
  unfold tree
  rw [sum_congr (g' := fun r => if r < S.P.len then Spec.Work.wots p S.P (dg j r) r else merkle p S.P (r - S.P.len)) (fun r hr => by
    rw [block_ht dg hr])]
  rw [sum_add]
  rw [sum_congr (n := S.P.len) (g' := fun r => p.prf + dg j r * p.f + (if r + 1 = S.P.len then wotsLeaf p S.P else 0)) (fun r hr => by
    rw [if_pos hr]; rfl)]
  rw [sum_congr (n := S.P.hp) (g' := fun r => 2 ^ r * (wotsLeaf p S.P + T p 2)) (fun r hr => by
    rw [if_neg (by omega), Nat.add_sub_cancel_left]; rfl)]
  rw [sum_fun_add, sum_fun_add, sum_const, sum_mul_const, sum_last _ _ (by omega), sum_mul_const, sum_pow]
  have := Nat.pow_pos (n := S.P.hp) (show 0 < 2 by omega)
  generalize 2 ^ S.P.hp = N at this
  obtain ⟨N, rfl⟩ : ∃ m, N = m + 1 := ⟨N - 1, by omega⟩
  rw [Nat.add_sub_cancel, Nat.succ_mul, Nat.mul_add, show (fun q => dg j q) = dg j from rfl]
  omega

/-- All blocks, and the start of the hash of the FORS roots. -/
theorem total_all (dg : Nat → Nat → Nat) : p.init + upTo p S.P dg (tot S) = trees p S.P + chainSteps S.P dg * p.f := by
  unfold upTo tot
  have hk := S.facts.kge
  rw [sum_add, sum_mul, sum_mul]
  rw [sum_congr (n := S.P.k) (fun τ hτ => total_fors dg hτ), sum_congr (n := S.P.d) (fun j _ => total_layer dg j)]
  rw [sum_fun_add, sum_const, sum_fun_add, sum_last _ _ (by omega), sum_fun_add, sum_const, sum_mul_const]
  unfold trees chainSteps
  show _ = _ + T p S.P.k + _ + _
  unfold T
  omega

end Leak.Work
