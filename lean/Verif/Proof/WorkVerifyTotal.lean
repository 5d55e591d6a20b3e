import Verif.Proof.WorkVerify
/-!
# The work of verifying a whole signature
-/
namespace Leak.Work
open Model Spec Spec.Work Spec.Slh
open Spec.Cost (sum)

variable {p : Price} {S : Sess} {hc : Nat}

theorem vtotal_fors (dg : Nat → Nat → Nat) {τ : Nat} (hτ : τ < S.P.k) :
    sum (fun r => Verify.block p hc S.P dg (τ * (S.P.a + 1) + r + 1)) (S.P.a + 1) =
      p.f + S.P.a * T p 2 + p.next τ + (if τ + 1 = S.P.k then p.final S.P.k + p.init else 0) := by
  have ha := S.facts.tge
  rw [sum_congr (g' := fun r => if r = 0 then p.f else Verify.forsAuth p S.P τ (r - 1)) fun r hr => by
    rw [vblock_fors dg hτ (by omega)]; split <;> rfl]
  rw [show S.P.a + 1 = 1 + S.P.a by omega, sum_add]
  rw [sum_congr (n := S.P.a) (g' := fun i => T p 2 + if i + 1 = S.P.a then p.next τ + (if τ + 1 = S.P.k then p.final S.P.k + p.init else 0) else 0) fun i hi => by
    rw [if_neg (by omega), show 1 + i - 1 = i by omega]; rfl]
  rw [sum_fun_add, sum_const, sum_last _ _ (by omega)]
  show 0 + (if 0 = 0 then p.f else _) + _ = _
  rw [if_pos rfl]
  omega

theorem vtotal_layer (dg : Nat → Nat → Nat) (j : Nat) :
    sum (fun r => Verify.block p hc S.P dg (S.P.k * (S.P.a + 1) + (j * (S.P.len + S.P.hp) + r) + 1)) (S.P.len + S.P.hp) =
      (sum p.next S.P.len + p.final S.P.len + S.P.hp * T p 2 + (if j + 1 < S.P.d then p.init else 0)) + sum (fun q => 15 - dg j q) S.P.len * p.f := by
  have hh := S.facts.hge
  rw [sum_add]
  rw [sum_congr (n := S.P.len) (g' := fun r => (15 - dg j r) * p.f + p.next r + (if r + 1 = S.P.len then p.final S.P.len else 0)) fun r hr => by
    rw [vblock_ht dg (by omega), if_pos hr]; rfl]
  rw [sum_congr (n := S.P.hp) (g' := fun i => T p 2 + if i + 1 = S.P.hp then (if j + 1 < S.P.d then p.init else 0) else 0) fun i hi => by
    rw [vblock_ht dg (by omega), if_neg (by omega), show S.P.len + i - S.P.len = i by omega]
    unfold Verify.merkle
    congr 1
    by_cases h1 : i + 1 = S.P.hp <;> by_cases h2 : j + 1 < S.P.d <;> simp [h1, h2]]
  rw [sum_fun_add, sum_fun_add, sum_mul_const, sum_fun_add, sum_const, sum_last _ _ (by unfold Spec.Params.len; omega), sum_last _ _ (by omega)]
  omega

theorem vtotal_all (dg : Nat → Nat → Nat) : Verify.upTo p hc S.P dg S.P.sigBlocks = hc + Verify.nodes p S.P + Spec.Cost.Verify.chainSteps S.P dg * p.f := by
  unfold Verify.upTo
  have hk := S.facts.kge
  have hd := S.facts.dge
  rw [sigBlocks_tot, show tot S + 1 = 1 + tot S by omega, sum_add]
  unfold tot
  rw [sum_add, sum_mul, sum_mul]
  rw [sum_congr (n := S.P.k) (g' := fun τ => (p.f + S.P.a * T p 2) + p.next τ + if τ + 1 = S.P.k then p.final S.P.k + p.init else 0) fun τ hτ => by
    rw [← vtotal_fors (hc := hc) dg hτ]; exact sum_congr fun r _ => by rw [Nat.add_comm 1]]
  rw [sum_congr (n := S.P.d) (g' := fun j => ((sum p.next S.P.len + p.final S.P.len + S.P.hp * T p 2) + (if j + 1 < S.P.d then p.init else 0)) + sum (fun q => 15 - dg j q) S.P.len * p.f) fun j _ => by
    rw [← vtotal_layer (hc := hc) dg j]; exact sum_congr fun r _ => by rw [Nat.add_comm 1]]
  rw [sum_fun_add, sum_fun_add, sum_const, sum_last _ _ (by omega), sum_fun_add, sum_fun_add, sum_const, sum_but_last _ _ (by omega), sum_mul_const]
  unfold Verify.nodes Spec.Cost.Verify.chainSteps
  show 0 + (hc + p.init) + _ = _
  obtain ⟨d, hd'⟩ : ∃ m, S.P.d = m + 1 := ⟨S.P.d - 1, by omega⟩
  rw [hd', Nat.add_sub_cancel]
  have e : ∀ l, T p l = p.init + sum p.next l + p.final l := fun _ => rfl
  rw [e S.P.k, e S.P.len]
  simp only [Nat.succ_mul, Nat.mul_add]
  omega

/-! ## Work is linear in the prices -/

variable {c : Price} {a b : Nat} {P : Params}

theorem vblock_extra (dg : Nat → Nat → Nat) (i : Nat) : Verify.block (extra c a b) hc P dg i = Verify.block c hc P dg i + count a b (Spec.Cost.Verify.block P dg i) := by
  have e1 : (extra c a b).next = c.next := rfl
  have e2 : (extra c a b).final = c.final := rfl
  have e3 : (extra c a b).init = c.init + b := rfl
  have e4 : (extra c a b).f = c.f + a := rfl
  cases i with
  | zero =>
    show hc + (c.init + b) = hc + c.init + count a b Spec.Cost.Verify.first
    unfold Spec.Cost.Verify.first
    rw [count_add, count_one, count_one]
    dsimp only
    omega
  | succ i =>
    unfold Verify.block Spec.Cost.Verify.block
    dsimp only
    split
    · split
      · unfold Verify.forsSecret Spec.Cost.Verify.forsSecret
        rw [count_one, e4]
      · unfold Verify.forsAuth Spec.Cost.Verify.forsAuth
        rw [count_add, node_extra, e1, e2, e3]
        split
        · split
          · rw [show count a b (fun f => Spec.Cost.one .next_t f + (Spec.Cost.one .final_t f + Spec.Cost.one .init_t f)) = b by
              rw [count_add, count_add, count_one, count_one, count_one]; dsimp only; omega]
            omega
          · rw [show count a b (fun f => Spec.Cost.one .next_t f + 0) = 0 by rw [count_add, count_one, count_zero]]
            omega
        · rw [count_zero]; omega
    · split
      · unfold Verify.wots Spec.Cost.Verify.wots
        rw [count_add, count_add, count_mul, count_one, count_one, e1, e2, e4, Nat.mul_add]
        dsimp only
        split
        · rw [count_one]; dsimp only; omega
        · rw [count_zero]; omega
      · unfold Verify.merkle Spec.Cost.Verify.merkle
        rw [count_add, node_extra, e3]
        split
        · rw [count_one]; dsimp only; omega
        · rw [count_zero]; omega

theorem vupTo_extra (dg : Nat → Nat → Nat) (i : Nat) : Verify.upTo (extra c a b) hc P dg i = Verify.upTo c hc P dg i + count a b (Spec.Cost.Verify.upTo P dg i) := by
  unfold Verify.upTo Spec.Cost.Verify.upTo
  induction i with
  | zero => simp [sum, count]
  | succ i ih =>
    unfold sum
    rw [count_add, ih, vblock_extra]
    omega

end Leak.Work
