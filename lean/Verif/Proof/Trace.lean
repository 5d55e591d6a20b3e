import Verif.Spec.Trace
/-!
# `verifyCalls` lists all hash calls that the verdict depends on
-/
namespace Model
open Spec Spec.Slh

section
variable {P : Params} {hf hf' : HashFns} {pk : Bytes}

/-- The two families of functions agree on a call. -/
def Agree (hf hf' : HashFns) (pk : Bytes) (q : Adrs × Bytes) : Prop := hashAt hf' pk q.1 q.2 = hashAt hf pk q.1 q.2

theorem chain_congr (l t kp c : Nat) (X : Bytes) (i s : Nat) (h : ∀ q ∈ chainCalls hf pk l t kp c X i s, Agree hf hf' pk q) :
    chain hf' pk l t kp c X i s = chain hf pk l t kp c X i s := by
  induction s with
  | zero => rfl
  | succ s ih =>
    rw [chain, chain, ih (fun q hq => h q (List.mem_append.2 (.inl hq)))]
    exact h _ (List.mem_append.2 (.inr (List.mem_singleton.2 rfl)))

theorem wots_congr (l t kp : Nat) (sig : List Bytes) (M : Bytes) (h : ∀ q ∈ wotsCalls P hf pk l t kp sig M, Agree hf hf' pk q) :
    wotsPkFromSig P hf' pk l t kp sig M = wotsPkFromSig P hf pk l t kp sig M := by
  unfold wotsCalls at h
  unfold wotsPkFromSig
  have e : ((List.range P.len).map fun i => let d := (wotsDigits P M).getD i 0; chain hf' pk l t kp i (sig.getD i []) d (15 - d)) =
      (List.range P.len).map fun i => let d := (wotsDigits P M).getD i 0; chain hf pk l t kp i (sig.getD i []) d (15 - d) := by
    apply List.map_congr_left
    intro i hi
    exact chain_congr _ _ _ _ _ _ _ fun q hq => h q (List.mem_append.2 (.inl (List.mem_flatMap.2 ⟨i, hi, hq⟩)))
  rw [e]
  exact h _ (List.mem_append.2 (.inr (List.mem_singleton.2 rfl)))

theorem climb_congr (adr : Nat → Nat → Adrs) (ha : ∀ z j, usesF (adr (z + 1) j) = false) (idx : Nat) (as : List Bytes) (k : Nat) (v : Bytes)
    (h : ∀ q ∈ climbCalls hf pk adr idx k v as, Agree hf hf' pk q) : climb hf' pk adr idx k v as = climb hf pk adr idx k v as := by
  induction as generalizing k v with
  | nil => rfl
  | cons a as ih =>
    rw [climbCalls] at h
    rw [climb, climb]
    have h0 := h _ (List.mem_cons_self ..)
    unfold Agree hashAt at h0
    simp only [ha, Bool.false_eq_true, if_false] at h0
    have e : ∀ g : HashFns, (if (idx / 2 ^ k) % 2 = 0 then g.T pk (adr (k + 1) (idx / 2 ^ (k + 1))) (v ++ a) else g.T pk (adr (k + 1) (idx / 2 ^ (k + 1))) (a ++ v)) =
        g.T pk (adr (k + 1) (idx / 2 ^ (k + 1))) (if (idx / 2 ^ k) % 2 = 0 then v ++ a else a ++ v) := by
      intro g; split <;> rfl
    simp only [e]
    rw [h0]
    exact ih _ _ fun q hq => h q (List.mem_cons_of_mem _ hq)

theorem xmss_congr (l t idx : Nat) (sig : List Bytes) (M : Bytes) (h : ∀ q ∈ xmssCalls P hf pk l t idx sig M, Agree hf hf' pk q) :
    xmssPkFromSig P hf' pk l t idx sig M = xmssPkFromSig P hf pk l t idx sig M := by
  unfold xmssCalls at h
  unfold xmssPkFromSig
  rw [wots_congr _ _ _ _ _ fun q hq => h q (List.mem_append.2 (.inl hq))]
  exact climb_congr _ (fun z j => rfl) _ _ _ _ fun q hq => h q (List.mem_append.2 (.inr hq))

theorem ht_congr (r j t leaf : Nat) (sig : List Bytes) (M : Bytes) (h : ∀ q ∈ htCalls P hf pk r j t leaf sig M, Agree hf hf' pk q) :
    htRootFrom P hf' pk r j t leaf sig M = htRootFrom P hf pk r j t leaf sig M := by
  induction r generalizing j t leaf sig M with
  | zero => rfl
  | succ r ih =>
    rw [htCalls] at h
    rw [htRootFrom, htRootFrom, xmss_congr _ _ _ _ _ fun q hq => h q (List.mem_append.2 (.inl hq))]
    exact ih _ _ _ _ _ fun q hq => h q (List.mem_append.2 (.inr hq))

theorem fors_congr (t kp : Nat) (idx : List Nat) (sig : List Bytes) (h : ∀ q ∈ forsCalls P hf pk t kp idx sig, Agree hf hf' pk q) :
    forsPkFromSig P hf' pk t kp idx sig = forsPkFromSig P hf pk t kp idx sig := by
  unfold forsCalls at h
  unfold forsPkFromSig
  have e : ((List.range P.k).map fun i => forsTreeRoot P hf' pk t kp i (idx.getD i 0) ((sig.drop (i * (P.a + 1))).take (P.a + 1))) =
      (List.range P.k).map fun i => forsTreeRoot P hf pk t kp i (idx.getD i 0) ((sig.drop (i * (P.a + 1))).take (P.a + 1)) := by
    apply List.map_congr_left
    intro i hi
    have hi' := fun q hq => h q (List.mem_append.2 (.inl (List.mem_flatMap.2 ⟨i, hi, hq⟩)))
    unfold forsTreeCalls at hi'
    unfold forsTreeRoot
    have h0 : hf'.F pk _ _ = hf.F pk _ _ := hi' _ (List.mem_cons_self ..)
    rw [h0]
    exact climb_congr _ (fun z j => rfl) _ _ _ _ fun q hq => hi' q (List.mem_cons_of_mem _ hq)
  rw [e]
  exact h _ (List.mem_append.2 (.inr (List.mem_singleton.2 rfl)))

/-- The verdict is determined by the digest and the hash values at `verifyCalls`. -/
theorem verify_congr (pk M sig : Bytes) (hH : ∀ R s o M m, hf'.Hmsg R s o M m = hf.Hmsg R s o M m)
    (h : ∀ q ∈ verifyCalls P hf pk M sig, Agree hf hf' (pk.take P.n) q) : verify P hf' pk M sig = verify P hf pk M sig := by
  unfold verifyCalls verifyBlocksCalls at h
  unfold verify verifyBlocks
  simp only [hH] at h ⊢
  rw [fors_congr _ _ _ _ fun q hq => h q (List.mem_append.2 (.inl hq))]
  rw [ht_congr _ _ _ _ _ _ fun q hq => h q (List.mem_append.2 (.inr hq))]

end
end Model
