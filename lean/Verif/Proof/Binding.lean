import Verif.Spec.Trace
import Verif.Proof.OneTime
/-!
# An accepted signature is the owner's, or the check meets a second preimage or an unpublished chain value
-/
namespace Model
open Spec Spec.Slh

/-- Splitting a concatenation of equally long pieces. -/
theorem flatten_inj (n : Nat) (L L' : List Bytes) (hl : L.length = L'.length) (h : ∀ b ∈ L, b.length = n) (h' : ∀ b ∈ L', b.length = n)
    (e : L.flatten = L'.flatten) : L = L' := by
  induction L generalizing L' with
  | nil => cases L' with
    | nil => rfl
    | cons b L' => simp at hl
  | cons a L ih => cases L' with
    | nil => simp at hl
    | cons b L' =>
      rw [List.flatten_cons, List.flatten_cons] at e
      obtain ⟨h1, h2⟩ := List.append_inj e (by rw [h a (by simp), h' b (by simp)])
      rw [h1, ih L' (by simpa using hl) (fun b hb => h b (by simp [hb])) (fun b hb => h' b (by simp [hb])) h2]

theorem map_range_inj {α : Type} (f g : Nat → α) (m : Nat) (h : (List.range m).map f = (List.range m).map g) (i : Nat) (hi : i < m) : f i = g i := by
  have := congrArg (fun l => l[i]?) h
  simpa [hi] using this

/-- A list is determined by its slices. -/
theorem flat_slices {α : Type} (f : Nat → List α) (k m : Nat) (l : List α) (hl : l.length = k * m) (hf : ∀ j, (f j).length = m)
    (h : ∀ i, i < k → (l.drop (i * m)).take m = f i) : l = (List.range k).flatMap f := by
  induction k generalizing l with
  | zero => rw [Nat.zero_mul] at hl; simpa using hl
  | succ k ih =>
    rw [List.range_succ, List.flatMap_append, ← ih (l.take (k * m)) (by rw [List.length_take, hl, Nat.succ_mul]; omega)]
    · have := h k (by omega)
      rw [List.take_of_length_le (by rw [List.length_drop, hl, Nat.succ_mul]; omega)] at this
      rw [List.flatMap_cons, List.flatMap_nil, List.append_nil, ← this, List.take_append_drop]
    · intro i hi
      have hm : i * m + m ≤ k * m := by rw [← Nat.succ_mul]; exact Nat.mul_le_mul_right _ hi
      rw [← h i (by omega), List.drop_take, List.take_take]
      congr 1
      omega

section
variable (P : Params) (hf : HashFns) (sk pk : Bytes)

/-- No second preimage. -/
def NoSP (q : Adrs × Bytes) : Prop := ¬ SecondPreimage P hf sk pk q.1 q.2

variable {P hf sk pk}

theorem NoSP.eq {A : Adrs} {X Y Z : Bytes} (h : NoSP P hf sk pk (A, X)) (hY : ownInput P hf sk pk A = Y) (hl : X.length = Y.length)
    (hX : hashAt hf pk A X = Z) (hZ : hashAt hf pk A Y = Z) : X = Y := by
  by_contra hne
  refine h ⟨?_, ?_, ?_⟩
  · rw [hY]; exact hne
  · rw [hY]; exact hl
  · rw [hY, hX, hZ]

theorem hashAt_wots (l t kp c i : Nat) (X : Bytes) : hashAt hf pk (Adrs.wotsHash l t kp c i) X = hf.F pk (Adrs.wotsHash l t kp c i) X := rfl
theorem hashAt_wotsPk (l t kp : Nat) (X : Bytes) : hashAt hf pk (Adrs.wotsPk l t kp) X = hf.T pk (Adrs.wotsPk l t kp) X := rfl
theorem hashAt_tree (l t z i : Nat) (X : Bytes) : hashAt hf pk (Adrs.treeNode l t z i) X = hf.T pk (Adrs.treeNode l t z i) X := rfl
theorem hashAt_forsLeaf (t kp i : Nat) (X : Bytes) : hashAt hf pk (Adrs.forsTree t kp 0 i) X = hf.F pk (Adrs.forsTree t kp 0 i) X := rfl
theorem hashAt_forsTree (t kp z i : Nat) (X : Bytes) : hashAt hf pk (Adrs.forsTree t kp (z + 1) i) X = hf.T pk (Adrs.forsTree t kp (z + 1) i) X := rfl
theorem hashAt_roots (t kp : Nat) (X : Bytes) : hashAt hf pk (Adrs.forsRoots t kp) X = hf.T pk (Adrs.forsRoots t kp) X := rfl

variable (P hf sk pk)

/-- Outputs have `n` bytes. -/
structure OutLen : Prop where
  F : ∀ A X, (hf.F pk A X).length = P.n
  T : ∀ A X, (hf.T pk A X).length = P.n
  PRF : ∀ A, (hf.PRF pk sk A).length = P.n

variable {P hf sk pk}
variable (O : OutLen P hf sk pk)

include O

theorem OutLen.chain (l t kp c : Nat) (X : Bytes) (hX : X.length = P.n) (i s : Nat) : (Slh.chain hf pk l t kp c X i s).length = P.n := by
  cases s with
  | zero => exact hX
  | succ s => exact O.F _ _

theorem OutLen.xmssNode (l t i z : Nat) : (Slh.xmssNode P hf sk pk l t i z).length = P.n := by
  cases z with
  | zero => exact O.T _ _
  | succ z => exact O.T _ _

theorem OutLen.forsNode (t kp i z : Nat) : (Slh.forsNode hf sk pk t kp i z).length = P.n := by
  cases z with
  | zero => exact O.F _ _
  | succ z => exact O.T _ _

theorem chain_back (l t kp c : Nat) (X : Bytes) (hX : X.length = P.n) (i s : Nat) (hq : ∀ q ∈ chainCalls hf pk l t kp c X i s, NoSP P hf sk pk q)
    (e : chain hf pk l t kp c X i s = chain hf pk l t kp c (wotsSk hf sk pk l t kp c) 0 (i + s)) :
    X = chain hf pk l t kp c (wotsSk hf sk pk l t kp c) 0 i := by
  induction s with
  | zero => exact e
  | succ s ih =>
    apply ih (fun q h => hq q (List.mem_append.2 (.inl h)))
    refine (hq _ (List.mem_append.2 (.inr (List.mem_singleton.2 rfl)))).eq (Z := chain hf pk l t kp c X i (s + 1)) rfl ?_ rfl ?_
    · exact (O.chain _ _ _ _ _ hX _ _).trans (O.chain _ _ _ _ _ (O.PRF _) _ _).symm
    · rw [e, ← Nat.add_assoc, chain, Nat.zero_add]; rfl

theorem wots_back (l t kp : Nat) (sig : List Bytes) (M : Bytes) (hsig : ∀ i, i < P.len → (sig.getD i []).length = P.n)
    (hq : ∀ q ∈ wotsCalls P hf pk l t kp sig M, NoSP P hf sk pk q)
    (e : wotsPkFromSig P hf pk l t kp sig M = wotsPkGen P hf sk pk l t kp) (c : Nat) (hc : c < P.len) :
    sig.getD c [] = chain hf pk l t kp c (wotsSk hf sk pk l t kp c) 0 ((wotsDigits P M).getD c 0) := by
  unfold wotsCalls at hq
  have hlast := (hq _ (List.mem_append.2 (.inr (List.mem_singleton.2 rfl)))).eq (Z := wotsPkGen P hf sk pk l t kp)
    (Y := ((List.range P.len).map fun i => chain hf pk l t kp i (wotsSk hf sk pk l t kp i) 0 15).flatten) rfl (by
    rw [length_flatten_range _ P.n, length_flatten_range _ P.n]
    · intro i _; exact O.chain _ _ _ _ _ (O.PRF _) _ _
    · intro i hi; exact O.chain _ _ _ _ _ (hsig i hi) _ _) e rfl
  have hmap := flatten_inj P.n _ _ (by simp) (by
      intro b hb
      obtain ⟨i, hi, rfl⟩ := List.mem_map.1 hb
      exact O.chain _ _ _ _ _ (hsig i (List.mem_range.1 hi)) _ _) (by
      intro b hb
      obtain ⟨i, hi, rfl⟩ := List.mem_map.1 hb
      exact O.chain _ _ _ _ _ (O.PRF _) _ _) hlast
  have hi := map_range_inj _ _ _ hmap c hc
  simp only at hi
  have hd := wotsDigits_getD_lt P M c
  refine chain_back O l t kp c _ (hsig c hc) _ _ (fun q h => hq q (List.mem_append.2 (.inl (List.mem_flatMap.2 ⟨c, List.mem_range.2 hc, h⟩)))) ?_
  rw [hi]
  congr 1
  omega

omit O in
theorem climb_back (n : Nat) (adr : Nat → Nat → Adrs) (N : Nat → Nat → Bytes) (hlen : ∀ z j, (N z j).length = n)
    (hN : ∀ z j, N (z + 1) j = hf.T pk (adr (z + 1) j) (N z (2 * j) ++ N z (2 * j + 1)))
    (hown : ∀ z j, ownInput P hf sk pk (adr (z + 1) j) = N z (2 * j) ++ N z (2 * j + 1))
    (hat : ∀ z j X, hashAt hf pk (adr (z + 1) j) X = hf.T pk (adr (z + 1) j) X)
    (hT : ∀ A X, (hf.T pk A X).length = n)
    (idx : Nat) (as : List Bytes) (k : Nat) (v : Bytes) (hv : v.length = n) (has : ∀ a ∈ as, a.length = n)
    (hq : ∀ q ∈ climbCalls hf pk adr idx k v as, NoSP P hf sk pk q)
    (e : climb hf pk adr idx k v as = N (k + as.length) (idx / 2 ^ (k + as.length))) :
    v = N k (idx / 2 ^ k) ∧ as = (List.range as.length).map fun j => N (k + j) ((idx / 2 ^ (k + j)) ^^^ 1) := by
  induction as generalizing k v with
  | nil => exact ⟨e, rfl⟩
  | cons a as ih =>
    have ha := has a (by simp)
    rw [climb] at e
    rw [climbCalls] at hq
    have hfold : (if (idx / 2 ^ k) % 2 = 0 then hf.T pk (adr (k + 1) (idx / 2 ^ (k + 1))) (v ++ a) else hf.T pk (adr (k + 1) (idx / 2 ^ (k + 1))) (a ++ v)) =
        hf.T pk (adr (k + 1) (idx / 2 ^ (k + 1))) (if (idx / 2 ^ k) % 2 = 0 then v ++ a else a ++ v) := by split <;> rfl
    rw [hfold] at e
    obtain ⟨e1, e2⟩ := ih (k + 1) _ (hT _ _) (fun b hb => has b (by simp [hb])) (fun q h => hq q (List.mem_cons_of_mem _ h)) (by
      rw [e, List.length_cons, show k + (as.length + 1) = k + 1 + as.length by omega])
    have hin := (hq _ (List.mem_cons_self ..)).eq (hown k _) (by
      rw [List.length_append, hlen, hlen]
      split <;> rw [List.length_append] <;> omega) (Z := N (k + 1) (idx / 2 ^ (k + 1))) (by rw [hat, e1]) (by rw [hat, hN])
    have hz := Nat.zero_le (idx / 2 ^ k)
    rw [div_pow_succ] at hin
    have hva : v = N k (idx / 2 ^ k) ∧ a = N k ((idx / 2 ^ k) ^^^ 1) := by
      rw [xor_one]
      by_cases hb : (idx / 2 ^ k) % 2 = 0
      · rw [if_pos hb] at hin ⊢
        obtain ⟨x1, x2⟩ := List.append_inj hin (by rw [hv, hlen])
        rw [x1, x2, show 2 * (idx / 2 ^ k / 2) = idx / 2 ^ k by omega]
        exact ⟨rfl, rfl⟩
      · rw [if_neg hb] at hin ⊢
        obtain ⟨x1, x2⟩ := List.append_inj hin (by rw [ha, hlen])
        rw [x1, x2, show 2 * (idx / 2 ^ k / 2) + 1 = idx / 2 ^ k by omega, show 2 * (idx / 2 ^ k / 2) = idx / 2 ^ k - 1 by omega]
        exact ⟨rfl, rfl⟩
    refine ⟨hva.1, ?_⟩
    rw [List.length_cons, List.range_succ_eq_map, List.map_cons, List.map_map, Nat.add_zero, ← hva.2]
    congr 1
    conv => lhs; rw [e2]
    apply List.map_congr_left
    intro j _
    show N (k + 1 + j) _ = N (k + (j + 1)) _
    rw [show k + 1 + j = k + (j + 1) by omega]

omit O in
theorem getD_len {n : Nat} {sig : List Bytes} (h : ∀ b ∈ sig, b.length = n) (i : Nat) (hi : i < sig.length) : (sig.getD i []).length = n := by
  rw [List.getD_eq_getElem?_getD, List.getElem?_eq_getElem hi]
  exact h _ (List.getElem_mem hi)

/-- One XMSS layer: authentication path and chain values are the owner's. -/
theorem xmss_back (l t idx : Nat) (hi : idx < 2 ^ P.hp) (sig : List Bytes) (hs : sig.length = P.len + P.hp) (hb : ∀ b ∈ sig, b.length = P.n) (M : Bytes)
    (hq : ∀ q ∈ xmssCalls P hf pk l t idx sig M, NoSP P hf sk pk q)
    (e : xmssPkFromSig P hf pk l t idx sig M = xmssNode P hf sk pk l t 0 P.hp) :
    sig = xmssSign P hf sk pk l t idx M := by
  unfold xmssCalls at hq
  unfold xmssPkFromSig at e
  have hdl : (sig.drop P.len).length = P.hp := by rw [List.length_drop]; omega
  obtain ⟨e1, e2⟩ := climb_back P.n (Adrs.treeNode l t) (fun z j => xmssNode P hf sk pk l t j z) (fun z j => O.xmssNode _ _ _ _) (fun z j => rfl)
    (fun z j => rfl) (fun z j X => rfl) O.T idx (sig.drop P.len) 0
    (wotsPkFromSig P hf pk l t idx (sig.take P.len) M) (O.T _ _) (fun a ha => hb a (List.mem_of_mem_drop ha))
    (fun q h => hq q (List.mem_append.2 (.inr h))) (by
      rw [e, hdl, Nat.zero_add, Nat.div_eq_of_lt hi])
  simp only [Nat.pow_zero, Nat.div_one, hdl, Nat.zero_add] at e1 e2
  have hw := wots_back O l t idx (sig.take P.len) M (fun i h => getD_len (fun b hb' => hb b (List.mem_of_mem_take hb')) i (by rw [List.length_take]; omega))
    (fun q h => hq q (List.mem_append.2 (.inl h))) e1
  unfold xmssSign xmssAuth
  rw [← e2]
  conv => lhs; rw [← List.take_append_drop P.len sig]
  congr 1
  unfold wotsSign
  apply List.ext_getElem
  · rw [List.length_take, List.length_map, List.length_range]; omega
  · intro c h1 h2
    have := hw c (by simpa using h2)
    rw [List.getD_eq_getElem?_getD, List.getElem?_eq_getElem h1] at this
    simpa using this

/-- The number (within its layer) of the key pair used `i` layers above key pair `leaf` of tree `t`. -/
def up (P : Params) (t leaf i : Nat) : Nat := (t * 2 ^ P.hp + leaf) / 2 ^ (P.hp * i)

omit O in
theorem up_zero (t leaf : Nat) (hl : leaf < 2 ^ P.hp) : up P t leaf 0 / 2 ^ P.hp = t ∧ up P t leaf 0 % 2 ^ P.hp = leaf := by
  have hp : 0 < 2 ^ P.hp := Nat.pow_pos (by omega)
  unfold up
  rw [Nat.mul_zero, Nat.pow_zero, Nat.div_one]
  constructor
  · rw [Nat.mul_comm, Nat.mul_add_div hp, Nat.div_eq_of_lt hl, Nat.add_zero]
  · rw [Nat.mul_comm, Nat.mul_add_mod, Nat.mod_eq_of_lt hl]

omit O in
theorem up_succ (t leaf i : Nat) (hl : leaf < 2 ^ P.hp) : up P t leaf (i + 1) = up P (t / 2 ^ P.hp) (t % 2 ^ P.hp) i := by
  have hp : 0 < 2 ^ P.hp := Nat.pow_pos (by omega)
  unfold up
  rw [Nat.mul_succ, Nat.add_comm (P.hp * i), Nat.pow_add, ← Nat.div_div_eq_div_mul]
  congr 1
  rw [Nat.mul_comm t, Nat.mul_add_div hp, Nat.div_eq_of_lt hl, Nat.add_zero, Nat.mul_comm, Nat.div_add_mod]

/-- The hypertree: from the top layer down, everything is the owner's. -/
theorem ht_back (hnd : ∀ M M' : Bytes, M.length = P.n → M'.length = P.n → M ≠ M' → ∃ c, c < P.len ∧ (wotsDigits P M).getD c 0 < (wotsDigits P M').getD c 0)
    (r j t leaf : Nat) (hl : leaf < 2 ^ P.hp) (sig : List Bytes) (hs : sig.length = (r + 1) * (P.len + P.hp)) (hb : ∀ b ∈ sig, b.length = P.n)
    (M : Bytes) (hM : M.length = P.n)
    (hq : ∀ q ∈ htCalls P hf pk (r + 1) j t leaf sig M, NoSP P hf sk pk q)
    (hu : ∀ i, i < r + 1 → ∀ c, c < P.len → ∀ s, s < (wotsDigits P (signedValue P hf sk pk (j + i) (up P t leaf i / 2 ^ P.hp) (up P t leaf i % 2 ^ P.hp))).getD c 0 →
      sig.getD (i * (P.len + P.hp) + c) [] ≠ chain hf pk (j + i) (up P t leaf i / 2 ^ P.hp) (up P t leaf i % 2 ^ P.hp) c
        (wotsSk hf sk pk (j + i) (up P t leaf i / 2 ^ P.hp) (up P t leaf i % 2 ^ P.hp) c) 0 s)
    (e : htRootFrom P hf pk (r + 1) j t leaf sig M = xmssNode P hf sk pk (j + r) (t / 2 ^ (P.hp * r)) 0 P.hp) :
    sig = htSignFrom P hf sk pk (r + 1) j t leaf M ∧ M = signedValue P hf sk pk j t leaf := by
  have hsv : ∀ l t kp, (signedValue P hf sk pk l t kp).length = P.n := by
    intro l t kp
    cases l with
    | zero => exact O.T _ _
    | succ l => exact O.xmssNode _ _ _ _
  have hp : 0 < 2 ^ P.hp := Nat.pow_pos (by omega)
  -- one layer
  have one : ∀ j t leaf sig M, leaf < 2 ^ P.hp → sig.length = P.len + P.hp → (∀ b ∈ sig, b.length = P.n) → M.length = P.n →
      (∀ q ∈ xmssCalls P hf pk j t leaf sig M, NoSP P hf sk pk q) →
      (∀ c, c < P.len → ∀ s, s < (wotsDigits P (signedValue P hf sk pk j t leaf)).getD c 0 →
        sig.getD c [] ≠ chain hf pk j t leaf c (wotsSk hf sk pk j t leaf c) 0 s) →
      xmssPkFromSig P hf pk j t leaf sig M = xmssNode P hf sk pk j t 0 P.hp → sig = xmssSign P hf sk pk j t leaf M ∧ M = signedValue P hf sk pk j t leaf := by
    intro j t leaf sig M hl hs hb hM hq hu e
    have hx := xmss_back O j t leaf hl sig hs hb M hq e
    refine ⟨hx, ?_⟩
    by_contra hne
    obtain ⟨c, hc, hlt⟩ := hnd M _ hM (hsv j t leaf) hne
    refine hu c hc _ hlt ?_
    rw [hx, xmssSign, List.getD_append _ _ _ _ (by rw [length_wotsSign]; exact hc), wotsSign, getD_map_range _ _ _ _ hc]
  induction r generalizing j t leaf sig M with
  | zero =>
    rw [htCalls] at hq
    have h0 := up_zero t leaf hl
    have hs' : sig.length = P.len + P.hp := by omega
    have htk : sig.take (P.len + P.hp) = sig := List.take_of_length_le (by omega)
    simp only [htRootFrom, htk, Nat.mul_zero, Nat.pow_zero, Nat.div_one, Nat.add_zero] at e
    rw [htk] at hq
    obtain ⟨a1, a2⟩ := one j t leaf sig M hl hs' hb hM (fun q h => hq q (List.mem_append.2 (.inl h))) (fun c hc s hlt => by
      have := hu 0 (by omega) c hc s
      rw [h0.1, h0.2, Nat.add_zero, Nat.zero_mul, Nat.zero_add] at this
      exact this hlt) e
    refine ⟨?_, a2⟩
    rw [htSignFrom, htSignFrom, List.append_nil]
    exact a1
  | succ r ih =>
    rw [htCalls] at hq
    rw [htRootFrom] at e
    have h0 := up_zero t leaf hl
    have hs' : sig.length = (r + 1) * (P.len + P.hp) + (P.len + P.hp) := by rw [hs, Nat.succ_mul]
    have htl : (sig.take (P.len + P.hp)).length = P.len + P.hp := by rw [List.length_take]; omega
    obtain ⟨b1, b2⟩ := ih (j + 1) (t / 2 ^ P.hp) (t % 2 ^ P.hp) (Nat.mod_lt _ hp) (sig.drop (P.len + P.hp)) (by rw [List.length_drop]; omega)
      (fun b h => hb b (List.mem_of_mem_drop h)) (xmssPkFromSig P hf pk j t leaf (sig.take (P.len + P.hp)) M) (by
        have : P.len + P.hp ≥ 1 := by show 2 * P.n + 3 + P.hp ≥ 1; omega
        unfold xmssPkFromSig
        cases hd : (sig.take (P.len + P.hp)).drop P.len with
        | nil => exact O.T _ _
        | cons a as =>
          have gen : ∀ (as : List Bytes) (k : Nat) (v : Bytes), v.length = P.n → (climb hf pk (Adrs.treeNode j t) leaf k v as).length = P.n := by
            intro as
            induction as with
            | nil => intro k v hv; exact hv
            | cons a as ih2 =>
              intro k v hv
              rw [climb]
              apply ih2
              split <;> exact O.T _ _
          exact gen _ _ _ (O.T _ _))
      (fun q h => hq q (List.mem_append.2 (.inr h)))
      (fun i hi c hc s hlt => by
        have := hu (i + 1) (by omega) c hc s
        rw [up_succ _ _ _ hl, show j + (i + 1) = j + 1 + i by omega] at this
        have hthis := this hlt
        rw [List.getD_eq_getElem?_getD, List.getElem?_drop, ← List.getD_eq_getElem?_getD]
        rw [show P.len + P.hp + (i * (P.len + P.hp) + c) = (i + 1) * (P.len + P.hp) + c by rw [Nat.succ_mul]; omega]
        exact hthis)
      (by
        rw [e, Nat.div_div_eq_div_mul, ← Nat.pow_add, show P.hp + P.hp * r = P.hp * (r + 1) by rw [Nat.mul_succ]; omega,
          show j + 1 + r = j + (r + 1) by omega])
    have e3 : xmssPkFromSig P hf pk j t leaf (sig.take (P.len + P.hp)) M = xmssNode P hf sk pk j t 0 P.hp := by
      rw [b2]
      show xmssNode P hf sk pk j (t / 2 ^ P.hp * 2 ^ P.hp + t % 2 ^ P.hp) 0 P.hp = _
      rw [Nat.mul_comm, Nat.div_add_mod]
    obtain ⟨a1, a2⟩ := one j t leaf (sig.take (P.len + P.hp)) M hl htl (fun b h => hb b (List.mem_of_mem_take h)) hM (fun q h => hq q (List.mem_append.2 (.inl h)))
      (fun c hc s hlt => by
        have := hu 0 (by omega) c hc s
        rw [h0.1, h0.2, Nat.add_zero, Nat.zero_mul, Nat.zero_add] at this
        have hthis := this hlt
        rw [List.getD_eq_getElem?_getD, List.getElem?_take_of_lt (by omega), ← List.getD_eq_getElem?_getD]
        exact hthis) e3
    refine ⟨?_, a2⟩
    rw [htSignFrom]
    conv => lhs; rw [← List.take_append_drop (P.len + P.hp) sig]
    rw [← a1, ← b1]

/-- FORS: secret values and authentication paths are the owner's. -/
theorem fors_back (t kp : Nat) (idx : List Nat) (hi : ∀ i, idx.getD i 0 < 2 ^ P.a) (sig : List Bytes) (hs : sig.length = P.k * (P.a + 1))
    (hb : ∀ b ∈ sig, b.length = P.n) (hq : ∀ q ∈ forsCalls P hf pk t kp idx sig, NoSP P hf sk pk q)
    (e : forsPkFromSig P hf pk t kp idx sig = forsPk P hf sk pk t kp) : sig = forsSign P hf sk pk t kp idx := by
  have hp : 0 < 2 ^ P.a := Nat.pow_pos (by omega)
  unfold forsCalls at hq
  have hpl : ∀ i, i < P.k → ((sig.drop (i * (P.a + 1))).take (P.a + 1)).length = P.a + 1 := by
    intro i hik
    have : i * (P.a + 1) + (P.a + 1) ≤ P.k * (P.a + 1) := by rw [← Nat.succ_mul]; exact Nat.mul_le_mul_right _ hik
    rw [List.length_take, List.length_drop]; omega
  have hpb : ∀ i, ∀ b ∈ (sig.drop (i * (P.a + 1))).take (P.a + 1), b.length = P.n := fun i b h => hb b (List.mem_of_mem_drop (List.mem_of_mem_take h))
  have hcl : ∀ (idx : Nat) (as : List Bytes) (k : Nat) (v : Bytes), v.length = P.n → (climb hf pk (Adrs.forsTree t kp) idx k v as).length = P.n := by
    intro idx as
    induction as with
    | nil => intro k v hv; exact hv
    | cons a as ih =>
      intro k v hv
      rw [climb]
      apply ih
      split <;> exact O.T _ _
  have hrl : ∀ i, (forsTreeRoot P hf pk t kp i (idx.getD i 0) ((sig.drop (i * (P.a + 1))).take (P.a + 1))).length = P.n := fun i => hcl _ _ _ _ (O.F _ _)
  have hlast := (hq _ (List.mem_append.2 (.inr (List.mem_singleton.2 rfl)))).eq (Z := forsPk P hf sk pk t kp)
    (Y := ((List.range P.k).map fun i => forsNode hf sk pk t kp i P.a).flatten) rfl (by
    rw [length_flatten_range _ P.n, length_flatten_range _ P.n]
    · intro i _; exact O.forsNode _ _ _ _
    · intro i _; exact hrl i) e rfl
  have hmap := flatten_inj P.n _ _ (by simp) (by
      intro b hb
      obtain ⟨i, -, rfl⟩ := List.mem_map.1 hb
      exact hrl i) (by
      intro b hb
      obtain ⟨i, -, rfl⟩ := List.mem_map.1 hb
      exact O.forsNode _ _ _ _) hlast
  have hpart : ∀ i, i < P.k → (sig.drop (i * (P.a + 1))).take (P.a + 1) = forsTreeSig P hf sk pk t kp i (idx.getD i 0) := by
    intro i hik
    have hr := map_range_inj _ _ _ hmap i hik
    have hqi : ∀ q ∈ forsTreeCalls P hf pk t kp i (idx.getD i 0) ((sig.drop (i * (P.a + 1))).take (P.a + 1)), NoSP P hf sk pk q :=
      fun q h => hq q (List.mem_append.2 (.inl (List.mem_flatMap.2 ⟨i, List.mem_range.2 hik, h⟩)))
    have hl := hpl i hik
    have hbb := hpb i
    generalize (sig.drop (i * (P.a + 1))).take (P.a + 1) = part at *
    cases part with
    | nil => simp at hl
    | cons s as =>
      have hal : as.length = P.a := by simpa using hl
      rw [forsTreeCalls] at hqi
      unfold forsTreeRoot at hr
      simp only [List.headD_cons, List.tail_cons] at hqi hr
      have hd : (i * 2 ^ P.a + idx.getD i 0) / 2 ^ P.a = i := by
        rw [add_div_pow _ (Nat.dvd_mul_left _ _) (Nat.le_refl _), Nat.mul_div_cancel _ hp, Nat.div_eq_of_lt (hi i), Nat.add_zero]
      obtain ⟨e1, e2⟩ := climb_back P.n (Adrs.forsTree t kp) (fun z j => forsNode hf sk pk t kp j z) (fun z j => O.forsNode _ _ _ _) (fun z j => rfl)
        (fun z j => rfl) (fun z j X => rfl) O.T (i * 2 ^ P.a + idx.getD i 0) as 0 _ (O.F _ _) (fun a ha => hbb a (List.mem_cons_of_mem _ ha))
        (fun q h => hqi q (List.mem_cons_of_mem _ h)) (by rw [hr, hal, Nat.zero_add, hd])
      simp only [Nat.pow_zero, Nat.div_one, hal, Nat.zero_add] at e1 e2
      rw [forsTreeSig_eq, ← e2]
      congr 1
      refine (hqi _ (List.mem_cons_self ..)).eq (Z := forsNode hf sk pk t kp (i * 2 ^ P.a + idx.getD i 0) 0) rfl ?_ e1 rfl
      exact (hbb s (List.mem_cons_self ..)).trans (O.PRF _).symm
  unfold forsSign
  apply flat_slices _ _ _ _ hs (fun j => length_forsTreeSig P hf sk pk t kp _ _) hpart

omit O in
/-- The part of the owner's hypertree signature from layer `j` on. -/
theorem ht_at (j t leaf : Nat) (hl : leaf < 2 ^ P.hp) (hj : j < P.d) :
    (htSign P hf sk pk t leaf (forsPk P hf sk pk t leaf)).drop (j * (P.len + P.hp)) =
      htSignFrom P hf sk pk (P.d - j) j (up P t leaf j / 2 ^ P.hp) (up P t leaf j % 2 ^ P.hp)
        (signedValue P hf sk pk j (up P t leaf j / 2 ^ P.hp) (up P t leaf j % 2 ^ P.hp)) := by
  have hp : 0 < 2 ^ P.hp := Nat.pow_pos (by omega)
  cases j with
  | zero =>
    rw [(up_zero t leaf hl).1, (up_zero t leaf hl).2, Nat.zero_mul, List.drop_zero]
    rfl
  | succ i =>
    have e : up P t leaf (i + 1) = t / 2 ^ (P.hp * i) := by
      unfold up
      rw [Nat.mul_succ, Nat.add_comm (P.hp * i), Nat.pow_add, ← Nat.div_div_eq_div_mul, Nat.mul_comm, Nat.mul_add_div hp, Nat.div_eq_of_lt hl, Nat.add_zero]
    unfold htSign
    rw [htSignFrom_drop P hf sk pk i P.d 0 t leaf _ hl (by omega), e, Nat.zero_add, Nat.zero_add]
    congr 1
    show _ = xmssNode P hf sk pk i (t / 2 ^ (P.hp * i) / 2 ^ P.hp * 2 ^ P.hp + t / 2 ^ (P.hp * i) % 2 ^ P.hp) 0 P.hp
    rw [Nat.mul_comm (_ / _), Nat.div_add_mod]

end
end Model
