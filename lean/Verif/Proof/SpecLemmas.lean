import Verif.Proof.Path
/-!
# Facts about the specification: honest signatures verify
-/
namespace Model
open Spec Spec.Slh

theorem getD_map_range {α : Type} (f : Nat → α) (m i : Nat) (d : α) (h : i < m) : ((List.range m).map f).getD i d = f i := by
  simp [List.getD_eq_getElem?_getD, h]

section
variable (P : Params) (hf : HashFns) (sk pk : Bytes)

theorem chain_add (l t kp c : Nat) (X : Bytes) (i s u : Nat) :
    chain hf pk l t kp c X i (s + u) = chain hf pk l t kp c (chain hf pk l t kp c X i s) (i + s) u := by
  induction u with
  | zero => rfl
  | succ u ih => rw [← Nat.add_assoc, chain, chain, ih, Nat.add_assoc]

theorem climb_node (adr : Nat → Nat → Adrs) (N : Nat → Nat → Bytes)
    (hN : ∀ z j, N (z + 1) j = hf.T pk (adr (z + 1) j) (N z (2 * j) ++ N z (2 * j + 1))) (idx m k : Nat) :
    climb hf pk adr idx k (N k (idx / 2 ^ k)) ((List.range m).map fun j => N (k + j) ((idx / 2 ^ (k + j)) ^^^ 1)) =
      N (k + m) (idx / 2 ^ (k + m)) := by
  induction m generalizing k with
  | zero => rfl
  | succ m ih =>
    rw [List.range_succ_eq_map, List.map_cons, List.map_map, climb]
    have hz := Nat.zero_le (idx / 2 ^ k)
    have hstep : (if (idx / 2 ^ k) % 2 = 0
        then hf.T pk (adr (k + 1) (idx / 2 ^ (k + 1))) (N k (idx / 2 ^ k) ++ N (k + 0) ((idx / 2 ^ (k + 0)) ^^^ 1))
        else hf.T pk (adr (k + 1) (idx / 2 ^ (k + 1))) (N (k + 0) ((idx / 2 ^ (k + 0)) ^^^ 1) ++ N k (idx / 2 ^ k))) =
        N (k + 1) (idx / 2 ^ (k + 1)) := by
      simp only [hN, Nat.add_zero, xor_one, div_pow_succ]
      split
      · rw [show 2 * (idx / 2 ^ k / 2) = idx / 2 ^ k by omega]
      · rw [show 2 * (idx / 2 ^ k / 2) + 1 = idx / 2 ^ k by omega, show 2 * (idx / 2 ^ k / 2) = idx / 2 ^ k - 1 by omega]
    rw [hstep]
    have := ih (k + 1)
    rw [show k + 1 + m = k + (m + 1) by omega] at this
    rw [← this]
    congr 1
    apply List.map_congr_left
    intro j _
    show N (k + (j + 1)) _ = _
    rw [show k + (j + 1) = k + 1 + j by omega]

theorem length_wotsSign (l t kp : Nat) (M : Bytes) : (wotsSign P hf sk pk l t kp M).length = P.len := by simp [wotsSign]
theorem length_xmssAuth (l t kp : Nat) : (xmssAuth P hf sk pk l t kp).length = P.hp := by simp [xmssAuth]
theorem length_xmssSign (l t kp : Nat) (M : Bytes) : (xmssSign P hf sk pk l t kp M).length = P.len + P.hp := by
  simp [xmssSign, length_wotsSign, length_xmssAuth]
theorem length_forsTreeSig (t kp i idx : Nat) : (forsTreeSig P hf sk pk t kp i idx).length = P.a + 1 := by
  simp [forsTreeSig]

theorem wots_honest (l t kp : Nat) (M : Bytes) :
    wotsPkFromSig P hf pk l t kp (wotsSign P hf sk pk l t kp M) M = wotsPkGen P hf sk pk l t kp := by
  unfold wotsPkFromSig wotsPkGen
  congr 2
  apply List.map_congr_left
  intro i hi
  simp only
  rw [wotsSign, getD_map_range _ _ _ _ (List.mem_range.1 hi)]
  have hd := wotsDigits_getD_lt P M i
  have := chain_add hf pk l t kp i (wotsSk hf sk pk l t kp i) 0 ((wotsDigits P M).getD i 0) (15 - (wotsDigits P M).getD i 0)
  rw [Nat.zero_add] at this
  rw [← this]
  congr 1
  omega

theorem xmss_honest (l t idx : Nat) (M : Bytes) (hi : idx < 2 ^ P.hp) :
    xmssPkFromSig P hf pk l t idx (xmssSign P hf sk pk l t idx M) M = xmssNode P hf sk pk l t 0 P.hp := by
  have hw := length_wotsSign P hf sk pk l t idx M
  unfold xmssPkFromSig xmssSign
  rw [List.take_append_of_le_length (by omega), List.take_of_length_le (by omega),
    List.drop_append_of_le_length (by omega), List.drop_of_length_le (by omega), List.nil_append, wots_honest]
  have := climb_node hf pk (Adrs.treeNode l t) (fun z j => xmssNode P hf sk pk l t j z) (fun z j => rfl) idx P.hp 0
  simp only [Nat.pow_zero, Nat.div_one, Nat.zero_add, Nat.div_eq_of_lt hi] at this
  exact this

theorem fors_auth_idx (i idx a j : Nat) (hj : j < a) :
    ((i * 2 ^ a + idx) / 2 ^ j) ^^^ 1 = i * 2 ^ (a - j) + ((idx / 2 ^ j) ^^^ 1) := by
  have h1 : 2 ^ a ∣ i * 2 ^ a := Nat.dvd_mul_left _ _
  rw [add_div_pow idx h1 (by omega)]
  have e : i * 2 ^ a / 2 ^ j = i * 2 ^ (a - j) := by
    rw [show (2 : Nat) ^ a = 2 ^ (a - j) * 2 ^ j by rw [← Nat.pow_add]; congr 1; omega, ← Nat.mul_assoc,
      Nat.mul_div_cancel _ (Nat.pow_pos (by omega))]
  have he := even_div h1 hj
  rw [e] at he ⊢
  have := Nat.zero_le (idx / 2 ^ j)
  rw [xor_one, xor_one]
  split <;> split <;> omega

theorem forsTreeSig_eq (t kp i idx : Nat) :
    forsTreeSig P hf sk pk t kp i idx = forsSk hf sk pk t kp (i * 2 ^ P.a + idx) ::
      (List.range P.a).map fun j => forsNode hf sk pk t kp (((i * 2 ^ P.a + idx) / 2 ^ j) ^^^ 1) j := by
  unfold forsTreeSig
  congr 1
  apply List.map_congr_left
  intro j hj
  rw [fors_auth_idx _ _ _ _ (List.mem_range.1 hj)]

theorem fors_tree_honest (t kp i idx : Nat) (hi : idx < 2 ^ P.a) :
    forsTreeRoot P hf pk t kp i idx (forsTreeSig P hf sk pk t kp i idx) = forsNode hf sk pk t kp i P.a := by
  rw [forsTreeSig_eq]
  unfold forsTreeRoot
  have := climb_node hf pk (Adrs.forsTree t kp) (fun z j => forsNode hf sk pk t kp j z) (fun z j => rfl)
    (i * 2 ^ P.a + idx) P.a 0
  simp only [Nat.pow_zero, Nat.div_one, Nat.zero_add] at this
  have hd : (i * 2 ^ P.a + idx) / 2 ^ P.a = i := by
    have hp : 0 < 2 ^ P.a := Nat.pow_pos (by omega)
    rw [add_div_pow idx (Nat.dvd_mul_left _ _) (Nat.le_refl _), Nat.mul_div_cancel _ hp, Nat.div_eq_of_lt hi, Nat.add_zero]
  rw [hd] at this
  exact this

/-- Slices of a concatenation of equally long lists. -/
theorem flatMap_range_slice {α : Type} (f : Nat → List α) (k m i : Nat) (h : ∀ j, (f j).length = m) (hi : i < k) :
    (((List.range k).flatMap f).drop (i * m)).take m = f i := by
  have hl : ∀ k, ((List.range k).flatMap f).length = k * m := by
    intro k
    induction k with
    | zero => simp
    | succ k ih => rw [List.range_succ, List.flatMap_append, List.length_append, ih]; simp [h, Nat.succ_mul]
  have e : (List.range k).flatMap f = (List.range i).flatMap f ++ (f i ++ ((List.range (k - i - 1)).map (fun j => i + 1 + j)).flatMap f) := by
    have : List.range k = List.range i ++ (i :: (List.range (k - i - 1)).map (fun j => i + 1 + j)) := by
      conv => lhs; rw [show k = i + (k - i) by omega, List.range_add, show k - i = k - i - 1 + 1 by omega, List.range_succ_eq_map]
      simp [Function.comp_def, Nat.add_comm, Nat.add_left_comm]
    rw [this, List.flatMap_append, List.flatMap_cons]
  rw [e, List.drop_append_of_le_length (by rw [hl]), List.drop_of_length_le (by rw [hl]), List.nil_append,
    List.take_append_of_le_length (by rw [h]), List.take_of_length_le (by rw [h])]

theorem length_flatMap_range {α : Type} (f : Nat → List α) (k m : Nat) (h : ∀ j, (f j).length = m) :
    ((List.range k).flatMap f).length = k * m := by
  induction k with
  | zero => simp
  | succ k ih => rw [List.range_succ, List.flatMap_append, List.length_append, ih]; simp [h, Nat.succ_mul]

theorem length_forsSign (t kp : Nat) (idx : List Nat) : (forsSign P hf sk pk t kp idx).length = P.k * (P.a + 1) :=
  length_flatMap_range _ _ _ fun _ => length_forsTreeSig P hf sk pk t kp _ _

/-- The FORS public key of the honest signer. -/
def forsPk (t kp : Nat) : Bytes :=
  hf.T pk (Adrs.forsRoots t kp) ((List.range P.k).map fun i => forsNode hf sk pk t kp i P.a).flatten

theorem fors_honest (t kp : Nat) (idx : List Nat) (hi : ∀ i, idx.getD i 0 < 2 ^ P.a) :
    forsPkFromSig P hf pk t kp idx (forsSign P hf sk pk t kp idx) = forsPk P hf sk pk t kp := by
  unfold forsPkFromSig forsPk
  congr 2
  apply List.map_congr_left
  intro i hr
  rw [forsSign, flatMap_range_slice _ _ _ _ (fun j => length_forsTreeSig P hf sk pk t kp _ _) (List.mem_range.1 hr),
    fors_tree_honest _ _ _ _ _ _ _ _ (hi i)]

theorem length_htSignFrom (r j t leaf : Nat) (M : Bytes) :
    (htSignFrom P hf sk pk r j t leaf M).length = r * (P.len + P.hp) := by
  induction r generalizing j t leaf M with
  | zero => simp [htSignFrom]
  | succ r ih => simp only [htSignFrom, List.length_append, ih, length_xmssSign, Nat.succ_mul]; omega

theorem ht_honest (r j t leaf : Nat) (M : Bytes) (hl : leaf < 2 ^ P.hp) :
    htRootFrom P hf pk (r + 1) j t leaf (htSignFrom P hf sk pk (r + 1) j t leaf M) M =
      xmssNode P hf sk pk (j + r) (t / 2 ^ (P.hp * r)) 0 P.hp := by
  induction r generalizing j t leaf M with
  | zero =>
    simp only [htSignFrom, htRootFrom, List.append_nil]
    rw [List.take_of_length_le (by rw [length_xmssSign]), xmss_honest _ _ _ _ _ _ _ _ hl]
    simp
  | succ r ih =>
    have hx := length_xmssSign P hf sk pk j t leaf M
    rw [htSignFrom, htRootFrom]
    rw [List.take_append_of_le_length (by omega), List.take_of_length_le (by omega),
      List.drop_append_of_le_length (by omega), List.drop_of_length_le (by omega), List.nil_append]
    rw [ih _ _ _ _ (Nat.mod_lt _ (Nat.pow_pos (by omega)))]
    rw [Nat.div_div_eq_div_mul, ← Nat.pow_add, show P.hp + P.hp * r = P.hp * (r + 1) by rw [Nat.mul_succ]; omega,
      show j + 1 + r = j + (r + 1) by omega]

theorem treeIdx_lt (d : Bytes) : treeIdx P d < 2 ^ (P.h - P.hp) := Nat.mod_lt _ (Nat.pow_pos (by omega))
theorem leafIdx_lt (d : Bytes) : leafIdx P d < 2 ^ P.hp := Nat.mod_lt _ (Nat.pow_pos (by omega))

/-- The specification is correct: signatures of an honest key verify. -/
theorem verifyBlocks_signBlocks (hd : 1 ≤ P.d) (hh : P.h = P.hp * P.d) (skPrf opt M : Bytes) :
    verifyBlocks P hf pk (pkRoot P hf sk pk) M (signBlocks P hf sk pk skPrf (pkRoot P hf sk pk) opt M) = true := by
  unfold verifyBlocks signBlocks
  simp only [List.cons_append, List.nil_append, List.headD_cons, List.tail_cons]
  generalize hf.Hmsg (hf.PRFmsg skPrf opt M) pk (pkRoot P hf sk pk) M P.m = dg
  have hl := length_forsSign P hf sk pk (treeIdx P dg) (leafIdx P dg) (mdIndices P dg)
  rw [List.take_append_of_le_length (by omega), List.take_of_length_le (by omega),
      List.drop_append_of_le_length (by omega), List.drop_of_length_le (by omega), List.nil_append]
  have ht := treeIdx_lt P dg
  unfold htSign
  obtain ⟨r, hr⟩ : ∃ r, P.d = r + 1 := ⟨P.d - 1, by omega⟩
  rw [hr, ht_honest _ _ _ _ _ _ _ _ _ (leafIdx_lt P dg)]
  have hz : treeIdx P dg / 2 ^ (P.hp * r) = 0 := by
    apply Nat.div_eq_of_lt
    have : P.h - P.hp = P.hp * r := by rw [hh, hr, Nat.mul_succ]; omega
    rw [← this]; exact ht
  rw [hz]
  unfold pkRoot
  rw [hr]
  simp

end

end Model
