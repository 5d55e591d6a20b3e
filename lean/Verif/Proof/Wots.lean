import Verif.Proof.Digits
/-!
# WOTS+ digits
-/
namespace Model
open Spec (Adrs toByte toInt bitsMSB bitsToNat base2b)

theorem nib_hi (b : UInt8) : bitsToNat ((bitsMSB b).take 4) = b.toNat / 16 := by
  have : ∀ v : Fin 256, bitsToNat ((bitsMSB (UInt8.ofNat v.val)).take 4) = (UInt8.ofNat v.val).toNat / 16 := by
    decide +kernel
  have h := this ⟨b.toNat, b.toNat_lt⟩
  simpa using h

theorem nib_lo (b : UInt8) : bitsToNat ((bitsMSB b).drop 4) = b.toNat % 16 := by
  have : ∀ v : Fin 256, bitsToNat ((bitsMSB (UInt8.ofNat v.val)).drop 4) = (UInt8.ofNat v.val).toNat % 16 := by
    decide +kernel
  have h := this ⟨b.toNat, b.toNat_lt⟩
  simpa using h

theorem bits_drop (M : Bytes) (i : Nat) : (M.flatMap bitsMSB).drop (8 * i) = (M.drop i).flatMap bitsMSB := by
  induction i generalizing M with
  | zero => simp
  | succ i ih =>
    cases M with
    | nil => simp
    | cons a M =>
      rw [List.flatMap_cons, List.drop_succ_cons, ← ih, show 8 * (i + 1) = 8 * i + 8 by omega, ← length_bitsMSB a,
        Nat.add_comm, ← List.drop_drop, List.drop_left]

theorem base16_getD_even (M : Bytes) (len i : Nat) (hi : i < M.length) (hl : 2 * i < len) :
    (base2b M 4 len).getD (2 * i) 0 = (M.getD i 0).toNat / 16 := by
  simp only [base2b, List.getD_eq_getElem?_getD, List.getElem?_map, List.getElem?_range hl, Option.map_some,
    Option.getD_some]
  rw [show 2 * i * 4 = 8 * i by omega, bits_drop, List.drop_eq_getElem_cons hi, List.flatMap_cons,
    List.take_append_of_le_length (by rw [length_bitsMSB]; omega), nib_hi]
  simp [hi]

theorem base16_getD_odd (M : Bytes) (len i : Nat) (hi : i < M.length) (hl : 2 * i + 1 < len) :
    (base2b M 4 len).getD (2 * i + 1) 0 = (M.getD i 0).toNat % 16 := by
  simp only [base2b, List.getD_eq_getElem?_getD, List.getElem?_map, List.getElem?_range hl, Option.map_some,
    Option.getD_some]
  rw [show (2 * i + 1) * 4 = 8 * i + 4 by omega, ← List.drop_drop, bits_drop, List.drop_eq_getElem_cons hi,
    List.flatMap_cons, List.drop_append_of_le_length (by rw [length_bitsMSB]; omega),
    List.take_append_of_le_length (by rw [List.length_drop, length_bitsMSB]),
    List.take_of_length_le (by rw [List.length_drop, length_bitsMSB]), nib_lo]
  simp [hi]

theorem length_base2b (M : Bytes) (b len : Nat) : (base2b M b len).length = len := by simp [base2b]

theorem base16_succ (M : Bytes) (i : Nat) (hi : i < M.length) :
    base2b M 4 (2 * (i + 1)) = base2b M 4 (2 * i) ++ [(M.getD i 0).toNat / 16, (M.getD i 0).toNat % 16] := by
  have e1 := base16_getD_even M (2 * i + 2) i hi (by omega)
  have e2 := base16_getD_odd M (2 * i + 2) i hi (by omega)
  rw [← e1, ← e2]
  simp only [base2b, show 2 * (i + 1) = 2 * i + 1 + 1 by omega, List.range_succ, List.map_append, List.map_cons,
    List.map_nil, List.append_assoc]
  congr 1
  simp [List.getD_eq_getElem?_getD]

/-- The checksum value. -/
def csum (l : List Nat) : Nat := (l.map fun d => 15 - d).sum

theorem csum_append (a b : List Nat) : csum (a ++ b) = csum a + csum b := by simp [csum]

theorem csum_le (l : List Nat) : csum l ≤ 15 * l.length := by
  induction l with
  | nil => simp [csum]
  | cons a l ih => simp [csum] at ih ⊢; omega

theorem wotsDigits_eq (P : Spec.Params) (M : Bytes) (hn : P.n ≤ 32) :
    Spec.Slh.wotsDigits P M = base2b M 4 (2 * P.n) ++
      [csum (base2b M 4 (2 * P.n)) / 256, csum (base2b M 4 (2 * P.n)) / 16 % 16, csum (base2b M 4 (2 * P.n)) % 16] := by
  have hc := csum_le (base2b M 4 (2 * P.n))
  rw [length_base2b] at hc
  unfold Spec.Slh.wotsDigits
  simp only
  change base2b M 4 (2 * P.n) ++ base2b (toByte (csum (base2b M 4 (2 * P.n)) * 2 ^ 4) 2) 4 3 = _
  generalize csum (base2b M 4 (2 * P.n)) = c at hc
  congr 1
  have hb : toByte (c * 2 ^ 4) 2 = [UInt8.ofNat (c / 16), UInt8.ofNat (c % 16 * 16)] := by
    simp only [toByte, List.nil_append, List.cons_append, List.cons.injEq, and_true]
    constructor
    · congr 1; omega
    · apply UInt8.toNat_inj.1; rw [UInt8.toNat_ofNat', UInt8.toNat_ofNat']; omega
  rw [hb]
  apply Shake.list_ext_getD 0
  · rw [length_base2b]; rfl
  · intro i hi
    rw [length_base2b] at hi
    have h3 : i = 0 ∨ i = 1 ∨ i = 2 := by omega
    rcases h3 with rfl | rfl | rfl
    · rw [base16_getD_even _ 3 0 (by simp) (by omega)]
      simp [UInt8.toNat_ofNat']; omega
    · rw [base16_getD_odd _ 3 0 (by simp) (by omega)]
      simp [UInt8.toNat_ofNat']
    · rw [base16_getD_even _ 3 1 (by simp) (by omega)]
      simp [UInt8.toNat_ofNat']; omega

theorem length_wotsDigits (P : Spec.Params) (M : Bytes) : (Spec.Slh.wotsDigits P M).length = P.len := by
  simp [Spec.Slh.wotsDigits, length_base2b, Spec.Params.len]

theorem base16_lt (M : Bytes) (len d : Nat) (h : d ∈ base2b M 4 len) : d < 16 := by
  simp only [base2b, List.mem_map] at h
  obtain ⟨i, -, rfl⟩ := h
  refine Nat.lt_of_lt_of_le (bitsToNat_lt _) ?_
  have : ((M.flatMap bitsMSB).drop (i * 4) |>.take 4).length ≤ 4 := by simp
  exact Nat.pow_le_pow_right (by omega) this

theorem wotsDigits_lt (P : Spec.Params) (M : Bytes) (d : Nat) (h : d ∈ Spec.Slh.wotsDigits P M) : d < 16 := by
  unfold Spec.Slh.wotsDigits at h
  simp only [List.mem_append] at h
  rcases h with h | h <;> exact base16_lt _ _ _ h

theorem wotsDigits_getD_lt (P : Spec.Params) (M : Bytes) (i : Nat) : (Spec.Slh.wotsDigits P M).getD i 0 < 16 := by
  by_cases h : i < (Spec.Slh.wotsDigits P M).length
  · rw [getD_of_lt _ h]; exact wotsDigits_lt P M _ (List.getElem_mem h)
  · rw [List.getD_eq_default _ _ (by omega)]; omega

/-- `base2b` only looks at the first `n` bytes. -/
theorem base16_take (M : Bytes) (n : Nat) : base2b (M.take n) 4 (2 * n) = base2b M 4 (2 * n) := by
  unfold base2b
  apply List.map_congr_left
  intro i hi
  simp at hi
  rw [bits_take _ _ _ _ (by omega)]

theorem wotsDigits_take (P : Spec.Params) (M : Bytes) : Spec.Slh.wotsDigits P (M.take P.n) = Spec.Slh.wotsDigits P M := by
  unfold Spec.Slh.wotsDigits
  rw [base16_take]

theorem getD_set (x : Bytes) (i j : Nat) (v : UInt8) (h : i < x.length) :
    (x.set i v).getD j 0 = if j = i then v else x.getD j 0 := by
  split
  · rename_i e; subst e; simp [List.getD_eq_getElem?_getD, h]
  · rename_i e; rw [List.getD_eq_getElem?_getD, List.getElem?_set_ne (by omega), ← List.getD_eq_getElem?_getD]

theorem shr4 (b : UInt8) : (b >>> 4).toNat = b.toNat / 16 := by
  rw [UInt8.toNat_shiftRight, Nat.shiftRight_eq_div_pow]; rfl

theorem andf (b : UInt8) : (b &&& 0xf).toNat = b.toNat % 16 := by
  rw [UInt8.toNat_and]
  exact Nat.and_two_pow_sub_one_eq_mod b.toNat 4

/-- `compute_wots_digits` writes the digits of the specification. -/
theorem compute_wots_digits_ok (P : Spec.Params) (digits hash : Bytes) (hn : P.n ≤ 32) (hh : P.n ≤ hash.length)
    (hd : P.len ≤ digits.length) :
    ∃ d', compute_wots_digits digits hash P.n = .ok d' ∧ d'.length = digits.length ∧
      ∀ i, i < P.len → (d'.getD i 0).toNat = (Spec.Slh.wotsDigits P hash).getD i 0 := by
  unfold Spec.Params.len at hd
  unfold compute_wots_digits
  obtain ⟨⟨d1, s1⟩, e, inv⟩ := loop_inv
    (body := fun i (s : Bytes × Nat) => do
      let (digits, sum) := s
      let byte ← rd hash i
      let d := byte >>> 4
      let digits ← wr digits (2 * i) d
      let sum := usub sum d.toNat
      let d := byte &&& 0xf
      let digits ← wr digits (2 * i + 1) d
      .ok (digits, usub sum d.toNat))
    (fun i s => s.1.length = digits.length ∧ s.2 + 30 * i = csum (base2b hash 4 (2 * i)) + 2 * 15 * P.n ∧
      ∀ j, j < 2 * i → (s.1.getD j 0).toNat = (base2b hash 4 (2 * i)).getD j 0)
    P.n 0 (digits, 2 * 15 * P.n) ⟨rfl, by simp [csum, base2b], fun j hj => absurd hj (by omega)⟩
    (by
      rintro i ⟨dg, sm⟩ - hi ⟨h1, h2, h3⟩
      simp only at h1 h2 h3 ⊢
      have hc := csum_le (base2b hash 4 (2 * i))
      rw [length_base2b] at hc
      have hb := (hash.getD i 0).toNat_lt
      have hiH : i < hash.length := by omega
      refine ⟨_, by rw [rd_getD 0 hiH, ok_bind, wr_ok _ (by omega), ok_bind, wr_ok _ (by simp; omega), ok_bind],
        by simp [h1], ?_, ?_⟩
      · simp only
        rw [base16_succ _ _ hiH, csum_append, shr4, andf]
        simp only [csum, List.map_cons, List.map_nil, List.sum_cons, List.sum_nil]
        simp only [csum] at h2 hc
        unfold usub
        omega
      · intro j hj
        rw [base16_succ _ _ hiH]
        simp only
        rw [getD_set _ _ _ _ (by simp; omega), getD_set _ _ _ _ (by omega)]
        by_cases hj1 : j = 2 * i + 1
        · subst hj1
          rw [if_pos rfl, andf, List.getD_append_right _ _ _ _ (by rw [length_base2b]; omega), length_base2b]
          simp
        · rw [if_neg hj1]
          by_cases hj2 : j = 2 * i
          · subst hj2
            rw [if_pos rfl, shr4, List.getD_append_right _ _ _ _ (by rw [length_base2b]), length_base2b]
            simp
          · rw [if_neg hj2, List.getD_append _ _ _ _ (by rw [length_base2b]; omega)]
            exact h3 j (by omega))
  simp only [Nat.zero_add] at inv
  obtain ⟨h1, h2, h3⟩ := inv
  have hc := csum_le (base2b hash 4 (2 * P.n))
  rw [length_base2b] at hc
  have hs : s1 = csum (base2b hash 4 (2 * P.n)) := by omega
  rw [e, ok_bind]
  simp only
  rw [wr_ok _ (by omega), ok_bind, wr_ok _ (by simp; omega), ok_bind, wr_ok _ (by simp; omega)]
  refine ⟨_, rfl, by simp [h1], ?_⟩
  intro i hi
  unfold Spec.Params.len at hi
  rw [wotsDigits_eq _ _ hn, ← hs]
  rw [← hs] at hc
  have m15 : ∀ v, v &&& 15 = v % 16 := fun v => Nat.and_two_pow_sub_one_eq_mod v 4
  rw [getD_set _ _ _ _ (by simp; omega), getD_set _ _ _ _ (by simp; omega), getD_set _ _ _ _ (by omega)]
  by_cases c1 : i = 2 * P.n + 2
  · subst c1
    rw [if_pos rfl, List.getD_append_right _ _ _ _ (by rw [length_base2b]; omega), length_base2b, m15,
      UInt8.toNat_ofNat']
    simp; omega
  · rw [if_neg c1]
    by_cases c2 : i = 2 * P.n + 1
    · subst c2
      rw [if_pos rfl, List.getD_append_right _ _ _ _ (by rw [length_base2b]; omega), length_base2b, m15,
        UInt8.toNat_ofNat', Nat.shiftRight_eq_div_pow]
      simp; omega
    · rw [if_neg c2]
      by_cases c3 : i = 2 * P.n
      · subst c3
        rw [if_pos rfl, List.getD_append_right _ _ _ _ (by rw [length_base2b]), length_base2b, m15,
          UInt8.toNat_ofNat', Nat.shiftRight_eq_div_pow]
        simp; omega
      · rw [if_neg c3, List.getD_append _ _ _ _ (by rw [length_base2b]; omega)]
        exact h3 i (by omega)

end Model
