import Verif.Proof.KeccakBytes
/-!
# fips202.c implements SHAKE256, incrementally
-/
namespace Model.Shake
open Spec.Keccak

theorem uint8_ext {a b : UInt8} (h : ∀ j, j < 8 → a.toNat.testBit j = b.toNat.testBit j) : a = b := by
  apply UInt8.toNat_inj.1
  apply Nat.eq_of_testBit_eq
  intro j
  by_cases hj : j < 8
  · exact h j hj
  · have ha : a.toNat < 2 ^ j := Nat.lt_of_lt_of_le a.toNat_lt (Nat.pow_le_pow_right (by omega) (by omega))
    have hb : b.toNat < 2 ^ j := Nat.lt_of_lt_of_le b.toNat_lt (Nat.pow_le_pow_right (by omega) (by omega))
    rw [Nat.testBit_lt_two_pow ha, Nat.testBit_lt_two_pow hb]

theorem shl_bit (b : UInt8) (k q j : Nat) (hk : k < 8) (hq : q < 8) (hj : j < 8) :
    (UInt64.ofNat b.toNat <<< UInt64.ofNat (8 * k)).toBitVec.getLsbD (8 * q + j) =
      if q = k then b.toNat.testBit j else false := by
  rw [UInt64.toBitVec_shiftLeft, BitVec.shiftLeft_eq', shAmt _ (by omega), BitVec.getLsbD_shiftLeft,
    UInt64.toBitVec_ofNat', BitVec.getLsbD_ofNat]
  by_cases h : q = k
  · subst h
    rw [show 8 * q + j - 8 * q = j by omega]
    have h1 : 8 * q + j < 64 := by omega
    have h2 : j < 64 := by omega
    simp [h1, h2]
  · rw [if_neg h]
    by_cases h2 : q < k
    · have : 8 * q + j < 8 * k := by omega
      simp [this]
    · have h3 : 8 ≤ 8 * q + j - 8 * k := by omega
      have : b.toNat < 2 ^ (8 * q + j - 8 * k) :=
        Nat.lt_of_lt_of_le b.toNat_lt (Nat.pow_le_pow_right (by omega) h3)
      rw [Nat.testBit_lt_two_pow this]; simp

theorem and7 (p : Nat) : p &&& 7 = p % 8 := by
  rw [show (7 : Nat) = 2 ^ 3 - 1 from rfl, Nat.and_two_pow_sub_one_eq_mod]

theorem shr3 (p : Nat) : p >>> 3 = p / 8 := by rw [Nat.shiftRight_eq_div_pow]

/-- Xoring a byte into the state words xors it into the byte view. -/
theorem xorByte_ok (s : Ctx) (pos : Nat) (b : UInt8) (h : s.length = 26) (hp : pos < 200) :
    ∃ s', xorByte s pos b = .ok s' ∧ s'.length = 26 ∧ s'.getD 25 0 = s.getD 25 0 ∧
      stBytes s' = (stBytes s).set pos ((stBytes s).getD pos 0 ^^^ b) := by
  unfold xorByte
  rw [and7, shr3, rd_getD 0 (by omega), ok_bind, wr_ok _ (by omega)]
  refine ⟨_, rfl, by simp [h], ?_, ?_⟩
  · simp only [List.getD_eq_getElem?_getD]
    rw [List.getElem?_set_ne (by omega)]
  · apply list_ext_getD 0
    · simp [length_stBytes]
    · intro p hp2
      rw [length_stBytes] at hp2
      rw [stBytes_getD _ _ hp2, stBytes_getD _ _ hp]
      rw [getD_of_lt (List.set _ _ _) (by rw [List.length_set, length_stBytes]; exact hp2), List.getElem_set, ← getD_of_lt (d := 0), stBytes_getD _ _ hp2]
      apply uint8_ext
      intro j hj
      by_cases hw : p / 8 = pos / 8
      · have hg : (s.set (pos / 8) (s.getD (pos / 8) 0 ^^^ UInt64.ofNat b.toNat <<< UInt64.ofNat (8 * (pos % 8)))).getD (p / 8) 0
          = s.getD (pos / 8) 0 ^^^ UInt64.ofNat b.toNat <<< UInt64.ofNat (8 * (pos % 8)) := by
          rw [hw, getD_of_lt _ (by rw [List.length_set]; omega), List.getElem_set_self]
        rw [byteAt_bit _ _ _ hj, hg, UInt64.toBitVec_xor, BitVec.getLsbD_xor,
          shl_bit _ _ _ _ (by omega) (by omega) hj]
        by_cases he : pos = p
        · subst he
          rw [if_pos rfl, if_pos rfl, UInt8.toNat_xor, Nat.testBit_xor, byteAt_bit _ _ _ hj]
        · rw [if_neg (by omega), if_neg he, byteAt_bit _ _ _ hj, hw]; simp
      · rw [if_neg (by rintro rfl; exact hw rfl), byteAt_bit _ _ _ hj, byteAt_bit _ _ _ hj]
        congr 2
        simp only [List.getD_eq_getElem?_getD]
        rw [List.getElem?_set_ne (by omega)]

theorem getByte_ok (s : Ctx) (pos : Nat) (h : s.length = 26) (hp : pos < 200) :
    getByte s pos = .ok ((stBytes s).getD pos 0) := by
  unfold getByte
  rw [and7, shr3, rd_getD 0 (by omega), ok_bind, stBytes_getD _ _ hp]; rfl

theorem xorB_getD (X p : Bytes) (hX : X.length = 200) (hp : p.length ≤ 200) (i : Nat) (hi : i < 200) :
    (xorB X p).getD i 0 = X.getD i 0 ^^^ p.getD i 0 := by
  rw [getD_of_lt _ (by rw [length_xorB _ _ hX hp]; exact hi)]
  simp only [xorB, List.getElem_zipWith]
  rw [getD_of_lt X (by omega)]
  congr 1
  by_cases h : i < p.length
  · rw [List.getElem_append_left h, getD_of_lt _ h]
  · rw [List.getElem_append_right (by omega)]
    simp [List.getElem?_eq_none (show p.length ≤ i by omega)]

theorem xorB_snoc (X p : Bytes) (b : UInt8) (hX : X.length = 200) (hp : p.length < 200) :
    xorB X (p ++ [b]) = (xorB X p).set p.length ((xorB X p).getD p.length 0 ^^^ b) := by
  have hl : (p ++ [b]).length ≤ 200 := by simp; omega
  apply list_ext_getD 0
  · rw [List.length_set, length_xorB _ _ hX hl, length_xorB _ _ hX (by omega)]
  · intro i hi
    rw [length_xorB _ _ hX hl] at hi
    rw [xorB_getD _ _ hX hl _ hi, getD_of_lt (List.set _ _ _) (by rw [List.length_set, length_xorB _ _ hX (by omega)]; exact hi),
      List.getElem_set, ← getD_of_lt (d := 0), xorB_getD _ _ hX (by omega) _ hi, xorB_getD _ _ hX (by omega) _ hp]
    by_cases h : p.length = i
    · subst h; rw [if_pos rfl]; simp
    · rw [if_neg h]
      congr 1
      simp only [List.getD_eq_getElem?_getD]
      by_cases h2 : i < p.length
      · rw [List.getElem?_append_left h2]
      · rw [List.getElem?_eq_none (by simp; omega), List.getElem?_eq_none (by omega)]

theorem xorB_nil (X : Bytes) (hX : X.length = 200) : xorB X [] = X := by
  apply list_ext_getD 0
  · rw [length_xorB _ _ hX (by simp), hX]
  · intro i hi
    rw [length_xorB _ _ hX (by simp)] at hi
    rw [xorB_getD _ _ hX (by simp) _ hi]; simp

theorem xorB_zeros (X p : Bytes) (k : Nat) (hX : X.length = 200) (hp : p.length + k ≤ 200) :
    xorB X (p ++ List.replicate k 0) = xorB X p := by
  have hl : (p ++ List.replicate k (0 : UInt8)).length ≤ 200 := by simp; omega
  apply list_ext_getD 0
  · rw [length_xorB _ _ hX hl, length_xorB _ _ hX (by omega)]
  · intro i hi
    rw [length_xorB _ _ hX hl] at hi
    rw [xorB_getD _ _ hX hl _ hi, xorB_getD _ _ hX (by omega) _ hi]
    congr 1
    simp only [List.getD_eq_getElem?_getD]
    by_cases h2 : i < p.length
    · rw [List.getElem?_append_left h2]
    · rw [List.getElem?_append_right (by omega), List.getElem?_eq_none (show p.length ≤ i by omega),
        List.getElem?_replicate]
      split <;> rfl

/-- The xor loop of the absorbing phase. -/
theorem xorLoop_ok (X p m : Bytes) (n c : Nat) (s : Ctx) (hX : X.length = 200) (hs : s.length = 26)
    (hc : p.length = c) (hb : stBytes s = xorB X p) (hn : n ≤ m.length) (hcn : c + n ≤ 136) :
    ∃ s', loop (fun i s => do
        let b ← rd m i
        xorByte s ((c + i) % 2 ^ 64) b) n 0 s = .ok s' ∧ s'.length = 26 ∧ s'.getD 25 0 = s.getD 25 0 ∧
      stBytes s' = xorB X (p ++ m.take n) := by
  obtain ⟨s', e, h1, h2, h3⟩ := loop_inv (body := fun i s => do
        let b ← rd m i
        xorByte s ((c + i) % 2 ^ 64) b)
    (fun i s' => s'.length = 26 ∧ s'.getD 25 0 = s.getD 25 0 ∧ stBytes s' = xorB X (p ++ m.take i)) n 0 s
    ⟨hs, rfl, by simpa using hb⟩
    (by
      rintro i t _ hi ⟨h1, h2, h3⟩
      rw [Nat.zero_add] at hi
      obtain ⟨t', e, h1', h2', h3'⟩ := xorByte_ok t (c + i) m[i] h1 (by omega)
      refine ⟨t', ?_, h1', by rw [h2', h2], ?_⟩
      · rw [rd_ok (by omega), ok_bind, Nat.mod_eq_of_lt (by omega)]; exact e
      · have hl : (p ++ m.take i).length = c + i := by simp; omega
        rw [h3', h3, ← List.take_append_getElem (show i < m.length by omega), ← List.append_assoc,
          xorB_snoc _ _ _ hX (by omega), hl])
  rw [Nat.zero_add] at h3
  exact ⟨s', e, h1, h2, h3⟩

/-- `s` has absorbed `M`. -/
structure AbsK (s : Ctx) (M : Bytes) : Prop where
  len : s.length = 26
  pos : (s.getD 25 0).toNat = M.length % 136
  bytes : stBytes s = xorB (chainK M) (M.drop (136 * (M.length / 136)))

theorem chainK_lt (M q : Bytes) (h : M.length % 136 + q.length < 136) : chainK (M ++ q) = chainK M := by
  rw [chainK, blocks_append_lt _ _ _ h, chainK]

theorem chainK_eq (M q : Bytes) (h : M.length % 136 + q.length = 136) :
    chainK (M ++ q) = F (xorB (chainK M) (M.drop (136 * (M.length / 136)) ++ q)) := by
  rw [chainK, blocks_append_eq _ (by omega) _ _ h, List.foldl_append]; rfl

theorem inc_init_ok (s : Ctx) (hs : s.length = 26) : ∃ s', inc_init s = .ok s' ∧ AbsK s' [] := by
  unfold inc_init
  rw [loop_eq' (fun i => List.replicate i 0 ++ s.drop i) 25 s (by simp)]
  · rw [ok_bind, wr_ok _ (by simp; omega)]
    obtain ⟨A, t, rfl⟩ := lanes_of s hs
    have e : (List.replicate 25 (0 : UInt64) ++ (A.toList ++ [t]).drop 25).set 25 0 = List.replicate 26 0 := rfl
    rw [e]
    refine ⟨_, rfl, rfl, rfl, ?_⟩
    decide +kernel
  · intro i hi
    rw [wr_ok _ (by simp; omega)]
    congr 1
    rw [List.set_append_right _ _ (by simp), List.drop_eq_getElem_cons (show i < s.length by omega),
      List.length_replicate, Nat.sub_self, List.set_cons_zero, List.replicate_succ']
    simp

theorem absorbLoop_ok (opt fuel : Nat) (s : Ctx) (M m : Bytes) (hf : m.length < fuel)
    (hm : m.length < 2 ^ 63) (inv : AbsK s M) :
    ∃ s', absorbLoop opt fuel s m = .ok s' ∧ AbsK s' (M ++ m) := by
  induction fuel generalizing s M m with
  | zero => omega
  | succ fuel ih =>
    obtain ⟨hl, hpos, hb⟩ := inv
    have hmod := Nat.mod_lt M.length (show 136 > 0 by omega)
    have hdm := Nat.div_add_mod M.length 136
    have hpl : (M.drop (136 * (M.length / 136))).length = M.length % 136 := by simp; omega
    simp only [absorbLoop]
    rw [rd_getD 0 (by omega), ok_bind, hpos, Nat.mod_eq_of_lt (show m.length + M.length % 136 < 2 ^ 64 by omega)]
    by_cases hfull : m.length + M.length % 136 ≥ 136
    · rw [if_pos hfull]
      have hus : usub64 136 (M.length % 136) = 136 - M.length % 136 := by simp only [usub64]; omega
      rw [hus]
      obtain ⟨s1, e1, h1, h2, h3⟩ := xorLoop_ok (chainK M) _ m (136 - M.length % 136) _ s
        (length_chainK M) hl hpl hb (by omega) (by omega)
      rw [e1, ok_bind, wr_ok _ (by omega), ok_bind]
      have hst : stBytes (s1.set 25 0) = stBytes s1 := by
        apply List.map_congr_left
        intro p hp
        have hp : p < 200 := by simpa using hp
        simp only [byteAt, List.getD_eq_getElem?_getD]
        rw [List.getElem?_set_ne (by omega)]
      obtain ⟨s2, e2, g1, g2, g3⟩ := permute_bytes opt (s1.set 25 0) (by simp [h1])
      rw [e2, ok_bind]
      have hlt : (m.take (136 - M.length % 136)).length = 136 - M.length % 136 := by simp; omega
      obtain ⟨s3, e3, inv3⟩ := ih s2 (M ++ m.take (136 - M.length % 136)) (m.drop (136 - M.length % 136))
        (by simp; omega) (by simp; omega)
        ⟨g1, by
          rw [g2, getD_of_lt _ (by simp; omega), List.getElem_set_self, List.length_append, hlt]
          rw [show (M.length + (136 - M.length % 136)) % 136 = 0 by omega]; rfl,
         by
          have hnil : (M ++ m.take (136 - M.length % 136)).drop
              (136 * ((M ++ m.take (136 - M.length % 136)).length / 136)) = [] :=
            List.drop_of_length_le (by rw [List.length_append, hlt]; omega)
          rw [hnil, g3, hst, h3, xorB_nil _ (length_chainK _), chainK_eq _ _ (by omega)]⟩
      refine ⟨s3, e3, ?_⟩
      rwa [List.append_assoc, List.take_append_drop] at inv3
    · rw [if_neg hfull]
      obtain ⟨s1, e1, h1, h2, h3⟩ := xorLoop_ok (chainK M) _ m m.length _ s
        (length_chainK M) hl hpl hb (by omega) (by omega)
      rw [e1, ok_bind, wr_ok _ (by omega)]
      have hst : ∀ v, stBytes (s1.set 25 v) = stBytes s1 := by
        intro v
        apply List.map_congr_left
        intro p hp
        have hp : p < 200 := by simpa using hp
        simp only [byteAt, List.getD_eq_getElem?_getD]
        rw [List.getElem?_set_ne (by omega)]
      refine ⟨_, rfl, by simp [h1], ?_, ?_⟩
      · rw [getD_of_lt _ (by simp; omega), List.getElem_set_self, UInt64.toNat_ofNat', List.length_append]
        omega
      · have e1 : (M ++ m).length / 136 = M.length / 136 := by simp; omega
        rw [hst, h3, chainK_lt _ _ (by omega), e1, List.take_of_length_le (Nat.le_refl _),
          List.drop_append_of_le_length (by omega)]

/-- Absorbing appends, whatever the chunk. -/
theorem inc_absorb_any (opt : Nat) (s : Ctx) (M m : Bytes) (hm : m.length < 2 ^ 63) (inv : AbsK s M) :
    ∃ s', inc_absorb opt s m = .ok s' ∧ AbsK s' (M ++ m) :=
  absorbLoop_ok opt _ s M m (by omega) hm inv

theorem inc_absorb_ok (opt : Nat) (s : Ctx) (M m : Bytes) (hm : M.length + m.length < 2 ^ 63) (inv : AbsK s M) :
    ∃ s', inc_absorb opt s m = .ok s' ∧ AbsK s' (M ++ m) := inc_absorb_any opt s M m (by omega) inv

theorem stBytes_set25 (s : Ctx) (v : UInt64) : stBytes (s.set 25 v) = stBytes s := by
  apply List.map_congr_left
  intro p hp
  have hp : p < 200 := by simpa using hp
  simp only [byteAt, List.getD_eq_getElem?_getD]
  rw [List.getElem?_set_ne (by omega)]

/-- `s` is in the squeezing phase for the absorbed message `M`, `k` bytes having been output. -/
structure SqK (s : Ctx) (M : Bytes) (k : Nat) : Prop where
  len : s.length = 26
  pos : (s.getD 25 0).toNat = (136 - k % 136) % 136
  bytes : ∃ X, F X = chainK (padK M) ∧ stBytes s = F^[(k + 135) / 136] X

theorem inc_finalize_ok (s : Ctx) (M : Bytes) (inv : AbsK s M) :
    ∃ s', inc_finalize s = .ok s' ∧ SqK s' M 0 := by
  obtain ⟨hl, hpos, hb⟩ := inv
  have hmod := Nat.mod_lt M.length (show 136 > 0 by omega)
  have hdm := Nat.div_add_mod M.length 136
  have hpl : (M.drop (136 * (M.length / 136))).length = M.length % 136 := by simp; omega
  have hX := length_chainK M
  unfold inc_finalize
  rw [rd_getD 0 (by omega), ok_bind, hpos]
  obtain ⟨s1, e1, h1, -, h3⟩ := xorByte_ok s (M.length % 136) 0x1F hl (by omega)
  rw [e1, ok_bind]
  obtain ⟨s2, e2, g1, -, g3⟩ := xorByte_ok s1 (RATE - 1) 128 h1 (by simp [RATE])
  rw [e2, ok_bind, wr_ok _ (by omega)]
  refine ⟨_, rfl, by simp [g1], ?_, ?_⟩
  · rw [getD_of_lt _ (by simp; omega), List.getElem_set_self]; rfl
  · refine ⟨stBytes s2, ?_, by rw [stBytes_set25]; rfl⟩
    rw [hb] at h3
    generalize hp : M.drop (136 * (M.length / 136)) = p at *
    rw [← hpl, ← xorB_snoc _ _ _ hX (by omega)] at h3
    simp only [RATE, Nat.add_one_sub_one, Nat.reduceSub] at g3
    by_cases hc : M.length % 136 = 135
    · have key : stBytes s2 = xorB (chainK M) (p ++ [0x9F]) := by
        rw [g3, h3, xorB_snoc _ _ _ hX (by omega), xorB_snoc _ _ _ hX (by omega), hpl, hc]
        rw [List.set_set, getD_of_lt (List.set _ _ _) (by rw [List.length_set, length_xorB _ _ hX (by omega)]; omega),
          List.getElem_set_self, UInt8.xor_assoc]
        rfl
      rw [key, padK, if_pos hc, chainK_eq _ _ (by simp; omega), hp]
    · have key : stBytes s2 = xorB (chainK M) (p ++ ([0x1F] ++ List.replicate (134 - M.length % 136) 0 ++ [0x80])) := by
        have hlen : (p ++ [0x1F] ++ List.replicate (134 - M.length % 136) (0 : UInt8)).length = 135 := by
          simp only [List.length_append, List.length_cons, List.length_nil, List.length_replicate]; omega
        rw [← List.append_assoc, ← List.append_assoc, xorB_snoc _ _ _ hX (by omega), hlen,
          xorB_zeros _ _ _ hX (by simp only [List.length_append, List.length_cons, List.length_nil]; omega),
          g3, h3]
      rw [key, padK, if_neg hc, chainK_eq _ _ (by simp; omega), hp]

/-- A loop that fills consecutive cells. -/
theorem loop_write (f : Nat → UInt8) (g : Nat → C UInt8) (h : Bytes) (off n : Nat) (hh : off + n ≤ h.length)
    (hg : ∀ i, i < n → g i = .ok (f i)) :
    loop (fun i h => do
      let b ← g i
      wr h (off + i) b) n 0 h = .ok (h.take off ++ (List.range n).map f ++ h.drop (off + n)) := by
  refine loop_eq' (fun i => h.take off ++ (List.range i).map f ++ h.drop (off + i)) n h (by simp) ?_
  intro i hi
  have hl : (h.take off ++ (List.range i).map f).length = off + i := by simp; omega
  rw [hg i hi, ok_bind, wr_ok _ (by rw [List.length_append, hl, List.length_drop]; omega)]
  congr 1
  rw [List.set_append_right _ _ (by omega), hl, Nat.sub_self, List.drop_eq_getElem_cons (by omega),
    List.set_cons_zero, List.range_succ]
  simp [Nat.add_assoc]

theorem squeezeLoop_ok (opt fuel : Nat) (h : Bytes) (off n k : Nat) (s : Ctx) (M : Bytes) (hf : n < fuel)
    (hh : off + n ≤ h.length) (hk : n = 0 ∨ k % 136 = 0) (inv : SqK s M k) :
    ∃ s', squeezeLoop opt fuel h off n s =
        .ok (h.take off ++ (List.range n).map (fun i => stream (chainK (padK M)) (k + i)) ++ h.drop (off + n), s') ∧
      SqK s' M (k + n) := by
  induction fuel generalizing h off n k s with
  | zero => omega
  | succ fuel ih =>
    simp only [squeezeLoop]
    by_cases hn : n > 0
    · rw [if_pos hn]
      have hk : k % 136 = 0 := by omega
      obtain ⟨hl, hpos, X, hX, hb⟩ := inv
      obtain ⟨s1, e1, h1, h2, h3⟩ := permute_bytes opt s hl
      rw [e1, ok_bind]
      simp only [RATE]
      have hbytes : stBytes s1 = F^[k / 136] (chainK (padK M)) := by
        rw [h3, hb, ← hX, show (k + 135) / 136 = k / 136 by omega, ← Function.iterate_succ_apply' F,
          Function.iterate_succ_apply]
      have e2 := loop_write (fun i => stream (chainK (padK M)) (k + i)) (fun i => getByte s1 i) h off
        (min n 136) (by omega) (by
          intro i hi
          rw [getByte_ok _ _ h1 (by omega), hbytes, stream, show (k + i) / 136 = k / 136 by omega,
            show (k + i) % 136 = i by omega])
      rw [e2, ok_bind, wr_ok _ (by omega), ok_bind]
      obtain ⟨s2, e3, inv3⟩ := ih
        (h.take off ++ (List.range (min n 136)).map (fun i => stream (chainK (padK M)) (k + i)) ++ h.drop (off + min n 136))
        (off + min n 136) (n - min n 136) (k + min n 136) (s1.set 25 (UInt64.ofNat (136 - min n 136)))
        (by omega) (by simp; omega) (by omega)
        ⟨by simp [h1], by
          rw [getD_of_lt _ (by simp; omega), List.getElem_set_self, UInt64.toNat_ofNat']
          omega,
         X, hX, by
          rw [stBytes_set25, h3, hb, ← Function.iterate_succ_apply' F]
          rw [show (k + min n 136 + 135) / 136 = ((k + 135) / 136).succ by omega]⟩
      refine ⟨s2, ?_, ?_⟩
      · rw [e3]
        congr 2
        have hl : (h.take off ++ (List.range (min n 136)).map (fun i => stream (chainK (padK M)) (k + i))).length =
          off + min n 136 := by simp; omega
        rw [List.take_left' hl, show (off + min n 136 + (n - min n 136)) = off + n by omega]
        have hr : n = min n 136 + (n - min n 136) := by omega
        conv => rhs; rw [hr, List.range_add, List.map_append]
        rw [List.map_map, ← hr, List.drop_append, hl, List.drop_of_length_le (by omega), List.drop_drop]
        simp only [List.append_assoc, List.nil_append, Function.comp_def, Nat.add_assoc]
        congr 5; omega
      · rwa [show k + min n 136 + (n - min n 136) = k + n by omega] at inv3
    · rw [if_neg hn]
      have : n = 0 := by omega
      subst this
      exact ⟨s, by simp, inv⟩

/-- Squeezing outputs the next bytes of the stream. -/
theorem inc_squeeze_ok (opt : Nat) (h : Bytes) (off n k : Nat) (s : Ctx) (M : Bytes)
    (hh : off + n ≤ h.length) (inv : SqK s M k) :
    ∃ s', inc_squeeze opt h off n s =
        .ok (h.take off ++ ((shake256 M (k + n)).drop k) ++ h.drop (off + n), s') ∧
      SqK s' M (k + n) := by
  have hspec : (shake256 M (k + n)).drop k = (List.range n).map (fun i => stream (chainK (padK M)) (k + i)) := by
    rw [shake256_bytes, List.range_add, List.map_append, List.drop_left' (by simp), List.map_map]; rfl
  rw [hspec]
  have inv0 := inv
  obtain ⟨hl, hpos, X, hX, hb⟩ := inv
  unfold inc_squeeze
  rw [rd_getD 0 (by omega), ok_bind, hpos]
  simp only []
  have e2 := loop_write (fun i => stream (chainK (padK M)) (k + i))
    (fun i => getByte s ((usub64 RATE ((136 - k % 136) % 136) + i) % 2 ^ 64)) h off
    (min n ((136 - k % 136) % 136)) (by omega) (by
      intro i hi
      have : k % 136 ≠ 0 := by intro h0; rw [h0] at hi; simp at hi
      have hp : (usub64 RATE ((136 - k % 136) % 136) + i) % 2 ^ 64 = k % 136 + i := by
        simp only [usub64, RATE]; omega
      rw [hp, getByte_ok _ _ hl (by omega), hb, show (k + 135) / 136 = k / 136 + 1 by omega,
        Function.iterate_succ_apply, hX, stream, show (k + i) / 136 = k / 136 by omega,
        show (k + i) % 136 = k % 136 + i by omega])
  rw [e2, ok_bind, wr_ok _ (by omega), ok_bind]
  generalize hcnt : min n ((136 - k % 136) % 136) = cnt at *
  have inv1 : SqK (s.set 25 (UInt64.ofNat ((136 - k % 136) % 136 - cnt))) M (k + cnt) :=
    ⟨by simp [hl], by
      rw [getD_of_lt _ (by simp; omega), List.getElem_set_self, UInt64.toNat_ofNat']
      omega, X, hX, by
      rw [stBytes_set25, hb, show (k + cnt + 135) / 136 = (k + 135) / 136 by omega]⟩
  obtain ⟨s2, e3, inv3⟩ := squeezeLoop_ok opt (n + 1)
    (h.take off ++ (List.range cnt).map (fun i => stream (chainK (padK M)) (k + i)) ++ h.drop (off + cnt))
    (off + cnt) (n - cnt) (k + cnt) _ M (by omega) (by simp; omega) (by omega) inv1
  refine ⟨s2, ?_, ?_⟩
  · rw [e3]
    congr 2
    have hl : (h.take off ++ (List.range cnt).map (fun i => stream (chainK (padK M)) (k + i))).length =
      off + cnt := by simp; omega
    rw [List.take_left' hl, show (off + cnt + (n - cnt)) = off + n by omega]
    have hr : n = cnt + (n - cnt) := by omega
    conv => rhs; rw [hr, List.range_add, List.map_append]
    rw [List.map_map, ← hr, List.drop_append, hl, List.drop_of_length_le (by omega), List.drop_drop]
    simp only [List.append_assoc, List.nil_append, Function.comp_def, Nat.add_assoc]
    congr 5; omega
  · rwa [show k + cnt + (n - cnt) = k + n by omega] at inv3

theorem length_shake256 (M : Bytes) (n : Nat) : (shake256 M n).length = n := by
  rw [shake256_bytes]; simp

end Model.Shake
