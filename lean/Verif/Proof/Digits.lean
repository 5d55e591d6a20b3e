import Verif.Proof.Arch
import Verif.Proof.Adr
import Mathlib.Data.List.GetD
/-!
# Decoding the message digest and the WOTS+ digits
-/
namespace Model
open Spec (Adrs toByte toInt bitsMSB bitsToNat base2b)

/-! ## Bits -/

theorem length_bitsMSB (b : UInt8) : (bitsMSB b).length = 8 := rfl

theorem length_bits (M : Bytes) : (M.flatMap bitsMSB).length = 8 * M.length := by
  induction M with
  | nil => rfl
  | cons a M ih => rw [List.flatMap_cons, List.length_append, ih, length_bitsMSB, List.length_cons]; omega

theorem bitsMSB_getD (b : UInt8) (i : Nat) (h : i < 8) : (bitsMSB b).getD i false = b.toNat.testBit (7 - i) := by
  have : i = 0 ∨ i = 1 ∨ i = 2 ∨ i = 3 ∨ i = 4 ∨ i = 5 ∨ i = 6 ∨ i = 7 := by omega
  rcases this with rfl | rfl | rfl | rfl | rfl | rfl | rfl | rfl <;> rfl

theorem bits_getD (M : Bytes) (p : Nat) (h : p < 8 * M.length) :
    (M.flatMap bitsMSB).getD p false = (M.getD (p / 8) 0).toNat.testBit (7 - p % 8) := by
  induction M generalizing p with
  | nil => simp at h
  | cons a M ih =>
    rw [List.flatMap_cons]
    by_cases hp : p < 8
    · rw [List.getD_append _ _ _ _ (by rw [length_bitsMSB]; exact hp), bitsMSB_getD _ _ hp,
        Nat.div_eq_of_lt hp, Nat.mod_eq_of_lt hp]
      rfl
    · rw [List.getD_append_right _ _ _ _ (by rw [length_bitsMSB]; omega), length_bitsMSB,
        ih (p - 8) (by simp at h; omega)]
      have h1 : p / 8 = (p - 8) / 8 + 1 := by omega
      have h2 : p % 8 = (p - 8) % 8 := by omega
      rw [h1, h2, List.getD_cons_succ]

theorem bitsToNat_append (l : List Bool) (b : Bool) : bitsToNat (l ++ [b]) = 2 * bitsToNat l + b.toNat := by
  simp [bitsToNat]

theorem bitsToNat_lt (l : List Bool) : bitsToNat l < 2 ^ l.length := by
  induction l using List.reverseRecOn with
  | nil => simp [bitsToNat]
  | append_singleton a b ih =>
    rw [bitsToNat_append]
    have : b.toNat ≤ 1 := by cases b <;> simp
    simp [Nat.pow_succ]; omega

theorem take_drop_succ (l : List Bool) (p i : Nat) (h : p + i < l.length) :
    (l.drop p).take (i + 1) = (l.drop p).take i ++ [l.getD (p + i) false] := by
  rw [List.take_add_one]
  simp [h]

/-! ## The bit cursor -/

/-- The cursor has consumed `p` bits of `orig`. -/
structure CurInv (orig : Bytes) (p : Nat) (cur : Cursor) : Prop where
  len : cur.1.length = orig.length
  pos : 8 * cur.2.1 + cur.2.2 = p
  le : cur.2.2 ≤ 8
  start : p = 0 ∨ 1 ≤ cur.2.2
  later : ∀ j, cur.2.1 < j → cur.1.getD j 0 = orig.getD j 0
  now : cur.2.2 < 8 → cur.1.getD cur.2.1 0 = orig.getD cur.2.1 0 <<< UInt8.ofNat cur.2.2

theorem shl_bit (b : UInt8) (s : Nat) (hs : s < 8) :
    ((b <<< UInt8.ofNat s).toNat >>> 7) &&& 1 = (b.toNat.testBit (7 - s)).toNat := by
  have : ∀ s : Fin 8, ∀ v : Fin 256, (((UInt8.ofNat v.val) <<< UInt8.ofNat s.val).toNat >>> 7) &&& 1 =
      ((UInt8.ofNat v.val).toNat.testBit (7 - s.val)).toNat := by decide +kernel
  have h := this ⟨s, hs⟩ ⟨b.toNat, b.toNat_lt⟩
  simpa using h

theorem shl_shl (b : UInt8) (s : Nat) (hs : s < 7) :
    (b <<< UInt8.ofNat s) <<< 1 = b <<< UInt8.ofNat (s + 1) := by
  have : ∀ s : Fin 7, ∀ v : Fin 256, ((UInt8.ofNat v.val) <<< UInt8.ofNat s.val) <<< 1 =
      (UInt8.ofNat v.val) <<< UInt8.ofNat (s.val + 1) := by decide +kernel
  have h := this ⟨s, hs⟩ ⟨b.toNat, b.toNat_lt⟩
  simpa using h

theorem nextBit_ok (orig : Bytes) (p v : Nat) (cur : Cursor) (h : CurInv orig p cur) (hp : p < 8 * orig.length) :
    ∃ cur', nextBit (cur, v) =
      .ok (cur', (2 * v + ((orig.flatMap bitsMSB).getD p false).toNat) % 2 ^ 32) ∧ CurInv orig (p + 1) cur' := by
  obtain ⟨mh, o, s⟩ := cur
  obtain ⟨len, pos, le, start, later, now⟩ := h
  simp only at len pos le start later now
  rw [bits_getD _ _ hp]
  -- after the carry
  have key : ∀ o s : Nat, 8 * o + s = p → s < 8 → (∀ j, o < j → mh.getD j 0 = orig.getD j 0) →
      mh.getD o 0 = orig.getD o 0 <<< UInt8.ofNat s →
      ∃ cur', (do
        let bit ← rd mh o
        let message_hash ← wr mh o (bit <<< 1)
        let bit := bit.toNat >>> 7
        .ok ((message_hash, o, s + 1), (2 * v + (bit &&& 1)) % 2 ^ 32) : C (Cursor × Nat)) =
        .ok (cur', (2 * v + ((orig.getD (p / 8) 0).toNat.testBit (7 - p % 8)).toNat) % 2 ^ 32) ∧
        CurInv orig (p + 1) cur' := by
    intro o s pos hs later now
    have ho : o < mh.length := by omega
    have e1 : p / 8 = o := by omega
    have e2 : p % 8 = s := by omega
    refine ⟨(mh.set o (orig.getD o 0 <<< UInt8.ofNat s <<< 1), o, s + 1), ?_, ?_⟩
    · rw [rd_getD 0 ho, ok_bind, now, wr_ok _ ho, ok_bind, e1, e2, ← shl_bit _ s hs]
    · refine ⟨by simp [len], by simp only; omega, by simp only; omega, Or.inr (by simp only; omega), ?_, ?_⟩
      · intro j hj
        simp only at hj ⊢
        rw [← later j hj, List.getD_eq_getElem?_getD, List.getElem?_set_ne (by omega), ← List.getD_eq_getElem?_getD]
      · intro hs'
        simp only at hs' ⊢
        rw [shl_shl _ s (by omega), List.getD_eq_getElem?_getD, List.getElem?_set_self ho]
        rfl
  unfold nextBit
  by_cases h8 : s = 8
  · simp only [h8, if_pos]
    have := key (o + 1) 0 (by omega) (by omega) (fun j hj => later j (by omega)) (by
      rw [later (o + 1) (by omega)]
      simp)
    exact this
  · simp only [h8, if_neg, not_false_eq_true]
    exact key o s pos (by omega) later (now (by omega))

/-- Reading one index. -/
theorem readIndex_ok (orig : Bytes) (p t : Nat) (cur : Cursor) (h : CurInv orig p cur)
    (hp : p + t ≤ 8 * orig.length) (ht : t ≤ 16) :
    ∃ cur', loop (fun _ s => nextBit s) t 0 (cur, 0) =
      .ok (cur', bitsToNat (((orig.flatMap bitsMSB).drop p).take t)) ∧ CurInv orig (p + t) cur' := by
  obtain ⟨⟨c, v⟩, e, h1, h2⟩ := loop_inv (body := fun _ s => nextBit s)
    (fun i s => CurInv orig (p + i) s.1 ∧ s.2 = bitsToNat (((orig.flatMap bitsMSB).drop p).take i)) t 0 (cur, 0)
    ⟨h, by simp [bitsToNat]⟩
    (by
      rintro i ⟨c, v⟩ _ hi ⟨h1, h2⟩
      simp only at h1 h2
      obtain ⟨c', e, h'⟩ := nextBit_ok orig (p + i) v c h1 (by omega)
      refine ⟨_, e, h', ?_⟩
      simp only
      rw [take_drop_succ _ _ _ (by rw [length_bits]; omega), bitsToNat_append, ← h2]
      apply Nat.mod_eq_of_lt
      have hlt := bitsToNat_lt (((orig.flatMap bitsMSB).drop p).take i)
      rw [← h2] at hlt
      have hle : (((orig.flatMap bitsMSB).drop p).take i).length ≤ 15 := by simp; omega
      have := Nat.pow_le_pow_right (show 0 < 2 by omega) hle
      have : ((orig.flatMap bitsMSB).getD (p + i) false).toNat ≤ 1 := by
        cases (orig.flatMap bitsMSB).getD (p + i) false <;> simp
      omega)
  simp only [Nat.zero_add] at h1 h2
  exact ⟨c, by rw [e, h2], h1⟩

/-! ## FORS indices in the union -/

/-- The two bytes of entry `k` hold `v`. -/
def NodeAt (a : Arch) (x : Bytes) (k v : Nat) : Prop :=
  x.getD (2 * k) 0 = (a.bytes 2 v).getD 0 0 ∧ x.getD (2 * k + 1) 0 = (a.bytes 2 v).getD 1 0

theorem NodeAt.get {E : Env} {x : Bytes} {k v : Nat} (h : NodeAt E.cfg.arch x k v) (hk : k < MAX_FORS) (hx : 2 * MAX_FORS ≤ x.length)
    (hv : v < 65536) : getForsNode E x k = .ok v := by
  have hk' : k < 35 := hk
  have hx' : 70 ≤ x.length := hx
  have hs : (x.drop (2 * k)).take 2 = E.cfg.arch.bytes 2 v := by
    have hl := E.cfg.arch.length_bytes 2 v
    apply List.ext_getElem
    · simp only [List.length_take, List.length_drop, hl]; omega
    · intro i h1 h2
      have h3 : i < 2 := by omega
      have e1 := h.1; have e2 := h.2
      rw [List.getD_eq_getElem _ _ (by omega), List.getD_eq_getElem _ _ (by omega)] at e1 e2
      rw [List.getElem_take, List.getElem_drop]
      match i, h3 with
      | 0, _ => exact e1
      | 1, _ => exact e2
  unfold getForsNode Config.forsNodeOff
  rw [if_pos hk, rdSlice_ok (by omega), ok_bind, hs, E.cfg.arch.value_bytes 2 v (by omega)]

theorem getD_append3 (A B D : Bytes) (i : Nat) :
    (A ++ B ++ D).getD i 0 = if i < A.length then A.getD i 0 else
      if i < A.length + B.length then B.getD (i - A.length) 0 else D.getD (i - A.length - B.length) 0 := by
  split
  · rename_i h
    rw [List.append_assoc, List.getD_append _ _ _ _ h]
  · split
    · rw [List.append_assoc, List.getD_append_right _ _ _ _ (by omega), List.getD_append _ _ _ _ (by omega)]
    · rw [List.getD_append_right _ _ _ _ (by simp; omega)]
      congr 1; simp; omega

theorem take_getD (x : Bytes) (n i : Nat) (h : i < n) : (x.take n).getD i 0 = x.getD i 0 := by
  simp [List.getD_eq_getElem?_getD, List.getElem?_take, h]

theorem drop_getD (x : Bytes) (n i : Nat) : (x.drop n).getD i 0 = x.getD (n + i) 0 := by
  simp [List.getD_eq_getElem?_getD]

/-- Reading a byte of an array after a slice was overwritten. -/
theorem splice_getD (x v : Bytes) (off i : Nat) (h : off + v.length ≤ x.length) :
    (x.take off ++ v ++ x.drop (off + v.length)).getD i 0 =
      if off ≤ i ∧ i < off + v.length then v.getD (i - off) 0 else x.getD i 0 := by
  have hl : (x.take off).length = off := by simp; omega
  rw [getD_append3, hl]
  by_cases h1 : i < off
  · rw [if_pos h1, if_neg (by omega), take_getD _ _ _ h1]
  · rw [if_neg h1]
    by_cases h2 : i < off + v.length
    · rw [if_pos h2, if_pos ⟨by omega, h2⟩]
    · rw [if_neg h2, if_neg (by omega), drop_getD]
      congr 1; omega

theorem length_splice (x v : Bytes) (off : Nat) (h : off + v.length ≤ x.length) :
    (x.take off ++ v ++ x.drop (off + v.length)).length = x.length := by simp; omega

theorem setForsNode_ok {E : Env} {x : Bytes} {k v : Nat} (hk : k < MAX_FORS) (hx : 2 * MAX_FORS ≤ x.length) :
    ∃ x', setForsNode E x k v = .ok x' ∧ x'.length = x.length ∧ NodeAt E.cfg.arch x' k v ∧
      (∀ j u, j ≠ k → NodeAt E.cfg.arch x j u → NodeAt E.cfg.arch x' j u) ∧ (∀ i, 2 * MAX_FORS ≤ i → x'.getD i 0 = x.getD i 0) := by
  unfold setForsNode Config.forsNodeOff
  have hk' := hk
  unfold MAX_FORS at hk hx ⊢
  have hl := E.cfg.arch.length_bytes 2 v
  have hle : 2 * k + (E.cfg.arch.bytes 2 v).length ≤ x.length := by omega
  rw [if_pos hk, wrSlice_ok hle]
  refine ⟨_, rfl, length_splice _ _ _ hle, ⟨?_, ?_⟩, ?_, ?_⟩
  · rw [splice_getD _ _ _ _ hle, if_pos (by omega), Nat.sub_self]
  · rw [splice_getD _ _ _ _ hle, if_pos (by omega), Nat.add_sub_cancel_left]
  · rintro j u hj ⟨h1, h2⟩
    refine ⟨?_, ?_⟩
    · rw [splice_getD _ _ _ _ hle, if_neg (by omega), h1]
    · rw [splice_getD _ _ _ _ hle, if_neg (by omega), h2]
  · intro i hi
    rw [splice_getD _ _ _ _ hle, if_neg (by omega)]

/-! ## Tree and leaf index -/

theorem extract_int_ok (hash : Bytes) (off nb : Nat) (h1 : 1 ≤ nb) (h2 : nb ≤ 64)
    (hl : off + 1 + (nb + 7) / 8 ≤ hash.length) :
    extract_int_from_hash hash off nb =
      .ok (toInt ((hash.drop (off + 1)).take ((nb + 7) / 8)) % 2 ^ nb, off + (nb + 7) / 8) := by
  unfold extract_int_from_hash
  rw [loop_eq' (fun i => (toInt ((hash.drop (off + 1)).take i), off + i)) ((nb + 7) / 8) (0, off) (by simp [toInt])]
  · rw [ok_bind]
    have hsh : usub 64 nb = 64 - nb := by
      unfold usub; omega
    simp only [hsh]
    rw [if_pos (by omega)]
    have hm : (2 ^ 64 - 1) >>> (64 - nb) = 2 ^ nb - 1 := by
      rw [Nat.shiftRight_eq_div_pow]
      have e : (2 : Nat) ^ 64 = 2 ^ nb * 2 ^ (64 - nb) := by rw [← Nat.pow_add]; congr 1; omega
      rw [e]
      have hp : 0 < 2 ^ (64 - nb) := Nat.pow_pos (by omega)
      have hp2 : 0 < 2 ^ nb := Nat.pow_pos (by omega)
      rw [Nat.div_eq_of_lt_le]
      · rw [Nat.sub_mul, Nat.one_mul]; omega
      · rw [Nat.sub_add_cancel hp2]
        have : 0 < 2 ^ nb * 2 ^ (64 - nb) := Nat.mul_pos hp2 hp
        omega
    rw [hm, Nat.and_two_pow_sub_one_eq_mod]
  · intro i hi
    simp only
    have hb : (hash.drop (off + 1)).take (i + 1) = (hash.drop (off + 1)).take i ++ [hash[off + i + 1]] := by
      rw [List.take_add_one]; simp [show off + 1 + i < hash.length by omega]
      congr 1; omega
    rw [rd_ok (by omega), ok_bind, hb, toInt_append]
    have hlt := toInt_lt ((hash.drop (off + 1)).take i)
    have hi7 : i ≤ 7 := by omega
    have h3 : (256 : Nat) ^ ((hash.drop (off + 1)).take i).length ≤ 256 ^ 7 := by
      apply Nat.pow_le_pow_right (by omega); simp; omega
    have := (hash[off + i + 1]).toNat_lt
    rw [Nat.mod_eq_of_lt (by omega)]
    rfl

variable {S : Sess}

/-- `x.fors.fors_node` holds the indices. -/
def ForsNodes (S : Sess) (x : Bytes) (idx : List Nat) : Prop := ∀ i, i < S.P.k → NodeAt S.cfg.arch x i (idx.getD i 0)

theorem x_ge (ctx : Ctx) (g : Good S ctx) : 2 * MAX_FORS + S.cfg.forsStackSize ≤ ctx.x.length := by
  rw [g.x]
  have := S.cfg.forsSize_le
  unfold Config.forsStackOff at this
  omega

theorem length_mdIndices (P : Spec.Params) (d : Bytes) : (Spec.Slh.mdIndices P d).length = P.k := by
  simp [Spec.Slh.mdIndices, base2b]

theorem mdIndices_getD (P : Spec.Params) (d : Bytes) (i : Nat) (h : i < P.k) :
    (Spec.Slh.mdIndices P d).getD i 0 =
      bitsToNat ((((d.take P.mdBytes).flatMap bitsMSB).drop (i * P.a)).take P.a) := by
  simp [Spec.Slh.mdIndices, base2b, h]

theorem mdIndices_lt (P : Spec.Params) (d : Bytes) (i : Nat) : (Spec.Slh.mdIndices P d).getD i 0 < 2 ^ P.a := by
  by_cases h : i < P.k
  · rw [mdIndices_getD _ _ _ h]
    refine Nat.lt_of_lt_of_le (bitsToNat_lt _) (Nat.pow_le_pow_right (by omega) ?_)
    simp
  · rw [List.getD_eq_default _ _ (by rw [length_mdIndices]; omega)]
    exact Nat.pow_pos (by omega)

theorem bits_take (d : Bytes) (k p t : Nat) (h : p + t ≤ 8 * k) :
    (((d.take k).flatMap bitsMSB).drop p).take t = ((d.flatMap bitsMSB).drop p).take t := by
  by_cases hk : d.length ≤ k
  · rw [List.take_of_length_le hk]
  · have e : d.flatMap bitsMSB = (d.take k).flatMap bitsMSB ++ (d.drop k).flatMap bitsMSB := by
      rw [← List.flatMap_append, List.take_append_drop]
    have hl : ((d.take k).flatMap bitsMSB).length = 8 * k := by rw [length_bits]; simp; omega
    rw [e, List.drop_append_of_le_length (by omega), List.take_append_of_le_length (by simp only [List.length_drop]; omega)]

/-- `ts_convert_message_hash_to_hypertree_position` decodes the digest as the specification does. -/
theorem convert_ok {ctx : Ctx} (hps : ctx.ps = S.ps) (hx : 2 * MAX_FORS ≤ ctx.x.length) (mh : Bytes) (hm : S.P.m ≤ mh.length) :
    ∃ x mh', ts_convert_message_hash S.E ctx mh =
      .ok ({ ctx with x := x, tree_address := Spec.Slh.treeIdx S.P mh, fors_keypair_addr := Spec.Slh.leafIdx S.P mh },
        mh') ∧
      mh'.length = mh.length ∧ x.length = ctx.x.length ∧ ForsNodes S x (Spec.Slh.mdIndices S.P mh) ∧
      ∀ i, 2 * MAX_FORS ≤ i → x.getD i 0 = ctx.x.getD i 0 := by
  have F := S.facts
  have ht : ctx.ps.t = S.P.a := by rw [hps]; exact F.pt
  have hk : ctx.ps.k = S.P.k := by rw [hps]; exact F.pk
  have hh : ctx.ps.h = S.P.h := by rw [hps]; exact F.ph
  have hhp : ctx.ps.merkle_h = S.P.hp := by rw [hps]; exact F.phm
  have kle := F.kle; have kge := F.kge; have tle := F.tle; have tge := F.tge
  have hka : S.P.k * S.P.a ≤ 8 * S.P.mdBytes := by unfold Spec.Params.mdBytes; omega
  have hka6 : 6 ≤ S.P.k * S.P.a := by
    have := Nat.mul_le_mul kge tge; omega
  have hmd : S.P.mdBytes ≤ mh.length := by unfold Spec.Params.m at hm; omega
  unfold ts_convert_message_hash
  simp only [ht, hk, hh, hhp]
  obtain ⟨⟨cur, ctx'⟩, e, inv⟩ := loop_inv
    (body := fun k (s : Cursor × Ctx) => do
      let (cur, ctx) := s
      let (cur, this_index) ← loop (fun _ s => nextBit s) S.P.a 0 (cur, 0)
      .ok (cur, { ctx with x := ← setForsNode S.E ctx.x k (this_index % 65536) }))
    (fun k s => CurInv mh (k * S.P.a) s.1 ∧ ∃ x, s.2 = { ctx with x := x } ∧ x.length = ctx.x.length ∧
      (∀ j, j < k → NodeAt S.cfg.arch x j ((Spec.Slh.mdIndices S.P mh).getD j 0)) ∧
      ∀ i, 2 * MAX_FORS ≤ i → x.getD i 0 = ctx.x.getD i 0)
    S.P.k 0 ((mh, 0, 0), ctx)
    ⟨⟨rfl, by simp, by simp, Or.inl (by simp), fun _ _ => rfl, fun _ => by simp⟩, ctx.x, rfl, rfl,
      fun j hj => absurd hj (by omega), fun _ _ => rfl⟩
    (by
      rintro k ⟨cur, c⟩ - hlt ⟨h1, x, h2, h3, h4, h5⟩
      simp only at h1 h2
      have hsucc : (k + 1) * S.P.a = k * S.P.a + S.P.a := Nat.succ_mul _ _
      have hle : (k + 1) * S.P.a ≤ S.P.k * S.P.a := Nat.mul_le_mul_right _ (by omega)
      obtain ⟨cur', e', h'⟩ := readIndex_ok mh (k * S.P.a) S.P.a cur h1 (by omega) (by omega)
      have hv : bitsToNat (((mh.flatMap bitsMSB).drop (k * S.P.a)).take S.P.a) =
          (Spec.Slh.mdIndices S.P mh).getD k 0 := by
        rw [mdIndices_getD _ _ _ (by omega), bits_take _ _ _ _ (by omega)]
      rw [hv] at e'
      have hvl := mdIndices_lt S.P mh k
      have h14 : (2 : Nat) ^ S.P.a ≤ 2 ^ 14 := Nat.pow_le_pow_right (by omega) tle
      obtain ⟨x', e2, g1, g2, g3, g4⟩ := setForsNode_ok (E := S.E) (x := x) (k := k)
        (v := (Spec.Slh.mdIndices S.P mh).getD k 0) (by unfold MAX_FORS; omega) (by omega)
      refine ⟨_, by simp only [e', ok_bind, h2, Nat.mod_eq_of_lt (show (Spec.Slh.mdIndices S.P mh).getD k 0 < 65536 by omega), e2]; rfl,
        by rw [hsucc]; exact h', x', rfl, by omega, ?_, fun i hi => by rw [g4 i hi, h5 i hi]⟩
      intro j hj
      by_cases hjk : j = k
      · rw [hjk]; exact g2
      · exact g3 j _ hjk (h4 j (by omega)))
  simp only [Nat.zero_add] at inv
  obtain ⟨h1, x, h2, h3, h4, h5⟩ := inv
  obtain ⟨mh', o, s⟩ := cur
  obtain ⟨len, pos, le, start, later, now⟩ := h1
  simp only at h2 len pos le start later
  have ho : o + 1 = S.P.mdBytes := by unfold Spec.Params.mdBytes; omega
  have hhd := F.hhd; have hhh := F.hh; have hge := F.hge; have hle9 := F.hle
  have hh1 : S.P.hp + 1 ≤ S.P.h := by
    rw [hhd]
    have := Nat.mul_le_mul_left S.P.hp (show 2 ≤ S.P.d by have := F.dge; omega)
    omega
  have hsub : usub S.P.h S.P.hp = S.P.h - S.P.hp := by
    unfold usub; omega
  have later' : ∀ a b, mh'.length = mh.length → (mh'.drop (o + 1 + a)).take b = (mh.drop (o + 1 + a)).take b := by
    intro a b _
    congr 1
    apply Shake.list_ext_getD 0
    · simp [len]
    · intro i hi
      rw [drop_getD, drop_getD]
      exact later _ (by omega)
  unfold Spec.Params.m Spec.Params.treeBytes Spec.Params.leafBytes at hm
  have l1 := later' 0 ((S.P.h - S.P.hp + 7) / 8) len
  have l2 := later' ((S.P.h - S.P.hp + 7) / 8) ((S.P.hp + 7) / 8) len
  simp only [Nat.add_zero] at l1
  rw [ho] at l1 l2
  rw [e, ok_bind]
  simp only [h2]
  rw [hsub, extract_int_ok _ _ _ (by omega) (by omega) (by omega), ok_bind]
  simp only
  rw [extract_int_ok _ _ _ (by omega) (by omega) (by omega), ok_bind]
  rw [show o + (S.P.h - S.P.hp + 7) / 8 + 1 = S.P.mdBytes + (S.P.h - S.P.hp + 7) / 8 by omega, ho, l1, l2]
  refine ⟨x, mh', ?_, len, h3, h4, h5⟩
  simp only [Spec.Slh.treeIdx, Spec.Slh.leafIdx, Spec.Params.treeBytes, Spec.Params.leafBytes]
  have hp9 : (2 : Nat) ^ S.P.hp ≤ 2 ^ 9 := Nat.pow_le_pow_right (by omega) hle9
  rw [Nat.mod_eq_of_lt (a := _ % 2 ^ S.P.hp) (b := 65536)]
  exact Nat.lt_of_lt_of_le (Nat.mod_lt _ (Nat.pow_pos (by omega))) (by omega)

end Model
