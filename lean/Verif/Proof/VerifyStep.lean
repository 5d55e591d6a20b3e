import Verif.Proof.Verify
/-!
# The verifier: first and last block, and one step of the loop
-/
namespace Model
open Spec Spec.Slh

variable {S : Sess} {mem : Mem} {root M : Bytes} {msg : Nat}

theorem my_memcmp_ok (mem : Mem) (bs : Bytes) : ∀ (a : Nat) (b : Bytes) (off : Nat), mem.Has a bs → off + bs.length ≤ b.length →
    my_memcmp mem a b off bs.length = .ok (if bs = (b.drop off).take bs.length then 0 else 1) := by
  induction bs with
  | nil => intro a b off _ _; simp [my_memcmp]
  | cons x xs ih =>
    intro a b off h hl
    rw [List.length_cons] at hl ⊢
    have hx : mem.Has a [x] ∧ mem.Has (a + 1) xs := (Mem.Has.append (a := [x]) (b := xs)).1 h
    unfold my_memcmp
    have h1 := Mem.Has.read hx.1
    rw [show mem.read a 1 = .ok [x] from h1, ok_bind, rd_getD 0 (by omega), ok_bind]
    rw [List.drop_eq_getElem_cons (show off < b.length by omega), List.take_succ_cons]
    have hg : b.getD off 0 = b[off]'(by omega) := by
      rw [List.getD_eq_getElem?_getD, List.getElem?_eq_getElem (by omega)]; rfl
    rw [hg]
    by_cases he : x = b[off]'(by omega)
    · rw [if_neg (by simp [he]), ih _ _ _ hx.2 (by omega)]
      simp [he]
    · rw [if_pos (by simp [he]), if_neg (by intro hc; exact he (List.cons.inj hc).1)]

theorem stack_ge : 49 ≤ S.cfg.forsStackSize := by
  have F := S.facts
  have h1 := F.tge; have h2 := F.tmax; have h3 := F.n16; have h4 := F.nmax
  unfold Config.forsStackSize
  have : 5 * 16 ≤ (S.cfg.MAX_T - 1) * S.cfg.MAX_HASH := Nat.mul_le_mul (by omega) (by omega)
  omega

theorem verInit_ok {c : Ctx} (hm : S.MemPub mem) (hr : S.MemRoot mem root) (hM : mem.Has msg M) (hl : M.length < 2 ^ 60) (hmsg : S.cfg.Fits msg M.length)
    (hbo : c.buffer_offset = 0) (h : (VPh.init (S := S)).Inv msg M c) :
    VStepped root msg M (.init (S := S)) (c.buffer.take S.n) (verInit S.E mem c) := by
  obtain ⟨g, hst, hx1, hx2⟩ := h
  have F := S.facts
  have hmx := F.nmax
  have hx := x_ge_fors c g.toShape
  have hs49 := stack_ge (S := S)
  have hoff : Config.forsStackOff = 2 * MAX_FORS := rfl
  have h70 : 2 * MAX_FORS = 70 := rfl
  have hstk : (sl c.x (2 * MAX_FORS) S.cfg.forsStackSize).length = S.cfg.forsStackSize := length_sl _ _ _ hx
  obtain ⟨si, e1, w1⟩ := call_hash_msg_ok (mem := mem) (ctx := c) (out := sl c.x (2 * MAX_FORS) S.cfg.forsStackSize) (rnd := c.buffer)
    (len := MAX_MESSAGE_HASH) g hm hr hM hl (by rw [hstk]; exact hs49) (by rw [g.buf]; exact hmx)
  obtain ⟨mh, hmh⟩ : ∃ mh, mh = S.hf.Hmsg (c.buffer.take S.n) S.pkSeed root M MAX_MESSAGE_HASH ++ (sl c.x (2 * MAX_FORS) S.cfg.forsStackSize).drop MAX_MESSAGE_HASH := ⟨_, rfl⟩
  rw [← hmh] at e1
  have hHl := length_Hmsg (S := S) (c.buffer.take S.n) S.pkSeed root M MAX_MESSAGE_HASH
  have h49 : MAX_MESSAGE_HASH = 49 := rfl
  have hm49 := F.m49
  have hmhl : mh.length = S.cfg.forsStackSize := by
    rw [hmh, List.length_append, hHl, List.length_drop, hstk]; omega
  have hmtake : mh.take S.P.m = S.hf.Hmsg (c.buffer.take S.n) S.pkSeed root M S.P.m := by
    rw [hmh, List.take_append_of_le_length (by rw [hHl]; omega)]; exact Hmsg_take _ _ _ _ _ _ (by omega)
  obtain ⟨x1, hx1'⟩ : ∃ x1, x1 = c.x.take (2 * MAX_FORS) ++ mh ++ c.x.drop (2 * MAX_FORS + mh.length) := ⟨_, rfl⟩
  have hx1l : x1.length = c.x.length := by rw [hx1']; exact length_splice _ _ _ (by omega)
  let c1 : Ctx := { c with small_iter := si, x := x1 }
  have g1 : Good S c1 := ⟨⟨g.adr, g.buf, g.auth, hx1l.trans g.x, w1, g.bi⟩, g.ps, g.pk, g.pre⟩
  obtain ⟨x2, mh', e2, hl2, hx2l, hf2, -⟩ := convert_ok g1.ps (by have := x_ge _ g1; omega) mh (by omega)
  have hx2l' : x2.length = c.x.length := hx2l.trans hx1l
  obtain ⟨x3, hx3⟩ : ∃ x3, x3 = x2.take (2 * MAX_FORS) ++ mh' ++ x2.drop (2 * MAX_FORS + mh'.length) := ⟨_, rfl⟩
  have hx3l : x3.length = c.x.length := by rw [hx3, ← hx2l']; exact length_splice _ _ _ (by omega)
  have hf3 : ForsNodes S x3 (mdIndices S.P mh) := hf2.congr (by
    intro i hi
    rw [hx3, splice_getD _ _ _ _ (by omega), if_neg (by omega)])
  let c4 : Ctx := { c1 with x := x3, tree_address := treeIdx S.P mh, fors_keypair_addr := leafIdx S.P mh, state := .verify_fors_leaf, fors_tree := 0, merkle_level := 0, hypertree_level := 0 }
  have g4 : Good S c4 := ⟨⟨g1.adr, g1.buf, g1.auth, hx3l.trans g.x, g1.si, g1.bi⟩, g1.ps, g1.pk, g1.pre⟩
  obtain ⟨c5, e5, s5, a5⟩ := (ts_set_fors_root_adr_ok g4).scr g4
  have g5 := s5.good g4
  obtain ⟨t, e6, h6⟩ := call_init_t_ok (mem := mem) (t := c5.big_iter) g5 hm a5 g5.bi
  let D : SignData S := ⟨[], treeIdx S.P mh, leafIdx S.P mh, mdIndices S.P mh, treeIdx_lt _ _, leafIdx_lt _ _, mdIndices_lt _ _⟩
  have hkge := F.kge
  refine ⟨.forsLeaf D 0 [], { c5 with big_iter := t }, ?_, s5.keep.bo.trans hbo, ?_, ?_, ?_, ?_⟩
  · unfold verInit
    have hw : 2 * S.E.cfg.arch.word ≤ c.x.length := by rw [g.x]; exact S.cfg.verifySize_le
    rw [rdSlice_ok (show Config.verifyMessageOff + S.E.cfg.arch.word ≤ c.x.length by unfold Config.verifyMessageOff; omega), ok_bind,
      rdSlice_ok (show S.E.cfg.verifyLenOff + S.E.cfg.arch.word ≤ c.x.length by unfold Config.verifyLenOff; omega), ok_bind,
      show (c.x.drop Config.verifyMessageOff).take S.E.cfg.arch.word = _ from hx1,
      show (c.x.drop S.E.cfg.verifyLenOff).take S.E.cfg.arch.word = _ from hx2,
      Arch.value_bytes _ _ _ hmsg.1, Arch.value_bytes _ _ _ hmsg.2, hoff, rdSlice_ok (show 2 * MAX_FORS + S.E.cfg.forsStackSize ≤ _ from hx), ok_bind,
      show call_hash_msg S.E mem ((c.x.drop (2 * MAX_FORS)).take S.E.cfg.forsStackSize) _ _ _ _ _ = _ from e1, ok_bind]
    simp only
    rw [wrSlice_ok (by omega), ← hx1', ok_bind, show ts_convert_message_hash S.E _ mh = _ from e2, ok_bind]
    simp only
    rw [wrSlice_ok (by omega), ← hx3, ok_bind, show ts_set_fors_root_adr S.E _ = .ok c5 from e5, ok_bind, e6, ok_bind]
  · exact ⟨⟨⟨g5.adr, g5.buf, g5.auth, g5.x, g5.si, h6.wf⟩, g5.ps, g5.pk, g5.pre⟩, by omega, s5.keep.st, s5.keep.loc,
      by show ForsNodes S c5.x _; rw [s5.xx]; exact hf3, h6, by simp⟩
  · unfold VPh.cnt Spec.Params.sigBlocks
    simp only
    rw [F.hhd, Nat.sub_zero, Nat.mul_add S.P.d, Nat.add_comm 1 S.P.a, Nat.mul_comm S.P.hp]
    omega
  · unfold VPh.cnt
    simp only
    rw [show S.P.k - 0 = S.P.k - 1 + 1 by omega, Nat.succ_mul]
    omega
  · have ht0 : D.treeAt 0 = treeIdx S.P mh := by simp [SignData.treeAt, D]
    have hfp : ∀ rest : List Bytes, forsPkFromSig S.P S.hf S.pkSeed (treeIdx S.P mh) (leafIdx S.P mh) (mdIndices S.P mh) (rest.take (S.P.k * (S.P.a + 1))) =
        S.hf.T S.pkSeed (Adrs.forsRoots (treeIdx S.P mh) (leafIdx S.P mh)) ((List.range S.P.k).map fun q => forsTreeRoot S.P S.hf S.pkSeed (treeIdx S.P mh)
          (leafIdx S.P mh) q ((mdIndices S.P mh).getD q 0) ((rest.drop (q * (S.P.a + 1))).take (S.P.a + 1))).flatten := by
      intro rest
      unfold forsPkFromSig
      congr 2
      apply List.map_congr_left
      intro i hi
      rw [List.mem_range] at hi
      congr 1
      rw [List.drop_take, List.take_take, Nat.min_eq_left]
      have : (i + 1) * (S.P.a + 1) ≤ S.P.k * (S.P.a + 1) := Nat.mul_le_mul_right _ hi
      rw [Nat.succ_mul] at this
      omega
    refine ⟨fun rest => ?_, Nat.le_refl _, fun rest => ?_⟩
    · unfold VPh.acc verifyBlocks
      simp only [List.headD_cons, List.tail_cons]
      rw [← hmtake, treeIdx_take, leafIdx_take, mdIndices_take]
      rw [hfp]
      unfold SignData.gFors SignData.vHt
      simp only [Nat.sub_zero, List.nil_append, Nat.zero_add]
      rw [ht0]
      rfl
    · unfold VPh.lay
      simp only [List.headD_cons, List.tail_cons]
      rw [← hmtake, treeIdx_take, leafIdx_take, mdIndices_take]
      rw [hfp]
      unfold SignData.gFors SignData.lHt
      simp only [Nat.sub_zero, List.nil_append, Nat.zero_add]
      rw [ht0]
      rfl

/-- The outcome of the last block. -/
def VLast (root M : Bytes) (m : Nat) (ph : VPh S) (b : Bytes) (r : C (Option Nat × Ctx)) : Prop :=
  ph.cnt = 1 ∧ ∃ c', r = .ok (some (if m = 0 ∧ ph.acc root M [b] = true then 1 else 0), c') ∧ Good S c' ∧ c'.buffer_offset = 0 ∧
    c'.state = (if m = 0 ∧ ph.acc root M [b] = true then St.verify_success else St.verify_fail)

/-- A block was consumed and more are needed. -/
def VNext (root : Bytes) (msg : Nat) (M : Bytes) (ph : VPh S) (b : Bytes) (r : C (Option Nat × Ctx)) : Prop :=
  ∃ (ph' : VPh S) (c' : Ctx), r = .ok (none, c') ∧ c'.buffer_offset = 0 ∧ ph'.Inv msg M c' ∧ ph.cnt = ph'.cnt + 1 ∧ 0 < ph'.cnt ∧
    ph.Same root M b ph'

theorem verMerkle_ok {c : Ctx} {D : SignData S} {j l m : Nat} {v : Bytes} (hm : S.MemPub mem) (hr : S.MemRoot mem root) (hbo : c.buffer_offset = 0)
    (h : (VPh.merkle D j l v).Inv msg M c) :
    VNext root msg M (.merkle D j l v) (c.buffer.take S.n) (verMerkle S.E mem m c) ∨
      VLast root M m (.merkle D j l v) (c.buffer.take S.n) (verMerkle S.E mem m c) := by
  obtain ⟨g, hj, hl, hst, hloc, han, hml, hau⟩ := h
  have F := S.facts
  have hmx := F.nmax
  have h9 : (2 : Nat) ^ S.P.hp ≤ 2 ^ 9 := Nat.pow_le_pow_right (by omega) F.hle
  have hlf := D.leafAt_lt j
  obtain ⟨c1, e1, g1, p1, p2, p3, p4, p5, p6, p7, p8⟩ := next_auth_path_ok (mem := mem) (ty := ADR_TYPE_HASHTREE)
    (L := Loc.ht j (D.treeAt j)) (h := l) (an := D.leafAt j) (base := 0) hm g hloc (by simp [Loc.ht]) (by have := F.kge; show 0 < S.P.k; omega)
    hml (by have := F.hle; omega) han (by omega)
  rw [hau, Nat.zero_add] at p8
  obtain ⟨v', hv'⟩ : ∃ v', v' = c1.auth_path_buffer.take S.n := ⟨_, rfl⟩
  have hacc : ∀ {β : Type} (g : Nat → Bytes → List Bytes → β) rest, D.gMerkle g j l v (c.buffer.take S.n :: rest) = D.gMerkle g j (l + 1) v' rest := by
    intro β g rest
    rw [D.gMerkle_step g j l hl, hv', p8]
    rfl
  have hloc1 : c1.loc = Loc.ht j (D.treeAt j) := p3.trans hloc
  have hph : c1.ps.merkle_h = S.P.hp := by rw [g1.ps]; exact F.phm
  have hpd : c1.ps.d = S.P.d := by rw [g1.ps]; exact F.pd
  unfold verMerkle
  rw [e1, ok_bind]
  by_cases hend : l + 1 = S.P.hp
  · rw [if_neg (show ¬ c1.merkle_level ≠ c1.ps.merkle_h by rw [p4, hph]; omega)]
    have hhl : (c1.hypertree_level + 1) % 256 = j + 1 := by
      rw [loc_hl hloc1]; have := F.dle; simp only [Loc.ht]; omega
    have hacc2 : ∀ {β : Type} (g : Nat → Bytes → List Bytes → β) rest, D.gMerkle g j l v (c.buffer.take S.n :: rest) = g (j + 1) v' rest := by
      intro β g rest
      rw [hacc, hend, D.gMerkle_end]
    simp only [hhl, hpd]
    by_cases hlast : j + 1 < S.P.d
    · left
      rw [if_pos hlast, hph, shl_hp, ok_bind]
      have hmask : D.treeAt j &&& (2 ^ S.P.hp - 1) = D.leafAt (j + 1) := Nat.and_two_pow_sub_one_eq_mod _ _
      have hlt := D.leafAt_lt (j + 1)
      have hta : c1.tree_address = D.treeAt j := loc_ta hloc1
      rw [hta, hmask, Nat.mod_eq_of_lt (show D.leafAt (j + 1) < 2 ^ 32 by omega), Nat.shiftRight_eq_div_pow, ← D.treeAt_succ j]
      let c2 : Ctx := { c1 with hypertree_level := j + 1, tree_address := D.treeAt (j + 1) }
      have g2 : Good S c2 := ⟨⟨g1.adr, g1.buf, g1.auth, g1.x, g1.si, g1.bi⟩, g1.ps, g1.pk, g1.pre⟩
      obtain ⟨c4, e4, g4, q1, q2, q3, q4, q5, q6, q7⟩ := set_up_wots_verify_ok (mem := mem) (c := c2) (M := v') (leaf := D.leafAt (j + 1)) hm g2 hv'.symm (by omega)
      refine ⟨.wots D (j + 1) 0 v' [], c4, ?_, ?_, ⟨g4, hlast, by unfold Spec.Params.len; omega, q1, ?_, q5, q3, q6, q7, by simp⟩, ?_, ?_, ?_⟩
      · rw [show set_up_wots_verify_signature S.E mem _ (D.leafAt (j + 1)) = .ok c4 from e4, ok_bind]
      · rw [q4]; exact p2.trans hbo
      · rw [q2]
        show (⟨j + 1, c1.fors_tree, 0, D.treeAt (j + 1)⟩ : Loc) = _
        rw [loc_ft hloc1]; rfl
      · unfold VPh.cnt
        simp only
        rw [show S.P.d - (j + 1) = S.P.d - (j + 1 + 1) + 1 by omega, Nat.succ_mul]
        omega
      · unfold VPh.cnt Spec.Params.len
        simp only
        omega
      · refine ⟨fun rest => ?_, Nat.le_refl _, fun rest => ?_⟩
        · show (D.gMerkle D.vHt j l v _ == root) = (D.gWots D.vHt (j + 1) 0 v' [] rest == root)
          rw [hacc2, D.vHt_wots _ hlast]
        · show (D.gMerkle D.lHt j l v _).drop (j + 1 - (j + 1)) = v' :: D.gWots D.lHt (j + 1) 0 v' [] rest
          rw [Nat.sub_self, hacc2, D.lHt_wots _ hlast]
          rfl
    · right
      rw [if_neg hlast]
      have hjd : j + 1 = S.P.d := by omega
      have hacc3 : (VPh.merkle D j l v).acc root M [c.buffer.take S.n] = (v' == root) := by
        show (D.gMerkle D.vHt j l v [c.buffer.take S.n] == root) = _
        rw [hacc2, hjd, D.vHt_end]
      refine ⟨?_, ?_⟩
      · unfold VPh.cnt
        simp only
        rw [hjd, Nat.sub_self, Nat.zero_mul]; omega
      rw [hacc3]
      have hcmp := my_memcmp_ok mem root (c1.public_key + S.n) c1.auth_path_buffer 0 (by rw [g1.pk]; exact hr.2) (by rw [hr.1, g1.auth]; omega)
      rw [hr.1, List.drop_zero, ← hv'] at hcmp
      have hn1 : c1.ps.n = S.n := ctx_n g1
      by_cases hm0 : m = 0
      · rw [if_pos hm0, hn1, hcmp, ok_bind, ok_bind]
        by_cases he : root = v'
        · refine ⟨{ c1 with hypertree_level := j + 1, state := .verify_success }, ?_, ⟨⟨g1.adr, g1.buf, g1.auth, g1.x, g1.si, g1.bi⟩, g1.ps, g1.pk, g1.pre⟩, p2.trans hbo, ?_⟩
          · simp [he, hm0]
          · simp [he, hm0]
        · have he' : ¬ v' = root := fun h => he h.symm
          refine ⟨{ c1 with hypertree_level := j + 1, state := .verify_fail }, ?_, ⟨⟨g1.adr, g1.buf, g1.auth, g1.x, g1.si, g1.bi⟩, g1.ps, g1.pk, g1.pre⟩, p2.trans hbo, ?_⟩
          · simp [he, he']
          · simp [he']
      · rw [if_neg hm0, ok_bind]
        refine ⟨{ c1 with hypertree_level := j + 1, state := .verify_fail }, ?_, ⟨⟨g1.adr, g1.buf, g1.auth, g1.x, g1.si, g1.bi⟩, g1.ps, g1.pk, g1.pre⟩, p2.trans hbo, ?_⟩
        · simp [hm0]
        · simp [hm0]
  · left
    rw [if_pos (show c1.merkle_level ≠ c1.ps.merkle_h by rw [p4, hph]; exact hend)]
    refine ⟨.merkle D j (l + 1) v', c1, rfl, p2.trans hbo, ⟨g1, hj, by omega, p1.trans hst, hloc1, p5.trans han, p4, hv'.symm⟩, ?_, ?_, ?_⟩
    · unfold VPh.cnt
      simp only
      omega
    · unfold VPh.cnt
      simp only
      omega
    · refine ⟨fun rest => congrArg (· == root) (hacc _ rest), Nat.le_refl _, fun rest => ?_⟩
      show (D.gMerkle D.lHt j l v _).drop (j + 1 - (j + 1)) = D.gMerkle D.lHt j (l + 1) v' rest
      rw [Nat.sub_self, hacc]
      rfl

/-- One step of the verifier. -/
theorem ver_step {c : Ctx} {ph : VPh S} {m : Nat} (hm : S.MemPub mem) (hr : S.MemRoot mem root) (hM : ph = .init → mem.Has msg M) (hl : M.length < 2 ^ 60)
    (hmsg : S.cfg.Fits msg M.length) (hbo : c.buffer_offset = 0) (h : ph.Inv msg M c) :
    VNext root msg M ph (c.buffer.take S.n) (verStep S.E mem m c) ∨ VLast root M m ph (c.buffer.take S.n) (verStep S.E mem m c) := by
  have lift : ∀ {r : C Ctx}, VStepped root msg M ph (c.buffer.take S.n) r → (verStep S.E mem m c = do .ok (none, ← r)) →
      VNext root msg M ph (c.buffer.take S.n) (verStep S.E mem m c) := by
    rintro r ⟨ph', c', e, h1⟩ hr
    exact ⟨ph', c', by rw [hr, e, ok_bind], h1⟩
  cases ph with
  | init => exact Or.inl (lift (verInit_ok hm hr (hM rfl) hl hmsg hbo h) (by rw [verStep, h.2.1]))
  | forsLeaf D τ roots => exact Or.inl (lift (verForsLeaf_ok hm hbo h) (by rw [verStep, h.2.2.1]))
  | fors D τ l roots v => exact Or.inl (lift (verFors_ok hm hbo h) (by rw [verStep, h.2.2.2.1]))
  | wots D j i M' a => exact Or.inl (lift (verWots_ok hm hbo h) (by rw [verStep, h.2.2.2.1]))
  | merkle D j l v =>
    have := verMerkle_ok (m := m) hm hr hbo h
    rw [verStep, h.2.2.2.1]
    exact this

end Model
