import Verif.Proof.ResidueTree
/-!
# Authentication paths, two runs with different secrets
-/
namespace Model
open Spec Spec.Slh

variable {S : Sess} {m1 m2 : Mem}

theorem rdSlice_len {x v : Bytes} {i n : Nat} (h : rdSlice x i n = .ok v) : v.length = n := by
  by_cases hi : i + n ≤ x.length
  · rw [rdSlice_ok hi] at h
    cases h
    simp; omega
  · unfold rdSlice at h; rw [if_neg hi] at h; cases h

theorem get_len {r : Region} {c : Ctx} {v : Bytes} {i n : Nat} (h : r.get c i n = .ok v) : v.length = n := by
  unfold Region.get at h
  split at h
  · exact rdSlice_len h
  · cases h

/-- Leaf generators of two runs. -/
def LeafTwo (S : Sess) (gen1 gen2 : Bytes → Nat → Ctx → C (Bytes × Ctx)) (L : Loc) (bound : Nat) : Prop :=
  ∀ (c : Ctx) (s : TIter) (out : Bytes) (idx : Nat), Good S c → WfIter s → c.loc = L → S.n ≤ out.length → idx < bound →
    ∃ b c' t, gen1 out idx c = .ok (b, c') ∧ gen2 out idx (c.si s) = .ok (b, c'.si t) ∧ Good S c' ∧ c'.loc = L ∧ WfIter t ∧
      b.length = out.length

/-- The inner loop of `ts_merkle_path`. -/
theorem pathInner_sim {L : Loc} {ty leaf i : Nat} {stack : Region} (p1 : S.MemPub m1) (p2 : S.MemPub m2) (hft : L.ft < S.P.k)
    (hl16 : leaf < 2 ^ 16) (hi : i < 2 ^ 14) (fuel : Nat) : ∀ (nod k : Nat) (c : Ctx) (s : TIter), nod * 2 ^ k ≤ i →
    Good S c → WfIter s → c.loc = L →
    Sim (fun _ c' => Good S c' ∧ c'.loc = L) (pathInner S.E m1 stack ty leaf fuel nod k c) (pathInner S.E m2 stack ty leaf fuel nod k (c.si s)) := by
  induction fuel with
  | zero => intro nod k c s _ _ _ _ o c' e; cases e
  | succ fuel ih =>
    intro nod k c s hk g w hloc
    unfold pathInner
    by_cases hodd : nod &&& 1 ≠ 0
    · rw [if_pos hodd, if_pos hodd]
      have hk14 : k < 14 := by
        rcases Nat.lt_or_ge k 14 with h | h
        · exact h
        · exfalso
          have h1 : (2 : Nat) ^ 14 ≤ 2 ^ k := Nat.pow_le_pow_right (by omega) h
          have h2 : 1 ≤ nod := by
            rcases Nat.eq_zero_or_pos nod with h0 | h0
            · rw [h0] at hodd; simp at hodd
            · exact h0
          have := Nat.mul_le_mul_right (2 ^ k) h2
          omega
      simp only [si_ps]
      obtain ⟨c1, e1, f1, s1, a1⟩ := HasAdr.two (s := s) g (ts_set_merkle_adr_ok (node := leaf) (level := k) (ty := ty) g
        (by rw [loc_ft hloc]; exact hft) hl16 (by omega)) (set_merkle_adr_si S.E c s leaf k ty)
      have g1 := s1.good g
      rw [e1, f1, ok_bind, ok_bind]
      rw [show stack.get (c1.si s) (k * c.ps.n) c.ps.n = stack.get c1 (k * c.ps.n) c.ps.n from rfl]
      refine Sim.pub fun a ha => ?_
      have hal := get_len ha
      rw [ctx_n g] at hal
      have hb : S.n ≤ c1.buffer.length := by rw [g1.buf]; exact S.facts.nmax
      rw [show (c1.si s).buffer = c1.buffer from rfl, combine_same (m1 := m1) g1 w p1 p2 a1 (by omega) hb]
      obtain ⟨c2, e2, s2⟩ := combine_ok (x := a) (y := c1.buffer) (out := c1.buffer) g1 p1 a1 (by omega) hb hb
      rw [e2, ok_bind, ok_bind]
      simp only
      have hlT := length_T (S := S) S.pkSeed ⟨c.hypertree_level, c.tree_address, ty, c.fors_keypair_addr, k + 1, (c.fors_tree * 2 ^ S.P.a + leaf) / 2 ^ (k + 1)⟩ (a.take S.n ++ c1.buffer.take S.n)
      have f2 := ((s1.bufFrame g).trans (s2.bufFrame g1)).setBuf (b := S.hf.T S.pkSeed ⟨c.hypertree_level, c.tree_address, ty, c.fors_keypair_addr, k + 1, (c.fors_tree * 2 ^ S.P.a + leaf) / 2 ^ (k + 1)⟩ (a.take S.n ++ c1.buffer.take S.n) ++ c1.buffer.drop S.n)
        (by rw [List.length_append, hlT, List.length_drop]; have := g1.buf; omega)
      refine ih (nod >>> 1) (k + 1) _ _ ?_ f2.good f2.good.si (f2.keep.loc.trans hloc)
      rw [Nat.shiftRight_eq_div_pow, Nat.pow_one, Nat.pow_succ, Nat.mul_comm (2 ^ k), ← Nat.mul_assoc]
      exact Nat.le_trans (Nat.mul_le_mul_right _ (Nat.div_mul_le_self nod 2)) hk
    · rw [if_neg hodd, if_neg hodd]
      exact Sim.ok ⟨g, hloc⟩ w

/-- A whole authentication path node: the contexts agree afterwards. -/
theorem merkle_path_two {gen1 gen2 : Bytes → Nat → Ctx → C (Bytes × Ctx)} {c c' : Ctx} {s : TIter} {L : Loc} {ty H h an : Nat} {stack : Region}
    (p1 : S.MemPub m1) (p2 : S.MemPub m2) (g : Good S c) (w : WfIter s) (hloc : c.loc = L) (hft : L.ft < S.P.k) (hH : H ≤ 14)
    (hgen : LeafTwo S gen1 gen2 L (2 ^ H)) (hh : h = c.merkle_level) (hhH : h < H) (han : c.auth_path_node = an) (han2 : an < 2 ^ H)
    (h1 : ts_merkle_path S.E m1 gen1 c ty stack = .ok c') : ts_merkle_path S.E m2 gen2 (c.si s) ty stack = .ok c' := by
  subst han
  obtain ⟨an, han⟩ : ∃ an, c.auth_path_node = an := ⟨_, rfl⟩
  rw [han] at han2
  have hn := ctx_n g
  have hmx := S.facts.nmax
  have hHp : (2 : Nat) ^ H ≤ 2 ^ 14 := Nat.pow_le_pow_right (by omega) hH
  have hHh : (2 : Nat) ^ H = 2 ^ h * 2 ^ (H - h) := by rw [← Nat.pow_add]; congr 1; omega
  have hhH' : (2 : Nat) ^ h ≤ 2 ^ H := Nat.pow_le_pow_right (by omega) (by omega)
  obtain ⟨st, hst⟩ : ∃ st, st = ((an / 2 ^ h) ^^^ 1) * 2 ^ h := ⟨_, rfl⟩
  have hqlt : (an / 2 ^ h) ^^^ 1 < 2 ^ (H - h) := by
    apply Nat.xor_lt_two_pow
    · exact Nat.div_lt_of_lt_mul (by rw [← hHh]; exact han2)
    · have := Nat.pow_le_pow_right (show 0 < 2 by omega) (show 1 ≤ H - h by omega)
      omega
  have hst2 : st + 2 ^ h ≤ 2 ^ H := by
    rw [hst, hHh, Nat.mul_comm (2 ^ h)]
    have := Nat.mul_le_mul_right (2 ^ h) (show (an / 2 ^ h ^^^ 1) + 1 ≤ 2 ^ (H - h) by omega)
    rw [Nat.succ_mul] at this; exact this
  have hst3 : st < 65536 := by
    have h1 := Nat.le_trans hst2 hHp
    have h2 : st ≤ st + 2 ^ h := Nat.le_add_right _ _
    omega
  have hsl : shlInt 1 h = .ok (2 ^ h) := by
    unfold shlInt; rw [if_pos ⟨by omega, by omega⟩, Nat.one_mul]
  unfold ts_merkle_path at h1 ⊢
  simp only [hn, ← hh] at h1
  simp only [si_ps, hn, show (c.si s).merkle_level = h from hh.symm, show (c.si s).auth_path_node = c.auth_path_node from rfl]
  rw [hsl, ok_bind] at h1 ⊢
  have hss := sibling_start an h (by omega) (by omega)
  rw [← hst, ← han] at hss
  rw [hss] at h1 ⊢
  clear hss
  obtain ⟨c1, e1, h1⟩ := bind_ok_inv h1
  let c0 : Ctx := { c with merkle_level := (h + 1) % 256 }
  have g0 : Good S c0 := ⟨⟨g.adr, g.buf, g.auth, g.x, g.si, g.bi⟩, g.ps, g.pk, g.pre⟩
  have sim := SimC.loop (P := fun _ c' => Good S c' ∧ c'.loc = L)
    (f := fun i ctx => do
      let leaf := (st + i) % 2 ^ 32
      let (b, ctx) ← gen1 ctx.buffer (← asInt leaf) ctx
      let ctx := { ctx with buffer := b }
      let (k, ctx) ← pathInner S.E m1 stack ty leaf (i + 1) i 0 ctx
      if k < h then stack.put ctx (k * S.n) (← rdSlice ctx.buffer 0 S.n) else .ok ctx)
    (g := fun i ctx => do
      let leaf := (st + i) % 2 ^ 32
      let (b, ctx) ← gen2 ctx.buffer (← asInt leaf) ctx
      let ctx := { ctx with buffer := b }
      let (k, ctx) ← pathInner S.E m2 stack ty leaf (i + 1) i 0 ctx
      if k < h then stack.put ctx (k * S.n) (← rdSlice ctx.buffer 0 S.n) else .ok ctx)
    (2 ^ h) 0 (c := c0) (s := s) ⟨g0, hloc⟩ w
    (by
      rintro i ci si - hi ⟨gi, hli⟩ wi
      have hmod : (st + i) % 2 ^ 32 = st + i := Nat.mod_eq_of_lt (by omega)
      have hai : asInt (st + i) = .ok (st + i) := by unfold asInt; rw [if_pos (by omega)]
      simp only [hmod]
      rw [hai, ok_bind, ok_bind]
      obtain ⟨b, c2, t2, e2, f2, g2, l2, w2, lb⟩ := hgen ci si ci.buffer (st + i) gi wi hli (by rw [gi.buf]; exact hmx) (by omega)
      rw [show (ci.si si).buffer = ci.buffer from rfl, e2, f2, ok_bind, ok_bind]
      simp only
      have g3 : Good S { c2 with buffer := b } := ⟨⟨g2.adr, lb.trans gi.buf, g2.auth, g2.x, g2.si, g2.bi⟩, g2.ps, g2.pk, g2.pre⟩
      refine Sim.bindC (pathInner_sim (i := i) p1 p2 hft (by omega) (by omega) (i + 1) i 0 { c2 with buffer := b } t2 (by simp) g3 w2 l2) ?_
      rintro k c4 s4 ⟨g4, l4⟩ w4
      simp only
      by_cases hk : k < h
      · rw [if_pos hk, if_pos hk]
        refine SimC.pub (x := rdSlice c4.buffer 0 S.n) fun v _ => ?_
        unfold Region.put
        split
        · refine SimC.pub (x := wrSlice c4.x (stack.off + k * S.n) v) fun X hX => ?_
          exact SimC.ok (c := { c4 with x := X }) ⟨⟨⟨g4.adr, g4.buf, g4.auth, (wrSlice_len hX).trans g4.x, g4.si, g4.bi⟩, g4.ps, g4.pk, g4.pre⟩, l4⟩ w4
        · intro c h; cases h
      · rw [if_neg hk, if_neg hk]
        exact SimC.ok ⟨g4, l4⟩ w4)
  obtain ⟨⟨gc1, lc1⟩, t1, w1, f1⟩ := sim c1 e1
  change (loop _ (2 ^ h) 0 (c0.si s) >>= _) = _
  refine Eq.trans (congrArg (· >>= _) f1) ?_
  rw [ok_bind]
  let c2 : Ctx := { c1 with buffer_offset := 0 }
  have g2 : Good S c2 := ⟨⟨gc1.adr, gc1.buf, gc1.auth, gc1.x, gc1.si, gc1.bi⟩, gc1.ps, gc1.pk, gc1.pre⟩
  have hl2 : c2.loc = L := lc1
  obtain ⟨c3, e3, f3, s3, a3⟩ := HasAdr.two (s := t1) g2 (ts_set_merkle_adr_ok (node := st) (level := h) (ty := ty) g2
    (by rw [loc_ft hl2]; exact hft) (by omega) (by omega)) (set_merkle_adr_si S.E c2 t1 st h ty)
  have g3 := s3.good g2
  change (ts_set_merkle_adr S.E c2 st h ty >>= _) = _ at h1
  change (ts_set_merkle_adr S.E (c2.si t1) st h ty >>= _) = _
  rw [e3, ok_bind] at h1
  rw [f3, ok_bind]
  have hb : S.n ≤ c3.buffer.length := by rw [g3.buf]; exact hmx
  have ha : S.n ≤ c3.auth_path_buffer.length := by rw [g3.auth]; exact hmx
  have k1 := combine_same (m1 := m1) (out := c3.auth_path_buffer) g3 w1 p1 p2 a3 hb ha
  have k2 := combine_same (m1 := m1) (out := c3.auth_path_buffer) g3 w1 p1 p2 a3 ha hb
  rw [show (c3.si t1).auth_path_node = c3.auth_path_node from rfl, show (c3.si t1).auth_path_buffer = c3.auth_path_buffer from rfl,
    show (c3.si t1).buffer = c3.buffer from rfl, k1, k2]
  exact h1

end Model
