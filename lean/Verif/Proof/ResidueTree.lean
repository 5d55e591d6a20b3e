import Verif.Proof.ResidueSim
import Verif.Model.Observer
/-!
# Leaves: the signer and the observer
-/
namespace Model
open Spec Spec.Slh

variable {S : Sess} {m1 m2 : Mem} {sk1 : Bytes} {c : Ctx} {s : TIter}

theorem scr_wf {c c' : Ctx} (h : Scr S c c') : WfIter c'.small_iter := by
  obtain ⟨_, _, rfl, _, w⟩ := h; exact w

/-- A setter in two runs. -/
theorem HasAdr.two {a : Adrs} {x y : C Ctx} (g : Good S c) (h : HasAdr S x c a) (hy : y = x.map (·.si s)) :
    ∃ c', x = .ok c' ∧ y = .ok (c'.si s) ∧ Scr S c c' ∧ S.AdrIs c'.adr a := by
  obtain ⟨c1, e, h1, h2⟩ := h.scr g
  exact ⟨c1, e, by rw [hy, e]; rfl, h1, h2⟩

theorem Scr.si_left {c c' : Ctx} {t : TIter} (h : Scr S c c') (w : WfIter t) : Scr S c (c'.si t) := by
  obtain ⟨a, b, rfl, h1, h2⟩ := h; exact ⟨a, t, rfl, h1, w⟩

theorem wr_front {out v : Bytes} {n : Nat} (hv : v.length = n) (h : n ≤ out.length) : wrSlice out 0 v = .ok (v ++ out.drop n) := by
  rw [wrSlice_ok (by omega), List.take_zero, List.nil_append, Nat.zero_add, hv]

/-- A FORS leaf. -/
theorem fors_leaf_obs {K : Observer.Known} {out : Bytes} {tree kp τ idx : Nat} (g : Good S c) (p1 : S.MemPub m1)
    (q1 : S.MemSec m1 sk1) (hl : c.loc = Loc.fors tree kp τ) (hτ : τ < S.P.k) (hi : idx < 2 ^ S.P.a) (ho : S.n ≤ out.length)
    (heq : K.forsLeaf (τ * 2 ^ S.P.a + idx) = forsNode S.hf sk1 S.pkSeed tree kp (τ * 2 ^ S.P.a + idx) 0) :
    ∃ b c', fors_leaf S.E m1 out idx c = .ok (b, c') ∧ Observer.fors_leaf S.E K out idx (c.si s) = .ok (b, c'.si s) ∧ Scr S c c' ∧
      b.length = out.length := by
  have hft := loc_ft hl
  obtain ⟨c1, e1, f1, s1, a1⟩ := HasAdr.two (s := s) g (set_fors_prf_adr_ok g (by rw [hft]; exact hτ) hi) (set_fors_prf_adr_si S.E c s idx)
  rw [hft, loc_kp hl, loc_ta hl] at a1
  have g1 := s1.good g
  obtain ⟨t1, e2, w1⟩ := call_prf_ok (out := out) g1 p1 q1 a1 ho
  simp only [Loc.fors] at e2
  have hp1 := length_PRF (S := S) S.pkSeed sk1 (Adrs.forsPrf tree kp (τ * 2 ^ S.P.a + idx))
  have g2 := g1.withSi w1
  obtain ⟨adr3, e3, l3, u3⟩ := set_type_ok ADR_TYPE_FORSTREE g2.adrCtx
  have a3 := u3 _ (show S.AdrIs (c1.si t1).adr _ from a1)
  have g3 := g2.withAdr l3
  generalize hc3 : ({ c1.si t1 with adr := adr3 } : Ctx) = c3 at *
  have f3 : set_type_adr S.E ADR_TYPE_FORSTREE (c1.si s) = .ok (c3.si s) := by
    have := set_type_si S.E (c1.si t1) s ADR_TYPE_FORSTREE
    rw [e3] at this
    exact this
  have a3' : S.AdrIs c3.adr { Adrs.forsPrf tree kp (τ * 2 ^ S.P.a + idx) with type := ADR_TYPE_FORSTREE } := by rw [← hc3]; exact a3
  obtain ⟨t3, e4, w3⟩ := call_f_ok (mem := m1) (out := S.hf.PRF S.pkSeed sk1 (Adrs.forsPrf tree kp (τ * 2 ^ S.P.a + idx)) ++ out.drop S.n)
    (inp := S.hf.PRF S.pkSeed sk1 (Adrs.forsPrf tree kp (τ * 2 ^ S.P.a + idx)) ++ out.drop S.n) g3 p1 a3'
    (by simp [hp1]) (by simp [hp1])
  rw [take_left' hp1, drop_left' hp1] at e4
  have hsc : Scr S c (c3.si t3) := by
    rw [← hc3]
    obtain ⟨x, y, hx, h1, h2⟩ := s1
    rw [hx]
    exact ⟨adr3, t3, rfl, l3, w3⟩
  have hleaf : S.hf.F S.pkSeed { Adrs.forsPrf tree kp (τ * 2 ^ S.P.a + idx) with type := ADR_TYPE_FORSTREE }
      (S.hf.PRF S.pkSeed sk1 (Adrs.forsPrf tree kp (τ * 2 ^ S.P.a + idx))) = forsNode S.hf sk1 S.pkSeed tree kp (τ * 2 ^ S.P.a + idx) 0 := rfl
  have hfl : (forsNode S.hf sk1 S.pkSeed tree kp (τ * 2 ^ S.P.a + idx) 0).length = S.n := length_F _ _ _
  refine ⟨forsNode S.hf sk1 S.pkSeed tree kp (τ * 2 ^ S.P.a + idx) 0 ++ out.drop S.n, c3.si t3, ?_, ?_, hsc, ?_⟩
  · rw [fors_leaf, e1, ok_bind, e2, ok_bind]
    change (set_type_adr S.E ADR_TYPE_FORSTREE (c1.si t1) >>= _) = _
    rw [e3, ok_bind]
    rw [e4, hleaf]
    rfl
  · have h3ft : (c3.si s).fors_tree = τ := by
      have := congrArg Loc.ft hsc.keep.loc
      exact this.trans (by rw [hl]; rfl)
    have h3t : (c3.si s).ps.t = S.P.a := by show c3.ps.t = _; rw [g3.ps]; exact S.facts.pt
    rw [Observer.fors_leaf, f1, ok_bind, f3, ok_bind, h3ft, h3t, heq, wr_front hfl ho, ok_bind]
    rfl
  · rw [List.length_append, hfl, List.length_drop]; omega

/-- The hash chain loops. -/
theorem chain_obs {j tree kp cn : Nat} (body1 : Nat → Bytes × Ctx → C (Bytes × Ctx)) (body2 : Nat → Ctx → C Ctx) (p1 : S.MemPub m1) 
    (count : Nat) : ∀ (start : Nat) (c : Ctx) (s : TIter) (b1 : Bytes), Good S c → c.hypertree_level = j → c.tree_address = tree →
    (∀ i b c', Scr S c c' → body1 i (b, c') = (do let ctx ← ts_set_wots_f_adr S.E c' kp cn i; call_f S.E m1 b b ctx)) →
    (∀ i c' s', Scr S c c' → body2 i (c'.si s') = ts_set_wots_f_adr S.E (c'.si s') kp cn i) →
    S.n ≤ b1.length →
    ∃ o1 c', loop body1 count start (b1, c) = .ok (o1, c') ∧ loop body2 count start (c.si s) = .ok (c'.si s) ∧
      Scr S c c' := by
  induction count with
  | zero => intro start c s b1 g _ _ _ _ _; exact ⟨b1, c, rfl, rfl, Scr.refl g⟩
  | succ count ih =>
    intro start c s b1 g hj ht hb1 hb2 h1
    obtain ⟨c1, e1, f1, s1, a1⟩ := HasAdr.two (s := s) g (ts_set_wots_f_adr_ok g kp cn start) (set_wots_f_adr_si S.E c s kp cn start)
    have g1 := s1.good g
    obtain ⟨t1, e2, w1⟩ := call_f_ok (mem := m1) (out := b1) (inp := b1) g1 p1 a1 h1 h1
    have sc : Scr S c (c1.si t1) := s1.si_left w1
    obtain ⟨o1, c', e3, f3, s3⟩ := ih (start + 1) (c1.si t1) s
      (S.hf.F S.pkSeed (Adrs.wotsHash c.hypertree_level c.tree_address kp cn start) (b1.take S.n) ++ b1.drop S.n) (g1.withSi w1)
      (by rw [← hj]; exact congrArg Loc.hl sc.keep.loc) (by rw [← ht]; exact congrArg Loc.ta sc.keep.loc)
      (fun i b c' h => hb1 i b c' (sc.trans h)) (fun i c' s' h => hb2 i c' s' (sc.trans h))
      (by rw [List.length_append, length_F]; omega)
    refine ⟨o1, c', ?_, ?_, sc.trans s3⟩
    · rw [loop_succ, hb1 _ _ _ (Scr.refl g), e1, ok_bind, show call_f S.E m1 b1 b1 c1 = _ from e2, ok_bind]; exact e3
    · rw [loop_succ, hb2 _ _ _ (Scr.refl g), f1, ok_bind]; exact f3

/-- One WOTS+ chain from its secret start. -/
theorem wots_chain_obs {j tree kp d cnt : Nat} {buf : Bytes} (g : Good S c) (p1 : S.MemPub m1)
    (q1 : S.MemSec m1 sk1) (hj : c.hypertree_level = j) (ht : c.tree_address = tree) (hb : S.n ≤ buf.length)
    (body1 : Nat → Bytes × Ctx → C (Bytes × Ctx)) (body2 : Nat → Ctx → C Ctx)
    (hb1 : ∀ i b c', Scr S c c' → body1 i (b, c') = (do let ctx ← ts_set_wots_f_adr S.E c' kp d i; call_f S.E m1 b b ctx))
    (hb2 : ∀ i c' s', Scr S c c' → body2 i (c'.si s') = ts_set_wots_f_adr S.E (c'.si s') kp d i) :
    ∃ v1 c5 c', wots_prf S.E m1 buf kp d c = .ok (v1, c5) ∧ set_wots_prf_adr S.E (c.si s) kp d = .ok (c5.si s) ∧
      loop body1 cnt 0 (v1, c5) = .ok (chain S.hf S.pkSeed j tree kp d (wotsSk S.hf sk1 S.pkSeed j tree kp d) 0 cnt ++ buf.drop S.n, c') ∧
      loop body2 cnt 0 (c5.si s) = .ok (c'.si s) ∧ Scr S c c' ∧ Scr S c c5 := by
  obtain ⟨c4, e4, f4, s4, a4⟩ := HasAdr.two (s := s) g (set_wots_prf_adr_ok g kp d) (set_wots_prf_adr_si S.E c s kp d)
  rw [hj, ht] at a4
  have g4 := s4.good g
  obtain ⟨t1, e5, w1⟩ := call_prf_ok (out := buf) g4 p1 q1 a4 hb
  have g5 := g4.withSi w1
  have sc : Scr S c (c4.si t1) := s4.si_left w1
  have hp1 := length_PRF (S := S) S.pkSeed sk1 (Adrs.wotsPrf j tree kp d)
  have hl5 : (c4.si t1).hypertree_level = j := by rw [← hj]; exact congrArg Loc.hl sc.keep.loc
  have ht5 : (c4.si t1).tree_address = tree := by rw [← ht]; exact congrArg Loc.ta sc.keep.loc
  obtain ⟨o1, c', e6, f6, s6⟩ := chain_obs body1 body2 p1 cnt 0 (c4.si t1) s
    (S.hf.PRF S.pkSeed sk1 (Adrs.wotsPrf j tree kp d) ++ buf.drop S.n) g5 hl5 ht5
    (fun i b c' h => hb1 i b c' (sc.trans h)) (fun i c' s' h => hb2 i c' s' (sc.trans h))
    (show S.n ≤ (S.hf.PRF S.pkSeed sk1 (Adrs.wotsPrf j tree kp d) ++ buf.drop S.n).length by rw [List.length_append, hp1]; omega)
  obtain ⟨c1', e1', -⟩ := chain_loop (S := S) (mem := m1) (ctx := c4.si t1) (j := j) (tree := tree) (kp := kp) (c := d)
    (buf := S.hf.PRF S.pkSeed sk1 (Adrs.wotsPrf j tree kp d) ++ buf.drop S.n) g5 p1 hl5 ht5 0 cnt body1
    (fun i b c' h => hb1 i b c' (sc.trans h)) (by rw [List.length_append, hp1]; omega)
  rw [take_left' hp1, drop_left' hp1] at e1'
  have v1 : o1 = chain S.hf S.pkSeed j tree kp d (wotsSk S.hf sk1 S.pkSeed j tree kp d) 0 cnt ++ buf.drop S.n := by
    have := e6.symm.trans e1'
    simp only [Except.ok.injEq, Prod.mk.injEq] at this
    exact this.1
  refine ⟨_, c4.si t1, c', ?_, f4, by rw [← v1]; exact e6, f6, sc.trans s6, sc⟩
  rw [wots_prf, e4, ok_bind, e5]
  rfl

theorem SimC.of {P : Ctx → Prop} {x y : C Ctx} {c : Ctx} {s : TIter} (hx : x = .ok c) (hy : y = .ok (c.si s)) (h : P c) (w : WfIter s) : SimC P x y := by
  rw [hx, hy]; exact SimC.ok h w

/-- A WOTS+ public key. -/
theorem wots_leaf_obs {K : Observer.Known} {out : Bytes} {j tree idx : Nat} (g : Good S c) (w : WfIter s) (p1 : S.MemPub m1) (p2 : S.MemPub m2)
    (q1 : S.MemSec m1 sk1) (hhl : c.hypertree_level = j) (hta : c.tree_address = tree) (ho : S.n ≤ out.length)
    (heq : ∀ i, i < S.P.len → K.chainEnd j idx i = chainEnd S sk1 j tree idx i) :
    ∃ b c' t, ts_wots_leaf S.E m1 out idx c = .ok (b, c') ∧ Observer.ts_wots_leaf S.E m2 K out idx (c.si s) = .ok (b, c'.si t) ∧
      LeafFrame S S.cfg.MAX_HASH False c c' ∧ WfIter t ∧ b.length = out.length := by
  have hn := n_le (S := S)
  have hnm := S.facts.nmax
  obtain ⟨cf, ef, ff⟩ := ts_wots_leaf_ok (mem := m1) (idx := idx) g p1 q1 hhl hta ho
  have hlen : (wotsPkGen S.P S.hf sk1 S.pkSeed j tree idx ++ out.drop S.n).length = out.length := by
    rw [List.length_append, List.length_drop, show (wotsPkGen S.P S.hf sk1 S.pkSeed j tree idx).length = S.n from length_T _ _ _]; omega
  suffices h : ∃ t, WfIter t ∧ Observer.ts_wots_leaf S.E m2 K out idx (c.si s) = .ok (wotsPkGen S.P S.hf sk1 S.pkSeed j tree idx ++ out.drop S.n, cf.si t) by
    obtain ⟨t, w, e⟩ := h
    exact ⟨_, cf, t, ef, e, ff, w, hlen⟩
  obtain ⟨c1, e1, k1, s1, a1⟩ := HasAdr.two (s := s) g (ts_set_wots_header_adr_ok g idx) (set_wots_header_adr_si S.E c s idx)
  rw [hhl, hta] at a1
  have g1 := s1.good g
  obtain ⟨t2, e2, h2⟩ := call_init_t_ok g1 p1 a1 g1.bi
  have k2 : call_init_t S.E m2 (c1.si s).big_iter (c1.si s) = .ok t2 := (init_t_same (m1 := m1) g1 p1 p2).trans e2
  have f2 : LeafFrame S S.cfg.MAX_HASH False c { c1 with big_iter := t2 } := by
    have f1 := s1.frame (S := S) S.cfg.MAX_HASH False g
    exact ⟨⟨⟨g1.adr, g1.buf, g1.auth, g1.x, g1.si, h2.wf⟩, g1.ps, g1.pk, g1.pre⟩,
      ⟨f1.keep.st, f1.keep.bo, f1.keep.loc, f1.keep.ml, f1.keep.an⟩, f1.buf, f1.auth, f1.x, fun h => h.elim⟩
  have hcl : ∀ i, (chainEnd S sk1 j tree idx i).length = S.n := fun i => length_chain _ _ _ _ _ _ _ (length_PRF _ _ _)
  have L := SimC.loop
    (f := fun d ctx => do
      let buffer ← rdSlice ctx.x Config.merkleBufferOff S.E.cfg.MAX_HASH
      let (buffer, ctx) ← wots_prf S.E m1 buffer idx d ctx
      let (buffer, ctx) ← loop (fun i (s : Bytes × Ctx) => do
          let (buffer, ctx) := s
          let ctx ← ts_set_wots_f_adr S.E ctx idx d i
          call_f S.E m1 buffer buffer ctx) 15 0 (buffer, ctx)
      let ctx := { ctx with x := ← wrSlice ctx.x Config.merkleBufferOff buffer }
      let t ← call_next_t S.E ctx.big_iter buffer ctx
      .ok { ctx with big_iter := t })
    (g := fun d ctx => do
      let buffer ← rdSlice ctx.x Config.merkleBufferOff S.E.cfg.MAX_HASH
      let ctx ← set_wots_prf_adr S.E ctx idx d
      let ctx ← loop (fun i ctx => ts_set_wots_f_adr S.E ctx idx d i) 15 0 ctx
      let buffer ← wrSlice buffer 0 (K.chainEnd ctx.hypertree_level idx d)
      let ctx := { ctx with x := ← wrSlice ctx.x Config.merkleBufferOff buffer }
      let t ← call_next_t S.E ctx.big_iter buffer ctx
      .ok { ctx with big_iter := t })
    (P := fun d c' => LeafFrame S S.cfg.MAX_HASH False c c' ∧
      IterRep S c'.big_iter (Adrs.wotsPk j tree idx) ((List.range d).map (chainEnd S sk1 j tree idx)).flatten)
    (2 * S.n + 3) 0 (c := { c1 with big_iter := t2 }) (s := s) ⟨f2, by simpa using h2⟩ w
    (by
      rintro d c0 s0 - hd ⟨f, hit⟩ w0
      have g := f.good
      have hx := x_ge_hash c0 g.toShape
      have hhl' : c0.hypertree_level = j := by rw [← hhl]; exact congrArg Loc.hl f.keep.loc
      have hta' : c0.tree_address = tree := by rw [← hta]; exact congrArg Loc.ta f.keep.loc
      have hbl : (c0.x.take S.cfg.MAX_HASH).length = S.cfg.MAX_HASH := by simp; omega
      have hlt : d < S.P.len := by
        have h : S.P.n = S.n := rfl
        unfold Spec.Params.len; omega
      obtain ⟨v1, c5, c6, e5, k5, e6, k6, s6, s5⟩ := wots_chain_obs (m1 := m1) (s := s0) (kp := idx) (d := d) (cnt := 15)
        (buf := c0.x.take S.cfg.MAX_HASH) g p1 q1 hhl' hta' (by omega)
        (fun i (s : Bytes × Ctx) => do
          let (buffer, ctx) := s
          let ctx ← ts_set_wots_f_adr S.E ctx idx d i
          call_f S.E m1 buffer buffer ctx)
        (fun i ctx => ts_set_wots_f_adr S.E ctx idx d i) (fun i b c' _ => rfl) (fun i c' s' _ => rfl)
      have g6 := s6.good g
      change loop _ 15 0 _ = .ok (chainEnd S sk1 j tree idx d ++ _, c6) at e6
      have hbuf : (chainEnd S sk1 j tree idx d ++ (c0.x.take S.cfg.MAX_HASH).drop S.n).length = S.cfg.MAX_HASH := by
        rw [List.length_append, hcl, List.length_drop, hbl]; omega
      generalize hB : chainEnd S sk1 j tree idx d ++ (c0.x.take S.cfg.MAX_HASH).drop S.n = B at *
      have hBt : B.take S.n = chainEnd S sk1 j tree idx d := by rw [← hB, take_left' (hcl d)]
      have hx6 : c6.x = c0.x := s6.xx
      have hle : 0 + B.length ≤ c0.x.length := by omega
      have hlen := length_splice c0.x B 0 hle
      have g7 : Good S { c6 with x := c0.x.take 0 ++ B ++ c0.x.drop (0 + B.length) } :=
        ⟨⟨g6.adr, g6.buf, g6.auth, by rw [← g.x, ← hlen], g6.si, g6.bi⟩, g6.ps, g6.pk, g6.pre⟩
      have hit6 : IterRep S c6.big_iter (Adrs.wotsPk j tree idx) ((List.range d).map (chainEnd S sk1 j tree idx)).flatten := by
        rw [s6.big]; exact hit
      have hfl : ((List.range d).map (chainEnd S sk1 j tree idx)).flatten.length < 2 ^ 32 := by
        rw [length_flatten_range _ S.n _ (fun i _ => hcl i)]
        have : d * S.n ≤ 67 * 32 := Nat.mul_le_mul (by omega) hn
        omega
      obtain ⟨t8, e8, h8⟩ := call_next_t_ok (inp := B) g7 hit6 hfl (by omega)
      have key : ∀ t', call_next_t S.E (c6.si t').big_iter B { c6.si t' with x := c0.x.take 0 ++ B ++ c0.x.drop (0 + B.length) } = .ok t8 := fun _ => e8
      refine SimC.of (c := { c6 with x := c0.x.take 0 ++ B ++ c0.x.drop (0 + B.length), big_iter := t8 }) (s := s0) ?_ ?_ ⟨?_, ?_⟩ w0
      · rw [show Config.merkleBufferOff = 0 from rfl, rdSlice_zero (show S.cfg.MAX_HASH ≤ _ by omega), ok_bind, e5, ok_bind]
        simp only
        rw [e6, ok_bind]
        simp only
        rw [hx6, wrSlice_ok hle, ok_bind, e8, ok_bind]
      · have h6l : (c6.si s0).hypertree_level = j := by rw [← hhl']; exact congrArg Loc.hl s6.keep.loc
        rw [show Config.merkleBufferOff = 0 from rfl, show (c0.si s0).x = c0.x from rfl, rdSlice_zero (show S.cfg.MAX_HASH ≤ _ by omega), ok_bind, k5, ok_bind]
        rw [k6, ok_bind, show K.chainEnd (c6.si s0).hypertree_level idx d = chainEnd S sk1 j tree idx d from by rw [h6l]; exact heq d hlt,
          wr_front (hcl d) (by omega), ok_bind, hB]
        rw [show (c6.si s0).x = c0.x from hx6, wrSlice_ok hle, ok_bind]
        simp only
        rw [key s0, ok_bind]
        rfl
      · have k := s6.keep
        refine f.trans ⟨⟨⟨g7.adr, g7.buf, g7.auth, g7.x, g7.si, h8.wf⟩, g7.ps, g7.pk, g7.pre⟩,
          ⟨k.st, k.bo, k.loc, k.ml, k.an⟩, s6.buf, s6.auth, ?_, fun h => h.elim⟩
        intro i hi
        simp only
        rw [splice_getD _ _ _ _ hle, if_neg (by omega)]
      · rw [flatten_range_succ, ← hBt]; exact h8)
  unfold ts_wots_leaf at ef
  unfold Observer.ts_wots_leaf
  rw [e1, ok_bind, e2, ok_bind] at ef
  rw [k1, ok_bind, k2, ok_bind]
  simp only [ctx_n g1] at ef
  simp only [show (c1.si s).ps.n = S.n from ctx_n (g1.withSi w)]
  obtain ⟨c3, e3, ef⟩ := bind_ok_inv ef
  obtain ⟨⟨h3, hi3⟩, t3, w3, k3⟩ := L c3 e3
  obtain ⟨⟨o4, t4⟩, e4, ef⟩ := bind_ok_inv ef
  simp only [Except.ok.injEq, Prod.mk.injEq] at ef
  obtain ⟨rfl, rfl⟩ := ef
  refine ⟨t3, w3, ?_⟩
  show (loop _ _ _ (({ c1 with big_iter := t2 } : Ctx).si s) >>= _) = _
  rw [k3, ok_bind]
  show (call_final_t S.E out c3.big_iter c3 >>= _) = _
  rw [e4, ok_bind]
  rfl

end Model
