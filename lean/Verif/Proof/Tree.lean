import Verif.Proof.Wots
/-!
# Leaves and hash trees
-/
namespace Model
open Spec (Adrs toByte toInt)

/-- The members of a context that address a hash call. -/
structure Loc where
  (hl ft kp ta : Nat)

def Ctx.loc (c : Ctx) : Loc := ⟨c.hypertree_level, c.fors_tree, c.fors_keypair_addr, c.tree_address⟩

/-- The control members of two contexts agree. -/
structure Keep (c c' : Ctx) : Prop where
  st : c'.state = c.state
  bo : c'.buffer_offset = c.buffer_offset
  loc : c'.loc = c.loc
  ml : c'.merkle_level = c.merkle_level
  an : c'.auth_path_node = c.auth_path_node

theorem Keep.refl (c : Ctx) : Keep c c := ⟨rfl, rfl, rfl, rfl, rfl⟩
theorem Keep.trans {a b c : Ctx} (h : Keep a b) (h' : Keep b c) : Keep a c :=
  ⟨h'.st.trans h.st, h'.bo.trans h.bo, h'.loc.trans h.loc, h'.ml.trans h.ml, h'.an.trans h.an⟩

variable {S : Sess} {mem : Mem}

theorem Scr.keep {c c' : Ctx} (h : Scr S c c') : Keep c c' := by
  obtain ⟨_, _, rfl, _, _⟩ := h
  exact ⟨rfl, rfl, rfl, rfl, rfl⟩
theorem Scr.buf {c c' : Ctx} (h : Scr S c c') : c'.buffer = c.buffer := by
  obtain ⟨_, _, rfl, _, _⟩ := h; rfl
theorem Scr.auth {c c' : Ctx} (h : Scr S c c') : c'.auth_path_buffer = c.auth_path_buffer := by
  obtain ⟨_, _, rfl, _, _⟩ := h; rfl
theorem Scr.xx {c c' : Ctx} (h : Scr S c c') : c'.x = c.x := by
  obtain ⟨_, _, rfl, _, _⟩ := h; rfl
theorem Scr.big {c c' : Ctx} (h : Scr S c c') : c'.big_iter = c.big_iter := by
  obtain ⟨_, _, rfl, _, _⟩ := h; rfl

theorem HasAdr.scr {r : C Ctx} {ctx : Ctx} {a : Adrs} (g : Good S ctx) (h : HasAdr S r ctx a) :
    ∃ c, r = .ok c ∧ Scr S ctx c ∧ S.AdrIs c.adr a := by
  obtain ⟨adr, e, l, h⟩ := h
  exact ⟨_, e, ⟨adr, ctx.small_iter, rfl, l, g.si⟩, h⟩

theorem scr_si {ctx : Ctx} (g : Good S ctx) {si : TIter} (h : WfIter si) : Scr S ctx { ctx with small_iter := si } :=
  ⟨ctx.adr, si, rfl, g.adr, h⟩

theorem take_left' {a b : Bytes} {n : Nat} (h : a.length = n) : (a ++ b).take n = a := by
  subst h; simp

theorem drop_left' {a b : Bytes} {n : Nat} (h : a.length = n) : (a ++ b).drop n = b := by
  subst h; simp

/-- `prf` at a known address. -/
theorem prf_step {ctx : Ctx} {a : Adrs} {out sk : Bytes} (g : Good S ctx) (hm : S.MemPub mem)
    (hs : S.MemSec mem sk) (ha : S.AdrIs ctx.adr a) (ho : S.n ≤ out.length) :
    ∃ c, call_prf S.E mem out ctx = .ok (S.hf.PRF S.pkSeed sk a ++ out.drop S.n, c) ∧ Scr S ctx c ∧ c.adr = ctx.adr := by
  obtain ⟨si, e, w⟩ := call_prf_ok g hm hs ha ho
  exact ⟨_, e, scr_si g w, rfl⟩

theorem f_step {ctx : Ctx} {a : Adrs} {out inp : Bytes} (g : Good S ctx) (hm : S.MemPub mem)
    (ha : S.AdrIs ctx.adr a) (ho : S.n ≤ out.length) (hi : S.n ≤ inp.length) :
    ∃ c, call_f S.E mem out inp ctx = .ok (S.hf.F S.pkSeed a (inp.take S.n) ++ out.drop S.n, c) ∧ Scr S ctx c ∧
      c.adr = ctx.adr := by
  obtain ⟨si, e, w⟩ := call_f_ok g hm ha ho hi
  exact ⟨_, e, scr_si g w, rfl⟩

theorem combine_ok {ctx : Ctx} {a : Adrs} {out x y : Bytes} (g : Good S ctx) (hm : S.MemPub mem)
    (ha : S.AdrIs ctx.adr a) (hx : S.n ≤ x.length) (hy : S.n ≤ y.length) (ho : S.n ≤ out.length) :
    ∃ c, combine S.E mem out x y ctx =
      .ok (S.hf.T S.pkSeed a (x.take S.n ++ y.take S.n) ++ out.drop S.n, c) ∧ Scr S ctx c := by
  have hn := n_le (S := S)
  obtain ⟨t1, e1, h1⟩ := call_init_t_ok g hm ha g.si
  obtain ⟨t2, e2, h2⟩ := call_next_t_ok g h1 (by simp) hx
  obtain ⟨t3, e3, h3⟩ := call_next_t_ok g h2 (by simp; omega) hy
  obtain ⟨t4, e4, h4⟩ := call_final_t_ok (out := out) g h3 (by simp; omega) ho
  refine ⟨{ ctx with small_iter := t4 }, ?_, scr_si g h4⟩
  rw [combine, e1, ok_bind, e2, ok_bind, e3, ok_bind, e4, ok_bind]
  rfl

/-! ## FORS leaves -/

/-- Location of a context working on FORS tree `τ` of key pair `kp` of tree `tree`. -/
def Loc.fors (tree kp τ : Nat) : Loc := ⟨0, τ, kp, tree⟩
/-- Location of a context working on tree `tree` of layer `j`. -/
def Loc.ht (j tree : Nat) : Loc := ⟨j, 0, 0, tree⟩

theorem loc_hl {c : Ctx} {L : Loc} (h : c.loc = L) : c.hypertree_level = L.hl := by rw [← h]; rfl
theorem loc_ft {c : Ctx} {L : Loc} (h : c.loc = L) : c.fors_tree = L.ft := by rw [← h]; rfl
theorem loc_kp {c : Ctx} {L : Loc} (h : c.loc = L) : c.fors_keypair_addr = L.kp := by rw [← h]; rfl
theorem loc_ta {c : Ctx} {L : Loc} (h : c.loc = L) : c.tree_address = L.ta := by rw [← h]; rfl

theorem fors_prf_ok {ctx : Ctx} {out sk : Bytes} {tree kp τ idx : Nat} (g : Good S ctx) (hm : S.MemPub mem)
    (hs : S.MemSec mem sk) (hl : ctx.loc = Loc.fors tree kp τ) (hτ : τ < S.P.k) (hi : idx < 2 ^ S.P.a)
    (ho : S.n ≤ out.length) :
    ∃ c, fors_prf S.E mem out idx ctx =
      .ok (Spec.Slh.forsSk S.hf sk S.pkSeed tree kp (τ * 2 ^ S.P.a + idx) ++ out.drop S.n, c) ∧ Scr S ctx c := by
  have hft := loc_ft hl
  obtain ⟨c1, e1, s1, a1⟩ := (set_fors_prf_adr_ok g (by rw [hft]; exact hτ) hi).scr g
  rw [hft, loc_kp hl, loc_ta hl] at a1
  obtain ⟨c2, e2, s2, -⟩ := prf_step (s1.good g) hm hs a1 ho
  exact ⟨c2, by rw [fors_prf, e1, ok_bind, e2]; rfl, s1.trans s2⟩

theorem fors_leaf_ok {ctx : Ctx} {out sk : Bytes} {tree kp τ idx : Nat} (g : Good S ctx) (hm : S.MemPub mem)
    (hs : S.MemSec mem sk) (hl : ctx.loc = Loc.fors tree kp τ) (hτ : τ < S.P.k) (hi : idx < 2 ^ S.P.a)
    (ho : S.n ≤ out.length) :
    ∃ c, fors_leaf S.E mem out idx ctx =
      .ok (Spec.Slh.forsNode S.hf sk S.pkSeed tree kp (τ * 2 ^ S.P.a + idx) 0 ++ out.drop S.n, c) ∧ Scr S ctx c := by
  have hft := loc_ft hl
  obtain ⟨c1, e1, s1, a1⟩ := (set_fors_prf_adr_ok g (by rw [hft]; exact hτ) hi).scr g
  rw [hft, loc_kp hl, loc_ta hl] at a1
  obtain ⟨c2, e2, s2, ha2⟩ := prf_step (s1.good g) hm hs a1 ho
  have g2 := s2.good (s1.good g)
  have hpl := length_PRF (S := S) S.pkSeed sk (Adrs.forsPrf tree kp (τ * 2 ^ S.P.a + idx))
  obtain ⟨adr3, e3, l3, u3⟩ := set_type_ok ADR_TYPE_FORSTREE g2.adrCtx
  have a3 := u3 _ (by rw [ha2]; exact a1)
  have g3 := g2.withAdr l3
  obtain ⟨c4, e4, s4, -⟩ := f_step (out := S.hf.PRF S.pkSeed sk (Adrs.forsPrf tree kp (τ * 2 ^ S.P.a + idx)) ++ out.drop S.n)
    (inp := S.hf.PRF S.pkSeed sk (Adrs.forsPrf tree kp (τ * 2 ^ S.P.a + idx)) ++ out.drop S.n) g3 hm a3
    (by simp [hpl]) (by simp [hpl])
  rw [take_left' hpl, drop_left' hpl] at e4
  refine ⟨c4, ?_, s1.trans (s2.trans (Scr.trans ⟨adr3, c2.small_iter, rfl, l3, g2.si⟩ s4))⟩
  simp only [fors_leaf]
  rw [e1, ok_bind]
  simp only [Loc.fors] at e2 ⊢
  simp only [Adrs.forsPrf] at e2 e4
  rw [e2, ok_bind]
  simp only
  rw [e3, ok_bind, e4]
  rfl

/-! ## WOTS+ chains and leaves -/

theorem length_chain (j tree kp c : Nat) (X : Bytes) (i s : Nat) (hX : X.length = S.n) :
    (Spec.Slh.chain S.hf S.pkSeed j tree kp c X i s).length = S.n := by
  cases s with
  | zero => exact hX
  | succ s => exact length_F _ _ _

/-- The hash chain loops, tiny_sphincs.c:408-411, 425-428, verify.c:184-187. -/
theorem chain_loop {ctx : Ctx} {buf : Bytes} {j tree kp c : Nat} (g : Good S ctx) (hm : S.MemPub mem)
    (hhl : ctx.hypertree_level = j) (hta : ctx.tree_address = tree) (start count : Nat)
    (body : Nat → Bytes × Ctx → C (Bytes × Ctx))
    (hbody : ∀ i b c', Scr S ctx c' → body i (b, c') = (do
      let ctx ← ts_set_wots_f_adr S.E c' kp c i
      call_f S.E mem b b ctx)) (hb : S.n ≤ buf.length) :
    ∃ c', loop body count start (buf, ctx) =
      .ok (Spec.Slh.chain S.hf S.pkSeed j tree kp c (buf.take S.n) start count ++ buf.drop S.n, c') ∧ Scr S ctx c' := by
  obtain ⟨⟨b', c'⟩, e, h1, h2⟩ := loop_inv (body := body)
    (fun i s => Scr S ctx s.2 ∧
      s.1 = Spec.Slh.chain S.hf S.pkSeed j tree kp c (buf.take S.n) start (i - start) ++ buf.drop S.n)
    count start (buf, ctx) ⟨Scr.refl g, by simp [Spec.Slh.chain]⟩
    (by
      rintro i ⟨b, c1⟩ hs1 hlt ⟨s1, hb1⟩
      simp only at s1 hb1
      have g1 := s1.good g
      have hcl : (Spec.Slh.chain S.hf S.pkSeed j tree kp c (buf.take S.n) start (i - start)).length = S.n :=
        length_chain _ _ _ _ _ _ _ (by simp; omega)
      have hbl : S.n ≤ b.length := by rw [hb1]; simp [hcl]
      obtain ⟨c2, e2, s2, a2⟩ := (ts_set_wots_f_adr_ok g1 kp c i).scr g1
      have k1 := s1.keep
      have hl1 : c1.hypertree_level = j := by rw [← hhl]; exact congrArg Loc.hl k1.loc
      have ht1 : c1.tree_address = tree := by rw [← hta]; exact congrArg Loc.ta k1.loc
      rw [hl1, ht1] at a2
      obtain ⟨c3, e3, s3, -⟩ := f_step (s2.good g1) hm a2 hbl hbl
      refine ⟨_, by rw [hbody _ _ _ s1, e2, ok_bind, e3], s1.trans (s2.trans s3), ?_⟩
      simp only
      rw [hb1, take_left' hcl, drop_left' hcl, show i + 1 - start = i - start + 1 by omega, Spec.Slh.chain,
        show start + (i - start) = i by omega])
  simp only at h1 h2
  refine ⟨c', ?_, h1⟩
  rw [e, h2, show start + count - start = count by omega]

/-- What computing a leaf may change: scratch members, and the part of the union in front of `off`. -/
structure LeafFrame (S : Sess) (off : Nat) (kb : Prop) (c c' : Ctx) : Prop where
  good : Good S c'
  keep : Keep c c'
  buf : c'.buffer = c.buffer
  auth : c'.auth_path_buffer = c.auth_path_buffer
  x : ∀ i, off ≤ i → c'.x.getD i 0 = c.x.getD i 0
  big : kb → c'.big_iter = c.big_iter ∧ c'.x = c.x

theorem Scr.frame {c c' : Ctx} (off : Nat) (kb : Prop) (g : Good S c) (h : Scr S c c') : LeafFrame S off kb c c' :=
  ⟨h.good g, h.keep, h.buf, h.auth, fun i _ => by rw [h.xx], fun _ => ⟨h.big, h.xx⟩⟩

theorem LeafFrame.trans {off : Nat} {kb : Prop} {a b c : Ctx} (h : LeafFrame S off kb a b) (h' : LeafFrame S off kb b c) :
    LeafFrame S off kb a c :=
  ⟨h'.good, h.keep.trans h'.keep, h'.buf.trans h.buf, h'.auth.trans h.auth,
    fun i hi => (h'.x i hi).trans (h.x i hi),
    fun k => ⟨(h'.big k).1.trans (h.big k).1, (h'.big k).2.trans (h.big k).2⟩⟩

/-- The end of chain `i`. -/
def chainEnd (S : Sess) (sk : Bytes) (j tree kp i : Nat) : Bytes :=
  Spec.Slh.chain S.hf S.pkSeed j tree kp i (Spec.Slh.wotsSk S.hf sk S.pkSeed j tree kp i) 0 15

theorem length_flatten_range (f : Nat → Bytes) (n m : Nat) (h : ∀ i, i < m → (f i).length = n) :
    ((List.range m).map f).flatten.length = m * n := by
  induction m with
  | zero => simp
  | succ m ih =>
    rw [List.range_succ, List.map_append, List.flatten_append, List.length_append, ih (fun i hi => h i (by omega))]
    simp [h m (by omega), Nat.succ_mul]

theorem flatten_range_succ (f : Nat → Bytes) (m : Nat) :
    ((List.range (m + 1)).map f).flatten = ((List.range m).map f).flatten ++ f m := by
  rw [List.range_succ, List.map_append, List.flatten_append]; simp

theorem x_ge_hash (ctx : Ctx) (g : Shape S.cfg ctx) : S.cfg.MAX_HASH + S.cfg.merkleStackSize ≤ ctx.x.length := by
  rw [g.x]; exact S.cfg.merkleSize_le

theorem ts_wots_leaf_ok {ctx : Ctx} {out sk : Bytes} {j tree idx : Nat} (g : Good S ctx) (hm : S.MemPub mem)
    (hs : S.MemSec mem sk) (hhl : ctx.hypertree_level = j) (hta : ctx.tree_address = tree) (ho : S.n ≤ out.length) :
    ∃ c, ts_wots_leaf S.E mem out idx ctx =
      .ok (Spec.Slh.wotsPkGen S.P S.hf sk S.pkSeed j tree idx ++ out.drop S.n, c) ∧
      LeafFrame S S.cfg.MAX_HASH False ctx c := by
  have hn := n_le (S := S)
  have hnm := S.facts.nmax
  obtain ⟨c1, e1, s1, a1⟩ := (ts_set_wots_header_adr_ok g idx).scr g
  rw [hhl, hta] at a1
  have g1 := s1.good g
  obtain ⟨t2, e2, h2⟩ := call_init_t_ok g1 hm a1 g1.bi
  have f2 : LeafFrame S S.cfg.MAX_HASH False ctx { c1 with big_iter := t2 } := by
    have f1 := s1.frame (S := S) S.cfg.MAX_HASH False g
    exact ⟨⟨⟨g1.adr, g1.buf, g1.auth, g1.x, g1.si, h2.wf⟩, g1.ps, g1.pk, g1.pre⟩,
      ⟨f1.keep.st, f1.keep.bo, f1.keep.loc, f1.keep.ml, f1.keep.an⟩, f1.buf, f1.auth, f1.x, fun h => h.elim⟩
  have hcl : ∀ i, (chainEnd S sk j tree idx i).length = S.n := fun i => length_chain _ _ _ _ _ _ _ (length_PRF _ _ _)
  obtain ⟨c3, e3, h3, hi3⟩ := loop_inv
    (body := fun d ctx => do
      let buffer ← rdSlice ctx.x Config.merkleBufferOff S.E.cfg.MAX_HASH
      let (buffer, ctx) ← wots_prf S.E mem buffer idx d ctx
      let (buffer, ctx) ← loop (fun i (s : Bytes × Ctx) => do
          let (buffer, ctx) := s
          let ctx ← ts_set_wots_f_adr S.E ctx idx d i
          call_f S.E mem buffer buffer ctx) 15 0 (buffer, ctx)
      let ctx := { ctx with x := ← wrSlice ctx.x Config.merkleBufferOff buffer }
      let t ← call_next_t S.E ctx.big_iter buffer ctx
      .ok { ctx with big_iter := t })
    (fun d c => LeafFrame S S.cfg.MAX_HASH False ctx c ∧
      IterRep S c.big_iter (Adrs.wotsPk j tree idx) ((List.range d).map (chainEnd S sk j tree idx)).flatten)
    (2 * S.n + 3) 0 { c1 with big_iter := t2 } ⟨f2, by simpa using h2⟩
    (by
      rintro d c - hd ⟨f, hit⟩
      have g := f.good
      have hx := x_ge_hash c g.toShape
      have hhl' : c.hypertree_level = j := by rw [← hhl]; exact congrArg Loc.hl f.keep.loc
      have hta' : c.tree_address = tree := by rw [← hta]; exact congrArg Loc.ta f.keep.loc
      have hbl : (c.x.take S.cfg.MAX_HASH).length = S.cfg.MAX_HASH := by simp; omega
      obtain ⟨c4, e4, s4, a4⟩ := (set_wots_prf_adr_ok g idx d).scr g
      rw [hhl', hta'] at a4
      have g4 := s4.good g
      obtain ⟨c5, e5, s5, -⟩ := prf_step (out := c.x.take S.cfg.MAX_HASH) g4 hm hs a4 (by omega)
      have g5 := s5.good g4
      have s45 := s4.trans s5
      have hpl := length_PRF (S := S) S.pkSeed sk (Adrs.wotsPrf j tree idx d)
      obtain ⟨c6, e6, s6⟩ := chain_loop (S := S) (mem := mem) (ctx := c5) (j := j) (tree := tree) (kp := idx) (c := d)
        (buf := S.hf.PRF S.pkSeed sk (Adrs.wotsPrf j tree idx d) ++ (c.x.take S.cfg.MAX_HASH).drop S.n) g5 hm
        (by rw [← hhl']; exact congrArg Loc.hl s45.keep.loc) (by rw [← hta']; exact congrArg Loc.ta s45.keep.loc) 0 15
        (fun i (s : Bytes × Ctx) => do
          let (buffer, ctx) := s
          let ctx ← ts_set_wots_f_adr S.E ctx idx d i
          call_f S.E mem buffer buffer ctx) (fun i b c' _ => rfl) (by simp [hpl])
      rw [take_left' hpl, drop_left' hpl] at e6
      have s46 := s45.trans s6
      have g6 := s6.good g5
      change loop _ 15 0 _ = .ok (chainEnd S sk j tree idx d ++ _, c6) at e6
      have hbuf : (chainEnd S sk j tree idx d ++ (c.x.take S.cfg.MAX_HASH).drop S.n).length = S.cfg.MAX_HASH := by
        rw [List.length_append, hcl, List.length_drop, hbl]; omega
      generalize hB : chainEnd S sk j tree idx d ++ (c.x.take S.cfg.MAX_HASH).drop S.n = B at *
      have hBt : B.take S.n = chainEnd S sk j tree idx d := by rw [← hB, take_left' (hcl d)]
      have hx6 : c6.x = c.x := s46.xx
      have hle : 0 + B.length ≤ c.x.length := by omega
      have hlen := length_splice c.x B 0 hle
      have g7 : Good S { c6 with x := c.x.take 0 ++ B ++ c.x.drop (0 + B.length) } :=
        ⟨⟨g6.adr, g6.buf, g6.auth, by rw [← g.x, ← hlen], g6.si, g6.bi⟩, g6.ps, g6.pk, g6.pre⟩
      have hit6 : IterRep S c6.big_iter (Adrs.wotsPk j tree idx) ((List.range d).map (chainEnd S sk j tree idx)).flatten := by
        rw [s46.big]; exact hit
      have hfl : ((List.range d).map (chainEnd S sk j tree idx)).flatten.length < 2 ^ 32 := by
        rw [length_flatten_range _ S.n _ (fun i _ => hcl i)]
        have : d * S.n ≤ 67 * 32 := Nat.mul_le_mul (by omega) hn
        omega
      obtain ⟨t8, e8, h8⟩ := call_next_t_ok (inp := B) g7 hit6 hfl (by omega)
      refine ⟨{ c6 with x := c.x.take 0 ++ B ++ c.x.drop (0 + B.length), big_iter := t8 }, ?_, ?_, ?_⟩
      · rw [show Config.merkleBufferOff = 0 from rfl, rdSlice_zero (show S.cfg.MAX_HASH ≤ _ by omega), ok_bind, wots_prf, e4, ok_bind, e5, ok_bind]
        simp only
        rw [e6, ok_bind]
        simp only
        rw [hx6, wrSlice_ok hle, ok_bind, e8, ok_bind]
      · have k := s46.keep
        refine f.trans ⟨⟨⟨g7.adr, g7.buf, g7.auth, g7.x, g7.si, h8.wf⟩, g7.ps, g7.pk, g7.pre⟩,
          ⟨k.st, k.bo, k.loc, k.ml, k.an⟩, s46.buf, s46.auth, ?_, fun h => h.elim⟩
        intro i hi
        simp only
        rw [splice_getD _ _ _ _ hle, if_neg (by omega)]
      · rw [flatten_range_succ, ← hBt]; exact h8)
  simp only [Nat.zero_add] at h3 hi3
  have hfl : ((List.range (2 * S.n + 3)).map (chainEnd S sk j tree idx)).flatten.length < 2 ^ 32 := by
    rw [length_flatten_range _ S.n _ (fun i _ => hcl i)]
    have : (2 * S.n + 3) * S.n ≤ 67 * 32 := Nat.mul_le_mul (by omega) hn
    omega
  obtain ⟨t4, e4, w4⟩ := call_final_t_ok (out := out) h3.good hi3 hfl ho
  refine ⟨{ c3 with big_iter := t4 }, ?_, ?_⟩
  · unfold ts_wots_leaf
    rw [e1, ok_bind, e2, ok_bind]
    simp only [ctx_n g1]
    rw [e3, ok_bind, e4, ok_bind]
    rfl
  · have g3 := h3.good
    have k := h3.keep
    exact ⟨⟨⟨g3.adr, g3.buf, g3.auth, g3.x, g3.si, w4⟩, g3.ps, g3.pk, g3.pre⟩,
      ⟨k.st, k.bo, k.loc, k.ml, k.an⟩, h3.buf, h3.auth, h3.x, fun h => h.elim⟩

end Model
