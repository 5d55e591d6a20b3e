import Verif.Proof.ResiduePath
import Verif.Proof.Jobs
/-!
# The signer's steps and the observer's steps
-/
namespace Model
open Spec Spec.Slh

variable {S : Sess} {m1 m2 : Mem} {K : Observer.Known}

/-- The tables hold the images of the secret values. -/
structure Images (D : SignData S) (K : Observer.Known) : Prop where
  fors : ∀ τ i, τ < S.P.k → i < 2 ^ S.P.a → K.forsLeaf (τ * 2 ^ S.P.a + i) = forsNode S.hf D.sk S.pkSeed D.tree D.leaf (τ * 2 ^ S.P.a + i) 0
  wots : ∀ j kp i, j < S.P.d → kp < 2 ^ S.P.hp → i < S.P.len → K.chainEnd j kp i = chainEnd S D.sk j (D.treeAt j) kp i

/-- A FORS leaf computed from its secret value. -/
theorem fors_leaf_elem {c : Ctx} {s : TIter} {sk1 out elem : Bytes} {tree kp τ idx : Nat} (g : Good S c) (w : WfIter s) (p1 : S.MemPub m1) (p2 : S.MemPub m2)
    (q1 : S.MemSec m1 sk1) (hl : c.loc = Loc.fors tree kp τ) (hτ : τ < S.P.k) (hi : idx < 2 ^ S.P.a) (ho : S.n ≤ out.length)
    (he : elem = forsSk S.hf sk1 S.pkSeed tree kp (τ * 2 ^ S.P.a + idx)) :
    (do let ctx ← set_fors_prf_adr S.E (c.si s) idx
        let a ← wrSlice out 0 elem
        let ctx ← set_type_adr S.E ADR_TYPE_FORSTREE ctx
        call_f S.E m2 a a ctx) = fors_leaf S.E m1 out idx c := by
  have hft := loc_ft hl
  obtain ⟨c1, e1, f1, s1, a1⟩ := HasAdr.two (s := s) g (set_fors_prf_adr_ok g (by rw [hft]; exact hτ) hi) (set_fors_prf_adr_si S.E c s idx)
  rw [hft, loc_kp hl, loc_ta hl] at a1
  have g1 := s1.good g
  obtain ⟨t1, e2, w1⟩ := call_prf_ok (out := out) g1 p1 q1 a1 ho
  simp only [Loc.fors] at e2
  have hp1 := length_PRF (S := S) S.pkSeed sk1 (Adrs.forsPrf tree kp (τ * 2 ^ S.P.a + idx))
  have g2 := g1.withSi w1
  obtain ⟨adr3, e3, l3, u3⟩ := set_type_ok ADR_TYPE_FORSTREE g2.adrCtx
  have a3 := u3 _ (show S.AdrIs (c1.si t1).adr _ from a1)
  have g3 := g2.withAdr l3
  generalize hc3 : ({ c1.si t1 with adr := adr3 } : Ctx) = c3 at *
  have f3 : set_type_adr S.E ADR_TYPE_FORSTREE (c1.si s) = .ok (c3.si s) := by
    have := set_type_si S.E (c1.si t1) s ADR_TYPE_FORSTREE
    rw [e3] at this
    exact this
  have a3' : S.AdrIs c3.adr { Adrs.forsPrf tree kp (τ * 2 ^ S.P.a + idx) with type := ADR_TYPE_FORSTREE } := by rw [← hc3]; exact a3
  have he' : elem = S.hf.PRF S.pkSeed sk1 (Adrs.forsPrf tree kp (τ * 2 ^ S.P.a + idx)) := he
  rw [f1, ok_bind, wr_front (show elem.length = S.n by rw [he']; exact hp1) ho, ok_bind, f3, ok_bind, fors_leaf, e1, ok_bind, e2, ok_bind]
  change _ = (set_type_adr S.E ADR_TYPE_FORSTREE (c1.si t1) >>= _)
  rw [e3, ok_bind, he']
  exact call_f_same (s := s) g3 w p1 p2 a3' (by rw [List.length_append, hp1]; omega)

variable (D : SignData S)

theorem forsLeaf_two (p1 : S.MemPub m1) (q1 : S.MemSec m1 D.sk) (tw : Images D K) {τ : Nat} (hτ : τ < S.P.k) :
    LeafTwo S (fors_leaf S.E m1) (Observer.fors_leaf S.E K) (Loc.fors D.tree D.leaf τ) (2 ^ S.P.a) := by
  intro c s out idx g w hl ho hi
  obtain ⟨b, c', e1, e2, sc, lb⟩ := fors_leaf_obs (s := s) g p1 q1 hl hτ hi ho (tw.fors τ idx hτ hi)
  exact ⟨b, c', s, e1, e2, sc.good g, sc.keep.loc.trans hl, w, lb⟩

theorem wotsLeaf_two (p1 : S.MemPub m1) (p2 : S.MemPub m2) (q1 : S.MemSec m1 D.sk) (tw : Images D K) {j : Nat} (hj : j < S.P.d) :
    LeafTwo S (ts_wots_leaf S.E m1) (Observer.ts_wots_leaf S.E m2 K) (Loc.ht j (D.treeAt j)) (2 ^ S.P.hp) := by
  intro c s out idx g w hl ho hi
  obtain ⟨b, c', t, e1, e2, f, wt, lb⟩ := wots_leaf_obs g w p1 p2 q1 (loc_hl hl) (loc_ta hl) ho (fun i h => tw.wots j idx i hj hi h)
  exact ⟨b, c', t, e1, e2, f.good, f.keep.loc.trans hl, wt, lb⟩

theorem signFors_two {c c' : Ctx} {s : TIter} {τ l : Nat} (p1 : S.MemPub m1) (p2 : S.MemPub m2) (q1 : S.MemSec m1 D.sk)
    (tw : Images D K) (w : WfIter s) (h : D.Inv (.fors τ l) c) (h1 : signFors S.E m1 c = .ok c') : Observer.signFors S.E m2 K (c.si s) = .ok c' := by
  obtain ⟨g, hτ, hl, hst, hloc, hfn, hit, hml, han, hau⟩ := h
  unfold signFors at h1
  unfold Observer.signFors
  obtain ⟨c1, e1, h1⟩ := bind_ok_inv h1
  rw [merkle_path_two p1 p2 g w hloc hτ S.facts.tle (forsLeaf_two D p1 q1 tw hτ) hml.symm hl han (D.hidx τ) e1, ok_bind]
  exact h1

theorem signMerkle_two {c c' : Ctx} {s : TIter} {j l : Nat} (p1 : S.MemPub m1) (p2 : S.MemPub m2) (q1 : S.MemSec m1 D.sk)
    (tw : Images D K) (w : WfIter s) (h : D.Inv (.merkle j l) c) (h1 : signMerkle S.E m1 c = .ok c') : Observer.signMerkle S.E m2 K (c.si s) = .ok c' := by
  obtain ⟨g, hj, hl, hst, hloc, han, hml, hau⟩ := h
  unfold signMerkle at h1
  unfold Observer.signMerkle
  obtain ⟨c1, e1, h1⟩ := bind_ok_inv h1
  rw [merkle_path_two p1 p2 g w hloc (by have := S.facts.kge; show 0 < S.P.k; omega) (by have := S.facts.hle; omega)
    (wotsLeaf_two D p1 p2 q1 tw hj) hml.symm hl han (D.leafAt_lt j) e1, ok_bind]
  exact h1

theorem signForsLeaf_two {c c' : Ctx} {s : TIter} {τ : Nat} {elem : Bytes} (p1 : S.MemPub m1) (p2 : S.MemPub m2) (q1 : S.MemSec m1 D.sk)
    (w : WfIter s) (h : D.Inv (.forsLeaf τ) c)
    (hsk : elem = forsSk S.hf D.sk S.pkSeed D.tree D.leaf (τ * 2 ^ S.P.a + D.idx.getD τ 0))
    (h1 : signForsLeaf S.E m1 c = .ok c') : Observer.signForsLeaf S.E m2 elem (c.si s) = .ok c' := by
  obtain ⟨g, hτ, hst, hloc, hfn, hit⟩ := h
  have F := S.facts
  have hmx := F.nmax
  have hx := x_ge_fors c g.toShape
  have hi := idx_lt16 D τ
  have hget : getForsNode S.E c.x c.fors_tree = .ok (D.idx.getD τ 0) := by
    rw [loc_ft hloc]
    exact (hfn τ hτ).get (by unfold MAX_FORS; show τ < 35; have := F.kle; omega) (by omega) (by omega)
  let c1 : Ctx := { c with auth_path_node := D.idx.getD τ 0 }
  have g1 : Good S c1 := ⟨⟨g.adr, g.buf, g.auth, g.x, g.si, g.bi⟩, g.ps, g.pk, g.pre⟩
  have hft := loc_ft (show c1.loc = _ from hloc)
  obtain ⟨c2, e2, f2, s2, a2⟩ := HasAdr.two (s := s) g1 (set_fors_prf_adr_ok (idx := D.idx.getD τ 0) g1 (by rw [hft]; exact hτ) (D.hidx τ))
    (set_fors_prf_adr_si S.E c1 s (D.idx.getD τ 0))
  rw [hft, loc_kp (show c1.loc = _ from hloc), loc_ta (show c1.loc = _ from hloc)] at a2
  have g2 := s2.good g1
  obtain ⟨t1, e3, w1⟩ := call_prf_ok (out := c.buffer) g2 p1 q1 a2 (by rw [g.buf]; exact hmx)
  simp only [Loc.fors] at e3
  have hsk' : elem = S.hf.PRF S.pkSeed D.sk (Adrs.forsPrf D.tree D.leaf (τ * 2 ^ S.P.a + D.idx.getD τ 0)) := hsk
  have hpl := length_PRF (S := S) S.pkSeed D.sk (Adrs.forsPrf D.tree D.leaf (τ * 2 ^ S.P.a + D.idx.getD τ 0))
  rw [← hsk'] at e3 hpl
  let c3 : Ctx := { c2.si t1 with buffer := elem ++ c.buffer.drop S.n, buffer_offset := 0, merkle_level := 0, state := .fors }
  have g3 : Good S c3 := ⟨⟨g2.adr, by show (elem ++ c.buffer.drop S.n).length = _; rw [List.length_append, hpl, List.length_drop, g.buf]; omega, g2.auth, g2.x, w1, g2.bi⟩, g2.ps, g2.pk, g2.pre⟩
  have L := fors_leaf_elem (s := s) (out := c3.auth_path_buffer) (idx := D.idx.getD τ 0) (elem := elem) g3 w p1 p2 q1
    (show c3.loc = Loc.fors D.tree D.leaf τ from s2.keep.loc.trans hloc) hτ (D.hidx τ) (by rw [g3.auth]; exact hmx) hsk
  have P1 : fors_prf S.E m1 c.buffer (D.idx.getD τ 0) c1 = .ok (elem ++ c.buffer.drop S.n, c2.si t1) := by unfold fors_prf; rw [e2, ok_bind, e3]; rfl
  have E1 : signForsLeaf S.E m1 c = fors_leaf S.E m1 c3.auth_path_buffer (D.idx.getD τ 0) c3 >>= fun p => .ok { p.2 with auth_path_buffer := p.1 } := by
    unfold signForsLeaf
    rw [hget, ok_bind]
    simp only
    rw [show fors_prf S.E m1 _ _ _ = _ from P1, ok_bind]
  rw [← h1, E1, ← L]
  unfold Observer.signForsLeaf
  rw [show getForsNode S.E (c.si s).x (c.si s).fors_tree = _ from hget, ok_bind]
  simp only
  change (set_fors_prf_adr S.E (c1.si s) (D.idx.getD τ 0) >>= _) = _
  rw [f2, ok_bind]
  have hb2 : c2.buffer = c.buffer := s2.buf
  rw [show (c2.si s).buffer = c.buffer from hb2, wr_front hpl (by rw [g.buf]; exact hmx), ok_bind]
  obtain ⟨c4, -, f4, s4, -⟩ := HasAdr.two (s := s) g3 (set_fors_prf_adr_ok (idx := D.idx.getD τ 0) g3
    (by rw [loc_ft (show c3.loc = _ from s2.keep.loc.trans hloc)]; exact hτ) (D.hidx τ)) (set_fors_prf_adr_si S.E c3 s (D.idx.getD τ 0))
  rw [f4, ok_bind]
  change (set_fors_prf_adr S.E (c3.si s) (D.idx.getD τ 0) >>= _) = _
  rw [f4, ok_bind, show (c4.si s).auth_path_buffer = c3.auth_path_buffer from s4.auth]
  simp only [bind_assoc]

theorem signWots_two {c c' : Ctx} {s : TIter} {j i : Nat} {elem : Bytes} (p1 : S.MemPub m1) (p2 : S.MemPub m2) (q1 : S.MemSec m1 D.sk) 
    (tw : Images D K) (w : WfIter s) (h : D.Inv (.wots j i) c)
    (hch : elem = chain S.hf S.pkSeed j (D.treeAt j) (D.leafAt j) i (wotsSk S.hf D.sk S.pkSeed j (D.treeAt j) (D.leafAt j) i) 0 ((wotsDigits S.P (D.msgAt j)).getD i 0))
    (h1 : signWots S.E m1 c = .ok c') : ∃ t, WfIter t ∧ Observer.signWots S.E m2 K elem (c.si s) = .ok (c'.si t) := by
  obtain ⟨g, hj, hi, hst, hloc, han, hw⟩ := h
  have F := S.facts
  have hmx := F.nmax
  have hx := x_ge_digits c g.toShape
  have hd := digits_le (S := S)
  have h67 := len_le67 (S := S)
  have hiv : (c.x.getD 0 0).toNat = i := by rw [hw.1, UInt8.toNat_ofNat']; omega
  have hw1 := hw.next (by omega)
  obtain ⟨c0', e0', g0', p1', p2', p3', p4', p5', p6', p7'⟩ := generate_next_ok (mem := m1) (sk := D.sk) p1 q1 g hi hloc han hw
  let c1 : Ctx := { c with x := c.x.set 0 (c.x.getD 0 0 + 1) }
  have g1 : Good S c1 := ⟨⟨g.adr, g.buf, g.auth, by show (c.x.set 0 _).length = _; rw [List.length_set, g.x], g.si, g.bi⟩, g.ps, g.pk, g.pre⟩
  have hl1 : c1.loc = Loc.ht j (D.treeAt j) := hloc
  obtain ⟨v1, c5, c6, e5, k5, e6, k6, s6, s5⟩ := wots_chain_obs (m1 := m1) (s := s) (j := j) (tree := D.treeAt j) (kp := D.leafAt j) (d := i)
    (cnt := (wotsDigits S.P (D.msgAt j)).getD i 0) (buf := c.buffer) g1 p1 q1 (loc_hl hl1) (loc_ta hl1) (by rw [g.buf]; exact hmx)
    (fun i_1 (s : Bytes × Ctx) => do
      let (b, ctx) := s
      let ctx ← ts_set_wots_f_adr S.E ctx ctx.auth_path_node i i_1
      call_f S.E m1 b b ctx)
    (fun i_1 ctx => ts_set_wots_f_adr S.E ctx ctx.auth_path_node i i_1)
    (fun q b c' hsc => by
      simp only
      rw [hsc.keep.an, show c1.auth_path_node = D.leafAt j from han])
    (fun q c' s' hsc => by
      rw [show (c'.si s').auth_path_node = c'.auth_path_node from rfl, hsc.keep.an, show c1.auth_path_node = D.leafAt j from han])
  have hdig : ∀ t, getWotsDigit S.E (c5.si t) i = .ok ((wotsDigits S.P (D.msgAt j)).getD i 0) := by
    intro t
    unfold getWotsDigit Config.wotsDigitsOff
    have hx3 : (c5.si t).x = c1.x := s5.xx
    have hx1 : c1.x.length = c.x.length := by show (c.x.set 0 _).length = _; simp
    rw [if_pos (show i < S.cfg.MAX_WOTS_DIGITS by omega), rd_getD 0 (by rw [hx3]; omega), ok_bind, hx3, hw1.2 i hi]
  have hdig0 := hdig c5.small_iter
  rw [show c5.si c5.small_iter = c5 from rfl] at hdig0
  have hel : elem.length = S.n := by rw [hch]; exact length_chain _ _ _ _ _ _ _ (length_PRF _ _ _)
  rw [← hch] at e6
  let c7 : Ctx := { c6 with buffer := elem ++ c.buffer.drop S.n, buffer_offset := 0 }
  have P1 : wots_prf S.E m1 c.buffer c.auth_path_node i c1 = .ok (v1, c5) := by rw [han]; exact e5
  have P2 : set_wots_prf_adr S.E (c1.si s) c.auth_path_node i = .ok (c5.si s) := by rw [han]; exact k5
  have E1 : generate_next_wots_hash S.E m1 c = .ok c7 := by
    unfold generate_next_wots_hash Config.wotsDigitOff
    rw [rd_getD 0 (by omega), ok_bind, wr_ok _ (by omega), ok_bind]
    simp only [hiv]
    rw [show wots_prf S.E m1 c.buffer c.auth_path_node i _ = _ from P1, ok_bind]
    simp only
    rw [hdig0, ok_bind, show loop _ _ 0 (v1, c5) = _ from e6, ok_bind]
  have h07 : c0' = c7 := Except.ok.inj (e0'.symm.trans E1)
  rw [h07] at g0' p2' p3' p4' p5' p6'
  have hc7 : ({ c6.si s with buffer := elem ++ c.buffer.drop S.n, buffer_offset := 0 } : Ctx) = c7.si s := rfl
  clear_value c7
  have hx0 := x_ge_digits c7 g0'.toShape
  have hl0 : c7.loc = Loc.ht j (D.treeAt j) := p2'.trans hloc
  unfold signWots Config.wotsDigitOff at h1
  unfold Observer.signWots Config.wotsDigitOff
  rw [E1, ok_bind] at h1
  rw [show (c.si s).x = c.x from rfl, rd_getD 0 (by omega), ok_bind, wr_ok _ (by omega), ok_bind]
  simp only [hiv]
  change ∃ t, WfIter t ∧ (set_wots_prf_adr S.E (c1.si s) c.auth_path_node i >>= _) = _
  rw [P2, ok_bind, hdig s, ok_bind, k6, ok_bind, show (c6.si s).buffer = c.buffer from s6.buf, wr_front hel (by rw [g.buf]; exact hmx), ok_bind]
  let rest : Ctx → C Ctx := fun ctx => do
    let d ← rd ctx.x 0
    if d.toNat = 2 * ctx.ps.n + 3 then do
      let ctx := { ctx with state := .merkle, merkle_level := 0 }
      let (a, ctx) ← Observer.ts_wots_leaf S.E m2 K ctx.auth_path_buffer ctx.auth_path_node ctx
      .ok { ctx with auth_path_buffer := a }
    else .ok ctx
  change ∃ t, WfIter t ∧ rest { c6.si s with buffer := elem ++ c.buffer.drop S.n, buffer_offset := 0 } = .ok (c'.si t)
  rw [hc7]
  simp only [rest]
  rw [show (c7.si s).x = c7.x from rfl, show (c7.si s).ps = c7.ps from rfl, show (c7.si s).auth_path_node = c7.auth_path_node from rfl,
    show (c7.si s).auth_path_buffer = c7.auth_path_buffer from rfl]
  have hrd : rd c7.x 0 = .ok (UInt8.ofNat (i + 1)) := by rw [rd_getD 0 (by omega), p5'.1]
  rw [hrd, ok_bind] at h1 ⊢
  split at h1
  · rename_i hc
    rw [if_pos hc]
    let c8 : Ctx := { c7 with state := .merkle, merkle_level := 0 }
    have g8 : Good S c8 := ⟨⟨g0'.adr, g0'.buf, g0'.auth, g0'.x, g0'.si, g0'.bi⟩, g0'.ps, g0'.pk, g0'.pre⟩
    obtain ⟨b9, c9, t9, e9, f9, -, w9, -⟩ := wots_leaf_obs (c := c8) (s := s) (out := c7.auth_path_buffer) (idx := c7.auth_path_node) (j := j) (tree := D.treeAt j)
      g8 w p1 p2 q1 (loc_hl hl0) (loc_ta hl0) (by rw [g0'.auth]; exact hmx)
      (fun i h => by rw [p3']; exact tw.wots j _ i hj (D.leafAt_lt j) h)
    simp only at h1 ⊢
    rw [show ts_wots_leaf S.E m1 _ _ _ = _ from e9, ok_bind] at h1
    change ∃ t, WfIter t ∧ (Observer.ts_wots_leaf S.E m2 K c7.auth_path_buffer c7.auth_path_node (c8.si s) >>= _) = _
    rw [f9, ok_bind]
    cases h1
    exact ⟨t9, w9, rfl⟩
  · rename_i hc
    rw [if_neg hc]
    cases h1
    exact ⟨s, w, rfl⟩

end Model
