import Verif.Proof.VerifySpec
/-!
# The verifier's state machine
-/
namespace Model
open Spec Spec.Slh

variable {S : Sess} {mem : Mem}

/-- Position of the verifier, with the values it carries. -/
inductive VPh (S : Sess)
  | init
  | forsLeaf (D : SignData S) (τ : Nat) (roots : Bytes)
  | fors (D : SignData S) (τ l : Nat) (roots v : Bytes)
  | wots (D : SignData S) (j i : Nat) (M acc : Bytes)
  | merkle (D : SignData S) (j l : Nat) (v : Bytes)

namespace VPh
/-- Blocks still to come. -/
def cnt : VPh S → Nat
  | .init => S.P.sigBlocks
  | .forsLeaf _ τ _ => (S.P.k - τ) * (S.P.a + 1) + S.P.d * (S.P.len + S.P.hp)
  | .fors _ τ l _ _ => (S.P.a - l) + ((S.P.k - (τ + 1)) * (S.P.a + 1) + S.P.d * (S.P.len + S.P.hp))
  | .wots _ j i _ _ => (S.P.len - i) + (S.P.hp + (S.P.d - (j + 1)) * (S.P.len + S.P.hp))
  | .merkle _ j l _ => (S.P.hp - l) + (S.P.d - (j + 1)) * (S.P.len + S.P.hp)

/-- Whether the remaining blocks complete a valid signature. -/
def acc (root M : Bytes) : VPh S → List Bytes → Bool
  | .init, sig => verifyBlocks S.P S.hf S.pkSeed root M sig
  | .forsLeaf D τ roots, sig => D.gFors D.vHt τ roots sig == root
  | .fors D τ l roots v, sig => D.gForsIn D.vHt τ l roots v sig == root
  | .wots D j i M' a, sig => D.gWots D.vHt j i M' a sig == root
  | .merkle D j l v, sig => D.gMerkle D.vHt j l v sig == root

/-- The first hypertree layer whose signature has not begun, or is being read. -/
def layer : VPh S → Nat
  | .init => 0
  | .forsLeaf _ _ _ => 0
  | .fors _ _ _ _ _ => 0
  | .wots _ j _ _ _ => j
  | .merkle _ j _ _ => j + 1

/-- The values signed in the layers from `layer` on, given the remaining blocks. -/
def lay (root M : Bytes) : VPh S → List Bytes → List Bytes
  | .init, sig =>
    let digest := S.hf.Hmsg (sig.headD []) S.pkSeed root M S.P.m
    layerValues S.P S.hf S.pkSeed S.P.d 0 (treeIdx S.P digest) (leafIdx S.P digest) (sig.tail.drop (S.P.k * (S.P.a + 1)))
      (forsPkFromSig S.P S.hf S.pkSeed (treeIdx S.P digest) (leafIdx S.P digest) (mdIndices S.P digest) (sig.tail.take (S.P.k * (S.P.a + 1))))
  | .forsLeaf D τ roots, sig => D.gFors D.lHt τ roots sig
  | .fors D τ l roots v, sig => D.gForsIn D.lHt τ l roots v sig
  | .wots D j i M' a, sig => M' :: D.gWots D.lHt j i M' a sig
  | .merkle D j l v, sig => D.gMerkle D.lHt j l v sig

/-- The values to be signed are the same after block `b` has been read. -/
def Same (root M : Bytes) (ph : VPh S) (b : Bytes) (ph' : VPh S) : Prop :=
  (∀ rest, ph.acc root M (b :: rest) = ph'.acc root M rest) ∧
  ph.layer ≤ ph'.layer ∧ ∀ rest, (ph.lay root M (b :: rest)).drop (ph'.layer - ph.layer) = ph'.lay root M rest

/-- The state of the verifier at a position. -/
def Inv (msg : Nat) (M : Bytes) : VPh S → Ctx → Prop
  | .init, c => Good S c ∧ c.state = .verify_init ∧ c.x.take S.cfg.arch.word = S.cfg.arch.bytes S.cfg.arch.word msg ∧
      (c.x.drop S.cfg.arch.word).take S.cfg.arch.word = S.cfg.arch.bytes S.cfg.arch.word M.length
  | .forsLeaf D τ roots, c => Good S c ∧ τ < S.P.k ∧ c.state = .verify_fors_leaf ∧ c.loc = Loc.fors D.tree D.leaf τ ∧
      ForsNodes S c.x D.idx ∧ IterRep S c.big_iter (Adrs.forsRoots D.tree D.leaf) roots ∧ roots.length = τ * S.n
  | .fors D τ l roots v, c => Good S c ∧ τ < S.P.k ∧ l < S.P.a ∧ c.state = .verify_fors ∧ c.loc = Loc.fors D.tree D.leaf τ ∧
      ForsNodes S c.x D.idx ∧ IterRep S c.big_iter (Adrs.forsRoots D.tree D.leaf) roots ∧ roots.length = τ * S.n ∧
      c.merkle_level = l ∧ c.auth_path_node = D.idx.getD τ 0 ∧ c.auth_path_buffer.take S.n = v
  | .wots D j i M' a, c => Good S c ∧ j < S.P.d ∧ i < S.P.len ∧ c.state = .verify_wots ∧ c.loc = Loc.ht j (D.treeAt j) ∧
      c.merkle_level = 0 ∧ c.auth_path_node = D.leafAt j ∧ WotsX S M' i c.x ∧
      IterRep S c.big_iter (Adrs.wotsPk j (D.treeAt j) (D.leafAt j)) a ∧ a.length = i * S.n
  | .merkle D j l v, c => Good S c ∧ j < S.P.d ∧ l < S.P.hp ∧ c.state = .verify_merkle ∧ c.loc = Loc.ht j (D.treeAt j) ∧
      c.auth_path_node = D.leafAt j ∧ c.merkle_level = l ∧ c.auth_path_buffer.take S.n = v
end VPh

/-- A block was consumed and more are needed. -/
def VStepped (root : Bytes) (msg : Nat) (M : Bytes) (ph : VPh S) (b : Bytes) (r : C Ctx) : Prop :=
  ∃ (ph' : VPh S) (c' : Ctx), r = .ok c' ∧ c'.buffer_offset = 0 ∧ ph'.Inv msg M c' ∧ ph.cnt = ph'.cnt + 1 ∧ 0 < ph'.cnt ∧
    ph.Same root M b ph'

theorem set_up_wots_verify_ok {c : Ctx} {M : Bytes} {leaf : Nat} (hm : S.MemPub mem) (g : Good S c) (hM : c.auth_path_buffer.take S.n = M)
    (hl : leaf < 65536) :
    ∃ c', set_up_wots_verify_signature S.E mem c leaf = .ok c' ∧ Good S c' ∧ c'.state = .verify_wots ∧
      c'.loc = { c.loc with kp := 0 } ∧ c'.auth_path_node = leaf ∧ c'.buffer_offset = c.buffer_offset ∧ c'.merkle_level = 0 ∧
      WotsX S M 0 c'.x ∧ IterRep S c'.big_iter (Adrs.wotsPk c.hypertree_level c.tree_address leaf) [] := by
  obtain ⟨c1, e1, g1, p1, p2, p3, p4, p5, p6, p7, p8⟩ := set_up_wots_ok (leaf := leaf) g hM hl
  let c2 : Ctx := { c1 with state := .verify_wots }
  have g2 : Good S c2 := ⟨⟨g1.adr, g1.buf, g1.auth, g1.x, g1.si, g1.bi⟩, g1.ps, g1.pk, g1.pre⟩
  obtain ⟨c3, e3, s3, a3⟩ := (ts_set_wots_header_adr_ok g2 leaf).scr g2
  have g3 := s3.good g2
  obtain ⟨t, e4, h4⟩ := call_init_t_ok (mem := mem) (t := c3.big_iter) g3 hm a3 g3.bi
  have hl2 : c2.loc = { c.loc with kp := 0 } := p2
  refine ⟨{ c3 with big_iter := t, merkle_level := 0 }, ?_, ⟨⟨g3.adr, g3.buf, g3.auth, g3.x, g3.si, h4.wf⟩, g3.ps, g3.pk, g3.pre⟩,
    s3.keep.st, s3.keep.loc.trans p2, s3.keep.an.trans p3, s3.keep.bo.trans p5, rfl, ?_, ?_⟩
  · unfold set_up_wots_verify_signature
    rw [e1, ok_bind]
    simp only
    rw [show ts_set_wots_header_adr S.E leaf _ = .ok c3 from e3, ok_bind, e4, ok_bind]
  · show WotsX S M 0 c3.x
    rw [s3.xx]; exact p8
  · rw [loc_hl hl2, loc_ta hl2] at h4
    exact h4

variable {root M : Bytes} {msg : Nat}

theorem verForsLeaf_ok {c : Ctx} {D : SignData S} {τ : Nat} {roots : Bytes} (hm : S.MemPub mem) (hbo : c.buffer_offset = 0)
    (h : (VPh.forsLeaf D τ roots).Inv msg M c) :
    VStepped root msg M (.forsLeaf D τ roots) (c.buffer.take S.n) (verForsLeaf S.E mem c) := by
  obtain ⟨g, hτ, hst, hloc, hfn, hit, hrl⟩ := h
  have F := S.facts
  have hmx := F.nmax
  have hx := x_ge_fors c g.toShape
  have hi := idx_lt16 D τ
  have hget : getForsNode S.E c.x c.fors_tree = .ok (D.idx.getD τ 0) := by
    rw [loc_ft hloc]
    exact (hfn τ hτ).get (by unfold MAX_FORS; show τ < 35; have := F.kle; omega) (by omega) (by omega)
  let c1 : Ctx := { c with auth_path_node := D.idx.getD τ 0, merkle_level := 0 }
  have g1 : Good S c1 := ⟨⟨g.adr, g.buf, g.auth, g.x, g.si, g.bi⟩, g.ps, g.pk, g.pre⟩
  have hl1 : c1.loc = Loc.fors D.tree D.leaf τ := hloc
  obtain ⟨c2, e2, s2, a2⟩ := (ts_set_fors_leaf_adr_ok g1 (idx := D.idx.getD τ 0) (by rw [loc_ft hl1]; exact hτ) (D.hidx τ)).scr g1
  rw [loc_ta hl1, loc_kp hl1, loc_ft hl1] at a2
  simp only [Loc.fors] at a2
  have g2 := s2.good g1
  obtain ⟨c3, e3, s3, -⟩ := f_step (mem := mem) (out := c2.auth_path_buffer) (inp := c2.buffer) g2 hm a2 (by rw [g2.auth]; exact hmx) (by rw [g2.buf]; exact hmx)
  have s := s2.trans s3
  have g3 := s.good g1
  have hfl := length_F (S := S) S.pkSeed (Adrs.forsTree D.tree D.leaf 0 (τ * 2 ^ S.P.a + D.idx.getD τ 0)) (c2.buffer.take S.n)
  obtain ⟨v, hv⟩ : ∃ v, v = S.hf.F S.pkSeed (Adrs.forsTree D.tree D.leaf 0 (τ * 2 ^ S.P.a + D.idx.getD τ 0)) (c2.buffer.take S.n) := ⟨_, rfl⟩
  rw [← hv] at hfl e3
  have hb2 : c2.buffer = c.buffer := s2.buf
  have htge := F.tge
  refine ⟨.fors D τ 0 roots v, { c3 with auth_path_buffer := v ++ c2.auth_path_buffer.drop S.n, state := .verify_fors }, ?_, ?_, ?_, ?_, ?_, ?_⟩
  · unfold verForsLeaf
    rw [hget, ok_bind]
    simp only
    rw [show ts_set_fors_leaf_adr S.E _ _ = .ok c2 from e2, ok_bind, e3, ok_bind]
  · show c3.buffer_offset = 0
    rw [s.keep.bo]; exact hbo
  · refine ⟨⟨⟨g3.adr, g3.buf, ?_, g3.x, g3.si, g3.bi⟩, g3.ps, g3.pk, g3.pre⟩, hτ, by omega, rfl, s.keep.loc.trans hloc, ?_, ?_, hrl, s.keep.ml,
      s.keep.an, take_left' hfl⟩
    · show (v ++ c2.auth_path_buffer.drop S.n).length = _
      rw [List.length_append, hfl, List.length_drop, g2.auth]; omega
    · show ForsNodes S c3.x D.idx
      rw [s.xx]; exact hfn
    · show IterRep S c3.big_iter _ _
      rw [s.big]; exact hit
  · unfold VPh.cnt
    simp only
    rw [show S.P.k - τ = S.P.k - (τ + 1) + 1 by omega, Nat.succ_mul]
    omega
  · unfold VPh.cnt
    simp only
    omega
  · have hacc : ∀ {β : Type} (g : Nat → Bytes → List Bytes → β) rest, D.gFors g τ roots (c.buffer.take S.n :: rest) = D.gForsIn g τ 0 roots v rest := by
      intro β g rest
      rw [D.gFors_step g τ hτ, hv, hb2]
    exact ⟨fun rest => congrArg (· == root) (hacc _ rest), Nat.le_refl _, fun rest => hacc D.lHt rest⟩

theorem fors_bit (D : SignData S) (τ l : Nat) (hl : l < S.P.a) :
    ((τ * 2 ^ S.P.a + D.idx.getD τ 0) / 2 ^ l) % 2 = (D.idx.getD τ 0 / 2 ^ l) % 2 := by
  rw [add_div_pow _ (Nat.dvd_mul_left (2 ^ S.P.a) τ) (Nat.le_of_lt hl), Nat.add_mod, even_div (Nat.dvd_mul_left (2 ^ S.P.a) τ) hl]
  omega

theorem verFors_ok {c : Ctx} {D : SignData S} {τ l : Nat} {roots v : Bytes} (hm : S.MemPub mem) (hbo : c.buffer_offset = 0)
    (h : (VPh.fors D τ l roots v).Inv msg M c) :
    VStepped root msg M (.fors D τ l roots v) (c.buffer.take S.n) (verFors S.E mem c) := by
  obtain ⟨g, hτ, hl, hst, hloc, hfn, hit, hrl, hml, han, hau⟩ := h
  have F := S.facts
  have hmx := F.nmax
  obtain ⟨c1, e1, g1, p1, p2, p3, p4, p5, p6, p7, p8⟩ := next_auth_path_ok (mem := mem) (ty := ADR_TYPE_FORSTREE)
    (L := Loc.fors D.tree D.leaf τ) (h := l) (an := D.idx.getD τ 0) (base := τ * 2 ^ S.P.a) hm g hloc rfl hτ hml (by have := F.tle; omega) han (idx_lt16 D τ)
  rw [hau, ← fors_bit D τ l hl] at p8
  obtain ⟨v', hv'⟩ : ∃ v', v' = c1.auth_path_buffer.take S.n := ⟨_, rfl⟩
  have hacc : ∀ {β : Type} (g : Nat → Bytes → List Bytes → β) rest, D.gForsIn g τ l roots v (c.buffer.take S.n :: rest) = D.gForsIn g τ (l + 1) roots v' rest := by
    intro β g rest
    rw [D.gForsIn_step g τ l hl, hv', p8]
    rfl
  have hloc1 : c1.loc = Loc.fors D.tree D.leaf τ := p3.trans hloc
  have hpt : c1.ps.t = S.P.a := by rw [g1.ps]; exact F.pt
  have hpk : c1.ps.k = S.P.k := by rw [g1.ps]; exact F.pk
  have hit1 : IterRep S c1.big_iter (Adrs.forsRoots D.tree D.leaf) roots := by rw [p6]; exact hit
  have hfn1 : ForsNodes S c1.x D.idx := by rw [p7]; exact hfn
  unfold verFors
  rw [e1, ok_bind]
  by_cases hend : l + 1 = S.P.a
  · rw [if_pos (show c1.merkle_level = c1.ps.t by rw [p4, hpt]; exact hend)]
    have hn := n_le (S := S)
    have hkle := F.kle
    have hrl' : roots.length < 2 ^ 32 := by
      rw [hrl]
      have : τ * S.n ≤ 35 * 32 := Nat.mul_le_mul (by omega) hn
      omega
    obtain ⟨t2, e2, h2⟩ := call_next_t_ok (inp := c1.auth_path_buffer) g1 hit1 hrl' (by rw [g1.auth]; exact hmx)
    rw [← hv'] at h2
    have hvl : v'.length = S.n := by rw [hv', List.length_take, g1.auth]; omega
    have hrl2 : (roots ++ v').length = (τ + 1) * S.n := by rw [List.length_append, hrl, hvl, Nat.succ_mul]
    rw [e2, ok_bind]
    simp only
    have hft : (c1.fors_tree + 1) % 256 = τ + 1 := by rw [loc_ft hloc1]; simp only [Loc.fors]; omega
    rw [hft, hpk]
    let c2 : Ctx := { c1 with big_iter := t2, state := .verify_fors_leaf, fors_tree := τ + 1 }
    have g2 : Good S c2 := ⟨⟨g1.adr, g1.buf, g1.auth, g1.x, g1.si, h2.wf⟩, g1.ps, g1.pk, g1.pre⟩
    have hl2 : c2.loc = Loc.fors D.tree D.leaf (τ + 1) := by
      show (⟨c1.hypertree_level, τ + 1, c1.fors_keypair_addr, c1.tree_address⟩ : Loc) = _
      rw [loc_hl hloc1, loc_kp hloc1, loc_ta hloc1]; rfl
    have hacc2 : ∀ {β : Type} (g : Nat → Bytes → List Bytes → β) rest, D.gForsIn g τ l roots v (c.buffer.take S.n :: rest) = D.gFors g (τ + 1) (roots ++ v') rest := by
      intro β g rest
      rw [hacc, hend, D.gForsIn_end]
    by_cases hlast : τ + 1 = S.P.k
    · rw [if_pos hlast]
      obtain ⟨t3, e3, w3⟩ := call_final_t_ok (ctx := c2) (out := c1.auth_path_buffer) g2 h2 (by
        rw [hrl2]
        have : (τ + 1) * S.n ≤ 35 * 32 := Nat.mul_le_mul (by omega) hn
        omega) (by rw [g1.auth]; exact hmx)
      rw [show call_final_t S.E c1.auth_path_buffer t2 { c1 with big_iter := t2, state := .verify_fors_leaf, fors_tree := τ + 1 } = _ from e3, ok_bind]
      simp only
      have hVl := length_T (S := S) S.pkSeed (Adrs.forsRoots D.tree D.leaf) (roots ++ v')
      obtain ⟨V, hV⟩ : ∃ V, V = S.hf.T S.pkSeed (Adrs.forsRoots D.tree D.leaf) (roots ++ v') := ⟨_, rfl⟩
      rw [← hV] at hVl ⊢
      let c3 : Ctx := { c1 with big_iter := t3, state := .verify_fors_leaf, fors_tree := 0, auth_path_buffer := V ++ c1.auth_path_buffer.drop S.n }
      have g3 : Good S c3 := ⟨⟨g1.adr, g1.buf, by
        show (V ++ c1.auth_path_buffer.drop S.n).length = _
        rw [List.length_append, hVl, List.length_drop, g1.auth]; omega, g1.x, g1.si, w3⟩, g1.ps, g1.pk, g1.pre⟩
      have hleaf : D.leaf < 65536 := Nat.lt_of_lt_of_le D.hleaf (Nat.le_trans (Nat.pow_le_pow_right (by omega) F.hle) (by decide))
      obtain ⟨c4, e4, g4, q1, q2, q3, q4, q5, q6, q7⟩ := set_up_wots_verify_ok (mem := mem) (c := c3) (M := V) (leaf := D.leaf) hm g3 (take_left' hVl) hleaf
      have hdge := F.dge
      have ht0 : D.treeAt 0 = D.tree := by simp [SignData.treeAt]
      refine ⟨.wots D 0 0 V [], c4, ?_, ?_, ⟨g4, by omega, by unfold Spec.Params.len; omega, q1, ?_, q5, q3, q6, ?_, by simp⟩, ?_, ?_, ?_⟩
      · rw [loc_kp hloc1]; exact e4
      · rw [q4]; exact p2.trans hbo
      · rw [q2]
        show (⟨c1.hypertree_level, 0, 0, c1.tree_address⟩ : Loc) = _
        rw [loc_hl hloc1, loc_ta hloc1, ht0]
        rfl
      · rw [show c3.hypertree_level = 0 from loc_hl hloc1, show c3.tree_address = D.tree from loc_ta hloc1] at q7
        rw [ht0]; exact q7
      · unfold VPh.cnt
        simp only
        rw [hlast, Nat.sub_self, show S.P.d = S.P.d - (0 + 1) + 1 by omega, Nat.succ_mul]
        simp only [Nat.zero_add, Nat.zero_mul, Nat.add_sub_cancel]
        omega
      · unfold VPh.cnt Spec.Params.len
        simp only
        omega
      · refine ⟨fun rest => ?_, Nat.le_refl _, fun rest => ?_⟩
        · show (D.gForsIn D.vHt τ l roots v _ == root) = (D.gWots D.vHt 0 0 V [] rest == root)
          rw [hacc2, hlast, D.gFors_end, ← hV, D.vHt_wots 0 (by omega)]
        · show D.gForsIn D.lHt τ l roots v _ = V :: D.gWots D.lHt 0 0 V [] rest
          rw [hacc2, hlast, D.gFors_end, ← hV, D.lHt_wots 0 (by omega)]
    · rw [if_neg hlast]
      refine ⟨.forsLeaf D (τ + 1) (roots ++ v'), c2, rfl, p2.trans hbo, ⟨g2, by omega, rfl, hl2, hfn1, h2, hrl2⟩, ?_, ?_, ?_⟩
      · unfold VPh.cnt
        simp only
        omega
      · unfold VPh.cnt
        simp only
        rw [show S.P.k - (τ + 1) = S.P.k - (τ + 1 + 1) + 1 by omega, Nat.succ_mul]
        omega
      · exact ⟨fun rest => congrArg (· == root) (hacc2 _ rest), Nat.le_refl _, fun rest => hacc2 D.lHt rest⟩
  · rw [if_neg (show ¬ c1.merkle_level = c1.ps.t by rw [p4, hpt]; exact hend)]
    refine ⟨.fors D τ (l + 1) roots v', c1, rfl, p2.trans hbo, ⟨g1, hτ, by omega, p1.trans hst, hloc1, hfn1, hit1, hrl, p4, p5.trans han, hv'.symm⟩, ?_, ?_, ?_⟩
    · unfold VPh.cnt
      simp only
      omega
    · unfold VPh.cnt
      simp only
      omega
    · exact ⟨fun rest => congrArg (· == root) (hacc _ rest), Nat.le_refl _, fun rest => hacc D.lHt rest⟩

theorem verWots_ok {c : Ctx} {D : SignData S} {j i : Nat} {M' a : Bytes} (hm : S.MemPub mem) (hbo : c.buffer_offset = 0)
    (h : (VPh.wots D j i M' a).Inv msg M c) :
    VStepped root msg M (.wots D j i M' a) (c.buffer.take S.n) (verWots S.E mem c) := by
  obtain ⟨g, hj, hi, hst, hloc, hml, han, hw, hit, hal⟩ := h
  have F := S.facts
  have hmx := F.nmax
  have hx := x_ge_digits c g.toShape
  have hd := digits_le (S := S)
  have h67 := len_le67 (S := S)
  have hn32 := n_le (S := S)
  have hiv : (c.x.getD 0 0).toNat = i := by rw [hw.1, UInt8.toNat_ofNat']; omega
  have hw1 := hw.next (by omega)
  obtain ⟨X, hX⟩ : ∃ X, X = c.x.set 0 (c.x.getD 0 0 + 1) := ⟨_, rfl⟩
  rw [← hX] at hw1
  have hXl : X.length = c.x.length := by rw [hX]; simp
  let c1 : Ctx := { c with x := X }
  have g1 : Good S c1 := ⟨⟨g.adr, g.buf, g.auth, by show X.length = _; rw [hXl, g.x], g.si, g.bi⟩, g.ps, g.pk, g.pre⟩
  have hl1 : c1.loc = Loc.ht j (D.treeAt j) := hloc
  have hdig : getWotsDigit S.E c1 i = .ok ((wotsDigits S.P M').getD i 0) := by
    unfold getWotsDigit Config.wotsDigitsOff
    rw [if_pos (show i < S.cfg.MAX_WOTS_DIGITS by omega), rd_getD 0 (show 1 + i < c1.x.length by show 1 + i < X.length; omega), ok_bind, hw1.2 i hi]
  obtain ⟨dg, hdg⟩ : ∃ dg, dg = (wotsDigits S.P M').getD i 0 := ⟨_, rfl⟩
  rw [← hdg] at hdig
  obtain ⟨c2, e2, s2⟩ := chain_loop (S := S) (mem := mem) (ctx := c1) (j := j) (tree := D.treeAt j) (kp := D.leafAt j) (c := i)
    (buf := c.buffer) g1 hm (by rw [loc_hl hl1]; rfl) (by rw [loc_ta hl1]; rfl) dg (15 - dg)
    (fun i_1 (s : Bytes × Ctx) => do
      let (b, ctx) := s
      let ctx ← ts_set_wots_f_adr S.E ctx ctx.auth_path_node i i_1
      call_f S.E mem b b ctx)
    (by
      intro q b c' hsc
      simp only
      rw [hsc.keep.an, show c1.auth_path_node = D.leafAt j from han]) (by rw [g.buf]; exact hmx)
  simp only at e2
  have g2 := s2.good g1
  have k2 := s2.keep
  obtain ⟨V, hV⟩ : ∃ V, V = D.vChain j M' i (c.buffer.take S.n) := ⟨_, rfl⟩
  have hVe : chain S.hf S.pkSeed j (D.treeAt j) (D.leafAt j) i (c.buffer.take S.n) dg (15 - dg) = V := by rw [hV, hdg]; rfl
  have hVl : V.length = S.n := by
    rw [← hVe]; exact length_chain _ _ _ _ _ _ _ (by rw [List.length_take, g.buf]; omega)
  rw [hVe] at e2
  obtain ⟨B, hB⟩ : ∃ B, B = V ++ c.buffer.drop S.n := ⟨_, rfl⟩
  rw [← hB] at e2
  have hBl : B.length = S.cfg.MAX_HASH := by rw [hB, List.length_append, hVl, List.length_drop, g.buf]; omega
  have hBt : B.take S.n = V := by rw [hB]; exact take_left' hVl
  let c3 : Ctx := { c2 with buffer := B }
  have g3 : Good S c3 := ⟨⟨g2.adr, hBl, g2.auth, g2.x, g2.si, g2.bi⟩, g2.ps, g2.pk, g2.pre⟩
  have hit3 : IterRep S c3.big_iter (Adrs.wotsPk j (D.treeAt j) (D.leafAt j)) a := by
    show IterRep S c2.big_iter _ _
    rw [s2.big]; exact hit
  have hal' : ∀ q, q ≤ 67 → q * S.n < 2 ^ 32 := by
    intro q hq
    have : q * S.n ≤ 67 * 32 := Nat.mul_le_mul hq hn32
    omega
  obtain ⟨t4, e4, h4⟩ := call_next_t_ok (ctx := c3) (inp := B) g3 hit3 (by rw [hal]; exact hal' i (by omega)) (by rw [hBl]; exact hmx)
  rw [hBt] at h4
  let c4 : Ctx := { c3 with big_iter := t4 }
  have g4 : Good S c4 := ⟨⟨g3.adr, g3.buf, g3.auth, g3.x, g3.si, h4.wf⟩, g3.ps, g3.pk, g3.pre⟩
  have hx4 : c4.x = X := s2.xx
  have hal4 : (a ++ V).length = (i + 1) * S.n := by rw [List.length_append, hal, hVl, Nat.succ_mul]
  have hacc : ∀ {β : Type} (g : Nat → Bytes → List Bytes → β) rest, D.gWots g j i M' a (c.buffer.take S.n :: rest) = D.gWots g j (i + 1) M' (a ++ V) rest := by
    intro β g rest
    rw [D.gWots_step g j i hi, hV]
  have hn4 := ctx_n g4
  have hlen : S.P.len = 2 * S.n + 3 := rfl
  have hdv : (c4.x.getD 0 0).toNat = i + 1 := by rw [hx4, hw1.1, UInt8.toNat_ofNat']; omega
  unfold verWots Config.wotsDigitOff
  rw [rd_getD 0 (by omega), ok_bind, wr_ok _ (by omega), ok_bind, ← hX, hiv]
  simp only
  rw [show getWotsDigit S.E _ i = .ok dg from hdig, ok_bind, show loop _ (15 - dg) dg (c.buffer, c1) = _ from e2, ok_bind]
  simp only
  rw [show call_next_t S.E c2.big_iter B _ = .ok t4 from e4, ok_bind, rd_getD 0 (show 0 < c2.x.length by rw [s2.xx]; show 0 < X.length; omega), ok_bind,
    show (c2.x.getD 0 0).toNat = i + 1 from hdv, show c2.ps.n = S.n from hn4]
  by_cases hend : i + 1 = 2 * S.n + 3
  · rw [if_neg (by simp [hend])]
    obtain ⟨t5, e5, w5⟩ := call_final_t_ok (ctx := c4) (out := c4.auth_path_buffer) g4 h4 (by rw [hal4]; exact hal' (i + 1) (by omega)) (by rw [g4.auth]; exact hmx)
    rw [show call_final_t S.E _ t4 _ = _ from e5, ok_bind]
    have hTl := length_T (S := S) S.pkSeed (Adrs.wotsPk j (D.treeAt j) (D.leafAt j)) (a ++ V)
    obtain ⟨W, hW⟩ : ∃ W, W = S.hf.T S.pkSeed (Adrs.wotsPk j (D.treeAt j) (D.leafAt j)) (a ++ V) := ⟨_, rfl⟩
    rw [← hW] at hTl ⊢
    have hge := F.hge
    refine ⟨.merkle D j 0 W, { c4 with auth_path_buffer := W ++ c4.auth_path_buffer.drop S.n, big_iter := t5, state := .verify_merkle }, rfl,
      k2.bo.trans hbo, ⟨⟨⟨g4.adr, g4.buf, ?_, g4.x, g4.si, w5⟩, g4.ps, g4.pk, g4.pre⟩, hj, by omega, rfl, k2.loc.trans hl1, k2.an.trans han, k2.ml.trans hml,
        take_left' hTl⟩, ?_, ?_, ?_⟩
    · show (W ++ c4.auth_path_buffer.drop S.n).length = _
      rw [List.length_append, hTl, List.length_drop, g4.auth]; omega
    · unfold VPh.cnt
      simp only
      omega
    · unfold VPh.cnt
      simp only
      omega
    · have hacc2 : ∀ {β : Type} (g : Nat → Bytes → List Bytes → β) rest, D.gWots g j i M' a (c.buffer.take S.n :: rest) = D.gMerkle g j 0 W rest := by
        intro β g rest
        rw [hacc, show i + 1 = S.P.len from hend, D.gWots_end, ← hW]
      refine ⟨fun rest => congrArg (· == root) (hacc2 _ rest), Nat.le_succ _, fun rest => ?_⟩
      show (M' :: D.gWots D.lHt j i M' a _).drop (j + 1 - j) = D.gMerkle D.lHt j 0 W rest
      rw [show j + 1 - j = 1 by omega, hacc2]
      rfl
  · rw [if_pos hend]
    refine ⟨.wots D j (i + 1) M' (a ++ V), c4, rfl, k2.bo.trans hbo, ⟨g4, hj, by omega, k2.st.trans hst, k2.loc.trans hl1, k2.ml.trans hml, k2.an.trans han,
      by rw [hx4]; exact hw1, h4, hal4⟩, ?_, ?_, ?_⟩
    · unfold VPh.cnt
      simp only
      omega
    · unfold VPh.cnt
      simp only
      omega
    · refine ⟨fun rest => congrArg (· == root) (hacc _ rest), Nat.le_refl _, fun rest => ?_⟩
      show (M' :: D.gWots D.lHt j i M' a _).drop (j - j) = M' :: D.gWots D.lHt j (i + 1) M' (a ++ V) rest
      rw [Nat.sub_self, hacc]
      rfl

end Model
