import Verif.Proof.SpecLemmas
/-!
# The signer's state machine
-/
namespace Model
open Spec Spec.Slh

/-- What a signing session is about: secret seed and decoded digest. -/
structure SignData (S : Sess) where
  sk : Bytes
  tree : Nat
  leaf : Nat
  idx : List Nat
  htree : tree < 2 ^ (S.P.h - S.P.hp)
  hleaf : leaf < 2 ^ S.P.hp
  hidx : ∀ i, idx.getD i 0 < 2 ^ S.P.a

namespace SignData
variable {S : Sess} (D : SignData S)

/-- Tree, leaf and signed value at layer `j`. -/
def treeAt (j : Nat) : Nat := D.tree / 2 ^ (S.P.hp * j)
def leafAt : Nat → Nat
  | 0 => D.leaf
  | j + 1 => D.treeAt j % 2 ^ S.P.hp
def msgAt : Nat → Bytes
  | 0 => forsPk S.P S.hf D.sk S.pkSeed D.tree D.leaf
  | j + 1 => xmssNode S.P S.hf D.sk S.pkSeed j (D.treeAt j) 0 S.P.hp

theorem leafAt_lt (j : Nat) : D.leafAt j < 2 ^ S.P.hp := by
  cases j with
  | zero => exact D.hleaf
  | succ j => exact Nat.mod_lt _ (Nat.pow_pos (by omega))

theorem treeAt_succ (j : Nat) : D.treeAt (j + 1) = D.treeAt j / 2 ^ S.P.hp := by
  unfold treeAt
  rw [Nat.div_div_eq_div_mul, ← Nat.pow_add, Nat.mul_succ]

def wsig (j : Nat) : List Bytes := wotsSign S.P S.hf D.sk S.pkSeed j (D.treeAt j) (D.leafAt j) (D.msgAt j)
def wauth (j : Nat) : List Bytes := xmssAuth S.P S.hf D.sk S.pkSeed j (D.treeAt j) (D.leafAt j)
def ftree (τ : Nat) : List Bytes := forsTreeSig S.P S.hf D.sk S.pkSeed D.tree D.leaf τ (D.idx.getD τ 0)

/-- Blocks from layer `j` on. -/
def restHt (j : Nat) : List Bytes :=
  htSignFrom S.P S.hf D.sk S.pkSeed (S.P.d - j) j (D.treeAt j) (D.leafAt j) (D.msgAt j)

theorem restHt_step (j : Nat) (hj : j < S.P.d) : D.restHt j = D.wsig j ++ (D.wauth j ++ D.restHt (j + 1)) := by
  unfold restHt
  rw [show S.P.d - j = S.P.d - (j + 1) + 1 by omega, htSignFrom]
  rw [xmss_honest _ _ _ _ _ _ _ _ (D.leafAt_lt j), ← D.treeAt_succ j, xmssSign, List.append_assoc]
  rfl

theorem restHt_end : D.restHt S.P.d = [] := by unfold restHt; rw [Nat.sub_self]; rfl

/-- FORS blocks from tree `τ` on. -/
def restFors (τ : Nat) : List Bytes := ((List.range (S.P.k - τ)).flatMap fun q => D.ftree (τ + q)) ++ D.restHt 0

theorem restFors_step (τ : Nat) (h : τ < S.P.k) : D.restFors τ = D.ftree τ ++ D.restFors (τ + 1) := by
  unfold restFors
  rw [show S.P.k - τ = S.P.k - (τ + 1) + 1 by omega, List.range_succ_eq_map, List.flatMap_cons, List.append_assoc]
  congr 2
  rw [List.flatMap_map]
  apply List.flatMap_congr
  intro q _
  rw [show τ + q.succ = τ + 1 + q by omega]

theorem restFors_end : D.restFors S.P.k = D.restHt 0 := by unfold restFors; rw [Nat.sub_self]; rfl

end SignData

/-- Position of the signer: what it will produce next. -/
inductive Ph
  | forsLeaf (τ : Nat)
  | fors (τ l : Nat)
  | wots (j i : Nat)
  | merkle (j l : Nat)
  | done

variable {S : Sess} {mem : Mem}

/-- Blocks still to be produced. -/
def SignData.rest (D : SignData S) : Ph → List Bytes
  | .forsLeaf τ => D.restFors τ
  | .fors τ l => (D.ftree τ).drop (l + 1) ++ D.restFors (τ + 1)
  | .wots j i => (D.wsig j).drop i ++ (D.wauth j ++ D.restHt (j + 1))
  | .merkle j l => (D.wauth j).drop l ++ D.restHt (j + 1)
  | .done => []

/-- Roots of the FORS trees before `τ`. -/
def SignData.roots (D : SignData S) (τ : Nat) : Bytes :=
  ((List.range τ).map fun i => forsNode S.hf D.sk S.pkSeed D.tree D.leaf i S.P.a).flatten

theorem length_forsNode (sk : Bytes) (t kp i z : Nat) : (forsNode S.hf sk S.pkSeed t kp i z).length = S.n := by
  cases z with
  | zero => exact length_F _ _ _
  | succ z => exact length_T _ _ _

theorem length_xmssNode (sk : Bytes) (l t i z : Nat) : (xmssNode S.P S.hf sk S.pkSeed l t i z).length = S.n := by
  cases z with
  | zero => exact length_T _ _ _
  | succ z => exact length_T _ _ _

theorem SignData.length_roots (D : SignData S) (τ : Nat) : (D.roots τ).length = τ * S.n :=
  length_flatten_range _ _ _ fun _ _ => length_forsNode _ _ _ _ _

/-- The union holds the digits of `M` and the counter `i`. -/
def WotsX (S : Sess) (M : Bytes) (i : Nat) (x : Bytes) : Prop :=
  x.getD 0 0 = UInt8.ofNat i ∧ ∀ q, q < S.P.len → (x.getD (1 + q) 0).toNat = (wotsDigits S.P M).getD q 0

/-- The state of the signer at a position. -/
def SignData.Inv (D : SignData S) : Ph → Ctx → Prop
  | .forsLeaf τ, c => Good S c ∧ τ < S.P.k ∧ c.state = .fors_leaf ∧ c.loc = Loc.fors D.tree D.leaf τ ∧
      ForsNodes S c.x D.idx ∧ IterRep S c.big_iter (Adrs.forsRoots D.tree D.leaf) (D.roots τ)
  | .fors τ l, c => Good S c ∧ τ < S.P.k ∧ l < S.P.a ∧ c.state = .fors ∧ c.loc = Loc.fors D.tree D.leaf τ ∧
      ForsNodes S c.x D.idx ∧ IterRep S c.big_iter (Adrs.forsRoots D.tree D.leaf) (D.roots τ) ∧
      c.merkle_level = l ∧ c.auth_path_node = D.idx.getD τ 0 ∧
      c.auth_path_buffer.take S.n =
        forsNode S.hf D.sk S.pkSeed D.tree D.leaf ((τ * 2 ^ S.P.a + D.idx.getD τ 0) / 2 ^ l) l
  | .wots j i, c => Good S c ∧ j < S.P.d ∧ i < S.P.len ∧ c.state = .wots ∧ c.loc = Loc.ht j (D.treeAt j) ∧
      c.auth_path_node = D.leafAt j ∧ WotsX S (D.msgAt j) i c.x
  | .merkle j l, c => Good S c ∧ j < S.P.d ∧ l < S.P.hp ∧ c.state = .merkle ∧ c.loc = Loc.ht j (D.treeAt j) ∧
      c.auth_path_node = D.leafAt j ∧ c.merkle_level = l ∧
      c.auth_path_buffer.take S.n = xmssNode S.P S.hf D.sk S.pkSeed j (D.treeAt j) (D.leafAt j / 2 ^ l) l
  | .done, c => Good S c ∧ c.state = .done

theorem NodeAt.congr {a : Arch} {x y : Bytes} {k v : Nat} (h : NodeAt a x k v) (hk : k < 35)
    (hxy : ∀ i, i < 2 * MAX_FORS → y.getD i 0 = x.getD i 0) : NodeAt a y k v := by
  unfold MAX_FORS at hxy
  exact ⟨by rw [hxy _ (by omega)]; exact h.1, by rw [hxy _ (by omega)]; exact h.2⟩

theorem ForsNodes.congr {x y : Bytes} {idx : List Nat} (h : ForsNodes S x idx)
    (hxy : ∀ i, i < 2 * MAX_FORS → y.getD i 0 = x.getD i 0) : ForsNodes S y idx := by
  have := S.facts.kle
  exact fun i hi => (h i hi).congr (by omega) hxy

theorem x_ge_digits (ctx : Ctx) (g : Shape S.cfg ctx) : 1 + S.cfg.MAX_WOTS_DIGITS ≤ ctx.x.length := by
  rw [g.x]; exact S.cfg.wotsSize_le

theorem x_ge_fors (ctx : Ctx) (g : Shape S.cfg ctx) : 2 * MAX_FORS + S.cfg.forsStackSize ≤ ctx.x.length := by
  rw [g.x]; exact S.cfg.forsSize_le

theorem digits_le : S.P.len ≤ S.cfg.MAX_WOTS_DIGITS := by
  have := S.facts.nmax
  unfold Spec.Params.len Config.MAX_WOTS_DIGITS
  have h : S.P.n = S.n := rfl
  omega

/-- `ts_set_up_wots_signature`. -/
theorem set_up_wots_ok {c : Ctx} {M : Bytes} {leaf : Nat} (g : Good S c) (hM : c.auth_path_buffer.take S.n = M)
    (hl : leaf < 65536) :
    ∃ c', ts_set_up_wots_signature S.E c leaf = .ok c' ∧ Good S c' ∧ c'.state = .wots ∧
      c'.loc = { c.loc with kp := 0 } ∧ c'.auth_path_node = leaf ∧ c'.buffer = c.buffer ∧
      c'.buffer_offset = c.buffer_offset ∧ c'.merkle_level = c.merkle_level ∧ c'.big_iter = c.big_iter ∧ WotsX S M 0 c'.x := by
  have hx := x_ge_digits c g.toShape
  have hd := digits_le (S := S)
  have hn := n_le (S := S)
  have hlen : (c.x.set 0 0).length = c.x.length := by simp
  have hsl : (sl (c.x.set 0 0) 1 S.cfg.MAX_WOTS_DIGITS).length = S.cfg.MAX_WOTS_DIGITS := length_sl _ _ _ (by omega)
  have hmx := S.facts.nmax
  obtain ⟨d', e, h1, h2⟩ := compute_wots_digits_ok S.P (sl (c.x.set 0 0) 1 S.cfg.MAX_WOTS_DIGITS) c.auth_path_buffer hn
    (by rw [g.auth]; exact hmx) (by omega)
  have hle : 1 + d'.length ≤ (c.x.set 0 0).length := by omega
  obtain ⟨X, hX⟩ : ∃ X, X = (c.x.set 0 0).take 1 ++ d' ++ (c.x.set 0 0).drop (1 + d'.length) := ⟨_, rfl⟩
  refine ⟨{ c with state := .wots, x := X, auth_path_node := leaf, fors_keypair_addr := 0 }, ?_, ?_, rfl, rfl, rfl, rfl, rfl, rfl, rfl, ?_, ?_⟩
  · unfold ts_set_up_wots_signature Config.wotsDigitOff Config.wotsDigitsOff
    rw [wr_ok _ (by omega), ok_bind, rdSlice_ok (show 1 + S.cfg.MAX_WOTS_DIGITS ≤ _ by omega), ok_bind, ctx_n g,
      show compute_wots_digits ((List.drop 1 (c.x.set 0 0)).take S.cfg.MAX_WOTS_DIGITS) c.auth_path_buffer S.n = .ok d' from e, ok_bind, wrSlice_ok hle, ← hX, ok_bind,
      Nat.mod_eq_of_lt hl]
  · exact ⟨⟨g.adr, g.buf, g.auth, by rw [← g.x, ← hlen, hX]; exact length_splice _ _ _ hle, g.si, g.bi⟩, g.ps, g.pk, g.pre⟩
  · simp only [hX]
    rw [splice_getD _ _ _ _ hle, if_neg (by omega), getD_set _ _ _ _ (by omega), if_pos rfl]
    rfl
  · intro q hq
    simp only [hX]
    rw [splice_getD _ _ _ _ hle, if_pos (by omega), show 1 + q - 1 = q by omega, h2 q hq, ← hM]
    congr 1
    exact (wotsDigits_take S.P _).symm

theorem fors_step_idx (D : SignData S) (τ : Nat) :
    (τ * 2 ^ S.P.a + D.idx.getD τ 0) / 2 ^ S.P.a = τ := by
  have hp : 0 < 2 ^ S.P.a := Nat.pow_pos (by omega)
  rw [add_div_pow _ (Nat.dvd_mul_left _ _) (Nat.le_refl _), Nat.mul_div_cancel _ hp, Nat.div_eq_of_lt (D.hidx τ), Nat.add_zero]

/-- The result of a step: a block, and the next position. -/
def Stepped (D : SignData S) (ph : Ph) (r : C Ctx) : Prop :=
  ∃ ph' b c', r = .ok c' ∧ c'.buffer_offset = 0 ∧ c'.buffer.take S.n = b ∧ D.Inv ph' c' ∧ D.rest ph = b :: D.rest ph'

variable (D : SignData S)

theorem idx_lt16 (τ : Nat) : D.idx.getD τ 0 < 2 ^ 14 :=
  Nat.lt_of_lt_of_le (D.hidx τ) (Nat.pow_le_pow_right (by omega) S.facts.tle)

theorem signForsLeaf_ok {c : Ctx} {τ : Nat} (hm : S.MemPub mem) (hs : S.MemSec mem D.sk) (h : D.Inv (.forsLeaf τ) c) :
    Stepped D (.forsLeaf τ) (signForsLeaf S.E mem c) := by
  obtain ⟨g, hτ, hst, hloc, hfn, hit⟩ := h
  have F := S.facts
  have hmx := F.nmax
  have hx := x_ge_fors c g.toShape
  have hi := idx_lt16 D τ
  have hget : getForsNode S.E c.x c.fors_tree = .ok (D.idx.getD τ 0) := by
    rw [loc_ft hloc]
    exact (hfn τ hτ).get (by unfold MAX_FORS; show τ < 35; have := F.kle; omega) (by omega) (by omega)
  let c1 : Ctx := { c with auth_path_node := D.idx.getD τ 0 }
  have g1 : Good S c1 := ⟨⟨g.adr, g.buf, g.auth, g.x, g.si, g.bi⟩, g.ps, g.pk, g.pre⟩
  obtain ⟨c2, e2, s2⟩ := fors_prf_ok (out := c1.buffer) (idx := D.idx.getD τ 0) g1 hm hs hloc hτ (D.hidx τ) (by rw [g1.buf]; exact hmx)
  have g2 := s2.good g1
  have hpl := length_PRF (S := S) S.pkSeed D.sk (Adrs.forsPrf D.tree D.leaf (τ * 2 ^ S.P.a + D.idx.getD τ 0))
  let c3 : Ctx := { c2 with
    buffer := forsSk S.hf D.sk S.pkSeed D.tree D.leaf (τ * 2 ^ S.P.a + D.idx.getD τ 0) ++ c1.buffer.drop S.n,
    buffer_offset := 0, merkle_level := 0, state := .fors }
  have hb3 : c3.buffer.length = S.cfg.MAX_HASH := by
    show (forsSk S.hf D.sk S.pkSeed D.tree D.leaf (τ * 2 ^ S.P.a + D.idx.getD τ 0) ++ c1.buffer.drop S.n).length = _
    unfold forsSk
    rw [List.length_append, hpl, List.length_drop, g1.buf]; omega
  have g3 : Good S c3 := ⟨⟨g2.adr, hb3, g2.auth, g2.x, g2.si, g2.bi⟩, g2.ps, g2.pk, g2.pre⟩
  obtain ⟨c4, e4, s4⟩ := fors_leaf_ok (ctx := c3) (out := c3.auth_path_buffer) (idx := D.idx.getD τ 0) g3 hm hs
    (s2.keep.loc.trans hloc) hτ (D.hidx τ) (by rw [g3.auth]; exact hmx)
  have g4 := s4.good g3
  have k4 := s4.keep
  have hfl := length_forsNode (S := S) D.sk D.tree D.leaf (τ * 2 ^ S.P.a + D.idx.getD τ 0) 0
  refine ⟨.fors τ 0, _, { c4 with auth_path_buffer := forsNode S.hf D.sk S.pkSeed D.tree D.leaf (τ * 2 ^ S.P.a + D.idx.getD τ 0) 0 ++ c3.auth_path_buffer.drop S.n },
    ?_, k4.bo, rfl, ?_, ?_⟩
  · unfold signForsLeaf
    rw [hget, ok_bind]
    simp only
    rw [e2, ok_bind]
    simp only
    rw [e4, ok_bind]
  · refine ⟨⟨⟨g4.adr, g4.buf, ?_, g4.x, g4.si, g4.bi⟩, g4.ps, g4.pk, g4.pre⟩, hτ, by have := F.tge; omega, k4.st,
      k4.loc.trans (s2.keep.loc.trans hloc), ?_, ?_, k4.ml, ?_, ?_⟩
    · show (forsNode S.hf D.sk S.pkSeed D.tree D.leaf (τ * 2 ^ S.P.a + D.idx.getD τ 0) 0 ++ c3.auth_path_buffer.drop S.n).length = _
      rw [List.length_append, hfl, List.length_drop, g3.auth]; omega
    · show ForsNodes S c4.x D.idx
      rw [s4.xx]; show ForsNodes S c2.x D.idx
      rw [s2.xx]; exact hfn
    · show IterRep S c4.big_iter _ _
      rw [s4.big]; show IterRep S c2.big_iter _ _
      rw [s2.big]; exact hit
    · exact k4.an.trans s2.keep.an
    · simp only [Nat.pow_zero, Nat.div_one]; exact take_left' hfl
  · show D.restFors τ = _
    rw [D.restFors_step τ hτ]
    show _ = c4.buffer.take S.n :: ((D.ftree τ).drop (0 + 1) ++ D.restFors (τ + 1))
    rw [s4.buf]
    show _ = (forsSk S.hf D.sk S.pkSeed D.tree D.leaf (τ * 2 ^ S.P.a + D.idx.getD τ 0) ++ c1.buffer.drop S.n).take S.n :: _
    rw [take_left' (show (forsSk S.hf D.sk S.pkSeed D.tree D.leaf (τ * 2 ^ S.P.a + D.idx.getD τ 0)).length = S.n from hpl)]
    rfl

theorem ftree_drop (τ l : Nat) (hl : l < S.P.a) :
    (D.ftree τ).drop (l + 1) = forsNode S.hf D.sk S.pkSeed D.tree D.leaf
      (((τ * 2 ^ S.P.a + D.idx.getD τ 0) / 2 ^ l) ^^^ 1) l :: (D.ftree τ).drop (l + 2) := by
  unfold SignData.ftree
  rw [forsTreeSig_eq, List.drop_succ_cons, show l + 2 = l + 1 + 1 from rfl, List.drop_succ_cons,
    List.drop_eq_getElem_cons (by simpa using hl)]
  simp

theorem ftree_end (τ : Nat) : (D.ftree τ).drop (S.P.a + 1) = [] := by
  apply List.drop_of_length_le
  unfold SignData.ftree
  rw [length_forsTreeSig]

theorem forsLeaf_gen {tree kp τ : Nat} {sk : Bytes} (hm : S.MemPub mem) (hs : S.MemSec mem sk) (hτ : τ < S.P.k) :
    LeafOK S (fors_leaf S.E mem) (fun i => forsNode S.hf sk S.pkSeed tree kp (τ * 2 ^ S.P.a + i) 0) (Loc.fors tree kp τ)
      Config.forsStackOff True (2 ^ S.P.a) := by
  intro c out idx g hl ho hi
  obtain ⟨c', e, s⟩ := fors_leaf_ok (mem := mem) g hm hs hl hτ hi ho
  exact ⟨c', e, s.frame _ _ g⟩

theorem signFors_ok {c : Ctx} {τ l : Nat} (hm : S.MemPub mem) (hs : S.MemSec mem D.sk) (h : D.Inv (.fors τ l) c) :
    Stepped D (.fors τ l) (signFors S.E mem c) := by
  obtain ⟨g, hτ, hl, hst, hloc, hfn, hit, hml, han, hau⟩ := h
  have F := S.facts
  have hmx := F.nmax
  have hx := x_ge_fors c g.toShape
  rw [g.x] at hx
  obtain ⟨c1, e1, p⟩ := ts_merkle_path_ok (S := S) (mem := mem) (N := fun z j => forsNode S.hf D.sk S.pkSeed D.tree D.leaf j z)
    (L := Loc.fors D.tree D.leaf τ) (ty := ADR_TYPE_FORSTREE) (h := l) (stack := ⟨Config.forsStackOff, S.cfg.forsStackSize⟩)
    (gen := fors_leaf S.E mem) (ctx := c) (kb := True) (H := S.P.a) (base := τ * 2 ^ S.P.a) (an := D.idx.getD τ 0)
    hm g hloc (fun z j => rfl) (fun j => length_forsNode _ _ _ _ _) rfl (Nat.dvd_mul_left _ _) F.tle hτ
    (forsLeaf_gen hm hs hτ) hml.symm hl han (D.hidx τ)
    (by
      show (S.P.a - 1) * S.n ≤ (S.cfg.MAX_T - 1) * S.cfg.MAX_HASH
      exact Nat.mul_le_mul (by have := F.tmax; omega) hmx)
    hx hau
  have g1 := p.good
  have hfn1 : ForsNodes S c1.x D.idx := hfn.congr (p.keepB trivial).2
  have hit1 : IterRep S c1.big_iter (Adrs.forsRoots D.tree D.leaf) (D.roots τ) := by rw [(p.keepB trivial).1]; exact hit
  have hbuf := p.buf
  have hbi : τ * 2 ^ S.P.a / 2 ^ l + (D.idx.getD τ 0 / 2 ^ l ^^^ 1) = ((τ * 2 ^ S.P.a + D.idx.getD τ 0) / 2 ^ l) ^^^ 1 := by
    rw [fors_auth_idx _ _ _ _ hl]
    congr 1
    rw [show (2 : Nat) ^ S.P.a = 2 ^ (S.P.a - l) * 2 ^ l by rw [← Nat.pow_add]; congr 1; omega, ← Nat.mul_assoc,
      Nat.mul_div_cancel _ (Nat.pow_pos (by omega))]
  rw [hbi] at hbuf
  have hloc1 : c1.loc = Loc.fors D.tree D.leaf τ := p.loc.trans hloc
  have hrest := ftree_drop D τ l hl
  have hpt : c1.ps.t = S.P.a := by rw [g1.ps]; exact F.pt
  have hpk : c1.ps.k = S.P.k := by rw [g1.ps]; exact F.pk
  unfold signFors
  rw [show ts_merkle_path S.E mem (fors_leaf S.E mem) c ADR_TYPE_FORSTREE ⟨Config.forsStackOff, S.E.cfg.forsStackSize⟩ = .ok c1 from e1, ok_bind]
  by_cases hend : l + 1 = S.P.a
  · rw [if_pos (show c1.merkle_level = c1.ps.t by rw [p.ml, hpt]; exact hend)]
    have hau1 := p.auth
    simp only [hend, fors_step_idx] at hau1
    have hn := n_le (S := S)
    have hkle := F.kle
    have hrl : (D.roots τ).length < 2 ^ 32 := by
      rw [D.length_roots]
      have : τ * S.n ≤ 35 * 32 := Nat.mul_le_mul (by omega) hn
      omega
    obtain ⟨t2, e2, h2⟩ := call_next_t_ok (inp := c1.auth_path_buffer) g1 hit1 hrl (by rw [g1.auth]; exact hmx)
    rw [hau1] at h2
    have h2' : IterRep S t2 (Adrs.forsRoots D.tree D.leaf) (D.roots (τ + 1)) := by
      unfold SignData.roots at h2 ⊢
      rw [flatten_range_succ]; exact h2
    rw [e2, ok_bind]
    simp only
    have hft : (c1.fors_tree + 1) % 256 = τ + 1 := by rw [loc_ft hloc1]; simp only [Loc.fors]; omega
    rw [hft, hpk]
    let c2 : Ctx := { c1 with big_iter := t2, state := .fors_leaf, fors_tree := τ + 1 }
    have g2 : Good S c2 := ⟨⟨g1.adr, g1.buf, g1.auth, g1.x, g1.si, h2'.wf⟩, g1.ps, g1.pk, g1.pre⟩
    have hl2 : c2.loc = Loc.fors D.tree D.leaf (τ + 1) := by
      show (⟨c1.hypertree_level, τ + 1, c1.fors_keypair_addr, c1.tree_address⟩ : Loc) = _
      rw [loc_hl hloc1, loc_kp hloc1, loc_ta hloc1]; rfl
    by_cases hlast : τ + 1 = S.P.k
    · rw [if_pos hlast]
      have hrl2 : (D.roots (τ + 1)).length < 2 ^ 32 := by
        rw [D.length_roots]
        have : (τ + 1) * S.n ≤ 35 * 32 := Nat.mul_le_mul (by omega) hn
        omega
      obtain ⟨t3, e3, w3⟩ := call_final_t_ok (ctx := c2) (out := c1.auth_path_buffer) g2 h2' hrl2 (by rw [g1.auth]; exact hmx)
      rw [show call_final_t S.E c1.auth_path_buffer t2 { c1 with big_iter := t2, state := .fors_leaf, fors_tree := τ + 1 } = _ from e3, ok_bind]
      simp only
      have hV : S.hf.T S.pkSeed (Adrs.forsRoots D.tree D.leaf) (D.roots (τ + 1)) = D.msgAt 0 := by
        rw [hlast]; rfl
      rw [hV]
      have hVl : (D.msgAt 0).length = S.n := by rw [← hV]; exact length_T _ _ _
      let c3 : Ctx := { c1 with big_iter := t3, state := .fors_leaf, fors_tree := 0, auth_path_buffer := D.msgAt 0 ++ c1.auth_path_buffer.drop S.n }
      have g3 : Good S c3 := ⟨⟨g1.adr, g1.buf, by
        show (D.msgAt 0 ++ c1.auth_path_buffer.drop S.n).length = _
        rw [List.length_append, hVl, List.length_drop, g1.auth]; omega, g1.x, g1.si, w3⟩, g1.ps, g1.pk, g1.pre⟩
      have hleaf : D.leaf < 65536 := Nat.lt_of_lt_of_le D.hleaf (Nat.le_trans (Nat.pow_le_pow_right (by omega) F.hle) (by decide))
      obtain ⟨c4, e4, g4, q1, q2, q3, q4, q5, q6, q7, q8⟩ := set_up_wots_ok (c := c3) (M := D.msgAt 0) (leaf := D.leaf) g3 (take_left' hVl) hleaf
      refine ⟨.wots 0 0, _, c4, ?_, ?_, rfl, ⟨g4, by have := F.dge; omega, by unfold Spec.Params.len; omega, q1, ?_, q3, q8⟩, ?_⟩
      · rw [loc_kp hloc1]; exact e4
      · rw [q5]; exact p.bo
      · rw [q2]
        show (⟨c1.hypertree_level, 0, 0, c1.tree_address⟩ : Loc) = _
        rw [loc_hl hloc1, loc_ta hloc1]
        simp [Loc.fors, Loc.ht, SignData.treeAt]
      · rw [q4, show c3.buffer = c1.buffer from rfl, hbuf]
        show (D.ftree τ).drop (l + 1) ++ D.restFors (τ + 1) = _
        rw [hrest, show l + 2 = S.P.a + 1 by omega, ftree_end, hlast, D.restFors_end, D.restHt_step 0 (by have := F.dge; omega)]
        rfl
    · rw [if_neg hlast]
      refine ⟨.forsLeaf (τ + 1), _, c2, rfl, p.bo, rfl, ⟨g2, by omega, rfl, hl2, hfn1, h2'⟩, ?_⟩
      show (D.ftree τ).drop (l + 1) ++ D.restFors (τ + 1) = c1.buffer.take S.n :: D.restFors (τ + 1)
      rw [hbuf, hrest, show l + 2 = S.P.a + 1 by omega, ftree_end]
      rfl
  · rw [if_neg (show ¬ c1.merkle_level = c1.ps.t by rw [p.ml, hpt]; exact hend)]
    refine ⟨.fors τ (l + 1), _, c1, rfl, p.bo, rfl, ⟨g1, hτ, by omega, p.st.trans hst, hloc1, hfn1, hit1, p.ml, p.ann.trans han, p.auth⟩, ?_⟩
    show (D.ftree τ).drop (l + 1) ++ D.restFors (τ + 1) = _
    rw [hbuf, hrest]
    rfl

theorem ofNat_succ (i : Nat) : UInt8.ofNat i + 1 = UInt8.ofNat (i + 1) := by
  apply UInt8.toNat_inj.1
  rw [UInt8.toNat_add, UInt8.toNat_ofNat', UInt8.toNat_ofNat']
  show (i % 256 + 1) % 256 = (i + 1) % 256
  omega

theorem len_le67 : S.P.len ≤ 67 := by
  have := n_le (S := S)
  unfold Spec.Params.len
  have h : S.P.n = S.n := rfl
  omega

/-- Advancing the digit counter. -/
theorem WotsX.next {x M : Bytes} {i : Nat} (h : WotsX S M i x) (hx : 1 + S.P.len ≤ x.length) :
    WotsX S M (i + 1) (x.set 0 (x.getD 0 0 + 1)) := by
  refine ⟨?_, fun q hq => ?_⟩
  · rw [getD_set _ _ _ _ (by omega), if_pos rfl, h.1, ofNat_succ]
  · rw [getD_set _ _ _ _ (by omega), if_neg (by omega)]; exact h.2 q hq

theorem wsig_drop (j i : Nat) (hi : i < S.P.len) :
    (D.wsig j).drop i = chain S.hf S.pkSeed j (D.treeAt j) (D.leafAt j) i
      (wotsSk S.hf D.sk S.pkSeed j (D.treeAt j) (D.leafAt j) i) 0 ((wotsDigits S.P (D.msgAt j)).getD i 0) :: (D.wsig j).drop (i + 1) := by
  unfold SignData.wsig wotsSign
  rw [List.drop_eq_getElem_cons (by simpa using hi)]
  simp

theorem wsig_end (j : Nat) : (D.wsig j).drop S.P.len = [] :=
  List.drop_of_length_le (Nat.le_of_eq (length_wotsSign _ _ _ _ _ _ _ _))

theorem generate_next_ok {c : Ctx} {sk : Bytes} {j tree leaf i : Nat} {M : Bytes} (hm : S.MemPub mem) (hs : S.MemSec mem sk) (g : Good S c)
    (hi : i < S.P.len) (hloc : c.loc = Loc.ht j tree) (han : c.auth_path_node = leaf) (hw : WotsX S M i c.x) :
    ∃ c', generate_next_wots_hash S.E mem c = .ok c' ∧ Good S c' ∧ c'.state = c.state ∧ c'.loc = c.loc ∧
      c'.auth_path_node = leaf ∧ c'.buffer_offset = 0 ∧ WotsX S M (i + 1) c'.x ∧ c'.auth_path_buffer = c.auth_path_buffer ∧
      c'.buffer.take S.n = chain S.hf S.pkSeed j tree leaf i (wotsSk S.hf sk S.pkSeed j tree leaf i) 0 ((wotsDigits S.P M).getD i 0) := by
  have hmx := S.facts.nmax
  have hx := x_ge_digits c g.toShape
  have hd := digits_le (S := S)
  have h67 := len_le67 (S := S)
  have hiv : (c.x.getD 0 0).toNat = i := by rw [hw.1, UInt8.toNat_ofNat']; omega
  have hw1 := hw.next (by omega)
  let c1 : Ctx := { c with x := c.x.set 0 (c.x.getD 0 0 + 1) }
  have g1 : Good S c1 := ⟨⟨g.adr, g.buf, g.auth, by show (c.x.set 0 _).length = _; rw [List.length_set, g.x], g.si, g.bi⟩, g.ps, g.pk, g.pre⟩
  obtain ⟨c2, e2, s2, a2⟩ := (set_wots_prf_adr_ok g1 leaf i).scr g1
  have hl1 : c1.loc = Loc.ht j tree := hloc
  rw [loc_hl hl1, loc_ta hl1] at a2
  simp only [Loc.ht] at a2
  have g2 := s2.good g1
  obtain ⟨c3, e3, s3, -⟩ := prf_step (out := c.buffer) g2 hm hs a2 (by rw [g.buf]; exact hmx)
  have g3 := s3.good g2
  have s23 := s2.trans s3
  have hl3 : c3.loc = Loc.ht j tree := s23.keep.loc.trans hl1
  have hpl := length_PRF (S := S) S.pkSeed sk (Adrs.wotsPrf j tree leaf i)
  have hdig : getWotsDigit S.E c3 i = .ok ((wotsDigits S.P M).getD i 0) := by
    unfold getWotsDigit Config.wotsDigitsOff
    have hx3 : c3.x = c1.x := s23.xx
    have hx1 : c1.x.length = c.x.length := by show (c.x.set 0 _).length = _; simp
    rw [if_pos (show i < S.cfg.MAX_WOTS_DIGITS by omega), rd_getD 0 (by rw [hx3]; omega), ok_bind, hx3, hw1.2 i hi]
  have hcl := chain_loop (S := S) (mem := mem) (ctx := c3) (j := j) (tree := tree) (kp := leaf) (c := i)
    (buf := S.hf.PRF S.pkSeed sk (Adrs.wotsPrf j tree leaf i) ++ c.buffer.drop S.n) g3 hm
    (by rw [loc_hl hl3]; rfl) (by rw [loc_ta hl3]; rfl) 0 ((wotsDigits S.P M).getD i 0)
    (fun i_1 (s : Bytes × Ctx) => do
      let (b, ctx) := s
      let ctx ← ts_set_wots_f_adr S.E ctx ctx.auth_path_node i i_1
      call_f S.E mem b b ctx)
    (by
      intro q b c' hsc
      simp only
      rw [hsc.keep.an, s23.keep.an, show c1.auth_path_node = leaf from han]) (by simp [hpl])
  obtain ⟨c4, e4, s4⟩ := hcl
  rw [take_left' hpl, drop_left' hpl] at e4
  simp only at e4
  have g4 := s4.good g3
  have k4 := s23.keep.trans s4.keep
  have hch : (chain S.hf S.pkSeed j tree leaf i (S.hf.PRF S.pkSeed sk (Adrs.wotsPrf j tree leaf i)) 0 ((wotsDigits S.P M).getD i 0)).length = S.n :=
    length_chain _ _ _ _ _ _ _ hpl
  refine ⟨{ c4 with buffer := chain S.hf S.pkSeed j tree leaf i (S.hf.PRF S.pkSeed sk (Adrs.wotsPrf j tree leaf i)) 0 ((wotsDigits S.P M).getD i 0) ++ c.buffer.drop S.n, buffer_offset := 0 },
    ?_, ?_, k4.st, k4.loc, k4.an.trans han, rfl, ?_, (s23.trans s4).auth, ?_⟩
  · unfold generate_next_wots_hash Config.wotsDigitOff
    rw [rd_getD 0 (by omega), ok_bind, wr_ok _ (by omega), ok_bind]
    simp only [hiv, han]
    have e2' : set_wots_prf_adr S.E { c with x := c.x.set 0 (c.x.getD 0 0 + 1) } leaf i = .ok c2 := e2
    simp only [han] at e2'
    rw [wots_prf]
    rw [e2', ok_bind, e3, ok_bind]
    simp only
    rw [hdig, ok_bind, e4, ok_bind]
  · refine ⟨⟨g4.adr, ?_, g4.auth, g4.x, g4.si, g4.bi⟩, g4.ps, g4.pk, g4.pre⟩
    show (chain S.hf S.pkSeed j tree leaf i (S.hf.PRF S.pkSeed sk (Adrs.wotsPrf j tree leaf i)) 0 ((wotsDigits S.P M).getD i 0) ++ c.buffer.drop S.n).length = _
    rw [List.length_append, hch, List.length_drop, g.buf]; omega
  · show WotsX S M (i + 1) c4.x
    rw [(s23.trans s4).xx]; exact hw1
  · exact take_left' hch

theorem signWots_ok {c : Ctx} {j i : Nat} (hm : S.MemPub mem) (hs : S.MemSec mem D.sk) (h : D.Inv (.wots j i) c) :
    Stepped D (.wots j i) (signWots S.E mem c) := by
  obtain ⟨g, hj, hi, hst, hloc, han, hw⟩ := h
  have F := S.facts
  have hmx := F.nmax
  have h67 := len_le67 (S := S)
  obtain ⟨c1, e1, g1, p1, p2, p3, p4, p5, p6, p7⟩ := generate_next_ok (mem := mem) (sk := D.sk) hm hs g hi hloc han hw
  have hx := x_ge_digits c1 g1.toShape
  have hrest := wsig_drop D j i hi
  have hl1 : c1.loc = Loc.ht j (D.treeAt j) := p2.trans hloc
  have hn1 := ctx_n g1
  unfold signWots Config.wotsDigitOff
  rw [e1, ok_bind, rd_getD 0 (by omega), ok_bind, p5.1, UInt8.toNat_ofNat', Nat.mod_eq_of_lt (by omega), hn1]
  have hlen : S.P.len = 2 * S.n + 3 := rfl
  by_cases hend : i + 1 = 2 * S.n + 3
  · rw [if_pos hend]
    let c2 : Ctx := { c1 with state := .merkle, merkle_level := 0, auth_path_node := D.leafAt j }
    have g2 : Good S c2 := ⟨⟨g1.adr, g1.buf, g1.auth, g1.x, g1.si, g1.bi⟩, g1.ps, g1.pk, g1.pre⟩
    obtain ⟨c3, e3, f3⟩ := ts_wots_leaf_ok (mem := mem) (ctx := c2) (out := c1.auth_path_buffer) (sk := D.sk) (j := j) (tree := D.treeAt j)
      (idx := D.leafAt j) g2 hm hs (by rw [loc_hl (show c2.loc = _ from hl1)]; rfl) (by rw [loc_ta (show c2.loc = _ from hl1)]; rfl) (by rw [g1.auth]; exact hmx)
    have g3 := f3.good
    have k3 := f3.keep
    have hl3 := length_xmssNode (S := S) D.sk j (D.treeAt j) (D.leafAt j) 0
    refine ⟨.merkle j 0, _, { c3 with auth_path_buffer := wotsPkGen S.P S.hf D.sk S.pkSeed j (D.treeAt j) (D.leafAt j) ++ c1.auth_path_buffer.drop S.n },
      ?_, k3.bo.trans p4, rfl, ?_, ?_⟩
    · simp only [p3]
      rw [e3, ok_bind]
    · refine ⟨⟨⟨g3.adr, g3.buf, ?_, g3.x, g3.si, g3.bi⟩, g3.ps, g3.pk, g3.pre⟩, hj, by have := F.hge; omega, k3.st, k3.loc.trans hl1, k3.an, k3.ml, ?_⟩
      · show (wotsPkGen S.P S.hf D.sk S.pkSeed j (D.treeAt j) (D.leafAt j) ++ c1.auth_path_buffer.drop S.n).length = _
        rw [List.length_append, show (wotsPkGen S.P S.hf D.sk S.pkSeed j (D.treeAt j) (D.leafAt j)).length = S.n from hl3, List.length_drop, g1.auth]; omega
      · rw [Nat.pow_zero, Nat.div_one]
        exact take_left' hl3
    · show (D.wsig j).drop i ++ (D.wauth j ++ D.restHt (j + 1)) = c3.buffer.take S.n :: ((D.wauth j).drop 0 ++ D.restHt (j + 1))
      rw [f3.buf, show c2.buffer = c1.buffer from rfl, p7, hrest, show i + 1 = S.P.len by omega, wsig_end, List.drop_zero]
      rfl
  · rw [if_neg hend]
    refine ⟨.wots j (i + 1), _, c1, rfl, p4, rfl, ⟨g1, hj, by omega, p1.trans hst, hl1, p3, p5⟩, ?_⟩
    show (D.wsig j).drop i ++ _ = _
    rw [p7, hrest]
    rfl

theorem wauth_drop (j l : Nat) (hl : l < S.P.hp) :
    (D.wauth j).drop l = xmssNode S.P S.hf D.sk S.pkSeed j (D.treeAt j) ((D.leafAt j / 2 ^ l) ^^^ 1) l :: (D.wauth j).drop (l + 1) := by
  unfold SignData.wauth xmssAuth
  rw [List.drop_eq_getElem_cons (by simpa using hl)]
  simp

theorem wauth_end (j : Nat) : (D.wauth j).drop S.P.hp = [] :=
  List.drop_of_length_le (Nat.le_of_eq (length_xmssAuth _ _ _ _ _ _ _))

theorem wotsLeaf_gen {j tree : Nat} {sk : Bytes} (hm : S.MemPub mem) (hs : S.MemSec mem sk) (bound : Nat) :
    LeafOK S (ts_wots_leaf S.E mem) (fun i => xmssNode S.P S.hf sk S.pkSeed j tree (0 + i) 0) (Loc.ht j tree)
      S.cfg.merkleStackOff False bound := by
  intro c out idx g hl ho hi
  simp only [Nat.zero_add]
  exact ts_wots_leaf_ok (mem := mem) g hm hs (loc_hl hl) (loc_ta hl) ho

/-- One level of an XMSS authentication path. -/
theorem merkle_level_ok {c : Ctx} {sk : Bytes} {j tree leaf l : Nat} (hm : S.MemPub mem) (hs : S.MemSec mem sk) (g : Good S c)
    (hloc : c.loc = Loc.ht j tree) (hl : l < S.P.hp) (hml : c.merkle_level = l) (han : c.auth_path_node = leaf) (hlf : leaf < 2 ^ S.P.hp)
    (hau : c.auth_path_buffer.take S.n = xmssNode S.P S.hf sk S.pkSeed j tree (leaf / 2 ^ l) l) :
    ∃ c', ts_merkle_path S.E mem (ts_wots_leaf S.E mem) c ADR_TYPE_HASHTREE ⟨S.E.cfg.merkleStackOff, S.E.cfg.merkleStackSize⟩ = .ok c' ∧
      PathRes S (fun z j' => xmssNode S.P S.hf sk S.pkSeed j tree j' z) 0 leaf l S.cfg.merkleStackOff False c c' := by
  have F := S.facts
  have hx := x_ge_hash c g.toShape
  rw [g.x] at hx
  exact ts_merkle_path_ok (S := S) (mem := mem) (N := fun z j' => xmssNode S.P S.hf sk S.pkSeed j tree j' z)
    (L := Loc.ht j tree) (ty := ADR_TYPE_HASHTREE) (h := l) (stack := ⟨S.cfg.merkleStackOff, S.cfg.merkleStackSize⟩)
    (gen := ts_wots_leaf S.E mem) (ctx := c) (kb := False) (H := S.P.hp) (base := 0) (an := leaf)
    hm g hloc (fun z j => rfl) (fun j => length_xmssNode _ _ _ _ _) (by simp [Loc.ht]) (Nat.dvd_zero _) (by have := F.hle; omega)
    (by have := F.kge; show 0 < S.P.k; omega)
    (wotsLeaf_gen hm hs _) hml.symm hl han hlf
    (by
      show (S.P.hp - 1) * S.n ≤ (S.cfg.MAX_MERKLE_H - 1) * S.cfg.MAX_HASH
      exact Nat.mul_le_mul (by have := F.hmax; omega) F.nmax)
    hx (by rw [Nat.zero_add]; exact hau)

theorem shl_hp : shlInt 1 S.P.hp = .ok (2 ^ S.P.hp) := by
  have h9 : (2 : Nat) ^ S.P.hp ≤ 2 ^ 9 := Nat.pow_le_pow_right (by omega) S.facts.hle
  unfold shlInt
  rw [if_pos ⟨by have := S.facts.hle; omega, by omega⟩, Nat.one_mul]

theorem signMerkle_ok {c : Ctx} {j l : Nat} (hm : S.MemPub mem) (hs : S.MemSec mem D.sk) (h : D.Inv (.merkle j l) c) :
    Stepped D (.merkle j l) (signMerkle S.E mem c) := by
  obtain ⟨g, hj, hl, hst, hloc, han, hml, hau⟩ := h
  have F := S.facts
  obtain ⟨c1, e1, p⟩ := merkle_level_ok (mem := mem) hm hs g hloc hl hml han (D.leafAt_lt j) hau
  have g1 := p.good
  have hbuf := p.buf
  simp only [Nat.zero_div, Nat.zero_add] at hbuf
  have hloc1 : c1.loc = Loc.ht j (D.treeAt j) := p.loc.trans hloc
  have hrest := wauth_drop D j l hl
  have hph : c1.ps.merkle_h = S.P.hp := by rw [g1.ps]; exact F.phm
  have hpd : c1.ps.d = S.P.d := by rw [g1.ps]; exact F.pd
  unfold signMerkle
  rw [e1, ok_bind]
  by_cases hend : l + 1 = S.P.hp
  · rw [if_pos (show c1.merkle_level = c1.ps.merkle_h by rw [p.ml, hph]; exact hend)]
    have hau1 := p.auth
    simp only [hend, Nat.zero_add, Nat.div_eq_of_lt (D.leafAt_lt j)] at hau1
    have hhl : (c1.hypertree_level + 1) % 256 = j + 1 := by
      rw [loc_hl hloc1]; have := F.dle; simp only [Loc.ht]; omega
    simp only [hhl, hpd]
    have hr' : (D.wauth j).drop l ++ D.restHt (j + 1) =
        xmssNode S.P S.hf D.sk S.pkSeed j (D.treeAt j) ((D.leafAt j / 2 ^ l) ^^^ 1) l :: D.restHt (j + 1) := by
      rw [hrest, hend, wauth_end]; rfl
    by_cases hlast : j + 1 = S.P.d
    · rw [if_pos hlast]
      refine ⟨.done, _, { c1 with hypertree_level := j + 1, state := .done }, rfl, p.bo, rfl,
        ⟨⟨⟨g1.adr, g1.buf, g1.auth, g1.x, g1.si, g1.bi⟩, g1.ps, g1.pk, g1.pre⟩, rfl⟩, ?_⟩
      show (D.wauth j).drop l ++ D.restHt (j + 1) = c1.buffer.take S.n :: []
      rw [hr', hbuf, hlast, D.restHt_end]
    · rw [if_neg hlast, hph, shl_hp, ok_bind]
      have hmask : D.treeAt j &&& (2 ^ S.P.hp - 1) = D.leafAt (j + 1) := Nat.and_two_pow_sub_one_eq_mod _ _
      have hlt := D.leafAt_lt (j + 1)
      have h9 : (2 : Nat) ^ S.P.hp ≤ 2 ^ 9 := Nat.pow_le_pow_right (by omega) F.hle
      have hta : c1.tree_address = D.treeAt j := loc_ta hloc1
      rw [hta, hmask, Nat.mod_eq_of_lt (by omega), Nat.shiftRight_eq_div_pow, ← D.treeAt_succ j]
      let c2 : Ctx := { c1 with hypertree_level := j + 1, auth_path_node := D.leafAt (j + 1), tree_address := D.treeAt (j + 1) }
      have g2 : Good S c2 := ⟨⟨g1.adr, g1.buf, g1.auth, g1.x, g1.si, g1.bi⟩, g1.ps, g1.pk, g1.pre⟩
      obtain ⟨c4, e4, g4, q1, q2, q3, q4, q5, q6, q7, q8⟩ := set_up_wots_ok (c := c2) (M := D.msgAt (j + 1)) (leaf := D.leafAt (j + 1)) g2 hau1 (by omega)
      refine ⟨.wots (j + 1) 0, _, c4, e4, ?_, rfl, ⟨g4, by omega, by unfold Spec.Params.len; omega, q1, ?_, q3, q8⟩, ?_⟩
      · rw [q5]; exact p.bo
      · rw [q2]
        show (⟨j + 1, c1.fors_tree, 0, D.treeAt (j + 1)⟩ : Loc) = _
        rw [loc_ft hloc1]; rfl
      · show (D.wauth j).drop l ++ D.restHt (j + 1) = c4.buffer.take S.n :: ((D.wsig (j + 1)).drop 0 ++ (D.wauth (j + 1) ++ D.restHt (j + 1 + 1)))
        rw [q4, show c2.buffer = c1.buffer from rfl, hbuf, hr', D.restHt_step (j + 1) (by omega)]
        rfl
  · rw [if_neg (show ¬ c1.merkle_level = c1.ps.merkle_h by rw [p.ml, hph]; exact hend)]
    refine ⟨.merkle j (l + 1), _, c1, rfl, p.bo, rfl, ⟨g1, hj, by omega, p.st.trans hst, hloc1, p.ann.trans han, p.ml, by
      have := p.auth; rw [Nat.zero_add] at this; exact this⟩, ?_⟩
    show (D.wauth j).drop l ++ D.restHt (j + 1) = _
    rw [hbuf, hrest]
    rfl

/-- Every step produces the next block of the specification. -/
theorem sign_step {c : Ctx} {ph : Ph} (hm : S.MemPub mem) (hs : S.MemSec mem D.sk) (h : D.Inv ph c) :
    (ph = .done ∧ signStep S.E mem c = .ok none) ∨
      ∃ ph' b c', signStep S.E mem c = .ok (some c') ∧ c'.buffer_offset = 0 ∧ c'.buffer.take S.n = b ∧ D.Inv ph' c' ∧
        D.rest ph = b :: D.rest ph' := by
  have lift : ∀ {r : C Ctx}, Stepped D ph r → (signStep S.E mem c = do .ok (some (← r))) →
      ∃ ph' b c', signStep S.E mem c = .ok (some c') ∧ c'.buffer_offset = 0 ∧ c'.buffer.take S.n = b ∧ D.Inv ph' c' ∧
        D.rest ph = b :: D.rest ph' := by
    rintro r ⟨ph', b, c', e, h1, h2, h3, h4⟩ hr
    exact ⟨ph', b, c', by rw [hr, e, ok_bind], h1, h2, h3, h4⟩
  cases ph with
  | forsLeaf τ => exact Or.inr (lift (signForsLeaf_ok D hm hs h) (by obtain ⟨-, -, hst, -⟩ := h; rw [signStep, hst]))
  | fors τ l => exact Or.inr (lift (signFors_ok D hm hs h) (by obtain ⟨-, -, -, hst, -⟩ := h; rw [signStep, hst]))
  | wots j i => exact Or.inr (lift (signWots_ok D hm hs h) (by obtain ⟨-, -, -, hst, -⟩ := h; rw [signStep, hst]))
  | merkle j l => exact Or.inr (lift (signMerkle_ok D hm hs h) (by obtain ⟨-, -, -, hst, -⟩ := h; rw [signStep, hst]))
  | done => exact Or.inl ⟨rfl, by obtain ⟨-, hst⟩ := h; rw [signStep, hst]⟩

end Model
