import Verif.Proof.SignLoop
import Verif.Proof.VerifySpec
/-!
# `ts_gen_key`
-/
namespace Model
open Spec Spec.Slh

/-- What a write does. -/
structure Mem.Wrote (mem : Mem) (a : Nat) (bs : Bytes) (mem' : Mem) : Prop where
  has : mem'.Has a bs
  frame : ∀ x, x < a ∨ a + bs.length ≤ x → mem' x = mem x
  maps : ∀ x, (mem' x).isSome = (mem x).isSome

theorem Mem.write_ok (bs : Bytes) : ∀ (mem : Mem) (a : Nat), mem.Mapped a bs.length → ∃ mem', mem.write a bs = .ok mem' ∧ mem.Wrote a bs mem' := by
  induction bs with
  | nil => intro mem a _; exact ⟨mem, rfl, fun i hi => absurd hi (by simp), fun _ _ => rfl, fun _ => rfl⟩
  | cons b bs ih =>
    intro mem a h
    have h0 : (mem a).isSome := h 0 (by simp)
    obtain ⟨v, hv⟩ := Option.isSome_iff_exists.1 h0
    have e1 : mem.write1 a b = .ok fun x => if x = a then some b else mem x := by unfold Mem.write1; rw [hv]
    obtain ⟨mem', e2, w⟩ := ih (fun x => if x = a then some b else mem x) (a + 1) (by
      intro i hi
      show (if a + 1 + i = a then some b else mem (a + 1 + i)).isSome
      rw [if_neg (by omega)]
      have := h (i + 1) (by simp; omega)
      rw [show a + 1 + i = a + (i + 1) by omega]; exact this)
    refine ⟨mem', ?_, ?_, ?_, ?_⟩
    · unfold Mem.write; rw [e1, ok_bind, e2]
    · have ha : mem' a = some b := by rw [w.frame a (by omega)]; simp
      intro i hi
      cases i with
      | zero => exact ha
      | succ i =>
        have := w.has i (by simpa using hi)
        rw [show a + (i + 1) = a + 1 + i by omega, this]; rfl
    · intro x hx
      rw [List.length_cons] at hx
      rw [w.frame x (by omega)]
      show (if x = a then some b else mem x) = mem x
      rw [if_neg (by omega)]
    · intro x
      rw [w.maps x]
      show (if x = a then some b else mem x).isSome = _
      split
      · rename_i h'; rw [h', hv]; rfl
      · rfl

theorem Mem.Wrote.keep {mem mem' : Mem} {a : Nat} {bs : Bytes} (w : mem.Wrote a bs mem') {p : Nat} {v : Bytes} (h : mem.Has p v)
    (hd : p + v.length ≤ a ∨ a + bs.length ≤ p) : mem'.Has p v := by
  intro i hi
  rw [w.frame (p + i) (by omega)]
  exact h i hi

theorem Mem.Wrote.mapped {mem mem' : Mem} {a : Nat} {bs : Bytes} (w : mem.Wrote a bs mem') {p len : Nat} (h : mem.Mapped p len) : mem'.Mapped p len := by
  intro i hi; rw [w.maps]; exact h i hi

theorem Mem.Mapped.mono {mem : Mem} {p q len l : Nat} (h : mem.Mapped p len) (h1 : p ≤ q) (h2 : q + l ≤ p + len) : mem.Mapped q l := by
  intro i hi
  have := h (q + i - p) (by omega)
  rw [show p + (q + i - p) = q + i by omega] at this
  exact this

variable {S : Sess} {mem : Mem}

theorem zero_shape : Shape S.cfg (zeroCtx S.E S.ps) :=
  ⟨by simp [zeroCtx], by simp [zeroCtx], by simp [zeroCtx], by simp [zeroCtx], trivial, trivial⟩

theorem gen_root_ok {sk : Bytes} (hm : S.MemPub mem) (hs : S.MemSec mem sk) :
    ∃ a, gen_root S.E mem S.ps S.pk = .ok a ∧ S.n ≤ a.length ∧ a.take S.n = pkRoot S.P S.hf sk S.pkSeed := by
  have F := S.facts
  have hmx := F.nmax
  have z := zero_shape (S := S)
  obtain ⟨si, p1, p2, e1, g1⟩ := call_prehash_ok (S := S) (mem := mem) (ctx := { zeroCtx S.E S.ps with public_key := S.pk }) rfl rfl hm
    ⟨z.adr, z.buf, z.auth, z.x, z.si, z.bi⟩
  generalize hc1 : ({ zeroCtx S.E S.ps with public_key := S.pk, small_iter := si, prehash_sha256 := p1, prehash_sha512 := p2 } : Ctx) = c1 at *
  let c2 : Ctx := { c1 with buffer_offset := S.n, hypertree_level := S.P.d - 1, tree_address := 0, auth_path_node := 0, merkle_level := 0 }
  have g2 : Good S c2 := ⟨⟨g1.adr, g1.buf, g1.auth, g1.x, g1.si, g1.bi⟩, g1.ps, g1.pk, g1.pre⟩
  obtain ⟨c3, e3, f3⟩ := ts_wots_leaf_ok (mem := mem) (ctx := c2) (out := c2.auth_path_buffer) (sk := sk) (j := S.P.d - 1) (tree := 0)
    (idx := 0) g2 hm hs rfl rfl (by rw [g2.auth]; exact hmx)
  have g3 := f3.good
  have k3 := f3.keep
  have hl3 := length_xmssNode (S := S) sk (S.P.d - 1) 0 0 0
  let c4 : Ctx := { c3 with auth_path_buffer := wotsPkGen S.P S.hf sk S.pkSeed (S.P.d - 1) 0 0 ++ c2.auth_path_buffer.drop S.n }
  have g4 : Good S c4 := ⟨⟨g3.adr, g3.buf, by
    show (wotsPkGen S.P S.hf sk S.pkSeed (S.P.d - 1) 0 0 ++ c2.auth_path_buffer.drop S.n).length = _
    rw [List.length_append, show (wotsPkGen S.P S.hf sk S.pkSeed (S.P.d - 1) 0 0).length = S.n from hl3, List.length_drop, g2.auth]
    have : S.n ≤ S.cfg.MAX_HASH := hmx
    omega, g3.x, g3.si, g3.bi⟩, g3.ps, g3.pk, g3.pre⟩
  have hl4 : c4.loc = Loc.ht (S.P.d - 1) 0 := by
    have h1 : c4.loc = c2.loc := k3.loc
    have h2 : c1.fors_tree = 0 := by rw [← hc1]; rfl
    have h3 : c1.fors_keypair_addr = 0 := by rw [← hc1]; rfl
    rw [h1]
    show (⟨S.P.d - 1, c1.fors_tree, c1.fors_keypair_addr, 0⟩ : Loc) = _
    rw [h2, h3]; rfl
  have ha4 : c4.auth_path_buffer.take S.n = xmssNode S.P S.hf sk S.pkSeed (S.P.d - 1) 0 0 0 := take_left' hl3
  have step : ∀ i c, i < S.P.hp → (Good S c ∧ c.loc = Loc.ht (S.P.d - 1) 0 ∧ c.merkle_level = i ∧ c.auth_path_node = 0 ∧
      c.auth_path_buffer.take S.n = xmssNode S.P S.hf sk S.pkSeed (S.P.d - 1) 0 0 i) →
      ∃ c', ts_merkle_path S.E mem (ts_wots_leaf S.E mem) c ADR_TYPE_HASHTREE ⟨S.E.cfg.merkleStackOff, S.E.cfg.merkleStackSize⟩ = .ok c' ∧
      (Good S c' ∧ c'.loc = Loc.ht (S.P.d - 1) 0 ∧ c'.merkle_level = i + 1 ∧ c'.auth_path_node = 0 ∧
      c'.auth_path_buffer.take S.n = xmssNode S.P S.hf sk S.pkSeed (S.P.d - 1) 0 0 (i + 1)) := by
    rintro i c hi ⟨q1, q2, q3, q4, q5⟩
    obtain ⟨c', e, r⟩ := merkle_level_ok (mem := mem) (c := c) (sk := sk) (j := S.P.d - 1) (tree := 0) (leaf := 0) (l := i) hm hs q1 q2 hi q3 q4
      (Nat.pow_pos (by omega)) (by rw [Nat.zero_div]; exact q5)
    refine ⟨c', e, r.good, r.loc.trans q2, r.ml, r.ann.trans q4, ?_⟩
    have := r.auth
    rw [Nat.zero_add, Nat.zero_div] at this
    exact this
  obtain ⟨c5, e5, q1, q2, q3, q4, q5⟩ := loop_inv (body := fun _ c => ts_merkle_path S.E mem (ts_wots_leaf S.E mem) c ADR_TYPE_HASHTREE ⟨S.E.cfg.merkleStackOff, S.E.cfg.merkleStackSize⟩)
    (fun i c => Good S c ∧ c.loc = Loc.ht (S.P.d - 1) 0 ∧ c.merkle_level = i ∧ c.auth_path_node = 0 ∧
      c.auth_path_buffer.take S.n = xmssNode S.P S.hf sk S.pkSeed (S.P.d - 1) 0 0 i) S.P.hp 0 c4
    ⟨g4, hl4, k3.ml, k3.an, ha4⟩ (fun i c h1 h2 h => step i c (by omega) h)
  rw [Nat.zero_add] at q5
  refine ⟨c5.auth_path_buffer, ?_, by rw [q1.auth]; exact hmx, q5⟩
  unfold gen_root
  simp only [F.pn, F.phm, F.pd]
  rw [e1, ok_bind]
  have hd : usub S.P.d 1 % 256 = S.P.d - 1 := by
    have := F.dle; have := F.dge
    unfold usub; omega
  rw [hd]
  rw [show ts_wots_leaf S.E mem c1.auth_path_buffer 0 _ = _ from e3, ok_bind]
  simp only
  rw [show loop _ S.P.hp 0 _ = _ from e5, ok_bind]

/-- `ts_gen_key` on success. -/
theorem ts_gen_key_ok {E : Env} {x : PsName} (hx : supported E.cfg x = true) {priv : Nat} {pub : Option Nat} {f : Rng} (hf : RngOk f (3 * x.P.n))
    (hok : (f (3 * x.P.n)).1 = true) (hmap : mem.Mapped priv (4 * x.P.n))
    (hpub : ∀ pk, pub = some pk → mem.Mapped pk (2 * x.P.n) ∧ Disj priv (4 * x.P.n) pk (2 * x.P.n))
    {skSeed skPrf pkSeed : Bytes} (h1 : skSeed.length = x.P.n) (h2 : skPrf.length = x.P.n) (h3 : pkSeed.length = x.P.n)
    (hr : (f (3 * x.P.n)).2 = skSeed ++ skPrf ++ pkSeed) :
    ∃ mem', ts_gen_key E mem (some priv) pub (some (ps E.cfg x)) (some f) = .ok (1, mem', [3 * x.P.n]) ∧
      mem'.Has priv (keygen x.P x.fns skSeed skPrf pkSeed) ∧
      (∀ pk, pub = some pk → mem'.Has pk (pkSeed ++ pkRoot x.P x.fns skSeed pkSeed)) ∧
      (∀ a, (a < priv ∨ priv + 4 * x.P.n ≤ a) → (∀ pk, pub = some pk → a < pk ∨ pk + 2 * x.P.n ≤ a) → mem' a = mem a) := by
  let S : Sess := ⟨E, x, hx, priv + 2 * x.P.n, pkSeed, h3⟩
  have F := S.facts
  have hpn : (ps E.cfg x).n = x.P.n := F.pn
  obtain ⟨root, hroot⟩ : ∃ r, r = pkRoot x.P x.fns skSeed pkSeed := ⟨_, rfl⟩
  have hrl : root.length = x.P.n := by rw [hroot]; exact length_xmssNode (S := S) _ _ _ _ _
  have hl3 : (skSeed ++ skPrf ++ pkSeed).length = 3 * x.P.n := by simp; omega
  obtain ⟨m1, e1, w1⟩ := Mem.write_ok (skSeed ++ skPrf ++ pkSeed) mem priv (hmap.mono (Nat.le_refl _) (by omega))
  have w1h := w1.has
  rw [Mem.Has.append, Mem.Has.append] at w1h
  have hm : S.MemPub m1 := by
    have := w1h.2
    rw [show priv + (skSeed ++ skPrf).length = priv + 2 * x.P.n by rw [List.length_append]; omega] at this
    exact this
  have hs : S.MemSec m1 skSeed := ⟨by show 2 * x.P.n ≤ priv + 2 * x.P.n; omega, h1, by
    show m1.Has (priv + 2 * x.P.n - 2 * x.P.n) skSeed
    rw [Nat.add_sub_cancel]; exact w1h.1.1⟩
  obtain ⟨a, e2, ha1, ha2⟩ := gen_root_ok (S := S) hm hs
  have ha2' : a.take x.P.n = root := ha2.trans hroot.symm
  have hmap1 : m1.Mapped priv (4 * x.P.n) := w1.mapped hmap
  obtain ⟨m2, e3, w2⟩ := Mem.write_ok root m1 (priv + 2 * x.P.n + x.P.n) (hmap1.mono (by omega) (by omega))
  have hk2 : m2.Has priv (skSeed ++ skPrf ++ pkSeed ++ root) := by
    rw [Mem.Has.append]
    refine ⟨w2.keep w1.has (by omega), ?_⟩
    rw [hl3, show priv + 3 * x.P.n = priv + 2 * x.P.n + x.P.n by omega]; exact w2.has
  have hp2 : m2.Has (priv + 2 * x.P.n) (pkSeed ++ root) := by
    have h := hk2
    rw [List.append_assoc, Mem.Has.append] at h
    have := h.2
    rw [show priv + (skSeed ++ skPrf).length = priv + 2 * x.P.n by rw [List.length_append]; omega] at this
    exact this
  have hpl : (pkSeed ++ root).length = 2 * x.P.n := by rw [List.length_append]; omega
  obtain ⟨m3, e4, i1, i2, i3⟩ : ∃ m3, copy_public m2 pub (priv + 2 * x.P.n) x.P.n = .ok m3 ∧ m3.Has priv (skSeed ++ skPrf ++ pkSeed ++ root) ∧
      (∀ pk, pub = some pk → m3.Has pk (pkSeed ++ root)) ∧ ∀ a, (∀ pk, pub = some pk → a < pk ∨ pk + 2 * x.P.n ≤ a) → m3 a = m2 a := by
    cases pub with
    | none => exact ⟨m2, rfl, hk2, fun pk h => (by cases h), fun _ _ => rfl⟩
    | some pk =>
      obtain ⟨hq1, hq2⟩ := hpub pk rfl
      obtain ⟨m3, e4, w3⟩ := Mem.write_ok (pkSeed ++ root) m2 pk (by rw [hpl]; exact w2.mapped (w1.mapped hq1))
      refine ⟨m3, ?_, w3.keep hk2 ?_, ?_, ?_⟩
      · unfold copy_public
        have := Mem.Has.read hp2
        rw [hpl] at this
        simp only [this, ok_bind, e4]
      · rw [hpl, List.length_append, hl3, hrl]
        unfold Disj at hq2
        omega
      · intro pk' h; cases h; exact w3.has
      · intro a h
        have := h pk rfl
        exact w3.frame a (by rw [hpl]; exact this)
  refine ⟨m3, ?_, ?_, ?_, ?_⟩
  · unfold ts_gen_key
    simp only [hpn, hr, hok, e1, ok_bind]
    rw [show gen_root E m1 (ps E.cfg x) (priv + 2 * x.P.n) = _ from e2]
    simp only [Bool.not_true, Bool.false_eq_true, if_false, ok_bind]
    rw [rdSlice_ok (by rw [Nat.zero_add]; exact ha1), ok_bind, List.drop_zero, ha2', e3, ok_bind, e4, ok_bind]
  · unfold keygen; rw [← hroot]; exact i1
  · rw [← hroot]; exact i2
  · intro a h4 h5
    rw [i3 a h5, w2.frame a (by omega), w1.frame a (by omega)]

end Model
