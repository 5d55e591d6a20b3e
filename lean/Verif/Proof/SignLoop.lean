import Verif.Proof.Sign
/-!
# The output side of `ts_sign`, and `ts_init_sign`
-/
namespace Model
open Spec Spec.Slh

/-- Overwrite `v` at offset `off`. -/
def put (dest : Bytes) (off : Nat) (v : Bytes) : Bytes := dest.take off ++ v ++ dest.drop (off + v.length)

theorem put_nil (dest : Bytes) (off : Nat) : put dest off [] = dest := by simp [put]

theorem length_put (dest : Bytes) (off : Nat) (v : Bytes) (h : off + v.length ≤ dest.length) :
    (put dest off v).length = dest.length := by
  simp [put]; omega

theorem put_put (dest : Bytes) (off : Nat) (a b : Bytes) (h : off + a.length ≤ dest.length) :
    put (put dest off a) (off + a.length) b = put dest off (a ++ b) := by
  have h1 : (dest.take off ++ a).length = off + a.length := by simp; omega
  unfold put
  rw [List.take_append_of_le_length (by omega), List.take_of_length_le (by omega), ← List.drop_drop, List.drop_left' h1,
    List.drop_drop, List.length_append]
  simp [List.append_assoc, Nat.add_assoc]

variable {S : Sess} {mem : Mem} (D : SignData S)

theorem Good.bo {c : Ctx} (g : Good S c) (b : Nat) : Good S { c with buffer_offset := b } :=
  ⟨⟨g.adr, g.buf, g.auth, g.x, g.si, g.bi⟩, g.ps, g.pk, g.pre⟩

theorem SignData.Inv.good {D : SignData S} {ph : Ph} {c : Ctx} (h : D.Inv ph c) : Good S c := by
  cases ph <;> exact h.1

theorem SignData.Inv.bo {D : SignData S} {ph : Ph} {c : Ctx} (h : D.Inv ph c) (b : Nat) :
    D.Inv ph { c with buffer_offset := b } := by
  cases ph <;> exact ⟨h.1.bo b, h.2⟩

/-- Bytes still to be emitted. -/
def SignData.pend (D : SignData S) (ph : Ph) (c : Ctx) : Bytes :=
  (c.buffer.take S.n).drop c.buffer_offset ++ (D.rest ph).flatten

theorem signLoop_ok (hm : S.MemPub mem) (hs : S.MemSec mem D.sk) :
    ∀ (fuel : Nat) (dest : Bytes) (off m : Nat) (c : Ctx) (ph : Ph), D.Inv ph c → c.buffer_offset ≤ S.n →
      off + m ≤ dest.length → 2 * m + 1 + (if c.buffer_offset = S.n then 1 else 0) ≤ fuel →
      ∃ ph' c', signLoop S.E mem fuel dest off m c =
          .ok (m - ((D.pend ph c).take m).length, put dest off ((D.pend ph c).take m), c') ∧
        D.Inv ph' c' ∧ c'.buffer_offset ≤ S.n ∧ D.pend ph' c' = (D.pend ph c).drop m := by
  intro fuel
  induction fuel with
  | zero => intro dest off m c ph _ _ _ hf; omega
  | succ fuel ih =>
    intro dest off m c ph h hbo hd hf
    have g := h.good
    have F := S.facts
    have hmx := F.nmax
    have h32 := F.max32
    have hn16 := F.n16
    unfold signLoop
    by_cases hm0 : m = 0
    · subst hm0
      rw [if_pos rfl]
      exact ⟨ph, c, by simp [put_nil], h, hbo, by simp⟩
    rw [if_neg hm0, ctx_n g]
    have hrem : usub S.n c.buffer_offset = S.n - c.buffer_offset := by
      unfold usub; omega
    simp only [hrem]
    by_cases hfull : c.buffer_offset = S.n
    · rw [if_neg (by omega)]
      rw [if_pos hfull] at hf
      have hp : D.pend ph c = (D.rest ph).flatten := by
        unfold SignData.pend
        rw [hfull, List.drop_of_length_le (by simp)]; rfl
      rcases sign_step D hm hs h with ⟨hph, e⟩ | ⟨ph', b, c', e, h1, h2, h3, h4⟩
      · rw [e, ok_bind]
        refine ⟨ph, c, ?_, h, hbo, ?_⟩
        · rw [hp, hph]; simp [SignData.rest, put_nil]
        · rw [hp, hph]; simp [SignData.rest]
      · rw [e, ok_bind]
        simp only
        obtain ⟨ph2, c2, e2, i1, i2, i3⟩ := ih dest off m c' ph' h3 (by omega) hd (by
          rw [if_neg (by omega)]; omega)
        have hp' : D.pend ph' c' = D.pend ph c := by
          rw [hp]
          unfold SignData.pend
          rw [h1, h2, h4, List.drop_zero]; rfl
        rw [hp'] at e2 i3
        exact ⟨ph2, c2, e2, i1, i2, i3⟩
    · rw [if_pos (by omega)]
      rw [if_neg hfull] at hf
      obtain ⟨r, hr⟩ : ∃ r, r = (if S.n - c.buffer_offset > m then m else S.n - c.buffer_offset) := ⟨_, rfl⟩
      rw [← hr]
      have hr1 : 0 < r := by rw [hr]; split <;> omega
      have hr2 : r ≤ m := by rw [hr]; split <;> omega
      have hr3 : c.buffer_offset + r ≤ S.n := by rw [hr]; split <;> omega
      have hbuf := g.buf
      rw [rdSlice_ok (show c.buffer_offset + r ≤ c.buffer.length by omega), ok_bind]
      have hA : (c.buffer.drop c.buffer_offset).take r = ((c.buffer.take S.n).drop c.buffer_offset).take r := by
        rw [List.drop_take, List.take_take, Nat.min_eq_left (by omega)]
      have hAl : ((c.buffer.take S.n).drop c.buffer_offset).length = S.n - c.buffer_offset := by
        simp; omega
      rw [hA]
      generalize hAA : (c.buffer.take S.n).drop c.buffer_offset = A at *
      have hvl : (A.take r).length = r := by simp; omega
      rw [wrSlice_ok (by omega), ok_bind, Nat.mod_eq_of_lt (by omega)]
      obtain ⟨ph2, c2, e2, i1, i2, i3⟩ := ih (put dest off (A.take r)) (off + r) (m - r) { c with buffer_offset := c.buffer_offset + r } ph
        (h.bo _) hr3 (by rw [length_put _ _ _ (by omega)]; omega) (by split <;> omega)
      have hp : D.pend ph { c with buffer_offset := c.buffer_offset + r } = A.drop r ++ (D.rest ph).flatten := by
        unfold SignData.pend
        show (c.buffer.take S.n).drop (c.buffer_offset + r) ++ _ = _
        rw [← List.drop_drop, hAA]
      have hq : D.pend ph c = A ++ (D.rest ph).flatten := by unfold SignData.pend; rw [hAA]
      have ht : (D.pend ph c).take m = A.take r ++ (A.drop r ++ (D.rest ph).flatten).take (m - r) := by
        rw [hq]
        conv => lhs; rw [show A = A.take r ++ A.drop r from (List.take_append_drop r A).symm, List.append_assoc]
        rw [List.take_append, hvl, List.take_of_length_le (by omega)]
      have hdr : (D.pend ph c).drop m = (A.drop r ++ (D.rest ph).flatten).drop (m - r) := by
        rw [hq]
        conv => lhs; rw [show A = A.take r ++ A.drop r from (List.take_append_drop r A).symm, List.append_assoc]
        rw [List.drop_append, hvl, List.drop_of_length_le (by omega)]
        rfl
      refine ⟨ph2, c2, ?_, i1, i2, ?_⟩
      · rw [hp] at e2
        rw [show dest.take off ++ A.take r ++ dest.drop (off + (A.take r).length) = put dest off (A.take r) from rfl, e2, ht]
        have hpp := put_put dest off (A.take r) ((A.drop r ++ (D.rest ph).flatten).take (m - r)) (by omega)
        rw [hvl] at hpp
        rw [hpp, List.length_append, hvl, Nat.sub_sub]
      · rw [i3, hp, hdr]

theorem SignData.Inv.guard {D : SignData S} {ph : Ph} {c : Ctx} (h : D.Inv ph c) :
    ¬ (c.state.num ≤ St.sign_state.num ∨ c.state.num ≥ St.verify_state.num) := by
  cases ph with
  | forsLeaf τ => rw [h.2.2.1]; decide
  | fors τ l => rw [h.2.2.2.1]; decide
  | wots j i => rw [h.2.2.2.1]; decide
  | merkle j i => rw [h.2.2.2.1]; decide
  | done => rw [h.2]; decide

/-- `ts_sign` emits the next bytes of the pending stream. -/
theorem ts_sign_ok (hm : S.MemPub mem) (hs : S.MemSec mem D.sk) {dest : Bytes} {m : Nat} {c : Ctx} {ph : Ph} (h : D.Inv ph c)
    (hb : c.buffer_offset ≤ S.n) (hd : m ≤ dest.length) :
    ∃ ph' c', ts_sign S.E mem dest m c = .ok (((D.pend ph c).take m).length, put dest 0 ((D.pend ph c).take m), c') ∧
      D.Inv ph' c' ∧ c'.buffer_offset ≤ S.n ∧ D.pend ph' c' = (D.pend ph c).drop m := by
  obtain ⟨ph', c', e, h1, h2, h3⟩ := signLoop_ok D hm hs (2 * m + 2) dest 0 m c ph h hb (by omega) (by split <;> omega)
  refine ⟨ph', c', ?_, h1, h2, h3⟩
  unfold ts_sign
  rw [if_neg h.guard, e, ok_bind]
  simp only
  have : ((D.pend ph c).take m).length ≤ m := by rw [List.length_take]; omega
  rw [show m - (m - ((D.pend ph c).take m).length) = ((D.pend ph c).take m).length by omega]

theorem mdIndices_take (mh : Bytes) : mdIndices S.P (mh.take S.P.m) = mdIndices S.P mh := by
  unfold mdIndices Spec.Params.m
  rw [List.take_take, Nat.min_eq_left (by omega)]

theorem treeIdx_take (mh : Bytes) : treeIdx S.P (mh.take S.P.m) = treeIdx S.P mh := by
  unfold treeIdx Spec.Params.m
  rw [List.drop_take, List.take_take, Nat.min_eq_left (by omega)]

theorem leafIdx_take (mh : Bytes) : leafIdx S.P (mh.take S.P.m) = leafIdx S.P mh := by
  unfold leafIdx Spec.Params.m
  rw [List.drop_take, List.take_take, Nat.min_eq_left (by omega)]

theorem fillOptBuffer_ok (hm : S.MemPub mem) (rng : Option Rng) (hrng : ∀ f, rng = some f → RngOk f S.n) :
    ∃ b', fillOptBuffer S.E mem S.pk S.n rng = .ok (b', reqs rng S.n) ∧ S.n ≤ b'.length ∧ b'.take S.n = optRand rng S.pkSeed := by
  have hmx := S.facts.nmax
  have hlo : (S.E.local 9 S.cfg.MAX_HASH).length = S.cfg.MAX_HASH := S.E.local_len _ _
  have hsl : S.pkSeed.length = S.n := S.hseed
  have fin : ∀ (b : Bytes) (rq : List Nat), S.n ≤ b.length → ∃ b', (do .ok (← wrSlice b 0 (← pubSeed mem S.pk S.n), rq) : C (Bytes × List Nat)) = .ok (b', rq) ∧
      S.n ≤ b'.length ∧ b'.take S.n = S.pkSeed := by
    intro b rq hb
    refine ⟨_, by rw [pubSeed_ok S mem hm, ok_bind, wrSlice_ok (by omega), ok_bind], ?_, ?_⟩
    · simp; omega
    · simp only [List.take_zero, List.nil_append]; exact take_left' hsl
  unfold fillOptBuffer askRng
  cases hrg : rng with
  | none =>
    simp only [ok_bind]
    exact fin _ _ (show S.n ≤ (S.E.local 9 S.cfg.MAX_HASH).length by omega)
  | some f =>
    have hk := hrng f hrg
    simp only
    rw [wrSlice_ok (show 0 + (f S.n).2.length ≤ (S.E.local 9 S.E.cfg.MAX_HASH).length by have := hk.1; rw [hlo]; omega), ok_bind, ok_bind]
    simp only
    by_cases hok : (f S.n).1 = true
    · rw [if_pos hok]
      refine ⟨_, rfl, ?_, ?_⟩
      · simp; have := hk.2 hok; omega
      · simp only [List.take_zero, List.nil_append, optRand, hsl, if_pos hok]; exact take_left' (hk.2 hok)
    · rw [if_neg hok]
      obtain ⟨b', h1, h2, h3⟩ := fin (List.take 0 (S.E.local 9 S.cfg.MAX_HASH) ++ (f S.n).2 ++ List.drop (0 + (f S.n).2.length) (S.E.local 9 S.cfg.MAX_HASH)) [S.n]
        (by simp; have := hk.1; omega)
      refine ⟨b', h1, h2, ?_⟩
      simp only [optRand, hsl, if_neg hok]; exact h3

/-- `ts_init_sign` (tiny_sphincs.c:313-364) brings the context to the start of the specified signature. -/
theorem ts_init_sign_data {c : Ctx} {msg : Nat} {skSeed skPrf root M : Bytes} {rng : Option Rng} {priv : Nat} (hsh : Shape S.cfg c)
    (hpk : S.pk = priv + 2 * S.n) (hm : S.MemPub mem) (hs : S.MemSec mem skSeed) (hp : S.MemPrf mem skPrf) (hr : S.MemRoot mem root)
    (hM : mem.Has msg M) (hl : M.length < 2 ^ 60) (hrng : ∀ f, rng = some f → RngOk f S.n) :
    ∃ (c' : Ctx) (D : SignData S), D.sk = skSeed ∧ ts_init_sign S.E mem c msg M.length S.ps priv rng = .ok (c', reqs rng S.n) ∧ D.Inv (.forsLeaf 0) c' ∧
      c'.buffer_offset ≤ S.n ∧
      D.pend (.forsLeaf 0) c' = (signBlocks S.P S.hf skSeed S.pkSeed skPrf root (optRand rng S.pkSeed) M).flatten ∧
      D.tree = treeIdx S.P (S.hf.Hmsg (S.hf.PRFmsg skPrf (optRand rng S.pkSeed) M) S.pkSeed root M S.P.m) ∧
      D.leaf = leafIdx S.P (S.hf.Hmsg (S.hf.PRFmsg skPrf (optRand rng S.pkSeed) M) S.pkSeed root M S.P.m) ∧
      D.idx = mdIndices S.P (S.hf.Hmsg (S.hf.PRFmsg skPrf (optRand rng S.pkSeed) M) S.pkSeed root M S.P.m) := by
  have F := S.facts
  have hmx := F.nmax
  have hseed := S.hseed
  let c0 : Ctx := { c with ps := S.ps, public_key := S.pk }
  obtain ⟨si1, p1, p2, e1, g1⟩ := call_prehash_ok (S := S) (mem := mem) (ctx := c0) rfl rfl hm ⟨hsh.adr, hsh.buf, hsh.auth, hsh.x, hsh.si, hsh.bi⟩
  generalize hc1 : ({ c0 with small_iter := si1, prehash_sha256 := p1, prehash_sha512 := p2 } : Ctx) = c1 at *
  obtain ⟨b', ho1, ho3, ho4⟩ := fillOptBuffer_ok (S := S) (mem := mem) hm rng hrng
  have hb1 : c1.buffer = c.buffer := by rw [← hc1]
  obtain ⟨si2, e2, w2⟩ := call_prf_msg_ok (mem := mem) (ctx := c1) (out := c1.buffer) (opt := b') g1 hp hM hl (by rw [g1.buf]; exact hmx) ho3
  rw [ho4] at e2
  obtain ⟨R, hR⟩ : ∃ R, R = S.hf.PRFmsg skPrf (optRand rng S.pkSeed) M := ⟨_, rfl⟩
  rw [← hR] at e2
  have hRl : R.length = S.n := by
    have hh := hR
    rw [hR, hf_eq]
    cases S.fam <;> simp only [Sess.fnsOf, Spec.shakeFns, Spec.sha2L1Fns, Spec.sha2L35Fns]
    · exact Shake.length_shake256 _ _
    · rw [List.length_take, Spec.hmac, Sha256.length_hash]; have := n_le (S := S); omega
    · rw [List.length_take, Spec.hmac, Sha512.length_hash]; have := n_le (S := S); omega
  let c2 : Ctx := { c1 with small_iter := si2, buffer := R ++ c1.buffer.drop S.n }
  have g2 : Good S c2 := ⟨⟨g1.adr, by
    show (R ++ c1.buffer.drop S.n).length = _
    rw [List.length_append, List.length_drop, g1.buf]; omega, g1.auth, g1.x, w2, g1.bi⟩, g1.ps, g1.pk, g1.pre⟩
  have hll : (S.E.local 10 MAX_MESSAGE_HASH).length = MAX_MESSAGE_HASH := S.E.local_len _ _
  obtain ⟨si3, e3, w3⟩ := call_hash_msg_ok (mem := mem) (ctx := c2) (out := S.E.local 10 MAX_MESSAGE_HASH) (rnd := c2.buffer) (len := MAX_MESSAGE_HASH)
    g2 hm hr hM hl (by omega) (by rw [g2.buf]; exact hmx)
  have htk : c2.buffer.take S.n = R := take_left' hRl
  rw [htk, List.drop_of_length_le (by omega), List.append_nil] at e3
  obtain ⟨mh, hmh⟩ : ∃ mh, mh = S.hf.Hmsg R S.pkSeed root M MAX_MESSAGE_HASH := ⟨_, rfl⟩
  rw [← hmh] at e3
  have hmhl : mh.length = 49 := by rw [hmh]; exact length_Hmsg _ _ _ _ _
  have hmtake : mh.take S.P.m = S.hf.Hmsg R S.pkSeed root M S.P.m := by
    rw [hmh]; exact Hmsg_take _ _ _ _ _ _ F.m49
  let c3 : Ctx := { c2 with small_iter := si3 }
  have g3 : Good S c3 := ⟨⟨g2.adr, g2.buf, g2.auth, g2.x, w3, g2.bi⟩, g2.ps, g2.pk, g2.pre⟩
  obtain ⟨x, mh', e4, hl4, hx4, hf4, -⟩ := convert_ok g3.ps (by have := x_ge _ g3; omega) mh (by have := F.m49; omega)
  let c4 : Ctx := { c3 with x := x, tree_address := treeIdx S.P mh, fors_keypair_addr := leafIdx S.P mh, buffer_offset := 0, state := .fors_leaf, fors_tree := 0, merkle_level := 0, hypertree_level := 0 }
  have g4 : Good S c4 := ⟨⟨g3.adr, g3.buf, g3.auth, hx4.trans g3.x, g3.si, g3.bi⟩, g3.ps, g3.pk, g3.pre⟩
  obtain ⟨c5, e5, s5, a5⟩ := (ts_set_fors_root_adr_ok g4).scr g4
  have g5 := s5.good g4
  obtain ⟨t, e6, h6⟩ := call_init_t_ok (mem := mem) (t := c5.big_iter) g5 hm a5 g5.bi
  let D : SignData S := ⟨skSeed, treeIdx S.P mh, leafIdx S.P mh, mdIndices S.P mh, treeIdx_lt _ _, leafIdx_lt _ _, mdIndices_lt _ _⟩
  refine ⟨{ c5 with big_iter := t }, D, rfl, ?_, ?_, ?_, ?_, ?_⟩
  · unfold ts_init_sign
    simp only [F.pn]
    have hc0 : ({ c with ps := S.ps, public_key := priv + 2 * S.n } : Ctx) = c0 := by
      show _ = ({ c with ps := S.ps, public_key := S.pk } : Ctx); rw [hpk]
    rw [hc0, e1, ok_bind]
    rw [show c1.public_key = S.pk from g1.pk]
    rw [ho1, ok_bind, e2, ok_bind]
    simp only
    rw [show call_hash_msg S.E mem (S.E.local 10 MAX_MESSAGE_HASH) MAX_MESSAGE_HASH (R ++ c1.buffer.drop S.n) msg M.length _ = _ from e3, ok_bind]
    simp only
    rw [show ts_convert_message_hash S.E _ mh = _ from e4, ok_bind]
    simp only
    rw [show ts_set_fors_root_adr S.E _ = .ok c5 from e5, ok_bind, e6, ok_bind]
  · exact ⟨⟨⟨g5.adr, g5.buf, g5.auth, g5.x, g5.si, h6.wf⟩, g5.ps, g5.pk, g5.pre⟩, by have := F.kge; show 0 < S.P.k; omega, s5.keep.st,
      s5.keep.loc, by show ForsNodes S c5.x _; rw [s5.xx]; exact hf4, h6⟩
  · show c5.buffer_offset ≤ _
    rw [s5.keep.bo]; exact Nat.zero_le _
  · have hbuf : c5.buffer = R ++ c1.buffer.drop S.n := s5.buf
    unfold SignData.pend
    show (c5.buffer.take S.n).drop c5.buffer_offset ++ (D.restFors 0).flatten = _
    rw [s5.keep.bo, hbuf, take_left' hRl]
    show R ++ _ = _
    unfold signBlocks
    simp only [← hR]
    rw [← hmtake, treeIdx_take, leafIdx_take, mdIndices_take, fors_honest]
    unfold SignData.restFors SignData.restHt
    rw [Nat.sub_zero]
    simp only [Nat.zero_add, Nat.sub_zero, List.flatten_append, List.flatten_cons, List.flatten_nil, List.append_nil, List.append_assoc]
    congr 3
    show htSignFrom _ _ _ _ _ _ (treeIdx S.P mh / 2 ^ (S.P.hp * 0)) _ _ = _
    rw [Nat.mul_zero, Nat.pow_zero, Nat.div_one]
    rfl
    exact fun i => mdIndices_lt _ _ _
  · rw [← hR, ← hmtake, treeIdx_take, leafIdx_take, mdIndices_take]
    exact ⟨rfl, rfl, rfl⟩

/-- `ts_init_sign` (tiny_sphincs.c:313-364) brings the context to the start of the specified signature. -/
theorem ts_init_sign_ok {c : Ctx} {msg : Nat} {skSeed skPrf root M : Bytes} {rng : Option Rng} {priv : Nat} (hsh : Shape S.cfg c)
    (hpk : S.pk = priv + 2 * S.n) (hm : S.MemPub mem) (hs : S.MemSec mem skSeed) (hp : S.MemPrf mem skPrf) (hr : S.MemRoot mem root)
    (hM : mem.Has msg M) (hl : M.length < 2 ^ 60) (hrng : ∀ f, rng = some f → RngOk f S.n) :
    ∃ (c' : Ctx) (D : SignData S), D.sk = skSeed ∧ ts_init_sign S.E mem c msg M.length S.ps priv rng = .ok (c', reqs rng S.n) ∧ D.Inv (.forsLeaf 0) c' ∧
      c'.buffer_offset ≤ S.n ∧
      D.pend (.forsLeaf 0) c' = (signBlocks S.P S.hf skSeed S.pkSeed skPrf root (optRand rng S.pkSeed) M).flatten := by
  obtain ⟨c', D, q1, q2, q3, q4, q5, -⟩ := ts_init_sign_data (S := S) (mem := mem) (rng := rng) hsh hpk hm hs hp hr hM hl hrng
  exact ⟨c', D, q1, q2, q3, q4, q5⟩

end Model
