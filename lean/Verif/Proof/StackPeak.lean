import Verif.Proof.StackHitRun
import Verif.Proof.CostVerify
import Verif.Proof.Jobs
/-!
# The deepest points of whole operations
-/
namespace Leak
open Model Spec Spec.Slh Spec.Stack Model.Stack

section
variable {E : Env} {mem : Mem} {F : Fam} {p : ParamSet} {c : Ctx}

local notation "GG" => callees E.cfg.sha2opt F

theorem must_signMerkle (hK : Kin p F) (hp : c.ps = p) (hn : 0 < p.n) : Must .ts_sign (signMerkle E mem c) (deepLeaf F ++ [.ts_merkle_path]) := by
  unfold signMerkle
  with_reducible refine must_first ?_
  exact must_ts_merkle_path hK hp hn _ _

/-- The first block of a verification. -/
theorem mustIf_ts_update_verify (hK : Kin p F) (hp : c.ps = p) (hs : c.state = .verify_init) (sig : Bytes) {b : Nat × Ctx}
    (hr : (ts_update_verify E mem sig c).res = .ok b) (hb : b.2.state ≠ .verify_init) :
    Seen (ts_update_verify E mem sig c) (deepMsg F ++ [.ts_update_verify]) := by
  refine seen_mustIf (P := fun b : Nat × Ctx => b.2.state ≠ .verify_init) hr hb ?_
  with_reducible refine mustIf_branch (fun _ => mustIf_ok ?_) fun _ => ?_
  · exact fun h => h hs
  unfold verLoop
  dsimp only
  with_reducible refine mustIf_then (G := fun _ => []) (Q := fun _ => True) (nest_branch (nest_ok trivial) (nest_ok trivial)) fun r _ _ => ?_
  with_reducible refine mustIf_then (nest_quiet (G := fun _ => []) (quiet_rdSlice _ _ _)) fun _ _ _ => ?_
  with_reducible refine mustIf_then (nest_quiet (G := fun _ => []) (quiet_wrSlice _ _ _)) fun _ _ _ => ?_
  with_reducible refine mustIf_branch (fun _ => mustIf_ok ?_) fun _ => ?_
  · exact fun h => h hs
  refine (must_first ?_).cond
  unfold verStep
  refine must_select ?_
  dsimp only
  rw [hs]
  exact must_first (must_verInit hK hp)

theorem seen_updateCalls (hK : Kin p F) (ts : List Bytes) : ∀ {c : Ctx}, c.ps = p → c.state = .verify_init → ∀ {b : List Nat × Ctx},
    (updateCalls E mem c ts).res = .ok b → b.2.state ≠ .verify_init → Seen (updateCalls E mem c ts) (deepMsg F ++ [.ts_update_verify]) := by
  induction ts with
  | nil => intro c _ hs b hr hb; cases hr; exact absurd hs hb
  | cons t ts ih =>
    intro c hp hs b hr hb
    unfold updateCalls at hr ⊢
    obtain ⟨⟨r, c1⟩, h1, h2⟩ := nest_res_bind hr
    by_cases h : c1.state = .verify_init
    · have o := outer_ts_update_verify (E := E) (mem := mem) (R := [.ts_update_verify]) hK hp (by simp) t
      refine seen_then o h1 (seen_first ?_)
      obtain ⟨⟨rs, c2⟩, h3, h4⟩ := nest_res_bind h2
      cases h4
      exact ih (o.2 _ h1) h h3 hb
    · exact seen_first (mustIf_ts_update_verify hK hp hs t h1 h)
end

section
variable {mem : Mem} {S : Sess} {F : Fam} (D : SignData S)

theorem inv_done {ph : Ph} {c : Ctx} (h : D.Inv ph c) (hs : c.state = .done) : ph = .done := by
  cases ph with
  | forsLeaf => rw [h.2.2.1] at hs; cases hs
  | fors => rw [h.2.2.2.1] at hs; cases hs
  | wots => rw [h.2.2.2.1] at hs; cases hs
  | merkle => rw [h.2.2.2.1] at hs; cases hs
  | done => rfl

/-- Only the computation of an authentication path of the hypertree ends the signature. -/
theorem not_done {ph ph' : Ph} {c c' : Ctx} {b : Bytes} (h : D.Inv ph c) (h' : D.Inv ph' c') (hr : D.rest ph = b :: D.rest ph') (hm : ∀ j l, ph ≠ .merkle j l) : ph' ≠ .done := by
  intro e
  subst e
  have l1 := length_rest D h
  rw [hr, List.length_cons, show D.rest .done = [] from rfl, List.length_nil] at l1
  have F := S.facts
  have h1 := F.hge
  have h2 := F.dge
  have hk : ∀ τ, τ < S.P.k → τ * (S.P.a + 1) + (S.P.a + 1) ≤ S.P.k * (S.P.a + 1) := fun τ hτ => by rw [← Nat.succ_mul]; exact Nat.mul_le_mul_right _ hτ
  have hd : ∀ j, j < S.P.d → j * (S.P.len + S.P.hp) + (S.P.len + S.P.hp) ≤ S.P.d * (S.P.len + S.P.hp) := fun τ hτ => by rw [← Nat.succ_mul]; exact Nat.mul_le_mul_right _ hτ
  unfold tot at l1
  cases ph with
  | forsLeaf τ =>
    have := hk τ h.2.1
    have := hd 0 (by omega)
    have : pos S (.forsLeaf τ) = τ * (S.P.a + 1) := rfl
    omega
  | fors τ l =>
    have := hk τ h.2.1
    have := hd 0 (by omega)
    have := h.2.2.1
    have : pos S (.fors τ l) = τ * (S.P.a + 1) + (l + 1) := rfl
    omega
  | wots j i =>
    have := hd j h.2.1
    have := h.2.2.1
    have : pos S (.wots j i) = S.P.k * (S.P.a + 1) + (j * (S.P.len + S.P.hp) + i) := rfl
    omega
  | merkle j l => exact hm j l rfl
  | done => cases hr

theorem mustIf_signLoop (hK : Kin S.ps F) (hm : S.MemPub mem) (hs : S.MemSec mem D.sk) :
    ∀ (fuel : Nat) (dest : Bytes) (off m : Nat) (c : Ctx) (ph : Ph), D.Inv ph c → ph ≠ .done →
      MustIf .ts_sign (signLoop S.E mem fuel dest off m c) (deepLeaf F ++ [.ts_merkle_path]) fun r => r.2.2.state = .done := by
  intro fuel
  induction fuel with
  | zero => intro dest off m c ph _ _ b e; cases e
  | succ fuel ih =>
    intro dest off m c ph h hd
    have g := h.good
    have hn : 0 < S.ps.n := by have := S.facts.n16; rw [S.facts.pn]; omega
    unfold signLoop
    with_reducible refine mustIf_branch (fun _ => mustIf_ok ?_) fun _ => ?_
    · exact fun hst => hd (inv_done D h hst)
    dsimp only
    with_reducible refine mustIf_branch (fun _ => ?_) fun _ => ?_
    · with_reducible refine mustIf_then (G := fun _ => []) (Q := fun _ => True) (nest_branch (nest_ok trivial) (nest_ok trivial)) fun r _ _ => ?_
      with_reducible refine mustIf_then (nest_quiet (G := fun _ => []) (quiet_rdSlice _ _ _)) fun _ _ _ => ?_
      with_reducible refine mustIf_then (nest_quiet (G := fun _ => []) (quiet_wrSlice _ _ _)) fun _ _ _ => ?_
      exact ih _ _ _ _ ph (h.bo _) hd
    · by_cases hmk : ∃ j l, ph = .merkle j l
      · obtain ⟨j, l, rfl⟩ := hmk
        refine (must_first ?_).cond
        unfold signStep
        refine must_select ?_
        rw [h.2.2.2.1]
        exact must_first (must_signMerkle hK g.ps hn)
      · refine mustIf_then (nest_signStep hK g.ps) fun o e _ => ?_
        rcases sign_step D hm hs h with ⟨hph, -⟩ | ⟨ph1, b, c1, e', -, -, h3, h4⟩
        · exact absurd hph hd
        · rw [signStep_res, e'] at e
          cases e
          exact ih _ _ _ _ ph1 h3 (not_done D h h3 h4 fun j l z => hmk ⟨j, l, z⟩)

theorem seen_ts_sign (hK : Kin S.ps F) (hm : S.MemPub mem) (hs : S.MemSec mem D.sk) {c : Ctx} {ph : Ph} (h : D.Inv ph c) (hd : ph ≠ .done) (dest : Bytes) (m : Nat)
    {b : Nat × Bytes × Ctx} (hr : (ts_sign S.E mem dest m c).res = .ok b) (hb : b.2.2.state = .done) :
    Seen (ts_sign S.E mem dest m c) ((deepLeaf F ++ [.ts_merkle_path]) ++ [.ts_sign]) := by
  refine seen_mustIf (P := fun b : Nat × Bytes × Ctx => b.2.2.state = .done) hr hb ?_
  with_reducible refine mustIf_branch (fun hg => absurd hg h.guard) fun _ => ?_
  intro b e hb
  obtain ⟨⟨m', d', c'⟩, h1, h2⟩ := nest_res_bind e
  cases h2
  exact hit_first (mustIf_signLoop D hK hm hs _ _ _ _ _ ph h hd _ h1 hb)

theorem seen_signCalls (hK : Kin S.ps F) (hm : S.MemPub mem) (hs : S.MemSec mem D.sk) (rs : List (Bytes × Nat)) : ∀ {c : Ctx} {ph : Ph}, D.Inv ph c → c.buffer_offset ≤ S.n → ph ≠ .done →
    ∀ {b : List (Nat × Bytes) × Ctx}, (signCalls S.E mem c rs).res = .ok b → b.2.state = .done →
      Seen (signCalls S.E mem c rs) ((deepLeaf F ++ [.ts_merkle_path]) ++ [.ts_sign]) := by
  induction rs with
  | nil => intro c ph h _ hd b hr hb; cases hr; exact absurd (inv_done D h hb) hd
  | cons q rs ih =>
    obtain ⟨dest, m⟩ := q
    intro c ph h hbo hd b hr hb
    unfold signCalls at hr ⊢
    obtain ⟨⟨r, d', c1⟩, h1, h2⟩ := nest_res_bind hr
    by_cases hst : c1.state = .done
    · exact seen_first (seen_ts_sign D hK hm hs h hd dest m h1 hst)
    · have o := outer_ts_sign (E := S.E) (mem := mem) (R := [.ts_sign]) hK h.good.ps (by simp) dest m
      refine seen_then o h1 (seen_first ?_)
      obtain ⟨⟨rs', c2⟩, h3, h4⟩ := nest_res_bind h2
      cases h4
      obtain ⟨s, ph1, -, w, -⟩ := cost_ts_sign (f := .f) D hm hs dest m h hbo _ h1
      exact ih w.inv w.bo (fun e => hst (by have := w.inv; rw [e] at this; exact this.2)) h3 hb
end

/-! ## Whole operations -/

section
variable (J : SignJob)

theorem seen_signRun_msg (rs : List (Bytes × Nat)) : Seen (signRun J rs) (deepMsg (famOf J.x) ++ [.ts_init_sign]) := by
  obtain ⟨c', e0, -⟩ := J.start
  unfold signRun
  exact seen_first (seen_ts_init_sign (ps_kin J.E.cfg J.x) _ _ _ _ ((ts_init_sign_res ..).trans e0))

theorem seen_signRun_prf (rs : List (Bytes × Nat)) (h : famOf J.x = .sha2L35) :
    Seen (signRun J rs) [.sha512_compress, .ts_SHA512_update, .ts_SHA512_final_trunc, .ts_SHA512_final, .ts_sha2_L35_prf_msg, .ts_init_sign] := by
  obtain ⟨c', e0, -⟩ := J.start
  unfold signRun
  exact seen_first (seen_ts_init_sign' (h ▸ ps_kin J.E.cfg J.x) _ _ _ _ ((ts_init_sign_res ..).trans e0))

theorem rel_done {E : Env} {x : PsName} {priv : Nat} {sk : Bytes} {mem : Mem} {c : Ctx} (hm : mem.Has priv sk) (r : Rel E (.signing x priv sk) (.signing []) c) : c.state = .done := by
  cases r with
  | signing S D ph h1 h2 h3 h4 h5 h6 h7 h8 h9 =>
    subst h1; subst h2
    obtain ⟨k1, k2, k3, k4⟩ := key_mem h4 hm
    obtain ⟨-, l1, l2, l3, l4⟩ := key_split h4
    rcases sign_step D (mem := mem) (by unfold Sess.MemPub; rw [h3, h5]; exact k3)
        ⟨by rw [h3]; exact Nat.le_add_left _ _, by rw [h6]; exact l1, by rw [h3, h6, Nat.add_sub_cancel]; exact k1⟩ h7 with ⟨hph, -⟩ | ⟨ph', b, c', -, -, hb, h, hr⟩
    · rw [hph] at h7; exact h7.2
    · exfalso
      have hn16 := S.facts.n16
      have hmx := S.facts.nmax
      have hbf := h.good.buf
      have hz := congrArg List.length h9
      have hl := congrArg List.length hb
      rw [List.length_take] at hl
      rw [SignData.pend, hr, List.flatten_cons, List.length_append, List.length_append, List.length_nil] at hz
      omega

theorem seen_signRun_leaf (rs : List (Bytes × Nat)) (hfit : ∀ r ∈ rs, r.2 ≤ r.1.length) (hall : J.x.P.sigBytes ≤ (rs.map Prod.snd).sum) :
    Seen (signRun J rs) ((deepLeaf (famOf J.x) ++ [.ts_merkle_path]) ++ [.ts_sign]) := by
  obtain ⟨c, e0, r⟩ := J.start
  obtain ⟨os, c', e1, r', -⟩ := signCalls_ok J.hasKey rs r hfit
  have hlen := J.length_signature
  rw [List.drop_of_length_le (by omega)] at r'
  have hdone := rel_done J.hasKey r'
  have hK := ps_kin J.E.cfg J.x
  unfold signRun
  refine seen_then (outer_ts_init_sign (R := [.ts_init_sign]) hK (by simp) _ _ _ _) ((ts_init_sign_res ..).trans e0) (seen_first ?_)
  obtain ⟨E, x, sup, mem, priv, sk, msg, M, rng, c0, shape, skLen, hasKey, hasMsg, msgLen, rngOk⟩ := J
  dsimp only at *
  cases r with
  | signing S D ph h1 h2 h3 h4 h5 h6 h7 h8 h9 =>
    subst h1; subst h2
    obtain ⟨k1, k2, k3, k4⟩ := key_mem h4 hasKey
    obtain ⟨-, l1, l2, l3, l4⟩ := key_split h4
    refine seen_signCalls D hK (by unfold Sess.MemPub; rw [h3, h5]; exact k3)
      ⟨by rw [h3]; exact Nat.le_add_left _ _, by rw [h6]; exact l1, by rw [h3, h6, Nat.add_sub_cancel]; exact k1⟩ rs h7 h8 (fun e => ?_) ((signCalls_res ..).trans e1) hdone
    subst e
    have hz := congrArg List.length h9
    rw [SignData.pend, show D.rest .done = [] from rfl, List.flatten_nil, List.append_nil, List.length_drop, List.length_take] at hz
    have hd := S.facts.dge
    have hn16 := S.facts.n16
    have : S.P.sigBytes = S.P.sigBlocks * S.n := rfl
    have hb : 2 ≤ S.P.sigBlocks := by
      rw [sigBlocks_tot]
      unfold tot
      have : 1 ≤ S.P.d * (S.P.len + S.P.hp) := Nat.mul_pos (by omega) (by have := S.facts.hge; omega)
      omega
    have := Nat.mul_le_mul_right S.n hb
    have hl : _ = S.P.sigBytes := hlen
    omega
end

section
variable (J : VerifyJob)

theorem vrel_start {S : Sess} {root M : Bytes} {msg : Nat} {c : Ctx} (h : VRel S root msg M [] false c) : c.state = .verify_init := by
  have hn16 := S.facts.n16
  have hpos : 16 ≤ S.P.sigBytes := by
    have : S.n ≤ S.P.sigBlocks * S.n := Nat.le_mul_of_pos_left _ (by rw [sigBlocks_tot]; omega)
    show 16 ≤ S.P.sigBlocks * S.n
    omega
  cases h with
  | acc g hs hw => rw [List.length_nil] at hw; omega
  | run ph bs inv hbo hc hbs hw hcnt _ =>
    have hbs0 : bs = [] := by
      cases bs with
      | nil => rfl
      | cons b bs =>
        have := hbs b List.mem_cons_self
        have := congrArg List.length hw
        rw [List.flatten_cons, List.length_nil, List.length_append, List.length_append] at this
        omega
    subst hbs0
    have hv0 : vpos ph = 0 := by
      have := vpos_cnt inv
      rw [List.length_nil] at hcnt
      omega
    cases ph with
    | init => exact inv.2.1
    | forsLeaf D τ roots => exact absurd hv0 (by unfold vpos; simp only; omega)
    | fors D τ l roots v => exact absurd hv0 (by unfold vpos; simp only; omega)
    | wots D j i M' a => exact absurd hv0 (by unfold vpos; simp only; omega)
    | merkle D j l v => exact absurd hv0 (by unfold vpos; simp only; omega)

theorem vrel_begun {S : Sess} {root M w : Bytes} {msg : Nat} {f : Bool} {c : Ctx} (h : VRel S root msg M w f c) (hw : S.n ≤ w.length) : c.state ≠ .verify_init := by
  intro hst
  cases h with
  | acc g hs _ => rw [hs] at hst; cases hst
  | bad g hs => rw [hs] at hst; cases hst
  | run ph bs inv hbo hc hbs hww hcnt _ =>
    cases ph with
    | init =>
      have hbs0 : bs = [] := by
        have : S.P.sigBlocks + bs.length = S.P.sigBlocks := hcnt
        exact List.length_eq_zero_iff.1 (by omega)
      subst hbs0
      subst hww
      rw [List.flatten_nil, List.nil_append, List.length_take] at hw
      omega
    | forsLeaf => rw [inv.2.2.1] at hst; cases hst
    | fors => rw [inv.2.2.2.1] at hst; cases hst
    | wots => rw [inv.2.2.2.1] at hst; cases hst
    | merkle => rw [inv.2.2.2.1] at hst; cases hst

theorem seen_verifyRun (ts : List Bytes) (hn : J.x.P.n ≤ ts.flatten.length) : Seen (verifyRun J ts) (deepMsg (famOf J.x) ++ [.ts_update_verify]) := by
  obtain ⟨c, e0, r⟩ := J.start
  obtain ⟨rs, c', f', e1, r', -⟩ := updateCalls_ok J.hasKey ts (fun _ => J.hasMsg) r
  have hK := ps_kin J.E.cfg J.x
  have o := outer_ts_init_verify (E := J.E) (mem := J.mem) (c := J.c0) (R := [.ts_init_verify]) hK (by simp) J.msg J.M.length J.pub
  have hi : (ts_init_verify J.E J.mem J.c0 J.msg J.M.length (ps J.E.cfg J.x) J.pub).res = .ok c := (ts_init_verify_res ..).trans e0
  unfold verifyRun
  refine seen_then o hi ?_
  have hp : c.ps = ps J.E.cfg J.x := o.2 _ hi
  have hs : c.state = .verify_init := by
    cases r with
    | verifying S h1 h2 h3 h4 h5 h6 h7 h8 h9 => exact vrel_start h8
  have he : c'.state ≠ .verify_init := by
    rw [List.nil_append] at r'
    generalize J.x = y at r' hn
    cases r' with
    | verifying S h1 h2 h3 h4 h5 h6 h7 h8 h9 => subst h2; exact vrel_begun h8 hn
  exact seen_updateCalls hK ts hp hs ((updateCalls_res ..).trans e1) he
end
end Leak
