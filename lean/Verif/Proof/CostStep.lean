import Verif.Proof.Cost
import Verif.Proof.LeakStrict
/-!
# The cost of key generation and of the steps of the signer
-/
namespace Leak
open Model Spec Spec.Cost Spec.Slh

variable {f : Fn} {E : Env} {mem : Mem} {c : Ctx}

theorem keep_prehash (h : fixed c = v) : Post (call_prehash E mem c) fun c' => fixed c' = v := by
  unfold call_prehash
  split
  · refine post_branch (post_ok h) ?_
    split
    · exact post_ok h
    · unfold ts_sha2_L1_prehash
      posts
    · unfold ts_sha2_L35_prehash
      refine post_bind (P := fun c' => fixed c' = v) ?_ fun c1 h1 => ?_
      · unfold ts_sha2_L1_prehash
        posts
      · posts
    · intro a e; cases e
  · exact post_ok h

@[fr] theorem free_call_prehash (E : Env) (mem : Mem) (c : Ctx) : Free (call_prehash E mem c) := by
  unfold call_prehash
  free

/-- The levels of an authentication path of a hypertree layer. -/
theorem cost_levels (P : Params) {ps : ParamSet} (hP : ps.n = P.n) (cnt l ft : Nat) (hl : l + cnt ≤ 255) {st : Region} {ty : Nat} (h : fixed c = (ps, l, ft)) (i : Nat) :
    Cost f (loop (fun _ ctx => ts_merkle_path E mem (ts_wots_leaf E mem) ctx ty st) cnt i c)
      fun c' k => k = (2 ^ (l + cnt) - 2 ^ l) * (wotsLeaf P f + node f) ∧ fixed c' = (ps, l + cnt, ft) := by
  induction cnt generalizing l c i with
  | zero => intro a e; cases e; exact ⟨by simp [loop, calls, isCall], h⟩
  | succ cnt ih =>
    rw [loop_log]
    refine cost_bind0 (free_br _) fun _ _ => ?_
    refine cost_bind (cost_path (leaf := wotsLeaf P f) (fun b i c w hw hv => cost_wots_leaf P (by rw [hv]; exact hP) b i hw) h (by show l < 255; omega)) fun c1 k1 _ ⟨hk1, h1⟩ => ?_
    refine cost_mono (ih (l + 1) (by omega) h1 (i + 1)) fun c2 k2 _ ⟨hk2, h2⟩ => ⟨?_, by rw [h2]; congr 2; omega⟩
    rw [hk1, hk2, ← Nat.add_mul]
    congr 1
    show 2 ^ l + _ = _
    have h3 : 2 ^ (l + 1) ≤ 2 ^ (l + 1 + cnt) := Nat.pow_le_pow_right (by omega) (by omega)
    rw [show l + (cnt + 1) = l + 1 + cnt by omega]
    have h4 : 2 ^ (l + 1) = 2 * 2 ^ l := by rw [Nat.pow_succ]; omega
    omega

theorem cost_gen_root (P : Params) {ps : ParamSet} (hP : ps.n = P.n) (hh : ps.merkle_h = P.hp) (hle : P.hp ≤ 255) (pub : Nat) :
    Cost f (gen_root E mem ps pub) fun _ k => k = keygen P f := by
  unfold gen_root
  refine cost_bind0 (by free) fun c1 e1 => ?_
  have h1 := keep_prehash (v := fixed (zeroCtx E ps)) (by rfl) _ e1
  have hps : c1.ps = ps := congrArg Prod.fst h1
  have hft : c1.fors_tree = (zeroCtx E ps).fors_tree := congrArg (fun v => v.2.2) h1
  dsimp only
  refine cost_bind (cost_wots_leaf P (v := (ps, 0, c1.fors_tree)) hP _ _ (by show (c1.ps, 0, c1.fors_tree) = _; rw [hps])) ?_
  rintro ⟨a, c2⟩ k2 - ⟨hk2, h2⟩
  rw [hh]
  refine cost_bind (cost_levels P hP P.hp 0 c1.fors_tree (by omega) (by exact h2) 0) fun c3 k3 _ ⟨hk3, h3⟩ => cost_ok ?_
  rw [hk2, hk3, Nat.zero_add, Nat.pow_zero, Nat.add_zero]
  show _ = 2 ^ P.hp * wotsLeaf P f + (2 ^ P.hp - 1) * node f
  have hpos := Nat.pow_pos (n := P.hp) (show 0 < 2 by omega)
  generalize 2 ^ P.hp = N at hpos
  obtain ⟨N, rfl⟩ := Nat.exists_eq_add_of_lt hpos
  rw [show 0 + N + 1 - 1 = N by omega, Nat.mul_add, show 0 + N + 1 = N + 1 by omega, Nat.succ_mul]
  omega

/-! ## Steps of the signer -/

variable {S : Sess} (D : SignData S)

theorem cost_signForsLeaf : Cost f (signForsLeaf E mem c) fun _ k => k = forsSecret f := by
  unfold signForsLeaf
  refine cost_bind0 (by free) fun node _ => ?_
  dsimp only
  refine cost_bind (cost_fors_prf _ _ rfl) ?_
  rintro ⟨b, c1⟩ k - ⟨hk, -⟩
  refine cost_bind (cost_fors_leaf _ _ rfl) ?_
  rintro ⟨b2, c2⟩ k2 - ⟨hk2, -⟩
  exact cost_ok (by rw [hk, hk2]; rfl)

@[fr] theorem free_set_up_wots (E : Env) (c : Ctx) (l : Nat) : Free (ts_set_up_wots_signature E c l) := by
  unfold ts_set_up_wots_signature; free

theorem fixed_fors {τ l : Nat} (h : D.Inv (.fors τ l) c) : fixed c = (S.ps, l, τ) := by
  obtain ⟨g, -, -, -, hloc, -, -, hl, -⟩ := h
  unfold fixed
  rw [g.ps, hl, show c.fors_tree = τ from congrArg Loc.ft hloc]

theorem cost_signFors {τ l : Nat} (h : D.Inv (.fors τ l) c) : Cost f (signFors E mem c) fun _ k => k = forsAuth S.P τ l f := by
  have F := S.facts
  have hf := fixed_fors D h
  obtain ⟨-, hτ, hl, -⟩ := h
  have := F.tle
  have := F.kle
  unfold signFors
  refine cost_bind (cost_path (leaf := forsLeaf f) (fun b i c w hw _ => cost_fors_leaf b i hw) hf (by show l < 255; omega)) fun c1 k1 _ ⟨hk1, h1⟩ => ?_
  have h11 : c1.merkle_level = l + 1 := congrArg (fun v => v.2.1) h1
  have h12 : c1.ps = S.ps := congrArg (fun v => v.1) h1
  have h13 : c1.fors_tree = τ := congrArg (fun v => v.2.2) h1
  unfold forsAuth
  refine cost_branch (fun hb => ?_) fun hb => cost_ok ?_
  · rw [h11, h12, F.pt] at hb
    rw [if_pos hb]
    refine cost_bind (cost_next_t _ _) fun t k2 _ hk2 => ?_
    dsimp only
    refine cost_branch (fun hb => ?_) fun hb => cost_ok ?_
    · rw [h13, h12, F.pk, Nat.mod_eq_of_lt (by omega)] at hb
      rw [if_pos hb]
      refine cost_bind (cost_final_t _ _) ?_
      rintro ⟨a, t⟩ k3 - hk3
      exact cost_mono (cost_free (by free)) fun _ k4 _ hk4 => by rw [hk1, hk2, hk3, hk4]; rfl
    · rw [h13, h12, F.pk, Nat.mod_eq_of_lt (by omega)] at hb
      rw [if_neg hb, hk1, hk2]
  · rw [h11, h12, F.pt] at hb
    rw [if_neg hb, hk1]

/-- The digit that `generate_next_wots_hash` reads. -/
theorem next_digit {sk : Bytes} {j tree leaf i : Nat} {M : Bytes} (hm : S.MemPub mem) (hs : S.MemSec mem sk) (g : Good S c)
    (hi : i < S.P.len) (hloc : c.loc = Loc.ht j tree) (hw : WotsX S M i c.x) {r : Bytes × Ctx}
    (e : Model.wots_prf S.E mem c.buffer leaf i { c with x := c.x.set 0 (c.x.getD 0 0 + 1) } = .ok r) :
    Model.getWotsDigit S.E r.2 i = .ok ((wotsDigits S.P M).getD i 0) := by
  have hmx := S.facts.nmax
  have hx := x_ge_digits c g.toShape
  have hd := digits_le (S := S)
  have hw1 := hw.next (by omega)
  let c1 : Ctx := { c with x := c.x.set 0 (c.x.getD 0 0 + 1) }
  have g1 : Good S c1 := ⟨⟨g.adr, g.buf, g.auth, by show (c.x.set 0 _).length = _; rw [List.length_set, g.x], g.si, g.bi⟩, g.ps, g.pk, g.pre⟩
  obtain ⟨c2, e2, s2, a2⟩ := (set_wots_prf_adr_ok g1 leaf i).scr g1
  have hl1 : c1.loc = Loc.ht j tree := hloc
  rw [loc_hl hl1, loc_ta hl1] at a2
  simp only [Loc.ht] at a2
  have g2 := s2.good g1
  obtain ⟨c3, e3, s3, -⟩ := prf_step (out := c.buffer) g2 hm hs a2 (by rw [g.buf]; exact hmx)
  have s23 := s2.trans s3
  rw [Model.wots_prf, show Model.set_wots_prf_adr S.E { c with x := c.x.set 0 (c.x.getD 0 0 + 1) } leaf i = .ok c2 from e2, ok_bind, e3] at e
  cases e
  unfold Model.getWotsDigit Config.wotsDigitsOff
  have hx3 : c3.x = c1.x := s23.xx
  have hx1 : c1.x.length = c.x.length := by show (c.x.set 0 _).length = _; simp
  dsimp only
  rw [if_pos (show i < S.cfg.MAX_WOTS_DIGITS by omega), rd_getD 0 (by rw [hx3]; omega), ok_bind, hx3, hw1.2 i hi]

theorem cost_generate {j i : Nat} (hm : S.MemPub mem) (hs : S.MemSec mem D.sk) (h : D.Inv (.wots j i) c) :
    Cost f (generate_next_wots_hash S.E mem c) fun _ k => k = one .prf f + (wotsDigits S.P (D.msgAt j)).getD i 0 * one .f f := by
  obtain ⟨g, hj, hi, hst, hloc, han, hw⟩ := h
  have h67 := len_le67 (S := S)
  have hx := x_ge_digits c g.toShape
  have hiv : (c.x.getD 0 0).toNat = i := by rw [hw.1, UInt8.toNat_ofNat']; omega
  unfold generate_next_wots_hash Config.wotsDigitOff
  refine cost_frame ?_
  refine cost_bind0 (by free) fun d ed => ?_
  rw [res_rd, rd_getD 0 (by omega)] at ed
  cases ed
  refine cost_bind0 (by free) fun x ex => ?_
  rw [res_wr, wr_ok _ (by omega)] at ex
  cases ex
  dsimp only
  rw [hiv]
  refine cost_bind (cost_wots_prf _ _ _ rfl) ?_
  rintro ⟨b, c1⟩ k e ⟨hk, -⟩
  rw [wots_prf_res] at e
  have hd := next_digit hm hs g hi hloc hw e
  refine cost_bind0 (by free) fun cnt ecnt => ?_
  rw [getWotsDigit_res, hd] at ecnt
  cases ecnt
  refine cost_bind (cost_chain _ (leaf := fun c => c.auth_path_node) i b rfl) ?_
  rintro ⟨b2, c2⟩ k2 - ⟨hk2, -⟩
  exact cost_ok (by rw [hk, hk2]; rfl)

theorem cost_signWots {j i : Nat} (hm : S.MemPub mem) (hs : S.MemSec mem D.sk) (h : D.Inv (.wots j i) c) :
    Cost f (signWots S.E mem c) fun _ k => k = wots S.P ((wotsDigits S.P (D.msgAt j)).getD i 0) i f := by
  have F := S.facts
  have h67 := len_le67 (S := S)
  unfold signWots Config.wotsDigitOff
  refine cost_bind (cost_generate D hm hs h) fun c1 k1 e1 hk1 => ?_
  obtain ⟨g, hj, hi, hst, hloc, han, hw⟩ := h
  obtain ⟨c1', e1', g1, -, -, -, -, p5, -, -⟩ := generate_next_ok (mem := mem) (sk := D.sk) hm hs g hi hloc han hw
  rw [generate_next_wots_hash_res, e1'] at e1
  cases e1
  have hx1 := x_ge_digits c1 g1.toShape
  refine cost_bind0 (by free) fun d ed => ?_
  rw [res_rd, rd_getD 0 (by omega), p5.1] at ed
  cases ed
  have hlen : S.P.len = 2 * S.n + 3 := rfl
  have hpn := F.pn
  unfold Spec.Cost.wots
  have hiff : ((UInt8.ofNat (i + 1)).toNat = 2 * c1.ps.n + 3) ↔ i + 1 = S.P.len := by
    rw [UInt8.toNat_ofNat', g1.ps, hpn, hlen, Nat.mod_eq_of_lt (by omega)]
  refine cost_branch (fun hb => ?_) fun hb => cost_ok ?_
  · rw [if_pos (hiff.1 hb)]
    dsimp only
    refine cost_bind (cost_wots_leaf S.P (v := fixed { c1 with state := .merkle, merkle_level := 0 }) (by show c1.ps.n = _; rw [g1.ps]; exact hpn) _ _ rfl) ?_
    rintro ⟨a, c2⟩ k2 - ⟨hk2, -⟩
    exact cost_ok (by rw [hk1, hk2, Nat.add_zero])
  · rw [if_neg (fun x => hb (hiff.2 x)), hk1]

theorem cost_signMerkle {j l : Nat} (h : D.Inv (.merkle j l) c) : Cost f (signMerkle E mem c) fun _ k => k = merkle S.P l f := by
  have F := S.facts
  obtain ⟨g, -, hl, -, -, -, hml, -⟩ := h
  have := F.hle
  unfold signMerkle
  refine cost_bind (cost_path (v := (S.ps, l, c.fors_tree)) (leaf := wotsLeaf S.P f)
    (fun b i c w hw hv => cost_wots_leaf S.P (by rw [hv]; exact F.pn) b i hw) (by unfold fixed; rw [g.ps, hml]) (by show l < 255; omega)) fun c1 k1 _ ⟨hk1, h1⟩ => ?_
  exact cost_mono (cost_free (by free)) fun _ k2 _ hk2 => by rw [hk1, hk2]; rfl

end Leak
