import Verif.Proof.Work
import Verif.Proof.CostStep
/-!
# The work for key generation and for the steps of the signer
-/
namespace Leak.Work
open Model Spec Spec.Work Spec.Slh
open Spec.Cost (sum)

variable {M : Meter} {p : Price} {at_ : TIter → Nat → Prop} {E : Env} {mem : Mem} {c : Ctx}

theorem keep_prehash (h : fixed b c = v) : Post (call_prehash E mem c) fun c' => fixed b c' = v := by
  unfold call_prehash
  split
  · refine post_branch (post_ok h) ?_
    split
    · exact post_ok h
    · unfold ts_sha2_L1_prehash
      posts
    · unfold ts_sha2_L35_prehash
      refine post_bind (P := fun c' => fixed b c' = v) ?_ fun c1 h1 => ?_
      · unfold ts_sha2_L1_prehash
        posts
      · posts
    · intro a e; cases e
  · exact post_ok h

/-- The levels of an authentication path of a hypertree layer. -/
theorem cost_levels (P : Params) {ps : ParamSet} (H : Charges M E mem ps p at_) (hP : ps.n = P.n) (cnt l ft : Nat) (hl : l + cnt ≤ 255) {st : Region} {ty : Nat}
    (h : fixed false c = (ps, l, ft, none)) (i : Nat) :
    Cost M (loop (fun _ ctx => ts_merkle_path E mem (ts_wots_leaf E mem) ctx ty st) cnt i c)
      fun c' k => k = (2 ^ (l + cnt) - 2 ^ l) * (wotsLeaf p P + T p 2) ∧ fixed false c' = (ps, l + cnt, ft, none) := by
  induction cnt generalizing l c i with
  | zero =>
    intro a e; cases e
    refine ⟨?_, h⟩
    rw [Nat.add_zero, Nat.sub_self, Nat.zero_mul]
    exact total_idle (idle_one (r := .ok c) (e := .br false) rfl)
  | succ cnt ih =>
    rw [loop_log]
    refine cost_bind0 (idle_br _) fun _ _ => ?_
    refine cost_bind (cost_path (v := (ps, l, ft, none)) (leaf := wotsLeaf p P) H (fun b i c w hw hv => ?_) h (by show l < 255; omega)) fun c1 k1 _ ⟨hk1, h1⟩ => ?_
    · have hd : drop w = w := by rw [← hw]; rfl
      refine cost_mono (cost_wots_leaf P (by rw [hv]; exact H) (by rw [hv]; exact hP) b i hw) fun r k _ hk => ⟨hk.1, by rw [hk.2, hd]⟩
    refine cost_mono (ih (l + 1) (by omega) h1 (i + 1)) fun c2 k2 _ ⟨hk2, h2⟩ => ⟨?_, by rw [h2]; congr 2; omega⟩
    rw [hk1, hk2, ← Nat.add_mul]
    congr 1
    show 2 ^ l + _ = _
    have h3 : 2 ^ (l + 1) ≤ 2 ^ (l + 1 + cnt) := Nat.pow_le_pow_right (by omega) (by omega)
    rw [show l + (cnt + 1) = l + 1 + cnt by omega]
    have h4 : 2 ^ (l + 1) = 2 * 2 ^ l := by rw [Nat.pow_succ]; omega
    omega

theorem cost_gen_root (P : Params) {ps : ParamSet} (H : Charges M E mem ps p at_) {pre : Nat} (hpre : ∀ c, c.ps = ps → Cost M (call_prehash E mem c) fun _ k => k = pre)
    (hP : ps.n = P.n) (hh : ps.merkle_h = P.hp) (hle : P.hp ≤ 255) (pub : Nat) :
    Cost M (gen_root E mem ps pub) fun _ k => k = pre + tree p P := by
  unfold gen_root
  refine cost_bind (hpre _ rfl) fun c1 kp e1 hkp => ?_
  have h1 := keep_prehash (b := false) (v := fixed false (zeroCtx E ps)) (by rfl) _ e1
  have hps : c1.ps = ps := congrArg Prod.fst h1
  have hft : c1.fors_tree = (zeroCtx E ps).fors_tree := congrArg (fun v => v.2.2.1) h1
  dsimp only
  refine cost_bind (cost_wots_leaf P (b := false) (v := (ps, 0, c1.fors_tree, none)) H hP _ _ (by show (c1.ps, 0, c1.fors_tree, none) = _; rw [hps])) ?_
  rintro ⟨a, c2⟩ k2 - ⟨hk2, h2⟩
  rw [hh]
  refine cost_bind (cost_levels P H hP P.hp 0 c1.fors_tree (by omega) (by exact h2) 0) fun c3 k3 _ ⟨hk3, h3⟩ => cost_ok ?_
  rw [hkp, hk2, hk3, Nat.zero_add, Nat.pow_zero, Nat.add_zero]
  show _ = pre + (2 ^ P.hp * wotsLeaf p P + (2 ^ P.hp - 1) * T p 2)
  have hpos := Nat.pow_pos (n := P.hp) (show 0 < 2 by omega)
  generalize 2 ^ P.hp = N at hpos
  obtain ⟨N, rfl⟩ := Nat.exists_eq_add_of_lt hpos
  rw [show 0 + N + 1 - 1 = N by omega, Nat.mul_add, show 0 + N + 1 = N + 1 by omega, Nat.succ_mul]
  omega

/-! ## Steps of the signer -/

variable {S : Sess} (D : SignData S)

theorem cost_signForsLeaf (H : Charges M E mem c.ps p at_) : Cost M (signForsLeaf E mem c) fun _ k => k = forsSecret p := by
  unfold signForsLeaf
  refine cost_bind0 (by idle) fun node _ => ?_
  dsimp only
  refine cost_bind (cost_fors_prf (b := false) (v := fixed false c) H _ _ rfl) ?_
  rintro ⟨b, c1⟩ k - ⟨hk, h1⟩
  have h11 : c1.ps = c.ps := fixed_ps h1
  refine cost_bind (cost_fors_leaf (b := false) (v := (c.ps, 0, c1.fors_tree, none)) H _ _ (by show (c1.ps, 0, c1.fors_tree, none) = _; rw [h11])) ?_
  rintro ⟨b2, c2⟩ k2 - ⟨hk2, -⟩
  exact cost_ok (by rw [hk, hk2]; rfl)

/-- What the iterator of a session has taken in tells how many inputs that were. -/
def Reads (S : Sess) (at_ : TIter → Nat → Prop) : Prop := ∀ t a B i, IterRep S t a B → B.length = i * S.n → at_ t i

theorem cost_signFors {τ l : Nat} (H : Charges M E mem S.ps p at_) (R : Reads S at_) (h : D.Inv (.fors τ l) c) : Cost M (signFors E mem c) fun _ k => k = forsAuth p S.P τ l := by
  have F := S.facts
  have hf := fixed_fors D h
  obtain ⟨g, hτ, hl, -, -, -, hit, -⟩ := h
  have := F.tle
  have := F.kle
  have hat : at_ c.big_iter τ := R _ _ _ τ hit (D.length_roots τ)
  unfold signFors
  refine cost_bind (cost_path (b := true) (v := (S.ps, l, τ, some c.big_iter)) (leaf := forsLeaf p) H (fun b i c w hw hv => cost_fors_leaf (by rw [hv]; exact H) b i hw) (by
    unfold fixed
    rw [show c.ps = S.ps from congrArg Prod.fst hf, show c.merkle_level = l from congrArg (fun v => v.2.1) hf, show c.fors_tree = τ from congrArg (fun v => v.2.2) hf]
    rfl) (by show l < 255; omega)) fun c1 k1 _ ⟨hk1, h1⟩ => ?_
  have h11 : c1.merkle_level = l + 1 := congrArg (fun v => v.2.1) h1
  have h12 : c1.ps = S.ps := congrArg (fun v => v.1) h1
  have h13 : c1.fors_tree = τ := congrArg (fun v => v.2.2.1) h1
  have h14 : c1.big_iter = c.big_iter := Option.some.inj (congrArg (fun v => v.2.2.2) h1)
  unfold forsAuth
  refine cost_branch (fun hb => ?_) fun hb => cost_ok ?_
  · rw [h11, h12, F.pt] at hb
    rw [if_pos hb]
    refine cost_bind (H.next _ _ τ _ h12 (by rw [h14]; exact hat)) fun t k2 _ ⟨hk2, ht2⟩ => ?_
    dsimp only
    refine cost_branch (fun hb => ?_) fun hb => cost_ok ?_
    · rw [h13, h12, F.pk, Nat.mod_eq_of_lt (by omega)] at hb
      rw [if_pos hb]
      refine cost_bind (H.final _ _ (τ + 1) _ h12 ht2) ?_
      rintro ⟨a, t⟩ k3 - hk3
      exact cost_mono (cost_free (by idle)) fun _ k4 _ hk4 => by rw [hk1, hk2, hk3, hk4, hb]; rfl
    · rw [h13, h12, F.pk, Nat.mod_eq_of_lt (by omega)] at hb
      rw [if_neg hb, hk1, hk2]
  · rw [h11, h12, F.pt] at hb
    rw [if_neg hb, hk1]

theorem cost_generate {j i : Nat} (H : Charges M S.E mem S.ps p at_) (hm : S.MemPub mem) (hs : S.MemSec mem D.sk) (h : D.Inv (.wots j i) c) :
    Cost M (generate_next_wots_hash S.E mem c) fun _ k => k = p.prf + (wotsDigits S.P (D.msgAt j)).getD i 0 * p.f := by
  obtain ⟨g, hj, hi, hst, hloc, han, hw⟩ := h
  have h67 := len_le67 (S := S)
  have hx := x_ge_digits c g.toShape
  have hiv : (c.x.getD 0 0).toNat = i := by rw [hw.1, UInt8.toNat_ofNat']; omega
  unfold generate_next_wots_hash Config.wotsDigitOff
  refine cost_frame ?_
  refine cost_bind0 (by idle) fun d ed => ?_
  rw [res_rd, rd_getD 0 (by omega)] at ed
  cases ed
  refine cost_bind0 (by idle) fun x ex => ?_
  rw [res_wr, wr_ok _ (by omega)] at ex
  cases ex
  dsimp only
  rw [hiv]
  have hps : (fixed false c).1 = S.ps := g.ps
  refine cost_bind (cost_wots_prf (b := false) (v := fixed false c) (by rw [hps]; exact H) _ _ _ rfl) ?_
  rintro ⟨b, c1⟩ k e ⟨hk, h1⟩
  rw [wots_prf_res] at e
  have hd := next_digit hm hs g hi hloc hw e
  refine cost_bind0 (by idle) fun cnt ecnt => ?_
  rw [getWotsDigit_res, hd] at ecnt
  cases ecnt
  refine cost_bind (cost_chain (by rw [hps]; exact H) _ 0 (leaf := fun c => c.auth_path_node) i b h1) ?_
  rintro ⟨b2, c2⟩ k2 - ⟨hk2, -⟩
  exact cost_ok (by rw [hk, hk2]; rfl)

theorem cost_signWots {j i : Nat} (H : Charges M S.E mem S.ps p at_) (hm : S.MemPub mem) (hs : S.MemSec mem D.sk) (h : D.Inv (.wots j i) c) :
    Cost M (signWots S.E mem c) fun _ k => k = wots p S.P ((wotsDigits S.P (D.msgAt j)).getD i 0) i := by
  have F := S.facts
  have h67 := len_le67 (S := S)
  unfold signWots Config.wotsDigitOff
  refine cost_bind (cost_generate D H hm hs h) fun c1 k1 e1 hk1 => ?_
  obtain ⟨g, hj, hi, hst, hloc, han, hw⟩ := h
  obtain ⟨c1', e1', g1, -, -, -, -, p5, -, -⟩ := generate_next_ok (mem := mem) (sk := D.sk) hm hs g hi hloc han hw
  rw [generate_next_wots_hash_res, e1'] at e1
  cases e1
  have hx1 := x_ge_digits c1 g1.toShape
  refine cost_bind0 (by idle) fun d ed => ?_
  rw [res_rd, rd_getD 0 (by omega), p5.1] at ed
  cases ed
  have hlen : S.P.len = 2 * S.n + 3 := rfl
  have hpn := F.pn
  unfold Spec.Work.wots
  have hiff : ((UInt8.ofNat (i + 1)).toNat = 2 * c1.ps.n + 3) ↔ i + 1 = S.P.len := by
    rw [UInt8.toNat_ofNat', g1.ps, hpn, hlen, Nat.mod_eq_of_lt (by omega)]
  refine cost_branch (fun hb => ?_) fun hb => cost_ok ?_
  · rw [if_pos (hiff.1 hb)]
    dsimp only
    refine cost_bind (cost_wots_leaf S.P (b := false) (v := (S.ps, 0, c1.fors_tree, none)) H (by exact hpn) _ _ (by
      show (c1.ps, 0, c1.fors_tree, none) = _
      rw [g1.ps])) ?_
    rintro ⟨a, c2⟩ k2 - ⟨hk2, -⟩
    exact cost_ok (by rw [hk1, hk2, Nat.add_zero])
  · rw [if_neg (fun x => hb (hiff.2 x)), hk1]

theorem cost_signMerkle {j l : Nat} (H : Charges M E mem S.ps p at_) (h : D.Inv (.merkle j l) c) : Cost M (signMerkle E mem c) fun _ k => k = merkle p S.P l := by
  have F := S.facts
  obtain ⟨g, -, hl, -, -, -, hml, -⟩ := h
  have := F.hle
  unfold signMerkle
  refine cost_bind (cost_path (b := false) (v := (S.ps, l, c.fors_tree, none)) (leaf := wotsLeaf p S.P) H
    (fun b i c w hw hv => ?_) (by unfold fixed; rw [g.ps, hml]; rfl) (by show l < 255; omega)) fun c1 k1 _ ⟨hk1, h1⟩ => ?_
  · have hd : drop w = w := by rw [← hw]; rfl
    refine cost_mono (cost_wots_leaf S.P (by rw [hv]; exact H) (by rw [hv]; exact F.pn) b i hw) fun r k _ hk => ⟨hk.1, by rw [hk.2, hd]⟩
  exact cost_mono (cost_free (by idle)) fun _ k2 _ hk2 => by rw [hk1, hk2]; rfl

end Leak.Work
