import Verif.Proof.WorkSaving
import Verif.Proof.CostVerifyTotal
import Verif.Spec.WorkVerify
/-!
# The work of verification
-/
namespace Leak.Work
open Model Spec Spec.Work Spec.Slh
open Spec.Cost (sum)

variable {M : Meter} {p : Price} {at_ : TIter → Nat → Prop} {E : Env} {mem : Mem} {c : Ctx} {S : Sess} {msg : Nat} {Ms root : Bytes} {hc : Nat}

theorem vblock_fors {τ r : Nat} (dg : Nat → Nat → Nat) (hτ : τ < S.P.k) (hr : r ≤ S.P.a) :
    Verify.block p hc S.P dg (τ * (S.P.a + 1) + r + 1) = if r = 0 then Verify.forsSecret p else Verify.forsAuth p S.P τ (r - 1) := by
  obtain ⟨h1, h2⟩ := div_block τ (S.P.a + 1) 0 r (by omega)
  have : (τ + 1) * (S.P.a + 1) ≤ S.P.k * (S.P.a + 1) := Nat.mul_le_mul_right _ hτ
  rw [Nat.succ_mul] at this
  rw [Verify.block, if_pos (show τ * (S.P.a + 1) + r < S.P.k * (S.P.a + 1) by omega), h1, h2]

theorem vblock_ht {j r : Nat} (dg : Nat → Nat → Nat) (hr : r < S.P.len + S.P.hp) :
    Verify.block p hc S.P dg (S.P.k * (S.P.a + 1) + (j * (S.P.len + S.P.hp) + r) + 1) = if r < S.P.len then Verify.wots p S.P (dg j r) r else Verify.merkle p S.P j (r - S.P.len) := by
  obtain ⟨h1, h2⟩ := div_block j (S.P.len + S.P.hp) 0 r hr
  rw [Verify.block, if_neg (show ¬ S.P.k * (S.P.a + 1) + (j * (S.P.len + S.P.hp) + r) < S.P.k * (S.P.a + 1) by omega)]
  dsimp only
  rw [Nat.add_sub_cancel_left, h1, h2]

/-! ## The steps -/

@[idl] theorem idle_my_memcmp (mem : Mem) (a : Nat) (b : Bytes) (off n : Nat) : Idle (my_memcmp mem a b off n) := by
  induction n generalizing a off with
  | zero => unfold my_memcmp; idle
  | succ n ih =>
    unfold my_memcmp
    refine idle_bind (by idle) fun _ => idle_bind (by idle) fun _ => idle_bind (by idle) fun _ => idle_branch (by idle) (ih _ _)

theorem cost_verInit (U : ∀ o r c, c.ps = S.ps → Cost M (call_hash_msg S.E mem o MAX_MESSAGE_HASH r msg Ms.length c) fun _ k => k = hc) (H : Charges M S.E mem S.ps p at_)
    (hmsg : S.cfg.Fits msg Ms.length) (h : (VPh.init (S := S)).Inv msg Ms c) : Cost M (verInit S.E mem c) fun _ k => k = Verify.first p hc := by
  obtain ⟨g, hst, hx1, hx2⟩ := h
  unfold verInit
  have hw : 2 * S.E.cfg.arch.word ≤ c.x.length := by rw [g.x]; exact S.cfg.verifySize_le
  refine cost_bind0 (by idle) fun m em => cost_bind0 (by idle) fun l el => cost_bind0 (by idle) fun st _ => ?_
  rw [res_rdSlice, rdSlice_ok (show Config.verifyMessageOff + S.E.cfg.arch.word ≤ c.x.length by unfold Config.verifyMessageOff; omega),
    show (c.x.drop Config.verifyMessageOff).take S.E.cfg.arch.word = _ from hx1] at em
  rw [res_rdSlice, rdSlice_ok (show S.E.cfg.verifyLenOff + S.E.cfg.arch.word ≤ c.x.length by unfold Config.verifyLenOff; omega),
    show (c.x.drop S.E.cfg.verifyLenOff).take S.E.cfg.arch.word = _ from hx2] at el
  cases em
  cases el
  rw [Arch.value_bytes _ _ _ hmsg.1, Arch.value_bytes _ _ _ hmsg.2]
  refine cost_bind (U _ _ _ g.ps) fun r4 k4 e4 h4 => ?_
  have p4 := ps_hash_msg _ _ _ _ _ g.ps _ e4
  obtain ⟨mh, c4⟩ := r4
  dsimp only at p4 ⊢
  refine cost_bind0 (by idle) fun x _ => cost_bind0 (by idle) fun r5 e5 => ?_
  have p5 := ps_convert (c := { c4 with x := x }) _ p4 _ e5
  obtain ⟨c5, st'⟩ := r5
  dsimp only at p5 ⊢
  refine cost_bind0 (by idle) fun x' _ => cost_bind0 (by idle) fun c6 e6 => ?_
  have p6 : c6.ps = S.ps := fixed_ps (v := (S.ps, 0, 0, none)) (ps_fors_root (b := false) (by unfold fixed; rw [← p5]; rfl) _ e6)
  refine cost_bind (H.init _ _ p6) fun t k7 _ h7 => cost_ok ?_
  rw [h4, h7.1]; rfl

theorem cost_verForsLeaf (H : Charges M E mem c.ps p at_) : Cost M (verForsLeaf E mem c) fun _ k => k = Verify.forsSecret p := by
  unfold verForsLeaf
  refine cost_bind0 (by idle) fun n _ => cost_bind0 (by idle) fun c1 e1 => ?_
  have h1 : c1.ps = c.ps := fixed_ps (v := (c.ps, 0, c.fors_tree, none)) (keep_fors_leaf (b := false) _ (by rfl) _ e1)
  refine cost_bind (H.f _ _ _ h1) fun r k _ hk => ?_
  obtain ⟨a, c2⟩ := r
  exact cost_ok (by rw [hk]; rfl)

theorem cost_next_auth_path {ty : Nat} {ps : ParamSet} {l ft : Nat} {o : Option TIter} (H : Charges M E mem ps p at_) (h : fixed b c = (ps, l, ft, o)) (hl : l < 255) :
    Cost M (next_auth_path E mem c ty) fun c' k => k = T p 2 ∧ fixed b c' = (ps, l + 1, ft, o) := by
  have h1 : c.ps = ps := congrArg (fun v => v.1) h
  have h2 : c.merkle_level = l := congrArg (fun v => v.2.1) h
  have h3 : c.fors_tree = ft := congrArg (fun v => v.2.2.1) h
  have h4 : (if b then some c.big_iter else none) = o := congrArg (fun v => v.2.2.2) h
  unfold next_auth_path
  refine cost_frame ?_
  dsimp only
  refine cost_bind0 (by idle) fun s _ => ?_
  refine cost_bind0 (by idle) fun c1 e1 => ?_
  have k1 := keep_merkle (b := b) (v := (ps, l + 1, ft, o)) _ _ _ (by unfold fixed; dsimp only; rw [h1, h2, h3, h4, Nat.mod_eq_of_lt (by omega)]) _ e1
  refine cost_bind (P := fun r k => k = T p 2 ∧ fixed b r.2 = (ps, l + 1, ft, o)) (cost_branch (fun _ => cost_combine (v := (ps, l + 1, ft, o)) H _ _ _ k1) fun _ => cost_combine (v := (ps, l + 1, ft, o)) H _ _ _ k1) fun r k _ hk => ?_
  obtain ⟨a, c2⟩ := r
  exact cost_ok ⟨by rw [hk.1]; rfl, hk.2⟩

theorem keep_set_up {l : Nat} {ps : ParamSet} (h : c.ps = ps) : Post (ts_set_up_wots_signature E c l) fun c' => c'.ps = ps := by
  unfold ts_set_up_wots_signature
  refine post_frame ?_
  exact post_bind post_any fun _ _ => post_bind post_any fun _ _ => post_bind post_any fun _ _ => post_bind post_any fun _ _ => post_ok h

theorem cost_set_up {l : Nat} {ps : ParamSet} (H : Charges M E mem ps p at_) (h : c.ps = ps) : Cost M (set_up_wots_verify_signature E mem c l) fun _ k => k = p.init := by
  unfold set_up_wots_verify_signature
  refine cost_frame ?_
  refine cost_bind0 (by idle) fun c1 e1 => cost_bind0 (by idle) fun c2 e2 => ?_
  have p1 := keep_set_up h _ e1
  have p2 : c2.ps = ps := fixed_ps (v := (ps, c1.merkle_level, c1.fors_tree, none)) (keep_wots_header (b := false) _ (by unfold fixed; rw [← p1]; rfl) _ e2)
  refine cost_bind (H.init _ _ p2) fun t k _ hk => cost_ok (by rw [hk.1]; rfl)

theorem cost_verFors {D : SignData S} {τ l : Nat} {roots v : Bytes} (H : Charges M E mem S.ps p at_) (R : Reads S at_) (h : (VPh.fors D τ l roots v).Inv msg Ms c) :
    Cost M (verFors E mem c) fun _ k => k = Verify.forsAuth p S.P τ l := by
  have F := S.facts
  obtain ⟨g, hτ, hl, hst, hloc, -, hit, hrl, hml, -⟩ := h
  have := F.tle
  have := F.kle
  have hat : at_ c.big_iter τ := R _ _ _ τ hit hrl
  have hf : fixed true c = (S.ps, l, τ, some c.big_iter) := by unfold fixed; rw [g.ps, hml, show c.fors_tree = τ from congrArg Loc.ft hloc]; rfl
  unfold verFors
  refine cost_bind (cost_next_auth_path H hf (by omega)) fun c1 k1 _ ⟨hk1, h1⟩ => ?_
  have h11 : c1.merkle_level = l + 1 := congrArg (fun v => v.2.1) h1
  have h12 : c1.ps = S.ps := congrArg (fun v => v.1) h1
  have h13 : c1.fors_tree = τ := congrArg (fun v => v.2.2.1) h1
  have h14 : c1.big_iter = c.big_iter := Option.some.inj (congrArg (fun v => v.2.2.2) h1)
  unfold Verify.forsAuth
  refine cost_branch (fun hb => ?_) fun hb => cost_ok ?_
  · rw [h11, h12, F.pt] at hb
    rw [if_pos hb]
    refine cost_bind (H.next _ _ τ _ h12 (by rw [h14]; exact hat)) fun t k2 _ ⟨hk2, ht2⟩ => ?_
    dsimp only
    refine cost_branch (fun hb => ?_) fun hb => cost_ok ?_
    · rw [h13, h12, F.pk, Nat.mod_eq_of_lt (by omega)] at hb
      rw [if_pos hb]
      refine cost_bind (H.final _ _ (τ + 1) _ h12 ht2) ?_
      rintro ⟨a, t⟩ k3 - hk3
      exact cost_mono (cost_set_up H (by exact h12)) fun _ k4 _ hk4 => by rw [hk1, hk2, hk3, hk4, hb]
    · rw [h13, h12, F.pk, Nat.mod_eq_of_lt (by omega)] at hb
      rw [if_neg hb, hk1, hk2]
  · rw [h11, h12, F.pt] at hb
    rw [if_neg hb, hk1]

theorem cost_verWots {D : SignData S} {j i : Nat} {M' a : Bytes} (H : Charges M S.E mem S.ps p at_) (R : Reads S at_) (hm : S.MemPub mem) (h : (VPh.wots D j i M' a).Inv msg Ms c) :
    Cost M (verWots S.E mem c) fun _ k => k = Verify.wots p S.P ((wotsDigits S.P M').getD i 0) i := by
  have F := S.facts
  obtain ⟨g, hj, hi, hst, hloc, hml, han, hw, hit, hal⟩ := h
  have hat : at_ c.big_iter i := R _ _ _ i hit hal
  have h67 := len_le67 (S := S)
  have hx := x_ge_digits c g.toShape
  have hd := digits_le (S := S)
  have hiv : (c.x.getD 0 0).toNat = i := by rw [hw.1, UInt8.toNat_ofNat']; omega
  have hw1 := hw.next (by omega)
  have hlen : S.P.len = 2 * S.n + 3 := rfl
  have hpn := F.pn
  unfold verWots Config.wotsDigitOff
  refine cost_bind0 (by idle) fun d ed => ?_
  rw [res_rd, rd_getD 0 (by omega)] at ed
  cases ed
  refine cost_bind0 (by idle) fun x ex => ?_
  rw [res_wr, wr_ok _ (by omega)] at ex
  cases ex
  dsimp only
  rw [hiv]
  refine cost_bind0 (by idle) fun st est => ?_
  rw [getWotsDigit_res] at est
  have hst' : st = (wotsDigits S.P M').getD i 0 := by
    unfold Model.getWotsDigit Config.wotsDigitsOff at est
    rw [if_pos (show i < S.E.cfg.MAX_WOTS_DIGITS by have : S.E.cfg = S.cfg := rfl; rw [this]; omega), rd_getD 0 (by dsimp only; rw [List.length_set]; omega), ok_bind, hw1.2 i hi] at est
    cases est; rfl
  subst hst'
  let c1 : Ctx := { c with x := c.x.set 0 (c.x.getD 0 0 + 1) }
  have g1 : Good S c1 := ⟨⟨g.adr, g.buf, g.auth, by show (c.x.set 0 _).length = _; rw [List.length_set, g.x], g.si, g.bi⟩, g.ps, g.pk, g.pre⟩
  have hl1 : c1.loc = Loc.ht j (D.treeAt j) := hloc
  obtain ⟨c2, e2, s2⟩ := chain_loop (S := S) (mem := mem) (ctx := c1) (j := j) (tree := D.treeAt j) (kp := D.leafAt j) (c := i)
    (buf := c.buffer) g1 hm (by rw [loc_hl hl1]; rfl) (by rw [loc_ta hl1]; rfl) ((wotsDigits S.P M').getD i 0) (15 - (wotsDigits S.P M').getD i 0)
    (fun i_1 (s : Bytes × Ctx) => do
      let (b, ctx) := s
      let ctx ← Model.ts_set_wots_f_adr S.E ctx ctx.auth_path_node i i_1
      Model.call_f S.E mem b b ctx)
    (by
      intro q b c' hsc
      simp only
      rw [hsc.keep.an, show c1.auth_path_node = D.leafAt j from han]) (by rw [g.buf]; exact F.nmax)
  refine cost_bind (P := fun r k => k = (15 - (wotsDigits S.P M').getD i 0) * p.f ∧ fixed true r.2 = fixed true c1) ?_ fun r k e hk => ?_
  · exact cost_chain (b := true) (v := fixed true c1) (by rw [show (fixed true c1).1 = S.ps from g.ps]; exact H) _ _ (leaf := fun c => c.auth_path_node) i c.buffer rfl
  simp only [lk] at e
  rw [show Model.loop _ _ _ (c.buffer, c1) = _ from e2] at e
  cases e
  dsimp only
  have hx2 := s2.xx
  have hp2 := (s2.good g1).ps
  obtain ⟨hk, hfx⟩ := hk
  have hbi : c2.big_iter = c.big_iter := Option.some.inj (congrArg (fun v => v.2.2.2) hfx)
  refine cost_bind (H.next _ _ i _ hp2 (by rw [hbi]; exact hat)) fun t k3 _ ⟨hk3, ht3⟩ => cost_bind0 (by idle) fun d ed => ?_
  rw [res_rd, rd_getD 0 (by rw [hx2]; show 0 < (c.x.set 0 _).length; rw [List.length_set]; omega), hx2] at ed
  cases ed
  have hdv : (c1.x.getD 0 0).toNat = i + 1 := by rw [hw1.1, UInt8.toNat_ofNat']; omega
  rw [hdv, hp2, hpn]
  unfold Spec.Work.Verify.wots
  refine cost_branch (fun hb => cost_ok ?_) fun hb => ?_
  · rw [if_neg (by rw [hlen]; exact hb), hk, hk3]; omega
  · have hie : i + 1 = S.P.len := by rw [hlen]; omega
    rw [if_pos hie]
    refine cost_bind (H.final _ _ (i + 1) _ rfl ht3) ?_
    rintro ⟨a, t⟩ k4 - hk4
    exact cost_ok (by rw [hk, hk3, hk4, hie]; omega)

theorem cost_verMerkle {D : SignData S} {j l m : Nat} {v : Bytes} (H : Charges M S.E mem S.ps p at_) (hm : S.MemPub mem) (h : (VPh.merkle D j l v).Inv msg Ms c) :
    Cost M (verMerkle S.E mem m c) fun _ k => k = Verify.merkle p S.P j l := by
  have F := S.facts
  obtain ⟨g, hj, hl, hst, hloc, han, hml, -⟩ := h
  have := F.hle
  have := F.dle
  unfold verMerkle
  refine cost_bind (cost_next_auth_path (b := false) (ps := S.ps) (l := l) (ft := c.fors_tree) (o := none) H (by unfold fixed; rw [g.ps, hml]; rfl) (by omega)) fun c1 k1 e1 ⟨hk1, h1⟩ => ?_
  have h11 : c1.merkle_level = l + 1 := congrArg (fun v => v.2.1) h1
  have h12 : c1.ps = S.ps := congrArg (fun v => v.1) h1
  have h9 : (2 : Nat) ^ S.P.hp ≤ 2 ^ 9 := Nat.pow_le_pow_right (by omega) F.hle
  have hlf := D.leafAt_lt j
  obtain ⟨c1', e1', g1, p1, p2, p3, -⟩ := next_auth_path_ok (mem := mem) (ty := ADR_TYPE_HASHTREE)
    (L := Loc.ht j (D.treeAt j)) (h := l) (an := D.leafAt j) (base := 0) hm g hloc (by simp [Loc.ht]) (by have := F.kge; show 0 < S.P.k; omega)
    hml (by omega) han (by omega)
  rw [next_auth_path_res, e1'] at e1
  cases e1
  have hloc1 : c1.loc = Loc.ht j (D.treeAt j) := p3.trans hloc
  have hhl : (c1.hypertree_level + 1) % 256 = j + 1 := by
    rw [loc_hl hloc1]; simp only [Loc.ht]; omega
  unfold Verify.merkle
  refine cost_branch (fun hb => cost_ok ?_) fun hb => ?_
  · rw [h11, h12, F.phm] at hb
    rw [if_neg (fun h => hb h.1), hk1]
  · rw [h11, h12, F.phm] at hb
    dsimp only
    rw [hhl, h12, F.pd, F.phm]
    refine cost_branch (fun hb2 => ?_) fun hb2 => ?_
    · rw [if_pos ⟨by omega, hb2⟩]
      refine cost_bind0 (by idle) fun msk _ => cost_bind (cost_set_up H rfl) fun c3 k3 _ hk3 => cost_ok (by rw [hk1, hk3]; rfl)
    · rw [if_neg (fun h => hb2 h.2)]
      refine cost_mono (cost_free (by idle)) fun _ k2 _ hk2 => by rw [hk1, hk2]

/-- A step costs what the specification says of the block it reads. -/
theorem cost_verStep {ph : VPh S} {dg : Nat → Nat → Nat} {m : Nat} (U : ∀ o r c, c.ps = S.ps → Cost M (call_hash_msg S.E mem o MAX_MESSAGE_HASH r msg Ms.length c) fun _ k => k = hc) (H : Charges M S.E mem S.ps p at_) (R : Reads S at_)
    (hm : S.MemPub mem) (hmsg : S.cfg.Fits msg Ms.length) (h : ph.Inv msg Ms c) (hd : Leak.Reads dg ph) :
    Cost M (verStep S.E mem m c) fun _ k => k = Verify.block p hc S.P dg (vpos ph) := by
  have lift : ∀ {x : L Ctx} {b : Nat}, Cost M x (fun _ k => k = b) → Verify.block p hc S.P dg (vpos ph) = b →
      Cost M (do .ok (none, ← x)) fun (_ : Option Nat × Ctx) k => k = Verify.block p hc S.P dg (vpos ph) := by
    intro x b hx hb
    exact cost_bind hx fun a k _ hk => cost_ok (by rw [hb, hk, Nat.add_zero])
  have h67 := len_le67 (S := S)
  unfold verStep
  refine cost_select ?_
  cases ph with
  | init =>
    rw [h.2.1]
    exact lift (cost_verInit U H hmsg h) rfl
  | forsLeaf D τ roots =>
    have hτ := h.2.1
    rw [h.2.2.1]
    exact lift (cost_verForsLeaf (by rw [h.1.ps]; exact H)) (by
      show Verify.block p hc S.P dg (τ * (S.P.a + 1) + 0 + 1) = _
      rw [vblock_fors _ hτ (Nat.zero_le _), if_pos rfl])
  | fors D τ l roots v =>
    have hτ := h.2.1
    have hl := h.2.2.1
    rw [h.2.2.2.1]
    exact lift (cost_verFors H R h) (by
      show Verify.block p hc S.P dg (τ * (S.P.a + 1) + (l + 1) + 1) = _
      rw [vblock_fors _ hτ hl, if_neg (by omega)]; rfl)
  | wots D j i M' a =>
    have hi := h.2.2.1
    rw [h.2.2.2.1]
    exact lift (cost_verWots H R hm h) (by
      show Verify.block p hc S.P dg (S.P.k * (S.P.a + 1) + (j * (S.P.len + S.P.hp) + i) + 1) = _
      rw [vblock_ht _ (by omega), if_pos hi, hd i])
  | merkle D j l v =>
    have hl := h.2.2.1
    rw [h.2.2.2.1]
    refine cost_mono (cost_verMerkle H hm h) fun _ k _ hk => ?_
    rw [hk]
    show _ = Verify.block p hc S.P dg (S.P.k * (S.P.a + 1) + (j * (S.P.len + S.P.hp) + (S.P.len + l)) + 1)
    rw [vblock_ht _ (by omega), if_neg (by omega), Nat.add_sub_cancel_left]

/-! ## The loop -/

variable {vals : List Bytes}

theorem cost_verLoop (U : ∀ o r c, c.ps = S.ps → Cost M (call_hash_msg S.E mem o MAX_MESSAGE_HASH r msg Ms.length c) fun _ k => k = hc) (H : Charges M S.E mem S.ps p at_) (R : Reads S at_)
    (hm : S.MemPub mem) (hr : S.MemRoot mem root) (hl : Ms.length < 2 ^ 60) (hmsg : S.cfg.Fits msg Ms.length) :
    ∀ (fuel : Nat) (sig : Bytes) (c : Ctx) (ph : VPh S) (Rs : Bytes), At root msg Ms vals ph Rs c → (ph = .init → mem.Has msg Ms) →
      Agree (c.buffer.take c.buffer_offset ++ sig) Rs →
      Cost M (verLoop S.E mem fuel sig c) fun r k =>
        k = sumFrom (Verify.block p hc S.P (vdig S.P vals)) (vpos ph) (min ((c.buffer_offset + sig.length) / S.n) ph.cnt) ∧
        Came root msg Ms vals ph Rs (c.buffer.take c.buffer_offset ++ sig) r.2 := by
  intro fuel
  induction fuel with
  | zero => intro sig c ph Rs _ _ _ a e; cases e
  | succ fuel ih =>
    intro sig c ph Rs h hM hag
    have g := h.inv.good
    have F := S.facts
    have hmx := F.nmax
    have h32 := F.max32
    have hn16 := F.n16
    have hbuf := g.buf
    have hbo := h.bo
    have hcnt := h.cnt
    have hcn : S.n ≤ ph.cnt * S.n := Nat.le_mul_of_pos_left _ hcnt
    have htl : (c.buffer.take c.buffer_offset ++ sig).length = c.buffer_offset + sig.length := by
      rw [List.length_append, List.length_take]; omega
    unfold verLoop
    dsimp only
    have hrem : usub c.ps.n c.buffer_offset = S.n - c.buffer_offset := by rw [ctx_n g]; unfold usub; omega
    rw [hrem]
    refine cost_bind0 (by idle) fun r er => ?_
    have hr' : r = (if S.n - c.buffer_offset > sig.length then sig.length else S.n - c.buffer_offset) := by
      unfold branch at er
      split at er
      · rw [res_ok] at er; cases er; rw [if_pos (by assumption)]
      · rw [res_ok] at er; cases er; rw [if_neg (by assumption)]
    have hr1 : r ≤ sig.length := by rw [hr']; split <;> omega
    have hr2 : c.buffer_offset + r ≤ S.n := by rw [hr']; split <;> omega
    refine cost_bind0 (by idle) fun pc epc => ?_
    rw [res_rdSlice, rdSlice_ok (by omega), List.drop_zero] at epc
    cases epc
    have hsl : (sig.take r).length = r := by simp; omega
    refine cost_bind0 (by idle) fun B eB => ?_
    rw [res_wrSlice, wrSlice_ok (by omega)] at eB
    have hB : B = c.buffer.take c.buffer_offset ++ sig.take r ++ c.buffer.drop (c.buffer_offset + (sig.take r).length) := by cases eB; rfl
    have hBl : B.length = S.cfg.MAX_HASH := by rw [hB, ← hbuf]; exact length_splice _ _ _ (by omega)
    have hpl : (c.buffer.take c.buffer_offset ++ sig.take r).length = c.buffer_offset + r := by
      rw [List.length_append, List.length_take, hsl]; omega
    have hBt : B.take (c.buffer_offset + r) = c.buffer.take c.buffer_offset ++ sig.take r := by rw [hB]; exact take_left' hpl
    rw [show c.ps.n = S.n from ctx_n g]
    refine cost_branch (fun hfull => cost_ok ?_) fun hfull => ?_
    · have hrs : r = sig.length := by split at hr' <;> omega
      refine ⟨?_, Or.inl ⟨by omega, ph, [], Rs, 0, ⟨h.inv.buffer hBl _, ?_, hcnt, h.len, h.vals⟩, ?_, rfl, by simp, by omega, by omega⟩⟩
      · rw [Nat.div_eq_of_lt (by omega), Nat.zero_min]; rfl
      · show (c.buffer_offset + r) % 256 < S.n
        omega
      · show _ = [] ++ B.take ((c.buffer_offset + r) % 256)
        rw [Nat.mod_eq_of_lt (by omega), hBt, hrs, List.take_of_length_le (Nat.le_refl _)]; rfl
    · have hre : c.buffer_offset + r = S.n := by omega
      rw [hre] at hBt hpl
      obtain ⟨b, hb⟩ : ∃ b, b = B.take S.n := ⟨_, rfl⟩
      have hbl : b.length = S.n := by rw [hb, List.length_take]; omega
      have ht : c.buffer.take c.buffer_offset ++ sig = b ++ sig.drop r := by
        rw [hb, hBt, List.append_assoc, List.take_append_drop]
      rw [ht] at hag ⊢
      obtain ⟨R', rfl⟩ := hag.split (by rw [hbl, h.len]; exact hcn)
      have hinv : ph.Inv msg Ms { c with buffer := B, buffer_offset := 0 } := h.inv.buffer hBl 0
      have hdl : (sig.drop r).length = sig.length - r := by simp
      have hdiv : (c.buffer_offset + sig.length) / S.n = (sig.length - r) / S.n + 1 := by
        rw [show c.buffer_offset + sig.length = (sig.length - r) + S.n by omega, Nat.add_div_right _ (by omega)]
      refine cost_bind (cost_verStep (dg := vdig S.P vals) U H R hm hmsg hinv h.reads) fun o k e hk => ?_
      rw [verStep_res] at e
      have hlenR := h.len
      rw [List.length_append, hbl] at hlenR
      rcases ver_step (mem := mem) (m := sig.length - r) hm hr hM hl hmsg rfl hinv with
        ⟨ph', c', e', h1, h2, h3, h4, h5, h6, h7⟩ | ⟨hc1, c', e', h1, h2, h3⟩
      · rw [e'] at e
        cases e
        dsimp only
        have hc : ph.cnt * S.n = ph'.cnt * S.n + S.n := by rw [h3, Nat.succ_mul]
        have hp : vpos ph' = vpos ph + 1 := by
          have p1 := vpos_cnt h.inv
          have p2 := vpos_cnt h2
          omega
        have hi' : ph' = .init → mem.Has msg Ms := by
          intro hh
          rw [hh] at hp
          unfold vpos at hp
          simp only at hp
          omega
        have hat : At root msg Ms vals ph' R' c' := by
          refine ⟨h2, by omega, h4, by omega, ?_⟩
          have hv := h.vals
          rw [blocks_cons S.n (by omega) _ _ hbl] at hv
          have h7' := h7 (blocks S.n R')
          rw [show ({ c with buffer := B, buffer_offset := 0 } : Ctx).buffer.take S.n = b from hb.symm, ← hv, List.drop_drop] at h7'
          rw [← h7']
          congr 1
          omega
        refine cost_mono (ih (sig.drop r) c' ph' R' hat hi' (by rw [h1, List.take_zero, List.nil_append]; exact hag.cancel)) fun rr k' _ ⟨hk', hcame⟩ => ?_
        rw [h1, Nat.zero_add, hdl] at hk'
        rw [h1, List.take_zero, List.nil_append] at hcame
        refine ⟨?_, ?_⟩
        · have hmin : min ((c.buffer_offset + sig.length) / S.n) ph.cnt = 1 + min ((sig.length - r) / S.n) ph'.cnt := by
            generalize (sig.length - r) / S.n = u at *
            omega
          rw [hmin, sumFrom_split, hk, hk', hp]
          rfl
        · rcases hcame with ⟨q1, ph2, p, R2, q, q2, q3, q4, q5, q6, q7⟩ | ⟨q1, q2⟩
          · refine Or.inl ⟨by rw [List.length_append]; omega, ph2, b ++ p, R2, q + 1, q2, by rw [q3, List.append_assoc], by rw [q4, List.append_assoc], ?_, by omega, by omega⟩
            rw [List.length_append, q5, hbl, Nat.succ_mul]; omega
          · exact Or.inr ⟨by rw [List.length_append]; omega, q2⟩
      · rw [e'] at e
        cases e
        dsimp only
        refine cost_ok ⟨?_, Or.inr ⟨by rw [List.length_append, hc1]; omega, ?_⟩⟩
        · rw [hc1, hdiv, Nat.min_eq_right (Nat.le_add_left _ _), hk]; rfl
        · rw [h3]; split
          · exact Or.inl rfl
          · exact Or.inr rfl

/-! ## Calls -/

/-- After the verdict no work is done. -/
theorem cost_ended (sig : Bytes) (h : Ended c) : Cost M (ts_update_verify E mem sig c) fun r k => k = 0 ∧ Ended r.2 := by
  unfold ts_update_verify
  refine cost_frame ?_
  refine cost_branch (fun _ => cost_ok ⟨rfl, h⟩) fun hb => ?_
  have hs : c.state = .verify_success := by
    rcases h with h | h
    · exact h
    · rw [h] at hb; exact absurd (Or.inr (by decide)) hb
  unfold verLoop
  dsimp only
  refine cost_bind0 (by idle) fun r _ => cost_bind0 (by idle) fun pc _ => cost_bind0 (by idle) fun B _ => ?_
  refine cost_branch (fun _ => cost_ok ⟨rfl, Or.inl hs⟩) fun _ => ?_
  have : verStep E mem (sig.length - r) { c with buffer := B, buffer_offset := 0 } =
      select St.verify_success.num (.ok (some 0, { c with buffer := B, buffer_offset := 0, state := .verify_fail })) := by
    unfold verStep
    simp only [hs]
  rw [this]
  refine cost_bind0 (by idle) fun o eo => ?_
  cases eo
  exact cost_ok ⟨rfl, Or.inr rfl⟩

theorem cost_updates_ended (ts : List Bytes) : ∀ {c : Ctx}, Ended c → Cost M (updateCalls E mem c ts) fun _ k => k = 0 := by
  induction ts with
  | nil => intro c _; exact cost_ok rfl
  | cons t ts ih =>
    intro c h
    unfold updateCalls
    refine cost_bind (cost_ended t h) fun r k _ ⟨hk, hr⟩ => ?_
    obtain ⟨v, c1⟩ := r
    refine cost_bind (ih hr) fun r2 k2 _ hk2 => ?_
    obtain ⟨rs, c2⟩ := r2
    exact cost_ok (by rw [hk, hk2])

/-- Calls of `ts_update_verify`. -/
theorem cost_updateCalls (U : ∀ o r c, c.ps = S.ps → Cost M (call_hash_msg S.E mem o MAX_MESSAGE_HASH r msg Ms.length c) fun _ k => k = hc) (H : Charges M S.E mem S.ps p at_) (R : Reads S at_)
    (hm : S.MemPub mem) (hr : S.MemRoot mem root) (hl : Ms.length < 2 ^ 60) (hmsg : S.cfg.Fits msg Ms.length) (hM : mem.Has msg Ms) (ts : List Bytes) :
    ∀ {c : Ctx} {ph : VPh S} {Rs : Bytes}, At root msg Ms vals ph Rs c → Agree (c.buffer.take c.buffer_offset ++ ts.flatten) Rs →
      Cost M (updateCalls S.E mem c ts) fun _ k =>
        k = sumFrom (Verify.block p hc S.P (vdig S.P vals)) (vpos ph) (min ((c.buffer_offset + ts.flatten.length) / S.n) ph.cnt) := by
  have hn16 := S.facts.n16
  have hmx := S.facts.nmax
  induction ts with
  | nil =>
    intro c ph Rs h _
    have hbo := h.bo
    exact cost_ok (by rw [List.flatten_nil, List.length_nil, Nat.add_zero, Nat.div_eq_of_lt hbo, Nat.zero_min]; rfl)
  | cons t ts ih =>
    intro c ph Rs h hag
    have hbo := h.bo
    have hbuf := h.inv.good.buf
    rw [List.flatten_cons, ← List.append_assoc] at hag
    unfold updateCalls
    have h1 : Cost M (ts_update_verify S.E mem t c) fun r k =>
        k = sumFrom (Verify.block p hc S.P (vdig S.P vals)) (vpos ph) (min ((c.buffer_offset + t.length) / S.n) ph.cnt) ∧
        Came root msg Ms vals ph Rs (c.buffer.take c.buffer_offset ++ t) r.2 := by
      unfold ts_update_verify
      refine cost_frame ?_
      refine cost_branch (fun hb => ?_) fun _ => cost_verLoop U H R hm hr hl hmsg _ t c ph Rs h (fun _ => hM) hag.left
      have := h.inv.st
      have h5 : St.verify_success.num < St.verify_fail.num := by decide
      omega
    refine cost_bind h1 fun r k _ ⟨hk, hcame⟩ => ?_
    obtain ⟨v, c1⟩ := r
    dsimp only at hcame ⊢
    have htl : (c.buffer.take c.buffer_offset ++ t).length = c.buffer_offset + t.length := by
      rw [List.length_append, List.length_take]; omega
    rw [List.flatten_cons, List.length_append]
    unfold Came at hcame
    rw [htl] at hcame
    rcases hcame with ⟨q1, ph2, p, R2, q, q2, q3, q4, q5, q6, q7⟩ | ⟨q1, q2⟩
    · rw [q3, q4, List.append_assoc] at hag
      refine cost_bind (ih q2 hag.cancel) fun r2 k2 _ hk2 => ?_
      obtain ⟨rs, c2⟩ := r2
      refine cost_ok ?_
      have hb2 := q2.bo
      have hbuf2 := q2.inv.good.buf
      have hl3 := congrArg List.length q3
      rw [htl, List.length_append, q5, List.length_take] at hl3
      have e1 : (c.buffer_offset + t.length) / S.n = q := by
        rw [hl3, Nat.min_eq_left (by omega), Nat.mul_comm, Nat.mul_add_div (by omega), Nat.div_eq_of_lt hb2, Nat.add_zero]
      have e2 : (c.buffer_offset + (t.length + ts.flatten.length)) / S.n = q + (c1.buffer_offset + ts.flatten.length) / S.n := by
        rw [show c.buffer_offset + (t.length + ts.flatten.length) = S.n * q + (c1.buffer_offset + ts.flatten.length) by rw [Nat.mul_comm]; omega,
          Nat.mul_add_div (by omega)]
      rw [hk, hk2, e1, e2, q7, Nat.min_eq_left (by omega), Nat.add_zero, ← sumFrom_split]
      congr 1
      generalize (c1.buffer_offset + ts.flatten.length) / S.n = u
      omega
    · refine cost_bind (cost_updates_ended ts q2) fun r2 k2 _ hk2 => ?_
      obtain ⟨rs, c2⟩ := r2
      refine cost_ok ?_
      have e1 : ph.cnt ≤ (c.buffer_offset + t.length) / S.n := by rwa [Nat.le_div_iff_mul_le (by omega)]
      have e2 : ph.cnt ≤ (c.buffer_offset + (t.length + ts.flatten.length)) / S.n := by rw [Nat.le_div_iff_mul_le (by omega)]; omega
      rw [hk, hk2, Nat.min_eq_right e1, Nat.min_eq_right e2]; rfl

theorem cost_ts_init_verify {m l pre : Nat} {ps : ParamSet} {pk : Nat} (hpre : ∀ c, c.ps = ps → Cost M (call_prehash E mem c) fun _ k => k = pre) :
    Cost M (ts_init_verify E mem c m l ps pk) fun _ k => k = pre := by
  unfold ts_init_verify
  refine cost_frame ?_
  refine cost_bind0 (by idle) fun x _ => cost_bind0 (by idle) fun x _ => ?_
  exact hpre _ rfl

/-- A verification: every block that is complete is worked on, none beyond the end of the signature. -/
theorem cost_verifyRun (J : VerifyJob) (ts : List Bytes) (sig : Bytes) (hlen : sig.length = J.size) (hag : Agree ts.flatten sig) {pre pm : Nat}
    (U : Setup M J.E J.mem (ps J.E.cfg J.x) J.msg J.M.length pre pm hc) (H : Charges M J.E J.mem (ps J.E.cfg J.x) p at_)
    (R : ∀ S : Sess, S.E = J.E → S.name = J.x → Reads S at_) :
    M.total (verifyRun J ts).log =
      pre + Verify.upTo p hc J.x.P (Spec.Cost.digits J.x.P J.x.fns J.pk J.M sig) (min (ts.flatten.length / J.x.P.n) J.x.P.sigBlocks) := by
  obtain ⟨c, e0, r⟩ := J.start
  obtain ⟨rs, c', f', e1, -⟩ := updateCalls_ok J.hasKey ts (fun _ => J.hasMsg) r
  have hres : (verifyRun J ts).res = .ok (rs, c') := by
    unfold verifyRun
    rw [res_bind, ts_init_verify_res, show Model.ts_init_verify J.E J.mem J.c0 J.msg J.M.length (ps J.E.cfg J.x) J.pub = _ from e0, ok_bind, updateCalls_res, e1]
  refine (?_ : Cost M (verifyRun J ts) fun _ k => k = _) _ hres
  unfold verifyRun
  refine cost_bind (cost_ts_init_verify U.prehash) fun c1 k ec hk => ?_
  rw [ts_init_verify_res, show Model.ts_init_verify J.E J.mem J.c0 J.msg J.M.length (ps J.E.cfg J.x) J.pub = _ from e0] at ec
  cases ec
  obtain ⟨E, x, sup, mem, pub, pk, msg, Ms, c0, shape, pkLen, hasKey, hasMsg, msgLen, msgPtr⟩ := J
  dsimp only at *
  cases r with
  | verifying S h1 h2 h3 h4 h5 h6 h7 h8 h9 =>
    subst h1; subst h2; subst h3
    have hn16 := S.facts.n16
    have hsz : sig.length = S.P.sigBlocks * S.n := hlen
    have hpos : 16 ≤ S.P.sigBytes := by
      have : S.n ≤ S.P.sigBlocks * S.n := Nat.le_mul_of_pos_left _ (by rw [sigBlocks_tot]; omega)
      show 16 ≤ S.P.sigBlocks * S.n
      omega
    cases h8 with
    | acc g hs hw => rw [List.length_nil] at hw; omega
    | run ph bs inv hbo hc hbs hw hcnt _ =>
      have hbs0 : bs = [] := by
        cases bs with
        | nil => rfl
        | cons b bs =>
          have := hbs b List.mem_cons_self
          have := congrArg List.length hw
          rw [List.flatten_cons, List.length_nil, List.length_append, List.length_append] at this
          omega
      subst hbs0
      have hv0 : vpos ph = 0 := by
        have := vpos_cnt inv
        rw [List.length_nil] at hcnt
        omega
      have hph : ph = .init := by
        cases ph with
        | init => rfl
        | _ => unfold vpos at hv0; simp only at hv0; omega
      subst hph
      have hb0 : c.buffer.take c.buffer_offset = [] := by
        rw [List.flatten_nil, List.nil_append] at hw; exact hw.symm
      have hb0' : c.buffer_offset = 0 := by
        have := congrArg List.length hb0
        have hb := inv.good.buf
        have hmx := S.facts.nmax
        rw [List.length_take, List.length_nil] at this
        omega
      obtain ⟨l1, l2, m1, m2⟩ := pk_mem (n := S.n) pkLen hasKey
      refine cost_mono (cost_updateCalls (S := S) (vals := signedValues S.P S.hf pk Ms sig) (root := (pk.drop S.n).take S.n) (Rs := sig) (ph := .init)
        U.hashMsg H (R _ rfl rfl) (by unfold Sess.MemPub; rw [h7]; exact m1) ⟨l2, m2⟩ h5 h6 hasMsg ts
        ⟨inv, hbo, hc, hsz, ?_⟩ (by rw [hb0]; exact hag)) fun _ k' _ hk' => ?_
      · unfold signedValues
        dsimp only
        rw [show pk.take S.P.n = S.pkSeed from h7.symm]
        rfl
      · rw [hk, hk', hb0', Nat.zero_add]
        unfold Verify.upTo
        rw [sum_sumFrom]
        rfl

end Leak.Work
