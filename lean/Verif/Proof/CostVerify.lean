import Verif.Proof.CostTotal
import Verif.Proof.LeakVerifyErase
import Verif.Spec.CostVerify
/-!
# The cost of verification
-/
namespace Leak
open Model Spec Spec.Cost Spec.Slh

variable {f : Fn} {E : Env} {mem : Mem} {c : Ctx} {S : Sess} {msg : Nat} {M root : Bytes}

/-- The number of the block the verifier waits for. -/
def vpos : VPh S → Nat
  | .init => 0
  | .forsLeaf _ τ _ => τ * (S.P.a + 1) + 1
  | .fors _ τ l _ _ => τ * (S.P.a + 1) + (l + 1) + 1
  | .wots _ j i _ _ => S.P.k * (S.P.a + 1) + (j * (S.P.len + S.P.hp) + i) + 1
  | .merkle _ j l _ => S.P.k * (S.P.a + 1) + (j * (S.P.len + S.P.hp) + (S.P.len + l)) + 1

theorem vpos_cnt {ph : VPh S} (h : ph.Inv msg M c) : vpos ph + ph.cnt = S.P.sigBlocks := by
  rw [sigBlocks_tot]
  unfold tot
  cases ph with
  | init => show 0 + S.P.sigBlocks = _; rw [sigBlocks_tot]; unfold tot; omega
  | forsLeaf D τ roots =>
    obtain ⟨-, hτ, -⟩ := h
    show τ * (S.P.a + 1) + 1 + ((S.P.k - τ) * (S.P.a + 1) + S.P.d * (S.P.len + S.P.hp)) = _
    have : τ * (S.P.a + 1) + (S.P.k - τ) * (S.P.a + 1) = S.P.k * (S.P.a + 1) := by rw [← Nat.add_mul]; congr 1; omega
    omega
  | fors D τ l roots v =>
    obtain ⟨-, hτ, hl, -⟩ := h
    show τ * (S.P.a + 1) + (l + 1) + 1 + ((S.P.a - l) + ((S.P.k - (τ + 1)) * (S.P.a + 1) + S.P.d * (S.P.len + S.P.hp))) = _
    have : (τ + 1) * (S.P.a + 1) + (S.P.k - (τ + 1)) * (S.P.a + 1) = S.P.k * (S.P.a + 1) := by rw [← Nat.add_mul]; congr 1; omega
    rw [Nat.succ_mul] at this
    omega
  | wots D j i M' a =>
    obtain ⟨-, hj, hi, -⟩ := h
    show S.P.k * (S.P.a + 1) + (j * (S.P.len + S.P.hp) + i) + 1 + ((S.P.len - i) + (S.P.hp + (S.P.d - (j + 1)) * (S.P.len + S.P.hp))) = _
    have : (j + 1) * (S.P.len + S.P.hp) + (S.P.d - (j + 1)) * (S.P.len + S.P.hp) = S.P.d * (S.P.len + S.P.hp) := by rw [← Nat.add_mul]; congr 1; omega
    rw [Nat.succ_mul] at this
    omega
  | merkle D j l v =>
    obtain ⟨-, hj, hl, -⟩ := h
    show S.P.k * (S.P.a + 1) + (j * (S.P.len + S.P.hp) + (S.P.len + l)) + 1 + ((S.P.hp - l) + (S.P.d - (j + 1)) * (S.P.len + S.P.hp)) = _
    have : (j + 1) * (S.P.len + S.P.hp) + (S.P.d - (j + 1)) * (S.P.len + S.P.hp) = S.P.d * (S.P.len + S.P.hp) := by rw [← Nat.add_mul]; congr 1; omega
    rw [Nat.succ_mul] at this
    omega

theorem vblock_fors {τ r : Nat} (dg : Nat → Nat → Nat) (hτ : τ < S.P.k) (hr : r ≤ S.P.a) :
    Verify.block S.P dg (τ * (S.P.a + 1) + r + 1) = if r = 0 then Verify.forsSecret else Verify.forsAuth S.P τ (r - 1) := by
  obtain ⟨h1, h2⟩ := div_block τ (S.P.a + 1) 0 r (by omega)
  have : (τ + 1) * (S.P.a + 1) ≤ S.P.k * (S.P.a + 1) := Nat.mul_le_mul_right _ hτ
  rw [Nat.succ_mul] at this
  rw [Verify.block, if_pos (show τ * (S.P.a + 1) + r < S.P.k * (S.P.a + 1) by omega), h1, h2]

theorem vblock_ht {j r : Nat} (dg : Nat → Nat → Nat) (hr : r < S.P.len + S.P.hp) :
    Verify.block S.P dg (S.P.k * (S.P.a + 1) + (j * (S.P.len + S.P.hp) + r) + 1) = if r < S.P.len then Verify.wots S.P (dg j r) r else Verify.merkle S.P j (r - S.P.len) := by
  obtain ⟨h1, h2⟩ := div_block j (S.P.len + S.P.hp) 0 r hr
  rw [Verify.block, if_neg (show ¬ S.P.k * (S.P.a + 1) + (j * (S.P.len + S.P.hp) + r) < S.P.k * (S.P.a + 1) by omega)]
  dsimp only
  rw [Nat.add_sub_cancel_left, h1, h2]

/-! ## The steps -/

@[fr] theorem free_my_memcmp (mem : Mem) (a : Nat) (b : Bytes) (off n : Nat) : Free (my_memcmp mem a b off n) := by
  induction n generalizing a off with
  | zero => unfold my_memcmp; free
  | succ n ih =>
    unfold my_memcmp
    refine free_bind (by free) fun _ => free_bind (by free) fun _ => free_bind (by free) fun _ => free_branch (by free) (ih _ _)

theorem cost_verInit : Cost f (verInit E mem c) fun _ k => k = Verify.first f := by
  unfold verInit
  refine cost_bind0 (by free) fun m _ => cost_bind0 (by free) fun l _ => cost_bind0 (by free) fun st _ => ?_
  refine cost_bind (P := fun _ k => k = one .hash_msg f) (by unfold call_hash_msg; exact cost_calling (by free)) fun r4 k4 _ h4 => ?_
  obtain ⟨mh, c4⟩ := r4
  dsimp only
  refine cost_bind0 (by free) fun x _ => cost_bind0 (by free) fun r5 _ => ?_
  obtain ⟨c5, st'⟩ := r5
  dsimp only
  refine cost_bind0 (by free) fun x' _ => cost_bind0 (by free) fun c6 _ => cost_bind (cost_init_t _) fun t k7 _ h7 => cost_ok ?_
  rw [h4, h7]; rfl

theorem cost_verForsLeaf : Cost f (verForsLeaf E mem c) fun _ k => k = Verify.forsSecret f := by
  unfold verForsLeaf
  refine cost_bind0 (by free) fun n _ => cost_bind0 (by free) fun c1 _ => ?_
  refine cost_bind (cost_f (v := fixed c1) _ _ rfl) fun r k _ hk => ?_
  obtain ⟨a, c2⟩ := r
  exact cost_ok (by rw [hk.1]; rfl)

theorem cost_next_auth_path {ty : Nat} {ps : ParamSet} {l ft : Nat} (h : fixed c = (ps, l, ft)) (hl : l < 255) :
    Cost f (next_auth_path E mem c ty) fun c' k => k = node f ∧ fixed c' = (ps, l + 1, ft) := by
  have h1 : c.ps = ps := congrArg (fun v => v.1) h
  have h2 : c.merkle_level = l := congrArg (fun v => v.2.1) h
  have h3 : c.fors_tree = ft := congrArg (fun v => v.2.2) h
  unfold next_auth_path
  refine cost_frame ?_
  dsimp only
  refine cost_bind0 (by free) fun s _ => ?_
  refine cost_bind0 (by free) fun c1 e1 => ?_
  have k1 := keep_merkle (v := (ps, l + 1, ft)) _ _ _ (by unfold fixed; dsimp only; rw [h1, h2, h3, Nat.mod_eq_of_lt (by omega)]) _ e1
  refine cost_bind (P := fun r k => k = node f ∧ fixed r.2 = (ps, l + 1, ft)) (cost_branch (fun _ => cost_combine _ _ _ k1) fun _ => cost_combine _ _ _ k1) fun r k _ hk => ?_
  obtain ⟨a, c2⟩ := r
  exact cost_ok ⟨by rw [hk.1]; rfl, hk.2⟩

theorem cost_set_up {l : Nat} : Cost f (set_up_wots_verify_signature E mem c l) fun _ k => k = one .init_t f := by
  unfold set_up_wots_verify_signature
  refine cost_frame ?_
  refine cost_bind0 (by free) fun c1 _ => cost_bind0 (by free) fun c2 _ => cost_bind (cost_init_t _) fun t k _ hk => cost_ok (by rw [hk]; rfl)

theorem cost_verFors {D : SignData S} {τ l : Nat} {roots v : Bytes} (h : (VPh.fors D τ l roots v).Inv msg M c) :
    Cost f (verFors E mem c) fun _ k => k = Verify.forsAuth S.P τ l f := by
  have F := S.facts
  obtain ⟨g, hτ, hl, hst, hloc, -, -, -, hml, -⟩ := h
  have := F.tle
  have := F.kle
  have hf : fixed c = (S.ps, l, τ) := by unfold fixed; rw [g.ps, hml, show c.fors_tree = τ from congrArg Loc.ft hloc]
  unfold verFors
  refine cost_bind (cost_next_auth_path hf (by omega)) fun c1 k1 _ ⟨hk1, h1⟩ => ?_
  have h11 : c1.merkle_level = l + 1 := congrArg (fun v => v.2.1) h1
  have h12 : c1.ps = S.ps := congrArg (fun v => v.1) h1
  have h13 : c1.fors_tree = τ := congrArg (fun v => v.2.2) h1
  unfold Verify.forsAuth
  refine cost_branch (fun hb => ?_) fun hb => cost_ok ?_
  · rw [h11, h12, F.pt] at hb
    rw [if_pos hb]
    refine cost_bind (cost_next_t _ _) fun t k2 _ hk2 => ?_
    dsimp only
    refine cost_branch (fun hb => ?_) fun hb => cost_ok ?_
    · rw [h13, h12, F.pk, Nat.mod_eq_of_lt (by omega)] at hb
      rw [if_pos hb]
      refine cost_bind (cost_final_t _ _) ?_
      rintro ⟨a, t⟩ k3 - hk3
      exact cost_mono cost_set_up fun _ k4 _ hk4 => by rw [hk1, hk2, hk3, hk4]
    · rw [h13, h12, F.pk, Nat.mod_eq_of_lt (by omega)] at hb
      rw [if_neg hb, hk1, hk2]
  · rw [h11, h12, F.pt] at hb
    rw [if_neg hb, hk1]

theorem cost_verWots {D : SignData S} {j i : Nat} {M' a : Bytes} (hm : S.MemPub mem) (h : (VPh.wots D j i M' a).Inv msg M c) :
    Cost f (verWots S.E mem c) fun _ k => k = Verify.wots S.P ((wotsDigits S.P M').getD i 0) i f := by
  have F := S.facts
  obtain ⟨g, hj, hi, hst, hloc, hml, han, hw, -, -⟩ := h
  have h67 := len_le67 (S := S)
  have hx := x_ge_digits c g.toShape
  have hd := digits_le (S := S)
  have hiv : (c.x.getD 0 0).toNat = i := by rw [hw.1, UInt8.toNat_ofNat']; omega
  have hw1 := hw.next (by omega)
  have hlen : S.P.len = 2 * S.n + 3 := rfl
  have hpn := F.pn
  unfold verWots Config.wotsDigitOff
  refine cost_bind0 (by free) fun d ed => ?_
  rw [res_rd, rd_getD 0 (by omega)] at ed
  cases ed
  refine cost_bind0 (by free) fun x ex => ?_
  rw [res_wr, wr_ok _ (by omega)] at ex
  cases ex
  dsimp only
  rw [hiv]
  refine cost_bind0 (by free) fun st est => ?_
  rw [getWotsDigit_res] at est
  have hst' : st = (wotsDigits S.P M').getD i 0 := by
    unfold Model.getWotsDigit Config.wotsDigitsOff at est
    rw [if_pos (show i < S.E.cfg.MAX_WOTS_DIGITS by have : S.E.cfg = S.cfg := rfl; rw [this]; omega), rd_getD 0 (by dsimp only; rw [List.length_set]; omega), ok_bind, hw1.2 i hi] at est
    cases est; rfl
  subst hst'
  let c1 : Ctx := { c with x := c.x.set 0 (c.x.getD 0 0 + 1) }
  have g1 : Good S c1 := ⟨⟨g.adr, g.buf, g.auth, by show (c.x.set 0 _).length = _; rw [List.length_set, g.x], g.si, g.bi⟩, g.ps, g.pk, g.pre⟩
  have hl1 : c1.loc = Loc.ht j (D.treeAt j) := hloc
  obtain ⟨c2, e2, s2⟩ := chain_loop (S := S) (mem := mem) (ctx := c1) (j := j) (tree := D.treeAt j) (kp := D.leafAt j) (c := i)
    (buf := c.buffer) g1 hm (by rw [loc_hl hl1]; rfl) (by rw [loc_ta hl1]; rfl) ((wotsDigits S.P M').getD i 0) (15 - (wotsDigits S.P M').getD i 0)
    (fun i_1 (s : Bytes × Ctx) => do
      let (b, ctx) := s
      let ctx ← Model.ts_set_wots_f_adr S.E ctx ctx.auth_path_node i i_1
      Model.call_f S.E mem b b ctx)
    (by
      intro q b c' hsc
      simp only
      rw [hsc.keep.an, show c1.auth_path_node = D.leafAt j from han]) (by rw [g.buf]; exact F.nmax)
  refine cost_bind (P := fun r k => k = (15 - (wotsDigits S.P M').getD i 0) * one .f f) ?_ fun r k e hk => ?_
  · refine cost_mono (cost_loop (I := fun _ s => True) (c := fun _ => one .f f) ?_ trivial) fun a k _ hk => by rw [hk.1, sumFrom_const]
    rintro q ⟨b, c2⟩ - - -
    exact cost_bind0 (by free) fun c3 _ => cost_mono (cost_f b b rfl) fun _ _ _ h => ⟨h.1, trivial⟩
  simp only [lk] at e
  rw [show Model.loop _ _ _ (c.buffer, c1) = _ from e2] at e
  cases e
  dsimp only
  have hx2 := s2.xx
  have hp2 := (s2.good g1).ps
  refine cost_bind (cost_next_t _ _) fun t k3 _ hk3 => cost_bind0 (by free) fun d ed => ?_
  rw [res_rd, rd_getD 0 (by rw [hx2]; show 0 < (c.x.set 0 _).length; rw [List.length_set]; omega), hx2] at ed
  cases ed
  have hdv : (c1.x.getD 0 0).toNat = i + 1 := by rw [hw1.1, UInt8.toNat_ofNat']; omega
  rw [hdv, hp2, hpn]
  unfold Verify.wots
  refine cost_branch (fun hb => cost_ok ?_) fun hb => ?_
  · rw [if_neg (by rw [hlen]; exact hb), hk, hk3]; omega
  · rw [if_pos (by rw [hlen]; omega)]
    refine cost_bind (cost_final_t _ _) ?_
    rintro ⟨a, t⟩ k4 - hk4
    exact cost_ok (by rw [hk, hk3, hk4]; omega)

theorem cost_verMerkle {D : SignData S} {j l m : Nat} {v : Bytes} (hm : S.MemPub mem) (h : (VPh.merkle D j l v).Inv msg M c) :
    Cost f (verMerkle S.E mem m c) fun _ k => k = Verify.merkle S.P j l f := by
  have F := S.facts
  obtain ⟨g, hj, hl, hst, hloc, han, hml, -⟩ := h
  have := F.hle
  have := F.dle
  unfold verMerkle
  refine cost_bind (cost_next_auth_path (ps := S.ps) (l := l) (ft := c.fors_tree) (by unfold fixed; rw [g.ps, hml]) (by omega)) fun c1 k1 e1 ⟨hk1, h1⟩ => ?_
  have h11 : c1.merkle_level = l + 1 := congrArg (fun v => v.2.1) h1
  have h12 : c1.ps = S.ps := congrArg (fun v => v.1) h1
  have h9 : (2 : Nat) ^ S.P.hp ≤ 2 ^ 9 := Nat.pow_le_pow_right (by omega) F.hle
  have hlf := D.leafAt_lt j
  obtain ⟨c1', e1', g1, p1, p2, p3, -⟩ := next_auth_path_ok (mem := mem) (ty := ADR_TYPE_HASHTREE)
    (L := Loc.ht j (D.treeAt j)) (h := l) (an := D.leafAt j) (base := 0) hm g hloc (by simp [Loc.ht]) (by have := F.kge; show 0 < S.P.k; omega)
    hml (by omega) han (by omega)
  rw [next_auth_path_res, e1'] at e1
  cases e1
  have hloc1 : c1.loc = Loc.ht j (D.treeAt j) := p3.trans hloc
  have hhl : (c1.hypertree_level + 1) % 256 = j + 1 := by
    rw [loc_hl hloc1]; simp only [Loc.ht]; omega
  unfold Verify.merkle
  refine cost_branch (fun hb => cost_ok ?_) fun hb => ?_
  · rw [h11, h12, F.phm] at hb
    rw [if_neg (fun h => hb h.1), hk1]
  · rw [h11, h12, F.phm] at hb
    dsimp only
    rw [hhl, h12, F.pd, F.phm]
    refine cost_branch (fun hb2 => ?_) fun hb2 => ?_
    · rw [if_pos ⟨by omega, hb2⟩]
      refine cost_bind0 (by free) fun msk _ => cost_bind cost_set_up fun c3 k3 _ hk3 => cost_ok (by rw [hk1, hk3]; rfl)
    · rw [if_neg (fun h => hb2 h.2)]
      refine cost_mono (cost_free (by free)) fun _ k2 _ hk2 => by rw [hk1, hk2]

/-- The layer and the value whose digits a WOTS+ phase reads. -/
def Reads (dg : Nat → Nat → Nat) : VPh S → Prop
  | .wots _ j _ M' _ => ∀ q, dg j q = (wotsDigits S.P M').getD q 0
  | _ => True

/-- A step costs what the specification says of the block it reads. -/
theorem cost_verStep {ph : VPh S} {dg : Nat → Nat → Nat} {m : Nat} (hm : S.MemPub mem) (h : ph.Inv msg M c) (hd : Reads dg ph) :
    Cost f (verStep S.E mem m c) fun _ k => k = Verify.block S.P dg (vpos ph) f := by
  have lift : ∀ {x : L Ctx} {b : Nat}, Cost f x (fun _ k => k = b) → Verify.block S.P dg (vpos ph) f = b →
      Cost f (do .ok (none, ← x)) fun (_ : Option Nat × Ctx) k => k = Verify.block S.P dg (vpos ph) f := by
    intro x b hx hb
    exact cost_bind hx fun a k _ hk => cost_ok (by rw [hb, hk, Nat.add_zero])
  have h67 := len_le67 (S := S)
  unfold verStep
  refine cost_select ?_
  cases ph with
  | init =>
    rw [h.2.1]
    exact lift cost_verInit rfl
  | forsLeaf D τ roots =>
    have hτ := h.2.1
    rw [h.2.2.1]
    exact lift cost_verForsLeaf (by
      show Verify.block S.P dg (τ * (S.P.a + 1) + 0 + 1) f = _
      rw [vblock_fors _ hτ (Nat.zero_le _), if_pos rfl])
  | fors D τ l roots v =>
    have hτ := h.2.1
    have hl := h.2.2.1
    rw [h.2.2.2.1]
    exact lift (cost_verFors h) (by
      show Verify.block S.P dg (τ * (S.P.a + 1) + (l + 1) + 1) f = _
      rw [vblock_fors _ hτ hl, if_neg (by omega)]; rfl)
  | wots D j i M' a =>
    have hi := h.2.2.1
    rw [h.2.2.2.1]
    exact lift (cost_verWots hm h) (by
      show Verify.block S.P dg (S.P.k * (S.P.a + 1) + (j * (S.P.len + S.P.hp) + i) + 1) f = _
      rw [vblock_ht _ (by omega), if_pos hi, hd i])
  | merkle D j l v =>
    have hl := h.2.2.1
    rw [h.2.2.2.1]
    refine cost_mono (cost_verMerkle hm h) fun _ k _ hk => ?_
    rw [hk]
    show _ = Verify.block S.P dg (S.P.k * (S.P.a + 1) + (j * (S.P.len + S.P.hp) + (S.P.len + l)) + 1) f
    rw [vblock_ht _ (by omega), if_neg (by omega), Nat.add_sub_cancel_left]

/-! ## The loop -/

/-- One is the beginning of the other. -/
def Agree (w R : Bytes) : Prop := w <+: R ∨ R <+: w

theorem Agree.left {a b R : Bytes} (h : Agree (a ++ b) R) : Agree a R := by
  rcases h with h | h
  · exact Or.inl ((List.prefix_append _ _).trans h)
  · exact List.prefix_or_prefix_of_prefix (List.prefix_append _ _) h

theorem Agree.cancel {p a R : Bytes} (h : Agree (p ++ a) (p ++ R)) : Agree a R :=
  h.imp (List.prefix_append_right_inj p).1 (List.prefix_append_right_inj p).1

/-- A beginning that is not longer. -/
theorem Agree.split {b w R : Bytes} (h : Agree (b ++ w) R) (hl : b.length ≤ R.length) : ∃ R', R = b ++ R' := by
  rcases h.left with h | h
  · obtain ⟨t, ht⟩ := h; exact ⟨t, ht.symm⟩
  · have : R = b := h.eq_of_length_le hl
    exact ⟨[], by rw [this, List.append_nil]⟩

/-- The verifier waits for the rest `R` of a signature whose signed values are `vals`. -/
structure At (root : Bytes) (msg : Nat) (M : Bytes) (vals : List Bytes) (ph : VPh S) (R : Bytes) (c : Ctx) : Prop where
  inv : ph.Inv msg M c
  bo : c.buffer_offset < S.n
  cnt : 0 < ph.cnt
  len : R.length = ph.cnt * S.n
  vals : vals.drop ph.layer = ph.lay root M (blocks S.n R)

/-- The digits of the signed values. -/
def vdig (P : Params) (vals : List Bytes) (j q : Nat) : Nat := (wotsDigits P (vals.getD j [])).getD q 0

variable {vals : List Bytes}

theorem At.reads {ph : VPh S} {R : Bytes} (h : At root msg M vals ph R c) : Reads (vdig S.P vals) ph := by
  have hv := h.vals
  cases ph with
  | wots D j i M' a =>
    intro q
    unfold vdig
    have : vals.drop j = M' :: _ := hv
    have hj : vals.getD j [] = M' := by
      have := congrArg (fun l => l.getD 0 []) this
      simpa [List.getD_eq_getElem?_getD] using this
    rw [hj]
  | _ => trivial

/-- Where a call of `ts_update_verify` has come that got the bytes `w`, including those in the buffer. -/
def Came (root : Bytes) (msg : Nat) (M : Bytes) (vals : List Bytes) (ph : VPh S) (R w : Bytes) (c' : Ctx) : Prop :=
  (w.length < ph.cnt * S.n ∧ ∃ (ph' : VPh S) (p R' : Bytes) (q : Nat), At root msg M vals ph' R' c' ∧ w = p ++ c'.buffer.take c'.buffer_offset ∧ R = p ++ R' ∧
    p.length = q * S.n ∧ ph.cnt = ph'.cnt + q ∧ vpos ph' = vpos ph + q) ∨
  (ph.cnt * S.n ≤ w.length ∧ (c'.state = .verify_success ∨ c'.state = .verify_fail))

theorem cost_verLoop (hm : S.MemPub mem) (hr : S.MemRoot mem root) (hl : M.length < 2 ^ 60) (hmsg : S.cfg.Fits msg M.length) :
    ∀ (fuel : Nat) (sig : Bytes) (c : Ctx) (ph : VPh S) (R : Bytes), At root msg M vals ph R c → (ph = .init → mem.Has msg M) →
      Agree (c.buffer.take c.buffer_offset ++ sig) R →
      Cost f (verLoop S.E mem fuel sig c) fun r k =>
        k = sumFrom (fun i => Verify.block S.P (vdig S.P vals) i f) (vpos ph) (min ((c.buffer_offset + sig.length) / S.n) ph.cnt) ∧
        Came root msg M vals ph R (c.buffer.take c.buffer_offset ++ sig) r.2 := by
  intro fuel
  induction fuel with
  | zero => intro sig c ph R _ _ _ a e; cases e
  | succ fuel ih =>
    intro sig c ph R h hM hag
    have g := h.inv.good
    have F := S.facts
    have hmx := F.nmax
    have h32 := F.max32
    have hn16 := F.n16
    have hbuf := g.buf
    have hbo := h.bo
    have hcnt := h.cnt
    have hcn : S.n ≤ ph.cnt * S.n := Nat.le_mul_of_pos_left _ hcnt
    have htl : (c.buffer.take c.buffer_offset ++ sig).length = c.buffer_offset + sig.length := by
      rw [List.length_append, List.length_take]; omega
    unfold verLoop
    dsimp only
    have hrem : usub c.ps.n c.buffer_offset = S.n - c.buffer_offset := by rw [ctx_n g]; unfold usub; omega
    rw [hrem]
    refine cost_bind0 (by free) fun r er => ?_
    have hr' : r = (if S.n - c.buffer_offset > sig.length then sig.length else S.n - c.buffer_offset) := by
      unfold branch at er
      split at er
      · rw [res_ok] at er; cases er; rw [if_pos (by assumption)]
      · rw [res_ok] at er; cases er; rw [if_neg (by assumption)]
    have hr1 : r ≤ sig.length := by rw [hr']; split <;> omega
    have hr2 : c.buffer_offset + r ≤ S.n := by rw [hr']; split <;> omega
    refine cost_bind0 (by free) fun pc epc => ?_
    rw [res_rdSlice, rdSlice_ok (by omega), List.drop_zero] at epc
    cases epc
    have hsl : (sig.take r).length = r := by simp; omega
    refine cost_bind0 (by free) fun B eB => ?_
    rw [res_wrSlice, wrSlice_ok (by omega)] at eB
    have hB : B = c.buffer.take c.buffer_offset ++ sig.take r ++ c.buffer.drop (c.buffer_offset + (sig.take r).length) := by cases eB; rfl
    have hBl : B.length = S.cfg.MAX_HASH := by rw [hB, ← hbuf]; exact length_splice _ _ _ (by omega)
    have hpl : (c.buffer.take c.buffer_offset ++ sig.take r).length = c.buffer_offset + r := by
      rw [List.length_append, List.length_take, hsl]; omega
    have hBt : B.take (c.buffer_offset + r) = c.buffer.take c.buffer_offset ++ sig.take r := by rw [hB]; exact take_left' hpl
    rw [show c.ps.n = S.n from ctx_n g]
    refine cost_branch (fun hfull => cost_ok ?_) fun hfull => ?_
    · have hrs : r = sig.length := by split at hr' <;> omega
      refine ⟨?_, Or.inl ⟨by omega, ph, [], R, 0, ⟨h.inv.buffer hBl _, ?_, hcnt, h.len, h.vals⟩, ?_, rfl, by simp, by omega, by omega⟩⟩
      · rw [Nat.div_eq_of_lt (by omega), Nat.zero_min]; rfl
      · show (c.buffer_offset + r) % 256 < S.n
        omega
      · show _ = [] ++ B.take ((c.buffer_offset + r) % 256)
        rw [Nat.mod_eq_of_lt (by omega), hBt, hrs, List.take_of_length_le (Nat.le_refl _)]; rfl
    · have hre : c.buffer_offset + r = S.n := by omega
      rw [hre] at hBt hpl
      obtain ⟨b, hb⟩ : ∃ b, b = B.take S.n := ⟨_, rfl⟩
      have hbl : b.length = S.n := by rw [hb, List.length_take]; omega
      have ht : c.buffer.take c.buffer_offset ++ sig = b ++ sig.drop r := by
        rw [hb, hBt, List.append_assoc, List.take_append_drop]
      rw [ht] at hag ⊢
      obtain ⟨R', rfl⟩ := hag.split (by rw [hbl, h.len]; exact hcn)
      have hinv : ph.Inv msg M { c with buffer := B, buffer_offset := 0 } := h.inv.buffer hBl 0
      have hdl : (sig.drop r).length = sig.length - r := by simp
      have hdiv : (c.buffer_offset + sig.length) / S.n = (sig.length - r) / S.n + 1 := by
        rw [show c.buffer_offset + sig.length = (sig.length - r) + S.n by omega, Nat.add_div_right _ (by omega)]
      refine cost_bind (cost_verStep (dg := vdig S.P vals) hm hinv h.reads) fun o k e hk => ?_
      rw [verStep_res] at e
      have hlenR := h.len
      rw [List.length_append, hbl] at hlenR
      rcases ver_step (mem := mem) (m := sig.length - r) hm hr hM hl hmsg rfl hinv with
        ⟨ph', c', e', h1, h2, h3, h4, h5, h6, h7⟩ | ⟨hc1, c', e', h1, h2, h3⟩
      · rw [e'] at e
        cases e
        dsimp only
        have hc : ph.cnt * S.n = ph'.cnt * S.n + S.n := by rw [h3, Nat.succ_mul]
        have hp : vpos ph' = vpos ph + 1 := by
          have p1 := vpos_cnt h.inv
          have p2 := vpos_cnt h2
          omega
        have hi' : ph' = .init → mem.Has msg M := by
          intro hh
          rw [hh] at hp
          unfold vpos at hp
          simp only at hp
          omega
        have hat : At root msg M vals ph' R' c' := by
          refine ⟨h2, by omega, h4, by omega, ?_⟩
          have hv := h.vals
          rw [blocks_cons S.n (by omega) _ _ hbl] at hv
          have h7' := h7 (blocks S.n R')
          rw [show ({ c with buffer := B, buffer_offset := 0 } : Ctx).buffer.take S.n = b from hb.symm, ← hv, List.drop_drop] at h7'
          rw [← h7']
          congr 1
          omega
        refine cost_mono (ih (sig.drop r) c' ph' R' hat hi' (by rw [h1, List.take_zero, List.nil_append]; exact hag.cancel)) fun rr k' _ ⟨hk', hcame⟩ => ?_
        rw [h1, Nat.zero_add, hdl] at hk'
        rw [h1, List.take_zero, List.nil_append] at hcame
        refine ⟨?_, ?_⟩
        · have hmin : min ((c.buffer_offset + sig.length) / S.n) ph.cnt = 1 + min ((sig.length - r) / S.n) ph'.cnt := by
            generalize (sig.length - r) / S.n = u at *
            omega
          rw [hmin, sumFrom_split, hk, hk', hp]
          rfl
        · rcases hcame with ⟨q1, ph2, p, R2, q, q2, q3, q4, q5, q6, q7⟩ | ⟨q1, q2⟩
          · refine Or.inl ⟨by rw [List.length_append]; omega, ph2, b ++ p, R2, q + 1, q2, by rw [q3, List.append_assoc], by rw [q4, List.append_assoc], ?_, by omega, by omega⟩
            rw [List.length_append, q5, hbl, Nat.succ_mul]; omega
          · exact Or.inr ⟨by rw [List.length_append]; omega, q2⟩
      · rw [e'] at e
        cases e
        dsimp only
        refine cost_ok ⟨?_, Or.inr ⟨by rw [List.length_append, hc1]; omega, ?_⟩⟩
        · rw [hc1, hdiv, Nat.min_eq_right (Nat.le_add_left _ _), hk]; rfl
        · rw [h3]; split
          · exact Or.inl rfl
          · exact Or.inr rfl

/-! ## Calls -/

/-- The verdict is there. -/
def Ended (c : Ctx) : Prop := c.state = .verify_success ∨ c.state = .verify_fail

/-- After the verdict no work is done. -/
theorem cost_ended (sig : Bytes) (h : Ended c) : Cost f (ts_update_verify E mem sig c) fun r k => k = 0 ∧ Ended r.2 := by
  unfold ts_update_verify
  refine cost_frame ?_
  refine cost_branch (fun _ => cost_ok ⟨rfl, h⟩) fun hb => ?_
  have hs : c.state = .verify_success := by
    rcases h with h | h
    · exact h
    · rw [h] at hb; exact absurd (Or.inr (by decide)) hb
  unfold verLoop
  dsimp only
  refine cost_bind0 (by free) fun r _ => cost_bind0 (by free) fun pc _ => cost_bind0 (by free) fun B _ => ?_
  refine cost_branch (fun _ => cost_ok ⟨rfl, Or.inl hs⟩) fun _ => ?_
  have : verStep E mem (sig.length - r) { c with buffer := B, buffer_offset := 0 } =
      select St.verify_success.num (.ok (some 0, { c with buffer := B, buffer_offset := 0, state := .verify_fail })) := by
    unfold verStep
    simp only [hs]
  rw [this]
  refine cost_bind0 (fun _ => rfl) fun o eo => ?_
  cases eo
  exact cost_ok ⟨rfl, Or.inr rfl⟩

theorem cost_updates_ended (ts : List Bytes) : ∀ {c : Ctx}, Ended c → Cost f (updateCalls E mem c ts) fun _ k => k = 0 := by
  induction ts with
  | nil => intro c _; exact cost_ok rfl
  | cons t ts ih =>
    intro c h
    unfold updateCalls
    refine cost_bind (cost_ended t h) fun r k _ ⟨hk, hr⟩ => ?_
    obtain ⟨v, c1⟩ := r
    refine cost_bind (ih hr) fun r2 k2 _ hk2 => ?_
    obtain ⟨rs, c2⟩ := r2
    exact cost_ok (by rw [hk, hk2])

/-- Calls of `ts_update_verify`. -/
theorem cost_updateCalls (hm : S.MemPub mem) (hr : S.MemRoot mem root) (hl : M.length < 2 ^ 60) (hmsg : S.cfg.Fits msg M.length) (hM : mem.Has msg M) (ts : List Bytes) :
    ∀ {c : Ctx} {ph : VPh S} {R : Bytes}, At root msg M vals ph R c → Agree (c.buffer.take c.buffer_offset ++ ts.flatten) R →
      Cost f (updateCalls S.E mem c ts) fun _ k =>
        k = sumFrom (fun i => Verify.block S.P (vdig S.P vals) i f) (vpos ph) (min ((c.buffer_offset + ts.flatten.length) / S.n) ph.cnt) := by
  have hn16 := S.facts.n16
  have hmx := S.facts.nmax
  induction ts with
  | nil =>
    intro c ph R h _
    have hbo := h.bo
    exact cost_ok (by rw [List.flatten_nil, List.length_nil, Nat.add_zero, Nat.div_eq_of_lt hbo, Nat.zero_min]; rfl)
  | cons t ts ih =>
    intro c ph R h hag
    have hbo := h.bo
    have hbuf := h.inv.good.buf
    rw [List.flatten_cons, ← List.append_assoc] at hag
    unfold updateCalls
    have h1 : Cost f (ts_update_verify S.E mem t c) fun r k =>
        k = sumFrom (fun i => Verify.block S.P (vdig S.P vals) i f) (vpos ph) (min ((c.buffer_offset + t.length) / S.n) ph.cnt) ∧
        Came root msg M vals ph R (c.buffer.take c.buffer_offset ++ t) r.2 := by
      unfold ts_update_verify
      refine cost_frame ?_
      refine cost_branch (fun hb => ?_) fun _ => cost_verLoop hm hr hl hmsg _ t c ph R h (fun _ => hM) hag.left
      have := h.inv.st
      have h5 : St.verify_success.num < St.verify_fail.num := by decide
      omega
    refine cost_bind h1 fun r k _ ⟨hk, hcame⟩ => ?_
    obtain ⟨v, c1⟩ := r
    dsimp only at hcame ⊢
    have htl : (c.buffer.take c.buffer_offset ++ t).length = c.buffer_offset + t.length := by
      rw [List.length_append, List.length_take]; omega
    rw [List.flatten_cons, List.length_append]
    unfold Came at hcame
    rw [htl] at hcame
    rcases hcame with ⟨q1, ph2, p, R2, q, q2, q3, q4, q5, q6, q7⟩ | ⟨q1, q2⟩
    · rw [q3, q4, List.append_assoc] at hag
      refine cost_bind (ih q2 hag.cancel) fun r2 k2 _ hk2 => ?_
      obtain ⟨rs, c2⟩ := r2
      refine cost_ok ?_
      have hb2 := q2.bo
      have hbuf2 := q2.inv.good.buf
      have hl3 := congrArg List.length q3
      rw [htl, List.length_append, q5, List.length_take] at hl3
      have e1 : (c.buffer_offset + t.length) / S.n = q := by
        rw [hl3, Nat.min_eq_left (by omega), Nat.mul_comm, Nat.mul_add_div (by omega), Nat.div_eq_of_lt hb2, Nat.add_zero]
      have e2 : (c.buffer_offset + (t.length + ts.flatten.length)) / S.n = q + (c1.buffer_offset + ts.flatten.length) / S.n := by
        rw [show c.buffer_offset + (t.length + ts.flatten.length) = S.n * q + (c1.buffer_offset + ts.flatten.length) by rw [Nat.mul_comm]; omega,
          Nat.mul_add_div (by omega)]
      rw [hk, hk2, e1, e2, q7, Nat.min_eq_left (by omega), Nat.add_zero, ← sumFrom_split]
      congr 1
      generalize (c1.buffer_offset + ts.flatten.length) / S.n = u
      omega
    · refine cost_bind (cost_updates_ended ts q2) fun r2 k2 _ hk2 => ?_
      obtain ⟨rs, c2⟩ := r2
      refine cost_ok ?_
      have e1 : ph.cnt ≤ (c.buffer_offset + t.length) / S.n := by rwa [Nat.le_div_iff_mul_le (by omega)]
      have e2 : ph.cnt ≤ (c.buffer_offset + (t.length + ts.flatten.length)) / S.n := by rw [Nat.le_div_iff_mul_le (by omega)]; omega
      rw [hk, hk2, Nat.min_eq_right e1, Nat.min_eq_right e2]; rfl

theorem cost_ts_init_verify {m l : Nat} {ps : ParamSet} {pk : Nat} : Cost f (ts_init_verify E mem c m l ps pk) fun _ k => k = 0 := by
  unfold ts_init_verify
  refine cost_frame ?_
  exact cost_free (by free)

/-- A verification: every block that is complete is worked on, none beyond the end of the signature. -/
theorem cost_verifyRun (J : VerifyJob) (ts : List Bytes) (sig : Bytes) (hlen : sig.length = J.size) (hag : Agree ts.flatten sig) :
    calls f (verifyRun J ts).log =
      Verify.upTo J.x.P (digits J.x.P J.x.fns J.pk J.M sig) (min (ts.flatten.length / J.x.P.n) J.x.P.sigBlocks) f := by
  obtain ⟨c, e0, r⟩ := J.start
  obtain ⟨rs, c', f', e1, -⟩ := updateCalls_ok J.hasKey ts (fun _ => J.hasMsg) r
  have hres : (verifyRun J ts).res = .ok (rs, c') := by
    unfold verifyRun
    rw [res_bind, ts_init_verify_res, show Model.ts_init_verify J.E J.mem J.c0 J.msg J.M.length (ps J.E.cfg J.x) J.pub = _ from e0, ok_bind, updateCalls_res, e1]
  refine (?_ : Cost f (verifyRun J ts) fun _ k => k = _) _ hres
  unfold verifyRun
  refine cost_bind cost_ts_init_verify fun c1 k ec hk => ?_
  rw [ts_init_verify_res, show Model.ts_init_verify J.E J.mem J.c0 J.msg J.M.length (ps J.E.cfg J.x) J.pub = _ from e0] at ec
  cases ec
  obtain ⟨E, x, sup, mem, pub, pk, msg, M, c0, shape, pkLen, hasKey, hasMsg, msgLen, msgPtr⟩ := J
  dsimp only at *
  cases r with
  | verifying S h1 h2 h3 h4 h5 h6 h7 h8 h9 =>
    subst h1; subst h2; subst h3
    have hn16 := S.facts.n16
    have hsz : sig.length = S.P.sigBlocks * S.n := hlen
    have hpos : 16 ≤ S.P.sigBytes := by
      have : S.n ≤ S.P.sigBlocks * S.n := Nat.le_mul_of_pos_left _ (by rw [sigBlocks_tot]; omega)
      show 16 ≤ S.P.sigBlocks * S.n
      omega
    cases h8 with
    | acc g hs hw => rw [List.length_nil] at hw; omega
    | run ph bs inv hbo hc hbs hw hcnt _ =>
      have hbs0 : bs = [] := by
        cases bs with
        | nil => rfl
        | cons b bs =>
          have := hbs b List.mem_cons_self
          have := congrArg List.length hw
          rw [List.flatten_cons, List.length_nil, List.length_append, List.length_append] at this
          omega
      subst hbs0
      have hv0 : vpos ph = 0 := by
        have := vpos_cnt inv
        rw [List.length_nil] at hcnt
        omega
      have hph : ph = .init := by
        cases ph with
        | init => rfl
        | _ => unfold vpos at hv0; simp only at hv0; omega
      subst hph
      have hb0 : c.buffer.take c.buffer_offset = [] := by
        rw [List.flatten_nil, List.nil_append] at hw; exact hw.symm
      have hb0' : c.buffer_offset = 0 := by
        have := congrArg List.length hb0
        have hb := inv.good.buf
        have hmx := S.facts.nmax
        rw [List.length_take, List.length_nil] at this
        omega
      obtain ⟨l1, l2, m1, m2⟩ := pk_mem (n := S.n) pkLen hasKey
      refine cost_mono (cost_updateCalls (S := S) (vals := signedValues S.P S.hf pk M sig) (root := (pk.drop S.n).take S.n) (R := sig) (ph := .init)
        (by unfold Sess.MemPub; rw [h7]; exact m1) ⟨l2, m2⟩ h5 h6 hasMsg ts
        ⟨inv, hbo, hc, hsz, ?_⟩ (by rw [hb0]; exact hag)) fun _ k' _ hk' => ?_
      · unfold signedValues
        dsimp only
        rw [show pk.take S.P.n = S.pkSeed from h7.symm]
        rfl
      · rw [hk, hk', hb0', Nat.zero_add, Nat.zero_add]
        unfold Verify.upTo
        rw [sum_sumFrom]
        rfl
end Leak
