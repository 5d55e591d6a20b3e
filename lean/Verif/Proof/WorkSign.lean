import Verif.Proof.WorkStep
import Verif.Proof.CostTotal
/-!
# The work for calls of `ts_sign`
-/
namespace Leak.Work
open Model Spec Spec.Work Spec.Slh
open Spec.Cost (sum begun)

variable {M : Meter} {p : Price} {at_ : TIter → Nat → Prop} {mem : Mem} {c : Ctx} {S : Sess} (D : SignData S)

theorem block_fors {τ r : Nat} (dg : Nat → Nat → Nat) (hτ : τ < S.P.k) (hr : r ≤ S.P.a) :
    block p S.P dg (τ * (S.P.a + 1) + r) = if r = 0 then forsSecret p else forsAuth p S.P τ (r - 1) := by
  obtain ⟨h1, h2⟩ := div_block τ (S.P.a + 1) 0 r (by omega)
  have : (τ + 1) * (S.P.a + 1) ≤ S.P.k * (S.P.a + 1) := Nat.mul_le_mul_right _ hτ
  rw [Nat.succ_mul] at this
  unfold block
  rw [if_pos (by omega), h1, h2]

theorem block_ht {j r : Nat} (dg : Nat → Nat → Nat) (hr : r < S.P.len + S.P.hp) :
    block p S.P dg (S.P.k * (S.P.a + 1) + (j * (S.P.len + S.P.hp) + r)) = if r < S.P.len then wots p S.P (dg j r) r else merkle p S.P (r - S.P.len) := by
  obtain ⟨h1, h2⟩ := div_block j (S.P.len + S.P.hp) 0 r hr
  unfold block
  rw [if_neg (by omega)]
  dsimp only
  rw [Nat.add_sub_cancel_left, h1, h2]

/-- A step costs what the specification says of the block it makes. -/
theorem cost_signStep {ph : Ph} (H : Charges M S.E mem S.ps p at_) (R : Reads S at_) (hm : S.MemPub mem) (hs : S.MemSec mem D.sk) (h : D.Inv ph c) :
    Cost M (signStep S.E mem c) fun o k => match o with | none => k = 0 | some _ => k = block p S.P (dig D) (pos S ph) := by
  have lift : ∀ {x : L Ctx} {b : Nat}, Cost M x (fun _ k => k = b) → block p S.P (dig D) (pos S ph) = b →
      Cost M (do .ok (some (← x))) fun o k => match o with | none => k = 0 | some _ => k = block p S.P (dig D) (pos S ph) := by
    intro x b hx hb
    exact cost_bind hx fun a k _ hk => cost_ok (by rw [hb, hk, Nat.add_zero])
  have h67 := len_le67 (S := S)
  unfold signStep
  refine cost_select ?_
  cases ph with
  | forsLeaf τ =>
    have h' := h
    obtain ⟨-, hτ, hst, -⟩ := h'
    rw [hst]
    exact lift (cost_signForsLeaf (by rw [h.good.ps]; exact H)) (by
      show block p S.P (dig D) (τ * (S.P.a + 1) + 0) = _
      rw [block_fors _ hτ (Nat.zero_le _), if_pos rfl])
  | fors τ l =>
    have h' := h
    obtain ⟨-, hτ, hl, hst, -⟩ := h'
    rw [hst]
    exact lift (cost_signFors D H R h) (by
      show block p S.P (dig D) (τ * (S.P.a + 1) + (l + 1)) = _
      rw [block_fors _ hτ hl, if_neg (by omega)]; rfl)
  | wots j i =>
    have h' := h
    obtain ⟨-, hj, hi, hst, -⟩ := h'
    rw [hst]
    exact lift (cost_signWots D H hm hs h) (by
      show block p S.P (dig D) (S.P.k * (S.P.a + 1) + (j * (S.P.len + S.P.hp) + i)) = _
      rw [block_ht _ (by omega), if_pos hi]; rfl)
  | merkle j l =>
    have h' := h
    obtain ⟨-, hj, hl, hst, -⟩ := h'
    rw [hst]
    exact lift (cost_signMerkle D H h) (by
      show block p S.P (dig D) (S.P.k * (S.P.a + 1) + (j * (S.P.len + S.P.hp) + (S.P.len + l))) = _
      rw [block_ht _ (by omega), if_neg (by omega), Nat.add_sub_cancel_left])
  | done =>
    obtain ⟨-, hst⟩ := h
    rw [hst]
    exact cost_ok rfl

/-- The signer went from one place in the signature to another, delivering `m` bytes at a cost of `k`. -/
structure Went (p : Price) (ph : Ph) (b m k : Nat) (ph' : Ph) (c' : Ctx) : Prop where
  inv : D.Inv ph' c'
  bo : c'.buffer_offset ≤ S.n
  sent : pos S ph' * S.n + c'.buffer_offset = pos S ph * S.n + b + m
  tight : 1 ≤ c'.buffer_offset ∨ (pos S ph' = pos S ph ∧ c'.buffer_offset = b)
  le : pos S ph ≤ pos S ph'
  cost : k = sumFrom (fun i => block p S.P (dig D) i) (pos S ph) (pos S ph' - pos S ph)

theorem cost_signLoop (H : Charges M S.E mem S.ps p at_) (R : Reads S at_) (hm : S.MemPub mem) (hs : S.MemSec mem D.sk) :
    ∀ (fuel : Nat) (dest : Bytes) (off m : Nat) (c : Ctx) (ph : Ph), D.Inv ph c → c.buffer_offset ≤ S.n →
      Cost M (signLoop S.E mem fuel dest off m c) fun r k => r.1 ≤ m ∧ ∃ ph', Went D p ph c.buffer_offset (m - r.1) k ph' r.2.2 ∧
        (r.1 = 0 ∨ (ph' = .done ∧ r.2.2.buffer_offset = S.n)) := by
  intro fuel
  induction fuel with
  | zero => intro dest off m c ph _ _ a e; cases e
  | succ fuel ih =>
    intro dest off m c ph h hbo
    have g := h.good
    have hn16 := S.facts.n16
    have h32 := n_le (S := S)
    unfold signLoop
    refine cost_branch (fun hm0 => cost_ok ?_) fun hm0 => ?_
    · subst hm0
      exact ⟨Nat.le_refl _, ph, ⟨h, hbo, rfl, Or.inr ⟨rfl, rfl⟩, Nat.le_refl _, by rw [Nat.sub_self]; rfl⟩, Or.inl rfl⟩
    have hrem : usub c.ps.n c.buffer_offset = S.n - c.buffer_offset := by
      rw [ctx_n g]; unfold usub; omega
    dsimp only
    rw [hrem]
    refine cost_branch (fun hr => ?_) fun hr => ?_
    · refine cost_bind0 (by idle) fun r er => ?_
      have hr12 : r ≤ m ∧ 0 < r ∧ c.buffer_offset + r ≤ S.n := by
        unfold branch at er
        split at er
        · rw [res_ok] at er; cases er; omega
        · rw [res_ok] at er; cases er; omega
      obtain ⟨hr1, hr2, hr3⟩ := hr12
      refine cost_bind0 (by idle) fun b _ => cost_bind0 (by idle) fun dest' _ => ?_
      rw [Nat.mod_eq_of_lt (by omega)]
      refine cost_mono (ih dest' (off + r) (m - r) { c with buffer_offset := c.buffer_offset + r } ph (h.bo _) hr3) ?_
      rintro ⟨m', d', c'⟩ k - ⟨h0, ph', w, hend⟩
      dsimp only at h0 w hend ⊢
      refine ⟨by omega, ph', ⟨w.inv, w.bo, ?_, ?_, w.le, w.cost⟩, hend⟩
      · rw [w.sent]; omega
      · rcases w.tight with t | ⟨t1, t2⟩
        · exact Or.inl t
        · refine Or.inl ?_
          rw [t2]; show 1 ≤ c.buffer_offset + r; omega
    · have hfull : c.buffer_offset = S.n := by omega
      refine cost_bind (cost_signStep D H R hm hs h) fun o k e hk => ?_
      rcases sign_step D hm hs h with ⟨hph, e'⟩ | ⟨ph1, b, c1, e', h1, h2, h3, h4⟩
      · rw [signStep_res, e'] at e
        cases e
        refine cost_ok ⟨Nat.le_refl _, ph, ⟨h, hbo, by simp, Or.inr ⟨rfl, rfl⟩, Nat.le_refl _, ?_⟩, Or.inr ⟨hph, hfull⟩⟩
        rw [Nat.sub_self, show k = 0 from hk]; rfl
      · rw [signStep_res, e'] at e
        cases e
        dsimp only at hk ⊢
        have hp : pos S ph1 = pos S ph + 1 := by
          have l1 := length_rest D h
          have l2 := length_rest D h3
          rw [h4, List.length_cons] at l1
          omega
        refine cost_mono (ih dest off m c1 ph1 h3 (by omega)) ?_
        rintro ⟨m', d', c'⟩ k' er ⟨h0, ph', w, hend⟩
        dsimp only at h0 w hend er ⊢
        have hs' := w.sent
        rw [hp, Nat.succ_mul, h1] at hs'
        have hle := w.le
        have htight : 1 ≤ c'.buffer_offset := by
          rcases w.tight with t | ⟨t1, t2⟩
          · exact t
          · rw [t1, hp, Nat.succ_mul, t2, h1] at hs'
            rcases hend with z | ⟨-, z⟩
            · omega
            · omega
        refine ⟨h0, ph', ⟨w.inv, w.bo, by omega, Or.inl htight, by omega, ?_⟩, hend⟩
        rw [hk, w.cost, show pos S ph' - pos S ph = 1 + (pos S ph' - pos S ph1) by omega, sumFrom_split, hp]
        rfl

theorem Went.trans {ph ph1 ph2 : Ph} {b m k m2 k2 : Nat} {c1 c2 : Ctx} (h1 : Went D p ph b m k ph1 c1) (h2 : Went D p ph1 c1.buffer_offset m2 k2 ph2 c2) :
    Went D p ph b (m + m2) (k + k2) ph2 c2 := by
  have l1 := h1.le
  have l2 := h2.le
  refine ⟨h2.inv, h2.bo, by rw [h2.sent, h1.sent]; omega, ?_, by omega, ?_⟩
  · rcases h2.tight with t | ⟨t1, t2⟩
    · exact Or.inl t
    · rcases h1.tight with t | ⟨t3, t4⟩
      · exact Or.inl (by omega)
      · exact Or.inr ⟨by omega, by omega⟩
  · rw [h1.cost, h2.cost, show pos S ph2 - pos S ph = (pos S ph1 - pos S ph) + (pos S ph2 - pos S ph1) by omega, sumFrom_split,
      show pos S ph + (pos S ph1 - pos S ph) = pos S ph1 by omega]

/-- `Went`, where `m` bytes were asked for: all were delivered, or the signature has ended. -/
def Sent (p : Price) (ph : Ph) (b m k : Nat) (c' : Ctx) : Prop :=
  ∃ s ph', s ≤ m ∧ Went D p ph b s k ph' c' ∧ (s = m ∨ (ph' = .done ∧ c'.buffer_offset = S.n))

theorem cost_ts_sign (H : Charges M S.E mem S.ps p at_) (R : Reads S at_) (hm : S.MemPub mem) (hs : S.MemSec mem D.sk) (dest : Bytes) (m : Nat) {c : Ctx} {ph : Ph} (h : D.Inv ph c) (hb : c.buffer_offset ≤ S.n) :
    Cost M (ts_sign S.E mem dest m c) fun r k => Sent D p ph c.buffer_offset m k r.2.2 := by
  unfold ts_sign
  refine cost_frame ?_
  refine cost_branch (fun hb => absurd hb h.guard) fun _ => ?_
  refine cost_bind (cost_signLoop D H R hm hs _ dest 0 m c ph h hb) ?_
  rintro ⟨m', d', c'⟩ k - ⟨h0, ph', w, hend⟩
  exact cost_ok ⟨m - m', ph', Nat.sub_le _ _, w, hend.imp (fun z => by dsimp only at z h0; omega) id⟩

/-- Calls of `ts_sign`. -/
theorem cost_signCalls (H : Charges M S.E mem S.ps p at_) (R : Reads S at_) (hm : S.MemPub mem) (hs : S.MemSec mem D.sk) (rs : List (Bytes × Nat)) :
    ∀ {c : Ctx} {ph : Ph}, D.Inv ph c → c.buffer_offset ≤ S.n → Cost M (signCalls S.E mem c rs) fun r k => Sent D p ph c.buffer_offset (rs.map Prod.snd).sum k r.2 := by
  induction rs with
  | nil =>
    intro c ph h hb
    exact cost_ok ⟨0, ph, Nat.le_refl _, ⟨h, hb, rfl, Or.inr ⟨rfl, rfl⟩, Nat.le_refl _, by rw [Nat.sub_self]; rfl⟩, Or.inl rfl⟩
  | cons q rs ih =>
    obtain ⟨dest, m⟩ := q
    intro c ph h hb
    unfold signCalls
    refine cost_bind (cost_ts_sign D H R hm hs dest m h hb) ?_
    rintro ⟨r, d', c1⟩ k - ⟨s, ph1, s1, w, hend⟩
    dsimp only at w hend
    refine cost_bind (ih w.inv w.bo) ?_
    rintro ⟨os, c2⟩ k2 - ⟨s', ph2, s2, w2, hend2⟩
    dsimp only at w2 hend2
    rw [List.map_cons, List.sum_cons]
    refine cost_ok ⟨s + s', ph2, by omega, w.trans D w2, ?_⟩
    rcases hend2 with z | z
    · rcases hend with y | ⟨y1, y2⟩
      · exact Or.inl (by dsimp only; omega)
      · refine Or.inr ?_
        have l := w2.le
        have b2 := w2.bo
        have p2 := pos_le D w2.inv
        have hsent := w2.sent
        subst y1
        have hp : pos S ph2 = tot S := by
          have : pos S .done = tot S := rfl
          omega
        rw [hp, show pos S .done = tot S from rfl, y2] at hsent
        refine ⟨?_, by dsimp only; omega⟩
        have l3 := length_rest D w2.inv
        rw [hp] at l3
        rcases sign_step D hm hs w2.inv with ⟨hph, -⟩ | ⟨ph3, b, c3, -, -, -, -, h4⟩
        · exact hph
        · rw [h4, List.length_cons] at l3; omega
    · exact Or.inr z

/-- From the start of the signature. -/
theorem Sent.start {m k : Nat} {c' : Ctx} (h : Sent D p (.forsLeaf 0) 0 m k c') :
    k = upTo p S.P (dig D) (begun S.n (min m S.P.sigBytes)) := by
  obtain ⟨s, ph', hle, w, hend⟩ := h
  have hn16 := S.facts.n16
  have hp0 : pos S (.forsLeaf 0) = 0 := Nat.zero_mul _
  have hs := w.sent
  have hb := w.bo
  have hp := pos_le D w.inv
  have hc := w.cost
  have ht := w.tight
  rw [hp0] at hs hc ht
  rw [Nat.zero_mul, Nat.zero_add] at hs
  have hsz : S.P.sigBytes = tot S * S.n + S.n := by
    unfold Params.sigBytes; rw [sigBlocks_tot, Nat.succ_mul]
  have hmul : pos S ph' * S.n ≤ tot S * S.n := Nat.mul_le_mul_right _ hp
  have hmin : min m S.P.sigBytes = s := by
    rcases hend with z | ⟨z, y⟩
    · omega
    · subst z
      rw [show pos S .done = tot S from rfl] at hs
      omega
  have hbeg : begun S.n s = pos S ph' := by
    unfold begun
    rcases ht with t | ⟨t1, t2⟩
    · have : s + S.n - 1 = S.n * (pos S ph' + 1) + (c'.buffer_offset - 1) := by rw [Nat.mul_succ, Nat.mul_comm]; omega
      rw [this, Nat.mul_add_div (by omega), Nat.div_eq_of_lt (by omega)]
      omega
    · rw [t1, t2, Nat.zero_mul] at hs
      rw [← hs, t1, Nat.zero_add, Nat.div_eq_of_lt (by omega)]
  rw [hmin, hbeg, hc, Nat.sub_zero]
  exact (sum_sumFrom _ _).symm

/-! ## `ts_init_sign` -/

/-- Steps that do not matter, then a result. -/
macro "postr" : tactic => `(tactic| repeat' (first
  | with_reducible refine post_frame ?_
  | with_reducible refine post_bind post_any fun _ _ => ?_
  | (with_reducible apply post_ok; assumption)
  | split))

theorem ps_prf_msg {ps : ParamSet} {E : Env} (o r : Bytes) (msg len : Nat) (h : c.ps = ps) : Post (call_prf_msg E mem o r msg len c) fun r => r.2.ps = ps := by
  unfold call_prf_msg
  refine post_calling ?_
  split <;> (first | unfold ts_shake256_prf_msg | unfold ts_sha2_L1_prf_msg | unfold ts_sha2_L35_prf_msg) <;> postr

theorem ps_hash_msg {ps : ParamSet} {E : Env} (o r : Bytes) (lo msg len : Nat) (h : c.ps = ps) : Post (call_hash_msg E mem o lo r msg len c) fun r => r.2.ps = ps := by
  unfold call_hash_msg
  refine post_calling ?_
  split <;> (first | unfold ts_shake256_hash_msg | unfold ts_sha2_L1_hash_msg | unfold ts_sha2_L35_hash_msg) <;> postr

theorem ps_convert {ps : ParamSet} {E : Env} (mh : Bytes) (h : c.ps = ps) : Post (ts_convert_message_hash E c mh) fun r => r.1.ps = ps := by
  unfold ts_convert_message_hash
  refine post_frame ?_
  refine post_bind (P := fun r => r.2.ps = ps) ?_ fun r hr => ?_
  · refine post_loop (I := fun r : Cursor × Ctx => r.2.ps = ps) ?_ h
    rintro i ⟨cur, c⟩ hc
    exact post_bind post_any fun _ _ => post_bind post_any fun _ _ => post_ok hc
  · exact post_bind post_any fun _ _ => post_bind post_any fun _ _ => post_ok hr

theorem ps_fors_root {E : Env} (h : fixed b c = v) : Post (ts_set_fors_root_adr E c) fun c' => fixed b c' = v :=
  post_bind (keep_layer _ h) fun _ h => post_bind (keep_tree _ h) fun _ h => post_bind (keep_type _ h) fun _ h => post_bind (keep_keypair _ h) fun _ h =>
    post_bind (keep_height _ h) fun _ h => keep_index _ h

/-- What the functions that see the message cost. -/
structure Setup (M : Meter) (E : Env) (mem : Mem) (ps : ParamSet) (msg len : Nat) (pre pm hm : Nat) : Prop where
  prehash : ∀ c, c.ps = ps → Cost M (call_prehash E mem c) fun _ k => k = pre
  prfMsg : ∀ o r c, c.ps = ps → Cost M (call_prf_msg E mem o r msg len c) fun _ k => k = pm
  hashMsg : ∀ o r c, c.ps = ps → Cost M (call_hash_msg E mem o MAX_MESSAGE_HASH r msg len c) fun _ k => k = hm

theorem cost_ts_init_sign {E : Env} {ps : ParamSet} {msg len pre pm hm : Nat} (U : Setup M E mem ps msg len pre pm hm) (H : Charges M E mem ps p at_) (priv : Nat) (rng : Option Rng) (c : Ctx) :
    Cost M (ts_init_sign E mem c msg len ps priv rng) fun _ k => k = pre + pm + hm + p.init := by
  unfold ts_init_sign
  refine cost_frame ?_
  dsimp only
  refine cost_bind (U.prehash _ rfl) fun c1 k1 e1 hk1 => cost_bind0 (by idle) fun r2 _ => ?_
  have h1 : c1.ps = ps := fixed_ps (keep_prehash (b := false) rfl _ e1)
  obtain ⟨o, rq⟩ := r2
  dsimp only
  refine cost_bind (U.prfMsg _ _ _ h1) fun r3 k3 e3 h3 => ?_
  have p3 := ps_prf_msg _ _ _ _ h1 _ e3
  obtain ⟨b, c3⟩ := r3
  dsimp only at p3 ⊢
  refine cost_bind (U.hashMsg _ _ _ p3) fun r4 k4 e4 h4 => ?_
  have p4 := ps_hash_msg _ _ _ _ _ (show ({ c3 with buffer := b } : Ctx).ps = ps from p3) _ e4
  obtain ⟨mh, c4⟩ := r4
  dsimp only at p4 ⊢
  refine cost_bind0 (by idle) fun r5 e5 => ?_
  have p5 := ps_convert _ p4 _ e5
  obtain ⟨c5, mh'⟩ := r5
  dsimp only at p5 ⊢
  refine cost_bind0 (by idle) fun c6 e6 => ?_
  have p6 : c6.ps = ps := fixed_ps (v := (ps, 0, 0, none)) (ps_fors_root (b := false) (by unfold fixed; rw [← p5]; rfl) _ e6)
  refine cost_bind (H.init _ _ p6) fun t k7 _ h7 => cost_ok ?_
  rw [hk1, h3, h4, h7.1]
  omega

/-- Only the digits of the layers that exist matter. -/
theorem upTo_congr {dg dg' : Nat → Nat → Nat} {n : Nat} (hn : n ≤ tot S) (h : ∀ j, j < S.P.d → ∀ q, dg j q = dg' j q) : upTo p S.P dg n = upTo p S.P dg' n := by
  refine Leak.sum_congr fun i hi => ?_
  unfold block
  split
  · rfl
  · rename_i hge
    dsimp only
    have hj : (i - S.P.k * (S.P.a + 1)) / (S.P.len + S.P.hp) < S.P.d := by
      have := S.facts.hge
      rw [Nat.div_lt_iff_lt_mul (by omega)]
      unfold tot at hn
      omega
    rw [h _ hj]

/-- A signature operation. -/
theorem cost_signRun (J : SignJob) (rs : List (Bytes × Nat)) (hfit : ∀ r ∈ rs, r.2 ≤ r.1.length) {pre pm hm : Nat}
    (U : Setup M J.E J.mem (ps J.E.cfg J.x) J.msg J.M.length pre pm hm) (H : Charges M J.E J.mem (ps J.E.cfg J.x) p at_)
    (R : Reads (skSess J.E J.x J.sup J.priv J.sk J.skLen) at_) :
    M.total (signRun J rs).log =
      pre + pm + hm + p.init + upTo p J.x.P (Spec.Cost.digits J.x.P J.x.fns (J.sk.drop (2 * J.x.P.n)) J.M J.signature) (begun J.x.P.n (min (rs.map Prod.snd).sum J.x.P.sigBytes)) := by
  obtain ⟨c', e0, r⟩ := J.start
  obtain ⟨os, c'', e1, -⟩ := signCalls_ok J.hasKey rs r hfit
  have hres : (signRun J rs).res = .ok (reqs J.rng J.x.P.n, os) := by
    unfold signRun
    rw [res_bind, ts_init_sign_res, show Model.ts_init_sign J.E J.mem J.c0 J.msg J.M.length (ps J.E.cfg J.x) J.priv J.rng = _ from e0]
    rw [ok_bind, res_bind, signCalls_res, e1]
    rfl
  obtain ⟨E, x, sup, mem, priv, sk, msg, msgb, rng, c0, shape, skLen, hasKey, hasMsg, msgLen, rngOk⟩ := J
  dsimp only at *
  let S := skSess E x sup priv sk skLen
  obtain ⟨k1, k2, k3, k4⟩ := key_mem skLen hasKey
  obtain ⟨-, l1, l2, l3, l4⟩ := key_split skLen
  have hsec : S.MemSec mem (sk.take x.P.n) := ⟨by show 2 * x.P.n ≤ priv + 2 * x.P.n; omega, l1, by
      show mem.Has (priv + 2 * x.P.n - 2 * x.P.n) _
      rw [Nat.add_sub_cancel]; exact k1⟩
  have hprf : S.MemPrf mem ((sk.drop x.P.n).take x.P.n) := ⟨by show x.P.n ≤ priv + 2 * x.P.n; omega, l2, by
      show mem.Has (priv + 2 * x.P.n - x.P.n) _
      rw [show priv + 2 * x.P.n - x.P.n = priv + x.P.n by omega]; exact k2⟩
  have hrt : S.MemRoot mem ((sk.drop (3 * x.P.n)).take x.P.n) := ⟨l4, by
      show mem.Has (priv + 2 * x.P.n + x.P.n) _
      rw [show priv + 2 * x.P.n + x.P.n = priv + 3 * x.P.n by omega]; exact k4⟩
  obtain ⟨c, D, hD, hi, inv, hbo, hpend, ht, hlf, hix⟩ := ts_init_sign_data (S := S) (mem := mem) (c := c0) (msg := msg) (rng := rng) (priv := priv) shape rfl k3 hsec hprf hrt hasMsg msgLen rngOk
  have hb0 : c.buffer_offset = 0 := by
    have h1 := congrArg List.length hpend
    have h2 := length_rest D inv
    rw [show pos S (.forsLeaf 0) = 0 from Nat.zero_mul _, Nat.add_zero] at h2
    have hmx := S.facts.nmax
    have hg := inv.good.buf
    have hn16 := S.facts.n16
    rw [length_flatten_blocks S.n _ (signBlocks_len (S := S) _ _ _ _ _), length_signBlocks, sigBlocks_tot, SignData.pend, List.length_append,
      length_flatten_blocks S.n _ (fun b hb => rest_len D hb), h2, Nat.succ_mul, List.length_drop, List.length_take, Nat.min_eq_left (by omega)] at h1
    omega
  have h : Cost M (signRun ⟨E, x, sup, mem, priv, sk, msg, msgb, rng, c0, shape, skLen, hasKey, hasMsg, msgLen, rngOk⟩ rs) fun _ k =>
      k = pre + pm + hm + p.init + upTo p S.P (dig D) (begun S.n (min (rs.map Prod.snd).sum S.P.sigBytes)) := by
    unfold signRun
    refine cost_bind (cost_ts_init_sign U H _ _ _) ?_
    rintro ⟨c1, rq⟩ k ei hk
    rw [ts_init_sign_res, show Model.ts_init_sign E mem c0 msg msgb.length (ps E.cfg x) priv rng = _ from hi] at ei
    cases ei
    dsimp only
    refine cost_bind (cost_signCalls (S := S) D H R k3 (hD ▸ hsec) rs inv hbo) ?_
    rintro ⟨os, c2⟩ k2 - h2
    rw [hb0] at h2
    exact cost_ok (by rw [hk, h2.start D]; rfl)
  rw [h _ hres]
  congr 1
  refine upTo_congr (S := S) begun_le fun j hj q => ?_
  unfold dig Spec.Cost.digits SignJob.signature
  rw [sign_eq]
  have := signedValues_getD D (pk := sk.drop (2 * x.P.n)) rfl (by rw [List.drop_drop, show 2 * x.P.n + S.n = 3 * x.P.n by show 2 * x.P.n + x.P.n = _; omega]; rfl) ht hlf hix j hj
  rw [hD] at this
  rw [← this]
  rfl

end Leak.Work
