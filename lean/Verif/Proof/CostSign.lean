import Verif.Proof.CostStep
/-!
# The cost of calls of `ts_sign`
-/
namespace Leak
open Model Spec Spec.Cost Spec.Slh

variable {f : Fn} {mem : Mem} {c : Ctx} {S : Sess} (D : SignData S)

/-- The number of blocks after the randomizer. -/
def tot (S : Sess) : Nat := S.P.k * (S.P.a + 1) + S.P.d * (S.P.len + S.P.hp)

/-- The number of blocks after the randomizer that come before a position of the signer. -/
def pos (S : Sess) : Ph → Nat
  | .forsLeaf τ => τ * (S.P.a + 1)
  | .fors τ l => τ * (S.P.a + 1) + (l + 1)
  | .wots j i => S.P.k * (S.P.a + 1) + (j * (S.P.len + S.P.hp) + i)
  | .merkle j l => S.P.k * (S.P.a + 1) + (j * (S.P.len + S.P.hp) + (S.P.len + l))
  | .done => tot S

theorem length_restHt (j : Nat) (hj : j ≤ S.P.d) : (D.restHt j).length + j * (S.P.len + S.P.hp) = S.P.d * (S.P.len + S.P.hp) := by
  unfold SignData.restHt
  rw [length_htSignFrom, ← Nat.add_mul, Nat.sub_add_cancel hj]

theorem length_restFors (τ : Nat) (h : τ ≤ S.P.k) : (D.restFors τ).length + τ * (S.P.a + 1) = tot S := by
  have h0 := length_restHt D 0 (Nat.zero_le _)
  unfold SignData.restFors tot
  rw [List.length_append, length_flatMap_range (fun q => D.ftree (τ + q)) _ (S.P.a + 1) fun q => length_forsTreeSig _ _ _ _ _ _ _ _]
  have : (S.P.k - τ) * (S.P.a + 1) + τ * (S.P.a + 1) = S.P.k * (S.P.a + 1) := by rw [← Nat.add_mul, Nat.sub_add_cancel h]
  omega

theorem length_rest {ph : Ph} (h : D.Inv ph c) : (D.rest ph).length + pos S ph = tot S := by
  cases ph with
  | forsLeaf τ =>
    obtain ⟨-, hτ, -⟩ := h
    exact length_restFors D τ (by omega)
  | fors τ l =>
    obtain ⟨-, hτ, hl, -⟩ := h
    have := length_restFors D (τ + 1) hτ
    rw [Nat.succ_mul] at this
    show ((D.ftree τ).drop (l + 1) ++ D.restFors (τ + 1)).length + (τ * (S.P.a + 1) + (l + 1)) = _
    unfold SignData.ftree
    rw [List.length_append, List.length_drop, length_forsTreeSig]
    omega
  | wots j i =>
    obtain ⟨-, hj, hi, -⟩ := h
    have := length_restHt D (j + 1) hj
    rw [Nat.succ_mul] at this
    show ((D.wsig j).drop i ++ (D.wauth j ++ D.restHt (j + 1))).length + (S.P.k * (S.P.a + 1) + (j * (S.P.len + S.P.hp) + i)) = _
    unfold SignData.wsig SignData.wauth
    rw [List.length_append, List.length_drop, List.length_append, length_wotsSign, length_xmssAuth]
    unfold tot
    omega
  | merkle j l =>
    obtain ⟨-, hj, hl, -⟩ := h
    have := length_restHt D (j + 1) hj
    rw [Nat.succ_mul] at this
    show ((D.wauth j).drop l ++ D.restHt (j + 1)).length + (S.P.k * (S.P.a + 1) + (j * (S.P.len + S.P.hp) + (S.P.len + l))) = _
    unfold SignData.wauth
    rw [List.length_append, List.length_drop, length_xmssAuth]
    unfold tot
    omega
  | done => exact Nat.zero_add _

/-- The digits of the signed values. -/
def dig (j q : Nat) : Nat := (wotsDigits S.P (D.msgAt j)).getD q 0

theorem div_block (a b q r : Nat) (h : r < b) : (a * b + r) / b = a ∧ (a * b + r) % b = r := by
  have hb : 0 < b := by omega
  rw [Nat.mul_comm, Nat.mul_add_mod, Nat.mod_eq_of_lt h, Nat.mul_add_div hb, Nat.div_eq_of_lt h]
  exact ⟨rfl, rfl⟩

theorem block_fors {τ r : Nat} (dg : Nat → Nat → Nat) (hτ : τ < S.P.k) (hr : r ≤ S.P.a) :
    block S.P dg (τ * (S.P.a + 1) + r) = if r = 0 then forsSecret else forsAuth S.P τ (r - 1) := by
  obtain ⟨h1, h2⟩ := div_block τ (S.P.a + 1) 0 r (by omega)
  have : (τ + 1) * (S.P.a + 1) ≤ S.P.k * (S.P.a + 1) := Nat.mul_le_mul_right _ hτ
  rw [Nat.succ_mul] at this
  unfold block
  rw [if_pos (by omega), h1, h2]

theorem block_ht {j r : Nat} (dg : Nat → Nat → Nat) (hr : r < S.P.len + S.P.hp) :
    block S.P dg (S.P.k * (S.P.a + 1) + (j * (S.P.len + S.P.hp) + r)) = if r < S.P.len then wots S.P (dg j r) r else merkle S.P (r - S.P.len) := by
  obtain ⟨h1, h2⟩ := div_block j (S.P.len + S.P.hp) 0 r hr
  unfold block
  rw [if_neg (by omega)]
  dsimp only
  rw [Nat.add_sub_cancel_left, h1, h2]

theorem cost_select {n : Nat} {a : L α} {Q : α → Nat → Prop} (h : Cost f a Q) : Cost f (select n a) Q := h

/-- A step costs what the specification says of the block it makes. -/
theorem cost_signStep {ph : Ph} (hm : S.MemPub mem) (hs : S.MemSec mem D.sk) (h : D.Inv ph c) :
    Cost f (signStep S.E mem c) fun o k => match o with | none => k = 0 | some _ => k = block S.P (dig D) (pos S ph) f := by
  have lift : ∀ {x : L Ctx} {b : Nat}, Cost f x (fun _ k => k = b) → block S.P (dig D) (pos S ph) f = b →
      Cost f (do .ok (some (← x))) fun o k => match o with | none => k = 0 | some _ => k = block S.P (dig D) (pos S ph) f := by
    intro x b hx hb
    exact cost_bind hx fun a k _ hk => cost_ok (by rw [hb, hk, Nat.add_zero])
  have h67 := len_le67 (S := S)
  unfold signStep
  refine cost_select ?_
  cases ph with
  | forsLeaf τ =>
    have h' := h
    obtain ⟨-, hτ, hst, -⟩ := h'
    rw [hst]
    exact lift cost_signForsLeaf (by
      show block S.P (dig D) (τ * (S.P.a + 1) + 0) f = _
      rw [block_fors _ hτ (Nat.zero_le _), if_pos rfl])
  | fors τ l =>
    have h' := h
    obtain ⟨-, hτ, hl, hst, -⟩ := h'
    rw [hst]
    exact lift (cost_signFors D h) (by
      show block S.P (dig D) (τ * (S.P.a + 1) + (l + 1)) f = _
      rw [block_fors _ hτ hl, if_neg (by omega)]; rfl)
  | wots j i =>
    have h' := h
    obtain ⟨-, hj, hi, hst, -⟩ := h'
    rw [hst]
    exact lift (cost_signWots D hm hs h) (by
      show block S.P (dig D) (S.P.k * (S.P.a + 1) + (j * (S.P.len + S.P.hp) + i)) f = _
      rw [block_ht _ (by omega), if_pos hi]; rfl)
  | merkle j l =>
    have h' := h
    obtain ⟨-, hj, hl, hst, -⟩ := h'
    rw [hst]
    exact lift (cost_signMerkle D h) (by
      show block S.P (dig D) (S.P.k * (S.P.a + 1) + (j * (S.P.len + S.P.hp) + (S.P.len + l))) f = _
      rw [block_ht _ (by omega), if_neg (by omega), Nat.add_sub_cancel_left])
  | done =>
    obtain ⟨-, hst⟩ := h
    rw [hst]
    exact cost_ok rfl

theorem sumFrom_split (g : Nat → Nat) (s a b : Nat) : sumFrom g s (a + b) = sumFrom g s a + sumFrom g (s + a) b := by
  induction a generalizing s with
  | zero => simp [sumFrom]
  | succ a ih => rw [show a + 1 + b = a + b + 1 by omega, sumFrom, sumFrom, ih]; rw [show s + 1 + a = s + (a + 1) by omega]; omega

/-- The signer went from one place in the signature to another, delivering `m` bytes at a cost of `k`. -/
structure Went (f : Fn) (ph : Ph) (b m k : Nat) (ph' : Ph) (c' : Ctx) : Prop where
  inv : D.Inv ph' c'
  bo : c'.buffer_offset ≤ S.n
  sent : pos S ph' * S.n + c'.buffer_offset = pos S ph * S.n + b + m
  tight : 1 ≤ c'.buffer_offset ∨ (pos S ph' = pos S ph ∧ c'.buffer_offset = b)
  le : pos S ph ≤ pos S ph'
  cost : k = sumFrom (fun i => block S.P (dig D) i f) (pos S ph) (pos S ph' - pos S ph)

theorem cost_signLoop (hm : S.MemPub mem) (hs : S.MemSec mem D.sk) :
    ∀ (fuel : Nat) (dest : Bytes) (off m : Nat) (c : Ctx) (ph : Ph), D.Inv ph c → c.buffer_offset ≤ S.n →
      Cost f (signLoop S.E mem fuel dest off m c) fun r k => r.1 ≤ m ∧ ∃ ph', Went D f ph c.buffer_offset (m - r.1) k ph' r.2.2 ∧
        (r.1 = 0 ∨ (ph' = .done ∧ r.2.2.buffer_offset = S.n)) := by
  intro fuel
  induction fuel with
  | zero => intro dest off m c ph _ _ a e; cases e
  | succ fuel ih =>
    intro dest off m c ph h hbo
    have g := h.good
    have hn16 := S.facts.n16
    have h32 := n_le (S := S)
    unfold signLoop
    refine cost_branch (fun hm0 => cost_ok ?_) fun hm0 => ?_
    · subst hm0
      exact ⟨Nat.le_refl _, ph, ⟨h, hbo, rfl, Or.inr ⟨rfl, rfl⟩, Nat.le_refl _, by rw [Nat.sub_self]; rfl⟩, Or.inl rfl⟩
    have hrem : usub c.ps.n c.buffer_offset = S.n - c.buffer_offset := by
      rw [ctx_n g]; unfold usub; omega
    dsimp only
    rw [hrem]
    refine cost_branch (fun hr => ?_) fun hr => ?_
    · refine cost_bind0 (by free) fun r er => ?_
      have hr12 : r ≤ m ∧ 0 < r ∧ c.buffer_offset + r ≤ S.n := by
        unfold branch at er
        split at er
        · rw [res_ok] at er; cases er; omega
        · rw [res_ok] at er; cases er; omega
      obtain ⟨hr1, hr2, hr3⟩ := hr12
      refine cost_bind0 (by free) fun b _ => cost_bind0 (by free) fun dest' _ => ?_
      rw [Nat.mod_eq_of_lt (by omega)]
      refine cost_mono (ih dest' (off + r) (m - r) { c with buffer_offset := c.buffer_offset + r } ph (h.bo _) hr3) ?_
      rintro ⟨m', d', c'⟩ k - ⟨h0, ph', w, hend⟩
      dsimp only at h0 w hend ⊢
      refine ⟨by omega, ph', ⟨w.inv, w.bo, ?_, ?_, w.le, w.cost⟩, hend⟩
      · rw [w.sent]; omega
      · rcases w.tight with t | ⟨t1, t2⟩
        · exact Or.inl t
        · refine Or.inl ?_
          rw [t2]; show 1 ≤ c.buffer_offset + r; omega
    · have hfull : c.buffer_offset = S.n := by omega
      refine cost_bind (cost_signStep D hm hs h) fun o k e hk => ?_
      rcases sign_step D hm hs h with ⟨hph, e'⟩ | ⟨ph1, b, c1, e', h1, h2, h3, h4⟩
      · rw [signStep_res, e'] at e
        cases e
        refine cost_ok ⟨Nat.le_refl _, ph, ⟨h, hbo, by simp, Or.inr ⟨rfl, rfl⟩, Nat.le_refl _, ?_⟩, Or.inr ⟨hph, hfull⟩⟩
        rw [Nat.sub_self, show k = 0 from hk]; rfl
      · rw [signStep_res, e'] at e
        cases e
        dsimp only at hk ⊢
        have hp : pos S ph1 = pos S ph + 1 := by
          have l1 := length_rest D h
          have l2 := length_rest D h3
          rw [h4, List.length_cons] at l1
          omega
        refine cost_mono (ih dest off m c1 ph1 h3 (by omega)) ?_
        rintro ⟨m', d', c'⟩ k' er ⟨h0, ph', w, hend⟩
        dsimp only at h0 w hend er ⊢
        have hs' := w.sent
        rw [hp, Nat.succ_mul, h1] at hs'
        have hle := w.le
        have htight : 1 ≤ c'.buffer_offset := by
          rcases w.tight with t | ⟨t1, t2⟩
          · exact t
          · rw [t1, hp, Nat.succ_mul, t2, h1] at hs'
            rcases hend with z | ⟨-, z⟩
            · omega
            · omega
        refine ⟨h0, ph', ⟨w.inv, w.bo, by omega, Or.inl htight, by omega, ?_⟩, hend⟩
        rw [hk, w.cost, show pos S ph' - pos S ph = 1 + (pos S ph' - pos S ph1) by omega, sumFrom_split, hp]
        rfl

theorem Went.trans {ph ph1 ph2 : Ph} {b m k m2 k2 : Nat} {c1 c2 : Ctx} (h1 : Went D f ph b m k ph1 c1) (h2 : Went D f ph1 c1.buffer_offset m2 k2 ph2 c2) :
    Went D f ph b (m + m2) (k + k2) ph2 c2 := by
  have l1 := h1.le
  have l2 := h2.le
  refine ⟨h2.inv, h2.bo, by rw [h2.sent, h1.sent]; omega, ?_, by omega, ?_⟩
  · rcases h2.tight with t | ⟨t1, t2⟩
    · exact Or.inl t
    · rcases h1.tight with t | ⟨t3, t4⟩
      · exact Or.inl (by omega)
      · exact Or.inr ⟨by omega, by omega⟩
  · rw [h1.cost, h2.cost, show pos S ph2 - pos S ph = (pos S ph1 - pos S ph) + (pos S ph2 - pos S ph1) by omega, sumFrom_split,
      show pos S ph + (pos S ph1 - pos S ph) = pos S ph1 by omega]

/-- `Went`, where `m` bytes were asked for: all were delivered, or the signature has ended. -/
def Sent (f : Fn) (ph : Ph) (b m k : Nat) (c' : Ctx) : Prop :=
  ∃ s ph', s ≤ m ∧ Went D f ph b s k ph' c' ∧ (s = m ∨ (ph' = .done ∧ c'.buffer_offset = S.n))

theorem pos_le {ph : Ph} (h : D.Inv ph c) : pos S ph ≤ tot S := by have := length_rest D h; omega

theorem cost_ts_sign (hm : S.MemPub mem) (hs : S.MemSec mem D.sk) (dest : Bytes) (m : Nat) {c : Ctx} {ph : Ph} (h : D.Inv ph c) (hb : c.buffer_offset ≤ S.n) :
    Cost f (ts_sign S.E mem dest m c) fun r k => Sent D f ph c.buffer_offset m k r.2.2 := by
  unfold ts_sign
  refine cost_frame ?_
  refine cost_branch (fun hb => absurd hb h.guard) fun _ => ?_
  refine cost_bind (cost_signLoop D hm hs _ dest 0 m c ph h hb) ?_
  rintro ⟨m', d', c'⟩ k - ⟨h0, ph', w, hend⟩
  exact cost_ok ⟨m - m', ph', Nat.sub_le _ _, w, hend.imp (fun z => by dsimp only at z h0; omega) id⟩

/-- Calls of `ts_sign`. -/
theorem cost_signCalls (hm : S.MemPub mem) (hs : S.MemSec mem D.sk) (rs : List (Bytes × Nat)) :
    ∀ {c : Ctx} {ph : Ph}, D.Inv ph c → c.buffer_offset ≤ S.n → Cost f (signCalls S.E mem c rs) fun r k => Sent D f ph c.buffer_offset (rs.map Prod.snd).sum k r.2 := by
  induction rs with
  | nil =>
    intro c ph h hb
    exact cost_ok ⟨0, ph, Nat.le_refl _, ⟨h, hb, rfl, Or.inr ⟨rfl, rfl⟩, Nat.le_refl _, by rw [Nat.sub_self]; rfl⟩, Or.inl rfl⟩
  | cons q rs ih =>
    obtain ⟨dest, m⟩ := q
    intro c ph h hb
    unfold signCalls
    refine cost_bind (cost_ts_sign D hm hs dest m h hb) ?_
    rintro ⟨r, d', c1⟩ k - ⟨s, ph1, s1, w, hend⟩
    dsimp only at w hend
    refine cost_bind (ih w.inv w.bo) ?_
    rintro ⟨os, c2⟩ k2 - ⟨s', ph2, s2, w2, hend2⟩
    dsimp only at w2 hend2
    rw [List.map_cons, List.sum_cons]
    refine cost_ok ⟨s + s', ph2, by omega, w.trans D w2, ?_⟩
    rcases hend2 with z | z
    · rcases hend with y | ⟨y1, y2⟩
      · exact Or.inl (by dsimp only; omega)
      · refine Or.inr ?_
        have l := w2.le
        have b2 := w2.bo
        have p2 := pos_le D w2.inv
        have hsent := w2.sent
        subst y1
        have hp : pos S ph2 = tot S := by
          have : pos S .done = tot S := rfl
          omega
        rw [hp, show pos S .done = tot S from rfl, y2] at hsent
        refine ⟨?_, by dsimp only; omega⟩
        have l3 := length_rest D w2.inv
        rw [hp] at l3
        rcases sign_step D hm hs w2.inv with ⟨hph, -⟩ | ⟨ph3, b, c3, -, -, -, -, h4⟩
        · exact hph
        · rw [h4, List.length_cons] at l3; omega
    · exact Or.inr z

theorem sum_sumFrom (g : Nat → Nat) (n : Nat) : sum g n = sumFrom g 0 n := by
  induction n with
  | zero => rfl
  | succ n ih => rw [sum, ih, sumFrom_split, Nat.zero_add]; rfl

theorem sigBlocks_tot : S.P.sigBlocks = tot S + 1 := by
  unfold Params.sigBlocks tot
  rw [S.facts.hhd, Nat.mul_add S.P.d, Nat.mul_comm S.P.d S.P.hp, Nat.add_comm 1 S.P.a]
  omega

/-- From the start of the signature. -/
theorem Sent.start {m k : Nat} {c' : Ctx} (h : Sent D f (.forsLeaf 0) 0 m k c') :
    k = upTo S.P (dig D) (begun S.n (min m S.P.sigBytes)) f := by
  obtain ⟨s, ph', hle, w, hend⟩ := h
  have hn16 := S.facts.n16
  have hp0 : pos S (.forsLeaf 0) = 0 := Nat.zero_mul _
  have hs := w.sent
  have hb := w.bo
  have hp := pos_le D w.inv
  have hc := w.cost
  have ht := w.tight
  rw [hp0] at hs hc ht
  rw [Nat.zero_mul, Nat.zero_add] at hs
  have hsz : S.P.sigBytes = tot S * S.n + S.n := by
    unfold Params.sigBytes; rw [sigBlocks_tot, Nat.succ_mul]
  have hmul : pos S ph' * S.n ≤ tot S * S.n := Nat.mul_le_mul_right _ hp
  have hmin : min m S.P.sigBytes = s := by
    rcases hend with z | ⟨z, y⟩
    · omega
    · subst z
      rw [show pos S .done = tot S from rfl] at hs
      omega
  have hbeg : begun S.n s = pos S ph' := by
    unfold begun
    rcases ht with t | ⟨t1, t2⟩
    · have : s + S.n - 1 = S.n * (pos S ph' + 1) + (c'.buffer_offset - 1) := by rw [Nat.mul_succ, Nat.mul_comm]; omega
      rw [this, Nat.mul_add_div (by omega), Nat.div_eq_of_lt (by omega)]
      omega
    · rw [t1, t2, Nat.zero_mul] at hs
      rw [← hs, t1, Nat.zero_add, Nat.div_eq_of_lt (by omega)]
  rw [hmin, hbeg, hc, Nat.sub_zero]
  exact (sum_sumFrom _ _).symm

theorem cost_ts_init_sign {E : Env} (msg len : Nat) (ps : ParamSet) (priv : Nat) (rng : Option Rng) (c : Ctx) :
    Cost f (ts_init_sign E mem c msg len ps priv rng) fun _ k => k = init f := by
  unfold ts_init_sign
  refine cost_frame ?_
  dsimp only
  refine cost_bind0 (by free) fun c1 _ => cost_bind0 (by free) fun r2 _ => ?_
  obtain ⟨o, rq⟩ := r2
  dsimp only
  refine cost_bind (P := fun _ k => k = one .prf_msg f) (by unfold call_prf_msg; exact cost_calling (by free)) fun r3 k3 _ h3 => ?_
  obtain ⟨b, c3⟩ := r3
  dsimp only
  refine cost_bind (P := fun _ k => k = one .hash_msg f) (by unfold call_hash_msg; exact cost_calling (by free)) fun r4 k4 _ h4 => ?_
  obtain ⟨mh, c4⟩ := r4
  dsimp only
  refine cost_bind0 (by free) fun r5 _ => ?_
  obtain ⟨c5, mh'⟩ := r5
  dsimp only
  refine cost_bind0 (by free) fun c6 _ => cost_bind (cost_init_t _) fun t k7 _ h7 => cost_ok ?_
  rw [h3, h4, h7]
  cases f <;> rfl

theorem sum_congr {g g' : Nat → Nat} {n : Nat} (h : ∀ i, i < n → g i = g' i) : sum g n = sum g' n := by
  induction n with
  | zero => rfl
  | succ n ih => rw [sum, sum, ih fun i hi => h i (by omega), h n (by omega)]

theorem begun_le {m : Nat} : begun S.n (min m S.P.sigBytes) ≤ tot S := by
  have hn16 := S.facts.n16
  have hsz : S.P.sigBytes = S.n * (tot S + 1) := by
    unfold Params.sigBytes; rw [sigBlocks_tot, Nat.mul_comm]
  unfold begun
  have : (min m S.P.sigBytes + S.n - 1) / S.n ≤ (S.n * (tot S + 1) + (S.n - 1)) / S.n := Nat.div_le_div_right (by omega)
  rw [Nat.mul_add_div (by omega), Nat.div_eq_of_lt (a := S.n - 1) (by omega)] at this
  omega

/-- Only the digits of the layers that exist matter. -/
theorem upTo_congr {dg dg' : Nat → Nat → Nat} {n : Nat} (hn : n ≤ tot S) (h : ∀ j, j < S.P.d → ∀ q, dg j q = dg' j q) : upTo S.P dg n f = upTo S.P dg' n f := by
  refine sum_congr fun i hi => ?_
  unfold block
  split
  · rfl
  · rename_i hge
    dsimp only
    have hj : (i - S.P.k * (S.P.a + 1)) / (S.P.len + S.P.hp) < S.P.d := by
      have := S.facts.hge
      rw [Nat.div_lt_iff_lt_mul (by omega)]
      unfold tot at hn
      omega
    rw [h _ hj]

theorem rest_len {b : Bytes} (h : b ∈ D.rest (.forsLeaf 0)) : b.length = S.n := by
  unfold SignData.rest SignData.restFors at h
  rw [List.mem_append] at h
  rcases h with h | h
  · simp only [Nat.zero_add, Nat.sub_zero] at h
    exact forsSign_len (S := S) D.sk D.tree D.leaf D.idx b h
  · exact htSignFrom_len _ _ _ _ _ _ b h

/-- A signature operation. -/
theorem cost_signRun (J : SignJob) (rs : List (Bytes × Nat)) (hfit : ∀ r ∈ rs, r.2 ≤ r.1.length) :
    calls f (signRun J rs).log =
      init f + upTo J.x.P (digits J.x.P J.x.fns (J.sk.drop (2 * J.x.P.n)) J.M J.signature) (begun J.x.P.n (min (rs.map Prod.snd).sum J.x.P.sigBytes)) f := by
  obtain ⟨c', e0, r⟩ := J.start
  obtain ⟨os, c'', e1, -⟩ := signCalls_ok J.hasKey rs r hfit
  have hres : (signRun J rs).res = .ok (reqs J.rng J.x.P.n, os) := by
    unfold signRun
    rw [res_bind, ts_init_sign_res, show Model.ts_init_sign J.E J.mem J.c0 J.msg J.M.length (ps J.E.cfg J.x) J.priv J.rng = _ from e0]
    rw [ok_bind, res_bind, signCalls_res, e1]
    rfl
  obtain ⟨E, x, sup, mem, priv, sk, msg, M, rng, c0, shape, skLen, hasKey, hasMsg, msgLen, rngOk⟩ := J
  dsimp only at *
  let S := skSess E x sup priv sk skLen
  obtain ⟨k1, k2, k3, k4⟩ := key_mem skLen hasKey
  obtain ⟨-, l1, l2, l3, l4⟩ := key_split skLen
  have hsec : S.MemSec mem (sk.take x.P.n) := ⟨by show 2 * x.P.n ≤ priv + 2 * x.P.n; omega, l1, by
      show mem.Has (priv + 2 * x.P.n - 2 * x.P.n) _
      rw [Nat.add_sub_cancel]; exact k1⟩
  have hprf : S.MemPrf mem ((sk.drop x.P.n).take x.P.n) := ⟨by show x.P.n ≤ priv + 2 * x.P.n; omega, l2, by
      show mem.Has (priv + 2 * x.P.n - x.P.n) _
      rw [show priv + 2 * x.P.n - x.P.n = priv + x.P.n by omega]; exact k2⟩
  have hrt : S.MemRoot mem ((sk.drop (3 * x.P.n)).take x.P.n) := ⟨l4, by
      show mem.Has (priv + 2 * x.P.n + x.P.n) _
      rw [show priv + 2 * x.P.n + x.P.n = priv + 3 * x.P.n by omega]; exact k4⟩
  obtain ⟨c, D, hD, hi, inv, hbo, hpend, ht, hlf, hix⟩ := ts_init_sign_data (S := S) (mem := mem) (c := c0) (msg := msg) (rng := rng) (priv := priv) shape rfl k3 hsec hprf hrt hasMsg msgLen rngOk
  have hb0 : c.buffer_offset = 0 := by
    have h1 := congrArg List.length hpend
    have h2 := length_rest D inv
    rw [show pos S (.forsLeaf 0) = 0 from Nat.zero_mul _, Nat.add_zero] at h2
    have hmx := S.facts.nmax
    have hg := inv.good.buf
    have hn16 := S.facts.n16
    rw [length_flatten_blocks S.n _ (signBlocks_len (S := S) _ _ _ _ _), length_signBlocks, sigBlocks_tot, SignData.pend, List.length_append,
      length_flatten_blocks S.n _ (fun b hb => rest_len D hb), h2, Nat.succ_mul, List.length_drop, List.length_take, Nat.min_eq_left (by omega)] at h1
    omega
  have h : Cost f (signRun ⟨E, x, sup, mem, priv, sk, msg, M, rng, c0, shape, skLen, hasKey, hasMsg, msgLen, rngOk⟩ rs) fun _ k =>
      k = init f + upTo S.P (dig D) (begun S.n (min (rs.map Prod.snd).sum S.P.sigBytes)) f := by
    unfold signRun
    refine cost_bind (cost_ts_init_sign _ _ _ _ _ _) ?_
    rintro ⟨c1, rq⟩ k ei hk
    rw [ts_init_sign_res, show Model.ts_init_sign E mem c0 msg M.length (ps E.cfg x) priv rng = _ from hi] at ei
    cases ei
    dsimp only
    refine cost_bind (cost_signCalls (S := S) D k3 (hD ▸ hsec) rs inv hbo) ?_
    rintro ⟨os, c2⟩ k2 - h2
    rw [hb0] at h2
    exact cost_ok (by rw [hk, h2.start D]; rfl)
  rw [h _ hres]
  congr 1
  refine upTo_congr (S := S) begun_le fun j hj q => ?_
  unfold dig digits SignJob.signature
  rw [sign_eq]
  have := signedValues_getD D (pk := sk.drop (2 * x.P.n)) rfl (by rw [List.drop_drop, show 2 * x.P.n + S.n = 3 * x.P.n by show 2 * x.P.n + x.P.n = _; omega]; rfl) ht hlf hix j hj
  rw [hD] at this
  rw [← this]
  rfl

end Leak
