import Verif.Proof.ResidueSign
/-!
# Positions in the signature, and the loop of `ts_sign` for the signer and for the observer
-/
namespace Model
open Spec Spec.Slh

variable {S : Sess} {m1 m2 : Mem} {K : Observer.Known}

/-- Elements of a layer of the hypertree, and of the FORS part. -/
def Sess.per (S : Sess) : Nat := S.P.len + S.P.hp
def Sess.forsN (S : Sess) : Nat := S.P.k * (S.P.a + 1)

/-- The number of elements after the randomizer computed before a position. -/
def Ph.pos (S : Sess) : Ph → Nat
  | .forsLeaf τ => τ * (S.P.a + 1)
  | .fors τ l => τ * (S.P.a + 1) + (l + 1)
  | .wots j i => S.forsN + (j * S.per + i)
  | .merkle j l => S.forsN + (j * S.per + (S.P.len + l))
  | .done => S.forsN + S.P.d * S.per

/-- The elements of a signature after the randomizer. -/
def SignData.blocks (D : SignData S) : List Bytes := D.restFors 0

variable (D : SignData S)

theorem length_ftree (τ : Nat) : (D.ftree τ).length = S.P.a + 1 := length_forsTreeSig _ _ _ _ _ _ _ _

theorem length_wsig (j : Nat) : (D.wsig j).length = S.P.len := length_wotsSign _ _ _ _ _ _ _ _

theorem length_wauth (j : Nat) : (D.wauth j).length = S.P.hp := length_xmssAuth _ _ _ _ _ _ _

theorem restFors_drop (τ : Nat) (h : τ ≤ S.P.k) : D.restFors τ = D.blocks.drop (τ * (S.P.a + 1)) := by
  induction τ with
  | zero => simp [SignData.blocks]
  | succ τ ih =>
    have := ih (by omega)
    rw [D.restFors_step τ (by omega)] at this
    rw [Nat.succ_mul, ← List.drop_drop, ← this]
    exact (List.drop_left' (length_ftree D τ)).symm

theorem restHt_drop (j : Nat) (h : j ≤ S.P.d) : D.restHt j = D.blocks.drop (S.forsN + j * S.per) := by
  induction j with
  | zero => rw [Nat.zero_mul, Nat.add_zero, ← D.restFors_end, restFors_drop D _ (Nat.le_refl _)]; rfl
  | succ j ih =>
    have := ih (by omega)
    rw [D.restHt_step j (by omega)] at this
    rw [Nat.succ_mul, ← Nat.add_assoc, ← List.drop_drop, ← this, ← List.append_assoc]
    exact (List.drop_left' (by rw [List.length_append, length_wsig, length_wauth]; rfl)).symm

/-- Bounds of a position. -/
def Ph.Ok (S : Sess) : Ph → Prop
  | .forsLeaf τ => τ < S.P.k
  | .fors τ l => τ < S.P.k ∧ l < S.P.a
  | .wots j i => j < S.P.d ∧ i < S.P.len
  | .merkle j l => j < S.P.d ∧ l < S.P.hp
  | .done => True

theorem SignData.Inv.ok {D : SignData S} {ph : Ph} {c : Ctx} (h : D.Inv ph c) : ph.Ok S := by
  cases ph with
  | forsLeaf τ => exact h.2.1
  | fors τ l => exact ⟨h.2.1, h.2.2.1⟩
  | wots j i => exact ⟨h.2.1, h.2.2.1⟩
  | merkle j l => exact ⟨h.2.1, h.2.2.1⟩
  | done => trivial

theorem rest_drop {ph : Ph} (h : ph.Ok S) : D.rest ph = D.blocks.drop (ph.pos S) := by
  cases ph with
  | forsLeaf τ => exact restFors_drop D τ (Nat.le_of_lt h)
  | fors τ l =>
    show (D.ftree τ).drop (l + 1) ++ _ = D.blocks.drop (τ * (S.P.a + 1) + (l + 1))
    rw [← List.drop_drop (j := τ * (S.P.a + 1)), ← restFors_drop D τ (Nat.le_of_lt h.1), D.restFors_step τ h.1, List.drop_append_of_le_length (by rw [length_ftree]; have := h.2; omega)]
  | wots j i =>
    show (D.wsig j).drop i ++ _ = D.blocks.drop (S.forsN + (j * S.per + i))
    rw [← Nat.add_assoc, ← List.drop_drop, ← restHt_drop D j (Nat.le_of_lt h.1), D.restHt_step j h.1,
      List.drop_append_of_le_length (by rw [length_wsig]; have := h.2; omega)]
  | merkle j l =>
    show (D.wauth j).drop l ++ _ = D.blocks.drop (S.forsN + (j * S.per + (S.P.len + l)))
    rw [← Nat.add_assoc, ← List.drop_drop, ← restHt_drop D j (Nat.le_of_lt h.1), D.restHt_step j h.1, ← List.drop_drop,
      List.drop_left' (length_wsig D j), List.drop_append_of_le_length (by rw [length_wauth]; have := h.2; omega)]
  | done =>
    show [] = D.blocks.drop (S.forsN + S.P.d * S.per)
    rw [← restHt_drop D _ (Nat.le_refl _), D.restHt_end]

theorem length_restHt (j : Nat) (h : j ≤ S.P.d) : (D.restHt j).length = (S.P.d - j) * S.per := by
  generalize hq : S.P.d - j = q
  induction q generalizing j with
  | zero => rw [show j = S.P.d by omega, D.restHt_end]; simp
  | succ q ih =>
    rw [D.restHt_step j (by omega), List.length_append, List.length_append, ih (j + 1) (by omega) (by omega), length_wsig, length_wauth, Nat.succ_mul]
    unfold Sess.per; omega

theorem length_sblocks : D.blocks.length = S.forsN + S.P.d * S.per := by
  have h : ∀ q τ, q = S.P.k - τ → τ ≤ S.P.k → (D.restFors τ).length = q * (S.P.a + 1) + S.P.d * S.per := by
    intro q
    induction q with
    | zero => intro τ h1 h2; rw [show τ = S.P.k by omega, D.restFors_end, length_restHt D 0 (by omega)]; simp
    | succ q ih =>
      intro τ h1 h2
      rw [D.restFors_step τ (by omega), List.length_append, ih (τ + 1) (by omega) (by omega), length_ftree, Nat.succ_mul]
      omega
  exact h S.P.k 0 (by omega) (by omega)

theorem pos_le {ph : Ph} (h : ph.Ok S) : ph.pos S ≤ S.forsN + S.P.d * S.per := by
  cases ph with
  | forsLeaf τ =>
    have : (τ + 1) * (S.P.a + 1) ≤ S.forsN := Nat.mul_le_mul_right _ h
    rw [Nat.succ_mul] at this
    show τ * (S.P.a + 1) ≤ _
    omega
  | fors τ l =>
    have : (τ + 1) * (S.P.a + 1) ≤ S.forsN := Nat.mul_le_mul_right _ h.1
    rw [Nat.succ_mul] at this
    show τ * (S.P.a + 1) + (l + 1) ≤ _
    have := h.2
    omega
  | wots j i =>
    have : (j + 1) * S.per ≤ S.P.d * S.per := Nat.mul_le_mul_right _ h.1
    rw [Nat.succ_mul] at this
    show S.forsN + (j * S.per + i) ≤ _
    have h2 := h.2
    have : S.per = S.P.len + S.P.hp := rfl
    omega
  | merkle j l =>
    have : (j + 1) * S.per ≤ S.P.d * S.per := Nat.mul_le_mul_right _ h.1
    rw [Nat.succ_mul] at this
    show S.forsN + (j * S.per + (S.P.len + l)) ≤ _
    have h2 := h.2
    have : S.per = S.P.len + S.P.hp := rfl
    omega
  | done => exact Nat.le_refl _

theorem pos_step {ph ph' : Ph} {b : Bytes} (h : ph.Ok S) (h' : ph'.Ok S) (e : D.rest ph = b :: D.rest ph') : ph'.pos S = ph.pos S + 1 := by
  have l := congrArg List.length e
  rw [List.length_cons, rest_drop D h, rest_drop D h', List.length_drop, List.length_drop, length_sblocks] at l
  have := pos_le h
  have := pos_le h'
  omega

/-- After this many elements the scratch iterator has been overwritten with public values. -/
def Sess.clean (S : Sess) (p : Nat) : Prop := p ≤ S.forsN ∨ (p - S.forsN) % S.per = 0 ∨ S.P.len < (p - S.forsN) % S.per

theorem not_clean {j i : Nat} (hi : i < S.P.len) : ¬ S.clean (S.forsN + (j * S.per + i) + 1) := by
  have hp : i + 1 < S.per := by unfold Sess.per; have := S.facts.hge; omega
  have hm : (S.forsN + (j * S.per + i) + 1 - S.forsN) % S.per = i + 1 := by
    rw [show S.forsN + (j * S.per + i) + 1 - S.forsN = i + 1 + j * S.per by omega, Nat.add_mul_mod_self_right, Nat.mod_eq_of_lt hp]
  unfold Sess.clean
  rw [hm]
  omega

/-- The known part of the signature: `e` elements after the randomizer. -/
def Knows (D : SignData S) (K : Observer.Known) (e : Nat) : Prop :=
  ∃ R : Bytes, R.length = S.n ∧ K.sig = (R ++ D.blocks.flatten).take ((e + 1) * S.n)

theorem SignData.blocks_len (x : Bytes) (h : x ∈ D.blocks) : x.length = S.n := by
  unfold SignData.blocks SignData.restFors at h
  rw [List.mem_append] at h
  rcases h with h | h
  · simp only [Nat.zero_add, Nat.sub_zero] at h
    exact forsSign_len (S := S) D.sk D.tree D.leaf D.idx x h
  · exact htSignFrom_len _ _ _ _ _ _ x h

/-- Dropping whole blocks. -/
theorem flatten_drop_blocks (n : Nat) : ∀ (q : Nat) (l : List Bytes), (∀ x ∈ l, x.length = n) → l.flatten.drop (q * n) = (l.drop q).flatten := by
  intro q
  induction q with
  | zero => intro l _; simp
  | succ q ih =>
    intro l hl
    cases l with
    | nil => simp
    | cons x l =>
      rw [List.flatten_cons, Nat.succ_mul, Nat.add_comm, ← List.drop_drop, List.drop_left' (hl x (by simp)), ih l (fun y hy => hl y (by simp [hy]))]
      rfl

theorem Knows.head {e : Nat} {ph : Ph} {b : Bytes} {r : List Bytes} (h : Knows D K e) (hok : ph.Ok S) (hp : ph.pos S < e)
    (h1 : D.rest ph = b :: r) : (K.sig.drop ((ph.pos S + 1) * S.n)).take S.n = b := by
  obtain ⟨R, hR, hK⟩ := h
  rw [rest_drop _ hok] at h1
  have hb : b.length = S.n := D.blocks_len b (List.mem_of_mem_drop (i := ph.pos S) (by rw [h1]; simp))
  have hq : (ph.pos S + 1) * S.n + S.n ≤ (e + 1) * S.n := by rw [← Nat.succ_mul]; exact Nat.mul_le_mul_right _ (by omega)
  have hfl : D.blocks.flatten.drop (ph.pos S * S.n) = b ++ r.flatten := by
    have := flatten_drop_blocks S.n (ph.pos S) D.blocks D.blocks_len
    rw [this, h1]; rfl
  rw [hK, List.drop_take, List.take_take, Nat.min_eq_left (by omega), Nat.succ_mul, Nat.add_comm _ S.n, ← List.drop_drop, List.drop_left' hR, hfl]
  exact List.take_left' hb

/-- One step for signer and observer. -/
theorem step_two {c c' : Ctx} {s : TIter} {ph : Ph} {e : Nat} (p1 : S.MemPub m1) (p2 : S.MemPub m2) (q1 : S.MemSec m1 D.sk)
    (tw : Images D K) (ag : Knows D K e) (w : WfIter s) (h : D.Inv ph c) (hp : ph.pos S < e) (h1 : signStep S.E m1 c = .ok (some c')) :
    ∃ t, WfIter t ∧ Observer.signStep S.E m2 K (ph.pos S + 1) (c.si s) = .ok (some (c'.si t)) ∧ (S.clean (ph.pos S + 1) → c'.si t = c') ∧ (WfIter c'.small_iter → WfIter t) := by
  have hok := h.ok
  have hnc : (c.si s).ps.n = S.n := by show c.ps.n = S.n; exact ctx_n h.good
  have same : ∀ {r1 r2 : C Ctx}, signStep S.E m1 c = (do .ok (some (← r1))) → Observer.signStep S.E m2 K (ph.pos S + 1) (c.si s) = (do .ok (some (← r2))) →
      (∀ x, r1 = .ok x → r2 = .ok x ∧ WfIter x.small_iter) →
      ∃ t, WfIter t ∧ Observer.signStep S.E m2 K (ph.pos S + 1) (c.si s) = .ok (some (c'.si t)) ∧ (S.clean (ph.pos S + 1) → c'.si t = c') ∧ (WfIter c'.small_iter → WfIter t) := by
    intro r1 r2 a1 a2 hr
    rw [a1] at h1
    obtain ⟨x, hx, h1⟩ := bind_ok_inv h1
    cases h1
    obtain ⟨k1, k2⟩ := hr _ hx
    exact ⟨_, k2, by rw [a2, k1]; rfl, fun _ => rfl, fun h => h⟩
  cases ph with
  | forsLeaf τ =>
    have hst : c.state = .fors_leaf := h.2.2.1
    refine same (r1 := signForsLeaf S.E m1 c) (r2 := Observer.signForsLeaf S.E m2 ((K.sig.drop (((Ph.forsLeaf τ).pos S + 1) * (c.si s).ps.n)).take (c.si s).ps.n) (c.si s)) (by rw [signStep, hst])
      (by rw [Observer.signStep, show (c.si s).state = _ from hst]) fun x hx => ⟨?_, ?_⟩
    · refine signForsLeaf_two D p1 p2 q1 w h ?_ hx
      rw [hnc]
      exact ag.head D (b := forsSk S.hf D.sk S.pkSeed D.tree D.leaf (τ * 2 ^ S.P.a + D.idx.getD τ 0)) hok hp
        (by show D.restFors τ = _; rw [D.restFors_step τ hok]; rfl)
    · obtain ⟨ph', b, c2, e2, -, -, i2, -⟩ := signForsLeaf_ok D p1 q1 h
      rw [e2] at hx; cases hx; exact i2.good.si
  | fors τ l =>
    have hst : c.state = .fors := h.2.2.2.1
    refine same (r1 := signFors S.E m1 c) (r2 := Observer.signFors S.E m2 K (c.si s)) (by rw [signStep, hst])
      (by rw [Observer.signStep, show (c.si s).state = _ from hst]) fun x hx => ⟨signFors_two D p1 p2 q1 tw w h hx, ?_⟩
    obtain ⟨ph', b, c2, e2, -, -, i2, -⟩ := signFors_ok D p1 q1 h
    rw [e2] at hx; cases hx; exact i2.good.si
  | merkle j l =>
    have hst : c.state = .merkle := h.2.2.2.1
    refine same (r1 := signMerkle S.E m1 c) (r2 := Observer.signMerkle S.E m2 K (c.si s)) (by rw [signStep, hst])
      (by rw [Observer.signStep, show (c.si s).state = _ from hst]) fun x hx => ⟨signMerkle_two D p1 p2 q1 tw w h hx, ?_⟩
    obtain ⟨ph', b, c2, e2, -, -, i2, -⟩ := signMerkle_ok D p1 q1 h
    rw [e2] at hx; cases hx; exact i2.good.si
  | wots j i =>
    have hst : c.state = .wots := h.2.2.2.1
    rw [signStep, hst] at h1
    obtain ⟨x, hx, h1⟩ := bind_ok_inv h1
    cases h1
    have hch := ag.head D hok hp
      (show (D.wsig j).drop i ++ (D.wauth j ++ D.restHt (j + 1)) = _ by rw [wsig_drop D j i hok.2, List.cons_append])
    obtain ⟨t, wt, e2⟩ := signWots_two D p1 p2 q1 tw w h hch hx
    refine ⟨t, wt, by rw [Observer.signStep, show (c.si s).state = _ from hst]; simp only; rw [hnc, e2]; rfl, fun hc => absurd hc (not_clean hok.2), fun _ => wt⟩
  | done =>
    have hst : c.state = .done := h.2
    rw [signStep, hst] at h1
    cases h1

theorem si_bo {c : Ctx} {s : TIter} (b : Nat) : ({ c.si s with buffer_offset := b } : Ctx) = ({ c with buffer_offset := b } : Ctx).si s := rfl

/-- The loop of `ts_sign` for signer and observer. -/
theorem loop_two {e : Nat} (p1 : S.MemPub m1) (p2 : S.MemPub m2) (q1 : S.MemSec m1 D.sk) (tw : Images D K) (ag : Knows D K e) :
    ∀ (fuel : Nat) (dest : Bytes) (off m : Nat) (c : Ctx) (s : TIter) (ph : Ph) (r : Nat) (d : Bytes) (c' : Ctx), D.Inv ph c → WfIter s → c.buffer_offset ≤ S.n →
      (S.clean (ph.pos S) → c.si s = c) → ph.pos S * S.n + c.buffer_offset + m ≤ (e + 1) * S.n →
      signLoop S.E m1 fuel dest off m c = .ok (r, d, c') →
      ∃ ph' t, Observer.signLoop S.E m2 K fuel dest off m (ph.pos S + 1) (c.si s) = .ok (r, d, ph'.pos S + 1, c'.si t) ∧ D.Inv ph' c' ∧ WfIter t ∧ c'.buffer_offset ≤ S.n ∧
        (S.clean (ph'.pos S) → c'.si t = c') ∧
        ph'.pos S * S.n + c'.buffer_offset = min (ph.pos S * S.n + c.buffer_offset + m) ((S.forsN + S.P.d * S.per + 1) * S.n) ∧
        (0 < m ∨ 0 < c.buffer_offset → 0 < c'.buffer_offset) := by
  intro fuel
  induction fuel with
  | zero => intro dest off m c s ph r d c' _ _ _ _ _ h1; cases h1
  | succ fuel ih =>
    intro dest off m c s ph r d c' h w hbo hcl he h1
    have g := h.good
    have F := S.facts
    have hmx := F.nmax
    have h32 := F.max32
    have hn16 := F.n16
    have hple := pos_le h.ok
    have htot : ph.pos S * S.n + S.n ≤ (S.forsN + S.P.d * S.per + 1) * S.n := by
      rw [← Nat.succ_mul]; exact Nat.mul_le_mul_right _ (by omega)
    unfold signLoop at h1
    unfold Observer.signLoop
    by_cases hm0 : m = 0
    · subst hm0
      rw [if_pos rfl] at h1 ⊢
      cases h1
      exact ⟨ph, s, rfl, h, w, hbo, hcl, by rw [Nat.add_zero, Nat.min_eq_left (by omega)], by rintro (h | h) <;> omega⟩
    rw [if_neg hm0] at h1 ⊢
    rw [show (c.si s).ps = c.ps from rfl, show (c.si s).buffer_offset = c.buffer_offset from rfl, show (c.si s).buffer = c.buffer from rfl]
    rw [ctx_n g] at h1 ⊢
    have hrem : usub S.n c.buffer_offset = S.n - c.buffer_offset := by unfold usub; omega
    simp only [hrem] at h1 ⊢
    by_cases hfull : c.buffer_offset = S.n
    · rw [if_neg (by omega)] at h1 ⊢
      have hlt : ph.pos S < e := by
        have : (ph.pos S + 1) * S.n < (e + 1) * S.n := by rw [Nat.succ_mul]; omega
        have := Nat.lt_of_mul_lt_mul_right this
        omega
      rcases sign_step D p1 q1 h with ⟨hph, e1⟩ | ⟨ph1, b, c1, e1, o1, -, i1, r1⟩
      · rw [e1, ok_bind] at h1
        cases h1
        have hst : c.state = .done := by rw [hph] at h; exact h.2
        have e2 : Observer.signStep S.E m2 K (ph.pos S + 1) (c.si s) = .ok none := by rw [Observer.signStep, show (c.si s).state = _ from hst]
        rw [e2, ok_bind]
        refine ⟨ph, s, rfl, h, w, hbo, hcl, ?_, by intro _; omega⟩
        have : ph.pos S = S.forsN + S.P.d * S.per := by rw [hph]; rfl
        rw [Nat.min_eq_right (by rw [← this, Nat.succ_mul]; omega), ← this, Nat.succ_mul]; omega
      · rw [e1, ok_bind] at h1
        simp only at h1
        obtain ⟨t1, w1, f1, k1, -⟩ := step_two D p1 p2 q1 tw ag w h hlt e1
        have hps := pos_step D h.ok i1.ok r1
        rw [f1, ok_bind]
        simp only
        rw [← hps]
        have hT : ph1.pos S * S.n + c1.buffer_offset = ph.pos S * S.n + c.buffer_offset := by rw [hps, o1, hfull, Nat.succ_mul, Nat.add_zero]
        obtain ⟨ph2, t2, f2, a1, a2, a3, a4, a5, a6⟩ := ih dest off m c1 t1 ph1 r d c' i1 w1 (by omega) (by rw [hps]; exact k1) (by rw [hT]; exact he) h1
        exact ⟨ph2, t2, f2, a1, a2, a3, a4, by rw [a5, hT], fun _ => a6 (Or.inl (by omega))⟩
    · rw [if_pos (by omega)] at h1 ⊢
      obtain ⟨q, hq⟩ : ∃ q, q = (if S.n - c.buffer_offset > m then m else S.n - c.buffer_offset) := ⟨_, rfl⟩
      rw [← hq] at h1 ⊢
      have hr1 : 0 < q := by rw [hq]; split <;> omega
      have hr2 : q ≤ m := by rw [hq]; split <;> omega
      have hr3 : c.buffer_offset + q ≤ S.n := by rw [hq]; split <;> omega
      obtain ⟨v, ev, h1⟩ := bind_ok_inv h1
      obtain ⟨d1, ed, h1⟩ := bind_ok_inv h1
      rw [ev, ok_bind, ed, ok_bind]
      rw [Nat.mod_eq_of_lt (by omega)] at h1 ⊢
      obtain ⟨ph2, t2, f2, a1, a2, a3, a4, a5, a6⟩ := ih d1 (off + q) (m - q) { c with buffer_offset := c.buffer_offset + q } s ph r d c' (h.bo _) w hr3
        (fun hc => congrArg (fun x : Ctx => { x with buffer_offset := c.buffer_offset + q }) (hcl hc)) (by show ph.pos S * S.n + (c.buffer_offset + q) + (m - q) ≤ _; omega) h1
      refine ⟨ph2, t2, f2, a1, a2, a3, a4, ?_, fun _ => a6 (Or.inr (show 0 < c.buffer_offset + q by omega))⟩
      rw [a5]
      show min (ph.pos S * S.n + (c.buffer_offset + q) + (m - q)) _ = _
      congr 1
      omega

/-- `ts_sign` for signer and observer. -/
theorem ts_sign_two {e : Nat} (p1 : S.MemPub m1) (p2 : S.MemPub m2) (q1 : S.MemSec m1 D.sk) (tw : Images D K) (ag : Knows D K e)
    {dest : Bytes} {m : Nat} {c : Ctx} {s : TIter} {ph : Ph} {r : Nat} {d : Bytes} {c' : Ctx} (h : D.Inv ph c) (w : WfIter s) (hb : c.buffer_offset ≤ S.n)
    (hcl : S.clean (ph.pos S) → c.si s = c) (he : ph.pos S * S.n + c.buffer_offset + m ≤ (e + 1) * S.n)
    (h1 : ts_sign S.E m1 dest m c = .ok (r, d, c')) :
    ∃ ph' t, Observer.ts_sign S.E m2 K dest m (ph.pos S + 1) (c.si s) = .ok (r, d, ph'.pos S + 1, c'.si t) ∧ D.Inv ph' c' ∧ WfIter t ∧ c'.buffer_offset ≤ S.n ∧
      (S.clean (ph'.pos S) → c'.si t = c') ∧
      ph'.pos S * S.n + c'.buffer_offset = min (ph.pos S * S.n + c.buffer_offset + m) ((S.forsN + S.P.d * S.per + 1) * S.n) ∧
      (0 < m ∨ 0 < c.buffer_offset → 0 < c'.buffer_offset) := by
  unfold ts_sign at h1
  unfold Observer.ts_sign
  rw [show (c.si s).state = c.state from rfl]
  rw [if_neg h.guard] at h1 ⊢
  obtain ⟨⟨r1, d1, c1⟩, e1, h1⟩ := bind_ok_inv h1
  cases h1
  obtain ⟨ph', t, f, a⟩ := loop_two D p1 p2 q1 tw ag _ dest 0 m c s ph _ _ _ h w hb hcl he e1
  exact ⟨ph', t, by rw [f]; rfl, a⟩

end Model
