import Verif.Proof.Session
/-!
# Signing and verification jobs
-/
namespace Model
open Spec Spec.Slh
open Spec.Session (State step feed piece)

/-! ## The length of signatures -/
section
variable {S : Sess}

theorem wotsSign_len (sk : Bytes) (l t kp : Nat) (M : Bytes) : ∀ b ∈ wotsSign S.P S.hf sk S.pkSeed l t kp M, b.length = S.n := by
  intro b hb
  obtain ⟨i, -, rfl⟩ := List.mem_map.1 hb
  exact length_chain _ _ _ _ _ _ _ (length_PRF _ _ _)

theorem xmssSign_len (sk : Bytes) (l t kp : Nat) (M : Bytes) : ∀ b ∈ xmssSign S.P S.hf sk S.pkSeed l t kp M, b.length = S.n := by
  intro b hb
  rcases List.mem_append.1 hb with h | h
  · exact wotsSign_len sk l t kp M b h
  · obtain ⟨i, -, rfl⟩ := List.mem_map.1 h
    exact length_xmssNode _ _ _ _ _

theorem htSignFrom_len (sk : Bytes) : ∀ (r j t leaf : Nat) (M : Bytes), ∀ b ∈ htSignFrom S.P S.hf sk S.pkSeed r j t leaf M, b.length = S.n := by
  intro r
  induction r with
  | zero => intro j t leaf M b hb; cases hb
  | succ r ih =>
    intro j t leaf M b hb
    rcases List.mem_append.1 hb with h | h
    · exact xmssSign_len sk j t leaf M b h
    · exact ih _ _ _ _ b h

theorem forsSign_len (sk : Bytes) (t kp : Nat) (idx : List Nat) : ∀ b ∈ forsSign S.P S.hf sk S.pkSeed t kp idx, b.length = S.n := by
  intro b hb
  obtain ⟨i, -, h⟩ := List.mem_flatMap.1 hb
  rcases List.mem_cons.1 h with rfl | h
  · exact length_PRF _ _ _
  · obtain ⟨j, -, rfl⟩ := List.mem_map.1 h
    exact length_forsNode _ _ _ _ _

theorem signBlocks_len (sk skPrf root opt M : Bytes) : ∀ b ∈ signBlocks S.P S.hf sk S.pkSeed skPrf root opt M, b.length = S.n := by
  intro b hb
  unfold signBlocks at hb
  simp only [List.mem_append, List.mem_singleton] at hb
  rcases hb with (rfl | h) | h
  · exact length_PRFmsg _ _ _
  · exact forsSign_len _ _ _ _ b h
  · exact htSignFrom_len _ _ _ _ _ _ b h

theorem length_signBlocks (sk skPrf root opt M : Bytes) : (signBlocks S.P S.hf sk S.pkSeed skPrf root opt M).length = S.P.sigBlocks := by
  unfold signBlocks htSign
  simp only [List.length_append, length_forsSign, length_htSignFrom, List.length_singleton]
  unfold Spec.Params.sigBlocks
  rw [S.facts.hhd, Nat.mul_add S.P.d, Nat.mul_comm S.P.d S.P.hp, Nat.add_comm 1 S.P.a]
  omega

end

/-- The session of a private key. -/
def skSess (E : Env) (x : PsName) (hx : supported E.cfg x = true) (priv : Nat) (sk : Bytes) (h : sk.length = 4 * x.P.n) : Sess :=
  ⟨E, x, hx, priv + 2 * x.P.n, skPkSeed x.P.n sk, (key_split h).2.2.2.1⟩

theorem sign_eq (x : PsName) (sk opt M : Bytes) : Spec.Session.signature x.inst sk opt M =
    (signBlocks x.P x.fns (sk.take x.P.n) (skPkSeed x.P.n sk) ((sk.drop x.P.n).take x.P.n) ((sk.drop (3 * x.P.n)).take x.P.n) opt M).flatten := rfl

theorem SignJob.length_signature (J : SignJob) : J.signature.length = J.x.P.sigBytes := by
  let S := skSess J.E J.x J.sup J.priv J.sk J.skLen
  unfold SignJob.signature
  rw [sign_eq]
  refine (length_flatten_blocks S.n _ (signBlocks_len (S := S) _ _ _ _ _)).trans ?_
  rw [length_signBlocks (S := S)]
  rfl

/-! ## Signing -/

theorem signCalls_ok {E : Env} {x : PsName} {priv : Nat} {sk : Bytes} {mem : Mem} (hm : mem.Has priv sk) (rs : List (Bytes × Nat)) :
    ∀ {rest : Bytes} {c : Ctx}, Rel E (.signing x priv sk) (.signing rest) c → (∀ r ∈ rs, r.2 ≤ r.1.length) →
    ∃ os c', signCalls E mem c rs = .ok (os, c') ∧ Rel E (.signing x priv sk) (.signing (rest.drop (rs.map Prod.snd).sum)) c' ∧ os.length = rs.length ∧
      (∀ i (h : i < rs.length) (h' : i < os.length), os[i] = ((piece rest rs i).length, piece rest rs i ++ (rs[i].1).drop (piece rest rs i).length)) ∧
      (os.map fun o => o.2.take o.1).flatten = rest.take (rs.map Prod.snd).sum := by
  induction rs with
  | nil => intro rest c r _; exact ⟨[], c, rfl, by simpa using r, rfl, fun i h => absurd h (by simp), by simp⟩
  | cons q rs ih =>
    obtain ⟨dest, m⟩ := q
    intro rest c r hl
    obtain ⟨c1, e1, r1⟩ := exec_ok (mem := mem) (op := .sign dest m) r ⟨hm, hl (dest, m) (by simp)⟩
    have e1' : ts_sign E mem dest m c = .ok ((rest.take m).length, rest.take m ++ dest.drop (rest.take m).length, c1) := by
      have h : (do let (r, dest, c) ← ts_sign E mem dest m c; .ok (Spec.Session.Out.signed r dest, c) : C (Spec.Session.Out × Ctx)) =
        .ok (.signed (rest.take m).length (rest.take m ++ dest.drop (rest.take m).length), c1) := e1
      cases hh : ts_sign E mem dest m c with
      | error e => rw [hh] at h; cases h
      | ok v =>
        obtain ⟨a, b, d⟩ := v
        rw [hh, ok_bind] at h
        simp only [Except.ok.injEq, Prod.mk.injEq, Spec.Session.Out.signed.injEq] at h
        obtain ⟨⟨rfl, rfl⟩, rfl⟩ := h
        rfl
    obtain ⟨os, c2, e2, r2, l2, i2, f2⟩ := ih (rest := rest.drop m) r1 (fun r hr => hl r (by simp [hr]))
    refine ⟨((rest.take m).length, rest.take m ++ dest.drop (rest.take m).length) :: os, c2, ?_, ?_, ?_, ?_, ?_⟩
    · unfold signCalls
      rw [e1', ok_bind]
      simp only [e2, ok_bind]
    · rw [List.drop_drop] at r2
      rw [List.map_cons, List.sum_cons]
      exact r2
    · rw [List.length_cons, List.length_cons, l2]
    · intro i h h'
      cases i with
      | zero => simp [piece]
      | succ i =>
        simp only [List.length_cons, Nat.add_lt_add_iff_right] at h h'
        have hp : piece rest ((dest, m) :: rs) (i + 1) = piece (rest.drop m) rs i := by
          unfold piece
          rw [List.take_succ_cons, List.map_cons, List.sum_cons, List.drop_drop, List.getElem?_cons_succ]
        rw [hp, List.getElem_cons_succ, List.getElem_cons_succ]
        exact i2 i h h'
    · rw [List.map_cons, List.flatten_cons, f2, List.map_cons, List.sum_cons]
      simp only
      rw [List.take_left' rfl, ← List.take_add]

theorem SignJob.start (J : SignJob) : ∃ c, J.init = .ok (c, reqs J.rng J.x.P.n) ∧ Rel J.E (.signing J.x J.priv J.sk) (.signing J.signature) c := by
  obtain ⟨c, e, r⟩ := exec_ok (mem := J.mem) (op := .initSign J.x J.msg J.M J.priv J.sk J.rng) (.fresh J.shape)
    ⟨J.sup, J.skLen, J.hasKey, J.hasMsg, J.msgLen, J.rngOk⟩
  have r' : Rel J.E (.signing J.x J.priv J.sk) (.signing J.signature) c := r
  let S := skSess J.E J.x J.sup J.priv J.sk J.skLen
  obtain ⟨k1, k2, k3, k4⟩ := key_mem J.skLen J.hasKey
  obtain ⟨-, l1, l2, l3, l4⟩ := key_split J.skLen
  obtain ⟨c', D, q1, q2, q3, q4, q5⟩ := ts_init_sign_ok (S := S) (mem := J.mem) (c := J.c0) (msg := J.msg) (skSeed := J.sk.take J.x.P.n)
      (skPrf := (J.sk.drop J.x.P.n).take J.x.P.n) (root := (J.sk.drop (3 * J.x.P.n)).take J.x.P.n) (M := J.M) (rng := J.rng) (priv := J.priv)
      J.shape rfl k3 ⟨by show 2 * J.x.P.n ≤ J.priv + 2 * J.x.P.n; omega, l1, by
        show J.mem.Has (J.priv + 2 * J.x.P.n - 2 * J.x.P.n) _
        rw [Nat.add_sub_cancel]; exact k1⟩
      ⟨by show J.x.P.n ≤ J.priv + 2 * J.x.P.n; omega, l2, by
        show J.mem.Has (J.priv + 2 * J.x.P.n - J.x.P.n) _
        rw [show J.priv + 2 * J.x.P.n - J.x.P.n = J.priv + J.x.P.n by omega]; exact k2⟩
      ⟨l4, by
        show J.mem.Has (J.priv + 2 * J.x.P.n + J.x.P.n) _
        rw [show J.priv + 2 * J.x.P.n + J.x.P.n = J.priv + 3 * J.x.P.n by omega]; exact k4⟩
      J.hasMsg J.msgLen J.rngOk
  refine ⟨c', q2, ?_⟩
  have e' : (do let (c, _) ← ts_init_sign J.E J.mem J.c0 J.msg J.M.length (ps J.E.cfg J.x) J.priv J.rng; .ok (Spec.Session.Out.unit, c) : C (Spec.Session.Out × Ctx)) =
      .ok (.unit, c) := e
  rw [show ts_init_sign J.E J.mem J.c0 J.msg J.M.length (ps J.E.cfg J.x) J.priv J.rng = _ from q2, ok_bind] at e'
  simp only [Except.ok.injEq, Prod.mk.injEq] at e'
  rw [e'.2]; exact r'

/-! ## Verification -/

/-- Feeding one piece. -/
theorem update_ok {E : Env} {x : PsName} {pub msg : Nat} {pk M log : Bytes} {f : Bool} {mem : Mem} {c : Ctx} (hp : mem.Has pub pk)
    (hM : log.length < x.P.n → mem.Has msg M)
    (r : Rel E (.verifying x pub pk msg M) (.verifying x.inst pk M log f) c) (t : Bytes) :
    ∃ c', ts_update_verify E mem t c = .ok (if (!f && feed x.inst pk M log t) = true then 1 else 0, c') ∧
      Rel E (.verifying x pub pk msg M) (.verifying x.inst pk M (log ++ t) (!(!f && feed x.inst pk M log t))) c' := by
  obtain ⟨c1, e1, r1⟩ := exec_ok (mem := mem) (op := .update t) r ⟨hp, hM⟩
  refine ⟨c1, ?_, r1⟩
  have h : (do let (r, c) ← ts_update_verify E mem t c; .ok (Spec.Session.Out.ret r, c) : C (Spec.Session.Out × Ctx)) =
    .ok (.ret (if (!f && feed x.inst pk M log t) = true then 1 else 0), c1) := e1
  cases hh : ts_update_verify E mem t c with
  | error e => rw [hh] at h; cases h
  | ok v =>
    obtain ⟨a, d⟩ := v
    rw [hh, ok_bind] at h
    simp only [Except.ok.injEq, Prod.mk.injEq, Spec.Session.Out.ret.injEq] at h
    obtain ⟨rfl, rfl⟩ := h
    rfl

/-- Return values of successive `ts_update_verify` calls. -/
def feeds (x : Instance) (pk M : Bytes) : (log : Bytes) → (failed : Bool) → List Bytes → List Nat
  | _, _, [] => []
  | log, f, t :: ts => (if (!f && feed x pk M log t) = true then 1 else 0) :: feeds x pk M (log ++ t) (!(!f && feed x pk M log t)) ts

theorem updateCalls_ok {E : Env} {x : PsName} {pub msg : Nat} {pk M : Bytes} {mem : Mem} (hp : mem.Has pub pk) (ts : List Bytes) :
    ∀ {log : Bytes} {f : Bool} {c : Ctx}, (log.length < x.P.n → mem.Has msg M) → Rel E (.verifying x pub pk msg M) (.verifying x.inst pk M log f) c →
    ∃ rs c' f', updateCalls E mem c ts = .ok (rs, c') ∧ Rel E (.verifying x pub pk msg M) (.verifying x.inst pk M (log ++ ts.flatten) f') c' ∧
      rs.length = ts.length ∧ (∀ r ∈ rs, r = 0 ∨ r = 1) ∧ (f' = true ↔ f = true ∨ 0 ∈ rs) ∧ (f = true → ∀ r ∈ rs, r = 0) ∧ rs = feeds x.inst pk M log f ts := by
  induction ts with
  | nil => intro log f c _ r; exact ⟨[], c, f, rfl, by simpa using r, rfl, by simp, by simp, by simp, rfl⟩
  | cons t ts ih =>
    intro log f c hM r
    obtain ⟨c1, e1, r1⟩ := update_ok hp hM r t
    obtain ⟨rs, c2, f2, e2, r2, l2, a2, b2, d2, k2⟩ := ih (fun h => hM (by rw [List.length_append] at h; omega)) r1
    refine ⟨(if (!f && feed x.inst pk M log t) = true then 1 else 0) :: rs, c2, f2, ?_, ?_, ?_, ?_, ?_, ?_, ?_⟩
    · unfold updateCalls
      rw [e1, ok_bind]
      simp only [e2, ok_bind]
    · rw [List.flatten_cons, ← List.append_assoc]; exact r2
    · rw [List.length_cons, List.length_cons, l2]
    · intro q hq
      rcases List.mem_cons.1 hq with rfl | hq
      · split <;> simp
      · exact a2 q hq
    · rw [b2]
      cases f <;> cases feed x.inst pk M log t <;> simp
    · intro hf q hq
      subst hf
      rcases List.mem_cons.1 hq with rfl | hq
      · simp
      · exact d2 (by simp) q hq
    · rw [k2]; rfl

theorem verify_ok {E : Env} {x : PsName} {pub msg : Nat} {pk M log : Bytes} {f : Bool} {c : Ctx}
    (r : Rel E (.verifying x pub pk msg M) (.verifying x.inst pk M log f) c) :
    ts_verify c = if Spec.Session.valid x.inst pk M log = true then 1 else 0 := by
  obtain ⟨c1, e1, -⟩ := exec_ok (mem := fun _ => none) (op := .verify) r trivial
  have h : (Except.ok (Spec.Session.Out.ret (ts_verify c), c) : C (Spec.Session.Out × Ctx)) = .ok (.ret (if Spec.Session.valid x.inst pk M log = true then 1 else 0), c1) := e1
  simp only [Except.ok.injEq, Prod.mk.injEq, Spec.Session.Out.ret.injEq] at h
  exact h.1

theorem VerifyJob.start (J : VerifyJob) : ∃ c, J.init = .ok c ∧ Rel J.E (.verifying J.x J.pub J.pk J.msg J.M) (.verifying J.x.inst J.pk J.M [] false) c := by
  obtain ⟨c, e, r⟩ := exec_ok (mem := J.mem) (op := .initVerify J.x J.msg J.M J.pub J.pk) (.fresh J.shape) ⟨J.sup, J.pkLen, J.hasKey, J.msgLen, J.msgPtr⟩
  refine ⟨c, ?_, r⟩
  have h : (do let c ← J.init; .ok (Spec.Session.Out.unit, c) : C (Spec.Session.Out × Ctx)) = .ok (.unit, c) := e
  cases hh : J.init with
  | error e => rw [hh] at h; cases h
  | ok v =>
    rw [hh, ok_bind] at h
    simp only [Except.ok.injEq, Prod.mk.injEq] at h
    rw [h.2]

end Model
