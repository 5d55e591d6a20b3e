import Verif.Properties.Signing
/-!
# Properties C05 - C09, C15 (and C10 for verification)

`VerifyJob` bundles the arguments of `ts_init_verify` with the caller's obligations; `updateCalls` makes
`ts_update_verify` calls, one for each piece of a list.
-/
namespace Properties
open Model

/-- What a verification session reports. -/
theorem verify_session (J : VerifyJob) (ts : List Bytes) :
    ∃ c rs c' f, J.init = .ok c ∧ updateCalls J.E J.mem c ts = .ok (rs, c') ∧ rs.length = ts.length ∧ (∀ r ∈ rs, r = 0 ∨ r = 1) ∧ (f = true ↔ 0 ∈ rs) ∧
      Rel J.E (.verifying J.x J.pub J.pk J.msg J.M) (.verifying J.x.inst J.pk J.M ts.flatten f) c' ∧ rs = feeds J.x.inst J.pk J.M [] false ts := by
  obtain ⟨c, e, r⟩ := J.start
  obtain ⟨rs, c', f', e', r', l, h01, hf, -, hr⟩ := updateCalls_ok J.hasKey ts (fun _ => J.hasMsg) r
  exact ⟨c, rs, c', f', e, e', l, h01, by simpa using hf, by simpa using r', hr⟩

theorem rel_failed {E : Env} {h : Held} {x : Spec.Instance} {pk M log : Bytes} {f : Bool} {c : Ctx} (r : Rel E h (.verifying x pk M log f) c) (hf : f = true) :
    x.params.sigBytes ≤ log.length ∧ Spec.Session.valid x pk M log = false := by
  cases r with
  | verifying S h1 h2 h3 h4 h5 h6 h7 h8 h9 => exact h9 hf

/-- C05: `ts_verify` returns 1 exactly if the bytes fed are, together, a signature of the right size that the
verification algorithm of the standard accepts; otherwise it returns 0. -/
theorem C05_verdict (J : VerifyJob) (ts : List Bytes) :
    ∃ c rs c', J.init = .ok c ∧ updateCalls J.E J.mem c ts = .ok (rs, c') ∧
      (ts_verify c' = 1 ↔ ts.flatten.length = ts_size_signature (ps J.E.cfg J.x) ∧ Spec.Slh.verify J.x.P J.x.fns J.pk J.M ts.flatten = true) ∧
      (ts_verify c' = 0 ∨ ts_verify c' = 1) := by
  obtain ⟨c, rs, c', f, e, e', -, -, -, r, -⟩ := verify_session J ts
  refine ⟨c, rs, c', e, e', ?_, ?_⟩
  · rw [verify_ok r, size_eq]
    constructor
    · intro h
      have hv : Spec.Session.valid J.x.inst J.pk J.M ts.flatten = true := by
        by_cases hh : Spec.Session.valid J.x.inst J.pk J.M ts.flatten = true
        · exact hh
        · rw [if_neg hh] at h; cases h
      exact ⟨valid_len hv, hv⟩
    · rintro ⟨-, h⟩
      rw [if_pos h]
  · rw [verify_ok r]
    split
    · exact .inr rfl
    · exact .inl rfl

/-- C06: the verdict does not depend on how the bytes were split into calls. -/
theorem C06_chunking (J : VerifyJob) (ts₁ ts₂ : List Bytes) (h : ts₁.flatten = ts₂.flatten) :
    ∃ c rs₁ c₁ rs₂ c₂, J.init = .ok c ∧ updateCalls J.E J.mem c ts₁ = .ok (rs₁, c₁) ∧ updateCalls J.E J.mem c ts₂ = .ok (rs₂, c₂) ∧
      ts_verify c₁ = ts_verify c₂ := by
  obtain ⟨c, e, r⟩ := J.start
  obtain ⟨rs1, c1, f1, e1, r1, -⟩ := updateCalls_ok J.hasKey ts₁ (fun _ => J.hasMsg) r
  obtain ⟨rs2, c2, f2, e2, r2, -⟩ := updateCalls_ok J.hasKey ts₂ (fun _ => J.hasMsg) r
  refine ⟨c, rs1, c1, rs2, c2, e, e1, e2, ?_⟩
  rw [verify_ok r1, verify_ok r2, h]

/-- C07: too few or too many bytes, however split: the verdict is 0. -/
theorem C07_wrong_length (J : VerifyJob) (ts : List Bytes) (h : (ts.map List.length).sum ≠ ts_size_signature (ps J.E.cfg J.x)) :
    ∃ c rs c', J.init = .ok c ∧ updateCalls J.E J.mem c ts = .ok (rs, c') ∧ ts_verify c' = 0 := by
  obtain ⟨c, rs, c', e, e', hv, h01⟩ := C05_verdict J ts
  refine ⟨c, rs, c', e, e', h01.resolve_right fun h1 => h ?_⟩
  rw [← (hv.1 h1).1, List.length_flatten]

/-- C08: once a call has returned 0, all later calls return 0 and the verdict is 0. -/
theorem C08_failure_is_final (J : VerifyJob) (ts us : List Bytes) :
    ∃ c rs c' qs c'', J.init = .ok c ∧ updateCalls J.E J.mem c ts = .ok (rs, c') ∧ updateCalls J.E J.mem c' us = .ok (qs, c'') ∧
      (0 ∈ rs → ts_verify c' = 0 ∧ (∀ q ∈ qs, q = 0) ∧ ts_verify c'' = 0) := by
  obtain ⟨c, rs, c', f, e, e', -, -, hf, r, -⟩ := verify_session J ts
  obtain ⟨qs, c'', f'', e'', r'', -, -, hf'', hz, -⟩ := updateCalls_ok J.hasKey us (fun _ => J.hasMsg) r
  refine ⟨c, rs, c', qs, c'', e, e', e'', fun h0 => ?_⟩
  have hft : f = true := hf.2 h0
  refine ⟨?_, hz hft, ?_⟩
  · rw [verify_ok r, (rel_failed r hft).2]; rfl
  · rw [verify_ok r'', (rel_failed r'' (hf''.2 (.inl hft))).2]; rfl

/-- C09: no proper prefix is refused: as long as fewer bytes than the size of a signature were fed, all calls return 1. -/
theorem C09_prefix (J : VerifyJob) (ts : List Bytes) (h : ts.flatten.length < ts_size_signature (ps J.E.cfg J.x)) :
    ∃ c rs c', J.init = .ok c ∧ updateCalls J.E J.mem c ts = .ok (rs, c') ∧ rs.length = ts.length ∧ ∀ r ∈ rs, r = 1 := by
  obtain ⟨c, rs, c', f, e, e', l, h01, hf, r, -⟩ := verify_session J ts
  refine ⟨c, rs, c', e, e', l, fun q hq => (h01 q hq).resolve_left fun h0 => ?_⟩
  subst h0
  have := (rel_failed r (hf.2 hq)).1
  rw [size_eq] at h
  exact absurd h (Nat.not_lt.2 this)

/-- C09: the call that brings the signature to its size returns 1 iff the signature is valid, and a call that runs past
its end returns 0. -/
theorem C09_last (J : VerifyJob) (ts : List Bytes) (t : Bytes) (h : ts.flatten.length < ts_size_signature (ps J.E.cfg J.x)) :
    ∃ c rs c' q c'', J.init = .ok c ∧ updateCalls J.E J.mem c ts = .ok (rs, c') ∧ ts_update_verify J.E J.mem t c' = .ok (q, c'') ∧
      ((ts.flatten ++ t).length = ts_size_signature (ps J.E.cfg J.x) →
        q = if Spec.Slh.verify J.x.P J.x.fns J.pk J.M (ts.flatten ++ t) = true then 1 else 0) ∧
      ((ts.flatten ++ t).length > ts_size_signature (ps J.E.cfg J.x) → q = 0) := by
  obtain ⟨c, rs, c', f, e, e', l, h01, hf, r, -⟩ := verify_session J ts
  obtain ⟨c'', e'', -⟩ := update_ok J.hasKey (fun _ => J.hasMsg) r t
  have hff : f = false := by
    cases f with
    | false => rfl
    | true =>
      have := (rel_failed r rfl).1
      rw [size_eq] at h
      exact absurd h (Nat.not_lt.2 this)
  subst hff
  rw [size_eq] at *
  have hL : J.x.inst.params.sigBytes = J.x.P.sigBytes := rfl
  have hfd : Spec.Session.feed J.x.inst J.pk J.M ts.flatten t = if (ts.flatten ++ t).length < J.x.P.sigBytes then true else
      if (ts.flatten ++ t).length = J.x.P.sigBytes then Spec.Slh.verify J.x.P J.x.fns J.pk J.M (ts.flatten ++ t) else false := by
    unfold Spec.Session.feed
    simp only [hL]
    rw [if_pos h]
  refine ⟨c, rs, c', _, c'', e, e', e'', ?_, ?_⟩
  · intro h1
    rw [hfd, if_neg (show ¬ (ts.flatten ++ t).length < J.x.P.sigBytes by omega), if_pos h1]
    simp
  · intro h1
    rw [hfd, if_neg (show ¬ (ts.flatten ++ t).length < J.x.P.sigBytes by omega), if_neg (show ¬ (ts.flatten ++ t).length = J.x.P.sigBytes by omega)]
    rfl

/-- C09: after the end, empty and short extra calls (less than `n` bytes in total) still return what the completing call
returned, so the return value alone is no verdict; `ts_verify` is (C05). -/
theorem C09_extra (J : VerifyJob) (σ t : Bytes) (h : σ.length = ts_size_signature (ps J.E.cfg J.x)) (ht : t.length < J.x.P.n) :
    ∃ c q c' q' c'', J.init = .ok c ∧ ts_update_verify J.E J.mem σ c = .ok (q, c') ∧ ts_update_verify J.E J.mem t c' = .ok (q', c'') ∧ q' = q := by
  obtain ⟨c, e, r⟩ := J.start
  obtain ⟨c', e', r'⟩ := update_ok J.hasKey (fun _ => J.hasMsg) r σ
  obtain ⟨c'', e'', -⟩ := update_ok J.hasKey (fun _ => J.hasMsg) r' t
  refine ⟨c, _, c', _, c'', e, e', e'', ?_⟩
  have hL : J.x.inst.params.sigBytes = J.x.P.sigBytes := rfl
  have hn : J.x.inst.params.n = J.x.P.n := rfl
  rw [size_eq] at h
  have : Spec.Session.feed J.x.inst J.pk J.M ([] ++ σ) t = true := by
    unfold Spec.Session.feed
    simp only [List.nil_append, hL, hn]
    rw [if_neg (by omega), List.length_append]
    exact decide_eq_true (by omega)
  rw [this]
  cases Spec.Session.feed J.x.inst J.pk J.M [] σ <;> rfl

/-- C10: the reports of a verification session are a function of parameter set, public key, message and the pieces fed:
not of the configuration, the addresses, the memory around, or the previous content of the context. -/
theorem C10_verify (J K : VerifyJob) (hx : J.x = K.x) (hpk : J.pk = K.pk) (hM : J.M = K.M) (ts : List Bytes) :
    ∃ c c' d d' rs, J.init = .ok c ∧ updateCalls J.E J.mem c ts = .ok (rs, c') ∧ K.init = .ok d ∧ updateCalls K.E K.mem d ts = .ok (rs, d') ∧
      ts_verify c' = ts_verify d' := by
  obtain ⟨c, rs, c', f, e, e', -, -, -, r, h1⟩ := verify_session J ts
  obtain ⟨d, rs', d', f', e2, e2', -, -, -, r2, h2⟩ := verify_session K ts
  have : rs = rs' := by rw [h1, h2, hx, hpk, hM]
  subst this
  refine ⟨c, c', d, d', rs, e, e', e2, e2', ?_⟩
  rw [verify_ok r, verify_ok r2, hx, hpk, hM]

/-- `mem` with everything unmapped except `la` bytes at `a` and `lb` bytes at `b`. -/
def onlyRegions (mem : Mem) (a la b lb : Nat) : Mem :=
  fun p => if (a ≤ p ∧ p < a + la) ∨ (b ≤ p ∧ p < b + lb) then mem p else none

theorem onlyRegions_left {mem : Mem} {a b lb : Nat} {bs : Bytes} (h : mem.Has a bs) : (onlyRegions mem a bs.length b lb).Has a bs := by
  intro i hi
  unfold onlyRegions
  rw [if_pos (.inl ⟨by omega, by omega⟩)]
  exact h i hi

theorem onlyRegions_right {mem : Mem} {a b la : Nat} {bs : Bytes} (h : mem.Has b bs) : (onlyRegions mem a la b bs.length).Has b bs := by
  intro i hi
  unfold onlyRegions
  rw [if_pos (.inr ⟨by omega, by omega⟩)]
  exact h i hi

/-- The job with all memory unmapped except the public key (`2n` bytes at `pub`) and the message. -/
def blinded (J : VerifyJob) : VerifyJob where
  E := J.E
  x := J.x
  sup := J.sup
  mem := onlyRegions J.mem J.pub (2 * J.x.P.n) J.msg J.M.length
  pub := J.pub
  pk := J.pk
  msg := J.msg
  M := J.M
  c0 := J.c0
  shape := J.shape
  pkLen := J.pkLen
  hasKey := by rw [← J.pkLen]; exact onlyRegions_left J.hasKey
  hasMsg := onlyRegions_right J.hasMsg
  msgLen := J.msgLen
  msgPtr := J.msgPtr

/-- C15: verification works, with the same results, when only the public key and the message are mapped; in
particular nothing in front of the public key is read. (An access to an unmapped address is an error in the model.) -/
theorem C15_public_only (J : VerifyJob) (ts : List Bytes) :
    let mem' := onlyRegions J.mem J.pub (2 * J.x.P.n) J.msg J.M.length
    ∃ c c' d d' rs, ts_init_verify J.E J.mem J.c0 J.msg J.M.length (ps J.E.cfg J.x) J.pub = .ok c ∧ updateCalls J.E J.mem c ts = .ok (rs, c') ∧
      ts_init_verify J.E mem' J.c0 J.msg J.M.length (ps J.E.cfg J.x) J.pub = .ok d ∧ updateCalls J.E mem' d ts = .ok (rs, d') ∧
      ts_verify c' = ts_verify d' :=
  C10_verify J (blinded J) rfl rfl rfl ts

/-! The hypotheses are met. -/

/-- Three pieces, one of them empty. -/
def exPieces : List Bytes := [rampBytes 3 5000, [], rampBytes 77 11223]

example : exPieces.flatten.length = 16223 ∧ ts_size_signature (ps exVerify.E.cfg exVerify.x) = 16224 := by
  constructor
  · simp [exPieces, rampBytes]
  · rw [size_eq]; decide
example : exPieces.flatten.length < ts_size_signature (ps exVerify.E.cfg exVerify.x) := by rw [size_eq]; simp [exPieces, rampBytes]; decide
example : ((exPieces ++ [[1, 2]]).map List.length).sum ≠ ts_size_signature (ps exVerify.E.cfg exVerify.x) := by rw [size_eq]; simp [exPieces, rampBytes]; decide
example : exPieces.flatten = ([exPieces.flatten] : List Bytes).flatten := by simp
/-- Some calls do fail: here the second one runs past the end of the signature. -/
example : ∃ c rs c', exVerify.init = .ok c ∧ updateCalls exVerify.E exVerify.mem c [exPieces.flatten, [1, 2]] = .ok (rs, c') ∧ 0 ∈ rs := by
  obtain ⟨c, e, r⟩ := exVerify.start
  obtain ⟨rs, c', f', e', r', l, h01, hf, -, hr⟩ := updateCalls_ok exVerify.hasKey [exPieces.flatten, [1, 2]] (fun _ => exVerify.hasMsg) r
  refine ⟨c, rs, c', e, e', ?_⟩
  have hP : exVerify.x.inst.params.sigBytes = 16224 := by decide
  have hl : exPieces.flatten.length = 16223 := by simp [exPieces, rampBytes]
  rw [hr]
  unfold feeds feeds feeds
  have : Spec.Session.feed exVerify.x.inst exVerify.pk exVerify.M ([] ++ exPieces.flatten) [1, 2] = false := by
    unfold Spec.Session.feed
    simp only [List.nil_append, List.length_append, List.length_cons, List.length_nil, hP, hl]
    rfl
  rw [this, Bool.and_false]
  simp

end Properties
