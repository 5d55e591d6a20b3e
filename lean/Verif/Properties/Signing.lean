import Verif.Properties.Examples
/-!
# Properties C02, C03, C04, C14 (and C10 for signing)

`SignJob` bundles the arguments of `ts_init_sign` with the caller's obligations; `signCalls` makes `ts_sign` calls.
A request is a buffer and the number of bytes asked for.
-/
namespace Properties
open Model
open Spec.Session (piece)

/-- The bytes delivered by a sequence of `ts_sign` calls. -/
def delivered (outs : List (Nat × Bytes)) : Bytes := (outs.map fun o => o.2.take o.1).flatten

/-- The number of bytes asked for. -/
def asked (reqs : List (Bytes × Nat)) : Nat := (reqs.map Prod.snd).sum

/-- No request exceeds its buffer. -/
def Fits (reqs : List (Bytes × Nat)) : Prop := ∀ r ∈ reqs, r.2 ≤ r.1.length

theorem size_eq (c : Config) (x : PsName) : ts_size_signature (ps c x) = x.P.sigBytes := by
  have e1 : (ps c x).n = x.P.n := by cases x <;> rfl
  have e2 : (ps c x).k = x.P.k := by cases x <;> rfl
  have e3 : (ps c x).t = x.P.a := by cases x <;> rfl
  have e4 : (ps c x).h = x.P.h := by cases x <;> rfl
  have e5 : (ps c x).d = x.P.d := by cases x <;> rfl
  unfold ts_size_signature Spec.Params.sigBytes Spec.Params.sigBlocks
  rw [e1, e2, e3, e4, e5]
  cases x <;> decide

/-- What a signing session delivers. -/
theorem sign_session (J : SignJob) (reqs : List (Bytes × Nat)) (h : Fits reqs) :
    ∃ c outs c', J.init = .ok (c, Model.reqs J.rng J.x.P.n) ∧ signCalls J.E J.mem c reqs = .ok (outs, c') ∧ delivered outs = J.signature.take (asked reqs) ∧
      Rel J.E (.signing J.x J.priv J.sk) (.signing (J.signature.drop (asked reqs))) c' := by
  obtain ⟨c, e, r⟩ := J.start
  obtain ⟨os, c', e', r', -, -, f⟩ := signCalls_ok J.hasKey reqs r h
  exact ⟨c, os, c', e, e', f, r'⟩

/-- C02: draining the signature yields, byte for byte, the signature of the standard for this private key, message
and `opt_rand`. -/
theorem C02_signature (J : SignJob) (reqs : List (Bytes × Nat)) (hfit : Fits reqs) (hall : J.x.P.sigBytes ≤ asked reqs) :
    ∃ c rq outs c', J.init = .ok (c, rq) ∧ signCalls J.E J.mem c reqs = .ok (outs, c') ∧
      delivered outs = Spec.Slh.sign J.x.P J.x.fns J.sk (optRand J.rng (skPkSeed J.x.P.n J.sk)) J.M := by
  obtain ⟨c, os, c', e, e', f, -⟩ := sign_session J reqs hfit
  refine ⟨c, _, os, c', e, e', ?_⟩
  rw [f, List.take_of_length_le (by rw [J.length_signature]; exact hall)]
  rfl

/-- C03: `ts_sign` is a cursor over one byte string `σ` (the same for all request sequences): request number `i`
gets the next bytes of `σ`, as many as asked for or as are left; the return value is their number, and the rest of
the buffer is untouched. -/
theorem C03_cursor (J : SignJob) : ∃ c rq σ, J.init = .ok (c, rq) ∧ ∀ reqs, Fits reqs →
    ∃ outs c', signCalls J.E J.mem c reqs = .ok (outs, c') ∧ outs.length = reqs.length ∧
      ∀ i (h : i < reqs.length) (h' : i < outs.length),
        outs[i] = ((piece σ reqs i).length, piece σ reqs i ++ (reqs[i].1).drop (piece σ reqs i).length) := by
  obtain ⟨c, e, r⟩ := J.start
  refine ⟨c, _, J.signature, e, fun reqs h => ?_⟩
  obtain ⟨os, c', e', r', l, f, -⟩ := signCalls_ok J.hasKey reqs r h
  exact ⟨os, c', e', l, f⟩

/-- C03: hence any two request sequences asking for the same total deliver the same bytes. -/
theorem C03_chunking (J : SignJob) (reqs₁ reqs₂ : List (Bytes × Nat)) (h₁ : Fits reqs₁) (h₂ : Fits reqs₂) (h : asked reqs₁ = asked reqs₂) :
    ∃ c rq outs₁ c₁ outs₂ c₂, J.init = .ok (c, rq) ∧ signCalls J.E J.mem c reqs₁ = .ok (outs₁, c₁) ∧ signCalls J.E J.mem c reqs₂ = .ok (outs₂, c₂) ∧
      delivered outs₁ = delivered outs₂ := by
  obtain ⟨c, e, r⟩ := J.start
  obtain ⟨o1, c1, e1, -, -, -, f1⟩ := signCalls_ok J.hasKey reqs₁ r h₁
  obtain ⟨o2, c2, e2, -, -, -, f2⟩ := signCalls_ok J.hasKey reqs₂ r h₂
  refine ⟨c, _, o1, c1, o2, c2, e, e1, e2, ?_⟩
  have f1' : delivered o1 = J.signature.take (asked reqs₁) := f1
  have f2' : delivered o2 = J.signature.take (asked reqs₂) := f2
  rw [f1', f2', h]

/-- C04: whatever is requested, the number of bytes delivered is the number asked for, but never more than
`ts_size_signature`; once that many have been asked for, every further call returns 0 and writes nothing. -/
theorem C04_exact_length (J : SignJob) (reqs : List (Bytes × Nat)) (hfit : Fits reqs) :
    ∃ c rq outs c', J.init = .ok (c, rq) ∧ signCalls J.E J.mem c reqs = .ok (outs, c') ∧
      (outs.map Prod.fst).sum = min (asked reqs) (ts_size_signature (ps J.E.cfg J.x)) ∧
      (delivered outs).length = min (asked reqs) (ts_size_signature (ps J.E.cfg J.x)) ∧
      (ts_size_signature (ps J.E.cfg J.x) ≤ asked reqs → ∀ dest m, m ≤ dest.length → ∃ c'', ts_sign J.E J.mem dest m c' = .ok (0, dest, c'')) := by
  obtain ⟨c, e, r⟩ := J.start
  obtain ⟨os, c', e', r', l, g, f⟩ := signCalls_ok J.hasKey reqs r hfit
  have hd : (delivered os).length = min (asked reqs) (ts_size_signature (ps J.E.cfg J.x)) := by
    unfold delivered
    rw [f, List.length_take, J.length_signature, size_eq]; rfl
  refine ⟨c, _, os, c', e, e', ?_, hd, ?_⟩
  · rw [← hd]
    have key : ∀ (os : List (Nat × Bytes)), (∀ o ∈ os, o.1 ≤ o.2.length) → (delivered os).length = (os.map Prod.fst).sum := by
      intro os
      induction os with
      | nil => intro _; rfl
      | cons o os ih =>
        intro h
        have h1 := h o (by simp)
        have h2 := ih (fun o ho => h o (by simp [ho]))
        unfold delivered at h2 ⊢
        rw [List.map_cons, List.flatten_cons, List.length_append, h2, List.length_take, List.map_cons, List.sum_cons, Nat.min_eq_left h1]
    rw [key]
    intro o ho
    obtain ⟨i, hi, rfl⟩ := List.getElem_of_mem ho
    rw [g i (by omega) hi, List.length_append]
    exact Nat.le_add_right _ _
  · intro hall dest m hm
    rw [size_eq] at hall
    obtain ⟨o, c'', e'', -, -, g', -⟩ := signCalls_ok J.hasKey [(dest, m)] r' (by intro q hq; rw [List.mem_singleton.1 hq]; exact hm)
    have hnil : J.signature.drop (asked reqs) = [] := List.drop_of_length_le (by rw [J.length_signature]; exact hall)
    rw [show (reqs.map Prod.snd).sum = asked reqs from rfl, hnil] at g'
    refine ⟨c'', ?_⟩
    unfold signCalls at e''
    cases hh : ts_sign J.E J.mem dest m c' with
    | error x => rw [hh] at e''; cases e''
    | ok v =>
      obtain ⟨a, b, d⟩ := v
      rw [hh, ok_bind] at e''
      simp only [signCalls, ok_bind, Except.ok.injEq, Prod.mk.injEq] at e''
      obtain ⟨rfl, rfl⟩ := e''
      have h0 := g' 0 (by simp) (by simp)
      simp only [piece, List.drop_nil, List.take_nil, List.length_nil, List.getElem_cons_zero, List.drop_zero, List.nil_append, Prod.mk.injEq] at h0
      rw [h0.1, h0.2]

/-- C14: no generator, or one that reports failure (whatever it wrote): the deterministic signature, `opt_rand = PK.seed`. -/
theorem C14_fallback (J : SignJob) (hfail : ∀ f, J.rng = some f → (f J.x.P.n).1 = false) (reqs : List (Bytes × Nat)) (hfit : Fits reqs)
    (hall : J.x.P.sigBytes ≤ asked reqs) :
    ∃ c rq outs c', J.init = .ok (c, rq) ∧ signCalls J.E J.mem c reqs = .ok (outs, c') ∧
      delivered outs = Spec.Slh.sign J.x.P J.x.fns J.sk (skPkSeed J.x.P.n J.sk) J.M := by
  obtain ⟨c, rq, os, c', e, e', f⟩ := C02_signature J reqs hfit hall
  refine ⟨c, rq, os, c', e, e', ?_⟩
  rw [f]
  congr 1
  have hl : (skPkSeed J.x.P.n J.sk).length = J.x.P.n := (key_split J.skLen).2.2.2.1
  unfold optRand
  cases hr : J.rng with
  | none => rfl
  | some g =>
    simp only [hl]
    rw [hfail g hr]
    rfl

/-- C14: a generator that delivers supplies `opt_rand`. -/
theorem C14_random (J : SignJob) (f : Rng) (hf : J.rng = some f) (hok : (f J.x.P.n).1 = true) (reqs : List (Bytes × Nat)) (hfit : Fits reqs)
    (hall : J.x.P.sigBytes ≤ asked reqs) :
    ∃ c rq outs c', J.init = .ok (c, rq) ∧ signCalls J.E J.mem c reqs = .ok (outs, c') ∧
      delivered outs = Spec.Slh.sign J.x.P J.x.fns J.sk (f J.x.P.n).2 J.M := by
  obtain ⟨c, rq, os, c', e, e', g⟩ := C02_signature J reqs hfit hall
  refine ⟨c, rq, os, c', e, e', ?_⟩
  rw [g]
  congr 1
  have hl : (skPkSeed J.x.P.n J.sk).length = J.x.P.n := (key_split J.skLen).2.2.2.1
  unfold optRand
  rw [hf]
  simp only [hl]
  rw [if_pos hok]

/-- C14: at most one request is made to the generator, for exactly `n` bytes. -/
theorem C14_requests (J : SignJob) : ∃ c rq, J.init = .ok (c, rq) ∧ rq = if J.rng.isSome then [J.x.P.n] else [] := by
  obtain ⟨c, e, -⟩ := J.start
  exact ⟨c, _, e, rfl⟩

/-- C14, C10: the bytes delivered are a function of parameter set, private key, message and `opt_rand` only: not of the
configuration, the addresses, the memory around, or the previous content of the context. -/
theorem C10_sign (J K : SignJob) (hx : J.x = K.x) (hsk : J.sk = K.sk) (hM : J.M = K.M)
    (hr : optRand J.rng (skPkSeed J.x.P.n J.sk) = optRand K.rng (skPkSeed K.x.P.n K.sk)) (reqs : List (Bytes × Nat)) (hfit : Fits reqs) :
    ∃ c rq c' d rq' d' outs, J.init = .ok (c, rq) ∧ signCalls J.E J.mem c reqs = .ok (outs, c') ∧
      K.init = .ok (d, rq') ∧ signCalls K.E K.mem d reqs = .ok (outs, d') := by
  obtain ⟨c, e, r⟩ := J.start
  obtain ⟨d, e2, r2⟩ := K.start
  obtain ⟨o1, c1, e3, -, l1, g1, -⟩ := signCalls_ok J.hasKey reqs r hfit
  obtain ⟨o2, c2, e4, -, l2, g2, -⟩ := signCalls_ok K.hasKey reqs r2 hfit
  have hs : J.signature = K.signature := by
    unfold SignJob.signature
    rw [hr, hx, hsk, hM]
  have : o1 = o2 := by
    apply List.ext_getElem (by omega)
    intro i h1 h2
    rw [g1 i (by omega) h1, g2 i (by omega) h2, hs]
  subst this
  exact ⟨c, _, c1, d, _, c2, o1, e, e3, e2, e4⟩

/-! The hypotheses are met: SHAKE-256s with requests of 0, 5000, 100000 bytes (of larger buffers). -/

/-- Three requests. -/
def exReqs : List (Bytes × Nat) := [(rampBytes 1 10, 0), (rampBytes 3 6000, 5000), (rampBytes 9 100000, 100000)]

theorem exReqs_fits : Fits exReqs := by
  intro r hr
  simp only [exReqs, List.mem_cons, List.not_mem_nil, or_false] at hr
  rcases hr with rfl | rfl | rfl <;> simp [rampBytes]

example : exSign.x.P.sigBytes = 29792 ∧ exSign.x.P.sigBytes ≤ asked exReqs := by decide
example : (∀ f, exSign2.rng = some f → (f exSign2.x.P.n).1 = false) ∧ exSign2.x.P.sigBytes ≤ asked exReqs :=
  ⟨fun f h => by cases h; rfl, by decide⟩
example : exSign.rng = some goodRng ∧ (goodRng exSign.x.P.n).1 = true := ⟨rfl, rfl⟩

end Properties
