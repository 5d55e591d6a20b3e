import Verif.Properties.Keys
import Verif.Properties.OneTime
import Verif.Proof.LeakStrict
/-!
# Properties C41, C42: control flow and memory accesses do not depend on secrets

`Leak.ts_gen_key`, `Leak.signRun` are the functions of the model together with the events that an observer of timing, of the
instruction addresses and of the memory addresses sees: `.res` is the outcome, `.log` the list of events. A *simulator* is a
program that has no access to the secrets; that its events are those of the library says that the latter carry no information
beyond the arguments of the simulator.
-/
namespace Properties
open Model

/-! ## C41: key generation -/

/-- The leakage model computes what the model computes. -/
theorem C41_outcome (J : KeyJob) : (Leak.ts_gen_key J.E J.mem (some J.priv) J.pub (some (ps J.E.cfg J.x)) (some J.rng)).res = J.run :=
  Leak.ts_gen_key_res ..

/-- C41: the events of `ts_gen_key` are those of a program that is given only the parameter set, the addresses, and the return
value of the random number generator: no secret seed, no uninitialised memory. -/
theorem C41_keygen (J : KeyJob) :
    (Leak.ts_gen_key J.E J.mem (some J.priv) J.pub (some (ps J.E.cfg J.x)) (some J.rng)).log =
      (Leak.simGenKey J.E.cfg (some J.x) (some J.priv) J.pub (Leak.mapped J.mem) (some (J.delivers, J.bytes.length))).log :=
  (Leak.genKey_rel J.E J.mem (some J.priv) J.pub J.x (some J.rng)).1

/-- C41: generating two keys at the same place, whatever the random bytes, leaves the same events. -/
theorem C41_same (J K : KeyJob) (hc : J.E.cfg = K.E.cfg) (hx : J.x = K.x) (hp : J.priv = K.priv) (hq : J.pub = K.pub)
    (hm : ∀ a, (J.mem a).isSome = (K.mem a).isSome) (hJ : J.delivers = true) (hK : K.delivers = true) :
    (Leak.ts_gen_key J.E J.mem (some J.priv) J.pub (some (ps J.E.cfg J.x)) (some J.rng)).log =
      (Leak.ts_gen_key K.E K.mem (some K.priv) K.pub (some (ps K.E.cfg K.x)) (some K.rng)).log := by
  rw [C41_keygen, C41_keygen, hc, hx, hp, hq, hJ, hK, show Leak.mapped J.mem = Leak.mapped K.mem from funext hm,
    show J.bytes.length = _ from J.rngOk.2 hJ, show K.bytes.length = _ from K.rngOk.2 hK, hx]

/-! ## C42: signing -/

/-- The leakage model computes what the model computes. -/
theorem C42_outcome (J : SignJob) (reqs : List (Bytes × Nat)) :
    (Leak.signRun J reqs).res = (do
      let (c, rq) ← J.init
      let (outs, _) ← signCalls J.E J.mem c reqs
      .ok (rq, outs)) := by
  unfold Leak.signRun SignJob.init
  simp only [Leak.res_bind, Leak.ts_init_sign_res, Leak.signCalls_res, Leak.res_ok]

/-- C42: the events of a signature operation are those of a program that is given the public key, the message and the
signature (and the addresses and sizes), but neither the secret seeds nor the randomness nor uninitialised memory. Here for a
signature that is drained completely, in calls of any sizes; `σ` is what these calls deliver. -/
theorem C42_sign (J : SignJob) (reqs : List (Bytes × Nat)) (hfit : Fits reqs) (hall : J.x.P.sigBytes ≤ asked reqs) :
    ∃ rq outs, (Leak.signRun J reqs).res = .ok (rq, outs) ∧
      (Leak.signRun J reqs).log = (Leak.simSignRun J.E.cfg J.x J.priv J.msg (Leak.mapped J.mem) (Leak.rngShape J.x.P.n J.rng)
        (J.sk.drop (2 * J.x.P.n)) J.M (delivered outs) (reqs.map fun r => (r.1.length, r.2))).log := by
  obtain ⟨c, os, c', e, e', f, -⟩ := sign_session J reqs hfit
  refine ⟨Model.reqs J.rng J.x.P.n, os, ?_, ?_⟩
  · rw [C42_outcome, e, ok_bind]
    dsimp only
    rw [e', ok_bind]
  · rw [f, List.take_of_length_le (by rw [J.length_signature]; exact hall)]
    exact (Leak.signRun_rel J reqs).1

/-- C42 for any calls, whether they drain the signature or not: the simulator is given the whole signature of the standard. -/
theorem C42_sign_any (J : SignJob) (reqs : List (Bytes × Nat)) :
    (Leak.signRun J reqs).log = (Leak.simSignRun J.E.cfg J.x J.priv J.msg (Leak.mapped J.mem) (Leak.rngShape J.x.P.n J.rng)
      (J.sk.drop (2 * J.x.P.n)) J.M (Spec.Slh.sign J.x.P J.x.fns J.sk (optRand J.rng (skPkSeed J.x.P.n J.sk)) J.M)
      (reqs.map fun r => (r.1.length, r.2))).log :=
  (Leak.signRun_rel J reqs).1

/-- C42: two operations that sign the same message under the same public key with the same result leave the same events,
whatever the secret keys, the randomness, the earlier content of the context and uninitialised memory. -/
theorem C42_same (J K : SignJob) (reqs₁ reqs₂ : List (Bytes × Nat)) (hc : J.E.cfg = K.E.cfg) (hx : J.x = K.x) (hp : J.priv = K.priv) (hq : J.msg = K.msg)
    (hm : ∀ a, (J.mem a).isSome = (K.mem a).isSome) (hr : Leak.rngShape J.x.P.n J.rng = Leak.rngShape J.x.P.n K.rng)
    (hpk : J.sk.drop (2 * J.x.P.n) = K.sk.drop (2 * J.x.P.n)) (hM : J.M = K.M)
    (hσ : Spec.Slh.sign J.x.P J.x.fns J.sk (optRand J.rng (skPkSeed J.x.P.n J.sk)) J.M = Spec.Slh.sign K.x.P K.x.fns K.sk (optRand K.rng (skPkSeed K.x.P.n K.sk)) K.M)
    (hs : (reqs₁.map fun r => (r.1.length, r.2)) = reqs₂.map fun r => (r.1.length, r.2)) :
    (Leak.signRun J reqs₁).log = (Leak.signRun K reqs₂).log := by
  rw [C42_sign_any, C42_sign_any, hσ, hc, hp, hq, hM, hs, show Leak.mapped J.mem = Leak.mapped K.mem from funext hm, ← hx, hr, hpk]

/-! The hypotheses are met. -/

example : ∃ J K : KeyJob, J.E.cfg = K.E.cfg ∧ J.x = K.x ∧ J.priv = K.priv ∧ J.pub = K.pub ∧ (∀ a, (J.mem a).isSome = (K.mem a).isSome) ∧
    J.delivers = true ∧ K.delivers = true ∧ J.bytes ≠ K.bytes :=
  ⟨exKey goodRng (goodRng_ok _), exKey (fun n => (true, List.replicate n 255)) ⟨by simp, fun _ => by simp⟩, rfl, rfl, rfl, rfl, fun _ => rfl, rfl, rfl,
    by decide⟩

example : Fits exReqs ∧ exSign.x.P.sigBytes ≤ asked exReqs := ⟨exReqs_fits, by decide⟩

/-- The operation of `exSign` in another context and with other uninitialised memory. -/
def exSign' : SignJob :=
  { exSign with
    E := { exSign.E with junk := fun _ _ => 99 }
    c0 := { exSign.c0 with buffer_offset := 77, state := .wots }
    shape := ⟨exSign.shape.adr, exSign.shape.buf, exSign.shape.auth, exSign.shape.x, exSign.shape.si, exSign.shape.bi⟩ }

example : exSign'.c0.buffer_offset ≠ exSign.c0.buffer_offset ∧ exSign'.E.junk 0 0 ≠ exSign.E.junk 0 0 ∧
    (Leak.signRun exSign exReqs).log = (Leak.signRun exSign' exReqs).log :=
  ⟨by decide, by decide, C42_same exSign exSign' exReqs exReqs rfl rfl rfl rfl (fun _ => rfl) rfl rfl rfl rfl rfl⟩

/-- There is something to see: the events tell apart a WOTS+ chain of length 0 from one of length 1, and a table lookup at 3 from one at 4. -/
example : (Leak.loop (fun _ (s : Nat) => .ok s) 0 0 7).log ≠ (Leak.loop (fun _ (s : Nat) => .ok s) 1 0 7).log ∧
    (Leak.rd [1, 2, 3, 4, 5] 3).log ≠ (Leak.rd [1, 2, 3, 4, 5] 4).log := by decide

end Properties
