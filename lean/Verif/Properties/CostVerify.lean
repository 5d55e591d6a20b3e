import Verif.Properties.Cost
import Verif.Properties.Verifying
import Verif.Proof.CostVerifyTotal
/-!
# Property C45: how much work verification is

Work is counted in calls of the hash functions of the parameter set, as for C44; the calls are events in the log of `Leak.verifyRun`, which computes what the
library computes (`C45_outcome`).
-/
namespace Properties
open Model
open Leak (Fn calls)

/-- C45: the run whose work is counted is the run of the library: `ts_init_verify`, then the calls of `ts_update_verify`. -/
theorem C45_outcome (J : VerifyJob) (ts : List Bytes) : (Leak.verifyRun J ts).res = J.init.bind fun c => updateCalls J.E J.mem c ts := by
  unfold Leak.verifyRun
  rw [Leak.res_bind, Leak.ts_init_verify_res]
  show Except.bind _ _ = Except.bind _ _
  unfold VerifyJob.init
  congr 1
  funext c
  exact Leak.updateCalls_res ..

/-- The digits in the WOTS+ chains that verification of `sig` completes. -/
def verifyDigits (J : VerifyJob) (sig : Bytes) : Nat → Nat → Nat := Spec.Cost.digits J.x.P J.x.fns J.pk J.M sig

/-- C45: `ts_init_verify` and any calls of `ts_update_verify` do exactly the work of the blocks of the signature that have arrived completely, whether the signature
is valid or not. Bytes after the end of a signature cause no work, and the work does not depend on how the bytes are cut into pieces. Here `sig` is the signature if the
bytes are part of one, or the part of the bytes that could be one. -/
theorem C45_verify (J : VerifyJob) (ts : List Bytes) (sig : Bytes) (hlen : sig.length = J.size) (hsig : ts.flatten <+: sig ∨ sig <+: ts.flatten) (f : Fn) :
    calls f (Leak.verifyRun J ts).log =
      Spec.Cost.Verify.upTo J.x.P (verifyDigits J sig) (min (ts.flatten.length / J.x.P.n) J.x.P.sigBlocks) f :=
  Leak.cost_verifyRun J ts sig hlen hsig

theorem sess_of_verify (J : VerifyJob) : ∃ S : Sess, S.P = J.x.P ∧ S.n = J.x.P.n :=
  ⟨skSess J.E J.x J.sup J.pub (J.pk ++ J.pk) (by rw [List.length_append, J.pkLen]; omega), rfl, rfl⟩

/-- C45: when a whole signature has been fed, valid or not, the work was the digest, `k` FORS leaves with `a` nodes above each and the hash of the roots, in each of the `d`
layers the hash of `len` ends of chains and `h'` nodes, and the steps to the ends of the chains. -/
theorem C45_verify_all (J : VerifyJob) (ts : List Bytes) (sig : Bytes) (hlen : sig.length = J.size) (hsig : sig <+: ts.flatten) (f : Fn) :
    calls f (Leak.verifyRun J ts).log =
      Spec.Cost.Verify.nodes J.x.P f + Spec.Cost.Verify.chainSteps J.x.P (verifyDigits J sig) * Spec.Cost.one .f f := by
  obtain ⟨S, h1, h2⟩ := sess_of_verify J
  have hn16 := S.facts.n16
  have hle : J.x.P.sigBlocks ≤ ts.flatten.length / J.x.P.n := by
    rw [Nat.le_div_iff_mul_le (by omega)]
    have := hsig.length_le
    rw [hlen] at this
    exact Nat.le_trans (Nat.le_of_eq (by unfold VerifyJob.size Spec.Params.sigBytes; rfl)) this
  rw [C45_verify J ts sig hlen (.inr hsig), Nat.min_eq_right hle, ← h1, Leak.vtotal_all (S := S)]

/-- Some signature-sized bytes agree with any bytes fed. -/
theorem completion (J : VerifyJob) (w : Bytes) : ∃ sig : Bytes, sig.length = J.size ∧ (w <+: sig ∨ sig <+: w) := by
  by_cases h : w.length ≤ J.size
  · exact ⟨w ++ List.replicate (J.size - w.length) 0, by rw [List.length_append, List.length_replicate]; omega, .inl ⟨_, rfl⟩⟩
  · exact ⟨w.take J.size, by rw [List.length_take]; omega, .inr ⟨w.drop J.size, List.take_append_drop ..⟩⟩

/-- C45: a bound for all keys, messages and bytes fed, in whatever pieces. -/
theorem C45_verify_bound (J : VerifyJob) (ts : List Bytes) (f : Fn) :
    calls f (Leak.verifyRun J ts).log ≤ Spec.Cost.Verify.nodes J.x.P f + 15 * J.x.P.len * J.x.P.d * Spec.Cost.one .f f := by
  obtain ⟨sig, hlen, hsig⟩ := completion J ts.flatten
  obtain ⟨S, h1, h2⟩ := sess_of_verify J
  have hall := Leak.vtotal_all (S := S) (f := f) (verifyDigits J sig)
  rw [h1] at hall
  have hle : Spec.Cost.Verify.upTo J.x.P (verifyDigits J sig) (min (ts.flatten.length / J.x.P.n) J.x.P.sigBlocks) f ≤
      Spec.Cost.Verify.upTo J.x.P (verifyDigits J sig) J.x.P.sigBlocks f := by
    obtain ⟨e, he⟩ := Nat.exists_eq_add_of_le (show min (ts.flatten.length / J.x.P.n) J.x.P.sigBlocks ≤ J.x.P.sigBlocks from Nat.min_le_right ..)
    generalize min (ts.flatten.length / J.x.P.n) J.x.P.sigBlocks = u at *
    rw [he]
    unfold Spec.Cost.Verify.upTo
    rw [Leak.sum_add]
    omega
  have hc : Spec.Cost.Verify.chainSteps J.x.P (verifyDigits J sig) ≤ 15 * J.x.P.len * J.x.P.d := by
    unfold Spec.Cost.Verify.chainSteps
    refine Nat.le_trans (Leak.sum_mono fun j _ => Nat.le_trans (Leak.sum_mono fun q _ => Nat.sub_le ..) (Nat.le_of_eq (Leak.sum_const _ _))) ?_
    rw [Leak.sum_const]
    exact Nat.le_of_eq (by rw [Nat.mul_comm, Nat.mul_comm 15])
  have := Nat.mul_le_mul_right (Spec.Cost.one .f f) hc
  rw [C45_verify J ts sig hlen hsig]
  omega

/-- C45: verification calls neither of the two functions with a secret key. -/
theorem C45_no_secret (J : VerifyJob) (ts : List Bytes) : calls .prf (Leak.verifyRun J ts).log = 0 ∧ calls .prf_msg (Leak.verifyRun J ts).log = 0 := by
  have h (f : Fn) (h0 : Spec.Cost.Verify.nodes J.x.P f = 0) (h1 : Spec.Cost.one .f f = 0) : calls f (Leak.verifyRun J ts).log = 0 := by
    have := C45_verify_bound J ts f
    rw [h0, h1] at this
    omega
  constructor <;> refine h _ ?_ rfl <;>
  · unfold Spec.Cost.Verify.nodes
    simp [Spec.Cost.one, Spec.Cost.node]

/-- C45: a call of `ts_update_verify` with `m` bytes completes at most `⌈m / n⌉` blocks, and does at most that many times the work of the most expensive
block: the time until the call returns is bounded in terms of `m` alone. -/
theorem C45_latency (J : VerifyJob) (ts : List Bytes) (t : Bytes) (f : Fn) :
    calls f (Leak.verifyRun J (ts ++ [t])).log ≤
      calls f (Leak.verifyRun J ts).log + (t.length + J.x.P.n - 1) / J.x.P.n * Spec.Cost.Verify.worst f := by
  obtain ⟨sig, hlen, hsig⟩ := completion J (ts ++ [t]).flatten
  obtain ⟨S, h1, h2⟩ := sess_of_verify J
  have hn16 := S.facts.n16
  have hfl : (ts ++ [t]).flatten = ts.flatten ++ t := by simp
  have hsig' : ts.flatten <+: sig ∨ sig <+: ts.flatten := by
    have hp : ts.flatten <+: (ts ++ [t]).flatten := ⟨t, hfl.symm⟩
    rcases hsig with h | h
    · exact .inl (hp.trans h)
    · exact List.prefix_or_prefix_of_prefix hp h
  rw [C45_verify J _ sig hlen hsig, C45_verify J _ sig hlen hsig', hfl, List.length_append]
  have hdiv : (ts.flatten.length + t.length) / J.x.P.n ≤ ts.flatten.length / J.x.P.n + (t.length + J.x.P.n - 1) / J.x.P.n := by
    have hn : 0 < J.x.P.n := by omega
    generalize J.x.P.n = n at *
    have h3 := Nat.div_add_mod ts.flatten.length n
    have h4 := Nat.mod_lt ts.flatten.length hn
    have h5 := Nat.div_add_mod (t.length + n - 1) n
    have h6 := Nat.mod_lt (t.length + n - 1) hn
    refine Nat.le_of_lt_succ (Nat.div_lt_of_lt_mul ?_)
    rw [Nat.mul_succ, Nat.mul_add]
    omega
  generalize ts.flatten.length / J.x.P.n = u at *
  generalize (ts.flatten.length + t.length) / J.x.P.n = v at *
  generalize (t.length + J.x.P.n - 1) / J.x.P.n = w at *
  generalize J.x.P.sigBlocks = b at *
  by_cases huv : min v b ≤ min u b
  · obtain ⟨e, he⟩ := Nat.exists_eq_add_of_le huv
    rw [he]
    have : Spec.Cost.Verify.upTo J.x.P (verifyDigits J sig) (min v b + e) f = Spec.Cost.Verify.upTo J.x.P (verifyDigits J sig) (min v b) f + _ := Leak.sum_add ..
    omega
  · obtain ⟨e, he⟩ := Nat.exists_eq_add_of_le (show min u b ≤ min v b by omega)
    rw [he]
    have hs : Spec.Cost.Verify.upTo J.x.P (verifyDigits J sig) (min u b + e) f = Spec.Cost.Verify.upTo J.x.P (verifyDigits J sig) (min u b) f + _ := Leak.sum_add ..
    have hw := Leak.sum_mono (n := e) (g := fun i => Spec.Cost.Verify.block J.x.P (verifyDigits J sig) (min u b + i) f) (h := fun _ => Spec.Cost.Verify.worst f)
      fun i hi => by rw [← h1]; exact Leak.vblock_le_worst (S := S) ..
    rw [Leak.sum_const] at hw
    have := Nat.mul_le_mul_right (Spec.Cost.Verify.worst f) (show e ≤ w by omega)
    omega

/-! The hypotheses are met; the numbers for some parameter sets. -/

/-- A signature fed in two pieces and two bytes more, and an incomplete one. -/
example : (rampBytes 7 16224).length = exVerify.size ∧ (rampBytes 7 16224 <+: [(rampBytes 7 16224).take 5, (rampBytes 7 16224).drop 5, [1, 2]].flatten) ∧
    [(rampBytes 7 16224).take 5].flatten <+: rampBytes 7 16224 := by
  refine ⟨by simp only [rampBytes, List.length_map, List.length_range]; decide, ⟨[1, 2], ?_⟩, ⟨(rampBytes 7 16224).drop 5, ?_⟩⟩
  · simp [← List.append_assoc]
  · simp

/-- A verification with two of the parameter sets for 128 bits, apart from the steps to the ends of the chains (at most another `15 * 35 * 7` and `15 * 35 * 22` calls of `f`). -/
example :
    (Spec.Cost.Verify.nodes PsName.sha2_128s.P .hash_msg, Spec.Cost.Verify.nodes PsName.sha2_128s.P .f, Spec.Cost.Verify.nodes PsName.sha2_128s.P .final_t) =
      (1, 14, 239) ∧
    (Spec.Cost.Verify.nodes PsName.sha2_128f.P .hash_msg, Spec.Cost.Verify.nodes PsName.sha2_128f.P .f, Spec.Cost.Verify.nodes PsName.sha2_128f.P .final_t) =
      (1, 33, 287) := by decide +kernel

end Properties
