import Verif.Properties.CostVerify
import Verif.Properties.Work
import Verif.Proof.WorkVerifyTotal
/-!
# Property C49: how many compressions and permutations verification takes

As for C48; the calls are events in the log of `Leak.verifyRun`, which computes what the library computes (`C45_outcome`).
-/
namespace Properties
open Model
open Leak (Prim perms Fn calls)

/-- What the digest of the message costs, of which the code always computes 49 bytes. -/
def digestWork (x : PsName) (m : Nat) (p : Prim) : Nat := Spec.Work.hashMsg (Spec.Work.kind x.inst) x.P.n m 49 p

/-- C49: `ts_init_verify` and any calls of `ts_update_verify` take exactly the compressions or permutations of the blocks of the signature that have arrived
completely, and of the blocks with the seed if their states are kept, whether the signature is valid or not. Here `sig` is the signature if the bytes are part of one, or the part
of the bytes that could be one. -/
theorem C49_verify (J : VerifyJob) (ts : List Bytes) (sig : Bytes) (hlen : sig.length = J.size) (hsig : ts.flatten <+: sig ∨ sig <+: ts.flatten) (p : Prim) :
    perms p (Leak.verifyRun J ts).log =
      Spec.Work.prehash J.E.cfg.sha2opt (Spec.Work.kind J.x.inst) p +
        Spec.Work.Verify.upTo (priceOf J.E.cfg J.x p) (digestWork J.x J.M.length p) J.x.P (verifyDigits J sig) (min (ts.flatten.length / J.x.P.n) J.x.P.sigBlocks) := by
  have I := Leak.Work.is_ps J.sup
  rw [← Leak.Work.total_perms]
  refine Leak.Work.cost_verifyRun J ts sig hlen hsig (Leak.Work.setup I J.msgLen) (Leak.Work.charges I) fun S h1 h2 => ?_
  obtain ⟨E, x, sup, pk, seed, hs⟩ := S
  dsimp only at h1 h2
  subst h1; subst h2
  exact Leak.Work.reads _ I.prf_msg

/-- C49: a whole signature, valid or not, in whatever pieces: the digest, the nodes, and the steps to the ends of the chains. -/
theorem C49_verify_all (J : VerifyJob) (ts : List Bytes) (sig : Bytes) (hlen : sig.length = J.size) (hsig : sig <+: ts.flatten) (p : Prim) :
    perms p (Leak.verifyRun J ts).log =
      Spec.Work.prehash J.E.cfg.sha2opt (Spec.Work.kind J.x.inst) p + digestWork J.x J.M.length p + Spec.Work.Verify.nodes (priceOf J.E.cfg J.x p) J.x.P +
        Spec.Cost.Verify.chainSteps J.x.P (verifyDigits J sig) * (priceOf J.E.cfg J.x p).f := by
  obtain ⟨S, h1, h2⟩ := sess_of_verify J
  have hn16 := S.facts.n16
  have hle : J.x.P.sigBlocks ≤ ts.flatten.length / J.x.P.n := by
    rw [Nat.le_div_iff_mul_le (by omega)]
    have := hsig.length_le
    rw [hlen] at this
    exact Nat.le_trans (Nat.le_of_eq (by unfold VerifyJob.size Spec.Params.sigBytes; rfl)) this
  rw [C49_verify J ts sig hlen (.inr hsig), Nat.min_eq_right hle, ← h1, Leak.Work.vtotal_all (S := S)]
  omega

/-- C49: a bound for all keys, bytes fed in whatever pieces, and messages of the same length. -/
theorem C49_verify_bound (J : VerifyJob) (ts : List Bytes) (p : Prim) :
    perms p (Leak.verifyRun J ts).log ≤
      Spec.Work.prehash J.E.cfg.sha2opt (Spec.Work.kind J.x.inst) p + digestWork J.x J.M.length p + Spec.Work.Verify.nodes (priceOf J.E.cfg J.x p) J.x.P +
        15 * J.x.P.len * J.x.P.d * (priceOf J.E.cfg J.x p).f := by
  obtain ⟨sig, hlen, hsig⟩ := completion J ts.flatten
  obtain ⟨S, h1, h2⟩ := sess_of_verify J
  have hall := Leak.Work.vtotal_all (S := S) (p := priceOf J.E.cfg J.x p) (hc := digestWork J.x J.M.length p) (verifyDigits J sig)
  rw [h1] at hall
  have hle : Spec.Work.Verify.upTo (priceOf J.E.cfg J.x p) (digestWork J.x J.M.length p) J.x.P (verifyDigits J sig) (min (ts.flatten.length / J.x.P.n) J.x.P.sigBlocks) ≤
      Spec.Work.Verify.upTo (priceOf J.E.cfg J.x p) (digestWork J.x J.M.length p) J.x.P (verifyDigits J sig) J.x.P.sigBlocks := by
    obtain ⟨e, he⟩ := Nat.exists_eq_add_of_le (show min (ts.flatten.length / J.x.P.n) J.x.P.sigBlocks ≤ J.x.P.sigBlocks from Nat.min_le_right ..)
    generalize min (ts.flatten.length / J.x.P.n) J.x.P.sigBlocks = u at *
    rw [he]
    unfold Spec.Work.Verify.upTo
    rw [Leak.sum_add]
    omega
  have hc : Spec.Cost.Verify.chainSteps J.x.P (verifyDigits J sig) ≤ 15 * J.x.P.len * J.x.P.d := by
    unfold Spec.Cost.Verify.chainSteps
    refine Nat.le_trans (Leak.sum_mono fun j _ => Nat.le_trans (Leak.sum_mono fun q _ => Nat.sub_le ..) (Nat.le_of_eq (Leak.sum_const _ _))) ?_
    rw [Leak.sum_const]
    exact Nat.le_of_eq (by rw [Nat.mul_comm, Nat.mul_comm 15])
  have := Nat.mul_le_mul_right (priceOf J.E.cfg J.x p).f hc
  rw [C49_verify J ts sig hlen hsig]
  omega

/-- C49: in verification too the optimization saves exactly one compression in every call of `f` and `init_t` of a SHA-2 parameter set, at the price of one for each kept
state. -/
theorem C49_verify_saving (J J' : VerifyJob) (ts ts' : List Bytes) (hts : ts'.flatten = ts.flatten) (hx : J'.x = J.x) (hpk : J'.pk = J.pk) (hM : J'.M = J.M)
    (ho : J.E.cfg.sha2opt = true) (ho' : J'.E.cfg.sha2opt = false) (p : Prim) :
    perms p (Leak.verifyRun J' ts').log + Spec.Work.prehash true (Spec.Work.kind J.x.inst) p =
      perms p (Leak.verifyRun J ts).log + savedSmall J.x p * calls .f (Leak.verifyRun J ts).log + savedBig J.x p * calls .init_t (Leak.verifyRun J ts).log := by
  obtain ⟨sig, hlen, hsig⟩ := completion J ts.flatten
  have hlen' : sig.length = J'.size := by rw [hlen]; unfold VerifyJob.size; rw [hx]
  have hdg : verifyDigits J' sig = verifyDigits J sig := by unfold verifyDigits; rw [hx, hpk, hM]
  have h0 := (C45_no_secret J ts).1
  rw [C45_verify J ts sig hlen hsig] at h0
  rw [C49_verify J ts sig hlen hsig, C49_verify J' ts' sig hlen' (by rw [hts]; exact hsig), C45_verify J ts sig hlen hsig, C45_verify J ts sig hlen hsig, hdg, hts, hx, hM]
  unfold priceOf
  rw [ho, ho', Leak.Work.price_extra, Leak.Work.vupTo_extra]
  have : Spec.Work.prehash false (Spec.Work.kind J.x.inst) p = 0 := by cases Spec.Work.kind J.x.inst <;> rfl
  unfold savedSmall savedBig Leak.Work.count
  rw [h0, Nat.zero_add]
  omega

/-- C49: verification uses the primitives of the family of the parameter set only. -/
theorem C49_family (J : VerifyJob) (ts : List Bytes) (p : Prim) (h1 : (Spec.Work.kind J.x.inst).small ≠ p) (h2 : (Spec.Work.kind J.x.inst).big ≠ p) :
    perms p (Leak.verifyRun J ts).log = 0 := by
  have := C49_verify_bound J ts p
  rw [price_none h1 h2] at this
  have hz : Spec.Work.prehash J.E.cfg.sha2opt (Spec.Work.kind J.x.inst) p = 0 ∧ digestWork J.x J.M.length p = 0 := by
    unfold digestWork
    generalize Spec.Work.kind J.x.inst = kd at *
    cases J.E.cfg.sha2opt <;> cases kd <;> simp_all [Spec.Work.prehash, Spec.Work.only, Spec.Work.hashMsg, Spec.Work.Kind.small, Spec.Work.Kind.big]
  rw [hz.1, hz.2] at this
  simpa [Spec.Work.Verify.nodes, Spec.Work.T, sum_zero] using this

/-! The hypotheses are met; the numbers for some parameter sets. -/

/-- A signature fed in two pieces and two bytes more, and an incomplete one. -/
example : (rampBytes 7 16224).length = exVerify.size ∧ (rampBytes 7 16224 <+: [(rampBytes 7 16224).take 5, (rampBytes 7 16224).drop 5, [1, 2]].flatten) ∧
    [(rampBytes 7 16224).take 5].flatten <+: rampBytes 7 16224 := by
  refine ⟨by simp only [rampBytes, List.length_map, List.length_range]; decide, ⟨[1, 2], ?_⟩, ⟨(rampBytes 7 16224).drop 5, ?_⟩⟩
  · simp [← List.append_assoc]
  · simp

/-- Two jobs that differ in the optimization only. -/
example : ∃ J J' : VerifyJob, J'.x = J.x ∧ J'.pk = J.pk ∧ J'.M = J.M ∧ J.E.cfg.sha2opt = true ∧ J'.E.cfg.sha2opt = false ∧ J.x = .sha2_192s :=
  ⟨exVerify, verifyJob plainCfg .sha2_192s rfl, rfl, rfl, rfl, rfl, rfl, rfl⟩

/-- Nothing of Keccak in SHA2-192s. -/
example : (Spec.Work.kind exVerify.x.inst).small ≠ .keccak ∧ (Spec.Work.kind exVerify.x.inst).big ≠ .keccak := by decide

/-- The nodes and the digest of a message of 33 bytes, in SHA-256 and SHA-512 for SHA2-192s and in Keccak for SHAKE-192s. -/
example :
    (Spec.Work.Verify.nodes (priceOf fullCfg .sha2_192s .sha256) PsName.sha2_192s.P, Spec.Work.Verify.nodes (priceOf fullCfg .sha2_192s .sha512) PsName.sha2_192s.P,
      digestWork .sha2_192s 33 .sha512, Spec.Work.Verify.nodes (priceOf fullCfg .shake_192s .keccak) PsName.shake_192s.P, digestWork .shake_192s 33 .keccak) = (17, 375, 3, 392, 1) := by
  decide +kernel

end Properties
