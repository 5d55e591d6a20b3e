import Verif.Properties.Leak
import Verif.Proof.CostTotal
/-!
# Property C44: how much work key generation and signing are

Work is counted in calls of the hash functions of the parameter set (`Spec/Cost.lean`); the calls are events in the log of `Leak.ts_gen_key` and
`Leak.signRun`, which compute what the library computes (`C41_outcome`, `C42_outcome`).
-/
namespace Properties
open Model
open Leak (Fn calls)

/-! ## Key generation -/

/-- C44: key generation computes one tree with `2 ^ h'` leaves, each of `len` chains of length 15, and nothing if the generator fails. -/
theorem C44_keygen (J : KeyJob) (f : Fn) :
    calls f (Leak.ts_gen_key J.E J.mem (some J.priv) J.pub (some (ps J.E.cfg J.x)) (some J.rng)).log = if J.delivers then Spec.Cost.keygen J.x.P f else 0 := by
  have hres : ∃ r, (Leak.ts_gen_key J.E J.mem (some J.priv) J.pub (some (ps J.E.cfg J.x)) (some J.rng)).res = .ok r := by
    rw [C41_outcome]
    cases h : J.delivers with
    | true => obtain ⟨mem', e, -⟩ := C12_keygen J h; exact ⟨_, e⟩
    | false => obtain ⟨mem', e, -⟩ := C13_rng_failure J h; exact ⟨_, e⟩
  obtain ⟨r, hr⟩ := hres
  have hpn : (ps J.E.cfg J.x).n = J.x.P.n := by cases J.x <;> rfl
  have hph : (ps J.E.cfg J.x).merkle_h = J.x.P.hp := by cases J.x <;> rfl
  have hle : J.x.P.hp ≤ 255 := by cases J.x <;> decide
  refine (?_ : Leak.Cost f _ fun _ k => k = if J.delivers then Spec.Cost.keygen J.x.P f else 0) r hr
  unfold Leak.ts_gen_key
  refine Leak.cost_frame ?_
  dsimp only
  refine Leak.cost_bind0 (by free) fun _ _ => Leak.cost_bind0 (by free) fun mem' _ => ?_
  have hd : (J.rng (3 * (ps J.E.cfg J.x).n)).1 = J.delivers := by rw [hpn]; rfl
  rw [hd]
  refine Leak.cost_branch (fun hb => Leak.cost_ok ?_) fun hb => ?_
  · cases h : J.delivers with
    | true => rw [h] at hb; cases hb
    | false => rfl
  · have hok : J.delivers = true := by
      cases h : J.delivers with
      | true => rfl
      | false => rw [h] at hb; exact absurd rfl hb
    rw [if_pos hok]
    refine Leak.cost_bind (Leak.cost_gen_root J.x.P hpn hph hle _) fun a k _ hk => ?_
    rw [hk]
    refine Leak.cost_bind0 (by free) fun _ _ => Leak.cost_bind0 (by free) fun _ _ => Leak.cost_bind0 ?_ fun _ _ => Leak.cost_ok rfl
    unfold Leak.copy_public
    split <;> free

/-! ## Signing -/

/-- The digits in the WOTS+ chains of a signature operation, computed from the public key, the message and the signature. -/
def digits (J : SignJob) : Nat → Nat → Nat := Spec.Cost.digits J.x.P J.x.fns (J.sk.drop (2 * J.x.P.n)) J.M J.signature

/-- C44: `ts_init_sign` and any calls of `ts_sign` do exactly the work of the blocks of the signature that have been begun, that is, of which a byte has
been delivered. In particular the work does not depend on how the bytes are asked for. -/
theorem C44_sign (J : SignJob) (reqs : List (Bytes × Nat)) (hfit : Fits reqs) (f : Fn) :
    calls f (Leak.signRun J reqs).log =
      Spec.Cost.init f + Spec.Cost.upTo J.x.P (digits J) (Spec.Cost.begun J.x.P.n (min (asked reqs) J.x.P.sigBytes)) f :=
  Leak.cost_signRun J reqs hfit

theorem sess_of (J : SignJob) : ∃ S : Sess, S.P = J.x.P ∧ S.n = J.x.P.n :=
  ⟨skSess J.E J.x J.sup J.priv J.sk J.skLen, rfl, rfl⟩

theorem digit_le (J : SignJob) (j q : Nat) : digits J j q ≤ 15 := by
  have := wotsDigits_getD_lt J.x.P ((Spec.Slh.signedValues J.x.P J.x.fns (J.sk.drop (2 * J.x.P.n)) J.M J.signature).getD j []) q
  unfold digits Spec.Cost.digits
  omega

/-- C44: a signature that is drained completely, in calls of any sizes, costs `k` FORS trees with `2 ^ a` leaves, `d` trees of WOTS+ keys with `2 ^ h'` leaves, and the
chains, whose total length is the sum of the digits. -/
theorem C44_sign_all (J : SignJob) (reqs : List (Bytes × Nat)) (hfit : Fits reqs) (hall : J.x.P.sigBytes ≤ asked reqs) (f : Fn) :
    calls f (Leak.signRun J reqs).log =
      Spec.Cost.init f + Spec.Cost.trees J.x.P f + Spec.Cost.chainSteps J.x.P (digits J) * Spec.Cost.one .f f := by
  rw [C44_sign J reqs hfit, Nat.min_eq_right hall]
  obtain ⟨S, h1, h2⟩ := sess_of J
  have : Spec.Cost.begun J.x.P.n J.x.P.sigBytes = Leak.tot S := by
    have hn16 := S.facts.n16
    rw [← h1]
    simp only [show S.P.n = S.n from rfl]
    unfold Spec.Cost.begun Spec.Params.sigBytes
    rw [Leak.sigBlocks_tot, show S.P.n = S.n from rfl, Nat.mul_comm, Nat.add_sub_assoc (by omega), Nat.mul_add_div (by omega), Nat.div_eq_of_lt (a := S.n - 1) (by omega)]
    omega
  rw [this, ← h1, Leak.total_all (S := S)]
  omega

/-- C44: a bound for all keys, messages and randomness. -/
theorem C44_sign_bound (J : SignJob) (reqs : List (Bytes × Nat)) (hfit : Fits reqs) (f : Fn) :
    calls f (Leak.signRun J reqs).log ≤ Spec.Cost.init f + Spec.Cost.trees J.x.P f + 15 * J.x.P.len * J.x.P.d * Spec.Cost.one .f f := by
  obtain ⟨S, h1, h2⟩ := sess_of J
  have hle : Spec.Cost.upTo J.x.P (digits J) (Spec.Cost.begun J.x.P.n (min (asked reqs) J.x.P.sigBytes)) f ≤ Spec.Cost.upTo J.x.P (digits J) (Leak.tot S) f := by
    have hb := Leak.begun_le (S := S) (m := asked reqs)
    rw [← h1]
    simp only [show S.P.n = S.n from rfl]
    obtain ⟨e, he⟩ := Nat.exists_eq_add_of_le hb
    rw [he]
    unfold Spec.Cost.upTo
    rw [Leak.sum_add]
    omega
  have hall := Leak.total_all (S := S) (f := f) (digits J)
  rw [h1] at hall
  have hc : Spec.Cost.chainSteps J.x.P (digits J) ≤ 15 * J.x.P.len * J.x.P.d := by
    unfold Spec.Cost.chainSteps
    refine Nat.le_trans (Leak.sum_mono fun j _ => Nat.le_trans (Leak.sum_mono fun q _ => digit_le J j q) (Nat.le_of_eq (Leak.sum_const _ _))) ?_
    rw [Leak.sum_const]
    exact Nat.le_of_eq (by rw [Nat.mul_comm, Nat.mul_comm 15])
  have := Nat.mul_le_mul_right (Spec.Cost.one .f f) hc
  rw [C44_sign J reqs hfit]
  omega

/-- C44: a call of `ts_sign` for `m` bytes begins at most `⌈m / n⌉` blocks, and does at most that many times the work of the most expensive block: the time
until the call returns is bounded in terms of `m` alone. -/
theorem C44_latency (J : SignJob) (reqs : List (Bytes × Nat)) (dest : Bytes) (m : Nat) (hfit : Fits (reqs ++ [(dest, m)])) (f : Fn) :
    calls f (Leak.signRun J (reqs ++ [(dest, m)])).log ≤ calls f (Leak.signRun J reqs).log + (m + J.x.P.n - 1) / J.x.P.n * Spec.Cost.worst J.x.P f := by
  have hfit' : Fits reqs := fun r hr => hfit r (List.mem_append_left _ hr)
  obtain ⟨S, h1, h2⟩ := sess_of J
  have hn16 := S.facts.n16
  rw [C44_sign J _ hfit, C44_sign J _ hfit']
  have ha : asked (reqs ++ [(dest, m)]) = asked reqs + m := by unfold asked; simp
  rw [ha]
  have hb := Leak.begun_add S.n (asked reqs) m S.P.sigBytes (by omega)
  have hb2 := Leak.begun_le (S := S) (m := asked reqs + m)
  rw [← h1]
  simp only [show S.P.n = S.n from rfl]
  generalize Spec.Cost.begun S.n (min (asked reqs) S.P.sigBytes) = u at *
  generalize Spec.Cost.begun S.n (min (asked reqs + m) S.P.sigBytes) = v at *
  by_cases huv : v ≤ u
  · obtain ⟨e, rfl⟩ := Nat.exists_eq_add_of_le huv
    have : Spec.Cost.upTo S.P (digits J) (v + e) f = Spec.Cost.upTo S.P (digits J) v f + _ := Leak.sum_add ..
    omega
  · obtain ⟨e, rfl⟩ := Nat.exists_eq_add_of_le (show u ≤ v by omega)
    have hs : Spec.Cost.upTo S.P (digits J) (u + e) f = Spec.Cost.upTo S.P (digits J) u f + _ := Leak.sum_add ..
    have hw := Leak.sum_mono (n := e) (g := fun i => Spec.Cost.block S.P (digits J) (u + i) f) (h := fun _ => Spec.Cost.worst S.P f)
      fun i hi => Leak.block_le_worst (S := S) (f := f) (digits J) (by omega) fun j _ q => digit_le J j q
    rw [Leak.sum_const] at hw
    have := Nat.mul_le_mul_right (Spec.Cost.worst S.P f) (show e ≤ (m + S.n - 1) / S.n by omega)
    omega

/-! The hypotheses are met; the numbers for some parameter sets. -/

example : Fits exReqs ∧ exSign.x.P.sigBytes ≤ asked exReqs := ⟨exReqs_fits, by decide⟩

example : (exKey goodRng (goodRng_ok _)).delivers = true := rfl

/-- Key generation and a whole signature of the two parameter sets for 128 bits (of the signature all but the WOTS+ chains, which take at most another
`15 * 35 * 7` and `15 * 35 * 22` calls of `f`). -/
example :
    (Spec.Cost.keygen PsName.sha2_128s.P .f, Spec.Cost.keygen PsName.sha2_128s.P .prf, Spec.Cost.trees PsName.sha2_128s.P .f, Spec.Cost.trees PsName.sha2_128s.P .prf) =
      (268800, 17920, 1938944, 183043) ∧
    (Spec.Cost.keygen PsName.sha2_128f.P .f, Spec.Cost.keygen PsName.sha2_128f.P .prf, Spec.Cost.trees PsName.sha2_128f.P .f, Spec.Cost.trees PsName.sha2_128f.P .prf) =
      (4200, 280, 94512, 9075) := by decide +kernel

/-- The most expensive block in calls of `f`, for a call of `ts_sign` that asks for one block. -/
example : Spec.Cost.worst PsName.sha2_128s.P .f = 134400 ∧ Spec.Cost.worst PsName.shake_256f.P .f = 8040 := by decide +kernel

/-- The work is as it should be from block to block: the secret values of two FORS trees cost the same, a node of an authentication path twice as much as the node before. -/
example (dg : Nat → Nat → Nat) : (Spec.Cost.block PsName.sha2_128s.P dg 0 .prf, Spec.Cost.block PsName.sha2_128s.P dg 13 .prf,
    Spec.Cost.block PsName.sha2_128s.P dg 5 .f, Spec.Cost.block PsName.sha2_128s.P dg 6 .f) = (2, 2, 16, 32) := rfl

end Properties
