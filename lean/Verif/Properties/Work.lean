import Verif.Properties.Cost
import Verif.Proof.WorkSaving
/-!
# Property C48: how many compressions and permutations key generation and signing take

Calls of the compression functions of SHA-256 and SHA-512 and of the permutation of Keccak are events in the log of `Leak.ts_gen_key` and `Leak.signRun`, which
compute what the library computes (`C41_outcome`, `C42_outcome`). `Spec/Work.lean` says how many there should be.
-/
namespace Properties
open Model
open Leak (Prim perms Fn calls)

/-- The price of the hash functions of a parameter set, in calls of `p`. -/
def priceOf (c : Config) (x : PsName) (p : Prim) : Spec.Work.Price := Spec.Work.price c.sha2opt (Spec.Work.kind x.inst) x.P.n p

/-! ## Key generation -/

/-- C48: key generation takes exactly the compressions or permutations of one tree, and of the blocks with the seed if their states are kept; none if the generator fails. -/
theorem C48_keygen (J : KeyJob) (p : Prim) :
    perms p (Leak.ts_gen_key J.E J.mem (some J.priv) J.pub (some (ps J.E.cfg J.x)) (some J.rng)).log =
      if J.delivers then Spec.Work.prehash J.E.cfg.sha2opt (Spec.Work.kind J.x.inst) p + Spec.Work.tree (priceOf J.E.cfg J.x p) J.x.P else 0 := by
  have hres : ∃ r, (Leak.ts_gen_key J.E J.mem (some J.priv) J.pub (some (ps J.E.cfg J.x)) (some J.rng)).res = .ok r := by
    rw [C41_outcome]
    cases h : J.delivers with
    | true => obtain ⟨mem', e, -⟩ := C12_keygen J h; exact ⟨_, e⟩
    | false => obtain ⟨mem', e, -⟩ := C13_rng_failure J h; exact ⟨_, e⟩
  obtain ⟨r, hr⟩ := hres
  have hpn : (ps J.E.cfg J.x).n = J.x.P.n := by cases J.x <;> rfl
  have hph : (ps J.E.cfg J.x).merkle_h = J.x.P.hp := by cases J.x <;> rfl
  have hle : J.x.P.hp ≤ 255 := by cases J.x <;> decide
  rw [← Leak.Work.total_perms]
  refine (?_ : Leak.Work.Cost (Leak.Work.meter p) _ fun _ k => k = if J.delivers then Spec.Work.prehash J.E.cfg.sha2opt (Spec.Work.kind J.x.inst) p + Spec.Work.tree (priceOf J.E.cfg J.x p) J.x.P else 0) r hr
  unfold Leak.ts_gen_key
  refine Leak.Work.cost_frame ?_
  dsimp only
  refine Leak.Work.cost_bind0 (by idle) fun _ _ => Leak.Work.cost_bind0 (by idle) fun mem' _ => ?_
  have hd : (J.rng (3 * (ps J.E.cfg J.x).n)).1 = J.delivers := by rw [hpn]; rfl
  rw [hd]
  refine Leak.Work.cost_branch (fun hb => Leak.Work.cost_ok ?_) fun hb => ?_
  · cases h : J.delivers with
    | true => rw [h] at hb; cases hb
    | false => rfl
  · have hok : J.delivers = true := by
      cases h : J.delivers with
      | true => rfl
      | false => rw [h] at hb; exact absurd rfl hb
    rw [if_pos hok]
    have I := Leak.Work.is_ps J.sup
    refine Leak.Work.cost_bind (Leak.Work.cost_gen_root J.x.P (Leak.Work.charges I) (fun c hc => Leak.Work.cost_prehash I c hc) hpn hph hle _) fun a k _ hk => ?_
    rw [hk]
    refine Leak.Work.cost_bind0 (by idle) fun _ _ => Leak.Work.cost_bind0 (by idle) fun _ _ => Leak.Work.cost_bind0 ?_ fun _ _ => Leak.Work.cost_ok rfl
    unfold Leak.copy_public
    split <;> idle

/-! ## Signing -/

/-- The work of `ts_init_sign` for a message of `m` bytes: the blocks with the seed if their states are kept, the randomizer, and the digest, of which the code always
computes 49 bytes. -/
def startWork (c : Config) (x : PsName) (m : Nat) (p : Prim) : Nat :=
  Spec.Work.prehash c.sha2opt (Spec.Work.kind x.inst) p + Spec.Work.prfMsg (Spec.Work.kind x.inst) x.P.n m p +
    Spec.Work.hashMsg (Spec.Work.kind x.inst) x.P.n m 49 p

/-- C48: `ts_init_sign` and any calls of `ts_sign` take exactly the compressions or permutations of the start and of the blocks of the signature that have been begun. -/
theorem C48_sign (J : SignJob) (reqs : List (Bytes × Nat)) (hfit : Fits reqs) (p : Prim) :
    perms p (Leak.signRun J reqs).log =
      startWork J.E.cfg J.x J.M.length p + (priceOf J.E.cfg J.x p).init +
        Spec.Work.upTo (priceOf J.E.cfg J.x p) J.x.P (digits J) (Spec.Cost.begun J.x.P.n (min (asked reqs) J.x.P.sigBytes)) := by
  have I := Leak.Work.is_ps J.sup
  rw [← Leak.Work.total_perms]
  exact Leak.Work.cost_signRun J reqs hfit (Leak.Work.setup I J.msgLen) (Leak.Work.charges I)
    (Leak.Work.reads (skSess J.E J.x J.sup J.priv J.sk J.skLen) (I.prf_msg))

theorem begun_all (J : SignJob) : ∃ S : Sess, S.P = J.x.P ∧ Spec.Cost.begun J.x.P.n J.x.P.sigBytes = Leak.tot S := by
  obtain ⟨S, h1, h2⟩ := sess_of J
  refine ⟨S, h1, ?_⟩
  have hn16 := S.facts.n16
  rw [← h1]
  simp only [show S.P.n = S.n from rfl]
  unfold Spec.Cost.begun Spec.Params.sigBytes
  rw [Leak.sigBlocks_tot, show S.P.n = S.n from rfl, Nat.mul_comm, Nat.add_sub_assoc (by omega), Nat.mul_add_div (by omega), Nat.div_eq_of_lt (a := S.n - 1) (by omega)]
  omega

/-- C48: a whole signature, in calls of any sizes: the start, the trees, and the steps of the chains, whose number is the sum of the digits. -/
theorem C48_sign_all (J : SignJob) (reqs : List (Bytes × Nat)) (hfit : Fits reqs) (hall : J.x.P.sigBytes ≤ asked reqs) (p : Prim) :
    perms p (Leak.signRun J reqs).log =
      startWork J.E.cfg J.x J.M.length p + Spec.Work.trees (priceOf J.E.cfg J.x p) J.x.P + Spec.Cost.chainSteps J.x.P (digits J) * (priceOf J.E.cfg J.x p).f := by
  rw [C48_sign J reqs hfit, Nat.min_eq_right hall]
  obtain ⟨S, h1, h2⟩ := begun_all J
  have := Leak.Work.total_all (S := S) (p := priceOf J.E.cfg J.x p) (digits J)
  rw [h1] at this
  rw [h2]
  omega

/-- C48: a bound for all keys, messages of the same length and randomness. -/
theorem C48_sign_bound (J : SignJob) (reqs : List (Bytes × Nat)) (hfit : Fits reqs) (p : Prim) :
    perms p (Leak.signRun J reqs).log ≤
      startWork J.E.cfg J.x J.M.length p + Spec.Work.trees (priceOf J.E.cfg J.x p) J.x.P + 15 * J.x.P.len * J.x.P.d * (priceOf J.E.cfg J.x p).f := by
  obtain ⟨S, h1, h2⟩ := sess_of J
  have hle : Spec.Work.upTo (priceOf J.E.cfg J.x p) J.x.P (digits J) (Spec.Cost.begun J.x.P.n (min (asked reqs) J.x.P.sigBytes)) ≤
      Spec.Work.upTo (priceOf J.E.cfg J.x p) J.x.P (digits J) (Leak.tot S) := by
    have hb := Leak.begun_le (S := S) (m := asked reqs)
    rw [← h1]
    simp only [show S.P.n = S.n from rfl]
    obtain ⟨e, he⟩ := Nat.exists_eq_add_of_le hb
    rw [he]
    unfold Spec.Work.upTo
    rw [Leak.sum_add]
    omega
  have hall := Leak.Work.total_all (S := S) (p := priceOf J.E.cfg J.x p) (digits J)
  rw [h1] at hall
  have hc : Spec.Cost.chainSteps J.x.P (digits J) ≤ 15 * J.x.P.len * J.x.P.d := by
    unfold Spec.Cost.chainSteps
    refine Nat.le_trans (Leak.sum_mono fun j _ => Nat.le_trans (Leak.sum_mono fun q _ => digit_le J j q) (Nat.le_of_eq (Leak.sum_const _ _))) ?_
    rw [Leak.sum_const]
    exact Nat.le_of_eq (by rw [Nat.mul_comm, Nat.mul_comm 15])
  have := Nat.mul_le_mul_right (priceOf J.E.cfg J.x p).f hc
  rw [C48_sign J reqs hfit]
  omega

/-! ## The saving of `TS_SHA2_OPTIMIZATION` -/

/-- What each call of `prf` and of `f` costs less with the optimization. -/
def savedSmall (x : PsName) (p : Prim) : Nat := Spec.Work.only p (Spec.Work.kind x.inst).small (Spec.Work.saved true (Spec.Work.kind x.inst).small)
/-- What each call of `init_t` costs less with the optimization. -/
def savedBig (x : PsName) (p : Prim) : Nat := Spec.Work.only p (Spec.Work.kind x.inst).big (Spec.Work.saved true (Spec.Work.kind x.inst).big)

/-- C48: the optimization saves exactly one compression in every call of `prf`, `f` and `init_t` of a SHA-2 parameter set, at the price of one for each kept state:
key generation. -/
theorem C48_keygen_saving (J J' : KeyJob) (hx : J'.x = J.x) (hd : J.delivers = true) (hd' : J'.delivers = true)
    (ho : J.E.cfg.sha2opt = true) (ho' : J'.E.cfg.sha2opt = false) (p : Prim) :
    perms p (Leak.ts_gen_key J'.E J'.mem (some J'.priv) J'.pub (some (ps J'.E.cfg J'.x)) (some J'.rng)).log + Spec.Work.prehash true (Spec.Work.kind J.x.inst) p =
      perms p (Leak.ts_gen_key J.E J.mem (some J.priv) J.pub (some (ps J.E.cfg J.x)) (some J.rng)).log +
        savedSmall J.x p * (calls .prf (Leak.ts_gen_key J.E J.mem (some J.priv) J.pub (some (ps J.E.cfg J.x)) (some J.rng)).log +
          calls .f (Leak.ts_gen_key J.E J.mem (some J.priv) J.pub (some (ps J.E.cfg J.x)) (some J.rng)).log) +
        savedBig J.x p * calls .init_t (Leak.ts_gen_key J.E J.mem (some J.priv) J.pub (some (ps J.E.cfg J.x)) (some J.rng)).log := by
  rw [C48_keygen, C48_keygen, C44_keygen, C44_keygen, C44_keygen, if_pos hd, if_pos hd', if_pos hd, if_pos hd, if_pos hd, hx]
  unfold priceOf
  rw [ho, ho', Leak.Work.price_extra, Leak.Work.tree_extra]
  have : Spec.Work.prehash false (Spec.Work.kind J.x.inst) p = 0 := by cases Spec.Work.kind J.x.inst <;> rfl
  unfold savedSmall savedBig Leak.Work.count
  omega

/-- C48: the optimization saves exactly one compression in every call of `prf`, `f` and `init_t` of a SHA-2 parameter set, at the price of one for each kept state:
signing, in calls of any sizes. -/
theorem C48_sign_saving (J J' : SignJob) (reqs reqs' : List (Bytes × Nat)) (hfit : Fits reqs) (hfit' : Fits reqs') (hask : asked reqs' = asked reqs)
    (hx : J'.x = J.x) (hsk : J'.sk = J.sk) (hM : J'.M = J.M) (hs : J'.signature = J.signature)
    (ho : J.E.cfg.sha2opt = true) (ho' : J'.E.cfg.sha2opt = false) (p : Prim) :
    perms p (Leak.signRun J' reqs').log + Spec.Work.prehash true (Spec.Work.kind J.x.inst) p =
      perms p (Leak.signRun J reqs).log +
        savedSmall J.x p * (calls .prf (Leak.signRun J reqs).log + calls .f (Leak.signRun J reqs).log) +
        savedBig J.x p * calls .init_t (Leak.signRun J reqs).log := by
  have hdg : digits J' = digits J := by unfold digits; rw [hx, hsk, hM, hs]
  rw [C48_sign J reqs hfit, C48_sign J' reqs' hfit', C44_sign J reqs hfit, C44_sign J reqs hfit, C44_sign J reqs hfit, hdg, hask, hx, hM]
  unfold priceOf startWork
  rw [ho, ho', Leak.Work.price_extra, Leak.Work.upTo_extra]
  have : Spec.Work.prehash false (Spec.Work.kind J.x.inst) p = 0 := by cases Spec.Work.kind J.x.inst <;> rfl
  have e : (Leak.Work.extra (Spec.Work.price true (Spec.Work.kind J.x.inst) J.x.P.n p) (savedSmall J.x p) (savedBig J.x p)).init =
    (Spec.Work.price true (Spec.Work.kind J.x.inst) J.x.P.n p).init + savedBig J.x p := rfl
  unfold savedSmall savedBig Leak.Work.count at *
  simp only [Spec.Cost.init, Nat.zero_add]
  rw [e, Nat.mul_add _ 1, Nat.mul_one]
  omega

/-! ## Primitives of other families -/

theorem sum_zero {g : Nat → Nat} (h : ∀ i, g i = 0) : ∀ n, Spec.Cost.sum g n = 0
  | 0 => rfl
  | n + 1 => by rw [Spec.Cost.sum, sum_zero h n, h]

/-- A price of nothing. -/
theorem price_none {c : Config} {x : PsName} {p : Prim} (h1 : (Spec.Work.kind x.inst).small ≠ p) (h2 : (Spec.Work.kind x.inst).big ≠ p) :
    priceOf c x p = ⟨0, 0, 0, fun _ => 0, fun _ => 0⟩ := by
  unfold priceOf Spec.Work.price Spec.Work.only
  simp only [if_neg h1, if_neg h2]

/-- C48: the hash functions of a parameter set use the primitives of its family only: a SHA-2 set never calls the permutation of Keccak, a SHAKE set never
the compression functions, and SHA2-128 never that of SHA-512. -/
theorem C48_family (c : Config) (x : PsName) (p : Prim) (h1 : (Spec.Work.kind x.inst).small ≠ p) (h2 : (Spec.Work.kind x.inst).big ≠ p) :
    (∀ J : KeyJob, J.x = x →
      perms p (Leak.ts_gen_key J.E J.mem (some J.priv) J.pub (some (ps J.E.cfg J.x)) (some J.rng)).log = 0) ∧
    (∀ (J : SignJob) (reqs : List (Bytes × Nat)), J.x = x → Fits reqs → perms p (Leak.signRun J reqs).log = 0) := by
  have hpre : ∀ b, Spec.Work.prehash b (Spec.Work.kind x.inst) p = 0 := by
    intro b
    generalize Spec.Work.kind x.inst = kd at *
    cases b <;> cases kd <;> simp_all [Spec.Work.prehash, Spec.Work.only, Spec.Work.Kind.small, Spec.Work.Kind.big]
  constructor
  · intro J hx
    rw [C48_keygen, hx, price_none h1 h2, hpre]
    simp [Spec.Work.tree, Spec.Work.wotsLeaf, Spec.Work.T, sum_zero]
  · intro J reqs hx hfit
    have := C48_sign_bound J reqs hfit p
    rw [hx, price_none h1 h2] at this
    have hstart : startWork J.E.cfg x J.M.length p = 0 := by
      unfold startWork
      rw [hpre]
      generalize Spec.Work.kind x.inst = kd at *
      cases kd <;> simp_all [Spec.Work.prfMsg, Spec.Work.hashMsg, Spec.Work.only, Spec.Work.Kind.small, Spec.Work.Kind.big]
    rw [hstart] at this
    simp [Spec.Work.trees, Spec.Work.tree, Spec.Work.wotsLeaf, Spec.Work.T, Spec.Work.forsLeaf, sum_zero] at this
    exact this

/-! The hypotheses are met; the numbers for some parameter sets. -/

example : Fits exReqs ∧ exSign.x.P.sigBytes ≤ asked exReqs := ⟨exReqs_fits, by decide⟩

example : (exKey goodRng (goodRng_ok _)).delivers = true := rfl

/-- The full configuration without the optimization. -/
def plainCfg : Config := { fullCfg with sha2opt := false }

/-- Two jobs that differ in the optimization only. -/
example : ∃ J J' : SignJob, J'.x = J.x ∧ J'.sk = J.sk ∧ J'.M = J.M ∧ J'.signature = J.signature ∧ J.E.cfg.sha2opt = true ∧ J'.E.cfg.sha2opt = false ∧
    J.x = .sha2_128s :=
  ⟨signJob fullCfg .sha2_128s rfl none (fun _ h => by cases h), signJob plainCfg .sha2_128s rfl none (fun _ h => by cases h), rfl, rfl, rfl, rfl, rfl, rfl, rfl⟩

/-- The price of `F` in compressions or permutations, with and without the optimization. -/
example :
    (priceOf fullCfg .sha2_128s .sha256).f = 1 ∧ (priceOf plainCfg .sha2_128s .sha256).f = 2 ∧ (priceOf fullCfg .shake_128s .keccak).f = 1 ∧
    (priceOf fullCfg .sha2_256s .sha256).f = 1 ∧ (priceOf fullCfg .sha2_256s .sha512).f = 0 := by decide +kernel

/-- Key generation for SHA2-128s, with and without the optimization, and for SHAKE-128s. -/
example :
    (Spec.Work.prehash true .sha2L1 .sha256 + Spec.Work.tree (priceOf fullCfg .sha2_128s .sha256) PsName.sha2_128s.P,
      Spec.Work.prehash false .sha2L1 .sha256 + Spec.Work.tree (priceOf plainCfg .sha2_128s .sha256) PsName.sha2_128s.P,
      Spec.Work.tree (priceOf fullCfg .shake_128s .keccak) PsName.shake_128s.P) = (292352, 580094, 289791) := by decide +kernel

end Properties
