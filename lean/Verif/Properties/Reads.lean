import Verif.Properties.Verifying
import Verif.Proof.Reads
/-!
# C35: what signing reads

An access to an unmapped address is an error in the model, so a successful run with memory unmapped outside some regions reads
only there. (`onlyRegions mem a la b lb` is `mem` with everything unmapped except `la` bytes at `a` and `lb` bytes at `b`.)
-/
namespace Properties
open Model

/-- C35: `ts_init_sign` reads only the `4n` bytes of the private key and the message; `ts_sign` only `SK.seed` (the first `n` bytes of
the private key) and `PK.seed` (its third `n` bytes). With all other memory unmapped, the results are the same. -/
theorem C35_sign_reads (J : SignJob) (reqs : List (Bytes × Nat)) (hfit : Fits reqs) :
    let keyAndMsg := onlyRegions J.mem J.priv (4 * J.x.P.n) J.msg J.M.length
    let seeds := onlyRegions J.mem J.priv J.x.P.n (J.priv + 2 * J.x.P.n) J.x.P.n
    ∃ c rq outs c' d d', J.init = .ok (c, rq) ∧ signCalls J.E J.mem c reqs = .ok (outs, c') ∧
      ts_init_sign J.E keyAndMsg J.c0 J.msg J.M.length (ps J.E.cfg J.x) J.priv J.rng = .ok (d, rq) ∧
      signCalls J.E seeds d reqs = .ok (outs, d') := by
  let K : SignJob :=
    { E := J.E, x := J.x, sup := J.sup, mem := onlyRegions J.mem J.priv (4 * J.x.P.n) J.msg J.M.length, priv := J.priv, sk := J.sk, msg := J.msg, M := J.M,
      rng := J.rng, c0 := J.c0, shape := J.shape, skLen := J.skLen, hasKey := by rw [← J.skLen]; exact onlyRegions_left J.hasKey,
      hasMsg := onlyRegions_right J.hasMsg, msgLen := J.msgLen, rngOk := J.rngOk }
  obtain ⟨c, e, r⟩ := J.start
  obtain ⟨d, e', r'⟩ := K.start
  obtain ⟨k1, -, k3, -⟩ := key_mem J.skLen J.hasKey
  obtain ⟨-, l1, -, l3, -⟩ := key_split J.skLen
  obtain ⟨c', f⟩ := signCalls_seeds k1 k3 reqs r hfit
  have s1 : (onlyRegions J.mem J.priv J.x.P.n (J.priv + 2 * J.x.P.n) J.x.P.n).Has J.priv (J.sk.take J.x.P.n) := by
    have := onlyRegions_left (b := J.priv + 2 * J.x.P.n) (lb := J.x.P.n) k1
    rw [l1] at this; exact this
  have s3 : (onlyRegions J.mem J.priv J.x.P.n (J.priv + 2 * J.x.P.n) J.x.P.n).Has (J.priv + 2 * J.x.P.n) (skPkSeed J.x.P.n J.sk) := by
    have := onlyRegions_right (a := J.priv) (la := J.x.P.n) k3
    rw [l3] at this; exact this
  obtain ⟨d', f'⟩ := signCalls_seeds (x := J.x) (priv := J.priv) (sk := J.sk) s1 s3 reqs r' hfit
  exact ⟨c, _, _, c', d, d', e, f, e', f'⟩

/-- C35: hence between calls of `ts_sign` the memory may change arbitrarily outside these two seeds: `SK.prf`, `PK.root`, the message
and everything else may be erased. -/
theorem C35_sign_frame (J : SignJob) (mem' : Mem) (hseed : ∀ i, i < J.x.P.n → mem' (J.priv + i) = J.mem (J.priv + i))
    (hpub : ∀ i, i < J.x.P.n → mem' (J.priv + 2 * J.x.P.n + i) = J.mem (J.priv + 2 * J.x.P.n + i)) (reqs₁ reqs₂ : List (Bytes × Nat)) (hfit₁ : Fits reqs₁) (hfit₂ : Fits reqs₂) :
    ∃ c rq outs₁ c₁ outs₂ c₂ c₂', J.init = .ok (c, rq) ∧ signCalls J.E J.mem c reqs₁ = .ok (outs₁, c₁) ∧
      signCalls J.E J.mem c₁ reqs₂ = .ok (outs₂, c₂) ∧ signCalls J.E mem' c₁ reqs₂ = .ok (outs₂, c₂') := by
  obtain ⟨c, outs, c', e, e', -, r⟩ := sign_session J reqs₁ hfit₁
  obtain ⟨k1, -, k3, -⟩ := key_mem J.skLen J.hasKey
  obtain ⟨-, l1, -, l3, -⟩ := key_split J.skLen
  obtain ⟨c2, f⟩ := signCalls_seeds k1 k3 reqs₂ r hfit₂
  obtain ⟨c2', f'⟩ := signCalls_seeds (mem := mem') (fun i h => by rw [hseed i (by omega)]; exact k1 i h) (fun i h => by rw [hpub i (by omega)]; exact k3 i h) reqs₂ r hfit₂
  exact ⟨c, _, outs, c', _, c2, c2', e, e', f, f'⟩

/-! The hypotheses are met, by a memory where all but the two seeds is unmapped. -/

example : ∃ c rq outs₁ c₁ outs₂ c₂ c₂', exSign.init = .ok (c, rq) ∧ signCalls exSign.E exSign.mem c exReqs = .ok (outs₁, c₁) ∧
    signCalls exSign.E exSign.mem c₁ exReqs = .ok (outs₂, c₂) ∧
    signCalls exSign.E (onlyRegions exSign.mem exSign.priv exSign.x.P.n (exSign.priv + 2 * exSign.x.P.n) exSign.x.P.n) c₁ exReqs = .ok (outs₂, c₂') :=
  C35_sign_frame exSign _ (fun i h => if_pos (.inl ⟨by omega, by omega⟩)) (fun i h => if_pos (.inr ⟨by omega, by omega⟩)) exReqs exReqs exReqs_fits exReqs_fits

end Properties
