import Verif.Proof.ResidueEnd
import Verif.Properties.Leak
/-!
# C54: what signing leaves in the context

`Model.Observer` is the signer with every use of the private key taken out: it runs on a memory that need not hold the private key and looks up
what it needs in tables (`Observer.Known`). The tables of `SignJob.known J e` contain the first `e` elements of the signature and the images of
the secret values under the one-way functions. What the observer can compute, anybody can compute who has the public key, the message, the
part of the signature that has been computed, and the images.
-/
namespace Properties
open Model Spec.Residue

/-- The bytes delivered when `reqs` have been served. -/
def given (J : SignJob) (reqs : List (Bytes × Nat)) : Nat := min (reqs.map Prod.snd).sum J.x.P.sigBytes

/-- C54: after `ts_init_sign` and any sequence of calls of `ts_sign` every field of the context except the scratch iterator is what the
observer computes from the elements of the signature computed so far; so is the scratch iterator unless the last of these elements belongs to
a WOTS+ signature. -/
theorem C54_left_in_context (J : SignJob) (reqs : List (Bytes × Nat)) (hfit : Fits reqs) (mem : Mem)
    (hpk : mem.Has (J.priv + 2 * J.x.P.n) (J.sk.drop (2 * J.x.P.n))) (hM : mem.Has J.msg J.M) :
    ∃ c₀ c q os s, J.init = .ok (c₀, q) ∧ signCalls J.E J.mem c₀ reqs = .ok (os, c) ∧
      Observer.session J.E mem (J.known (elements J.x.P.n (given J reqs))) J.c0 J.msg J.M.length (ps J.E.cfg J.x) J.priv reqs =
        .ok (os, { c with small_iter := s }) ∧
      (¬ EndsInWots J.x.P (elements J.x.P.n (given J reqs)) → s = c.small_iter) :=
  J.observed reqs hfit mem hpk hM

theorem full_elements (J : SignJob) (reqs : List (Bytes × Nat)) (h : J.x.P.sigBytes ≤ asked reqs) :
    elements J.x.P.n (given J reqs) = J.x.P.sigBlocks := by
  have hn : 0 < J.x.P.n := by cases J.x <;> decide
  unfold given elements Spec.Params.sigBytes
  unfold asked Spec.Params.sigBytes at h
  rw [Nat.min_eq_right h, show J.x.P.sigBlocks * J.x.P.n + J.x.P.n - 1 = (J.x.P.n - 1) + J.x.P.sigBlocks * J.x.P.n by omega,
    Nat.add_mul_div_right _ _ hn, Nat.div_eq_of_lt (by omega)]
  unfold Spec.Params.sigBlocks
  omega

theorem full_not_wots (x : PsName) : ¬ EndsInWots x.P x.P.sigBlocks := by
  rintro ⟨j, i, hj, hi, h⟩
  have h1 : x.P.h = x.P.hp * x.P.d := by cases x <;> rfl
  have h2 : 1 ≤ x.P.hp := by cases x <;> decide
  have h3 := Nat.mul_le_mul_right (x.P.len + x.P.hp) (show j + 1 ≤ x.P.d from hj)
  unfold Spec.Params.sigBlocks at h
  rw [h1, Nat.add_comm 1 x.P.a] at h
  rw [Nat.succ_mul, Nat.mul_add x.P.d, Nat.mul_comm x.P.d x.P.hp] at h3
  omega

/-- C54 for a complete signature: the whole context is what the observer computes. -/
theorem C54_after_signature (J : SignJob) (reqs : List (Bytes × Nat)) (hfit : Fits reqs) (hall : J.x.P.sigBytes ≤ asked reqs) (mem : Mem)
    (hpk : mem.Has (J.priv + 2 * J.x.P.n) (J.sk.drop (2 * J.x.P.n))) (hM : mem.Has J.msg J.M) :
    ∃ c₀ c q os, J.init = .ok (c₀, q) ∧ signCalls J.E J.mem c₀ reqs = .ok (os, c) ∧
      Observer.session J.E mem (J.known J.x.P.sigBlocks) J.c0 J.msg J.M.length (ps J.E.cfg J.x) J.priv reqs = .ok (os, c) := by
  obtain ⟨c₀, c, q, os, s, h1, h2, h3, h4⟩ := C54_left_in_context J reqs hfit mem hpk hM
  rw [full_elements J reqs hall] at h3 h4
  rw [h4 (full_not_wots J.x)] at h3
  exact ⟨c₀, c, q, os, h1, h2, h3⟩

/-- C54 after `ts_init_sign`: the context is what the observer computes from the randomizer, which is the first element of the signature. -/
theorem C54_after_init (J : SignJob) (mem : Mem) (hpk : mem.Has (J.priv + 2 * J.x.P.n) (J.sk.drop (2 * J.x.P.n))) (hM : mem.Has J.msg J.M) :
    ∃ c q, J.init = .ok (c, q) ∧
      Observer.ts_init_sign J.E mem (J.known 1) J.c0 J.msg J.M.length (ps J.E.cfg J.x) J.priv = .ok c := by
  obtain ⟨c₀, c, q, os, s, h1, h2, h3, h4⟩ := C54_left_in_context J [] (by intro r hr; cases hr) mem hpk hM
  have he : elements J.x.P.n (given J []) = 1 := by
    unfold given elements
    rw [List.map_nil, List.sum_nil, Nat.zero_min, Nat.zero_add, Nat.div_eq_of_lt (by cases J.x <;> decide)]
    rfl
  rw [he] at h3 h4
  have hw : ¬ EndsInWots J.x.P 1 := by
    rintro ⟨j, i, hj, hi, h⟩
    omega
  rw [h4 hw] at h3
  cases h2
  unfold Observer.session at h3
  obtain ⟨c', e, h3⟩ := bind_ok_inv h3
  cases h3
  exact ⟨c₀, q, h1, e⟩

/-! The hypotheses are met by memories in which the private key cannot even be read. -/

/-- `ramp` with everything below the public key of `exSign` unmapped. -/
def noSecret : Mem := fun a => if a < 100 + 2 * PsName.shake_256s.P.n then none else ramp a

theorem noSecret_has (a len : Nat) (h : 164 ≤ a) : noSecret.Has a (rampBytes a len) := by
  intro i hi
  have h1 := ramp_has a len i hi
  unfold noSecret
  rw [if_neg (show ¬ a + i < 100 + 2 * PsName.shake_256s.P.n by rw [show PsName.shake_256s.P.n = 32 from rfl]; omega)]
  exact h1

theorem ramp_drop (a len k : Nat) : (rampBytes a len).drop k = rampBytes (a + k) (len - k) := by
  unfold rampBytes
  apply List.ext_getElem
  · simp
  · intro i h1 h2
    simp [Nat.add_assoc]

example : (∀ i, i < 2 * exSign.x.P.n → noSecret (exSign.priv + i) = none) ∧
    ∃ c₀ c q os, exSign.init = .ok (c₀, q) ∧ signCalls exSign.E exSign.mem c₀ exReqs = .ok (os, c) ∧
      Observer.session exSign.E noSecret (exSign.known exSign.x.P.sigBlocks) exSign.c0 exSign.msg exSign.M.length (ps exSign.E.cfg exSign.x) exSign.priv exReqs =
        .ok (os, c) := by
  refine ⟨fun i hi => if_pos (by show 100 + i < _; exact Nat.add_lt_add_left hi _), ?_⟩
  refine C54_after_signature exSign exReqs exReqs_fits (by decide) noSecret ?_ (noSecret_has _ _ (by decide))
  show noSecret.Has 164 ((rampBytes 100 128).drop 64)
  rw [ramp_drop]
  exact noSecret_has _ _ (Nat.le_refl _)

/-- Some calls end inside a WOTS+ signature, others do not (SHAKE-256s: 1 + 22 * 15 elements before the first WOTS+ signature). -/
example : ¬ EndsInWots PsName.shake_256s.P 331 ∧ EndsInWots PsName.shake_256s.P 332 ∧ EndsInWots PsName.shake_256s.P 398 ∧
    ¬ EndsInWots PsName.shake_256s.P 399 := by
  refine ⟨?_, ⟨0, 0, by decide, by decide, by decide⟩, ⟨0, 66, by decide, by decide, by decide⟩, ?_⟩
  · rintro ⟨j, i, hj, hi, h⟩
    have h' : 331 = 1 + 330 + j * 75 + i + 1 := h
    omega
  · rintro ⟨j, i, hj, hi, h⟩
    have h' : 399 = 1 + 330 + j * 75 + i + 1 := h
    have hi' : i < 67 := hi
    omega

end Properties
