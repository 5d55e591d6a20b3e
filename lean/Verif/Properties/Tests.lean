import Verif.Proof.HashTests
import Verif.Properties.Hashes
import Verif.Properties.Clients
/-!
# C38: the tests of the hash functions (test_sha512.c, test_shake.c)
-/
namespace Properties
open Model

/-! ## C38 -/

/-- C38: the test of one SHA-512 vector ends, never faults, and returns 1 exactly if the expected value is the SHA-512 hash of the message, else 0: whatever is
left in the contexts. -/
theorem C38_sha512_vector (ctx other : Sha512.Ctx) (fill : Nat → Sha512.Ctx) (h1 : ctx.data.length = 128) (h2 : other.data.length = 128) (h3 : ∀ n, (fill n).data.length = 128)
    (expected message : Bytes) (hx : expected.length = 64) (hm : message.length < 2 ^ 31) :
    ∃ r, sha512Test ctx other fill expected message = .ok r ∧ (r = 0 ∨ r = 1) ∧ (r = 1 ↔ expected = Spec.Sha512.hash message) := by
  unfold sha512Test
  have e1 := sha512Sizes_ok expected message hx (by omega) (message.length + 1) 1 ctx (by omega) (by omega) h1
  have e2 := sha512Truncs_ok expected message hx (by omega) fill h3 9 8 (by omega) (by omega)
  have e3 := sha512SaveRestore_ok expected message hx (by omega) ctx other h1 h2
  by_cases h : expected = Spec.Sha512.hash message
  · rw [if_neg (fun hh => hh.2 h)] at e1 e2 e3
    rw [e1, ok_bind, if_neg (by decide), e2, ok_bind, if_neg (by decide), e3]
    exact ⟨1, rfl, .inr rfl, fun _ => h, fun _ => rfl⟩
  · rw [if_pos ⟨by omega, h⟩] at e2
    by_cases hn : 1 ≤ message.length
    · rw [if_pos ⟨hn, h⟩] at e1
      rw [e1, ok_bind, if_pos rfl]
      exact ⟨0, rfl, .inl rfl, fun hh => (by cases hh), fun hh => absurd hh h⟩
    · rw [if_neg (fun hh => hn hh.1)] at e1
      rw [e1, ok_bind, if_neg (by decide), e2, ok_bind, if_pos rfl]
      exact ⟨0, rfl, .inl rfl, fun hh => (by cases hh), fun hh => absurd hh h⟩

/-- C38: the test of one SHAKE256 vector ends, never faults, and for a message that is not empty returns 1 exactly if the expected value is
the SHAKE256 output of its length, else 0. -/
theorem C38_shake_vector (opt : Nat) (ctx : Shake.Ctx) (h : ctx.length = 26) (expected message : Bytes) (hm : message.length < 2 ^ 31) (hne : message ≠ []) :
    ∃ r, shakeTest opt ctx expected message = .ok r ∧ (r = 0 ∨ r = 1) ∧ (r = 1 ↔ expected = Spec.Keccak.shake256 message expected.length) := by
  unfold shakeTest
  rw [shakeSizes_ok opt expected message (by omega) _ 1 ctx (by omega) (by omega) h]
  have hpos : 1 ≤ message.length := List.length_pos_iff.2 hne
  by_cases hx : expected = Spec.Keccak.shake256 message expected.length
  · rw [if_neg (fun hh => hh.2 hx)]
    exact ⟨1, rfl, .inr rfl, fun _ => hx, fun _ => rfl⟩
  · rw [if_pos ⟨hpos, hx⟩]
    exact ⟨0, rfl, .inl rfl, fun hh => (by cases hh), fun hh => absurd hh hx⟩

/-- C38: with an empty message the SHAKE256 test checks nothing (the loop over the piece sizes is empty): it returns 1 whatever is expected. -/
theorem C38_shake_empty (opt : Nat) (ctx : Shake.Ctx) (expected : Bytes) : shakeTest opt ctx expected [] = .ok 1 := rfl

/-- One way to hash with the code, for evaluation by the kernel. -/
def runSha512 (M : Bytes) : C Bytes := do
  let c ← Sha512.update (Sha512.init ⟨Spec.Sha512.H0, 0, 0, List.replicate 128 0, false⟩) M
  let (d, _) ← Sha512.final (List.replicate 64 0) c
  .ok d

theorem hash_of_run {M X : Bytes} (hM : M.length < 2 ^ 31) (h : (runSha512 M).toOption = some X) : X = Spec.Sha512.hash M := by
  obtain ⟨c, c', e, e'⟩ := C20_sha512_streaming ⟨Spec.Sha512.H0, 0, 0, List.replicate 128 0, false⟩ (by simp) [M] (List.replicate 64 0) (by simp) (by simp; omega)
  rw [List.foldlM_cons] at e
  have hf : [M].flatten = M := by simp
  rw [hf] at e'
  have e1 : Sha512.update (Sha512.init ⟨Spec.Sha512.H0, 0, 0, List.replicate 128 0, false⟩) M = .ok c := by
    cases hu : Sha512.update (Sha512.init ⟨Spec.Sha512.H0, 0, 0, List.replicate 128 0, false⟩) M with
    | error x => rw [hu] at e; cases e
    | ok a => rw [hu] at e; cases e; rfl
  unfold runSha512 at h
  rw [e1, ok_bind, e', ok_bind] at h
  exact (Option.some.inj h).symm

/-- Likewise for SHAKE256. -/
def runShake (M : Bytes) (n : Nat) : C Bytes := do
  let s ← Shake.inc_init (List.replicate 26 0)
  let s ← Shake.inc_absorb 0 s M
  let s ← Shake.inc_finalize s
  let (o, _) ← Shake.inc_squeeze 0 (List.replicate n 0) 0 n s
  .ok o

theorem shake_of_run {M X : Bytes} (n : Nat) (hM : M.length < 2 ^ 31) (h : (runShake M n).toOption = some X) : X = Spec.Keccak.shake256 M n := by
  obtain ⟨s0, e0, a0⟩ := Shake.inc_init_ok (List.replicate 26 0) (by simp)
  obtain ⟨s1, e1, a1⟩ := Shake.inc_absorb_ok 0 s0 [] M (by simp; omega) a0
  obtain ⟨s2, e2, a2⟩ := Shake.inc_finalize_ok s1 _ a1
  obtain ⟨s3, e3, -⟩ := Shake.inc_squeeze_ok 0 (List.replicate n 0) 0 n 0 s2 _ (by simp) a2
  unfold runShake at h
  rw [e0, ok_bind, e1, ok_bind, e2, ok_bind, e3, ok_bind] at h
  have := (Option.some.inj h).symm
  rw [this]
  simp only [List.take_zero, List.nil_append, List.drop_zero, Nat.zero_add]
  rw [List.drop_of_length_le (by simp), List.append_nil]

set_option maxRecDepth 100000 in
theorem sha512_known : ∀ v ∈ [sha512Vector0, sha512Vector1, sha512Vector2, sha512Vector3, sha512Vector4, sha512Vector5], v.1.length = 64 ∧ v.2.length < 2 ^ 31 ∧ v.1 = Spec.Sha512.hash v.2 := by
  intro v hv
  have h0 : ∀ v ∈ [sha512Vector0, sha512Vector1, sha512Vector2, sha512Vector3, sha512Vector4, sha512Vector5], v.1.length = 64 ∧ v.2.length < 2 ^ 31 ∧ (runSha512 v.2).toOption = some v.1 := by
    decide +kernel
  obtain ⟨h1, h2, h3⟩ := h0 v hv
  exact ⟨h1, h2, hash_of_run h2 h3⟩

set_option maxRecDepth 100000 in
theorem shake_known : ∀ v ∈ [shakeVector0, shakeVector1, shakeVector2, shakeVector3, shakeVector4], v.2.length < 2 ^ 31 ∧ v.2 ≠ [] ∧ v.1 = Spec.Keccak.shake256 v.2 v.1.length := by
  intro v hv
  have h0 : ∀ v ∈ [shakeVector0, shakeVector1, shakeVector2, shakeVector3, shakeVector4], v.2.length < 2 ^ 31 ∧ v.2 ≠ [] ∧ (runShake v.2 v.1.length).toOption = some v.1 := by
    decide +kernel
  obtain ⟨h1, h2, h3⟩ := h0 v hv
  exact ⟨h1, h2, shake_of_run _ h1 h3⟩

/-- C38: `test_sha512` passes, whatever is left in the contexts on the stack. -/
theorem C38_test_sha512 (ctx other : Sha512.Ctx) (fill : Nat → Sha512.Ctx) (h1 : ctx.data.length = 128) (h2 : other.data.length = 128) (h3 : ∀ n, (fill n).data.length = 128) :
    test_sha512 ctx other fill = .ok 1 := by
  unfold test_sha512
  obtain ⟨r, e, -, h⟩ := testAll_ok (fun v : Bytes × Bytes => sha512Test ctx other fill v.1 v.2) (fun v => v.1 = Spec.Sha512.hash v.2)
    [sha512Vector0, sha512Vector1, sha512Vector2, sha512Vector3, sha512Vector4, sha512Vector5] (fun v hv =>
      C38_sha512_vector ctx other fill h1 h2 h3 v.1 v.2 (sha512_known v hv).1 (sha512_known v hv).2.1)
  rw [e, h.2 fun v hv => (sha512_known v hv).2.2]

/-- C38: `test_shake256` passes, for each implementation of the permutation and whatever is left in the context. -/
theorem C38_test_shake256 (opt : Nat) (ctx : Shake.Ctx) (hc : ctx.length = 26) : test_shake256 opt ctx = .ok 1 := by
  unfold test_shake256
  obtain ⟨r, e, -, h⟩ := testAll_ok (fun v : Bytes × Bytes => shakeTest opt ctx v.1 v.2) (fun v => v.1 = Spec.Keccak.shake256 v.2 v.1.length)
    [shakeVector0, shakeVector1, shakeVector2, shakeVector3, shakeVector4] (fun v hv =>
      C38_shake_vector opt ctx hc v.1 v.2 (shake_known v hv).1 (shake_known v hv).2.1)
  rw [e, h.2 fun v hv => (shake_known v hv).2.2]

/-- A vector with one wrong bit, for a message of two blocks, fails; the hypotheses are met. -/
example : ∃ r, sha512Test ⟨Spec.Sha512.H0, 5, 6, List.replicate 128 7, false⟩ ⟨Spec.Sha512.H0, 5, 6, List.replicate 128 42, true⟩ (fun n => ⟨Spec.Sha512.H0, n, n, List.replicate 128 (UInt8.ofNat n), true⟩)
    ((Spec.Sha512.hash (List.replicate 200 1)).set 0 ((Spec.Sha512.hash (List.replicate 200 1)).getD 0 0 ^^^ 1)) (List.replicate 200 1) = .ok r ∧ r = 0 := by
  have hl : (Spec.Sha512.hash (List.replicate 200 1)).length = 64 := Sha512.length_hash _
  obtain ⟨r, e, h0, h⟩ := C38_sha512_vector ⟨Spec.Sha512.H0, 5, 6, List.replicate 128 7, false⟩ ⟨Spec.Sha512.H0, 5, 6, List.replicate 128 42, true⟩
    (fun n => ⟨Spec.Sha512.H0, n, n, List.replicate 128 (UInt8.ofNat n), true⟩) (by simp) (by simp) (by simp)
    ((Spec.Sha512.hash (List.replicate 200 1)).set 0 ((Spec.Sha512.hash (List.replicate 200 1)).getD 0 0 ^^^ 1)) (List.replicate 200 1) (by rw [List.length_set, hl]) (by rw [List.length_replicate]; omega)
  refine ⟨r, e, h0.resolve_right fun h1 => ?_⟩
  exact flipBit_ne (σ := Spec.Sha512.hash (List.replicate 200 1)) (o := 0) (b := 0) (by omega) (by omega) (h.1 h1)

end Properties
