import Verif.Model.TestVectors
import Verif.Kat.Shake_128f.Answer
import Verif.Kat.Shake_192f.Answer
import Verif.Kat.Shake_256f.Answer
import Verif.Kat.Shake_128s.Answer
import Verif.Kat.Shake_192s.Answer
import Verif.Kat.Shake_256s.Answer
import Verif.Kat.Sha2_128f.Answer
import Verif.Kat.Sha2_192f.Answer
import Verif.Kat.Sha2_256f.Answer
import Verif.Kat.Sha2_128s.Answer
import Verif.Kat.Sha2_192s.Answer
import Verif.Kat.Sha2_256s.Answer
/-!
# C51: the known answers

The answers in testvector.h come from the reference code of SPHINCS+. The kernel computes the key and the signature of the standard for each of
them (`Verif/Kat`); that the code computes the standard's key and signature is C36.
-/
namespace Properties
open Model

/-- What a vector says about the standard: its public key is the standard's for the random bytes 0, 1, 2, …, and its hash is the SHA-256 hash
of the standard's signature of `abc` for its `opt_rand`. -/
def Answers (x : PsName) (V : TestVector) : Prop :=
  V.parameter_set_name = setName x ∧
    V.public_key.take (2 * x.P.n) = (standardKey x ((List.range (3 * x.P.n)).map UInt8.ofNat)).drop (2 * x.P.n) ∧
    V.hash_sig = Spec.Sha256.hash (stdSig x ((List.range (3 * x.P.n)).map UInt8.ofNat) (V.optrand.take x.P.n) [97, 98, 99])

theorem answers {x : PsName} {V : TestVector} {pk hash opt : Bytes}
    (h : (standardKey x ((List.range (3 * x.P.n)).map UInt8.ofNat)).drop (2 * x.P.n) = pk ∧
      Spec.Sha256.hash (stdSig x ((List.range (3 * x.P.n)).map UInt8.ofNat) opt [97, 98, 99]) = hash)
    (h1 : V.parameter_set_name = setName x) (h2 : V.public_key.take (2 * x.P.n) = pk) (h3 : V.optrand.take x.P.n = opt) (h4 : V.hash_sig = hash) : Answers x V := by
  subst h3
  exact ⟨h1, h2.trans h.1.symm, h4.trans h.2.symm⟩

/-- The sets in the order of testvector.h. -/
def vectorSets : List PsName :=
  [.shake_128f, .shake_192f, .shake_256f, .shake_128s, .shake_192s, .shake_256s, .sha2_128f, .sha2_192f, .sha2_256f, .sha2_128s, .sha2_192s, .sha2_256s]

/-- C51: the standard, as it is stated in `Verif/Spec`, gives the key and the signature that the reference code gave, for all twelve vectors. -/
theorem C51_standard : List.Forall₂ Answers vectorSets vectors := by
  unfold vectorSets vectors
  refine .cons ?_ <| .cons ?_ <| .cons ?_ <| .cons ?_ <| .cons ?_ <| .cons ?_ <| .cons ?_ <| .cons ?_ <| .cons ?_ <| .cons ?_ <| .cons ?_ <| .cons ?_ .nil
  · exact answers Kat.Shake_128f.kat rfl (by decide +kernel) (by decide +kernel) (by decide +kernel)
  · exact answers Kat.Shake_192f.kat rfl (by decide +kernel) (by decide +kernel) (by decide +kernel)
  · exact answers Kat.Shake_256f.kat rfl (by decide +kernel) (by decide +kernel) (by decide +kernel)
  · exact answers Kat.Shake_128s.kat rfl (by decide +kernel) (by decide +kernel) (by decide +kernel)
  · exact answers Kat.Shake_192s.kat rfl (by decide +kernel) (by decide +kernel) (by decide +kernel)
  · exact answers Kat.Shake_256s.kat rfl (by decide +kernel) (by decide +kernel) (by decide +kernel)
  · exact answers Kat.Sha2_128f.kat rfl (by decide +kernel) (by decide +kernel) (by decide +kernel)
  · exact answers Kat.Sha2_192f.kat rfl (by decide +kernel) (by decide +kernel) (by decide +kernel)
  · exact answers Kat.Sha2_256f.kat rfl (by decide +kernel) (by decide +kernel) (by decide +kernel)
  · exact answers Kat.Sha2_128s.kat rfl (by decide +kernel) (by decide +kernel) (by decide +kernel)
  · exact answers Kat.Sha2_192s.kat rfl (by decide +kernel) (by decide +kernel) (by decide +kernel)
  · exact answers Kat.Sha2_256s.kat rfl (by decide +kernel) (by decide +kernel) (by decide +kernel)

/-- The variables of a round: key buffers of 128 and 64 bytes, apart from each other and from the message, which is `abc`; contexts as they are
declared; any content. -/
structure LocalsOk (E : Env) (msg : Nat) (l : VectorLocals) : Prop where
  privMapped : l.mem.Mapped l.private_key 128
  pubMapped : l.mem.Mapped l.public_key 64
  hasMsg : l.mem.Has msg [97, 98, 99]
  keysApart : Disj l.private_key 128 l.public_key 64
  privApart : Disj l.private_key 128 msg 3
  pubApart : Disj l.public_key 64 msg 3
  ctx : Shape E.cfg l.ctx
  verifyCtx : Shape E.cfg l.verify_ctx
  hashCtx : l.hash_ctx.data.length = 64
  buffer : l.buffer.length = 42

/-- C51: the known-answer test of the repository passes: in every configuration that has all the parameter sets, whatever its uninitialised variables hold
and wherever they are. -/
theorem C51_test_testvector (E : Env) (hx : ∀ x, supported E.cfg x = true) (msg : Nat) (hp : E.cfg.Fits msg 3) (loc : Nat → VectorLocals)
    (hl : ∀ i, LocalsOk E msg (loc i)) (fuel : Nat) (hf : ∀ x, ts_size_signature (ps E.cfg x) < fuel) :
    test_testvector E fuel msg loc 0 vectors = .ok 1 := by
  have key : ∀ (xs : List PsName) (vs : List TestVector) (i : Nat), List.Forall₂ Answers xs vs → (∀ V ∈ vs, V.public_key.length = 64 ∧ V.optrand.length = 32 ∧ V.hash_sig.length = 32) →
      test_testvector E fuel msg loc i vs = .ok 1 := by
    intro xs vs i h
    induction h generalizing i with
    | nil => intro _; rfl
    | @cons x V xs vs hV _ ih =>
      intro hlen
      have hi := hl i
      obtain ⟨l1, l2, l3⟩ := hlen V (by simp)
      obtain ⟨r, e, -, h1⟩ := C36_vectors ⟨E, (loc i).mem, (loc i).private_key, (loc i).public_key, msg, [97, 98, 99], hi.privMapped, hi.pubMapped, hi.hasMsg, hi.keysApart,
        hi.privApart, hi.pubApart, by decide, hp⟩ hx (loc i).ctx (loc i).verify_ctx hi.ctx hi.verifyCtx (loc i).hash_ctx hi.hashCtx (loc i).buffer (by rw [hi.buffer]; decide) V l1 l2 l3 fuel hf
      have hr := h1.2 ⟨x, hV⟩
      subst hr
      rw [test_testvector]
      refine Eq.trans (congrArg (· >>= _) e) ?_
      exact ih (i + 1) fun W hW => hlen W (by simp [hW])
  exact key _ _ 0 C51_standard (by decide +kernel)

/-! The hypotheses are met: the bytes at 97, 98 and 99 of this memory are `abc`. -/

example : test_testvector (envOf fullCfg) 100000 97 (fun i => ⟨ramp, 1000, 2000 + i, dirtyCtx fullCfg, dirtyCtx fullCfg, ⟨Spec.Sha256.H0, 77, 13, List.replicate 64 0xaa, true⟩, List.replicate 42 9⟩) 0 vectors = .ok 1 :=
  C51_test_testvector (envOf fullCfg) (by intro x; cases x <;> rfl) 97 (fits_of_lt _ (by omega) (by omega)) _
    (fun i => ⟨fun i _ => by simp [ramp], fun i _ => by simp [ramp], ramp_has 97 3, by unfold Disj; simp only; omega, by unfold Disj; simp only; omega, by unfold Disj; simp only; omega,
      dirty_shape _, dirty_shape _, by simp, by simp⟩) 100000 (by intro x; cases x <;> decide)

end Properties
