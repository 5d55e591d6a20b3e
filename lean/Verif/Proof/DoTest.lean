import Verif.Proof.Clients
/-!
# Lemmas about test_verify.c
-/
namespace Model
open Spec.Session (feed valid)

/-- The signature with one bit changed. -/
def flipBit (σ : Bytes) (offset bit : Nat) : Bytes := σ.set offset (σ.getD offset 0 ^^^ UInt8.ofNat (2 ^ bit))

theorem length_flipBit (σ : Bytes) (o b : Nat) : (flipBit σ o b).length = σ.length := List.length_set ..

/-- What is needed to verify signatures of `M` with `pk`. -/
structure Checks (E : Env) (x : PsName) (mem : Mem) (pub : Nat) (pk : Bytes) (msg : Nat) (M : Bytes) : Prop where
  sup : supported E.cfg x = true
  pkLen : pk.length = 2 * x.P.n
  hasKey : mem.Has pub pk
  hasMsg : mem.Has msg M
  msgLen : M.length < 2 ^ 60
  msgPtr : E.cfg.Fits msg M.length

theorem Checks.start {E : Env} {x : PsName} {mem : Mem} {pub : Nat} {pk : Bytes} {msg : Nat} {M : Bytes} (K : Checks E x mem pub pk msg M) {c : Ctx} (hc : Shape E.cfg c) :
    ∃ c', ts_init_verify E mem c msg M.length (ps E.cfg x) pub = .ok c' ∧
      Rel E (.verifying x pub pk msg M) (.verifying x.inst pk M [] false) c' :=
  VerifyJob.start ⟨E, x, K.sup, mem, pub, pk, msg, M, c, hc, K.pkLen, K.hasKey, K.hasMsg, K.msgLen, K.msgPtr⟩

theorem verifyOnce_ok {E : Env} {x : PsName} {mem : Mem} {pub : Nat} {pk : Bytes} {msg : Nat} {M : Bytes} (K : Checks E x mem pub pk msg M) {c : Ctx} (hc : Shape E.cfg c)
    (sig : Bytes) : verifyOnce E mem c (ps E.cfg x) pub msg M.length sig =
      .ok (if feed x.inst pk M [] sig = true then 1 else 0, if valid x.inst pk M sig = true then 1 else 0) := by
  obtain ⟨c1, e1, r1⟩ := K.start hc
  obtain ⟨c2, e2, r2⟩ := update_ok K.hasKey (fun _ => K.hasMsg) r1 sig
  unfold verifyOnce
  rw [e1, ok_bind, e2, ok_bind]
  show Except.ok (_, ts_verify c2) = _
  rw [verify_ok r2, List.nil_append]
  rfl

/-- With a whole signature, both results are the verdict. -/
theorem feed_whole {x : PsName} {pk M sig : Bytes} (h : sig.length = x.P.sigBytes) : feed x.inst pk M [] sig = valid x.inst pk M sig := by
  have hp : 0 < x.P.sigBytes := by cases x <;> decide
  unfold feed
  rw [if_pos (show ([] : Bytes).length < x.P.sigBytes from hp), List.nil_append, if_neg (show ¬ sig.length < x.P.sigBytes by omega), if_pos (show sig.length = x.P.sigBytes from h)]

theorem verifyOnce_whole {E : Env} {x : PsName} {mem : Mem} {pub : Nat} {pk : Bytes} {msg : Nat} {M : Bytes} (K : Checks E x mem pub pk msg M) {c : Ctx} (hc : Shape E.cfg c)
    (sig : Bytes) (h : sig.length = x.P.sigBytes) : verifyOnce E mem c (ps E.cfg x) pub msg M.length sig =
      .ok (if valid x.inst pk M sig = true then 1 else 0, if valid x.inst pk M sig = true then 1 else 0) := by
  rw [verifyOnce_ok K hc, feed_whole h]

theorem chunkLoop_ok {E : Env} {x : PsName} {mem : Mem} {pub : Nat} {pk : Bytes} {msg : Nat} {M : Bytes} (K : Checks E x mem pub pk msg M)
    (σ tail : Bytes) (hσ : valid x.inst pk M σ = true) (hl : σ.length = x.P.sigBytes) (a : Nat) (ha : 0 < a) :
    ∀ (fuel i : Nat) (c : Ctx), σ.length - i < fuel → Rel E (.verifying x pub pk msg M) (.verifying x.inst pk M (σ.take i) false) c →
      ∃ c', chunkLoop E mem (σ ++ tail) σ.length a fuel i c = .ok (some c') ∧ Rel E (.verifying x pub pk msg M) (.verifying x.inst pk M σ false) c' := by
  intro fuel
  induction fuel with
  | zero =>
    intro i c hf r
    omega
  | succ fuel ih =>
    intro i c hf r
    unfold chunkLoop
    by_cases hi : i < σ.length
    · rw [if_pos hi]
      simp only
      have hmin : (if σ.length - i > a then a else σ.length - i) = min a (σ.length - i) := by
        split <;> omega
      rw [hmin, rdSlice_ok (by rw [List.length_append]; omega), ok_bind, List.drop_append_of_le_length (by omega),
        List.take_append_of_le_length (by rw [List.length_drop]; omega)]
      have ht : (σ.drop i).take (min a (σ.length - i)) = (σ.drop i).take a := by
        rw [← List.take_take, List.take_of_length_le (i := σ.length - i) (by rw [List.length_drop])]
      rw [ht]
      obtain ⟨c1, e1, r1⟩ := update_ok K.hasKey (fun _ => K.hasMsg) r ((σ.drop i).take a)
      rw [← List.take_add] at r1
      have hfeed : feed x.inst pk M (σ.take i) ((σ.drop i).take a) = true := by
        unfold feed
        rw [← List.take_add]
        have h1 : (σ.take i).length < x.P.sigBytes := by rw [List.length_take]; omega
        rw [if_pos h1]
        by_cases h2 : (σ.take (i + a)).length < x.P.sigBytes
        · rw [if_pos h2]
        · rw [if_neg h2]
          have : σ.take (i + a) = σ := List.take_of_length_le (by rw [List.length_take] at h2; omega)
          rw [this, if_pos hl]
          exact hσ
      rw [e1, ok_bind]
      rw [hfeed] at r1 ⊢
      simp only [Bool.not_false, Bool.and_self, if_true, ne_eq, not_true, if_false]
      exact ih (i + a) c1 (by omega) r1
    · rw [if_neg hi]
      rw [List.take_of_length_le (by omega)] at r
      exact ⟨c, rfl, r⟩

theorem fibLoop_ok {E : Env} {x : PsName} {mem : Mem} {pub : Nat} {pk : Bytes} {msg : Nat} {M : Bytes} (K : Checks E x mem pub pk msg M)
    (fill : Nat → Ctx) (hfill : ∀ b, Shape E.cfg (fill b)) (σ tail : Bytes) (hσ : valid x.inst pk M σ = true) (hl : σ.length = x.P.sigBytes) :
    ∀ (fuel a b : Nat), 0 < a → 0 < b → σ.length - a < fuel →
      fibLoop E mem fill (ps E.cfg x) pub msg M.length (σ ++ tail) σ.length fuel a b = .ok 1 := by
  intro fuel
  induction fuel with
  | zero => intro a b _ _ h; omega
  | succ fuel ih =>
    intro a b ha hb hf
    unfold fibLoop
    by_cases hi : a < σ.length
    · rw [if_pos hi]
      obtain ⟨c1, e1, r1⟩ := K.start (hfill b)
      rw [e1, ok_bind]
      obtain ⟨c2, e2, r2⟩ := chunkLoop_ok K σ tail hσ hl a ha (σ.length + 1) 0 c1 (by omega) (by simpa using r1)
      rw [e2, ok_bind]
      have hv : ts_verify c2 = 1 := by rw [verify_ok r2, if_pos hσ]
      simp only [hv, ne_eq, not_true, if_false]
      exact ih (a + b) a (by omega) ha (by omega)
    · rw [if_neg hi]

theorem xor_cancel8 (a b : UInt8) : a ^^^ b ^^^ b = a := by
  rw [UInt8.xor_assoc, UInt8.xor_self, UInt8.xor_zero]

/-- The bits of one byte. -/
theorem bitLoop_ok {E : Env} {x : PsName} {mem : Mem} {pub : Nat} {pk : Bytes} {msg : Nat} {M : Bytes} (K : Checks E x mem pub pk msg M)
    (fill : Nat → Ctx) (hfill : ∀ b, Shape E.cfg (fill b)) (σ tail : Bytes) (hl : σ.length = x.P.sigBytes) (offset : Nat) (ho : offset < σ.length)
    (inc : Nat) (hinc : 0 < inc) : ∀ (fuel bit : Nat), 8 - bit < fuel →
      ∃ o, bitLoop E mem fill (ps E.cfg x) pub msg M.length σ.length offset inc fuel bit (σ ++ tail) = .ok o ∧
        (o = none ∨ o = some (σ ++ tail)) ∧
        (o ≠ none ↔ ∀ j, bit + j * inc < 8 → valid x.inst pk M (flipBit σ offset (bit + j * inc)) = false) := by
  intro fuel
  induction fuel with
  | zero => intro bit h; omega
  | succ fuel ih =>
    intro bit hf
    unfold bitLoop
    by_cases hb : bit < 8
    · rw [if_pos hb]
      have hsh : UInt8.ofNat (1 <<< bit) = UInt8.ofNat (2 ^ bit) := by rw [Nat.one_shiftLeft]
      have hset : ∀ v : UInt8, (σ ++ tail).set offset v = σ.set offset v ++ tail := fun v => List.set_append_left _ _ ho
      have hget : (σ ++ tail).getD offset 0 = σ.getD offset 0 := by
        rw [List.getD_eq_getElem?_getD, List.getElem?_append_left ho, ← List.getD_eq_getElem?_getD]
      have hol : offset < (σ ++ tail).length := by rw [List.length_append]; omega
      rw [rd_getD 0 hol, ok_bind, hget, wr, if_pos hol, ok_bind, hset, hsh]
      have hlf : (σ.set offset (σ.getD offset 0 ^^^ UInt8.ofNat (2 ^ bit))).length = σ.length := List.length_set ..
      rw [rdSlice_ok (by rw [List.length_append, hlf]; omega), ok_bind, List.drop_zero, take_left' hlf]
      have hv := verifyOnce_whole K (hfill (offset + bit)) (flipBit σ offset bit) (by rw [length_flipBit]; exact hl)
      unfold flipBit at hv
      rw [hv, ok_bind]
      cases hval : valid x.inst pk M (σ.set offset (σ.getD offset 0 ^^^ UInt8.ofNat (2 ^ bit))) with
      | true =>
        refine ⟨none, rfl, .inl rfl, ?_⟩
        constructor
        · intro h; exact absurd rfl h
        · intro h
          have := h 0 (by omega)
          rw [Nat.zero_mul, Nat.add_zero] at this
          unfold flipBit at this
          rw [hval] at this
          cases this
      | false =>
        simp only [Bool.false_eq_true, if_false, ne_eq, not_true, or_self]
        have hol' : offset < (σ.set offset (σ.getD offset 0 ^^^ UInt8.ofNat (2 ^ bit)) ++ tail).length := by rw [List.length_append, hlf]; omega
        have hback : (σ.set offset (σ.getD offset 0 ^^^ UInt8.ofNat (2 ^ bit)) ++ tail).set offset
            ((σ.set offset (σ.getD offset 0 ^^^ UInt8.ofNat (2 ^ bit)) ++ tail).getD offset 0 ^^^ UInt8.ofNat (2 ^ bit)) = σ ++ tail := by
          rw [List.set_append_left _ _ (by rw [hlf]; exact ho), List.set_set, List.getD_eq_getElem?_getD, List.getElem?_append_left (by rw [hlf]; exact ho),
            List.getElem?_set_self ho, Option.getD_some, xor_cancel8, List.getD_eq_getElem?_getD, List.getElem?_eq_getElem ho, Option.getD_some,
            List.set_getElem_self]
        rw [rd_getD 0 hol', ok_bind, wr, if_pos hol', ok_bind, hback]
        obtain ⟨o, e, h1, h2⟩ := ih (bit + inc) (by omega)
        refine ⟨o, e, h1, h2.trans ?_⟩
        constructor
        · intro h j hj
          cases j with
          | zero => rw [Nat.zero_mul, Nat.add_zero]; exact hval
          | succ j =>
            have := h j (by rw [Nat.succ_mul] at hj; omega)
            rw [Nat.succ_mul, show bit + (j * inc + inc) = bit + inc + j * inc by omega]
            exact this
        · intro h j hj
          have := h (j + 1) (by rw [Nat.succ_mul]; omega)
          rw [Nat.succ_mul, show bit + (j * inc + inc) = bit + inc + j * inc by omega] at this
          exact this
    · rw [if_neg hb]
      exact ⟨_, rfl, .inr rfl, fun _ j hj => absurd hj (by omega), fun _ h => by cases h⟩

/-- All bytes. -/
theorem flipLoop_ok {E : Env} {x : PsName} {mem : Mem} {pub : Nat} {pk : Bytes} {msg : Nat} {M : Bytes} (K : Checks E x mem pub pk msg M)
    (fill : Nat → Ctx) (hfill : ∀ b, Shape E.cfg (fill b)) (σ tail : Bytes) (hl : σ.length = x.P.sigBytes)
    (inc binc : Nat) (hinc : 0 < inc) (hbinc : 0 < binc) : ∀ (fuel offset : Nat), σ.length - offset < fuel →
      ∃ o, flipLoop E mem fill (ps E.cfg x) pub msg M.length σ.length inc binc fuel offset (σ ++ tail) = .ok o ∧
        (o = none ∨ o = some (σ ++ tail)) ∧
        (o ≠ none ↔ ∀ i j, offset + i * inc < σ.length → j * binc < 8 → valid x.inst pk M (flipBit σ (offset + i * inc) (j * binc)) = false) := by
  intro fuel
  induction fuel with
  | zero => intro offset h; omega
  | succ fuel ih =>
    intro offset hf
    unfold flipLoop
    by_cases ho : offset < σ.length
    · rw [if_pos ho]
      obtain ⟨o, e, h1, h2⟩ := bitLoop_ok K fill hfill σ tail hl offset ho binc hbinc 9 0 (by omega)
      rw [e, ok_bind]
      simp only [Nat.zero_add] at h2
      rcases h1 with rfl | rfl
      · refine ⟨none, rfl, .inl rfl, ?_⟩
        constructor
        · intro h; exact absurd rfl h
        · intro h
          refine absurd rfl (h2.2 fun j hj => ?_)
          have := h 0 j (by omega) hj
          rwa [Nat.zero_mul, Nat.add_zero] at this
      · obtain ⟨o', e', h1', h2'⟩ := ih (offset + inc) (by omega)
        have h2 := h2.1 (fun h => by cases h)
        refine ⟨o', e', h1', h2'.trans ?_⟩
        constructor
        · intro h i j hi hj
          cases i with
          | zero => rw [Nat.zero_mul, Nat.add_zero]; exact h2 j hj
          | succ i =>
            have := h i j (by rw [Nat.succ_mul] at hi; omega) hj
            rw [Nat.succ_mul, show offset + (i * inc + inc) = offset + inc + i * inc by omega]
            exact this
        · intro h i j hi hj
          have := h (i + 1) j (by rw [Nat.succ_mul]; omega) hj
          rw [Nat.succ_mul, show offset + (i * inc + inc) = offset + inc + i * inc by omega] at this
          exact this
    · rw [if_neg ho]
      exact ⟨_, rfl, .inr rfl, fun _ i j hi => absurd hi (by omega), fun _ h => by cases h⟩

end Model
