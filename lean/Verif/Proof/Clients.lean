import Verif.Model.Clients
import Verif.Proof.Jobs
import Verif.Properties.Binding
/-!
# Lemmas about the client programs
-/
namespace Model
open Spec.Session (feed valid)

/-- One `ts_sign` call. -/
theorem sign_one {E : Env} {x : PsName} {priv : Nat} {sk rest : Bytes} {mem : Mem} {c : Ctx} (hm : mem.Has priv sk)
    (r : Rel E (.signing x priv sk) (.signing rest) c) (dest : Bytes) (m : Nat) (h : m ≤ dest.length) :
    ∃ c', ts_sign E mem dest m c = .ok ((rest.take m).length, rest.take m ++ dest.drop (rest.take m).length, c') ∧
      Rel E (.signing x priv sk) (.signing (rest.drop m)) c' := by
  obtain ⟨c1, e1, r1⟩ := exec_ok (mem := mem) (op := .sign dest m) r ⟨hm, h⟩
  refine ⟨c1, ?_, r1⟩
  have h : (do let (r, dest, c) ← ts_sign E mem dest m c; .ok (Spec.Session.Out.signed r dest, c) : C (Spec.Session.Out × Ctx)) =
    .ok (.signed (rest.take m).length (rest.take m ++ dest.drop (rest.take m).length), c1) := e1
  cases hh : ts_sign E mem dest m c with
  | error e => rw [hh] at h; cases h
  | ok v =>
    obtain ⟨a, b, d⟩ := v
    rw [hh, ok_bind] at h
    simp only [Except.ok.injEq, Prod.mk.injEq, Spec.Session.Out.signed.injEq] at h
    obtain ⟨⟨rfl, rfl⟩, rfl⟩ := h
    rfl

theorem length_countdown (n : Nat) : (countdown n).length = n := by
  induction n with
  | zero => rfl
  | succ n ih => rw [countdown, List.length_cons, ih]

theorem countdown_eq (n : Nat) : countdown n = (List.range n).reverse.map UInt8.ofNat := by
  induction n with
  | zero => rfl
  | succ n ih => rw [countdown, ih, List.range_succ, List.reverse_append, List.reverse_singleton, List.map_append, List.map_singleton, List.singleton_append]

theorem countdown1_eq (n : Nat) : countdown1 n = (List.range n).reverse.map fun i => UInt8.ofNat (i + 1) := by
  induction n with
  | zero => rfl
  | succ n ih => rw [countdown1, ih, List.range_succ, List.reverse_append, List.reverse_singleton, List.map_append, List.map_singleton, List.singleton_append]

theorem length_countdown1 (n : Nat) : (countdown1 n).length = n := by
  induction n with
  | zero => rfl
  | succ n ih => rw [countdown1, List.length_cons, ih]

theorem length_localLoop (n : Nat) : ∀ r, (localLoop n r).length = n := by
  induction n with
  | zero => intro r; rfl
  | succ n ih => intro r; rw [localLoop, List.length_cons, ih]

theorem fake_rand_ok (n : Nat) : RngOk fake_rand n := ⟨Nat.le_of_eq (length_countdown n), fun _ => length_countdown n⟩
theorem fake_rand1_ok (n : Nat) : RngOk fake_rand1 n := ⟨Nat.le_of_eq (length_countdown1 n), fun _ => length_countdown1 n⟩
theorem local_rand_ok (n : Nat) : RngOk local_rand n := ⟨Nat.le_of_eq (length_localLoop n _), fun _ => length_localLoop n _⟩
theorem fixed_rand_ok (n : Nat) : RngOk fixed_rand n := by unfold RngOk fixed_rand; simp
theorem optrand_rng_ok (b : Bytes) (n : Nat) (h : n ≤ b.length) : RngOk (optrand_rng b) n := by
  unfold RngOk optrand_rng; simp [List.length_take]; omega

/-- The loop of `run_sign`. -/
theorem run_sign_loop_ok {E : Env} {x : PsName} {priv : Nat} {sk : Bytes} {mem : Mem} (hm : mem.Has priv sk) :
    ∀ (rest : Bytes) (fuel : Nat) (c0 : UInt8) (c : Ctx), Rel E (.signing x priv sk) (.signing rest) c → rest.length < fuel →
      run_sign_loop E mem fuel c0 c = .ok rest := by
  intro rest
  induction rest with
  | nil =>
    intro fuel c0 c r hf
    cases fuel with
    | zero => omega
    | succ fuel =>
      obtain ⟨c', e, -⟩ := sign_one hm r [c0] 1 (Nat.le_refl 1)
      unfold run_sign_loop
      rw [e, ok_bind]
      rfl
  | cons b rest ih =>
    intro fuel c0 c r hf
    cases fuel with
    | zero => omega
    | succ fuel =>
      obtain ⟨c', e, r'⟩ := sign_one hm r [c0] 1 (Nat.le_refl 1)
      unfold run_sign_loop
      rw [e, ok_bind]
      have h := ih fuel b c' r' (by rw [List.length_cons] at hf; omega)
      show (do let cs ← run_sign_loop E mem fuel b c'; Except.ok (b :: cs) : C Bytes) = _
      rw [h, ok_bind]

/-- The loop of `test_testvector`. -/
theorem vectorLoop_ok {E : Env} {x : PsName} {priv pub msg : Nat} {sk pk M : Bytes} {mem : Mem} (hm : mem.Has priv sk) (hp : mem.Has pub pk)
    (hM : mem.Has msg M) (B : Nat) (hB : 0 < B) :
    ∀ (n : Nat) (rest log : Bytes) (fuel : Nat) (buf : Bytes) (c v : Ctx) (h : Sha256.Ctx), rest.length ≤ n → buf.length = B →
      Rel E (.signing x priv sk) (.signing rest) c → Rel E (.verifying x pub pk msg M) (.verifying x.inst pk M log false) v →
      Sha256.Abs h log → valid x.inst pk M (log ++ rest) = true → (log ++ rest).length = x.P.sigBytes → n < fuel →
      ∃ v' h', vectorLoop E mem fuel buf c v h = .ok (some (v', h')) ∧
        Rel E (.verifying x pub pk msg M) (.verifying x.inst pk M (log ++ rest) false) v' ∧ Sha256.Abs h' (log ++ rest) := by
  intro n
  induction n with
  | zero =>
    intro rest log fuel buf c v h hn hb rc rv hh hval hlen hf
    have : rest = [] := List.length_eq_zero_iff.1 (by omega)
    subst this
    cases fuel with
    | zero => omega
    | succ fuel =>
      obtain ⟨c', e, -⟩ := sign_one hm rc buf buf.length (Nat.le_refl _)
      unfold vectorLoop
      rw [e, ok_bind]
      rw [List.append_nil]
      refine ⟨v, h, ?_, rv, hh⟩
      rw [List.take_nil]; rfl
  | succ n ih =>
    intro rest log fuel buf c v h hn hb rc rv hh hval hlen hf
    cases fuel with
    | zero => omega
    | succ fuel =>
      obtain ⟨c', e, rc'⟩ := sign_one hm rc buf buf.length (Nat.le_refl _)
      unfold vectorLoop
      rw [e, ok_bind]
      by_cases h0 : rest = []
      · subst h0
        rw [List.append_nil]
        refine ⟨v, h, ?_, rv, hh⟩
        rw [List.take_nil]; rfl
      · have hpos : 0 < rest.length := List.length_pos_iff.2 h0
        have hne : ¬ (rest.take buf.length).length = 0 := by rw [List.length_take]; omega
        simp only [if_neg hne]
        rw [rdSlice_ok (by rw [List.length_append]; omega), ok_bind, List.drop_zero, take_left' rfl]
        obtain ⟨h1, e1, hh1⟩ := Sha256.update_ok h log (rest.take buf.length) hh
        rw [e1, ok_bind]
        obtain ⟨v1, e2, rv1⟩ := update_ok hp (fun _ => hM) rv (rest.take buf.length)
        have hcat : log ++ rest.take buf.length ++ rest.drop buf.length = log ++ rest := by rw [List.append_assoc, List.take_append_drop]
        have hfeed : feed x.inst pk M log (rest.take buf.length) = true := by
          unfold feed
          rw [List.length_append] at hlen
          have hlt : log.length < x.P.sigBytes := by omega
          rw [if_pos hlt]
          by_cases hlt' : (log ++ rest.take buf.length).length < x.P.sigBytes
          · rw [if_pos hlt']
          · rw [if_neg hlt']
            rw [List.length_append, List.length_take] at hlt'
            have : rest.take buf.length = rest := List.take_of_length_le (by omega)
            rw [this, List.length_append, if_pos hlen]
            exact hval
        rw [e2, ok_bind]
        rw [hfeed] at rv1 ⊢
        simp only [Bool.not_false, Bool.and_self, if_true, ne_eq, not_true, if_false]
        obtain ⟨v', h', e3, r3, a3⟩ := ih (rest.drop buf.length) (log ++ rest.take buf.length) fuel (rest.take buf.length ++ buf.drop (rest.take buf.length).length) c' v1 h1
          (by rw [List.length_drop]; omega) (by rw [List.length_append, List.length_drop, List.length_take]; omega) rc' rv1 hh1
          (by rw [hcat]; exact hval) (by rw [hcat]; exact hlen) (by omega)
        rw [hcat] at r3 a3
        exact ⟨v', h', e3, r3, a3⟩

end Model
