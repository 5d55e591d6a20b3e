import Verif.Proof.Jobs
/-!
# What `ts_sign` reads of the private key
-/
namespace Model
open Spec Spec.Slh

/-- `ts_sign` with `SK.seed` and `PK.seed` in memory. -/
theorem ts_sign_seeds {E : Env} {x : PsName} {priv : Nat} {sk : Bytes} {mem : Mem} (h1 : mem.Has priv (sk.take x.P.n))
    (h2 : mem.Has (priv + 2 * x.P.n) (skPkSeed x.P.n sk)) {rest : Bytes} {c : Ctx} (r : Rel E (.signing x priv sk) (.signing rest) c)
    {dest : Bytes} {m : Nat} (hd : m ≤ dest.length) :
    ∃ c', ts_sign E mem dest m c = .ok ((rest.take m).length, rest.take m ++ dest.drop (rest.take m).length, c') ∧
      Rel E (.signing x priv sk) (.signing (rest.drop m)) c' := by
  cases r with
  | signing S D ph g1 g2 g3 g4 g5 g6 g7 g8 g9 =>
    subst g1; subst g2; subst g9
    obtain ⟨-, l1, l2, l3, l4⟩ := key_split g4
    obtain ⟨ph', c', e, q1, q2, q3⟩ := ts_sign_ok D (mem := mem) (by unfold Sess.MemPub; rw [g3, g5]; exact h2)
      ⟨by rw [g3]; exact Nat.le_add_left _ _, by rw [g6]; exact l1, by rw [g3, g6, Nat.add_sub_cancel]; exact h1⟩ (dest := dest) (m := m) g7 g8 hd
    refine ⟨c', ?_, .signing S D ph' rfl rfl g3 g4 g5 g6 q1 q2 q3⟩
    rw [e]
    unfold put
    rw [List.take_zero, List.nil_append, Nat.zero_add]

/-- The results of `ts_sign` calls on a cursor at the start of `rest`. -/
def cursorOuts : Bytes → List (Bytes × Nat) → List (Nat × Bytes)
  | _, [] => []
  | rest, (dest, m) :: rs => ((rest.take m).length, rest.take m ++ dest.drop (rest.take m).length) :: cursorOuts (rest.drop m) rs

/-- `ts_sign` calls, each with its own memory that holds `SK.seed` and `PK.seed`. -/
theorem signCalls_seeds {E : Env} {x : PsName} {priv : Nat} {sk : Bytes} {mem : Mem} (h1 : mem.Has priv (sk.take x.P.n))
    (h2 : mem.Has (priv + 2 * x.P.n) (skPkSeed x.P.n sk)) (rs : List (Bytes × Nat)) {rest : Bytes} {c : Ctx}
    (r : Rel E (.signing x priv sk) (.signing rest) c) (hd : ∀ q ∈ rs, q.2 ≤ q.1.length) :
    ∃ c', signCalls E mem c rs = .ok (cursorOuts rest rs, c') := by
  induction rs generalizing rest c with
  | nil => exact ⟨c, rfl⟩
  | cons q rs ih =>
    obtain ⟨dest, m⟩ := q
    obtain ⟨c1, e1, r1⟩ := ts_sign_seeds h1 h2 r (hd (dest, m) (by simp))
    obtain ⟨c2, e2⟩ := ih r1 (fun q hq => hd q (by simp [hq]))
    refine ⟨c2, ?_⟩
    unfold signCalls
    rw [e1, ok_bind]
    simp only [e2, ok_bind]
    rfl

end Model
