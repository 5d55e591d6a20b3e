import Verif.Proof.VerifyLog
import Verif.Proof.SignLoop
/-!
# Histories of API calls refine the abstract session
-/
namespace Model
open Spec Spec.Slh
open Spec.Session (State Call Out step run feed valid)

/-- Context `c` implements the abstract state `s`. -/
inductive Rel (E : Env) : Held → State → Ctx → Prop
  | fresh {c : Ctx} : Shape E.cfg c → Rel E .nothing .fresh c
  | signing {x : PsName} {priv : Nat} {sk rest : Bytes} {c : Ctx} (S : Sess) (D : SignData S) (ph : Ph) : S.E = E → S.name = x → S.pk = priv + 2 * x.P.n →
      sk.length = 4 * x.P.n → S.pkSeed = skPkSeed x.P.n sk → D.sk = sk.take x.P.n → D.Inv ph c → c.buffer_offset ≤ S.n → D.pend ph c = rest →
      Rel E (.signing x priv sk) (.signing rest) c
  | verifying {x : PsName} {pub : Nat} {pk : Bytes} {msg : Nat} {M log : Bytes} {failed : Bool} {c : Ctx} (S : Sess) : S.E = E → S.name = x → S.pk = pub →
      pk.length = 2 * x.P.n → M.length < 2 ^ 60 → S.cfg.Fits msg M.length → S.pkSeed = pk.take x.P.n → VRel S ((pk.drop x.P.n).take x.P.n) msg M log failed c →
      (failed = true → x.P.sigBytes ≤ log.length ∧ valid x.inst pk M log = false) →
      Rel E (.verifying x pub pk msg M) (.verifying x.inst pk M log failed) c

theorem Rel.shape {E : Env} {h : Held} {s : State} {c : Ctx} (r : Rel E h s c) : Shape E.cfg c := by
  cases r with
  | fresh h => exact h
  | signing S D ph h1 h2 h3 h4 h5 h6 h7 h8 h9 => subst h1; exact h7.good.toShape
  | verifying S h1 h2 h3 h4 h5 h6 h7 h8 h9 => subst h1; exact h8.shape.toShape

theorem key_split {sk : Bytes} {n : Nat} (h : sk.length = 4 * n) :
    sk = sk.take n ++ ((sk.drop n).take n ++ (skPkSeed n sk ++ (sk.drop (3 * n)).take n)) ∧ (sk.take n).length = n ∧ ((sk.drop n).take n).length = n ∧
      (skPkSeed n sk).length = n ∧ ((sk.drop (3 * n)).take n).length = n := by
  refine ⟨?_, by simp; omega, by simp; omega, by simp [skPkSeed]; omega, by simp; omega⟩
  unfold skPkSeed
  have e3 : sk.drop (3 * n) = (sk.drop (2 * n)).drop n := by rw [List.drop_drop]; congr 1; omega
  have e2 : sk.drop (2 * n) = (sk.drop n).drop n := by rw [List.drop_drop]; congr 1; omega
  have e4 : (sk.drop (3 * n)).take n = sk.drop (3 * n) := List.take_of_length_le (by simp; omega)
  rw [e4, e3, List.take_append_drop, e2, List.take_append_drop, List.take_append_drop]

theorem key_mem {mem : Mem} {sk : Bytes} {n priv : Nat} (h : sk.length = 4 * n) (hm : mem.Has priv sk) :
    mem.Has priv (sk.take n) ∧ mem.Has (priv + n) ((sk.drop n).take n) ∧ mem.Has (priv + 2 * n) (skPkSeed n sk) ∧
      mem.Has (priv + 3 * n) ((sk.drop (3 * n)).take n) := by
  obtain ⟨e, l1, l2, l3, l4⟩ := key_split h
  rw [e, Mem.Has.append, Mem.Has.append, Mem.Has.append, l1, l2, l3] at hm
  refine ⟨hm.1, hm.2.1, ?_, ?_⟩
  · have := hm.2.2.1
    rw [show priv + n + n = priv + 2 * n by omega] at this; exact this
  · have := hm.2.2.2
    rw [show priv + n + n + n = priv + 3 * n by omega] at this; exact this

theorem pk_mem {mem : Mem} {pk : Bytes} {n pub : Nat} (h : pk.length = 2 * n) (hm : mem.Has pub pk) :
    (pk.take n).length = n ∧ ((pk.drop n).take n).length = n ∧ mem.Has pub (pk.take n) ∧ mem.Has (pub + n) ((pk.drop n).take n) := by
  have l1 : (pk.take n).length = n := by simp; omega
  have l2 : ((pk.drop n).take n).length = n := by simp; omega
  have e : pk = pk.take n ++ (pk.drop n).take n := by
    rw [List.take_of_length_le (l := pk.drop n) (by simp; omega), List.take_append_drop]
  rw [e, Mem.Has.append, l1] at hm
  exact ⟨l1, l2, hm.1, hm.2⟩

theorem feed_eq {S : Sess} {pk M log t : Bytes} (hp : S.pkSeed = pk.take S.n) :
    feed S.name.inst pk M log t = vStep S.P S.hf S.pkSeed ((pk.drop S.n).take S.n) M log t := by
  unfold feed vStep
  simp only
  have h1 : ∀ w : Bytes, w.length = S.P.sigBytes → valid S.name.inst pk M w = verifyBlocks S.P S.hf S.pkSeed ((pk.drop S.n).take S.n) M (blocks S.P.n w) := by
    intro w hw
    show (w.length == S.P.sigBytes && verifyBlocks S.P S.hf (pk.take S.n) _ M _) = _
    rw [hw, beq_self_eq_true, Bool.true_and, hp]
  show (if log.length < S.P.sigBytes then _ else _) = _
  by_cases h2 : (log ++ t).length = S.P.sigBytes
  · rw [h1 _ h2]
  · show (if _ then if _ then _ else if (log ++ t).length = S.P.sigBytes then _ else _ else _) = _
    rw [if_neg h2, if_neg h2]

theorem valid_len {x : Instance} {pk M w : Bytes} (h : valid x pk M w = true) : w.length = x.params.sigBytes := by
  unfold Spec.Session.valid verify at h
  rw [Bool.and_eq_true, beq_iff_eq] at h
  exact h.1

theorem feed_false {x : Instance} {pk M log t : Bytes} (hn : 0 < x.params.n) (h : feed x pk M log t = false) :
    x.params.sigBytes ≤ (log ++ t).length ∧ valid x pk M (log ++ t) = false := by
  refine ⟨?_, ?_⟩
  · unfold feed at h
    simp only at h
    rw [List.length_append] at *
    by_cases h1 : log.length < x.params.sigBytes
    · rw [if_pos h1] at h
      by_cases h2 : log.length + t.length < x.params.sigBytes
      · rw [if_pos h2] at h; cases h
      · omega
    · omega
  rw [Bool.eq_false_iff]
  intro hv
  have hl := valid_len hv
  unfold feed at h
  simp only at h
  by_cases h1 : log.length < x.params.sigBytes
  · rw [if_pos h1, if_neg (by omega), if_pos hl, hv] at h
    cases h
  · rw [if_neg h1, hl] at h
    have := of_decide_eq_false h
    omega

theorem VRel.valid {S : Sess} {root M w : Bytes} {msg : Nat} {c : Ctx} (h : VRel S root msg M w false c) (hl : w.length = S.P.sigBytes) :
    verifyBlocks S.P S.hf S.pkSeed root M (blocks S.n w) = true := by
  cases h with
  | run ph bs hi hbo hcnt hb hw hc hacc =>
    have hlen := VRel.run_len hi.good hbo hb hw hc
    have hcn : S.n ≤ ph.cnt * S.n := Nat.le_mul_of_pos_left _ hcnt
    omega
  | acc g hs hwl hbo hv =>
    rw [List.take_of_length_le (by omega)] at hv; exact hv

/-- One call of the API refines one step of the abstract session. -/
theorem exec_ok {E : Env} {h : Held} {s : State} {c : Ctx} {mem : Mem} {op : Op} (r : Rel E h s c) (hl : op.Legal E.cfg h s mem) :
    ∃ c', op.exec E mem c = .ok ((step s op.call).2, c') ∧ Rel E (h.next op) (step s op.call).1 c' := by
  cases op with
  | initSign x msg M priv sk rng =>
    obtain ⟨h1, h2, h3, h4, h5, h6⟩ := hl
    obtain ⟨k1, k2, k3, k4⟩ := key_mem h2 h3
    obtain ⟨-, l1, l2, l3, l4⟩ := key_split h2
    let S : Sess := ⟨E, x, h1, priv + 2 * x.P.n, skPkSeed x.P.n sk, l3⟩
    obtain ⟨c', D, q1, q2, q3, q4, q5⟩ := ts_init_sign_ok (S := S) (mem := mem) (c := c) (msg := msg) (skSeed := sk.take x.P.n)
      (skPrf := (sk.drop x.P.n).take x.P.n) (root := (sk.drop (3 * x.P.n)).take x.P.n) (M := M) (rng := rng) (priv := priv)
      r.shape rfl k3 ⟨by show 2 * x.P.n ≤ priv + 2 * x.P.n; omega, l1, by
        show mem.Has (priv + 2 * x.P.n - 2 * x.P.n) _
        rw [Nat.add_sub_cancel]; exact k1⟩
      ⟨by show x.P.n ≤ priv + 2 * x.P.n; omega, l2, by
        show mem.Has (priv + 2 * x.P.n - x.P.n) _
        rw [show priv + 2 * x.P.n - x.P.n = priv + x.P.n by omega]; exact k2⟩
      ⟨l4, by
        show mem.Has (priv + 2 * x.P.n + x.P.n) _
        rw [show priv + 2 * x.P.n + x.P.n = priv + 3 * x.P.n by omega]; exact k4⟩
      h4 h5 h6
    refine ⟨c', ?_, .signing S D _ rfl rfl rfl h2 rfl q1 q3 q4 q5⟩
    show (do let (c, _) ← ts_init_sign E mem c msg M.length (ps E.cfg x) priv rng; .ok (Out.unit, c) : C (Out × Ctx)) = _
    rw [show ts_init_sign E mem c msg M.length (ps E.cfg x) priv rng = _ from q2]
    rfl
  | initVerify x msg M pub pk =>
    obtain ⟨h1, h2, h3, h4, h5⟩ := hl
    obtain ⟨l1, l2, k1, k2⟩ := pk_mem h2 h3
    let S : Sess := ⟨E, x, h1, pub, pk.take x.P.n, l1⟩
    obtain ⟨c', q1, q2⟩ := ts_init_verify_ok (S := S) (mem := mem) (root := (pk.drop x.P.n).take x.P.n) (M := M) (msg := msg) r.shape k1
    refine ⟨c', ?_, .verifying S rfl rfl rfl h2 h4 h5 rfl q2 (fun h => by cases h)⟩
    show (do let c ← ts_init_verify E mem c msg M.length (ps E.cfg x) pub; .ok (Out.unit, c) : C (Out × Ctx)) = _
    rw [show ts_init_verify E mem c msg M.length (ps E.cfg x) pub = _ from q1]
    rfl
  | sign dest m =>
    cases r with
    | fresh => exact absurd hl id
    | verifying S h1 h2 h3 h4 h5 h6 h7 h8 h9 =>
      refine ⟨c, ?_, .verifying S h1 h2 h3 h4 h5 h6 h7 h8 h9⟩
      show (do let (r, dest, c) ← ts_sign E mem dest m c; .ok (Out.signed r dest, c) : C (Out × Ctx)) = _
      unfold ts_sign
      rw [if_pos (Or.inr (by have := h8.st; omega))]
      rfl
    | signing S D ph h1 h2 h3 h4 h5 h6 h7 h8 h9 =>
      subst h1; subst h2; subst h9
      obtain ⟨hm, hd⟩ := hl
      obtain ⟨k1, k2, k3, k4⟩ := key_mem h4 hm
      obtain ⟨-, l1, l2, l3, l4⟩ := key_split h4
      obtain ⟨ph', c', e, q1, q2, q3⟩ := ts_sign_ok D (mem := mem) (by unfold Sess.MemPub; rw [h3, h5]; exact k3)
        ⟨by rw [h3]; exact Nat.le_add_left _ _, by rw [h6]; exact l1, by rw [h3, h6, Nat.add_sub_cancel]; exact k1⟩ (dest := dest) (m := m) h7 h8 hd
      refine ⟨c', ?_, .signing S D ph' rfl rfl h3 h4 h5 h6 q1 q2 q3⟩
      show (do let (r, dest, c) ← ts_sign S.E mem dest m c; .ok (Out.signed r dest, c) : C (Out × Ctx)) = _
      rw [e, ok_bind]
      show Except.ok (Out.signed _ (put dest 0 _), c') = .ok (Out.signed _ _, c')
      unfold put
      rw [List.take_zero, List.nil_append, Nat.zero_add]
  | update sig =>
    cases r with
    | fresh => exact absurd hl id
    | signing S D ph h1 h2 h3 h4 h5 h6 h7 h8 h9 =>
      refine ⟨c, ?_, .signing S D ph h1 h2 h3 h4 h5 h6 h7 h8 h9⟩
      show (do let (r, c) ← ts_update_verify E mem sig c; .ok (Out.ret r, c) : C (Out × Ctx)) = _
      unfold ts_update_verify
      have := h7.guard
      have h' : St.sign_state.num < St.verify_state.num := by decide
      rw [if_pos (Or.inl (by omega))]
      rfl
    | @verifying x pub pk msg M log failed _ S h1 h2 h3 h4 h5 h6 h7 h8 h9 =>
      subst h1; subst h2; subst h3
      obtain ⟨hp, hM⟩ := hl
      obtain ⟨l1, l2, k1, k2⟩ := pk_mem h4 hp
      obtain ⟨c', e, q⟩ := ts_update_verify_ok (S := S) (mem := mem) (t := sig) (by unfold Sess.MemPub; rw [h7]; exact k1) ⟨l2, k2⟩ h5 h6 h8 hM
      have hfe := feed_eq (S := S) (M := M) (log := log) (t := sig) h7
      rw [← hfe] at e q
      refine ⟨c', ?_, .verifying S rfl rfl rfl h4 h5 h6 h7 q ?_⟩
      · show (do let (r, c) ← ts_update_verify S.E mem sig c; .ok (Out.ret r, c) : C (Out × Ctx)) = .ok (Out.ret (if (!failed && feed S.name.inst pk M log sig) = true then 1 else 0), c')
        rw [e]
        cases failed <;> simp
      · intro hf
        have hn : 0 < S.name.inst.params.n := by have : 16 ≤ S.name.inst.params.n := S.facts.n16; omega
        cases hff : failed with
        | false =>
          rw [hff] at hf
          have : feed S.name.inst pk M log sig = false := by simpa using hf
          exact feed_false hn this
        | true =>
          obtain ⟨i1, i2⟩ := h9 hff
          refine ⟨by rw [List.length_append]; exact Nat.le_trans i1 (Nat.le_add_right _ _), ?_⟩
          cases sig with
          | nil => rw [List.append_nil]; exact i2
          | cons b bs =>
            rw [Bool.eq_false_iff]
            intro hv
            have := valid_len hv
            rw [List.length_append, List.length_cons] at this
            have i1' : S.name.inst.params.sigBytes ≤ log.length := i1
            omega
  | verify =>
    cases r with
    | fresh => exact absurd hl id
    | signing S D ph h1 h2 h3 h4 h5 h6 h7 h8 h9 =>
      refine ⟨c, ?_, .signing S D ph h1 h2 h3 h4 h5 h6 h7 h8 h9⟩
      show Except.ok (Out.ret (ts_verify c), c) = _
      unfold ts_verify
      have := h7.guard
      rw [if_neg (by
        rintro ⟨hs, -⟩
        rw [hs] at this
        exact this (Or.inr (by decide)))]
      rfl
    | @verifying x pub pk msg M log failed _ S h1 h2 h3 h4 h5 h6 h7 h8 h9 =>
      refine ⟨c, ?_, .verifying S h1 h2 h3 h4 h5 h6 h7 h8 h9⟩
      subst h1; subst h2; subst h3
      show Except.ok (Out.ret (ts_verify c), c) = .ok (Out.ret (if valid S.name.inst pk M log = true then 1 else 0), c)
      rw [ts_verify_ok h8]
      cases failed with
      | true => rw [(h9 rfl).2]; rfl
      | false =>
        by_cases hlen : log.length = S.P.sigBytes
        · have hv : valid S.name.inst pk M log = true := by
            show (log.length == S.P.sigBytes && verifyBlocks S.P S.hf (pk.take S.n) _ M _) = true
            rw [hlen, beq_self_eq_true, Bool.true_and, ← h7]
            exact h8.valid hlen
          rw [hv, if_pos ⟨rfl, hlen⟩]; rfl
        · rw [if_neg (fun h => hlen h.2), if_neg (fun h => hlen (valid_len h))]

/-- A history of API calls refines the abstract session. -/
theorem execAll_rel {E : Env} (ops : List (Mem × Op)) : ∀ {h : Held} {s : State} {c : Ctx}, Rel E h s c → LegalAll E.cfg h s ops →
    ∃ c', execAll E c ops = .ok (run s (ops.map fun o => o.2.call), c') ∧ Rel E (h.after ops) (stateAfter s ops) c' := by
  induction ops with
  | nil => intro h s c r _; exact ⟨c, rfl, r⟩
  | cons o ops ih =>
    obtain ⟨mem, op⟩ := o
    intro h s c r hl
    obtain ⟨c1, e1, r1⟩ := exec_ok r hl.1
    obtain ⟨c2, e2, s2⟩ := ih r1 hl.2
    refine ⟨c2, ?_, s2⟩
    unfold execAll
    rw [e1, ok_bind]
    simp only [e2, ok_bind]
    rfl

theorem execAll_ok {E : Env} (ops : List (Mem × Op)) {h : Held} {s : State} {c : Ctx} (r : Rel E h s c) (l : LegalAll E.cfg h s ops) :
    ∃ c', execAll E c ops = .ok (run s (ops.map fun o => o.2.call), c') ∧ Shape E.cfg c' := by
  obtain ⟨c', e, r'⟩ := execAll_rel ops r l
  exact ⟨c', e, r'.shape⟩

/-- `ts_sign` on a verifying context. -/
theorem sign_on_verifying {E : Env} {x : PsName} {pub msg : Nat} {pk M : Bytes} {s : State} {c : Ctx} (r : Rel E (.verifying x pub pk msg M) s c)
    (mem : Mem) (dest : Bytes) (m : Nat) : ts_sign E mem dest m c = .ok (0, dest, c) := by
  cases r with
  | verifying S h1 h2 h3 h4 h5 h6 h7 h8 h9 =>
    unfold ts_sign
    rw [if_pos (Or.inr (by have := h8.st; omega))]

/-- `ts_update_verify` on a signing context. -/
theorem update_on_signing {E : Env} {x : PsName} {priv : Nat} {sk : Bytes} {s : State} {c : Ctx} (r : Rel E (.signing x priv sk) s c)
    (mem : Mem) (t : Bytes) : ts_update_verify E mem t c = .ok (0, c) ∧ ts_verify c = 0 := by
  cases r with
  | signing S D ph h1 h2 h3 h4 h5 h6 h7 h8 h9 =>
    have := h7.guard
    have h' : St.sign_state.num < St.verify_state.num := by decide
    refine ⟨?_, ?_⟩
    · unfold ts_update_verify
      rw [if_pos (Or.inl (by omega))]
    · unfold ts_verify
      rw [if_neg (by
        rintro ⟨hs, -⟩
        rw [hs] at this
        exact this (Or.inr (by decide)))]

end Model
