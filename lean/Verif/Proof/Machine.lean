import Verif.Proof.Session
import Verif.Proof.Keygen
import Verif.Properties.Keys
import Verif.Model.Machine
/-!
# Programs refine the abstract machine
-/
namespace Model
open Spec.Machine (Stmt Memory Rules Place Slot Machine load holds behaves)
open Spec.Session (State)

theorem psOf_inst (x : Spec.Instance) : (psOf x).inst = x := by cases x <;> rfl

/-! ## Memory -/

theorem load_length {m : Memory} : ∀ {len a : Nat} {bs : Bytes}, load m a len = some bs → bs.length = len := by
  intro len
  induction len with
  | zero => intro a bs h; cases h; rfl
  | succ len ih =>
    intro a bs h
    unfold load at h
    cases h1 : m a with
    | none => rw [h1] at h; cases h
    | some b =>
      cases h2 : load m (a + 1) len with
      | none => rw [h1, h2] at h; cases h
      | some cs => rw [h1, h2] at h; cases h; rw [List.length_cons, ih h2]

theorem load_has {m : Memory} : ∀ {len a : Nat} {bs : Bytes}, load m a len = some bs → Mem.Has m a bs := by
  intro len
  induction len with
  | zero => intro a bs h i hi; cases h; cases hi
  | succ len ih =>
    intro a bs h
    unfold load at h
    cases h1 : m a with
    | none => rw [h1] at h; cases h
    | some b =>
      cases h2 : load m (a + 1) len with
      | none => rw [h1, h2] at h; cases h
      | some cs =>
        rw [h1, h2] at h; cases h
        intro i hi
        cases i with
        | zero => exact h1
        | succ i =>
          have := ih h2 i (by simpa using hi)
          rw [show a + (i + 1) = a + 1 + i by omega]
          exact this

theorem has_load {m : Memory} : ∀ {bs : Bytes} {a : Nat}, Mem.Has m a bs → load m a bs.length = some bs := by
  intro bs
  induction bs with
  | nil => intro a _; rfl
  | cons b bs ih =>
    intro a h
    have h0 : m a = some b := h 0 (by simp)
    have h1 := ih (a := a + 1) (fun i hi => by
      have := h (i + 1) (by simpa using hi)
      rw [show a + 1 + i = a + (i + 1) by omega]
      exact this)
    show (match m a, load m (a + 1) bs.length with | some b, some bs => some (b :: bs) | _, _ => none) = _
    rw [h0, h1]

theorem holds_iff {m : Memory} {a : Nat} {bs : Bytes} : holds m a bs = true ↔ Mem.Has m a bs := by
  unfold holds
  rw [beq_iff_eq]
  exact ⟨load_has, has_load⟩

theorem load_read {m : Mem} {a len : Nat} {bs : Bytes} (h : load m a len = some bs) : m.read a len = .ok bs := by
  have := (load_has h).read
  rw [load_length h] at this
  exact this

theorem Mem.Has.mapped {m : Mem} {a : Nat} {bs : Bytes} (h : m.Has a bs) : m.Mapped a bs.length := by
  intro i hi
  rw [h i hi]; rfl

theorem load_mapped {m : Mem} {a len : Nat} (h : (load m a len).isSome = true) : m.Mapped a len := by
  obtain ⟨bs, e⟩ := Option.isSome_iff_exists.1 h
  have := (load_has e).mapped
  rw [load_length e] at this
  exact this

theorem Mem.Wrote.eq_put {m m' : Mem} {a : Nat} {bs : Bytes} (w : m.Wrote a bs m') : m' = Spec.Machine.put m a bs := by
  funext p
  unfold Spec.Machine.put
  by_cases h : a ≤ p ∧ p < a + bs.length
  · rw [if_pos h]
    have := w.has (p - a) (by omega)
    rw [show a + (p - a) = p by omega] at this
    rw [this]
    exact (List.getElem?_eq_getElem _).symm
  · rw [if_neg h]
    exact w.frame p (by omega)

theorem write_put {m : Mem} {a : Nat} {bs : Bytes} (h : m.Mapped a bs.length) : m.write a bs = .ok (Spec.Machine.put m a bs) := by
  obtain ⟨m', e, w⟩ := Mem.write_ok bs m a h
  rw [e, w.eq_put]

/-- Writing back what is there. -/
theorem put_append {m : Mem} {a : Nat} {u v : Bytes} (h : m.Has (a + u.length) v) : Spec.Machine.put m a (u ++ v) = Spec.Machine.put m a u := by
  funext p
  unfold Spec.Machine.put
  rw [List.length_append]
  by_cases h1 : a ≤ p ∧ p < a + u.length
  · rw [if_pos h1, if_pos (by omega), List.getElem?_append_left (by omega)]
  · rw [if_neg h1]
    by_cases h2 : a ≤ p ∧ p < a + (u.length + v.length)
    · rw [if_pos h2, List.getElem?_append_right (by omega)]
      have := h (p - a - u.length) (by omega)
      rw [show a + u.length + (p - a - u.length) = p by omega] at this
      rw [this]
      exact List.getElem?_eq_getElem _
    · rw [if_neg h2]

theorem Mem.Has.drop {m : Mem} {a : Nat} {bs : Bytes} (h : m.Has a bs) (k : Nat) : m.Has (a + k) (bs.drop k) := by
  intro i hi
  rw [List.length_drop] at hi
  have := h (k + i) (by omega)
  rw [show a + k + i = a + (k + i) by omega, this, List.getElem_drop]

theorem behaves_ok {f : Rng} {n : Nat} (h : behaves f n = true) : RngOk f n := by
  unfold behaves at h
  simp only [Bool.and_eq_true, decide_eq_true_eq, Bool.or_eq_true, Bool.not_eq_true'] at h
  refine ⟨h.1, fun e => ?_⟩
  rcases h.2 with h2 | h2
  · rw [e] at h2; cases h2
  · exact h2

/-! ## Contexts -/

/-- What is held, in the terms of the contract. -/
def heldOf : Place → Held
  | .nothing => .nothing
  | .key x priv sk => .signing (psOf x) priv sk
  | .pubKey x pub pk msg M => .verifying (psOf x) pub pk msg M

/-- A context implements a slot. -/
def SlotRel (E : Env) (s : Slot) (c : Ctx) : Prop := Rel E (heldOf s.place) s.state c

/-- All contexts do. -/
def MRel (E : Env) (σ : Machine) (cs : Nat → Ctx) : Prop := ∀ i, SlotRel E (σ.slots i) (cs i)

theorem MRel.set {E : Env} {σ : Machine} {cs : Nat → Ctx} (h : MRel E σ cs) {i : Nat} {s : Slot} {c : Ctx} (hc : SlotRel E s c) :
    MRel E (σ.set i s) (setCtx cs i c) := by
  intro j
  unfold Spec.Machine.Machine.set setCtx
  by_cases hj : j = i
  · simp only [if_pos hj]; exact hc
  · simp only [if_neg hj]; exact h j

theorem setCtx_self (cs : Nat → Ctx) (i : Nat) : setCtx cs i (cs i) = cs := by
  funext j
  unfold setCtx
  by_cases h : j = i
  · rw [if_pos h, h]
  · rw [if_neg h]

/-! ## Statements -/

theorem genKey_ok {E : Env} {m : Mem} {priv : Nat} {pub : Option Nat} {x : Spec.Instance} {f : Rng} {n : Nat} (hn : n = x.params.n)
    (h1 : supported E.cfg (psOf x) = true) (h2 : behaves f (3 * n) = true) (h3 : m.Mapped priv (4 * n))
    (h4 : ∀ p, pub = some p → m.Mapped p (2 * n) ∧ Disj priv (4 * n) p (2 * n)) :
    ∃ q, ts_gen_key E m (some priv) pub (some (ps E.cfg (psOf x))) (some f) = .ok (if (f (3 * n)).1 then
        (1, (match pub with
          | none => Spec.Machine.put m priv (Spec.Machine.key x (f (3 * n)).2)
          | some p => Spec.Machine.put (Spec.Machine.put m priv (Spec.Machine.key x (f (3 * n)).2)) p ((Spec.Machine.key x (f (3 * n)).2).drop (2 * n))), q)
      else (0, Spec.Machine.put m priv (f (3 * n)).2, q)) := by
  subst hn
  have hP : (psOf x).P = x.params := by unfold PsName.P; rw [psOf_inst]
  let J : KeyJob := ⟨E, psOf x, h1, m, priv, pub, f, by rw [hP]; exact behaves_ok h2, by rw [hP]; exact h3, by rw [hP]; exact h4⟩
  have hlen : (f (3 * x.params.n)).1 = true → (f (3 * x.params.n)).2.length = 3 * x.params.n := (behaves_ok h2).2
  have hpn : (ps E.cfg (psOf x)).n = x.params.n := by cases x <;> rfl
  by_cases hd : (f (3 * x.params.n)).1 = true
  · obtain ⟨m', e, k1, -, k3, k4⟩ := Properties.C12_keygen J (show (f (3 * (psOf x).P.n)).1 = true by rw [hP]; exact hd)
    have hk : Properties.standardKey (psOf x) J.bytes = Spec.Machine.key x (f (3 * x.params.n)).2 := by
      show Properties.standardKey (psOf x) (f (3 * (psOf x).P.n)).2 = _
      rw [hP]
      unfold Properties.standardKey Spec.Machine.key PsName.P PsName.fns
      rw [psOf_inst]
    have hkl : (Spec.Machine.key x (f (3 * x.params.n)).2).length = 4 * x.params.n := by
      rw [← hk]
      have := Properties.length_standardKey (psOf x) J.bytes (J.rngOk.2 (show (f (3 * (psOf x).P.n)).1 = true by rw [hP]; exact hd))
      rw [this, hP]
    have hpr : ts_size_private_key (ps J.E.cfg J.x) = 4 * x.params.n := by
      show 4 * (ps E.cfg (psOf x)).n = _; rw [hpn]
    have hpu : ts_size_public_key (ps J.E.cfg J.x) = 2 * x.params.n := by
      show 2 * (ps E.cfg (psOf x)).n = _; rw [hpn]
    have hPJ : J.x.P.n = x.params.n := by show (psOf x).P.n = _; rw [hP]
    rw [hpr, hpu] at k4
    rw [show Properties.standardKey J.x J.bytes = _ from hk] at k1 k3
    rw [hPJ] at k3
    refine ⟨[3 * J.x.P.n], ?_⟩
    rw [if_pos hd]
    refine Eq.trans e ?_
    congr 3
    funext a
    cases hp : pub with
    | none =>
      show m' a = Spec.Machine.put m priv _ a
      unfold Spec.Machine.put
      by_cases ha : priv ≤ a ∧ a < priv + 4 * x.params.n
      · rw [if_pos (by rw [hkl]; exact ha)]
        have := k1 (a - priv) (by omega)
        rw [show priv + (a - priv) = a by omega] at this
        exact this.trans (List.getElem?_eq_getElem _).symm
      · rw [if_neg (by rw [hkl]; exact ha)]
        exact k4 a ha (fun p h => by rw [show J.pub = none from hp] at h; cases h)
    | some p =>
      obtain ⟨-, hdis⟩ := h4 p hp
      have hv : ((Spec.Machine.key x (f (3 * x.params.n)).2).drop (2 * x.params.n)).length = 2 * x.params.n := by rw [List.length_drop, hkl]; omega
      have k3 := k3 p hp
      show m' a = Spec.Machine.put (Spec.Machine.put m priv _) p _ a
      unfold Spec.Machine.put
      rw [hv, hkl]
      unfold Disj at hdis
      by_cases hb : p ≤ a ∧ a < p + 2 * x.params.n
      · rw [if_pos hb]
        have := k3 (a - p) (by rw [hv]; omega)
        rw [show p + (a - p) = a by omega] at this
        exact this.trans (List.getElem?_eq_getElem _).symm
      · rw [if_neg hb]
        by_cases ha : priv ≤ a ∧ a < priv + 4 * x.params.n
        · rw [if_pos ha]
          have := k1 (a - priv) (by omega)
          rw [show priv + (a - priv) = a by omega] at this
          exact this.trans (List.getElem?_eq_getElem _).symm
        · rw [if_neg ha]
          refine k4 a ha (fun q h => ?_)
          rw [show J.pub = some p from hp] at h
          cases h
          exact hb
  · have hf : (f (3 * x.params.n)).1 = false := by cases h : (f (3 * x.params.n)).1 <;> simp_all
    refine ⟨[3 * x.params.n], ?_⟩
    rw [if_neg hd]
    have hl := (behaves_ok h2).1
    unfold ts_gen_key
    have hw := write_put (m := m) (a := priv) (bs := (f (3 * x.params.n)).2) (h3.mono (Nat.le_refl _) (by omega))
    simp only [hpn, hw, ok_bind, hf]
    rfl

theorem step_ok {E : Env} {σ σ' : Machine} {cs : Nat → Ctx} {s : Stmt} {o : Option Nat} (h : MRel E σ cs)
    (e : Spec.Machine.step (rulesOf E.cfg) σ s = some (o, σ')) :
    ∃ cs', stmtExec E cs σ.mem s = .ok (o, cs', σ'.mem) ∧ MRel E σ' cs' := by
  cases s with
  | edit f => cases e; exact ⟨cs, rfl, h⟩
  | copy i j => cases e; exact ⟨_, rfl, h.set (h i)⟩
  | genKey priv pub x rng =>
    match priv, x, rng, e with
    | none, x, rng, e =>
      cases e
      refine ⟨cs, ?_, h⟩
      unfold stmtExec; dsimp only
      rw [Properties.C13_null _ _ _ _ _ _ (.inl rfl)]; rfl
    | some priv, none, rng, e =>
      cases e
      refine ⟨cs, ?_, h⟩
      unfold stmtExec; dsimp only
      rw [show Option.map (fun x => ps E.cfg (psOf x)) none = none from rfl, Properties.C13_null _ _ _ _ _ _ (.inr (.inl rfl))]; rfl
    | some priv, some x, none, e =>
      cases e
      refine ⟨cs, ?_, h⟩
      unfold stmtExec; dsimp only
      rw [Properties.C13_null _ _ _ _ _ _ (.inr (.inr rfl))]; rfl
    | some priv, some x, some f, e =>
      unfold Spec.Machine.step at e
      dsimp only at e
      split at e
      · rename_i hc
        simp only [Bool.and_eq_true] at hc
        obtain ⟨⟨c1, c2⟩, c3⟩ := hc
        unfold Spec.Machine.keyRoom at c3
        rw [Bool.and_eq_true] at c3
        obtain ⟨c3, c4⟩ := c3
        obtain ⟨q, eq⟩ := genKey_ok (E := E) (m := σ.mem) (pub := pub) rfl c1 c2 (load_mapped c3) (by
          intro p hp
          subst hp
          simp only [Option.all_some, Bool.and_eq_true, Bool.or_eq_true, decide_eq_true_eq] at c4
          exact ⟨load_mapped c4.1, c4.2⟩)
        unfold stmtExec; dsimp only
        rw [show (Option.map (fun x => ps E.cfg (psOf x)) (some x)) = some (ps E.cfg (psOf x)) from rfl, eq, ok_bind]
        split at e
        · rename_i hd
          cases e
          simp only [if_pos hd]
          exact ⟨cs, rfl, h⟩
        · rename_i hd
          cases e
          simp only [if_neg hd]
          exact ⟨cs, rfl, h⟩
      · cases e
  | initSign i msg len x priv rng =>
    unfold Spec.Machine.step at e
    dsimp only at e
    split at e
    · rename_i hc
      simp only [Bool.and_eq_true, decide_eq_true_eq] at hc
      obtain ⟨⟨c1, c2⟩, c3⟩ := hc
      split at e
      · rename_i sk M hsk hM
        cases e
        have hP : (psOf x).P = x.params := by unfold PsName.P; rw [psOf_inst]
        have hl : (Op.initSign (psOf x) msg M priv sk rng).Legal E.cfg (heldOf (σ.slots i).place) (σ.slots i).state σ.mem := by
          refine ⟨c1, by rw [load_length hsk, hP], load_has hsk, load_has hM, by rw [load_length hM]; exact c2, fun f hf => ?_⟩
          subst hf
          rw [hP]
          exact behaves_ok c3
        obtain ⟨c, e1, r1⟩ := exec_ok (h i) hl
        have hn : (skPkSeed x.params.n sk).length = x.params.n := by
          unfold skPkSeed
          rw [List.length_take, List.length_drop, load_length hsk]; omega
        have ho : optRand rng (skPkSeed x.params.n sk) = Spec.Machine.optRand rng x.params.n ((sk.drop (2 * x.params.n)).take x.params.n) := by
          cases rng with
          | none => rfl
          | some f => unfold optRand Spec.Machine.optRand; simp only [hn]; rfl
        refine ⟨setCtx cs i c, ?_, h.set ?_⟩
        · unfold Op.exec at e1; dsimp only at e1
          unfold stmtExec; dsimp only
          rw [load_length hM] at e1
          cases h1 : ts_init_sign E σ.mem (cs i) msg len (ps E.cfg (psOf x)) priv rng with
          | error q => rw [h1] at e1; cases e1
          | ok v => rw [h1] at e1; cases e1; rfl
        · unfold SlotRel
          unfold Op.call at r1; dsimp only at r1
          rw [hP, ho] at r1
          rw [psOf_inst] at r1
          exact r1
      · cases e
    · cases e
  | sign i dst m =>
    unfold Spec.Machine.step at e
    dsimp only at e
    split at e
    · rename_i hm
      obtain ⟨dest, hd⟩ := Option.isSome_iff_exists.1 hm
      have hdl := load_length hd
      have hs := h i
      unfold stmtExec; dsimp only
      rw [load_read hd, ok_bind]
      split at e
      · rename_i rest x priv sk hslot
        split at e
        · rename_i hc
          cases e
          simp only [Bool.and_eq_true] at hc
          rw [hslot] at hs
          obtain ⟨c, e1, r1⟩ := exec_ok (op := .sign dest m) (mem := σ.mem) hs ⟨holds_iff.1 hc.1, by omega⟩
          refine ⟨setCtx cs i c, ?_, ?_⟩
          · unfold Op.exec at e1; dsimp only at e1
            cases h1 : ts_sign E σ.mem dest m (cs i) with
            | error q => rw [h1] at e1; cases e1
            | ok v =>
              obtain ⟨r, d', c'⟩ := v
              rw [h1] at e1
              cases e1
              rw [ok_bind]
              show (Mem.write σ.mem dst ((rest.take m) ++ dest.drop (rest.take m).length) >>= _) = _
              have hlen : (rest.take m ++ dest.drop (rest.take m).length).length = m := by
                rw [List.length_append, List.length_drop, hdl, List.length_take]; omega
              rw [write_put (by rw [hlen]; exact load_mapped hm), ok_bind, put_append ((load_has hd).drop _)]
          · intro j
            exact (h.set (s := ⟨.signing (rest.drop m), .key x priv sk⟩) (c := c) r1) j
        · cases e
      · rename_i x pk M log failed y pub pk' msg M' hslot
        cases e
        rw [hslot] at hs
        obtain ⟨c, e1, r1⟩ := exec_ok (op := .sign dest m) (mem := σ.mem) hs trivial
        refine ⟨setCtx cs i c, ?_, ?_⟩
        · unfold Op.exec at e1; dsimp only at e1
          cases h1 : ts_sign E σ.mem dest m (cs i) with
          | error q => rw [h1] at e1; cases e1
          | ok v =>
            obtain ⟨r, d', c'⟩ := v
            rw [h1] at e1
            cases e1
            rw [ok_bind]
            show (Mem.write σ.mem dst _ >>= _) = _
            rw [write_put (by rw [hdl]; exact load_mapped hm), ok_bind]
            have := put_append (m := σ.mem) (a := dst) (u := []) (load_has hd)
            rw [List.nil_append] at this
            rw [this, show Spec.Machine.put σ.mem dst [] = σ.mem from funext fun p => if_neg (by simp)]
        · intro j
          by_cases hj : j = i
          · subst hj
            show SlotRel E (σ.slots j) (if j = j then c else cs j)
            rw [if_pos rfl, hslot]; exact r1
          · show SlotRel E (σ.slots j) (if j = i then c else cs j)
            rw [if_neg hj]; exact h j
      · cases e
    · cases e
  | initVerify i msg len x pub =>
    unfold Spec.Machine.step at e
    dsimp only at e
    split at e
    · rename_i hc
      simp only [Bool.and_eq_true, decide_eq_true_eq] at hc
      obtain ⟨⟨⟨c1, c2⟩, c3⟩, c4⟩ := hc
      split at e
      · rename_i pk M hpk hM
        cases e
        have hP : (psOf x).P = x.params := by unfold PsName.P; rw [psOf_inst]
        obtain ⟨c, e1, r1⟩ := exec_ok (op := .initVerify (psOf x) msg M pub pk) (mem := σ.mem) (h i)
          ⟨c1, by rw [load_length hpk, hP], load_has hpk, by rw [load_length hM]; exact c2, c3, by rw [load_length hM]; exact c4⟩
        refine ⟨setCtx cs i c, ?_, h.set ?_⟩
        · unfold Op.exec at e1; dsimp only at e1
          unfold stmtExec; dsimp only
          rw [load_length hM] at e1
          cases h1 : ts_init_verify E σ.mem (cs i) msg len (ps E.cfg (psOf x)) pub with
          | error q => rw [h1] at e1; cases e1
          | ok v => rw [h1] at e1; cases e1; rfl
        · unfold SlotRel
          unfold Op.call at r1; dsimp only at r1
          rw [psOf_inst] at r1
          exact r1
      · cases e
    · cases e
  | update i src m =>
    unfold Spec.Machine.step at e
    dsimp only at e
    have hs := h i
    unfold stmtExec; dsimp only
    split at e
    · rename_i piece x pk M log failed y pub pk' msg M' hd hslot
      rw [load_read hd, ok_bind]
      split at e
      · rename_i hc
        cases e
        simp only [Bool.and_eq_true, Bool.or_eq_true, decide_eq_true_eq] at hc
        rw [hslot] at hs
        have hx : (psOf y).inst = x := by
          unfold SlotRel at hs
          cases hs
          rfl
        obtain ⟨c, e1, r1⟩ := exec_ok (op := .update piece) (mem := σ.mem) hs ⟨holds_iff.1 hc.1, fun hlt => by
          rcases hc.2 with h2 | h2
          · rw [← hx] at h2; exact absurd hlt (by unfold PsName.P; omega)
          · exact holds_iff.1 h2⟩
        refine ⟨setCtx cs i c, ?_, h.set r1⟩
        unfold Op.exec at e1; dsimp only at e1
        cases h1 : ts_update_verify E σ.mem piece (cs i) with
        | error q => rw [h1] at e1; cases e1
        | ok v =>
          obtain ⟨r, c'⟩ := v
          rw [h1] at e1
          have e2 := Except.ok.inj e1
          obtain ⟨e3, rfl⟩ := Prod.mk.inj e2
          have e4 := Spec.Session.Out.ret.inj e3
          subst e4
          rfl
      · cases e
    · rename_i piece rest x priv sk hd hslot
      rw [load_read hd, ok_bind]
      cases e
      rw [hslot] at hs
      obtain ⟨c, e1, r1⟩ := exec_ok (op := .update piece) (mem := σ.mem) hs trivial
      refine ⟨setCtx cs i c, ?_, ?_⟩
      · unfold Op.exec at e1; dsimp only at e1
        cases h1 : ts_update_verify E σ.mem piece (cs i) with
        | error q => rw [h1] at e1; cases e1
        | ok v =>
          obtain ⟨r, c'⟩ := v
          rw [h1] at e1
          have e2 := Except.ok.inj e1
          obtain ⟨e3, rfl⟩ := Prod.mk.inj e2
          have e4 := Spec.Session.Out.ret.inj e3
          subst e4
          rfl
      · intro j
        by_cases hj : j = i
        · subst hj
          show SlotRel E (σ.slots j) (if j = j then c else cs j)
          rw [if_pos rfl, hslot]; exact r1
        · show SlotRel E (σ.slots j) (if j = i then c else cs j)
          rw [if_neg hj]; exact h j
    · cases e
  | verify i =>
    unfold Spec.Machine.step at e
    dsimp only at e
    have hs := h i
    split at e
    · rename_i x pk M log failed y pub pk' msg M' hslot
      cases e
      rw [hslot] at hs
      obtain ⟨c, e1, r1⟩ := exec_ok (op := .verify) (mem := σ.mem) hs trivial
      refine ⟨cs, ?_, h⟩
      unfold Op.exec at e1; dsimp only at e1
      unfold stmtExec; dsimp only
      have e3 := Spec.Session.Out.ret.inj (Prod.mk.inj (Except.ok.inj e1)).1
      rw [e3]
    · rename_i rest x priv sk hslot
      cases e
      rw [hslot] at hs
      obtain ⟨c, e1, r1⟩ := exec_ok (op := .verify) (mem := σ.mem) hs trivial
      refine ⟨cs, ?_, h⟩
      unfold Op.exec at e1; dsimp only at e1
      unfold stmtExec; dsimp only
      have e3 := Spec.Session.Out.ret.inj (Prod.mk.inj (Except.ok.inj e1)).1
      rw [e3]
    · cases e

theorem run_ok {E : Env} (ss : List Stmt) : ∀ {σ σ' : Machine} {cs : Nat → Ctx} {os : List (Option Nat)}, MRel E σ cs →
    Spec.Machine.run (rulesOf E.cfg) σ ss = some (os, σ') → ∃ cs', progExec E cs σ.mem ss = .ok (os, cs', σ'.mem) ∧ MRel E σ' cs' := by
  induction ss with
  | nil => intro σ σ' cs os h e; cases e; exact ⟨cs, rfl, h⟩
  | cons s ss ih =>
    intro σ σ' cs os h e
    unfold Spec.Machine.run at e
    cases h1 : Spec.Machine.step (rulesOf E.cfg) σ s with
    | none => rw [h1] at e; cases e
    | some v =>
      obtain ⟨o, σ1⟩ := v
      rw [h1] at e
      cases h2 : Spec.Machine.run (rulesOf E.cfg) σ1 ss with
      | none => simp [h2] at e
      | some w =>
        obtain ⟨os', σ2⟩ := w
        simp only [h2, Option.bind_eq_bind, Option.bind_some] at e
        cases e
        obtain ⟨cs1, e1, r1⟩ := step_ok h h1
        obtain ⟨cs2, e2, r2⟩ := ih r1 h2
        refine ⟨cs2, ?_, r2⟩
        unfold progExec
        rw [e1, ok_bind]
        simp only [e2, ok_bind]

end Model
