import Verif.Properties.Keys
/-!
# Properties about histories of calls: C11, C16, C17, C28, C29, C30, C31, C32

A history is a list of calls, each with the content of the caller's memory when it is made (`Model/Api.lean`). It is legal
if the caller meets its obligations (`LegalAll`, `Model/Contract.lean`): initialise first, pass supported parameter sets,
keep the keys (and, until `n` signature bytes have been fed, the message to verify) where they are.
-/
namespace Properties
open Model
open Spec.Session (Out State run step)

/-- C30: the observable results of any legal history, on a context with any content, are those of the abstract session. -/
theorem C30_abstract_session (E : Env) (c₀ : Ctx) (hs : Shape E.cfg c₀) (ops : List (Mem × Op)) (hl : LegalAll E.cfg .nothing .fresh ops) :
    ∃ c, execAll E c₀ ops = .ok (run .fresh (ops.map fun o => o.2.call), c) := by
  obtain ⟨c, e, -⟩ := execAll_ok ops (.fresh hs) hl
  exact ⟨c, e⟩

/-- C16: no call of a legal history faults (accesses an array out of bounds, accesses unmapped memory, shifts by a bad
amount) or loops for ever, and the arrays of the context keep their sizes; the same for key generation, whatever
the generator does within its contract. -/
theorem C16_no_fault (E : Env) (c₀ : Ctx) (hs : Shape E.cfg c₀) (ops : List (Mem × Op)) (hl : LegalAll E.cfg .nothing .fresh ops) :
    ∃ outs c, execAll E c₀ ops = .ok (outs, c) ∧ outs.length = ops.length ∧ Shape E.cfg c := by
  obtain ⟨c, e, s⟩ := execAll_ok ops (.fresh hs) hl
  refine ⟨_, c, e, ?_, s⟩
  have : ∀ (cs : List Spec.Session.Call) (s : State), (run s cs).length = cs.length := by
    intro cs
    induction cs with
    | nil => intro s; rfl
    | cons d cs ih => intro s; simp [run, ih]
  rw [this, List.length_map]

theorem C16_no_fault_keygen (J : KeyJob) : ∃ r mem' rq, J.run = .ok (r, mem', rq) ∧ (r = 1 ↔ J.delivers = true) := by
  cases h : J.delivers with
  | true => obtain ⟨mem', e, -⟩ := C12_keygen J h; exact ⟨1, mem', _, e, by simp⟩
  | false => obtain ⟨mem', e, -⟩ := C13_rng_failure J h; exact ⟨0, mem', _, e, by simp⟩

/-! ## C11: contexts of the wrong kind -/

/-- Is it an initialisation call? -/
def isInit : Op → Bool
  | .initSign .. => true
  | .initVerify .. => true
  | _ => false

theorem after_noInit (post : List (Mem × Op)) : ∀ h : Held, (∀ o ∈ post, isInit o.2 = false) → h.after post = h := by
  induction post with
  | nil => intro h _; rfl
  | cons o post ih =>
    intro h hn
    have h1 := hn o (by simp)
    have : h.next o.2 = h := by
      cases ho : o.2 <;> rw [ho] at h1 <;> first | (cases h1; done) | rfl
    show (h.next o.2).after post = h
    rw [this]
    exact ih h (fun o ho => hn o (by simp [ho]))

/-- C11: `ts_sign` on a context set up for verification, however far the verification has got: returns 0, writes nothing,
leaves the context unchanged. -/
theorem C11_sign (E : Env) (c₀ : Ctx) (hs : Shape E.cfg c₀) (pre post : List (Mem × Op)) (mem₁ : Mem) (x : PsName) (msg : Nat) (M : Bytes) (pub : Nat) (pk : Bytes)
    (hl : LegalAll E.cfg .nothing .fresh (pre ++ (mem₁, .initVerify x msg M pub pk) :: post)) (hpost : ∀ o ∈ post, isInit o.2 = false) :
    ∃ outs c, execAll E c₀ (pre ++ (mem₁, .initVerify x msg M pub pk) :: post) = .ok (outs, c) ∧
      ∀ mem dest m, ts_sign E mem dest m c = .ok (0, dest, c) := by
  obtain ⟨c, e, r⟩ := execAll_rel _ (.fresh hs) hl
  have : Held.after .nothing (pre ++ (mem₁, .initVerify x msg M pub pk) :: post) = .verifying x pub pk msg M := by
    unfold Held.after
    rw [List.foldl_append, List.foldl_cons]
    exact after_noInit post _ hpost
  rw [this] at r
  exact ⟨_, c, e, fun mem dest m => sign_on_verifying r mem dest m⟩

/-- C11: `ts_update_verify` on a context set up for signing, however far the signature has got: returns 0 and leaves the
context unchanged; `ts_verify` returns 0. -/
theorem C11_verify (E : Env) (c₀ : Ctx) (hs : Shape E.cfg c₀) (pre post : List (Mem × Op)) (mem₁ : Mem) (x : PsName) (msg : Nat) (M : Bytes) (priv : Nat) (sk : Bytes)
    (rng : Option Rng) (hl : LegalAll E.cfg .nothing .fresh (pre ++ (mem₁, .initSign x msg M priv sk rng) :: post)) (hpost : ∀ o ∈ post, isInit o.2 = false) :
    ∃ outs c, execAll E c₀ (pre ++ (mem₁, .initSign x msg M priv sk rng) :: post) = .ok (outs, c) ∧
      (∀ mem piece, ts_update_verify E mem piece c = .ok (0, c)) ∧ ts_verify c = 0 := by
  obtain ⟨c, e, r⟩ := execAll_rel _ (.fresh hs) hl
  have : Held.after .nothing (pre ++ (mem₁, .initSign x msg M priv sk rng) :: post) = .signing x priv sk := by
    unfold Held.after
    rw [List.foldl_append, List.foldl_cons]
    exact after_noInit post _ hpost
  rw [this] at r
  exact ⟨_, c, e, fun mem t => (update_on_signing r mem t).1, (update_on_signing r (fun _ => none) []).2⟩

/-! ## C17, C28: build options -/

/-- The parameter set a call initialises for, if it does. -/
def initSet : Op → Option PsName
  | .initSign x .. => some x
  | .initVerify x .. => some x
  | _ => none

theorem legal_cfg {c d : Config} {h : Held} {s : State} {mem : Mem} {op : Op} (hl : op.Legal c h s mem) (hw : c.sizeMax ≤ d.sizeMax)
    (hd : ∀ x, initSet op = some x → supported d x = true) : op.Legal d h s mem := by
  cases op with
  | initSign x msg M priv sk rng => exact ⟨hd x rfl, hl.2⟩
  | initVerify x msg M pub pk =>
    obtain ⟨-, h1, h2, h3, h4, h5⟩ := hl
    exact ⟨hd x rfl, h1, h2, h3, Nat.lt_of_lt_of_le h4 hw, Nat.lt_of_lt_of_le h5 hw⟩
  | sign dest m => exact hl
  | update sig => exact hl
  | verify => exact hl

theorem legalAll_cfg {c d : Config} (hw : c.sizeMax ≤ d.sizeMax) (ops : List (Mem × Op)) : ∀ {h : Held} {s : State}, LegalAll c h s ops →
    (∀ o ∈ ops, ∀ x, initSet o.2 = some x → supported d x = true) → LegalAll d h s ops := by
  induction ops with
  | nil => intro h s _ _; trivial
  | cons o ops ih =>
    intro h s hl hd
    exact ⟨legal_cfg hl.1 hw (hd o (by simp)), ih hl.2 (fun o ho => hd o (by simp [ho]))⟩

/-- C28: a history that is legal in one build gives the same results in any other build that supports the parameter sets
it uses, on a machine of any byte order whose pointers are at least as wide, whatever the contexts contained. -/
theorem C28_configuration (E F : Env) (c₀ d₀ : Ctx) (hc : Shape E.cfg c₀) (hd : Shape F.cfg d₀) (ops : List (Mem × Op))
    (hl : LegalAll E.cfg .nothing .fresh ops) (hw : E.cfg.arch.word ≤ F.cfg.arch.word)
    (hsup : ∀ o ∈ ops, ∀ x, initSet o.2 = some x → supported F.cfg x = true) :
    ∃ outs c d, execAll E c₀ ops = .ok (outs, c) ∧ execAll F d₀ ops = .ok (outs, d) := by
  obtain ⟨c, e, -⟩ := execAll_ok ops (.fresh hc) hl
  obtain ⟨d, e', -⟩ := execAll_ok ops (.fresh hd) (legalAll_cfg (Nat.pow_le_pow_right (by omega) hw) ops hl hsup)
  exact ⟨_, c, d, e, e'⟩

/-- C28: and so does key generation: same return value, same memory afterwards, same requests to the generator. -/
theorem C28_keygen (J K : KeyJob) (hx : J.x = K.x) (hmem : J.mem = K.mem) (hpriv : J.priv = K.priv) (hpub : J.pub = K.pub) (hrng : J.rng = K.rng) :
    J.run = K.run := by
  obtain ⟨E, x, sup, mem, priv, pub, rng, r1, r2, r3⟩ := J
  obtain ⟨F, x', sup', mem', priv', pub', rng', r1', r2', r3'⟩ := K
  simp only at hx hmem hpriv hpub hrng
  subst hx hmem hpriv hpub hrng
  generalize hJ : KeyJob.mk E x sup mem priv pub rng r1 r2 r3 = J
  generalize hK : KeyJob.mk F x sup' mem priv pub rng r1' r2' r3' = K
  have hpn : (ps E.cfg x).n = x.P.n := by cases x <;> rfl
  have hpn' : (ps F.cfg x).n = x.P.n := by cases x <;> rfl
  cases h : (rng (3 * x.P.n)).1 with
  | true =>
    obtain ⟨m1, e1, a1, -, b1, f1⟩ := C12_keygen J (by rw [← hJ]; exact h)
    obtain ⟨m2, e2, a2, -, b2, f2⟩ := C12_keygen K (by rw [← hK]; exact h)
    have l1 := length_standardKey x (rng (3 * x.P.n)).2 (r1.2 h)
    rw [e1, e2]
    subst hJ hK
    simp only [KeyJob.bytes] at a1 b1 f1 a2 b2 f2
    have : m1 = m2 := by
      funext a
      by_cases i1 : priv ≤ a ∧ a < priv + 4 * x.P.n
      · have u := a1 (a - priv) (by omega)
        have v := a2 (a - priv) (by omega)
        rw [show priv + (a - priv) = a by omega] at u v
        rw [u, v]
      · by_cases i2 : ∃ p, pub = some p ∧ p ≤ a ∧ a < p + 2 * x.P.n
        · obtain ⟨p, hp, i3⟩ := i2
          have u := b1 p hp (a - p) (by rw [List.length_drop, l1]; omega)
          have v := b2 p hp (a - p) (by rw [List.length_drop, l1]; omega)
          rw [show p + (a - p) = a by omega] at u v
          rw [u, v]
        · unfold ts_size_private_key ts_size_public_key at f1 f2
          rw [hpn] at f1
          rw [hpn'] at f2
          rw [f1 a i1 (fun p hp hq => i2 ⟨p, hp, hq⟩), f2 a i1 (fun p hp hq => i2 ⟨p, hp, hq⟩)]
    rw [this]
  | false =>
    subst hJ hK
    unfold KeyJob.run ts_gen_key
    simp only [hpn, hpn', h, Bool.not_false, if_true]

/-- C17: `TS_SHA2_OPTIMIZATION` makes no difference. -/
theorem C17_sha2_optimization (cfg : Config) (E F : Env) (hE : E.cfg = { cfg with sha2opt := true }) (hF : F.cfg = { cfg with sha2opt := false })
    (c₀ d₀ : Ctx) (hc : Shape E.cfg c₀) (hd : Shape F.cfg d₀) (ops : List (Mem × Op)) (hl : LegalAll E.cfg .nothing .fresh ops) :
    ∃ outs c d, execAll E c₀ ops = .ok (outs, c) ∧ execAll F d₀ ops = .ok (outs, d) := by
  have key : ∀ x, supported F.cfg x = supported E.cfg x := by intro x; rw [hE, hF]; cases x <;> rfl
  refine C28_configuration E F c₀ d₀ hc hd ops hl (by rw [hE, hF]) ?_
  clear hd hc
  have : ∀ (ops : List (Mem × Op)) (h : Held) (s : State), LegalAll E.cfg h s ops → ∀ o ∈ ops, ∀ x, initSet o.2 = some x → supported F.cfg x = true := by
    intro ops
    induction ops with
    | nil => intro h s _ o ho; cases ho
    | cons q ops ih =>
      intro h s hl o ho x hx
      rcases List.mem_cons.1 ho with rfl | ho
      · rw [key]
        have h1 := hl.1
        cases hq : o.2 with
        | initSign y msg M priv sk rng =>
          rw [hq] at h1 hx
          cases hx
          exact h1.1
        | initVerify y msg M pub pk =>
          rw [hq] at h1 hx
          cases hx
          exact h1.1
        | sign _ _ => rw [hq] at hx; cases hx
        | update _ => rw [hq] at hx; cases hx
        | verify => rw [hq] at hx; cases hx
      · exact ih _ _ hl.2 o ho x hx
  exact this ops _ _ hl

/-- C17: nor for key generation. -/
theorem C17_keygen (cfg : Config) (J K : KeyJob) (_ : J.E.cfg = { cfg with sha2opt := true }) (_ : K.E.cfg = { cfg with sha2opt := false })
    (hx : J.x = K.x) (hmem : J.mem = K.mem) (hpriv : J.priv = K.priv) (hpub : J.pub = K.pub) (hrng : J.rng = K.rng) : J.run = K.run :=
  C28_keygen J K hx hmem hpriv hpub hrng

/-! ## C29: how long the message has to stay -/

/-- C29: after `ts_init_sign` the message is not needed: any memory holding the private key will do. -/
theorem C29_sign (J : SignJob) (mem' : Mem) (hkey : mem'.Has J.priv J.sk) (reqs : List (Bytes × Nat)) (hfit : Fits reqs) :
    ∃ c rq outs c₁ c₂, J.init = .ok (c, rq) ∧ signCalls J.E J.mem c reqs = .ok (outs, c₁) ∧ signCalls J.E mem' c reqs = .ok (outs, c₂) := by
  obtain ⟨c, e, r⟩ := J.start
  obtain ⟨o1, c1, e3, -, l1, g1, -⟩ := signCalls_ok J.hasKey reqs r hfit
  obtain ⟨o2, c2, e4, -, l2, g2, -⟩ := signCalls_ok hkey reqs r hfit
  have : o1 = o2 := by
    apply List.ext_getElem (by omega)
    intro i h1 h2
    rw [g1 i (by omega) h1, g2 i (by omega) h2]
  subst this
  exact ⟨c, _, o1, c1, c2, e, e3, e4⟩

/-- C29: once `n` bytes have been fed, the message is not needed for verification: any memory holding the public key will do. -/
theorem C29_verify (J : VerifyJob) (mem' : Mem) (hkey : mem'.Has J.pub J.pk) (ts us : List Bytes) (hn : J.x.P.n ≤ ts.flatten.length) :
    ∃ c rs c' qs c₁ c₂, J.init = .ok c ∧ updateCalls J.E J.mem c ts = .ok (rs, c') ∧
      updateCalls J.E J.mem c' us = .ok (qs, c₁) ∧ updateCalls J.E mem' c' us = .ok (qs, c₂) ∧ ts_verify c₁ = ts_verify c₂ := by
  obtain ⟨c, rs, c', f, e, e', -, -, -, r, -⟩ := verify_session J ts
  obtain ⟨q1, c1, f1, e1, r1, -, -, -, -, g1⟩ := updateCalls_ok J.hasKey us (fun _ => J.hasMsg) r
  obtain ⟨q2, c2, f2, e2, r2, -, -, -, -, g2⟩ := updateCalls_ok hkey us (fun h => absurd h (by omega)) r
  have : q1 = q2 := by rw [g1, g2]
  subst this
  exact ⟨c, rs, c', q1, c1, c2, e, e', e1, e2, by rw [verify_ok r1, verify_ok r2]⟩

/-! ## C31: several contexts -/

/-- A step of a program that uses several contexts (numbered) and one memory. -/
inductive SysOp
  /-- a call on context number `i` -/
  | call (i : Nat) (op : Op)
  /-- the memory changes: by the caller, by key generation, by output buffers being filled -/
  | memory (mem : Mem)

/-- Run such a program: the results are labelled with the number of the context. -/
def sysExec (E : Env) : (Nat → Ctx) → Mem → List SysOp → C (List (Nat × Out) × (Nat → Ctx))
  | cs, _, [] => .ok ([], cs)
  | cs, _, .memory mem :: ops => sysExec E cs mem ops
  | cs, mem, .call i op :: ops => do
    let (o, c) ← op.exec E mem (cs i)
    let (os, cs) ← sysExec E (fun j => if j = i then c else cs j) mem ops
    .ok ((i, o) :: os, cs)

/-- The history of context `i` alone. -/
def solo (i : Nat) : Mem → List SysOp → List (Mem × Op)
  | _, [] => []
  | _, .memory mem :: ops => solo i mem ops
  | mem, .call j op :: ops => if j = i then (mem, op) :: solo i mem ops else solo i mem ops

/-- C31: if every context's own history is legal, the program runs and each context returns the results of its own calls
made alone, which are those of its own abstract session. -/
theorem sys_ok (E : Env) (ops : List SysOp) : ∀ (cs : Nat → Ctx) (mem : Mem) (h : Nat → Held) (s : Nat → State),
    (∀ i, Rel E (h i) (s i) (cs i)) → (∀ i, LegalAll E.cfg (h i) (s i) (solo i mem ops)) →
    ∃ outs cs', sysExec E cs mem ops = .ok (outs, cs') ∧ ∀ i, ∃ os c, execAll E (cs i) (solo i mem ops) = .ok (os, c) ∧ cs' i = c ∧
      os = run (s i) ((solo i mem ops).map fun o => o.2.call) ∧ (outs.filter fun o => o.1 == i).map Prod.snd = os := by
  induction ops with
  | nil => intro cs mem h s _ _; exact ⟨[], cs, rfl, fun i => ⟨[], cs i, rfl, rfl, rfl, rfl⟩⟩
  | cons o ops ih =>
    intro cs mem h s hr hl
    cases o with
    | memory mem' => exact ih cs mem' h s hr hl
    | call j op =>
      have hj := hl j
      unfold solo at hj
      rw [if_pos rfl] at hj
      obtain ⟨c1, e1, r1⟩ := exec_ok (hr j) hj.1
      let cs1 : Nat → Ctx := fun i => if i = j then c1 else cs i
      let h1 : Nat → Held := fun i => if i = j then (h j).next op else h i
      let s1 : Nat → State := fun i => if i = j then (step (s j) op.call).1 else s i
      obtain ⟨outs, cs', e2, q⟩ := ih cs1 mem h1 s1 (by
        intro i
        by_cases hij : i = j
        · subst hij; simp only [cs1, h1, s1, if_true]; exact r1
        · simp only [cs1, h1, s1, if_neg hij]; exact hr i) (by
        intro i
        by_cases hij : i = j
        · subst hij; simp only [h1, s1, if_true]; exact hj.2
        · simp only [h1, s1, if_neg hij]
          have := hl i
          unfold solo at this
          rw [if_neg (fun e => hij e.symm)] at this
          exact this)
      refine ⟨(j, (step (s j) op.call).2) :: outs, cs', ?_, ?_⟩
      · unfold sysExec
        rw [e1, ok_bind]
        simp only [show sysExec E (fun i => if i = j then c1 else cs i) mem ops = _ from e2, ok_bind]
      · intro i
        obtain ⟨os, c, q1, q2, q3, q4⟩ := q i
        by_cases hij : i = j
        · subst hij
          simp only [cs1, s1, if_true] at q1 q3
          refine ⟨(step (s i) op.call).2 :: os, c, ?_, q2, ?_, ?_⟩
          · unfold solo
            rw [if_pos rfl]
            unfold execAll
            rw [e1, ok_bind]
            simp only [q1, ok_bind]
          · unfold solo
            rw [if_pos rfl, List.map_cons, q3]
            rfl
          · rw [List.filter_cons_of_pos (by simp), List.map_cons, q4]
        · simp only [cs1, s1, if_neg hij] at q1 q3
          refine ⟨os, c, ?_, q2, ?_, ?_⟩
          · unfold solo
            rw [if_neg (fun e => hij e.symm)]
            exact q1
          · unfold solo
            rw [if_neg (fun e => hij e.symm)]
            exact q3
          · rw [List.filter_cons_of_neg (by simp; exact fun e => hij e.symm), q4]

/-- C31: interleaved calls on any number of contexts: each gets the results of its own calls made alone. -/
theorem C31_contexts (E : Env) (cs : Nat → Ctx) (hs : ∀ i, Shape E.cfg (cs i)) (mem : Mem) (ops : List SysOp)
    (hl : ∀ i, LegalAll E.cfg .nothing .fresh (solo i mem ops)) :
    ∃ outs cs', sysExec E cs mem ops = .ok (outs, cs') ∧
      ∀ i, execAll E (cs i) (solo i mem ops) = .ok ((outs.filter fun o => o.1 == i).map Prod.snd, cs' i) := by
  obtain ⟨outs, cs', e, q⟩ := sys_ok E ops cs mem (fun _ => .nothing) (fun _ => .fresh) (fun i => .fresh (hs i)) hl
  refine ⟨outs, cs', e, fun i => ?_⟩
  obtain ⟨os, c, q1, q2, -, q4⟩ := q i
  rw [q1, q2, q4]

/-! ## C32: `ts_verify` is a query -/

/-- Is it a call of `ts_verify`? -/
def isVerify : Op → Bool
  | .verify => true
  | _ => false

/-- The results that do not belong to `ts_verify`. -/
def withoutVerify (ops : List (Mem × Op)) (outs : List Out) : List Out :=
  ((ops.zip outs).filter fun p => !isVerify p.1.2).map Prod.snd

/-- C32: leaving out the calls of `ts_verify` changes neither the other results nor the final context. -/
theorem C32_query (E : Env) (ops : List (Mem × Op)) : ∀ (c₀ c : Ctx) (outs : List Out), execAll E c₀ ops = .ok (outs, c) →
    execAll E c₀ (ops.filter fun o => !isVerify o.2) = .ok (withoutVerify ops outs, c) := by
  induction ops with
  | nil => intro c₀ c outs h; cases h; rfl
  | cons o ops ih =>
    obtain ⟨mem, op⟩ := o
    intro c₀ c outs h
    unfold execAll at h
    cases h1 : op.exec E mem c₀ with
    | error e => rw [h1] at h; cases h
    | ok v =>
      obtain ⟨o1, c1⟩ := v
      rw [h1, ok_bind] at h
      simp only at h
      cases h2 : execAll E c1 ops with
      | error e => rw [h2] at h; cases h
      | ok w =>
        obtain ⟨os, c2⟩ := w
        rw [h2, ok_bind] at h
        simp only [Except.ok.injEq, Prod.mk.injEq] at h
        obtain ⟨rfl, rfl⟩ := h
        have := ih c1 c2 os h2
        cases hv : isVerify op with
        | true =>
          have hc : c1 = c₀ := by
            cases op with
            | verify => cases h1; rfl
            | _ => cases hv
          subst hc
          rw [List.filter_cons_of_neg (by simp [hv]), this]
          unfold withoutVerify
          rw [List.zip_cons_cons, List.filter_cons_of_neg (by simp [hv])]
        | false =>
          rw [List.filter_cons_of_pos (by simp [hv])]
          unfold execAll
          rw [h1, ok_bind]
          simp only [this, ok_bind]
          unfold withoutVerify
          rw [List.zip_cons_cons, List.filter_cons_of_pos (by simp [hv]), List.map_cons]

/-- C32: repeated calls return the same value; the result is that of the bytes fed so far. Feeding more bytes after acceptance
makes it 0 again. -/
theorem C32_after_acceptance (J : VerifyJob) (ts us : List Bytes) (hv : Spec.Slh.verify J.x.P J.x.fns J.pk J.M ts.flatten = true) (hu : us.flatten ≠ []) :
    ∃ c rs c' qs c'', J.init = .ok c ∧ updateCalls J.E J.mem c ts = .ok (rs, c') ∧ ts_verify c' = 1 ∧
      updateCalls J.E J.mem c' us = .ok (qs, c'') ∧ ts_verify c'' = 0 := by
  obtain ⟨c, rs, c', f, e, e', -, -, -, r, -⟩ := verify_session J ts
  obtain ⟨q1, c1, f1, e1, r1, -⟩ := updateCalls_ok J.hasKey us (fun _ => J.hasMsg) r
  have hv' : Spec.Session.valid J.x.inst J.pk J.M ts.flatten = true := hv
  refine ⟨c, rs, c', q1, c1, e, e', by rw [verify_ok r, hv']; rfl, e1, ?_⟩
  rw [verify_ok r1, if_neg]
  intro h
  have h1 := valid_len hv'
  have h2 := valid_len h
  rw [List.length_append, h1] at h2
  exact hu (List.length_eq_zero_iff.1 (by omega))

/-! The hypotheses are met. -/

/-- A legal history: sign, interrupted by calls of the wrong kind; then verify with the same context, abandon that, and sign again
with another parameter set; the memory is different each time. -/
def exOps : List (Mem × Op) :=
  [ (ramp, .initSign .sha2_256f 5000 (rampBytes 5000 33) 100 (rampBytes 100 128) (some goodRng)),
    (ramp, .sign (rampBytes 1 40) 40),
    (fun _ => none, .update [1, 2, 3]),
    (fun _ => none, .verify),
    (onlyRegions ramp 100 128 0 0, .sign (rampBytes 1 7000) 7000),
    (ramp, .initVerify .sha2_128s 5000 (rampBytes 5000 0) 100 (rampBytes 100 32)),
    (ramp, .update (rampBytes 3 100)),
    (fun _ => none, .sign [] 5),
    (onlyRegions ramp 100 32 0 0, .update (rampBytes 3 8000)),
    (fun _ => none, .verify),
    (ramp, .initSign .sha2_192s 5000 (rampBytes 5000 3) 300 (rampBytes 300 96) (some badRng)) ]

theorem ramp_region (a len b lb : Nat) : (onlyRegions ramp a len b lb).Has a (rampBytes a len) := by
  intro i h
  have hl : (rampBytes a len).length = len := by simp [rampBytes]
  unfold onlyRegions
  rw [if_pos (.inl ⟨by omega, by omega⟩)]
  exact ramp_has a len i h

theorem exOps_legal (a : Arch) : LegalAll { fullCfg with arch := a } .nothing .fresh exOps := by
  refine ⟨⟨rfl, by simp [rampBytes]; decide, ramp_has _ _, ramp_has _ _, by simp [rampBytes], fun f h => by cases h; exact goodRng_ok _⟩,
    ⟨ramp_has _ _, by simp [rampBytes]⟩, trivial, trivial, ⟨ramp_region _ _ _ _, by simp [rampBytes]⟩,
    ⟨rfl, by simp [rampBytes]; decide, ramp_has _ _, by simp [rampBytes], fits_of_lt _ (by decide) (by simp [rampBytes])⟩,
    ⟨ramp_has _ _, fun _ => ramp_has _ _⟩, trivial, ⟨ramp_region _ _ _ _, fun h => ?_⟩, trivial,
    ⟨rfl, by simp [rampBytes]; decide, ramp_has _ _, ramp_has _ _, by simp [rampBytes], fun f h => by cases h; exact badRng_ok _ (by decide)⟩, trivial⟩
  simp only [List.length_append, rampBytes, List.length_map, List.length_range] at h
  exact absurd h (by decide)

example : ∃ c, execAll (envOf fullCfg) (dirtyCtx fullCfg) exOps = .ok (run .fresh (exOps.map fun o => o.2.call), c) :=
  C30_abstract_session _ _ (dirty_shape _) _ (exOps_legal ⟨false, true⟩)

/-- The same program on a 32-bit little-endian machine, and on a 64-bit big-endian machine with `TS_SHA2_OPTIMIZATION` off,
another SHAKE implementation, and no SHAKE support at all. -/
example : ∃ outs c d, execAll (envOf { fullCfg with arch := ⟨false, false⟩ }) (dirtyCtx { fullCfg with arch := ⟨false, false⟩ }) exOps = .ok (outs, c) ∧
    execAll (envOf ⟨false, true, true, false, true, false, 1, ⟨true, true⟩⟩) (dirtyCtx ⟨false, true, true, false, true, false, 1, ⟨true, true⟩⟩) exOps = .ok (outs, d) :=
  C28_configuration _ _ _ _ (dirty_shape _) (dirty_shape _) _ (exOps_legal ⟨false, false⟩) (by decide) (by
    intro o ho x hx
    simp only [exOps, List.mem_cons, List.not_mem_nil, or_false] at ho
    rcases ho with rfl | rfl | rfl | rfl | rfl | rfl | rfl | rfl | rfl | rfl | rfl <;> cases hx <;> rfl)

/-- Two contexts, one signing and one verifying, in turn; the others unused. -/
def exSys : List SysOp :=
  [ .call 0 (.initSign .sha2_256f 5000 (rampBytes 5000 33) 100 (rampBytes 100 128) none),
    .call 1 (.initVerify .shake_192f 5000 (rampBytes 5000 33) 100 (rampBytes 100 48)),
    .call 0 (.sign (rampBytes 1 40) 40),
    .call 1 (.update (rampBytes 1 400)),
    .memory (onlyRegions ramp 100 200 0 0),
    .call 0 (.sign (rampBytes 1 40) 40),
    .call 1 (.update (rampBytes 1 400)),
    .call 1 .verify ]

example : ∀ i, LegalAll fullCfg .nothing .fresh (solo i ramp exSys) := by
  have hk : ∀ len, len ≤ 200 → (onlyRegions ramp 100 200 0 0).Has 100 (rampBytes 100 len) := by
    intro len hlen i h
    have hl : (rampBytes 100 len).length = len := by simp [rampBytes]
    unfold onlyRegions
    rw [if_pos (.inl ⟨by omega, by omega⟩)]
    exact ramp_has 100 len i h
  intro i
  match i with
  | 0 =>
    exact ⟨⟨rfl, by simp [rampBytes]; decide, ramp_has _ _, ramp_has _ _, by simp [rampBytes], fun f h => by cases h⟩,
      ⟨ramp_has _ _, by simp [rampBytes]⟩, ⟨hk _ (by decide), by simp [rampBytes]⟩, trivial⟩
  | 1 =>
    refine ⟨⟨rfl, by simp [rampBytes]; decide, ramp_has _ _, by simp [rampBytes], fits_of_lt _ (by decide) (by simp [rampBytes])⟩,
      ⟨ramp_has _ _, fun _ => ramp_has _ _⟩, ⟨hk _ (by decide), fun h => ?_⟩, trivial, trivial⟩
    simp only [List.length_append, rampBytes, List.length_map, List.length_range] at h
    exact absurd h (by decide)
  | i + 2 => exact trivial

end Properties
