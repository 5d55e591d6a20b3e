import Verif.Proof.Machine
import Verif.Properties.Examples
/-!
# C46: whole programs

Programs with one memory and several contexts, any mixture of key generation, signing and verification, output going to memory and being
read from there, contexts being copied (`Spec/Machine.lean`).
-/
namespace Properties
open Model
open Spec.Machine (Stmt Memory Rules Machine load put step run start Random key)

/-- C46: a program that keeps the rules runs in every build that supports the instances it uses, whatever the contexts contain at the start, and
returns the results of the abstract machine; memory is what the abstract machine says, at every address. -/
theorem C46_program (E : Env) (cs : Nat → Ctx) (hs : ∀ i, Shape E.cfg (cs i)) (mem : Mem) (prog : List Stmt) (outs : List (Option Nat)) (σ : Machine)
    (h : run (rulesOf E.cfg) (start mem) prog = some (outs, σ)) : ∃ cs', progExec E cs mem prog = .ok (outs, cs', σ.mem) := by
  obtain ⟨cs', e, -⟩ := run_ok (E := E) (cs := cs) prog (σ := start mem) (fun i => .fresh (hs i)) h
  exact ⟨cs', e⟩

theorem step_rules {R R' : Rules} {σ : Machine} {s : Stmt} {a b : Option Nat × Machine} (h : step R σ s = some a) (h' : step R' σ s = some b) : a = b := by
  cases s with
  | genKey priv pub x rng =>
    match priv, x, rng, h, h' with
    | none, _, _, h, h' => cases h; cases h'; rfl
    | some _, none, _, h, h' => cases h; cases h'; rfl
    | some _, some _, none, h, h' => cases h; cases h'; rfl
    | some priv, some x, some f, h, h' =>
      unfold step at h h'
      dsimp only at h h'
      split at h
      · split at h'
        · rw [h] at h'; exact Option.some.inj h'
        · cases h'
      · cases h
  | initSign i msg len x priv rng =>
    unfold step at h h'
    dsimp only at h h'
    split at h
    · split at h'
      · rw [h] at h'; exact Option.some.inj h'
      · cases h'
    · cases h
  | initVerify i msg len x pub =>
    unfold step at h h'
    dsimp only at h h'
    split at h
    · split at h'
      · rw [h] at h'; exact Option.some.inj h'
      · cases h'
    · cases h
  | edit f => exact Option.some.inj (h.symm.trans h')
  | copy i j => exact Option.some.inj (h.symm.trans h')
  | sign i dst m => exact Option.some.inj (h.symm.trans h')
  | update i src m => exact Option.some.inj (h.symm.trans h')
  | verify i => exact Option.some.inj (h.symm.trans h')

theorem run_rules {R R' : Rules} (prog : List Stmt) : ∀ {σ : Machine} {a b : List (Option Nat) × Machine}, run R σ prog = some a → run R' σ prog = some b → a = b := by
  induction prog with
  | nil => intro σ a b h h'; cases h; cases h'; rfl
  | cons s ss ih =>
    intro σ a b h h'
    unfold run at h h'
    cases h1 : step R σ s with
    | none => rw [h1] at h; cases h
    | some v =>
      cases h2 : step R' σ s with
      | none => rw [h2] at h'; cases h'
      | some w =>
        have := step_rules h1 h2
        subst this
        rw [h1] at h
        rw [h2] at h'
        simp only [Option.bind_eq_bind, Option.bind_some] at h h'
        cases h3 : run R v.2 ss with
        | none => rw [h3] at h; cases h
        | some p =>
          cases h4 : run R' v.2 ss with
          | none => rw [h4] at h'; cases h'
          | some q =>
            have := ih h3 h4
            subst this
            rw [h3] at h
            rw [h4] at h'
            exact Option.some.inj (h.symm.trans h')

/-- C46: the same program in two builds, on two machines, with different contents of the contexts: the same results and the same memory. -/
theorem C46_portable (E E' : Env) (cs cs' : Nat → Ctx) (hs : ∀ i, Shape E.cfg (cs i)) (hs' : ∀ i, Shape E'.cfg (cs' i)) (mem : Mem) (prog : List Stmt)
    (h : (run (rulesOf E.cfg) (start mem) prog).isSome) (h' : (run (rulesOf E'.cfg) (start mem) prog).isSome) :
    ∃ outs mem' c c', progExec E cs mem prog = .ok (outs, c, mem') ∧ progExec E' cs' mem prog = .ok (outs, c', mem') := by
  obtain ⟨⟨o1, σ1⟩, e1⟩ := Option.isSome_iff_exists.1 h
  obtain ⟨⟨o2, σ2⟩, e2⟩ := Option.isSome_iff_exists.1 h'
  have := run_rules prog e1 e2
  cases this
  obtain ⟨c, k⟩ := C46_program E cs hs mem prog _ _ e1
  obtain ⟨c', k'⟩ := C46_program E' cs' hs' mem prog _ _ e2
  exact ⟨_, _, c, c', k, k'⟩

/-! ## An example: generate a key, sign, fork the context in the middle of the signature, verify -/

theorem run_cons {R : Rules} {σ σ1 σ2 : Machine} {s : Stmt} {ss : List Stmt} {o : Option Nat} {os : List (Option Nat)} (h : step R σ s = some (o, σ1))
    (h2 : run R σ1 ss = some (os, σ2)) : run R σ (s :: ss) = some (o :: os, σ2) := by
  unfold run
  rw [h]
  simp only [Option.bind_eq_bind, Option.bind_some, h2]

theorem load_congr {m m' : Memory} : ∀ {len a : Nat}, (∀ p, a ≤ p → p < a + len → m p = m' p) → load m a len = load m' a len := by
  intro len
  induction len with
  | zero => intro a _; rfl
  | succ len ih =>
    intro a h
    unfold load
    rw [h a (Nat.le_refl _) (by omega), ih (fun p h1 h2 => h p (by omega) (by omega))]

theorem load_put_other {m : Memory} {a p len : Nat} {bs : Bytes} (h : p + len ≤ a ∨ a + bs.length ≤ p) : load (put m a bs) p len = load m p len :=
  load_congr fun q h1 h2 => by unfold Spec.Machine.put; rw [if_neg (by omega)]

theorem put_has {m : Memory} {a : Nat} {bs : Bytes} : Mem.Has (Spec.Machine.put m a bs) a bs := by
  intro i hi
  unfold Spec.Machine.put
  rw [if_pos (by omega), show a + i - a = i by omega]
  exact List.getElem?_eq_getElem _

theorem load_put_same {m : Memory} {a : Nat} {bs : Bytes} : load (Spec.Machine.put m a bs) a bs.length = some bs := has_load put_has

/-- All of memory is mapped. -/
def Full (m : Memory) : Prop := ∀ p, (m p).isSome

theorem Full.load {m : Memory} (h : Full m) : ∀ len a, (Spec.Machine.load m a len).isSome = true := by
  intro len
  induction len with
  | zero => intro a; rfl
  | succ len ih =>
    intro a
    obtain ⟨b, e⟩ := Option.isSome_iff_exists.1 (h a)
    obtain ⟨bs, e2⟩ := Option.isSome_iff_exists.1 (ih (a + 1))
    unfold Spec.Machine.load
    rw [e, e2]
    rfl

theorem Full.put {m : Memory} (h : Full m) (a : Nat) (bs : Bytes) : Full (Spec.Machine.put m a bs) := by
  intro p
  unfold Spec.Machine.put
  by_cases hp : a ≤ p ∧ p < a + bs.length
  · rw [if_pos hp, List.getElem?_eq_getElem (by omega)]; rfl
  · rw [if_neg hp]; exact h p

/-- The private key at 0, the public key after it, the message after that; a signature at `dst`. The first 100 bytes of the signature are written, then the
context is copied; the original writes the rest of the signature, the copy writes the rest somewhere else, in two parts. The signature is verified from memory. -/
def story (x : Spec.Instance) (f : Random) (M : Bytes) : List Stmt :=
  let n := x.params.n
  let L := x.params.sigBytes
  let dst := 6 * n + M.length
  [ .genKey (some 0) (some (4 * n)) (some x) (some f),
    .edit fun m => put m (6 * n) M,
    .initSign 0 (6 * n) M.length x 0 none,
    .sign 0 dst 100,
    .copy 0 1,
    .sign 0 (dst + 100) L,
    .sign 1 (dst + L) 50,
    .sign 1 (dst + L + 50) L,
    .sign 1 (dst + L) L,
    .initVerify 0 (6 * n) M.length x (4 * n),
    .update 0 dst L,
    .verify 0 ]

theorem step_sign {R : Rules} {σ : Machine} {i dst m priv : Nat} {rest sk : Bytes} {x : Spec.Instance} (hslot : σ.slots i = ⟨.signing rest, .key x priv sk⟩)
    (hm : Full σ.mem) (h : Mem.Has σ.mem priv sk) (hd : priv + sk.length ≤ dst) :
    step R σ (.sign i dst m) = some (some (min m rest.length),
      ⟨fun j => if j = i then ⟨.signing (rest.drop m), .key x priv sk⟩ else σ.slots j, put σ.mem dst (rest.take m)⟩) := by
  unfold step
  dsimp only
  rw [if_pos (hm.load _ _), hslot]
  dsimp only
  have h2 : Spec.Machine.holds (put σ.mem dst (rest.take m)) priv sk = true := by
    unfold Spec.Machine.holds
    rw [load_put_other (.inl hd), has_load h, beq_iff_eq]
  rw [if_pos (by rw [h2, holds_iff.2 h]; rfl), List.length_take]
  rfl

theorem has_put_other {m : Memory} {a p : Nat} {bs v : Bytes} (hv : Mem.Has m p v) (h : p + v.length ≤ a ∨ a + bs.length ≤ p) : Mem.Has (put m a bs) p v := by
  intro i hi
  unfold Spec.Machine.put
  rw [if_neg (by omega)]
  exact hv i hi

theorem has_load' {m : Memory} {a n : Nat} {v : Bytes} (h : Mem.Has m a v) (hn : n = v.length) : load m a n = some v := by
  subst hn; exact has_load h

theorem sigBytes_big (x : Spec.Instance) : 1000 ≤ x.params.sigBytes := by cases x <;> decide

/-- The signature `story` produces. -/
def storySig (x : Spec.Instance) (f : Random) (M : Bytes) : Bytes :=
  let sk := key x (f (3 * x.params.n)).2
  Spec.Session.signature x sk ((sk.drop (2 * x.params.n)).take x.params.n) M

/-- The example program keeps the rules: it is accepted by the abstract machine for every instance that is supported, every generator that delivers and every message. The
whole signature is in memory, and the copy of the context has written its rest after byte 100 a second time; the signature verifies. -/
theorem story_runs (R : Rules) (x : Spec.Instance) (hx : R.supported x = true) (f : Random) (hf : Spec.Machine.behaves f (3 * x.params.n) = true)
    (hok : (f (3 * x.params.n)).1 = true) (M : Bytes) (hM : M.length < 2 ^ 60) (hl : 6 * x.params.n < R.limit) (hl2 : M.length < R.limit)
    (m : Memory) (hm : Full m) :
    ∃ σ, run R (start m) (story x f M) = some ([some 1, none, none, some 100, none, some (x.params.sigBytes - 100), some 50, some (x.params.sigBytes - 150),
        some 0, none, some 1, some 1], σ) ∧
      Mem.Has σ.mem (6 * x.params.n + M.length) (storySig x f M) ∧
      Mem.Has σ.mem (6 * x.params.n + M.length + x.params.sigBytes) ((storySig x f M).drop 100) := by
  have hb : (f (3 * x.params.n)).2.length = 3 * x.params.n := (behaves_ok hf).2 hok
  have hP : (psOf x).P = x.params := by unfold PsName.P; rw [psOf_inst]
  have hkey : standardKey (psOf x) (f (3 * x.params.n)).2 = key x (f (3 * x.params.n)).2 := by
    unfold standardKey Spec.Machine.key PsName.P PsName.fns; rw [psOf_inst]
  have hskl : (key x (f (3 * x.params.n)).2).length = 4 * x.params.n := by
    rw [← hkey, length_standardKey _ _ (by rw [hP]; exact hb), hP]
  have hval : Spec.Session.valid x ((key x (f (3 * x.params.n)).2).drop (2 * x.params.n)) M (storySig x f M) = true := by
    have := standard_round_trip (psOf x) (f (3 * x.params.n)).2 (((key x (f (3 * x.params.n)).2).drop (2 * x.params.n)).take x.params.n) M (by rw [hP]; exact hb)
    rw [hkey, hP] at this
    unfold PsName.fns at this
    rw [psOf_inst] at this
    exact this
  have hL : (storySig x f M).length = x.params.sigBytes := valid_len hval
  have hinit : storySig x f M = Spec.Session.signature x (key x (f (3 * x.params.n)).2)
      (Spec.Machine.optRand none x.params.n (((key x (f (3 * x.params.n)).2).drop (2 * x.params.n)).take x.params.n)) M := rfl
  have hbig := sigBytes_big x
  unfold story
  dsimp only
  generalize hsig : storySig x f M = sig at *
  generalize hsk : key x (f (3 * x.params.n)).2 = sk at *
  generalize hLd : x.params.sigBytes = L at *
  generalize hn : x.params.n = n at *
  have hpkl : (sk.drop (2 * n)).length = 2 * n := by rw [List.length_drop]; omega
  -- the memory after the statements
  let m1 := put (put m 0 sk) (4 * n) (sk.drop (2 * n))
  let m2 := put m1 (6 * n) M
  have f1 : Full m1 := (hm.put _ _).put _ _
  have f2 : Full m2 := f1.put _ _
  have k2 : Mem.Has m2 0 sk := has_put_other (has_put_other put_has (.inl (by omega))) (.inl (by omega))
  have p2 : Mem.Has m2 (4 * n) (sk.drop (2 * n)) := has_put_other put_has (.inl (by omega))
  have g2 : Mem.Has m2 (6 * n) M := put_has
  have hdrop : ∀ k, (sig.drop k).length = L - k := fun k => by rw [List.length_drop, hL]
  have e0 : step R (start m) (.genKey (some 0) (some (4 * n)) (some x) (some f)) = some (some 1, ⟨(start m).slots, m1⟩) := by
    unfold step
    dsimp only
    have c : (R.supported x && Spec.Machine.behaves f (3 * x.params.n) && Spec.Machine.keyRoom (start m).mem x.params.n 0 (some (4 * n))) = true := by
      rw [hx, hn, hf]
      unfold Spec.Machine.keyRoom
      have : (start m).mem = m := rfl
      rw [this, hm.load _ _, Option.all_some, hm.load _ _, show decide (0 + 4 * n ≤ 4 * n) = true from decide_eq_true (by omega)]
      rfl
    rw [if_pos c, hn, if_pos hok, hsk]
    rfl
  have e2 : step R ⟨(start m).slots, m2⟩ (.initSign 0 (6 * n) M.length x 0 none) =
      some (none, ⟨fun j => if j = 0 then ⟨.signing sig, .key x 0 sk⟩ else (start m).slots j, m2⟩) := by
    unfold step
    dsimp only
    rw [if_pos (by rw [hx, decide_eq_true hM]; rfl), hn, has_load' k2 hskl.symm, has_load' g2 rfl]
    dsimp only
    rw [← hinit]
    rfl
  let dst := 6 * n + M.length
  let slots (a b : Spec.Machine.Slot) : Nat → Spec.Machine.Slot := fun j => if j = 0 then a else if j = 1 then b else ⟨.fresh, .nothing⟩
  let fresh : Spec.Machine.Slot := ⟨.fresh, .nothing⟩
  let signing (rest : Bytes) : Spec.Machine.Slot := ⟨.signing rest, .key x 0 sk⟩
  have hslots0 : (fun j => if j = 0 then signing sig else (start m).slots j) = slots (signing sig) fresh := by
    funext j
    by_cases h0 : j = 0
    · simp only [slots, if_pos h0]
    · by_cases h1 : j = 1
      · simp only [slots, if_neg h0, if_pos h1]; rfl
      · simp only [slots, if_neg h0, if_neg h1]; rfl
  have set0 : ∀ a b c, (fun j => if j = 0 then c else slots a b j) = slots c b := by
    intro a b c
    funext j
    by_cases h0 : j = 0
    · simp only [slots, if_pos h0]
    · simp only [slots, if_neg h0]
  have set1 : ∀ a b c, (fun j => if j = 1 then c else slots a b j) = slots a c := by
    intro a b c
    funext j
    by_cases h1 : j = 1
    · simp only [slots, if_pos h1]; rw [if_neg (by omega)]
    · simp only [slots, if_neg h1]
  have sign0 : ∀ (m : Memory) (rest : Bytes) (b : Spec.Machine.Slot) (d k : Nat), Full m → Mem.Has m 0 sk → 4 * n ≤ d →
      step R ⟨slots (signing rest) b, m⟩ (.sign 0 d k) = some (some (min k rest.length), ⟨slots (signing (rest.drop k)) b, put m d (rest.take k)⟩) := by
    intro m rest b d k hm hk hd
    rw [step_sign (σ := ⟨slots (signing rest) b, m⟩) (rest := rest) (x := x) (priv := 0) (sk := sk) rfl hm hk (by omega)]
    rw [← set0 (signing rest) b (signing (rest.drop k))]
  have sign1 : ∀ (m : Memory) (rest : Bytes) (b : Spec.Machine.Slot) (d k : Nat), Full m → Mem.Has m 0 sk → 4 * n ≤ d →
      step R ⟨slots b (signing rest), m⟩ (.sign 1 d k) = some (some (min k rest.length), ⟨slots b (signing (rest.drop k)), put m d (rest.take k)⟩) := by
    intro m rest b d k hm hk hd
    rw [step_sign (σ := ⟨slots b (signing rest), m⟩) (rest := rest) (x := x) (priv := 0) (sk := sk) rfl hm hk (by omega)]
    rw [← set1 b (signing rest) (signing (rest.drop k))]
  let m3 := put m2 dst (sig.take 100)
  let m4 := put m3 (dst + 100) ((sig.drop 100).take L)
  let m5 := put m4 (dst + L) ((sig.drop 100).take 50)
  let m6 := put m5 (dst + L + 50) (((sig.drop 100).drop 50).take L)
  let m7 := put m6 (dst + L) ((((sig.drop 100).drop 50).drop L).take L)
  have hnil : ((sig.drop 100).drop 50).drop L = [] := by
    rw [List.drop_drop, List.drop_drop]; exact List.drop_eq_nil_of_le (by omega)
  have t100 : (sig.take 100).length = 100 := by rw [List.length_take]; omega
  have tL : (sig.drop 100).take L = sig.drop 100 := List.take_of_length_le (by rw [hdrop]; omega)
  have t50 : ((sig.drop 100).take 50).length = 50 := by rw [List.length_take, hdrop]; omega
  have tL2 : ((sig.drop 100).drop 50).take L = (sig.drop 100).drop 50 := List.take_of_length_le (by rw [List.length_drop, hdrop]; omega)
  have h50 : ((sig.drop 100).drop 50).length = L - 150 := by rw [List.length_drop, hdrop]; omega
  have f3 : Full m3 := f2.put _ _
  have f4 : Full m4 := f3.put _ _
  have f5 : Full m5 := f4.put _ _
  have f6 : Full m6 := f5.put _ _
  have f7 : Full m7 := f6.put _ _
  -- what stays
  have keep : ∀ (v : Bytes) (a : Nat), a + v.length ≤ dst → Mem.Has m2 a v → Mem.Has m3 a v ∧ Mem.Has m4 a v ∧ Mem.Has m5 a v ∧ Mem.Has m6 a v ∧ Mem.Has m7 a v := by
    intro v a ha h
    have h3 : Mem.Has m3 a v := has_put_other h (.inl (by omega))
    have h4 : Mem.Has m4 a v := has_put_other h3 (.inl (by omega))
    have h5 : Mem.Has m5 a v := has_put_other h4 (.inl (by omega))
    have h6 : Mem.Has m6 a v := has_put_other h5 (.inl (by omega))
    exact ⟨h3, h4, h5, h6, has_put_other h6 (.inl (by omega))⟩
  obtain ⟨k3, k4, k5, k6, k7⟩ := keep sk 0 (by show 0 + sk.length ≤ 6 * n + M.length; omega) k2
  obtain ⟨-, -, -, -, p7⟩ := keep _ _ (by show 4 * n + (sk.drop (2 * n)).length ≤ 6 * n + M.length; omega) p2
  obtain ⟨-, -, -, -, g7⟩ := keep _ _ (by show 6 * n + M.length ≤ 6 * n + M.length; omega) g2
  have s7 : Mem.Has m7 dst sig := by
    have a3 : Mem.Has m3 dst (sig.take 100) := put_has
    have a4 : Mem.Has m4 dst (sig.take 100) := has_put_other a3 (.inl (by omega))
    have b4 : Mem.Has m4 (dst + 100) (sig.drop 100) := by have := put_has (m := m3) (a := dst + 100) (bs := (sig.drop 100).take L); rw [tL] at this; simp only [m4, tL]; exact this
    have c4 : Mem.Has m4 dst sig := by
      rw [← List.take_append_drop 100 sig]
      exact Mem.Has.append.2 ⟨a4, by rw [t100]; exact b4⟩
    have c5 : Mem.Has m5 dst sig := has_put_other c4 (.inl (by omega))
    have c6 : Mem.Has m6 dst sig := has_put_other c5 (.inl (by omega))
    exact has_put_other c6 (.inl (by omega))
  have u7 : Mem.Has m7 (dst + L) (sig.drop 100) := by
    have a5 : Mem.Has m5 (dst + L) ((sig.drop 100).take 50) := put_has
    have a6 : Mem.Has m6 (dst + L) ((sig.drop 100).take 50) := has_put_other a5 (.inl (by omega))
    have b6 : Mem.Has m6 (dst + L + 50) ((sig.drop 100).drop 50) := by
      have := put_has (m := m5) (a := dst + L + 50) (bs := ((sig.drop 100).drop 50).take L); rw [tL2] at this; simp only [m6, tL2]; exact this
    have c6 : Mem.Has m6 (dst + L) (sig.drop 100) := by
      rw [← List.take_append_drop 50 (sig.drop 100)]
      exact Mem.Has.append.2 ⟨a6, by rw [t50]; exact b6⟩
    have : m7 = m6 := by
      simp only [m7, hnil, List.take_nil]
      exact funext fun p => if_neg (by simp)
    rw [this]; exact c6
  refine ⟨⟨slots ⟨.verifying x (sk.drop (2 * n)) M sig false, .pubKey x (4 * n) (sk.drop (2 * n)) (6 * n) M⟩
    (signing (((sig.drop 100).drop 50).drop L |>.drop L)), m7⟩, ?_, s7, u7⟩
  refine run_cons e0 ?_
  refine run_cons (σ1 := ⟨(start m).slots, m2⟩) rfl ?_
  refine run_cons e2 ?_
  rw [hslots0]
  refine run_cons (o := some 100) (by rw [sign0 m2 sig fresh dst 100 f2 k2 (by show _ ≤ 6 * n + M.length; omega), hL, Nat.min_eq_left (by omega)]) ?_
  refine run_cons (o := none) (σ1 := ⟨slots (signing (sig.drop 100)) (signing (sig.drop 100)), m3⟩) ?_ ?_
  · show some (none, _) = _
    rw [← set1 (signing (sig.drop 100)) fresh (signing (sig.drop 100))]
    rfl
  refine run_cons (o := some (L - 100)) (by
    rw [sign0 m3 _ _ (dst + 100) L f3 k3 (by show _ ≤ 6 * n + M.length + 100; omega), hdrop, Nat.min_eq_right (by omega)]) ?_
  refine run_cons (o := some 50) (by
    rw [sign1 m4 _ _ (dst + L) 50 f4 k4 (by show _ ≤ 6 * n + M.length + L; omega), hdrop, Nat.min_eq_left (by omega)]) ?_
  refine run_cons (o := some (L - 150)) (by
    rw [sign1 m5 _ _ (dst + L + 50) L f5 k5 (by show _ ≤ 6 * n + M.length + L + 50; omega), h50, Nat.min_eq_right (by omega)]) ?_
  refine run_cons (o := some 0) (σ1 := ⟨slots (signing ((sig.drop 100).drop L)) (signing ((((sig.drop 100).drop 50).drop L).drop L)), m7⟩) (by
    rw [sign1 m6 _ _ (dst + L) L f6 k6 (by show _ ≤ 6 * n + M.length + L; omega),
      show min L (((sig.drop 100).drop 50).drop L).length = 0 by rw [hnil]; exact Nat.min_zero _]) ?_
  refine run_cons (o := none) (σ1 := ⟨slots ⟨.verifying x (sk.drop (2 * n)) M [] false, .pubKey x (4 * n) (sk.drop (2 * n)) (6 * n) M⟩
    (signing (((sig.drop 100).drop 50).drop L |>.drop L)), m7⟩) ?_ ?_
  · unfold step
    dsimp only
    rw [if_pos (by rw [hx, decide_eq_true hM, decide_eq_true hl, decide_eq_true hl2]; rfl), hn]
    rw [has_load' p7 hpkl.symm, has_load' g7 rfl]
    dsimp only
    rw [← set0 (signing ((sig.drop 100).drop L)) _ ⟨.verifying x (sk.drop (2 * n)) M [] false, .pubKey x (4 * n) (sk.drop (2 * n)) (6 * n) M⟩, hnil]
    rfl
  refine run_cons (o := some 1) (σ1 := ⟨slots ⟨.verifying x (sk.drop (2 * n)) M sig false, .pubKey x (4 * n) (sk.drop (2 * n)) (6 * n) M⟩
    (signing (((sig.drop 100).drop 50).drop L |>.drop L)), m7⟩) ?_ ?_
  · unfold step
    dsimp only
    rw [has_load' s7 hL.symm]
    simp only [slots, if_true]
    have hfeed : Spec.Session.feed x (sk.drop (2 * n)) M [] sig = true := by
      unfold Spec.Session.feed
      dsimp only
      rw [List.nil_append, hLd, hL, if_pos (by simp; omega), if_neg (by omega), if_pos rfl]
      exact hval
    rw [if_pos (by rw [holds_iff.2 p7, holds_iff.2 g7]; simp), hfeed]
    simp only [Bool.not_false, Bool.and_self, if_true, List.nil_append, Bool.not_true]
    refine congrArg some (Prod.ext rfl ?_)
    refine congrArg (fun sl => Machine.mk sl m7) (funext fun j => ?_)
    by_cases hj : j = 0
    · simp only [if_pos hj]
    · simp only [if_neg hj]
  refine run_cons (o := some 1) ?_ rfl
  unfold step
  dsimp only
  simp only [slots, if_true]
  rw [hval]
  rfl

/-- C46: the example as the library runs it. A copy of a context made in the middle of a signature yields the same rest of the signature as the original, however it is asked. -/
theorem C46_fork (E : Env) (cs : Nat → Ctx) (hs : ∀ i, Shape E.cfg (cs i)) (x : Spec.Instance) (hx : supported E.cfg (psOf x) = true) (f : Random)
    (hf : Spec.Machine.behaves f (3 * x.params.n) = true) (hok : (f (3 * x.params.n)).1 = true) (M : Bytes) (hM : M.length < 2 ^ 32) (hM' : M.length < E.cfg.sizeMax)
    (mem : Mem) (hm : Full mem) :
    ∃ cs' mem', progExec E cs mem (story x f M) = .ok ([some 1, none, none, some 100, none, some (x.params.sigBytes - 100), some 50, some (x.params.sigBytes - 150),
        some 0, none, some 1, some 1], cs', mem') ∧
      mem'.Has (6 * x.params.n + M.length) (storySig x f M) ∧
      mem'.Has (6 * x.params.n + M.length + x.params.sigBytes) ((storySig x f M).drop 100) := by
  have hl : 6 * x.params.n < (rulesOf E.cfg).limit := by
    have h1 : 6 * x.params.n ≤ 192 := by cases x <;> decide
    have h2 : 192 < E.cfg.sizeMax := by
      unfold Config.sizeMax Arch.word
      split <;> decide
    exact Nat.lt_of_le_of_lt h1 h2
  obtain ⟨σ, e, h1, h2⟩ := story_runs (rulesOf E.cfg) x hx f hf hok M (by omega) hl hM' mem hm
  obtain ⟨cs', e'⟩ := C46_program E cs hs mem _ _ _ e
  exact ⟨cs', σ.mem, e', h1, h2⟩

/-- The hypotheses of `C46_program` and `C46_portable` are met: the example in two builds on two machines. -/
example : ∃ outs mem' c c', progExec (envOf fullCfg) (fun _ => dirtyCtx fullCfg) ramp (story .sha2_128f (fun n => (true, rampBytes 7 n)) (rampBytes 1 33)) = .ok (outs, c, mem') ∧
    progExec (envOf ⟨false, true, true, false, true, false, 1, ⟨true, false⟩⟩) (fun _ => dirtyCtx ⟨false, true, true, false, true, false, 1, ⟨true, false⟩⟩) ramp
      (story .sha2_128f (fun n => (true, rampBytes 7 n)) (rampBytes 1 33)) = .ok (outs, c', mem') := by
  have hb : Spec.Machine.behaves (fun n => (true, rampBytes 7 n)) (3 * Spec.Instance.sha2_128f.params.n) = true := by
    simp [Spec.Machine.behaves, rampBytes]
  have hl : (rampBytes 1 33).length = 33 := by simp [rampBytes]
  refine C46_portable _ _ _ _ (fun _ => dirty_shape _) (fun _ => dirty_shape _) _ _ ?_ ?_
  · obtain ⟨σ, e, -⟩ := story_runs (rulesOf fullCfg) .sha2_128f rfl _ hb rfl (rampBytes 1 33) (by rw [hl]; decide) (by decide) (by rw [hl]; decide) ramp (fun _ => rfl)
    show (run (rulesOf fullCfg) _ _).isSome
    rw [e]; rfl
  · obtain ⟨σ, e, -⟩ := story_runs (rulesOf ⟨false, true, true, false, true, false, 1, ⟨true, false⟩⟩) .sha2_128f rfl _ hb rfl (rampBytes 1 33) (by rw [hl]; decide) (by decide)
      (by rw [hl]; decide) ramp (fun _ => rfl)
    show (run (rulesOf ⟨false, true, true, false, true, false, 1, ⟨true, false⟩⟩) _ _).isSome
    rw [e]; rfl

end Properties
