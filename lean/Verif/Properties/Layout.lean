import Verif.Model.Layout
import Verif.Proof.Arch
import Verif.Proof.KRfl
/-!
# Property C43: the size and layout of a context
-/
namespace Properties
open Model Model.Layout

/-- C43: the sizes in ramspace.out are those of the declarations, on a 64-bit machine with the configurations of ramspace.py. -/
theorem C43_published (n : PsName) : supported (ramspaceCfg n) n = true ∧ sizeofCtx lp64 (ramspaceCfg n) = published n := by
  cases n <;> decide

theorem roundUp_ge (x : Nat) {a : Nat} (h : 0 < a) : x ≤ roundUp x a := arch_div_up x a h

theorem roundUp_mod (x a : Nat) : roundUp x a % a = 0 := Nat.mul_mod_left _ _

theorem offsets_length (ts : List Ty) : ∀ o, (offsets o ts).length = ts.length := by
  induction ts with
  | nil => intro o; rfl
  | cons t ts ih => intro o; simp [offsets, ih]

theorem offsets_ge (ts : List Ty) : ∀ o, (∀ t ∈ ts, 0 < t.align) → ∀ p ∈ (offsets o ts).zip ts, o ≤ p.1 ∧ p.1 % p.2.align = 0 ∧ p.1 + p.2.size ≤ endOf o ts := by
  induction ts with
  | nil => intro o _ p hp; cases hp
  | cons t ts ih =>
    intro o ha p hp
    have h1 := roundUp_ge o (ha t (by simp))
    have ha' : ∀ t ∈ ts, 0 < t.align := fun t h => ha t (by simp [h])
    have hend : ∀ (us : List Ty), (∀ t ∈ us, 0 < t.align) → ∀ q, q ≤ endOf q us := by
      intro us
      induction us with
      | nil => intro _ q; exact Nat.le_refl _
      | cons u us ih =>
        intro hu q
        have := roundUp_ge q (hu u (by simp))
        have := ih (fun t h => hu t (by simp [h])) (roundUp q u.align + u.size)
        unfold endOf; omega
    rw [offsets, List.zip_cons_cons, List.mem_cons] at hp
    rcases hp with rfl | hp
    · exact ⟨h1, roundUp_mod _ _, hend ts ha' _⟩
    · obtain ⟨g1, g2, g3⟩ := ih _ ha' p hp
      exact ⟨by omega, g2, g3⟩

theorem offsets_apart (ts : List Ty) : ∀ o, (∀ t ∈ ts, 0 < t.align) →
    ((offsets o ts).zip ts).Pairwise fun p q => p.1 + p.2.size ≤ q.1 := by
  induction ts with
  | nil => intro o _; exact List.Pairwise.nil
  | cons t ts ih =>
    intro o ha
    have ha' : ∀ t ∈ ts, 0 < t.align := fun t h => ha t (by simp [h])
    rw [offsets, List.zip_cons_cons]
    exact List.Pairwise.cons (fun q hq => (offsets_ge ts _ ha' q hq).1) (ih _ ha')

theorem maxAlign_pos (ts : List Ty) : 0 < maxAlign ts := by
  induction ts with
  | nil => decide
  | cons t ts ih => show 0 < max t.align (maxAlign ts); omega

theorem members_align (a : Abi) (c : Config) : ∀ t ∈ members a c, 0 < t.align := by
  have hw := a.arch.word_pos
  have hu : 0 < a.u64.align := by unfold Abi.u64; split <;> decide
  intro t ht
  unfold members at ht
  simp only [List.mem_append, List.mem_cons, List.not_mem_nil, or_false] at ht
  rcases ht with (h | h) | h
  · rcases h with rfl | rfl | rfl | rfl | rfl | rfl | rfl | rfl | rfl | rfl | rfl | rfl | rfl | rfl | rfl <;>
      first | exact maxAlign_pos _ | exact hu | (show 0 < a.arch.word; omega) | decide | exact Nat.one_pos
  · split at h
    · simp only [List.mem_append, List.mem_cons, List.not_mem_nil, or_false] at h
      rcases h with rfl | h
      · decide
      · split at h
        · rw [List.mem_singleton.1 h]; exact hu
        · cases h
    · cases h
  · rw [h]; exact maxAlign_pos _

/-- C43: in every configuration and on every machine the members of `ts_context` are aligned, lie inside the object, and do not
overlap. -/
theorem C43_members (a : Abi) (c : Config) :
    (∀ p ∈ (offsets 0 (members a c)).zip (members a c), p.1 % p.2.align = 0 ∧ p.1 + p.2.size ≤ sizeofCtx a c) ∧
    ((offsets 0 (members a c)).zip (members a c)).Pairwise fun p q => p.1 + p.2.size ≤ q.1 := by
  refine ⟨fun p hp => ?_, offsets_apart _ _ (members_align a c)⟩
  obtain ⟨-, h1, h2⟩ := offsets_ge _ _ (members_align a c) p hp
  exact ⟨h1, Nat.le_trans h2 (roundUp_ge _ (maxAlign_pos _))⟩

/-- The size as a function of what it depends on. -/
def sizeBy (wide al shake sha2 l5 l3 s so : Bool) : Nat :=
  sizeofCtx ⟨⟨false, wide⟩, al⟩ { shake, sha2, l5, l3, s, sha2opt := so, shakeOpt := 0 }

theorem sizeof_by (a : Abi) (c : Config) :
    sizeofCtx a c = sizeBy a.arch.wide a.align8 c.shake c.sha2 c.l5 c.l3 c.s c.sha2opt := by
  obtain ⟨⟨big, wide⟩, al⟩ := a
  obtain ⟨s1, s2, l5, l3, s, so, sk, ar⟩ := c
  krfl

/-- The size of `x` as a function of what it depends on. -/
def xBy (wide : Bool) (l5 l3 s : Bool) : Nat × Nat :=
  let a : Abi := ⟨⟨false, wide⟩, true⟩
  let c : Config := { shake := true, sha2 := true, l5, l3, s, sha2opt := true, shakeOpt := 0, arch := a.arch }
  ((x a c).size, c.xSize)

theorem x_by (a : Abi) (c : Config) (h : c.arch = a.arch) : ((x a c).size, c.xSize) = xBy a.arch.wide c.l5 c.l3 c.s := by
  obtain ⟨⟨big, wide⟩, al⟩ := a
  obtain ⟨s1, s2, l5, l3, s, so, sk, ar⟩ := c
  simp only at h
  subst h
  krfl

theorem xBy_eq : ∀ wide l5 l3 s, (xBy wide l5 l3 s).1 = (xBy wide l5 l3 s).2 := by decide +kernel

theorem roundUp_self (a : Nat) (h : 0 < a) : roundUp a a = a := by
  unfold roundUp
  rw [Nat.add_div_left _ h, Nat.div_eq_of_lt (by omega)]; omega

theorem roundUp_one (x : Nat) : roundUp x 1 = x := by unfold roundUp; simp

theorem roundUp_zero (a : Nat) (h : 0 < a) : roundUp 0 a = 0 := by
  unfold roundUp; rw [Nat.div_eq_of_lt (by omega), Nat.zero_mul]

/-- C43: the union `x` of the model is the union the declarations define: same size, same offsets of the members of its members. -/
theorem C43_union (a : Abi) (c : Config) (h : c.arch = a.arch) :
    (x a c).size = c.xSize ∧
    offsets 0 (fors c) = [Config.forsNodeOff 0, Config.forsStackOff] ∧
    offsets 0 (wots c) = [Config.wotsDigitOff, Config.wotsDigitsOff] ∧
    offsets 0 (merkle c) = [Config.merkleBufferOff, c.merkleStackOff] ∧
    offsets 0 (verify a) = [Config.verifyMessageOff, c.verifyLenOff] := by
  have hw : 0 < a.arch.word := by have := a.arch.word_pos; omega
  have hx := x_by a c h
  refine ⟨?_, ?_, ?_, ?_, ?_⟩
  · rw [show (x a c).size = (xBy a.arch.wide c.l5 c.l3 c.s).1 from congrArg Prod.fst hx,
      show c.xSize = (xBy a.arch.wide c.l5 c.l3 c.s).2 from congrArg Prod.snd hx, xBy_eq]
  · show [roundUp 0 2, roundUp (roundUp 0 2 + MAX_FORS * 2) 1] = _
    rw [roundUp_one]; decide
  · show [roundUp 0 1, roundUp (roundUp 0 1 + 1) 1] = _
    decide
  · show [roundUp 0 1, roundUp (roundUp 0 1 + c.MAX_HASH * 1) 1] = [0, c.MAX_HASH]
    rw [roundUp_one, roundUp_one, Nat.zero_add, Nat.mul_one]
  · show [roundUp 0 a.arch.word, roundUp (roundUp 0 a.arch.word + a.arch.word) a.arch.word] = [0, c.arch.word]
    rw [roundUp_zero _ hw, Nat.zero_add, roundUp_self _ hw, h]

/-- C43: `TS_SHA2_OPTIMIZATION` costs 32 bytes, or 96 with the sets of 192 or 256 bits, if SHA-2 is supported at all (tune.h:37-39). -/
theorem C43_optimization (a : Abi) (c : Config) :
    sizeofCtx a { c with sha2opt := true } =
      sizeofCtx a { c with sha2opt := false } + (if c.sha2 then (if c.l5 || c.l3 then 96 else 32) else 0) := by
  have key : ∀ wide al s1 s2 l5 l3 s, sizeBy wide al s1 s2 l5 l3 s true =
      sizeBy wide al s1 s2 l5 l3 s false + (if s2 then (if l5 || l3 then 96 else 32) else 0) := by decide +kernel
  rw [sizeof_by, sizeof_by]
  exact key _ _ _ _ _ _ _

/-- `c` supports at most what `d` supports. -/
def Below (c d : Config) : Prop :=
  (c.shake → d.shake) ∧ (c.sha2 → d.sha2) ∧ (c.l3 → d.l3) ∧ (c.l5 → d.l5) ∧ (c.s → d.s) ∧ (c.sha2opt → d.sha2opt)

/-- C43: supporting fewer parameter sets, or fewer optimisations, never makes a context larger. -/
theorem C43_monotone (a : Abi) (c d : Config) (h : Below c d) : sizeofCtx a c ≤ sizeofCtx a d := by
  have k1 : ∀ w al s1 s2 l5 l3 s, sizeBy w al s1 s2 l5 l3 s false ≤ sizeBy w al s1 s2 l5 l3 s true := by decide +kernel
  have k2 : ∀ w al s1 s2 l5 l3 so, sizeBy w al s1 s2 l5 l3 false so ≤ sizeBy w al s1 s2 l5 l3 true so := by decide +kernel
  have k3 : ∀ w al s1 s2 l5 s so, sizeBy w al s1 s2 l5 false s so ≤ sizeBy w al s1 s2 l5 true s so := by decide +kernel
  have k4 : ∀ w al s1 s2 l3 s so, sizeBy w al s1 s2 false l3 s so ≤ sizeBy w al s1 s2 true l3 s so := by decide +kernel
  have k5 : ∀ w al s1 l5 l3 s so, sizeBy w al s1 false l5 l3 s so ≤ sizeBy w al s1 true l5 l3 s so := by decide +kernel
  have k6 : ∀ w al s2 l5 l3 s so, sizeBy w al false s2 l5 l3 s so ≤ sizeBy w al true s2 l5 l3 s so := by decide +kernel
  have up : ∀ (f : Bool → Nat) (p q : Bool), f false ≤ f true → (p → q) → f p ≤ f q := by
    intro f p q hf hpq
    cases p <;> cases q
    · exact Nat.le_refl _
    · exact hf
    · exact absurd (hpq rfl) (by decide)
    · exact Nat.le_refl _
  obtain ⟨h1, h2, h3, h4, h5, h6⟩ := h
  rw [sizeof_by, sizeof_by]
  refine Nat.le_trans (up (fun b => sizeBy _ _ b _ _ _ _ _) _ _ (k6 _ _ _ _ _ _ _) h1) ?_
  refine Nat.le_trans (up (fun b => sizeBy _ _ _ b _ _ _ _) _ _ (k5 _ _ _ _ _ _ _) h2) ?_
  refine Nat.le_trans (up (fun b => sizeBy _ _ _ _ b _ _ _) _ _ (k4 _ _ _ _ _ _ _) h4) ?_
  refine Nat.le_trans (up (fun b => sizeBy _ _ _ _ _ b _ _) _ _ (k3 _ _ _ _ _ _ _) h3) ?_
  refine Nat.le_trans (up (fun b => sizeBy _ _ _ _ _ _ b _) _ _ (k2 _ _ _ _ _ _ _) h5) ?_
  exact up (fun b => sizeBy _ _ _ _ _ _ _ b) _ _ (k1 _ _ _ _ _ _ _) h6

/-- C43: no context is larger than 1136 bytes, and this size is reached: everything supported, with the optimisation, on a 64-bit
machine. -/
theorem C43_largest :
    (∀ (a : Abi) (c : Config), sizeofCtx a c ≤ 1136) ∧
    sizeofCtx lp64 { shake := true, sha2 := true, l5 := true, l3 := true, s := true, sha2opt := true, shakeOpt := 0 } = 1136 := by
  refine ⟨fun a c => ?_, by decide +kernel⟩
  have h := C43_monotone a c { c with shake := true, sha2 := true, l5 := true, l3 := true, s := true, sha2opt := true }
    ⟨fun _ => rfl, fun _ => rfl, fun _ => rfl, fun _ => rfl, fun _ => rfl, fun _ => rfl⟩
  rw [sizeof_by a { c with shake := true, sha2 := true, l5 := true, l3 := true, s := true, sha2opt := true }] at h
  have key : ∀ w al, sizeBy w al true true true true true true ≤ 1136 := by decide +kernel
  exact Nat.le_trans h (key _ _)

/-- C43: no context of a build that supports a hash family is smaller than 452 bytes, and this size is reached: only the fast
SHA-2 sets of 128 bits, on a 32-bit machine. -/
theorem C43_smallest :
    (∀ (a : Abi) (c : Config), c.shake = true ∨ c.sha2 = true → 452 ≤ sizeofCtx a c) ∧
    sizeofCtx ⟨⟨false, false⟩, false⟩
      { shake := false, sha2 := true, l5 := false, l3 := false, s := false, sha2opt := false, shakeOpt := 0 } = 452 := by
  refine ⟨fun a c h => ?_, by decide +kernel⟩
  have key : ∀ w al s1 s2 l5 l3 s so, (s1 || s2) = true → 452 ≤ sizeBy w al s1 s2 l5 l3 s so := by decide +kernel
  rw [sizeof_by]
  exact key _ _ _ _ _ _ _ _ (by simpa using h)

end Properties
