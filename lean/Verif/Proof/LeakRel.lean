import Verif.Model.LeakSign
/-!
# Two runs with the same visible events

`RelP R x y`: the runs `x` and `y` make the same events visible and end alike, in results related by `R`.
-/
namespace Leak
open Model

/-- Related outcomes: related results, or a fault in both. -/
def Out (R : α → β → Prop) : C α → C β → Prop
  | .ok a, .ok b => R a b
  | .error _, .error _ => True
  | _, _ => False

/-- Same events and related results. -/
def RelP (R : α → β → Prop) (x : L α) (y : L β) : Prop := x.log = y.log ∧ Out R x.res y.res

theorem RelP.mono {R S : α → β → Prop} {x : L α} {y : L β} (h : RelP R x y) (hm : ∀ a b, R a b → S a b) : RelP S x y := by
  obtain ⟨h1, h2⟩ := h
  refine ⟨h1, ?_⟩
  revert h2
  cases x.res <;> cases y.res <;> simp only [Out] <;> first | exact hm _ _ | exact id

theorem RelP.res {R : α → β → Prop} {x : L α} {y : L β} (h : RelP R x y) : RelP (fun a b => R a b ∧ x.res = .ok a ∧ y.res = .ok b) x y := by
  obtain ⟨h1, h2⟩ := h
  refine ⟨h1, ?_⟩
  revert h2
  cases hx : x.res <;> cases hy : y.res <;> simp only [Out]
  · exact id
  · exact id
  · exact id
  · intro h; exact ⟨h, by simp⟩

theorem rel_ok {R : α → β → Prop} {a : α} {b : β} (h : R a b) : RelP R (L.ok a) (L.ok b) := ⟨rfl, h⟩

theorem rel_error {R : α → β → Prop} (e e' : Fault) : RelP R (L.error e) (L.error e') := ⟨rfl, trivial⟩

theorem rel_bind {R : α → β → Prop} {S : γ → δ → Prop} {x : L α} {y : L β} {f : α → L γ} {g : β → L δ}
    (h : RelP R x y) (hf : ∀ a b, R a b → RelP S (f a) (g b)) : RelP S (x >>= f) (y >>= g) := by
  show RelP S (L.bind x f) (L.bind y g)
  obtain ⟨h1, h2⟩ := h
  unfold L.bind
  revert h2
  cases x.res with
  | error e => cases y.res with
    | error e => intro _; exact ⟨h1, trivial⟩
    | ok b => intro h; exact h.elim
  | ok a => cases y.res with
    | error e => intro h; exact h.elim
    | ok b =>
      intro h
      obtain ⟨h3, h4⟩ := hf a b h
      exact ⟨by simp only [h1, h3], h4⟩

/-- A step of the first run without events. -/
theorem rel_bindR {R : α → β → Prop} {S : γ → β → Prop} {x : L α} {y : L β} {f : α → L γ} (h : RelP R x y) (hf : ∀ a b, R a b → RelP S (f a) (L.ok b)) :
    RelP S (x >>= f) y := by
  have : y = (y >>= L.ok) := by
    show y = L.bind y L.ok
    obtain ⟨r, l⟩ := y
    cases r with
    | error e => rfl
    | ok b => simp [L.bind, L.ok]
  rw [this]
  exact rel_bind h hf

theorem rel_prim {R : α → β → Prop} {e e' : List Ev} {x : C α} {y : C β} (he : e = e') (h : Out R x y) :
    RelP R (prim e x) (prim e' y) := ⟨he, h⟩

theorem rel_tick {e e' : Ev} (he : e = e') : RelP (fun _ _ => True) (tick e) (tick e') := rel_prim (by rw [he]) trivial

theorem rel_cons {R : α → β → Prop} {a : L α} {b : L β} (h : RelP R a b) (e : Ev) :
    RelP R ⟨a.res, e :: a.log⟩ ⟨b.res, e :: b.log⟩ := ⟨by simp only [h.1], h.2⟩

theorem rel_branch {R : α → β → Prop} {c c' : Prop} [Decidable c] [Decidable c'] {a b : L α} {a' b' : L β} (hc : c ↔ c')
    (ha : c → c' → RelP R a a') (hb : ¬ c → ¬ c' → RelP R b b') : RelP R (branch c a b) (branch c' a' b') := by
  unfold branch
  by_cases h : c
  · have h' := hc.mp h
    simp only [if_pos h, if_pos h', decide_eq_true h, decide_eq_true h']
    exact rel_cons (ha h h') _
  · have h' := fun x => h (hc.mpr x)
    simp only [if_neg h, if_neg h', decide_eq_false h, decide_eq_false h']
    exact rel_cons (hb h h') _

theorem rel_ite {R : α → β → Prop} {c c' : Prop} [Decidable c] [Decidable c'] {a b : L α} {a' b' : L β} (hc : c ↔ c')
    (ha : c → c' → RelP R a a') (hb : ¬ c → ¬ c' → RelP R b b') :
    RelP R (if c then a else b) (if c' then a' else b') := by
  by_cases h : c
  · have h' := hc.mp h
    simp only [if_pos h, if_pos h']
    exact ha h h'
  · have h' := fun x => h (hc.mpr x)
    simp only [if_neg h, if_neg h']
    exact hb h h'

theorem rel_select {R : α → β → Prop} {a : L α} {b : L β} {n n' : Nat} (hn : n = n') (h : RelP R a b) :
    RelP R (select n a) (select n' b) := by
  subst hn
  exact rel_cons h _

theorem rel_calling {R : α → β → Prop} {a : L α} {b : L β} {f : Fn} {n n' : Nat} (hn : n = n') (h : RelP R a b) :
    RelP R (calling f n a) (calling f n' b) := by
  subst hn
  exact rel_cons h _

theorem rel_permuting {R : α → β → Prop} {a : L α} {b : L β} {f : Prim} {n n' : Nat} (hn : n = n') (h : RelP R a b) :
    RelP R (permuting f n a) (permuting f n' b) := by
  subst hn
  exact rel_cons h _

theorem rel_frame {R : α → β → Prop} {a : L α} {b : L β} {g : CFn} (h : RelP R a b) : RelP R (frame g a) (frame g b) :=
  ⟨by unfold frame; rw [h.1], h.2⟩

/-- Without secrets involved the two runs are the same. -/
theorem rel_refl (x : L α) : RelP Eq x x := by
  refine ⟨rfl, ?_⟩
  cases x.res <;> simp [Out]

theorem rel_loop {R : σ → τ → Prop} {body : Nat → σ → L σ} {body' : Nat → τ → L τ} {count start : Nat} {s : σ} {s' : τ}
    (h : R s s') (hb : ∀ i s s', start ≤ i → i < start + count → R s s' → RelP R (body i s) (body' i s')) :
    RelP R (loop body count start s) (loop body' count start s') := by
  induction count generalizing start s s' with
  | zero => exact ⟨rfl, h⟩
  | succ c ih =>
    unfold loop
    refine rel_bind (rel_tick rfl) fun _ _ _ => ?_
    refine rel_bind (hb start s s' (Nat.le_refl _) (by omega) h) fun a b hab => ?_
    exact ih hab fun i s s' h1 h2 => hb i s s' (by omega) (by omega)

/-- A loop with an invariant depending on the iteration. -/
theorem rel_loopI {R : Nat → σ → τ → Prop} {body : Nat → σ → L σ} {body' : Nat → τ → L τ} {count start : Nat} {s : σ} {s' : τ}
    (h : R start s s') (hb : ∀ i s s', start ≤ i → i < start + count → R i s s' → RelP (R (i + 1)) (body i s) (body' i s')) :
    RelP (R (start + count)) (loop body count start s) (loop body' count start s') := by
  induction count generalizing start s s' with
  | zero => exact ⟨rfl, h⟩
  | succ c ih =>
    unfold loop
    refine rel_bind (rel_tick rfl) fun _ _ _ => ?_
    refine rel_bind (hb start s s' (Nat.le_refl _) (by omega) h) fun a b hab => ?_
    rw [show start + (c + 1) = start + 1 + c by omega]
    exact ih hab fun i s s' h1 h2 => hb i s s' (by omega) (by omega)

/-! ## Arrays -/

/-- Arrays of the same length which agree at the indices `K`. -/
def Low (K : Nat → Prop) (a b : List α) : Prop := a.length = b.length ∧ ∀ i, K i → a[i]? = b[i]?

/-- Arrays of the same length. -/
def Len (a b : List α) : Prop := a.length = b.length

theorem Low.len {K : Nat → Prop} {a b : List α} (h : Low K a b) : Len a b := h.1
theorem Low.mono {K K' : Nat → Prop} {a b : List α} (h : Low K a b) (hk : ∀ i, K' i → K i) : Low K' a b := ⟨h.1, fun i hi => h.2 i (hk i hi)⟩
theorem Len.low {a b : List α} (h : Len a b) : Low (fun _ => False) a b := ⟨h, fun _ h => h.elim⟩
theorem len_refl (a : List α) : Len a a := rfl

theorem rel_rd {a b : List α} (h : Len a b) (i : Nat) : RelP (fun v w => a[i]? = some v ∧ b[i]? = some w) (rd a i) (rd b i) := by
  refine rel_prim rfl ?_
  unfold Model.rd
  by_cases hi : i < a.length
  · have hi' : i < b.length := h ▸ hi
    rw [List.getElem?_eq_getElem hi, List.getElem?_eq_getElem hi']
    exact ⟨rfl, rfl⟩
  · rw [List.getElem?_eq_none (by omega), List.getElem?_eq_none (by unfold Len at h; omega)]
    trivial

/-- Reading at a public index from arrays agreeing there. -/
theorem rel_rdK {K : Nat → Prop} {a b : List α} (h : Low K a b) {i : Nat} (hi : K i) :
    RelP (fun v w => v = w ∧ a[i]? = some v) (rd a i) (rd b i) :=
  (rel_rd h.1 i).mono fun v w ⟨h1, h2⟩ => ⟨Option.some.inj (by rw [← h1, ← h2, h.2 i hi]), h1⟩

theorem rel_wr {a b : List α} (h : Len a b) (i : Nat) (v w : α) : RelP Len (wr a i v) (wr b i w) := by
  refine rel_prim rfl ?_
  unfold Model.wr
  by_cases hi : i < a.length
  · rw [if_pos hi, if_pos (h ▸ hi)]
    simpa [Out, Len] using h
  · rw [if_neg hi, if_neg (h ▸ hi)]; trivial

/-- Writing an element: afterwards the arrays agree where they agreed at other places. -/
theorem rel_wrG {K : Nat → Prop} {a b : List α} (h : Len a b) (i : Nat) {v w : α} (ho : ∀ j, K j → j ≠ i → a[j]? = b[j]?) (hv : K i → v = w) :
    RelP (fun a' b' => Low K a' b' ∧ a'[i]? = some v) (wr a i v) (wr b i w) := by
  refine rel_prim rfl ?_
  unfold Len at h
  unfold Model.wr
  by_cases hi : i < a.length
  · rw [if_pos hi, if_pos (h ▸ hi)]
    refine ⟨⟨by simpa using h, fun j hj => ?_⟩, by simp [hi]⟩
    rw [List.getElem?_set, List.getElem?_set]
    by_cases hij : i = j
    · subst hij
      rw [if_pos rfl, if_pos rfl, if_pos hi, if_pos (h ▸ hi), hv hj]
    · rw [if_neg hij, if_neg hij]; exact ho j hj (Ne.symm hij)
  · rw [if_neg hi, if_neg (h ▸ hi)]; trivial

theorem rel_wrK {K : Nat → Prop} {a b : List α} (h : Low K a b) (i : Nat) {v w : α} (hv : K i → v = w) :
    RelP (Low K) (wr a i v) (wr b i w) :=
  (rel_wrG h.1 i (fun j hj _ => h.2 j hj) hv).mono fun _ _ h => h.1

theorem rel_rdSlice {a b : List α} (h : Len a b) (off len : Nat) :
    RelP (fun v w => v.length = len ∧ w.length = len) (rdSlice a off len) (rdSlice b off len) := by
  refine rel_prim rfl ?_
  unfold Model.rdSlice
  unfold Len at h
  by_cases hi : off + len ≤ a.length
  · rw [if_pos hi, if_pos (h ▸ hi)]
    simp only [Out, List.length_take, List.length_drop]
    omega
  · rw [if_neg hi, if_neg (h ▸ hi)]; trivial

theorem rel_wrSlice {a b v w : List α} (h : Len a b) (off : Nat) (hv : Len v w) :
    RelP Len (wrSlice a off v) (wrSlice b off w) := by
  unfold Len at h hv
  refine rel_prim (by rw [hv]) ?_
  unfold Model.wrSlice
  by_cases hi : off + v.length ≤ a.length
  · rw [if_pos hi, if_pos (by omega)]
    simp only [Out, Len, List.length_append, List.length_take, List.length_drop]
    omega
  · rw [if_neg hi, if_neg (by omega)]; trivial

/-- Writing a block: afterwards the arrays agree where they agreed outside and where the blocks agree. -/
theorem rel_wrSliceG {K : Nat → Prop} {a b v w : List α} (hl : Len a b) (off : Nat) (hv : Len v w)
    (ho : ∀ i, K i → i < off ∨ off + v.length ≤ i → a[i]? = b[i]?)
    (hk : ∀ i, K (off + i) → i < v.length → v[i]? = w[i]?) :
    RelP (Low K) (wrSlice a off v) (wrSlice b off w) := by
  unfold Len at hv hl
  refine rel_prim (by rw [hv]) ?_
  unfold Model.wrSlice
  by_cases hi : off + v.length ≤ a.length
  · rw [if_pos hi, if_pos (by omega)]
    refine ⟨by simp only [List.length_append, List.length_take, List.length_drop]; omega, fun j hj => ?_⟩
    by_cases h1 : j < off
    · rw [List.getElem?_append_left (by simp only [List.length_append, List.length_take]; omega),
        List.getElem?_append_left (by simp only [List.length_take]; omega),
        List.getElem?_append_left (by simp only [List.length_append, List.length_take]; omega),
        List.getElem?_append_left (by simp only [List.length_take]; omega),
        List.getElem?_take_of_lt h1, List.getElem?_take_of_lt h1]
      exact ho j hj (.inl h1)
    · by_cases h2 : j < off + v.length
      · rw [List.getElem?_append_left (by simp only [List.length_append, List.length_take]; omega),
          List.getElem?_append_right (by simp only [List.length_take]; omega),
          List.getElem?_append_left (by simp only [List.length_append, List.length_take]; omega),
          List.getElem?_append_right (by simp only [List.length_take]; omega)]
        simp only [List.length_take]
        rw [Nat.min_eq_left (by omega), Nat.min_eq_left (by omega)]
        exact hk _ (by rwa [show off + (j - off) = j by omega]) (by omega)
      · rw [List.getElem?_append_right (by simp only [List.length_append, List.length_take]; omega),
          List.getElem?_append_right (by simp only [List.length_append, List.length_take]; omega),
          List.getElem?_drop, List.getElem?_drop]
        simp only [List.length_append, List.length_take]
        rw [show off + v.length + (j - (min off a.length + v.length)) = j by omega,
          show off + w.length + (j - (min off b.length + w.length)) = j by omega]
        exact ho j hj (.inr (by omega))
  · rw [if_neg hi, if_neg (by omega)]; trivial

theorem rel_wrSliceK {K : Nat → Prop} {a b v w : List α} (h : Low K a b) (off : Nat) (hv : Len v w)
    (hk : ∀ i, K (off + i) → i < v.length → v[i]? = w[i]?) :
    RelP (Low K) (wrSlice a off v) (wrSlice b off w) :=
  rel_wrSliceG h.1 off hv (fun i hi _ => h.2 i hi) hk

/-! ## Memory -/

/-- The same addresses are mapped; the contents may differ. -/
def MemLow (m m' : Mem) : Prop := ∀ a, (m a).isSome = (m' a).isSome

theorem out_read {m m' : Mem} (h : MemLow m m') (a len : Nat) :
    Out (fun v w : Bytes => v.length = len ∧ w.length = len) (m.read a len) (m'.read a len) := by
  induction len generalizing a with
  | zero => exact ⟨rfl, rfl⟩
  | succ n ih =>
    unfold Mem.read
    have := h a
    cases h1 : m a with
    | none =>
      cases h2 : m' a with
      | none => trivial
      | some w => rw [h1, h2] at this; cases this
    | some v =>
      cases h2 : m' a with
      | none => rw [h1, h2] at this; cases this
      | some w =>
        have := ih (a + 1)
        revert this
        show Out _ _ _ → Out _ (m.read (a+1) n >>= fun r => .ok (v :: r)) (m'.read (a+1) n >>= fun r => .ok (w :: r))
        cases m.read (a + 1) n with
        | error e => cases m'.read (a + 1) n with
          | error e => intro _; trivial
          | ok y => intro h; exact h.elim
        | ok x => cases m'.read (a + 1) n with
          | error e => intro h; exact h.elim
          | ok y => intro ⟨h1, h2⟩; exact ⟨by rw [List.length_cons, h1], by rw [List.length_cons, h2]⟩

theorem rel_memRead {m m' : Mem} (h : MemLow m m') (a len : Nat) :
    RelP (fun v w : Bytes => v.length = len ∧ w.length = len) (memRead m a len) (memRead m' a len) :=
  rel_prim rfl (out_read h a len)

theorem out_write {m m' : Mem} (h : MemLow m m') (a : Nat) {v w : Bytes} (hv : v.length = w.length) :
    Out MemLow (m.write a v) (m'.write a w) := by
  induction v generalizing m m' a w with
  | nil =>
    cases w with
    | nil => exact h
    | cons => cases hv
  | cons x xs ih =>
    cases w with
    | nil => cases hv
    | cons y ys =>
      have h0 := h a
      show Out _ (m.write1 a x >>= fun m => m.write (a + 1) xs) (m'.write1 a y >>= fun m => m.write (a + 1) ys)
      unfold Mem.write1
      cases h1 : m a with
      | none =>
        cases h2 : m' a with
        | none => trivial
        | some w => rw [h1, h2] at h0; cases h0
      | some v =>
        cases h2 : m' a with
        | none => rw [h1, h2] at h0; cases h0
        | some w =>
          refine ih (m := fun b => if b = a then some x else m b) (m' := fun b => if b = a then some y else m' b) ?_ (a + 1)
            (by simpa using hv)
          intro b
          dsimp only
          by_cases hb : b = a
          · rw [if_pos hb, if_pos hb]; rfl
          · rw [if_neg hb, if_neg hb]; exact h b

theorem rel_memWrite {m m' : Mem} (h : MemLow m m') (a : Nat) {v w : Bytes} (hv : v.length = w.length) :
    RelP MemLow (memWrite m a v) (memWrite m' a w) := rel_prim (by rw [hv]) (out_write h a hv)

/-! ## endian.c -/

theorem ts_bytes_to_ull_rel {p p' : Bytes} (h : Len p p') (off n : Nat) :
    RelP (fun _ _ => True) (ts_bytes_to_ull p off n) (ts_bytes_to_ull p' off n) := by
  unfold ts_bytes_to_ull
  refine rel_loop trivial fun i s s' _ _ _ => ?_
  exact rel_bind (rel_rd h _) fun _ _ _ => rel_ok trivial

theorem ts_ull_to_bytes_rel {p p' : Bytes} (h : Len p p') (off v v' n : Nat) :
    RelP Len (ts_ull_to_bytes p off v n) (ts_ull_to_bytes p' off v' n) := by
  induction n generalizing p p' v v' with
  | zero => exact rel_bind (rel_tick rfl) fun _ _ _ => rel_ok h
  | succ n ih =>
    unfold ts_ull_to_bytes
    refine rel_bind (rel_tick rfl) fun _ _ _ => ?_
    exact rel_bind (rel_wr h _ _ _) fun _ _ h => ih h _ _

theorem lmin_rel {a a' b b' : Nat} (ha : a = a') (hb : b = b') : RelP (fun x y => x = y ∧ x = min a b) (lmin a b) (lmin a' b') := by
  subst ha hb
  unfold lmin
  exact rel_branch Iff.rfl (fun h _ => rel_ok ⟨rfl, by omega⟩) (fun h _ => rel_ok ⟨rfl, by omega⟩)

end Leak
