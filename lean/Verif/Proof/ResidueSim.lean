import Verif.Proof.ResidueHash
/-!
# Two runs that agree except for the scratch iterator

`Sim`: whenever the first program succeeds, so does the second, with the same result and a context that differs at most in the
scratch iterator.
-/
namespace Model
open Spec Spec.Slh

variable {S : Sess}

/-- Simulation of programs that return a context. -/
def SimC (P : Ctx → Prop) (x y : C Ctx) : Prop :=
  ∀ c, x = .ok c → P c ∧ ∃ s, WfIter s ∧ y = .ok (c.si s)

/-- Simulation of programs that return a value and a context. -/
def Sim {α : Type} (P : α → Ctx → Prop) (x y : C (α × Ctx)) : Prop :=
  ∀ o c, x = .ok (o, c) → P o c ∧ ∃ s, WfIter s ∧ y = .ok (o, c.si s)

theorem SimC.bindC {P Q : Ctx → Prop} {x y : C Ctx} {f g : Ctx → C Ctx} (h : SimC P x y)
    (hf : ∀ c s, P c → WfIter s → SimC Q (f c) (g (c.si s))) : SimC Q (x >>= f) (y >>= g) := by
  intro c e
  obtain ⟨c1, e1, e2⟩ := bind_ok_inv e
  obtain ⟨hp, s, w, e3⟩ := h c1 e1
  rw [e3]
  exact hf c1 s hp w c e2

theorem SimC.bind {α : Type} {P : Ctx → Prop} {Q : α → Ctx → Prop} {x y : C Ctx} {f g : Ctx → C (α × Ctx)} (h : SimC P x y)
    (hf : ∀ c s, P c → WfIter s → Sim Q (f c) (g (c.si s))) : Sim Q (x >>= f) (y >>= g) := by
  intro o c e
  obtain ⟨c1, e1, e2⟩ := bind_ok_inv e
  obtain ⟨hp, s, w, e3⟩ := h c1 e1
  rw [e3]
  exact hf c1 s hp w o c e2

theorem Sim.bindC {α : Type} {P : α → Ctx → Prop} {Q : Ctx → Prop} {x y : C (α × Ctx)} {f g : α × Ctx → C Ctx} (h : Sim P x y)
    (hf : ∀ o c s, P o c → WfIter s → SimC Q (f (o, c)) (g (o, c.si s))) : SimC Q (x >>= f) (y >>= g) := by
  intro c e
  obtain ⟨⟨o, c1⟩, e1, e2⟩ := bind_ok_inv e
  obtain ⟨hp, s, w, e3⟩ := h o c1 e1
  rw [e3]
  exact hf o c1 s hp w c e2

theorem Sim.bind {α β : Type} {P : α → Ctx → Prop} {Q : β → Ctx → Prop} {x y : C (α × Ctx)} {f g : α × Ctx → C (β × Ctx)} (h : Sim P x y)
    (hf : ∀ o c s, P o c → WfIter s → Sim Q (f (o, c)) (g (o, c.si s))) : Sim Q (x >>= f) (y >>= g) := by
  intro o c e
  obtain ⟨⟨o1, c1⟩, e1, e2⟩ := bind_ok_inv e
  obtain ⟨hp, s, w, e3⟩ := h o1 c1 e1
  rw [e3]
  exact hf o1 c1 s hp w o c e2

theorem SimC.pub {α : Type} {Q : Ctx → Prop} {x : C α} {f g : α → C Ctx} (h : ∀ a, x = .ok a → SimC Q (f a) (g a)) :
    SimC Q (x >>= f) (x >>= g) := by
  cases x with
  | error e => intro c h; cases h
  | ok a => exact h a rfl

theorem Sim.pub {α β : Type} {Q : β → Ctx → Prop} {x : C α} {f g : α → C (β × Ctx)} (h : ∀ a, x = .ok a → Sim Q (f a) (g a)) :
    Sim Q (x >>= f) (x >>= g) := by
  cases x with
  | error e => intro o c h; cases h
  | ok a => exact h a rfl

theorem SimC.ok {P : Ctx → Prop} {c : Ctx} {s : TIter} (h : P c) (w : WfIter s) : SimC P (.ok c) (.ok (c.si s)) := by
  intro c' e; cases e; exact ⟨h, s, w, rfl⟩

theorem Sim.ok {α : Type} {P : α → Ctx → Prop} {o : α} {c : Ctx} {s : TIter} (h : P o c) (w : WfIter s) : Sim P (.ok (o, c)) (.ok (o, c.si s)) := by
  intro o' c' e; cases e; exact ⟨h, s, w, rfl⟩

theorem SimC.mono {P Q : Ctx → Prop} {x y : C Ctx} (h : SimC P x y) (hpq : ∀ c, P c → Q c) : SimC Q x y :=
  fun c e => ⟨hpq c (h c e).1, (h c e).2⟩

theorem Sim.mono {α : Type} {P Q : α → Ctx → Prop} {x y : C (α × Ctx)} (h : Sim P x y) (hpq : ∀ o c, P o c → Q o c) : Sim Q x y :=
  fun o c e => ⟨hpq o c (h o c e).1, (h o c e).2⟩

/-- Equal programs simulate each other. -/
theorem Sim.same {α : Type} {P : α → Ctx → Prop} {x y : C (α × Ctx)} (h : y = x) (hp : ∀ o c, x = .ok (o, c) → P o c ∧ WfIter c.small_iter) :
    Sim P x y := by
  intro o c e
  exact ⟨(hp o c e).1, c.small_iter, (hp o c e).2, h.trans e⟩

theorem SimC.loop {P : Nat → Ctx → Prop} {f g : Nat → Ctx → C Ctx} (n st : Nat) {c : Ctx} {s : TIter} (h0 : P st c) (w : WfIter s)
    (hf : ∀ i c s, st ≤ i → i < st + n → P i c → WfIter s → SimC (P (i + 1)) (f i c) (g i (c.si s))) :
    SimC (P (st + n)) (Model.loop f n st c) (Model.loop g n st (c.si s)) := by
  induction n generalizing st c s with
  | zero => exact SimC.ok h0 w
  | succ n ih =>
    rw [loop_succ, loop_succ]
    refine SimC.bindC (hf st c s (Nat.le_refl _) (by omega) h0 w) fun c1 s1 h1 w1 => ?_
    rw [show st + (n + 1) = st + 1 + n by omega]
    exact ih (st + 1) h1 w1 fun i c s h2 h3 => hf i c s (by omega) (by omega)

/-! ## Address setters -/

/-- A program that neither reads nor writes the scratch iterator. -/
def Blind (f : Ctx → C Ctx) : Prop := ∀ c s, f (c.si s) = (f c).map (·.si s)

theorem map_bind' {α β γ : Type} (x : C α) (f : α → C β) (g : β → γ) : (x >>= f).map g = x >>= fun a => (f a).map g := by
  cases x <;> rfl

theorem bind_map' {α β γ : Type} (x : C α) (f : α → β) (g : β → C γ) : (x.map f >>= g) = x >>= fun a => g (f a) := by
  cases x <;> rfl

section
variable (E : Env) (c : Ctx) (s : TIter)

theorem set_layer_si (v : Nat) : set_layer_adr E v (c.si s) = (set_layer_adr E v c).map (·.si s) := by
  unfold set_layer_adr sha2Adr Ctx.si
  simp only
  split <;> rw [map_bind'] <;> rfl
theorem set_tree_si (v : Nat) : set_tree_adr E v (c.si s) = (set_tree_adr E v c).map (·.si s) := by
  unfold set_tree_adr sha2Adr Ctx.si
  simp only
  split <;> rw [map_bind'] <;> rfl
theorem set_type_si (v : Nat) : set_type_adr E v (c.si s) = (set_type_adr E v c).map (·.si s) := by
  unfold set_type_adr sha2Adr Ctx.si
  simp only
  split <;> rw [map_bind'] <;> rfl
theorem set_keypair_si (v : Nat) : set_keypair_adr E v (c.si s) = (set_keypair_adr E v c).map (·.si s) := by
  unfold set_keypair_adr sha2Adr Ctx.si
  simp only
  split <;> rw [map_bind'] <;> rfl
theorem set_tree_height_si (v : Nat) : set_tree_height_adr E v (c.si s) = (set_tree_height_adr E v c).map (·.si s) := by
  unfold set_tree_height_adr sha2Adr Ctx.si
  simp only
  split <;> rw [map_bind'] <;> rfl
theorem set_tree_index_si (v : Nat) : set_tree_index_adr E v (c.si s) = (set_tree_index_adr E v c).map (·.si s) := by
  unfold set_tree_index_adr sha2Adr Ctx.si
  simp only
  split <;> rw [map_bind'] <;> rfl

theorem si_hl : (c.si s).hypertree_level = c.hypertree_level := rfl
theorem si_ta : (c.si s).tree_address = c.tree_address := rfl
theorem si_kp : (c.si s).fors_keypair_addr = c.fors_keypair_addr := rfl
theorem si_ft : (c.si s).fors_tree = c.fors_tree := rfl
theorem si_ps : (c.si s).ps = c.ps := rfl

macro "blind" : tactic => `(tactic| simp only [set_layer_si, set_tree_si, set_type_si, set_keypair_si, set_tree_height_si, set_tree_index_si,
  map_bind', bind_map', si_hl, si_ta, si_kp, si_ft, si_ps])

theorem set_fors_prf_adr_si (i : Nat) : set_fors_prf_adr E (c.si s) i = (set_fors_prf_adr E c i).map (·.si s) := by
  unfold set_fors_prf_adr; blind
theorem set_wots_prf_adr_si (i j : Nat) : set_wots_prf_adr E (c.si s) i j = (set_wots_prf_adr E c i j).map (·.si s) := by
  unfold set_wots_prf_adr; blind
theorem set_wots_f_adr_si (i j h : Nat) : ts_set_wots_f_adr E (c.si s) i j h = (ts_set_wots_f_adr E c i j h).map (·.si s) := by
  unfold ts_set_wots_f_adr; blind
theorem set_merkle_adr_si (i j h : Nat) : ts_set_merkle_adr E (c.si s) i j h = (ts_set_merkle_adr E c i j h).map (·.si s) := by
  unfold ts_set_merkle_adr; blind
theorem set_fors_root_adr_si : ts_set_fors_root_adr E (c.si s) = (ts_set_fors_root_adr E c).map (·.si s) := by
  unfold ts_set_fors_root_adr; blind
theorem set_wots_header_adr_si (i : Nat) : ts_set_wots_header_adr E i (c.si s) = (ts_set_wots_header_adr E i c).map (·.si s) := by
  unfold ts_set_wots_header_adr; blind

end

/-- A setter, simulated. -/
theorem HasAdr.sim {c : Ctx} {s : TIter} {a : Adrs} {x y : C Ctx} (g : Good S c) (w : WfIter s) (h : HasAdr S x c a)
    (hy : y = x.map (·.si s)) : SimC (fun c' => Scr S c c' ∧ S.AdrIs c'.adr a) x y := by
  obtain ⟨c1, e, h1, h2⟩ := h.scr g
  rw [hy, e]
  exact SimC.ok ⟨h1, h2⟩ w

end Model
