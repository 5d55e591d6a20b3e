import Verif.Proof.CostFree
import Verif.Spec.Cost
/-!
# The cost of leaves, nodes and paths
-/
namespace Leak
open Model Spec.Cost

/-- If the computation succeeds, `P` holds of the result and the number of calls of `f`. -/
def Cost (f : Fn) (x : L α) (P : α → Nat → Prop) : Prop := ∀ a, x.res = .ok a → P a (calls f x.log)

variable {f : Fn}

theorem cost_mono {x : L α} {P Q : α → Nat → Prop} (h : Cost f x P) (hpq : ∀ a k, x.res = .ok a → P a k → Q a k) : Cost f x Q :=
  fun a e => hpq _ _ e (h a e)

theorem cost_ok {a : α} {P : α → Nat → Prop} (h : P a 0) : Cost f (L.ok a) P := by
  intro b e
  cases e
  exact h

theorem cost_bind {x : L α} {g : α → L β} {P : α → Nat → Prop} {Q : β → Nat → Prop} (hx : Cost f x P)
    (hg : ∀ a k, x.res = .ok a → P a k → Cost f (g a) fun b k' => Q b (k + k')) : Cost f (x >>= g) Q := by
  intro b e
  rw [res_bind] at e
  rw [log_bind, calls_append]
  cases h : x.res with
  | error e' => rw [h] at e; cases e
  | ok a =>
    rw [h] at e
    exact hg a _ h (hx a h) b e

theorem cost_free {x : L α} (hx : Free x) : Cost f x fun _ k => k = 0 := fun _ _ => hx f

/-- A step that makes no calls. -/
theorem cost_bind0 {x : L α} {g : α → L β} {Q : β → Nat → Prop} (hx : Free x) (hg : ∀ a, x.res = .ok a → Cost f (g a) Q) : Cost f (x >>= g) Q := by
  refine cost_bind (cost_free hx) fun a k e hk => ?_
  subst hk
  simp only [Nat.zero_add]
  exact hg a e

theorem cost_branch {c : Prop} [Decidable c] {a b : L α} {Q : α → Nat → Prop} (ha : c → Cost f a Q) (hb : ¬ c → Cost f b Q) : Cost f (branch c a b) Q := by
  intro v e
  unfold branch at e ⊢
  by_cases h : c
  · simp only [if_pos h] at e ⊢; exact ha h v e
  · simp only [if_neg h] at e ⊢; exact hb h v e

theorem calls_call (f g : Fn) (n : Nat) (l : List Ev) : calls f (.call g n :: l) = one g f + calls f l := by
  unfold calls one
  rw [List.countP_cons]
  have : (isCall f (.call g n) = true) ↔ f = g := by
    show (g == f) = true ↔ _
    rw [beq_iff_eq]; exact eq_comm
  by_cases h : f = g
  · rw [if_pos h, if_pos (this.2 h)]; omega
  · rw [if_neg h, if_neg (fun x => h (this.1 x))]; omega

theorem cost_calling {g : Fn} {n : Nat} {a : L α} (h : Free a) : Cost f (calling g n a) fun _ k => k = one g f := by
  intro v e
  show calls f (.call g n :: a.log) = _
  rw [calls_call, h f, Nat.add_zero]

theorem calls_frame (f : Fn) (g : CFn) (a : L α) : calls f (frame g a).log = calls f a.log := by
  have e : calls f (frame g a).log = calls f (a.log ++ [.leave g]) := rfl
  rw [e, calls_append]
  exact Nat.add_zero _

theorem cost_frame {g : CFn} {a : L α} {Q : α → Nat → Prop} (h : Cost f a Q) : Cost f (frame g a) Q := by
  intro v e
  rw [calls_frame]
  exact h v e

theorem loop_log (body : Nat → σ → L σ) (c i : Nat) (s : σ) :
    loop body (c + 1) i s = (do tick (.br true); let s ← body i s; loop body c (i + 1) s) := rfl

/-- `c start + ... ` (`count` terms) -/
def sumFrom (c : Nat → Nat) : Nat → Nat → Nat
  | _, 0 => 0
  | s, n + 1 => c s + sumFrom c (s + 1) n

theorem cost_loop {body : Nat → σ → L σ} {I : Nat → σ → Prop} {c : Nat → Nat} {count start : Nat} {s : σ}
    (hb : ∀ i s, start ≤ i → i < start + count → I i s → Cost f (body i s) fun s' k => k = c i ∧ I (i + 1) s') (h : I start s) :
    Cost f (loop body count start s) fun s' k => k = sumFrom c start count ∧ I (start + count) s' := by
  induction count generalizing start s with
  | zero => intro a e; cases e; exact ⟨rfl, h⟩
  | succ count ih =>
    rw [loop_log]
    refine cost_bind0 (free_br _) fun _ _ => ?_
    refine cost_bind (hb start s (Nat.le_refl _) (by omega) h) fun a k _ hk => ?_
    refine cost_mono (ih (start := start + 1) (fun i s h1 h2 => hb i s (by omega) (by omega)) hk.2) fun b k' _ hk' => ?_
    rw [hk.1, hk'.1]
    refine ⟨rfl, ?_⟩
    rw [show start + (count + 1) = start + 1 + count by omega]
    exact hk'.2

theorem sumFrom_const (v : Nat) (s n : Nat) : sumFrom (fun _ => v) s n = n * v := by
  induction n generalizing s with
  | zero => simp [sumFrom]
  | succ n ih => rw [sumFrom, ih, Nat.succ_mul, Nat.add_comm]

theorem sumFrom_add (a b : Nat → Nat) (s n : Nat) : sumFrom (fun i => a i + b i) s n = sumFrom a s n + sumFrom b s n := by
  induction n generalizing s with
  | zero => rfl
  | succ n ih => rw [sumFrom, sumFrom, sumFrom, ih]; omega

theorem sumFrom_mul (a : Nat → Nat) (v s n : Nat) : sumFrom (fun i => a i * v) s n = sumFrom a s n * v := by
  induction n generalizing s with
  | zero => simp [sumFrom]
  | succ n ih => rw [sumFrom, sumFrom, ih, Nat.add_mul]

/-! ## What the functions leave alone -/

/-- The fields that decide how often the loops run. -/
def fixed (c : Ctx) : ParamSet × Nat × Nat := (c.ps, c.merkle_level, c.fors_tree)

/-- A property of the result, if there is one. -/
def Post (x : L α) (P : α → Prop) : Prop := ∀ a, x.res = .ok a → P a

theorem res_bind_inv {x : L α} {g : α → L β} {b : β} (h : (x >>= g).res = .ok b) : ∃ a, x.res = .ok a ∧ (g a).res = .ok b := by
  rw [res_bind] at h
  cases e : x.res with
  | error e' => rw [e] at h; cases h
  | ok a => exact ⟨a, rfl, by rw [e] at h; exact h⟩

theorem C_bind_inv {x : C α} {g : α → C β} {b : β} (h : (x >>= g) = .ok b) : ∃ a, x = .ok a ∧ g a = .ok b := by
  cases x with
  | error e' => cases h
  | ok a => exact ⟨a, rfl, h⟩

theorem post_bind {x : L α} {g : α → L β} {P : α → Prop} {Q : β → Prop} (hx : Post x P) (hg : ∀ a, P a → Post (g a) Q) : Post (x >>= g) Q := by
  intro b e
  obtain ⟨a, e1, e2⟩ := res_bind_inv e
  exact hg a (hx a e1) b e2

theorem post_any {x : L α} : Post x fun _ => True := fun _ _ => trivial

theorem post_ok {a : α} {P : α → Prop} (h : P a) : Post (L.ok a) P := by
  intro b e; cases e; exact h

theorem post_branch {c : Prop} [Decidable c] {a b : L α} {P : α → Prop} (ha : Post a P) (hb : Post b P) : Post (branch c a b) P := by
  intro v e
  unfold branch at e
  by_cases h : c
  · simp only [if_pos h] at e; exact ha v e
  · simp only [if_neg h] at e; exact hb v e

theorem post_frame {g : CFn} {a : L α} {P : α → Prop} (h : Post a P) : Post (frame g a) P := h

theorem post_calling {g : Fn} {n : Nat} {a : L α} {P : α → Prop} (h : Post a P) : Post (calling g n a) P := h

theorem post_loop {body : Nat → σ → L σ} {I : σ → Prop} {c i : Nat} {s : σ} (hb : ∀ i s, I s → Post (body i s) I) (h : I s) :
    Post (loop body c i s) I := by
  induction c generalizing i s with
  | zero => intro a e; cases e; exact h
  | succ c ih =>
    rw [loop_log]
    exact post_bind post_any fun _ _ => post_bind (hb _ _ h) fun a ha => ih ha

variable {E : Env} {mem : Mem} {v : ParamSet × Nat × Nat} {c : Ctx}

/-- Setters of one word of the address. -/
macro "adrword" : tactic => `(tactic| (
  refine post_branch ?_ ?_ <;> exact post_bind post_any fun _ _ => post_ok (by assumption)))

theorem keep_layer (l : Nat) (h : fixed c = v) : Post (set_layer_adr E l c) fun c' => fixed c' = v := by unfold set_layer_adr; adrword
theorem keep_tree (l : Nat) (h : fixed c = v) : Post (set_tree_adr E l c) fun c' => fixed c' = v := by unfold set_tree_adr; adrword
theorem keep_type (l : Nat) (h : fixed c = v) : Post (set_type_adr E l c) fun c' => fixed c' = v := by unfold set_type_adr; adrword
theorem keep_keypair (l : Nat) (h : fixed c = v) : Post (set_keypair_adr E l c) fun c' => fixed c' = v := by unfold set_keypair_adr; adrword
theorem keep_height (l : Nat) (h : fixed c = v) : Post (set_tree_height_adr E l c) fun c' => fixed c' = v := by unfold set_tree_height_adr; adrword
theorem keep_index (l : Nat) (h : fixed c = v) : Post (set_tree_index_adr E l c) fun c' => fixed c' = v := by unfold set_tree_index_adr; adrword

theorem keep_fors_prf (l : Nat) (h : fixed c = v) : Post (set_fors_prf_adr E c l) fun c' => fixed c' = v :=
  post_bind (keep_layer _ h) fun _ h => post_bind (keep_tree _ h) fun _ h => post_bind (keep_type _ h) fun _ h => post_bind (keep_keypair _ h) fun _ h =>
    post_bind (keep_height _ h) fun _ h => post_bind post_any fun _ _ => post_bind post_any fun _ _ => keep_index _ h
theorem keep_fors_leaf (l : Nat) (h : fixed c = v) : Post (ts_set_fors_leaf_adr E c l) fun c' => fixed c' = v :=
  post_bind (keep_layer _ h) fun _ h => post_bind (keep_tree _ h) fun _ h => post_bind (keep_type _ h) fun _ h => post_bind (keep_keypair _ h) fun _ h =>
    post_bind (keep_height _ h) fun _ h => post_bind post_any fun _ _ => post_bind post_any fun _ _ => keep_index _ h
theorem keep_merkle (i l t : Nat) (h : fixed c = v) : Post (ts_set_merkle_adr E c i l t) fun c' => fixed c' = v :=
  post_bind (keep_layer _ h) fun _ h => post_bind (keep_tree _ h) fun _ h => post_bind (keep_type _ h) fun _ h => post_bind (keep_keypair _ h) fun _ h =>
    post_bind (keep_height _ h) fun _ h => post_bind post_any fun _ _ => post_bind post_any fun _ _ => keep_index _ h
theorem keep_wots_prf (i l : Nat) (h : fixed c = v) : Post (set_wots_prf_adr E c i l) fun c' => fixed c' = v :=
  post_bind (keep_layer _ h) fun _ h => post_bind (keep_tree _ h) fun _ h => post_bind (keep_type _ h) fun _ h => post_bind (keep_keypair _ h) fun _ h =>
    post_bind (keep_height _ h) fun _ h => keep_index _ h
theorem keep_wots_f (i l k : Nat) (h : fixed c = v) : Post (ts_set_wots_f_adr E c i l k) fun c' => fixed c' = v :=
  post_bind (keep_layer _ h) fun _ h => post_bind (keep_tree _ h) fun _ h => post_bind (keep_type _ h) fun _ h => post_bind (keep_keypair _ h) fun _ h =>
    post_bind (keep_height _ h) fun _ h => keep_index _ h
theorem keep_wots_header (l : Nat) (h : fixed c = v) : Post (ts_set_wots_header_adr E l c) fun c' => fixed c' = v :=
  post_bind (keep_layer _ h) fun _ h => post_bind (keep_tree _ h) fun _ h => post_bind (keep_type _ h) fun _ h => post_bind (keep_keypair _ h) fun _ h =>
    post_bind (keep_height _ h) fun _ h => keep_index _ h

/-- Steps that do not matter, then a result. -/
macro "posts" : tactic => `(tactic| repeat' (first
  | exact post_ok (by assumption)
  | refine post_bind post_any fun _ _ => ?_
  | split))

theorem keep_prf (o : Bytes) (h : fixed c = v) : Post (call_prf E mem o c) fun r => fixed r.2 = v := by
  unfold call_prf
  refine post_calling ?_
  split <;> (first | unfold ts_shake256_prf | unfold ts_sha2_prf) <;> posts

theorem keep_f (o i : Bytes) (h : fixed c = v) : Post (call_f E mem o i c) fun r => fixed r.2 = v := by
  unfold call_f
  refine post_calling ?_
  split <;> (first | unfold ts_shake256_f_simple | unfold ts_sha2_f_simple) <;> posts

/-! ## Costs -/

theorem cost_with {x : L α} {P : α → Nat → Prop} {Q : α → Prop} (h : Cost f x P) (h' : Post x Q) : Cost f x fun a k => P a k ∧ Q a :=
  fun a e => ⟨h a e, h' a e⟩

theorem cost_prf (o : Bytes) (h : fixed c = v) : Cost f (call_prf E mem o c) fun r k => k = one .prf f ∧ fixed r.2 = v :=
  cost_with (by unfold call_prf; exact cost_calling (by free)) (keep_prf o h)

theorem cost_f (o i : Bytes) (h : fixed c = v) : Cost f (call_f E mem o i c) fun r k => k = one .f f ∧ fixed r.2 = v :=
  cost_with (by unfold call_f; exact cost_calling (by free)) (keep_f o i h)

theorem cost_init_t (t : TIter) : Cost f (call_init_t E mem t c) fun _ k => k = one .init_t f := by
  unfold call_init_t; exact cost_calling (by free)

theorem cost_next_t (t : TIter) (i : Bytes) : Cost f (call_next_t E t i c) fun _ k => k = one .next_t f := by
  unfold call_next_t; exact cost_calling (by free)

theorem cost_final_t (o : Bytes) (t : TIter) : Cost f (call_final_t E o t c) fun _ k => k = one .final_t f := by
  unfold call_final_t; exact cost_calling (by free)

theorem cost_fors_prf (o : Bytes) (i : Nat) (h : fixed c = v) : Cost f (fors_prf E mem o i c) fun r k => k = one .prf f ∧ fixed r.2 = v := by
  unfold fors_prf
  refine cost_frame ?_
  exact cost_bind0 (by free) fun c1 e => cost_prf o (keep_fors_prf _ h _ e)

theorem cost_wots_prf (o : Bytes) (i d : Nat) (h : fixed c = v) : Cost f (wots_prf E mem o i d c) fun r k => k = one .prf f ∧ fixed r.2 = v := by
  unfold wots_prf
  refine cost_frame ?_
  exact cost_bind0 (by free) fun c1 e => cost_prf o (keep_wots_prf _ _ h _ e)

theorem forsLeaf_eq : forsLeaf f = one .prf f + one .f f := by cases f <;> rfl
theorem node_eq : node f = one .init_t f + (one .next_t f + (one .next_t f + one .final_t f)) := by cases f <;> rfl
theorem wotsLeaf_eq (P : Spec.Params) : wotsLeaf P f = one .init_t f + (P.len * (one .prf f + (15 * one .f f + one .next_t f)) + one .final_t f) := by
  cases f <;> simp [wotsLeaf, one] <;> omega

/-- A FORS leaf. -/
theorem cost_fors_leaf (o : Bytes) (i : Nat) (h : fixed c = v) : Cost f (fors_leaf E mem o i c) fun r k => k = forsLeaf f ∧ fixed r.2 = v := by
  unfold fors_leaf
  refine cost_frame ?_
  refine cost_bind0 (by free) fun c1 e => cost_bind (cost_prf o (keep_fors_prf _ h _ e)) ?_
  rintro ⟨b, c2⟩ k - ⟨hk, h2⟩
  refine cost_bind0 (by free) fun c3 e3 => cost_mono (cost_f b b (keep_type _ h2 _ e3)) ?_
  rintro ⟨b', c4⟩ k' - ⟨hk', h4⟩
  exact ⟨by rw [hk, hk', forsLeaf_eq], h4⟩

/-- A WOTS+ chain from the start to `cnt`. -/
theorem cost_chain (cnt : Nat) {leaf : Ctx → Nat} (d : Nat) (b : Bytes) (h : fixed c = v) :
    Cost f (loop (fun i (s : Bytes × Ctx) => do
      let (buffer, ctx) := s
      let ctx ← ts_set_wots_f_adr E ctx (leaf ctx) d i
      call_f E mem buffer buffer ctx) cnt 0 (b, c)) fun r k => k = cnt * one .f f ∧ fixed r.2 = v := by
  refine cost_mono (cost_loop (I := fun _ s => fixed s.2 = v) (c := fun _ => one .f f) ?_ h) fun a k _ hk => ⟨by rw [hk.1, sumFrom_const], hk.2⟩
  rintro i ⟨b, c⟩ - - h
  exact cost_bind0 (by free) fun c1 e => cost_f b b (keep_wots_f _ _ _ h _ e)

/-- A leaf of the hypertree. -/
theorem cost_wots_leaf (P : Spec.Params) (hP : v.1.n = P.n) (o : Bytes) (i : Nat) (h : fixed c = v) :
    Cost f (ts_wots_leaf E mem o i c) fun r k => k = wotsLeaf P f ∧ fixed r.2 = v := by
  unfold ts_wots_leaf
  refine cost_frame ?_
  refine cost_bind0 (by free) fun c1 e1 => ?_
  have h1 := keep_wots_header _ h _ e1
  refine cost_bind (cost_init_t _) fun t k _ hk => ?_
  dsimp only
  have hn : 2 * c1.ps.n + 3 = P.len := by
    have : c1.ps = v.1 := by rw [← h1]; rfl
    rw [this, hP]; rfl
  rw [hn]
  refine cost_bind (cost_loop (I := fun _ s => fixed s = v) (c := fun _ => one .prf f + (15 * one .f f + one .next_t f)) ?_ h1) fun c2 k2 _ hk2 => ?_
  · intro d c _ _ h
    refine cost_bind0 (by free) fun b _ => cost_bind (cost_wots_prf b i d h) ?_
    rintro ⟨b, c3⟩ k - ⟨hk, h3⟩
    refine cost_bind (cost_chain 15 (leaf := fun _ => i) d b h3) ?_
    rintro ⟨b, c4⟩ k' - ⟨hk', h4⟩
    refine cost_bind0 (by free) fun x _ => cost_bind (cost_next_t _ _) fun t k3 _ hk3 => ?_
    exact cost_ok ⟨by rw [hk, hk', hk3]; omega, h4⟩
  · refine cost_bind (cost_final_t _ _) ?_
    rintro ⟨b, t⟩ k3 - hk3
    refine cost_ok ⟨?_, hk2.2⟩
    rw [hk, hk2.1, hk3, sumFrom_const, wotsLeaf_eq]; omega

/-- An inner node. -/
theorem cost_combine (o a b : Bytes) (h : fixed c = v) : Cost f (combine E mem o a b c) fun r k => k = node f ∧ fixed r.2 = v := by
  unfold combine
  refine cost_bind (cost_init_t _) fun t k _ hk => cost_bind (cost_next_t _ _) fun t k2 _ hk2 => cost_bind (cost_next_t _ _) fun t k3 _ hk3 => ?_
  refine cost_bind (cost_final_t _ _) ?_
  rintro ⟨b, t⟩ k4 - hk4
  exact cost_ok ⟨by rw [hk, hk2, hk3, hk4, node_eq]; rfl, h⟩

/-- The number of ones at the end of the binary representation. -/
def ones (i : Nat) : Nat := if i % 2 = 1 then 1 + ones (i / 2) else 0
termination_by i
decreasing_by omega

theorem ones_even (i : Nat) : ones (2 * i) = 0 := by unfold ones; rw [if_neg (by omega)]
theorem ones_odd (i : Nat) : ones (2 * i + 1) = 1 + ones i := by
  conv => lhs; unfold ones
  rw [if_pos (by omega), show (2 * i + 1) / 2 = i by omega]

theorem sumFrom_pairs (g : Nat → Nat) (s n : Nat) : sumFrom g (2 * s) (2 * n) = sumFrom (fun i => g (2 * i) + g (2 * i + 1)) s n := by
  induction n generalizing s with
  | zero => rfl
  | succ n ih =>
    rw [show 2 * (n + 1) = 2 * n + 1 + 1 by omega, sumFrom, sumFrom, sumFrom, show 2 * s + 1 + 1 = 2 * (s + 1) by omega, ih]; omega

/-- Building a tree with `2 ^ h` leaves takes `2 ^ h - 1` inner nodes. -/
theorem sum_ones (h : Nat) : sumFrom ones 0 (2 ^ h) = 2 ^ h - 1 := by
  induction h with
  | zero => show ones 0 + 0 = 0; rw [show ones 0 = 0 from ones_even 0]
  | succ h ih =>
    have := sumFrom_pairs ones 0 (2 ^ h)
    rw [Nat.mul_zero] at this
    rw [show 2 ^ (h + 1) = 2 * 2 ^ h by rw [Nat.pow_succ]; omega, this]
    rw [show (fun i => ones (2 * i) + ones (2 * i + 1)) = fun i => 1 + ones i from funext fun i => by rw [ones_even, ones_odd]; omega]
    rw [sumFrom_add, sumFrom_const, ih]
    have := Nat.pow_pos (n := h) (show 0 < 2 by omega)
    omega

theorem cost_pathInner (st : Region) (ty leaf : Nat) : ∀ (fuel nod k : Nat) (c : Ctx), fixed c = v →
    Cost f (pathInner E mem st ty leaf fuel nod k c) fun r q => q = ones nod * node f ∧ fixed r.2 = v := by
  intro fuel
  induction fuel with
  | zero => intro nod k c h a e; cases e
  | succ fuel ih =>
    intro nod k c h
    unfold pathInner
    refine cost_branch (fun hn => ?_) fun hn => ?_
    · refine cost_bind0 (by free) fun c1 e1 => cost_bind0 (by free) fun a _ => cost_bind (cost_combine _ _ _ (keep_merkle _ _ _ h _ e1)) ?_
      rintro ⟨b, c2⟩ q - ⟨hq, h2⟩
      refine cost_mono (ih _ _ _ h2) fun r q' _ hq' => ⟨?_, hq'.2⟩
      have : ones nod = 1 + ones (nod >>> 1) := by
        conv => lhs; unfold ones
        rw [if_pos (by rw [Nat.and_one_is_mod] at hn; omega), show nod >>> 1 = nod / 2 from Nat.shiftRight_eq_div_pow nod 1]
      rw [hq, hq'.1, this, Nat.add_mul, Nat.one_mul]
    · refine cost_ok ⟨?_, h⟩
      unfold ones
      rw [if_neg (by rw [Nat.and_one_is_mod] at hn; omega), Nat.zero_mul]

/-- One level of an authentication path: a subtree and a node of the path. -/
theorem cost_path {gen : Bytes → Nat → Ctx → L (Bytes × Ctx)} {leaf : Nat} {st : Region} {ty : Nat}
    (hg : ∀ b i c w, fixed c = w → w.1 = v.1 → Cost f (gen b i c) fun r k => k = leaf ∧ fixed r.2 = w) (h : fixed c = v) (hl : v.2.1 < 255) :
    Cost f (ts_merkle_path E mem gen c ty st) fun c' k => k = 2 ^ v.2.1 * (leaf + node f) ∧ fixed c' = (v.1, v.2.1 + 1, v.2.2) := by
  have hml : c.merkle_level = v.2.1 := by rw [← h]; rfl
  have hp : c.ps = v.1 := by rw [← h]; rfl
  have hft : c.fors_tree = v.2.2 := by rw [← h]; rfl
  unfold ts_merkle_path
  refine cost_frame ?_
  rw [hml]
  refine cost_bind0 (by free) fun size e => ?_
  have hs : size = 2 ^ v.2.1 := by
    rw [res_shlInt] at e
    unfold Model.shlInt at e
    split at e
    · cases e; rw [Nat.one_mul]
    · cases e
  subst hs
  dsimp only
  have h0 : fixed { c with merkle_level := (v.2.1 + 1) % 256 } = (v.1, v.2.1 + 1, v.2.2) := by
    show (c.ps, (v.2.1 + 1) % 256, c.fors_tree) = _
    rw [hp, hft, Nat.mod_eq_of_lt (by omega)]
  refine cost_bind (cost_loop (I := fun _ s => fixed s = (v.1, v.2.1 + 1, v.2.2)) (c := fun i => leaf + ones i * node f) ?_ h0) fun c2 k2 _ hk2 => ?_
  · intro i c _ _ hc
    refine cost_bind0 (by free) fun lf _ => cost_bind (hg _ _ _ _ hc rfl) ?_
    rintro ⟨b, c3⟩ k - ⟨hk, h3⟩
    refine cost_bind (cost_pathInner _ _ _ _ _ _ _ h3) ?_
    rintro ⟨q, c4⟩ k' - ⟨hk', h4⟩
    refine cost_branch (fun _ => ?_) fun _ => cost_ok ⟨by rw [hk, hk']; rfl, h4⟩
    refine cost_bind0 (by free) fun x _ => ?_
    refine cost_mono (cost_with (cost_free (free_regPut _ _ _ _)) (Q := fun c' => fixed c' = (v.1, v.2.1 + 1, v.2.2)) ?_) fun c5 k5 _ h5 => ⟨by rw [hk, hk', h5.1]; rfl, h5.2⟩
    intro c5 e5
    rw [regPut_res] at e5
    unfold Model.Region.put at e5
    split at e5
    · obtain ⟨y, -, e6⟩ := C_bind_inv e5
      cases e6
      exact h4
    · cases e5
  · obtain ⟨hk2, h2⟩ := hk2
    rw [sumFrom_add, sumFrom_const, sumFrom_mul, sum_ones] at hk2
    have hpos := Nat.pow_pos (n := v.2.1) (show 0 < 2 by omega)
    have tot : k2 + node f = 2 ^ v.2.1 * (leaf + node f) := by
      rw [hk2, Nat.mul_add]
      have : 2 ^ v.2.1 * node f = (2 ^ v.2.1 - 1) * node f + node f := by
        conv => lhs; rw [show 2 ^ v.2.1 = 2 ^ v.2.1 - 1 + 1 by omega, Nat.succ_mul]
      omega
    refine cost_bind0 (by free) fun c3 e3 => ?_
    have h3 := keep_merkle (v := (v.1, v.2.1 + 1, v.2.2)) _ _ _ (by exact h2) _ e3
    refine cost_bind (P := fun r k => k = node f ∧ fixed r.2 = (v.1, v.2.1 + 1, v.2.2)) (cost_branch (fun _ => cost_combine _ _ _ h3) fun _ => cost_combine _ _ _ h3) ?_
    rintro ⟨a, c4⟩ k - ⟨hk, h4⟩
    exact cost_ok ⟨by rw [hk]; exact tot, h4⟩

end Leak
