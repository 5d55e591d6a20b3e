import Verif.Proof.WorkBasic
import Verif.Spec.Work
/-!
# The work for leaves, nodes and paths, given what the hash functions cost
-/
namespace Leak.Work
open Model Spec Spec.Work
open Spec.Cost (sum)

/-- What the hash functions of `ps` cost. `pos t i` says that the iterator `t` has taken in `i` inputs. -/
structure Charges (M : Meter) (E : Env) (mem : Mem) (ps : ParamSet) (p : Price) (pos : TIter → Nat → Prop) : Prop where
  prf : ∀ o c, c.ps = ps → Cost M (call_prf E mem o c) fun _ k => k = p.prf
  f : ∀ o i c, c.ps = ps → Cost M (call_f E mem o i c) fun _ k => k = p.f
  init : ∀ t c, c.ps = ps → Cost M (call_init_t E mem t c) fun t k => k = p.init ∧ pos t 0
  next : ∀ t b i c, c.ps = ps → pos t i → Cost M (call_next_t E t b c) fun t k => k = p.next i ∧ pos t (i + 1)
  final : ∀ o t i c, c.ps = ps → pos t i → Cost M (call_final_t E o t c) fun _ k => k = p.final i

/-- The fields that decide how often the loops run, and the iterator if `b` is set. -/
def fixed (b : Bool) (c : Ctx) : ParamSet × Nat × Nat × Option TIter := (c.ps, c.merkle_level, c.fors_tree, if b then some c.big_iter else none)

variable {E : Env} {mem : Mem} {b : Bool} {v : ParamSet × Nat × Nat × Option TIter} {c : Ctx}

theorem keep_layer (l : Nat) (h : fixed b c = v) : Post (set_layer_adr E l c) fun c' => fixed b c' = v := by unfold set_layer_adr; adrword
theorem keep_tree (l : Nat) (h : fixed b c = v) : Post (set_tree_adr E l c) fun c' => fixed b c' = v := by unfold set_tree_adr; adrword
theorem keep_type (l : Nat) (h : fixed b c = v) : Post (set_type_adr E l c) fun c' => fixed b c' = v := by unfold set_type_adr; adrword
theorem keep_keypair (l : Nat) (h : fixed b c = v) : Post (set_keypair_adr E l c) fun c' => fixed b c' = v := by unfold set_keypair_adr; adrword
theorem keep_height (l : Nat) (h : fixed b c = v) : Post (set_tree_height_adr E l c) fun c' => fixed b c' = v := by unfold set_tree_height_adr; adrword
theorem keep_index (l : Nat) (h : fixed b c = v) : Post (set_tree_index_adr E l c) fun c' => fixed b c' = v := by unfold set_tree_index_adr; adrword

theorem keep_fors_prf (l : Nat) (h : fixed b c = v) : Post (set_fors_prf_adr E c l) fun c' => fixed b c' = v :=
  post_bind (keep_layer _ h) fun _ h => post_bind (keep_tree _ h) fun _ h => post_bind (keep_type _ h) fun _ h => post_bind (keep_keypair _ h) fun _ h =>
    post_bind (keep_height _ h) fun _ h => post_bind post_any fun _ _ => post_bind post_any fun _ _ => keep_index _ h
theorem keep_fors_leaf (l : Nat) (h : fixed b c = v) : Post (ts_set_fors_leaf_adr E c l) fun c' => fixed b c' = v :=
  post_bind (keep_layer _ h) fun _ h => post_bind (keep_tree _ h) fun _ h => post_bind (keep_type _ h) fun _ h => post_bind (keep_keypair _ h) fun _ h =>
    post_bind (keep_height _ h) fun _ h => post_bind post_any fun _ _ => post_bind post_any fun _ _ => keep_index _ h
theorem keep_merkle (i l t : Nat) (h : fixed b c = v) : Post (ts_set_merkle_adr E c i l t) fun c' => fixed b c' = v :=
  post_bind (keep_layer _ h) fun _ h => post_bind (keep_tree _ h) fun _ h => post_bind (keep_type _ h) fun _ h => post_bind (keep_keypair _ h) fun _ h =>
    post_bind (keep_height _ h) fun _ h => post_bind post_any fun _ _ => post_bind post_any fun _ _ => keep_index _ h
theorem keep_wots_prf (i l : Nat) (h : fixed b c = v) : Post (set_wots_prf_adr E c i l) fun c' => fixed b c' = v :=
  post_bind (keep_layer _ h) fun _ h => post_bind (keep_tree _ h) fun _ h => post_bind (keep_type _ h) fun _ h => post_bind (keep_keypair _ h) fun _ h =>
    post_bind (keep_height _ h) fun _ h => keep_index _ h
theorem keep_wots_f (i l k : Nat) (h : fixed b c = v) : Post (ts_set_wots_f_adr E c i l k) fun c' => fixed b c' = v :=
  post_bind (keep_layer _ h) fun _ h => post_bind (keep_tree _ h) fun _ h => post_bind (keep_type _ h) fun _ h => post_bind (keep_keypair _ h) fun _ h =>
    post_bind (keep_height _ h) fun _ h => keep_index _ h
theorem keep_wots_header (l : Nat) (h : fixed b c = v) : Post (ts_set_wots_header_adr E l c) fun c' => fixed b c' = v :=
  post_bind (keep_layer _ h) fun _ h => post_bind (keep_tree _ h) fun _ h => post_bind (keep_type _ h) fun _ h => post_bind (keep_keypair _ h) fun _ h =>
    post_bind (keep_height _ h) fun _ h => keep_index _ h

theorem keep_prf (o : Bytes) (h : fixed b c = v) : Post (call_prf E mem o c) fun r => fixed b r.2 = v := by
  unfold call_prf
  refine post_calling ?_
  split <;> (first | unfold ts_shake256_prf | unfold ts_sha2_prf) <;> posts

theorem keep_f (o i : Bytes) (h : fixed b c = v) : Post (call_f E mem o i c) fun r => fixed b r.2 = v := by
  unfold call_f
  refine post_calling ?_
  split <;> (first | unfold ts_shake256_f_simple | unfold ts_sha2_f_simple) <;> posts


/-! ## Costs -/

variable {M : Meter} {p : Price} {pos : TIter → Nat → Prop}

theorem fixed_ps (h : fixed b c = v) : c.ps = v.1 := by rw [← h]; rfl

/-- Without the iterator. -/
def drop (v : ParamSet × Nat × Nat × Option TIter) : ParamSet × Nat × Nat × Option TIter := (v.1, v.2.1, v.2.2.1, none)

theorem fixed_false (h : fixed b c = v) : fixed false c = drop v := by rw [← h]; rfl

theorem cost_prf (H : Charges M E mem v.1 p pos) (o : Bytes) (h : fixed b c = v) : Cost M (call_prf E mem o c) fun r k => k = p.prf ∧ fixed b r.2 = v :=
  cost_with (H.prf o c (fixed_ps h)) (keep_prf o h)

theorem cost_f (H : Charges M E mem v.1 p pos) (o i : Bytes) (h : fixed b c = v) : Cost M (call_f E mem o i c) fun r k => k = p.f ∧ fixed b r.2 = v :=
  cost_with (H.f o i c (fixed_ps h)) (keep_f o i h)

theorem cost_fors_prf (H : Charges M E mem v.1 p pos) (o : Bytes) (i : Nat) (h : fixed b c = v) : Cost M (fors_prf E mem o i c) fun r k => k = p.prf ∧ fixed b r.2 = v := by
  unfold fors_prf
  refine cost_frame ?_
  exact cost_bind0 (by idle) fun c1 e => cost_prf H o (keep_fors_prf _ h _ e)

theorem cost_wots_prf (H : Charges M E mem v.1 p pos) (o : Bytes) (i d : Nat) (h : fixed b c = v) : Cost M (wots_prf E mem o i d c) fun r k => k = p.prf ∧ fixed b r.2 = v := by
  unfold wots_prf
  refine cost_frame ?_
  exact cost_bind0 (by idle) fun c1 e => cost_prf H o (keep_wots_prf _ _ h _ e)

/-- A FORS leaf. -/
theorem cost_fors_leaf (H : Charges M E mem v.1 p pos) (o : Bytes) (i : Nat) (h : fixed b c = v) : Cost M (fors_leaf E mem o i c) fun r k => k = forsLeaf p ∧ fixed b r.2 = v := by
  unfold fors_leaf
  refine cost_frame ?_
  refine cost_bind0 (by idle) fun c1 e => cost_bind (cost_prf H o (keep_fors_prf _ h _ e)) ?_
  rintro ⟨b, c2⟩ k - ⟨hk, h2⟩
  refine cost_bind0 (by idle) fun c3 e3 => cost_mono (cost_f H b b (keep_type _ h2 _ e3)) ?_
  rintro ⟨b', c4⟩ k' - ⟨hk', h4⟩
  exact ⟨by rw [hk, hk']; rfl, h4⟩

/-- A WOTS+ chain of `cnt` steps. -/
theorem cost_chain (H : Charges M E mem v.1 p pos) (cnt start : Nat) {leaf : Ctx → Nat} (d : Nat) (o : Bytes) (h : fixed b c = v) :
    Cost M (loop (fun i (s : Bytes × Ctx) => do
      let (buffer, ctx) := s
      let ctx ← ts_set_wots_f_adr E ctx (leaf ctx) d i
      call_f E mem buffer buffer ctx) cnt start (o, c)) fun r k => k = cnt * p.f ∧ fixed b r.2 = v := by
  refine cost_mono (cost_loop (I := fun _ s => fixed b s.2 = v) (c := fun _ => p.f) ?_ h) fun a k _ hk => ⟨by rw [hk.1, sumFrom_const], hk.2⟩
  rintro i ⟨o, c⟩ - - h
  exact cost_bind0 (by idle) fun c1 e => cost_f H o o (keep_wots_f _ _ _ h _ e)

theorem fixed_true (c : Ctx) (h : fixed b c = v) : fixed true c = (v.1, v.2.1, v.2.2.1, some c.big_iter) := by rw [← h]; rfl

theorem of_true {t : TIter} (h : fixed true c = (v.1, v.2.1, v.2.2.1, some t)) : c.big_iter = t ∧ fixed false c = drop v := by
  have h1 : (some c.big_iter : Option TIter) = some t := congrArg (fun v => v.2.2.2) h
  refine ⟨Option.some.inj h1, ?_⟩
  have h2 : fixed false c = drop (v.1, v.2.1, v.2.2.1, some t) := fixed_false h
  rw [h2]; rfl

theorem sumFrom_sum (g : Nat → Nat) (n : Nat) : sumFrom g 0 n = sum g n := by
  have h : ∀ (n s : Nat), sumFrom g s (n + 1) = sumFrom g s n + g (s + n) := by
    intro n
    induction n with
    | zero => intro s; simp [sumFrom]
    | succ n ih => intro s; rw [sumFrom, ih, sumFrom, show s + 1 + n = s + (n + 1) by omega]; omega
  induction n with
  | zero => rfl
  | succ n ih => rw [h, ih, Nat.zero_add]; rfl

/-- A leaf of the hypertree. -/
theorem cost_wots_leaf (P : Spec.Params) (H : Charges M E mem v.1 p pos) (hP : v.1.n = P.n) (o : Bytes) (i : Nat) (h : fixed b c = v) :
    Cost M (ts_wots_leaf E mem o i c) fun r k => k = wotsLeaf p P ∧ fixed false r.2 = drop v := by
  unfold ts_wots_leaf
  refine cost_frame ?_
  refine cost_bind0 (by idle) fun c1 e1 => ?_
  have h1 := keep_wots_header _ h _ e1
  refine cost_bind (H.init _ _ (fixed_ps h1)) fun t k _ ⟨hk, ht⟩ => ?_
  dsimp only
  have hn : 2 * c1.ps.n + 3 = P.len := by
    rw [fixed_ps h1, hP]; rfl
  rw [hn]
  refine cost_bind (cost_loop (I := fun d s => fixed false s = drop v ∧ pos s.big_iter d) (c := fun d => (p.prf + 15 * p.f) + p.next d) ?_ ⟨(show fixed false c1 = drop v from fixed_false h1), ht⟩) fun c2 k2 _ hk2 => ?_
  · intro d c _ _ ⟨h, hp⟩
    have hT := fixed_true (v := drop v) c h
    refine cost_bind0 (by idle) fun b _ => cost_bind (cost_wots_prf (v := (v.1, v.2.1, v.2.2.1, some c.big_iter)) H b i d hT) ?_
    rintro ⟨b, c3⟩ k - ⟨hk, h3⟩
    refine cost_bind (cost_chain (v := (v.1, v.2.1, v.2.2.1, some c.big_iter)) H 15 0 (leaf := fun _ => i) d b h3) ?_
    rintro ⟨b, c4⟩ k' - ⟨hk', h4⟩
    obtain ⟨hb4, hf4⟩ := of_true (v := v) h4
    dsimp only at hb4 hf4
    refine cost_bind0 (by idle) fun x _ => cost_bind (H.next _ _ d _ (show c4.ps = v.1 from fixed_ps (v := (v.1, v.2.1, v.2.2.1, some c.big_iter)) h4) (by show pos c4.big_iter d; rw [hb4]; exact hp)) fun t k3 _ ⟨hk3, ht3⟩ => ?_
    exact cost_ok ⟨by rw [hk, hk', hk3]; omega, hf4, ht3⟩
  · obtain ⟨hk2, hf2, hp2⟩ := hk2
    rw [Nat.zero_add] at hp2
    refine cost_bind (H.final _ _ P.len _ (show c2.ps = v.1 from fixed_ps (v := drop v) hf2) hp2) ?_
    rintro ⟨b, t⟩ k3 - hk3
    refine cost_ok ⟨?_, hf2⟩
    rw [hk, hk2, hk3, sumFrom_add, sumFrom_const, sumFrom_sum]
    unfold wotsLeaf T
    omega

/-- An inner node. -/
theorem cost_combine (H : Charges M E mem v.1 p pos) (o a d : Bytes) (h : fixed b c = v) : Cost M (combine E mem o a d c) fun r k => k = T p 2 ∧ fixed b r.2 = v := by
  have hp := fixed_ps h
  unfold combine
  refine cost_bind (H.init _ _ hp) fun t k _ ⟨hk, ht⟩ => cost_bind (H.next _ _ 0 _ hp ht) fun t k2 _ ⟨hk2, ht2⟩ => cost_bind (H.next _ _ 1 _ hp ht2) fun t k3 _ ⟨hk3, ht3⟩ => ?_
  refine cost_bind (H.final _ _ 2 _ hp ht3) ?_
  rintro ⟨b, t⟩ k4 - hk4
  refine cost_ok ⟨?_, h⟩
  rw [hk, hk2, hk3, hk4]
  show _ = p.init + (0 + p.next 0 + p.next 1) + p.final 2
  omega

theorem cost_pathInner (H : Charges M E mem v.1 p pos) (st : Region) (ty leaf : Nat) : ∀ (fuel nod k : Nat) (c : Ctx), fixed b c = v →
    Cost M (pathInner E mem st ty leaf fuel nod k c) fun r q => q = ones nod * T p 2 ∧ fixed b r.2 = v := by
  intro fuel
  induction fuel with
  | zero => intro nod k c h a e; cases e
  | succ fuel ih =>
    intro nod k c h
    unfold pathInner
    refine cost_branch (fun hn => ?_) fun hn => ?_
    · refine cost_bind0 (by idle) fun c1 e1 => cost_bind0 (by idle) fun a _ => cost_bind (cost_combine H _ _ _ (keep_merkle _ _ _ h _ e1)) ?_
      rintro ⟨d, c2⟩ q - ⟨hq, h2⟩
      refine cost_mono (ih _ _ _ h2) fun r q' _ hq' => ⟨?_, hq'.2⟩
      have : ones nod = 1 + ones (nod >>> 1) := by
        conv => lhs; unfold ones
        rw [if_pos (by rw [Nat.and_one_is_mod] at hn; omega), show nod >>> 1 = nod / 2 from Nat.shiftRight_eq_div_pow nod 1]
      rw [hq, hq'.1, this, Nat.add_mul, Nat.one_mul]
    · refine cost_ok ⟨?_, h⟩
      unfold ones
      rw [if_neg (by rw [Nat.and_one_is_mod] at hn; omega), Nat.zero_mul]

/-- One level of an authentication path: a subtree and a node of the path. -/
theorem cost_path (H : Charges M E mem v.1 p pos) {gen : Bytes → Nat → Ctx → L (Bytes × Ctx)} {leaf : Nat} {st : Region} {ty : Nat}
    (hg : ∀ o i c w, fixed b c = w → w.1 = v.1 → Cost M (gen o i c) fun r k => k = leaf ∧ fixed b r.2 = w) (h : fixed b c = v) (hl : v.2.1 < 255) :
    Cost M (ts_merkle_path E mem gen c ty st) fun c' k => k = 2 ^ v.2.1 * (leaf + T p 2) ∧ fixed b c' = (v.1, v.2.1 + 1, v.2.2) := by
  have hml : c.merkle_level = v.2.1 := by rw [← h]; rfl
  have hp : c.ps = v.1 := by rw [← h]; rfl
  have hft : (c.fors_tree, if b then some c.big_iter else none) = v.2.2 := by rw [← h]; rfl
  unfold ts_merkle_path
  refine cost_frame ?_
  rw [hml]
  refine cost_bind0 (by idle) fun size e => ?_
  have hs : size = 2 ^ v.2.1 := by
    rw [res_shlInt] at e
    unfold Model.shlInt at e
    split at e
    · cases e; rw [Nat.one_mul]
    · cases e
  subst hs
  dsimp only
  have h0 : fixed b { c with merkle_level := (v.2.1 + 1) % 256 } = (v.1, v.2.1 + 1, v.2.2) := by
    show (c.ps, (v.2.1 + 1) % 256, c.fors_tree, if b then some c.big_iter else none) = _
    rw [hp, hft, Nat.mod_eq_of_lt (by omega)]
  refine cost_bind (cost_loop (I := fun _ s => fixed b s = (v.1, v.2.1 + 1, v.2.2)) (c := fun i => leaf + ones i * T p 2) ?_ h0) fun c2 k2 _ hk2 => ?_
  · intro i c _ _ hc
    refine cost_bind0 (by idle) fun lf _ => cost_bind (hg _ _ _ _ hc rfl) ?_
    rintro ⟨d, c3⟩ k - ⟨hk, h3⟩
    refine cost_bind (cost_pathInner (v := (v.1, v.2.1 + 1, v.2.2)) H _ _ _ _ _ _ _ h3) ?_
    rintro ⟨q, c4⟩ k' - ⟨hk', h4⟩
    refine cost_branch (fun _ => ?_) fun _ => cost_ok ⟨by rw [hk, hk']; rfl, h4⟩
    refine cost_bind0 (by idle) fun x _ => ?_
    refine cost_mono (cost_with (cost_free (idle_regPut _ _ _ _)) (Q := fun c' => fixed b c' = (v.1, v.2.1 + 1, v.2.2)) ?_) fun c5 k5 _ h5 => ⟨by rw [hk, hk', h5.1]; rfl, h5.2⟩
    intro c5 e5
    rw [regPut_res] at e5
    unfold Model.Region.put at e5
    split at e5
    · obtain ⟨y, -, e6⟩ := C_bind_inv e5
      cases e6
      exact h4
    · cases e5
  · obtain ⟨hk2, h2⟩ := hk2
    rw [sumFrom_add, sumFrom_const, sumFrom_mul, sum_ones] at hk2
    have hpos := Nat.pow_pos (n := v.2.1) (show 0 < 2 by omega)
    have tot : k2 + T p 2 = 2 ^ v.2.1 * (leaf + T p 2) := by
      rw [hk2, Nat.mul_add]
      have : 2 ^ v.2.1 * T p 2 = (2 ^ v.2.1 - 1) * T p 2 + T p 2 := by
        conv => lhs; rw [show 2 ^ v.2.1 = 2 ^ v.2.1 - 1 + 1 by omega, Nat.succ_mul]
      omega
    refine cost_bind0 (by idle) fun c3 e3 => ?_
    have h3 := keep_merkle (b := b) (v := (v.1, v.2.1 + 1, v.2.2)) _ _ _ (by exact h2) _ e3
    refine cost_bind (P := fun r k => k = T p 2 ∧ fixed b r.2 = (v.1, v.2.1 + 1, v.2.2)) (cost_branch (fun _ => cost_combine (v := (v.1, v.2.1 + 1, v.2.2)) H _ _ _ h3) fun _ => cost_combine (v := (v.1, v.2.1 + 1, v.2.2)) H _ _ _ h3) ?_
    rintro ⟨a, c4⟩ k - ⟨hk, h4⟩
    exact cost_ok ⟨by rw [hk]; exact tot, h4⟩

end Leak.Work
