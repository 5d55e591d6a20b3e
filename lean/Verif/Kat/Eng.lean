import Verif.Kat.Bytes
import Verif.Spec.Slh
/-!
# Hash functions on many lanes, and Merkle trees computed with them
-/
noncomputable section
namespace Kat
open Spec

/-- Hash functions on packed words: number of ones, layer, tree, type, the three address words, the words of the values. -/
structure Ops where
  /-- Bits of a lane. -/
  W : Nat
  /-- Bits of a word. -/
  B : Nat
  le : B ≤ W
  /-- Words of a value. -/
  nw : Nat
  F : Nat → Nat → Nat → Nat → Nat → Nat → Nat → List Nat → List Nat
  T : Nat → Nat → Nat → Nat → Nat → Nat → Nat → List Nat → List Nat
  prf : Nat → Nat → Nat → Nat → Nat → Nat → Nat → List Nat

/-- `X` are the words of `l` values per lane; the bytes of those values together are `v x`. -/
def Reps (O : Ops) (enc : List Nat → Bytes) (l : Nat) (L : List α) (X : List Nat) (v : α → Bytes) : Prop :=
  ∃ us : List (α → Nat), us.length = O.nw * l ∧ (∀ u ∈ us, ∀ x, u x < 2 ^ O.B) ∧ X = us.map (pk O.W L) ∧ ∀ x ∈ L, enc (us.map fun u => u x) = v x

/-- What the packed functions compute. -/
structure Sound (O : Ops) (enc : List Nat → Bytes) (hf : HashFns) (pkSeed skSeed : Bytes) : Prop where
  nil : enc [] = []
  app : ∀ a b, enc (a ++ b) = enc a ++ enc b
  F : ∀ {α : Type} (L : List α) (layer tree type : Nat) (w1 w2 w3 : α → Nat) (X : List Nat) (v : α → Bytes), layer < 256 → tree < 2 ^ 64 → type < 256 →
    (∀ x ∈ L, w1 x < 2 ^ 32) → (∀ x ∈ L, w2 x < 2 ^ 32) → (∀ x ∈ L, w3 x < 2 ^ 32) → Reps O enc 1 L X v →
    Reps O enc 1 L (O.F (pk O.W L fun _ => 1) layer tree type (pk O.W L w1) (pk O.W L w2) (pk O.W L w3) X) fun x => hf.F pkSeed ⟨layer, tree, type, w1 x, w2 x, w3 x⟩ (v x)
  T : ∀ {α : Type} (l : Nat) (L : List α) (layer tree type : Nat) (w1 w2 w3 : α → Nat) (X : List Nat) (v : α → Bytes), l ≤ 100 → layer < 256 → tree < 2 ^ 64 → type < 256 →
    (∀ x ∈ L, w1 x < 2 ^ 32) → (∀ x ∈ L, w2 x < 2 ^ 32) → (∀ x ∈ L, w3 x < 2 ^ 32) → Reps O enc l L X v →
    Reps O enc 1 L (O.T (pk O.W L fun _ => 1) layer tree type (pk O.W L w1) (pk O.W L w2) (pk O.W L w3) X) fun x => hf.T pkSeed ⟨layer, tree, type, w1 x, w2 x, w3 x⟩ (v x)
  prf : ∀ {α : Type} (L : List α) (layer tree type : Nat) (w1 w2 w3 : α → Nat), layer < 256 → tree < 2 ^ 64 → type < 256 →
    (∀ x ∈ L, w1 x < 2 ^ 32) → (∀ x ∈ L, w2 x < 2 ^ 32) → (∀ x ∈ L, w3 x < 2 ^ 32) →
    Reps O enc 1 L (O.prf (pk O.W L fun _ => 1) layer tree type (pk O.W L w1) (pk O.W L w2) (pk O.W L w3)) fun x => hf.PRF pkSeed skSeed ⟨layer, tree, type, w1 x, w2 x, w3 x⟩

variable {O : Ops} {enc : List Nat → Bytes}

theorem Ops.lt (O : Ops) {a : Nat} (h : a < 2 ^ O.B) : a < 2 ^ O.W := Nat.lt_of_lt_of_le h (Nat.pow_le_pow_right (by omega) O.le)

theorem Reps.congr {l : Nat} {L : List α} {X : List Nat} {v w : α → Bytes} (h : Reps O enc l L X v) (e : ∀ x ∈ L, v x = w x) : Reps O enc l L X w := by
  obtain ⟨us, a, b, c, d⟩ := h
  exact ⟨us, a, b, c, fun x hx => (d x hx).trans (e x hx)⟩

theorem Reps.none (h0 : enc [] = []) (L : List α) : Reps O enc 0 L [] fun _ => [] := ⟨[], rfl, fun _ h => by simp at h, rfl, fun _ _ => h0⟩

theorem Reps.append (ha : ∀ a b, enc (a ++ b) = enc a ++ enc b) {l₁ l₂ : Nat} {L : List α} {X Y : List Nat} {v w : α → Bytes}
    (h₁ : Reps O enc l₁ L X v) (h₂ : Reps O enc l₂ L Y w) : Reps O enc (l₁ + l₂) L (X ++ Y) fun x => v x ++ w x := by
  obtain ⟨us, a, b, rfl, d⟩ := h₁
  obtain ⟨us', a', b', rfl, d'⟩ := h₂
  refine ⟨us ++ us', by rw [List.length_append, a, a', Nat.mul_add], fun u hu => ?_, by rw [List.map_append], fun x hx => ?_⟩
  · rcases List.mem_append.1 hu with h | h
    · exact b u h
    · exact b' u h
  · rw [List.map_append, ha, d x hx, d' x hx]

/-- Several values per lane one after the other. -/
theorem Reps.flatMap (h0 : enc [] = []) (ha : ∀ a b, enc (a ++ b) = enc a ++ enc b) {L : List α} (cs : List γ) (X : γ → List Nat) (v : γ → α → Bytes)
    (h : ∀ c ∈ cs, Reps O enc 1 L (X c) (v c)) : Reps O enc cs.length L (cs.flatMap X) fun x => (cs.map fun c => v c x).flatten := by
  induction cs with
  | nil => exact Reps.none h0 L
  | cons c cs ih =>
    have := Reps.append ha (h c (by simp)) (ih fun d hd => h d (by simp [hd]))
    rw [Nat.add_comm] at this
    exact this

theorem Reps.map {l : Nat} {L : List β} {h : β → α} {X : List Nat} {v : α → Bytes} (r : Reps O enc l (L.map h) X v) : Reps O enc l L X fun x => v (h x) := by
  obtain ⟨us, a, b, rfl, d⟩ := r
  refine ⟨us.map fun u x => u (h x), by rw [List.length_map, a], fun u hu x => ?_, ?_, fun x hx => ?_⟩
  · obtain ⟨u', hu', rfl⟩ := List.mem_map.1 hu; exact b u' hu' _
  · rw [List.map_map]; exact List.map_congr_left fun u _ => pk_map _ _ _ _
  · rw [List.map_map]; exact d _ (List.mem_map_of_mem hx)

theorem Reps.left {l : Nat} {L₁ L₂ : List α} {X : List Nat} {v : α → Bytes} (r : Reps O enc l (L₁ ++ L₂) X v) :
    Reps O enc l L₁ (X.map fun w => Nat.mod w (Nat.pow 2 (Nat.mul O.W L₁.length))) v := by
  obtain ⟨us, a, b, rfl, d⟩ := r
  refine ⟨us, a, b, ?_, fun x hx => d x (List.mem_append_left _ hx)⟩
  rw [List.map_map]
  exact List.map_congr_left fun u hu => pk_left fun x _ => O.lt (b u hu x)

theorem Reps.right {l : Nat} {L₁ L₂ : List α} {X : List Nat} {v : α → Bytes} (r : Reps O enc l (L₁ ++ L₂) X v) :
    Reps O enc l L₂ (X.map fun w => Nat.shiftRight w (Nat.mul O.W L₁.length)) v := by
  obtain ⟨us, a, b, rfl, d⟩ := r
  refine ⟨us, a, b, ?_, fun x hx => d x (List.mem_append_right _ hx)⟩
  rw [List.map_map]
  exact List.map_congr_left fun u hu => pk_right fun x _ => O.lt (b u hu x)

/-- The words of lane `i`. -/
def lane (W i : Nat) (X : List Nat) : List Nat := X.map fun w => Nat.mod (Nat.shiftRight w (Nat.mul W i)) (Nat.pow 2 W)

theorem Reps.lane {l : Nat} {L : List α} {X : List Nat} {v : α → Bytes} (r : Reps O enc l L X v) (i : Nat) (x : α) (h : L[i]? = some x) :
    enc (lane O.W i X) = v x := by
  obtain ⟨us, a, b, rfl, d⟩ := r
  rw [← d x (List.mem_of_getElem? h)]
  congr 1
  unfold Kat.lane
  rw [List.map_map]
  exact List.map_congr_left fun u hu => pk_lane (fun y _ => O.lt (b u hu y)) i x h

/-! ## Trees

The nodes of one height are kept in an order in which all left children come before all right children. -/

/-- The nodes `k` levels below the nodes `r`. -/
def idxs (r : List Nat) : Nat → List Nat
  | 0 => r
  | k + 1 => (idxs r k).map (fun i => 2 * i) ++ (idxs r k).map (fun i => 2 * i + 1)

theorem length_idxs (r : List Nat) (k : Nat) : (idxs r k).length = r.length * 2 ^ k := by
  induction k with
  | zero => simp [idxs]
  | succ k ih => rw [idxs, List.length_append, List.length_map, List.length_map, ih, Nat.pow_succ, ← Nat.mul_assoc]; omega

/-- Position of node `i` among the nodes `k` levels below `c` nodes the first of which is `r0`. -/
def pos (r0 c : Nat) : Nat → Nat → Nat
  | 0, i => i - r0
  | k + 1, i => pos r0 c k (i / 2) + i % 2 * (c * 2 ^ k)

theorem idxs_pos (r0 c k i : Nat) (h1 : r0 * 2 ^ k ≤ i) (h2 : i < (r0 + c) * 2 ^ k) : (idxs (List.range' r0 c) k)[pos r0 c k i]? = some i := by
  induction k generalizing i with
  | zero =>
    simp only [Nat.pow_zero, Nat.mul_one] at h1 h2
    rw [idxs, pos, List.getElem?_range' (by omega)]
    congr 1; omega
  | succ k ih =>
    rw [Nat.pow_succ, ← Nat.mul_assoc] at h1 h2
    have h := ih (i / 2) (by omega) (by omega)
    have hl := length_idxs (List.range' r0 c) k
    rw [List.length_range'] at hl
    obtain ⟨hlt, -⟩ := List.getElem?_eq_some_iff.1 h
    rw [idxs, pos]
    rcases Nat.mod_two_eq_zero_or_one i with e | e
    · rw [e, Nat.zero_mul, Nat.add_zero, List.getElem?_append_left (by rw [List.length_map]; exact hlt), List.getElem?_map, h]
      simp; omega
    · rw [e, Nat.one_mul, List.getElem?_append_right (by rw [List.length_map, hl]; omega), List.length_map, hl, Nat.add_sub_cancel, List.getElem?_map, h]
      simp; omega

theorem mem_idxs (r0 c k i : Nat) (h : i ∈ idxs (List.range' r0 c) k) : i < (r0 + c) * 2 ^ k := by
  induction k generalizing i with
  | zero => simp [idxs] at h; omega
  | succ k ih =>
    rw [idxs, List.mem_append, List.mem_map, List.mem_map] at h
    rw [Nat.pow_succ, ← Nat.mul_assoc]
    rcases h with ⟨j, hj, rfl⟩ | ⟨j, hj, rfl⟩ <;> have := ih j hj <;> omega

/-- Number of nodes, ones and node numbers for each height, from the bottom to the top, without the bottom one. -/
def tabs (W : Nat) : Nat → (m I X : Nat) → List (Nat × Nat × Nat) → (Nat → Nat → Nat → List (Nat × Nat × Nat) → β) → β
  | 0, m, I, X, acc, k => k m I X acc
  | h + 1, m, I, X, acc, k =>
    force (Nat.add I (Nat.shiftLeft I (Nat.mul W m))) fun I' =>
    force (Nat.add (Nat.mul 2 X) (Nat.shiftLeft (Nat.add (Nat.mul 2 X) I) (Nat.mul W m))) fun X' =>
    tabs W h (Nat.mul 2 m) I' X' ((m, I, X) :: acc) k

/-- The table for the levels `k-1, …, 0` below `r`. -/
def tabF (W : Nat) (r : List Nat) : Nat → List (Nat × Nat × Nat)
  | 0 => []
  | k + 1 => ((idxs r k).length, pk W (idxs r k) (fun _ => 1), pk W (idxs r k) fun i => i) :: tabF W r k

theorem tabs_eq (W : Nat) (r : List Nat) (h k : Nat) (K : Nat → Nat → Nat → List (Nat × Nat × Nat) → β) :
    tabs W h (idxs r k).length (pk W (idxs r k) fun _ => 1) (pk W (idxs r k) fun i => i) (tabF W r k) K =
      K (idxs r (k + h)).length (pk W (idxs r (k + h)) fun _ => 1) (pk W (idxs r (k + h)) fun i => i) (tabF W r (k + h)) := by
  induction h generalizing k with
  | zero => rfl
  | succ h ih =>
    rw [tabs, force_eq, force_eq]
    have e1 : Nat.add (pk W (idxs r k) fun _ => 1) (Nat.shiftLeft (pk W (idxs r k) fun _ => 1) (Nat.mul W (idxs r k).length)) = pk W (idxs r (k + 1)) fun _ => 1 := by
      show _ + _ <<< (W * _) = _
      rw [idxs, pk_append, pk_map, pk_map, List.length_map, Nat.shiftLeft_eq, Nat.mul_comm (2 ^ _)]
    have e2 : Nat.add (Nat.mul 2 (pk W (idxs r k) fun i => i)) (Nat.shiftLeft (Nat.add (Nat.mul 2 (pk W (idxs r k) fun i => i)) (pk W (idxs r k) fun _ => 1)) (Nat.mul W (idxs r k).length)) =
        pk W (idxs r (k + 1)) fun i => i := by
      show 2 * _ + (2 * _ + _) <<< (W * _) = _
      rw [idxs, pk_append, pk_map, pk_map, List.length_map, Nat.shiftLeft_eq, Nat.mul_comm _ (2 ^ _), mul_pk, pk_add]
    have e3 : Nat.mul 2 (idxs r k).length = (idxs r (k + 1)).length := by
      show 2 * _ = _
      rw [idxs, List.length_append, List.length_map, List.length_map]; omega
    rw [e1, e2, e3]
    have := ih (k + 1)
    rw [Nat.add_assoc, Nat.add_comm 1 h] at this
    exact this

/-- All heights of trees; `z` is the height of `vs`. -/
def levels (O : Ops) (layer tree type a1 : Nat) : List (Nat × Nat × Nat) → Nat → List Nat → List (List Nat)
  | [], _, vs => [vs]
  | (m, I, X) :: ts, z, vs =>
    vs :: forceL (O.T I layer tree type (Nat.mul a1 I) (Nat.mul (Nat.succ z) I) X
      ((vs.map fun w => Nat.mod w (Nat.pow 2 (Nat.mul O.W m))) ++ vs.map fun w => Nat.shiftRight w (Nat.mul O.W m))) fun vs' =>
    levels O layer tree type a1 ts (Nat.succ z) vs'

variable {hf : HashFns} {pkSeed skSeed : Bytes}

theorem const_pk' (c : Nat) (L : List α) : Nat.mul c (pk W L fun _ => 1) = pk W L fun _ => c := by
  show c * _ = _
  rw [mul_pk]; simp only [Nat.mul_one]

/-- Height `j` of the trees. -/
theorem levels_ok (S : Sound O enc hf pkSeed skSeed) (layer tree type a1 : Nat) (h0 : layer < 256) (ht : tree < 2 ^ 64) (hy : type < 256) (h1 : a1 < 2 ^ 32)
    (r0 c : Nat) (N : Nat → Nat → Bytes) (hN : ∀ z i, N (z + 1) i = hf.T pkSeed ⟨layer, tree, type, a1, z + 1, i⟩ (N z (2 * i) ++ N z (2 * i + 1)))
    (k z : Nat) (hz : z + k < 2 ^ 32) (hc : (r0 + c) * 2 ^ k ≤ 2 ^ 32) (vs : List Nat) (hv : Reps O enc 1 (idxs (List.range' r0 c) k) vs (N z))
    (j : Nat) (hj : j ≤ k) :
    Reps O enc 1 (idxs (List.range' r0 c) (k - j)) ((levels O layer tree type a1 (tabF O.W (List.range' r0 c) k) z vs).getD j []) (N (z + j)) := by
  induction k generalizing z vs j with
  | zero =>
    have : j = 0 := by omega
    subst this
    exact hv
  | succ k ih =>
    rw [tabF, levels, forceL_eq]
    cases j with
    | zero => exact hv
    | succ j =>
      rw [List.getD_cons_succ, const_pk', const_pk', Nat.add_sub_add_right]
      have hc' : (r0 + c) * 2 ^ k ≤ 2 ^ 32 := Nat.le_trans (Nat.mul_le_mul_left _ (Nat.pow_le_pow_right (by omega) (by omega))) hc
      have hl := Reps.map (Reps.left hv)
      have hr := Reps.map (Reps.right hv)
      rw [List.length_map] at hl hr
      have := S.T 2 (idxs (List.range' r0 c) k) layer tree type (fun _ => a1) (fun _ => Nat.succ z) (fun i => i) _ _ (by omega) h0 ht hy (fun _ _ => h1)
        (fun _ _ => by omega) (fun i hi => Nat.lt_of_lt_of_le (mem_idxs _ _ _ _ hi) hc') (Reps.append S.app hl hr)
      have e := ih (z + 1) (by omega) hc' _ (this.congr fun i _ => (hN z i).symm) j (by omega)
      rw [show z + 1 + j = z + (j + 1) by omega] at e
      exact e

end Kat
