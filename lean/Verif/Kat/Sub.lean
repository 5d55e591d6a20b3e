import Verif.Kat.Sign
/-!
# Layers of the hypertree in several parts

The trees of the "s" sets have up to 512 leaves: their subtrees are computed one by one.
-/
noncomputable section
namespace Kat
open Spec Spec.Slh

/-- The chains and all heights of the subtree whose root is node `r` of height `z`. -/
def subP {β : Type} (O : Ops) (len z r layer tree : Nat) (k : Nat → List (List Nat) → List (List Nat) → β) : β :=
  tabs O.W z 1 1 r [] fun m I X ts =>
  prodP O.W m I X len 0 0 0 fun aI aX aC =>
  forceL (O.prf aI layer tree 5 aX aC 0) fun v =>
  forceLL (chainsP O aI layer tree aX aC 15 0 v) fun Xs =>
  forceL (O.T I layer tree 1 X 0 0 ((List.range len).flatMap fun c => slice O.W m c (Xs.getD 15 []))) fun lf =>
  forceLL (levels O layer tree 2 0 ts 0 lf) fun lv => k m Xs lv

/-- The root of the subtree. -/
def subRoot (O : Ops) (len z r layer tree : Nat) : List Nat := subP O len z r layer tree fun _ _ lv => lane O.W 0 (lv.getD z [])

/-- The WOTS+ signature and the authentication path of leaf `idx` of the subtree, and its root. -/
def subSig (O : Ops) (len z r layer tree idx : Nat) (ds : List Nat) : List (List Nat) :=
  subP O len z r layer tree fun m Xs lv =>
  ((List.range len).map fun c => lane O.W (pos r 1 z idx) (slice O.W m c (Xs.getD (ds.getD c 0) []))) ++
  ((List.range z).map fun j => lane O.W (pos r 1 (z - j) ((idx / 2 ^ j) ^^^ 1)) (lv.getD j [])) ++
  [lane O.W 0 (lv.getD z [])]

variable {O : Ops} {enc : List Nat → Bytes} {hf : HashFns} {pkSeed skSeed : Bytes}

theorem subP_ok (S : Sound O enc hf pkSeed skSeed) (P : Params) (layer tree r z : Nat) (h0 : layer < 256) (ht : tree < 2 ^ 64) (hr : (r + 1) * 2 ^ z ≤ 2 ^ 32) (hz : z < 2 ^ 32) (hlen : P.len ≤ 100) :
    ∃ m Xs lv, (∀ {β : Type} (k : Nat → List (List Nat) → List (List Nat) → β), subP O P.len z r layer tree k = k m Xs lv) ∧
      (∀ c, c < P.len → ∀ s, s ≤ 15 → Reps O enc 1 (idxs (List.range' r 1) z) (slice O.W m c (Xs.getD s [])) fun l => chain hf pkSeed layer tree l c (wotsSk hf skSeed pkSeed layer tree l c) 0 s) ∧
      ∀ j, j ≤ z → Reps O enc 1 (idxs (List.range' r 1) (z - j)) (lv.getD j []) fun i => xmssNode P hf skSeed pkSeed layer tree i j := by
  have hmem : ∀ l ∈ idxs (List.range' r 1) z, l < 2 ^ 32 := fun l hl => Nat.lt_of_lt_of_le (mem_idxs r 1 z l hl) hr
  generalize hlf : idxs (List.range' r 1) z = lf at *
  have hL : ∀ x ∈ prodL lf 0 P.len, x.1 < 100 ∧ x.2 < 2 ^ 32 := by
    intro x hx
    unfold prodL at hx
    rw [List.mem_flatMap] at hx
    obtain ⟨c, hc, hx⟩ := hx
    obtain ⟨l, hl, rfl⟩ := List.mem_map.1 hx
    have := List.mem_range'_1.1 hc
    exact ⟨by show c < 100; omega, hmem l hl⟩
  have hprf := S.prf (prodL lf 0 P.len) layer tree 5 (fun x => x.2) (fun x => x.1) (fun _ => 0) h0 ht (by omega) (fun x hx => (hL x hx).2)
    (fun x hx => by have := (hL x hx).1; omega) (fun _ _ => by omega)
  rw [pk_zero] at hprf
  have hch := fun j => chains_ok S (prodL lf 0 P.len) layer tree h0 ht (fun x hx => (hL x hx).2) (fun x hx => by have := (hL x hx).1; omega) 15 0 (by omega)
    (fun x => wotsSk hf skSeed pkSeed layer tree x.2 x.1) _ hprf j
  have hleaf := S.T P.len lf layer tree 1 (fun i => i) (fun _ => 0) (fun _ => 0) _ _ hlen h0 ht (by omega) hmem (fun _ _ => by omega) (fun _ _ => by omega)
    (cast (by rw [List.length_range]) (Reps.flatMap S.nil S.app (List.range P.len) _ _ fun c hc => slice_ok 0 P.len (hch 15 (by omega)) c (List.mem_range.1 hc)))
  rw [pk_zero] at hleaf
  have hlev := fun j => levels_ok S layer tree 2 0 h0 ht (by omega) (by omega) r 1 (fun z i => xmssNode P hf skSeed pkSeed layer tree i z) (fun z i => rfl) z 0
    (by omega) hr _ (by
        rw [hlf]
        exact hleaf.congr fun i _ => by
          show _ = wotsPkGen P hf skSeed pkSeed layer tree i
          unfold wotsPkGen
          simp only [Nat.zero_add]
          rfl) j
  refine ⟨lf.length, chainsP O (pk O.W (prodL lf 0 P.len) fun _ => 1) layer tree (pk O.W (prodL lf 0 P.len) fun x => x.2) (pk O.W (prodL lf 0 P.len) fun x => x.1) 15 0
      (O.prf (pk O.W (prodL lf 0 P.len) fun _ => 1) layer tree 5 (pk O.W (prodL lf 0 P.len) fun x => x.2) (pk O.W (prodL lf 0 P.len) fun x => x.1) 0),
    levels O layer tree 2 0 (tabF O.W (List.range' r 1) z) 0 (O.T (pk O.W lf fun _ => 1) layer tree 1 (pk O.W lf fun i => i) 0 0 ((List.range P.len).flatMap fun c => slice O.W lf.length c
      ((chainsP O (pk O.W (prodL lf 0 P.len) fun _ => 1) layer tree (pk O.W (prodL lf 0 P.len) fun x => x.2) (pk O.W (prodL lf 0 P.len) fun x => x.1) 15 0
      (O.prf (pk O.W (prodL lf 0 P.len) fun _ => 1) layer tree 5 (pk O.W (prodL lf 0 P.len) fun x => x.2) (pk O.W (prodL lf 0 P.len) fun x => x.1) 0)).getD 15 []))),
    fun {β} k => ?_, fun c hc s hs => ?_, fun j hj => ?_⟩
  rotate_left
  · have := slice_ok 0 P.len (hch s hs) c hc
    simp only [Nat.zero_add] at this
    exact this
  · have := hlev j hj
    simp only [Nat.zero_add] at this
    exact this
  · have t0 := tabs_eq (β := β) O.W (List.range' r 1) z 0
    simp only [show (idxs (List.range' r 1) 0).length = 1 from rfl, show ∀ W, (pk W (idxs (List.range' r 1) 0) fun _ => 1) = 1 from fun _ => rfl,
      show ∀ W, (pk W (idxs (List.range' r 1) 0) fun i => i) = r from fun W => by rw [idxs, show List.range' r 1 = [r] from rfl, pk, pk, Nat.mul_zero, Nat.add_zero],
      show ∀ W, tabF W (List.range' r 1) 0 = [] from fun _ => rfl, Nat.zero_add] at t0
    unfold subP
    rw [t0, hlf]
    have p0 := prodP_eq (β := β) O.W lf (pk O.W lf fun i => i) rfl P.len 0
    simp only [show prodL lf P.len 0 = [] from rfl, show ∀ W (f : Nat × Nat → Nat), pk W [] f = 0 from fun _ _ => rfl, Nat.add_zero] at p0
    rw [p0]
    simp only [forceL_eq, forceLL_eq]

/-- The root of a subtree. -/
theorem sub_root (S : Sound O enc hf pkSeed skSeed) (P : Params) (layer tree r z : Nat) (h0 : layer < 256) (ht : tree < 2 ^ 64) (hr : (r + 1) * 2 ^ z ≤ 2 ^ 32) (hz : z < 2 ^ 32) (hlen : P.len ≤ 100)
    (w : List Nat) (hx : eqL (subRoot O P.len z r layer tree) w = true) : xmssNode P hf skSeed pkSeed layer tree r z = enc w := by
  obtain ⟨m, Xs, lv, e, -, h⟩ := subP_ok S P layer tree r z h0 ht hr hz hlen
  rw [← eqL_eq _ _ hx, subRoot, e]
  have := (h z (Nat.le_refl _)).lane 0 r (by rw [Nat.sub_self]; rfl)
  rw [this]

/-- The part of the signature that is in the subtree. -/
theorem sub_sig (S : Sound O enc hf pkSeed skSeed) (P : Params) (layer tree r z idx : Nat) (h0 : layer < 256) (ht : tree < 2 ^ 64) (hr : (r + 1) * 2 ^ z ≤ 2 ^ 32) (hz : z < 2 ^ 32) (hlen : P.len ≤ 100)
    (hi : idx / 2 ^ z = r) (M : Bytes) (ds : List Nat) (hd : wotsDigits P M = ds) (X : List (List Nat)) (w : List Nat) (hx : eqLL (subSig O P.len z r layer tree idx ds) (X ++ [w]) = true) :
    xmssNode P hf skSeed pkSeed layer tree r z = enc w ∧
      wotsSign P hf skSeed pkSeed layer tree idx M ++ ((List.range z).map fun j => xmssNode P hf skSeed pkSeed layer tree ((idx / 2 ^ j) ^^^ 1) j) = X.map enc := by
  obtain ⟨m, Xs, lv, e, hc, h⟩ := subP_ok S P layer tree r z h0 ht hr hz hlen
  have e1 := eqLL_eq _ _ hx
  unfold subSig at e1
  rw [e] at e1
  have e2 := List.append_inj' e1 rfl
  have hw := (h z (Nat.le_refl _)).lane 0 r (by rw [Nat.sub_self]; rfl)
  refine ⟨by rw [← hw]; exact congrArg enc (List.cons.inj e2.2).1, ?_⟩
  rw [← e2.1, List.map_append, List.map_map, List.map_map]
  have hlo : r * 2 ^ z ≤ idx := by rw [← hi]; exact Nat.div_mul_le_self _ _
  have hhi : idx < (r + 1) * 2 ^ z := by rw [← hi]; exact Nat.lt_mul_of_div_lt (by omega) (Nat.two_pow_pos _)
  have hpos := idxs_pos r 1 z idx hlo hhi
  congr 1
  · unfold wotsSign
    refine List.map_congr_left fun c hcm => ?_
    have hdl := Model.wotsDigits_getD_lt P M c
    rw [hd] at hdl ⊢
    exact ((hc c (List.mem_range.1 hcm) (ds.getD c 0) (by omega)).lane _ idx hpos).symm
  · refine List.map_congr_left fun j hj => ?_
    have hj := List.mem_range.1 hj
    obtain ⟨t, rfl⟩ : ∃ t, z = j + (t + 1) := ⟨z - j - 1, by omega⟩
    have b1 : r * 2 ^ (t + 1) ≤ idx / 2 ^ j := by
      rw [Nat.le_div_iff_mul_le (Nat.two_pow_pos _), Nat.mul_assoc, ← Nat.pow_add, Nat.add_comm (t + 1)]; exact hlo
    have b2 : idx / 2 ^ j < (r + 1) * 2 ^ (t + 1) := by
      rw [Nat.div_lt_iff_lt_mul (Nat.two_pow_pos _), Nat.mul_assoc, ← Nat.pow_add, Nat.add_comm (t + 1)]; exact hhi
    have b3 : r * 2 ^ (t + 1) ≤ (idx / 2 ^ j) ^^^ 1 ∧ (idx / 2 ^ j) ^^^ 1 < (r + 1) * 2 ^ (t + 1) := by
      rw [Nat.pow_succ, ← Nat.mul_assoc] at b1 b2
      rw [Nat.pow_succ, ← Nat.mul_assoc, ← Nat.mul_assoc]
      generalize idx / 2 ^ j = y at *
      have hy : y ^^^ 1 = y + 1 - 2 * (y % 2) := by
        have h1 : (y ^^^ 1) / 2 = y / 2 := by
          have := Nat.xor_div_two_pow (a := y) (b := 1) (n := 1)
          simpa using this
        have h2 : (y ^^^ 1) % 2 = (y % 2) ^^^ 1 := by
          have := Nat.xor_mod_two_pow (a := y) (b := 1) (n := 1)
          simpa using this
        rcases Nat.mod_two_eq_zero_or_one y with e | e
        · rw [e] at h2; rw [show (0 : Nat) ^^^ 1 = 1 from rfl] at h2; omega
        · rw [e] at h2; rw [show (1 : Nat) ^^^ 1 = 0 from rfl] at h2; omega
      rw [hy]
      omega
    have := (h j (by omega)).lane _ _ (idxs_pos r 1 (j + (t + 1) - j) ((idx / 2 ^ j) ^^^ 1) (by rw [Nat.add_sub_cancel_left]; exact b3.1) (by rw [Nat.add_sub_cancel_left]; exact b3.2))
    exact this.symm

/-- A node from its children. -/
theorem node_step (S : Sound O enc hf pkSeed skSeed) (P : Params) (layer tree i z : Nat) (h0 : layer < 256) (ht : tree < 2 ^ 64) (hi : i < 2 ^ 32) (hz : z + 1 < 2 ^ 32)
    (a b : List Nat) (hl : Nat.beq (a ++ b).length (O.nw * 2) = true) (hb : ((a ++ b).all fun w => Nat.blt w (2 ^ O.B)) = true)
    (hA : xmssNode P hf skSeed pkSeed layer tree (2 * i) z = enc a) (hB : xmssNode P hf skSeed pkSeed layer tree (2 * i + 1) z = enc b)
    (w : List Nat) (hx : eqL (lane O.W 0 (O.T 1 layer tree 2 0 (Nat.succ z) i (a ++ b))) w = true) : xmssNode P hf skSeed pkSeed layer tree i (z + 1) = enc w := by
  have hl := Nat.eq_of_beq_eq_true hl
  have hr : Reps O enc 2 [()] (a ++ b) fun _ => enc (a ++ b) := by
    refine ⟨(a ++ b).map fun w _ => w, by rw [List.length_map, hl], fun u hu x => ?_, ?_, fun x _ => ?_⟩
    · obtain ⟨w, hw, rfl⟩ := List.mem_map.1 hu
      have := List.all_eq_true.1 hb w hw
      simpa using this
    · rw [List.map_map]
      refine Eq.trans (List.map_id' _).symm (List.map_congr_left fun w _ => ?_)
      show w = pk O.W [()] fun _ => w
      rw [pk, pk]; omega
    · rw [List.map_map]; congr 1; exact (List.map_id' _)
  have := S.T 2 [()] layer tree 2 (fun _ => 0) (fun _ => z + 1) (fun _ => i) _ _ (by omega) h0 ht (by omega) (fun _ _ => by omega) (fun _ _ => hz) (fun _ _ => hi) hr
  have := this.lane 0 () rfl
  have e : ∀ c : Nat, (pk O.W [()] fun _ => c) = c := fun c => by rw [pk, pk]; omega
  simp only [e] at this
  rw [← eqL_eq _ _ hx]
  refine Eq.symm (Eq.trans this ?_)
  rw [S.app, ← hA, ← hB]
  rfl

/-- The authentication path above the subtree. -/
theorem auth_nil (P : Params) (layer tree idx z : Nat) :
    ((List.range' z 0).map fun j => xmssNode P hf skSeed pkSeed layer tree ((idx / 2 ^ j) ^^^ 1) j) = ([] : List (List Nat)).map enc := rfl

theorem auth_cons (P : Params) (layer tree idx z t i : Nat) (hi : (idx / 2 ^ z) ^^^ 1 = i) (a : List Nat) (A : List (List Nat)) (ha : xmssNode P hf skSeed pkSeed layer tree i z = enc a)
    (hA : ((List.range' (z + 1) t).map fun j => xmssNode P hf skSeed pkSeed layer tree ((idx / 2 ^ j) ^^^ 1) j) = A.map enc) :
    ((List.range' z (t + 1)).map fun j => xmssNode P hf skSeed pkSeed layer tree ((idx / 2 ^ j) ^^^ 1) j) = (a :: A).map enc := by
  rw [List.range'_succ, List.map_cons, List.map_cons, hi, ha, hA]

/-- One layer of the hypertree. -/
theorem ht_parts (P : Params) (z t : Nat) (hz : z + t = P.hp) (r j tree leaf : Nat) (hl : leaf < 2 ^ P.hp) (M : List Nat) (X A Y : List (List Nat)) (root : List Nat)
    (hX : wotsSign P hf skSeed pkSeed j tree leaf (enc M) ++ ((List.range z).map fun i => xmssNode P hf skSeed pkSeed j tree ((leaf / 2 ^ i) ^^^ 1) i) = X.map enc)
    (hA : ((List.range' z t).map fun i => xmssNode P hf skSeed pkSeed j tree ((leaf / 2 ^ i) ^^^ 1) i) = A.map enc)
    (hr : xmssNode P hf skSeed pkSeed j tree 0 P.hp = enc root)
    (hy : htSignFrom P hf skSeed pkSeed r (j + 1) (tree / 2 ^ P.hp) (tree % 2 ^ P.hp) (enc root) = Y.map enc) :
    htSignFrom P hf skSeed pkSeed (r + 1) j tree leaf (enc M) = (X ++ A ++ Y).map enc := by
  rw [htSignFrom]
  rw [Model.xmss_honest _ _ _ _ _ _ _ _ hl, hr, hy, List.map_append, List.map_append, ← hX, ← hA]
  congr 1
  unfold xmssSign xmssAuth
  rw [List.append_assoc, ← List.map_append, ← hz, List.range_eq_range', List.range_eq_range', ← List.range'_append_1, Nat.zero_add]

end Kat
