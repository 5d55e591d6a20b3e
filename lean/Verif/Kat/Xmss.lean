import Verif.Kat.Eng
import Verif.Proof.SpecLemmas
/-!
# One layer of the hypertree, and FORS trees, on packed words
-/
noncomputable section
namespace Kat
open Spec Spec.Slh

/-- Evaluate the elements of lists before going on. -/
def forceLL {β : Sort _} : List (List Nat) → (List (List Nat) → β) → β
  | [], k => k []
  | x :: xs, k => forceL x fun x => forceLL xs fun xs => k (x :: xs)

theorem forceLL_eq {β : Sort _} (l : List (List Nat)) (k : List (List Nat) → β) : forceLL l k = k l := by
  induction l generalizing k with
  | nil => rfl
  | cons x xs ih => rw [forceLL, forceL_eq, ih]

/-- The values of all chains at steps `s, …, s + k`. -/
def chainsP (O : Ops) (I layer tree A1 A2 : Nat) : Nat → Nat → List Nat → List (List Nat)
  | 0, _, v => [v]
  | k + 1, s, v => v :: forceL (O.F I layer tree 0 A1 A2 (Nat.mul s I) v) fun v' => chainsP O I layer tree A1 A2 k (Nat.succ s) v'

/-- Ones, leaf numbers and chain numbers for `len` chains of each leaf; `c` counts down. -/
def prodP {β : Type} (W m I X : Nat) : Nat → (aI aX aC : Nat) → (Nat → Nat → Nat → β) → β
  | 0, aI, aX, aC, k => k aI aX aC
  | c + 1, aI, aX, aC, k =>
    force (Nat.add I (Nat.shiftLeft aI (Nat.mul W m))) fun aI => force (Nat.add X (Nat.shiftLeft aX (Nat.mul W m))) fun aX =>
    force (Nat.add (Nat.mul c I) (Nat.shiftLeft aC (Nat.mul W m))) fun aC => prodP W m I X c aI aX aC k

/-- The lanes of chain `c`. -/
def slice (W m c : Nat) (X : List Nat) : List Nat := X.map fun w => Nat.mod (Nat.shiftRight w (Nat.mul (Nat.mul W m) c)) (Nat.pow 2 (Nat.mul W m))

/-- The WOTS+ signature and the authentication path of leaf `idx`, and the root. -/
def xmssP (O : Ops) (len hp layer tree idx : Nat) (ds : List Nat) : List (List Nat) :=
  tabs O.W hp 1 1 0 [] fun m I X ts =>
  prodP O.W m I X len 0 0 0 fun aI aX aC =>
  forceL (O.prf aI layer tree 5 aX aC 0) fun v =>
  forceLL (chainsP O aI layer tree aX aC 15 0 v) fun Xs =>
  forceL (O.T I layer tree 1 X 0 0 ((List.range len).flatMap fun c => slice O.W m c (Xs.getD 15 []))) fun lf =>
  forceLL (levels O layer tree 2 0 ts 0 lf) fun lv =>
  ((List.range len).map fun c => lane O.W (pos 0 1 hp idx) (slice O.W m c (Xs.getD (ds.getD c 0) []))) ++
  ((List.range hp).map fun j => lane O.W (pos 0 1 (hp - j) ((idx / 2 ^ j) ^^^ 1)) (lv.getD j [])) ++
  [lane O.W 0 (lv.getD hp [])]

/-- Numbers in lanes. -/
def packN (W : Nat) : List Nat → Nat
  | [] => 0
  | x :: l => Nat.add x (Nat.shiftLeft (packN W l) W)

/-- The signatures of the FORS trees `r0, …, r0 + c - 1`, and their roots. -/
def forsP (O : Ops) (a r0 c tree kp : Nat) (ids : List Nat) : List (List Nat) :=
  force (packN O.W (List.replicate c 1)) fun I0 => force (packN O.W (List.range' r0 c)) fun X0 =>
  tabs O.W a c I0 X0 [] fun _ I X ts =>
  forceL (O.prf I 0 tree 6 (Nat.mul kp I) 0 X) fun sk =>
  forceL (O.F I 0 tree 3 (Nat.mul kp I) 0 X sk) fun lf =>
  forceLL (levels O 0 tree 3 kp ts 0 lf) fun lv =>
  ((List.range' r0 c).flatMap fun i => lane O.W (pos r0 c a (i * 2 ^ a + ids.getD i 0)) sk ::
    (List.range a).map fun j => lane O.W (pos r0 c (a - j) (((i * 2 ^ a + ids.getD i 0) / 2 ^ j) ^^^ 1)) (lv.getD j [])) ++
  (List.range' r0 c).map fun i => lane O.W (i - r0) (lv.getD a [])

/-- The FORS public key from the roots. -/
def forsPkP (O : Ops) (tree kp : Nat) (roots : List (List Nat)) : List Nat := O.T 1 0 tree 4 kp 0 0 roots.flatten

/-! ## What they compute -/

/-- All chains of all leaves. -/
def prodL (lf : List Nat) (c n : Nat) : List (Nat × Nat) := (List.range' c n).flatMap fun c => lf.map fun l => (c, l)

theorem prodL_succ (lf : List Nat) (c n : Nat) : prodL lf c (n + 1) = lf.map (fun l => (c, l)) ++ prodL lf (c + 1) n := by
  unfold prodL; rw [List.range'_succ, List.flatMap_cons]

theorem prodP_eq {β : Type} (W : Nat) (lf : List Nat) (X : Nat) (hX : X = pk W lf fun i => i) (c n : Nat) (k : Nat → Nat → Nat → β) :
    prodP W lf.length (pk W lf fun _ => 1) X c (pk W (prodL lf c n) fun _ => 1) (pk W (prodL lf c n) fun x => x.2) (pk W (prodL lf c n) fun x => x.1) k =
      k (pk W (prodL lf 0 (c + n)) fun _ => 1) (pk W (prodL lf 0 (c + n)) fun x => x.2) (pk W (prodL lf 0 (c + n)) fun x => x.1) := by
  induction c generalizing n with
  | zero => rw [prodP, Nat.zero_add]
  | succ c ih =>
    rw [prodP, force_eq, force_eq, force_eq]
    have e : ∀ (f : Nat → Nat) (g : Nat × Nat → Nat), (∀ l, g (c, l) = f l) →
        Nat.add (pk W lf f) (Nat.shiftLeft (pk W (prodL lf (c + 1) n) g) (Nat.mul W lf.length)) = pk W (prodL lf c (n + 1)) g := by
      intro f g h
      show _ + _ <<< (W * _) = _
      rw [prodL_succ, pk_append, pk_map, List.length_map, Nat.shiftLeft_eq, Nat.mul_comm (2 ^ _)]
      simp only [h]
    rw [hX, const_pk', e _ (fun _ => 1) (fun _ => rfl), e _ (fun x => x.2) (fun _ => rfl), e _ (fun x => x.1) (fun _ => rfl), ← hX, ih (n + 1),
      show c + (n + 1) = c + 1 + n by omega]

variable {O : Ops} {enc : List Nat → Bytes} {hf : HashFns} {pkSeed skSeed : Bytes}

theorem slice_ok {lf : List Nat} {X : List Nat} {v : Nat × Nat → Bytes} (c0 n : Nat) (h : Reps O enc 1 (prodL lf c0 n) X v) (c : Nat) (hc : c < n) :
    Reps O enc 1 lf (slice O.W lf.length c X) fun l => v (c0 + c, l) := by
  induction n generalizing c0 c X with
  | zero => omega
  | succ n ih =>
    rw [prodL_succ] at h
    cases c with
    | zero =>
      have := Reps.map (Reps.left h)
      rw [List.length_map] at this
      unfold slice
      simp only [show ∀ w, Nat.shiftRight w (Nat.mul (Nat.mul O.W lf.length) 0) = w from fun _ => rfl]
      exact this
    | succ c =>
      have := ih (c0 + 1) (Reps.right h) c (by omega)
      rw [List.length_map] at this
      unfold slice at this ⊢
      rw [List.map_map] at this
      rw [show c0 + 1 + c = c0 + (c + 1) by omega] at this
      refine cast ?_ this
      congr 2
      funext w
      show (w >>> (O.W * lf.length)) >>> (O.W * lf.length * c) % _ = w >>> (O.W * lf.length * (c + 1)) % _
      rw [← Nat.shiftRight_add, Nat.mul_succ, Nat.add_comm]

/-- The chains at step `s + j`. -/
theorem chains_ok (S : Sound O enc hf pkSeed skSeed) (L : List (Nat × Nat)) (layer tree : Nat) (h0 : layer < 256) (ht : tree < 2 ^ 64)
    (h1 : ∀ x ∈ L, x.2 < 2 ^ 32) (h2 : ∀ x ∈ L, x.1 < 2 ^ 32) (k s : Nat) (hs : s + k < 2 ^ 32) (X : Nat × Nat → Bytes) (v : List Nat)
    (hv : Reps O enc 1 L v fun x => chain hf pkSeed layer tree x.2 x.1 (X x) 0 s) (j : Nat) (hj : j ≤ k) :
    Reps O enc 1 L ((chainsP O (pk O.W L fun _ => 1) layer tree (pk O.W L fun x => x.2) (pk O.W L fun x => x.1) k s v).getD j []) fun x =>
      chain hf pkSeed layer tree x.2 x.1 (X x) 0 (s + j) := by
  induction k generalizing s v j with
  | zero =>
    have : j = 0 := by omega
    subst this
    exact hv
  | succ k ih =>
    rw [chainsP, forceL_eq]
    cases j with
    | zero => exact hv
    | succ j =>
      rw [List.getD_cons_succ, const_pk']
      have := S.F L layer tree 0 (fun x => x.2) (fun x => x.1) (fun _ => s) _ _ h0 ht (by omega) h1 h2 (fun _ _ => by omega) hv
      have e := ih (s + 1) (by omega) _ (this.congr fun x _ => by
        show _ = hf.F pkSeed (Adrs.wotsHash layer tree x.2 x.1 (0 + s)) _
        rw [Nat.zero_add]; rfl) j (by omega)
      rw [show s + 1 + j = s + (j + 1) by omega] at e
      exact e

theorem pk_of_zero {W : Nat} (L : List α) : (0 : Nat) = pk W L fun _ => 0 := pk_zero.symm

theorem half_xor (h i : Nat) (hi : i < 2 ^ (h + 1)) : i ^^^ 1 < 2 ^ (h + 1) :=
  Nat.xor_lt_two_pow hi (by have := Nat.two_pow_pos h; rw [Nat.pow_succ]; omega)

theorem xmssP_ok (S : Sound O enc hf pkSeed skSeed) (P : Params) (layer tree idx : Nat) (h0 : layer < 256) (ht : tree < 2 ^ 64) (hi : idx < 2 ^ P.hp) (hh : P.hp ≤ 31)
    (hlen : P.len ≤ 100) (M : Bytes) :
    (xmssP O P.len P.hp layer tree idx (wotsDigits P M)).map enc = xmssSign P hf skSeed pkSeed layer tree idx M ++ [xmssNode P hf skSeed pkSeed layer tree 0 P.hp] := by
  have t0 := tabs_eq (β := List (List Nat)) O.W (List.range' 0 1) P.hp 0
  simp only [show (idxs (List.range' 0 1) 0).length = 1 from rfl, show ∀ W, (pk W (idxs (List.range' 0 1) 0) fun _ => 1) = 1 from fun _ => rfl,
    show ∀ W, (pk W (idxs (List.range' 0 1) 0) fun i => i) = 0 from fun _ => rfl, show ∀ W, tabF W (List.range' 0 1) 0 = [] from fun _ => rfl, Nat.zero_add] at t0
  unfold xmssP
  rw [t0]
  have hmem : ∀ l ∈ idxs (List.range' 0 1) P.hp, l < 2 ^ 32 := fun l hl => by
    have := mem_idxs 0 1 P.hp l hl
    have h2 : 2 ^ P.hp ≤ 2 ^ 31 := Nat.pow_le_pow_right (by omega) hh
    omega
  have hpos := idxs_pos 0 1 P.hp idx (by omega) (by omega)
  generalize hlf : idxs (List.range' 0 1) P.hp = lf at *
  have p0 := prodP_eq (β := List (List Nat)) O.W lf (pk O.W lf fun i => i) rfl P.len 0
  simp only [show prodL lf P.len 0 = [] from rfl, show ∀ W (f : Nat × Nat → Nat), pk W [] f = 0 from fun _ _ => rfl, Nat.add_zero] at p0
  rw [p0]
  have hL : ∀ x ∈ prodL lf 0 P.len, x.1 < 100 ∧ x.2 < 2 ^ 32 := by
    intro x hx
    unfold prodL at hx
    rw [List.mem_flatMap] at hx
    obtain ⟨c, hc, hx⟩ := hx
    obtain ⟨l, hl, rfl⟩ := List.mem_map.1 hx
    have := List.mem_range'_1.1 hc
    exact ⟨by show c < 100; omega, hmem l hl⟩
  simp only [forceL_eq, forceLL_eq]
  have hprf := S.prf (prodL lf 0 P.len) layer tree 5 (fun x => x.2) (fun x => x.1) (fun _ => 0) h0 ht (by omega) (fun x hx => (hL x hx).2)
    (fun x hx => by have := (hL x hx).1; omega) (fun _ _ => by omega)
  rw [pk_zero] at hprf
  have hch := fun j => chains_ok S (prodL lf 0 P.len) layer tree h0 ht (fun x hx => (hL x hx).2) (fun x hx => by have := (hL x hx).1; omega) 15 0 (by omega)
    (fun x => wotsSk hf skSeed pkSeed layer tree x.2 x.1) _ hprf j
  have hleaf := S.T P.len lf layer tree 1 (fun i => i) (fun _ => 0) (fun _ => 0) _ _ hlen h0 ht (by omega) hmem (fun _ _ => by omega) (fun _ _ => by omega)
    (cast (by rw [List.length_range]) (Reps.flatMap S.nil S.app (List.range P.len) _ _ fun c hc => slice_ok 0 P.len (hch 15 (by omega)) c (List.mem_range.1 hc)))
  rw [pk_zero] at hleaf
  have hlev := fun j => levels_ok S layer tree 2 0 h0 ht (by omega) (by omega) 0 1 (fun z i => xmssNode P hf skSeed pkSeed layer tree i z) (fun z i => rfl) P.hp 0
    (by omega) (by
      have h2 : 2 ^ P.hp ≤ 2 ^ 31 := Nat.pow_le_pow_right (by omega) hh
      omega) _ (by
        rw [hlf]
        exact hleaf.congr fun i _ => by
          show _ = wotsPkGen P hf skSeed pkSeed layer tree i
          unfold wotsPkGen
          simp only [Nat.zero_add]
          rfl) j
  rw [List.map_append, List.map_append, List.map_map, List.map_map]
  unfold xmssSign wotsSign xmssAuth
  congr 1
  · congr 1
    · refine List.map_congr_left fun c hc => ?_
      have hd := Model.wotsDigits_getD_lt P M c
      have := (slice_ok 0 P.len (hch ((wotsDigits P M).getD c 0) (by omega)) c (List.mem_range.1 hc)).lane _ idx hpos
      simp only [Function.comp]
      refine this.trans ?_
      simp only [Nat.zero_add]
    · refine List.map_congr_left fun j hj => ?_
      have hj := List.mem_range.1 hj
      simp only [Function.comp]
      have hb : idx / 2 ^ j < 2 ^ (P.hp - j) := by
        rw [Nat.div_lt_iff_lt_mul (Nat.two_pow_pos _), ← Nat.pow_add, show P.hp - j + j = P.hp by omega]; exact hi
      obtain ⟨h', e⟩ : ∃ h', P.hp - j = h' + 1 := ⟨P.hp - j - 1, by omega⟩
      have hx : (idx / 2 ^ j) ^^^ 1 < 2 ^ (P.hp - j) := by rw [e] at hb ⊢; exact half_xor _ _ hb
      have := (hlev j (by omega)).lane _ _ (idxs_pos 0 1 (P.hp - j) ((idx / 2 ^ j) ^^^ 1) (by omega) (by omega))
      refine this.trans ?_
      simp only [Nat.zero_add]
  · have := (hlev P.hp (by omega)).lane 0 0 (by rw [Nat.sub_self]; rfl)
    simp only [Nat.zero_add] at this
    simp only [List.map_cons, List.map_nil]
    rw [← this]

theorem packN_eq (W : Nat) (l : List Nat) : packN W l = pk W l fun i => i := by
  induction l with
  | nil => rfl
  | cons x l ih =>
    show x + packN W l <<< W = _
    rw [ih, pk, Nat.shiftLeft_eq, Nat.mul_comm]

theorem pk_ones (W : Nat) (l : List α) : (pk W (List.replicate l.length 1) fun i => i) = pk W l fun _ => 1 := by
  induction l with
  | nil => rfl
  | cons x l ih => rw [List.length_cons, List.replicate_succ, pk, pk, ih]

theorem forsP_ok (S : Sound O enc hf pkSeed skSeed) (P : Params) (r0 c tree kp : Nat) (ht : tree < 2 ^ 64) (hk : kp < 2 ^ 32) (ha : P.a ≤ 31)
    (hc : (r0 + c) * 2 ^ P.a ≤ 2 ^ 32) (ids : List Nat) (hi : ∀ i, ids.getD i 0 < 2 ^ P.a) :
    (forsP O P.a r0 c tree kp ids).map enc = ((List.range' r0 c).flatMap fun i => forsTreeSig P hf skSeed pkSeed tree kp i (ids.getD i 0)) ++
      (List.range' r0 c).map fun i => forsNode hf skSeed pkSeed tree kp i P.a := by
  have t0 := tabs_eq (β := List (List Nat)) O.W (List.range' r0 c) P.a 0
  have e1 : packN O.W (List.replicate c 1) = pk O.W (idxs (List.range' r0 c) 0) fun _ => 1 := by
    rw [packN_eq, ← pk_ones]; simp [idxs]
  have e2 : packN O.W (List.range' r0 c) = pk O.W (idxs (List.range' r0 c) 0) fun i => i := packN_eq _ _
  rw [show (idxs (List.range' r0 c) 0).length = c by simp [idxs], show ∀ W, tabF W (List.range' r0 c) 0 = [] from fun _ => rfl, Nat.zero_add] at t0
  unfold forsP
  rw [force_eq, force_eq, e1, e2, t0]
  simp only [forceL_eq, forceLL_eq]
  have hmem : ∀ l ∈ idxs (List.range' r0 c) P.a, l < 2 ^ 32 := fun l hl => Nat.lt_of_lt_of_le (mem_idxs r0 c P.a l hl) hc
  rw [const_pk']
  have hsk := S.prf (idxs (List.range' r0 c) P.a) 0 tree 6 (fun _ => kp) (fun _ => 0) (fun i => i) (by omega) ht (by omega) (fun _ _ => hk) (fun _ _ => by omega) hmem
  rw [pk_zero] at hsk
  have hlf := S.F (idxs (List.range' r0 c) P.a) 0 tree 3 (fun _ => kp) (fun _ => 0) (fun i => i) _ _ (by omega) ht (by omega) (fun _ _ => hk) (fun _ _ => by omega) hmem hsk
  rw [pk_zero] at hlf
  have hlev := fun j => levels_ok S 0 tree 3 kp (by omega) ht (by omega) hk r0 c (fun z i => forsNode hf skSeed pkSeed tree kp i z) (fun z i => rfl) P.a 0 (by omega) hc _ hlf j
  have bound : ∀ i ∈ List.range' r0 c, ∀ t, t < 2 ^ P.a → ∀ j, j ≤ P.a → r0 * 2 ^ (P.a - j) ≤ (i * 2 ^ P.a + t) / 2 ^ j ∧ (i * 2 ^ P.a + t) / 2 ^ j < (i + 1) * 2 ^ (P.a - j) := by
    intro i hi t ht j hj
    have hi := List.mem_range'_1.1 hi
    have e : 2 ^ P.a = 2 ^ (P.a - j) * 2 ^ j := by rw [← Nat.pow_add]; congr 1; omega
    constructor
    · rw [Nat.le_div_iff_mul_le (Nat.two_pow_pos _), Nat.mul_assoc, ← e]
      exact Nat.le_trans (Nat.mul_le_mul_right _ hi.1) (Nat.le_add_right _ _)
    · rw [Nat.div_lt_iff_lt_mul (Nat.two_pow_pos _), Nat.mul_assoc, ← e, Nat.add_mul, Nat.one_mul]; omega
  rw [List.map_append, List.map_map, List.map_flatMap]
  congr 1
  · refine List.flatMap_congr fun i hir => ?_
    have hib := List.mem_range'_1.1 hir
    rw [Model.forsTreeSig_eq, List.map_cons, List.map_map]
    have b0 := bound i hir _ (hi i) 0 (by omega)
    simp only [Nat.pow_zero, Nat.div_one, Nat.sub_zero] at b0
    have hle : ∀ m, (i + 1) * m ≤ (r0 + c) * m := fun m => Nat.mul_le_mul_right _ (by omega)
    congr 1
    · exact hsk.lane _ _ (idxs_pos r0 c P.a _ b0.1 (Nat.lt_of_lt_of_le b0.2 (hle _)))
    · refine List.map_congr_left fun j hj => ?_
      have hj := List.mem_range.1 hj
      have b := bound i hir _ (hi i) j (by omega)
      simp only [Function.comp]
      have hx : r0 * 2 ^ (P.a - j) ≤ ((i * 2 ^ P.a + ids.getD i 0) / 2 ^ j) ^^^ 1 ∧ ((i * 2 ^ P.a + ids.getD i 0) / 2 ^ j) ^^^ 1 < (i + 1) * 2 ^ (P.a - j) := by
        obtain ⟨h', e⟩ : ∃ h', P.a - j = h' + 1 := ⟨P.a - j - 1, by omega⟩
        rw [e, Nat.pow_succ, ← Nat.mul_assoc, ← Nat.mul_assoc] at b ⊢
        generalize (i * 2 ^ P.a + ids.getD i 0) / 2 ^ j = y at *
        have hy : y ^^^ 1 = y + 1 - 2 * (y % 2) := by
          have h1 : (y ^^^ 1) / 2 = y / 2 := by
            have := Nat.xor_div_two_pow (a := y) (b := 1) (n := 1)
            simpa using this
          have h2 : (y ^^^ 1) % 2 = (y % 2) ^^^ 1 := by
            have := Nat.xor_mod_two_pow (a := y) (b := 1) (n := 1)
            simpa using this
          rcases Nat.mod_two_eq_zero_or_one y with e | e
          · rw [e] at h2; rw [show (0 : Nat) ^^^ 1 = 1 from rfl] at h2; omega
          · rw [e] at h2; rw [show (1 : Nat) ^^^ 1 = 0 from rfl] at h2; omega
        rw [hy]
        omega
      have := (hlev j (by omega)).lane _ _ (idxs_pos r0 c (P.a - j) _ hx.1 (Nat.lt_of_lt_of_le hx.2 (hle _)))
      refine this.trans ?_
      simp only [Nat.zero_add]
  · refine List.map_congr_left fun i hir => ?_
    have hib := List.mem_range'_1.1 hir
    have := (hlev P.a (by omega)).lane (i - r0) i (by
      rw [Nat.sub_self]
      exact idxs_pos r0 c 0 i (by omega) (by omega))
    simp only [Function.comp, Nat.zero_add] at this ⊢
    exact this

end Kat
