import Verif.Kat.Xmss
import Verif.Proof.Digits
/-!
# Signatures put together from the results of the packed functions
-/
noncomputable section
namespace Kat
open Spec Spec.Slh

variable {O : Ops} {enc : List Nat → Bytes} {hf : HashFns} {pkSeed skSeed : Bytes}

/-- Equality of lists of numbers, by computation. -/
def eqL : List Nat → List Nat → Bool
  | [], [] => true
  | a :: l, b :: m => (Nat.beq a b).rec false (eqL l m)
  | _, _ => false

def eqLL : List (List Nat) → List (List Nat) → Bool
  | [], [] => true
  | a :: l, b :: m => (eqL a b).rec false (eqLL l m)
  | _, _ => false

theorem eqL_eq (a b : List Nat) (h : eqL a b = true) : a = b := by
  induction a generalizing b with
  | nil => cases b with | nil => rfl | cons _ _ => simp [eqL] at h
  | cons x l ih =>
    cases b with
    | nil => simp [eqL] at h
    | cons y m =>
      rw [eqL] at h
      cases hb : Nat.beq x y with
      | false => rw [hb] at h; cases h
      | true => rw [hb] at h; rw [Nat.eq_of_beq_eq_true hb, ih m h]

theorem eqLL_eq (a b : List (List Nat)) (h : eqLL a b = true) : a = b := by
  induction a generalizing b with
  | nil => cases b with | nil => rfl | cons _ _ => simp [eqLL] at h
  | cons x l ih =>
    cases b with
    | nil => simp [eqLL] at h
    | cons y m =>
      rw [eqLL] at h
      cases hb : eqL x y with
      | false => rw [hb] at h; cases h
      | true => rw [hb] at h; rw [eqL_eq _ _ hb, ih m h]

/-- One layer of the hypertree. -/
theorem ht_step (S : Sound O enc hf pkSeed skSeed) (P : Params) (hh : P.hp ≤ 31) (hlen : P.len ≤ 100) (r j tree leaf : Nat) (h0 : j < 256) (ht : tree < 2 ^ 64) (hl : leaf < 2 ^ P.hp)
    (M ds : List Nat) (hd : wotsDigits P (enc M) = ds) (X Y : List (List Nat)) (root : List Nat)
    (hx : eqLL (xmssP O P.len P.hp j tree leaf ds) (X ++ [root]) = true)
    (hy : htSignFrom P hf skSeed pkSeed r (j + 1) (tree / 2 ^ P.hp) (tree % 2 ^ P.hp) (enc root) = Y.map enc) :
    htSignFrom P hf skSeed pkSeed (r + 1) j tree leaf (enc M) = (X ++ Y).map enc := by
  have e := xmssP_ok S P j tree leaf h0 ht hl hh hlen (enc M)
  rw [hd, eqLL_eq _ _ hx, List.map_append] at e
  have e1 := (List.append_inj' e rfl).1
  have e2 : enc root = xmssNode P hf skSeed pkSeed j tree 0 P.hp := (List.cons.inj (List.append_inj' e rfl).2).1
  rw [htSignFrom]
  rw [Model.xmss_honest _ _ _ _ _ _ _ _ hl, ← e2, hy, ← e1, List.map_append]

theorem ht_zero (P : Params) (j tree leaf : Nat) (M : Bytes) : htSignFrom P hf skSeed pkSeed 0 j tree leaf M = ([] : List (List Nat)).map enc := rfl

/-- The root of the tree at the top. -/
theorem root_step (S : Sound O enc hf pkSeed skSeed) (P : Params) (hh : P.hp ≤ 31) (hlen : P.len ≤ 100) (h0 : P.d - 1 < 256) (leaf : Nat) (hl : leaf < 2 ^ P.hp)
    (M ds : List Nat) (hd : wotsDigits P (enc M) = ds) (X : List (List Nat)) (root : List Nat)
    (hx : eqLL (xmssP O P.len P.hp (P.d - 1) 0 leaf ds) (X ++ [root]) = true) : pkRoot P hf skSeed pkSeed = enc root := by
  have e := xmssP_ok S P (P.d - 1) 0 leaf h0 (by omega) hl hh hlen (enc M)
  rw [hd, eqLL_eq _ _ hx, List.map_append] at e
  exact ((List.cons.inj (List.append_inj' e rfl).2).1).symm

/-- The FORS trees `r0, …, r0 + c - 1`. -/
def ForsPart (enc : List Nat → Bytes) (hf : HashFns) (pkSeed skSeed : Bytes) (P : Params) (tree kp : Nat) (ids : List Nat) (r0 c : Nat) (X R : List (List Nat)) : Prop :=
  ((List.range' r0 c).flatMap fun i => forsTreeSig P hf skSeed pkSeed tree kp i (ids.getD i 0)) = X.map enc ∧
    ((List.range' r0 c).map fun i => forsNode hf skSeed pkSeed tree kp i P.a) = R.map enc

theorem fors_part (S : Sound O enc hf pkSeed skSeed) (P : Params) (ha : P.a ≤ 31) (tree kp : Nat) (ht : tree < 2 ^ 64) (hk : kp < 2 ^ 32) (ids : List Nat) (hi : ∀ i, ids.getD i 0 < 2 ^ P.a)
    (r0 c : Nat) (hc : (r0 + c) * 2 ^ P.a ≤ 2 ^ 32) (X R : List (List Nat)) (hR : R.length = c) (hx : eqLL (forsP O P.a r0 c tree kp ids) (X ++ R) = true) :
    ForsPart enc hf pkSeed skSeed P tree kp ids r0 c X R := by
  have e := forsP_ok S P r0 c tree kp ht hk ha hc ids hi
  rw [eqLL_eq _ _ hx, List.map_append] at e
  have := List.append_inj' e (by rw [List.length_map, List.length_map, List.length_range', hR])
  exact ⟨this.1.symm, this.2.symm⟩

theorem fors_app (P : Params) (tree kp : Nat) (ids : List Nat) (r0 c c' : Nat) (X X' R R' : List (List Nat))
    (h : ForsPart enc hf pkSeed skSeed P tree kp ids r0 c X R) (h' : ForsPart enc hf pkSeed skSeed P tree kp ids (r0 + c) c' X' R') :
    ForsPart enc hf pkSeed skSeed P tree kp ids r0 (c + c') (X ++ X') (R ++ R') := by
  unfold ForsPart at *
  rw [← List.range'_append_1, List.flatMap_append, List.map_append, List.map_append, List.map_append, h.1, h.2, h'.1, h'.2]
  exact ⟨rfl, rfl⟩

theorem enc_flatten (S : Sound O enc hf pkSeed skSeed) (X : List (List Nat)) : (X.map enc).flatten = enc X.flatten := by
  induction X with
  | nil => exact S.nil.symm
  | cons x X ih => rw [List.map_cons, List.flatten_cons, ih, List.flatten_cons, S.app]

/-- The FORS public key. -/
theorem fors_pk (S : Sound O enc hf pkSeed skSeed) (P : Params) (hk : P.k ≤ 100) (tree kp : Nat) (ht : tree < 2 ^ 64) (hkp : kp < 2 ^ 32) (ids : List Nat) (X R : List (List Nat))
    (h : ForsPart enc hf pkSeed skSeed P tree kp ids 0 P.k X R) (hl : R.flatten.length = O.nw * P.k) (hb : (R.flatten.all fun w => Nat.blt w (2 ^ O.B)) = true)
    (pkf : List Nat) (hp : eqL (lane O.W 0 (forsPkP O tree kp R)) pkf = true) : Model.forsPk P hf skSeed pkSeed tree kp = enc pkf := by
  have hr : Reps O enc P.k [()] R.flatten fun _ => enc R.flatten := by
    refine ⟨R.flatten.map fun w _ => w, by rw [List.length_map, hl], fun u hu x => ?_, ?_, fun x _ => ?_⟩
    · obtain ⟨w, hw, rfl⟩ := List.mem_map.1 hu
      have := List.all_eq_true.1 hb w hw
      simpa using this
    · rw [List.map_map]
      refine Eq.trans (List.map_id' _).symm (List.map_congr_left fun w _ => ?_)
      show w = pk O.W [()] fun _ => w
      rw [pk, pk]; omega
    · rw [List.map_map]; congr 1; exact (List.map_id' _)
  have := S.T P.k [()] 0 tree 4 (fun _ => kp) (fun _ => 0) (fun _ => 0) _ _ hk (by omega) ht (by omega) (fun _ _ => hkp) (fun _ _ => by omega) (fun _ _ => by omega) hr
  have := this.lane 0 () rfl
  have e : ∀ c : Nat, (pk O.W [()] fun _ => c) = c := fun c => by rw [pk, pk]; omega
  simp only [e] at this
  rw [← eqL_eq _ _ hp]
  refine Eq.symm (Eq.trans this ?_)
  unfold Model.forsPk
  rw [← enc_flatten S, ← h.2, List.range_eq_range']
  rfl

/-- A signature. -/
theorem sign_words (S : Sound O enc hf pkSeed skSeed) (P : Params) (skPrf root opt M : Bytes) (R : List Nat) (hR : hf.PRFmsg skPrf opt M = enc R)
    (D : Bytes) (hD : hf.Hmsg (enc R) pkSeed root M P.m = D) (tree leaf : Nat) (ht : treeIdx P D = tree) (hl : leafIdx P D = leaf) (ids : List Nat) (hids : mdIndices P D = ids)
    (X Rs : List (List Nat)) (hf' : ForsPart enc hf pkSeed skSeed P tree leaf ids 0 P.k X Rs) (pkf : List Nat) (hp : Model.forsPk P hf skSeed pkSeed tree leaf = enc pkf)
    (Y : List (List Nat)) (hY : htSignFrom P hf skSeed pkSeed P.d 0 tree leaf (enc pkf) = Y.map enc) :
    (signBlocks P hf skSeed pkSeed skPrf root opt M).flatten = enc ([R] ++ X ++ Y).flatten := by
  rw [← enc_flatten S]
  congr 1
  unfold signBlocks htSign
  simp only
  rw [hR, hD, ht, hl, hids]
  have hi : ∀ i, ids.getD i 0 < 2 ^ P.a := by rw [← hids]; exact fun i => Model.mdIndices_lt P D i
  rw [Model.fors_honest _ _ _ _ _ _ _ hi, hp, hY, List.map_append, List.map_append]
  congr 2
  unfold forsSign
  rw [List.range_eq_range', hf'.1]

end Kat
