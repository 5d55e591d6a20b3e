import Verif.Kat.Sha256c
import Verif.Spec.Hash
/-!
# The SHA-256 functions of SPHINCS+ on many addresses and values side by side
-/
noncomputable section
namespace Kat.S256
open Spec Spec.Sha256

/-- The first five words after the first block: the compressed address but for its last two bytes. -/
def adrP (I M16 layer tree type A1 A2 A3 : Nat) : List Nat :=
  [Nat.mul (Nat.add (Nat.mul layer 16777216) (Nat.div tree 1099511627776)) I,
   Nat.mul (Nat.mod (Nat.div tree 256) 4294967296) I,
   Nat.add (Nat.mul (Nat.add (Nat.mul (Nat.mod tree 256) 16777216) (Nat.mul type 65536)) I) (Nat.land (Nat.shiftRight A1 16) M16),
   Nat.add (Nat.mul (Nat.land A1 M16) 65536) (Nat.land (Nat.shiftRight A2 16) M16),
   Nat.add (Nat.mul (Nat.land A2 M16) 65536) (Nat.land (Nat.shiftRight A3 16) M16)]

/-- The words after two bytes `C`, and the end mark. -/
def shP (I M16 : Nat) : Nat → List Nat → List Nat
  | C, [] => [Nat.add (Nat.mul C 65536) (Nat.mul 32768 I)]
  | C, v :: vs => Nat.add (Nat.mul C 65536) (Nat.land (Nat.shiftRight v 16) M16) :: shP I M16 (Nat.land v M16) vs

/-- Number of blocks after the first. -/
def nb (k : Nat) : Nat := Nat.div (Nat.add k 23) 16

def msgP (I M16 layer tree type A1 A2 A3 : Nat) (vs : List Nat) : List Nat :=
  adrP I M16 layer tree type A1 A2 A3 ++ (shP I M16 (Nat.land A3 M16) vs ++
    (List.replicate (Nat.sub (Nat.mul 16 (nb vs.length)) (Nat.add vs.length 8)) 0 ++ [0, Nat.mul (Nat.mul 8 (Nat.add 86 (Nat.mul 4 vs.length))) I]))

/-- `F`, `PRF` and, for category 1, `T`; `m` is the state after the first block, `nw` the number of words of the result. -/
def blockP (m : V8 Nat) (nw I layer tree type A1 A2 A3 : Nat) (vs : List Nat) : List Nat :=
  force (Nat.mul I 4294967295) fun M => force (Nat.mul I 65535) fun M16 =>
  absorb I M (nb vs.length) (msgP I M16 layer tree type A1 A2 A3 vs) (Nat.mul m.a I) (Nat.mul m.b I) (Nat.mul m.c I) (Nat.mul m.d I)
    (Nat.mul m.e I) (Nat.mul m.f I) (Nat.mul m.g I) (Nat.mul m.h I) fun a b c d e f g h => [a, b, c, d, e, f, g, h].take nw

/-! ## One message -/

def adrN (layer tree type w1 w2 w3 : Nat) : List Nat :=
  [layer * 16777216 + tree / 1099511627776, tree / 256 % 4294967296, tree % 256 * 16777216 + type * 65536 + w1 / 65536,
   w1 % 65536 * 65536 + w2 / 65536, w2 % 65536 * 65536 + w3 / 65536]

def shN : Nat → List Nat → List Nat
  | c, [] => [c * 65536 + 32768]
  | c, v :: vs => (c * 65536 + v / 65536) :: shN (v % 65536) vs

def msgN (layer tree type w1 w2 w3 : Nat) (vs : List Nat) : List Nat :=
  adrN layer tree type w1 w2 w3 ++ (shN (w3 % 65536) vs ++
    (List.replicate (16 * nb vs.length - (vs.length + 8)) 0 ++ [0, 8 * (86 + 4 * vs.length)]))

theorem shN_bytes (c : Nat) (hc : c < 65536) (vs : List Nat) (hv : ∀ v ∈ vs, v < 2 ^ 32) : enc4 (shN c vs) = toByte c 2 ++ enc4 vs ++ [0x80, 0] := by
  induction vs generalizing c with
  | nil =>
    show toByte (c * 65536 + 32768) 4 ++ [] = _
    rw [List.append_nil, show [(0x80 : UInt8), 0] = toByte 32768 2 from rfl, show enc4 [] = [] from rfl, List.append_nil, toByte_append]; rfl
  | cons v vs ih =>
    have h := hv v (by simp)
    show toByte (c * 65536 + v / 65536) 4 ++ enc4 (shN (v % 65536) vs) = toByte c 2 ++ (toByte v 4 ++ enc4 vs) ++ [0x80, 0]
    rw [ih _ (Nat.mod_lt _ (by omega)) fun w hw => hv w (by simp [hw])]
    rw [show toByte v 4 = toByte (v / 65536) 2 ++ toByte v 2 from Model.toByte_add v 2 2, ← toByte_mod 2 v]
    simp only [List.append_assoc]
    rw [← List.append_assoc (toByte c 2), toByte_append]
    rw [Nat.mod_eq_of_lt (show v / 65536 < 256 ^ 2 by omega)]
    rfl

theorem adrN_bytes (layer tree type w1 w2 w3 : Nat) (_h0 : layer < 256) (ht : tree < 2 ^ 64) (hy : type < 256) (h1 : w1 < 2 ^ 32) (h2 : w2 < 2 ^ 32) (h3 : w3 < 2 ^ 32) :
    enc4 (adrN layer tree type w1 w2 w3) ++ toByte (w3 % 65536) 2 = Adrs.encc ⟨layer, tree, type, w1, w2, w3⟩ := by
  rw [Model.encc_eq]
  show (toByte _ 4 ++ (toByte _ 4 ++ (toByte _ 4 ++ (toByte _ 4 ++ (toByte _ 4 ++ []))))) ++ _ = toByte layer 1 ++ toByte tree 8 ++ toByte type 1 ++ toByte w1 4 ++ toByte w2 4 ++ toByte w3 4
  rw [show toByte w1 4 = toByte (w1 / 65536) 2 ++ toByte w1 2 from Model.toByte_add w1 2 2, show toByte w2 4 = toByte (w2 / 65536) 2 ++ toByte w2 2 from Model.toByte_add w2 2 2,
    show toByte w3 4 = toByte (w3 / 65536) 2 ++ toByte w3 2 from Model.toByte_add w3 2 2, show toByte tree 8 = toByte (tree / 256 ^ 5) 3 ++ toByte tree 5 from Model.toByte_add tree 3 5,
    show toByte tree 5 = toByte (tree / 256 ^ 1) 4 ++ toByte tree 1 from Model.toByte_add tree 4 1, ← toByte_mod 2 w3]
  have a0 : toByte layer 1 ++ toByte (tree / 256 ^ 5) 3 = toByte (layer * 16777216 + tree / 1099511627776) 4 := by
    rw [toByte_append]; congr 1; omega
  have a1 : toByte (tree / 256 ^ 1) 4 = toByte (tree / 256 % 4294967296) 4 := (toByte_mod 4 _).symm
  have a2 : toByte tree 1 ++ (toByte type 1 ++ toByte (w1 / 65536) 2) = toByte (tree % 256 * 16777216 + type * 65536 + w1 / 65536) 4 := by
    rw [toByte_append, toByte_append]; apply toByte_congr; omega
  have a3 : toByte w1 2 ++ toByte (w2 / 65536) 2 = toByte (w1 % 65536 * 65536 + w2 / 65536) 4 := by
    rw [toByte_append]; apply toByte_congr; omega
  have a4 : toByte w2 2 ++ toByte (w3 / 65536) 2 = toByte (w2 % 65536 * 65536 + w3 / 65536) 4 := by
    rw [toByte_append]; apply toByte_congr; omega
  rw [← a0, ← a1, ← a2, ← a3, ← a4]
  simp only [List.append_assoc, List.append_nil]
  rfl

theorem enc4_zeros (z : Nat) : enc4 (List.replicate z 0) = List.replicate (4 * z) 0 := by
  induction z with
  | zero => rfl
  | succ z ih =>
    rw [List.replicate_succ, show enc4 (0 :: List.replicate z 0) = [0, 0, 0, 0] ++ enc4 (List.replicate z 0) from rfl, ih, show 4 * (z + 1) = 4 * z + 1 + 1 + 1 + 1 by omega]
    simp only [List.replicate_succ]; rfl

theorem length_shN (c : Nat) (vs : List Nat) : (shN c vs).length = vs.length + 1 := by
  induction vs generalizing c with
  | nil => rfl
  | cons v vs ih => rw [shN, List.length_cons, ih, List.length_cons]

theorem nb_eq (k : Nat) : nb k = (k + 23) / 16 := rfl

theorem length_msgN (layer tree type w1 w2 w3 : Nat) (vs : List Nat) : (msgN layer tree type w1 w2 w3 vs).length = 16 * nb vs.length := by
  simp only [msgN, adrN, List.length_append, List.length_cons, List.length_nil, length_shN, List.length_replicate, nb_eq]
  omega

theorem length_enc4 (ws : List Nat) : (enc4 ws).length = 4 * ws.length := by rw [enc4, flatten_len]; omega

theorem length_encc (a : Adrs) : a.encc.length = 22 := by
  rw [Model.encc_eq]; simp [Model.length_toByte]

/-- The padded message is the first block and these words. -/
theorem pad_msgN (pre : Bytes) (hpre : pre.length = 64) (layer tree type w1 w2 w3 : Nat) (h0 : layer < 256) (ht : tree < 2 ^ 64) (hy : type < 256)
    (h1 : w1 < 2 ^ 32) (h2 : w2 < 2 ^ 32) (h3 : w3 < 2 ^ 32) (vs : List Nat) (hv : ∀ v ∈ vs, v < 2 ^ 32) (hl : vs.length < 100000) :
    pad (pre ++ Adrs.encc ⟨layer, tree, type, w1, w2, w3⟩ ++ enc4 vs) = pre ++ enc4 (msgN layer tree type w1 w2 w3 vs) := by
  rw [msgN, enc4_append, enc4_append, enc4_append, shN_bytes _ (Nat.mod_lt _ (by omega)) _ hv, enc4_zeros]
  have e2 : enc4 [0, 8 * (86 + 4 * vs.length)] = toByte (8 * (86 + 4 * vs.length)) 8 := by
    show toByte 0 4 ++ (toByte (8 * (86 + 4 * vs.length)) 4 ++ []) = _
    rw [List.append_nil, toByte_append]; congr 1; omega
  rw [e2, ← adrN_bytes layer tree type w1 w2 w3 h0 ht hy h1 h2 h3]
  have hlen : (pre ++ (enc4 (adrN layer tree type w1 w2 w3) ++ toByte (w3 % 65536) 2) ++ enc4 vs).length = 86 + 4 * vs.length := by
    rw [adrN_bytes layer tree type w1 w2 w3 h0 ht hy h1 h2 h3]
    simp only [List.length_append, hpre, length_encc, length_enc4]
  unfold pad
  rw [hlen]
  simp only [List.append_assoc]
  congr 4
  show [(0x80 : UInt8)] ++ (List.replicate _ (0 : UInt8) ++ _) = [(0x80 : UInt8)] ++ ([(0 : UInt8)] ++ (List.replicate _ (0 : UInt8) ++ _))
  congr 1
  rw [← List.append_assoc [(0 : UInt8)]]
  congr 1
  rw [show [(0 : UInt8)] = List.replicate 1 0 from rfl, List.replicate_append_replicate]
  congr 1
  rw [nb_eq]; omega

theorem toList_map_take (v : V8 UInt32) : enc4 (v.toList.map UInt32.toNat) = v.toList.flatMap fun w => toByte w.toNat 4 := by
  rw [enc4, List.flatMap_map]

theorem block_words (n nw : Nat) (hn : n = 4 * nw) (hn2 : n ≤ 64) (seed : Bytes) (hs : seed.length = n) (mid : V8 UInt32)
    (hm : mid = compress H0 (seed ++ List.replicate (64 - n) 0)) (layer tree type w1 w2 w3 : Nat) (h0 : layer < 256) (ht : tree < 2 ^ 64) (hy : type < 256)
    (h1 : w1 < 2 ^ 32) (h2 : w2 < 2 ^ 32) (h3 : w3 < 2 ^ 32) (vs : List Nat) (hv : ∀ v ∈ vs, v < 2 ^ 32) (hl : vs.length < 100000) :
    enc4 (((sabsorb (nb vs.length) ((msgN layer tree type w1 w2 w3 vs).map UInt32.ofNat) mid).toList.map UInt32.toNat).take nw) =
      sha256Block n seed ⟨layer, tree, type, w1, w2, w3⟩ (enc4 vs) := by
  have hpre : (seed ++ List.replicate (64 - n) (0 : UInt8)).length = 64 := by rw [List.length_append, List.length_replicate]; omega
  unfold sha256Block Sha256.hash
  rw [pad_msgN _ hpre layer tree type w1 w2 w3 h0 ht hy h1 h2 h3 vs hv hl, Model.blocks_cons 64 (by omega) _ _ hpre, List.foldl_cons, ← hm,
    sabsorb_bytes (nb vs.length) _ (length_msgN ..), ← toList_map_take]
  rw [enc4, enc4, hn, Nat.mul_comm, take_words]

/-! ## Many messages -/

variable {W : Nat} {L : List α}

def adrF (layer tree type : Nat) (w1 w2 w3 : α → Nat) : List (α → Nat) :=
  [fun _ => layer * 16777216 + tree / 1099511627776, fun _ => tree / 256 % 4294967296, fun x => tree % 256 * 16777216 + type * 65536 + w1 x / 65536,
   fun x => w1 x % 65536 * 65536 + w2 x / 65536, fun x => w2 x % 65536 * 65536 + w3 x / 65536]

def shF : (α → Nat) → List (α → Nat) → List (α → Nat)
  | c, [] => [fun x => c x * 65536 + 32768]
  | c, v :: vs => (fun x => c x * 65536 + v x / 65536) :: shF (fun x => v x % 65536) vs

theorem const_pk (c : Nat) : Nat.mul c (pk W L fun _ => 1) = pk W L fun _ => c := by
  show c * _ = _
  rw [mul_pk]; simp only [Nat.mul_one]

theorem lo16 (hW : 64 ≤ W) (v : α → Nat) (hv : ∀ x, v x < 2 ^ 32) : Nat.land (pk W L v) (pk W L fun _ => 65535) = pk W L fun x => v x % 65536 := by
  show pk W L v &&& _ = _
  rw [pk_land (fun x _ => Nat.lt_of_lt_of_le (hv x) (Nat.pow_le_pow_right (by omega) (by omega)))
    (fun _ _ => Nat.lt_of_lt_of_le (show _ < 2 ^ 64 by omega) (Nat.pow_le_pow_right (by omega) hW))]
  exact pk_congr fun x _ => Nat.and_two_pow_sub_one_eq_mod _ 16

theorem hi16 (hW : 64 ≤ W) (v : α → Nat) (hv : ∀ x, v x < 2 ^ 32) : Nat.land (Nat.shiftRight (pk W L v) 16) (pk W L fun _ => 65535) = pk W L fun x => v x / 65536 := by
  show (pk W L v >>> 16) &&& _ = _
  rw [pk_shr (m := 16) (fun x _ => Nat.lt_of_lt_of_le (hv x) (Nat.pow_le_pow_right (by omega) (by omega))) (by omega) (fun _ _ => by omega) (by omega)]
  refine pk_congr fun x _ => ?_
  rw [Nat.shiftRight_eq_div_pow]
  refine Eq.trans (Nat.and_two_pow_sub_one_eq_mod _ 16) (Nat.mod_eq_of_lt ?_)
  have := hv x; omega

theorem addp (f g : α → Nat) : Nat.add (pk W L f) (pk W L g) = pk W L fun x => f x + g x := pk_add f g
theorem mulp (f : α → Nat) (c : Nat) : Nat.mul (pk W L f) c = pk W L fun x => f x * c := pk_mul f c

theorem adrP_pk (hW : 64 ≤ W) (layer tree type : Nat) (w1 w2 w3 : α → Nat) (h1 : ∀ x, w1 x < 2 ^ 32) (h2 : ∀ x, w2 x < 2 ^ 32) (h3 : ∀ x, w3 x < 2 ^ 32) :
    adrP (pk W L fun _ => 1) (pk W L fun _ => 65535) layer tree type (pk W L w1) (pk W L w2) (pk W L w3) = (adrF layer tree type w1 w2 w3).map (pk W L) := by
  unfold adrP adrF
  rw [const_pk, const_pk, const_pk, lo16 hW _ h1, lo16 hW _ h2, hi16 hW _ h1, hi16 hW _ h2, hi16 hW _ h3, mulp, mulp, addp, addp, addp]
  rfl

theorem shP_pk (hW : 64 ≤ W) (c : α → Nat) (vs : List (α → Nat)) (hv : ∀ v ∈ vs, ∀ x, v x < 2 ^ 32) :
    shP (pk W L fun _ => 1) (pk W L fun _ => 65535) (pk W L c) (vs.map (pk W L)) = (shF c vs).map (pk W L) := by
  induction vs generalizing c with
  | nil => rw [List.map_nil, shP, shF, const_pk, mulp, addp]; rfl
  | cons v vs ih =>
    have h := hv v (by simp)
    rw [List.map_cons, shP, shF, lo16 hW _ h, hi16 hW _ h, mulp, addp, ih _ fun w hw => hv w (by simp [hw])]
    rfl

theorem shF_at (c : α → Nat) (vs : List (α → Nat)) (x : α) : ((shF c vs).map fun f => f x) = shN (c x) (vs.map fun f => f x) := by
  induction vs generalizing c with
  | nil => rfl
  | cons v vs ih => rw [shF, List.map_cons, List.map_cons, shN, ih]

def msgF (layer tree type : Nat) (w1 w2 w3 : α → Nat) (vs : List (α → Nat)) : List (α → Nat) :=
  adrF layer tree type w1 w2 w3 ++ (shF (fun x => w3 x % 65536) vs ++
    (List.replicate (16 * nb vs.length - (vs.length + 8)) (fun _ => 0) ++ [fun _ => 0, fun _ => 8 * (86 + 4 * vs.length)]))

theorem msgP_pk (hW : 64 ≤ W) (layer tree type : Nat) (w1 w2 w3 : α → Nat) (h1 : ∀ x, w1 x < 2 ^ 32) (h2 : ∀ x, w2 x < 2 ^ 32) (h3 : ∀ x, w3 x < 2 ^ 32)
    (vs : List (α → Nat)) (hv : ∀ v ∈ vs, ∀ x, v x < 2 ^ 32) :
    msgP (pk W L fun _ => 1) (pk W L fun _ => 65535) layer tree type (pk W L w1) (pk W L w2) (pk W L w3) (vs.map (pk W L)) =
      (msgF layer tree type w1 w2 w3 vs).map (pk W L) := by
  unfold msgP msgF
  rw [adrP_pk hW _ _ _ _ _ _ h1 h2 h3, lo16 hW _ h3, shP_pk hW _ _ hv, const_pk, List.length_map, List.map_append, List.map_append, List.map_append, List.map_replicate]
  simp only [List.map_cons, List.map_nil, pk_zero]
  rfl

theorem msgF_at (layer tree type : Nat) (w1 w2 w3 : α → Nat) (vs : List (α → Nat)) (x : α) :
    ((msgF layer tree type w1 w2 w3 vs).map fun f => f x) = msgN layer tree type (w1 x) (w2 x) (w3 x) (vs.map fun f => f x) := by
  unfold msgF msgN
  rw [List.map_append, List.map_append, List.map_append, List.map_replicate, shF_at, List.length_map]
  rfl

theorem shF_lt (c : α → Nat) (hc : ∀ x, c x < 65536) (vs : List (α → Nat)) (hv : ∀ v ∈ vs, ∀ x, v x < 2 ^ 32) : ∀ f ∈ shF c vs, ∀ x, f x < 2 ^ 32 := by
  induction vs generalizing c with
  | nil =>
    intro f hf x
    rw [shF, List.mem_singleton] at hf
    subst hf; have := hc x; show c x * 65536 + 32768 < _; omega
  | cons v vs ih =>
    intro f hf x
    rw [shF, List.mem_cons] at hf
    rcases hf with rfl | hf
    · have := hc x; have := hv v (by simp) x; show c x * 65536 + v x / 65536 < _; omega
    · exact ih _ (fun x => Nat.mod_lt _ (by omega)) (fun w hw => hv w (by simp [hw])) f hf x

theorem msgF_lt (layer tree type : Nat) (h0 : layer < 256) (ht : tree < 2 ^ 64) (hy : type < 256) (w1 w2 w3 : α → Nat) (h1 : ∀ x, w1 x < 2 ^ 32) (h2 : ∀ x, w2 x < 2 ^ 32)
    (h3 : ∀ x, w3 x < 2 ^ 32) (vs : List (α → Nat)) (hv : ∀ v ∈ vs, ∀ x, v x < 2 ^ 32) (hl : vs.length < 100000) : ∀ f ∈ msgF layer tree type w1 w2 w3 vs, ∀ x, f x < 2 ^ 32 := by
  intro f hf x
  have h1 := h1 x; have h2 := h2 x; have h3 := h3 x
  simp only [msgF, adrF, List.mem_append, List.mem_cons, List.not_mem_nil, or_false] at hf
  rcases hf with (rfl | rfl | rfl | rfl | rfl) | hf | hf | rfl | rfl
  · show layer * 16777216 + tree / 1099511627776 < _; omega
  · show tree / 256 % 4294967296 < _; omega
  · show tree % 256 * 16777216 + type * 65536 + w1 x / 65536 < _; omega
  · show w1 x % 65536 * 65536 + w2 x / 65536 < _; omega
  · show w2 x % 65536 * 65536 + w3 x / 65536 < _; omega
  · exact shF_lt _ (fun x => Nat.mod_lt _ (by omega)) _ hv f hf x
  · rw [(List.mem_replicate.1 hf).2]; show 0 < _; omega
  · show 0 < _; omega
  · show 8 * (86 + 4 * vs.length) < _; omega

/-- Numbers below `2^32` in the lanes. -/
theorem map_pk_pw (gs : List (α → Nat)) (hg : ∀ f ∈ gs, ∀ x, f x < 2 ^ 32) : gs.map (pk W L) = (gs.map fun f x => UInt32.ofNat (f x)).map (pw W L) := by
  rw [List.map_map]
  refine List.map_congr_left fun f hf => pk_congr fun x _ => ?_
  have := hg f hf x
  show f x = f x % 2 ^ 32
  omega

/-- The eight results. -/
def outF (r : α → V8 UInt32) : List (α → Nat) :=
  [fun x => (r x).a.toNat, fun x => (r x).b.toNat, fun x => (r x).c.toNat, fun x => (r x).d.toNat, fun x => (r x).e.toNat, fun x => (r x).f.toNat,
   fun x => (r x).g.toNat, fun x => (r x).h.toNat]

theorem outF_lt (r : α → V8 UInt32) : ∀ f ∈ outF r, ∀ x, f x < 2 ^ 32 := by
  intro f hf x
  simp only [outF, List.mem_cons, List.not_mem_nil, or_false] at hf
  rcases hf with rfl | rfl | rfl | rfl | rfl | rfl | rfl | rfl <;> exact u32 _

theorem outF_at (r : α → V8 UInt32) (x : α) : ((outF r).map fun f => f x) = (r x).toList.map UInt32.toNat := rfl

/-- `sha256Block` on all lanes. -/
theorem blockP_ok (hW : 64 ≤ W) (n nw : Nat) (hn : n = 4 * nw) (hn2 : n ≤ 32) (seed : Bytes) (hs : seed.length = n) (mid : V8 UInt32)
    (hm : mid = compress H0 (seed ++ List.replicate (64 - n) 0)) (layer tree type : Nat) (h0 : layer < 256) (ht : tree < 2 ^ 64) (hy : type < 256)
    (w1 w2 w3 : α → Nat) (h1 : ∀ x, w1 x < 2 ^ 32) (h2 : ∀ x, w2 x < 2 ^ 32) (h3 : ∀ x, w3 x < 2 ^ 32) (vs : List (α → Nat)) (hv : ∀ v ∈ vs, ∀ x, v x < 2 ^ 32)
    (hl : vs.length < 100000) :
    ∃ us : List (α → Nat), us.length = nw ∧ (∀ u ∈ us, ∀ x, u x < 2 ^ 32) ∧
      blockP (mid.map UInt32.toNat) nw (pk W L fun _ => 1) layer tree type (pk W L w1) (pk W L w2) (pk W L w3) (vs.map (pk W L)) = us.map (pk W L) ∧
      ∀ x, enc4 (us.map fun u => u x) = sha256Block n seed ⟨layer, tree, type, w1 x, w2 x, w3 x⟩ (enc4 (vs.map fun v => v x)) := by
  have hlen : ((msgF layer tree type w1 w2 w3 vs).map fun f x => UInt32.ofNat (f x)).length = 16 * nb vs.length := by
    simp only [msgF, adrF, List.length_map, List.length_append, List.length_cons, List.length_nil, List.length_replicate, nb_eq]
    have : ∀ (c : α → Nat) vs, (shF c vs).length = vs.length + 1 := by
      intro c vs
      induction vs generalizing c with
      | nil => rfl
      | cons v vs ih => rw [shF, List.length_cons, ih, List.length_cons]
    rw [this]; omega
  have key : ∀ r, r = (fun x => sabsorb (nb vs.length) (((msgF layer tree type w1 w2 w3 vs).map fun f x => UInt32.ofNat (f x)).map fun f => f x) mid) →
      blockP (mid.map UInt32.toNat) nw (pk W L fun _ => 1) layer tree type (pk W L w1) (pk W L w2) (pk W L w3) (vs.map (pk W L)) = ((outF r).take nw).map (pk W L) := by
    rintro r rfl
    unfold blockP
    rw [force_eq, force_eq, mulp, mulp]
    simp only [Nat.one_mul]
    rw [msgP_pk hW _ _ _ _ _ _ h1 h2 h3 _ hv, List.length_map, map_pk_pw _ (msgF_lt _ _ _ h0 ht hy _ _ _ h1 h2 h3 _ hv hl)]
    simp only [V8.map, const_pk]
    refine Eq.trans (absorb_pw hW _ _ hlen (fun _ => mid) _) ?_
    rw [List.map_take]; rfl
  refine ⟨(outF _).take nw, ?_, fun u hu x => outF_lt _ u (List.mem_of_mem_take hu) x, key _ rfl, fun x => ?_⟩
  · rw [List.length_take]; show min nw 8 = nw; omega
  · rw [List.map_take, outF_at, List.map_map]
    have e : ((msgF layer tree type w1 w2 w3 vs).map ((fun f => f x) ∘ fun f x => UInt32.ofNat (f x))) =
        (msgN layer tree type (w1 x) (w2 x) (w3 x) (vs.map fun f => f x)).map UInt32.ofNat := by
      rw [← msgF_at, List.map_map]; rfl
    rw [e]
    have hv' : ∀ v ∈ vs.map (fun v => v x), v < 2 ^ 32 := by
      intro v hv'; obtain ⟨f, hf, rfl⟩ := List.mem_map.1 hv'; exact hv f hf x
    have := block_words n nw hn (by omega) seed hs mid hm layer tree type (w1 x) (w2 x) (w3 x) h0 ht hy (h1 x) (h2 x) (h3 x) (vs.map fun v => v x) hv' (by simpa using hl)
    rw [List.length_map] at this
    exact this

end Kat.S256
