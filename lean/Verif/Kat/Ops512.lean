import Verif.Kat.Sha512d
import Verif.Kat.Ops256
/-!
# The packed hash functions of the SHA-2 sets of categories 3 and 5
-/
noncomputable section
namespace Kat.S512
open Spec Spec.Sha512
open Kat.S256 (enc4)

/-- Two words of 32 bits make one of 64 bits. -/
def pair : List Nat → List Nat
  | a :: b :: l => Nat.add (Nat.mul a 4294967296) b :: pair l
  | _ => []

/-- One word of 64 bits makes two of 32 bits; `M32` has `2^32 - 1` in each lane. -/
def split (M32 : Nat) : List Nat → List Nat
  | [] => []
  | v :: l => Nat.land (Nat.shiftRight v 32) M32 :: Nat.land v M32 :: split M32 l

def tP (m : V8 Nat) (nw I layer tree type A1 A2 A3 : Nat) (X : List Nat) : List Nat :=
  forceL (pair X) fun X => forceL (blockP m nw I layer tree type A1 A2 A3 X) fun r => split (Nat.mul 4294967295 I) r

def pairF {α : Type} : List (α → Nat) → List (α → Nat)
  | a :: b :: l => (fun x => a x * 4294967296 + b x) :: pairF l
  | _ => []

def splitF {α : Type} : List (α → Nat) → List (α → Nat)
  | [] => []
  | v :: l => (fun x => v x / 4294967296) :: (fun x => v x % 4294967296) :: splitF l

variable {α : Type} {W : Nat} {L : List α}

theorem pair_pk (us : List (α → Nat)) : pair (us.map (pk W L)) = (pairF us).map (pk W L) := by
  induction us using pairF.induct with
  | case1 a b l ih => simp only [List.map_cons, pair, pairF, ih, mulp, addp]
  | case2 l h =>
    match l, h with
    | [], _ => rfl
    | [a], _ => rfl
    | a :: b :: l, h => exact absurd rfl (h a b l)

theorem pairF_lt (us : List (α → Nat)) (h : ∀ u ∈ us, ∀ x, u x < 2 ^ 32) : ∀ u ∈ pairF us, ∀ x, u x < 2 ^ 64 := by
  induction us using pairF.induct with
  | case1 a b l ih =>
    intro u hu x
    rw [pairF, List.mem_cons] at hu
    rcases hu with rfl | hu
    · have := h a (by simp) x; have := h b (by simp) x; show a x * 4294967296 + b x < _; omega
    · exact ih (fun v hv => h v (by simp [hv])) u hu x
  | case2 l h' =>
    match l, h' with
    | [], _ => intro u hu; simp [pairF] at hu
    | [a], _ => intro u hu; simp [pairF] at hu
    | a :: b :: l, h' => exact absurd rfl (h' a b l)

theorem length_pairF (k : Nat) (us : List (α → Nat)) (h : us.length = 2 * k) : (pairF us).length = k := by
  induction k generalizing us with
  | zero =>
    have : us = [] := List.length_eq_zero_iff.1 (by omega)
    subst this; rfl
  | succ k ih =>
    match us, h with
    | a :: b :: l, h => rw [pairF, List.length_cons, ih l (by simp only [List.length_cons] at h; omega)]

theorem pairF_bytes (k : Nat) (us : List (α → Nat)) (h : us.length = 2 * k) (hb : ∀ u ∈ us, ∀ x, u x < 2 ^ 32) (x : α) :
    enc8 ((pairF us).map fun u => u x) = enc4 (us.map fun u => u x) := by
  induction k generalizing us with
  | zero =>
    have : us = [] := List.length_eq_zero_iff.1 (by omega)
    subst this; rfl
  | succ k ih =>
    match us, h with
    | a :: b :: l, h =>
      rw [pairF]
      show toByte (a x * 4294967296 + b x) 8 ++ enc8 _ = toByte (a x) 4 ++ (toByte (b x) 4 ++ enc4 _)
      rw [ih l (by simp only [List.length_cons] at h; omega) fun u hu => hb u (by simp [hu]), ← List.append_assoc, toByte_append]
      have := hb b (by simp) x
      rw [Nat.mod_eq_of_lt (show b x < 256 ^ 4 by omega)]
      rfl

theorem split_pk (hW : 128 ≤ W) (us : List (α → Nat)) (hb : ∀ u ∈ us, ∀ x, u x < 2 ^ 64) :
    split (pk W L fun _ => 4294967295) (us.map (pk W L)) = (splitF us).map (pk W L) := by
  induction us with
  | nil => rfl
  | cons u us ih =>
    rw [List.map_cons, split, splitF, List.map_cons, List.map_cons, ih fun v hv => hb v (by simp [hv])]
    have h := hb u (by simp)
    have e1 := hi (L := L) hW 32 32 (by omega) u h
    have e2 := lo (L := L) hW 32 (by omega) u h
    rw [show (2 ^ 32 - 1 : Nat) = 4294967295 from rfl, show (2 ^ 32 : Nat) = 4294967296 from rfl] at e1 e2
    rw [e1, e2]

theorem splitF_lt (us : List (α → Nat)) (hb : ∀ u ∈ us, ∀ x, u x < 2 ^ 64) : ∀ u ∈ splitF us, ∀ x, u x < 2 ^ 32 := by
  induction us with
  | nil => intro u hu; simp [splitF] at hu
  | cons v us ih =>
    intro u hu x
    rw [splitF, List.mem_cons, List.mem_cons] at hu
    have := hb v (by simp) x
    rcases hu with rfl | rfl | hu
    · show v x / 4294967296 < _; omega
    · show v x % 4294967296 < _; omega
    · exact ih (fun v hv => hb v (by simp [hv])) u hu x

theorem length_splitF (us : List (α → Nat)) : (splitF us).length = 2 * us.length := by
  induction us with
  | nil => rfl
  | cons v us ih => rw [splitF, List.length_cons, List.length_cons, List.length_cons, ih]; omega

theorem splitF_bytes (us : List (α → Nat)) (x : α) : enc4 ((splitF us).map fun u => u x) = enc8 (us.map fun u => u x) := by
  induction us with
  | nil => rfl
  | cons v us ih =>
    rw [splitF]
    show toByte (v x / 4294967296) 4 ++ (toByte (v x % 4294967296) 4 ++ enc4 _) = toByte (v x) 8 ++ enc8 _
    rw [ih, ← List.append_assoc, show toByte (v x) 8 = toByte (v x / 256 ^ 4) 4 ++ toByte (v x) 4 from Model.toByte_add _ 4 4, ← toByte_mod 4 (v x)]
    rfl

theorem tP_rep (O : Ops) (hO : 128 ≤ O.W) (hB : O.B = 32) (n nw : Nat) (hn : n = 8 * nw) (hnw : O.nw = 2 * nw) (hn2 : n ≤ 64) (seed : Bytes) (hs : seed.length = n) (mid : V8 UInt64)
    (hm : mid = compress H0 (seed ++ List.replicate (128 - n) 0)) {α : Type} (l : Nat) (hl : l ≤ 100) (L : List α) (layer tree type : Nat) (w1 w2 w3 : α → Nat) (X : List Nat) (v : α → Bytes)
    (h0 : layer < 256) (ht : tree < 2 ^ 64) (hy : type < 256)
    (h1 : ∀ x ∈ L, w1 x < 2 ^ 32) (h2 : ∀ x ∈ L, w2 x < 2 ^ 32) (h3 : ∀ x ∈ L, w3 x < 2 ^ 32) (hX : Reps O enc4 l L X v) :
    Reps O enc4 1 L (tP (mid.map UInt64.toNat) nw (pk O.W L fun _ => 1) layer tree type (pk O.W L w1) (pk O.W L w2) (pk O.W L w3) X) fun x =>
      sha512Block n seed ⟨layer, tree, type, w1 x, w2 x, w3 x⟩ (v x) := by
  obtain ⟨us, a, b, rfl, d⟩ := hX
  have m : ∀ w : α → Nat, ∀ x, w x % 2 ^ 32 < 2 ^ 32 := fun w x => Nat.mod_lt _ (by omega)
  have c : ∀ w : α → Nat, (∀ x ∈ L, w x < 2 ^ 32) → pk O.W L w = pk O.W L fun x => w x % 2 ^ 32 := fun w h => pk_congr fun x hx => (Nat.mod_eq_of_lt (h x hx)).symm
  have ha : us.length = 2 * (nw * l) := by rw [a, hnw, Nat.mul_assoc]
  have hlp := length_pairF _ us ha
  have hlen : (pairF us).length < 100000 := by
    rw [hlp]
    have : nw * l ≤ 8 * 100 := Nat.mul_le_mul (by omega) hl
    omega
  rw [hB] at b
  obtain ⟨vs, a', b', c', d'⟩ := blockP_ok (L := L) hO n nw hn hn2 seed hs mid hm layer tree type h0 ht hy (fun x => w1 x % 2 ^ 32) (fun x => w2 x % 2 ^ 32) (fun x => w3 x % 2 ^ 32)
    (m w1) (m w2) (m w3) (pairF us) (pairF_lt us b) hlen
  rw [c w1 h1, c w2 h2, c w3 h3]
  unfold tP
  rw [forceL_eq, forceL_eq, pair_pk, c', const_pk, split_pk hO _ b']
  refine ⟨splitF vs, by rw [length_splitF, a', hnw, Nat.mul_one], by rw [hB]; exact splitF_lt _ b', rfl, fun x hx => ?_⟩
  rw [splitF_bytes, d', pairF_bytes _ us ha b, d x hx, Nat.mod_eq_of_lt (h1 x hx), Nat.mod_eq_of_lt (h2 x hx), Nat.mod_eq_of_lt (h3 x hx)]

/-- `m` and `m5` are the states after the block of the public seed, `sk` the words of the secret seed; values have `2 * nw` words. -/
def ops (m m5 : V8 Nat) (nw : Nat) (sk : List Nat) : Ops where
  W := 128
  B := 32
  le := by omega
  nw := 2 * nw
  F I layer tree type A1 A2 A3 X := S256.blockP m (2 * nw) I layer tree type A1 A2 A3 X
  T I layer tree type A1 A2 A3 X := tP m5 nw I layer tree type A1 A2 A3 X
  prf I layer tree type A1 A2 A3 := S256.blockP m (2 * nw) I layer tree type A1 A2 A3 (sk.map fun s => Nat.mul s I)

theorem sound (n nw : Nat) (hn : n = 8 * nw) (hn2 : n ≤ 32) (seed : Bytes) (hs : seed.length = n) (mid : V8 UInt32)
    (hm : mid = Sha256.compress Sha256.H0 (seed ++ List.replicate (64 - n) 0)) (mid5 : V8 UInt64) (hm5 : mid5 = compress H0 (seed ++ List.replicate (128 - n) 0))
    (sk : List Nat) (hk : sk.length = 2 * nw) (hb : ∀ s ∈ sk, s < 2 ^ 32) :
    Sound (ops (mid.map UInt32.toNat) (mid5.map UInt64.toNat) nw sk) enc4 (sha2L35Fns n) seed (enc4 sk) where
  nil := rfl
  app := S256.enc4_append
  F L layer tree type w1 w2 w3 X v h0 ht hy h1 h2 h3 hX :=
    S256.blockP_rep (ops (mid.map UInt32.toNat) (mid5.map UInt64.toNat) nw sk) (by show 64 ≤ 128; omega) rfl n (by show n = 4 * (2 * nw); omega) hn2 seed hs mid hm 1 (by omega) L layer tree type w1 w2 w3 X v h0 ht hy h1 h2 h3 hX
  T l L layer tree type w1 w2 w3 X v hl h0 ht hy h1 h2 h3 hX :=
    tP_rep (ops (mid.map UInt32.toNat) (mid5.map UInt64.toNat) nw sk) (Nat.le_refl _) rfl n nw hn rfl (by omega) seed hs mid5 hm5 l hl L layer tree type w1 w2 w3 X v h0 ht hy h1 h2 h3 hX
  prf L layer tree type w1 w2 w3 h0 ht hy h1 h2 h3 :=
    S256.blockP_rep (ops (mid.map UInt32.toNat) (mid5.map UInt64.toNat) nw sk) (by show 64 ≤ 128; omega) rfl n (by show n = 4 * (2 * nw); omega) hn2 seed hs mid hm 1 (by omega) L layer tree type w1 w2 w3 _ _ h0 ht hy h1 h2 h3
      (S256.const_rep (ops (mid.map UInt32.toNat) (mid5.map UInt64.toNat) nw sk) sk hk hb L)

end Kat.S512
