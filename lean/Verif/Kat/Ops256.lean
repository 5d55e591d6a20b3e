import Verif.Kat.Sha256d
import Verif.Kat.Eng
/-!
# The packed hash functions of the SHA-2 sets of category 1
-/
noncomputable section
namespace Kat.S256
open Spec Spec.Sha256

/-- `m` is the state after the block of the public seed, `sk` the words of the secret seed. -/
def ops (m : V8 Nat) (nw : Nat) (sk : List Nat) : Ops where
  W := 64
  B := 32
  le := by omega
  nw := nw
  F I layer tree type A1 A2 A3 X := blockP m nw I layer tree type A1 A2 A3 X
  T I layer tree type A1 A2 A3 X := blockP m nw I layer tree type A1 A2 A3 X
  prf I layer tree type A1 A2 A3 := blockP m nw I layer tree type A1 A2 A3 (sk.map fun s => Nat.mul s I)

/-- One hash on any lanes. -/
theorem blockP_rep (O : Ops) (hO : 64 ≤ O.W) (hB : O.B = 32) (n : Nat) (hn : n = 4 * O.nw) (hn2 : n ≤ 32) (seed : Bytes) (hs : seed.length = n) (mid : V8 UInt32)
    (hm : mid = compress H0 (seed ++ List.replicate (64 - n) 0)) {α : Type} (l : Nat) (hl : l ≤ 100) (L : List α) (layer tree type : Nat) (w1 w2 w3 : α → Nat) (X : List Nat) (v : α → Bytes)
    (h0 : layer < 256) (ht : tree < 2 ^ 64) (hy : type < 256)
    (h1 : ∀ x ∈ L, w1 x < 2 ^ 32) (h2 : ∀ x ∈ L, w2 x < 2 ^ 32) (h3 : ∀ x ∈ L, w3 x < 2 ^ 32) (hX : Reps O enc4 l L X v) :
    Reps O enc4 1 L (blockP (mid.map UInt32.toNat) O.nw (pk O.W L fun _ => 1) layer tree type (pk O.W L w1) (pk O.W L w2) (pk O.W L w3) X) fun x =>
      sha256Block n seed ⟨layer, tree, type, w1 x, w2 x, w3 x⟩ (v x) := by
  obtain ⟨us, a, b, rfl, d⟩ := hX
  have m : ∀ w : α → Nat, ∀ x, w x % 2 ^ 32 < 2 ^ 32 := fun w x => Nat.mod_lt _ (by omega)
  have c : ∀ w : α → Nat, (∀ x ∈ L, w x < 2 ^ 32) → pk O.W L w = pk O.W L fun x => w x % 2 ^ 32 := fun w h => pk_congr fun x hx => (Nat.mod_eq_of_lt (h x hx)).symm
  have hlen : us.length < 100000 := by
    rw [a]
    have : O.nw * l ≤ 8 * 100 := Nat.mul_le_mul (by omega) hl
    omega
  rw [hB] at b
  obtain ⟨vs, a', b', c', d'⟩ := blockP_ok (L := L) hO n O.nw hn hn2 seed hs mid hm layer tree type h0 ht hy (fun x => w1 x % 2 ^ 32) (fun x => w2 x % 2 ^ 32) (fun x => w3 x % 2 ^ 32)
    (m w1) (m w2) (m w3) us b hlen
  rw [c w1 h1, c w2 h2, c w3 h3]
  refine ⟨vs, by rw [a', Nat.mul_one], by rw [hB]; exact b', c', fun x hx => ?_⟩
  rw [d', d x hx, Nat.mod_eq_of_lt (h1 x hx), Nat.mod_eq_of_lt (h2 x hx), Nat.mod_eq_of_lt (h3 x hx)]

theorem const_rep (O : Ops) (sk : List Nat) (hk : sk.length = O.nw) (hb : ∀ s ∈ sk, s < 2 ^ O.B) (L : List α) :
    Reps O enc 1 L (sk.map fun s => Nat.mul s (pk O.W L fun _ => 1)) fun _ => enc sk := by
  refine ⟨sk.map fun s _ => s, by simp [hk], fun u hu x => ?_, ?_, fun x _ => ?_⟩
  · obtain ⟨s, h, rfl⟩ := List.mem_map.1 hu; exact hb s h
  · rw [List.map_map]; exact List.map_congr_left fun s _ => const_pk' s L
  · rw [List.map_map]; congr 1; exact List.map_id' _

theorem sound (n nw : Nat) (hn : n = 4 * nw) (hn2 : n ≤ 32) (seed : Bytes) (hs : seed.length = n) (mid : V8 UInt32)
    (hm : mid = compress H0 (seed ++ List.replicate (64 - n) 0)) (sk : List Nat) (hk : sk.length = nw) (hb : ∀ s ∈ sk, s < 2 ^ 32) :
    Sound (ops (mid.map UInt32.toNat) nw sk) enc4 (sha2L1Fns n) seed (enc4 sk) where
  nil := rfl
  app := enc4_append
  F L layer tree type w1 w2 w3 X v h0 ht hy h1 h2 h3 hX :=
    blockP_rep (ops (mid.map UInt32.toNat) nw sk) (Nat.le_refl _) rfl n hn hn2 seed hs mid hm 1 (by omega) L layer tree type w1 w2 w3 X v h0 ht hy h1 h2 h3 hX
  T l L layer tree type w1 w2 w3 X v hl h0 ht hy h1 h2 h3 hX :=
    blockP_rep (ops (mid.map UInt32.toNat) nw sk) (Nat.le_refl _) rfl n hn hn2 seed hs mid hm l hl L layer tree type w1 w2 w3 X v h0 ht hy h1 h2 h3 hX
  prf L layer tree type w1 w2 w3 h0 ht hy h1 h2 h3 :=
    blockP_rep (ops (mid.map UInt32.toNat) nw sk) (Nat.le_refl _) rfl n hn hn2 seed hs mid hm 1 (by omega) L layer tree type w1 w2 w3 _ _ h0 ht hy h1 h2 h3
      (const_rep (ops (mid.map UInt32.toNat) nw sk) sk hk hb L)

end Kat.S256
