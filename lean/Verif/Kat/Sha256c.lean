import Verif.Kat.Sha256b
import Verif.Kat.Bytes
/-!
# SHA-256 of many messages of blocks side by side
-/
noncomputable section
namespace Kat.S256
open Spec Spec.Sha256

/-- The constants of the rounds. -/
def KK : List Nat :=
  [0x428a2f98, 0x71374491, 0xb5c0fbcf, 0xe9b5dba5, 0x3956c25b, 0x59f111f1, 0x923f82a4, 0xab1c5ed5, 0xd807aa98, 0x12835b01, 0x243185be, 0x550c7dc3, 0x72be5d74, 0x80deb1fe, 0x9bdc06a7, 0xc19bf174,
   0xe49b69c1, 0xefbe4786, 0x0fc19dc6, 0x240ca1cc, 0x2de92c6f, 0x4a7484aa, 0x5cb0a9dc, 0x76f988da, 0x983e5152, 0xa831c66d, 0xb00327c8, 0xbf597fc7, 0xc6e00bf3, 0xd5a79147, 0x06ca6351, 0x14292967,
   0x27b70a85, 0x2e1b2138, 0x4d2c6dfc, 0x53380d13, 0x650a7354, 0x766a0abb, 0x81c2c92e, 0x92722c85, 0xa2bfe8a1, 0xa81a664b, 0xc24b8b70, 0xc76c51a3, 0xd192e819, 0xd6990624, 0xf40e3585, 0x106aa070,
   0x19a4c116, 0x1e376c08, 0x2748774c, 0x34b0bcb5, 0x391c0cb3, 0x4ed8aa4a, 0x5b9cca4f, 0x682e6ff3, 0x748f82ee, 0x78a5636f, 0x84c87814, 0x8cc70208, 0x90befffa, 0xa4506ceb, 0xbef9a3f7, 0xc67178f2]

theorem KK_eq : KK = K.map UInt32.toNat := by rw [← Model.Sha256.K_eq]; decide +kernel

/-- Compress `n` blocks of sixteen words. -/
def absorb {β : Type} (I M : Nat) : Nat → List Nat → (a b c d e f g h : Nat) → (Nat → Nat → Nat → Nat → Nat → Nat → Nat → Nat → β) → β
  | 0, _, a, b, c, d, e, f, g, h, k => k a b c d e f g h
  | n + 1, ws, a, b, c, d, e, f, g, h, k =>
    match ws with
    | w0 :: w1 :: w2 :: w3 :: w4 :: w5 :: w6 :: w7 :: w8 :: w9 :: w10 :: w11 :: w12 :: w13 :: w14 :: w15 :: rest =>
      rounds I M KK w0 w1 w2 w3 w4 w5 w6 w7 w8 w9 w10 w11 w12 w13 w14 w15 a b c d e f g h fun a' b' c' d' e' f' g' h' =>
        force (Nat.land (Nat.add a a') M) fun a'' =>
        force (Nat.land (Nat.add b b') M) fun b'' =>
        force (Nat.land (Nat.add c c') M) fun c'' =>
        force (Nat.land (Nat.add d d') M) fun d'' =>
        force (Nat.land (Nat.add e e') M) fun e'' =>
        force (Nat.land (Nat.add f f') M) fun f'' =>
        force (Nat.land (Nat.add g g') M) fun g'' =>
        force (Nat.land (Nat.add h h') M) fun h'' =>
        absorb I M n rest a'' b'' c'' d'' e'' f'' g'' h'' k
    | _ => k a b c d e f g h

theorem absorb_cons {β : Type} (I M n : Nat) (w0 w1 w2 w3 w4 w5 w6 w7 w8 w9 w10 w11 w12 w13 w14 w15 : Nat) (rest : List Nat) (a b c d e f g h : Nat) (k : Nat → Nat → Nat → Nat → Nat → Nat → Nat → Nat → β) :
    absorb I M (n + 1) (w0 :: w1 :: w2 :: w3 :: w4 :: w5 :: w6 :: w7 :: w8 :: w9 :: w10 :: w11 :: w12 :: w13 :: w14 :: w15 :: rest) a b c d e f g h k =
      rounds I M KK w0 w1 w2 w3 w4 w5 w6 w7 w8 w9 w10 w11 w12 w13 w14 w15 a b c d e f g h fun a' b' c' d' e' f' g' h' =>
        force (Nat.land (Nat.add a a') M) fun a'' =>
        force (Nat.land (Nat.add b b') M) fun b'' =>
        force (Nat.land (Nat.add c c') M) fun c'' =>
        force (Nat.land (Nat.add d d') M) fun d'' =>
        force (Nat.land (Nat.add e e') M) fun e'' =>
        force (Nat.land (Nat.add f f') M) fun f'' =>
        force (Nat.land (Nat.add g g') M) fun g'' =>
        force (Nat.land (Nat.add h h') M) fun h'' =>
        absorb I M n rest a'' b'' c'' d'' e'' f'' g'' h'' k := rfl

/-- The same for one message. -/
def sabsorbG (cw : V8 UInt32 → List UInt32 → V8 UInt32) : Nat → List UInt32 → V8 UInt32 → V8 UInt32
  | 0, _, v => v
  | n + 1, ws, v =>
    match ws with
    | w0 :: w1 :: w2 :: w3 :: w4 :: w5 :: w6 :: w7 :: w8 :: w9 :: w10 :: w11 :: w12 :: w13 :: w14 :: w15 :: rest => sabsorbG cw n rest (cw v [w0, w1, w2, w3, w4, w5, w6, w7, w8, w9, w10, w11, w12, w13, w14, w15])
    | _ => v

theorem sabsorbG_cons (cw : V8 UInt32 → List UInt32 → V8 UInt32) (n : Nat) (w0 w1 w2 w3 w4 w5 w6 w7 w8 w9 w10 w11 w12 w13 w14 w15 : UInt32) (rest : List UInt32) (v : V8 UInt32) :
    sabsorbG cw (n + 1) (w0 :: w1 :: w2 :: w3 :: w4 :: w5 :: w6 :: w7 :: w8 :: w9 :: w10 :: w11 :: w12 :: w13 :: w14 :: w15 :: rest) v = sabsorbG cw n rest (cw v [w0, w1, w2, w3, w4, w5, w6, w7, w8, w9, w10, w11, w12, w13, w14, w15]) := rfl

/-- The same for one message. -/
def sabsorb : Nat → List UInt32 → V8 UInt32 → V8 UInt32 := sabsorbG cw

theorem sabsorb_cons (n : Nat) (w0 w1 w2 w3 w4 w5 w6 w7 w8 w9 w10 w11 w12 w13 w14 w15 : UInt32) (rest : List UInt32) (v : V8 UInt32) :
    sabsorb (n + 1) (w0 :: w1 :: w2 :: w3 :: w4 :: w5 :: w6 :: w7 :: w8 :: w9 :: w10 :: w11 :: w12 :: w13 :: w14 :: w15 :: rest) v = sabsorb n rest (cw v [w0, w1, w2, w3, w4, w5, w6, w7, w8, w9, w10, w11, w12, w13, w14, w15]) :=
  sabsorbG_cons cw n w0 w1 w2 w3 w4 w5 w6 w7 w8 w9 w10 w11 w12 w13 w14 w15 rest v

theorem sixteen {γ : Type _} (l : List γ) (h : 16 ≤ l.length) : ∃ w0 w1 w2 w3 w4 w5 w6 w7 w8 w9 w10 w11 w12 w13 w14 w15 rest, l = w0 :: w1 :: w2 :: w3 :: w4 :: w5 :: w6 :: w7 :: w8 :: w9 :: w10 :: w11 :: w12 :: w13 :: w14 :: w15 :: rest := by
  match l, h with
  | w0 :: w1 :: w2 :: w3 :: w4 :: w5 :: w6 :: w7 :: w8 :: w9 :: w10 :: w11 :: w12 :: w13 :: w14 :: w15 :: rest, _ => exact ⟨w0, w1, w2, w3, w4, w5, w6, w7, w8, w9, w10, w11, w12, w13, w14, w15, rest, rfl⟩

variable {W : Nat} {L : List α}

theorem add_mask (hW : 64 ≤ W) (u v : α → UInt32) : Nat.land (Nat.add (pw W L u) (pw W L v)) (M32 W L) = pw W L fun x => u x + v x := by
  have : Nat.add (pw W L u) (pw W L v) = pk W L fun x => (u x).toNat + (v x).toNat := pk_add _ _
  rw [this, mask_pk hW _ fun x => by have := u32 (u x); have := u32 (v x); omega]
  exact pk_congr fun x _ => congrArg _ (ofNat_eq (UInt32.toNat_add _ _).symm)

theorem absorb_pw {β : Type} (hW : 64 ≤ W) (n : Nat) (fs : List (α → UInt32)) (hn : fs.length = 16 * n) (v : α → V8 UInt32)
    (k : Nat → Nat → Nat → Nat → Nat → Nat → Nat → Nat → β) :
    absorb (pk W L fun _ => 1) (M32 W L) n (fs.map (pw W L))
      (pw W L fun x => (v x).a) (pw W L fun x => (v x).b) (pw W L fun x => (v x).c) (pw W L fun x => (v x).d)
      (pw W L fun x => (v x).e) (pw W L fun x => (v x).f) (pw W L fun x => (v x).g) (pw W L fun x => (v x).h) k =
    (fun r : α → V8 UInt32 => k (pw W L fun x => (r x).a) (pw W L fun x => (r x).b) (pw W L fun x => (r x).c) (pw W L fun x => (r x).d)
      (pw W L fun x => (r x).e) (pw W L fun x => (r x).f) (pw W L fun x => (r x).g) (pw W L fun x => (r x).h))
      (fun x => sabsorb n (fs.map fun f => f x) (v x)) := by
  induction n generalizing fs v with
  | zero => rfl
  | succ n ih =>
    obtain ⟨w0, w1, w2, w3, w4, w5, w6, w7, w8, w9, w10, w11, w12, w13, w14, w15, rest, rfl⟩ := sixteen fs (by omega)
    simp only [List.map_cons]
    rw [absorb_cons, KK_eq, rounds_pw hW]
    simp only [force_eq, add_mask hW, sabsorb_cons]
    have hr : rest.length = 16 * n := by simp only [List.length_cons] at hn; omega
    refine Eq.trans (ih rest hr (fun x => V8.map2 (· + ·) (v x) (srounds K (w0 x) (w1 x) (w2 x) (w3 x) (w4 x) (w5 x) (w6 x) (w7 x) (w8 x) (w9 x) (w10 x) (w11 x) (w12 x) (w13 x) (w14 x) (w15 x) (v x)))) ?_
    simp only [srounds_eq]

/-- The bytes of words. -/
def enc4 (ws : List Nat) : Bytes := ws.flatMap fun w => toByte w 4

theorem enc4_append (a b : List Nat) : enc4 (a ++ b) = enc4 a ++ enc4 b := List.flatMap_append

theorem words_enc4 (ws : List Nat) : words (enc4 ws) = ws.map UInt32.ofNat := by
  unfold words enc4
  rw [show (ws.flatMap fun w => toByte w 4) = (ws.map fun w => toByte w 4).flatten ++ [] by rw [List.append_nil, List.flatMap_def],
    Model.blocks_flatten 4 (by omega) _ (by intro b hb; obtain ⟨w, _, rfl⟩ := List.mem_map.1 hb; exact Model.length_toByte _ _), Model.blocks_nil, List.append_nil,
    List.map_map]
  refine List.map_congr_left fun w _ => ?_
  simp only [Function.comp, toInt_toByte]
  exact ofNat_eq (by simp)

theorem compress_enc4 (v : V8 UInt32) (ws : List Nat) : compress v (enc4 ws) = cw v (ws.map UInt32.ofNat) := by
  unfold compress cw
  rw [words_enc4]

theorem sabsorb_bytes (n : Nat) (ws : List Nat) (hn : ws.length = 16 * n) (v : V8 UInt32) :
    (blocks 64 (enc4 ws)).foldl compress v = sabsorb n (ws.map UInt32.ofNat) v := by
  induction n generalizing ws v with
  | zero =>
    have : ws = [] := by cases ws with | nil => rfl | cons _ _ => simp at hn
    subst this; rfl
  | succ n ih =>
    obtain ⟨w0, w1, w2, w3, w4, w5, w6, w7, w8, w9, w10, w11, w12, w13, w14, w15, rest, rfl⟩ := sixteen ws (by omega)
    have hr : rest.length = 16 * n := by simp only [List.length_cons] at hn; omega
    have e : enc4 (w0 :: w1 :: w2 :: w3 :: w4 :: w5 :: w6 :: w7 :: w8 :: w9 :: w10 :: w11 :: w12 :: w13 :: w14 :: w15 :: rest) = enc4 [w0, w1, w2, w3, w4, w5, w6, w7, w8, w9, w10, w11, w12, w13, w14, w15] ++ enc4 rest :=
      enc4_append [w0, w1, w2, w3, w4, w5, w6, w7, w8, w9, w10, w11, w12, w13, w14, w15] rest
    rw [e, Model.blocks_cons 64 (by omega) _ _ (by rw [enc4, flatten_len]; rfl), List.foldl_cons, compress_enc4, ih rest hr]
    simp only [List.map_cons, List.map_nil, sabsorb_cons]

/-- The standard's hash of a message whose padding is given by words. -/
theorem hash_words (M : Bytes) (n : Nat) (ws : List Nat) (hn : ws.length = 16 * n) (hp : pad M = enc4 ws) :
    Sha256.hash M = enc4 ((sabsorb n (ws.map UInt32.ofNat) H0).toList.map UInt32.toNat) := by
  unfold Sha256.hash
  rw [hp, sabsorb_bytes n ws hn, enc4, List.flatMap_map]

end Kat.S256
