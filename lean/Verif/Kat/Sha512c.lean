import Verif.Kat.Sha512b
import Verif.Kat.Bytes
/-!
# SHA-512 of many messages of blocks side by side
-/
noncomputable section
namespace Kat.S512
open Spec Spec.Sha512

/-- The constants of the rounds. -/
def KK : List Nat :=
  [0x428a2f98d728ae22, 0x7137449123ef65cd, 0xb5c0fbcfec4d3b2f, 0xe9b5dba58189dbbc, 0x3956c25bf348b538, 0x59f111f1b605d019, 0x923f82a4af194f9b, 0xab1c5ed5da6d8118,
   0xd807aa98a3030242, 0x12835b0145706fbe, 0x243185be4ee4b28c, 0x550c7dc3d5ffb4e2, 0x72be5d74f27b896f, 0x80deb1fe3b1696b1, 0x9bdc06a725c71235, 0xc19bf174cf692694,
   0xe49b69c19ef14ad2, 0xefbe4786384f25e3, 0xfc19dc68b8cd5b5, 0x240ca1cc77ac9c65, 0x2de92c6f592b0275, 0x4a7484aa6ea6e483, 0x5cb0a9dcbd41fbd4, 0x76f988da831153b5,
   0x983e5152ee66dfab, 0xa831c66d2db43210, 0xb00327c898fb213f, 0xbf597fc7beef0ee4, 0xc6e00bf33da88fc2, 0xd5a79147930aa725, 0x6ca6351e003826f, 0x142929670a0e6e70,
   0x27b70a8546d22ffc, 0x2e1b21385c26c926, 0x4d2c6dfc5ac42aed, 0x53380d139d95b3df, 0x650a73548baf63de, 0x766a0abb3c77b2a8, 0x81c2c92e47edaee6, 0x92722c851482353b,
   0xa2bfe8a14cf10364, 0xa81a664bbc423001, 0xc24b8b70d0f89791, 0xc76c51a30654be30, 0xd192e819d6ef5218, 0xd69906245565a910, 0xf40e35855771202a, 0x106aa07032bbd1b8,
   0x19a4c116b8d2d0c8, 0x1e376c085141ab53, 0x2748774cdf8eeb99, 0x34b0bcb5e19b48a8, 0x391c0cb3c5c95a63, 0x4ed8aa4ae3418acb, 0x5b9cca4f7763e373, 0x682e6ff3d6b2b8a3,
   0x748f82ee5defb2fc, 0x78a5636f43172f60, 0x84c87814a1f0ab72, 0x8cc702081a6439ec, 0x90befffa23631e28, 0xa4506cebde82bde9, 0xbef9a3f7b2c67915, 0xc67178f2e372532b,
   0xca273eceea26619c, 0xd186b8c721c0c207, 0xeada7dd6cde0eb1e, 0xf57d4f7fee6ed178, 0x6f067aa72176fba, 0xa637dc5a2c898a6, 0x113f9804bef90dae, 0x1b710b35131c471b,
   0x28db77f523047d84, 0x32caab7b40c72493, 0x3c9ebe0a15c9bebc, 0x431d67c49c100d4c, 0x4cc5d4becb3e42b6, 0x597f299cfc657e2a, 0x5fcb6fab3ad6faec, 0x6c44198c4a475817]

theorem KK_eq : KK = K.map UInt64.toNat := by rw [← Model.Sha512.K_eq]; decide +kernel

/-- Compress `n` blocks of sixteen words. -/
def absorb {β : Type} (I M : Nat) : Nat → List Nat → (a b c d e f g h : Nat) → (Nat → Nat → Nat → Nat → Nat → Nat → Nat → Nat → β) → β
  | 0, _, a, b, c, d, e, f, g, h, k => k a b c d e f g h
  | n + 1, ws, a, b, c, d, e, f, g, h, k =>
    match ws with
    | w0 :: w1 :: w2 :: w3 :: w4 :: w5 :: w6 :: w7 :: w8 :: w9 :: w10 :: w11 :: w12 :: w13 :: w14 :: w15 :: rest =>
      rounds I M KK w0 w1 w2 w3 w4 w5 w6 w7 w8 w9 w10 w11 w12 w13 w14 w15 a b c d e f g h fun a' b' c' d' e' f' g' h' =>
        force (Nat.land (Nat.add a a') M) fun a'' =>
        force (Nat.land (Nat.add b b') M) fun b'' =>
        force (Nat.land (Nat.add c c') M) fun c'' =>
        force (Nat.land (Nat.add d d') M) fun d'' =>
        force (Nat.land (Nat.add e e') M) fun e'' =>
        force (Nat.land (Nat.add f f') M) fun f'' =>
        force (Nat.land (Nat.add g g') M) fun g'' =>
        force (Nat.land (Nat.add h h') M) fun h'' =>
        absorb I M n rest a'' b'' c'' d'' e'' f'' g'' h'' k
    | _ => k a b c d e f g h

theorem absorb_cons {β : Type} (I M n : Nat) (w0 w1 w2 w3 w4 w5 w6 w7 w8 w9 w10 w11 w12 w13 w14 w15 : Nat) (rest : List Nat) (a b c d e f g h : Nat) (k : Nat → Nat → Nat → Nat → Nat → Nat → Nat → Nat → β) :
    absorb I M (n + 1) (w0 :: w1 :: w2 :: w3 :: w4 :: w5 :: w6 :: w7 :: w8 :: w9 :: w10 :: w11 :: w12 :: w13 :: w14 :: w15 :: rest) a b c d e f g h k =
      rounds I M KK w0 w1 w2 w3 w4 w5 w6 w7 w8 w9 w10 w11 w12 w13 w14 w15 a b c d e f g h fun a' b' c' d' e' f' g' h' =>
        force (Nat.land (Nat.add a a') M) fun a'' =>
        force (Nat.land (Nat.add b b') M) fun b'' =>
        force (Nat.land (Nat.add c c') M) fun c'' =>
        force (Nat.land (Nat.add d d') M) fun d'' =>
        force (Nat.land (Nat.add e e') M) fun e'' =>
        force (Nat.land (Nat.add f f') M) fun f'' =>
        force (Nat.land (Nat.add g g') M) fun g'' =>
        force (Nat.land (Nat.add h h') M) fun h'' =>
        absorb I M n rest a'' b'' c'' d'' e'' f'' g'' h'' k := rfl

/-- The same for one message. -/
def sabsorbG (cw : V8 UInt64 → List UInt64 → V8 UInt64) : Nat → List UInt64 → V8 UInt64 → V8 UInt64
  | 0, _, v => v
  | n + 1, ws, v =>
    match ws with
    | w0 :: w1 :: w2 :: w3 :: w4 :: w5 :: w6 :: w7 :: w8 :: w9 :: w10 :: w11 :: w12 :: w13 :: w14 :: w15 :: rest => sabsorbG cw n rest (cw v [w0, w1, w2, w3, w4, w5, w6, w7, w8, w9, w10, w11, w12, w13, w14, w15])
    | _ => v

theorem sabsorbG_cons (cw : V8 UInt64 → List UInt64 → V8 UInt64) (n : Nat) (w0 w1 w2 w3 w4 w5 w6 w7 w8 w9 w10 w11 w12 w13 w14 w15 : UInt64) (rest : List UInt64) (v : V8 UInt64) :
    sabsorbG cw (n + 1) (w0 :: w1 :: w2 :: w3 :: w4 :: w5 :: w6 :: w7 :: w8 :: w9 :: w10 :: w11 :: w12 :: w13 :: w14 :: w15 :: rest) v = sabsorbG cw n rest (cw v [w0, w1, w2, w3, w4, w5, w6, w7, w8, w9, w10, w11, w12, w13, w14, w15]) := rfl

/-- The same for one message. -/
def sabsorb : Nat → List UInt64 → V8 UInt64 → V8 UInt64 := sabsorbG cw

theorem sabsorb_cons (n : Nat) (w0 w1 w2 w3 w4 w5 w6 w7 w8 w9 w10 w11 w12 w13 w14 w15 : UInt64) (rest : List UInt64) (v : V8 UInt64) :
    sabsorb (n + 1) (w0 :: w1 :: w2 :: w3 :: w4 :: w5 :: w6 :: w7 :: w8 :: w9 :: w10 :: w11 :: w12 :: w13 :: w14 :: w15 :: rest) v = sabsorb n rest (cw v [w0, w1, w2, w3, w4, w5, w6, w7, w8, w9, w10, w11, w12, w13, w14, w15]) :=
  sabsorbG_cons cw n w0 w1 w2 w3 w4 w5 w6 w7 w8 w9 w10 w11 w12 w13 w14 w15 rest v

theorem sixteen {γ : Type _} (l : List γ) (h : 16 ≤ l.length) : ∃ w0 w1 w2 w3 w4 w5 w6 w7 w8 w9 w10 w11 w12 w13 w14 w15 rest, l = w0 :: w1 :: w2 :: w3 :: w4 :: w5 :: w6 :: w7 :: w8 :: w9 :: w10 :: w11 :: w12 :: w13 :: w14 :: w15 :: rest := by
  match l, h with
  | w0 :: w1 :: w2 :: w3 :: w4 :: w5 :: w6 :: w7 :: w8 :: w9 :: w10 :: w11 :: w12 :: w13 :: w14 :: w15 :: rest, _ => exact ⟨w0, w1, w2, w3, w4, w5, w6, w7, w8, w9, w10, w11, w12, w13, w14, w15, rest, rfl⟩

variable {W : Nat} {L : List α}

theorem add_mask (hW : 128 ≤ W) (u v : α → UInt64) : Nat.land (Nat.add (pw W L u) (pw W L v)) (M64 W L) = pw W L fun x => u x + v x := by
  have : Nat.add (pw W L u) (pw W L v) = pk W L fun x => (u x).toNat + (v x).toNat := pk_add _ _
  rw [this, mask_pk hW _ fun x => by have := u64 (u x); have := u64 (v x); omega]
  exact pk_congr fun x _ => congrArg _ (ofNat_eq (UInt64.toNat_add _ _).symm)

theorem absorb_pw {β : Type} (hW : 128 ≤ W) (n : Nat) (fs : List (α → UInt64)) (hn : fs.length = 16 * n) (v : α → V8 UInt64)
    (k : Nat → Nat → Nat → Nat → Nat → Nat → Nat → Nat → β) :
    absorb (pk W L fun _ => 1) (M64 W L) n (fs.map (pw W L))
      (pw W L fun x => (v x).a) (pw W L fun x => (v x).b) (pw W L fun x => (v x).c) (pw W L fun x => (v x).d)
      (pw W L fun x => (v x).e) (pw W L fun x => (v x).f) (pw W L fun x => (v x).g) (pw W L fun x => (v x).h) k =
    (fun r : α → V8 UInt64 => k (pw W L fun x => (r x).a) (pw W L fun x => (r x).b) (pw W L fun x => (r x).c) (pw W L fun x => (r x).d)
      (pw W L fun x => (r x).e) (pw W L fun x => (r x).f) (pw W L fun x => (r x).g) (pw W L fun x => (r x).h))
      (fun x => sabsorb n (fs.map fun f => f x) (v x)) := by
  induction n generalizing fs v with
  | zero => rfl
  | succ n ih =>
    obtain ⟨w0, w1, w2, w3, w4, w5, w6, w7, w8, w9, w10, w11, w12, w13, w14, w15, rest, rfl⟩ := sixteen fs (by omega)
    simp only [List.map_cons]
    rw [absorb_cons, KK_eq, rounds_pw hW]
    simp only [force_eq, add_mask hW, sabsorb_cons]
    have hr : rest.length = 16 * n := by simp only [List.length_cons] at hn; omega
    refine Eq.trans (ih rest hr (fun x => V8.map2 (· + ·) (v x) (srounds K (w0 x) (w1 x) (w2 x) (w3 x) (w4 x) (w5 x) (w6 x) (w7 x) (w8 x) (w9 x) (w10 x) (w11 x) (w12 x) (w13 x) (w14 x) (w15 x) (v x)))) ?_
    simp only [srounds_eq]

/-- The bytes of words. -/
def enc8 (ws : List Nat) : Bytes := ws.flatMap fun w => toByte w 8

theorem enc8_append (a b : List Nat) : enc8 (a ++ b) = enc8 a ++ enc8 b := List.flatMap_append

theorem words_enc8 (ws : List Nat) : words (enc8 ws) = ws.map UInt64.ofNat := by
  unfold words enc8
  rw [show (ws.flatMap fun w => toByte w 8) = (ws.map fun w => toByte w 8).flatten ++ [] by rw [List.append_nil, List.flatMap_def],
    Model.blocks_flatten 8 (by omega) _ (by intro b hb; obtain ⟨w, _, rfl⟩ := List.mem_map.1 hb; exact Model.length_toByte _ _), Model.blocks_nil, List.append_nil,
    List.map_map]
  refine List.map_congr_left fun w _ => ?_
  simp only [Function.comp, toInt_toByte]
  exact ofNat_eq (by simp)

theorem compress_enc8 (v : V8 UInt64) (ws : List Nat) : compress v (enc8 ws) = cw v (ws.map UInt64.ofNat) := by
  unfold compress cw
  rw [words_enc8]

theorem sabsorb_bytes (n : Nat) (ws : List Nat) (hn : ws.length = 16 * n) (v : V8 UInt64) :
    (blocks 128 (enc8 ws)).foldl compress v = sabsorb n (ws.map UInt64.ofNat) v := by
  induction n generalizing ws v with
  | zero =>
    have : ws = [] := by cases ws with | nil => rfl | cons _ _ => simp at hn
    subst this; rfl
  | succ n ih =>
    obtain ⟨w0, w1, w2, w3, w4, w5, w6, w7, w8, w9, w10, w11, w12, w13, w14, w15, rest, rfl⟩ := sixteen ws (by omega)
    have hr : rest.length = 16 * n := by simp only [List.length_cons] at hn; omega
    have e : enc8 (w0 :: w1 :: w2 :: w3 :: w4 :: w5 :: w6 :: w7 :: w8 :: w9 :: w10 :: w11 :: w12 :: w13 :: w14 :: w15 :: rest) = enc8 [w0, w1, w2, w3, w4, w5, w6, w7, w8, w9, w10, w11, w12, w13, w14, w15] ++ enc8 rest :=
      enc8_append [w0, w1, w2, w3, w4, w5, w6, w7, w8, w9, w10, w11, w12, w13, w14, w15] rest
    rw [e, Model.blocks_cons 128 (by omega) _ _ (by rw [enc8, flatten_len]; rfl), List.foldl_cons, compress_enc8, ih rest hr]
    simp only [List.map_cons, List.map_nil, sabsorb_cons]

/-- The standard's hash of a message whose padding is given by words. -/
theorem hash_words (M : Bytes) (n : Nat) (ws : List Nat) (hn : ws.length = 16 * n) (hp : pad M = enc8 ws) :
    Sha512.hash M = enc8 ((sabsorb n (ws.map UInt64.ofNat) H0).toList.map UInt64.toNat) := by
  unfold Sha512.hash
  rw [hp, sabsorb_bytes n ws hn, enc8, List.flatMap_map]

end Kat.S512
