import Verif.Kat.Hash256
import Verif.Kat.Sign
/-!
# SHA-256 of a long message in several steps
-/
noncomputable section
namespace Kat.S256
open Spec Spec.Sha256

theorem rounds_k {β γ : Type} (g : β → γ) (I M : Nat) (Ks : List Nat) (w0 w1 w2 w3 w4 w5 w6 w7 w8 w9 w10 w11 w12 w13 w14 w15 a b c d e f g' h : Nat)
    (k : Nat → Nat → Nat → Nat → Nat → Nat → Nat → Nat → β) :
    g (rounds I M Ks w0 w1 w2 w3 w4 w5 w6 w7 w8 w9 w10 w11 w12 w13 w14 w15 a b c d e f g' h k) =
      rounds I M Ks w0 w1 w2 w3 w4 w5 w6 w7 w8 w9 w10 w11 w12 w13 w14 w15 a b c d e f g' h fun a b c d e f g' h => g (k a b c d e f g' h) := by
  induction Ks generalizing w0 w1 w2 w3 w4 w5 w6 w7 w8 w9 w10 w11 w12 w13 w14 w15 a b c d e f g' h with
  | nil => rfl
  | cons K Ks ih => rw [rounds_cons, rounds_cons, force_eq, force_eq, force_eq, force_eq, force_eq, force_eq, force_eq, force_eq, ih]

/-- Compress `n` blocks, from a state to a state. -/
def step (n : Nat) (ws : List Nat) (s : V8 Nat) : V8 Nat := absorb 1 4294967295 n ws s.a s.b s.c s.d s.e s.f s.g s.h V8.mk

theorem absorb_step {β : Type} (n : Nat) (ws : List Nat) (a b c d e f g h : Nat) (k : Nat → Nat → Nat → Nat → Nat → Nat → Nat → Nat → β) (hn : 16 * n ≤ ws.length) :
    absorb 1 4294967295 n ws a b c d e f g h k = (fun v : V8 Nat => k v.a v.b v.c v.d v.e v.f v.g v.h) (absorb 1 4294967295 n ws a b c d e f g h V8.mk) := by
  induction n generalizing ws a b c d e f g h with
  | zero => rfl
  | succ n ih =>
    obtain ⟨w0, w1, w2, w3, w4, w5, w6, w7, w8, w9, w10, w11, w12, w13, w14, w15, rest, rfl⟩ := sixteen ws (by omega)
    simp only [List.length_cons] at hn
    rw [absorb_cons, absorb_cons]
    refine Eq.trans ?_ (rounds_k (fun v : V8 Nat => k v.a v.b v.c v.d v.e v.f v.g v.h) ..).symm
    congr 1
    funext a' b' c' d' e' f' g' h'
    simp only [force_eq]
    exact ih rest _ _ _ _ _ _ _ _ (by omega)

theorem step_app (n m : Nat) (P Q : List Nat) (s : V8 Nat) (hP : P.length = 16 * n) (hQ : Q.length = 16 * m) : step (n + m) (P ++ Q) s = step m Q (step n P s) := by
  induction n generalizing P s with
  | zero =>
    have : P = [] := List.length_eq_zero_iff.1 (by omega)
    subst this
    rw [Nat.zero_add]; rfl
  | succ n ih =>
    obtain ⟨w0, w1, w2, w3, w4, w5, w6, w7, w8, w9, w10, w11, w12, w13, w14, w15, rest, rfl⟩ := sixteen P (by omega)
    simp only [List.length_cons] at hP
    have e : ∀ n rest, 16 * n ≤ rest.length → step (n + 1) (w0 :: w1 :: w2 :: w3 :: w4 :: w5 :: w6 :: w7 :: w8 :: w9 :: w10 :: w11 :: w12 :: w13 :: w14 :: w15 :: rest) s =
        step n rest (step 1 [w0, w1, w2, w3, w4, w5, w6, w7, w8, w9, w10, w11, w12, w13, w14, w15] s) := by
      intro n rest hr
      unfold step
      rw [absorb_cons, absorb_cons]
      refine Eq.trans ?_ (rounds_k (fun v : V8 Nat => absorb 1 4294967295 n rest v.a v.b v.c v.d v.e v.f v.g v.h V8.mk) ..).symm
      congr 1
      funext a' b' c' d' e' f' g' h'
      simp only [force_eq]
      rfl
    rw [show n + 1 + m = n + m + 1 by omega]
    show step (n + m + 1) (w0 :: w1 :: w2 :: w3 :: w4 :: w5 :: w6 :: w7 :: w8 :: w9 :: w10 :: w11 :: w12 :: w13 :: w14 :: w15 :: (rest ++ Q)) s = _
    rw [e (n + m) (rest ++ Q) (by rw [List.length_append]; omega), e n rest (by omega), ih rest _ (by omega)]

def H0n : V8 Nat := ⟨0x6A09E667, 0xBB67AE85, 0x3C6EF372, 0xA54FF53A, 0x510E527F, 0x9B05688C, 0x1F83D9AB, 0x5BE0CD19⟩

/-- Compressing the `n` blocks `P`. -/
structure Seg (P : List Nat) (n : Nat) (s t : V8 Nat) : Prop where
  len : P.length = 16 * n
  eq : step n P s = t

theorem Seg.of (P : List Nat) (n : Nat) (s t : V8 Nat) (hl : Nat.beq P.length (Nat.mul 16 n) = true) (h : eqL (step n P s).toList t.toList = true) : Seg P n s t := by
  have := eqL_eq _ _ h
  simp only [V8.toList, List.cons.injEq, and_true] at this
  obtain ⟨h1, h2, h3, h4, h5, h6, h7, h8⟩ := this
  refine ⟨Nat.eq_of_beq_eq_true hl, ?_⟩
  cases t
  cases hs : step n P s
  rw [hs] at h1 h2 h3 h4 h5 h6 h7 h8
  simp only at h1 h2 h3 h4 h5 h6 h7 h8
  simp only [V8.mk.injEq]
  exact ⟨h1, h2, h3, h4, h5, h6, h7, h8⟩

theorem Seg.app {P Q : List Nat} {n m : Nat} {s t u : V8 Nat} (h₁ : Seg P n s t) (h₂ : Seg Q m t u) : Seg (P ++ Q) (n + m) s u :=
  ⟨by rw [List.length_append, h₁.len, h₂.len, Nat.mul_add], by rw [step_app _ _ _ _ _ h₁.len h₂.len, h₁.eq, h₂.eq]⟩

/-- The hash of the words `ws`, whose padding is `P`. -/
theorem Seg.hash {ws P : List Nat} {n : Nat} {t : V8 Nat} (h : Seg P n H0n t) (hp : eqL (padW ws) P = true) (hw : (ws.all fun w => Nat.blt w 4294967296) = true) (hn : n < 2 ^ 50) :
    Sha256.hash (enc4 ws) = enc4 t.toList := by
  have hp := eqL_eq _ _ hp
  have hl := h.len
  rw [← hp] at hl
  have hle : ws.length ≤ (padW ws).length := by unfold padW; rw [List.length_append]; omega
  rw [hash_long ws (fun w h => by simpa using List.all_eq_true.1 hw w h) (by omega)]
  congr 1
  unfold hashWords
  rw [show Nat.div (padW ws).length 16 = n by show _ / 16 = n; omega, absorb_step _ _ _ _ _ _ _ _ _ _ _ (by omega), hp, ← h.eq]
  rfl

end Kat.S256
