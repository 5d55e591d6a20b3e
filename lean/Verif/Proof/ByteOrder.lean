import Verif.Proof.Sha256
import Verif.Proof.Sha512
/-!
# The hash functions keep the byte order of a context
-/
namespace Model

theorem bind_ok_inv {α β : Type} {x : C α} {f : α → C β} {b : β} (h : (x >>= f) = .ok b) : ∃ a, x = .ok a ∧ f a = .ok b := by
  cases x with
  | error e => cases h
  | ok a => exact ⟨a, rfl, h⟩

theorem wrSlice_len {x v X : Bytes} {i : Nat} (h : wrSlice x i v = .ok X) : X.length = x.length := by
  by_cases hi : i + v.length ≤ x.length
  · rw [wrSlice_ok hi] at h
    cases h
    simp; omega
  · unfold wrSlice at h; rw [if_neg hi] at h; cases h

namespace Sha256

theorem compress_big {c c' : Ctx} {b : Bytes} (h : compress c b = .ok c') : c'.big = c.big := by
  unfold compress at h
  obtain ⟨W, _, h⟩ := bind_ok_inv h
  obtain ⟨⟨V, S⟩, _, h⟩ := bind_ok_inv h
  cases h; rfl

theorem updateLoop_big {fuel : Nat} {c c' : Ctx} {p : Bytes} (h : updateLoop fuel c p = .ok c') : c'.big = c.big := by
  induction fuel generalizing c p with
  | zero => cases h
  | succ fuel ih =>
    unfold updateLoop at h
    by_cases hp : p.length = 0
    · rw [if_pos hp] at h; cases h; rfl
    rw [if_neg hp] at h
    by_cases hs : min (usub 64 c.num) p.length = 64
    · rw [if_pos hs] at h
      obtain ⟨q, _, h⟩ := bind_ok_inv h
      obtain ⟨d, e, h⟩ := bind_ok_inv h
      rw [ih h, compress_big e]
    · rw [if_neg hs] at h
      obtain ⟨q, _, h⟩ := bind_ok_inv h
      obtain ⟨d, _, h⟩ := bind_ok_inv h
      dsimp only at h
      split at h
      · cases h; rfl
      · obtain ⟨x, e, h⟩ := bind_ok_inv h
        rw [ih h, compress_big e]

/-- Absorbing does not change the byte order. -/
theorem update_big {c c' : Ctx} {p : Bytes} (h : update c p = .ok c') : c'.big = c.big := by
  unfold update at h
  have := updateLoop_big h
  exact this

/-- Nor does finalising. -/
theorem final_trunc_big {d d' : Bytes} {c c' : Ctx} {n : Nat} (h : final_trunc d c n = .ok (d', c')) : c'.big = c.big := by
  unfold final_trunc at h
  obtain ⟨f, _, h⟩ := bind_ok_inv h
  obtain ⟨c1, e1, h⟩ := bind_ok_inv h
  have key : ∀ c2 : Ctx, c2.big = c1.big → (do
      let data ← wrSlice c2.data c2.num (List.replicate (usub 56 c2.num) 0)
      let ctx ← update { c2 with data := data, num := 56 } f
      let digest ← loop (fun i d => do
        let hi ← rd ctx.h.toList i
        ts_ull_to_bytes d (4 * i) hi.toNat 4) (n / 4) 0 d
      (.ok (digest, ctx) : C (Bytes × Ctx))) = .ok (d', c') → c'.big = c.big := by
    intro c2 h2 h
    obtain ⟨x, _, h⟩ := bind_ok_inv h
    obtain ⟨c3, e3, h⟩ := bind_ok_inv h
    obtain ⟨y, _, h⟩ := bind_ok_inv h
    cases h
    rw [update_big e3]
    show c2.big = _
    rw [h2, update_big e1]
  dsimp only at h
  split at h
  · obtain ⟨c2, e2, h⟩ := bind_ok_inv h
    exact key c2 (update_big e2) h
  · exact key c1 rfl h

end Sha256

namespace Sha512

theorem compress_big {c c' : Ctx} {b : Bytes} (h : compress c b = .ok c') : c'.big = c.big := by
  unfold compress at h
  obtain ⟨W, _, h⟩ := bind_ok_inv h
  obtain ⟨⟨V, S⟩, _, h⟩ := bind_ok_inv h
  cases h; rfl

theorem updateLoop_big {fuel : Nat} {c c' : Ctx} {p : Bytes} (h : updateLoop fuel c p = .ok c') : c'.big = c.big := by
  induction fuel generalizing c p with
  | zero => cases h
  | succ fuel ih =>
    unfold updateLoop at h
    by_cases hp : p.length = 0
    · rw [if_pos hp] at h; cases h; rfl
    rw [if_neg hp] at h
    by_cases hs : min (usub 128 c.num) p.length = 128
    · rw [if_pos hs] at h
      obtain ⟨q, _, h⟩ := bind_ok_inv h
      obtain ⟨d, e, h⟩ := bind_ok_inv h
      rw [ih h, compress_big e]
    · rw [if_neg hs] at h
      obtain ⟨q, _, h⟩ := bind_ok_inv h
      obtain ⟨d, _, h⟩ := bind_ok_inv h
      dsimp only at h
      split at h
      · cases h; rfl
      · obtain ⟨x, e, h⟩ := bind_ok_inv h
        rw [ih h, compress_big e]

/-- Absorbing does not change the byte order. -/
theorem update_big {c c' : Ctx} {p : Bytes} (h : update c p = .ok c') : c'.big = c.big := by
  unfold update at h
  have := updateLoop_big h
  exact this

/-- Nor does finalising. -/
theorem final_trunc_big {d d' : Bytes} {c c' : Ctx} {n : Nat} (h : final_trunc d c n = .ok (d', c')) : c'.big = c.big := by
  unfold final_trunc at h
  obtain ⟨f, _, h⟩ := bind_ok_inv h
  obtain ⟨c1, e1, h⟩ := bind_ok_inv h
  have key : ∀ c2 : Ctx, c2.big = c1.big → (do
      let data ← wrSlice c2.data c2.num (List.replicate (usub 112 c2.num) 0)
      let ctx ← update { c2 with data := data, num := 112 } f
      let digest ← loop (fun i d => do
        let hi ← rd ctx.h.toList i
        ts_ull_to_bytes d (8 * i) hi.toNat 8) (n / 8) 0 d
      (.ok (digest, ctx) : C (Bytes × Ctx))) = .ok (d', c') → c'.big = c.big := by
    intro c2 h2 h
    obtain ⟨x, _, h⟩ := bind_ok_inv h
    obtain ⟨c3, e3, h⟩ := bind_ok_inv h
    obtain ⟨y, _, h⟩ := bind_ok_inv h
    cases h
    rw [update_big e3]
    show c2.big = _
    rw [h2, update_big e1]
  dsimp only at h
  split at h
  · obtain ⟨c2, e2, h⟩ := bind_ok_inv h
    exact key c2 (update_big e2) h
  · exact key c1 rfl h

end Sha512

end Model
