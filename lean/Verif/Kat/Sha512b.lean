import Verif.Kat.Sha512
import Verif.Proof.VerifyLoop
noncomputable section
namespace Kat.S512
open Spec Spec.Sha512

/-- The message schedule, continued without end. -/
def sw (M : List UInt64) (t : Nat) : UInt64 :=
  if t < 16 then M.getD t 0 else smallSigma1 (sw M (t - 2)) + sw M (t - 7) + smallSigma0 (sw M (t - 15)) + sw M (t - 16)

theorem sw_lt (M : List UInt64) (t : Nat) (h : t < 16) : sw M t = M.getD t 0 := by rw [sw, if_pos h]
theorem sw_ge (M : List UInt64) (t : Nat) (h : 16 ≤ t) : sw M t = smallSigma1 (sw M (t - 2)) + sw M (t - 7) + smallSigma0 (sw M (t - 15)) + sw M (t - 16) := by
  rw [sw, if_neg (by omega)]

theorem schedule_sw (M : List UInt64) (hM : M.length = 16) (t : Nat) (ht : t < 80) : (schedule M).getD t 0 = sw M t := by
  induction t using Nat.strongRecOn with
  | _ t ih =>
    by_cases h : t < 16
    · rw [sw_lt M t h, Model.Sha512.schedule_eq]
      exact Model.ext_getD_old _ _ _ _ _ (by omega)
    · rw [Model.Sha512.schedule_rec M hM t (by omega) ht, sw_ge M t (by omega), ih (t - 2) (by omega) (by omega), ih (t - 7) (by omega) (by omega),
        ih (t - 15) (by omega) (by omega), ih (t - 16) (by omega) (by omega)]

theorem srounds_sw (M : List UInt64) (Ks : List UInt64) (t : Nat) (v : V8 UInt64) :
    srounds Ks (sw M t) (sw M (t + 1)) (sw M (t + 2)) (sw M (t + 3)) (sw M (t + 4)) (sw M (t + 5)) (sw M (t + 6)) (sw M (t + 7)) (sw M (t + 8)) (sw M (t + 9))
      (sw M (t + 10)) (sw M (t + 11)) (sw M (t + 12)) (sw M (t + 13)) (sw M (t + 14)) (sw M (t + 15)) v =
    (Ks.zip ((List.range' t Ks.length).map (sw M))).foldl (fun v kw => round kw.1 kw.2 v) v := by
  induction Ks generalizing t v with
  | nil => rfl
  | cons K Ks ih =>
    rw [srounds, List.length_cons, List.range'_succ, List.map_cons, List.zip_cons_cons, List.foldl_cons, ← ih]
    have : smallSigma1 (sw M (t + 14)) + sw M (t + 9) + smallSigma0 (sw M (t + 1)) + sw M t = sw M (t + 16) := by
      rw [sw_ge M (t + 16) (by omega)]
      simp only [Nat.add_sub_cancel, show t + 16 - 2 = t + 14 by omega, show t + 16 - 7 = t + 9 by omega, show t + 16 - 15 = t + 1 by omega]
    rw [this]

/-- Compression of one block given by its words. -/
def cw (v : V8 UInt64) (ws : List UInt64) : V8 UInt64 := V8.map2 (· + ·) v ((K.zip (schedule ws)).foldl (fun v kw => round kw.1 kw.2 v) v)

theorem schedule_range (M : List UInt64) (hM : M.length = 16) : schedule M = (List.range' 0 80).map (sw M) := by
  refine Model.Shake.list_ext_getD 0 ?_ fun i hi => ?_
  · rw [Model.Sha512.length_schedule, hM]; simp
  · rw [Model.Sha512.length_schedule, hM] at hi
    rw [schedule_sw _ hM _ hi, List.getD_eq_getElem?_getD, List.getElem?_map, List.getElem?_range' (by omega)]
    simp

theorem srounds_gen (Ks : List UInt64) (hK : Ks.length = 80) (w0 w1 w2 w3 w4 w5 w6 w7 w8 w9 w10 w11 w12 w13 w14 w15 : UInt64) (v : V8 UInt64) :
    srounds Ks w0 w1 w2 w3 w4 w5 w6 w7 w8 w9 w10 w11 w12 w13 w14 w15 v =
      (Ks.zip (schedule [w0, w1, w2, w3, w4, w5, w6, w7, w8, w9, w10, w11, w12, w13, w14, w15])).foldl (fun v kw => round kw.1 kw.2 v) v := by
  have := srounds_sw [w0, w1, w2, w3, w4, w5, w6, w7, w8, w9, w10, w11, w12, w13, w14, w15] Ks 0 v
  simp only [Nat.zero_add] at this
  rw [hK, ← schedule_range _ rfl] at this
  repeat rw [sw_lt _ _ (by omega)] at this
  exact this

theorem srounds_eq (w0 w1 w2 w3 w4 w5 w6 w7 w8 w9 w10 w11 w12 w13 w14 w15 : UInt64) (v : V8 UInt64) :
    V8.map2 (· + ·) v (srounds K w0 w1 w2 w3 w4 w5 w6 w7 w8 w9 w10 w11 w12 w13 w14 w15 v) = cw v [w0, w1, w2, w3, w4, w5, w6, w7, w8, w9, w10, w11, w12, w13, w14, w15] := by
  unfold cw
  rw [srounds_gen K (by rw [← Model.Sha512.K_eq]; rfl)]

end Kat.S512
