import Verif.Proof.KeccakLanes
import Mathlib.Data.Fintype.Basic
/-!
# The permutation of fips202.c is Keccak-f[1600]
-/
namespace Model.Shake
open Spec.Keccak

/-- All rounds, on lanes. -/
def rounds (k : Nat) (A : Lanes) : Lanes :=
  (List.range k).foldl (fun A r => roundL (RoundConstants.getD r 0) A) A

theorem rounds_succ (k : Nat) (A : Lanes) :
    rounds (k + 1) A = roundL (RoundConstants.getD k 0) (rounds k A) := by
  simp [rounds, List.range_succ]

theorem RC_length : RoundConstants.length = 24 := rfl

theorem permute0_ok (A : Lanes) (t : UInt64) :
    permute0 (A.toList ++ [t]) = .ok ((rounds 24 A).toList ++ [t]) := by
  unfold permute0
  rw [load_ok, ok_bind]
  rw [loop_eq' (fun i => rounds (2 * i) A) 12 A rfl]
  · rw [ok_bind, store_ok]
  · intro i hi
    rw [rd_getD 0 (by rw [RC_length]; omega), ok_bind, rd_getD 0 (by rw [RC_length]; omega), ok_bind,
      body2_eq, show 2 * (i + 1) = 2 * i + 1 + 1 by omega, rounds_succ, rounds_succ]

theorem permute1_ok (A : Lanes) (t : UInt64) :
    permute1 (A.toList ++ [t]) = .ok ((rounds 24 A).toList ++ [t]) := by
  unfold permute1
  rw [loop_eq' (fun i => (rounds (2 * i) A).toList ++ [t]) 12 (A.toList ++ [t]) rfl]
  intro i hi
  rw [load_ok, ok_bind, rd_getD 0 (by rw [RC_length]; omega), ok_bind,
    rd_getD 0 (by rw [RC_length]; omega), ok_bind,
    body2_eq, store_ok, show 2 * (i + 1) = 2 * i + 1 + 1 by omega, rounds_succ, rounds_succ]

theorem rndc_eq : rndc = RoundConstants := rfl

theorem permute2_ok (A : Lanes) (t : UInt64) (bc : List UInt64) (hb : bc.length = 5) :
    permute2 bc (A.toList ++ [t]) = .ok ((rounds 24 A).toList ++ [t]) := by
  unfold permute2
  obtain ⟨s, e, h1, h2⟩ := loop_inv (body := round2)
    (fun i s => s.1 = (rounds i A).toList ++ [t] ∧ s.2.length = 5) 24 0 (A.toList ++ [t], bc) ⟨rfl, hb⟩
    (by
      rintro i ⟨st, b⟩ _ hi ⟨h1, h2⟩
      simp only at h1 h2
      obtain ⟨b', hb', e⟩ := round2_ok i (by omega) (rounds i A) b t h2
      refine ⟨_, by rw [h1]; exact e, ?_, hb'⟩
      rw [rounds_succ, rndc_eq])
  rw [e, ok_bind, h1]

theorem permute_ok (opt : Nat) (A : Lanes) (t : UInt64) :
    permute opt (A.toList ++ [t]) = .ok ((rounds 24 A).toList ++ [t]) := by
  unfold permute
  split
  · exact permute2_ok A t _ rfl
  · split
    · exact permute1_ok A t
    · exact permute0_ok A t

/-! ## Lanes and bits -/

/-- Bit `z` of a lane. -/
def bit (w : UInt64) (z : Fin 64) : Bool := w.toBitVec.getLsbD z.val

@[simp] theorem bit_xor (a b : UInt64) (z : Fin 64) : bit (a ^^^ b) z = (bit a z ^^ bit b z) := by
  simp [bit]
@[simp] theorem bit_and (a b : UInt64) (z : Fin 64) : bit (a &&& b) z = (bit a z && bit b z) := by
  simp [bit]
@[simp] theorem bit_not (a : UInt64) (z : Fin 64) : bit (~~~a) z = !(bit a z) := by
  simp [bit]

theorem shAmt (k : Nat) (h : k < 64) : ((UInt64.ofNat k).toBitVec % 64).toNat = k := by
  rw [BitVec.toNat_umod, UInt64.toBitVec_ofNat', BitVec.toNat_ofNat]
  show k % 2 ^ 64 % 64 = k
  omega

theorem bit_ROL (a : UInt64) (k : Nat) (h0 : 0 < k) (h : k < 64) (z : Fin 64) :
    bit (ROL a k) z = bit a (z - Fin.ofNat 64 k) := by
  obtain ⟨z, hz⟩ := z
  have hs : (⟨z, hz⟩ - Fin.ofNat 64 k : Fin 64).val = (64 - k + z) % 64 := by
    rw [Fin.sub_def]; simp [Nat.mod_eq_of_lt h]
  simp only [bit, ROL, UInt64.toBitVec_xor, UInt64.toBitVec_shiftLeft, UInt64.toBitVec_shiftRight, hs,
    BitVec.getLsbD_xor]
  simp only [BitVec.shiftLeft_eq', BitVec.ushiftRight_eq',
    BitVec.getLsbD_shiftLeft, BitVec.getLsbD_ushiftRight, shAmt k h, shAmt (64 - k) (by omega)]
  by_cases hzk : z < k
  · rw [Nat.mod_eq_of_lt (show 64 - k + z < 64 by omega)]; simp [hzk]
  · rw [show (64 - k + z) % 64 = z - k by omega]
    simp [hzk, hz, BitVec.getLsbD_of_ge a.toBitVec (64 - k + z) (by omega)]

/-- The lane at `(x, y)`. -/
def Lanes.at (A : Lanes) (x y : Fin 5) : UInt64 := A.toList.getD (5 * y.val + x.val) 0

/-- The state array of a list of lanes. -/
def Lanes.bits (A : Lanes) : State := fun x y z => bit (A.at x y) z

theorem RC_ok (r : Nat) (hr : r < 24) (z : Fin 64) : bit (RoundConstants.getD r 0) z = RC r z := by
  have : ∀ r : Fin 24, ∀ z : Fin 64, bit (RoundConstants.getD r.val 0) z = RC r.val z := by
    decide +kernel
  exact this ⟨r, hr⟩ z

/-- Rotation by any amount. -/
def rotl (w : UInt64) (k : Nat) : UInt64 := if k % 64 = 0 then w else ROL w (k % 64)

theorem bit_rotl (w : UInt64) (k : Nat) (z : Fin 64) : bit (rotl w k) z = bit w (z - Fin.ofNat 64 k) := by
  have e : Fin.ofNat 64 k = Fin.ofNat 64 (k % 64) := by
    apply Fin.ext; simp
  unfold rotl
  split
  · rename_i h
    rw [e, h]; congr 1
    have hz := z.isLt
    apply Fin.ext; simp [Fin.sub_def]; omega
  · rw [bit_ROL _ _ (by omega) (by omega), e]

/-- The column parities. -/
def colF (a : Fin 5 → Fin 5 → UInt64) (x : Fin 5) : UInt64 :=
  a x 0 ^^^ a x 1 ^^^ a x 2 ^^^ a x 3 ^^^ a x 4

/-- Theta on lanes. -/
def thetaF (a : Fin 5 → Fin 5 → UInt64) (x y : Fin 5) : UInt64 :=
  a x y ^^^ (colF a (x - 1) ^^^ ROL (colF a (x + 1)) 1)

/-- Theta, Rho, Pi on lanes. -/
def thrhopiF (a : Fin 5 → Fin 5 → UInt64) (x y : Fin 5) : UInt64 :=
  rotl (thetaF a (x + 3 * y) x) (rhoOffset (x + 3 * y) x)

/-- One round on lanes. -/
def rndF (rc : UInt64) (a : Fin 5 → Fin 5 → UInt64) (x y : Fin 5) : UInt64 :=
  let v := thrhopiF a x y ^^^ ((~~~thrhopiF a (x + 1) y) &&& thrhopiF a (x + 2) y)
  if x = 0 ∧ y = 0 then v ^^^ rc else v

theorem bits_thrhopiF (a : Fin 5 → Fin 5 → UInt64) (x y : Fin 5) (z : Fin 64) :
    bit (thrhopiF a x y) z = pi (rho (theta fun x y z => bit (a x y) z)) x y z := by
  simp only [thrhopiF, bit_rotl, pi, rho, theta, thetaF, bit_xor, colF]
  rw [bit_ROL _ _ (by omega) (by omega)]
  simp only [bit_xor]
  rfl

theorem bits_rndF (r : Nat) (hr : r < 24) (a : Fin 5 → Fin 5 → UInt64) (x y : Fin 5) (z : Fin 64) :
    bit (rndF (RoundConstants.getD r 0) a x y) z = Rnd (fun x y z => bit (a x y) z) r x y z := by
  simp only [rndF, Rnd, iota, chi, ← bits_thrhopiF]
  by_cases h : x = 0 ∧ y = 0
  · rw [if_pos h, if_pos h, ← RC_ok r hr]
    simp only [bit_xor, bit_and, bit_not, Bool.xor_true]
  · rw [if_neg h, if_neg h]
    simp only [bit_xor, bit_and, bit_not, Bool.xor_true]

theorem roundL_at (rc : UInt64) (A : Lanes) (x y : Fin 5) :
    (roundL rc A).at x y = rndF rc A.at x y := by
  obtain ⟨a0, a1, a2, a3, a4, a5, a6, a7, a8, a9, a10, a11, a12, a13, a14, a15, a16, a17, a18, a19, a20, a21, a22, a23, a24⟩ := A
  fin_cases x <;> fin_cases y <;> krfl

theorem roundL_ok (r : Nat) (hr : r < 24) (A : Lanes) :
    (roundL (RoundConstants.getD r 0) A).bits = Rnd A.bits r := by
  funext x y z
  simp only [Lanes.bits, roundL_at]
  exact bits_rndF r hr _ x y z

theorem rounds_bits (k : Nat) (hk : k ≤ 24) (A : Lanes) :
    (rounds k A).bits = (List.range k).foldl Rnd A.bits := by
  induction k with
  | zero => rfl
  | succ k ih =>
    rw [rounds_succ, roundL_ok k (by omega), ih (by omega), List.range_succ, List.foldl_append]; rfl

end Model.Shake
