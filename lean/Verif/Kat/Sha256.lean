import Verif.Kat.Pack
import Verif.Proof.KRfl
import Verif.Proof.Sha256
/-!
# SHA-256 of many messages side by side, for the kernel
-/
noncomputable section
namespace Kat.S256
open Spec Spec.Sha256

/-- Three rotations and their exclusive or. -/
def S (M a b c x : Nat) : Nat :=
  (fun y => Nat.land (Nat.xor (Nat.xor (Nat.shiftRight y a) (Nat.shiftRight y b)) (Nat.shiftRight y c)) M) (Nat.mul x 4294967297)
/-- Two rotations and a shift. -/
def s (M a b c x : Nat) : Nat :=
  (fun y => Nat.land (Nat.xor (Nat.xor (Nat.shiftRight y a) (Nat.shiftRight y b)) (Nat.shiftRight x c)) M) (Nat.mul x 4294967297)

/-- The rounds, with the sixteen words of the schedule that are still needed; `I` has 1 and `M` has `2^32 - 1` in each lane. -/
def rounds {β : Type} (I M : Nat) (Ks : List Nat) : (w0 w1 w2 w3 w4 w5 w6 w7 w8 w9 w10 w11 w12 w13 w14 w15 a b c d e f g h : Nat) → (Nat → Nat → Nat → Nat → Nat → Nat → Nat → Nat → β) → β :=
  List.rec (motive := fun _ => (w0 w1 w2 w3 w4 w5 w6 w7 w8 w9 w10 w11 w12 w13 w14 w15 a b c d e f g h : Nat) → (Nat → Nat → Nat → Nat → Nat → Nat → Nat → Nat → β) → β)
    (fun _ _ _ _ _ _ _ _ _ _ _ _ _ _ _ _ a b c d e f g h k => k a b c d e f g h)
    (fun K _ next w0 w1 w2 w3 w4 w5 w6 w7 w8 w9 w10 w11 w12 w13 w14 w15 a b c d e f g h k =>
    force (Nat.add (Nat.add (Nat.add h (S M 6 11 25 e)) (Nat.xor g (Nat.land e (Nat.xor f g)))) (Nat.add (Nat.mul K I) w0)) fun T1 =>
    force (Nat.land (Nat.add T1 (Nat.add (S M 2 13 22 a) (Nat.xor (Nat.land a (Nat.xor b c)) (Nat.land b c)))) M) fun a' =>
    force (Nat.land (Nat.add d T1) M) fun e' =>
    force (Nat.land (Nat.add (Nat.add (s M 17 19 10 w14) w9) (Nat.add (s M 7 18 3 w1) w0)) M) fun w16 =>
    next w1 w2 w3 w4 w5 w6 w7 w8 w9 w10 w11 w12 w13 w14 w15 w16 a' a b c e' e f g k) Ks

theorem rounds_nil {β : Type} (I M w0 w1 w2 w3 w4 w5 w6 w7 w8 w9 w10 w11 w12 w13 w14 w15 a b c d e f g h : Nat) (k : Nat → Nat → Nat → Nat → Nat → Nat → Nat → Nat → β) : rounds I M [] w0 w1 w2 w3 w4 w5 w6 w7 w8 w9 w10 w11 w12 w13 w14 w15 a b c d e f g h k = k a b c d e f g h := rfl

theorem rounds_cons {β : Type} (I M K : Nat) (Ks : List Nat) (w0 w1 w2 w3 w4 w5 w6 w7 w8 w9 w10 w11 w12 w13 w14 w15 a b c d e f g h : Nat) (k : Nat → Nat → Nat → Nat → Nat → Nat → Nat → Nat → β) :
    rounds I M (K :: Ks) w0 w1 w2 w3 w4 w5 w6 w7 w8 w9 w10 w11 w12 w13 w14 w15 a b c d e f g h k =
    force (Nat.add (Nat.add (Nat.add h (S M 6 11 25 e)) (Nat.xor g (Nat.land e (Nat.xor f g)))) (Nat.add (Nat.mul K I) w0)) fun T1 =>
    force (Nat.land (Nat.add T1 (Nat.add (S M 2 13 22 a) (Nat.xor (Nat.land a (Nat.xor b c)) (Nat.land b c)))) M) fun a' =>
    force (Nat.land (Nat.add d T1) M) fun e' =>
    force (Nat.land (Nat.add (Nat.add (s M 17 19 10 w14) w9) (Nat.add (s M 7 18 3 w1) w0)) M) fun w16 =>
    rounds I M Ks w1 w2 w3 w4 w5 w6 w7 w8 w9 w10 w11 w12 w13 w14 w15 w16 a' a b c e' e f g k := rfl

/-- The same for one message. -/
def srounds : List UInt32 → (w0 w1 w2 w3 w4 w5 w6 w7 w8 w9 w10 w11 w12 w13 w14 w15 : UInt32) → V8 UInt32 → V8 UInt32
  | [], _,_,_,_,_,_,_,_,_,_,_,_,_,_,_,_, v => v
  | K :: Ks, w0,w1,w2,w3,w4,w5,w6,w7,w8,w9,w10,w11,w12,w13,w14,w15, v =>
    srounds Ks w1 w2 w3 w4 w5 w6 w7 w8 w9 w10 w11 w12 w13 w14 w15 (smallSigma1 w14 + w9 + smallSigma0 w1 + w0) (round K w0 v)

/-- 32-bit words in the lanes. -/
def pw (W : Nat) (L : List α) (u : α → UInt32) : Nat := pk W L fun x => (u x).toNat

variable {W : Nat} {L : List α}

theorem u32 (u : UInt32) : u.toNat < 2 ^ 32 := u.toNat_lt
theorem u32W (hW : 64 ≤ W) (u : UInt32) : u.toNat < 2 ^ W := Nat.lt_of_lt_of_le (u32 u) (Nat.pow_le_pow_right (by omega) (by omega))
theorem twice (hW : 64 ≤ W) (u : UInt32) : u.toNat * 4294967297 < 2 ^ W := by
  have := u32 u
  have h : u.toNat * 4294967297 < 2 ^ 64 := by omega
  exact Nat.lt_of_lt_of_le h (Nat.pow_le_pow_right (by omega) hW)

theorem rotr (u : UInt32) (a : Nat) (ha : a < 32) : ((u.toNat * 4294967297) >>> a) &&& 4294967295 = (ROTR a u).toNat := by
  apply Nat.eq_of_testBit_eq; intro j
  have e : u.toNat * 4294967297 = 2 ^ 32 * u.toNat + u.toNat := by omega
  rw [Nat.testBit_and, Nat.testBit_shiftRight, e, Nat.testBit_two_pow_mul_add _ (u32 u)]
  rw [show (4294967295 : Nat) = 2 ^ 32 - 1 from rfl, Nat.testBit_two_pow_sub_one]
  show _ = (BitVec.toNat (u.toBitVec.rotateRight a)).testBit j
  rw [← BitVec.getLsbD, BitVec.getLsbD_rotateRight]
  by_cases hj : j < 32
  · simp only [hj, decide_true, Bool.and_true, Nat.mod_eq_of_lt ha]
    split
    · rw [show decide (j < 32 - a) = true from decide_eq_true (by omega)]; rfl
    · rw [show decide (j < 32 - a) = false from decide_eq_false (by omega), show a + j - 32 = j - (32 - a) by omega]; rfl
  · rw [show decide (j < 32 - a % 32) = false from decide_eq_false (by omega)]
    simp [hj]

theorem shr (u : UInt32) (a : Nat) : (u.toNat >>> a) &&& 4294967295 = (SHR a u).toNat := by
  rw [show (4294967295 : Nat) = 2 ^ 32 - 1 from rfl, Nat.and_two_pow_sub_one_eq_mod, Nat.mod_eq_of_lt]
  · show _ = BitVec.toNat (u.toBitVec.ushiftRight a)
    rw [BitVec.ushiftRight_eq, BitVec.toNat_ushiftRight]; rfl
  · exact Nat.lt_of_le_of_lt (Nat.shiftRight_le _ _) (u32 u)

/-- The lane masks. -/
def M32 (W : Nat) (L : List α) : Nat := pk W L fun _ => 4294967295

theorem S_pw (hW : 64 ≤ W) {a b c : Nat} (ha : a < 32) (hb : b < 32) (hc : c < 32) (u : α → UInt32) :
    S (M32 W L) a b c (pw W L u) = pw W L fun x => ROTR a (u x) ^^^ ROTR b (u x) ^^^ ROTR c (u x) := by
  show (((pk W L fun x => (u x).toNat) * 4294967297) >>> a ^^^ ((pk W L fun x => (u x).toNat) * 4294967297) >>> b ^^^
    ((pk W L fun x => (u x).toNat) * 4294967297) >>> c) &&& M32 W L = _
  rw [pk_mul, Nat.and_xor_distrib_right, Nat.and_xor_distrib_right, M32]
  have hm : ∀ x ∈ L, (4294967295 : Nat) < 2 ^ 32 := fun _ _ => by omega
  have ht : ∀ x ∈ L, (u x).toNat * 4294967297 < 2 ^ W := fun x _ => twice hW _
  rw [pk_shr ht (by omega) hm (by omega), pk_shr ht (by omega) hm (by omega), pk_shr ht (by omega) hm (by omega)]
  simp only [rotr _ _ ha, rotr _ _ hb, rotr _ _ hc]
  rw [pk_xor (fun _ _ => u32W hW _) (fun _ _ => u32W hW _), pk_xor (fun _ _ => Nat.xor_lt_two_pow (u32W hW _) (u32W hW _)) (fun _ _ => u32W hW _)]
  rfl

theorem s_pw (hW : 64 ≤ W) {a b c : Nat} (ha : a < 32) (hb : b < 32) (hc : c < 32) (u : α → UInt32) :
    s (M32 W L) a b c (pw W L u) = pw W L fun x => ROTR a (u x) ^^^ ROTR b (u x) ^^^ SHR c (u x) := by
  show (((pk W L fun x => (u x).toNat) * 4294967297) >>> a ^^^ ((pk W L fun x => (u x).toNat) * 4294967297) >>> b ^^^
    (pk W L fun x => (u x).toNat) >>> c) &&& M32 W L = _
  rw [pk_mul, Nat.and_xor_distrib_right, Nat.and_xor_distrib_right, M32]
  have hm : ∀ x ∈ L, (4294967295 : Nat) < 2 ^ 32 := fun _ _ => by omega
  have ht : ∀ x ∈ L, (u x).toNat * 4294967297 < 2 ^ W := fun x _ => twice hW _
  rw [pk_shr ht (by omega) hm (by omega), pk_shr ht (by omega) hm (by omega), pk_shr (fun _ _ => u32W hW _) (by omega) hm (by omega)]
  simp only [rotr _ _ ha, rotr _ _ hb, shr]
  rw [pk_xor (fun _ _ => u32W hW _) (fun _ _ => u32W hW _), pk_xor (fun _ _ => Nat.xor_lt_two_pow (u32W hW _) (u32W hW _)) (fun _ _ => u32W hW _)]
  rfl

theorem xor_pw (hW : 64 ≤ W) (u v : α → UInt32) : Nat.xor (pw W L u) (pw W L v) = pw W L fun x => u x ^^^ v x :=
  pk_xor (fun _ _ => u32W hW _) (fun _ _ => u32W hW _)

theorem land_pw (hW : 64 ≤ W) (u v : α → UInt32) : Nat.land (pw W L u) (pw W L v) = pw W L fun x => u x &&& v x :=
  pk_land (fun _ _ => u32W hW _) (fun _ _ => u32W hW _)

theorem mask_pk (hW : 64 ≤ W) (f : α → Nat) (h : ∀ x, f x < 2 ^ 64) : Nat.land (pk W L f) (M32 W L) = pw W L fun x => UInt32.ofNat (f x) := by
  show pk W L f &&& pk W L _ = _
  rw [pk_land (fun _ _ => Nat.lt_of_lt_of_le (h _) (Nat.pow_le_pow_right (by omega) hW))
    (fun _ _ => Nat.lt_of_lt_of_le (show _ < 2 ^ 64 by omega) (Nat.pow_le_pow_right (by omega) hW))]
  refine pk_congr fun x _ => ?_
  rw [show (4294967295 : Nat) = 2 ^ 32 - 1 from rfl, Nat.and_two_pow_sub_one_eq_mod]
  rfl

theorem ch_eq (e f g : UInt32) : g ^^^ (e &&& (f ^^^ g)) = Ch e f g := by
  apply UInt32.toBitVec_inj.1
  ext i hi
  simp [Ch]
  cases e.toBitVec[i] <;> cases f.toBitVec[i] <;> cases g.toBitVec[i] <;> rfl

theorem maj_eq (a b c : UInt32) : (a &&& (b ^^^ c)) ^^^ (b &&& c) = Maj a b c := by
  apply UInt32.toBitVec_inj.1
  ext i hi
  simp [Maj]
  cases a.toBitVec[i] <;> cases b.toBitVec[i] <;> cases c.toBitVec[i] <;> rfl

theorem ofNat_eq {a : Nat} {u : UInt32} (h : a % 2 ^ 32 = u.toNat) : UInt32.ofNat a = u := by
  apply UInt32.toNat_inj.1; exact h

/-- The rounds on all lanes are the rounds on each of them. -/
theorem rounds_pw {β : Type} (hW : 64 ≤ W) (Ks : List UInt32) (w0 w1 w2 w3 w4 w5 w6 w7 w8 w9 w10 w11 w12 w13 w14 w15 : α → UInt32) (v : α → V8 UInt32)
    (k : Nat → Nat → Nat → Nat → Nat → Nat → Nat → Nat → β) :
    rounds (pk W L fun _ => 1) (M32 W L) (Ks.map UInt32.toNat) (pw W L w0) (pw W L w1) (pw W L w2) (pw W L w3) (pw W L w4) (pw W L w5) (pw W L w6) (pw W L w7)
      (pw W L w8) (pw W L w9) (pw W L w10) (pw W L w11) (pw W L w12) (pw W L w13) (pw W L w14) (pw W L w15)
      (pw W L fun x => (v x).a) (pw W L fun x => (v x).b) (pw W L fun x => (v x).c) (pw W L fun x => (v x).d)
      (pw W L fun x => (v x).e) (pw W L fun x => (v x).f) (pw W L fun x => (v x).g) (pw W L fun x => (v x).h) k =
    (fun r : α → V8 UInt32 => k (pw W L fun x => (r x).a) (pw W L fun x => (r x).b) (pw W L fun x => (r x).c) (pw W L fun x => (r x).d)
      (pw W L fun x => (r x).e) (pw W L fun x => (r x).f) (pw W L fun x => (r x).g) (pw W L fun x => (r x).h))
      (fun x => srounds Ks (w0 x) (w1 x) (w2 x) (w3 x) (w4 x) (w5 x) (w6 x) (w7 x) (w8 x) (w9 x) (w10 x) (w11 x) (w12 x) (w13 x) (w14 x) (w15 x) (v x)) := by
  induction Ks generalizing w0 w1 w2 w3 w4 w5 w6 w7 w8 w9 w10 w11 w12 w13 w14 w15 v with
  | nil => rfl
  | cons K Ks ih =>
    rw [List.map_cons, rounds_cons, force_eq, force_eq, force_eq, force_eq]
    rw [S_pw hW (by omega) (by omega) (by omega), S_pw hW (by omega) (by omega) (by omega), s_pw hW (by omega) (by omega) (by omega),
      s_pw hW (by omega) (by omega) (by omega)]
    simp only [xor_pw hW, land_pw hW, ch_eq, maj_eq]
    have hK : Nat.mul K.toNat (pk W L fun _ => 1) = pw W L fun _ => K := by
      show K.toNat * _ = _
      rw [mul_pk]; simp only [Nat.mul_one]; rfl
    rw [hK]
    have hadd : ∀ f g : α → Nat, Nat.add (pk W L f) (pk W L g) = pk W L fun x => f x + g x := pk_add
    simp only [show ∀ u : α → UInt32, pw W L u = pk W L fun x => (u x).toNat from fun _ => rfl, hadd]
    rw [mask_pk hW _ ?_, mask_pk hW _ ?_, mask_pk hW _ ?_]
    · refine Eq.trans ?_ (ih w1 w2 w3 w4 w5 w6 w7 w8 w9 w10 w11 w12 w13 w14 w15 (fun x => smallSigma1 (w14 x) + w9 x + smallSigma0 (w1 x) + w0 x) (fun x => round K (w0 x) (v x)))
      congr 1
      · refine pk_congr fun x _ => congrArg _ (ofNat_eq ?_)
        simp only [UInt32.toNat_add, smallSigma1, smallSigma0]; omega
      · refine pk_congr fun x _ => congrArg _ (ofNat_eq ?_)
        simp only [UInt32.toNat_add, round, bigSigma1, bigSigma0]; omega
      · refine pk_congr fun x _ => congrArg _ (ofNat_eq ?_)
        simp only [UInt32.toNat_add, round, bigSigma1, bigSigma0]; omega
    all_goals
      intro x
      have H : ∀ u : UInt32, u.toNat < 2 ^ 32 := u32
      first
      | (have := H (ROTR 17 (w14 x) ^^^ ROTR 19 (w14 x) ^^^ SHR 10 (w14 x)); have := H (w9 x)
         have := H (ROTR 7 (w1 x) ^^^ ROTR 18 (w1 x) ^^^ SHR 3 (w1 x)); have := H (w0 x); omega)
      | (have := H (v x).d; have := H (v x).h; have := H (ROTR 6 (v x).e ^^^ ROTR 11 (v x).e ^^^ ROTR 25 (v x).e); have := H (Ch (v x).e (v x).f (v x).g)
         have := H K; have := H (w0 x); have := H (ROTR 2 (v x).a ^^^ ROTR 13 (v x).a ^^^ ROTR 22 (v x).a); have := H (Maj (v x).a (v x).b (v x).c); omega)

end Kat.S256
