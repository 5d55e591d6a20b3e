import Verif.Proof.Keccak
import Verif.Proof.Blocks
import Mathlib.Data.Fintype.Pi
import Mathlib.Logic.Function.Iterate
/-!
# Byte view of the sponge
-/
namespace Model.Shake
open Spec.Keccak

/-! ## Bytes and bits -/

theorem length_bytesToBits (b : Bytes) : (bytesToBits b).length = 8 * b.length := by
  induction b with
  | nil => rfl
  | cons a b ih =>
    simp only [bytesToBits, List.flatMap_cons, List.length_append] at *
    simp [ih]; omega

theorem bytesToBits_append (a b : Bytes) : bytesToBits (a ++ b) = bytesToBits a ++ bytesToBits b := by
  simp [bytesToBits]

theorem bytesToBits_getD (b : Bytes) (i : Nat) (hi : i < 8 * b.length) :
    (bytesToBits b).getD i false = (b.getD (i / 8) 0).toNat.testBit (i % 8) := by
  induction b generalizing i with
  | nil => simp at hi
  | cons a b ih =>
    rw [show a :: b = [a] ++ b from rfl, bytesToBits_append]
    simp only [List.getD_eq_getElem?_getD]
    by_cases h : i < 8
    · rw [List.getElem?_append_left (by rw [length_bytesToBits]; simpa using h)]
      rw [show i / 8 = 0 by omega, show i % 8 = i by omega]
      simp [bytesToBits, h]
    · rw [List.getElem?_append_right (by rw [length_bytesToBits]; simp; omega)]
      rw [length_bytesToBits]
      have := ih (i - 8) (by simp at hi; omega)
      simp only [List.getD_eq_getElem?_getD] at this
      simp only [List.length_cons, List.length_nil, Nat.zero_add, Nat.mul_one]
      rw [this, show (i - 8) % 8 = i % 8 by omega, show i / 8 = (i - 8) / 8 + 1 by omega]
      simp

theorem length_bitsToBytes (l : List Bool) : (bitsToBytes l).length = l.length / 8 := by
  simp [bitsToBytes]

theorem byte_of_bits (f : Nat → Bool) (j : Nat) (hj : j < 8) :
    (UInt8.ofNat (((List.range 8).map fun j => 2 ^ j * (f j).toNat).sum)).toNat.testBit j = f j := by
  have key : ∀ b : Fin 8 → Bool, ∀ j : Fin 8,
      (UInt8.ofNat (2 ^ 0 * (b 0).toNat + (2 ^ 1 * (b 1).toNat + (2 ^ 2 * (b 2).toNat +
        (2 ^ 3 * (b 3).toNat + (2 ^ 4 * (b 4).toNat + (2 ^ 5 * (b 5).toNat +
        (2 ^ 6 * (b 6).toNat + (2 ^ 7 * (b 7).toNat + 0))))))))).toNat.testBit j.val = b j := by
    decide +kernel
  exact key (fun i => f i.val) ⟨j, hj⟩

theorem byte_bits_byte (b : UInt8) :
    UInt8.ofNat (((List.range 8).map fun j => 2 ^ j * (b.toNat.testBit j).toNat).sum) = b := by
  have key : ∀ n : Fin 256, UInt8.ofNat (((List.range 8).map fun j => 2 ^ j * (n.val.testBit j).toNat).sum) =
      UInt8.ofNat n.val := by decide +kernel
  have := key ⟨b.toNat, b.toNat_lt⟩
  simpa using this

theorem list_ext_getD {α : Type} (d : α) {a b : List α} (hl : a.length = b.length)
    (h : ∀ i, i < a.length → a.getD i d = b.getD i d) : a = b := by
  apply List.ext_getElem hl
  intro i h1 h2
  have := h i h1
  rwa [getD_of_lt a h1, getD_of_lt b h2] at this

theorem bitsToBytes_bytesToBits (b : Bytes) : bitsToBytes (bytesToBits b) = b := by
  apply list_ext_getD 0
  · rw [length_bitsToBytes, length_bytesToBits]; omega
  · intro i hi
    rw [length_bitsToBytes, length_bytesToBits] at hi
    rw [getD_of_lt _ (by rw [length_bitsToBytes, length_bytesToBits]; exact hi)]
    simp only [bitsToBytes, List.getElem_map, List.getElem_range]
    have : ((List.range 8).map fun j => 2 ^ j * ((bytesToBits b).getD (8 * i + j) false).toNat) =
        ((List.range 8).map fun j => 2 ^ j * ((b.getD i 0).toNat.testBit j).toNat) := by
      apply List.map_congr_left
      intro j hj
      have hj : j < 8 := by simpa using hj
      rw [bytesToBits_getD _ _ (by omega), show (8 * i + j) / 8 = i by omega,
        show (8 * i + j) % 8 = j by omega]
    rw [this, byte_bits_byte]

theorem bytesToBits_bitsToBytes (l : List Bool) (h : l.length % 8 = 0) :
    bytesToBits (bitsToBytes l) = l := by
  apply list_ext_getD false
  · rw [length_bytesToBits, length_bitsToBytes]; omega
  · intro i hi
    rw [length_bytesToBits, length_bitsToBytes] at hi
    rw [bytesToBits_getD _ _ (by rw [length_bitsToBytes]; exact hi)]
    rw [getD_of_lt _ (by rw [length_bitsToBytes]; omega)]
    simp only [bitsToBytes, List.getElem_map, List.getElem_range]
    rw [byte_of_bits (fun j => l.getD (8 * (i / 8) + j) false) (i % 8) (by omega)]
    congr 1; omega

theorem bytesToBits_take (b : Bytes) (k : Nat) : bytesToBits (b.take k) = (bytesToBits b).take (8 * k) := by
  by_cases h : k ≤ b.length
  · conv => rhs; rw [← List.take_append_drop k b, bytesToBits_append]
    rw [List.take_left' (by rw [length_bytesToBits]; simp; omega)]
  · rw [List.take_of_length_le (by omega), List.take_of_length_le (by rw [length_bytesToBits]; omega)]

theorem bytesToBits_drop (b : Bytes) (k : Nat) : bytesToBits (b.drop k) = (bytesToBits b).drop (8 * k) := by
  by_cases h : k ≤ b.length
  · conv => rhs; rw [← List.take_append_drop k b, bytesToBits_append]
    rw [List.drop_left' (by rw [length_bytesToBits]; simp; omega)]
  · rw [List.drop_of_length_le (by omega), List.drop_of_length_le (by rw [length_bytesToBits]; omega)]; rfl

theorem bytesToBits_zeros (k : Nat) : bytesToBits (List.replicate k 0) = List.replicate (8 * k) false := by
  induction k with
  | zero => rfl
  | succ k ih =>
    rw [List.replicate_succ, show (0 : UInt8) :: List.replicate k 0 = [0] ++ List.replicate k 0 from rfl,
      bytesToBits_append, ih, show 8 * (k + 1) = 8 + 8 * k by omega, ← List.replicate_append_replicate]
    rfl

theorem bxor_bytes (a b : Bytes) :
    bxor (bytesToBits a) (bytesToBits b) = bytesToBits (List.zipWith (· ^^^ ·) a b) := by
  apply list_ext_getD false
  · simp [bxor, length_bytesToBits, Nat.mul_min_mul_left]
  · intro i hi
    simp only [bxor, List.length_zipWith, length_bytesToBits] at hi
    rw [bytesToBits_getD _ _ (by simp; omega)]
    rw [getD_of_lt (bxor _ _) (by simp [bxor, length_bytesToBits]; omega)]
    simp only [bxor, List.getElem_zipWith]
    rw [← getD_of_lt (d := false), ← getD_of_lt (d := false), bytesToBits_getD _ _ (by omega),
      bytesToBits_getD _ _ (by omega)]
    rw [getD_of_lt (List.zipWith _ _ _) (by simp; omega), List.getElem_zipWith,
      getD_of_lt a (by omega), getD_of_lt b (by omega)]
    simp

/-! ## The state as 200 bytes -/

/-- Byte `p` of the state. -/
def byteAt (s : Ctx) (p : Nat) : UInt8 :=
  UInt8.ofNat ((s.getD (p / 8) 0) >>> UInt64.ofNat (8 * (p % 8))).toNat

/-- The state as a string of 200 bytes. -/
def stBytes (s : Ctx) : Bytes := (List.range 200).map (byteAt s)

theorem length_stBytes (s : Ctx) : (stBytes s).length = 200 := by simp [stBytes]

theorem stBytes_getD (s : Ctx) (p : Nat) (h : p < 200) : (stBytes s).getD p 0 = byteAt s p := by
  simp [stBytes, h]

theorem byteAt_bit (s : Ctx) (p j : Nat) (hj : j < 8) :
    (byteAt s p).toNat.testBit j = (s.getD (p / 8) 0).toBitVec.getLsbD (8 * (p % 8) + j) := by
  rw [byteAt, UInt8.toNat_ofNat', Nat.testBit_mod_two_pow]
  simp only [hj, decide_true, Bool.true_and]
  rw [← UInt64.toNat_toBitVec, UInt64.toBitVec_shiftRight, BitVec.ushiftRight_eq', BitVec.toNat_ushiftRight,
    shAmt _ (by omega), Nat.testBit_shiftRight]
  rfl

theorem ofState_getD (A : State) (i : Nat) (hi : i < 1600) :
    (ofState A).getD i false = A (Fin.ofNat 5 (i / 64)) (Fin.ofNat 5 (i / 320)) (Fin.ofNat 64 i) := by
  simp [ofState, hi]

theorem length_ofState (A : State) : (ofState A).length = 1600 := by simp [ofState]

theorem toState_ofState (A : State) : toState (ofState A) = A := by
  funext x y z
  have hx := x.isLt
  have hy := y.isLt
  have hz := z.isLt
  rw [toState, ofState_getD _ _ (by omega)]
  have e1 : Fin.ofNat 5 ((64 * (5 * y.val + x.val) + z.val) / 64) = x := by
    apply Fin.ext; simp only [Fin.ofNat]; omega
  have e2 : Fin.ofNat 5 ((64 * (5 * y.val + x.val) + z.val) / 320) = y := by
    apply Fin.ext; simp only [Fin.ofNat]; omega
  have e3 : Fin.ofNat 64 (64 * (5 * y.val + x.val) + z.val) = z := by
    apply Fin.ext; simp only [Fin.ofNat]; omega
  rw [e1, e2, e3]

theorem stBytes_bits (A : Lanes) (t : UInt64) :
    bytesToBits (stBytes (A.toList ++ [t])) = ofState A.bits := by
  apply list_ext_getD false
  · rw [length_bytesToBits, length_stBytes, length_ofState]
  · intro i hi
    rw [length_bytesToBits, length_stBytes] at hi
    rw [bytesToBits_getD _ _ (by rw [length_stBytes]; exact hi), stBytes_getD _ _ (by omega),
      byteAt_bit _ _ _ (by omega), ofState_getD _ _ (by omega)]
    simp only [Lanes.bits, Lanes.at, bit, Fin.ofNat]
    have h25 : A.toList.length = 25 := rfl
    rw [show 5 * (i / 320 % 5) + i / 64 % 5 = i / 8 / 8 by omega, show 8 * (i / 8 % 8) + i % 8 = i % 64 by omega]
    congr 2
    simp only [List.getD_eq_getElem?_getD]
    rw [List.getElem?_append_left (by omega)]

/-- `Keccak-f[1600]` on 200 bytes. -/
def F (S : Bytes) : Bytes := bitsToBytes (keccakF (bytesToBits S))

theorem length_keccakF (S : List Bool) : (keccakF S).length = 1600 := length_ofState _

theorem length_F (S : Bytes) : (F S).length = 200 := by
  rw [F, length_bitsToBytes, length_keccakF]

theorem bytesToBits_F (S : Bytes) : bytesToBits (F S) = keccakF (bytesToBits S) :=
  bytesToBits_bitsToBytes _ (by rw [length_keccakF])

theorem lanes_of (s : Ctx) (h : s.length = 26) : ∃ A : Lanes, ∃ t, s = A.toList ++ [t] := by
  match s, h with
  | [a0, a1, a2, a3, a4, a5, a6, a7, a8, a9, a10, a11, a12, a13, a14, a15, a16, a17, a18, a19, a20, a21, a22, a23, a24, t], _ =>
    exact ⟨⟨a0, a1, a2, a3, a4, a5, a6, a7, a8, a9, a10, a11, a12, a13, a14, a15, a16, a17, a18, a19, a20, a21, a22, a23, a24⟩, t, rfl⟩

/-- The C permutation, on the byte view; the position word is kept. -/
theorem permute_bytes (opt : Nat) (s : Ctx) (h : s.length = 26) :
    ∃ s', permute opt s = .ok s' ∧ s'.length = 26 ∧ s'.getD 25 0 = s.getD 25 0 ∧
      stBytes s' = F (stBytes s) := by
  obtain ⟨A, t, rfl⟩ := lanes_of s h
  refine ⟨_, permute_ok opt A t, rfl, rfl, ?_⟩
  rw [F, stBytes_bits, keccakF, toState_ofState, ← rounds_bits 24 (by omega), ← stBytes_bits _ t,
    bitsToBytes_bytesToBits]

/-! ## The sponge on bytes -/

/-- Xor a prefix into the state. -/
def xorB (S p : Bytes) : Bytes := List.zipWith (· ^^^ ·) S (p ++ List.replicate (200 - p.length) 0)

theorem length_xorB (S p : Bytes) (hS : S.length = 200) (hp : p.length ≤ 200) : (xorB S p).length = 200 := by
  simp [xorB, hS]; omega

/-- The state after absorbing the complete blocks of `M`. -/
def chainK (M : Bytes) : Bytes :=
  (Spec.blocks 136 M).foldl (fun S b => F (xorB S b)) (List.replicate 200 0)

theorem length_foldK (l : List Bytes) (S : Bytes) (hS : S.length = 200) :
    (l.foldl (fun S b => F (xorB S b)) S).length = 200 := by
  induction l generalizing S with
  | nil => exact hS
  | cons a l ih => exact ih _ (length_F _)

theorem length_chainK (M : Bytes) : (chainK M).length = 200 := length_foldK _ _ List.length_replicate

theorem absorb_bytes (P : Bytes) : absorb 1088 (bytesToBits P) = bytesToBits (chainK P) := by
  have key : ∀ k, k ≤ P.length / 136 →
      (List.range k).foldl
        (fun S i => keccakF (bxor S (((bytesToBits P).drop (i * 1088)).take 1088 ++ List.replicate (1600 - 1088) false)))
        (List.replicate 1600 false) =
      bytesToBits ((List.range k).foldl (fun S i => F (xorB S ((P.drop (i * 136)).take 136))) (List.replicate 200 0)) ∧
      ((List.range k).foldl (fun S i => F (xorB S ((P.drop (i * 136)).take 136))) (List.replicate 200 0)).length = 200 := by
    intro k
    induction k with
    | zero => intro _; exact ⟨(bytesToBits_zeros 200).symm, List.length_replicate⟩
    | succ k ih =>
      intro hk
      obtain ⟨ih1, ih2⟩ := ih (by omega)
      have h2 : (k + 1) * 136 ≤ P.length := Nat.le_trans (Nat.mul_le_mul_right _ hk) (Nat.div_mul_le_self _ _)
      simp only [List.range_succ, List.foldl_append, List.foldl_cons, List.foldl_nil]
      refine ⟨?_, length_F _⟩
      rw [ih1, bytesToBits_F, xorB, ← bxor_bytes, bytesToBits_append, bytesToBits_zeros, bytesToBits_take,
        bytesToBits_drop]
      have hl : ((P.drop (k * 136)).take 136).length = 136 := by simp; omega
      rw [hl, show 8 * (k * 136) = k * 1088 by omega]
  rw [absorb, length_bytesToBits, show 8 * P.length / 1088 = P.length / 136 by omega, (key _ (Nat.le_refl _)).1,
    chainK, Spec.blocks, List.foldl_map]

/-- The squeezing phase on bytes. -/
def sqB : Nat → Bytes → Bytes
  | 0, _ => []
  | j + 1, S => S.take 136 ++ sqB j (F S)

theorem squeeze_bytes (j : Nat) (S : Bytes) : squeeze 1088 j (bytesToBits S) = bytesToBits (sqB j S) := by
  induction j generalizing S with
  | zero => rfl
  | succ j ih =>
    rw [squeeze, sqB, bytesToBits_append, ← bytesToBits_F, ih, bytesToBits_take]

/-- Output byte `i` of the squeezing phase started in state `S`. -/
def stream (S : Bytes) (i : Nat) : UInt8 := (F^[i / 136] S).getD (i % 136) 0

theorem sqB_eq (j : Nat) (S : Bytes) (hS : S.length = 200) :
    sqB j S = (List.range (136 * j)).map (stream S) := by
  induction j generalizing S with
  | zero => rfl
  | succ j ih =>
    rw [sqB, ih (F S) (length_F S), show 136 * (j + 1) = 136 + 136 * j by omega, List.range_add, List.map_append]
    congr 1
    · apply list_ext_getD 0
      · simp [hS]
      · intro i hi
        have hi : i < 136 := by simp [hS] at hi; omega
        rw [getD_of_lt _ (by simp [hS]; omega), getD_of_lt _ (by simp; omega)]
        simp only [List.getElem_take, List.getElem_map, List.getElem_range, stream]
        rw [show i / 136 = 0 by omega, show i % 136 = i by omega]
        simp [show i < S.length by omega]
    · rw [List.map_map]
      apply List.map_congr_left
      intro i _
      simp only [Function.comp, stream]
      rw [show (136 + i) / 136 = i / 136 + 1 by omega, show (136 + i) % 136 = i % 136 by omega]
      rfl

/-- SHAKE256 padding on bytes. -/
def padK (M : Bytes) : Bytes :=
  M ++ (if M.length % 136 = 135 then [0x9F]
        else [0x1F] ++ List.replicate (134 - M.length % 136) 0 ++ [0x80])

theorem length_padK (M : Bytes) : (padK M).length = 136 * (M.length / 136) + 136 := by
  have := Nat.div_add_mod M.length 136
  unfold padK
  split
  · simp; omega
  · simp; omega

theorem pad_bits (M : Bytes) :
    bytesToBits M ++ [true, true, true, true] ++ pad101 1088 (bytesToBits M ++ [true, true, true, true]).length
      = bytesToBits (padK M) := by
  rw [List.length_append, length_bytesToBits, padK, bytesToBits_append, List.append_assoc]
  congr 1
  unfold pad101
  simp only [List.length_cons, List.length_nil]
  by_cases h : M.length % 136 = 135
  · rw [if_pos h, show (1088 - (8 * M.length + (0 + 1 + 1 + 1 + 1) + 2) % 1088) % 1088 = 2 by omega]
    decide
  · rw [if_neg h]
    rw [bytesToBits_append, bytesToBits_append, bytesToBits_zeros]
    rw [show (1088 - (8 * M.length + (0 + 1 + 1 + 1 + 1) + 2) % 1088) % 1088 =
      3 + 8 * (134 - M.length % 136) + 7 by omega, ← List.replicate_append_replicate,
      ← List.replicate_append_replicate]
    rw [show bytesToBits [0x1F] = [true, true, true, true, true] ++ List.replicate 3 false from by decide,
      show bytesToBits [0x80] = List.replicate 7 false ++ [true] from by decide]
    simp only [List.append_assoc]; rfl

/-- SHAKE256 on bytes. -/
theorem shake256_bytes (M : Bytes) (n : Nat) :
    shake256 M n = (List.range n).map (stream (chainK (padK M))) := by
  rw [shake256, sponge, show 1600 - 512 = 1088 from rfl, pad_bits, absorb_bytes, squeeze_bytes,
    ← bytesToBits_take, bitsToBytes_bytesToBits, sqB_eq _ _ (length_chainK _), ← List.map_take]
  congr 1
  apply List.ext_getElem?
  intro i
  by_cases h : i < n
  · rw [List.getElem?_take_of_lt h, List.getElem?_range (by omega), List.getElem?_range h]
  · rw [List.getElem?_eq_none (by simp; omega), List.getElem?_eq_none (by simp; omega)]

end Model.Shake
