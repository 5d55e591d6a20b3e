import Verif.Model.Types
import Verif.Proof.Basic
/-!
# Storing integers in the byte order of the machine
-/
namespace Model

theorem Arch.length_bytes (a : Arch) (len v : Nat) : (a.bytes len v).length = len := by simp [Arch.bytes]

theorem foldr_le (f : Nat → Nat → UInt8) (hf : ∀ v i, (f v i).toNat = v / 256 ^ i % 256) (len : Nat) : ∀ v, v < 256 ^ len →
    ((List.range len).map (f v)).foldr (fun x acc => x.toNat + 256 * acc) 0 = v := by
  induction len with
  | zero => intro v h; simp at h; simp [h]
  | succ len ih =>
    intro v h
    have h1 : v / 256 < 256 ^ len := by rw [Nat.pow_succ] at h; omega
    have h2 : (List.range len).map (fun i => f v (i + 1)) = (List.range len).map (f (v / 256)) := by
      apply List.map_congr_left
      intro i _
      apply UInt8.toNat_inj.1
      rw [hf, hf, Nat.pow_succ, Nat.mul_comm, ← Nat.div_div_eq_div_mul]
    rw [List.range_succ_eq_map, List.map_cons, List.foldr_cons, List.map_map]
    show (f v 0).toNat + 256 * ((List.range len).map (fun i => f v (i + 1))).foldr _ 0 = v
    rw [h2, ih _ h1, hf]
    simp only [Nat.pow_zero, Nat.div_one]; omega

theorem Arch.value_bytes (a : Arch) (len v : Nat) (h : v < 256 ^ len) : a.value (a.bytes len v) = v := by
  have key : ((List.range len).map fun i => UInt8.ofNat (v / 256 ^ i)).foldr (fun x acc => x.toNat + 256 * acc) 0 = v :=
    foldr_le (fun v i => UInt8.ofNat (v / 256 ^ i)) (fun v i => by simp [UInt8.toNat_ofNat']) len v h
  unfold Arch.value Arch.bytes
  cases a.big
  · simpa using key
  · simp only [if_true]
    have : ((List.range len).map fun i => UInt8.ofNat (v / 256 ^ (len - 1 - i))).reverse =
        (List.range len).map fun i => UInt8.ofNat (v / 256 ^ i) := by
      apply List.ext_getElem
      · simp
      · intro i h1 h2
        simp only [List.length_reverse, List.length_map, List.length_range] at h1
        simp only [List.getElem_reverse, List.getElem_map, List.getElem_range, List.length_map, List.length_range]
        congr 3; omega
    rw [this]; exact key

theorem Arch.word_pos (a : Arch) : 4 ≤ a.word ∧ a.word ≤ 8 := by unfold Arch.word; split <;> omega

theorem arch_div_up (m w : Nat) (h : 0 < w) : m ≤ (m + (w - 1)) / w * w := by
  have := Nat.div_add_mod (m + (w - 1)) w
  have := Nat.mod_lt (m + (w - 1)) h
  have := Nat.mul_comm w ((m + (w - 1)) / w)
  omega

theorem Config.xSize_ge (c : Config) : max (max (forsStackOff + c.forsStackSize) (1 + c.MAX_WOTS_DIGITS))
    (max (c.MAX_HASH + c.merkleStackSize) (2 * c.arch.word)) ≤ c.xSize :=
  arch_div_up _ _ (by have := c.arch.word_pos; omega)

theorem Config.forsSize_le (c : Config) : forsStackOff + c.forsStackSize ≤ c.xSize := by have := c.xSize_ge; omega
theorem Config.wotsSize_le (c : Config) : 1 + c.MAX_WOTS_DIGITS ≤ c.xSize := by have := c.xSize_ge; omega
theorem Config.merkleSize_le (c : Config) : c.MAX_HASH + c.merkleStackSize ≤ c.xSize := by have := c.xSize_ge; omega
theorem Config.verifySize_le (c : Config) : 2 * c.arch.word ≤ c.xSize := by have := c.xSize_ge; omega

end Model
