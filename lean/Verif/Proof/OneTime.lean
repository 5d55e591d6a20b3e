import Verif.Proof.SpecLemmas
/-!
# What a signature contains at a place of the hypertree depends only on the place and the key
-/
namespace Model
open Spec Spec.Slh

section
variable (P : Params) (hf : HashFns) (sk pk : Bytes)

/-- Dropping the lowest layer. -/
theorem htSignFrom_drop_one (r j t leaf : Nat) (M : Bytes) (hl : leaf < 2 ^ P.hp) :
    (htSignFrom P hf sk pk (r + 1) j t leaf M).drop (P.len + P.hp) =
      htSignFrom P hf sk pk r (j + 1) (t / 2 ^ P.hp) (t % 2 ^ P.hp) (xmssNode P hf sk pk j t 0 P.hp) := by
  rw [htSignFrom]
  have hx := length_xmssSign P hf sk pk j t leaf M
  rw [List.drop_append_of_le_length (by omega), List.drop_of_length_le (by omega), List.nil_append, xmss_honest _ _ _ _ _ _ _ _ hl]

/-- Dropping `i + 1` layers leaves a list that depends on the tree index at layer `i` only. -/
theorem htSignFrom_drop (i r j t leaf : Nat) (M : Bytes) (hl : leaf < 2 ^ P.hp) (hi : i < r) :
    (htSignFrom P hf sk pk r j t leaf M).drop ((i + 1) * (P.len + P.hp)) =
      htSignFrom P hf sk pk (r - (i + 1)) (j + (i + 1)) (t / 2 ^ (P.hp * i) / 2 ^ P.hp) (t / 2 ^ (P.hp * i) % 2 ^ P.hp)
        (xmssNode P hf sk pk (j + i) (t / 2 ^ (P.hp * i)) 0 P.hp) := by
  induction i generalizing r j t leaf M with
  | zero =>
    obtain ⟨r, rfl⟩ : ∃ q, r = q + 1 := ⟨r - 1, by omega⟩
    rw [Nat.zero_add, Nat.one_mul, htSignFrom_drop_one P hf sk pk r j t leaf M hl]
    simp
  | succ i ih =>
    obtain ⟨r, rfl⟩ : ∃ q, r = q + 1 := ⟨r - 1, by omega⟩
    rw [Nat.add_mul (i + 1) 1, Nat.one_mul, Nat.add_comm ((i + 1) * _), ← List.drop_drop, htSignFrom_drop_one P hf sk pk r j t leaf M hl,
      ih r (j + 1) _ _ _ (Nat.mod_lt _ (Nat.pow_pos (by omega))) (by omega)]
    have e : t / 2 ^ P.hp / 2 ^ (P.hp * i) = t / 2 ^ (P.hp * (i + 1)) := by
      rw [Nat.div_div_eq_div_mul, ← Nat.pow_add]; congr 2; rw [Nat.mul_succ]; omega
    rw [e]
    congr 1
    · omega
    · omega
    · congr 1; omega

/-- Two honest hypertree signatures coincide from layer `j` on if they use the same key pair there; `M` is a function
of the position. -/
theorem ht_suffix (j t leaf t' leaf' : Nat) (M : Nat → Nat → Bytes) (hl : leaf < 2 ^ P.hp) (hl' : leaf' < 2 ^ P.hp) (hj : j ≤ P.d)
    (h : (t * 2 ^ P.hp + leaf) / 2 ^ (P.hp * j) = (t' * 2 ^ P.hp + leaf') / 2 ^ (P.hp * j)) :
    (htSign P hf sk pk t leaf (M t leaf)).drop (j * (P.len + P.hp)) = (htSign P hf sk pk t' leaf' (M t' leaf')).drop (j * (P.len + P.hp)) := by
  have hp : 0 < 2 ^ P.hp := Nat.pow_pos (by omega)
  have top : ∀ a b : Nat, b < 2 ^ P.hp → (a * 2 ^ P.hp + b) / 2 ^ P.hp = a := by
    intro a b hb
    rw [Nat.mul_comm, Nat.mul_add_div hp, Nat.div_eq_of_lt hb, Nat.add_zero]
  cases j with
  | zero =>
    simp only [Nat.mul_zero, Nat.pow_zero, Nat.div_one] at h
    have h1 : t = t' := by rw [← top t leaf hl, h, top t' leaf' hl']
    subst h1
    have h2 : leaf = leaf' := by omega
    subst h2
    rfl
  | succ i =>
    have e : ∀ a b : Nat, b < 2 ^ P.hp → (a * 2 ^ P.hp + b) / 2 ^ (P.hp * (i + 1)) = a / 2 ^ (P.hp * i) := by
      intro a b hb
      rw [Nat.mul_succ, Nat.add_comm (P.hp * i), Nat.pow_add, ← Nat.div_div_eq_div_mul, top a b hb]
    rw [e _ _ hl, e _ _ hl'] at h
    unfold htSign
    rw [htSignFrom_drop P hf sk pk i P.d 0 t leaf _ hl hj, htSignFrom_drop P hf sk pk i P.d 0 t' leaf' _ hl' hj, h]

end
end Model
