/-!
# Many words in one natural number

To let the kernel compute the standard's signatures, thousands of hash computations are done side by side: word `i` of all of them is kept in
one natural number, in lanes of `W` bits. `pk W L f` is that number for the computations `L` and the words `f x`, `x ∈ L`.
-/
noncomputable section
namespace Kat

/-- Words `f x` of the computations `x ∈ L` in lanes of `W` bits. -/
def pk (W : Nat) : List α → (α → Nat) → Nat
  | [], _ => 0
  | x :: L, f => f x + 2 ^ W * pk W L f

variable {W : Nat} {L : List α} {f g : α → Nat}

theorem pk_congr (h : ∀ x ∈ L, f x = g x) : pk W L f = pk W L g := by
  induction L with
  | nil => rfl
  | cons x L ih => rw [pk, pk, h x (by simp), ih fun y hy => h y (by simp [hy])]

theorem pk_zero : pk W L (fun _ => 0) = 0 := by
  induction L with
  | nil => rfl
  | cons x L ih => rw [pk, ih]; simp

theorem pk_add (f g : α → Nat) : pk W L f + pk W L g = pk W L fun x => f x + g x := by
  induction L with
  | nil => rfl
  | cons x L ih => rw [pk, pk, pk, ← ih, Nat.mul_add]; omega

theorem pk_mul (f : α → Nat) (c : Nat) : pk W L f * c = pk W L fun x => f x * c := by
  induction L with
  | nil => simp [pk]
  | cons x L ih => rw [pk, pk, ← ih, Nat.add_mul, Nat.mul_assoc]

theorem mul_pk (f : α → Nat) (c : Nat) : c * pk W L f = pk W L fun x => c * f x := by
  rw [Nat.mul_comm, pk_mul]; exact pk_congr fun x _ => Nat.mul_comm _ _

theorem pk_map (W : Nat) (L : List β) (h : β → α) (f : α → Nat) : pk W (L.map h) f = pk W L fun x => f (h x) := by
  induction L with
  | nil => rfl
  | cons x L ih => rw [List.map_cons, pk, pk, ih]

theorem pk_append (W : Nat) (L₁ L₂ : List α) (f : α → Nat) : pk W (L₁ ++ L₂) f = pk W L₁ f + 2 ^ (W * L₁.length) * pk W L₂ f := by
  induction L₁ with
  | nil => simp [pk]
  | cons x L ih =>
    rw [List.cons_append, pk, pk, ih, List.length_cons, Nat.mul_add, Nat.mul_add W, Nat.mul_one, Nat.pow_add, ← Nat.mul_assoc, Nat.add_assoc,
      Nat.mul_comm (2 ^ (W * L.length))]

theorem pk_lt (h : ∀ x ∈ L, f x < 2 ^ W) : pk W L f < 2 ^ (W * L.length) := by
  induction L with
  | nil => simp [pk]
  | cons x L ih =>
    have h1 := h x (by simp)
    have h2 := ih fun y hy => h y (by simp [hy])
    rw [pk, List.length_cons, Nat.mul_add W, Nat.mul_one, Nat.pow_add, Nat.mul_comm _ (2 ^ W)]
    have : 2 ^ W * (pk W L f + 1) ≤ 2 ^ W * 2 ^ (W * L.length) := Nat.mul_le_mul_left _ h2
    rw [Nat.mul_add] at this
    omega

theorem bit_low {a : Nat} (b : Nat) (h : a < 2 ^ W) (j : Nat) : (a + 2 ^ W * b).testBit j = if j < W then a.testBit j else b.testBit (j - W) := by
  rw [Nat.add_comm]; exact Nat.testBit_two_pow_mul_add b h j

theorem pk_land (h1 : ∀ x ∈ L, f x < 2 ^ W) (h2 : ∀ x ∈ L, g x < 2 ^ W) : pk W L f &&& pk W L g = pk W L fun x => f x &&& g x := by
  induction L with
  | nil => simp [pk]
  | cons x L ih =>
    have a := h1 x (by simp)
    have b := h2 x (by simp)
    rw [pk, pk, pk, ← ih (fun y hy => h1 y (by simp [hy])) fun y hy => h2 y (by simp [hy])]
    apply Nat.eq_of_testBit_eq; intro j
    rw [Nat.testBit_and, bit_low _ a, bit_low _ b, bit_low _ (Nat.and_lt_two_pow _ b)]
    split <;> rw [Nat.testBit_and]

theorem pk_xor (h1 : ∀ x ∈ L, f x < 2 ^ W) (h2 : ∀ x ∈ L, g x < 2 ^ W) : pk W L f ^^^ pk W L g = pk W L fun x => f x ^^^ g x := by
  induction L with
  | nil => simp [pk]
  | cons x L ih =>
    have a := h1 x (by simp)
    have b := h2 x (by simp)
    rw [pk, pk, pk, ← ih (fun y hy => h1 y (by simp [hy])) fun y hy => h2 y (by simp [hy])]
    apply Nat.eq_of_testBit_eq; intro j
    rw [Nat.testBit_xor, bit_low _ a, bit_low _ b, bit_low _ (Nat.xor_lt_two_pow a b)]
    split <;> rw [Nat.testBit_xor]

/-- Shifting all lanes right: what comes from the lane above is masked away. -/
theorem pk_shr (h : ∀ x ∈ L, f x < 2 ^ W) {n m : Nat} (hn : n ≤ W) (hm : ∀ x ∈ L, g x < 2 ^ m) (hmn : m + n ≤ W) :
    (pk W L f >>> n) &&& pk W L g = pk W L fun x => (f x >>> n) &&& g x := by
  induction L with
  | nil => simp [pk]
  | cons x L ih =>
    have a := h x (by simp)
    have b := hm x (by simp)
    have b' : g x < 2 ^ W := Nat.lt_of_lt_of_le b (Nat.pow_le_pow_right (by omega) (by omega))
    rw [pk, pk, pk, ← ih (fun y hy => h y (by simp [hy])) fun y hy => hm y (by simp [hy])]
    apply Nat.eq_of_testBit_eq; intro j
    rw [Nat.testBit_and, Nat.testBit_shiftRight, bit_low _ a, bit_low _ b', bit_low _ (Nat.and_lt_two_pow _ b')]
    by_cases hj : j < W
    · rw [if_pos hj, if_pos hj, Nat.testBit_and, Nat.testBit_shiftRight]
      by_cases hj2 : j < m
      · rw [if_pos (show n + j < W by omega)]
      · have : (g x).testBit j = false := Nat.testBit_lt_two_pow (Nat.lt_of_lt_of_le b (Nat.pow_le_pow_right (by omega) (by omega)))
        rw [this]; simp
    · rw [if_neg hj, if_neg hj, if_neg (show ¬ n + j < W by omega), Nat.testBit_and, Nat.testBit_shiftRight]
      congr 2; omega

/-- The word of one lane. -/
theorem pk_lane (h : ∀ x ∈ L, f x < 2 ^ W) (i : Nat) (x : α) (hi : L[i]? = some x) : (pk W L f >>> (W * i)) % 2 ^ W = f x := by
  induction L generalizing i with
  | nil => simp at hi
  | cons y L ih =>
    have a := h y (by simp)
    cases i with
    | zero =>
      have hy : y = x := by simpa using hi
      subst hy
      rw [pk, Nat.mul_zero, Nat.shiftRight_zero, Nat.add_mul_mod_self_left, Nat.mod_eq_of_lt a]
    | succ i =>
      rw [pk, Nat.mul_add, Nat.mul_one, Nat.add_comm (W * i), Nat.shiftRight_add]
      rw [show (f y + 2 ^ W * pk W L f) >>> W = pk W L f from ?_]
      · exact ih (fun z hz => h z (by simp [hz])) i (by simpa using hi)
      · rw [Nat.shiftRight_eq_div_pow, Nat.add_mul_div_left _ _ (Nat.two_pow_pos _), Nat.div_eq_of_lt a, Nat.zero_add]

/-- The lanes of a part of the computations. -/
theorem pk_left {L₁ L₂ : List α} (h : ∀ x ∈ L₁, f x < 2 ^ W) : pk W (L₁ ++ L₂) f % 2 ^ (W * L₁.length) = pk W L₁ f := by
  rw [pk_append, Nat.add_mul_mod_self_left, Nat.mod_eq_of_lt (pk_lt h)]

theorem pk_right {L₁ L₂ : List α} (h : ∀ x ∈ L₁, f x < 2 ^ W) : pk W (L₁ ++ L₂) f >>> (W * L₁.length) = pk W L₂ f := by
  rw [pk_append, Nat.shiftRight_eq_div_pow, Nat.add_mul_div_left _ _ (Nat.two_pow_pos _), Nat.div_eq_of_lt (pk_lt h), Nat.zero_add]

/-- Evaluate `n` before going on (for the kernel). -/
def force {β : Sort _} (n : Nat) (k : Nat → β) : β := Bool.rec (motive := fun _ => β) (k n) (k n) (Nat.beq n 0)

theorem force_eq {β : Sort _} (n : Nat) (k : Nat → β) : force n k = k n := by unfold force; cases Nat.beq n 0 <;> rfl

/-- Evaluate the elements of a list before going on. -/
def forceL {β : Sort _} : List Nat → (List Nat → β) → β
  | [], k => k []
  | x :: xs, k => force x fun x => forceL xs fun xs => k (x :: xs)

theorem forceL_eq {β : Sort _} (l : List Nat) (k : List Nat → β) : forceL l k = k l := by
  induction l generalizing k with
  | nil => rfl
  | cons x xs ih => rw [forceL, force_eq, ih]

end Kat
