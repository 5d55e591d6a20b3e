import Verif.Model.Contract
import Mathlib.Data.List.Induction
/-!
# Lemmas about the execution model
-/
namespace Model

@[simp] theorem ok_bind {α β : Type} (a : α) (f : α → C β) : ((.ok a : C α) >>= f) = f a := rfl
@[simp] theorem error_bind {α β : Type} (e : Fault) (f : α → C β) :
    ((.error e : C α) >>= f) = .error e := rfl
@[simp] theorem pure_eq_ok {α : Type} (a : α) : (pure a : C α) = .ok a := rfl

theorem rd_ok {a : List α} {i : Nat} (h : i < a.length) : rd a i = .ok a[i] := by
  simp [rd, h]

theorem rd_getD {a : List α} {i : Nat} (d : α) (h : i < a.length) : rd a i = .ok (a.getD i d) := by
  simp [rd, h]

theorem getD_of_lt (a : List α) {i : Nat} {d : α} (h : i < a.length) : a.getD i d = a[i] := by
  simp [h]

theorem wr_ok {a : List α} {i : Nat} (v : α) (h : i < a.length) : wr a i v = .ok (a.set i v) := by
  simp [wr, h]

theorem rdSlice_ok {a : List α} {off len : Nat} (h : off + len ≤ a.length) :
    rdSlice a off len = .ok ((a.drop off).take len) := by simp [rdSlice, h]

theorem rdSlice_zero {a : List α} {len : Nat} (h : len ≤ a.length) :
    rdSlice a 0 len = .ok (a.take len) := by simp [rdSlice, h]

theorem wrSlice_ok {a : List α} {off : Nat} {v : List α} (h : off + v.length ≤ a.length) :
    wrSlice a off v = .ok (a.take off ++ v ++ a.drop (off + v.length)) := by simp [wrSlice, h]

theorem wrSlice_zero {a : List α} {v : List α} (h : v.length ≤ a.length) :
    wrSlice a 0 v = .ok (v ++ a.drop v.length) := by simp [wrSlice, h]

@[simp] theorem loop_zero (body : Nat → σ → C σ) (i : Nat) (s : σ) : loop body 0 i s = .ok s := rfl
theorem loop_succ (body : Nat → σ → C σ) (c i : Nat) (s : σ) :
    loop body (c + 1) i s = body i s >>= fun s => loop body c (i + 1) s := rfl

/-- Invariant rule for counted loops. -/
theorem loop_inv {body : Nat → σ → C σ} (P : Nat → σ → Prop) (count start : Nat) (s : σ)
    (h0 : P start s)
    (hs : ∀ i s, start ≤ i → i < start + count → P i s → ∃ s', body i s = .ok s' ∧ P (i + 1) s') :
    ∃ s', loop body count start s = .ok s' ∧ P (start + count) s' := by
  induction count generalizing start s with
  | zero => exact ⟨s, rfl, h0⟩
  | succ c ih =>
    obtain ⟨s1, e1, h1⟩ := hs start s (Nat.le_refl _) (by omega) h0
    obtain ⟨s2, e2, h2⟩ := ih (start + 1) s1 h1
      (fun i s hi hlt hp => hs i s (by omega) (by omega) hp)
    refine ⟨s2, ?_, ?_⟩
    · rw [loop_succ, e1]; exact e2
    · rw [show start + (c + 1) = start + 1 + c by omega]; exact h2

/-- A counted loop that follows a function of the index. -/
theorem loop_eq {body : Nat → σ → C σ} (f : Nat → σ) (count start : Nat)
    (hs : ∀ i, start ≤ i → i < start + count → body i (f i) = .ok (f (i + 1))) :
    loop body count start (f start) = .ok (f (start + count)) := by
  obtain ⟨s', e, h⟩ := loop_inv (body := body) (fun i s => s = f i) count start (f start) rfl
    (fun i s h1 h2 h3 => ⟨_, by rw [h3]; exact hs i h1 h2, rfl⟩)
  rw [e, h]

theorem loop_eq' {body : Nat → σ → C σ} (f : Nat → σ) (count : Nat) (s : σ) (h0 : s = f 0)
    (hs : ∀ i, i < count → body i (f i) = .ok (f (i + 1))) :
    loop body count 0 s = .ok (f count) := by
  subst h0
  have := loop_eq (body := body) f count 0 (fun i _ h => hs i (by omega))
  simpa using this

/-! ## Byte encodings -/

theorem length_toByte (x n : Nat) : (Spec.toByte x n).length = n := by
  induction n generalizing x with
  | zero => rfl
  | succ n ih => simp [Spec.toByte, ih]

theorem toByte_take_drop_set (p : Bytes) (off n : Nat) (v : UInt8) (h : off + (n + 1) ≤ p.length) (a : Bytes)
    (ha : a.length = n) :
    (p.set (off + n) v).take off ++ a ++ (p.set (off + n) v).drop (off + n) =
      p.take off ++ (a ++ [v]) ++ p.drop (off + (n + 1)) := by
  have e1 : (p.set (off + n) v).take off = p.take off := by
    rw [List.take_set_of_le (by omega)]
  have e2 : (p.set (off + n) v).drop (off + n) = v :: p.drop (off + (n + 1)) := by
    rw [List.drop_eq_getElem_cons (by simp; omega)]
    simp [List.drop_set_of_lt, Nat.add_assoc]
  rw [e1, e2]; simp

theorem ofNat_and_ff (v : Nat) : UInt8.ofNat (v &&& 0xff) = UInt8.ofNat v := by
  apply UInt8.toNat_inj.1
  have : v &&& 0xff = v % 2 ^ 8 := Nat.and_two_pow_sub_one_eq_mod v 8
  simp [UInt8.toNat_ofNat', this]

theorem ts_ull_to_bytes_ok (p : Bytes) (off val n : Nat) (h : off + n ≤ p.length) :
    ts_ull_to_bytes p off val n =
      .ok (p.take off ++ Spec.toByte val n ++ p.drop (off + n)) := by
  induction n generalizing p val with
  | zero => simp [ts_ull_to_bytes, Spec.toByte]
  | succ n ih =>
    simp only [ts_ull_to_bytes]
    rw [wr_ok _ (by omega), ok_bind, ih _ _ (by simp; omega)]
    congr 1
    rw [ofNat_and_ff, toByte_take_drop_set _ _ _ _ h _ (length_toByte _ _)]
    simp [Spec.toByte, Nat.shiftRight_eq_div_pow]

theorem toInt_append (a : Bytes) (b : UInt8) :
    Spec.toInt (a ++ [b]) = 256 * Spec.toInt a + b.toNat := by
  simp [Spec.toInt]

theorem toInt_lt (a : Bytes) : Spec.toInt a < 256 ^ a.length := by
  induction a using List.reverseRecOn with
  | nil => simp [Spec.toInt]
  | append_singleton a b ih =>
    rw [toInt_append]
    have := b.toNat_lt
    simp [Nat.pow_succ]; omega

theorem ts_bytes_to_ull_ok (p : Bytes) (off n : Nat) (h : off + n ≤ p.length) (hn : n ≤ 8) :
    ts_bytes_to_ull p off n = .ok (Spec.toInt ((p.drop off).take n)) := by
  refine loop_eq' (fun i => Spec.toInt ((p.drop off).take i)) n 0 (by simp [Spec.toInt]) ?_
  intro i hi
  rw [rd_ok (by omega), ok_bind]
  have : (p.drop off).take (i + 1) = (p.drop off).take i ++ [p[off + i]] := by
    rw [List.take_add_one]; simp [List.getElem?_drop, show off + i < p.length by omega]
  rw [this, toInt_append]
  congr 1
  apply Nat.mod_eq_of_lt
  have h1 := toInt_lt ((p.drop off).take i)
  have h2 : ((p.drop off).take i).length = i := by simp; omega
  rw [h2] at h1
  have h3 : 256 ^ i ≤ 256 ^ 7 := Nat.pow_le_pow_right (by omega) (by omega)
  have := (p[off + i]).toNat_lt
  omega

/-! ## Memory -/

theorem Mem.Has.read {mem : Mem} {addr : Nat} {bs : Bytes} (h : mem.Has addr bs) :
    mem.read addr bs.length = .ok bs := by
  induction bs generalizing addr with
  | nil => rfl
  | cons b bs ih =>
    have h0 : mem addr = some b := h 0 (by simp)
    have h1 : mem.Has (addr + 1) bs := fun i hi => by
      have := h (i + 1) (by simpa using hi)
      rw [Nat.add_assoc, Nat.add_comm 1 i]; simpa using this
    simp only [List.length_cons, Mem.read, h0, ih h1, ok_bind]

theorem Mem.Has.append {mem : Mem} {addr : Nat} {a b : Bytes} :
    mem.Has addr (a ++ b) ↔ mem.Has addr a ∧ mem.Has (addr + a.length) b := by
  constructor
  · intro h
    refine ⟨fun i hi => ?_, fun i hi => ?_⟩
    · have := h i (by simp; omega)
      rw [this, List.getElem_append_left hi]
    · have := h (a.length + i) (by simp; omega)
      rw [Nat.add_assoc, this, List.getElem_append_right (by omega)]
      simp
  · rintro ⟨h1, h2⟩ i hi
    by_cases hlt : i < a.length
    · rw [h1 i hlt, List.getElem_append_left hlt]
    · simp at hi
      have := h2 (i - a.length) (by omega)
      rw [show addr + a.length + (i - a.length) = addr + i by omega] at this
      rw [this, List.getElem_append_right (by omega)]

end Model
