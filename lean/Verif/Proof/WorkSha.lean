import Verif.Proof.WorkTotal
/-!
# What the hash functions cost in compressions and permutations
-/
namespace Leak.Work
open Model Spec Spec.Work

/-- Counts the calls of one primitive. -/
def meter (p : Prim) : Meter where
  w e := if isPerm p e then 1 else 0
  plain e h := by cases e <;> first | rfl | cases h

theorem total_perms (p : Prim) (l : List Ev) : (meter p).total l = perms p l := by
  induction l with
  | nil => rfl
  | cons e l ih =>
    rw [total_cons, ih]
    unfold perms
    rw [List.countP_cons]
    show (if isPerm p e then 1 else 0) + _ = _
    omega

variable {p : Prim}

theorem w_perm (q : Prim) (n : Nat) : (meter p).w (.perm q n) = only p q 1 := by
  show (if (q == p) = true then 1 else 0) = _
  unfold only
  simp only [beq_iff_eq]

theorem w_call (f : Fn) (n : Nat) : (meter p).w (.call f n) = 0 := rfl

theorem post_wr {a : List α} {i : Nat} {v : α} {P : List α → Prop} (h : P (a.set i v)) : Post (wr a i v) P := by
  intro r e
  rw [res_wr] at e
  unfold Model.wr at e
  split at e
  · cases e; exact h
  · cases e

theorem length_ull {a : Bytes} : ∀ {off v n : Nat} (r : Bytes), (ts_ull_to_bytes a off v n).res = .ok r → r.length = a.length := by
  intro off v n
  induction n generalizing a v with
  | zero => exact (post_bind post_any fun _ _ => post_ok rfl : Post _ fun r : Bytes => r.length = a.length)
  | succ n ih =>
    refine (post_bind post_any fun _ _ => post_bind (P := fun x => x.length = a.length) (post_wr (List.length_set ..)) fun x hx => ?_ : Post (ts_ull_to_bytes a off v (n + 1)) fun r => r.length = a.length)
    intro r e
    rw [ih r e, hx]

theorem length_rdSlice {a : List α} {i n : Nat} (r : List α) (h : (rdSlice a i n).res = .ok r) : r.length = n := by
  rw [res_rdSlice] at h
  unfold Model.rdSlice at h
  split at h
  · cases h
    rw [List.length_take, List.length_drop]; omega
  · cases h

theorem length_read {m : Mem} : ∀ {n a : Nat} (r : Bytes), m.read a n = .ok r → r.length = n := by
  intro n
  induction n with
  | zero => intro a r h; cases h; rfl
  | succ n ih =>
    intro a r h
    unfold Mem.read at h
    split at h
    · cases h
    · obtain ⟨y, e1, e2⟩ := C_bind_inv h
      cases e2
      rw [List.length_cons, ih _ e1]

theorem length_memRead {m : Mem} {a n : Nat} (r : Bytes) (h : (memRead m a n).res = .ok r) : r.length = n := length_read r h

namespace Sha256

theorem cost_compress (c : Model.Sha256.Ctx) (b : Bytes) : Cost (meter p) (Leak.Sha256.compress c b) fun c' k => k = only p .sha256 1 ∧ c'.num = c.num := by
  unfold Leak.Sha256.compress
  refine cost_frame (cost_permuting ?_)
  rw [w_perm]
  refine cost_bind0 (by idle) fun W _ => cost_bind0 (by idle) fun s _ => ?_
  obtain ⟨W, s⟩ := s
  exact cost_ok ⟨rfl, rfl⟩

theorem cost_updateLoop : ∀ (fuel : Nat) (c : Model.Sha256.Ctx) (src : Bytes) (L : Nat), c.num = L % 64 →
    Cost (meter p) (Leak.Sha256.updateLoop fuel c src) fun c' k =>
      k + only p .sha256 (full .sha256 L) = only p .sha256 (full .sha256 (L + src.length)) ∧ c'.num = (L + src.length) % 64 := by
  intro fuel
  induction fuel with
  | zero => intro c src L h a e; cases e
  | succ fuel ih =>
    intro c src L h
    have hlt := Nat.mod_lt L (show 64 > 0 by omega)
    unfold Leak.Sha256.updateLoop
    refine cost_branch (fun h0 => cost_ok ?_) fun h0 => ?_
    · rw [h0, Nat.add_zero, Nat.zero_add]; exact ⟨rfl, h⟩
    refine cost_bind0 (by idle) fun st e => ?_
    rw [res_lmin] at e
    have hst : st = min (64 - L % 64) src.length := by
      cases e
      rw [h]; unfold usub; omega
    refine cost_branch (fun hs => ?_) fun hs => ?_
    · refine cost_bind0 (by idle) fun blk _ => cost_bind (cost_compress _ _) fun c1 k1 _ ⟨hk1, h1⟩ => ?_
      refine cost_mono (ih _ _ (L + st) (by rw [h1]; show 0 = _; omega)) fun c2 k2 _ ⟨hk2, h2⟩ => ?_
      rw [List.length_drop] at hk2 h2
      rw [show L + st + (src.length - st) = L + src.length by omega] at hk2 h2
      refine ⟨?_, h2⟩
      rw [hk1]
      revert hk2
      simp only [only, full, rate]
      split <;> omega
    · refine cost_bind0 (by idle) fun piece _ => cost_bind0 (by idle) fun data _ => ?_
      dsimp only
      rw [h]
      refine cost_branch (fun hn => cost_ok ⟨?_, ?_⟩) fun hn => ?_
      · simp only [only, full, rate]
        split <;> omega
      · show L % 64 + st = _
        omega
      · refine cost_bind (cost_compress _ _) fun c1 k1 _ ⟨hk1, h1⟩ => ?_
        refine cost_mono (ih _ _ (L + st) (by rw [h1]; show 0 = _; omega)) fun c2 k2 _ ⟨hk2, h2⟩ => ?_
        rw [List.length_drop] at hk2 h2
        rw [show L + st + (src.length - st) = L + src.length by omega] at hk2 h2
        refine ⟨?_, h2⟩
        rw [hk1]
        revert hk2
        simp only [only, full, rate]
        split <;> omega

/-- Taking in input costs the blocks that it completes. -/
theorem cost_update {c : Model.Sha256.Ctx} (src : Bytes) {L : Nat} (h : c.num = L % 64) :
    Cost (meter p) (Leak.Sha256.update c src) fun c' k =>
      k + only p .sha256 (full .sha256 L) = only p .sha256 (full .sha256 (L + src.length)) ∧ c'.num = (L + src.length) % 64 := by
  unfold Leak.Sha256.update
  exact cost_frame (cost_updateLoop _ _ _ _ h)

/-- The end costs the block or blocks with the padding. -/
theorem cost_final_trunc (d : Bytes) {c : Model.Sha256.Ctx} (n : Nat) {L : Nat} (h : c.num = L % 64) :
    Cost (meter p) (Leak.Sha256.final_trunc d c n) fun _ k => k + only p .sha256 (full .sha256 L) = only p .sha256 (whole .sha256 L) := by
  have hlt := Nat.mod_lt L (show 64 > 0 by omega)
  unfold Leak.Sha256.final_trunc
  refine cost_frame ?_
  refine cost_bind0 (by idle) fun fc efc => cost_bind (cost_update [0x80] h) fun c1 k1 _ ⟨hk1, h1⟩ => ?_
  have hfc : fc.length = 8 := by
    have := length_ull (a := List.replicate 8 0) _ efc
    rw [this, List.length_replicate]
  have h1' : c1.num = (L + 1) % 64 := h1
  have hk1' : k1 + only p .sha256 (full .sha256 L) = only p .sha256 (full .sha256 (L + 1)) := hk1
  refine cost_bind (P := fun c2 k2 => ∃ L2, c2.num = L2 % 64 ∧ c2.num ≤ 56 ∧ k2 + only p .sha256 (full .sha256 (L + 1)) = only p .sha256 (full .sha256 L2) ∧ L2 / 64 = (L + 8) / 64)
    (cost_branch (fun hb => ?_) fun hb => cost_ok ⟨L + 1, h1', by omega, by rw [Nat.zero_add], by omega⟩) fun c2 k2 _ ⟨L2, h2, h2', hk2, hq⟩ => ?_
  · refine cost_mono (cost_update _ h1') fun c2 k2 _ ⟨hk2, h2⟩ => ⟨L + 1 + 8, by rw [h2, List.length_replicate], ?_, by rw [hk2, List.length_replicate], ?_⟩
    · rw [h2, List.length_replicate]; omega
    · omega
  · refine cost_bind0 (by idle) fun data _ => ?_
    dsimp only
    refine cost_bind (cost_update (L := 64 * (L2 / 64) + 56) fc (by show 56 = _; omega)) fun c3 k3 _ ⟨hk3, h3⟩ => cost_bind0 (by idle) fun o _ => cost_ok ?_
    rw [hfc] at hk3
    revert hk1' hk2 hk3
    simp only [only, full, whole, rate, Spec.Work.pad]
    split <;> omega

theorem cost_final (d : Bytes) {c : Model.Sha256.Ctx} {L : Nat} (h : c.num = L % 64) :
    Cost (meter p) (Leak.Sha256.final d c) fun _ k => k + only p .sha256 (full .sha256 L) = only p .sha256 (whole .sha256 L) := by
  unfold Leak.Sha256.final
  exact cost_frame (cost_final_trunc _ _ h)

end Sha256

namespace Sha512

theorem cost_compress (c : Model.Sha512.Ctx) (b : Bytes) : Cost (meter p) (Leak.Sha512.compress c b) fun c' k => k = only p .sha512 1 ∧ c'.num = c.num := by
  unfold Leak.Sha512.compress
  refine cost_frame (cost_permuting ?_)
  rw [w_perm]
  refine cost_bind0 (by idle) fun W _ => cost_bind0 (by idle) fun s _ => ?_
  obtain ⟨W, s⟩ := s
  exact cost_ok ⟨rfl, rfl⟩

theorem cost_updateLoop : ∀ (fuel : Nat) (c : Model.Sha512.Ctx) (src : Bytes) (L : Nat), c.num = L % 128 →
    Cost (meter p) (Leak.Sha512.updateLoop fuel c src) fun c' k =>
      k + only p .sha512 (full .sha512 L) = only p .sha512 (full .sha512 (L + src.length)) ∧ c'.num = (L + src.length) % 128 := by
  intro fuel
  induction fuel with
  | zero => intro c src L h a e; cases e
  | succ fuel ih =>
    intro c src L h
    have hlt := Nat.mod_lt L (show 128 > 0 by omega)
    unfold Leak.Sha512.updateLoop
    refine cost_branch (fun h0 => cost_ok ?_) fun h0 => ?_
    · rw [h0, Nat.add_zero, Nat.zero_add]; exact ⟨rfl, h⟩
    refine cost_bind0 (by idle) fun st e => ?_
    rw [res_lmin] at e
    have hst : st = min (128 - L % 128) src.length := by
      cases e
      rw [h]; unfold usub; omega
    refine cost_branch (fun hs => ?_) fun hs => ?_
    · refine cost_bind0 (by idle) fun blk _ => cost_bind (cost_compress _ _) fun c1 k1 _ ⟨hk1, h1⟩ => ?_
      refine cost_mono (ih _ _ (L + st) (by rw [h1]; show 0 = _; omega)) fun c2 k2 _ ⟨hk2, h2⟩ => ?_
      rw [List.length_drop] at hk2 h2
      rw [show L + st + (src.length - st) = L + src.length by omega] at hk2 h2
      refine ⟨?_, h2⟩
      rw [hk1]
      revert hk2
      simp only [only, full, rate]
      split <;> omega
    · refine cost_bind0 (by idle) fun piece _ => cost_bind0 (by idle) fun data _ => ?_
      dsimp only
      rw [h]
      refine cost_branch (fun hn => cost_ok ⟨?_, ?_⟩) fun hn => ?_
      · simp only [only, full, rate]
        split <;> omega
      · show L % 128 + st = _
        omega
      · refine cost_bind (cost_compress _ _) fun c1 k1 _ ⟨hk1, h1⟩ => ?_
        refine cost_mono (ih _ _ (L + st) (by rw [h1]; show 0 = _; omega)) fun c2 k2 _ ⟨hk2, h2⟩ => ?_
        rw [List.length_drop] at hk2 h2
        rw [show L + st + (src.length - st) = L + src.length by omega] at hk2 h2
        refine ⟨?_, h2⟩
        rw [hk1]
        revert hk2
        simp only [only, full, rate]
        split <;> omega

/-- Taking in input costs the blocks that it completes. -/
theorem cost_update {c : Model.Sha512.Ctx} (src : Bytes) {L : Nat} (h : c.num = L % 128) :
    Cost (meter p) (Leak.Sha512.update c src) fun c' k =>
      k + only p .sha512 (full .sha512 L) = only p .sha512 (full .sha512 (L + src.length)) ∧ c'.num = (L + src.length) % 128 := by
  unfold Leak.Sha512.update
  exact cost_frame (cost_updateLoop _ _ _ _ h)

/-- The end costs the block or blocks with the padding. -/
theorem cost_final_trunc (d : Bytes) {c : Model.Sha512.Ctx} (n : Nat) {L : Nat} (h : c.num = L % 128) :
    Cost (meter p) (Leak.Sha512.final_trunc d c n) fun _ k => k + only p .sha512 (full .sha512 L) = only p .sha512 (whole .sha512 L) := by
  have hlt := Nat.mod_lt L (show 128 > 0 by omega)
  unfold Leak.Sha512.final_trunc
  refine cost_frame ?_
  refine cost_bind0 (by idle) fun fc efc => cost_bind (cost_update [0x80] h) fun c1 k1 _ ⟨hk1, h1⟩ => ?_
  have hfc : fc.length = 16 := by
    have := length_ull (a := List.replicate 16 0) _ efc
    rw [this, List.length_replicate]
  have h1' : c1.num = (L + 1) % 128 := h1
  have hk1' : k1 + only p .sha512 (full .sha512 L) = only p .sha512 (full .sha512 (L + 1)) := hk1
  refine cost_bind (P := fun c2 k2 => ∃ L2, c2.num = L2 % 128 ∧ c2.num ≤ 112 ∧ k2 + only p .sha512 (full .sha512 (L + 1)) = only p .sha512 (full .sha512 L2) ∧ L2 / 128 = (L + 16) / 128)
    (cost_branch (fun hb => ?_) fun hb => cost_ok ⟨L + 1, h1', by omega, by rw [Nat.zero_add], by omega⟩) fun c2 k2 _ ⟨L2, h2, h2', hk2, hq⟩ => ?_
  · refine cost_mono (cost_update _ h1') fun c2 k2 _ ⟨hk2, h2⟩ => ⟨L + 1 + 16, by rw [h2, List.length_replicate], ?_, by rw [hk2, List.length_replicate], ?_⟩
    · rw [h2, List.length_replicate]; omega
    · omega
  · refine cost_bind0 (by idle) fun data _ => ?_
    dsimp only
    refine cost_bind (cost_update (L := 128 * (L2 / 128) + 112) fc (by show 112 = _; omega)) fun c3 k3 _ ⟨hk3, h3⟩ => cost_bind0 (by idle) fun o _ => cost_ok ?_
    rw [hfc] at hk3
    revert hk1' hk2 hk3
    simp only [only, full, whole, rate, Spec.Work.pad]
    split <;> omega

theorem cost_final (d : Bytes) {c : Model.Sha512.Ctx} {L : Nat} (h : c.num = L % 128) :
    Cost (meter p) (Leak.Sha512.final d c) fun _ k => k + only p .sha512 (full .sha512 L) = only p .sha512 (whole .sha512 L) := by
  unfold Leak.Sha512.final
  exact cost_frame (cost_final_trunc _ _ h)

end Sha512

end Leak.Work
