import Verif.Proof.LeakRel
/-!
# The hash functions leak only lengths
-/
namespace Leak
open Model

namespace Sha256

/-- Contexts which differ only in secret data: same counters, same buffer size. -/
structure LowSha (c c' : Model.Sha256.Ctx) : Prop where
  count : c.count = c'.count
  num : c.num = c'.num
  data : Len c.data c'.data

theorem sched_rel (i : Nat) {W W' : List UInt32} (h : Len W W') : RelP Len (sched i W) (sched i W') := by
  unfold sched
  refine rel_branch Iff.rfl (fun _ _ => ?_) (fun _ _ => rel_ok h)
  refine rel_bind (rel_rd h _) fun _ _ _ => ?_
  refine rel_bind (rel_rd h _) fun _ _ _ => ?_
  refine rel_bind (rel_rd h _) fun _ _ _ => ?_
  refine rel_bind (rel_rd h _) fun _ _ _ => ?_
  exact rel_wr h _ _ _

theorem rnd_rel (i : Nat) {s s' : List UInt32 × Spec.V8 UInt32} (h : Len s.1 s'.1) :
    RelP (fun a b => Len a.1 b.1) (rnd i s) (rnd i s') := by
  obtain ⟨W, v⟩ := s
  obtain ⟨W', v'⟩ := s'
  unfold rnd
  refine rel_bind (sched_rel i h) fun _ _ h => ?_
  refine rel_bind (rel_refl _) fun _ _ _ => ?_
  refine rel_bind (rel_rd h _) fun _ _ _ => ?_
  exact rel_ok h

theorem length_flat (b : Bool) (W : List UInt32) : (W.flatMap (Model.Sha256.wordBytes b)).length = 4 * W.length := by
  induction W with
  | nil => rfl
  | cons w W ih =>
    rw [List.flatMap_cons, List.length_append, ih, List.length_cons]
    rw [show (Model.Sha256.wordBytes b w).length = 4 by cases b <;> simp [Model.Sha256.wordBytes, Model.Sha256.leBytes]]
    omega

theorem compress_rel {c c' : Model.Sha256.Ctx} (hc : c.count = c'.count) (hn : c.num = c'.num) {b b' : Bytes} (hb : Len b b') :
    RelP LowSha (compress c b) (compress c' b') := by
  unfold compress
  refine rel_frame ?_
  refine rel_permuting rfl ?_
  refine rel_bind (R := Len) (rel_loop rfl fun i s s' _ _ h => ?_) fun W W' h => ?_
  · exact rel_bind (ts_bytes_to_ull_rel hb _ _) fun _ _ _ => rel_wr h _ _ _
  · refine rel_bind (R := fun a b => Len a.1 b.1) (rel_loop h fun i s s' _ _ h => rnd_rel i h) ?_
    rintro ⟨V, S⟩ ⟨V', S'⟩ h
    refine rel_ok ⟨hc, hn, ?_⟩
    show List.length _ = List.length _
    rw [length_flat, length_flat]
    exact congrArg _ h

theorem updateLoop_rel (fuel : Nat) {c c' : Model.Sha256.Ctx} (h : LowSha c c') {p p' : Bytes} (hp : Len p p') :
    RelP LowSha (updateLoop fuel c p) (updateLoop fuel c' p') := by
  induction fuel generalizing c c' p p' with
  | zero => exact rel_error _ _
  | succ fuel ih =>
    have hp' : p.length = p'.length := hp
    unfold updateLoop
    refine rel_branch (by rw [hp']) (fun _ _ => rel_ok h) fun _ _ => ?_
    refine rel_bind (lmin_rel (by rw [h.num]) hp') ?_
    rintro st st' ⟨rfl, hst⟩
    refine rel_branch Iff.rfl (fun _ _ => ?_) (fun _ _ => ?_)
    · refine rel_bind (rel_rdSlice hp _ _) fun b b' hb => ?_
      refine rel_bind (compress_rel (by exact h.count) (by rfl) (hb.1.trans hb.2.symm)) fun c c' h => ?_
      exact ih h (by show List.length _ = List.length _; simp only [List.length_drop, hp'])
    · refine rel_bind (rel_rdSlice hp _ _) fun b b' hb => ?_
      rw [← h.num]
      refine rel_bind (rel_wrSlice h.data _ (hb.1.trans hb.2.symm)) fun e e' he => ?_
      refine rel_branch Iff.rfl (fun _ _ => rel_ok ⟨h.count, ?_, he⟩) (fun _ _ => ?_)
      · rfl
      · refine rel_bind (compress_rel (by exact h.count) (by rfl) he) fun c c' h => ?_
        exact ih h (by show List.length _ = List.length _; simp only [List.length_drop, hp'])

theorem update_rel {c c' : Model.Sha256.Ctx} (h : LowSha c c') {p p' : Bytes} (hp : Len p p') :
    RelP LowSha (update c p) (update c' p') := by
  unfold update
  refine rel_frame ?_
  rw [show p.length = p'.length from hp, h.count]
  exact updateLoop_rel _ (by exact ⟨rfl, h.num, h.data⟩) hp

theorem final_trunc_rel {dg dg' : Bytes} (hd : Len dg dg') {c c' : Model.Sha256.Ctx} (h : LowSha c c') (n : Nat) :
    RelP (fun a b => Len a.1 b.1 ∧ LowSha a.2 b.2) (final_trunc dg c n) (final_trunc dg' c' n) := by
  unfold final_trunc
  refine rel_frame ?_
  refine rel_bind (ts_ull_to_bytes_rel rfl _ _ _ _) fun f f' hf => ?_
  refine rel_bind (update_rel h rfl) fun c c' h => ?_
  refine rel_bind (R := LowSha) (rel_branch (by rw [h.num]) (fun _ _ => update_rel h rfl) (fun _ _ => rel_ok h)) fun c c' h => ?_
  rw [← h.num]
  refine rel_bind (rel_wrSlice h.data _ rfl) fun e e' he => ?_
  refine rel_bind (update_rel (by exact ⟨h.count, rfl, he⟩) hf) fun c c' h => ?_
  refine rel_bind (R := Len) (rel_loop hd fun i s s' _ _ hs => ?_) fun a b hab => rel_ok ⟨hab, h⟩
  exact rel_bind (rel_rd (by rfl) _) fun _ _ _ => ts_ull_to_bytes_rel hs _ _ _ _

theorem final_rel {dg dg' : Bytes} (hd : Len dg dg') {c c' : Model.Sha256.Ctx} (h : LowSha c c') :
    RelP (fun a b => Len a.1 b.1 ∧ LowSha a.2 b.2) (final dg c) (final dg' c') := rel_frame (final_trunc_rel hd h _)

theorem init_low {c c' : Model.Sha256.Ctx} (h : Len c.data c'.data) : LowSha (Model.Sha256.init c) (Model.Sha256.init c') := ⟨rfl, rfl, h⟩

theorem restore_low {c c' : Model.Sha256.Ctx} (h : Len c.data c'.data) (s s' : Spec.V8 UInt32) :
    LowSha (Model.Sha256.restore_state c s) (Model.Sha256.restore_state c' s') := ⟨rfl, rfl, h⟩
end Sha256

namespace Sha512

/-- Contexts which differ only in secret data: same counters, same buffer size. -/
structure LowSha (c c' : Model.Sha512.Ctx) : Prop where
  count : c.count = c'.count
  num : c.num = c'.num
  data : Len c.data c'.data

theorem sched_rel (i : Nat) {W W' : List UInt64} (h : Len W W') : RelP Len (sched i W) (sched i W') := by
  unfold sched
  refine rel_branch Iff.rfl (fun _ _ => ?_) (fun _ _ => rel_ok h)
  refine rel_bind (rel_rd h _) fun _ _ _ => ?_
  refine rel_bind (rel_rd h _) fun _ _ _ => ?_
  refine rel_bind (rel_rd h _) fun _ _ _ => ?_
  refine rel_bind (rel_rd h _) fun _ _ _ => ?_
  exact rel_wr h _ _ _

theorem rnd_rel (i : Nat) {s s' : List UInt64 × Spec.V8 UInt64} (h : Len s.1 s'.1) :
    RelP (fun a b => Len a.1 b.1) (rnd i s) (rnd i s') := by
  obtain ⟨W, v⟩ := s
  obtain ⟨W', v'⟩ := s'
  unfold rnd
  refine rel_bind (sched_rel i h) fun _ _ h => ?_
  refine rel_bind (rel_refl _) fun _ _ _ => ?_
  refine rel_bind (rel_rd h _) fun _ _ _ => ?_
  exact rel_ok h

theorem length_flat (b : Bool) (W : List UInt64) : (W.flatMap (Model.Sha512.wordBytes b)).length = 8 * W.length := by
  induction W with
  | nil => rfl
  | cons w W ih =>
    rw [List.flatMap_cons, List.length_append, ih, List.length_cons]
    rw [show (Model.Sha512.wordBytes b w).length = 8 by cases b <;> simp [Model.Sha512.wordBytes, Model.Sha512.leBytes]]
    omega

theorem compress_rel {c c' : Model.Sha512.Ctx} (hc : c.count = c'.count) (hn : c.num = c'.num) {b b' : Bytes} (hb : Len b b') :
    RelP LowSha (compress c b) (compress c' b') := by
  unfold compress
  refine rel_frame ?_
  refine rel_permuting rfl ?_
  refine rel_bind (R := Len) (rel_loop rfl fun i s s' _ _ h => ?_) fun W W' h => ?_
  · exact rel_bind (ts_bytes_to_ull_rel hb _ _) fun _ _ _ => rel_wr h _ _ _
  · refine rel_bind (R := fun a b => Len a.1 b.1) (rel_loop h fun i s s' _ _ h => rnd_rel i h) ?_
    rintro ⟨V, S⟩ ⟨V', S'⟩ h
    refine rel_ok ⟨hc, hn, ?_⟩
    show List.length _ = List.length _
    rw [length_flat, length_flat]
    exact congrArg _ h

theorem updateLoop_rel (fuel : Nat) {c c' : Model.Sha512.Ctx} (h : LowSha c c') {p p' : Bytes} (hp : Len p p') :
    RelP LowSha (updateLoop fuel c p) (updateLoop fuel c' p') := by
  induction fuel generalizing c c' p p' with
  | zero => exact rel_error _ _
  | succ fuel ih =>
    have hp' : p.length = p'.length := hp
    unfold updateLoop
    refine rel_branch (by rw [hp']) (fun _ _ => rel_ok h) fun _ _ => ?_
    refine rel_bind (lmin_rel (by rw [h.num]) hp') ?_
    rintro st st' ⟨rfl, hst⟩
    refine rel_branch Iff.rfl (fun _ _ => ?_) (fun _ _ => ?_)
    · refine rel_bind (rel_rdSlice hp _ _) fun b b' hb => ?_
      refine rel_bind (compress_rel (by exact h.count) (by rfl) (hb.1.trans hb.2.symm)) fun c c' h => ?_
      exact ih h (by show List.length _ = List.length _; simp only [List.length_drop, hp'])
    · refine rel_bind (rel_rdSlice hp _ _) fun b b' hb => ?_
      rw [← h.num]
      refine rel_bind (rel_wrSlice h.data _ (hb.1.trans hb.2.symm)) fun e e' he => ?_
      refine rel_branch Iff.rfl (fun _ _ => rel_ok ⟨h.count, ?_, he⟩) (fun _ _ => ?_)
      · rfl
      · refine rel_bind (compress_rel (by exact h.count) (by rfl) he) fun c c' h => ?_
        exact ih h (by show List.length _ = List.length _; simp only [List.length_drop, hp'])

theorem update_rel {c c' : Model.Sha512.Ctx} (h : LowSha c c') {p p' : Bytes} (hp : Len p p') :
    RelP LowSha (update c p) (update c' p') := by
  unfold update
  refine rel_frame ?_
  rw [show p.length = p'.length from hp, h.count]
  exact updateLoop_rel _ (by exact ⟨rfl, h.num, h.data⟩) hp

theorem final_trunc_rel {dg dg' : Bytes} (hd : Len dg dg') {c c' : Model.Sha512.Ctx} (h : LowSha c c') (n : Nat) :
    RelP (fun a b => Len a.1 b.1 ∧ LowSha a.2 b.2) (final_trunc dg c n) (final_trunc dg' c' n) := by
  unfold final_trunc
  refine rel_frame ?_
  refine rel_bind (ts_ull_to_bytes_rel rfl _ _ _ _) fun f f' hf => ?_
  refine rel_bind (update_rel h rfl) fun c c' h => ?_
  refine rel_bind (R := LowSha) (rel_branch (by rw [h.num]) (fun _ _ => update_rel h rfl) (fun _ _ => rel_ok h)) fun c c' h => ?_
  rw [← h.num]
  refine rel_bind (rel_wrSlice h.data _ rfl) fun e e' he => ?_
  refine rel_bind (update_rel (by exact ⟨h.count, rfl, he⟩) hf) fun c c' h => ?_
  refine rel_bind (R := Len) (rel_loop hd fun i s s' _ _ hs => ?_) fun a b hab => rel_ok ⟨hab, h⟩
  exact rel_bind (rel_rd (by rfl) _) fun _ _ _ => ts_ull_to_bytes_rel hs _ _ _ _

theorem final_rel {dg dg' : Bytes} (hd : Len dg dg') {c c' : Model.Sha512.Ctx} (h : LowSha c c') :
    RelP (fun a b => Len a.1 b.1 ∧ LowSha a.2 b.2) (final dg c) (final dg' c') := rel_frame (final_trunc_rel hd h _)

theorem init_low {c c' : Model.Sha512.Ctx} (h : Len c.data c'.data) : LowSha (Model.Sha512.init c) (Model.Sha512.init c') := ⟨rfl, rfl, h⟩

theorem restore_low {c c' : Model.Sha512.Ctx} (h : Len c.data c'.data) (s s' : Spec.V8 UInt64) :
    LowSha (Model.Sha512.restore_state c s) (Model.Sha512.restore_state c' s') := ⟨rfl, rfl, h⟩
end Sha512

namespace Shake

/-- The index 25 of the Keccak context: the number of bytes absorbed or left to squeeze. -/
def K25 (i : Nat) : Prop := i = 25

/-- Contexts which differ only in secret data. -/
structure LowSh (s s' : List UInt64) : Prop where
  low : Low K25 s s'
  lt : ∀ v, s[25]? = some v → v.toNat < 136

/-- A write below index 25. -/
theorem wr_rel {s s' : List UInt64} (h : LowSh s s') {i : Nat} (hi : i ≠ 25) (v w : UInt64) :
    RelP LowSh (wr s i v) (wr s' i w) := by
  have h1 := rel_wrK h.low i (v := v) (w := w) (fun hk => (hi hk).elim)
  obtain ⟨h1, h2⟩ := h1
  refine ⟨h1, ?_⟩
  revert h2
  show Out _ (Model.wr s i v) (Model.wr s' i w) → Out _ (Model.wr s i v) (Model.wr s' i w)
  unfold Model.wr
  split
  · split
    · intro h2
      refine ⟨h2, fun u hu => h.lt u ?_⟩
      rwa [List.getElem?_set_ne hi] at hu
    · exact id
  · split <;> exact id

/-- Setting the counter. -/
theorem wr25_rel {s s' : List UInt64} (h : Len s s') (v : UInt64) (hv : v.toNat < 136) :
    RelP LowSh (wr s 25 v) (wr s' 25 v) := by
  unfold Len at h
  refine rel_prim rfl ?_
  unfold Model.wr
  by_cases hi : 25 < s.length
  · rw [if_pos hi, if_pos (h ▸ hi)]
    refine ⟨⟨by simpa using h, fun i hi' => ?_⟩, fun u hu => ?_⟩
    · rw [show i = 25 from hi', List.getElem?_set_self hi, List.getElem?_set_self (h ▸ hi)]
    · rw [List.getElem?_set_self hi] at hu
      cases hu; exact hv
  · rw [if_neg hi, if_neg (h ▸ hi)]; trivial

theorem rd25_rel {s s' : List UInt64} (h : LowSh s s') :
    RelP (fun v w => v = w ∧ v.toNat < 136) (rd s 25) (rd s' 25) :=
  (rel_rdK h.low rfl).mono fun _ _ ⟨h1, h2⟩ => ⟨h1, h.lt _ h2⟩

theorem load_rel {s s' : List UInt64} (h : Len s s') : RelP (fun _ _ => True) (load s) (load s') := by
  unfold load
  iterate 25 refine rel_bind (rel_rd h _) fun _ _ _ => ?_
  exact rel_ok trivial

theorem store_rel {s s' : List UInt64} (h : LowSh s s') (A A' : Model.Shake.Lanes) : RelP LowSh (store s A) (store s' A') := by
  unfold store
  iterate 25 refine rel_bind (wr_rel (by assumption) (by decide) _ _) fun _ _ _ => ?_
  exact rel_ok (by assumption)

theorem permute0_rel {s s' : List UInt64} (h : LowSh s s') : RelP LowSh (permute0 s) (permute0 s') := by
  unfold permute0
  refine rel_bind (load_rel h.low.1) fun A A' _ => ?_
  refine rel_bind (R := fun _ _ => True) (rel_loop trivial fun i a b _ _ _ => ?_) fun A A' _ => store_rel h _ _
  refine rel_bind (rel_refl _) fun _ _ _ => ?_
  refine rel_bind (rel_refl _) fun _ _ _ => ?_
  exact rel_ok trivial

theorem permute1_rel {s s' : List UInt64} (h : LowSh s s') : RelP LowSh (permute1 s) (permute1 s') := by
  unfold permute1
  refine rel_loop h fun i s s' _ _ h => ?_
  refine rel_bind (load_rel h.low.1) fun A A' _ => ?_
  refine rel_bind (rel_refl _) fun _ _ _ => ?_
  refine rel_bind (rel_refl _) fun _ _ _ => ?_
  exact store_rel h _ _

/-- State and scratch array of the compact permutation. -/
def LowP (a b : List UInt64 × List UInt64) : Prop := LowSh a.1 b.1 ∧ Len a.2 b.2

theorem theta2_rel {s s' bc bc' : List UInt64} (h : LowSh s s') (hb : Len bc bc') : RelP LowP (theta2 s bc) (theta2 s' bc') := by
  unfold theta2
  refine rel_bind (R := Len) (rel_loop hb fun i b b' _ _ hb => ?_) fun b b' hb => ?_
  · iterate 5 refine rel_bind (rel_rd h.low.1 _) fun _ _ _ => ?_
    exact rel_wr hb _ _ _
  · refine rel_bind (R := LowSh) (rel_loop h fun i s s' _ hi h => ?_) fun s s' h => rel_ok ⟨h, hb⟩
    iterate 2 refine rel_bind (rel_rd hb _) fun _ _ _ => ?_
    refine rel_loop h fun j s s' _ hj h => ?_
    refine rel_bind (rel_rd h.low.1 _) fun _ _ _ => ?_
    exact wr_rel h (by omega) _ _

theorem piln_lt : ∀ x ∈ Model.Shake.piln, x < 25 := by decide

theorem rhopiStep_rel (i : Nat) {s s' : List UInt64 × List UInt64 × UInt64} (h : LowSh s.1 s'.1) (hb : Len s.2.1 s'.2.1) :
    RelP (fun a b => LowSh a.1 b.1 ∧ Len a.2.1 b.2.1) (rhopiStep i s) (rhopiStep i s') := by
  unfold rhopiStep
  refine rel_bind (rel_rdK (K := fun _ => True) ⟨rfl, fun _ _ => rfl⟩ trivial) ?_
  rintro j _ ⟨rfl, hj⟩
  have hj := piln_lt j (List.mem_of_getElem? hj)
  refine rel_bind (rel_rd h.low.1 _) fun _ _ _ => ?_
  refine rel_bind (rel_wr hb _ _ _) fun b b' hb => ?_
  refine rel_bind (rel_refl _) ?_
  rintro r _ rfl
  refine rel_bind (rel_tick rfl) fun _ _ _ => ?_
  refine rel_bind (wr_rel h (by omega) _ _) fun s s' h => ?_
  exact rel_bind (rel_rd hb _) fun _ _ _ => rel_ok ⟨h, hb⟩

theorem rhopi2_rel {s s' bc bc' : List UInt64} (h : LowSh s s') (hb : Len bc bc') : RelP LowP (rhopi2 s bc) (rhopi2 s' bc') := by
  unfold rhopi2
  refine rel_bind (rel_rd h.low.1 _) fun _ _ _ => ?_
  refine rel_bind (R := fun a b : List UInt64 × List UInt64 × UInt64 => LowSh a.1 b.1 ∧ Len a.2.1 b.2.1)
    (rel_loop ⟨h, hb⟩ fun i s s' _ _ h => rhopiStep_rel i h.1 h.2) fun s s' h => ?_
  exact rel_ok h

theorem chiRow_rel (j : Nat) (hj : j < 5) {s s' : List UInt64 × List UInt64} (h : LowP s s') : RelP LowP (chiRow j s) (chiRow j s') := by
  unfold chiRow
  refine rel_bind (R := Len) (rel_loop h.2 fun i b b' _ _ hb => ?_) fun b b' hb => ?_
  · refine rel_bind (rel_rd h.1.low.1 _) fun _ _ _ => ?_
    exact rel_wr hb _ _ _
  · refine rel_bind (R := LowSh) (rel_loop h.1 fun i s s' _ hi h => ?_) fun s s' h => rel_ok ⟨h, hb⟩
    refine rel_bind (rel_rd h.low.1 _) fun _ _ _ => ?_
    iterate 2 refine rel_bind (rel_rd hb _) fun _ _ _ => ?_
    exact wr_rel h (by omega) _ _

theorem chi2_rel {s s' bc bc' : List UInt64} (h : LowSh s s') (hb : Len bc bc') : RelP LowP (chi2 s bc) (chi2 s' bc') :=
  rel_loop (R := LowP) ⟨h, hb⟩ fun j s s' _ hj h => chiRow_rel j (by omega) h

theorem round2_rel (r : Nat) {s s' : List UInt64 × List UInt64} (h : LowP s s') : RelP LowP (round2 r s) (round2 r s') := by
  unfold round2
  refine rel_bind (theta2_rel h.1 h.2) fun s s' h => ?_
  refine rel_bind (rhopi2_rel h.1 h.2) fun s s' h => ?_
  refine rel_bind (chi2_rel h.1 h.2) fun s s' h => ?_
  refine rel_bind (rel_rd h.1.low.1 _) fun _ _ _ => ?_
  refine rel_bind (rel_refl _) fun _ _ _ => ?_
  exact rel_bind (wr_rel h.1 (by decide) _ _) fun a b hab => rel_ok ⟨hab, h.2⟩

theorem permute2_rel (b : List UInt64) {s s' : List UInt64} (h : LowSh s s') : RelP LowSh (permute2 b s) (permute2 b s') := by
  unfold permute2
  exact rel_bind (R := LowP) (rel_loop ⟨h, rfl⟩ fun i s s' _ _ h => round2_rel i h) fun s s' h => rel_ok h.1

theorem permute_rel (o : Nat) {s s' : List UInt64} (h : LowSh s s') : RelP LowSh (permute o s) (permute o s') := by
  unfold permute
  refine rel_frame ?_
  refine rel_permuting rfl ?_
  split
  · exact permute2_rel _ h
  · split
    · exact permute1_rel h
    · exact permute0_rel h

theorem inc_init_rel {s s' : List UInt64} (h : Len s s') : RelP LowSh (inc_init s) (inc_init s') := by
  unfold inc_init
  refine rel_frame ?_
  exact rel_bind (R := Len) (rel_loop h fun i s s' _ _ h => rel_wr h _ _ _) fun s s' h => wr25_rel h 0 (by decide)

theorem xorByte_rel {s s' : List UInt64} (h : LowSh s s') {p : Nat} (hp : p < 200) (b b' : UInt8) :
    RelP LowSh (xorByte s p b) (xorByte s' p b') := by
  unfold xorByte
  refine rel_bind (rel_rd h.low.1 _) fun _ _ _ => ?_
  refine rel_bind (rel_tick rfl) fun _ _ _ => ?_
  refine wr_rel h ?_ _ _
  rw [Nat.shiftRight_eq_div_pow]
  omega

theorem absorbLoop_rel (o fuel : Nat) {s s' : List UInt64} (h : LowSh s s') {m m' : Bytes} (hm : Len m m') (hl : m.length < 2 ^ 63) :
    RelP LowSh (absorbLoop o fuel s m) (absorbLoop o fuel s' m') := by
  induction fuel generalizing s s' m m' with
  | zero => exact rel_error _ _
  | succ fuel ih =>
    have hm' : m.length = m'.length := hm
    unfold absorbLoop
    refine rel_bind (rd25_rel h) ?_
    rintro c _ ⟨rfl, hc⟩
    rw [← hm']
    refine rel_branch Iff.rfl (fun hge _ => ?_) (fun hlt _ => ?_)
    · have hu : usub64 Model.Shake.RATE c.toNat = 136 - c.toNat := by
        unfold usub64; show (2 ^ 64 + 136 - c.toNat) % 2 ^ 64 = _; omega
      rw [hu]
      refine rel_bind (R := LowSh) (rel_loop h fun i s s' _ hi h => ?_) fun s s' h => ?_
      · exact rel_bind (rel_rd hm _) fun _ _ _ => xorByte_rel h (by rw [Nat.mod_eq_of_lt (by omega)]; omega) _ _
      · refine rel_bind (wr25_rel h.low.1 0 (by decide)) fun s s' h => ?_
        refine rel_bind (permute_rel o h) fun s s' h => ?_
        exact ih h (by show List.length _ = List.length _; simp only [List.length_drop, hm']) (by rw [List.length_drop]; omega)
    · have hlt' : m.length + c.toNat < 136 := by
        rw [Nat.mod_eq_of_lt (by omega)] at hlt
        exact Nat.lt_of_not_le hlt
      refine rel_bind (R := LowSh) (rel_loop h fun i s s' _ hi h => ?_) fun s s' h => ?_
      · exact rel_bind (rel_rd hm _) fun _ _ _ => xorByte_rel h (by rw [Nat.mod_eq_of_lt (by omega)]; omega) _ _
      · refine wr25_rel h.low.1 _ ?_
        rw [UInt64.toNat_ofNat', Nat.mod_eq_of_lt (by omega)]
        omega

theorem inc_absorb_rel (o : Nat) {s s' : List UInt64} (h : LowSh s s') {m m' : Bytes} (hm : Len m m') (hl : m.length < 2 ^ 63) :
    RelP LowSh (inc_absorb o s m) (inc_absorb o s' m') := by
  unfold inc_absorb
  refine rel_frame (rel_frame ?_)
  rw [show m.length = m'.length from hm]
  exact absorbLoop_rel o _ h hm hl

theorem inc_finalize_rel {s s' : List UInt64} (h : LowSh s s') : RelP LowSh (inc_finalize s) (inc_finalize s') := by
  unfold inc_finalize
  refine rel_frame ?_
  refine rel_bind (rd25_rel h) ?_
  rintro c _ ⟨rfl, hc⟩
  refine rel_bind (xorByte_rel h (by omega) _ _) fun s s' h => ?_
  refine rel_bind (xorByte_rel h (by decide) _ _) fun s s' h => ?_
  exact wr25_rel h.low.1 0 (by decide)

theorem getByte_rel {s s' : List UInt64} (h : LowSh s s') (p : Nat) : RelP (fun _ _ => True) (getByte s p) (getByte s' p) := by
  unfold getByte
  refine rel_bind (rel_rd h.low.1 _) fun _ _ _ => ?_
  exact rel_bind (rel_tick rfl) fun _ _ _ => rel_ok trivial

theorem squeezeLoop_rel (o fuel : Nat) {b b' : Bytes} (hb : Len b b') (off len : Nat) {s s' : List UInt64} (h : LowSh s s') :
    RelP (fun x y => Len x.1 y.1 ∧ LowSh x.2 y.2) (squeezeLoop o fuel b off len s) (squeezeLoop o fuel b' off len s') := by
  induction fuel generalizing b b' off len s s' with
  | zero => exact rel_error _ _
  | succ fuel ih =>
    unfold squeezeLoop
    refine rel_branch Iff.rfl (fun h0 _ => ?_) (fun _ _ => rel_ok ⟨hb, h⟩)
    refine rel_bind (permute_rel o h) fun s s' h => ?_
    refine rel_bind (lmin_rel rfl rfl) ?_
    rintro cnt _ ⟨rfl, hc⟩
    refine rel_bind (R := Len) (rel_loop hb fun i x y _ _ hx => ?_) fun x y hx => ?_
    · exact rel_bind (getByte_rel h _) fun _ _ _ => rel_wr hx _ _ _
    · refine rel_bind (wr25_rel h.low.1 _ ?_) fun s s' h => ih hx _ _ h
      have : Model.Shake.RATE = 136 := rfl
      rw [UInt64.toNat_ofNat', Nat.mod_eq_of_lt (by omega)]
      omega

theorem inc_squeeze_rel (o : Nat) {b b' : Bytes} (hb : Len b b') (off len : Nat) {s s' : List UInt64} (h : LowSh s s') :
    RelP (fun x y => Len x.1 y.1 ∧ LowSh x.2 y.2) (inc_squeeze o b off len s) (inc_squeeze o b' off len s') := by
  unfold inc_squeeze
  refine rel_frame (rel_frame ?_)
  refine rel_bind (rd25_rel h) ?_
  rintro c _ ⟨rfl, hc⟩
  refine rel_bind (lmin_rel rfl rfl) ?_
  rintro cnt _ ⟨rfl, hcnt⟩
  refine rel_bind (R := Len) (rel_loop hb fun i x y _ _ hx => ?_) fun x y hx => ?_
  · exact rel_bind (getByte_rel h _) fun _ _ _ => rel_wr hx _ _ _
  · refine rel_bind (wr25_rel h.low.1 _ ?_) fun s s' h => squeezeLoop_rel o _ hx _ _ h
    rw [UInt64.toNat_ofNat', Nat.mod_eq_of_lt (by omega)]
    omega

end Shake
end Leak
