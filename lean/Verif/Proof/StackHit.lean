import Verif.Proof.StackSign
/-!
# Calls that are certain: a logic for chains of running functions that occur in every successful run
-/
namespace Leak
open Model Spec.Stack Model.Stack

/-- At some moment of `x`, run in a call of `g`, the functions `c` are running above `g`. -/
def Hit (g : CFn) (x : L α) (c : List CFn) : Prop := ∃ q, q <+: x.log ∧ ∀ σ, q.foldl step (g :: σ) = c ++ g :: σ

/-- This is so if `x` ends without a fault. -/
def Must (g : CFn) (x : L α) (c : List CFn) : Prop := ∀ b, x.res = .ok b → Hit g x c

variable {G : CFn → List CFn} {g : CFn} {c : List CFn}

theorem nest_balanced {x : L α} {Q : α → Prop} (h : Nest G g x Q) (σ : List CFn) : x.log.foldl step (g :: σ) = g :: σ := walk_active [] G _ _ _ (h.1 [] σ)

theorem hit_first {x : L α} {f : α → L β} (h : Hit g x c) : Hit g (x >>= f) c := by
  obtain ⟨q, hq, hs⟩ := h
  refine ⟨q, ?_, hs⟩
  rw [nest_log_bind]
  exact hq.trans (List.prefix_append _ _)

theorem must_first {x : L α} {f : α → L β} (h : Must g x c) : Must g (x >>= f) c := by
  intro b e
  obtain ⟨a, ha, -⟩ := nest_res_bind e
  exact hit_first (h a ha)

theorem hit_then {x : L α} {f : α → L β} {Q : α → Prop} (hx : Nest G g x Q) {a : α} (ha : x.res = .ok a) (h : Hit g (f a) c) : Hit g (x >>= f) c := by
  obtain ⟨q, hq, hs⟩ := h
  refine ⟨x.log ++ q, ?_, fun σ => ?_⟩
  · rw [nest_log_bind, ha]
    exact (List.prefix_append_right_inj _).2 hq
  · rw [List.foldl_append, nest_balanced hx, hs]

theorem must_then {x : L α} {f : α → L β} {Q : α → Prop} (hx : Nest G g x Q) (h : ∀ a, Q a → Must g (f a) c) : Must g (x >>= f) c := by
  intro b e
  obtain ⟨a, ha, hb⟩ := nest_res_bind e
  exact hit_then hx ha (h a (hx.2 a ha) b hb)

theorem hit_frame {h : CFn} {x : L α} (hx : Hit h x c) : Hit g (frame h x) (c ++ [h]) := by
  obtain ⟨q, hq, hs⟩ := hx
  refine ⟨.enter h :: q, ?_, fun σ => ?_⟩
  · show _ <+: .enter h :: (x.log ++ [.leave h])
    exact (List.prefix_cons_inj _).2 (hq.trans (List.prefix_append _ _))
  · show q.foldl step (h :: g :: σ) = _
    rw [hs, List.append_assoc]; rfl

theorem must_frame {h : CFn} {x : L α} (hx : Must h x c) : Must g (frame h x) (c ++ [h]) := fun b e => hit_frame (hx b e)

/-- A call of `h` is enough. -/
theorem must_frame0 {h : CFn} {x : L α} : Must g (frame h x) [h] := by
  intro b _
  exact ⟨[.enter h], (List.prefix_cons_inj _).2 (List.nil_prefix), fun σ => rfl⟩

theorem hit_cons {x : L α} {y : L β} {e : Ev} (he : ∀ σ, step σ e = σ) (hl : y.log = e :: x.log) (h : Hit g x c) : Hit g y c := by
  obtain ⟨q, hq, hs⟩ := h
  refine ⟨e :: q, ?_, fun σ => ?_⟩
  · rw [hl]; exact (List.prefix_cons_inj _).2 hq
  · show q.foldl step (step _ e) = _
    rw [he, hs]

theorem must_calling {f : Fn} {n : Nat} {a : L α} (h : Must g a c) : Must g (calling f n a) c := fun b e => hit_cons (fun _ => rfl) rfl (h b e)
theorem must_permuting {f : Prim} {n : Nat} {a : L α} (h : Must g a c) : Must g (permuting f n a) c := fun b e => hit_cons (fun _ => rfl) rfl (h b e)
theorem must_select {n : Nat} {a : L α} (h : Must g a c) : Must g (select n a) c := fun b e => hit_cons (fun _ => rfl) rfl (h b e)

theorem must_branch {p : Prop} [Decidable p] {a b : L α} (ha : p → Must g a c) (hb : ¬ p → Must g b c) : Must g (branch p a b) c := by
  intro r e
  by_cases h : p
  · refine hit_cons (x := a) (e := .br (decide p)) (fun _ => rfl) ?_ (ha h r ?_)
    · exact (congrArg _ (congrArg L.log (if_pos h)) : _)
    · have := congrArg L.res (if_pos h : (if p then a else b) = a); rw [← this]; exact e
  · refine hit_cons (x := b) (e := .br (decide p)) (fun _ => rfl) ?_ (hb h r ?_)
    · exact (congrArg _ (congrArg L.log (if_neg h)) : _)
    · have := congrArg L.res (if_neg h : (if p then a else b) = b); rw [← this]; exact e

theorem nest_tick (e : Ev) (he : ∀ R G σ, walk R G σ [e] = some σ) : Nest G g (tick e) fun _ => True := ⟨fun R σ => he R G _, fun _ _ => trivial⟩

/-- The first iteration of a loop. -/
theorem must_loop {body : Nat → σ → L σ} {n i : Nat} {s : σ} (hn : 0 < n) (h : Must g (body i s) c) : Must g (loop body n i s) c := by
  obtain ⟨m, rfl⟩ : ∃ m, n = m + 1 := ⟨n - 1, by omega⟩
  unfold loop
  exact must_then (G := fun _ => []) (nest_tick (.br true) fun _ _ _ => rfl) fun _ _ => must_first h

variable {E : Env} {mem : Mem} {F : Fam} {o : Bool}

theorem nest_lmin (a b : Nat) : Nest G g (lmin a b) fun r => r = min a b := by
  refine ⟨fun R σ => ?_, fun r e => ?_⟩
  · exact (nest_branch (Q := fun _ => True) (nest_ok trivial) (nest_ok trivial)).1 R σ
  · unfold lmin branch at e
    by_cases h : b < a
    · simp only [if_pos h] at e; cases e; omega
    · simp only [if_neg h] at e; cases e; omega

theorem nest_ull {p : Bytes} {off v n : Nat} : Nest G g (ts_ull_to_bytes p off v n) fun r => r.length = p.length := by
  induction n generalizing p v with
  | zero => exact nest_bind (P := fun _ => True) (nest_tick _ fun _ _ _ => rfl) fun _ _ => nest_ok rfl
  | succ n ih =>
    unfold ts_ull_to_bytes
    refine nest_bind (P := fun _ => True) (nest_tick _ fun _ _ _ => rfl) fun _ _ => ?_
    refine nest_bind (P := fun r => r.length = p.length) ⟨fun _ _ => rfl, fun r e => ?_⟩ fun r hr => nest_mono ih fun _ h => h.trans hr
    change Model.wr p (off + n) _ = .ok r at e
    unfold Model.wr at e
    split at e
    · cases e; exact List.length_set ..
    · cases e

namespace Sha256
theorem must_compress (x : Model.Sha256.Ctx) (b : Bytes) : Must g (compress x b) [.compress] := must_frame0

/-- The last block of the padded message. -/
theorem must_updateLoop (fuel : Nat) (x : Model.Sha256.Ctx) (p : Bytes) (hp : p.length = 8) (hn : x.num = 56) :
    Must g (updateLoop fuel x p) [.compress] := by
  cases fuel with
  | zero => intro b e; cases e
  | succ fuel =>
    unfold updateLoop
    refine must_branch (fun h => absurd h (by omega)) fun _ => ?_
    refine must_then (nest_lmin (G := fun _ => []) _ _) fun r hr => ?_
    have hr : r = 8 := by rw [hr, hn, hp]; rfl
    refine must_branch (fun h => absurd h (by omega)) fun _ => ?_
    refine must_then (nest_quiet (G := fun _ => []) (quiet_rdSlice _ _ _)) fun _ _ => ?_
    refine must_then (nest_quiet (G := fun _ => []) (quiet_wrSlice _ _ _)) fun _ _ => ?_
    refine must_branch (fun h => absurd h (by dsimp only; omega)) fun _ => ?_
    exact must_first (must_compress _ _)

theorem must_final_trunc (d : Bytes) (x : Model.Sha256.Ctx) (n : Nat) :
    Must g (final_trunc d x n) [.compress, .ts_SHA256_update, .ts_SHA256_final_trunc] := by
  unfold final_trunc
  refine must_frame (c := [.compress, .ts_SHA256_update]) ?_
  refine must_then (G := callees true .shake) (nest_ull (off := 0) (n := 8) (v := x.count) (p := List.replicate 8 0)) fun fc hfc => ?_
  refine must_then (nest_update (o := true) (F := .shake) _ _ (by edge)) fun _ _ => ?_
  refine must_then (G := callees true .shake) (Q := fun _ => True) (by nest [nest_update _ _ ?_]) fun _ _ => ?_
  refine must_then (nest_quiet (G := fun _ => []) (quiet_wrSlice _ _ _)) fun _ _ => ?_
  refine must_first ?_
  exact must_frame (c := [.compress]) (must_updateLoop _ _ _ (hfc.trans List.length_replicate) rfl)

theorem must_final (d : Bytes) (x : Model.Sha256.Ctx) : Must g (final d x) [.compress, .ts_SHA256_update, .ts_SHA256_final_trunc, .ts_SHA256_final] :=
  must_frame (c := [.compress, .ts_SHA256_update, .ts_SHA256_final_trunc]) (must_final_trunc _ _ _)
end Sha256

namespace Sha512
theorem must_compress (x : Model.Sha512.Ctx) (b : Bytes) : Must g (compress x b) [.sha512_compress] := must_frame0

/-- The last block of the padded message. -/
theorem must_updateLoop (fuel : Nat) (x : Model.Sha512.Ctx) (p : Bytes) (hp : p.length = 16) (hn : x.num = 112) :
    Must g (updateLoop fuel x p) [.sha512_compress] := by
  cases fuel with
  | zero => intro b e; cases e
  | succ fuel =>
    unfold updateLoop
    refine must_branch (fun h => absurd h (by omega)) fun _ => ?_
    refine must_then (nest_lmin (G := fun _ => []) _ _) fun r hr => ?_
    have hr : r = 16 := by rw [hr, hn, hp]; rfl
    refine must_branch (fun h => absurd h (by omega)) fun _ => ?_
    refine must_then (nest_quiet (G := fun _ => []) (quiet_rdSlice _ _ _)) fun _ _ => ?_
    refine must_then (nest_quiet (G := fun _ => []) (quiet_wrSlice _ _ _)) fun _ _ => ?_
    refine must_branch (fun h => absurd h (by dsimp only; omega)) fun _ => ?_
    exact must_first (must_compress _ _)

theorem must_final_trunc (d : Bytes) (x : Model.Sha512.Ctx) (n : Nat) :
    Must g (final_trunc d x n) [.sha512_compress, .ts_SHA512_update, .ts_SHA512_final_trunc] := by
  unfold final_trunc
  refine must_frame (c := [.sha512_compress, .ts_SHA512_update]) ?_
  refine must_then (G := callees true .shake) (nest_ull (off := 0) (n := 16) (v := x.count) (p := List.replicate 16 0)) fun fc hfc => ?_
  refine must_then (nest_update (o := true) (F := .shake) _ _ (by edge)) fun _ _ => ?_
  refine must_then (G := callees true .shake) (Q := fun _ => True) (by nest [nest_update _ _ ?_]) fun _ _ => ?_
  refine must_then (nest_quiet (G := fun _ => []) (quiet_wrSlice _ _ _)) fun _ _ => ?_
  refine must_first ?_
  exact must_frame (c := [.sha512_compress]) (must_updateLoop _ _ _ (hfc.trans List.length_replicate) rfl)

theorem must_final (d : Bytes) (x : Model.Sha512.Ctx) : Must g (final d x) [.sha512_compress, .ts_SHA512_update, .ts_SHA512_final_trunc, .ts_SHA512_final] :=
  must_frame (c := [.sha512_compress, .ts_SHA512_update, .ts_SHA512_final_trunc]) (must_final_trunc _ _ _)
end Sha512

namespace Shake
theorem must_permute (k : Nat) (s : List UInt64) : Must g (permute k s) [.KeccakF1600_StatePermute] := must_frame0

theorem must_squeezeLoop (k fuel : Nat) (h : Bytes) (off l : Nat) (s : Model.Shake.Ctx) (hl : 0 < l) :
    Must g (squeezeLoop k fuel h off l s) [.KeccakF1600_StatePermute] := by
  cases fuel with
  | zero => intro b e; cases e
  | succ fuel =>
    unfold squeezeLoop
    exact must_branch (fun _ => must_first (must_permute _ _)) fun h => absurd hl h

theorem nest_rd25 (s : Model.Shake.Ctx) (hs : s[25]? = some 0) : Nest G g (rd s 25) fun r => r = 0 := by
  refine ⟨fun _ _ => rfl, fun r e => ?_⟩
  change Model.rd s 25 = .ok r at e
  unfold Model.rd at e
  rw [hs] at e
  cases e; rfl

theorem nest_clear25 (s : Model.Shake.Ctx) : Nest G g (wr s 25 0) fun r => r[25]? = some 0 := by
  refine ⟨fun _ _ => rfl, fun r e => ?_⟩
  change Model.wr s 25 0 = .ok r at e
  unfold Model.wr at e
  split at e
  · rename_i h; cases e; rw [List.getElem?_set_self h]
  · cases e

theorem nest_finalized (s : Model.Shake.Ctx) (h : CFn.ts_shake256_inc_finalize ∈ callees o F g) : Nest (callees o F) g (inc_finalize s) fun r => r[25]? = some 0 := by
  unfold inc_finalize
  refine nest_frame h ?_
  refine nest_bind (P := fun _ => True) (by nest []) fun _ _ => ?_
  refine nest_bind (P := fun _ => True) (by nest []) fun _ _ => ?_
  refine nest_bind (P := fun _ => True) (by nest []) fun _ _ => ?_
  exact nest_clear25 _

theorem must_inc_squeeze (k : Nat) (d : Bytes) (off l : Nat) (s : Model.Shake.Ctx) (hs : s[25]? = some 0) (hl : 0 < l) :
    Must g (inc_squeeze k d off l s) [.KeccakF1600_StatePermute, .keccak_inc_squeeze, .ts_shake256_inc_squeeze] := by
  unfold inc_squeeze
  refine must_frame (c := [.KeccakF1600_StatePermute, .keccak_inc_squeeze]) ?_
  refine must_frame (c := [.KeccakF1600_StatePermute]) ?_
  refine must_then (nest_rd25 (G := fun _ => []) s hs) fun r hr => ?_
  subst hr
  refine must_then (nest_lmin (G := fun _ => []) _ _) fun r hr => ?_
  have hr : r = 0 := hr.trans (Nat.min_zero l)
  subst hr
  refine must_then (G := callees true .shake) (Q := fun _ => True) (by nest []) fun _ _ => ?_
  refine must_then (nest_quiet (G := fun _ => []) (quiet_wr _ _ _)) fun _ _ => ?_
  exact must_squeezeLoop _ _ _ _ _ _ hl
end Shake

/-! ## The functions of the parameter sets -/

variable {sc : Ctx}

/-- Passes over a statement. -/
macro "past" : tactic => `(tactic| (refine must_then (G := callees (Env.cfg ‹Env›).sha2opt .shake) (Q := fun _ => True) (by nesth) fun _ _ => ?_))

theorem must_ts_sha2_prf (out : Bytes) : Must g (ts_sha2_prf E mem out sc) [.compress, .ts_SHA256_update, .ts_SHA256_final_trunc, .ts_sha2_prf] := by
  unfold ts_sha2_prf
  refine must_frame (c := [.compress, .ts_SHA256_update, .ts_SHA256_final_trunc]) ?_
  iterate 5 past
  exact must_first (Sha256.must_final_trunc _ _ _)

theorem must_ts_sha2_L1_prf_msg (out opt : Bytes) (m l : Nat) :
    Must g (ts_sha2_L1_prf_msg E mem out opt m l sc) [.compress, .ts_SHA256_update, .ts_SHA256_final_trunc, .ts_SHA256_final, .ts_sha2_L1_prf_msg] := by
  unfold ts_sha2_L1_prf_msg
  refine must_frame (c := [.compress, .ts_SHA256_update, .ts_SHA256_final_trunc, .ts_SHA256_final]) ?_
  iterate 7 past
  exact must_first (Sha256.must_final _ _)

theorem must_ts_sha2_L1_hash_msg (out : Bytes) (lo : Nat) (r : Bytes) (m l : Nat) :
    Must g (ts_sha2_L1_hash_msg E mem out lo r m l sc) [.compress, .ts_SHA256_update, .ts_SHA256_final_trunc, .ts_SHA256_final, .ts_sha2_L1_hash_msg] := by
  unfold ts_sha2_L1_hash_msg
  refine must_frame (c := [.compress, .ts_SHA256_update, .ts_SHA256_final_trunc, .ts_SHA256_final]) ?_
  iterate 9 past
  exact must_first (Sha256.must_final _ _)

theorem must_ts_sha2_L35_prf_msg (out opt : Bytes) (m l : Nat) :
    Must g (ts_sha2_L35_prf_msg E mem out opt m l sc) [.sha512_compress, .ts_SHA512_update, .ts_SHA512_final_trunc, .ts_SHA512_final, .ts_sha2_L35_prf_msg] := by
  unfold ts_sha2_L35_prf_msg
  refine must_frame (c := [.sha512_compress, .ts_SHA512_update, .ts_SHA512_final_trunc, .ts_SHA512_final]) ?_
  iterate 7 past
  exact must_first (Sha512.must_final _ _)

theorem must_ts_sha2_L35_hash_msg (out : Bytes) (lo : Nat) (r : Bytes) (m l : Nat) :
    Must g (ts_sha2_L35_hash_msg E mem out lo r m l sc) [.sha512_compress, .ts_SHA512_update, .ts_SHA512_final_trunc, .ts_SHA512_final, .ts_sha2_L35_hash_msg] := by
  unfold ts_sha2_L35_hash_msg
  refine must_frame (c := [.sha512_compress, .ts_SHA512_update, .ts_SHA512_final_trunc, .ts_SHA512_final]) ?_
  iterate 9 past
  exact must_first (Sha512.must_final _ _)

theorem must_ts_sha2_L35_final_t_simple (out : Bytes) (t : TIter) :
    Must g (ts_sha2_L35_final_t_simple E out t sc) [.sha512_compress, .ts_SHA512_update, .ts_SHA512_final_trunc, .ts_sha2_L35_final_t_simple] := by
  unfold ts_sha2_L35_final_t_simple
  refine must_frame (c := [.sha512_compress, .ts_SHA512_update, .ts_SHA512_final_trunc]) ?_
  exact must_first (Sha512.must_final_trunc _ _ _)

theorem must_ts_shake256_hash_msg (out : Bytes) (lo : Nat) (r : Bytes) (m l : Nat) (hl : 0 < lo) :
    Must g (ts_shake256_hash_msg E mem out lo r m l sc) [.KeccakF1600_StatePermute, .keccak_inc_squeeze, .ts_shake256_inc_squeeze, .ts_shake256_hash_msg] := by
  unfold ts_shake256_hash_msg
  refine must_frame (c := [.KeccakF1600_StatePermute, .keccak_inc_squeeze, .ts_shake256_inc_squeeze]) ?_
  iterate 9 past
  refine must_then (Shake.nest_finalized (o := true) (F := .shake) _ (by edge)) fun s hs => ?_
  exact must_first (Shake.must_inc_squeeze _ _ _ _ _ hs hl)

theorem must_ts_shake256_final_t_simple (out : Bytes) (t : TIter) (hn : 0 < sc.ps.n) :
    Must g (ts_shake256_final_t_simple E out t sc) [.KeccakF1600_StatePermute, .keccak_inc_squeeze, .ts_shake256_inc_squeeze, .ts_shake256_final_t_simple] := by
  unfold ts_shake256_final_t_simple
  refine must_frame (c := [.KeccakF1600_StatePermute, .keccak_inc_squeeze, .ts_shake256_inc_squeeze]) ?_
  refine must_then (Shake.nest_finalized (o := true) (F := .shake) _ (by edge)) fun s hs => ?_
  exact must_first (Shake.must_inc_squeeze _ _ _ _ _ hs hn)

theorem must_ts_shake256_f_simple (out inb : Bytes) (hn : 0 < sc.ps.n) :
    Must g (ts_shake256_f_simple E mem out inb sc)
      [.KeccakF1600_StatePermute, .keccak_inc_squeeze, .ts_shake256_inc_squeeze, .ts_shake256_final_t_simple, .ts_shake256_f_simple] := by
  unfold ts_shake256_f_simple
  refine must_frame (c := [.KeccakF1600_StatePermute, .keccak_inc_squeeze, .ts_shake256_inc_squeeze, .ts_shake256_final_t_simple]) ?_
  refine must_then (nest_ts_shake256_init_t_simple (o := true) (F := .shake) _ (by edge)) fun _ _ => ?_
  refine must_then (nest_ts_shake256_next_t_simple (o := true) (F := .shake) _ _ (by edge)) fun _ _ => ?_
  exact must_first (must_ts_shake256_final_t_simple _ _ hn)

end Leak
