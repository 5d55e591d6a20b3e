import Verif.Proof.StackHit
/-!
# Calls that are certain in key generation, signing and verification
-/
namespace Leak
open Model Spec.Stack Model.Stack

variable {E : Env} {mem : Mem} {F : Fam} {g : CFn} {p : ParamSet} {c : Ctx}

local notation "GG" => callees E.cfg.sha2opt F

/-- The functions running at the deepest point of the computation of a leaf of a hypertree layer. -/
def deepLeaf : Fam → List CFn
  | .shake => [.KeccakF1600_StatePermute, .keccak_inc_squeeze, .ts_shake256_inc_squeeze, .ts_shake256_final_t_simple, .ts_shake256_f_simple, .ts_wots_leaf]
  | .sha2L1 => [.compress, .ts_SHA256_update, .ts_SHA256_final_trunc, .ts_sha2_prf, .wots_prf, .ts_wots_leaf]
  | .sha2L35 => [.sha512_compress, .ts_SHA512_update, .ts_SHA512_final_trunc, .ts_sha2_L35_final_t_simple, .ts_wots_leaf]

/-- The functions running at the deepest point of the hashing of the message. -/
def deepMsg : Fam → List CFn
  | .shake => [.KeccakF1600_StatePermute, .keccak_inc_squeeze, .ts_shake256_inc_squeeze, .ts_shake256_hash_msg]
  | .sha2L1 => [.compress, .ts_SHA256_update, .ts_SHA256_final_trunc, .ts_SHA256_final, .ts_sha2_L1_hash_msg]
  | .sha2L35 => [.sha512_compress, .ts_SHA512_update, .ts_SHA512_final_trunc, .ts_SHA512_final, .ts_sha2_L35_hash_msg]

theorem must_call_hash_msg (hK : Kin p F) (hp : c.ps = p) (out : Bytes) (lo : Nat) (r : Bytes) (m l : Nat) (hl : 0 < lo) :
    Must g (call_hash_msg E mem out lo r m l c) (deepMsg F) := by
  unfold call_hash_msg
  subst hp
  rw [hK.hash_msg]
  refine must_calling ?_
  cases F
  · exact must_ts_shake256_hash_msg _ _ _ _ _ hl
  · exact must_ts_sha2_L1_hash_msg _ _ _ _ _
  · exact must_ts_sha2_L35_hash_msg _ _ _ _ _

theorem must_call_prf_msg (hK : Kin p .sha2L35) (hp : c.ps = p) (out opt : Bytes) (m l : Nat) :
    Must g (call_prf_msg E mem out opt m l c) [.sha512_compress, .ts_SHA512_update, .ts_SHA512_final_trunc, .ts_SHA512_final, .ts_sha2_L35_prf_msg] := by
  unfold call_prf_msg
  subst hp
  rw [hK.prf_msg]
  exact must_calling (must_ts_sha2_L35_prf_msg _ _ _ _)

theorem must_wots_prf (hK : Kin p .sha2L1) (hp : c.ps = p) (out : Bytes) (i j : Nat) :
    Must g (wots_prf E mem out i j c) [.compress, .ts_SHA256_update, .ts_SHA256_final_trunc, .ts_sha2_prf, .wots_prf] := by
  unfold wots_prf
  refine must_frame (c := [.compress, .ts_SHA256_update, .ts_SHA256_final_trunc, .ts_sha2_prf]) ?_
  refine must_then (nest_set_wots_prf_adr (F := .sha2L1) hp _ _ (by edge)) fun c hp => ?_
  unfold call_prf
  subst hp
  have hk := hK.prf
  refine must_calling ?_
  revert hk
  cases c.ps.prf with
  | shake => intro hk; cases hk
  | sha2L1 => intro _; exact must_ts_sha2_prf _
  | sha2L35 => intro _; exact must_ts_sha2_prf _

theorem must_call_f (hK : Kin p .shake) (hp : c.ps = p) (hn : 0 < p.n) (out inb : Bytes) :
    Must g (call_f E mem out inb c) [.KeccakF1600_StatePermute, .keccak_inc_squeeze, .ts_shake256_inc_squeeze, .ts_shake256_final_t_simple, .ts_shake256_f_simple] := by
  unfold call_f
  subst hp
  have hk := hK.f
  refine must_calling ?_
  revert hk
  cases c.ps.f with
  | shake => intro _; exact must_ts_shake256_f_simple _ _ hn
  | sha2L1 => intro hk; cases hk
  | sha2L35 => intro hk; cases hk

theorem must_call_final_t (hK : Kin p .sha2L35) (hp : c.ps = p) (out : Bytes) (t : TIter) :
    Must g (call_final_t E out t c) [.sha512_compress, .ts_SHA512_update, .ts_SHA512_final_trunc, .ts_sha2_L35_final_t_simple] := by
  unfold call_final_t
  subst hp
  rw [hK.final_t]
  exact must_calling (must_ts_sha2_L35_final_t_simple _ _)

theorem must_ts_wots_leaf (hK : Kin p F) (hp : c.ps = p) (hn : 0 < p.n) (out : Bytes) (i : Nat) : Must g (ts_wots_leaf E mem out i c) (deepLeaf F) := by
  unfold ts_wots_leaf
  cases F with
  | sha2L1 =>
    refine must_frame (c := [.compress, .ts_SHA256_update, .ts_SHA256_final_trunc, .ts_sha2_prf, .wots_prf]) ?_
    with_reducible refine must_then (nest_ts_set_wots_header_adr (F := .sha2L1) hp _ (by edge)) fun c hp => ?_
    with_reducible refine must_then (nest_call_init_t hK hp (by edge) _) fun t _ => ?_
    with_reducible refine must_first ?_
    with_reducible refine must_loop (by omega) ?_
    with_reducible refine must_then (nest_quiet (G := fun _ => []) (quiet_rdSlice _ _ _)) fun _ _ => ?_
    with_reducible refine must_first ?_; exact must_wots_prf hK (by exact hp) _ _ _
  | shake =>
    refine must_frame (c := [.KeccakF1600_StatePermute, .keccak_inc_squeeze, .ts_shake256_inc_squeeze, .ts_shake256_final_t_simple, .ts_shake256_f_simple]) ?_
    with_reducible refine must_then (nest_ts_set_wots_header_adr (F := .shake) hp _ (by edge)) fun c hp => ?_
    with_reducible refine must_then (nest_call_init_t hK hp (by edge) _) fun t _ => ?_
    with_reducible refine must_first ?_
    with_reducible refine must_loop (by omega) ?_
    with_reducible refine must_then (nest_quiet (G := fun _ => []) (quiet_rdSlice _ _ _)) fun _ _ => ?_
    with_reducible refine must_then (nest_wots_prf hK (by exact hp) (by edge) _ _ _) fun r hp => ?_
    with_reducible refine must_first ?_
    with_reducible refine must_loop (by omega) ?_
    with_reducible refine must_then (nest_ts_set_wots_f_adr (F := .shake) hp _ _ _ (by edge)) fun c hp => ?_
    exact must_call_f hK (by exact hp) hn _ _
  | sha2L35 =>
    refine must_frame (c := [.sha512_compress, .ts_SHA512_update, .ts_SHA512_final_trunc, .ts_sha2_L35_final_t_simple]) ?_
    with_reducible refine must_then (nest_ts_set_wots_header_adr (F := .sha2L35) hp _ (by edge)) fun c hp => ?_
    with_reducible refine must_then (nest_call_init_t hK hp (by edge) _) fun t _ => ?_
    with_reducible refine must_then (G := callees E.cfg.sha2opt .sha2L35) (nest_loop (I := fun s : Ctx => s.ps = p) (fun _ _ _ => ?_) hp) fun c hp => ?_
    · nestp p [nest_wots_prf hK ?_ ?_ _ _ _, nest_ts_set_wots_f_adr (p := p) ?_ _ _ _ ?_, nest_call_f hK ?_ ?_ _ _, nest_call_next_t hK ?_ ?_ _ _]
    with_reducible refine must_first ?_; exact must_call_final_t hK (by exact hp) _ _

theorem nest_shlOne {G : CFn → List CFn} (h : Nat) : Nest G g (shlInt 1 h) fun r => 0 < r := by
  refine ⟨fun _ _ => rfl, fun r e => ?_⟩
  change Model.shlInt 1 h = .ok r at e
  unfold Model.shlInt at e
  split at e
  · cases e; rw [Nat.one_mul]; exact Nat.two_pow_pos _
  · cases e

theorem must_ts_merkle_path (hK : Kin p F) (hp : c.ps = p) (hn : 0 < p.n) (ty : Nat) (st : Region) :
    Must g (ts_merkle_path E mem (ts_wots_leaf E mem) c ty st) (deepLeaf F ++ [.ts_merkle_path]) := by
  unfold ts_merkle_path
  refine must_frame (c := deepLeaf F) ?_
  with_reducible refine must_then (nest_shlOne (G := fun _ => []) _) fun r hr => ?_
  with_reducible refine must_first ?_
  with_reducible refine must_loop hr ?_
  with_reducible refine must_then (nest_quiet (G := fun _ => []) (by simp only [qt])) fun _ _ => ?_
  with_reducible refine must_first ?_; exact must_ts_wots_leaf hK (by exact hp) hn _ _

theorem must_gen_root (hK : Kin p F) (hn : 0 < p.n) (hh : 0 < p.merkle_h) (pub : Nat) :
    Must .ts_gen_key (gen_root E mem p pub) (deepLeaf F ++ [.ts_merkle_path]) := by
  unfold gen_root
  with_reducible refine must_then (nest_call_prehash hK rfl (fun _ h => List.mem_append_left _ h)) fun c hp => ?_
  with_reducible refine must_then (nest_ts_wots_leaf hK (by exact hp) (by edge) _ _) fun r hp => ?_
  with_reducible refine must_first ?_
  with_reducible refine must_loop hh ?_
  exact must_ts_merkle_path hK (by exact hp) hn _ _

/-- At some moment of `x` the functions `c` are running. -/
def Seen (x : L α) (c : List CFn) : Prop := ∃ q, q <+: x.log ∧ active q = c

theorem seen_frame {h : CFn} {x : L α} {c : List CFn} (hx : Hit h x c) : Seen (frame h x) (c ++ [h]) := by
  obtain ⟨q, hq, hs⟩ := hx
  refine ⟨.enter h :: q, (List.prefix_cons_inj _).2 (hq.trans (List.prefix_append _ _)), ?_⟩
  exact hs []

theorem seen_first {x : L α} {f : α → L β} {c : List CFn} (h : Seen x c) : Seen (x >>= f) c := by
  obtain ⟨q, hq, hs⟩ := h
  exact ⟨q, by rw [nest_log_bind]; exact hq.trans (List.prefix_append _ _), hs⟩

theorem seen_then {R : List CFn} {G : CFn → List CFn} {x : L α} {f : α → L β} {Q : α → Prop} {c : List CFn} (hx : Outer R G x Q) {a : α} (ha : x.res = .ok a) (h : Seen (f a) c) :
    Seen (x >>= f) c := by
  obtain ⟨q, hq, hs⟩ := h
  refine ⟨x.log ++ q, ?_, ?_⟩
  · rw [nest_log_bind, ha]
    exact (List.prefix_append_right_inj _).2 hq
  · unfold active; rw [List.foldl_append, walk_active _ _ _ _ _ hx.1]; exact hs

/-- At some moment the functions `c` are running above `g`, if `x` ends with a result that satisfies `P`. -/
def MustIf (g : CFn) (x : L α) (c : List CFn) (P : α → Prop) : Prop := ∀ b, x.res = .ok b → P b → Hit g x c

theorem Must.cond {x : L α} {c : List CFn} {P : α → Prop} (h : Must g x c) : MustIf g x c P := fun b e _ => h b e

theorem mustIf_ok {a : α} {c : List CFn} {P : α → Prop} (h : ¬ P a) : MustIf g (L.ok a) c P := fun b e hb => by cases e; exact absurd hb h

theorem mustIf_then {G : CFn → List CFn} {c : List CFn} {x : L α} {f : α → L β} {Q : α → Prop} {P : β → Prop} (hx : Nest G g x Q) (h : ∀ a, x.res = .ok a → Q a → MustIf g (f a) c P) :
    MustIf g (x >>= f) c P := by
  intro b e hb
  obtain ⟨a, ha, hfa⟩ := nest_res_bind e
  exact hit_then hx ha (h a ha (hx.2 a ha) b hfa hb)

theorem mustIf_branch {c : List CFn} {q : Prop} [Decidable q] {a b : L α} {P : α → Prop} (ha : q → MustIf g a c P) (hb : ¬ q → MustIf g b c P) : MustIf g (branch q a b) c P := by
  intro r e hr
  by_cases h : q
  · refine hit_cons (x := a) (e := .br (decide q)) (fun _ => rfl) ?_ (ha h r ?_ hr)
    · exact (congrArg _ (congrArg L.log (if_pos h)) : _)
    · have := congrArg L.res (if_pos h : (if q then a else b) = a); rw [← this]; exact e
  · refine hit_cons (x := b) (e := .br (decide q)) (fun _ => rfl) ?_ (hb h r ?_ hr)
    · exact (congrArg _ (congrArg L.log (if_neg h)) : _)
    · have := congrArg L.res (if_neg h : (if q then a else b) = b); rw [← this]; exact e

theorem mustIf_select {c : List CFn} {n : Nat} {a : L α} {P : α → Prop} (h : MustIf g a c P) : MustIf g (select n a) c P :=
  fun b e hb => hit_cons (e := .sel n) (fun _ => rfl) rfl (h b e hb)

theorem seen_must {h : CFn} {x : L α} {c : List CFn} {b : α} (hr : (frame h x).res = .ok b) (hx : Must h x c) : Seen (frame h x) (c ++ [h]) := seen_frame (hx b hr)

theorem seen_mustIf {h : CFn} {x : L α} {c : List CFn} {P : α → Prop} {b : α} (hr : (frame h x).res = .ok b) (hb : P b) (hx : MustIf h x c P) : Seen (frame h x) (c ++ [h]) :=
  seen_frame (hx b hr hb)

/-- A successful key generation. -/
theorem seen_ts_gen_key (hK : Kin p F) (hn : 0 < p.n) (hh : 0 < p.merkle_h) (sk pk : Option Nat) (r : Option Rng) {b : Nat × Mem × List Nat}
    (hr : (ts_gen_key E mem sk pk (some p) r).res = .ok b) (hb : b.1 = 1) :
    Seen (ts_gen_key E mem sk pk (some p) r) (deepLeaf F ++ [.ts_merkle_path, .ts_gen_key]) := by
  rw [show deepLeaf F ++ [.ts_merkle_path, .ts_gen_key] = (deepLeaf F ++ [.ts_merkle_path]) ++ [.ts_gen_key] by rw [List.append_assoc]; rfl]
  cases r with
  | none => cases sk <;> (cases hr; cases hb)
  | some f =>
    cases sk with
    | none => cases hr; cases hb
    | some k =>
      refine seen_mustIf (P := fun b : Nat × Mem × List Nat => b.1 = 1) hr hb ?_
      with_reducible refine mustIf_then (G := fun _ => []) (nest_tick _ fun _ _ _ => rfl) fun _ _ _ => ?_
      with_reducible refine mustIf_then (nest_quiet (G := fun _ => []) (by simp only [qt])) fun _ _ _ => ?_
      with_reducible refine mustIf_branch (fun _ => mustIf_ok (by simp)) fun _ => ?_
      exact (must_first (must_gen_root hK hn hh _)).cond

/-- `ts_init_sign` hashes the message. -/
theorem seen_ts_init_sign (hK : Kin p F) (m l priv : Nat) (r : Option Rng) {b : Ctx × List Nat} (hr : (ts_init_sign E mem c m l p priv r).res = .ok b) :
    Seen (ts_init_sign E mem c m l p priv r) (deepMsg F ++ [.ts_init_sign]) := by
  refine seen_must hr ?_
  with_reducible refine must_then (nest_call_prehash hK rfl (fun _ h => List.mem_append_left _ h)) fun c hp => ?_
  with_reducible refine must_then (nest_quiet (G := fun _ => []) (by simp only [qt])) fun _ _ => ?_
  with_reducible refine must_then (nest_call_prf_msg hK (by exact hp) (by edge) _ _ _ _) fun r hp => ?_
  with_reducible refine must_first ?_
  exact must_call_hash_msg hK (by exact hp) _ _ _ _ _ (by decide)

/-- `ts_init_sign` computes the randomizer. -/
theorem seen_ts_init_sign' (hK : Kin p .sha2L35) (m l priv : Nat) (r : Option Rng) {b : Ctx × List Nat} (hr : (ts_init_sign E mem c m l p priv r).res = .ok b) :
    Seen (ts_init_sign E mem c m l p priv r)
      [.sha512_compress, .ts_SHA512_update, .ts_SHA512_final_trunc, .ts_SHA512_final, .ts_sha2_L35_prf_msg, .ts_init_sign] := by
  refine seen_must (c := [.sha512_compress, .ts_SHA512_update, .ts_SHA512_final_trunc, .ts_SHA512_final, .ts_sha2_L35_prf_msg]) hr ?_
  with_reducible refine must_then (nest_call_prehash hK rfl (fun _ h => List.mem_append_left _ h)) fun c hp => ?_
  with_reducible refine must_then (nest_quiet (G := fun _ => []) (by simp only [qt])) fun _ _ => ?_
  with_reducible refine must_first ?_
  exact must_call_prf_msg hK (by exact hp) _ _ _ _

/-- The first step of a verification hashes the message. -/
theorem must_verInit (hK : Kin p F) (hp : c.ps = p) : Must .ts_update_verify (verInit E mem c) (deepMsg F) := by
  unfold verInit
  with_reducible refine must_then (nest_quiet (G := fun _ => []) (by simp only [qt])) fun _ _ => ?_
  with_reducible refine must_then (nest_quiet (G := fun _ => []) (by simp only [qt])) fun _ _ => ?_
  with_reducible refine must_then (nest_quiet (G := fun _ => []) (by simp only [qt])) fun _ _ => ?_
  with_reducible refine must_first ?_
  exact must_call_hash_msg hK (by exact hp) _ _ _ _ _ (by decide)
end Leak
