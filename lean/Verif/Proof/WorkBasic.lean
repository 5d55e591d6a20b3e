import Verif.Proof.Cost
import Verif.Proof.WorkAttr
/-!
# Steps that neither call a hash function of the parameter set nor a compression function
-/
namespace Leak.Work
open Model

/-- Neither a call through a pointer of the parameter set nor one of a compression function. -/
def Plain : Ev → Bool
  | .call .. => false
  | .perm .. => false
  | _ => true

/-- All events are plain. -/
def Idle (x : L α) : Prop := ∀ e, e ∈ x.log → Plain e = true

theorem idle_bind {x : L α} {g : α → L β} (hx : Idle x) (hg : ∀ a, Idle (g a)) : Idle (x >>= g) := by
  intro e he
  rw [log_bind, List.mem_append] at he
  rcases he with he | he
  · exact hx e he
  · revert he
    cases x.res with
    | ok a => exact hg a e
    | error e => intro he; cases he

theorem idle_branch {c : Prop} [Decidable c] {a b : L α} (ha : Idle a) (hb : Idle b) : Idle (branch c a b) := by
  intro e he
  unfold branch at he
  rcases List.mem_cons.1 he with rfl | he
  · rfl
  · by_cases h : c
    · simp only [if_pos h] at he; exact ha e he
    · simp only [if_neg h] at he; exact hb e he

theorem idle_ite {c : Prop} [Decidable c] {a b : L α} (ha : Idle a) (hb : Idle b) : Idle (if c then a else b) := by
  by_cases h : c
  · simp only [if_pos h]; exact ha
  · simp only [if_neg h]; exact hb

theorem idle_nil {r : C α} : Idle (⟨r, []⟩ : L α) := fun _ h => by cases h

theorem idle_one {r : C α} {e : Ev} (h : Plain e = true) : Idle (⟨r, [e]⟩ : L α) := fun e' he => by
  rcases List.mem_cons.1 he with rfl | he
  · exact h
  · cases he

theorem idle_loop {body : Nat → σ → L σ} (hb : ∀ i s, Idle (body i s)) (c i : Nat) (s : σ) : Idle (loop body c i s) := by
  induction c generalizing i s with
  | zero => exact idle_one rfl
  | succ c ih =>
    unfold loop
    exact idle_bind (idle_one rfl) fun _ => idle_bind (hb _ _) fun _ => ih _ _

theorem idle_frame {g : CFn} {a : L α} (h : Idle a) : Idle (frame g a) := fun e he => by
  rcases List.mem_cons.1 he with rfl | he
  · rfl
  · rcases List.mem_append.1 he with he | he
    · exact h e he
    · rcases List.mem_cons.1 he with rfl | he
      · rfl
      · cases he

theorem idle_select {n : Nat} {a : L α} (h : Idle a) : Idle (select n a) := fun e he => by
  rcases List.mem_cons.1 he with rfl | he
  · rfl
  · exact h e he

@[idl] theorem idle_ok (a : α) : Idle (L.ok a) := idle_nil
@[idl] theorem idle_pure (a : α) : Idle (pure a : L α) := idle_nil
@[idl] theorem idle_error (e : Fault) : Idle (L.error e : L α) := idle_nil
@[idl] theorem idle_rd (a : List α) (i : Nat) : Idle (rd a i) := idle_one rfl
@[idl] theorem idle_wr (a : List α) (i : Nat) (v : α) : Idle (wr a i v) := idle_one rfl
@[idl] theorem idle_rdSlice (a : List α) (i n : Nat) : Idle (rdSlice a i n) := idle_one rfl
@[idl] theorem idle_wrSlice (a : List α) (i : Nat) (v : List α) : Idle (wrSlice a i v) := idle_one rfl
@[idl] theorem idle_shlInt (a s : Nat) : Idle (shlInt a s) := idle_one rfl
@[idl] theorem idle_shrU32 (a s : Nat) : Idle (shrU32 a s) := idle_one rfl
@[idl] theorem idle_addInt (a s : Nat) : Idle (addInt a s) := idle_nil
@[idl] theorem idle_asInt (a : Nat) : Idle (asInt a) := idle_nil
@[idl] theorem idle_ptrSub (a s : Nat) : Idle (ptrSub a s) := idle_nil
@[idl] theorem idle_memRead (m : Mem) (a n : Nat) : Idle (memRead m a n) := idle_one rfl
@[idl] theorem idle_memWrite (m : Mem) (a : Nat) (v : Bytes) : Idle (memWrite m a v) := idle_one rfl
@[idl] theorem idle_br (b : Bool) : Idle (tick (.br b)) := idle_one rfl
@[idl] theorem idle_rng (n : Nat) (b : Bool) : Idle (tick (.rng n b)) := idle_one rfl
@[idl] theorem idle_shift (s : Nat) : Idle (tick (.shift s)) := idle_one rfl
@[idl] theorem idle_regGet (r : Region) (ctx : Ctx) (i len : Nat) : Idle (regGet r ctx i len) := idle_one rfl
@[idl] theorem idle_regPut (r : Region) (ctx : Ctx) (i : Nat) (v : Bytes) : Idle (regPut r ctx i v) := idle_one rfl
@[idl] theorem idle_getForsNode (E : Env) (x : Bytes) (k : Nat) : Idle (getForsNode E x k) := idle_one rfl
@[idl] theorem idle_setForsNode (E : Env) (x : Bytes) (k v : Nat) : Idle (setForsNode E x k v) := idle_one rfl
@[idl] theorem idle_getWotsDigit (E : Env) (c : Ctx) (i : Nat) : Idle (getWotsDigit E c i) := idle_one rfl
@[idl] theorem idle_primShift (s : Nat) (r : C α) : Idle (prim [.shift s] r) := idle_one rfl

/-- Proves `Idle` of a composition. -/
macro "idle" : tactic => `(tactic| repeat' (first
  | solve | simp only [idl]
  | with_reducible refine idle_bind ?_ fun _ => ?_
  | with_reducible refine idle_branch ?_ ?_
  | with_reducible refine idle_ite ?_ ?_
  | with_reducible refine idle_loop (fun _ _ => ?_) _ _ _
  | with_reducible refine idle_select ?_
  | with_reducible refine idle_frame ?_
  | split))

@[idl] theorem idle_lmin (a b : Nat) : Idle (lmin a b) := by unfold lmin; idle
@[idl] theorem idle_bytes_to_ull (p : Bytes) (off n : Nat) : Idle (ts_bytes_to_ull p off n) := by unfold ts_bytes_to_ull; idle
@[idl] theorem idle_ull_to_bytes (p : Bytes) (off v n : Nat) : Idle (ts_ull_to_bytes p off v n) := by
  induction n generalizing p v with
  | zero => unfold ts_ull_to_bytes; idle
  | succ n ih => unfold ts_ull_to_bytes; idle; exact ih _ _
@[idl] theorem idle_secSeed (mem : Mem) (pk n : Nat) : Idle (secSeed mem pk n) := by unfold secSeed; idle
@[idl] theorem idle_secPrf (mem : Mem) (pk n : Nat) : Idle (secPrf mem pk n) := by unfold secPrf; idle
@[idl] theorem idle_pubSeed (mem : Mem) (pk n : Nat) : Idle (pubSeed mem pk n) := by unfold pubSeed; idle
@[idl] theorem idle_pubRoot (mem : Mem) (pk n : Nat) : Idle (pubRoot mem pk n) := by unfold pubRoot; idle
@[idl] theorem idle_hmacBlock (block key : Bytes) (pad : UInt8) (n : Nat) :
    Idle (hmacBlock block key pad n) := by unfold hmacBlock; idle
@[idl] theorem idle_extract_int_from_hash (hash : Bytes) (hash_offset num_bits : Nat) :
    Idle (extract_int_from_hash hash hash_offset num_bits) := by unfold extract_int_from_hash; idle
@[idl] theorem idle_set_layer_adr (E : Env) (layer : Nat) (ctx : Ctx) :
    Idle (set_layer_adr E layer ctx) := by unfold set_layer_adr; idle
@[idl] theorem idle_set_tree_adr (E : Env) (tree : Nat) (ctx : Ctx) :
    Idle (set_tree_adr E tree ctx) := by unfold set_tree_adr; idle
@[idl] theorem idle_set_type_adr (E : Env) (type : Nat) (ctx : Ctx) :
    Idle (set_type_adr E type ctx) := by unfold set_type_adr; idle
@[idl] theorem idle_set_keypair_adr (E : Env) (keypair : Nat) (ctx : Ctx) :
    Idle (set_keypair_adr E keypair ctx) := by unfold set_keypair_adr; idle
@[idl] theorem idle_set_tree_height_adr (E : Env) (h : Nat) (ctx : Ctx) :
    Idle (set_tree_height_adr E h ctx) := by unfold set_tree_height_adr; idle
@[idl] theorem idle_set_tree_index_adr (E : Env) (i : Nat) (ctx : Ctx) :
    Idle (set_tree_index_adr E i ctx) := by unfold set_tree_index_adr; idle
@[idl] theorem idle_set_fors_prf_adr (E : Env) (ctx : Ctx) (leaf_index : Nat) :
    Idle (set_fors_prf_adr E ctx leaf_index) := by unfold set_fors_prf_adr; idle
@[idl] theorem idle_ts_set_fors_leaf_adr (E : Env) (ctx : Ctx) (leaf_index : Nat) :
    Idle (ts_set_fors_leaf_adr E ctx leaf_index) := by unfold ts_set_fors_leaf_adr; idle
@[idl] theorem idle_set_wots_prf_adr (E : Env) (ctx : Ctx) (tree_index leaf_index : Nat) :
    Idle (set_wots_prf_adr E ctx tree_index leaf_index) := by unfold set_wots_prf_adr; idle
@[idl] theorem idle_ts_set_wots_f_adr (E : Env) (ctx : Ctx) (tree_index leaf_index hash_address : Nat) :
    Idle (ts_set_wots_f_adr E ctx tree_index leaf_index hash_address) := by unfold ts_set_wots_f_adr; idle
@[idl] theorem idle_ts_set_merkle_adr (E : Env) (ctx : Ctx) (node level typecode : Nat) :
    Idle (ts_set_merkle_adr E ctx node level typecode) := by unfold ts_set_merkle_adr; idle
@[idl] theorem idle_ts_set_fors_root_adr (E : Env) (ctx : Ctx) :
    Idle (ts_set_fors_root_adr E ctx) := by unfold ts_set_fors_root_adr; idle
@[idl] theorem idle_ts_set_wots_header_adr (E : Env) (merkle_leaf : Nat) (ctx : Ctx) :
    Idle (ts_set_wots_header_adr E merkle_leaf ctx) := by unfold ts_set_wots_header_adr; idle
@[idl] theorem idle_nextBit (s : Cursor × Nat) :
    Idle (nextBit s) := by unfold nextBit; idle
@[idl] theorem idle_ts_convert_message_hash (ctx : Ctx) (message_hash : Bytes) :
    Idle (ts_convert_message_hash E ctx message_hash) := by unfold ts_convert_message_hash; idle
@[idl] theorem idle_askRng (opt_buffer : Bytes) (n : Nat) (random_function : Option Rng) :
    Idle (askRng opt_buffer n random_function) := by unfold askRng; idle
@[idl] theorem idle_fillOptBuffer (E : Env) (mem : Mem) (public_key n : Nat) (random_function : Option Rng) :
    Idle (fillOptBuffer E mem public_key n random_function) := by unfold fillOptBuffer; idle
@[idl] theorem idle_compute_wots_digits (digits hash : Bytes) (n : Nat) :
    Idle (compute_wots_digits digits hash n) := by unfold compute_wots_digits; idle
@[idl] theorem idle_ts_set_up_wots_signature (E : Env) (ctx : Ctx) (next_leaf : Nat) :
    Idle (ts_set_up_wots_signature E ctx next_leaf) := by unfold ts_set_up_wots_signature; idle
@[idl] theorem Sha256.idle_sched (i : Nat) (W : List UInt32) : Idle (Leak.Sha256.sched i W) := by unfold Leak.Sha256.sched; idle
@[idl] theorem Sha256.idle_rnd (i : Nat) (s : List UInt32 × Spec.V8 UInt32) : Idle (Leak.Sha256.rnd i s) := by unfold Leak.Sha256.rnd; idle
@[idl] theorem Sha512.idle_sched (i : Nat) (W : List UInt64) : Idle (Leak.Sha512.sched i W) := by unfold Leak.Sha512.sched; idle
@[idl] theorem Sha512.idle_rnd (i : Nat) (s : List UInt64 × Spec.V8 UInt64) : Idle (Leak.Sha512.rnd i s) := by unfold Leak.Sha512.rnd; idle
@[idl] theorem Shake.idle_load (s : List UInt64) : Idle (Leak.Shake.load s) := by unfold Leak.Shake.load; idle
@[idl] theorem Shake.idle_store (s : List UInt64) (A : Model.Shake.Lanes) : Idle (Leak.Shake.store s A) := by unfold Leak.Shake.store; idle
@[idl] theorem Shake.idle_permute0 (s : List UInt64) : Idle (Leak.Shake.permute0 s) := by unfold Leak.Shake.permute0; idle
@[idl] theorem Shake.idle_permute1 (s : List UInt64) : Idle (Leak.Shake.permute1 s) := by unfold Leak.Shake.permute1; idle
@[idl] theorem Shake.idle_theta2 (s b : List UInt64) : Idle (Leak.Shake.theta2 s b) := by unfold Leak.Shake.theta2; idle
@[idl] theorem Shake.idle_rhopiStep (i : Nat) (s : List UInt64 × List UInt64 × UInt64) : Idle (Leak.Shake.rhopiStep i s) := by unfold Leak.Shake.rhopiStep; idle
@[idl] theorem Shake.idle_rhopi2 (s b : List UInt64) : Idle (Leak.Shake.rhopi2 s b) := by unfold Leak.Shake.rhopi2; idle
@[idl] theorem Shake.idle_chiRow (i : Nat) (s : List UInt64 × List UInt64) : Idle (Leak.Shake.chiRow i s) := by unfold Leak.Shake.chiRow; idle
@[idl] theorem Shake.idle_chi2 (s b : List UInt64) : Idle (Leak.Shake.chi2 s b) := by unfold Leak.Shake.chi2; idle
@[idl] theorem Shake.idle_round2 (i : Nat) (s : List UInt64 × List UInt64) : Idle (Leak.Shake.round2 i s) := by unfold Leak.Shake.round2; idle
@[idl] theorem Shake.idle_permute2 (b s : List UInt64) : Idle (Leak.Shake.permute2 b s) := by unfold Leak.Shake.permute2; idle
@[idl] theorem Shake.idle_inc_init (s : Model.Shake.Ctx) : Idle (Leak.Shake.inc_init s) := by unfold Leak.Shake.inc_init; idle
@[idl] theorem Shake.idle_xorByte (s : Model.Shake.Ctx) (p : Nat) (b : UInt8) : Idle (Leak.Shake.xorByte s p b) := by unfold Leak.Shake.xorByte; idle
@[idl] theorem Shake.idle_inc_finalize (s : Model.Shake.Ctx) : Idle (Leak.Shake.inc_finalize s) := by unfold Leak.Shake.inc_finalize; idle
@[idl] theorem Shake.idle_getByte (s : Model.Shake.Ctx) (p : Nat) : Idle (Leak.Shake.getByte s p) := by unfold Leak.Shake.getByte; idle

/-! ## Meters -/

/-- What an event costs; plain events cost nothing. -/
structure Meter where
  w : Ev → Nat
  plain : ∀ e, Plain e = true → w e = 0

/-- The cost of the events in a log. -/
def Meter.total (M : Meter) (log : List Ev) : Nat := (log.map M.w).sum

variable {M : Meter}

theorem total_append (M : Meter) (a b : List Ev) : M.total (a ++ b) = M.total a + M.total b := by
  unfold Meter.total; rw [List.map_append, List.sum_append]

theorem total_cons (M : Meter) (e : Ev) (b : List Ev) : M.total (e :: b) = M.w e + M.total b := rfl

theorem total_idle {x : L α} (h : Idle x) : M.total x.log = 0 := by
  unfold Idle at h
  generalize x.log = l at h
  induction l with
  | nil => rfl
  | cons e l ih => rw [total_cons, M.plain e (h e (List.mem_cons_self ..)), ih fun e he => h e (List.mem_cons_of_mem _ he)]

/-- If the computation succeeds, `P` holds of the result and the cost. -/
def Cost (M : Meter) (x : L α) (P : α → Nat → Prop) : Prop := ∀ a, x.res = .ok a → P a (M.total x.log)

theorem cost_mono {x : L α} {P Q : α → Nat → Prop} (h : Cost M x P) (hpq : ∀ a k, x.res = .ok a → P a k → Q a k) : Cost M x Q :=
  fun a e => hpq _ _ e (h a e)

theorem cost_ok {a : α} {P : α → Nat → Prop} (h : P a 0) : Cost M (L.ok a) P := by
  intro b e
  cases e
  exact h

theorem cost_bind {x : L α} {g : α → L β} {P : α → Nat → Prop} {Q : β → Nat → Prop} (hx : Cost M x P)
    (hg : ∀ a k, x.res = .ok a → P a k → Cost M (g a) fun b k' => Q b (k + k')) : Cost M (x >>= g) Q := by
  intro b e
  rw [res_bind] at e
  rw [log_bind, total_append]
  cases h : x.res with
  | error e' => rw [h] at e; cases e
  | ok a =>
    rw [h] at e
    exact hg a _ h (hx a h) b e

theorem cost_free {x : L α} (hx : Idle x) : Cost M x fun _ k => k = 0 := fun _ _ => total_idle hx

/-- A step that costs nothing. -/
theorem cost_bind0 {x : L α} {g : α → L β} {Q : β → Nat → Prop} (hx : Idle x) (hg : ∀ a, x.res = .ok a → Cost M (g a) Q) : Cost M (x >>= g) Q := by
  refine cost_bind (cost_free hx) fun a k e hk => ?_
  subst hk
  simp only [Nat.zero_add]
  exact hg a e

theorem cost_branch {c : Prop} [Decidable c] {a b : L α} {Q : α → Nat → Prop} (ha : c → Cost M a Q) (hb : ¬ c → Cost M b Q) : Cost M (branch c a b) Q := by
  intro v e
  unfold branch at e ⊢
  rw [total_cons, M.plain _ rfl, Nat.zero_add]
  by_cases h : c
  · simp only [if_pos h] at e ⊢; exact ha h v e
  · simp only [if_neg h] at e ⊢; exact hb h v e

theorem cost_frame {g : CFn} {a : L α} {Q : α → Nat → Prop} (h : Cost M a Q) : Cost M (frame g a) Q := by
  intro v e
  unfold frame
  rw [total_cons, total_append, total_cons, M.plain _ rfl, M.plain _ rfl]
  have := h v e
  rwa [Nat.zero_add, show M.total ([] : List Ev) = 0 from rfl]

theorem cost_select {n : Nat} {a : L α} {Q : α → Nat → Prop} (h : Cost M a Q) : Cost M (select n a) Q := by
  intro v e
  unfold select
  rw [total_cons, M.plain _ rfl, Nat.zero_add]
  exact h v e

theorem cost_calling {g : Fn} {n : Nat} {a : L α} {Q : α → Nat → Prop} (h : Cost M a fun v k => Q v (M.w (.call g n) + k)) : Cost M (calling g n a) Q :=
  fun v e => h v e

theorem cost_permuting {g : Prim} {n : Nat} {a : L α} {Q : α → Nat → Prop} (h : Cost M a fun v k => Q v (M.w (.perm g n) + k)) : Cost M (permuting g n a) Q :=
  fun v e => h v e

theorem cost_with {x : L α} {P : α → Nat → Prop} {Q : α → Prop} (h : Cost M x P) (h' : Post x Q) : Cost M x fun a k => P a k ∧ Q a :=
  fun a e => ⟨h a e, h' a e⟩

theorem cost_loop {body : Nat → σ → L σ} {I : Nat → σ → Prop} {c : Nat → Nat} {count start : Nat} {s : σ}
    (hb : ∀ i s, start ≤ i → i < start + count → I i s → Cost M (body i s) fun s' k => k = c i ∧ I (i + 1) s') (h : I start s) :
    Cost M (loop body count start s) fun s' k => k = sumFrom c start count ∧ I (start + count) s' := by
  induction count generalizing start s with
  | zero =>
    intro a e; cases e
    refine ⟨?_, h⟩
    show M.total [.br false] = 0
    rw [total_cons, M.plain _ rfl]; rfl
  | succ count ih =>
    rw [loop_log]
    refine cost_bind0 (idle_br _) fun _ _ => ?_
    refine cost_bind (hb start s (Nat.le_refl _) (by omega) h) fun a k _ hk => ?_
    refine cost_mono (ih (start := start + 1) (fun i s h1 h2 => hb i s (by omega) (by omega)) hk.2) fun b k' _ hk' => ?_
    rw [hk.1, hk'.1]
    refine ⟨rfl, ?_⟩
    rw [show start + (count + 1) = start + 1 + count by omega]
    exact hk'.2

end Leak.Work
