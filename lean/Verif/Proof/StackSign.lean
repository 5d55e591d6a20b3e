import Verif.Proof.StackHash
import Verif.Model.LeakApi
import Verif.Model.LeakVerify
/-!
# The nesting of calls in key generation, signing and verification
-/
namespace Leak
open Model Spec.Stack Model.Stack

/-- All function pointers of a parameter set point to functions of one family. -/
structure Kin (p : ParamSet) (F : Fam) : Prop where
  prf_msg : p.prf_msg = F
  hash_msg : p.hash_msg = F
  prf : Model.Stack.prf p.prf = Model.Stack.prf F
  f : Model.Stack.f p.f = Model.Stack.f F
  init_t : p.init_t = F
  next_t : p.next_t = F
  final_t : p.final_t = F
  pre : ∀ H, p.compute_prehash = some H → H = F ∧ F ≠ .shake

theorem ps_kin (cfg : Config) (x : PsName) : Kin (ps cfg x) (famOf x) := by
  cases x <;> refine ⟨rfl, rfl, rfl, rfl, rfl, rfl, rfl, fun H h => ?_⟩ <;> simp only [Model.ps, sha2L1Set, sha2L35Set, shakeSet] at h <;>
    first
    | (cases h; done)
    | (split at h <;> first | (cases h; done) | (cases h; exact ⟨rfl, by decide⟩))

variable {E : Env} {mem : Mem} {F : Fam} {g : CFn} {p : ParamSet} {c : Ctx}

local notation "GG" => callees E.cfg.sha2opt F

theorem nest_call_prf_msg (hK : Kin p F) (hp : c.ps = p) (h : Model.Stack.prf_msg F ∈ GG g) (out opt : Bytes) (m l : Nat) :
    Nest GG g (call_prf_msg E mem out opt m l c) fun r => r.2.ps = p := by
  unfold call_prf_msg
  subst hp
  rw [hK.prf_msg]
  refine nest_calling ?_
  cases F
  · exact nest_ts_shake256_prf_msg _ _ _ _ h
  · exact nest_ts_sha2_L1_prf_msg _ _ _ _ h
  · exact nest_ts_sha2_L35_prf_msg _ _ _ _ h

theorem nest_call_hash_msg (hK : Kin p F) (hp : c.ps = p) (h : Model.Stack.hash_msg F ∈ GG g) (out : Bytes) (lo : Nat) (r : Bytes) (m l : Nat) :
    Nest GG g (call_hash_msg E mem out lo r m l c) fun r => r.2.ps = p := by
  unfold call_hash_msg
  subst hp
  rw [hK.hash_msg]
  refine nest_calling ?_
  cases F
  · exact nest_ts_shake256_hash_msg _ _ _ _ _ h
  · exact nest_ts_sha2_L1_hash_msg _ _ _ _ _ h
  · exact nest_ts_sha2_L35_hash_msg _ _ _ _ _ h

theorem nest_call_prf (hK : Kin p F) (hp : c.ps = p) (h : Model.Stack.prf F ∈ GG g) (out : Bytes) :
    Nest GG g (call_prf E mem out c) fun r => r.2.ps = p := by
  unfold call_prf
  subst hp
  have hk := hK.prf
  refine nest_calling ?_
  rw [← hk] at h
  revert h
  cases c.ps.prf <;> intro h
  · exact nest_ts_shake256_prf _ h
  · exact nest_ts_sha2_prf _ h
  · exact nest_ts_sha2_prf _ h

theorem nest_call_f (hK : Kin p F) (hp : c.ps = p) (h : Model.Stack.f F ∈ GG g) (out inb : Bytes) :
    Nest GG g (call_f E mem out inb c) fun r => r.2.ps = p := by
  unfold call_f
  subst hp
  have hk := hK.f
  refine nest_calling ?_
  rw [← hk] at h
  revert h
  cases c.ps.f <;> intro h
  · exact nest_ts_shake256_f_simple _ _ h
  · exact nest_ts_sha2_f_simple _ _ h
  · exact nest_ts_sha2_f_simple _ _ h

theorem nest_call_init_t (hK : Kin p F) (hp : c.ps = p) (h : Model.Stack.init_t F ∈ GG g) (t : TIter) :
    Nest GG g (call_init_t E mem t c) fun _ => True := by
  unfold call_init_t
  subst hp
  rw [hK.init_t]
  refine nest_calling ?_
  cases F
  · exact nest_ts_shake256_init_t_simple _ h
  · exact nest_ts_sha2_L1_init_t_simple _ h
  · exact nest_ts_sha2_L35_init_t_simple _ h

theorem nest_call_next_t (hK : Kin p F) (hp : c.ps = p) (h : Model.Stack.next_t F ∈ GG g) (t : TIter) (i : Bytes) :
    Nest GG g (call_next_t E t i c) fun _ => True := by
  unfold call_next_t
  subst hp
  rw [hK.next_t]
  refine nest_calling ?_
  cases F
  · exact nest_ts_shake256_next_t_simple _ _ h
  · exact nest_ts_sha2_L1_next_t_simple _ _ h
  · exact nest_ts_sha2_L35_next_t_simple _ _ h

theorem nest_call_final_t (hK : Kin p F) (hp : c.ps = p) (h : Model.Stack.final_t F ∈ GG g) (out : Bytes) (t : TIter) :
    Nest GG g (call_final_t E out t c) fun _ => True := by
  unfold call_final_t
  subst hp
  rw [hK.final_t]
  refine nest_calling ?_
  cases F
  · exact nest_ts_shake256_final_t_simple _ _ h
  · exact nest_ts_sha2_L1_final_t_simple _ _ h
  · exact nest_ts_sha2_L35_final_t_simple _ _ h

theorem nest_call_prehash (hK : Kin p F) (hp : c.ps = p) (h : ∀ k ∈ prehash E.cfg.sha2opt F, k ∈ GG g) :
    Nest GG g (call_prehash E mem c) fun r => r.ps = p := by
  unfold call_prehash
  subst hp
  have hk := hK.pre
  cases ho : E.cfg.sha2opt
  · exact nest_ok rfl
  rw [ho] at h
  simp only [if_true]
  refine nest_branch (nest_ok rfl) ?_
  cases hc : c.ps.compute_prehash with
  | none => exact nest_ok rfl
  | some H =>
    obtain ⟨h1, h2⟩ := hk H hc
    subst h1
    cases H
    · exact absurd rfl h2
    · exact nest_ts_sha2_L1_prehash (h _ (List.mem_cons_self ..))
    · exact nest_ts_sha2_L35_prehash (h _ (List.mem_cons_self ..))

/-- Proves `Nest` of a composition that preserves the parameter set. -/
macro "nestp" p:term:max "[" ts:term,* "]" : tactic => do
  let alts ← ts.getElems.mapM fun t => `(tactic| (with_reducible apply nest_bind $t))
  let alts' ← ts.getElems.mapM fun t => `(tactic| (with_reducible apply nest_mono $t))
  `(tactic| repeat' (first
  | with_reducible intro _ _
  | with_reducible apply nest_ok
  | with_reducible apply nest_error
  | (with_reducible refine nest_quiet ?_; simp only [qt]; done)
  $[| $alts:tactic]*
  $[| $alts':tactic]*
  | with_reducible refine nest_bind (nest_loop (I := fun s : Ctx => s.ps = $p) (fun _ _ _ => ?_) ?_) fun _ _ => ?_
  | with_reducible refine nest_bind (nest_loop (I := fun s : Bytes × Ctx => s.2.ps = $p) (fun _ _ _ => ?_) ?_) fun _ _ => ?_
  | with_reducible refine nest_bind (nest_loop (I := fun s : Cursor × Ctx => s.2.ps = $p) (fun _ _ _ => ?_) ?_) fun _ _ => ?_
  | with_reducible refine nest_bind (P := fun _ => True) ?_ fun _ _ => ?_
  | with_reducible refine nest_branch ?_ ?_
  | with_reducible refine nest_ite ?_ ?_
  | with_reducible refine nest_select ?_
  | with_reducible refine nest_loop (I := fun _ => True) (fun _ _ _ => ?_) trivial
  | with_reducible assumption
  | with_reducible exact trivial
  | with_reducible exact rfl
  | (with_reducible show (_ : CFn) ∈ (_ : List CFn); edge)
  | split))

section Adr
theorem nest_set_layer_adr (hp : c.ps = p) (v : Nat) (h : CFn.set_layer_adr ∈ GG g) : Nest GG g (set_layer_adr E v c) fun r => r.ps = p := by
  unfold set_layer_adr; refine nest_frame h ?_; nestp p []
theorem nest_set_tree_adr (hp : c.ps = p) (v : Nat) (h : CFn.set_tree_adr ∈ GG g) : Nest GG g (set_tree_adr E v c) fun r => r.ps = p := by
  unfold set_tree_adr; refine nest_frame h ?_; nestp p []
theorem nest_set_type_adr (hp : c.ps = p) (v : Nat) (h : CFn.set_type_adr ∈ GG g) : Nest GG g (set_type_adr E v c) fun r => r.ps = p := by
  unfold set_type_adr; refine nest_frame h ?_; nestp p []
theorem nest_set_keypair_adr (hp : c.ps = p) (v : Nat) (h : CFn.set_keypair_adr ∈ GG g) : Nest GG g (set_keypair_adr E v c) fun r => r.ps = p := by
  unfold set_keypair_adr; refine nest_frame h ?_; nestp p []
theorem nest_set_tree_height_adr (hp : c.ps = p) (v : Nat) (h : CFn.set_tree_height_adr ∈ GG g) : Nest GG g (set_tree_height_adr E v c) fun r => r.ps = p := by
  unfold set_tree_height_adr; refine nest_frame h ?_; nestp p []
theorem nest_set_tree_index_adr (hp : c.ps = p) (v : Nat) (h : CFn.set_tree_index_adr ∈ GG g) : Nest GG g (set_tree_index_adr E v c) fun r => r.ps = p := by
  unfold set_tree_index_adr; refine nest_frame h ?_; nestp p []

/-- `nestp` with the setters of the address. -/
macro "nesta" p:term:max : tactic => `(tactic| nestp $p [nest_set_layer_adr (p := $p) ?_ _ ?_, nest_set_tree_adr (p := $p) ?_ _ ?_, nest_set_type_adr (p := $p) ?_ _ ?_, nest_set_keypair_adr (p := $p) ?_ _ ?_,
  nest_set_tree_height_adr (p := $p) ?_ _ ?_, nest_set_tree_index_adr (p := $p) ?_ _ ?_])

theorem nest_set_fors_prf_adr (hp : c.ps = p) (i : Nat) (h : CFn.set_fors_prf_adr ∈ GG g) : Nest GG g (set_fors_prf_adr E c i) fun r => r.ps = p := by
  unfold set_fors_prf_adr; refine nest_frame h ?_; nesta p
theorem nest_ts_set_fors_leaf_adr (hp : c.ps = p) (i : Nat) (h : CFn.ts_set_fors_leaf_adr ∈ GG g) : Nest GG g (ts_set_fors_leaf_adr E c i) fun r => r.ps = p := by
  unfold ts_set_fors_leaf_adr; refine nest_frame h ?_; nesta p
theorem nest_set_wots_prf_adr (hp : c.ps = p) (i j : Nat) (h : CFn.set_wots_prf_adr ∈ GG g) : Nest GG g (set_wots_prf_adr E c i j) fun r => r.ps = p := by
  unfold set_wots_prf_adr; refine nest_frame h ?_; nesta p
theorem nest_ts_set_wots_f_adr (hp : c.ps = p) (i j k : Nat) (h : CFn.ts_set_wots_f_adr ∈ GG g) : Nest GG g (ts_set_wots_f_adr E c i j k) fun r => r.ps = p := by
  unfold ts_set_wots_f_adr; refine nest_frame h ?_; nesta p
theorem nest_ts_set_merkle_adr (hp : c.ps = p) (i j k : Nat) (h : CFn.ts_set_merkle_adr ∈ GG g) : Nest GG g (ts_set_merkle_adr E c i j k) fun r => r.ps = p := by
  unfold ts_set_merkle_adr; refine nest_frame h ?_; nesta p
theorem nest_ts_set_fors_root_adr (hp : c.ps = p) (h : CFn.ts_set_fors_root_adr ∈ GG g) : Nest GG g (ts_set_fors_root_adr E c) fun r => r.ps = p := by
  unfold ts_set_fors_root_adr; refine nest_frame h ?_; nesta p
theorem nest_ts_set_wots_header_adr (hp : c.ps = p) (i : Nat) (h : CFn.ts_set_wots_header_adr ∈ GG g) : Nest GG g (ts_set_wots_header_adr E i c) fun r => r.ps = p := by
  unfold ts_set_wots_header_adr; refine nest_frame h ?_; nesta p
end Adr


theorem nest_fors_prf (hK : Kin p F) (hp : c.ps = p) (h : CFn.fors_prf ∈ GG g) (out : Bytes) (i : Nat) : Nest GG g (fors_prf E mem out i c) fun r => r.2.ps = p := by
  unfold fors_prf; refine nest_frame h ?_
  nestp p [nest_set_fors_prf_adr (p := p) ?_ _ ?_, nest_call_prf hK ?_ ?_ _]

theorem nest_wots_prf (hK : Kin p F) (hp : c.ps = p) (h : CFn.wots_prf ∈ GG g) (out : Bytes) (i j : Nat) : Nest GG g (wots_prf E mem out i j c) fun r => r.2.ps = p := by
  unfold wots_prf; refine nest_frame h ?_
  nestp p [nest_set_wots_prf_adr (p := p) ?_ _ _ ?_, nest_call_prf hK ?_ ?_ _]

theorem nest_fors_leaf (hK : Kin p F) (hp : c.ps = p) (h : CFn.fors_leaf ∈ GG g) (out : Bytes) (i : Nat) : Nest GG g (fors_leaf E mem out i c) fun r => r.2.ps = p := by
  unfold fors_leaf; refine nest_frame h ?_
  nestp p [nest_set_fors_prf_adr (p := p) ?_ _ ?_, nest_call_prf hK ?_ ?_ _, nest_set_type_adr (p := p) ?_ _ ?_, nest_call_f hK ?_ ?_ _ _]

theorem nest_ts_wots_leaf (hK : Kin p F) (hp : c.ps = p) (h : CFn.ts_wots_leaf ∈ GG g) (out : Bytes) (i : Nat) : Nest GG g (ts_wots_leaf E mem out i c) fun r => r.2.ps = p := by
  unfold ts_wots_leaf; refine nest_frame h ?_
  nestp p [nest_ts_set_wots_header_adr (p := p) ?_ _ ?_, nest_call_init_t hK ?_ ?_ _, nest_wots_prf hK ?_ ?_ _ _ _, nest_ts_set_wots_f_adr (p := p) ?_ _ _ _ ?_,
    nest_call_f hK ?_ ?_ _ _, nest_call_next_t hK ?_ ?_ _ _, nest_call_final_t hK ?_ ?_ _ _]

theorem nest_combine (hK : Kin p F) (hp : c.ps = p) (hi : init_t F ∈ GG g) (hn : next_t F ∈ GG g) (hf : final_t F ∈ GG g) (out a b : Bytes) :
    Nest GG g (combine E mem out a b c) fun r => r.2.ps = p := by
  unfold combine
  nestp p [nest_call_init_t hK ?_ hi _, nest_call_next_t hK ?_ hn _ _, nest_call_final_t hK ?_ hf _ _]

theorem nest_pathInner (hK : Kin p F) (hp : c.ps = p) (st : Region) (ty leaf fuel nod k : Nat) :
    Nest GG .ts_merkle_path (pathInner E mem st ty leaf fuel nod k c) fun r => r.2.ps = p := by
  induction fuel generalizing nod k c with
  | zero => unfold pathInner; nestp p []
  | succ fuel ih =>
    unfold pathInner
    nestp p [nest_ts_set_merkle_adr (p := p) ?_ _ _ _ ?_, nest_combine hK ?_ ?_ ?_ ?_ _ _ _, ih ?_ _ _]

theorem region_put_ps {r : Region} {i : Nat} {v : Bytes} {c' : Ctx} (h : r.put c i v = .ok c') : c'.ps = c.ps := by
  unfold Region.put at h
  split at h
  · rcases hx : Model.wrSlice c.x (r.off + i) v with e | x
    · rw [hx] at h; cases h
    · rw [hx] at h; cases h; rfl
  · cases h

theorem nest_regPut (hp : c.ps = p) (r : Region) (i : Nat) (v : Bytes) : Nest GG g (regPut r c i v) fun r => r.ps = p :=
  ⟨fun _ _ => rfl, fun _ e => (region_put_ps e).trans hp⟩

theorem nest_ts_merkle_path (hK : Kin p F) (hp : c.ps = p) (h : CFn.ts_merkle_path ∈ GG g) {gl : Bytes → Nat → Ctx → L (Bytes × Ctx)} (ty : Nat) (st : Region)
    (hg : ∀ out i (c : Ctx), c.ps = p → Nest GG .ts_merkle_path (gl out i c) fun r => r.2.ps = p) :
    Nest GG g (ts_merkle_path E mem gl c ty st) fun r => r.ps = p := by
  unfold ts_merkle_path; refine nest_frame h ?_
  nestp p [hg _ _ _ ?_, nest_pathInner hK ?_ _ _ _ _ _ _, nest_regPut (p := p) ?_ _ _ _, nest_ts_set_merkle_adr (p := p) ?_ _ _ _ ?_,
    nest_branch (Q := fun r : Bytes × Ctx => r.2.ps = p) ?_ ?_, nest_combine hK ?_ ?_ ?_ ?_ _ _ _]

theorem nest_ts_convert_message_hash (hp : c.ps = p) (h : CFn.ts_convert_message_hash ∈ GG g) (mh : Bytes) :
    Nest GG g (ts_convert_message_hash E c mh) fun r => r.1.ps = p := by
  unfold ts_convert_message_hash; refine nest_frame h ?_
  nestp p []

theorem outer_ts_init_sign (hK : Kin p F) {R : List CFn} (h : CFn.ts_init_sign ∈ R) (m l priv : Nat) (r : Option Rng) :
    Outer R GG (ts_init_sign E mem c m l p priv r) fun r => r.1.ps = p := by
  unfold ts_init_sign; refine outer_frame h ?_
  nestp p [nest_call_prehash hK ?_ (fun _ h => List.mem_append_left _ h), nest_call_prf_msg hK ?_ ?_ _ _ _ _, nest_call_hash_msg hK ?_ ?_ _ _ _ _ _, nest_ts_convert_message_hash (p := p) ?_ ?_ _,
    nest_ts_set_fors_root_adr (p := p) ?_ ?_, nest_call_init_t hK ?_ ?_ _]


theorem nest_ts_set_up_wots_signature (hp : c.ps = p) (h : CFn.ts_set_up_wots_signature ∈ GG g) (i : Nat) :
    Nest GG g (ts_set_up_wots_signature E c i) fun r => r.ps = p := by
  unfold ts_set_up_wots_signature; refine nest_frame h ?_
  nestp p []

theorem nest_generate_next_wots_hash (hK : Kin p F) (hp : c.ps = p) (h : CFn.generate_next_wots_hash ∈ GG g) :
    Nest GG g (generate_next_wots_hash E mem c) fun r => r.ps = p := by
  unfold generate_next_wots_hash; refine nest_frame h ?_
  nestp p [nest_wots_prf hK ?_ ?_ _ _ _, nest_ts_set_wots_f_adr (p := p) ?_ _ _ _ ?_, nest_call_f hK ?_ ?_ _ _]

theorem nest_signForsLeaf (hK : Kin p F) (hp : c.ps = p) : Nest GG .ts_sign (signForsLeaf E mem c) fun r => r.ps = p := by
  unfold signForsLeaf
  nestp p [nest_fors_prf hK ?_ ?_ _ _, nest_fors_leaf hK ?_ ?_ _ _]

theorem nest_signFors (hK : Kin p F) (hp : c.ps = p) : Nest GG .ts_sign (signFors E mem c) fun r => r.ps = p := by
  unfold signFors
  nestp p [nest_ts_merkle_path hK ?_ ?_ _ _ (fun _ _ _ hc => nest_fors_leaf hK hc (by edge) _ _), nest_call_next_t hK ?_ ?_ _ _, nest_call_final_t hK ?_ ?_ _ _,
    nest_ts_set_up_wots_signature (p := p) ?_ ?_ _]

theorem nest_signWots (hK : Kin p F) (hp : c.ps = p) : Nest GG .ts_sign (signWots E mem c) fun r => r.ps = p := by
  unfold signWots
  nestp p [nest_generate_next_wots_hash hK ?_ ?_, nest_ts_wots_leaf hK ?_ ?_ _ _]

theorem nest_signMerkle (hK : Kin p F) (hp : c.ps = p) : Nest GG .ts_sign (signMerkle E mem c) fun r => r.ps = p := by
  unfold signMerkle
  nestp p [nest_ts_merkle_path hK ?_ ?_ _ _ (fun _ _ _ hc => nest_ts_wots_leaf hK hc (by edge) _ _), nest_ts_set_up_wots_signature (p := p) ?_ ?_ _]

theorem nest_signStep (hK : Kin p F) (hp : c.ps = p) : Nest GG .ts_sign (signStep E mem c) fun r => ∀ c', r = some c' → c'.ps = p := by
  unfold signStep
  refine nest_select ?_
  split
  · exact nest_bind (nest_signForsLeaf hK hp) fun c' h => nest_ok (fun d e => by cases e; exact h)
  · exact nest_bind (nest_signFors hK hp) fun c' h => nest_ok (fun d e => by cases e; exact h)
  · exact nest_bind (nest_signWots hK hp) fun c' h => nest_ok (fun d e => by cases e; exact h)
  · exact nest_bind (nest_signMerkle hK hp) fun c' h => nest_ok (fun d e => by cases e; exact h)
  · exact nest_ok fun _ e => by cases e

theorem nest_signLoop (hK : Kin p F) (hp : c.ps = p) (fuel : Nat) (dest : Bytes) (off m : Nat) :
    Nest GG .ts_sign (signLoop E mem fuel dest off m c) fun r => r.2.2.ps = p := by
  induction fuel generalizing dest off m c with
  | zero => unfold signLoop; nestp p []
  | succ fuel ih =>
    unfold signLoop
    nestp p [ih ?_ _ _ _, nest_signStep hK ?_]
    all_goals (rename_i h; exact h _ rfl)

theorem outer_ts_sign (hK : Kin p F) (hp : c.ps = p) {R : List CFn} (h : CFn.ts_sign ∈ R) (dest : Bytes) (m : Nat) :
    Outer R GG (ts_sign E mem dest m c) fun r => r.2.2.ps = p := by
  unfold ts_sign; refine outer_frame h ?_
  nestp p [nest_signLoop hK ?_ _ _ _ _]

theorem nest_gen_root (hK : Kin p F) (pub : Nat) : Nest GG .ts_gen_key (gen_root E mem p pub) fun _ => True := by
  unfold gen_root
  nestp p [nest_call_prehash hK ?_ (fun _ h => List.mem_append_left _ h), nest_ts_wots_leaf hK ?_ ?_ _ _,
    nest_ts_merkle_path hK ?_ ?_ _ _ (fun _ _ _ hc => nest_ts_wots_leaf hK hc (by edge) _ _)]
  rfl

theorem outer_ts_gen_key {F' : Option ParamSet} (hK : ∀ p, F' = some p → Kin p F) {R : List CFn} (h : CFn.ts_gen_key ∈ R) (sk pk : Option Nat) (r : Option Rng) :
    Outer R GG (ts_gen_key E mem sk pk F' r) fun _ => True := by
  unfold ts_gen_key; refine outer_frame h ?_
  split
  · rename_i q
    have hK := hK q rfl
    nestp q [nest_gen_root hK _]
  · exact nest_ok trivial

/-! ## Verification -/

theorem outer_ts_init_verify (hK : Kin p F) {R : List CFn} (h : CFn.ts_init_verify ∈ R) (m l pk : Nat) :
    Outer R GG (ts_init_verify E mem c m l p pk) fun r => r.ps = p := by
  unfold ts_init_verify; refine outer_frame h ?_
  nestp p []
  exact nest_call_prehash hK rfl (fun _ h => h)

theorem nest_next_auth_path (hK : Kin p F) (hp : c.ps = p) (h : CFn.next_auth_path ∈ GG g) (ty : Nat) :
    Nest GG g (next_auth_path E mem c ty) fun r => r.ps = p := by
  unfold next_auth_path; refine nest_frame h ?_
  nestp p [nest_ts_set_merkle_adr (p := p) ?_ _ _ _ ?_, nest_branch (Q := fun r : Bytes × Ctx => r.2.ps = p) ?_ ?_, nest_combine hK ?_ ?_ ?_ ?_ _ _ _]

theorem nest_set_up_wots_verify_signature (hK : Kin p F) (hp : c.ps = p) (h : CFn.set_up_wots_verify_signature ∈ GG g) (i : Nat) :
    Nest GG g (set_up_wots_verify_signature E mem c i) fun r => r.ps = p := by
  unfold set_up_wots_verify_signature; refine nest_frame h ?_
  nestp p [nest_ts_set_up_wots_signature (p := p) ?_ ?_ _, nest_ts_set_wots_header_adr (p := p) ?_ _ ?_, nest_call_init_t hK ?_ ?_ _]

theorem nest_verInit (hK : Kin p F) (hp : c.ps = p) : Nest GG .ts_update_verify (verInit E mem c) fun r => r.ps = p := by
  unfold verInit
  nestp p [nest_call_hash_msg hK ?_ ?_ _ _ _ _ _, nest_ts_convert_message_hash (p := p) ?_ ?_ _, nest_ts_set_fors_root_adr (p := p) ?_ ?_, nest_call_init_t hK ?_ ?_ _]

theorem nest_verForsLeaf (hK : Kin p F) (hp : c.ps = p) : Nest GG .ts_update_verify (verForsLeaf E mem c) fun r => r.ps = p := by
  unfold verForsLeaf
  nestp p [nest_ts_set_fors_leaf_adr (p := p) ?_ _ ?_, nest_call_f hK ?_ ?_ _ _]

theorem nest_verFors (hK : Kin p F) (hp : c.ps = p) : Nest GG .ts_update_verify (verFors E mem c) fun r => r.ps = p := by
  unfold verFors
  nestp p [nest_next_auth_path hK ?_ ?_ _, nest_call_next_t hK ?_ ?_ _ _, nest_call_final_t hK ?_ ?_ _ _, nest_set_up_wots_verify_signature hK ?_ ?_ _]

theorem nest_verWots (hK : Kin p F) (hp : c.ps = p) : Nest GG .ts_update_verify (verWots E mem c) fun r => r.ps = p := by
  unfold verWots
  nestp p [nest_ts_set_wots_f_adr (p := p) ?_ _ _ _ ?_, nest_call_f hK ?_ ?_ _ _, nest_call_next_t hK ?_ ?_ _ _, nest_call_final_t hK ?_ ?_ _ _]

theorem nest_verMerkle (hK : Kin p F) (hp : c.ps = p) (m : Nat) : Nest GG .ts_update_verify (verMerkle E mem m c) fun r => r.2.ps = p := by
  unfold verMerkle
  nestp p [nest_next_auth_path hK ?_ ?_ _, nest_set_up_wots_verify_signature hK ?_ ?_ _]

theorem nest_verStep (hK : Kin p F) (hp : c.ps = p) (m : Nat) : Nest GG .ts_update_verify (verStep E mem m c) fun r => r.2.ps = p := by
  unfold verStep
  nestp p [nest_verInit hK ?_, nest_verForsLeaf hK ?_, nest_verFors hK ?_, nest_verWots hK ?_, nest_verMerkle hK ?_ _]

theorem nest_verLoop (hK : Kin p F) (hp : c.ps = p) (fuel : Nat) (sig : Bytes) : Nest GG .ts_update_verify (verLoop E mem fuel sig c) fun r => r.2.ps = p := by
  induction fuel generalizing sig c with
  | zero => unfold verLoop; nestp p []
  | succ fuel ih =>
    unfold verLoop
    nestp p [ih ?_ _, nest_verStep hK ?_ _]

theorem outer_ts_update_verify (hK : Kin p F) (hp : c.ps = p) {R : List CFn} (h : CFn.ts_update_verify ∈ R) (sig : Bytes) :
    Outer R GG (ts_update_verify E mem sig c) fun r => r.2.ps = p := by
  unfold ts_update_verify; refine outer_frame h ?_
  nestp p [nest_verLoop hK ?_ _ _]


/-! ## Whole runs -/

theorem outer_signCalls (hK : Kin p F) {R : List CFn} (h : CFn.ts_sign ∈ R) (rs : List (Bytes × Nat)) (hp : c.ps = p) :
    Outer R GG (signCalls E mem c rs) fun _ => True := by
  induction rs generalizing c with
  | nil => exact outer_ok trivial
  | cons r rs ih =>
    obtain ⟨d, m⟩ := r
    refine outer_bind (outer_ts_sign hK hp h d m) fun a ha => ?_
    exact outer_bind (ih ha) fun _ _ => outer_ok trivial

theorem outer_updateCalls (hK : Kin p F) {R : List CFn} (h : CFn.ts_update_verify ∈ R) (ts : List Bytes) (hp : c.ps = p) :
    Outer R GG (updateCalls E mem c ts) fun _ => True := by
  induction ts generalizing c with
  | nil => exact outer_ok trivial
  | cons t ts ih =>
    refine outer_bind (outer_ts_update_verify hK hp h t) fun a ha => ?_
    exact outer_bind (ih ha) fun _ _ => outer_ok trivial

end Leak
