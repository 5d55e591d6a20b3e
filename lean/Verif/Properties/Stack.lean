import Verif.Proof.StackRun
import Verif.Model.LeakApi
import Verif.Properties.Layout
import Verif.Model.LeakSim
/-!
# Property C47: no recursion, and a bound for the stack

`Spec.Stack` reads off a log, at every moment, which functions are running. `Model.Stack` has the call graph and the declarations of the code.
The memory that the compiler adds (results, temporaries, saved registers, padding), `memcpy` and its like, and the caller's generator are not counted.
-/
namespace Properties
open Model Spec.Stack Model.Stack Model.Layout
open Leak (Ev CFn)

/-- A call of a function of the library, with any arguments; `x` is the parameter set, `c` the context. -/
inductive Call
  | gen_key (sk pk : Option Nat) (ps : Bool) (r : Option Rng)
  | init_sign (c : Ctx) (message len_message sk : Nat) (r : Option Rng)
  | sign (c : Ctx) (dest : Bytes) (m : Nat)
  | init_verify (c : Ctx) (message len_message pk : Nat)
  | update_verify (c : Ctx) (sig : Bytes)

namespace Call
/-- The function that is called. -/
def name : Call → CFn
  | gen_key .. => .ts_gen_key
  | init_sign .. => .ts_init_sign
  | sign .. => .ts_sign
  | init_verify .. => .ts_init_verify
  | update_verify .. => .ts_update_verify

/-- One of three numbers: the first for key generation, the second for signing, the third for verification. -/
def pick (keygen signing verification : Nat) : Call → Nat
  | gen_key .. => keygen
  | init_sign .. | sign .. => signing
  | init_verify .. | update_verify .. => verification

/-- What happens during the call (for `gen_key`, `ps` says whether the parameter set is given or the pointer is null). -/
def log (E : Env) (mem : Mem) (x : PsName) : Call → List Ev
  | gen_key sk pk p r => (Leak.ts_gen_key E mem sk pk (if p then some (ps E.cfg x) else none) r).log
  | init_sign c m l sk r => (Leak.ts_init_sign E mem c m l (ps E.cfg x) sk r).log
  | sign c d m => (Leak.ts_sign E mem d m c).log
  | init_verify c m l pk => (Leak.ts_init_verify E mem c m l (ps E.cfg x) pk).log
  | update_verify c s => (Leak.ts_update_verify E mem s c).log

/-- The context, where the call gets one that must have been set up, was set up for the parameter set. -/
def Uses (cfg : Config) (x : PsName) : Call → Prop
  | sign c _ _ => c.ps = ps cfg x
  | update_verify c _ => c.ps = ps cfg x
  | _ => True
end Call

theorem call_outer (E : Env) (mem : Mem) (x : PsName) (k : Call) (hk : k.Uses E.cfg x) :
    Leak.walk [k.name] (callees E.cfg.sha2opt (famOf x)) [] (k.log E mem x) = some [] := by
  have hK := Leak.ps_kin E.cfg x
  have hm : k.name ∈ [k.name] := List.mem_singleton.2 rfl
  cases k with
  | gen_key sk pk p r =>
    refine (Leak.outer_ts_gen_key (F := famOf x) (fun q hq => ?_) hm sk pk r).1
    cases p
    · cases hq
    · cases hq; exact hK
  | init_sign c m l sk r => exact (Leak.outer_ts_init_sign hK hm m l sk r).1
  | sign c d m => exact (Leak.outer_ts_sign hK hk hm d m).1
  | init_verify c m l pk => exact (Leak.outer_ts_init_verify hK hm m l pk).1
  | update_verify c s => exact (Leak.outer_ts_update_verify hK hk hm s).1

/-- C47: a call of a function of the library, whatever its arguments and the contents of memory and context (also where they break the rules, and also if the call
faults), leaves no function running; at every moment the running functions are a chain in the call graph of the code that starts at the called function; no function is running
twice, so there is no recursion; and at most eight are running. -/
theorem C47_nesting (E : Env) (mem : Mem) (x : PsName) (k : Call) (hk : k.Uses E.cfg x) :
    active (k.log E mem x) = [] ∧
    ∀ q, q <+: k.log E mem x →
      Chain [k.name] (callees E.cfg.sha2opt (famOf x)) (active q) ∧ (active q).Nodup ∧ (active q).length ≤ 8 := by
  have h := call_outer E mem x k hk
  refine ⟨Leak.walk_active _ _ _ _ _ h, fun q hq => ?_⟩
  have hc := Leak.walk_prefix h hq
  refine ⟨hc, Leak.chain_nodup hc, ?_⟩
  match hs : active q, hc with
  | [], _ => exact Nat.zero_le _
  | g :: σ, hc =>
    have := Leak.chain_length hc
    have := Leak.rank_pos g
    simp only [List.length_cons]
    omega

/-- C47: whatever the sizes of the stack frames, the running functions never occupy more than the longest path in the call graph. -/
theorem C47_stack (E : Env) (mem : Mem) (x : PsName) (k : Call) (hk : k.Uses E.cfg x) (frame leaf : CFn → Nat) (q : List Ev) (hq : q <+: k.log E mem x) :
    occupied frame leaf (active q) ≤ need (callees E.cfg.sha2opt (famOf x)) frame leaf 8 k.name := by
  have h := Leak.chain_occupied frame leaf (Leak.walk_prefix (call_outer E mem x k hk) hq)
  exact Nat.le_trans h (Nat.le_of_eq (Nat.max_zero _))

theorem signRun_outer (J : SignJob) (reqs : List (Bytes × Nat)) :
    Leak.walk [.ts_init_sign, .ts_sign] (callees J.E.cfg.sha2opt (famOf J.x)) [] (Leak.signRun J reqs).log = some [] := by
  have hK := Leak.ps_kin J.E.cfg J.x
  unfold Leak.signRun
  refine (Leak.outer_bind (Leak.outer_ts_init_sign hK (by decide) _ _ _ _) fun a ha => ?_ : Leak.Outer _ _ _ fun _ => True).1
  exact Leak.outer_bind (Leak.outer_signCalls hK (by decide) _ ha) fun _ _ => Leak.outer_ok trivial

theorem verifyRun_outer (J : VerifyJob) (ts : List Bytes) :
    Leak.walk [.ts_init_verify, .ts_update_verify] (callees J.E.cfg.sha2opt (famOf J.x)) [] (Leak.verifyRun J ts).log = some [] := by
  have hK := Leak.ps_kin J.E.cfg J.x
  unfold Leak.verifyRun
  refine (Leak.outer_bind (Leak.outer_ts_init_verify hK (by decide) _ _ _) fun a ha => ?_ : Leak.Outer _ _ _ fun _ => True).1
  exact Leak.outer_updateCalls hK (by decide) _ ha

/-- C47 for whole signature operations: nothing is running between the calls, and the stack never exceeds the larger need of the two functions. -/
theorem C47_sign (J : SignJob) (reqs : List (Bytes × Nat)) (frame leaf : CFn → Nat) :
    active (Leak.signRun J reqs).log = [] ∧
    ∀ q, q <+: (Leak.signRun J reqs).log → occupied frame leaf (active q) ≤
      max (need (callees J.E.cfg.sha2opt (famOf J.x)) frame leaf 8 .ts_init_sign) (need (callees J.E.cfg.sha2opt (famOf J.x)) frame leaf 8 .ts_sign) := by
  have h := signRun_outer J reqs
  refine ⟨Leak.walk_active _ _ _ _ _ h, fun q hq => ?_⟩
  have h := Leak.chain_occupied frame leaf (Leak.walk_prefix h hq)
  simp only [List.map_cons, List.map_nil, largest, List.foldr_cons, List.foldr_nil, Nat.max_zero] at h
  exact h

/-- C47 for whole verifications. -/
theorem C47_verify (J : VerifyJob) (ts : List Bytes) (frame leaf : CFn → Nat) :
    active (Leak.verifyRun J ts).log = [] ∧
    ∀ q, q <+: (Leak.verifyRun J ts).log → occupied frame leaf (active q) ≤
      max (need (callees J.E.cfg.sha2opt (famOf J.x)) frame leaf 8 .ts_init_verify) (need (callees J.E.cfg.sha2opt (famOf J.x)) frame leaf 8 .ts_update_verify) := by
  have h := verifyRun_outer J ts
  refine ⟨Leak.walk_active _ _ _ _ _ h, fun q hq => ?_⟩
  have h := Leak.chain_occupied frame leaf (Leak.walk_prefix h hq)
  simp only [List.map_cons, List.map_nil, largest, List.foldr_cons, List.foldr_nil, Nat.max_zero] at h
  exact h


/-! ## With the sizes of the declared parameters and variables -/

theorem need_mono (G : CFn → List CFn) {fr fr' lf lf' : CFn → Nat} (hf : ∀ g, fr g ≤ fr' g) (hl : ∀ g, lf g ≤ lf' g) (d : Nat) (g : CFn) :
    need G fr lf d g ≤ need G fr' lf' d g := by
  induction d generalizing g with
  | zero => exact Nat.le_refl _
  | succ d ih =>
    have : ∀ l : List CFn, largest (l.map (need G fr lf d)) ≤ largest (l.map (need G fr' lf' d)) := by
      intro l
      induction l with
      | nil => exact Nat.le_refl _
      | cons a l ihl =>
        have := ih a
        show max _ (largest (l.map _)) ≤ max _ (largest (l.map _))
        omega
    have := this (G g)
    have := hf g
    have := hl g
    show fr g + max (lf g) (largest ((G g).map (need G fr lf d))) ≤ fr' g + max (lf' g) (largest ((G g).map (need G fr' lf' d)))
    omega

/-- The configuration with everything on, `TS_SHAKE256_OPT` 0, and `TS_SHA2_OPTIMIZATION` as given. -/
def biggest (opt : Bool) : Config := { shake := true, sha2 := true, l5 := true, l3 := true, s := true, sha2opt := opt, shakeOpt := 0 }

theorem sizeof_biggest (a : Abi) (c : Config) : sizeofCtx a c ≤ sizeofCtx lp64 (biggest c.sha2opt) := by
  have h := C43_monotone a c { c with shake := true, sha2 := true, l5 := true, l3 := true, s := true }
    ⟨fun _ => rfl, fun _ => rfl, fun _ => rfl, fun _ => rfl, fun _ => rfl, fun h => h⟩
  refine Nat.le_trans h ?_
  rw [sizeof_by, sizeof_by]
  have key : ∀ w al o, sizeBy w al true true true true true o ≤ sizeBy true true true true true true true o := by decide +kernel
  exact key _ _ _

theorem frame_biggest (a : Abi) (c : Config) (g : CFn) : frame a c g ≤ frame lp64 (biggest c.sha2opt) g := by
  have hw : a.arch.word ≤ 8 := by unfold Arch.word; split <;> omega
  have hm : c.MAX_HASH ≤ 32 := by unfold Config.MAX_HASH; split <;> (try split) <;> omega
  have hw8 : lp64.arch.word = 8 := rfl
  have hm8 : (biggest c.sha2opt).MAX_HASH = 32 := rfl
  have hk8 : (biggest c.sha2opt).shakeOpt = 0 := rfl
  have ho8 : (biggest c.sha2opt).sha2opt = c.sha2opt := rfl
  have hu8 : ∀ b : Abi, (b.u64).size = 8 := fun _ => rfl
  have hi8 : int.size = 4 := rfl
  have hc8 : char.size = 1 := rfl
  have ha8 : ∀ (t : Ty) k, (t.array k).size = k * t.size := fun _ _ => rfl
  have hb8 : ∀ b : Abi, (b.word).size = b.arch.word := fun _ => rfl
  by_cases hg : g = .ts_gen_key
  · subst hg
    have hs := sizeof_biggest a c
    unfold sizeofCtx at hs
    generalize he : (ts_context lp64 (biggest c.sha2opt)).size = S at hs
    simp only [frame, declared, total, List.map_cons, List.map_nil, List.sum_cons, List.sum_nil, hw8, hu8, hi8, hb8, he]
    omega
  · cases g
    case ts_gen_key => exact absurd rfl hg
    case KeccakF1600_StatePermute =>
      simp only [frame, declared, hk8, hw8]
      rw [if_neg (show ¬ (0 = 2) by decide), if_neg (show ¬ (0 = 1) by decide)]
      have e : ∀ (b : Abi) k, total (List.replicate k b.u64) = k * 8 := by
        intro b k
        unfold total
        rw [List.map_replicate, hu8, List.sum_replicate_nat]
      have t : ∀ u v, total (u ++ v) = total u + total v := by intro u v; unfold total; rw [List.map_append, List.sum_append]
      rw [t, t, e, e, show total [lp64.word, int] = 12 from rfl]
      split
      · simp only [total, List.map_cons, List.map_nil, List.sum_cons, List.sum_nil, hu8, hi8, hb8, ha8]
        omega
      · rw [t, t, e, show total [a.word, int] = a.arch.word + 4 from rfl]
        split
        · show _ + (_ + 0) ≤ _; omega
        · rw [e]; omega
    case ts_sha256_init_ctx =>
      simp only [frame, declared, ho8, hw8]
      split <;> simp only [total, List.cons_append, List.nil_append, List.map_cons, List.map_nil, List.sum_cons, List.sum_nil, hi8, hb8, hw8] <;> omega
    case ts_sha512_init_ctx =>
      simp only [frame, declared, ho8, hw8]
      split <;> simp only [total, List.cons_append, List.nil_append, List.map_cons, List.map_nil, List.sum_cons, List.sum_nil, hi8, hb8, hw8] <;> omega
    all_goals
      simp only [frame, declared, total, List.replicate, List.cons_append, List.nil_append, List.map_cons, List.map_nil, List.sum_cons, List.sum_nil, hw8, hm8, hu8, hi8, hc8, hb8, ha8]
      omega

theorem leaf_biggest (a : Abi) (c : Config) (g : CFn) : leaf a c g ≤ leaf lp64 (biggest c.sha2opt) g := by
  have hw : a.arch.word ≤ 8 := by unfold Arch.word; split <;> omega
  have hw8 : lp64.arch.word = 8 := rfl
  cases g <;> simp only [leaf, leaves, total, bytes_to_ull, ull_to_bytes, List.map_cons, List.map_nil, List.sum_cons, List.sum_nil, Abi.word, Abi.u64, int, char, hw8, List.foldr_cons, List.foldr_nil] <;>
    try omega
  all_goals
    rw [show (biggest c.sha2opt).sha2opt = c.sha2opt from rfl]
    split <;> simp <;> omega

/-- The declared parameters and variables of the running functions, on the machine `a`. -/
def inUse (a : Abi) (c : Config) (q : List Ev) : Nat := occupied (frame a c) (leaf a c) (active q)

theorem inUse_le (a : Abi) (E : Env) (mem : Mem) (x : PsName) (k : Call) (hk : k.Uses E.cfg x) (q : List Ev) (hq : q <+: k.log E mem x) :
    inUse a E.cfg q ≤ need (callees E.cfg.sha2opt (famOf x)) (frame lp64 (biggest E.cfg.sha2opt)) (leaf lp64 (biggest E.cfg.sha2opt)) 8 k.name :=
  Nat.le_trans (C47_stack E mem x k hk _ _ q hq) (need_mono _ (frame_biggest a E.cfg) (leaf_biggest a E.cfg) _ _)

/-- C47: on every machine, in every configuration and for every parameter set, what the running functions declare, together with the context, fits into 2 kB: a call of
`ts_gen_key` (whose context is a local variable) never has more than 1996 bytes in use, the signing functions never more than 852 besides the context, and the verification functions never
more than 752; a context has at most 1136. -/
theorem C47_two_kilobytes (a : Abi) (E : Env) (mem : Mem) (x : PsName) (k : Call) (hk : k.Uses E.cfg x) (q : List Ev) (hq : q <+: k.log E mem x) :
    inUse a E.cfg q ≤ k.pick 1996 852 752 ∧ sizeofCtx a E.cfg ≤ 1136 := by
  refine ⟨?_, C43_largest.1 a E.cfg⟩
  have h := inUse_le a E mem x k hk q hq
  have key : ∀ o F, need (callees o F) (frame lp64 (biggest o)) (leaf lp64 (biggest o)) 8 .ts_gen_key ≤ 1996 ∧
      need (callees o F) (frame lp64 (biggest o)) (leaf lp64 (biggest o)) 8 .ts_init_sign ≤ 852 ∧
      need (callees o F) (frame lp64 (biggest o)) (leaf lp64 (biggest o)) 8 .ts_sign ≤ 852 ∧
      need (callees o F) (frame lp64 (biggest o)) (leaf lp64 (biggest o)) 8 .ts_init_verify ≤ 752 ∧
      need (callees o F) (frame lp64 (biggest o)) (leaf lp64 (biggest o)) 8 .ts_update_verify ≤ 752 := by
    intro o F
    cases o <;> cases F <;> decide +kernel
  obtain ⟨k1, k2, k3, k4, k5⟩ := key E.cfg.sha2opt (famOf x)
  cases k with
  | gen_key => exact Nat.le_trans h k1
  | init_sign => exact Nat.le_trans h k2
  | sign => exact Nat.le_trans h k3
  | init_verify => exact Nat.le_trans h k4
  | update_verify => exact Nat.le_trans h k5


/-- C47: the figure of README.md:2-3. In the configuration of ramspace.py for SHA2-128f-simple, on a 64-bit machine, key generation, signing and verification never have more than
1024 bytes in use, the context included: at most 916, 1017 and 940. -/
theorem C47_one_kilobyte (E : Env) (hE : E.cfg = ramspaceCfg .sha2_128f) (mem : Mem) (k : Call) (hk : k.Uses E.cfg .sha2_128f) (q : List Ev) (hq : q <+: k.log E mem .sha2_128f) :
    k.pick 0 (sizeofCtx lp64 E.cfg) (sizeofCtx lp64 E.cfg) + inUse lp64 E.cfg q ≤ k.pick 916 1017 940 := by
  have h : inUse lp64 E.cfg q ≤ _ := C47_stack E mem .sha2_128f k hk (frame lp64 E.cfg) (leaf lp64 E.cfg) q hq
  rw [hE] at h ⊢
  rw [show (ramspaceCfg .sha2_128f).sha2opt = false from rfl] at h
  have hs : sizeofCtx lp64 (ramspaceCfg .sha2_128f) = 472 := (C43_published .sha2_128f).2
  have key : need (callees false (famOf .sha2_128f)) (frame lp64 (ramspaceCfg .sha2_128f)) (leaf lp64 (ramspaceCfg .sha2_128f)) 8 .ts_gen_key = 916 ∧
      need (callees false (famOf .sha2_128f)) (frame lp64 (ramspaceCfg .sha2_128f)) (leaf lp64 (ramspaceCfg .sha2_128f)) 8 .ts_init_sign = 545 ∧
      need (callees false (famOf .sha2_128f)) (frame lp64 (ramspaceCfg .sha2_128f)) (leaf lp64 (ramspaceCfg .sha2_128f)) 8 .ts_sign = 436 ∧
      need (callees false (famOf .sha2_128f)) (frame lp64 (ramspaceCfg .sha2_128f)) (leaf lp64 (ramspaceCfg .sha2_128f)) 8 .ts_init_verify = 48 ∧
      need (callees false (famOf .sha2_128f)) (frame lp64 (ramspaceCfg .sha2_128f)) (leaf lp64 (ramspaceCfg .sha2_128f)) 8 .ts_update_verify = 468 := by decide +kernel
  obtain ⟨k1, k2, k3, k4, k5⟩ := key
  rw [hs]
  generalize inUse lp64 (ramspaceCfg .sha2_128f) q = u at h ⊢
  cases k with
  | gen_key => exact Nat.le_trans (Nat.le_of_eq (Nat.zero_add u)) (Nat.le_trans h (Nat.le_of_eq k1))
  | init_sign => exact Nat.add_le_add_left (Nat.le_trans h (Nat.le_of_eq k2)) 472
  | sign => exact Nat.le_trans (Nat.add_le_add_left (Nat.le_trans h (Nat.le_of_eq k3)) 472) (show 472 + 436 ≤ 1017 by decide)
  | init_verify => exact Nat.le_trans (Nat.add_le_add_left (Nat.le_trans h (Nat.le_of_eq k4)) 472) (show 472 + 48 ≤ 940 by decide)
  | update_verify => exact Nat.add_le_add_left (Nat.le_trans h (Nat.le_of_eq k5)) 472

/-- The columns "Keygen size", "Sig size" and "Ver size" of ramspace.out: measured by the author. -/
def measured : PsName → Nat × Nat × Nat
  | .sha2_128f => (976, 1024, 992) | .sha2_128s => (1072, 1120, 1088)
  | .sha2_192f => (1296, 1456, 1408) | .sha2_192s => (1440, 1600, 1552)
  | .sha2_256f => (1408, 1568, 1536) | .sha2_256s => (1568, 1728, 1696)
  | .shake_128f => (1104, 1120, 928) | .shake_128s => (1200, 1216, 1024)
  | .shake_192f => (1216, 1232, 1040) | .shake_192s => (1360, 1376, 1184)
  | .shake_256f => (1312, 1328, 1136) | .shake_256s => (1472, 1488, 1296)

/-- Two numbers that differ by at most 80. -/
def Near (a b : Nat) : Prop := a ≤ b + 80 ∧ b ≤ a + 80

instance (a b : Nat) : Decidable (Near a b) := inferInstanceAs (Decidable (_ ∧ _))

/-- C47: for every parameter set, what the declarations need is within 80 bytes of what ramspace.out reports (where the compiler has added return values, temporaries and registers, and kept
some variables in registers only). -/
theorem C47_measured (x : PsName) :
    let N := need (callees false (famOf x)) (frame lp64 (ramspaceCfg x)) (leaf lp64 (ramspaceCfg x)) 8
    let ctx := sizeofCtx lp64 (ramspaceCfg x)
    Near (N .ts_gen_key) (measured x).1 ∧
    Near (ctx + max (N .ts_init_sign) (N .ts_sign)) (measured x).2.1 ∧
    Near (ctx + max (N .ts_init_verify) (N .ts_update_verify)) (measured x).2.2 := by
  cases x <;> decide +kernel

/-- A call of `ts_init_sign` for a message of one byte, in a memory of zeros. -/
def firstCall : Call := .init_sign (zeroCtx (Leak.zeroEnv (ramspaceCfg .sha2_128f)) (ps (ramspaceCfg .sha2_128f) .sha2_128f)) 100 1 0 none

/-- C47: the 1017 bytes of signing are reached, in the final step of hashing the message: `ts_sha2_L1_hash_msg`, with its buffers, is on the critical path, contrary to the comment in
sha256_L1_hash.c:75-79. -/
theorem C47_critical : ∃ q, q <+: firstCall.log (Leak.zeroEnv (ramspaceCfg .sha2_128f)) (fun _ => some 0) .sha2_128f ∧
    active q = [.compress, .ts_SHA256_update, .ts_SHA256_final_trunc, .ts_SHA256_final, .ts_sha2_L1_hash_msg, .ts_init_sign] ∧
    sizeofCtx lp64 (ramspaceCfg .sha2_128f) + inUse lp64 (ramspaceCfg .sha2_128f) q = 1017 := by
  refine ⟨(firstCall.log (Leak.zeroEnv (ramspaceCfg .sha2_128f)) (fun _ => some 0) .sha2_128f).take 3145, List.take_prefix _ _, ?_⟩
  have h : active ((firstCall.log (Leak.zeroEnv (ramspaceCfg .sha2_128f)) (fun _ => some 0) .sha2_128f).take 3145) =
      [.compress, .ts_SHA256_update, .ts_SHA256_final_trunc, .ts_SHA256_final, .ts_sha2_L1_hash_msg, .ts_init_sign] := by decide +kernel
  unfold inUse
  rw [h]
  exact ⟨rfl, by decide +kernel⟩


/-! ## Concrete cases -/

/-- A call of `ts_sign` at the beginning of an authentication path. -/
def pathCall : Call :=
  .sign { zeroCtx (Leak.zeroEnv (ramspaceCfg .sha2_128f)) (ps (ramspaceCfg .sha2_128f) .sha2_128f) with state := .merkle, buffer_offset := 16 } [0] 1

/-- The hypothesis of the theorems holds for it. -/
example : pathCall.Uses (ramspaceCfg .sha2_128f) .sha2_128f := rfl

/-- Eight functions are running during that call: the bound for the depth is reached. -/
example : active ((pathCall.log (Leak.zeroEnv (ramspaceCfg .sha2_128f)) (fun _ => some 0) .sha2_128f).take 1722) =
    [.compress, .ts_SHA256_update, .ts_sha256_init_ctx, .ts_sha2_prf, .wots_prf, .ts_wots_leaf, .ts_merkle_path, .ts_sign] := by decide +kernel

/-- A chain that the call graph does not have. -/
example : ¬ Chain [.ts_sign] (callees false .sha2L1) [.ts_sign, .ts_merkle_path, .ts_sign] := by
  intro h
  exact absurd h.1 (by decide)

end Properties
