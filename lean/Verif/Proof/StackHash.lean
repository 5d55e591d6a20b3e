import Verif.Proof.StackBasic
/-!
# The nesting of calls in the hash functions and address functions
-/
namespace Leak
open Model Spec.Stack Model.Stack

variable {E : Env} {mem : Mem} {F : Fam} {o : Bool} {g : CFn}

/-- Decides whether a function is among the callees of another. -/
macro "edge" : tactic => `(tactic| first | assumption | (simp only [callees, adrSetters, List.mem_cons, List.mem_append, true_or, or_true]; done) | (simp [callees, adrSetters]; done))

theorem nest_any {G : CFn → List CFn} {x : L α} {Q : α → Prop} (h : Nest G g x Q) : Nest G g x fun _ => True := nest_mono h fun _ _ => trivial

/-- Proves `Nest` of a composition, given what to do about calls. -/
macro "nest" "[" ts:term,* "]" : tactic => do
  let alts ← ts.getElems.mapM fun t => `(tactic| with_reducible refine $t)
  `(tactic| repeat' (first
  | with_reducible exact nest_ok rfl
  | with_reducible exact nest_ok trivial
  | (with_reducible refine nest_ok ?_; assumption)
  | with_reducible exact nest_error
  | (with_reducible refine nest_quiet ?_; simp only [qt]; done)
  $[| $alts:tactic]*
  | with_reducible refine nest_bind (P := fun _ => True) ?_ fun _ _ => ?_
  | with_reducible refine nest_branch ?_ ?_
  | with_reducible refine nest_ite ?_ ?_
  | with_reducible refine nest_permuting ?_
  | with_reducible refine nest_select ?_
  | with_reducible refine nest_loop (I := fun _ => True) (fun _ _ _ => ?_) trivial
  | edge
  | split))

namespace Sha256
theorem nest_compress (c : Model.Sha256.Ctx) (b : Bytes) (h : CFn.compress ∈ callees o F g) : Nest (callees o F) g (compress c b) fun _ => True := by
  unfold compress; refine nest_frame h ?_; nest []
theorem nest_updateLoop (fuel : Nat) (c : Model.Sha256.Ctx) (p : Bytes) : Nest (callees o F) .ts_SHA256_update (updateLoop fuel c p) fun _ => True := by
  induction fuel generalizing c p with
  | zero => unfold updateLoop; nest []
  | succ fuel ih => unfold updateLoop; nest [ih _ _, nest_compress _ _ ?_]
theorem nest_update (c : Model.Sha256.Ctx) (p : Bytes) (h : CFn.ts_SHA256_update ∈ callees o F g) : Nest (callees o F) g (update c p) fun _ => True := by
  unfold update; exact nest_frame h (nest_updateLoop _ _ _)
theorem nest_final_trunc (d : Bytes) (c : Model.Sha256.Ctx) (n : Nat) (h : CFn.ts_SHA256_final_trunc ∈ callees o F g) :
    Nest (callees o F) g (final_trunc d c n) fun _ => True := by
  unfold final_trunc; refine nest_frame h ?_; nest [nest_update _ _ ?_]
theorem nest_final (d : Bytes) (c : Model.Sha256.Ctx) (h : CFn.ts_SHA256_final ∈ callees o F g) :
    Nest (callees o F) g (final d c) fun _ => True := by
  unfold final; exact nest_frame h (nest_final_trunc _ _ _ (by edge))
end Sha256

namespace Sha512
theorem nest_compress (c : Model.Sha512.Ctx) (b : Bytes) (h : CFn.sha512_compress ∈ callees o F g) : Nest (callees o F) g (compress c b) fun _ => True := by
  unfold compress; refine nest_frame h ?_; nest []
theorem nest_updateLoop (fuel : Nat) (c : Model.Sha512.Ctx) (p : Bytes) : Nest (callees o F) .ts_SHA512_update (updateLoop fuel c p) fun _ => True := by
  induction fuel generalizing c p with
  | zero => unfold updateLoop; nest []
  | succ fuel ih => unfold updateLoop; nest [ih _ _, nest_compress _ _ ?_]
theorem nest_update (c : Model.Sha512.Ctx) (p : Bytes) (h : CFn.ts_SHA512_update ∈ callees o F g) : Nest (callees o F) g (update c p) fun _ => True := by
  unfold update; exact nest_frame h (nest_updateLoop _ _ _)
theorem nest_final_trunc (d : Bytes) (c : Model.Sha512.Ctx) (n : Nat) (h : CFn.ts_SHA512_final_trunc ∈ callees o F g) :
    Nest (callees o F) g (final_trunc d c n) fun _ => True := by
  unfold final_trunc; refine nest_frame h ?_; nest [nest_update _ _ ?_]
theorem nest_final (d : Bytes) (c : Model.Sha512.Ctx) (h : CFn.ts_SHA512_final ∈ callees o F g) :
    Nest (callees o F) g (final d c) fun _ => True := by
  unfold final; exact nest_frame h (nest_final_trunc _ _ _ (by edge))
end Sha512

namespace Shake
theorem nest_permute (k : Nat) (s : List UInt64) (h : CFn.KeccakF1600_StatePermute ∈ callees o F g) : Nest (callees o F) g (permute k s) fun _ => True := by
  unfold permute; refine nest_frame h ?_; nest []
theorem nest_inc_init (s : Model.Shake.Ctx) (h : CFn.ts_shake256_inc_init ∈ callees o F g) : Nest (callees o F) g (inc_init s) fun _ => True := by
  unfold inc_init; refine nest_frame h ?_; nest []
theorem nest_absorbLoop (k fuel : Nat) (s : Model.Shake.Ctx) (m : Bytes) : Nest (callees o F) .keccak_inc_absorb (absorbLoop k fuel s m) fun _ => True := by
  induction fuel generalizing s m with
  | zero => unfold absorbLoop; nest []
  | succ fuel ih => unfold absorbLoop; nest [ih _ _, nest_permute _ _ ?_]
theorem nest_inc_absorb (k : Nat) (s : Model.Shake.Ctx) (m : Bytes) (h : CFn.ts_shake256_inc_absorb ∈ callees o F g) : Nest (callees o F) g (inc_absorb k s m) fun _ => True := by
  unfold inc_absorb; exact nest_frame h (nest_frame (by edge) (nest_absorbLoop _ _ _ _))
theorem nest_inc_finalize (s : Model.Shake.Ctx) (h : CFn.ts_shake256_inc_finalize ∈ callees o F g) : Nest (callees o F) g (inc_finalize s) fun _ => True := by
  unfold inc_finalize; refine nest_frame h ?_; nest []
theorem nest_squeezeLoop (k fuel : Nat) (h : Bytes) (off l : Nat) (s : Model.Shake.Ctx) : Nest (callees o F) .keccak_inc_squeeze (squeezeLoop k fuel h off l s) fun _ => True := by
  induction fuel generalizing h off l s with
  | zero => unfold squeezeLoop; nest []
  | succ fuel ih => unfold squeezeLoop; nest [ih _ _ _ _, nest_permute _ _ ?_]
theorem nest_inc_squeeze (k : Nat) (d : Bytes) (off l : Nat) (s : Model.Shake.Ctx) (h : CFn.ts_shake256_inc_squeeze ∈ callees o F g) :
    Nest (callees o F) g (inc_squeeze k d off l s) fun _ => True := by
  unfold inc_squeeze; refine nest_frame h (nest_frame (by edge) ?_); nest [nest_squeezeLoop _ _ _ _ _ _]
end Shake

/-! ## The functions of the parameter sets -/

theorem nest_ts_sha256_init_ctx (c : Sha256.Ctx) (sc : Ctx) (h : CFn.ts_sha256_init_ctx ∈ callees E.cfg.sha2opt F g) :
    Nest (callees E.cfg.sha2opt F) g (ts_sha256_init_ctx E mem c sc) fun _ => True := by
  unfold ts_sha256_init_ctx
  refine nest_frame h ?_
  cases ho : E.cfg.sha2opt <;> simp only [Bool.false_eq_true, if_true, if_false] <;> nest [Sha256.nest_update _ _ ?_]

theorem nest_ts_sha512_init_ctx (c : Sha512.Ctx) (sc : Ctx) (h : CFn.ts_sha512_init_ctx ∈ callees E.cfg.sha2opt F g) :
    Nest (callees E.cfg.sha2opt F) g (ts_sha512_init_ctx E mem c sc) fun _ => True := by
  unfold ts_sha512_init_ctx
  refine nest_frame h ?_
  cases ho : E.cfg.sha2opt <;> simp only [Bool.false_eq_true, if_true, if_false] <;> nest [Sha512.nest_update _ _ ?_]

/-- `nest` with the functions of SHA-2 and SHAKE. -/
macro "nesth" : tactic => `(tactic| nest [Sha256.nest_update _ _ ?_, Sha256.nest_final_trunc _ _ _ ?_, Sha256.nest_final _ _ ?_,
  Sha512.nest_update _ _ ?_, Sha512.nest_final_trunc _ _ _ ?_, Sha512.nest_final _ _ ?_,
  Shake.nest_inc_init _ ?_, Shake.nest_inc_absorb _ _ _ ?_, Shake.nest_inc_finalize _ ?_, Shake.nest_inc_squeeze _ _ _ _ _ ?_,
  nest_ts_sha256_init_ctx _ _ ?_, nest_ts_sha512_init_ctx _ _ ?_])

variable {sc : Ctx}

theorem nest_ts_sha2_prf (out : Bytes) (h : CFn.ts_sha2_prf ∈ callees E.cfg.sha2opt F g) :
    Nest (callees E.cfg.sha2opt F) g (ts_sha2_prf E mem out sc) fun r => r.2.ps = sc.ps := by
  unfold ts_sha2_prf; refine nest_frame h ?_; nesth

theorem nest_ts_sha2_f_simple (out inb : Bytes) (h : CFn.ts_sha2_f_simple ∈ callees E.cfg.sha2opt F g) :
    Nest (callees E.cfg.sha2opt F) g (ts_sha2_f_simple E mem out inb sc) fun r => r.2.ps = sc.ps := by
  unfold ts_sha2_f_simple; refine nest_frame h ?_; nesth

theorem nest_ts_sha2_L1_prf_msg (out opt : Bytes) (m l : Nat) (h : CFn.ts_sha2_L1_prf_msg ∈ callees E.cfg.sha2opt F g) :
    Nest (callees E.cfg.sha2opt F) g (ts_sha2_L1_prf_msg E mem out opt m l sc) fun r => r.2.ps = sc.ps := by
  unfold ts_sha2_L1_prf_msg; refine nest_frame h ?_; nesth

theorem nest_mgf1Loop256 (n fuel i : Nat) (mh out : Bytes) (off len : Nat) (c : Sha256.Ctx) :
    Nest (callees o F) .ts_sha2_L1_hash_msg (mgf1Loop256 E n fuel i mh out off len c) fun _ => True := by
  induction fuel generalizing i mh out off len c with
  | zero => unfold mgf1Loop256; nest []
  | succ fuel ih => unfold mgf1Loop256; nest [ih _ _ _ _ _ _, Sha256.nest_update _ _ ?_, Sha256.nest_final _ _ ?_]

theorem nest_ts_sha2_L1_hash_msg (out : Bytes) (lo : Nat) (r : Bytes) (m l : Nat) (h : CFn.ts_sha2_L1_hash_msg ∈ callees E.cfg.sha2opt F g) :
    Nest (callees E.cfg.sha2opt F) g (ts_sha2_L1_hash_msg E mem out lo r m l sc) fun r => r.2.ps = sc.ps := by
  unfold ts_sha2_L1_hash_msg; refine nest_frame h ?_
  nest [nest_mgf1Loop256 _ _ _ _ _ _ _ _, Sha256.nest_update _ _ ?_, Sha256.nest_final _ _ ?_]

theorem nest_ts_sha2_L1_init_t_simple (t : TIter) (h : CFn.ts_sha2_L1_init_t_simple ∈ callees E.cfg.sha2opt F g) :
    Nest (callees E.cfg.sha2opt F) g (ts_sha2_L1_init_t_simple E mem t sc) fun _ => True := by
  unfold ts_sha2_L1_init_t_simple; refine nest_frame h ?_; nesth

theorem nest_ts_sha2_L1_next_t_simple (t : TIter) (i : Bytes) (h : CFn.ts_sha2_L1_next_t_simple ∈ callees o F g) :
    Nest (callees o F) g (ts_sha2_L1_next_t_simple E t i sc) fun _ => True := by
  unfold ts_sha2_L1_next_t_simple; refine nest_frame h ?_; nesth

theorem nest_ts_sha2_L1_final_t_simple (out : Bytes) (t : TIter) (h : CFn.ts_sha2_L1_final_t_simple ∈ callees o F g) :
    Nest (callees o F) g (ts_sha2_L1_final_t_simple E out t sc) fun _ => True := by
  unfold ts_sha2_L1_final_t_simple; refine nest_frame h ?_; nesth

theorem nest_ts_sha2_L1_prehash (h : CFn.ts_sha2_L1_prehash ∈ callees o F g) :
    Nest (callees o F) g (ts_sha2_L1_prehash E mem sc) fun c => c.ps = sc.ps := by
  unfold ts_sha2_L1_prehash; refine nest_frame h ?_; nesth

theorem nest_ts_sha2_L35_prf_msg (out opt : Bytes) (m l : Nat) (h : CFn.ts_sha2_L35_prf_msg ∈ callees E.cfg.sha2opt F g) :
    Nest (callees E.cfg.sha2opt F) g (ts_sha2_L35_prf_msg E mem out opt m l sc) fun r => r.2.ps = sc.ps := by
  unfold ts_sha2_L35_prf_msg; refine nest_frame h ?_; nesth

theorem nest_mgf1Loop512 (n fuel i : Nat) (mh out : Bytes) (off len : Nat) (c : Sha512.Ctx) :
    Nest (callees o F) .ts_sha2_L35_hash_msg (mgf1Loop512 E n fuel i mh out off len c) fun _ => True := by
  induction fuel generalizing i mh out off len c with
  | zero => unfold mgf1Loop512; nest []
  | succ fuel ih => unfold mgf1Loop512; nest [ih _ _ _ _ _ _, Sha512.nest_update _ _ ?_, Sha512.nest_final _ _ ?_]

theorem nest_ts_sha2_L35_hash_msg (out : Bytes) (lo : Nat) (r : Bytes) (m l : Nat) (h : CFn.ts_sha2_L35_hash_msg ∈ callees E.cfg.sha2opt F g) :
    Nest (callees E.cfg.sha2opt F) g (ts_sha2_L35_hash_msg E mem out lo r m l sc) fun r => r.2.ps = sc.ps := by
  unfold ts_sha2_L35_hash_msg; refine nest_frame h ?_
  nest [nest_mgf1Loop512 _ _ _ _ _ _ _ _, Sha512.nest_update _ _ ?_, Sha512.nest_final _ _ ?_]

theorem nest_ts_sha2_L35_init_t_simple (t : TIter) (h : CFn.ts_sha2_L35_init_t_simple ∈ callees E.cfg.sha2opt F g) :
    Nest (callees E.cfg.sha2opt F) g (ts_sha2_L35_init_t_simple E mem t sc) fun _ => True := by
  unfold ts_sha2_L35_init_t_simple; refine nest_frame h ?_; nesth

theorem nest_ts_sha2_L35_next_t_simple (t : TIter) (i : Bytes) (h : CFn.ts_sha2_L35_next_t_simple ∈ callees o F g) :
    Nest (callees o F) g (ts_sha2_L35_next_t_simple E t i sc) fun _ => True := by
  unfold ts_sha2_L35_next_t_simple; refine nest_frame h ?_; nesth

theorem nest_ts_sha2_L35_final_t_simple (out : Bytes) (t : TIter) (h : CFn.ts_sha2_L35_final_t_simple ∈ callees o F g) :
    Nest (callees o F) g (ts_sha2_L35_final_t_simple E out t sc) fun _ => True := by
  unfold ts_sha2_L35_final_t_simple; refine nest_frame h ?_; nesth

theorem nest_ts_sha2_L35_prehash (h : CFn.ts_sha2_L35_prehash ∈ callees o F g) :
    Nest (callees o F) g (ts_sha2_L35_prehash E mem sc) fun c => c.ps = sc.ps := by
  unfold ts_sha2_L35_prehash; refine nest_frame h ?_
  refine nest_bind (nest_ts_sha2_L1_prehash (by edge)) fun c hc => ?_
  nesth

theorem nest_ts_shake256_prf_msg (out opt : Bytes) (m l : Nat) (h : CFn.ts_shake256_prf_msg ∈ callees o F g) :
    Nest (callees o F) g (ts_shake256_prf_msg E mem out opt m l sc) fun r => r.2.ps = sc.ps := by
  unfold ts_shake256_prf_msg; refine nest_frame h ?_; nesth

theorem nest_ts_shake256_hash_msg (out : Bytes) (lo : Nat) (r : Bytes) (m l : Nat) (h : CFn.ts_shake256_hash_msg ∈ callees o F g) :
    Nest (callees o F) g (ts_shake256_hash_msg E mem out lo r m l sc) fun r => r.2.ps = sc.ps := by
  unfold ts_shake256_hash_msg; refine nest_frame h ?_; nesth

theorem nest_ts_shake256_prf (out : Bytes) (h : CFn.ts_shake256_prf ∈ callees o F g) :
    Nest (callees o F) g (ts_shake256_prf E mem out sc) fun r => r.2.ps = sc.ps := by
  unfold ts_shake256_prf; refine nest_frame h ?_; nesth

theorem nest_ts_shake256_init_t_simple (t : TIter) (h : CFn.ts_shake256_init_t_simple ∈ callees o F g) :
    Nest (callees o F) g (ts_shake256_init_t_simple E mem t sc) fun _ => True := by
  unfold ts_shake256_init_t_simple; refine nest_frame h ?_; nesth

theorem nest_ts_shake256_next_t_simple (t : TIter) (i : Bytes) (h : CFn.ts_shake256_next_t_simple ∈ callees o F g) :
    Nest (callees o F) g (ts_shake256_next_t_simple E t i sc) fun _ => True := by
  unfold ts_shake256_next_t_simple; refine nest_frame h ?_; nesth

theorem nest_ts_shake256_final_t_simple (out : Bytes) (t : TIter) (h : CFn.ts_shake256_final_t_simple ∈ callees o F g) :
    Nest (callees o F) g (ts_shake256_final_t_simple E out t sc) fun _ => True := by
  unfold ts_shake256_final_t_simple; refine nest_frame h ?_; nesth

theorem nest_ts_shake256_f_simple (out inb : Bytes) (h : CFn.ts_shake256_f_simple ∈ callees o F g) :
    Nest (callees o F) g (ts_shake256_f_simple E mem out inb sc) fun r => r.2.ps = sc.ps := by
  unfold ts_shake256_f_simple; refine nest_frame h ?_
  nest [nest_ts_shake256_init_t_simple _ ?_, nest_ts_shake256_next_t_simple _ _ ?_, nest_ts_shake256_final_t_simple _ _ ?_]

end Leak
