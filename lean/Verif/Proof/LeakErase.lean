import Verif.Model.LeakSign
import Verif.Proof.LeakAttr
/-!
# The leakage model describes the same program: forgetting the events gives the model
-/
namespace Leak
open Model

theorem ite_bind (c : Prop) [Decidable c] (a b : C α) (f : α → C β) :
    (if c then a else b) >>= f = if c then a >>= f else b >>= f := by split <;> rfl
theorem ite_ok (c : Prop) [Decidable c] (a b : α) :
    (if c then (.ok a : C α) else .ok b) = .ok (if c then a else b) := by split <;> rfl

@[lk] theorem res_bind (x : L α) (f : α → L β) : (x >>= f).res = x.res >>= fun a => (f a).res := by
  show (L.bind x f).res = _
  unfold L.bind
  cases h : x.res <;> rfl

@[lk] theorem res_ok (a : α) : (L.ok a).res = .ok a := rfl
@[lk] theorem res_pure (a : α) : (pure a : L α).res = .ok a := rfl
@[lk] theorem res_error (e : Fault) : (L.error e : L α).res = .error e := rfl
@[lk] theorem res_prim (evs : List Ev) (r : C α) : (prim evs r).res = r := rfl
@[lk] theorem res_tick (e : Ev) : (tick e).res = .ok () := rfl
@[lk] theorem res_branch (c : Prop) [Decidable c] (a b : L α) : (branch c a b).res = if c then a.res else b.res := by
  unfold branch; split <;> rfl
@[lk] theorem res_ite (c : Prop) [Decidable c] (a b : L α) : (if c then a else b).res = if c then a.res else b.res := by
  split <;> rfl
@[lk] theorem res_select (n : Nat) (a : L α) : (select n a).res = a.res := rfl
@[lk] theorem res_calling (f : Fn) (n : Nat) (a : L α) : (calling f n a).res = a.res := rfl
@[lk] theorem res_permuting (f : Prim) (n : Nat) (a : L α) : (permuting f n a).res = a.res := rfl
@[lk] theorem res_frame (g : CFn) (a : L α) : (frame g a).res = a.res := rfl
@[lk] theorem res_rd (a : List α) (i : Nat) : (rd a i).res = Model.rd a i := rfl
@[lk] theorem res_wr (a : List α) (i : Nat) (v : α) : (wr a i v).res = Model.wr a i v := rfl
@[lk] theorem res_rdSlice (a : List α) (i n : Nat) : (rdSlice a i n).res = Model.rdSlice a i n := rfl
@[lk] theorem res_wrSlice (a : List α) (i : Nat) (v : List α) : (wrSlice a i v).res = Model.wrSlice a i v := rfl
@[lk] theorem res_shlInt (a s : Nat) : (shlInt a s).res = Model.shlInt a s := rfl
@[lk] theorem res_shrU32 (a s : Nat) : (shrU32 a s).res = Model.shrU32 a s := rfl
@[lk] theorem res_addInt (a s : Nat) : (addInt a s).res = Model.addInt a s := rfl
@[lk] theorem res_asInt (a : Nat) : (asInt a).res = Model.asInt a := rfl
@[lk] theorem res_ptrSub (a s : Nat) : (ptrSub a s).res = Model.ptrSub a s := rfl
@[lk] theorem res_memRead (m : Mem) (a n : Nat) : (memRead m a n).res = m.read a n := rfl
@[lk] theorem res_memWrite (m : Mem) (a : Nat) (v : Bytes) : (memWrite m a v).res = m.write a v := rfl
@[lk] theorem res_lmin (a b : Nat) : (lmin a b).res = .ok (min a b) := by
  unfold lmin branch
  by_cases h : b < a
  · rw [Nat.min_eq_right (by omega)]; simp only [if_pos h]; rfl
  · rw [Nat.min_eq_left (by omega)]; simp only [if_neg h]; rfl

@[lk] theorem ok_bind' (a : α) (f : α → C β) : (Except.ok a >>= f) = f a := rfl

@[lk] theorem res_match2 (p : α × β) (f : α → β → L γ) :
    (match p with | (a, b) => f a b : L γ).res = match p with | (a, b) => (f a b).res := rfl
@[lk] theorem res_match3 (p : α × β × δ) (f : α → β → δ → L γ) :
    (match p with | (a, b, c) => f a b c : L γ).res = match p with | (a, b, c) => (f a b c).res := rfl

@[lk] theorem res_matchOpt (o : Option α) (a : L γ) (f : α → L γ) :
    (match o with | none => a | some x => f x : L γ).res = match o with | none => a.res | some x => (f x).res := by
  cases o <;> rfl

@[lk] theorem res_loop (body : Nat → σ → L σ) (c i : Nat) (s : σ) :
    (loop body c i s).res = Model.loop (fun i s => (body i s).res) c i s := by
  induction c generalizing i s with
  | zero => rfl
  | succ c ih =>
    unfold loop Model.loop
    rw [res_bind, res_tick, ok_bind', res_bind]
    congr 1
    funext s
    exact ih _ _

@[lk] theorem ts_bytes_to_ull_res (p : Bytes) (off n : Nat) : (ts_bytes_to_ull p off n).res = Model.ts_bytes_to_ull p off n := by
  unfold ts_bytes_to_ull Model.ts_bytes_to_ull
  simp only [lk]
@[lk] theorem ts_ull_to_bytes_res (p : Bytes) (off v n : Nat) : (ts_ull_to_bytes p off v n).res = Model.ts_ull_to_bytes p off v n := by
  induction n generalizing p v with
  | zero => rfl
  | succ n ih =>
    unfold ts_ull_to_bytes Model.ts_ull_to_bytes
    simp only [lk, ih]

namespace Sha256
@[lk] theorem sched_res (i : Nat) (W : List UInt32) : (sched i W).res = Model.Sha256.sched i W := by
  unfold sched Model.Sha256.sched
  simp only [lk]
@[lk] theorem rnd_res (i : Nat) (s : List UInt32 × Spec.V8 UInt32) : (rnd i s).res = Model.Sha256.rnd i s := by
  unfold rnd Model.Sha256.rnd
  simp only [lk]
@[lk] theorem compress_res (c : Model.Sha256.Ctx) (b : Bytes) : (compress c b).res = Model.Sha256.compress c b := by
  unfold compress Model.Sha256.compress
  simp only [lk]
@[lk] theorem updateLoop_res (fuel : Nat) (c : Model.Sha256.Ctx) (p : Bytes) : (updateLoop fuel c p).res = Model.Sha256.updateLoop fuel c p := by
  induction fuel generalizing c p with
  | zero => rfl
  | succ fuel ih =>
    unfold updateLoop Model.Sha256.updateLoop
    simp only [lk, ih]
@[lk] theorem update_res (c : Model.Sha256.Ctx) (b : Bytes) : (update c b).res = Model.Sha256.update c b := by
  unfold update Model.Sha256.update
  simp only [lk]
@[lk] theorem final_trunc_res (d : Bytes) (c : Model.Sha256.Ctx) (n : Nat) : (final_trunc d c n).res = Model.Sha256.final_trunc d c n := by
  unfold final_trunc Model.Sha256.final_trunc
  simp only [lk, ite_bind]
@[lk] theorem final_res (d : Bytes) (c : Model.Sha256.Ctx) : (final d c).res = Model.Sha256.final d c := by
  unfold final Model.Sha256.final
  simp only [lk]
end Sha256

namespace Sha512
@[lk] theorem sched_res (i : Nat) (W : List UInt64) : (sched i W).res = Model.Sha512.sched i W := by
  unfold sched Model.Sha512.sched
  simp only [lk]
@[lk] theorem rnd_res (i : Nat) (s : List UInt64 × Spec.V8 UInt64) : (rnd i s).res = Model.Sha512.rnd i s := by
  unfold rnd Model.Sha512.rnd
  simp only [lk]
@[lk] theorem compress_res (c : Model.Sha512.Ctx) (b : Bytes) : (compress c b).res = Model.Sha512.compress c b := by
  unfold compress Model.Sha512.compress
  simp only [lk]
@[lk] theorem updateLoop_res (fuel : Nat) (c : Model.Sha512.Ctx) (p : Bytes) : (updateLoop fuel c p).res = Model.Sha512.updateLoop fuel c p := by
  induction fuel generalizing c p with
  | zero => rfl
  | succ fuel ih =>
    unfold updateLoop Model.Sha512.updateLoop
    simp only [lk, ih]
@[lk] theorem update_res (c : Model.Sha512.Ctx) (b : Bytes) : (update c b).res = Model.Sha512.update c b := by
  unfold update Model.Sha512.update
  simp only [lk]
@[lk] theorem final_trunc_res (d : Bytes) (c : Model.Sha512.Ctx) (n : Nat) : (final_trunc d c n).res = Model.Sha512.final_trunc d c n := by
  unfold final_trunc Model.Sha512.final_trunc
  simp only [lk, ite_bind]
@[lk] theorem final_res (d : Bytes) (c : Model.Sha512.Ctx) : (final d c).res = Model.Sha512.final d c := by
  unfold final Model.Sha512.final
  simp only [lk]
end Sha512

namespace Shake
@[lk] theorem load_res (s : List UInt64) : (load s).res = Model.Shake.load s := by
  unfold load Model.Shake.load
  simp only [lk]
@[lk] theorem store_res (s : List UInt64) (A : Model.Shake.Lanes) : (store s A).res = Model.Shake.store s A := by
  unfold store Model.Shake.store
  simp only [lk]
@[lk] theorem permute0_res (s : List UInt64) : (permute0 s).res = Model.Shake.permute0 s := by
  unfold permute0 Model.Shake.permute0
  simp only [lk]
@[lk] theorem permute1_res (s : List UInt64) : (permute1 s).res = Model.Shake.permute1 s := by
  unfold permute1 Model.Shake.permute1
  simp only [lk]
@[lk] theorem theta2_res (s b : List UInt64) : (theta2 s b).res = Model.Shake.theta2 s b := by
  unfold theta2 Model.Shake.theta2
  simp only [lk]
@[lk] theorem rhopiStep_res (i : Nat) (s : List UInt64 × List UInt64 × UInt64) : (rhopiStep i s).res = Model.Shake.rhopiStep i s := by
  unfold rhopiStep Model.Shake.rhopiStep
  simp only [lk]
@[lk] theorem rhopi2_res (s b : List UInt64) : (rhopi2 s b).res = Model.Shake.rhopi2 s b := by
  unfold rhopi2 Model.Shake.rhopi2
  simp only [lk]
@[lk] theorem chiRow_res (j : Nat) (s : List UInt64 × List UInt64) : (chiRow j s).res = Model.Shake.chiRow j s := by
  unfold chiRow Model.Shake.chiRow
  simp only [lk]
@[lk] theorem chi2_res (s b : List UInt64) : (chi2 s b).res = Model.Shake.chi2 s b := by
  unfold chi2 Model.Shake.chi2
  simp only [lk]
@[lk] theorem round2_res (j : Nat) (s : List UInt64 × List UInt64) : (round2 j s).res = Model.Shake.round2 j s := by
  unfold round2 Model.Shake.round2
  simp only [lk]
@[lk] theorem permute2_res (b s : List UInt64) : (permute2 b s).res = Model.Shake.permute2 b s := by
  unfold permute2 Model.Shake.permute2
  simp only [lk]
@[lk] theorem permute_res (o : Nat) (s : List UInt64) : (permute o s).res = Model.Shake.permute o s := by
  unfold permute Model.Shake.permute
  simp only [lk]
@[lk] theorem inc_init_res (s : Model.Shake.Ctx) : (inc_init s).res = Model.Shake.inc_init s := by
  unfold inc_init Model.Shake.inc_init
  simp only [lk]
@[lk] theorem xorByte_res (s : Model.Shake.Ctx) (p : Nat) (b : UInt8) : (xorByte s p b).res = Model.Shake.xorByte s p b := by
  unfold xorByte Model.Shake.xorByte
  simp only [lk]
@[lk] theorem absorbLoop_res (o fuel : Nat) (s : Model.Shake.Ctx) (m : Bytes) : (absorbLoop o fuel s m).res = Model.Shake.absorbLoop o fuel s m := by
  induction fuel generalizing s m with
  | zero => rfl
  | succ fuel ih =>
    unfold absorbLoop Model.Shake.absorbLoop
    simp only [lk, ih]
@[lk] theorem inc_absorb_res (o : Nat) (s : Model.Shake.Ctx) (m : Bytes) : (inc_absorb o s m).res = Model.Shake.inc_absorb o s m := by
  unfold inc_absorb Model.Shake.inc_absorb
  simp only [lk]
@[lk] theorem inc_finalize_res (s : Model.Shake.Ctx) : (inc_finalize s).res = Model.Shake.inc_finalize s := by
  unfold inc_finalize Model.Shake.inc_finalize
  simp only [lk]
@[lk] theorem getByte_res (s : Model.Shake.Ctx) (p : Nat) : (getByte s p).res = Model.Shake.getByte s p := by
  unfold getByte Model.Shake.getByte
  simp only [lk]
@[lk] theorem squeezeLoop_res (o fuel : Nat) (h : Bytes) (off len : Nat) (s : Model.Shake.Ctx) :
    (squeezeLoop o fuel h off len s).res = Model.Shake.squeezeLoop o fuel h off len s := by
  induction fuel generalizing h off len s with
  | zero => rfl
  | succ fuel ih =>
    unfold squeezeLoop Model.Shake.squeezeLoop
    simp only [lk, ih]
@[lk] theorem inc_squeeze_res (o : Nat) (h : Bytes) (off len : Nat) (s : Model.Shake.Ctx) : (inc_squeeze o h off len s).res = Model.Shake.inc_squeeze o h off len s := by
  unfold inc_squeeze Model.Shake.inc_squeeze
  simp only [lk]
end Shake

@[lk] theorem secSeed_res (mem : Mem) (pk n : Nat) :
    (secSeed mem pk n).res = Model.secSeed mem pk n := by
  unfold secSeed Model.secSeed
  simp only [lk]
@[lk] theorem secPrf_res (mem : Mem) (pk n : Nat) :
    (secPrf mem pk n).res = Model.secPrf mem pk n := by
  unfold secPrf Model.secPrf
  simp only [lk]
@[lk] theorem pubSeed_res (mem : Mem) (pk n : Nat) :
    (pubSeed mem pk n).res = Model.pubSeed mem pk n := by
  unfold pubSeed Model.pubSeed
  simp only [lk]
@[lk] theorem pubRoot_res (mem : Mem) (pk n : Nat) :
    (pubRoot mem pk n).res = Model.pubRoot mem pk n := by
  unfold pubRoot Model.pubRoot
  simp only [lk]
@[lk] theorem ts_sha256_init_ctx_res (E : Env) (mem : Mem) (ctx : Sha256.Ctx) (sc : Ctx) :
    (ts_sha256_init_ctx E mem ctx sc).res = Model.ts_sha256_init_ctx E mem ctx sc := by
  unfold ts_sha256_init_ctx Model.ts_sha256_init_ctx
  simp only [lk]
@[lk] theorem ts_sha2_prf_res (E : Env) (mem : Mem) (output : Bytes) (sc : Ctx) :
    (ts_sha2_prf E mem output sc).res = Model.ts_sha2_prf E mem output sc := by
  unfold ts_sha2_prf Model.ts_sha2_prf
  simp only [lk]
@[lk] theorem ts_sha2_f_simple_res (E : Env) (mem : Mem) (output inblock : Bytes) (sc : Ctx) :
    (ts_sha2_f_simple E mem output inblock sc).res = Model.ts_sha2_f_simple E mem output inblock sc := by
  unfold ts_sha2_f_simple Model.ts_sha2_f_simple
  simp only [lk]
@[lk] theorem hmacBlock_res (block key : Bytes) (pad : UInt8) (n : Nat) :
    (hmacBlock block key pad n).res = Model.hmacBlock block key pad n := by
  unfold hmacBlock Model.hmacBlock
  simp only [lk]
@[lk] theorem ts_sha2_L1_prf_msg_res (E : Env) (mem : Mem) (output opt_buffer : Bytes) (message len_message : Nat) (sc : Ctx) :
    (ts_sha2_L1_prf_msg E mem output opt_buffer message len_message sc).res = Model.ts_sha2_L1_prf_msg E mem output opt_buffer message len_message sc := by
  unfold ts_sha2_L1_prf_msg Model.ts_sha2_L1_prf_msg
  simp only [lk]
@[lk] theorem mgf1Loop256_res (E : Env) (n fuel i : Nat) (msg_hash output : Bytes) (off len_output : Nat) (c : Sha256.Ctx) :
    (mgf1Loop256 E n fuel i msg_hash output off len_output c).res = Model.mgf1Loop256 E n fuel i msg_hash output off len_output c := by
  induction fuel generalizing i msg_hash output off len_output c with
  | zero => rfl
  | succ fuel ih =>
    unfold mgf1Loop256 Model.mgf1Loop256
    simp only [lk, ih, ite_ok]

@[lk] theorem ts_sha2_L1_hash_msg_res (E : Env) (mem : Mem) (output : Bytes) (len_output : Nat) (randomness : Bytes) (message len_message : Nat) (sc : Ctx) :
    (ts_sha2_L1_hash_msg E mem output len_output randomness message len_message sc).res = Model.ts_sha2_L1_hash_msg E mem output len_output randomness message len_message sc := by
  unfold ts_sha2_L1_hash_msg Model.ts_sha2_L1_hash_msg
  simp only [lk]
@[lk] theorem ts_sha2_L1_init_t_simple_res (E : Env) (mem : Mem) (t : TIter) (ctx : Ctx) :
    (ts_sha2_L1_init_t_simple E mem t ctx).res = Model.ts_sha2_L1_init_t_simple E mem t ctx := by
  unfold ts_sha2_L1_init_t_simple Model.ts_sha2_L1_init_t_simple
  simp only [lk]
@[lk] theorem ts_sha2_L1_next_t_simple_res (E : Env) (t : TIter) (input : Bytes) (ctx : Ctx) :
    (ts_sha2_L1_next_t_simple E t input ctx).res = Model.ts_sha2_L1_next_t_simple E t input ctx := by
  unfold ts_sha2_L1_next_t_simple Model.ts_sha2_L1_next_t_simple
  simp only [lk]
@[lk] theorem ts_sha2_L1_final_t_simple_res (E : Env) (output : Bytes) (t : TIter) (ctx : Ctx) :
    (ts_sha2_L1_final_t_simple E output t ctx).res = Model.ts_sha2_L1_final_t_simple E output t ctx := by
  unfold ts_sha2_L1_final_t_simple Model.ts_sha2_L1_final_t_simple
  simp only [lk]
@[lk] theorem ts_sha2_L1_prehash_res (E : Env) (mem : Mem) (sc : Ctx) :
    (ts_sha2_L1_prehash E mem sc).res = Model.ts_sha2_L1_prehash E mem sc := by
  unfold ts_sha2_L1_prehash Model.ts_sha2_L1_prehash
  simp only [lk]
@[lk] theorem ts_sha512_init_ctx_res (E : Env) (mem : Mem) (ctx : Sha512.Ctx) (sc : Ctx) :
    (ts_sha512_init_ctx E mem ctx sc).res = Model.ts_sha512_init_ctx E mem ctx sc := by
  unfold ts_sha512_init_ctx Model.ts_sha512_init_ctx
  simp only [lk]
@[lk] theorem ts_sha2_L35_prf_msg_res (E : Env) (mem : Mem) (output opt_buffer : Bytes) (message len_message : Nat) (sc : Ctx) :
    (ts_sha2_L35_prf_msg E mem output opt_buffer message len_message sc).res = Model.ts_sha2_L35_prf_msg E mem output opt_buffer message len_message sc := by
  unfold ts_sha2_L35_prf_msg Model.ts_sha2_L35_prf_msg
  simp only [lk]
@[lk] theorem mgf1Loop512_res (E : Env) (n fuel i : Nat) (msg_hash output : Bytes) (off len_output : Nat) (c : Sha512.Ctx) :
    (mgf1Loop512 E n fuel i msg_hash output off len_output c).res = Model.mgf1Loop512 E n fuel i msg_hash output off len_output c := by
  induction fuel generalizing i msg_hash output off len_output c with
  | zero => rfl
  | succ fuel ih =>
    unfold mgf1Loop512 Model.mgf1Loop512
    simp only [lk, ih, ite_ok]

@[lk] theorem ts_sha2_L35_hash_msg_res (E : Env) (mem : Mem) (output : Bytes) (len_output : Nat) (randomness : Bytes) (message len_message : Nat) (sc : Ctx) :
    (ts_sha2_L35_hash_msg E mem output len_output randomness message len_message sc).res = Model.ts_sha2_L35_hash_msg E mem output len_output randomness message len_message sc := by
  unfold ts_sha2_L35_hash_msg Model.ts_sha2_L35_hash_msg
  simp only [lk]
@[lk] theorem ts_sha2_L35_init_t_simple_res (E : Env) (mem : Mem) (t : TIter) (ctx : Ctx) :
    (ts_sha2_L35_init_t_simple E mem t ctx).res = Model.ts_sha2_L35_init_t_simple E mem t ctx := by
  unfold ts_sha2_L35_init_t_simple Model.ts_sha2_L35_init_t_simple
  simp only [lk]
@[lk] theorem ts_sha2_L35_next_t_simple_res (E : Env) (t : TIter) (input : Bytes) (ctx : Ctx) :
    (ts_sha2_L35_next_t_simple E t input ctx).res = Model.ts_sha2_L35_next_t_simple E t input ctx := by
  unfold ts_sha2_L35_next_t_simple Model.ts_sha2_L35_next_t_simple
  simp only [lk]
@[lk] theorem ts_sha2_L35_final_t_simple_res (E : Env) (output : Bytes) (t : TIter) (ctx : Ctx) :
    (ts_sha2_L35_final_t_simple E output t ctx).res = Model.ts_sha2_L35_final_t_simple E output t ctx := by
  unfold ts_sha2_L35_final_t_simple Model.ts_sha2_L35_final_t_simple
  simp only [lk]
@[lk] theorem ts_sha2_L35_prehash_res (E : Env) (mem : Mem) (sc : Ctx) :
    (ts_sha2_L35_prehash E mem sc).res = Model.ts_sha2_L35_prehash E mem sc := by
  unfold ts_sha2_L35_prehash Model.ts_sha2_L35_prehash
  simp only [lk]
@[lk] theorem ts_shake256_prf_msg_res (E : Env) (mem : Mem) (output opt_rand : Bytes) (message len_message : Nat) (sc : Ctx) :
    (ts_shake256_prf_msg E mem output opt_rand message len_message sc).res = Model.ts_shake256_prf_msg E mem output opt_rand message len_message sc := by
  unfold ts_shake256_prf_msg Model.ts_shake256_prf_msg
  simp only [lk]
@[lk] theorem ts_shake256_hash_msg_res (E : Env) (mem : Mem) (output : Bytes) (len_output : Nat) (randomness : Bytes) (message len_message : Nat) (sc : Ctx) :
    (ts_shake256_hash_msg E mem output len_output randomness message len_message sc).res = Model.ts_shake256_hash_msg E mem output len_output randomness message len_message sc := by
  unfold ts_shake256_hash_msg Model.ts_shake256_hash_msg
  simp only [lk]
@[lk] theorem ts_shake256_prf_res (E : Env) (mem : Mem) (output : Bytes) (sc : Ctx) :
    (ts_shake256_prf E mem output sc).res = Model.ts_shake256_prf E mem output sc := by
  unfold ts_shake256_prf Model.ts_shake256_prf
  simp only [lk]
@[lk] theorem ts_shake256_init_t_simple_res (E : Env) (mem : Mem) (t : TIter) (ctx : Ctx) :
    (ts_shake256_init_t_simple E mem t ctx).res = Model.ts_shake256_init_t_simple E mem t ctx := by
  unfold ts_shake256_init_t_simple Model.ts_shake256_init_t_simple
  simp only [lk]
@[lk] theorem ts_shake256_next_t_simple_res (E : Env) (t : TIter) (input : Bytes) (ctx : Ctx) :
    (ts_shake256_next_t_simple E t input ctx).res = Model.ts_shake256_next_t_simple E t input ctx := by
  unfold ts_shake256_next_t_simple Model.ts_shake256_next_t_simple
  simp only [lk]
@[lk] theorem ts_shake256_final_t_simple_res (E : Env) (output : Bytes) (t : TIter) (ctx : Ctx) :
    (ts_shake256_final_t_simple E output t ctx).res = Model.ts_shake256_final_t_simple E output t ctx := by
  unfold ts_shake256_final_t_simple Model.ts_shake256_final_t_simple
  simp only [lk]
@[lk] theorem ts_shake256_f_simple_res (E : Env) (mem : Mem) (output inblock : Bytes) (ctx : Ctx) :
    (ts_shake256_f_simple E mem output inblock ctx).res = Model.ts_shake256_f_simple E mem output inblock ctx := by
  unfold ts_shake256_f_simple Model.ts_shake256_f_simple
  simp only [lk]
@[lk] theorem call_prf_msg_res (E : Env) (mem : Mem) (output opt : Bytes) (message len_message : Nat) (ctx : Ctx) :
    (call_prf_msg E mem output opt message len_message ctx).res = Model.call_prf_msg E mem output opt message len_message ctx := by
  unfold call_prf_msg Model.call_prf_msg
  simp only [lk]
  generalize hq : ctx.ps.prf_msg = q
  cases q <;> simp only [lk]
@[lk] theorem call_hash_msg_res (E : Env) (mem : Mem) (output : Bytes) (len_output : Nat) (randomness : Bytes) (message len_message : Nat) (ctx : Ctx) :
    (call_hash_msg E mem output len_output randomness message len_message ctx).res = Model.call_hash_msg E mem output len_output randomness message len_message ctx := by
  unfold call_hash_msg Model.call_hash_msg
  simp only [lk]
  generalize hq : ctx.ps.hash_msg = q
  cases q <;> simp only [lk]
@[lk] theorem call_prf_res (E : Env) (mem : Mem) (output : Bytes) (ctx : Ctx) :
    (call_prf E mem output ctx).res = Model.call_prf E mem output ctx := by
  unfold call_prf Model.call_prf
  simp only [lk]
  generalize hq : ctx.ps.prf = q
  cases q <;> simp only [lk]
@[lk] theorem call_f_res (E : Env) (mem : Mem) (output inblock : Bytes) (ctx : Ctx) :
    (call_f E mem output inblock ctx).res = Model.call_f E mem output inblock ctx := by
  unfold call_f Model.call_f
  simp only [lk]
  generalize hq : ctx.ps.f = q
  cases q <;> simp only [lk]
@[lk] theorem call_init_t_res (E : Env) (mem : Mem) (t : TIter) (ctx : Ctx) :
    (call_init_t E mem t ctx).res = Model.call_init_t E mem t ctx := by
  unfold call_init_t Model.call_init_t
  simp only [lk]
  generalize hq : ctx.ps.init_t = q
  cases q <;> simp only [lk]
@[lk] theorem call_next_t_res (E : Env) (t : TIter) (input : Bytes) (ctx : Ctx) :
    (call_next_t E t input ctx).res = Model.call_next_t E t input ctx := by
  unfold call_next_t Model.call_next_t
  simp only [lk]
  generalize hq : ctx.ps.next_t = q
  cases q <;> simp only [lk]
@[lk] theorem call_final_t_res (E : Env) (output : Bytes) (t : TIter) (ctx : Ctx) :
    (call_final_t E output t ctx).res = Model.call_final_t E output t ctx := by
  unfold call_final_t Model.call_final_t
  simp only [lk]
  generalize hq : ctx.ps.final_t = q
  cases q <;> simp only [lk]
@[lk] theorem call_prehash_res (E : Env) (mem : Mem) (ctx : Ctx) :
    (call_prehash E mem ctx).res = Model.call_prehash E mem ctx := by
  unfold call_prehash Model.call_prehash
  try simp only [lk]
  repeat' (first | rfl | split | simp only [lk] | simp_all [lk])
@[lk] theorem regGet_res (r : Region) (ctx : Ctx) (i len : Nat) : (regGet r ctx i len).res = r.get ctx i len := rfl
@[lk] theorem regPut_res (r : Region) (ctx : Ctx) (i : Nat) (v : Bytes) : (regPut r ctx i v).res = r.put ctx i v := rfl
@[lk] theorem setForsNode_res (x : Bytes) (k v : Nat) :
    (setForsNode E x k v).res = Model.setForsNode E x k v := by
  unfold setForsNode Model.setForsNode
  simp only [lk]
@[lk] theorem getForsNode_res (x : Bytes) (k : Nat) :
    (getForsNode E x k).res = Model.getForsNode E x k := by
  unfold getForsNode Model.getForsNode
  simp only [lk]
@[lk] theorem extract_int_from_hash_res (hash : Bytes) (hash_offset num_bits : Nat) :
    (extract_int_from_hash hash hash_offset num_bits).res = Model.extract_int_from_hash hash hash_offset num_bits := by
  unfold extract_int_from_hash Model.extract_int_from_hash
  simp only [lk]
@[lk] theorem set_layer_adr_res (E : Env) (layer : Nat) (ctx : Ctx) :
    (set_layer_adr E layer ctx).res = Model.set_layer_adr E layer ctx := by
  unfold set_layer_adr Model.set_layer_adr
  simp only [lk]
@[lk] theorem set_tree_adr_res (E : Env) (tree : Nat) (ctx : Ctx) :
    (set_tree_adr E tree ctx).res = Model.set_tree_adr E tree ctx := by
  unfold set_tree_adr Model.set_tree_adr
  simp only [lk]
@[lk] theorem set_type_adr_res (E : Env) (type : Nat) (ctx : Ctx) :
    (set_type_adr E type ctx).res = Model.set_type_adr E type ctx := by
  unfold set_type_adr Model.set_type_adr
  simp only [lk]
@[lk] theorem set_keypair_adr_res (E : Env) (keypair : Nat) (ctx : Ctx) :
    (set_keypair_adr E keypair ctx).res = Model.set_keypair_adr E keypair ctx := by
  unfold set_keypair_adr Model.set_keypair_adr
  simp only [lk]
@[lk] theorem set_tree_height_adr_res (E : Env) (h : Nat) (ctx : Ctx) :
    (set_tree_height_adr E h ctx).res = Model.set_tree_height_adr E h ctx := by
  unfold set_tree_height_adr Model.set_tree_height_adr
  simp only [lk]
@[lk] theorem set_tree_index_adr_res (E : Env) (i : Nat) (ctx : Ctx) :
    (set_tree_index_adr E i ctx).res = Model.set_tree_index_adr E i ctx := by
  unfold set_tree_index_adr Model.set_tree_index_adr
  simp only [lk]
@[lk] theorem set_fors_prf_adr_res (E : Env) (ctx : Ctx) (leaf_index : Nat) :
    (set_fors_prf_adr E ctx leaf_index).res = Model.set_fors_prf_adr E ctx leaf_index := by
  unfold set_fors_prf_adr Model.set_fors_prf_adr
  simp only [lk]
@[lk] theorem ts_set_fors_leaf_adr_res (E : Env) (ctx : Ctx) (leaf_index : Nat) :
    (ts_set_fors_leaf_adr E ctx leaf_index).res = Model.ts_set_fors_leaf_adr E ctx leaf_index := by
  unfold ts_set_fors_leaf_adr Model.ts_set_fors_leaf_adr
  simp only [lk]
@[lk] theorem set_wots_prf_adr_res (E : Env) (ctx : Ctx) (tree_index leaf_index : Nat) :
    (set_wots_prf_adr E ctx tree_index leaf_index).res = Model.set_wots_prf_adr E ctx tree_index leaf_index := by
  unfold set_wots_prf_adr Model.set_wots_prf_adr
  simp only [lk]
@[lk] theorem ts_set_wots_f_adr_res (E : Env) (ctx : Ctx) (tree_index leaf_index hash_address : Nat) :
    (ts_set_wots_f_adr E ctx tree_index leaf_index hash_address).res = Model.ts_set_wots_f_adr E ctx tree_index leaf_index hash_address := by
  unfold ts_set_wots_f_adr Model.ts_set_wots_f_adr
  simp only [lk]
@[lk] theorem ts_set_merkle_adr_res (E : Env) (ctx : Ctx) (node level typecode : Nat) :
    (ts_set_merkle_adr E ctx node level typecode).res = Model.ts_set_merkle_adr E ctx node level typecode := by
  unfold ts_set_merkle_adr Model.ts_set_merkle_adr
  simp only [lk]
@[lk] theorem ts_set_fors_root_adr_res (E : Env) (ctx : Ctx) :
    (ts_set_fors_root_adr E ctx).res = Model.ts_set_fors_root_adr E ctx := by
  unfold ts_set_fors_root_adr Model.ts_set_fors_root_adr
  simp only [lk]
@[lk] theorem ts_set_wots_header_adr_res (E : Env) (merkle_leaf : Nat) (ctx : Ctx) :
    (ts_set_wots_header_adr E merkle_leaf ctx).res = Model.ts_set_wots_header_adr E merkle_leaf ctx := by
  unfold ts_set_wots_header_adr Model.ts_set_wots_header_adr
  simp only [lk]
@[lk] theorem fors_prf_res (E : Env) (mem : Mem) (output : Bytes) (leaf_index : Nat) (ctx : Ctx) :
    (fors_prf E mem output leaf_index ctx).res = Model.fors_prf E mem output leaf_index ctx := by
  unfold fors_prf Model.fors_prf
  simp only [lk]
@[lk] theorem wots_prf_res (E : Env) (mem : Mem) (output : Bytes) (tree_index digit_index : Nat) (ctx : Ctx) :
    (wots_prf E mem output tree_index digit_index ctx).res = Model.wots_prf E mem output tree_index digit_index ctx := by
  unfold wots_prf Model.wots_prf
  simp only [lk]
@[lk] theorem fors_leaf_res (E : Env) (mem : Mem) (output : Bytes) (leaf_index : Nat) (ctx : Ctx) :
    (fors_leaf E mem output leaf_index ctx).res = Model.fors_leaf E mem output leaf_index ctx := by
  unfold fors_leaf Model.fors_leaf
  simp only [lk]
@[lk] theorem ts_wots_leaf_res (E : Env) (mem : Mem) (output : Bytes) (leaf_index : Nat) (ctx : Ctx) :
    (ts_wots_leaf E mem output leaf_index ctx).res = Model.ts_wots_leaf E mem output leaf_index ctx := by
  unfold ts_wots_leaf Model.ts_wots_leaf
  simp only [lk]
@[lk] theorem combine_res (E : Env) (mem : Mem) (output a b : Bytes) (ctx : Ctx) :
    (combine E mem output a b ctx).res = Model.combine E mem output a b ctx := by
  unfold combine Model.combine
  simp only [lk]
@[lk] theorem pathInner_res (E : Env) (mem : Mem) (stack : Region) (typecode leaf fuel nod k : Nat) (ctx : Ctx) :
    (pathInner E mem stack typecode leaf fuel nod k ctx).res = Model.pathInner E mem stack typecode leaf fuel nod k ctx := by
  induction fuel generalizing nod k ctx with
  | zero => rfl
  | succ fuel ih =>
    unfold pathInner Model.pathInner
    simp only [lk, ih]

@[lk] theorem ts_merkle_path_res (E : Env) (mem : Mem) (gen_leaf : Bytes → Nat → Ctx → L (Bytes × Ctx)) (ctx : Ctx) (typecode : Nat) (stack : Region) :
    (ts_merkle_path E mem gen_leaf ctx typecode stack).res =
      Model.ts_merkle_path E mem (fun b i c => (gen_leaf b i c).res) ctx typecode stack := by
  unfold ts_merkle_path Model.ts_merkle_path
  simp only [lk, ite_bind]

@[lk] theorem nextBit_res (s : Cursor × Nat) :
    (nextBit s).res = Model.nextBit s := by
  unfold nextBit Model.nextBit
  simp only [lk, ite_ok]
@[lk] theorem ts_convert_message_hash_res (ctx : Ctx) (message_hash : Bytes) :
    (ts_convert_message_hash E ctx message_hash).res = Model.ts_convert_message_hash E ctx message_hash := by
  unfold ts_convert_message_hash Model.ts_convert_message_hash
  simp only [lk]
@[lk] theorem askRng_res (opt_buffer : Bytes) (n : Nat) (random_function : Option Rng) :
    (askRng opt_buffer n random_function).res = Model.askRng opt_buffer n random_function := by
  unfold askRng Model.askRng
  try simp only [lk]
  repeat' (first | rfl | split | simp only [lk] | simp_all [lk])
@[lk] theorem fillOptBuffer_res (E : Env) (mem : Mem) (public_key n : Nat) (random_function : Option Rng) :
    (fillOptBuffer E mem public_key n random_function).res = Model.fillOptBuffer E mem public_key n random_function := by
  unfold fillOptBuffer Model.fillOptBuffer
  simp only [lk, ite_bind]
@[lk] theorem ts_init_sign_res (E : Env) (mem : Mem) (ctx : Ctx) (message len_message : Nat) (ps : ParamSet) (private_key : Nat) (random_function : Option Rng) :
    (ts_init_sign E mem ctx message len_message ps private_key random_function).res = Model.ts_init_sign E mem ctx message len_message ps private_key random_function := by
  unfold ts_init_sign Model.ts_init_sign
  simp only [lk]
@[lk] theorem compute_wots_digits_res (digits hash : Bytes) (n : Nat) :
    (compute_wots_digits digits hash n).res = Model.compute_wots_digits digits hash n := by
  unfold compute_wots_digits Model.compute_wots_digits
  simp only [lk]
@[lk] theorem ts_set_up_wots_signature_res (E : Env) (ctx : Ctx) (next_leaf : Nat) :
    (ts_set_up_wots_signature E ctx next_leaf).res = Model.ts_set_up_wots_signature E ctx next_leaf := by
  unfold ts_set_up_wots_signature Model.ts_set_up_wots_signature
  simp only [lk]
@[lk] theorem getWotsDigit_res (E : Env) (ctx : Ctx) (i : Nat) :
    (getWotsDigit E ctx i).res = Model.getWotsDigit E ctx i := by
  unfold getWotsDigit Model.getWotsDigit
  simp only [lk]
@[lk] theorem generate_next_wots_hash_res (E : Env) (mem : Mem) (ctx : Ctx) :
    (generate_next_wots_hash E mem ctx).res = Model.generate_next_wots_hash E mem ctx := by
  unfold generate_next_wots_hash Model.generate_next_wots_hash
  simp only [lk]
@[lk] theorem signForsLeaf_res (E : Env) (mem : Mem) (ctx : Ctx) :
    (signForsLeaf E mem ctx).res = Model.signForsLeaf E mem ctx := by
  unfold signForsLeaf Model.signForsLeaf
  simp only [lk]
@[lk] theorem signFors_res (E : Env) (mem : Mem) (ctx : Ctx) :
    (signFors E mem ctx).res = Model.signFors E mem ctx := by
  unfold signFors Model.signFors
  simp only [lk]
@[lk] theorem signWots_res (E : Env) (mem : Mem) (ctx : Ctx) :
    (signWots E mem ctx).res = Model.signWots E mem ctx := by
  unfold signWots Model.signWots
  simp only [lk]
@[lk] theorem signMerkle_res (E : Env) (mem : Mem) (ctx : Ctx) :
    (signMerkle E mem ctx).res = Model.signMerkle E mem ctx := by
  unfold signMerkle Model.signMerkle
  simp only [lk]
@[lk] theorem signStep_res (E : Env) (mem : Mem) (ctx : Ctx) :
    (signStep E mem ctx).res = Model.signStep E mem ctx := by
  unfold signStep Model.signStep
  simp only [lk]
  generalize hq : ctx.state = q
  cases q <;> simp only [lk]
@[lk] theorem signLoop_res (E : Env) (mem : Mem) (fuel : Nat) (dest : Bytes) (off m : Nat) (ctx : Ctx) :
    (signLoop E mem fuel dest off m ctx).res = Model.signLoop E mem fuel dest off m ctx := by
  induction fuel generalizing dest off m ctx with
  | zero => rfl
  | succ fuel ih =>
    unfold signLoop Model.signLoop
    simp only [lk, ih, ite_ok]
    split
    · rfl
    · split
      · rfl
      · congr 1
        funext o
        cases o
        · rfl
        · exact ih _ _ _ _

@[lk] theorem ts_sign_res (E : Env) (mem : Mem) (dest : Bytes) (m : Nat) (ctx : Ctx) :
    (ts_sign E mem dest m ctx).res = Model.ts_sign E mem dest m ctx := by
  unfold ts_sign Model.ts_sign
  simp only [lk]
@[lk] theorem gen_root_res (E : Env) (mem : Mem) (ps : ParamSet) (pub : Nat) :
    (gen_root E mem ps pub).res = Model.gen_root E mem ps pub := by
  unfold gen_root Model.gen_root
  simp only [lk]
@[lk] theorem copy_public_res (mem : Mem) (public_key : Option Nat) (pub n : Nat) :
    (copy_public mem public_key pub n).res = Model.copy_public mem public_key pub n := by
  unfold copy_public Model.copy_public
  try simp only [lk]
  repeat' (first | rfl | split | simp only [lk] | simp_all [lk])
@[lk] theorem ts_gen_key_res (E : Env) (mem : Mem) (private_key public_key : Option Nat) (ps : Option ParamSet) (random_function : Option Rng) :
    (ts_gen_key E mem private_key public_key ps random_function).res = Model.ts_gen_key E mem private_key public_key ps random_function := by
  unfold ts_gen_key Model.ts_gen_key
  try simp only [lk]
  repeat' (first | rfl | split | simp only [lk] | simp_all [lk])

end Leak
