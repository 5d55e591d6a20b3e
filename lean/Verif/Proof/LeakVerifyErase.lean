import Verif.Model.LeakVerify
import Verif.Proof.LeakErase
/-!
# The leakage copies of verify.c compute what the model computes
-/
namespace Leak
open Model

theorem C_ok_bind (a : α) (f : α → C β) : ((.ok a : C α) >>= f) = f a := rfl

@[lk] theorem my_memcmp_res (mem : Mem) (a : Nat) (b : Bytes) (off n : Nat) :
    (my_memcmp mem a b off n).res = Model.my_memcmp mem a b off n := by
  induction n generalizing a off with
  | zero => unfold my_memcmp Model.my_memcmp; simp only [lk]
  | succ n ih =>
    unfold my_memcmp Model.my_memcmp
    simp only [lk, ih]
@[lk] theorem ts_init_verify_res (E : Env) (mem : Mem) (ctx : Ctx) (message len : Nat) (ps : ParamSet) (pk : Nat) :
    (ts_init_verify E mem ctx message len ps pk).res = Model.ts_init_verify E mem ctx message len ps pk := by
  unfold ts_init_verify Model.ts_init_verify
  simp only [lk]
@[lk] theorem next_auth_path_res (E : Env) (mem : Mem) (ctx : Ctx) (ty : Nat) :
    (next_auth_path E mem ctx ty).res = Model.next_auth_path E mem ctx ty := by
  unfold next_auth_path Model.next_auth_path
  simp only [lk, ite_bind]
@[lk] theorem set_up_wots_verify_signature_res (E : Env) (mem : Mem) (ctx : Ctx) (l : Nat) :
    (set_up_wots_verify_signature E mem ctx l).res = Model.set_up_wots_verify_signature E mem ctx l := by
  unfold set_up_wots_verify_signature Model.set_up_wots_verify_signature
  simp only [lk]
@[lk] theorem verInit_res (E : Env) (mem : Mem) (ctx : Ctx) :
    (verInit E mem ctx).res = Model.verInit E mem ctx := by
  unfold verInit Model.verInit
  simp only [lk]
@[lk] theorem verForsLeaf_res (E : Env) (mem : Mem) (ctx : Ctx) :
    (verForsLeaf E mem ctx).res = Model.verForsLeaf E mem ctx := by
  unfold verForsLeaf Model.verForsLeaf
  simp only [lk]
@[lk] theorem verFors_res (E : Env) (mem : Mem) (ctx : Ctx) :
    (verFors E mem ctx).res = Model.verFors E mem ctx := by
  unfold verFors Model.verFors
  simp only [lk]
@[lk] theorem verWots_res (E : Env) (mem : Mem) (ctx : Ctx) :
    (verWots E mem ctx).res = Model.verWots E mem ctx := by
  unfold verWots Model.verWots
  simp only [lk]
@[lk] theorem verMerkle_res (E : Env) (mem : Mem) (m : Nat) (ctx : Ctx) :
    (verMerkle E mem m ctx).res = Model.verMerkle E mem m ctx := by
  unfold verMerkle Model.verMerkle
  simp only [lk, ite_bind, bind_assoc, C_ok_bind]
@[lk] theorem verStep_res (E : Env) (mem : Mem) (m : Nat) (ctx : Ctx) :
    (verStep E mem m ctx).res = Model.verStep E mem m ctx := by
  unfold verStep Model.verStep
  simp only [lk]
  generalize hq : ctx.state = q
  cases q <;> simp only [lk]
@[lk] theorem verLoop_res (E : Env) (mem : Mem) (fuel : Nat) (sig : Bytes) (ctx : Ctx) :
    (verLoop E mem fuel sig ctx).res = Model.verLoop E mem fuel sig ctx := by
  induction fuel generalizing sig ctx with
  | zero => rfl
  | succ fuel ih =>
    unfold verLoop Model.verLoop
    simp only [lk, ite_ok]
    generalize (if usub ctx.ps.n ctx.buffer_offset > sig.length then sig.length else usub ctx.ps.n ctx.buffer_offset) = r
    congr 1
    funext a
    congr 1
    funext b
    split
    · rfl
    · congr 1
      funext o
      obtain ⟨o, c⟩ := o
      cases o
      · exact ih _ _
      · rfl
@[lk] theorem ts_update_verify_res (E : Env) (mem : Mem) (sig : Bytes) (ctx : Ctx) :
    (ts_update_verify E mem sig ctx).res = Model.ts_update_verify E mem sig ctx := by
  unfold ts_update_verify Model.ts_update_verify
  simp only [lk]
@[lk] theorem updateCalls_res (E : Env) (mem : Mem) (c : Ctx) (ts : List Bytes) :
    (updateCalls E mem c ts).res = Model.updateCalls E mem c ts := by
  induction ts generalizing c with
  | nil => rfl
  | cons t ts ih =>
    unfold updateCalls Model.updateCalls
    simp only [lk, ih]
end Leak
