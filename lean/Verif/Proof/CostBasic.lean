import Verif.Proof.LeakErase
import Verif.Spec.Cost
/-!
# Counting the calls of the hash functions
-/
namespace Leak
open Model

theorem calls_append (f : Fn) (a b : List Ev) : calls f (a ++ b) = calls f a + calls f b := List.countP_append

theorem calls_nil (f : Fn) : calls f [] = 0 := rfl

/-- The computation calls none of the hash functions. -/
def Free (x : L α) : Prop := ∀ f, calls f x.log = 0

theorem log_bind (x : L α) (g : α → L β) : (x >>= g).log = x.log ++ (match x.res with | .ok a => (g a).log | .error _ => []) := by
  show (L.bind x g).log = _
  unfold L.bind
  cases x.res with
  | ok a => rfl
  | error e => exact (List.append_nil _).symm

theorem free_bind {x : L α} {g : α → L β} (hx : Free x) (hg : ∀ a, Free (g a)) : Free (x >>= g) := by
  intro f
  rw [log_bind, calls_append, hx f]
  cases x.res with
  | ok a => rw [hg a f]
  | error e => rfl

theorem free_bind' {x : L α} {g : α → L β} (hx : Free x) (hg : ∀ a, x.res = .ok a → Free (g a)) : Free (x >>= g) := by
  intro f
  rw [log_bind, calls_append, hx f]
  cases h : x.res with
  | ok a => rw [hg a h f]
  | error e => rfl

theorem free_branch {c : Prop} [Decidable c] {a b : L α} (ha : Free a) (hb : Free b) : Free (branch c a b) := by
  intro f
  unfold branch
  by_cases h : c
  · simp only [if_pos h]; exact ha f
  · simp only [if_neg h]; exact hb f

theorem free_ite {c : Prop} [Decidable c] {a b : L α} (ha : Free a) (hb : Free b) : Free (if c then a else b) := by
  by_cases h : c
  · simp only [if_pos h]; exact ha
  · simp only [if_neg h]; exact hb

theorem free_loop {body : Nat → σ → L σ} (hb : ∀ i s, Free (body i s)) (c i : Nat) (s : σ) : Free (loop body c i s) := by
  induction c generalizing i s with
  | zero => intro f; rfl
  | succ c ih =>
    unfold loop
    exact free_bind (fun _ => rfl) fun _ => free_bind (hb _ _) fun _ => ih _ _

theorem free_prim {evs : List Ev} {r : C α} (h : ∀ f, calls f evs = 0) : Free (prim evs r) := h

theorem free_permuting {p : Prim} {n : Nat} {a : L α} (h : Free a) : Free (permuting p n a) := fun f => h f

theorem free_frame {g : CFn} {a : L α} (h : Free a) : Free (frame g a) := fun f => by
  show calls f (Ev.enter g :: (a.log ++ [.leave g])) = 0
  have e : calls f (Ev.enter g :: (a.log ++ [.leave g])) = calls f (a.log ++ [.leave g]) := rfl
  rw [e, calls_append, h f]; rfl

theorem free_select {n : Nat} {a : L α} (h : Free a) : Free (select n a) := fun f => h f

@[fr] theorem free_ok (a : α) : Free (L.ok a) := fun _ => rfl
@[fr] theorem free_pure (a : α) : Free (pure a : L α) := fun _ => rfl
@[fr] theorem free_error (e : Fault) : Free (L.error e : L α) := fun _ => rfl
@[fr] theorem free_rd (a : List α) (i : Nat) : Free (rd a i) := fun _ => rfl
@[fr] theorem free_wr (a : List α) (i : Nat) (v : α) : Free (wr a i v) := fun _ => rfl
@[fr] theorem free_rdSlice (a : List α) (i n : Nat) : Free (rdSlice a i n) := fun _ => rfl
@[fr] theorem free_wrSlice (a : List α) (i : Nat) (v : List α) : Free (wrSlice a i v) := fun _ => rfl
@[fr] theorem free_shlInt (a s : Nat) : Free (shlInt a s) := fun _ => rfl
@[fr] theorem free_shrU32 (a s : Nat) : Free (shrU32 a s) := fun _ => rfl
@[fr] theorem free_addInt (a s : Nat) : Free (addInt a s) := fun _ => rfl
@[fr] theorem free_asInt (a : Nat) : Free (asInt a) := fun _ => rfl
@[fr] theorem free_ptrSub (a s : Nat) : Free (ptrSub a s) := fun _ => rfl
@[fr] theorem free_memRead (m : Mem) (a n : Nat) : Free (memRead m a n) := fun _ => rfl
@[fr] theorem free_memWrite (m : Mem) (a : Nat) (v : Bytes) : Free (memWrite m a v) := fun _ => rfl
@[fr] theorem free_br (b : Bool) : Free (tick (.br b)) := fun _ => rfl
@[fr] theorem free_rng (n : Nat) (b : Bool) : Free (tick (.rng n b)) := fun _ => rfl

/-- Proves `Free` of a composition. -/
macro "free" : tactic => `(tactic| repeat' (first
  | solve | simp only [fr]
  | with_reducible refine free_bind ?_ fun _ => ?_
  | with_reducible refine free_branch ?_ ?_
  | with_reducible refine free_ite ?_ ?_
  | with_reducible refine free_loop (fun _ _ => ?_) _ _ _
  | with_reducible refine free_permuting ?_
  | with_reducible refine free_select ?_
  | with_reducible refine free_frame ?_
  | split))

@[fr] theorem free_lmin (a b : Nat) : Free (lmin a b) := by unfold lmin; free
@[fr] theorem free_bytes_to_ull (p : Bytes) (off n : Nat) : Free (ts_bytes_to_ull p off n) := by unfold ts_bytes_to_ull; free
@[fr] theorem free_ull_to_bytes (p : Bytes) (off v n : Nat) : Free (ts_ull_to_bytes p off v n) := by
  induction n generalizing p v with
  | zero => unfold ts_ull_to_bytes; free
  | succ n ih => unfold ts_ull_to_bytes; free; exact ih _ _

namespace Sha256
@[fr] theorem free_sched (i : Nat) (W : List UInt32) : Free (sched i W) := by unfold sched; free
@[fr] theorem free_rnd (i : Nat) (s : List UInt32 × Spec.V8 UInt32) : Free (rnd i s) := by unfold rnd; free
@[fr] theorem free_compress (c : Model.Sha256.Ctx) (b : Bytes) : Free (compress c b) := by unfold compress; free
@[fr] theorem free_updateLoop (fuel : Nat) (c : Model.Sha256.Ctx) (p : Bytes) : Free (updateLoop fuel c p) := by
  induction fuel generalizing c p with
  | zero => unfold updateLoop; free
  | succ fuel ih => unfold updateLoop; free <;> exact ih _ _
@[fr] theorem free_update (c : Model.Sha256.Ctx) (p : Bytes) : Free (update c p) := by unfold update; free
@[fr] theorem free_final_trunc (d : Bytes) (c : Model.Sha256.Ctx) (n : Nat) : Free (final_trunc d c n) := by unfold final_trunc; free
@[fr] theorem free_final (d : Bytes) (c : Model.Sha256.Ctx) : Free (final d c) := by unfold final; free
end Sha256

namespace Sha512
@[fr] theorem free_sched (i : Nat) (W : List UInt64) : Free (sched i W) := by unfold sched; free
@[fr] theorem free_rnd (i : Nat) (s : List UInt64 × Spec.V8 UInt64) : Free (rnd i s) := by unfold rnd; free
@[fr] theorem free_compress (c : Model.Sha512.Ctx) (b : Bytes) : Free (compress c b) := by unfold compress; free
@[fr] theorem free_updateLoop (fuel : Nat) (c : Model.Sha512.Ctx) (p : Bytes) : Free (updateLoop fuel c p) := by
  induction fuel generalizing c p with
  | zero => unfold updateLoop; free
  | succ fuel ih => unfold updateLoop; free <;> exact ih _ _
@[fr] theorem free_update (c : Model.Sha512.Ctx) (p : Bytes) : Free (update c p) := by unfold update; free
@[fr] theorem free_final_trunc (d : Bytes) (c : Model.Sha512.Ctx) (n : Nat) : Free (final_trunc d c n) := by unfold final_trunc; free
@[fr] theorem free_final (d : Bytes) (c : Model.Sha512.Ctx) : Free (final d c) := by unfold final; free
end Sha512

@[fr] theorem free_shift (s : Nat) : Free (tick (.shift s)) := fun _ => rfl

namespace Shake
@[fr] theorem free_load (s : List UInt64) : Free (load s) := by unfold load; free
@[fr] theorem free_store (s : List UInt64) (A : Model.Shake.Lanes) : Free (store s A) := by unfold store; free
@[fr] theorem free_permute0 (s : List UInt64) : Free (permute0 s) := by unfold permute0; free
@[fr] theorem free_permute1 (s : List UInt64) : Free (permute1 s) := by unfold permute1; free
@[fr] theorem free_theta2 (s b : List UInt64) : Free (theta2 s b) := by unfold theta2; free
@[fr] theorem free_rhopiStep (i : Nat) (s : List UInt64 × List UInt64 × UInt64) : Free (rhopiStep i s) := by unfold rhopiStep; free
@[fr] theorem free_rhopi2 (s b : List UInt64) : Free (rhopi2 s b) := by unfold rhopi2; free
@[fr] theorem free_chiRow (i : Nat) (s : List UInt64 × List UInt64) : Free (chiRow i s) := by unfold chiRow; free
@[fr] theorem free_chi2 (s b : List UInt64) : Free (chi2 s b) := by unfold chi2; free
@[fr] theorem free_round2 (i : Nat) (s : List UInt64 × List UInt64) : Free (round2 i s) := by unfold round2; free
@[fr] theorem free_permute2 (b s : List UInt64) : Free (permute2 b s) := by unfold permute2; free
@[fr] theorem free_permute (o : Nat) (s : List UInt64) : Free (permute o s) := by unfold permute; free
@[fr] theorem free_inc_init (s : Model.Shake.Ctx) : Free (inc_init s) := by unfold inc_init; free
@[fr] theorem free_xorByte (s : Model.Shake.Ctx) (p : Nat) (b : UInt8) : Free (xorByte s p b) := by unfold xorByte; free
@[fr] theorem free_absorbLoop (o fuel : Nat) (s : Model.Shake.Ctx) (m : Bytes) : Free (absorbLoop o fuel s m) := by
  induction fuel generalizing s m with
  | zero => unfold absorbLoop; free
  | succ fuel ih => unfold absorbLoop; free; exact ih _ _
@[fr] theorem free_inc_absorb (o : Nat) (s : Model.Shake.Ctx) (m : Bytes) : Free (inc_absorb o s m) := by unfold inc_absorb; free
@[fr] theorem free_inc_finalize (s : Model.Shake.Ctx) : Free (inc_finalize s) := by unfold inc_finalize; free
@[fr] theorem free_getByte (s : Model.Shake.Ctx) (p : Nat) : Free (getByte s p) := by unfold getByte; free
@[fr] theorem free_squeezeLoop (o fuel : Nat) (h : Bytes) (off l : Nat) (s : Model.Shake.Ctx) : Free (squeezeLoop o fuel h off l s) := by
  induction fuel generalizing h off l s with
  | zero => unfold squeezeLoop; free
  | succ fuel ih => unfold squeezeLoop; free; exact ih _ _ _ _
@[fr] theorem free_inc_squeeze (o : Nat) (h : Bytes) (off l : Nat) (s : Model.Shake.Ctx) : Free (inc_squeeze o h off l s) := by
  unfold inc_squeeze; free
end Shake

end Leak
