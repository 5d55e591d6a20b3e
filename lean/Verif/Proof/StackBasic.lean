import Verif.Proof.LeakErase
import Verif.Proof.LeakVerifyErase
import Verif.Spec.Stack
import Verif.Model.Stack
/-!
# Calls and returns: a logic for the nesting of calls
-/
namespace Leak
open Model Spec.Stack Model.Stack

/-- Whether a call of `h` is allowed when `σ` are the running functions. -/
def allowed (R : List CFn) (G : CFn → List CFn) : List CFn → CFn → Bool
  | [], h => h ∈ R
  | g :: _, h => h ∈ G g

/-- The running functions after some events, if all calls are allowed by the call graph and functions are left in the reverse order. -/
def walk (R : List CFn) (G : CFn → List CFn) : List CFn → List Ev → Option (List CFn)
  | σ, [] => some σ
  | σ, .enter h :: l => if allowed R G σ h then walk R G (h :: σ) l else none
  | σ, .leave h :: l => if σ.head? = some h then walk R G σ.tail l else none
  | σ, .br _ :: l => walk R G σ l
  | σ, .at _ :: l => walk R G σ l
  | σ, .blk _ _ :: l => walk R G σ l
  | σ, .mem _ _ :: l => walk R G σ l
  | σ, .shift _ :: l => walk R G σ l
  | σ, .sel _ :: l => walk R G σ l
  | σ, .call _ _ :: l => walk R G σ l
  | σ, .perm _ _ :: l => walk R G σ l
  | σ, .rng _ _ :: l => walk R G σ l

theorem walk_append (R : List CFn) (G : CFn → List CFn) (σ : List CFn) (a b : List Ev) : walk R G σ (a ++ b) = (walk R G σ a).bind fun τ => walk R G τ b := by
  induction a generalizing σ with
  | nil => rfl
  | cons e a ih =>
    cases e <;> simp only [List.cons_append, walk] <;> first | exact ih _ | (split <;> first | exact ih _ | rfl)

theorem walk_active (R : List CFn) (G : CFn → List CFn) (σ τ : List CFn) (l : List Ev) (h : walk R G σ l = some τ) : l.foldl step σ = τ := by
  induction l generalizing σ with
  | nil => cases h; rfl
  | cons e l ih =>
    cases e <;> simp only [walk] at h <;> first | exact ih _ h | (split at h <;> first | exact ih _ h | cases h)

theorem chain_cons {R : List CFn} {G : CFn → List CFn} {σ : List CFn} {h : CFn} (ha : allowed R G σ h = true) (hc : Chain R G σ) : Chain R G (h :: σ) := by
  cases σ with
  | nil => exact (of_decide_eq_true ha : h ∈ R)
  | cons g σ => exact ⟨of_decide_eq_true ha, hc⟩

theorem chain_tail {R : List CFn} {G : CFn → List CFn} {σ : List CFn} (hc : Chain R G σ) : Chain R G σ.tail := by
  match σ, hc with
  | [], hc => exact hc
  | [_], _ => trivial
  | _ :: _ :: _, hc => exact hc.2

theorem walk_chain (R : List CFn) (G : CFn → List CFn) (σ τ : List CFn) (l : List Ev) (h : walk R G σ l = some τ) (hc : Chain R G σ) : Chain R G τ := by
  induction l generalizing σ with
  | nil => cases h; exact hc
  | cons e l ih =>
    cases e <;> simp only [walk] at h
    case enter =>
      split at h
      · rename_i ha; exact ih _ h (chain_cons ha hc)
      · cases h
    case leave =>
      split at h
      · exact ih _ h (chain_tail hc)
      · cases h
    all_goals exact ih _ h hc

/-- While `x` runs in a call of `g`, all calls follow the graph and are finished in order; the result satisfies `Q`. -/
def Nest (G : CFn → List CFn) (g : CFn) (x : L α) (Q : α → Prop) : Prop :=
  (∀ R σ, walk R G (g :: σ) x.log = some (g :: σ)) ∧ ∀ a, x.res = .ok a → Q a

variable {G : CFn → List CFn} {g : CFn}

theorem nest_mono {x : L α} {P Q : α → Prop} (h : Nest G g x P) (hpq : ∀ a, P a → Q a) : Nest G g x Q := ⟨h.1, fun a e => hpq _ (h.2 a e)⟩

theorem nest_ok {a : α} {Q : α → Prop} (h : Q a) : Nest G g (L.ok a) Q := ⟨fun _ _ => rfl, fun b e => by cases e; exact h⟩

theorem nest_error {e : Fault} {Q : α → Prop} : Nest G g (L.error e) Q := ⟨fun _ _ => rfl, fun b e => by cases e⟩

theorem nest_log_bind (x : L α) (f : α → L β) : (x >>= f).log = x.log ++ (match x.res with | .ok a => (f a).log | .error _ => []) := by
  show (L.bind x f).log = _
  unfold L.bind
  cases x.res with
  | ok a => rfl
  | error e => exact (List.append_nil _).symm

theorem nest_res_bind {x : L α} {f : α → L β} {b : β} (h : (x >>= f).res = .ok b) : ∃ a, x.res = .ok a ∧ (f a).res = .ok b := by
  rw [res_bind] at h
  cases hx : x.res with
  | error e => rw [hx] at h; cases h
  | ok a => rw [hx] at h; exact ⟨a, rfl, h⟩

theorem nest_bind {x : L α} {f : α → L β} {P : α → Prop} {Q : β → Prop} (hx : Nest G g x P) (hf : ∀ a, P a → Nest G g (f a) Q) : Nest G g (x >>= f) Q := by
  refine ⟨fun R σ => ?_, fun b e => ?_⟩
  · rw [nest_log_bind, walk_append, hx.1 R σ]
    show walk R G (g :: σ) _ = _
    cases h : x.res with
    | ok a => exact (hf a (hx.2 a h)).1 R σ
    | error e => rfl
  · obtain ⟨a, ha, hb⟩ := nest_res_bind e
    exact (hf a (hx.2 a ha)).2 b hb

theorem nest_branch {c : Prop} [Decidable c] {a b : L α} {Q : α → Prop} (ha : Nest G g a Q) (hb : Nest G g b Q) : Nest G g (branch c a b) Q := by
  unfold branch
  by_cases h : c
  · simp only [if_pos h]; exact ⟨fun R σ => ha.1 R σ, ha.2⟩
  · simp only [if_neg h]; exact ⟨fun R σ => hb.1 R σ, hb.2⟩

theorem nest_ite {c : Prop} [Decidable c] {a b : L α} {Q : α → Prop} (ha : Nest G g a Q) (hb : Nest G g b Q) : Nest G g (if c then a else b) Q := by
  by_cases h : c
  · simp only [if_pos h]; exact ha
  · simp only [if_neg h]; exact hb

theorem nest_calling {f : Fn} {n : Nat} {a : L α} {Q : α → Prop} (h : Nest G g a Q) : Nest G g (calling f n a) Q := ⟨fun R σ => h.1 R σ, h.2⟩
theorem nest_permuting {f : Prim} {n : Nat} {a : L α} {Q : α → Prop} (h : Nest G g a Q) : Nest G g (permuting f n a) Q := ⟨fun R σ => h.1 R σ, h.2⟩
theorem nest_select {n : Nat} {a : L α} {Q : α → Prop} (h : Nest G g a Q) : Nest G g (select n a) Q := ⟨fun R σ => h.1 R σ, h.2⟩

theorem nest_frame {h : CFn} {a : L α} {Q : α → Prop} (hm : h ∈ G g) (ha : Nest G h a Q) : Nest G g (frame h a) Q := by
  refine ⟨fun R σ => ?_, ha.2⟩
  show walk R G (g :: σ) (.enter h :: (a.log ++ [.leave h])) = _
  rw [walk, if_pos (show allowed R G (g :: σ) h = true from decide_eq_true hm), walk_append, ha.1 R (g :: σ)]
  show walk R G (h :: g :: σ) [.leave h] = _
  rw [walk, if_pos (show (h :: g :: σ).head? = some h from rfl)]
  rfl

theorem nest_loop {body : Nat → σ → L σ} {I : σ → Prop} {c i : Nat} {s : σ} (hb : ∀ i s, I s → Nest G g (body i s) I) (h : I s) :
    Nest G g (loop body c i s) I := by
  induction c generalizing i s with
  | zero => exact ⟨fun _ _ => rfl, fun b e => by cases e; exact h⟩
  | succ c ih =>
    unfold loop
    exact nest_bind (P := fun _ => True) ⟨fun _ _ => rfl, fun _ _ => trivial⟩ fun _ _ => nest_bind (hb _ _ h) fun a ha => ih ha

/-- All calls of `x`, made by a program outside the library, are of functions in `R`, follow the graph and are finished in order. -/
def Outer (R : List CFn) (G : CFn → List CFn) (x : L α) (Q : α → Prop) : Prop :=
  walk R G [] x.log = some [] ∧ ∀ a, x.res = .ok a → Q a

theorem outer_ok {R : List CFn} {G : CFn → List CFn} {a : α} {Q : α → Prop} (h : Q a) : Outer R G (L.ok a) Q := ⟨rfl, fun b e => by cases e; exact h⟩

theorem outer_bind {R : List CFn} {G : CFn → List CFn} {x : L α} {f : α → L β} {P : α → Prop} {Q : β → Prop} (hx : Outer R G x P)
    (hf : ∀ a, P a → Outer R G (f a) Q) : Outer R G (x >>= f) Q := by
  refine ⟨?_, fun b e => ?_⟩
  · rw [nest_log_bind, walk_append, hx.1]
    show walk R G [] _ = _
    cases h : x.res with
    | ok a => exact (hf a (hx.2 a h)).1
    | error e => rfl
  · obtain ⟨a, ha, hb⟩ := nest_res_bind e
    exact (hf a (hx.2 a ha)).2 b hb

theorem outer_frame {R : List CFn} {G : CFn → List CFn} {h : CFn} {a : L α} {Q : α → Prop} (hm : h ∈ R) (ha : Nest G h a Q) : Outer R G (frame h a) Q := by
  refine ⟨?_, ha.2⟩
  show walk R G [] (.enter h :: (a.log ++ [.leave h])) = _
  rw [walk, if_pos (show allowed R G [] h = true from decide_eq_true hm), walk_append, ha.1 R []]
  show walk R G [h] [.leave h] = _
  rw [walk, if_pos (show ([h] : List CFn).head? = some h from rfl)]
  rfl

/-- Computations without calls. -/
def Quiet (x : L α) : Prop := ∀ R G σ, walk R G σ x.log = some σ

theorem nest_quiet {x : L α} (h : Quiet x) : Nest G g x fun _ => True := ⟨fun R σ => h R G (g :: σ), fun _ _ => trivial⟩

theorem quiet_bind {x : L α} {f : α → L β} (hx : Quiet x) (hf : ∀ a, Quiet (f a)) : Quiet (x >>= f) := by
  intro R G σ
  rw [nest_log_bind, walk_append, hx R G σ]
  show walk R G σ _ = _
  cases x.res with
  | ok a => exact hf a R G σ
  | error e => rfl

theorem quiet_branch {c : Prop} [Decidable c] {a b : L α} (ha : Quiet a) (hb : Quiet b) : Quiet (branch c a b) := by
  intro R G σ
  unfold branch
  by_cases h : c
  · simp only [if_pos h]; exact ha R G σ
  · simp only [if_neg h]; exact hb R G σ

theorem quiet_ite {c : Prop} [Decidable c] {a b : L α} (ha : Quiet a) (hb : Quiet b) : Quiet (if c then a else b) := by
  by_cases h : c
  · simp only [if_pos h]; exact ha
  · simp only [if_neg h]; exact hb

theorem quiet_loop {body : Nat → σ → L σ} (hb : ∀ i s, Quiet (body i s)) (c i : Nat) (s : σ) : Quiet (loop body c i s) := by
  induction c generalizing i s with
  | zero => intro R G σ; rfl
  | succ c ih =>
    unfold loop
    exact quiet_bind (fun _ _ _ => rfl) fun _ => quiet_bind (hb _ _) fun _ => ih _ _

@[qt] theorem quiet_ok (a : α) : Quiet (L.ok a) := fun _ _ _ => rfl
@[qt] theorem quiet_error (e : Fault) : Quiet (L.error e : L α) := fun _ _ _ => rfl
@[qt] theorem quiet_rd (a : List α) (i : Nat) : Quiet (rd a i) := fun _ _ _ => rfl
@[qt] theorem quiet_wr (a : List α) (i : Nat) (v : α) : Quiet (wr a i v) := fun _ _ _ => rfl
@[qt] theorem quiet_rdSlice (a : List α) (i n : Nat) : Quiet (rdSlice a i n) := fun _ _ _ => rfl
@[qt] theorem quiet_wrSlice (a : List α) (i : Nat) (v : List α) : Quiet (wrSlice a i v) := fun _ _ _ => rfl
@[qt] theorem quiet_shlInt (a s : Nat) : Quiet (shlInt a s) := fun _ _ _ => rfl
@[qt] theorem quiet_shrU32 (a s : Nat) : Quiet (shrU32 a s) := fun _ _ _ => rfl
@[qt] theorem quiet_addInt (a s : Nat) : Quiet (addInt a s) := fun _ _ _ => rfl
@[qt] theorem quiet_asInt (a : Nat) : Quiet (asInt a) := fun _ _ _ => rfl
@[qt] theorem quiet_ptrSub (a s : Nat) : Quiet (ptrSub a s) := fun _ _ _ => rfl
@[qt] theorem quiet_memRead (m : Mem) (a n : Nat) : Quiet (memRead m a n) := fun _ _ _ => rfl
@[qt] theorem quiet_memWrite (m : Mem) (a : Nat) (v : Bytes) : Quiet (memWrite m a v) := fun _ _ _ => rfl
@[qt] theorem quiet_br (b : Bool) : Quiet (tick (.br b)) := fun _ _ _ => rfl
@[qt] theorem quiet_rng (n : Nat) (b : Bool) : Quiet (tick (.rng n b)) := fun _ _ _ => rfl
@[qt] theorem quiet_shift (s : Nat) : Quiet (tick (.shift s)) := fun _ _ _ => rfl
@[qt] theorem quiet_primShift (s : Nat) (r : C α) : Quiet (prim [.shift s] r) := fun _ _ _ => rfl
@[qt] theorem quiet_regGet (r : Region) (ctx : Ctx) (i len : Nat) : Quiet (regGet r ctx i len) := fun _ _ _ => rfl
@[qt] theorem quiet_regPut (r : Region) (ctx : Ctx) (i : Nat) (v : Bytes) : Quiet (regPut r ctx i v) := fun _ _ _ => rfl
@[qt] theorem quiet_getForsNode (E : Env) (x : Bytes) (k : Nat) : Quiet (getForsNode E x k) := fun _ _ _ => rfl
@[qt] theorem quiet_setForsNode (E : Env) (x : Bytes) (k v : Nat) : Quiet (setForsNode E x k v) := fun _ _ _ => rfl
@[qt] theorem quiet_getWotsDigit (E : Env) (c : Ctx) (i : Nat) : Quiet (getWotsDigit E c i) := fun _ _ _ => rfl

/-- Proves `Quiet` of a composition. -/
macro "quiet" : tactic => `(tactic| repeat' (first
  | solve | simp only [qt]
  | with_reducible refine quiet_bind ?_ fun _ => ?_
  | with_reducible refine quiet_branch ?_ ?_
  | with_reducible refine quiet_ite ?_ ?_
  | with_reducible refine quiet_loop (fun _ _ => ?_) _ _ _
  | split))

@[qt] theorem quiet_secSeed (mem : Mem) (pk n : Nat) : Quiet (secSeed mem pk n) := by unfold secSeed; quiet
@[qt] theorem quiet_secPrf (mem : Mem) (pk n : Nat) : Quiet (secPrf mem pk n) := by unfold secPrf; quiet
@[qt] theorem quiet_pubSeed (mem : Mem) (pk n : Nat) : Quiet (pubSeed mem pk n) := by unfold pubSeed; quiet
@[qt] theorem quiet_pubRoot (mem : Mem) (pk n : Nat) : Quiet (pubRoot mem pk n) := by unfold pubRoot; quiet
@[qt] theorem quiet_lmin (a b : Nat) : Quiet (lmin a b) := by unfold lmin; quiet
@[qt] theorem quiet_bytes_to_ull (p : Bytes) (off n : Nat) : Quiet (ts_bytes_to_ull p off n) := by unfold ts_bytes_to_ull; quiet
@[qt] theorem quiet_ull_to_bytes (p : Bytes) (off v n : Nat) : Quiet (ts_ull_to_bytes p off v n) := by
  induction n generalizing p v with
  | zero => unfold ts_ull_to_bytes; quiet
  | succ n ih => unfold ts_ull_to_bytes; quiet; exact ih _ _
@[qt] theorem quiet_hmacBlock (block key : Bytes) (pad : UInt8) (n : Nat) : Quiet (hmacBlock block key pad n) := by unfold hmacBlock; quiet

namespace Sha256
@[qt] theorem quiet_sched (i : Nat) (W : List UInt32) : Quiet (sched i W) := by unfold sched; quiet
@[qt] theorem quiet_rnd (i : Nat) (s : List UInt32 × Spec.V8 UInt32) : Quiet (rnd i s) := by unfold rnd; quiet
end Sha256
namespace Sha512
@[qt] theorem quiet_sched (i : Nat) (W : List UInt64) : Quiet (sched i W) := by unfold sched; quiet
@[qt] theorem quiet_rnd (i : Nat) (s : List UInt64 × Spec.V8 UInt64) : Quiet (rnd i s) := by unfold rnd; quiet
end Sha512
namespace Shake
@[qt] theorem quiet_load (s : List UInt64) : Quiet (load s) := by unfold load; quiet
@[qt] theorem quiet_store (s : List UInt64) (A : Model.Shake.Lanes) : Quiet (store s A) := by unfold store; quiet
@[qt] theorem quiet_permute0 (s : List UInt64) : Quiet (permute0 s) := by unfold permute0; quiet
@[qt] theorem quiet_permute1 (s : List UInt64) : Quiet (permute1 s) := by unfold permute1; quiet
@[qt] theorem quiet_theta2 (s b : List UInt64) : Quiet (theta2 s b) := by unfold theta2; quiet
@[qt] theorem quiet_rhopiStep (i : Nat) (s : List UInt64 × List UInt64 × UInt64) : Quiet (rhopiStep i s) := by unfold rhopiStep; quiet
@[qt] theorem quiet_rhopi2 (s b : List UInt64) : Quiet (rhopi2 s b) := by unfold rhopi2; quiet
@[qt] theorem quiet_chiRow (i : Nat) (s : List UInt64 × List UInt64) : Quiet (chiRow i s) := by unfold chiRow; quiet
@[qt] theorem quiet_chi2 (s b : List UInt64) : Quiet (chi2 s b) := by unfold chi2; quiet
@[qt] theorem quiet_round2 (i : Nat) (s : List UInt64 × List UInt64) : Quiet (round2 i s) := by unfold round2; quiet
@[qt] theorem quiet_permute2 (b s : List UInt64) : Quiet (permute2 b s) := by unfold permute2; quiet
@[qt] theorem quiet_xorByte (s : Model.Shake.Ctx) (p : Nat) (b : UInt8) : Quiet (xorByte s p b) := by unfold xorByte; quiet
@[qt] theorem quiet_getByte (s : Model.Shake.Ctx) (p : Nat) : Quiet (getByte s p) := by unfold getByte; quiet
end Shake

@[qt] theorem quiet_nextBit (s : Cursor × Nat) : Quiet (nextBit s) := by unfold nextBit; quiet
@[qt] theorem quiet_extract_int (hash : Bytes) (o n : Nat) : Quiet (extract_int_from_hash hash o n) := by unfold extract_int_from_hash; quiet
@[qt] theorem quiet_askRng (o : Bytes) (n : Nat) (f : Option Rng) : Quiet (askRng o n f) := by unfold askRng; quiet
@[qt] theorem quiet_fillOptBuffer (E : Env) (mem : Mem) (pk n : Nat) (f : Option Rng) : Quiet (fillOptBuffer E mem pk n f) := by unfold fillOptBuffer; quiet
@[qt] theorem quiet_compute_wots_digits (a b : Bytes) (n : Nat) : Quiet (compute_wots_digits a b n) := by unfold compute_wots_digits; quiet
@[qt] theorem quiet_copy_public (mem : Mem) (pk : Option Nat) (a n : Nat) : Quiet (copy_public mem pk a n) := by unfold copy_public; quiet
@[qt] theorem quiet_my_memcmp (mem : Mem) (a : Nat) (b : Bytes) (off n : Nat) : Quiet (my_memcmp mem a b off n) := by
  induction n generalizing a off with
  | zero => unfold my_memcmp; quiet
  | succ n ih => unfold my_memcmp; quiet; exact ih _ _

end Leak
