import Verif.Proof.WorkSha
import Verif.Proof.Shake
/-!
# What SHAKE256 costs in permutations
-/
namespace Leak.Work
open Model Spec Spec.Work

theorem post_permuting {g : Prim} {n : Nat} {a : L α} {P : α → Prop} (h : Post a P) : Post (permuting g n a) P := h

theorem post_rd {a : List α} {i : Nat} {P : α → Prop} (h : ∀ v, a[i]? = some v → P v) : Post (rd a i) P := by
  intro r e
  rw [res_rd] at e
  unfold Model.rd at e
  split at e
  · cases e
    exact h _ (by assumption)
  · cases e

theorem post_loopB {body : Nat → σ → L σ} {I : σ → Prop} {c i : Nat} {s : σ} (hb : ∀ j s, i ≤ j → j < i + c → I s → Post (body j s) I) (h : I s) :
    Post (loop body c i s) I := by
  induction c generalizing i s with
  | zero => intro a e; cases e; exact h
  | succ c ih =>
    rw [loop_log]
    refine post_bind post_any fun _ _ => post_bind (hb i s (Nat.le_refl _) (by omega) h) fun a ha => ?_
    exact ih (fun j s h1 h2 => hb j s (by omega) (by omega)) ha

namespace Shake

/-- The last word of the state, which says how many bytes of the block are there. -/
def At (s : Model.Shake.Ctx) (n : Nat) : Prop := (s.getD 25 0).toNat = n

theorem post_wr25 {s : List UInt64} {i n : Nat} {v : UInt64} (h : At s n) (hi : i < 25) : Post (wr s i v) fun s' => At s' n := by
  refine post_wr ?_
  unfold At at h ⊢
  rw [List.getD_eq_getElem?_getD, List.getElem?_set_ne (by omega), ← List.getD_eq_getElem?_getD]
  exact h

theorem post_wr_at {s : List UInt64} {v : UInt64} : Post (wr s 25 v) fun s' => At s' v.toNat := by
  intro r e
  rw [res_wr] at e
  unfold Model.wr at e
  split at e
  · cases e
    unfold At
    rw [List.getD_eq_getElem?_getD, List.getElem?_set_self (by assumption)]
    rfl
  · cases e

theorem post_rd_at {s : List UInt64} {n : Nat} (h : At s n) : Post (rd s 25) fun v => v.toNat = n := by
  refine post_rd fun v hv => ?_
  unfold At at h
  rw [List.getD_eq_getElem?_getD, hv] at h
  exact h

/-- Steps that do not touch the last word. -/
macro "at25" : tactic => `(tactic| repeat' (first
  | with_reducible refine post_wr25 (by assumption) (by omega)
  | with_reducible refine post_ok (by assumption)
  | with_reducible refine post_bind (P := fun s' => At s' _) (post_wr25 (by assumption) (by omega)) fun _ _ => ?_
  | with_reducible refine post_bind post_any fun _ _ => ?_))

theorem at_store {s : List UInt64} {A : Model.Shake.Lanes} {n : Nat} (h : At s n) : Post (Leak.Shake.store s A) fun s' => At s' n := by
  unfold Leak.Shake.store
  iterate 25 refine post_bind (post_wr25 (by assumption) (by omega)) fun _ _ => ?_
  exact post_ok (by assumption)

theorem at_permute0 {s : List UInt64} {n : Nat} (h : At s n) : Post (Leak.Shake.permute0 s) fun s' => At s' n := by
  unfold Leak.Shake.permute0
  exact post_bind post_any fun _ _ => post_bind post_any fun _ _ => at_store h

theorem at_permute1 {s : List UInt64} {n : Nat} (h : At s n) : Post (Leak.Shake.permute1 s) fun s' => At s' n := by
  unfold Leak.Shake.permute1
  exact post_loop (I := fun s => At s n) (fun i s h => post_bind post_any fun _ _ => post_bind post_any fun _ _ => post_bind post_any fun _ _ => at_store h) h

theorem at_theta2 {s b : List UInt64} {n : Nat} (h : At s n) : Post (Leak.Shake.theta2 s b) fun r => At r.1 n := by
  unfold Leak.Shake.theta2
  refine post_bind post_any fun bc _ => post_bind (post_loopB (I := fun s => At s n) (fun i s hi hi' h => ?_) h) fun s h => post_ok h
  refine post_bind post_any fun _ _ => post_bind post_any fun _ _ => post_loopB (I := fun s => At s n) (fun j s hj hj' h => ?_) h
  exact post_bind post_any fun _ _ => post_wr25 h (by omega)

theorem piln_lt : ∀ (i j : Nat), Model.Shake.piln[i]? = some j → j < 25 := by
  intro i j h
  have : j ∈ Model.Shake.piln := List.mem_of_getElem? h
  clear h
  revert this
  revert j
  decide

theorem at_rhopi2 {s b : List UInt64} {n : Nat} (h : At s n) : Post (Leak.Shake.rhopi2 s b) fun r => At r.1 n := by
  unfold Leak.Shake.rhopi2
  refine post_bind post_any fun t _ => post_bind (post_loop (I := fun s : List UInt64 × List UInt64 × UInt64 => At s.1 n) (fun i s h => ?_) h) fun s h => post_ok h
  unfold Leak.Shake.rhopiStep
  refine post_bind (post_rd (P := fun j => j < 25) fun j hj => piln_lt i j hj) fun j hj => ?_
  refine post_bind post_any fun _ _ => post_bind post_any fun _ _ => post_bind post_any fun _ _ => post_bind post_any fun _ _ => ?_
  exact post_bind (post_wr25 h hj) fun _ h => post_bind post_any fun _ _ => post_ok h

theorem at_chi2 {s b : List UInt64} {n : Nat} (h : At s n) : Post (Leak.Shake.chi2 s b) fun r => At r.1 n := by
  unfold Leak.Shake.chi2
  refine post_loopB (I := fun s : List UInt64 × List UInt64 => At s.1 n) (fun i s hi hi' h => ?_) h
  unfold Leak.Shake.chiRow
  refine post_bind post_any fun _ _ => post_bind (post_loopB (I := fun s => At s n) (fun j s hj hj' h => ?_) h) fun _ h => post_ok h
  exact post_bind post_any fun _ _ => post_bind post_any fun _ _ => post_bind post_any fun _ _ => post_wr25 h (by omega)

theorem at_permute2 {s b : List UInt64} {n : Nat} (h : At s n) : Post (Leak.Shake.permute2 b s) fun s' => At s' n := by
  unfold Leak.Shake.permute2
  refine post_bind (post_loop (I := fun s : List UInt64 × List UInt64 => At s.1 n) (fun i s h => ?_) h) fun _ h => post_ok h
  unfold Leak.Shake.round2
  refine post_bind (at_theta2 h) fun _ h => post_bind (at_rhopi2 h) fun _ h => post_bind (at_chi2 h) fun _ h => ?_
  exact post_bind post_any fun _ _ => post_bind post_any fun _ _ => post_bind (post_wr25 h (by omega)) fun _ h => post_ok h

theorem at_permute {opt : Nat} {s : List UInt64} {n : Nat} (h : At s n) : Post (Leak.Shake.permute opt s) fun s' => At s' n := by
  unfold Leak.Shake.permute
  refine post_frame (post_permuting ?_)
  split
  · exact at_permute2 h
  split
  · exact at_permute1 h
  · exact at_permute0 h

variable {p : Prim}

/-- One permutation. -/
theorem cost_permute {opt : Nat} {s : List UInt64} : Cost (meter p) (Leak.Shake.permute opt s) fun _ k => k = only p .keccak 1 := by
  unfold Leak.Shake.permute
  refine cost_frame (cost_permuting (cost_mono (cost_free (by idle)) fun _ k _ hk => ?_))
  rw [hk, w_perm, Nat.add_zero]

theorem at_xorByte {s : Model.Shake.Ctx} {n i : Nat} {b : UInt8} (h : At s n) (hi : i < 200) : Post (Leak.Shake.xorByte s i b) fun s' => At s' n := by
  unfold Leak.Shake.xorByte
  refine post_bind post_any fun _ _ => post_bind post_any fun _ _ => post_wr25 h ?_
  rw [Nat.shiftRight_eq_div_pow]
  show i / 8 < 25
  omega

theorem at_inc_init (s : Model.Shake.Ctx) : Post (Leak.Shake.inc_init s) fun s' => At s' 0 := by
  unfold Leak.Shake.inc_init
  refine post_frame (post_bind post_any fun _ _ => ?_)
  exact post_wr_at (v := 0)

theorem cost_absorbLoop (opt : Nat) : ∀ (fuel : Nat) (s : Model.Shake.Ctx) (m : Bytes) (L : Nat), At s (L % 136) → m.length + 136 < 2 ^ 64 →
    Cost (meter p) (Leak.Shake.absorbLoop opt fuel s m) fun s' k =>
      k + only p .keccak (full .keccak L) = only p .keccak (full .keccak (L + m.length)) ∧ At s' ((L + m.length) % 136) := by
  intro fuel
  induction fuel with
  | zero => intro s m L h hm a e; cases e
  | succ fuel ih =>
    intro s m L h hm
    have hlt := Nat.mod_lt L (show 136 > 0 by omega)
    unfold Leak.Shake.absorbLoop
    refine cost_bind0 (by idle) fun c ec => ?_
    have hc : c.toNat = L % 136 := post_rd_at h c ec
    rw [hc]
    refine cost_branch (fun hge => ?_) fun hlt' => ?_
    · rw [Nat.mod_eq_of_lt (by omega)] at hge
      dsimp only [Model.Shake.RATE] at hge ⊢
      have hst : usub64 136 (L % 136) = 136 - L % 136 := by unfold usub64; omega
      rw [hst]
      refine cost_bind0 (by idle) fun s1 e1 => ?_
      refine cost_bind0 (by idle) fun s2 e2 => ?_
      have h2 : At s2 0 := post_wr_at (v := 0) s2 e2
      refine cost_bind (cost_with cost_permute (at_permute h2)) fun s3 k3 _ ⟨hk3, h3⟩ => ?_
      refine cost_mono (ih _ _ (L + (136 - L % 136)) (by rw [show (L + (136 - L % 136)) % 136 = 0 by omega]; exact h3) (by rw [List.length_drop]; omega)) fun s4 k4 _ ⟨hk4, h4⟩ => ?_
      rw [List.length_drop, show L + (136 - L % 136) + (m.length - (136 - L % 136)) = L + m.length by omega] at hk4 h4
      refine ⟨?_, h4⟩
      rw [hk3]
      revert hk4
      simp only [only, full, rate]
      split <;> omega
    · rw [Nat.mod_eq_of_lt (by omega)] at hlt'
      dsimp only [Model.Shake.RATE] at hlt'
      refine cost_bind0 (by idle) fun s1 e1 => cost_mono (cost_with (cost_free (by idle)) post_wr_at) fun s2 k ek ⟨hk, h2⟩ => ⟨?_, ?_⟩
      · rw [hk]
        simp only [only, full, rate]
        split <;> omega
      · rw [show (L + m.length) % 136 = (UInt64.ofNat (L % 136 + m.length)).toNat by
          rw [UInt64.toNat_ofNat', Nat.mod_eq_of_lt (a := L % 136 + m.length) (by omega)]; omega]
        exact h2

/-- Taking in input costs the blocks that it completes. -/
theorem cost_absorb (opt : Nat) {s : Model.Shake.Ctx} {m : Bytes} {L : Nat} (h : At s (L % 136)) (hm : m.length + 136 < 2 ^ 64) :
    Cost (meter p) (Leak.Shake.inc_absorb opt s m) fun s' k =>
      k + only p .keccak (full .keccak L) = only p .keccak (full .keccak (L + m.length)) ∧ At s' ((L + m.length) % 136) := by
  unfold Leak.Shake.inc_absorb
  exact cost_frame (cost_frame (cost_absorbLoop opt _ _ _ _ h hm))

theorem at_finalize {s : Model.Shake.Ctx} : Post (Leak.Shake.inc_finalize s) fun s' => At s' 0 := by
  unfold Leak.Shake.inc_finalize
  refine post_frame (post_bind post_any fun _ _ => post_bind post_any fun _ _ => post_bind post_any fun _ _ => ?_)
  exact post_wr_at (v := 0)

theorem cost_squeezeLoop0 (opt fuel : Nat) (h : Bytes) (off : Nat) (s : Model.Shake.Ctx) : Cost (meter p) (Leak.Shake.squeezeLoop opt fuel h off 0 s) fun _ k => k = 0 := by
  cases fuel with
  | zero => intro a e; cases e
  | succ fuel =>
    unfold Leak.Shake.squeezeLoop
    exact cost_branch (fun h => absurd h (by omega)) fun _ => cost_ok rfl

/-- The output costs one permutation if it is at most one block. -/
theorem cost_squeeze (opt : Nat) (h : Bytes) (off : Nat) {outlen : Nat} {s : Model.Shake.Ctx} (hs : At s 0) (h0 : 0 < outlen) (h1 : outlen ≤ 136) :
    Cost (meter p) (Leak.Shake.inc_squeeze opt h off outlen s) fun _ k => k = only p .keccak 1 := by
  unfold Leak.Shake.inc_squeeze
  refine cost_frame (cost_frame ?_)
  refine cost_bind0 (by idle) fun c ec => ?_
  have hc : c.toNat = 0 := post_rd_at hs c ec
  rw [hc]
  refine cost_bind0 (by idle) fun cnt ecnt => ?_
  rw [res_lmin] at ecnt
  have hcnt : cnt = 0 := by cases ecnt; omega
  subst hcnt
  refine cost_bind0 (by idle) fun h' _ => cost_bind0 (by idle) fun s' _ => ?_
  rw [Nat.sub_zero]
  unfold Leak.Shake.squeezeLoop
  refine cost_branch (fun _ => ?_) fun hn => absurd h0 hn
  refine cost_bind cost_permute fun s2 k2 _ hk2 => cost_bind0 (by idle) fun cnt ecnt => ?_
  rw [res_lmin] at ecnt
  have hcnt : cnt = outlen := by cases ecnt; simp only [Model.Shake.RATE]; omega
  subst hcnt
  refine cost_bind0 (by idle) fun h'' _ => cost_bind0 (by idle) fun s'' _ => ?_
  rw [Nat.sub_self]
  exact cost_mono (cost_squeezeLoop0 _ _ _ _ _) fun _ k _ hk => by rw [hk2, hk, Nat.add_zero]

end Shake

end Leak.Work
