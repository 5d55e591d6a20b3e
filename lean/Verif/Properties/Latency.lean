import Verif.Properties.WorkVerify
/-!
# Properties C48 and C49: how long one call can take

In compressions and permutations, as in `Properties/Work.lean` and `Properties/WorkVerify.lean`; "HSMs are typically designed with security (and not utmost performance) in mind" (read.me), and a
command of an HSM has to answer in time: the work of a single call is bounded in terms of the number of bytes asked for or given.
-/
namespace Properties
open Model
open Leak (Prim perms)

theorem le_top (g : Nat → Nat) : ∀ (n i : Nat), i < n → g i ≤ Spec.Work.top g n := by
  intro n
  induction n with
  | zero => intro i h; cases h
  | succ n ih =>
    intro i h
    rw [Spec.Work.top]
    rcases Nat.lt_succ_iff_lt_or_eq.1 h with h | rfl
    · exact Nat.le_trans (ih i h) (Nat.le_max_left ..)
    · exact Nat.le_max_right ..

theorem sigBlocks_eq (x : PsName) : x.P.sigBlocks = x.P.k * (x.P.a + 1) + x.P.d * (x.P.len + x.P.hp) + 1 := by cases x <;> rfl

/-- Where a block is in a signature. -/
theorem block_place (P : Spec.Params) (hL : 0 < P.len + P.hp) {i : Nat} (hi : i < P.k * (P.a + 1) + P.d * (P.len + P.hp)) :
    (i < P.k * (P.a + 1) → i / (P.a + 1) < P.k ∧ (i % (P.a + 1) ≠ 0 → i % (P.a + 1) - 1 < P.a)) ∧
    (¬ i < P.k * (P.a + 1) → (i - P.k * (P.a + 1)) / (P.len + P.hp) < P.d ∧
      (¬ (i - P.k * (P.a + 1)) % (P.len + P.hp) < P.len → (i - P.k * (P.a + 1)) % (P.len + P.hp) - P.len < P.hp)) := by
  refine ⟨fun h => ⟨?_, fun h0 => ?_⟩, fun h => ⟨?_, fun h0 => ?_⟩⟩
  · exact Nat.div_lt_of_lt_mul (by rw [Nat.mul_comm]; exact h)
  · have := Nat.mod_lt i (show P.a + 1 > 0 by omega)
    omega
  · exact Nat.div_lt_of_lt_mul (by rw [Nat.mul_comm (P.len + P.hp)]; omega)
  · have := Nat.mod_lt (i - P.k * (P.a + 1)) hL
    omega

theorem block_le_top (c : Spec.Work.Price) (P : Spec.Params) (hL : 0 < P.len + P.hp) (dg : Nat → Nat → Nat) (h : ∀ j q, dg j q ≤ 15) {i : Nat} (hi : i < P.k * (P.a + 1) + P.d * (P.len + P.hp)) :
    Spec.Work.block c P dg i ≤ Spec.Work.worst c P := by
  obtain ⟨h1, h2⟩ := block_place P hL hi
  unfold Spec.Work.block Spec.Work.worst
  split
  · next h0 =>
    obtain ⟨h3, h4⟩ := h1 h0
    refine Nat.le_trans ?_ (Nat.le_max_left ..)
    split
    · exact Nat.le_max_left ..
    · next h5 =>
      refine Nat.le_trans ?_ (Nat.le_max_right ..)
      exact Nat.le_trans (le_top (Spec.Work.forsAuth c P (i / (P.a + 1))) _ _ (h4 h5)) (le_top (fun τ => Spec.Work.top (Spec.Work.forsAuth c P τ) P.a) _ _ h3)
  · next h0 =>
    obtain ⟨h3, h4⟩ := h2 h0
    dsimp only
    refine Nat.le_trans ?_ (Nat.le_max_right ..)
    split
    · next h5 =>
      refine Nat.le_trans ?_ (Nat.le_max_left ..)
      refine Nat.le_trans ?_ (le_top (Spec.Work.wots c P 15) _ _ h5)
      unfold Spec.Work.wots
      exact Nat.add_le_add_right (Nat.add_le_add_left (Nat.mul_le_mul_right _ (h _ _)) _) _
    · next h5 =>
      refine Nat.le_trans ?_ (Nat.le_max_right ..)
      exact le_top (Spec.Work.merkle c P) _ _ (h4 h5)

/-- C48: a call of `ts_sign` for `m` bytes takes at most `⌈m / n⌉` times the compressions or permutations of the most expensive block of a signature. -/
theorem C48_latency (J : SignJob) (reqs : List (Bytes × Nat)) (dest : Bytes) (m : Nat) (hfit : Fits (reqs ++ [(dest, m)])) (p : Prim) :
    perms p (Leak.signRun J (reqs ++ [(dest, m)])).log ≤
      perms p (Leak.signRun J reqs).log + (m + J.x.P.n - 1) / J.x.P.n * Spec.Work.worst (priceOf J.E.cfg J.x p) J.x.P := by
  have hfit' : Fits reqs := fun r hr => hfit r (List.mem_append_left _ hr)
  obtain ⟨S, h1, h2⟩ := sess_of J
  have hn16 := S.facts.n16
  rw [C48_sign J _ hfit, C48_sign J _ hfit']
  have ha : asked (reqs ++ [(dest, m)]) = asked reqs + m := by unfold asked; simp
  rw [ha]
  have hb := Leak.begun_add S.n (asked reqs) m S.P.sigBytes (by omega)
  have hb2 := Leak.begun_le (S := S) (m := asked reqs + m)
  have ht : Leak.tot S = S.P.k * (S.P.a + 1) + S.P.d * (S.P.len + S.P.hp) := by
    have := Leak.sigBlocks_tot (S := S)
    have hx := sigBlocks_eq J.x
    rw [h1] at this ⊢
    omega
  have hL : 0 < S.P.len + S.P.hp := by rw [h1]; cases J.x <;> decide
  rw [← h1]
  simp only [show S.P.n = S.n from rfl]
  generalize Spec.Cost.begun S.n (min (asked reqs) S.P.sigBytes) = u at *
  generalize Spec.Cost.begun S.n (min (asked reqs + m) S.P.sigBytes) = v at *
  generalize priceOf J.E.cfg J.x p = c at *
  by_cases huv : v ≤ u
  · obtain ⟨e, rfl⟩ := Nat.exists_eq_add_of_le huv
    have : Spec.Work.upTo c S.P (digits J) (v + e) = Spec.Work.upTo c S.P (digits J) v + _ := Leak.sum_add ..
    omega
  · obtain ⟨e, rfl⟩ := Nat.exists_eq_add_of_le (show u ≤ v by omega)
    have hs : Spec.Work.upTo c S.P (digits J) (u + e) = Spec.Work.upTo c S.P (digits J) u + _ := Leak.sum_add ..
    have hw := Leak.sum_mono (n := e) (g := fun i => Spec.Work.block c S.P (digits J) (u + i)) (h := fun _ => Spec.Work.worst c S.P)
      fun i hi => block_le_top c S.P hL (digits J) (fun j q => digit_le J j q) (by rw [← ht]; omega)
    rw [Leak.sum_const] at hw
    have := Nat.mul_le_mul_right (Spec.Work.worst c S.P) (show e ≤ (m + S.n - 1) / S.n by omega)
    omega

theorem vblock_le_top (c : Spec.Work.Price) (hm : Nat) (P : Spec.Params) (hL : 0 < P.len + P.hp) (dg : Nat → Nat → Nat) {i : Nat} (hi : i < P.k * (P.a + 1) + P.d * (P.len + P.hp)) :
    Spec.Work.Verify.block c hm P dg (i + 1) ≤ Spec.Work.Verify.worst c P := by
  obtain ⟨h1, h2⟩ := block_place P hL hi
  simp only [Spec.Work.Verify.block, Spec.Work.Verify.worst]
  split
  · next h0 =>
    obtain ⟨h3, h4⟩ := h1 h0
    refine Nat.le_trans ?_ (Nat.le_max_left ..)
    split
    · exact Nat.le_max_left ..
    · next h5 =>
      refine Nat.le_trans ?_ (Nat.le_max_right ..)
      exact Nat.le_trans (le_top (Spec.Work.Verify.forsAuth c P (i / (P.a + 1))) _ _ (h4 h5)) (le_top (fun τ => Spec.Work.top (Spec.Work.Verify.forsAuth c P τ) P.a) _ _ h3)
  · next h0 =>
    obtain ⟨h3, h4⟩ := h2 h0
    refine Nat.le_trans ?_ (Nat.le_max_right ..)
    split
    · next h5 =>
      refine Nat.le_trans ?_ (Nat.le_max_left ..)
      refine Nat.le_trans ?_ (le_top (Spec.Work.Verify.wots c P 0) _ _ h5)
      unfold Spec.Work.Verify.wots
      exact Nat.add_le_add_right (Nat.add_le_add_right (Nat.mul_le_mul_right _ (Nat.sub_le_sub_left (Nat.zero_le _) _)) _) _
    · next h5 =>
      refine Nat.le_trans ?_ (Nat.le_max_right ..)
      exact Nat.le_trans (le_top (Spec.Work.Verify.merkle c P _) _ _ (h4 h5)) (le_top (fun j => Spec.Work.top (Spec.Work.Verify.merkle c P j) P.hp) _ _ h3)

/-- The work of several blocks of a verification, the digest counted once. -/
theorem vsum_le (c : Spec.Work.Price) (hm : Nat) (P : Spec.Params) (hL : 0 < P.len + P.hp) (hB : P.sigBlocks = P.k * (P.a + 1) + P.d * (P.len + P.hp) + 1) (dg : Nat → Nat → Nat) (u : Nat) : ∀ e, u + e ≤ P.sigBlocks →
    Spec.Cost.sum (fun i => Spec.Work.Verify.block c hm P dg (u + i)) e ≤ (if u = 0 ∧ e ≠ 0 then hm + c.init else 0) + e * Spec.Work.Verify.worst c P := by
  intro e
  induction e with
  | zero => intro _; exact Nat.zero_le _
  | succ e ih =>
    intro h
    have := ih (by omega)
    rw [Spec.Cost.sum, Nat.succ_mul]
    by_cases h0 : u + e = 0
    · have hu : u = 0 := by omega
      have he : e = 0 := by omega
      subst hu; subst he
      rw [if_pos ⟨rfl, by omega⟩]
      have : Spec.Cost.sum (fun i => Spec.Work.Verify.block c hm P dg (0 + i)) 0 = 0 := rfl
      have hb : Spec.Work.Verify.block c hm P dg (0 + 0) = hm + c.init := rfl
      omega
    · have hw : Spec.Work.Verify.block c hm P dg (u + e) ≤ Spec.Work.Verify.worst c P := by
        obtain ⟨k, hk⟩ : ∃ k, u + e = k + 1 := ⟨u + e - 1, by omega⟩
        rw [hk]
        refine vblock_le_top c hm P hL dg ?_
        omega
      by_cases hu : u = 0
      · rw [if_pos ⟨hu, by omega⟩] at this
        rw [if_pos ⟨hu, by omega⟩]
        omega
      · rw [if_neg fun g => hu g.1] at this
        rw [if_neg fun g => hu g.1]
        omega

/-- C49: a call of `ts_update_verify` with `m` bytes takes at most `⌈m / n⌉` times the compressions or permutations of the most expensive block, and those of the digest of the message if
it completes the randomizer, the first `n` bytes. -/
theorem C49_latency (J : VerifyJob) (ts : List Bytes) (t : Bytes) (p : Prim) :
    perms p (Leak.verifyRun J (ts ++ [t])).log ≤
      perms p (Leak.verifyRun J ts).log + (if ts.flatten.length < J.x.P.n ∧ J.x.P.n ≤ ts.flatten.length + t.length then digestWork J.x J.M.length p + (priceOf J.E.cfg J.x p).init else 0) +
        (t.length + J.x.P.n - 1) / J.x.P.n * Spec.Work.Verify.worst (priceOf J.E.cfg J.x p) J.x.P := by
  obtain ⟨sig, hlen, hsig⟩ := completion J (ts ++ [t]).flatten
  obtain ⟨S, h1, h2⟩ := sess_of_verify J
  have hn16 := S.facts.n16
  have hn : 0 < J.x.P.n := by rw [← h1]; show 0 < S.n; omega
  have hfl : (ts ++ [t]).flatten = ts.flatten ++ t := by simp
  have hsig' : ts.flatten <+: sig ∨ sig <+: ts.flatten := by
    have hp : ts.flatten <+: (ts ++ [t]).flatten := ⟨t, hfl.symm⟩
    rcases hsig with h | h
    · exact .inl (hp.trans h)
    · exact List.prefix_or_prefix_of_prefix hp h
  rw [C49_verify J _ sig hlen hsig, C49_verify J _ sig hlen hsig', hfl, List.length_append]
  have hdiv : (ts.flatten.length + t.length) / J.x.P.n ≤ ts.flatten.length / J.x.P.n + (t.length + J.x.P.n - 1) / J.x.P.n := by
    generalize J.x.P.n = n at *
    have h3 := Nat.div_add_mod ts.flatten.length n
    have h4 := Nat.mod_lt ts.flatten.length hn
    have h5 := Nat.div_add_mod (t.length + n - 1) n
    have h6 := Nat.mod_lt (t.length + n - 1) hn
    refine Nat.le_of_lt_succ (Nat.div_lt_of_lt_mul ?_)
    rw [Nat.mul_succ, Nat.mul_add]
    omega
  have hb : 0 < J.x.P.sigBlocks := by cases J.x <;> decide
  have hu0 : ts.flatten.length / J.x.P.n = 0 ↔ ts.flatten.length < J.x.P.n := by rw [Nat.div_eq_zero_iff]; omega
  have hv0 : 0 < (ts.flatten.length + t.length) / J.x.P.n ↔ J.x.P.n ≤ ts.flatten.length + t.length := Nat.div_pos_iff.trans ⟨fun h => h.2, fun h => ⟨hn, h⟩⟩
  have hiff : (ts.flatten.length < J.x.P.n ∧ J.x.P.n ≤ ts.flatten.length + t.length) ↔ (ts.flatten.length / J.x.P.n = 0 ∧ 0 < (ts.flatten.length + t.length) / J.x.P.n) := by
    rw [hu0, hv0]
  have hif : ∀ A : Nat, (if ts.flatten.length < J.x.P.n ∧ J.x.P.n ≤ ts.flatten.length + t.length then A else 0) =
      if ts.flatten.length / J.x.P.n = 0 ∧ 0 < (ts.flatten.length + t.length) / J.x.P.n then A else 0 := fun A => by
    by_cases h : ts.flatten.length < J.x.P.n ∧ J.x.P.n ≤ ts.flatten.length + t.length
    · rw [if_pos h, if_pos (hiff.1 h)]
    · rw [if_neg h, if_neg fun g => h (hiff.2 g)]
  rw [hif]
  clear hif hiff hu0 hv0
  generalize ts.flatten.length / J.x.P.n = u at *
  generalize (ts.flatten.length + t.length) / J.x.P.n = v at *
  generalize (t.length + J.x.P.n - 1) / J.x.P.n = w at *
  generalize priceOf J.E.cfg J.x p = c at *
  generalize digestWork J.x J.M.length p = hm at *
  by_cases huv : min v J.x.P.sigBlocks ≤ min u J.x.P.sigBlocks
  · obtain ⟨e, he⟩ := Nat.exists_eq_add_of_le huv
    rw [he]
    have : Spec.Work.Verify.upTo c hm J.x.P (verifyDigits J sig) (min v J.x.P.sigBlocks + e) = Spec.Work.Verify.upTo c hm J.x.P (verifyDigits J sig) (min v J.x.P.sigBlocks) + _ := Leak.sum_add ..
    omega
  · obtain ⟨e, he⟩ := Nat.exists_eq_add_of_le (show min u J.x.P.sigBlocks ≤ min v J.x.P.sigBlocks by omega)
    rw [he]
    have hs : Spec.Work.Verify.upTo c hm J.x.P (verifyDigits J sig) (min u J.x.P.sigBlocks + e) = Spec.Work.Verify.upTo c hm J.x.P (verifyDigits J sig) (min u J.x.P.sigBlocks) + _ := Leak.sum_add ..
    have hw := vsum_le c hm J.x.P (by cases J.x <;> decide) (sigBlocks_eq J.x) (verifyDigits J sig) (min u J.x.P.sigBlocks) e (by omega)
    have := Nat.mul_le_mul_right (Spec.Work.Verify.worst c J.x.P) (show e ≤ w by omega)
    by_cases h0 : u = 0 ∧ 0 < v
    · rw [if_pos h0]
      rw [if_pos (show min u J.x.P.sigBlocks = 0 ∧ e ≠ 0 by omega)] at hw
      omega
    · rw [if_neg h0]
      rw [if_neg (show ¬ (min u J.x.P.sigBlocks = 0 ∧ e ≠ 0) by omega)] at hw
      omega

/-! ## The figures -/

/-- The most expensive block of a signature, in calls of `p`, with the default settings: in signing and in verification. -/
def worstOf (x : PsName) (p : Prim) : Nat × Nat := (Spec.Work.worst (priceOf fullCfg x p) x.P, Spec.Work.Verify.worst (priceOf fullCfg x p) x.P)

/-- The figures of the twelve sets: SHA-256, SHA-512, Keccak. -/
def latency : PsName → Prim → Nat × Nat
  | .sha2_128f, .sha256 => (2284, 17) | .sha2_128s, .sha256 => (146176, 17)
  | .sha2_192f, .sha256 => (3264, 15) | .sha2_192f, .sha512 => (129, 2)
  | .sha2_192s, .sha256 => (208896, 15) | .sha2_192s, .sha512 => (8193, 2)
  | .sha2_256f, .sha256 => (8576, 15) | .sha2_256f, .sha512 => (258, 3)
  | .sha2_256s, .sha256 => (137216, 15) | .sha2_256s, .sha512 => (8193, 2)
  | .shake_128f, .keccak => (2264, 16) | .shake_128s, .keccak => (144896, 16)
  | .shake_192f, .keccak => (3308, 16) | .shake_192s, .keccak => (211712, 16)
  | .shake_256f, .keccak => (8720, 16) | .shake_256s, .keccak => (139520, 16)
  | _, _ => (0, 0)

/-- C48, C49: the figures. A call of `ts_sign` for up to `n` bytes of a signature of an F parameter set takes at most 8834 compressions or permutations, of an S set 16 to 64 times as many as of the
F set ("we recommend that an F parameter set is more likely to yield reasonable performance", read.me); a call of `ts_update_verify` for up to `n` bytes 18 at most, apart from the message. -/
theorem C48_figures (x : PsName) (p : Prim) : worstOf x p = latency x p := by
  cases x <;> cases p <;> decide +kernel

theorem worst_merkle (o : Bool) (x : PsName) :
    Spec.Work.worst (Spec.Work.price o (Spec.Work.kind x.inst) x.P.n (Spec.Work.kind x.inst).small) x.P =
      Spec.Work.merkle (Spec.Work.price o (Spec.Work.kind x.inst) x.P.n (Spec.Work.kind x.inst).small) x.P (x.P.hp - 1) := by
  cases o <;> cases x <;> decide +kernel

theorem worst_block (x : PsName) (c : Config) (dg : Nat → Nat → Nat) :
    ∃ i, i + 1 < x.P.sigBlocks ∧
      Spec.Work.block (priceOf c x (Spec.Work.kind x.inst).small) x.P dg i = Spec.Work.worst (priceOf c x (Spec.Work.kind x.inst).small) x.P := by
  refine ⟨x.P.k * (x.P.a + 1) + (x.P.len + x.P.hp - 1), by cases x <;> decide, ?_⟩
  have hp : 0 < x.P.hp := by cases x <;> decide
  rw [show Spec.Work.worst (priceOf c x (Spec.Work.kind x.inst).small) x.P = _ from worst_merkle c.sha2opt x]
  unfold Spec.Work.block
  rw [if_neg (by omega)]
  have h1 : x.P.k * (x.P.a + 1) + (x.P.len + x.P.hp - 1) - x.P.k * (x.P.a + 1) = x.P.len + x.P.hp - 1 := by omega
  have h2 : (x.P.len + x.P.hp - 1) % (x.P.len + x.P.hp) = x.P.len + x.P.hp - 1 := Nat.mod_eq_of_lt (by omega)
  dsimp only
  rw [h1, h2, if_neg (by omega)]
  show Spec.Work.merkle (priceOf c x _) x.P _ = Spec.Work.merkle (priceOf c x _) x.P _
  congr 1
  omega

/-- C48: in compressions of SHA-256 and permutations of Keccak the bound is attained in every signature, whatever the data, even by a call for a single byte (which begins the last node of an authentication path in
the hypertree). -/
theorem C48_attained (J : SignJob) :
    ∃ m, ∀ d v : Bytes, m ≤ d.length → 1 ≤ v.length →
      perms (Spec.Work.kind J.x.inst).small (Leak.signRun J [(d, m), (v, 1)]).log =
        perms (Spec.Work.kind J.x.inst).small (Leak.signRun J [(d, m)]).log +
          Spec.Work.worst (priceOf J.E.cfg J.x (Spec.Work.kind J.x.inst).small) J.x.P := by
  obtain ⟨i, hi, e⟩ := worst_block J.x J.E.cfg (digits J)
  have hn : 0 < J.x.P.n := by cases J.x <;> decide
  refine ⟨J.x.P.n * (i + 1), fun d v hd hv => ?_⟩
  have f1 : Fits [(d, J.x.P.n * (i + 1))] := fun r hr => by rw [List.mem_singleton.1 hr]; exact hd
  have f2 : Fits [(d, J.x.P.n * (i + 1)), (v, 1)] := fun r hr => by
    rcases List.mem_cons.1 hr with rfl | hr
    · exact hd
    · rw [List.mem_singleton.1 hr]; exact hv
  have hs : J.x.P.n * (i + 1) + 1 ≤ J.x.P.sigBytes := by
    have := Nat.mul_le_mul_left J.x.P.n (show i + 1 + 1 ≤ J.x.P.sigBlocks by omega)
    rw [Nat.mul_succ] at this
    unfold Spec.Params.sigBytes
    rw [Nat.mul_comm _ J.x.P.n]
    omega
  rw [C48_sign J _ f1, C48_sign J _ f2]
  have a1 : asked [(d, J.x.P.n * (i + 1))] = J.x.P.n * (i + 1) := by simp [asked]
  have a2 : asked [(d, J.x.P.n * (i + 1)), (v, 1)] = J.x.P.n * (i + 1) + 1 := by simp [asked]
  have b1 : Spec.Cost.begun J.x.P.n (J.x.P.n * (i + 1)) = i := by
    unfold Spec.Cost.begun
    rw [Nat.add_sub_assoc (by omega), Nat.mul_add_div hn, Nat.div_eq_of_lt (by omega)]
    omega
  have b2 : Spec.Cost.begun J.x.P.n (J.x.P.n * (i + 1) + 1) = i + 1 := by
    unfold Spec.Cost.begun
    rw [show J.x.P.n * (i + 1) + 1 + J.x.P.n - 1 = J.x.P.n * (i + 2) by rw [Nat.mul_add, Nat.mul_add]; omega, Nat.mul_div_cancel_left _ hn]
    omega
  rw [a1, a2, Nat.min_eq_left hs, Nat.min_eq_left (by omega), b1, b2]
  show _ + (Spec.Work.upTo _ _ _ i + Spec.Work.block _ _ _ i) = _
  rw [e]
  omega

/-! The hypotheses are met. -/

/-- A request for one byte after other requests. -/
example : Fits (exReqs ++ [([0], 1)]) := by
  intro r hr
  rcases List.mem_append.1 hr with h | h
  · exact exReqs_fits r h
  · rw [List.mem_singleton.1 h]; exact Nat.le_refl 1

/-- A call that completes the randomizer, with which the message is hashed. -/
example : ([List.replicate 10 0] : List Bytes).flatten.length < exVerify.x.P.n ∧ exVerify.x.P.n ≤ ([List.replicate 10 0] : List Bytes).flatten.length + (List.replicate 22 (255 : UInt8)).length := by decide

end Properties
