import Verif.Proof.WorkSha2
/-!
# The prices of the parameter sets
-/
namespace Leak.Work
open Model Spec Spec.Work

variable {p : Prim} {E : Env} {mem : Mem}

/-! ## The functions `ts_shake256_*` -/
namespace K

/-- The iterator has taken in `i` inputs. -/
def At (E : Env) (n : Nat) (t : TIter) (i : Nat) : Prop := Shake.At (E.asShake t) ((head .keccak n + i * n) % 136)

theorem whole_keccak (m : Nat) : whole .keccak m = full .keccak m + 1 := rfl

theorem only_whole (m : Nat) : only p .keccak (whole .keccak m) = only p .keccak (full .keccak m) + only p .keccak 1 := by
  rw [whole_keccak]
  unfold only
  split <;> omega

theorem only_zero (q : Prim) (v : Nat) (h : v = 0) : only p q v = 0 := by
  subst h
  unfold only
  split <;> rfl

theorem cost_take (opt : Nat) {s : Model.Shake.Ctx} {m : Bytes} {L n : Nat} (h : Shake.At s (L % 136)) (hl : m.length = n) (hn : n < 2 ^ 60) :
    Cost (meter p) (Leak.Shake.inc_absorb opt s m) fun s' k =>
      k + only p .keccak (full .keccak L) = only p .keccak (full .keccak (L + n)) ∧ Shake.At s' ((L + n) % 136) := by
  rw [← hl]; exact Shake.cost_absorb opt h (by omega)

/-- The end of a hash. -/
theorem cost_end {α : Type} {opt : Nat} {o : Bytes} {s : Model.Shake.Ctx} {n : Nat} {g : Bytes × Model.Shake.Ctx → α} (h0 : 0 < n) (h1 : n ≤ 136) : Cost (meter p) (do
    let ctx ← Leak.Shake.inc_finalize s
    let r ← Leak.Shake.inc_squeeze opt o 0 n ctx
    L.ok (g r)) fun _ k => k = only p .keccak 1 := by
  refine cost_bind0 (by idle) fun c1 e1 => cost_bind (Shake.cost_squeeze _ _ _ (Shake.at_finalize _ e1) h0 h1) fun r k _ hk => cost_ok ?_
  rw [hk, Nat.add_zero]

theorem cost_prf_msg {sc : Ctx} {n : Nat} (hn : sc.ps.n = n) (h0 : 0 < n) (h1 : n ≤ 136) (o r : Bytes) {msg len : Nat} (hm : len < 2 ^ 60) :
    Cost (meter p) (ts_shake256_prf_msg E mem o r msg len sc) fun _ k => k = only p .keccak (whole .keccak (2 * n + len)) := by
  unfold ts_shake256_prf_msg
  refine cost_frame ?_
  dsimp only
  rw [hn]
  refine cost_bind0 (by idle) fun c0 e0 => cost_bind0 (by idle) fun a ea => ?_
  refine cost_bind (cost_take (L := 0) _ (Shake.at_inc_init _ _ e0) (length_secPrf _ ea) (by omega)) fun c1 k1 _ ⟨hk1, g1⟩ => cost_bind0 (by idle) fun b eb => ?_
  refine cost_bind (cost_take _ g1 (length_rdSlice _ eb) (by omega)) fun c2 k2 _ ⟨hk2, g2⟩ => cost_bind0 (by idle) fun m em => ?_
  refine cost_bind (cost_take _ g2 (length_memRead _ em) hm) fun c3 k3 _ ⟨hk3, g3⟩ => cost_mono (cost_end h0 h1) fun _ k4 _ hk4 => ?_
  rw [only_whole, hk4]
  have := only_zero (p := p) .keccak (full .keccak 0) rfl
  rw [show 0 + n + n + len = 2 * n + len by omega] at hk3
  omega

theorem cost_hash_msg {sc : Ctx} {n : Nat} (hn : sc.ps.n = n) (h1 : n ≤ 136) (o r : Bytes) {lo msg len : Nat} (hl0 : 0 < lo) (hl1 : lo ≤ 136) (hm : len < 2 ^ 60) :
    Cost (meter p) (ts_shake256_hash_msg E mem o lo r msg len sc) fun _ k => k = only p .keccak (whole .keccak (3 * n + len)) := by
  unfold ts_shake256_hash_msg
  refine cost_frame ?_
  dsimp only
  rw [hn]
  refine cost_bind0 (by idle) fun c0 e0 => cost_bind0 (by idle) fun a ea => ?_
  refine cost_bind (cost_take (L := 0) _ (Shake.at_inc_init _ _ e0) (length_rdSlice _ ea) (by omega)) fun c1 k1 _ ⟨hk1, g1⟩ => cost_bind0 (by idle) fun b eb => ?_
  refine cost_bind (cost_take _ g1 (length_memRead _ eb) (by omega)) fun c2 k2 _ ⟨hk2, g2⟩ => cost_bind0 (by idle) fun t et => ?_
  refine cost_bind (cost_take _ g2 (length_memRead _ et) (by omega)) fun c3 k3 _ ⟨hk3, g3⟩ => cost_bind0 (by idle) fun m em => ?_
  refine cost_bind (cost_take _ g3 (length_memRead _ em) hm) fun c4 k4 _ ⟨hk4, g4⟩ => cost_mono (cost_end hl0 hl1) fun _ k5 _ hk5 => ?_
  rw [only_whole, hk5]
  have := only_zero (p := p) .keccak (full .keccak 0) rfl
  rw [show 0 + n + n + n + len = 3 * n + len by omega] at hk4
  omega

theorem cost_prf {sc : Ctx} {n : Nat} (hn : sc.ps.n = n) (h0 : 0 < n) (h1 : n ≤ 136) (ha : E.cfg.ADR_SIZE = 32) (o : Bytes) :
    Cost (meter p) (ts_shake256_prf E mem o sc) fun _ k => k = only p .keccak (whole .keccak (n + 32 + n)) := by
  unfold ts_shake256_prf
  refine cost_frame ?_
  dsimp only
  rw [hn, ha]
  refine cost_bind0 (by idle) fun c0 e0 => cost_bind0 (by idle) fun a ea => ?_
  refine cost_bind (cost_take (L := 0) _ (Shake.at_inc_init _ _ e0) (length_memRead _ ea) (by omega)) fun c1 k1 _ ⟨hk1, g1⟩ => cost_bind0 (by idle) fun b eb => ?_
  refine cost_bind (cost_take _ g1 (length_rdSlice _ eb) (by omega)) fun c2 k2 _ ⟨hk2, g2⟩ => cost_bind0 (by idle) fun m em => ?_
  refine cost_bind (cost_take _ g2 (length_secSeed _ em) (by omega)) fun c3 k3 _ ⟨hk3, g3⟩ => cost_mono (cost_end h0 h1) fun _ k4 _ hk4 => ?_
  rw [only_whole, hk4]
  have := only_zero (p := p) .keccak (full .keccak 0) rfl
  rw [show 0 + n + 32 + n = n + 32 + n by omega] at hk3
  omega

theorem cost_init {sc : Ctx} {n : Nat} (hn : sc.ps.n = n) (h1 : n ≤ 136) (ha : E.cfg.ADR_SIZE = 32) (t : TIter) :
    Cost (meter p) (ts_shake256_init_t_simple E mem t sc) fun t k => k = only p .keccak (full .keccak (head .keccak n)) ∧ At E n t 0 := by
  unfold ts_shake256_init_t_simple
  refine cost_frame ?_
  rw [hn, ha]
  refine cost_bind0 (by idle) fun c0 e0 => cost_bind0 (by idle) fun a ea => ?_
  refine cost_bind (cost_take (L := 0) _ (Shake.at_inc_init _ _ e0) (length_memRead _ ea) (by omega)) fun c1 k1 _ ⟨hk1, g1⟩ => cost_bind0 (by idle) fun b eb => ?_
  refine cost_bind (cost_take _ g1 (length_rdSlice _ eb) (by omega)) fun c2 k2 _ ⟨hk2, g2⟩ => cost_ok ?_
  have := only_zero (p := p) .keccak (full .keccak 0) rfl
  rw [Nat.zero_add] at hk1 hk2 g2
  refine ⟨?_, ?_⟩
  · rw [show head .keccak n = n + 32 from rfl]; omega
  · show Shake.At c2 _
    rw [Nat.zero_mul]
    exact g2

theorem cost_next {sc : Ctx} {n i : Nat} (hn : sc.ps.n = n) (h1 : n ≤ 136) {t : TIter} (b : Bytes) (h : At E n t i) :
    Cost (meter p) (ts_shake256_next_t_simple E t b sc) fun t k =>
      k = only p .keccak (full .keccak (head .keccak n + (i + 1) * n) - full .keccak (head .keccak n + i * n)) ∧ At E n t (i + 1) := by
  unfold ts_shake256_next_t_simple
  refine cost_frame ?_
  rw [hn]
  refine cost_bind0 (by idle) fun a ea => cost_bind (cost_take _ h (length_rdSlice _ ea) (by omega)) fun c2 k2 _ ⟨hk2, h2⟩ => cost_ok ?_
  rw [show head .keccak n + i * n + n = head .keccak n + (i + 1) * n by rw [Nat.succ_mul]; omega] at hk2 h2
  refine ⟨only_sub hk2 (Nat.div_le_div_right ?_), h2⟩
  rw [Nat.succ_mul]; omega

theorem cost_final {sc : Ctx} {n : Nat} (hn : sc.ps.n = n) (h0 : 0 < n) (h1 : n ≤ 136) {t : TIter} (o : Bytes) :
    Cost (meter p) (ts_shake256_final_t_simple E o t sc) fun _ k => k = only p .keccak 1 := by
  unfold ts_shake256_final_t_simple
  refine cost_frame ?_
  rw [hn]
  exact cost_end (g := fun r => (r.1, TIter.shake r.2)) h0 h1

theorem cost_f {sc : Ctx} {n : Nat} (hn : sc.ps.n = n) (h0 : 0 < n) (h1 : n ≤ 136) (ha : E.cfg.ADR_SIZE = 32) (o i : Bytes) :
    Cost (meter p) (ts_shake256_f_simple E mem o i sc) fun _ k => k = only p .keccak (whole .keccak (n + 32 + n)) := by
  unfold ts_shake256_f_simple
  refine cost_frame ?_
  refine cost_bind (cost_init hn h1 ha _) fun t1 k1 _ ⟨hk1, g1⟩ => cost_bind (cost_next hn h1 _ g1) fun t2 k2 _ ⟨hk2, _⟩ => cost_bind (cost_final hn h0 h1 _) fun r k3 _ hk3 => cost_ok ?_
  rw [hk1, hk2, hk3, only_whole, Nat.zero_mul, show head .keccak n + (0 + 1) * n = n + 32 + n by rw [Nat.zero_add, Nat.one_mul]; rfl,
    show head .keccak n + 0 = n + 32 from rfl, show head .keccak n = n + 32 from rfl]
  have : full .keccak (n + 32) ≤ full .keccak (n + 32 + n) := Nat.div_le_div_right (by omega)
  unfold only
  split <;> omega

end K

/-! ## Parameter sets -/

/-- The functions of a kind. -/
def fam : Kind → Fam
  | .shake => .shake | .sha2L1 => .sha2L1 | .sha2L35 => .sha2L35

/-- A parameter set of a kind with this `n`. -/
structure Is (c : Config) (kind : Kind) (n : Nat) (q : ParamSet) : Prop where
  num : q.n = n
  lo : 0 < n
  hi : n ≤ 32
  prf_msg : q.prf_msg = fam kind
  hash_msg : q.hash_msg = fam kind
  prf : q.prf = fam kind
  f : q.f = fam kind
  init_t : q.init_t = fam kind
  next_t : q.next_t = fam kind
  final_t : q.final_t = fam kind
  pre : q.compute_prehash = if kind = .shake ∨ c.sha2opt = false then none else some (fam kind)
  adr : kind = .shake → c.ADR_SIZE = 32

/-- The position of an iterator. -/
def posOf (E : Env) : Kind → Nat → TIter → Nat → Prop
  | .shake => K.At E
  | .sha2L1 => L1.At E
  | .sha2L35 => L35.At E

theorem charges {kind : Kind} {n : Nat} {q : ParamSet} (I : Is E.cfg kind n q) : Charges (meter p) E mem q (price E.cfg.sha2opt kind n p) (posOf E kind n) := by
  have h0 := I.lo
  have h1 := I.hi
  refine ⟨?_, ?_, ?_, ?_, ?_⟩
  · rintro o c rfl
    unfold call_prf
    rw [I.prf]
    refine cost_calling ?_
    simp only [w_call, Nat.zero_add]
    cases kind with
    | shake => exact K.cost_prf I.num h0 (by omega) (I.adr rfl) o
    | sha2L1 => exact cost_sha2_prf I.num (by omega) o
    | sha2L35 => exact cost_sha2_prf I.num (by omega) o
  · rintro o i c rfl
    unfold call_f
    rw [I.f]
    refine cost_calling ?_
    simp only [w_call, Nat.zero_add]
    cases kind with
    | shake => exact K.cost_f I.num h0 (by omega) (I.adr rfl) o i
    | sha2L1 => exact cost_sha2_f I.num (by omega) o i
    | sha2L35 => exact cost_sha2_f I.num (by omega) o i
  · rintro t c rfl
    unfold call_init_t
    rw [I.init_t]
    refine cost_calling ?_
    simp only [w_call, Nat.zero_add]
    cases kind with
    | shake => exact K.cost_init I.num (by omega) (I.adr rfl) t
    | sha2L1 => exact L1.cost_init I.num (by omega) t
    | sha2L35 => exact L35.cost_init I.num (by omega) t
  · rintro t b i c rfl h
    unfold call_next_t
    rw [I.next_t]
    refine cost_calling ?_
    simp only [w_call, Nat.zero_add]
    cases kind with
    | shake => exact K.cost_next I.num (by omega) b h
    | sha2L1 => exact L1.cost_next I.num b h
    | sha2L35 => exact L35.cost_next I.num b h
  · rintro o t i c rfl h
    unfold call_final_t
    rw [I.final_t]
    refine cost_calling ?_
    simp only [w_call, Nat.zero_add]
    cases kind with
    | shake =>
      refine cost_mono (K.cost_final I.num h0 (by omega) o) fun _ k _ hk => ?_
      rw [hk]
      show _ = only p .keccak (whole .keccak _ - full .keccak (head .keccak n + i * n))
      rw [K.whole_keccak]
      exact congrArg _ (Nat.add_sub_cancel_left ..).symm
    | sha2L1 => exact L1.cost_final o h
    | sha2L35 => exact L35.cost_final o h

theorem cost_L1_prehash {sc : Ctx} {n : Nat} (hn : sc.ps.n = n) (h : n ≤ 64) :
    Cost (meter p) (ts_sha2_L1_prehash E mem sc) fun c k => k = only p .sha256 1 ∧ c.ps = sc.ps := by
  unfold ts_sha2_L1_prehash
  refine cost_frame ?_
  dsimp only
  rw [hn]
  have := Sha256.cost_seedBlock (p := p) (mem := mem) (pk := sc.public_key) h (E.as256 sc.small_iter)
  refine cost_bind0 (by idle) fun sd es => cost_bind (Sha256.cost_take (L := 0) rfl (length_memRead _ es)) fun c1 k1 _ ⟨hk1, h1⟩ => ?_
  rw [Nat.zero_add] at hk1 h1
  refine cost_bind (cost_loop_acc (I := fun i c => c.num = i % 64) (A := fun i => only p .sha256 (full .sha256 i)) (fun i c h => Sha256.cost_take h rfl) h1) fun c2 k2 _ ⟨hk2, h2⟩ => cost_ok ⟨?_, rfl⟩
  rw [show n + (64 - n) = 64 by omega] at hk2
  revert hk1 hk2
  simp only [only, full, rate]
  split <;> omega

theorem cost_L35_prehash {sc : Ctx} {n : Nat} (hn : sc.ps.n = n) (h : n ≤ 64) :
    Cost (meter p) (ts_sha2_L35_prehash E mem sc) fun _ k => k = only p .sha256 1 + only p .sha512 1 := by
  unfold ts_sha2_L35_prehash
  refine cost_frame ?_
  refine cost_bind (cost_L1_prehash hn h) fun sc' k _ ⟨hk, hps⟩ => ?_
  dsimp only
  rw [hps, hn]
  refine cost_bind0 (by idle) fun sd es => cost_bind (Sha512.cost_take (L := 0) rfl (length_memRead _ es)) fun c1 k1 _ ⟨hk1, h1⟩ => ?_
  rw [Nat.zero_add] at hk1 h1
  refine cost_bind (cost_loop_acc (I := fun i c => c.num = i % 128) (A := fun i => only p .sha512 (full .sha512 i)) (fun i c h => Sha512.cost_take h rfl) h1) fun c2 k2 _ ⟨hk2, h2⟩ => cost_ok ?_
  rw [show n + (128 - n) = 128 by omega] at hk2
  rw [hk]
  revert hk1 hk2
  simp only [only, full, rate]
  split <;> split <;> omega

theorem cost_prehash {kind : Kind} {n : Nat} {q : ParamSet} (I : Is E.cfg kind n q) (c : Ctx) (hc : c.ps = q) :
    Cost (meter p) (call_prehash E mem c) fun _ k => k = prehash E.cfg.sha2opt kind p := by
  subst hc
  unfold call_prehash
  have hp := I.pre
  have hi := I.hi
  cases hb : E.cfg.sha2opt with
  | false =>
    rw [if_neg (by decide)]
    refine cost_ok ?_
    cases kind <;> rfl
  | true =>
    rw [if_pos rfl]
    cases kind with
    | shake =>
      rw [if_pos (Or.inl rfl)] at hp
      exact cost_branch (fun _ => cost_ok rfl) fun h => absurd hp h
    | sha2L1 =>
      rw [if_neg (by rw [hb]; decide)] at hp
      refine cost_branch (fun h => by rw [hp] at h; cases h) fun _ => ?_
      rw [hp]
      exact cost_mono (cost_L1_prehash I.num (by omega)) fun _ _ _ h => h.1
    | sha2L35 =>
      rw [if_neg (by rw [hb]; decide)] at hp
      refine cost_branch (fun h => by rw [hp] at h; cases h) fun _ => ?_
      rw [hp]
      exact cost_L35_prehash I.num (by omega)

theorem setup {kind : Kind} {n : Nat} {q : ParamSet} {msg len : Nat} (I : Is E.cfg kind n q) (hm : len < 2 ^ 60) :
    Setup (meter p) E mem q msg len (prehash E.cfg.sha2opt kind p) (prfMsg kind n len p) (hashMsg kind n len MAX_MESSAGE_HASH p) := by
  have h0 := I.lo
  have h1 := I.hi
  refine ⟨fun c hc => cost_prehash I c hc, ?_, ?_⟩
  · rintro o r c rfl
    unfold call_prf_msg
    rw [I.prf_msg]
    refine cost_calling ?_
    simp only [w_call, Nat.zero_add]
    cases kind with
    | shake => exact K.cost_prf_msg I.num h0 (by omega) o r hm
    | sha2L1 => exact L1.cost_prf_msg I.num o r msg len
    | sha2L35 => exact L35.cost_prf_msg I.num o r msg len
  · rintro o r c rfl
    unfold call_hash_msg
    rw [I.hash_msg]
    refine cost_calling ?_
    simp only [w_call, Nat.zero_add]
    cases kind with
    | shake => exact K.cost_hash_msg I.num (by omega) o r (by decide) (by decide) hm
    | sha2L1 => exact L1.cost_hash_msg I.num o _ r msg len
    | sha2L35 => exact L35.cost_hash_msg I.num o _ r msg len

theorem is_ps {c : Config} {x : PsName} (h : supported c x = true) : Is c (kind x.inst) x.P.n (ps c x) := by
  have ha : c.shake = true → c.ADR_SIZE = 32 := fun h => if_pos h
  cases x <;> refine ⟨rfl, by decide, by decide, rfl, rfl, rfl, rfl, rfl, rfl, rfl, ?_, ?_⟩
  all_goals first
    | (intro e; cases e; done)
    | (cases hb : c.sha2opt <;> simp [ps, sha2L1Set, sha2L35Set, shakeSet, kind, PsName.inst, fam, hb]; done)
    | (intro _; refine ha ?_; revert h; simp [supported]; done)
    | (intro _; refine ha ?_; revert h; simp only [supported, Bool.and_eq_true]; intro h; simp [h])

theorem reads (S : Sess) {kd : Kind} (hk : S.fam = fam kd) : Reads S (posOf S.E kd S.n) := by
  intro t a B i h hB
  unfold IterRep at h
  have hs : S.pkSeed.length = S.n := S.hseed
  have hn := Nat.le_trans S.facts.nmax S.facts.max32
  cases kd with
  | shake =>
    rw [hk] at h
    obtain ⟨s, rfl, h⟩ := h
    have := h.pos
    show Shake.At s _
    unfold Shake.At
    rw [this, List.length_append, List.length_append, length_enc, hB, hs]
    rfl
  | sha2L1 =>
    rw [hk] at h
    obtain ⟨s, rfl, h⟩ := h
    have := h.num
    show s.num = _
    rw [this, List.length_append, List.length_append, List.length_append, length_encc, hB, hs, List.length_replicate]
    show _ = (64 + 22 + i * S.n) % 64
    omega
  | sha2L35 =>
    rw [hk] at h
    obtain ⟨s, rfl, h⟩ := h
    have := h.num
    show s.num = _
    rw [this, List.length_append, List.length_append, List.length_append, length_encc, hB, hs, List.length_replicate]
    show _ = (128 + 22 + i * S.n) % 128
    omega

end Leak.Work
