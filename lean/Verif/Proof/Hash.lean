import Verif.Proof.Setup
/-!
# The hash functions of the code compute those of the specification, for every set and configuration
-/
namespace Model
open Spec (Adrs)

variable (S : Sess)

/-- The iterator has absorbed the prefix for address `a` and the blocks `M`. -/
def IterRep (t : TIter) (a : Adrs) (M : Bytes) : Prop :=
  match S.fam with
  | .shake => ∃ s, t = .shake s ∧ Shake.AbsK s (S.pkSeed ++ a.enc ++ M)
  | .sha2L1 => ∃ s, t = .sha256 s ∧
      Sha256.Abs s (S.pkSeed ++ List.replicate (64 - S.n) 0 ++ a.encc ++ M)
  | .sha2L35 => ∃ s, t = .sha512 s ∧
      Sha512.Abs s (S.pkSeed ++ List.replicate (128 - S.n) 0 ++ a.encc ++ M)

variable {S}

theorem IterRep.wf {t : TIter} {a : Adrs} {M : Bytes} (h : IterRep S t a M) : WfIter t := by
  unfold IterRep at h
  split at h
  · obtain ⟨s, rfl, h⟩ := h; exact h.len
  · obtain ⟨s, rfl, h⟩ := h; exact h.dlen
  · obtain ⟨s, rfl, h⟩ := h; exact h.dlen

theorem length_enc (a : Adrs) : a.enc.length = 32 := by simp [Adrs.enc, length_toByte]
theorem length_encc (a : Adrs) : a.encc.length = 22 := by
  simp [Adrs.encc, length_enc]

/-- Address bytes hashed by the SHA-2 functions. -/
theorem adr22 {adr : Bytes} {a : Adrs} (h2 : S.ps.sha2 = true) (hl : adr.length = S.cfg.ADR_SIZE)
    (h : S.AdrIs adr a) : rdSlice adr 0 SHA2_ADR_SIZE = .ok a.encc := by
  unfold Sess.AdrIs at h
  rw [if_pos h2] at h
  rw [rdSlice_zero (by rw [hl]; unfold Config.ADR_SIZE SHA2_ADR_SIZE; split <;> omega)]
  unfold SHA2_ADR_SIZE; rw [h]

theorem adr32 {adr : Bytes} {a : Adrs} (h2 : S.fam = .shake) (hl : adr.length = S.cfg.ADR_SIZE)
    (h : S.AdrIs adr a) : rdSlice adr 0 S.cfg.ADR_SIZE = .ok a.enc := by
  unfold Sess.AdrIs at h
  have h3 := S.is_fam.sha2
  rw [h2] at h3
  rw [if_neg (by rw [h3]; decide)] at h
  rw [rdSlice_zero (by rw [hl]), ← hl, h, List.take_length]

theorem sha2_of {f : Fam} (h : S.fam = f) (hf : f ≠ .shake) : S.ps.sha2 = true := by
  rw [S.is_fam.sha2, h]; simp [hf]

/-- Padding the seed with zero bytes one at a time, SHA-256. -/
theorem zeros256 (ctx : Sha256.Ctx) (M : Bytes) (k st : Nat) (h : Sha256.Abs ctx M) :
    ∃ c, loop (fun _ ctx => Sha256.update ctx [0]) k st ctx = .ok c ∧
      Sha256.Abs c (M ++ List.replicate k 0) := by
  induction k generalizing ctx M st with
  | zero => exact ⟨ctx, rfl, by simpa using h⟩
  | succ k ih =>
    obtain ⟨c, e, h1⟩ := Sha256.update_ok ctx M [0] h
    obtain ⟨c2, e2, h2⟩ := ih c _ (st + 1) h1
    refine ⟨c2, by rw [loop_succ, e, ok_bind, e2], ?_⟩
    rw [List.replicate_succ]; simpa using h2

theorem zeros512 (ctx : Sha512.Ctx) (M : Bytes) (k st : Nat) (h : Sha512.Abs ctx M) :
    ∃ c, loop (fun _ ctx => Sha512.update ctx [0]) k st ctx = .ok c ∧
      Sha512.Abs c (M ++ List.replicate k 0) := by
  induction k generalizing ctx M st with
  | zero => exact ⟨ctx, rfl, by simpa using h⟩
  | succ k ih =>
    obtain ⟨c, e, h1⟩ := Sha512.update_ok ctx M [0] h
    obtain ⟨c2, e2, h2⟩ := ih c _ (st + 1) h1
    refine ⟨c2, by rw [loop_succ, e, ok_bind, e2], ?_⟩
    rw [List.replicate_succ]; simpa using h2

theorem pad256_len : (S.pkSeed ++ List.replicate (64 - S.n) (0 : UInt8)).length = 64 := by
  have h1 := S.facts.nmax; have h2 := S.facts.max32
  rw [List.length_append, List.length_replicate, S.seed_len]
  omega

theorem pad512_len : (S.pkSeed ++ List.replicate (128 - S.n) (0 : UInt8)).length = 128 := by
  have h1 := S.facts.nmax; have h2 := S.facts.max32
  rw [List.length_append, List.length_replicate, S.seed_len]
  omega

variable {mem : Mem}

theorem ctx_n {ctx : Ctx} (h : Good S ctx) : ctx.ps.n = S.n := by rw [h.ps]; exact S.facts.pn

theorem init256_ok {ctx : Ctx} (g : Good S ctx) (hm : S.MemPub mem) (hf : S.fam ≠ .shake) (c : Sha256.Ctx)
    (hc : c.data.length = 64) :
    ∃ c', ts_sha256_init_ctx S.E mem c ctx = .ok c' ∧
      Sha256.Abs c' (S.pkSeed ++ List.replicate (64 - S.n) 0) := by
  unfold ts_sha256_init_ctx
  split
  · rename_i ho
    rw [((g.pre ho).1 hf)]
    exact ⟨_, rfl, Sha256.restore_abs _ hc _ pad256_len⟩
  · simp only [g.pk, ctx_n g]
    rw [pubSeed_ok S mem hm, ok_bind]
    obtain ⟨c1, e1, h1⟩ := Sha256.update_ok _ _ S.pkSeed (Sha256.init_abs c hc)
    rw [e1, ok_bind]
    exact zeros256 c1 _ _ _ h1

theorem init512_ok {ctx : Ctx} (g : Good S ctx) (hm : S.MemPub mem) (hf : S.fam = .sha2L35) (c : Sha512.Ctx)
    (hc : c.data.length = 128) :
    ∃ c', ts_sha512_init_ctx S.E mem c ctx = .ok c' ∧
      Sha512.Abs c' (S.pkSeed ++ List.replicate (128 - S.n) 0) := by
  unfold ts_sha512_init_ctx
  split
  · rename_i ho
    rw [((g.pre ho).2 hf)]
    exact ⟨_, rfl, Sha512.restore_abs _ hc _ pad512_len⟩
  · simp only [g.pk, ctx_n g]
    rw [pubSeed_ok S mem hm, ok_bind]
    obtain ⟨c1, e1, h1⟩ := Sha512.update_ok _ _ S.pkSeed (Sha512.init_abs c hc)
    rw [e1, ok_bind]
    exact zeros512 c1 _ _ _ h1

/-! ## The incremental hash `T` -/

theorem call_init_t_ok {ctx : Ctx} {t : TIter} {a : Adrs} (g : Good S ctx) (hm : S.MemPub mem)
    (ha : S.AdrIs ctx.adr a) (ht : WfIter t) :
    ∃ t', call_init_t S.E mem t ctx = .ok t' ∧ IterRep S t' a [] := by
  have is := S.is_fam
  unfold call_init_t IterRep
  rw [g.ps, is.init_t]
  cases hf : S.fam with
  | shake =>
    simp only [ts_shake256_init_t_simple, g.pk, ctx_n g, pubSeed_ok S mem hm, ok_bind]
    obtain ⟨s0, e0, h0⟩ := Shake.inc_init_ok _ (S.E.asShake_len t ht)
    have hsl : S.pkSeed.length = S.n := S.hseed
    have hn := S.facts.nmax; have hn' := S.facts.max32
    obtain ⟨s1, e1, h1⟩ := Shake.inc_absorb_ok S.E.cfg.shakeOpt s0 [] S.pkSeed (by simp [hsl]; omega) h0
    rw [e0, ok_bind, e1, ok_bind, adr32 hf g.adr ha, ok_bind]
    obtain ⟨s2, e2, h2⟩ := Shake.inc_absorb_ok S.E.cfg.shakeOpt s1 _ a.enc (by simp [hsl, length_enc]; omega) h1
    rw [e2, ok_bind]
    exact ⟨_, rfl, s2, rfl, by simpa using h2⟩
  | sha2L1 =>
    simp only [ts_sha2_L1_init_t_simple]
    obtain ⟨s0, e0, h0⟩ := init256_ok g hm (by rw [hf]; decide) _ (S.E.as256_len t ht)
    rw [e0, ok_bind, adr22 (sha2_of hf (by decide)) g.adr ha, ok_bind]
    obtain ⟨s1, e1, h1⟩ := Sha256.update_ok s0 _ a.encc h0
    rw [e1, ok_bind]
    exact ⟨_, rfl, s1, rfl, by simpa using h1⟩
  | sha2L35 =>
    simp only [ts_sha2_L35_init_t_simple]
    obtain ⟨s0, e0, h0⟩ := init512_ok g hm hf _ (S.E.as512_len t ht)
    rw [e0, ok_bind, adr22 (sha2_of hf (by decide)) g.adr ha, ok_bind]
    obtain ⟨s1, e1, h1⟩ := Sha512.update_ok s0 _ a.encc h0
    rw [e1, ok_bind]
    exact ⟨_, rfl, s1, rfl, by simpa using h1⟩

theorem call_next_t_ok {ctx : Ctx} {t : TIter} {a : Adrs} {M inp : Bytes} (g : Good S ctx)
    (h : IterRep S t a M) (hM : M.length < 2 ^ 32) (hi : S.n ≤ inp.length) :
    ∃ t', call_next_t S.E t inp ctx = .ok t' ∧ IterRep S t' a (M ++ inp.take S.n) := by
  have is := S.is_fam
  have hsl : S.pkSeed.length = S.n := S.hseed
  have hn := S.facts.nmax; have hn' := S.facts.max32
  unfold call_next_t
  unfold IterRep at *
  rw [g.ps, is.next_t]
  cases hf : S.fam with
  | shake =>
    rw [hf] at h
    obtain ⟨s, rfl, h⟩ := h
    simp only [ts_shake256_next_t_simple, ctx_n g]
    rw [rdSlice_zero hi, ok_bind]
    obtain ⟨s1, e1, h1⟩ := Shake.inc_absorb_ok S.E.cfg.shakeOpt s _ (inp.take S.n)
      (by simp [hsl, length_enc]; omega) h
    simp only [Env.asShake]
    rw [e1, ok_bind]
    exact ⟨_, rfl, s1, rfl, by simpa using h1⟩
  | sha2L1 =>
    rw [hf] at h
    obtain ⟨s, rfl, h⟩ := h
    simp only [ts_sha2_L1_next_t_simple, ctx_n g]
    rw [rdSlice_zero hi, ok_bind]
    obtain ⟨s1, e1, h1⟩ := Sha256.update_ok (s.on S.E.cfg.arch.big) _ (inp.take S.n) (h.on _)
    simp only [Env.as256]
    rw [e1, ok_bind]
    exact ⟨_, rfl, s1, rfl, by simpa using h1⟩
  | sha2L35 =>
    rw [hf] at h
    obtain ⟨s, rfl, h⟩ := h
    simp only [ts_sha2_L35_next_t_simple, ctx_n g]
    rw [rdSlice_zero hi, ok_bind]
    obtain ⟨s1, e1, h1⟩ := Sha512.update_ok (s.on S.E.cfg.arch.big) _ (inp.take S.n) (h.on _)
    simp only [Env.as512]
    rw [e1, ok_bind]
    exact ⟨_, rfl, s1, rfl, by simpa using h1⟩

theorem hf_eq (S : Sess) : S.hf = Sess.fnsOf S.fam S.n := S.is_fam.hf

theorem call_final_t_ok {ctx : Ctx} {t : TIter} {a : Adrs} {M out : Bytes} (g : Good S ctx)
    (h : IterRep S t a M) (hM : M.length < 2 ^ 32) (ho : S.n ≤ out.length) :
    ∃ t', call_final_t S.E out t ctx = .ok (S.hf.T S.pkSeed a M ++ out.drop S.n, t') ∧ WfIter t' := by
  have is := S.is_fam
  have hsl : S.pkSeed.length = S.n := S.hseed
  have hn := S.facts.nmax; have hn' := S.facts.max32; have hn8 := S.facts.n8
  unfold call_final_t
  unfold IterRep at *
  rw [hf_eq, g.ps, is.final_t]
  cases hf : S.fam with
  | shake =>
    rw [hf] at h
    obtain ⟨s, rfl, h⟩ := h
    simp only [ts_shake256_final_t_simple, ctx_n g, Env.asShake]
    obtain ⟨s1, e1, h1⟩ := Shake.inc_finalize_ok s _ h
    rw [e1, ok_bind]
    obtain ⟨s2, e2, h2⟩ := Shake.inc_squeeze_ok S.E.cfg.shakeOpt out 0 S.n 0 s1 _ (by omega) h1
    rw [e2, ok_bind]
    refine ⟨_, ?_, show WfIter (.shake s2) from h2.len⟩
    simp [Sess.fnsOf, Spec.shakeFns]
  | sha2L1 =>
    rw [hf] at h
    obtain ⟨s, rfl, h⟩ := h
    simp only [ts_sha2_L1_final_t_simple, ctx_n g, Env.as256]
    obtain ⟨s1, e1, h1⟩ := Sha256.final_trunc_ok out (s.on S.E.cfg.arch.big) _ S.n (h.on _)
      (by rw [List.length_append, List.length_append, pad256_len, length_encc]; omega)
      (by omega) (by omega) ho
    rw [e1, ok_bind]
    exact ⟨_, rfl, show WfIter (.sha256 s1) from h1⟩
  | sha2L35 =>
    rw [hf] at h
    obtain ⟨s, rfl, h⟩ := h
    simp only [ts_sha2_L35_final_t_simple, ctx_n g, Env.as512]
    obtain ⟨s1, e1, h1⟩ := Sha512.final_trunc_ok out (s.on S.E.cfg.arch.big) _ S.n (h.on _)
      (by rw [List.length_append, List.length_append, pad512_len, length_encc]; omega)
      (by omega) (by omega) ho
    rw [e1, ok_bind]
    exact ⟨_, rfl, show WfIter (.sha512 s1) from h1⟩

/-! ## `F` and `PRF` -/

theorem call_prf_ok {ctx : Ctx} {a : Adrs} {out sk : Bytes} (g : Good S ctx) (hm : S.MemPub mem)
    (hs : S.MemSec mem sk) (ha : S.AdrIs ctx.adr a) (ho : S.n ≤ out.length) :
    ∃ si, call_prf S.E mem out ctx =
      .ok (S.hf.PRF S.pkSeed sk a ++ out.drop S.n, { ctx with small_iter := si }) ∧ WfIter si := by
  have is := S.is_fam
  have hsl : S.pkSeed.length = S.n := S.hseed
  have hskl : sk.length = S.n := hs.2.1
  have hn := S.facts.nmax; have hn' := S.facts.max32; have hn8 := S.facts.n8
  unfold call_prf
  have hp : ctx.ps.prf = S.fam := by rw [g.ps, is.prf]
  rw [hf_eq, hp]
  have sha : S.fam ≠ .shake → ∃ si, ts_sha2_prf S.E mem out ctx =
      .ok (Spec.sha256Block S.n S.pkSeed a sk ++ out.drop S.n, { ctx with small_iter := si }) ∧ WfIter si := by
    intro hf
    unfold ts_sha2_prf
    obtain ⟨s0, e0, h0⟩ := init256_ok g hm hf _ (S.E.as256_len _ g.si)
    simp only [ctx_n g, g.pk]
    rw [e0, ok_bind, adr22 (sha2_of rfl hf) g.adr ha, ok_bind]
    obtain ⟨s1, e1, h1⟩ := Sha256.update_ok s0 _ a.encc h0
    rw [e1, ok_bind, secSeed_ok S mem sk hs, ok_bind]
    obtain ⟨s2, e2, h2⟩ := Sha256.update_ok s1 _ sk h1
    rw [e2, ok_bind]
    obtain ⟨s3, e3, h3⟩ := Sha256.final_trunc_ok out s2 _ S.n h2
      (by rw [List.length_append, List.length_append, pad256_len, length_encc]; omega)
      (by omega) (by omega) ho
    rw [e3, ok_bind]
    exact ⟨_, rfl, show WfIter (.sha256 s3) from h3⟩
  cases hf : S.fam with
  | shake =>
    simp only [ts_shake256_prf, g.pk, ctx_n g, pubSeed_ok S mem hm, secSeed_ok S mem sk hs, ok_bind]
    obtain ⟨s0, e0, h0⟩ := Shake.inc_init_ok _ (S.E.asShake_len _ g.si)
    obtain ⟨s1, e1, h1⟩ := Shake.inc_absorb_ok S.E.cfg.shakeOpt s0 [] S.pkSeed (by simp [hsl]; omega) h0
    rw [e0, ok_bind, e1, ok_bind, adr32 hf g.adr ha, ok_bind]
    obtain ⟨s2, e2, h2⟩ := Shake.inc_absorb_ok S.E.cfg.shakeOpt s1 _ a.enc (by simp [hsl, length_enc]; omega) h1
    rw [e2, ok_bind]
    obtain ⟨s3, e3, h3⟩ := Shake.inc_absorb_ok S.E.cfg.shakeOpt s2 _ sk (by simp [hsl, hskl, length_enc]; omega) h2
    rw [e3, ok_bind]
    obtain ⟨s4, e4, h4⟩ := Shake.inc_finalize_ok s3 _ h3
    rw [e4, ok_bind]
    obtain ⟨s5, e5, h5⟩ := Shake.inc_squeeze_ok S.E.cfg.shakeOpt out 0 S.n 0 s4 _ (by omega) h4
    rw [e5, ok_bind]
    refine ⟨_, ?_, show WfIter (.shake s5) from h5.len⟩
    simp [Sess.fnsOf, Spec.shakeFns]
  | sha2L1 => exact sha (by rw [hf]; decide)
  | sha2L35 => exact sha (by rw [hf]; decide)

theorem call_f_ok {ctx : Ctx} {a : Adrs} {out inp : Bytes} (g : Good S ctx) (hm : S.MemPub mem)
    (ha : S.AdrIs ctx.adr a) (ho : S.n ≤ out.length) (hi : S.n ≤ inp.length) :
    ∃ si, call_f S.E mem out inp ctx =
      .ok (S.hf.F S.pkSeed a (inp.take S.n) ++ out.drop S.n, { ctx with small_iter := si }) ∧
      WfIter si := by
  have is := S.is_fam
  have hsl : S.pkSeed.length = S.n := S.hseed
  have hn := S.facts.nmax; have hn' := S.facts.max32; have hn8 := S.facts.n8
  unfold call_f
  have hp : ctx.ps.f = S.fam := by rw [g.ps, is.pf]
  rw [hf_eq, hp]
  have sha : S.fam ≠ .shake → ∃ si, ts_sha2_f_simple S.E mem out inp ctx =
      .ok (Spec.sha256Block S.n S.pkSeed a (inp.take S.n) ++ out.drop S.n, { ctx with small_iter := si }) ∧
      WfIter si := by
    intro hf
    unfold ts_sha2_f_simple
    obtain ⟨s0, e0, h0⟩ := init256_ok g hm hf _ (S.E.as256_len _ g.si)
    simp only [ctx_n g]
    rw [e0, ok_bind, adr22 (sha2_of rfl hf) g.adr ha, ok_bind]
    obtain ⟨s1, e1, h1⟩ := Sha256.update_ok s0 _ a.encc h0
    rw [e1, ok_bind, rdSlice_zero hi, ok_bind]
    obtain ⟨s2, e2, h2⟩ := Sha256.update_ok s1 _ (inp.take S.n) h1
    rw [e2, ok_bind]
    obtain ⟨s3, e3, h3⟩ := Sha256.final_trunc_ok out s2 _ S.n h2
      (by rw [List.length_append, List.length_append, pad256_len, length_encc]; simp; omega)
      (by omega) (by omega) ho
    rw [e3, ok_bind]
    exact ⟨_, rfl, show WfIter (.sha256 s3) from h3⟩
  cases hf : S.fam with
  | shake =>
    simp only [ts_shake256_f_simple, ts_shake256_init_t_simple, ts_shake256_next_t_simple,
      ts_shake256_final_t_simple, g.pk, ctx_n g, pubSeed_ok S mem hm, ok_bind]
    obtain ⟨s0, e0, h0⟩ := Shake.inc_init_ok _ (S.E.asShake_len _ g.si)
    obtain ⟨s1, e1, h1⟩ := Shake.inc_absorb_ok S.E.cfg.shakeOpt s0 [] S.pkSeed (by simp [hsl]; omega) h0
    rw [e0, ok_bind, e1, ok_bind, adr32 hf g.adr ha, ok_bind]
    obtain ⟨s2, e2, h2⟩ := Shake.inc_absorb_ok S.E.cfg.shakeOpt s1 _ a.enc (by simp [hsl, length_enc]; omega) h1
    rw [e2, ok_bind, ok_bind, rdSlice_zero hi, ok_bind]
    obtain ⟨s3, e3, h3⟩ := Shake.inc_absorb_ok S.E.cfg.shakeOpt s2 _ (inp.take S.n) (by simp [hsl, length_enc]; omega) h2
    simp only [Env.asShake]
    rw [e3, ok_bind, ok_bind]
    obtain ⟨s4, e4, h4⟩ := Shake.inc_finalize_ok s3 _ h3
    rw [e4, ok_bind]
    obtain ⟨s5, e5, h5⟩ := Shake.inc_squeeze_ok S.E.cfg.shakeOpt out 0 S.n 0 s4 _ (by omega) h4
    rw [e5, ok_bind, ok_bind]
    refine ⟨_, ?_, show WfIter (.shake s5) from h5.len⟩
    simp [Sess.fnsOf, Spec.shakeFns]
  | sha2L1 => exact sha (by rw [hf]; decide)
  | sha2L35 => exact sha (by rw [hf]; decide)

/-! ## Output lengths -/

theorem length_sha256Block (n : Nat) (hn : n ≤ 32) (s : Bytes) (a : Adrs) (M : Bytes) :
    (Spec.sha256Block n s a M).length = n := by
  simp [Spec.sha256Block, Sha256.length_hash]; omega

theorem length_sha512Block (n : Nat) (hn : n ≤ 64) (s : Bytes) (a : Adrs) (M : Bytes) :
    (Spec.sha512Block n s a M).length = n := by
  simp [Spec.sha512Block, Sha512.length_hash]; omega

theorem n_le : S.n ≤ 32 := Nat.le_trans S.facts.nmax S.facts.max32

theorem length_F (s : Bytes) (a : Adrs) (M : Bytes) : (S.hf.F s a M).length = S.n := by
  have := n_le (S := S)
  rw [hf_eq]
  cases S.fam <;> simp only [Sess.fnsOf, Spec.shakeFns, Spec.sha2L1Fns, Spec.sha2L35Fns]
  · exact Shake.length_shake256 _ _
  · exact length_sha256Block _ this _ _ _
  · exact length_sha256Block _ this _ _ _

theorem length_T (s : Bytes) (a : Adrs) (M : Bytes) : (S.hf.T s a M).length = S.n := by
  have := n_le (S := S)
  rw [hf_eq]
  cases S.fam <;> simp only [Sess.fnsOf, Spec.shakeFns, Spec.sha2L1Fns, Spec.sha2L35Fns]
  · exact Shake.length_shake256 _ _
  · exact length_sha256Block _ this _ _ _
  · exact length_sha512Block _ (by omega) _ _ _

theorem length_PRF (s sk : Bytes) (a : Adrs) : (S.hf.PRF s sk a).length = S.n := by
  have := n_le (S := S)
  rw [hf_eq]
  cases S.fam <;> simp only [Sess.fnsOf, Spec.shakeFns, Spec.sha2L1Fns, Spec.sha2L35Fns]
  · exact Shake.length_shake256 _ _
  · exact length_sha256Block _ this _ _ _
  · exact length_sha256Block _ this _ _ _

theorem length_PRFmsg (s o M : Bytes) : (S.hf.PRFmsg s o M).length = S.n := by
  have := n_le (S := S)
  rw [hf_eq]
  cases S.fam <;> simp only [Sess.fnsOf, Spec.shakeFns, Spec.sha2L1Fns, Spec.sha2L35Fns]
  · exact Shake.length_shake256 _ _
  · simp [Spec.hmac, Sha256.length_hash]; omega
  · simp [Spec.hmac, Sha512.length_hash]; omega

/-! ## The saved hash states -/

theorem call_prehash_ok {ctx : Ctx} (hps : ctx.ps = S.ps) (hpk : ctx.public_key = S.pk) (hm : S.MemPub mem)
    (hsh : Shape S.cfg ctx) :
    ∃ si p256 p512, call_prehash S.E mem ctx =
      .ok { ctx with small_iter := si, prehash_sha256 := p256, prehash_sha512 := p512 } ∧
      Good S { ctx with small_iter := si, prehash_sha256 := p256, prehash_sha512 := p512 } := by
  have is := S.is_fam
  have hn : ctx.ps.n = S.n := by rw [hps]; exact S.facts.pn
  have hpub : pubSeed mem ctx.public_key S.n = .ok S.pkSeed := by rw [hpk]; exact pubSeed_ok S mem hm
  have key : ∀ si p256 p512, WfIter si → S.PreOK { ctx with small_iter := si, prehash_sha256 := p256, prehash_sha512 := p512 } →
      Good S { ctx with small_iter := si, prehash_sha256 := p256, prehash_sha512 := p512 } := fun si p256 p512 h1 h2 =>
    ⟨⟨hsh.adr, hsh.buf, hsh.auth, hsh.x, h1, hsh.bi⟩, hps, hpk, h2⟩
  have L1 : ∃ c, ts_sha2_L1_prehash S.E mem ctx = .ok { ctx with prehash_sha256 := Sha256.chain (S.pkSeed ++ List.replicate (64 - S.n) 0), small_iter := .sha256 c } ∧ c.data.length = 64 := by
    unfold ts_sha2_L1_prehash
    simp only [hn, hpk]
    obtain ⟨s1, e1, h1⟩ := Sha256.update_ok _ _ S.pkSeed (Sha256.init_abs _ (S.E.as256_len _ hsh.si))
    obtain ⟨s2, e2, h2⟩ := zeros256 s1 _ (64 - S.n) S.n h1
    rw [pubSeed_ok S mem hm, ok_bind, e1, ok_bind, e2, ok_bind]
    refine ⟨s2, ?_, h2.dlen⟩
    rw [Sha256.save_state, h2.h, List.nil_append]
  unfold call_prehash
  by_cases ho : S.E.cfg.sha2opt = true
  · have hp : ctx.ps.compute_prehash = _ := (congrArg ParamSet.compute_prehash hps).trans is.prehash
    rw [if_pos ho, hp]
    cases hf : S.fam with
    | shake =>
      simp only [ne_eq, not_true_eq_false, false_and, if_false]
      exact ⟨_, _, _, rfl, key _ _ _ hsh.si (fun _ => ⟨fun h => absurd hf h, fun h => by rw [hf] at h; cases h⟩)⟩
    | sha2L1 =>
      have : (Fam.sha2L1 ≠ Fam.shake ∧ S.cfg.sha2opt = true) := ⟨by decide, ho⟩
      rw [if_pos this]
      obtain ⟨c, e, h⟩ := L1
      simp only [e]
      exact ⟨_, _, _, rfl, key _ _ _ h (fun _ => ⟨fun _ => rfl, fun h => by rw [hf] at h; cases h⟩)⟩
    | sha2L35 =>
      have : (Fam.sha2L35 ≠ Fam.shake ∧ S.cfg.sha2opt = true) := ⟨by decide, ho⟩
      rw [if_pos this]
      obtain ⟨c, e, h⟩ := L1
      simp only [ts_sha2_L35_prehash, e, ok_bind, hn]
      obtain ⟨s1, e1, h1⟩ := Sha512.update_ok _ _ S.pkSeed
        (Sha512.init_abs _ (S.E.as512_len (.sha256 c) h))
      obtain ⟨s2, e2, h2⟩ := zeros512 s1 _ (128 - S.n) S.n h1
      rw [hpub, ok_bind, e1, ok_bind, e2, ok_bind]
      refine ⟨.sha512 s2, _, _, rfl, key _ _ _ (show WfIter (.sha512 s2) from h2.dlen) (fun _ => ⟨fun _ => rfl, fun _ => ?_⟩)⟩
      simp only []
      rw [Sha512.save_state, h2.h, List.nil_append]
  · rw [if_neg ho]
    exact ⟨_, _, _, rfl, key _ _ _ hsh.si (fun h => absurd h ho)⟩

end Model
