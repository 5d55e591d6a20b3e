import Verif.Properties.Binding
/-!
# C52: a forgery after any number of signatures

The owner of a key has signed any number of messages. Whoever presents something else that is accepted has found a second preimage, a one-time chain value
that is not published, a secret few-time (FORS) value that no signature has shown, or a new pair of randomizer and message whose digest selects only few-time
values that signatures have shown.
-/
namespace Properties
open Model Spec.Slh

/-- A secret few-time value: value number `idx` of FORS tree `i` of the FORS key at bottom leaf `ℓ`. -/
def forsSecret (x : PsName) (sk : Bytes) (ℓ i idx : Nat) : Bytes :=
  forsSk x.fns (sk.take x.P.n) (skPkSeed x.P.n sk) (ℓ / 2 ^ x.P.hp) (ℓ % 2 ^ x.P.hp) (i * 2 ^ x.P.a + idx)

/-- The block of a signature with the secret value of FORS tree `i`. -/
def secretBlock (x : PsName) (σ : Bytes) (i : Nat) : Bytes := blockAt x σ (1 + i * (x.P.a + 1))

/-- The index that a digest selects in FORS tree `i`. -/
def forsIndex (x : PsName) (D : Bytes) (i : Nat) : Nat := (mdIndices x.P D).getD i 0

/-- Two digests select the same secret value of FORS tree `i`: the same FORS key (bottom leaf) and the same index. -/
def SameSecret (x : PsName) (i : Nat) (D D' : Bytes) : Prop := bottomLeaf x D = bottomLeaf x D' ∧ forsIndex x D i = forsIndex x D' i

/-- `σ` shows a secret few-time value, selected by its digest, that none of the signatures `Q` (messages and signatures) shows. -/
def ShowsSecret (x : PsName) (sk : Bytes) (Q : List (Bytes × Bytes)) (M σ : Bytes) : Prop :=
  ∃ i, i < x.P.k ∧
    let pk := sk.drop (2 * x.P.n)
    let D := digest x pk M σ
    (∀ q ∈ Q, ¬ SameSecret x i (digest x pk q.1 q.2) D) ∧ secretBlock x σ i = forsSecret x sk (bottomLeaf x D) i (forsIndex x D i)

/-- Randomizer and message are not those of one of the signatures `Q`, yet every secret few-time value that the digest selects is selected by one of `Q`. -/
def Covered (x : PsName) (pk : Bytes) (Q : List (Bytes × Bytes)) (M σ : Bytes) : Prop :=
  (∀ q ∈ Q, (q.2.take x.P.n, q.1) ≠ (σ.take x.P.n, M)) ∧
    ∀ i, i < x.P.k → ∃ q ∈ Q, SameSecret x i (digest x pk q.1 q.2) (digest x pk M σ)

/-- A use of a private key: a signature operation, the requests of the `ts_sign` calls that drain it, and the bytes delivered. -/
structure Signed where
  S : SignJob
  reqs : List (Bytes × Nat)
  σ : Bytes
  fit : Fits reqs
  all : ts_size_signature (ps S.E.cfg S.x) ≤ asked reqs
  signs : Signs S reqs σ

theorem signWith_secret (x : PsName) (sk R M : Bytes) (hsk : sk.length = 4 * x.P.n) (hR : R.length = x.P.n) (i : Nat) (hi : i < x.P.k) :
    secretBlock x (signWith x.P x.fns sk R M) i =
      let D := x.fns.Hmsg R (skPkSeed x.P.n sk) ((sk.drop (3 * x.P.n)).take x.P.n) M x.P.m
      forsSecret x sk (bottomLeaf x D) i (forsIndex x D i) := by
  have hs : supported (envOf fullCfg).cfg x = true := by cases x <;> rfl
  let S := skSess (envOf fullCfg) x hs 0 sk hsk
  unfold signWith
  simp only
  show secretBlock x ([R] ++ forsSign x.P x.fns (sk.take x.P.n) (skPkSeed x.P.n sk) _ _ _ ++ _).flatten i = _
  rw [show ((sk.drop (2 * x.P.n)).take x.P.n) = skPkSeed x.P.n sk from rfl]
  generalize x.fns.Hmsg R (skPkSeed x.P.n sk) ((sk.drop (3 * x.P.n)).take x.P.n) M x.P.m = D
  have hll := leafIdx_lt x.P D
  generalize hfs : forsSign x.P x.fns (sk.take x.P.n) (skPkSeed x.P.n sk) (treeIdx x.P D) (leafIdx x.P D) (mdIndices x.P D) = fs
  have hfl : fs.length = x.P.k * (x.P.a + 1) := by rw [← hfs]; exact length_forsSign ..
  have hb : ∀ b ∈ [R] ++ fs ++ htSign x.P x.fns (sk.take x.P.n) (skPkSeed x.P.n sk) (treeIdx x.P D) (leafIdx x.P D)
      (forsPkFromSig x.P x.fns (skPkSeed x.P.n sk) (treeIdx x.P D) (leafIdx x.P D) (mdIndices x.P D) fs), b.length = x.P.n := by
    intro b hb
    simp only [List.mem_append, List.mem_singleton] at hb
    rcases hb with (rfl | h) | h
    · exact hR
    · rw [← hfs] at h; exact forsSign_len (S := S) _ _ _ _ b h
    · exact htSignFrom_len (S := S) _ _ _ _ _ _ b h
  have hik : i * (x.P.a + 1) + (x.P.a + 1) ≤ x.P.k * (x.P.a + 1) := by
    rw [← Nat.succ_mul]; exact Nat.mul_le_mul_right _ hi
  unfold secretBlock blockAt
  rw [flatten_block _ _ hb _ (by rw [List.length_append, List.length_append, hfl, List.length_singleton]; omega),
    List.append_assoc, List.singleton_append, Nat.add_comm 1, List.getD_cons_succ, List.getD_append _ _ _ _ (by omega)]
  have hsl := flatMap_range_slice (fun i => forsTreeSig x.P x.fns (sk.take x.P.n) (skPkSeed x.P.n sk) (treeIdx x.P D) (leafIdx x.P D) i ((mdIndices x.P D).getD i 0)) x.P.k (x.P.a + 1) i
    (fun j => length_forsTreeSig _ _ _ _ _ _ _ _) hi
  have e : fs.getD (i * (x.P.a + 1)) [] = ((fs.drop (i * (x.P.a + 1))).take (x.P.a + 1)).getD 0 [] := by
    rw [List.getD_eq_getElem?_getD, List.getD_eq_getElem?_getD, List.getElem?_take_of_lt (by omega), List.getElem?_drop]
    rfl
  rw [e, ← hfs]
  unfold forsSign
  rw [hsl]
  unfold forsTreeSig forsSecret forsIndex bottomLeaf
  have hp : 0 < 2 ^ x.P.hp := Nat.pow_pos (by omega)
  rw [List.getD_cons_zero, Nat.mul_comm (treeIdx x.P D), Nat.mul_add_mod, Nat.mod_eq_of_lt hll, Nat.mul_add_div hp, Nat.div_eq_of_lt hll, Nat.add_zero]

/-- C52: what signatures show. In every signature made with `sk`, the block of FORS tree `i` is the secret value that the digest selects. -/
theorem C52_shown (h : Signed) (i : Nat) (hi : i < h.S.x.P.k) :
    let D := digest h.S.x (h.S.sk.drop (2 * h.S.x.P.n)) h.S.M h.σ
    secretBlock h.S.x h.σ i = forsSecret h.S.x h.S.sk (bottomLeaf h.S.x D) i (forsIndex h.S.x D i) := by
  have e := h.signs.eq h.fit h.all
  have hl := h.S.length_signature
  have hn : h.S.x.P.n ≤ h.S.x.P.sigBytes := by generalize h.S.x = x; cases x <;> decide
  have := signWith_secret h.S.x h.S.sk (h.S.signature.take h.S.x.P.n) h.S.M h.S.skLen (by rw [List.length_take]; omega) i hi
  rw [← signature_signWith] at this
  unfold digest
  rw [e, this, List.drop_drop, show 2 * h.S.x.P.n + h.S.x.P.n = 3 * h.S.x.P.n by omega]
  rfl

/-- C52: after a successful `ts_gen_key`, let any number of messages be signed with the private key, in any builds and with any randomness. Let any other
bytes be accepted, or one of these signatures for another message. Then checking them hits a second preimage of the owner's hashes; or they show a
one-time chain value before the published one; or a secret few-time value that no signature has shown; or their randomizer and message are new and the digest selects
only values that have been shown. -/
theorem C52_forgery (K : KeyJob) (hok : K.delivers = true) :
    ∃ mem' rq sk pk, K.run = .ok (1, mem', rq) ∧ mem'.Has K.priv sk ∧ (∀ p, K.pub = some p → mem'.Has p pk) ∧
      sk.length = 4 * K.x.P.n ∧ pk = sk.drop (2 * K.x.P.n) ∧
      ∀ H : List Signed, (∀ h ∈ H, h.S.x = K.x ∧ h.S.sk = sk) →
        ∀ (V : VerifyJob) (ts : List Bytes), V.x = K.x → V.pk = pk → (∀ h ∈ H, (h.S.M, h.σ) ≠ (V.M, ts.flatten)) →
          let Q := H.map fun h => (h.S.M, h.σ)
          ∃ c rs c', V.init = .ok c ∧ updateCalls V.E V.mem c ts = .ok (rs, c') ∧
            (ts_verify c' = 1 →
              HitsSecondPreimage K.x sk V.M ts.flatten ∨ ShowsUnpublished K.x sk V.M ts.flatten ∨
              ShowsSecret K.x sk Q V.M ts.flatten ∨ Covered K.x pk Q V.M ts.flatten) := by
  obtain ⟨mem', rq, sk, pk, e, k1, k2, hl, hpk, h⟩ := C34_accepted K hok
  refine ⟨mem', rq, sk, pk, e, k1, k2, hl, hpk, ?_⟩
  intro H hH V ts hVx hVpk hnew
  obtain ⟨c, rs, c', e1, e2, h1⟩ := h V ts hVx hVpk
  obtain ⟨d, us, d', f1, f2, hv5, -⟩ := C05_verdict V ts
  rw [e1] at f1; cases f1
  rw [e2] at f2; cases f2
  refine ⟨c, rs, c', e1, e2, fun hv => ?_⟩
  have hlen := (hv5.1 hv).1
  rw [size_eq, hVx] at hlen
  rcases h1 hv with h1 | h1 | h1
  · rw [hVx] at h1
    have hn : K.x.P.n ≤ K.x.P.sigBytes := by generalize K.x = x; cases x <;> decide
    have hsec := fun i hi => signWith_secret K.x sk (ts.flatten.take K.x.P.n) V.M hl (by rw [List.length_take]; omega) i hi
    rw [← h1] at hsec
    have hD : K.x.fns.Hmsg (ts.flatten.take K.x.P.n) (skPkSeed K.x.P.n sk) ((sk.drop (3 * K.x.P.n)).take K.x.P.n) V.M K.x.P.m = digest K.x (sk.drop (2 * K.x.P.n)) V.M ts.flatten := by
      unfold digest
      rw [List.drop_drop, show 2 * K.x.P.n + K.x.P.n = 3 * K.x.P.n by omega]
      rfl
    rw [hD] at hsec
    by_cases hc : ∀ i, i < K.x.P.k → ∃ q ∈ H.map fun h => (h.S.M, h.σ), SameSecret K.x i (digest K.x pk q.1 q.2) (digest K.x pk V.M ts.flatten)
    · refine .inr (.inr (.inr ⟨?_, hc⟩))
      intro q hq he
      obtain ⟨g, hg, rfl⟩ := List.mem_map.1 hq
      simp only [Prod.mk.injEq] at he
      refine hnew g hg ?_
      rw [Prod.mk.injEq]
      refine ⟨he.2, ?_⟩
      have hs := g.signs.eq g.fit g.all
      rw [h1, ← he.1, hs, ← he.2, ← (hH g hg).1, ← (hH g hg).2]
      exact signature_signWith g.S
    · refine .inr (.inr (.inl ?_))
      obtain ⟨i, hi⟩ := Classical.not_forall.1 hc
      obtain ⟨hi, hne⟩ := Classical.not_imp.1 hi
      refine ⟨i, hi, ?_, hsec i hi⟩
      intro q hq hss
      subst hpk
      exact hne ⟨q, hq, hss⟩
  · exact .inl (hVx ▸ h1)
  · exact .inr (.inl (hVx ▸ h1))

/-! The hypotheses are met, for every key and any messages: two are signed, and a signature of a third one is accepted (it is a forgery for someone who has
only the two). -/

/-- Deterministic signing of `M` with a key in memory, in one piece. -/
def signedExample (x : PsName) (sk M : Bytes) (hsk : sk.length = 4 * x.P.n) (hM : M.length < 2 ^ 60) : Signed :=
  let J : SignJob := ⟨envOf fullCfg, x, by cases x <;> rfl, twoMem sk M, 0, sk, sk.length, M, none, dirtyCtx fullCfg, dirty_shape _, hsk, twoMem_left _ _, twoMem_right _ _, hM, by simp⟩
  have hf : Fits [(List.replicate x.P.sigBytes 0, x.P.sigBytes)] := by simp [Fits]
  have ha : x.P.sigBytes ≤ asked [(List.replicate x.P.sigBytes (0 : UInt8), x.P.sigBytes)] := by simp [asked]
  ⟨J, [(List.replicate x.P.sigBytes 0, x.P.sigBytes)], J.signature, hf, by rw [size_eq]; exact ha,
    let ⟨c, rq, outs, c', e1, e2, e3⟩ := C02_signature J _ hf ha
    ⟨c, rq, outs, c', e1, e2, e3⟩⟩

example (K : KeyJob) (hok : K.delivers = true) (M₁ M₂ M₃ : Bytes) (h₁ : M₁.length < 2 ^ 60) (h₂ : M₂.length < 2 ^ 60) (h₃ : M₃.length < 2 ^ 60) (n₁ : M₁ ≠ M₃) (n₂ : M₂ ≠ M₃) :
    ∃ (H : List Signed) (V : VerifyJob) (σ : Bytes) (c : Ctx) (rs : List Nat) (c' : Ctx),
      H.map (fun h => h.S.M) = [M₁, M₂] ∧ (∀ h ∈ H, h.S.x = K.x ∧ h.S.sk = standardKey K.x K.bytes) ∧ V.x = K.x ∧ V.pk = (standardKey K.x K.bytes).drop (2 * K.x.P.n) ∧ V.M = M₃ ∧
      (∀ h ∈ H, (h.S.M, h.σ) ≠ (V.M, [σ].flatten)) ∧ V.init = .ok c ∧ updateCalls V.E V.mem c [σ] = .ok (rs, c') ∧ ts_verify c' = 1 := by
  have hl : (standardKey K.x K.bytes).length = 4 * K.x.P.n := length_standardKey _ _ (K.rngOk.2 hok)
  have hs : supported (envOf fullCfg).cfg K.x = true := by cases K.x <;> rfl
  have hn : K.x.P.n ≤ 32 := by cases K.x <;> decide
  let pk := (standardKey K.x K.bytes).drop (2 * K.x.P.n)
  have hp : pk.length = 2 * K.x.P.n := by rw [List.length_drop]; omega
  let V : VerifyJob := ⟨envOf fullCfg, K.x, hs, twoMem pk M₃, 0, pk, pk.length, M₃, dirtyCtx fullCfg, dirty_shape _, hp, twoMem_left _ _, twoMem_right _ _, h₃,
      ⟨show _ < 256 ^ 8 by omega, show _ < 256 ^ 8 by omega⟩⟩
  obtain ⟨c, rs, c', e1, e2, h, -⟩ := C05_verdict V [sign K.x.P K.x.fns (standardKey K.x K.bytes) [] M₃]
  refine ⟨[signedExample K.x _ M₁ hl h₁, signedExample K.x _ M₂ hl h₂], V, _, c, rs, c', rfl, ?_, rfl, rfl, rfl, ?_, e1, e2, h.2 ?_⟩
  · intro h hh
    rcases List.mem_cons.1 hh with rfl | hh
    · exact ⟨rfl, rfl⟩
    · rw [List.mem_singleton.1 hh]; exact ⟨rfl, rfl⟩
  · intro h hh
    rcases List.mem_cons.1 hh with rfl | hh
    · exact fun e => n₁ (congrArg Prod.fst e)
    · rw [List.mem_singleton.1 hh]; exact fun e => n₂ (congrArg Prod.fst e)
  rw [List.flatten_singleton]
  have hv := standard_round_trip K.x K.bytes [] M₃ (K.rngOk.2 hok)
  refine ⟨?_, hv⟩
  rw [size_eq]
  unfold verify at hv
  rw [Bool.and_eq_true, beq_iff_eq] at hv
  exact hv.1

end Properties
