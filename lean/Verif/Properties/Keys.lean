import Verif.Properties.Verifying
import Verif.Proof.Keygen
import Verif.Proof.SpecLemmas
/-!
# Properties C12, C13, C27 and the round trip C01
-/
namespace Properties
open Model

/-- The private key the standard defines for `3n` bytes `SK.seed ‖ SK.prf ‖ PK.seed` of randomness. -/
def standardKey (x : PsName) (b : Bytes) : Bytes :=
  Spec.Slh.keygen x.P x.fns (b.take x.P.n) ((b.drop x.P.n).take x.P.n) ((b.drop (2 * x.P.n)).take x.P.n)

theorem split3 {n : Nat} {b : Bytes} (h : b.length = 3 * n) :
    b = b.take n ++ (b.drop n).take n ++ (b.drop (2 * n)).take n ∧ (b.take n).length = n ∧ ((b.drop n).take n).length = n ∧ ((b.drop (2 * n)).take n).length = n := by
  refine ⟨?_, by simp; omega, by simp; omega, by simp; omega⟩
  have e1 : (b.drop (2 * n)).take n = b.drop (2 * n) := List.take_of_length_le (by simp; omega)
  have e2 : b.drop (2 * n) = (b.drop n).drop n := by rw [List.drop_drop]; congr 1; omega
  rw [e1, e2, List.append_assoc, List.take_append_drop, List.take_append_drop]

theorem n_pos (x : PsName) : 0 < x.P.n := by cases x <;> decide

theorem length_pkRoot (x : PsName) (a b : Bytes) (hb : b.length = x.P.n) : (Spec.Slh.pkRoot x.P x.fns a b).length = x.P.n := by
  let E := envOf fullCfg
  have hs : supported E.cfg x = true := by cases x <;> rfl
  exact length_xmssNode (S := ⟨E, x, hs, 0, b, hb⟩) _ _ _ _ _

theorem length_standardKey (x : PsName) (b : Bytes) (h : b.length = 3 * x.P.n) : (standardKey x b).length = 4 * x.P.n := by
  obtain ⟨-, l1, l2, l3⟩ := split3 h
  unfold standardKey Spec.Slh.keygen
  simp only [List.length_append, l1, l2, l3, length_pkRoot x _ _ l3]
  omega

/-- The public part of the standard key. -/
theorem standardKey_pub (x : PsName) (b : Bytes) (h : b.length = 3 * x.P.n) :
    (standardKey x b).drop (2 * x.P.n) = (b.drop (2 * x.P.n)).take x.P.n ++ Spec.Slh.pkRoot x.P x.fns (b.take x.P.n) ((b.drop (2 * x.P.n)).take x.P.n) := by
  obtain ⟨-, l1, l2, l3⟩ := split3 h
  unfold standardKey Spec.Slh.keygen
  rw [List.append_assoc]
  exact drop_left' (by rw [List.length_append]; omega)

/-- C12: if the generator delivers, `ts_gen_key` returns 1; the private key buffer holds the standard's private key for
the bytes the generator supplied (they are its first `3n` bytes), the public key buffer (if any) its last `2n` bytes;
no other memory has changed; the generator was asked once, for `3n` bytes. -/
theorem C12_keygen (J : KeyJob) (hok : J.delivers = true) :
    ∃ mem', J.run = .ok (1, mem', [3 * J.x.P.n]) ∧
      mem'.Has J.priv (standardKey J.x J.bytes) ∧ (standardKey J.x J.bytes).take (3 * J.x.P.n) = J.bytes ∧
      (∀ p, J.pub = some p → mem'.Has p ((standardKey J.x J.bytes).drop (2 * J.x.P.n))) ∧
      (∀ a, ¬ (J.priv ≤ a ∧ a < J.priv + ts_size_private_key (ps J.E.cfg J.x)) →
        (∀ p, J.pub = some p → ¬ (p ≤ a ∧ a < p + ts_size_public_key (ps J.E.cfg J.x))) → mem' a = J.mem a) := by
  have hl : J.bytes.length = 3 * J.x.P.n := J.rngOk.2 hok
  obtain ⟨e, l1, l2, l3⟩ := split3 hl
  obtain ⟨mem', e1, k1, k2, k3⟩ := ts_gen_key_ok J.sup (mem := J.mem) (priv := J.priv) (pub := J.pub) J.rngOk hok J.privMapped J.pubMapped l1 l2 l3 e
  have hpn : (ps J.E.cfg J.x).n = J.x.P.n := by cases J.x <;> rfl
  refine ⟨mem', e1, k1, ?_, ?_, ?_⟩
  · unfold standardKey Spec.Slh.keygen
    rw [take_left' (by simp only [List.length_append]; omega), ← e]
  · rw [standardKey_pub _ _ hl]; exact k2
  · intro a h1 h2
    unfold ts_size_private_key at h1
    unfold ts_size_public_key at h2
    rw [hpn] at h1 h2
    refine k3 a (by omega) (fun p hp => ?_)
    have := h2 p hp
    omega

/-- C13: with a null private key, parameter set or generator, the result is 0, memory is unchanged and no random bytes
are requested. -/
theorem C13_null (E : Env) (mem : Mem) (priv pub : Option Nat) (ps : Option ParamSet) (rng : Option Rng) (h : priv = none ∨ ps = none ∨ rng = none) :
    ts_gen_key E mem priv pub ps rng = .ok (0, mem, []) := by
  unfold ts_gen_key
  rcases h with rfl | rfl | rfl
  · cases rng <;> rfl
  · cases rng <;> cases priv <;> rfl
  · rfl

/-- C13: if the generator fails, the result is 0 and the only memory that may have changed is what the generator wrote
at the start of the private key buffer; the public key buffer is unchanged. -/
theorem C13_rng_failure (J : KeyJob) (hfail : J.delivers = false) :
    ∃ mem', J.run = .ok (0, mem', [3 * J.x.P.n]) ∧ (∀ a, ¬ (J.priv ≤ a ∧ a < J.priv + 3 * J.x.P.n) → mem' a = J.mem a) ∧
      (∀ p, J.pub = some p → ∀ i, i < 2 * J.x.P.n → mem' (p + i) = J.mem (p + i)) := by
  have hpn : (ps J.E.cfg J.x).n = J.x.P.n := by cases J.x <;> rfl
  have hl : (J.rng (3 * J.x.P.n)).2.length ≤ 3 * J.x.P.n := J.rngOk.1
  obtain ⟨m1, e1, w1⟩ := Mem.write_ok (J.rng (3 * J.x.P.n)).2 J.mem J.priv (J.privMapped.mono (Nat.le_refl _) (by omega))
  have hf : (J.rng (3 * J.x.P.n)).1 = false := hfail
  refine ⟨m1, ?_, ?_, ?_⟩
  · unfold KeyJob.run ts_gen_key
    simp only [hpn, e1, ok_bind, hf]
    rfl
  · intro a h
    exact w1.frame a (by omega)
  · intro p hp i hi
    have := (J.pubMapped p hp).2
    unfold Disj at this
    exact w1.frame _ (by omega)

/-- C13: a null public key pointer is no error. -/
theorem C13_null_public (J : KeyJob) (_ : J.pub = none) (hok : J.delivers = true) : ∃ mem', J.run = .ok (1, mem', [3 * J.x.P.n]) := by
  obtain ⟨mem', e, -⟩ := C12_keygen J hok
  exact ⟨mem', e⟩

/-! ## C27: sizes -/

/-- FIPS 205 Table 2: `n, h, d, h', a, k, m`, and the sizes of private key, public key, signature in bytes. -/
def table2 : PsName → Nat × Nat × Nat × Nat × Nat × Nat × Nat × Nat × Nat × Nat
  | .sha2_128s | .shake_128s => (16, 63, 7, 9, 12, 14, 30, 64, 32, 7856)
  | .sha2_128f | .shake_128f => (16, 66, 22, 3, 6, 33, 34, 64, 32, 17088)
  | .sha2_192s | .shake_192s => (24, 63, 7, 9, 14, 17, 39, 96, 48, 16224)
  | .sha2_192f | .shake_192f => (24, 66, 22, 3, 8, 33, 42, 96, 48, 35664)
  | .sha2_256s | .shake_256s => (32, 64, 8, 8, 14, 22, 47, 128, 64, 29792)
  | .sha2_256f | .shake_256f => (32, 68, 17, 4, 9, 35, 49, 128, 64, 49856)

/-- C27: each parameter set carries the parameters of the standard's table, and the three size functions return its sizes. -/
theorem C27_table (c : Config) (x : PsName) :
    let q := ps c x
    ((q.n, q.h, q.d, q.merkle_h, q.t, q.k, x.P.m, ts_size_private_key q, ts_size_public_key q, ts_size_signature q) = table2 x) ∧
    (x.P.n, x.P.h, x.P.d, x.P.hp, x.P.a, x.P.k) = (q.n, q.h, q.d, q.merkle_h, q.t, q.k) := by
  have h := size_eq c x
  simp only
  rw [h]
  cases x <;> constructor <;> rfl

/-- C27: the formulas. -/
theorem C27_formulas (c : Config) (x : PsName) :
    let q := ps c x
    ts_size_private_key q = 4 * q.n ∧ ts_size_public_key q = 2 * q.n ∧
      ts_size_signature q = q.n * (1 + q.k * (q.t + 1) + q.h + q.d * (2 * q.n + 3)) := by
  refine ⟨rfl, rfl, ?_⟩
  unfold ts_size_signature
  congr 1
  rw [Nat.mul_comm (ps c x).k]
  omega

/-- C27: these are the sizes of what key generation writes; for signatures see `C04_exact_length`, for what verification
consumes `C05_verdict` and `C07_wrong_length`. -/
theorem C27_objects (J : KeyJob) (hok : J.delivers = true) :
    (standardKey J.x J.bytes).length = ts_size_private_key (ps J.E.cfg J.x) ∧
      ((standardKey J.x J.bytes).drop (2 * J.x.P.n)).length = ts_size_public_key (ps J.E.cfg J.x) := by
  have hl : J.bytes.length = 3 * J.x.P.n := J.rngOk.2 hok
  have hpn : (ps J.E.cfg J.x).n = J.x.P.n := by cases J.x <;> rfl
  have := length_standardKey J.x _ hl
  unfold ts_size_private_key ts_size_public_key
  rw [List.length_drop, this, hpn]
  exact ⟨rfl, by omega⟩

/-! ## C01: the round trip -/

/-- The standard accepts the signatures it defines. -/
theorem standard_round_trip (x : PsName) (b opt M : Bytes) (hb : b.length = 3 * x.P.n) :
    Spec.Slh.verify x.P x.fns ((standardKey x b).drop (2 * x.P.n)) M (Spec.Slh.sign x.P x.fns (standardKey x b) opt M) = true := by
  obtain ⟨-, l1, l2, l3⟩ := split3 hb
  generalize h1 : b.take x.P.n = skSeed at *
  generalize h2 : (b.drop x.P.n).take x.P.n = skPrf at *
  generalize h3 : (b.drop (2 * x.P.n)).take x.P.n = pkSeed at *
  have hrl : (Spec.Slh.pkRoot x.P x.fns skSeed pkSeed).length = x.P.n := length_pkRoot x _ _ l3
  have hk : standardKey x b = skSeed ++ (skPrf ++ (pkSeed ++ Spec.Slh.pkRoot x.P x.fns skSeed pkSeed)) := by
    unfold standardKey Spec.Slh.keygen
    rw [h1, h2, h3, List.append_assoc, List.append_assoc]
  have d1 : (standardKey x b).drop x.P.n = skPrf ++ (pkSeed ++ Spec.Slh.pkRoot x.P x.fns skSeed pkSeed) := by rw [hk]; exact drop_left' l1
  have d2 : (standardKey x b).drop (2 * x.P.n) = pkSeed ++ Spec.Slh.pkRoot x.P x.fns skSeed pkSeed := by
    rw [show 2 * x.P.n = x.P.n + x.P.n by omega, ← List.drop_drop, d1]; exact drop_left' l2
  have d3 : (standardKey x b).drop (3 * x.P.n) = Spec.Slh.pkRoot x.P x.fns skSeed pkSeed := by
    rw [show 3 * x.P.n = 2 * x.P.n + x.P.n by omega, ← List.drop_drop, d2]; exact drop_left' l3
  have hs : supported (envOf fullCfg).cfg x = true := by cases x <;> rfl
  let S : Sess := ⟨envOf fullCfg, x, hs, 0, pkSeed, l3⟩
  have F := S.facts
  unfold Spec.Slh.sign Spec.Slh.verify
  rw [d1, d2, d3, take_left' l2, take_left' l3, drop_left' l3, List.take_of_length_le (Nat.le_of_eq hrl), hk, take_left' l1]
  have hbl := signBlocks_len (S := S) skSeed skPrf (Spec.Slh.pkRoot x.P x.fns skSeed pkSeed) opt M
  have hln := length_signBlocks (S := S) skSeed skPrf (Spec.Slh.pkRoot x.P x.fns skSeed pkSeed) opt M
  have hfl := length_flatten_blocks S.n _ hbl
  rw [hln] at hfl
  rw [Bool.and_eq_true, beq_iff_eq]
  refine ⟨hfl, ?_⟩
  have hbf := blocks_flatten S.n (n_pos x) _ hbl []
  rw [List.append_nil] at hbf
  have hz : Spec.blocks S.n ([] : Bytes) = [] := by unfold Spec.blocks; rw [List.length_nil, Nat.zero_div]; rfl
  rw [hz, List.append_nil] at hbf
  rw [show Spec.blocks x.P.n (List.flatten _) = _ from hbf]
  exact verifyBlocks_signBlocks x.P x.fns skSeed pkSeed (Nat.le_trans (by decide) F.dge) F.hhd skPrf opt M

/-- C01: after a successful `ts_gen_key` the private key buffer holds a key `sk` and the public key buffer `pk`, such that
whatever is signed with `sk`, in whatever pieces, is accepted with `pk`, in whatever pieces. The three parts may run in
different builds and memories, on contexts with arbitrary content, with any generator for `opt_rand`. -/
theorem C01_round_trip (K : KeyJob) (hok : K.delivers = true) :
    ∃ mem' rq sk pk, K.run = .ok (1, mem', rq) ∧
      (mem'.Has K.priv sk ∧ sk.length = ts_size_private_key (ps K.E.cfg K.x)) ∧
      ((∀ p, K.pub = some p → mem'.Has p pk) ∧ pk.length = ts_size_public_key (ps K.E.cfg K.x) ∧ pk = sk.drop (2 * K.x.P.n)) ∧
      ∀ (S : SignJob) (reqs : List (Bytes × Nat)), S.x = K.x → S.sk = sk → Fits reqs → ts_size_signature (ps S.E.cfg S.x) ≤ asked reqs →
        ∃ c rq outs c', S.init = .ok (c, rq) ∧ signCalls S.E S.mem c reqs = .ok (outs, c') ∧
        ∀ (V : VerifyJob) (ts : List Bytes), V.x = K.x → V.pk = pk → V.M = S.M → ts.flatten = delivered outs →
          ∃ c rs c', V.init = .ok c ∧ updateCalls V.E V.mem c ts = .ok (rs, c') ∧ ts_verify c' = 1 ∧ ∀ r ∈ rs, r = 1 := by
  obtain ⟨mem', e, k1, -, k2, -⟩ := C12_keygen K hok
  obtain ⟨o1, o2⟩ := C27_objects K hok
  refine ⟨mem', _, standardKey K.x K.bytes, (standardKey K.x K.bytes).drop (2 * K.x.P.n), e, ⟨k1, o1⟩, ⟨k2, o2, rfl⟩, ?_⟩
  intro S reqs hx hsk hfit hall
  rw [size_eq] at hall
  obtain ⟨c, rq, outs, c', e1, e2, hd⟩ := C02_signature S reqs hfit hall
  refine ⟨c, rq, outs, c', e1, e2, ?_⟩
  intro V ts hVx hpk hM hts
  obtain ⟨c, rs, c', f, e3, e4, -, h01, hf, r, -⟩ := verify_session V ts
  have hv : Spec.Session.valid V.x.inst V.pk V.M ts.flatten = true := by
    rw [hts, hd, hVx, hpk, hM, hx, hsk]
    exact standard_round_trip K.x K.bytes _ S.M (K.rngOk.2 hok)
  refine ⟨c, rs, c', e3, e4, ?_, ?_⟩
  · rw [verify_ok r, hv]; rfl
  · intro q hq
    refine (h01 q hq).resolve_left fun h0 => ?_
    subst h0
    have := (rel_failed r (hf.2 hq)).2
    rw [hv] at this
    cases this

/-! The hypotheses are met. -/

/-- Key generation for SHAKE-256s. -/
def exKey (rng : Rng) (h : RngOk rng 96) : KeyJob where
  E := envOf fullCfg
  x := .shake_256s
  sup := rfl
  mem := ramp
  priv := 100
  pub := some 700
  rng := rng
  rngOk := h
  privMapped i _ := rfl
  pubMapped p hp := by
    cases hp
    exact ⟨fun i _ => rfl, .inl (by decide)⟩

example : (exKey goodRng (goodRng_ok _)).delivers = true ∧ (exKey badRng (badRng_ok _ (by decide))).delivers = false := ⟨rfl, rfl⟩

/-- A memory holding `a` at 0 and `b` after it. -/
def twoMem (a b : Bytes) : Mem := fun p => (a ++ b)[p]?

theorem twoMem_left (a b : Bytes) : (twoMem a b).Has 0 a := by
  intro i h
  unfold twoMem
  rw [Nat.zero_add, List.getElem?_append_left h, List.getElem?_eq_getElem h]

theorem twoMem_right (a b : Bytes) : (twoMem a b).Has a.length b := by
  intro i h
  unfold twoMem
  rw [List.getElem?_append_right (by omega), Nat.add_sub_cancel_left, List.getElem?_eq_getElem h]

/-- For every key and message there are a signing and a verification job as `C01_round_trip` wants them. -/
example (x : PsName) (sk pk M : Bytes) (h1 : sk.length = 4 * x.P.n) (h2 : pk.length = 2 * x.P.n) (hM : M.length < 2 ^ 60) :
    (∃ S : SignJob, S.x = x ∧ S.sk = sk ∧ S.M = M) ∧ (∃ V : VerifyJob, V.x = x ∧ V.pk = pk ∧ V.M = M) := by
  have hs : supported (envOf fullCfg).cfg x = true := by cases x <;> rfl
  have hn : x.P.n ≤ 32 := by cases x <;> decide
  exact ⟨⟨⟨envOf fullCfg, x, hs, twoMem sk M, 0, sk, sk.length, M, none, dirtyCtx fullCfg, dirty_shape _, h1, twoMem_left _ _, twoMem_right _ _, hM,
      fun f h => by cases h⟩, rfl, rfl, rfl⟩,
    ⟨⟨envOf fullCfg, x, hs, twoMem pk M, 0, pk, pk.length, M, dirtyCtx fullCfg, dirty_shape _, h2, twoMem_left _ _, twoMem_right _ _, hM,
      ⟨show _ < 256 ^ 8 by omega, show _ < 256 ^ 8 by omega⟩⟩, rfl, rfl, rfl⟩⟩

end Properties
