import Verif.Proof.DoTest
import Verif.Properties.Binding
/-!
# C36, C37: the programs of the repository that use the API

get_space.c, get_space2.c, test_testvector.c (C36) and test_verify.c (C37).
-/
namespace Properties
open Model
open Spec.Session (valid)

/-- Room for the variables of a client: a private key buffer of 128 bytes, a public key buffer of 64 bytes, and a message. -/
structure Room where
  E : Env
  mem : Mem
  priv : Nat
  pub : Nat
  msg : Nat
  M : Bytes
  privMapped : mem.Mapped priv 128
  pubMapped : mem.Mapped pub 64
  hasMsg : mem.Has msg M
  keysApart : Disj priv 128 pub 64
  privApart : Disj priv 128 msg M.length
  pubApart : Disj pub 64 msg M.length
  msgLen : M.length < 2 ^ 60
  msgPtr : E.cfg.Fits msg M.length

theorem n_le (x : PsName) : x.P.n ≤ 32 := by cases x <;> decide

/-- Key generation in a client. -/
theorem Room.key (R : Room) (x : PsName) (hx : supported R.E.cfg x = true) (pub : Option Nat) (hpub : pub = none ∨ pub = some R.pub) (f : Rng) (hf : RngOk f (3 * x.P.n)) (hok : (f (3 * x.P.n)).1 = true) :
    ∃ mem' rq, ts_gen_key R.E R.mem (some R.priv) pub (some (ps R.E.cfg x)) (some f) = .ok (1, mem', rq) ∧
      mem'.Has R.priv (standardKey x (f (3 * x.P.n)).2) ∧ (pub = some R.pub → mem'.Has R.pub ((standardKey x (f (3 * x.P.n)).2).drop (2 * x.P.n))) ∧
      mem'.Has R.msg R.M ∧ (∀ a, ¬ (R.priv ≤ a ∧ a < R.priv + 128) → ¬ (R.pub ≤ a ∧ a < R.pub + 64) → mem' a = R.mem a) := by
  have hn := n_le x
  have hd := R.keysApart
  let K : KeyJob := ⟨R.E, x, hx, R.mem, R.priv, pub, f, hf, R.privMapped.mono (Nat.le_refl _) (by omega), fun p hp => by
    rcases hpub with h | h
    · rw [h] at hp; cases hp
    · rw [h] at hp; cases hp
      refine ⟨R.pubMapped.mono (Nat.le_refl _) (by omega), ?_⟩
      unfold Disj at hd ⊢
      omega⟩
  obtain ⟨mem', e, k1, -, k2, k3⟩ := C12_keygen K hok
  have hsz : ts_size_private_key (ps R.E.cfg x) ≤ 128 := by unfold ts_size_private_key; have : (ps R.E.cfg x).n = x.P.n := by cases x <;> rfl
                                                            omega
  have hsz' : ts_size_public_key (ps R.E.cfg x) ≤ 64 := by unfold ts_size_public_key; have : (ps R.E.cfg x).n = x.P.n := by cases x <;> rfl
                                                           omega
  have frame : ∀ a, ¬ (R.priv ≤ a ∧ a < R.priv + 128) → ¬ (R.pub ≤ a ∧ a < R.pub + 64) → mem' a = R.mem a := by
    intro a h1 h2
    refine k3 a (fun h => h1 ⟨h.1, ?_⟩) (fun p hp h => h2 ?_)
    · have := h.2
      show a < R.priv + 128
      have : a < R.priv + ts_size_private_key (ps R.E.cfg x) := h.2
      omega
    · have hp' : pub = some p := hp
      rcases hpub with h' | h'
      · rw [h'] at hp'; cases hp'
      · rw [h'] at hp'; cases hp'
        have : a < R.pub + ts_size_public_key (ps R.E.cfg x) := h.2
        exact ⟨h.1, by omega⟩
  refine ⟨mem', _, e, k1, fun h => k2 R.pub h, ?_, frame⟩
  intro i hi
  have h1 := R.privApart
  have h2 := R.pubApart
  unfold Disj at h1 h2
  rw [frame _ (by omega) (by omega)]
  exact R.hasMsg i hi

/-- The private key, public key and deterministic or randomized signature of the standard, for the random bytes `b`. -/
def stdSig (x : PsName) (b opt M : Bytes) : Bytes := Spec.Slh.sign x.P x.fns (standardKey x b) opt M

theorem length_stdSig (x : PsName) (b opt M : Bytes) (hb : b.length = 3 * x.P.n) : (stdSig x b opt M).length = x.P.sigBytes :=
  valid_len (x := x.inst) (standard_round_trip x b opt M hb)

/-- Starting to sign after key generation. -/
theorem startSign {E : Env} {x : PsName} (hx : supported E.cfg x = true) {mem : Mem} {priv msg : Nat} {b M : Bytes} (hb : b.length = 3 * x.P.n) (hk : mem.Has priv (standardKey x b)) (hM : mem.Has msg M)
    (hl : M.length < 2 ^ 60) {c : Ctx} (hc : Shape E.cfg c) (rng : Option Rng) (hr : ∀ f, rng = some f → RngOk f x.P.n) :
    ∃ c' rq, ts_init_sign E mem c msg M.length (ps E.cfg x) priv rng = .ok (c', rq) ∧
      Rel E (.signing x priv (standardKey x b)) (.signing (stdSig x b (optRand rng (skPkSeed x.P.n (standardKey x b))) M)) c' := by
  obtain ⟨c', e, r⟩ := SignJob.start ⟨E, x, hx, mem, priv, standardKey x b, msg, M, rng, c, hc, length_standardKey x b hb, hk, hM, hl, hr⟩
  exact ⟨c', _, e, r⟩

theorem checks {E : Env} {x : PsName} (hx : supported E.cfg x = true) {mem : Mem} {pub msg : Nat} {b M : Bytes} (hb : b.length = 3 * x.P.n)
    (hk : mem.Has pub ((standardKey x b).drop (2 * x.P.n))) (hM : mem.Has msg M) (hl : M.length < 2 ^ 60) (hp : E.cfg.Fits msg M.length) :
    Checks E x mem pub ((standardKey x b).drop (2 * x.P.n)) msg M :=
  ⟨hx, by rw [List.length_drop, length_standardKey x b hb]; omega, hk, hM, hl, hp⟩

/-! ## C36: get_space2.c, get_space.c, test_testvector.c -/

/-- The bytes m − 1, …, 1, 0 (modulo 256), in this order. -/
def downTo0 (m : Nat) : Bytes := (List.range m).reverse.map UInt8.ofNat

/-- The bytes m, …, 2, 1 (modulo 256), in this order. -/
def downTo1 (m : Nat) : Bytes := (List.range m).reverse.map fun i => UInt8.ofNat (i + 1)

example : downTo0 5 = [4, 3, 2, 1, 0] ∧ downTo1 5 = [5, 4, 3, 2, 1] := ⟨rfl, rfl⟩

/-- C36: `run_keygen` ends, and leaves the standard's private key for its generator in the buffer. -/
theorem C36_run_keygen (R : Room) (x : PsName) (hx : supported R.E.cfg x = true) :
    ∃ mem', run_keygen R.E R.mem R.priv (ps R.E.cfg x) = .ok mem' ∧ mem'.Has R.priv (standardKey x (downTo0 (3 * x.P.n))) := by
  obtain ⟨mem', rq, e, k, -⟩ := R.key x hx none (.inl rfl) fake_rand (fake_rand_ok _) rfl
  refine ⟨mem', ?_, by have h : downTo0 _ = _ := (countdown_eq (3 * x.P.n)).symm; rw [h]; exact k⟩
  unfold run_keygen
  rw [e, ok_bind]

/-- C36: the loop of `run_sign`, which asks for one byte at a time until it does not get one, ends; the values that its variable takes
are the bytes of the deterministic signature of the standard. -/
theorem C36_run_sign (J : SignJob) (h : J.rng = none) (fuel : Nat) (hf : ts_size_signature (ps J.E.cfg J.x) < fuel) (v : UInt8) :
    run_sign J.E fuel J.mem v J.c0 J.msg J.M.length (ps J.E.cfg J.x) J.priv = .ok (Spec.Slh.sign J.x.P J.x.fns J.sk (skPkSeed J.x.P.n J.sk) J.M) := by
  obtain ⟨c, e, r⟩ := J.start
  unfold run_sign
  have e' : ts_init_sign J.E J.mem J.c0 J.msg J.M.length (ps J.E.cfg J.x) J.priv none = .ok (c, Model.reqs J.rng J.x.P.n) := by rw [← h]; exact e
  rw [e', ok_bind]
  rw [size_eq] at hf
  have := run_sign_loop_ok J.hasKey _ fuel v c r (by rw [J.length_signature]; exact hf)
  show run_sign_loop J.E J.mem fuel v c = _
  rw [this]
  unfold SignJob.signature Spec.Session.signature optRand
  rw [h]

/-- C36: `get_sig_space` ends. -/
theorem C36_get_sig_space (R : Room) (x : PsName) (hx : supported R.E.cfg x = true) (c : Ctx) (hc : Shape R.E.cfg c) (fuel : Nat)
    (hf : ts_size_signature (ps R.E.cfg x) < fuel) (v : UInt8) :
    get_sig_space R.E fuel R.mem R.priv v c R.msg R.M.length (ps R.E.cfg x) =
      .ok (stdSig x (downTo1 (3 * x.P.n)) (skPkSeed x.P.n (standardKey x (downTo1 (3 * x.P.n)))) R.M) := by
  obtain ⟨mem', rq, e, k, -, hM, -⟩ := R.key x hx none (.inl rfl) fake_rand1 (fake_rand1_ok _) rfl
  unfold get_sig_space
  rw [e, ok_bind]
  have h : downTo1 _ = _ := (countdown1_eq (3 * x.P.n)).symm
  rw [h]
  exact C36_run_sign ⟨R.E, x, hx, mem', R.priv, _, R.msg, R.M, none, c, hc, length_standardKey x _ (length_countdown1 _), k, hM, R.msgLen, fun f h => by cases h⟩
    rfl fuel hf v

/-- C36: `get_sig_and_public_key` leaves the standard's public key in the buffer of the caller, and returns the standard's signature with the
random bytes n − 1, …, 0 (and nothing more: the block has the size of a signature). Besides the two key buffers no memory changes. -/
theorem C36_get_sig_and_public_key (R : Room) (x : PsName) (hx : supported R.E.cfg x = true) (c : Ctx) (hc : Shape R.E.cfg c) :
    ∃ mem', get_sig_and_public_key R.E R.mem R.priv c (ps R.E.cfg x) R.pub R.msg R.M.length =
        .ok (Spec.Slh.sign x.P x.fns (standardKey x (downTo0 (3 * x.P.n))) (downTo0 x.P.n) R.M, mem') ∧
      mem'.Has R.pub ((standardKey x (downTo0 (3 * x.P.n))).drop (2 * x.P.n)) ∧
      (∀ a, ¬ (R.priv ≤ a ∧ a < R.priv + 128) → ¬ (R.pub ≤ a ∧ a < R.pub + 64) → mem' a = R.mem a) := by
  have h0 : ∀ m, downTo0 m = countdown m := fun m => (countdown_eq m).symm
  obtain ⟨mem', rq, e, k1, k2, hM, hfr⟩ := R.key x hx (some R.pub) (.inr rfl) fake_rand (fake_rand_ok _) rfl
  have hb : (fake_rand (3 * x.P.n)).2.length = 3 * x.P.n := length_countdown _
  obtain ⟨c1, rq1, e1, r1⟩ := startSign hx hb k1 hM R.msgLen hc (some fake_rand) (fun f h => by cases h; exact fake_rand_ok _)
  have hlen : (skPkSeed x.P.n (standardKey x (fake_rand (3 * x.P.n)).2)).length = x.P.n := by
    unfold skPkSeed
    rw [List.length_take, List.length_drop, length_standardKey x _ hb]; omega
  have hopt : optRand (some fake_rand) (skPkSeed x.P.n (standardKey x (fake_rand (3 * x.P.n)).2)) = downTo0 x.P.n := by
    rw [h0]
    show countdown (skPkSeed x.P.n (standardKey x (fake_rand (3 * x.P.n)).2)).length = _
    rw [hlen]
  rw [hopt] at r1
  have hb' : (fake_rand (3 * x.P.n)).2 = downTo0 (3 * x.P.n) := (h0 _).symm
  rw [hb'] at hb k1 k2 r1
  unfold get_sig_and_public_key
  rw [e, ok_bind]
  simp only [e1, ok_bind]
  have hloc : (R.E.local 100 (ts_size_signature (ps R.E.cfg x))).length = ts_size_signature (ps R.E.cfg x) := by unfold Env.local; rw [List.length_map, List.length_range]
  obtain ⟨c2, e2, -⟩ := sign_one k1 r1 (R.E.local 100 (ts_size_signature (ps R.E.cfg x))) (ts_size_signature (ps R.E.cfg x)) (by rw [hloc])
  rw [e2]
  have hls := length_stdSig x (downTo0 (3 * x.P.n)) (downTo0 x.P.n) R.M hb
  rw [← size_eq R.E.cfg x] at hls
  have htk : (stdSig x (downTo0 (3 * x.P.n)) (downTo0 x.P.n) R.M).take (ts_size_signature (ps R.E.cfg x)) = stdSig x (downTo0 (3 * x.P.n)) (downTo0 x.P.n) R.M :=
    List.take_of_length_le (Nat.le_of_eq hls)
  refine ⟨mem', ?_, k2 rfl, hfr⟩
  simp only [ok_bind, htk]
  rw [List.drop_eq_nil_of_le (by rw [hloc, hls]), List.append_nil]
  rfl

/-- C36: the signature of `get_sig_and_public_key` is one that `run_verify` accepts: `get_ver_space` always reports a result. -/
theorem C36_get_ver_space (R : Room) (x : PsName) (hx : supported R.E.cfg x = true) (c c' : Ctx) (hc : Shape R.E.cfg c) (hc' : Shape R.E.cfg c') :
    get_ver_space R.E R.mem R.priv c c' (ps R.E.cfg x) R.pub R.msg R.M.length = .ok 1 := by
  obtain ⟨mem', e, k2, hfr⟩ := C36_get_sig_and_public_key R x hx c hc
  have hb : (downTo0 (3 * x.P.n)).length = 3 * x.P.n := by unfold downTo0; rw [List.length_map, List.length_reverse, List.length_range]
  have hM : mem'.Has R.msg R.M := by
    intro i hi
    have h1 := R.privApart
    have h2 := R.pubApart
    unfold Disj at h1 h2
    rw [hfr _ (by omega) (by omega)]
    exact R.hasMsg i hi
  unfold get_ver_space
  rw [e, ok_bind]
  have hls := length_stdSig x (downTo0 (3 * x.P.n)) (downTo0 x.P.n) R.M hb
  rw [← size_eq R.E.cfg x] at hls
  have hv : valid x.inst _ R.M _ = true := standard_round_trip x (downTo0 (3 * x.P.n)) (downTo0 x.P.n) R.M hb
  change valid x.inst _ R.M (stdSig x _ _ _) = true at hv
  change (rdSlice (stdSig x _ _ _) 0 _ >>= _) = _
  generalize stdSig x (downTo0 (3 * x.P.n)) (downTo0 x.P.n) R.M = σ at *
  rw [rdSlice_ok (by omega), ok_bind, List.drop_zero, List.take_of_length_le (Nat.le_of_eq hls)]
  have K := checks (x := x) hx hb k2 hM R.msgLen R.msgPtr
  obtain ⟨c3, e3, r3⟩ := K.start hc'
  obtain ⟨c4, e4, r4⟩ := update_ok K.hasKey (fun _ => hM) r3 σ
  unfold run_verify
  rw [e3, ok_bind, e4, ok_bind]
  show Except.ok (ts_verify c4) = _
  rw [verify_ok r4, List.nil_append, if_pos hv]

/-- The names of the parameter sets in the file of test vectors. -/
def setName : PsName → String
  | .sha2_128f => "sha2_128f_simple" | .sha2_128s => "sha2_128s_simple"
  | .sha2_192f => "sha2_192f_simple" | .sha2_192s => "sha2_192s_simple"
  | .sha2_256f => "sha2_256f_simple" | .sha2_256s => "sha2_256s_simple"
  | .shake_128f => "shake_128f_simple" | .shake_128s => "shake_128s_simple"
  | .shake_192f => "shake_192f_simple" | .shake_192s => "shake_192s_simple"
  | .shake_256f => "shake_256f_simple" | .shake_256s => "shake_256s_simple"

theorem lookup_iff (name : String) (x : PsName) : lookup_parameter_set name = some x ↔ name = setName x := by
  constructor
  · intro h
    unfold lookup_parameter_set at h
    repeat' split at h
    all_goals first
      | (cases h; done)
      | (cases h; subst name; rfl)
      | (cases h; assumption)
  · rintro rfl
    cases x <;> simp [lookup_parameter_set, setName]

/-- C36: the test of one vector of test_testvector.c (with any message and any non-empty buffer for the pieces) ends, never faults, and returns 1 exactly if
the vector has the name of a parameter set, the public key of the standard for the random bytes 0, 1, 2, … and the SHA-256 hash of the
standard's signature of the message for the vector's `opt_rand`; otherwise it returns 0. -/
theorem C36_vectors (R : Room) (hx : ∀ x, supported R.E.cfg x = true) (c v : Ctx) (hc : Shape R.E.cfg c) (hv : Shape R.E.cfg v) (h : Sha256.Ctx) (hh : h.data.length = 64)
    (buffer : Bytes) (hB : 0 < buffer.length) (V : TestVector) (l1 : V.public_key.length = 64) (l2 : V.optrand.length = 32) (l3 : V.hash_sig.length = 32)
    (fuel : Nat) (hf : ∀ x, ts_size_signature (ps R.E.cfg x) < fuel) :
    ∃ r, vectorTest R.E fuel R.mem R.priv R.pub c v h buffer R.msg R.M.length V = .ok r ∧ (r = 0 ∨ r = 1) ∧
      (r = 1 ↔ ∃ x, V.parameter_set_name = setName x ∧
        let b := (List.range (3 * x.P.n)).map UInt8.ofNat
        V.public_key.take (2 * x.P.n) = (standardKey x b).drop (2 * x.P.n) ∧
        V.hash_sig = Spec.Sha256.hash (stdSig x b (V.optrand.take x.P.n) R.M)) := by
  simp only [← lookup_iff]
  unfold vectorTest
  cases hlook : lookup_parameter_set V.parameter_set_name with
  | none => exact ⟨0, rfl, .inl rfl, fun h => (by cases h), fun ⟨x, h, _⟩ => by cases h⟩
  | some x =>
    simp only
    have hn := n_le x
    have hx := hx x
    have hb : ((List.range (3 * x.P.n)).map UInt8.ofNat).length = 3 * x.P.n := by simp
    obtain ⟨mem', rq, e, k1, k2, hM, -⟩ := R.key x hx (some R.pub) (.inr rfl) fixed_rand (fixed_rand_ok _) rfl
    rw [show (fixed_rand (3 * x.P.n)).2 = (List.range (3 * x.P.n)).map UInt8.ofNat from rfl] at k1 k2
    rw [e, ok_bind]
    have hpn : ts_size_public_key (ps R.E.cfg x) = 2 * x.P.n := by unfold ts_size_public_key; cases x <;> rfl
    have hpl : ((standardKey x ((List.range (3 * x.P.n)).map UInt8.ofNat)).drop (2 * x.P.n)).length = 2 * x.P.n := by
      rw [List.length_drop, length_standardKey x _ hb]; omega
    have hrd : mem'.read R.pub (2 * x.P.n) = .ok ((standardKey x ((List.range (3 * x.P.n)).map UInt8.ofNat)).drop (2 * x.P.n)) := by
      have := (k2 rfl).read
      rwa [hpl] at this
    simp only [hpn, Nat.one_ne_zero, if_false]
    rw [rdSlice_ok (by omega), ok_bind, hrd, ok_bind, List.drop_zero]
    by_cases hpk : V.public_key.take (2 * x.P.n) = (standardKey x ((List.range (3 * x.P.n)).map UInt8.ofNat)).drop (2 * x.P.n)
    · rw [if_neg (not_not.2 hpk)]
      unfold vectorSign
      have hopt : ∀ f, some (optrand_rng V.optrand) = some f → RngOk f x.P.n := fun f h => by cases h; exact optrand_rng_ok _ _ (by omega)
      obtain ⟨c1, rq1, e1, r1⟩ := startSign hx hb k1 hM R.msgLen hc (some (optrand_rng V.optrand)) hopt
      have K := checks (x := x) hx hb (k2 rfl) hM R.msgLen R.msgPtr
      obtain ⟨c2, e2, r2⟩ := K.start hv
      have hskl : (skPkSeed x.P.n (standardKey x ((List.range (3 * x.P.n)).map UInt8.ofNat))).length = x.P.n := by
        unfold skPkSeed; rw [List.length_take, List.length_drop, length_standardKey x _ hb]; omega
      have hor : optRand (some (optrand_rng V.optrand)) (skPkSeed x.P.n (standardKey x ((List.range (3 * x.P.n)).map UInt8.ofNat))) = V.optrand.take x.P.n := by
        unfold optRand optrand_rng
        simp only [if_true, hskl]
      rw [hor] at r1
      have hls := length_stdSig x _ (V.optrand.take x.P.n) R.M hb
      have hval : valid x.inst _ R.M (stdSig x _ _ _) = true := standard_round_trip x _ (V.optrand.take x.P.n) R.M hb
      generalize hσ : stdSig x ((List.range (3 * x.P.n)).map UInt8.ofNat) (V.optrand.take x.P.n) R.M = σ at *
      rw [e1, ok_bind]
      simp only [e2, ok_bind]
      have hff := hf x
      rw [size_eq] at hff
      obtain ⟨v', h', e3, r3, a3⟩ := vectorLoop_ok k1 (k2 rfl) hM buffer.length hB σ.length σ [] fuel buffer c1 c2 (Sha256.init h) (Nat.le_refl _) rfl r1 r2
        (Sha256.init_abs h hh) hval hls (by omega)
      rw [List.nil_append] at r3 a3
      rw [e3, ok_bind]
      simp only
      have hsz : σ.length < 2 ^ 61 := by rw [hls]; cases x <;> decide
      obtain ⟨h'', e4, -⟩ := Sha256.final_ok (R.E.local 101 32) h' σ a3 (by omega) (by unfold Env.local; rw [List.length_map, List.length_range])
      rw [e4, ok_bind]
      simp only
      have hver : ts_verify v' = 1 := by rw [verify_ok r3, if_pos hval]
      by_cases hhash : V.hash_sig = Spec.Sha256.hash σ
      · rw [if_neg (not_not.2 hhash), hver]
        exact ⟨1, rfl, .inr rfl, fun _ => ⟨x, rfl, hpk, by rw [hσ]; exact hhash⟩, fun _ => rfl⟩
      · rw [if_pos hhash]
        exact ⟨0, rfl, .inl rfl, fun h => (by cases h), fun ⟨y, hy, _, h⟩ => by cases hy; rw [hσ] at h; exact absurd h hhash⟩
    · rw [if_pos hpk]
      exact ⟨0, rfl, .inl rfl, fun h => (by cases h), fun ⟨y, hy, h, _⟩ => by cases hy; exact absurd h hpk⟩

/-! ## C37: test_verify.c -/

/-- The random bytes of test_verify.c. -/
def testBytes (x : PsName) : Bytes := (local_rand (3 * x.P.n)).2

/-- The private key that `do_test` makes. -/
def testKey (x : PsName) : Bytes := standardKey x (testBytes x)

/-- The signature that `do_test` makes. -/
def testSig (x : PsName) (M : Bytes) : Bytes := stdSig x (testBytes x) (skPkSeed x.P.n (testKey x)) M

/-- Which bits `do_test` flips: in fast mode bit 0 of every fifth byte, otherwise all bits. -/
def Tried (fast : Bool) (x : PsName) (offset bit : Nat) : Prop :=
  offset < x.P.sigBytes ∧ bit < 8 ∧ (fast = true → offset % 5 = 0 ∧ bit = 0)

/-- C37: `do_test` ends and never faults. All its checks of acceptance, truncation, extension and chunking pass. It returns 1 exactly if the standard rejects
all the modified signatures and the wrong message it tries, else 0. -/
theorem C37_do_test (R : Room) (x : PsName) (hx : supported R.E.cfg x = true) (wrong : Nat) (W : Bytes) (hW : R.mem.Has wrong W) (hWl : W.length < 2 ^ 60) (hWp : R.E.cfg.Fits wrong W.length)
    (a1 : Disj R.priv 128 wrong W.length) (a2 : Disj R.pub 64 wrong W.length) (fill : Nat → Ctx) (hfill : ∀ b, Shape R.E.cfg (fill b)) (c : Ctx) (hc : Shape R.E.cfg c) (fast : Bool) :
    ∃ r, do_test R.E true fast 1 R.mem R.priv R.pub R.msg R.M.length wrong W.length fill c (ps R.E.cfg x) = .ok r ∧ (r = 0 ∨ r = 1) ∧
      (r = 1 ↔ (∀ offset bit, Tried fast x offset bit → Spec.Slh.verify x.P x.fns ((testKey x).drop (2 * x.P.n)) R.M (flipBit (testSig x R.M) offset bit) = false) ∧
        Spec.Slh.verify x.P x.fns ((testKey x).drop (2 * x.P.n)) W (testSig x R.M) = false) := by
  have hb : (testBytes x).length = 3 * x.P.n := length_localLoop _ _
  obtain ⟨mem', rq, e, k1, k2, hM, frame⟩ := R.key x hx (some R.pub) (.inr rfl) local_rand (local_rand_ok _) rfl
  have k1 : mem'.Has R.priv (testKey x) := k1
  have k2 : mem'.Has R.pub ((testKey x).drop (2 * x.P.n)) := k2 rfl
  have hW' : mem'.Has wrong W := by
    intro i hi
    unfold Disj at a1 a2
    rw [frame _ (by omega) (by omega)]
    exact hW i hi
  have K : Checks R.E x mem' R.pub ((testKey x).drop (2 * x.P.n)) R.msg R.M := checks (b := testBytes x) hx hb k2 hM R.msgLen R.msgPtr
  have K' : Checks R.E x mem' R.pub ((testKey x).drop (2 * x.P.n)) wrong W := checks (b := testBytes x) hx hb k2 hW' hWl hWp
  obtain ⟨c1, rq1, e1, r1⟩ := startSign (b := testBytes x) hx hb k1 hM R.msgLen hc none (fun f h => by cases h)
  have r1 : Rel R.E (.signing x R.priv (testKey x)) (.signing (testSig x R.M)) c1 := r1
  have hls : (testSig x R.M).length = x.P.sigBytes := length_stdSig x _ _ R.M hb
  have hval : valid x.inst ((testKey x).drop (2 * x.P.n)) R.M (testSig x R.M) = true := standard_round_trip x _ _ R.M hb
  have hsize := size_eq R.E.cfg x
  have hpos : 0 < x.P.sigBytes := by cases x <;> decide
  generalize hσ : testSig x R.M = σ at *
  show ∃ r, (if (fast && !true) = true then Except.ok 1 else if 1 = 0 then Except.ok 1 else do_test_body R.E fast R.mem R.priv R.pub R.msg R.M.length wrong W.length fill c (ps R.E.cfg x)) = _ ∧ _
  rw [Bool.not_true, Bool.and_false, if_neg (by decide), if_neg (by decide)]
  unfold do_test_body
  rw [e, ok_bind]
  simp only [Nat.one_ne_zero, if_false, e1, ok_bind, hsize]
  have hloc : (R.E.local 102 (x.P.sigBytes + 1)).length = x.P.sigBytes + 1 := by unfold Env.local; rw [List.length_map, List.length_range]
  obtain ⟨c2, e2, -⟩ := sign_one k1 r1 (R.E.local 102 (x.P.sigBytes + 1)) (x.P.sigBytes + 1) (by rw [hloc])
  have htk : σ.take (x.P.sigBytes + 1) = σ := List.take_of_length_le (by omega)
  rw [htk, hls] at e2
  rw [e2, ok_bind]
  simp only [ne_eq, not_true, if_false]
  obtain ⟨t, htail⟩ : ∃ t, (R.E.local 102 (x.P.sigBytes + 1)).drop x.P.sigBytes = [t] := by
    apply List.length_eq_one_iff.1
    rw [List.length_drop, hloc]; omega
  rw [htail]
  -- the positive tests
  have hpt : positiveTests R.E mem' fill (ps R.E.cfg x) R.pub R.msg R.M.length (σ ++ [t]) x.P.sigBytes = .ok 1 := by
    unfold positiveTests
    rw [rdSlice_ok (by rw [List.length_append]; omega), ok_bind, List.drop_zero, take_left' hls, verifyOnce_whole K (hfill 63) σ hls, ok_bind, if_pos hval]
    simp only [ne_eq, not_true, or_self, if_false]
    rw [rdSlice_ok (by rw [List.length_append]; omega), ok_bind, List.drop_zero, List.take_append_of_le_length (by omega), verifyOnce_ok K (hfill 33), ok_bind]
    have hshort : valid x.inst ((testKey x).drop (2 * x.P.n)) R.M (σ.take (x.P.sigBytes - 1)) ≠ true := by
      intro h
      have := valid_len h
      rw [List.length_take] at this
      have h' : min (x.P.sigBytes - 1) σ.length = x.P.sigBytes := this
      omega
    have hfs : Spec.Session.feed x.inst ((testKey x).drop (2 * x.P.n)) R.M [] (σ.take (x.P.sigBytes - 1)) = true := by
      unfold Spec.Session.feed
      rw [if_pos (show ([] : Bytes).length < x.P.sigBytes from hpos), List.nil_append,
        if_pos (show (σ.take (x.P.sigBytes - 1)).length < x.P.sigBytes by rw [List.length_take]; omega)]
    rw [if_pos hfs, if_neg hshort]
    simp only [ne_eq, not_true, or_self, if_false]
    have hfull : (σ ++ [t]).take (x.P.sigBytes + 1) = σ ++ [t] := List.take_of_length_le (by rw [List.length_append, List.length_singleton]; omega)
    rw [rdSlice_ok (by rw [List.length_append, List.length_singleton]; omega), ok_bind, List.drop_zero, hfull, verifyOnce_ok K (hfill 64), ok_bind]
    have hlong : valid x.inst ((testKey x).drop (2 * x.P.n)) R.M (σ ++ [t]) ≠ true := by
      intro h
      have := valid_len h
      rw [List.length_append, List.length_singleton] at this
      have h' : σ.length + 1 = x.P.sigBytes := this
      omega
    have hfl : ¬ Spec.Session.feed x.inst ((testKey x).drop (2 * x.P.n)) R.M [] (σ ++ [t]) = true := by
      unfold Spec.Session.feed
      rw [if_pos (show ([] : Bytes).length < x.P.sigBytes from hpos), List.nil_append,
        if_neg (show ¬ (σ ++ [t]).length < x.P.sigBytes by rw [List.length_append, List.length_singleton]; omega),
        if_neg (show ¬ (σ ++ [t]).length = x.P.sigBytes by rw [List.length_append, List.length_singleton]; omega)]
      decide
    rw [if_neg hfl, if_neg hlong]
    simp only [ne_eq, not_true, or_self, if_false]
    have := fibLoop_ok K fill hfill σ [t] hval hls (x.P.sigBytes + 1) 1 1 (by omega) (by omega) (by omega)
    rwa [hls] at this
  rw [hpt, ok_bind, if_neg (by decide)]
  -- the negative tests
  unfold negativeTests
  have hinc : 0 < (if fast = true then 5 else 1) := by split <;> omega
  have hbinc : 0 < (if fast = true then 8 else 1) := by split <;> omega
  obtain ⟨o, e3, h1, h2⟩ := flipLoop_ok K fill hfill σ [t] hls _ _ hinc hbinc (x.P.sigBytes + 1) 0 (by omega)
  have htried : (∀ i j, 0 + i * (if fast = true then 5 else 1) < σ.length → j * (if fast = true then 8 else 1) < 8 →
      valid x.inst ((testKey x).drop (2 * x.P.n)) R.M (flipBit σ (0 + i * (if fast = true then 5 else 1)) (j * (if fast = true then 8 else 1))) = false) ↔
      ∀ offset bit, Tried fast x offset bit → Spec.Slh.verify x.P x.fns ((testKey x).drop (2 * x.P.n)) R.M (flipBit σ offset bit) = false := by
    constructor
    · rintro h offset bit ⟨t1, t2, t3⟩
      cases fast with
      | true =>
        obtain ⟨t4, t5⟩ := t3 rfl
        subst t5
        have := h (offset / 5) 0 (by simp only [if_true]; omega) (by omega)
        simp only [if_true, Nat.zero_mul, Nat.zero_add] at this
        rw [show offset / 5 * 5 = offset by omega] at this
        exact this
      | false =>
        have := h offset bit (by simp only [Bool.false_eq_true, if_false]; omega) (by simp only [Bool.false_eq_true, if_false]; omega)
        simp only [Bool.false_eq_true, if_false, Nat.mul_one, Nat.zero_add] at this
        exact this
    · intro h i j hi hj
      refine h _ _ ⟨by omega, hj, ?_⟩
      intro hfast
      subst hfast
      simp only [if_true] at hj ⊢
      omega
  rw [hls] at e3
  dsimp only
  rw [e3, ok_bind]
  rw [htried] at h2
  rcases h1 with rfl | rfl
  · refine ⟨0, rfl, .inl rfl, fun h => (by cases h), fun ⟨h, _⟩ => absurd rfl (h2.2 h)⟩
  · have h2 := h2.1 (fun h => by cases h)
    simp only
    rw [rdSlice_ok (by rw [List.length_append]; omega), ok_bind, List.drop_zero, take_left' hls, verifyOnce_whole K hc σ hls, ok_bind, if_pos hval]
    simp only [ne_eq, not_true, or_self, if_false]
    rw [verifyOnce_whole K' hc σ hls, ok_bind]
    cases hw : valid x.inst ((testKey x).drop (2 * x.P.n)) W σ with
    | true =>
      refine ⟨0, rfl, .inl rfl, fun h => (by cases h), fun ⟨_, h⟩ => ?_⟩
      have hw' : Spec.Slh.verify x.P x.fns ((testKey x).drop (2 * x.P.n)) W σ = true := hw
      rw [hw'] at h
      cases h
    | false => exact ⟨1, rfl, .inr rfl, fun _ => ⟨h2, hw⟩, fun _ => rfl⟩


/-- What `do_test` in effect decides. -/
def Detects (fast : Bool) (x : PsName) (M W : Bytes) : Prop :=
  (∀ offset bit, Tried fast x offset bit → Spec.Slh.verify x.P x.fns ((testKey x).drop (2 * x.P.n)) M (flipBit (testSig x M) offset bit) = false) ∧
    Spec.Slh.verify x.P x.fns ((testKey x).drop (2 * x.P.n)) W (testSig x M) = false

theorem testSig_signWith (x : PsName) (M : Bytes) (hM : M.length < 2 ^ 60) :
    testSig x M = Spec.Slh.signWith x.P x.fns (testKey x) ((testSig x M).take x.P.n) M := by
  have hs : supported (envOf fullCfg).cfg x = true := by cases x <;> rfl
  exact signature_signWith ⟨envOf fullCfg, x, hs, twoMem (testKey x) M, 0, testKey x, (testKey x).length, M, none, dirtyCtx fullCfg, dirty_shape _,
    length_standardKey x _ (length_localLoop _ _), twoMem_left _ _, twoMem_right _ _, hM, fun f h => by cases h⟩

theorem flipBit_ne {σ : Bytes} {o b : Nat} (ho : o < σ.length) (hb : b < 8) : flipBit σ o b ≠ σ := by
  intro h
  have : (flipBit σ o b)[o]? = σ[o]? := by rw [h]
  unfold flipBit at this
  rw [List.getElem?_set_self ho, List.getElem?_eq_getElem ho, List.getD_eq_getElem?_getD, List.getElem?_eq_getElem ho] at this
  have := Option.some.inj this
  simp only [Option.getD_some] at this
  generalize σ[o] = v at this
  have h2 : UInt8.ofNat (2 ^ b) ≠ 0 := by
    have : b = 0 ∨ b = 1 ∨ b = 2 ∨ b = 3 ∨ b = 4 ∨ b = 5 ∨ b = 6 ∨ b = 7 := by omega
    rcases this with h | h | h | h | h | h | h | h <;> subst h <;> decide
  apply h2
  have h3 : v ^^^ (v ^^^ UInt8.ofNat (2 ^ b)) = v ^^^ v := by rw [this]
  rw [← UInt8.xor_assoc, UInt8.xor_self, UInt8.zero_xor] at h3
  exact h3

/-- C37: if `do_test` returns 0, then one of the strings it tried is a break of the scheme: an accepted string that exhibits a second preimage, or an
unpublished chain value, or that the owner would produce for another randomizer (bit changed in the first `n` bytes) or for the wrong message. -/
theorem C37_failure (fast : Bool) (x : PsName) (M W : Bytes) (hM : M.length < 2 ^ 60) (h : ¬ Detects fast x M W) :
    ∃ M' σ', Spec.Slh.verify x.P x.fns ((testKey x).drop (2 * x.P.n)) M' σ' = true ∧
      ((M' = M ∧ ∃ offset bit, Tried fast x offset bit ∧ σ' = flipBit (testSig x M) offset bit ∧
          (HitsSecondPreimage x (testKey x) M' σ' ∨ ShowsUnpublished x (testKey x) M' σ' ∨
            offset < x.P.n ∧ σ' = Spec.Slh.signWith x.P x.fns (testKey x) (σ'.take x.P.n) M)) ∨
       (M' = W ∧ σ' = testSig x M ∧
          (HitsSecondPreimage x (testKey x) M' σ' ∨ ShowsUnpublished x (testKey x) M' σ' ∨
            Spec.Slh.signWith x.P x.fns (testKey x) (σ'.take x.P.n) W = Spec.Slh.signWith x.P x.fns (testKey x) (σ'.take x.P.n) M))) := by
  have hb : (testBytes x).length = 3 * x.P.n := length_localLoop _ _
  have hls : (testSig x M).length = x.P.sigBytes := length_stdSig x _ _ M hb
  have hsw := testSig_signWith x M hM
  unfold Detects at h
  by_cases hw : Spec.Slh.verify x.P x.fns ((testKey x).drop (2 * x.P.n)) W (testSig x M) = true
  · refine ⟨W, testSig x M, hw, .inr ⟨rfl, rfl, ?_⟩⟩
    rcases standard_binding x (testBytes x) W (testSig x M) hb hw with e | e | e
    · exact .inr (.inr (e.symm.trans hsw))
    · exact .inl e
    · exact .inr (.inl e)
  · have hne : ∃ offset bit, Tried fast x offset bit ∧ Spec.Slh.verify x.P x.fns ((testKey x).drop (2 * x.P.n)) M (flipBit (testSig x M) offset bit) = true := by
      by_contra hcon
      refine h ⟨fun o b ht => ?_, Bool.eq_false_iff.2 hw⟩
      exact Bool.eq_false_iff.2 fun hv => hcon ⟨o, b, ht, hv⟩
    obtain ⟨o, b, ht, hv⟩ := hne
    refine ⟨M, _, hv, .inl ⟨rfl, o, b, ht, rfl, ?_⟩⟩
    rcases standard_binding x (testBytes x) M _ hb hv with e | e | e
    · refine .inr (.inr ⟨?_, e⟩)
      by_contra hn
      have hR : (flipBit (testSig x M) o b).take x.P.n = (testSig x M).take x.P.n := by
        unfold flipBit
        exact List.take_set_of_le (by omega)
      refine flipBit_ne (σ := testSig x M) (by rw [hls]; exact ht.1) ht.2.1 ?_
      rw [hR] at e
      exact e.trans hsw.symm
    · exact .inl e
    · exact .inr (.inl e)

theorem testAll_ok {α : Type} (test : α → C Nat) (P : α → Prop) :
    ∀ l : List α, (∀ a ∈ l, ∃ r, test a = .ok r ∧ (r = 0 ∨ r = 1) ∧ (r = 1 ↔ P a)) →
      ∃ r, testAll test l = .ok r ∧ (r = 0 ∨ r = 1) ∧ (r = 1 ↔ ∀ a ∈ l, P a)
  | [], _ => ⟨1, rfl, .inr rfl, fun _ a h => absurd h List.not_mem_nil, fun _ => rfl⟩
  | a :: as, h => by
    obtain ⟨r, e, hr, hp⟩ := h a List.mem_cons_self
    obtain ⟨s, e', hs, hq⟩ := testAll_ok test P as (fun b hb => h b (List.mem_cons_of_mem _ hb))
    unfold testAll
    rw [e, ok_bind]
    rcases hr with rfl | rfl
    · refine ⟨0, rfl, .inl rfl, fun h => (by cases h), fun h => absurd (hp.2 (h a List.mem_cons_self)) (by decide)⟩
    · refine ⟨s, e', hs, ?_⟩
      rw [hq]
      constructor
      · intro h b hb
        rcases List.mem_cons.1 hb with rfl | hb
        · exact hp.1 rfl
        · exact h b hb
      · exact fun h b hb => h b (List.mem_cons_of_mem _ hb)

/-- C37: `test_verify` as a whole ends, and returns 1 exactly if the standard rejects everything that it tries: with the parameter sets marked
`always` in fast mode, with all twelve otherwise. -/
theorem C37_test_verify (R : Room) (hx : ∀ x, supported R.E.cfg x = true) (wrong : Nat) (W : Bytes) (hW : R.mem.Has wrong W) (hWl : W.length < 2 ^ 60) (hWp : R.E.cfg.Fits wrong W.length)
    (a1 : Disj R.priv 128 wrong W.length) (a2 : Disj R.pub 64 wrong W.length) (fill : Nat → Ctx) (hfill : ∀ b, Shape R.E.cfg (fill b)) (c : Ctx) (hc : Shape R.E.cfg c) (fast : Bool) :
    ∃ r, test_verify (fun x always iter => do_test R.E always fast iter R.mem R.priv R.pub R.msg R.M.length wrong W.length fill c (ps R.E.cfg x)) = .ok r ∧ (r = 0 ∨ r = 1) ∧
      (r = 1 ↔ ∀ x, (fast = true → x ∈ [.sha2_128s, .sha2_128f, .shake_128s, .sha2_192s, .shake_192s, .sha2_256s, .shake_256s]) → Detects fast x R.M W) := by
  unfold test_verify
  obtain ⟨r, e, hr, hp⟩ := testAll_ok
    (fun iter => testAll (fun (p : PsName × Bool) => do_test R.E p.2 fast iter R.mem R.priv R.pub R.msg R.M.length wrong W.length fill c (ps R.E.cfg p.1)) verifySets)
    (fun iter => iter = 0 ∨ ∀ p ∈ verifySets, (fast = true → p.2 = true) → Detects fast p.1 R.M W) [0, 1] (by
      intro iter hit
      obtain ⟨r, e, hr, hp⟩ := testAll_ok (fun (p : PsName × Bool) => do_test R.E p.2 fast iter R.mem R.priv R.pub R.msg R.M.length wrong W.length fill c (ps R.E.cfg p.1))
        (fun p => iter = 0 ∨ ((fast = true → p.2 = true) → Detects fast p.1 R.M W)) verifySets (by
          rintro ⟨x, always⟩ -
          by_cases hfa : fast = true ∧ always = false
          · refine ⟨1, ?_, .inr rfl, fun _ => .inr fun h => ?_, fun _ => rfl⟩
            · obtain ⟨rfl, rfl⟩ := hfa; rfl
            · obtain ⟨rfl, rfl⟩ := hfa; exact Bool.noConfusion (h rfl)
          have hfa' : (fast && !always) = false := by
            cases fast <;> cases always <;> first | rfl | exact absurd ⟨rfl, rfl⟩ hfa
          have hm : iter = 0 ∨ iter = 1 := by simpa using hit
          rcases hm with rfl | rfl
          · refine ⟨1, ?_, .inr rfl, fun _ => .inl rfl, fun _ => rfl⟩
            unfold do_test
            rw [hfa', if_neg (by decide), if_pos rfl]
          · obtain ⟨r, e, hr, hp⟩ := C37_do_test R x (hx x) wrong W hW hWl hWp a1 a2 fill hfill c hc fast
            refine ⟨r, ?_, hr, ?_⟩
            · rw [← e]
              unfold do_test
              rw [hfa', Bool.not_true, Bool.and_false]
            · rw [hp]
              constructor
              · exact fun h => .inr fun _ => h
              · rintro (h | h)
                · cases h
                · refine h fun hf => ?_
                  cases always with
                  | true => rfl
                  | false => exact absurd ⟨hf, rfl⟩ hfa)
      refine ⟨r, e, hr, ?_⟩
      rw [hp]
      constructor
      · intro h
        by_cases hi : iter = 0
        · exact .inl hi
        · exact .inr fun p hp' => (h p hp').resolve_left hi
      · rintro (h | h) p hp'
        · exact .inl h
        · exact .inr (h p hp'))
  refine ⟨r, e, hr, ?_⟩
  rw [hp]
  constructor
  · intro h x hfx
    have := (h 1 (by simp)).resolve_left (by decide)
    have key : ∃ b, (x, b) ∈ verifySets ∧ (x ∈ [PsName.sha2_128s, .sha2_128f, .shake_128s, .sha2_192s, .shake_192s, .sha2_256s, .shake_256s] → b = true) := by
      cases x <;> decide
    obtain ⟨b, hb, hb'⟩ := key
    exact this (x, b) hb fun hf => hb' (hfx hf)
  · intro h iter hi
    refine .inr fun p hp' hfp => h p.1 fun hf => ?_
    have := hfp hf
    unfold verifySets at hp'
    simp only [List.mem_cons, List.not_mem_nil, or_false] at hp'
    rcases hp' with h | h | h | h | h | h | h | h | h | h | h | h <;> subst h <;> first | (exfalso; revert this; decide) | decide

/-! The hypotheses are met. -/

/-- Buffers in a memory that is mapped everywhere. -/
def exRoom : Room where
  E := envOf fullCfg
  mem := ramp
  priv := 1000
  pub := 2000
  msg := 5000
  M := rampBytes 5000 3
  privMapped := fun i _ => by simp [ramp]
  pubMapped := fun i _ => by simp [ramp]
  hasMsg := ramp_has _ _
  keysApart := by unfold Disj; omega
  privApart := by unfold Disj; simp [rampBytes]
  pubApart := by unfold Disj; simp [rampBytes]
  msgLen := by simp [rampBytes]
  msgPtr := fits_of_lt _ (by omega) (by simp [rampBytes])

example : ∀ x, supported exRoom.E.cfg x = true := by intro x; cases x <;> rfl

example : ∃ r, test_verify (fun x always iter => do_test exRoom.E always true iter exRoom.mem exRoom.priv exRoom.pub exRoom.msg exRoom.M.length 6000 4
    (fun _ => dirtyCtx fullCfg) (dirtyCtx fullCfg) (ps exRoom.E.cfg x)) = .ok r := by
  obtain ⟨r, e, -⟩ := C37_test_verify exRoom (by intro x; cases x <;> rfl) 6000 (rampBytes 6000 4) (ramp_has _ _) (by simp [rampBytes]) (fits_of_lt _ (by omega) (by simp [rampBytes]))
    (by unfold Disj; simp [rampBytes, exRoom]) (by unfold Disj; simp [rampBytes, exRoom]) (fun _ => dirtyCtx fullCfg) (fun _ => dirty_shape _) (dirtyCtx fullCfg) (dirty_shape _) true
  exact ⟨r, e⟩

/-- Both outcomes of `C36_vectors` occur: the vector with the standard's values passes, one with an unknown name does not. -/
example (x : PsName) : ∃ V : TestVector, V.public_key.length = 64 ∧ V.optrand.length = 32 ∧ V.hash_sig.length = 32 ∧
    V.public_key.take (2 * x.P.n) = (standardKey x ((List.range (3 * x.P.n)).map UInt8.ofNat)).drop (2 * x.P.n) := by
  refine ⟨⟨"", (standardKey x ((List.range (3 * x.P.n)).map UInt8.ofNat)).drop (2 * x.P.n) ++ List.replicate (64 - 2 * x.P.n) 0, List.replicate 32 1, List.replicate 32 2⟩, ?_, by simp, by simp, ?_⟩
  · have := n_le x
    simp only [List.length_append, List.length_drop, List.length_replicate, length_standardKey x _ (show ((List.range (3 * x.P.n)).map UInt8.ofNat).length = 3 * x.P.n by simp)]
    omega
  · exact take_left' (by rw [List.length_drop, length_standardKey x _ (by simp)]; omega)

example : lookup_parameter_set "" = none := by decide

end Properties
