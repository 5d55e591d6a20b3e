import Verif.Proof.Jobs
/-!
# Concrete objects showing that the hypotheses of the theorems can be met
-/
namespace Properties
open Model

/-- All parameter sets enabled, on a 64-bit little-endian machine. -/
def fullCfg : Config := ⟨true, true, true, true, true, true, 0, ⟨false, true⟩⟩
/-- Only SHA2, level 1, fast sets; no precomputed hash states; a 32-bit big-endian machine. -/
def smallCfg : Config := ⟨false, true, false, false, false, false, 2, ⟨true, false⟩⟩

theorem fits_of_lt (c : Config) {p l : Nat} (h1 : p < 2 ^ 32) (h2 : l < 2 ^ 32) : c.Fits p l := by
  have h : 2 ^ 32 ≤ c.sizeMax := by unfold Config.sizeMax Arch.word; split <;> decide
  exact ⟨by omega, by omega⟩

/-- An environment for a configuration. -/
def envOf (c : Config) : Env where
  cfg := c
  pun256 _ := ⟨⟨1, 2, 3, 4, 5, 6, 7, 8⟩, 3, 4, List.replicate 64 7, true⟩
  pun512 _ := ⟨⟨1, 2, 3, 4, 5, 6, 7, 8⟩, 3, 4, List.replicate 128 9, true⟩
  punShake _ := List.replicate 26 5
  pun256_len _ := by simp
  pun512_len _ := by simp
  punShake_len _ := by simp
  junk p i := UInt8.ofNat (p + 3 * i)

/-- A memory whose cell `a` holds `a mod 256`. -/
def ramp : Mem := fun a => some (UInt8.ofNat a)
/-- `len` bytes of it. -/
def rampBytes (a len : Nat) : Bytes := (List.range len).map fun i => UInt8.ofNat (a + i)

theorem ramp_has (a len : Nat) : ramp.Has a (rampBytes a len) := by
  intro i h; simp [ramp, rampBytes]

/-- A context with non-zero leftovers. -/
def dirtyCtx (c : Config) : Ctx :=
  { zeroCtx (envOf c) (ps c .sha2_128f) with
    state := .verify_success, buffer := List.replicate c.MAX_HASH 0xaa, x := List.replicate c.xSize 0x55,
    hypertree_level := 77, fors_keypair_addr := 1234, merkle_level := 200 }

theorem dirty_shape (c : Config) : Shape (envOf c).cfg (dirtyCtx c) :=
  ⟨by simp [dirtyCtx, zeroCtx, envOf], by simp [dirtyCtx, envOf], by simp [dirtyCtx, zeroCtx, envOf], by simp [dirtyCtx, envOf], trivial, trivial⟩

/-- A generator that delivers. -/
def goodRng : Rng := fun n => (true, (List.range n).map fun i => UInt8.ofNat (7 * i))
/-- A generator that writes one byte and fails. -/
def badRng : Rng := fun _ => (false, [0xff])

theorem goodRng_ok (n : Nat) : RngOk goodRng n := ⟨by simp [goodRng], fun _ => by simp [goodRng]⟩
theorem badRng_ok (n : Nat) (h : 1 ≤ n) : RngOk badRng n := ⟨h, fun h => by cases h⟩

/-- A signing job. -/
def signJob (c : Config) (x : PsName) (h : supported c x = true) (rng : Option Rng) (hr : ∀ f, rng = some f → RngOk f x.P.n) : SignJob where
  E := envOf c
  x := x
  sup := h
  mem := ramp
  priv := 100
  sk := rampBytes 100 (4 * x.P.n)
  msg := 5000
  M := rampBytes 5000 33
  rng := rng
  c0 := dirtyCtx c
  shape := dirty_shape c
  skLen := by simp [rampBytes]
  hasKey := ramp_has _ _
  hasMsg := ramp_has _ _
  msgLen := by simp [rampBytes]
  rngOk := hr

/-- A verification job. -/
def verifyJob (c : Config) (x : PsName) (h : supported c x = true) : VerifyJob where
  E := envOf c
  x := x
  sup := h
  mem := ramp
  pub := 100
  pk := rampBytes 100 (2 * x.P.n)
  msg := 5000
  M := rampBytes 5000 33
  c0 := dirtyCtx c
  shape := dirty_shape c
  pkLen := by simp [rampBytes]
  hasKey := ramp_has _ _
  hasMsg := ramp_has _ _
  msgLen := by simp [rampBytes]
  msgPtr := fits_of_lt c (by omega) (by simp [rampBytes])

/-- SHAKE-256s, with a working generator. -/
def exSign : SignJob := signJob fullCfg .shake_256s rfl (some goodRng) (fun f h => by cases h; exact goodRng_ok _)
/-- SHA2-128f in the small configuration, with a failing generator. -/
def exSign2 : SignJob := signJob smallCfg .sha2_128f rfl (some badRng) (fun f h => by cases h; exact badRng_ok _ (by decide))
/-- SHA2-192s. -/
def exVerify : VerifyJob := verifyJob fullCfg .sha2_192s rfl

end Properties
