import Verif.Proof.Sha256
import Verif.Proof.Sha512
import Verif.Proof.Shake
import Verif.Proof.KRfl
/-!
# Properties C18 - C23: the hash primitives

Chunked use of the streaming functions is written with `List.foldlM`: the calls are made one after the other on
the context each returns.
-/
namespace Properties
open Model

/-! ## C18 -/

/-- The bit string of 25 lanes, lane after lane, least significant bit first (FIPS 202, 3.1.2). -/
def laneBits (lanes : List UInt64) : List Bool :=
  lanes.flatMap fun w => (List.range 64).map fun z => w.toNat.testBit z

theorem laneBits_lanes (A : Shake.Lanes) : laneBits A.toList = Spec.Keccak.ofState A.bits := by
  krfl

/-- C18: whichever implementation `TS_SHAKE256_OPT` selects, the 25 lanes are mapped by Keccak-f[1600], nothing
faults and the position word `s[25]` is kept. -/
theorem C18_keccak_f (opt : Nat) (s : List UInt64) (h : s.length = 26) :
    ∃ s', Shake.permute opt s = .ok s' ∧
      laneBits (s'.take 25) = Spec.Keccak.keccakF (laneBits (s.take 25)) ∧ s'.drop 25 = s.drop 25 := by
  obtain ⟨A, t, rfl⟩ := Shake.lanes_of s h
  refine ⟨_, Shake.permute_ok opt A t, ?_, rfl⟩
  show laneBits (Shake.rounds 24 A).toList = Spec.Keccak.keccakF (laneBits A.toList)
  rw [laneBits_lanes, laneBits_lanes, Spec.Keccak.keccakF, Shake.toState_ofState, Shake.rounds_bits 24 (by omega)]

/-- C18: the three implementations return the same state; for the compact one (option 2) whatever the
uninitialised local `bc[5]` contains. -/
theorem C18_implementations_agree (s bc : List UInt64) (h : s.length = 26) (hb : bc.length = 5) :
    Shake.permute1 s = Shake.permute0 s ∧ Shake.permute2 bc s = Shake.permute0 s := by
  obtain ⟨A, t, rfl⟩ := Shake.lanes_of s h
  rw [Shake.permute0_ok, Shake.permute1_ok, Shake.permute2_ok A t bc hb]
  exact ⟨rfl, rfl⟩

/-- The hypotheses are met, e.g. by a state of 26 distinct words. -/
example : ((List.range 26).map UInt64.ofNat).length = 26 := rfl

/-! ## C19, C20: streaming SHA-2 -/

/-- C19: `ts_SHA256_init`, any number of `ts_SHA256_update`, `ts_SHA256_final`. -/
theorem C19_sha256_streaming (ctx : Sha256.Ctx) (hctx : ctx.data.length = 64) (chunks : List Bytes)
    (digest : Bytes) (hd : digest.length = 32) (hlen : chunks.flatten.length < 2 ^ 61) :
    ∃ c c', chunks.foldlM Sha256.update (Sha256.init ctx) = Except.ok c ∧
      Sha256.final digest c = .ok (Spec.Sha256.hash chunks.flatten, c') := by
  have key : ∀ (chunks : List Bytes) (c : Sha256.Ctx) (M : Bytes), Sha256.Abs c M →
      ∃ c', chunks.foldlM Sha256.update c = Except.ok c' ∧ Sha256.Abs c' (M ++ chunks.flatten) := by
    intro chunks
    induction chunks with
    | nil => intro c M h; exact ⟨c, rfl, by simpa using h⟩
    | cons p ps ih =>
      intro c M h
      obtain ⟨c1, e1, h1⟩ := Sha256.update_ok c M p h
      obtain ⟨c2, e2, h2⟩ := ih c1 _ h1
      exact ⟨c2, by rw [List.foldlM_cons, e1]; exact e2, by simpa using h2⟩
  obtain ⟨c, e, h⟩ := key chunks _ _ (Sha256.init_abs ctx hctx)
  obtain ⟨c', e', _⟩ := Sha256.final_ok digest c _ h (by simp only [List.nil_append]; omega) hd
  exact ⟨c, c', e, e'⟩

/-- C20: `ts_SHA512_init`, any number of `ts_SHA512_update`, `ts_SHA512_final`. -/
theorem C20_sha512_streaming (ctx : Sha512.Ctx) (hctx : ctx.data.length = 128) (chunks : List Bytes)
    (digest : Bytes) (hd : digest.length = 64) (hlen : chunks.flatten.length < 2 ^ 61) :
    ∃ c c', chunks.foldlM Sha512.update (Sha512.init ctx) = Except.ok c ∧
      Sha512.final digest c = .ok (Spec.Sha512.hash chunks.flatten, c') := by
  have key : ∀ (chunks : List Bytes) (c : Sha512.Ctx) (M : Bytes), Sha512.Abs c M →
      ∃ c', chunks.foldlM Sha512.update c = Except.ok c' ∧ Sha512.Abs c' (M ++ chunks.flatten) := by
    intro chunks
    induction chunks with
    | nil => intro c M h; exact ⟨c, rfl, by simpa using h⟩
    | cons p ps ih =>
      intro c M h
      obtain ⟨c1, e1, h1⟩ := Sha512.update_ok c M p h
      obtain ⟨c2, e2, h2⟩ := ih c1 _ h1
      exact ⟨c2, by rw [List.foldlM_cons, e1]; exact e2, by simpa using h2⟩
  obtain ⟨c, e, h⟩ := key chunks _ _ (Sha512.init_abs ctx hctx)
  obtain ⟨c', e', _⟩ := Sha512.final_ok digest c _ h (by simp only [List.nil_append]; omega) hd
  exact ⟨c, c', e, e'⟩

/-- A context with leftover content and a three-chunk message (one chunk empty) meet the hypotheses. -/
example : (⟨Spec.Sha256.H0, 77, 13, List.replicate 64 0xaa, true⟩ : Sha256.Ctx).data.length = 64 ∧
    (List.flatten [[1, 2, 3], [], List.replicate 200 (7 : UInt8)]).length < 2 ^ 61 := by
  constructor
  · rfl
  · decide +kernel

/-! ## C21: streaming SHAKE256 -/

/-- Several squeeze calls in a row, each into its own buffer of the size asked for. -/
def squeezes (opt : Nat) : List Bytes → Shake.Ctx → C (List Bytes × Shake.Ctx)
  | [], s => .ok ([], s)
  | b :: bs, s => do
    let (o, s) ← Shake.inc_squeeze opt b 0 b.length s
    let (os, s) ← squeezes opt bs s
    .ok (o :: os, s)

/-- C21: `ts_shake256_inc_init`, absorbs, finalize, squeezes: the pieces squeezed are, put together, the
SHAKE256 output of the concatenated input. -/
theorem C21_shake256_streaming (opt : Nat) (s : Shake.Ctx) (hs : s.length = 26) (chunks : List Bytes)
    (hlen : ∀ m ∈ chunks, m.length < 2 ^ 63) (outs : List Bytes) :
    ∃ s0 s1 s2 os s3, Shake.inc_init s = .ok s0 ∧
      chunks.foldlM (Shake.inc_absorb opt) s0 = Except.ok s1 ∧ Shake.inc_finalize s1 = .ok s2 ∧
      squeezes opt outs s2 = .ok (os, s3) ∧ os.map List.length = outs.map List.length ∧
      os.flatten = Spec.Keccak.shake256 chunks.flatten outs.flatten.length := by
  have key : ∀ (chunks : List Bytes) (c : Shake.Ctx) (M : Bytes), Shake.AbsK c M →
      (∀ m ∈ chunks, m.length < 2 ^ 63) →
      ∃ c', chunks.foldlM (Shake.inc_absorb opt) c = Except.ok c' ∧ Shake.AbsK c' (M ++ chunks.flatten) := by
    intro chunks
    induction chunks with
    | nil => intro c M h _; exact ⟨c, rfl, by simpa using h⟩
    | cons p ps ih =>
      intro c M h hl
      obtain ⟨c1, e1, h1⟩ := Shake.inc_absorb_any opt c M p (hl p List.mem_cons_self) h
      obtain ⟨c2, e2, h2⟩ := ih c1 _ h1 fun m hm => hl m (List.mem_cons_of_mem _ hm)
      exact ⟨c2, by rw [List.foldlM_cons, e1]; exact e2, by simpa using h2⟩
  have sq : ∀ (outs : List Bytes) (c : Shake.Ctx) (M : Bytes) (k : Nat), Shake.SqK c M k →
      ∃ os c', squeezes opt outs c = .ok (os, c') ∧ os.map List.length = outs.map List.length ∧
        os.flatten = (Spec.Keccak.shake256 M (k + outs.flatten.length)).drop k := by
    intro outs
    induction outs with
    | nil =>
      intro c M k h
      refine ⟨[], c, rfl, rfl, ?_⟩
      rw [List.drop_of_length_le (by rw [Shake.length_shake256]; simp)]; rfl
    | cons b bs ih =>
      intro c M k h
      obtain ⟨c1, e1, h1⟩ := Shake.inc_squeeze_ok opt b 0 b.length k c M (by omega) h
      obtain ⟨os, c2, e2, h2, h3⟩ := ih c1 M _ h1
      refine ⟨_, c2, by simp only [squeezes, e1, ok_bind, e2]; rfl, ?_, ?_⟩
      · simp [h2, Shake.length_shake256]
      · have hd : b.drop (0 + b.length) = [] := List.drop_of_length_le (by omega)
        rw [List.flatten_cons, h3, List.flatten_cons, List.length_append, hd]
        simp only [List.take_zero, List.nil_append, List.append_nil]
        have e : Spec.Keccak.shake256 M (k + b.length) =
            (Spec.Keccak.shake256 M (k + (b.length + bs.flatten.length))).take (k + b.length) := by
          rw [Shake.shake256_bytes, Shake.shake256_bytes, ← List.map_take, List.take_range,
            Nat.min_eq_left (by omega)]
        rw [e, Nat.add_assoc]
        generalize Spec.Keccak.shake256 M (k + (b.length + bs.flatten.length)) = X
        rw [← List.drop_take_append_drop X k b.length, List.take_drop]
  obtain ⟨s0, e0, h0⟩ := Shake.inc_init_ok s hs
  obtain ⟨s1, e1, h1⟩ := key chunks s0 [] h0 (by simpa using hlen)
  obtain ⟨s2, e2, h2⟩ := Shake.inc_finalize_ok s1 _ h1
  obtain ⟨os, s3, e3, h3, h4⟩ := sq outs s2 _ 0 h2
  exact ⟨s0, s1, s2, os, s3, e0, e1, e2, e3, h3, by simpa using h4⟩

/-- Non-trivial instance of the hypotheses: leftover context content, several chunks. -/
example : (List.replicate 26 (3 : UInt64)).length = 26 ∧
    ∀ m ∈ [[1, 2, 3], [], List.replicate 300 (7 : UInt8)], m.length < 2 ^ 63 := by
  constructor
  · rfl
  · decide +kernel

/-! ## C22: truncated finals -/

/-- C22 for SHA-256: the first `n` bytes of `digest` become the first `n` bytes of the hash, the others keep
their value. -/
theorem C22_sha256_final_trunc (ctx : Sha256.Ctx) (hctx : ctx.data.length = 64) (M : Bytes)
    (hlen : M.length < 2 ^ 61) (digest : Bytes) (n : Nat) (hn : n ≤ 32) (hn4 : n % 4 = 0) (hd : n ≤ digest.length) :
    ∃ c c', Sha256.update (Sha256.init ctx) M = .ok c ∧
      Sha256.final_trunc digest c n = .ok ((Spec.Sha256.hash M).take n ++ digest.drop n, c') := by
  obtain ⟨c, e, h⟩ := Sha256.update_ok _ _ M (Sha256.init_abs ctx hctx)
  obtain ⟨c', e', _⟩ := Sha256.final_trunc_ok digest c _ n h (by simp only [List.nil_append]; omega) hn hn4 hd
  exact ⟨c, c', e, e'⟩

/-- C22 for SHA-512. -/
theorem C22_sha512_final_trunc (ctx : Sha512.Ctx) (hctx : ctx.data.length = 128) (M : Bytes)
    (hlen : M.length < 2 ^ 61) (digest : Bytes) (n : Nat) (hn : n ≤ 64) (hn8 : n % 8 = 0) (hd : n ≤ digest.length) :
    ∃ c c', Sha512.update (Sha512.init ctx) M = .ok c ∧
      Sha512.final_trunc digest c n = .ok ((Spec.Sha512.hash M).take n ++ digest.drop n, c') := by
  obtain ⟨c, e, h⟩ := Sha512.update_ok _ _ M (Sha512.init_abs ctx hctx)
  obtain ⟨c', e', _⟩ := Sha512.final_trunc_ok digest c _ n h (by simp only [List.nil_append]; omega) hn hn8 hd
  exact ⟨c, c', e, e'⟩

example : 24 ≤ 32 ∧ 24 % 4 = 0 ∧ 24 ≤ (List.replicate 32 (0 : UInt8)).length := by decide
example : 24 ≤ 64 ∧ 24 % 8 = 0 ∧ 24 ≤ (List.replicate 32 (0 : UInt8)).length := by decide

/-! ## C23: saving and restoring the state after one block -/

/-- C23 for SHA-256. -/
theorem C23_sha256_save_restore (ctx other : Sha256.Ctx) (h1 : ctx.data.length = 64) (h2 : other.data.length = 64)
    (block rest : Bytes) (hb : block.length = 64) (hlen : rest.length < 2 ^ 60)
    (digest : Bytes) (hd : digest.length = 32) :
    ∃ c c1 c2, Sha256.update (Sha256.init ctx) block = .ok c ∧
      Sha256.update (Sha256.restore_state other (Sha256.save_state c)) rest = .ok c1 ∧
      Sha256.final digest c1 = .ok (Spec.Sha256.hash (block ++ rest), c2) := by
  obtain ⟨c, e, h⟩ := Sha256.update_ok _ _ block (Sha256.init_abs ctx h1)
  have hs : Sha256.save_state c = Sha256.chain block := h.h
  obtain ⟨c1, e1, h1⟩ := Sha256.update_ok _ _ rest (Sha256.restore_abs other h2 block hb)
  obtain ⟨c2, e2, _⟩ := Sha256.final_ok digest c1 _ h1 (by rw [List.length_append]; omega) hd
  exact ⟨c, c1, c2, e, by rw [hs]; exact e1, e2⟩

/-- C23 for SHA-512. -/
theorem C23_sha512_save_restore (ctx other : Sha512.Ctx) (h1 : ctx.data.length = 128) (h2 : other.data.length = 128)
    (block rest : Bytes) (hb : block.length = 128) (hlen : rest.length < 2 ^ 60)
    (digest : Bytes) (hd : digest.length = 64) :
    ∃ c c1 c2, Sha512.update (Sha512.init ctx) block = .ok c ∧
      Sha512.update (Sha512.restore_state other (Sha512.save_state c)) rest = .ok c1 ∧
      Sha512.final digest c1 = .ok (Spec.Sha512.hash (block ++ rest), c2) := by
  obtain ⟨c, e, h⟩ := Sha512.update_ok _ _ block (Sha512.init_abs ctx h1)
  have hs : Sha512.save_state c = Sha512.chain block := h.h
  obtain ⟨c1, e1, h1⟩ := Sha512.update_ok _ _ rest (Sha512.restore_abs other h2 block hb)
  obtain ⟨c2, e2, _⟩ := Sha512.final_ok digest c1 _ h1 (by rw [List.length_append]; omega) hd
  exact ⟨c, c1, c2, e, by rw [hs]; exact e1, e2⟩

example : (⟨Spec.Sha256.H0, 1, 2, List.replicate 64 9, true⟩ : Sha256.Ctx).data.length = 64 ∧
    (List.replicate 64 (5 : UInt8)).length = 64 := ⟨rfl, rfl⟩
example : (⟨Spec.Sha512.H0, 1, 2, List.replicate 128 9, false⟩ : Sha512.Ctx).data.length = 128 ∧
    (List.replicate 128 (5 : UInt8)).length = 128 := ⟨rfl, rfl⟩

end Properties
