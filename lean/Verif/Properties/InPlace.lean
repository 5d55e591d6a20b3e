import Verif.Proof.InPlace
/-!
# C40: SHA-2 over the context's union, for any representation of words
-/
namespace Properties
open Model

theorem toInt_toByte (n x : Nat) (h : x < 256 ^ n) : Spec.toInt (Spec.toByte x n) = x := by
  induction n generalizing x with
  | zero => simp at h; subst h; rfl
  | succ n ih =>
    rw [Spec.toByte, toInt_append, ih _ (by rw [Nat.pow_succ] at h; omega)]
    simp; omega

/-- Big-endian platform. -/
def bigRep32 : WordRep UInt32 4 where
  enc w := Spec.toByte w.toNat 4
  dec b := UInt32.ofNat (Spec.toInt b)
  len w := length_toByte _ _
  dec_enc w := by
    rw [toInt_toByte _ _ (by have := w.toNat_lt; omega)]
    exact UInt32.ofNat_toNat

/-- Little-endian platform. -/
def littleRep32 : WordRep UInt32 4 where
  enc w := (Spec.toByte w.toNat 4).reverse
  dec b := UInt32.ofNat (Spec.toInt b.reverse)
  len w := by rw [List.length_reverse, length_toByte]
  dec_enc w := by
    rw [List.reverse_reverse, toInt_toByte _ _ (by have := w.toNat_lt; omega)]
    exact UInt32.ofNat_toNat

/-- Big-endian platform. -/
def bigRep64 : WordRep UInt64 8 where
  enc w := Spec.toByte w.toNat 8
  dec b := UInt64.ofNat (Spec.toInt b)
  len w := length_toByte _ _
  dec_enc w := by
    rw [toInt_toByte _ _ (by have := w.toNat_lt; omega)]
    exact UInt64.ofNat_toNat

/-- Little-endian platform. -/
def littleRep64 : WordRep UInt64 8 where
  enc w := (Spec.toByte w.toNat 8).reverse
  dec b := UInt64.ofNat (Spec.toInt b.reverse)
  len w := by rw [List.length_reverse, length_toByte]
  dec_enc w := by
    rw [List.reverse_reverse, toInt_toByte _ _ (by have := w.toNat_lt; omega)]
    exact UInt64.ofNat_toNat

/-- C40 for SHA-256: whatever the byte order of the platform, however the message is split, and although full buffers are
compressed in place, the first `n` bytes written are those of the SHA-256 digest and the others keep their value. -/
theorem C40_sha256_in_place (r : WordRep UInt32 4) (ctx : Sha256.Ctx) (hctx : ctx.data.length = 64) (chunks : List Bytes)
    (hlen : chunks.flatten.length < 2 ^ 61) (digest : Bytes) (n : Nat) (hn : n ≤ 32) (hn4 : n % 4 = 0)
    (hd : n ≤ digest.length) :
    ∃ c c', chunks.foldlM (Sha256.updateU r) (Sha256.init ctx) = Except.ok c ∧
      Sha256.final_truncU r digest c n = .ok ((Spec.Sha256.hash chunks.flatten).take n ++ digest.drop n, c') := by
  have key : ∀ (chunks : List Bytes) (c : Sha256.Ctx) (M : Bytes), Sha256.Abs c M →
      ∃ c', chunks.foldlM (Sha256.updateU r) c = Except.ok c' ∧ Sha256.Abs c' (M ++ chunks.flatten) := by
    intro chunks
    induction chunks with
    | nil => intro c M h; exact ⟨c, rfl, by simpa using h⟩
    | cons p ps ih =>
      intro c M h
      obtain ⟨c1, e1, h1⟩ := Sha256.updateU_ok r c M p h
      obtain ⟨c2, e2, h2⟩ := ih c1 _ h1
      exact ⟨c2, by rw [List.foldlM_cons, e1]; exact e2, by simpa using h2⟩
  obtain ⟨c, e, h⟩ := key chunks _ _ (Sha256.init_abs ctx hctx)
  obtain ⟨c', e', _⟩ := Sha256.final_truncU_ok r digest c _ n h (by simp only [List.nil_append]; omega) hn hn4 hd
  exact ⟨c, c', e, e'⟩

/-- C40 for SHA-512. -/
theorem C40_sha512_in_place (r : WordRep UInt64 8) (ctx : Sha512.Ctx) (hctx : ctx.data.length = 128) (chunks : List Bytes)
    (hlen : chunks.flatten.length < 2 ^ 61) (digest : Bytes) (n : Nat) (hn : n ≤ 64) (hn8 : n % 8 = 0)
    (hd : n ≤ digest.length) :
    ∃ c c', chunks.foldlM (Sha512.updateU r) (Sha512.init ctx) = Except.ok c ∧
      Sha512.final_truncU r digest c n = .ok ((Spec.Sha512.hash chunks.flatten).take n ++ digest.drop n, c') := by
  have key : ∀ (chunks : List Bytes) (c : Sha512.Ctx) (M : Bytes), Sha512.Abs c M →
      ∃ c', chunks.foldlM (Sha512.updateU r) c = Except.ok c' ∧ Sha512.Abs c' (M ++ chunks.flatten) := by
    intro chunks
    induction chunks with
    | nil => intro c M h; exact ⟨c, rfl, by simpa using h⟩
    | cons p ps ih =>
      intro c M h
      obtain ⟨c1, e1, h1⟩ := Sha512.updateU_ok r c M p h
      obtain ⟨c2, e2, h2⟩ := ih c1 _ h1
      exact ⟨c2, by rw [List.foldlM_cons, e1]; exact e2, by simpa using h2⟩
  obtain ⟨c, e, h⟩ := key chunks _ _ (Sha512.init_abs ctx hctx)
  obtain ⟨c', e', _⟩ := Sha512.final_truncU_ok r digest c _ n h (by simp only [List.nil_append]; omega) hn hn8 hd
  exact ⟨c, c', e, e'⟩

/-- How a machine of the given byte order stores words. -/
def rep32 (big : Bool) : WordRep UInt32 4 := bif big then bigRep32 else littleRep32

theorem rep32_enc (big : Bool) : (rep32 big).enc = Sha256.wordBytes big := by
  funext w
  cases big <;>
    simp [rep32, bigRep32, littleRep32, Sha256.wordBytes, Sha256.leBytes, Spec.toByte, List.range, List.range.loop,
      Nat.shiftRight_eq_div_pow, Nat.div_div_eq_div_mul]

/-- The model used everywhere else does the same, context included, as the code that works in place on a machine of the byte order `ctx.big`. -/
theorem C40_sha256_model (ctx : Sha256.Ctx) (hx : ctx.data.length = 64) :
    (∀ buf : Option Bytes, (∀ b, buf = some b → b.length = 64) →
      Sha256.compressU (rep32 ctx.big) ctx buf = Sha256.compress ctx (buf.getD ctx.data)) ∧
    (∀ p, Sha256.updateU (rep32 ctx.big) ctx p = Sha256.update ctx p) ∧
    (∀ digest n, Sha256.final_truncU (rep32 ctx.big) digest ctx n = Sha256.final_trunc digest ctx n) :=
  ⟨fun buf hb => Sha256.compressU_eq _ ctx (rep32_enc _) buf hx hb, fun p => Sha256.updateU_eq _ ctx p (rep32_enc _) hx,
    fun digest n => Sha256.final_truncU_eq _ digest ctx n (rep32_enc _) hx⟩

/-- How a machine of the given byte order stores words. -/
def rep64 (big : Bool) : WordRep UInt64 8 := bif big then bigRep64 else littleRep64

theorem rep64_enc (big : Bool) : (rep64 big).enc = Sha512.wordBytes big := by
  funext w
  cases big <;>
    simp [rep64, bigRep64, littleRep64, Sha512.wordBytes, Sha512.leBytes, Spec.toByte, List.range, List.range.loop,
      Nat.shiftRight_eq_div_pow, Nat.div_div_eq_div_mul]

/-- The model used everywhere else does the same, context included, as the code that works in place on a machine of the byte order `ctx.big`. -/
theorem C40_sha512_model (ctx : Sha512.Ctx) (hx : ctx.data.length = 128) :
    (∀ buf : Option Bytes, (∀ b, buf = some b → b.length = 128) →
      Sha512.compressU (rep64 ctx.big) ctx buf = Sha512.compress ctx (buf.getD ctx.data)) ∧
    (∀ p, Sha512.updateU (rep64 ctx.big) ctx p = Sha512.update ctx p) ∧
    (∀ digest n, Sha512.final_truncU (rep64 ctx.big) digest ctx n = Sha512.final_trunc digest ctx n) :=
  ⟨fun buf hb => Sha512.compressU_eq _ ctx (rep64_enc _) buf hx hb, fun p => Sha512.updateU_eq _ ctx p (rep64_enc _) hx,
    fun digest n => Sha512.final_truncU_eq _ digest ctx n (rep64_enc _) hx⟩

/-- The two platforms differ in what they leave in the buffer, not in the digest. -/
example : bigRep32.enc 0x01020304 = [1, 2, 3, 4] ∧ littleRep32.enc 0x01020304 = [4, 3, 2, 1] ∧
    bigRep64.enc 0x0102030405060708 = [1, 2, 3, 4, 5, 6, 7, 8] ∧
    littleRep64.enc 0x0102030405060708 = [8, 7, 6, 5, 4, 3, 2, 1] := by decide +kernel
example : (⟨Spec.Sha256.H0, 7, 3, List.replicate 64 9, true⟩ : Sha256.Ctx).data.length = 64 ∧
    [[1, 2], [], List.replicate 200 (3 : UInt8)].flatten.length < 2 ^ 61 ∧ 24 ≤ 32 ∧ 24 % 4 = 0 ∧
    24 ≤ (List.replicate 24 (0 : UInt8)).length := by decide +kernel
example : (⟨Spec.Sha512.H0, 7, 3, List.replicate 128 9, true⟩ : Sha512.Ctx).data.length = 128 ∧ 24 ≤ 64 ∧ 24 % 8 = 0 :=
  by decide +kernel

end Properties
