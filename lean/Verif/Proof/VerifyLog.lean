import Verif.Proof.VerifyLoop
/-!
# The verifier as an append-only log
-/
namespace Model
open Spec Spec.Slh

variable {S : Sess} {mem : Mem} {root M : Bytes} {msg : Nat}

/-- A verification context that has been fed the bytes `w`; `failed` once a call has returned 0. -/
inductive VRel (S : Sess) (root : Bytes) (msg : Nat) (M : Bytes) : (w : Bytes) → (failed : Bool) → Ctx → Prop
  | run {w : Bytes} {c : Ctx} (ph : VPh S) (bs : List Bytes) : ph.Inv msg M c → c.buffer_offset < S.n → 0 < ph.cnt →
      (∀ b ∈ bs, b.length = S.n) → w = bs.flatten ++ c.buffer.take c.buffer_offset → ph.cnt + bs.length = S.P.sigBlocks →
      (∀ rest, verifyBlocks S.P S.hf S.pkSeed root M (bs ++ rest) = ph.acc root M rest) → VRel S root msg M w false c
  | acc {w : Bytes} {c : Ctx} : Good S c → c.state = .verify_success → w.length = S.P.sigBytes + c.buffer_offset → c.buffer_offset < S.n →
      verifyBlocks S.P S.hf S.pkSeed root M (blocks S.n (w.take S.P.sigBytes)) = true → VRel S root msg M w false c
  | bad {w : Bytes} {c : Ctx} : Good S c → c.state = .verify_fail → VRel S root msg M w true c

/-- The abstract verdict of one call: whether it succeeds. -/
def vStep (P : Params) (hf : HashFns) (pkSeed root M : Bytes) (w t : Bytes) : Bool :=
  if w.length < P.sigBytes then
    if (w ++ t).length < P.sigBytes then true
    else if (w ++ t).length = P.sigBytes then verifyBlocks P hf pkSeed root M (blocks P.n (w ++ t))
    else false
  else decide ((w ++ t).length < P.sigBytes + P.n)

theorem VRel.shape {w : Bytes} {f : Bool} {c : Ctx} (h : VRel S root msg M w f c) : Good S c := by
  cases h with
  | run ph bs h => exact h.good
  | acc h => exact h
  | bad h => exact h

theorem VPh.Inv.st {ph : VPh S} {c : Ctx} (h : ph.Inv msg M c) :
    St.verify_state.num < c.state.num ∧ c.state.num < St.verify_success.num := by
  cases ph with
  | init => rw [h.2.1]; decide
  | forsLeaf D τ roots => rw [h.2.2.1]; decide
  | fors D τ l roots v => rw [h.2.2.2.1]; decide
  | wots D j i M' a => rw [h.2.2.2.1]; decide
  | merkle D j l v => rw [h.2.2.2.1]; decide

theorem VRel.st {w : Bytes} {f : Bool} {c : Ctx} (h : VRel S root msg M w f c) : St.verify_state.num < c.state.num := by
  cases h with
  | run ph bs h => exact h.st.1
  | acc h h' => rw [h']; decide
  | bad h h' => rw [h']; decide

theorem VRel.run_len {w : Bytes} {c : Ctx} {ph : VPh S} {bs : List Bytes} (g : Good S c) (hbo : c.buffer_offset < S.n)
    (hb : ∀ b ∈ bs, b.length = S.n) (hw : w = bs.flatten ++ c.buffer.take c.buffer_offset) (hc : ph.cnt + bs.length = S.P.sigBlocks) :
    w.length + ph.cnt * S.n = S.P.sigBytes + c.buffer_offset := by
  have hbuf := g.buf
  have hmx := S.facts.nmax
  have h1 : w.length = bs.length * S.n + c.buffer_offset := by
    rw [hw, List.length_append, length_flatten_blocks _ _ hb, List.length_take]; omega
  have h2 : S.P.sigBytes = ph.cnt * S.n + bs.length * S.n := by
    unfold Spec.Params.sigBytes
    rw [← hc, Nat.add_mul]
  omega

/-- One call of `ts_update_verify`. -/
theorem ts_update_verify_ok (hm : S.MemPub mem) (hr : S.MemRoot mem root) (hl : M.length < 2 ^ 60) (hmsg : S.cfg.Fits msg M.length) {w t : Bytes} {f : Bool} {c : Ctx}
    (h : VRel S root msg M w f c) (hM : w.length < S.n → mem.Has msg M) :
    ∃ c', ts_update_verify S.E mem t c = .ok (if f = false ∧ vStep S.P S.hf S.pkSeed root M w t = true then 1 else 0, c') ∧
      VRel S root msg M (w ++ t) (!(!f && vStep S.P S.hf S.pkSeed root M w t)) c' := by
  have F := S.facts
  have hmx := F.nmax
  have h32 := F.max32
  have hn16 := F.n16
  have hst := h.st
  cases h with
  | bad g hs =>
    refine ⟨c, ?_, .bad g hs⟩
    unfold ts_update_verify
    rw [if_pos (Or.inr (by rw [hs]))]
    simp
  | acc g hs hwl hbo hv =>
    have hbuf := g.buf
    unfold ts_update_verify
    rw [if_neg (by rw [hs]; decide)]
    unfold verLoop
    rw [ctx_n g]
    have hrem : usub S.n c.buffer_offset = S.n - c.buffer_offset := by unfold usub; omega
    simp only [hrem]
    obtain ⟨r, hr'⟩ : ∃ r, r = (if S.n - c.buffer_offset > t.length then t.length else S.n - c.buffer_offset) := ⟨_, rfl⟩
    rw [← hr']
    have hr1 : r ≤ t.length := by rw [hr']; split <;> omega
    have hr2 : c.buffer_offset + r ≤ S.n := by rw [hr']; split <;> omega
    rw [rdSlice_ok (by omega), ok_bind, List.drop_zero]
    have hsl : (t.take r).length = r := by simp; omega
    rw [wrSlice_ok (by omega), ok_bind]
    obtain ⟨B, hB⟩ : ∃ B, B = c.buffer.take c.buffer_offset ++ t.take r ++ c.buffer.drop (c.buffer_offset + (t.take r).length) := ⟨_, rfl⟩
    rw [← hB]
    have hBl : B.length = S.cfg.MAX_HASH := by rw [hB, ← hbuf]; exact length_splice _ _ _ (by omega)
    have hvs : vStep S.P S.hf S.pkSeed root M w t = decide (c.buffer_offset + t.length < S.n) := by
      unfold vStep
      rw [if_neg (by omega), List.length_append]
      have : S.P.n = S.n := rfl
      apply decide_eq_decide.2
      constructor <;> intro <;> omega
    rw [hvs]
    by_cases hf : c.buffer_offset + r < S.n
    · have hrs : r = t.length := by split at hr' <;> omega
      rw [if_pos hf]
      have hd : decide (c.buffer_offset + t.length < S.n) = true := decide_eq_true (by omega)
      rw [hd]
      refine ⟨{ c with buffer := B, buffer_offset := (c.buffer_offset + r) % 256 }, by simp, .acc (g.buffer hBl _) hs ?_ ?_ ?_⟩
      · show _ = S.P.sigBytes + (c.buffer_offset + r) % 256
        rw [List.length_append]; omega
      · show (c.buffer_offset + r) % 256 < S.n
        omega
      · rw [List.take_append_of_le_length (by omega)]; exact hv
    · rw [if_neg hf]
      have hd : decide (c.buffer_offset + t.length < S.n) = false := decide_eq_false (by omega)
      rw [hd]
      have hstep : verStep S.E mem (t.length - r) { c with buffer := B, buffer_offset := 0 } =
          .ok (some 0, { c with buffer := B, buffer_offset := 0, state := .verify_fail }) := by
        unfold verStep
        simp only [hs]
      rw [hstep, ok_bind]
      refine ⟨{ c with buffer := B, buffer_offset := 0, state := .verify_fail }, by simp, .bad ⟨⟨g.adr, hBl, g.auth, g.x, g.si, g.bi⟩, g.ps, g.pk, g.pre⟩ rfl⟩
  | run ph bs hi hbo hcnt hb hw hc hacc =>
    have g := hi.good
    have hst2 := hi.st.2
    have hlen := VRel.run_len g hbo hb hw hc
    have hcn : S.n ≤ ph.cnt * S.n := Nat.le_mul_of_pos_left _ hcnt
    unfold ts_update_verify
    rw [if_neg (by
      intro hh
      have : St.verify_success.num < St.verify_fail.num := by decide
      omega)]
    have hM' : ph = .init → mem.Has msg M := by
      intro hp
      apply hM
      rw [hp] at hlen hc
      unfold VPh.cnt at hlen hc
      simp only at hlen hc
      have : S.P.sigBytes = S.P.sigBlocks * S.n := rfl
      omega
    have R := verLoop_ok hm hr hl hmsg (t.length + 2) t c ph hi hbo hcnt hM' (by omega)
    have htl : (c.buffer.take c.buffer_offset ++ t).length = c.buffer_offset + t.length := by
      have := g.buf
      rw [List.length_append, List.length_take]; omega
    have hwl : w.length < S.P.sigBytes := by omega
    have hwt : w ++ t = bs.flatten ++ (c.buffer.take c.buffer_offset ++ t) := by rw [hw, List.append_assoc]
    have hvs : vStep S.P S.hf S.pkSeed root M w t = if (w ++ t).length < S.P.sigBytes then true
        else if (w ++ t).length = S.P.sigBytes then verifyBlocks S.P S.hf S.pkSeed root M (blocks S.P.n (w ++ t)) else false := by
      unfold vStep; rw [if_pos hwl]
    rw [hvs]
    have hll : (w ++ t).length = w.length + t.length := List.length_append
    rcases Nat.lt_trichotomy (w ++ t).length S.P.sigBytes with hcmp | hcmp | hcmp
    · rw [if_pos hcmp]
      obtain ⟨ph', c', bs', q1, q2, q3, q4, q5, q6, q7, q8⟩ := R.short (by omega)
      refine ⟨c', by simpa using q1, .run ph' (bs ++ bs') q2 q3 q4 ?_ ?_ ?_ ?_⟩
      · intro b hb'
        rcases List.mem_append.1 hb' with h | h
        · exact hb b h
        · exact q5 b h
      · rw [hwt, q6, List.flatten_append, List.append_assoc]
      · rw [List.length_append]; omega
      · intro rest
        rw [List.append_assoc, hacc, q8]
    · rw [if_neg (show ¬ (w ++ t).length < S.P.sigBytes by omega), if_pos hcmp]
      obtain ⟨c', q1, q2, q3, q4⟩ := R.exact (by omega)
      have hv : verifyBlocks S.P S.hf S.pkSeed root M (blocks S.P.n (w ++ t)) = ph.acc root M (blocks S.n (c.buffer.take c.buffer_offset ++ t)) := by
        rw [hwt, blocks_flatten S.n (by omega) bs hb, hacc]
      rw [hv]
      by_cases hy : ph.acc root M (blocks S.n (c.buffer.take c.buffer_offset ++ t)) = true
      · rw [if_pos hy] at q1 q4
        rw [hy]
        refine ⟨c', by simpa using q1, .acc q2 q4 (by omega) (by omega) ?_⟩
        rw [List.take_of_length_le (by omega), ← hy]
        exact hv
      · rw [if_neg hy] at q1 q4
        rw [Bool.not_eq_true] at hy
        rw [hy]
        exact ⟨c', by simpa using q1, .bad q2 q4⟩
    · rw [if_neg (show ¬ (w ++ t).length < S.P.sigBytes by omega), if_neg (show ¬ (w ++ t).length = S.P.sigBytes by omega)]
      obtain ⟨c', q1, q2, q3⟩ := R.long (by omega)
      exact ⟨c', by simpa using q1, .bad q2 q3⟩

/-- `ts_init_verify`. -/
theorem ts_init_verify_ok {c : Ctx} (hsh : Shape S.cfg c) (hm : S.MemPub mem) :
    ∃ c', ts_init_verify S.E mem c msg M.length S.ps S.pk = .ok c' ∧ VRel S root msg M [] false c' := by
  have F := S.facts
  have hx := x_ge_digits c hsh
  have hmw : 2 * 16 + 3 ≤ S.cfg.MAX_WOTS_DIGITS := by
    unfold Config.MAX_WOTS_DIGITS
    have := F.nmax; have := F.n16
    omega
  have hw : 2 * S.E.cfg.arch.word ≤ c.x.length := by rw [hsh.x]; exact S.cfg.verifySize_le
  have hl1 := S.E.cfg.arch.length_bytes S.E.cfg.arch.word msg
  have hl2 := S.E.cfg.arch.length_bytes S.E.cfg.arch.word M.length
  obtain ⟨x1, hx1⟩ : ∃ x1, x1 = c.x.take 0 ++ S.E.cfg.arch.bytes S.E.cfg.arch.word msg ++ c.x.drop (0 + (S.E.cfg.arch.bytes S.E.cfg.arch.word msg).length) := ⟨_, rfl⟩
  have hx1l : x1.length = c.x.length := by rw [hx1]; exact length_splice _ _ _ (by omega)
  obtain ⟨x2, hx2⟩ : ∃ x2, x2 = x1.take S.E.cfg.arch.word ++ S.E.cfg.arch.bytes S.E.cfg.arch.word M.length ++ x1.drop (S.E.cfg.arch.word + (S.E.cfg.arch.bytes S.E.cfg.arch.word M.length).length) := ⟨_, rfl⟩
  have hx2l : x2.length = c.x.length := by rw [hx2, ← hx1l]; exact length_splice _ _ _ (by omega)
  have hx1t : x1.take S.E.cfg.arch.word = S.E.cfg.arch.bytes S.E.cfg.arch.word msg := by rw [hx1, List.take_zero, List.nil_append]; exact take_left' hl1
  obtain ⟨si, p1, p2, e1, g1⟩ := call_prehash_ok (S := S) (mem := mem)
    (ctx := { c with ps := S.ps, public_key := S.pk, state := .verify_init, buffer_offset := 0, x := x2 }) rfl rfl hm
    ⟨hsh.adr, hsh.buf, hsh.auth, hx2l.trans hsh.x, hsh.si, hsh.bi⟩
  refine ⟨_, ?_, .run (.init (S := S)) [] ⟨g1, rfl, ?_, ?_⟩ ?_ ?_ (by simp) ?_ (by simp [VPh.cnt]) (fun _ => rfl)⟩
  · unfold ts_init_verify Config.verifyMessageOff Config.verifyLenOff
    rw [wrSlice_ok (by omega), ok_bind, ← hx1, wrSlice_ok (by omega), ok_bind, ← hx2]
    exact e1
  · show x2.take S.E.cfg.arch.word = _
    rw [hx2, hx1t, List.append_assoc]; exact take_left' hl1
  · show (x2.drop S.E.cfg.arch.word).take S.E.cfg.arch.word = _
    rw [hx2, hx1t, List.append_assoc, drop_left' hl1]; exact take_left' hl2
  · show 0 < S.n
    have := F.n16; omega
  · unfold VPh.cnt Spec.Params.sigBlocks; simp only; omega
  · simp

/-- `ts_verify`. -/
theorem ts_verify_ok {w : Bytes} {f : Bool} {c : Ctx} (h : VRel S root msg M w f c) :
    ts_verify c = if f = false ∧ w.length = S.P.sigBytes then 1 else 0 := by
  unfold ts_verify
  cases h with
  | run ph bs hi hbo hcnt hb hw hc hacc =>
    have hlen := VRel.run_len hi.good hbo hb hw hc
    have hcn : S.n ≤ ph.cnt * S.n := Nat.le_mul_of_pos_left _ hcnt
    have hst := hi.st.2
    rw [if_neg (by rintro ⟨h1, -⟩; rw [h1] at hst; exact absurd hst (by decide)), if_neg (by rintro ⟨-, h⟩; omega)]
  | acc g hs hwl hbo hv =>
    by_cases h0 : c.buffer_offset = 0
    · rw [if_pos ⟨hs, h0⟩, if_pos ⟨rfl, by omega⟩]
    · rw [if_neg (by rintro ⟨-, h⟩; exact h0 h), if_neg (by rintro ⟨-, h⟩; omega)]
  | bad g hs =>
    rw [hs, if_neg (by rintro ⟨h, -⟩; exact absurd h (by decide)), if_neg (by rintro ⟨h, -⟩; exact absurd h (by decide))]

end Model
