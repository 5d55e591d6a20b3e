import Verif.Proof.VerifyStep
/-!
# `ts_update_verify`, `ts_init_verify`, `ts_verify`: the verifier as an append-only log
-/
namespace Model
open Spec Spec.Slh

theorem blocks_cons (n : Nat) (hn : 0 < n) (b s : Bytes) (hb : b.length = n) : blocks n (b ++ s) = b :: blocks n s := by
  unfold blocks
  rw [List.length_append, hb, show n + s.length = s.length + n by omega, Nat.add_div_right _ hn, List.range_succ_eq_map, List.map_cons, List.map_map]
  congr 1
  · rw [Nat.zero_mul, List.drop_zero]; exact take_left' hb
  · apply List.map_congr_left
    intro i _
    simp only [Function.comp]
    rw [Nat.succ_mul, Nat.add_comm, ← List.drop_drop, drop_left' hb]

theorem blocks_nil (n : Nat) : blocks n [] = [] := by simp [blocks]

theorem blocks_flatten (n : Nat) (hn : 0 < n) (bs : List Bytes) (h : ∀ b ∈ bs, b.length = n) (s : Bytes) :
    blocks n (bs.flatten ++ s) = bs ++ blocks n s := by
  induction bs with
  | nil => rfl
  | cons b bs ih =>
    rw [List.flatten_cons, List.append_assoc, blocks_cons n hn _ _ (h b (by simp)), ih (fun b hb => h b (by simp [hb]))]
    rfl

theorem length_flatten_blocks (n : Nat) (bs : List Bytes) (h : ∀ b ∈ bs, b.length = n) : bs.flatten.length = bs.length * n := by
  induction bs with
  | nil => simp
  | cons b bs ih =>
    rw [List.flatten_cons, List.length_append, h b (by simp), ih (fun b hb => h b (by simp [hb])), List.length_cons, Nat.succ_mul]; omega

variable {S : Sess} {mem : Mem} {root M : Bytes} {msg : Nat}

theorem VPh.cnt_le (ph : VPh S) : ph.cnt ≤ S.P.sigBlocks := by
  have F := S.facts
  have hs : S.P.sigBlocks = 1 + (S.P.k * (S.P.a + 1) + S.P.d * (S.P.len + S.P.hp)) := by
    unfold Spec.Params.sigBlocks
    rw [F.hhd, Nat.mul_add S.P.d, Nat.add_comm 1 S.P.a, Nat.mul_comm S.P.hp]
    omega
  have hk : S.P.k * (S.P.a + 1) = (S.P.k - 1) * (S.P.a + 1) + (S.P.a + 1) := by
    have := F.kge
    rw [← Nat.succ_mul]; congr 1; omega
  have hd : S.P.d * (S.P.len + S.P.hp) = (S.P.d - 1) * (S.P.len + S.P.hp) + (S.P.len + S.P.hp) := by
    have := F.dge
    rw [← Nat.succ_mul]; congr 1; omega
  cases ph with
  | init => exact Nat.le_refl _
  | forsLeaf D τ roots =>
    have := Nat.mul_le_mul_right (S.P.a + 1) (show S.P.k - τ ≤ S.P.k by omega)
    unfold cnt; simp only; omega
  | fors D τ l roots v =>
    have := Nat.mul_le_mul_right (S.P.a + 1) (show S.P.k - (τ + 1) ≤ S.P.k - 1 by omega)
    unfold cnt; simp only; omega
  | wots D j i M a =>
    have := Nat.mul_le_mul_right (S.P.len + S.P.hp) (show S.P.d - (j + 1) ≤ S.P.d - 1 by omega)
    unfold cnt; simp only; omega
  | merkle D j l v =>
    have := Nat.mul_le_mul_right (S.P.len + S.P.hp) (show S.P.d - (j + 1) ≤ S.P.d - 1 by omega)
    unfold cnt; simp only; omega

theorem VPh.Inv.good {ph : VPh S} {c : Ctx} (h : ph.Inv msg M c) : Good S c := by
  cases ph <;> exact h.1

theorem Good.buffer {c : Ctx} (g : Good S c) {B : Bytes} (hB : B.length = S.cfg.MAX_HASH) (o : Nat) :
    Good S { c with buffer := B, buffer_offset := o } :=
  ⟨⟨g.adr, hB, g.auth, g.x, g.si, g.bi⟩, g.ps, g.pk, g.pre⟩

theorem VPh.Inv.buffer {ph : VPh S} {c : Ctx} (h : ph.Inv msg M c) {B : Bytes} (hB : B.length = S.cfg.MAX_HASH) (o : Nat) :
    ph.Inv msg M { c with buffer := B, buffer_offset := o } := by
  cases ph <;> exact ⟨h.1.buffer hB o, h.2⟩

/-- What one call of `ts_update_verify` does from a position. -/
structure VLoopRes (S : Sess) (root : Bytes) (msg : Nat) (M : Bytes) (ph : VPh S) (t : Bytes) (r : C (Nat × Ctx)) : Prop where
  short : t.length < ph.cnt * S.n → ∃ (ph' : VPh S) (c' : Ctx) (bs : List Bytes), r = .ok (1, c') ∧ ph'.Inv msg M c' ∧ c'.buffer_offset < S.n ∧
    0 < ph'.cnt ∧ (∀ b ∈ bs, b.length = S.n) ∧ t = bs.flatten ++ c'.buffer.take c'.buffer_offset ∧ ph.cnt = ph'.cnt + bs.length ∧
    ∀ rest, ph.acc root M (bs ++ rest) = ph'.acc root M rest
  exact : t.length = ph.cnt * S.n → ∃ c', r = .ok (if ph.acc root M (blocks S.n t) = true then 1 else 0, c') ∧ Good S c' ∧ c'.buffer_offset = 0 ∧
    c'.state = if ph.acc root M (blocks S.n t) = true then St.verify_success else St.verify_fail
  long : ph.cnt * S.n < t.length → ∃ c', r = .ok (0, c') ∧ Good S c' ∧ c'.state = St.verify_fail

theorem verLoop_ok (hm : S.MemPub mem) (hr : S.MemRoot mem root) (hl : M.length < 2 ^ 60) (hmsg : S.cfg.Fits msg M.length) :
    ∀ (fuel : Nat) (sig : Bytes) (c : Ctx) (ph : VPh S), ph.Inv msg M c → c.buffer_offset < S.n → 0 < ph.cnt → (ph = .init → mem.Has msg M) →
      sig.length < fuel → VLoopRes S root msg M ph (c.buffer.take c.buffer_offset ++ sig) (verLoop S.E mem fuel sig c) := by
  intro fuel
  induction fuel with
  | zero => intro sig c ph _ _ _ _ h; omega
  | succ fuel ih =>
    intro sig c ph h hbo hcnt hM hf
    have g := h.good
    have F := S.facts
    have hmx := F.nmax
    have h32 := F.max32
    have hn16 := F.n16
    have hbuf := g.buf
    unfold verLoop
    rw [ctx_n g]
    have hrem : usub S.n c.buffer_offset = S.n - c.buffer_offset := by unfold usub; omega
    simp only [hrem]
    obtain ⟨r, hr'⟩ : ∃ r, r = (if S.n - c.buffer_offset > sig.length then sig.length else S.n - c.buffer_offset) := ⟨_, rfl⟩
    rw [← hr']
    have hr1 : r ≤ sig.length := by rw [hr']; split <;> omega
    have hr2 : c.buffer_offset + r ≤ S.n := by rw [hr']; split <;> omega
    rw [rdSlice_ok (by omega), ok_bind, List.drop_zero]
    have hsl : (sig.take r).length = r := by simp; omega
    rw [wrSlice_ok (by omega), ok_bind]
    obtain ⟨B, hB⟩ : ∃ B, B = c.buffer.take c.buffer_offset ++ sig.take r ++ c.buffer.drop (c.buffer_offset + (sig.take r).length) := ⟨_, rfl⟩
    rw [← hB]
    have hBl : B.length = S.cfg.MAX_HASH := by rw [hB, ← hbuf]; exact length_splice _ _ _ (by omega)
    have hpl : (c.buffer.take c.buffer_offset ++ sig.take r).length = c.buffer_offset + r := by
      rw [List.length_append, List.length_take, hsl]; omega
    have hBt : B.take (c.buffer_offset + r) = c.buffer.take c.buffer_offset ++ sig.take r := by rw [hB]; exact take_left' hpl
    have hcn : S.n ≤ ph.cnt * S.n := Nat.le_mul_of_pos_left _ hcnt
    have htl : (c.buffer.take c.buffer_offset ++ sig).length = c.buffer_offset + sig.length := by
      rw [List.length_append, List.length_take]; omega
    by_cases hfull : c.buffer_offset + r < S.n
    · rw [if_pos hfull]
      have hrs : r = sig.length := by split at hr' <;> omega
      refine ⟨fun _ => ⟨ph, { c with buffer := B, buffer_offset := (c.buffer_offset + r) % 256 }, [], rfl, h.buffer hBl _, ?_, hcnt, by simp, ?_, by simp, fun _ => rfl⟩,
        fun he => ?_, fun he => ?_⟩
      · show (c.buffer_offset + r) % 256 < S.n
        omega
      · show _ = [] ++ B.take ((c.buffer_offset + r) % 256)
        rw [Nat.mod_eq_of_lt (by omega), hBt, hrs, List.take_of_length_le (Nat.le_refl _)]; rfl
      · omega
      · omega
    · rw [if_neg hfull]
      have hre : c.buffer_offset + r = S.n := by omega
      rw [hre] at hBt hpl
      obtain ⟨b, hb⟩ : ∃ b, b = B.take S.n := ⟨_, rfl⟩
      have hbl : b.length = S.n := by rw [hb, List.length_take]; omega
      have ht : c.buffer.take c.buffer_offset ++ sig = b ++ sig.drop r := by
        rw [hb, hBt, List.append_assoc, List.take_append_drop]
      have hml : sig.length - r = (sig.drop r).length := by simp
      rw [ht, hml]
      rcases ver_step (mem := mem) (m := (sig.drop r).length) hm hr hM hl hmsg rfl (h.buffer hBl 0) with
        ⟨ph', c', e, h1, h2, h3, h4, h5, -, -⟩ | ⟨hc1, c', e, h1, h2, h3⟩
      · rw [show verStep S.E mem (sig.drop r).length { c with buffer := B, buffer_offset := 0 } = _ from e, ok_bind]
        simp only
        have hi' : ph' = .init → mem.Has msg M := by
          intro hh
          have := ph.cnt_le
          rw [h3, hh] at this
          unfold VPh.cnt at this
          simp only at this
          omega
        have hR := ih (sig.drop r) c' ph' h2 (by omega) h4 hi' (by simp; omega)
        rw [h1, List.take_zero, List.nil_append] at hR
        have h5' : ∀ rest, ph.acc root M (b :: rest) = ph'.acc root M rest := by rw [hb]; exact h5
        have hc : ph.cnt * S.n = ph'.cnt * S.n + S.n := by rw [h3, Nat.succ_mul]
        have htl' : (b ++ sig.drop r).length = S.n + (sig.drop r).length := by rw [List.length_append, hbl]
        refine ⟨fun hlt => ?_, fun he => ?_, fun hgt => ?_⟩
        · obtain ⟨ph2, c2, bs, q1, q2, q3, q4, q5, q6, q7, q8⟩ := hR.short (by omega)
          refine ⟨ph2, c2, b :: bs, q1, q2, q3, q4, ?_, ?_, ?_, ?_⟩
          · intro b' hb'
            rcases List.mem_cons.1 hb' with rfl | hb'
            · exact hbl
            · exact q5 b' hb'
          · rw [q6, List.flatten_cons, List.append_assoc]
          · rw [h3, q7, List.length_cons]; omega
          · intro rest
            rw [List.cons_append, h5', q8]
        · have := hR.exact (by omega)
          rw [blocks_cons S.n (by omega) _ _ hbl, h5']
          exact this
        · exact hR.long (by omega)
      · rw [show verStep S.E mem (sig.drop r).length { c with buffer := B, buffer_offset := 0 } = _ from e, ok_bind]
        simp only
        have h1c : ph.cnt * S.n = S.n := by rw [hc1, Nat.one_mul]
        have htl' : (b ++ sig.drop r).length = S.n + (sig.drop r).length := by rw [List.length_append, hbl]
        rw [show ({ c with buffer := B, buffer_offset := 0 } : Ctx).buffer.take S.n = b from hb.symm] at h3 ⊢
        refine ⟨fun hlt => by omega, fun he => ?_, fun hgt => ?_⟩
        · have h0 : (sig.drop r).length = 0 := by omega
          have hn : sig.drop r = [] := List.length_eq_zero_iff.1 h0
          rw [hn, blocks_cons S.n (by omega) _ _ hbl, blocks_nil]
          refine ⟨c', ?_, h1, h2, ?_⟩
          · simp
          · rw [h3]; simp [hn]
        · have h0 : (sig.drop r).length ≠ 0 := by omega
          refine ⟨c', ?_, h1, ?_⟩
          · simp only [h0, false_and, if_false]
          · rw [h3]; simp only [h0, false_and, if_false]

end Model
