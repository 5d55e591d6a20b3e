import Verif.Proof.Sched
import Verif.Proof.Blocks
import Verif.Model.Sha256
/-!
# sha256.c implements FIPS 180-4 SHA-256
-/
namespace Model.Sha256
open Spec (V8)

/-! ## Word functions -/

theorem K_eq : K = Spec.Sha256.K := by decide +kernel

theorem H0_eq : (⟨0x6A09E667, 0xBB67AE85, 0x3C6EF372, 0xA54FF53A, 0x510E527F, 0x9B05688C, 0x1F83D9AB,
    0x5BE0CD19⟩ : V8 UInt32) = Spec.Sha256.H0 := by decide +kernel

theorem Ch_eq (x y z : UInt32) : Ch x y z = Spec.Sha256.Ch x y z := by
  apply UInt32.toBitVec_inj.1
  ext i hi
  simp only [Ch, Spec.Sha256.Ch, UInt32.toBitVec_xor, UInt32.toBitVec_and, UInt32.toBitVec_not,
    BitVec.getElem_xor, BitVec.getElem_and, BitVec.getElem_not]
  cases x.toBitVec[i] <;> cases y.toBitVec[i] <;> cases z.toBitVec[i] <;> rfl

theorem Maj_eq (x y z : UInt32) : Maj x y z = Spec.Sha256.Maj x y z := by
  apply UInt32.toBitVec_inj.1
  ext i hi
  simp only [Maj, Spec.Sha256.Maj, UInt32.toBitVec_xor, UInt32.toBitVec_and, UInt32.toBitVec_or,
    BitVec.getElem_xor, BitVec.getElem_and, BitVec.getElem_or]
  cases x.toBitVec[i] <;> cases y.toBitVec[i] <;> cases z.toBitVec[i] <;> rfl

theorem RORc_eq (x : UInt32) (n : Nat) (h : 0 < n) (h2 : n < 32) : RORc x n = Spec.Sha256.ROTR n x := by
  apply UInt32.toBitVec_inj.1
  have hm : n &&& 31 = n := by
    rw [show (31 : Nat) = 2 ^ 5 - 1 from rfl, Nat.and_two_pow_sub_one_eq_mod]; omega
  have h3 : n % 4294967296 % 32 = n := by omega
  have h4 : (32 - n) % 4294967296 % 32 = 32 - n := by omega
  simp only [RORc, Spec.Sha256.ROTR, hm, if_neg (show ¬ n = 0 by omega)]
  simp [BitVec.rotateRight, BitVec.rotateRightAux, Nat.mod_eq_of_lt h2, h3, h4]

theorem R_eq (x : UInt32) (n : Nat) (h2 : n < 32) : R x n = Spec.Sha256.SHR n x := by
  apply UInt32.toBitVec_inj.1
  have h3 : n % 4294967296 % 32 = n := by omega
  simp [R, Spec.Sha256.SHR, h3]

theorem Sigma0_eq (x : UInt32) : Sigma0 x = Spec.Sha256.bigSigma0 x := by
  simp [Sigma0, Spec.Sha256.bigSigma0, S, RORc_eq]
theorem Sigma1_eq (x : UInt32) : Sigma1 x = Spec.Sha256.bigSigma1 x := by
  simp [Sigma1, Spec.Sha256.bigSigma1, S, RORc_eq]
theorem Gamma0_eq (x : UInt32) : Gamma0 x = Spec.Sha256.smallSigma0 x := by
  simp [Gamma0, Spec.Sha256.smallSigma0, S, RORc_eq, R_eq]
theorem Gamma1_eq (x : UInt32) : Gamma1 x = Spec.Sha256.smallSigma1 x := by
  simp [Gamma1, Spec.Sha256.smallSigma1, S, RORc_eq, R_eq]

/-! ## The compression function -/

theorem length_words (b : Bytes) (h : b.length = 64) : (Spec.Sha256.words b).length = 16 := by
  simp [Spec.Sha256.words, length_blocks, h]

theorem schedule_eq (M : List UInt32) : Spec.Sha256.schedule M =
    ext (fun W t => Spec.Sha256.smallSigma1 (W.getD (t - 2) 0) + W.getD (t - 7) 0
          + Spec.Sha256.smallSigma0 (W.getD (t - 15) 0) + W.getD (t - 16) 0) M 48 := rfl

theorem length_schedule (M : List UInt32) : (Spec.Sha256.schedule M).length = M.length + 48 := by
  rw [schedule_eq, ext_length]

theorem schedule_rec (M : List UInt32) (hM : M.length = 16) (t : Nat) (h1 : 16 ≤ t) (h2 : t < 64) :
    (Spec.Sha256.schedule M).getD t 0 =
      Spec.Sha256.smallSigma1 ((Spec.Sha256.schedule M).getD (t - 2) 0)
      + (Spec.Sha256.schedule M).getD (t - 7) 0
      + Spec.Sha256.smallSigma0 ((Spec.Sha256.schedule M).getD (t - 15) 0)
      + (Spec.Sha256.schedule M).getD (t - 16) 0 := by
  exact ext_rec Spec.Sha256.smallSigma0 Spec.Sha256.smallSigma1 (· + ·) 0 M 48 t hM h1 h2

theorem and15 (i : Nat) : i &&& 15 = i % 16 := by
  rw [show (15 : Nat) = 2 ^ 4 - 1 from rfl, Nat.and_two_pow_sub_one_eq_mod]

/-- Loop invariant of the round loop. -/
structure RInv (Sc : List UInt32) (h0 : V8 UInt32) (i : Nat) (s : List UInt32 × V8 UInt32) : Prop where
  len : s.1.length = 16
  win : ∀ t, i ≤ t + 16 → t < max i 16 → s.1.getD (t % 16) 0 = Sc.getD t 0
  val : s.2 = ((K.zip Sc).take i).foldl (fun v kw => Spec.Sha256.round kw.1 kw.2 v) h0

theorem K_length : K.length = 64 := rfl

theorem sched_ok (M : List UInt32) (hM : M.length = 16) (i : Nat) (hi : i < 64)
    (W : List UInt32) (len : W.length = 16)
    (win : ∀ t, i ≤ t + 16 → t < max i 16 → W.getD (t % 16) 0 = (Spec.Sha256.schedule M).getD t 0) :
    ∃ W', sched i W = .ok W' ∧ W'.length = 16 ∧
      ∀ t, i + 1 ≤ t + 16 → t < max (i + 1) 16 →
        W'.getD (t % 16) 0 = (Spec.Sha256.schedule M).getD t 0 := by
  have hmod : ∀ t, t % 16 < W.length := fun t => by rw [len]; omega
  unfold sched
  by_cases h16 : i ≥ 16
  · rw [if_pos h16]
    simp only [and15]
    rw [show i % 16 = (i - 16) % 16 by omega]
    rw [rd_getD 0 (hmod _), rd_getD 0 (hmod _), rd_getD 0 (hmod _), rd_getD 0 (hmod _)]
    simp only [ok_bind]
    rw [wr_ok _ (hmod _)]
    refine ⟨_, rfl, by simp [len], ?_⟩
    intro t ht1 ht2
    rw [win (i - 2) (by omega) (by omega), win (i - 7) (by omega) (by omega),
      win (i - 15) (by omega) (by omega), win (i - 16) (by omega) (by omega)]
    rw [Gamma0_eq, Gamma1_eq, ← schedule_rec M hM i h16 hi]
    rw [show (i - 16) % 16 = i % 16 by omega]
    simp only [List.getD_eq_getElem?_getD, List.getElem?_set]
    by_cases hti : t = i
    · subst hti; simp [hmod]
    · have : ¬ (i % 16 = t % 16) := by omega
      rw [if_neg this]
      have := win t (by omega) (by omega)
      simpa [List.getD_eq_getElem?_getD] using this
  · rw [if_neg h16]
    exact ⟨W, rfl, len, fun t h1 h2 => win t (by omega) (by omega)⟩

theorem rnd_step (M : List UInt32) (hM : M.length = 16) (h0 : V8 UInt32) (i : Nat) (hi : i < 64)
    (s : List UInt32 × V8 UInt32) (inv : RInv (Spec.Sha256.schedule M) h0 i s) :
    ∃ s', rnd i s = .ok s' ∧ RInv (Spec.Sha256.schedule M) h0 (i + 1) s' := by
  obtain ⟨W, v⟩ := s
  obtain ⟨len, win, val⟩ := inv
  simp only at len win val
  obtain ⟨W', e, len', win'⟩ := sched_ok M hM i hi W len win
  have hw : W'.getD (i % 16) 0 = (Spec.Sha256.schedule M).getD i 0 := win' i (by omega) (by omega)
  have hK : K.length = 64 := K_length
  have hS : (Spec.Sha256.schedule M).length = 64 := by rw [length_schedule, hM]
  simp only [rnd]
  rw [e]
  simp only [ok_bind, and15]
  rw [rd_getD 0 (show i < K.length by omega), rd_getD 0 (show i % 16 < W'.length by omega)]
  simp only [ok_bind]
  refine ⟨_, rfl, len', win', ?_⟩
  have hz : i < (K.zip (Spec.Sha256.schedule M)).length := by simp [hK, hS, hi]
  rw [List.take_add_one, List.getElem?_eq_getElem hz]
  simp only [Option.toList_some, List.foldl_append, List.foldl_cons, List.foldl_nil]
  rw [← val, hw]
  simp only [List.getElem_zip, Spec.Sha256.round, Sigma0_eq, Sigma1_eq, Ch_eq, Maj_eq]
  rw [getD_of_lt K (by omega), getD_of_lt (Spec.Sha256.schedule M) (by omega)]

theorem length_wordBytes (b : Bool) (w : UInt32) : (wordBytes b w).length = 4 := by cases b <;> simp [wordBytes, leBytes]

theorem length_leBytes (b : Bool) (W : List UInt32) : (W.flatMap (wordBytes b)).length = 4 * W.length := by
  induction W with
  | nil => rfl
  | cons a W ih => simp [ih, length_wordBytes]; omega

theorem load_words (buf : Bytes) (hb : buf.length = 64) :
    loop (fun i W => do
      let v ← ts_bytes_to_ull buf (4 * i) 4
      wr W i (UInt32.ofNat v)) 16 0 (List.replicate 16 0) = .ok (Spec.Sha256.words buf) := by
  have := loop_eq' (body := fun i W => do
      let v ← ts_bytes_to_ull buf (4 * i) 4
      wr W i (UInt32.ofNat v))
    (fun i => (Spec.Sha256.words buf).take i ++ List.replicate (16 - i) 0) 16
    (List.replicate 16 0) (by simp) (by
      intro i hi
      rw [ts_bytes_to_ull_ok _ _ _ (by omega) (by omega), ok_bind]
      have hl := length_words buf hb
      rw [wr_ok _ (by simp [hl]; omega)]
      congr 1
      obtain ⟨j, hj⟩ : ∃ j, 16 - i = j + 1 := ⟨15 - i, by omega⟩
      rw [hj, show 16 - (i + 1) = j by omega]
      have h2 : (Spec.Sha256.words buf)[i]'(by omega) =
          UInt32.ofNat (Spec.toInt (List.take 4 (List.drop (4 * i) buf))) := by
        simp [Spec.Sha256.words, Spec.blocks, Nat.mul_comm]
      rw [List.set_append_right _ _ (by simp [hl]; omega), ← h2,
        (List.take_append_getElem (show i < (Spec.Sha256.words buf).length by omega)).symm]
      simp only [List.length_take, hl, List.replicate_succ]
      rw [show min i 16 = i by omega, Nat.sub_self, List.set_cons_zero, List.append_assoc]
      rfl)
  rw [this]
  simp [List.take_of_length_le, length_words buf hb]

theorem K_zip_take (S : List UInt32) (h : S.length = 64) : (K.zip S).take 64 = K.zip S := by
  rw [List.take_of_length_le]
  rw [List.length_zip, K_length, h]; exact Nat.le_refl _

theorem rounds_ok (M : List UInt32) (hM : M.length = 16) (h0 : V8 UInt32) :
    ∃ W v, loop rnd 64 0 (M, h0) = .ok (W, v) ∧ W.length = 16 ∧
      v = (K.zip (Spec.Sha256.schedule M)).foldl (fun v kw => Spec.Sha256.round kw.1 kw.2 v) h0 := by
  have hS : (Spec.Sha256.schedule M).length = 64 := by
    rw [length_schedule, hM]
  have base : RInv (Spec.Sha256.schedule M) h0 0 (M, h0) := by
    refine ⟨hM, fun t _ ht => ?_, ?_⟩
    · have ht' : t < 16 := by omega
      rw [show t % 16 = t by omega, schedule_eq, ext_getD_old _ _ _ _ _ (by omega)]
    · rw [List.take_zero, List.foldl_nil]
  have := loop_inv (body := rnd) (RInv (Spec.Sha256.schedule M) h0) 64 0 (M, h0) base
    (fun i s _ hi inv => rnd_step _ hM _ _ (by omega) _ inv)
  obtain ⟨⟨W, v⟩, e, inv⟩ := this
  refine ⟨W, v, e, inv.len, ?_⟩
  have := inv.val
  rw [Nat.zero_add, K_zip_take _ hS] at this
  exact this

/-- The C compression function is the one of the standard. -/
theorem compress_ok (ctx : Ctx) (buf : Bytes) (hb : buf.length = 64) :
    ∃ d, d.length = 64 ∧
      compress ctx buf = .ok { ctx with h := Spec.Sha256.compress ctx.h buf, data := d } := by
  obtain ⟨W, v, e, len, val⟩ := rounds_ok (Spec.Sha256.words buf) (length_words buf hb) ctx.h
  refine ⟨W.flatMap (wordBytes ctx.big), by rw [length_leBytes, len], ?_⟩
  unfold compress
  rw [load_words buf hb, ok_bind, e, ok_bind]
  rw [val, Spec.Sha256.compress, K_eq]

/-! ## Streaming -/

/-- The chaining value after all complete blocks of `M`. -/
def chain (M : Bytes) : V8 UInt32 := (Spec.blocks 64 M).foldl Spec.Sha256.compress Spec.Sha256.H0

/-- `ctx` has absorbed `M` (the bit counter apart). -/
structure Abs0 (ctx : Ctx) (M : Bytes) : Prop where
  h : ctx.h = chain M
  num : ctx.num = M.length % 64
  dlen : ctx.data.length = 64
  data : ctx.data.take (M.length % 64) = M.drop (64 * (M.length / 64))

/-- `ctx` has absorbed `M`. -/
structure Abs (ctx : Ctx) (M : Bytes) : Prop extends Abs0 ctx M where
  count : ctx.count = 8 * M.length % 2 ^ 64

/-- The byte order of the machine is no part of it. -/
theorem Abs.on {ctx : Ctx} {M : Bytes} (h : Abs ctx M) (b : Bool) : Abs (ctx.on b) M := ⟨⟨h.h, h.num, h.dlen, h.data⟩, h.count⟩

theorem chain_lt (M q : Bytes) (h : M.length % 64 + q.length < 64) : chain (M ++ q) = chain M := by
  rw [chain, blocks_append_lt _ _ _ h, chain]

theorem chain_eq (M q : Bytes) (h : M.length % 64 + q.length = 64) :
    chain (M ++ q) = Spec.Sha256.compress (chain M) (M.drop (64 * (M.length / 64)) ++ q) := by
  rw [chain, blocks_append_eq _ (by omega) _ _ h, chain, List.foldl_append]; rfl

theorem init_abs (ctx : Ctx) (hd : ctx.data.length = 64) : Abs (init ctx) [] where
  h := H0_eq
  num := rfl
  dlen := hd
  data := by simp
  count := rfl

theorem updateLoop_ok (fuel : Nat) (ctx : Ctx) (M p : Bytes) (hf : p.length < fuel) (inv : Abs0 ctx M) :
    ∃ ctx', updateLoop fuel ctx p = .ok ctx' ∧ Abs0 ctx' (M ++ p) ∧ ctx'.count = ctx.count := by
  induction fuel generalizing ctx M p with
  | zero => omega
  | succ fuel ih =>
    obtain ⟨hh, hn, hl, hd⟩ := inv
    have hmod := Nat.mod_lt M.length (show 64 > 0 by omega)
    have hdm := Nat.div_add_mod M.length 64
    simp only [updateLoop]
    by_cases hp : p.length = 0
    · rw [if_pos hp]
      have : p = [] := List.length_eq_zero_iff.1 hp
      subst this
      exact ⟨ctx, rfl, by simpa using ⟨hh, hn, hl, hd⟩, rfl⟩
    rw [if_neg hp]
    have hus : usub 64 ctx.num = 64 - M.length % 64 := by simp only [usub]; omega
    rw [hus]
    by_cases hfull : min (64 - M.length % 64) p.length = 64
    · rw [if_pos hfull]
      have hm0 : M.length % 64 = 0 := by omega
      rw [rdSlice_zero (by omega), ok_bind]
      obtain ⟨d, hdl, ec⟩ := compress_ok { ctx with num := 0 } (p.take 64) (by simp; omega)
      rw [ec, ok_bind, hfull]
      have hlt : (p.take 64).length = 64 := by simp; omega
      obtain ⟨c', e', a', k'⟩ := ih { ctx with num := 0, h := Spec.Sha256.compress ctx.h (p.take 64), data := d }
        (M ++ p.take 64) (p.drop 64) (by simp; omega)
        ⟨by
          show Spec.Sha256.compress ctx.h (p.take 64) = _
          rw [chain_eq _ _ (by omega), hh]
          congr 1
          rw [List.drop_of_length_le (by omega)]; rfl,
         by simp [hlt]; omega, hdl, by
          rw [List.drop_of_length_le (by simp [hlt]; omega)]
          simp only [List.length_append, hlt]
          rw [show (M.length + 64) % 64 = 0 by omega]; rfl⟩
      refine ⟨c', e', ?_, k'⟩
      rwa [List.append_assoc, List.take_append_drop] at a'
    · rw [if_neg hfull]
      rw [rdSlice_zero (by omega), ok_bind]
      have hpl : (p.take (min (64 - M.length % 64) p.length)).length =
        min (64 - M.length % 64) p.length := by simp
      rw [wrSlice_ok (by rw [hpl]; omega), ok_bind]
      rw [hn, hd, hpl]
      by_cases hlt : min (64 - M.length % 64) p.length + M.length % 64 < 64
      · rw [if_pos hlt]
        have hpe : min (64 - M.length % 64) p.length = p.length := by omega
        rw [hpe, List.take_of_length_le (Nat.le_refl _)]
        refine ⟨_, rfl, ⟨?_, ?_, ?_, ?_⟩, rfl⟩
        · rw [chain_lt _ _ (by omega)]; exact hh
        · simp only [List.length_append]; omega
        · simp; omega
        · have e1 : (M ++ p).length / 64 = M.length / 64 := by simp; omega
          have e2 : (M ++ p).length % 64 = M.length % 64 + p.length := by simp; omega
          rw [e1, e2, List.take_left' (by simp; omega), List.drop_append_of_le_length (by omega)]
      · rw [if_neg hlt]
        have hst : min (64 - M.length % 64) p.length = 64 - M.length % 64 := by omega
        rw [hst]
        have hk : M.length % 64 + (64 - M.length % 64) = 64 := by omega
        rw [hk, List.drop_of_length_le (show ctx.data.length ≤ 64 by omega), List.append_nil]
        have hlt2 : (p.take (64 - M.length % 64)).length = 64 - M.length % 64 := by simp; omega
        obtain ⟨d, hdl, ec⟩ := compress_ok
          { ctx with num := 0, data := M.drop (64 * (M.length / 64)) ++ p.take (64 - M.length % 64) }
          (M.drop (64 * (M.length / 64)) ++ p.take (64 - M.length % 64)) (by simp; omega)
        rw [ec, ok_bind]
        obtain ⟨c', e', a', k'⟩ := ih { ctx with
            num := 0, data := d,
            h := Spec.Sha256.compress ctx.h (M.drop (64 * (M.length / 64)) ++ p.take (64 - M.length % 64)) }
          (M ++ p.take (64 - M.length % 64)) (p.drop (64 - M.length % 64)) (by simp; omega)
          ⟨by
            show Spec.Sha256.compress ctx.h _ = _
            rw [chain_eq _ _ (by omega), hh],
           by
            show 0 = _
            rw [List.length_append, hlt2]; omega, hdl, by
            show List.take _ d = _
            rw [List.length_append, hlt2,
              show (M.length + (64 - M.length % 64)) % 64 = 0 by omega, List.take_zero,
              List.drop_of_length_le (by rw [List.length_append, hlt2]; omega)]⟩
        refine ⟨c', e', ?_, k'⟩
        rwa [List.append_assoc, List.take_append_drop] at a'

/-- Updating absorbs, whatever the chunk. -/
theorem update_ok0 (ctx : Ctx) (M p : Bytes) (inv : Abs0 ctx M) :
    ∃ ctx', update ctx p = .ok ctx' ∧ Abs0 ctx' (M ++ p) := by
  obtain ⟨c, e, a, _⟩ := updateLoop_ok (p.length + 1)
    { ctx with count := (ctx.count + 8 * p.length) % 2 ^ 64 } M p (by omega)
    ⟨inv.h, inv.num, inv.dlen, inv.data⟩
  exact ⟨c, e, a⟩

theorem update_ok (ctx : Ctx) (M p : Bytes) (inv : Abs ctx M) :
    ∃ ctx', update ctx p = .ok ctx' ∧ Abs ctx' (M ++ p) := by
  obtain ⟨c, e, a, k⟩ := updateLoop_ok (p.length + 1)
    { ctx with count := (ctx.count + 8 * p.length) % 2 ^ 64 } M p (by omega)
    ⟨inv.h, inv.num, inv.dlen, inv.data⟩
  refine ⟨c, e, ⟨a, ?_⟩⟩
  rw [k]
  simp only [inv.count, List.length_append]; omega

/-- The output loop of `final_trunc`. -/
theorem output_ok (hs : V8 UInt32) (d : Bytes) (k : Nat) (hk : k ≤ 8) (hd : 4 * k ≤ d.length) :
    loop (fun i d => do
      let hi ← rd hs.toList i
      ts_ull_to_bytes d (4 * i) hi.toNat 4) k 0 d =
    .ok ((hs.toList.flatMap fun w => Spec.toByte w.toNat 4).take (4 * k) ++ d.drop (4 * k)) := by
  have hlen : ∀ l : List UInt32, (l.flatMap fun w => Spec.toByte w.toNat 4).length = 4 * l.length := by
    intro l
    induction l with
    | nil => rfl
    | cons a l ih => simp only [List.flatMap_cons, List.length_append, ih, length_toByte, List.length_cons]; omega
  have h8 : hs.toList.length = 8 := rfl
  generalize hs.toList = l at *
  refine loop_eq' (fun i => (l.flatMap fun w => Spec.toByte w.toNat 4).take (4 * i) ++ d.drop (4 * i)) k d
    (by simp) ?_
  intro i hi
  have hi8 : i < l.length := by omega
  rw [rd_ok hi8, ok_bind]
  have hL := hlen l
  have hT : ((l.flatMap fun w => Spec.toByte w.toNat 4).take (4 * i)).length = 4 * i := by simp only [List.length_take]; omega
  rw [ts_ull_to_bytes_ok _ _ _ _ (by rw [List.length_append, hT, List.length_drop]; omega)]
  congr 1
  rw [List.take_left' hT]
  have h1 : (l.flatMap fun w => Spec.toByte w.toNat 4).take (4 * (i + 1)) =
      (l.flatMap fun w => Spec.toByte w.toNat 4).take (4 * i) ++ Spec.toByte l[i].toNat 4 := by
    have e := List.take_append_drop i l
    rw [List.drop_eq_getElem_cons hi8] at e
    have e2 : l.flatMap (fun w => Spec.toByte w.toNat 4) =
      (l.take i).flatMap (fun w => Spec.toByte w.toNat 4) ++ (Spec.toByte l[i].toNat 4 ++
        (l.drop (i + 1)).flatMap (fun w => Spec.toByte w.toNat 4)) := by
      conv => lhs; rw [← e]
      rw [List.flatMap_append, List.flatMap_cons]
    have e3 : ((l.take i).flatMap (fun w => Spec.toByte w.toNat 4)).length = 4 * i := by
      rw [hlen, List.length_take]; omega
    rw [e2, List.take_left' e3, ← List.append_assoc]
    exact List.take_left' (by rw [List.length_append, e3, length_toByte]; omega)
  rw [h1, List.drop_append, hT, List.drop_of_length_le (by rw [hT]; omega)]
  rw [List.drop_drop, show 4 * i + (4 * i + 4 - 4 * i) = 4 * (i + 1) by omega]
  simp

/-- Writing zeros up to the length field absorbs zeros. -/
theorem zero_fill (ctx : Ctx) (M : Bytes) (inv : Abs0 ctx M) (h56 : M.length % 64 ≤ 56) :
    ∃ d, wrSlice ctx.data ctx.num (List.replicate (usub 56 ctx.num) 0) = .ok d ∧
      Abs0 { ctx with data := d, num := 56 } (M ++ List.replicate (56 - M.length % 64) 0) := by
  obtain ⟨hh, hn, hl, hd⟩ := inv
  have hus : usub 56 ctx.num = 56 - M.length % 64 := by simp only [usub]; omega
  have hdm := Nat.div_add_mod M.length 64
  rw [hus, wrSlice_ok (by rw [List.length_replicate]; omega), hn, hd]
  refine ⟨_, rfl, ⟨?_, ?_, ?_, ?_⟩⟩
  · rw [chain_lt _ _ (by rw [List.length_replicate]; omega)]; exact hh
  · simp only [List.length_append, List.length_replicate]; omega
  · simp only [List.length_append, List.length_replicate, List.length_drop]; omega
  · have e1 : (M ++ List.replicate (56 - M.length % 64) (0:UInt8)).length / 64 = M.length / 64 := by
      simp only [List.length_append, List.length_replicate]; omega
    have e2 : (M ++ List.replicate (56 - M.length % 64) (0:UInt8)).length % 64 = 56 := by
      simp only [List.length_append, List.length_replicate]; omega
    rw [e1, e2, List.drop_append_of_le_length (by omega)]
    exact List.take_left' (by simp only [List.length_append, List.length_replicate, List.length_drop]; omega)

/-- Finalising yields the digest of the absorbed message, truncated to `n` bytes. -/
theorem final_trunc_ok (digest : Bytes) (ctx : Ctx) (M : Bytes) (n : Nat) (inv : Abs ctx M)
    (hM : 8 * M.length < 2 ^ 64) (hn : n ≤ 32) (hn4 : n % 4 = 0) (hd : n ≤ digest.length) :
    ∃ ctx', final_trunc digest ctx n = .ok ((Spec.Sha256.hash M).take n ++ digest.drop n, ctx') ∧
      ctx'.data.length = 64 := by
  unfold final_trunc
  rw [ts_ull_to_bytes_ok _ _ _ _ (by simp)]
  have hc : ctx.count = 8 * M.length := by rw [inv.count, Nat.mod_eq_of_lt hM]
  simp only [ok_bind, hc, List.take_zero, List.nil_append]
  rw [List.drop_of_length_le (by simp), List.append_nil]
  obtain ⟨c1, e1, a1⟩ := update_ok0 ctx M [0x80] inv.toAbs0
  rw [e1, ok_bind]
  have hz : ∃ c2 z, (if c1.num > 56 then update c1 (List.replicate 8 0) else .ok c1 : C Ctx) = .ok c2 ∧
      Abs0 c2 (M ++ [0x80] ++ List.replicate z 0) ∧ (M.length + 1 + z) % 64 ≤ 56 ∧ z < 64 ∧
      (z + (56 - (M.length + 1 + z) % 64)) = (64 - (M.length + 9) % 64) % 64 := by
    have hn1 := a1.num
    simp only [List.length_append, List.length_cons, List.length_nil] at hn1
    by_cases h : c1.num > 56
    · rw [if_pos h]
      obtain ⟨c2, e2, a2⟩ := update_ok0 c1 _ (List.replicate 8 0) a1
      exact ⟨c2, 8, e2, a2, by omega, by omega, by omega⟩
    · rw [if_neg h]
      exact ⟨c1, 0, rfl, by simpa using a1, by omega, by omega, by omega⟩
  obtain ⟨c2, z, e2, a2, h56, hz64, hz⟩ := hz
  have hl2 : (M ++ [0x80] ++ List.replicate z (0:UInt8)).length = M.length + 1 + z := by
    simp only [List.length_append, List.length_cons, List.length_nil, List.length_replicate]
  obtain ⟨d, e3, a3⟩ := zero_fill c2 _ a2 (by rw [hl2]; exact h56)
  obtain ⟨c4, e4, a4⟩ := update_ok0 _ _ (Spec.toByte (8 * M.length) 8) a3
  have hpad : M ++ [0x80] ++ List.replicate z 0 ++ List.replicate (56 - (M ++ [0x80] ++ List.replicate z (0:UInt8)).length % 64) 0 ++
      Spec.toByte (8 * M.length) 8 = Spec.Sha256.pad M := by
    rw [hl2, Spec.Sha256.pad, ← hz, List.append_assoc (M ++ [0x80]) (List.replicate z 0), List.replicate_append_replicate]
  rw [hpad] at a4
  refine ⟨c4, ?_, a4.dlen⟩
  have hout := output_ok c4.h digest (n / 4) (by omega) (by omega)
  rw [show 4 * (n / 4) = n by omega] at hout
  have hfin : c4.h.toList.flatMap (fun w => Spec.toByte w.toNat 4) = Spec.Sha256.hash M := by
    rw [a4.h]; rfl
  rw [hfin] at hout
  split at e2
  · rw [if_pos ‹_›, e2, ok_bind, e3]
    simp only [ok_bind]
    rw [e4, ok_bind, hout]; rfl
  · cases e2
    rw [if_neg ‹_›, e3]
    simp only [ok_bind]
    rw [e4, ok_bind, hout]; rfl

theorem length_hash (M : Bytes) : (Spec.Sha256.hash M).length = 32 := by
  simp [Spec.Sha256.hash, V8.toList, length_toByte]

theorem final_ok (digest : Bytes) (ctx : Ctx) (M : Bytes) (inv : Abs ctx M)
    (hM : 8 * M.length < 2 ^ 64) (hd : digest.length = 32) :
    ∃ ctx', final digest ctx = .ok (Spec.Sha256.hash M, ctx') ∧ ctx'.data.length = 64 := by
  obtain ⟨c, e, h⟩ := final_trunc_ok digest ctx M 32 inv hM (by omega) (by omega) (by omega)
  refine ⟨c, ?_, h⟩
  rw [final, e, List.take_of_length_le (by rw [length_hash]; omega), List.drop_of_length_le (by omega), List.append_nil]

/-- Restoring a state saved after one block is as good as re-hashing that block. -/
theorem restore_abs (ctx : Ctx) (hd : ctx.data.length = 64) (B : Bytes) (hB : B.length = 64) :
    Abs (restore_state ctx (chain B)) B where
  h := rfl
  num := by rw [hB]; rfl
  dlen := hd
  data := by rw [hB]; simp [List.drop_of_length_le, hB]
  count := by rw [hB]; rfl

end Model.Sha256
