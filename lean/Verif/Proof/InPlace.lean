import Verif.Proof.ByteOrder
import Verif.Model.InPlace
import Verif.Proof.Sha256
import Verif.Proof.Sha512
/-!
# Compression in place
-/
namespace Model

namespace WordRep
variable {α : Type} {s : Nat}

theorem length_flat (r : WordRep α s) (W : List α) : (W.flatMap r.enc).length = s * W.length := by
  induction W with
  | nil => rfl
  | cons a W ih => simp only [List.flatMap_cons, List.length_append, ih, r.len, List.length_cons]; rw [Nat.mul_add]; omega

theorem flat_split (r : WordRep α s) (W : List α) (i : Nat) (h : i < W.length) :
    W.flatMap r.enc = (W.take i).flatMap r.enc ++ (r.enc W[i] ++ (W.drop (i + 1)).flatMap r.enc) := by
  have e := List.take_append_drop i W
  rw [List.drop_eq_getElem_cons h] at e
  conv => lhs; rw [← e]
  rw [List.flatMap_append, List.flatMap_cons]

theorem rdW_ok (r : WordRep α s) (W : List α) (i : Nat) (h : i < W.length) :
    r.rdW (W.flatMap r.enc) i = .ok W[i] := by
  have hl : ((W.take i).flatMap r.enc).length = s * i := by
    rw [length_flat, List.length_take, Nat.min_eq_left (by omega)]
  have hb : s * i + s ≤ (W.flatMap r.enc).length := by
    rw [length_flat, ← Nat.mul_succ]; exact Nat.mul_le_mul_left _ h
  unfold rdW
  rw [rdSlice_ok hb, ok_bind]
  congr 1
  rw [flat_split r W i h, List.drop_left' hl, List.take_left' (r.len _), r.dec_enc]

/-- Writing one word into bytes that hold `pre` words, then anything. -/
theorem wrW_at (r : WordRep α s) (A B : Bytes) (i : Nat) (w : α) (hA : A.length = s * i) (hB : s ≤ B.length) :
    r.wrW (A ++ B) i w = .ok (A ++ r.enc w ++ B.drop s) := by
  unfold wrW
  rw [wrSlice_ok (by rw [r.len, List.length_append, hA]; omega), List.take_left' hA, r.len, ← hA,
    List.drop_append, List.drop_of_length_le (by omega)]
  simp

theorem wrW_ok (r : WordRep α s) (W : List α) (i : Nat) (w : α) (h : i < W.length) :
    r.wrW (W.flatMap r.enc) i w = .ok ((W.set i w).flatMap r.enc) := by
  have hl : ((W.take i).flatMap r.enc).length = s * i := by
    rw [length_flat, List.length_take, Nat.min_eq_left (by omega)]
  rw [flat_split r W i h, wrW_at r _ _ i w hl (by rw [List.length_append, r.len]; omega),
    List.drop_left' (r.len _), List.set_eq_take_append_cons_drop, if_pos h, List.flatMap_append, List.flatMap_cons,
    List.append_assoc]

/-- A `rd` that succeeds is matched by `rdW`. -/
theorem rdW_rd (r : WordRep α s) (W : List α) (i : Nat) (h : i < W.length) :
    r.rdW (W.flatMap r.enc) i = rd W i := by rw [rdW_ok r W i h, rd_ok h]

theorem wrW_wr (r : WordRep α s) (W : List α) (i : Nat) (w : α) (h : i < W.length) :
    r.wrW (W.flatMap r.enc) i w = (wr W i w).map fun W' => W'.flatMap r.enc := by
  rw [wrW_ok r W i w h, wr_ok _ h]; rfl

end WordRep


namespace Sha256
open Spec (V8)

theorem schedU_ok (r : WordRep UInt32 4) (i : Nat) (W : List UInt32) (hW : W.length = 16) :
    schedU r i (W.flatMap r.enc) = (sched i W).map fun W' => W'.flatMap r.enc := by
  have h (k : Nat) : k &&& 15 < W.length := by rw [and15, hW]; omega
  unfold schedU sched
  split
  · simp only [r.rdW_rd W _ (h _), rd_ok (h _), ok_bind]
    exact r.wrW_wr W _ _ (h _)
  · rfl

theorem sched_length (i : Nat) (W W' : List UInt32) (hW : W.length = 16) (e : sched i W = .ok W') : W'.length = 16 := by
  have h (k : Nat) : k &&& 15 < W.length := by rw [and15, hW]; omega
  unfold sched at e
  split at e
  · simp only [rd_ok (h _), ok_bind, wr_ok _ (h _)] at e
    cases e
    rw [List.length_set, hW]
  · cases e; exact hW

theorem rndU_ok (r : WordRep UInt32 4) (i : Nat) (W W' : List UInt32) (v v' : V8 UInt32) (hW : W.length = 16)
    (e : rnd i (W, v) = .ok (W', v')) :
    rndU r i (W.flatMap r.enc, v) = .ok (W'.flatMap r.enc, v') ∧ W'.length = 16 := by
  simp only [rnd] at e
  simp only [rndU, schedU_ok r i W hW]
  cases hs : sched i W with
  | error x => rw [hs] at e; cases e
  | ok W1 =>
    have h1 := sched_length i W W1 hW hs
    have h (k : Nat) : k &&& 15 < W1.length := by rw [and15, h1]; omega
    rw [hs, ok_bind] at e
    have em : (Except.map (fun W' => List.flatMap r.enc W') (Except.ok W1) : C Bytes) = .ok (W1.flatMap r.enc) := rfl
    rw [em, ok_bind]
    cases hk : rd K i with
    | error x => rw [hk] at e; cases e
    | ok k =>
      rw [hk, ok_bind, rd_ok (h _), ok_bind] at e
      rw [ok_bind, r.rdW_ok W1 _ (h _), ok_bind]
      injection e with e
      injection e with e1 e2
      subst e1
      exact ⟨by rw [← e2], h1⟩

theorem roundsU_ok (r : WordRep UInt32 4) (n i : Nat) (W W' : List UInt32) (v v' : V8 UInt32) (hW : W.length = 16)
    (e : loop rnd n i (W, v) = .ok (W', v')) :
    loop (rndU r) n i (W.flatMap r.enc, v) = .ok (W'.flatMap r.enc, v') := by
  induction n generalizing i W v with
  | zero => simp only [loop] at e ⊢; cases e; rfl
  | succ n ih =>
    simp only [loop] at e ⊢
    cases h1 : rnd i (W, v) with
    | error x => rw [h1] at e; cases e
    | ok st =>
      obtain ⟨W1, v1⟩ := st
      rw [h1, ok_bind] at e
      obtain ⟨e1, hl⟩ := rndU_ok r i W W1 v v1 hW h1
      rw [e1, ok_bind]
      exact ih _ _ _ hl e

theorem loadU_ok (r : WordRep UInt32 4) (x0 : Bytes) (buf : Option Bytes) (hx : x0.length = 64)
    (hb : ∀ b, buf = some b → b.length = 64) :
    loop (fun i x => do
      let v ← ts_bytes_to_ull (buf.getD x) (4 * i) 4
      r.wrW x i (UInt32.ofNat v)) 16 0 x0 = .ok ((Spec.Sha256.words (buf.getD x0)).flatMap r.enc) := by
  have hbl : (buf.getD x0).length = 64 := by
    cases buf with
    | none => exact hx
    | some b => exact hb b rfl
  have hl := length_words _ hbl
  have hE (i : Nat) (hi : i ≤ 16) : (((Spec.Sha256.words (buf.getD x0)).take i).flatMap r.enc).length = 4 * i := by
    rw [r.length_flat, List.length_take, hl, Nat.min_eq_left hi]
  have := loop_eq' (body := fun i x => do
      let v ← ts_bytes_to_ull (buf.getD x) (4 * i) 4
      r.wrW x i (UInt32.ofNat v))
    (fun i => ((Spec.Sha256.words (buf.getD x0)).take i).flatMap r.enc ++ x0.drop (4 * i)) 16 x0 (by simp) (by
      intro i hi
      have hread : ((buf.getD (((Spec.Sha256.words (buf.getD x0)).take i).flatMap r.enc ++ x0.drop (4 * i))).drop (4 * i)) =
          (buf.getD x0).drop (4 * i) := by
        cases buf with
        | none => exact List.drop_left' (hE i (by omega))
        | some b => rfl
      have hlen : (buf.getD (((Spec.Sha256.words (buf.getD x0)).take i).flatMap r.enc ++ x0.drop (4 * i))).length = 64 := by
        cases buf with
        | none => simp only [Option.getD_none, List.length_append, List.length_drop, hx]
                  have := hE i (by omega)
                  simp only [Option.getD_none] at this
                  omega
        | some b => exact hb b rfl
      rw [ts_bytes_to_ull_ok _ _ _ (by rw [hlen]; omega) (by omega), ok_bind, hread]
      have h2 : (Spec.Sha256.words (buf.getD x0))[i]'(by omega) =
          UInt32.ofNat (Spec.toInt (List.take 4 (List.drop (4 * i) (buf.getD x0)))) := by
        simp [Spec.Sha256.words, Spec.blocks, Nat.mul_comm]
      rw [← h2, r.wrW_at _ _ i _ (hE i (by omega)) (by rw [List.length_drop, hx]; omega)]
      congr 1
      rw [(List.take_append_getElem (show i < (Spec.Sha256.words (buf.getD x0)).length by omega)).symm,
        List.flatMap_append, List.drop_drop, show 4 * i + 4 = 4 * (i + 1) by omega]
      simp)
  rw [this]
  congr 1
  rw [List.drop_of_length_le (by omega), List.append_nil, List.take_of_length_le (by omega)]

/-- The compression function over the union computes what `compress` does; only the bytes it leaves in the buffer depend on the platform. -/
theorem compressU_ok (r : WordRep UInt32 4) (ctx : Ctx) (buf : Option Bytes) (hx : ctx.data.length = 64)
    (hb : ∀ b, buf = some b → b.length = 64) :
    ∃ d, d.length = 64 ∧
      compressU r ctx buf = .ok { ctx with h := Spec.Sha256.compress ctx.h (buf.getD ctx.data), data := d } := by
  have hbl : (buf.getD ctx.data).length = 64 := by
    cases buf with
    | none => exact hx
    | some b => exact hb b rfl
  obtain ⟨W, v, e, len, val⟩ := rounds_ok (Spec.Sha256.words (buf.getD ctx.data)) (length_words _ hbl) ctx.h
  refine ⟨W.flatMap r.enc, by rw [r.length_flat, len], ?_⟩
  unfold compressU
  rw [loadU_ok r ctx.data buf hx hb, ok_bind, roundsU_ok r _ _ _ _ _ _ (length_words _ hbl) e, ok_bind]
  rw [val, Spec.Sha256.compress, K_eq]

/-- The model's own `compress` is the instance for the byte order of the machine. -/
theorem compressU_eq (r : WordRep UInt32 4) (ctx : Ctx) (hr : r.enc = wordBytes ctx.big) (buf : Option Bytes) (hx : ctx.data.length = 64)
    (hb : ∀ b, buf = some b → b.length = 64) :
    compressU r ctx buf = compress ctx (buf.getD ctx.data) := by
  have hbl : (buf.getD ctx.data).length = 64 := by
    cases buf with
    | none => exact hx
    | some b => exact hb b rfl
  obtain ⟨W, v, e, len, val⟩ := rounds_ok (Spec.Sha256.words (buf.getD ctx.data)) (length_words _ hbl) ctx.h
  unfold compressU compress
  rw [loadU_ok r ctx.data buf hx hb, load_words _ hbl, ok_bind, ok_bind, e,
    roundsU_ok r _ _ _ _ _ _ (length_words _ hbl) e, ok_bind, ok_bind, hr]

theorem updateLoopU_ok (r : WordRep UInt32 4) (fuel : Nat) (ctx : Ctx) (M p : Bytes) (hf : p.length < fuel) (inv : Abs0 ctx M) :
    ∃ ctx', updateLoopU r fuel ctx p = .ok ctx' ∧ Abs0 ctx' (M ++ p) ∧ ctx'.count = ctx.count := by
  induction fuel generalizing ctx M p with
  | zero => omega
  | succ fuel ih =>
    obtain ⟨hh, hn, hl, hd⟩ := inv
    have hmod := Nat.mod_lt M.length (show 64 > 0 by omega)
    have hdm := Nat.div_add_mod M.length 64
    simp only [updateLoopU]
    by_cases hp : p.length = 0
    · rw [if_pos hp]
      have : p = [] := List.length_eq_zero_iff.1 hp
      subst this
      exact ⟨ctx, rfl, by simpa using ⟨hh, hn, hl, hd⟩, rfl⟩
    rw [if_neg hp]
    have hus : usub 64 ctx.num = 64 - M.length % 64 := by simp only [usub]; omega
    rw [hus]
    by_cases hfull : min (64 - M.length % 64) p.length = 64
    · rw [if_pos hfull]
      have hm0 : M.length % 64 = 0 := by omega
      rw [rdSlice_zero (by omega), ok_bind]
      obtain ⟨d, hdl, ec⟩ := compressU_ok r { ctx with num := 0 } (some (p.take 64)) hl (fun b hb => by cases hb; simp; omega)
      simp only [Option.getD_some] at ec
      rw [ec, ok_bind, hfull]
      have hlt : (p.take 64).length = 64 := by simp; omega
      obtain ⟨c', e', a', k'⟩ := ih { ctx with num := 0, h := Spec.Sha256.compress ctx.h (p.take 64), data := d }
        (M ++ p.take 64) (p.drop 64) (by simp; omega)
        ⟨by
          show Spec.Sha256.compress ctx.h (p.take 64) = _
          rw [chain_eq _ _ (by omega), hh]
          congr 1
          rw [List.drop_of_length_le (by omega)]; rfl,
         by simp [hlt]; omega, hdl, by
          rw [List.drop_of_length_le (by simp [hlt]; omega)]
          simp only [List.length_append, hlt]
          rw [show (M.length + 64) % 64 = 0 by omega]; rfl⟩
      refine ⟨c', e', ?_, k'⟩
      rwa [List.append_assoc, List.take_append_drop] at a'
    · rw [if_neg hfull]
      rw [rdSlice_zero (by omega), ok_bind]
      have hpl : (p.take (min (64 - M.length % 64) p.length)).length =
        min (64 - M.length % 64) p.length := by simp
      rw [wrSlice_ok (by rw [hpl]; omega), ok_bind]
      rw [hn, hd, hpl]
      by_cases hlt : min (64 - M.length % 64) p.length + M.length % 64 < 64
      · rw [if_pos hlt]
        have hpe : min (64 - M.length % 64) p.length = p.length := by omega
        rw [hpe, List.take_of_length_le (Nat.le_refl _)]
        refine ⟨_, rfl, ⟨?_, ?_, ?_, ?_⟩, rfl⟩
        · rw [chain_lt _ _ (by omega)]; exact hh
        · simp only [List.length_append]; omega
        · simp; omega
        · have e1 : (M ++ p).length / 64 = M.length / 64 := by simp; omega
          have e2 : (M ++ p).length % 64 = M.length % 64 + p.length := by simp; omega
          rw [e1, e2, List.take_left' (by simp; omega), List.drop_append_of_le_length (by omega)]
      · rw [if_neg hlt]
        have hst : min (64 - M.length % 64) p.length = 64 - M.length % 64 := by omega
        rw [hst]
        have hk : M.length % 64 + (64 - M.length % 64) = 64 := by omega
        rw [hk, List.drop_of_length_le (show ctx.data.length ≤ 64 by omega), List.append_nil]
        have hlt2 : (p.take (64 - M.length % 64)).length = 64 - M.length % 64 := by simp; omega
        obtain ⟨d, hdl, ec⟩ := compressU_ok r
          { ctx with num := 0, data := M.drop (64 * (M.length / 64)) ++ p.take (64 - M.length % 64) }
          none (by simp; omega) (fun b hb => by cases hb)
        simp only [Option.getD_none] at ec
        rw [ec, ok_bind]
        obtain ⟨c', e', a', k'⟩ := ih { ctx with
            num := 0, data := d,
            h := Spec.Sha256.compress ctx.h (M.drop (64 * (M.length / 64)) ++ p.take (64 - M.length % 64)) }
          (M ++ p.take (64 - M.length % 64)) (p.drop (64 - M.length % 64)) (by simp; omega)
          ⟨by
            show Spec.Sha256.compress ctx.h _ = _
            rw [chain_eq _ _ (by omega), hh],
           by
            show 0 = _
            rw [List.length_append, hlt2]; omega, hdl, by
            show List.take _ d = _
            rw [List.length_append, hlt2,
              show (M.length + (64 - M.length % 64)) % 64 = 0 by omega, List.take_zero,
              List.drop_of_length_le (by rw [List.length_append, hlt2]; omega)]⟩
        refine ⟨c', e', ?_, k'⟩
        rwa [List.append_assoc, List.take_append_drop] at a'

/-- Updating absorbs, whatever the chunk. -/
theorem updateU_ok0 (r : WordRep UInt32 4) (ctx : Ctx) (M p : Bytes) (inv : Abs0 ctx M) :
    ∃ ctx', updateU r ctx p = .ok ctx' ∧ Abs0 ctx' (M ++ p) := by
  obtain ⟨c, e, a, _⟩ := updateLoopU_ok r (p.length + 1)
    { ctx with count := (ctx.count + 8 * p.length) % 2 ^ 64 } M p (by omega)
    ⟨inv.h, inv.num, inv.dlen, inv.data⟩
  exact ⟨c, e, a⟩

theorem updateU_ok (r : WordRep UInt32 4) (ctx : Ctx) (M p : Bytes) (inv : Abs ctx M) :
    ∃ ctx', updateU r ctx p = .ok ctx' ∧ Abs ctx' (M ++ p) := by
  obtain ⟨c, e, a, k⟩ := updateLoopU_ok r (p.length + 1)
    { ctx with count := (ctx.count + 8 * p.length) % 2 ^ 64 } M p (by omega)
    ⟨inv.h, inv.num, inv.dlen, inv.data⟩
  refine ⟨c, e, ⟨a, ?_⟩⟩
  rw [k]
  simp only [inv.count, List.length_append]; omega

/-- Finalising yields the digest of the absorbed message, truncated to `n` bytes. -/
theorem final_truncU_ok (r : WordRep UInt32 4) (digest : Bytes) (ctx : Ctx) (M : Bytes) (n : Nat) (inv : Abs ctx M)
    (hM : 8 * M.length < 2 ^ 64) (hn : n ≤ 32) (hn4 : n % 4 = 0) (hd : n ≤ digest.length) :
    ∃ ctx', final_truncU r digest ctx n = .ok ((Spec.Sha256.hash M).take n ++ digest.drop n, ctx') ∧
      ctx'.data.length = 64 := by
  unfold final_truncU
  rw [ts_ull_to_bytes_ok _ _ _ _ (by simp)]
  have hc : ctx.count = 8 * M.length := by rw [inv.count, Nat.mod_eq_of_lt hM]
  simp only [ok_bind, hc, List.take_zero, List.nil_append]
  rw [List.drop_of_length_le (by simp), List.append_nil]
  obtain ⟨c1, e1, a1⟩ := updateU_ok0 r ctx M [0x80] inv.toAbs0
  rw [e1, ok_bind]
  have hz : ∃ c2 z, (if c1.num > 56 then updateU r c1 (List.replicate 8 0) else .ok c1 : C Ctx) = .ok c2 ∧
      Abs0 c2 (M ++ [0x80] ++ List.replicate z 0) ∧ (M.length + 1 + z) % 64 ≤ 56 ∧ z < 64 ∧
      (z + (56 - (M.length + 1 + z) % 64)) = (64 - (M.length + 9) % 64) % 64 := by
    have hn1 := a1.num
    simp only [List.length_append, List.length_cons, List.length_nil] at hn1
    by_cases h : c1.num > 56
    · rw [if_pos h]
      obtain ⟨c2, e2, a2⟩ := updateU_ok0 r c1 _ (List.replicate 8 0) a1
      exact ⟨c2, 8, e2, a2, by omega, by omega, by omega⟩
    · rw [if_neg h]
      exact ⟨c1, 0, rfl, by simpa using a1, by omega, by omega, by omega⟩
  obtain ⟨c2, z, e2, a2, h56, hz64, hz⟩ := hz
  have hl2 : (M ++ [0x80] ++ List.replicate z (0:UInt8)).length = M.length + 1 + z := by
    simp only [List.length_append, List.length_cons, List.length_nil, List.length_replicate]
  obtain ⟨d, e3, a3⟩ := zero_fill c2 _ a2 (by rw [hl2]; exact h56)
  obtain ⟨c4, e4, a4⟩ := updateU_ok0 r _ _ (Spec.toByte (8 * M.length) 8) a3
  have hpad : M ++ [0x80] ++ List.replicate z 0 ++ List.replicate (56 - (M ++ [0x80] ++ List.replicate z (0:UInt8)).length % 64) 0 ++
      Spec.toByte (8 * M.length) 8 = Spec.Sha256.pad M := by
    rw [hl2, Spec.Sha256.pad, ← hz, List.append_assoc (M ++ [0x80]) (List.replicate z 0), List.replicate_append_replicate]
  rw [hpad] at a4
  refine ⟨c4, ?_, a4.dlen⟩
  have hout := output_ok c4.h digest (n / 4) (by omega) (by omega)
  rw [show 4 * (n / 4) = n by omega] at hout
  have hfin : c4.h.toList.flatMap (fun w => Spec.toByte w.toNat 4) = Spec.Sha256.hash M := by
    rw [a4.h]; rfl
  rw [hfin] at hout
  split at e2
  · rw [if_pos ‹_›, e2, ok_bind, e3]
    simp only [ok_bind]
    rw [e4, ok_bind, hout]; rfl
  · cases e2
    rw [if_neg ‹_›, e3]
    simp only [ok_bind]
    rw [e4, ok_bind, hout]; rfl


end Sha256

namespace Sha512
open Spec (V8)

theorem schedU_ok (r : WordRep UInt64 8) (i : Nat) (W : List UInt64) (hW : W.length = 16) :
    schedU r i (W.flatMap r.enc) = (sched i W).map fun W' => W'.flatMap r.enc := by
  have h (k : Nat) : k &&& 15 < W.length := by rw [and15, hW]; omega
  unfold schedU sched
  split
  · simp only [r.rdW_rd W _ (h _), rd_ok (h _), ok_bind]
    exact r.wrW_wr W _ _ (h _)
  · rfl

theorem sched_length (i : Nat) (W W' : List UInt64) (hW : W.length = 16) (e : sched i W = .ok W') : W'.length = 16 := by
  have h (k : Nat) : k &&& 15 < W.length := by rw [and15, hW]; omega
  unfold sched at e
  split at e
  · simp only [rd_ok (h _), ok_bind, wr_ok _ (h _)] at e
    cases e
    rw [List.length_set, hW]
  · cases e; exact hW

theorem rndU_ok (r : WordRep UInt64 8) (i : Nat) (W W' : List UInt64) (v v' : V8 UInt64) (hW : W.length = 16)
    (e : rnd i (W, v) = .ok (W', v')) :
    rndU r i (W.flatMap r.enc, v) = .ok (W'.flatMap r.enc, v') ∧ W'.length = 16 := by
  simp only [rnd] at e
  simp only [rndU, schedU_ok r i W hW]
  cases hs : sched i W with
  | error x => rw [hs] at e; cases e
  | ok W1 =>
    have h1 := sched_length i W W1 hW hs
    have h (k : Nat) : k &&& 15 < W1.length := by rw [and15, h1]; omega
    rw [hs, ok_bind] at e
    have em : (Except.map (fun W' => List.flatMap r.enc W') (Except.ok W1) : C Bytes) = .ok (W1.flatMap r.enc) := rfl
    rw [em, ok_bind]
    cases hk : rd K i with
    | error x => rw [hk] at e; cases e
    | ok k =>
      rw [hk, ok_bind, rd_ok (h _), ok_bind] at e
      rw [ok_bind, r.rdW_ok W1 _ (h _), ok_bind]
      injection e with e
      injection e with e1 e2
      subst e1
      exact ⟨by rw [← e2], h1⟩

theorem roundsU_ok (r : WordRep UInt64 8) (n i : Nat) (W W' : List UInt64) (v v' : V8 UInt64) (hW : W.length = 16)
    (e : loop rnd n i (W, v) = .ok (W', v')) :
    loop (rndU r) n i (W.flatMap r.enc, v) = .ok (W'.flatMap r.enc, v') := by
  induction n generalizing i W v with
  | zero => simp only [loop] at e ⊢; cases e; rfl
  | succ n ih =>
    simp only [loop] at e ⊢
    cases h1 : rnd i (W, v) with
    | error x => rw [h1] at e; cases e
    | ok st =>
      obtain ⟨W1, v1⟩ := st
      rw [h1, ok_bind] at e
      obtain ⟨e1, hl⟩ := rndU_ok r i W W1 v v1 hW h1
      rw [e1, ok_bind]
      exact ih _ _ _ hl e

theorem loadU_ok (r : WordRep UInt64 8) (x0 : Bytes) (buf : Option Bytes) (hx : x0.length = 128)
    (hb : ∀ b, buf = some b → b.length = 128) :
    loop (fun i x => do
      let v ← ts_bytes_to_ull (buf.getD x) (8 * i) 8
      r.wrW x i (UInt64.ofNat v)) 16 0 x0 = .ok ((Spec.Sha512.words (buf.getD x0)).flatMap r.enc) := by
  have hbl : (buf.getD x0).length = 128 := by
    cases buf with
    | none => exact hx
    | some b => exact hb b rfl
  have hl := length_words _ hbl
  have hE (i : Nat) (hi : i ≤ 16) : (((Spec.Sha512.words (buf.getD x0)).take i).flatMap r.enc).length = 8 * i := by
    rw [r.length_flat, List.length_take, hl, Nat.min_eq_left hi]
  have := loop_eq' (body := fun i x => do
      let v ← ts_bytes_to_ull (buf.getD x) (8 * i) 8
      r.wrW x i (UInt64.ofNat v))
    (fun i => ((Spec.Sha512.words (buf.getD x0)).take i).flatMap r.enc ++ x0.drop (8 * i)) 16 x0 (by simp) (by
      intro i hi
      have hread : ((buf.getD (((Spec.Sha512.words (buf.getD x0)).take i).flatMap r.enc ++ x0.drop (8 * i))).drop (8 * i)) =
          (buf.getD x0).drop (8 * i) := by
        cases buf with
        | none => exact List.drop_left' (hE i (by omega))
        | some b => rfl
      have hlen : (buf.getD (((Spec.Sha512.words (buf.getD x0)).take i).flatMap r.enc ++ x0.drop (8 * i))).length = 128 := by
        cases buf with
        | none => simp only [Option.getD_none, List.length_append, List.length_drop, hx]
                  have := hE i (by omega)
                  simp only [Option.getD_none] at this
                  omega
        | some b => exact hb b rfl
      rw [ts_bytes_to_ull_ok _ _ _ (by rw [hlen]; omega) (by omega), ok_bind, hread]
      have h2 : (Spec.Sha512.words (buf.getD x0))[i]'(by omega) =
          UInt64.ofNat (Spec.toInt (List.take 8 (List.drop (8 * i) (buf.getD x0)))) := by
        simp [Spec.Sha512.words, Spec.blocks, Nat.mul_comm]
      rw [← h2, r.wrW_at _ _ i _ (hE i (by omega)) (by rw [List.length_drop, hx]; omega)]
      congr 1
      rw [(List.take_append_getElem (show i < (Spec.Sha512.words (buf.getD x0)).length by omega)).symm,
        List.flatMap_append, List.drop_drop, show 8 * i + 8 = 8 * (i + 1) by omega]
      simp)
  rw [this]
  congr 1
  rw [List.drop_of_length_le (by omega), List.append_nil, List.take_of_length_le (by omega)]

/-- The compression function over the union computes what `compress` does; only the bytes it leaves in the buffer depend on the platform. -/
theorem compressU_ok (r : WordRep UInt64 8) (ctx : Ctx) (buf : Option Bytes) (hx : ctx.data.length = 128)
    (hb : ∀ b, buf = some b → b.length = 128) :
    ∃ d, d.length = 128 ∧
      compressU r ctx buf = .ok { ctx with h := Spec.Sha512.compress ctx.h (buf.getD ctx.data), data := d } := by
  have hbl : (buf.getD ctx.data).length = 128 := by
    cases buf with
    | none => exact hx
    | some b => exact hb b rfl
  obtain ⟨W, v, e, len, val⟩ := rounds_ok (Spec.Sha512.words (buf.getD ctx.data)) (length_words _ hbl) ctx.h
  refine ⟨W.flatMap r.enc, by rw [r.length_flat, len], ?_⟩
  unfold compressU
  rw [loadU_ok r ctx.data buf hx hb, ok_bind, roundsU_ok r _ _ _ _ _ _ (length_words _ hbl) e, ok_bind]
  rw [val, Spec.Sha512.compress, K_eq]

/-- The model's own `compress` is the instance for the byte order of the machine. -/
theorem compressU_eq (r : WordRep UInt64 8) (ctx : Ctx) (hr : r.enc = wordBytes ctx.big) (buf : Option Bytes) (hx : ctx.data.length = 128)
    (hb : ∀ b, buf = some b → b.length = 128) :
    compressU r ctx buf = compress ctx (buf.getD ctx.data) := by
  have hbl : (buf.getD ctx.data).length = 128 := by
    cases buf with
    | none => exact hx
    | some b => exact hb b rfl
  obtain ⟨W, v, e, len, val⟩ := rounds_ok (Spec.Sha512.words (buf.getD ctx.data)) (length_words _ hbl) ctx.h
  unfold compressU compress
  rw [loadU_ok r ctx.data buf hx hb, load_words _ hbl, ok_bind, ok_bind, e,
    roundsU_ok r _ _ _ _ _ _ (length_words _ hbl) e, ok_bind, ok_bind, hr]

theorem updateLoopU_ok (r : WordRep UInt64 8) (fuel : Nat) (ctx : Ctx) (M p : Bytes) (hf : p.length < fuel) (inv : Abs0 ctx M) :
    ∃ ctx', updateLoopU r fuel ctx p = .ok ctx' ∧ Abs0 ctx' (M ++ p) ∧ ctx'.count = ctx.count := by
  induction fuel generalizing ctx M p with
  | zero => omega
  | succ fuel ih =>
    obtain ⟨hh, hn, hl, hd⟩ := inv
    have hmod := Nat.mod_lt M.length (show 128 > 0 by omega)
    have hdm := Nat.div_add_mod M.length 128
    simp only [updateLoopU]
    by_cases hp : p.length = 0
    · rw [if_pos hp]
      have : p = [] := List.length_eq_zero_iff.1 hp
      subst this
      exact ⟨ctx, rfl, by simpa using ⟨hh, hn, hl, hd⟩, rfl⟩
    rw [if_neg hp]
    have hus : usub 128 ctx.num = 128 - M.length % 128 := by simp only [usub]; omega
    rw [hus]
    by_cases hfull : min (128 - M.length % 128) p.length = 128
    · rw [if_pos hfull]
      have hm0 : M.length % 128 = 0 := by omega
      rw [rdSlice_zero (by omega), ok_bind]
      obtain ⟨d, hdl, ec⟩ := compressU_ok r { ctx with num := 0 } (some (p.take 128)) hl (fun b hb => by cases hb; simp; omega)
      simp only [Option.getD_some] at ec
      rw [ec, ok_bind, hfull]
      have hlt : (p.take 128).length = 128 := by simp; omega
      obtain ⟨c', e', a', k'⟩ := ih { ctx with num := 0, h := Spec.Sha512.compress ctx.h (p.take 128), data := d }
        (M ++ p.take 128) (p.drop 128) (by simp; omega)
        ⟨by
          show Spec.Sha512.compress ctx.h (p.take 128) = _
          rw [chain_eq _ _ (by omega), hh]
          congr 1
          rw [List.drop_of_length_le (by omega)]; rfl,
         by simp [hlt]; omega, hdl, by
          rw [List.drop_of_length_le (by simp [hlt]; omega)]
          simp only [List.length_append, hlt]
          rw [show (M.length + 128) % 128 = 0 by omega]; rfl⟩
      refine ⟨c', e', ?_, k'⟩
      rwa [List.append_assoc, List.take_append_drop] at a'
    · rw [if_neg hfull]
      rw [rdSlice_zero (by omega), ok_bind]
      have hpl : (p.take (min (128 - M.length % 128) p.length)).length =
        min (128 - M.length % 128) p.length := by simp
      rw [wrSlice_ok (by rw [hpl]; omega), ok_bind]
      rw [hn, hd, hpl]
      by_cases hlt : min (128 - M.length % 128) p.length + M.length % 128 < 128
      · rw [if_pos hlt]
        have hpe : min (128 - M.length % 128) p.length = p.length := by omega
        rw [hpe, List.take_of_length_le (Nat.le_refl _)]
        refine ⟨_, rfl, ⟨?_, ?_, ?_, ?_⟩, rfl⟩
        · rw [chain_lt _ _ (by omega)]; exact hh
        · simp only [List.length_append]; omega
        · simp; omega
        · have e1 : (M ++ p).length / 128 = M.length / 128 := by simp; omega
          have e2 : (M ++ p).length % 128 = M.length % 128 + p.length := by simp; omega
          rw [e1, e2, List.take_left' (by simp; omega), List.drop_append_of_le_length (by omega)]
      · rw [if_neg hlt]
        have hst : min (128 - M.length % 128) p.length = 128 - M.length % 128 := by omega
        rw [hst]
        have hk : M.length % 128 + (128 - M.length % 128) = 128 := by omega
        rw [hk, List.drop_of_length_le (show ctx.data.length ≤ 128 by omega), List.append_nil]
        have hlt2 : (p.take (128 - M.length % 128)).length = 128 - M.length % 128 := by simp; omega
        obtain ⟨d, hdl, ec⟩ := compressU_ok r
          { ctx with num := 0, data := M.drop (128 * (M.length / 128)) ++ p.take (128 - M.length % 128) }
          none (by simp; omega) (fun b hb => by cases hb)
        simp only [Option.getD_none] at ec
        rw [ec, ok_bind]
        obtain ⟨c', e', a', k'⟩ := ih { ctx with
            num := 0, data := d,
            h := Spec.Sha512.compress ctx.h (M.drop (128 * (M.length / 128)) ++ p.take (128 - M.length % 128)) }
          (M ++ p.take (128 - M.length % 128)) (p.drop (128 - M.length % 128)) (by simp; omega)
          ⟨by
            show Spec.Sha512.compress ctx.h _ = _
            rw [chain_eq _ _ (by omega), hh],
           by
            show 0 = _
            rw [List.length_append, hlt2]; omega, hdl, by
            show List.take _ d = _
            rw [List.length_append, hlt2,
              show (M.length + (128 - M.length % 128)) % 128 = 0 by omega, List.take_zero,
              List.drop_of_length_le (by rw [List.length_append, hlt2]; omega)]⟩
        refine ⟨c', e', ?_, k'⟩
        rwa [List.append_assoc, List.take_append_drop] at a'

/-- Updating absorbs, whatever the chunk. -/
theorem updateU_ok0 (r : WordRep UInt64 8) (ctx : Ctx) (M p : Bytes) (inv : Abs0 ctx M) :
    ∃ ctx', updateU r ctx p = .ok ctx' ∧ Abs0 ctx' (M ++ p) := by
  obtain ⟨c, e, a, _⟩ := updateLoopU_ok r (p.length + 1)
    { ctx with count := (ctx.count + 8 * p.length) % 2 ^ 64 } M p (by omega)
    ⟨inv.h, inv.num, inv.dlen, inv.data⟩
  exact ⟨c, e, a⟩

theorem updateU_ok (r : WordRep UInt64 8) (ctx : Ctx) (M p : Bytes) (inv : Abs ctx M) :
    ∃ ctx', updateU r ctx p = .ok ctx' ∧ Abs ctx' (M ++ p) := by
  obtain ⟨c, e, a, k⟩ := updateLoopU_ok r (p.length + 1)
    { ctx with count := (ctx.count + 8 * p.length) % 2 ^ 64 } M p (by omega)
    ⟨inv.h, inv.num, inv.dlen, inv.data⟩
  refine ⟨c, e, ⟨a, ?_⟩⟩
  rw [k]
  simp only [inv.count, List.length_append]; omega

/-- Finalising yields the digest of the absorbed message, truncated to `n` bytes. -/
theorem final_truncU_ok (r : WordRep UInt64 8) (digest : Bytes) (ctx : Ctx) (M : Bytes) (n : Nat) (inv : Abs ctx M)
    (hM : 8 * M.length < 2 ^ 64) (hn : n ≤ 64) (hn4 : n % 8 = 0) (hd : n ≤ digest.length) :
    ∃ ctx', final_truncU r digest ctx n = .ok ((Spec.Sha512.hash M).take n ++ digest.drop n, ctx') ∧
      ctx'.data.length = 128 := by
  unfold final_truncU
  rw [ts_ull_to_bytes_ok _ _ _ _ (by simp)]
  have hc : ctx.count = 8 * M.length := by rw [inv.count, Nat.mod_eq_of_lt hM]
  simp only [ok_bind, hc, List.take_zero, List.nil_append]
  rw [List.drop_of_length_le (by simp), List.append_nil]
  obtain ⟨c1, e1, a1⟩ := updateU_ok0 r ctx M [0x80] inv.toAbs0
  rw [e1, ok_bind]
  have hz : ∃ c2 z, (if c1.num > 112 then updateU r c1 (List.replicate 16 0) else .ok c1 : C Ctx) = .ok c2 ∧
      Abs0 c2 (M ++ [0x80] ++ List.replicate z 0) ∧ (M.length + 1 + z) % 128 ≤ 112 ∧ z < 128 ∧
      (z + (112 - (M.length + 1 + z) % 128)) = (128 - (M.length + 17) % 128) % 128 := by
    have hn1 := a1.num
    simp only [List.length_append, List.length_cons, List.length_nil] at hn1
    by_cases h : c1.num > 112
    · rw [if_pos h]
      obtain ⟨c2, e2, a2⟩ := updateU_ok0 r c1 _ (List.replicate 16 0) a1
      exact ⟨c2, 16, e2, a2, by omega, by omega, by omega⟩
    · rw [if_neg h]
      exact ⟨c1, 0, rfl, by simpa using a1, by omega, by omega, by omega⟩
  obtain ⟨c2, z, e2, a2, h56, hzB, hz⟩ := hz
  have hl2 : (M ++ [0x80] ++ List.replicate z (0:UInt8)).length = M.length + 1 + z := by
    simp only [List.length_append, List.length_cons, List.length_nil, List.length_replicate]
  obtain ⟨d, e3, a3⟩ := zero_fill c2 _ a2 (by rw [hl2]; exact h56)
  obtain ⟨c4, e4, a4⟩ := updateU_ok0 r _ _ (Spec.toByte (8 * M.length) 16) a3
  have hpad : M ++ [0x80] ++ List.replicate z 0 ++ List.replicate (112 - (M ++ [0x80] ++ List.replicate z (0:UInt8)).length % 128) 0 ++
      Spec.toByte (8 * M.length) 16 = Spec.Sha512.pad M := by
    rw [hl2, Spec.Sha512.pad, ← hz, List.append_assoc (M ++ [0x80]) (List.replicate z 0), List.replicate_append_replicate]
  rw [hpad] at a4
  refine ⟨c4, ?_, a4.dlen⟩
  have hout := output_ok c4.h digest (n / 8) (by omega) (by omega)
  rw [show 8 * (n / 8) = n by omega] at hout
  have hfin : c4.h.toList.flatMap (fun w => Spec.toByte w.toNat 8) = Spec.Sha512.hash M := by
    rw [a4.h]; rfl
  rw [hfin] at hout
  split at e2
  · rw [if_pos ‹_›, e2, ok_bind, e3]
    simp only [ok_bind]
    rw [e4, ok_bind, hout]; rfl
  · cases e2
    rw [if_neg ‹_›, e3]
    simp only [ok_bind]
    rw [e4, ok_bind, hout]; rfl


end Sha512

namespace Sha256

theorem updateLoopU_eq (r : WordRep UInt32 4) (fuel : Nat) (c : Ctx) (p : Bytes) (hr : r.enc = wordBytes c.big) (hx : c.data.length = 64) :
    updateLoopU r fuel c p = updateLoop fuel c p := by
  induction fuel generalizing c p with
  | zero => rfl
  | succ fuel ih =>
    unfold updateLoopU updateLoop
    by_cases hp : p.length = 0
    · rw [if_pos hp, if_pos hp]
    rw [if_neg hp, if_neg hp]
    by_cases hs : min (usub 64 c.num) p.length = 64
    · rw [if_pos hs, if_pos hs, rdSlice_zero (by omega), ok_bind, ok_bind]
      have hl : (p.take 64).length = 64 := by simp; omega
      rw [compressU_eq r { c with num := 0 } hr (some (p.take 64)) hx (fun b hb => by cases hb; exact hl)]
      obtain ⟨d, hd, e⟩ := compress_ok { c with num := 0 } (p.take 64) hl
      simp only [Option.getD_some]
      rw [e, ok_bind, ok_bind]
      exact ih _ _ hr hd
    · rw [if_neg hs, if_neg hs]
      refine bind_congr fun q => ?_
      cases e : wrSlice c.data c.num q with
      | error _ => rfl
      | ok d =>
        have hd : d.length = 64 := (wrSlice_len e).trans hx
        rw [ok_bind, ok_bind]
        dsimp only
        split
        · rfl
        · rw [compressU_eq r { c with num := 0, data := d } hr none hd (fun b hb => by cases hb)]
          obtain ⟨d', hd', e'⟩ := compress_ok { c with num := 0, data := d } d hd
          simp only [Option.getD_none]
          rw [e', ok_bind, ok_bind]
          exact ih _ _ hr hd'

/-- The model's `update` is the one that works in place, for the byte order of the machine. -/
theorem updateU_eq (r : WordRep UInt32 4) (c : Ctx) (p : Bytes) (hr : r.enc = wordBytes c.big) (hx : c.data.length = 64) :
    updateU r c p = update c p := updateLoopU_eq r _ _ _ hr hx

theorem updateLoop_dlen {fuel : Nat} {c c' : Ctx} {p : Bytes} (hx : c.data.length = 64) (h : updateLoop fuel c p = .ok c') :
    c'.data.length = 64 := by
  induction fuel generalizing c p with
  | zero => cases h
  | succ fuel ih =>
    unfold updateLoop at h
    by_cases hp : p.length = 0
    · rw [if_pos hp] at h; cases h; exact hx
    rw [if_neg hp] at h
    by_cases hs : min (usub 64 c.num) p.length = 64
    · rw [if_pos hs, rdSlice_zero (by omega), ok_bind] at h
      obtain ⟨d, hd, e⟩ := compress_ok { c with num := 0 } (p.take 64) (by simp; omega)
      rw [e, ok_bind] at h
      exact ih (show List.length d = 64 from hd) h
    · rw [if_neg hs] at h
      obtain ⟨q, _, h⟩ := bind_ok_inv h
      obtain ⟨d, e, h⟩ := bind_ok_inv h
      have hd : d.length = 64 := (wrSlice_len e).trans hx
      dsimp only at h
      split at h
      · cases h; exact hd
      · obtain ⟨d', hd', e'⟩ := compress_ok { c with num := 0, data := d } d hd
        rw [e', ok_bind] at h
        exact ih (show List.length d' = 64 from hd') h

theorem update_dlen {c c' : Ctx} {p : Bytes} (hx : c.data.length = 64) (h : update c p = .ok c') : c'.data.length = 64 := by
  unfold update at h
  exact updateLoop_dlen (c := { c with count := (c.count + 8 * p.length) % 2 ^ 64 }) hx h

/-- The same for finalising. -/
theorem final_truncU_eq (r : WordRep UInt32 4) (d : Bytes) (c : Ctx) (n : Nat) (hr : r.enc = wordBytes c.big) (hx : c.data.length = 64) :
    final_truncU r d c n = final_trunc d c n := by
  unfold final_truncU final_trunc
  refine bind_congr fun f => ?_
  rw [updateU_eq r c _ hr hx]
  cases e1 : update c [0x80] with
  | error _ => rfl
  | ok c1 =>
    rw [ok_bind, ok_bind]
    have hr1 : r.enc = wordBytes c1.big := by rw [update_big e1]; exact hr
    have hx1 := update_dlen hx e1
    have key : ∀ c2 : Ctx, r.enc = wordBytes c2.big → c2.data.length = 64 → (do
        let data ← wrSlice c2.data c2.num (List.replicate (usub 56 c2.num) 0)
        let ctx ← updateU r { c2 with data := data, num := 56 } f
        let digest ← loop (fun i d => do
          let hi ← rd ctx.h.toList i
          ts_ull_to_bytes d (4 * i) hi.toNat 4) (n / 4) 0 d
        (.ok (digest, ctx) : C (Bytes × Ctx))) = (do
        let data ← wrSlice c2.data c2.num (List.replicate (usub 56 c2.num) 0)
        let ctx ← update { c2 with data := data, num := 56 } f
        let digest ← loop (fun i d => do
          let hi ← rd ctx.h.toList i
          ts_ull_to_bytes d (4 * i) hi.toNat 4) (n / 4) 0 d
        (.ok (digest, ctx) : C (Bytes × Ctx))) := by
      intro c2 h2 k2
      cases e : wrSlice c2.data c2.num (List.replicate (usub 56 c2.num) 0) with
      | error _ => rfl
      | ok x =>
        rw [ok_bind, ok_bind, updateU_eq r { c2 with data := x, num := 56 } f h2 (show List.length x = 64 from (wrSlice_len e).trans k2)]
    dsimp only
    split
    · rw [updateU_eq r c1 _ hr1 hx1]
      cases e2 : update c1 (List.replicate 8 0) with
      | error _ => rfl
      | ok c2 => exact key c2 (by rw [update_big e2]; exact hr1) (update_dlen hx1 e2)
    · exact key c1 hr1 hx1

end Sha256

namespace Sha512

theorem updateLoopU_eq (r : WordRep UInt64 8) (fuel : Nat) (c : Ctx) (p : Bytes) (hr : r.enc = wordBytes c.big) (hx : c.data.length = 128) :
    updateLoopU r fuel c p = updateLoop fuel c p := by
  induction fuel generalizing c p with
  | zero => rfl
  | succ fuel ih =>
    unfold updateLoopU updateLoop
    by_cases hp : p.length = 0
    · rw [if_pos hp, if_pos hp]
    rw [if_neg hp, if_neg hp]
    by_cases hs : min (usub 128 c.num) p.length = 128
    · rw [if_pos hs, if_pos hs, rdSlice_zero (by omega), ok_bind, ok_bind]
      have hl : (p.take 128).length = 128 := by simp; omega
      rw [compressU_eq r { c with num := 0 } hr (some (p.take 128)) hx (fun b hb => by cases hb; exact hl)]
      obtain ⟨d, hd, e⟩ := compress_ok { c with num := 0 } (p.take 128) hl
      simp only [Option.getD_some]
      rw [e, ok_bind, ok_bind]
      exact ih _ _ hr hd
    · rw [if_neg hs, if_neg hs]
      refine bind_congr fun q => ?_
      cases e : wrSlice c.data c.num q with
      | error _ => rfl
      | ok d =>
        have hd : d.length = 128 := (wrSlice_len e).trans hx
        rw [ok_bind, ok_bind]
        dsimp only
        split
        · rfl
        · rw [compressU_eq r { c with num := 0, data := d } hr none hd (fun b hb => by cases hb)]
          obtain ⟨d', hd', e'⟩ := compress_ok { c with num := 0, data := d } d hd
          simp only [Option.getD_none]
          rw [e', ok_bind, ok_bind]
          exact ih _ _ hr hd'

/-- The model's `update` is the one that works in place, for the byte order of the machine. -/
theorem updateU_eq (r : WordRep UInt64 8) (c : Ctx) (p : Bytes) (hr : r.enc = wordBytes c.big) (hx : c.data.length = 128) :
    updateU r c p = update c p := updateLoopU_eq r _ _ _ hr hx

theorem updateLoop_dlen {fuel : Nat} {c c' : Ctx} {p : Bytes} (hx : c.data.length = 128) (h : updateLoop fuel c p = .ok c') :
    c'.data.length = 128 := by
  induction fuel generalizing c p with
  | zero => cases h
  | succ fuel ih =>
    unfold updateLoop at h
    by_cases hp : p.length = 0
    · rw [if_pos hp] at h; cases h; exact hx
    rw [if_neg hp] at h
    by_cases hs : min (usub 128 c.num) p.length = 128
    · rw [if_pos hs, rdSlice_zero (by omega), ok_bind] at h
      obtain ⟨d, hd, e⟩ := compress_ok { c with num := 0 } (p.take 128) (by simp; omega)
      rw [e, ok_bind] at h
      exact ih (show List.length d = 128 from hd) h
    · rw [if_neg hs] at h
      obtain ⟨q, _, h⟩ := bind_ok_inv h
      obtain ⟨d, e, h⟩ := bind_ok_inv h
      have hd : d.length = 128 := (wrSlice_len e).trans hx
      dsimp only at h
      split at h
      · cases h; exact hd
      · obtain ⟨d', hd', e'⟩ := compress_ok { c with num := 0, data := d } d hd
        rw [e', ok_bind] at h
        exact ih (show List.length d' = 128 from hd') h

theorem update_dlen {c c' : Ctx} {p : Bytes} (hx : c.data.length = 128) (h : update c p = .ok c') : c'.data.length = 128 := by
  unfold update at h
  exact updateLoop_dlen (c := { c with count := (c.count + 8 * p.length) % 2 ^ 64 }) hx h

/-- The same for finalising. -/
theorem final_truncU_eq (r : WordRep UInt64 8) (d : Bytes) (c : Ctx) (n : Nat) (hr : r.enc = wordBytes c.big) (hx : c.data.length = 128) :
    final_truncU r d c n = final_trunc d c n := by
  unfold final_truncU final_trunc
  refine bind_congr fun f => ?_
  rw [updateU_eq r c _ hr hx]
  cases e1 : update c [0x80] with
  | error _ => rfl
  | ok c1 =>
    rw [ok_bind, ok_bind]
    have hr1 : r.enc = wordBytes c1.big := by rw [update_big e1]; exact hr
    have hx1 := update_dlen hx e1
    have key : ∀ c2 : Ctx, r.enc = wordBytes c2.big → c2.data.length = 128 → (do
        let data ← wrSlice c2.data c2.num (List.replicate (usub 112 c2.num) 0)
        let ctx ← updateU r { c2 with data := data, num := 112 } f
        let digest ← loop (fun i d => do
          let hi ← rd ctx.h.toList i
          ts_ull_to_bytes d (8 * i) hi.toNat 8) (n / 8) 0 d
        (.ok (digest, ctx) : C (Bytes × Ctx))) = (do
        let data ← wrSlice c2.data c2.num (List.replicate (usub 112 c2.num) 0)
        let ctx ← update { c2 with data := data, num := 112 } f
        let digest ← loop (fun i d => do
          let hi ← rd ctx.h.toList i
          ts_ull_to_bytes d (8 * i) hi.toNat 8) (n / 8) 0 d
        (.ok (digest, ctx) : C (Bytes × Ctx))) := by
      intro c2 h2 k2
      cases e : wrSlice c2.data c2.num (List.replicate (usub 112 c2.num) 0) with
      | error _ => rfl
      | ok x =>
        rw [ok_bind, ok_bind, updateU_eq r { c2 with data := x, num := 112 } f h2 (show List.length x = 128 from (wrSlice_len e).trans k2)]
    dsimp only
    split
    · rw [updateU_eq r c1 _ hr1 hx1]
      cases e2 : update c1 (List.replicate 16 0) with
      | error _ => rfl
      | ok c2 => exact key c2 (by rw [update_big e2]; exact hr1) (update_dlen hx1 e2)
    · exact key c1 hr1 hx1

end Sha512

end Model
