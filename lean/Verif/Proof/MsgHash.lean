import Verif.Proof.Hash
/-!
# `PRF_msg` and `H_msg`
-/
namespace Model
open Spec (Adrs toByte)

theorem set_take_drop {l b : List α} {i : Nat} (v : α) (hl : i ≤ l.length) (hb : i < b.length) :
    (l.take i ++ b.drop i).set i v = l.take i ++ v :: b.drop (i + 1) := by
  have h : (l.take i).length = i := by simp; omega
  rw [List.set_append_right _ _ (by omega), h, Nat.sub_self, List.drop_eq_getElem_cons hb]
  rfl

theorem hmacBlock_ok (block key : Bytes) (pad : UInt8) (B n : Nat) (hB : block.length = B) (hk : key.length = n)
    (hn : n ≤ B) :
    hmacBlock block key pad n = .ok ((key ++ List.replicate (B - n) 0).map (· ^^^ pad)) := by
  unfold hmacBlock
  rw [loop_eq' (fun i => (key.map (pad ^^^ ·)).take i ++ block.drop i) n block (by simp)]
  · rw [ok_bind, List.take_of_length_le (by simp [hk])]
    rw [wrSlice_ok (by simp; omega)]
    have h1 : (List.map (pad ^^^ ·) key ++ List.drop n block).take n = List.map (pad ^^^ ·) key :=
      List.take_left' (by simp [hk])
    have h2 : (List.map (pad ^^^ ·) key ++ List.drop n block).length = B := by simp; omega
    rw [h1, h2, List.drop_of_length_le (by simp; omega), List.map_append, List.append_nil]
    congr 2
    · apply List.map_congr_left; intros; exact UInt8.xor_comm _ _
    · simp [UInt8.zero_xor]
  · intro i hi
    rw [rd_ok (by omega), ok_bind, wr_ok _ (by simp; omega), set_take_drop _ (by simp; omega) (by omega)]
    congr 1
    rw [List.take_add_one]
    simp [show i < key.length by omega]

/-- The remaining output of MGF1 from counter `i`. -/
def mgfTail (H : Bytes → Bytes) (hL : Nat) (seed : Bytes) (i len : Nat) : Bytes :=
  ((List.range ((len + hL - 1) / hL)).flatMap fun c => H (seed ++ toByte (i + c) 4)).take len

theorem mgf1_eq (H : Bytes → Bytes) (hL : Nat) (seed : Bytes) (len : Nat) :
    Spec.mgf1 H hL seed len = mgfTail H hL seed 0 len := by simp [Spec.mgf1, mgfTail]

theorem mgfTail_zero (H : Bytes → Bytes) (hL : Nat) (seed : Bytes) (i : Nat) : mgfTail H hL seed i 0 = [] := by
  simp [mgfTail]

theorem mgfTail_step (H : Bytes → Bytes) (hL : Nat) (hpos : 0 < hL) (hH : ∀ M, (H M).length = hL) (seed : Bytes)
    (i len : Nat) (hl : 0 < len) :
    mgfTail H hL seed i len = (H (seed ++ toByte i 4)).take (min hL len) ++
      mgfTail H hL seed (i + 1) (len - min hL len) := by
  unfold mgfTail
  have e : (len + hL - 1) / hL = (len - min hL len + hL - 1) / hL + 1 := by
    by_cases h : hL ≤ len
    · rw [Nat.min_eq_left h, show len + hL - 1 = (len - hL + hL - 1) + hL by omega, Nat.add_div_right _ hpos]
    · rw [Nat.min_eq_right (by omega), Nat.sub_self, Nat.div_eq_of_lt (show 0 + hL - 1 < hL by omega)]
      rw [show len + hL - 1 = (len - 1) + hL by omega, Nat.add_div_right _ hpos, Nat.div_eq_of_lt (by omega)]
  rw [e, List.range_succ_eq_map, List.flatMap_cons, List.flatMap_map]
  rw [List.take_append, hH]
  congr 1
  · by_cases h : hL ≤ len
    · rw [Nat.min_eq_left h, List.take_of_length_le (by rw [hH]; omega), List.take_of_length_le (by rw [hH])]; rfl
    · rw [Nat.min_eq_right (by omega)]; rfl
  · rw [show len - hL = len - min hL len by omega]
    congr 2
    funext a
    rw [show i + Nat.succ a = i + 1 + a by omega]

theorem length_flatMap_const (f : Nat → Bytes) (h : Nat) (hf : ∀ c, (f c).length = h) (n : Nat) :
    ((List.range n).flatMap f).length = n * h := by
  induction n with
  | zero => simp
  | succ n ih => rw [List.range_succ, List.flatMap_append, List.length_append, ih]; simp [hf, Nat.succ_mul]

theorem div_up (hL len : Nat) (hpos : 0 < hL) : len ≤ (len + hL - 1) / hL * hL := by
  have h1 := Nat.div_add_mod (len + hL - 1) hL
  have h2 := Nat.mod_lt (len + hL - 1) hpos
  rw [Nat.mul_comm] at h1
  omega

theorem length_mgfTail (H : Bytes → Bytes) (hL : Nat) (hpos : 0 < hL) (hH : ∀ M, (H M).length = hL) (seed : Bytes)
    (i len : Nat) : (mgfTail H hL seed i len).length = len := by
  rw [mgfTail, List.length_take, length_flatMap_const _ hL (fun _ => hH _)]
  have := div_up hL len hpos
  omega

theorem mgf1_take (H : Bytes → Bytes) (hL : Nat) (hpos : 0 < hL) (hH : ∀ M, (H M).length = hL) (seed : Bytes)
    (k len : Nat) (hk : k ≤ len) : (Spec.mgf1 H hL seed len).take k = Spec.mgf1 H hL seed k := by
  unfold Spec.mgf1
  rw [List.take_take, Nat.min_eq_left hk]
  have hle : (k + hL - 1) / hL ≤ (len + hL - 1) / hL := Nat.div_le_div_right (by omega)
  obtain ⟨d, hd⟩ := Nat.le.dest hle
  rw [← hd, List.range_add, List.flatMap_append, List.take_append_of_le_length]
  rw [length_flatMap_const _ hL (fun _ => hH _)]
  exact div_up hL k hpos

theorem mgf1Loop256_ok (E : Env) (n : Nat) (seed : Bytes) (hs : seed.length = 2 * n + 32)
    (fuel i : Nat) (mh out : Bytes) (off len : Nat) (c : Sha256.Ctx) (hf : len < fuel) (hn : n ≤ 32)
    (hm1 : 2 * n + 32 + 4 ≤ mh.length) (hm2 : mh.take (2 * n + 32) = seed) (ho : off + len ≤ out.length)
    (hc : c.data.length = 64) :
    ∃ c', mgf1Loop256 E n fuel i mh out off len c =
      .ok (out.take off ++ mgfTail Spec.Sha256.hash 32 seed i len ++ out.drop (off + len), c') ∧
      c'.data.length = 64 := by
  induction fuel generalizing i mh out off len c with
  | zero => omega
  | succ fuel ih =>
    unfold mgf1Loop256
    by_cases h0 : len = 0
    · rw [if_pos h0]
      subst h0
      exact ⟨c, by simp [mgfTail_zero], hc⟩
    · rw [if_neg h0, ts_ull_to_bytes_ok _ _ _ _ (by omega), ok_bind]
      have hmh : (mh.take (2 * n + 32) ++ toByte i 4 ++ mh.drop (2 * n + 32 + 4)).take (2 * n + 32 + 4) =
          seed ++ toByte i 4 := by
        rw [hm2, List.take_left' (by simp [hs, length_toByte])]
      rw [rdSlice_zero (by simp [length_toByte]; omega), ok_bind, hmh]
      obtain ⟨c1, e1, h1⟩ := Sha256.update_ok _ _ (seed ++ toByte i 4) (Sha256.init_abs c hc)
      obtain ⟨c2, e2, h2⟩ := Sha256.final_ok (E.local 4 32) c1 _ h1 (by simp [hs, length_toByte]; omega) (E.local_len _ _)
      simp only [e1, ok_bind, e2, List.nil_append]
      have hb : (if len ≥ 32 then 32 else len) = min 32 len := by split <;> omega
      have hstep := mgfTail_step _ 32 (by omega) Sha256.length_hash seed i len (by omega)
      have hb1 : min 32 len ≤ 32 := by omega
      have hb2 : min 32 len ≤ len := by omega
      have hb3 : 0 < min 32 len := by omega
      rw [hb]
      generalize min 32 len = b at *
      have hl : ((Spec.Sha256.hash (seed ++ toByte i 4)).take b).length = b := by
        rw [List.length_take, Sha256.length_hash]; omega
      rw [rdSlice_zero (by rw [Sha256.length_hash]; omega), ok_bind,
        wrSlice_ok (by rw [hl]; omega), ok_bind]
      generalize (Spec.Sha256.hash (seed ++ toByte i 4)).take b = D at *
      obtain ⟨c3, e3, h3⟩ := ih (i + 1) (mh.take (2 * n + 32) ++ toByte i 4 ++ mh.drop (2 * n + 32 + 4))
        (out.take off ++ D ++ out.drop (off + b))
        (off + b) (len - b) c2 (by omega) (by simp [length_toByte]; omega)
        (by rw [hm2, List.append_assoc, List.take_left' hs]) (by simp; omega) h2
      rw [hl, e3]
      refine ⟨c3, ?_, h3⟩
      have hl2 : (out.take off ++ D).length = off + b := by simp; omega
      rw [hstep, List.take_left' hl2]
      rw [List.drop_append, List.drop_of_length_le (by rw [hl2]; omega), List.nil_append, List.drop_drop, hl2]
      rw [show off + b + (off + b + (len - b) - (off + b)) = off + len by omega]
      simp only [List.append_assoc]

theorem mgf1Loop512_ok (E : Env) (n : Nat) (seed : Bytes) (hs : seed.length = 2 * n + 64)
    (fuel i : Nat) (mh out : Bytes) (off len : Nat) (c : Sha512.Ctx) (hf : len < fuel) (hn : n ≤ 32)
    (hm1 : 2 * n + 64 + 4 ≤ mh.length) (hm2 : mh.take (2 * n + 64) = seed) (ho : off + len ≤ out.length)
    (hc : c.data.length = 128) :
    ∃ c', mgf1Loop512 E n fuel i mh out off len c =
      .ok (out.take off ++ mgfTail Spec.Sha512.hash 64 seed i len ++ out.drop (off + len), c') ∧
      c'.data.length = 128 := by
  induction fuel generalizing i mh out off len c with
  | zero => omega
  | succ fuel ih =>
    unfold mgf1Loop512
    by_cases h0 : len = 0
    · rw [if_pos h0]
      subst h0
      exact ⟨c, by simp [mgfTail_zero], hc⟩
    · rw [if_neg h0, ts_ull_to_bytes_ok _ _ _ _ (by omega), ok_bind]
      have hmh : (mh.take (2 * n + 64) ++ toByte i 4 ++ mh.drop (2 * n + 64 + 4)).take (2 * n + 64 + 4) =
          seed ++ toByte i 4 := by
        rw [hm2, List.take_left' (by simp [hs, length_toByte])]
      rw [rdSlice_zero (by simp [length_toByte]; omega), ok_bind, hmh]
      obtain ⟨c1, e1, h1⟩ := Sha512.update_ok _ _ (seed ++ toByte i 4) (Sha512.init_abs c hc)
      obtain ⟨c2, e2, h2⟩ := Sha512.final_ok (E.local 8 64) c1 _ h1 (by simp [hs, length_toByte]; omega) (E.local_len _ _)
      simp only [e1, ok_bind, e2, List.nil_append]
      have hb : (if len ≥ 64 then 64 else len) = min 64 len := by split <;> omega
      have hstep := mgfTail_step _ 64 (by omega) Sha512.length_hash seed i len (by omega)
      have hb1 : min 64 len ≤ 64 := by omega
      have hb2 : min 64 len ≤ len := by omega
      have hb3 : 0 < min 64 len := by omega
      rw [hb]
      generalize min 64 len = b at *
      have hl : ((Spec.Sha512.hash (seed ++ toByte i 4)).take b).length = b := by
        rw [List.length_take, Sha512.length_hash]; omega
      rw [rdSlice_zero (by rw [Sha512.length_hash]; omega), ok_bind,
        wrSlice_ok (by rw [hl]; omega), ok_bind]
      generalize (Spec.Sha512.hash (seed ++ toByte i 4)).take b = D at *
      obtain ⟨c3, e3, h3⟩ := ih (i + 1) (mh.take (2 * n + 64) ++ toByte i 4 ++ mh.drop (2 * n + 64 + 4))
        (out.take off ++ D ++ out.drop (off + b))
        (off + b) (len - b) c2 (by omega) (by simp [length_toByte]; omega)
        (by rw [hm2, List.append_assoc, List.take_left' hs]) (by simp; omega) h2
      rw [hl, e3]
      refine ⟨c3, ?_, h3⟩
      have hl2 : (out.take off ++ D).length = off + b := by simp; omega
      rw [hstep, List.take_left' hl2]
      rw [List.drop_append, List.drop_of_length_le (by rw [hl2]; omega), List.nil_append, List.drop_drop, hl2]
      rw [show off + b + (off + b + (len - b) - (off + b)) = off + len by omega]
      simp only [List.append_assoc]

variable {S : Sess} {mem : Mem}

/-- The memory holds `SK.prf` in front of the public key. -/
def Sess.MemPrf (S : Sess) (mem : Mem) (skPrf : Bytes) : Prop :=
  S.n ≤ S.pk ∧ skPrf.length = S.n ∧ mem.Has (S.pk - S.n) skPrf

/-- The memory holds `PK.root`. -/
def Sess.MemRoot (S : Sess) (mem : Mem) (root : Bytes) : Prop := root.length = S.n ∧ mem.Has (S.pk + S.n) root

theorem secPrf_ok {p : Bytes} (h : S.MemPrf mem p) : secPrf mem S.pk S.n = .ok p := by
  obtain ⟨h1, h2, h3⟩ := h
  unfold secPrf ptrSub
  rw [if_pos h1, ok_bind, ← h2]
  rw [← h2] at h3
  exact Mem.Has.read h3

theorem pubRoot_ok {p : Bytes} (h : S.MemRoot mem p) : pubRoot mem S.pk S.n = .ok p := by
  obtain ⟨h2, h3⟩ := h
  unfold pubRoot
  have := Mem.Has.read h3
  rwa [h2] at this

theorem call_prf_msg_ok {ctx : Ctx} {out opt prf M : Bytes} {msg : Nat} (hg : Good S ctx)
    (hp : S.MemPrf mem prf) (hM : mem.Has msg M) (hl : M.length < 2 ^ 60) (ho : S.n ≤ out.length)
    (hopt : S.n ≤ opt.length) :
    ∃ si, call_prf_msg S.E mem out opt msg M.length ctx =
      .ok (S.hf.PRFmsg prf (opt.take S.n) M ++ out.drop S.n, { ctx with small_iter := si }) ∧ WfIter si := by
  have is := S.is_fam
  have hpl : prf.length = S.n := hp.2.1
  have hn := n_le (S := S); have hn8 := S.facts.n8
  unfold call_prf_msg
  have hpp : ctx.ps.prf_msg = S.fam := by rw [hg.ps, is.prf_msg]
  rw [hf_eq, hpp]
  have hread := hM.read
  have hkl : ¬ (64 < S.n) := by omega
  cases hf : S.fam with
  | shake =>
    simp only [ts_shake256_prf_msg, hg.pk, ctx_n hg, secPrf_ok hp, ok_bind, hread, rdSlice_zero hopt]
    obtain ⟨s0, e0, h0⟩ := Shake.inc_init_ok _ (S.E.asShake_len _ hg.si)
    obtain ⟨s1, e1, h1⟩ := Shake.inc_absorb_ok S.E.cfg.shakeOpt s0 [] prf (by simp [hpl]; omega) h0
    obtain ⟨s2, e2, h2⟩ := Shake.inc_absorb_ok S.E.cfg.shakeOpt s1 _ (opt.take S.n) (by simp [hpl]; omega) h1
    obtain ⟨s3, e3, h3⟩ := Shake.inc_absorb_ok S.E.cfg.shakeOpt s2 _ M (by simp [hpl]; omega) h2
    obtain ⟨s4, e4, h4⟩ := Shake.inc_finalize_ok s3 _ h3
    obtain ⟨s5, e5, h5⟩ := Shake.inc_squeeze_ok S.E.cfg.shakeOpt out 0 S.n 0 s4 _ (by omega) h4
    simp only [e0, e1, e2, e3, e4, e5, ok_bind]
    refine ⟨_, ?_, show WfIter (.shake s5) from h5.len⟩
    simp [Sess.fnsOf, Spec.shakeFns]
  | sha2L1 =>
    simp only [ts_sha2_L1_prf_msg, hg.pk, ctx_n hg, secPrf_ok hp, ok_bind, hread, rdSlice_zero hopt]
    rw [hmacBlock_ok (S.E.local 1 64) prf 0x36 64 S.n (S.E.local_len _ _) hpl (by omega), ok_bind]
    obtain ⟨s1, e1, h1⟩ := Sha256.update_ok _ _ ((prf ++ List.replicate (64 - S.n) 0).map (· ^^^ 0x36))
      (Sha256.init_abs _ (S.E.as256_len _ hg.si))
    obtain ⟨s2, e2, h2⟩ := Sha256.update_ok _ _ (opt.take S.n) h1
    obtain ⟨s3, e3, h3⟩ := Sha256.update_ok _ _ M h2
    obtain ⟨s4, e4, h4⟩ := Sha256.final_ok (S.E.local 2 32) s3 _ h3
      (by simp [hpl]; omega) (S.E.local_len _ _)
    simp only [e1, e2, e3, e4, ok_bind]
    rw [hmacBlock_ok _ prf 0x5c 64 S.n (by simp [hpl]; omega) hpl (by omega), ok_bind]
    obtain ⟨s5, e5, h5⟩ := Sha256.update_ok _ _ ((prf ++ List.replicate (64 - S.n) 0).map (· ^^^ 0x5c))
      (Sha256.init_abs s4 h4)
    obtain ⟨s6, e6, h6⟩ := Sha256.update_ok _ _ (Spec.Sha256.hash ([] ++ List.map (· ^^^ 54) (prf ++ List.replicate (64 - S.n) 0) ++ opt.take S.n ++ M)) h5
    obtain ⟨s7, e7, h7⟩ := Sha256.final_trunc_ok out s6 _ S.n h6
      (by simp [hpl, Sha256.length_hash]; omega) (by omega) (by omega) ho
    simp only [e5, e6, e7, ok_bind]
    refine ⟨_, ?_, show WfIter (.sha256 s7) from h7⟩
    simp only [Sess.fnsOf, Spec.sha2L1Fns, Spec.hmac, hpl, if_pos (show S.n ≤ 64 by omega), List.nil_append,
      List.append_assoc]
  | sha2L35 =>
    simp only [ts_sha2_L35_prf_msg, hg.pk, ctx_n hg, secPrf_ok hp, ok_bind, hread, rdSlice_zero hopt]
    rw [hmacBlock_ok (S.E.local 5 128) prf 0x36 128 S.n (S.E.local_len _ _) hpl (by omega), ok_bind]
    obtain ⟨s1, e1, h1⟩ := Sha512.update_ok _ _ ((prf ++ List.replicate (128 - S.n) 0).map (· ^^^ 0x36))
      (Sha512.init_abs _ (S.E.as512_len _ hg.si))
    obtain ⟨s2, e2, h2⟩ := Sha512.update_ok _ _ (opt.take S.n) h1
    obtain ⟨s3, e3, h3⟩ := Sha512.update_ok _ _ M h2
    obtain ⟨s4, e4, h4⟩ := Sha512.final_ok (S.E.local 6 64) s3 _ h3
      (by simp [hpl]; omega) (S.E.local_len _ _)
    simp only [e1, e2, e3, e4, ok_bind]
    rw [hmacBlock_ok _ prf 0x5c 128 S.n (by simp [hpl]; omega) hpl (by omega), ok_bind]
    obtain ⟨s5, e5, h5⟩ := Sha512.update_ok _ _ ((prf ++ List.replicate (128 - S.n) 0).map (· ^^^ 0x5c))
      (Sha512.init_abs s4 h4)
    obtain ⟨s6, e6, h6⟩ := Sha512.update_ok _ _ (Spec.Sha512.hash ([] ++ List.map (· ^^^ 54) (prf ++ List.replicate (128 - S.n) 0) ++ opt.take S.n ++ M)) h5
    obtain ⟨s7, e7, h7⟩ := Sha512.final_trunc_ok out s6 _ S.n h6
      (by simp [hpl, Sha512.length_hash]; omega) (by omega) (by omega) ho
    simp only [e5, e6, e7, ok_bind]
    refine ⟨_, ?_, show WfIter (.sha512 s7) from h7⟩
    simp only [Sess.fnsOf, Spec.sha2L35Fns, Spec.hmac, hpl, if_pos (show S.n ≤ 128 by omega), List.nil_append,
      List.append_assoc]

theorem call_hash_msg_ok {ctx : Ctx} {out rnd root M : Bytes} {msg len : Nat} (hg : Good S ctx)
    (hpub : S.MemPub mem) (hr : S.MemRoot mem root) (hM : mem.Has msg M) (hl : M.length < 2 ^ 60)
    (ho : len ≤ out.length) (hrnd : S.n ≤ rnd.length) :
    ∃ si, call_hash_msg S.E mem out len rnd msg M.length ctx =
      .ok (S.hf.Hmsg (rnd.take S.n) S.pkSeed root M len ++ out.drop len, { ctx with small_iter := si }) ∧
      WfIter si := by
  have is := S.is_fam
  have hrl : root.length = S.n := hr.1
  have hsl := S.seed_len
  have hn := n_le (S := S); have hn8 := S.facts.n8; have hmx := S.facts.nmax
  unfold call_hash_msg
  have hpp : ctx.ps.hash_msg = S.fam := by rw [hg.ps, is.hash_msg]
  rw [hf_eq, hpp]
  have hread := hM.read
  have hrt : (rnd.take S.n).length = S.n := by simp; omega
  generalize hR : rnd.take S.n = R at hrt
  cases hf : S.fam with
  | shake =>
    simp only [ts_shake256_hash_msg, hg.pk, ctx_n hg, pubSeed_ok S mem hpub, pubRoot_ok hr, ok_bind, hread,
      rdSlice_zero hrnd, hR]
    obtain ⟨s0, e0, h0⟩ := Shake.inc_init_ok _ (S.E.asShake_len _ hg.si)
    obtain ⟨s1, e1, h1⟩ := Shake.inc_absorb_ok S.E.cfg.shakeOpt s0 [] R (by simp [hrt]; omega) h0
    obtain ⟨s2, e2, h2⟩ := Shake.inc_absorb_ok S.E.cfg.shakeOpt s1 _ S.pkSeed (by simp [hrt, hsl]; omega) h1
    obtain ⟨s2', e2', h2'⟩ := Shake.inc_absorb_ok S.E.cfg.shakeOpt s2 _ root (by simp [hrt, hsl, hrl]; omega) h2
    obtain ⟨s3, e3, h3⟩ := Shake.inc_absorb_ok S.E.cfg.shakeOpt s2' _ M (by simp [hrt, hsl, hrl]; omega) h2'
    obtain ⟨s4, e4, h4⟩ := Shake.inc_finalize_ok s3 _ h3
    obtain ⟨s5, e5, h5⟩ := Shake.inc_squeeze_ok S.E.cfg.shakeOpt out 0 len 0 s4 _ (by omega) h4
    simp only [e0, e1, e2, e2', e3, e4, e5, ok_bind]
    refine ⟨_, ?_, show WfIter (.shake s5) from h5.len⟩
    simp [Sess.fnsOf, Spec.shakeFns]
  | sha2L1 =>
    simp only [ts_sha2_L1_hash_msg, hg.pk, ctx_n hg, pubSeed_ok S mem hpub, pubRoot_ok hr, ok_bind, hread,
      rdSlice_zero hrnd, hR]
    obtain ⟨s1, e1, h1⟩ := Sha256.update_ok _ _ R (Sha256.init_abs _ (S.E.as256_len _ hg.si))
    obtain ⟨s2, e2, h2⟩ := Sha256.update_ok _ _ S.pkSeed h1
    obtain ⟨s2', e2', h2'⟩ := Sha256.update_ok _ _ root h2
    obtain ⟨s3, e3, h3⟩ := Sha256.update_ok _ _ M h2'
    have hll : (S.E.local 3 (2 * S.E.cfg.MAX_HASH + 32 + 4)).length = 2 * S.E.cfg.MAX_HASH + 32 + 4 := S.E.local_len _ _
    generalize S.E.local 3 (2 * S.E.cfg.MAX_HASH + 32 + 4) = L at hll
    have hmx' : S.n ≤ S.E.cfg.MAX_HASH := hmx
    obtain ⟨s4, e4, h4⟩ := Sha256.final_ok ((L.drop (2 * S.n)).take 32) s3 _ h3
      (by simp [hrt, hsl, hrl]; omega) (by simp; omega)
    simp only [e1, e2, e2', e3, ok_bind]
    rw [rdSlice_ok (by omega), ok_bind, e4, ok_bind]
    simp only [List.nil_append] at *
    generalize hD : Spec.Sha256.hash (R ++ S.pkSeed ++ root ++ M) = D at *
    have hDl : D.length = 32 := by rw [← hD]; exact Sha256.length_hash _
    rw [wrSlice_ok (by omega), ok_bind, wrSlice_zero (by simp; omega), ok_bind, wrSlice_ok (by simp; omega), ok_bind]
    have hseed : (R ++ S.pkSeed ++ D).length = 2 * S.n + 32 := by simp; omega
    have key : ∀ X : Bytes, X = (R ++ (L.take (2 * S.n) ++ D ++ L.drop (2 * S.n + D.length)).drop R.length) →
        (X.take S.n ++ S.pkSeed ++ X.drop (S.n + S.pkSeed.length)) =
          R ++ S.pkSeed ++ D ++ L.drop (2 * S.n + 32) := by
      intro X hX
      have a1 : X.take S.n = R := by rw [hX, List.take_left' hrt]
      have a2 : X.drop (S.n + S.pkSeed.length) = D ++ L.drop (2 * S.n + 32) := by
        rw [hX, List.drop_append, List.drop_of_length_le (by omega), List.nil_append, List.drop_drop,
          List.append_assoc, List.drop_append, List.drop_of_length_le (by simp; omega), List.nil_append,
          hrt, hsl, hDl, List.length_take, hll]
        rw [show S.n + (S.n + S.n - S.n) - min (2 * S.n) (2 * S.E.cfg.MAX_HASH + 32 + 4) = 0 by omega, List.drop_zero]
      rw [a1, a2]; simp
    rw [key _ rfl]
    obtain ⟨s5, e5, h5⟩ := mgf1Loop256_ok S.E S.n _ hseed (len + 1) 0 (R ++ S.pkSeed ++ D ++ L.drop (2 * S.n + 32)) out 0
      len s4 (by omega) hn (by rw [List.length_append, hseed]; simp; omega) (by rw [List.take_left' hseed]) (by omega) h4
    rw [e5, ok_bind]
    refine ⟨_, ?_, show WfIter (.sha256 s5) from h5⟩
    simp only [Sess.fnsOf, Spec.sha2L1Fns, mgf1_eq, hD, List.take_zero, List.nil_append, Nat.zero_add]
  | sha2L35 =>
    simp only [ts_sha2_L35_hash_msg, hg.pk, ctx_n hg, pubSeed_ok S mem hpub, pubRoot_ok hr, ok_bind, hread,
      rdSlice_zero hrnd, hR]
    obtain ⟨s1, e1, h1⟩ := Sha512.update_ok _ _ R (Sha512.init_abs _ (S.E.as512_len _ hg.si))
    obtain ⟨s2, e2, h2⟩ := Sha512.update_ok _ _ S.pkSeed h1
    obtain ⟨s2', e2', h2'⟩ := Sha512.update_ok _ _ root h2
    obtain ⟨s3, e3, h3⟩ := Sha512.update_ok _ _ M h2'
    have hll : (S.E.local 7 (2 * S.E.cfg.MAX_HASH + 64 + 4)).length = 2 * S.E.cfg.MAX_HASH + 64 + 4 := S.E.local_len _ _
    generalize S.E.local 7 (2 * S.E.cfg.MAX_HASH + 64 + 4) = L at hll
    have hmx' : S.n ≤ S.E.cfg.MAX_HASH := hmx
    obtain ⟨s4, e4, h4⟩ := Sha512.final_ok ((L.drop (2 * S.n)).take 64) s3 _ h3
      (by simp [hrt, hsl, hrl]; omega) (by simp; omega)
    simp only [e1, e2, e2', e3, ok_bind]
    rw [rdSlice_ok (by omega), ok_bind, e4, ok_bind]
    simp only [List.nil_append] at *
    generalize hD : Spec.Sha512.hash (R ++ S.pkSeed ++ root ++ M) = D at *
    have hDl : D.length = 64 := by rw [← hD]; exact Sha512.length_hash _
    rw [wrSlice_ok (by omega), ok_bind, wrSlice_zero (by simp; omega), ok_bind, wrSlice_ok (by simp; omega), ok_bind]
    have hseed : (R ++ S.pkSeed ++ D).length = 2 * S.n + 64 := by simp; omega
    have key : ∀ X : Bytes, X = (R ++ (L.take (2 * S.n) ++ D ++ L.drop (2 * S.n + D.length)).drop R.length) →
        (X.take S.n ++ S.pkSeed ++ X.drop (S.n + S.pkSeed.length)) =
          R ++ S.pkSeed ++ D ++ L.drop (2 * S.n + 64) := by
      intro X hX
      have a1 : X.take S.n = R := by rw [hX, List.take_left' hrt]
      have a2 : X.drop (S.n + S.pkSeed.length) = D ++ L.drop (2 * S.n + 64) := by
        rw [hX, List.drop_append, List.drop_of_length_le (by omega), List.nil_append, List.drop_drop,
          List.append_assoc, List.drop_append, List.drop_of_length_le (by simp; omega), List.nil_append,
          hrt, hsl, hDl, List.length_take, hll]
        rw [show S.n + (S.n + S.n - S.n) - min (2 * S.n) (2 * S.E.cfg.MAX_HASH + 64 + 4) = 0 by omega, List.drop_zero]
      rw [a1, a2]; simp
    rw [key _ rfl]
    obtain ⟨s5, e5, h5⟩ := mgf1Loop512_ok S.E S.n _ hseed (len + 1) 0 (R ++ S.pkSeed ++ D ++ L.drop (2 * S.n + 64)) out 0
      len s4 (by omega) hn (by rw [List.length_append, hseed]; simp; omega) (by rw [List.take_left' hseed]) (by omega) h4
    rw [e5, ok_bind]
    refine ⟨_, ?_, show WfIter (.sha512 s5) from h5⟩
    simp only [Sess.fnsOf, Spec.sha2L35Fns, mgf1_eq, hD, List.take_zero, List.nil_append, Nat.zero_add]

theorem length_Hmsg (r s o M : Bytes) (len : Nat) : (S.hf.Hmsg r s o M len).length = len := by
  rw [hf_eq]
  cases S.fam <;> simp only [Sess.fnsOf, Spec.shakeFns, Spec.sha2L1Fns, Spec.sha2L35Fns, mgf1_eq]
  · exact Shake.length_shake256 _ _
  · exact length_mgfTail _ _ (by omega) Sha256.length_hash _ _ _
  · exact length_mgfTail _ _ (by omega) Sha512.length_hash _ _ _

theorem shake_take (M : Bytes) (k len : Nat) (h : k ≤ len) :
    (Spec.Keccak.shake256 M len).take k = Spec.Keccak.shake256 M k := by
  rw [Shake.shake256_bytes, Shake.shake256_bytes, ← List.map_take, List.take_range, Nat.min_eq_left h]

theorem Hmsg_take (r s o M : Bytes) (k len : Nat) (h : k ≤ len) :
    (S.hf.Hmsg r s o M len).take k = S.hf.Hmsg r s o M k := by
  rw [hf_eq]
  cases S.fam <;> simp only [Sess.fnsOf, Spec.shakeFns, Spec.sha2L1Fns, Spec.sha2L35Fns]
  · exact shake_take _ _ _ h
  · exact mgf1_take _ _ (by omega) Sha256.length_hash _ _ _ h
  · exact mgf1_take _ _ (by omega) Sha512.length_hash _ _ _ h

end Model
