import Verif.Proof.ResidueLoop
/-!
# `ts_init_sign` and whole signing sessions for the signer and for the observer
-/
namespace Model
open Spec Spec.Slh

variable {S : Sess} {m1 m2 : Mem} {K : Observer.Known}

theorem prehash_same {c : Ctx} (hps : c.ps = S.ps) (hpk : c.public_key = S.pk) (p1 : S.MemPub m1) (p2 : S.MemPub m2) :
    call_prehash S.E m2 c = call_prehash S.E m1 c := by
  have e1 := pubSeed_ok S m1 p1
  have e2 := pubSeed_ok S m2 p2
  have hn : c.ps.n = S.n := by rw [hps]; exact S.facts.pn
  have L1 : ts_sha2_L1_prehash S.E m2 c = ts_sha2_L1_prehash S.E m1 c := by
    unfold ts_sha2_L1_prehash
    simp only [hpk, hn, e1, e2]
  have key : ∀ m, S.MemPub m → ∀ c', ts_sha2_L1_prehash S.E m c = .ok c' → c'.public_key = S.pk ∧ c'.ps.n = S.n := by
    intro m hm c' h
    unfold ts_sha2_L1_prehash at h
    obtain ⟨a, -, h⟩ := bind_ok_inv h
    obtain ⟨b, -, h⟩ := bind_ok_inv h
    obtain ⟨d, -, h⟩ := bind_ok_inv h
    cases h
    exact ⟨hpk, hn⟩
  have L35 : ts_sha2_L35_prehash S.E m2 c = ts_sha2_L35_prehash S.E m1 c := by
    unfold ts_sha2_L35_prehash
    rw [L1]
    cases hh : ts_sha2_L1_prehash S.E m1 c with
    | error e => rfl
    | ok c' =>
      obtain ⟨k1, k2⟩ := key m1 p1 c' hh
      simp only [ok_bind, k1, k2, e1, e2]
  unfold call_prehash
  rw [L1, L35]

/-- `ts_init_sign` leaves a context that depends on the secrets through the randomizer only. -/
theorem init_two {c c' : Ctx} {msg priv : Nat} {prf1 root M : Bytes} {rng1 : Option Rng} {q : List Nat} (hsh : Shape S.cfg c)
    (hpk : S.pk = priv + 2 * S.n) (p1 : S.MemPub m1) (p2 : S.MemPub m2)
    (f1 : S.MemPrf m1 prf1) (r1 : S.MemRoot m1 root) (r2 : S.MemRoot m2 root) (hM1 : m1.Has msg M) (hM2 : m2.Has msg M)
    (hl : M.length < 2 ^ 60) (hr1 : ∀ f, rng1 = some f → RngOk f S.n)
    (hR : K.sig.take S.n = S.hf.PRFmsg prf1 (optRand rng1 S.pkSeed) M)
    (h1 : ts_init_sign S.E m1 c msg M.length S.ps priv rng1 = .ok (c', q)) (gc : Good S c') :
    Observer.ts_init_sign S.E m2 K c msg M.length S.ps priv = .ok c' := by
  have F := S.facts
  have hmx := F.nmax
  let c0 : Ctx := { c with ps := S.ps, public_key := S.pk }
  obtain ⟨si1, pa, pb, e1, g1⟩ := call_prehash_ok (S := S) (mem := m1) (ctx := c0) rfl rfl p1 ⟨hsh.adr, hsh.buf, hsh.auth, hsh.x, hsh.si, hsh.bi⟩
  have e1' := (prehash_same (S := S) (c := c0) rfl rfl p1 p2).trans e1
  generalize hc1 : ({ c0 with small_iter := si1, prehash_sha256 := pa, prehash_sha512 := pb } : Ctx) = c1 at *
  obtain ⟨b1, ho1, ho2, ho3⟩ := fillOptBuffer_ok (S := S) (mem := m1) p1 rng1 hr1
  have hbl : S.n ≤ c1.buffer.length := by rw [g1.buf]; exact hmx
  obtain ⟨si2, e2, w2⟩ := call_prf_msg_ok (mem := m1) (ctx := c1) (out := c1.buffer) (opt := b1) g1 f1 hM1 hl hbl ho2
  have hRl := length_PRFmsg (S := S) prf1 (optRand rng1 S.pkSeed) M
  rw [ho3, ← hR] at e2
  rw [← hR] at hRl
  have e3 : wrSlice c1.buffer 0 (K.sig.take S.n) = .ok (K.sig.take S.n ++ c1.buffer.drop S.n) := wr_front hRl hbl
  generalize hB : K.sig.take S.n ++ c1.buffer.drop S.n = B at *
  have hBl : S.n ≤ B.length := by rw [← hB, List.length_append, hRl]; omega
  let c2 : Ctx := { c1 with small_iter := si2, buffer := B }
  have hBm : B.length = S.cfg.MAX_HASH := by rw [← hB, List.length_append, hRl, List.length_drop, g1.buf]; omega
  have g2 : Good S c2 := ⟨⟨g1.adr, hBm, g1.auth, g1.x, w2, g1.bi⟩, g1.ps, g1.pk, g1.pre⟩
  have e4 := hash_msg_same (S := S) (out := S.E.local 10 MAX_MESSAGE_HASH) (rnd := B) (root := root) (M := M) (msg := msg) (len := MAX_MESSAGE_HASH) (c := c2) (s := c1.small_iter)
    g2 g1.si p1 p2 r1 r2 hM1 hM2 hBl
  unfold ts_init_sign at h1
  unfold Observer.ts_init_sign
  simp only [F.pn] at h1 ⊢
  have hc0 : ({ c with ps := S.ps, public_key := priv + 2 * S.n } : Ctx) = c0 := by
    show _ = ({ c with ps := S.ps, public_key := S.pk } : Ctx); rw [hpk]
  rw [hc0] at h1 ⊢
  rw [e1, ok_bind, show c1.public_key = S.pk from g1.pk, ho1, ok_bind, e2, ok_bind] at h1
  rw [e1', ok_bind, e3, ok_bind]
  simp only at h1 ⊢
  change (call_hash_msg S.E m1 (S.E.local 10 MAX_MESSAGE_HASH) MAX_MESSAGE_HASH B msg M.length c2 >>= _) = _ at h1
  change (call_hash_msg S.E m2 (S.E.local 10 MAX_MESSAGE_HASH) MAX_MESSAGE_HASH B msg M.length (c2.si c1.small_iter) >>= _) = _
  rw [e4]
  obtain ⟨⟨mh, c3⟩, e5, h1⟩ := bind_ok_inv h1
  obtain ⟨⟨c4, _⟩, e6, h1⟩ := bind_ok_inv h1
  obtain ⟨c5, e7, h1⟩ := bind_ok_inv h1
  obtain ⟨t, e8, h1⟩ := bind_ok_inv h1
  cases h1
  rw [e5, ok_bind]
  simp only
  rw [e6, ok_bind]
  simp only
  rw [e7, ok_bind]
  have hpk5 : c5.public_key = S.pk := gc.pk
  have hn5 : c5.ps.n = S.n := (congrArg ParamSet.n (show c5.ps = S.ps from gc.ps)).trans F.pn
  have e9 : call_init_t S.E m2 c5.big_iter c5 = call_init_t S.E m1 c5.big_iter c5 := by
    have k1 := pubSeed_ok S m1 p1
    have k2 := pubSeed_ok S m2 p2
    unfold call_init_t
    simp only [ts_shake256_init_t_simple, ts_sha2_L1_init_t_simple, ts_sha2_L35_init_t_simple, ts_sha256_init_ctx, ts_sha512_init_ctx,
      hpk5, hn5, k1, k2]
  rw [e9, e8, ok_bind]

variable (D : SignData S)

theorem min_min_add (a b t : Nat) : min (min a t + b) t = min (a + b) t := by omega

/-- Successive calls of `ts_sign` for signer and observer. -/
theorem calls_two {e : Nat} (p1 : S.MemPub m1) (p2 : S.MemPub m2) (q1 : S.MemSec m1 D.sk) (tw : Images D K) (ag : Knows D K e) :
    ∀ (rs : List (Bytes × Nat)) (c : Ctx) (s : TIter) (ph : Ph) (os : List (Nat × Bytes)) (c' : Ctx), D.Inv ph c → WfIter s → c.buffer_offset ≤ S.n →
      (S.clean (ph.pos S) → c.si s = c) → ph.pos S * S.n + c.buffer_offset + (rs.map Prod.snd).sum ≤ (e + 1) * S.n →
      signCalls S.E m1 c rs = .ok (os, c') →
      ∃ (ph' : Ph) (t : TIter), Observer.signCalls S.E m2 K (c.si s) (ph.pos S + 1) rs = .ok (os, c'.si t) ∧ ph'.Ok S ∧ c'.buffer_offset ≤ S.n ∧
        (S.clean (ph'.pos S) → c'.si t = c') ∧
        ph'.pos S * S.n + c'.buffer_offset = min (ph.pos S * S.n + c.buffer_offset + (rs.map Prod.snd).sum) ((S.forsN + S.P.d * S.per + 1) * S.n) ∧
        (0 < (rs.map Prod.snd).sum ∨ 0 < c.buffer_offset → 0 < c'.buffer_offset) := by
  intro rs
  induction rs with
  | nil =>
    intro c s ph os c' h w hb hcl he h1
    cases h1
    have hple := pos_le h.ok
    have htot : ph.pos S * S.n + S.n ≤ (S.forsN + S.P.d * S.per + 1) * S.n := by
      rw [← Nat.succ_mul]; exact Nat.mul_le_mul_right _ (by omega)
    exact ⟨ph, s, rfl, h.ok, hb, hcl, by simp only [List.map_nil, List.sum_nil]; omega, by simp⟩
  | cons a rs ih =>
    obtain ⟨dest, m⟩ := a
    intro c s ph os c' h w hb hcl he h1
    rw [List.map_cons, List.sum_cons] at he ⊢
    simp only at he ⊢
    unfold signCalls at h1
    unfold Observer.signCalls
    obtain ⟨⟨r, d, c1⟩, e1, h1⟩ := bind_ok_inv h1
    obtain ⟨⟨os1, c2⟩, e2, h1⟩ := bind_ok_inv h1
    cases h1
    obtain ⟨ph1, t1, f1, i1, w1, b1, k1, n1, z1⟩ := ts_sign_two D p1 p2 q1 tw ag h w hb hcl (by omega) e1
    obtain ⟨ph2, t2, f2, i2, b2, k2, n2, z2⟩ := ih c1 t1 ph1 os1 c' i1 w1 b1 k1 (by rw [n1]; omega) e2
    refine ⟨ph2, t2, by rw [f1, ok_bind]; simp only; rw [f2, ok_bind], i2, b2, k2, by rw [n2, n1]; omega, ?_⟩
    intro hz
    apply z2
    by_cases hs : 0 < (rs.map Prod.snd).sum
    · exact Or.inl hs
    · refine Or.inr (z1 ?_)
      rcases hz with hz | hz
      · exact Or.inl (by omega)
      · exact Or.inr hz

end Model
