import Verif.Model.LeakApi
import Verif.Proof.LeakRun
import Verif.Proof.Jobs
import Verif.Proof.Binding
/-!
# The events of a signature operation are those of the simulator
-/
namespace Leak
open Model Spec Spec.Slh

/-! ## What the signature determines -/

theorem layerValues_getD {S : Sess} (D : SignData S) : ∀ (r j i : Nat), j + r = S.P.d → i < r →
    (layerValues S.P S.hf S.pkSeed r j (D.treeAt j) (D.leafAt j) (D.restHt j) (D.msgAt j)).getD i [] = D.msgAt (j + i) := by
  intro r
  induction r with
  | zero => intro j i _ h; omega
  | succ r ih =>
    intro j i hj hi
    unfold layerValues
    cases i with
    | zero => rfl
    | succ i =>
      have hw : (D.wsig j ++ D.wauth j).length = S.P.len + S.P.hp := by
        rw [List.length_append, show (D.wsig j).length = S.P.len from length_wotsSign _ _ _ _ _ _ _ _]
        unfold SignData.wauth xmssAuth
        simp
      have hx : xmssPkFromSig S.P S.hf S.pkSeed j (D.treeAt j) (D.leafAt j) (D.wsig j ++ D.wauth j) (D.msgAt j) = D.msgAt (j + 1) :=
        xmss_honest _ _ _ _ _ _ _ (D.msgAt j) (D.leafAt_lt j)
      rw [List.getD_cons_succ, D.restHt_step j (by omega), ← List.append_assoc, List.drop_left' hw, List.take_left' hw, hx, ← D.treeAt_succ j]
      rw [show j + (i + 1) = j + 1 + i by omega]
      exact ih (j + 1) i (by omega) (by omega)

/-- The values that are signed can be computed from the signature. -/
theorem signedValues_getD {S : Sess} (D : SignData S) {pk M skPrf root opt : Bytes} (h1 : pk.take S.n = S.pkSeed) (h2 : (pk.drop S.n).take S.n = root)
    (ht : D.tree = treeIdx S.P (S.hf.Hmsg (S.hf.PRFmsg skPrf opt M) S.pkSeed root M S.P.m))
    (hl : D.leaf = leafIdx S.P (S.hf.Hmsg (S.hf.PRFmsg skPrf opt M) S.pkSeed root M S.P.m))
    (hi : D.idx = mdIndices S.P (S.hf.Hmsg (S.hf.PRFmsg skPrf opt M) S.pkSeed root M S.P.m)) (j : Nat) (hj : j < S.P.d) :
    (signedValues S.P S.hf pk M (signBlocks S.P S.hf D.sk S.pkSeed skPrf root opt M).flatten).getD j [] = D.msgAt j := by
  have hn : 0 < S.n := by have : 16 ≤ S.n := S.facts.n16; omega
  have hb := blocks_flatten S.n hn _ (signBlocks_len (S := S) D.sk skPrf root opt M) []
  rw [List.append_nil, show blocks S.n [] = [] by unfold blocks; simp, List.append_nil] at hb
  unfold signedValues
  dsimp only
  rw [show blocks S.P.n _ = _ from hb, show pk.take S.P.n = _ from h1, show (pk.drop S.P.n).take S.P.n = _ from h2]
  unfold signBlocks
  dsimp only
  rw [List.append_assoc, show ∀ (a : Bytes) (l : List Bytes), ([a] ++ l).headD [] = a from fun _ _ => rfl, show ∀ (a : Bytes) (l : List Bytes), ([a] ++ l).tail = l from fun _ _ => rfl]
  rw [← ht, ← hl, ← hi, List.take_left' (length_forsSign _ _ _ _ _ _ _), List.drop_left' (length_forsSign _ _ _ _ _ _ _), fors_honest _ _ _ _ _ _ _ D.hidx]
  have := layerValues_getD D S.P.d 0 j (by omega) hj
  rw [Nat.zero_add] at this
  rw [← this]
  have e : D.treeAt 0 = D.tree := by unfold SignData.treeAt; rw [Nat.mul_zero, Nat.pow_zero, Nat.div_one]
  unfold SignData.restHt
  rw [e]
  rfl

/-! ## The digits are those that can be computed from the signature -/

theorem getElem?_of_getD {x y : Bytes} {i k : Nat} (hx : i < x.length) (hy : k < y.length) (h : (x.getD i 0).toNat = (y.getD k 0).toNat) : x[i]? = y[k]? := by
  have h := UInt8.toNat_inj.mp h
  rw [List.getElem?_eq_getElem hx, List.getElem?_eq_getElem hy]
  rw [List.getD_eq_getElem?_getD, List.getD_eq_getElem?_getD, List.getElem?_eq_getElem hx, List.getElem?_eq_getElem hy] at h
  exact congrArg some h

theorem wots_state {S : Sess} {D : SignData S} {ph : Ph} {c : Ctx} (h : D.Inv ph c) (hs : c.state = .wots) :
    c.hypertree_level < S.P.d ∧ ∃ i, WotsX S (D.msgAt c.hypertree_level) i c.x := by
  cases ph with
  | wots j i =>
    obtain ⟨-, hj, -, -, hloc, -, hx⟩ := h
    have : c.hypertree_level = j := loc_hl hloc
    rw [this]
    exact ⟨hj, i, hx⟩
  | forsLeaf τ => obtain ⟨-, -, h, -⟩ := h; rw [hs] at h; cases h
  | fors τ l => obtain ⟨-, -, -, h, -⟩ := h; rw [hs] at h; cases h
  | merkle j l => obtain ⟨-, -, -, h, -⟩ := h; rw [hs] at h; cases h
  | done => obtain ⟨-, h⟩ := h; rw [hs] at h; cases h

theorem func_of {S : Sess} {mem : Mem} (D : SignData S) (hm : S.MemPub mem) (hs : S.MemSec mem D.sk) (digits : Nat → Bytes)
    (hd : ∀ j, j < S.P.d → digits j = (wotsDigits S.P (D.msgAt j)).map UInt8.ofNat) :
    Func S.E mem S.n digits (fun c => ∃ ph, D.Inv ph c) := by
  refine ⟨?_, fun c o ⟨ph, h⟩ => ⟨ph, h.bo o⟩, fun c ⟨ph, h⟩ => ctx_n h.good, ?_⟩
  · rintro c a ⟨ph, h⟩ e
    rcases sign_step D hm hs h with ⟨-, e'⟩ | ⟨ph', b, c', e', -, -, h', -⟩
    · rw [e] at e'; cases e'
    · rw [e] at e'; cases e'; exact ⟨ph', h'⟩
  · rintro c ⟨ph, h⟩ hw
    obtain ⟨hj, i, -, w⟩ := wots_state h hw
    have g := h.good
    have hlen : S.P.len = 2 * S.n + 3 := rfl
    have l1 := x_ge_digits _ g.toShape
    have d1 := digits_le (S := S)
    have hwl := length_wotsDigits S.P (D.msgAt c.hypertree_level)
    rw [hd _ hj]
    refine ⟨by rw [List.length_map, hwl]; exact hlen, by omega, fun q hq => ?_⟩
    have hq1 : 1 + q < c.x.length := by omega
    refine getElem?_of_getD hq1 (by rw [List.length_map]; exact (show q < S.P.len by omega).trans_eq hwl.symm) ?_
    rw [w q (by omega)]
    have hq' : q < (wotsDigits S.P (D.msgAt c.hypertree_level)).length := by omega
    have hlt := wotsDigits_getD_lt S.P (D.msgAt c.hypertree_level) q
    rw [getD_of_lt _ hq'] at hlt ⊢
    rw [getD_of_lt (List.map UInt8.ofNat _) (by rw [List.length_map]; omega), List.getElem_map, UInt8.toNat_ofNat', Nat.mod_eq_of_lt (by omega)]

/-! ## Initial contexts -/

theorem iterW_of {E E' : Env} {t t' : TIter} (h : WfIter t) (h' : WfIter t') : IterW E E' t t' :=
  ⟨(E.as256_len t h).trans (E'.as256_len t' h').symm, (E.as512_len t h).trans (E'.as512_len t' h').symm, (E.asShake_len t h).trans (E'.asShake_len t' h').symm⟩

theorem goodPs (E : Env) (x : PsName) : GoodPs (ps E.cfg x) := by
  cases x <;> exact ⟨rfl, rfl, Nat.le_of_ble_eq_true rfl, Nat.le_of_ble_eq_true rfl, Nat.le_of_ble_eq_true rfl⟩

theorem lowC_init {E E' : Env} (hE : E'.cfg = E.cfg) {c c' : Ctx} (h : Shape E.cfg c) (h' : Shape E'.cfg c') (x : PsName) (pk : Nat) :
    LowC E E' { ps := ps E.cfg x } { c with ps := ps E.cfg x, public_key := pk } { c' with ps := ps E.cfg x, public_key := pk } :=
  ⟨goodPs E x, rfl, rfl, rfl, (h.buf.trans (by rw [hE])).trans h'.buf.symm, (h.adr.trans (by rw [hE])).trans h'.adr.symm,
    (h.auth.trans (by rw [hE])).trans h'.auth.symm, iterW_of h.si h'.si, iterW_of h.bi h'.bi, fun h => h.elim,
    ⟨(h.x.trans (by rw [hE])).trans h'.x.symm, fun _ h => h.elim⟩, (fun _ h => by cases h), (fun _ h => by cases h), (fun _ h => by cases h)⟩

/-! ## The hash of the message -/

/-- The message hash that `ts_init_sign` computes. -/
theorem initHash_ok (S : Sess) {mem : Mem} {c : Ctx} {msg : Nat} {skPrf root M : Bytes} {rng : Option Rng} {priv : Nat} (hsh : Shape S.cfg c)
    (hpk : S.pk = priv + 2 * S.n) (hm : S.MemPub mem) (hp : S.MemPrf mem skPrf) (hr : S.MemRoot mem root)
    (hM : mem.Has msg M) (hl : M.length < 2 ^ 60) (hrng : ∀ f, rng = some f → RngOk f S.n) :
    ∃ r, (initHash S.E mem c msg M.length S.ps priv rng).res = .ok r ∧
      r.1.1 = S.hf.Hmsg (S.hf.PRFmsg skPrf (optRand rng S.pkSeed) M) S.pkSeed root M MAX_MESSAGE_HASH := by
  have F := S.facts
  have hmx := F.nmax
  let c0 : Ctx := { c with ps := S.ps, public_key := S.pk }
  obtain ⟨si1, p1, p2, e1, g1⟩ := call_prehash_ok (S := S) (mem := mem) (ctx := c0) rfl rfl hm ⟨hsh.adr, hsh.buf, hsh.auth, hsh.x, hsh.si, hsh.bi⟩
  generalize hc1 : ({ c0 with small_iter := si1, prehash_sha256 := p1, prehash_sha512 := p2 } : Ctx) = c1 at *
  obtain ⟨b', ho1, ho3, ho4⟩ := fillOptBuffer_ok (S := S) (mem := mem) hm rng hrng
  obtain ⟨si2, e2, w2⟩ := call_prf_msg_ok (mem := mem) (ctx := c1) (out := c1.buffer) (opt := b') g1 hp hM hl (by rw [g1.buf]; exact hmx) ho3
  rw [ho4] at e2
  obtain ⟨R, hR⟩ : ∃ R, R = S.hf.PRFmsg skPrf (optRand rng S.pkSeed) M := ⟨_, rfl⟩
  rw [← hR] at e2 ⊢
  have hRl : R.length = S.n := by rw [hR]; exact length_PRFmsg _ _ _
  let c2 : Ctx := { c1 with small_iter := si2, buffer := R ++ c1.buffer.drop S.n }
  have g2 : Good S c2 := ⟨⟨g1.adr, by
    show (R ++ c1.buffer.drop S.n).length = _
    rw [List.length_append, List.length_drop, g1.buf]; omega, g1.auth, g1.x, w2, g1.bi⟩, g1.ps, g1.pk, g1.pre⟩
  have hll : (S.E.local 10 MAX_MESSAGE_HASH).length = MAX_MESSAGE_HASH := S.E.local_len _ _
  obtain ⟨si3, e3, w3⟩ := call_hash_msg_ok (mem := mem) (ctx := c2) (out := S.E.local 10 MAX_MESSAGE_HASH) (rnd := c2.buffer) (len := MAX_MESSAGE_HASH)
    g2 hm hr hM hl (by omega) (by rw [g2.buf]; exact hmx)
  have htk : c2.buffer.take S.n = R := take_left' hRl
  rw [htk, List.drop_of_length_le (by omega), List.append_nil] at e3
  refine ⟨((_, { c2 with small_iter := si3 }), reqs rng S.n), ?_, rfl⟩
  unfold initHash
  simp only [lk, F.pn]
  have hc0 : ({ c with ps := S.ps, public_key := priv + 2 * S.n } : Ctx) = c0 := by
    show _ = ({ c with ps := S.ps, public_key := S.pk } : Ctx); rw [hpk]
  rw [hc0, e1, ok_bind]
  rw [show c1.public_key = S.pk from g1.pk]
  rw [ho1, ok_bind, e2, ok_bind]
  simp only
  rw [show Model.call_hash_msg S.E mem (S.E.local 10 MAX_MESSAGE_HASH) MAX_MESSAGE_HASH (R ++ c1.buffer.drop S.n) msg M.length _ = _ from e3, ok_bind]
  rw [show c2.public_key = S.pk from g1.pk]

/-! ## Signature operations -/

theorem signCalls_res (E : Env) (mem : Mem) (c : Ctx) (rs : List (Bytes × Nat)) : (signCalls E mem c rs).res = Model.signCalls E mem c rs := by
  induction rs generalizing c with
  | nil => rfl
  | cons r rs ih =>
    obtain ⟨dest, m⟩ := r
    unfold signCalls Model.signCalls
    simp only [lk, ih]

theorem signCalls_rel {E E' : Env} {mem mem' : Mem} (hE : E'.cfg = E.cfg) (hm : MemLow mem mem') {n : Nat} {digits : Nat → Bytes} {G : Ctx → Prop}
    (F : Func E mem n digits G) (rs : List (Bytes × Nat)) {c c' : Ctx} (h : Inv E E' c c') (g : G c) :
    RelP (fun _ _ => True) (signCalls E mem c rs) (simCalls E' mem' digits c' (rs.map fun r => (r.1.length, r.2))) := by
  induction rs generalizing c c' with
  | nil => exact rel_ok trivial
  | cons r rs ih =>
    obtain ⟨dest, m⟩ := r
    unfold signCalls
    rw [List.map_cons]
    unfold simCalls
    refine rel_bind (ts_sign_rel hE hm F (show dest.length = _ by rw [List.length_replicate]) m h g) fun a b hab => ?_
    have := ih hab.1.2.2 hab.2
    exact rel_bindR this fun _ _ _ => rel_ok trivial

theorem mapped_low (m : Mem) : MemLow m (zeroMem (mapped m)) := by
  intro a
  unfold zeroMem mapped
  cases m a <;> rfl

theorem rngShape_low (n : Nat) (f : Option Rng) : RngLow n f (zeroRng (rngShape n f)) := by
  cases f with
  | none => trivial
  | some f => exact ⟨rfl, by simp⟩

/-- The events of a signature operation are those of the simulator. -/
theorem signRun_rel (J : SignJob) (rs : List (Bytes × Nat)) :
    RelP (fun _ _ => True) (signRun J rs) (simSignRun J.E.cfg J.x J.priv J.msg (mapped J.mem) (rngShape J.x.P.n J.rng) (J.sk.drop (2 * J.x.P.n)) J.M J.signature
      (rs.map fun r => (r.1.length, r.2))) := by
  obtain ⟨E, x, sup, mem, priv, sk, msg, M, rng, c0, shape, skLen, hasKey, hasMsg, msgLen, rngOk⟩ := J
  dsimp only
  let S := skSess E x sup priv sk skLen
  obtain ⟨k1, k2, k3, k4⟩ := key_mem skLen hasKey
  obtain ⟨-, l1, l2, l3, l4⟩ := key_split skLen
  have hsec : S.MemSec mem (sk.take x.P.n) := ⟨by show 2 * x.P.n ≤ priv + 2 * x.P.n; omega, l1, by
      show mem.Has (priv + 2 * x.P.n - 2 * x.P.n) _
      rw [Nat.add_sub_cancel]; exact k1⟩
  have hprf : S.MemPrf mem ((sk.drop x.P.n).take x.P.n) := ⟨by show x.P.n ≤ priv + 2 * x.P.n; omega, l2, by
      show mem.Has (priv + 2 * x.P.n - x.P.n) _
      rw [show priv + 2 * x.P.n - x.P.n = priv + x.P.n by omega]; exact k2⟩
  have hrt : S.MemRoot mem ((sk.drop (3 * x.P.n)).take x.P.n) := ⟨l4, by
      show mem.Has (priv + 2 * x.P.n + x.P.n) _
      rw [show priv + 2 * x.P.n + x.P.n = priv + 3 * x.P.n by omega]; exact k4⟩
  obtain ⟨c, D, hD, hi, inv, hbo, -, ht, hlf, hix⟩ := ts_init_sign_data (S := S) (mem := mem) (c := c0) (msg := msg) (rng := rng) (priv := priv) shape rfl k3 hsec hprf hrt hasMsg msgLen rngOk
  obtain ⟨r, hr1, hr2⟩ := initHash_ok S shape rfl k3 hprf hrt hasMsg msgLen rngOk
  have F := S.facts
  have hpn : (ps E.cfg x).n = x.P.n := F.pn
  have hz : Shape (zeroEnv E.cfg).cfg (zeroCtx (zeroEnv E.cfg) (ps E.cfg x)) :=
    ⟨by simp [zeroCtx], by simp [zeroCtx], by simp [zeroCtx], by simp [zeroCtx], trivial, trivial⟩
  unfold signRun simSignRun
  dsimp only
  rw [ts_init_sign_split]
  have hrl : RngLow (ps E.cfg x).n rng (zeroRng (rngShape x.P.n rng)) := by rw [hpn]; exact rngShape_low _ _
  refine rel_bind (R := fun a b => (Inv E (zeroEnv E.cfg) a.1 b.1 ∧ a.2 = b.2) ∧
    (ts_init_sign E mem c0 msg M.length (ps E.cfg x) priv rng).res = .ok a) (?_ : RelP _ (frame .ts_init_sign _) (frame .ts_init_sign _)) ?_
  · rw [ts_init_sign_split]
    refine (rel_frame (rel_bind (initHash_rel (E := E) (E' := zeroEnv E.cfg) rfl (mapped_low mem) (lowC_init (E := E) (E' := zeroEnv E.cfg) rfl shape hz x _) (by omega) hrl).res ?_)).res.mono fun a b h => ⟨h.1, h.2.1⟩
    rintro ⟨⟨mh, c1⟩, rq⟩ ⟨⟨mh', c1'⟩, rq'⟩ ⟨⟨hlow, rfl⟩, q1, -⟩
    have hmh : mh = pubDigest x (sk.drop (2 * x.P.n)) M (SignJob.signature ⟨E, x, sup, mem, priv, sk, msg, M, rng, c0, shape, skLen, hasKey, hasMsg, msgLen, rngOk⟩) := by
      have q2 : (initHash E mem c0 msg M.length (ps E.cfg x) priv rng).res = .ok r := hr1
      rw [q1] at q2
      cases q2
      rw [show mh = _ from hr2]
      unfold pubDigest SignJob.signature
      rw [sign_eq]
      unfold signBlocks
      dsimp only
      rw [List.append_assoc, List.flatten_append, List.flatten_cons, List.flatten_nil, List.append_nil]
      rw [take_left' (show (x.fns.PRFmsg ((sk.drop x.P.n).take x.P.n) (optRand rng (skPkSeed x.P.n sk)) M).length = x.P.n from length_PRFmsg (S := S) _ _ _), List.drop_drop]
      rw [show 2 * x.P.n + x.P.n = 3 * x.P.n by omega]
      rfl
    rw [← hmh]
    exact initRest_rel (E := E) (E' := zeroEnv E.cfg) rfl (mapped_low mem) hlow mh rq
  rintro ⟨c2, rq2⟩ ⟨c2', rq2'⟩ ⟨⟨hinv, rfl⟩, q2⟩
  have hc : c2 = c := by
    have hi' : (ts_init_sign E mem c0 msg M.length (ps E.cfg x) priv rng).res = .ok (c, reqs rng S.n) := (ts_init_sign_res ..).trans hi
    rw [q2] at hi'
    cases hi'; rfl
  subst hc
  have fn := func_of D k3 (hD ▸ hsec) (pubDigits x (sk.drop (2 * x.P.n)) M (SignJob.signature ⟨E, x, sup, mem, priv, sk, msg, M, rng, c0, shape, skLen, hasKey, hasMsg, msgLen, rngOk⟩)) fun j hj => by
    unfold pubDigits SignJob.signature
    rw [sign_eq]
    have := signedValues_getD D (pk := sk.drop (2 * x.P.n)) rfl (by rw [List.drop_drop, show 2 * x.P.n + S.n = 3 * x.P.n by show 2 * x.P.n + x.P.n = _; omega]; rfl) ht hlf hix j hj
    rw [hD] at this
    rw [← this]
    rfl
  refine rel_bindR (signCalls_rel (E := E) (E' := zeroEnv E.cfg) rfl (mapped_low mem) fn rs hinv ⟨_, inv⟩) fun _ _ _ => rel_ok trivial

/-- The events of key generation are those of the simulator. -/
theorem genKey_rel (E : Env) (mem : Mem) (priv pub : Option Nat) (x : PsName) (rng : Option Rng) :
    RelP (fun _ _ => True) (ts_gen_key E mem priv pub (some (ps E.cfg x)) rng)
      (simGenKey E.cfg (some x) priv pub (mapped mem) (rngShape (3 * x.P.n) rng)) := by
  have hpn : (ps E.cfg x).n = x.P.n := by cases x <;> rfl
  unfold simGenKey
  have h := ts_gen_key_rel (E := E) (E' := zeroEnv E.cfg) rfl (mapped_low mem) priv pub (some (ps E.cfg x)) (fun p h => by cases h; exact goodPs E x)
    (f := rng) (g := zeroRng (rngShape (3 * x.P.n) rng)) (fun p h => by cases h; rw [hpn]; exact rngShape_low _ _) (by cases rng <;> rfl)
  refine ⟨?_, ?_⟩
  · rw [h.1]
    show _ = (L.bind _ _).log
    unfold L.bind
    dsimp only [Option.map]
    cases (ts_gen_key (zeroEnv E.cfg) (zeroMem (mapped mem)) priv pub (some (ps E.cfg x)) (zeroRng (rngShape (3 * x.P.n) rng))).res with
    | error e => rfl
    | ok a => exact (List.append_nil _).symm
  · have h2 := h.2
    revert h2
    show _ → Out _ _ (L.bind _ _).res
    unfold L.bind
    dsimp only [Option.map]
    cases (ts_gen_key (zeroEnv E.cfg) (zeroMem (mapped mem)) priv pub (some (ps E.cfg x)) (zeroRng (rngShape (3 * x.P.n) rng))).res <;>
      cases (ts_gen_key E mem priv pub (some (ps E.cfg x)) rng).res <;> simp [Out, L.ok]

end Leak
