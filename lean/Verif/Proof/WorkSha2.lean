import Verif.Proof.WorkShake
import Verif.Proof.Setup
/-!
# What the hash functions of the parameter sets cost
-/
namespace Leak.Work
open Model Spec Spec.Work

variable {p : Prim} {E : Env} {mem : Mem}

/-- A loop whose cost is the difference of what has been paid before and after. -/
theorem cost_loop_acc {M : Meter} {body : Nat → σ → L σ} {I : Nat → σ → Prop} {A : Nat → Nat} {count start : Nat} {s : σ}
    (hb : ∀ i s, I i s → Cost M (body i s) fun s' k => k + A i = A (i + 1) ∧ I (i + 1) s') (h : I start s) :
    Cost M (loop body count start s) fun s' k => k + A start = A (start + count) ∧ I (start + count) s' := by
  induction count generalizing start s with
  | zero =>
    intro a e; cases e
    refine ⟨?_, h⟩
    show M.total [.br false] + _ = _
    rw [total_cons, M.plain _ rfl]
    show 0 + 0 + A start = A start
    omega
  | succ count ih =>
    rw [loop_log]
    refine cost_bind0 (idle_br _) fun _ _ => cost_bind (hb start s h) fun a k _ ⟨hk, ha⟩ => cost_mono (ih ha) fun b k' _ ⟨hk', hb'⟩ => ⟨?_, ?_⟩
    · rw [show start + (count + 1) = start + 1 + count by omega]; omega
    · rw [show start + (count + 1) = start + 1 + count by omega]; exact hb'

theorem length_secSeed {pk n : Nat} (r : Bytes) (h : (secSeed mem pk n).res = .ok r) : r.length = n :=
  (post_bind post_any fun _ _ => length_memRead : Post (secSeed mem pk n) fun r => r.length = n) r h

theorem length_secPrf {pk n : Nat} (r : Bytes) (h : (secPrf mem pk n).res = .ok r) : r.length = n :=
  (post_bind post_any fun _ _ => length_memRead : Post (secPrf mem pk n) fun r => r.length = n) r h

theorem length_wrSlice {a v : List α} {i : Nat} (r : List α) (h : (wrSlice a i v).res = .ok r) : r.length = a.length := by
  rw [res_wrSlice] at h
  unfold Model.wrSlice at h
  split at h
  · cases h
    simp only [List.length_append, List.length_take, List.length_drop]
    omega
  · cases h

theorem length_wr {a : List α} {i : Nat} {v : α} : Post (wr a i v) fun r => r.length = a.length := post_wr (List.length_set ..)

theorem length_hmacBlock {block key : Bytes} {pad : UInt8} {n : Nat} (r : Bytes) (h : (hmacBlock block key pad n).res = .ok r) : r.length = block.length := by
  refine (post_bind (post_loop (I := fun b : Bytes => b.length = block.length) (fun i b hb => ?_) rfl) fun b hb => ?_ :
    Post (hmacBlock block key pad n) fun r => r.length = block.length) r h
  · exact post_bind post_any fun _ _ => fun r e => by rw [length_wr r e, hb]
  · exact fun r e => by rw [length_wrSlice r e, hb]


namespace Sha256

theorem length_final_trunc {d : Bytes} {c : Model.Sha256.Ctx} {n : Nat} : Post (Leak.Sha256.final_trunc d c n) fun r => r.1.length = d.length := by
  unfold Leak.Sha256.final_trunc
  refine post_frame (post_bind post_any fun _ _ => post_bind post_any fun _ _ => post_bind post_any fun _ _ => post_bind post_any fun _ _ => ?_)
  refine post_bind post_any fun _ _ => post_bind (post_loop (I := fun b : Bytes => b.length = d.length) (fun i b hb => ?_) rfl) fun b hb => post_ok hb
  exact post_bind post_any fun _ _ => fun r e => by rw [length_ull r e, hb]

theorem length_final {d : Bytes} {c : Model.Sha256.Ctx} : Post (Leak.Sha256.final d c) fun r => r.1.length = d.length :=
  post_frame length_final_trunc

theorem cost_take {c : Model.Sha256.Ctx} {src : Bytes} {L m : Nat} (h : c.num = L % 64) (hl : src.length = m) :
    Cost (meter p) (Leak.Sha256.update c src) fun c' k => k + only p .sha256 (full .sha256 L) = only p .sha256 (full .sha256 (L + m)) ∧ c'.num = (L + m) % 64 := by
  rw [← hl]; exact cost_update src h

/-- The block with the seed, computed. -/
theorem cost_seedBlock {n pk : Nat} (hn : n ≤ 64) (c : Model.Sha256.Ctx) : Cost (meter p) (do
      let ctx ← Leak.Sha256.update (Model.Sha256.init c) (← pubSeed mem pk n)
      loop (fun _ ctx => Leak.Sha256.update ctx [0]) (64 - n) n ctx) fun c' k => k = only p .sha256 1 ∧ c'.num = 64 % 64 := by
  refine cost_bind0 (by idle) fun sd es => cost_bind (cost_take (L := 0) rfl (length_memRead _ es)) fun c1 k1 _ ⟨hk1, h1⟩ => ?_
  rw [Nat.zero_add] at hk1 h1
  refine cost_mono (cost_loop_acc (I := fun i c => c.num = i % 64) (A := fun i => only p .sha256 (full .sha256 i)) (fun i c h => cost_take h rfl) h1) fun c2 k2 _ ⟨hk2, h2⟩ => ?_
  rw [show n + (64 - n) = 64 by omega] at hk2 h2
  refine ⟨?_, h2⟩
  revert hk1 hk2
  simp only [only, full, rate]
  split <;> omega

/-- The state after the block with the seed, kept or computed. -/
theorem cost_init_ctx {sc : Ctx} (hn : sc.ps.n ≤ 64) (c : Model.Sha256.Ctx) :
    Cost (meter p) (ts_sha256_init_ctx E mem c sc) fun c' k =>
      k + only p .sha256 (saved E.cfg.sha2opt .sha256) = only p .sha256 (full .sha256 64) ∧ c'.num = 64 % 64 := by
  unfold ts_sha256_init_ctx
  refine cost_frame ?_
  cases hb : E.cfg.sha2opt with
  | true =>
    rw [if_pos rfl]
    exact cost_ok ⟨by rw [Nat.zero_add]; rfl, rfl⟩
  | false =>
    rw [if_neg (by decide)]
    refine cost_mono (cost_seedBlock hn c) fun c' k _ ⟨hk, h⟩ => ⟨?_, h⟩
    rw [hk]
    simp only [only, full, rate, saved]
    split <;> simp

/-- The start of a hash: seed block and address. -/
theorem cost_adr {sc : Ctx} (hn : sc.ps.n ≤ 64) (c : Model.Sha256.Ctx) : Cost (meter p) (do
      let ctx ← ts_sha256_init_ctx E mem c sc
      Leak.Sha256.update ctx (← rdSlice sc.adr 0 SHA2_ADR_SIZE)) fun c' k =>
        k + only p .sha256 (saved E.cfg.sha2opt .sha256) = only p .sha256 (full .sha256 (64 + 22)) ∧ c'.num = (64 + 22) % 64 := by
  refine cost_bind (cost_init_ctx hn c) fun c1 k1 _ ⟨hk1, h1⟩ => cost_bind0 (by idle) fun a ea => ?_
  refine cost_mono (cost_take h1 (length_rdSlice _ ea)) fun c2 k2 _ ⟨hk2, h2⟩ => ⟨?_, h2⟩
  rw [show SHA2_ADR_SIZE = 22 from rfl] at hk2
  omega

end Sha256

namespace Sha512

theorem length_final_trunc {d : Bytes} {c : Model.Sha512.Ctx} {n : Nat} : Post (Leak.Sha512.final_trunc d c n) fun r => r.1.length = d.length := by
  unfold Leak.Sha512.final_trunc
  refine post_frame (post_bind post_any fun _ _ => post_bind post_any fun _ _ => post_bind post_any fun _ _ => post_bind post_any fun _ _ => ?_)
  refine post_bind post_any fun _ _ => post_bind (post_loop (I := fun b : Bytes => b.length = d.length) (fun i b hb => ?_) rfl) fun b hb => post_ok hb
  exact post_bind post_any fun _ _ => fun r e => by rw [length_ull r e, hb]

theorem length_final {d : Bytes} {c : Model.Sha512.Ctx} : Post (Leak.Sha512.final d c) fun r => r.1.length = d.length :=
  post_frame length_final_trunc

theorem cost_take {c : Model.Sha512.Ctx} {src : Bytes} {L m : Nat} (h : c.num = L % 128) (hl : src.length = m) :
    Cost (meter p) (Leak.Sha512.update c src) fun c' k => k + only p .sha512 (full .sha512 L) = only p .sha512 (full .sha512 (L + m)) ∧ c'.num = (L + m) % 128 := by
  rw [← hl]; exact cost_update src h

/-- The block with the seed, computed. -/
theorem cost_seedBlock {n pk : Nat} (hn : n ≤ 128) (c : Model.Sha512.Ctx) : Cost (meter p) (do
      let ctx ← Leak.Sha512.update (Model.Sha512.init c) (← pubSeed mem pk n)
      loop (fun _ ctx => Leak.Sha512.update ctx [0]) (128 - n) n ctx) fun c' k => k = only p .sha512 1 ∧ c'.num = 128 % 128 := by
  refine cost_bind0 (by idle) fun sd es => cost_bind (cost_take (L := 0) rfl (length_memRead _ es)) fun c1 k1 _ ⟨hk1, h1⟩ => ?_
  rw [Nat.zero_add] at hk1 h1
  refine cost_mono (cost_loop_acc (I := fun i c => c.num = i % 128) (A := fun i => only p .sha512 (full .sha512 i)) (fun i c h => cost_take h rfl) h1) fun c2 k2 _ ⟨hk2, h2⟩ => ?_
  rw [show n + (128 - n) = 128 by omega] at hk2 h2
  refine ⟨?_, h2⟩
  revert hk1 hk2
  simp only [only, full, rate]
  split <;> omega

/-- The state after the block with the seed, kept or computed. -/
theorem cost_init_ctx {sc : Ctx} (hn : sc.ps.n ≤ 128) (c : Model.Sha512.Ctx) :
    Cost (meter p) (ts_sha512_init_ctx E mem c sc) fun c' k =>
      k + only p .sha512 (saved E.cfg.sha2opt .sha512) = only p .sha512 (full .sha512 128) ∧ c'.num = 128 % 128 := by
  unfold ts_sha512_init_ctx
  refine cost_frame ?_
  cases hb : E.cfg.sha2opt with
  | true =>
    rw [if_pos rfl]
    exact cost_ok ⟨by rw [Nat.zero_add]; rfl, rfl⟩
  | false =>
    rw [if_neg (by decide)]
    refine cost_mono (cost_seedBlock hn c) fun c' k _ ⟨hk, h⟩ => ⟨?_, h⟩
    rw [hk]
    simp only [only, full, rate, saved]
    split <;> simp

/-- The start of a hash: seed block and address. -/
theorem cost_adr {sc : Ctx} (hn : sc.ps.n ≤ 128) (c : Model.Sha512.Ctx) : Cost (meter p) (do
      let ctx ← ts_sha512_init_ctx E mem c sc
      Leak.Sha512.update ctx (← rdSlice sc.adr 0 SHA2_ADR_SIZE)) fun c' k =>
        k + only p .sha512 (saved E.cfg.sha2opt .sha512) = only p .sha512 (full .sha512 (128 + 22)) ∧ c'.num = (128 + 22) % 128 := by
  refine cost_bind (cost_init_ctx hn c) fun c1 k1 _ ⟨hk1, h1⟩ => cost_bind0 (by idle) fun a ea => ?_
  refine cost_mono (cost_take h1 (length_rdSlice _ ea)) fun c2 k2 _ ⟨hk2, h2⟩ => ⟨?_, h2⟩
  rw [show SHA2_ADR_SIZE = 22 from rfl] at hk2
  omega

end Sha512

/-! ## SHA-256 for `PRF` and `F` -/

theorem only_sub {q : Prim} {k a b : Nat} (h : k + only p q b = only p q a) (hb : b ≤ a) : k = only p q (a - b) := by
  revert h
  unfold only
  split <;> omega

theorem saved_le (b : Bool) (q : Prim) : saved b q ≤ 1 := by cases q <;> cases b <;> decide

theorem cost_sha2_prf {sc : Ctx} {n : Nat} (hn : sc.ps.n = n) (h64 : n ≤ 64) (o : Bytes) :
    Cost (meter p) (ts_sha2_prf E mem o sc) fun _ k => k = only p .sha256 (whole .sha256 (head .sha256 n + n) - saved E.cfg.sha2opt .sha256) := by
  unfold ts_sha2_prf
  refine cost_frame ?_
  dsimp only
  rw [hn]
  refine cost_bind (Sha256.cost_init_ctx (by omega) _) fun c1 k1 _ ⟨hk1, h1⟩ => cost_bind0 (by idle) fun a ea => ?_
  refine cost_bind (Sha256.cost_take h1 (length_rdSlice _ ea)) fun c2 k2 _ ⟨hk2, h2⟩ => cost_bind0 (by idle) fun s es => ?_
  refine cost_bind (Sha256.cost_take h2 (length_secSeed _ es)) fun c3 k3 _ ⟨hk3, h3⟩ => cost_bind (Sha256.cost_final_trunc _ _ h3) fun r k4 _ hk4 => ?_
  refine cost_ok (only_sub ?_ (Nat.le_trans (saved_le _ _) (Nat.le_add_left _ _)))
  rw [show head .sha256 n + n = 64 + SHA2_ADR_SIZE + n from rfl]
  omega

theorem cost_sha2_f {sc : Ctx} {n : Nat} (hn : sc.ps.n = n) (h64 : n ≤ 64) (o i : Bytes) :
    Cost (meter p) (ts_sha2_f_simple E mem o i sc) fun _ k => k = only p .sha256 (whole .sha256 (head .sha256 n + n) - saved E.cfg.sha2opt .sha256) := by
  unfold ts_sha2_f_simple
  refine cost_frame ?_
  dsimp only
  rw [hn]
  refine cost_bind (Sha256.cost_init_ctx (by omega) _) fun c1 k1 _ ⟨hk1, h1⟩ => cost_bind0 (by idle) fun a ea => ?_
  refine cost_bind (Sha256.cost_take h1 (length_rdSlice _ ea)) fun c2 k2 _ ⟨hk2, h2⟩ => cost_bind0 (by idle) fun s es => ?_
  refine cost_bind (Sha256.cost_take h2 (length_rdSlice _ es)) fun c3 k3 _ ⟨hk3, h3⟩ => cost_bind (Sha256.cost_final_trunc _ _ h3) fun r k4 _ hk4 => ?_
  refine cost_ok (only_sub ?_ (Nat.le_trans (saved_le _ _) (Nat.le_add_left _ _)))
  rw [show head .sha256 n + n = 64 + SHA2_ADR_SIZE + n from rfl]
  omega


/-! ## The functions `ts_sha2_L1_*` -/
namespace L1

/-- The iterator has taken in `i` inputs. -/
def At (E : Env) (n : Nat) (t : TIter) (i : Nat) : Prop := (E.as256 t).num = (head .sha256 n + i * n) % 64

theorem cost_init {sc : Ctx} {n : Nat} (hn : sc.ps.n = n) (hB : n ≤ 64) (t : TIter) :
    Cost (meter p) (ts_sha2_L1_init_t_simple E mem t sc) fun t k => k = only p .sha256 (full .sha256 (head .sha256 n) - saved E.cfg.sha2opt .sha256) ∧ At E n t 0 := by
  unfold ts_sha2_L1_init_t_simple
  refine cost_frame ?_
  refine cost_bind (Sha256.cost_init_ctx (by omega) _) fun c1 k1 _ ⟨hk1, h1⟩ => cost_bind0 (by idle) fun a ea => ?_
  refine cost_bind (Sha256.cost_take h1 (length_rdSlice _ ea)) fun c2 k2 _ ⟨hk2, h2⟩ => cost_ok ⟨only_sub ?_ (Nat.le_trans (saved_le _ _) (show 1 ≤ (64 + 22) / 64 by omega)), ?_⟩
  · rw [show head .sha256 n = 64 + SHA2_ADR_SIZE from rfl]
    omega
  · show c2.num = _
    rw [h2, Nat.zero_mul]
    rfl

theorem cost_next {sc : Ctx} {n i : Nat} (hn : sc.ps.n = n) {t : TIter} (b : Bytes) (h : At E n t i) :
    Cost (meter p) (ts_sha2_L1_next_t_simple E t b sc) fun t k =>
      k = only p .sha256 (full .sha256 (head .sha256 n + (i + 1) * n) - full .sha256 (head .sha256 n + i * n)) ∧ At E n t (i + 1) := by
  unfold ts_sha2_L1_next_t_simple
  refine cost_frame ?_
  rw [hn]
  refine cost_bind0 (by idle) fun a ea => cost_bind (Sha256.cost_take h (length_rdSlice _ ea)) fun c2 k2 _ ⟨hk2, h2⟩ => cost_ok ?_
  rw [show head .sha256 n + i * n + n = head .sha256 n + (i + 1) * n by rw [Nat.succ_mul]; omega] at hk2 h2
  refine ⟨only_sub hk2 (Nat.div_le_div_right ?_), h2⟩
  rw [Nat.succ_mul]; omega

theorem full_le_whole (q : Prim) (m : Nat) : full q m ≤ whole q m := by
  unfold full whole
  exact Nat.le_succ_of_le (Nat.div_le_div_right (Nat.le_add_right _ _))

theorem cost_final {sc : Ctx} {n i : Nat} {t : TIter} (o : Bytes) (h : At E n t i) :
    Cost (meter p) (ts_sha2_L1_final_t_simple E o t sc) fun _ k =>
      k = only p .sha256 (whole .sha256 (head .sha256 n + i * n) - full .sha256 (head .sha256 n + i * n)) := by
  unfold ts_sha2_L1_final_t_simple
  refine cost_frame ?_
  exact cost_bind (Sha256.cost_final_trunc _ _ h) fun r k hr hk => cost_ok (only_sub hk (full_le_whole _ _))

theorem cost_prf_msg {sc : Ctx} {n : Nat} (hn : sc.ps.n = n) (o r : Bytes) (msg len : Nat) :
    Cost (meter p) (ts_sha2_L1_prf_msg E mem o r msg len sc) fun _ k =>
      k = only p .sha256 (whole .sha256 (64 + n + len) + whole .sha256 (64 + 32)) := by
  unfold ts_sha2_L1_prf_msg
  refine cost_frame ?_
  dsimp only
  rw [hn]
  refine cost_bind0 (by idle) fun key ekey => cost_bind0 (by idle) fun blk eblk => ?_
  have lblk : blk.length = 64 := by rw [length_hmacBlock _ eblk, Env.local_len]
  refine cost_bind (Sha256.cost_take (L := 0) rfl lblk) fun c1 k1 _ ⟨hk1, h1⟩ => cost_bind0 (by idle) fun ob eob => ?_
  refine cost_bind (Sha256.cost_take h1 (length_rdSlice _ eob)) fun c2 k2 _ ⟨hk2, h2⟩ => cost_bind0 (by idle) fun m em => ?_
  refine cost_bind (Sha256.cost_take h2 (length_memRead _ em)) fun c3 k3 _ ⟨hk3, h3⟩ => ?_
  refine cost_bind (cost_with (Sha256.cost_final _ h3) Sha256.length_final) fun r k4 _ ⟨hk4, hl⟩ => ?_
  obtain ⟨ho, c4⟩ := r
  dsimp only at hl ⊢
  rw [Env.local_len] at hl
  refine cost_bind0 (by idle) fun blk2 eblk2 => ?_
  have lblk2 : blk2.length = 64 := by rw [length_hmacBlock _ eblk2, lblk]
  refine cost_bind (Sha256.cost_take (L := 0) rfl lblk2) fun c5 k5 _ ⟨hk5, h5⟩ => cost_bind (Sha256.cost_take h5 hl) fun c6 k6 _ ⟨hk6, h6⟩ => ?_
  refine cost_bind (Sha256.cost_final_trunc _ _ h6) fun r k7 _ hk7 => cost_ok ?_
  rw [Nat.zero_add] at *
  revert hk1 hk2 hk3 hk4 hk5 hk6 hk7
  unfold only
  split
  · have : full .sha256 0 = 0 := rfl
    omega
  · omega

theorem cost_mgf1 {n : Nat} : ∀ (fuel i : Nat) (mh o : Bytes) (off len : Nat) (c : Model.Sha256.Ctx),
    Cost (meter p) (mgf1Loop256 E n fuel i mh o off len c) fun _ k => k = (len + 32 - 1) / 32 * only p .sha256 (whole .sha256 (2 * n + 32 + 4)) := by
  intro fuel
  induction fuel with
  | zero => intro i mh o off len c a e; cases e
  | succ fuel ih =>
    intro i mh o off len c
    unfold mgf1Loop256
    refine cost_branch (fun h => cost_ok (by subst h; simp)) fun h => ?_
    refine cost_bind0 (by idle) fun mh' _ => ?_
    dsimp only
    refine cost_bind0 (by idle) fun src es => cost_bind (Sha256.cost_take (L := 0) rfl (length_rdSlice _ es)) fun c1 k1 _ ⟨hk1, h1⟩ => ?_
    refine cost_bind (Sha256.cost_final _ h1) fun r k2 _ hk2 => ?_
    obtain ⟨buf, c2⟩ := r
    dsimp only
    refine cost_bind0 (by idle) fun bytes eb => cost_bind0 (by idle) fun x _ => cost_bind0 (by idle) fun o' _ => cost_mono (ih _ _ _ _ _ _) fun _ k3 _ hk3 => ?_
    have hb : bytes = min len 32 := by
      refine (?_ : Post (lif len ≥ 32 then L.ok 32 else .ok len) fun b => b = min len 32) bytes eb
      intro b eb
      unfold branch at eb
      split at eb <;> cases eb <;> omega
    rw [hk3, show (len + 32 - 1) / 32 = (len - bytes + 32 - 1) / 32 + 1 by omega, Nat.add_mul, Nat.one_mul]
    rw [Nat.zero_add] at hk1 hk2
    have : only p .sha256 (full .sha256 0) = 0 := by unfold only; split <;> rfl
    omega

theorem cost_hash_msg {sc : Ctx} {n : Nat} (hn : sc.ps.n = n) (o : Bytes) (lo : Nat) (r : Bytes) (msg len : Nat) :
    Cost (meter p) (ts_sha2_L1_hash_msg E mem o lo r msg len sc) fun _ k =>
      k = only p .sha256 (whole .sha256 (3 * n + len) + (lo + 32 - 1) / 32 * whole .sha256 (2 * n + 32 + 4)) := by
  unfold ts_sha2_L1_hash_msg
  refine cost_frame ?_
  dsimp only
  rw [hn]
  refine cost_bind0 (by idle) fun rr er => cost_bind (Sha256.cost_take (L := 0) rfl (length_rdSlice _ er)) fun c1 k1 _ ⟨hk1, h1⟩ => ?_
  refine cost_bind0 (by idle) fun sd es => cost_bind (Sha256.cost_take h1 (length_memRead _ es)) fun c2 k2 _ ⟨hk2, h2⟩ => ?_
  refine cost_bind0 (by idle) fun rt et => cost_bind (Sha256.cost_take h2 (length_memRead _ et)) fun c3 k3 _ ⟨hk3, h3⟩ => ?_
  refine cost_bind0 (by idle) fun m em => cost_bind (Sha256.cost_take h3 (length_memRead _ em)) fun c4 k4 _ ⟨hk4, h4⟩ => ?_
  refine cost_bind0 (by idle) fun d _ => cost_bind (Sha256.cost_final _ h4) fun r k5 _ hk5 => ?_
  obtain ⟨dig, c5⟩ := r
  dsimp only
  refine cost_bind0 (by idle) fun _ _ => cost_bind0 (by idle) fun _ _ => cost_bind0 (by idle) fun _ _ => cost_bind (cost_mgf1 _ _ _ _ _ _ _) fun r k6 _ hk6 => ?_
  refine cost_ok ?_
  rw [hk6]
  rw [show 0 + n + n + n + len = 3 * n + len by omega] at hk4 hk5
  revert hk1 hk2 hk3 hk4 hk5
  unfold only
  split
  · have : full .sha256 0 = 0 := rfl
    omega
  · intros; omega

end L1

/-! ## The functions `ts_sha2_L35_*` -/
namespace L35

/-- The iterator has taken in `i` inputs. -/
def At (E : Env) (n : Nat) (t : TIter) (i : Nat) : Prop := (E.as512 t).num = (head .sha512 n + i * n) % 128

theorem cost_init {sc : Ctx} {n : Nat} (hn : sc.ps.n = n) (hB : n ≤ 128) (t : TIter) :
    Cost (meter p) (ts_sha2_L35_init_t_simple E mem t sc) fun t k => k = only p .sha512 (full .sha512 (head .sha512 n) - saved E.cfg.sha2opt .sha512) ∧ At E n t 0 := by
  unfold ts_sha2_L35_init_t_simple
  refine cost_frame ?_
  refine cost_bind (Sha512.cost_init_ctx (by omega) _) fun c1 k1 _ ⟨hk1, h1⟩ => cost_bind0 (by idle) fun a ea => ?_
  refine cost_bind (Sha512.cost_take h1 (length_rdSlice _ ea)) fun c2 k2 _ ⟨hk2, h2⟩ => cost_ok ⟨only_sub ?_ (Nat.le_trans (saved_le _ _) (show 1 ≤ (128 + 22) / 128 by omega)), ?_⟩
  · rw [show head .sha512 n = 128 + SHA2_ADR_SIZE from rfl]
    omega
  · show c2.num = _
    rw [h2, Nat.zero_mul]
    rfl

theorem cost_next {sc : Ctx} {n i : Nat} (hn : sc.ps.n = n) {t : TIter} (b : Bytes) (h : At E n t i) :
    Cost (meter p) (ts_sha2_L35_next_t_simple E t b sc) fun t k =>
      k = only p .sha512 (full .sha512 (head .sha512 n + (i + 1) * n) - full .sha512 (head .sha512 n + i * n)) ∧ At E n t (i + 1) := by
  unfold ts_sha2_L35_next_t_simple
  refine cost_frame ?_
  rw [hn]
  refine cost_bind0 (by idle) fun a ea => cost_bind (Sha512.cost_take h (length_rdSlice _ ea)) fun c2 k2 _ ⟨hk2, h2⟩ => cost_ok ?_
  rw [show head .sha512 n + i * n + n = head .sha512 n + (i + 1) * n by rw [Nat.succ_mul]; omega] at hk2 h2
  refine ⟨only_sub hk2 (Nat.div_le_div_right ?_), h2⟩
  rw [Nat.succ_mul]; omega

theorem full_le_whole (q : Prim) (m : Nat) : full q m ≤ whole q m := by
  unfold full whole
  exact Nat.le_succ_of_le (Nat.div_le_div_right (Nat.le_add_right _ _))

theorem cost_final {sc : Ctx} {n i : Nat} {t : TIter} (o : Bytes) (h : At E n t i) :
    Cost (meter p) (ts_sha2_L35_final_t_simple E o t sc) fun _ k =>
      k = only p .sha512 (whole .sha512 (head .sha512 n + i * n) - full .sha512 (head .sha512 n + i * n)) := by
  unfold ts_sha2_L35_final_t_simple
  refine cost_frame ?_
  exact cost_bind (Sha512.cost_final_trunc _ _ h) fun r k hr hk => cost_ok (only_sub hk (full_le_whole _ _))

theorem cost_prf_msg {sc : Ctx} {n : Nat} (hn : sc.ps.n = n) (o r : Bytes) (msg len : Nat) :
    Cost (meter p) (ts_sha2_L35_prf_msg E mem o r msg len sc) fun _ k =>
      k = only p .sha512 (whole .sha512 (128 + n + len) + whole .sha512 (128 + 64)) := by
  unfold ts_sha2_L35_prf_msg
  refine cost_frame ?_
  dsimp only
  rw [hn]
  refine cost_bind0 (by idle) fun key ekey => cost_bind0 (by idle) fun blk eblk => ?_
  have lblk : blk.length = 128 := by rw [length_hmacBlock _ eblk, Env.local_len]
  refine cost_bind (Sha512.cost_take (L := 0) rfl lblk) fun c1 k1 _ ⟨hk1, h1⟩ => cost_bind0 (by idle) fun ob eob => ?_
  refine cost_bind (Sha512.cost_take h1 (length_rdSlice _ eob)) fun c2 k2 _ ⟨hk2, h2⟩ => cost_bind0 (by idle) fun m em => ?_
  refine cost_bind (Sha512.cost_take h2 (length_memRead _ em)) fun c3 k3 _ ⟨hk3, h3⟩ => ?_
  refine cost_bind (cost_with (Sha512.cost_final _ h3) Sha512.length_final) fun r k4 _ ⟨hk4, hl⟩ => ?_
  obtain ⟨ho, c4⟩ := r
  dsimp only at hl ⊢
  rw [Env.local_len] at hl
  refine cost_bind0 (by idle) fun blk2 eblk2 => ?_
  have lblk2 : blk2.length = 128 := by rw [length_hmacBlock _ eblk2, lblk]
  refine cost_bind (Sha512.cost_take (L := 0) rfl lblk2) fun c5 k5 _ ⟨hk5, h5⟩ => cost_bind (Sha512.cost_take h5 hl) fun c6 k6 _ ⟨hk6, h6⟩ => ?_
  refine cost_bind (Sha512.cost_final_trunc _ _ h6) fun r k7 _ hk7 => cost_ok ?_
  rw [Nat.zero_add] at *
  revert hk1 hk2 hk3 hk4 hk5 hk6 hk7
  unfold only
  split
  · have : full .sha512 0 = 0 := rfl
    omega
  · omega

theorem cost_mgf1 {n : Nat} : ∀ (fuel i : Nat) (mh o : Bytes) (off len : Nat) (c : Model.Sha512.Ctx),
    Cost (meter p) (mgf1Loop512 E n fuel i mh o off len c) fun _ k => k = (len + 64 - 1) / 64 * only p .sha512 (whole .sha512 (2 * n + 64 + 4)) := by
  intro fuel
  induction fuel with
  | zero => intro i mh o off len c a e; cases e
  | succ fuel ih =>
    intro i mh o off len c
    unfold mgf1Loop512
    refine cost_branch (fun h => cost_ok (by subst h; simp)) fun h => ?_
    refine cost_bind0 (by idle) fun mh' _ => ?_
    dsimp only
    refine cost_bind0 (by idle) fun src es => cost_bind (Sha512.cost_take (L := 0) rfl (length_rdSlice _ es)) fun c1 k1 _ ⟨hk1, h1⟩ => ?_
    refine cost_bind (Sha512.cost_final _ h1) fun r k2 _ hk2 => ?_
    obtain ⟨buf, c2⟩ := r
    dsimp only
    refine cost_bind0 (by idle) fun bytes eb => cost_bind0 (by idle) fun x _ => cost_bind0 (by idle) fun o' _ => cost_mono (ih _ _ _ _ _ _) fun _ k3 _ hk3 => ?_
    have hb : bytes = min len 64 := by
      refine (?_ : Post (lif len ≥ 64 then L.ok 64 else .ok len) fun b => b = min len 64) bytes eb
      intro b eb
      unfold branch at eb
      split at eb <;> cases eb <;> omega
    rw [hk3, show (len + 64 - 1) / 64 = (len - bytes + 64 - 1) / 64 + 1 by omega, Nat.add_mul, Nat.one_mul]
    rw [Nat.zero_add] at hk1 hk2
    have : only p .sha512 (full .sha512 0) = 0 := by unfold only; split <;> rfl
    omega

theorem cost_hash_msg {sc : Ctx} {n : Nat} (hn : sc.ps.n = n) (o : Bytes) (lo : Nat) (r : Bytes) (msg len : Nat) :
    Cost (meter p) (ts_sha2_L35_hash_msg E mem o lo r msg len sc) fun _ k =>
      k = only p .sha512 (whole .sha512 (3 * n + len) + (lo + 64 - 1) / 64 * whole .sha512 (2 * n + 64 + 4)) := by
  unfold ts_sha2_L35_hash_msg
  refine cost_frame ?_
  dsimp only
  rw [hn]
  refine cost_bind0 (by idle) fun rr er => cost_bind (Sha512.cost_take (L := 0) rfl (length_rdSlice _ er)) fun c1 k1 _ ⟨hk1, h1⟩ => ?_
  refine cost_bind0 (by idle) fun sd es => cost_bind (Sha512.cost_take h1 (length_memRead _ es)) fun c2 k2 _ ⟨hk2, h2⟩ => ?_
  refine cost_bind0 (by idle) fun rt et => cost_bind (Sha512.cost_take h2 (length_memRead _ et)) fun c3 k3 _ ⟨hk3, h3⟩ => ?_
  refine cost_bind0 (by idle) fun m em => cost_bind (Sha512.cost_take h3 (length_memRead _ em)) fun c4 k4 _ ⟨hk4, h4⟩ => ?_
  refine cost_bind0 (by idle) fun d _ => cost_bind (Sha512.cost_final _ h4) fun r k5 _ hk5 => ?_
  obtain ⟨dig, c5⟩ := r
  dsimp only
  refine cost_bind0 (by idle) fun _ _ => cost_bind0 (by idle) fun _ _ => cost_bind0 (by idle) fun _ _ => cost_bind (cost_mgf1 _ _ _ _ _ _ _) fun r k6 _ hk6 => ?_
  refine cost_ok ?_
  rw [hk6]
  rw [show 0 + n + n + n + len = 3 * n + len by omega] at hk4 hk5
  revert hk1 hk2 hk3 hk4 hk5
  unfold only
  split
  · have : full .sha512 0 = 0 := rfl
    omega
  · intros; omega

end L35

end Leak.Work
