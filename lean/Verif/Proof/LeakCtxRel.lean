import Verif.Proof.LeakHashRel
/-!
# The hash functions of the signature scheme leak only lengths
-/
namespace Leak
open Model

/-- Iterators whose arrays have the same lengths through every view. -/
structure IterW (E E' : Env) (t t' : TIter) : Prop where
  w256 : Len (E.as256 t).data (E'.as256 t').data
  w512 : Len (E.as512 t).data (E'.as512 t').data
  shake : Len (E.asShake t) (E'.asShake t')

theorem IterW.sha256 (E E' : Env) {s s' : Sha256.Ctx} (h : Sha256.LowSha s s') : IterW E E' (.sha256 s) (.sha256 s') :=
  ⟨h.data, (E.pun512_len _).trans (E'.pun512_len _).symm, (E.punShake_len _).trans (E'.punShake_len _).symm⟩
theorem IterW.sha512 (E E' : Env) {s s' : Sha512.Ctx} (h : Sha512.LowSha s s') : IterW E E' (.sha512 s) (.sha512 s') :=
  ⟨(E.pun256_len _).trans (E'.pun256_len _).symm, h.data, (E.punShake_len _).trans (E'.punShake_len _).symm⟩
theorem IterW.shake' (E E' : Env) {s s' : Shake.Ctx} (h : Shake.LowSh s s') : IterW E E' (.shake s) (.shake s') :=
  ⟨(E.pun256_len _).trans (E'.pun256_len _).symm, (E.pun512_len _).trans (E'.pun512_len _).symm, h.low.1⟩

/-- Iterators in use by the functions of a family which differ only in secret data. -/
def IterS (E E' : Env) : Fam → TIter → TIter → Prop
  | .shake, t, t' => Shake.LowSh (E.asShake t) (E'.asShake t')
  | .sha2L1, t, t' => Sha256.LowSha (E.as256 t) (E'.as256 t')
  | .sha2L35, t, t' => Sha512.LowSha (E.as512 t) (E'.as512 t')

/-- The position in the signature. -/
structure Pub where
  state : St
  buffer_offset : Nat
  hypertree_level : Nat
  fors_tree : Nat
  merkle_level : Nat
  fors_keypair_addr : Nat
  tree_address : Nat

/-- The position of a context. -/
def pubOf (c : Ctx) : Pub :=
  ⟨c.state, c.buffer_offset, c.hypertree_level, c.fors_tree, c.merkle_level, c.fors_keypair_addr, c.tree_address⟩

/-- What is known about two contexts. -/
structure Know where
  ps : ParamSet
  /-- indices of the union `x` where they agree -/
  K : Nat → Prop := fun _ => False
  /-- the first byte of the union -/
  dig : Option UInt8 := none
  /-- the position in the signature -/
  pub : Option Pub := none
  /-- `auth_path_node` -/
  node : Option Nat := none
  /-- `big_iter` is in use -/
  big : Prop := False

/-- Parameter sets whose iterator functions belong together. -/
structure GoodPs (p : ParamSet) : Prop where
  next : p.next_t = p.init_t
  final : p.final_t = p.init_t
  n : p.n ≤ 32
  k : 0 < p.k ∧ p.k ≤ 35

/-- Contexts which differ only in secret data. -/
structure LowC (E E' : Env) (q : Know) (c c' : Ctx) : Prop where
  good : GoodPs c.ps
  psq : c.ps = q.ps
  ps : c'.ps = c.ps
  pk : c'.public_key = c.public_key
  buf : Len c.buffer c'.buffer
  adr : Len c.adr c'.adr
  auth : Len c.auth_path_buffer c'.auth_path_buffer
  small : IterW E E' c.small_iter c'.small_iter
  bigw : IterW E E' c.big_iter c'.big_iter
  bigs : q.big → IterS E E' c.ps.init_t c.big_iter c'.big_iter
  x : Low q.K c.x c'.x
  dig : ∀ v, q.dig = some v → c.x[0]? = some v
  pub : ∀ v, q.pub = some v → pubOf c = v ∧ pubOf c' = v
  node : ∀ v, q.node = some v → c.auth_path_node = v ∧ c'.auth_path_node = v

/-- Related pairs of a buffer and a context. -/
def OutC (E E' : Env) (q : Know) (a b : Bytes × Ctx) : Prop := Len a.1 b.1 ∧ LowC E E' q a.2 b.2

variable {E E' : Env} {mem mem' : Mem} {q : Know} {c c' : Ctx}

theorem LowC.setSmall (h : LowC E E' q c c') {t t' : TIter} (ht : IterW E E' t t') :
    LowC E E' q { c with small_iter := t } { c' with small_iter := t' } :=
  ⟨h.good, h.psq, h.ps, h.pk, h.buf, h.adr, h.auth, ht, h.bigw, h.bigs, h.x, h.dig, h.pub, h.node⟩

theorem local_len (hE : E'.cfg = E.cfg) (p n : Nat) : Len (E.local p n) (E'.local p n) := by
  unfold Len Env.local; rw [List.length_map, List.length_map]

theorem eq_len {a b : Bytes} {n : Nat} (h : a.length = n ∧ b.length = n) : Len a b := h.1.trans h.2.symm

theorem secSeed_rel (hm : MemLow mem mem') (pk n : Nat) : RelP (fun a b : Bytes => a.length = n ∧ b.length = n) (secSeed mem pk n) (secSeed mem' pk n) := by
  unfold secSeed
  refine rel_bind (rel_refl _) ?_
  rintro p _ rfl
  exact rel_memRead hm _ _
theorem secPrf_rel (hm : MemLow mem mem') (pk n : Nat) : RelP (fun a b : Bytes => a.length = n ∧ b.length = n) (secPrf mem pk n) (secPrf mem' pk n) := by
  unfold secPrf
  refine rel_bind (rel_refl _) ?_
  rintro p _ rfl
  exact rel_memRead hm _ _
theorem pubSeed_rel (hm : MemLow mem mem') (pk n : Nat) : RelP (fun a b : Bytes => a.length = n ∧ b.length = n) (pubSeed mem pk n) (pubSeed mem' pk n) :=
  rel_memRead hm _ _
theorem pubRoot_rel (hm : MemLow mem mem') (pk n : Nat) : RelP (fun a b : Bytes => a.length = n ∧ b.length = n) (pubRoot mem pk n) (pubRoot mem' pk n) :=
  rel_memRead hm _ _

theorem hmacBlock_rel {b b' k k' : Bytes} (hb : Len b b') (hk : Len k k') (pad : UInt8) (n : Nat) :
    RelP Len (hmacBlock b k pad n) (hmacBlock b' k' pad n) := by
  unfold hmacBlock
  refine rel_bind (R := Len) (rel_loop hb fun i b b' _ _ hb => ?_) fun b b' hb => ?_
  · exact rel_bind (rel_rd hk _) fun _ _ _ => rel_wr hb _ _ _
  · rw [show b.length = b'.length from hb]
    exact rel_wrSlice hb _ rfl

/-! ## SHA-256 -/

theorem ts_sha256_init_ctx_rel (hE : E'.cfg = E.cfg) (hm : MemLow mem mem') (h : LowC E E' q c c') {s s' : Sha256.Ctx} (hs : Len s.data s'.data) :
    RelP Sha256.LowSha (ts_sha256_init_ctx E mem s c) (ts_sha256_init_ctx E' mem' s' c') := by
  unfold ts_sha256_init_ctx
  refine rel_frame ?_
  rw [hE]
  split
  · exact rel_ok (Sha256.restore_low hs _ _)
  · simp only [h.ps, h.pk]
    refine rel_bind (pubSeed_rel hm _ _) fun a b hab => ?_
    refine rel_bind (Sha256.update_rel (Sha256.init_low hs) (eq_len hab)) fun s s' hs => ?_
    exact rel_loop hs fun _ _ _ _ _ h => Sha256.update_rel h rfl

theorem ts_sha2_prf_rel (hE : E'.cfg = E.cfg) (hm : MemLow mem mem') (h : LowC E E' q c c') {o o' : Bytes} (ho : Len o o') :
    RelP (OutC E E' q) (ts_sha2_prf E mem o c) (ts_sha2_prf E' mem' o' c') := by
  unfold ts_sha2_prf
  refine rel_frame ?_
  simp only [h.ps, h.pk]
  refine rel_bind (ts_sha256_init_ctx_rel hE hm h h.small.w256) fun s s' hs => ?_
  refine rel_bind (rel_rdSlice h.adr _ _) fun a b hab => ?_
  refine rel_bind (Sha256.update_rel hs (eq_len hab)) fun s s' hs => ?_
  refine rel_bind (secSeed_rel hm _ _) fun a b hab => ?_
  refine rel_bind (Sha256.update_rel hs (eq_len hab)) fun s s' hs => ?_
  refine rel_bind (Sha256.final_trunc_rel ho hs _) fun a b hab => ?_
  exact rel_ok ⟨hab.1, by simpa only [h.ps, h.pk] using h.setSmall (.sha256 E E' hab.2)⟩

theorem ts_sha2_f_simple_rel (hE : E'.cfg = E.cfg) (hm : MemLow mem mem') (h : LowC E E' q c c') {o o' i i' : Bytes} (ho : Len o o') (hi : Len i i') :
    RelP (OutC E E' q) (ts_sha2_f_simple E mem o i c) (ts_sha2_f_simple E' mem' o' i' c') := by
  unfold ts_sha2_f_simple
  refine rel_frame ?_
  simp only [h.ps]
  refine rel_bind (ts_sha256_init_ctx_rel hE hm h h.small.w256) fun s s' hs => ?_
  refine rel_bind (rel_rdSlice h.adr _ _) fun a b hab => ?_
  refine rel_bind (Sha256.update_rel hs (eq_len hab)) fun s s' hs => ?_
  refine rel_bind (rel_rdSlice hi _ _) fun a b hab => ?_
  refine rel_bind (Sha256.update_rel hs (eq_len hab)) fun s s' hs => ?_
  refine rel_bind (Sha256.final_trunc_rel ho hs _) fun a b hab => ?_
  exact rel_ok ⟨hab.1, by simpa only [h.ps, h.pk] using h.setSmall (.sha256 E E' hab.2)⟩

theorem ts_sha2_L1_prf_msg_rel (hE : E'.cfg = E.cfg) (hm : MemLow mem mem') (h : LowC E E' q c c') {o o' i i' : Bytes} (ho : Len o o') (hi : Len i i')
    (msg len : Nat) : RelP (OutC E E' q) (ts_sha2_L1_prf_msg E mem o i msg len c) (ts_sha2_L1_prf_msg E' mem' o' i' msg len c') := by
  unfold ts_sha2_L1_prf_msg
  refine rel_frame ?_
  simp only [h.ps, h.pk]
  refine rel_bind (secPrf_rel hm _ _) fun k k' hk => ?_
  refine rel_bind (hmacBlock_rel (local_len hE _ _) (eq_len hk) _ _) fun b b' hb => ?_
  refine rel_bind (Sha256.update_rel (Sha256.init_low h.small.w256) hb) fun s s' hs => ?_
  refine rel_bind (rel_rdSlice hi _ _) fun a a' hab => ?_
  refine rel_bind (Sha256.update_rel hs (eq_len hab)) fun s s' hs => ?_
  refine rel_bind (rel_memRead hm _ _) fun a a' hab => ?_
  refine rel_bind (Sha256.update_rel hs (eq_len hab)) fun s s' hs => ?_
  refine rel_bind (Sha256.final_rel (local_len hE _ _) hs) fun g g' hg => ?_
  refine rel_bind (hmacBlock_rel hb (eq_len hk) _ _) fun b b' hb => ?_
  refine rel_bind (Sha256.update_rel (Sha256.init_low hg.2.data) hb) fun s s' hs => ?_
  refine rel_bind (Sha256.update_rel hs hg.1) fun s s' hs => ?_
  refine rel_bind (Sha256.final_trunc_rel ho hs _) fun a b hab => ?_
  exact rel_ok ⟨hab.1, by simpa only [h.ps, h.pk] using h.setSmall (.sha256 E E' hab.2)⟩

theorem mgf1Loop256_rel (hE : E'.cfg = E.cfg) (n fuel i : Nat) {g g' o o' : Bytes} (hg : Len g g') (ho : Len o o') (off len : Nat) {s s' : Sha256.Ctx}
    (hs : Sha256.LowSha s s') : RelP (fun a b => Len a.1 b.1 ∧ Sha256.LowSha a.2 b.2)
      (mgf1Loop256 E n fuel i g o off len s) (mgf1Loop256 E' n fuel i g' o' off len s') := by
  induction fuel generalizing i g g' o o' off len s s' with
  | zero => exact rel_error _ _
  | succ fuel ih =>
    unfold mgf1Loop256
    refine rel_branch Iff.rfl (fun _ _ => rel_ok ⟨ho, hs⟩) fun _ _ => ?_
    refine rel_bind (ts_ull_to_bytes_rel hg _ _ _ _) fun g g' hg => ?_
    refine rel_bind (rel_rdSlice hg _ _) fun a a' hab => ?_
    refine rel_bind (Sha256.update_rel (Sha256.init_low hs.data) (eq_len hab)) fun s s' hs => ?_
    refine rel_bind (Sha256.final_rel (local_len hE _ _) hs) fun b b' hb => ?_
    refine rel_bind (rel_refl _) ?_
    rintro k _ rfl
    refine rel_bind (rel_rdSlice hb.1 _ _) fun a a' hab => ?_
    refine rel_bind (rel_wrSlice ho _ (eq_len hab)) fun o o' ho => ?_
    exact ih _ hg ho _ _ hb.2

theorem ts_sha2_L1_hash_msg_rel (hE : E'.cfg = E.cfg) (hm : MemLow mem mem') (h : LowC E E' q c c') {o o' i i' : Bytes} (ho : Len o o') (ol : Nat) (hi : Len i i')
    (msg len : Nat) : RelP (OutC E E' q) (ts_sha2_L1_hash_msg E mem o ol i msg len c) (ts_sha2_L1_hash_msg E' mem' o' ol i' msg len c') := by
  unfold ts_sha2_L1_hash_msg
  refine rel_frame ?_
  simp only [h.ps, h.pk, hE]
  refine rel_bind (rel_rdSlice hi _ _) fun r r' hr => ?_
  refine rel_bind (Sha256.update_rel (Sha256.init_low h.small.w256) (eq_len hr)) fun s s' hs => ?_
  refine rel_bind (pubSeed_rel hm _ _) fun p p' hp => ?_
  refine rel_bind (Sha256.update_rel hs (eq_len hp)) fun s s' hs => ?_
  refine rel_bind (pubRoot_rel hm _ _) fun a a' hab => ?_
  refine rel_bind (Sha256.update_rel hs (eq_len hab)) fun s s' hs => ?_
  refine rel_bind (rel_memRead hm _ _) fun a a' hab => ?_
  refine rel_bind (Sha256.update_rel hs (eq_len hab)) fun s s' hs => ?_
  refine rel_bind (rel_rdSlice (local_len hE _ _) _ _) fun a a' hab => ?_
  refine rel_bind (Sha256.final_rel (eq_len hab) hs) fun g g' hg => ?_
  refine rel_bind (rel_wrSlice (local_len hE _ _) _ hg.1) fun m m' hmm => ?_
  refine rel_bind (rel_wrSlice hmm _ (eq_len hr)) fun m m' hmm => ?_
  refine rel_bind (rel_wrSlice hmm _ (eq_len hp)) fun m m' hmm => ?_
  refine rel_bind (mgf1Loop256_rel hE _ _ _ hmm ho _ _ hg.2) fun a b hab => ?_
  exact rel_ok ⟨hab.1, by simpa only [h.ps, h.pk] using h.setSmall (.sha256 E E' hab.2)⟩

/-- What `init_t` and `next_t` produce: an iterator in use. -/
def OutT (E E' : Env) (f : Fam) (t t' : TIter) : Prop := IterW E E' t t' ∧ IterS E E' f t t'

theorem ts_sha2_L1_init_t_simple_rel (hE : E'.cfg = E.cfg) (hm : MemLow mem mem') (h : LowC E E' q c c') {t t' : TIter} (ht : IterW E E' t t') :
    RelP (OutT E E' .sha2L1) (ts_sha2_L1_init_t_simple E mem t c) (ts_sha2_L1_init_t_simple E' mem' t' c') := by
  unfold ts_sha2_L1_init_t_simple
  refine rel_frame ?_
  refine rel_bind (ts_sha256_init_ctx_rel hE hm h ht.w256) fun s s' hs => ?_
  refine rel_bind (rel_rdSlice h.adr _ _) fun a b hab => ?_
  refine rel_bind (Sha256.update_rel hs (eq_len hab)) fun s s' hs => ?_
  exact rel_ok ⟨.sha256 E E' hs, ⟨hs.count, hs.num, hs.data⟩⟩

theorem ts_sha2_L1_next_t_simple_rel (h : LowC E E' q c c') {t t' : TIter} (ht : IterS E E' .sha2L1 t t') {i i' : Bytes} (hi : Len i i') :
    RelP (OutT E E' .sha2L1) (ts_sha2_L1_next_t_simple E t i c) (ts_sha2_L1_next_t_simple E' t' i' c') := by
  unfold ts_sha2_L1_next_t_simple
  refine rel_frame ?_
  rw [h.ps]
  refine rel_bind (rel_rdSlice hi _ _) fun a b hab => ?_
  refine rel_bind (Sha256.update_rel ht (eq_len hab)) fun s s' hs => ?_
  exact rel_ok ⟨.sha256 E E' hs, ⟨hs.count, hs.num, hs.data⟩⟩

theorem ts_sha2_L1_final_t_simple_rel (h : LowC E E' q c c') {t t' : TIter} (ht : IterS E E' .sha2L1 t t') {o o' : Bytes} (ho : Len o o') :
    RelP (fun a b => Len a.1 b.1 ∧ IterW E E' a.2 b.2) (ts_sha2_L1_final_t_simple E o t c) (ts_sha2_L1_final_t_simple E' o' t' c') := by
  unfold ts_sha2_L1_final_t_simple
  refine rel_frame ?_
  rw [h.ps]
  refine rel_bind (Sha256.final_trunc_rel ho ht _) fun a b hab => ?_
  exact rel_ok ⟨hab.1, .sha256 E E' hab.2⟩

theorem ts_sha2_L1_prehash_rel (hm : MemLow mem mem') (h : LowC E E' q c c') :
    RelP (LowC E E' q) (ts_sha2_L1_prehash E mem c) (ts_sha2_L1_prehash E' mem' c') := by
  unfold ts_sha2_L1_prehash
  refine rel_frame ?_
  simp only [h.ps, h.pk]
  refine rel_bind (pubSeed_rel hm _ _) fun a b hab => ?_
  refine rel_bind (Sha256.update_rel (Sha256.init_low h.small.w256) (eq_len hab)) fun s s' hs => ?_
  refine rel_bind (rel_loop hs fun _ _ _ _ _ h => Sha256.update_rel h rfl) fun s s' hs => ?_
  have := h.setSmall (.sha256 E E' hs)
  exact rel_ok ⟨this.good, this.psq, by first | rfl | exact h.ps, by first | rfl | exact h.pk, this.buf, this.adr, this.auth, this.small, this.bigw, this.bigs, this.x,
    this.dig, this.pub, this.node⟩

/-! ## SHA-512 -/

theorem ts_sha512_init_ctx_rel (hE : E'.cfg = E.cfg) (hm : MemLow mem mem') (h : LowC E E' q c c') {s s' : Sha512.Ctx} (hs : Len s.data s'.data) :
    RelP Sha512.LowSha (ts_sha512_init_ctx E mem s c) (ts_sha512_init_ctx E' mem' s' c') := by
  unfold ts_sha512_init_ctx
  refine rel_frame ?_
  rw [hE]
  split
  · exact rel_ok (Sha512.restore_low hs _ _)
  · simp only [h.ps, h.pk]
    refine rel_bind (pubSeed_rel hm _ _) fun a b hab => ?_
    refine rel_bind (Sha512.update_rel (Sha512.init_low hs) (eq_len hab)) fun s s' hs => ?_
    exact rel_loop hs fun _ _ _ _ _ h => Sha512.update_rel h rfl

theorem ts_sha2_L35_prf_msg_rel (hE : E'.cfg = E.cfg) (hm : MemLow mem mem') (h : LowC E E' q c c') {o o' i i' : Bytes} (ho : Len o o') (hi : Len i i')
    (msg len : Nat) : RelP (OutC E E' q) (ts_sha2_L35_prf_msg E mem o i msg len c) (ts_sha2_L35_prf_msg E' mem' o' i' msg len c') := by
  unfold ts_sha2_L35_prf_msg
  refine rel_frame ?_
  simp only [h.ps, h.pk]
  refine rel_bind (secPrf_rel hm _ _) fun k k' hk => ?_
  refine rel_bind (hmacBlock_rel (local_len hE _ _) (eq_len hk) _ _) fun b b' hb => ?_
  refine rel_bind (Sha512.update_rel (Sha512.init_low h.small.w512) hb) fun s s' hs => ?_
  refine rel_bind (rel_rdSlice hi _ _) fun a a' hab => ?_
  refine rel_bind (Sha512.update_rel hs (eq_len hab)) fun s s' hs => ?_
  refine rel_bind (rel_memRead hm _ _) fun a a' hab => ?_
  refine rel_bind (Sha512.update_rel hs (eq_len hab)) fun s s' hs => ?_
  refine rel_bind (Sha512.final_rel (local_len hE _ _) hs) fun g g' hg => ?_
  refine rel_bind (hmacBlock_rel hb (eq_len hk) _ _) fun b b' hb => ?_
  refine rel_bind (Sha512.update_rel (Sha512.init_low hg.2.data) hb) fun s s' hs => ?_
  refine rel_bind (Sha512.update_rel hs hg.1) fun s s' hs => ?_
  refine rel_bind (Sha512.final_trunc_rel ho hs _) fun a b hab => ?_
  exact rel_ok ⟨hab.1, by simpa only [h.ps, h.pk] using h.setSmall (.sha512 E E' hab.2)⟩

theorem mgf1Loop512_rel (hE : E'.cfg = E.cfg) (n fuel i : Nat) {g g' o o' : Bytes} (hg : Len g g') (ho : Len o o') (off len : Nat) {s s' : Sha512.Ctx}
    (hs : Sha512.LowSha s s') : RelP (fun a b => Len a.1 b.1 ∧ Sha512.LowSha a.2 b.2)
      (mgf1Loop512 E n fuel i g o off len s) (mgf1Loop512 E' n fuel i g' o' off len s') := by
  induction fuel generalizing i g g' o o' off len s s' with
  | zero => exact rel_error _ _
  | succ fuel ih =>
    unfold mgf1Loop512
    refine rel_branch Iff.rfl (fun _ _ => rel_ok ⟨ho, hs⟩) fun _ _ => ?_
    refine rel_bind (ts_ull_to_bytes_rel hg _ _ _ _) fun g g' hg => ?_
    refine rel_bind (rel_rdSlice hg _ _) fun a a' hab => ?_
    refine rel_bind (Sha512.update_rel (Sha512.init_low hs.data) (eq_len hab)) fun s s' hs => ?_
    refine rel_bind (Sha512.final_rel (local_len hE _ _) hs) fun b b' hb => ?_
    refine rel_bind (rel_refl _) ?_
    rintro k _ rfl
    refine rel_bind (rel_rdSlice hb.1 _ _) fun a a' hab => ?_
    refine rel_bind (rel_wrSlice ho _ (eq_len hab)) fun o o' ho => ?_
    exact ih _ hg ho _ _ hb.2

theorem ts_sha2_L35_hash_msg_rel (hE : E'.cfg = E.cfg) (hm : MemLow mem mem') (h : LowC E E' q c c') {o o' i i' : Bytes} (ho : Len o o') (ol : Nat) (hi : Len i i')
    (msg len : Nat) : RelP (OutC E E' q) (ts_sha2_L35_hash_msg E mem o ol i msg len c) (ts_sha2_L35_hash_msg E' mem' o' ol i' msg len c') := by
  unfold ts_sha2_L35_hash_msg
  refine rel_frame ?_
  simp only [h.ps, h.pk, hE]
  refine rel_bind (rel_rdSlice hi _ _) fun r r' hr => ?_
  refine rel_bind (Sha512.update_rel (Sha512.init_low h.small.w512) (eq_len hr)) fun s s' hs => ?_
  refine rel_bind (pubSeed_rel hm _ _) fun p p' hp => ?_
  refine rel_bind (Sha512.update_rel hs (eq_len hp)) fun s s' hs => ?_
  refine rel_bind (pubRoot_rel hm _ _) fun a a' hab => ?_
  refine rel_bind (Sha512.update_rel hs (eq_len hab)) fun s s' hs => ?_
  refine rel_bind (rel_memRead hm _ _) fun a a' hab => ?_
  refine rel_bind (Sha512.update_rel hs (eq_len hab)) fun s s' hs => ?_
  refine rel_bind (rel_rdSlice (local_len hE _ _) _ _) fun a a' hab => ?_
  refine rel_bind (Sha512.final_rel (eq_len hab) hs) fun g g' hg => ?_
  refine rel_bind (rel_wrSlice (local_len hE _ _) _ hg.1) fun m m' hmm => ?_
  refine rel_bind (rel_wrSlice hmm _ (eq_len hr)) fun m m' hmm => ?_
  refine rel_bind (rel_wrSlice hmm _ (eq_len hp)) fun m m' hmm => ?_
  refine rel_bind (mgf1Loop512_rel hE _ _ _ hmm ho _ _ hg.2) fun a b hab => ?_
  exact rel_ok ⟨hab.1, by simpa only [h.ps, h.pk] using h.setSmall (.sha512 E E' hab.2)⟩

theorem ts_sha2_L35_init_t_simple_rel (hE : E'.cfg = E.cfg) (hm : MemLow mem mem') (h : LowC E E' q c c') {t t' : TIter} (ht : IterW E E' t t') :
    RelP (OutT E E' .sha2L35) (ts_sha2_L35_init_t_simple E mem t c) (ts_sha2_L35_init_t_simple E' mem' t' c') := by
  unfold ts_sha2_L35_init_t_simple
  refine rel_frame ?_
  refine rel_bind (ts_sha512_init_ctx_rel hE hm h ht.w512) fun s s' hs => ?_
  refine rel_bind (rel_rdSlice h.adr _ _) fun a b hab => ?_
  refine rel_bind (Sha512.update_rel hs (eq_len hab)) fun s s' hs => ?_
  exact rel_ok ⟨.sha512 E E' hs, ⟨hs.count, hs.num, hs.data⟩⟩

theorem ts_sha2_L35_next_t_simple_rel (h : LowC E E' q c c') {t t' : TIter} (ht : IterS E E' .sha2L35 t t') {i i' : Bytes} (hi : Len i i') :
    RelP (OutT E E' .sha2L35) (ts_sha2_L35_next_t_simple E t i c) (ts_sha2_L35_next_t_simple E' t' i' c') := by
  unfold ts_sha2_L35_next_t_simple
  refine rel_frame ?_
  rw [h.ps]
  refine rel_bind (rel_rdSlice hi _ _) fun a b hab => ?_
  refine rel_bind (Sha512.update_rel ht (eq_len hab)) fun s s' hs => ?_
  exact rel_ok ⟨.sha512 E E' hs, ⟨hs.count, hs.num, hs.data⟩⟩

theorem ts_sha2_L35_final_t_simple_rel (h : LowC E E' q c c') {t t' : TIter} (ht : IterS E E' .sha2L35 t t') {o o' : Bytes} (ho : Len o o') :
    RelP (fun a b => Len a.1 b.1 ∧ IterW E E' a.2 b.2) (ts_sha2_L35_final_t_simple E o t c) (ts_sha2_L35_final_t_simple E' o' t' c') := by
  unfold ts_sha2_L35_final_t_simple
  refine rel_frame ?_
  rw [h.ps]
  refine rel_bind (Sha512.final_trunc_rel ho ht _) fun a b hab => ?_
  exact rel_ok ⟨hab.1, .sha512 E E' hab.2⟩

theorem ts_sha2_L35_prehash_rel (hm : MemLow mem mem') (h : LowC E E' q c c') :
    RelP (LowC E E' q) (ts_sha2_L35_prehash E mem c) (ts_sha2_L35_prehash E' mem' c') := by
  unfold ts_sha2_L35_prehash
  refine rel_frame ?_
  refine rel_bind (ts_sha2_L1_prehash_rel hm h) fun c c' h => ?_
  simp only [h.ps, h.pk]
  refine rel_bind (pubSeed_rel hm _ _) fun a b hab => ?_
  refine rel_bind (Sha512.update_rel (Sha512.init_low h.small.w512) (eq_len hab)) fun s s' hs => ?_
  refine rel_bind (rel_loop hs fun _ _ _ _ _ h => Sha512.update_rel h rfl) fun s s' hs => ?_
  have := h.setSmall (.sha512 E E' hs)
  exact rel_ok ⟨this.good, this.psq, by first | rfl | exact h.ps, by first | rfl | exact h.pk, this.buf, this.adr, this.auth, this.small, this.bigw, this.bigs, this.x,
    this.dig, this.pub, this.node⟩

/-! ## SHAKE256 -/

/-- Absorb a block of the length `k`. -/
theorem absorb_rel (hE : E'.cfg = E.cfg) {s s' : List UInt64} (hs : Shake.LowSh s s') {a b : Bytes} {k : Nat} (hab : a.length = k ∧ b.length = k) (hk : k < 2 ^ 63) :
    RelP Shake.LowSh (Shake.inc_absorb E.cfg.shakeOpt s a) (Shake.inc_absorb E'.cfg.shakeOpt s' b) := by
  rw [hE]
  exact Shake.inc_absorb_rel _ hs (eq_len hab) (by omega)

theorem adrSize_lt (cfg : Config) : cfg.ADR_SIZE < 2 ^ 63 := by
  unfold Config.ADR_SIZE; split <;> decide

theorem ts_shake256_prf_msg_rel (hE : E'.cfg = E.cfg) (hm : MemLow mem mem') (h : LowC E E' q c c') {o o' i i' : Bytes} (ho : Len o o') (hi : Len i i')
    (msg : Nat) {len : Nat} (hl : len < 2 ^ 63) : RelP (OutC E E' q) (ts_shake256_prf_msg E mem o i msg len c) (ts_shake256_prf_msg E' mem' o' i' msg len c') := by
  have hn : c.ps.n < 2 ^ 63 := Nat.lt_of_le_of_lt h.good.n (by decide)
  unfold ts_shake256_prf_msg
  refine rel_frame ?_
  simp only [h.ps, h.pk]
  refine rel_bind (Shake.inc_init_rel h.small.shake) fun s s' hs => ?_
  refine rel_bind (secPrf_rel hm _ _) fun a b hab => ?_
  refine rel_bind (absorb_rel hE hs hab hn) fun s s' hs => ?_
  refine rel_bind (rel_rdSlice hi _ _) fun a b hab => ?_
  refine rel_bind (absorb_rel hE hs hab hn) fun s s' hs => ?_
  refine rel_bind (rel_memRead hm _ _) fun a b hab => ?_
  refine rel_bind (absorb_rel hE hs hab hl) fun s s' hs => ?_
  refine rel_bind (Shake.inc_finalize_rel hs) fun s s' hs => ?_
  rw [hE]
  refine rel_bind (Shake.inc_squeeze_rel _ ho _ _ hs) fun a b hab => ?_
  exact rel_ok ⟨hab.1, by simpa only [h.ps, h.pk] using h.setSmall (.shake' E E' hab.2)⟩

theorem ts_shake256_hash_msg_rel (hE : E'.cfg = E.cfg) (hm : MemLow mem mem') (h : LowC E E' q c c') {o o' i i' : Bytes} (ho : Len o o') (ol : Nat) (hi : Len i i')
    (msg : Nat) {len : Nat} (hl : len < 2 ^ 63) : RelP (OutC E E' q) (ts_shake256_hash_msg E mem o ol i msg len c) (ts_shake256_hash_msg E' mem' o' ol i' msg len c') := by
  have hn : c.ps.n < 2 ^ 63 := Nat.lt_of_le_of_lt h.good.n (by decide)
  unfold ts_shake256_hash_msg
  refine rel_frame ?_
  simp only [h.ps, h.pk]
  refine rel_bind (Shake.inc_init_rel h.small.shake) fun s s' hs => ?_
  refine rel_bind (rel_rdSlice hi _ _) fun a b hab => ?_
  refine rel_bind (absorb_rel hE hs hab hn) fun s s' hs => ?_
  refine rel_bind (pubSeed_rel hm _ _) fun a b hab => ?_
  refine rel_bind (absorb_rel hE hs hab hn) fun s s' hs => ?_
  refine rel_bind (pubRoot_rel hm _ _) fun a b hab => ?_
  refine rel_bind (absorb_rel hE hs hab hn) fun s s' hs => ?_
  refine rel_bind (rel_memRead hm _ _) fun a b hab => ?_
  refine rel_bind (absorb_rel hE hs hab hl) fun s s' hs => ?_
  refine rel_bind (Shake.inc_finalize_rel hs) fun s s' hs => ?_
  rw [hE]
  refine rel_bind (Shake.inc_squeeze_rel _ ho _ _ hs) fun a b hab => ?_
  exact rel_ok ⟨hab.1, by simpa only [h.ps, h.pk] using h.setSmall (.shake' E E' hab.2)⟩

theorem ts_shake256_prf_rel (hE : E'.cfg = E.cfg) (hm : MemLow mem mem') (h : LowC E E' q c c') {o o' : Bytes} (ho : Len o o') :
    RelP (OutC E E' q) (ts_shake256_prf E mem o c) (ts_shake256_prf E' mem' o' c') := by
  have hn : c.ps.n < 2 ^ 63 := Nat.lt_of_le_of_lt h.good.n (by decide)
  unfold ts_shake256_prf
  refine rel_frame ?_
  simp only [h.ps, h.pk, hE]
  have absorb : ∀ {s s' : List UInt64} (_ : Shake.LowSh s s') {a b : Bytes} {k : Nat} (_ : a.length = k ∧ b.length = k) (_ : k < 2 ^ 63),
    RelP Shake.LowSh (Shake.inc_absorb E.cfg.shakeOpt s a) (Shake.inc_absorb E.cfg.shakeOpt s' b) := fun {s s'} hs {a b k} h1 h2 =>
      Shake.inc_absorb_rel _ hs (eq_len h1) (by omega)
  refine rel_bind (Shake.inc_init_rel h.small.shake) fun s s' hs => ?_
  refine rel_bind (pubSeed_rel hm _ _) fun a b hab => ?_
  refine rel_bind (absorb hs hab hn) fun s s' hs => ?_
  refine rel_bind (rel_rdSlice h.adr _ _) fun a b hab => ?_
  refine rel_bind (absorb hs hab (adrSize_lt _)) fun s s' hs => ?_
  refine rel_bind (secSeed_rel hm _ _) fun a b hab => ?_
  refine rel_bind (absorb hs hab hn) fun s s' hs => ?_
  refine rel_bind (Shake.inc_finalize_rel hs) fun s s' hs => ?_
  refine rel_bind (Shake.inc_squeeze_rel _ ho _ _ hs) fun a b hab => ?_
  exact rel_ok ⟨hab.1, by simpa only [h.ps, h.pk] using h.setSmall (.shake' E E' hab.2)⟩

theorem ts_shake256_init_t_simple_rel (hE : E'.cfg = E.cfg) (hm : MemLow mem mem') (h : LowC E E' q c c') {t t' : TIter} (ht : IterW E E' t t') :
    RelP (OutT E E' .shake) (ts_shake256_init_t_simple E mem t c) (ts_shake256_init_t_simple E' mem' t' c') := by
  have hn : c.ps.n < 2 ^ 63 := Nat.lt_of_le_of_lt h.good.n (by decide)
  unfold ts_shake256_init_t_simple
  refine rel_frame ?_
  simp only [h.ps, h.pk, hE]
  refine rel_bind (Shake.inc_init_rel ht.shake) fun s s' hs => ?_
  refine rel_bind (pubSeed_rel hm _ _) fun a b hab => ?_
  refine rel_bind (Shake.inc_absorb_rel _ hs (eq_len hab) (by omega)) fun s s' hs => ?_
  refine rel_bind (rel_rdSlice h.adr _ _) fun a b hab => ?_
  refine rel_bind (Shake.inc_absorb_rel _ hs (eq_len hab) (by have := adrSize_lt E.cfg; omega)) fun s s' hs => ?_
  exact rel_ok ⟨.shake' E E' hs, hs⟩

theorem ts_shake256_next_t_simple_rel (hE : E'.cfg = E.cfg) (h : LowC E E' q c c') {t t' : TIter} (ht : IterS E E' .shake t t') {i i' : Bytes} (hi : Len i i') :
    RelP (OutT E E' .shake) (ts_shake256_next_t_simple E t i c) (ts_shake256_next_t_simple E' t' i' c') := by
  have hn : c.ps.n < 2 ^ 63 := Nat.lt_of_le_of_lt h.good.n (by decide)
  unfold ts_shake256_next_t_simple
  refine rel_frame ?_
  rw [h.ps, hE]
  refine rel_bind (rel_rdSlice hi _ _) fun a b hab => ?_
  refine rel_bind (Shake.inc_absorb_rel _ ht (eq_len hab) (by omega)) fun s s' hs => ?_
  exact rel_ok ⟨.shake' E E' hs, hs⟩

theorem ts_shake256_final_t_simple_rel (hE : E'.cfg = E.cfg) (h : LowC E E' q c c') {t t' : TIter} (ht : IterS E E' .shake t t') {o o' : Bytes} (ho : Len o o') :
    RelP (fun a b => Len a.1 b.1 ∧ IterW E E' a.2 b.2) (ts_shake256_final_t_simple E o t c) (ts_shake256_final_t_simple E' o' t' c') := by
  unfold ts_shake256_final_t_simple
  refine rel_frame ?_
  rw [h.ps, hE]
  refine rel_bind (Shake.inc_finalize_rel ht) fun s s' hs => ?_
  refine rel_bind (Shake.inc_squeeze_rel _ ho _ _ hs) fun a b hab => ?_
  exact rel_ok ⟨hab.1, .shake' E E' hab.2⟩

theorem ts_shake256_f_simple_rel (hE : E'.cfg = E.cfg) (hm : MemLow mem mem') (h : LowC E E' q c c') {o o' i i' : Bytes} (ho : Len o o') (hi : Len i i') :
    RelP (OutC E E' q) (ts_shake256_f_simple E mem o i c) (ts_shake256_f_simple E' mem' o' i' c') := by
  unfold ts_shake256_f_simple
  refine rel_frame ?_
  refine rel_bind (ts_shake256_init_t_simple_rel hE hm h h.small) fun t t' ht => ?_
  refine rel_bind (ts_shake256_next_t_simple_rel hE h ht.2 hi) fun t t' ht => ?_
  refine rel_bind (ts_shake256_final_t_simple_rel hE h ht.2 ho) fun a b hab => ?_
  exact rel_ok ⟨hab.1, h.setSmall hab.2⟩

/-! ## Calls through the parameter set -/

theorem call_prf_msg_rel (hE : E'.cfg = E.cfg) (hm : MemLow mem mem') (h : LowC E E' q c c') {o o' i i' : Bytes} (ho : Len o o') (hi : Len i i')
    (msg : Nat) {len : Nat} (hl : len < 2 ^ 63) : RelP (OutC E E' q) (call_prf_msg E mem o i msg len c) (call_prf_msg E' mem' o' i' msg len c') := by
  unfold call_prf_msg
  rw [h.ps]
  refine rel_calling rfl ?_
  split
  · exact ts_shake256_prf_msg_rel hE hm h ho hi _ hl
  · exact ts_sha2_L1_prf_msg_rel hE hm h ho hi _ _
  · exact ts_sha2_L35_prf_msg_rel hE hm h ho hi _ _

theorem call_hash_msg_rel (hE : E'.cfg = E.cfg) (hm : MemLow mem mem') (h : LowC E E' q c c') {o o' i i' : Bytes} (ho : Len o o') (ol : Nat) (hi : Len i i')
    (msg : Nat) {len : Nat} (hl : len < 2 ^ 63) : RelP (OutC E E' q) (call_hash_msg E mem o ol i msg len c) (call_hash_msg E' mem' o' ol i' msg len c') := by
  unfold call_hash_msg
  rw [h.ps]
  refine rel_calling rfl ?_
  split
  · exact ts_shake256_hash_msg_rel hE hm h ho _ hi _ hl
  · exact ts_sha2_L1_hash_msg_rel hE hm h ho _ hi _ _
  · exact ts_sha2_L35_hash_msg_rel hE hm h ho _ hi _ _

theorem call_prf_rel (hE : E'.cfg = E.cfg) (hm : MemLow mem mem') (h : LowC E E' q c c') {o o' : Bytes} (ho : Len o o') :
    RelP (OutC E E' q) (call_prf E mem o c) (call_prf E' mem' o' c') := by
  unfold call_prf
  rw [h.ps]
  refine rel_calling rfl ?_
  split
  · exact ts_shake256_prf_rel hE hm h ho
  · exact ts_sha2_prf_rel hE hm h ho
  · exact ts_sha2_prf_rel hE hm h ho

theorem call_f_rel (hE : E'.cfg = E.cfg) (hm : MemLow mem mem') (h : LowC E E' q c c') {o o' i i' : Bytes} (ho : Len o o') (hi : Len i i') :
    RelP (OutC E E' q) (call_f E mem o i c) (call_f E' mem' o' i' c') := by
  unfold call_f
  rw [h.ps]
  refine rel_calling rfl ?_
  split
  · exact ts_shake256_f_simple_rel hE hm h ho hi
  · exact ts_sha2_f_simple_rel hE hm h ho hi
  · exact ts_sha2_f_simple_rel hE hm h ho hi

theorem call_init_t_rel (hE : E'.cfg = E.cfg) (hm : MemLow mem mem') (h : LowC E E' q c c') {t t' : TIter} (ht : IterW E E' t t') :
    RelP (OutT E E' c.ps.init_t) (call_init_t E mem t c) (call_init_t E' mem' t' c') := by
  unfold call_init_t
  rw [h.ps]
  refine rel_calling rfl ?_
  generalize hf : c.ps.init_t = f
  cases f
  · exact ts_shake256_init_t_simple_rel hE hm h ht
  · exact ts_sha2_L1_init_t_simple_rel hE hm h ht
  · exact ts_sha2_L35_init_t_simple_rel hE hm h ht

theorem call_next_t_rel (hE : E'.cfg = E.cfg) (h : LowC E E' q c c') {t t' : TIter} (ht : IterS E E' c.ps.init_t t t') {i i' : Bytes} (hi : Len i i') :
    RelP (OutT E E' c.ps.init_t) (call_next_t E t i c) (call_next_t E' t' i' c') := by
  unfold call_next_t
  rw [h.ps]
  refine rel_calling rfl ?_
  rw [h.good.next]
  revert ht
  generalize hf : c.ps.init_t = f
  cases f <;> intro ht
  · exact ts_shake256_next_t_simple_rel hE h ht hi
  · exact ts_sha2_L1_next_t_simple_rel h ht hi
  · exact ts_sha2_L35_next_t_simple_rel h ht hi

theorem call_final_t_rel (hE : E'.cfg = E.cfg) (h : LowC E E' q c c') {t t' : TIter} (ht : IterS E E' c.ps.init_t t t') {o o' : Bytes} (ho : Len o o') :
    RelP (fun a b => Len a.1 b.1 ∧ IterW E E' a.2 b.2) (call_final_t E o t c) (call_final_t E' o' t' c') := by
  unfold call_final_t
  rw [h.ps]
  refine rel_calling rfl ?_
  rw [h.good.final]
  revert ht
  generalize hf : c.ps.init_t = f
  cases f <;> intro ht
  · exact ts_shake256_final_t_simple_rel hE h ht ho
  · exact ts_sha2_L1_final_t_simple_rel h ht ho
  · exact ts_sha2_L35_final_t_simple_rel h ht ho

theorem call_prehash_rel (hE : E'.cfg = E.cfg) (hm : MemLow mem mem') (h : LowC E E' q c c') :
    RelP (LowC E E' q) (call_prehash E mem c) (call_prehash E' mem' c') := by
  unfold call_prehash
  rw [hE, h.ps]
  split
  · refine rel_branch Iff.rfl (fun _ _ => rel_ok h) fun _ _ => ?_
    split
    · exact rel_ok h
    · exact ts_sha2_L1_prehash_rel hm h
    · exact ts_sha2_L35_prehash_rel hm h
    · exact rel_error _ _
  · exact rel_ok h

end Leak
