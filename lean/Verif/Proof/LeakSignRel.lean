import Verif.Proof.LeakCtxRel
/-!
# Signing and key generation leak only public values
-/
namespace Leak
open Model
variable {E E' : Env} {mem mem' : Mem} {q : Know} {c c' : Ctx}

theorem LowC.setAdr (h : LowC E E' q c c') {a a' : Bytes} (ha : Len a a') : LowC E E' q { c with adr := a } { c' with adr := a' } :=
  ⟨h.good, h.psq, h.ps, h.pk, h.buf, ha, h.auth, h.small, h.bigw, h.bigs, h.x, h.dig, h.pub, h.node⟩
theorem LowC.setBuf (h : LowC E E' q c c') {a a' : Bytes} (ha : Len a a') : LowC E E' q { c with buffer := a } { c' with buffer := a' } :=
  ⟨h.good, h.psq, h.ps, h.pk, ha, h.adr, h.auth, h.small, h.bigw, h.bigs, h.x, h.dig, h.pub, h.node⟩
theorem LowC.setAuth (h : LowC E E' q c c') {a a' : Bytes} (ha : Len a a') :
    LowC E E' q { c with auth_path_buffer := a } { c' with auth_path_buffer := a' } :=
  ⟨h.good, h.psq, h.ps, h.pk, h.buf, h.adr, ha, h.small, h.bigw, h.bigs, h.x, h.dig, h.pub, h.node⟩
/-- `big_iter` in use. -/
theorem LowC.setBig (h : LowC E E' q c c') {t t' : TIter} (ht : OutT E E' c.ps.init_t t t') :
    LowC E E' { q with big := True } { c with big_iter := t } { c' with big_iter := t' } :=
  ⟨h.good, h.psq, h.ps, h.pk, h.buf, h.adr, h.auth, h.small, ht.1, fun _ => ht.2, h.x, h.dig, h.pub, h.node⟩
/-- `big_iter` not in use any more. -/
theorem LowC.endBig (h : LowC E E' q c c') {t t' : TIter} (ht : IterW E E' t t') :
    LowC E E' { q with big := False } { c with big_iter := t } { c' with big_iter := t' } :=
  ⟨h.good, h.psq, h.ps, h.pk, h.buf, h.adr, h.auth, h.small, ht, fun h => h.elim, h.x, h.dig, h.pub, h.node⟩
/-- Secret bytes written outside of the known part of the union. -/
theorem LowC.setX (h : LowC E E' q c c') {K : Nat → Prop} {dg : Option UInt8} {a a' : Bytes} (ha : Low K a a') (hd : ∀ v, dg = some v → a[0]? = some v) :
    LowC E E' { q with K := K, dig := dg } { c with x := a } { c' with x := a' } :=
  ⟨h.good, h.psq, h.ps, h.pk, h.buf, h.adr, h.auth, h.small, h.bigw, h.bigs, ha, hd, h.pub, h.node⟩
/-- Forget. -/
theorem LowC.forget (h : LowC E E' q c c') : LowC E E' { ps := q.ps } c c' :=
  ⟨h.good, h.psq, h.ps, h.pk, h.buf, h.adr, h.auth, h.small, h.bigw, fun h => h.elim, h.x.len.low, (fun _ h => by cases h), (fun _ h => by cases h), (fun _ h => by cases h)⟩
theorem LowC.forgetX (h : LowC E E' q c c') : LowC E E' { q with K := fun _ => False, dig := none } c c' :=
  ⟨h.good, h.psq, h.ps, h.pk, h.buf, h.adr, h.auth, h.small, h.bigw, h.bigs, h.x.len.low, (fun _ h => by cases h), h.pub, h.node⟩

theorem sha2Adr_eq (hE : E'.cfg = E.cfg) (h : LowC E E' q c c') : sha2Adr E' c' = sha2Adr E c := by
  unfold sha2Adr; rw [hE, h.ps]

/-! ## Addresses -/

section
variable (hE : E'.cfg = E.cfg) (h : LowC E E' q c c')
include hE h

theorem set_layer_adr_rel (v v' : Nat) : RelP (LowC E E' q) (set_layer_adr E v c) (set_layer_adr E' v' c') := by
  unfold set_layer_adr
  refine rel_frame ?_
  rw [sha2Adr_eq hE h]
  refine rel_branch Iff.rfl (fun _ _ => ?_) fun _ _ => ?_
  · exact rel_bind (rel_wr h.adr _ _ _) fun _ _ ha => rel_ok (h.setAdr ha)
  · exact rel_bind (ts_ull_to_bytes_rel h.adr _ _ _ _) fun _ _ ha => rel_ok (h.setAdr ha)
theorem set_tree_adr_rel (v v' : Nat) : RelP (LowC E E' q) (set_tree_adr E v c) (set_tree_adr E' v' c') := by
  unfold set_tree_adr
  refine rel_frame ?_
  rw [sha2Adr_eq hE h]
  refine rel_branch Iff.rfl (fun _ _ => ?_) fun _ _ => ?_
  · exact rel_bind (ts_ull_to_bytes_rel h.adr _ _ _ _) fun _ _ ha => rel_ok (h.setAdr ha)
  · exact rel_bind (ts_ull_to_bytes_rel h.adr _ _ _ _) fun _ _ ha => rel_ok (h.setAdr ha)
theorem set_type_adr_rel (v v' : Nat) : RelP (LowC E E' q) (set_type_adr E v c) (set_type_adr E' v' c') := by
  unfold set_type_adr
  refine rel_frame ?_
  rw [sha2Adr_eq hE h]
  refine rel_branch Iff.rfl (fun _ _ => ?_) fun _ _ => ?_
  · exact rel_bind (rel_wr h.adr _ _ _) fun _ _ ha => rel_ok (h.setAdr ha)
  · exact rel_bind (ts_ull_to_bytes_rel h.adr _ _ _ _) fun _ _ ha => rel_ok (h.setAdr ha)
theorem set_keypair_adr_rel (v v' : Nat) : RelP (LowC E E' q) (set_keypair_adr E v c) (set_keypair_adr E' v' c') := by
  unfold set_keypair_adr
  refine rel_frame ?_
  rw [sha2Adr_eq hE h]
  refine rel_branch Iff.rfl (fun _ _ => ?_) fun _ _ => ?_
  · exact rel_bind (ts_ull_to_bytes_rel h.adr _ _ _ _) fun _ _ ha => rel_ok (h.setAdr ha)
  · exact rel_bind (ts_ull_to_bytes_rel h.adr _ _ _ _) fun _ _ ha => rel_ok (h.setAdr ha)
theorem set_tree_height_adr_rel (v v' : Nat) : RelP (LowC E E' q) (set_tree_height_adr E v c) (set_tree_height_adr E' v' c') := by
  unfold set_tree_height_adr
  refine rel_frame ?_
  rw [sha2Adr_eq hE h]
  refine rel_branch Iff.rfl (fun _ _ => ?_) fun _ _ => ?_
  · exact rel_bind (ts_ull_to_bytes_rel h.adr _ _ _ _) fun _ _ ha => rel_ok (h.setAdr ha)
  · exact rel_bind (ts_ull_to_bytes_rel h.adr _ _ _ _) fun _ _ ha => rel_ok (h.setAdr ha)
theorem set_tree_index_adr_rel (v v' : Nat) : RelP (LowC E E' q) (set_tree_index_adr E v c) (set_tree_index_adr E' v' c') := by
  unfold set_tree_index_adr
  refine rel_frame ?_
  rw [sha2Adr_eq hE h]
  refine rel_branch Iff.rfl (fun _ _ => ?_) fun _ _ => ?_
  · exact rel_bind (ts_ull_to_bytes_rel h.adr _ _ _ _) fun _ _ ha => rel_ok (h.setAdr ha)
  · exact rel_bind (ts_ull_to_bytes_rel h.adr _ _ _ _) fun _ _ ha => rel_ok (h.setAdr ha)

end

theorem LowC.fors_tree (h : LowC E E' q c c') {v : Pub} (hq : q.pub = some v) : c.fors_tree = v.fors_tree ∧ c'.fors_tree = v.fors_tree :=
  ⟨congrArg Pub.fors_tree (h.pub v hq).1, congrArg Pub.fors_tree (h.pub v hq).2⟩
theorem LowC.merkle_level (h : LowC E E' q c c') {v : Pub} (hq : q.pub = some v) : c.merkle_level = v.merkle_level ∧ c'.merkle_level = v.merkle_level :=
  ⟨congrArg Pub.merkle_level (h.pub v hq).1, congrArg Pub.merkle_level (h.pub v hq).2⟩
theorem LowC.state (h : LowC E E' q c c') {v : Pub} (hq : q.pub = some v) : c.state = v.state ∧ c'.state = v.state :=
  ⟨congrArg Pub.state (h.pub v hq).1, congrArg Pub.state (h.pub v hq).2⟩
theorem LowC.buffer_offset (h : LowC E E' q c c') {v : Pub} (hq : q.pub = some v) : c.buffer_offset = v.buffer_offset ∧ c'.buffer_offset = v.buffer_offset :=
  ⟨congrArg Pub.buffer_offset (h.pub v hq).1, congrArg Pub.buffer_offset (h.pub v hq).2⟩
theorem LowC.hypertree_level (h : LowC E E' q c c') {v : Pub} (hq : q.pub = some v) : c.hypertree_level = v.hypertree_level ∧ c'.hypertree_level = v.hypertree_level :=
  ⟨congrArg Pub.hypertree_level (h.pub v hq).1, congrArg Pub.hypertree_level (h.pub v hq).2⟩
theorem LowC.fors_keypair_addr (h : LowC E E' q c c') {v : Pub} (hq : q.pub = some v) : c.fors_keypair_addr = v.fors_keypair_addr ∧ c'.fors_keypair_addr = v.fors_keypair_addr :=
  ⟨congrArg Pub.fors_keypair_addr (h.pub v hq).1, congrArg Pub.fors_keypair_addr (h.pub v hq).2⟩
theorem LowC.tree_address (h : LowC E E' q c c') {v : Pub} (hq : q.pub = some v) : c.tree_address = v.tree_address ∧ c'.tree_address = v.tree_address :=
  ⟨congrArg Pub.tree_address (h.pub v hq).1, congrArg Pub.tree_address (h.pub v hq).2⟩

/-- The index of a leaf among all FORS leaves. -/
theorem leafIndex_rel (h : LowC E E' q c c') {v : Pub} (hq : q.pub = some v) (leaf : Nat) {R : Ctx → Ctx → Prop} {f f' : Nat → L Ctx} (hf : ∀ i, RelP R (f i) (f' i)) :
    RelP R (do let i ← addInt (← shlInt c.fors_tree c.ps.t) leaf; f i) (do let i ← addInt (← shlInt c'.fors_tree c'.ps.t) leaf; f' i) := by
  rw [(h.fors_tree hq).1, (h.fors_tree hq).2, h.ps]
  refine rel_bind (rel_refl _) ?_
  rintro a _ rfl
  refine rel_bind (rel_refl _) ?_
  rintro b _ rfl
  exact hf b

theorem set_fors_prf_adr_rel (hE : E'.cfg = E.cfg) (h : LowC E E' q c c') {v : Pub} (hq : q.pub = some v) (leaf : Nat) :
    RelP (LowC E E' q) (set_fors_prf_adr E c leaf) (set_fors_prf_adr E' c' leaf) := by
  unfold set_fors_prf_adr
  refine rel_frame ?_
  refine rel_bind (set_layer_adr_rel hE h _ _) fun c c' h => ?_
  refine rel_bind (set_tree_adr_rel hE h _ _) fun c c' h => ?_
  refine rel_bind (set_type_adr_rel hE h _ _) fun c c' h => ?_
  refine rel_bind (set_keypair_adr_rel hE h _ _) fun c c' h => ?_
  refine rel_bind (set_tree_height_adr_rel hE h _ _) fun c c' h => ?_
  exact leafIndex_rel h hq _ fun i => set_tree_index_adr_rel hE h _ _

theorem set_wots_prf_adr_rel (hE : E'.cfg = E.cfg) (h : LowC E E' q c c') (t l t' l' : Nat) :
    RelP (LowC E E' q) (set_wots_prf_adr E c t l) (set_wots_prf_adr E' c' t' l') := by
  unfold set_wots_prf_adr
  refine rel_frame ?_
  refine rel_bind (set_layer_adr_rel hE h _ _) fun c c' h => ?_
  refine rel_bind (set_tree_adr_rel hE h _ _) fun c c' h => ?_
  refine rel_bind (set_type_adr_rel hE h _ _) fun c c' h => ?_
  refine rel_bind (set_keypair_adr_rel hE h _ _) fun c c' h => ?_
  refine rel_bind (set_tree_height_adr_rel hE h _ _) fun c c' h => ?_
  exact set_tree_index_adr_rel hE h _ _

theorem ts_set_wots_f_adr_rel (hE : E'.cfg = E.cfg) (h : LowC E E' q c c') (t l a t' l' a' : Nat) :
    RelP (LowC E E' q) (ts_set_wots_f_adr E c t l a) (ts_set_wots_f_adr E' c' t' l' a') := by
  unfold ts_set_wots_f_adr
  refine rel_frame ?_
  refine rel_bind (set_layer_adr_rel hE h _ _) fun c c' h => ?_
  refine rel_bind (set_tree_adr_rel hE h _ _) fun c c' h => ?_
  refine rel_bind (set_type_adr_rel hE h _ _) fun c c' h => ?_
  refine rel_bind (set_keypair_adr_rel hE h _ _) fun c c' h => ?_
  refine rel_bind (set_tree_height_adr_rel hE h _ _) fun c c' h => ?_
  exact set_tree_index_adr_rel hE h _ _

theorem ts_set_merkle_adr_rel (hE : E'.cfg = E.cfg) (h : LowC E E' q c c') {v : Pub} (hq : q.pub = some v) (node level ty : Nat) :
    RelP (LowC E E' q) (ts_set_merkle_adr E c node level ty) (ts_set_merkle_adr E' c' node level ty) := by
  unfold ts_set_merkle_adr
  refine rel_frame ?_
  refine rel_bind (set_layer_adr_rel hE h _ _) fun c c' h => ?_
  refine rel_bind (set_tree_adr_rel hE h _ _) fun c c' h => ?_
  refine rel_bind (set_type_adr_rel hE h _ _) fun c c' h => ?_
  refine rel_bind (set_keypair_adr_rel hE h _ _) fun c c' h => ?_
  refine rel_bind (set_tree_height_adr_rel hE h _ _) fun c c' h => ?_
  rw [(h.fors_tree hq).1, (h.fors_tree hq).2, h.ps]
  refine rel_bind (rel_refl _) ?_
  rintro a _ rfl
  refine rel_bind (rel_refl _) ?_
  rintro b _ rfl
  exact set_tree_index_adr_rel hE h _ _

theorem ts_set_fors_root_adr_rel (hE : E'.cfg = E.cfg) (h : LowC E E' q c c') :
    RelP (LowC E E' q) (ts_set_fors_root_adr E c) (ts_set_fors_root_adr E' c') := by
  unfold ts_set_fors_root_adr
  refine rel_frame ?_
  refine rel_bind (set_layer_adr_rel hE h _ _) fun c c' h => ?_
  refine rel_bind (set_tree_adr_rel hE h _ _) fun c c' h => ?_
  refine rel_bind (set_type_adr_rel hE h _ _) fun c c' h => ?_
  refine rel_bind (set_keypair_adr_rel hE h _ _) fun c c' h => ?_
  refine rel_bind (set_tree_height_adr_rel hE h _ _) fun c c' h => ?_
  exact set_tree_index_adr_rel hE h _ _

theorem ts_set_wots_header_adr_rel (hE : E'.cfg = E.cfg) (h : LowC E E' q c c') (l l' : Nat) :
    RelP (LowC E E' q) (ts_set_wots_header_adr E l c) (ts_set_wots_header_adr E' l' c') := by
  unfold ts_set_wots_header_adr
  refine rel_frame ?_
  refine rel_bind (set_layer_adr_rel hE h _ _) fun c c' h => ?_
  refine rel_bind (set_tree_adr_rel hE h _ _) fun c c' h => ?_
  refine rel_bind (set_type_adr_rel hE h _ _) fun c c' h => ?_
  refine rel_bind (set_keypair_adr_rel hE h _ _) fun c c' h => ?_
  refine rel_bind (set_tree_height_adr_rel hE h _ _) fun c c' h => ?_
  exact set_tree_index_adr_rel hE h _ _

/-! ## Leaves -/

theorem fors_prf_rel (hE : E'.cfg = E.cfg) (hm : MemLow mem mem') (h : LowC E E' q c c') {v : Pub} (hq : q.pub = some v) {o o' : Bytes} (ho : Len o o') (leaf : Nat) :
    RelP (OutC E E' q) (fors_prf E mem o leaf c) (fors_prf E' mem' o' leaf c') := by
  unfold fors_prf
  refine rel_frame ?_
  refine rel_bind (set_fors_prf_adr_rel hE h hq _) fun c c' h => ?_
  exact call_prf_rel hE hm h ho

theorem wots_prf_rel (hE : E'.cfg = E.cfg) (hm : MemLow mem mem') (h : LowC E E' q c c') {o o' : Bytes} (ho : Len o o') (t l t' l' : Nat) :
    RelP (OutC E E' q) (wots_prf E mem o t l c) (wots_prf E' mem' o' t' l' c') := by
  unfold wots_prf
  refine rel_frame ?_
  refine rel_bind (set_wots_prf_adr_rel hE h _ _ _ _) fun c c' h => ?_
  exact call_prf_rel hE hm h ho

theorem fors_leaf_rel (hE : E'.cfg = E.cfg) (hm : MemLow mem mem') (h : LowC E E' q c c') {v : Pub} (hq : q.pub = some v) {o o' : Bytes} (ho : Len o o') (leaf : Nat) :
    RelP (OutC E E' q) (fors_leaf E mem o leaf c) (fors_leaf E' mem' o' leaf c') := by
  unfold fors_leaf
  refine rel_frame ?_
  refine rel_bind (set_fors_prf_adr_rel hE h hq _) fun c c' h => ?_
  refine rel_bind (call_prf_rel hE hm h ho) fun a b h => ?_
  refine rel_bind (set_type_adr_rel hE h.2 _ _) fun c c' h2 => ?_
  exact call_f_rel hE hm h2 h.1 h.1

/-- The chain from one node to a later one. -/
theorem chain_rel (hE : E'.cfg = E.cfg) (hm : MemLow mem mem') {s s' : Bytes × Ctx} (h : OutC E E' q s s') (t t' : Ctx → Nat) (l l' cnt : Nat) :
    RelP (OutC E E' q)
      (loop (fun i (s : Bytes × Ctx) => do
        let (buffer, ctx) := s
        let ctx ← ts_set_wots_f_adr E ctx (t ctx) l i
        call_f E mem buffer buffer ctx) cnt 0 s)
      (loop (fun i (s : Bytes × Ctx) => do
        let (buffer, ctx) := s
        let ctx ← ts_set_wots_f_adr E' ctx (t' ctx) l' i
        call_f E' mem' buffer buffer ctx) cnt 0 s') := by
  refine rel_loop h fun i s s' _ _ h => ?_
  refine rel_bind (ts_set_wots_f_adr_rel hE h.2 _ _ _ _ _ _) fun c c' h2 => ?_
  exact call_f_rel hE hm h2 h.1 h.1

theorem ts_wots_leaf_rel (hE : E'.cfg = E.cfg) (hm : MemLow mem mem') (h : LowC E E' q c c') {o o' : Bytes} (ho : Len o o') (leaf leaf' : Nat) :
    RelP (OutC E E' { q with K := fun _ => False, dig := none, big := False }) (ts_wots_leaf E mem o leaf c) (ts_wots_leaf E' mem' o' leaf' c') := by
  unfold ts_wots_leaf
  refine rel_frame ?_
  refine rel_bind (ts_set_wots_header_adr_rel hE h _ _) fun c c' h => ?_
  refine rel_bind (call_init_t_rel hE hm h h.bigw) fun t t' ht => ?_
  have e : c'.ps.n = c.ps.n := by rw [h.ps]
  have h := (h.setBig ht).forgetX
  show RelP _ (loop _ (2 * c.ps.n + 3) 0 _ >>= _) (loop _ (2 * c'.ps.n + 3) 0 _ >>= _)
  rw [e]
  refine rel_bind (R := LowC E E' { q with K := fun _ => False, dig := none, big := True }) (rel_loop h fun i c c' _ _ h => ?_) fun c c' h => ?_
  · rw [hE]
    refine rel_bind (rel_rdSlice h.x.len _ _) fun b b' hb => ?_
    refine rel_bind (wots_prf_rel hE hm h (eq_len hb) _ _ _ _) fun b b' hb => ?_
    refine rel_bind (chain_rel hE hm hb (fun _ => leaf) (fun _ => leaf') _ _ _) fun b b' hb => ?_
    refine rel_bind (rel_wrSlice hb.2.x.len _ hb.1) fun x x' hx => ?_
    have h := hb.2.setX hx.low (dg := none) (fun _ h => by cases h)
    refine rel_bind (call_next_t_rel hE h (h.bigs trivial) hb.1) fun t t' ht => ?_
    exact rel_ok (h.setBig ht)
  · refine rel_bind (call_final_t_rel hE h (h.bigs trivial) ho) fun t t' ht => ?_
    exact rel_ok ⟨ht.1, h.endBig ht.2⟩

/-! ## Trees -/

theorem combine_rel (hE : E'.cfg = E.cfg) (hm : MemLow mem mem') (h : LowC E E' q c c') {o o' a a' b b' : Bytes} (ho : Len o o') (ha : Len a a') (hb : Len b b') :
    RelP (OutC E E' q) (combine E mem o a b c) (combine E' mem' o' a' b' c') := by
  unfold combine
  refine rel_bind (call_init_t_rel hE hm h h.small) fun t t' ht => ?_
  refine rel_bind (call_next_t_rel hE h ht.2 ha) fun t t' ht => ?_
  refine rel_bind (call_next_t_rel hE h ht.2 hb) fun t t' ht => ?_
  refine rel_bind (call_final_t_rel hE h ht.2 ho) fun t t' ht => ?_
  exact rel_ok ⟨ht.1, h.setSmall ht.2⟩

theorem regGet_rel (h : LowC E E' q c c') (r : Region) (i len : Nat) :
    RelP (fun a b : Bytes => a.length = len ∧ b.length = len) (regGet r c i len) (regGet r c' i len) := by
  refine rel_prim rfl ?_
  unfold Region.get
  split
  · exact (rel_rdSlice h.x.len (r.off + i) len).2
  · trivial

theorem regPut_rel (h : LowC E E' q c c') (r : Region) (hr : (∀ i, q.K i → i < r.off) ∧ (∀ v, q.dig = some v → 0 < r.off)) (i : Nat) {a b : Bytes} (hab : Len a b) :
    RelP (LowC E E' q) (regPut r c i a) (regPut r c' i b) := by
  refine rel_prim (by rw [show a.length = b.length from hab]) ?_
  unfold Region.put
  rw [show a.length = b.length from hab]
  split
  · have h2 := (rel_wrSliceK h.x (r.off + i) hab (fun j hj _ => by have := hr.1 _ hj; omega)).2
    revert h2
    simp only [wrSlice, prim]
    cases hy : Model.wrSlice c.x (r.off + i) a with
    | error e => cases Model.wrSlice c'.x (r.off + i) b with
      | error e => intro _; trivial
      | ok y => intro h; exact h.elim
    | ok x =>
      cases Model.wrSlice c'.x (r.off + i) b with
      | error e => intro h; exact h.elim
      | ok y =>
        intro h2
        refine h.setX h2 (dg := q.dig) fun v hv => ?_
        have h0 := h.dig v hv
        have hoff := hr.2 v hv
        have : x = c.x.take (r.off + i) ++ a ++ c.x.drop (r.off + i + a.length) := by
          unfold Model.wrSlice at hy
          split at hy
          · exact (Except.ok.inj hy).symm
          · cases hy
        have hl : 0 < c.x.length := by
          rcases Nat.eq_zero_or_pos c.x.length with h | h
          · rw [List.getElem?_eq_none (by omega)] at h0; cases h0
          · exact h
        rw [this, List.getElem?_append_left (by simp only [List.length_append, List.length_take]; omega),
          List.getElem?_append_left (by simp only [List.length_take]; omega), List.getElem?_take_of_lt (by omega)]
        exact h0
  · trivial

theorem pathInner_rel (hE : E'.cfg = E.cfg) (hm : MemLow mem mem') (h : LowC E E' q c c') {v : Pub} (hq : q.pub = some v) (r : Region) (ty leaf fuel nod k : Nat) :
    RelP (fun a b => a.1 = b.1 ∧ LowC E E' q a.2 b.2) (pathInner E mem r ty leaf fuel nod k c) (pathInner E' mem' r ty leaf fuel nod k c') := by
  induction fuel generalizing nod k c c' with
  | zero => exact rel_error _ _
  | succ fuel ih =>
    unfold pathInner
    refine rel_branch Iff.rfl (fun _ _ => ?_) fun _ _ => rel_ok ⟨rfl, h⟩
    refine rel_bind (ts_set_merkle_adr_rel hE h hq _ _ _) fun c1 c1' h1 => ?_
    rw [show c'.ps.n = c.ps.n by rw [h.ps]]
    refine rel_bind (regGet_rel h1 _ _ _) fun a a' ha => ?_
    refine rel_bind (combine_rel hE hm h1 h1.buf (eq_len ha) h1.buf) fun b b' hb => ?_
    exact ih (hb.2.setBuf hb.1) _ _

/-- One level further up. -/
def Pub.up (v : Pub) : Pub := { v with merkle_level := (v.merkle_level + 1) % 256, buffer_offset := 0 }

theorem ts_merkle_path_rel (hE : E'.cfg = E.cfg) (hm : MemLow mem mem') {v : Pub} {node : Nat} (h : LowC E E' q c c') (hq : q.pub = some v) (hnode : q.node = some node)
    {g g' : Bytes → Nat → Ctx → L (Bytes × Ctx)}
    (hg : ∀ (w : Pub) (o o' : Bytes) (leaf : Nat) (c c' : Ctx), Len o o' → LowC E E' { q with pub := some w } c c' →
      RelP (OutC E E' { q with pub := some w }) (g o leaf c) (g' o' leaf c'))
    (ty : Nat) (r : Region) (hr : (∀ i, q.K i → i < r.off) ∧ (∀ v, q.dig = some v → 0 < r.off)) :
    RelP (LowC E E' { q with pub := some v.up }) (ts_merkle_path E mem g c ty r) (ts_merkle_path E' mem' g' c' ty r) := by
  unfold ts_merkle_path
  refine rel_frame ?_
  dsimp only
  obtain ⟨hml, hml'⟩ := h.merkle_level hq
  obtain ⟨hnd, hnd'⟩ := h.node _ hnode
  rw [hml, hml', hnd, hnd', h.ps]
  refine rel_bind (rel_refl _) ?_
  rintro sz _ rfl
  let w : Pub := { v with merkle_level := (v.merkle_level + 1) % 256 }
  have h0 : LowC E E' { q with pub := some w } { c with merkle_level := (v.merkle_level + 1) % 256 } { c' with merkle_level := (v.merkle_level + 1) % 256 } :=
    ⟨h.good, h.psq, h.ps, h.pk, h.buf, h.adr, h.auth, h.small, h.bigw, h.bigs, h.x, h.dig, by
      rintro _ ⟨⟩
      obtain ⟨h1, h2⟩ := h.pub v hq
      constructor
      · rw [show w = { pubOf c with merkle_level := (v.merkle_level + 1) % 256 } by rw [h1]]; rfl
      · rw [show w = { pubOf c' with merkle_level := (v.merkle_level + 1) % 256 } by rw [h2]]; rfl, h.node⟩
  simp only [hnd, hnd', h.ps] at h0
  refine rel_bind (R := LowC E E' { q with pub := some w }) (rel_loop h0 fun i c1 c1' _ _ h1 => ?_) fun c1 c1' h1 => ?_
  · refine rel_bind (rel_refl _) ?_
    rintro leaf _ rfl
    refine rel_bind (hg w _ _ _ _ _ h1.buf h1) fun b b' hb => ?_
    refine rel_bind (pathInner_rel hE hm (hb.2.setBuf hb.1) rfl _ _ _ _ _ _) ?_
    rintro ⟨k, c2⟩ ⟨k', c2'⟩ ⟨rfl, h2⟩
    refine rel_branch Iff.rfl (fun _ _ => ?_) fun _ _ => rel_ok h2
    refine rel_bind (rel_rdSlice h2.buf _ _) fun b b' hb => ?_
    exact regPut_rel h2 r hr _ (eq_len hb)
  · have h2 : LowC E E' { q with pub := some v.up } { c1 with buffer_offset := 0 } { c1' with buffer_offset := 0 } :=
      ⟨h1.good, h1.psq, h1.ps, h1.pk, h1.buf, h1.adr, h1.auth, h1.small, h1.bigw, h1.bigs, h1.x, h1.dig, by
        rintro _ ⟨⟩
        obtain ⟨e1, e2⟩ := h1.pub w rfl
        constructor
        · rw [show v.up = { pubOf c1 with buffer_offset := 0 } by rw [e1]; rfl]; rfl
        · rw [show v.up = { pubOf c1' with buffer_offset := 0 } by rw [e2]; rfl]; rfl, h1.node⟩
    refine rel_bind (ts_set_merkle_adr_rel hE h2 rfl _ _ _) fun c2 c2' h2 => ?_
    obtain ⟨hnd, hnd'⟩ := h2.node _ hnode
    rw [hnd, hnd']
    refine rel_bind (R := OutC E E' { q with pub := some v.up }) (rel_branch Iff.rfl (fun _ _ => ?_) fun _ _ => ?_) fun b b' hb => ?_
    · exact combine_rel hE hm h2 h2.auth h2.buf h2.auth
    · exact combine_rel hE hm h2 h2.auth h2.auth h2.buf
    · exact rel_ok (hb.2.setAuth hb.1)

end Leak
