import Verif.Model.LeakSim
import Verif.Proof.LeakSignRel
import Verif.Proof.LeakErase
import Verif.Proof.Arch
/-!
# Signing leaks only public values: the calls of the API
-/
namespace Leak
open Model
variable {E E' : Env} {mem mem' : Mem} {q : Know} {c c' : Ctx}

/-! ## ts_init_sign -/

theorem setForsNode_rel (hE : E'.cfg = E.cfg) {x x' : Bytes} {k : Nat} (h : Low (fun i => i < 2 * k) x x') (v : Nat) :
    RelP (Low (fun i => i < 2 * (k + 1))) (setForsNode E x k v) (setForsNode E' x' k v) := by
  refine rel_prim rfl ?_
  unfold Model.setForsNode
  rw [hE]
  split
  · exact (rel_wrSliceG (K := fun i => i < 2 * (k + 1)) h.1 (Config.forsNodeOff k)
      (v := E.cfg.arch.bytes 2 v) (w := E.cfg.arch.bytes 2 v) rfl
      (fun i hi ho => by
        refine h.2 i ?_
        unfold Config.forsNodeOff at ho
        rw [Arch.length_bytes] at ho
        omega) (fun _ _ _ => rfl)).2
  · trivial

/-- The result of the conversion of the message digest: equal positions. -/
def OutConv (E E' : Env) (q : Know) (a b : Ctx × Bytes) : Prop :=
  LowC E E' { ps := q.ps, K := fun i => i < 2 * q.ps.k } a.1 b.1 ∧ a.1.tree_address = b.1.tree_address ∧ a.1.fors_keypair_addr = b.1.fors_keypair_addr

theorem ts_convert_message_hash_rel (hE : E'.cfg = E.cfg) (h : LowC E E' q c c') (mh : Bytes) :
    RelP (OutConv E E' q) (ts_convert_message_hash E c mh) (ts_convert_message_hash E' c' mh) := by
  unfold ts_convert_message_hash
  refine rel_frame ?_
  dsimp only
  rw [h.ps]
  refine rel_bind (R := fun (a b : Cursor × Ctx) => a.1 = b.1 ∧ LowC E E' { ps := q.ps, K := fun i => i < 2 * (0 + c.ps.k) } a.2 b.2)
    (rel_loopI (R := fun k (a b : Cursor × Ctx) => a.1 = b.1 ∧ LowC E E' { ps := q.ps, K := fun i => i < 2 * k } a.2 b.2) ⟨rfl, ?_⟩ ?_) ?_
  · have := h.forget
    exact ⟨this.good, this.psq, this.ps, this.pk, this.buf, this.adr, this.auth, this.small, this.bigw, this.bigs, ⟨this.x.1, fun i hi => by omega⟩, this.dig, this.pub, this.node⟩
  · rintro k ⟨cur, c1⟩ ⟨_, c1'⟩ _ _ ⟨rfl, h1⟩
    dsimp only
    refine rel_bind (rel_refl _) ?_
    rintro ⟨cur, ix⟩ _ rfl
    dsimp only
    refine rel_bind (setForsNode_rel hE h1.x _) fun x x' hx => ?_
    exact rel_ok ⟨rfl, h1.setX hx (dg := none) (fun _ h => by cases h)⟩
  · rintro ⟨⟨mh, off, _⟩, c1⟩ ⟨_, c1'⟩ ⟨rfl, h1⟩
    dsimp only
    refine rel_bind (rel_refl _) ?_
    rintro ⟨tree, off⟩ _ rfl
    refine rel_bind (rel_refl _) ?_
    rintro ⟨leaf, off⟩ _ rfl
    dsimp only
    refine rel_ok ⟨?_, rfl, rfl⟩
    exact ⟨h1.good, h1.psq, h1.ps, h1.pk, h1.buf, h1.adr, h1.auth, h1.small, h1.bigw, h1.bigs,
      h1.x.mono fun i hi => by rw [h.psq, Nat.zero_add]; exact hi, h1.dig, (fun _ h => by cases h), h1.node⟩

/-- Generators which behave alike when asked for `n` bytes: both missing, or with the same return value and number of bytes. -/
def RngLow (n : Nat) : Option Rng → Option Rng → Prop
  | none, none => True
  | some f, some g => (f n).1 = (g n).1 ∧ (f n).2.length = (g n).2.length
  | _, _ => False

theorem askRng_rel {o o' : Bytes} (ho : Len o o') (n : Nat) {f g : Option Rng} (hf : RngLow n f g) :
    RelP (fun a b => a.1 = b.1 ∧ Len a.2.1 b.2.1 ∧ a.2.2 = b.2.2) (askRng o n f) (askRng o' n g) := by
  cases f with
  | none =>
    cases g with
    | none => exact rel_bind (rel_tick rfl) fun _ _ _ => rel_ok ⟨rfl, ho, rfl⟩
    | some _ => exact hf.elim
  | some f =>
    cases g with
    | none => exact hf.elim
    | some g =>
      refine rel_bind (rel_tick rfl) fun _ _ _ => ?_
      refine rel_bind (rel_tick (by rw [hf.1])) fun _ _ _ => ?_
      refine rel_bind (rel_wrSlice ho _ hf.2) fun o o' ho => ?_
      exact rel_ok ⟨hf.1, ho, rfl⟩

theorem fillOptBuffer_rel (hE : E'.cfg = E.cfg) (hm : MemLow mem mem') (pk n : Nat) {f g : Option Rng} (hf : RngLow n f g) :
    RelP (fun a b => Len a.1 b.1 ∧ a.2 = b.2) (fillOptBuffer E mem pk n f) (fillOptBuffer E' mem' pk n g) := by
  unfold fillOptBuffer
  dsimp only
  rw [hE]
  refine rel_bind (askRng_rel (local_len hE _ _) _ hf) ?_
  rintro ⟨ok, o, r⟩ ⟨_, o', _⟩ ⟨rfl, ho, rfl⟩
  refine rel_branch Iff.rfl (fun _ _ => rel_ok ⟨ho, rfl⟩) fun _ _ => ?_
  refine rel_bind (pubSeed_rel hm _ _) fun a b hab => ?_
  refine rel_bind (rel_wrSlice ho _ (eq_len hab)) fun o o' ho => ?_
  exact rel_ok ⟨ho, rfl⟩

/-- What is known in each state of a signature operation. -/
def KnowAt (q : Know) (v : Pub) : Prop :=
  match v.state with
  | .fors_leaf => q.K = (fun i => i < 2 * q.ps.k) ∧ q.big = True ∧ v.fors_tree < q.ps.k
  | .fors => q.K = (fun i => i < 2 * q.ps.k) ∧ q.big = True ∧ v.fors_tree < q.ps.k ∧ q.node ≠ none
  | .wots => q.K = (fun i => i < 2 * q.ps.n + 4) ∧ q.node ≠ none ∧ ∃ dg, q.dig = some dg ∧ dg.toNat < 2 * q.ps.n + 3
  | .merkle => q.K = (fun _ => False) ∧ q.dig = none ∧ q.big = False ∧ q.node ≠ none
  | _ => True

/-- Two contexts in the middle of signature operations at the same position. -/
def Inv (E E' : Env) (c c' : Ctx) : Prop :=
  ∃ q v, LowC E E' q c c' ∧ q.pub = some v ∧ KnowAt q v

theorem bind_assoc' {α β γ : Type} (x : L α) (f : α → L β) (g : β → L γ) : (x >>= f) >>= g = x >>= fun a => f a >>= g := by
  show L.bind (L.bind x f) g = L.bind x fun a => L.bind (f a) g
  obtain ⟨r, l⟩ := x
  cases r with
  | error e => rfl
  | ok a =>
    simp only [L.bind]
    generalize hy : f a = y
    obtain ⟨r, l'⟩ := y
    cases r with
    | error e => rfl
    | ok b => simp only [List.append_assoc]

theorem lok_bind {α β : Type} (a : α) (f : α → L β) : (L.ok a >>= f) = f a := by
  show L.bind (L.ok a) f = f a
  rfl

theorem ts_init_sign_split (c : Ctx) (msg len : Nat) (ps : ParamSet) (pk : Nat) (f : Option Rng) :
    ts_init_sign E mem c msg len ps pk f = frame .ts_init_sign (initHash E mem c msg len ps pk f >>= initRest E mem) := by
  unfold ts_init_sign initHash initRest
  simp only [bind_assoc', lok_bind]

theorem initHash_rel (hE : E'.cfg = E.cfg) (hm : MemLow mem mem') {ps : ParamSet} {pk msg len : Nat}
    (h : LowC E E' { ps := ps } { c with ps := ps, public_key := pk + 2 * ps.n } { c' with ps := ps, public_key := pk + 2 * ps.n })
    (hl : len < 2 ^ 63) {f g : Option Rng} (hf : RngLow ps.n f g) :
    RelP (fun a b => LowC E E' { ps := ps } a.1.2 b.1.2 ∧ a.2 = b.2) (initHash E mem c msg len ps pk f) (initHash E' mem' c' msg len ps pk g) := by
  unfold initHash
  dsimp only
  refine rel_bind (call_prehash_rel hE hm h) fun c c' h => ?_
  rw [h.pk]
  refine rel_bind (fillOptBuffer_rel hE hm _ _ hf) ?_
  rintro ⟨o, r⟩ ⟨o', _⟩ ⟨ho, rfl⟩
  refine rel_bind (call_prf_msg_rel hE hm h h.buf ho _ hl) fun a b hab => ?_
  have h := hab.2.setBuf hab.1
  refine rel_bind (call_hash_msg_rel hE hm h (local_len hE _ _) _ h.buf _ hl) fun a b hab => ?_
  exact rel_ok ⟨hab.2, rfl⟩

theorem initRest_rel (hE : E'.cfg = E.cfg) (hm : MemLow mem mem') {ps : ParamSet} (h : LowC E E' { ps := ps } c c') (mh : Bytes) (r : List Nat) :
    RelP (fun a b => Inv E E' a.1 b.1 ∧ a.2 = b.2) (initRest E mem ((mh, c), r)) (initRest E' mem' ((mh, c'), r)) := by
  unfold initRest
  dsimp only at h ⊢
  refine rel_bind (ts_convert_message_hash_rel hE h _) fun a b ⟨h, ht, hk⟩ => ?_
  let v : Pub := ⟨.fors_leaf, 0, 0, 0, 0, a.1.fors_keypair_addr, a.1.tree_address⟩
  have h : LowC E E' { ps := ps, K := fun i => i < 2 * ps.k, pub := some v }
      { a.1 with buffer_offset := 0, state := .fors_leaf, fors_tree := 0, merkle_level := 0, hypertree_level := 0 }
      { b.1 with buffer_offset := 0, state := .fors_leaf, fors_tree := 0, merkle_level := 0, hypertree_level := 0 } :=
    ⟨h.good, h.psq, h.ps, h.pk, h.buf, h.adr, h.auth, h.small, h.bigw, h.bigs, h.x, h.dig, by
      rintro _ ⟨⟩
      exact ⟨rfl, by show pubOf _ = v; simp only [v, ht, hk]; rfl⟩, h.node⟩
  refine rel_bind (ts_set_fors_root_adr_rel hE h) fun c c' h => ?_
  refine rel_bind (call_init_t_rel hE hm h h.bigw) fun t t' ht => ?_
  have h := h.setBig ht
  exact rel_ok ⟨⟨_, v, h, rfl, rfl, rfl, by have := h.good.k.1; rw [h.psq] at this; exact this⟩, rfl⟩

/-! ## Starting a WOTS+ signature -/

theorem compute_wots_digits_rel {x x' a b : Bytes} {n : Nat} (hx : Len x x') (hab : Len a b) :
    RelP Len (compute_wots_digits x a n) (compute_wots_digits x' b n) := by
  unfold compute_wots_digits
  refine rel_bind (R := fun (s t : Bytes × Nat) => Len s.1 t.1) (rel_loop hx ?_) ?_
  · rintro i ⟨x, s⟩ ⟨x', s'⟩ _ _ hx
    dsimp only
    refine rel_bind (rel_rd hab _) fun v w _ => ?_
    refine rel_bind (rel_wr hx _ _ _) fun x x' hx => ?_
    refine rel_bind (rel_wr hx _ _ _) fun x x' hx => ?_
    exact rel_ok hx
  · rintro ⟨x, s⟩ ⟨x', s'⟩ hx
    refine rel_bind (rel_wr hx _ _ _) fun x x' hx => ?_
    refine rel_bind (rel_wr hx _ _ _) fun x x' hx => ?_
    exact rel_wr hx _ _ _

theorem wrSlice_head {x v y : Bytes} {off : Nat} (h0 : 0 < off) (h : Model.wrSlice x off v = .ok y) : y[0]? = x[0]? := by
  unfold Model.wrSlice at h
  split at h
  · cases h
    rw [List.append_assoc]
    cases x with
    | nil => simp at *; omega
    | cons a t =>
      obtain ⟨o, rfl⟩ : ∃ o, off = o + 1 := ⟨off - 1, by omega⟩
      rfl
  · cases h

/-- As `Inv`, except that in the state `ts_wots` the WOTS+ digits of the second context may be wrong: it is enough to correct them. -/
def InvD (E E' : Env) (c c' : Ctx) : Prop :=
  pubOf c = pubOf c' ∧ (c.state ≠ .wots → Inv E E' c c') ∧
    (c.state = .wots → Len c.x c'.x ∧ c.x[0]? = c'.x[0]? ∧
      ∀ y, Len c.x y → c.x[0]? = y[0]? → (∀ i, i < 2 * c.ps.n + 3 → c.x[1 + i]? = y[1 + i]?) → Inv E E' c { c' with x := y })

theorem Inv.pub (h : Inv E E' c c') : pubOf c = pubOf c' := by
  obtain ⟨q, v, h, hq, _⟩ := h
  exact (h.pub v hq).1.trans (h.pub v hq).2.symm

theorem Inv.toD (h : Inv E E' c c') : InvD E E' c c' := by
  refine ⟨h.pub, fun _ => h, fun hs => ?_⟩
  obtain ⟨q, v, h, hq, hk⟩ := h
  have hk' := hk
  unfold KnowAt at hk
  rw [← (h.state hq).1, hs] at hk
  obtain ⟨hK, hnd, dg, hd, hdg⟩ := hk
  refine ⟨h.x.len, h.x.2 0 (by rw [hK]; show 0 < _; omega), fun y hl h0 hy => ⟨q, v, ?_, hq, hk'⟩⟩
  refine ⟨h.good, h.psq, h.ps, h.pk, h.buf, h.adr, h.auth, h.small, h.bigw, h.bigs, ⟨hl, fun i hi => ?_⟩, h.dig, h.pub, h.node⟩
  rw [hK] at hi
  have hi : i < 2 * q.ps.n + 4 := hi
  rcases Nat.eq_zero_or_pos i with rfl | hp
  · exact h0
  · have := hy (i - 1) (by rw [h.psq]; omega)
    rwa [show 1 + (i - 1) = i by omega] at this

theorem ts_set_up_wots_signature_rel (hE : E'.cfg = E.cfg) (h : LowC E E' q c c') {v : Pub} (hq : q.pub = some v) (leaf : Nat) :
    RelP (InvD E E') (ts_set_up_wots_signature E c leaf) (ts_set_up_wots_signature E' c' leaf) := by
  unfold ts_set_up_wots_signature
  refine rel_frame ?_
  rw [h.ps, hE]
  refine rel_bind (rel_wrG (K := fun j => j < 1) h.x.1 _ (fun j hj hne => absurd (Nat.lt_one_iff.mp hj) hne) fun _ => rfl) fun x x' hx => ?_
  refine rel_bind (rel_rdSlice hx.1.len _ _) fun b b' hb => ?_
  refine rel_bind (compute_wots_digits_rel (eq_len hb) h.auth) fun b b' hb => ?_
  refine rel_bind (rel_wrSliceG (K := fun i => i < 1) hx.1.1 Config.wotsDigitsOff hb (fun i hi ho => hx.1.2 i hi) fun i hi hl => ?_).res fun y y' hy => ?_
  · unfold Config.wotsDigitsOff at hi; omega
  · have hh := wrSlice_head (by decide) hy.2.1
    let w : Pub := { v with state := .wots, fors_keypair_addr := 0 }
    obtain ⟨e1, e2⟩ := h.pub v hq
    have e1 : pubOf { c with state := .wots, x := y, auth_path_node := leaf % 65536, fors_keypair_addr := 0 } = w := by
      rw [show w = { pubOf c with state := .wots, fors_keypair_addr := 0 } by rw [e1]]; rfl
    have e2 : pubOf { c' with state := .wots, x := y', auth_path_node := leaf % 65536, fors_keypair_addr := 0 } = w := by
      rw [show w = { pubOf c' with state := .wots, fors_keypair_addr := 0 } by rw [e2]]; rfl
    have e2' : pubOf { c' with ps := c.ps, state := .wots, x := y', auth_path_node := leaf % 65536, fors_keypair_addr := 0 } = w := e2
    refine rel_ok ⟨e1.trans e2.symm, fun h => absurd rfl h, fun _ => ⟨hy.1.1, hy.1.2 0 (by omega), fun z hl h0 hdig =>
      ⟨{ q with K := fun i => i < 2 * c.ps.n + 4, dig := some 0, pub := some w, node := some (leaf % 65536) }, w, ?_, rfl, ?_⟩⟩⟩
    · exact ⟨h.good, h.psq, rfl, h.pk, h.buf, h.adr, h.auth, h.small, h.bigw, h.bigs, ⟨hl, fun i hi => by
        rcases Nat.eq_zero_or_pos i with rfl | hp
        · exact h0
        · have := hdig (i - 1) (by show i - 1 < 2 * c.ps.n + 3; have hi : i < 2 * c.ps.n + 4 := hi; omega)
          rwa [show 1 + (i - 1) = i by omega] at this⟩, (by rintro _ ⟨⟩; rw [hh]; exact hx.2), (by
        rintro _ ⟨⟩
        exact ⟨e1, e2⟩), (by rintro _ ⟨⟩; exact ⟨rfl, rfl⟩)⟩
    · exact ⟨by rw [h.psq], by simp, 0, rfl, by show 0 < _; omega⟩

/-! ## The cases of ts_sign -/

theorem getWotsDigit_rel (hE : E'.cfg = E.cfg) {K : Nat → Prop} (h : Low K c.x c'.x) {i : Nat} (hi : K (1 + i)) :
    RelP Eq (getWotsDigit E c i) (getWotsDigit E' c' i) := by
  refine rel_prim rfl ?_
  unfold Model.getWotsDigit
  rw [hE]
  split
  · unfold Model.rd
    rw [show Config.wotsDigitsOff + i = 1 + i from rfl, h.2 _ hi]
    cases c'.x[1 + i]? <;> simp [Out, Bind.bind, Except.bind]
  · trivial

theorem getForsNode_rel (hE : E'.cfg = E.cfg) {K : Nat → Prop} {x x' : Bytes} (h : Low K x x') {k k' : Nat} (ek : k = k') (hk : K (2 * k)) (hk' : K (2 * k + 1)) :
    RelP Eq (getForsNode E x k) (getForsNode E' x' k') := by
  subst ek
  refine rel_prim rfl ?_
  have e : Model.getForsNode E x k = Model.getForsNode E' x' k := by
    unfold Model.getForsNode
    rw [hE, show Config.forsNodeOff k = 2 * k from rfl]
    split
    · have e2 : Model.rdSlice x (2 * k) 2 = Model.rdSlice x' (2 * k) 2 := by
        unfold Model.rdSlice
        rw [h.1]
        split
        · congr 1
          apply List.ext_getElem?
          intro i
          rw [List.getElem?_take, List.getElem?_take, List.getElem?_drop, List.getElem?_drop]
          split
          · rename_i hi
            match i, hi with
            | 0, _ => exact h.2 _ hk
            | 1, _ => exact h.2 _ hk'
          · rfl
        · rfl
      rw [e2]
    · rfl
  rw [e]
  cases Model.getForsNode E' x' k <;> simp [Out]

theorem generate_next_wots_hash_rel (hE : E'.cfg = E.cfg) (hm : MemLow mem mem') (h : LowC E E' q c c') {v : Pub} (hq : q.pub = some v) {node : Nat}
    (hn : q.node = some node) (hK : q.K = fun i => i < 2 * q.ps.n + 4) {dg : UInt8} (hd : q.dig = some dg) (hdg : dg.toNat < 2 * q.ps.n + 3) :
    RelP (LowC E E' { q with dig := some (dg + 1), pub := some { v with buffer_offset := 0 } }) (generate_next_wots_hash E mem c) (generate_next_wots_hash E' mem' c') := by
  unfold generate_next_wots_hash
  refine rel_frame ?_
  have hx := h.x
  refine rel_bind (rel_rdK hx (i := 0) (by rw [hK]; omega)) ?_
  rintro b _ ⟨rfl, hb⟩
  rw [h.dig _ hd] at hb
  cases hb
  refine rel_bind (rel_wrG (K := q.K) hx.1 0 (fun j hj _ => hx.2 j hj) fun _ => rfl) fun x x' hx => ?_
  have h1 := h.setX hx.1 (dg := some (dg + 1)) (by rintro _ ⟨⟩; exact hx.2)
  dsimp only
  refine rel_bind (wots_prf_rel hE hm h1 h1.buf _ _ _ _) fun b b' hb => ?_
  refine rel_bind (getWotsDigit_rel hE hb.2.x (by show q.K _; rw [hK]; show _ < _; omega)) ?_
  rintro cnt _ rfl
  refine rel_bind (chain_rel hE hm hb (fun c => c.auth_path_node) (fun c => c.auth_path_node) _ _ _) fun b b' hb => ?_
  have h2 := hb.2
  refine rel_ok ⟨h2.good, h2.psq, h2.ps, h2.pk, hb.1, h2.adr, h2.auth, h2.small, h2.bigw, h2.bigs, h2.x, h2.dig, (by
    rintro _ ⟨⟩
    obtain ⟨e1, e2⟩ := h2.pub v hq
    constructor
    · rw [← e1]; rfl
    · rw [← e2]; rfl), h2.node⟩

theorem signForsLeaf_rel (hE : E'.cfg = E.cfg) (hm : MemLow mem mem') (h : LowC E E' q c c') {v : Pub} (hq : q.pub = some v) (hv : v.state = .fors_leaf) (hk : KnowAt q v) :
    RelP (Inv E E') (signForsLeaf E mem c) (signForsLeaf E' mem' c') := by
  unfold KnowAt at hk
  rw [hv] at hk
  obtain ⟨hK, hbig, hft⟩ := hk
  unfold signForsLeaf
  have e := h.fors_tree hq
  refine rel_bind (getForsNode_rel hE h.x (e.1.trans e.2.symm) (by rw [hK, e.1]; show _ < _; omega) (by rw [hK, e.1]; show _ < _; omega)) ?_
  rintro node _ rfl
  have h1 : LowC E E' { q with node := some node } { c with auth_path_node := node } { c' with auth_path_node := node } :=
    ⟨h.good, h.psq, h.ps, h.pk, h.buf, h.adr, h.auth, h.small, h.bigw, h.bigs, h.x, h.dig, h.pub, (by rintro _ ⟨⟩; exact ⟨rfl, rfl⟩)⟩
  dsimp only
  refine rel_bind (fors_prf_rel hE hm h1 hq h1.buf _) fun b b' hb => ?_
  have h2 := hb.2
  let w : Pub := { v with buffer_offset := 0, merkle_level := 0, state := .fors }
  have h3 : LowC E E' { q with node := some node, pub := some w } { b.2 with buffer := b.1, buffer_offset := 0, merkle_level := 0, state := .fors }
      { b'.2 with buffer := b'.1, buffer_offset := 0, merkle_level := 0, state := .fors } :=
    ⟨h2.good, h2.psq, h2.ps, h2.pk, hb.1, h2.adr, h2.auth, h2.small, h2.bigw, h2.bigs, h2.x, h2.dig, (by
      rintro _ ⟨⟩
      obtain ⟨e1, e2⟩ := h2.pub v hq
      constructor
      · simp only [w]; rw [← e1]; rfl
      · simp only [w]; rw [← e2]; rfl), h2.node⟩
  refine rel_bind (fors_leaf_rel hE hm h3 rfl h3.auth _) fun b b' hb => ?_
  refine rel_ok ⟨_, w, hb.2.setAuth hb.1, rfl, ?_⟩
  exact ⟨hK, hbig, hft, by simp⟩

theorem signFors_rel (hE : E'.cfg = E.cfg) (hm : MemLow mem mem') (h : LowC E E' q c c') {v : Pub} (hq : q.pub = some v) (hv : v.state = .fors) (hk : KnowAt q v) :
    RelP (InvD E E') (signFors E mem c) (signFors E' mem' c') := by
  unfold KnowAt at hk
  rw [hv] at hk
  obtain ⟨hK, hbig, hft, hnd⟩ := hk
  obtain ⟨node, hnode⟩ := Option.ne_none_iff_exists'.mp hnd
  unfold signFors
  have hr : (∀ i, q.K i → i < Config.forsStackOff) ∧ (∀ v, q.dig = some v → 0 < Config.forsStackOff) := by
    refine ⟨fun i hi => ?_, fun _ _ => by decide⟩
    rw [hK] at hi
    have := h.good.k.2
    rw [h.psq] at this
    unfold Config.forsStackOff MAX_FORS
    exact Nat.lt_of_lt_of_le hi (by omega)
  rw [hE]
  refine rel_bind (ts_merkle_path_rel hE hm h hq hnode (g := fors_leaf E mem) (g' := fors_leaf E' mem')
    (fun w o o' leaf c c' ho h => fors_leaf_rel hE hm h rfl ho leaf) ADR_TYPE_FORSTREE ⟨Config.forsStackOff, E.cfg.forsStackSize⟩ hr) ?_
  intro c c' h
  have e := h.merkle_level rfl
  refine rel_branch (by rw [e.1, e.2, h.ps]) (fun _ _ => ?_) fun _ _ => ?_
  · refine rel_bind (call_next_t_rel hE h (h.bigs (by rw [hbig]; trivial)) h.auth) fun t t' ht => ?_
    have e := h.fors_tree rfl
    let w : Pub := { v.up with state := .fors_leaf, fors_tree := (v.fors_tree + 1) % 256 }
    have h1 : LowC E E' { q with pub := some w, big := True } { c with big_iter := t, state := .fors_leaf, fors_tree := (c.fors_tree + 1) % 256 }
        { c' with big_iter := t', state := .fors_leaf, fors_tree := (c'.fors_tree + 1) % 256 } :=
      ⟨h.good, h.psq, h.ps, h.pk, h.buf, h.adr, h.auth, h.small, ht.1, fun _ => ht.2, h.x, h.dig, (by
        rintro _ ⟨⟩
        obtain ⟨e1, e2⟩ := h.pub _ rfl
        constructor
        · simp only [w]; rw [← e1]; simp only [pubOf, show v.fors_tree = c.fors_tree from e.1.symm]
        · simp only [w]; rw [← e2]; simp only [pubOf, show v.fors_tree = c'.fors_tree from e.2.symm]), h.node⟩
    dsimp only
    refine rel_branch (by rw [e.1, e.2, h.ps]) (fun _ _ => ?_) fun hne _ => ?_
    · refine rel_bind (call_final_t_rel hE h1 (h1.bigs trivial) h1.auth) fun a a' ha => ?_
      let z : Pub := { w with fors_tree := 0 }
      have h2 : LowC E E' { q with pub := some z, big := False } { c with big_iter := a.2, state := .fors_leaf, fors_tree := 0, auth_path_buffer := a.1 }
          { c' with big_iter := a'.2, state := .fors_leaf, fors_tree := 0, auth_path_buffer := a'.1 } :=
        ⟨h1.good, h1.psq, h1.ps, h1.pk, h1.buf, h1.adr, ha.1, h1.small, ha.2, fun h => h.elim, h1.x, h1.dig, (by
          rintro _ ⟨⟩
          obtain ⟨e1, e2⟩ := h1.pub _ rfl
          constructor
          · simp only [z]; rw [← e1]; rfl
          · simp only [z]; rw [← e2]; rfl), h1.node⟩
      have e3 := h2.fors_keypair_addr rfl
      dsimp only at e3 ⊢
      rw [show c'.fors_keypair_addr = c.fors_keypair_addr from e3.2.trans e3.1.symm]
      have := ts_set_up_wots_signature_rel hE h2 rfl c.fors_keypair_addr
      rw [show c'.fors_keypair_addr = c.fors_keypair_addr from e3.2.trans e3.1.symm] at this
      exact this
    · refine rel_ok (Inv.toD ⟨_, w, h1, rfl, hK, rfl, ?_⟩)
      have hk := h.good.k
      rw [h.psq, e.1] at hne
      rw [h.psq] at hk
      show (v.fors_tree + 1) % 256 < q.ps.k
      have hne : ¬ (v.fors_tree + 1) % 256 = q.ps.k := hne
      have hk : 0 < q.ps.k ∧ q.ps.k ≤ 35 := hk
      omega
  · refine rel_ok (Inv.toD ⟨_, _, h, rfl, ?_⟩)
    unfold KnowAt
    rw [show v.up.state = St.fors from hv]
    exact ⟨hK, hbig, hft, hnd⟩

theorem signWots_rel (hE : E'.cfg = E.cfg) (hm : MemLow mem mem') (h : LowC E E' q c c') {v : Pub} (hq : q.pub = some v) (hv : v.state = .wots) (hk : KnowAt q v) :
    RelP (Inv E E') (signWots E mem c) (signWots E' mem' c') := by
  unfold KnowAt at hk
  rw [hv] at hk
  obtain ⟨hK, hnd, dg, hd, hdg⟩ := hk
  obtain ⟨node, hnode⟩ := Option.ne_none_iff_exists'.mp hnd
  have hn := h.good.n
  rw [h.psq] at hn
  unfold signWots
  refine rel_bind (generate_next_wots_hash_rel hE hm h hq hnode hK hd hdg) fun c c' h => ?_
  refine rel_bind (rel_rdK h.x (i := 0) (by show q.K 0; rw [hK]; show _ < _; omega)) ?_
  rintro b _ ⟨rfl, hb⟩
  rw [h.dig _ rfl] at hb
  cases hb
  refine rel_branch (by rw [h.ps]) (fun _ _ => ?_) fun hne _ => ?_
  · let w : Pub := { v with buffer_offset := 0, state := .merkle, merkle_level := 0 }
    have h2 : LowC E E' { q with dig := some (dg + 1), pub := some w } { c with state := .merkle, merkle_level := 0 } { c' with state := .merkle, merkle_level := 0 } :=
      ⟨h.good, h.psq, h.ps, h.pk, h.buf, h.adr, h.auth, h.small, h.bigw, h.bigs, h.x, h.dig, (by
        rintro _ ⟨⟩
        obtain ⟨e1, e2⟩ := h.pub _ rfl
        constructor
        · rw [show w = { pubOf c with state := .merkle, merkle_level := 0 } by rw [e1]]; rfl
        · rw [show w = { pubOf c' with state := .merkle, merkle_level := 0 } by rw [e2]]; rfl), h.node⟩
    refine rel_bind (ts_wots_leaf_rel hE hm h2 h2.auth _ _) fun a a' ha => ?_
    refine rel_ok ⟨_, w, ha.2.setAuth ha.1, rfl, rfl, rfl, rfl, hnd⟩
  · refine rel_ok ⟨_, _, h, rfl, ?_⟩
    unfold KnowAt
    rw [show ({ v with buffer_offset := 0 } : Pub).state = St.wots from hv]
    refine ⟨hK, hnd, dg + 1, rfl, ?_⟩
    have e : (dg + 1).toNat = dg.toNat + 1 := by
      rw [UInt8.toNat_add]
      show (dg.toNat + 1) % 256 = _
      omega
    have hne : ¬ (dg + 1).toNat = 2 * c.ps.n + 3 := hne
    rw [h.psq] at hne
    have hne : ¬ (dg + 1).toNat = 2 * q.ps.n + 3 := hne
    show (dg + 1).toNat < 2 * q.ps.n + 3
    omega

theorem signMerkle_rel (hE : E'.cfg = E.cfg) (hm : MemLow mem mem') (h : LowC E E' q c c') {v : Pub} (hq : q.pub = some v) (hv : v.state = .merkle) (hk : KnowAt q v) :
    RelP (InvD E E') (signMerkle E mem c) (signMerkle E' mem' c') := by
  unfold KnowAt at hk
  rw [hv] at hk
  obtain ⟨hK, hd, hb, hnd⟩ := hk
  obtain ⟨node, hnode⟩ := Option.ne_none_iff_exists'.mp hnd
  have hqq : q = { q with K := fun _ => False, dig := none, big := False } := by
    obtain ⟨ps, K, dig, pub, node, big⟩ := q
    dsimp only at hK hd hb
    rw [hK, hd, hb]
  unfold signMerkle
  rw [hE]
  refine rel_bind (ts_merkle_path_rel hE hm h hq hnode (g := ts_wots_leaf E mem) (g' := ts_wots_leaf E' mem')
    (fun w o o' leaf c c' ho h => by
      have := ts_wots_leaf_rel hE hm h ho leaf leaf
      rw [hqq]
      exact this) ADR_TYPE_HASHTREE ⟨E.cfg.merkleStackOff, E.cfg.merkleStackSize⟩
    ⟨fun i hi => by rw [hK] at hi; exact hi.elim, fun _ h => by rw [hd] at h; cases h⟩) fun c c' h => ?_
  have e := h.merkle_level rfl
  refine rel_branch (by rw [e.1, e.2, h.ps]) (fun _ _ => ?_) fun _ _ => ?_
  · have e := h.hypertree_level rfl
    dsimp only
    refine rel_branch (by rw [e.1, e.2, h.ps]) (fun _ _ => ?_) fun _ _ => ?_
    · let w : Pub := { v.up with hypertree_level := (v.up.hypertree_level + 1) % 256, state := .done }
      refine rel_ok (Inv.toD ⟨{ q with pub := some w }, w, ?_, rfl, trivial⟩)
      exact ⟨h.good, h.psq, h.ps, h.pk, h.buf, h.adr, h.auth, h.small, h.bigw, h.bigs, h.x, h.dig, (by
        rintro _ ⟨⟩
        obtain ⟨e1, e2⟩ := h.pub _ rfl
        constructor
        · simp only [w]; rw [← e1]; rfl
        · simp only [w]; rw [← e2]; rfl), h.node⟩
    · have et := h.tree_address rfl
      rw [show c'.ps.merkle_h = c.ps.merkle_h by rw [h.ps]]
      refine rel_bind (rel_refl _) ?_
      rintro msk _ rfl
      let w : Pub := { v.up with hypertree_level := (v.up.hypertree_level + 1) % 256, tree_address := v.up.tree_address >>> c.ps.merkle_h }
      have h2 : LowC E E' { q with pub := some w, node := some ((v.up.tree_address &&& (msk - 1)) % 65536) }
          { c with hypertree_level := (c.hypertree_level + 1) % 256, auth_path_node := (c.tree_address &&& (msk - 1)) % 65536, tree_address := c.tree_address >>> c.ps.merkle_h }
          { c' with hypertree_level := (c'.hypertree_level + 1) % 256, auth_path_node := (c'.tree_address &&& (msk - 1)) % 65536, tree_address := c'.tree_address >>> c.ps.merkle_h } :=
        ⟨h.good, h.psq, h.ps, h.pk, h.buf, h.adr, h.auth, h.small, h.bigw, h.bigs, h.x, h.dig, (by
          rintro _ ⟨⟩
          obtain ⟨e1, e2⟩ := h.pub _ rfl
          constructor
          · simp only [w]; rw [← e1]; rfl
          · simp only [w]; rw [← e2]; rfl), (by rintro _ ⟨⟩; exact ⟨by rw [← et.1], by rw [← et.2]⟩)⟩
      have := ts_set_up_wots_signature_rel hE h2 rfl ((v.up.tree_address &&& (msk - 1)) % 65536)
      rw [et.1, et.2] at this
      rw [et.1, et.2]
      exact this
  · refine rel_ok (Inv.toD ⟨_, _, h, rfl, ?_⟩)
    unfold KnowAt
    rw [show v.up.state = St.merkle from hv]
    exact ⟨hK, hd, hb, hnd⟩

/-! ## ts_sign -/

/-- Both absent, or both present and related. -/
def OptRel (R : α → β → Prop) : Option α → Option β → Prop
  | none, none => True
  | some a, some b => R a b
  | _, _ => False

theorem Inv.state (h : Inv E E' c c') : c'.state = c.state := by
  obtain ⟨q, v, h, hq, _⟩ := h
  rw [(h.state hq).1, (h.state hq).2]

theorem signStep_rel (hE : E'.cfg = E.cfg) (hm : MemLow mem mem') (h : Inv E E' c c') :
    RelP (OptRel (InvD E E')) (signStep E mem c) (signStep E' mem' c') := by
  have hs := h.state
  obtain ⟨q, v, h, hq, hk⟩ := h
  have hv := (h.state hq).1
  unfold signStep
  refine rel_select (by rw [hs]) ?_
  rw [hs]
  cases hst : c.state <;> rw [hst] at hv <;> dsimp only
  case fors_leaf => exact rel_bind (signForsLeaf_rel hE hm h hq hv.symm hk) fun a b hab => rel_ok hab.toD
  case fors => exact rel_bind (signFors_rel hE hm h hq hv.symm hk) fun a b hab => rel_ok hab
  case wots => exact rel_bind (signWots_rel hE hm h hq hv.symm hk) fun a b hab => rel_ok hab.toD
  case merkle => exact rel_bind (signMerkle_rel hE hm h hq hv.symm hk) fun a b hab => rel_ok hab
  all_goals exact rel_ok trivial

theorem Inv.offset (h : Inv E E' c c') : c'.buffer_offset = c.buffer_offset := by
  obtain ⟨q, v, h, hq, _⟩ := h
  rw [(h.buffer_offset hq).1, (h.buffer_offset hq).2]

theorem Inv.setOffset (h : Inv E E' c c') (o : Nat) : Inv E E' { c with buffer_offset := o } { c' with buffer_offset := o } := by
  obtain ⟨q, v, h, hq, hk⟩ := h
  refine ⟨{ q with pub := some { v with buffer_offset := o } }, { v with buffer_offset := o }, ?_, rfl, ?_⟩
  · exact ⟨h.good, h.psq, h.ps, h.pk, h.buf, h.adr, h.auth, h.small, h.bigw, h.bigs, h.x, h.dig, (by
      rintro _ ⟨⟩
      obtain ⟨e1, e2⟩ := h.pub _ hq
      constructor
      · rw [← e1]; rfl
      · rw [← e2]; rfl), h.node⟩
  · unfold KnowAt at hk ⊢
    exact hk

/-- Results of `ts_sign`: the same count, a destination of the same size, contexts at the same position. -/
def OutSign (E E' : Env) (a b : Nat × Bytes × Ctx) : Prop := a.1 = b.1 ∧ Len a.2.1 b.2.1 ∧ Inv E E' a.2.2 b.2.2

/-- What is used about the values the signer computes: a property of its contexts, kept by the steps, from which the WOTS+ digits follow. -/
structure Func (E : Env) (mem : Mem) (n : Nat) (digits : Nat → Bytes) (G : Ctx → Prop) : Prop where
  step : ∀ c a, G c → Model.signStep E mem c = .ok (some a) → G a
  off : ∀ c o, G c → G { c with buffer_offset := o }
  ps : ∀ c, G c → c.ps.n = n
  dig : ∀ c, G c → c.state = .wots → (digits c.hypertree_level).length = 2 * n + 3 ∧ 2 * n + 4 ≤ c.x.length ∧
    ∀ i, i < 2 * n + 3 → c.x[1 + i]? = (digits c.hypertree_level)[i]?

theorem InvD.patch {n : Nat} {digits : Nat → Bytes} {G : Ctx → Prop} (F : Func E mem n digits G) (h : InvD E E' c c') (g : G c) : Inv E E' c (patch digits c') := by
  obtain ⟨hp, h1, h2⟩ := h
  have e1 : c'.state = c.state := (congrArg Pub.state hp).symm
  have e2 : c'.hypertree_level = c.hypertree_level := (congrArg Pub.hypertree_level hp).symm
  unfold Leak.patch
  by_cases hs : c.state = .wots
  · rw [if_pos (e1.trans hs)]
    obtain ⟨h3, h4, h5⟩ := h2 hs
    obtain ⟨d1, d2, d3⟩ := F.dig c g hs
    rw [← e2] at d1 d3
    unfold Len at h3
    have ht : (c'.x.take 1).length = 1 := by rw [List.length_take]; omega
    refine h5 _ ?_ ?_ ?_
    · unfold Len
      rw [List.length_append, List.length_append, ht, d1, List.length_drop]
      omega
    · rw [h4, List.getElem?_append_left (by rw [List.length_append]; omega), List.getElem?_append_left (by omega), List.getElem?_take_of_lt (by omega)]
    · intro i hi
      rw [F.ps c g] at hi
      rw [d3 i hi, List.getElem?_append_left (by rw [List.length_append]; omega), List.getElem?_append_right (by omega), ht, show 1 + i - 1 = i by omega]
  · rw [if_neg (by rw [e1]; exact hs)]
    exact h1 hs

theorem signLoop_rel (hE : E'.cfg = E.cfg) (hm : MemLow mem mem') {n : Nat} {digits : Nat → Bytes} {G : Ctx → Prop} (F : Func E mem n digits G) (fuel : Nat)
    {o o' : Bytes} (ho : Len o o') (off m : Nat) (h : Inv E E' c c') (g : G c) :
    RelP (fun a b => OutSign E E' a b ∧ G a.2.2) (signLoop E mem fuel o off m c) (simLoop E' mem' digits fuel o' off m c') := by
  induction fuel generalizing o o' off m c c' with
  | zero => exact rel_error _ _
  | succ fuel ih =>
    unfold signLoop simLoop
    refine rel_branch Iff.rfl (fun _ _ => rel_ok ⟨⟨rfl, ho, h⟩, g⟩) fun _ _ => ?_
    have e1 := h.offset
    have e2 : c'.ps = c.ps := by obtain ⟨q, v, h, _⟩ := h; exact h.ps
    have e3 : Len c.buffer c'.buffer := by obtain ⟨q, v, h, _⟩ := h; exact h.buf
    dsimp only
    refine rel_branch (by rw [e1, e2]) (fun _ _ => ?_) fun _ _ => ?_
    · refine rel_bind (R := Eq) (rel_branch (by rw [e1, e2]) (fun _ _ => rel_ok rfl) fun _ _ => rel_ok (by rw [e1, e2])) ?_
      rintro r _ rfl
      rw [e1]
      refine rel_bind (rel_rdSlice e3 _ _) fun a b hab => ?_
      refine rel_bind (rel_wrSlice ho _ (eq_len hab)) fun o o' ho => ?_
      exact ih ho _ _ (h.setOffset _) (F.off _ _ g)
    · refine rel_bind (signStep_rel hE hm h).res fun a b hab => ?_
      obtain ⟨hab, ra, -⟩ := hab
      rw [signStep_res] at ra
      cases a with
      | none => cases b with
        | none => exact rel_ok ⟨⟨rfl, ho, h⟩, g⟩
        | some _ => exact hab.elim
      | some a => cases b with
        | none => exact hab.elim
        | some b =>
          have ga := F.step _ _ g ra
          exact ih ho _ _ (hab.patch F ga) ga

theorem ts_sign_rel (hE : E'.cfg = E.cfg) (hm : MemLow mem mem') {n : Nat} {digits : Nat → Bytes} {G : Ctx → Prop} (F : Func E mem n digits G) {o o' : Bytes}
    (ho : Len o o') (m : Nat) (h : Inv E E' c c') (g : G c) :
    RelP (fun a b => OutSign E E' a b ∧ G a.2.2) (ts_sign E mem o m c) (simSign E' mem' digits o' m c') := by
  unfold ts_sign simSign
  refine rel_frame ?_
  refine rel_branch (by rw [h.state]) (fun _ _ => rel_ok ⟨⟨rfl, ho, h⟩, g⟩) fun _ _ => ?_
  refine rel_bind (signLoop_rel hE hm F _ ho _ _ h g) ?_
  rintro ⟨k, o, c⟩ ⟨_, o', c'⟩ ⟨⟨rfl, ho, h⟩, g⟩
  exact rel_ok ⟨⟨rfl, ho, h⟩, g⟩

/-! ## Key generation -/

theorem zeroCtx_low (hE : E'.cfg = E.cfg) {ps : ParamSet} (hp : GoodPs ps) (pub : Nat) :
    LowC E E' { ps := ps, pub := some (pubOf (zeroCtx E ps)), node := some 0 } { zeroCtx E ps with public_key := pub } { zeroCtx E' ps with public_key := pub } := by
  unfold zeroCtx
  rw [hE]
  refine ⟨hp, rfl, rfl, rfl, rfl, rfl, rfl, ?_, ?_, fun h => h.elim, ⟨rfl, fun _ h => h.elim⟩, (fun _ h => by cases h), (by rintro _ ⟨⟩; exact ⟨rfl, rfl⟩), (by rintro _ ⟨⟩; exact ⟨rfl, rfl⟩)⟩
  · exact ⟨(E.pun256_len _).trans (E'.pun256_len _).symm, (E.pun512_len _).trans (E'.pun512_len _).symm, (E.punShake_len _).trans (E'.punShake_len _).symm⟩
  · exact ⟨(E.pun256_len _).trans (E'.pun256_len _).symm, (E.pun512_len _).trans (E'.pun512_len _).symm, (E.punShake_len _).trans (E'.punShake_len _).symm⟩

theorem gen_root_rel (hE : E'.cfg = E.cfg) (hm : MemLow mem mem') {ps : ParamSet} (hp : GoodPs ps) (pub : Nat) :
    RelP Len (gen_root E mem ps pub) (gen_root E' mem' ps pub) := by
  unfold gen_root
  refine rel_bind (call_prehash_rel hE hm (zeroCtx_low hE hp pub)) fun c c' h => ?_
  let v : Pub := ⟨.sign_state, ps.n, usub ps.d 1 % 256, 0, 0, 0, 0⟩
  have h : LowC E E' { ps := ps, pub := some v, node := some 0 }
      { c with buffer_offset := ps.n, hypertree_level := usub ps.d 1 % 256, tree_address := 0, auth_path_node := 0, merkle_level := 0 }
      { c' with buffer_offset := ps.n, hypertree_level := usub ps.d 1 % 256, tree_address := 0, auth_path_node := 0, merkle_level := 0 } := by
    refine ⟨h.good, h.psq, h.ps, h.pk, h.buf, h.adr, h.auth, h.small, h.bigw, h.bigs, h.x, h.dig, ?_, (by rintro _ ⟨⟩; exact ⟨rfl, rfl⟩)⟩
    rintro _ ⟨⟩
    obtain ⟨e1, e2⟩ := h.pub _ rfl
    constructor
    · rw [show v = { pubOf c with buffer_offset := ps.n, hypertree_level := usub ps.d 1 % 256, tree_address := 0, merkle_level := 0 } by rw [e1]; rfl]; rfl
    · rw [show v = { pubOf c' with buffer_offset := ps.n, hypertree_level := usub ps.d 1 % 256, tree_address := 0, merkle_level := 0 } by rw [e2]; rfl]; rfl
  dsimp only
  refine rel_bind (ts_wots_leaf_rel hE hm h h.auth 0 0) fun a a' ha => ?_
  have h := ha.2.setAuth ha.1
  rw [hE]
  refine rel_bind (R := fun c c' => ∃ w, LowC E E' { ps := ps, pub := some w, node := some 0 } c c') (rel_loop ⟨v, h⟩ fun _ c c' _ _ ⟨w, h⟩ => ?_) fun c c' ⟨w, h⟩ => ?_
  · refine (ts_merkle_path_rel hE hm h rfl rfl (g := ts_wots_leaf E mem) (g' := ts_wots_leaf E' mem')
      (fun w o o' leaf c c' ho h => ts_wots_leaf_rel hE hm h ho leaf leaf) ADR_TYPE_HASHTREE ⟨E.cfg.merkleStackOff, E.cfg.merkleStackSize⟩
      ⟨fun i hi => hi.elim, fun _ h => by cases h⟩).mono fun a b h => ⟨_, h⟩
  · exact rel_ok h.auth

theorem copy_public_rel (hm : MemLow mem mem') (public_key : Option Nat) (pub n : Nat) :
    RelP MemLow (copy_public mem public_key pub n) (copy_public mem' public_key pub n) := by
  cases public_key with
  | none => exact rel_bind (rel_tick rfl) fun _ _ _ => rel_ok hm
  | some pk =>
    refine rel_bind (rel_tick rfl) fun _ _ _ => ?_
    refine rel_bind (rel_memRead hm _ _) fun a b hab => ?_
    exact rel_memWrite hm _ (eq_len hab)

theorem ts_gen_key_rel (hE : E'.cfg = E.cfg) (hm : MemLow mem mem') (private_key public_key : Option Nat) (ps : Option ParamSet)
    (hp : ∀ p, ps = some p → GoodPs p) {f g : Option Rng} (hf : ∀ p, ps = some p → RngLow (3 * p.n) f g) (hfg : f.isSome = g.isSome) :
    RelP (fun a b => a.1 = b.1 ∧ MemLow a.2.1 b.2.1 ∧ a.2.2 = b.2.2) (ts_gen_key E mem private_key public_key ps f) (ts_gen_key E' mem' private_key public_key ps g) := by
  cases ps with
  | none => cases f <;> cases g <;> cases private_key <;> exact rel_frame (rel_ok ⟨rfl, hm, rfl⟩)
  | some ps =>
    have hf := hf ps rfl
    cases f with
    | none => cases g with
      | none => cases private_key <;> exact rel_frame (rel_ok ⟨rfl, hm, rfl⟩)
      | some _ => cases hfg
    | some f =>
      cases g with
      | none => cases hfg
      | some g =>
        cases private_key with
        | none => exact rel_frame (rel_ok ⟨rfl, hm, rfl⟩)
        | some sk =>
          unfold ts_gen_key
          refine rel_frame ?_
          dsimp only
          have e : (f (3 * ps.n)).1 = (g (3 * ps.n)).1 := hf.1
          refine rel_bind (rel_tick (by rw [e])) fun _ _ _ => ?_
          refine rel_bind (rel_memWrite hm _ hf.2) fun mem mem' hm => ?_
          refine rel_branch (by rw [e]) (fun _ _ => rel_ok ⟨rfl, hm, rfl⟩) fun _ _ => ?_
          refine rel_bind (gen_root_rel hE hm (hp _ rfl) _) fun a b hab => ?_
          refine rel_bind (rel_rdSlice hab _ _) fun a b hab => ?_
          refine rel_bind (rel_memWrite hm _ (eq_len hab)) fun mem mem' hm => ?_
          refine rel_bind (copy_public_rel hm _ _ _) fun mem mem' hm => ?_
          exact rel_ok ⟨rfl, hm, rfl⟩

end Leak
