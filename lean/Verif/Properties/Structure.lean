import Verif.Properties.Examples
import Verif.Proof.Wots
/-!
# C24, C25, C26: WOTS+ digits, hash addresses, decoding of the message digest
-/
namespace Properties
open Model

/-! ## C24 -/

/-- Digit `i` of a digit array. -/
def digit (d : Bytes) (i : Nat) : Nat := (d.getD i 0).toNat

/-- What is owed to reach 15 on each of the first `m` digits. -/
def owed (d : Bytes) (m : Nat) : Nat := ((List.range m).map fun i => 15 - digit d i).sum

theorem owed_succ (d : Bytes) (m : Nat) : owed d (m + 1) = owed d m + (15 - digit d m) := by
  simp [owed, List.range_succ]

theorem getD_map_sum (l : List Nat) : (l.map fun d => 15 - d).sum = ((List.range l.length).map fun i => 15 - l.getD i 0).sum := by
  congr 1
  apply List.ext_getElem (by simp)
  intro i h1 h2
  simp only [List.length_map] at h1
  simp [h1]

/-- C24: the array that each WOTS+ signature is made from holds the base-16 digits of the signed value, most significant
nibble first, then in three base-16 digits the sum of what the message digits lack to 15. -/
theorem C24_digits (n : Nat) (hn : n ≤ 32) (digits value : Bytes) (hd : 2 * n + 3 ≤ digits.length) (hv : n ≤ value.length) :
    ∃ d, compute_wots_digits digits value n = .ok d ∧ d.length = digits.length ∧
      (∀ i, i < 2 * n + 3 → digit d i < 16) ∧
      (∀ i, i < n → (value.getD i 0).toNat = 16 * digit d (2 * i) + digit d (2 * i + 1)) ∧
      256 * digit d (2 * n) + 16 * digit d (2 * n + 1) + digit d (2 * n + 2) = owed d (2 * n) := by
  obtain ⟨d, e, l, h⟩ := compute_wots_digits_ok ⟨n, 0, 0, 0, 0, 0⟩ digits value hn hv hd
  have hlen : (⟨n, 0, 0, 0, 0, 0⟩ : Spec.Params).len = 2 * n + 3 := rfl
  rw [hlen] at h
  have hw := wotsDigits_eq ⟨n, 0, 0, 0, 0, 0⟩ value hn
  simp only at hw
  rw [hw] at h
  have hc := csum_le (Spec.base2b value 4 (2 * n))
  rw [length_base2b] at hc
  have msg : ∀ i, i < 2 * n → digit d i = (Spec.base2b value 4 (2 * n)).getD i 0 := fun i hi => by
    rw [digit, h i (by omega), List.getD_append _ _ _ _ (by rw [length_base2b]; omega)]
  have cs : ∀ j, j < 3 → digit d (2 * n + j) = [csum (Spec.base2b value 4 (2 * n)) / 256,
      csum (Spec.base2b value 4 (2 * n)) / 16 % 16, csum (Spec.base2b value 4 (2 * n)) % 16].getD j 0 := fun j hj => by
    rw [digit, h _ (by omega), List.getD_append_right _ _ _ _ (by rw [length_base2b]; omega), length_base2b, Nat.add_sub_cancel_left]
  refine ⟨d, e, l, fun i hi => ?_, fun i hi => ?_, ?_⟩
  · rw [digit, h i hi, ← hw]; exact wotsDigits_getD_lt _ _ _
  · rw [msg _ (by omega), msg _ (by omega), base16_getD_even _ _ _ (by omega) (by omega), base16_getD_odd _ _ _ (by omega) (by omega)]
    omega
  · have e0 := cs 0 (by omega)
    have e1 := cs 1 (by omega)
    have e2 := cs 2 (by omega)
    simp at e0 e1 e2
    have eo : owed d (2 * n) = csum (Spec.base2b value 4 (2 * n)) := by
      unfold owed csum
      rw [getD_map_sum, length_base2b]
      congr 1
      apply List.map_congr_left
      intro i hi
      rw [msg i (by simpa using hi)]
    rw [eo, e0, e1, e2]
    omega

theorem owed_anti (d e : Bytes) (m : Nat) (h : ∀ i, i < m → digit e i ≤ digit d i) : owed d m ≤ owed e m := by
  induction m with
  | zero => simp [owed]
  | succ m ih =>
    rw [owed_succ, owed_succ]
    have := ih fun i hi => h i (by omega)
    have := h m (by omega)
    omega

theorem owed_strict (d e : Bytes) (m : Nat) (h : ∀ i, i < m → digit e i ≤ digit d i) (hd : ∀ i, i < m → digit d i < 16)
    (heq : owed e m ≤ owed d m) : ∀ i, i < m → digit e i = digit d i := by
  induction m with
  | zero => intro i hi; omega
  | succ m ih =>
    rw [owed_succ, owed_succ] at heq
    have h1 := owed_anti d e m fun i hi => h i (by omega)
    have h2 := h m (by omega)
    have h3 := hd m (by omega)
    intro i hi
    by_cases hm : i = m
    · subst hm; omega
    · exact ih (fun i hi => h i (by omega)) (fun i hi => hd i (by omega)) (by omega) i (by omega)

/-- C24: for two values that differ, each digit array has a digit that is smaller than the other's: no signature
can be turned into one of another value by only advancing chains. -/
theorem C24_no_domination (n : Nat) (hn : n ≤ 32) (digits₁ digits₂ v₁ v₂ : Bytes) (hd₁ : 2 * n + 3 ≤ digits₁.length) (hd₂ : 2 * n + 3 ≤ digits₂.length)
    (hv₁ : v₁.length = n) (hv₂ : v₂.length = n) (hne : v₁ ≠ v₂) :
    ∃ d₁ d₂, compute_wots_digits digits₁ v₁ n = .ok d₁ ∧ compute_wots_digits digits₂ v₂ n = .ok d₂ ∧
      (∃ i, i < 2 * n + 3 ∧ digit d₁ i < digit d₂ i) ∧ ∃ i, i < 2 * n + 3 ∧ digit d₂ i < digit d₁ i := by
  obtain ⟨d₁, e₁, -, b₁, m₁, c₁⟩ := C24_digits n hn digits₁ v₁ hd₁ (by omega)
  obtain ⟨d₂, e₂, -, b₂, m₂, c₂⟩ := C24_digits n hn digits₂ v₂ hd₂ (by omega)
  have key : ∀ (d e v w : Bytes), v.length = n → w.length = n → v ≠ w → (∀ i, i < 2 * n + 3 → digit d i < 16) →
      (∀ i, i < n → (v.getD i 0).toNat = 16 * digit d (2 * i) + digit d (2 * i + 1)) →
      (∀ i, i < n → (w.getD i 0).toNat = 16 * digit e (2 * i) + digit e (2 * i + 1)) →
      256 * digit d (2 * n) + 16 * digit d (2 * n + 1) + digit d (2 * n + 2) = owed d (2 * n) →
      256 * digit e (2 * n) + 16 * digit e (2 * n + 1) + digit e (2 * n + 2) = owed e (2 * n) →
      ∃ i, i < 2 * n + 3 ∧ digit d i < digit e i := by
    intro d e v w hv hw hvw bd mv mw cd ce
    by_contra hcon
    have hge : ∀ i, i < 2 * n + 3 → digit e i ≤ digit d i := fun i hi => by
      by_contra h
      exact hcon ⟨i, hi, by omega⟩
    have ho : owed e (2 * n) ≤ owed d (2 * n) := by
      rw [← cd, ← ce]
      have h0 := hge (2 * n) (by omega)
      have h1 := hge (2 * n + 1) (by omega)
      have h2 := hge (2 * n + 2) (by omega)
      omega
    have heq := owed_strict d e (2 * n) (fun i hi => hge i (by omega)) (fun i hi => bd i (by omega)) ho
    apply hvw
    apply Shake.list_ext_getD 0 (by omega)
    intro i hi
    apply UInt8.toNat_inj.1
    rw [mv i (by omega), mw i (by omega), heq _ (by omega), heq _ (by omega)]
  exact ⟨d₁, d₂, e₁, e₂, key d₁ d₂ v₁ v₂ hv₁ hv₂ hne b₁ m₁ m₂ c₁ c₂, key d₂ d₁ v₂ v₁ hv₂ hv₁ (Ne.symm hne) b₂ m₂ m₁ c₂ c₁⟩

/-- The hypotheses of both theorems are met by two 32-byte values. -/
example : ∃ d₁ d₂, compute_wots_digits (List.replicate 67 9) (rampBytes 0 32) 32 = .ok d₁ ∧
    compute_wots_digits (List.replicate 70 1) (rampBytes 1 32) 32 = .ok d₂ ∧
    (∃ i, i < 67 ∧ digit d₁ i < digit d₂ i) ∧ ∃ i, i < 67 ∧ digit d₂ i < digit d₁ i :=
  C24_no_domination 32 (by omega) _ _ _ _ (by simp) (by simp) (by simp [rampBytes]) (by simp [rampBytes])
    (by intro h; have := congrArg (fun l => l.getD 0 0) h; simp [rampBytes] at this)

/-! ## C26 -/

/-- Any environment and supported set, with an arbitrary seed. -/
def sess (E : Env) (x : PsName) (h : supported E.cfg x = true) : Sess := ⟨E, x, h, 0, List.replicate x.P.n 0, by simp⟩

/-- C26: the digest is decoded as the standard says, whatever the context contained; the digest buffer may be as short as
`m` bytes, and `m` is at most 49. -/
theorem C26_decoding (E : Env) (x : PsName) (hx : supported E.cfg x = true) (ctx : Ctx) (hs : Shape E.cfg ctx) (hps : ctx.ps = ps E.cfg x)
    (digest : Bytes) (hd : x.P.m ≤ digest.length) :
    x.P.m ≤ 49 ∧ ∃ ctx' digest', ts_convert_message_hash E ctx digest = .ok (ctx', digest') ∧
      (∀ i, i < x.P.k → getForsNode E ctx'.x i = .ok ((Spec.Slh.mdIndices x.P digest).getD i 0)) ∧
      (∀ i, i < x.P.k → (Spec.Slh.mdIndices x.P digest).getD i 0 < 2 ^ x.P.a) ∧
      ctx'.tree_address = Spec.Slh.treeIdx x.P digest ∧ ctx'.tree_address < 2 ^ (x.P.h - x.P.hp) ∧
      ctx'.fors_keypair_addr = Spec.Slh.leafIdx x.P digest ∧ ctx'.fors_keypair_addr < 2 ^ x.P.hp := by
  let S := sess E x hx
  refine ⟨S.facts.m49, ?_⟩
  have hxl : 2 * MAX_FORS ≤ ctx.x.length := by
    have := E.cfg.forsSize_le; rw [hs.x]; unfold Config.forsStackOff at this; omega
  obtain ⟨x', d', e, -, hl, hf, -⟩ := convert_ok (S := S) hps hxl digest hd
  refine ⟨_, d', e, fun i hi => ?_, fun i _ => mdIndices_lt _ _ _, rfl, Nat.mod_lt _ (Nat.pow_pos (by omega)), rfl, Nat.mod_lt _ (Nat.pow_pos (by omega))⟩
  have h1 := S.facts.kle
  have h2 := mdIndices_lt x.P digest i
  have h3 : (2 : Nat) ^ x.P.a ≤ 2 ^ 14 := Nat.pow_le_pow_right (by omega) S.facts.tle
  have h4 : i < S.P.k := hi
  exact (hf i hi).get (by unfold MAX_FORS; omega) (by omega) (by
    have h5 : x.P = S.P := rfl
    rw [h5] at h2 h3
    omega)

/-- C26: only the first `m` bytes of the digest matter. -/
theorem C26_prefix (E : Env) (x : PsName) (hx : supported E.cfg x = true) (c₁ c₂ : Ctx) (hs₁ : Shape E.cfg c₁) (hs₂ : Shape E.cfg c₂)
    (hp₁ : c₁.ps = ps E.cfg x) (hp₂ : c₂.ps = ps E.cfg x) (digest₁ digest₂ : Bytes) (hd₁ : x.P.m ≤ digest₁.length) (hd₂ : x.P.m ≤ digest₂.length)
    (heq : digest₁.take x.P.m = digest₂.take x.P.m) :
    ∃ c₁' c₂' e₁ e₂, ts_convert_message_hash E c₁ digest₁ = .ok (c₁', e₁) ∧ ts_convert_message_hash E c₂ digest₂ = .ok (c₂', e₂) ∧
      c₁'.tree_address = c₂'.tree_address ∧ c₁'.fors_keypair_addr = c₂'.fors_keypair_addr ∧
      ∀ i, i < x.P.k → getForsNode E c₁'.x i = getForsNode E c₂'.x i := by
  obtain ⟨-, c₁', e₁, r₁, f₁, -, t₁, -, l₁, -⟩ := C26_decoding E x hx c₁ hs₁ hp₁ digest₁ hd₁
  obtain ⟨-, c₂', e₂, r₂, f₂, -, t₂, -, l₂, -⟩ := C26_decoding E x hx c₂ hs₂ hp₂ digest₂ hd₂
  have sub : ∀ a b, a + b ≤ x.P.m → (digest₁.drop a).take b = (digest₂.drop a).take b := by
    intro a b h
    have : ∀ d : Bytes, (d.drop a).take b = ((d.take x.P.m).drop a).take b := fun d => by
      rw [List.drop_take, List.take_take, Nat.min_eq_left (by omega)]
    rw [this digest₁, this digest₂, heq]
  have hm : x.P.m = x.P.mdBytes + x.P.treeBytes + x.P.leafBytes := rfl
  refine ⟨c₁', c₂', e₁, e₂, r₁, r₂, ?_, ?_, fun i hi => ?_⟩
  · rw [t₁, t₂, Spec.Slh.treeIdx, Spec.Slh.treeIdx, sub _ _ (by omega)]
  · rw [l₁, l₂, Spec.Slh.leafIdx, Spec.Slh.leafIdx, sub _ _ (by omega)]
  · have := sub 0 x.P.mdBytes (by omega)
    simp only [List.drop_zero] at this
    rw [f₁ i hi, f₂ i hi, Spec.Slh.mdIndices, Spec.Slh.mdIndices, this]

/-- Met by a digest of exactly `m = 47` bytes. -/
example : (PsName.P .sha2_256s).m = 47 := by decide
example := C26_decoding (envOf fullCfg) .sha2_128f rfl (dirtyCtx fullCfg) (dirty_shape _) rfl (rampBytes 3 34) (by simp [rampBytes]; decide)

/-! ## C25 -/

/-- The places of the SPHINCS+ structure at which a hash is evaluated. -/
inductive Place
  /-- step `step → step + 1` of chain `chain` of WOTS+ key pair `kp` -/
  | wotsStep (layer tree kp chain step : Nat)
  /-- compression of WOTS+ key `kp` -/
  | wotsKey (layer tree kp : Nat)
  /-- inner node of a tree of the hypertree -/
  | treeNode (layer tree height idx : Nat)
  /-- node (leaf if `height = 0`) number `idx` of FORS tree `ftree` of FORS key `(tree, kp)` -/
  | forsNode (tree kp ftree height idx : Nat)
  /-- compression of the FORS roots -/
  | forsRoots (tree kp : Nat)
  /-- derivation of a WOTS+ chain start -/
  | wotsPrf (layer tree kp chain : Nat)
  /-- derivation of a FORS secret value -/
  | forsPrf (tree kp ftree idx : Nat)

/-- The places that exist in an instance. -/
def Place.InRange (P : Spec.Params) : Place → Prop
  | .wotsStep layer tree kp chain step => layer < P.d ∧ tree < 2 ^ (P.h - P.hp) ∧ kp < 2 ^ P.hp ∧ chain < P.len ∧ step < 15
  | .wotsKey layer tree kp => layer < P.d ∧ tree < 2 ^ (P.h - P.hp) ∧ kp < 2 ^ P.hp
  | .treeNode layer tree height idx => layer < P.d ∧ tree < 2 ^ (P.h - P.hp) ∧ 1 ≤ height ∧ height ≤ P.hp ∧ idx < 2 ^ (P.hp - height)
  | .forsNode tree kp ftree height idx => tree < 2 ^ (P.h - P.hp) ∧ kp < 2 ^ P.hp ∧ ftree < P.k ∧ height ≤ P.a ∧ idx < 2 ^ (P.a - height)
  | .forsRoots tree kp => tree < 2 ^ (P.h - P.hp) ∧ kp < 2 ^ P.hp
  | .wotsPrf layer tree kp chain => layer < P.d ∧ tree < 2 ^ (P.h - P.hp) ∧ kp < 2 ^ P.hp ∧ chain < P.len
  | .forsPrf tree kp ftree idx => tree < 2 ^ (P.h - P.hp) ∧ kp < 2 ^ P.hp ∧ ftree < P.k ∧ idx < 2 ^ P.a

/-- All the ways in which the code prepares the address of a place: the position fields of the context hold the position of the
current tree or FORS key (in the hypertree the FORS fields are 0, in FORS the layer is 0), then a setter is called. A FORS leaf address is
also made by patching the type of the address of its secret value (`fors_leaf`, tiny_sphincs.c:182-183). -/
def Place.ways (E : Env) (ctx : Ctx) : Place → List (C Ctx)
  | .wotsStep layer tree kp chain step => [ts_set_wots_f_adr E { ctx with hypertree_level := layer, tree_address := tree } kp chain step]
  | .wotsKey layer tree kp => [ts_set_wots_header_adr E kp { ctx with hypertree_level := layer, tree_address := tree }]
  | .treeNode layer tree height idx =>
    [ts_set_merkle_adr E { ctx with hypertree_level := layer, tree_address := tree, fors_tree := 0, fors_keypair_addr := 0 }
      (idx * 2 ^ height) (height - 1) ADR_TYPE_HASHTREE]
  | .forsNode tree kp ftree 0 idx =>
    let ctx := { ctx with tree_address := tree, fors_tree := ftree, fors_keypair_addr := kp }
    [ts_set_fors_leaf_adr E ctx idx, do let ctx ← set_fors_prf_adr E ctx idx; set_type_adr E ADR_TYPE_FORSTREE ctx]
  | .forsNode tree kp ftree (level + 1) idx =>
    [ts_set_merkle_adr E { ctx with hypertree_level := 0, tree_address := tree, fors_tree := ftree, fors_keypair_addr := kp }
      (idx * 2 ^ (level + 1)) level ADR_TYPE_FORSTREE]
  | .forsRoots tree kp => [ts_set_fors_root_adr E { ctx with tree_address := tree, fors_keypair_addr := kp }]
  | .wotsPrf layer tree kp chain => [set_wots_prf_adr E { ctx with hypertree_level := layer, tree_address := tree } kp chain]
  | .forsPrf tree kp ftree idx => [set_fors_prf_adr E { ctx with tree_address := tree, fors_tree := ftree, fors_keypair_addr := kp } idx]

/-- The part of the address array that enters the hashes: all 32 bytes for SHAKE, 22 bytes for SHA2. -/
def hashedAdr (x : PsName) (E : Env) (adr : Bytes) : Bytes := if (ps E.cfg x).sha2 then adr.take 22 else adr

/-- The address the standard assigns to a place (FIPS 205 section 4.2). -/
def Place.standard (P : Spec.Params) : Place → Spec.Adrs
  | .wotsStep layer tree kp chain step => .wotsHash layer tree kp chain step
  | .wotsKey layer tree kp => .wotsPk layer tree kp
  | .treeNode layer tree height idx => .treeNode layer tree height idx
  | .forsNode tree kp ftree height idx => .forsTree tree kp height (ftree * 2 ^ (P.a - height) + idx)
  | .forsRoots tree kp => .forsRoots tree kp
  | .wotsPrf layer tree kp chain => .wotsPrf layer tree kp chain
  | .forsPrf tree kp ftree idx => .forsPrf tree kp (ftree * 2 ^ P.a + idx)

theorem hasAdr_type {S : Sess} {ctx : Ctx} {r : C Ctx} {a : Spec.Adrs} (hp : ctx.ps = S.ps) (h : HasAdr S r ctx a) (ty : Nat) :
    HasAdr S (do let c ← r; set_type_adr S.E ty c) ctx { a with type := ty } := by
  obtain ⟨adr, e, l, u⟩ := h
  obtain ⟨adr', e', l', u'⟩ := set_type_ok (S := S) ty (ctx := { ctx with adr := adr }) ⟨hp, l⟩
  exact ⟨adr', by rw [e, ok_bind, e'], l', u' _ u⟩

theorem node_lt {h m i : Nat} (hle : h ≤ m) (hm : m ≤ 14) (hi : i < 2 ^ (m - h)) : i * 2 ^ h < 2 ^ 16 := by
  have h1 : (i + 1) * 2 ^ h ≤ 2 ^ (m - h) * 2 ^ h := Nat.mul_le_mul_right _ hi
  rw [← Nat.pow_add, Nat.sub_add_cancel hle] at h1
  have h2 : (2 : Nat) ^ m ≤ 2 ^ 14 := Nat.pow_le_pow_right (by omega) hm
  have h3 : 0 < 2 ^ h := Nat.pow_pos (by omega)
  rw [Nat.succ_mul] at h1
  omega

theorem node_idx (f a h i : Nat) (hle : h ≤ a) : (f * 2 ^ a + i * 2 ^ h) / 2 ^ h = f * 2 ^ (a - h) + i := by
  have h3 : 0 < 2 ^ h := Nat.pow_pos (by omega)
  rw [show (2 : Nat) ^ a = 2 ^ (a - h) * 2 ^ h by rw [← Nat.pow_add, Nat.sub_add_cancel hle], ← Nat.mul_assoc, ← Nat.add_mul,
    Nat.mul_div_cancel _ h3]

/-- Every way leads to the standard's address. -/
theorem ways_ok (S : Sess) (ctx : Ctx) (hp : ctx.ps = S.ps) (ha : ctx.adr.length = S.cfg.ADR_SIZE) (p : Place) (hr : p.InRange S.P) :
    ∀ w ∈ p.ways S.E ctx, ∃ c, w = .ok c ∧ S.AdrIs c.adr (p.standard S.P) := by
  have fin : ∀ {w : C Ctx} {c : Ctx} {a : Spec.Adrs}, HasAdr S w c a → ∃ c, w = .ok c ∧ S.AdrIs c.adr a := by
    rintro w c a ⟨adr, e, -, u⟩
    exact ⟨_, e, u⟩
  have F := S.facts
  intro w hw
  cases p with
  | wotsStep layer tree kp chain step =>
    simp only [Place.ways, List.mem_singleton] at hw
    subst hw
    exact fin (ts_set_wots_f_adr_ok (S := S) (ctx := { ctx with hypertree_level := layer, tree_address := tree }) ⟨hp, ha⟩ _ _ _)
  | wotsKey layer tree kp =>
    simp only [Place.ways, List.mem_singleton] at hw
    subst hw
    exact fin (ts_set_wots_header_adr_ok (S := S) (ctx := { ctx with hypertree_level := layer, tree_address := tree }) ⟨hp, ha⟩ _)
  | treeNode layer tree height idx =>
    simp only [Place.ways, List.mem_singleton] at hw
    simp only [Place.InRange] at hr
    subst hw
    have h9 := F.hle
    have hk := F.kge
    obtain ⟨c, e, u⟩ := fin (ts_set_merkle_adr_ok (S := S)
      (ctx := { ctx with hypertree_level := layer, tree_address := tree, fors_tree := 0, fors_keypair_addr := 0 }) ⟨hp, ha⟩
      (node := idx * 2 ^ height) (level := height - 1) (ty := ADR_TYPE_HASHTREE) (show 0 < S.P.k by omega)
      (node_lt (m := S.P.hp) (by omega) (by omega) (by omega)) (by omega))
    refine ⟨c, e, ?_⟩
    simp only [Nat.sub_add_cancel hr.2.2.1, Nat.zero_mul, Nat.zero_add, Nat.mul_div_cancel _ (Nat.pow_pos (show 0 < 2 by omega) : 0 < 2 ^ height)] at u
    exact u
  | forsNode tree kp ftree height idx =>
    simp only [Place.InRange] at hr
    have h14 := F.tle
    cases height with
    | zero =>
      simp only [Place.ways, List.mem_cons, List.not_mem_nil, or_false] at hw
      rcases hw with rfl | rfl
      · exact fin (ts_set_fors_leaf_adr_ok (S := S) (ctx := { ctx with tree_address := tree, fors_tree := ftree, fors_keypair_addr := kp }) ⟨hp, ha⟩
          (show ftree < S.P.k by omega) hr.2.2.2.2)
      · have h1 := set_fors_prf_adr_ok (S := S) (ctx := { ctx with tree_address := tree, fors_tree := ftree, fors_keypair_addr := kp })
          ⟨hp, ha⟩ (show ftree < S.P.k by omega) (idx := idx) hr.2.2.2.2
        obtain ⟨c, e, u⟩ := fin (hasAdr_type (ctx := { ctx with tree_address := tree, fors_tree := ftree, fors_keypair_addr := kp }) hp h1 ADR_TYPE_FORSTREE)
        refine ⟨c, e, ?_⟩
        simp only [Spec.Adrs.forsPrf, ADR_TYPE_FORSTREE] at u
        exact u
    | succ level =>
      simp only [Place.ways, List.mem_singleton] at hw
      subst hw
      obtain ⟨c, e, u⟩ := fin (ts_set_merkle_adr_ok (S := S)
        (ctx := { ctx with hypertree_level := 0, tree_address := tree, fors_tree := ftree, fors_keypair_addr := kp }) ⟨hp, ha⟩
        (node := idx * 2 ^ (level + 1)) (level := level) (ty := ADR_TYPE_FORSTREE) (show ftree < S.P.k by omega)
        (node_lt (m := S.P.a) (by omega) (by omega) (by omega)) (by omega))
      refine ⟨c, e, ?_⟩
      simp only [node_idx _ _ _ _ hr.2.2.2.1] at u
      exact u
  | forsRoots tree kp =>
    simp only [Place.ways, List.mem_singleton] at hw
    subst hw
    exact fin (ts_set_fors_root_adr_ok (S := S) (ctx := { ctx with tree_address := tree, fors_keypair_addr := kp }) ⟨hp, ha⟩)
  | wotsPrf layer tree kp chain =>
    simp only [Place.ways, List.mem_singleton] at hw
    subst hw
    exact fin (set_wots_prf_adr_ok (S := S) (ctx := { ctx with hypertree_level := layer, tree_address := tree }) ⟨hp, ha⟩ _ _)
  | forsPrf tree kp ftree idx =>
    simp only [Place.ways, List.mem_singleton] at hw
    simp only [Place.InRange] at hr
    subst hw
    exact fin (set_fors_prf_adr_ok (S := S) (ctx := { ctx with tree_address := tree, fors_tree := ftree, fors_keypair_addr := kp }) ⟨hp, ha⟩
      (show ftree < S.P.k by omega) (by omega))

theorem toByte_inj (n : Nat) : ∀ a b : Nat, a < 256 ^ n → b < 256 ^ n → Spec.toByte a n = Spec.toByte b n → a = b := by
  intro a b ha hb h
  have h1 := congrArg Spec.toInt h
  have ti : ∀ n x, x < 256 ^ n → Spec.toInt (Spec.toByte x n) = x := by
    intro n
    induction n with
    | zero => intro x hx; simp at hx; subst hx; rfl
    | succ n ih =>
      intro x hx
      rw [Spec.toByte, toInt_append, ih _ (by rw [Nat.pow_succ] at hx; omega), UInt8.toNat_ofNat']
      omega
  rwa [ti _ _ ha, ti _ _ hb] at h1

/-- All components fit their fields. -/
def Small (a : Spec.Adrs) : Prop := a.layer < 256 ∧ a.tree < 256 ^ 8 ∧ a.type < 256 ∧ a.w1 < 256 ^ 4 ∧ a.w2 < 256 ^ 4 ∧ a.w3 < 256 ^ 4

theorem enc_inj (a b : Spec.Adrs) (ha : Small a) (hb : Small b) (h : a.enc = b.enc) : a = b := by
  obtain ⟨a1, a2, a3, a4, a5, a6⟩ := a
  obtain ⟨b1, b2, b3, b4, b5, b6⟩ := b
  simp only [Small] at ha hb
  simp only [enc_eq, List.append_assoc] at h
  obtain ⟨h1, h⟩ := List.append_inj h (by simp [length_toByte])
  obtain ⟨h2, h⟩ := List.append_inj h (by simp [length_toByte])
  obtain ⟨h3, h⟩ := List.append_inj h (by simp [length_toByte])
  obtain ⟨h4, h⟩ := List.append_inj h (by simp [length_toByte])
  obtain ⟨h5, h6⟩ := List.append_inj h (by simp [length_toByte])
  rw [toByte_inj 4 _ _ (by omega) (by omega) h1, toByte_inj 12 _ _ (by omega) (by omega) h2, toByte_inj 4 _ _ (by omega) (by omega) h3,
    toByte_inj 4 _ _ (by omega) (by omega) h4, toByte_inj 4 _ _ (by omega) (by omega) h5, toByte_inj 4 _ _ (by omega) (by omega) h6]

theorem encc_inj (a b : Spec.Adrs) (ha : Small a) (hb : Small b) (h : a.encc = b.encc) : a = b := by
  obtain ⟨a1, a2, a3, a4, a5, a6⟩ := a
  obtain ⟨b1, b2, b3, b4, b5, b6⟩ := b
  simp only [Small] at ha hb
  simp only [encc_eq, List.append_assoc] at h
  obtain ⟨h1, h⟩ := List.append_inj h (by simp)
  obtain ⟨h2, h⟩ := List.append_inj h (by simp [length_toByte])
  obtain ⟨h3, h⟩ := List.append_inj h (by simp)
  obtain ⟨h4, h⟩ := List.append_inj h (by simp [length_toByte])
  obtain ⟨h5, h6⟩ := List.append_inj h (by simp [length_toByte])
  have one : ∀ x y : Nat, x < 256 → y < 256 → [UInt8.ofNat x] = [UInt8.ofNat y] → x = y := fun x y hx hy h =>
    toByte_inj 1 _ _ (by omega) (by omega) h
  rw [one _ _ ha.1 hb.1 h1, toByte_inj 8 _ _ (by omega) (by omega) h2, one _ _ ha.2.2.1 hb.2.2.1 h3,
    toByte_inj 4 _ _ (by omega) (by omega) h4, toByte_inj 4 _ _ (by omega) (by omega) h5, toByte_inj 4 _ _ (by omega) (by omega) h6]

theorem pair_inj {m f g i j : Nat} (hi : i < m) (hj : j < m) (h : f * m + i = g * m + j) : f = g ∧ i = j := by
  have hm : 0 < m := by omega
  have h1 : (f * m + i) / m = f := by
    rw [Nat.add_comm, Nat.add_mul_div_right _ _ hm, Nat.div_eq_of_lt hi, Nat.zero_add]
  have h2 : (g * m + j) / m = g := by
    rw [Nat.add_comm, Nat.add_mul_div_right _ _ hm, Nat.div_eq_of_lt hj, Nat.zero_add]
  have h3 : f = g := by rw [← h1, ← h2, h]
  subst h3
  exact ⟨rfl, by omega⟩

theorem standard_inj (P : Spec.Params) (p q : Place) (hp : p.InRange P) (hq : q.InRange P) (h : p.standard P = q.standard P) : p = q := by
  cases p <;> cases q <;> simp only [Place.standard, Spec.Adrs.wotsHash, Spec.Adrs.wotsPk, Spec.Adrs.treeNode, Spec.Adrs.forsTree,
    Spec.Adrs.forsRoots, Spec.Adrs.wotsPrf, Spec.Adrs.forsPrf, Spec.Adrs.mk.injEq] at h <;> simp only [Place.InRange] at hp hq
  case wotsStep.wotsStep => obtain ⟨rfl, rfl, -, rfl, rfl, rfl⟩ := h; rfl
  case wotsKey.wotsKey => obtain ⟨rfl, rfl, -, rfl, -, -⟩ := h; rfl
  case treeNode.treeNode => obtain ⟨rfl, rfl, -, -, rfl, rfl⟩ := h; rfl
  case forsNode.forsNode =>
    obtain ⟨-, rfl, -, rfl, rfl, h⟩ := h
    obtain ⟨rfl, rfl⟩ := pair_inj hp.2.2.2.2 hq.2.2.2.2 h
    rfl
  case forsRoots.forsRoots => obtain ⟨-, rfl, -, rfl, -, -⟩ := h; rfl
  case wotsPrf.wotsPrf => obtain ⟨rfl, rfl, -, rfl, rfl, -⟩ := h; rfl
  case forsPrf.forsPrf =>
    obtain ⟨-, rfl, -, rfl, -, h⟩ := h
    obtain ⟨rfl, rfl⟩ := pair_inj hp.2.2.2 hq.2.2.2 h
    rfl
  all_goals (exfalso; omega)

theorem standard_small (S : Sess) (p : Place) (hp : p.InRange S.P) : Small (p.standard S.P) := by
  have F := S.facts
  have h1 := F.dle; have h2 := F.hle; have h3 := F.hh; have h4 := F.kle; have h5 := F.tle; have h6 := n_le (S := S)
  have h7 : (2 : Nat) ^ (S.P.h - S.P.hp) ≤ 2 ^ 64 := Nat.pow_le_pow_right (by omega) (by omega)
  have h8 : (2 : Nat) ^ S.P.hp ≤ 2 ^ 9 := Nat.pow_le_pow_right (by omega) h2
  have h9 : S.P.len ≤ 67 := by unfold Spec.Params.len; have : S.P.n ≤ 32 := h6; omega
  have idx : ∀ f i b, f < S.P.k → b ≤ 14 → i < 2 ^ b → f * 2 ^ b + i < 256 ^ 4 := by
    intro f i b hf hb hi
    have h14 : (2 : Nat) ^ b ≤ 2 ^ 14 := Nat.pow_le_pow_right (by omega) hb
    have := Nat.mul_le_mul (show f ≤ 35 by omega) h14
    omega
  cases p with
  | forsNode tree kp ftree height i =>
    simp only [Place.InRange] at hp
    have := idx ftree i (S.P.a - height) hp.2.2.1 (by omega) hp.2.2.2.2
    refine ⟨by simp [Place.standard, Spec.Adrs.forsTree], ?_, by simp [Place.standard, Spec.Adrs.forsTree], ?_, ?_, this⟩ <;>
      simp only [Place.standard, Spec.Adrs.forsTree] <;> omega
  | forsPrf tree kp ftree i =>
    simp only [Place.InRange] at hp
    have := idx ftree i S.P.a hp.2.2.1 h5 hp.2.2.2
    refine ⟨by simp [Place.standard, Spec.Adrs.forsPrf], ?_, by simp [Place.standard, Spec.Adrs.forsPrf], ?_, ?_, this⟩ <;>
      simp only [Place.standard, Spec.Adrs.forsPrf] <;> omega
  | treeNode layer tree height i =>
    simp only [Place.InRange] at hp
    have h10 : (2 : Nat) ^ (S.P.hp - height) ≤ 2 ^ 9 := Nat.pow_le_pow_right (by omega) (by omega)
    simp only [Place.standard, Small, Spec.Adrs.treeNode]
    omega
  | _ =>
    simp only [Place.InRange] at hp
    simp only [Place.standard, Small, Spec.Adrs.wotsHash, Spec.Adrs.wotsPk, Spec.Adrs.forsRoots, Spec.Adrs.wotsPrf]
    omega

/-- C25: whatever two contexts contained before, the address bytes that enter the hash at two places are equal only if
the role and all coordinates of the places are equal; and preparing an address never faults. -/
theorem C25_domain_separation (E : Env) (x : PsName) (hx : supported E.cfg x = true) (c₁ c₂ : Ctx) (hs₁ : Shape E.cfg c₁) (hs₂ : Shape E.cfg c₂)
    (hp₁ : c₁.ps = ps E.cfg x) (hp₂ : c₂.ps = ps E.cfg x) (p q : Place) (hp : p.InRange x.P) (hq : q.InRange x.P)
    (w₁ w₂ : C Ctx) (hw₁ : w₁ ∈ p.ways E c₁) (hw₂ : w₂ ∈ q.ways E c₂) :
    ∃ c₁' c₂', w₁ = .ok c₁' ∧ w₂ = .ok c₂' ∧ (hashedAdr x E c₁'.adr = hashedAdr x E c₂'.adr ↔ p = q) := by
  let S := sess E x hx
  obtain ⟨c₁', e₁, u₁⟩ := ways_ok S c₁ hp₁ hs₁.adr p hp w₁ hw₁
  obtain ⟨c₂', e₂, u₂⟩ := ways_ok S c₂ hp₂ hs₂.adr q hq w₂ hw₂
  refine ⟨c₁', c₂', e₁, e₂, fun h => ?_, fun h => ?_⟩
  · apply standard_inj x.P p q hp hq
    cases hsha : S.ps.sha2 with
    | true =>
      rw [adrIs_sha2 hsha] at u₁ u₂
      rw [hashedAdr, hashedAdr, if_pos (show (ps E.cfg x).sha2 = true from hsha), if_pos (show (ps E.cfg x).sha2 = true from hsha), u₁, u₂] at h
      exact encc_inj _ _ (standard_small S p hp) (standard_small S q hq) h
    | false =>
      rw [adrIs_shake hsha] at u₁ u₂
      have hn : ¬ (ps E.cfg x).sha2 = true := by rw [show (ps E.cfg x).sha2 = false from hsha]; decide
      rw [hashedAdr, hashedAdr, if_neg hn, if_neg hn, u₁, u₂] at h
      exact enc_inj _ _ (standard_small S p hp) (standard_small S q hq) h
  · subst h
    cases hsha : S.ps.sha2 with
    | true =>
      rw [adrIs_sha2 hsha] at u₁ u₂
      rw [hashedAdr, hashedAdr, if_pos (show (ps E.cfg x).sha2 = true from hsha), if_pos (show (ps E.cfg x).sha2 = true from hsha), u₁, u₂]
    | false =>
      rw [adrIs_shake hsha] at u₁ u₂
      rw [u₁, u₂]

/-- C25: the bytes are the standard's encoding of the place (compressed for SHA2). -/
theorem C25_encoding (E : Env) (x : PsName) (hx : supported E.cfg x = true) (c : Ctx) (hs : Shape E.cfg c) (hp : c.ps = ps E.cfg x)
    (p : Place) (hr : p.InRange x.P) (w : C Ctx) (hw : w ∈ p.ways E c) :
    ∃ c', w = .ok c' ∧ hashedAdr x E c'.adr = if (ps E.cfg x).sha2 then (p.standard x.P).encc else (p.standard x.P).enc := by
  let S := sess E x hx
  obtain ⟨c', e, u⟩ := ways_ok S c hp hs.adr p hr w hw
  refine ⟨c', e, ?_⟩
  cases hsha : S.ps.sha2 with
  | true =>
    rw [adrIs_sha2 hsha] at u
    rw [hashedAdr, if_pos (show (ps E.cfg x).sha2 = true from hsha), if_pos (show (ps E.cfg x).sha2 = true from hsha), u]; rfl
  | false =>
    rw [adrIs_shake hsha] at u
    have hn : ¬ (ps E.cfg x).sha2 = true := by rw [show (ps E.cfg x).sha2 = false from hsha]; decide
    rw [hashedAdr, if_neg hn, if_neg hn, u]; rfl

/-- Two FORS nodes of different trees, and both ways of addressing a FORS leaf. -/
example : (Place.forsNode 5 3 2 4 1).InRange (PsName.P .shake_128f) ∧ (Place.forsNode 5 3 1 0 63).InRange (PsName.P .shake_128f) := by
  simp [Place.InRange, PsName.P, PsName.inst, Spec.Instance.params]
example : ((Place.forsNode 5 3 1 0 63).ways (envOf fullCfg) (dirtyCtx fullCfg)).length = 2 := rfl
example := C25_domain_separation (envOf fullCfg) .sha2_128f rfl (dirtyCtx fullCfg) (dirtyCtx fullCfg) (dirty_shape _) (dirty_shape _) rfl rfl
  (.forsNode 5 3 2 4 1) (.forsNode 5 3 1 0 63) (by simp [Place.InRange, PsName.P, PsName.inst, Spec.Instance.params])
  (by simp [Place.InRange, PsName.P, PsName.inst, Spec.Instance.params])

end Properties
