import Verif.Properties.Keys
import Verif.Proof.OneTime
/-!
# C33: one-time keys never sign two different values

Layer `j` of the hypertree has `2 ^ (h - h' j)` one-time (WOTS+) key pairs. A signature whose digest selects the bottom leaf
number `ℓ` (among `2 ^ h`) uses key pair number `ℓ / 2 ^ (h' j)` of layer `j`.
-/
namespace Properties
open Model Spec.Slh

/-- The message digest a verifier computes from the signature `σ`: `H_msg(R, PK.seed, PK.root, M)`, `R` being the first
`n` bytes of `σ`. -/
def digest (x : PsName) (pk M σ : Bytes) : Bytes := x.fns.Hmsg (σ.take x.P.n) (pk.take x.P.n) ((pk.drop x.P.n).take x.P.n) M x.P.m

/-- The number of the bottom leaf selected by a digest. -/
def bottomLeaf (x : PsName) (D : Bytes) : Nat := treeIdx x.P D * 2 ^ x.P.hp + leafIdx x.P D

/-- Where the part of layer `j` starts in a signature. -/
def layerOffset (x : PsName) (j : Nat) : Nat := (1 + x.P.k * (x.P.a + 1) + j * (x.P.len + x.P.hp)) * x.P.n

/-- The part of FORS tree `i` in a signature: one secret value and an authentication path. -/
def forsPart (x : PsName) (i : Nat) (σ : Bytes) : Bytes := (σ.drop ((1 + i * (x.P.a + 1)) * x.P.n)).take ((x.P.a + 1) * x.P.n)

/-- `ts_init_sign`, then `ts_sign` calls that drain the signature; `σ` are the bytes delivered. -/
def Signs (J : SignJob) (reqs : List (Bytes × Nat)) (σ : Bytes) : Prop :=
  ∃ c rq outs c', J.init = .ok (c, rq) ∧ signCalls J.E J.mem c reqs = .ok (outs, c') ∧ delivered outs = σ

theorem Signs.eq {J : SignJob} {reqs : List (Bytes × Nat)} {σ : Bytes} (h : Signs J reqs σ) (hfit : Fits reqs)
    (hall : ts_size_signature (ps J.E.cfg J.x) ≤ asked reqs) : σ = J.signature := by
  obtain ⟨c, rq, outs, c', e, e', rfl⟩ := h
  rw [size_eq] at hall
  obtain ⟨c2, rq2, outs2, c2', q, q', f⟩ := C02_signature J reqs hfit hall
  rw [e] at q
  cases q
  rw [e'] at q'
  cases q'
  exact f

theorem flatten_drop (n : Nat) (L : List Bytes) (h : ∀ b ∈ L, b.length = n) (m : Nat) : L.flatten.drop (m * n) = (L.drop m).flatten := by
  induction L generalizing m with
  | nil => simp
  | cons b L ih =>
    cases m with
    | zero => simp
    | succ m =>
      rw [List.flatten_cons, List.drop_succ_cons, Nat.succ_mul, Nat.add_comm, ← List.drop_drop, drop_left' (h b (by simp)),
        ih (fun b hb => h b (by simp [hb]))]

theorem flatten_take (n : Nat) (L : List Bytes) (h : ∀ b ∈ L, b.length = n) (m : Nat) : L.flatten.take (m * n) = (L.take m).flatten := by
  induction L generalizing m with
  | nil => simp
  | cons b L ih =>
    cases m with
    | zero => simp
    | succ m =>
      rw [List.flatten_cons, List.take_succ_cons, Nat.succ_mul, Nat.add_comm, List.flatten_cons, ← ih (fun b hb => h b (by simp [hb])),
        List.take_append, h b (by simp), List.take_of_length_le (by rw [h b (by simp)]; omega)]
      congr 2
      omega

/-- The blocks of the signature of a job, in terms of the digest. -/
theorem signature_blocks (J : SignJob) :
    ∃ R, J.signature.take J.x.P.n = R ∧
      let D := digest J.x (J.sk.drop (2 * J.x.P.n)) J.M J.signature
      let fs := forsSign J.x.P J.x.fns (J.sk.take J.x.P.n) (skPkSeed J.x.P.n J.sk) (treeIdx J.x.P D) (leafIdx J.x.P D) (mdIndices J.x.P D)
      let ht := htSign J.x.P J.x.fns (J.sk.take J.x.P.n) (skPkSeed J.x.P.n J.sk) (treeIdx J.x.P D) (leafIdx J.x.P D)
        (forsPk J.x.P J.x.fns (J.sk.take J.x.P.n) (skPkSeed J.x.P.n J.sk) (treeIdx J.x.P D) (leafIdx J.x.P D))
      J.signature = ([R] ++ fs ++ ht).flatten ∧ ∀ b ∈ [R] ++ fs ++ ht, b.length = J.x.P.n := by
  let S := skSess J.E J.x J.sup J.priv J.sk J.skLen
  obtain ⟨-, l1, l2, l3, l4⟩ := key_split J.skLen
  let opt := optRand J.rng (skPkSeed J.x.P.n J.sk)
  let root := (J.sk.drop (3 * J.x.P.n)).take J.x.P.n
  let prf := (J.sk.drop J.x.P.n).take J.x.P.n
  have hb := signBlocks_len (S := S) (J.sk.take J.x.P.n) prf root opt J.M
  let R := J.x.fns.PRFmsg prf opt J.M
  have hR : J.signature.take J.x.P.n = R := by
    have hl : R.length = J.x.P.n := length_PRFmsg (S := S) prf opt J.M
    show (signBlocks J.x.P J.x.fns _ _ prf root opt J.M).flatten.take J.x.P.n = R
    unfold signBlocks
    simp only [List.cons_append, List.flatten_cons, List.nil_append]
    exact take_left' hl
  refine ⟨R, hR, ?_⟩
  have hD : digest J.x (J.sk.drop (2 * J.x.P.n)) J.M J.signature = J.x.fns.Hmsg R (skPkSeed J.x.P.n J.sk) root J.M J.x.P.m := by
    unfold digest
    rw [hR, List.drop_drop, show 2 * J.x.P.n + J.x.P.n = 3 * J.x.P.n by omega]
    rfl
  simp only [hD]
  unfold signBlocks at hb
  simp only at hb
  rw [fors_honest _ _ _ _ _ _ _ (fun i => mdIndices_lt _ _ _)] at hb
  refine ⟨?_, hb⟩
  show (signBlocks J.x.P J.x.fns (J.sk.take J.x.P.n) (skPkSeed J.x.P.n J.sk) prf root opt J.M).flatten = _
  unfold signBlocks
  simp only
  rw [fors_honest _ _ _ _ _ _ _ (fun i => mdIndices_lt _ _ _)]

/-- C33: let two signatures be made with the same private key, for any two messages, in any builds, with any randomness. If
they use the same one-time key pair of layer `j`, they are identical from layer `j` on; in particular that key pair
signs the same value with the same bytes. -/
theorem C33_one_time (J K : SignJob) (hx : J.x = K.x) (hsk : J.sk = K.sk) (reqs₁ reqs₂ : List (Bytes × Nat)) (h₁ : Fits reqs₁) (h₂ : Fits reqs₂)
    (a₁ : ts_size_signature (ps J.E.cfg J.x) ≤ asked reqs₁) (a₂ : ts_size_signature (ps K.E.cfg K.x) ≤ asked reqs₂) :
    ∃ σ₁ σ₂, Signs J reqs₁ σ₁ ∧ Signs K reqs₂ σ₂ ∧
      let pk := J.sk.drop (2 * J.x.P.n)
      let ℓ₁ := bottomLeaf J.x (digest J.x pk J.M σ₁)
      let ℓ₂ := bottomLeaf J.x (digest J.x pk K.M σ₂)
      ∀ j, j ≤ J.x.P.d → ℓ₁ / 2 ^ (J.x.P.hp * j) = ℓ₂ / 2 ^ (J.x.P.hp * j) →
        σ₁.drop (layerOffset J.x j) = σ₂.drop (layerOffset J.x j) := by
  have b₁ := a₁
  have b₂ := a₂
  rw [size_eq] at a₁ a₂
  obtain ⟨c, rq, o1, c', e1, e1', f1⟩ := C02_signature J reqs₁ h₁ a₁
  obtain ⟨d, rq', o2, d', e2, e2', f2⟩ := C02_signature K reqs₂ h₂ a₂
  refine ⟨_, _, ⟨c, rq, o1, c', e1, e1', rfl⟩, ⟨d, rq', o2, d', e2, e2', rfl⟩, ?_⟩
  simp only
  have g1 : delivered o1 = J.signature := f1
  have g2 : delivered o2 = K.signature := f2
  rw [g1, g2]
  obtain ⟨R1, r1, s1, t1⟩ := signature_blocks J
  obtain ⟨R2, r2, s2, t2⟩ := signature_blocks K
  rw [← hx, ← hsk] at s2 t2
  intro j hj hl
  generalize digest J.x (J.sk.drop (2 * J.x.P.n)) J.M J.signature = D1 at *
  generalize digest J.x (J.sk.drop (2 * J.x.P.n)) K.M K.signature = D2 at *
  rw [s1, s2]
  unfold layerOffset
  rw [flatten_drop _ _ t1, flatten_drop _ _ t2]
  congr 1
  have k1 : ∀ (R : Bytes) (D : Bytes) (L : List Bytes), ([R] ++ forsSign J.x.P J.x.fns (J.sk.take J.x.P.n) (skPkSeed J.x.P.n J.sk) (treeIdx J.x.P D)
      (leafIdx J.x.P D) (mdIndices J.x.P D) ++ L).drop (1 + J.x.P.k * (J.x.P.a + 1) + j * (J.x.P.len + J.x.P.hp)) = L.drop (j * (J.x.P.len + J.x.P.hp)) := by
    intro R D L
    rw [← List.drop_drop]
    congr 1
    have hl : ([R] ++ forsSign J.x.P J.x.fns (J.sk.take J.x.P.n) (skPkSeed J.x.P.n J.sk) (treeIdx J.x.P D)
        (leafIdx J.x.P D) (mdIndices J.x.P D)).length = 1 + J.x.P.k * (J.x.P.a + 1) := by
      rw [List.length_append, length_forsSign, List.length_singleton]
    rw [← hl, List.drop_left]
  rw [k1, k1]
  exact ht_suffix J.x.P J.x.fns _ _ j _ _ _ _ (fun t l => forsPk J.x.P J.x.fns (J.sk.take J.x.P.n) (skPkSeed J.x.P.n J.sk) t l)
    (leafIdx_lt _ _) (leafIdx_lt _ _) hj hl

/-- C33, the few-time keys: if the two signatures select the same bottom leaf (hence the same FORS key) and the same index in
FORS tree `i`, their parts for that tree are identical. -/
theorem C33_fors (J K : SignJob) (hx : J.x = K.x) (hsk : J.sk = K.sk) (reqs₁ reqs₂ : List (Bytes × Nat)) (h₁ : Fits reqs₁) (h₂ : Fits reqs₂)
    (a₁ : ts_size_signature (ps J.E.cfg J.x) ≤ asked reqs₁) (a₂ : ts_size_signature (ps K.E.cfg K.x) ≤ asked reqs₂) :
    ∃ σ₁ σ₂, Signs J reqs₁ σ₁ ∧ Signs K reqs₂ σ₂ ∧
      let pk := J.sk.drop (2 * J.x.P.n)
      let D₁ := digest J.x pk J.M σ₁
      let D₂ := digest J.x pk K.M σ₂
      bottomLeaf J.x D₁ = bottomLeaf J.x D₂ → ∀ i, i < J.x.P.k → (mdIndices J.x.P D₁).getD i 0 = (mdIndices J.x.P D₂).getD i 0 →
        forsPart J.x i σ₁ = forsPart J.x i σ₂ := by
  rw [size_eq] at a₁ a₂
  obtain ⟨c, rq, o1, c', e1, e1', f1⟩ := C02_signature J reqs₁ h₁ a₁
  obtain ⟨d, rq', o2, d', e2, e2', f2⟩ := C02_signature K reqs₂ h₂ a₂
  refine ⟨_, _, ⟨c, rq, o1, c', e1, e1', rfl⟩, ⟨d, rq', o2, d', e2, e2', rfl⟩, ?_⟩
  simp only
  have g1 : delivered o1 = J.signature := f1
  have g2 : delivered o2 = K.signature := f2
  rw [g1, g2]
  obtain ⟨R1, r1, s1, t1⟩ := signature_blocks J
  obtain ⟨R2, r2, s2, t2⟩ := signature_blocks K
  rw [← hx, ← hsk] at s2 t2
  intro hl i hi hm
  generalize digest J.x (J.sk.drop (2 * J.x.P.n)) J.M J.signature = D1 at *
  generalize digest J.x (J.sk.drop (2 * J.x.P.n)) K.M K.signature = D2 at *
  have hp : 0 < 2 ^ J.x.P.hp := Nat.pow_pos (by omega)
  have q1 := leafIdx_lt J.x.P D1
  have q2 := leafIdx_lt J.x.P D2
  unfold bottomLeaf at hl
  have top : ∀ a b : Nat, b < 2 ^ J.x.P.hp → (a * 2 ^ J.x.P.hp + b) / 2 ^ J.x.P.hp = a := by
    intro a b hb
    rw [Nat.mul_comm, Nat.mul_add_div hp, Nat.div_eq_of_lt hb, Nat.add_zero]
  have ht : treeIdx J.x.P D1 = treeIdx J.x.P D2 := by rw [← top (treeIdx J.x.P D1) _ q1, hl, top _ _ q2]
  have hle : leafIdx J.x.P D1 = leafIdx J.x.P D2 := by rw [ht] at hl; omega
  have key : ∀ (R : Bytes) (D : Bytes) (L : List Bytes) (hb : ∀ b ∈ [R] ++ forsSign J.x.P J.x.fns (J.sk.take J.x.P.n) (skPkSeed J.x.P.n J.sk) (treeIdx J.x.P D)
      (leafIdx J.x.P D) (mdIndices J.x.P D) ++ L, b.length = J.x.P.n), forsPart J.x i ([R] ++ forsSign J.x.P J.x.fns (J.sk.take J.x.P.n) (skPkSeed J.x.P.n J.sk) (treeIdx J.x.P D)
      (leafIdx J.x.P D) (mdIndices J.x.P D) ++ L).flatten = (forsTreeSig J.x.P J.x.fns (J.sk.take J.x.P.n) (skPkSeed J.x.P.n J.sk) (treeIdx J.x.P D)
      (leafIdx J.x.P D) i ((mdIndices J.x.P D).getD i 0)).flatten := by
    intro R D L hb
    unfold forsPart
    rw [flatten_drop _ _ hb, flatten_take _ _ (fun b h => hb b (List.mem_of_mem_drop h))]
    congr 1
    have hlen := length_forsSign J.x.P J.x.fns (J.sk.take J.x.P.n) (skPkSeed J.x.P.n J.sk) (treeIdx J.x.P D) (leafIdx J.x.P D) (mdIndices J.x.P D)
    have hik : i * (J.x.P.a + 1) + (J.x.P.a + 1) ≤ J.x.P.k * (J.x.P.a + 1) := by
      rw [← Nat.succ_mul]; exact Nat.mul_le_mul_right _ hi
    rw [List.append_assoc, List.singleton_append, Nat.add_comm 1, List.drop_succ_cons, List.drop_append_of_le_length (by rw [hlen]; omega),
      List.take_append_of_le_length (by rw [List.length_drop, hlen]; omega)]
    exact flatMap_range_slice _ _ _ _ (fun j => length_forsTreeSig _ _ _ _ _ _ _ _) hi
  rw [s1, s2, key _ _ _ t1, key _ _ _ t2, ht, hle, hm]

/-! The hypotheses are met: two jobs with the same key and different messages; the top layer has 256 key pairs, so 257 messages are
enough for two of them to share one. -/

example : ∃ J K : SignJob, J.x = K.x ∧ J.sk = K.sk ∧ J.M ≠ K.M ∧ ts_size_signature (ps J.E.cfg J.x) ≤ asked exReqs ∧ Fits exReqs ∧
    ts_size_signature (ps K.E.cfg K.x) ≤ asked exReqs :=
  ⟨exSign, { exSign with msg := 6000, M := rampBytes 6000 7, hasMsg := ramp_has _ _, msgLen := by simp [rampBytes] }, rfl, rfl,
    fun h => absurd (congrArg List.length h) (by show ¬ (rampBytes 5000 33).length = (rampBytes 6000 7).length; simp [rampBytes]),
    by rw [size_eq]; decide, exReqs_fits, by rw [size_eq]; decide⟩

/-- Every signature uses the only key pair set of the top layer: the condition of `C33_one_time` holds for some `j` for all pairs. -/
example (x : PsName) (D₁ D₂ : Bytes) : bottomLeaf x D₁ / 2 ^ (x.P.hp * x.P.d) = bottomLeaf x D₂ / 2 ^ (x.P.hp * x.P.d) := by
  have key : ∀ D, bottomLeaf x D / 2 ^ (x.P.hp * x.P.d) = 0 := by
    intro D
    apply Nat.div_eq_of_lt
    have h1 := treeIdx_lt x.P D
    have h2 := leafIdx_lt x.P D
    have e : x.P.hp * x.P.d = (x.P.h - x.P.hp) + x.P.hp := by cases x <;> decide
    rw [e, Nat.pow_add]
    unfold bottomLeaf
    calc treeIdx x.P D * 2 ^ x.P.hp + leafIdx x.P D < treeIdx x.P D * 2 ^ x.P.hp + 2 ^ x.P.hp := by omega
      _ = (treeIdx x.P D + 1) * 2 ^ x.P.hp := by rw [Nat.add_mul, Nat.one_mul]
      _ ≤ _ := Nat.mul_le_mul_right _ h1
  rw [key, key]

end Properties
