import Verif.Properties.OneTime
import Verif.Properties.Structure
import Verif.Proof.Binding
import Verif.Proof.Trace
/-!
# C34: an accepted signature is the owner's, or breaks a hash function

`Spec/Trace.lean` lists the hash calls made to check a signature, and what the owner of a key hashes at each address.
-/
namespace Properties
open Model Spec.Slh

/-- Block number `i` of a byte string. -/
def blockAt (x : PsName) (σ : Bytes) (i : Nat) : Bytes := (σ.drop (i * x.P.n)).take x.P.n

/-- The block of a signature with the value of chain `c` in layer `j`. -/
def chainBlock (x : PsName) (σ : Bytes) (j c : Nat) : Bytes :=
  blockAt x σ (1 + x.P.k * (x.P.a + 1) + j * (x.P.len + x.P.hp) + c)

/-- Chain `c` of key pair number `ℓ` of layer `j`, after `s` steps from the secret start. -/
def chainValue (x : PsName) (sk : Bytes) (j ℓ c s : Nat) : Bytes :=
  chain x.fns (skPkSeed x.P.n sk) j (ℓ / 2 ^ x.P.hp) (ℓ % 2 ^ x.P.hp) c
    (wotsSk x.fns (sk.take x.P.n) (skPkSeed x.P.n sk) j (ℓ / 2 ^ x.P.hp) (ℓ % 2 ^ x.P.hp) c) 0 s

/-- How many steps along chain `c` the owner publishes, for key pair number `ℓ` of layer `j`. -/
def published (x : PsName) (sk : Bytes) (j ℓ c : Nat) : Nat :=
  (wotsDigits x.P (signedValue x.P x.fns (sk.take x.P.n) (skPkSeed x.P.n sk) j (ℓ / 2 ^ x.P.hp) (ℓ % 2 ^ x.P.hp))).getD c 0

/-- The number of the key pair of layer `j` that belongs to a bottom leaf. -/
def pairAt (x : PsName) (leaf j : Nat) : Nat := leaf / 2 ^ (x.P.hp * j)

/-- `σ` shows a chain value that comes before the one the owner of `sk` publishes. -/
def ShowsUnpublished (x : PsName) (sk M σ : Bytes) : Prop :=
  ∃ j c s, j < x.P.d ∧ c < x.P.len ∧
    let ℓ := pairAt x (bottomLeaf x (digest x (sk.drop (2 * x.P.n)) M σ)) j
    s < published x sk j ℓ c ∧ chainBlock x σ j c = chainValue x sk j ℓ c s

/-- One of the hash calls made to check `σ` has the same result as the owner's call at the same address, but another input. -/
def HitsSecondPreimage (x : PsName) (sk M σ : Bytes) : Prop :=
  ∃ A X, (A, X) ∈ verifyCalls x.P x.fns (sk.drop (2 * x.P.n)) M σ ∧ SecondPreimage x.P x.fns (sk.take x.P.n) (skPkSeed x.P.n sk) A X

theorem outLen (x : PsName) (sk pk : Bytes) (hpk : pk.length = x.P.n) : OutLen x.P x.fns sk pk := by
  have hs : supported (envOf fullCfg).cfg x = true := by cases x <;> rfl
  let S : Sess := ⟨envOf fullCfg, x, hs, 0, pk, hpk⟩
  exact ⟨fun A X => length_F (S := S) pk A X, fun A X => length_T (S := S) pk A X, fun A => length_PRF (S := S) pk sk A⟩

/-- `C24_no_domination`, for the digits of the standard. -/
theorem digits_no_domination (P : Spec.Params) (hn : P.n ≤ 32) (M M' : Bytes) (h : M.length = P.n) (h' : M'.length = P.n) (hne : M ≠ M') :
    ∃ c, c < P.len ∧ (wotsDigits P M).getD c 0 < (wotsDigits P M').getD c 0 := by
  have hl : P.len ≤ (List.replicate P.len (0 : UInt8)).length := by rw [List.length_replicate]
  obtain ⟨d, d', e, e', ⟨c, hc, hlt⟩, -⟩ := C24_no_domination P.n hn (List.replicate P.len 0) (List.replicate P.len 0) M M' hl hl h h' hne
  obtain ⟨q, f, -, g⟩ := compute_wots_digits_ok P (List.replicate P.len 0) M hn (by omega) hl
  obtain ⟨q', f', -, g'⟩ := compute_wots_digits_ok P (List.replicate P.len 0) M' hn (by omega) hl
  rw [e] at f
  cases f
  rw [e'] at f'
  cases f'
  refine ⟨c, hc, ?_⟩
  rw [← g c hc, ← g' c hc]
  exact hlt

theorem blockAt_eq (x : PsName) (σ : Bytes) (i : Nat) (hi : i < σ.length / x.P.n) : blockAt x σ i = (Spec.blocks x.P.n σ).getD i [] := by
  unfold Spec.blocks blockAt
  rw [getD_map_range _ _ _ _ hi]

theorem blocks_len (n : Nat) (σ : Bytes) : ∀ b ∈ Spec.blocks n σ, b.length = n := by
  intro b hb
  obtain ⟨i, hi, rfl⟩ := List.mem_map.1 hb
  have hi := List.mem_range.1 hi
  have hn : 0 < n := by
    rcases Nat.eq_zero_or_pos n with h | h
    · rw [h, Nat.div_zero] at hi; omega
    · exact h
  have h1 : (i + 1) * n ≤ σ.length / n * n := Nat.mul_le_mul_right _ hi
  have h2 := Nat.div_mul_le_self σ.length n
  rw [Nat.succ_mul] at h1
  rw [List.length_take, List.length_drop]
  omega

theorem flatten_blocks (n m : Nat) (σ : Bytes) (h : σ.length = m * n) (hn : 0 < n) : (Spec.blocks n σ).flatten = σ := by
  unfold Spec.blocks
  rw [h, Nat.mul_div_cancel _ hn]
  induction m generalizing σ with
  | zero =>
    rw [Nat.zero_mul] at h
    rw [List.length_eq_zero_iff.1 h]; rfl
  | succ m ih =>
    rw [List.range_succ_eq_map, List.map_cons, List.map_map, List.flatten_cons]
    have := ih (σ.drop n) (by rw [List.length_drop, h, Nat.succ_mul]; omega)
    rw [Nat.zero_mul, List.drop_zero]
    conv => rhs; rw [← List.take_append_drop n σ, ← this]
    congr 2
    apply List.map_congr_left
    intro i _
    simp only [Function.comp_apply, List.drop_drop, Nat.succ_mul]
    rw [Nat.add_comm]

theorem flatten_block (n : Nat) (L : List Bytes) (h : ∀ b ∈ L, b.length = n) (i : Nat) (hi : i < L.length) :
    (L.flatten.drop (i * n)).take n = L.getD i [] := by
  have := flatten_take n (L.drop i) (fun b hb => h b (List.mem_of_mem_drop hb)) 1
  rw [Nat.one_mul] at this
  rw [flatten_drop n L h, this, List.getD_eq_getElem?_getD, List.getElem?_eq_getElem hi, List.drop_eq_getElem_cons hi, List.take_succ_cons, List.take_zero]
  simp

/-- The standard: what it accepts under an honest key is the owner's signature, unless a hash function is broken. -/
theorem standard_binding (x : PsName) (b M σ : Bytes) (hb : b.length = 3 * x.P.n)
    (hv : verify x.P x.fns ((standardKey x b).drop (2 * x.P.n)) M σ = true) :
    σ = signWith x.P x.fns (standardKey x b) (σ.take x.P.n) M ∨ HitsSecondPreimage x (standardKey x b) M σ ∨ ShowsUnpublished x (standardKey x b) M σ := by
  by_cases hsp : HitsSecondPreimage x (standardKey x b) M σ
  · exact .inr (.inl hsp)
  by_cases hun : ShowsUnpublished x (standardKey x b) M σ
  · exact .inr (.inr hun)
  refine .inl ?_
  obtain ⟨-, l1, l2, l3⟩ := split3 hb
  generalize h1 : b.take x.P.n = skSeed at *
  generalize h2 : (b.drop x.P.n).take x.P.n = skPrf at *
  generalize h3 : (b.drop (2 * x.P.n)).take x.P.n = pkSeed at *
  have hrl : (pkRoot x.P x.fns skSeed pkSeed).length = x.P.n := length_pkRoot x _ _ l3
  have hk : standardKey x b = skSeed ++ (skPrf ++ (pkSeed ++ pkRoot x.P x.fns skSeed pkSeed)) := by
    unfold standardKey keygen
    rw [h1, h2, h3, List.append_assoc, List.append_assoc]
  have d0 : (standardKey x b).take x.P.n = skSeed := by rw [hk]; exact take_left' l1
  have d1 : (standardKey x b).drop x.P.n = skPrf ++ (pkSeed ++ pkRoot x.P x.fns skSeed pkSeed) := by rw [hk]; exact drop_left' l1
  have d2 : (standardKey x b).drop (2 * x.P.n) = pkSeed ++ pkRoot x.P x.fns skSeed pkSeed := by
    rw [show 2 * x.P.n = x.P.n + x.P.n by omega, ← List.drop_drop, d1]; exact drop_left' l2
  have d3 : (standardKey x b).drop (3 * x.P.n) = pkRoot x.P x.fns skSeed pkSeed := by
    rw [show 3 * x.P.n = 2 * x.P.n + x.P.n by omega, ← List.drop_drop, d2]; exact drop_left' l3
  have d4 : skPkSeed x.P.n (standardKey x b) = pkSeed := by unfold skPkSeed; rw [d2]; exact take_left' l3
  have d5 : ((standardKey x b).drop (3 * x.P.n)).take x.P.n = pkRoot x.P x.fns skSeed pkSeed := by rw [d3]; exact List.take_of_length_le (by omega)
  have hs : supported (envOf fullCfg).cfg x = true := by cases x <;> rfl
  let S : Sess := ⟨envOf fullCfg, x, hs, 0, pkSeed, l3⟩
  have F := S.facts
  have hn := n_pos x
  have O := outLen x skSeed pkSeed l3
  -- the blocks
  have hver := hv
  unfold verify at hv
  rw [Bool.and_eq_true, beq_iff_eq] at hv
  obtain ⟨hlen, hv⟩ := hv
  have hbl := blocks_len x.P.n σ
  have hcnt : (Spec.blocks x.P.n σ).length = x.P.sigBlocks := by
    rw [length_blocks, hlen]; exact Nat.mul_div_cancel _ hn
  have hflat : (Spec.blocks x.P.n σ).flatten = σ := flatten_blocks x.P.n x.P.sigBlocks σ hlen hn
  have hR : (Spec.blocks x.P.n σ).headD [] = σ.take x.P.n := by
    have := blockAt_eq x σ 0 (by rw [hlen]; show 0 < x.P.sigBlocks * x.P.n / x.P.n; rw [Nat.mul_div_cancel _ hn]; show 0 < 1 + _ + _ + _; omega)
    unfold blockAt at this
    rw [Nat.zero_mul, List.drop_zero] at this
    rw [this]
    cases Spec.blocks x.P.n σ <;> rfl
  have hcalls : ∀ q ∈ verifyCalls x.P x.fns ((standardKey x b).drop (2 * x.P.n)) M σ, NoSP x.P x.fns skSeed pkSeed q := by
    intro q hq hsp'
    refine hsp ⟨q.1, q.2, hq, ?_⟩
    rw [d0, d4]; exact hsp'
  have hdig : digest x ((standardKey x b).drop (2 * x.P.n)) M σ = x.fns.Hmsg (σ.take x.P.n) pkSeed (pkRoot x.P x.fns skSeed pkSeed) M x.P.m := by
    unfold digest
    rw [d2, take_left' l3, drop_left' l3, List.take_of_length_le (Nat.le_of_eq hrl)]
  have hunp : ∀ j c s, j < x.P.d → c < x.P.len →
      s < published x (standardKey x b) j (pairAt x (bottomLeaf x (digest x ((standardKey x b).drop (2 * x.P.n)) M σ)) j) c →
      chainBlock x σ j c ≠ chainValue x (standardKey x b) j (pairAt x (bottomLeaf x (digest x ((standardKey x b).drop (2 * x.P.n)) M σ)) j) c s := by
    intro j c s hj hc hlt he
    exact hun ⟨j, c, s, hj, hc, hlt, he⟩
  rw [hdig] at hunp
  unfold signWith
  unfold verifyCalls verifyBlocksCalls at hcalls
  rw [d2, take_left' l3, drop_left' l3, List.take_of_length_le (Nat.le_of_eq hrl), hR] at hcalls
  rw [d2, take_left' l3, drop_left' l3, List.take_of_length_le (Nat.le_of_eq hrl)] at hv
  unfold verifyBlocks at hv
  rw [hR] at hv
  unfold published chainValue at hunp
  rw [d0, d4] at hunp
  have d4' : ((standardKey x b).drop (2 * x.P.n)).take x.P.n = pkSeed := d4
  simp only [d0, d4', d5] at hv hcalls ⊢
  generalize x.fns.Hmsg (σ.take x.P.n) pkSeed (pkRoot x.P x.fns skSeed pkSeed) M x.P.m = D at *
  rw [beq_iff_eq] at hv
  generalize hB : Spec.blocks x.P.n σ = B at *
  cases B with
  | nil => rw [List.length_nil] at hcnt; exact absurd hcnt (by show ¬ 0 = 1 + _ + _ + _; omega)
  | cons R rest =>
    have hR' : R = σ.take x.P.n := hR
    simp only [List.tail_cons] at hv hcalls
    have hrest : rest.length = x.P.k * (x.P.a + 1) + x.P.d * (x.P.len + x.P.hp) := by
      rw [List.length_cons] at hcnt
      have : x.P.sigBlocks = 1 + x.P.k * (1 + x.P.a) + x.P.h + x.P.d * x.P.len := rfl
      rw [this, show x.P.h = x.P.hp * x.P.d from F.hhd, Nat.add_comm 1 x.P.a, Nat.mul_comm x.P.hp] at hcnt
      rw [Nat.mul_add x.P.d]
      omega
    have hfl : (rest.take (x.P.k * (x.P.a + 1))).length = x.P.k * (x.P.a + 1) := by rw [List.length_take]; omega
    obtain ⟨r, hr⟩ : ∃ r, x.P.d = r + 1 := ⟨x.P.d - 1, by have := F.dge; have : S.P.d = x.P.d := rfl; omega⟩
    have hll := leafIdx_lt x.P D
    have hbr : ∀ b ∈ rest, b.length = x.P.n := fun b h => hbl b (by simp [h])
    -- the hypertree
    have hht := ht_back O (digits_no_domination x.P (by cases x <;> decide)) r 0 (treeIdx x.P D) (leafIdx x.P D) hll (rest.drop (x.P.k * (x.P.a + 1)))
      (by rw [List.length_drop, hrest, hr]; omega) (fun b h => hbr b (List.mem_of_mem_drop h))
      (forsPkFromSig x.P x.fns pkSeed (treeIdx x.P D) (leafIdx x.P D) (mdIndices x.P D) (rest.take (x.P.k * (x.P.a + 1)))) (O.T _ _)
      (fun q hq => hcalls q (List.mem_append.2 (.inr (by rw [hr]; exact hq)))) (by
        intro i hi c hc s hlt
        have := hunp i c s (by omega) hc
        unfold pairAt bottomLeaf at this
        rw [Nat.zero_add] at hlt ⊢
        have h2 := this hlt
        unfold chainBlock at h2
        rw [blockAt_eq _ _ _ (by
          rw [hlen]
          show _ < x.P.sigBlocks * x.P.n / x.P.n
          rw [Nat.mul_div_cancel _ hn, ← hcnt, List.length_cons, hrest]
          have : i * (x.P.len + x.P.hp) + (x.P.len + x.P.hp) ≤ x.P.d * (x.P.len + x.P.hp) := by
            rw [← Nat.succ_mul]; exact Nat.mul_le_mul_right _ (by omega)
          omega), hB] at h2
        rw [show 1 + x.P.k * (x.P.a + 1) + i * (x.P.len + x.P.hp) + c = (x.P.k * (x.P.a + 1) + (i * (x.P.len + x.P.hp) + c)) + 1 by omega,
          List.getD_cons_succ] at h2
        rw [List.getD_eq_getElem?_getD, List.getElem?_drop, ← List.getD_eq_getElem?_getD]
        exact h2)
      (by
        rw [← hr, hv]
        have hz : treeIdx x.P D / 2 ^ (x.P.hp * r) = 0 := by
          apply Nat.div_eq_of_lt
          have ht := treeIdx_lt x.P D
          have : x.P.h - x.P.hp = x.P.hp * r := by rw [show x.P.h = x.P.hp * x.P.d from F.hhd, hr, Nat.mul_succ]; omega
          rw [← this]; exact ht
        rw [hz, Nat.zero_add]
        unfold pkRoot
        rw [hr, Nat.add_sub_cancel])
    obtain ⟨c1, c2⟩ := hht
    have hfs := fors_back O (treeIdx x.P D) (leafIdx x.P D) (mdIndices x.P D) (fun i => mdIndices_lt _ _ _) (rest.take (x.P.k * (x.P.a + 1))) hfl
      (fun b h => hbr b (List.mem_of_mem_take h)) (fun q hq => hcalls q (List.mem_append.2 (.inl hq))) c2
    rw [← hr, hfs] at c1
    conv => lhs; rw [← hflat]
    congr 1
    rw [← hR', List.append_assoc, List.singleton_append]
    congr 1
    conv => lhs; rw [← List.take_append_drop (x.P.k * (x.P.a + 1)) rest]
    rw [hfs]
    congr 1

/-- C34: after a successful `ts_gen_key`, let any bytes, fed in any pieces, be accepted with the public key as a signature of any
message. Then they are exactly what the owner of the private key produces for this message with the randomizer they begin with; or
checking them computes a hash that agrees with the owner's hash at the same address on a different input (a second preimage); or they
show a value of a one-time chain that comes before the one the owner publishes. -/
theorem C34_accepted (K : KeyJob) (hok : K.delivers = true) :
    ∃ mem' rq sk pk, K.run = .ok (1, mem', rq) ∧ mem'.Has K.priv sk ∧ (∀ p, K.pub = some p → mem'.Has p pk) ∧
      sk.length = 4 * K.x.P.n ∧ pk = sk.drop (2 * K.x.P.n) ∧
      ∀ (V : VerifyJob) (ts : List Bytes), V.x = K.x → V.pk = pk →
        ∃ c rs c', V.init = .ok c ∧ updateCalls V.E V.mem c ts = .ok (rs, c') ∧
          (ts_verify c' = 1 →
            ts.flatten = signWith V.x.P V.x.fns sk (ts.flatten.take V.x.P.n) V.M ∨
            HitsSecondPreimage V.x sk V.M ts.flatten ∨ ShowsUnpublished V.x sk V.M ts.flatten) := by
  obtain ⟨mem', e, k1, -, k2, -⟩ := C12_keygen K hok
  have hl := K.rngOk.2 hok
  refine ⟨mem', _, standardKey K.x K.bytes, _, e, k1, k2, length_standardKey _ _ hl, rfl, ?_⟩
  intro V ts hx hpk
  obtain ⟨c, rs, c', e1, e2, hv, -⟩ := C05_verdict V ts
  refine ⟨c, rs, c', e1, e2, fun h1 => ?_⟩
  have := (hv.1 h1).2
  rw [hx, hpk] at this
  rw [hx]
  exact standard_binding K.x K.bytes V.M ts.flatten hl this

/-- The owner's signature begins with its randomizer and is `signWith` of it. -/
theorem signature_signWith (J : SignJob) : J.signature = signWith J.x.P J.x.fns J.sk (J.signature.take J.x.P.n) J.M := by
  obtain ⟨-, l1, l2, l3, l4⟩ := key_split J.skLen
  let S := skSess J.E J.x J.sup J.priv J.sk J.skLen
  have hl : (J.x.fns.PRFmsg ((J.sk.drop J.x.P.n).take J.x.P.n) (optRand J.rng (skPkSeed J.x.P.n J.sk)) J.M).length = J.x.P.n :=
    length_PRFmsg (S := S) _ _ _
  have hR : J.signature.take J.x.P.n = J.x.fns.PRFmsg ((J.sk.drop J.x.P.n).take J.x.P.n) (optRand J.rng (skPkSeed J.x.P.n J.sk)) J.M := by
    show (signBlocks J.x.P J.x.fns _ _ _ _ _ J.M).flatten.take J.x.P.n = _
    unfold signBlocks
    simp only [List.cons_append, List.flatten_cons, List.nil_append]
    exact take_left' hl
  rw [hR]
  rfl

/-- C34: tampering. Let a signature of `M` be made with the private key written by `ts_gen_key`. Other bytes that begin with the same
`n` bytes and are accepted as a signature of `M` exhibit a second preimage or an unpublished chain value. -/
theorem C34_tampering (K : KeyJob) (hok : K.delivers = true) :
    ∃ mem' rq sk pk, K.run = .ok (1, mem', rq) ∧ mem'.Has K.priv sk ∧ (∀ p, K.pub = some p → mem'.Has p pk) ∧
      sk.length = 4 * K.x.P.n ∧ pk = sk.drop (2 * K.x.P.n) ∧
      ∀ (S : SignJob) (reqs : List (Bytes × Nat)) (σ : Bytes), S.x = K.x → S.sk = sk → Fits reqs → ts_size_signature (ps S.E.cfg S.x) ≤ asked reqs →
        Signs S reqs σ →
        ∀ (V : VerifyJob) (ts : List Bytes), V.x = K.x → V.pk = pk → V.M = S.M → ts.flatten.take V.x.P.n = σ.take V.x.P.n → ts.flatten ≠ σ →
          ∃ c rs c', V.init = .ok c ∧ updateCalls V.E V.mem c ts = .ok (rs, c') ∧
            (ts_verify c' = 1 → HitsSecondPreimage V.x sk V.M ts.flatten ∨ ShowsUnpublished V.x sk V.M ts.flatten) := by
  obtain ⟨mem', rq, sk, pk, e, k1, k2, hl, hpk, h⟩ := C34_accepted K hok
  refine ⟨mem', rq, sk, pk, e, k1, k2, hl, hpk, ?_⟩
  intro S reqs σ hSx hsk hfit hall hσ V ts hVx hVpk hM hR hne
  obtain ⟨c, rs, c', e1, e2, h1⟩ := h V ts hVx hVpk
  refine ⟨c, rs, c', e1, e2, fun hv => (h1 hv).resolve_left fun heq => hne ?_⟩
  have hs := hσ.eq hfit hall
  rw [heq, hR, hs, hVx, ← hSx, ← hsk, hM]
  exact (signature_signWith S).symm

/-- C34: what the owner publishes. In every signature made with `sk`, chain `c` of layer `j` shows the value after `published` steps,
and `published` depends only on the key and the key pair, not on the message. -/
theorem C34_published (J : SignJob) (reqs : List (Bytes × Nat)) (σ : Bytes) (hfit : Fits reqs) (hall : ts_size_signature (ps J.E.cfg J.x) ≤ asked reqs)
    (hσ : Signs J reqs σ) (j c : Nat) (hj : j < J.x.P.d) (hc : c < J.x.P.len) :
    let ℓ := pairAt J.x (bottomLeaf J.x (digest J.x (J.sk.drop (2 * J.x.P.n)) J.M σ)) j
    chainBlock J.x σ j c = chainValue J.x J.sk j ℓ c (published J.x J.sk j ℓ c) := by
  rw [hσ.eq hfit hall]
  obtain ⟨R, -, e, hb⟩ := signature_blocks J
  generalize digest J.x (J.sk.drop (2 * J.x.P.n)) J.M J.signature = D at *
  simp only at e hb ⊢
  generalize hfs : forsSign J.x.P J.x.fns (J.sk.take J.x.P.n) (skPkSeed J.x.P.n J.sk) (treeIdx J.x.P D) (leafIdx J.x.P D) (mdIndices J.x.P D) = fs at *
  have hfl : fs.length = J.x.P.k * (J.x.P.a + 1) := by rw [← hfs]; exact length_forsSign ..
  have hll := leafIdx_lt J.x.P D
  have hw : j * (J.x.P.len + J.x.P.hp) + (J.x.P.len + J.x.P.hp) ≤ J.x.P.d * (J.x.P.len + J.x.P.hp) := by
    rw [← Nat.succ_mul]; exact Nat.mul_le_mul_right _ hj
  have hr : J.x.P.d - j = (J.x.P.d - j - 1) + 1 := by omega
  unfold chainBlock blockAt
  rw [e, flatten_block _ _ hb _ (by
    rw [List.length_append, List.length_append, hfl, List.length_singleton, htSign, length_htSignFrom]; omega)]
  rw [List.append_assoc, List.singleton_append,
    show 1 + J.x.P.k * (J.x.P.a + 1) + j * (J.x.P.len + J.x.P.hp) + c = (J.x.P.k * (J.x.P.a + 1) + (j * (J.x.P.len + J.x.P.hp) + c)) + 1 by omega,
    List.getD_cons_succ, List.getD_append_right _ _ _ _ (by omega), hfl, Nat.add_sub_cancel_left]
  rw [List.getD_eq_getElem?_getD, ← List.getElem?_drop, ← List.getD_eq_getElem?_getD, ht_at j _ _ hll hj, hr, htSignFrom]
  have hxl : c < (wotsSign J.x.P J.x.fns (J.sk.take J.x.P.n) (skPkSeed J.x.P.n J.sk) j (up J.x.P (treeIdx J.x.P D) (leafIdx J.x.P D) j / 2 ^ J.x.P.hp)
      (up J.x.P (treeIdx J.x.P D) (leafIdx J.x.P D) j % 2 ^ J.x.P.hp) (signedValue J.x.P J.x.fns (J.sk.take J.x.P.n) (skPkSeed J.x.P.n J.sk) j
      (up J.x.P (treeIdx J.x.P D) (leafIdx J.x.P D) j / 2 ^ J.x.P.hp) (up J.x.P (treeIdx J.x.P D) (leafIdx J.x.P D) j % 2 ^ J.x.P.hp))).length := by
    rw [length_wotsSign]; exact hc
  rw [List.getD_append _ _ _ _ (by rw [length_xmssSign]; omega), xmssSign, List.getD_append _ _ _ _ hxl, wotsSign, getD_map_range _ _ _ _ hc]
  rfl

/-- C34: `verifyCalls` lists all uses of `F` and `T`: other functions that agree on these calls, and on `H_msg`, give the same verdict. -/
theorem C34_all_calls (x : PsName) (g : Spec.HashFns) (pk M σ : Bytes) (hH : ∀ R s o M m, g.Hmsg R s o M m = x.fns.Hmsg R s o M m)
    (h : ∀ A X, (A, X) ∈ verifyCalls x.P x.fns pk M σ → hashAt g (pk.take x.P.n) A X = hashAt x.fns (pk.take x.P.n) A X) :
    verify x.P g pk M σ = verify x.P x.fns pk M σ :=
  verify_congr pk M σ hH fun q hq => h q.1 q.2 hq

/-! The hypotheses are met: every key from `ts_gen_key` has accepted signatures of every message, and they are the first case of
`C34_accepted`. -/

example (K : KeyJob) (hok : K.delivers = true) (M : Bytes) (hM : M.length < 2 ^ 60) :
    ∃ (V : VerifyJob) (σ : Bytes) (c : Ctx) (rs : List Nat) (c' : Ctx), V.x = K.x ∧ V.pk = (standardKey K.x K.bytes).drop (2 * K.x.P.n) ∧ V.M = M ∧
      V.init = .ok c ∧ updateCalls V.E V.mem c [σ] = .ok (rs, c') ∧ ts_verify c' = 1 := by
  have hl : (standardKey K.x K.bytes).length = 4 * K.x.P.n := length_standardKey _ _ (K.rngOk.2 hok)
  have hs : supported (envOf fullCfg).cfg K.x = true := by cases K.x <;> rfl
  have hn : K.x.P.n ≤ 32 := by cases K.x <;> decide
  let pk := (standardKey K.x K.bytes).drop (2 * K.x.P.n)
  have hp : pk.length = 2 * K.x.P.n := by rw [List.length_drop]; omega
  let V : VerifyJob := ⟨envOf fullCfg, K.x, hs, twoMem pk M, 0, pk, pk.length, M, dirtyCtx fullCfg, dirty_shape _, hp, twoMem_left _ _, twoMem_right _ _, hM,
      ⟨show _ < 256 ^ 8 by omega, show _ < 256 ^ 8 by omega⟩⟩
  obtain ⟨c, rs, c', e1, e2, h, -⟩ := C05_verdict V [sign K.x.P K.x.fns (standardKey K.x K.bytes) [] M]
  refine ⟨V, _, c, rs, c', rfl, rfl, rfl, e1, e2, h.2 ?_⟩
  rw [List.flatten_singleton]
  have hv := standard_round_trip K.x K.bytes [] M (K.rngOk.2 hok)
  refine ⟨?_, hv⟩
  rw [size_eq]
  unfold verify at hv
  rw [Bool.and_eq_true, beq_iff_eq] at hv
  exact hv.1

/-- Tampered bytes as in `C34_tampering` exist: change the last byte. -/
example (x : PsName) (σ : Bytes) (h : σ.length = x.P.sigBytes) : ∃ τ : Bytes, τ.length = σ.length ∧ τ.take x.P.n = σ.take x.P.n ∧ τ ≠ σ := by
  have hn : x.P.n + 1 ≤ σ.length := by rw [h]; cases x <;> decide
  refine ⟨σ.take (σ.length - 1) ++ [σ.getD (σ.length - 1) 0 + 1], by simp; omega, ?_, ?_⟩
  · rw [List.take_append_of_le_length (by rw [List.length_take]; omega), List.take_take]
    congr 1; omega
  · intro e
    have := congrArg (fun l => l.getD (σ.length - 1) 0) e
    rw [List.getD_append_right _ _ _ _ (by rw [List.length_take]; omega), List.length_take, Nat.min_eq_left (by omega), Nat.sub_self, List.getD_cons_zero] at this
    have h1 := congrArg UInt8.toNat this
    rw [UInt8.toNat_add] at h1
    have := UInt8.toNat_lt (σ.getD (σ.length - 1) 0)
    have h2 : (1 : UInt8).toNat = 1 := rfl
    rw [h2] at h1
    omega

/-- `C34_all_calls`, for functions with another `PRF`. -/
example (x : PsName) (pk M σ : Bytes) : verify x.P { x.fns with PRF := fun _ _ _ => [] } pk M σ = verify x.P x.fns pk M σ :=
  C34_all_calls x _ pk M σ (fun _ _ _ _ _ => rfl) (fun _ _ _ => rfl)

end Properties
