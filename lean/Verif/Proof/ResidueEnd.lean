import Verif.Spec.Residue
import Verif.Proof.ResidueJob
import Verif.Proof.Machine
/-!
# Signing sessions and the observer
-/
namespace Model
open Spec Spec.Slh

theorem ends_clean {S : Sess} {p : Nat} (hp : p ≤ S.forsN + S.P.d * S.per) (h : ¬ Spec.Residue.EndsInWots S.P (p + 1)) : S.clean p := by
  by_contra hc
  apply h
  unfold Sess.clean at hc
  rw [not_or, not_or] at hc
  obtain ⟨h1, h2, h3⟩ := hc
  have hper : S.P.len + S.P.hp = S.per := rfl
  have hF : S.P.k * (S.P.a + 1) = S.forsN := rfl
  have h4 := Nat.div_add_mod' (p - S.forsN) S.per
  refine ⟨(p - S.forsN) / S.per, (p - S.forsN) % S.per - 1, ?_, by omega, ?_⟩
  · by_contra hd
    have := Nat.mul_le_mul_right S.per (Nat.le_of_not_lt hd)
    omega
  · rw [hper, hF]
    omega

theorem SignJob.observed (J : SignJob) (rs : List (Bytes × Nat)) (hfit : ∀ r ∈ rs, r.2 ≤ r.1.length) (mem' : Mem)
    (hpk : mem'.Has (J.priv + 2 * J.x.P.n) (J.sk.drop (2 * J.x.P.n))) (hM : mem'.Has J.msg J.M) :
    ∃ c0 c q os s, J.init = .ok (c0, q) ∧ signCalls J.E J.mem c0 rs = .ok (os, c) ∧
      Observer.session J.E mem' (J.known (Spec.Residue.elements J.x.P.n (min (rs.map Prod.snd).sum J.x.P.sigBytes))) J.c0 J.msg J.M.length
        (ps J.E.cfg J.x) J.priv rs = .ok (os, { c with small_iter := s }) ∧
      (¬ Spec.Residue.EndsInWots J.x.P (Spec.Residue.elements J.x.P.n (min (rs.map Prod.snd).sum J.x.P.sigBytes)) → s = c.small_iter) := by
  let S := skSess J.E J.x J.sup J.priv J.sk J.skLen
  obtain ⟨k1, k2, k3, k4⟩ := key_mem J.skLen J.hasKey
  obtain ⟨-, l1, l2, l3, l4⟩ := key_split J.skLen
  have hS : S.n = J.x.P.n := rfl
  have q1 : S.MemSec J.mem (J.sk.take J.x.P.n) := ⟨by show 2 * J.x.P.n ≤ J.priv + 2 * J.x.P.n; omega, l1, by
        show J.mem.Has (J.priv + 2 * J.x.P.n - 2 * J.x.P.n) _
        rw [Nat.add_sub_cancel]; exact k1⟩
  have f1 : S.MemPrf J.mem ((J.sk.drop J.x.P.n).take J.x.P.n) := ⟨by show J.x.P.n ≤ J.priv + 2 * J.x.P.n; omega, l2, by
        show J.mem.Has (J.priv + 2 * J.x.P.n - J.x.P.n) _
        rw [show J.priv + 2 * J.x.P.n - J.x.P.n = J.priv + J.x.P.n by omega]; exact k2⟩
  have r1 : S.MemRoot J.mem ((J.sk.drop (3 * J.x.P.n)).take J.x.P.n) := ⟨l4, by
        show J.mem.Has (J.priv + 2 * J.x.P.n + J.x.P.n) _
        rw [show J.priv + 2 * J.x.P.n + J.x.P.n = J.priv + 3 * J.x.P.n by omega]; exact k4⟩
  obtain ⟨-, -, p2, k4'⟩ := pk_mem (n := J.x.P.n) (by rw [List.length_drop, J.skLen]; omega) hpk
  have p2 : S.MemPub mem' := p2
  have r2 : S.MemRoot mem' ((J.sk.drop (3 * J.x.P.n)).take J.x.P.n) := ⟨l4, by
    rw [List.drop_drop, show 2 * J.x.P.n + J.x.P.n = 3 * J.x.P.n by omega] at k4'
    exact k4'⟩
  obtain ⟨c0, D, d1, e0, i0, b0, d2, d3, d4, d5⟩ := ts_init_sign_data (S := S) (mem := J.mem) (c := J.c0) (msg := J.msg) (skSeed := J.sk.take J.x.P.n)
      (skPrf := (J.sk.drop J.x.P.n).take J.x.P.n) (root := (J.sk.drop (3 * J.x.P.n)).take J.x.P.n) (M := J.M) (rng := J.rng) (priv := J.priv)
      J.shape rfl k3 q1 f1 r1 J.hasMsg J.msgLen J.rngOk
  have hsig : J.signature = (signBlocks S.P S.hf (J.sk.take J.x.P.n) S.pkSeed ((J.sk.drop J.x.P.n).take J.x.P.n) ((J.sk.drop (3 * J.x.P.n)).take J.x.P.n)
    (optRand J.rng S.pkSeed) J.M).flatten := sign_eq _ _ _ _
  rw [← hsig] at d2
  -- the randomizer
  have hRl := length_PRFmsg (S := S) ((J.sk.drop J.x.P.n).take J.x.P.n) (optRand J.rng S.pkSeed) J.M
  have hR : J.signature.take J.x.P.n = S.hf.PRFmsg ((J.sk.drop J.x.P.n).take J.x.P.n) (optRand J.rng S.pkSeed) J.M := by
    rw [hsig]
    unfold signBlocks
    simp only [List.flatten_append, List.flatten_cons, List.flatten_nil, List.append_nil, List.append_assoc]
    exact List.take_left' hRl
  have hlen := J.length_signature
  have hsb : J.x.P.sigBytes = (S.forsN + S.P.d * S.per + 1) * S.n := by
    show (1 + S.P.k * (1 + S.P.a) + S.P.h + S.P.d * S.P.len) * S.n = _
    congr 1
    unfold Sess.forsN Sess.per
    rw [S.facts.hhd, Nat.mul_add S.P.d, Nat.mul_comm S.P.d S.P.hp, Nat.add_comm 1 S.P.a]
    omega
  have hn0 : 0 < S.n := by have := S.facts.n16; omega
  have hbl : (c0.buffer.take S.n).length = S.n := by
    rw [List.length_take, i0.good.buf]; have := S.facts.nmax; omega
  have hfl : D.blocks.flatten.length = (S.forsN + S.P.d * S.per) * S.n := by
    rw [length_flatten_blocks S.n _ D.blocks_len, length_sblocks]
  have d2' : (c0.buffer.take S.n).drop c0.buffer_offset ++ D.blocks.flatten = J.signature := d2
  have hbo : c0.buffer_offset = 0 := by
    have h1 := congrArg List.length d2'
    rw [List.length_append, hfl, hlen, hsb, List.length_drop, hbl, Nat.succ_mul] at h1
    omega
  rw [hbo, List.drop_zero] at d2'
  have hkey : J.x.P.n = S.n := rfl
  generalize he : Spec.Residue.elements J.x.P.n (min (rs.map Prod.snd).sum J.x.P.sigBytes) = e
  have hkt : (J.known e).sig.take S.n = J.signature.take S.n := by
    show (J.signature.take (e * S.n)).take S.n = _
    have : 1 * S.n ≤ e * S.n := Nat.mul_le_mul_right _ (by rw [← he]; unfold Spec.Residue.elements; omega)
    rw [List.take_take, Nat.min_eq_left (by omega)]
  have hdig : Spec.Residue.digest J.x.P J.x.fns J.sk (J.signature.take J.x.P.n) J.M =
      S.hf.Hmsg (S.hf.PRFmsg ((J.sk.drop J.x.P.n).take J.x.P.n) (optRand J.rng S.pkSeed) J.M) S.pkSeed ((J.sk.drop (3 * J.x.P.n)).take J.x.P.n) J.M S.P.m := by
    rw [hR]; rfl
  have tw : Images D (J.known e) := by
    constructor
    · intro τ i _ _
      show forsNode S.hf (J.sk.take J.x.P.n) S.pkSeed (treeIdx S.P _) (leafIdx S.P _) _ 0 = _
      rw [hdig, ← d3, ← d4, d1]
    · intro j kp i _ _ _
      show chain S.hf S.pkSeed j (treeIdx S.P _ / 2 ^ (S.P.hp * j)) kp i (wotsSk S.hf (J.sk.take J.x.P.n) S.pkSeed j (treeIdx S.P _ / 2 ^ (S.P.hp * j)) kp i) 0 15 = _
      rw [hdig, ← d3, ← d1]
      rfl
  obtain ⟨T, hT⟩ : ∃ T, T = (rs.map Prod.snd).sum := ⟨_, rfl⟩
  rw [← hT] at he
  -- the number of elements used for the invariant
  obtain ⟨e', he1, he2⟩ : ∃ e', T ≤ (e' + 1) * S.n ∧ J.signature.take (e * S.n) = J.signature.take ((e' + 1) * S.n) := by
    by_cases hle : T ≤ J.x.P.sigBytes
    · refine ⟨e - 1, ?_, ?_⟩
      · rw [← he, Nat.min_eq_left hle, hkey]
        unfold Spec.Residue.elements
        have h1 := Nat.div_add_mod' (T + S.n - 1) S.n
        have h2 := Nat.mod_lt (T + S.n - 1) hn0
        rw [Nat.sub_add_cancel (by omega)]
        have h3 : (T + S.n - 1) / S.n * S.n ≤ max 1 ((T + S.n - 1) / S.n) * S.n := Nat.mul_le_mul_right _ (by omega)
        omega
      · rw [Nat.sub_add_cancel (by rw [← he]; unfold Spec.Residue.elements; omega)]
    · refine ⟨T, ?_, ?_⟩
      · have : (T + 1) * 1 ≤ (T + 1) * S.n := Nat.mul_le_mul_left _ hn0
        omega
      · have h1 : e = S.forsN + S.P.d * S.per + 1 := by
          rw [← he, Nat.min_eq_right (by omega), hsb, hkey]
          unfold Spec.Residue.elements
          rw [show (S.forsN + S.P.d * S.per + 1) * S.n + S.n - 1 = (S.n - 1) + (S.forsN + S.P.d * S.per + 1) * S.n by omega,
            Nat.add_mul_div_right _ _ hn0, Nat.div_eq_of_lt (by omega)]
          omega
        have h2 : (T + 1) * 1 ≤ (T + 1) * S.n := Nat.mul_le_mul_left _ hn0
        rw [List.take_of_length_le (by rw [hlen, hsb, h1]), List.take_of_length_le (by omega)]
  have kn : Knows D (J.known e) e' := ⟨c0.buffer.take S.n, hbl, by
    show J.signature.take (e * S.n) = _
    rw [he2, d2']⟩
  have hs := J.start
  obtain ⟨c0', e0', rel⟩ := hs
  have hc0 : c0' = c0 := by
    have := e0'.symm.trans e0
    simp only [Except.ok.injEq, Prod.mk.injEq] at this
    exact this.1
  subst hc0
  obtain ⟨os, c, ec, -⟩ := signCalls_ok J.hasKey rs rel hfit
  have O1 := init_two (S := S) (m1 := J.mem) (m2 := mem') (K := J.known e) (c := J.c0) (c' := c0') (rng1 := J.rng) J.shape rfl k3 p2 f1 r1 r2 J.hasMsg hM J.msgLen J.rngOk
    (hkt.trans hR) e0 i0.good
  obtain ⟨ph, t, O2, ok, hb, hcl, hpos, hz⟩ := calls_two D (m2 := mem') (K := J.known e) (e := e') k3 p2 (by rw [d1]; exact q1) tw kn rs c0' c0'.small_iter (.forsLeaf 0) os c i0 i0.good.si b0
    (fun _ => rfl) (by rw [hbo, ← hT]; show 0 * (S.P.a + 1) * S.n + 0 + T ≤ _; rw [Nat.zero_mul, Nat.zero_mul]; omega) ec
  have hp0 : (Ph.forsLeaf 0).pos S = 0 := Nat.zero_mul _
  rw [hp0] at O2 hpos
  rw [hbo, Nat.zero_mul, ← hT, Nat.zero_add, ← hsb] at hpos
  rw [hbo, ← hT] at hz
  refine ⟨c0', c, _, os, t, e0, ec, ?_, ?_⟩
  · unfold Observer.session
    rw [show Observer.ts_init_sign J.E mem' (J.known e) J.c0 J.msg J.M.length (ps J.E.cfg J.x) J.priv = _ from O1, ok_bind]
    exact O2
  · intro hne
    have hpe : ph.pos S + 1 = e := by
      rw [← he, ← hpos, hkey]
      unfold Spec.Residue.elements
      by_cases h0 : 0 < c.buffer_offset
      · rw [show ph.pos S * S.n + c.buffer_offset + S.n - 1 = (c.buffer_offset - 1) + (ph.pos S + 1) * S.n by rw [Nat.succ_mul]; omega,
          Nat.add_mul_div_right _ _ hn0, Nat.div_eq_of_lt (by omega)]
        omega
      · have hT0 : T = 0 := by
          by_contra h
          exact h0 (hz (Or.inl (by omega)))
        rw [hT0, Nat.zero_min] at hpos
        have hz' : ph.pos S * S.n = 0 := by omega
        have : ph.pos S = 0 := by
          rcases Nat.mul_eq_zero.1 hz' with h | h
          · exact h
          · omega
        rw [hpos, this, Nat.zero_add, Nat.div_eq_of_lt (by omega)]
        rfl
    have := hcl (ends_clean (pos_le ok) (by rw [hpe]; exact hne))
    exact congrArg Ctx.small_iter this

end Model
