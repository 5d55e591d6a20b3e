import Verif.Proof.StackPeak
import Verif.Proof.Measure
import Verif.Properties.Stack
import Verif.Properties.Leak
import Verif.Properties.Signing
/-!
# Property C50: how much RAM an operation takes does not depend on the data, and what the repository's measurement of it finds

C47 bounds the stack. Here the bound is shown to be reached by every complete operation, whatever the keys, messages, random bytes, chunks and the previous content of context and memory;
so the figures of ramspace.out, which were measured with one key and one message, hold for all (get_space.c:24-25, "the values don't change the amount of RAM used").
The sizes are those of the declared parameters and variables, as in C47; when the innermost function is running, the largest function that it calls and that calls nothing is counted with it.
-/
namespace Properties
open Model Spec.Stack Model.Stack Model.Layout Model.Measure
open Leak (Ev CFn)

/-- `v` is the most that the running functions occupy at any moment of the log. -/
def Peak (frame leaf : CFn → Nat) (log : List Ev) (v : Nat) : Prop :=
  (∀ q, q <+: log → occupied frame leaf (active q) ≤ v) ∧ ∃ q, q <+: log ∧ occupied frame leaf (active q) = v

/-- There is only one such number. -/
theorem Peak.unique {frame leaf : CFn → Nat} {log : List Ev} {v w : Nat} (h : Peak frame leaf log v) (h' : Peak frame leaf log w) : v = w := by
  obtain ⟨h1, q, h2, h3⟩ := h
  obtain ⟨g1, r, g2, g3⟩ := h'
  have := h1 r g2
  have := g1 q h2
  omega

theorem occupied_snoc (frame leaf : CFn → Nat) (g h : CFn) (σ : List CFn) : occupied frame leaf ((g :: σ) ++ [h]) = occupied frame leaf (g :: σ) + frame h := by
  show leaf g + frame g + ((σ ++ [h]).map frame).sum = leaf g + frame g + (σ.map frame).sum + frame h
  rw [List.map_append, List.sum_append]
  show _ + (_ + (frame h + 0)) = _
  omega

/-! ## The sizes -/

/-- A configuration with the knobs that matter for the stack. -/
def shapeCfg (l5 l3 so : Bool) (ko : Fin 3) : Config := { shake := true, sha2 := true, l5 := l5, l3 := l3, s := true, sha2opt := so, shakeOpt := ko.1 }

/-- `TS_SHAKE256_OPT`: 1, 2 or anything else. -/
def shakeKind (k : Nat) : Fin 3 := if k = 2 then 2 else if k = 1 then 1 else 0

/-- The frames of the functions other than `ts_gen_key` depend on the width of pointers and four knobs. -/
theorem frame_shape (a : Abi) (c : Config) {g : CFn} (h : g ≠ .ts_gen_key) :
    frame a c g = frame ⟨⟨false, a.arch.wide⟩, true⟩ (shapeCfg c.l5 c.l3 c.sha2opt (shakeKind c.shakeOpt)) g := by
  cases g
  case ts_gen_key => exact absurd rfl h
  case KeccakF1600_StatePermute =>
    unfold frame declared shapeCfg shakeKind
    by_cases h2 : c.shakeOpt = 2
    · rw [if_pos h2]; simp only [if_pos h2]; rfl
    · by_cases h1 : c.shakeOpt = 1
      · rw [if_neg h2, if_pos h1]; simp only [if_neg h2, if_pos h1]; rfl
      · rw [if_neg h2, if_neg h1]; simp only [if_neg h2, if_neg h1]; rfl
  all_goals rfl

theorem leaf_shape (a : Abi) (c : Config) (g : CFn) :
    leaf a c g = leaf ⟨⟨false, a.arch.wide⟩, true⟩ (shapeCfg c.l5 c.l3 c.sha2opt (shakeKind c.shakeOpt)) g := by cases g <;> rfl

theorem need_congr (G : CFn → List CFn) {fr fr' lf lf' : CFn → Nat} (hG : ∀ g, CFn.ts_gen_key ∉ G g) (hf : ∀ g, g ≠ .ts_gen_key → fr g = fr' g) (hl : ∀ g, lf g = lf' g) :
    ∀ (d : Nat) (g : CFn), g ≠ .ts_gen_key → need G fr lf d g = need G fr' lf' d g := by
  intro d
  induction d with
  | zero => intro g _; rfl
  | succ d ih =>
    intro g hg
    show fr g + max (lf g) (largest ((G g).map (need G fr lf d))) = fr' g + max (lf' g) (largest ((G g).map (need G fr' lf' d)))
    rw [hf g hg, hl g, List.map_congr_left fun h hh => ih h fun e => hG g (e ▸ hh)]

theorem occupied_congr {fr fr' lf lf' : CFn → Nat} (hf : ∀ g, g ≠ .ts_gen_key → fr g = fr' g) (hl : ∀ g, lf g = lf' g) :
    ∀ σ, CFn.ts_gen_key ∉ σ → occupied fr lf σ = occupied fr' lf' σ := by
  intro σ h
  cases σ with
  | nil => rfl
  | cons g σ =>
    rw [List.mem_cons, not_or] at h
    show lf g + fr g + (σ.map fr).sum = lf' g + fr' g + (σ.map fr').sum
    rw [hf g (fun e => h.1 e.symm), hl g, List.map_congr_left fun k hk => hf k fun e => h.2 (e ▸ hk)]

theorem not_callee (o : Bool) (F : Fam) (g : CFn) : CFn.ts_gen_key ∉ callees o F g := by
  cases o <;> cases F <;> cases g <;> decide

/-- In every configuration the longest paths of the call graph are those that every operation takes. -/
theorem longest (w l5 l3 so : Bool) (ko : Fin 3) (F : Fam) :
    let fr := frame ⟨⟨false, w⟩, true⟩ (shapeCfg l5 l3 so ko)
    let lf := leaf ⟨⟨false, w⟩, true⟩ (shapeCfg l5 l3 so ko)
    let G := callees so F
    max (lf .ts_gen_key) (largest ((G .ts_gen_key).map (need G fr lf 7))) = occupied fr lf (Leak.deepLeaf F ++ [.ts_merkle_path]) ∧
    max (need G fr lf 8 .ts_init_verify) (need G fr lf 8 .ts_update_verify) = occupied fr lf (Leak.deepMsg F ++ [.ts_update_verify]) ∧
    max (need G fr lf 8 .ts_init_sign) (need G fr lf 8 .ts_sign) =
      max (occupied fr lf (Leak.deepMsg F ++ [.ts_init_sign])) (max (occupied fr lf ((Leak.deepLeaf F ++ [.ts_merkle_path]) ++ [.ts_sign]))
        (if F = .sha2L35 then occupied fr lf [.sha512_compress, .ts_SHA512_update, .ts_SHA512_final_trunc, .ts_SHA512_final, .ts_sha2_L35_prf_msg, .ts_init_sign] else 0)) := by
  revert w l5 l3 so ko
  cases F <;> decide +kernel

theorem frames (a : Abi) (c : Config) (F : Fam) :
    need (callees c.sha2opt F) (frame a c) (leaf a c) 8 .ts_gen_key = occupied (frame a c) (leaf a c) ((Leak.deepLeaf F ++ [.ts_merkle_path]) ++ [.ts_gen_key]) ∧
    max (need (callees c.sha2opt F) (frame a c) (leaf a c) 8 .ts_init_verify) (need (callees c.sha2opt F) (frame a c) (leaf a c) 8 .ts_update_verify) =
      occupied (frame a c) (leaf a c) (Leak.deepMsg F ++ [.ts_update_verify]) ∧
    max (need (callees c.sha2opt F) (frame a c) (leaf a c) 8 .ts_init_sign) (need (callees c.sha2opt F) (frame a c) (leaf a c) 8 .ts_sign) =
      max (occupied (frame a c) (leaf a c) (Leak.deepMsg F ++ [.ts_init_sign])) (max (occupied (frame a c) (leaf a c) ((Leak.deepLeaf F ++ [.ts_merkle_path]) ++ [.ts_sign]))
        (if F = .sha2L35 then occupied (frame a c) (leaf a c) [.sha512_compress, .ts_SHA512_update, .ts_SHA512_final_trunc, .ts_SHA512_final, .ts_sha2_L35_prf_msg, .ts_init_sign] else 0)) := by
  obtain ⟨h1, h2, h3⟩ := longest a.arch.wide c.l5 c.l3 c.sha2opt (shakeKind c.shakeOpt) F
  have hf : ∀ g, g ≠ .ts_gen_key → frame a c g = _ := fun g hg => frame_shape a c hg
  have hl : ∀ g, leaf a c g = _ := leaf_shape a c
  have hn := need_congr (callees c.sha2opt F) (not_callee _ F) hf hl
  have ho := occupied_congr hf hl
  refine ⟨?_, ?_, ?_⟩
  · have e : occupied (frame a c) (leaf a c) ((Leak.deepLeaf F ++ [.ts_merkle_path]) ++ [.ts_gen_key]) =
        occupied (frame a c) (leaf a c) (Leak.deepLeaf F ++ [.ts_merkle_path]) + frame a c .ts_gen_key := by
      cases F <;> exact occupied_snoc _ _ _ _ _
    rw [e, ho _ (by cases F <;> decide), ← h1]
    show frame a c .ts_gen_key + max (leaf a c .ts_gen_key) (largest ((callees c.sha2opt F .ts_gen_key).map (need _ (frame a c) (leaf a c) 7))) = _
    rw [hl, List.map_congr_left fun h hh => hn 7 h fun e => not_callee _ F _ (e ▸ hh), Nat.add_comm]
  · rw [hn _ _ (by decide), hn _ _ (by decide), ho _ (by cases F <;> decide)]
    exact h2
  · rw [hn _ _ (by decide), hn _ _ (by decide), ho _ (by cases F <;> decide), ho _ (by cases F <;> decide), ho _ (by decide)]
    exact h3

theorem ps_pos (c : Config) (x : PsName) : 0 < (ps c x).n ∧ 0 < (ps c x).merkle_h := by
  rw [show (ps c x).n = x.P.n by cases x <;> rfl, show (ps c x).merkle_h = x.P.hp by cases x <;> rfl]
  cases x <;> decide

/-! ## Key generation, signing, verification -/

/-- What key generation takes: the most that the call graph allows. -/
def keygenStack (a : Abi) (c : Config) (x : PsName) : Nat := need (callees c.sha2opt (famOf x)) (frame a c) (leaf a c) 8 .ts_gen_key

/-- What signing takes besides the context. -/
def signStack (a : Abi) (c : Config) (x : PsName) : Nat :=
  max (need (callees c.sha2opt (famOf x)) (frame a c) (leaf a c) 8 .ts_init_sign) (need (callees c.sha2opt (famOf x)) (frame a c) (leaf a c) 8 .ts_sign)

/-- What verification takes besides the context. -/
def verifyStack (a : Abi) (c : Config) (x : PsName) : Nat :=
  max (need (callees c.sha2opt (famOf x)) (frame a c) (leaf a c) 8 .ts_init_verify) (need (callees c.sha2opt (famOf x)) (frame a c) (leaf a c) 8 .ts_update_verify)

/-- C50: every call of `ts_gen_key` that generates a key takes the same stack, which depends only on the machine, the configuration and the parameter set. -/
theorem C50_keygen (a : Abi) (E : Env) (mem : Mem) (x : PsName) (sk pk : Option Nat) (r : Option Rng) (b : Nat × Mem × List Nat)
    (hr : (Leak.ts_gen_key E mem sk pk (some (ps E.cfg x)) r).res = .ok b) (hb : b.1 = 1) :
    Peak (frame a E.cfg) (leaf a E.cfg) (Leak.ts_gen_key E mem sk pk (some (ps E.cfg x)) r).log (keygenStack a E.cfg x) := by
  refine ⟨fun q hq => C47_stack E mem x (.gen_key sk pk true r) trivial _ _ q hq, ?_⟩
  obtain ⟨q, hq, hs⟩ := Leak.seen_ts_gen_key (Leak.ps_kin E.cfg x) (ps_pos E.cfg x).1 (ps_pos E.cfg x).2 sk pk r hr hb
  refine ⟨q, hq, ?_⟩
  rw [hs]
  unfold keygenStack
  rw [(frames a E.cfg (famOf x)).1, List.append_assoc]
  rfl

/-- C50: every complete signature operation takes the same stack, which depends only on the machine, the configuration and the parameter set: not on the key, the message,
the random bytes, the sizes of the requests, the previous content of the context. -/
theorem C50_sign (a : Abi) (J : SignJob) (reqs : List (Bytes × Nat)) (hfit : ∀ r ∈ reqs, r.2 ≤ r.1.length) (hall : J.x.P.sigBytes ≤ (reqs.map Prod.snd).sum) :
    Peak (frame a J.E.cfg) (leaf a J.E.cfg) (Leak.signRun J reqs).log (signStack a J.E.cfg J.x) := by
  have hup := (C47_sign J reqs (frame a J.E.cfg) (leaf a J.E.cfg)).2
  refine ⟨hup, ?_⟩
  have h3 := (frames a J.E.cfg (famOf J.x)).2.2
  have get : ∀ σ, Leak.Seen (Leak.signRun J reqs) σ → occupied (frame a J.E.cfg) (leaf a J.E.cfg) σ = signStack a J.E.cfg J.x →
      ∃ q, q <+: (Leak.signRun J reqs).log ∧ occupied (frame a J.E.cfg) (leaf a J.E.cfg) (active q) = signStack a J.E.cfg J.x := by
    rintro σ ⟨q, hq, hs⟩ e
    exact ⟨q, hq, by rw [hs]; exact e⟩
  have s1 := Leak.seen_signRun_msg J reqs
  have s2 := Leak.seen_signRun_leaf J reqs hfit hall
  have s3 := Leak.seen_signRun_prf J reqs
  have g1 := get _ s1
  have g2 := get _ s2
  by_cases hF : famOf J.x = .sha2L35
  · have g3 := get _ (s3 hF)
    rw [if_pos hF] at h3
    unfold signStack at g1 g2 g3 ⊢
    rw [h3] at g1 g2 g3 ⊢
    have key : ∀ A B C : Nat, A = max A (max B C) ∨ B = max A (max B C) ∨ C = max A (max B C) := by omega
    rcases key _ _ _ with h | h | h
    · exact g1 h
    · exact g2 h
    · exact g3 h
  · rw [if_neg hF] at h3
    unfold signStack at g1 g2 ⊢
    rw [h3] at g1 g2 ⊢
    have key : ∀ A B : Nat, A = max A (max B 0) ∨ B = max A (max B 0) := by omega
    rcases key _ _ with h | h
    · exact g1 h
    · exact g2 h

/-- C50: every verification that is given at least the first `n` bytes of a signature (good or bad) takes the same stack, which depends only on the machine, the configuration and the
parameter set. -/
theorem C50_verify (a : Abi) (J : VerifyJob) (ts : List Bytes) (hn : J.x.P.n ≤ ts.flatten.length) :
    Peak (frame a J.E.cfg) (leaf a J.E.cfg) (Leak.verifyRun J ts).log (verifyStack a J.E.cfg J.x) := by
  refine ⟨(C47_verify J ts (frame a J.E.cfg) (leaf a J.E.cfg)).2, ?_⟩
  obtain ⟨q, hq, hs⟩ := Leak.seen_verifyRun J ts hn
  refine ⟨q, hq, ?_⟩
  rw [hs]
  exact (frames a J.E.cfg (famOf J.x)).2.1.symm

/-- C50: whatever the sizes of the frames (also those that a compiler chooses), generating two keys at the same place takes the same stack. -/
theorem C50_keygen_any (J K : KeyJob) (hc : J.E.cfg = K.E.cfg) (hx : J.x = K.x) (hp : J.priv = K.priv) (hq : J.pub = K.pub) (hm : ∀ a, (J.mem a).isSome = (K.mem a).isSome)
    (hJ : J.delivers = true) (hK : K.delivers = true) (frame leaf : CFn → Nat) (v : Nat) :
    Peak frame leaf (Leak.ts_gen_key J.E J.mem (some J.priv) J.pub (some (ps J.E.cfg J.x)) (some J.rng)).log v ↔
    Peak frame leaf (Leak.ts_gen_key K.E K.mem (some K.priv) K.pub (some (ps K.E.cfg K.x)) (some K.rng)).log v := by
  rw [C41_same J K hc hx hp hq hm hJ hK]

/-! ## The measurement -/

/-- The stores `ws` of a routine that makes the calls of the log, with `base` bytes for the routine itself: every store goes to the stack in use at some moment. -/
def Within (base : Nat) (frame leaf : CFn → Nat) (log : List Ev) (ws : List (Nat × UInt8)) : Prop :=
  ∀ w ∈ ws, ∃ q, q <+: log ∧ w.1 < base + occupied frame leaf (active q)

/-- C50: what `measure_stack` reports, whatever was on the stack before and whatever the routine stores: never more than what was in use (beyond the `o` bytes above the array), and exactly that, if
the array is large enough and the last byte in use is left with a value other than the pattern. -/
theorem C50_report (frame leaf : CFn → Nat) (log : List Ev) (v : Nat) (hv : Peak frame leaf log v) (base o : Nat) (s : Area) (ws : List (Nat × UInt8)) (hw : Within base frame leaf log ws) :
    report o s ws ≤ base + v - o ∧
    (o < base + v → base + v ≤ o + 10000 → stores (init_stack o s) ws (base + v - 1) ≠ 120 → report o s ws = base + v - o) := by
  obtain ⟨h1, h2, h3⟩ := measure_in o (stores (init_stack o s) ws)
  have hN : N = 10000 := rfl
  have clean : ∀ d, base + v ≤ d → stores (init_stack o s) ws d = init_stack o s d := by
    intro d hd
    refine stores_in ws _ d fun w hm e => ?_
    obtain ⟨q, hq, hlt⟩ := hw w hm
    have := hv.1 q hq
    omega
  have upper : report o s ws ≤ base + v - o := by
    unfold report
    refine Nat.le_of_not_lt fun hlt => ?_
    refine h3 (by omega) ?_
    rw [clean _ (by omega), init_stack_in, if_pos (by omega)]
  refine ⟨upper, fun ho hfit hne => Nat.le_antisymm upper (Nat.le_of_not_lt fun hlt => hne ?_)⟩
  have := h2 (base + v - 1 - o) (by unfold report at hlt; omega) (by omega)
  rwa [show o + (base + v - 1 - o) = base + v - 1 by omega] at this

/-- C50: the array of 10000 bytes is large enough (stack.c:21, "None of the routines we test will overwrite this much"): on every machine and in every configuration key generation takes at most
1996 bytes, signing and verification at most 852 and 752 besides the context of at most 1136. -/
theorem C50_array (a : Abi) (c : Config) (x : PsName) :
    keygenStack a c x ≤ 1996 ∧ sizeofCtx a c + signStack a c x ≤ 1988 ∧ sizeofCtx a c + verifyStack a c x ≤ 1888 := by
  have hs := C43_largest.1 a c
  have key : ∀ o F, need (callees o F) (frame lp64 (biggest o)) (leaf lp64 (biggest o)) 8 .ts_gen_key ≤ 1996 ∧
      need (callees o F) (frame lp64 (biggest o)) (leaf lp64 (biggest o)) 8 .ts_init_sign ≤ 852 ∧
      need (callees o F) (frame lp64 (biggest o)) (leaf lp64 (biggest o)) 8 .ts_sign ≤ 852 ∧
      need (callees o F) (frame lp64 (biggest o)) (leaf lp64 (biggest o)) 8 .ts_init_verify ≤ 752 ∧
      need (callees o F) (frame lp64 (biggest o)) (leaf lp64 (biggest o)) 8 .ts_update_verify ≤ 752 := by
    intro o F
    cases o <;> cases F <;> decide +kernel
  obtain ⟨k1, k2, k3, k4, k5⟩ := key c.sha2opt (famOf x)
  have m : ∀ g, need (callees c.sha2opt (famOf x)) (frame a c) (leaf a c) 8 g ≤ need (callees c.sha2opt (famOf x)) (frame lp64 (biggest c.sha2opt)) (leaf lp64 (biggest c.sha2opt)) 8 g :=
    fun g => need_mono _ (frame_biggest a c) (leaf_biggest a c) 8 g
  have m1 := m .ts_gen_key
  have m2 := m .ts_init_sign
  have m3 := m .ts_sign
  have m4 := m .ts_init_verify
  have m5 := m .ts_update_verify
  unfold keygenStack signStack verifyStack
  omega

/-- C50: two signature operations with the same configuration and parameter set, whatever their keys, messages, random bytes and requests, are reported to take the same RAM (if each leaves the last byte
that it uses with a value other than the pattern, as stack.c presumes). -/
theorem C50_same_report (a : Abi) (J K : SignJob) (hc : J.E.cfg = K.E.cfg) (hx : J.x = K.x) (reqs reqs' : List (Bytes × Nat)) (hJ : Fits reqs ∧ J.x.P.sigBytes ≤ asked reqs)
    (hK : Fits reqs' ∧ K.x.P.sigBytes ≤ asked reqs') (base o : Nat) (ho : o < base + signStack a J.E.cfg J.x) (hN : base + signStack a J.E.cfg J.x ≤ o + 10000) (s s' : Area)
    (ws ws' : List (Nat × UInt8)) (hw : Within base (frame a J.E.cfg) (leaf a J.E.cfg) (Leak.signRun J reqs).log ws)
    (hw' : Within base (frame a K.E.cfg) (leaf a K.E.cfg) (Leak.signRun K reqs').log ws') (hl : stores (init_stack o s) ws (base + signStack a J.E.cfg J.x - 1) ≠ 120)
    (hl' : stores (init_stack o s') ws' (base + signStack a J.E.cfg J.x - 1) ≠ 120) :
    report o s ws = base + signStack a J.E.cfg J.x - o ∧ report o s' ws' = base + signStack a J.E.cfg J.x - o := by
  refine ⟨(C50_report _ _ _ _ (C50_sign a J reqs hJ.1 hJ.2) base o s ws hw).2 ho hN hl, ?_⟩
  have e : signStack a J.E.cfg J.x = signStack a K.E.cfg K.x := by rw [hc, hx]
  rw [e] at ho hN hl' ⊢
  exact (C50_report _ _ _ _ (C50_sign a K reqs' hK.1 hK.2) base o s' ws' hw').2 ho hN hl'

/-- The figures for the configurations of ramspace.py on a 64-bit machine: key generation, signing and verification, the context included. -/
def figures : PsName → Nat × Nat × Nat
  | .sha2_128f => (916, 1017, 940) | .sha2_128s => (1012, 1113, 1036)
  | .sha2_192f => (1224, 1449, 1360) | .sha2_192s => (1368, 1593, 1504)
  | .sha2_256f => (1328, 1573, 1480) | .sha2_256s => (1488, 1733, 1640)
  | .shake_128f => (1108, 1100, 1000) | .shake_128s => (1204, 1196, 1096)
  | .shake_192f => (1212, 1204, 1104) | .shake_192s => (1356, 1348, 1248)
  | .shake_256f => (1316, 1308, 1208) | .shake_256s => (1476, 1468, 1368)

/-- C50: the figures that go with those of ramspace.out: in its configurations every key generation, every complete signing operation and every verification takes exactly this much, and the measured
figures (with what the compiler adds or saves) are within 80 bytes. -/
theorem C50_figures (x : PsName) :
    (keygenStack lp64 (ramspaceCfg x) x, sizeofCtx lp64 (ramspaceCfg x) + signStack lp64 (ramspaceCfg x) x, sizeofCtx lp64 (ramspaceCfg x) + verifyStack lp64 (ramspaceCfg x) x) = figures x ∧
    Near (figures x).1 (measured x).1 ∧ Near (figures x).2.1 (measured x).2.1 ∧ Near (figures x).2.2 (measured x).2.2 := by
  cases x <;> decide +kernel

/-- What an operation takes in the configuration of ramspace.py for its parameter set: key generation, signing and verification, the context included. -/
def figuresOn (a : Abi) (x : PsName) : Nat × Nat × Nat :=
  (keygenStack a (ramspaceCfg x) x, sizeofCtx a (ramspaceCfg x) + signStack a (ramspaceCfg x) x, sizeofCtx a (ramspaceCfg x) + verifyStack a (ramspaceCfg x) x)

/-- Every figure of the first is smaller. -/
def Less (u v : Nat × Nat × Nat) : Prop := u.1 < v.1 ∧ u.2.1 < v.2.1 ∧ u.2.2 < v.2.2

instance (u v : Nat × Nat × Nat) : Decidable (Less u v) := inferInstanceAs (Decidable (_ ∧ _ ∧ _))

/-- C50: the advice of read.me on the choice of a parameter set holds on every machine, for every operation: F sets use less RAM than S sets; of the sets for 128 bits the SHA-2 ones use less than
the SHAKE ones, of the larger sets the SHAKE ones less than the SHA-2 ones (in the configurations of ramspace.py). -/
theorem C50_advice (a : Abi) :
    (∀ p ∈ [(PsName.sha2_128f, PsName.sha2_128s), (.sha2_192f, .sha2_192s), (.sha2_256f, .sha2_256s), (.shake_128f, .shake_128s), (.shake_192f, .shake_192s), (.shake_256f, .shake_256s)],
      Less (figuresOn a p.1) (figuresOn a p.2)) ∧
    (∀ p ∈ [(PsName.sha2_128f, PsName.shake_128f), (.sha2_128s, .shake_128s)], Less (figuresOn a p.1) (figuresOn a p.2)) ∧
    (∀ p ∈ [(PsName.shake_192f, PsName.sha2_192f), (.shake_192s, .sha2_192s), (.shake_256f, .sha2_256f), (.shake_256s, .sha2_256s)], Less (figuresOn a p.1) (figuresOn a p.2)) := by
  obtain ⟨⟨b, w⟩, al⟩ := a
  cases b <;> cases w <;> cases al <;> decide +kernel

/-! ## Concrete cases -/

/-- A key generation that delivers. -/
example : (exKey goodRng (goodRng_ok _)).delivers = true := rfl

/-- A call that meets the hypotheses of `C50_keygen`. -/
example : ∃ b, (Leak.ts_gen_key (exKey goodRng (goodRng_ok _)).E (exKey goodRng (goodRng_ok _)).mem (some (exKey goodRng (goodRng_ok _)).priv) (exKey goodRng (goodRng_ok _)).pub
    (some (ps (exKey goodRng (goodRng_ok _)).E.cfg (exKey goodRng (goodRng_ok _)).x)) (some (exKey goodRng (goodRng_ok _)).rng)).res = .ok b ∧ b.1 = 1 := by
  obtain ⟨mem', e, -⟩ := C12_keygen (exKey goodRng (goodRng_ok _)) rfl
  exact ⟨_, (C41_outcome _).trans e, rfl⟩

/-- Requests that meet those of `C50_sign`; and those of `run_sign`, get_space2.c:47-55, one byte at a time. -/
example : Fits exReqs ∧ exSign.x.P.sigBytes ≤ asked exReqs := ⟨exReqs_fits, by decide⟩
example (x : PsName) (v : UInt8) : Fits (List.replicate (x.P.sigBytes + 1) ([v], 1)) ∧ x.P.sigBytes ≤ asked (List.replicate (x.P.sigBytes + 1) ([v], 1)) := by
  refine ⟨fun r hr => by rw [List.eq_of_mem_replicate hr]; exact Nat.le_refl 1, ?_⟩
  unfold asked
  rw [List.map_replicate, List.sum_replicate_nat]
  show _ ≤ (_ + 1) * 1
  omega

/-- Sixteen bytes in two chunks, which are no signature. -/
example : exVerify.x.P.n ≤ ([List.replicate 10 0, List.replicate 22 255] : List Bytes).flatten.length := by decide

/-- A routine with two nested calls. -/
theorem exPeak : Peak (fun _ => 100) (fun _ => 8) [.enter .ts_sign, .enter .fors_prf, .leave .fors_prf, .leave .ts_sign] 208 := by
  refine ⟨fun q hq => ?_, [.enter .ts_sign, .enter .fors_prf], by simp, by decide⟩
  have hl := hq.length_le
  rw [List.prefix_iff_eq_take.1 hq]
  have key : ∀ n, n < 5 → occupied (fun _ => 100) (fun _ => 8) (active ([Ev.enter .ts_sign, .enter .fors_prf, .leave .fors_prf, .leave .ts_sign].take n)) ≤ 208 := by decide
  exact key _ (Nat.lt_succ_of_le hl)

/-- What is reported is what was in use (50 bytes of the routine and 208), less the 16 bytes above the array, if the last byte in use is stored to. -/
example (s : Area) : report 16 s [(3, 7), (257, 1)] = 242 :=
  (C50_report _ _ _ 208 exPeak 50 16 s [(3, 7), (257, 1)] fun w hw => ⟨[.enter .ts_sign, .enter .fors_prf], by simp, by
    have e : occupied (fun _ => 100) (fun _ => 8) (active [Ev.enter .ts_sign, .enter .fors_prf]) = 208 := by decide
    rw [e]
    rcases List.mem_cons.1 hw with rfl | hw
    · decide
    · rw [List.mem_singleton.1 hw]; decide⟩).2 (by decide) (by decide) (by
      simp [stores, store])

end Properties
