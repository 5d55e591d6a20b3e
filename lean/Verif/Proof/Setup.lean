import Verif.Proof.Sha256
import Verif.Proof.Sha512
import Verif.Proof.Shake
import Verif.Model.Names
/-!
# The static part of a session: configuration, parameter set, public key; well-formed contexts
-/
namespace Model

/-- A configuration together with a parameter set it supports and the location and value of `PK.seed`. -/
structure Sess where
  E : Env
  name : PsName
  sup : supported E.cfg name = true
  pk : Nat
  pkSeed : Bytes
  hseed : pkSeed.length = name.P.n

namespace Sess
variable (S : Sess)
abbrev cfg : Config := S.E.cfg
abbrev P : Spec.Params := S.name.P
abbrev n : Nat := S.name.P.n
abbrev hf : Spec.HashFns := S.name.fns
abbrev ps : ParamSet := Model.ps S.E.cfg S.name

/-- Numeric facts about a supported parameter set. -/
structure Facts : Prop where
  pn : S.ps.n = S.n
  pk : S.ps.k = S.P.k
  pt : S.ps.t = S.P.a
  ph : S.ps.h = S.P.h
  pd : S.ps.d = S.P.d
  phm : S.ps.merkle_h = S.P.hp
  n16 : 16 ≤ S.n
  nmax : S.n ≤ S.cfg.MAX_HASH
  n8 : S.n % 8 = 0
  max32 : S.cfg.MAX_HASH ≤ 32
  tmax : S.P.a ≤ S.cfg.MAX_T
  hmax : S.P.hp ≤ S.cfg.MAX_MERKLE_H
  tle : S.P.a ≤ 14
  tge : 6 ≤ S.P.a
  hge : 3 ≤ S.P.hp
  hle : S.P.hp ≤ 9
  kle : S.P.k ≤ 35
  kge : 14 ≤ S.P.k
  dge : 7 ≤ S.P.d
  dle : S.P.d ≤ 22
  hhd : S.P.h = S.P.hp * S.P.d
  hh : S.P.h ≤ 64 + S.P.hp
  m49 : S.P.m ≤ 49

theorem facts : S.Facts := by
  obtain ⟨E, name, sup, pk, pkSeed, hseed⟩ := S
  obtain ⟨⟨shake, sha2, l5, l3, s, opt, sopt⟩, _, _, _, _, _, _, _⟩ := E
  have hsup := sup
  revert hsup
  cases name <;>
  · intro hsup
    constructor <;> revert hsup <;>
    first
    | exact fun _ => rfl
    | (intro _; simp [P, n, PsName.P, PsName.inst, Spec.Instance.params, Spec.Params.m, Spec.Params.mdBytes,
        Spec.Params.treeBytes, Spec.Params.leafBytes]; done)
    | (cases l5 <;> cases l3 <;> cases s <;>
        simp [supported, P, n, PsName.P, PsName.inst, Spec.Instance.params, Config.MAX_HASH, Config.MAX_T, Config.MAX_MERKLE_H])

theorem seed_len : S.pkSeed.length = S.n := S.hseed

/-- The hash functions of a family. -/
def fnsOf : Fam → Nat → Spec.HashFns
  | .shake, n => Spec.shakeFns n
  | .sha2L1, n => Spec.sha2L1Fns n
  | .sha2L35, n => Spec.sha2L35Fns n

/-- All pointers of the set belong to family `f`. -/
structure Is (f : Fam) : Prop where
  prf_msg : S.ps.prf_msg = f
  hash_msg : S.ps.hash_msg = f
  prf : S.ps.prf = f
  pf : S.ps.f = f
  init_t : S.ps.init_t = f
  next_t : S.ps.next_t = f
  final_t : S.ps.final_t = f
  sha2 : S.ps.sha2 = decide (f ≠ .shake)
  prehash : S.ps.compute_prehash = if f ≠ .shake ∧ S.cfg.sha2opt then some f else none
  hf : S.hf = fnsOf f S.n
  shake : f = .shake → S.cfg.shake = true

/-- The family of a set. -/
def fam : Fam := S.ps.prf_msg

theorem is_fam : S.Is S.fam := by
  obtain ⟨E, name, sup, pk, pkSeed, hseed⟩ := S
  obtain ⟨⟨shake, sha2, l5, l3, s, opt, sopt⟩, _, _, _, _, _, _, _⟩ := E
  have hsup := sup
  revert hsup
  cases name <;>
  · intro hsup
    constructor <;>
    first
    | rfl
    | (cases opt <;> rfl)
    | (intro h; exact absurd h (fun h' => Fam.noConfusion h'))
    | (intro _; change shake = true; revert hsup; clear * -; cases shake <;> simp [supported])

/-- The address format test of the code, tiny_sphincs.c:25. -/
theorem sha2_eq : (!S.cfg.shake || S.ps.sha2) = S.ps.sha2 := by
  have h := S.is_fam
  by_cases hf : S.fam = .shake
  · rw [h.shake hf]; rfl
  · rw [h.sha2]; simp [hf]

end Sess

theorem Env.as256_len (E : Env) (t : TIter) (h : WfIter t) : (E.as256 t).data.length = 64 := by
  cases t with
  | sha256 s => exact h
  | _ => exact E.pun256_len _

theorem Env.as512_len (E : Env) (t : TIter) (h : WfIter t) : (E.as512 t).data.length = 128 := by
  cases t with
  | sha512 s => exact h
  | _ => exact E.pun512_len _

theorem Env.asShake_len (E : Env) (t : TIter) (h : WfIter t) : (E.asShake t).length = 26 := by
  cases t with
  | shake s => exact h
  | _ => exact E.punShake_len _

theorem Env.local_len (E : Env) (p k : Nat) : (E.local p k).length = k := by simp [Env.local]

/-- The saved SHA-2 states are those of the padded seed. -/
def Sess.PreOK (S : Sess) (c : Ctx) : Prop :=
  S.cfg.sha2opt = true →
    (S.fam ≠ .shake → c.prehash_sha256 = Sha256.chain (S.pkSeed ++ List.replicate (64 - S.n) 0)) ∧
    (S.fam = .sha2L35 → c.prehash_sha512 = Sha512.chain (S.pkSeed ++ List.replicate (128 - S.n) 0))

/-- A well-formed context of the session. -/
structure Good (S : Sess) (ctx : Ctx) : Prop extends Shape S.cfg ctx where
  ps : ctx.ps = S.ps
  pk : ctx.public_key = S.pk
  pre : S.PreOK ctx

/-- The memory holds `PK.seed`. -/
def Sess.MemPub (S : Sess) (mem : Mem) : Prop := mem.Has S.pk S.pkSeed

/-- The memory holds the secret seed in front of the public key. -/
def Sess.MemSec (S : Sess) (mem : Mem) (skSeed : Bytes) : Prop :=
  2 * S.n ≤ S.pk ∧ skSeed.length = S.n ∧ mem.Has (S.pk - 2 * S.n) skSeed

/-- `adr` holds the address `a` in the format of the session. -/
def Sess.AdrIs (S : Sess) (adr : Bytes) (a : Spec.Adrs) : Prop :=
  if S.ps.sha2 then adr.take 22 = a.encc else adr = a.enc

/-- `ctx'` differs from `ctx` at most in the scratch members `adr` and `small_iter`. -/
def Scr (S : Sess) (ctx ctx' : Ctx) : Prop :=
  ∃ adr si, ctx' = { ctx with adr := adr, small_iter := si } ∧ adr.length = S.cfg.ADR_SIZE ∧ WfIter si

theorem Scr.refl {S : Sess} {ctx : Ctx} (h : Good S ctx) : Scr S ctx ctx := ⟨_, _, rfl, h.adr, h.si⟩

theorem Scr.trans {S : Sess} {a b c : Ctx} (h1 : Scr S a b) (h2 : Scr S b c) : Scr S a c := by
  obtain ⟨_, _, rfl, _, _⟩ := h1
  obtain ⟨x, y, rfl, h, h'⟩ := h2
  exact ⟨x, y, rfl, h, h'⟩

theorem Scr.good {S : Sess} {a b : Ctx} (h1 : Scr S a b) (h : Good S a) : Good S b := by
  obtain ⟨_, _, rfl, h2, h3⟩ := h1
  exact ⟨⟨h2, h.buf, h.auth, h.x, h3, h.bi⟩, h.ps, h.pk, h.pre⟩

/-! ## Reading keys -/

theorem pubSeed_ok (S : Sess) (mem : Mem) (h : S.MemPub mem) : pubSeed mem S.pk S.n = .ok S.pkSeed := by
  have := Mem.Has.read h
  rw [S.hseed] at this
  exact this

theorem secSeed_ok (S : Sess) (mem : Mem) (sk : Bytes) (h : S.MemSec mem sk) :
    secSeed mem S.pk S.n = .ok sk := by
  obtain ⟨h1, h2, h3⟩ := h
  unfold secSeed ptrSub
  rw [if_pos h1, ok_bind, ← h2]
  rw [← h2] at h3
  exact Mem.Has.read h3

end Model
