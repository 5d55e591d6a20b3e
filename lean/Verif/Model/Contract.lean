import Verif.Model.Api
/-!
# What the caller of the API has to provide

Part of the statements of the theorems: well-formed objects, what memory has to hold when a call is made, and
which abstract call (`Spec.Session.Call`) a concrete one denotes.
-/
namespace Model

/-! ## Memory -/

/-- `mem` holds the bytes `bs` at `addr`. (A condition on the caller; no line of the code.) -/
def Mem.Has (mem : Mem) (addr : Nat) (bs : Bytes) : Prop :=
  ∀ i, (h : i < bs.length) → mem (addr + i) = some bs[i]

/-- The addresses `a .. a + len - 1` are mapped. (A condition on the caller; no line of the code.) -/
def Mem.Mapped (mem : Mem) (a len : Nat) : Prop := ∀ i, i < len → (mem (a + i)).isSome

/-- Disjoint address ranges. (A condition on the caller; no line of the code.) -/
def Disj (a la b lb : Nat) : Prop := a + la ≤ b ∨ b + lb ≤ a

/-! ## Contexts -/

/-- Array lengths inside an iterator. Declarations: sha2.h:16-29, 49-62 and fips202.h:35-37. -/
def WfIter : TIter → Prop
  | .shake s => s.length = 26
  | .sha256 s => s.data.length = 64
  | .sha512 s => s.data.length = 128
  | .raw _ => True

/-- Array lengths of a context of configuration `c`. Declaration: tiny_sphincs.h:85-169. -/
structure Shape (c : Config) (ctx : Ctx) : Prop where
  adr : ctx.adr.length = c.ADR_SIZE
  buf : ctx.buffer.length = c.MAX_HASH
  auth : ctx.auth_path_buffer.length = c.MAX_HASH
  x : ctx.x.length = c.xSize
  si : WfIter ctx.small_iter
  bi : WfIter ctx.big_iter

/-! ## Random number generators -/

/-- What the caller's generator is allowed to do: write at most the bytes asked for, and all of them if it
claims success. Comment: tiny_sphincs.h:181-185. -/
def RngOk (f : Rng) (n : Nat) : Prop := (f n).2.length ≤ n ∧ ((f n).1 = true → (f n).2.length = n)

/-- The value `opt_rand` of a signature: the generator's output, or `PK.seed` if there is no generator or it fails. (What tiny_sphincs.c:332-337 should compute.) -/
def optRand (rng : Option Rng) (pkSeed : Bytes) : Bytes :=
  match rng with
  | none => pkSeed
  | some f => if (f pkSeed.length).1 then (f pkSeed.length).2 else pkSeed

/-- The requests made to the generator. (What tiny_sphincs.c:332-337 should request.) -/
def reqs (rng : Option Rng) (n : Nat) : List Nat := if rng.isSome then [n] else []

/-! ## Calls -/

/-- What the caller handed to the last initialisation call, and has to keep available. (The obligations of tiny_sphincs.h:195-260.) -/
inductive Held
  | nothing
  /-- the private key `sk` at `priv` -/
  | signing (x : PsName) (priv : Nat) (sk : Bytes)
  /-- the public key `pk` at `pub`, the message `M` at `msg` -/
  | verifying (x : PsName) (pub : Nat) (pk : Bytes) (msg : Nat) (M : Bytes)

/-- Effect of a call on what is held. (The obligations of tiny_sphincs.h:195-260.) -/
def Held.next (h : Held) : Op → Held
  | .initSign x _ _ priv sk _ => .signing x priv sk
  | .initVerify x msg M pub pk => .verifying x pub pk msg M
  | _ => h

/-- `PK.seed` in a private key `SK.seed ‖ SK.prf ‖ PK.seed ‖ PK.root`. internal.h:70-74. -/
def skPkSeed (n : Nat) (sk : Bytes) : Bytes := (sk.drop (2 * n)).take n

/-- The abstract call denoted by a call. (The functions declared in tiny_sphincs.h:209-267.) -/
def Op.call : Op → Spec.Session.Call
  | .initSign x _ M _ sk rng => .initSign x.inst sk (optRand rng (skPkSeed x.P.n sk)) M
  | .sign dest m => .sign dest m
  | .initVerify x _ M _ pk => .initVerify x.inst pk M
  | .update sig => .update sig
  | .verify => .verify

/-- The caller's obligations for a call made with memory `mem`, given what it holds and the abstract state. (The obligations of tiny_sphincs.h:195-267.) -/
def Op.Legal (cfg : Config) (h : Held) (s : Spec.Session.State) (mem : Mem) : Op → Prop
  | .initSign x msg M priv sk rng => supported cfg x = true ∧ sk.length = 4 * x.P.n ∧ mem.Has priv sk ∧ mem.Has msg M ∧
      M.length < 2 ^ 60 ∧ ∀ f, rng = some f → RngOk f x.P.n
  | .initVerify x msg M pub pk => supported cfg x = true ∧ pk.length = 2 * x.P.n ∧ mem.Has pub pk ∧ M.length < 2 ^ 60 ∧ cfg.Fits msg M.length
  | .sign dest m => match h with
    | .nothing => False
    | .signing _ priv sk => mem.Has priv sk ∧ m ≤ dest.length
    | .verifying .. => True
  | .update _ => match h, s with
    | .nothing, _ => False
    | .signing .., _ => True
    -- the message only has to be there until the first `n` bytes have been fed
    | .verifying x pub pk msg M, .verifying _ _ _ log _ => mem.Has pub pk ∧ (log.length < x.P.n → mem.Has msg M)
    | .verifying .., _ => True
  | .verify => match h with
    | .nothing => False
    | _ => True

/-- What is held after a history. (The obligations of tiny_sphincs.h:195-260.) -/
def Held.after (h : Held) (ops : List (Mem × Op)) : Held := ops.foldl (fun h o => h.next o.2) h

/-- The abstract state after a history. (What tiny_sphincs.h:195-267 describes.) -/
def stateAfter (s : Spec.Session.State) (ops : List (Mem × Op)) : Spec.Session.State := ops.foldl (fun s o => (Spec.Session.step s o.2.call).1) s

/-- Every call of a history is legal. (The obligations of tiny_sphincs.h:195-267.) -/
def LegalAll (cfg : Config) : Held → Spec.Session.State → List (Mem × Op) → Prop
  | _, _, [] => True
  | h, s, (mem, op) :: ops => op.Legal cfg h s mem ∧ LegalAll cfg (h.next op) (Spec.Session.step s op.call).1 ops

/-! ## Jobs: everything that goes into one use of the library -/

/-- A legal signing job: configuration and parameter set, context, memory holding private key and message. (The obligations of tiny_sphincs.h:195-230.) -/
structure SignJob where
  E : Env
  x : PsName
  sup : supported E.cfg x = true
  mem : Mem
  priv : Nat
  sk : Bytes
  msg : Nat
  M : Bytes
  rng : Option Rng
  /-- the context before, whatever it contains -/
  c0 : Ctx
  shape : Shape E.cfg c0
  skLen : sk.length = 4 * x.P.n
  hasKey : mem.Has priv sk
  hasMsg : mem.Has msg M
  msgLen : M.length < 2 ^ 60
  rngOk : ∀ f, rng = some f → RngOk f x.P.n

namespace SignJob
/-- The call of `ts_init_sign`, tiny_sphincs.c:313-364. -/
def init (J : SignJob) : C (Ctx × List Nat) := ts_init_sign J.E J.mem J.c0 J.msg J.M.length (ps J.E.cfg J.x) J.priv J.rng
/-- The signature the standard defines. (What tiny_sphincs.c:313-542 should produce.) -/
def signature (J : SignJob) : Bytes := Spec.Session.signature J.x.inst J.sk (optRand J.rng (skPkSeed J.x.P.n J.sk)) J.M
end SignJob

/-- A legal verification job. (The obligations of tiny_sphincs.h:232-267.) -/
structure VerifyJob where
  E : Env
  x : PsName
  sup : supported E.cfg x = true
  mem : Mem
  pub : Nat
  pk : Bytes
  msg : Nat
  M : Bytes
  /-- the context before, whatever it contains -/
  c0 : Ctx
  shape : Shape E.cfg c0
  pkLen : pk.length = 2 * x.P.n
  hasKey : mem.Has pub pk
  hasMsg : mem.Has msg M
  msgLen : M.length < 2 ^ 60
  msgPtr : E.cfg.Fits msg M.length

namespace VerifyJob
/-- The call of `ts_init_verify`, verify.c:30-44. -/
def init (J : VerifyJob) : C Ctx := ts_init_verify J.E J.mem J.c0 J.msg J.M.length (ps J.E.cfg J.x) J.pub
/-- Does the standard accept `sig`? (What verify.c:30-245 should decide.) -/
def valid (J : VerifyJob) (sig : Bytes) : Bool := Spec.Session.valid J.x.inst J.pk J.M sig
/-- The size of a signature in bytes. (What size.c:16-21 should compute.) -/
def size (J : VerifyJob) : Nat := J.x.P.sigBytes
end VerifyJob

/-- A legal call of `ts_gen_key` with non-null `private_key`, `ps` and `random_function`. (The obligations of tiny_sphincs.h:171-190.) -/
structure KeyJob where
  E : Env
  x : PsName
  sup : supported E.cfg x = true
  mem : Mem
  priv : Nat
  /-- `none` is a null pointer -/
  pub : Option Nat
  rng : Rng
  rngOk : RngOk rng (3 * x.P.n)
  privMapped : mem.Mapped priv (4 * x.P.n)
  pubMapped : ∀ p, pub = some p → mem.Mapped p (2 * x.P.n) ∧ Disj priv (4 * x.P.n) p (2 * x.P.n)

namespace KeyJob
/-- The call of `ts_gen_key`, key_gen.c:9-68. -/
def run (J : KeyJob) : C (Nat × Mem × List Nat) := ts_gen_key J.E J.mem (some J.priv) J.pub (some (ps J.E.cfg J.x)) (some J.rng)
/-- Did the generator report success? (Comment: tiny_sphincs.h:181-185.) -/
def delivers (J : KeyJob) : Bool := (J.rng (3 * J.x.P.n)).1
/-- What the generator wrote. (Comment: tiny_sphincs.h:181-185.) -/
def bytes (J : KeyJob) : Bytes := (J.rng (3 * J.x.P.n)).2
end KeyJob

end Model
