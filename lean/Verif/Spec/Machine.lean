import Verif.Spec.Session
/-!
# The abstract machine: programs that use the library

A program has one memory and several contexts (numbered). Keys, messages, signatures are in memory, at addresses the program chooses;
contexts may be copied. The machine says what each statement returns and what it does to memory; it is stuck (`none`) where the
program breaks a rule of the documentation.
-/
namespace Spec.Machine
open Spec.Session (State)

/-- Memory; an address need not be mapped. -/
abbrev Memory := Nat → Option UInt8

/-- A random number generator of the caller: for the number of bytes it is asked for, whether it reports success, and what it writes. -/
abbrev Random := Nat → Bool × Bytes

inductive Stmt
  /-- the program does something of its own with its memory -/
  | edit (f : Memory → Memory)
  /-- `ctx[j] = ctx[i];` -/
  | copy (i j : Nat)
  /-- `ts_gen_key(priv, pub, x, rng)`; `none` is a null pointer -/
  | genKey (priv pub : Option Nat) (x : Option Instance) (rng : Option Random)
  /-- `ts_init_sign(&ctx[i], msg, len, x, priv, rng)` -/
  | initSign (i msg len : Nat) (x : Instance) (priv : Nat) (rng : Option Random)
  /-- `ts_sign(dst, m, &ctx[i])` -/
  | sign (i dst m : Nat)
  /-- `ts_init_verify(&ctx[i], msg, len, x, pub)` -/
  | initVerify (i msg len : Nat) (x : Instance) (pub : Nat)
  /-- `ts_update_verify(src, m, &ctx[i])` -/
  | update (i src m : Nat)
  /-- `ts_verify(&ctx[i])` -/
  | verify (i : Nat)

/-- What the pointers kept in a context refer to. -/
inductive Place
  | nothing
  /-- the private key `sk` at `priv` -/
  | key (x : Instance) (priv : Nat) (sk : Bytes)
  /-- the public key `pk` at `pub` and the message `M` at `msg` -/
  | pubKey (x : Instance) (pub : Nat) (pk : Bytes) (msg : Nat) (M : Bytes)

/-- A context: its session, and what it points to. -/
structure Slot where
  state : State
  place : Place

structure Machine where
  slots : Nat → Slot
  mem : Memory

/-- What depends on the build: the instances it supports, and the size of the address space. -/
structure Rules where
  supported : Instance → Bool
  limit : Nat

/-- The `len` bytes at `a`, if they are mapped. -/
def load (m : Memory) (a : Nat) : (len : Nat) → Option Bytes
  | 0 => some []
  | len + 1 => match m a, load m (a + 1) len with
    | some b, some bs => some (b :: bs)
    | _, _ => none

/-- Memory with `bs` at `a`. -/
def put (m : Memory) (a : Nat) (bs : Bytes) : Memory := fun p => if a ≤ p ∧ p < a + bs.length then bs[p - a]? else m p

/-- Context number `i` is set to `s`. -/
def Machine.set (σ : Machine) (i : Nat) (s : Slot) : Machine := { σ with slots := fun j => if j = i then s else σ.slots j }

/-- The bytes `bs` are at `a`. -/
def holds (m : Memory) (a : Nat) (bs : Bytes) : Bool := load m a bs.length == some bs

/-- A generator writes at most as many bytes as it is asked for, and exactly so many if it reports success. -/
def behaves (f : Random) (n : Nat) : Bool := decide ((f n).2.length ≤ n) && (!(f n).1 || decide ((f n).2.length = n))

/-- There is room for a private key of `4n` bytes at `priv` and, if `pub` is not null, for a public key of `2n` bytes there, apart from the private key. -/
def keyRoom (m : Memory) (n priv : Nat) (pub : Option Nat) : Bool :=
  (load m priv (4 * n)).isSome &&
    pub.all fun p => (load m p (2 * n)).isSome && (decide (priv + 4 * n ≤ p) || decide (p + 2 * n ≤ priv))

/-- `opt_rand` of a signature: fresh random bytes; `PK.seed` without generator, or when it fails. -/
def optRand (rng : Option Random) (n : Nat) (pkSeed : Bytes) : Bytes :=
  match rng with
  | none => pkSeed
  | some f => if (f n).1 then (f n).2 else pkSeed

/-- The private key for the random bytes `SK.seed ‖ SK.prf ‖ PK.seed`. -/
def key (x : Instance) (b : Bytes) : Bytes :=
  let n := x.params.n
  Slh.keygen x.params x.fns (b.take n) ((b.drop n).take n) ((b.drop (2 * n)).take n)

/-- One statement: what it returns (`none` for statements without a result), and the machine afterwards. -/
def step (R : Rules) (σ : Machine) : Stmt → Option (Option Nat × Machine)
  | .edit f => some (none, { σ with mem := f σ.mem })
  | .copy i j => some (none, σ.set j (σ.slots i))
  | .genKey (some priv) pub (some x) (some f) =>
    let n := x.params.n
    if R.supported x && behaves f (3 * n) && keyRoom σ.mem n priv pub then
      if (f (3 * n)).1 then
        let sk := key x (f (3 * n)).2
        let m := put σ.mem priv sk
        some (some 1, { σ with mem := match pub with | none => m | some p => put m p (sk.drop (2 * n)) })
      else some (some 0, { σ with mem := put σ.mem priv (f (3 * n)).2 })
    else none
  | .genKey .. => some (some 0, σ)
  | .initSign i msg len x priv rng =>
    let n := x.params.n
    if R.supported x && decide (len < 2 ^ 60) && rng.all (behaves · n) then
      match load σ.mem priv (4 * n), load σ.mem msg len with
      | some sk, some M =>
        let σsig := Session.signature x sk (optRand rng n ((sk.drop (2 * n)).take n)) M
        some (none, σ.set i ⟨.signing σsig, .key x priv sk⟩)
      | _, _ => none
    else none
  | .sign i dst m =>
    if (load σ.mem dst m).isSome then
      match σ.slots i with
      | ⟨.signing rest, .key x priv sk⟩ =>
        let mem := put σ.mem dst (rest.take m)
        -- the private key is in place, and is not overwritten by the signature
        if holds σ.mem priv sk && holds mem priv sk then
          some (some (rest.take m).length, { σ.set i ⟨.signing (rest.drop m), .key x priv sk⟩ with mem := mem })
        else none
      | ⟨.verifying .., .pubKey ..⟩ => some (some 0, σ)
      | _ => none
    else none
  | .initVerify i msg len x pub =>
    if R.supported x && decide (len < 2 ^ 60) && decide (msg < R.limit) && decide (len < R.limit) then
      match load σ.mem pub (2 * x.params.n), load σ.mem msg len with
      | some pk, some M => some (none, σ.set i ⟨.verifying x pk M [] false, .pubKey x pub pk msg M⟩)
      | _, _ => none
    else none
  | .update i src m =>
    match load σ.mem src m, σ.slots i with
    | some piece, ⟨.verifying x pk M log failed, .pubKey y pub pk' msg M'⟩ =>
      -- the public key is in place, and so is the message until the first `n` bytes have been seen
      if holds σ.mem pub pk' && (decide (x.params.n ≤ log.length) || holds σ.mem msg M') then
        let ok := !failed && Session.feed x pk M log piece
        some (some (if ok then 1 else 0), σ.set i ⟨.verifying x pk M (log ++ piece) (!ok), .pubKey y pub pk' msg M'⟩)
      else none
    | some _, ⟨.signing _, .key ..⟩ => some (some 0, σ)
    | _, _ => none
  | .verify i =>
    match σ.slots i with
    | ⟨.verifying x pk M log _, .pubKey ..⟩ => some (some (if Session.valid x pk M log then 1 else 0), σ)
    | ⟨.signing _, .key ..⟩ => some (some 0, σ)
    | _ => none

/-- A program: what its statements return, and the machine afterwards. -/
def run (R : Rules) : Machine → List Stmt → Option (List (Option Nat) × Machine)
  | σ, [] => some ([], σ)
  | σ, s :: ss => do
    let (o, σ) ← step R σ s
    let (os, σ) ← run R σ ss
    some (o :: os, σ)

/-- The machine at the start: no context is initialised. -/
def start (m : Memory) : Machine := ⟨fun _ => ⟨.fresh, .nothing⟩, m⟩

end Spec.Machine
