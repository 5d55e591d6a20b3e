import Verif.Model.Verify
/-!
# Leakage model

What somebody who times the code, or watches its cache lines or its instruction addresses, can see. The functions of the
model are repeated in the monad `L`, which in addition to the outcome collects the events that the usual
"constant-time" (program counter and memory access) leakage model makes visible:

* every branch with the way it goes, every loop with its iterations,
* every array access with its index, every block copy with offset and length, every access to the caller's memory with
  its address,
* the amount of every shift by a variable amount.

Values that are loaded, stored, added, hashed are not part of the leakage. Which array an index
belongs to is not recorded: it is determined by the place in the code, and that by the branches taken before.
`Verif/Proof/LeakErase.lean` proves that forgetting the events gives back the model of the code, function by
function, so that both describe the same program.
-/
namespace Leak
open Model

/-- The functions that are called through the pointers of a parameter set. internal.h:31-57. -/
inductive Fn
  | prf_msg | hash_msg | prf | f | init_t | next_t | final_t
deriving DecidableEq, Repr

/-- The compression functions and the permutation. sha256.c:55, sha512.c:80, fips202.c:67, 369. -/
inductive Prim
  | sha256 | sha512 | keccak
deriving DecidableEq, Repr

/-- The functions of the C code that call other functions. (Those that call none, such as `ts_ull_to_bytes`, `RORc`, `ts_SHA256_init`,
`compute_wots_digits`, have no events of their own.) `ts_convert_message_hash` is
`ts_convert_message_hash_to_hypertree_position`. -/
inductive CFn
  | compress | ts_SHA256_update | ts_SHA256_final | ts_SHA256_final_trunc
  | sha512_compress | ts_SHA512_update | ts_SHA512_final | ts_SHA512_final_trunc
  | KeccakF1600_StatePermute | keccak_inc_absorb | keccak_inc_squeeze | ts_shake256_inc_init | ts_shake256_inc_absorb | ts_shake256_inc_finalize | ts_shake256_inc_squeeze
  | ts_sha256_init_ctx | ts_sha2_prf | ts_sha2_f_simple | ts_sha2_L1_prf_msg | ts_sha2_L1_hash_msg | ts_sha2_L1_init_t_simple | ts_sha2_L1_next_t_simple | ts_sha2_L1_final_t_simple | ts_sha2_L1_prehash
  | ts_sha512_init_ctx | ts_sha2_L35_prf_msg | ts_sha2_L35_hash_msg | ts_sha2_L35_init_t_simple | ts_sha2_L35_next_t_simple | ts_sha2_L35_final_t_simple | ts_sha2_L35_prehash
  | ts_shake256_prf_msg | ts_shake256_hash_msg | ts_shake256_prf | ts_shake256_f_simple | ts_shake256_init_t_simple | ts_shake256_next_t_simple | ts_shake256_final_t_simple
  | set_layer_adr | set_tree_adr | set_type_adr | set_keypair_adr | set_tree_height_adr | set_tree_index_adr
  | set_fors_prf_adr | ts_set_fors_leaf_adr | set_wots_prf_adr | ts_set_wots_f_adr | ts_set_merkle_adr | ts_set_fors_root_adr | ts_set_wots_header_adr
  | fors_prf | wots_prf | fors_leaf | ts_wots_leaf | ts_merkle_path | ts_convert_message_hash | ts_set_up_wots_signature | generate_next_wots_hash
  | ts_gen_key | ts_init_sign | ts_sign
  | next_auth_path | set_up_wots_verify_signature | ts_init_verify | ts_update_verify
deriving DecidableEq, Repr

/-- A visible event. (The leakage model; no line of the code.) -/
inductive Ev
  /-- a branch, with the outcome of the test -/
  | br (taken : Bool)
  /-- an access to an array element, with the index -/
  | at (i : Nat)
  /-- a block access to an array (`memcpy`, `memset`, buffer argument) -/
  | blk (off len : Nat)
  /-- an access to `len` bytes of the caller's memory -/
  | mem (addr len : Nat)
  /-- a shift by a variable amount -/
  | shift (s : Nat)
  /-- a `switch`, with the case selected -/
  | sel (n : Nat)
  /-- a call through a pointer of the parameter set, with the hash family that is selected -/
  | call (f : Fn) (n : Nat)
  /-- a call of a compression function or of the permutation, with its variant -/
  | perm (p : Prim) (n : Nat)
  /-- a call of the caller's random number generator, with the number of bytes requested and its return value -/
  | rng (n : Nat) (ok : Bool)
  /-- a function is entered -/
  | enter (g : CFn)
  /-- and left -/
  | leave (g : CFn)
deriving DecidableEq, Repr

/-- The outcome of a computation and the events up to its end (or up to the fault). (The leakage model; no line of the code.) -/
structure L (α : Type) where
  res : C α
  log : List Ev

namespace L
/-- Success without events. (The leakage model; no line of the code.) -/
protected def ok (a : α) : L α := ⟨.ok a, []⟩
/-- A fault. (The leakage model; no line of the code.) -/
protected def error (f : Fault) : L α := ⟨.error f, []⟩
/-- Sequential composition. (The leakage model; no line of the code.) -/
protected def bind (x : L α) (f : α → L β) : L β :=
  match x.res with
  | .ok a => ⟨(f a).res, x.log ++ (f a).log⟩
  | .error e => ⟨.error e, x.log⟩
instance : Monad L where
  pure := L.ok
  bind := L.bind
end L

/-- An elementary step of the model, with what it makes visible. (The leakage model; no line of the code.) -/
def prim (evs : List Ev) (r : C α) : L α := ⟨r, evs⟩

/-- An event without effect. (The leakage model; no line of the code.) -/
def tick (e : Ev) : L Unit := prim [e] (.ok ())

/-- A branch of the C code. (The leakage model; no line of the code.) -/
def branch (c : Prop) [Decidable c] (a b : L α) : L α :=
  ⟨(if c then a else b).res, .br (decide c) :: (if c then a else b).log⟩

/-- Notation for a branch of the C code. -/
macro "lif " c:term " then " t:term " else " e:term : term => `(branch $c $t $e)

/-- A selection by a public or secret case number: the number is visible. (The leakage model; no line of the code.) -/
def select (n : Nat) (a : L α) : L α := ⟨a.res, .sel n :: a.log⟩

/-- A call through a pointer of the parameter set. (The leakage model; no line of the code.) -/
def calling (f : Fn) (n : Nat) (a : L α) : L α := ⟨a.res, .call f n :: a.log⟩

/-- A call of a compression function. (The leakage model; no line of the code.) -/
def permuting (p : Prim) (n : Nat) (a : L α) : L α := ⟨a.res, .perm p n :: a.log⟩

/-- The body of a function of the C code. (The leakage model; no line of the code.) -/
def frame (g : CFn) (a : L α) : L α := ⟨a.res, .enter g :: (a.log ++ [.leave g])⟩

/-- The smaller of two numbers, found by a comparison: `if (a > b) a = b;`. (The leakage model; no line of the code.) -/
def lmin (a b : Nat) : L Nat := lif b < a then .ok b else .ok a

/-- `Model.rd` (The leakage model; no line of the code.) -/
def rd (a : List α) (i : Nat) : L α := prim [.at i] (Model.rd a i)
/-- `Model.wr` (The leakage model; no line of the code.) -/
def wr (a : List α) (i : Nat) (v : α) : L (List α) := prim [.at i] (Model.wr a i v)
/-- `Model.rdSlice` (The leakage model; no line of the code.) -/
def rdSlice (a : List α) (off len : Nat) : L (List α) := prim [.blk off len] (Model.rdSlice a off len)
/-- `Model.wrSlice` (The leakage model; no line of the code.) -/
def wrSlice (a : List α) (off : Nat) (v : List α) : L (List α) := prim [.blk off v.length] (Model.wrSlice a off v)
/-- `Model.shlInt` (The leakage model; no line of the code.) -/
def shlInt (a s : Nat) : L Nat := prim [.shift s] (Model.shlInt a s)
/-- `Model.shrU32` (The leakage model; no line of the code.) -/
def shrU32 (a s : Nat) : L Nat := prim [.shift s] (Model.shrU32 a s)
/-- `Model.addInt`: no visible effect. (The leakage model; no line of the code.) -/
def addInt (a b : Nat) : L Nat := prim [] (Model.addInt a b)
/-- `Model.asInt`: no visible effect. (The leakage model; no line of the code.) -/
def asInt (a : Nat) : L Nat := prim [] (Model.asInt a)
/-- `Model.ptrSub`: no visible effect. (The leakage model; no line of the code.) -/
def ptrSub (p k : Nat) : L Nat := prim [] (Model.ptrSub p k)
/-- `Model.Mem.read` (The leakage model; no line of the code.) -/
def memRead (m : Mem) (addr len : Nat) : L Bytes := prim [.mem addr len] (m.read addr len)
/-- `Model.Mem.write` (The leakage model; no line of the code.) -/
def memWrite (m : Mem) (addr : Nat) (v : Bytes) : L Mem := prim [.mem addr v.length] (m.write addr v)

/-- `Model.loop`, with the test of every iteration. (The leakage model; no line of the code.) -/
def loop (body : Nat → σ → L σ) : (count start : Nat) → σ → L σ
  | 0, _, s => ⟨.ok s, [.br false]⟩
  | c + 1, i, s => do
    tick (.br true)
    let s ← body i s
    loop body c (i + 1) s

/-- `ts_bytes_to_ull(p + off, n)`, endian.c:7-13. -/
def ts_bytes_to_ull (p : Bytes) (off n : Nat) : L Nat :=
  loop (fun i res => do
    let b ← rd p (off + i)
    .ok ((256 * res + b.toNat) % 2 ^ 64)) n 0 0

/-- `ts_ull_to_bytes(p + off, val, n)`, endian.c:19-24; the loop runs `i = n .. 1` and writes
`p[i-1]`. Returns the updated array. -/
def ts_ull_to_bytes (p : Bytes) (off val : Nat) : (n : Nat) → L Bytes
  | 0 => do tick (.br false); .ok p
  | i + 1 => do
    tick (.br true)
    let p ← wr p (off + i) (UInt8.ofNat (val &&& 0xff))
    ts_ull_to_bytes p off (val >>> 8) i

end Leak
