import Verif.Spec.Bytes
/-!
# Execution model for the C code

Every modelled C function returns in `C = Except Fault`. A `Fault` stands for undefined behaviour
(or an access the platform would reject) or for running out of loop fuel, which
stands for non-termination. Nothing is assumed away: the safety theorems show the outcome `.ok`.
-/
namespace Model

/-- The ways a modelled C function can go wrong. (Semantics of C; no line of the code.) -/
inductive Fault
  /-- array access outside the array -/
  | oob
  /-- access through a pointer to memory that is not mapped -/
  | unmapped
  /-- shift by a negative or too large amount, or left shift overflowing `int` -/
  | badShift
  /-- the loop fuel is used up: the C loop would not terminate -/
  | diverge
deriving DecidableEq, Repr

/-- The outcome of a C function. (Semantics of C; no line of the code.) -/
abbrev C := Except Fault

/-- Read `a[i]`. (Semantics of C; no line of the code.) -/
def rd (a : List α) (i : Nat) : C α :=
  match a[i]? with
  | some v => .ok v
  | none => .error .oob

/-- `a[i] = v`. (Semantics of C; no line of the code.) -/
def wr (a : List α) (i : Nat) (v : α) : C (List α) :=
  if i < a.length then .ok (a.set i v) else .error .oob

/-- Read `len` consecutive elements starting at `a[off]` (the source of a `memcpy`, a buffer argument). (Semantics of C; no line of the code.) -/
def rdSlice (a : List α) (off len : Nat) : C (List α) :=
  if off + len ≤ a.length then .ok ((a.drop off).take len) else .error .oob

/-- Overwrite consecutive elements starting at `a[off]` (`memcpy`, `memset`). (Semantics of C; no line of the code.) -/
def wrSlice (a : List α) (off : Nat) (v : List α) : C (List α) :=
  if off + v.length ≤ a.length then .ok (a.take off ++ v ++ a.drop (off + v.length))
  else .error .oob

/-- A counted C loop `for (i = start; i < start + count; i++) s = body(i, s)`. (Semantics of C; no line of the code.) -/
def loop (body : Nat → σ → C σ) : (count start : Nat) → σ → C σ
  | 0, _, s => .ok s
  | c + 1, i, s => do
    let s ← body i s
    loop body c (i + 1) s

/-- `unsigned` (32-bit) subtraction, with wrap-around. (Semantics of C; no line of the code.) -/
def usub (a b : Nat) : Nat := (2 ^ 32 + a - b) % 2 ^ 32

/-- `uint64_t` subtraction, with wrap-around. (Semantics of C; no line of the code.) -/
def usub64 (a b : Nat) : Nat := (2 ^ 64 + a - b) % 2 ^ 64

/-- `(int)a << s`: undefined unless the result is representable in `int`. (Semantics of C; no line of the code.) -/
def shlInt (a s : Nat) : C Nat :=
  if s < 32 ∧ a * 2 ^ s < 2 ^ 31 then .ok (a * 2 ^ s) else .error .badShift

/-- `(unsigned)a >> s`: undefined unless `s < 32`. (Semantics of C; no line of the code.) -/
def shrU32 (a s : Nat) : C Nat :=
  if s < 32 then .ok (a / 2 ^ s) else .error .badShift

/-- Memory owned by the caller (keys, messages): a partial map from addresses to bytes. (Semantics of C; no line of the code.) -/
abbrev Mem := Nat → Option UInt8

namespace Mem
/-- Read `len` bytes at `addr`. (Semantics of C; no line of the code.) -/
def read (m : Mem) (addr : Nat) : (len : Nat) → C Bytes
  | 0 => .ok []
  | len + 1 =>
    match m addr with
    | none => .error .unmapped
    | some b => do
      let r ← read m (addr + 1) len
      .ok (b :: r)

/-- Write one byte. (Semantics of C; no line of the code.) -/
def write1 (m : Mem) (addr : Nat) (v : UInt8) : C Mem :=
  match m addr with
  | none => .error .unmapped
  | some _ => .ok fun a => if a = addr then some v else m a

/-- Write bytes at `addr`. (Semantics of C; no line of the code.) -/
def write (m : Mem) (addr : Nat) : Bytes → C Mem
  | [] => .ok m
  | b :: bs => do
    let m ← write1 m addr b
    write m (addr + 1) bs
end Mem

/-- `p - k` for a pointer `p` (the model has no address below 0). Used by internal.h:71-72. -/
def ptrSub (p k : Nat) : C Nat := if k ≤ p then .ok (p - k) else .error .unmapped

/-! ## endian.c -/

/-- `ts_bytes_to_ull(p + off, n)`, endian.c:7-13. -/
def ts_bytes_to_ull (p : Bytes) (off n : Nat) : C Nat :=
  loop (fun i res => do
    let b ← rd p (off + i)
    .ok ((256 * res + b.toNat) % 2 ^ 64)) n 0 0

/-- `ts_ull_to_bytes(p + off, val, n)`, endian.c:19-24; the loop runs `i = n .. 1` and writes
`p[i-1]`. Returns the updated array. -/
def ts_ull_to_bytes (p : Bytes) (off val : Nat) : (n : Nat) → C Bytes
  | 0 => .ok p
  | i + 1 => do
    let p ← wr p (off + i) (UInt8.ofNat (val &&& 0xff))
    ts_ull_to_bytes p off (val >>> 8) i

end Model
