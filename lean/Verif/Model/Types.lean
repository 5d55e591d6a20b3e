import Verif.Model.Sha256
import Verif.Model.Sha512
import Verif.Model.Fips202
/-!
# Model of tune.h, tiny_sphincs.h (types), internal.h (types) and the parameter set files
-/
namespace Model
open Spec (V8)

/-- What the layout of `ts_context` depends on besides tune.h: byte order and width of pointers and `size_t`.
`int` has 32 bits and `unsigned short` 16. The default is a 64-bit little-endian machine. (The target machine; no line of the code.) -/
structure Arch where
  /-- big-endian -/
  big : Bool := false
  /-- pointers and `size_t` have 8 bytes (otherwise 4) -/
  wide : Bool := true
deriving DecidableEq, Repr

/-- The `len` bytes in which the machine stores the unsigned integer `v`. (Semantics of C; no line of the code.) -/
def Arch.bytes (a : Arch) (len v : Nat) : Bytes :=
  (List.range len).map fun i => UInt8.ofNat (v / 256 ^ (if a.big then len - 1 - i else i))

/-- The unsigned integer stored in the bytes `b`. (Semantics of C; no line of the code.) -/
def Arch.value (a : Arch) (b : Bytes) : Nat :=
  (if a.big then b.reverse else b).foldr (fun x acc => x.toNat + 256 * acc) 0

/-- `sizeof(void *)`, `sizeof(size_t)` (Semantics of C; no line of the code.) -/
def Arch.word (a : Arch) : Nat := if a.wide then 8 else 4

/-- The knobs of tune.h:22-62, and the target machine. -/
structure Config where
  /-- `TS_SUPPORT_SHAKE` -/
  shake : Bool
  /-- `TS_SUPPORT_SHA2` -/
  sha2 : Bool
  /-- `TS_SUPPORT_L5` -/
  l5 : Bool
  /-- `TS_SUPPORT_L3` -/
  l3 : Bool
  /-- `TS_SUPPORT_S` -/
  s : Bool
  /-- `TS_SHA2_OPTIMIZATION` -/
  sha2opt : Bool
  /-- `TS_SHAKE256_OPT` -/
  shakeOpt : Nat
  /-- the processor the code is compiled for (not a knob of tune.h) -/
  arch : Arch := {}
deriving DecidableEq, Repr

namespace Config
/-- `TS_MAX_HASH`, tiny_sphincs.h:17-23. -/
def MAX_HASH (c : Config) : Nat := if c.l5 then 32 else if c.l3 then 24 else 16
/-- `TS_MAX_WOTS_DIGITS`, tiny_sphincs.h:25. -/
def MAX_WOTS_DIGITS (c : Config) : Nat := 2 * c.MAX_HASH + 3
/-- `TS_MAX_T`, tiny_sphincs.h:29-43. -/
def MAX_T (c : Config) : Nat :=
  if c.s then (if c.l5 || c.l3 then 14 else 12) else if c.l5 then 9 else if c.l3 then 8 else 6
/-- `TS_MAX_MERKLE_H`, tiny_sphincs.h:45-53. -/
def MAX_MERKLE_H (c : Config) : Nat := if c.s then 9 else if c.l5 then 4 else 3
/-- `ADR_SIZE`, tiny_sphincs.h:55-59. -/
def ADR_SIZE (c : Config) : Nat := if c.shake then 32 else 22
end Config

/-- `TS_MAX_FORS`, tiny_sphincs.h:26. -/
def MAX_FORS : Nat := 35
/-- `MAX_MESSAGE_HASH`, internal.h:88. -/
def MAX_MESSAGE_HASH : Nat := 49
/-- `SHA2_ADR_SIZE`, internal.h:92. -/
def SHA2_ADR_SIZE : Nat := 22

/-! Offsets of the members of the union `x` in `ts_context` (tiny_sphincs.h:151-168): fields one after
the other, each on a multiple of its alignment. -/
namespace Config
/-- `x.fors.fors_node[k]` (`unsigned short[35]`) tiny_sphincs.h:153. -/
def forsNodeOff (k : Nat) : Nat := 2 * k
/-- `x.fors.stack`, tiny_sphincs.h:154. -/
def forsStackOff : Nat := 2 * MAX_FORS
/-- `sizeof x.fors.stack`, tiny_sphincs.h:154. -/
def forsStackSize (c : Config) : Nat := (c.MAX_T - 1) * c.MAX_HASH
/-- `x.wots.digit`, `x.wots.digits`, tiny_sphincs.h:157. -/
def wotsDigitOff : Nat := 0
/-- `x.wots.digits`, tiny_sphincs.h:158. -/
def wotsDigitsOff : Nat := 1
/-- `x.merkle.buffer`, `x.merkle.stack`, tiny_sphincs.h:161. -/
def merkleBufferOff : Nat := 0
/-- `x.merkle.stack`, tiny_sphincs.h:162. -/
def merkleStackOff (c : Config) : Nat := c.MAX_HASH
/-- `sizeof x.merkle.stack`, tiny_sphincs.h:162. -/
def merkleStackSize (c : Config) : Nat := (c.MAX_MERKLE_H - 1) * c.MAX_HASH
/-- `x.verify.message`, `x.verify.len_message`, tiny_sphincs.h:165. -/
def verifyMessageOff : Nat := 0
/-- `x.verify.len_message`, tiny_sphincs.h:166. -/
def verifyLenOff (c : Config) : Nat := c.arch.word
/-- `sizeof x`: the largest member, rounded up to the alignment of pointers. tiny_sphincs.h:151-168. -/
def xSize (c : Config) : Nat :=
  let m := max (max (forsStackOff + c.forsStackSize) (1 + c.MAX_WOTS_DIGITS))
    (max (c.MAX_HASH + c.merkleStackSize) (2 * c.arch.word))
  (m + (c.arch.word - 1)) / c.arch.word * c.arch.word

/-- `SIZE_MAX + 1` (Semantics of C; no line of the code.) -/
def sizeMax (c : Config) : Nat := 256 ^ c.arch.word

/-- A pointer and a `size_t` of the machine can have these values. (Semantics of C; no line of the code.) -/
def Fits (c : Config) (ptr len : Nat) : Prop := ptr < c.sizeMax ∧ len < c.sizeMax
end Config

/-! ## Function pointers of a parameter set (internal.h:31-57), by name -/

/-- Which family of functions a pointer denotes. internal.h:31-57. -/
inductive Fam
  /-- `ts_shake256_*` -/
  | shake
  /-- `ts_sha2_L1_*` -/
  | sha2L1
  /-- `ts_sha2_L35_*` -/
  | sha2L35
deriving DecidableEq, Repr

/-- `struct ts_parameter_set`, internal.h:18-58. -/
structure ParamSet where
  (n k t h d merkle_h : Nat)
  sha2 : Bool
  /-- `ts_shake256_prf_msg` / `ts_sha2_L1_prf_msg` / `ts_sha2_L35_prf_msg` -/
  prf_msg : Fam
  hash_msg : Fam
  /-- `ts_shake256_prf` if `shake`, otherwise `ts_sha2_prf` -/
  prf : Fam
  /-- `ts_shake256_f_simple` if `shake`, otherwise `ts_sha2_f_simple` -/
  f : Fam
  init_t : Fam
  next_t : Fam
  final_t : Fam
  /-- `none` is the null pointer; `ts_sha2_L1_prehash` / `ts_sha2_L35_prehash` -/
  compute_prehash : Option Fam
deriving DecidableEq, Repr

/-- Names of the parameter sets `ts_ps_*_simple`, tiny_sphincs.h:279-317. -/
inductive PsName
  | sha2_128f | sha2_128s | sha2_192f | sha2_192s | sha2_256f | sha2_256s
  | shake_128f | shake_128s | shake_192f | shake_192s | shake_256f | shake_256s
deriving DecidableEq, Repr

/-- The function pointers of the `shake256_*_simple.c` files, lines 16-23 of each. shake256_128f_simple.c:16-23. -/
def shakeSet (n k t h d mh : Nat) : ParamSet :=
  { n := n, k := k, t := t, h := h, d := d, merkle_h := mh, sha2 := false,
    prf_msg := .shake, hash_msg := .shake, prf := .shake, f := .shake,
    init_t := .shake, next_t := .shake, final_t := .shake, compute_prehash := none }

/-- The function pointers of `sha2_128*_simple.c`, lines 16-27 of each. sha2_128f_simple.c:16-27. -/
def sha2L1Set (c : Config) (n k t h d mh : Nat) : ParamSet :=
  { n := n, k := k, t := t, h := h, d := d, merkle_h := mh, sha2 := true,
    prf_msg := .sha2L1, hash_msg := .sha2L1, prf := .sha2L1, f := .sha2L1,
    init_t := .sha2L1, next_t := .sha2L1, final_t := .sha2L1,
    compute_prehash := if c.sha2opt then some .sha2L1 else none }

/-- The function pointers of `sha2_192*_simple.c`, `sha2_256*_simple.c`, lines 16-27 of each. sha2_192f_simple.c:16-27. -/
def sha2L35Set (c : Config) (n k t h d mh : Nat) : ParamSet :=
  { n := n, k := k, t := t, h := h, d := d, merkle_h := mh, sha2 := true,
    prf_msg := .sha2L35, hash_msg := .sha2L35, prf := .sha2L35, f := .sha2L35,
    init_t := .sha2L35, next_t := .sha2L35, final_t := .sha2L35,
    compute_prehash := if c.sha2opt then some .sha2L35 else none }

/-- The objects `ts_ps_*_simple`, `sha2_*_simple.c:7-28`, `shake256_*_simple.c:7-24`. -/
def ps (c : Config) : PsName → ParamSet
  | .sha2_128f => sha2L1Set c 16 33 6 66 22 3
  | .sha2_128s => sha2L1Set c 16 14 12 63 7 9
  | .sha2_192f => sha2L35Set c 24 33 8 66 22 3
  | .sha2_192s => sha2L35Set c 24 17 14 63 7 9
  | .sha2_256f => sha2L35Set c 32 35 9 68 17 4
  | .sha2_256s => sha2L35Set c 32 22 14 64 8 8
  | .shake_128f => shakeSet 16 33 6 66 22 3
  | .shake_128s => shakeSet 16 14 12 63 7 9
  | .shake_192f => shakeSet 24 33 8 66 22 3
  | .shake_192s => shakeSet 24 17 14 63 7 9
  | .shake_256f => shakeSet 32 35 9 68 17 4
  | .shake_256s => shakeSet 32 22 14 64 8 8

/-- Which sets a configuration compiles: the `#if` at line 5 of each parameter set file. sha2_128f_simple.c:5, shake256_128f_simple.c:5 and so on. -/
def supported (c : Config) : PsName → Bool
  | .shake_128f => c.shake
  | .shake_128s => c.shake && c.s
  | .shake_192f => c.shake && (c.l3 || c.l5)
  | .shake_192s => c.shake && c.s && (c.l3 || c.l5)
  | .shake_256f => c.shake && c.l5
  | .shake_256s => c.shake && c.s && c.l5
  | .sha2_128f => c.sha2
  | .sha2_128s => c.sha2 && c.s
  | .sha2_192f => c.sha2 && (c.l5 || c.l3)
  | .sha2_192s => c.sha2 && (c.l5 || c.l3) && c.s
  | .sha2_256f => c.sha2 && c.l5
  | .sha2_256s => c.sha2 && c.l5 && c.s

/-- `union t_iterator`, tiny_sphincs.h:66-76: the member last written. -/
inductive TIter
  | shake (s : Shake.Ctx)
  | sha256 (s : Sha256.Ctx)
  | sha512 (s : Sha512.Ctx)
  /-- never written (bytes the context happened to contain) -/
  | raw (seed : Nat)

/-- What is outside the control of the code: the build configuration, what the bytes of one
union member look like through another one, and the content of uninitialised locals. (Semantics of C; no line of the code.) -/
structure Env where
  cfg : Config
  /-- view of foreign bytes as a member; arbitrary, the arrays having their C lengths -/
  pun256 : TIter → Sha256.Ctx
  pun512 : TIter → Sha512.Ctx
  punShake : TIter → Shake.Ctx
  pun256_len : ∀ t, (pun256 t).data.length = 64
  pun512_len : ∀ t, (pun512 t).data.length = 128
  punShake_len : ∀ t, (punShake t).length = 26
  /-- content of uninitialised local arrays, by place and index -/
  junk : Nat → Nat → UInt8

/-- An uninitialised local array. (Semantics of C; no line of the code.) -/
def Env.local (E : Env) (place len : Nat) : Bytes := (List.range len).map (E.junk place)

/-- `&t->sha2_L1_simple`, tiny_sphincs.h:71. -/
def Env.as256 (E : Env) : TIter → Sha256.Ctx
  | .sha256 s => s.on E.cfg.arch.big
  | t => (E.pun256 t).on E.cfg.arch.big
/-- `&t->sha2_L35_simple`, tiny_sphincs.h:74. -/
def Env.as512 (E : Env) : TIter → Sha512.Ctx
  | .sha512 s => s.on E.cfg.arch.big
  | t => (E.pun512 t).on E.cfg.arch.big
/-- `&t->shake256_simple`, tiny_sphincs.h:68. -/
def Env.asShake (E : Env) : TIter → Shake.Ctx
  | .shake s => s
  | t => E.punShake t

/-- `state` in `ts_context`, tiny_sphincs.h:93-109, in order (so that `<=` and `>=` are those of C). -/
inductive St
  | sign_state | fors_leaf | fors | wots | merkle | done
  | verify_state | verify_init | verify_fors_leaf | verify_fors | verify_wots | verify_merkle
  | verify_success | verify_fail
deriving DecidableEq, Repr

/-- Numeric value of the C enumerator. tiny_sphincs.h:93-109. -/
def St.num (s : St) : Nat := s.ctorIdx

/-- `struct ts_context`, tiny_sphincs.h:85-169. -/
structure Ctx where
  ps : ParamSet
  /-- address of the public key -/
  public_key : Nat
  state : St
  buffer : Bytes
  buffer_offset : Nat
  hypertree_level : Nat
  fors_tree : Nat
  merkle_level : Nat
  adr : Bytes
  auth_path_node : Nat
  fors_keypair_addr : Nat
  tree_address : Nat
  auth_path_buffer : Bytes
  big_iter : TIter
  small_iter : TIter
  prehash_sha256 : V8 UInt32
  prehash_sha512 : V8 UInt64
  /-- the bytes of the union `x` -/
  x : Bytes

end Model
