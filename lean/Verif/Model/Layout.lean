import Verif.Model.Types
/-!
# Sizes and offsets of the objects a caller allocates

The layout rules of C compilers (fields in order, each at the next multiple of its alignment; a struct or union is as aligned as its
most aligned member and its size is a multiple of that), applied to the declarations of tiny_sphincs.h, sha2.h and fips202.h.
-/
namespace Model.Layout

/-- Size and alignment of a C type. (Layout rules of C compilers; no line of the code.) -/
structure Ty where
  (size align : Nat)
deriving DecidableEq, Repr

/-- The next multiple of `a`. (Layout rules of C compilers; no line of the code.) -/
def roundUp (x a : Nat) : Nat := (x + (a - 1)) / a * a

/-- `T[n]` (Layout rules of C compilers; no line of the code.) -/
def Ty.array (t : Ty) (n : Nat) : Ty := ⟨n * t.size, t.align⟩

/-- The strictest alignment. (Layout rules of C compilers; no line of the code.) -/
def maxAlign (ts : List Ty) : Nat := ts.foldr (fun t a => max t.align a) 1

/-- Offsets of successive fields, the first free byte being `o`. (Layout rules of C compilers; no line of the code.) -/
def offsets : Nat → List Ty → List Nat
  | _, [] => []
  | o, t :: ts => roundUp o t.align :: offsets (roundUp o t.align + t.size) ts

/-- The end of the last field. (Layout rules of C compilers; no line of the code.) -/
def endOf : Nat → List Ty → Nat
  | o, [] => o
  | o, t :: ts => endOf (roundUp o t.align + t.size) ts

/-- `struct { ts }` (Layout rules of C compilers; no line of the code.) -/
def Ty.struct (ts : List Ty) : Ty := ⟨roundUp (endOf 0 ts) (maxAlign ts), maxAlign ts⟩

/-- `union { ts }` (Layout rules of C compilers; no line of the code.) -/
def Ty.union (ts : List Ty) : Ty := ⟨roundUp (ts.foldr (fun t s => max t.size s) 0) (maxAlign ts), maxAlign ts⟩

/-- What a compiler fixes besides byte order and pointer width: the alignment of `uint64_t` (8, or 4 as on i386). (Layout rules of C compilers; no line of the code.) -/
structure Abi where
  arch : Arch
  align8 : Bool
deriving DecidableEq, Repr

/-- The usual 64-bit ABI. (Layout rules of C compilers; no line of the code.) -/
def lp64 : Abi := ⟨⟨false, true⟩, true⟩

/-- `unsigned char` (Layout rules of C compilers; no line of the code.) -/
def char : Ty := ⟨1, 1⟩
/-- `unsigned short` (Layout rules of C compilers; no line of the code.) -/
def short : Ty := ⟨2, 2⟩
/-- `unsigned`, `enum`, `uint32_t` (Layout rules of C compilers; no line of the code.) -/
def int : Ty := ⟨4, 4⟩
/-- `uint64_t` (Layout rules of C compilers; no line of the code.) -/
def Abi.u64 (a : Abi) : Ty := ⟨8, if a.align8 then 8 else 4⟩
/-- pointers and `size_t` (Layout rules of C compilers; no line of the code.) -/
def Abi.word (a : Abi) : Ty := ⟨a.arch.word, a.arch.word⟩

/-- `SHA256_CTX`, sha2.h:16-29. -/
def sha256_ctx (a : Abi) : Ty :=
  .struct [int.array 8, a.u64, int, .union [char.array 64, int.array 16]]

/-- `SHA512_CTX`, sha2.h:49-62. -/
def sha512_ctx (a : Abi) : Ty :=
  .struct [a.u64.array 8, a.u64, int, .union [char.array 128, a.u64.array 16]]

/-- `SHAKE256_CTX`, fips202.h:35-37. -/
def shake256_ctx (a : Abi) : Ty := .struct [a.u64.array 26]

/-- `union t_iterator`, tiny_sphincs.h:66-76. -/
def t_iterator (a : Abi) (c : Config) : Ty :=
  .union ((if c.shake then [shake256_ctx a] else []) ++ (if c.sha2 then [sha256_ctx a] else []) ++
    (if c.sha2 && (c.l3 || c.l5) then [sha512_ctx a] else []))

/-- The members of `x.fors`, tiny_sphincs.h:152-155. -/
def fors (c : Config) : List Ty := [short.array MAX_FORS, char.array ((c.MAX_T - 1) * c.MAX_HASH)]
/-- The members of `x.wots`, tiny_sphincs.h:156-159. -/
def wots (c : Config) : List Ty := [char, char.array c.MAX_WOTS_DIGITS]
/-- The members of `x.merkle`, tiny_sphincs.h:160-163. -/
def merkle (c : Config) : List Ty := [char.array c.MAX_HASH, char.array ((c.MAX_MERKLE_H - 1) * c.MAX_HASH)]
/-- The members of `x.verify`, tiny_sphincs.h:164-167. -/
def verify (a : Abi) : List Ty := [a.word, a.word]

/-- The union `x`, tiny_sphincs.h:151-168. -/
def x (a : Abi) (c : Config) : Ty := .union [.struct (fors c), .struct (wots c), .struct (merkle c), .struct (verify a)]

/-- The members of `struct ts_context`, tiny_sphincs.h:85-169, in order. -/
def members (a : Abi) (c : Config) : List Ty :=
  [a.word, a.word, int, char.array c.MAX_HASH, char, char, char, char, char.array c.ADR_SIZE, short, short, a.u64,
    char.array c.MAX_HASH, t_iterator a c, t_iterator a c] ++
  (if c.sha2 && c.sha2opt then [int.array 8] ++ (if c.l5 || c.l3 then [a.u64.array 8] else []) else []) ++
  [x a c]

/-- `struct ts_context`. tiny_sphincs.h:85-169. -/
def ts_context (a : Abi) (c : Config) : Ty := .struct (members a c)

/-- `sizeof(struct ts_context)`, ramspace.c:28. -/
def sizeofCtx (a : Abi) (c : Config) : Nat := (ts_context a c).size

/-- The configuration ramspace.py:40-60 compiles for a parameter set: `L3` is on for the sets of 192 and 256 bits, `L5` for those of 256, one
hash family, `S` for the small sets, `TS_SHA2_OPTIMIZATION=0`, `TS_SHAKE256_OPT=2`. -/
def ramspaceCfg (n : PsName) : Config :=
  { shake := match n with | .shake_128f | .shake_128s | .shake_192f | .shake_192s | .shake_256f | .shake_256s => true | _ => false
    sha2 := match n with | .shake_128f | .shake_128s | .shake_192f | .shake_192s | .shake_256f | .shake_256s => false | _ => true
    l3 := match n with | .shake_128f | .shake_128s | .sha2_128f | .sha2_128s => false | _ => true
    l5 := match n with | .shake_256f | .shake_256s | .sha2_256f | .sha2_256s => true | _ => false
    s := match n with | .shake_128s | .shake_192s | .shake_256s | .sha2_128s | .sha2_192s | .sha2_256s => true | _ => false
    sha2opt := false, shakeOpt := 2, arch := lp64.arch }

/-- The column "CTX size" of ramspace.out:4-15. -/
def published : PsName → Nat
  | .sha2_128f => 472 | .sha2_128s => 568 | .sha2_192f => 768 | .sha2_192s => 912 | .sha2_256f => 872 | .sha2_256s => 1032
  | .shake_128f => 672 | .shake_128s => 768 | .shake_192f => 776 | .shake_192s => 920 | .shake_256f => 880 | .shake_256s => 1040

end Model.Layout
