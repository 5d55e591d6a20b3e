import Verif.Model.Clients
/-!
# The programs that use the heap: test_verify.c, get_space.c, get_space2.c; and ramspace.c

`Model/Clients.lean` has `do_test` of test_verify.c and `get_ver_space` of get_space.c with the buffer of `malloc` as a variable. Here the buffer is a block of the heap: `malloc` may
fail, every access goes to the block, which must not have been freed, and `free` needs a block that is allocated. The library functions are arguments (`Calls`), so that
every path of the programs can be taken.
-/
namespace Model

/-- The blocks that are allocated and not freed, by their address. (`malloc` and `free` of the C library.) -/
abbrev Heap := Nat → Option Bytes

namespace Heap
/-- The heap with a block (new or changed). (`malloc` and `free` of the C library.) -/
def set (h : Heap) (p : Nat) (b : Bytes) : Heap := fun q => if q = p then some b else h q
/-- The heap without a block. (`malloc` and `free` of the C library.) -/
def erase (h : Heap) (p : Nat) : Heap := fun q => if q = p then none else h q
/-- The content of a block; a fault if it is not allocated (any more). (`malloc` and `free` of the C library.) -/
def load (h : Heap) (p : Nat) : C Bytes :=
  match h p with
  | some b => .ok b
  | none => .error .unmapped
/-- A change of a block; a fault if it is not allocated (any more). (`malloc` and `free` of the C library.) -/
def store (h : Heap) (p : Nat) (b : Bytes) : C Heap :=
  match h p with
  | some _ => .ok (h.set p b)
  | none => .error .unmapped
/-- `free`; a fault if the block is not allocated (any more). (`malloc` and `free` of the C library.) -/
def free (h : Heap) (p : Nat) : C Heap :=
  match h p with
  | some _ => .ok (h.erase p)
  | none => .error .unmapped
end Heap

/-- The library as the programs see it: arbitrary functions, that may also fault. The first four are `ts_gen_key` (return value and memory), `ts_init_sign`, `ts_sign`,
`ts_init_verify` in the calls of `do_test` and `get_ver_space`, with the fixed arguments left out. Declarations: tiny_sphincs.h:187-267. -/
structure Calls where
  genKey : C (Nat × Mem)
  initSign : Mem → C Ctx
  sign : Mem → Bytes → Nat → Ctx → C (Nat × Bytes)
  /-- the content of the context before, and whether the message is the wrong one -/
  initVerify : Mem → Ctx → Bool → C Ctx
  update : Mem → Bytes → Ctx → C (Nat × Ctx)
  verify : Ctx → Nat

section
variable (L : Calls)

/-! ## test_verify.c -/

/-- `return 0` after `free(s)`, test_verify.c:71-72, 81-82, 91-92, 101-102, 116-117, 122-123, 156-157, 169-170, 180-181. -/
def failFree (s : Nat) (h : Heap) : C (Option α × Heap) := do
  let h ← h.free s
  .ok (none, h)

/-- `ts_init_verify`, `ts_update_verify` with `len` bytes of the block, and, unless that gives something else than `want`, `ts_verify`, which must give `want'`
(test_verify.c:76-83, 86-93, 96-103, 165-172, 177-183). `none` is `return 0`. -/
def onceHeap (mem : Mem) (ctx : Ctx) (wrong : Bool) (s len want want' : Nat) (h : Heap) : C (Option Unit × Heap) := do
  let ctx ← L.initVerify mem ctx wrong
  let b ← h.load s
  let sig ← rdSlice b 0 len
  let (r, ctx) ← L.update mem sig ctx
  if want ≠ r then failFree s h
  else if want' ≠ L.verify ctx then failFree s h
  else .ok (some (), h)

/-- test_verify.c:111-119. -/
def chunkHeap (mem : Mem) (s len_signature a : Nat) : (fuel i : Nat) → Ctx → Heap → C (Option Ctx × Heap)
  | 0, _, _, _ => .error .diverge
  | fuel + 1, i, ctx, h =>
    if i < len_signature then do
      let chunk := len_signature - i
      let chunk := if chunk > a then a else chunk
      let b ← h.load s
      let piece ← rdSlice b i chunk
      let (r, ctx) ← L.update mem piece ctx
      if 1 ≠ r then failFree s h
      else chunkHeap mem s len_signature a fuel (i + a) ctx h
    else .ok (some ctx, h)

/-- test_verify.c:107-126. -/
def fibHeap (mem : Mem) (fill : Nat → Ctx) (s len_signature : Nat) : (fuel a b : Nat) → Heap → C (Option Unit × Heap)
  | 0, _, _, _ => .error .diverge
  | fuel + 1, a, b, h =>
    if a < len_signature then do
      let ctx ← L.initVerify mem (fill b) false
      match ← chunkHeap L mem s len_signature a (len_signature + 1) 0 ctx h with
      | (none, h) => .ok (none, h)
      | (some ctx, h) =>
        if 1 ≠ L.verify ctx then failFree s h
        else fibHeap mem fill s len_signature fuel (a + b) a h
    else .ok (some (), h)

/-- `s[offset] ^= (1 << bit)`, test_verify.c:147, 160. -/
def flipHeap (s offset bit : Nat) (h : Heap) : C Heap := do
  let b ← h.load s
  let v ← rd b offset
  let b ← wr b offset (v ^^^ UInt8.ofNat (1 <<< bit))
  h.store s b

/-- test_verify.c:146-161. -/
def bitHeap (mem : Mem) (fill : Nat → Ctx) (s len_signature offset bit_increment : Nat) : (fuel bit : Nat) → Heap → C (Option Unit × Heap)
  | 0, _, _ => .error .diverge
  | fuel + 1, bit, h =>
    if bit < 8 then do
      let h ← flipHeap s offset bit h
      match ← onceHeap L mem (fill (offset + bit)) false s len_signature 0 0 h with
      | (none, h) => .ok (none, h)
      | (some _, h) => do
        let h ← flipHeap s offset bit h
        bitHeap mem fill s len_signature offset bit_increment fuel (bit + bit_increment) h
    else .ok (some (), h)

/-- test_verify.c:132-162. -/
def offsetHeap (mem : Mem) (fill : Nat → Ctx) (s len_signature increment bit_increment : Nat) : (fuel offset : Nat) → Heap → C (Option Unit × Heap)
  | 0, _, _ => .error .diverge
  | fuel + 1, offset, h =>
    if offset < len_signature then do
      match ← bitHeap L mem fill s len_signature offset bit_increment 9 0 h with
      | (none, h) => .ok (none, h)
      | (some _, h) => offsetHeap mem fill s len_signature increment bit_increment fuel (offset + increment) h
    else .ok (some (), h)

/-- What follows a step, unless that has returned 0. The returns of test_verify.c:71-72 .. 180-181. -/
def unlessFailed (f : C (Option α × Heap)) (g : Heap → C (Nat × Heap)) : C (Nat × Heap) := do
  match ← f with
  | (none, h) => .ok (0, h)
  | (some _, h) => g h

/-- test_verify.c:164-186, after the flipped bits. Simplified as in `negativeTests`: the content of the context before each `ts_init_verify` is `ctx`. -/
def lastHeap (mem : Mem) (ctx : Ctx) (s len_signature : Nat) (h : Heap) : C (Nat × Heap) :=
  unlessFailed (onceHeap L mem ctx false s len_signature 1 1 h) fun h =>
  unlessFailed (onceHeap L mem ctx true s len_signature 0 0 h) fun h => do
    let h ← h.free s
    .ok (1, h)

/-- test_verify.c:104-186, after the signature that is too long. -/
def loopsHeap (fast_flag : Bool) (mem : Mem) (fill : Nat → Ctx) (ctx : Ctx) (s len_signature : Nat) (h : Heap) : C (Nat × Heap) :=
  unlessFailed (fibHeap L mem fill s len_signature (len_signature + 1) 1 1 h) fun h =>
  unlessFailed (offsetHeap L mem fill s len_signature (if fast_flag then 5 else 1) (if fast_flag then 8 else 1) (len_signature + 1) 0 h) fun h =>
  lastHeap L mem ctx s len_signature h

/-- test_verify.c:75-186, after the signature has been made. -/
def testsHeap (fast_flag : Bool) (mem : Mem) (fill : Nat → Ctx) (ctx : Ctx) (s len_signature : Nat) (h : Heap) : C (Nat × Heap) :=
  unlessFailed (onceHeap L mem (fill 63) false s len_signature 1 1 h) fun h =>
  unlessFailed (onceHeap L mem (fill 33) false s (len_signature - 1) 1 0 h) fun h =>
  unlessFailed (onceHeap L mem (fill 64) false s (len_signature + 1) 0 0 h) fun h =>
  loopsHeap L fast_flag mem fill ctx s len_signature h

/-- `do_test` from the generation of the key on, test_verify.c:51-186. `alloc` is the result of `malloc` (`none` for NULL), `junk` what the block contains. -/
def doTestHeap (fast_flag : Bool) (len_signature : Nat) (alloc : Option Nat) (junk : Bytes) (fill : Nat → Ctx) (ctx : Ctx) (h : Heap) : C (Nat × Heap) := do
  let (ok, mem) ← L.genKey
  if ok = 0 then .ok (0, h)
  else
    match alloc with
    | none => .ok (0, h)
    | some s => do
      let h := h.set s junk
      let c ← L.initSign mem
      let b ← h.load s
      let (r, b) ← L.sign mem b (len_signature + 1) c
      let h ← h.store s b
      if len_signature ≠ r then do
        let h ← h.free s
        .ok (0, h)
      else testsHeap L fast_flag mem fill ctx s len_signature h

/-! ## get_space.c and get_space2.c -/

/-- `get_sig_and_public_key`, get_space2.c:82-97: the address of the block, `none` for NULL. -/
def sigAndKeyHeap (sig_len : Nat) (alloc : Option Nat) (junk : Bytes) (h : Heap) : C (Option Nat × Mem × Heap) := do
  let (_, mem) ← L.genKey
  match alloc with
  | none => .ok (none, mem, h)
  | some s => do
    let h := h.set s junk
    let c ← L.initSign mem
    let b ← h.load s
    let (_, b) ← L.sign mem b sig_len c
    let h ← h.store s b
    .ok (some s, mem, h)

/-- `get_ver_space`, get_space.c:60-79; `space` is what `measure_stack` reports. -/
def getVerSpaceHeap (sig_len : Nat) (alloc : Option Nat) (junk : Bytes) (ctx : Ctx) (space : Nat) (h : Heap) : C (Nat × Heap) := do
  match ← sigAndKeyHeap L sig_len alloc junk h with
  | (none, _, h) => .ok (0, h)
  | (some s, mem, h) => do
    let ctx ← L.initVerify mem ctx false
    let b ← h.load s
    let sig ← rdSlice b 0 sig_len
    let (_, ctx) ← L.update mem sig ctx
    let success := L.verify ctx
    let h ← h.free s
    if success = 0 then .ok (0, h) else .ok (space, h)

end

/-- The library in the calls of `do_test`, test_verify.c:51-183. -/
def verifyCallsOf (E : Env) (mem : Mem) (private_key public_key message len_message wrong_message len_wrong_message : Nat) (ctx : Ctx) (ps : ParamSet) : Calls where
  genKey := do
    let (ok, mem, _) ← ts_gen_key E mem (some private_key) (some public_key) (some ps) (some local_rand)
    .ok (ok, mem)
  initSign mem := do
    let (c, _) ← ts_init_sign E mem ctx message len_message ps private_key none
    .ok c
  sign mem b len c := do
    let (r, b, _) ← ts_sign E mem b len c
    .ok (r, b)
  initVerify mem ctx wrong :=
    if wrong then ts_init_verify E mem ctx wrong_message len_wrong_message ps public_key else ts_init_verify E mem ctx message len_message ps public_key
  update mem sig ctx := ts_update_verify E mem sig ctx
  verify := ts_verify

/-- The library in the calls of `get_ver_space`, get_space.c:60-79 and get_space2.c:61-97. -/
def spaceCallsOf (E : Env) (mem : Mem) (private_key public_key message len_message : Nat) (ctx : Ctx) (ps : ParamSet) : Calls where
  genKey := do
    let (ok, mem, _) ← ts_gen_key E mem (some private_key) (some public_key) (some ps) (some fake_rand)
    .ok (ok, mem)
  initSign mem := do
    let (c, _) ← ts_init_sign E mem ctx message len_message ps private_key (some fake_rand)
    .ok c
  sign mem b len c := do
    let (r, b, _) ← ts_sign E mem b len c
    .ok (r, b)
  initVerify mem ctx _ := ts_init_verify E mem ctx message len_message ps public_key
  update mem sig ctx := ts_update_verify E mem sig ctx
  verify := ts_verify

/-! ## ramspace.c -/

/-- `%5u` and `%5d` of a number that is not negative: at least five characters, blanks on the left. ramspace.c:28-43. -/
def fmt5 (n : Nat) : String := String.ofList (List.replicate (5 - (toString n).length) ' ') ++ toString n

/-- `%-25.25s`: exactly 25 characters, cut off or with blanks on the right. ramspace.c:25. -/
def fmtName (s : String) : String := String.ofList ((s.toList.take 25) ++ List.replicate (25 - s.length) ' ')

/-- The line that ramspace.c:24-46 appends. -/
def ramspaceLine (parmSet : String) (ctx keygen sig ver : Nat) : String :=
  fmtName parmSet ++ fmt5 ctx ++ "     " ++ fmt5 keygen ++ "        " ++ fmt5 sig ++ (if ver = 0 then "     *FAILED*" else "     " ++ fmt5 ver) ++ "\n"

/-- `main`, ramspace.c:14-51: the exit status and the files afterwards. `argv` are the `argc` arguments, the name of the program included; `argv[argc]` is NULL, and
`fopen` of NULL a fault. `canOpen` says which files can be opened. -/
def ramspaceMain (argv : List String) (canOpen : String → Bool) (files : String → String) (parmSet : String) (ctx keygen sig ver : Nat) : C (Nat × (String → String)) :=
  if argv.length < 1 then .ok (1, files)
  else
    match argv[1]? with
    | none => .error .unmapped
    | some name =>
      if canOpen name then .ok (0, fun f => if f = name then files f ++ ramspaceLine parmSet ctx keygen sig ver else files f)
      else .ok (1, files)

end Model
