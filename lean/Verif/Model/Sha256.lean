import Verif.Model.Basic
import Verif.Spec.Sha2
/-!
# Model of sha256.c
-/
namespace Model.Sha256
open Spec (V8)

/-- `typedef struct SHA256_CTX`, sha2.h:16-29. The eight state words are a record; `x` (the union of the
64-byte input buffer and the 16-word key schedule) is its byte view `data`. -/
structure Ctx where
  /-- state words `h[0..7]` -/
  h : V8 UInt32
  /-- number of bits processed, `uint64_t` -/
  count : Nat
  /-- bytes in the buffer, `unsigned` (`num`) -/
  num : Nat
  /-- `x.data` -/
  data : Bytes
  /-- not in the C structure: the byte order of the machine that holds it (`true`: big-endian), which no function changes -/
  big : Bool := false
deriving Repr

/-- `K`, sha256.c:21-35. -/
def K : List UInt32 :=
  [0x428a2f98, 0x71374491, 0xb5c0fbcf, 0xe9b5dba5, 0x3956c25b, 0x59f111f1,
   0x923f82a4, 0xab1c5ed5, 0xd807aa98, 0x12835b01, 0x243185be, 0x550c7dc3,
   0x72be5d74, 0x80deb1fe, 0x9bdc06a7, 0xc19bf174, 0xe49b69c1, 0xefbe4786,
   0x0fc19dc6, 0x240ca1cc, 0x2de92c6f, 0x4a7484aa, 0x5cb0a9dc, 0x76f988da,
   0x983e5152, 0xa831c66d, 0xb00327c8, 0xbf597fc7, 0xc6e00bf3, 0xd5a79147,
   0x06ca6351, 0x14292967, 0x27b70a85, 0x2e1b2138, 0x4d2c6dfc, 0x53380d13,
   0x650a7354, 0x766a0abb, 0x81c2c92e, 0x92722c85, 0xa2bfe8a1, 0xa81a664b,
   0xc24b8b70, 0xc76c51a3, 0xd192e819, 0xd6990624, 0xf40e3585, 0x106aa070,
   0x19a4c116, 0x1e376c08, 0x2748774c, 0x34b0bcb5, 0x391c0cb3, 0x4ed8aa4a,
   0x5b9cca4f, 0x682e6ff3, 0x748f82ee, 0x78a5636f, 0x84c87814, 0x8cc70208,
   0x90befffa, 0xa4506ceb, 0xbef9a3f7, 0xc67178f2]

/-- `RORc`, sha256.c:40-45 (the 64-bit intermediate is masked to 32 bits). -/
def RORc (x : UInt32) (rot : Nat) : UInt32 :=
  let rot := rot &&& 31
  if rot = 0 then x
  else (x >>> UInt32.ofNat rot) ||| (x <<< UInt32.ofNat (32 - rot))

/-- `Ch` .. `Gamma1`, sha256.c:46-53. -/
def Ch (x y z : UInt32) : UInt32 := z ^^^ (x &&& (y ^^^ z))
/-- `Maj`, sha256.c:47. -/
def Maj (x y z : UInt32) : UInt32 := ((x ||| y) &&& z) ||| (x &&& y)
/-- `S`, sha256.c:48. -/
def S (x : UInt32) (n : Nat) : UInt32 := RORc x n
/-- `R`, sha256.c:49. -/
def R (x : UInt32) (n : Nat) : UInt32 := x >>> UInt32.ofNat n
/-- `Sigma0`, sha256.c:50. -/
def Sigma0 (x : UInt32) : UInt32 := S x 2 ^^^ S x 13 ^^^ S x 22
/-- `Sigma1`, sha256.c:51. -/
def Sigma1 (x : UInt32) : UInt32 := S x 6 ^^^ S x 11 ^^^ S x 25
/-- `Gamma0`, sha256.c:52. -/
def Gamma0 (x : UInt32) : UInt32 := S x 7 ^^^ S x 18 ^^^ R x 3
/-- `Gamma1`, sha256.c:53. -/
def Gamma1 (x : UInt32) : UInt32 := S x 17 ^^^ S x 19 ^^^ R x 10

/-- The schedule extension at the head of the round loop, sha256.c:89-91: word `i` replaces word `i-16`
in the 16-word window `W`. -/
def sched (i : Nat) (W : List UInt32) : C (List UInt32) :=
  if i ≥ 16 then do
    let w2 ← rd W ((i - 2) &&& 15)
    let w7 ← rd W ((i - 7) &&& 15)
    let w15 ← rd W ((i - 15) &&& 15)
    let w16 ← rd W ((i - 16) &&& 15)
    wr W (i &&& 15) (Gamma1 w2 + w7 + Gamma0 w15 + w16)
  else .ok W

/-- One iteration of the round loop, sha256.c:82-96, on the 16-word schedule buffer `W` and the
working variables `S0 .. S7`. -/
def rnd (i : Nat) (st : List UInt32 × V8 UInt32) : C (List UInt32 × V8 UInt32) := do
  let (W, v) := st
  let W ← sched i W
  let k ← rd K i
  let w ← rd W (i &&& 15)
  let t0 := v.h + Sigma1 v.e + Ch v.e v.f v.g + k + w
  let t1 := Sigma0 v.a + Maj v.a v.b v.c
  .ok (W, ⟨t0 + t1, v.a, v.b, v.c, v.d + t0, v.e, v.f, v.g⟩)

/-- The bytes of a word, least significant first: how `x.W` overlays `x.data`, sha2.h:21-28, on a little-endian machine. -/
def leBytes (w : UInt32) : Bytes := (List.range 4).map fun i => UInt8.ofNat (w.toNat >>> (8 * i))

/-- The bytes of a word in memory, how `x.W` overlays `x.data`, sha2.h:21-28. -/
def wordBytes (big : Bool) (w : UInt32) : Bytes := bif big then (leBytes w).reverse else leBytes w

/-- The same structure on a machine of the given byte order. (Semantics of C; no line of the code.) -/
def Ctx.on (ctx : Ctx) (big : Bool) : Ctx := { ctx with big := big }

/-- `compress(ctx, buf)`, sha256.c:55-108. `buf` may be `ctx->x.data` itself, which
the C code overwrites by the schedule word by word; since word `i` overwrites only
bytes that have already been read, the model reads the 16 words first. The schedule left in the union is
what `data` holds afterwards. -/
def compress (ctx : Ctx) (buf : Bytes) : C Ctx := do
  let W ← loop (fun i W => do
      let v ← ts_bytes_to_ull buf (4 * i) 4
      wr W i (UInt32.ofNat v)) 16 0 (List.replicate 16 0)
  let (W, S) ← loop rnd 64 0 (W, ctx.h)
  .ok { ctx with h := V8.map2 (· + ·) ctx.h S, data := W.flatMap (wordBytes ctx.big) }

/-- `ts_SHA256_init`, sha256.c:110-121. -/
def init (ctx : Ctx) : Ctx :=
  { ctx with
    count := 0, num := 0
    h := ⟨0x6A09E667, 0xBB67AE85, 0x3C6EF372, 0xA54FF53A, 0x510E527F, 0x9B05688C, 0x1F83D9AB, 0x5BE0CD19⟩ }

/-- The `while (input_count)` loop of `ts_SHA256_update`, sha256.c:127-150; `p` is the unread input,
`input_count` its length. -/
def updateLoop : (fuel : Nat) → Ctx → (p : Bytes) → C Ctx
  | 0, _, _ => .error .diverge
  | fuel + 1, ctx, p =>
    if p.length = 0 then .ok ctx
    else do
      let this_step := min (usub 64 ctx.num) p.length
      if this_step = 64 then do
        let this_block ← rdSlice p 0 64
        let ctx ← compress { ctx with num := 0 } this_block
        updateLoop fuel ctx (p.drop this_step)
      else do
        let piece ← rdSlice p 0 this_step
        let data ← wrSlice ctx.data ctx.num piece
        let ctx := { ctx with data := data }
        if this_step + ctx.num < 64 then
          .ok { ctx with num := ctx.num + this_step }
        else do
          let ctx ← compress { ctx with num := 0 } ctx.data
          updateLoop fuel ctx (p.drop this_step)

/-- `ts_SHA256_update(ctx, src, input_count)`, sha256.c:123-151; `src` carries exactly the
`input_count` bytes. -/
def update (ctx : Ctx) (src : Bytes) : C Ctx :=
  updateLoop (src.length + 1) { ctx with count := (ctx.count + 8 * src.length) % 2 ^ 64 } src

/-- `ts_SHA256_final_trunc(digest, ctx, n)`, sha256.c:160-181; returns the destination array and the context. -/
def final_trunc (digest : Bytes) (ctx : Ctx) (n : Nat) : C (Bytes × Ctx) := do
  let finalcount ← ts_ull_to_bytes (List.replicate 8 0) 0 ctx.count 8
  let ctx ← update ctx [0x80]
  let ctx ← if ctx.num > 56 then update ctx (List.replicate 8 0) else .ok ctx
  let data ← wrSlice ctx.data ctx.num (List.replicate (usub 56 ctx.num) 0)
  let ctx := { ctx with data := data, num := 56 }
  let ctx ← update ctx finalcount
  let digest ← loop (fun i d => do
      let hi ← rd ctx.h.toList i
      ts_ull_to_bytes d (4 * i) hi.toNat 4) (n / 4) 0 digest
  .ok (digest, ctx)

/-- `ts_SHA256_final`, sha256.c:156-158. -/
def final (digest : Bytes) (ctx : Ctx) : C (Bytes × Ctx) := final_trunc digest ctx 32

/-- `ts_SHA256_save_state`, sha256.c:183-187. -/
def save_state (ctx : Ctx) : V8 UInt32 := ctx.h

/-- `ts_SHA256_restore_state_after_64`, sha256.c:189-195. -/
def restore_state (ctx : Ctx) (s : V8 UInt32) : Ctx :=
  { ctx with h := s, count := 8 * 64, num := 0 }

end Model.Sha256
