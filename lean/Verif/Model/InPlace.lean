import Verif.Model.Sha256
import Verif.Model.Sha512
/-!
# The compression functions at the level of the union `x`

In C the 16-word schedule `x.W` lies in the same memory as the input buffer `x.data`, and the block to compress may be that buffer.
`Sha256.compress` and `Sha512.compress` read the block first and keep the schedule apart. Here the union is one
array of bytes, each access to `x.W[i]` reads or writes its bytes, and the way the platform stores a word is a parameter.
`Properties/InPlace.lean` relates the two.
-/
namespace Model

/-- How a platform stores words of type `α` in `s` bytes. The unions of sha2.h:21-28 and 54-61. -/
structure WordRep (α : Type) (s : Nat) where
  enc : α → Bytes
  dec : Bytes → α
  len : ∀ a, (enc a).length = s
  dec_enc : ∀ a, dec (enc a) = a

/-- Read `x.W[i]`. sha256.c:80-95, sha512.c:97-109. -/
def WordRep.rdW (r : WordRep α s) (x : Bytes) (i : Nat) : C α := do
  let b ← rdSlice x (s * i) s
  .ok (r.dec b)

/-- `x.W[i] = w`. sha256.c:80-95, sha512.c:97-109. -/
def WordRep.wrW (r : WordRep α s) (x : Bytes) (i : Nat) (w : α) : C Bytes := wrSlice x (s * i) (r.enc w)

namespace Sha256
open Spec (V8)

/-- sha256.c:89-91. -/
def schedU (r : WordRep UInt32 4) (i : Nat) (x : Bytes) : C Bytes :=
  if i ≥ 16 then do
    let w2 ← r.rdW x ((i - 2) &&& 15)
    let w7 ← r.rdW x ((i - 7) &&& 15)
    let w15 ← r.rdW x ((i - 15) &&& 15)
    let w16 ← r.rdW x ((i - 16) &&& 15)
    r.wrW x (i &&& 15) (Gamma1 w2 + w7 + Gamma0 w15 + w16)
  else .ok x

/-- sha256.c:82-96. -/
def rndU (r : WordRep UInt32 4) (i : Nat) (st : Bytes × V8 UInt32) : C (Bytes × V8 UInt32) := do
  let (x, v) := st
  let x ← schedU r i x
  let k ← rd K i
  let w ← r.rdW x (i &&& 15)
  let t0 := v.h + Sigma1 v.e + Ch v.e v.f v.g + k + w
  let t1 := Sigma0 v.a + Maj v.a v.b v.c
  .ok (x, ⟨t0 + t1, v.a, v.b, v.c, v.d + t0, v.e, v.f, v.g⟩)

/-- `compress(ctx, buf)`, sha256.c:55-108; `none` is `buf = ctx->x.data`, `some` a buffer elsewhere. -/
def compressU (r : WordRep UInt32 4) (ctx : Ctx) (buf : Option Bytes) : C Ctx := do
  let x ← loop (fun i x => do
      let v ← ts_bytes_to_ull (buf.getD x) (4 * i) 4
      r.wrW x i (UInt32.ofNat v)) 16 0 ctx.data
  let (x, S) ← loop (rndU r) 64 0 (x, ctx.h)
  .ok { ctx with h := V8.map2 (· + ·) ctx.h S, data := x }

/-- The loop of `ts_SHA256_update`, sha256.c:127-150, with the block compressed in place when it is the buffer of the context. -/
def updateLoopU (r : WordRep UInt32 4) : (fuel : Nat) → Ctx → (p : Bytes) → C Ctx
  | 0, _, _ => .error .diverge
  | fuel + 1, ctx, p =>
    if p.length = 0 then .ok ctx
    else do
      let this_step := min (usub 64 ctx.num) p.length
      if this_step = 64 then do
        let this_block ← rdSlice p 0 64
        let ctx ← compressU r { ctx with num := 0 } (some this_block)
        updateLoopU r fuel ctx (p.drop this_step)
      else do
        let piece ← rdSlice p 0 this_step
        let data ← wrSlice ctx.data ctx.num piece
        let ctx := { ctx with data := data }
        if this_step + ctx.num < 64 then
          .ok { ctx with num := ctx.num + this_step }
        else do
          let ctx ← compressU r { ctx with num := 0 } none
          updateLoopU r fuel ctx (p.drop this_step)

/-- `ts_SHA256_update(ctx, src, input_count)`, sha256.c:123-151. -/
def updateU (r : WordRep UInt32 4) (ctx : Ctx) (src : Bytes) : C Ctx :=
  updateLoopU r (src.length + 1) { ctx with count := (ctx.count + 8 * src.length) % 2 ^ 64 } src

/-- `ts_SHA256_final_trunc(digest, ctx, n)`, sha256.c:160-181. -/
def final_truncU (r : WordRep UInt32 4) (digest : Bytes) (ctx : Ctx) (n : Nat) : C (Bytes × Ctx) := do
  let finalcount ← ts_ull_to_bytes (List.replicate 8 0) 0 ctx.count 8
  let ctx ← updateU r ctx [0x80]
  let ctx ← if ctx.num > 56 then updateU r ctx (List.replicate 8 0) else .ok ctx
  let data ← wrSlice ctx.data ctx.num (List.replicate (usub 56 ctx.num) 0)
  let ctx := { ctx with data := data, num := 56 }
  let ctx ← updateU r ctx finalcount
  let digest ← loop (fun i d => do
      let hi ← rd ctx.h.toList i
      ts_ull_to_bytes d (4 * i) hi.toNat 4) (n / 4) 0 digest
  .ok (digest, ctx)

end Sha256

namespace Sha512
open Spec (V8)

/-- sha512.c:102-110. -/
def schedU (r : WordRep UInt64 8) (i : Nat) (x : Bytes) : C Bytes :=
  if i ≥ 16 then do
    let w2 ← r.rdW x ((i - 2) &&& 15)
    let w7 ← r.rdW x ((i - 7) &&& 15)
    let w15 ← r.rdW x ((i - 15) &&& 15)
    let w16 ← r.rdW x (i &&& 15)
    r.wrW x (i &&& 15) (Gamma1 w2 + w7 + Gamma0 w15 + w16)
  else .ok x

/-- sha512.c:102-119. -/
def rndU (r : WordRep UInt64 8) (i : Nat) (st : Bytes × V8 UInt64) : C (Bytes × V8 UInt64) := do
  let (x, v) := st
  let x ← schedU r i x
  let k ← rd K i
  let w ← r.rdW x (i &&& 15)
  let t0 := v.h + Sigma1 v.e + Ch v.e v.f v.g + k + w
  let t1 := Sigma0 v.a + Maj v.a v.b v.c
  .ok (x, ⟨t0 + t1, v.a, v.b, v.c, v.d + t0, v.e, v.f, v.g⟩)

/-- `sha512_compress(ctx, buf)`, sha512.c:80-125; `none` is `buf = ctx->x.data`, `some` a buffer elsewhere. -/
def compressU (r : WordRep UInt64 8) (ctx : Ctx) (buf : Option Bytes) : C Ctx := do
  let x ← loop (fun i x => do
      let v ← ts_bytes_to_ull (buf.getD x) (8 * i) 8
      r.wrW x i (UInt64.ofNat v)) 16 0 ctx.data
  let (x, S) ← loop (rndU r) 80 0 (x, ctx.h)
  .ok { ctx with h := V8.map2 (· + ·) ctx.h S, data := x }

/-- The loop of `ts_SHA512_update`, sha512.c:146-169, with the block compressed in place when it is the buffer of the context. -/
def updateLoopU (r : WordRep UInt64 8) : (fuel : Nat) → Ctx → (p : Bytes) → C Ctx
  | 0, _, _ => .error .diverge
  | fuel + 1, ctx, p =>
    if p.length = 0 then .ok ctx
    else do
      let this_step := min (usub 128 ctx.num) p.length
      if this_step = 128 then do
        let this_block ← rdSlice p 0 128
        let ctx ← compressU r { ctx with num := 0 } (some this_block)
        updateLoopU r fuel ctx (p.drop this_step)
      else do
        let piece ← rdSlice p 0 this_step
        let data ← wrSlice ctx.data ctx.num piece
        let ctx := { ctx with data := data }
        if this_step + ctx.num < 128 then
          .ok { ctx with num := ctx.num + this_step }
        else do
          let ctx ← compressU r { ctx with num := 0 } none
          updateLoopU r fuel ctx (p.drop this_step)

/-- `ts_SHA512_update(ctx, src, input_count)`, sha512.c:142-170. -/
def updateU (r : WordRep UInt64 8) (ctx : Ctx) (src : Bytes) : C Ctx :=
  updateLoopU r (src.length + 1) { ctx with count := (ctx.count + 8 * src.length) % 2 ^ 64 } src

/-- `ts_SHA512_final_trunc(digest, ctx, n)`, sha512.c:179-200. -/
def final_truncU (r : WordRep UInt64 8) (digest : Bytes) (ctx : Ctx) (n : Nat) : C (Bytes × Ctx) := do
  let finalcount ← ts_ull_to_bytes (List.replicate 16 0) 0 ctx.count 16
  let ctx ← updateU r ctx [0x80]
  let ctx ← if ctx.num > 112 then updateU r ctx (List.replicate 16 0) else .ok ctx
  let data ← wrSlice ctx.data ctx.num (List.replicate (usub 112 ctx.num) 0)
  let ctx := { ctx with data := data, num := 112 }
  let ctx ← updateU r ctx finalcount
  let digest ← loop (fun i d => do
      let hi ← rd ctx.h.toList i
      ts_ull_to_bytes d (8 * i) hi.toNat 8) (n / 8) 0 digest
  .ok (digest, ctx)

end Sha512

end Model
