import Verif.Model.Basic
import Verif.Spec.Sha2
/-!
# Model of sha512.c
-/
namespace Model.Sha512
open Spec (V8)

/-- `typedef struct SHA512_CTX`, sha2.h:49-62. The eight state words are a record; `x` (the union of the
128-byte input buffer and the 16-word key schedule) is its byte view `data`. -/
structure Ctx where
  /-- state words `state[0..7]` -/
  h : V8 UInt64
  /-- number of bits processed, `uint64_t` -/
  count : Nat
  /-- bytes in the buffer, `unsigned` (`in_buffer`) -/
  num : Nat
  /-- `x.data` -/
  data : Bytes
  /-- not in the C structure: the byte order of the machine that holds it (`true`: big-endian), which no function changes -/
  big : Bool := false
deriving Repr

/-- `K`, sha512.c:26-67. -/
def K : List UInt64 :=
  [0x428a2f98d728ae22, 0x7137449123ef65cd, 0xb5c0fbcfec4d3b2f, 0xe9b5dba58189dbbc,
   0x3956c25bf348b538, 0x59f111f1b605d019, 0x923f82a4af194f9b, 0xab1c5ed5da6d8118,
   0xd807aa98a3030242, 0x12835b0145706fbe, 0x243185be4ee4b28c, 0x550c7dc3d5ffb4e2,
   0x72be5d74f27b896f, 0x80deb1fe3b1696b1, 0x9bdc06a725c71235, 0xc19bf174cf692694,
   0xe49b69c19ef14ad2, 0xefbe4786384f25e3, 0x0fc19dc68b8cd5b5, 0x240ca1cc77ac9c65,
   0x2de92c6f592b0275, 0x4a7484aa6ea6e483, 0x5cb0a9dcbd41fbd4, 0x76f988da831153b5,
   0x983e5152ee66dfab, 0xa831c66d2db43210, 0xb00327c898fb213f, 0xbf597fc7beef0ee4,
   0xc6e00bf33da88fc2, 0xd5a79147930aa725, 0x06ca6351e003826f, 0x142929670a0e6e70,
   0x27b70a8546d22ffc, 0x2e1b21385c26c926, 0x4d2c6dfc5ac42aed, 0x53380d139d95b3df,
   0x650a73548baf63de, 0x766a0abb3c77b2a8, 0x81c2c92e47edaee6, 0x92722c851482353b,
   0xa2bfe8a14cf10364, 0xa81a664bbc423001, 0xc24b8b70d0f89791, 0xc76c51a30654be30,
   0xd192e819d6ef5218, 0xd69906245565a910, 0xf40e35855771202a, 0x106aa07032bbd1b8,
   0x19a4c116b8d2d0c8, 0x1e376c085141ab53, 0x2748774cdf8eeb99, 0x34b0bcb5e19b48a8,
   0x391c0cb3c5c95a63, 0x4ed8aa4ae3418acb, 0x5b9cca4f7763e373, 0x682e6ff3d6b2b8a3,
   0x748f82ee5defb2fc, 0x78a5636f43172f60, 0x84c87814a1f0ab72, 0x8cc702081a6439ec,
   0x90befffa23631e28, 0xa4506cebde82bde9, 0xbef9a3f7b2c67915, 0xc67178f2e372532b,
   0xca273eceea26619c, 0xd186b8c721c0c207, 0xeada7dd6cde0eb1e, 0xf57d4f7fee6ed178,
   0x06f067aa72176fba, 0x0a637dc5a2c898a6, 0x113f9804bef90dae, 0x1b710b35131c471b,
   0x28db77f523047d84, 0x32caab7b40c72493, 0x3c9ebe0a15c9bebc, 0x431d67c49c100d4c,
   0x4cc5d4becb3e42b6, 0x597f299cfc657e2a, 0x5fcb6fab3ad6faec, 0x6c44198c4a475817]

/-- `ROR64c`, sha512.c:70 (only used with `0 < y < 64`). -/
def ROR64c (x : UInt64) (y : Nat) : UInt64 :=
  (x >>> UInt64.ofNat (y &&& 63)) ||| (x <<< UInt64.ofNat (64 - (y &&& 63)))

/-- `Ch` .. `Gamma1`, sha512.c:71-78. -/
def Ch (x y z : UInt64) : UInt64 := z ^^^ (x &&& (y ^^^ z))
/-- `Maj`, sha512.c:72. -/
def Maj (x y z : UInt64) : UInt64 := z ^^^ ((x ^^^ z) &&& (y ^^^ z))
/-- `S`, sha512.c:73. -/
def S (x : UInt64) (n : Nat) : UInt64 := ROR64c x n
/-- `R`, sha512.c:74. -/
def R (x : UInt64) (n : Nat) : UInt64 := x >>> UInt64.ofNat n
/-- `Sigma0`, sha512.c:75. -/
def Sigma0 (x : UInt64) : UInt64 := S x 28 ^^^ S x 34 ^^^ S x 39
/-- `Sigma1`, sha512.c:76. -/
def Sigma1 (x : UInt64) : UInt64 := S x 14 ^^^ S x 18 ^^^ S x 41
/-- `Gamma0`, sha512.c:77. -/
def Gamma0 (x : UInt64) : UInt64 := S x 1 ^^^ S x 8 ^^^ R x 7
/-- `Gamma1`, sha512.c:78. -/
def Gamma1 (x : UInt64) : UInt64 := S x 19 ^^^ S x 61 ^^^ R x 6

/-- The schedule extension at the head of the round loop, sha512.c:103-108: word `i` replaces word `i-16`
in the 16-word window `W`. -/
def sched (i : Nat) (W : List UInt64) : C (List UInt64) :=
  if i ≥ 16 then do
    let w2 ← rd W ((i - 2) &&& 15)
    let w7 ← rd W ((i - 7) &&& 15)
    let w15 ← rd W ((i - 15) &&& 15)
    let w16 ← rd W (i &&& 15)
    wr W (i &&& 15) (Gamma1 w2 + w7 + Gamma0 w15 + w16)
  else .ok W

/-- One iteration of the round loop, sha512.c:102-119, on the 16-word schedule buffer `W` and the
working variables `S0 .. S7`. -/
def rnd (i : Nat) (st : List UInt64 × V8 UInt64) : C (List UInt64 × V8 UInt64) := do
  let (W, v) := st
  let W ← sched i W
  let k ← rd K i
  let w ← rd W (i &&& 15)
  let t0 := v.h + Sigma1 v.e + Ch v.e v.f v.g + k + w
  let t1 := Sigma0 v.a + Maj v.a v.b v.c
  .ok (W, ⟨t0 + t1, v.a, v.b, v.c, v.d + t0, v.e, v.f, v.g⟩)

/-- The bytes of a word, least significant first: how `x.W` overlays `x.data`, sha2.h:54-61, on a little-endian machine. -/
def leBytes (w : UInt64) : Bytes := (List.range 8).map fun i => UInt8.ofNat (w.toNat >>> (8 * i))

/-- The bytes of a word in memory, how `x.W` overlays `x.data`, sha2.h:54-61. -/
def wordBytes (big : Bool) (w : UInt64) : Bytes := bif big then (leBytes w).reverse else leBytes w

/-- The same structure on a machine of the given byte order. (Semantics of C; no line of the code.) -/
def Ctx.on (ctx : Ctx) (big : Bool) : Ctx := { ctx with big := big }

/-- `sha512_compress(ctx, buf)`, sha512.c:80-125. `buf` may be `ctx->x.data` itself, which
the C code overwrites by the schedule word by word; since word `i` overwrites only
bytes that have already been read, the model reads the 16 words first. The schedule left in the union is
what `data` holds afterwards. -/
def compress (ctx : Ctx) (buf : Bytes) : C Ctx := do
  let W ← loop (fun i W => do
      let v ← ts_bytes_to_ull buf (8 * i) 8
      wr W i (UInt64.ofNat v)) 16 0 (List.replicate 16 0)
  let (W, S) ← loop rnd 80 0 (W, ctx.h)
  .ok { ctx with h := V8.map2 (· + ·) ctx.h S, data := W.flatMap (wordBytes ctx.big) }

/-- `ts_SHA512_init`, sha512.c:127-140. -/
def init (ctx : Ctx) : Ctx :=
  { ctx with
    count := 0, num := 0
    h := ⟨0x6a09e667f3bcc908, 0xbb67ae8584caa73b, 0x3c6ef372fe94f82b, 0xa54ff53a5f1d36f1,
          0x510e527fade682d1, 0x9b05688c2b3e6c1f, 0x1f83d9abfb41bd6b, 0x5be0cd19137e2179⟩ }

/-- The `while (input_count)` loop of `ts_SHA512_update`, sha512.c:146-169; `p` is the unread input,
`input_count` its length. -/
def updateLoop : (fuel : Nat) → Ctx → (p : Bytes) → C Ctx
  | 0, _, _ => .error .diverge
  | fuel + 1, ctx, p =>
    if p.length = 0 then .ok ctx
    else do
      let this_step := min (usub 128 ctx.num) p.length
      if this_step = 128 then do
        let this_block ← rdSlice p 0 128
        let ctx ← compress { ctx with num := 0 } this_block
        updateLoop fuel ctx (p.drop this_step)
      else do
        let piece ← rdSlice p 0 this_step
        let data ← wrSlice ctx.data ctx.num piece
        let ctx := { ctx with data := data }
        if this_step + ctx.num < 128 then
          .ok { ctx with num := ctx.num + this_step }
        else do
          let ctx ← compress { ctx with num := 0 } ctx.data
          updateLoop fuel ctx (p.drop this_step)

/-- `ts_SHA512_update(ctx, src, input_count)`, sha512.c:142-170; `src` carries exactly the
`input_count` bytes. -/
def update (ctx : Ctx) (src : Bytes) : C Ctx :=
  updateLoop (src.length + 1) { ctx with count := (ctx.count + 8 * src.length) % 2 ^ 64 } src

/-- `ts_SHA512_final_trunc(digest, ctx, n)`, sha512.c:179-200; returns the destination array and the context. -/
def final_trunc (digest : Bytes) (ctx : Ctx) (n : Nat) : C (Bytes × Ctx) := do
  let finalcount ← ts_ull_to_bytes (List.replicate 16 0) 0 ctx.count 16
  let ctx ← update ctx [0x80]
  let ctx ← if ctx.num > 112 then update ctx (List.replicate 16 0) else .ok ctx
  let data ← wrSlice ctx.data ctx.num (List.replicate (usub 112 ctx.num) 0)
  let ctx := { ctx with data := data, num := 112 }
  let ctx ← update ctx finalcount
  let digest ← loop (fun i d => do
      let hi ← rd ctx.h.toList i
      ts_ull_to_bytes d (8 * i) hi.toNat 8) (n / 8) 0 digest
  .ok (digest, ctx)

/-- `ts_SHA512_final`, sha512.c:175-177. -/
def final (digest : Bytes) (ctx : Ctx) : C (Bytes × Ctx) := final_trunc digest ctx 64

/-- `ts_SHA512_save_state`, sha512.c:202-206. -/
def save_state (ctx : Ctx) : V8 UInt64 := ctx.h

/-- `ts_SHA512_restore_state_after_128`, sha512.c:208-214. -/
def restore_state (ctx : Ctx) (s : V8 UInt64) : Ctx :=
  { ctx with h := s, count := 8 * 128, num := 0 }

end Model.Sha512
