import Verif.Model.LeakBasic
/-!
# Leakage model of the hash functions: sha256.c, sha512.c, fips202.c

Definitions without visible events (`K`, `Gamma0`, `ts_SHA256_init`, `body2`, ...) are those of the model.
-/
namespace Leak.Sha256
open Model hiding Ctx
open Model.Sha256
open Spec (V8)

/-- The schedule extension at the head of the round loop, sha256.c:89-91: word `i` replaces word `i-16`
in the 16-word window `W`. -/
def sched (i : Nat) (W : List UInt32) : L (List UInt32) :=
  lif i ≥ 16 then do
    let w2 ← rd W ((i - 2) &&& 15)
    let w7 ← rd W ((i - 7) &&& 15)
    let w15 ← rd W ((i - 15) &&& 15)
    let w16 ← rd W ((i - 16) &&& 15)
    wr W (i &&& 15) (Gamma1 w2 + w7 + Gamma0 w15 + w16)
  else .ok W

/-- One iteration of the round loop, sha256.c:82-96, on the 16-word schedule buffer `W` and the
working variables `S0 .. S7`. -/
def rnd (i : Nat) (st : List UInt32 × V8 UInt32) : L (List UInt32 × V8 UInt32) := do
  let (W, v) := st
  let W ← sched i W
  let k ← rd K i
  let w ← rd W (i &&& 15)
  let t0 := v.h + Sigma1 v.e + Ch v.e v.f v.g + k + w
  let t1 := Sigma0 v.a + Maj v.a v.b v.c
  .ok (W, ⟨t0 + t1, v.a, v.b, v.c, v.d + t0, v.e, v.f, v.g⟩)

/-- `compress(ctx, buf)`, sha256.c:55-108. `buf` may be `ctx->x.data` itself, which
the C code overwrites by the schedule word by word; since word `i` overwrites only
bytes that have already been read, the model reads the 16 words first. The schedule left in the union is
what `data` holds afterwards. -/
def compress (ctx : Ctx) (buf : Bytes) : L Ctx := frame .compress <| permuting .sha256 0 do
  let W ← loop (fun i W => do
      let v ← ts_bytes_to_ull buf (4 * i) 4
      wr W i (UInt32.ofNat v)) 16 0 (List.replicate 16 0)
  let (W, S) ← loop rnd 64 0 (W, ctx.h)
  .ok { ctx with h := V8.map2 (· + ·) ctx.h S, data := W.flatMap (wordBytes ctx.big) }

/-- The `while (input_count)` loop of `ts_SHA256_update`, sha256.c:127-150; `p` is the unread input,
`input_count` its length. -/
def updateLoop : (fuel : Nat) → Ctx → (p : Bytes) → L Ctx
  | 0, _, _ => .error .diverge
  | fuel + 1, ctx, p =>
    lif p.length = 0 then .ok ctx
    else do
      let this_step ← lmin (usub 64 ctx.num) p.length
      lif this_step = 64 then do
        let this_block ← rdSlice p 0 64
        let ctx ← compress { ctx with num := 0 } this_block
        updateLoop fuel ctx (p.drop this_step)
      else do
        let piece ← rdSlice p 0 this_step
        let data ← wrSlice ctx.data ctx.num piece
        let ctx := { ctx with data := data }
        lif this_step + ctx.num < 64 then
          .ok { ctx with num := ctx.num + this_step }
        else do
          let ctx ← compress { ctx with num := 0 } ctx.data
          updateLoop fuel ctx (p.drop this_step)

/-- `ts_SHA256_update(ctx, src, input_count)`, sha256.c:123-151; `src` carries exactly the
`input_count` bytes. -/
def update (ctx : Ctx) (src : Bytes) : L Ctx :=
  frame .ts_SHA256_update <| updateLoop (src.length + 1) { ctx with count := (ctx.count + 8 * src.length) % 2 ^ 64 } src

/-- `ts_SHA256_final_trunc(digest, ctx, n)`, sha256.c:160-181; returns the destination array and the context. -/
def final_trunc (digest : Bytes) (ctx : Ctx) (n : Nat) : L (Bytes × Ctx) := frame .ts_SHA256_final_trunc do
  let finalcount ← ts_ull_to_bytes (List.replicate 8 0) 0 ctx.count 8
  let ctx ← update ctx [0x80]
  let ctx ← lif ctx.num > 56 then update ctx (List.replicate 8 0) else .ok ctx
  let data ← wrSlice ctx.data ctx.num (List.replicate (usub 56 ctx.num) 0)
  let ctx := { ctx with data := data, num := 56 }
  let ctx ← update ctx finalcount
  let digest ← loop (fun i d => do
      let hi ← rd ctx.h.toList i
      ts_ull_to_bytes d (4 * i) hi.toNat 4) (n / 4) 0 digest
  .ok (digest, ctx)

/-- `ts_SHA256_final`, sha256.c:156-158. -/
def final (digest : Bytes) (ctx : Ctx) : L (Bytes × Ctx) := frame .ts_SHA256_final <| final_trunc digest ctx 32

end Leak.Sha256

namespace Leak.Sha512
open Model hiding Ctx
open Model.Sha512
open Spec (V8)

/-- The schedule extension at the head of the round loop, sha512.c:103-108: word `i` replaces word `i-16`
in the 16-word window `W`. -/
def sched (i : Nat) (W : List UInt64) : L (List UInt64) :=
  lif i ≥ 16 then do
    let w2 ← rd W ((i - 2) &&& 15)
    let w7 ← rd W ((i - 7) &&& 15)
    let w15 ← rd W ((i - 15) &&& 15)
    let w16 ← rd W (i &&& 15)
    wr W (i &&& 15) (Gamma1 w2 + w7 + Gamma0 w15 + w16)
  else .ok W

/-- One iteration of the round loop, sha512.c:102-119, on the 16-word schedule buffer `W` and the
working variables `S0 .. S7`. -/
def rnd (i : Nat) (st : List UInt64 × V8 UInt64) : L (List UInt64 × V8 UInt64) := do
  let (W, v) := st
  let W ← sched i W
  let k ← rd K i
  let w ← rd W (i &&& 15)
  let t0 := v.h + Sigma1 v.e + Ch v.e v.f v.g + k + w
  let t1 := Sigma0 v.a + Maj v.a v.b v.c
  .ok (W, ⟨t0 + t1, v.a, v.b, v.c, v.d + t0, v.e, v.f, v.g⟩)

/-- `sha512_compress(ctx, buf)`, sha512.c:80-125. `buf` may be `ctx->x.data` itself, which
the C code overwrites by the schedule word by word; since word `i` overwrites only
bytes that have already been read, the model reads the 16 words first. The schedule left in the union is
what `data` holds afterwards. -/
def compress (ctx : Ctx) (buf : Bytes) : L Ctx := frame .sha512_compress <| permuting .sha512 0 do
  let W ← loop (fun i W => do
      let v ← ts_bytes_to_ull buf (8 * i) 8
      wr W i (UInt64.ofNat v)) 16 0 (List.replicate 16 0)
  let (W, S) ← loop rnd 80 0 (W, ctx.h)
  .ok { ctx with h := V8.map2 (· + ·) ctx.h S, data := W.flatMap (wordBytes ctx.big) }

/-- The `while (input_count)` loop of `ts_SHA512_update`, sha512.c:146-169; `p` is the unread input,
`input_count` its length. -/
def updateLoop : (fuel : Nat) → Ctx → (p : Bytes) → L Ctx
  | 0, _, _ => .error .diverge
  | fuel + 1, ctx, p =>
    lif p.length = 0 then .ok ctx
    else do
      let this_step ← lmin (usub 128 ctx.num) p.length
      lif this_step = 128 then do
        let this_block ← rdSlice p 0 128
        let ctx ← compress { ctx with num := 0 } this_block
        updateLoop fuel ctx (p.drop this_step)
      else do
        let piece ← rdSlice p 0 this_step
        let data ← wrSlice ctx.data ctx.num piece
        let ctx := { ctx with data := data }
        lif this_step + ctx.num < 128 then
          .ok { ctx with num := ctx.num + this_step }
        else do
          let ctx ← compress { ctx with num := 0 } ctx.data
          updateLoop fuel ctx (p.drop this_step)

/-- `ts_SHA512_update(ctx, src, input_count)`, sha512.c:142-170; `src` carries exactly the
`input_count` bytes. -/
def update (ctx : Ctx) (src : Bytes) : L Ctx :=
  frame .ts_SHA512_update <| updateLoop (src.length + 1) { ctx with count := (ctx.count + 8 * src.length) % 2 ^ 64 } src

/-- `ts_SHA512_final_trunc(digest, ctx, n)`, sha512.c:179-200; returns the destination array and the context. -/
def final_trunc (digest : Bytes) (ctx : Ctx) (n : Nat) : L (Bytes × Ctx) := frame .ts_SHA512_final_trunc do
  let finalcount ← ts_ull_to_bytes (List.replicate 16 0) 0 ctx.count 16
  let ctx ← update ctx [0x80]
  let ctx ← lif ctx.num > 112 then update ctx (List.replicate 16 0) else .ok ctx
  let data ← wrSlice ctx.data ctx.num (List.replicate (usub 112 ctx.num) 0)
  let ctx := { ctx with data := data, num := 112 }
  let ctx ← update ctx finalcount
  let digest ← loop (fun i d => do
      let hi ← rd ctx.h.toList i
      ts_ull_to_bytes d (8 * i) hi.toNat 8) (n / 8) 0 digest
  .ok (digest, ctx)

/-- `ts_SHA512_final`, sha512.c:175-177. -/
def final (digest : Bytes) (ctx : Ctx) : L (Bytes × Ctx) := frame .ts_SHA512_final <| final_trunc digest ctx 64

end Leak.Sha512

namespace Leak.Shake
open Model hiding Ctx
open Model.Shake

/-- `copyFromState`, fips202.c:117-141. -/
def load (state : List UInt64) : L Lanes := do
  let a0 ← rd state 0
  let a1 ← rd state 1
  let a2 ← rd state 2
  let a3 ← rd state 3
  let a4 ← rd state 4
  let a5 ← rd state 5
  let a6 ← rd state 6
  let a7 ← rd state 7
  let a8 ← rd state 8
  let a9 ← rd state 9
  let a10 ← rd state 10
  let a11 ← rd state 11
  let a12 ← rd state 12
  let a13 ← rd state 13
  let a14 ← rd state 14
  let a15 ← rd state 15
  let a16 ← rd state 16
  let a17 ← rd state 17
  let a18 ← rd state 18
  let a19 ← rd state 19
  let a20 ← rd state 20
  let a21 ← rd state 21
  let a22 ← rd state 22
  let a23 ← rd state 23
  let a24 ← rd state 24
  .ok ⟨a0, a1, a2, a3, a4, a5, a6, a7, a8, a9, a10, a11, a12, a13, a14, a15, a16, a17, a18, a19, a20, a21, a22, a23, a24⟩

/-- `copyToState`, fips202.c:338-362. -/
def store (state : List UInt64) (A : Lanes) : L (List UInt64) := do
  let state ← wr state 0 A.Aba
  let state ← wr state 1 A.Abe
  let state ← wr state 2 A.Abi
  let state ← wr state 3 A.Abo
  let state ← wr state 4 A.Abu
  let state ← wr state 5 A.Aga
  let state ← wr state 6 A.Age
  let state ← wr state 7 A.Agi
  let state ← wr state 8 A.Ago
  let state ← wr state 9 A.Agu
  let state ← wr state 10 A.Aka
  let state ← wr state 11 A.Ake
  let state ← wr state 12 A.Aki
  let state ← wr state 13 A.Ako
  let state ← wr state 14 A.Aku
  let state ← wr state 15 A.Ama
  let state ← wr state 16 A.Ame
  let state ← wr state 17 A.Ami
  let state ← wr state 18 A.Amo
  let state ← wr state 19 A.Amu
  let state ← wr state 20 A.Asa
  let state ← wr state 21 A.Ase
  let state ← wr state 22 A.Asi
  let state ← wr state 23 A.Aso
  let state ← wr state 24 A.Asu
  .ok state

/-- `KeccakF1600_StatePermute` with `TS_SHAKE256_OPT == 0`, fips202.c:67-364. -/
def permute0 (state : List UInt64) : L (List UInt64) := do
  let A ← load state
  let A ← loop (fun i A => do
      let rc0 ← rd RoundConstants (2 * i)
      let rc1 ← rd RoundConstants (2 * i + 1)
      .ok (body2 rc0 rc1 A)) 12 0 A
  store state A

/-- `KeccakF1600_StatePermute` with `TS_SHAKE256_OPT == 1`, fips202.c:67-364: the names `Aba ..` are
macros for `state[0] ..` (fips202.c:81-105), so every iteration works on the state array. Simplification:
within an iteration the 25 distinct cells are loaded, updated and stored as a group. -/
def permute1 (state : List UInt64) : L (List UInt64) :=
  loop (fun i state => do
      let A ← load state
      let rc0 ← rd RoundConstants (2 * i)
      let rc1 ← rd RoundConstants (2 * i + 1)
      store state (body2 rc0 rc1 A)) 12 0 state

/-- Theta of the compact permutation, fips202.c:398-405; `bc` is the local array. -/
def theta2 (st bc : List UInt64) : L (List UInt64 × List UInt64) := do
  let bc ← loop (fun i bc => do
      let a ← rd st i
      let b ← rd st (i + 5)
      let c ← rd st (i + 10)
      let d ← rd st (i + 15)
      let e ← rd st (i + 20)
      wr bc i (a ^^^ b ^^^ c ^^^ d ^^^ e)) 5 0 bc
  let st ← loop (fun i st => do
      let p ← rd bc ((i + 4) % 5)
      let q ← rd bc ((i + 1) % 5)
      let t := p ^^^ ROL q 1
      loop (fun jj st => do
        let v ← rd st (5 * jj + i)
        wr st (5 * jj + i) (v ^^^ t)) 5 0 st) 5 0 st
  .ok (st, bc)

/-- One step of Rho and Pi of the compact permutation, fips202.c:410-413, on `(st, bc, t)`. -/
def rhopiStep (i : Nat) (s : List UInt64 × List UInt64 × UInt64) :
    L (List UInt64 × List UInt64 × UInt64) := do
  let j ← rd piln i
  let v ← rd s.1 j
  let bc ← wr s.2.1 0 v
  let r ← rd rotc i
  tick (.shift r)
  let st ← wr s.1 j (ROL s.2.2 r)
  let t ← rd bc 0
  .ok (st, bc, t)

/-- Rho and Pi of the compact permutation, fips202.c:408-414. -/
def rhopi2 (st bc : List UInt64) : L (List UInt64 × List UInt64) := do
  let t ← rd st 1
  let s ← loop rhopiStep 24 0 (st, bc, t)
  .ok (s.1, s.2.1)

/-- Chi of the compact permutation on one row, fips202.c:418-421, on `(st, bc)`. -/
def chiRow (jj : Nat) (s : List UInt64 × List UInt64) : L (List UInt64 × List UInt64) := do
  let bc ← loop (fun i bc => do
      let v ← rd s.1 (5 * jj + i)
      wr bc i v) 5 0 s.2
  let st ← loop (fun i st => do
      let v ← rd st (5 * jj + i)
      let p ← rd bc ((i + 1) % 5)
      let q ← rd bc ((i + 2) % 5)
      wr st (5 * jj + i) (v ^^^ ((~~~p) &&& q))) 5 0 s.1
  .ok (st, bc)

/-- Chi of the compact permutation, fips202.c:417-422. -/
def chi2 (st bc : List UInt64) : L (List UInt64 × List UInt64) := loop chiRow 5 0 (st, bc)

/-- One round of the compact permutation, fips202.c:395-426. -/
def round2 (r : Nat) (s : List UInt64 × List UInt64) : L (List UInt64 × List UInt64) := do
  let s ← theta2 s.1 s.2
  let s ← rhopi2 s.1 s.2
  let s ← chi2 s.1 s.2
  let v ← rd s.1 0
  let c ← rd rndc r
  let st ← wr s.1 0 (v ^^^ c)
  .ok (st, s.2)

/-- `KeccakF1600_StatePermute` with `TS_SHAKE256_OPT == 2`, fips202.c:369-427. The local `bc` is
uninitialised in C; it is written before it is read, here it starts as `bc0`. -/
def permute2 (bc0 : List UInt64) (st : List UInt64) : L (List UInt64) := do
  let s ← loop round2 24 0 (st, bc0)
  .ok s.1

/-- The permutation chosen by `TS_SHAKE256_OPT` (fips202.c:66, 78, 365): 0 and 1 as numbered, 2 the
compact one; any other value compiles the code of option 0. -/
def permute (opt : Nat) (st : List UInt64) : L (List UInt64) :=
  frame .KeccakF1600_StatePermute <| permuting .keccak opt <| if opt = 2 then permute2 [0, 0, 0, 0, 0] st
  else if opt = 1 then permute1 st
  else permute0 st

/-- `keccak_inc_init`, fips202.c:441-448, via `ts_shake256_inc_init`, fips202.c:555-557. -/
def inc_init (s : Ctx) : L Ctx := frame .ts_shake256_inc_init do
  let s ← loop (fun i s => wr s i 0) 25 0 s
  wr s 25 0

/-- `s_inc[pos >> 3] ^= (uint64_t)b << (8 * (pos & 7))`, fips202.c:474, 484, 506, 507. -/
def xorByte (s : Ctx) (pos : Nat) (b : UInt8) : L Ctx := do
  let v ← rd s (pos >>> 3)
  tick (.shift (8 * (pos &&& 7)))
  wr s (pos >>> 3) (v ^^^ (UInt64.ofNat b.toNat <<< UInt64.ofNat (8 * (pos &&& 7))))

/-- `keccak_inc_absorb`, fips202.c:464-487, with `r = RATE`; `m` carries exactly the `mlen` bytes that
remain. The fuel bounds the `while` loop. `permute` is `KeccakF1600_StatePermute`. -/
def absorbLoop (opt : Nat) : (fuel : Nat) → Ctx → (m : Bytes) → L Ctx
  | 0, _, _ => .error .diverge
  | fuel + 1, s, m => do
    let c ← rd s 25
    lif (m.length + c.toNat) % 2 ^ 64 ≥ RATE then do
      let step := usub64 RATE c.toNat
      let s ← loop (fun i s => do
          let b ← rd m i
          xorByte s ((c.toNat + i) % 2 ^ 64) b) step 0 s
      let s ← wr s 25 0
      let s ← permute opt s
      absorbLoop opt fuel s (m.drop step)
    else do
      let s ← loop (fun i s => do
          let b ← rd m i
          xorByte s ((c.toNat + i) % 2 ^ 64) b) m.length 0 s
      wr s 25 (UInt64.ofNat (c.toNat + m.length))

/-- `ts_shake256_inc_absorb`, fips202.c:559-561. -/
def inc_absorb (opt : Nat) (s : Ctx) (input : Bytes) : L Ctx :=
  frame .ts_shake256_inc_absorb <| frame .keccak_inc_absorb <| absorbLoop opt (input.length + 1) s input

/-- `keccak_inc_finalize` with `p = 0x1F`, fips202.c:502-509, 563-565. -/
def inc_finalize (s : Ctx) : L Ctx := frame .ts_shake256_inc_finalize do
  let c ← rd s 25
  let s ← xorByte s c.toNat 0x1F
  let s ← xorByte s (RATE - 1) 128
  wr s 25 0

/-- `(uint8_t)(s_inc[pos >> 3] >> (8 * (pos & 7)))`, fips202.c:533, 544. -/
def getByte (s : Ctx) (pos : Nat) : L UInt8 := do
  let v ← rd s (pos >>> 3)
  tick (.shift (8 * (pos &&& 7)))
  .ok (UInt8.ofNat (v >>> UInt64.ofNat (8 * (pos &&& 7))).toNat)

/-- The block loop of `keccak_inc_squeeze`, fips202.c:540-549; `off` is `h` as an offset into the
destination array. -/
def squeezeLoop (opt : Nat) : (fuel : Nat) → (h : Bytes) → (off outlen : Nat) → Ctx → L (Bytes × Ctx)
  | 0, _, _, _, _ => .error .diverge
  | fuel + 1, h, off, outlen, s =>
    lif outlen > 0 then do
      let s ← permute opt s
      let cnt ← lmin outlen RATE
      let h ← loop (fun i h => do
          let b ← getByte s i
          wr h (off + i) b) cnt 0 h
      let s ← wr s 25 (UInt64.ofNat (RATE - cnt))
      squeezeLoop opt fuel h (off + cnt) (outlen - cnt) s
    else .ok (h, s)

/-- `ts_shake256_inc_squeeze(output + off, outlen, ctx)`, fips202.c:524-550, 567-569; returns the
destination array and the context. -/
def inc_squeeze (opt : Nat) (h : Bytes) (off outlen : Nat) (s : Ctx) : L (Bytes × Ctx) := frame .ts_shake256_inc_squeeze <| frame .keccak_inc_squeeze do
  let c ← rd s 25
  let cnt ← lmin outlen c.toNat
  let h ← loop (fun i h => do
      let b ← getByte s ((usub64 RATE c.toNat + i) % 2 ^ 64)
      wr h (off + i) b) cnt 0 h
  let s ← wr s 25 (UInt64.ofNat (c.toNat - cnt))
  squeezeLoop opt (outlen + 1) h (off + cnt) (outlen - cnt) s

end Leak.Shake
