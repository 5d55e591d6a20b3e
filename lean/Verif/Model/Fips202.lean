import Verif.Model.Basic
/-!
# Model of fips202.c (SHAKE256)
-/
namespace Model.Shake

/-- `ROL`, fips202.c:35-37 (both shift amounts must be in `0 .. 63`; all call sites are checked by the
proofs, which need `0 < offset < 64`). -/
def ROL (a : UInt64) (offset : Nat) : UInt64 :=
  (a <<< UInt64.ofNat offset) ^^^ (a >>> UInt64.ofNat (64 - offset))

/-- `SHAKE256_RATE`, fips202.c:39. -/
abbrev RATE : Nat := 136

/-- `KeccakF_RoundConstants`, fips202.c:43-56. -/
def RoundConstants : List UInt64 :=
  [0x0000000000000001, 0x0000000000008082, 0x800000000000808a,
   0x8000000080008000, 0x000000000000808b, 0x0000000080000001,
   0x8000000080008081, 0x8000000000008009, 0x000000000000008a,
   0x0000000000000088, 0x0000000080008009, 0x000000008000000a,
   0x000000008000808b, 0x800000000000008b, 0x8000000000008089,
   0x8000000000008003, 0x8000000000008002, 0x8000000000000080,
   0x000000000000800a, 0x800000008000000a, 0x8000000080008081,
   0x8000000000008080, 0x0000000080000001, 0x8000000080008008]

/-- The local variables `Aba .. Asu` of fips202.c:110-114. -/
structure Lanes where
  (Aba Abe Abi Abo Abu Aga Age Agi Ago Agu Aka Ake Aki Ako Aku Ama Ame Ami Amo Amu Asa Ase Asi Aso Asu : UInt64)
deriving DecidableEq, Repr

/-- The loop body of `KeccakF1600_StatePermute` (two rounds), fips202.c:145-333, statement by statement;
`rc0`, `rc1` are `KeccakF_RoundConstants[round]`, `[round + 1]`. (Generated mechanically from the C text.) -/
def body2 (rc0 rc1 : UInt64) (A : Lanes) : Lanes :=
  let ⟨Aba, Abe, Abi, Abo, Abu, Aga, Age, Agi, Ago, Agu, Aka, Ake, Aki, Ako, Aku, Ama, Ame, Ami, Amo, Amu, Asa, Ase, Asi, Aso, Asu⟩ := A
  let BCa := Aba ^^^ Aga ^^^ Aka ^^^ Ama ^^^ Asa
  let BCe := Abe ^^^ Age ^^^ Ake ^^^ Ame ^^^ Ase
  let BCi := Abi ^^^ Agi ^^^ Aki ^^^ Ami ^^^ Asi
  let BCo := Abo ^^^ Ago ^^^ Ako ^^^ Amo ^^^ Aso
  let BCu := Abu ^^^ Agu ^^^ Aku ^^^ Amu ^^^ Asu
  let Da := BCu ^^^ (ROL BCe 1)
  let De := BCa ^^^ (ROL BCi 1)
  let Di := BCe ^^^ (ROL BCo 1)
  let Do := BCi ^^^ (ROL BCu 1)
  let Du := BCo ^^^ (ROL BCa 1)
  let Aba := Aba ^^^ Da
  let BCa := Aba
  let Age := Age ^^^ De
  let BCe := (ROL Age 44)
  let Aki := Aki ^^^ Di
  let BCi := (ROL Aki 43)
  let Amo := Amo ^^^ Do
  let BCo := (ROL Amo 21)
  let Asu := Asu ^^^ Du
  let BCu := (ROL Asu 14)
  let Eba := BCa ^^^ ((~~~BCe) &&& BCi)
  let Eba := Eba ^^^ rc0
  let Ebe := BCe ^^^ ((~~~BCi) &&& BCo)
  let Ebi := BCi ^^^ ((~~~BCo) &&& BCu)
  let Ebo := BCo ^^^ ((~~~BCu) &&& BCa)
  let Ebu := BCu ^^^ ((~~~BCa) &&& BCe)
  let Abo := Abo ^^^ Do
  let BCa := (ROL Abo 28)
  let Agu := Agu ^^^ Du
  let BCe := (ROL Agu 20)
  let Aka := Aka ^^^ Da
  let BCi := (ROL Aka 3)
  let Ame := Ame ^^^ De
  let BCo := (ROL Ame 45)
  let Asi := Asi ^^^ Di
  let BCu := (ROL Asi 61)
  let Ega := BCa ^^^ ((~~~BCe) &&& BCi)
  let Ege := BCe ^^^ ((~~~BCi) &&& BCo)
  let Egi := BCi ^^^ ((~~~BCo) &&& BCu)
  let Ego := BCo ^^^ ((~~~BCu) &&& BCa)
  let Egu := BCu ^^^ ((~~~BCa) &&& BCe)
  let Abe := Abe ^^^ De
  let BCa := (ROL Abe 1)
  let Agi := Agi ^^^ Di
  let BCe := (ROL Agi 6)
  let Ako := Ako ^^^ Do
  let BCi := (ROL Ako 25)
  let Amu := Amu ^^^ Du
  let BCo := (ROL Amu 8)
  let Asa := Asa ^^^ Da
  let BCu := (ROL Asa 18)
  let Eka := BCa ^^^ ((~~~BCe) &&& BCi)
  let Eke := BCe ^^^ ((~~~BCi) &&& BCo)
  let Eki := BCi ^^^ ((~~~BCo) &&& BCu)
  let Eko := BCo ^^^ ((~~~BCu) &&& BCa)
  let Eku := BCu ^^^ ((~~~BCa) &&& BCe)
  let Abu := Abu ^^^ Du
  let BCa := (ROL Abu 27)
  let Aga := Aga ^^^ Da
  let BCe := (ROL Aga 36)
  let Ake := Ake ^^^ De
  let BCi := (ROL Ake 10)
  let Ami := Ami ^^^ Di
  let BCo := (ROL Ami 15)
  let Aso := Aso ^^^ Do
  let BCu := (ROL Aso 56)
  let Ema := BCa ^^^ ((~~~BCe) &&& BCi)
  let Eme := BCe ^^^ ((~~~BCi) &&& BCo)
  let Emi := BCi ^^^ ((~~~BCo) &&& BCu)
  let Emo := BCo ^^^ ((~~~BCu) &&& BCa)
  let Emu := BCu ^^^ ((~~~BCa) &&& BCe)
  let Abi := Abi ^^^ Di
  let BCa := (ROL Abi 62)
  let Ago := Ago ^^^ Do
  let BCe := (ROL Ago 55)
  let Aku := Aku ^^^ Du
  let BCi := (ROL Aku 39)
  let Ama := Ama ^^^ Da
  let BCo := (ROL Ama 41)
  let Ase := Ase ^^^ De
  let BCu := (ROL Ase 2)
  let Esa := BCa ^^^ ((~~~BCe) &&& BCi)
  let Ese := BCe ^^^ ((~~~BCi) &&& BCo)
  let Esi := BCi ^^^ ((~~~BCo) &&& BCu)
  let Eso := BCo ^^^ ((~~~BCu) &&& BCa)
  let Esu := BCu ^^^ ((~~~BCa) &&& BCe)
  let BCa := Eba ^^^ Ega ^^^ Eka ^^^ Ema ^^^ Esa
  let BCe := Ebe ^^^ Ege ^^^ Eke ^^^ Eme ^^^ Ese
  let BCi := Ebi ^^^ Egi ^^^ Eki ^^^ Emi ^^^ Esi
  let BCo := Ebo ^^^ Ego ^^^ Eko ^^^ Emo ^^^ Eso
  let BCu := Ebu ^^^ Egu ^^^ Eku ^^^ Emu ^^^ Esu
  let Da := BCu ^^^ (ROL BCe 1)
  let De := BCa ^^^ (ROL BCi 1)
  let Di := BCe ^^^ (ROL BCo 1)
  let Do := BCi ^^^ (ROL BCu 1)
  let Du := BCo ^^^ (ROL BCa 1)
  let Eba := Eba ^^^ Da
  let BCa := Eba
  let Ege := Ege ^^^ De
  let BCe := (ROL Ege 44)
  let Eki := Eki ^^^ Di
  let BCi := (ROL Eki 43)
  let Emo := Emo ^^^ Do
  let BCo := (ROL Emo 21)
  let Esu := Esu ^^^ Du
  let BCu := (ROL Esu 14)
  let Aba := BCa ^^^ ((~~~BCe) &&& BCi)
  let Aba := Aba ^^^ rc1
  let Abe := BCe ^^^ ((~~~BCi) &&& BCo)
  let Abi := BCi ^^^ ((~~~BCo) &&& BCu)
  let Abo := BCo ^^^ ((~~~BCu) &&& BCa)
  let Abu := BCu ^^^ ((~~~BCa) &&& BCe)
  let Ebo := Ebo ^^^ Do
  let BCa := (ROL Ebo 28)
  let Egu := Egu ^^^ Du
  let BCe := (ROL Egu 20)
  let Eka := Eka ^^^ Da
  let BCi := (ROL Eka 3)
  let Eme := Eme ^^^ De
  let BCo := (ROL Eme 45)
  let Esi := Esi ^^^ Di
  let BCu := (ROL Esi 61)
  let Aga := BCa ^^^ ((~~~BCe) &&& BCi)
  let Age := BCe ^^^ ((~~~BCi) &&& BCo)
  let Agi := BCi ^^^ ((~~~BCo) &&& BCu)
  let Ago := BCo ^^^ ((~~~BCu) &&& BCa)
  let Agu := BCu ^^^ ((~~~BCa) &&& BCe)
  let Ebe := Ebe ^^^ De
  let BCa := (ROL Ebe 1)
  let Egi := Egi ^^^ Di
  let BCe := (ROL Egi 6)
  let Eko := Eko ^^^ Do
  let BCi := (ROL Eko 25)
  let Emu := Emu ^^^ Du
  let BCo := (ROL Emu 8)
  let Esa := Esa ^^^ Da
  let BCu := (ROL Esa 18)
  let Aka := BCa ^^^ ((~~~BCe) &&& BCi)
  let Ake := BCe ^^^ ((~~~BCi) &&& BCo)
  let Aki := BCi ^^^ ((~~~BCo) &&& BCu)
  let Ako := BCo ^^^ ((~~~BCu) &&& BCa)
  let Aku := BCu ^^^ ((~~~BCa) &&& BCe)
  let Ebu := Ebu ^^^ Du
  let BCa := (ROL Ebu 27)
  let Ega := Ega ^^^ Da
  let BCe := (ROL Ega 36)
  let Eke := Eke ^^^ De
  let BCi := (ROL Eke 10)
  let Emi := Emi ^^^ Di
  let BCo := (ROL Emi 15)
  let Eso := Eso ^^^ Do
  let BCu := (ROL Eso 56)
  let Ama := BCa ^^^ ((~~~BCe) &&& BCi)
  let Ame := BCe ^^^ ((~~~BCi) &&& BCo)
  let Ami := BCi ^^^ ((~~~BCo) &&& BCu)
  let Amo := BCo ^^^ ((~~~BCu) &&& BCa)
  let Amu := BCu ^^^ ((~~~BCa) &&& BCe)
  let Ebi := Ebi ^^^ Di
  let BCa := (ROL Ebi 62)
  let Ego := Ego ^^^ Do
  let BCe := (ROL Ego 55)
  let Eku := Eku ^^^ Du
  let BCi := (ROL Eku 39)
  let Ema := Ema ^^^ Da
  let BCo := (ROL Ema 41)
  let Ese := Ese ^^^ De
  let BCu := (ROL Ese 2)
  let Asa := BCa ^^^ ((~~~BCe) &&& BCi)
  let Ase := BCe ^^^ ((~~~BCi) &&& BCo)
  let Asi := BCi ^^^ ((~~~BCo) &&& BCu)
  let Aso := BCo ^^^ ((~~~BCu) &&& BCa)
  let Asu := BCu ^^^ ((~~~BCa) &&& BCe)
  ⟨Aba, Abe, Abi, Abo, Abu, Aga, Age, Agi, Ago, Agu, Aka, Ake, Aki, Ako, Aku, Ama, Ame, Ami, Amo, Amu, Asa, Ase, Asi, Aso, Asu⟩

/-- `copyFromState`, fips202.c:117-141. -/
def load (state : List UInt64) : C Lanes := do
  let a0 ← rd state 0
  let a1 ← rd state 1
  let a2 ← rd state 2
  let a3 ← rd state 3
  let a4 ← rd state 4
  let a5 ← rd state 5
  let a6 ← rd state 6
  let a7 ← rd state 7
  let a8 ← rd state 8
  let a9 ← rd state 9
  let a10 ← rd state 10
  let a11 ← rd state 11
  let a12 ← rd state 12
  let a13 ← rd state 13
  let a14 ← rd state 14
  let a15 ← rd state 15
  let a16 ← rd state 16
  let a17 ← rd state 17
  let a18 ← rd state 18
  let a19 ← rd state 19
  let a20 ← rd state 20
  let a21 ← rd state 21
  let a22 ← rd state 22
  let a23 ← rd state 23
  let a24 ← rd state 24
  .ok ⟨a0, a1, a2, a3, a4, a5, a6, a7, a8, a9, a10, a11, a12, a13, a14, a15, a16, a17, a18, a19, a20, a21, a22, a23, a24⟩

/-- `copyToState`, fips202.c:338-362. -/
def store (state : List UInt64) (A : Lanes) : C (List UInt64) := do
  let state ← wr state 0 A.Aba
  let state ← wr state 1 A.Abe
  let state ← wr state 2 A.Abi
  let state ← wr state 3 A.Abo
  let state ← wr state 4 A.Abu
  let state ← wr state 5 A.Aga
  let state ← wr state 6 A.Age
  let state ← wr state 7 A.Agi
  let state ← wr state 8 A.Ago
  let state ← wr state 9 A.Agu
  let state ← wr state 10 A.Aka
  let state ← wr state 11 A.Ake
  let state ← wr state 12 A.Aki
  let state ← wr state 13 A.Ako
  let state ← wr state 14 A.Aku
  let state ← wr state 15 A.Ama
  let state ← wr state 16 A.Ame
  let state ← wr state 17 A.Ami
  let state ← wr state 18 A.Amo
  let state ← wr state 19 A.Amu
  let state ← wr state 20 A.Asa
  let state ← wr state 21 A.Ase
  let state ← wr state 22 A.Asi
  let state ← wr state 23 A.Aso
  let state ← wr state 24 A.Asu
  .ok state

/-- `KeccakF1600_StatePermute` with `TS_SHAKE256_OPT == 0`, fips202.c:67-364. -/
def permute0 (state : List UInt64) : C (List UInt64) := do
  let A ← load state
  let A ← loop (fun i A => do
      let rc0 ← rd RoundConstants (2 * i)
      let rc1 ← rd RoundConstants (2 * i + 1)
      .ok (body2 rc0 rc1 A)) 12 0 A
  store state A

/-- `KeccakF1600_StatePermute` with `TS_SHAKE256_OPT == 1`, fips202.c:67-364: the names `Aba ..` are
macros for `state[0] ..` (fips202.c:81-105), so every iteration works on the state array. Simplification:
within an iteration the 25 distinct cells are loaded, updated and stored as a group. -/
def permute1 (state : List UInt64) : C (List UInt64) :=
  loop (fun i state => do
      let A ← load state
      let rc0 ← rd RoundConstants (2 * i)
      let rc1 ← rd RoundConstants (2 * i + 1)
      store state (body2 rc0 rc1 A)) 12 0 state

/-- `keccakf_rndc`, fips202.c:371-380. -/
def rndc : List UInt64 :=
  [0x0000000000000001, 0x0000000000008082, 0x800000000000808a,
   0x8000000080008000, 0x000000000000808b, 0x0000000080000001,
   0x8000000080008081, 0x8000000000008009, 0x000000000000008a,
   0x0000000000000088, 0x0000000080008009, 0x000000008000000a,
   0x000000008000808b, 0x800000000000008b, 0x8000000000008089,
   0x8000000000008003, 0x8000000000008002, 0x8000000000000080,
   0x000000000000800a, 0x800000008000000a, 0x8000000080008081,
   0x8000000000008080, 0x0000000080000001, 0x8000000080008008]

/-- `keccakf_rotc`, fips202.c:381-384. -/
def rotc : List Nat := [1, 3, 6, 10, 15, 21, 28, 36, 45, 55, 2, 14, 27, 41, 56, 8, 25, 43, 62, 18, 39, 61, 20, 44]

/-- `keccakf_piln`, fips202.c:385-388. -/
def piln : List Nat := [10, 7, 11, 17, 18, 3, 5, 16, 8, 21, 24, 4, 15, 23, 19, 13, 12, 2, 20, 14, 22, 9, 6, 1]

/-- Theta of the compact permutation, fips202.c:398-405; `bc` is the local array. -/
def theta2 (st bc : List UInt64) : C (List UInt64 × List UInt64) := do
  let bc ← loop (fun i bc => do
      let a ← rd st i
      let b ← rd st (i + 5)
      let c ← rd st (i + 10)
      let d ← rd st (i + 15)
      let e ← rd st (i + 20)
      wr bc i (a ^^^ b ^^^ c ^^^ d ^^^ e)) 5 0 bc
  let st ← loop (fun i st => do
      let p ← rd bc ((i + 4) % 5)
      let q ← rd bc ((i + 1) % 5)
      let t := p ^^^ ROL q 1
      loop (fun jj st => do
        let v ← rd st (5 * jj + i)
        wr st (5 * jj + i) (v ^^^ t)) 5 0 st) 5 0 st
  .ok (st, bc)

/-- One step of Rho and Pi of the compact permutation, fips202.c:410-413, on `(st, bc, t)`. -/
def rhopiStep (i : Nat) (s : List UInt64 × List UInt64 × UInt64) :
    C (List UInt64 × List UInt64 × UInt64) := do
  let j ← rd piln i
  let v ← rd s.1 j
  let bc ← wr s.2.1 0 v
  let r ← rd rotc i
  let st ← wr s.1 j (ROL s.2.2 r)
  let t ← rd bc 0
  .ok (st, bc, t)

/-- Rho and Pi of the compact permutation, fips202.c:408-414. -/
def rhopi2 (st bc : List UInt64) : C (List UInt64 × List UInt64) := do
  let t ← rd st 1
  let s ← loop rhopiStep 24 0 (st, bc, t)
  .ok (s.1, s.2.1)

/-- Chi of the compact permutation on one row, fips202.c:418-421, on `(st, bc)`. -/
def chiRow (jj : Nat) (s : List UInt64 × List UInt64) : C (List UInt64 × List UInt64) := do
  let bc ← loop (fun i bc => do
      let v ← rd s.1 (5 * jj + i)
      wr bc i v) 5 0 s.2
  let st ← loop (fun i st => do
      let v ← rd st (5 * jj + i)
      let p ← rd bc ((i + 1) % 5)
      let q ← rd bc ((i + 2) % 5)
      wr st (5 * jj + i) (v ^^^ ((~~~p) &&& q))) 5 0 s.1
  .ok (st, bc)

/-- Chi of the compact permutation, fips202.c:417-422. -/
def chi2 (st bc : List UInt64) : C (List UInt64 × List UInt64) := loop chiRow 5 0 (st, bc)

/-- One round of the compact permutation, fips202.c:395-426. -/
def round2 (r : Nat) (s : List UInt64 × List UInt64) : C (List UInt64 × List UInt64) := do
  let s ← theta2 s.1 s.2
  let s ← rhopi2 s.1 s.2
  let s ← chi2 s.1 s.2
  let v ← rd s.1 0
  let c ← rd rndc r
  let st ← wr s.1 0 (v ^^^ c)
  .ok (st, s.2)

/-- `KeccakF1600_StatePermute` with `TS_SHAKE256_OPT == 2`, fips202.c:369-427. The local `bc` is
uninitialised in C; it is written before it is read, here it starts as `bc0`. -/
def permute2 (bc0 : List UInt64) (st : List UInt64) : C (List UInt64) := do
  let s ← loop round2 24 0 (st, bc0)
  .ok s.1

/-- The permutation chosen by `TS_SHAKE256_OPT` (fips202.c:66, 78, 365): 0 and 1 as numbered, 2 the
compact one; any other value compiles the code of option 0. -/
def permute (opt : Nat) (st : List UInt64) : C (List UInt64) :=
  if opt = 2 then permute2 [0, 0, 0, 0, 0] st
  else if opt = 1 then permute1 st
  else permute0 st

/-- `SHAKE256_CTX`, fips202.h:35-37: `s[26]`. -/
abbrev Ctx := List UInt64

/-- `keccak_inc_init`, fips202.c:441-448, via `ts_shake256_inc_init`, fips202.c:555-557. -/
def inc_init (s : Ctx) : C Ctx := do
  let s ← loop (fun i s => wr s i 0) 25 0 s
  wr s 25 0

/-- `s_inc[pos >> 3] ^= (uint64_t)b << (8 * (pos & 7))`, fips202.c:474, 484, 506, 507. -/
def xorByte (s : Ctx) (pos : Nat) (b : UInt8) : C Ctx := do
  let v ← rd s (pos >>> 3)
  wr s (pos >>> 3) (v ^^^ (UInt64.ofNat b.toNat <<< UInt64.ofNat (8 * (pos &&& 7))))

/-- `keccak_inc_absorb`, fips202.c:464-487, with `r = RATE`; `m` carries exactly the `mlen` bytes that
remain. The fuel bounds the `while` loop. `permute` is `KeccakF1600_StatePermute`. -/
def absorbLoop (opt : Nat) : (fuel : Nat) → Ctx → (m : Bytes) → C Ctx
  | 0, _, _ => .error .diverge
  | fuel + 1, s, m => do
    let c ← rd s 25
    if (m.length + c.toNat) % 2 ^ 64 ≥ RATE then do
      let step := usub64 RATE c.toNat
      let s ← loop (fun i s => do
          let b ← rd m i
          xorByte s ((c.toNat + i) % 2 ^ 64) b) step 0 s
      let s ← wr s 25 0
      let s ← permute opt s
      absorbLoop opt fuel s (m.drop step)
    else do
      let s ← loop (fun i s => do
          let b ← rd m i
          xorByte s ((c.toNat + i) % 2 ^ 64) b) m.length 0 s
      wr s 25 (UInt64.ofNat (c.toNat + m.length))

/-- `ts_shake256_inc_absorb`, fips202.c:559-561. -/
def inc_absorb (opt : Nat) (s : Ctx) (input : Bytes) : C Ctx :=
  absorbLoop opt (input.length + 1) s input

/-- `keccak_inc_finalize` with `p = 0x1F`, fips202.c:502-509, 563-565. -/
def inc_finalize (s : Ctx) : C Ctx := do
  let c ← rd s 25
  let s ← xorByte s c.toNat 0x1F
  let s ← xorByte s (RATE - 1) 128
  wr s 25 0

/-- `(uint8_t)(s_inc[pos >> 3] >> (8 * (pos & 7)))`, fips202.c:533, 544. -/
def getByte (s : Ctx) (pos : Nat) : C UInt8 := do
  let v ← rd s (pos >>> 3)
  .ok (UInt8.ofNat (v >>> UInt64.ofNat (8 * (pos &&& 7))).toNat)

/-- The block loop of `keccak_inc_squeeze`, fips202.c:540-549; `off` is `h` as an offset into the
destination array. -/
def squeezeLoop (opt : Nat) : (fuel : Nat) → (h : Bytes) → (off outlen : Nat) → Ctx → C (Bytes × Ctx)
  | 0, _, _, _, _ => .error .diverge
  | fuel + 1, h, off, outlen, s =>
    if outlen > 0 then do
      let s ← permute opt s
      let cnt := min outlen RATE
      let h ← loop (fun i h => do
          let b ← getByte s i
          wr h (off + i) b) cnt 0 h
      let s ← wr s 25 (UInt64.ofNat (RATE - cnt))
      squeezeLoop opt fuel h (off + cnt) (outlen - cnt) s
    else .ok (h, s)

/-- `ts_shake256_inc_squeeze(output + off, outlen, ctx)`, fips202.c:524-550, 567-569; returns the
destination array and the context. -/
def inc_squeeze (opt : Nat) (h : Bytes) (off outlen : Nat) (s : Ctx) : C (Bytes × Ctx) := do
  let c ← rd s 25
  let cnt := min outlen c.toNat
  let h ← loop (fun i h => do
      let b ← getByte s ((usub64 RATE c.toNat + i) % 2 ^ 64)
      wr h (off + i) b) cnt 0 h
  let s ← wr s 25 (UInt64.ofNat (c.toNat - cnt))
  squeezeLoop opt (outlen + 1) h (off + cnt) (outlen - cnt) s

end Model.Shake
