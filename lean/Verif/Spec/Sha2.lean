import Verif.Spec.Bytes
/-!
# FIPS 180-4: SHA-256 and SHA-512

Written from the standard. The constants are not transcribed: they are *defined* as the leading
fractional bits of square and cube roots of the first primes (FIPS 180-4 sections 4.2.2, 4.2.3, 5.3.3,
5.3.5).
-/
namespace Spec

/-- The eight words `a .. h` (or `H0 .. H7`). -/
structure V8 (α : Type) where
  (a b c d e f g h : α)
deriving DecidableEq, Repr

namespace V8
def toList (v : V8 α) : List α := [v.a, v.b, v.c, v.d, v.e, v.f, v.g, v.h]
def map2 (f : α → α → β) (u v : V8 α) : V8 β :=
  ⟨f u.a v.a, f u.b v.b, f u.c v.c, f u.d v.d, f u.e v.e, f u.f v.f, f u.g v.g, f u.h v.h⟩
def map (f : α → β) (u : V8 α) : V8 β :=
  ⟨f u.a, f u.b, f u.c, f u.d, f u.e, f u.f, f u.g, f u.h⟩
end V8

/-- `⌊N^(1/k)⌋` for results below `2^bits`, by binary search from the top bit. -/
def iroot (k N : Nat) (bits : Nat) : Nat :=
  (List.range bits).reverse.foldl (fun r b => if (r + 2 ^ b) ^ k ≤ N then r + 2 ^ b else r) 0

/-- Trial-division primality. -/
def isPrime (p : Nat) : Bool := 2 ≤ p && (List.range p).all fun q => q < 2 || p % q != 0

/-- The first `c` primes (correct for `c ≤ 80`, the 80th prime being 409). -/
def firstPrimes (c : Nat) : List Nat := ((List.range 410).filter isPrime).take c

/-- First `w` bits of the fractional part of the `k`-th root of `p`. -/
def rootFrac (w k p : Nat) : Nat := iroot k (p * 2 ^ (k * w)) (w + 8) % 2 ^ w

/-! ## SHA-256 -/
namespace Sha256

/-- `ROTR^n(x)`. -/
def ROTR (n : Nat) (x : UInt32) : UInt32 := ⟨x.toBitVec.rotateRight n⟩
/-- `SHR^n(x)`. -/
def SHR (n : Nat) (x : UInt32) : UInt32 := ⟨x.toBitVec.ushiftRight n⟩

def Ch (x y z : UInt32) : UInt32 := (x &&& y) ^^^ (~~~x &&& z)
def Maj (x y z : UInt32) : UInt32 := (x &&& y) ^^^ (x &&& z) ^^^ (y &&& z)
def bigSigma0 (x : UInt32) : UInt32 := ROTR 2 x ^^^ ROTR 13 x ^^^ ROTR 22 x
def bigSigma1 (x : UInt32) : UInt32 := ROTR 6 x ^^^ ROTR 11 x ^^^ ROTR 25 x
def smallSigma0 (x : UInt32) : UInt32 := ROTR 7 x ^^^ ROTR 18 x ^^^ SHR 3 x
def smallSigma1 (x : UInt32) : UInt32 := ROTR 17 x ^^^ ROTR 19 x ^^^ SHR 10 x

/-- FIPS 180-4, 4.2.2. -/
def K : List UInt32 := (firstPrimes 64).map fun p => UInt32.ofNat (rootFrac 32 3 p)

/-- FIPS 180-4, 5.3.3. -/
def H0 : V8 UInt32 :=
  match (firstPrimes 8).map fun p => UInt32.ofNat (rootFrac 32 2 p) with
  | [a, b, c, d, e, f, g, h] => ⟨a, b, c, d, e, f, g, h⟩
  | _ => ⟨0, 0, 0, 0, 0, 0, 0, 0⟩

/-- FIPS 180-4, 5.1.1 (byte-oriented): append `1`, the least number of zeros, the 64-bit length. -/
def pad (M : Bytes) : Bytes :=
  M ++ [0x80] ++ List.replicate ((64 - (M.length + 9) % 64) % 64) 0 ++ toByte (8 * M.length) 8

/-- The 16 big-endian words of a block. -/
def words (block : Bytes) : List UInt32 := (blocks 4 block).map fun b => UInt32.ofNat (toInt b)

/-- Message schedule, 6.2.2 step 1: extend the 16 words to 64. -/
def schedule (M : List UInt32) : List UInt32 :=
  (List.range 48).foldl (fun W i => let t := i + 16
    W ++ [smallSigma1 (W.getD (t - 2) 0) + W.getD (t - 7) 0
          + smallSigma0 (W.getD (t - 15) 0) + W.getD (t - 16) 0]) M

/-- One round, 6.2.2 step 3. -/
def round (k w : UInt32) (v : V8 UInt32) : V8 UInt32 :=
  let T1 := v.h + bigSigma1 v.e + Ch v.e v.f v.g + k + w
  let T2 := bigSigma0 v.a + Maj v.a v.b v.c
  ⟨T1 + T2, v.a, v.b, v.c, v.d + T1, v.e, v.f, v.g⟩

/-- The compression of one block. -/
def compress (H : V8 UInt32) (block : Bytes) : V8 UInt32 :=
  let v := ((K.zip (schedule (words block))).foldl (fun v kw => round kw.1 kw.2 v) H)
  V8.map2 (· + ·) H v

/-- SHA-256 of a byte string (defined by the standard for lengths below `2^61` bytes). -/
def hash (M : Bytes) : Bytes :=
  ((blocks 64 (pad M)).foldl compress H0).toList.flatMap fun w => toByte w.toNat 4

end Sha256

/-! ## SHA-512 -/
namespace Sha512

def ROTR (n : Nat) (x : UInt64) : UInt64 := ⟨x.toBitVec.rotateRight n⟩
def SHR (n : Nat) (x : UInt64) : UInt64 := ⟨x.toBitVec.ushiftRight n⟩

def Ch (x y z : UInt64) : UInt64 := (x &&& y) ^^^ (~~~x &&& z)
def Maj (x y z : UInt64) : UInt64 := (x &&& y) ^^^ (x &&& z) ^^^ (y &&& z)
def bigSigma0 (x : UInt64) : UInt64 := ROTR 28 x ^^^ ROTR 34 x ^^^ ROTR 39 x
def bigSigma1 (x : UInt64) : UInt64 := ROTR 14 x ^^^ ROTR 18 x ^^^ ROTR 41 x
def smallSigma0 (x : UInt64) : UInt64 := ROTR 1 x ^^^ ROTR 8 x ^^^ SHR 7 x
def smallSigma1 (x : UInt64) : UInt64 := ROTR 19 x ^^^ ROTR 61 x ^^^ SHR 6 x

/-- FIPS 180-4, 4.2.3. -/
def K : List UInt64 := (firstPrimes 80).map fun p => UInt64.ofNat (rootFrac 64 3 p)

/-- FIPS 180-4, 5.3.5. -/
def H0 : V8 UInt64 :=
  match (firstPrimes 8).map fun p => UInt64.ofNat (rootFrac 64 2 p) with
  | [a, b, c, d, e, f, g, h] => ⟨a, b, c, d, e, f, g, h⟩
  | _ => ⟨0, 0, 0, 0, 0, 0, 0, 0⟩

/-- FIPS 180-4, 5.1.2 (byte-oriented): append `1`, the least number of zeros, the 128-bit length. -/
def pad (M : Bytes) : Bytes :=
  M ++ [0x80] ++ List.replicate ((128 - (M.length + 17) % 128) % 128) 0 ++ toByte (8 * M.length) 16

def words (block : Bytes) : List UInt64 := (blocks 8 block).map fun b => UInt64.ofNat (toInt b)

/-- Message schedule, 6.4.2 step 1: extend the 16 words to 80. -/
def schedule (M : List UInt64) : List UInt64 :=
  (List.range 64).foldl (fun W i => let t := i + 16
    W ++ [smallSigma1 (W.getD (t - 2) 0) + W.getD (t - 7) 0
          + smallSigma0 (W.getD (t - 15) 0) + W.getD (t - 16) 0]) M

def round (k w : UInt64) (v : V8 UInt64) : V8 UInt64 :=
  let T1 := v.h + bigSigma1 v.e + Ch v.e v.f v.g + k + w
  let T2 := bigSigma0 v.a + Maj v.a v.b v.c
  ⟨T1 + T2, v.a, v.b, v.c, v.d + T1, v.e, v.f, v.g⟩

def compress (H : V8 UInt64) (block : Bytes) : V8 UInt64 :=
  let v := ((K.zip (schedule (words block))).foldl (fun v kw => round kw.1 kw.2 v) H)
  V8.map2 (· + ·) H v

/-- SHA-512 of a byte string (defined by the standard for lengths below `2^125` bytes). -/
def hash (M : Bytes) : Bytes :=
  ((blocks 128 (pad M)).foldl compress H0).toList.flatMap fun w => toByte w.toNat 8

end Sha512
end Spec
