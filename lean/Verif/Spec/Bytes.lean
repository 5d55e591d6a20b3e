/-!
# Byte strings (specification side)

Elementary conversions, written from FIPS 205 section 4.4 and FIPS 202 appendix B.1.
-/

abbrev Bytes := List UInt8

namespace Spec

/-- FIPS 205 Algorithm 3 `toByte(x, n)`: the `n`-byte big-endian encoding of `x`
(high-order bytes beyond `n` are dropped). -/
def toByte (x : Nat) : Nat → Bytes
  | 0 => []
  | n + 1 => toByte (x / 256) n ++ [UInt8.ofNat x]

/-- FIPS 205 Algorithm 2 `toInt(X)`: the integer whose big-endian encoding is `X`. -/
def toInt (X : Bytes) : Nat := X.foldl (fun total b => 256 * total + b.toNat) 0

/-- The eight bits of a byte, most significant first. -/
def bitsMSB (b : UInt8) : List Bool :=
  [7, 6, 5, 4, 3, 2, 1, 0].map fun i => b.toNat.testBit i

/-- The integer denoted by a bit string, most significant bit first. -/
def bitsToNat (l : List Bool) : Nat := l.foldl (fun t b => 2 * t + b.toNat) 0

/-- FIPS 205 Algorithm 4 `base_2b(X, b, out_len)`, declaratively: read `X` as a bit string (most
significant bit of each byte first); digit `i` is the integer given by bits `i*b .. (i+1)*b-1`. -/
def base2b (X : Bytes) (b outLen : Nat) : List Nat :=
  (List.range outLen).map fun i => bitsToNat (((X.flatMap bitsMSB).drop (i * b)).take b)

/-- Split a byte string whose length is a multiple of `n` into consecutive `n`-byte blocks. -/
def blocks (n : Nat) (l : Bytes) : List Bytes :=
  (List.range (l.length / n)).map fun i => (l.drop (i * n)).take n

end Spec
