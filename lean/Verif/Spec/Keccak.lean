import Verif.Spec.Bytes
/-!
# FIPS 202: Keccak-f[1600], the sponge construction and SHAKE256

Bit-level, following sections 3 to 6 and appendix B of the standard.
-/
namespace Spec.Keccak

/-- A state array `A[x, y, z]` (section 3.1), `w = 64`. -/
abbrev State := Fin 5 → Fin 5 → Fin 64 → Bool

/-- 3.2.1 -/
def theta (A : State) : State :=
  let C : Fin 5 → Fin 64 → Bool := fun x z =>
    A x 0 z ^^ A x 1 z ^^ A x 2 z ^^ A x 3 z ^^ A x 4 z
  let D : Fin 5 → Fin 64 → Bool := fun x z => C (x - 1) z ^^ C (x + 1) (z - 1)
  fun x y z => A x y z ^^ D x z

/-- The walk of 3.2.2 step 2/3: the lane visited at step `t`, starting at `(1,0)`. -/
def rhoWalk : Nat → Fin 5 × Fin 5
  | 0 => (1, 0)
  | t + 1 => let p := rhoWalk t; (p.2, 2 * p.1 + 3 * p.2)

/-- The rotation offset of lane `(x, y)`: `(t+1)(t+2)/2` for the step `t` that visits it, 0 for
`(0,0)`. -/
def rhoOffset (x y : Fin 5) : Nat :=
  match (List.range 24).find? fun t => rhoWalk t == (x, y) with
  | some t => (t + 1) * (t + 2) / 2
  | none => 0

/-- 3.2.2 -/
def rho (A : State) : State := fun x y z => A x y (z - Fin.ofNat 64 (rhoOffset x y))

/-- 3.2.3 -/
def pi (A : State) : State := fun x y z => A (x + 3 * y) x z

/-- 3.2.4 -/
def chi (A : State) : State := fun x y z =>
  A x y z ^^ ((A (x + 1) y z ^^ true) && A (x + 2) y z)

/-- One step of the LFSR in Algorithm 5, on the 8-bit string `R` (`R[0]` first). -/
def lfsrStep (R : List Bool) : List Bool :=
  let R := false :: R
  let r8 := R.getD 8 false
  let R := R.set 0 (R.getD 0 false ^^ r8)
  let R := R.set 4 (R.getD 4 false ^^ r8)
  let R := R.set 5 (R.getD 5 false ^^ r8)
  let R := R.set 6 (R.getD 6 false ^^ r8)
  R.take 8

/-- Algorithm 5. -/
def rc (t : Nat) : Bool :=
  ((List.range (t % 255)).foldl (fun R _ => lfsrStep R)
    [true, false, false, false, false, false, false, false]).getD 0 false

/-- The round constant bit `RC[z]` of round `ir` (3.2.5): `RC[2^j - 1] = rc(j + 7 ir)`, `j ≤ 6`. -/
def RC (ir : Nat) (z : Fin 64) : Bool :=
  (List.range 7).any fun j => z.val == 2 ^ j - 1 && rc (j + 7 * ir)

/-- 3.2.5 -/
def iota (ir : Nat) (A : State) : State := fun x y z =>
  if x = 0 ∧ y = 0 then A x y z ^^ RC ir z else A x y z

/-- 3.3 -/
def Rnd (A : State) (ir : Nat) : State := iota ir (chi (pi (rho (theta A))))

/-- 3.1.2: string to state array, `A[x,y,z] = S[w(5y+x)+z]`. -/
def toState (S : List Bool) : State := fun x y z => S.getD (64 * (5 * y.val + x.val) + z.val) false

/-- 3.1.3: state array to string. -/
def ofState (A : State) : List Bool :=
  (List.range 1600).map fun i =>
    A (Fin.ofNat 5 (i / 64)) (Fin.ofNat 5 (i / 320)) (Fin.ofNat 64 i)

/-- `KECCAK-p[1600, 24] = KECCAK-f[1600]`. -/
def keccakF (S : List Bool) : List Bool := ofState ((List.range 24).foldl Rnd (toState S))

/-- 5.1: `pad10*1(x, m)`. -/
def pad101 (x m : Nat) : List Bool :=
  [true] ++ List.replicate ((x - (m + 2) % x) % x) false ++ [true]

def bxor (a b : List Bool) : List Bool := List.zipWith (· ^^ ·) a b

/-- Section 4, absorbing phase: xor each rate-size piece (extended by zeros) into the state and apply the
permutation. -/
def absorb (r : Nat) (P : List Bool) : List Bool :=
  (List.range (P.length / r)).foldl
    (fun S i => keccakF (bxor S ((P.drop (i * r)).take r ++ List.replicate (1600 - r) false)))
    (List.replicate 1600 false)

/-- Section 4, squeezing phase: `j` rate-size pieces, the state being permuted between pieces. -/
def squeeze (r : Nat) : Nat → List Bool → List Bool
  | 0, _ => []
  | j + 1, S => S.take r ++ squeeze r j (keccakF S)

/-- `SPONGE[KECCAK-f[1600], pad10*1, r](N, d)`. -/
def sponge (r : Nat) (N : List Bool) (d : Nat) : List Bool :=
  (squeeze r (d / r + 1) (absorb r (N ++ pad101 r N.length))).take d

/-- Appendix B.1: bytes to bits, least significant bit first. -/
def bytesToBits (M : Bytes) : List Bool :=
  M.flatMap fun b => (List.range 8).map fun i => b.toNat.testBit i

/-- Appendix B.1: bits to bytes. -/
def bitsToBytes (l : List Bool) : Bytes :=
  (List.range (l.length / 8)).map fun i =>
    UInt8.ofNat (((List.range 8).map fun j => 2 ^ j * (l.getD (8 * i + j) false).toNat).sum)

/-- `SHAKE256(M, 8*outLen)` on byte strings (6.2, 6.1: capacity 512, suffix `1111`). -/
def shake256 (M : Bytes) (outLen : Nat) : Bytes :=
  bitsToBytes (sponge (1600 - 512) (bytesToBits M ++ [true, true, true, true]) (8 * outLen))

end Spec.Keccak
