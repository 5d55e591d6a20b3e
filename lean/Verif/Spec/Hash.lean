import Verif.Spec.Sha2
import Verif.Spec.Keccak
import Verif.Spec.Slh
/-!
# The SPHINCS+ hash function families (FIPS 205 section 11) and the 12 parameter sets (Table 2)
-/
namespace Spec

/-- HMAC (FIPS 198-1) over a hash with block size `B`. -/
def hmac (H : Bytes → Bytes) (B : Nat) (key text : Bytes) : Bytes :=
  let k := if key.length ≤ B then key else H key
  let k0 := k ++ List.replicate (B - k.length) 0
  H (k0.map (· ^^^ 0x5c) ++ H (k0.map (· ^^^ 0x36) ++ text))

/-- MGF1 (RFC 8017, B.2.1) over a hash with `hLen`-byte output. -/
def mgf1 (H : Bytes → Bytes) (hLen : Nat) (seed : Bytes) (maskLen : Nat) : Bytes :=
  ((List.range ((maskLen + hLen - 1) / hLen)).flatMap fun c => H (seed ++ toByte c 4)).take maskLen

/-- FIPS 205, 11.1: SHAKE256. -/
def shakeFns (n : Nat) : HashFns where
  F seed a M := Keccak.shake256 (seed ++ a.enc ++ M) n
  T seed a M := Keccak.shake256 (seed ++ a.enc ++ M) n
  PRF seed sk a := Keccak.shake256 (seed ++ a.enc ++ sk) n
  PRFmsg skPrf opt M := Keccak.shake256 (skPrf ++ opt ++ M) n
  Hmsg R seed root M m := Keccak.shake256 (R ++ seed ++ root ++ M) m

/-- `SHA-256(PK.seed ‖ toByte(0, 64-n) ‖ ADRS^c ‖ M)` truncated to `n` bytes. -/
def sha256Block (n : Nat) (seed : Bytes) (a : Adrs) (M : Bytes) : Bytes :=
  (Sha256.hash (seed ++ List.replicate (64 - n) 0 ++ a.encc ++ M)).take n

/-- `SHA-512(PK.seed ‖ toByte(0, 128-n) ‖ ADRS^c ‖ M)` truncated to `n` bytes. -/
def sha512Block (n : Nat) (seed : Bytes) (a : Adrs) (M : Bytes) : Bytes :=
  (Sha512.hash (seed ++ List.replicate (128 - n) 0 ++ a.encc ++ M)).take n

/-- FIPS 205, 11.2.1: SHA2, security category 1. -/
def sha2L1Fns (n : Nat) : HashFns where
  F := sha256Block n
  T := sha256Block n
  PRF seed sk a := sha256Block n seed a sk
  PRFmsg skPrf opt M := (hmac Sha256.hash 64 skPrf (opt ++ M)).take n
  Hmsg R seed root M m :=
    mgf1 Sha256.hash 32 (R ++ seed ++ Sha256.hash (R ++ seed ++ root ++ M)) m

/-- FIPS 205, 11.2.2: SHA2, security categories 3 and 5. -/
def sha2L35Fns (n : Nat) : HashFns where
  F := sha256Block n
  T := sha512Block n
  PRF seed sk a := sha256Block n seed a sk
  PRFmsg skPrf opt M := (hmac Sha512.hash 128 skPrf (opt ++ M)).take n
  Hmsg R seed root M m :=
    mgf1 Sha512.hash 64 (R ++ seed ++ Sha512.hash (R ++ seed ++ root ++ M)) m

/-- Names of the 12 standard instances. -/
inductive Instance
  | sha2_128f | sha2_128s | sha2_192f | sha2_192s | sha2_256f | sha2_256s
  | shake_128f | shake_128s | shake_192f | shake_192s | shake_256f | shake_256s
deriving DecidableEq, Repr

/-- FIPS 205 Table 2. -/
def Instance.params : Instance → Params
  | .sha2_128s | .shake_128s => { n := 16, h := 63, d := 7,  hp := 9, a := 12, k := 14 }
  | .sha2_128f | .shake_128f => { n := 16, h := 66, d := 22, hp := 3, a := 6,  k := 33 }
  | .sha2_192s | .shake_192s => { n := 24, h := 63, d := 7,  hp := 9, a := 14, k := 17 }
  | .sha2_192f | .shake_192f => { n := 24, h := 66, d := 22, hp := 3, a := 8,  k := 33 }
  | .sha2_256s | .shake_256s => { n := 32, h := 64, d := 8,  hp := 8, a := 14, k := 22 }
  | .sha2_256f | .shake_256f => { n := 32, h := 68, d := 17, hp := 4, a := 9,  k := 35 }

/-- FIPS 205 section 11. -/
def Instance.fns : Instance → HashFns
  | .shake_128f | .shake_128s => shakeFns 16
  | .shake_192f | .shake_192s => shakeFns 24
  | .shake_256f | .shake_256s => shakeFns 32
  | .sha2_128f | .sha2_128s => sha2L1Fns 16
  | .sha2_192f | .sha2_192s => sha2L35Fns 24
  | .sha2_256f | .sha2_256s => sha2L35Fns 32

end Spec
