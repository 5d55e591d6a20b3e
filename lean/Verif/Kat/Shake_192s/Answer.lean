import Verif.Kat.Shake_192s.P5
import Verif.Kat.Final
/-!
# Known answer for shake_192s: parts of the signature, checked by the kernel

Written by tools/katgen.py from testvector.h.
-/
set_option Elab.async false
noncomputable section
namespace Kat.Shake_192s
open Spec Spec.Slh Model

/-- The key and the hash of the signature. -/
theorem kat :
    (Properties.standardKey .shake_192s ((List.range (3 * P.n)).map UInt8.ofNat)).drop (2 * P.n) = S256.enc4 [0x30313233, 0x34353637, 0x38393a3b, 0x3c3d3e3f, 0x40414243, 0x44454647, 0xeb247f95, 0x5d8eca24, 0xa5860536, 0xc56b2c4d, 0x1e8d8e83, 0x5eb27d2d] ∧
    Sha256.hash (Properties.stdSig .shake_192s ((List.range (3 * P.n)).map UInt8.ofNat) opt [97, 98, 99]) = S256.enc4 [0xcd7d161a, 0x91fcc496, 0x4c08c742, 0xcd4b6abd, 0xbf8138c7, 0x7e6f3c8e, 0x75a38739, 0x4a7792eb] := by
  have h := key_sig .shake_192s (K.enc8 prf) opt [97, 98, 99] (by decide +kernel) (by decide +kernel) (by decide +kernel) (by decide +kernel) _ top (by decide +kernel) _ sig
  refine ⟨h.1.trans (by decide +kernel), ?_⟩
  rw [h.2, K.enc8_conv]
  exact S256.Seg.hash (S256.Seg.app r0 (S256.Seg.app r1 r2)) pad bound (by decide)


end Kat.Shake_192s
