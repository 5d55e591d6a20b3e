import Verif.Kat.Shake_256s.P5
import Verif.Kat.Final
/-!
# Known answer for shake_256s: parts of the signature, checked by the kernel

Written by tools/katgen.py from testvector.h.
-/
set_option Elab.async false
noncomputable section
namespace Kat.Shake_256s
open Spec Spec.Slh Model

/-- The key and the hash of the signature. -/
theorem kat :
    (Properties.standardKey .shake_256s ((List.range (3 * P.n)).map UInt8.ofNat)).drop (2 * P.n) = S256.enc4 [0x40414243, 0x44454647, 0x48494a4b, 0x4c4d4e4f, 0x50515253, 0x54555657, 0x58595a5b, 0x5c5d5e5f, 0x27ea444d, 0xbc8ca9c1, 0x69fd484b, 0x9e977eb7, 0x7a4f2335, 0x50757e02, 0x5cf180ed, 0xe7e8839f] ∧
    Sha256.hash (Properties.stdSig .shake_256s ((List.range (3 * P.n)).map UInt8.ofNat) opt [97, 98, 99]) = S256.enc4 [0x5e4bd0c4, 0x624f3531, 0x44fde49a, 0x98aba8ba, 0x8600c566, 0xc8618215, 0xa11b4171, 0xec2c7fb9] := by
  have h := key_sig .shake_256s (K.enc8 prf) opt [97, 98, 99] (by decide +kernel) (by decide +kernel) (by decide +kernel) (by decide +kernel) _ top (by decide +kernel) _ sig
  refine ⟨h.1.trans (by decide +kernel), ?_⟩
  rw [h.2, K.enc8_conv]
  exact S256.Seg.hash (S256.Seg.app r0 (S256.Seg.app r1 (S256.Seg.app r2 (S256.Seg.app r3 r4)))) pad bound (by decide)


end Kat.Shake_256s
