import Verif.Kat.Shake_192f.P3
import Verif.Kat.Final
/-!
# Known answer for shake_192f: parts of the signature, checked by the kernel

Written by tools/katgen.py from testvector.h.
-/
set_option Elab.async false
noncomputable section
namespace Kat.Shake_192f
open Spec Spec.Slh Model

/-- The key and the hash of the signature. -/
theorem kat :
    (Properties.standardKey .shake_192f ((List.range (3 * P.n)).map UInt8.ofNat)).drop (2 * P.n) = S256.enc4 [0x30313233, 0x34353637, 0x38393a3b, 0x3c3d3e3f, 0x40414243, 0x44454647, 0x3f01b06b, 0xebed020a, 0x45969686, 0x8d115fe8, 0x507ded8d, 0xc08e825d] ∧
    Sha256.hash (Properties.stdSig .shake_192f ((List.range (3 * P.n)).map UInt8.ofNat) opt [97, 98, 99]) = S256.enc4 [0x3f39ee50, 0xb0cc61ea, 0xf4c35fc4, 0xa876011e, 0x5ea415b0, 0xd722f2b0, 0x30f664c6, 0xa78a074c] := by
  have h := key_sig .shake_192f (K.enc8 prf) opt [97, 98, 99] (by decide +kernel) (by decide +kernel) (by decide +kernel) (by decide +kernel) _ top (by decide +kernel) _ sig
  refine ⟨h.1.trans (by decide +kernel), ?_⟩
  rw [h.2, K.enc8_conv]
  exact S256.Seg.hash (S256.Seg.app r0 (S256.Seg.app r1 (S256.Seg.app r2 (S256.Seg.app r3 (S256.Seg.app r4 r5))))) pad bound (by decide)


end Kat.Shake_192f
