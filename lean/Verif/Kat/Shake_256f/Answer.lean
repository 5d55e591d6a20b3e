import Verif.Kat.Shake_256f.P3
import Verif.Kat.Final
/-!
# Known answer for shake_256f: parts of the signature, checked by the kernel

Written by tools/katgen.py from testvector.h.
-/
set_option Elab.async false
noncomputable section
namespace Kat.Shake_256f
open Spec Spec.Slh Model

/-- The key and the hash of the signature. -/
theorem kat :
    (Properties.standardKey .shake_256f ((List.range (3 * P.n)).map UInt8.ofNat)).drop (2 * P.n) = S256.enc4 [0x40414243, 0x44454647, 0x48494a4b, 0x4c4d4e4f, 0x50515253, 0x54555657, 0x58595a5b, 0x5c5d5e5f, 0x818d7e76, 0xbeef979b, 0x5bbf9161, 0xfdefa21b, 0xd0fe0bfe, 0x19157a57, 0x11a8de8a, 0x8f6878e6] ∧
    Sha256.hash (Properties.stdSig .shake_256f ((List.range (3 * P.n)).map UInt8.ofNat) opt [97, 98, 99]) = S256.enc4 [0xccbfec36, 0x806e06dc, 0xd304686e, 0xfc10ba9d, 0xaecaedab, 0xf93833e3, 0x85bfc1d5, 0x2bc3c514] := by
  have h := key_sig .shake_256f (K.enc8 prf) opt [97, 98, 99] (by decide +kernel) (by decide +kernel) (by decide +kernel) (by decide +kernel) _ top (by decide +kernel) _ sig
  refine ⟨h.1.trans (by decide +kernel), ?_⟩
  rw [h.2, K.enc8_conv]
  exact S256.Seg.hash (S256.Seg.app r0 (S256.Seg.app r1 (S256.Seg.app r2 (S256.Seg.app r3 (S256.Seg.app r4 (S256.Seg.app r5 (S256.Seg.app r6 r7))))))) pad bound (by decide)


end Kat.Shake_256f
