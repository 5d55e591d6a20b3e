import Verif.Kat.Sha2_192s.P5
import Verif.Kat.Final
/-!
# Known answer for sha2_192s: parts of the signature, checked by the kernel

Written by tools/katgen.py from testvector.h.
-/
set_option Elab.async false
noncomputable section
namespace Kat.Sha2_192s
open Spec Spec.Slh Model

/-- The key and the hash of the signature. -/
theorem kat :
    (Properties.standardKey .sha2_192s ((List.range (3 * P.n)).map UInt8.ofNat)).drop (2 * P.n) = S256.enc4 [0x30313233, 0x34353637, 0x38393a3b, 0x3c3d3e3f, 0x40414243, 0x44454647, 0xb6f282ce, 0x116ff59b, 0xce2d9fc4, 0xa67c6031, 0xdabdce32, 0x6c34f541] ∧
    Sha256.hash (Properties.stdSig .sha2_192s ((List.range (3 * P.n)).map UInt8.ofNat) opt [97, 98, 99]) = S256.enc4 [0x58bb300e, 0xa2eddc9f, 0x4d379193, 0x1cac6b91, 0xc1762e65, 0x131e5a66, 0x1c02b81a, 0xdcef0ba3] := by
  have h := key_sig .sha2_192s (S256.enc4 prf) opt [97, 98, 99] (by decide +kernel) (by decide +kernel) (by decide +kernel) (by decide +kernel) _ top (by decide +kernel) _ sig
  refine ⟨h.1.trans (by decide +kernel), ?_⟩
  rw [h.2]
  exact S256.Seg.hash (S256.Seg.app r0 (S256.Seg.app r1 r2)) pad bound (by decide)


end Kat.Sha2_192s
