import Verif.Kat.Sha2_192f.P3
import Verif.Kat.Final
/-!
# Known answer for sha2_192f: parts of the signature, checked by the kernel

Written by tools/katgen.py from testvector.h.
-/
set_option Elab.async false
noncomputable section
namespace Kat.Sha2_192f
open Spec Spec.Slh Model

/-- The key and the hash of the signature. -/
theorem kat :
    (Properties.standardKey .sha2_192f ((List.range (3 * P.n)).map UInt8.ofNat)).drop (2 * P.n) = S256.enc4 [0x30313233, 0x34353637, 0x38393a3b, 0x3c3d3e3f, 0x40414243, 0x44454647, 0x9236cceb, 0xbb3a90ac, 0x2452dd89, 0xde49dab1, 0x340ec024, 0x19a2870e] ∧
    Sha256.hash (Properties.stdSig .sha2_192f ((List.range (3 * P.n)).map UInt8.ofNat) opt [97, 98, 99]) = S256.enc4 [0x1984eace, 0xe62604f7, 0xea0d981, 0x6025689b, 0x5093085c, 0x45ab917e, 0x4984b179, 0xc686dd5c] := by
  have h := key_sig .sha2_192f (S256.enc4 prf) opt [97, 98, 99] (by decide +kernel) (by decide +kernel) (by decide +kernel) (by decide +kernel) _ top (by decide +kernel) _ sig
  refine ⟨h.1.trans (by decide +kernel), ?_⟩
  rw [h.2]
  exact S256.Seg.hash (S256.Seg.app r0 (S256.Seg.app r1 (S256.Seg.app r2 (S256.Seg.app r3 (S256.Seg.app r4 r5))))) pad bound (by decide)


end Kat.Sha2_192f
