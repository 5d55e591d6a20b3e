import Verif.Kat.Sha2_256s.P5
import Verif.Kat.Final
/-!
# Known answer for sha2_256s: parts of the signature, checked by the kernel

Written by tools/katgen.py from testvector.h.
-/
set_option Elab.async false
noncomputable section
namespace Kat.Sha2_256s
open Spec Spec.Slh Model

/-- The key and the hash of the signature. -/
theorem kat :
    (Properties.standardKey .sha2_256s ((List.range (3 * P.n)).map UInt8.ofNat)).drop (2 * P.n) = S256.enc4 [0x40414243, 0x44454647, 0x48494a4b, 0x4c4d4e4f, 0x50515253, 0x54555657, 0x58595a5b, 0x5c5d5e5f, 0xda7163e6, 0x1352515, 0xbc0f06f9, 0xf4f44be7, 0x1a5a65ee, 0x9dca5575, 0xcf4a7b6d, 0x4a87d6e2] ∧
    Sha256.hash (Properties.stdSig .sha2_256s ((List.range (3 * P.n)).map UInt8.ofNat) opt [97, 98, 99]) = S256.enc4 [0x361b0857, 0x16ab0e93, 0xf89d37e, 0x8c0a014d, 0x747145d0, 0x7a7e1825, 0xffc67d80, 0xc629cf26] := by
  have h := key_sig .sha2_256s (S256.enc4 prf) opt [97, 98, 99] (by decide +kernel) (by decide +kernel) (by decide +kernel) (by decide +kernel) _ top (by decide +kernel) _ sig
  refine ⟨h.1.trans (by decide +kernel), ?_⟩
  rw [h.2]
  exact S256.Seg.hash (S256.Seg.app r0 (S256.Seg.app r1 (S256.Seg.app r2 (S256.Seg.app r3 r4)))) pad bound (by decide)


end Kat.Sha2_256s
