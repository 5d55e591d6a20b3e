import Verif.Kat.Sha2_128f.P2
import Verif.Kat.Final
/-!
# Known answer for sha2_128f: parts of the signature, checked by the kernel

Written by tools/katgen.py from testvector.h.
-/
set_option Elab.async false
noncomputable section
namespace Kat.Sha2_128f
open Spec Spec.Slh Model

/-- The key and the hash of the signature. -/
theorem kat :
    (Properties.standardKey .sha2_128f ((List.range (3 * P.n)).map UInt8.ofNat)).drop (2 * P.n) = S256.enc4 [0x20212223, 0x24252627, 0x28292a2b, 0x2c2d2e2f, 0x3b56e816, 0x847f0003, 0x86aeec2e, 0x2bb9e1b5] ∧
    Sha256.hash (Properties.stdSig .sha2_128f ((List.range (3 * P.n)).map UInt8.ofNat) opt [97, 98, 99]) = S256.enc4 [0x641840fb, 0xae505229, 0x31c679cb, 0xc271c592, 0x2c54efd0, 0xabd80aa3, 0xe11ed4ea, 0x4f4e108a] := by
  have h := key_sig .sha2_128f (S256.enc4 prf) opt [97, 98, 99] (by decide +kernel) (by decide +kernel) (by decide +kernel) (by decide +kernel) _ top (by decide +kernel) _ sig
  refine ⟨h.1.trans (by decide +kernel), ?_⟩
  rw [h.2]
  exact S256.Seg.hash (S256.Seg.app r0 (S256.Seg.app r1 r2)) pad bound (by decide)


end Kat.Sha2_128f
