import Verif.Kat.Sha2_128s.P4
import Verif.Kat.Final
/-!
# Known answer for sha2_128s: parts of the signature, checked by the kernel

Written by tools/katgen.py from testvector.h.
-/
set_option Elab.async false
noncomputable section
namespace Kat.Sha2_128s
open Spec Spec.Slh Model

/-- The key and the hash of the signature. -/
theorem kat :
    (Properties.standardKey .sha2_128s ((List.range (3 * P.n)).map UInt8.ofNat)).drop (2 * P.n) = S256.enc4 [0x20212223, 0x24252627, 0x28292a2b, 0x2c2d2e2f, 0x990ce629, 0x8792b128, 0x846a8e4a, 0x3a68954c] ∧
    Sha256.hash (Properties.stdSig .sha2_128s ((List.range (3 * P.n)).map UInt8.ofNat) opt [97, 98, 99]) = S256.enc4 [0x21f1080f, 0x4699ab6d, 0xbf77a13d, 0x3942a70a, 0x4beae74c, 0xb4ace754, 0x30c7383e, 0xadb2fa1] := by
  have h := key_sig .sha2_128s (S256.enc4 prf) opt [97, 98, 99] (by decide +kernel) (by decide +kernel) (by decide +kernel) (by decide +kernel) _ top (by decide +kernel) _ sig
  refine ⟨h.1.trans (by decide +kernel), ?_⟩
  rw [h.2]
  exact S256.Seg.hash (S256.Seg.app r0 r1) pad bound (by decide)


end Kat.Sha2_128s
