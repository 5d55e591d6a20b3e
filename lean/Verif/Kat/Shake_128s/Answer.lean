import Verif.Kat.Shake_128s.P4
import Verif.Kat.Final
/-!
# Known answer for shake_128s: parts of the signature, checked by the kernel

Written by tools/katgen.py from testvector.h.
-/
set_option Elab.async false
noncomputable section
namespace Kat.Shake_128s
open Spec Spec.Slh Model

/-- The key and the hash of the signature. -/
theorem kat :
    (Properties.standardKey .shake_128s ((List.range (3 * P.n)).map UInt8.ofNat)).drop (2 * P.n) = S256.enc4 [0x20212223, 0x24252627, 0x28292a2b, 0x2c2d2e2f, 0x89fd81fd, 0xbb5b9412, 0x9b14761b, 0xdc6bf682] ∧
    Sha256.hash (Properties.stdSig .shake_128s ((List.range (3 * P.n)).map UInt8.ofNat) opt [97, 98, 99]) = S256.enc4 [0x1f64c409, 0x5b4a56ed, 0xa27bf585, 0x937577e, 0x560dc648, 0x539c73ad, 0x5391da29, 0x1cb00727] := by
  have h := key_sig .shake_128s (K.enc8 prf) opt [97, 98, 99] (by decide +kernel) (by decide +kernel) (by decide +kernel) (by decide +kernel) _ top (by decide +kernel) _ sig
  refine ⟨h.1.trans (by decide +kernel), ?_⟩
  rw [h.2, K.enc8_conv]
  exact S256.Seg.hash (S256.Seg.app r0 r1) pad bound (by decide)


end Kat.Shake_128s
