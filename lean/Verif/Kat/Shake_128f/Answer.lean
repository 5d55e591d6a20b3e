import Verif.Kat.Shake_128f.P2
import Verif.Kat.Final
/-!
# Known answer for shake_128f: parts of the signature, checked by the kernel

Written by tools/katgen.py from testvector.h.
-/
set_option Elab.async false
noncomputable section
namespace Kat.Shake_128f
open Spec Spec.Slh Model

/-- The key and the hash of the signature. -/
theorem kat :
    (Properties.standardKey .shake_128f ((List.range (3 * P.n)).map UInt8.ofNat)).drop (2 * P.n) = S256.enc4 [0x20212223, 0x24252627, 0x28292a2b, 0x2c2d2e2f, 0xa90e4715, 0xb9a925c3, 0x32801767, 0xfd786371] ∧
    Sha256.hash (Properties.stdSig .shake_128f ((List.range (3 * P.n)).map UInt8.ofNat) opt [97, 98, 99]) = S256.enc4 [0xd3bf2846, 0xc8994684, 0x376f5956, 0x990b91b0, 0x7587638a, 0x70d11c24, 0x1d3cdadf, 0x7a2cbf5c] := by
  have h := key_sig .shake_128f (K.enc8 prf) opt [97, 98, 99] (by decide +kernel) (by decide +kernel) (by decide +kernel) (by decide +kernel) _ top (by decide +kernel) _ sig
  refine ⟨h.1.trans (by decide +kernel), ?_⟩
  rw [h.2, K.enc8_conv]
  exact S256.Seg.hash (S256.Seg.app r0 (S256.Seg.app r1 r2)) pad bound (by decide)


end Kat.Shake_128f
