import Verif.Kat.Sha2_256f.P3
import Verif.Kat.Final
/-!
# Known answer for sha2_256f: parts of the signature, checked by the kernel

Written by tools/katgen.py from testvector.h.
-/
set_option Elab.async false
noncomputable section
namespace Kat.Sha2_256f
open Spec Spec.Slh Model

/-- The key and the hash of the signature. -/
theorem kat :
    (Properties.standardKey .sha2_256f ((List.range (3 * P.n)).map UInt8.ofNat)).drop (2 * P.n) = S256.enc4 [0x40414243, 0x44454647, 0x48494a4b, 0x4c4d4e4f, 0x50515253, 0x54555657, 0x58595a5b, 0x5c5d5e5f, 0x42cffe64, 0xddbd6731, 0x6375268, 0x4df77c8b, 0x58c225dc, 0x6b491208, 0x916b654e, 0xa1393176] ∧
    Sha256.hash (Properties.stdSig .sha2_256f ((List.range (3 * P.n)).map UInt8.ofNat) opt [97, 98, 99]) = S256.enc4 [0x980f0557, 0x1cd023dd, 0xcf05ecb9, 0xcf9877ed, 0xe88a3770, 0x8dacee20, 0xfda65d4, 0x4b3be1ba] := by
  have h := key_sig .sha2_256f (S256.enc4 prf) opt [97, 98, 99] (by decide +kernel) (by decide +kernel) (by decide +kernel) (by decide +kernel) _ top (by decide +kernel) _ sig
  refine ⟨h.1.trans (by decide +kernel), ?_⟩
  rw [h.2]
  exact S256.Seg.hash (S256.Seg.app r0 (S256.Seg.app r1 (S256.Seg.app r2 (S256.Seg.app r3 (S256.Seg.app r4 (S256.Seg.app r5 (S256.Seg.app r6 r7))))))) pad bound (by decide)


end Kat.Sha2_256f
