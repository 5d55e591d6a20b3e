import Verif.Kat.Nums
import Verif.Properties.Clients
/-!
# From the parts of a signature to the known answer
-/
noncomputable section
namespace Kat
open Spec Spec.Slh Model Properties

variable {O : Ops} {enc : List Nat → Bytes} {pkSeed skSeed : Bytes}

/-- The key and the signature of the standard for the bytes 0, 1, 2, …. -/
theorem key_sig (x : PsName) (skPrf opt M : Bytes) (hb : (List.range (3 * x.P.n)).map UInt8.ofNat = skSeed ++ skPrf ++ pkSeed)
    (h1 : skSeed.length = x.P.n) (h2 : skPrf.length = x.P.n) (h3 : pkSeed.length = x.P.n) (root : Bytes) (hr : pkRoot x.P x.fns skSeed pkSeed = root) (h4 : root.length = x.P.n)
    (sig : Bytes) (hs : (signBlocks x.P x.fns skSeed pkSeed skPrf root opt M).flatten = sig) :
    (standardKey x ((List.range (3 * x.P.n)).map UInt8.ofNat)).drop (2 * x.P.n) = pkSeed ++ root ∧ stdSig x ((List.range (3 * x.P.n)).map UInt8.ofNat) opt M = sig := by
  have e : standardKey x ((List.range (3 * x.P.n)).map UInt8.ofNat) = skSeed ++ skPrf ++ pkSeed ++ root := by
    unfold standardKey keygen
    rw [hb]
    generalize x.P.n = n at *
    have e1 : (skSeed ++ skPrf ++ pkSeed).take n = skSeed := by rw [List.append_assoc, List.take_left' h1]
    have e2 : ((skSeed ++ skPrf ++ pkSeed).drop n).take n = skPrf := by rw [List.append_assoc, List.drop_left' h1, List.take_left' h2]
    have e3 : ((skSeed ++ skPrf ++ pkSeed).drop (2 * n)).take n = pkSeed := by
      rw [List.drop_left' (by rw [List.length_append]; omega), List.take_of_length_le (by omega)]
    rw [e1, e2, e3, hr]
  unfold stdSig Spec.Slh.sign
  rw [e, ← hs]
  generalize x.P.n = n at *
  constructor
  · rw [List.append_assoc, List.drop_left' (by rw [List.length_append]; omega)]
  · have e1 : (skSeed ++ skPrf ++ pkSeed ++ root).take n = skSeed := by rw [List.append_assoc, List.append_assoc, List.take_left' h1]
    have e2 : ((skSeed ++ skPrf ++ pkSeed ++ root).drop n).take n = skPrf := by rw [List.append_assoc, List.append_assoc, List.drop_left' h1, List.take_left' h2]
    have e3 : ((skSeed ++ skPrf ++ pkSeed ++ root).drop (2 * n)).take n = pkSeed := by
      rw [List.append_assoc, List.drop_left' (by rw [List.length_append]; omega), List.take_left' h3]
    have e4 : ((skSeed ++ skPrf ++ pkSeed ++ root).drop (3 * n)).take n = root := by
      rw [List.drop_left' (by rw [List.length_append, List.length_append]; omega), List.take_of_length_le (by omega)]
    rw [e1, e2, e3, e4]

end Kat
