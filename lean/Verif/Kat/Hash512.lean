import Verif.Kat.Sha512d
/-!
# SHA-512 of one message, on numbers
-/
noncomputable section
namespace Kat.S512
open Spec Spec.Sha512

/-- The hash words of a padded message. -/
def hashWords (ws : List Nat) : List Nat :=
  absorb 1 18446744073709551615 (Nat.div ws.length 16) ws 0x6a09e667f3bcc908 0xbb67ae8584caa73b 0x3c6ef372fe94f82b 0xa54ff53a5f1d36f1 0x510e527fade682d1 0x9b05688c2b3e6c1f 0x1f83d9abfb41bd6b 0x5be0cd19137e2179
    fun a b c d e f g h => [a, b, c, d, e, f, g, h]

theorem pw_one (u : Unit → UInt64) : pw 128 [()] u = (u ()).toNat := by
  unfold pw; rw [pk, pk]; omega

theorem hash_of_pad (M : Bytes) (n : Nat) (ws : List Nat) (hn : ws.length = 16 * n) (hw : ∀ w ∈ ws, w < 2 ^ 64) (hp : pad M = enc8 ws) :
    Sha512.hash M = enc8 (hashWords ws) := by
  rw [hash_words M n ws hn hp]
  congr 1
  have := absorb_pw (L := [()]) (Nat.le_refl 128) n (ws.map fun w _ => UInt64.ofNat w) (by rw [List.length_map]; exact hn) (fun _ => H0) fun a b c d e f g h => [a, b, c, d, e, f, g, h]
  simp only [pw_one, List.map_map] at this
  have e1 : (ws.map ((pw 128 [()]) ∘ fun w _ => UInt64.ofNat w)) = ws := by
    refine Eq.trans (List.map_congr_left fun w h => ?_) (List.map_id ws)
    show pw 128 [()] (fun _ => UInt64.ofNat w) = w
    rw [pw_one]; exact Nat.mod_eq_of_lt (hw w h)
  rw [e1] at this
  unfold hashWords
  rw [← Model.Sha512.H0_eq] at this ⊢
  rw [show Nat.div ws.length 16 = n by show ws.length / 16 = n; omega]
  refine Eq.trans ?_ this.symm
  rfl

theorem length_pad (M : Bytes) : ∃ n, (pad M).length = 16 * n * 8 := by
  refine ⟨(M.length + 17 + (128 - (M.length + 17) % 128) % 128) / 128, ?_⟩
  unfold pad
  simp only [List.length_append, List.length_cons, List.length_nil, List.length_replicate, Model.length_toByte]
  omega

/-- SHA-512 on numbers. -/
def hashF (M : Bytes) : Bytes := enc8 (hashWords (wordsOf 8 (pad M)))

theorem hashF_eq : Sha512.hash = hashF := by
  funext M
  obtain ⟨n, hn⟩ := length_pad M
  refine hash_of_pad M n _ ?_ (wordsOf_lt 8 _) (wordsOf_bytes 8 (by omega) _ _ hn).symm
  unfold wordsOf
  rw [List.length_map, blocks, List.length_map, List.length_range]
  omega

end Kat.S512
