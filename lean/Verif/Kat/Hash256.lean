import Verif.Kat.Sha256d
/-!
# SHA-256 of one message, on numbers
-/
noncomputable section
namespace Kat.S256
open Spec Spec.Sha256

/-- The hash words of a padded message. -/
def hashWords (ws : List Nat) : List Nat :=
  absorb 1 4294967295 (Nat.div ws.length 16) ws 0x6A09E667 0xBB67AE85 0x3C6EF372 0xA54FF53A 0x510E527F 0x9B05688C 0x1F83D9AB 0x5BE0CD19
    fun a b c d e f g h => [a, b, c, d, e, f, g, h]

theorem pw_one (u : Unit → UInt32) : pw 64 [()] u = (u ()).toNat := by
  unfold pw; rw [pk, pk]; omega

theorem hash_of_pad (M : Bytes) (n : Nat) (ws : List Nat) (hn : ws.length = 16 * n) (hw : ∀ w ∈ ws, w < 2 ^ 32) (hp : pad M = enc4 ws) :
    Sha256.hash M = enc4 (hashWords ws) := by
  rw [hash_words M n ws hn hp]
  congr 1
  have := absorb_pw (L := [()]) (Nat.le_refl 64) n (ws.map fun w _ => UInt32.ofNat w) (by rw [List.length_map]; exact hn) (fun _ => H0) fun a b c d e f g h => [a, b, c, d, e, f, g, h]
  simp only [pw_one, List.map_map] at this
  have e1 : (ws.map ((pw 64 [()]) ∘ fun w _ => UInt32.ofNat w)) = ws := by
    refine Eq.trans (List.map_congr_left fun w h => ?_) (List.map_id ws)
    show pw 64 [()] (fun _ => UInt32.ofNat w) = w
    rw [pw_one]; exact Nat.mod_eq_of_lt (hw w h)
  rw [e1] at this
  unfold hashWords
  rw [← Model.Sha256.H0_eq] at this ⊢
  rw [show Nat.div ws.length 16 = n by show ws.length / 16 = n; omega]
  refine Eq.trans ?_ this.symm
  rfl

theorem length_pad (M : Bytes) : ∃ n, (pad M).length = 16 * n * 4 := by
  refine ⟨(M.length + 9 + (64 - (M.length + 9) % 64) % 64) / 64, ?_⟩
  unfold pad
  simp only [List.length_append, List.length_cons, List.length_nil, List.length_replicate, Model.length_toByte]
  omega

/-- SHA-256 on numbers. -/
def hashF (M : Bytes) : Bytes := enc4 (hashWords (wordsOf 4 (pad M)))

theorem hashF_eq : Sha256.hash = hashF := by
  funext M
  obtain ⟨n, hn⟩ := length_pad M
  refine hash_of_pad M n _ ?_ (wordsOf_lt 4 _) (wordsOf_bytes 4 (by omega) _ _ hn).symm
  unfold wordsOf
  rw [List.length_map, blocks, List.length_map, List.length_range]
  omega

/-- Padding of words. -/
def padW (ws : List Nat) : List Nat :=
  ws ++ (2147483648 :: (List.replicate (Nat.mod (Nat.sub 29 (Nat.mod ws.length 16)) 16) 0 ++ [Nat.div (Nat.mul 32 ws.length) 4294967296, Nat.mod (Nat.mul 32 ws.length) 4294967296]))

theorem pad_words (ws : List Nat) : pad (enc4 ws) = enc4 (padW ws) := by
  unfold pad padW
  rw [enc4_append, length_enc4]
  rw [← List.singleton_append (l := _ ++ _)]
  rw [enc4_append, enc4_append, enc4_zeros, show enc4 [2147483648] = [0x80] ++ List.replicate 3 0 from rfl, List.append_assoc, List.append_assoc, List.append_assoc]
  congr 2
  rw [← List.append_assoc, List.replicate_append_replicate]
  congr 1
  · congr 1
    show _ = 3 + 4 * ((29 - ws.length % 16) % 16)
    omega
  · show toByte _ 8 = toByte (32 * ws.length / 4294967296) 4 ++ (toByte (32 * ws.length % 4294967296) 4 ++ [])
    rw [List.append_nil, toByte_append]
    apply toByte_congr
    rw [show (256 : Nat) ^ 4 = 4294967296 from rfl, show (256 : Nat) ^ (4 + 4) = 18446744073709551616 from rfl]
    omega

theorem hash_long (ws : List Nat) (hw : ∀ w ∈ ws, w < 2 ^ 32) (hl : ws.length < 2 ^ 58) : Sha256.hash (enc4 ws) = enc4 (hashWords (padW ws)) := by
  have e : (padW ws).length = ws.length + 1 + (29 - ws.length % 16) % 16 + 2 := by
    unfold padW
    simp only [List.length_append, List.length_cons, List.length_replicate, List.length_nil]
    show _ + ((29 - ws.length % 16) % 16 + _ + 1) = _
    omega
  refine hash_of_pad _ ((ws.length + 18) / 16) _ (by rw [e]; omega) (fun w h => ?_) (pad_words ws)
  unfold padW at h
  rw [List.mem_append, List.mem_cons, List.mem_append, List.mem_replicate, List.mem_cons, List.mem_singleton] at h
  rcases h with h | h | h | h | h
  · exact hw w h
  · omega
  · omega
  · rw [h]; show 32 * ws.length / 4294967296 < _; omega
  · rw [h]; exact Nat.mod_lt _ (by omega)

end Kat.S256
