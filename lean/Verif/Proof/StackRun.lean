import Verif.Proof.StackSign
/-!
# Whole calls and runs; chains of calls are short, and `need` bounds them
-/
namespace Leak
open Model Spec.Stack Model.Stack

/-- Every initial part of a log that nests leaves a chain of calls. -/
theorem walk_prefix {R : List CFn} {G : CFn → List CFn} {l q : List Ev} {τ : List CFn} (h : walk R G [] l = some τ) (hq : q <+: l) : Chain R G (active q) := by
  obtain ⟨t, rfl⟩ := hq
  rw [walk_append] at h
  rcases hw : walk R G [] q with _ | σ
  · rw [hw] at h; cases h
  · have := walk_active R G [] σ q hw
    unfold active
    rw [this]
    exact walk_chain R G [] σ q hw trivial

/-- The height of a function in the call graph. -/
def rank : CFn → Nat
  | .compress | .sha512_compress | .KeccakF1600_StatePermute => 1
  | .ts_SHA256_update | .ts_SHA512_update | .keccak_inc_absorb | .keccak_inc_squeeze => 2
  | .ts_SHA256_final_trunc | .ts_SHA512_final_trunc | .ts_shake256_inc_absorb | .ts_shake256_inc_squeeze => 3
  | .ts_SHA256_final | .ts_SHA512_final => 4
  | .ts_shake256_inc_init | .ts_shake256_inc_finalize => 1
  | .ts_sha256_init_ctx | .ts_sha512_init_ctx => 3
  | .ts_sha2_prf | .ts_sha2_f_simple => 4
  | .ts_sha2_L1_prf_msg | .ts_sha2_L1_hash_msg | .ts_sha2_L35_prf_msg | .ts_sha2_L35_hash_msg => 5
  | .ts_sha2_L1_init_t_simple | .ts_sha2_L1_next_t_simple | .ts_sha2_L1_final_t_simple => 4
  | .ts_sha2_L35_init_t_simple | .ts_sha2_L35_next_t_simple | .ts_sha2_L35_final_t_simple => 4
  | .ts_sha2_L1_prehash => 3
  | .ts_sha2_L35_prehash => 4
  | .ts_shake256_prf_msg | .ts_shake256_hash_msg | .ts_shake256_prf | .ts_shake256_init_t_simple | .ts_shake256_next_t_simple | .ts_shake256_final_t_simple => 4
  | .ts_shake256_f_simple => 5
  | .set_layer_adr | .set_tree_adr | .set_type_adr | .set_keypair_adr | .set_tree_height_adr | .set_tree_index_adr => 1
  | .set_fors_prf_adr | .ts_set_fors_leaf_adr | .set_wots_prf_adr | .ts_set_wots_f_adr | .ts_set_merkle_adr | .ts_set_fors_root_adr
  | .ts_set_wots_header_adr => 2
  | .fors_prf | .wots_prf => 5
  | .fors_leaf | .ts_wots_leaf | .generate_next_wots_hash => 6
  | .ts_merkle_path => 7
  | .ts_convert_message_hash | .ts_set_up_wots_signature => 1
  | .next_auth_path => 5
  | .set_up_wots_verify_signature => 5
  | .ts_init_sign | .ts_sign | .ts_gen_key | .ts_init_verify | .ts_update_verify => 8

theorem rank_lt (opt : Bool) (F : Fam) (g h : CFn) (hm : h ∈ callees opt F g) : rank h < rank g := by
  cases opt <;> cases F <;> cases g <;> revert hm <;> revert h <;> decide

theorem rank_le (g : CFn) : rank g ≤ 8 := by cases g <;> decide

theorem rank_pos (g : CFn) : 0 < rank g := by cases g <;> decide

/-- In a chain of calls the functions further out are higher. -/
theorem chain_lt {R : List CFn} {opt : Bool} {F : Fam} {σ : List CFn} {h : CFn} (hc : Chain R (callees opt F) (h :: σ)) : ∀ g ∈ σ, rank h < rank g := by
  induction σ generalizing h with
  | nil => intro g hg; cases hg
  | cons k σ ih =>
    intro g hg
    have h1 := rank_lt opt F k h hc.1
    rcases List.mem_cons.1 hg with rfl | hg
    · exact h1
    · exact Nat.lt_trans h1 (ih hc.2 g hg)

theorem chain_sub {R : List CFn} {G : CFn → List CFn} {σ : List CFn} {h : CFn} (hc : Chain R G (h :: σ)) : Chain R G σ := chain_tail hc

theorem chain_nodup {R : List CFn} {opt : Bool} {F : Fam} {σ : List CFn} (hc : Chain R (callees opt F) σ) : σ.Nodup := by
  induction σ with
  | nil => exact List.nodup_nil
  | cons h σ ih => exact List.nodup_cons.2 ⟨fun hm => Nat.lt_irrefl _ (chain_lt hc h hm), ih (chain_sub hc)⟩

theorem chain_length {R : List CFn} {opt : Bool} {F : Fam} {σ : List CFn} {h : CFn} (hc : Chain R (callees opt F) (h :: σ)) : rank h + σ.length ≤ 8 := by
  induction σ generalizing h with
  | nil => exact rank_le h
  | cons k σ ih =>
    have h1 := rank_lt opt F k h hc.1
    have := ih hc.2
    simp only [List.length_cons]
    omega

theorem le_largest {l : List Nat} {a : Nat} (h : a ∈ l) : a ≤ largest l := by
  induction l with
  | nil => cases h
  | cons b l ih =>
    unfold largest
    rcases List.mem_cons.1 h with rfl | h
    · exact Nat.le_max_left _ _
    · exact Nat.le_trans (ih h) (Nat.le_max_right _ _)

theorem need_callee (G : CFn → List CFn) (fr lf : CFn → Nat) (d : Nat) {g h : CFn} (hm : h ∈ G g) : need G fr lf d h + fr g ≤ need G fr lf (d + 1) g := by
  have : need G fr lf d h ≤ largest ((G g).map (need G fr lf d)) := le_largest (List.mem_map.2 ⟨h, hm, rfl⟩)
  show _ ≤ fr g + max (lf g) (largest ((G g).map (need G fr lf d)))
  omega

theorem need_mono_depth (G : CFn → List CFn) (fr lf : CFn → Nat) (d : Nat) (g : CFn) : need G fr lf d g ≤ need G fr lf (d + 1) g := by
  induction d generalizing g with
  | zero => exact Nat.zero_le _
  | succ d ih =>
    show fr g + max (lf g) (largest ((G g).map (need G fr lf d))) ≤ fr g + max (lf g) (largest ((G g).map (need G fr lf (d + 1))))
    have : ∀ l : List CFn, largest (l.map (need G fr lf d)) ≤ largest (l.map (need G fr lf (d + 1))) := by
      intro l
      induction l with
      | nil => exact Nat.le_refl _
      | cons a l ihl =>
        have := ih a
        show max _ (largest (l.map _)) ≤ max _ (largest (l.map _))
        omega
    have := this (G g)
    omega

/-- The frames of a chain and what its innermost function may need fit into what its outermost function may need. -/
theorem chain_need {R : List CFn} {G : CFn → List CFn} (fr lf : CFn → Nat) {σ : List CFn} {h : CFn} (hc : Chain R G (h :: σ)) (d : Nat) :
    ∃ r ∈ R, need G fr lf d h + (σ.map fr).sum ≤ need G fr lf (d + σ.length) r := by
  induction σ generalizing h d with
  | nil => exact ⟨h, hc, Nat.le_refl _⟩
  | cons g σ ih =>
    obtain ⟨r, hr, hle⟩ := ih hc.2 (d + 1)
    refine ⟨r, hr, ?_⟩
    have := need_callee G fr lf d hc.1
    simp only [List.map_cons, List.sum_cons, List.length_cons]
    rw [show d + (σ.length + 1) = d + 1 + σ.length by omega]
    omega

theorem need_le_depth (G : CFn → List CFn) (fr lf : CFn → Nat) {d e : Nat} (h : d ≤ e) (g : CFn) : need G fr lf d g ≤ need G fr lf e g := by
  induction h with
  | refl => exact Nat.le_refl _
  | step _ ih => exact Nat.le_trans ih (need_mono_depth G fr lf _ g)

theorem chain_occupied {R : List CFn} {opt : Bool} {F : Fam} (fr lf : CFn → Nat) {σ : List CFn} (hc : Chain R (callees opt F) σ) :
    occupied fr lf σ ≤ largest (R.map (need (callees opt F) fr lf 8)) := by
  match σ, hc with
  | [], _ => exact Nat.zero_le _
  | h :: σ, hc =>
    obtain ⟨r, hr, hle⟩ := chain_need fr lf hc 1
    have hl := chain_length hc
    have hp := rank_pos h
    have h1 := need_le_depth (callees opt F) fr lf (show 1 + σ.length ≤ 8 by omega) r
    have h2 : need (callees opt F) fr lf 8 r ≤ largest (R.map (need (callees opt F) fr lf 8)) := le_largest (List.mem_map.2 ⟨r, hr, rfl⟩)
    have h3 : lf h + fr h ≤ need (callees opt F) fr lf 1 h := by
      show _ ≤ fr h + max (lf h) _
      have := Nat.le_max_left (lf h) (largest ((callees opt F h).map (need (callees opt F) fr lf 0)))
      omega
    show lf h + fr h + (σ.map fr).sum ≤ _
    omega

end Leak
