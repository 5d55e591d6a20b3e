import Verif.Proof.MsgHash
/-!
# The hash address setters
-/
namespace Model
open Spec (Adrs toByte toInt)

/-! ## Encoding -/

theorem toByte_add (x a b : Nat) : toByte x (a + b) = toByte (x / 256 ^ b) a ++ toByte x b := by
  induction b generalizing x with
  | zero => simp [toByte]
  | succ b ih =>
    rw [← Nat.add_assoc, toByte, ih, toByte, Nat.div_div_eq_div_mul, ← Nat.pow_succ', List.append_assoc]

theorem toByte_toInt (b : Bytes) : toByte (toInt b) b.length = b := by
  induction b using List.reverseRecOn with
  | nil => rfl
  | append_singleton a x ih =>
    rw [toInt_append, List.length_append, List.length_singleton, toByte]
    have h1 : (256 * toInt a + x.toNat) / 256 = toInt a := by
      have := x.toNat_lt; omega
    have h2 : UInt8.ofNat (256 * toInt a + x.toNat) = x := by
      apply UInt8.toNat_inj.1
      rw [UInt8.toNat_ofNat']
      have := x.toNat_lt; omega
    rw [h1, h2, ih]

theorem drop_toByte (x a b : Nat) : (toByte x (a + b)).drop a = toByte x b := by
  rw [toByte_add, List.drop_left' (length_toByte _ _)]

theorem encc_eq (a : Adrs) : a.encc =
    [UInt8.ofNat a.layer] ++ toByte a.tree 8 ++ [UInt8.ofNat a.type] ++ toByte a.w1 4 ++ toByte a.w2 4 ++
      toByte a.w3 4 := by
  have e : a.enc = toByte (a.layer / 256) 3 ++ [UInt8.ofNat a.layer] ++ toByte (a.tree / 256 ^ 8) 4 ++
      toByte a.tree 8 ++ toByte (a.type / 256) 3 ++ [UInt8.ofNat a.type] ++
      (toByte a.w1 4 ++ toByte a.w2 4 ++ toByte a.w3 4) := by
    rw [Adrs.enc, show (12 : Nat) = 4 + 8 from rfl, toByte_add a.tree]
    rw [show toByte a.layer 4 = toByte (a.layer / 256) 3 ++ [UInt8.ofNat a.layer] from rfl,
      show toByte a.type 4 = toByte (a.type / 256) 3 ++ [UInt8.ofNat a.type] from rfl]
    simp only [List.append_assoc]
  unfold Adrs.encc
  rw [e]
  generalize hA : toByte (a.layer / 256) 3 = A
  generalize hB : toByte (a.tree / 256 ^ 8) 4 = B
  generalize hC : toByte a.tree 8 = C
  generalize hD : toByte (a.type / 256) 3 = D
  generalize hF : toByte a.w1 4 ++ toByte a.w2 4 ++ toByte a.w3 4 = F
  have lA : A.length = 3 := by rw [← hA]; exact length_toByte _ _
  have lB : B.length = 4 := by rw [← hB]; exact length_toByte _ _
  have lC : C.length = 8 := by rw [← hC]; exact length_toByte _ _
  have lD : D.length = 3 := by rw [← hD]; exact length_toByte _ _
  have lF : F.length = 12 := by rw [← hF]; simp [length_toByte]
  simp only []
  have g1 : (A ++ [UInt8.ofNat a.layer] ++ B ++ C ++ D ++ [UInt8.ofNat a.type] ++ F).drop 3 =
      [UInt8.ofNat a.layer] ++ (B ++ C ++ D ++ [UInt8.ofNat a.type] ++ F) := by
    simp only [List.append_assoc]; rw [List.drop_left' lA]
  have g2 : (A ++ [UInt8.ofNat a.layer] ++ B ++ C ++ D ++ [UInt8.ofNat a.type] ++ F).drop 8 =
      C ++ (D ++ [UInt8.ofNat a.type] ++ F) := by
    rw [show A ++ [UInt8.ofNat a.layer] ++ B ++ C ++ D ++ [UInt8.ofNat a.type] ++ F =
      (A ++ [UInt8.ofNat a.layer] ++ B) ++ (C ++ (D ++ [UInt8.ofNat a.type] ++ F)) by simp only [List.append_assoc]]
    rw [List.drop_left' (by simp [lA, lB])]
  have g3 : (A ++ [UInt8.ofNat a.layer] ++ B ++ C ++ D ++ [UInt8.ofNat a.type] ++ F).drop 19 =
      [UInt8.ofNat a.type] ++ F := by
    rw [show A ++ [UInt8.ofNat a.layer] ++ B ++ C ++ D ++ [UInt8.ofNat a.type] ++ F =
      (A ++ [UInt8.ofNat a.layer] ++ B ++ C ++ D) ++ ([UInt8.ofNat a.type] ++ F) by simp only [List.append_assoc]]
    rw [List.drop_left' (by simp [lA, lB, lC, lD])]
  have g4 : (A ++ [UInt8.ofNat a.layer] ++ B ++ C ++ D ++ [UInt8.ofNat a.type] ++ F).drop 20 = F := by
    rw [List.drop_left' (by simp [lA, lB, lC, lD])]
  rw [g1, g2, g3, g4, List.take_left' (by simp), List.take_left' lC, List.take_left' (by simp),
    List.take_of_length_le (by omega), ← hF]
  simp only [List.append_assoc]

theorem enc_eq (a : Adrs) : a.enc = toByte a.layer 4 ++ toByte a.tree 12 ++ toByte a.type 4 ++ toByte a.w1 4 ++
    toByte a.w2 4 ++ toByte a.w3 4 := rfl

/-! ## Setters -/

/-- What the setters need to know about a context. -/
structure AdrCtx (S : Sess) (ctx : Ctx) : Prop where
  ps : ctx.ps = S.ps
  adr : ctx.adr.length = S.cfg.ADR_SIZE

theorem Good.adrCtx {S : Sess} {ctx : Ctx} (g : Good S ctx) : AdrCtx S ctx := ⟨g.ps, g.adr⟩

instance {S : Sess} {ctx : Ctx} : Coe (Good S ctx) (AdrCtx S ctx) := ⟨Good.adrCtx⟩

theorem splice (A B V Z : Bytes) (off n : Nat) (ha : A.length = off) (hb : B.length = n) :
    (A ++ B ++ Z).take off ++ V ++ (A ++ B ++ Z).drop (off + n) = A ++ V ++ Z := by
  rw [List.drop_left' (by simp; omega), List.append_assoc A B Z, List.take_left' ha]

variable {S : Sess} {mem : Mem}

theorem adrIs_sha2 {adr : Bytes} {a : Adrs} (h : S.ps.sha2 = true) :
    S.AdrIs adr a ↔ adr.take 22 = a.encc := by
  unfold Sess.AdrIs; rw [if_pos h]

theorem adrIs_shake {adr : Bytes} {a : Adrs} (h : S.ps.sha2 = false) : S.AdrIs adr a ↔ adr = a.enc := by
  unfold Sess.AdrIs; rw [if_neg (by simp [h])]

theorem sha2Adr_eq {ctx : Ctx} (g : AdrCtx S ctx) : sha2Adr S.E ctx = S.ps.sha2 := by
  unfold sha2Adr; rw [g.ps]; exact S.sha2_eq

theorem adr_ge22 {ctx : Ctx} (g : AdrCtx S ctx) : 22 ≤ ctx.adr.length := by
  rw [g.adr]; unfold Config.ADR_SIZE; split <;> omega

theorem adr_32 {ctx : Ctx} (g : AdrCtx S ctx) (h : S.ps.sha2 = false) : ctx.adr.length = 32 := by
  rw [g.adr]; unfold Config.ADR_SIZE
  have := S.sha2_eq
  rw [h] at this
  simp at this
  rw [if_pos this]

/-- Every address array denotes some address. -/
theorem adr_surj {ctx : Ctx} (g : AdrCtx S ctx) : ∃ a, S.AdrIs ctx.adr a := by
  have h22 := adr_ge22 g
  cases h : S.ps.sha2 with
  | true =>
    let A := ctx.adr
    refine ⟨⟨toInt (A.take 1), toInt ((A.drop 1).take 8), toInt ((A.drop 9).take 1), toInt ((A.drop 10).take 4),
      toInt ((A.drop 14).take 4), toInt ((A.drop 18).take 4)⟩, ?_⟩
    rw [adrIs_sha2 h, encc_eq]
    have one : ∀ b : Bytes, b.length = 1 → [UInt8.ofNat (toInt b)] = b := fun b hb => by
      have := toByte_toInt b
      rw [hb] at this; exact this
    have many : ∀ (b : Bytes) (n : Nat), b.length = n → toByte (toInt b) n = b := fun b n hb => by
      have := toByte_toInt b
      rwa [hb] at this
    have hA : 22 ≤ A.length := h22
    simp only
    rw [one _ (by simp; omega), one _ (by simp; omega), many _ 8 (by simp; omega), many _ 4 (by simp; omega),
      many _ 4 (by simp; omega), many _ 4 (by simp; omega)]
    simp only [← List.take_add]
    rfl
  | false =>
    have h32 := adr_32 g h
    let A := ctx.adr
    refine ⟨⟨toInt (A.take 4), toInt ((A.drop 4).take 12), toInt ((A.drop 16).take 4), toInt ((A.drop 20).take 4),
      toInt ((A.drop 24).take 4), toInt ((A.drop 28).take 4)⟩, ?_⟩
    rw [adrIs_shake h, enc_eq]
    have many : ∀ (b : Bytes) (n : Nat), b.length = n → toByte (toInt b) n = b := fun b n hb => by
      have := toByte_toInt b
      rwa [hb] at this
    have hA : A.length = 32 := h32
    simp only
    rw [many _ 4 (by simp; omega), many _ 12 (by simp; omega), many _ 4 (by simp; omega), many _ 4 (by simp; omega),
      many _ 4 (by simp; omega), many _ 4 (by simp; omega)]
    simp only [← List.take_add]
    rw [List.take_of_length_le (by omega)]

/-- What a setter does: it changes one component of the address. -/
def SetsAdr (S : Sess) (r : C Ctx) (ctx : Ctx) (upd : Adrs → Adrs) : Prop :=
  ∃ adr, r = .ok { ctx with adr := adr } ∧ adr.length = S.cfg.ADR_SIZE ∧
    ∀ a, S.AdrIs ctx.adr a → S.AdrIs adr (upd a)

theorem sets_sha2 {ctx : Ctx} (g : AdrCtx S ctx) (h : S.ps.sha2 = true) (adr' : Bytes) (upd : Adrs → Adrs)
    (hl : adr'.length = ctx.adr.length)
    (hs : ∀ a rest, ctx.adr = a.encc ++ rest → adr' = (upd a).encc ++ rest) :
    SetsAdr S (.ok { ctx with adr := adr' }) ctx upd := by
  refine ⟨adr', rfl, hl.trans g.adr, fun a ha => ?_⟩
  rw [adrIs_sha2 h] at ha ⊢
  rw [hs a (ctx.adr.drop 22) (by rw [← ha, List.take_append_drop]), List.take_left' (length_encc _)]

theorem sets_shake {ctx : Ctx} (g : AdrCtx S ctx) (h : S.ps.sha2 = false) (adr' : Bytes) (upd : Adrs → Adrs)
    (hl : adr'.length = ctx.adr.length)
    (hs : ∀ a, ctx.adr = a.enc → adr' = (upd a).enc) :
    SetsAdr S (.ok { ctx with adr := adr' }) ctx upd := by
  refine ⟨adr', rfl, hl.trans g.adr, fun a ha => ?_⟩
  rw [adrIs_shake h] at ha ⊢
  exact hs a ha

theorem ull_len {p : Bytes} {off n v : Nat} (h : off + n ≤ p.length) :
    (p.take off ++ toByte v n ++ p.drop (off + n)).length = p.length := by
  simp [length_toByte]; omega

theorem set_layer_ok (v : Nat) {ctx : Ctx} (g : AdrCtx S ctx) :
    SetsAdr S (set_layer_adr S.E v ctx) ctx (fun a => { a with layer := v }) := by
  have h22 := adr_ge22 g
  unfold set_layer_adr
  rw [sha2Adr_eq g]
  cases h : S.ps.sha2 with
  | true =>
    rw [if_pos rfl, wr_ok _ (by omega), ok_bind]
    refine sets_sha2 g h _ _ (by simp) fun a rest e => ?_
    rw [e, encc_eq, encc_eq]; rfl
  | false =>
    have h32 := adr_32 g h
    rw [if_neg (by decide), ts_ull_to_bytes_ok _ _ _ _ (by omega), ok_bind]
    refine sets_shake g h _ _ (ull_len (by omega)) fun a e => ?_
    rw [e, enc_eq, enc_eq]
    have := splice [] (toByte a.layer 4) (toByte v 4)
      (toByte a.tree 12 ++ toByte a.type 4 ++ toByte a.w1 4 ++ toByte a.w2 4 ++ toByte a.w3 4) 0 4 rfl (length_toByte _ _)
    simpa only [List.append_assoc, List.nil_append] using this

theorem set_tree_ok (v : Nat) {ctx : Ctx} (g : AdrCtx S ctx) :
    SetsAdr S (set_tree_adr S.E v ctx) ctx (fun a => { a with tree := v }) := by
  have h22 := adr_ge22 g
  unfold set_tree_adr
  rw [sha2Adr_eq g]
  cases h : S.ps.sha2 with
  | true =>
    rw [if_pos rfl, ts_ull_to_bytes_ok _ _ _ _ (by omega), ok_bind]
    refine sets_sha2 g h _ _ (ull_len (by omega)) fun a rest e => ?_
    rw [e, encc_eq, encc_eq]
    have := splice [UInt8.ofNat a.layer] (toByte a.tree 8) (toByte v 8)
      ([UInt8.ofNat a.type] ++ toByte a.w1 4 ++ toByte a.w2 4 ++ toByte a.w3 4 ++ rest) 1 8 rfl (length_toByte _ _)
    simpa only [List.append_assoc] using this
  | false =>
    have h32 := adr_32 g h
    rw [if_neg (by decide), ts_ull_to_bytes_ok _ _ _ _ (by omega), ok_bind]
    refine sets_shake g h _ _ (ull_len (by omega)) fun a e => ?_
    rw [e, enc_eq, enc_eq]
    have := splice (toByte a.layer 4) (toByte a.tree 12) (toByte v 12)
      (toByte a.type 4 ++ toByte a.w1 4 ++ toByte a.w2 4 ++ toByte a.w3 4) 4 12 (length_toByte _ _) (length_toByte _ _)
    simpa only [List.append_assoc] using this

theorem set_type_ok (v : Nat) {ctx : Ctx} (g : AdrCtx S ctx) :
    SetsAdr S (set_type_adr S.E v ctx) ctx (fun a => { a with type := v }) := by
  have h22 := adr_ge22 g
  unfold set_type_adr
  rw [sha2Adr_eq g]
  cases h : S.ps.sha2 with
  | true =>
    rw [if_pos rfl, wr_ok _ (by omega), ok_bind]
    refine sets_sha2 g h _ _ (by simp) fun a rest e => ?_
    rw [e, encc_eq, encc_eq]
    rw [show [UInt8.ofNat a.layer] ++ toByte a.tree 8 ++ [UInt8.ofNat a.type] ++ toByte a.w1 4 ++ toByte a.w2 4 ++
      toByte a.w3 4 ++ rest = ([UInt8.ofNat a.layer] ++ toByte a.tree 8) ++ ([UInt8.ofNat a.type] ++ (toByte a.w1 4 ++
        toByte a.w2 4 ++ toByte a.w3 4 ++ rest)) by simp only [List.append_assoc]]
    rw [List.set_append_right _ _ (by simp [length_toByte])]
    simp [length_toByte]
  | false =>
    have h32 := adr_32 g h
    rw [if_neg (by decide), ts_ull_to_bytes_ok _ _ _ _ (by omega), ok_bind]
    refine sets_shake g h _ _ (ull_len (by omega)) fun a e => ?_
    rw [e, enc_eq, enc_eq]
    have := splice (toByte a.layer 4 ++ toByte a.tree 12) (toByte a.type 4) (toByte v 4)
      (toByte a.w1 4 ++ toByte a.w2 4 ++ toByte a.w3 4) 16 4 (by simp [length_toByte]) (length_toByte _ _)
    simpa only [List.append_assoc] using this

theorem set_keypair_ok (v : Nat) {ctx : Ctx} (g : AdrCtx S ctx) :
    SetsAdr S (set_keypair_adr S.E v ctx) ctx (fun a => { a with w1 := v }) := by
  have h22 := adr_ge22 g
  unfold set_keypair_adr
  rw [sha2Adr_eq g]
  cases h : S.ps.sha2 with
  | true =>
    rw [if_pos rfl, ts_ull_to_bytes_ok _ _ _ _ (by omega), ok_bind]
    refine sets_sha2 g h _ _ (ull_len (by omega)) fun a rest e => ?_
    rw [e, encc_eq, encc_eq]
    have := splice ([UInt8.ofNat a.layer] ++ toByte a.tree 8 ++ [UInt8.ofNat a.type]) (toByte a.w1 4) (toByte v 4)
      (toByte a.w2 4 ++ toByte a.w3 4 ++ rest) 10 4 (by simp [length_toByte]) (length_toByte _ _)
    simpa only [List.append_assoc] using this
  | false =>
    have h32 := adr_32 g h
    rw [if_neg (by decide), ts_ull_to_bytes_ok _ _ _ _ (by omega), ok_bind]
    refine sets_shake g h _ _ (ull_len (by omega)) fun a e => ?_
    rw [e, enc_eq, enc_eq]
    have := splice (toByte a.layer 4 ++ toByte a.tree 12 ++ toByte a.type 4) (toByte a.w1 4) (toByte v 4)
      (toByte a.w2 4 ++ toByte a.w3 4) 20 4 (by simp [length_toByte]) (length_toByte _ _)
    simpa only [List.append_assoc] using this

theorem set_tree_height_ok (v : Nat) {ctx : Ctx} (g : AdrCtx S ctx) :
    SetsAdr S (set_tree_height_adr S.E v ctx) ctx (fun a => { a with w2 := v }) := by
  have h22 := adr_ge22 g
  unfold set_tree_height_adr
  rw [sha2Adr_eq g]
  cases h : S.ps.sha2 with
  | true =>
    rw [if_pos rfl, ts_ull_to_bytes_ok _ _ _ _ (by omega), ok_bind]
    refine sets_sha2 g h _ _ (ull_len (by omega)) fun a rest e => ?_
    rw [e, encc_eq, encc_eq]
    have := splice ([UInt8.ofNat a.layer] ++ toByte a.tree 8 ++ [UInt8.ofNat a.type] ++ toByte a.w1 4) (toByte a.w2 4)
      (toByte v 4) (toByte a.w3 4 ++ rest) 14 4 (by simp [length_toByte]) (length_toByte _ _)
    simpa only [List.append_assoc] using this
  | false =>
    have h32 := adr_32 g h
    rw [if_neg (by decide), ts_ull_to_bytes_ok _ _ _ _ (by omega), ok_bind]
    refine sets_shake g h _ _ (ull_len (by omega)) fun a e => ?_
    rw [e, enc_eq, enc_eq]
    have := splice (toByte a.layer 4 ++ toByte a.tree 12 ++ toByte a.type 4 ++ toByte a.w1 4) (toByte a.w2 4) (toByte v 4)
      (toByte a.w3 4) 24 4 (by simp [length_toByte]) (length_toByte _ _)
    simpa only [List.append_assoc] using this

theorem set_tree_index_ok (v : Nat) {ctx : Ctx} (g : AdrCtx S ctx) :
    SetsAdr S (set_tree_index_adr S.E v ctx) ctx (fun a => { a with w3 := v }) := by
  have h22 := adr_ge22 g
  unfold set_tree_index_adr
  rw [sha2Adr_eq g]
  cases h : S.ps.sha2 with
  | true =>
    rw [if_pos rfl, ts_ull_to_bytes_ok _ _ _ _ (by omega), ok_bind]
    refine sets_sha2 g h _ _ (ull_len (by omega)) fun a rest e => ?_
    rw [e, encc_eq, encc_eq]
    have := splice ([UInt8.ofNat a.layer] ++ toByte a.tree 8 ++ [UInt8.ofNat a.type] ++ toByte a.w1 4 ++ toByte a.w2 4)
      (toByte a.w3 4) (toByte v 4) rest 18 4 (by simp [length_toByte]) (length_toByte _ _)
    simpa only [List.append_assoc] using this
  | false =>
    have h32 := adr_32 g h
    rw [if_neg (by decide), ts_ull_to_bytes_ok _ _ _ _ (by omega), ok_bind]
    refine sets_shake g h _ _ (ull_len (by omega)) fun a e => ?_
    rw [e, enc_eq, enc_eq]
    have := splice (toByte a.layer 4 ++ toByte a.tree 12 ++ toByte a.type 4 ++ toByte a.w1 4 ++ toByte a.w2 4)
      (toByte a.w3 4) (toByte v 4) [] 28 4 (by simp [length_toByte]) (length_toByte _ _)
    simpa only [List.append_assoc, List.append_nil] using this

theorem Good.withAdr {ctx : Ctx} (g : Good S ctx) {adr : Bytes} (h : adr.length = S.cfg.ADR_SIZE) :
    Good S { ctx with adr := adr } :=
  ⟨⟨h, g.buf, g.auth, g.x, g.si, g.bi⟩, g.ps, g.pk, g.pre⟩

theorem AdrCtx.withAdr {ctx : Ctx} (g : AdrCtx S ctx) {adr : Bytes} (h : adr.length = S.cfg.ADR_SIZE) :
    AdrCtx S { ctx with adr := adr } := ⟨g.ps, h⟩

/-- Result of a complete address set-up. -/
def HasAdr (S : Sess) (r : C Ctx) (ctx : Ctx) (a : Adrs) : Prop :=
  ∃ adr, r = .ok { ctx with adr := adr } ∧ adr.length = S.cfg.ADR_SIZE ∧ S.AdrIs adr a

/-- `ctx` with another address. -/
def Ctx.wa (ctx : Ctx) (adr : Bytes) : Ctx := { ctx with adr := adr }

theorem SetsAdr.wa {ctx : Ctx} {f : Ctx → C Ctx} {upd : Adrs → Adrs} (g : AdrCtx S ctx) {adr : Bytes} {a : Adrs}
    (l : adr.length = S.cfg.ADR_SIZE) (ha : S.AdrIs adr a) (h : ∀ c, AdrCtx S c → SetsAdr S (f c) c upd) :
    ∃ adr', f (ctx.wa adr) = .ok (ctx.wa adr') ∧ adr'.length = S.cfg.ADR_SIZE ∧ S.AdrIs adr' (upd a) := by
  obtain ⟨r, e, l', u⟩ := h _ (g.withAdr l)
  exact ⟨r, e, l', u _ ha⟩

/-- The six setters in a row determine the address, whatever it was. -/
theorem set_all {ctx : Ctx} (g : AdrCtx S ctx) (l t ty k h i : Nat) (r : C Ctx)
    (hr : r = (do
      let ctx ← set_layer_adr S.E l ctx
      let ctx ← set_tree_adr S.E t ctx
      let ctx ← set_type_adr S.E ty ctx
      let ctx ← set_keypair_adr S.E k ctx
      let ctx ← set_tree_height_adr S.E h ctx
      set_tree_index_adr S.E i ctx)) :
    HasAdr S r ctx ⟨l, t, ty, k, h, i⟩ := by
  obtain ⟨⟨b1, b2, b3, b4, b5, b6⟩, h0⟩ := adr_surj g
  obtain ⟨r1, e1, l1, v1⟩ := SetsAdr.wa g g.adr h0 (fun _ => set_layer_ok l)
  obtain ⟨r2, e2, l2, v2⟩ := SetsAdr.wa g l1 v1 (fun _ => set_tree_ok t)
  obtain ⟨r3, e3, l3, v3⟩ := SetsAdr.wa g l2 v2 (fun _ => set_type_ok ty)
  obtain ⟨r4, e4, l4, v4⟩ := SetsAdr.wa g l3 v3 (fun _ => set_keypair_ok k)
  obtain ⟨r5, e5, l5, v5⟩ := SetsAdr.wa g l4 v4 (fun _ => set_tree_height_ok h)
  obtain ⟨r6, e6, l6, v6⟩ := SetsAdr.wa g l5 v5 (fun _ => set_tree_index_ok i)
  refine ⟨r6, ?_, l6, v6⟩
  rw [hr, show set_layer_adr S.E l ctx = .ok (ctx.wa r1) from e1, ok_bind, e2, ok_bind, e3, ok_bind, e4, ok_bind,
    e5, ok_bind, e6]
  rfl

theorem set_wots_prf_adr_ok {ctx : Ctx} (g : AdrCtx S ctx) (kp c : Nat) :
    HasAdr S (set_wots_prf_adr S.E ctx kp c) ctx (Adrs.wotsPrf ctx.hypertree_level ctx.tree_address kp c) := by
  obtain ⟨adr, e, l, h⟩ := set_all g ctx.hypertree_level ctx.tree_address 5 kp c 0 _ rfl
  refine ⟨adr, ?_, l, h⟩
  rw [← e]
  obtain ⟨_, e1, l1, -⟩ := set_layer_ok ctx.hypertree_level g
  obtain ⟨_, e2, l2, -⟩ := set_tree_ok ctx.tree_address (g.withAdr l1)
  simp only [set_wots_prf_adr, e1, ok_bind, e2, ADR_TYPE_WOTS_PRF]

theorem ts_set_wots_f_adr_ok {ctx : Ctx} (g : AdrCtx S ctx) (kp c j : Nat) :
    HasAdr S (ts_set_wots_f_adr S.E ctx kp c j) ctx (Adrs.wotsHash ctx.hypertree_level ctx.tree_address kp c j) := by
  obtain ⟨adr, e, l, h⟩ := set_all g ctx.hypertree_level ctx.tree_address 0 kp c j _ rfl
  refine ⟨adr, ?_, l, h⟩
  rw [← e]
  obtain ⟨_, e1, l1, -⟩ := set_layer_ok ctx.hypertree_level g
  simp only [ts_set_wots_f_adr, e1, ok_bind, ADR_TYPE_WOTS]

theorem ts_set_wots_header_adr_ok {ctx : Ctx} (g : AdrCtx S ctx) (kp : Nat) :
    HasAdr S (ts_set_wots_header_adr S.E kp ctx) ctx (Adrs.wotsPk ctx.hypertree_level ctx.tree_address kp) := by
  obtain ⟨adr, e, l, h⟩ := set_all g ctx.hypertree_level ctx.tree_address 1 kp 0 0 _ rfl
  refine ⟨adr, ?_, l, h⟩
  rw [← e]
  obtain ⟨_, e1, l1, -⟩ := set_layer_ok ctx.hypertree_level g
  simp only [ts_set_wots_header_adr, e1, ok_bind, ADR_TYPE_WOTSPK]

theorem ts_set_fors_root_adr_ok {ctx : Ctx} (g : AdrCtx S ctx) :
    HasAdr S (ts_set_fors_root_adr S.E ctx) ctx (Adrs.forsRoots ctx.tree_address ctx.fors_keypair_addr) := by
  obtain ⟨adr, e, l, h⟩ := set_all g 0 ctx.tree_address 4 ctx.fors_keypair_addr 0 0 _ rfl
  refine ⟨adr, ?_, l, h⟩
  rw [← e]
  obtain ⟨_, e1, l1, -⟩ := set_layer_ok 0 g
  obtain ⟨_, e2, l2, -⟩ := set_tree_ok ctx.tree_address (g.withAdr l1)
  obtain ⟨_, e3, l3, -⟩ := set_type_ok ADR_TYPE_FORSPK (g.withAdr l2)
  simp only [ts_set_fors_root_adr, e1, e2, e3, ok_bind]
  simp only [ADR_TYPE_FORSPK] at e3
  simp only [e3, ok_bind]

theorem fors_idx {ctx : Ctx} (g : AdrCtx S ctx) {idx : Nat} (hk : ctx.fors_tree < S.P.k) (hi : idx < 2 ^ S.P.a) :
    (do addInt (← shlInt ctx.fors_tree ctx.ps.t) idx : C Nat) = .ok (ctx.fors_tree * 2 ^ S.P.a + idx) := by
  have ht : ctx.ps.t = S.P.a := by rw [g.ps]; exact S.facts.pt
  have h1 := S.facts.kle
  have h2 := S.facts.tle
  have h3 : (2 : Nat) ^ S.P.a ≤ 2 ^ 14 := Nat.pow_le_pow_right (by omega) h2
  have h4 : ctx.fors_tree * 2 ^ S.P.a ≤ 35 * 2 ^ 14 := Nat.mul_le_mul (by omega) h3
  rw [ht, shlInt, if_pos ⟨by omega, by omega⟩, ok_bind, addInt, if_pos (by omega)]

theorem set_fors_prf_adr_ok {ctx : Ctx} (g : AdrCtx S ctx) {idx : Nat} (hk : ctx.fors_tree < S.P.k)
    (hi : idx < 2 ^ S.P.a) :
    HasAdr S (set_fors_prf_adr S.E ctx idx) ctx
      (Adrs.forsPrf ctx.tree_address ctx.fors_keypair_addr (ctx.fors_tree * 2 ^ S.P.a + idx)) := by
  obtain ⟨adr, e, l, h⟩ := set_all g 0 ctx.tree_address 6 ctx.fors_keypair_addr 0 (ctx.fors_tree * 2 ^ S.P.a + idx) _ rfl
  refine ⟨adr, ?_, l, h⟩
  rw [← e]
  obtain ⟨_, e1, l1, -⟩ := set_layer_ok 0 g
  obtain ⟨_, e2, l2, -⟩ := set_tree_ok ctx.tree_address (g.withAdr l1)
  obtain ⟨_, e3, l3, -⟩ := set_type_ok 6 (g.withAdr l2)
  obtain ⟨_, e4, l4, -⟩ := set_keypair_ok ctx.fors_keypair_addr (g.withAdr l3)
  obtain ⟨_, e5, l5, -⟩ := set_tree_height_ok 0 (g.withAdr l4)
  have hidx := fors_idx g hk hi
  simp only [set_fors_prf_adr, e1, e2, e3, e4, e5, ok_bind, ADR_TYPE_FORS_PRF]
  rw [← bind_assoc, hidx, ok_bind]

theorem ts_set_fors_leaf_adr_ok {ctx : Ctx} (g : AdrCtx S ctx) {idx : Nat} (hk : ctx.fors_tree < S.P.k)
    (hi : idx < 2 ^ S.P.a) :
    HasAdr S (ts_set_fors_leaf_adr S.E ctx idx) ctx
      (Adrs.forsTree ctx.tree_address ctx.fors_keypair_addr 0 (ctx.fors_tree * 2 ^ S.P.a + idx)) := by
  obtain ⟨adr, e, l, h⟩ := set_all g 0 ctx.tree_address 3 ctx.fors_keypair_addr 0 (ctx.fors_tree * 2 ^ S.P.a + idx) _ rfl
  refine ⟨adr, ?_, l, h⟩
  rw [← e]
  obtain ⟨_, e1, l1, -⟩ := set_layer_ok 0 g
  obtain ⟨_, e2, l2, -⟩ := set_tree_ok ctx.tree_address (g.withAdr l1)
  obtain ⟨_, e3, l3, -⟩ := set_type_ok 3 (g.withAdr l2)
  obtain ⟨_, e4, l4, -⟩ := set_keypair_ok ctx.fors_keypair_addr (g.withAdr l3)
  obtain ⟨_, e5, l5, -⟩ := set_tree_height_ok 0 (g.withAdr l4)
  have hidx := fors_idx g hk hi
  simp only [ts_set_fors_leaf_adr, e1, e2, e3, e4, e5, ok_bind, ADR_TYPE_FORSTREE]
  rw [← bind_assoc, hidx, ok_bind]

/-- `ts_set_merkle_adr` for a node number below `2^16` (a leaf number of the current tree). -/
theorem ts_set_merkle_adr_ok {ctx : Ctx} (g : AdrCtx S ctx) {node level ty : Nat} (hk : ctx.fors_tree < S.P.k)
    (hn : node < 2 ^ 16) (hl : level < 16) :
    HasAdr S (ts_set_merkle_adr S.E ctx node level ty) ctx
      ⟨ctx.hypertree_level, ctx.tree_address, ty, ctx.fors_keypair_addr, level + 1,
        (ctx.fors_tree * 2 ^ S.P.a + node) / 2 ^ (level + 1)⟩ := by
  obtain ⟨adr, e, l, h⟩ := set_all g ctx.hypertree_level ctx.tree_address ty ctx.fors_keypair_addr (level + 1)
    ((ctx.fors_tree * 2 ^ S.P.a + node) / 2 ^ (level + 1)) _ rfl
  refine ⟨adr, ?_, l, h⟩
  rw [← e]
  obtain ⟨_, e1, l1, -⟩ := set_layer_ok ctx.hypertree_level g
  obtain ⟨_, e2, l2, -⟩ := set_tree_ok ctx.tree_address (g.withAdr l1)
  obtain ⟨_, e3, l3, -⟩ := set_type_ok ty (g.withAdr l2)
  obtain ⟨_, e4, l4, -⟩ := set_keypair_ok ctx.fors_keypair_addr (g.withAdr l3)
  obtain ⟨_, e5, l5, -⟩ := set_tree_height_ok (level + 1) (g.withAdr l4)
  have ht : ctx.ps.t = S.P.a := by rw [g.ps]; exact S.facts.pt
  have h1 := S.facts.kle
  have h2 := S.facts.tle
  have h3 : (2 : Nat) ^ S.P.a ≤ 2 ^ 14 := Nat.pow_le_pow_right (by omega) h2
  have h4 : ctx.fors_tree * 2 ^ S.P.a ≤ 35 * 2 ^ 14 := Nat.mul_le_mul (by omega) h3
  simp only [ts_set_merkle_adr, e1, e2, e3, e4, e5, ok_bind]
  rw [ht, shlInt, if_pos ⟨by omega, by omega⟩, ok_bind, shrU32, if_pos (by omega), ok_bind,
    Nat.mod_eq_of_lt (by omega)]

end Model
