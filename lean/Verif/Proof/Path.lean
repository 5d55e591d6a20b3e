import Verif.Proof.Tree
/-!
# `ts_merkle_path` and `next_auth_path`
-/
namespace Model
open Spec (Adrs toByte toInt)

/-! ## Generic trees -/

/-- A hash tree with the given leaves and node addresses; `i` numbers the nodes of level `z`. -/
def nodeG (T : Adrs → Bytes → Bytes) (leaf : Nat → Bytes) (adr : Nat → Nat → Adrs) (i : Nat) : Nat → Bytes
  | 0 => leaf i
  | z + 1 => T (adr (z + 1) i) (nodeG T leaf adr (2 * i) z ++ nodeG T leaf adr (2 * i + 1) z)

theorem xmssNode_eq (P : Spec.Params) (hf : Spec.HashFns) (sk pk : Bytes) (l t i z : Nat) :
    Spec.Slh.xmssNode P hf sk pk l t i z =
      nodeG (hf.T pk) (fun i => Spec.Slh.wotsPkGen P hf sk pk l t i) (Adrs.treeNode l t) i z := by
  induction z generalizing i with
  | zero => rfl
  | succ z ih => simp only [Spec.Slh.xmssNode, nodeG, ih]

theorem forsNode_eq (hf : Spec.HashFns) (sk pk : Bytes) (t kp i z : Nat) :
    Spec.Slh.forsNode hf sk pk t kp i z =
      nodeG (hf.T pk) (fun i => Spec.Slh.forsNode hf sk pk t kp i 0) (Adrs.forsTree t kp) i z := by
  induction z generalizing i with
  | zero => rfl
  | succ z ih => simp only [Spec.Slh.forsNode, nodeG, ih]

/-! ## Arithmetic -/

theorem xor_one (v : Nat) : v ^^^ 1 = if v % 2 = 0 then v + 1 else v - 1 := by
  apply Nat.eq_of_testBit_eq
  intro i
  rw [Nat.testBit_xor]
  cases i with
  | zero =>
    split
    · rename_i h
      simp only [Nat.testBit_zero]
      have h1 : (v + 1) % 2 = 1 := by omega
      simp [h, h1]
    · rename_i h
      simp only [Nat.testBit_zero]
      have h0 : v % 2 = 1 := by omega
      have h1 : (v - 1) % 2 = 0 := by omega
      simp [h0, h1]
  | succ i =>
    simp only [Nat.testBit_succ]
    have : (1 : Nat) / 2 = 0 := rfl
    rw [this, Nat.zero_testBit, Bool.xor_false]
    split
    · rw [show (v + 1) / 2 = v / 2 by omega]
    · rw [show (v - 1) / 2 = v / 2 by omega]

theorem and_high (x h : Nat) (hx : x < 2 ^ 32) (hh : h ≤ 32) : x &&& (2 ^ 32 - 2 ^ h) = x / 2 ^ h * 2 ^ h := by
  have e : (2 : Nat) ^ 32 - 2 ^ h = (2 ^ (32 - h) - 1) <<< h := by
    rw [Nat.shiftLeft_eq, Nat.sub_mul, ← Nat.pow_add, Nat.one_mul, show 32 - h + h = 32 by omega]
  rw [e, ← Nat.shiftRight_eq_div_pow, ← Nat.shiftLeft_eq]
  apply Nat.eq_of_testBit_eq
  intro i
  rw [Nat.testBit_and, Nat.testBit_shiftLeft, Nat.testBit_shiftLeft, Nat.testBit_two_pow_sub_one, Nat.testBit_shiftRight]
  by_cases hi : h ≤ i
  · rw [show h + (i - h) = i by omega]
    by_cases hb : x.testBit i = true
    · have : i < 32 := by
        rcases Nat.lt_or_ge i 32 with h | h
        · exact h
        · have := Nat.testBit_lt_two_pow (Nat.lt_of_lt_of_le hx (Nat.pow_le_pow_right (by omega) h))
          rw [this] at hb; exact absurd hb (by decide)
      have h2 : i - h < 32 - h := by omega
      simp [hi, hb, h2]
    · simp [hb]
  · simp [hi]

/-- The first leaf of the sibling subtree, tiny_sphincs.c:211-213. -/
theorem sibling_start (an h : Nat) (ha : an < 2 ^ 16) (hh : h < 16) :
    (an ^^^ 2 ^ h) &&& (2 ^ 32 - 1 - usub (2 ^ h) 1) = ((an / 2 ^ h) ^^^ 1) * 2 ^ h := by
  have h2 : (2 : Nat) ^ h ≤ 2 ^ 15 := Nat.pow_le_pow_right (by omega) (by omega)
  have h1 : 0 < (2 : Nat) ^ h := Nat.pow_pos (by omega)
  have hu : 2 ^ 32 - 1 - usub (2 ^ h) 1 = 2 ^ 32 - 2 ^ h := by unfold usub; omega
  rw [hu, and_high]
  · rw [← Nat.shiftRight_eq_div_pow, ← Nat.shiftRight_eq_div_pow, Nat.shiftRight_xor_distrib]
    congr 2
    rw [Nat.shiftRight_eq_div_pow, Nat.div_self h1]
  · exact Nat.lt_of_lt_of_le (Nat.xor_lt_two_pow (n := 16) ha (by omega)) (by decide)
  · omega

theorem and_bit (an h : Nat) : (an &&& 2 ^ h ≠ 0) ↔ (an / 2 ^ h) % 2 = 1 := by
  have e : an &&& 2 ^ h = if an.testBit h then 2 ^ h else 0 := by
    apply Nat.eq_of_testBit_eq
    intro i
    rw [Nat.testBit_and, Nat.testBit_two_pow]
    by_cases hi : h = i
    · subst hi
      cases hb : an.testBit h <;> simp
    · cases hb : an.testBit h <;> simp [hi]
  have h1 : 0 < (2 : Nat) ^ h := Nat.pow_pos (by omega)
  rw [e, Nat.testBit_eq_decide_div_mod_eq]
  by_cases hb : an / 2 ^ h % 2 = 1
  · simp [hb]
  · simp [hb]

theorem div_pow_succ (x k : Nat) : x / 2 ^ (k + 1) = x / 2 ^ k / 2 := by
  rw [Nat.pow_succ, Nat.div_div_eq_div_mul]

theorem even_div {B h k : Nat} (hB : 2 ^ h ∣ B) (hk : k < h) : (B / 2 ^ k) % 2 = 0 := by
  obtain ⟨c, rfl⟩ := hB
  have : 2 ^ h * c = 2 ^ k * (2 * (2 ^ (h - k - 1) * c)) := by
    rw [show h = k + 1 + (h - k - 1) by omega, Nat.pow_add, Nat.pow_succ, show k + 1 + (h - k - 1) - k - 1 = h - k - 1 by omega]
    simp only [Nat.mul_assoc]
  rw [this, Nat.mul_div_cancel_left _ (Nat.pow_pos (by omega))]
  omega

theorem add_div_pow {B h k : Nat} (i : Nat) (hB : 2 ^ h ∣ B) (hk : k ≤ h) : (B + i) / 2 ^ k = B / 2 ^ k + i / 2 ^ k := by
  obtain ⟨c, rfl⟩ := Nat.dvd_trans (Nat.pow_dvd_pow 2 hk) hB
  have hp : 0 < 2 ^ k := Nat.pow_pos (by omega)
  rw [Nat.mul_add_div hp, Nat.mul_div_cancel_left _ hp]

/-! ## The stack -/

/-- `n` bytes at offset `o`. -/
def sl (x : Bytes) (o n : Nat) : Bytes := (x.drop o).take n

theorem sl_congr {x y : Bytes} {o n : Nat} (hl : x.length = y.length) (h : ∀ i, o ≤ i → i < o + n → x.getD i 0 = y.getD i 0) :
    sl x o n = sl y o n := by
  apply Shake.list_ext_getD 0
  · simp [sl, hl]
  · intro i hi
    simp only [sl, List.length_take, List.length_drop] at hi
    have hin : i < n := by omega
    simp only [sl]
    rw [take_getD _ _ _ hin, take_getD _ _ _ hin, drop_getD, drop_getD]
    exact h _ (by omega) (by omega)

theorem sl_splice_self (x v : Bytes) (o : Nat) (h : o + v.length ≤ x.length) :
    sl (x.take o ++ v ++ x.drop (o + v.length)) o v.length = v := by
  have hl : (x.take o).length = o := by simp; omega
  unfold sl
  rw [List.append_assoc, drop_left' hl, take_left' rfl]

theorem sl_splice_ne (x v : Bytes) (o o' n : Nat) (h : o + v.length ≤ x.length) (hd : o' + n ≤ o ∨ o + v.length ≤ o') :
    sl (x.take o ++ v ++ x.drop (o + v.length)) o' n = sl x o' n := by
  apply sl_congr (length_splice _ _ _ h)
  intro i h1 h2
  rw [splice_getD _ _ _ _ h, if_neg (by omega)]

theorem length_sl (x : Bytes) (o n : Nat) (h : o + n ≤ x.length) : (sl x o n).length = n := by
  simp [sl]; omega

variable {S : Sess} {mem : Mem}

/-- Node address of the code, by level and index. -/
def pathAdr (L : Loc) (ty : Nat) (z i : Nat) : Adrs := ⟨L.hl, L.ta, ty, L.kp, z, i⟩

/-- The frame of steps that change scratch members and `buffer` only. -/
structure BufFrame (S : Sess) (c c' : Ctx) : Prop where
  good : Good S c'
  keep : Keep c c'
  auth : c'.auth_path_buffer = c.auth_path_buffer
  x : c'.x = c.x
  big : c'.big_iter = c.big_iter

theorem BufFrame.refl {c : Ctx} (g : Good S c) : BufFrame S c c := ⟨g, Keep.refl c, rfl, rfl, rfl⟩
theorem BufFrame.trans {a b c : Ctx} (h : BufFrame S a b) (h' : BufFrame S b c) : BufFrame S a c :=
  ⟨h'.good, h.keep.trans h'.keep, h'.auth.trans h.auth, h'.x.trans h.x, h'.big.trans h.big⟩

theorem Scr.bufFrame {c c' : Ctx} (g : Good S c) (h : Scr S c c') : BufFrame S c c' :=
  ⟨h.good g, h.keep, h.auth, h.xx, h.big⟩

theorem BufFrame.setBuf {c c' : Ctx} (h : BufFrame S c c') {b : Bytes} (hb : b.length = S.cfg.MAX_HASH) :
    BufFrame S c { c' with buffer := b } := by
  have g := h.good
  have k := h.keep
  exact ⟨⟨⟨g.adr, hb, g.auth, g.x, g.si, g.bi⟩, g.ps, g.pk, g.pre⟩, ⟨k.st, k.bo, k.loc, k.ml, k.an⟩, h.auth, h.x, h.big⟩

section path
variable (N : Nat → Nat → Bytes) (L : Loc) (ty h B : Nat) (stack : Region)

/-- The stack holds the left siblings for the set bits of `i`. -/
def StackInv (S : Sess) (i : Nat) (x : Bytes) : Prop :=
  ∀ k, k < h → (i / 2 ^ k) % 2 = 1 → sl x (stack.off + k * S.n) S.n = N k (B / 2 ^ k + i / 2 ^ k - 1)

variable {N L ty h B stack}

theorem pathInner_ok (hm : S.MemPub mem)
    (hN : ∀ z j, N (z + 1) j = S.hf.T S.pkSeed (pathAdr L ty (z + 1) j) (N z (2 * j) ++ N z (2 * j + 1)))
    (hB : 2 ^ h ∣ B) (hh : h < 14) (i leaf : Nat) (hi : i < 2 ^ h) (hft : L.ft < S.P.k)
    (hleaf : L.ft * 2 ^ S.P.a + leaf = B + i) (hl16 : leaf < 2 ^ 16)
    (hsz : h * S.n ≤ stack.size) (hx : stack.off + stack.size ≤ S.cfg.xSize)
    (fuel : Nat) : ∀ (k : Nat) (c : Ctx), i / 2 ^ k < fuel → k ≤ h → i % 2 ^ k = 2 ^ k - 1 →
      Good S c → c.loc = L → StackInv N h B stack S i c.x →
      c.buffer.take S.n = N k (B / 2 ^ k + i / 2 ^ k) →
      ∃ k' c', pathInner S.E mem stack ty leaf fuel (i / 2 ^ k) k c = .ok (k', c') ∧ k' ≤ h ∧
        i % 2 ^ k' = 2 ^ k' - 1 ∧ (i / 2 ^ k') % 2 = 0 ∧ BufFrame S c c' ∧
        c'.buffer.take S.n = N k' (B / 2 ^ k' + i / 2 ^ k') := by
  induction fuel with
  | zero => intro k c hf; exact absurd hf (Nat.not_lt_zero _)
  | succ fuel ih =>
    intro k c hf hk hmod g hloc hst hb
    have hn := ctx_n g
    unfold pathInner
    rw [show i / 2 ^ k &&& 1 = (i / 2 ^ k) % 2 from Nat.and_two_pow_sub_one_eq_mod _ 1]
    by_cases hodd : (i / 2 ^ k) % 2 = 1
    · rw [if_pos (by omega)]
      have hkh : k < h := by
        rcases Nat.lt_or_ge k h with h1 | h1
        · exact h1
        · have : i / 2 ^ k = 0 := Nat.div_eq_of_lt (Nat.lt_of_lt_of_le hi (Nat.pow_le_pow_right (by omega) h1))
          omega
      have hBe := even_div hB hkh
      obtain ⟨c1, e1, s1, a1⟩ := (ts_set_merkle_adr_ok (node := leaf) (level := k) (ty := ty) g
        (by rw [loc_ft hloc]; exact hft) hl16 (by omega)).scr g
      have g1 := s1.good g
      rw [loc_hl hloc, loc_ta hloc, loc_kp hloc, loc_ft hloc, hleaf, add_div_pow i hB (show k + 1 ≤ h by omega)] at a1
      have hkn : k * S.n + S.n ≤ stack.size := by
        have := Nat.mul_le_mul_right S.n (show k + 1 ≤ h by omega)
        rw [Nat.succ_mul] at this; omega
      have hxl : stack.off + k * S.n + S.n ≤ c1.x.length := by rw [g1.x]; omega
      have hsib := hst k hkh hodd
      have hsl : (sl c1.x (stack.off + k * S.n) S.n).length = S.n := length_sl _ _ _ hxl
      have hmx := S.facts.nmax
      obtain ⟨c2, e2, s2⟩ := combine_ok (x := sl c1.x (stack.off + k * S.n) S.n) (y := c1.buffer) (out := c1.buffer)
        g1 hm a1 (by omega) (by rw [g1.buf]; exact hmx) (by rw [g1.buf]; exact hmx)
      have hv : S.hf.T S.pkSeed (pathAdr L ty (k + 1) (B / 2 ^ (k + 1) + i / 2 ^ (k + 1)))
          ((sl c1.x (stack.off + k * S.n) S.n).take S.n ++ c1.buffer.take S.n) =
          N (k + 1) (B / 2 ^ (k + 1) + i / 2 ^ (k + 1)) := by
        rw [hN, List.take_of_length_le (by omega), s1.xx, hsib, s1.buf, hb]
        have e3 : 2 * (B / 2 ^ (k + 1) + i / 2 ^ (k + 1)) = B / 2 ^ k + i / 2 ^ k - 1 := by
          rw [div_pow_succ, div_pow_succ]
          have := Nat.zero_le (B / 2 ^ k); have := Nat.zero_le (i / 2 ^ k)
          omega
        have := Nat.zero_le (B / 2 ^ k); have := Nat.zero_le (i / 2 ^ k)
        rw [e3, show B / 2 ^ k + i / 2 ^ k - 1 + 1 = B / 2 ^ k + i / 2 ^ k by omega]
      have e2' : combine S.E mem c1.buffer (sl c1.x (stack.off + k * S.n) S.n) c1.buffer c1 =
          .ok (N (k + 1) (B / 2 ^ (k + 1) + i / 2 ^ (k + 1)) ++ c1.buffer.drop S.n, c2) := by
        rw [e2, ← hv]; rfl
      have hNl : (N (k + 1) (B / 2 ^ (k + 1) + i / 2 ^ (k + 1))).length = S.n := by rw [hN]; exact length_T _ _ _
      have f2 := ((s1.bufFrame g).trans (s2.bufFrame g1)).setBuf (b := N (k + 1) (B / 2 ^ (k + 1) + i / 2 ^ (k + 1)) ++ c1.buffer.drop S.n)
        (by rw [List.length_append, hNl, List.length_drop, g1.buf]; omega)
      obtain ⟨k', c', e4, h1, h2, h3, h4, h5⟩ := ih (k + 1) _ (by rw [div_pow_succ]; generalize i / 2 ^ k = q at hf hodd; omega) (by omega)
        (by
          rw [Nat.pow_succ, Nat.mod_mul, hmod, hodd]
          have := Nat.pow_pos (n := k) (show 0 < 2 by omega)
          omega)
        f2.good (f2.keep.loc.trans hloc) (by rw [f2.x]; exact hst) (take_left' hNl)
      refine ⟨k', c', ?_, h1, h2, h3, f2.trans h4, h5⟩
      simp only [hn]
      rw [e1, ok_bind, Region.get, if_pos hkn, rdSlice_ok hxl, ok_bind]
      change (combine S.E mem c1.buffer (sl c1.x (stack.off + k * S.n) S.n) c1.buffer c1 >>= _) = _
      rw [e2', ok_bind]
      simp only
      rw [Nat.shiftRight_eq_div_pow, Nat.pow_one, ← div_pow_succ]
      exact e4
    · rw [if_neg (by omega)]
      exact ⟨k, c, rfl, hk, hmod, by omega, BufFrame.refl g, hb⟩

/-- Updating the stack invariant after leaf `i`. -/
theorem StackInv.next {i k : Nat} {x x' : Bytes} (hx : stack.off + stack.size ≤ x.length)
    (hsz : h * S.n ≤ stack.size)
    (hst : StackInv N h B stack S i x) (hk : k ≤ h) (hmod : i % 2 ^ k = 2 ^ k - 1)
    (heven : (i / 2 ^ k) % 2 = 0) (hlen : ∀ z j, (N z j).length = S.n)
    (hx' : x' = if k < h then x.take (stack.off + k * S.n) ++ N k (B / 2 ^ k + i / 2 ^ k) ++ x.drop (stack.off + k * S.n + S.n) else x) :
    StackInv N h B stack S (i + 1) x' := by
  intro j hj hbit
  have hp : 0 < 2 ^ k := Nat.pow_pos (by omega)
  have hi1 : i + 1 = 2 ^ k * (i / 2 ^ k + 1) := by
    have := Nat.div_add_mod i (2 ^ k)
    rw [Nat.mul_add, Nat.mul_one]; omega
  rcases Nat.lt_trichotomy j k with hjk | hjk | hjk
  · -- below: the bit is zero
    exfalso
    have : (i + 1) / 2 ^ j % 2 = 0 := even_div (h := k) ⟨_, hi1⟩ hjk
    omega
  · subst hjk
    have hd : (i + 1) / 2 ^ j = i / 2 ^ j + 1 := by
      rw [hi1, Nat.mul_div_cancel_left _ hp]
    rw [hx', if_pos hj, hd]
    have hjn : j * S.n + S.n ≤ stack.size := by
      have := Nat.mul_le_mul_right S.n (show j + 1 ≤ h by omega)
      rw [Nat.succ_mul] at this; omega
    have hl := hlen j (B / 2 ^ j + i / 2 ^ j)
    have := sl_splice_self x (N j (B / 2 ^ j + i / 2 ^ j)) (stack.off + j * S.n) (by omega)
    rw [hl] at this
    rw [this]; congr 1
  · have hd : (i + 1) / 2 ^ j = i / 2 ^ j := by
      have e : j = k + 1 + (j - k - 1) := by omega
      rw [e, Nat.pow_add, Nat.pow_succ, ← Nat.div_div_eq_div_mul, ← Nat.div_div_eq_div_mul, ← Nat.div_div_eq_div_mul,
        ← Nat.div_div_eq_div_mul]
      congr 1
      have : (i + 1) / 2 ^ k = i / 2 ^ k + 1 := by rw [hi1, Nat.mul_div_cancel_left _ hp]
      omega
    rw [hd] at hbit ⊢
    rw [← hst j hj hbit, hx']
    split
    · rename_i hk'
      have hl := hlen k (B / 2 ^ k + i / 2 ^ k)
      have hkn : (k + 1) * S.n ≤ j * S.n := Nat.mul_le_mul_right _ (by omega)
      rw [Nat.succ_mul] at hkn
      have hjn : j * S.n ≤ h * S.n := Nat.mul_le_mul_right _ (by omega)
      have := sl_splice_ne x (N k (B / 2 ^ k + i / 2 ^ k)) (stack.off + k * S.n) (stack.off + j * S.n) S.n (by omega) (by omega)
      rw [hl] at this
      exact this
    · rfl

/-- What a leaf generator must do. -/
def LeafOK (S : Sess) (gen : Bytes → Nat → Ctx → C (Bytes × Ctx)) (leaf : Nat → Bytes) (L : Loc) (off : Nat) (kb : Prop)
    (bound : Nat) : Prop :=
  ∀ (c : Ctx) (out : Bytes) (idx : Nat), Good S c → c.loc = L → S.n ≤ out.length → idx < bound →
    ∃ c', gen out idx c = .ok (leaf idx ++ out.drop S.n, c') ∧ LeafFrame S off kb c c'

/-- The final combination, shared by signer and verifier. -/
def joinNode (E : Env) (mem : Mem) (size_h : Nat) (ctx : Ctx) : C (Bytes × Ctx) :=
  if ctx.auth_path_node &&& size_h ≠ 0
    then combine E mem ctx.auth_path_buffer ctx.buffer ctx.auth_path_buffer ctx
    else combine E mem ctx.auth_path_buffer ctx.auth_path_buffer ctx.buffer ctx

theorem joinNode_ok {ctx : Ctx} {a : Adrs} {h an : Nat} (g : Good S ctx) (hm : S.MemPub mem) (ha : S.AdrIs ctx.adr a)
    (han : ctx.auth_path_node = an) :
    ∃ c, joinNode S.E mem (2 ^ h) ctx = .ok ((if (an / 2 ^ h) % 2 = 0 then
        S.hf.T S.pkSeed a (ctx.auth_path_buffer.take S.n ++ ctx.buffer.take S.n)
        else S.hf.T S.pkSeed a (ctx.buffer.take S.n ++ ctx.auth_path_buffer.take S.n)) ++ ctx.auth_path_buffer.drop S.n, c) ∧
      Scr S ctx c := by
  have hmx := S.facts.nmax
  have hb : S.n ≤ ctx.buffer.length := by rw [g.buf]; exact hmx
  have hau : S.n ≤ ctx.auth_path_buffer.length := by rw [g.auth]; exact hmx
  unfold joinNode
  rw [han]
  by_cases hbit : (an / 2 ^ h) % 2 = 1
  · rw [if_pos ((and_bit an h).2 hbit), if_neg (by omega)]
    exact combine_ok g hm ha hb hau hau
  · rw [if_neg (fun hc => hbit ((and_bit an h).1 hc)), if_pos (by omega)]
    exact combine_ok g hm ha hau hb hau

/-- What one `ts_merkle_path` call leaves behind. -/
structure PathRes (S : Sess) (N : Nat → Nat → Bytes) (base an h off : Nat) (kb : Prop) (c c' : Ctx) : Prop where
  good : Good S c'
  st : c'.state = c.state
  bo : c'.buffer_offset = 0
  loc : c'.loc = c.loc
  ml : c'.merkle_level = h + 1
  ann : c'.auth_path_node = c.auth_path_node
  buf : c'.buffer.take S.n = N h (base / 2 ^ h + ((an / 2 ^ h) ^^^ 1))
  auth : c'.auth_path_buffer.take S.n = N (h + 1) ((base + an) / 2 ^ (h + 1))
  keepB : kb → c'.big_iter = c.big_iter ∧ ∀ i, i < off → c'.x.getD i 0 = c.x.getD i 0

theorem ts_merkle_path_ok {gen : Bytes → Nat → Ctx → C (Bytes × Ctx)} {ctx : Ctx} {kb : Prop} {H base an : Nat}
    (hm : S.MemPub mem) (g : Good S ctx) (hloc : ctx.loc = L)
    (hN : ∀ z j, N (z + 1) j = S.hf.T S.pkSeed (pathAdr L ty (z + 1) j) (N z (2 * j) ++ N z (2 * j + 1)))
    (hlen0 : ∀ j, (N 0 j).length = S.n)
    (hbase : base = L.ft * 2 ^ S.P.a) (hbH : 2 ^ H ∣ base) (hH : H ≤ 14) (hft : L.ft < S.P.k)
    (hgen : LeafOK S gen (fun i => N 0 (base + i)) L stack.off kb (2 ^ H))
    (hh : h = ctx.merkle_level) (hhH : h < H) (han : ctx.auth_path_node = an) (han2 : an < 2 ^ H)
    (hsz : (H - 1) * S.n ≤ stack.size) (hx : stack.off + stack.size ≤ S.cfg.xSize)
    (hauth : ctx.auth_path_buffer.take S.n = N h ((base + an) / 2 ^ h)) :
    ∃ c', ts_merkle_path S.E mem gen ctx ty stack = .ok c' ∧ PathRes S N base an h stack.off kb ctx c' := by
  have hn := ctx_n g
  have hmx := S.facts.nmax
  have hlen : ∀ z j, (N z j).length = S.n := by
    intro z j
    cases z with
    | zero => exact hlen0 j
    | succ z => rw [hN]; exact length_T _ _ _
  have hHp : (2 : Nat) ^ H ≤ 2 ^ 14 := Nat.pow_le_pow_right (by omega) hH
  have hhp : 0 < (2 : Nat) ^ h := Nat.pow_pos (by omega)
  have hHh : (2 : Nat) ^ H = 2 ^ h * 2 ^ (H - h) := by rw [← Nat.pow_add]; congr 1; omega
  -- the start leaf
  obtain ⟨st, hst⟩ : ∃ st, st = ((an / 2 ^ h) ^^^ 1) * 2 ^ h := ⟨_, rfl⟩
  have hqlt : (an / 2 ^ h) ^^^ 1 < 2 ^ (H - h) := by
    apply Nat.xor_lt_two_pow
    · exact Nat.div_lt_of_lt_mul (by rw [← hHh]; exact han2)
    · have := Nat.pow_le_pow_right (show 0 < 2 by omega) (show 1 ≤ H - h by omega)
      omega
  have hst2 : st + 2 ^ h ≤ 2 ^ H := by
    rw [hst, hHh, Nat.mul_comm (2 ^ h)]
    have := Nat.mul_le_mul_right (2 ^ h) (show (an / 2 ^ h ^^^ 1) + 1 ≤ 2 ^ (H - h) by omega)
    rw [Nat.succ_mul] at this; exact this
  have hbh : 2 ^ h ∣ base := Nat.dvd_trans (Nat.pow_dvd_pow 2 (by omega)) hbH
  have hB : 2 ^ h ∣ base + st := Nat.dvd_add hbh (by rw [hst]; exact Nat.dvd_mul_left _ _)
  have hszh : h * S.n ≤ stack.size := Nat.le_trans (Nat.mul_le_mul_right _ (by omega)) hsz
  -- the context after the increment
  let c0 : Ctx := { ctx with merkle_level := h + 1, auth_path_node := an }
  have g0 : Good S c0 := ⟨⟨g.adr, g.buf, g.auth, g.x, g.si, g.bi⟩, g.ps, g.pk, g.pre⟩
  -- the loop
  obtain ⟨c1, e1, p1, p2, p3, p4, p5, p6, p7⟩ := loop_inv
    (body := fun i ctx => do
      let leaf := (st + i) % 2 ^ 32
      let (b, ctx) ← gen ctx.buffer (← asInt leaf) ctx
      let ctx := { ctx with buffer := b }
      let (k, ctx) ← pathInner S.E mem stack ty leaf (i + 1) i 0 ctx
      if k < h then stack.put ctx (k * S.n) (← rdSlice ctx.buffer 0 S.n) else .ok ctx)
    (fun i c => Good S c ∧ Keep c0 c ∧ c.auth_path_buffer = ctx.auth_path_buffer ∧
      (kb → c.big_iter = ctx.big_iter ∧ ∀ i, i < stack.off → c.x.getD i 0 = ctx.x.getD i 0) ∧
      StackInv N h (base + st) stack S i c.x ∧ (i ≤ 2 ^ h) ∧
      (i = 2 ^ h → c.buffer.take S.n = N h ((base + st) / 2 ^ h)))
    (2 ^ h) 0 c0
    ⟨g0, Keep.refl c0, rfl, fun _ => ⟨rfl, fun _ _ => rfl⟩, fun k _ hbit => by simp at hbit, by omega, fun h0 => by omega⟩
    (by
      rintro i c - hi ⟨p1, p2, p3, p4, p5, -, -⟩
      have hi' : i < 2 ^ h := by omega
      have hmod : (st + i) % 2 ^ 32 = st + i := Nat.mod_eq_of_lt (by omega)
      have hai : asInt (st + i) = .ok (st + i) := by unfold asInt; rw [if_pos (by omega)]
      have hlc : c.loc = L := p2.loc.trans hloc
      obtain ⟨c2, e2, f2⟩ := hgen c c.buffer (st + i) p1 hlc (by rw [p1.buf]; exact hmx) (by omega)
      simp only at e2
      have g2 := f2.good
      have hl0 := hlen 0 (base + (st + i))
      let c3 : Ctx := { c2 with buffer := N 0 (base + (st + i)) ++ c.buffer.drop S.n }
      have g3 : Good S c3 := ⟨⟨g2.adr, by
        show (N 0 (base + (st + i)) ++ c.buffer.drop S.n).length = _
        rw [List.length_append, hl0, List.length_drop, p1.buf]; omega, g2.auth, g2.x, g2.si, g2.bi⟩, g2.ps, g2.pk, g2.pre⟩
      have st3 : StackInv N h (base + st) stack S i c3.x := by
        intro k hk hbit
        rw [← p5 k hk hbit]
        apply sl_congr (by show c2.x.length = _; rw [g2.x, p1.x])
        intro m hm1 _
        exact f2.x m (by omega)
      obtain ⟨k, c4, e4, q1, q2, q3, q4, q5⟩ := pathInner_ok (mem := mem) (N := N) (L := L) (ty := ty) (h := h) (B := base + st)
        (stack := stack) hm hN hB (by omega) i (st + i) hi' hft (by rw [hbase]; omega) (by omega) hszh hx (i + 1) 0 c3
        (by simp) (by omega) (by simp [Nat.mod_one]) g3 (f2.keep.loc.trans hlc) st3
        (by
          show (N 0 (base + (st + i)) ++ c.buffer.drop S.n).take S.n = _
          rw [take_left' hl0]; simp [Nat.add_assoc])
      simp only [Nat.pow_zero, Nat.div_one] at e4
      have g4 := q4.good
      have hx4 : stack.off + stack.size ≤ c4.x.length := by rw [g4.x]; exact hx
      -- the final `put`
      obtain ⟨X, hX⟩ : ∃ X, X = if k < h then c4.x.take (stack.off + k * S.n) ++ N k ((base + st) / 2 ^ k + i / 2 ^ k) ++
          c4.x.drop (stack.off + k * S.n + S.n) else c4.x := ⟨_, rfl⟩
      have hput : ∃ c5, (if k < h then (do stack.put c4 (k * S.n) (← rdSlice c4.buffer 0 S.n) : C Ctx) else .ok c4) = .ok c5 ∧
          c5 = { c4 with x := X } := by
        by_cases hkh : k < h
        · have hkn : k * S.n + S.n ≤ stack.size := by
            have := Nat.mul_le_mul_right S.n (show k + 1 ≤ h by omega)
            rw [Nat.succ_mul] at this; omega
          have hl := hlen k ((base + st) / 2 ^ k + i / 2 ^ k)
          rw [if_pos hkh] at hX
          rw [if_pos hkh, rdSlice_zero (by rw [g4.buf]; exact hmx), ok_bind, q5, Region.put,
            if_pos (by rw [hl]; exact hkn), wrSlice_ok (by rw [hl]; omega), ok_bind, hl, hX]
          exact ⟨_, rfl, rfl⟩
        · rw [if_neg hkh] at hX
          rw [if_neg hkh, hX]
          exact ⟨_, rfl, rfl⟩
      obtain ⟨c5, e5, h5⟩ := hput
      have k4 := q4.keep
      have k2 := f2.keep
      refine ⟨c5, ?_, ?_⟩
      · simp only [hmod]
        rw [hai, ok_bind, e2, ok_bind]
        simp only
        rw [show pathInner S.E mem stack ty (st + i) (i + 1) i 0
          { c2 with buffer := N 0 (base + (st + i)) ++ c.buffer.drop S.n } = .ok (k, c4) from e4, ok_bind]
        exact e5
      · have hx5 : c5.x = if k < h then c4.x.take (stack.off + k * S.n) ++ N k ((base + st) / 2 ^ k + i / 2 ^ k) ++
            c4.x.drop (stack.off + k * S.n + S.n) else c4.x := by rw [h5]; exact hX
        have hl := hlen k ((base + st) / 2 ^ k + i / 2 ^ k)
        have hspl : k < h → stack.off + k * S.n + (N k ((base + st) / 2 ^ k + i / 2 ^ k)).length ≤ c4.x.length := by
          intro hkh
          have := Nat.mul_le_mul_right S.n (show k + 1 ≤ h by omega)
          rw [Nat.succ_mul] at this; omega
        have hl5 : c5.x.length = c4.x.length := by
          rw [hx5]
          split
          · rename_i hkh
            have := length_splice c4.x (N k ((base + st) / 2 ^ k + i / 2 ^ k)) (stack.off + k * S.n) (hspl hkh)
            rw [hl] at this; exact this
          · rfl
        refine ⟨?_, ?_, ?_, ?_, ?_, by omega, ?_⟩
        · rw [h5]
          rw [h5] at hl5
          exact ⟨⟨g4.adr, g4.buf, g4.auth, hl5.trans g4.x, g4.si, g4.bi⟩, g4.ps, g4.pk, g4.pre⟩
        · have k34 : Keep c2 c4 := ⟨k4.st, k4.bo, k4.loc, k4.ml, k4.an⟩
          have k45 : Keep c4 c5 := by rw [h5]; exact ⟨rfl, rfl, rfl, rfl, rfl⟩
          exact p2.trans (k2.trans (k34.trans k45))
        · rw [h5]
          exact (q4.auth.trans f2.auth).trans p3
        · intro hkb
          obtain ⟨b1, b2⟩ := p4 hkb
          obtain ⟨b3, b4⟩ := f2.big hkb
          have hxx : c4.x = c.x := q4.x.trans b4
          refine ⟨by rw [h5]; exact (q4.big.trans b3).trans b1, fun m hm' => ?_⟩
          rw [← b2 m hm', hx5, hxx]
          split
          · rename_i hkh
            have := splice_getD c.x (N k ((base + st) / 2 ^ k + i / 2 ^ k)) (stack.off + k * S.n) m (by rw [← hxx]; exact hspl hkh)
            rw [hl] at this
            rw [this, if_neg (by omega)]
          · rfl
        · exact StackInv.next hx4 hszh (by rw [q4.x]; exact st3) q1 q2 q3 hlen hx5
        · intro hlast
          have hkh : k = h := by
            rcases Nat.lt_or_ge k h with hk | hk
            · exfalso
              have : i = 2 ^ h - 1 := by omega
              have hp : (i + 1) = 2 ^ k * (i / 2 ^ k + 1) := by
                have := Nat.div_add_mod i (2 ^ k)
                have := Nat.pow_pos (n := k) (show 0 < 2 by omega)
                rw [Nat.mul_add, Nat.mul_one]; omega
              have he : (i + 1) / 2 ^ k % 2 = 0 := even_div (h := h) (by rw [hlast]) hk
              rw [hp, Nat.mul_div_cancel_left _ (Nat.pow_pos (by omega))] at he
              omega
            · omega
          rw [h5]
          show c4.buffer.take S.n = _
          rw [q5, hkh, Nat.div_eq_of_lt hi', Nat.add_zero])
  simp only [Nat.zero_add] at p5 p6 p7
  have p7 := p7 trivial
  -- the last step
  let c2 : Ctx := { c1 with buffer_offset := 0 }
  have g2 : Good S c2 := ⟨⟨p1.adr, p1.buf, p1.auth, p1.x, p1.si, p1.bi⟩, p1.ps, p1.pk, p1.pre⟩
  have hl2 : c2.loc = L := p2.loc.trans hloc
  obtain ⟨c3, e3, s3, a3⟩ := (ts_set_merkle_adr_ok (node := st) (level := h) (ty := ty) g2
    (by rw [loc_ft hl2]; exact hft) (by omega) (by omega)).scr g2
  have g3 := s3.good g2
  rw [loc_hl hl2, loc_ta hl2, loc_kp hl2, loc_ft hl2, ← hbase] at a3
  -- index of the parent
  have hdst : st / 2 ^ h = (an / 2 ^ h) ^^^ 1 := by rw [hst, Nat.mul_div_cancel _ hhp]
  have hb1 : (base + st) / 2 ^ h = base / 2 ^ h + ((an / 2 ^ h) ^^^ 1) := by rw [add_div_pow st hbh (Nat.le_refl _), hdst]
  have hb2 : (base + an) / 2 ^ h = base / 2 ^ h + an / 2 ^ h := add_div_pow an hbh (Nat.le_refl _)
  have hbe := even_div hbH hhH
  have := Nat.zero_le (base / 2 ^ h); have := Nat.zero_le (an / 2 ^ h)
  have hpar : (base + st) / 2 ^ (h + 1) = (base + an) / 2 ^ (h + 1) := by
    rw [div_pow_succ, div_pow_succ, hb1, hb2, xor_one]
    split <;> omega
  have han3 : c3.auth_path_node = an := by rw [s3.keep.an]; exact p2.an
  obtain ⟨c4, e4, s4⟩ := joinNode_ok (h := h) (an := an) (mem := mem) g3 hm a3 han3
  rw [s3.auth, s3.buf, show c2.auth_path_buffer = ctx.auth_path_buffer from p3, show c2.buffer = c1.buffer from rfl,
    hauth, p7, hb1, hb2] at e4
  have hv : (if an / 2 ^ h % 2 = 0 then
      S.hf.T S.pkSeed ⟨L.hl, L.ta, ty, L.kp, h + 1, (base + st) / 2 ^ (h + 1)⟩ (N h (base / 2 ^ h + an / 2 ^ h) ++ N h (base / 2 ^ h + (an / 2 ^ h ^^^ 1)))
      else S.hf.T S.pkSeed ⟨L.hl, L.ta, ty, L.kp, h + 1, (base + st) / 2 ^ (h + 1)⟩ (N h (base / 2 ^ h + (an / 2 ^ h ^^^ 1)) ++ N h (base / 2 ^ h + an / 2 ^ h))) =
      N (h + 1) ((base + an) / 2 ^ (h + 1)) := by
    rw [hN, hpar, pathAdr, div_pow_succ (base + an), hb2, xor_one]
    split
    · rename_i he
      rw [show 2 * ((base / 2 ^ h + an / 2 ^ h) / 2) = base / 2 ^ h + an / 2 ^ h by omega, Nat.add_assoc]
    · rename_i he
      rw [show 2 * ((base / 2 ^ h + an / 2 ^ h) / 2) + 1 = base / 2 ^ h + an / 2 ^ h by omega,
        show 2 * ((base / 2 ^ h + an / 2 ^ h) / 2) = base / 2 ^ h + (an / 2 ^ h - 1) by omega]
  rw [hv] at e4
  have k3 := s3.keep
  have k4 := s4.keep
  have g4 := s4.good g3
  have hlN := hlen (h + 1) ((base + an) / 2 ^ (h + 1))
  refine ⟨{ c4 with auth_path_buffer := N (h + 1) ((base + an) / 2 ^ (h + 1)) ++ ctx.auth_path_buffer.drop S.n }, ?_, ?_⟩
  · have hml : (ctx.merkle_level + 1) % 256 = h + 1 := by omega
    have hsl : shlInt 1 h = .ok (2 ^ h) := by
      have : (2 : Nat) ^ h ≤ 2 ^ 14 := Nat.pow_le_pow_right (by omega) (by omega)
      unfold shlInt; rw [if_pos ⟨by omega, by omega⟩, Nat.one_mul]
    unfold ts_merkle_path
    simp only [hn, ← hh]
    rw [hsl, ok_bind]
    rw [← hh] at hml
    rw [hml, han, sibling_start an h (by omega) (by omega), ← hst]
    change ((loop _ (2 ^ h) 0 c0 : C Ctx) >>= _) = _
    rw [e1, ok_bind]
    change (ts_set_merkle_adr S.E c2 st h ty >>= _) = _
    rw [e3, ok_bind]
    refine Eq.trans (b := joinNode S.E mem (2 ^ h) c3 >>= fun x => .ok { x.2 with auth_path_buffer := x.1 }) ?_ ?_
    · unfold joinNode
      by_cases hc : c3.auth_path_node &&& 2 ^ h ≠ 0
      · rw [if_pos hc, if_pos hc]
      · rw [if_neg hc, if_neg hc]
    · rw [e4, ok_bind]
  · refine ⟨⟨⟨g4.adr, g4.buf, ?_, g4.x, g4.si, g4.bi⟩, g4.ps, g4.pk, g4.pre⟩, ?_, ?_, ?_, ?_, ?_, ?_, take_left' hlN, ?_⟩
    · show (N (h + 1) ((base + an) / 2 ^ (h + 1)) ++ ctx.auth_path_buffer.drop S.n).length = _
      rw [List.length_append, hlN, List.length_drop, g.auth]; omega
    · exact k4.st.trans (k3.st.trans p2.st)
    · exact k4.bo.trans k3.bo
    · exact k4.loc.trans (k3.loc.trans p2.loc)
    · exact k4.ml.trans (k3.ml.trans p2.ml)
    · exact k4.an.trans (k3.an.trans (p2.an.trans han.symm))
    · show c4.buffer.take S.n = _
      rw [s4.buf, s3.buf, ← hb1]; exact p7
    · intro hkb
      obtain ⟨b1, b2⟩ := p4 hkb
      exact ⟨(s4.big.trans s3.big).trans b1, fun i hi => by
        rw [← b2 i hi]
        show c4.x.getD i 0 = _
        rw [s4.xx, s3.xx]⟩

/-- `next_auth_path` (verifier). -/
theorem next_auth_path_ok {ctx : Ctx} {h an base : Nat} (hm : S.MemPub mem) (g : Good S ctx) (hloc : ctx.loc = L)
    (hbase : base = L.ft * 2 ^ S.P.a) (hft : L.ft < S.P.k) (hh : ctx.merkle_level = h) (hh14 : h < 14)
    (han : ctx.auth_path_node = an) (han2 : an < 2 ^ 14) :
    ∃ c', next_auth_path S.E mem ctx ty = .ok c' ∧ Good S c' ∧ c'.state = ctx.state ∧
      c'.buffer_offset = ctx.buffer_offset ∧ c'.loc = ctx.loc ∧ c'.merkle_level = h + 1 ∧
      c'.auth_path_node = ctx.auth_path_node ∧ c'.big_iter = ctx.big_iter ∧ c'.x = ctx.x ∧
      c'.auth_path_buffer.take S.n = (if (an / 2 ^ h) % 2 = 0 then
        S.hf.T S.pkSeed (pathAdr L ty (h + 1) ((base + an) / 2 ^ (h + 1))) (ctx.auth_path_buffer.take S.n ++ ctx.buffer.take S.n)
        else S.hf.T S.pkSeed (pathAdr L ty (h + 1) ((base + an) / 2 ^ (h + 1))) (ctx.buffer.take S.n ++ ctx.auth_path_buffer.take S.n)) := by
  let c0 : Ctx := { ctx with merkle_level := h + 1, auth_path_node := an }
  have g0 : Good S c0 := ⟨⟨g.adr, g.buf, g.auth, g.x, g.si, g.bi⟩, g.ps, g.pk, g.pre⟩
  have hl0 : c0.loc = L := hloc
  have hmx := S.facts.nmax
  obtain ⟨c3, e3, s3, a3⟩ := (ts_set_merkle_adr_ok (node := an) (level := h) (ty := ty) g0
    (by rw [loc_ft hl0]; exact hft) (by omega) (by omega)).scr g0
  have g3 := s3.good g0
  rw [loc_hl hl0, loc_ta hl0, loc_kp hl0, loc_ft hl0, ← hbase] at a3
  obtain ⟨c4, e4, s4⟩ := joinNode_ok (h := h) (an := an) (mem := mem) g3 hm a3 s3.keep.an
  rw [s3.auth, s3.buf, show c0.auth_path_buffer = ctx.auth_path_buffer from rfl, show c0.buffer = ctx.buffer from rfl] at e4
  have g4 := s4.good g3
  have k3 := s3.keep
  have k4 := s4.keep
  have hsl : shlInt 1 h = .ok (2 ^ h) := by
    have : (2 : Nat) ^ h ≤ 2 ^ 14 := Nat.pow_le_pow_right (by omega) (by omega)
    unfold shlInt; rw [if_pos ⟨by omega, by omega⟩, Nat.one_mul]
  have hml : (h + 1) % 256 = h + 1 := by omega
  generalize hV : (if (an / 2 ^ h) % 2 = 0 then
        S.hf.T S.pkSeed ⟨L.hl, L.ta, ty, L.kp, h + 1, (base + an) / 2 ^ (h + 1)⟩ (ctx.auth_path_buffer.take S.n ++ ctx.buffer.take S.n)
        else S.hf.T S.pkSeed ⟨L.hl, L.ta, ty, L.kp, h + 1, (base + an) / 2 ^ (h + 1)⟩ (ctx.buffer.take S.n ++ ctx.auth_path_buffer.take S.n)) = V at e4
  have hVl : V.length = S.n := by rw [← hV]; split <;> exact length_T _ _ _
  refine ⟨{ c4 with auth_path_buffer := V ++ ctx.auth_path_buffer.drop S.n }, ?_, ?_, ?_, ?_, ?_, ?_, ?_, ?_, ?_, ?_⟩
  · unfold next_auth_path
    simp only [hh]
    rw [hsl, ok_bind, hml, han]
    change (ts_set_merkle_adr S.E c0 an h ty >>= _) = _
    rw [e3, ok_bind]
    refine Eq.trans (b := joinNode S.E mem (2 ^ h) c3 >>= fun x => .ok { x.2 with auth_path_buffer := x.1 }) ?_ ?_
    · unfold joinNode
      by_cases hc : c3.auth_path_node &&& 2 ^ h ≠ 0
      · rw [if_pos hc, if_pos hc]
      · rw [if_neg hc, if_neg hc]
    · rw [e4, ok_bind]
  · refine ⟨⟨g4.adr, g4.buf, ?_, g4.x, g4.si, g4.bi⟩, g4.ps, g4.pk, g4.pre⟩
    show (V ++ ctx.auth_path_buffer.drop S.n).length = _
    rw [List.length_append, hVl, List.length_drop, g.auth]; omega
  · exact k4.st.trans k3.st
  · exact k4.bo.trans k3.bo
  · exact k4.loc.trans k3.loc
  · exact k4.ml.trans k3.ml
  · exact k4.an.trans (k3.an.trans han.symm)
  · exact s4.big.trans s3.big
  · exact s4.xx.trans s3.xx
  · exact (take_left' hVl).trans hV.symm

end path

end Model
